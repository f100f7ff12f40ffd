import Verif.Model.Metrics
import Mathlib.Tactic.Linarith
import Mathlib.Tactic.LinearCombination
import Mathlib.Tactic.Positivity
import Mathlib.Tactic.FieldSimp
import Mathlib.Tactic.Ring

/-!
# Lemmas about the metrics
-/

namespace RT1.Metrics
open General

variable {ι : Type} [DecidableEq ι] {α : Type}

/-- Sum over a list. -/
def S (l : List α) (f : α → ℝ) : ℝ := (l.map f).sum

theorem S_add (l : List α) (f g : α → ℝ) : S l (fun x => f x + g x) = S l f + S l g := by
  induction l with
  | nil => simp [S]
  | cons x l ih => simp only [S, List.map_cons, List.sum_cons] at *; rw [ih]; ring

theorem S_mul (l : List α) (c : ℝ) (f : α → ℝ) : S l (fun x => c * f x) = c * S l f := by
  induction l with
  | nil => simp [S]
  | cons x l ih => simp only [S, List.map_cons, List.sum_cons] at *; rw [ih]; ring

theorem S_const (l : List α) (c : ℝ) : S l (fun _ => c) = l.length * c := by
  induction l with
  | nil => simp [S]
  | cons x l ih => simp only [S, List.map_cons, List.sum_cons, List.length_cons] at *; rw [ih]; push_cast; ring

theorem S_nonneg (l : List α) {f : α → ℝ} (h : ∀ x ∈ l, 0 ≤ f x) : 0 ≤ S l f := by
  apply List.sum_nonneg
  intro y hy
  obtain ⟨x, hx, rfl⟩ := List.mem_map.1 hy
  exact h x hx

theorem S_congr (l : List α) {f g : α → ℝ} (h : ∀ x ∈ l, f x = g x) : S l f = S l g := by
  unfold S; rw [List.map_congr_left h]

theorem S_mono (l : List α) {f g : α → ℝ} (h : ∀ x ∈ l, f x ≤ g x) : S l f ≤ S l g := by
  have := S_nonneg l (f := fun x => g x + (-1) * f x) fun x hx => by linarith [h x hx]
  rw [S_add, S_mul] at this
  linarith

theorem S_map {β : Type} (l : List α) (g : α → β) (f : β → ℝ) : S (l.map g) f = S l fun x => f (g x) := by
  simp [S, Function.comp_def]

theorem S_zero_iff (l : List α) {f : α → ℝ} (h : ∀ x ∈ l, 0 ≤ f x) : S l f = 0 ↔ ∀ x ∈ l, f x = 0 := by
  induction l with
  | nil => simp [S]
  | cons x l ih =>
    have hx := h x List.mem_cons_self
    have hl := S_nonneg l fun y hy => h y (List.mem_cons_of_mem _ hy)
    have e : S (x :: l) f = f x + S l f := by simp [S]
    rw [e, List.forall_mem_cons, ← ih fun y hy => h y (List.mem_cons_of_mem _ hy)]
    constructor
    · intro h'; exact ⟨by linarith, by linarith⟩
    · rintro ⟨h1, h2⟩; rw [h1, h2]; ring

/-- Cauchy–Schwarz. -/
theorem S_cs (l : List α) (f g : α → ℝ) : S l (fun x => f x * g x) ^ 2 ≤ S l (fun x => f x ^ 2) * S l (fun x => g x ^ 2) := by
  set A := S l (fun x => f x ^ 2) with hA
  set B := S l (fun x => g x ^ 2) with hB
  set C := S l (fun x => f x * g x) with hC
  have hA0 : 0 ≤ A := S_nonneg l fun x _ => sq_nonneg _
  have key : ∀ s t : ℝ, 0 ≤ s ^ 2 * A + 2 * s * t * C + t ^ 2 * B := by
    intro s t
    have h := S_nonneg l (f := fun x => (s * f x + t * g x) ^ 2) fun x _ => sq_nonneg _
    have e : S l (fun x => (s * f x + t * g x) ^ 2) = s ^ 2 * A + 2 * s * t * C + t ^ 2 * B := by
      rw [hA, hB, hC, ← S_mul, ← S_mul, ← S_mul, ← S_add, ← S_add]
      exact S_congr l fun x _ => by ring
    rw [e] at h; exact h
  rcases hA0.eq_or_lt with h0 | h0
  · by_cases hC0 : C = 0
    · rw [hC0, ← h0]; simp
    · have h1 := key (-(B + 1) / (2 * C)) 1
      rw [← h0] at h1
      have e : (-(B + 1) / (2 * C)) ^ 2 * 0 + 2 * (-(B + 1) / (2 * C)) * 1 * C + 1 ^ 2 * B = -1 := by
        field_simp; ring
      linarith
  · have h1 := key (-C) A
    have : 0 ≤ A * (A * B - C ^ 2) := by linarith
    have := nonneg_of_mul_nonneg_right this h0
    linarith

theorem mean_some {l : List ℝ} (h : l ≠ []) : mean l = some (S l id / l.length) := by simp [mean, h, S]

theorem mean_map {l : List α} (h : l ≠ []) (f : α → ℝ) : mean (l.map f) = some (S l f / l.length) := by
  simp [mean, h, S]

theorem length_pos {l : List α} (h : l ≠ []) : (0 : ℝ) < l.length := by
  exact_mod_cast List.length_pos_iff.2 h

/-- Two series with the same index, as pairs of values. -/
theorem paired {a b : Series ι} (h : a.map Prod.fst = b.map Prod.fst) :
    (align a b).map Prod.fst = vals a ∧ (align a b).map Prod.snd = vals b ∧ (align a b).length = a.length := by
  have hl : a.length = b.length := by simpa using congrArg List.length h
  unfold align
  rw [if_pos h]
  refine ⟨List.map_fst_zip (by simp [vals, hl]), List.map_snd_zip (by simp [vals, hl]), by simp [vals, hl]⟩

theorem align_map {a b : Series ι} (h : a.map Prod.fst = b.map Prod.fst) (f g : ℝ → ℝ) :
    align (a.map fun e => (e.1, f e.2)) (b.map fun e => (e.1, g e.2)) = (align a b).map fun p => (f p.1, g p.2) := by
  have h' : (a.map fun e => (e.1, f e.2)).map Prod.fst = (b.map fun e => (e.1, g e.2)).map Prod.fst := by
    simpa [Function.comp_def] using h
  unfold align
  rw [if_pos h', if_pos h]
  simp only [vals, List.map_map, List.zip_map]
  rfl

theorem align_swap {a b : Series ι} (h : a.map Prod.fst = b.map Prod.fst) : align b a = (align a b).map Prod.swap := by
  unfold align
  rw [if_pos h, if_pos h.symm, List.zip_swap]

theorem ssq_eq (l : List ℝ) (h : l ≠ []) : ssq l = S l (fun x => x ^ 2) - (S l id) ^ 2 / l.length := by
  have hn := length_pos h
  have e : ssq l = S l (fun x => x ^ 2 + ((-2 * (S l id / l.length)) * x + (S l id / l.length) ^ 2)) := by
    unfold ssq
    refine S_congr l fun x _ => ?_
    simp only [S, List.map_id]; ring
  rw [e, S_add, S_add, S_mul, S_const]
  change _ + (_ * S l id + _) = _
  field_simp
  ring

theorem ssq_nonneg (l : List ℝ) : 0 ≤ ssq l := S_nonneg l fun _ _ => sq_nonneg _

theorem sxy_sq (ps : List (ℝ × ℝ)) : sxy ps ^ 2 ≤ ssq (ps.map Prod.fst) * ssq (ps.map Prod.snd) := by
  have := S_cs ps (fun p => p.1 - (ps.map Prod.fst).sum / ps.length) (fun p => p.2 - (ps.map Prod.snd).sum / ps.length)
  refine this.trans (le_of_eq ?_)
  simp only [ssq, S, List.map_map, List.length_map]
  rfl

theorem sum_affine (l : List α) (f : α → ℝ) (c d : ℝ) :
    (l.map fun x => c * f x + d).sum = c * (l.map f).sum + l.length * d := by
  have := S_add l (fun x => c * f x) (fun _ => d)
  rw [S_mul, S_const] at this
  exact this

theorem ssq_affine (l : List ℝ) (c d : ℝ) : ssq (l.map fun x => c * x + d) = c ^ 2 * ssq l := by
  by_cases h : l = []
  · simp [h, ssq]
  have hn := (length_pos h).ne'
  unfold ssq
  rw [sum_affine l (fun x => x)]
  simp only [List.map_map, List.length_map, List.map_id']
  change S l _ = c ^ 2 * S l _
  rw [← S_mul]
  refine S_congr l fun x _ => ?_
  simp only [Function.comp_apply]
  field_simp
  ring

theorem sxy_affine (ps : List (ℝ × ℝ)) (c d c' d' : ℝ) :
    sxy (ps.map fun p => (c * p.1 + d, c' * p.2 + d')) = c * c' * sxy ps := by
  by_cases h : ps = []
  · simp [h, sxy]
  have hn := (length_pos h).ne'
  unfold sxy
  have e1 : ((ps.map fun p => (c * p.1 + d, c' * p.2 + d')).map Prod.fst).sum = c * (ps.map Prod.fst).sum + ps.length * d := by
    rw [List.map_map]; exact sum_affine ps Prod.fst c d
  have e2 : ((ps.map fun p => (c * p.1 + d, c' * p.2 + d')).map Prod.snd).sum = c' * (ps.map Prod.snd).sum + ps.length * d' := by
    rw [List.map_map]; exact sum_affine ps Prod.snd c' d'
  rw [e1, e2]
  simp only [List.map_map, List.length_map]
  change S ps _ = c * c' * S ps _
  rw [← S_mul]
  refine S_congr ps fun p _ => ?_
  simp only [Function.comp_apply]
  field_simp
  ring

theorem sxy_swap (ps : List (ℝ × ℝ)) : sxy (ps.map Prod.swap) = sxy ps := by
  unfold sxy
  simp only [List.map_map, List.length_map]
  have e1 : (Prod.fst : ℝ × ℝ → ℝ) ∘ Prod.swap = Prod.snd := rfl
  have e2 : (Prod.snd : ℝ × ℝ → ℝ) ∘ Prod.swap = Prod.fst := rfl
  rw [e1, e2]
  change S ps _ = S ps _
  refine S_congr ps fun p _ => ?_
  simp only [Function.comp_apply, Prod.fst_swap, Prod.snd_swap]
  ring

theorem corr_swap (ps : List (ℝ × ℝ)) : corr (ps.map Prod.swap) = corr ps := by
  unfold corr
  rw [sxy_swap]
  simp only [List.map_map, List.length_map]
  have e1 : (Prod.fst : ℝ × ℝ → ℝ) ∘ Prod.swap = Prod.snd := rfl
  have e2 : (Prod.snd : ℝ × ℝ → ℝ) ∘ Prod.swap = Prod.fst := rfl
  rw [e1, e2, mul_comm (Real.sqrt _)]
  simp only [or_comm (a := ssq (ps.map Prod.fst) = 0)]

theorem corr_bound {ps : List (ℝ × ℝ)} {r : ℝ} (h : corr ps = some r) : |r| ≤ 1 := by
  unfold corr at h
  split_ifs at h with hc
  push Not at hc
  have h1 : 0 < ssq (ps.map Prod.fst) := lt_of_le_of_ne (ssq_nonneg _) (Ne.symm hc.2.1)
  have h2 : 0 < ssq (ps.map Prod.snd) := lt_of_le_of_ne (ssq_nonneg _) (Ne.symm hc.2.2)
  have e := Option.some.inj h
  rw [← e, abs_div, abs_of_pos (mul_pos (Real.sqrt_pos.2 h1) (Real.sqrt_pos.2 h2)), div_le_one
    (mul_pos (Real.sqrt_pos.2 h1) (Real.sqrt_pos.2 h2)), ← Real.sqrt_mul h1.le]
  exact Real.abs_le_sqrt (sxy_sq ps)

theorem corr_affine (ps : List (ℝ × ℝ)) {c c' : ℝ} (d d' : ℝ) (hc : c ≠ 0) (hc' : c' ≠ 0) :
    corr (ps.map fun p => (c * p.1 + d, c' * p.2 + d')) = (corr ps).map fun r => c / |c| * (c' / |c'|) * r := by
  have e1 : (ps.map fun p => (c * p.1 + d, c' * p.2 + d')).map Prod.fst = (ps.map Prod.fst).map fun x => c * x + d := by
    simp [Function.comp_def]
  have e2 : (ps.map fun p => (c * p.1 + d, c' * p.2 + d')).map Prod.snd = (ps.map Prod.snd).map fun x => c' * x + d' := by
    simp [Function.comp_def]
  unfold corr
  rw [e1, e2, ssq_affine, ssq_affine, sxy_affine, List.length_map]
  have z1 : c ^ 2 * ssq (ps.map Prod.fst) = 0 ↔ ssq (ps.map Prod.fst) = 0 := by simp [hc]
  have z2 : c' ^ 2 * ssq (ps.map Prod.snd) = 0 ↔ ssq (ps.map Prod.snd) = 0 := by simp [hc']
  simp only [z1, z2]
  split_ifs with h
  · rfl
  · simp only [Option.map_some, Option.some.injEq]
    rw [Real.sqrt_mul (sq_nonneg _), Real.sqrt_mul (sq_nonneg _), Real.sqrt_sq_eq_abs, Real.sqrt_sq_eq_abs]
    have := abs_ne_zero.2 hc
    have := abs_ne_zero.2 hc'
    push Not at h
    have h1 : 0 < ssq (ps.map Prod.fst) := lt_of_le_of_ne (ssq_nonneg _) (Ne.symm h.2.1)
    have h2 : 0 < ssq (ps.map Prod.snd) := lt_of_le_of_ne (ssq_nonneg _) (Ne.symm h.2.2)
    have := (Real.sqrt_pos.2 h1).ne'
    have := (Real.sqrt_pos.2 h2).ne'
    generalize Real.sqrt (ssq (ps.map Prod.fst)) = A at *
    generalize Real.sqrt (ssq (ps.map Prod.snd)) = B at *
    field_simp

theorem zip_self (l : List α) : l.zip l = l.map fun x => (x, x) := by
  induction l with
  | nil => rfl
  | cons x l ih => simp [ih]

theorem linregress_some {a b : Series ι} {k q r : ℝ} (h : linregress a b = some (k, q, r)) :
    ¬ (vals a = [] ∨ (vals a).length ≠ (vals b).length ∨ ∀ x ∈ vals a, ∀ y ∈ vals a, x = y) ∧
      sxy ((vals a).zip (vals b)) / ssq (vals a) = k ∧
      (vals b).sum / (vals b).length - k * ((vals a).sum / (vals a).length) = q := by
  unfold linregress scipyLinregress at h
  by_cases hc : vals a = [] ∨ (vals a).length ≠ (vals b).length ∨ ∀ x ∈ vals a, ∀ y ∈ vals a, x = y
  · rw [if_pos hc] at h; simp at h
  · rw [if_neg hc] at h
    simp only [Option.some.injEq, Prod.mk.injEq] at h
    obtain ⟨h1, h2, _⟩ := h
    exact ⟨hc, h1, by rw [← h1]; exact h2⟩

theorem rank_mono (l : List ℝ) {f : ℝ → ℝ} (hf : StrictMono f) (x : ℝ) : rank (l.map f) (f x) = rank l x := by
  unfold rank
  simp only [List.countP_map, Function.comp_def, hf.lt_iff_lt, hf.injective.eq_iff]

end RT1.Metrics
