import Verif.Model.Phase
import Verif.Lemmas.Legendre
import Verif.Lemmas.Sphere
import Mathlib.Data.List.Perm.Basic
import Mathlib.Data.List.Nodup

/-!
# Helper lemmas for the phase functions
-/

namespace RT1.Phase

open Real RT1.Rad RT1.Fn RT1.Legendre MeasureTheory Set

theorem D_rpow_neg {t x : ℝ} (ht : |t| < 1) (hx : x ∈ Icc (-1 : ℝ) 1) :
    (1 + t ^ 2 - 2 * t * x) ^ (3 / 2 : ℝ) = (D t x ^ (-3 / 2 : ℝ))⁻¹ := by
  have := D_pos ht hx
  rw [show (-3 / 2 : ℝ) = -(3 / 2) by norm_num, rpow_neg this.le, inv_inv]
  rfl

theorem hgV_eq {t x : ℝ} (ht : |t| < 1) (hx : x ∈ Icc (-1 : ℝ) 1) :
    hgV t x = (1 - t ^ 2) / (4 * π) * D t x ^ (-3 / 2 : ℝ) := by
  unfold hgV
  rw [D_rpow_neg ht hx]
  have : D t x ^ (-3 / 2 : ℝ) ≠ 0 := (rpow_pos_of_pos (D_pos ht hx) _).ne'
  field_simp

theorem hgRay_eq {t x : ℝ} (ht : |t| < 1) (hx : x ∈ Icc (-1 : ℝ) 1) :
    hgRay t x = 3 * (1 - t ^ 2) / (8 * π * (2 + t ^ 2)) * ((1 + x ^ 2) * D t x ^ (-3 / 2 : ℝ)) := by
  unfold hgRay
  rw [D_rpow_neg ht hx]
  have : D t x ^ (-3 / 2 : ℝ) ≠ 0 := (rpow_pos_of_pos (D_pos ht hx) _).ne'
  have : (2 + t ^ 2) ≠ 0 := by positivity
  field_simp

theorem one_sub_sq_pos {t : ℝ} (ht : |t| < 1) : 0 < 1 - t ^ 2 := by
  have := (sq_lt_one_iff_abs_lt_one t).2 ht
  linarith

/-- Integral of the Henyey-Greenstein function times a Legendre polynomial. -/
theorem hgV_proj {t : ℝ} (ht : |t| < 1) (n : ℕ) : ∫ x in (-1 : ℝ)..1, hgV t x * legP x n = t ^ n / (2 * π) := by
  have e : ∫ x in (-1 : ℝ)..1, hgV t x * legP x n = (1 - t ^ 2) / (4 * π) * B t (-3 / 2) n := by
    unfold B
    rw [← intervalIntegral.integral_const_mul]
    apply intervalIntegral.integral_congr
    intro x hx
    rw [uIcc_of_le (by norm_num)] at hx
    simp only
    rw [hgV_eq ht hx]; ring
  rw [e, B_closed ht]
  have := (one_sub_sq_pos ht).ne'
  field_simp
  ring

theorem hgRay_proj {t : ℝ} (ht : |t| < 1) (n : ℕ) :
    (2 * n + 1 : ℝ) / 2 * ∫ x in (-1 : ℝ)..1, hgRay t x * legP x n = hgRayLeg t n := by
  have e : ∫ x in (-1 : ℝ)..1, hgRay t x * legP x n = 3 * (1 - t ^ 2) / (8 * π * (2 + t ^ 2)) *
      (B t (-3 / 2) n + ∫ x in (-1 : ℝ)..1, (x ^ 2 * legP x n) * D t x ^ (-3 / 2 : ℝ)) := by
    unfold B
    rw [← intervalIntegral.integral_add, ← intervalIntegral.integral_const_mul]
    · apply intervalIntegral.integral_congr
      intro x hx
      rw [uIcc_of_le (by norm_num)] at hx
      simp only
      rw [hgRay_eq ht hx]; ring
    · exact int_DP ht _ (continuous_legP n)
    · exact int_DP ht _ ((continuous_pow 2).mul (continuous_legP n))
  have hq := (one_sub_sq_pos ht).ne'
  have h2 : (2 + t ^ 2) ≠ 0 := by positivity
  have hsq := B_sq ht n
  rw [e]
  have : (2 * n + 1 : ℝ) / 2 * (3 * (1 - t ^ 2) / (8 * π * (2 + t ^ 2)) *
      (B t (-3 / 2) n + ∫ x in (-1 : ℝ)..1, (x ^ 2 * legP x n) * D t x ^ (-3 / 2 : ℝ))) =
      3 * (1 - t ^ 2) / (16 * π * (2 + t ^ 2)) * ((2 * n + 1) * B t (-3 / 2) n +
      (2 * n + 1) * ∫ x in (-1 : ℝ)..1, (x ^ 2 * legP x n) * D t x ^ (-3 / 2 : ℝ)) := by
    field_simp
    ring
  rw [this, hsq, B_closed ht, B_closed ht, B_closed ht]
  unfold hgRayLeg
  rcases n with _ | _ | n
  · simp
    field_simp
    ring
  · simp
    field_simp
    ring
  · rw [if_neg (by omega)]
    push_cast
    have a1 : (2 * ((n : ℝ) + 1 + 1) + 3) ≠ 0 := by positivity
    have a2 : (2 * ((n : ℝ) + 1 + 1) - 1) ≠ 0 := by
      rw [show (2 * ((n : ℝ) + 1 + 1) - 1) = 2 * n + 3 by ring]; positivity
    field_simp
    ring

/-! ## Derivatives for the sphere integral -/

theorem hasDerivAt_Dpow {t x : ℝ} (ht : |t| < 1) (hx : x ∈ Icc (-1 : ℝ) 1) :
    HasDerivAt (fun x => D t x ^ (-3 / 2 : ℝ)) (3 * t * D t x ^ (-5 / 2 : ℝ)) x := by
  have h1 : HasDerivAt (D t) (-2 * t) x := by
    have := ((hasDerivAt_id x).const_mul (2 * t)).const_sub (1 + t ^ 2)
    refine this.congr_deriv (by ring)
  have := h1.rpow_const (p := -3 / 2) (Or.inl (D_pos ht hx).ne')
  refine this.congr_deriv ?_
  rw [show (-3 / 2 - 1 : ℝ) = -5 / 2 by norm_num]
  ring

/-! ## Linear combinations -/

theorem foldl_func (cs : List (ℝ × Comp)) (f0 : ℝ → ℝ → ℝ → ℝ → ℝ) (t0 tex p0 pex : ℝ) :
    cs.foldl (fun (f : ℝ → ℝ → ℝ → ℝ → ℝ) V => fun t0 tex p0 pex => f t0 tex p0 pex + V.2.func t0 tex p0 pex * V.1) f0
      t0 tex p0 pex = f0 t0 tex p0 pex + (cs.map fun V => V.1 * V.2.func t0 tex p0 pex).sum := by
  induction cs generalizing f0 with
  | nil => simp
  | cons V cs ih => rw [List.foldl_cons, ih]; simp; ring

theorem foldl_leg (sel : List (ℝ × Comp)) (l0 : ℕ → ℝ) (n : ℕ) :
    sel.foldl (fun (acc : ℕ → ℝ) V => fun n => acc n + V.2.legcoefs n * V.1) l0 n =
      l0 n + (sel.map fun V => V.1 * V.2.legcoefs n).sum := by
  induction sel generalizing l0 with
  | nil => simp
  | cons V cs ih => rw [List.foldl_cons, ih]; simp; ring

theorem foldl_a (sel : List (ℝ × Comp)) (a a0 : ℝ × ℝ × ℝ) (hne : sel ≠ []) (h : ∀ V ∈ sel, V.2.a = a) :
    sel.foldl (fun _ V => V.2.a) a0 = a := by
  induction sel generalizing a0 with
  | nil => exact absurd rfl hne
  | cons V cs ih =>
    rw [List.foldl_cons]
    cases cs with
    | nil => simp [h V (by simp)]
    | cons W cs => exact ih _ (by simp) (fun x hx => h x (by simp [hx]))

theorem foldl_max_le {l : List ℕ} {b x : ℕ} (h : x ∈ l) : x ≤ l.foldl max b := by
  induction l generalizing b with
  | nil => cases h
  | cons y l ih =>
    rw [List.foldl_cons]
    have hb : ∀ (l : List ℕ) (c : ℕ), c ≤ l.foldl max c := by
      intro l
      induction l with
      | nil => intro c; exact le_refl _
      | cons z l ih => intro c; exact (le_max_left c z).trans (ih _)
    rcases List.mem_cons.1 h with rfl | h
    · exact (le_max_right _ _).trans (hb _ _)
    · exact ih h

theorem foldl_max_mem (l : List ℕ) (b : ℕ) : l.foldl max b = b ∨ l.foldl max b ∈ l := by
  induction l generalizing b with
  | nil => left; rfl
  | cons y l ih =>
    rw [List.foldl_cons]
    rcases ih (max b y) with h | h
    · rw [h]
      rcases le_total b y with h' | h'
      · rw [max_eq_right h']; right; simp
      · rw [max_eq_left h']; left; rfl
    · right; simp [h]

/-- row of `equals` for the weights `a` -/
noncomputable def row (cs : List (ℝ × Comp)) (a : ℝ × ℝ × ℝ) : List ℕ := by
  classical
  exact (List.range cs.length).filter fun j => decide ((cs.map fun VV => VV.2.a)[j]? = some a)

theorem equals_eq (cs : List (ℝ × Comp)) : equals cs = cs.map fun V => row cs V.2.a := rfl

theorem mem_row {cs : List (ℝ × Comp)} {a : ℝ × ℝ × ℝ} {j : ℕ} :
    j ∈ row cs a ↔ ∃ h : j < cs.length, cs[j].2.a = a := by
  unfold row
  simp only [List.mem_filter, List.mem_range, decide_eq_true_eq]
  constructor
  · rintro ⟨h, e⟩
    refine ⟨h, ?_⟩
    simpa [List.getElem?_eq_getElem h] using e
  · rintro ⟨h, e⟩
    refine ⟨h, ?_⟩
    simp [List.getElem?_eq_getElem h, e]

theorem nodup_row (cs : List (ℝ × Comp)) (a : ℝ × ℝ × ℝ) : (row cs a).Nodup := by
  classical
  unfold row
  exact List.nodup_range.filter _

/-- A list with the distinct rows in arbitrary order: `list({tuple(row) for row in equals})`. -/
def IsSetOf (G : List (List ℕ)) (rows : List (List ℕ)) : Prop := G.Nodup ∧ ∀ r, r ∈ G ↔ r ∈ rows

theorem flatten_perm {cs : List (ℝ × Comp)} {G : List (List ℕ)} (hG : IsSetOf G (equals cs)) :
    G.flatten.Perm (List.range cs.length) := by
  obtain ⟨hn, hm⟩ := hG
  have hrow : ∀ g ∈ G, ∃ V ∈ cs, g = row cs V.2.a := by
    intro g hg
    have := (hm g).1 hg
    rw [equals_eq, List.mem_map] at this
    obtain ⟨V, hV, rfl⟩ := this
    exact ⟨V, hV, rfl⟩
  rw [List.perm_ext_iff_of_nodup]
  · intro j
    rw [List.mem_flatten, List.mem_range]
    constructor
    · rintro ⟨g, hg, hj⟩
      obtain ⟨V, _, rfl⟩ := hrow g hg
      exact (mem_row.1 hj).1
    · intro hj
      refine ⟨row cs cs[j].2.a, (hm _).2 ?_, mem_row.2 ⟨hj, rfl⟩⟩
      rw [equals_eq, List.mem_map]
      exact ⟨cs[j], List.getElem_mem hj, rfl⟩
  · rw [List.nodup_flatten]
    refine ⟨fun g hg => ?_, ?_⟩
    · obtain ⟨V, _, rfl⟩ := hrow g hg
      exact nodup_row _ _
    · refine (List.Nodup.pairwise_of_forall_ne hn fun g hg g' hg' hne => ?_)
      obtain ⟨V, _, rfl⟩ := hrow g hg
      obtain ⟨V', _, rfl⟩ := hrow g' hg'
      rw [List.disjoint_left]
      intro j hj hj'
      obtain ⟨h1, e1⟩ := mem_row.1 hj
      obtain ⟨_, e2⟩ := mem_row.1 hj'
      exact hne (by rw [← e1, ← e2])
  · exact List.nodup_range

/-- number of coefficients used for the components with weights `a` -/
noncomputable def groupMax (cs : List (ℝ × Comp)) (a : ℝ × ℝ × ℝ) : ℕ :=
  (((row cs a).filterMap fun j => cs[j]?).map fun V => V.2.ncoefs).foldl max 0

theorem mem_sel {cs : List (ℝ × Comp)} {a : ℝ × ℝ × ℝ} {V : ℝ × Comp} :
    V ∈ (row cs a).filterMap (fun j => cs[j]?) ↔ V ∈ cs ∧ V.2.a = a := by
  rw [List.mem_filterMap]
  constructor
  · rintro ⟨j, hj, e⟩
    obtain ⟨h, ha⟩ := mem_row.1 hj
    rw [List.getElem?_eq_getElem h] at e
    obtain rfl := Option.some.inj e
    exact ⟨List.getElem_mem h, ha⟩
  · rintro ⟨hV, ha⟩
    obtain ⟨j, h, rfl⟩ := List.getElem_of_mem hV
    exact ⟨j, mem_row.2 ⟨h, ha⟩, List.getElem?_eq_getElem h⟩

theorem legSeries_sum (sel : List (ℝ × Comp)) (N : ℕ) (x : ℝ) :
    ∑ n ∈ Finset.range N, (sel.map fun V => V.1 * V.2.legcoefs n).sum * legP x n =
      (sel.map fun V => V.1 * ∑ n ∈ Finset.range N, V.2.legcoefs n * legP x n).sum := by
  induction sel with
  | nil => simp
  | cons V sel ih =>
    simp only [List.map_cons, List.sum_cons, add_mul, Finset.sum_add_distrib, ih]
    congr 1
    rw [Finset.mul_sum]
    apply Finset.sum_congr rfl
    intro n _; ring

theorem eval_group {cs : List (ℝ × Comp)} {W : ℝ × Comp} (hW : W ∈ cs) (t p θ φ : ℝ) :
    eval (groupLegexp cs (row cs W.2.a) t p) θ φ =
      ((row cs W.2.a).map fun j => (cs[j]?.map fun V => V.1 *
        ∑ n ∈ Finset.range (groupMax cs V.2.a), V.2.legcoefs n * legP (scatAngle V.2.a t θ p φ) n).getD 0).sum := by
  unfold groupLegexp
  simp only [eval_legexpansion, eval_scatExpr, foldl_leg, zero_add]
  rw [foldl_a _ W.2.a _ ?_ (fun V hV => (mem_sel.1 hV).2)]
  · rw [legSeries_sum]
    have key : ∀ (l : List ℕ) (F : ℝ × Comp → ℝ), (∀ j ∈ l, j < cs.length) →
        ((l.filterMap fun j => cs[j]?).map F).sum = (l.map fun j => (cs[j]?.map F).getD 0).sum := by
      intro l F hl
      induction l with
      | nil => rfl
      | cons j l ih =>
        have hj := hl j (by simp)
        have e := List.getElem?_eq_getElem hj
        rw [List.filterMap_cons_some e, List.map_cons, List.sum_cons, List.map_cons, List.sum_cons,
          ih (fun x hx => hl x (by simp [hx])), e]
        rfl
    rw [key _ _ (fun j hj => (mem_row.1 hj).1)]
    congr 1
    apply List.map_congr_left
    intro j hj
    obtain ⟨h, ha⟩ := mem_row.1 hj
    rw [List.getElem?_eq_getElem h]
    simp only [Option.map_some, Option.getD_some]
    rw [ha]
    rfl
  · intro h
    have := mem_sel.2 ⟨hW, rfl⟩
    rw [h] at this
    cases this

theorem sum_range_get (cs : List (ℝ × Comp)) (F : ℝ × Comp → ℝ) :
    ((List.range cs.length).map fun j => (cs[j]?.map F).getD 0).sum = (cs.map F).sum := by
  congr 1
  apply List.ext_getElem
  · simp
  · intro i h1 h2
    simp at h1 h2 ⊢
    rw [List.getElem?_eq_getElem h2]; rfl

theorem sum_flatten_map {α : Type} (G : List (List α)) (F : α → ℝ) :
    (G.flatten.map F).sum = (G.map fun g => (g.map F).sum).sum := by
  induction G with
  | nil => rfl
  | cons g G ih => rw [List.flatten_cons, List.map_append, List.sum_append, ih]; rfl

theorem eval_combine {cs : List (ℝ × Comp)} {G : List (List ℕ)} (hG : IsSetOf G (equals cs)) (t p θ φ : ℝ) :
    eval (G.flatMap fun g => groupLegexp cs g t p) θ φ =
      (cs.map fun V => V.1 *
        ∑ n ∈ Finset.range (groupMax cs V.2.a), V.2.legcoefs n * legP (scatAngle V.2.a t θ p φ) n).sum := by
  rw [eval_flatMap]
  have e : (G.map fun g => eval (groupLegexp cs g t p) θ φ) = G.map fun g => (g.map fun j => (cs[j]?.map fun V => V.1 *
        ∑ n ∈ Finset.range (groupMax cs V.2.a), V.2.legcoefs n * legP (scatAngle V.2.a t θ p φ) n).getD 0).sum := by
    apply List.map_congr_left
    intro g hg
    have := (hG.2 g).1 hg
    rw [equals_eq, List.mem_map] at this
    obtain ⟨V, hV, rfl⟩ := this
    exact eval_group hV t p θ φ
  rw [e, ← sum_flatten_map, (List.Perm.map _ (flatten_perm hG)).sum_eq, sum_range_get]

end RT1.Phase
