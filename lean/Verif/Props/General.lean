import Verif.Lemmas.General
import Mathlib.Data.Rat.Lemmas
import Mathlib.Tactic.NormNum

/-!
# Properties C18–C29: helper functions (`rt1/general_functions.py`)
-/

namespace RT1.General

/-! ## C18, C19: unit conversion -/

/-- Specification: a unit is "dB or linear" × "sigma0 or intensity". -/
structure Unit' where
  dB : Bool
  sig0 : Bool
  deriving DecidableEq

/-- Specification: representation of the (linear) intensity `I` at incidence angle `inc` in the unit `u`:
`sigma0 = 4π cos(inc) I`, `dB = 10 log10`. -/
noncomputable def represent (u : Unit') (inc I : ℝ) : ℝ :=
  let lin := if u.sig0 then 4 * Real.pi * Real.cos inc * I else I
  if u.dB then 10 * Real.logb 10 lin else lin

/-- The conversion from unit `a` to unit `b` through the API (`fit…` flags are the source unit). -/
noncomputable def convert (a b : Unit') (inc v : ℝ) : ℝ :=
  dBsig0convert v inc b.dB b.sig0 a.dB a.sig0

/-- C18: for every positive intensity and every incidence angle with positive cosine the conversion of the
representation in the source unit is the representation in the target unit. -/
theorem C18_dBsig0convert (a b : Unit') (inc I : ℝ) (hI : 0 < I) (hc : 0 < Real.cos inc) :
    dBsig0convert (represent a inc I) inc b.dB b.sig0 a.dB a.sig0 = represent b inc I := by
  have h4 : (0 : ℝ) < 4 * Real.pi * Real.cos inc := by have := Real.pi_pos; positivity
  have key : ∀ x : ℝ, 0 < x → (10 : ℝ) ^ (Real.logb 10 x) = x := fun x hx =>
    Real.rpow_logb (by norm_num) (by norm_num) hx
  have k1 := key I hI
  have k2 := key (4 * Real.pi * Real.cos inc * I) (by positivity)
  have k3 : 4 * Real.pi * Real.cos inc * I / (4 * Real.pi * Real.cos inc) = I := by
    field_simp
  obtain ⟨ad, as⟩ := a
  obtain ⟨bd, bs⟩ := b
  cases ad <;> cases as <;> cases bd <;> cases bs <;>
    simp [dBsig0convert, represent, k1, k2, k3]

/-- C18, linear units: for conversions between linear units no sign condition on the value is necessary. -/
theorem C18_dBsig0convert_linear (sa sb : Bool) (inc I : ℝ) (hc : Real.cos inc ≠ 0) :
    dBsig0convert (represent ⟨false, sa⟩ inc I) inc false sb false sa = represent ⟨false, sb⟩ inc I := by
  have h4 : 4 * Real.pi * Real.cos inc ≠ 0 := by have := Real.pi_pos; positivity
  have k3 : 4 * Real.pi * Real.cos inc * I / (4 * Real.pi * Real.cos inc) = I := by field_simp
  cases sa <;> cases sb <;> simp [dBsig0convert, represent, k3]

example : (0 : ℝ) < 3 ∧ 0 < Real.cos 0 := by simp

/-- Specification: the values that represent a positive quantity in a unit: everything in dB, positive numbers
in linear units. -/
def Valid (u : Unit') (v : ℝ) : Prop := u.dB = false → 0 < v

theorem valid_exists (u : Unit') (inc v : ℝ) (hc : 0 < Real.cos inc) (hv : Valid u v) :
    ∃ I, 0 < I ∧ v = represent u inc I := by
  have h4 : (0 : ℝ) < 4 * Real.pi * Real.cos inc := by have := Real.pi_pos; positivity
  have h10 : ∀ x : ℝ, 10 * Real.logb 10 ((10 : ℝ) ^ (x / 10)) = x := by
    intro x
    rw [Real.logb_rpow (by norm_num) (by norm_num)]; ring
  have hp : (0 : ℝ) < 10 ^ (v / 10) := Real.rpow_pos_of_pos (by norm_num) _
  obtain ⟨d, s⟩ := u
  cases d <;> cases s
  · exact ⟨v, hv rfl, by simp [represent]⟩
  · refine ⟨v / (4 * Real.pi * Real.cos inc), div_pos (hv rfl) h4, ?_⟩
    simp only [represent]
    simp
    field_simp
  · exact ⟨10 ^ (v / 10), hp, by simp only [represent, if_true, Bool.false_eq_true, if_false, h10]⟩
  · refine ⟨10 ^ (v / 10) / (4 * Real.pi * Real.cos inc), div_pos hp h4, ?_⟩
    simp only [represent, if_true]
    rw [mul_div_cancel₀ _ h4.ne', h10]

/-- C19: conversions compose. -/
theorem C19_compose (a b c : Unit') (inc v : ℝ) (hc : 0 < Real.cos inc) (hv : Valid a v) :
    convert b c inc (convert a b inc v) = convert a c inc v := by
  obtain ⟨I, hI, rfl⟩ := valid_exists a inc v hc hv
  simp only [convert, C18_dBsig0convert _ _ _ _ hI hc]

/-- C19: converting back and forth returns the original value. -/
theorem C19_inverse (a b : Unit') (inc v : ℝ) (hc : 0 < Real.cos inc) (hv : Valid a v) :
    convert b a inc (convert a b inc v) = v := by
  obtain ⟨I, hI, rfl⟩ := valid_exists a inc v hc hv
  simp only [convert, C18_dBsig0convert _ _ _ _ hI hc]

/-- C19: converting to the same unit is the identity on *every* value (also negative ones) and angle. -/
theorem C19_identity (a : Unit') (inc v : ℝ) : convert a a inc v = v := by
  simp [convert, dBsig0convert]

/-- C19: the converted value is again valid, hence conversions can be chained. -/
theorem C19_valid (a b : Unit') (inc v : ℝ) (hc : 0 < Real.cos inc) (hv : Valid a v) :
    Valid b (convert a b inc v) := by
  obtain ⟨I, hI, rfl⟩ := valid_exists a inc v hc hv
  rw [convert, C18_dBsig0convert _ _ _ _ hI hc]
  intro hb
  have h4 : (0 : ℝ) < 4 * Real.pi * Real.cos inc := by have := Real.pi_pos; positivity
  simp only [represent, hb, Bool.false_eq_true, if_false]
  split <;> [exact mul_pos h4 hI; exact hI]

/-- C19: between linear units back-and-forth is the identity for every value, also negative ones. -/
theorem C19_linear_inverse (sa sb : Bool) (inc v : ℝ) (hc : Real.cos inc ≠ 0) :
    convert ⟨false, sb⟩ ⟨false, sa⟩ inc (convert ⟨false, sa⟩ ⟨false, sb⟩ inc v) = v := by
  have h4 : 4 * Real.pi * Real.cos inc ≠ 0 := by have := Real.pi_pos; positivity
  have k3 : ∀ I, 4 * Real.pi * Real.cos inc * I / (4 * Real.pi * Real.cos inc) = I := by
    intro I; field_simp
  have k4 : ∀ I, 4 * Real.pi * Real.cos inc * (I / (4 * Real.pi * Real.cos inc)) = I := by
    intro I; field_simp
  cases sa <;> cases sb <;> simp [convert, dBsig0convert, k3, k4]

example : 0 < Real.cos 0 ∧ Valid ⟨true, true⟩ (-12.5) ∧ Valid ⟨false, true⟩ 0.3 := by
  simp [Valid]; norm_num

/-! ## C20: rectangularize -/

/-- Specification: `A` with mask `M` is the padded version of `rows` with width `W`. -/
def IsPadded {α : Type} (rows : List (List α)) (W : Nat) (A : List (List α)) (M : List (List Bool)) : Prop :=
  A.length = rows.length ∧ M.length = rows.length ∧
  ∀ (i : Nat) (r a : List α) (m : List Bool), rows[i]? = some r → A[i]? = some a → M[i]? = some m →
    a.length = W ∧ m.length = W ∧
    -- the unmasked entries are exactly the input values, in order
    ((a.zip m).filter fun p => !p.2).map Prod.fst = r ∧
    -- the masked entries are exactly the positions behind the row ...
    (∀ j : Nat, m[j]? = some true ↔ r.length ≤ j ∧ j < W) ∧
    -- ... and they repeat the last value of the row
    (∀ j : Nat, m[j]? = some true → a[j]? = r.getLast?)

theorem padRow_ok {α : Type} (d : Nat) (r a : List α) (m : List Bool) (hd : 0 < d)
    (h : padRow d r = .ok (a, m)) : r ≠ [] ∧ r.length ≤ d ∧
      a.length = d ∧ m.length = d ∧ ((a.zip m).filter fun p => !p.2).map Prod.fst = r ∧
      (∀ j : Nat, m[j]? = some true ↔ r.length ≤ j ∧ j < d) ∧ (∀ j : Nat, m[j]? = some true → a[j]? = r.getLast?) := by
  unfold padRow at h
  split at h
  · cases h
  · rename_i hlen
    split at h
    · cases h
    · rename_i z hz
      cases h
      have hr : r ≠ [] := by rintro rfl; simp at hz
      have hpos : 0 < r.length := List.length_pos_iff.2 hr
      have hle : r.length ≤ d := by by_contra hc; exact hlen ⟨by omega, by omega⟩
      have hm : min r.length d = r.length := by omega
      have ht : r.take d = r := List.take_of_length_le hle
      refine ⟨hr, hle, ?_, ?_, ?_, ?_, ?_⟩
      · simp; omega
      · simp; omega
      · rw [hm, ht, List.zip_append (by simp), List.filter_append, List.map_append]
        have e1 : (r.zip (List.replicate r.length false)).filter (fun p => !p.2) =
            r.zip (List.replicate r.length false) := by
          rw [List.filter_eq_self]
          rintro ⟨x, b⟩ hx
          have := List.of_mem_zip hx
          simp at this
          simp [this.2]
        have e2 : ((List.replicate (d - r.length) z).zip (List.replicate (d - r.length) true)).filter
            (fun p => !p.2) = [] := by
          rw [List.filter_eq_nil_iff]
          rintro ⟨x, b⟩ hx
          have := List.of_mem_zip hx
          simp at this
          simp [this.2]
        rw [e1, e2]
        simp [List.map_fst_zip]
      · intro j
        rw [hm]
        by_cases hj : j < r.length
        · rw [List.getElem?_append_left (by simpa using hj)]
          simp [hj]
        · rw [List.getElem?_append_right (by simpa using hj)]
          simp [List.getElem?_replicate]
          omega
      · intro j hj
        rw [hm] at hj
        by_cases hj' : j < r.length
        · rw [List.getElem?_append_left (by simpa using hj')] at hj
          simp [hj'] at hj
        · rw [ht, List.getElem?_append_right (by omega), hz]
          rw [List.getElem?_append_right (by simpa using hj')] at hj
          simp [List.getElem?_replicate] at hj ⊢
          omega

theorem padRow_isOk {α : Type} (d : Nat) (r : List α) :
    (∃ x, padRow d r = .ok x) ↔ r ≠ [] ∧ (r.length ≤ d ∨ r.length = 1) := by
  unfold padRow
  split
  · rename_i h
    constructor
    · rintro ⟨x, hx⟩; cases hx
    · rintro ⟨_, h'⟩; omega
  · rename_i h
    cases hr : r.getLast? with
    | none =>
      simp at hr
      subst hr
      simp
    | some z =>
      have : r ≠ [] := by rintro rfl; simp at hr
      simp only [Except.ok.injEq, exists_eq', true_iff]
      exact ⟨this, by omega⟩

theorem forall₂_getElem? {α β : Type} {R : α → β → Prop} {l : List α} {r : List β}
    (h : List.Forall₂ R l r) (i : Nat) (a : α) (b : β) (ha : l[i]? = some a) (hb : r[i]? = some b) : R a b := by
  induction h generalizing i with
  | nil => simp at ha
  | cons h1 _ ih =>
    cases i with
    | zero => simp at ha hb; subst ha; subst hb; exact h1
    | succ i => exact ih i (by simpa using ha) (by simpa using hb)

/-- C20 (core): with an explicit positive width every successful call returns the padded array. -/
theorem C20_rectangularize_dim {α : Type} (rows : List (List α)) (d : Nat) (hd : 0 < d)
    (A : List (List α)) (M : List (List Bool)) (h : rectangularize rows (some d) = .ok (A, M)) :
    IsPadded rows d A M := by
  unfold rectangularize at h
  split at h
  · cases h
  · simp only at h
    split at h
    · cases h
    · rename_i ps hps
      cases h
      rw [mapM_ok_iff] at hps
      have hl := hps.length_eq
      refine ⟨by simp [hl], by simp [hl], ?_⟩
      intro i r a m hr ha hm
      simp only [List.getElem?_map, Option.map_eq_some_iff] at ha hm
      obtain ⟨p, hp, rfl⟩ := ha
      obtain ⟨q, hq, rfl⟩ := hm
      rw [hp] at hq
      cases hq
      exact (padRow_ok d r p.1 p.2 hd (forall₂_getElem? hps i r p hr hp)).2.2

/-- C20: without an explicit width the width is the length of the longest row (it is attained and is an upper
bound) and the result is the padded array. -/
theorem C20_rectangularize {α : Type} (rows : List (List α)) (A : List (List α)) (M : List (List Bool))
    (h : rectangularize rows = .ok (A, M)) :
    ∃ W, (∃ r ∈ rows, r.length = W) ∧ (∀ r ∈ rows, r.length ≤ W) ∧ IsPadded rows W A M := by
  set W := (rows.map List.length).foldl max 0 with hW
  have h' : rectangularize rows (some W) = .ok (A, M) := h
  have hne : rows ≠ [] := by
    rintro rfl
    simp [rectangularize] at h
  have hmax : ∀ r ∈ rows, r.length ≤ W := by
    intro r hr
    have := (foldl_max_le_iff (rows.map List.length) 0 W).1 (by rw [hW])
    exact this.2 _ (List.mem_map_of_mem hr)
  have hall : ∀ r ∈ rows, r ≠ [] := by
    intro r hr
    unfold rectangularize at h'
    split at h'
    · cases h'
    · simp only at h'
      split at h'
      · cases h'
      · rename_i ps hps
        exact ((padRow_isOk W r).1 ((mapM_isOk_iff _ _).1 ⟨ps, hps⟩ r hr)).1
  have hWpos : 0 < W := by
    obtain ⟨r, rs, rfl⟩ := List.exists_cons_of_ne_nil hne
    have := hmax r (by simp)
    have := List.length_pos_iff.2 (hall r (by simp))
    omega
  refine ⟨W, ?_, hmax, C20_rectangularize_dim rows W hWpos A M h'⟩
  rcases foldl_max_mem (rows.map List.length) 0 with h0 | h0
  · omega
  · obtain ⟨r, hr, e⟩ := List.mem_map.1 h0
    exact ⟨r, hr, e⟩

/-- C20: the call succeeds exactly for non-empty lists of non-empty rows. -/
theorem C20_rectangularize_succeeds_iff {α : Type} (rows : List (List α)) :
    (∃ r, rectangularize rows = .ok r) ↔ rows ≠ [] ∧ ∀ r ∈ rows, r ≠ [] := by
  have hmax := (foldl_max_le_iff (rows.map List.length) 0 _).1 (le_refl _)
  unfold rectangularize
  cases rows with
  | nil => simp
  | cons r₀ rs =>
    simp only [List.isEmpty_cons, Bool.false_eq_true, if_false, ne_eq, reduceCtorEq, not_false_eq_true, true_and]
    have hm := mapM_isOk_iff (padRow (α := α) (((r₀ :: rs).map List.length).foldl max 0)) (r₀ :: rs)
    constructor
    · rintro ⟨x, hx⟩
      split at hx
      · cases hx
      · rename_i ps hps
        intro r hr
        exact ((padRow_isOk _ r).1 (hm.1 ⟨ps, hps⟩ r hr)).1
    · intro h
      obtain ⟨ps, hps⟩ := hm.2 (fun r hr => (padRow_isOk _ r).2
        ⟨h r hr, Or.inl (hmax.2 _ (List.mem_map_of_mem hr))⟩)
      rw [hps]
      exact ⟨_, rfl⟩

/-- C20: an explicit width that is smaller than some row length (and at least 1) makes the call fail; more
precisely, the call succeeds exactly if all rows are non-empty and not longer than the width. -/
theorem C20_rectangularize_dim_succeeds_iff {α : Type} (rows : List (List α)) (d : Nat) (hd : 0 < d) :
    (∃ r, rectangularize rows (some d) = .ok r) ↔ rows ≠ [] ∧ ∀ r ∈ rows, r ≠ [] ∧ r.length ≤ d := by
  unfold rectangularize
  cases rows with
  | nil => simp
  | cons r₀ rs =>
    simp only [List.isEmpty_cons, Bool.false_eq_true, if_false, ne_eq, reduceCtorEq, not_false_eq_true, true_and]
    have hm := mapM_isOk_iff (padRow (α := α) d) (r₀ :: rs)
    constructor
    · rintro ⟨x, hx⟩
      split at hx
      · cases hx
      · rename_i ps hps
        intro r hr
        have := (padRow_isOk _ r).1 (hm.1 ⟨ps, hps⟩ r hr)
        exact ⟨this.1, by omega⟩
    · intro h
      obtain ⟨ps, hps⟩ := hm.2 (fun r hr => (padRow_isOk _ r).2 ⟨(h r hr).1, Or.inl (h r hr).2⟩)
      rw [hps]
      exact ⟨_, rfl⟩

example : rectangularize [[1, 2, 3], [4], [5, 6]] =
    .ok ([[1, 2, 3], [4, 4, 4], [5, 6, 6]],
         [[false, false, false], [false, true, true], [false, false, true]]) := by rfl
example : rectangularize [[1, 2, 3], [4]] (some 2) = .error .valueError := by rfl
example : rectangularize [[1, 2, 3], []] = .error .indexError := by rfl

/-! ## C21: meandatetime -/

/-- C21: the result is the arithmetic mean. -/
theorem C21_meandatetime {K : Type} [Field K] [CharZero K] (l : List K) (h : l ≠ []) :
    meandatetime l = .ok (l.sum / l.length) := by
  match l, h with
  | [x], _ => simp [meandatetime]
  | x :: y :: xs, _ =>
    simp only [meandatetime]
    congr 1
    set ys := y :: xs with hys
    set n : K := (((x :: ys).length : Nat) : K) with hn
    have hn0 : n ≠ 0 := by rw [hn]; simp only [List.length_cons]; exact Nat.cast_ne_zero.2 (Nat.succ_ne_zero _)
    have hs : ∀ zs : List K, (zs.map fun y => (x - y) / n).sum = (zs.length * x - zs.sum) / n := by
      intro zs
      induction zs with
      | nil => simp
      | cons z zs ih =>
        simp only [List.map_cons, List.sum_cons, ih, List.length_cons, Nat.cast_add, Nat.cast_one]
        field_simp
        ring
    rw [hs, show (x :: y :: xs).sum = x + ys.sum from List.sum_cons]
    have : (ys.length : K) = n - 1 := by rw [hn]; simp
    rw [this]
    field_simp
    ring

/-- C21: an empty list is rejected. -/
theorem C21_meandatetime_empty {K : Type} [Field K] : meandatetime ([] : List K) = .error .indexError := rfl

/-- C21: the result does not depend on the order. -/
theorem C21_meandatetime_perm {K : Type} [Field K] [CharZero K] (l l' : List K) (h : l.Perm l') :
    meandatetime l = meandatetime l' := by
  by_cases hl : l = []
  · subst hl; rw [List.nil_perm] at h; rw [h]
  · have hl' : l' ≠ [] := by rintro rfl; exact hl (List.perm_nil.1 h)
    rw [C21_meandatetime l hl, C21_meandatetime l' hl', h.sum_eq, h.length_eq]

/-- C21: the result lies between all lower and upper bounds of the time stamps. -/
theorem C21_meandatetime_between {K : Type} [Field K] [LinearOrder K] [IsStrictOrderedRing K]
    (l : List K) (a b m : K) (ha : ∀ x ∈ l, a ≤ x) (hb : ∀ x ∈ l, x ≤ b) (hm : meandatetime l = .ok m) :
    a ≤ m ∧ m ≤ b := by
  have hl : l ≠ [] := by rintro rfl; cases hm
  rw [C21_meandatetime l hl] at hm
  cases hm
  have hpos : (0 : K) < l.length := by exact_mod_cast List.length_pos_iff.2 hl
  constructor
  · rw [le_div_iff₀ hpos, mul_comm]
    have := List.card_nsmul_le_sum l a ha
    simpa [nsmul_eq_mul] using this
  · rw [div_le_iff₀ hpos, mul_comm]
    have := List.sum_le_card_nsmul l b hb
    simpa [nsmul_eq_mul] using this

/-- C21: shifting all time stamps shifts the mean. -/
theorem C21_meandatetime_shift {K : Type} [Field K] [CharZero K] (l : List K) (c m : K)
    (hm : meandatetime l = .ok m) : meandatetime (l.map (· + c)) = .ok (m + c) := by
  have hl : l ≠ [] := by rintro rfl; cases hm
  rw [C21_meandatetime l hl] at hm
  cases hm
  rw [C21_meandatetime _ (by simpa using hl)]
  have hpos : (l.length : K) ≠ 0 := by
    have := List.length_pos_iff.2 hl
    exact_mod_cast this.ne'
  have hs : ∀ zs : List K, (zs.map (· + c)).sum = zs.sum + zs.length * c := by
    intro zs
    induction zs with
    | nil => simp
    | cons z zs ih => simp only [List.map_cons, List.sum_cons, ih, List.length_cons, Nat.cast_add, Nat.cast_one]; ring
  rw [hs, List.length_map]
  congr 1
  field_simp

/-- C21: equal time stamps have this common value as mean. -/
theorem C21_meandatetime_const {K : Type} [Field K] [CharZero K] (n : Nat) (c : K) :
    meandatetime (List.replicate (n + 1) c) = .ok c := by
  rw [C21_meandatetime _ (by simp)]
  congr 1
  simp only [List.sum_replicate, List.length_replicate, nsmul_eq_mul]
  have : ((n + 1 : Nat) : K) ≠ 0 := by exact_mod_cast Nat.succ_ne_zero n
  field_simp

example : meandatetime [(1 : ℚ), 2, 6] = .ok 3 := by
  rw [C21_meandatetime _ (by simp)]; norm_num

/-! ## C22: pairwise -/

/-- C22: `pairwise(s, n)` yields exactly the `max(0, len(s)-n+1)` consecutive windows of length `n`, in order. -/
theorem C22_pairwise {α : Type} (s : List α) (n : Nat) (hn : 1 ≤ n) :
    pairwise s n = (List.range (s.length + 1 - n)).map fun i => (s.drop i).take n := by
  obtain ⟨m, rfl⟩ : ∃ m, n = m + 1 := ⟨n - 1, by omega⟩
  have hx : (List.replicate (m + 1) s).take 1 ++
      ((List.replicate (m + 1) s).drop 1).mapIdx (fun n it => it.drop (n + 1)) =
      (List.range (m + 1)).map fun i => s.drop (0 + i) := by
    apply List.ext_getElem
    · simp
    · intro i h1 h2
      cases i with
      | zero => simp
      | succ i => simp [List.getElem_mapIdx]
  unfold pairwise
  simp only
  rw [hx, zipStar_drop]
  have : s.length - 0 - m = s.length + 1 - (m + 1) := by omega
  rw [this]
  simp

/-- C22: the number of windows, and every window has exactly `n` elements: its `j`-th element is `s[i+j]`. -/
theorem C22_pairwise_getElem {α : Type} (s : List α) (n : Nat) (hn : 1 ≤ n) :
    (pairwise s n).length = s.length + 1 - n ∧
    ∀ i w, (pairwise s n)[i]? = some w → w.length = n ∧ ∀ j, j < n → w[j]? = s[i + j]? := by
  rw [C22_pairwise s n hn]
  refine ⟨by simp, ?_⟩
  intro i w hw
  simp only [List.getElem?_map, Option.map_eq_some_iff] at hw
  obtain ⟨k, hk, rfl⟩ := hw
  rw [List.getElem?_eq_some_iff] at hk
  obtain ⟨h1, h2⟩ := hk
  simp at h1 h2
  subst h2
  refine ⟨by simp; omega, ?_⟩
  intro j hj
  simp [hj]

example : pairwise [1, 2, 3, 4] 3 = [[1, 2, 3], [2, 3, 4]] := by rfl
example : pairwise [1, 2] 3 = ([] : List (List Nat)) := by rfl

/-! ## C23: split_into -/

/-- C23: the concatenation of the pieces is a prefix of the input. -/
theorem C23_split_into_prefix {α : Type} (l : List α) (sizes : List (Option Nat)) :
    (splitInto l sizes).flatten <+: l := by
  induction sizes generalizing l with
  | nil => simp [splitInto]
  | cons s ss ih =>
    cases s with
    | none => simp [splitInto]
    | some n =>
      simp only [splitInto, List.flatten_cons]
      obtain ⟨t, ht⟩ := ih (l.drop n)
      exact ⟨t, by rw [List.append_assoc, ht, List.take_append_drop]⟩

/-- C23: with numeric sizes only, the pieces start at the partial sums of the sizes and there is one piece per
size. -/
theorem C23_split_into_pieces {α : Type} (l : List α) (sizes : List Nat) (i : Nat) (hi : i < sizes.length) :
    (splitInto l (sizes.map some))[i]? = some ((l.drop (sizes.take i).sum).take sizes[i]) := by
  induction sizes generalizing l i with
  | nil => simp at hi
  | cons n ns ih =>
    cases i with
    | zero => simp [splitInto]
    | succ i =>
      simp only [List.map_cons, splitInto, List.getElem?_cons_succ, List.take_succ_cons, List.sum_cons,
        List.getElem_cons_succ]
      rw [ih (l.drop n) i (by simpa using hi), List.drop_drop]

theorem C23_split_into_length {α : Type} (l : List α) (sizes : List Nat) :
    (splitInto l (sizes.map some)).length = sizes.length := by
  induction sizes generalizing l with
  | nil => rfl
  | cons n ns ih => simp [splitInto, ih]

/-- C23: if the sizes sum up to (at least) the length of the input nothing is lost. -/
theorem C23_split_into_complete {α : Type} (l : List α) (sizes : List Nat) (h : l.length ≤ sizes.sum) :
    (splitInto l (sizes.map some)).flatten = l := by
  induction sizes generalizing l with
  | nil => simp at h; simp [splitInto, h]
  | cons n ns ih =>
    simp only [List.map_cons, splitInto, List.flatten_cons]
    rw [ih (l.drop n) (by simp at h ⊢; omega), List.take_append_drop]

/-- C23: after a `None` all remaining values are returned in one piece, nothing else is yielded, and the
concatenation is the whole input. -/
theorem C23_split_into_none {α : Type} (l : List α) (sizes : List Nat) (rest : List (Option Nat)) :
    splitInto l (sizes.map some ++ none :: rest) = splitInto l (sizes.map some) ++ [l.drop sizes.sum] ∧
    (splitInto l (sizes.map some ++ none :: rest)).flatten = l := by
  induction sizes generalizing l with
  | nil => simp [splitInto]
  | cons n ns ih =>
    obtain ⟨h1, h2⟩ := ih (l.drop n)
    simp only [List.map_cons, List.cons_append, splitInto, List.flatten_cons, h2, List.take_append_drop,
      and_true]
    rw [h1, List.drop_drop, List.sum_cons]

example : splitInto [1, 2, 3, 4, 5] [some 1, some 2, none, some 7] = [[1], [2, 3], [4, 5]] := by rfl

/-! ## C24: chunkit -/

/-- Specification: `chunks` is the decomposition of `arr` in pieces of `n` elements (the last one may be shorter
but is not empty). -/
def IsChunking {α : Type} (arr : List α) (n : Nat) (chunks : List (List α)) : Prop :=
  chunks.flatten = arr ∧
  (∀ i c, chunks[i]? = some c → i + 1 < chunks.length → c.length = n) ∧
  (∀ c, chunks.getLast? = some c → 1 ≤ c.length ∧ c.length ≤ n)

theorem chunks_flatten {α : Type} (arr : List α) (n k : Nat) :
    ((List.range k).map fun i => slice arr (i * n) ((i + 1) * n)).flatten = arr.take (k * n) := by
  induction k with
  | zero => simp
  | succ k ih =>
    rw [List.range_succ, List.map_append, List.flatten_append, ih]
    simp only [List.map_cons, List.map_nil, List.flatten_cons, List.flatten_nil, List.append_nil, slice]
    have : arr.take (k * n) = (arr.take ((k + 1) * n)).take (k * n) := by
      rw [List.take_take, Nat.min_eq_left (Nat.mul_le_mul_right _ (by omega))]
    rw [this, List.take_append_drop]

/-- C24: `chunkit(arr, n)` yields `⌈len/n⌉` chunks that decompose `arr`. -/
theorem C24_chunkit {α : Type} (arr : List α) (n : Nat) (hn : 1 ≤ n) :
    ∃ chunks, chunkit arr n = .ok chunks ∧ chunks.length = (arr.length + n - 1) / n ∧
      IsChunking arr n chunks := by
  have hk : (if arr.length % n ≠ 0 then arr.length / n + 1 else arr.length / n) =
      (arr.length + n - 1) / n := by
    have h1 := Nat.div_add_mod arr.length n
    have h2 := Nat.mod_lt arr.length hn
    generalize hq : arr.length / n = q at *
    generalize hr : arr.length % n = r at *
    split
    · symm
      rw [Nat.div_eq_iff (by omega)]
      have : (q + 1) * n = n * q + n := by ring
      rw [this]
      omega
    · symm
      rw [Nat.div_eq_iff (by omega)]
      have : q * n = n * q := by ring
      rw [this]
      omega
  set k := (arr.length + n - 1) / n with hkdef
  have hk1 : arr.length ≤ k * n := by
    have := Nat.lt_div_mul_add (a := arr.length + n - 1) hn
    rw [← hkdef] at this
    omega
  have hk2 : ∀ i, i + 1 ≤ k → i * n < arr.length := by
    intro i hi
    have : (i + 1) * n ≤ k * n := Nat.mul_le_mul_right _ hi
    have h3 : k * n ≤ arr.length + n - 1 := Nat.div_mul_le_self _ _
    have : (i + 1) * n = i * n + n := by ring
    omega
  refine ⟨(List.range k).map fun i => slice arr (i * n) ((i + 1) * n), ?_, by simp, ?_, ?_, ?_⟩
  · unfold chunkit
    rw [if_neg (by omega)]
    simp only
    rw [hk]
  · rw [chunks_flatten, List.take_of_length_le hk1]
  · intro i c hc hi
    simp only [List.getElem?_map, Option.map_eq_some_iff] at hc
    obtain ⟨j, hj, rfl⟩ := hc
    rw [List.getElem?_eq_some_iff] at hj
    obtain ⟨h1, h2⟩ := hj
    simp at h1 h2 hi
    subst h2
    have := hk2 (i + 1) (by omega)
    have e : (i + 1) * n = i * n + n := by ring
    simp only [slice, List.length_drop, List.length_take]
    rw [e]
    rw [e] at this
    omega
  · intro c hc
    rw [List.getLast?_eq_getElem?] at hc
    simp only [List.getElem?_map, Option.map_eq_some_iff, List.length_map, List.length_range] at hc
    obtain ⟨j, hj, rfl⟩ := hc
    rw [List.getElem?_eq_some_iff] at hj
    obtain ⟨h1, h2⟩ := hj
    simp at h1 h2
    subst h2
    have := hk2 (k - 1) (by omega)
    have e : (k - 1 + 1) * n = (k - 1) * n + n := by ring
    simp only [slice, List.length_drop, List.length_take]
    rw [e]
    omega

/-- C24: a chunk size of zero is rejected. -/
theorem C24_chunkit_zero {α : Type} (arr : List α) : chunkit arr 0 = .error .zeroDivisionError := rfl

example : chunkit [1, 2, 3, 4, 5] 2 = .ok [[1, 2], [3, 4], [5]] := by rfl

/-! ## C25: groupby_unsorted -/

/-- Specification: `d` is the grouping of the items of `a` by `key`. -/
def IsGrouping {α κ β : Type} [DecidableEq κ] (a : List α) (key : α → κ) (get : α → β)
    (d : List (κ × List β)) : Prop :=
  -- the keys are distinct and exactly the keys of the items
  (d.map Prod.fst).Nodup ∧ (∀ k, k ∈ d.map Prod.fst ↔ ∃ x ∈ a, key x = k) ∧
  -- the list of each key are the get-values of the items with that key in input order
  (∀ k vs, (k, vs) ∈ d → vs = (a.filter fun x => decide (key x = k)).map get) ∧
  -- nothing is lost or duplicated
  ((d.map Prod.snd).flatten).Perm (a.map get)

/-- C25 (`sort=False`): the result is the grouping, keys in order of first appearance. -/
theorem C25_groupby_unsorted {α κ β : Type} [DecidableEq κ] (a : List α) (key : α → κ) (get : α → β) :
    IsGrouping a key get (groupbyUnsorted a key get) ∧
    ((groupbyUnsorted a key get).map Prod.fst).Pairwise
      fun k k' => (a.map key).idxOf k < (a.map key).idxOf k' := by
  refine ⟨⟨groupby_keys_nodup _ _ _, ?_, ?_, groupby_flatten_perm _ _ _⟩, groupby_keys_order _ _ _⟩
  · intro k; rw [groupby_keys_mem]; simp
  · intro k vs h
    rw [← groupby_lookup, lookupD_of_mem _ (groupby_keys_nodup _ _ _) k vs h]

/-- C25 (`sort=True`): the result is the grouping, keys in ascending order. -/
theorem C25_groupby_sorted {α κ β : Type} [LinearOrder κ] (a : List α) (key : α → κ) (get : α → β) :
    IsGrouping a key get (groupbyUnsortedSorted a key get) ∧
    ((groupbyUnsortedSorted a key get).map Prod.fst).Pairwise (· < ·) := by
  obtain ⟨⟨h1, h2, h3, h4⟩, -⟩ := C25_groupby_unsorted a key get
  have hp : (groupbyUnsortedSorted a key get).Perm (groupbyUnsorted a key get) := List.mergeSort_perm _ _
  have hnd := ((hp.map Prod.fst).nodup_iff).2 h1
  refine ⟨⟨hnd, ?_, ?_, ?_⟩, ?_⟩
  · intro k; rw [(hp.map Prod.fst).mem_iff]; exact h2 k
  · intro k vs h; exact h3 k vs (hp.mem_iff.1 h)
  · exact ((hp.map Prod.snd).flatten).trans h4
  · have hs : (groupbyUnsortedSorted a key get).Pairwise fun x y => x.1 ≤ y.1 := by
      have := List.pairwise_mergeSort (le := fun (x y : κ × List β) => decide (x.1 ≤ y.1))
        (by intro x y z; simp only [decide_eq_true_eq]; exact le_trans)
        (by intro x y; simp only [Bool.or_eq_true, decide_eq_true_eq]; exact le_total _ _)
        (groupbyUnsorted a key get)
      exact this.imp (by simp)
    have hs' : ((groupbyUnsortedSorted a key get).map Prod.fst).Pairwise (· ≤ ·) := by
      rw [List.pairwise_map]; exact hs
    exact (hs'.and hnd).imp fun ⟨h, h'⟩ => lt_of_le_of_ne h h'

example : groupbyUnsorted [3, 14, 5, 13, 4] (· % 10) (fun x => x) = [(3, [3, 13]), (4, [14, 4]), (5, [5])] := by
  rfl

/-! ## C26: find_missing -/

/-- C26: for a non-empty list of non-negative numbers the stream is strictly increasing and yields exactly the
non-negative integers that are not in the list.

Full claim: the same for *every* list including the empty one (then starting at 0); this is false for the
empty list, see `C26_find_missing_empty`.  Missing here: the empty list. -/
theorem C26_find_missing_partial (lst : List Int) (hne : lst ≠ []) (hpos : ∀ x ∈ lst, 0 ≤ x) :
    StrictMono (findMissing lst) ∧ ∀ x : Int, (∃ i, findMissing lst i = x) ↔ 0 ≤ x ∧ x ∉ lst := by
  have hmax : 0 ≤ maxID lst := hpos _ (maxID_mem lst hne)
  constructor
  · apply strictMono_nat_of_lt_succ
    intro i
    unfold findMissing
    by_cases h1 : i + 1 < (missingIDs lst).length
    · rw [dif_pos (by omega), dif_pos h1]
      exact List.pairwise_iff_getElem.1 (missing_sorted lst) _ _ _ _ (by omega)
    · by_cases h2 : i < (missingIDs lst).length
      · rw [dif_pos h2, dif_neg h1]
        have := ((mem_missing lst _).1 (List.getElem_mem h2)).2.2.1
        omega
      · rw [dif_neg h2, dif_neg h1]
        omega
  · intro x
    constructor
    · rintro ⟨i, rfl⟩
      unfold findMissing
      split
      · rename_i h
        have := (mem_missing lst _).1 (List.getElem_mem h)
        exact ⟨this.2.1, this.2.2.2⟩
      · refine ⟨by omega, ?_⟩
        intro hm
        have := maxID_ge lst _ hm
        omega
    · rintro ⟨h0, hx⟩
      by_cases hlt : x < maxID lst
      · have : x ∈ missingIDs lst := (mem_missing lst x).2 ⟨hne, h0, hlt, hx⟩
        obtain ⟨i, hi, rfl⟩ := List.getElem_of_mem this
        exact ⟨i, by rw [findMissing, dif_pos hi]⟩
      · have hgt : maxID lst < x := by
          rcases lt_or_eq_of_le (not_lt.1 hlt) with h | h
          · exact h
          · exact absurd (h ▸ maxID_mem lst hne) hx
        refine ⟨(missingIDs lst).length + (x - maxID lst - 1).toNat, ?_⟩
        rw [findMissing, dif_neg (by omega)]
        omega

/-- C26: for the empty list the stream is `1, 2, 3, …`: strictly increasing and fresh, but it never yields `0`.
This contradicts the claim "starting at 0". -/
theorem C26_find_missing_empty :
    (∀ i, findMissing [] i = i + 1) ∧ ¬ ∃ i, findMissing [] i = 0 := by
  have h : ∀ i, findMissing [] i = i + 1 := by
    intro i
    simp [findMissing, missingIDs, maxID]
    omega
  refine ⟨h, ?_⟩
  rintro ⟨i, hi⟩
  rw [h] at hi
  omega

/-- C26: for every list of non-negative numbers (also the empty one) the yielded numbers are strictly
increasing, non-negative and not in the list. -/
theorem C26_find_missing_fresh (lst : List Int) (hpos : ∀ x ∈ lst, 0 ≤ x) :
    StrictMono (findMissing lst) ∧ ∀ i, 0 ≤ findMissing lst i ∧ findMissing lst i ∉ lst := by
  by_cases hne : lst = []
  · subst hne
    have h := C26_find_missing_empty.1
    refine ⟨fun a b hab => ?_, fun i => ⟨?_, by simp⟩⟩
    · rw [h, h]; omega
    · rw [h]; omega
  · obtain ⟨h1, h2⟩ := C26_find_missing_partial lst hne hpos
    exact ⟨h1, fun i => (h2 _).1 ⟨i, rfl⟩⟩

/-- C26: with `N` exactly the first `N` values are yielded. -/
theorem C26_find_missing_N (lst : List Int) (N : Nat) :
    (findMissingN lst N).length = N ∧ ∀ i, i < N → (findMissingN lst N)[i]? = some (findMissing lst i) := by
  refine ⟨by simp [findMissingN], ?_⟩
  intro i hi
  simp [findMissingN, List.getElem?_range hi]

example : findMissingN [2, 5, 6, 34, 68] 5 = [0, 1, 3, 4, 7] := by decide +kernel
example : findMissingN [0, 1, 2] 5 = [3, 4, 5, 6, 7] := by decide +kernel

/-! ## C27: dt_to_hms -/

/-- Specification: `(d,h,m,s)` is a decomposition of the time difference. -/
def IsHms (td : Timedelta) (r : Int × Nat × Nat × Nat) : Prop :=
  86400 * r.1 + 3600 * r.2.1 + 60 * r.2.2.1 + r.2.2.2 = 86400 * td.days + td.seconds ∧
  r.2.1 < 24 ∧ r.2.2.1 < 60 ∧ r.2.2.2 < 60

/-- C27: the result is the unique decomposition of the time difference (for timedeltas in python's normalised
form). -/
theorem C27_dt_to_hms (td : Timedelta) (h : td.seconds < 86400) :
    IsHms td (dtToHms td) ∧ ∀ r, IsHms td r → r = dtToHms td := by
  have h1 : IsHms td (dtToHms td) := by
    simp only [IsHms, dtToHms]
    omega
  refine ⟨h1, ?_⟩
  rintro ⟨d, hh, m, s⟩ hr
  obtain ⟨e, a1, a2, a3⟩ := hr
  obtain ⟨e', b1, b2, b3⟩ := h1
  generalize hq : dtToHms td = q at *
  obtain ⟨d', hh', m', s'⟩ := q
  simp only at *
  have : d = d' := by omega
  have : hh = hh' := by omega
  have : m = m' := by omega
  have : s = s' := by omega
  simp [*]

example : dtToHms ⟨-1, 86399⟩ = (-1, 23, 59, 59) := by rfl

/-! ## C28: scale -/

theorem scaleVal_affine (d0 d1 a b x : ℝ) (h : d0 < d1) :
    scaleVal d0 d1 a b x = a + (x - d0) * ((b - a) / (d1 - d0)) := by
  have : d1 - d0 ≠ 0 := by linarith
  unfold scaleVal
  field_simp
  ring

/-- C28: for arrays with at least two different values `scale` is the affine map with `min ↦ a`, `max ↦ b`:
every value keeps its relative position in the range. -/
theorem C28_scale (x y : List ℝ) (a b lo hi : ℝ) (hlo : lo ∈ x) (hhi : hi ∈ x)
    (hb : ∀ v ∈ x, lo ≤ v ∧ v ≤ hi) (hne : lo ≠ hi) (h : scale x a b = .ok y) :
    y = x.map (fun v => a + (v - lo) * ((b - a) / (hi - lo))) := by
  unfold scale at h
  split at h
  · cases h
  · cases h
    rename_i hnil
    have hx : x ≠ [] := by rintro rfl; simp at hnil
    have e1 : npMin x = lo := le_antisymm (npMin_le x lo hlo) (hb _ (npMin_mem x hx)).1
    have e2 : npMax x = hi := le_antisymm (hb _ (npMax_mem x hx)).2 (le_npMax x hi hhi)
    have hlt : lo < hi := lt_of_le_of_ne (hb hi hhi).1 hne
    apply List.map_congr_left
    intro v _
    rw [e1, e2, scaleVal_affine _ _ _ _ _ hlt]

theorem exists_lo_hi (x : List ℝ) (hx : x ≠ []) :
    npMin x ∈ x ∧ npMax x ∈ x ∧ ∀ v ∈ x, npMin x ≤ v ∧ v ≤ npMax x :=
  ⟨npMin_mem x hx, npMax_mem x hx, fun v hv => ⟨npMin_le x v hv, le_npMax x v hv⟩⟩

/-- C28: `scale` succeeds for every non-empty array, keeps the length; the minimum is mapped to `a`, the maximum
to `b`, the order is preserved and all values lie in `[a, b]`. -/
theorem C28_scale_range (x : List ℝ) (a b lo hi : ℝ) (hlo : lo ∈ x) (hhi : hi ∈ x)
    (hb : ∀ v ∈ x, lo ≤ v ∧ v ≤ hi) (hne : lo ≠ hi) (hab : a ≤ b) :
    ∃ f : ℝ → ℝ, scale x a b = .ok (x.map f) ∧ f lo = a ∧ f hi = b ∧
      (∀ u v, u ≤ v → f u ≤ f v) ∧ (a < b → ∀ u v, u < v → f u < f v) ∧ ∀ v ∈ x, a ≤ f v ∧ f v ≤ b := by
  have hx : x ≠ [] := by rintro rfl; simp at hlo
  have hlt : lo < hi := lt_of_le_of_ne (hb hi hhi).1 hne
  have hs : scale x a b = .ok (x.map (scaleVal (npMin x) (npMax x) a b)) := by
    unfold scale
    rw [if_neg (by simpa using hx)]
  have := C28_scale x _ a b lo hi hlo hhi hb hne hs
  have hq : 0 ≤ (b - a) / (hi - lo) := div_nonneg (by linarith) (by linarith)
  have flo : a + (lo - lo) * ((b - a) / (hi - lo)) = a := by ring
  have fhi : a + (hi - lo) * ((b - a) / (hi - lo)) = b := by
    have : hi - lo ≠ 0 := by linarith
    field_simp; ring
  have mono : ∀ u v : ℝ, u ≤ v → a + (u - lo) * ((b - a) / (hi - lo)) ≤ a + (v - lo) * ((b - a) / (hi - lo)) := by
    intro u v huv
    have := mul_le_mul_of_nonneg_right (by linarith : u - lo ≤ v - lo) hq
    linarith
  refine ⟨fun v => a + (v - lo) * ((b - a) / (hi - lo)), by rw [hs, this], flo, fhi, mono, ?_, ?_⟩
  · intro hab' u v huv
    have hq' : 0 < (b - a) / (hi - lo) := div_pos (by linarith) (by linarith)
    have := mul_lt_mul_of_pos_right (by linarith : u - lo < v - lo) hq'
    linarith
  · intro v hv
    obtain ⟨h1, h2⟩ := hb v hv
    constructor
    · have := mono lo v h1; simp only; linarith
    · have := mono v hi h2; simp only; linarith

/-- C28: scaling an already scaled array again to the same range changes nothing. -/
theorem C28_scale_idempotent (x y : List ℝ) (a b : ℝ) (hne : ∃ u ∈ x, ∃ v ∈ x, u ≠ v) (hab : a < b)
    (h : scale x a b = .ok y) : scale y a b = .ok y := by
  obtain ⟨u, hu, v, hv, huv⟩ := hne
  have hx : x ≠ [] := by rintro rfl; simp at hu
  obtain ⟨h1, h2, h3⟩ := exists_lo_hi x hx
  set lo := npMin x
  set hi := npMax x
  have hlh : lo ≠ hi := by
    intro e
    have a1 := h3 u hu
    have a2 := h3 v hv
    apply huv
    rw [← e] at a1 a2
    linarith [a1.1, a1.2, a2.1, a2.2]
  obtain ⟨f, hf, flo, fhi, mono, smono, hr⟩ := C28_scale_range x a b lo hi h1 h2 h3 hlh hab.le
  rw [h] at hf
  cases hf
  have hy := C28_scale_range (x.map f) a b (f lo) (f hi) (List.mem_map_of_mem h1) (List.mem_map_of_mem h2)
    (by
      intro w hw
      obtain ⟨w', hw', rfl⟩ := List.mem_map.1 hw
      exact ⟨mono _ _ (h3 w' hw').1, mono _ _ (h3 w' hw').2⟩)
    (by rw [flo, fhi]; exact hab.ne) hab.le
  obtain ⟨g, hg, -⟩ := hy
  have e := C28_scale (x.map f) _ a b (f lo) (f hi) (List.mem_map_of_mem h1) (List.mem_map_of_mem h2)
    (by
      intro w hw
      obtain ⟨w', hw', rfl⟩ := List.mem_map.1 hw
      exact ⟨mono _ _ (h3 w' hw').1, mono _ _ (h3 w' hw').2⟩)
    (by rw [flo, fhi]; exact hab.ne) hg
  rw [hg, e]
  congr 1
  rw [flo, fhi]
  have hid : ∀ w : ℝ, a + (w - a) * ((b - a) / (b - a)) = w := by
    intro w
    have : b - a ≠ 0 := by linarith
    rw [div_self this]; ring
  simp [hid]

/-- C28: an empty array is rejected. -/
theorem C28_scale_empty (a b : ℝ) : scale [] a b = .error .valueError := rfl

example : (∃ u ∈ [(3 : ℝ), 1, 2], ∃ v ∈ [(3 : ℝ), 1, 2], u ≠ v) ∧ (0 : ℝ) < 1 := by
  refine ⟨⟨3, by simp, 1, by simp, by norm_num⟩, by norm_num⟩

/-! ## C29: progress bar -/

/-- C29: below the maximum the bar has exactly 20 characters (some `#` followed by `-`); the number of `#` grows
monotonically with the progress; the final message is shown exactly from the maximum on. -/
theorem C29_update_progress (maxProg : Nat) (hm : 1 ≤ maxProg) :
    (∀ p, updateProgress p maxProg = .ok .final ↔ p ≥ maxProg) ∧
    (∀ p, p < maxProg → ∃ n, n ≤ 20 ∧
      updateProgress p maxProg = .ok (.bar (List.replicate n '#' ++ List.replicate (20 - n) '-'))) ∧
    (∀ p p' n n', p ≤ p' → p' < maxProg → n ≤ 20 → n' ≤ 20 →
      updateProgress p maxProg = .ok (.bar (List.replicate n '#' ++ List.replicate (20 - n) '-')) →
      updateProgress p' maxProg = .ok (.bar (List.replicate n' '#' ++ List.replicate (20 - n') '-')) →
      n ≤ n') := by
  have hblock : ∀ p, p ≤ maxProg → roundHalfEven (20 * p) maxProg ≤ 20 := by
    intro p hp
    have h1 := roundHalfEven_mono (20 * p) (20 * maxProg) maxProg hm (by omega)
    have h2 : roundHalfEven (20 * maxProg) maxProg = 20 := by
      unfold roundHalfEven
      rw [Nat.mul_div_cancel _ hm, Nat.mul_mod_left]
      simp
    omega
  have hval : ∀ p, p < maxProg → updateProgress p maxProg =
      .ok (.bar (List.replicate (roundHalfEven (20 * p) maxProg) '#' ++
        List.replicate (20 - roundHalfEven (20 * p) maxProg) '-')) := by
    intro p hp
    unfold updateProgress
    rw [if_neg (by omega)]
    simp only
    rw [if_neg (by omega)]
  have hcount : ∀ n n' : Nat, n ≤ 20 → n' ≤ 20 →
      (List.replicate n '#' ++ List.replicate (20 - n) '-') =
      (List.replicate n' '#' ++ List.replicate (20 - n') '-') → n = n' := by
    intro n n' h1 h2 h
    have := congrArg (List.count '#') h
    simpa [List.count_replicate] using this
  refine ⟨?_, ?_, ?_⟩
  · intro p
    constructor
    · intro h
      by_contra hc
      rw [hval p (by omega)] at h
      cases h
    · intro h
      unfold updateProgress
      rw [if_neg (by omega)]
      simp only
      rw [if_pos h]
  · intro p hp
    exact ⟨_, hblock p hp.le, hval p hp⟩
  · intro p p' n n' hp hp' hn hn' e e'
    rw [hval p (by omega)] at e
    rw [hval p' hp'] at e'
    injection e with e; injection e with e
    injection e' with e'; injection e' with e'
    have := hcount _ _ (hblock p (by omega)) hn e
    have := hcount _ _ (hblock p' (by omega)) hn' e'
    have := roundHalfEven_mono (20 * p) (20 * p') maxProg hm (by omega)
    omega

/-- C29: `max_prog = 0` is rejected. -/
theorem C29_update_progress_zero (p : Nat) : updateProgress p 0 = .error .zeroDivisionError := rfl

example : updateProgress 3 8 = .ok (.bar "########------------".toList) := by rfl

end RT1.General
