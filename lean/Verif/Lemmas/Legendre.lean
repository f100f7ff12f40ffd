import Verif.Lemmas.Fn
import Mathlib.Analysis.SpecialFunctions.Pow.Deriv
import Mathlib.MeasureTheory.Integral.IntervalIntegral.IntegrationByParts
import Mathlib.Analysis.SpecialFunctions.Gamma.Beta

/-!
# Legendre polynomials: derivatives, boundary values, moments
-/

namespace RT1.Legendre

open Real RT1.Fn MeasureTheory Set

/-- derivative of the Legendre polynomial -/
noncomputable def dP (x : ℝ) : ℕ → ℝ
  | 0 => 0
  | 1 => 1
  | n + 2 => ((2 * n + 3) * (legP x (n + 1) + x * dP x (n + 1)) - (n + 1) * dP x n) / (n + 2)

theorem bonnet (x : ℝ) (n : ℕ) :
    (n + 2 : ℝ) * legP x (n + 2) = (2 * n + 3) * x * legP x (n + 1) - (n + 1) * legP x n := by
  have : (n + 2 : ℝ) ≠ 0 := by positivity
  rw [legP]; field_simp

theorem hasDerivAt_legP (x : ℝ) (n : ℕ) : HasDerivAt (fun y => legP y n) (dP x n) x := by
  induction n using Nat.twoStepInduction with
  | zero => simpa [legP, dP] using hasDerivAt_const x (1 : ℝ)
  | one => simp only [legP, dP]; exact hasDerivAt_id x
  | more n ih1 ih2 =>
    have h : HasDerivAt (fun y => (((2 * n + 3) * (y * legP y (n + 1)) - (n + 1) * legP y n) / (n + 2) : ℝ))
        (((2 * n + 3) * (1 * legP x (n + 1) + x * dP x (n + 1)) - (n + 1) * dP x n) / (n + 2)) x :=
      (((((hasDerivAt_id x).mul ih2).const_mul (2 * n + 3 : ℝ))).sub (ih1.const_mul (n + 1 : ℝ))).div_const _
    have e : (fun y => legP y (n + 2)) =
        fun y => (((2 * n + 3) * (y * legP y (n + 1)) - (n + 1) * legP y n) / (n + 2) : ℝ) := by
      funext y; rw [legP]; ring
    rw [e, dP]
    refine h.congr_deriv ?_
    ring

theorem continuous_legP (n : ℕ) : Continuous fun x => legP x n :=
  continuous_iff_continuousAt.2 fun x => (hasDerivAt_legP x n).continuousAt

theorem bonnet' (x : ℝ) (n : ℕ) :
    (n + 2 : ℝ) * dP x (n + 2) = (2 * n + 3) * (legP x (n + 1) + x * dP x (n + 1)) - (n + 1) * dP x n := by
  have : (n + 2 : ℝ) ≠ 0 := by positivity
  rw [dP]; field_simp

theorem dP_rel (x : ℝ) (n : ℕ) :
    dP x (n + 1) = x * dP x n + (n + 1) * legP x n ∧ x * dP x (n + 1) - dP x n = (n + 1) * legP x (n + 1) := by
  induction n with
  | zero => simp [dP, legP]
  | succ n ih =>
    obtain ⟨A, B⟩ := ih
    have hn : (n + 2 : ℝ) ≠ 0 := by positivity
    have A' : dP x (n + 2) = x * dP x (n + 1) + (n + 2) * legP x (n + 1) := by
      have h := bonnet' x n
      apply mul_left_cancel₀ hn
      rw [h]
      linear_combination (n + 1 : ℝ) * B
    refine ⟨?_, ?_⟩
    · push_cast; rw [A']; ring
    · push_cast
      have hb := bonnet x n
      rw [A']
      linear_combination -hb + x * B - A

theorem dP_diff (x : ℝ) (n : ℕ) : dP x (n + 2) - dP x n = (2 * n + 3) * legP x (n + 1) := by
  have h1 := (dP_rel x (n + 1)).1
  have h2 := (dP_rel x n).2
  push_cast at h1
  linear_combination h1 + h2

theorem continuous_dP (n : ℕ) : Continuous fun x => dP x n := by
  induction n using Nat.twoStepInduction with
  | zero => exact continuous_const
  | one => exact continuous_const
  | more n h1 h2 =>
    have := continuous_legP (n + 1)
    simp only [dP]
    fun_prop

theorem legP_one (n : ℕ) : legP 1 n = 1 := by
  induction n using Nat.twoStepInduction with
  | zero => rfl
  | one => rfl
  | more n h1 h2 =>
    have hn : (n + 2 : ℝ) ≠ 0 := by positivity
    rw [legP, h1, h2]; field_simp; ring

theorem legP_neg (x : ℝ) (n : ℕ) : legP (-x) n = (-1) ^ n * legP x n := by
  induction n using Nat.twoStepInduction with
  | zero => simp [legP]
  | one => simp [legP]
  | more n h1 h2 =>
    have hn : (n + 2 : ℝ) ≠ 0 := by positivity
    rw [legP, legP, h1, h2]; field_simp; ring

theorem legP_neg_one (n : ℕ) : legP (-1) n = (-1) ^ n := by rw [legP_neg, legP_one, mul_one]

/-! ## Projections of the Henyey-Greenstein function -/

section
variable {t : ℝ}

/-- the denominator -/
noncomputable def D (t x : ℝ) : ℝ := 1 + t ^ 2 - 2 * t * x

theorem D_pos (ht : |t| < 1) {x : ℝ} (hx : x ∈ Icc (-1 : ℝ) 1) : 0 < D t x := by
  obtain ⟨h1, h2⟩ := abs_lt.1 ht
  obtain ⟨h3, h4⟩ := hx
  unfold D
  nlinarith [mul_nonneg (sub_nonneg.2 h2.le) (sub_nonneg.2 h4), mul_nonneg (sub_nonneg.2 h2.le) (by linarith : 0 ≤ x + 1),
    mul_nonneg (by linarith : 0 ≤ t + 1) (sub_nonneg.2 h4), mul_nonneg (by linarith : 0 ≤ t + 1) (by linarith : 0 ≤ x + 1),
    sq_nonneg (t - 1), sq_nonneg (t + 1), mul_pos (by linarith : 0 < t + 1) (by linarith : 0 < 1 - t)]

theorem hasDerivAt_Dinv (ht : |t| < 1) {x : ℝ} (hx : x ∈ Icc (-1 : ℝ) 1) :
    HasDerivAt (fun x => D t x ^ (-1 / 2 : ℝ)) (t * D t x ^ (-3 / 2 : ℝ)) x := by
  have h1 : HasDerivAt (D t) (-2 * t) x := by
    have := ((hasDerivAt_id x).const_mul (2 * t)).const_sub (1 + t ^ 2)
    refine this.congr_deriv (by ring)
  have := h1.rpow_const (p := -1 / 2) (Or.inl (D_pos ht hx).ne')
  refine this.congr_deriv ?_
  rw [show (-1 / 2 - 1 : ℝ) = -3 / 2 by norm_num]
  ring

theorem continuousOn_Dpow (ht : |t| < 1) (p : ℝ) : ContinuousOn (fun x => D t x ^ p) (Icc (-1) 1) := by
  apply ContinuousOn.rpow_const
  · unfold D; fun_prop
  · intro x hx; exact Or.inl (D_pos ht hx).ne'

theorem int_DP (ht : |t| < 1) (p : ℝ) {f : ℝ → ℝ} (hf : Continuous f) :
    IntervalIntegrable (fun x => f x * D t x ^ p) volume (-1) 1 := by
  apply ContinuousOn.intervalIntegrable
  rw [uIcc_of_le (by norm_num)]
  exact hf.continuousOn.mul (continuousOn_Dpow ht p)

/-- `∫ P_n D^p` -/
noncomputable def B (t p : ℝ) (n : ℕ) : ℝ := ∫ x in (-1 : ℝ)..1, legP x n * D t x ^ p

theorem D_one (t : ℝ) : D t 1 = (1 - t) ^ 2 := by unfold D; ring
theorem D_neg_one (t : ℝ) : D t (-1) = (1 + t) ^ 2 := by unfold D; ring

theorem sq_rpow {y : ℝ} (hy : 0 < y) : (y ^ 2) ^ (-1 / 2 : ℝ) = y⁻¹ := by
  rw [← rpow_natCast, ← rpow_mul hy.le]
  norm_num
  exact rpow_neg_one y

/-- integration by parts -/
theorem byParts (ht : |t| < 1) (n : ℕ) :
    t * B t (-3 / 2) n = (1 - t)⁻¹ - (-1) ^ n * (1 + t)⁻¹ - ∫ x in (-1 : ℝ)..1, dP x n * D t x ^ (-1 / 2 : ℝ) := by
  obtain ⟨h1, h2⟩ := abs_lt.1 ht
  have h := intervalIntegral.integral_deriv_mul_eq_sub (a := -1) (b := 1)
    (u := fun x => legP x n) (v := fun x => D t x ^ (-1 / 2 : ℝ))
    (u' := fun x => dP x n) (v' := fun x => t * D t x ^ (-3 / 2 : ℝ))
    (fun x _ => hasDerivAt_legP x n)
    (fun x hx => hasDerivAt_Dinv ht (by rwa [uIcc_of_le (by norm_num)] at hx))
    ((continuous_dP n).intervalIntegrable _ _)
    (int_DP ht _ continuous_const)
  rw [intervalIntegral.integral_add (int_DP ht _ (continuous_dP n))] at h
  · rw [D_one, D_neg_one, sq_rpow (by linarith), sq_rpow (by linarith), legP_one, legP_neg_one] at h
    have e : ∫ x in (-1 : ℝ)..1, legP x n * (t * D t x ^ (-3 / 2 : ℝ)) = t * B t (-3 / 2) n := by
      unfold B
      rw [← intervalIntegral.integral_const_mul]
      apply intervalIntegral.integral_congr
      intro x _; simp only; ring
    rw [e] at h
    linarith
  · have := int_DP ht (-3 / 2) ((continuous_legP n).mul (continuous_const (y := t)))
    refine this.congr fun x _ => ?_
    simp only [Pi.mul_apply]; ring

theorem rpow_step (ht : |t| < 1) {x : ℝ} (hx : x ∈ Icc (-1 : ℝ) 1) :
    D t x ^ (-1 / 2 : ℝ) = D t x * D t x ^ (-3 / 2 : ℝ) := by
  have := D_pos ht hx
  rw [show (-1 / 2 : ℝ) = 1 + -3 / 2 by norm_num, rpow_add this, rpow_one]

/-- `∫ x P_{n+1} D^p` by Bonnet's recursion -/
theorem int_xP (ht : |t| < 1) (p : ℝ) (n : ℕ) :
    (2 * n + 3 : ℝ) * ∫ x in (-1 : ℝ)..1, (x * legP x (n + 1)) * D t x ^ p =
      (n + 2) * B t p (n + 2) + (n + 1) * B t p n := by
  unfold B
  rw [← intervalIntegral.integral_const_mul, ← intervalIntegral.integral_const_mul,
    ← intervalIntegral.integral_const_mul, ← intervalIntegral.integral_add]
  · apply intervalIntegral.integral_congr
    intro x _
    have := bonnet x n
    simp only
    linear_combination (-D t x ^ p) * this
  · exact (int_DP ht p (continuous_legP _)).const_mul _
  · exact (int_DP ht p (continuous_legP _)).const_mul _

theorem B_half (ht : |t| < 1) (n : ℕ) :
    B t (-1 / 2) n = (1 + t ^ 2) * B t (-3 / 2) n - 2 * t * ∫ x in (-1 : ℝ)..1, (x * legP x n) * D t x ^ (-3 / 2 : ℝ) := by
  unfold B
  rw [← intervalIntegral.integral_const_mul, ← intervalIntegral.integral_const_mul, ← intervalIntegral.integral_sub]
  · apply intervalIntegral.integral_congr
    intro x hx
    rw [uIcc_of_le (by norm_num)] at hx
    simp only
    rw [rpow_step ht hx]
    unfold D; ring
  · exact (int_DP ht _ (continuous_legP _)).const_mul _
  · exact (int_DP ht _ (continuous_id.mul (continuous_legP _))).const_mul _

theorem B_rec (ht : |t| < 1) (n : ℕ) :
    t * B t (-3 / 2) (n + 2) = (1 + t ^ 2) * B t (-3 / 2) (n + 1) - t * B t (-3 / 2) n := by
  have p2 := byParts ht (n + 2)
  have p0 := byParts ht n
  have hd : (∫ x in (-1 : ℝ)..1, dP x (n + 2) * D t x ^ (-1 / 2 : ℝ)) - ∫ x in (-1 : ℝ)..1, dP x n * D t x ^ (-1 / 2 : ℝ) =
      (2 * n + 3) * B t (-1 / 2) (n + 1) := by
    unfold B
    rw [← intervalIntegral.integral_sub (int_DP ht _ (continuous_dP _)) (int_DP ht _ (continuous_dP _)),
      ← intervalIntegral.integral_const_mul]
    apply intervalIntegral.integral_congr
    intro x _
    have := dP_diff x n
    simp only
    linear_combination (D t x ^ (-1 / 2 : ℝ)) * this
  have hx := int_xP ht (-3 / 2) n
  have hh := B_half ht (n + 1)
  have hn : (2 * n + 3 : ℝ) ≠ 0 := by positivity
  apply mul_left_cancel₀ hn
  have e : ((-1 : ℝ)) ^ (n + 2) = (-1) ^ n := by ring
  rw [e] at p2
  linear_combination (2 * n + 3 : ℝ) * hh - 2 * t * hx - p2 + p0 + hd

theorem legP_int (n : ℕ) : ∫ x in (-1 : ℝ)..1, legP x (n + 1) = 0 := by
  have h : ∫ x in (-1 : ℝ)..1, (dP x (n + 2) - dP x n) = 0 := by
    rw [intervalIntegral.integral_sub ((continuous_dP _).intervalIntegrable _ _) ((continuous_dP _).intervalIntegrable _ _),
      intervalIntegral.integral_eq_sub_of_hasDerivAt (fun x _ => hasDerivAt_legP x _)
        ((continuous_dP _).intervalIntegrable _ _),
      intervalIntegral.integral_eq_sub_of_hasDerivAt (fun x _ => hasDerivAt_legP x _)
        ((continuous_dP _).intervalIntegrable _ _), legP_one, legP_one, legP_neg_one, legP_neg_one]
    ring
  simp only [dP_diff] at h
  rw [intervalIntegral.integral_const_mul] at h
  have hn : (2 * n + 3 : ℝ) ≠ 0 := by positivity
  exact (mul_eq_zero.1 h).resolve_left hn

/-- The projections of `D^{-3/2}`. -/
theorem B_closed (ht : |t| < 1) (n : ℕ) : B t (-3 / 2) n = 2 * t ^ n / (1 - t ^ 2) := by
  obtain ⟨h1, h2⟩ := abs_lt.1 ht
  have hm : (1 - t) ≠ 0 := by linarith
  have hp : (1 + t) ≠ 0 := by linarith
  have hq : (1 - t ^ 2) ≠ 0 := by
    rw [show 1 - t ^ 2 = (1 - t) * (1 + t) by ring]; exact mul_ne_zero hm hp
  by_cases h0 : t = 0
  · subst h0
    have : ∀ x, D 0 x ^ (-3 / 2 : ℝ) = 1 := by intro x; simp [D]
    unfold B
    simp only [this, mul_one]
    cases n with
    | zero => simp [legP]; norm_num
    | succ n => rw [legP_int]; simp
  · induction n using Nat.twoStepInduction with
    | zero =>
      have := byParts ht 0
      simp only [dP, zero_mul, intervalIntegral.integral_zero, pow_zero, one_mul, sub_zero] at this
      apply mul_left_cancel₀ h0
      rw [this, show 1 - t ^ 2 = (1 - t) * (1 + t) by ring]
      field_simp; ring
    | one =>
      have b0 := byParts ht 0
      simp only [dP, zero_mul, intervalIntegral.integral_zero, pow_zero, one_mul, sub_zero] at b0
      have b1 := byParts ht 1
      have e : ∫ x in (-1 : ℝ)..1, dP x 1 * D t x ^ (-1 / 2 : ℝ) = B t (-1 / 2) 0 := by
        unfold B; simp [dP, legP]
      have e2 : ∫ x in (-1 : ℝ)..1, (x * legP x 0) * D t x ^ (-3 / 2 : ℝ) = B t (-3 / 2) 1 := by
        unfold B; simp [legP]
      have hh := B_half ht 0
      rw [e2] at hh
      rw [e, hh] at b1
      apply mul_left_cancel₀ h0
      have b0' : B t (-3 / 2) 0 = ((1 - t)⁻¹ - (1 + t)⁻¹) / t := by
        rw [eq_div_iff h0, mul_comm]; exact b0
      rw [b0'] at b1
      have hx : t * B t (-3 / 2) 1 = (1 + t ^ 2) * (((1 - t)⁻¹ - (1 + t)⁻¹) / t) - ((1 - t)⁻¹ + (1 + t)⁻¹) := by
        linear_combination -b1
      rw [hx, show 1 - t ^ 2 = (1 - t) * (1 + t) by ring]
      field_simp
      ring
    | more n i1 i2 =>
      have := B_rec ht n
      rw [i1, i2] at this
      apply mul_left_cancel₀ h0
      rw [this]
      field_simp
      ring

theorem xP (x : ℝ) (n : ℕ) : (2 * n + 1 : ℝ) * (x * legP x n) = (n + 1) * legP x (n + 1) + n * legP x (n - 1) := by
  cases n with
  | zero => simp [legP]
  | succ n =>
    have := bonnet x n
    simp only [Nat.add_sub_cancel]
    push_cast
    linear_combination -this

theorem xxP (x : ℝ) (n : ℕ) : (2 * n + 1 : ℝ) * (x ^ 2 * legP x n) =
    (n + 1) / (2 * n + 3) * ((n + 2) * legP x (n + 2) + (n + 1) * legP x n)
      + n / (2 * n - 1) * (n * legP x n + (n - 1) * legP x (n - 2)) := by
  have h0 := xP x n
  have h1 := xP x (n + 1)
  simp only [Nat.add_sub_cancel] at h1
  push_cast at h1
  have h3 : (2 * n + 3 : ℝ) ≠ 0 := by positivity
  have e1 : x * legP x (n + 1) = ((n + 2) * legP x (n + 2) + (n + 1) * legP x n) / (2 * n + 3) := by
    rw [eq_div_iff h3]; linear_combination h1
  cases n with
  | zero => simp [legP]; ring
  | succ n =>
    have h2 := xP x n
    simp only [Nat.add_sub_cancel] at h0
    have h4 : (2 * n + 1 : ℝ) ≠ 0 := by positivity
    have e2 : x * legP x n = ((n + 1) * legP x (n + 1) + n * legP x (n - 1)) / (2 * n + 1) := by
      rw [eq_div_iff h4]; linear_combination h2
    have e3 : n + 1 - 2 = n - 1 := by omega
    rw [e3]
    push_cast at *
    have : (2 * ((n : ℝ) + 1) + 1) * (x ^ 2 * legP x (n + 1)) =
        (n + 1 + 1) * (x * legP x (n + 1 + 1)) + (n + 1) * (x * legP x n) := by linear_combination x * h0
    rw [this, e1, e2]
    have h5 : (2 * ((n : ℝ) + 1) - 1) = 2 * n + 1 := by ring
    rw [h5]
    field_simp
    ring

/-- Projections of `x² D^{-3/2}`. -/
theorem B_sq (ht : |t| < 1) (n : ℕ) : (2 * n + 1 : ℝ) * ∫ x in (-1 : ℝ)..1, (x ^ 2 * legP x n) * D t x ^ (-3 / 2 : ℝ) =
    (n + 1) / (2 * n + 3) * ((n + 2) * B t (-3 / 2) (n + 2) + (n + 1) * B t (-3 / 2) n)
      + n / (2 * n - 1) * (n * B t (-3 / 2) n + (n - 1) * B t (-3 / 2) (n - 2)) := by
  have hi := fun m => int_DP ht (-3 / 2) (continuous_legP m)
  unfold B
  simp only [← intervalIntegral.integral_const_mul]
  rw [← intervalIntegral.integral_add ((hi _).const_mul _) ((hi _).const_mul _),
    ← intervalIntegral.integral_add ((hi _).const_mul _) ((hi _).const_mul _)]
  simp only [← intervalIntegral.integral_const_mul]
  rw [← intervalIntegral.integral_add]
  · apply intervalIntegral.integral_congr
    intro x _
    have := xxP x n
    simp only
    linear_combination (D t x ^ (-3 / 2 : ℝ)) * this
  · exact (((hi _).const_mul _).add ((hi _).const_mul _)).const_mul _
  · exact (((hi _).const_mul _).add ((hi _).const_mul _)).const_mul _

end

/-! ## Half-range moments -/

/-- `∫_0^1 x^i P_n(x) dx` -/
noncomputable def M (i n : ℕ) : ℝ := ∫ x in (0 : ℝ)..1, x ^ i * legP x n

theorem M_rec (i n : ℕ) : (n + 2 : ℝ) * M i (n + 2) = (2 * n + 3) * M (i + 1) (n + 1) - (n + 1) * M i n := by
  have hi : ∀ j m, IntervalIntegrable (fun x : ℝ => x ^ j * legP x m) volume 0 1 := fun j m =>
    ((continuous_pow j).mul (continuous_legP m)).intervalIntegrable _ _
  unfold M
  simp only [← intervalIntegral.integral_const_mul]
  rw [← intervalIntegral.integral_sub ((hi _ _).const_mul _) ((hi _ _).const_mul _)]
  apply intervalIntegral.integral_congr
  intro x _
  have := bonnet x n
  simp only
  linear_combination (x ^ i) * this

/-- reciprocal Gamma function -/
noncomputable def rg (z : ℝ) : ℝ := (Gamma z)⁻¹

theorem rg_succ (z : ℝ) : rg z = z * rg (z + 1) := by
  by_cases h : z = 0
  · subst h; simp [rg, Gamma_zero]
  · unfold rg; rw [Gamma_add_one h, mul_inv]; field_simp

/-- closed form of the moments -/
noncomputable def G (i n : ℕ) : ℝ :=
  (2 : ℝ) ^ (-1 - (i : ℝ)) * √π * Gamma (1 + i) * rg ((2 - n + i) / 2) * rg ((3 + n + i) / 2)

theorem two_rpow_succ (i : ℕ) : (2 : ℝ) ^ (-1 - ((i + 1 : ℕ) : ℝ)) = (2 : ℝ) ^ (-1 - (i : ℝ)) / 2 := by
  rw [show (-1 - ((i + 1 : ℕ) : ℝ)) = (-1 - (i : ℝ)) - 1 by push_cast; ring, rpow_sub_one (by norm_num)]

theorem G_rec (i n : ℕ) : (n + 2 : ℝ) * G i (n + 2) = (2 * n + 3) * G (i + 1) (n + 1) - (n + 1) * G i n := by
  unfold G
  rw [two_rpow_succ]
  have g : Gamma (1 + ((i + 1 : ℕ) : ℝ)) = (i + 1) * Gamma (1 + i) := by
    rw [show (1 + ((i + 1 : ℕ) : ℝ)) = (1 + (i : ℝ)) + 1 by push_cast; ring, Gamma_add_one (by positivity)]
    ring
  rw [g]
  push_cast
  rw [show ((2 - ((n : ℝ) + 2) + i) / 2) = (i - n) / 2 by ring,
    show ((3 + ((n : ℝ) + 2) + i) / 2) = (i + n + 3) / 2 + 1 by ring,
    show ((2 - ((n : ℝ) + 1) + (i + 1)) / 2) = (i - n) / 2 + 1 by ring,
    show ((3 + ((n : ℝ) + 1) + (i + 1)) / 2) = (i + n + 3) / 2 + 1 by ring,
    show ((2 - (n : ℝ) + i) / 2) = (i - n) / 2 + 1 by ring,
    show ((3 + (n : ℝ) + i) / 2) = (i + n + 3) / 2 by ring]
  rw [rg_succ ((i - n : ℝ) / 2), rg_succ ((i + n + 3 : ℝ) / 2)]
  ring

theorem dup (i : ℕ) : Gamma (1 + i / 2) * Gamma ((3 + i) / 2) = Gamma (2 + i) * (2 : ℝ) ^ (-1 - (i : ℝ)) * √π := by
  have := Real.Gamma_mul_Gamma_add_half (1 + (i : ℝ) / 2)
  rw [show (1 + (i : ℝ) / 2 + 1 / 2) = (3 + i) / 2 by ring, show 2 * (1 + (i : ℝ) / 2) = 2 + i by ring,
    show 1 - (2 + (i : ℝ)) = -1 - i by ring] at this
  exact this

theorem M_zero (i : ℕ) : M i 0 = 1 / (i + 1) := by simp [M, legP]

theorem M_one (i : ℕ) : M i 1 = 1 / (i + 2) := by
  have : ∀ x : ℝ, x ^ i * x = x ^ (i + 1) := fun x => (pow_succ x i).symm
  simp only [M, legP, this, integral_pow]
  simp; norm_num [add_assoc]

theorem G_zero (i : ℕ) : G i 0 = 1 / (i + 1) := by
  have h := dup i
  have g : Gamma (2 + (i : ℝ)) = (i + 1) * Gamma (1 + i) := by
    rw [show (2 + (i : ℝ)) = (1 + (i : ℝ)) + 1 by ring, Gamma_add_one (by positivity)]; ring
  have p1 : 0 < Gamma (1 + (i : ℝ) / 2) := Gamma_pos_of_pos (by positivity)
  have p2 : 0 < Gamma ((3 + (i : ℝ)) / 2) := Gamma_pos_of_pos (by positivity)
  have p3 : 0 < Gamma (1 + (i : ℝ)) := Gamma_pos_of_pos (by positivity)
  unfold G rg
  rw [show ((2 - ((0 : ℕ) : ℝ) + i) / 2) = 1 + (i : ℝ) / 2 by push_cast; ring,
    show ((3 + ((0 : ℕ) : ℝ) + i) / 2) = (3 + (i : ℝ)) / 2 by push_cast; ring]
  rw [g] at h
  have hi : (i + 1 : ℝ) ≠ 0 := by positivity
  generalize Gamma (1 + (i : ℝ) / 2) = g1 at *
  generalize Gamma ((3 + (i : ℝ)) / 2) = g2 at *
  generalize Gamma (1 + (i : ℝ)) = g3 at *
  field_simp
  linear_combination -h

theorem G_one (i : ℕ) : G i 1 = 1 / (i + 2) := by
  have h0 := G_zero i
  unfold G at *
  rw [show ((2 - ((0 : ℕ) : ℝ) + i) / 2) = 1 + (i : ℝ) / 2 by push_cast; ring,
    show ((3 + ((0 : ℕ) : ℝ) + i) / 2) = (1 + (i : ℝ)) / 2 + 1 by push_cast; ring] at h0
  rw [show ((2 - ((1 : ℕ) : ℝ) + i) / 2) = (1 + (i : ℝ)) / 2 by push_cast; ring,
    show ((3 + ((1 : ℕ) : ℝ) + i) / 2) = (1 + (i : ℝ) / 2) + 1 by push_cast; ring]
  rw [rg_succ (1 + (i : ℝ) / 2)] at h0
  rw [rg_succ ((1 + (i : ℝ)) / 2)]
  have hi : (i + 1 : ℝ) ≠ 0 := by positivity
  have hi2 : (i + 2 : ℝ) ≠ 0 := by positivity
  generalize (2 : ℝ) ^ (-1 - (i : ℝ)) * √π * Gamma (1 + i) = K at *
  generalize rg ((1 + (i : ℝ)) / 2 + 1) = r1 at *
  generalize rg ((1 + (i : ℝ) / 2) + 1) = r2 at *
  field_simp at h0 ⊢
  linear_combination h0

theorem M_eq_G (i n : ℕ) : M i n = G i n := by
  induction n using Nat.twoStepInduction generalizing i with
  | zero => rw [M_zero, G_zero]
  | one => rw [M_one, G_one]
  | more n h1 h2 =>
    have hn : (n + 2 : ℝ) ≠ 0 := by positivity
    apply mul_left_cancel₀ hn
    rw [M_rec, G_rec, h1, h2]

end RT1.Legendre
