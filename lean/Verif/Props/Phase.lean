import Verif.Lemmas.Phase
import Verif.Lemmas.LegendreSeries
import Verif.Props.Fn

/-!
# Properties C14-C17, C73-C76: phase functions, BRDFs and their combinations
-/

namespace RT1.Phase

open Real RT1.Rad RT1.Fn RT1.Legendre MeasureTheory Set

/-! ## Specifications -/

/-- Specification: integral of a volume phase function over all scattering directions `(θ, φ)` for the incidence
direction `(θ₀, φ₀)`; the scattering angle is the default one (`a = [-1, 1, 1]`). -/
noncomputable def sphereIntegral (p : ℝ → ℝ) (θ₀ φ₀ : ℝ) : ℝ :=
  ∫ φ in (0 : ℝ)..2 * π, ∫ θ in (0 : ℝ)..π, p (scatAngle (-1, 1, 1) θ₀ θ φ₀ φ) * sin θ

/-- Specification: hemispherical reflectance of a BRDF. -/
noncomputable def hemReflectance (brdf : ℝ → ℝ → ℝ → ℝ → ℝ) (θ₀ φ₀ : ℝ) : ℝ :=
  ∫ φ in (0 : ℝ)..2 * π, ∫ θ in (0 : ℝ)..π / 2, brdf θ₀ θ φ₀ φ * cos θ * sin θ

/-- Specification: `leg` are the expansion coefficients of `f` in Legendre polynomials on `[-1, 1]`. -/
def IsLegendreExpansion (f : ℝ → ℝ) (leg : ℕ → ℝ) : Prop :=
  ∀ n : ℕ, leg n = (2 * n + 1) / 2 * ∫ x in (-1 : ℝ)..1, f x * legP x n

theorem scatAngle_sphere (θ₀ θ φ₀ φ : ℝ) :
    scatAngle (-1, 1, 1) θ₀ θ φ₀ φ = cos (π - θ₀) * cos θ + sin (π - θ₀) * sin θ * cos (φ₀ - φ) := by
  simp only [scatAngle, cos_pi_sub, sin_pi_sub, cos_sub φ₀ φ]; ring

theorem sphereIntegral_eq {p p' : ℝ → ℝ} (h : ∀ x ∈ Icc (-1 : ℝ) 1, HasDerivAt p (p' x) x)
    (hc : ContinuousOn p' (Icc (-1) 1)) (θ₀ φ₀ : ℝ) :
    sphereIntegral p θ₀ φ₀ = 2 * π * ∫ x in (-1 : ℝ)..1, p x := by
  unfold sphereIntegral
  simp only [scatAngle_sphere]
  exact Sphere.sphere_integral h hc _ _

/-- The cosine of the scattering angle with the default weights stays in `[-1, 1]`. -/
theorem scatAngle_mem (θ₀ θ φ₀ φ : ℝ) : scatAngle (-1, 1, 1) θ₀ θ φ₀ φ ∈ Icc (-1 : ℝ) 1 := by
  rw [scatAngle_sphere]; exact Sphere.X_mem _ _ _

/-! ## C14: Rayleigh -/

theorem C14_nonneg (x : ℝ) : 0 < rayleigh x := by unfold rayleigh; positivity

theorem C14_normalised (θ₀ φ₀ : ℝ) : sphereIntegral rayleigh θ₀ φ₀ = 1 := by
  rw [sphereIntegral_eq (p' := fun x => 3 / (16 * π) * (2 * x))]
  · unfold rayleigh
    rw [intervalIntegral.integral_const_mul]
    have : ∫ x in (-1 : ℝ)..1, (1 + x ^ 2) = 8 / 3 := by
      rw [intervalIntegral.integral_add (by simp) (by simp), integral_pow]; norm_num
    rw [this]; field_simp; norm_num
  · intro x _
    have := ((hasDerivAt_pow 2 x).const_add 1).const_mul (3 / (16 * π))
    exact this.congr_deriv (by norm_num)
  · fun_prop

/-- Every truncation with at least three coefficients reproduces the Rayleigh function. -/
theorem C14_series {N : ℕ} (hN : rayleighNcoefs ≤ N) (x : ℝ) : legSeries rayleighLeg N x = rayleigh x := by
  obtain ⟨m, rfl⟩ := Nat.exists_eq_add_of_le hN
  unfold legSeries
  rw [show rayleighNcoefs = 3 from rfl, Finset.sum_range_add]
  have : ∑ i ∈ Finset.range m, rayleighLeg (3 + i) * legP x (3 + i) = 0 := by
    apply Finset.sum_eq_zero
    intro i _
    simp [rayleighLeg, kronecker, show ¬ (0 = 3 + i) by omega, show ¬ (2 = 3 + i) by omega]
  rw [this]
  simp [Finset.sum_range_succ, rayleighLeg, kronecker, legP, rayleigh]
  ring

/-- C14: fewer coefficients do not suffice (the bound `3` is needed). -/
theorem C14_sharp : legSeries rayleighLeg 2 1 ≠ rayleigh 1 := by
  simp [legSeries, Finset.sum_range_succ, rayleighLeg, kronecker, legP, rayleigh]
  intro h
  have : (0 : ℝ) < π := pi_pos
  field_simp at h
  norm_num at h

example : legSeries rayleighLeg 7 (1 / 2) = rayleigh (1 / 2) := C14_series (by decide) _

/-! ## C15: Henyey-Greenstein -/

theorem C15_pos {t : ℝ} (ht : |t| < 1) {x : ℝ} (hx : x ∈ Icc (-1 : ℝ) 1) : 0 < hgV t x := by
  rw [hgV_eq ht hx]
  have := rpow_pos_of_pos (D_pos ht hx) (-3 / 2)
  have := one_sub_sq_pos ht
  positivity

theorem hgV_hasDeriv {t : ℝ} (ht : |t| < 1) {x : ℝ} (hx : x ∈ Icc (-1 : ℝ) 1) :
    HasDerivAt (hgV t) ((1 - t ^ 2) / (4 * π) * (3 * t * D t x ^ (-5 / 2 : ℝ))) x := by
  have h1 : HasDerivAt (D t) (-2 * t) x := by
    have := ((hasDerivAt_id x).const_mul (2 * t)).const_sub (1 + t ^ 2)
    refine this.congr_deriv (by ring)
  have h0 := D_pos ht hx
  have h2 := (h1.rpow_const (p := 3 / 2) (Or.inl h0.ne')).const_mul (4 * π)
  have h3 := h2.fun_inv (by positivity)
  have h4 := h3.const_mul (1 - t ^ 2)
  refine (h4.congr_deriv ?_).congr_of_eventuallyEq ?_
  · rw [show (3 / 2 - 1 : ℝ) = 1 / 2 by norm_num, show (-5 / 2 : ℝ) = 1 / 2 - 3 by norm_num, rpow_sub h0]
    have e : D t x ^ (3 : ℝ) = (D t x ^ (3 / 2 : ℝ)) ^ 2 := by
      rw [← rpow_natCast, ← rpow_mul h0.le]; norm_num
    rw [e]
    have := (rpow_pos_of_pos h0 (3 / 2)).ne'
    field_simp
  · filter_upwards with y
    unfold hgV D
    rw [div_eq_mul_inv]

theorem C15_normalised {t : ℝ} (ht : |t| < 1) (θ₀ φ₀ : ℝ) : sphereIntegral (hgV t) θ₀ φ₀ = 1 := by
  rw [sphereIntegral_eq (fun x hx => hgV_hasDeriv ht hx)
    (((continuousOn_Dpow ht _).const_smul (3 * t)).const_smul ((1 - t ^ 2) / (4 * π)))]
  have := hgV_proj ht 0
  simp only [legP, mul_one, pow_zero] at this
  rw [this]
  field_simp

/-- The mean cosine of the scattering angle is the asymmetry parameter. -/
theorem C15_mean_cosine {t : ℝ} (ht : |t| < 1) (θ₀ φ₀ : ℝ) : sphereIntegral (fun x => x * hgV t x) θ₀ φ₀ = t := by
  rw [sphereIntegral_eq (p := fun x => x * hgV t x) (fun x hx => (hasDerivAt_id' x).fun_mul (hgV_hasDeriv ht hx))]
  · have := hgV_proj ht 1
    simp only [legP, pow_one] at this
    have e : ∫ x in (-1 : ℝ)..1, x * hgV t x = t / (2 * π) := by rw [← this]; congr 1; ext x; ring
    rw [e]
    field_simp
  · refine ContinuousOn.add (ContinuousOn.mul continuousOn_const fun x hx =>
      (hgV_hasDeriv ht hx).continuousAt.continuousWithinAt) (continuousOn_id.mul
      (((continuousOn_Dpow ht _).const_smul (3 * t)).const_smul ((1 - t ^ 2) / (4 * π))))

theorem C15_isotropic (x : ℝ) : hgV 0 x = 1 / (4 * π) := by simp [hgV]

theorem C15_legcoefs {t : ℝ} (ht : |t| < 1) : IsLegendreExpansion (hgV t) (hgVLeg t) := by
  intro n
  rw [hgV_proj ht, hgVLeg]
  field_simp
  ring

example : sphereIntegral (hgV (-1 / 2)) 1 2 = 1 := C15_normalised (by norm_num [abs_lt]) _ _
example : hgVLeg (1 / 2) 2 = 5 / 16 / π := by simp [hgVLeg]; field_simp; norm_num

/-! ## C16: BRDF building blocks -/

theorem C16_isotropic_pos (x : ℝ) : 0 < isotropic x := by unfold isotropic; positivity

theorem hem_cos_sin : ∫ θ in (0 : ℝ)..π / 2, cos θ * sin θ = 1 / 2 := by
  have : ∀ θ : ℝ, cos θ * sin θ = sin θ * cos θ := fun θ => mul_comm _ _
  simp only [this, integral_sin_mul_cos₁]
  simp

/-- The isotropic BRDF reflects everything, for all incidence directions. -/
theorem C16_isotropic_hemreflect (a : ℝ × ℝ × ℝ) (θ₀ φ₀ : ℝ) :
    hemReflectance (fun t0 tex p0 pex => isotropic (scatAngle a t0 tex p0 pex)) θ₀ φ₀ = 1 := by
  simp only [hemReflectance, isotropic, mul_assoc, intervalIntegral.integral_const_mul, hem_cos_sin]
  simp
  field_simp

theorem C16_isotropic_series {N : ℕ} (hN : isotropicNcoefs ≤ N) (x : ℝ) : legSeries isotropicLeg N x = isotropic x := by
  obtain ⟨m, rfl⟩ := Nat.exists_eq_add_of_le hN
  unfold legSeries
  rw [show isotropicNcoefs = 1 from rfl, Finset.sum_range_add]
  have : ∑ i ∈ Finset.range m, isotropicLeg (1 + i) * legP x (1 + i) = 0 := by
    apply Finset.sum_eq_zero
    intro i _
    simp [isotropicLeg, kronecker, show ¬ (0 = 1 + i) by omega]
  rw [this]
  simp [isotropicLeg, kronecker, legP, isotropic]

theorem C16_cosineLobe_nonneg (i : ℕ) (x : ℝ) : 0 ≤ cosineLobe i x := by
  unfold cosineLobe
  have : 0 ≤ x * (1 + (SignType.sign x : ℝ)) / 2 := by
    rcases lt_trichotomy x 0 with h | h | h
    · simp [h]
    · simp [h]
    · simp [h]; positivity
  positivity

/-- For powers `i ≥ 1` the cosine lobe vanishes for negative scattering cosines. -/
theorem C16_cosineLobe_neg_partial {i : ℕ} (hi : 1 ≤ i) {x : ℝ} (hx : x < 0) : cosineLobe i x = 0 := by
  simp [cosineLobe, sign_neg hx, show i ≠ 0 by omega]

theorem C16_cosineLobe_nonneg_side (i : ℕ) {x : ℝ} (hx : 0 < x) : cosineLobe i x = x ^ i / π := by
  have : x * (1 + (SignType.sign x : ℝ)) / 2 = x := by simp [hx]; ring
  rw [cosineLobe, this]; ring

theorem C16_cosineLobe_zero (i : ℕ) : cosineLobe i 0 = 0 ^ i / π := by
  simp [cosineLobe]; ring

/-- Negation of the general statement: with `i = 0` (accepted by the constructor) the cosine lobe is `1/pi` also for
negative scattering cosines. -/
theorem C16_cosineLobe_neg_fails : ¬ ∀ (i : ℕ) (x : ℝ), x < 0 → cosineLobe i x = 0 := by
  intro h
  have := h 0 (-1) (by norm_num)
  simp [cosineLobe] at this

theorem C16_hg_eq_four_volume (t x : ℝ) : hgS t x = 4 * hgV t x := by
  unfold hgS hgV
  rw [mul_assoc 4 π, one_mul]
  generalize π * (1 + t ^ 2 - 2 * t * x) ^ (3 / 2 : ℝ) = d
  rw [mul_comm 4 d, ← div_div]
  ring

theorem C16_hg_pos {t : ℝ} (ht : |t| < 1) {x : ℝ} (hx : x ∈ Icc (-1 : ℝ) 1) : 0 < hgS t x := by
  rw [C16_hg_eq_four_volume]
  have := C15_pos ht hx
  positivity

/-- Surface Henyey-Greenstein: the coefficients are the Legendre expansion of the function. -/
theorem C16_hg_legcoefs {t : ℝ} (ht : |t| < 1) : IsLegendreExpansion (hgS t) (hgSLeg t) := by
  intro n
  simp only [C16_hg_eq_four_volume, mul_assoc, intervalIntegral.integral_const_mul]
  rw [hgV_proj ht, hgSLeg]
  field_simp
  ring

example : cosineLobe 3 (1 / 2) = 1 / 8 / π := by rw [C16_cosineLobe_nonneg_side 3 (by norm_num)]; norm_num

/-! ## C73: HGRayleigh -/

theorem C73_pos {t : ℝ} (ht : |t| < 1) {x : ℝ} (hx : x ∈ Icc (-1 : ℝ) 1) : 0 < hgRay t x := by
  rw [hgRay_eq ht hx]
  have := rpow_pos_of_pos (D_pos ht hx) (-3 / 2)
  have := one_sub_sq_pos ht
  positivity

theorem C73_legcoefs {t : ℝ} (ht : |t| < 1) : IsLegendreExpansion (hgRay t) (hgRayLeg t) :=
  fun n => (hgRay_proj ht n).symm

theorem hgRay_eq_hgV (t : ℝ) : hgRay t = fun x => 3 / (2 * (2 + t ^ 2)) * ((1 + x ^ 2) * hgV t x) := by
  ext x
  unfold hgRay hgV
  have : (2 + t ^ 2) ≠ 0 := by positivity
  by_cases h : (1 + t ^ 2 - 2 * t * x) ^ (3 / 2 : ℝ) = 0
  · simp [h]
  · field_simp; ring

theorem C73_normalised {t : ℝ} (ht : |t| < 1) (θ₀ φ₀ : ℝ) : sphereIntegral (hgRay t) θ₀ φ₀ = 1 := by
  have h0 := hgRay_proj ht 0
  simp only [legP, mul_one, Nat.cast_zero, mul_zero, zero_add] at h0
  have hd : ∀ x ∈ Icc (-1 : ℝ) 1, HasDerivAt (hgRay t)
      (3 / (2 * (2 + t ^ 2)) * (2 * x * hgV t x + (1 + x ^ 2) * ((1 - t ^ 2) / (4 * π) * (3 * t * D t x ^ (-5 / 2 : ℝ))))) x := by
    intro x hx
    rw [hgRay_eq_hgV]
    have h1 : HasDerivAt (fun x : ℝ => 1 + x ^ 2) (2 * x) x := by
      simpa using (hasDerivAt_pow 2 x).const_add 1
    exact (h1.mul (hgV_hasDeriv ht hx)).const_mul _
  rw [sphereIntegral_eq hd]
  · have : ∫ x in (-1 : ℝ)..1, hgRay t x = 2 * hgRayLeg t 0 := by linarith
    rw [this]
    simp [hgRayLeg]
    have : (2 + t ^ 2) ≠ 0 := by positivity
    field_simp
    ring
  · have c1 : ContinuousOn (hgV t) (Icc (-1) 1) := fun x hx => (hgV_hasDeriv ht hx).continuousAt.continuousWithinAt
    have c2 := continuousOn_Dpow ht (-5 / 2)
    fun_prop

theorem C73_rayleigh (x : ℝ) : hgRay 0 x = rayleigh x := by
  simp [hgRay, rayleigh]; ring

example : hgRayLeg (1 / 2) 2 ≠ 0 := by
  simp [hgRayLeg]; norm_num

/-! ## C74: Legendre coefficients of the cosine lobe -/

theorem cosineLobe_eq (i : ℕ) (x : ℝ) : cosineLobe i x = 1 / π * max x 0 ^ i := by
  unfold cosineLobe
  congr 2
  rcases lt_trichotomy x 0 with h | h | h
  · simp [h, h.le]
  · simp [h]
  · simp [h, h.le]; ring

theorem cosineLobeLeg_eq (i n : ℕ) : cosineLobeLeg i n = (2 * n + 1) / 2 * (1 / π * M i n) := by
  rw [M_eq_G]
  unfold cosineLobeLeg G rg
  rw [show (-2 - (i : ℝ)) = (-1 - i) - 1 by ring, rpow_sub_one (by norm_num : (2 : ℝ) ≠ 0),
    show ((2 - (n : ℝ) + i) / 2) = (2 - n + i) * (1 / 2) by ring,
    show ((3 + (n : ℝ) + i) / 2) = (3 + n + i) * (1 / 2) by ring, div_eq_mul_inv _ (Gamma _ * Gamma _), mul_inv]
  ring

/-- For every power `i ≥ 1` the coefficients (a quotient of Gamma functions) are the Legendre expansion of the lobe. -/
theorem C74_legcoefs_partial {i : ℕ} (hi : 1 ≤ i) : IsLegendreExpansion (cosineLobe i) (cosineLobeLeg i) := by
  intro n
  have hc : Continuous fun x => cosineLobe i x * legP x n := by
    simp only [cosineLobe_eq]
    have := continuous_legP n
    fun_prop
  have h1 : ∫ x in (-1 : ℝ)..0, cosineLobe i x * legP x n = 0 := by
    apply intervalIntegral.integral_zero_ae
    filter_upwards with x hx
    rw [uIoc_of_le (by norm_num)] at hx
    rcases hx.2.lt_or_eq with h | h
    · rw [C16_cosineLobe_neg_partial hi h, zero_mul]
    · rw [h, C16_cosineLobe_zero]; simp [show i ≠ 0 by omega]
  have h2 : ∫ x in (0 : ℝ)..1, cosineLobe i x * legP x n = 1 / π * M i n := by
    unfold M
    rw [← intervalIntegral.integral_const_mul]
    apply intervalIntegral.integral_congr
    intro x hx
    rw [uIcc_of_le (by norm_num)] at hx
    simp only
    rw [cosineLobe_eq, max_eq_left hx.1]; ring
  rw [← intervalIntegral.integral_add_adjacent_intervals (hc.intervalIntegrable _ 0) (hc.intervalIntegrable _ _), h1, h2,
    cosineLobeLeg_eq, zero_add]

/-- Negation for `i = 0`: the function is the constant `1/pi`, but the coefficient of order 0 is `1/(2 pi)`. -/
theorem C74_legcoefs_fails : ¬ ∀ i : ℕ, IsLegendreExpansion (cosineLobe i) (cosineLobeLeg i) := by
  intro h
  have h0 := h 0 0
  rw [cosineLobeLeg_eq, M_zero] at h0
  simp [cosineLobe_eq, legP] at h0

/-- What the coefficients for `i = 0` represent: the step function that is `1/pi` for positive scattering cosines. -/
theorem C74_zero_is_step : ∀ n : ℕ, cosineLobeLeg 0 n = (2 * n + 1) / 2 * ∫ x in (0 : ℝ)..1, 1 / π * legP x n := by
  intro n
  rw [cosineLobeLeg_eq, M, intervalIntegral.integral_const_mul]
  simp

/-- The cosine lobe of power 1 has the coefficient `1/(2 pi)` at order 1 (the lobe is not trivial). -/
example : cosineLobeLeg 1 1 = 1 / (2 * π) := by
  rw [cosineLobeLeg_eq, M_one]
  push_cast
  field_simp
  ring

/-! ## C75: normalisation of `HG_nadirnorm` -/

theorem nadir_integral {c b : ℝ} (hc : 0 < c) (hb : b ≠ 0) (hcb : 0 < c - b) :
    ∫ μ in (0 : ℝ)..1, μ / (c - b * μ) ^ (3 / 2 : ℝ) = (2 * c - b) * 2 / (b ^ 2 * √(c - b)) - 4 * √c / b ^ 2 := by
  have hpos : ∀ μ ∈ Icc (0 : ℝ) 1, 0 < c - b * μ := by
    intro μ hμ
    obtain ⟨h0, h1⟩ := hμ
    rcases le_total b 0 with h | h
    · nlinarith
    · nlinarith
  have hd : ∀ μ ∈ Icc (0 : ℝ) 1, HasDerivAt (fun μ => 2 / b ^ 2 * ((2 * c - b * μ) / √(c - b * μ)))
      (μ / (c - b * μ) ^ (3 / 2 : ℝ)) μ := by
    intro μ hμ
    have hp := hpos μ hμ
    have hs : 0 < √(c - b * μ) := Real.sqrt_pos.2 hp
    have d1 : HasDerivAt (fun μ => c - b * μ) (-b) μ := by
      have := ((hasDerivAt_id' μ).const_mul b).const_sub c
      exact this.congr_deriv (by ring)
    have d2 : HasDerivAt (fun μ => 2 * c - b * μ) (-b) μ := by
      have := ((hasDerivAt_id' μ).const_mul b).const_sub (2 * c)
      exact this.congr_deriv (by ring)
    have d3 := (d2.fun_div (d1.sqrt hp.ne') hs.ne').const_mul (2 / b ^ 2)
    refine d3.congr_deriv ?_
    have e : (c - b * μ) ^ (3 / 2 : ℝ) = √(c - b * μ) * (c - b * μ) := by
      rw [show (3 / 2 : ℝ) = 1 / 2 + 1 by norm_num, rpow_add hp, rpow_one, Real.sqrt_eq_rpow]
    have e2 : √(c - b * μ) ^ 2 = c - b * μ := Real.sq_sqrt hp.le
    rw [e, e2]
    have := hp.ne'
    generalize hu : c - b * μ = u at *
    have hs2 : √u ≠ 0 := hs.ne'
    field_simp
    rw [e2]
    linear_combination (2 : ℝ) * hu
  rw [intervalIntegral.integral_eq_sub_of_hasDerivAt (fun μ hμ => hd μ (by rwa [uIcc_of_le (by norm_num)] at hμ))]
  · simp only [mul_one, mul_zero, sub_zero]
    have h1 : 0 < √c := Real.sqrt_pos.2 hc
    have h2 : 0 < √(c - b) := Real.sqrt_pos.2 hcb
    have h3 : 2 * c / √c = 2 * √c := by
      rw [div_eq_iff h1.ne', mul_assoc, Real.mul_self_sqrt hc.le]
    rw [h3]
    field_simp
    ring
  · apply ContinuousOn.intervalIntegrable
    rw [uIcc_of_le (by norm_num)]
    refine continuousOn_id.div (ContinuousOn.rpow_const (by fun_prop) fun x hx => Or.inl (hpos x hx).ne') fun x hx =>
      (rpow_pos_of_pos (hpos x hx) _).ne'

theorem nadirHemreflect_eq {t a0 : ℝ} (ht : t ≠ 0) (ha : a0 ≠ 0) (hp : 0 < 1 + t ^ 2 - 2 * a0 * t) :
    nadirHemreflect t a0 =
      2 * (1 - t ^ 2) * ∫ μ in (0 : ℝ)..1, μ / (1 + t ^ 2 - 2 * t * (a0 * μ)) ^ (3 / 2 : ℝ) := by
  have e : ∀ μ : ℝ, 1 + t ^ 2 - 2 * t * (a0 * μ) = (1 + t ^ 2) - (2 * t * a0) * μ := fun μ => by ring
  simp only [e]
  have hq : 0 < 1 + t ^ 2 - 2 * t * a0 := by linarith
  rw [nadir_integral (by positivity) (by simp [ht, ha]) hq]
  unfold nadirHemreflect
  rw [show 1 + t ^ 2 - 2 * a0 * t = 1 + t ^ 2 - 2 * t * a0 by ring, Real.sqrt_mul hq.le]
  have h1 : 0 < √(1 + t ^ 2 - 2 * t * a0) := Real.sqrt_pos.2 hq
  generalize √(1 + t ^ 2 - 2 * t * a0) = s at *
  generalize √(1 + t ^ 2) = c at *
  field_simp
  ring

/-- For every weight vector `a` (with `a₀ ≠ 0`) and every non-zero asymmetry parameter the normalised BRDF has
hemispherical reflectance 1 at nadir incidence. -/
theorem C75_nadir_reflectance {t : ℝ} {a : ℝ × ℝ × ℝ} (ht : |t| < 1) (ht0 : t ≠ 0) (ha : a.1 ≠ 0)
    (hp : 0 < 1 + t ^ 2 - 2 * a.1 * t) (φ₀ : ℝ) :
    hemReflectance (fun t0 tex p0 pex => hgNadir t a.1 (scatAngle a t0 tex p0 pex)) 0 φ₀ = 1 := by
  have hx : ∀ θ φ, scatAngle a 0 θ φ₀ φ = a.1 * cos θ := by intro θ φ; simp [scatAngle]
  have hN := nadirHemreflect_eq ht0 ha hp
  have hpos : ∀ μ ∈ Icc (0 : ℝ) 1, 0 < 1 + t ^ 2 - 2 * t * (a.1 * μ) := by
    intro μ hμ
    obtain ⟨h0, h1⟩ := hμ
    rcases le_total (t * a.1) 0 with h | h
    · nlinarith [sq_nonneg t]
    · nlinarith [sq_nonneg t]
  have hcont : ContinuousOn (fun μ : ℝ => μ / (1 + t ^ 2 - 2 * t * (a.1 * μ)) ^ (3 / 2 : ℝ)) (Icc 0 1) :=
    continuousOn_id.div (ContinuousOn.rpow_const (by fun_prop) fun x hx => Or.inl (hpos x hx).ne') fun x hx =>
      (rpow_pos_of_pos (hpos x hx) _).ne'
  have hIpos : 0 < ∫ μ in (0 : ℝ)..1, μ / (1 + t ^ 2 - 2 * t * (a.1 * μ)) ^ (3 / 2 : ℝ) := by
    apply intervalIntegral.intervalIntegral_pos_of_pos_on
    · apply ContinuousOn.intervalIntegrable
      rwa [uIcc_of_le (by norm_num)]
    · intro x hx
      exact div_pos hx.1 (rpow_pos_of_pos (hpos x ⟨hx.1.le, hx.2.le⟩) _)
    · norm_num
  have hq := one_sub_sq_pos ht
  have hsub : ∫ θ in (0 : ℝ)..π / 2, hgNadir t a.1 (a.1 * cos θ) * cos θ * sin θ =
      ∫ μ in (0 : ℝ)..1, hgNadir t a.1 (a.1 * μ) * μ :=
    integral_cos_subst (fun μ => hgNadir t a.1 (a.1 * μ) * μ)
  simp only [hemReflectance, hx, hsub]
  have hI : ∫ μ in (0 : ℝ)..1, hgNadir t a.1 (a.1 * μ) * μ = 1 / nadirHemreflect t a.1 * ((1 - t ^ 2) / π) *
      ∫ μ in (0 : ℝ)..1, μ / (1 + t ^ 2 - 2 * t * (a.1 * μ)) ^ (3 / 2 : ℝ) := by
    rw [← intervalIntegral.integral_const_mul]
    congr 1
    ext μ
    unfold hgNadir
    rw [← div_div]
    ring
  rw [hI, hN]
  generalize (∫ μ in (0 : ℝ)..1, μ / (1 + t ^ 2 - 2 * t * (a.1 * μ)) ^ (3 / 2 : ℝ)) = I at *
  simp
  field_simp

/-- The coefficients of `HG_nadirnorm` are the Legendre expansion of the function. -/
theorem C75_legcoefs {t : ℝ} (ht : |t| < 1) (a0 : ℝ) : IsLegendreExpansion (hgNadir t a0) (hgNadirLeg t a0) := by
  intro n
  have e : ∀ x, hgNadir t a0 x = 1 / nadirHemreflect t a0 * hgS t x := fun x => by simp [hgNadir, hgS]
  have h := C16_hg_legcoefs ht n
  simp only [e, mul_assoc, intervalIntegral.integral_const_mul]
  rw [mul_left_comm, ← h]
  simp [hgNadirLeg, hgSLeg]

example : hemReflectance (fun t0 tex p0 pex => hgNadir (1 / 2) 1 (scatAngle (1, 1, 1) t0 tex p0 pex)) 0 0 = 1 :=
  C75_nadir_reflectance (a := (1, 1, 1)) (by norm_num [abs_lt]) (by norm_num) (by norm_num) (by norm_num) 0

/-! ## C76: the truncated Legendre series converge to the functions -/

/-- The Legendre series of the Henyey-Greenstein function converges to the function at every scattering angle. -/
theorem C76_hg {t x : ℝ} (ht : |t| < 1) (hx : x ∈ Icc (-1 : ℝ) 1) :
    Filter.Tendsto (fun N => legSeries (hgVLeg t) N x) Filter.atTop (nhds (hgV t x)) := by
  have h := ((gen_hg hx ht).mul_left (1 / (4 * π))).tendsto_sum_nat
  rw [hgV_eq ht hx]
  convert h using 1
  · ext N; unfold legSeries hgVLeg; exact Finset.sum_congr rfl fun n _ => by ring
  · congr 1; ring

/-- Error of the truncation after `N` coefficients. -/
theorem C76_hg_error {t x : ℝ} (ht : |t| < 1) (hx : x ∈ Icc (-1 : ℝ) 1) (N : ℕ) :
    |hgV t x - legSeries (hgVLeg t) N x| ≤
      |t| ^ N / (4 * π) * ((2 * N + 1) / (1 - |t|) + 2 * |t| / (1 - |t|) ^ 2) := by
  have h := (gen_hg hx ht).mul_left (1 / (4 * π))
  have hval : 1 / (4 * π) * ((1 - t ^ 2) * D t x ^ (-3 / 2 : ℝ)) = hgV t x := by rw [hgV_eq ht hx]; ring
  rw [hval] at h
  have hs : ∑ n ∈ Finset.range N, 1 / (4 * π) * ((2 * n + 1 : ℝ) * t ^ n * legP x n) = legSeries (hgVLeg t) N x := by
    unfold legSeries hgVLeg; exact Finset.sum_congr rfl fun n _ => by ring
  have htail := (hasSum_nat_add_iff' N).2 h
  rw [hs] at htail
  have g0 := hasSum_geometric_of_lt_one (abs_nonneg t) ht
  have g1 := hasSum_coe_mul_geometric_of_norm_lt_one (r := |t|) (by simpa using ht)
  have hb := ((g0.mul_left (2 * N + 1 : ℝ)).add (g1.mul_left 2)).mul_left (|t| ^ N / (4 * π))
  have hle := htail.norm_le_of_bounded (g := fun n : ℕ => |t| ^ N / (4 * π) * ((2 * N + 1) * |t| ^ n + 2 * (n * |t| ^ n)))
    hb fun n => ?_
  · rw [Real.norm_eq_abs] at hle
    refine hle.trans (le_of_eq ?_)
    rw [← div_eq_mul_inv, mul_div_assoc 2]
  · have hP := abs_legP_le_one hx (n + N)
    have hpi := pi_pos
    rw [Real.norm_eq_abs, abs_mul, abs_mul, abs_mul, abs_pow, abs_of_pos (by positivity : 0 < 1 / (4 * π)),
      abs_of_nonneg (by positivity : (0 : ℝ) ≤ 2 * ((n + N : ℕ) : ℝ) + 1)]
    calc 1 / (4 * π) * ((2 * ((n + N : ℕ) : ℝ) + 1) * |t| ^ (n + N) * |legP x (n + N)|)
        ≤ 1 / (4 * π) * ((2 * ((n + N : ℕ) : ℝ) + 1) * |t| ^ (n + N) * 1) := by gcongr
      _ = _ := by push_cast; rw [pow_add]; ring

/-- Surface Henyey-Greenstein function. -/
theorem C76_hg_surface {t x : ℝ} (ht : |t| < 1) (hx : x ∈ Icc (-1 : ℝ) 1) :
    Filter.Tendsto (fun N => legSeries (hgSLeg t) N x) Filter.atTop (nhds (hgS t x)) := by
  have h := (C76_hg ht hx).const_mul 4
  rw [C16_hg_eq_four_volume]
  convert h using 1
  ext N
  unfold legSeries hgSLeg hgVLeg
  rw [Finset.mul_sum]
  exact Finset.sum_congr rfl fun n _ => by field_simp

/-- Nadir-normalised Henyey-Greenstein function. -/
theorem C76_hg_nadir {t x : ℝ} (ht : |t| < 1) (hx : x ∈ Icc (-1 : ℝ) 1) (a0 : ℝ) :
    Filter.Tendsto (fun N => legSeries (hgNadirLeg t a0) N x) Filter.atTop (nhds (hgNadir t a0 x)) := by
  have h := (C76_hg_surface ht hx).const_mul (1 / nadirHemreflect t a0)
  convert h using 1
  · ext N
    unfold legSeries hgSLeg hgNadirLeg
    rw [Finset.mul_sum]
    exact Finset.sum_congr rfl fun n _ => by ring
  · simp [hgNadir, hgS]

/-- HGRayleigh function. -/
theorem C76_hgRayleigh {t x : ℝ} (ht : |t| < 1) (hx : x ∈ Icc (-1 : ℝ) 1) :
    Filter.Tendsto (fun N => legSeries (hgRayLeg t) N x) Filter.atTop (nhds (hgRay t x)) := by
  have h := ((gen_ray hx ht).mul_left (3 / (8 * π) * 1 / (2 + t ^ 2))).tendsto_sum_nat
  rw [hgRay_eq ht hx]
  have h2 : (2 + t ^ 2) ≠ 0 := by positivity
  convert h using 1
  · ext N; unfold legSeries hgRayLeg
    refine Finset.sum_congr rfl fun n _ => ?_
    split <;> ring
  · congr 1; field_simp

example : |hgV (1 / 2) 1 - legSeries (hgVLeg (1 / 2)) 10 1| ≤ 46 / 1024 / (4 * π) := by
  refine (C76_hg_error (by norm_num [abs_lt]) (by norm_num) 10).trans (le_of_eq ?_)
  rw [abs_of_pos (by norm_num)]
  field_simp
  norm_num

/-! ## C17: linear combinations -/

/-- The function of a combination is the weighted sum of the component functions. -/
theorem C17_func {G : List (List ℕ)} {cs : List (ℝ × Comp)} {r : Combined} (h : combine G cs = .ok r)
    (t0 tex p0 pex : ℝ) : r.func t0 tex p0 pex = (cs.map fun V => V.1 * V.2.func t0 tex p0 pex).sum := by
  unfold combine at h
  split at h
  · cases h
  · obtain rfl := Except.ok.inj h
    simp only [foldl_func, zero_add]

/-- Combining succeeds exactly for a non-empty list. -/
theorem C17_ok_iff (G : List (List ℕ)) (cs : List (ℝ × Comp)) :
    (∃ r, combine G cs = .ok r) ↔ cs ≠ [] := by
  unfold combine
  cases cs <;> simp

/-- The number of coefficients is the largest one of the components. -/
theorem C17_ncoefs {G : List (List ℕ)} {cs : List (ℝ × Comp)} {r : Combined} (h : combine G cs = .ok r) :
    (∀ V ∈ cs, V.2.ncoefs ≤ r.ncoefs) ∧ ∃ V ∈ cs, V.2.ncoefs = r.ncoefs := by
  unfold combine at h
  split at h
  · cases h
  · rename_i hne
    obtain rfl := Except.ok.inj h
    have hle : ∀ V ∈ cs, V.2.ncoefs ≤ (cs.map fun V => V.2.ncoefs).foldl max 0 := fun V hV =>
      foldl_max_le (List.mem_map.2 ⟨V, hV, rfl⟩)
    refine ⟨hle, ?_⟩
    rcases foldl_max_mem (cs.map fun V => V.2.ncoefs) 0 with h | h
    · cases cs with
      | nil => simp at hne
      | cons V cs =>
        refine ⟨V, by simp, ?_⟩
        have := hle V (by simp)
        simp only at h ⊢
        omega
    · obtain ⟨V, hV, e⟩ := List.mem_map.1 h
      exact ⟨V, hV, e⟩

/-- The order of the components is irrelevant for the function. -/
theorem C17_func_perm {G G' : List (List ℕ)} {cs cs' : List (ℝ × Comp)} {r r' : Combined} (hp : cs.Perm cs')
    (h : combine G cs = .ok r) (h' : combine G' cs' = .ok r') : r.func = r'.func := by
  ext t0 tex p0 pex
  rw [C17_func h, C17_func h', (hp.map _).sum_eq]

/-- A single component with weight 1 is reproduced: function, number of coefficients and expansion. -/
theorem C17_single {G : List (List ℕ)} {V : Comp} (hG : IsSetOf G (equals [(1, V)])) :
    ∃ r, combine G [(1, V)] = .ok r ∧ r.func = V.func ∧ r.ncoefs = V.ncoefs ∧
      ∀ t p θ φ, eval (r.legexp t p) θ φ = legSeries V.legcoefs V.ncoefs (scatAngle V.a t θ p φ) := by
  obtain ⟨r, hr⟩ := (C17_ok_iff G [(1, V)]).2 (by simp)
  refine ⟨r, hr, ?_, ?_, ?_⟩
  · ext t0 tex p0 pex
    rw [C17_func hr]; simp
  · obtain ⟨_, W, hW, e⟩ := C17_ncoefs hr
    simp only [List.mem_singleton] at hW
    rw [← e, hW]
  · intro t p θ φ
    unfold combine at hr
    rw [if_neg (by simp)] at hr
    obtain rfl := Except.ok.inj hr
    simp only [eval_combine hG]
    have : groupMax [(1, V)] V.a = V.ncoefs := by
      simp [groupMax, row]
    simp [this, legSeries]

/-- The expansion of a combination for arbitrary components and groupings: every component contributes its weighted
series, truncated at the largest number of coefficients in its group. -/
theorem C17_legexp_groups {G : List (List ℕ)} {cs : List (ℝ × Comp)} {r : Combined} (hG : IsSetOf G (equals cs))
    (h : combine G cs = .ok r) (t p θ φ : ℝ) :
    eval (r.legexp t p) θ φ =
      (cs.map fun V => V.1 * legSeries V.2.legcoefs (groupMax cs V.2.a) (scatAngle V.2.a t θ p φ)).sum := by
  unfold combine at h
  split at h
  · cases h
  · obtain rfl := Except.ok.inj h
    exact eval_combine hG t p θ φ

theorem groupMax_ge {cs : List (ℝ × Comp)} {V : ℝ × Comp} (hV : V ∈ cs) : V.2.ncoefs ≤ groupMax cs V.2.a :=
  foldl_max_le (List.mem_map.2 ⟨V, mem_sel.2 ⟨hV, rfl⟩, rfl⟩)

/-- Component `W` determines the group maximum. -/
theorem groupMax_mem {cs : List (ℝ × Comp)} {V : ℝ × Comp} (hV : V ∈ cs) :
    ∃ W ∈ cs, W.2.a = V.2.a ∧ groupMax cs V.2.a = W.2.ncoefs := by
  rcases foldl_max_mem (((row cs V.2.a).filterMap fun j => cs[j]?).map fun V => V.2.ncoefs) 0 with h | h
  · exact ⟨V, hV, rfl, by have := groupMax_ge hV; unfold groupMax at *; omega⟩
  · obtain ⟨W, hW, e⟩ := List.mem_map.1 h
    exact ⟨W, (mem_sel.1 hW).1, (mem_sel.1 hW).2, e.symm⟩

/-- C17: the expansion of a combination equals the weighted sum of the component expansions, provided components that
share the weights `a` either have the same number of coefficients or their further coefficients vanish.  Without the
condition the statement is false (`C17_legexp_fails`). -/
theorem C17_legexp_partial {G : List (List ℕ)} {cs : List (ℝ × Comp)} {r : Combined} (hG : IsSetOf G (equals cs))
    (hn : ∀ V ∈ cs, ∀ W ∈ cs, V.2.a = W.2.a → V.2.ncoefs < W.2.ncoefs →
      ∀ n, V.2.ncoefs ≤ n → n < W.2.ncoefs → V.2.legcoefs n = 0)
    (h : combine G cs = .ok r) (t p θ φ : ℝ) :
    eval (r.legexp t p) θ φ =
      (cs.map fun V => V.1 * legSeries V.2.legcoefs V.2.ncoefs (scatAngle V.2.a t θ p φ)).sum := by
  rw [C17_legexp_groups hG h]
  congr 1
  apply List.map_congr_left
  intro V hV
  congr 1
  obtain ⟨W, hW, ha, e⟩ := groupMax_mem hV
  have hle := groupMax_ge hV
  rw [e] at hle ⊢
  obtain ⟨m, hm⟩ := Nat.exists_eq_add_of_le hle
  unfold legSeries
  rw [hm, Finset.sum_range_add]
  have : ∑ i ∈ Finset.range m, V.2.legcoefs (V.2.ncoefs + i) * legP (scatAngle V.2.a t θ p φ) (V.2.ncoefs + i) = 0 := by
    apply Finset.sum_eq_zero
    intro i hi
    have := Finset.mem_range.1 hi
    rw [hn V hV W hW ha.symm (by omega) _ (by omega) (by omega), zero_mul]
  rw [this, add_zero]

/-- Negation of the unconditional statement: two Henyey-Greenstein functions with 1 and 2 coefficients. -/
theorem C17_legexp_fails : ¬ ∀ (G : List (List ℕ)) (cs : List (ℝ × Comp)) (r : Combined), IsSetOf G (equals cs) →
    combine G cs = .ok r → ∀ t p θ φ, eval (r.legexp t p) θ φ =
      (cs.map fun V => V.1 * legSeries V.2.legcoefs V.2.ncoefs (scatAngle V.2.a t θ p φ)).sum := by
  intro hall
  let V1 : Comp := ⟨fun _ _ _ _ => 0, hgVLeg (1 / 2), 1, (-1, 1, 1)⟩
  let V2 : Comp := ⟨fun _ _ _ _ => 0, hgVLeg (1 / 2), 2, (-1, 1, 1)⟩
  have hrow : row [(1, V1), (1, V2)] (-1, 1, 1) = [0, 1] := by simp [row, V1, V2, List.range_succ]
  have hG : IsSetOf [[0, 1]] (equals [(1, V1), (1, V2)]) := by
    refine ⟨by simp, fun r => ?_⟩
    rw [equals_eq]
    simp [V1, V2] at hrow ⊢
    simp [hrow]
  obtain ⟨r, hr⟩ := (C17_ok_iff [[0, 1]] [(1, V1), (1, V2)]).2 (by simp)
  have h1 := hall _ _ r hG hr π 0 0 0
  rw [C17_legexp_groups hG hr] at h1
  have hgm : groupMax [(1, V1), (1, V2)] (-1, 1, 1) = 2 := by
    unfold groupMax; rw [hrow]; simp [V1, V2]
  have ha1 : V1.a = (-1, 1, 1) := rfl
  have ha2 : V2.a = (-1, 1, 1) := rfl
  simp only [List.map_cons, List.map_nil, List.sum_cons, List.sum_nil, one_mul, add_zero, ha1, ha2, hgm] at h1
  simp [V1, V2, legSeries, Finset.sum_range_succ, scatAngle, legP, hgVLeg] at h1
  norm_num at h1

theorem good_legexp {G : List (List ℕ)} {cs : List (ℝ × Comp)} {r : Combined} (hG : IsSetOf G (equals cs))
    (h : combine G cs = .ok r) (t p : ℝ) : ∀ m ∈ r.legexp t p, Good (r.ncoefs - 1) m := by
  have hn := (C17_ncoefs h).1
  unfold combine at h
  split at h
  · cases h
  · obtain rfl := Except.ok.inj h
    intro m hm
    simp only [List.mem_flatMap] at hm
    obtain ⟨g, hg, hm⟩ := hm
    have := (hG.2 g).1 hg
    rw [equals_eq, List.mem_map] at this
    obtain ⟨V, hV, rfl⟩ := this
    have hgood := good_legexpansion (good_scatExpr _ _ _) _ _ m hm
    refine good_mono ?_ hgood
    obtain ⟨W, hW, _, e⟩ := groupMax_mem hV
    have := hn W hW
    unfold groupMax at e
    simp only at this e ⊢
    rw [e]
    omega

/-- The fn-coefficients for a surface given as linear combination represent the azimuth integral of the volume phase
function times the weighted sum of the surface functions (all as truncated Legendre series). -/
theorem C17_fn_coefficients_partial {G : List (List ℕ)} {cs : List (ℝ × Comp)} {S : Combined} {V : Comp}
    (hG : IsSetOf G (equals cs))
    (hn : ∀ V ∈ cs, ∀ W ∈ cs, V.2.a = W.2.a → V.2.ncoefs < W.2.ncoefs →
      ∀ n, V.2.ncoefs ≤ n → n < W.2.ncoefs → V.2.legcoefs n = 0)
    (h : combine G cs = .ok S) (hV : 1 ≤ V.ncoefs) (hS : 1 ≤ S.ncoefs) (a : Angles) :
    ∃ fn, fnCoefsComb V S a = .ok fn ∧ ∀ θ, polyVal fn (cos θ) =
      ∫ φ in (0 : ℝ)..2 * π, legSeries V.legcoefs V.ncoefs (scatAngle V.a (π - a.theta0) θ a.phi0 φ) *
        (cs.map fun W => W.1 * legSeries W.2.legcoefs W.2.ncoefs (scatAngle W.2.a θ a.thetaex φ a.phiex)).sum := by
  obtain ⟨fn, h1, h2⟩ := C12_general (N := S.ncoefs + V.ncoefs) (by omega)
    (legexpansion V.legcoefs V.ncoefs (scatExpr V.a (π - a.theta0) a.phi0)) (S.legexp a.thetaex a.phiex)
    (fun m hm => good_mono (by omega)
      (good_mul (good_legexpansion (good_scatExpr _ _ _) V.legcoefs V.ncoefs) (good_legexp hG h _ _) m hm))
  refine ⟨fn, h1, fun θ => ?_⟩
  rw [h2]
  apply intervalIntegral.integral_congr
  intro φ _
  simp only [C17_legexp_partial hG hn h, eval_legexpansion, eval_scatExpr, scatAngle_comm _ θ a.thetaex]
  rfl

/-- Two cosine lobes with different weights `a` and different numbers of coefficients meet the hypotheses. -/
example : let cs : List (ℝ × Comp) := [(0.3, ⟨fun _ _ _ _ => 0, cosineLobeLeg 1, 5, (1, 1, 1)⟩),
      (0.7, ⟨fun _ _ _ _ => 0, cosineLobeLeg 2, 10, (-1, 1, 1)⟩)]
    IsSetOf [[0], [1]] (equals cs) ∧ (∀ V ∈ cs, ∀ W ∈ cs, V.2.a = W.2.a → V.2.ncoefs < W.2.ncoefs →
      ∀ n, V.2.ncoefs ≤ n → n < W.2.ncoefs → V.2.legcoefs n = 0) ∧ ∃ S, combine [[0], [1]] cs = .ok S := by
  refine ⟨⟨by simp, fun r => ?_⟩, ?_, (C17_ok_iff _ _).2 (by simp)⟩
  · rw [equals_eq]
    simp [row, List.range_succ]
    norm_num
  · intro V hV W hW
    simp only [List.mem_cons, List.not_mem_nil, or_false] at hV hW
    rcases hV with rfl | rfl <;> rcases hW with rfl | rfl <;> norm_num

/-- Nested combinations are rejected: combining a list that contains a `LinCombV` or `LinCombSRF` raises
AttributeError, so the distributivity of weights cannot be used (negation of the nesting clause). -/
theorem C17_nested_fails (G : List (List ℕ)) (pre : List (ℝ × Comp)) (w : ℝ) (inner : List (ℝ × Comp)) (post : List (ℝ × Obj)) :
    combineObj G (pre.map (fun V => (V.1, Obj.leaf V.2)) ++ (w, .lincombSRF inner) :: post) = .error .attributeError ∧
    combineObj G (pre.map (fun V => (V.1, Obj.leaf V.2)) ++ (w, .lincombV inner) :: post) = .error .attributeError := by
  have : ∀ o : Obj, o.asComp = .error .attributeError →
      combineObj G (pre.map (fun V => (V.1, Obj.leaf V.2)) ++ (w, o) :: post) = .error .attributeError := by
    intro o ho
    have : (pre.map (fun V => (V.1, Obj.leaf V.2)) ++ (w, o) :: post).mapM
        (fun (x : ℝ × Obj) => (x.2.asComp.map fun c => (x.1, c))) = .error .attributeError := by
      induction pre with
      | nil => simp [List.mapM_cons, ho, Except.map, bind, Except.bind]
      | cons V pre ih =>
        simp only [List.map_cons, List.cons_append, List.mapM_cons, Obj.asComp, Except.map] at ih ⊢
        rw [ih]; rfl
    unfold combineObj
    rw [show (fun (x : ℝ × Obj) => match x with | (w, o) => Except.map (fun c => (w, c)) o.asComp) =
      fun (x : ℝ × Obj) => (x.2.asComp.map fun c => (x.1, c)) from rfl, this]
  exact ⟨this _ rfl, this _ rfl⟩

/-- Components that are no combinations are accepted. -/
theorem C17_leaves (G : List (List ℕ)) (cs : List (ℝ × Comp)) :
    combineObj G (cs.map fun V => (V.1, Obj.leaf V.2)) = combine G cs := by
  have : (cs.map fun V => (V.1, Obj.leaf V.2)).mapM (fun (x : ℝ × Obj) => (x.2.asComp.map fun c => (x.1, c))) =
      (.ok cs : Except PyErr _) := by
    induction cs with
    | nil => rfl
    | cons V cs ih => rw [List.map_cons, List.mapM_cons, ih]; rfl
  unfold combineObj
  rw [show (fun (x : ℝ × Obj) => match x with | (w, o) => Except.map (fun c => (w, c)) o.asComp) =
      fun (x : ℝ × Obj) => (x.2.asComp.map fun c => (x.1, c)) from rfl, this]

/-- The expansion of a `LinCombV` can not be evaluated (negation of the expansion clause for volume combinations). -/
theorem C17_volume_legexp_fails (cs : List (ℝ × Comp)) (t p : ℝ) : ¬ ∃ e, lincombVLegexp cs t p = .ok e := by
  rintro ⟨e, h⟩; cases h

end RT1.Phase
