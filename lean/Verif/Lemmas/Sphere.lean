import Verif.Model.RT1
import Mathlib.MeasureTheory.Integral.Prod
import Mathlib.MeasureTheory.Integral.DominatedConvergence
import Mathlib.MeasureTheory.Integral.IntervalIntegral.Periodic
import Mathlib.MeasureTheory.Integral.IntervalIntegral.IntegrationByParts
import Mathlib.Analysis.SpecialFunctions.Integrals.Basic
import Mathlib.Tactic.FunProp

/-!
# Rotation invariance of the integral over the sphere

For a continuously differentiable function `f` of the cosine of the angle between a fixed direction and the integration
direction, the integral over the sphere does not depend on the fixed direction.
-/

namespace RT1.Sphere

open Real MeasureTheory Set RT1.Rad

/-- Swapping two interval integrals of a continuous function. -/
theorem swap {F : ℝ → ℝ → ℝ} (hF : Continuous fun p : ℝ × ℝ => F p.1 p.2) (a b c d : ℝ) :
    ∫ x in a..b, ∫ y in c..d, F x y = ∫ y in c..d, ∫ x in a..b, F x y := by
  apply intervalIntegral_intervalIntegral_swap
  refine ((hF.continuousOn (s := uIcc a b ×ˢ uIcc c d)).integrableOn_compact
    (isCompact_uIcc.prod isCompact_uIcc)).mono_set ?_
  exact Set.prod_mono uIoc_subset_uIcc uIoc_subset_uIcc

/-- cosine of the angle between the direction `(s, 0)` and the direction `(θ, φ)` -/
noncomputable def X (s θ φ : ℝ) : ℝ := cos s * cos θ + sin s * sin θ * cos φ

theorem X_mem (s θ φ : ℝ) : X s θ φ ∈ Icc (-1 : ℝ) 1 := by
  have h1 := sin_sq_add_cos_sq s
  have h2 := sin_sq_add_cos_sq θ
  have h3 := sin_sq_add_cos_sq φ
  have key : X s θ φ ^ 2 ≤ 1 := by
    unfold X
    have e : (cos s * cos θ + sin s * sin θ * cos φ) ^ 2 + (cos s * (sin θ * cos φ) - sin s * cos θ) ^ 2
        + (sin θ * sin φ) ^ 2 = 1 := by
      have : (cos s * cos θ + sin s * sin θ * cos φ) ^ 2 + (cos s * (sin θ * cos φ) - sin s * cos θ) ^ 2
        + (sin θ * sin φ) ^ 2 = (sin s ^ 2 + cos s ^ 2) * (cos θ ^ 2 + sin θ ^ 2 * cos φ ^ 2) + sin θ ^ 2 * sin φ ^ 2 := by ring
      rw [this, h1]
      have : cos φ ^ 2 = 1 - sin φ ^ 2 := by linarith
      rw [this]; linarith
    nlinarith [sq_nonneg (cos s * (sin θ * cos φ) - sin s * cos θ), sq_nonneg (sin θ * sin φ)]
  exact abs_le.1 (abs_le_one_iff_mul_self_le_one.2 (by nlinarith))

theorem continuous_X : Continuous fun p : ℝ × ℝ × ℝ => X p.1 p.2.1 p.2.2 := by unfold X; fun_prop

section
variable {f f' : ℝ → ℝ} (hf : ∀ x ∈ Icc (-1 : ℝ) 1, HasDerivAt f (f' x) x) (hc : ContinuousOn f' (Icc (-1) 1))

include hf in
theorem cont_f : ContinuousOn f (Icc (-1) 1) := fun x hx => (hf x hx).continuousAt.continuousWithinAt

theorem cont_comp {g : ℝ → ℝ} (hg : ContinuousOn g (Icc (-1) 1)) {α : Type} [TopologicalSpace α] {s θ φ : α → ℝ}
    (hs : Continuous s) (hθ : Continuous θ) (hφ : Continuous φ) : Continuous fun q => g (X (s q) (θ q) (φ q)) := by
  apply hg.comp_continuous
  · unfold X; fun_prop
  · intro q; exact X_mem _ _ _

include hf hc in
theorem J_zero (s : ℝ) : ∫ φ in (0 : ℝ)..2 * π, ∫ θ in (0 : ℝ)..π,
    f' (X s θ φ) * (-sin s * cos θ + cos s * sin θ * cos φ) * sin θ = 0 := by
  -- θ-part
  have hX : ∀ θ φ, HasDerivAt (fun θ => X s θ φ) (-cos s * sin θ + sin s * cos θ * cos φ) θ := by
    intro θ φ
    have := ((hasDerivAt_cos θ).const_mul (cos s)).add (((hasDerivAt_sin θ).const_mul (sin s)).mul_const (cos φ))
    refine this.congr_deriv ?_
    ring
  have hY : ∀ θ φ, HasDerivAt (fun φ => X s θ φ) (-(sin s * sin θ * sin φ)) φ := by
    intro θ φ
    have := ((hasDerivAt_cos φ).const_mul (sin s * sin θ)).const_add (cos s * cos θ)
    refine this.congr_deriv ?_
    ring
  have i1 : ∀ φ, ∫ θ in (0 : ℝ)..π, (f' (X s θ φ) * (-cos s * sin θ + sin s * cos θ * cos φ) * (sin θ * cos φ)
      + f (X s θ φ) * (cos θ * cos φ)) = 0 := by
    intro φ
    rw [intervalIntegral.integral_eq_sub_of_hasDerivAt (f := fun θ => f (X s θ φ) * (sin θ * cos φ))]
    · simp
    · intro θ _
      exact ((hf _ (X_mem s θ φ)).comp θ (hX θ φ)).mul ((hasDerivAt_sin θ).mul_const (cos φ))
    · apply Continuous.intervalIntegrable
      have h1 := cont_comp hc (continuous_const (y := s)) continuous_id (continuous_const (y := φ))
      have h2 := cont_comp (cont_f hf) (continuous_const (y := s)) continuous_id (continuous_const (y := φ))
      simp only [id] at h1 h2
      exact ((h1.mul (by fun_prop)).mul (by fun_prop)).add (h2.mul (by fun_prop))
  have i2 : ∀ θ, ∫ φ in (0 : ℝ)..2 * π, (f' (X s θ φ) * (-(sin s * sin θ * sin φ)) * (cos θ * sin φ)
      + f (X s θ φ) * (cos θ * cos φ)) = 0 := by
    intro θ
    rw [intervalIntegral.integral_eq_sub_of_hasDerivAt (f := fun φ => f (X s θ φ) * (cos θ * sin φ))]
    · simp
    · intro φ _
      exact ((hf _ (X_mem s θ φ)).comp φ (hY θ φ)).mul ((hasDerivAt_sin φ).const_mul (cos θ))
    · apply Continuous.intervalIntegrable
      have h1 := cont_comp hc (continuous_const (y := s)) (continuous_const (y := θ)) continuous_id
      have h2 := cont_comp (cont_f hf) (continuous_const (y := s)) (continuous_const (y := θ)) continuous_id
      simp only [id] at h1 h2
      exact ((h1.mul (by fun_prop)).mul (by fun_prop)).add (h2.mul (by fun_prop))
  have c1 := cont_comp hc (continuous_const (y := s)) (continuous_snd (X := ℝ) (Y := ℝ)) (continuous_fst (X := ℝ) (Y := ℝ))
  have c2 := cont_comp (cont_f hf) (continuous_const (y := s)) (continuous_snd (X := ℝ) (Y := ℝ)) (continuous_fst (X := ℝ) (Y := ℝ))
  have s2 : ∫ φ in (0 : ℝ)..2 * π, ∫ θ in (0 : ℝ)..π, (f' (X s θ φ) * (-(sin s * sin θ * sin φ)) * (cos θ * sin φ)
      + f (X s θ φ) * (cos θ * cos φ)) = 0 := by
    rw [swap]
    · simp only [i2]; simp
    · exact ((c1.mul (by fun_prop)).mul (by fun_prop)).add (c2.mul (by fun_prop))
  have s1 : ∫ φ in (0 : ℝ)..2 * π, ∫ θ in (0 : ℝ)..π, (f' (X s θ φ) * (-cos s * sin θ + sin s * cos θ * cos φ) * (sin θ * cos φ)
      + f (X s θ φ) * (cos θ * cos φ)) = 0 := by
    simp only [i1]; simp
  rw [← sub_zero (∫ φ in (0 : ℝ)..2 * π, _), ← s1]
  have e : ∀ φ θ, f' (X s θ φ) * (-sin s * cos θ + cos s * sin θ * cos φ) * sin θ =
      (f' (X s θ φ) * (-(sin s * sin θ * sin φ)) * (cos θ * sin φ) + f (X s θ φ) * (cos θ * cos φ))
      - (f' (X s θ φ) * (-cos s * sin θ + sin s * cos θ * cos φ) * (sin θ * cos φ)
        + f (X s θ φ) * (cos θ * cos φ)) := by
    intro φ θ
    have h := sin_sq_add_cos_sq φ
    linear_combination (-(f' (X s θ φ)) * sin s * cos θ * sin θ) * (-h)
  rw [s1, sub_zero]
  have : ∀ φ, ∫ θ in (0 : ℝ)..π, f' (X s θ φ) * (-sin s * cos θ + cos s * sin θ * cos φ) * sin θ =
      (∫ θ in (0 : ℝ)..π, (f' (X s θ φ) * (-(sin s * sin θ * sin φ)) * (cos θ * sin φ) + f (X s θ φ) * (cos θ * cos φ))) := by
    intro φ
    simp only [e φ]
    rw [intervalIntegral.integral_sub, i1, sub_zero]
    · apply Continuous.intervalIntegrable
      have h1 := cont_comp hc (continuous_const (y := s)) continuous_id (continuous_const (y := φ))
      have h2 := cont_comp (cont_f hf) (continuous_const (y := s)) continuous_id (continuous_const (y := φ))
      simp only [id] at h1 h2
      exact ((h1.mul (by fun_prop)).mul (by fun_prop)).add (h2.mul (by fun_prop))
    · apply Continuous.intervalIntegrable
      have h1 := cont_comp hc (continuous_const (y := s)) continuous_id (continuous_const (y := φ))
      have h2 := cont_comp (cont_f hf) (continuous_const (y := s)) continuous_id (continuous_const (y := φ))
      simp only [id] at h1 h2
      exact ((h1.mul (by fun_prop)).mul (by fun_prop)).add (h2.mul (by fun_prop))
  simp only [this]
  exact s2

/-- integral over the sphere -/
noncomputable def S (f : ℝ → ℝ) (s : ℝ) : ℝ := ∫ φ in (0 : ℝ)..2 * π, ∫ θ in (0 : ℝ)..π, f (X s θ φ) * sin θ

include hf hc in
theorem S_const (s : ℝ) : S f s = S f 0 := by
  have hX : ∀ σ θ φ, HasDerivAt (fun σ => X σ θ φ) (-sin σ * cos θ + cos σ * sin θ * cos φ) σ := by
    intro σ θ φ
    have := ((hasDerivAt_cos σ).mul_const (cos θ)).add (((hasDerivAt_sin σ).mul_const (sin θ)).mul_const (cos φ))
    exact this
  have hcf := cont_f hf
  have step : ∀ θ φ, f (X s θ φ) * sin θ - f (X 0 θ φ) * sin θ =
      ∫ σ in (0 : ℝ)..s, f' (X σ θ φ) * (-sin σ * cos θ + cos σ * sin θ * cos φ) * sin θ := by
    intro θ φ
    rw [intervalIntegral.integral_eq_sub_of_hasDerivAt (f := fun σ => f (X σ θ φ) * sin θ)]
    · intro σ _
      exact ((hf _ (X_mem σ θ φ)).comp σ (hX σ θ φ)).mul_const _
    · apply Continuous.intervalIntegrable
      have h1 := cont_comp hc continuous_id (continuous_const (y := θ)) (continuous_const (y := φ))
      simp only [id] at h1
      exact (h1.mul (by fun_prop)).mul (by fun_prop)
  have hfc : ∀ σ φ, Continuous fun θ => f (X σ θ φ) * sin θ := by
    intro σ φ
    have h1 := cont_comp hcf (continuous_const (y := σ)) continuous_id (continuous_const (y := φ))
    simp only [id] at h1
    exact h1.mul (by fun_prop)
  have c3 := cont_comp hc (continuous_fst (X := ℝ) (Y := ℝ × ℝ)) (continuous_fst.comp (continuous_snd (X := ℝ) (Y := ℝ × ℝ)))
    (continuous_snd.comp (continuous_snd (X := ℝ) (Y := ℝ × ℝ)))
  have hd : S f s - S f 0 = ∫ φ in (0 : ℝ)..2 * π, ∫ θ in (0 : ℝ)..π, ∫ σ in (0 : ℝ)..s,
      f' (X σ θ φ) * (-sin σ * cos θ + cos σ * sin θ * cos φ) * sin θ := by
    unfold S
    rw [← intervalIntegral.integral_sub]
    · apply intervalIntegral.integral_congr
      intro φ _
      simp only
      rw [← intervalIntegral.integral_sub ((hfc _ _).intervalIntegrable _ _) ((hfc _ _).intervalIntegrable _ _)]
      simp only [step]
    · apply Continuous.intervalIntegrable
      apply intervalIntegral.continuous_parametric_intervalIntegral_of_continuous'
      have h1 := cont_comp hcf (continuous_const (y := s)) (continuous_snd (X := ℝ) (Y := ℝ)) (continuous_fst (X := ℝ) (Y := ℝ))
      simp only [Function.uncurry_def]
      exact h1.mul (by fun_prop)
    · apply Continuous.intervalIntegrable
      apply intervalIntegral.continuous_parametric_intervalIntegral_of_continuous'
      have h1 := cont_comp hcf (continuous_const (y := (0 : ℝ))) (continuous_snd (X := ℝ) (Y := ℝ)) (continuous_fst (X := ℝ) (Y := ℝ))
      simp only [Function.uncurry_def]
      exact h1.mul (by fun_prop)
  have hz : ∫ φ in (0 : ℝ)..2 * π, ∫ θ in (0 : ℝ)..π, ∫ σ in (0 : ℝ)..s,
      f' (X σ θ φ) * (-sin σ * cos θ + cos σ * sin θ * cos φ) * sin θ = 0 := by
    have sw1 : ∀ φ, ∫ θ in (0 : ℝ)..π, ∫ σ in (0 : ℝ)..s,
        f' (X σ θ φ) * (-sin σ * cos θ + cos σ * sin θ * cos φ) * sin θ = ∫ σ in (0 : ℝ)..s, ∫ θ in (0 : ℝ)..π,
        f' (X σ θ φ) * (-sin σ * cos θ + cos σ * sin θ * cos φ) * sin θ := by
      intro φ
      apply swap
      have h1 := cont_comp hc (continuous_snd (X := ℝ) (Y := ℝ)) (continuous_fst (X := ℝ) (Y := ℝ)) (continuous_const (y := φ))
      exact (h1.mul (by fun_prop)).mul (by fun_prop)
    simp only [sw1]
    rw [swap]
    · simp only [J_zero hf hc]; simp
    · apply intervalIntegral.continuous_parametric_intervalIntegral_of_continuous'
      simp only [Function.uncurry_def]
      have h1 := cont_comp hc (continuous_snd.comp (continuous_fst (X := ℝ × ℝ) (Y := ℝ))) (continuous_snd (X := ℝ × ℝ) (Y := ℝ))
        (continuous_fst.comp (continuous_fst (X := ℝ × ℝ) (Y := ℝ)))
      simp only [Function.comp_def] at h1
      exact (h1.mul (by fun_prop)).mul (by fun_prop)
  linarith

end

theorem S_zero (f : ℝ → ℝ) (hf : ContinuousOn f (Icc (-1) 1)) : S f 0 = 2 * π * ∫ x in (-1 : ℝ)..1, f x := by
  have h : ∫ θ in (0 : ℝ)..π, f (cos θ) * sin θ = ∫ x in (-1 : ℝ)..1, f x := by
    have := intervalIntegral.integral_comp_mul_deriv'' (a := 0) (b := π) (f := cos) (f' := fun x => -sin x) (g := f)
      continuous_cos.continuousOn (fun x _ => (hasDerivAt_cos x).hasDerivWithinAt) continuous_sin.neg.continuousOn
      (hf.mono (by rintro _ ⟨x, _, rfl⟩; exact cos_mem_Icc x))
    rw [cos_zero, cos_pi, intervalIntegral.integral_symm (-1) 1] at this
    rw [← neg_inj, ← this, ← intervalIntegral.integral_neg]
    apply intervalIntegral.integral_congr
    intro θ _
    simp
  unfold S X
  simp only [cos_zero, one_mul, sin_zero, zero_mul, add_zero, h]
  simp

/-- The integral over the sphere around an arbitrary direction. -/
theorem sphere_integral {f f' : ℝ → ℝ} (hf : ∀ x ∈ Icc (-1 : ℝ) 1, HasDerivAt f (f' x) x)
    (hc : ContinuousOn f' (Icc (-1) 1)) (s p : ℝ) :
    ∫ φ in (0 : ℝ)..2 * π, ∫ θ in (0 : ℝ)..π, f (cos s * cos θ + sin s * sin θ * cos (p - φ)) * sin θ =
      2 * π * ∫ x in (-1 : ℝ)..1, f x := by
  rw [← S_zero f (cont_f hf), ← S_const hf hc s]
  have hper : Function.Periodic (fun φ => ∫ θ in (0 : ℝ)..π, f (X s θ φ) * sin θ) (2 * π) := by
    intro φ
    simp only [X, cos_add_two_pi]
  have e : ∀ φ, ∫ θ in (0 : ℝ)..π, f (cos s * cos θ + sin s * sin θ * cos (p - φ)) * sin θ =
      (fun φ => ∫ θ in (0 : ℝ)..π, f (X s θ φ) * sin θ) (p - φ) := fun φ => rfl
  simp only [e]
  rw [intervalIntegral.integral_comp_sub_left (fun φ => ∫ θ in (0 : ℝ)..π, f (X s θ φ) * sin θ) p]
  have := hper.intervalIntegral_add_eq (p - 2 * π) 0
  rw [sub_add_cancel, zero_add] at this
  rw [sub_zero, this]
  rfl

end RT1.Sphere
