import Verif.Model.RT1
import Mathlib.Analysis.SpecialFunctions.Log.Deriv
import Mathlib.Analysis.SpecialFunctions.ExpDeriv
import Mathlib.Analysis.SpecialFunctions.Trigonometric.Deriv
import Mathlib.Tactic.Ring
import Mathlib.Tactic.FieldSimp
import Mathlib.Tactic.Linarith
import Mathlib.Tactic.Positivity

/-! Helper lemmas for the properties of the radiative transfer formulas. -/

namespace RT1.Rad

open Real Filter Topology

namespace Elem

/-- The monostatic element with the zenith angle `θ` (all other values of `o`). -/
noncomputable def atTheta (o : Elem) (θ : ℝ) : Elem := { o with t0 := θ, tex := θ, pex := o.p0 + π }

@[simp] theorem atTheta_mu0 (o : Elem) (θ : ℝ) : (o.atTheta θ).mu0 = cos θ := rfl
@[simp] theorem atTheta_muex (o : Elem) (θ : ℝ) : (o.atTheta θ).muex = cos θ := rfl
@[simp] theorem atTheta_t0 (o : Elem) (θ : ℝ) : (o.atTheta θ).t0 = θ := rfl

theorem atTheta_self (o : Elem) (h1 : o.tex = o.t0) (h2 : o.pex = o.p0 + π) : o.atTheta o.t0 = o := by
  cases o
  simp only at h1 h2
  subst h1 h2
  rfl

theorem hasDerivAt_att (τ θ : ℝ) (hc : cos θ ≠ 0) :
    HasDerivAt (fun θ => exp (-(τ / cos θ) - τ / cos θ))
      (exp (-(2 * τ / cos θ)) * (-(2 * τ * sin θ / cos θ ^ 2))) θ := by
  have h1 : HasDerivAt (fun θ => τ / cos θ) (τ * sin θ / cos θ ^ 2) θ := by
    have := (hasDerivAt_const θ τ).div (hasDerivAt_cos θ) hc
    refine this.congr_deriv ?_
    field_simp; ring
  have h2 := (h1.neg.sub h1).exp
  refine h2.congr_deriv ?_
  have : (-fun θ => τ / cos θ) θ - τ / cos θ = -(2 * τ / cos θ) := by
    simp only [Pi.neg_apply]; ring
  simp only [Pi.sub_apply] at *
  rw [this]
  ring

theorem surface_hasDerivAt (o : Elem) (θ b' : ℝ) (hc : cos θ ≠ 0)
    (hb : HasDerivAt (fun θ => o.brdf o.env θ θ o.p0 (o.p0 + π)) b' θ)
    (hb' : b' = o.brdfDiff 1 o.env θ θ o.p0 (o.p0 + π)) :
    HasDerivAt (fun θ => (o.atTheta θ).surface) (o.atTheta θ).surfaceSlopeLin θ := by
  have hI : HasDerivAt (fun θ => o.I0 * cos θ * o.brdf o.env θ θ o.p0 (o.p0 + π))
      (o.I0 * -sin θ * o.brdf o.env θ θ o.p0 (o.p0 + π) + o.I0 * cos θ * b') θ :=
    ((hasDerivAt_cos θ).const_mul o.I0).mul hb
  have h := (((hasDerivAt_att o.tau θ hc).mul hI).const_mul (1 - o.bsf)).add (hI.const_mul o.bsf)
  have h' := h.const_mul o.NormBRDF
  refine h'.congr_deriv ?_
  simp only [surfaceSlopeLin, mu0, brdfSlope, brdfVal, atTheta, ← hb']
  have e : exp (-(o.tau / cos θ) - o.tau / cos θ) = exp (-(2 * o.tau / cos θ)) := by
    congr 1; ring
  rw [e]
  field_simp
  ring

theorem volume_hasDerivAt (o : Elem) (θ p' : ℝ) (hc : cos θ ≠ 0)
    (hp : HasDerivAt (fun θ => o.p o.env θ θ o.p0 (o.p0 + π)) p' θ)
    (hp' : p' = o.pDiff 1 o.env θ θ o.p0 (o.p0 + π)) :
    HasDerivAt (fun θ => (o.atTheta θ).volume) (o.atTheta θ).volumeSlopeLin θ := by
  have hA : HasDerivAt (fun θ => 1 - exp (-(o.tau / cos θ) - o.tau / cos θ))
      (-(exp (-(2 * o.tau / cos θ)) * (-(2 * o.tau * sin θ / cos θ ^ 2)))) θ := by
    simpa using (hasDerivAt_att o.tau θ hc).const_sub 1
  have h := ((hA.mul hp).const_mul (o.I0 * o.omega / 2)).const_mul (1 - o.bsf)
  have hcont : ∀ᶠ x in 𝓝 θ, cos x ≠ 0 := (continuous_cos.continuousAt).eventually_ne hc
  have heq : (fun θ => (o.atTheta θ).volume) =ᶠ[𝓝 θ] fun θ => (1 - o.bsf) * (o.I0 * o.omega / 2 *
      ((1 - exp (-(o.tau / cos θ) - o.tau / cos θ)) * o.p o.env θ θ o.p0 (o.p0 + π))) := by
    filter_upwards [hcont] with x hx
    simp only [volume, atTheta_mu0, atTheta_muex, pVal]
    simp only [atTheta]
    have : o.I0 * o.omega * cos x / (cos x + cos x) = o.I0 * o.omega / 2 := by
      field_simp; ring
    rw [this]; ring
  refine (h.congr_of_eventuallyEq heq).congr_deriv ?_
  simp only [volumeSlopeLin, mu0, pSlope, pVal, atTheta, ← hp']
  have e : exp (-(o.tau / cos θ) - o.tau / cos θ) = exp (-(2 * o.tau / cos θ)) := by
    congr 1; ring
  rw [e]
  field_simp

theorem hasDerivAt_att2 (τ θ : ℝ) (hc : cos θ ≠ 0) :
    HasDerivAt (fun θ => exp (-(2 * τ / cos θ)))
      (exp (-(2 * τ / cos θ)) * (-(2 * τ * sin θ / cos θ ^ 2))) θ := by
  refine (hasDerivAt_att τ θ hc).congr_of_eventuallyEq (Eventually.of_forall fun x => ?_)
  simp only
  congr 1; ring

theorem surfaceSlope_hasDerivAt (o : Elem) (θ b'' : ℝ) (hc : cos θ ≠ 0)
    (hb : HasDerivAt (fun θ => o.brdf o.env θ θ o.p0 (o.p0 + π))
      (o.brdfDiff 1 o.env θ θ o.p0 (o.p0 + π)) θ)
    (hb2 : HasDerivAt (fun θ => o.brdfDiff 1 o.env θ θ o.p0 (o.p0 + π)) b'' θ)
    (hb'' : b'' = o.brdfDiff 2 o.env θ θ o.p0 (o.p0 + π)) :
    HasDerivAt (fun θ => (o.atTheta θ).surfaceSlopeLin) (o.atTheta θ).surfaceCurvLin θ := by
  have hq : HasDerivAt (fun θ => 2 * o.tau / cos θ + 1) (2 * o.tau * sin θ / cos θ ^ 2) θ := by
    have := ((hasDerivAt_const θ (2 * o.tau)).div (hasDerivAt_cos θ) hc).add_const 1
    refine this.congr_deriv ?_
    field_simp; ring
  have hs := hasDerivAt_sin θ
  have hco := hasDerivAt_cos θ
  have hveg := ((hasDerivAt_att2 o.tau θ hc).const_mul o.I0).mul ((hco.mul hb2).sub ((hq.mul hs).mul hb))
  have hbs := ((hco.mul hb2).sub (hs.mul hb)).const_mul o.I0
  have h := ((hveg.const_mul (1 - o.bsf)).add (hbs.const_mul o.bsf)).const_mul o.NormBRDF
  refine h.congr_deriv ?_
  simp only [surfaceCurvLin, mu0, brdfSlope, brdfVal, atTheta, ← hb'']
  simp only [Pi.mul_apply, Pi.sub_apply]
  field_simp
  ring

theorem volumeSlope_hasDerivAt (o : Elem) (θ p'' : ℝ) (hc : cos θ ≠ 0)
    (hp : HasDerivAt (fun θ => o.p o.env θ θ o.p0 (o.p0 + π))
      (o.pDiff 1 o.env θ θ o.p0 (o.p0 + π)) θ)
    (hp2 : HasDerivAt (fun θ => o.pDiff 1 o.env θ θ o.p0 (o.p0 + π)) p'' θ)
    (hp'' : p'' = o.pDiff 2 o.env θ θ o.p0 (o.p0 + π)) :
    HasDerivAt (fun θ => (o.atTheta θ).volumeSlopeLin) (o.atTheta θ).volumeCurvLin θ := by
  have hs := hasDerivAt_sin θ
  have hco := hasDerivAt_cos θ
  have hatt := hasDerivAt_att2 o.tau θ hc
  have h1 := ((((hatt.mul_const 2).mul_const o.tau).mul hs).div (hco.pow 2) (pow_ne_zero 2 hc)).mul hp
  have h2 := (hatt.const_sub 1).mul hp2
  have h := (h1.add h2).const_mul ((1 - o.bsf) * o.I0 * o.omega / 2)
  refine h.congr_deriv ?_
  simp only [volumeCurvLin, mu0, pSlope, pVal, atTheta, ← hp'']
  simp only [Pi.mul_apply, Pi.pow_apply, Pi.div_apply, Nat.cast_ofNat]
  have hs2 : cos θ ^ 2 = 1 - sin θ ^ 2 := by rw [← sin_sq_add_cos_sq θ]; ring
  field_simp
  have hs3 : sin θ ^ 2 = 1 - cos θ ^ 2 := by rw [hs2]; ring
  ring_nf
  try rw [hs3]
  try ring

end Elem

end RT1.Rad
