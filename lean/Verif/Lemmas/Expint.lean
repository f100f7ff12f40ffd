import Verif.Model.RT1
import Mathlib.Analysis.SpecialFunctions.Integrals.Basic
import Mathlib.MeasureTheory.Function.JacobianOneDim
import Mathlib.MeasureTheory.Integral.IntegralEqImproper
import Mathlib.Analysis.Calculus.MeanValue
import Mathlib.Analysis.Calculus.DSlope
import Mathlib.Analysis.SpecialFunctions.ImproperIntegrals
import Mathlib.Tactic.Ring
import Mathlib.Tactic.FieldSimp
import Mathlib.Tactic.Linarith
import Mathlib.Tactic.Positivity

/-!
# Exponential integrals

Characterisation of `scipy.special.expi` and `scipy.special.expn` and the closed form of the integral over the
scattering angle in the interaction term.
-/

namespace RT1.Expint

open Real Filter Topology MeasureTheory Set intervalIntegral

/-- `expi` is the exponential integral `Ei(x)`, the Cauchy principal value of `∫_{-∞}^x e^t/t dt`: an antiderivative of
`e^x/x` on both half lines that vanishes at `-∞`, the two branches being connected by the principal value at 0. -/
structure IsExpi (Ei : ℝ → ℝ) : Prop where
  deriv : ∀ x, x ≠ 0 → HasDerivAt Ei (exp x / x) x
  atBot : Tendsto Ei atBot (𝓝 0)
  pv : Tendsto (fun x => Ei x - Ei (-x)) (𝓝[>] 0) (𝓝 0)

/-- The generalised exponential integral `E_n(x) = ∫_1^∞ e^{-x t}/t^n dt` (`scipy.special.expn`). -/
noncomputable def expn (n : ℕ) (x : ℝ) : ℝ := ∫ t in Ioi (1 : ℝ), exp (-x * t) / t ^ n

/-- `(e^x - 1)/x`, continuously extended. -/
noncomputable def phi (x : ℝ) : ℝ := dslope exp 0 x

theorem phi_zero : phi 0 = 1 := by simp [phi, dslope_same]

theorem phi_ne {x : ℝ} (h : x ≠ 0) : phi x = (exp x - 1) / x := by
  rw [phi, dslope_of_ne _ h, slope_def_field]; simp

theorem continuous_phi : Continuous phi := by
  rw [continuous_iff_continuousAt]
  intro x
  by_cases h : x = 0
  · subst h; exact continuousAt_dslope_same.2 differentiableAt_exp
  · exact (continuousAt_dslope_of_ne h).2 continuous_exp.continuousAt

/-- `∫_0^x (e^t - 1)/t dt` -/
noncomputable def Ein (x : ℝ) : ℝ := ∫ t in (0 : ℝ)..x, phi t

theorem hasDerivAt_Ein (x : ℝ) : HasDerivAt Ein (phi x) x :=
  integral_hasDerivAt_right (continuous_phi.intervalIntegrable _ _)
    (continuous_phi.stronglyMeasurableAtFilter _ _) continuous_phi.continuousAt

theorem Ein_zero : Ein 0 = 0 := by simp [Ein]

theorem const_on {s : Set ℝ} (hs : IsOpen s) (hc : IsPreconnected s) {f : ℝ → ℝ}
    (hf : ∀ x ∈ s, HasDerivAt f 0 x) {x y : ℝ} (hx : x ∈ s) (hy : y ∈ s) : f x = f y :=
  hs.is_const_of_deriv_eq_zero hc (fun z hz => (hf z hz).differentiableAt.differentiableWithinAt)
    (fun z hz => (hf z hz).deriv) hx hy

/-- Every exponential integral is `c + ln|x| + ∫_0^x (e^t-1)/t dt`. -/
theorem IsExpi.rep {Ei : ℝ → ℝ} (h : IsExpi Ei) : ∃ c, ∀ x, x ≠ 0 → Ei x = c + log x + Ein x := by
  have hd : ∀ x, x ≠ 0 → HasDerivAt (fun x => Ei x - log x - Ein x) 0 x := by
    intro x hx
    have := ((h.deriv x hx).sub (hasDerivAt_log hx)).sub (hasDerivAt_Ein x)
    refine this.congr_deriv ?_
    rw [phi_ne hx]; field_simp; ring
  have hp : ∀ x, 0 < x → Ei x = (Ei 1 - log 1 - Ein 1) + log x + Ein x := by
    intro x hx
    have := const_on isOpen_Ioi isPreconnected_Ioi (fun z (hz : z ∈ Ioi (0 : ℝ)) => hd z (ne_of_gt hz)) hx
      (show (1 : ℝ) ∈ Ioi 0 by simp)
    linarith
  have hn : ∀ x, x < 0 → Ei x = (Ei (-1) - log (-1) - Ein (-1)) + log x + Ein x := by
    intro x hx
    have := const_on isOpen_Iio isPreconnected_Iio (fun z (hz : z ∈ Iio (0 : ℝ)) => hd z (ne_of_lt hz)) hx
      (show (-1 : ℝ) ∈ Iio 0 by simp)
    linarith
  set cp := Ei 1 - log 1 - Ein 1
  set cn := Ei (-1) - log (-1) - Ein (-1)
  have hlim : Tendsto (fun x => Ei x - Ei (-x)) (𝓝[>] 0) (𝓝 (cp - cn)) := by
    have hcont : Continuous Ein := continuous_iff_continuousAt.2 fun x => (hasDerivAt_Ein x).continuousAt
    have h1 : Tendsto (fun x => cp - cn + Ein x - Ein (-x)) (𝓝[>] 0) (𝓝 (cp - cn)) := by
      have : Continuous fun x => cp - cn + Ein x - Ein (-x) := by fun_prop
      have := this.tendsto 0
      simp only [Ein_zero, neg_zero, add_zero, sub_zero] at this
      exact this.mono_left nhdsWithin_le_nhds
    refine h1.congr' ?_
    filter_upwards [self_mem_nhdsWithin] with x hx
    have hx : 0 < x := hx
    rw [hp x hx, hn (-x) (by linarith), log_neg_eq_log]
    ring
  have hc : cp - cn = 0 := tendsto_nhds_unique hlim h.pv
  refine ⟨cp, fun x hx => ?_⟩
  rcases lt_or_gt_of_ne hx with hx | hx
  · rw [hn x hx]; linarith
  · exact hp x hx

/-! ## A function with these properties exists -/

/-- The exponential integral. -/
noncomputable def expi (x : ℝ) : ℝ := (∫ t in Iic (-1 : ℝ), exp t / t) + log x + ∫ t in (-1 : ℝ)..x, phi t

theorem integrableOn_exp_div : IntegrableOn (fun t : ℝ => exp t / t) (Iic (-1)) := by
  have h1 : IntegrableOn (fun t : ℝ => exp t) (Iic (-1)) := integrableOn_exp_Iic (-1)
  refine h1.mono' ?_ ?_
  · exact (measurable_exp.div measurable_id).aestronglyMeasurable
  · rw [ae_restrict_iff' measurableSet_Iic]
    refine Eventually.of_forall fun t ht => ?_
    have ht : t ≤ -1 := ht
    rw [norm_div, norm_of_nonneg (exp_pos t).le, Real.norm_eq_abs, abs_of_neg (by linarith)]
    rw [div_le_iff₀ (by linarith)]
    nlinarith [exp_pos t]

theorem expi_eq (x : ℝ) : expi x = ((∫ t in Iic (-1 : ℝ), exp t / t) - Ein (-1)) + log x + Ein x := by
  have : ∫ t in (-1 : ℝ)..x, phi t = Ein x - Ein (-1) := by
    unfold Ein
    rw [integral_interval_sub_left] <;> exact continuous_phi.intervalIntegrable _ _
  rw [expi, this]; ring

theorem isExpi_expi : IsExpi expi where
  deriv := by
    intro x hx
    have := ((hasDerivAt_log hx).const_add ((∫ t in Iic (-1 : ℝ), exp t / t) - Ein (-1))).add (hasDerivAt_Ein x)
    refine (this.congr_of_eventuallyEq (Eventually.of_forall fun y => expi_eq y)).congr_deriv ?_
    rw [phi_ne hx]; field_simp; ring
  atBot := by
    have h1 := intervalIntegral_tendsto_integral_Iic (-1) integrableOn_exp_div tendsto_id
    have h2 : Tendsto (fun x : ℝ => (∫ t in Iic (-1 : ℝ), exp t / t) - ∫ t in x..(-1 : ℝ), exp t / t) atBot (𝓝 0) := by
      have := h1.const_sub (∫ t in Iic (-1 : ℝ), exp t / t)
      simpa using this
    refine h2.congr' ?_
    filter_upwards [eventually_lt_atBot (-1 : ℝ)] with x hx
    have h3 : ∫ t in x..(-1 : ℝ), exp t / t = (log (-1) + Ein (-1)) - (log x + Ein x) := by
      have hne : ∀ t ∈ uIcc x (-1), t ≠ 0 := by
        intro t ht
        rw [uIcc_of_le hx.le] at ht
        have := ht.2
        intro h0; rw [h0] at this; linarith
      rw [integral_eq_sub_of_hasDerivAt (f := fun t => log t + Ein t)]
      · intro t ht
        refine ((hasDerivAt_log (hne t ht)).add (hasDerivAt_Ein t)).congr_deriv ?_
        have := hne t ht
        rw [phi_ne this]; field_simp; ring
      · apply ContinuousOn.intervalIntegrable
        intro t ht
        exact (continuous_exp.continuousAt.div continuousAt_id (hne t ht)).continuousWithinAt
    rw [h3, expi_eq]
    simp
    ring
  pv := by
    have hcont : Continuous Ein := continuous_iff_continuousAt.2 fun x => (hasDerivAt_Ein x).continuousAt
    have : Continuous fun x => Ein x - Ein (-x) := by fun_prop
    have h := this.tendsto 0
    simp only [neg_zero, sub_self] at h
    refine (h.mono_left nhdsWithin_le_nhds).congr fun x => ?_
    rw [expi_eq, expi_eq, log_neg_eq_log]; ring

/-! ## The integral over the cosine of the scattering angle -/

section
variable {Ei : ℝ → ℝ} {mu0 tau : ℝ}

/-- Antiderivative of the integrand. -/
noncomputable def H (Ei : ℝ → ℝ) (c mu0 tau mu : ℝ) : ℝ :=
  exp (-tau / mu0) * (c + log (tau / (mu * mu0)) + Ein (tau / mu0 - tau / mu)) - Ei (-tau / mu)

/-- Continuous version of the integrand. -/
noncomputable def k (mu0 tau mu : ℝ) : ℝ :=
  exp (-tau / mu0) * (-1 / mu + phi (tau / mu0 - tau / mu) * (tau / mu ^ 2)) + exp (-tau / mu) / mu

theorem k_eq (h0 : 0 < mu0) (ht : 0 < tau) {mu : ℝ} (hm : 0 < mu) (hne : mu ≠ mu0) :
    k mu0 tau mu = (exp (-tau / mu0) - exp (-tau / mu)) / (mu0 - mu) := by
  have hx : tau / mu0 - tau / mu ≠ 0 := by
    rw [sub_ne_zero]
    intro h
    rw [div_eq_div_iff h0.ne' hm.ne'] at h
    exact hne (mul_left_cancel₀ ht.ne' h)
  have hs : mu0 - mu ≠ 0 := sub_ne_zero.2 (Ne.symm hne)
  have hs' : mu - mu0 ≠ 0 := sub_ne_zero.2 hne
  have e : exp (tau / mu0 - tau / mu) = exp (-tau / mu) / exp (-tau / mu0) := by
    rw [← exp_sub]; congr 1; ring
  have hx2 : tau / mu0 - tau / mu = tau * (mu - mu0) / (mu0 * mu) := by field_simp
  unfold k
  rw [phi_ne hx, e, hx2]
  have hA := (exp_pos (-tau / mu0)).ne'
  generalize exp (-tau / mu0) = A at *
  generalize exp (-tau / mu) = B at *
  field_simp
  ring

theorem k_nonneg (h0 : 0 < mu0) (ht : 0 < tau) {mu : ℝ} (hm : 0 < mu) : 0 ≤ k mu0 tau mu := by
  by_cases hne : mu = mu0
  · subst hne
    unfold k
    rw [sub_self, phi_zero]
    have : exp (-tau / mu) * (-1 / mu + 1 * (tau / mu ^ 2)) + exp (-tau / mu) / mu = exp (-tau / mu) * (tau / mu ^ 2) := by
      ring
    rw [this]; positivity
  · rw [k_eq h0 ht hm hne]
    rcases lt_or_gt_of_ne hne with h | h
    · apply div_nonneg _ (by linarith)
      have : -tau / mu ≤ -tau / mu0 := by
        rw [neg_div, neg_div, neg_le_neg_iff]
        exact div_le_div_of_nonneg_left ht.le hm h.le
      linarith [exp_le_exp.2 this]
    · apply div_nonneg_of_nonpos _ (by linarith)
      have : -tau / mu0 ≤ -tau / mu := by
        rw [neg_div, neg_div, neg_le_neg_iff]
        exact div_le_div_of_nonneg_left ht.le h0 h.le
      linarith [exp_le_exp.2 this]

theorem hasDerivAt_H (h : IsExpi Ei) (c : ℝ) (h0 : 0 < mu0) (ht : 0 < tau) {mu : ℝ} (hm : 0 < mu) :
    HasDerivAt (H Ei c mu0 tau) (k mu0 tau mu) mu := by
  have hinv : HasDerivAt (fun m : ℝ => tau / m) (-(tau / mu ^ 2)) mu := by
    have := (hasDerivAt_inv hm.ne').const_mul tau
    refine (this.congr_of_eventuallyEq (Eventually.of_forall fun y => ?_)).congr_deriv ?_
    · simp [div_eq_mul_inv]
    · field_simp
  have hlog : HasDerivAt (fun m : ℝ => log (tau / (m * mu0))) (-1 / mu) mu := by
    have h1 : HasDerivAt (fun m : ℝ => tau / (m * mu0)) (-(tau / mu ^ 2) / mu0) mu := by
      refine (hinv.div_const mu0).congr_of_eventuallyEq (Eventually.of_forall fun y => ?_)
      simp only; rw [div_div]
    have hne : tau / (mu * mu0) ≠ 0 := by positivity
    refine (h1.log hne).congr_deriv ?_
    field_simp
  have hEin : HasDerivAt (fun m : ℝ => Ein (tau / mu0 - tau / m))
      (phi (tau / mu0 - tau / mu) * (tau / mu ^ 2)) mu := by
    have := (hasDerivAt_Ein (tau / mu0 - tau / mu)).comp mu (hinv.const_sub (tau / mu0))
    refine this.congr_deriv ?_
    ring
  have hEi : HasDerivAt (fun m : ℝ => Ei (-tau / m)) (-(exp (-tau / mu) / mu)) mu := by
    have hne : -tau / mu ≠ 0 := div_ne_zero (neg_ne_zero.2 ht.ne') hm.ne'
    have h1 : HasDerivAt (fun m : ℝ => -tau / m) (tau / mu ^ 2) mu := by
      refine (hinv.neg.congr_of_eventuallyEq (Eventually.of_forall fun y => ?_)).congr_deriv (by ring)
      simp [neg_div]
    have := (h.deriv _ hne).comp mu h1
    refine this.congr_deriv ?_
    field_simp
  have := (((hlog.const_add c).add hEin).const_mul (exp (-tau / mu0))).sub hEi
  refine this.congr_deriv ?_
  unfold k; ring

theorem H_eq {c : ℝ} (hc : ∀ x, x ≠ 0 → Ei x = c + log x + Ein x) (h0 : 0 < mu0) (ht : 0 < tau) {mu : ℝ}
    (hm : 0 < mu) (hne : mu ≠ mu0) :
    H Ei c mu0 tau mu = exp (-tau / mu0) * (Ei (tau / mu0 - tau / mu) - log (mu0 - mu)) - Ei (-tau / mu) := by
  have hx2 : tau / mu0 - tau / mu = (tau / (mu * mu0)) * (mu - mu0) := by field_simp
  have hs' : mu - mu0 ≠ 0 := sub_ne_zero.2 hne
  have hpos : tau / (mu * mu0) ≠ 0 := by positivity
  have hx : tau / mu0 - tau / mu ≠ 0 := by rw [hx2]; exact mul_ne_zero hpos hs'
  unfold H
  rw [hc _ hx]
  have : log (tau / mu0 - tau / mu) = log (tau / (mu * mu0)) + log (mu0 - mu) := by
    rw [hx2, log_mul hpos hs', ← log_neg_eq_log (mu - mu0), neg_sub]
  rw [this]; ring

theorem H_tendsto (h : IsExpi Ei) {c : ℝ} (hc : ∀ x, x ≠ 0 → Ei x = c + log x + Ein x) (h0 : 0 < mu0) (ht : 0 < tau) :
    Tendsto (H Ei c mu0 tau) (𝓝[>] 0) (𝓝 (-(exp (-tau / mu0) * log mu0))) := by
  have hinv : Tendsto (fun m : ℝ => -tau / m) (𝓝[>] 0) atBot := by
    have := (tendsto_inv_nhdsGT_zero (𝕜 := ℝ)).const_mul_atTop_of_neg (neg_lt_zero.2 ht)
    refine this.congr fun x => ?_
    rw [div_eq_mul_inv]
  have h1 : Tendsto (fun m : ℝ => Ei (-tau / m)) (𝓝[>] 0) (𝓝 0) := h.atBot.comp hinv
  have h2 : Tendsto (fun m : ℝ => Ei (tau / mu0 - tau / m)) (𝓝[>] 0) (𝓝 0) := by
    have : Tendsto (fun m : ℝ => tau / mu0 - tau / m) (𝓝[>] 0) atBot := by
      have := tendsto_atBot_add_const_left (𝓝[>] (0 : ℝ)) (tau / mu0) hinv
      refine this.congr fun x => ?_
      ring
    exact h.atBot.comp this
  have h3 : Tendsto (fun m : ℝ => log (mu0 - m)) (𝓝[>] 0) (𝓝 (log mu0)) := by
    have : ContinuousAt (fun m : ℝ => log (mu0 - m)) 0 := by
      apply ContinuousAt.log
      · fun_prop
      · simpa using h0.ne'
    have := this.tendsto
    simp only [sub_zero] at this
    exact this.mono_left nhdsWithin_le_nhds
  have h4 := ((h2.sub h3).const_mul (exp (-tau / mu0))).sub h1
  have e : exp (-tau / mu0) * (0 - log mu0) - 0 = -(exp (-tau / mu0) * log mu0) := by ring
  rw [e] at h4
  refine h4.congr' ?_
  filter_upwards [self_mem_nhdsWithin, nhdsWithin_le_nhds (gt_mem_nhds h0)] with mu hmu hlt
  exact (H_eq hc h0 ht hmu (ne_of_lt hlt)).symm

theorem k_integrable (h : IsExpi Ei) (h0 : 0 < mu0) (ht : 0 < tau) : IntervalIntegrable (k mu0 tau) volume 0 1 := by
  obtain ⟨c, hc⟩ := h.rep
  rw [intervalIntegrable_iff_integrableOn_Ioc_of_le zero_le_one]
  refine integrableOn_deriv_of_nonneg (g := Function.update (H Ei c mu0 tau) 0 (-(exp (-tau / mu0) * log mu0))) ?_ ?_ ?_
  · rw [continuousOn_update_iff]
    constructor
    · rintro x ⟨⟨hx0, hx1⟩, hne⟩
      exact (hasDerivAt_H h c h0 ht (lt_of_le_of_ne hx0 (Ne.symm hne))).continuousAt.continuousWithinAt
    · intro _
      refine (H_tendsto h hc h0 ht).mono_left (nhdsWithin_mono _ ?_)
      rintro x ⟨⟨hx0, hx1⟩, hne⟩
      exact lt_of_le_of_ne hx0 (Ne.symm hne)
  · intro x hx
    refine (hasDerivAt_H h c h0 ht hx.1).congr_of_eventuallyEq ?_
    filter_upwards [lt_mem_nhds hx.1] with y hy
    rw [Function.update_of_ne (ne_of_gt hy)]
  · intro x hx
    exact k_nonneg h0 ht hx.1

theorem k_integral (h : IsExpi Ei) (h0 : 0 < mu0) (h1 : mu0 < 1) (ht : 0 < tau) :
    ∫ mu in (0 : ℝ)..1, k mu0 tau mu = Rad.hlp1 Ei mu0 tau := by
  obtain ⟨c, hc⟩ := h.rep
  rw [integral_eq_sub_of_hasDerivAt_of_tendsto zero_lt_one
    (fun x hx => hasDerivAt_H h c h0 ht hx.1) (k_integrable h h0 ht) (H_tendsto h hc h0 ht)
    ((hasDerivAt_H h c h0 ht zero_lt_one).continuousAt.tendsto.mono_left nhdsWithin_le_nhds)]
  rw [H_eq hc h0 ht zero_lt_one (ne_of_gt h1)]
  unfold Rad.hlp1
  rw [log_div h0.ne' (by linarith), div_one, div_one, ← log_neg_eq_log (mu0 - 1), neg_sub]
  ring

/-- The integrand `mu^n (e^{-tau/mu0} - e^{-tau/mu}) / (mu0 - mu)`. -/
noncomputable def integrand (mu0 tau : ℝ) (n : ℕ) (mu : ℝ) : ℝ :=
  mu ^ n * ((exp (-tau / mu0) - exp (-tau / mu)) / (mu0 - mu))

theorem integrand_ae (h0 : 0 < mu0) (ht : 0 < tau) (n : ℕ) :
    ∀ᵐ mu, mu ∈ Ioc (0 : ℝ) 1 → integrand mu0 tau n mu = mu ^ n * k mu0 tau mu := by
  have : ∀ᵐ mu : ℝ, mu ≠ mu0 := by simp [ae_iff, measure_singleton]
  filter_upwards [this] with mu hne hmu
  rw [integrand, k_eq h0 ht hmu.1 hne]

theorem integrand_integrable (h : IsExpi Ei) (h0 : 0 < mu0) (ht : 0 < tau) (n : ℕ) :
    IntervalIntegrable (integrand mu0 tau n) volume 0 1 := by
  have hk : IntervalIntegrable (fun mu => mu ^ n * k mu0 tau mu) volume 0 1 :=
    (k_integrable h h0 ht).continuousOn_mul (by fun_prop)
  refine hk.congr_ae ?_
  rw [Filter.EventuallyEq, ae_restrict_iff' measurableSet_uIoc, uIoc_of_le zero_le_one]
  filter_upwards [integrand_ae h0 ht n] with mu hmu hm
  exact (hmu hm).symm

theorem expn_integrable_aux (ht : 0 < tau) (n : ℕ) :
    IntervalIntegrable (fun mu : ℝ => mu ^ n * exp (-tau / mu)) volume 0 1 := by
  rw [intervalIntegrable_iff_integrableOn_Ioc_of_le zero_le_one]
  have h1 : IntegrableOn (fun _ : ℝ => (1 : ℝ)) (Ioc 0 1) := by simp
  refine h1.mono' ?_ ?_
  · apply Measurable.aestronglyMeasurable
    exact (measurable_id.pow_const n).mul (measurable_exp.comp (measurable_const.div measurable_id))
  · rw [ae_restrict_iff' measurableSet_Ioc]
    refine Eventually.of_forall fun mu hmu => ?_
    have hp : 0 < mu := hmu.1
    rw [norm_mul, norm_pow, norm_of_nonneg hp.le, norm_of_nonneg (exp_pos _).le]
    have e1 : mu ^ n ≤ 1 := pow_le_one₀ hp.le hmu.2
    have e2 : exp (-tau / mu) ≤ 1 := by
      rw [← exp_zero, exp_le_exp, neg_div, neg_nonpos]; positivity
    calc mu ^ n * exp (-tau / mu) ≤ 1 * 1 := mul_le_mul e1 e2 (exp_pos _).le zero_le_one
      _ = 1 := by ring

theorem expn_eq (tau : ℝ) (n : ℕ) : expn (n + 2) tau = ∫ mu in (0 : ℝ)..1, mu ^ n * exp (-tau / mu) := by
  rw [integral_of_le zero_le_one, integral_Ioc_eq_integral_Ioo, expn]
  have himg : (fun x : ℝ => x⁻¹) '' Ioo 0 1 = Ioi 1 := by
    ext t
    constructor
    · rintro ⟨x, ⟨h0, h1⟩, rfl⟩
      exact (one_lt_inv₀ h0).2 h1
    · intro ht
      have ht : 1 < t := ht
      refine ⟨t⁻¹, ⟨inv_pos.2 (by linarith), inv_lt_one_of_one_lt₀ ht⟩, inv_inv t⟩
  rw [← himg, integral_image_eq_integral_abs_deriv_smul measurableSet_Ioo
    (f' := fun x => -(x ^ 2)⁻¹) (fun x hx => (hasDerivAt_inv hx.1.ne').hasDerivWithinAt)
    (fun x _ y _ hxy => inv_injective hxy)]
  apply setIntegral_congr_fun measurableSet_Ioo
  intro x hx
  have hp : 0 < x := hx.1
  simp only [smul_eq_mul]
  rw [abs_neg, abs_of_pos (by positivity), ← div_eq_mul_inv, inv_pow]
  field_simp
  ring

/-- One step of the recursion in the exponent. -/
theorem integrand_succ (h : IsExpi Ei) (h0 : 0 < mu0) (ht : 0 < tau) (n : ℕ) :
    ∫ mu in (0 : ℝ)..1, integrand mu0 tau (n + 1) mu =
      mu0 * (∫ mu in (0 : ℝ)..1, integrand mu0 tau n mu) - (exp (-tau / mu0) / (n + 1) - expn (n + 2) tau) := by
  have e1 : ∫ mu in (0 : ℝ)..1, mu ^ n * (exp (-tau / mu0) - exp (-tau / mu)) =
      exp (-tau / mu0) / (n + 1) - expn (n + 2) tau := by
    simp only [mul_sub]
    rw [intervalIntegral.integral_sub, intervalIntegral.integral_mul_const, integral_pow, expn_eq]
    · simp; ring
    · apply Continuous.intervalIntegrable; fun_prop
    · exact expn_integrable_aux ht n
  rw [← e1, ← intervalIntegral.integral_const_mul, ← intervalIntegral.integral_sub]
  · apply intervalIntegral.integral_congr_ae
    have : ∀ᵐ mu : ℝ, mu ≠ mu0 := by simp [ae_iff, measure_singleton]
    filter_upwards [this] with mu hne _
    have hs : mu0 - mu ≠ 0 := sub_ne_zero.2 (Ne.symm hne)
    unfold integrand
    field_simp
    ring
  · exact (integrand_integrable h h0 ht n).const_mul _
  · simp only [mul_sub]
    apply IntervalIntegrable.sub
    · apply Continuous.intervalIntegrable; fun_prop
    · exact expn_integrable_aux ht n

/-- The closed form of the integral for every exponent. -/
theorem integrand_closed (h : IsExpi Ei) (h0 : 0 < mu0) (h1 : mu0 < 1) (ht : 0 < tau) (n : ℕ) :
    ∫ mu in (0 : ℝ)..1, integrand mu0 tau n mu =
      mu0 ^ n * (((List.range' 1 n).map (Rad.S2inner expn mu0 tau)).sum + Rad.hlp1 Ei mu0 tau) := by
  induction n with
  | zero =>
    simp only [List.range'_zero, List.map_nil, List.sum_nil, zero_add, pow_zero, one_mul]
    rw [← k_integral h h0 h1 ht]
    apply intervalIntegral.integral_congr_ae
    filter_upwards [integrand_ae h0 ht 0] with mu hmu hm
    rw [uIoc_of_le zero_le_one] at hm
    rw [hmu hm]; simp
  | succ n ih =>
    rw [integrand_succ h h0 ht, ih, List.range'_1_concat, List.map_append, List.sum_append]
    simp only [List.map_cons, List.map_nil, List.sum_cons, List.sum_nil, add_zero, Rad.S2inner]
    rw [show 1 + n + 1 = n + 2 by ring]
    push_cast
    have hp : mu0 ^ (1 + n) ≠ 0 := by positivity
    have : mu0 ^ (n + 1) = mu0 ^ (1 + n) := by rw [add_comm]
    field_simp
    ring

end

end RT1.Expint
