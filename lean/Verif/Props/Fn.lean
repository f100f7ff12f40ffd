import Verif.Lemmas.Fn
import Verif.Lemmas.Expint
import Verif.Props.RT1

/-!
# Properties C11-C13, C71, C72: fn-coefficients and interaction integral
-/

namespace RT1.Fn

open Real RT1.Rad MeasureTheory Set intervalIntegral

/-! ## C11: azimuth mean of `cos^i` -/

/-- C11: `_cosintegral(i)` is the mean of `cos^i` over a full period, for every `i`. -/
theorem C11_cosintegral (i : ℕ) : cosintegral i = 1 / (2 * π) * ∫ x in (0 : ℝ)..2 * π, cos x ^ i := by
  rw [cosintegral_eq, one_div]

/-- C11: the value for `i = 4` is `3/8` (test that the formula is not trivially zero). -/
example : cosintegral 4 = 3 / 8 := by
  have : Nat.choose 4 2 = 6 := rfl
  norm_num [cosintegral, this]

/-! ## C12: the coefficients represent the azimuth integral -/

/-- Specification: truncated Legendre series `Σ_{i<n} leg i · P_i(x)`. -/
noncomputable def legSeries (leg : ℕ → ℝ) (n : ℕ) (x : ℝ) : ℝ := ∑ i ∈ Finset.range n, leg i * legP x i

/-- Specification: the azimuth integral of volume phase function times BRDF for the scattering angle `θ`, with the
phase functions replaced by their truncated Legendre series in the generalised scattering angle. -/
noncomputable def azimuthIntegral (legV legS : ℕ → ℝ) (nV nS : ℕ) (aV aS : ℝ × ℝ × ℝ) (a : Angles) (θ : ℝ) : ℝ :=
  ∫ φ in (0 : ℝ)..2 * π,
    legSeries legV nV (scatAngle aV (π - a.theta0) θ a.phi0 φ) * legSeries legS nS (scatAngle aS θ a.thetaex φ a.phiex)

/-- Specification: value of the polynomial with coefficient list `fn` (lowest order first). -/
noncomputable def polyVal (fn : List ℝ) (x : ℝ) : ℝ := ∑ n : Fin fn.length, fn[n] * x ^ (n : ℕ)

theorem polyVal_coefs (c : ℕ → ℝ) (m : ℕ) (x : ℝ) :
    polyVal ([c 0, c 1] ++ (List.range' 2 m).map c) x = ∑ n ∈ Finset.range (m + 2), c n * x ^ n := by
  have hl : [c 0, c 1] ++ (List.range' 2 m).map c = (List.range (m + 2)).map c := by
    rw [show m + 2 = 2 + m by omega, List.range_add, List.map_append, List.range'_eq_map_range]
    simp [List.range_succ]
  rw [hl, polyVal, Finset.sum_range]
  have : ((List.range (m + 2)).map c).length = m + 2 := by simp
  refine Fintype.sum_equiv (finCongr this) _ _ fun i => ?_
  simp

theorem scatAngle_comm (a : ℝ × ℝ × ℝ) (t t' p p' : ℝ) : scatAngle a t t' p p' = scatAngle a t' t p' p := by
  simp only [scatAngle]; ring

/-- C12 for arbitrary polynomial expansions: if every monomial of the product has as many factors `sin(theta_s)` as
factors `cos(phi_s)`, `sin(phi_s)` and total degree at most `N - 2`, then the coefficients can be evaluated and
represent the azimuth integral. -/
theorem C12_general {N : ℕ} (hN : 2 ≤ N) (vol brdf : Expr)
    (h : ∀ m ∈ mul vol brdf, m.ct + m.st ≤ N - 2 ∧ m.st = m.cp + m.sp) :
    ∃ fn, (extractCoefficients (N - 1) (interactionExpansion N vol brdf)).mapM evalClosed = .ok fn ∧
      ∀ θ, polyVal fn (cos θ) = ∫ φ in (0 : ℝ)..2 * π, eval vol θ φ * eval brdf θ φ := by
  have hg : ∀ m ∈ smul (2 * π) (mul vol brdf), Good (N - 2) m := good_smul _ h
  have hmem : ∀ m ∈ interactionExpansion N vol brdf, m.st = 0 ∧ m.cp = 0 ∧ m.sp = 0 ∧ m.ct < N - 1 := by
    intro m hm
    simp only [interactionExpansion, List.mem_flatMap] at hm
    obtain ⟨x, hx, hm⟩ := hm
    obtain ⟨x1, x2, x3, x4⟩ := integratePhis_mem (by omega : N - 2 ≤ N) hg hx
    obtain ⟨y1, y2, y3, y4⟩ := replSinTheta_mem x3 x4 (by omega) hm
    exact ⟨y1, y2.trans x2, y3.trans x1, by omega⟩
  refine ⟨_, extract_eq (fun m hm => ?_), fun θ => ?_⟩
  · obtain ⟨a, b, c, d⟩ := hmem m hm
    exact ⟨a, b, c, d.le⟩
  · rw [polyVal_coefs (fun n => coefOf n (interactionExpansion N vol brdf)),
      sum_coefOf (fun m hm => ?_) θ 0]
    · have e : eval (interactionExpansion N vol brdf) θ 0 =
          eval (integratePhis N (smul (2 * π) (mul vol brdf))) θ 0 := by
        simp only [interactionExpansion]
        have : ∀ l : Expr, (∀ m ∈ l, m.st % 2 = 0) → eval (l.flatMap (replSinTheta N)) θ 0 = eval l θ 0 := by
          intro l hl
          induction l with
          | nil => rfl
          | cons m l ih =>
            rw [List.flatMap_cons, eval_append, eval_cons, ih (fun x hx => hl x (by simp [hx])),
              eval_replSinTheta (hl m (by simp))]
        exact this _ fun m hm => (integratePhis_mem (by omega : N - 2 ≤ N) hg hm).2.2.1
      rw [e, eval_integratePhis (by omega : N - 2 ≤ N) hg]
      unfold pmean
      simp only [eval_smul, eval_mul]
      rw [intervalIntegral.integral_const_mul, ← mul_assoc, inv_mul_cancel₀ (by positivity), one_mul]
    · obtain ⟨a, b, c, d⟩ := hmem m hm
      exact ⟨a, b, c, by omega⟩

/-- C12: for Legendre expansions of any order the fn-coefficients exist (nothing is left of `theta_s`, `phi_s`) and
the polynomial with these coefficients is the azimuth integral for every `theta_s`. -/
theorem C12_fn_coefficients (legV legS : ℕ → ℝ) {nV nS : ℕ} (hV : 1 ≤ nV) (hS : 1 ≤ nS) (aV aS : ℝ × ℝ × ℝ)
    (a : Angles) :
    ∃ fn, fnCoefs legV legS nV nS aV aS a = .ok fn ∧
      ∀ θ, polyVal fn (cos θ) = azimuthIntegral legV legS nV nS aV aS a θ := by
  obtain ⟨fn, h1, h2⟩ := C12_general (N := nS + nV) (by omega)
    (legexpansion legV nV (scatExpr aV (π - a.theta0) a.phi0)) (legexpansion legS nS (scatExpr aS a.thetaex a.phiex))
    (fun m hm => good_mono (by omega)
      (good_mul (good_legexpansion (good_scatExpr _ _ _) legV nV) (good_legexpansion (good_scatExpr _ _ _) legS nS) m hm))
  refine ⟨fn, h1, fun θ => ?_⟩
  rw [h2]
  unfold azimuthIntegral legSeries
  simp only [eval_legexpansion, eval_scatExpr]
  apply intervalIntegral.integral_congr
  intro φ _
  simp only
  rw [scatAngle_comm aS θ]

/-- C12: the hypotheses are met by Rayleigh volume (3 coefficients) above an isotropic surface (1 coefficient). -/
example : ∃ fn, fnCoefs (fun n => if n = 0 then 1 / (4 * π) else if n = 2 then 1 / (8 * π) else 0) (fun _ => 1 / π) 3 1
    (-1, 1, 1) (1, 1, 1) ⟨1, 0, 1, π⟩ = .ok fn := by
  obtain ⟨fn, h, _⟩ := C12_fn_coefficients
    (fun n => if n = 0 then 1 / (4 * π) else if n = 2 then 1 / (8 * π) else 0) (fun _ => 1 / π)
    (by norm_num : 1 ≤ 3) (le_refl 1) (-1, 1, 1) (1, 1, 1) ⟨1, 0, 1, π⟩
  exact ⟨fn, h⟩

/-- C12: with an expansion of order zero (`ncoefs = 0`) in both objects the coefficients are zero as well: the code
returns `[0, 0]`. -/
theorem C12_empty (legV legS : ℕ → ℝ) (aV aS : ℝ × ℝ × ℝ) (a : Angles) :
    fnCoefs legV legS 0 0 aV aS a = .ok [0, 0] := by
  unfold fnCoefs legexpansion
  simp [interactionExpansion, mul, smul, integratePhis, extractCoefficients, repl0, repl1, sub, evalClosed]
  rfl

/-! ## C13: closed form of F_int -/

open Expint in
/-- C13: the sum evaluated by `_calc_Fint_1` is the defining integral of F_int, for any number of coefficients. -/
theorem C13_Fint {Ei : ℝ → ℝ} (hEi : IsExpi Ei) {mu0 tau : ℝ} (h0 : 0 < mu0) (h1 : mu0 < 1) (ht : 0 < tau)
    (fn : List ℝ) :
    Fint Ei expn mu0 tau fn =
      ∑ n : Fin fn.length, fn[n] *
        ∫ mu in (0 : ℝ)..1, mu ^ ((n : ℕ) + 1) / (mu0 - mu) * (exp (-tau / mu0) - exp (-tau / mu)) := by
  have e : ∀ n : ℕ, ∫ mu in (0 : ℝ)..1, mu ^ (n + 1) / (mu0 - mu) * (exp (-tau / mu0) - exp (-tau / mu)) =
      mu0 ^ (n + 1) * (((List.range' 1 (n + 1)).map (Rad.S2inner expn mu0 tau)).sum + Rad.hlp1 Ei mu0 tau) := by
    intro n
    rw [← integrand_closed hEi h0 h1 ht (n + 1)]
    apply intervalIntegral.integral_congr
    intro mu _
    simp only [integrand]; ring
  simp only [e]
  unfold Fint muX S2mu
  rw [List.zipWith_map, List.zipWith_self]
  have key : ∀ (l : List ℝ) (g : ℕ → ℝ),
      (List.zipWith (· * ·) l ((List.range l.length).map g)).sum = ∑ n : Fin l.length, l[n] * g n := by
    intro l
    induction l with
    | nil => intro g; simp
    | cons x l ih =>
      intro g
      simp only [List.length_cons, List.range_succ_eq_map, List.map_cons, List.zipWith_cons_cons, List.sum_cons,
        List.map_map]
      rw [Fin.sum_univ_succ, ih (g ∘ Nat.succ)]
      simp
  rw [key]

open Expint in
/-- C13: the integral form with the polynomial of the coefficients. -/
theorem C13_Fint_poly {Ei : ℝ → ℝ} (hEi : IsExpi Ei) {mu0 tau : ℝ} (h0 : 0 < mu0) (h1 : mu0 < 1) (ht : 0 < tau)
    (fn : List ℝ) :
    Fint Ei expn mu0 tau fn =
      ∫ mu in (0 : ℝ)..1, mu / (mu0 - mu) * (exp (-tau / mu0) - exp (-tau / mu)) * polyVal fn mu := by
  rw [C13_Fint hEi h0 h1 ht]
  have hi : ∀ n : Fin fn.length, IntervalIntegrable
      (fun mu => fn[n] * (mu ^ ((n : ℕ) + 1) / (mu0 - mu) * (exp (-tau / mu0) - exp (-tau / mu)))) volume 0 1 := by
    intro n
    refine IntervalIntegrable.const_mul ?_ _
    have := integrand_integrable hEi h0 ht ((n : ℕ) + 1)
    refine this.congr fun mu _ => ?_
    simp only [integrand]; ring
  simp only [← intervalIntegral.integral_const_mul]
  rw [← intervalIntegral.integral_finset_sum (fun n _ => hi n)]
  apply intervalIntegral.integral_congr
  intro mu _
  simp only [polyVal, Finset.mul_sum]
  apply Finset.sum_congr rfl
  intro n _
  ring

/-- C13: an exponential integral exists, so the hypothesis of `C13_Fint` is met. -/
example : Expint.IsExpi Expint.expi := Expint.isExpi_expi

/-- C13: the two branches of the exponential integral are determined by the conditions: any two functions that satisfy
them agree at every `x ≠ 0` (so `scipy.special.expi` is the only function in question). -/
theorem C13_expi_unique {E F : ℝ → ℝ} (hE : Expint.IsExpi E) (hF : Expint.IsExpi F) {x : ℝ} (hx : x ≠ 0) :
    E x = F x := by
  obtain ⟨c, hc⟩ := hE.rep
  obtain ⟨d, hd⟩ := hF.rep
  have h1 := (hE.atBot).sub (hF.atBot)
  rw [sub_zero] at h1
  have h2 : Filter.Tendsto (fun x => E x - F x) Filter.atBot (nhds (c - d)) := by
    refine tendsto_const_nhds.congr' ?_
    filter_upwards [Filter.eventually_lt_atBot (0 : ℝ)] with y hy
    rw [hc y (ne_of_lt hy), hd y (ne_of_lt hy)]; ring
  have := tendsto_nhds_unique h2 h1
  rw [hc x hx, hd x hx]; linarith

/-! ## C71: the interaction contribution is the defining double integral -/

/-- Specification: F_int, the integral over the hemisphere of scattering directions,
`∫_0^{π/2} ∫_0^{2π} cosθ/(cosθ0 - cosθ) (e^{-τ/cosθ0} - e^{-τ/cosθ}) p(θ,φ) BRDF(θ,φ) sinθ dφ dθ`. -/
noncomputable def FintIntegral (legV legS : ℕ → ℝ) (nV nS : ℕ) (aV aS : ℝ × ℝ × ℝ) (tau : ℝ) (a : Angles) : ℝ :=
  ∫ θ in (0 : ℝ)..π / 2,
    cos θ / (cos a.theta0 - cos θ) * (exp (-tau / cos a.theta0) - exp (-tau / cos θ)) *
      (∫ φ in (0 : ℝ)..2 * π, legSeries legV nV (scatAngle aV (π - a.theta0) θ a.phi0 φ) *
        legSeries legS nS (scatAngle aS θ a.thetaex φ a.phiex)) * sin θ

/-- Specification: the first-order interaction contribution. -/
noncomputable def interactionIntegral (legV legS : ℕ → ℝ) (nV nS : ℕ) (aV aS : ℝ × ℝ × ℝ) (o : Elem) : ℝ :=
  o.NormBRDF * (1 - o.bsf) * (o.I0 * cos o.t0 * o.omega *
    (exp (-o.tau / cos o.tex) * FintIntegral legV legS nV nS aV aS o.tau ⟨o.t0, o.p0, o.tex, o.pex⟩
     + exp (-o.tau / cos o.t0) * FintIntegral legV legS nV nS aV aS o.tau ⟨o.tex, o.pex, o.t0, o.p0⟩))

theorem integral_cos_subst (g : ℝ → ℝ) : ∫ θ in (0 : ℝ)..π / 2, g (cos θ) * sin θ = ∫ mu in (0 : ℝ)..1, g mu := by
  have hpi : (0 : ℝ) ≤ π / 2 := by positivity
  rw [integral_of_le hpi, integral_of_le zero_le_one, integral_Ioc_eq_integral_Ioo, integral_Ioc_eq_integral_Ioo]
  have himg : cos '' Ioo 0 (π / 2) = Ioo 0 1 := by
    ext t
    constructor
    · rintro ⟨x, ⟨h0, h1⟩, rfl⟩
      refine ⟨cos_pos_of_mem_Ioo ⟨by linarith, h1⟩, ?_⟩
      rw [← cos_zero]
      exact cos_lt_cos_of_nonneg_of_le_pi (le_refl 0) (by linarith [pi_pos]) h0
    · rintro ⟨h0, h1⟩
      exact ⟨arccos t, ⟨arccos_pos.2 h1, arccos_lt_pi_div_two.2 h0⟩, cos_arccos (by linarith) h1.le⟩
  rw [← himg, integral_image_eq_integral_abs_deriv_smul measurableSet_Ioo
    (f' := fun x => -sin x) (fun x _ => (hasDerivAt_cos x).hasDerivWithinAt)
    (injOn_cos.mono (show Ioo 0 (π / 2) ⊆ Icc 0 π from fun x hx => ⟨hx.1.le, by linarith [hx.2, pi_pos]⟩))]
  apply setIntegral_congr_fun measurableSet_Ioo
  intro x hx
  have hs : 0 < sin x := sin_pos_of_pos_of_lt_pi hx.1 (by linarith [hx.2, pi_pos])
  simp only [smul_eq_mul, abs_neg, abs_of_pos hs]
  ring

open Expint in
/-- C71: F_int as evaluated by the code, with the coefficients generated by the code, is the double integral. -/
theorem C71_Fint {Ei : ℝ → ℝ} (hEi : IsExpi Ei) (legV legS : ℕ → ℝ) {nV nS : ℕ} (hV : 1 ≤ nV) (hS : 1 ≤ nS)
    (aV aS : ℝ × ℝ × ℝ) {tau : ℝ} (ht : 0 < tau) (a : Angles) (h0 : 0 < a.theta0) (h1 : a.theta0 < π / 2)
    (fn : List ℝ) (hfn : fnCoefs legV legS nV nS aV aS a = .ok fn) :
    Fint Ei expn (cos a.theta0) tau fn = FintIntegral legV legS nV nS aV aS tau a := by
  obtain ⟨fn', e1, e2⟩ := C12_fn_coefficients legV legS hV hS aV aS a
  rw [hfn] at e1
  obtain rfl := Except.ok.inj e1
  have c0 : 0 < cos a.theta0 := cos_pos_of_mem_Ioo ⟨by linarith, h1⟩
  have c1 : cos a.theta0 < 1 := by
    rw [← cos_zero]
    exact cos_lt_cos_of_nonneg_of_le_pi (le_refl 0) (by linarith [pi_pos]) h0
  rw [C13_Fint_poly hEi c0 c1 ht, ← integral_cos_subst]
  unfold FintIntegral
  apply intervalIntegral.integral_congr
  intro θ _
  simp only [e2]
  rfl

open Expint in
/-- C71: the interaction contribution evaluated by the code (geometry `"vvvv"`, coefficients generated by the code) is
the defining double integral, for every volume and surface expansion and all oblique angles. -/
theorem C71_interaction {Ei : ℝ → ℝ} (hEi : IsExpi Ei) (legV legS : ℕ → ℝ) {nV nS : ℕ} (hV : 1 ≤ nV) (hS : 1 ≤ nS)
    (aV aS : ℝ × ℝ × ℝ) (o : Elem) (ht : 0 < o.tau) (h0 : 0 < o.t0) (h1 : o.t0 < π / 2) (h2 : 0 < o.tex)
    (h3 : o.tex < π / 2) (fnAll : Angles → List ℝ) (hfn : ∀ a, fnCoefs legV legS nV nS aV aS a = .ok (fnAll a)) :
    o.interaction Ei expn ['v', 'v', 'v', 'v'] fnAll = .ok (interactionIntegral legV legS nV nS aV aS o) := by
  rw [C70_variable_geometry o ⟨h0.le, by linarith, h2.le, by linarith⟩]
  unfold interactionSpec interactionIntegral
  rw [C71_Fint hEi legV legS hV hS aV aS ht ⟨o.t0, o.p0, o.tex, o.pex⟩ h0 h1 _ (hfn _),
    C71_Fint hEi legV legS hV hS aV aS ht ⟨o.tex, o.pex, o.t0, o.p0⟩ h2 h3 _ (hfn _)]

/-- C71: coefficient functions as required by `C71_interaction` exist for all expansions. -/
example (legV legS : ℕ → ℝ) (aV aS : ℝ × ℝ × ℝ) :
    ∃ fnAll : Angles → List ℝ, ∀ a, fnCoefs legV legS 8 10 aV aS a = .ok (fnAll a) :=
  ⟨fun a => (C12_fn_coefficients legV legS (by norm_num : 1 ≤ 8) (by norm_num : 1 ≤ 10) aV aS a).choose,
   fun a => (C12_fn_coefficients legV legS (by norm_num : 1 ≤ 8) (by norm_num : 1 ≤ 10) aV aS a).choose_spec.1⟩

/-! ## C72: the interaction contribution is non-negative -/

/-- The kernel of F_int is non-negative: both factors change sign at the same place. -/
theorem kernel_nonneg {tau x y : ℝ} (ht : 0 ≤ tau) (hx : 0 < x) (hy : 0 ≤ y) :
    0 ≤ y / (x - y) * (exp (-tau / x) - exp (-tau / y)) := by
  rcases hy.eq_or_lt with rfl | hy
  · simp
  rcases lt_trichotomy x y with h | h | h
  · have : -tau / x ≤ -tau / y := by
      rw [neg_div, neg_div, neg_le_neg_iff]
      exact div_le_div_of_nonneg_left ht hx h.le
    have e := exp_le_exp.2 this
    exact mul_nonneg_of_nonpos_of_nonpos (div_nonpos_of_nonneg_of_nonpos hy.le (by linarith)) (by linarith)
  · simp [h]
  · have : -tau / y ≤ -tau / x := by
      rw [neg_div, neg_div, neg_le_neg_iff]
      exact div_le_div_of_nonneg_left ht hy h.le
    have e := exp_le_exp.2 this
    exact mul_nonneg (div_nonneg hy.le (by linarith)) (by linarith)

/-- Specification: the truncated series of both functions are non-negative wherever they are evaluated. -/
def SeriesNonneg (leg : ℕ → ℝ) (n : ℕ) (a : ℝ × ℝ × ℝ) : Prop := ∀ t t' p p', 0 ≤ legSeries leg n (scatAngle a t t' p p')

theorem FintIntegral_nonneg (legV legS : ℕ → ℝ) (nV nS : ℕ) (aV aS : ℝ × ℝ × ℝ) (hV : SeriesNonneg legV nV aV)
    (hS : SeriesNonneg legS nS aS) {tau : ℝ} (ht : 0 ≤ tau) (a : Angles) (h0 : 0 ≤ a.theta0) (h1 : a.theta0 < π / 2) :
    0 ≤ FintIntegral legV legS nV nS aV aS tau a := by
  have c0 : 0 < cos a.theta0 := cos_pos_of_mem_Ioo ⟨by linarith [pi_pos], h1⟩
  have hpi : (0 : ℝ) ≤ π / 2 := by positivity
  apply integral_nonneg hpi
  intro θ hθ
  have c : 0 ≤ cos θ := cos_nonneg_of_mem_Icc ⟨by linarith [hθ.1], hθ.2⟩
  have s : 0 ≤ sin θ := sin_nonneg_of_nonneg_of_le_pi hθ.1 (by linarith [hθ.2, pi_pos])
  refine mul_nonneg (mul_nonneg (kernel_nonneg ht c0 c) ?_) s
  apply integral_nonneg (by positivity)
  intro φ _
  exact mul_nonneg (hV _ _ _ _) (hS _ _ _ _)

open Expint in
/-- C72: the interaction contribution is non-negative whenever the truncated expansions are. -/
theorem C72_interaction_nonneg {Ei : ℝ → ℝ} (hEi : IsExpi Ei) (legV legS : ℕ → ℝ) {nV nS : ℕ} (hV : 1 ≤ nV)
    (hS : 1 ≤ nS) (aV aS : ℝ × ℝ × ℝ) (pV : SeriesNonneg legV nV aV) (pS : SeriesNonneg legS nS aS) (o : Elem)
    (ht : 0 < o.tau) (h0 : 0 < o.t0) (h1 : o.t0 < π / 2) (h2 : 0 < o.tex) (h3 : o.tex < π / 2) (hI : 0 ≤ o.I0)
    (hw : 0 ≤ o.omega) (hN : 0 ≤ o.NormBRDF) (hb : o.bsf ≤ 1) (fnAll : Angles → List ℝ)
    (hfn : ∀ a, fnCoefs legV legS nV nS aV aS a = .ok (fnAll a)) :
    ∃ x, o.interaction Ei expn ['v', 'v', 'v', 'v'] fnAll = .ok x ∧ 0 ≤ x := by
  refine ⟨_, C71_interaction hEi legV legS hV hS aV aS o ht h0 h1 h2 h3 fnAll hfn, ?_⟩
  have c0 : 0 ≤ cos o.t0 := cos_nonneg_of_mem_Icc ⟨by linarith, h1.le⟩
  have F1 := FintIntegral_nonneg legV legS nV nS aV aS pV pS ht.le ⟨o.t0, o.p0, o.tex, o.pex⟩ h0.le h1
  have F2 := FintIntegral_nonneg legV legS nV nS aV aS pV pS ht.le ⟨o.tex, o.pex, o.t0, o.p0⟩ h2.le h3
  unfold interactionIntegral
  have hb' : 0 ≤ 1 - o.bsf := by linarith
  positivity

/-- C72: the hypothesis on the series is met by the Rayleigh volume phase function (3 coefficients). -/
example : SeriesNonneg (fun n => if n = 0 then 1 / (4 * π) else if n = 2 then 1 / (8 * π) else 0) 3 (-1, 1, 1) := by
  intro t t' p p'
  generalize scatAngle (-1, 1, 1) t t' p p' = x
  simp [legSeries, Finset.sum_range_succ, legP]
  have : π⁻¹ * 4⁻¹ + π⁻¹ * 8⁻¹ * ((3 * x * x - 1) / 2) = (3 / 16) * π⁻¹ * (1 + x ^ 2) := by ring
  rw [this]; positivity

end RT1.Fn
