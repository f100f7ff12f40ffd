import Verif.Model.RT1Cache
import Verif.Props.Fn

/-!
# Evaluations of an RT1 object use its current attributes (C78)
-/

namespace RT1.Rad
open General Real MeasureTheory

variable (expi : ℝ → ℝ) (expn : ℕ → ℝ → ℝ) (geometry : List Char) (fnAll : Angles → List ℝ)

/-- Specification: every evaluation is the one of a new object with the current attributes. -/
noncomputable def specC : Elem → List COp → List (Option (Except PyErr ℝ))
  | _, [] => []
  | o, .set f :: ops => none :: specC (f o) ops
  | o, .clear :: ops => none :: specC o ops
  | o, .eval :: ops => some (o.interaction expi expn geometry fnAll) :: specC o ops

theorem FintX_muX (mu tau : ℝ) (fn : List ℝ) :
    FintX expi expn (muX mu fn.length) mu tau fn = Fint expi expn mu tau fn := rfl

/-- The caches belong to the angles `t0`, `tex`; the number of coefficients is fixed. -/
def CacheOk (N : ℕ) (mu0 muex : ℝ) (s : CObj) : Prop :=
  (s.cache0 = none ∨ s.cache0 = some (muX mu0 N)) ∧ (s.cacheEx = none ∨ s.cacheEx = some (muX muex N))

theorem interaction_cached (N : ℕ) (hN : ∀ a, (fnAll a).length = N) (s : CObj)
    (hs : CacheOk N s.elem.mu0 s.elem.muex s) :
    (s.interaction expi expn geometry fnAll).1 = s.elem.interaction expi expn geometry fnAll ∧
      CacheOk N s.elem.mu0 s.elem.muex (s.interaction expi expn geometry fnAll).2 ∧
      (s.interaction expi expn geometry fnAll).2.elem = s.elem := by
  unfold CObj.interaction CObj.fint1 CObj.fint2 Elem.interaction Elem.calcFint1 Elem.calcFint2
  cases h1 : geomArgs geometry s.elem.angles ⟨arccos s.elem.mu0, s.elem.p0, arccos s.elem.muex, s.elem.pex⟩ with
  | error e => exact ⟨rfl, hs, rfl⟩
  | ok a =>
    have e0 : s.cache0.getD (muX s.elem.mu0 (fnAll a).length) = muX s.elem.mu0 N := by
      rcases hs.1 with h | h <;> rw [h]
      · rw [hN]; rfl
      · rfl
    simp only [e0]
    cases h2 : geomArgs geometry s.elem.angles ⟨arccos s.elem.muex, s.elem.pex, arccos s.elem.mu0, s.elem.p0⟩ with
    | error e => exact ⟨rfl, ⟨.inr rfl, hs.2⟩, rfl⟩
    | ok b =>
      have e1 : s.cacheEx.getD (muX s.elem.muex (fnAll b).length) = muX s.elem.muex N := by
        rcases hs.2 with h | h <;> rw [h]
        · rw [hN]; rfl
        · rfl
      simp only [e1]
      refine ⟨?_, ⟨.inr rfl, .inr rfl⟩, trivial⟩
      rw [← FintX_muX, ← FintX_muX, hN, hN]

/-- An operation that keeps the polar angles. -/
def KeepsAngles : COp → Prop
  | .set f => ∀ o, (f o).t0 = o.t0 ∧ (f o).tex = o.tex
  | _ => True

/-- C78, if the polar angles are not changed (as during a fit, where the parameters of V and SRF are assigned again and
again): every evaluation is the one of a new object with the current attributes. -/
theorem C78_same_angles_partial (N : ℕ) (hN : ∀ a, (fnAll a).length = N) (ops : List COp) (hops : ∀ op ∈ ops, KeepsAngles op)
    (o : Elem) : (CObj.run expi expn geometry fnAll ⟨o, none, none⟩ ops).1 = specC expi expn geometry fnAll o ops := by
  suffices h : ∀ s : CObj, CacheOk N s.elem.mu0 s.elem.muex s →
      (CObj.run expi expn geometry fnAll s ops).1 = specC expi expn geometry fnAll s.elem ops from
    h ⟨o, none, none⟩ ⟨.inl rfl, .inl rfl⟩
  induction ops with
  | nil => intro s _; rfl
  | cons op ops ih =>
    intro s hs
    have ih' := ih fun op h => hops op (List.mem_cons_of_mem _ h)
    have hop := hops op List.mem_cons_self
    cases op with
    | set f =>
      simp only [CObj.run, CObj.step, specC]
      rw [ih']
      have := hop s.elem
      simpa [CacheOk, Elem.mu0, Elem.muex, this] using hs
    | clear =>
      simp only [CObj.run, CObj.step, specC]
      rw [ih' _ ⟨.inl rfl, .inl rfl⟩]
    | eval =>
      obtain ⟨h1, h2, h3⟩ := interaction_cached expi expn geometry fnAll N hN s hs
      simp only [CObj.run, CObj.step, specC]
      rw [ih' _ (by rw [h3]; exact h2), h1, h3]

/-- C78: operations that keep the angles: new values of omega and tau, as during a fit. -/
example : ∀ op ∈ [COp.eval, .set fun o => { o with omega := 0.3, tau := 2 }, .eval, .clear, .eval], KeepsAngles op := by
  simp [KeepsAngles]

/-- C78, for arbitrary assignments (also of the angles): the evaluations right after discarding the caches are those of a
new object. -/
theorem C78_cleared_partial (N : ℕ) (hN : ∀ a, (fnAll a).length = N) (ops : List COp) (s : CObj) :
    let s' := (CObj.run expi expn geometry fnAll s ops).2
    (CObj.run expi expn geometry fnAll s' [.clear, .eval]).1 =
      [none, some (s'.elem.interaction expi expn geometry fnAll)] := by
  intro s'
  have := (interaction_cached expi expn geometry fnAll N hN { s' with cache0 := none, cacheEx := none }
    ⟨.inl rfl, .inl rfl⟩).1
  simp only [CObj.run, CObj.step, this]

/-- The closed form of F_int for one coefficient is positive. -/
theorem Fint_pos {Ei : ℝ → ℝ} (hEi : Expint.IsExpi Ei) {mu0 tau : ℝ} (h0 : 0 < mu0) (h1 : mu0 < 1) (ht : 0 < tau) :
    0 < Fint Ei Expint.expn mu0 tau [1] := by
  rw [Fn.C13_Fint hEi h0 h1 ht]
  simp only [List.length_cons, List.length_nil, zero_add, Finset.univ_unique, Fin.default_eq_zero, Fin.isValue,
    Finset.sum_singleton, Fin.val_zero, pow_one]
  have hi : IntervalIntegrable (fun mu => mu / (mu0 - mu) * (exp (-tau / mu0) - exp (-tau / mu))) volume 0 1 := by
    have := Expint.integrand_integrable hEi h0 ht 1
    refine this.congr fun mu _ => ?_
    simp only [Expint.integrand]; ring
  have hnn : ∀ mu, 0 < mu → 0 ≤ mu / (mu0 - mu) * (exp (-tau / mu0) - exp (-tau / mu)) := fun mu hmu =>
    Fn.kernel_nonneg ht.le h0 hmu.le
  have hpos : ∀ mu, 0 < mu → mu < mu0 → 0 < mu / (mu0 - mu) * (exp (-tau / mu0) - exp (-tau / mu)) := by
    intro mu hmu hlt
    have : -tau / mu < -tau / mu0 := by
      rw [neg_div, neg_div, neg_lt_neg_iff]
      exact div_lt_div_of_pos_left ht hmu hlt
    exact mul_pos (div_pos hmu (by linarith)) (by linarith [exp_lt_exp.2 this])
  have key := (intervalIntegral.integral_pos_iff_support_of_nonneg_ae' (f := fun mu => mu / (mu0 - mu) * (exp (-tau / mu0) -
    exp (-tau / mu))) (μ := volume) (a := 0) (b := 1) (by
      rw [Filter.EventuallyLE, ae_restrict_iff' measurableSet_uIoc]
      refine Filter.Eventually.of_forall fun mu hmu => ?_
      rw [Set.uIoc_of_le zero_le_one] at hmu
      exact hnn mu hmu.1) hi).2 ⟨zero_lt_one, by
      refine lt_of_lt_of_le ?_ (measure_mono (s := Set.Ioo 0 mu0) ?_)
      · simp [h0]
      · intro mu hmu
        exact ⟨(hpos mu hmu.1 hmu.2).ne', hmu.1, by linarith [hmu.2]⟩⟩
  simpa using key

/-- C78: the full statement fails.  Whenever the interaction contribution has been evaluated once and the polar angles
are assigned afterwards, the next evaluation uses the powers of the old cosines; for an isotropic coefficient
(`fn = [1]`) and different angles it differs from the evaluation of a new object for all parameters for which the
contribution does not vanish. -/
theorem C78_fails {Ei : ℝ → ℝ} (hEi : Expint.IsExpi Ei) (o : Elem) (t t' : ℝ) (h0 : 0 < t) (h1 : t < π / 2) (h0' : 0 < t')
    (h1' : t' < π / 2) (hne : t ≠ t') (ht : 0 < o.tau) (hI : o.I0 ≠ 0) (hw : o.omega ≠ 0) (hN : o.NormBRDF ≠ 0)
    (hb : o.bsf ≠ 1) :
    let set (t : ℝ) : COp := .set fun o => { o with t0 := t, tex := t }
    (CObj.run Ei Expint.expn ['m', 'o', 'n', 'o'] (fun _ => [1]) ⟨o, none, none⟩ [set t, .eval, set t', .eval]).1 ≠
      specC Ei Expint.expn ['m', 'o', 'n', 'o'] (fun _ => [1]) o [set t, .eval, set t', .eval] := by
  intro set h
  have c0 : 0 < cos t := cos_pos_of_mem_Ioo ⟨by linarith, h1⟩
  have c0' : 0 < cos t' := cos_pos_of_mem_Ioo ⟨by linarith, h1'⟩
  have c1' : cos t' < 1 := by
    rw [← cos_zero]
    exact cos_lt_cos_of_nonneg_of_le_pi (le_refl 0) (by linarith [pi_pos]) h0'
  have hcne : cos t ≠ cos t' := fun e =>
    hne (injOn_cos ⟨h0.le, by linarith [pi_pos]⟩ ⟨h0'.le, by linarith [pi_pos]⟩ e)
  have hF := Fint_pos hEi c0' c1' ht
  have hst : FintX Ei Expint.expn [cos t] (cos t') o.tau [1] = cos t / cos t' * Fint Ei Expint.expn (cos t') o.tau [1] := by
    simp [FintX, Fint, muX, S2mu]
    field_simp
  have hmu : muX (cos t) 1 = [cos t] := by simp [muX]
  simp only [CObj.run, CObj.step, specC, set, CObj.interaction, CObj.fint1, CObj.fint2, Elem.interaction, Elem.calcFint1,
    Elem.calcFint2, geomArgs, if_true, Elem.mu0, Elem.muex, List.length_singleton, Option.getD_none, Option.getD_some, hmu,
    hst, Elem.interactionOf] at h
  simp only [List.cons.injEq, Option.some.injEq, Except.ok.injEq, and_true, true_and] at h
  have h2 := h.2
  have hb' : 1 - o.bsf ≠ 0 := sub_ne_zero.2 (Ne.symm hb)
  have hE : exp (-o.tau / cos t') ≠ 0 := (exp_pos _).ne'
  generalize Fint Ei Expint.expn (cos t') o.tau [1] = X at *
  generalize exp (-o.tau / cos t') = E at *
  have h3 : (o.NormBRDF * (1 - o.bsf) * o.I0 * cos t' * o.omega * E * X * 2) * (cos t / cos t' - 1) = 0 := by
    linear_combination h2
  rcases mul_eq_zero.1 h3 with h4 | h4
  · have : o.NormBRDF * (1 - o.bsf) * o.I0 * cos t' * o.omega * E * X * 2 ≠ 0 := by
      have := c0'.ne'
      have := hF.ne'
      positivity
    exact this h4
  · apply hcne
    have : cos t / cos t' = 1 := by linarith
    rwa [div_eq_one_iff_eq c0'.ne'] at this

example : (0 : ℝ) < π / 6 ∧ π / 6 < π / 2 ∧ π / 3 < π / 2 ∧ (π / 6 : ℝ) ≠ π / 3 := by
  have := pi_pos
  refine ⟨by positivity, by linarith, by linarith, fun h => by linarith⟩

end RT1.Rad
