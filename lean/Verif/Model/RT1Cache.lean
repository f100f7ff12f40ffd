import Verif.Model.RT1

/-!
# Model of the caches of `rt1/rt1.py` (`_mu_0_x`, `_mu_ex_x`)

The powers of the cosines are decorated with `lru_cache` (keyed by the object) and only discarded by
`RT1._clear_cache()`, by eviction, or with the object.
-/

namespace RT1.Rad
open General Real

/-- An `RT1` object (one element of its arrays) with the cached powers. -/
structure CObj where
  elem : Elem
  cache0 : Option (List ℝ)
  cacheEx : Option (List ℝ)

/-- The final sum of `_calc_Fint_1` / `_calc_Fint_2` (`rt1/rt1.py` lines 1280-1282, 1322-1324) with the given powers. -/
noncomputable def FintX (expi : ℝ → ℝ) (expn : ℕ → ℝ → ℝ) (mux : List ℝ) (mu tau : ℝ) (fn : List ℝ) : ℝ :=
  (List.zipWith (· * ·) fn (List.zipWith (· * ·) mux (S2mu expi expn mu tau fn.length))).sum

/-- `_calc_Fint_1` with the cached `_mu_0_x` (`rt1/rt1.py` lines 1242-1282, 1326-1331). -/
noncomputable def CObj.fint1 (s : CObj) (expi : ℝ → ℝ) (expn : ℕ → ℝ → ℝ) (geometry : List Char)
    (fnAll : Angles → List ℝ) : Except PyErr ℝ × CObj :=
  match geomArgs geometry s.elem.angles ⟨arccos s.elem.mu0, s.elem.p0, arccos s.elem.muex, s.elem.pex⟩ with
  | .error e => (.error e, s)
  | .ok a =>
    let mux := s.cache0.getD (muX s.elem.mu0 (fnAll a).length)
    (.ok (FintX expi expn mux s.elem.mu0 s.elem.tau (fnAll a)), { s with cache0 := some mux })

/-- `_calc_Fint_2` with the cached `_mu_ex_x` (`rt1/rt1.py` lines 1284-1324, 1333-1338). -/
noncomputable def CObj.fint2 (s : CObj) (expi : ℝ → ℝ) (expn : ℕ → ℝ → ℝ) (geometry : List Char)
    (fnAll : Angles → List ℝ) : Except PyErr ℝ × CObj :=
  match geomArgs geometry s.elem.angles ⟨arccos s.elem.muex, s.elem.pex, arccos s.elem.mu0, s.elem.p0⟩ with
  | .error e => (.error e, s)
  | .ok a =>
    let mux := s.cacheEx.getD (muX s.elem.muex (fnAll a).length)
    (.ok (FintX expi expn mux s.elem.muex s.elem.tau (fnAll a)), { s with cacheEx := some mux })

/-- `interaction` with the caches (`rt1/rt1.py` lines 1215-1240). -/
noncomputable def CObj.interaction (s : CObj) (expi : ℝ → ℝ) (expn : ℕ → ℝ → ℝ) (geometry : List Char)
    (fnAll : Angles → List ℝ) : Except PyErr ℝ × CObj :=
  match s.fint1 expi expn geometry fnAll with
  | (.error e, s1) => (.error e, s1)
  | (.ok F1, s1) =>
    match s1.fint2 expi expn geometry fnAll with
    | (.error e, s2) => (.error e, s2)
    | (.ok F2, s2) => (.ok (s.elem.interactionOf F1 F2), s2)

/-- The operations on an object: assignments of attributes (angles, parameters of V and SRF, …; no assignment discards the
caches), discarding the caches (`_clear_cache()`, eviction), and the evaluation of the interaction contribution. -/
inductive COp
  | set (f : Elem → Elem)
  | clear
  | eval

/-- One operation; the second component is the observed value of `eval`. -/
noncomputable def CObj.step (expi : ℝ → ℝ) (expn : ℕ → ℝ → ℝ) (geometry : List Char) (fnAll : Angles → List ℝ)
    (s : CObj) : COp → Option (Except PyErr ℝ) × CObj
  | .set f => (none, { s with elem := f s.elem })
  | .clear => (none, { s with cache0 := none, cacheEx := none })
  | .eval => let r := s.interaction expi expn geometry fnAll; (some r.1, r.2)

/-- A sequence of operations. -/
noncomputable def CObj.run (expi : ℝ → ℝ) (expn : ℕ → ℝ → ℝ) (geometry : List Char) (fnAll : Angles → List ℝ) :
    CObj → List COp → List (Option (Except PyErr ℝ)) × CObj
  | s, [] => ([], s)
  | s, op :: ops =>
    let r := s.step expi expn geometry fnAll op
    let rs := CObj.run expi expn geometry fnAll r.2 ops
    (r.1 :: rs.1, rs.2)

end RT1.Rad
