import Verif.Model.General

/-!
# Model of the lazy fn-coefficients of an RT1-object (`rt1/rt1.py`, `rt1/rtfits.py`)

`fn` and `_fnevals` are properties that evaluate the coefficients at the first access and keep them in the attributes
`_RT1__fn` and `_RT1__fnevals`.  The evaluation of the coefficients (`_calc_interaction_expansion`, `_extract_coefficients`,
see `Model/Fn`) and the lambdification are parameters.
-/

namespace RT1.Lazy
open General

/-- `lambda_backend`: symengine, sympy or any other string (`rt1/rt1.py` lines 327-375). -/
inductive Backend
  | symengine | sympy | other
  deriving DecidableEq

/-- What is external: the evaluation of the coefficients from the defining attributes `μ` (V, SRF, geometry, …), and their
lambdification for both backends (which fails for objects that are not lists of expressions, e.g. the integer 1). -/
structure Env (μ φ ψ : Type) where
  gen : μ → φ
  lambdify : Backend → φ → Except PyErr ψ

/-- The attributes of an RT1-object used by `fn` and `_fnevals` (`rt1/rt1.py` lines 140-172).  `fn` and `fnevals` are the
attributes `_RT1__fn` and `_RT1__fnevals`: `none` if the attribute does not exist, the inner option is python's None. -/
structure Obj (μ φ ψ : Type) where
  model : μ
  intQ : Bool
  backend : Backend
  fnInput : Option φ
  fnevalsInput : Option ψ
  fn : Option (Option φ)
  fnevals : Option (Option ψ)
  /-- history variable: how often the coefficients have been evaluated -/
  evals : Nat

variable {μ φ ψ : Type}

/-- `RT1.__init__` (lines 140-172): neither attribute exists. -/
def mk (model : μ) (intQ : Bool) (backend : Backend) (fnInput : Option φ) (fnevalsInput : Option ψ) : Obj μ φ ψ :=
  ⟨model, intQ, backend, fnInput, fnevalsInput, none, none, 0⟩

/-- `_set_fn` (lines 279-302) -/
def setFn (env : Env μ φ ψ) (s : Obj μ φ ψ) (fn : Option φ) : Obj μ φ ψ :=
  match fn, s.intQ with
  | none, true => { s with fn := some (some (env.gen s.model)), evals := s.evals + 1 }
  | fn, _ => { s with fn := some fn }

/-- `_get_fn` (lines 272-277) -/
def getFn (env : Env μ φ ψ) (s : Obj μ φ ψ) : Option φ × Obj μ φ ψ :=
  match s.fn with
  | some v => (v, s)
  | none =>
    let s' := setFn env s s.fnInput
    (s'.fn.getD none, s')

/-- The lambdification of the value of `self.fn` (lines 337-357); None is not iterable. -/
def lambdifyFn (env : Env μ φ ψ) (b : Backend) : Option φ → Except PyErr ψ
  | none => .error .typeError
  | some f => env.lambdify b f

/-- `_set_fnevals` (lines 315-384).  For an unknown backend only a message is printed (lines 371-375). -/
def setFnevals (env : Env μ φ ψ) (s : Obj μ φ ψ) (fnevals : Option ψ) : Except PyErr Unit × Obj μ φ ψ :=
  match fnevals, s.intQ with
  | none, true =>
    match s.backend with
    | .other => (.ok (), s)
    | b =>
      let r := getFn env s
      match lambdifyFn env b r.1 with
      | .ok g => (.ok (), { r.2 with fnevals := some (some g) })
      | .error e => (.error e, r.2)
  | v, _ => (.ok (), { s with fnevals := some v })

/-- The second access `return self.__fnevals` (line 311) -/
def readAttr (s : Obj μ φ ψ) : Except PyErr (Option ψ) :=
  match s.fnevals with
  | some v => .ok v
  | none => .error .attributeError

/-- `_get_fnevals` (lines 306-311) -/
def getFnevals (env : Env μ φ ψ) (s : Obj μ φ ψ) : Except PyErr (Option ψ) × Obj μ φ ψ :=
  match s.fnevals with
  | some v => (.ok v, s)
  | none =>
    match setFnevals env s s.fnevalsInput with
    | (.ok _, s') => (readAttr s', s')
    | (.error e, s') => (.error e, s')

/-- `__getstate__` (lines 202-222): removes `_RT1__fn` from the object itself (the dict is not copied).  The attribute
`_fn_input` does not exist (it is called `fn_input`), so that the second loop has no effect.  The unpickled object has the
returned attributes. -/
def getstate (s : Obj μ φ ψ) : Obj μ φ ψ := { s with fn := none }

/-- What a user can do with the object. -/
inductive Op (μ φ ψ : Type)
  /-- `R.fn` -/
  | readFn
  /-- `R._fnevals` (by `R.interaction()`, `R.calc()`, …) -/
  | readFnevals
  /-- pickling the object -/
  | pickle
  /-- `R.V = …`, `R.SRF = …`, `R.geometry = …` -/
  | setModel (m : μ)
  /-- `R.int_Q = …` -/
  | setIntQ (b : Bool)
  /-- `R.fn = …` -/
  | assignFn (v : Option φ)
  /-- `R._fnevals = …` -/
  | assignFnevals (v : Option ψ)

/-- What is observed: a value of `fn`, a value of `_fnevals` (or an error), or nothing. -/
inductive Obs (φ ψ : Type)
  | fn (v : Option φ)
  | fnevals (v : Except PyErr (Option ψ))
  | unit (r : Except PyErr Unit)

def step (env : Env μ φ ψ) (s : Obj μ φ ψ) : Op μ φ ψ → Obs φ ψ × Obj μ φ ψ
  | .readFn => (.fn (getFn env s).1, (getFn env s).2)
  | .readFnevals => (.fnevals (getFnevals env s).1, (getFnevals env s).2)
  | .pickle => (.unit (.ok ()), getstate s)
  | .setModel m => (.unit (.ok ()), { s with model := m })
  | .setIntQ b => (.unit (.ok ()), { s with intQ := b })
  | .assignFn v => (.unit (.ok ()), setFn env s v)
  | .assignFnevals v => (.unit (setFnevals env s v).1, (setFnevals env s v).2)

/-- The observations of a sequence of operations. -/
def run (env : Env μ φ ψ) (s : Obj μ φ ψ) : List (Op μ φ ψ) → List (Obs φ ψ) × Obj μ φ ψ
  | [] => ([], s)
  | op :: l =>
    let r := step env s op
    let r' := run env r.2 l
    (r.1 :: r'.1, r'.2)

/-- `Fits.R` (`rt1/rtfits.py` lines 1337-1367): a new RT1-object; the functions are generated at the first access and stored
in the fit (`stored` is `_fnevals_input` of the fit), afterwards they are handed over and `fn_input` is set to 1 (`one`). -/
def fitR (env : Env μ φ ψ) (one : φ) (model : μ) (intQ : Bool) (backend : Backend) (stored : Option ψ) :
    Except PyErr (Obj μ φ ψ × Option ψ) :=
  let r : Obj μ φ ψ := mk model intQ backend none none
  match intQ, stored with
  | true, none =>
    match getFnevals env r with
    | (.ok g, r') => .ok (r', g)
    | (.error e, _) => .error e
  | true, some g => .ok ({ r with fnevalsInput := some g, fnInput := some one }, some g)
  | false, st => .ok (r, st)

end RT1.Lazy
