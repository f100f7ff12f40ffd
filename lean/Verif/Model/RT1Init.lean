import Verif.Model.General
import Mathlib.Data.Real.Basic

/-!
# Model of the checks of `RT1.__init__`

`rt1/rt1.py` lines 142-200 (the assigned attributes are those of `Model/RT1`).  Not modelled: numpy arrays of objects, complex numbers, and the
types of `I0`, `bsf`, `param_dict` and the angles, which are not checked.
-/

namespace RT1.Init
open General

/-- A value of `V.omega`, `V.tau` or `SRF.NormBRDF`: None, a sympy expression (with its value if it is a constant), a number, an array (also `pandas.Series`), a list or tuple.  A
missing number is nan. -/
inductive Val
  | none
  | symbolic (c : Option ℝ)
  | scalar (x : Option ℝ)
  | array (xs : List (Option ℝ))
  | plain (xs : List (Option ℝ))

/-- `x >= 0.0` for a number (lines 190, 194, 198); False for nan. -/
noncomputable def nonneg : Option ℝ → Bool
  | some x => decide (0 ≤ x)
  | none => false

/-- `if not isinstance(v, sp.Basic): assert np.any(v >= 0.0)` (`rt1/rt1.py` lines 189-192, 193-196, 197-200); None and lists cannot be compared
with a number. -/
noncomputable def check : Val → Except PyErr Unit
  | .symbolic _ => .ok ()
  | .scalar x => if nonneg x then .ok () else .error .assertionError
  | .array xs => if xs.any nonneg then .ok () else .error .assertionError
  | .none => .error .typeError
  | .plain _ => .error .typeError

/-- `assert v is not None` (`rt1/rt1.py` lines 179-182). -/
def given : Val → Except PyErr Unit
  | .none => .error .assertionError
  | _ => .ok ()

/-- The checked arguments of `RT1` (`rt1/rt1.py` lines 124-141): `geometry` (missing if it is no string), `V` (its `omega` and `tau`), `SRF` (its
`NormBRDF`). -/
structure Args where
  geometry : Option (List Char)
  V : Option (Val × Val)
  SRF : Option Val

/-- The first checks (`rt1/rt1.py` lines 142-145): a string of four characters. -/
def checkGeometry : Option (List Char) → Except PyErr Unit
  | none => .error .assertionError
  | some g => if g.length = 4 then .ok () else .error .assertionError

/-- The checks of `RT1.__init__` in their order (`rt1/rt1.py` lines 142-200). -/
noncomputable def create (a : Args) : Except PyErr Unit :=
  match checkGeometry a.geometry, a.V, a.SRF with
  | .error e, _, _ => .error e
  | .ok _, none, _ => .error .assertionError
  | .ok _, some _, none => .error .assertionError
  | .ok _, some v, some norm => do
    given v.1
    given v.2
    check v.1
    check v.2
    check norm

end RT1.Init
