import Verif.Model.FitEval

/-!
# Model of a function `set_V_SRF` and its conversion to a dict (`rt1/rtfits.py`, `rt1/volume.py`, `rt1/surface.py`)

A fit can be defined by a python function `set_V_SRF(**params)` that returns V and SRF.  To store the fit in a database the function
is called with the *names* of the parameters as strings, and the attributes of V and SRF are used as the specification
(`_get_V_SRF_dict`).  Both calls run the same python code, with different types of values.
-/

namespace RT1.SetFn
open FitEval

/-- The arithmetic operators. -/
inductive BinOp
  | add | sub | mul | div | pow
  deriving DecidableEq

noncomputable def BinOp.real : BinOp → ℝ → ℝ → ℝ
  | .add => (· + ·)
  | .sub => (· - ·)
  | .mul => (· * ·)
  | .div => (· / ·)
  | .pow => (· ^ ·)

/-- An expression in the body of the function. -/
inductive Term
  | var (name : String)
  | int (k : Int)
  | float (x : ℝ)
  | bin (op : BinOp) (a b : Term)

/-- An expression that does not use parameters. -/
def Term.const : Term → Bool
  | .var _ => false
  | .int _ | .float _ => true
  | .bin _ a b => a.const && b.const

/-! ## the function called with symbols and numbers -/

/-- Sympify a number. -/
def toExpr : Built → Expr
  | .num x => .num x
  | .expr e => e

/-- An operator applied to numbers and sympy expressions. -/
noncomputable def binBuilt (op : BinOp) : Built → Built → Built
  | .num x, .num y => .num (op.real x y)
  | a, b => .expr (.bin op.real (toExpr a) (toExpr b))

/-- The value of an expression if the function is called with `_setdict` (`Fits.V`, lines 1319-1320); a parameter that is not
given is a TypeError of the call. -/
noncomputable def evalSym (sd : Dict String Built) : Term → Except PyErr Built
  | .var n => match Dict.get? sd n with
    | some b => .ok b
    | none => .error .typeError
  | .int k => .ok (.num k)
  | .float x => .ok (.num x)
  | .bin op a b => do
    let x ← evalSym sd a
    let y ← evalSym sd b
    return binBuilt op x y

/-! ## the function called with strings -/

/-- The values that occur if the parameters are strings. -/
inductive SVal
  | str (s : String)
  | int (k : Int)
  | float (x : ℝ)

/-- The value of a number. -/
noncomputable def SVal.num? : SVal → Option ℝ
  | .str _ => none
  | .int k => some k
  | .float x => some x

/-- `k * s` -/
def repeatStr (k : Int) (s : String) : String := String.join (List.replicate k.toNat s)

/-- The operators for integers; simplified: the results of `/` and `**` are not distinguished from floats, and
exceptions of the arithmetics (division by 0), which are the same in both calls, are not modelled. -/
noncomputable def intOp (op : BinOp) (j k : Int) : SVal :=
  match op with
  | .add => .int (j + k)
  | .sub => .int (j - k)
  | .mul => .int (j * k)
  | op => .float (op.real j k)

/-- The operators of python for strings, integers and floats: strings can be concatenated and repeated, everything else is a TypeError. -/
noncomputable def binStr (op : BinOp) : SVal → SVal → Except PyErr SVal
  | .int j, .int k => .ok (intOp op j k)
  | .str a, .str b => if op = .add then .ok (.str (a ++ b)) else .error .typeError
  | .int k, .str s => if op = .mul then .ok (.str (repeatStr k s)) else .error .typeError
  | .str s, .int k => if op = .mul then .ok (.str (repeatStr k s)) else .error .typeError
  | .str _, .float _ | .float _, .str _ => .error .typeError
  | .float x, .float y => .ok (.float (op.real x y))
  | .int k, .float y => .ok (.float (op.real k y))
  | .float x, .int k => .ok (.float (op.real x k))

/-- The value of an expression if the function is called with the names of the parameters (`_get_V_SRF_dict`, line 2779). -/
noncomputable def evalStr (names : List String) : Term → Except PyErr SVal
  | .var n => if n ∈ names then .ok (.str n) else .error .typeError
  | .int k => .ok (.int k)
  | .float x => .ok (.float x)
  | .bin op a b => do
    let x ← evalStr names a
    let y ← evalStr names b
    binStr op x y

/-! ## classes -/

/-- How an attribute is set: None if it is not given (`omega`, `tau`), a number if it is not given (`NormBRDF`), required (`t`), or
required and positive (`ncoefs`). -/
inductive Dflt
  | pyNone
  | num (x : ℝ)
  | required
  | count

/-- A class of `volume.py` or `surface.py`: `_param_names` without `a`, with the way they are set (`Volume.__init__`,
`Surface.__init__`, …).  Linear combinations and `CosineLobe` are not modelled. -/
abbrev Cls := List (String × Dflt)

/-- `volume.HenyeyGreenstein`, `volume.HGRayleigh` (`volume.py` lines 683-698, 769-788) -/
def clsHG : Cls := [("tau", .pyNone), ("omega", .pyNone), ("ncoefs", .count), ("t", .required)]

/-- `volume.Rayleigh` (`volume.py` lines 616-619) -/
def clsRayleigh : Cls := [("tau", .pyNone), ("omega", .pyNone)]

/-- `surface.HenyeyGreenstein`, `surface.HG_nadirnorm` (`surface.py` lines 736-754, 802-820) -/
def clsSRF : Cls := [("t", .required), ("ncoefs", .count), ("NormBRDF", .num 1)]

/-- `surface.Isotropic` (`surface.py` lines 590-593) -/
def clsIsotropic : Cls := [("NormBRDF", .num 1)]

/-- The values with which an object is initialized: numbers, and the check `assert ncoefs > 0`. -/
structure Kind (α : Type) where
  num : ℝ → α
  positive : α → Except PyErr Unit

/-- The value of one attribute: the argument, or the default. -/
def attr {α : Type} (K : Kind α) : Option α → Dflt → Except PyErr (Option α)
  | some v, .count => do
    K.positive v
    return some v
  | some v, _ => .ok (some v)
  | none, .pyNone => .ok none
  | none, .num x => .ok (some (K.num x))
  | none, .required | none, .count => .error .assertionError

/-- `Cls(**args)`: the attributes of `_param_names` (`none` is python's None).  Simplified: exceptions are raised in the order of
`_param_names`. -/
def construct {α : Type} (K : Kind α) (args : Dict String α) : Cls → Except PyErr (Dict String (Option α))
  | [] => .ok []
  | (n, d) :: cls => do
    let v ← attr K (Dict.get? args n) d
    let r ← construct K args cls
    return (n, v) :: r

open Classical in
/-- `assert x > 0` -/
noncomputable def positiveNum (x : ℝ) : Except PyErr Unit := if x > 0 then .ok () else .error .assertionError

/-- Objects initialized with numbers and sympy expressions; the truth value of a relation of symbols is a TypeError. -/
noncomputable def kindBuilt : Kind Built where
  num := .num
  positive
    | .num x => positiveNum x
    | .expr _ => .error .typeError

/-- Objects initialized with strings and numbers; strings cannot be compared with numbers. -/
noncomputable def kindStr : Kind SVal where
  num := .float
  positive
    | .str _ => .error .typeError
    | .int k => positiveNum k
    | .float x => positiveNum x

/-- The arguments of the constructor in the function. -/
abbrev Args := Dict String Term

/-- Evaluate all arguments. -/
def evalArgs {α : Type} (ev : Term → Except PyErr α) : Args → Except PyErr (Dict String α)
  | [] => .ok []
  | (n, t) :: l => do
    let v ← ev t
    let r ← evalArgs ev l
    return (n, v) :: r

/-- `Fits.V` or `Fits.SRF` for a function (lines 1319-1320, 1331-1332): the attributes of the object. -/
noncomputable def direct (sd : Dict String Built) (cls : Cls) (args : Args) : Except PyErr (Dict String (Option Built)) := do
  construct kindBuilt (← evalArgs (evalSym sd) args) cls

/-! ## storing and loading -/

/-- `init_dict` (`volume.py` lines 62-71, `surface.py` lines 64-73) of the object obtained with strings, i.e. the props in the database. -/
noncomputable def stored (names : List String) (cls : Cls) (args : Args) : Except PyErr (Dict String (Option SVal)) := do
  construct kindStr (← evalArgs (evalStr names) args) cls

/-- `_get_V_SRF_dict` (lines 2772-2782): a TypeError is logged and None is returned. -/
noncomputable def getVSRFDict (names : List String) (clsV : Cls) (argsV : Args) (clsS : Cls) (argsS : Args) :
    Except PyErr (Option (Dict String (Option SVal) × Dict String (Option SVal))) :=
  match stored names clsV argsV, stored names clsS argsS with
  | .ok v, .ok s => .ok (some (v, s))
  | .error .typeError, _ => .ok none
  | .error e, _ => .error e
  | .ok _, .error .typeError => .ok none
  | .ok _, .error e => .error e

/-- The value in the specification, as it is passed to `checkval`. -/
noncomputable def toProp : SVal → PropVal
  | .str s => .str s
  | .int k => .num k
  | .float x => .num x

/-- The loop of `_init_V_SRF` (lines 2229-2237) over the stored props: `sp.sympify(None)` is None, which has no attribute `free_symbols`. -/
noncomputable def rebuild (sympify : String → Except PyErr Expr) (sd : Dict String Built) : Dict String (Option SVal) → Except PyErr (Dict String Built)
  | [] => .ok []
  | (_, none) :: _ => .error .attributeError
  | (n, some v) :: l => do
    let (b, _) ← checkval sympify sd (decide (n ∈ ignoreKeys)) (toProp v)
    let r ← rebuild sympify sd l
    return (n, b) :: r

/-- `Fits.V` of the loaded fit (lines 1319-1323): with `set_V_SRF = None` no branch is taken and V is unbound. -/
noncomputable def loadedV (sympify : String → Except PyErr Expr) (sd : Dict String Built) :
    Option (Dict String (Option SVal) × Dict String (Option SVal)) → Except PyErr (Dict String Built)
  | none => .error .unboundLocalError
  | some p => rebuild sympify sd p.1

/-- `Fits.SRF` of the loaded fit (lines 1331-1335) -/
noncomputable def loadedSRF (sympify : String → Except PyErr Expr) (sd : Dict String Built) :
    Option (Dict String (Option SVal) × Dict String (Option SVal)) → Except PyErr (Dict String Built)
  | none => .error .unboundLocalError
  | some p => rebuild sympify sd p.2

end RT1.SetFn
