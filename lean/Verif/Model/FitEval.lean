import Verif.Model.Dict

/-!
# Model of the evaluation of a fit

How the definitions of a fit (`defdict`, `set_V_SRF`) and the values of the parameters are turned into the values that are
used to evaluate the model: `Fits._setdict`, `fixed_dict`, `_init_V_SRF`, `_param_R_dict`, `_set_calc_values`, `calc`
(`rt1/rtfits.py`) and the positional call of `_fnevals` (`rt1/rt1.py`).

Everything is modelled for one observation, so that the value of a parameter is one number.  The distribution of the
fitted values to the observations (`_assignvals`) is modelled in `Model/Grouping`.
-/

namespace RT1
namespace FitEval

/-! ## sympy expressions -/

/-- A sympy expression with real functions of one and two arguments. -/
inductive Expr
  | num (x : ℝ)
  | sym (s : String)
  | un (f : ℝ → ℝ) (a : Expr)
  | bin (f : ℝ → ℝ → ℝ) (a b : Expr)

namespace Expr

/-- `[str(i) for i in e.free_symbols]` -/
def symbs : Expr → List String
  | num _ => []
  | sym s => [s]
  | un _ a => a.symbs
  | bin _ a b => a.symbs ++ b.symbs

/-- The lambdified expression called with the values of a dict; `err` is raised for a missing value. -/
noncomputable def eval (err : PyErr) (d : Dict String ℝ) : Expr → Except PyErr ℝ
  | num x => .ok x
  | sym s => match Dict.get? d s with
    | some x => .ok x
    | none => .error err
  | un f a => do return f (← a.eval err d)
  | bin f a b => do return f (← a.eval err d) (← b.eval err d)

end Expr

/-- The value of an attribute of a scattering function: a python number or a sympy expression. -/
inductive Built
  | num (x : ℝ)
  | expr (e : Expr)

namespace Expr

/-- `xreplace` inside of an expression: numbers become sympy numbers. -/
def inner (σ : String → Option Built) : Expr → Expr
  | num x => num x
  | sym s => match σ s with
    | none => sym s
    | some (.num x) => num x
    | some (.expr e) => e
  | un f a => un f (a.inner σ)
  | bin f a b => bin f (a.inner σ) (b.inner σ)

/-- `e.xreplace(replacements)`: for a symbol, the replacement itself is returned (also if it is a python number). -/
def xreplace (σ : String → Option Built) : Expr → Built
  | sym s => (σ s).getD (.expr (sym s))
  | e => .expr (e.inner σ)

end Expr

/-! ## definitions -/

/-- The second entry of a definition: a number (`int` or `float`), `"auxiliary"`, or anything else (arrays, DataFrames, numpy
integers, …). -/
inductive DefVal
  | number (x : ℝ)
  | auxiliary
  | other

/-- A definition of `defdict`, as far as it is used here.  Simplified: the first entry is a bool. -/
structure Def where
  fit : Bool
  val : DefVal

/-- `_setdict` (`rt1/rtfits.py` lines 1050-1073): fitted parameters are symbols, numbers are used as they are, anything else
is a symbol. -/
def setdict (defs : Dict String Def) : Dict String Built :=
  defs.map fun kd => (kd.1, if kd.2.fit then .expr (.sym kd.1) else match kd.2.val with
    | .number x => .num x
    | _ => .expr (.sym kd.1))

/-- The keys of `_startvaldict` (`rt1/rtfits.py` lines 1110-1121), which are also `_order` (lines 979-987). -/
def fitKeys (defs : Dict String Def) : List String :=
  (defs.filter fun kd => kd.2.fit).map Prod.fst

/-- `isinstance(val, str) and val == "auxiliary"` -/
def DefVal.isAux : DefVal → Bool
  | .auxiliary => true
  | _ => false

/-- The loop of `fixed_dict` over `_fixed_dict` (`rt1/rtfits.py` lines 1076-1107): the values of the auxiliary parameters,
taken from the columns of the dataset; AssertionError if a column is missing.  All other fixed values are ignored. -/
def fixedDict (dataset : Dict String ℝ) : Dict String Def → Except PyErr (Dict String ℝ)
  | [] => .ok []
  | kd :: defs =>
    if !kd.2.fit && kd.2.val.isAux then
      match Dict.get? dataset kd.1 with
      | some x => (fixedDict dataset defs).map fun d => (kd.1, x) :: d
      | none => .error .assertionError
    else fixedDict dataset defs

/-! ## `_init_V_SRF` -/

/-- A value in the specification of a scattering function: a number, a string, or an unhashable object (e.g. an array). -/
inductive PropVal
  | num (x : ℝ)
  | str (s : String)
  | unhashable

/-- The specification of a scattering function without `"V_name"`, `"SRF_name"`, `"a"`: the entries and, for a linear
combination, the fractions and the specifications of the components (`"Vchoices"`, `"SRFchoices"`).  Simplified: the components
are no linear combinations (those raise an exception, see C17). -/
structure Spec where
  entries : Dict String PropVal
  choices : List (PropVal × Dict String PropVal) := []

/-- `ignore_keys` (`rt1/rtfits.py` line 2171). -/
def ignoreKeys : List String := ["omega", "tau", "NormBRDF", "bsf"]

/-- `isinstance(x, sp.Symbol)`, with the name of the symbol. -/
def Built.symbol? : Built → Option String
  | .expr (.sym s) => some s
  | _ => none

/-- `checkval(key, val)` (`rt1/rtfits.py` lines 2186-2214): the value and the symbols added to `free_symbols`.  `ignore` is
`key in ignore_keys`, `sympify` is `sp.sympify(val, _clash, evaluate=False)`.  `val in setdict` raises TypeError for unhashable
objects. A symbol that is replaced by a python number has no attribute `free_symbols` (line 2213). -/
def checkval (sympify : String → Except PyErr Expr) (sd : Dict String Built) (ignore : Bool) :
    PropVal → Except PyErr (Built × List String)
  | .unhashable => .error .typeError
  | .num x => .ok (.num x, [])
  | .str s => match Dict.get? sd s with
    | some b => .ok (b, if ignore then [] else b.symbol?.toList)
    | none => do
      let e ← sympify s
      match e.xreplace (Dict.get? sd) with
      | .num x => if ignore then return (.num x, []) else throw .attributeError
      | .expr e' => return (.expr e', if ignore then [] else e'.symbs)

/-- The loop over the entries (`rt1/rtfits.py` lines 2229-2237). -/
def buildEntries (sympify : String → Except PyErr Expr) (sd : Dict String Built) :
    Dict String PropVal → Except PyErr (Dict String Built × List String)
  | [] => .ok ([], [])
  | kv :: l => do
    let (b, s) ← checkval sympify sd (decide (kv.1 ∈ ignoreKeys)) kv.2
    let (d, t) ← buildEntries sympify sd l
    return ((kv.1, b) :: d, s ++ t)

/-- A scattering function: its attributes, the fractions and components of a linear combination, and the attribute
`free_symbols`. -/
structure Scatter where
  vals : Dict String Built
  choices : List (Built × Dict String Built)
  symbs : List String

/-- `key in ignore_keys` for the fraction of a component, which is used as its own key (`rt1/rtfits.py` line 2223). -/
def choiceIgnored : PropVal → Bool
  | .str s => decide (s ∈ ignoreKeys)
  | _ => false

/-- The loop over the components of a linear combination (`rt1/rtfits.py` lines 2217-2227): the value of the fraction is also
used as its key (line 2223), and the component is initialized without `setdict` (line 2225); its free symbols are not used. -/
def buildChoices (sympify : String → Except PyErr Expr) (sd : Dict String Built) :
    List (PropVal × Dict String PropVal) → Except PyErr (List (Built × Dict String Built) × List String)
  | [] => .ok ([], [])
  | c :: l => do
    let (b, s) ← checkval sympify sd (choiceIgnored c.1) c.1
    let (d, _) ← buildEntries sympify [] c.2
    let (cs, t) ← buildChoices sympify sd l
    return ((b, d) :: cs, s ++ t)

/-- `_init_V_SRF(props, setdict)` (`rt1/rtfits.py` lines 2140-2248) for a specification with exactly one of the keys `"V_name"`
and `"SRF_name"`. -/
def initScatter (sympify : String → Except PyErr Expr) (sd : Dict String Built) (p : Spec) : Except PyErr Scatter := do
  let (cs, s) ← buildChoices sympify sd p.choices
  let (vals, t) ← buildEntries sympify sd p.entries
  return { vals := vals, choices := cs, symbs := s ++ t }

/-! ## parameters of the RT1 object -/

/-- `_get_V_SRF_symbs` (`rt1/rtfits.py` lines 1368-1374): the symbols of an attribute (none for python numbers and None). -/
def propSymbs (s : Scatter) (key : String) : List String :=
  match Dict.get? s.vals key with
  | some (.expr e) => e.symbs
  | _ => []

/-- `toNlist` (`rt1/rtfits.py` lines 1284, 1636, 2096) -/
def toN (V SRF : Scatter) : List String :=
  propSymbs V "tau" ++ propSymbs V "omega" ++ propSymbs SRF "NormBRDF"

/-- `angset` (`rt1/rtfits.py` lines 1288, 1631) -/
def angset : List String := ["phi_ex", "phi_0", "theta_0", "theta_ex"]

/-- `vsymb` and `srfsymb` (`rt1/rtfits.py` lines 1289-1290, 1632-1633). -/
def phaseSymbs (s : Scatter) : List String := s.symbs.filter fun x => decide (x ∉ angset)

/-- `_get_excludesymbs` (`rt1/rtfits.py` lines 1625-1649) -/
def excluded (V SRF : Scatter) (k : String) : Bool :=
  decide (k ∈ ignoreKeys) || decide (k ∈ toN V SRF ∧ k ∉ phaseSymbs V ∧ k ∉ phaseSymbs SRF)

/-- The keys of `_param_R_dict` (`rt1/rtfits.py` lines 1274-1312): AssertionError if a symbol of a scattering function is
neither a fitted nor an auxiliary parameter (`^` is the symmetric difference). -/
def paramR (defs : Dict String Def) (fixed : Dict String ℝ) (V SRF : Scatter) : Except PyErr (List String) :=
  let sk := fitKeys defs
  let fk := fixed.keys
  if (phaseSymbs V ++ phaseSymbs SRF).all fun s =>
      (decide (s ∈ sk) && !decide (s ∈ fk)) || (!decide (s ∈ sk) && decide (s ∈ fk)) then
    .ok ((sk ++ fk).filter fun k => !excluded V SRF k)
  else .error .assertionError

/-! ## evaluation -/

/-- The values used to evaluate the model: `R.V.omega`, `R.V.tau`, `R.SRF.NormBRDF`, `R.bsf` (`none` if there is no number) and
`R.param_dict`. -/
structure RVals where
  omega : Option ℝ
  tau : Option ℝ
  norm : Option ℝ
  bsf : Option ℝ
  params : Dict String ℝ

/-- The value of a python number. -/
def Built.num? : Built → Option ℝ
  | .num x => some x
  | .expr _ => none

/-- The update of omega, tau or NormBRDF (`rt1/rtfits.py` lines 1661-1696): if the attribute is no expression, the value of the
parameter of the same name is used if there is one, otherwise the attribute stays as it is (`default` if it is not
specified); an expression is evaluated with `res_dict[key] if key in res_dict else fixed_dict[key]`. `res` contains the fixed
values already. -/
noncomputable def propVal (s : Scatter) (key : String) (default : Option ℝ) (res : Dict String ℝ) :
    Except PyErr (Option ℝ) :=
  match Dict.get? s.vals key with
  | some (.expr e) => (e.eval .keyError res).map some
  | some (.num x) => .ok (some ((Dict.get? res key).getD x))
  | none => .ok ((Dict.get? res key).or default)

/-- `_set_calc_values` (`rt1/rtfits.py` lines 1650-1713) after the values have been assigned to the observation; also lines
2044-2112 of `_calc_slope_curv`. -/
noncomputable def setCalcValues (defs : Dict String Def) (V SRF : Scatter) (res fixed : Dict String ℝ) : Except PyErr RVals := do
  let res := Dict.update res fixed
  let omega ← propVal V "omega" none res
  let tau ← propVal V "tau" none res
  let norm ← propVal SRF "NormBRDF" (some 1) res
  -- `R.bsf` is initialized with `_setdict.get("bsf", 0.0)` (`rt1/rtfits.py` line 1350)
  let bsf := (Dict.get? res "bsf").or (match Dict.get? (setdict defs) "bsf" with
    | some b => b.num?
    | none => some 0)
  return { omega := omega, tau := tau, norm := norm, bsf := bsf, params := res.filter fun kv => !excluded V SRF kv.1 }

/-- The value of a parameter of the phase function: numbers are part of the function, expressions are evaluated with
`R.param_dict` by keyword (`rt1/volume.py` lines 77-89, 117-139, `rt1/surface.py` likewise); a symbol without value is a
NameError. -/
noncomputable def phaseVal (b : Built) (params : Dict String ℝ) : Except PyErr ℝ :=
  match b with
  | .num x => .ok x
  | .expr e => e.eval .nameError params

/-- The value of a parameter in the fn-coefficients (`rt1/rt1.py` lines 315-360, 1255-1280): `_fnevals` is lambdified with the
keys of `_param_R_dict` and called with the values of `R.param_dict` by position; TypeError for a wrong number of values. -/
noncomputable def fnVal (b : Built) (keys : List String) (params : Dict String ℝ) : Except PyErr ℝ :=
  if keys.length ≠ params.length then .error .typeError
  else phaseVal b (keys.zip (params.map Prod.snd))

/-- The specification of a model: `defdict`, `set_V_SRF["V_props"]`, `set_V_SRF["SRF_props"]`. -/
structure Model where
  defs : Dict String Def
  V : Spec
  SRF : Spec

/-- What is evaluated for one observation. -/
structure Result where
  V : Scatter
  SRF : Scatter
  keys : List String
  vals : RVals

/-- `calc_model` for given values of the fitted parameters of one observation (`rt1/rtfits.py` lines 1314-1366, 1715-1792);
`fixed` is None or the fixed values given by the caller. -/
noncomputable def evaluate (sympify : String → Except PyErr Expr) (m : Model) (dataset res : Dict String ℝ)
    (fixed : Option (Dict String ℝ)) : Except PyErr Result := do
  let V ← initScatter sympify (setdict m.defs) m.V
  let SRF ← initScatter sympify (setdict m.defs) m.SRF
  let fd ← fixedDict dataset m.defs
  let keys ← paramR m.defs fd V SRF
  let vals ← setCalcValues m.defs V SRF res (fixed.getD fd)
  return { V := V, SRF := SRF, keys := keys, vals := vals }

end FitEval
end RT1
