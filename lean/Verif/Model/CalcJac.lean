import Verif.Model.PerformFit
import Verif.Model.FitEval
import Verif.Model.RT1

/-!
# Model of the jacobian of a fit: `dfun` of `Fits.performfit` and `Fits._calc_jac` (`rt1/rtfits.py` lines 2345-2355, 1793-1965)

The assignment of the derivatives to the columns (`_jac_assign_rule`, the sparse matrices, the mask) is `Grouping.jacobian`; here it is
composed with the determination of the outer derivatives (`neworder`, `R.jacobian`), with the inner derivatives of the expressions that
are used for tau, omega and NormBRDF and with the vector of parameters of the solver.

Simplified: at least one parameter is fitted; no interpolated parameters (`interp_vals`); the exceptions are raised in the order used
below.
-/

namespace RT1.CalcJac
open General Grouping FitSpec PerformFit FitEval Rad

/-- One of `V.tau`, `V.omega`, `SRF.NormBRDF` as it is used by `_calc_jac`: its name, its symbols (`_tau_symb`, `_omega_symb`, `_N_symb`,
`rt1/rtfits.py` lines 1369-1384) and its derivatives with respect to the symbols (the arguments of `_tau_diff_func`, …, lines 1397-1405).
`mixed` is the outcome if a derivative depends on fitted and on auxiliary symbols: then python lists (fitted values) and rectangular
arrays are combined by the lambdified function, which depends on the way sympy prints the expression; not modelled. -/
structure PropDef where
  name : String
  symbs : List String
  diff : String → Expr
  mixed : String → Except PyErr (List ℝ)

/-- The model used in a fit: `props` are tau, omega and NormBRDF (in this order), `fixed` are the values of `fixed_dict` for an
observation, and `rjac name` is the outer derivative `R.jacobian(..., param_list=[name])` as a function of the observation and the values
of the fitted parameters; an AssertionError is raised for unknown names (`rt1/rt1.py` lines 1662-1703). -/
structure JModel (β : Type) where
  props : List PropDef
  fixed : β → Dict String ℝ
  rjac : String → Except PyErr (β → List ℝ → ℝ)

/-- `neworder[neworder.index(i)] = name` -/
def replaceAt (name : String) (l : List String) (i : String) : Except PyErr (List String) :=
  if i ∈ l then .ok (l.set (l.idxOf i) name) else .error .valueError

/-- `neworder` (`rt1/rtfits.py` lines 1843-1857).  `param_dyn_dict` has the same keys as `order`.  Simplified: the symbols are
replaced in the order of the parameters (the iteration order of a set is not specified). -/
def neworder (order : List String) (props : List PropDef) : Except PyErr (List String) :=
  props.foldlM (fun l r => (order.filter fun k => decide (k ∈ r.symbs)).foldlM (replaceAt r.name) l) order

/-- `df_dx` (`rt1/rtfits.py` lines 1891-1907, 1917-1925, 1934-1942): the inner derivative of one of tau, omega, NormBRDF for all
positions of the rectangular arrays.  A derivative without symbols is a scalar; `fixed_dict` contains rectangular arrays; `res_dict`
contains the *unassigned* values, i.e. one python list for each parameter (`split_into`, `rt1/general_functions.py` lines 195-208): the
outcome is an exception of the list arithmetics, or a one-dimensional list/array, which raises the TypeError of `chain(*df_dx)`. -/
noncomputable def innerVals {β : Type} (m : JModel β) (order : List String) (inc : List (List β)) (r : PropDef) (key : String) :
    Except PyErr (List ℝ) :=
  if (r.diff key).symbs = [] then ((r.diff key).eval .keyError []).map (List.replicate inc.flatten.length)
  else if ∀ s ∈ (r.diff key).symbs, s ∉ order then inc.flatten.mapM fun b => (r.diff key).eval .keyError (m.fixed b)
  else if ∀ s ∈ (r.diff key).symbs, s ∈ order then .error .typeError
  else r.mixed key

/-- `outer * inner` for one of tau, omega, NormBRDF, if the key is one of its symbols. -/
noncomputable def innerStep {β : Type} (m : JModel β) (order : List String) (inc : List (List β)) (key : String) (acc : List ℝ)
    (r : PropDef) : Except PyErr (List ℝ) :=
  if key ∈ r.symbs then (innerVals m order inc r key).map (List.zipWith (· * ·) acc) else .ok acc

/-- All inner derivatives of a key (`rt1/rtfits.py` lines 1886-1948). -/
noncomputable def innerAll {β : Type} (m : JModel β) (order : List String) (inc : List (List β)) (key : String) :
    Except PyErr (List ℝ) :=
  m.props.foldlM (innerStep m order inc key) (List.replicate inc.flatten.length 1)

/-- `vstack([...]).transpose()` (`rt1/rtfits.py` lines 1960-1965): the columns of all parameters side by side. -/
def hstack (n : Nat) (ms : List (List (List ℝ))) : List (List ℝ) :=
  ms.foldr (List.zipWith (· ++ ·)) (List.replicate n [])

/-- The parameters with their dynamics and values, `newdict` of `dfun` (`rt1/rtfits.py` lines 2346-2352). -/
def paramsOf (s : Setup) (x : List ℝ) : Except PyErr (List (List Int × List ℝ)) :=
  (unpack s.order s.splitpos x).mapM fun kv => do
    let dyn ← Dict.getItem s.dyns kv.1
    return (dyn, kv.2)

/-- The outer derivatives with respect to `name`, flattened (`rt1/rtfits.py` lines 1862, 1873-1889). -/
noncomputable def outerVals {β : Type} (m : JModel β) (inc : List (List β)) (pars : List (List (List ℝ))) (name : String) :
    Except PyErr (List ℝ) := do
  let G ← m.rjac name
  return (calcModel G inc pars).flatten

/-- The columns of one parameter. -/
noncomputable def keyCols {β : Type} (m : JModel β) (s : Setup) (inc : List (List β)) (ko : String × List ℝ) :
    Except PyErr (List (List ℝ)) := do
  let inner ← innerAll m s.order inc ko.1
  let dyn ← Dict.getItem s.dyns ko.1
  jacobian s.gi dyn ko.2 inner

/-- `dfun(params)` (`rt1/rtfits.py` lines 2345-2355) with `_calc_jac` (lines 1793-1965): one row for each residual and one column for
each entry of the vector of parameters.  `data_weights` do not occur. -/
noncomputable def dfun {β : Type} (m : JModel β) (data : Data β) (x0 : List ℝ) (s : Setup) (x : List ℝ) :
    Except PyErr (List (List ℝ)) := do
  let params ← paramsOf s x
  let (inc, mask) ← getData s.gi data.inc
  let pars ← params.mapM fun p => assignVals s.gi x0 p.1 p.2
  let names ← neworder s.order m.props
  let outer ← names.mapM (outerVals m inc pars)
  let cols ← (s.order.zip outer).mapM (keyCols m s inc)
  return hstack (unmask inc mask).length cols

/-! ## the radiative transfer model as model of a fit -/

/-- An observation: the geometry and everything else that is independent of the parameters (`base`), and the values of the auxiliary
parameters. -/
structure Obs where
  base : Elem
  fixed : Dict String ℝ

/-- The definition of the model of a fit: tau, omega and NormBRDF as expressions (a number is an expression without symbols), their
derivatives (sympy), the names of the parameters of the phase functions (`R.param_dict`), and the unit. -/
structure RTDef where
  tau : Expr
  omega : Expr
  norm : Expr
  dtau : String → Expr
  domega : String → Expr
  dnorm : String → Expr
  keys : List String
  dB : Bool
  sig0 : Bool

/-- The value of an expression. -/
noncomputable def val (ρ : String → ℝ) : Expr → ℝ
  | .num x => x
  | .sym s => ρ s
  | .un f a => f (val ρ a)
  | .bin f a b => f (val ρ a) (val ρ b)

/-- The values of the symbols: fitted values (`res_dict`), auxiliary values (`fixed_dict`); see `_set_calc_values`, `rt1/rtfits.py` lines
1650-1713. -/
def symVal (order : List String) (b : Obs) (pv : List ℝ) (s : String) : ℝ :=
  (Dict.get? (order.zip pv ++ b.fixed) s).getD 0

/-- The scalar model of an observation after `_set_calc_values` (`rt1/rtfits.py` lines 1650-1713); see also `Model/FitEval`. -/
noncomputable def elemAt (R : RTDef) (order : List String) (b : Obs) (pv : List ℝ) : Elem :=
  { b.base with
    tau := val (symVal order b pv) R.tau
    omega := val (symVal order b pv) R.omega
    NormBRDF := val (symVal order b pv) R.norm
    bsf := if "bsf" ∈ order then symVal order b pv "bsf" else b.base.bsf
    env := symVal order b pv
    keys := R.keys }

/-- The entry of `R.jacobian` (`rt1/rt1.py` lines 1630-1703) as a number. -/
noncomputable def entry (R : RTDef) (o : Elem) (name : String) : ℝ :=
  match o.jacEntry R.dB R.sig0 name with
  | .ok v => v
  | .error _ => 0

/-- The outer derivatives for one name; the assertion does not depend on the observation. -/
noncomputable def rtJac (R : RTDef) (order : List String) (name : String) : Except PyErr (Obs → List ℝ → ℝ) :=
  if name ∈ ["omega", "tau", "NormBRDF", "bsf"] ∨ name ∈ R.keys then .ok fun b pv => entry R (elemAt R order b pv) name
  else .error .assertionError

/-- The radiative transfer model as it is used by `_calc_jac`. -/
noncomputable def rtModel (R : RTDef) (order : List String) (mixed : String → Except PyErr (List ℝ)) : JModel Obs where
  props := [⟨"tau", R.tau.symbs, R.dtau, mixed⟩, ⟨"omega", R.omega.symbs, R.domega, mixed⟩, ⟨"NormBRDF", R.norm.symbs, R.dnorm, mixed⟩]
  fixed := Obs.fixed
  rjac := rtJac R order

end RT1.CalcJac
