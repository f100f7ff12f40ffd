import Verif.Model.FitSpec

/-!
# Model of `Fits.performfit` (`rt1/rtfits.py` lines 2250-2393)

The composition of the parts of a fit: dynamics of the parameters, fit-groups, start values, boundaries, residuals, the call of
scipy's `least_squares` and the assignment of the result.  `least_squares` is a parameter; the jacobian handed over to it is modelled in
`Model/Grouping` (see C42) and has no influence on the values of the residuals.
-/

namespace RT1.PerformFit
open General Grouping FitSpec

/-- The definition of a parameter in `defdict`: is it fitted, its variability, its start value (with the column `<key>_start` of the
dataset) and its boundaries. -/
structure Param extends ParamDef where
  start : StartSpec
  startCol : Option (List ℝ)
  bounds : List ℝ × List ℝ

/-- The dataset: everything that is given for the observations (incidence angle and values of the auxiliary parameters), the measurements
and the optional column `data_weights`. -/
structure Data (β : Type) where
  inc : List β
  sig : List ℝ
  weights : Option (List ℝ)

/-- `least_squares(fun, startvals, bounds=bounds, …).x` -/
abbrev Solver := (List ℝ → Except PyErr (List ℝ)) → List ℝ → List ℝ → List ℝ → Except PyErr (List ℝ)

/-- What is evaluated before the call of the solver (lines 2278-2357): the dynamics of the fitted parameters, `_groupindex`, `_order`,
`splitpos`, the start values and the boundaries. -/
structure Setup where
  dyns : Dict String (List Int)
  gi : List Int
  order : List String
  splitpos : List Nat
  start : List ℝ
  bounds : List ℝ × List ℝ

/-- `param_dyn_df.nunique()[key]` (line 2301) -/
def nunique (dyns : Dict String (List Int)) (gi : List Int) (key : String) : Except PyErr Nat := do
  let dyn ← Dict.getItem dyns key
  return (dynDf gi dyn).dedup.length

/-- The start values of one parameter (`_startvaldict`, lines 1109-1165). -/
noncomputable def startOf (dyns : Dict String (List Int)) (gi : List Int) (kd : String × Param) : Except PyErr StartVal := do
  let dyn ← Dict.getItem dyns kd.1
  startvals gi dyn (decide (kd.2.freq = .str indexStr)) kd.2.startCol kd.2.start

/-- The boundaries of one parameter (`_boundsvaldict`, lines 1167-1185). -/
def boundsOf (dyns : Dict String (List Int)) (gi : List Int) (kd : String × Param) : Except PyErr (List ℝ × List ℝ) := do
  let n ← nunique dyns gi kd.1
  return boundVals n kd.2.bounds

/-- The set-up of the fit (lines 2278-2357). -/
noncomputable def setup {τ : Type} [DecidableEq τ] (lib : Lib τ) (index : List τ) (defs : List (String × Param)) :
    Except PyErr Setup := do
  let dyns ← paramDynDict lib index (defs.map fun kd => (kd.1, kd.2.toParamDef))
  let gi ← groupIndex (dyns.map Prod.snd)
  let fitted := defs.filter fun kd => kd.2.fit
  let splitpos ← fitted.mapM fun kd => nunique dyns gi kd.1
  let bounds ← fitted.mapM (boundsOf dyns gi)
  let start ← fitted.mapM (startOf dyns gi)
  return ⟨dyns, gi, fitted.map Prod.fst, splitpos, packStart start, packBounds bounds⟩

/-- `fun(params)` (lines 2315-2343): the residuals for a vector of parameters.  `x0` is the uninitialised array used by `_assignvals`. -/
noncomputable def resid {β : Type} (F : β → List ℝ → ℝ) (data : Data β) (x0 : List ℝ) (s : Setup) (x : List ℝ) :
    Except PyErr (List ℝ) := do
  let params ← (unpack s.order s.splitpos x).mapM fun kv => do
    let dyn ← Dict.getItem s.dyns kv.1
    return (dyn, kv.2)
  residuals F s.gi data.inc data.sig data.weights x0 params

/-- `performfit` (lines 2250-2393): the resulting `res_dict`. -/
noncomputable def performfit {τ β : Type} [DecidableEq τ] (solver : Solver) (lib : Lib τ) (F : β → List ℝ → ℝ) (index : List τ)
    (data : Data β) (x0 : List ℝ) (defs : List (String × Param)) : Except PyErr (List (String × List ℝ)) := do
  let s ← setup lib index defs
  let x ← solver (resid F data x0 s) s.start s.bounds.1 s.bounds.2
  return unpack s.order s.splitpos x

end RT1.PerformFit
