import Verif.Model.Interp
import Verif.Model.Plots

/-!
# Model of the intermediate results of a fit

Modelled: the lists that are recorded by `performfit(intermediate_results=True)` (`rt1/rtfits.py` lines 1947-1948, 2293-2341), and the values that
are shown by `plot.intermediate_residuals` and `plot.intermediate_results` (`rt1/rtplots.py` lines 1222-1463, 2860-3194).
Not modelled: the appearance of the figures (2D or 3D surface, colors, ticks, contours), the positions of the axes.
-/

namespace RT1.Intermediate
open General Grouping Plots

/-! ## recording -/

/-- `fit.intermediate_results` -/
structure Record (P R J : Type) where
  parameters : List P
  residuals : List R
  jacobian : List J

/-- What `least_squares` calls: the residuals (for some values of the parameters), and the jacobian. -/
inductive Call (P R J : Type)
  | eval (p : P) (r : R)
  | jac (j : J)

section
variable {P R J : Type}

/-- One call of `fun` (lines 2335-2341) or `_calc_jac` (lines 1947-1948); the attribute is missing if it is `none`. -/
def record (keep : Bool) : Option (Record P R J) → Call P R J → Option (Record P R J)
  | some s, .eval p r => some (if keep then { s with parameters := s.parameters ++ [p], residuals := s.residuals ++ [r] } else s)
  | none, .eval _ _ => none
  | some s, .jac j => some { s with jacobian := s.jacobian ++ [j] }
  | none, .jac _ => none

/-- `performfit(intermediate_results=keep)` (lines 2292-2298): the calls are chosen by `least_squares`. -/
def performFit (s : Option (Record P R J)) (f : Bool × List (Call P R J)) : Option (Record P R J) :=
  f.2.foldl (record f.1) (if f.1 then some ⟨[], [], []⟩ else s)

/-- Several fits with the same object. -/
def performFits (s : Option (Record P R J)) (fs : List (Bool × List (Call P R J))) : Option (Record P R J) := fs.foldl performFit s
end

/-! ## intermediate_residuals -/

/-- `iter_slice` (a step of 0 is not allowed; negative numbers are not modelled). -/
structure Slice where
  start : Nat
  stop : Option Nat
  step : Nat

/-- `l[iter_slice]` -/
def Slice.apply {α : Type} (s : Slice) (l : List α) : List α :=
  let l' := (match s.stop with
    | some n => l.take n
    | none => l).drop s.start
  (l'.zipIdx.filter fun x => x.2 % s.step = 0).map Prod.fst

/-- The argument `err` -/
inductive Err
  | abs
  | rel

variable {ι κ γ : Type} [DecidableEq ι] [DecidableEq κ] [DecidableEq γ]

/-- `data_weights` (`rt1/rtfits.py` lines 966-977); `none` is the number 1. -/
def weightArr (gi : List κ) (data : List (List ℝ)) : Option (List ℝ) → Except PyErr (List (List ℝ))
  | none => .ok (data.map fun r => r.map fun _ => (1 : ℝ))
  | some w => (getData gi w).map Prod.fst

/-- `errdict` of one evaluation (`rt1/rtfits.py` lines 2333-2340): `model` are the model-values of the observations. -/
noncomputable def errDict (gi : List κ) (sig : List ℝ) (w : Option (List ℝ)) (model : List ℝ) : Except PyErr (List ℝ × List ℝ) := do
  let (data, mask) ← getData gi sig
  let (tot, _) ← getData gi model
  let ws ← weightArr gi data w
  let errs := unmask (map2 (fun w e => w * e) ws (map2 (fun t d => t - d) tot data)) mask
  return (errs, List.zipWith (fun e d => e / d) errs (unmask data mask))

/-- `i[err]` -/
def Err.get : Err → List ℝ × List ℝ → List ℝ
  | .abs, e => e.1
  | .rel, e => e.2

/-- `np.abs(pd.DataFrame(errs, fit.dataset.index).groupby(...).mean())` for one evaluation: the labels of the rows (`none`: in no group) and the
groups in the order of the result; masked values are `none`. -/
noncomputable def groupMeans (labels : List (Option γ)) (cats : List γ) (errs : List ℝ) : List (Option ℝ) :=
  cats.map fun c => (Metrics.mean (((labels.zip errs).filter fun x => decide (x.1 = some c)).map Prod.snd)).map abs

/-- The figure: the numbers of the iterations, the labels of the groups and the values (for each iteration). -/
structure Figure (ι : Type) where
  iterations : List Nat
  labels : List ι
  values : List (List (Option ℝ))

/-- Lines 3058-3060: `xvals`, and the values of the selected iterations. -/
noncomputable def figure (err : Err) (sl : Slice) (labels : List (Option γ)) (cats : List γ) (shown : List ι) (recs : List (List ℝ × List ℝ)) : Figure ι :=
  ⟨sl.apply ((List.range recs.length).map (· + 1)), shown, (sl.apply recs).map fun r => groupMeans labels cats (err.get r)⟩

/-- The sorted groups of `DataFrame.groupby`. -/
def sortedKeys (le : γ → γ → Bool) (l : List γ) : List γ := (distinct l).mergeSort le

/-- `grp="groups"` (lines 2984-3006): the labels are `fit.meandatetimes_group`. -/
noncomputable def plotGroups (err : Err) (sl : Slice) (index : List ℝ) (gi : List Int) (sig : List ℝ) (w : Option (List ℝ))
    (models : List (List ℝ)) : Except PyErr (Figure ℝ) := do
  let recs ← models.mapM (errDict gi sig w)
  let shown ← Interp.meandatetimesGroup index gi
  return figure err sl (gi.map some) (sortedKeys (fun a b => decide (a ≤ b)) gi) shown recs

/-- `grp="dataset"` (lines 3007-3029): the labels are `fit.index`. -/
noncomputable def plotDataset [LinearOrder ι] (err : Err) (sl : Slice) (index : List ι) (gi : List κ) (sig : List ℝ) (w : Option (List ℝ))
    (models : List (List ℝ)) : Except PyErr (Figure ι) := do
  let recs ← models.mapM (errDict gi sig w)
  return figure err sl (index.map some) (sortedKeys (fun a b => decide (a ≤ b)) index) (fitIndex gi index) recs

/-- All other groupings (lines 2953-2982, 3030-3056): `bins` are the bins of the rows of the dataset (by `pd.Grouper(freq=grp)` or
`pd.cut(values, ...)`) and the list of all bins; `none` if the name of the column is unknown (then `grps` is not assigned). -/
noncomputable def plotBins (err : Err) (sl : Slice) (bins : Option (List (Option γ) × List γ)) (gi : List κ) (sig : List ℝ) (w : Option (List ℝ))
    (models : List (List ℝ)) : Except PyErr (Figure γ) :=
  match bins with
  | none => .error .unboundLocalError
  | some b => do
    let recs ← models.mapM (errDict gi sig w)
    return figure err sl b.1 b.2 b.2 recs

/-! ## intermediate_results -/

/-- `np.mean(val[0])` (`rt1/rtplots.py` lines 1280-1283) -/
def firstVal : List ℝ → Except PyErr ℝ
  | [] => .error .indexError
  | v :: _ => .ok v

/-- The curve of a parameter (lines 1278-1283, 1394-1402): the number of the evaluation (from 0) and the value. -/
def paramCurve (key : String) (recs : List (List (String × List ℝ))) : Except PyErr (List (Nat × ℝ)) :=
  (recs.zipIdx.filterMap fun d => (d.1.lookup key).map fun v => (d.2, v)).mapM fun x => (firstVal x.2).map fun v => (x.1, v)

/-- The parameters with a panel (lines 1330-1333, 1394-1396): there are as many panels as keys in the jacobian-dicts. -/
def panels (paramKeys jacKeys : List String) : List String :=
  ((List.replicate jacKeys.length ()).zip paramKeys).filterMap fun x => if x.2 ∈ jacKeys then some x.2 else none

end RT1.Intermediate
