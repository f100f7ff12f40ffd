import Verif.Model.Plots

/-!
# Model of `plot.results` and `plot.single_results`

Modelled: the lines, points, labels and boxes of the figures of `rt1/rtplots.py` lines 932-1220.
Not modelled: colors, legends (except for the condition of lines 996-1000), titles, hexbins, the curves of the parameters (`res_df`, see C39).
Note that `fit.fit_index` (lines 986, 1103) is no attribute of `Fits`: the `try` statement of lines 985-990 always ends in the handler.
-/

namespace RT1.ResultPlots
open General Grouping Plots

variable {ι κ : Type} [DecidableEq ι] [DecidableEq κ]

/-- `A[i]`; negative numbers are not modelled. -/
def row {α : Type} (A : List α) (i : Nat) : Except PyErr α :=
  match A[i]? with
  | some r => .ok r
  | none => .error .indexError

/-- One line with its points (masked points are `none`) and its label. -/
structure Line where
  x : List ℝ
  y : List ℝ
  points : List (Option ℝ)
  label : Nat

/-- The contents of the figure of `plot.results`. -/
structure Figure (ι : Type) where
  lines : List Line
  /-- the results of the start-values (lines 1003-1017) -/
  start : List (List ℝ × List ℝ)
  legend : Bool
  /-- position and text of the boxes (lines 1041-1048) -/
  boxes : List (ι × Nat)

/-- Lines 972-973: `none` is "all". -/
def selection (n : Nat) : Option (List Nat) → List Nat
  | none => List.range n
  | some s => s

/-- Lines 992-994: the labels are the numbers of the selection (line 990). -/
def line (inc est : List (List ℝ)) (data : List (List (Option ℝ))) (sel : List Nat) (i : Nat) : Except PyErr Line := do
  let x ← row inc i
  let y ← row est i
  let l ← row sel i
  let d ← row data i
  return ⟨x, y, d, l⟩

/-- Lines 1004-1017: `startplot[result_selection]` and `fit.inc[result_selection[i]]`. -/
def startLines (inc est : List (List ℝ)) (sel : List Nat) : Except PyErr (List (List ℝ × List ℝ)) := do
  let vals ← sel.mapM (row est)
  let xs ← (List.range vals.length).mapM fun i => do row inc (← row sel i)
  return xs.zip vals

/-- Lines 1041-1048: `fit.index[resid]` is the element of `Fits.index`. -/
def boxes (n : Nat) (labels : List ι) (sel : List Nat) : Except PyErr (List (ι × Nat)) :=
  if sel.length < n then sel.mapM fun r => (row labels r).map fun t => (t, r) else .ok []

/-- `startvals=True`: the model-values of the observations for the start-values. -/
def startPart (gi : List κ) (inc : List (List ℝ)) (sel : List Nat) : Option (List ℝ) → Except PyErr (List (List ℝ × List ℝ))
  | none => .ok []
  | some start => do
    let (est, _) ← getData gi start
    startLines inc est sel

/-- `plot.results` (`rt1/rtplots.py` lines 969-1052): `model` are the model-values of the observations. -/
def results (sel : Option (List Nat)) (legend : Bool) (start : Option (List ℝ)) (gi : List κ) (index : List ι) (inc sig model : List ℝ) :
    Except PyErr (Figure ι) := do
  let (data, mask) ← getData gi sig
  let (inc0, _) ← getData gi inc
  let (est, _) ← getData gi model
  let s := selection data.length sel
  let lines ← s.mapM (line inc0 est (masked data mask) s)
  let st ← startPart gi inc0 s start
  let b ← boxes data.length (fitIndex gi index) s
  return ⟨lines, st, legend && decide (s.length ≤ 20), b⟩

/-! ## single_results -/

/-- Lines 1097-1113: the numbers of the measurements; `fit.fit_index` raises AttributeError. -/
def numbers : Option (List Nat) → Option (List ι) → Except PyErr (List Nat)
  | some _, some _ => .error .assertionError
  | none, some _ => .error .attributeError
  | none, none => .ok [1]
  | some l, none => .ok l

/-- The label (lines 1145-1154): one date, one date with the number of observations, or first and last date with the number. -/
inductive Label
  | single (a : String)
  | same (a : String) (n : Nat)
  | range (a b : String) (n : Nat)
deriving DecidableEq

/-- Lines 1145-1154; `str` is `np.datetime_as_string(…, unit=datetime_unit)`. -/
def label (str : ι → String) : List ι → Except PyErr Label
  | [] => .error .indexError
  | [a] => .ok (.single (str a))
  | a :: b :: l =>
    let last := str ((b :: l).getLastD b)
    .ok (if str a = last then .same (str a) (l.length + 2) else .range (str a) last (l.length + 2))

/-- The points, the curve and the label of one measurement. -/
structure Single where
  points : List (ℝ × ℝ)
  curve : List (ℝ × ℝ)
  label : Label

/-- `r[~m]` -/
def unmaskRow {α : Type} (r : List α) (m : List Bool) : List α := ((r.zip m).filter fun x => !x.2).map Prod.fst

/-- `10.0 * np.log10(v)` if `convertTodB` (lines 1139-1142, 1158-1161) -/
noncomputable def conv (dB : Bool) (v : ℝ) : ℝ := if dB then 10 * Real.logb 10 v else v

/-- One measurement (lines 1139-1213); `argsort` is `np.argsort`. -/
noncomputable def single (dB : Bool) (str : ι → String) (argsort : List ℝ → List Nat) (splits : List (List ι)) (data inc est : List (List ℝ))
    (mask : List (List Bool)) (m : Nat) : Except PyErr Single := do
  let e ← row est m
  let k ← row mask m
  let y := (unmaskRow e k).map (conv dB)
  let l ← label str (← row splits m)
  let iii := unmaskRow (← row inc m) k
  let xdata := iii.map rad2deg
  let ydata := (unmaskRow (← row data m) k).map (conv dB)
  return ⟨xdata.zip ydata, ((argsort iii).map fun j => rad2deg (iii.getD j 0)).zip ((argsort iii).map fun j => y.getD j 0), l⟩

/-- `plot.single_results` (`rt1/rtplots.py` lines 1094-1220). -/
noncomputable def singleResults (nums : Option (List Nat)) (indexes : Option (List ι)) (dB : Bool) (str : ι → String) (argsort : List ℝ → List Nat)
    (gi : List κ) (index : List ι) (inc sig model : List ℝ) : Except PyErr (List Single) := do
  let ns ← numbers nums indexes
  let (data, mask) ← getData gi sig
  let (inc0, _) ← getData gi inc
  let (est, _) ← getData gi model
  ns.mapM (single dB str argsort (grouped gi index) data inc0 est mask)

end RT1.ResultPlots
