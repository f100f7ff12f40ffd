import Verif.Model.MetricData

/-!
# The data shown by the diagnostic plots of a fit

Modelled: the points and curves drawn by `plot.scatter`, `plot.fit_timeseries` and `plot.fit_errors` (`rt1/rtplots.py` lines
452-930).  Not modelled: the appearance of the figures (colors, ticks, legends, boundaries), the regression line of `scatter`
and the parameters that are overprinted by `fit_timeseries`.  Values of the dataset and of the model are not NaN.
-/

namespace RT1.Plots
open General Metrics Grouping

variable {ι κ : Type} [DecidableEq ι] [DecidableEq κ]

/-! ## scatter -/

/-- The points `(estimate, measurement)` of `plot.scatter` (`rt1/rtplots.py` lines 488-498): `pd.concat(…, axis=1)` keeps equal
indexes, otherwise both series are reindexed to the union of the indexes (`none` is NaN).  Simplified: the exception of pandas
for repeated labels is a ValueError. -/
def scatter (union : List ι → List ι → List ι) (gi : List κ) (index : List ι) (sig model : List ℝ) :
    Except PyErr (List (Option ℝ × Option ℝ)) := do
  let tot ← modelSeries gi index model
  let d := dataSeries index sig
  let join := if d.map Prod.fst = tot.map Prod.fst then d.map Prod.fst else union (d.map Prod.fst) (tot.map Prod.fst)
  let measures ← reindex join d
  let estimates ← reindex join tot
  return (estimates.map Prod.snd).zip (measures.map Prod.snd)

/-! ## fit_timeseries -/

/-- The arguments `dB`, `sig0` and the units of the fit. -/
structure Units where
  dB : Bool
  sig0 : Bool
  fitdB : Bool
  fitsig0 : Bool

/-- The arguments `printtot, printsurf, printvol, printint, printorig`. -/
structure Flags where
  tot : Bool
  surf : Bool
  vol : Bool
  int : Bool
  orig : Bool

/-- The name of the column of the dataset (`rt1/rtplots.py` line 603). -/
def origName : String := "$\\sigma_0$ dataset"

/-- Columns that are not dropped (`rt1/rtplots.py` lines 617-627). -/
def keep (p : Flags) (name : String) : Bool :=
  if p.int = false ∧ name = "inter" then false
  else if p.tot = false ∧ name = "tot" then false
  else if p.surf = false ∧ name = "surf" then false
  else if p.vol = false ∧ name = "vol" then false
  else if p.orig = false ∧ name = origName then false
  else true

/-- One column after `apply(dBsig0convert, inc=inc, …)` (`rt1/rtplots.py` lines 606-615): the incidence angles are combined by
position. -/
noncomputable def convertCol (u : Units) (incs : List ℝ) (c : List (ι × Option ℝ)) : List (ι × Option ℝ) :=
  List.zipWith (fun e t => (e.1, e.2.map fun v => dBsig0convert v t u.dB u.sig0 u.fitdB u.fitsig0)) c incs

/-- `np.rad2deg` -/
noncomputable def rad2deg (x : ℝ) : ℝ := x * 180 / Real.pi

/-- The points of one column in the plot of the incidence-angle dependency (`rt1/rtplots.py` lines 655-679): incidence angles and
values are grouped by time stamp and rectangularized; masked points are not drawn.  Simplified: the time stamps of
`contrib.groupby` are not sorted (the points are the same). -/
noncomputable def incPoints (angles col : List (ι × Option ℝ)) : Except PyErr (List (Option ℝ × Option ℝ)) := do
  let (a, m) ← rectangularize (groupValues angles Prod.fst Prod.snd)
  let (b, _) ← rectangularize (groupValues col Prod.fst Prod.snd)
  return unmask (map2 (fun t v => (t.map rad2deg, v)) a b) m

/-- The contents of the figure: the curves of the time series, and the points of the incidence-angle plot. -/
structure TimeFigure (ι : Type) where
  curves : List (String × List (ι × Option ℝ))
  points : List (String × List (Option ℝ × Option ℝ))

/-- The column of a component in `calc_model` (`rt1/rtfits.py` lines 2527-2543). -/
def component (gi : List κ) (index : List ι) (c : String × List ℝ) : Except PyErr (String × List (ι × Option ℝ)) := do
  let s ← modelSeries gi index c.2
  return (c.1, s.map fun e => (e.1, some e.2))

/-- One column in the plot of the incidence-angle dependency. -/
noncomputable def namedPoints (angles : List (ι × Option ℝ)) (c : String × List (ι × Option ℝ)) :
    Except PyErr (String × List (Option ℝ × Option ℝ)) := do
  let p ← incPoints angles c.2
  return (c.1, p)

/-- `plot.fit_timeseries` (`rt1/rtplots.py` lines 593-706).  `comps` are the components returned by `_calc_model` with the values
of the observations, `sel` is the selection of years and months (lines 629-633), `sortIndex` is `Series.sort_index()`.  The columns
of the dataset are aligned to the index of `calc_model` (lines 602-604). -/
noncomputable def fitTimeseries (u : Units) (p : Flags) (printinc : Bool) (sel : ι → Bool)
    (sortIndex : List (ι × Option ℝ) → List (ι × Option ℝ)) (gi : List κ) (index : List ι) (inc sig : List ℝ)
    (comps : List (String × List ℝ)) : Except PyErr (TimeFigure ι) := do
  let (A, M) ← getData gi inc
  let incs := unmask A M
  let cols ← comps.mapM (component gi index)
  let idx := (grouped gi index).flatten
  let orig ← reindex idx (dataSeries index sig)
  let angles ← reindex idx (dataSeries index inc)
  let converted := (cols ++ [(origName, orig)]).map fun c => (c.1, convertCol u incs c.2)
  let kept := converted.filter fun c => keep p c.1
  let contrib := kept.map fun c => (c.1, c.2.filter fun e => sel e.1)
  let points ← if printinc then contrib.mapM (namedPoints (angles.filter fun e => sel e.1)) else .ok []
  return ⟨contrib.map fun c => (c.1, sortIndex c.2), points⟩

/-! ## fit_errors -/

/-- `list(dict.fromkeys(l))`, also `np.unique` before sorting -/
def distinct {α : Type} [DecidableEq α] (l : List α) : List α := l.foldl (fun acc x => if x ∈ acc then acc else acc ++ [x]) []

/-- `Fits.index` (`rt1/rtfits.py` lines 775-783). -/
def fitIndex (gi : List κ) (index : List ι) : List ι := ((grouped gi index).map distinct).flatten

/-- `np.ma.masked_array(A, mask=M)`; masked entries are `none`. -/
def masked {α : Type} (A : List (List α)) (M : List (List Bool)) : List (List (Option α)) :=
  map2 (fun a m => if m then none else some a) A M

/-- `np.ma.sqrt((estimates - data)**2)`, for `relative=True` divided by the estimates (`rt1/rtplots.py` lines 782-785); a division
by zero is masked. -/
noncomputable def residual (relative : Bool) (e d : Option ℝ) : Option ℝ := do
  let e ← e
  let d ← d
  let r := Real.sqrt ((e - d) ^ 2)
  if relative then (if e = 0 then none else some (r / e)) else some r

/-- `np.ma.mean` of one row. -/
noncomputable def maMean (l : List (Option ℝ)) : Option ℝ := mean (l.filterMap id)

/-- `fit.index[range(n)]`. -/
def firstLabels (labels : List ι) (n : Nat) : Except PyErr (List ι) :=
  if n ≤ labels.length then .ok (labels.take n) else .error .indexError

/-- The residuals at the entries of a masked array that are equal to a value (`rt1/rtplots.py` lines 863-867): masked entries are
not equal to any value. -/
noncomputable def atValue (v : ℝ) (inc res : List (List (Option ℝ))) : List (Option ℝ) :=
  (((inc.flatten).zip res.flatten).filter fun x => decide (x.1 = some v)).map Prod.snd

/-- The contents of the figure. -/
structure ErrorFigure (ι : Type) where
  /-- residuals per measurement (line 809) -/
  points : List (ι × ℝ)
  /-- mean residual for each measurement (lines 812-819) -/
  means : List (ι × Option ℝ)
  /-- mean of the mean residuals (lines 822-827) -/
  average : Option ℝ
  /-- residuals per incidence angle (lines 873-882) -/
  incPoints : List (ℝ × ℝ)
  /-- mean residual per incidence angle (lines 859-871, 885) -/
  incMeans : List (ℝ × Option ℝ)

/-- Both coordinates of a point, if none of them is masked. -/
def both (p : Option ℝ × Option ℝ) : Option (ℝ × ℝ) := do
  let a ← p.1
  let b ← p.2
  return (a, b)

/-- `plot.fit_errors` for all measurements (`rt1/rtplots.py` lines 766-885).  `model` lists the model value of each observation.
The angles of the mean curve are the sorted unique values of `np.concatenate(inc)` (line 859), which ignores the mask.
Simplified: `result_selection="all"`; the points of one curve of the incidence-angle plot are not sorted. -/
noncomputable def fitErrors (relative : Bool) (gi : List κ) (index : List ι) (inc sig model : List ℝ) :
    Except PyErr (ErrorFigure ι) := do
  let (data, mask) ← getData gi sig
  let (inc0, _) ← getData gi inc
  let (est, _) ← getData gi model
  let res := map2 (residual relative) (masked est mask) (masked data mask)
  let incDeg := inc0.map fun r => r.map rad2deg
  let inc' := masked incDeg mask
  let labels ← firstLabels (fitIndex gi index) data.length
  let angles := (distinct incDeg.flatten).mergeSort fun a b => decide (a ≤ b)
  return {
    points := (List.zipWith (fun t r => r.filterMap fun o => o.map fun v => (t, v)) labels res).flatten
    means := List.zipWith (fun t r => (t, maMean r)) labels res
    average := maMean (res.map maMean)
    incPoints := (inc'.flatten.zip res.flatten).filterMap both
    incMeans := angles.map fun v => (v, maMean (atValue v inc' res)) }

end RT1.Plots
