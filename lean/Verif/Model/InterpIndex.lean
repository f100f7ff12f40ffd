import Verif.Model.General
import Mathlib.Data.Real.Basic
import Mathlib.Data.List.Sort

/-!
# Model of `interpolate_to_index`

`rt1/general_functions.py` lines 302-351.  Not modelled: `**interp1d_kwargs` (the defaults are used: linear interpolation,
`fill_value=None`, `bounds_error=False`), nan values in the data, repeated dates.
-/

namespace RT1.InterpIndex
open General

/-- Linear interpolation of scipy (called in line 337) between sorted knots: the first interval that ends at `t` or behind it.  The value outside of all intervals is nan
(`none`). -/
noncomputable def segment : List (ℝ × ℝ) → ℝ → Option ℝ
  | p :: q :: rest, t =>
    if t ≤ q.1 then (if p.1 ≤ t then some (p.2 + (q.2 - p.2) / (q.1 - p.1) * (t - p.1)) else none) else segment (q :: rest) t
  | _, _ => none

/-- The knots of `scipy.interpolate.interp1d(x, y)`, which sorts them by `x` (`assume_sorted=False`; called in line 336). -/
noncomputable def knots (x y : List ℝ) : List (ℝ × ℝ) := (x.zip y).mergeSort fun a b => decide (a.1 ≤ b.1)

/-- `interp1d(x, y, fill_value=None, bounds_error=False)` (lines 331, 336): ValueError for different lengths, or without values.  (With a single value the result
depends on the version of scipy; here it is nan everywhere.) -/
noncomputable def interp1d (x y : List ℝ) : Except PyErr (ℝ → Option ℝ) :=
  if x.length ≠ y.length ∨ x = [] then .error .valueError else .ok (segment (knots x y))

/-- The argument `data` (the branches of lines 334, 339 and 344): Series, DataFrame (the index and the columns), list or array, anything else. -/
inductive Data (ι : Type)
  | series (index : List ι) (values : List ℝ)
  | frame (index : List ι) (columns : List (String × List ℝ))
  | plain (values : List ℝ)
  | other

/-- The returned value (lines 338, 342, 351, or no `return` at all). -/
inductive Result (ι : Type)
  | series (index : List ι) (values : List (Option ℝ))
  | frame (index : List ι) (columns : List (String × List (Option ℝ)))
  | none

/-- The interpolation of one column (lines 336-337, 340-341; `rt1/general_functions.py`). -/
noncomputable def column {ι : Type} (jd : ι → ℝ) (dataIndex : List ι) (index : List ι) (values : List ℝ) : Except PyErr (List (Option ℝ)) :=
  (interp1d (dataIndex.map jd) values).map fun f => (index.map jd).map f

/-- `interpolate_to_index(data, index, data_index)` (`rt1/general_functions.py` lines 331-351); `jd` is the julian date.  Lists and arrays have no attribute `values`
(line 349).  Columns of a DataFrame are interpolated along the rows (`axis=0`). -/
noncomputable def interpolateToIndex {ι : Type} (jd : ι → ℝ) (data : Data ι) (index : List ι) (dataIndex : Option (List ι)) : Except PyErr (Result ι) :=
  match data with
  | .series idx values => do
    let x ← column jd idx index values
    return .series index x
  | .frame idx columns => do
    let cols ← columns.mapM fun c => (column jd idx index c.2).map fun x => (c.1, x)
    return .frame index cols
  | .plain _ => if dataIndex.isNone then .error .assertionError else .error .attributeError
  | .other => .ok .none

end RT1.InterpIndex
