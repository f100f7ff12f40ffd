import Verif.Model.Metrics
import Verif.Model.Grouping

/-!
# The two series of a metric

Modelled: `_RTmetrics1._unify_idx_data` (`rt1/rtmetrics.py` lines 180-201) and the series of the sources `dataset` and
`calc_model` (`_get_data`, lines 157-168; `Fits.calc_model`, `rt1/rtfits.py` lines 2519-2543).  Values are not NaN.
-/

namespace RT1.Metrics
open General

variable {ι : Type} [DecidableEq ι]

/-- `s.reindex(join)`: nothing to do for an equal index, otherwise the index of `s` must be unique (missing labels are NaN). -/
def reindex (join : List ι) (s : Series ι) : Except PyErr (List (ι × Option ℝ)) :=
  if s.map Prod.fst = join then .ok (s.map fun e => (e.1, some e.2))
  else if (s.map Prod.fst).Nodup then .ok (join.map fun i => (i, s.lookup i))
  else .error .valueError

/-- `Series.dropna()` -/
def dropna (l : List (ι × Option ℝ)) : Series ι := l.filterMap fun e => e.2.map fun v => (e.1, v)

/-- `_unify_idx_data` (`rt1/rtmetrics.py` lines 180-201); `union` is the union of the two indexes used by `pd.concat`. -/
def unify (union : List ι → List ι → List ι) (d1 d2 : Series ι) : Except PyErr (Series ι × Series ι) :=
  if d1.length ≠ d2.length then do
    let join := union (d1.map Prod.fst) (d2.map Prod.fst)
    let c1 ← reindex join d1
    let c2 ← reindex join d2
    if (dropna c1).length ≠ (dropna c2).length then throw .assertionError
    return (dropna c1, dropna c2)
  else .ok (d1, d2)

/-- A column of the dataset (`rt1/rtmetrics.py` lines 160-161). -/
def dataSeries (index : List ι) (col : List ℝ) : Series ι := index.zip col

/-- A column of the frame returned by `calc_model` (`rt1/rtmetrics.py` lines 162-165, `rt1/rtfits.py` lines 2527-2543): the
unmasked model values with the concatenated `_orig_index`.  `model` lists the model value of each observation (the evaluation
of the model is elementwise). -/
def modelSeries {κ : Type} [DecidableEq κ] (gi : List κ) (index : List ι) (model : List ℝ) : Except PyErr (Series ι) := do
  let (A, M) ← Grouping.getData gi model
  return (Grouping.grouped gi index).flatten.zip (Grouping.unmask A M)

end RT1.Metrics
