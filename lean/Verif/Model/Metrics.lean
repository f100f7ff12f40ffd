import Verif.Model.General

/-!
# Model of `rt1/rtmetrics.py`

Time series are lists of (index label, value).  The index labels of one series are assumed to be unique unless both series
have the same index (pandas then works elementwise).  `none` stands for a result that is not a finite number (nan, inf).
-/

namespace RT1.Metrics
open General

variable {ι : Type} [DecidableEq ι]

abbrev Series (ι : Type) := List (ι × ℝ)

/-- The values of a series. -/
def vals (s : Series ι) : List ℝ := s.map Prod.snd

/-- The pairs of values of two series after aligning them (pandas `Series.subtract`, `Series.corr`): elementwise if the
indexes are equal, otherwise the pairs with a common label (all other pairs contain nan and are skipped later on). -/
def align (a b : Series ι) : List (ℝ × ℝ) :=
  if a.map Prod.fst = b.map Prod.fst then (vals a).zip (vals b)
  else a.filterMap fun e => (b.lookup e.1).map fun y => (e.2, y)

/-- `Series.mean` (nan if there are no values). -/
noncomputable def mean (l : List ℝ) : Option ℝ := if l = [] then none else some (l.sum / l.length)

/-- `RTmetrics.rmsd` (`rt1/rtmetrics.py` lines 333-352). -/
noncomputable def rmsd (d1 d2 : Series ι) : Option ℝ :=
  (mean ((align d1 d2).map fun p => (p.1 - p.2) ^ 2)).map Real.sqrt

/-- `RTmetrics.ub_rmsd` (`rt1/rtmetrics.py` lines 354-375). -/
noncomputable def ubRmsd (d1 d2 : Series ι) : Option ℝ :=
  match mean (vals d1), mean (vals d2) with
  | some m1, some m2 => rmsd (d1.map fun e => (e.1, e.2 - m1)) (d2.map fun e => (e.1, e.2 - m2))
  | _, _ => none

/-- `RTmetrics.bias` (`rt1/rtmetrics.py` lines 377-395). -/
noncomputable def bias (d1 d2 : Series ι) : Option ℝ :=
  match mean (vals d1), mean (vals d2) with
  | some m1, some m2 => some (m1 - m2)
  | _, _ => none

/-- `RTmetrics.mae` (`rt1/rtmetrics.py` lines 397-416). -/
noncomputable def mae (d1 d2 : Series ι) : Option ℝ := mean ((align d1 d2).map fun p => |p.1 - p.2|)

open Classical in
/-- `RTmetrics.mape` (`rt1/rtmetrics.py` lines 418-438): `0/0` is nan and skipped by `mean`, `x/0` is inf. -/
noncomputable def mape (d1 d2 : Series ι) : Option ℝ :=
  let ps := (align d1 d2).filter fun p => ¬ (p.1 = 0 ∧ p.2 = 0)
  if ∃ p ∈ ps, p.1 = 0 then none else mean (ps.map fun p => |(p.1 - p.2) / p.1|)

/-- The sum of squared deviations from the mean. -/
noncomputable def ssq (l : List ℝ) : ℝ := (l.map fun x => (x - l.sum / l.length) ^ 2).sum

/-- `Series.std` (`ddof = 1`; nan for less than two values). -/
noncomputable def std (l : List ℝ) : Option ℝ := if l.length < 2 then none else some (Real.sqrt (ssq l / (l.length - 1)))

open Classical in
/-- `RTmetrics.std_ratio` (`rt1/rtmetrics.py` lines 440-459). -/
noncomputable def stdRatio (d1 d2 : Series ι) : Option ℝ :=
  match std (vals d1), std (vals d2) with
  | some s1, some s2 => if s2 = 0 then none else some (s1 / s2)
  | _, _ => none

/-- The sum of the products of the deviations from the means. -/
noncomputable def sxy (ps : List (ℝ × ℝ)) : ℝ :=
  (ps.map fun p => (p.1 - (ps.map Prod.fst).sum / ps.length) * (p.2 - (ps.map Prod.snd).sum / ps.length)).sum

open Classical in
/-- The pearson correlation of aligned pairs (`np.corrcoef`; nan for less than two pairs or a constant series). -/
noncomputable def corr (ps : List (ℝ × ℝ)) : Option ℝ :=
  if ps.length < 2 ∨ ssq (ps.map Prod.fst) = 0 ∨ ssq (ps.map Prod.snd) = 0 then none
  else some (sxy ps / (Real.sqrt (ssq (ps.map Prod.fst)) * Real.sqrt (ssq (ps.map Prod.snd))))

/-- `RTmetrics.pearson` (`rt1/rtmetrics.py` lines 270-288). -/
noncomputable def pearson (d1 d2 : Series ι) : Option ℝ := corr (align d1 d2)

open Classical in
/-- The average rank of `x` among the values `l` (1-based). -/
noncomputable def rank (l : List ℝ) (x : ℝ) : ℝ :=
  (l.countP fun y => y < x) + ((l.countP fun y => y = x) + 1 : ℝ) / 2

/-- Replace the values by their ranks. -/
noncomputable def ranks (ps : List (ℝ × ℝ)) : List (ℝ × ℝ) :=
  ps.map fun p => (rank (ps.map Prod.fst) p.1, rank (ps.map Prod.snd) p.2)

/-- `RTmetrics.spearman` (`rt1/rtmetrics.py` lines 290-308). -/
noncomputable def spearman (d1 d2 : Series ι) : Option ℝ := corr (ranks (align d1 d2))

open Classical in
/-- `scipy.stats.linregress(x, y)`, the fields slope, intercept and rvalue; ValueError for empty or differently long inputs
and for identical x values. -/
noncomputable def scipyLinregress (x y : List ℝ) : Except PyErr (ℝ × ℝ × ℝ) :=
  if x = [] ∨ x.length ≠ y.length ∨ ∀ a ∈ x, ∀ b ∈ x, a = b then .error .valueError
  else
    let slope := sxy (x.zip y) / ssq x
    let r := if ssq y = 0 then 0 else sxy (x.zip y) / Real.sqrt (ssq x * ssq y)
    .ok (slope, y.sum / y.length - slope * (x.sum / x.length), r)

/-- `RTmetrics.linregress` (`rt1/rtmetrics.py` lines 310-331): None if the regression is not possible (no alignment). -/
noncomputable def linregress (d1 d2 : Series ι) : Option (ℝ × ℝ × ℝ) :=
  match scipyLinregress (vals d1) (vals d2) with
  | .ok r => some r
  | .error _ => none

end RT1.Metrics
