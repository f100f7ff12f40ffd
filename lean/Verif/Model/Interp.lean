import Verif.Model.FitSpec

/-!
# Model of the interpolation of fitted parameters (`rt1/rtfits.py`)

`_assignvals` with `interp_vals`, the mean time stamps of the groups and `res_df_group`.  Time stamps are real numbers in
milliseconds.
-/

namespace RT1.Interp
open General Grouping FitSpec

/-- A fitted parameter: its column of `param_dyn_dict`, the fitted values and whether it is listed in `interp_vals`
(`rt1/rtfits.py` lines 556-578: `val[0] is True and len(val) >= 5 and val[4] is True`). -/
structure Entry where
  dyn : List Int
  val : List ℝ
  interp : Bool

/-- `itertools.groupby(enumerate(index), key=lambda x: dyn[x[0]])` (`rt1/rtfits.py` lines 911-914): the runs of
consecutive observations with equal dyn-numbers. -/
def runsBy {τ κ : Type} [DecidableEq κ] : List (τ × κ) → List (κ × List τ)
  | [] => []
  | (t, k) :: l =>
    match runsBy l with
    | [] => [(k, [t])]
    | (k', ts) :: rest => if k = k' then (k, t :: ts) :: rest else (k, [t]) :: (k', ts) :: rest

/-- `_meandt_interp_assigns(key)` (`rt1/rtfits.py` lines 874-919): the mean time stamp of each run and the position of its
dyn-number in `pd.unique(dyn)` (the distinct values in the order of appearance). -/
noncomputable def meandtInterpAssigns (index : List ℝ) (dyn : List Int) : Except PyErr (List (ℝ × Nat)) :=
  (runsBy (index.zip dyn)).mapM fun r => do
    return (← meandatetime r.2, ((groupbyUnsorted dyn (fun x => x) (fun x => x)).map Prod.fst).idxOf r.1)

/-- `meandatetimes[key]` (`rt1/rtfits.py` lines 853-872). -/
noncomputable def meandatetimes (index : List ℝ) (dyn : List Int) : Except PyErr (List ℝ) :=
  (groupValues (index.zip dyn) Prod.snd Prod.fst).mapM meandatetime

/-- `_param_dyn_monotonic[key]` (`rt1/rtfits.py` lines 706-712): `is_monotonic_increasing` of the column of
`param_dyn_df`. -/
def monotonic (gi dyn : List Int) : Bool := decide ((dynDf gi dyn).Pairwise (· ≤ ·))

/-- `x[i]` for an array `x`; positions outside of the array raise IndexError. -/
def elemAt (x : List ℝ) (i : Nat) : Except PyErr ℝ :=
  match x[i]? with
  | some v => .ok v
  | none => .error .indexError

/-- `useindex` and `usevals` before the values at the boundaries are added (`rt1/rtfits.py` lines 1535-1544). -/
noncomputable def meanKnots (index : List ℝ) (gi : List Int) (e : Entry) : Except PyErr (List ℝ × List ℝ) :=
  if monotonic gi e.dyn = false then do
    let a ← meandtInterpAssigns index e.dyn
    let vs ← a.mapM fun p => elemAt e.val p.2
    return (a.map Prod.fst, vs)
  else do
    return (← meandatetimes index e.dyn, e.val)

/-- The shift of the boundaries (`rt1/rtfits.py` lines 1546-1551); `b` are `firstindex` and `lastindex`.  `useindex[0]` of
an empty list raises IndexError. -/
noncomputable def shiftBounds (b : ℝ × ℝ) (useindex : List ℝ) : Except PyErr (ℝ × ℝ) :=
  match useindex.head?, useindex.getLast? with
  | some u, some w => .ok (if b.1 = u then b.1 + 1 else b.1, if b.2 = w then b.2 - 1 else b.2)
  | _, _ => .error .indexError

/-- The time stamps of the knots (`rt1/rtfits.py` lines 1553-1555). -/
def knotTimes (b : ℝ × ℝ) (useindex : List ℝ) : List ℝ := b.1 :: (useindex ++ [b.2])

/-- `np.take(usevals, [0, *range(len(usevals)), -1])` (`rt1/rtfits.py` line 1558). -/
def knotVals (usevals : List ℝ) : List ℝ := usevals.head?.toList ++ usevals ++ usevals.getLast?.toList

/-- One turn of the loop of `_assignvals` (`rt1/rtfits.py` lines 1530-1599): the new values of `firstindex` and
`lastindex` and the array of the values.  `interp1d xs ys` is `scipy.interpolate.interp1d(xs, ys, kind="quadratic",
fill_value="extrapolate")`. -/
noncomputable def assignEntry (interp1d : List ℝ → List ℝ → Except PyErr (ℝ → ℝ)) (index : List ℝ) (gi : List Int)
    (x0 : List ℝ) (b : ℝ × ℝ) (e : Entry) : Except PyErr ((ℝ × ℝ) × List (List ℝ)) :=
  if e.interp then do
    let (useindex, usevals) ← meanKnots index gi e
    let b ← shiftBounds b useindex
    if 2 ≤ usevals.length then do
      let f ← interp1d (knotTimes b useindex) (knotVals usevals)
      let (idx, _) ← idxAssigns gi
      return (b, ← take2 (index.map f) idx)
    else
      return (b, ← assignVals gi x0 e.dyn e.val)
  else
    return (b, ← assignVals gi x0 e.dyn e.val)

/-- The loop of `_assignvals` over `res_dict.items()` (`rt1/rtfits.py` lines 1528-1599): `firstindex` and `lastindex` are
carried along. -/
noncomputable def assignLoop (interp1d : List ℝ → List ℝ → Except PyErr (ℝ → ℝ)) (index : List ℝ) (gi : List Int)
    (x0 : List ℝ) : ℝ × ℝ → List (String × Entry) → Except PyErr (List (String × List (List ℝ)))
  | _, [] => .ok []
  | b, (k, e) :: es => do
    let (b, A) ← assignEntry interp1d index gi x0 b e
    let rest ← assignLoop interp1d index gi x0 b es
    return (k, A) :: rest

/-- `_assignvals(res_dict)` (`rt1/rtfits.py` lines 1512-1601).  `dataset.index[0]` of an empty dataset raises IndexError. -/
noncomputable def assignAll (interp1d : List ℝ → List ℝ → Except PyErr (ℝ → ℝ)) (index : List ℝ) (gi : List Int)
    (x0 : List ℝ) (es : List (String × Entry)) : Except PyErr (List (String × List (List ℝ))) :=
  match index.head?, index.getLast? with
  | some a, some b => assignLoop interp1d index gi x0 (a, b) es
  | _, _ => .error .indexError

/-! ## values of the fit-groups -/

/-- `meandatetimes_group` (`rt1/rtfits.py` lines 921-931). -/
noncomputable def meandatetimesGroup (index : List ℝ) (gi : List Int) : Except PyErr (List ℝ) :=
  (groupValues (index.zip gi) Prod.snd Prod.fst).mapM meandatetime

/-- `res_df_group` (`rt1/rtfits.py` lines 1475-1497): the index and the columns.  `x0` is the uninitialised array of
`np.empty(len(meandatetimes_group))`.  The series have the same index, therefore `pd.concat(axis=1)` puts them side by
side; it raises ValueError if there are no series. -/
noncomputable def resDfGroup (index : List ℝ) (gi : List Int) (x0 : List ℝ) (es : List (String × Entry)) :
    Except PyErr (List ℝ × List (String × List ℝ)) := do
  if es.isEmpty then throw .valueError
  let times ← meandatetimesGroup index gi
  return (times, es.map fun ke =>
    (ke.1, (ke.2.val.zip (paramAssigns gi ke.2.dyn)).foldl (fun x vi => put x vi.2 vi.1) x0))

end RT1.Interp
