import Mathlib.Analysis.SpecialFunctions.Log.Base
import Mathlib.Analysis.SpecialFunctions.Pow.Real
import Mathlib.Analysis.SpecialFunctions.Trigonometric.Basic

/-!
# Model of `rt1/general_functions.py`

Helper functions used throughout the package.  Python exceptions are values of `Except PyErr`.
-/

namespace RT1

/-- The python exceptions that occur in the model (only the class, not the message). -/
inductive PyErr
  | indexError
  | valueError
  | keyError
  | typeError
  | attributeError
  | assertionError
  | zeroDivisionError
  | stopIteration
  | unboundLocalError
  | runtimeError
  | systemExit
  | userError
  | osError
  | eofError
  | nameError
  deriving DecidableEq, Repr

namespace General

/-! ## rectangularize -/

/-- One iteration of the loops in `rectangularize`
(`rt1/general_functions.py` lines 79-83 and 91-94): `newarray[i, :le] = s; newarray[i, le:] = s[-1];
mask[i, le:] = True`.  An empty `s` raises IndexError at `s[-1]`; a row that is longer than `dim` cannot be
assigned to the shorter slice (ValueError), except that numpy broadcasts a one-element row to the
zero-length slice of a `dim = 0` array.  Simplified: the conversion of the elements to the dtype of the array
is the identity. -/
def padRow {α : Type} (dim : Nat) (s : List α) : Except PyErr (List α × List Bool) :=
  if s.length > dim ∧ s.length ≠ 1 then .error .valueError
  else match s.getLast? with
    | none => .error .indexError
    | some z =>
      .ok (s.take dim ++ List.replicate (dim - s.length) z,
           List.replicate (min s.length dim) false ++ List.replicate (dim - s.length) true)

/-- `rectangularize(array, return_mask=True, dim=dim)` (`rt1/general_functions.py` lines 31-95).
The result is the pair `[newarray, mask]`; with `return_mask=False` the code returns the first component,
with `return_masked=True` the two components combined in a masked array.
Line 69 (`next(islice(array, 1))`) raises StopIteration for an empty input;
lines 71-73 take the length of the longest row if `dim` is None.
Simplified: `dtype` is always None (the value used by all callers). -/
def rectangularize {α : Type} (rows : List (List α)) (dim : Option Nat := none) :
    Except PyErr (List (List α) × List (List Bool)) :=
  if rows.isEmpty then .error .stopIteration
  else
    let d := match dim with
      | some d => d
      | none => (rows.map List.length).foldl max 0
    match rows.mapM (padRow d) with
    | .error e => .error e
    | .ok ps => .ok (ps.map Prod.fst, ps.map Prod.snd)

/-! ## meandatetime -/

/-- `meandatetime(datetimes)` (`rt1/general_functions.py` lines 98-119).  Time stamps are elements of a field
(exact arithmetic; the real code rounds time differences to nanoseconds).  The empty list raises IndexError. -/
def meandatetime {K : Type} [Field K] : List K → Except PyErr K
  | [] => .error .indexError
  | [x] => .ok x
  | x :: xs => .ok (x - (xs.map fun y => (x - y) / ((x :: xs).length : K)).sum)

/-! ## dBsig0convert -/

/-- `dBsig0convert(val, inc, dB, sig0, fitdB, fitsig0)` (`rt1/general_functions.py` lines 122-174) for one array
element.  `10 ** x` is the real power, `np.log10` the real logarithm to base 10.  Simplified: the flags are
python bools (the code compares with `is`). -/
noncomputable def dBsig0convert (val inc : ℝ) (dB sig0 fitdB fitsig0 : Bool) : ℝ :=
  if sig0 ≠ fitsig0 then
    let val := if fitdB = true then (10 : ℝ) ^ (val / 10) else val
    let val := if sig0 = false ∧ fitsig0 = true then val / (4 * Real.pi * Real.cos inc) else val
    let val := if sig0 = true ∧ fitsig0 = false then 4 * Real.pi * Real.cos inc * val else val
    if dB = true then 10 * Real.logb 10 val else val
  else if dB ≠ fitdB then
    let val := if dB = true ∧ fitdB = false then 10 * Real.logb 10 val else val
    if dB = false ∧ fitdB = true then (10 : ℝ) ^ (val / 10) else val
  else val

/-! ## pairwise -/

/-- `zip(*x)` for a list of finite iterators: stops at the shortest (used in
`rt1/general_functions.py` line 192); `zip()` is empty. -/
def zipStar {α : Type} : List (List α) → List (List α)
  | [] => []
  | [l] => l.map fun a => [a]
  | l :: l' :: ls => List.zipWith (fun a t => a :: t) l (zipStar (l' :: ls))

/-- `pairwise(iterable, pairs)` (`rt1/general_functions.py` lines 177-192).
`tee` makes `pairs` copies of the iterator, the copy with index `n+1` (the `n`-th of `x[1:]`) is advanced
`n+1` times by `next(n_iter, None)` (exhausted iterators stay exhausted), then all are zipped. -/
def pairwise {α : Type} (s : List α) (pairs : Nat) : List (List α) :=
  let x := List.replicate pairs s
  zipStar (x.take 1 ++ (x.drop 1).mapIdx fun n it => it.drop (n + 1))

/-! ## split_into -/

/-- `split_into(iterable, sizes)` (`rt1/general_functions.py` lines 195-208); `none` is python's None.
Simplified: sizes are natural numbers (negative sizes raise in `islice`). -/
def splitInto {α : Type} : List α → List (Option Nat) → List (List α)
  | _, [] => []
  | it, none :: _ => [it]
  | it, some size :: sizes => it.take size :: splitInto (it.drop size) sizes

/-! ## scale -/

/-- `scale(x, out_range, domainfuncs=(mn, mx))` (`rt1/general_functions.py` lines 211-234) for one value, where
`d0`, `d1` are the domain values. -/
noncomputable def scaleVal (d0 d1 a b x : ℝ) : ℝ :=
  let y := (x - (d1 + d0) / 2) / (d1 - d0)
  y * (b - a) + (b + a) / 2

/-- `np.nanmin` of a non-empty array without nan (line 229). -/
noncomputable def npMin : List ℝ → ℝ
  | [] => 0
  | x :: xs => xs.foldl min x

/-- `np.nanmax` of a non-empty array without nan (line 229). -/
noncomputable def npMax : List ℝ → ℝ
  | [] => 0
  | x :: xs => xs.foldl max x

/-- `scale(x, out_range)` with the default domain functions (`rt1/general_functions.py` lines 211-234);
`np.nanmin` of an empty array raises ValueError.  Simplified: no nan values. -/
noncomputable def scale (x : List ℝ) (a b : ℝ) : Except PyErr (List ℝ) :=
  if x.isEmpty then .error .valueError
  else .ok (x.map (scaleVal (npMin x) (npMax x) a b))

/-! ## update_progress -/

/-- python's `int(round(a / b))` for naturals with `b > 0`: round half to even
(`rt1/general_functions.py` line 247; exact rational instead of floating point). -/
def roundHalfEven (a b : Nat) : Nat :=
  let q := a / b
  let r := a % b
  if 2 * r < b then q
  else if b < 2 * r then q + 1
  else if q % 2 = 0 then q else q + 1

/-- The message returned by `update_progress`: either the bar or the final message.  The surrounding title
and counters of the message are not modelled. -/
inductive ProgressMsg
  | bar (chars : List Char)
  | final
  deriving DecidableEq, Repr

/-- `update_progress(progress, max_prog)` (`rt1/general_functions.py` lines 237-261); `max_prog = 0` raises
ZeroDivisionError; `"-"*(negative)` is the empty string. -/
def updateProgress (progress maxProg : Nat) : Except PyErr ProgressMsg :=
  if maxProg = 0 then .error .zeroDivisionError
  else
    let length := 20
    let block := roundHalfEven (length * progress) maxProg
    let msg := ProgressMsg.bar (List.replicate block '#' ++ List.replicate (length - block) '-')
    if progress ≥ maxProg then .ok .final else .ok msg

/-! ## dt_to_hms -/

/-- A python timedelta in its normalised form (`days`, `0 ≤ seconds < 86400`); microseconds are not used by
`dt_to_hms`. -/
structure Timedelta where
  days : Int
  seconds : Nat
  deriving DecidableEq, Repr

/-- `dt_to_hms(td)` (`rt1/general_functions.py` lines 264-272). -/
def dtToHms (td : Timedelta) : Int × Nat × Nat × Nat :=
  let hours := td.seconds / 3600
  let minutes := td.seconds % 3600 / 60
  (td.days, hours, minutes, td.seconds - hours * 3600 - minutes * 60)

/-! ## groupby_unsorted -/

/-- `d.setdefault(k, []).append(v)` on an insertion-ordered dict (`rt1/general_functions.py` line 295). -/
def setdefaultAppend {κ β : Type} [DecidableEq κ] : List (κ × List β) → κ → β → List (κ × List β)
  | [], k, v => [(k, [v])]
  | (k', vs) :: d, k, v =>
    if k' = k then (k', vs ++ [v]) :: d else (k', vs) :: setdefaultAppend d k v

/-- `groupby_unsorted(a, key, sort=False, get)` (`rt1/general_functions.py` lines 275-299). -/
def groupbyUnsorted {α κ β : Type} [DecidableEq κ] (a : List α) (key : α → κ) (get : α → β) :
    List (κ × List β) :=
  a.foldl (fun d item => setdefaultAppend d (key item) (get item)) []

/-- `groupby_unsorted(a, key, sort=True, get)` (line 297: `OrderedDict(sorted(d.items()))`).  The keys are
distinct, hence the tuples are compared by key only. -/
def groupbyUnsortedSorted {α κ β : Type} [LinearOrder κ] (a : List α) (key : α → κ) (get : α → β) :
    List (κ × List β) :=
  (groupbyUnsorted a key get).mergeSort fun x y => decide (x.1 ≤ y.1)

/-! ## find_missing -/

/-- `max(lst) if len(lst) > 0 else 0` (`rt1/general_functions.py` line 387). -/
def maxID : List Int → Int
  | [] => 0
  | x :: xs => xs.foldl max x

/-- `range(0, n)` for an integer `n` (empty for `n ≤ 0`). -/
def pyRange (n : Int) : List Int := (List.range n.toNat).map Int.ofNat

/-- The finite part of `find_missing` (lines 389-393): `sorted(set(range(0, maxID)) - set(lst))`. -/
def missingIDs (lst : List Int) : List Int :=
  if lst.length > 0 then (pyRange (maxID lst)).filter fun i => decide (i ∉ lst) else []

/-- The `i`-th value yielded by `find_missing(lst)` (lines 395-401): `chain(missingIDs, count(maxID + 1))`. -/
def findMissing (lst : List Int) (i : Nat) : Int :=
  if h : i < (missingIDs lst).length then (missingIDs lst)[i]
  else maxID lst + 1 + ((i - (missingIDs lst).length : Nat) : Int)

/-- `list(find_missing(lst, N))` (line 399: `islice(chain(missingIDs, c), N)`). -/
def findMissingN (lst : List Int) (N : Nat) : List Int := (List.range N).map (findMissing lst)

/-! ## chunkit -/

/-- `arr[a:b]` for `0 ≤ a ≤ b`. -/
def slice {α : Type} (arr : List α) (a b : Nat) : List α := (arr.take b).drop a

/-- `list(chunkit(arr, chunk_size))` (`rt1/general_functions.py` lines 404-424); `chunk_size = 0` raises
ZeroDivisionError. -/
def chunkit {α : Type} (arr : List α) (chunkSize : Nat) : Except PyErr (List (List α)) :=
  if chunkSize = 0 then .error .zeroDivisionError
  else
    let numChunks := arr.length / chunkSize
    let numChunks := if arr.length % chunkSize ≠ 0 then numChunks + 1 else numChunks
    .ok ((List.range numChunks).map fun i => slice arr (i * chunkSize) ((i + 1) * chunkSize))

end General
end RT1
