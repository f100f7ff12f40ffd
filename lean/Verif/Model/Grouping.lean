import Verif.Model.General
import Mathlib.Data.Nat.Digits.Defs
import Mathlib.Data.List.Dedup
import Mathlib.Algebra.BigOperators.Group.List.Basic

/-!
# Model of the grouping logic of `rt1/rtfits.py`

Parameter dynamics (`param_dyn_dict`), fit-groups (`_groupindex`), distribution of the fitted values, grouping of the
data, packing of the fit-vector, residuals and jacobian.  Rectangular arrays are lists of rows, dicts are lists of
key-value pairs in insertion order.
-/

namespace RT1.Grouping
open General

/-! ## strings of integers -/

/-- `str(n)` for a natural number. -/
def strNat (n : Nat) : List Char :=
  if n = 0 then ['0'] else (Nat.digits 10 n).reverse.map Nat.digitChar

/-- `str(x)` for an integer. -/
def strInt (x : Int) : List Char := if x < 0 then '-' :: strNat x.natAbs else strNat x.natAbs

/-- `s.zfill(N)`: zeros are inserted on the left, after a leading sign. -/
def zfill (N : Nat) : List Char → List Char
  | '-' :: s => '-' :: (List.replicate (N - (s.length + 1)) '0' ++ s)
  | s => List.replicate (N - s.length) '0' ++ s

/-- The value of a non-empty string of decimal digits. -/
def parseDigits (s : List Char) : Option Nat :=
  if s ≠ [] ∧ s.all Char.isDigit then some (s.foldl (fun a c => 10 * a + (c.toNat - 48)) 0) else none

/-- `int(s)` for strings that consist of digits and `-` (all strings that occur here); anything that is not an
optional sign followed by digits raises ValueError. -/
def pyInt : List Char → Except PyErr Int
  | '-' :: s => match parseDigits s with
    | some n => .ok (-(n : Int))
    | none => .error .valueError
  | s => match parseDigits s with
    | some n => .ok (n : Int)
    | none => .error .valueError

/-- Rounding of a natural number to a double (53 bit, round half to even). -/
def floatNat (n : Nat) : Nat :=
  if n < 2 ^ 53 then n
  else
    let e := n.log2 - 52
    roundHalfEven n (2 ^ e) * 2 ^ e

/-- `float(s)` of a string of digits followed by `.astype(int)` (`rt1/rtfits.py` lines 679-681): the number is
rounded to a double; values outside of the range of int64 become `-2^63` (x86-64; the C standard leaves the result
undefined). -/
def floatToInt (x : Int) : Int :=
  let y := if x < 0 then -((floatNat x.natAbs : Nat) : Int) else ((floatNat x.natAbs : Nat) : Int)
  if -(2 ^ 63) ≤ y ∧ y < 2 ^ 63 then y else -(2 ^ 63)

/-! ## parameter dynamics -/

/-- The values of `d.items()` for `groupby_unsorted(a, key, get)`. -/
def groupValues {α κ β : Type} [DecidableEq κ] (a : List α) (key : α → κ) (get : α → β) : List (List β) :=
  (groupbyUnsorted a key get).map Prod.snd

/-- One step of the loop `for r in range(rest): res[r % len(res)] += 1` (`rt1/rtfits.py` lines 633-634). -/
def addRest (res : List Nat) (r : Nat) : Except PyErr (List Nat) :=
  if res.length = 0 then .error .zeroDivisionError else .ok (res.modify (r % res.length) (· + 1))

/-- Integer frequencies (`rt1/rtfits.py` lines 623-662).  `//` and `%` are python's floor division; the sequence
`repeat(ni, f + r)` is empty for a negative number of repetitions; the log message of lines 636-642 evaluates `min([])`
(ValueError) if there are no groups.  Simplified: the index contains no NaT. -/
def intDyn {τ : Type} [DecidableEq τ] (index : List τ) (f : Int) : Except PyErr (List Int) := do
  if f = 0 then throw .zeroDivisionError
  let nDat : Int := (index.dedup.length : Int)
  let ngrps := nDat.fdiv f
  let rest := nDat.fmod f
  let res ← (List.range rest.toNat).foldlM addRest (List.replicate ngrps.toNat 0)
  if rest ≥ ngrps ∧ res.length = 0 then throw .valueError
  let dyn := (List.zipWith (fun (ni : Nat) (r : Nat) => List.replicate (f + r).toNat ni)
    (List.range ngrps.toNat) res).flatten
  let dat := groupbyUnsorted (dyn.zip (groupValues index (fun x => x) (fun x => x))) Prod.fst (fun x => x.2.length)
  return (dat.map fun kv => List.replicate kv.2.sum (kv.1 : Int)).flatten

/-- Datetime-offset frequencies (`rt1/rtfits.py` lines 605-622).  `bin t` is the number of the calendar bin of the time
stamp `t`.  The pandas Grouper yields all bins between the bin of the first and the bin of the last time stamp, including
empty ones (behaviour of pandas for a sorted index, assumed); the code repeats the number of the bin for each element.
Invalid offsets raise ValueError (not modelled). -/
def offsetDyn {τ : Type} (index : List τ) (bin : τ → Int) : List Int :=
  match index.head?, index.getLast? with
  | some a, some b =>
    let sizes := (List.range (bin b - bin a + 1).toNat).map fun k : Nat => index.countP fun t => bin t = bin a + k
    (sizes.mapIdx fun nval len => List.replicate len (nval : Int)).flatten
  | _, _ => []

/-- The length of the longest string, `len(max(val, key=len))`; `max()` of an empty sequence raises ValueError. -/
def maxLen (l : List (List Char)) : Except PyErr Nat :=
  if l.isEmpty then .error .valueError else .ok ((l.map List.length).foldl max 0)

/-- Superposition of manual dynamics (`rt1/rtfits.py` lines 664-681).  Simplified: the manual column contains integers. -/
def superimpose (dyn man : List Int) : Except PyErr (List Int) := do
  let n1 ← maxLen (dyn.map strInt)
  let n2 ← maxLen (man.map strInt)
  let comb := List.zipWith (fun a b => zfill n1 (strInt a) ++ zfill n2 (strInt b)) dyn man
  let vals ← comb.mapM pyInt
  return vals.map floatToInt

/-- The group numbers of `pd.DataFrame({key: 1}, index).groupby(axis=0, level=0, sort=False).ngroup()`
(`rt1/rtfits.py` lines 1241-1246): groups are numbered in the order of first appearance. -/
def indexDyn {τ : Type} [DecidableEq τ] (index : List τ) : List Int :=
  let d := (groupbyUnsorted index (fun x => x) (fun x => x)).map Prod.fst
  index.map fun t => (d.idxOf t : Int)

/-- The temporal variability of a fitted parameter (third entry of the definition). -/
inductive Freq (τ : Type)
  | const
  | int (f : Int)
  | offset (bin : τ → Int)

/-- The dyn-groups of one fitted parameter (`rt1/rtfits.py` lines 582-682): the frequency (default: a list of ones, lines
598-600), combined with the manual dynamics if there are any (`_manual_dyn_df`; for `"index"` the column is `indexDyn`). -/
def paramDyn {τ : Type} [DecidableEq τ] (index : List τ) (freq : Freq τ) (manual : Option (List Int)) :
    Except PyErr (List Int) := do
  let base ← match freq with
    | .const => .ok (List.replicate index.length 1)
    | .int f => intDyn index f
    | .offset bin => .ok (offsetDyn index bin)
  match manual with
  | none => return base
  | some man => superimpose base man

/-! ## fit groups -/

/-- `max(val)`; raises ValueError for an empty sequence. -/
def maxInt : List Int → Except PyErr Int
  | [] => .error .valueError
  | x :: xs => .ok (xs.foldl max x)

/-- `len(str(max(val)))` (`rt1/rtfits.py` line 721). -/
def digitsOf (val : List Int) : Except PyErr Nat := do
  return (strInt (← maxInt val)).length

/-- The strings of `_groupindex` (`rt1/rtfits.py` lines 724-733): the zero-padded numbers of the first parameter, then
those of the other parameters appended one after the other (`map(add, …)` stops at the shorter sequence). -/
def concStrings : List (Nat × List Int) → List (List Char)
  | [] => []
  | (n, c) :: cs => cs.foldl (fun acc nc => List.zipWith (· ++ ·) acc (nc.2.map fun x => zfill nc.1 (strInt x)))
      (c.map fun x => zfill n (strInt x))

/-- `list(map(int, conclist))` in `_groupindex` (`rt1/rtfits.py` lines 714-734); `cols` are the values of
`param_dyn_dict`. -/
def groupInts (cols : List (List Int)) : Except PyErr (List Int) := do
  let ns ← cols.mapM digitsOf
  (concStrings (ns.zip cols)).mapM pyInt

/-- `np.array(l)` for a list of python integers: int64 if all values are in its range, otherwise uint64 if all values need
uint64, python objects if a value exceeds both ranges, and float64 for a mixture of int64 and uint64 values (dtype
promotion of numpy). -/
def npArray (l : List Int) : List Int :=
  if l.all fun x => decide (-(2 ^ 63) ≤ x ∧ x < 2 ^ 63) then l
  else if l.any fun x => decide (x < -(2 ^ 63) ∨ 2 ^ 64 ≤ x) then l
  else if l.all fun x => decide (2 ^ 63 ≤ x) then l
  else l.map fun x => if x < 0 then -((floatNat x.natAbs : Nat) : Int) else ((floatNat x.natAbs : Nat) : Int)

/-- `_groupindex` (`rt1/rtfits.py` lines 714-734). -/
def groupIndex (cols : List (List Int)) : Except PyErr (List Int) := do
  return npArray (← groupInts cols)

/-! ## assignment of values and data -/

/-- `_dataset_used[key]`, `_orig_index` (`rt1/rtfits.py` lines 741-773, 990-1003): the values of a column of the dataset,
grouped by the group index. -/
def grouped {κ α : Type} [DecidableEq κ] (gi : List κ) (col : List α) : List (List α) :=
  groupValues (gi.zip col) Prod.fst Prod.snd

/-- `_get_data(prop)` for the columns (first component) and for `prop="mask"` (second component)
(`rt1/rtfits.py` lines 1967-1990). -/
def getData {κ α : Type} [DecidableEq κ] (gi : List κ) (col : List α) :
    Except PyErr (List (List α) × List (List Bool)) :=
  rectangularize (grouped gi col)

/-- `_idx_assigns` (`rt1/rtfits.py` lines 1005-1017); the second component is the (unused) mask.
`range(len(g))` with `key=lambda x: g[x]` is the list of positions with the values as keys. -/
def idxAssigns {κ : Type} [DecidableEq κ] (gi : List κ) : Except PyErr (List (List Nat) × List (List Bool)) :=
  rectangularize (groupValues gi.zipIdx Prod.fst Prod.snd)

/-- `x.put(ind, v)`. -/
def put {α : Type} (x : List α) (ind : List Nat) (v : α) : List α := ind.foldl (fun x i => x.set i v) x

/-- The step-function branch of `_assignvals` (`rt1/rtfits.py` lines 1587-1597): `x0` is the uninitialised array of
`np.empty(len(dataset))`, the positions of the groups are `_param_assigns_dataset[key]` (lines 1031-1038). -/
def assignDataset {κ α : Type} [DecidableEq κ] (x0 : List α) (dyn : List κ) (val : List α) : List α :=
  (val.zip (groupValues dyn.zipIdx Prod.fst Prod.snd)).foldl (fun x vi => put x vi.2 vi.1) x0

/-- `np.take(x, idx)` for a rectangular index array; positions outside of the array raise IndexError. -/
def take2 {α : Type} (x : List α) (idx : List (List Nat)) : Except PyErr (List (List α)) :=
  idx.mapM fun r => r.mapM fun i => match x[i]? with
    | some v => .ok v
    | none => .error .indexError

/-- `_assignvals` for one parameter without interpolation (`rt1/rtfits.py` lines 1586-1599). -/
def assignVals {κ κ' α : Type} [DecidableEq κ] [DecidableEq κ'] (gi : List κ) (x0 : List α) (dyn : List κ')
    (val : List α) : Except PyErr (List (List α)) := do
  let (idx, _) ← idxAssigns gi
  take2 (assignDataset x0 dyn val) idx

/-- `A[~mask]` for a two-dimensional array: the unmasked entries, row by row. -/
def unmask {α : Type} (A : List (List α)) (M : List (List Bool)) : List α :=
  (List.zipWith (fun r m => ((r.zip m).filter fun x => !x.2).map Prod.fst) A M).flatten

/-- `res_df` (`rt1/rtfits.py` lines 1453-1472) for one parameter: the unmasked values with the concatenated original index,
`groupby(level=0).first()`: the first value of each index label.  Simplified: no nan values, the sorting of the labels is
not modelled. -/
def resDf {κ κ' α τ : Type} [DecidableEq κ] [DecidableEq κ'] [DecidableEq τ] (index : List τ) (gi : List κ)
    (x0 : List α) (dyn : List κ') (val : List α) : Except PyErr (List (τ × Option α)) := do
  let A ← assignVals gi x0 dyn val
  let (_, M) ← getData gi index
  let flat := (grouped gi index).flatten.zip (unmask A M)
  return (groupbyUnsorted flat Prod.fst Prod.snd).map fun kv => (kv.1, kv.2.head?)

/-! ## fit vector -/

/-- A start value or boundary of a fitted parameter: a scalar or a list. -/
inductive StartVal
  | scalar (x : ℝ)
  | list (l : List ℝ)

/-- The shape adjustment at the end of `_startvaldict` (`rt1/rtfits.py` lines 1156-1163) for a parameter with `nunique`
dyn-groups. -/
def startVals (nunique : Nat) : StartVal → StartVal
  | .scalar x => if nunique ≥ 1 then .list (List.replicate nunique x) else .scalar x
  | .list l => .list l

/-- The shape adjustment of `_boundsvaldict` (`rt1/rtfits.py` lines 1175-1183): `val[0]*n`, `val[1]*n` if `val[0]` has
length one. -/
def boundVals (nunique : Nat) (b : List ℝ × List ℝ) : List ℝ × List ℝ :=
  if nunique ≥ 1 ∧ b.1.length = 1 then
    ((List.replicate nunique b.1).flatten, (List.replicate nunique b.2).flatten)
  else b

/-- The concatenation of the start values (`rt1/rtfits.py` lines 2350-2357). -/
def packStart (vals : List StartVal) : List ℝ :=
  vals.foldl (fun acc v => match v with
    | .scalar x => acc ++ [x]
    | .list l => acc ++ l) []

/-- The concatenation of the boundaries (`rt1/rtfits.py` lines 2344-2347). -/
def packBounds (vals : List (List ℝ × List ℝ)) : List ℝ × List ℝ :=
  vals.foldl (fun acc b => (acc.1 ++ b.1, acc.2 ++ b.2)) ([], [])

/-- `dict(zip(self._order, split_into(params, splitpos)))` in `fun`, `dfun` and for the results of the fit
(`rt1/rtfits.py` lines 2318-2319, 2336-2337, 2370-2371). -/
def unpack (order : List String) (splitpos : List Nat) (params : List ℝ) : List (String × List ℝ) :=
  order.zip (splitInto params (splitpos.map some))

/-! ## residuals -/

/-- Element-wise combination of two rectangular arrays of equal shape. -/
def map2 {α β γ : Type} (f : α → β → γ) (A : List (List α)) (B : List (List β)) : List (List γ) :=
  List.zipWith (List.zipWith f) A B

/-- `_calc_model` as an element-wise function of the incidence angle and the values of the parameters
(`rt1/rtfits.py` lines 1690-1791; the evaluation of the model is `F`): the arrays of all parameters are combined with the
incidence angles position by position.  `β` is the type of everything that is given for an observation: the incidence angle,
or the incidence angle and the values of the auxiliary parameters (the columns are grouped separately and in the same way). -/
def calcModel {β : Type} (F : β → List ℝ → ℝ) (inc : List (List β)) (pars : List (List (List ℝ))) : List (List ℝ) :=
  map2 (fun t ps => F t ps) inc
    (pars.foldr (fun p acc => map2 (fun x xs => x :: xs) p acc) (inc.map fun r => r.map fun _ => []))

/-- The residuals `(self.data_weights * (tot - self.data))[~self.mask]` (`rt1/rtfits.py` line 2323); `weights = none` is
the scalar `1.0` (lines 968-977).  `params` are the parameters with their dyn-groups and fitted values. -/
def residuals {κ κ' β : Type} [DecidableEq κ] [DecidableEq κ'] (F : β → List ℝ → ℝ) (gi : List κ) (inc : List β) (sig : List ℝ)
    (weights : Option (List ℝ)) (x0 : List ℝ) (params : List (List κ' × List ℝ)) : Except PyErr (List ℝ) := do
  let (inc', _) ← getData gi inc
  let (data, mask) ← getData gi sig
  let w ← match weights with
    | none => .ok (data.map fun r => r.map fun _ => (1 : ℝ))
    | some w => (getData gi w).map Prod.fst
  let pars ← params.mapM fun p => assignVals gi x0 p.1 p.2
  let tot := calcModel F inc' pars
  return unmask (map2 (fun w e => w * e) w (map2 (fun t d => t - d) tot data)) mask

/-! ## jacobian -/

/-- `_jac_assign_rule[key]` (`rt1/rtfits.py` lines 785-833): the row- and column-indexes.  `gd` is the rectangularized
array of the dyn-groups, flattened. -/
def jacRule {κ : Type} [DecidableEq κ] (gd : List κ) : List Nat × List Nat :=
  let u := groupValues gd.zipIdx Prod.fst Prod.snd
  ((u.mapIdx fun i v => List.replicate v.length i).flatten, u.flatten)

/-- The entry `(r, c)` of `csr_matrix((data, (row_ind, col_ind)))`: duplicate entries are summed. -/
noncomputable def csrEntry (data : List ℝ) (rows cols : List Nat) (r c : Nat) : ℝ :=
  (((data.zip (rows.zip cols)).filter fun x => x.2 = (r, c)).map Prod.fst).sum

/-- The rows of the jacobian of one parameter (`rt1/rtfits.py` lines 1869-1893), `d` the flattened outer derivative,
`dfdx` the flattened inner derivative (lines 1897-1945; 1 if there is none): a single row if there is only one group, the
sparse matrix otherwise. Entry `(r, c)`. -/
noncomputable def jacEntry {κ : Type} [DecidableEq κ] (gd : List κ) (d dfdx : List ℝ) (r c : Nat) : ℝ :=
  if (groupbyUnsorted gd (fun x => x) (fun x => x)).length = 1 then
    (if r = 0 then d.getD c 0 * dfdx.getD c 1 else 0)
  else csrEntry d (jacRule gd).1 (jacRule gd).2 r c * dfdx.getD c 1

/-- The jacobian of one parameter in the shape used by `least_squares` (`rt1/rtfits.py` lines 1950-1965): one row per
unmasked position, one column per dyn-group. -/
noncomputable def jacobian {κ κ' : Type} [DecidableEq κ] [DecidableEq κ'] (gi : List κ) (dyn : List κ')
    (d dfdx : List ℝ) : Except PyErr (List (List ℝ)) := do
  let (gd, mask) ← getData gi dyn
  let n := (groupbyUnsorted gd.flatten (fun x => x) (fun x => x)).length
  let cols := ((List.range gd.flatten.length).zip mask.flatten).filter fun x => !x.2
  return cols.map fun c => (List.range n).map fun r => jacEntry gd.flatten d dfdx r c.1

end RT1.Grouping
