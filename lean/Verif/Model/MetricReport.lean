import Verif.Model.MetricKeys
import Verif.Model.ModelDef

/-!
# Model of the access to metrics and of the metric reports (`rt1/rtmetrics.py`: `_metric_keys.__init__`, `RTmetrics.allmetrics`,
`metrics_table`, `scatterplot`)

Texts are lists of characters.  The values of the metrics are modelled in `Model/Metrics`, the keys in `Model/MetricKeys`; here a metric is
any function with a number or a dict as result.  The formatting of numbers is a parameter.
-/

namespace RT1.MetricReport
open General MetricKeys

abbrev ljust := ModelDef.ljust

/-! ## The attributes -/

/-- The two columns of a `_RTmetrics1` object (lines 136-152). -/
abbrev Pair := (Source × Str) × (Source × Str)

def newPair (keys : Dict Str Source) (k1 k2 : Str) : Except PyErr Pair := do
  let a ← resolve keys k1
  let b ← resolve keys k2
  .ok (a, b)

/-- `permutations(l, 2)` -/
def permutations2 {α : Type} (l : List α) : List (α × α) :=
  l.zipIdx.flatMap fun a => l.zipIdx.filterMap fun b => if a.2 ≠ b.2 then some (a.1, b.1) else none

/-- Attributes of the object that are set before (lines 23-36).  (Names of attributes of all python objects like `__doc__` are not
modelled.) -/
def reserved : List Str :=
  ["_datakeys".toList, "_modelkeys".toList, "_retrievalkeys".toList, "_auxkeys".toList, "_all_keys".toList, "_check_keys".toList]

abbrev Attrs := Dict Str (Dict Str Pair)

/-- One step of the loop (lines 72-87): an attribute cannot be set for the reserved attributes (AttributeError). -/
def addPair (keys : Dict Str Source) (at_ : Attrs) (k : Str × Str) : Except PyErr Attrs :=
  if k.1 ∈ reserved then .error .attributeError
  else do
    let p ← newPair keys k.1 k.2
    .ok (at_.set k.1 (((at_.get? k.1).getD []).set k.2 p))

/-- The argument `d2`: a name, or a series (which cannot be hashed). -/
inductive D2
  | name (s : Str)
  | series

/-- `_metric_keys.__init__` (lines 22-87) for the keys of `_check_keys`: `_RTmetrics1(d1=d1, d2=d2, fit=fit)` (line 54) has not all
required arguments (TypeError); `d2 in all_keys` (line 138) of a series raises TypeError.  (A `d1` that is one of the reserved names is not
modelled.) -/
def metricKeys (keys : Dict Str Source) : Option Str → Option D2 → Except PyErr Attrs
  | none, _ => (permutations2 keys.keys).foldlM (addPair keys) []
  | some d1, none => do
    let ps ← keys.keys.mapM fun k2 => (newPair keys d1 k2).map fun p => (k2, p)
    .ok [(d1, ps)]
  | some _, some (.name _) => .error .typeError
  | some d1, some .series => if d1 ∈ keys.keys then .error .typeError else .error .assertionError

/-! ## All metrics -/

variable {N : Type}

/-- The value of a metric; `f32` is a number that is no instance of `int` or `float` (e.g. `np.float32`), `none` is None. -/
inductive Val (N : Type)
  | float (x : N)
  | int (x : N)
  | f32 (x : N)
  | none

/-- A dict of values and dicts. -/
inductive Entries (N : Type)
  | nil
  | val (key : Str) (v : Val N) (rest : Entries N)
  | dict (key : Str) (sub : Entries N) (rest : Entries N)

/-- The result of a metric. -/
inductive Metric (N : Type)
  | val (v : Val N)
  | dict (sub : Entries N)

/-- `metrics_registry` (lines 240-250) -/
def registry : List Str :=
  ["pearson".toList, "spearman".toList, "linregress".toList, "rmsd".toList, "ub_rmsd".toList, "bias".toList, "mae".toList, "mape".toList,
    "std_ratio".toList]

def ofMetrics : List (Str × Metric N) → Entries N
  | [] => .nil
  | (k, .val v) :: l => .val k v (ofMetrics l)
  | (k, .dict s) :: l => .dict k s (ofMetrics l)

/-- `allmetrics` (lines 461-481) -/
def allmetrics (fn : Str → Except PyErr (Metric N)) : Except PyErr (List (Str × Metric N)) :=
  registry.mapM fun k => (fn k).map fun m => (k, m)

/-- Formats of numbers: `abs(x) < 1e5`, `f"{x:.6f}"`, `f"{Decimal(x):.6E}"`, `"%1.3f" % x`. -/
structure Fmt (N : Type) where
  small : N → Bool
  fix6 : N → Str
  sci6 : N → Str
  fix3 : N → Str

/-- `f"{key:<{13 - depth_offset}}"` (lines 669-670): a negative width raises ValueError. -/
def metricCell (depth : Nat) (key : Str) : Except PyErr Str :=
  if 13 < 2 * depth then .error .valueError else .ok (ljust (13 - 2 * depth) key)

def indent (depth : Nat) : Str := ' ' :: List.replicate (2 * depth) '-'

/-- `valstr` (lines 673-677) -/
def valstr (F : Fmt N) (x : N) : Str := ljust 14 (if F.small x then F.fix6 x else F.sci6 x)

/-- The row of a value (lines 672-678): nothing for other values. -/
def valRow (F : Fmt N) (depth : Nat) (cell : Str) : Val N → Str
  | .float x => indent depth ++ cell ++ ['|', ' '] ++ valstr F x ++ ['|', '\n']
  | .int x => indent depth ++ cell ++ ['|', ' '] ++ valstr F x ++ ['|', '\n']
  | .f32 _ => []
  | .none => []

/-- The row of a dict (lines 680-683) -/
def dictRow (depth : Nat) (cell : Str) : Str := indent depth ++ ljust (29 - 2 * depth) (cell ++ ['|']) ++ ['|', '\n']

/-- `_metrics_table_dict_entry` (lines 648-687) -/
def tableEntries (F : Fmt N) (depth : Nat) : Entries N → Except PyErr Str
  | .nil => .ok []
  | .val k v rest => do
    let cell ← metricCell depth k
    let r ← tableEntries F depth rest
    .ok (valRow F depth cell v ++ r)
  | .dict k sub rest => do
    let cell ← metricCell depth k
    let s ← tableEntries F (depth + 1) sub
    let r ← tableEntries F depth rest
    .ok (dictRow depth cell ++ s ++ r)

def header : Str := List.replicate 11 '-' ++ " METRICS ".toList ++ List.replicate 11 '-' ++ ['\n']

def columns : Str := ljust 14 "     METRIC".toList ++ ljust 15 "|     VALUE".toList ++ [' ', '|', '\n']

/-- The printed text of `metrics_table` (lines 619-646). -/
def metricsTable (F : Fmt N) (fn : Str → Except PyErr (Metric N)) : Except PyErr Str := do
  let m ← allmetrics fn
  let e ← tableEntries F 0 (ofMetrics m)
  .ok (header ++ columns ++ e)

/-! ## The table of the scatterplot -/

def flatKey (depth : Nat) (key : Str) : Str := List.replicate depth '-' ++ ' ' :: key

/-- The items of `_flatten_dictionary` (lines 606-615). -/
def flattenItems (depth : Nat) : Entries N → List (Str × Option N)
  | .nil => []
  | .val k (.float x) rest => (flatKey depth k, some x) :: flattenItems depth rest
  | .val _ (.int _) rest => flattenItems depth rest
  | .val _ (.f32 _) rest => flattenItems depth rest
  | .val _ .none rest => flattenItems depth rest
  | .dict k sub rest => (flatKey depth k, none) :: (Dict.ofList (flattenItems (depth + 1) sub) ++ flattenItems depth rest)

/-- `_flatten_dictionary` (lines 588-617); none is the empty string. -/
def flatten (e : Entries N) : Dict Str (Option N) := Dict.ofList (flattenItems 0 e)

/-- `d[key]` -/
def Entries.get : Entries N → Str → Except PyErr (Metric N)
  | .nil, _ => .error .keyError
  | .val k v rest, key => if k = key then .ok (.val v) else rest.get key
  | .dict k s rest, key => if k = key then .ok (.dict s) else rest.get key

/-- `metrics_dict["linregress"]["intercept"]` etc. (lines 515-518): None cannot be subscripted (TypeError). -/
def regression (e : Entries N) : Except PyErr (Metric N × Metric N × Metric N) := do
  match ← e.get "linregress".toList with
  | .val _ => .error .typeError
  | .dict s => do
    let a ← s.get "intercept".toList
    let b ← s.get "slope".toList
    let c ← s.get "stderr".toList
    .ok (a, b, c)

/-- The texts of the cells (lines 555-560). -/
def cell (F : Fmt N) : Option N → Str
  | some x => F.fix3 x
  | none => []

/-- The rows of the table next to the scatterplot (lines 508-586): name and text.  The plot itself is not modelled. -/
def scatterTable (F : Fmt N) (fn : Str → Except PyErr (Metric N)) : Except PyErr (List (Str × Str)) := do
  let m ← allmetrics fn
  let _ ← regression (ofMetrics m)
  .ok ((flatten (ofMetrics m)).map fun e => (e.1, cell F e.2))

end RT1.MetricReport
