import Verif.Model.Dict

/-!
# Model of the metric keys (`rt1/rtmetrics.py`, `_metric_keys`, `_RTmetrics1`)

Strings are lists of characters.
-/

namespace RT1.MetricKeys
open General

abbrev Str := List Char

/-- The sources of data (`rt1/rtmetrics.py` lines 96-101). -/
inductive Source
  | dataset | calc_model | res_df | auxdat
  deriving DecidableEq, Repr

def Source.name : Source → Str
  | .dataset => "dataset".toList
  | .calc_model => "calc_model".toList
  | .res_df => "res_df".toList
  | .auxdat => "auxdat".toList

/-- The names of the available columns: numeric columns of the dataset, model components, retrieved parameters and columns
of the auxiliary data (`rt1/rtmetrics.py` lines 23-34). -/
structure Cols where
  data : List Str
  int_Q : Bool
  ret : List Str
  aux : Option (List Str)

/-- `_modelkeys` (lines 24, 33-34). -/
def Cols.model (c : Cols) : List Str :=
  ["tot".toList, "surf".toList, "vol".toList] ++ if c.int_Q then ["inter".toList] else []

/-- `_auxkeys` (lines 27-30). -/
def Cols.auxkeys (c : Cols) : List Str := c.aux.getD []

/-- `zip(suffix, all_keys)` (lines 91-105). -/
def Cols.all (c : Cols) : List (Source × Str) :=
  c.data.map (Source.dataset, ·) ++ c.model.map (Source.calc_model, ·) ++ c.ret.map (Source.res_df, ·) ++
    c.auxkeys.map (Source.auxdat, ·)

/-- The entries added to `newgrps` for one group (lines 112-119). -/
def entries (g : Str × List Source) : List (Str × Source) :=
  if 1 < g.2.length then g.2.map fun i => (g.1 ++ "__".toList ++ i.name, i)
  else match g.2 with
    | i :: _ => [(g.1, i)]
    | [] => []

/-- `_check_keys` (lines 90-125): `_all_keys`, a dict of metric keys and their source. -/
def checkKeys (c : Cols) : Dict Str Source :=
  Dict.ofList ((groupbyUnsorted c.all Prod.snd Prod.fst).flatMap entries)

/-- Does the string `d` end with `e`? -/
def endsWith (d e : Str) : Bool := e.isSuffixOf d

/-- The source and the column of a metric key (`_RTmetrics1.__init__`, lines 137-152); AssertionError for unknown keys. -/
def resolve (keys : Dict Str Source) (d : Str) : Except PyErr (Source × Str) :=
  match keys.get? d with
  | none => .error .assertionError
  | some s =>
    let e := "__".toList ++ s.name
    .ok (s, if endsWith d e then d.take (d.length - e.length) else d)

/-- The columns of a source. -/
def Cols.colsOf (c : Cols) : Source → List Str
  | .dataset => c.data
  | .calc_model => c.model
  | .res_df => c.ret
  | .auxdat => c.auxkeys

/-- `_get_data` (lines 157-168): the selected column, KeyError if the source has no such column. -/
def getData (c : Cols) (d : Str) : Except PyErr (Source × Str) := do
  let (s, k) ← resolve (checkKeys c) d
  if k ∈ c.colsOf s then .ok (s, k) else .error .keyError

end RT1.MetricKeys
