import Verif.Model.Export
import Mathlib.Analysis.SpecialFunctions.Log.Basic
import Mathlib.Analysis.SpecialFunctions.Trigonometric.Basic

/-!
# Model of the exported tables (`RTprocess.export_data_to_HDF`, `_HDF_export_postprocess`, `_postprocess_getparams`)

The values that are exported for one fit.  Cells are real numbers (`none` is NaN), time stamps are integers.  The order of rows and
columns of joined tables and the names of the index-levels of the dynamic table are not modelled.  The pre-evaluated coefficients have
no effect on the results and are not modelled.
-/

namespace RT1
namespace ExportTables

/-- A `pd.Series` -/
structure Series where
  idx : List ℤ
  vals : List (Option ℝ)

/-- A `pd.DataFrame` -/
structure Frame where
  idx : List ℤ
  cols : List (String × List (Option ℝ))

/-- The value at a label of the index (NaN for missing labels). -/
def cellAt (idx : List ℤ) (vals : List (Option ℝ)) (t : ℤ) : Option ℝ :=
  match (idx.zip vals).find? fun e => e.1 = t with
  | some e => e.2
  | none => none

def Series.map (g : ℝ → ℝ) (s : Series) : Series := ⟨s.idx, s.vals.map (Option.map g)⟩

/-- A DataFrame with one column. -/
def Series.named (s : Series) (key : String) : Frame := ⟨s.idx, [(key, s.vals)]⟩

/-- `df[key]` -/
def Frame.series (F : Frame) (key : String) : Except PyErr Series :=
  match Dict.get? F.cols key with
  | some v => .ok ⟨F.idx, v⟩
  | none => .error .keyError

def Frame.names (F : Frame) : List String := F.cols.map Prod.fst

/-- A column with another index. -/
def reindex (u : List ℤ) (idx : List ℤ) (c : String × List (Option ℝ)) : String × List (Option ℝ) := (c.1, u.map (cellAt idx c.2))

/-- All labels. -/
def union (fs : List Frame) : List ℤ := (fs.flatMap Frame.idx).dedup

/-- `pd.concat(frames, axis=1)`: equal indexes are kept, otherwise the rows are joined by their labels.  `odd` are the results for
different indexes with duplicates (exceptions or duplicated rows, depending on the version). -/
def joinFrames (odd : List Frame → Except PyErr Frame) : List Frame → Except PyErr Frame
  | [] => .error .valueError
  | F :: fs =>
    if ∀ G ∈ fs, G.idx = F.idx then .ok ⟨F.idx, (F :: fs).flatMap Frame.cols⟩
    else if ∀ G ∈ F :: fs, G.idx.Nodup then
      .ok ⟨union (F :: fs), (F :: fs).flatMap fun G => G.cols.map (reindex (union (F :: fs)) G.idx)⟩
    else odd (F :: fs)

/-- A single value (in the static table). -/
inductive SVal
  | num (x : ℝ)
  | str (s : String)

/-- A static layer before it is converted to a table: a single value or a list. -/
inductive Arg
  | scalar (v : SVal)
  | list (l : List SVal)

/-- A pandas object that is returned by an export function. -/
inductive Obj
  | series (s : Series)
  | frame (F : Frame)

/-- The return value of an export function: `isinstance(val, (int, float, np.number))` or a pandas object. -/
inductive Out
  | scalar (x : ℝ)
  | obj (o : Obj)

/-- The value of a metric: a number, a dict (`linregress`) or None. -/
inductive MVal
  | num (x : ℝ)
  | dict
  | none

/-- A fit, as far as it is used. -/
structure Fit where
  /-- `fit._RT1_ID_num` -/
  num : Nat
  defdict : Dict String Export.Entry
  dataset : Frame
  /-- `res_df` -/
  resDf : Frame
  resDict : Dict String (List ℝ)
  readerArg : Dict String Arg
  dB : Bool
  /-- `calc_model(return_components=True)` -/
  model : Except PyErr Frame
  /-- `fit.metric.d1.d2.m` -/
  metric : (m d1 d2 : String) → Except PyErr MVal

/-- What the selection of the sources depends on (C86). -/
def Fit.info (f : Fit) : Export.FitInfo := ⟨f.defdict, f.dataset.names, f.readerArg.keys, f.dB⟩

/-- `10.0 * np.log10(x)` -/
noncomputable def toDB (x : ℝ) : ℝ := 10 * (Real.log x / Real.log 10)

/-- `np.rad2deg` -/
noncomputable def toDeg (x : ℝ) : ℝ := x * (180 / Real.pi)

/-! ## `_postprocess_getparams` -/

/-- `usedfs` and `staticlayers` -/
structure Acc where
  dfs : List Frame
  statics : Dict String Arg

def Acc.addSeries (s : Acc) (key : String) (x : Except PyErr Series) : Except PyErr Acc :=
  match x with
  | .ok x => .ok { s with dfs := s.dfs ++ [x.named key] }
  | .error e => .error e

/-- `fit.res_dict[key][0]` -/
def resValue (f : Fit) (key : String) : Except PyErr Arg :=
  match f.resDict.get? key with
  | some (x :: _) => .ok (.scalar (.num x))
  | some [] => .error .indexError
  | none => .error .keyError

/-- `fit.reader_arg[key]` -/
def argValue (f : Fit) (key : String) : Except PyErr Arg :=
  match f.readerArg.get? key with
  | some a => .ok a
  | none => .error .keyError

def Acc.addStatic (s : Acc) (key : String) (x : Except PyErr Arg) : Except PyErr Acc :=
  match x with
  | .ok x => .ok { s with statics := s.statics.set key x }
  | .error e => .error e

/-- One iteration of the loop (`rt1/rtprocess.py` lines 1714-1747).  The sources are those of C86; a missing column raises KeyError
(AttributeError for `sig` and `inc` in the code). -/
noncomputable def paramStep (f : Fit) (sigToDB incToDegree : Bool) (s : Acc) (key : String) : Except PyErr Acc :=
  match Export.source f.info sigToDB incToDegree key with
  | none => .ok s
  | some .dataset => s.addSeries key (f.dataset.series key)
  | some .datasetDB => s.addSeries key ((f.dataset.series key).map (Series.map toDB))
  | some .datasetDegree => s.addSeries key ((f.dataset.series key).map (Series.map toDeg))
  | some .resDf => s.addSeries key (f.resDf.series key)
  | some .resDict => s.addStatic key (resValue f key)
  | some .defValue => .error .attributeError
  | some .readerArg => s.addStatic key (argValue f key)

/-- One cell of `pd.DataFrame(staticlayers, index=[…])`: a list must have one element. -/
def argCell : String × Arg → Except PyErr (String × SVal)
  | (k, .scalar v) => .ok (k, v)
  | (k, .list [v]) => .ok (k, v)
  | (_, .list _) => .error .valueError

/-- The label of the rows: names and values of the index-levels. -/
abbrev Label := List (String × ℤ)

/-- The returned tables: the rows of `dynamic` are labelled with the given values and their time stamp, `static` has one row. -/
structure Ret where
  dynamic : Option (Label × Frame) := none
  static : Option (Label × Dict String SVal) := none
  metrics : Option (Label × Dict String (Option SVal)) := none

/-- The label of the dynamic table (`rt1/rtprocess.py` lines 1758-1762). -/
def dynLabel (x : String × ℤ) : Option (String × ℤ) → Label
  | none => [x]
  | some y => [x, y]

/-- The label of the static table (`rt1/rtprocess.py` lines 1766-1778): fixed names if there are two levels. -/
def staticLabel (x : String × ℤ) : Option (String × ℤ) → Label
  | none => [x]
  | some y => [("x", x.2), ("y", y.2)]

/-- `if auxdata is not None and len(auxdata) > 0` (`rt1/rtprocess.py` lines 1749-1750) -/
def appendAux (dfs : List Frame) : Option Frame → List Frame
  | none => dfs
  | some A => if A.idx.length = 0 then dfs else dfs ++ [A]

def dynamicTable (odd : List Frame → Except PyErr Frame) (label : Label) (dfs : List Frame) : Except PyErr (Option (Label × Frame)) :=
  if dfs.length = 0 then .ok none
  else match joinFrames odd dfs with
    | .ok F => .ok (some (label, F))
    | .error e => .error e

def staticTable (label : Label) (statics : Dict String Arg) : Except PyErr (Option (Label × Dict String SVal)) :=
  if statics.length = 0 then .ok none
  else match statics.mapM argCell with
    | .ok d => .ok (some (label, d))
    | .error e => .error e

/-- `_postprocess_getparams` (`rt1/rtprocess.py` lines 1651-1782). -/
noncomputable def getparams (odd : List Frame → Except PyErr Frame) (f : Fit) (saveparams : List String) (x : String × ℤ)
    (y : Option (String × ℤ)) (statics : Dict String Arg) (auxdata : Option Frame) (sigToDB incToDegree : Bool) : Except PyErr Ret := do
  let acc ← saveparams.foldlM (paramStep f sigToDB incToDegree) ⟨[], statics⟩
  let dyn ← dynamicTable odd (dynLabel x y) (appendAux acc.dfs auxdata)
  let stat ← staticTable (staticLabel x y) acc.statics
  .ok ⟨dyn, stat, none⟩

/-! ## `_HDF_export_postprocess` -/

/-- `auxdata`: a dict, or the model results. -/
inductive Aux
  | dict (d : Dict String Obj)
  | frame (F : Frame)

/-- `df[key] = series` for a new column: the values are aligned to the index of the DataFrame. -/
def assignCol (F : Frame) (key : String) (s : Series) : Except PyErr Aux :=
  if s.idx = F.idx then .ok (.frame ⟨F.idx, F.cols ++ [(key, s.vals)]⟩)
  else if s.idx.Nodup then .ok (.frame ⟨F.idx, F.cols ++ [reindex F.idx s.idx (key, s.vals)]⟩)
  else .error .valueError

/-- `auxdata[key] = val` (`rt1/rtprocess.py` line 1621); a DataFrame can be assigned to a column if it has one column. -/
def Aux.add (key : String) (o : Obj) : Aux → Except PyErr Aux
  | .dict d => .ok (.dict (d.set key o))
  | .frame F =>
    match o with
    | .series s => assignCol F key s
    | .frame G =>
      match G.cols with
      | [c] => assignCol F key ⟨G.idx, c.2⟩
      | _ => .error .valueError

/-- `set(auxdata)` -/
def Aux.names : Aux → List String
  | .dict d => d.keys
  | .frame F => F.names

/-- The columns of a dict of Series; DataFrames are no valid columns. -/
def objCol : String × Obj → Except PyErr Frame
  | (k, .series s) => .ok (s.named k)
  | (_, .frame _) => .error .valueError

/-- `pd.DataFrame(auxdata)` (`rt1/rtprocess.py` line 1627) -/
def Aux.toFrame (odd : List Frame → Except PyErr Frame) : Aux → Except PyErr Frame
  | .frame F => .ok F
  | .dict [] => .ok ⟨[], []⟩
  | .dict (e :: d) => do
    let l ← (e :: d).mapM objCol
    joinFrames odd l

/-- An export function. -/
abbrev Fn := Fit → Except PyErr Out

structure St where
  parameters : List String
  statics : Dict String Arg
  aux : Aux

/-- One iteration of the loop over the export functions (`rt1/rtprocess.py` lines 1614-1621). -/
def fnStep (f : Fit) (s : St) (e : String × Fn) : Except PyErr St :=
  if e.1 ∈ s.parameters then
    match e.2 f with
    | .error err => .error err
    | .ok (.scalar x) =>
      .ok { s with statics := s.statics.set e.1 (.scalar (.num x)), parameters := s.parameters.filter (· ≠ e.1) }
    | .ok (.obj o) =>
      match s.aux.add e.1 o with
      | .ok a => .ok { s with aux := a }
      | .error err => .error err
  else .ok s

/-- `fit.calc_model(return_components=True)[model_keys]` (`rt1/rtprocess.py` line 1611): `model_keys` is a set, `setOk` says if pandas
accepts it (TypeError otherwise, pandas >= 2). -/
def modelCols (setOk : Bool) (f : Fit) (keys : List String) : Except PyErr Frame := do
  let F ← f.model
  if setOk then do
    let cols ← keys.mapM fun k => (F.series k).map fun s => (k, s.vals)
    .ok ⟨F.idx, cols⟩
  else .error .typeError

/-- `auxdata` before the loop (`rt1/rtprocess.py` lines 1609-1611) -/
def initAux (setOk : Bool) (f : Fit) (keys : List String) : Except PyErr Aux :=
  if keys = [] then .ok (.dict [])
  else (modelCols setOk f keys).map .frame

/-- `a ^ b` for sets -/
def symDiff (a b : List String) : List String := a.filter (· ∉ b) ++ b.filter (· ∉ a)

/-- The definition of a metric: the string "custom", or a tuple. -/
inductive MSpec
  | custom
  | triple (m d1 d2 : String)

/-- The cell of a metric in `pd.DataFrame(metric_layer, index=[num])`: a dict is aligned to the index, its keys are no numbers. -/
def MVal.cell : MVal → Option SVal
  | .num x => some (.num x)
  | .dict => Option.none
  | .none => Option.none

/-- The cell of the return value of a custom function. -/
def Out.cell (num : Nat) : Out → Except PyErr (Option SVal)
  | .scalar x => .ok (some (.num x))
  | .obj (.series s) => if s.idx.Nodup then .ok ((cellAt s.idx s.vals num).map .num) else .error .valueError
  | .obj (.frame _) => .error .valueError

/-- `getattr(getattr(getattr(fit.metric, p[1]), p[2]), p[0].lower())` (`rt1/rtprocess.py` lines 1640-1642); the string "custom" is
treated like a tuple of characters. -/
def builtin (f : Fit) : MSpec → Except PyErr (Option SVal)
  | .custom => (f.metric "c" "u" "s").map MVal.cell
  | .triple m d1 d2 => (f.metric m.toLower d1 d2).map MVal.cell

/-- The value of a metric (`rt1/rtprocess.py` lines 1636-1642). -/
def metricCell (fns : Dict String Fn) (f : Fit) (e : String × MSpec) : Except PyErr (String × Option SVal) :=
  match e.2, Dict.get? fns e.1 with
  | .custom, some g =>
    match g f with
    | .error err => .error err
    | .ok o => (o.cell f.num).map fun c => (e.1, c)
  | p, _ => (builtin f p).map fun c => (e.1, c)

/-- `if metrics: …` (`rt1/rtprocess.py` lines 1634-1646) -/
def metricTable (fns : Dict String Fn) (metrics : Dict String MSpec) (f : Fit) :
    Except PyErr (Option (Label × Dict String (Option SVal))) :=
  if metrics.length = 0 then .ok none
  else match metrics.mapM (metricCell fns f) with
    | .ok d => .ok (some ([("ID", (f.num : ℤ))], d))
    | .error e => .error e

/-- `_HDF_export_postprocess` (`rt1/rtprocess.py` lines 1562-1648). -/
noncomputable def postprocess (setOk : Bool) (odd : List Frame → Except PyErr Frame) (parameters : List String) (metrics : Dict String MSpec)
    (fns : Dict String Fn) (modelKeys : List String) (sigToDB incToDegree : Bool) (f : Fit) : Except PyErr Ret := do
  let aux ← initAux setOk f modelKeys
  let s ← fns.foldlM (fnStep f) ⟨parameters, [], aux⟩
  let A ← s.aux.toFrame odd
  let ret ← getparams odd f (symDiff (symDiff s.parameters s.aux.names) modelKeys) ("ID", f.num) none s.statics (some A) sigToDB incToDegree
  let m ← metricTable fns metrics f
  .ok { ret with metrics := m }

/-- The tables that are exported for a fit by `export_data_to_HDF` (`rt1/rtprocess.py` lines 1484-1492, 1539-1546): the arguments
`sig_to_dB` and `inc_to_degree` are not passed on. -/
noncomputable def exportData (setOk : Bool) (odd : List Frame → Except PyErr Frame) (parameters : List String) (metrics : Dict String MSpec)
    (fns : Dict String Fn) (_sigToDB _incToDegree : Bool) (f : Fit) : Except PyErr Ret :=
  postprocess setOk odd (Export.splitParameters parameters).2 metrics fns (Export.splitParameters parameters).1 false false f

end ExportTables
end RT1
