import Verif.Model.General
import Verif.Model.Dict

/-!
# Model of the handling of parameters and exceptions during a run

`RTprocess._defdict_parser`, `RTprocess._postprocess_getparams`, `RTprocess._HDF_export_postprocess`
(`rt1/rtprocess.py`) and `rt1_processing_config.exceptfunc` (`rt1/processing_config.py`).
-/

namespace RT1
namespace Export

/-! ## `_defdict_parser` -/

/-- The frequency of a parameter (`val[2]`); `True`/`False` are integers in python. -/
inductive Freq
  | none
  | str (s : String)
  | int (i : ℤ)
  | other
  deriving DecidableEq

/-- A parameter definition, as far as it is used: `val[0] is True`, `val[1] == "auxiliary"`, `val[2]`. -/
structure Entry where
  fitted : Bool
  auxiliary : Bool
  freq : Freq
  deriving DecidableEq

/-- `parameter_specs` (`rt1/rtprocess.py` lines 1354-1364). -/
structure Specs where
  fitted : List String := []
  fittedConst : List String := []
  fittedDynamic : List String := []
  manual : List String := []
  index : List String := []
  datetime : List (String × String) := []
  integer : List (String × ℤ) := []
  constant : List String := []
  auxiliary : List String := []
  deriving DecidableEq

/-- One iteration of the loop (`rt1/rtprocess.py` lines 1366-1385). -/
def addSpec (p : Specs) (e : String × Entry) : Specs :=
  let key := e.1
  let val := e.2
  if val.fitted then
    let p := { p with fitted := p.fitted ++ [key] }
    match val.freq with
    | .none => { p with fittedConst := p.fittedConst ++ [key] }
    | .str s =>
      let p := { p with fittedDynamic := p.fittedDynamic ++ [key] }
      if s = "manual" then { p with manual := p.manual ++ [key] }
      else if s = "index" then { p with index := p.index ++ [key] }
      else { p with datetime := p.datetime ++ [(key, s)] }
    | .int i => { p with fittedDynamic := p.fittedDynamic ++ [key], integer := p.integer ++ [(key, i)] }
    | .other => { p with fittedDynamic := p.fittedDynamic ++ [key] }
  else if val.auxiliary then { p with auxiliary := p.auxiliary ++ [key] }
  else { p with constant := p.constant ++ [key] }

/-- `_defdict_parser` (`rt1/rtprocess.py` lines 1338-1387). -/
def defdictParser (defdict : Dict String Entry) : Specs := defdict.foldl addSpec {}

/-! ## `_postprocess_getparams` -/

/-- The part of a fit object used by `_postprocess_getparams`: the definitions, the columns of the dataset, the
keys of `reader_arg` and the `dB` flag. -/
structure FitInfo where
  defdict : Dict String Entry
  columns : List String
  readerArg : List String
  dB : Bool

/-- Where the values of an exported parameter are taken from: the dataset (possibly converted), the results of the
fit (`res_df`, `res_dict[key][0]`), the value in the definition (which cannot be read, see `getparam`), or `reader_arg`. -/
inductive Source
  | dataset
  | datasetDB
  | datasetDegree
  | resDf
  | resDict
  | defValue
  | readerArg
  deriving DecidableEq

/-- Is it a time series (`usedfs`) or a single value (`staticlayers`)? -/
def Source.dynamic : Source → Bool
  | .dataset | .datasetDB | .datasetDegree | .resDf => true
  | .resDict | .defValue | .readerArg => false

/-- The branches of the loop in `_postprocess_getparams` (`rt1/rtprocess.py` lines 1714-1747) for one key; none: nothing
is exported (with a warning, except if the key is in no list of `_defdict_parser`). -/
def source (f : FitInfo) (sigToDB incToDegree : Bool) (key : String) : Option Source :=
  let defs := defdictParser f.defdict
  if key = "sig" then
    if f.dB = false ∧ sigToDB = true then some .datasetDB else some .dataset
  else if key = "inc" ∧ incToDegree = true then some .datasetDegree
  else if key ∈ f.defdict.keys then
    if key ∈ defs.fittedDynamic then some .resDf
    else if key ∈ defs.fittedConst then some .resDict
    else if key ∈ defs.constant then some .defValue
    else if key ∈ defs.auxiliary then some .dataset
    else none
  else if key ∈ f.columns then
    if key ∈ ["tot", "surf", "vol", "inter"] ∧ f.dB = false ∧ sigToDB = true then some .datasetDB else some .dataset
  else if key ∈ f.readerArg then some .readerArg
  else none

/-- One iteration of the loop (`rt1/rtprocess.py` lines 1714-1747).  The value of a constant is read with `fit.defdict[key].val.value`
(line 1729), but `val` is already the value (`_RT1_variable.__getattribute__`, `rt1/_containers.py` lines 257-261), and a number has
no attribute `value`. -/
def getparam (f : FitInfo) (sigToDB incToDegree : Bool) (key : String) : Except PyErr (List (String × Source)) :=
  match source f sigToDB incToDegree key with
  | none => .ok []
  | some .defValue => .error .attributeError
  | some s => .ok [(key, s)]

/-- The exported parameters with their sources (without `auxdata` and the given `staticlayers`). -/
def getparams (f : FitInfo) (sigToDB incToDegree : Bool) (saveparams : List String) : Except PyErr (List (String × Source)) := do
  let l ← saveparams.mapM (getparam f sigToDB incToDegree)
  .ok l.flatten

/-! ## `_HDF_export_postprocess` -/

/-- The return value of an export function: `isinstance(val, (int, float, np.number))` or a series. -/
inductive Val
  | scalar (x : ℤ)
  | series (x : List ℤ)
  deriving DecidableEq

/-- The state of the loop over the export functions (`rt1/rtprocess.py` lines 1613-1622). -/
structure ExpState where
  parameters : List String
  statics : Dict String Val
  aux : Dict String Val

/-- One iteration: `parameters` is the set that has been passed to the function (not a copy). -/
def expStep {Fit : Type} (fit : Fit) (s : ExpState) (e : String × (Fit → Val)) : ExpState :=
  if e.1 ∈ s.parameters then
    match e.2 fit with
    | .scalar x => { s with statics := s.statics.set e.1 (.scalar x), parameters := s.parameters.filter (· ≠ e.1) }
    | .series x => { s with aux := s.aux.set e.1 (.series x) }
  else s

/-- What is exported for a fit: the model results, the results of the export functions, and the parameters passed to
`_postprocess_getparams`. -/
structure Exported where
  modelKeys : List String
  statics : Dict String Val
  aux : Dict String Val
  saveparams : List String

/-- The names of all exported parameters. -/
def Exported.names (e : Exported) : List String := e.modelKeys ++ e.statics.keys ++ e.aux.keys ++ e.saveparams

/-- `_HDF_export_postprocess` for one fit (`rt1/rtprocess.py` lines 1562-1633, without the metrics). The result
is the export and the content of the set `parameters` afterwards.
`set(parameters) ^ set(auxdata) ^ set(model_keys)`: the columns of `auxdata` are the model keys and the keys of `aux`.
Sets are lists without duplicates. -/
def exportOne {Fit : Type} (modelKeys : List String) (fns : List (String × (Fit → Val))) (parameters : List String)
    (fit : Fit) : Exported × List String :=
  let s := fns.foldl (expStep fit) ⟨parameters, [], []⟩
  let auxdata := modelKeys ++ s.aux.keys.filter (· ∉ modelKeys)
  let x := s.parameters.filter (· ∉ auxdata) ++ auxdata.filter (· ∉ s.parameters)
  let save := x.filter (· ∉ modelKeys) ++ modelKeys.filter (· ∉ x)
  (⟨modelKeys, s.statics, s.aux, save⟩, s.parameters)

/-- The fits that are handled by the same process with the same function object (`functools.partial`,
lines 1539-1546). -/
def exportBatch {Fit : Type} (modelKeys : List String) (fns : List (String × (Fit → Val))) :
    List String → List Fit → List Exported
  | _, [] => []
  | parameters, fit :: fits =>
    let r := exportOne modelKeys fns parameters fit
    r.1 :: exportBatch modelKeys fns r.2 fits

/-- `export_data_to_HDF` (`rt1/rtprocess.py` lines 1490-1492): `set(parameters) & {"tot", …}` and
`set(parameters) ^ model_keys`. -/
def splitParameters (parameters : List String) : List String × List String :=
  (parameters.dedup.filter (· ∈ ["tot", "surf", "vol", "inter"]),
   parameters.dedup.filter (· ∉ ["tot", "surf", "vol", "inter"]))

/-! ## `exceptfunc` -/

/-- A catched exception: the arguments (`ex.args`), only strings matter. -/
structure Exc where
  args : List String
  deriving DecidableEq

/-- What `exceptfunc` does: return None, return the result, raise the exception again, or raise KeyError
(`reader_arg["ID"]`). -/
inductive Handled (R : Type)
  | none
  | result (r : R)
  | reraise
  | keyError
  deriving DecidableEq

/-- `rt1_processing_config.exceptfunc` (`rt1/processing_config.py` lines 174-261) with the default
`get_names_ids` (lines 83-111). `id` is `reader_arg.get("ID")` as a string, `dumppath` is `rt1_procsesing_dumppath`
(lines 65-74: None if `save_path` or `dumpfolder` is not specified), `load` loads the dump file and creates the dict
(none: any exception). Log messages are not modelled. -/
def exceptfunc {R : Type} (dumppath : Option (List String)) (load : List String → Option R) (id : Option String)
    (ex : Exc) : Handled R :=
  match id with
  | none => .keyError
  | some id =>
    let filename := id ++ ".dump"
    if "rt1_skip" ∈ ex.args then .none
    else if "rt1_file_already_exists" ∈ ex.args then
      match dumppath with
      | none => .none
      | some p => match load (p ++ [filename]) with
        | some r => .result r
        | none => .none
    else if "rt1_data_error" ∈ ex.args then .none
    else if dumppath = none then .reraise
    else .none

end Export
end RT1
