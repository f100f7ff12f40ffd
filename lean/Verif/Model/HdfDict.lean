import Verif.Model.Database

/-!
# Model of the tables that are stored for a fit (`Fits._get_fit_to_hdf_dict`, `MultiFits._get_fit_to_hdf_dict` in `rt1/rtfits.py`)

A table is a list of rows with the ID that has been prepended to the index.  The parts of a fit that are evaluated by other functions
(`_get_init_dict`, `_get_res_dict_df`, `res_df`) are given by their rows, or by the exception that they raise.
-/

namespace RT1
namespace HdfDict

/-- A value of a cell or of an index: a number, a string, or some other object. -/
inductive Val
  | num (n : Nat)
  | str (s : String)
  | obj (k : Nat)
deriving DecidableEq

abbrev Cells := List (String × Val)

/-- A DataFrame with a simple index. -/
abbrev DF := List (Int × Cells)

/-- The index without the ID (the config-name, the other index-value), and the cells. -/
structure Row where
  cfg : Option String
  idx : Option Int
  cells : Cells
deriving DecidableEq

abbrev Table := List (Val × Row)

/-- One `Fits` object. -/
structure Cfg where
  /-- `_get_init_dict()` (the values as strings) -/
  init : Except PyErr Cells
  /-- the keys of the parameters with `val[0] and val[2] == "manual"` -/
  manual : List String
  /-- `_get_res_dict_df(ID)` -/
  res : Except PyErr DF
  /-- `res_df` -/
  resDf : Except PyErr DF

/-- `Fits` or `MultiFits` -/
inductive Kind
  | single (c : Cfg)
  | multi (cs : List (String × Cfg))

/-- A value of `reader_arg`: a scalar, or a list. -/
inductive Arg
  | scalar (v : Val)
  | list (l : List Val)

/-- `aux_data`: a DataFrame, or a list of DataFrames (if the reader returns more than two values). -/
inductive Aux
  | frame (df : DF)
  | list (l : List DF)

structure Obj where
  kind : Kind
  /-- the attribute `_RT1_ID_num` -/
  idNum : Option Val
  /-- the attribute `ID` -/
  ident : Except PyErr Val
  dataset : Option DF
  aux : Option Aux
  /-- `None` is an empty dict -/
  readerArg : List (String × Arg)

/-- The keyword-arguments; `save_res_df` is none if it is not provided. -/
structure Kwargs where
  saveResults : Bool := true
  saveResDf : Option Bool := none
  saveData : Bool := true
  saveAux : Bool := true

/-- `_prepend_ID_to_index` (`rt1/rtfits.py` lines 2870-2875); the name of the index is not modelled. -/
def prependID (ID : Val) (df : DF) : Table := df.map fun e => (ID, ⟨none, some e.1, e.2⟩)

/-- `pd.concat(frames)`: ValueError without frames. -/
def concat (l : List Table) : Except PyErr Table := if l.isEmpty then .error .valueError else .ok l.flatten

/-- `init_dict` (`rt1/rtfits.py` lines 2918-2942) -/
def initTable (ID : Val) : Kind → Except PyErr Table
  | .single c => do
    let a ← c.init
    .ok [(ID, ⟨none, none, a⟩)]
  | .multi cs => do
    let l ← cs.mapM fun nc => do
      let a ← nc.2.init
      .ok ([(ID, ⟨some nc.1, none, a⟩)] : Table)
    concat l

/-- One column of `pd.DataFrame(self.reader_arg, [ID])`: a list must have one element. -/
def argCell : String × Arg → Except PyErr (String × Val)
  | (k, .scalar v) => .ok (k, v)
  | (k, .list [v]) => .ok (k, v)
  | (_, .list _) => .error .valueError

/-- `reader_arg` (`rt1/rtfits.py` lines 2944-2954) -/
def argTable (ID : Val) (arg : List (String × Arg)) : Table :=
  match arg.mapM argCell with
  | .ok cells => [(ID, ⟨none, none, cells⟩)]
  | .error _ => [(ID, ⟨none, none, [("ID", ID)]⟩)]

/-- The cell of a column; KeyError for missing columns. -/
def cellOf (cells : Cells) (c : String) : Except PyErr (String × Val) :=
  match Dict.get? cells c with
  | some v => .ok (c, v)
  | none => .error .keyError

/-- A row with the given columns only. -/
def selectRow (cols : List String) (e : Int × Cells) : Except PyErr (Int × Cells) := do
  let cells ← cols.mapM (cellOf e.2)
  .ok (e.1, cells)

/-- `getattr(self, "dataset", None)[dynkeys]` (`rt1/rtfits.py` line 2977): TypeError for None; `setOk`: pandas accepts a set of columns
(TypeError otherwise, pandas >= 2).  The order of the columns of a set is not modelled. -/
def dynCols (setOk : Bool) (dataset : Option DF) (cols : List String) : Except PyErr DF :=
  match dataset with
  | none => .error .typeError
  | some df => if setOk then df.mapM (selectRow cols) else .error .typeError

/-- `dynkeys` (`rt1/rtfits.py` lines 2962-2976); `self.defdict` of a `MultiFits` object raises AttributeError. -/
def dynKeys : Kind → Except PyErr (List String)
  | .single c => .ok (c.manual.map fun k => k ++ "_dyn")
  | .multi [] => .ok []
  | .multi _ => .error .attributeError

/-- `dataset` (`rt1/rtfits.py` lines 2956-2981); none: nothing is stored. -/
def dataTable (setOk : Bool) (o : Obj) (kw : Kwargs) (ID : Val) : Except PyErr (Option Table) :=
  if kw.saveData then .ok (o.dataset.map (prependID ID))
  else if kw.saveResults then do
    let cols ← dynKeys o.kind
    let df ← dynCols setOk o.dataset cols
    .ok (some (prependID ID df))
  else .ok none

/-- `aux_data` (`rt1/rtfits.py` lines 2983-2990): the index of a list cannot be used (TypeError). -/
def auxTable (o : Obj) (kw : Kwargs) (ID : Val) : Except PyErr (Option Table) :=
  if kw.saveAux then
    match o.aux with
    | none => .ok none
    | some (.frame df) => .ok (some (prependID ID df))
    | some (.list _) => .error .typeError
  else .ok none

/-- The rows of one config. -/
def cfgRows (ID : Val) (cfg : Option String) (df : DF) : Table := df.map fun e => (ID, ⟨cfg, some e.1, e.2⟩)

/-- `res_dict` and `res_df` (`rt1/rtfits.py` lines 2992-3005, 3007-3025) -/
def resTable (get : Cfg → Except PyErr DF) (ID : Val) : Kind → Except PyErr Table
  | .single c => do
    let df ← get c
    .ok (cfgRows ID none df)
  | .multi cs => do
    let l ← cs.mapM fun nc => do
      let df ← get nc.2
      .ok (cfgRows ID (some nc.1) df)
    concat l

/-- `try: hf[key] = … except Exception: …` -/
def tryAdd (hf : Dict String Table) (key : String) : Except PyErr (Option Table) → Dict String Table
  | .ok (some t) => hf.set key t
  | .ok none => hf
  | .error _ => hf

/-- `if flag is True: try: …` -/
def ifFlag (flag : Bool) (x : Except PyErr Table) : Except PyErr (Option Table) := if flag then x.map some else .ok none

/-- The tables for a given ID (`rt1/rtfits.py` lines 2916-3027). -/
def tables (setOk : Bool) (o : Obj) (kw : Kwargs) (ID : Val) : Dict String Table :=
  let hf : Dict String Table := []
  let hf := tryAdd hf "init_dict" ((initTable ID o.kind).map some)
  let hf := hf.set "const__reader_arg" (argTable ID o.readerArg)
  let hf := tryAdd hf "dataset" (dataTable setOk o kw ID)
  let hf := tryAdd hf "aux_data" (auxTable o kw ID)
  let hf := tryAdd hf "res_dict" (ifFlag kw.saveResults (resTable Cfg.res ID o.kind))
  tryAdd hf "res_df" (ifFlag (kw.saveResDf.getD true) (resTable Cfg.resDf ID o.kind))

/-- The ID that is used (`rt1/rtfits.py` lines 2911-2915). -/
def useID (o : Obj) : Option Val → Except PyErr Val
  | some v => .ok v
  | none =>
    match o.idNum with
    | some v => .ok v
    | none => o.ident

/-- `_get_fit_to_hdf_dict` (`rt1/rtfits.py` lines 2877-3027 and 3224-3233): the method of `MultiFits` has no argument `save_res_df`. -/
def hdfDict (setOk : Bool) (o : Obj) (kw : Kwargs) (ID : Option Val) : Except PyErr (Dict String Table) :=
  match o.kind, kw.saveResDf with
  | .multi _, some _ => .error .typeError
  | _, _ =>
    match useID o ID with
    | .error e => .error e
    | .ok v => .ok (tables setOk o kw v)

/-- The results of `_evalfunc` for a site that has just been fitted (`rt1/rtprocess.py` lines 511-513, 543-545); `num` is
`reader_arg.get("_RT1_ID_num", None)`. -/
def fresh (setOk : Bool) (o : Obj) (kw : Kwargs) (num : Option Val) : Except PyErr (Dict String Table) := hdfDict setOk o kw num

/-- The results for a site whose fit has been dumped by a previous run (`rt1/processing_config.py` lines 225-226). -/
def existing (setOk : Bool) (o : Obj) : Except PyErr (Dict String Table) := hdfDict setOk o {} none

/-! ## The database -/

/-- A site: its number, its string-ID and its tables. -/
structure Site where
  num : Nat
  ident : String
  hf : Dict String Table

/-- The rows of a table with the number as index; rows with other labels cannot be stored in the same table. -/
def numRows (t : Table) : Database.Frame Row :=
  t.filterMap fun e => match e.1 with
    | .num n => some (n, e.2)
    | _ => none

/-- The rows of all sites (in the order in which they are written), none if there is no such table. -/
def stored (sites : List Site) (key : String) : Option (Database.Frame Row) :=
  match sites.filterMap fun s => s.hf.get? key with
  | [] => none
  | l => some (l.map numRows).flatten

def addTable (sites : List Site) (d : Dict String (Database.Table Row)) (e : String × String × Bool) : Dict String (Database.Table Row) :=
  match stored sites e.2.1 with
  | none => d
  | some f => d.set e.1 ⟨e.2.2, f⟩

/-- The database with the results of the sites: the keys of the tables (without `const__`, see C55), and their rows.  `multi`: the fits are
`MultiFits` objects. -/
def database (multi : Bool) (sites : List Site) : Database.DB Row where
  ids := sites.map fun s => (s.num, s.ident)
  tables := [("init_dict", "init_dict", multi), ("reader_arg", "const__reader_arg", false), ("dataset", "dataset", true),
    ("aux_data", "aux_data", true), ("res_dict", "res_dict", true), ("res_df", "res_df", true)].foldl (addTable sites) []

end HdfDict
end RT1
