import Mathlib.Data.List.Infix
import Verif.Model.Dict

/-!
# Model of the access to results (`RTresults` in `rt1/rtresults.py`)

The folder structure is a tree; the entries of a folder are listed in the order of `os.scandir`.  Names are lists of characters.
The content of a dump-file stands for the fit that is loaded from it; the database (`HDFaccessor`, see `Model/Database`) is a parameter.
-/

namespace RT1.Results

abbrev Name := List Char

/-- A file or a folder. -/
inductive Tree (C : Type)
  | file (c : C)
  | dir (entries : List (Name × Tree C))

variable {C : Type}

/-- `entry.is_dir()` -/
def Tree.isDir : Tree C → Bool
  | .file _ => false
  | .dir _ => true

def cfgN : Name := ['c', 'f', 'g']
def resultsN : Name := ['r', 'e', 's', 'u', 'l', 't', 's']
def dumpsN : Name := ['d', 'u', 'm', 'p', 's']
def dumpN : Name := ['.', 'd', 'u', 'm', 'p']
def errorN : Name := ['e', 'r', 'r', 'o', 'r']
def h5N : Name := ['.', 'h', '5']
def ncN : Name := ['.', 'n', 'c']
def iniN : Name := ['.', 'i', 'n', 'i']

/-- `Path.stem`: without the last suffix; a dot at the beginning or at the end belongs to the stem. -/
def stem (n : Name) : Name :=
  let suffix := n.reverse.takeWhile (· ≠ '.')
  match n.reverse.dropWhile (· ≠ '.') with
  | _ :: b :: base => if suffix = [] then n else (b :: base).reverse
  | _ => n

/-! ## recognized results -/

/-- `_check_folderstructure` (lines 128-137): only the first 100 entries are used. -/
def checkFolder (entries : List (Name × Tree C)) : Bool :=
  [cfgN, resultsN, dumpsN].all fun f => decide (f ∈ ((entries.take 100).filter fun e => e.2.isDir).map Prod.fst)

/-- `_addresult` (lines 139-147): the results are identified by the stem of the name of the folder. -/
def addResult (paths : Dict Name (List (Name × Tree C))) (name : Name) (entries : List (Name × Tree C)) :
    Dict Name (List (Name × Tree C)) :=
  if checkFolder entries then Dict.set paths (stem name) entries else paths

/-- The loop over the first 100 entries of the parent folder (lines 108-110). -/
def addSubfolders (paths : Dict Name (List (Name × Tree C))) : List (Name × Tree C) → Dict Name (List (Name × Tree C))
  | [] => paths
  | (n, .dir l) :: es => addSubfolders (addResult paths n l) es
  | (_, .file _) :: es => addSubfolders paths es

/-- `RTresults.__init__` (lines 97-110): `_paths`, with the entries of the folder instead of its path.  The attributes of the object are
set together with `_paths`, so that `getattr(self, key)` is the result for this folder (assuming that no folder has the name of another
attribute of the class). -/
def scanResults (name : Name) (entries : List (Name × Tree C)) : Dict Name (List (Name × Tree C)) :=
  if checkFolder entries then addResult [] name entries else addSubfolders [] (entries.take 100)

/-- `__getitem__` (lines 115-120) -/
def getResult (paths : Dict Name (List (Name × Tree C))) (key : Name) : Except PyErr (List (Name × Tree C)) :=
  match Dict.get? paths key with
  | some r => .ok r
  | none => .error .assertionError

/-! ## dump-files -/

/-- A file that is returned by `dump_files` (lines 432-437). -/
def isDump (e : Name × Tree C) : Bool :=
  decide (dumpN <:+ e.1) && !e.2.isDir && !decide (errorN <:+: e.1)

/-- `dump_files` with `use_dumps=True` (lines 430-438): the names of the files. -/
def dumpFiles (dumps : List (Name × Tree C)) : List Name := (dumps.filter isDump).map Prod.fst

/-- `load(path)` for a file of the folder. -/
def loadFile (dumps : List (Name × Tree C)) (n : Name) : Except PyErr C :=
  match Dict.get? dumps n with
  | some (.file c) => .ok c
  | _ => .error .osError

/-- `dump_fits` with `use_dumps=True` (lines 450-457): `load_fit(entry.name)` for all entries. -/
def dumpFits (dumps : List (Name × Tree C)) : Except PyErr (List C) := (dumpFiles dumps).mapM (loadFile dumps)

/-- The argument `ID` of `load_fit`; `path` is a `pathlib.Path` (here: a file of the dump-folder). -/
inductive Arg
  | none
  | int (i : Int)
  | str (s : Name)
  | path (n : Name)
  | other

/-- `fit_db.load_fit` of the database. -/
abbrev Db (C : Type) := Arg → Except PyErr C

/-- The state of `_RT1_fitresult` used here: `_use_dumps`, and `_dump_file_list` if it exists (lines 378-384). -/
structure Res where
  useDumps : Bool
  fileList : Option (List Name)

/-- `if not ID.endswith(".dump"): ID += ".dump"` (lines 362-363) -/
def dumpName (s : Name) : Name := if dumpN <:+ s then s else s ++ dumpN

/-- The file used by `load_fit` with dumps (lines 343-364), and the new state; `none` if there is no such file (lines 358-360).  `k` is the index
chosen by `numpy.random.choice`, which raises a ValueError for an empty list. -/
def dumpFile (dumps : List (Name × Tree C)) (r : Res) (k : Nat) : Arg → Except PyErr (Option Name) × Res
  | .path n => (.ok (some n), r)
  | .none =>
    let l := r.fileList.getD (dumpFiles dumps)
    (match l[k % l.length]? with
      | some n => .ok (some n)
      | none => .error .valueError, { r with fileList := some l })
  | .int i => (if i < 0 then .error .valueError else .ok (dumpFiles dumps)[i.toNat]?, r)
  | .str s => (.ok (some (dumpName s)), r)
  | .other => (.error .unboundLocalError, r)

/-- `load_fit` of the database (lines 367-374); the ID cannot be returned, since `filepath` is not defined. -/
def loadDb (db : Db C) (returnID : Bool) : Arg → Except PyErr (Option (C × Option Name))
  | .other => .error .assertionError
  | a => do
    let fit ← db a
    if returnID then .error .unboundLocalError else return some (fit, none)

/-- Loading the file of `dumpFile` (lines 366, 373-376). -/
def loadDump (dumps : List (Name × Tree C)) (returnID : Bool) : Option Name → Except PyErr (Option (C × Option Name))
  | none => .ok none
  | some n => do
    let fit ← loadFile dumps n
    return some (fit, if returnID then some (stem n) else none)

/-- Without `use_dumps` the database is used, except for a path (lines 342-344, 367-371). -/
def loadNoDump (dumps : List (Name × Tree C)) (db : Db C) (returnID : Bool) : Arg → Except PyErr (Option (C × Option Name))
  | .path n => loadDump dumps returnID (some n)
  | a => loadDb db returnID a

/-- `load_fit` (lines 309-376): the fit and (if requested) its ID, `none` if None is returned. -/
def loadFit (dumps : List (Name × Tree C)) (db : Db C) (r : Res) (k : Nat) (returnID : Bool) (a : Arg) :
    Except PyErr (Option (C × Option Name)) × Res :=
  if r.useDumps then
    ((dumpFile dumps r k a).1.bind (loadDump dumps returnID), (dumpFile dumps r k a).2)
  else
    (loadNoDump dumps db returnID a, r)

/-- `scan_folder` (lines 378-384) -/
def scanFolder (dumps : List (Name × Tree C)) (r : Res) : Res := { r with fileList := some (dumpFiles dumps) }

/-! ## files in the results-folder -/

/-- The entry of a file with the given ending in the dict of `_get_results` (lines 219-221). -/
def resultEntry (ending : Name) : Name × Tree C → Option (Name × C)
  | (n, .file c) => if ending <:+ n then some (stem n, c) else none
  | (_, .dir _) => none

/-- `_get_results(ending)` (lines 212-226): the files by their stem. -/
def getResults (ending : Name) (results : List (Name × Tree C)) : Dict Name C :=
  Dict.ofList (results.filterMap (resultEntry ending))

/-- The selection of the file in `load_hdf` and `load_nc` (lines 246-259, 284-299). -/
def loadResult (ending : Name) (results : List (Name × Tree C)) (name : Option Name) : Except PyErr C :=
  let d := getResults ending results
  match d, name with
  | [], _ => .error .assertionError
  | [e], none => .ok e.2
  | [e], some n => Dict.getItem [e] n
  | _ :: _ :: _, none => .error .assertionError
  | d, some n =>
    match Dict.get? d n with
    | some c => .ok c
    | none => .error .assertionError

/-- `load_cfg` (lines 386-416): the entry of the cfg-folder that is read by the configparser (see `Model/Config`).  A given name is not
checked. -/
def loadCfg (cfg : List (Name × Tree C)) (name : Option Name) : Except PyErr Name :=
  match (cfg.filter fun e => decide (iniN <:+ e.1)).map Prod.fst, name with
  | [], _ => .error .assertionError
  | _, some n => .ok n
  | [n], none => .ok n
  | _ :: _ :: _, none => .error .assertionError

end RT1.Results
