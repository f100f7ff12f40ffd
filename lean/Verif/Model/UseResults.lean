import Verif.Model.Results

/-!
# Model of the choice of the stored fits for final outputs (`RTprocess._get_files`, `run_finaloutput`, `export_data_to_HDF` in
`rt1/rtprocess.py`, and the cached access to the database in `rt1/rtresults.py`)

A results-folder consists of the fits in `results/fit_db.h5` (if the file exists) and of the dump-files, each with their IDs.  `C` are the
stored fits, `I` the IDs.  What is done with the loaded fits is modelled in `Model/FinalOut`, the selection of the IDs that are not yet part
of the output-file in `Model/Ids`, and reading of the files in `Model/Results` and `Model/Database`.
-/

namespace RT1.UseResults

abbrev Name := List Char

/-- `save_path` and `dumpfolder` -/
abbrev Conf := Name × Name

structure Folder (I C : Type) where
  db : Option (List (I × C))
  dumps : List (I × C)

abbrev FS (I C : Type) := Conf → Option (Folder I C)

variable {I C : Type} [DecidableEq I]

/-- A `_RT1_fitresult` object (`rt1/rtresults.py` lines 150-159): its folder, `_use_dumps`, was `fit_db.h5` found when the folder has been
scanned (`"fit_db" in self._hdf_paths`), and the IDs of the cached handler `fit_db` (lines 192-199; the IDs are read when the file is opened,
lines 499-512). -/
structure Res (I : Type) where
  key : Conf
  useDumps : Bool
  hasDb : Bool
  handler : Option (List I)

/-- The object that is created for a folder (`_addresult`, lines 139-147, 150-159). -/
def newRes (fs : FS I C) (key : Conf) (useDumps : Bool) : Res I :=
  ⟨key, useDumps, ((fs key).bind Folder.db).isSome, none⟩

/-- `fit_db.IDs` (lines 192-199): the cached handler, otherwise the file is opened.  AssertionError if the file is not found.  Not modelled: a
handler that is closed, or removed from the cache, in between. -/
def fitDb (fs : FS I C) (r : Res I) : Except PyErr (List I × Res I) :=
  match r.handler with
  | some l => .ok (l, r)
  | none =>
    if r.hasDb then
      match (fs r.key).bind Folder.db with
      | some l => .ok (l.map Prod.fst, { r with handler := some (l.map Prod.fst) })
      | none => .error .assertionError
    else .error .assertionError

/-- `list(dump_files)` (lines 419-440) -/
def dumpFiles (fs : FS I C) (r : Res I) : Except PyErr (List I × Res I) :=
  if r.useDumps then
    match fs r.key with
    | some f => .ok (f.dumps.map Prod.fst, r)
    | none => .error .osError
  else fitDb fs r

def find (l : List (I × C)) (i : I) : Option C := (l.find? fun e => decide (e.1 = i)).map Prod.snd

/-- `load_fit(ID)` in a process without cached handlers (the worker processes are spawned and get a copy of the object; lines 302-376):
none if an error is raised. -/
def loadFit (fs : FS I C) (r : Res I) (i : I) : Option C :=
  match fs r.key with
  | none => none
  | some f =>
    if r.useDumps then find f.dumps i
    else if r.hasDb then f.db.bind fun l => find l i
    else none

/-- An `RTprocess` object: the folder of the config-file, the folder set by `override_config` (`init_kwargs`), `cfg` (the folder of the
configuration at the last call of `setup`, none if the attribute does not exist), and `_useres` (if it exists). -/
structure Proc (I : Type) where
  ini : Conf
  kw : Option Conf
  cfg : Option Conf
  useres : Option (Res I)

/-- The folder that is used by `setup` (`rt1/rtprocess.py` lines 271-298). -/
def Proc.conf (p : Proc I) : Conf := p.kw.getD p.ini

/-- `_make_folderstructure` in `setup` (lines 325-329) -/
def mkFolder (fs : FS I C) (key : Conf) : FS I C := fun k => if k = key then some ((fs key).getD ⟨none, []⟩) else fs k

/-- `setup` (lines 263-376): the folder is created, and `cfg` is set. -/
def setup (fs : FS I C) (p : Proc I) : FS I C × Proc I := (mkFolder fs p.conf, { p with cfg := some p.conf })

/-- `getattr(RTresults(self.dumppath, use_dumps=use_dumps), self.proc_cls.dumpfolder)` (lines 1325-1328): results are attributes with the stem
of the name of the folder, see C105.  (The processing class has the dumpfolder of the configuration.) -/
def getRes (fs : FS I C) (key : Conf) (useDumps : Bool) : Except PyErr (Res I) :=
  if Results.stem key.2 = key.2 then .ok (newRes fs key useDumps) else .error .attributeError

/-- `self._useres`: it is only set if it does not exist (lines 1325-1328). -/
def useRes (fs : FS I C) (p : Proc I) (useDumps : Bool) : Except PyErr (Res I) :=
  match p.useres with
  | some r => .ok r
  | none => getRes fs p.conf useDumps

/-- `_get_files` (lines 1324-1336) after `setup`. -/
def getFiles (fs : FS I C) (p : Proc I) (n : Option Nat) (useDumps : Bool) : Except PyErr (List I) × Proc I :=
  match useRes fs p useDumps with
  | .error e => (.error e, p)
  | .ok r =>
    match dumpFiles fs r with
    | .error e => (.error e, { p with useres := some r })
    | .ok (l, r) => (.ok (match n with | some n => l.take n | none => l), { p with useres := some r })

/-- The argument `fitlist`: dicts with an ID, or paths. -/
inductive FitList (I : Type)
  | dicts (l : List I)
  | paths (l : List Name)

/-- The fits that are loaded by the workers (`_finalout_reader`, lines 1210-1215): without `_useres` an AttributeError is caught for all IDs. -/
def loadAll (fs : FS I C) (p : Proc I) (l : List I) : List (I × Option C) :=
  l.map fun i => (i, match p.useres with | some r => loadFit fs r i | none => none)

/-- The tasks for a given list (`_check_IDs`, `rt1/_rtprocess_writer.py` lines 355-358): a string is no mapping (TypeError). -/
def runList (fs : FS I C) (p : Proc I) : FitList I → Except PyErr (List (I × Option C))
  | .dicts l => .ok (loadAll fs p l)
  | .paths [] => .ok []
  | .paths (_ :: _) => .error .typeError

/-- The result of an operation: the loaded fits (none: cannot be loaded), the folders and the object. -/
structure Out (I C : Type) where
  res : Except PyErr (List (I × Option C))
  fs : FS I C
  proc : Proc I

/-- `run_finaloutput` (lines 973-1148): the fits given to the postprocess function. -/
def finalout (fs : FS I C) (p : Proc I) (fitlist : Option (FitList I)) (n : Option Nat) (useDumps : Bool) : Out I C :=
  let s := setup fs p
  match fitlist with
  | some l => ⟨runList s.1 s.2 l, s.1, s.2⟩
  | none =>
    match getFiles s.1 s.2 n useDumps with
    | (.error e, p') => ⟨.error e, s.1, p'⟩
    | (.ok l, p') => ⟨.ok (loadAll s.1 p' l), s.1, p'⟩

/-- The specifications used by `export_data_to_HDF` (lines 1496-1500). -/
def Proc.exportConf (p : Proc I) : Conf := p.cfg.getD p.ini

/-- The results-folder of an export (lines 1500-1519). -/
def exportRes (fs : FS I C) (p : Proc I) (dumpfolder : Option Name) (useDumps : Bool) : Except PyErr (Res I) :=
  match fs p.exportConf with
  | none => .error .osError
  | some _ =>
    if dumpfolder.getD (Results.stem p.exportConf.2) = Results.stem p.exportConf.2 then .ok (newRes fs p.exportConf useDumps)
    else .error .attributeError

/-- Loading of the first fit (lines 1520-1524) and the object with its handler: `hasattr` only catches AttributeError; the first ID of an empty
database raises IndexError. -/
def firstFit (fs : FS I C) (r : Res I) : Except PyErr Unit × Res I :=
  match fitDb fs r with
  | .error e => (.error e, r)
  | .ok ([], r') => (.error .indexError, r')
  | .ok (i :: _, r') =>
    match loadFit fs r' i with
    | some _ => (.ok (), r')
    | none => (.error .osError, r')

/-- `export_data_to_HDF` (lines 1389-1559): `_useres` is set, the first fit is loaded, and the final output is generated. -/
def exportHDF (fs : FS I C) (p : Proc I) (dumpfolder : Option Name) (n : Option Nat) (useDumps : Bool) : Out I C :=
  match exportRes fs p dumpfolder useDumps with
  | .error e => ⟨.error e, fs, p⟩
  | .ok r =>
    match firstFit fs r with
    | (.error e, r') => ⟨.error e, fs, { p with useres := some r' }⟩
    | (.ok (), r') => finalout fs { p with useres := some r' } none n useDumps

/-- What happens to an object and the folders: the folder is overridden (`override_config`), fits are stored (processing runs, also of other
objects), final outputs and exports. -/
inductive Op (I C : Type)
  | override (c : Option Conf)
  | store (key : Conf) (f : Folder I C)
  | finalout (fitlist : Option (FitList I)) (n : Option Nat) (useDumps : Bool)
  | exportData (dumpfolder : Option Name) (n : Option Nat) (useDumps : Bool)

def step (s : FS I C × Proc I) : Op I C → FS I C × Proc I
  | .override c => (s.1, { s.2 with kw := c })
  | .store key f => (fun k => if k = key then some f else s.1 k, s.2)
  | .finalout l n d => ((finalout s.1 s.2 l n d).fs, (finalout s.1 s.2 l n d).proc)
  | .exportData f n d => ((exportHDF s.1 s.2 f n d).fs, (exportHDF s.1 s.2 f n d).proc)

def run (s : FS I C × Proc I) (ops : List (Op I C)) : FS I C × Proc I := ops.foldl step s

end RT1.UseResults
