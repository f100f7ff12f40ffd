import Verif.Model.Dict

/-!
# Model of the set-up of a processing run (`rt1/rtprocess.py`)

`RTprocess.override_config`, `_confirm_input`, `_make_folderstructure`, `RTprocess._remove_dumpfolder`,
`RTprocess._copy_cfg_and_modules` and the part of `RTprocess.setup` that touches the file-system.
-/

namespace RT1
namespace Process

/-! ## File-system

A path is the list of its components (`Path.parts`); `..`, symbolic links and permissions are not modelled. -/

abbrev FPath := List String

/-- What is found at a path. `C` is the type of file contents. -/
inductive Node (C : Type)
  | dir
  | file (c : C)
  deriving DecidableEq

abbrev FS (C : Type) := FPath → Option (Node C)

variable {C : Type}

/-- `path.exists()` -/
def pathExists (fs : FS C) (p : FPath) : Bool := (fs p).isSome

/-- Is there a directory at `p`? -/
def isDir (fs : FS C) (p : FPath) : Bool := match fs p with
  | some .dir => true
  | _ => false

/-- Is there a file at `p`? -/
def isFile (fs : FS C) (p : FPath) : Bool := match fs p with
  | some (.file _) => true
  | _ => false

/-- `path.mkdir(parents=True, exist_ok=True)` (documented behaviour of `pathlib`): all missing directories on
the way are created; a file on the way raises an OSError. Simplified: on an error nothing is created (the
missing parents of a file cannot exist). -/
def mkdir (fs : FS C) (p : FPath) : Except PyErr (FS C) :=
  if p.inits.any (isFile fs) then .error .osError
  else .ok fun q => if q ∈ p.inits then some .dir else fs q

/-- `shutil.rmtree(path)` (documented behaviour): removes the directory and everything below; raises an OSError
if `path` is not a directory. -/
def rmtree (fs : FS C) (p : FPath) : Except PyErr (FS C) :=
  if isDir fs p then .ok fun q => if p.isPrefixOf q then none else fs q
  else .error .osError

/-- Write a file (`open(path, "w")`): the parent must be a directory and the path no directory. -/
def write (fs : FS C) (p : FPath) (c : C) : Except PyErr (FS C) :=
  if isDir fs p.dropLast && !isDir fs p then .ok fun q => if q = p then some (.file c) else fs q
  else .error .osError

/-- `shutil.copy(src, dst)` with `dst` the full path of the target: raises an OSError if `src` is no file. -/
def copy (fs : FS C) (src dst : FPath) : Except PyErr (FS C) :=
  match fs src with
  | some (.file c) => write fs dst c
  | _ => .error .osError

/-! ## init_kwargs -/

/-- The value of an entry of `init_kwargs`: `RTprocess.__init__` only accepts strings (lines 153-156),
`override_config` stores dicts (lines 231-233). -/
inductive KwVal
  | str (s : String)
  | dict (d : Dict String String)

abbrev InitKwargs := Dict String KwVal

/-- `RTprocess.__init__`, lines 150-157: `init_kwargs` given by the user must only have `str` values. -/
def initKw (kw : Option InitKwargs) : Except PyErr InitKwargs :=
  match kw with
  | none => .ok []
  | some kw =>
    if kw.all fun e => match e.2 with
      | .str _ => true
      | .dict _ => false
    then .ok kw else .error .assertionError

/-- The loop in lines 225-233 of `override_config`: `sections` are the sections of the config file (including
DEFAULT), the entries of `kwargs` are already converted by `str()`. -/
def givenKw (sections : List String) : List (String × List (String × String)) →
    Except PyErr (Dict String (Dict String String))
  | [] => .ok []
  | (s, defs) :: l =>
    if s ∈ sections then do
      let rest ← givenKw sections l
      .ok ((s, Dict.ofList defs) :: rest)
    else .error .assertionError

/-- Lines 236-240: `{**self.init_kwargs.get(section, {}), **init_defs}`; a string cannot be unpacked. -/
def mergeKw (cur : InitKwargs) (s : String) (defs : Dict String String) : Except PyErr (Dict String String) :=
  match cur.get? s with
  | none => .ok (Dict.update [] defs)
  | some (.dict d) => .ok (Dict.update d defs)
  | some (.str _) => .error .typeError

/-- `RTprocess.override_config` (`rt1/rtprocess.py` lines 204-243); `cur` is `self.init_kwargs`, the result is
the new value of `self.init_kwargs` (unchanged if an exception is raised). The keyword arguments are distinct. -/
def overrideConfig (sections : List String) (cur : InitKwargs) (override : Bool)
    (kwargs : List (String × List (String × String))) : Except PyErr InitKwargs := do
  let given ← givenKw sections kwargs
  if override then .ok (given.map fun e => (e.1, .dict e.2))
  else given.mapM fun e => do
    let d ← mergeKw cur e.1 e.2
    .ok (e.1, .dict d)

/-- The sections of a config file. -/
abbrev Sections := Dict String (Dict String String)

/-- Lines 283-299 of `setup`: write `init_kwargs` to the parsed config file. A section that is not there raises
AssertionError, a string instead of a dict AttributeError (`init_defs.items()`). Simplified: a value that is
assigned to the DEFAULT section is not visible in the other sections, no interpolation. -/
def applyKw (cfg : Sections) : InitKwargs → Except PyErr Sections
  | [] => .ok cfg
  | (s, v) :: l =>
    match cfg.get? s with
    | none => .error .assertionError
    | some old =>
      match v with
      | .str _ => .error .attributeError
      | .dict d => applyKw (cfg.set s (Dict.update old d)) l

/-! ## setup -/

/-- `default_answers.get(inp, False)` (lines 38, 50, 58). -/
def defaultAnswer (inp : String) : Bool := inp = "YES" || inp = "Y"

/-- What the user wants. -/
inductive Decision
  | proceed
  | remove
  deriving DecidableEq

/-- `_confirm_input` as called by `setup` (`rt1/rtprocess.py` lines 27-61 and 308-326) with the callback
REMOVE. `answers` are the lines the user enters (EOFError if there are no more); `upper` is `str.upper`.
The second component is the number of questions that have been answered. -/
def confirmInput (upper : String → String) : List String → Except PyErr Decision × Nat
  | [] => (.error .eofError, 0)
  | a :: l =>
    if upper a = "REMOVE" then
      match l with
      | [] => (.error .eofError, 1)
      | b :: _ => if defaultAnswer (upper b) then (.ok .remove, 2) else (.error .systemExit, 2)
    else if defaultAnswer (upper a) then (.ok .proceed, 1)
    else (.error .systemExit, 1)

/-- The specifications of a run that are used in `setup`: `specs["save_path"] / specs["dumpfolder"]`, the path
of the config file and the paths of the modules (`module__…` in section CONFIGFILES, in order). -/
structure Spec where
  dump : FPath
  config : FPath
  modules : List FPath

/-- `folder / path.name`; `Path("").name` is empty. -/
def copyPath (folder p : FPath) : FPath := match p.getLast? with
  | some n => folder ++ [n]
  | none => folder

/-- `dumppath / "cfg"` -/
def Spec.cfgDir (s : Spec) : FPath := s.dump ++ ["cfg"]

/-- `_make_folderstructure` (lines 64-76). -/
def makeFolder (fs : FS C) (p : FPath) : Except PyErr (FS C) :=
  if pathExists fs p then .ok fs else mkdir fs p

/-- The folders of a run (lines 329-332). -/
def folders (dump : FPath) : List FPath := [dump, dump ++ ["results"], dump ++ ["cfg"], dump ++ ["dumps"]]

/-- The state of the file-system after a number of steps and the exception that stopped them (if any). -/
structure Out (C : Type) where
  fs : FS C
  res : Except PyErr Unit

/-- Run the next step. An exception stops the sequence and leaves the file-system as it is. -/
def Out.step (o : Out C) (f : FS C → Except PyErr (FS C)) : Out C :=
  match o.res with
  | .error _ => o
  | .ok () => match f o.fs with
    | .ok fs => ⟨fs, .ok ()⟩
    | .error e => ⟨o.fs, .error e⟩

/-- Copying the config file (lines 383-412). -/
def copyConfig (s : Spec) (override : Bool) (updated : C) (fs : FS C) : Except PyErr (FS C) :=
  let target := copyPath s.cfgDir s.config
  if pathExists fs target && !override then .ok fs
  else if !override then copy fs s.config target
  else write fs target updated

/-- Copying one module (lines 415-439). -/
def copyModule (s : Spec) (fs : FS C) (location : FPath) : Except PyErr (FS C) :=
  let target := copyPath s.cfgDir location
  if pathExists fs target then .ok fs else copy fs location target

/-- `_copy_cfg_and_modules` in the main process (`rt1/rtprocess.py` lines 378-439). The config is then read
again from the copy (not modelled). -/
def copyAll (s : Spec) (override : Bool) (updated : C) (o : Out C) : Out C :=
  s.modules.foldl (fun o m => o.step fun fs => copyModule s fs m) (o.step (copyConfig s override updated))

/-- The settings of the `RTprocess` object. `main` says whether this is the main process. -/
structure Settings where
  autocontinue : Bool
  copy : Bool
  main : Bool

/-- What the config file provides: the sections (none if the file cannot be parsed), the specifications obtained
from the sections by `get_process_specs`, and the text written by `ConfigParser.write`. -/
structure ConfigFile (C : Type) where
  sections : Option Sections
  spec : Sections → Except PyErr Spec
  text : Sections → C

/-- The folder structure and the copies in `setup` (lines 305-340). -/
def setupFolders (set : Settings) (s : Spec) (override : Bool) (updated : C) (fs : FS C) : Out C :=
  let o := (folders s.dump).foldl (fun o p => o.step fun fs => makeFolder fs p) ⟨fs, .ok ()⟩
  if set.copy then copyAll s override updated o else o

/-- `RTprocess.setup` up to line 342 (`rt1/rtprocess.py` lines 263-342); loading the modules and
creating the parent fit-object is not modelled. The second component is the number of questions answered. -/
def setup (upper : String → String) (set : Settings) (file : ConfigFile C) (kw : InitKwargs)
    (answers : List String) (fs : FS C) : Out C × Nat :=
  match file.sections with
  | none => (⟨fs, .ok ()⟩, 0)
  | some sections =>
    match applyKw sections kw with
    | .error e => (⟨fs, .error e⟩, 0)
    | .ok updated =>
      match file.spec updated with
      | .error e => (⟨fs, .error e⟩, 0)
      | .ok s =>
        let run := setupFolders set s (!kw.isEmpty) (file.text updated)
        if !set.main then (⟨fs, .ok ()⟩, 0)
        else if !set.autocontinue && pathExists fs s.dump then
          match confirmInput upper answers with
          | (.error e, n) => (⟨fs, .error e⟩, n)
          | (.ok .proceed, n) => (run fs, n)
          | (.ok .remove, n) =>
            match rmtree fs s.dump with
            | .error e => (⟨fs, .error e⟩, n)
            | .ok fs => (run fs, n)
        else (run fs, 0)

end Process
end RT1
