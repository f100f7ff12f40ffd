import Verif.Model.Process

/-!
# Model of the modules of a processing run (`rt1/rtparse.py`, `rt1/rtprocess.py`)

`RT1_configparser.get_module`, `get_all_modules`, the part of `_check_integrity` that concerns the processing-module, and the part of
`RTprocess.setup` that loads the modules and the definition of the fit.  The first part of `setup` is modelled in `Model/Process`.
-/

namespace RT1.Modules
open Process

/-- What the sections PROCESS_SPECS and CONFIGFILES provide (`get_process_specs`): `save_path / dumpfolder`, the entries `module__KEY`,
the entry `processing_cfg_module` of CONFIGFILES and of PROCESS_SPECS, and the other entries of PROCESS_SPECS. -/
structure Conf where
  dump : FPath
  modules : Dict String FPath
  cfgName : Option String
  specName : Option String
  rest : Dict String String

/-- The last part of `_check_integrity` (`rtparse.py` lines 187-200). -/
def Conf.valid (c : Conf) : Bool := decide (c.cfgName.getD "processing_cfg" ∈ Dict.keys c.modules)

/-- What is external: parsing and writing of a config file, the interpretation of the sections, and `Path.stem`.  The content of a
module stands for the imported module. -/
structure Env (C : Type) where
  parse : C → Option Sections
  text : Sections → C
  conf : Sections → Conf
  stem : FPath → String

variable {C : Type}

/-- The sections of a file, if it can be parsed and is valid. -/
def validSections (env : Env C) (c : C) : Option Sections :=
  (env.parse c).filter fun s => (env.conf s).valid

/-- `RT1_configparser(path)`; `none` if an exception is raised (also if there is no file). -/
def readConfig (env : Env C) (fs : FS C) (p : FPath) : Option Sections :=
  match fs p with
  | some (.file c) => validSections env c
  | _ => none

/-- The config file as it is used by `Process.setup`. -/
def configFile (env : Env C) (fs : FS C) (p : FPath) : ConfigFile C :=
  ⟨readConfig env fs p, fun s => .ok ⟨(env.conf s).dump, p, (env.conf s).modules.map Prod.snd⟩, env.text⟩

/-- The path of a module (`rtparse.py` lines 531-559). -/
def modulePath (cfg : Conf) (fs : FS C) (loadCopy : Bool) (key : String) : Except PyErr FPath :=
  match Dict.get? cfg.modules key with
  | none => .error .assertionError
  | some p =>
    if loadCopy then
      if pathExists fs (copyPath (cfg.dump ++ ["cfg"]) p) then .ok (copyPath (cfg.dump ++ ["cfg"]) p) else .error .assertionError
    else .ok p

/-- Executing the file at a path (lines 561-569), together with the new `sys.modules`. Simplified: the file has the suffix `.py`, and
the code of the module raises no exception. -/
def execModule (env : Env C) (fs : FS C) (sys : Dict String C) (p : FPath) : Except PyErr (C × Dict String C) :=
  match fs p with
  | some (.file c) => .ok (c, Dict.set sys (env.stem p) c)
  | _ => .error .osError

/-- `get_module` (`rtparse.py` lines 510-571) -/
def getModule (env : Env C) (cfg : Conf) (fs : FS C) (loadCopy : Bool) (sys : Dict String C) (key : String) :
    Except PyErr (C × Dict String C) := do
  let p ← modulePath cfg fs loadCopy key
  execModule env fs sys p

/-- The loop of `get_all_modules` (`rtparse.py` lines 498-508) over the keys; the result is the dict of the modules and `sys.modules`. -/
def getAll (env : Env C) (cfg : Conf) (fs : FS C) (loadCopy : Bool) :
    List String → Dict String C → Dict String C → Except PyErr (Dict String C × Dict String C)
  | [], mods, sys => .ok (mods, sys)
  | k :: ks, mods, sys => do
    let r ← getModule env cfg fs loadCopy sys k
    getAll env cfg fs loadCopy ks (Dict.set mods k r.1) r.2

/-- What is used by the processing: the loaded modules, `sys.modules`, the module of the class `proc_cls`, the specs handed over to this
class, and the sections that define the fit (`get_fitobject`). -/
structure Run (C : Type) where
  modules : Dict String C
  sys : Dict String C
  proc : C
  specs : Conf
  cfg : Sections

/-- The config after `_copy_cfg_and_modules` (`rtprocess.py` lines 338-340, 440-442): read again from the copy. -/
def rereadConfig (env : Env C) (copy : Bool) (path : FPath) (updated : Sections) (fs : FS C) : Except PyErr Sections :=
  if copy then
    match readConfig env fs (copyPath ((env.conf updated).dump ++ ["cfg"]) path) with
    | some s => .ok s
    | none => .error .assertionError
  else .ok updated

/-- The last part of `setup` (`rtprocess.py` lines 338-362): `updated` are the sections from which `specs` have been obtained. -/
def finish (env : Env C) (copy : Bool) (path : FPath) (updated : Sections) (fs : FS C) (sys : Dict String C) :
    Except PyErr (Run C) := do
  let cfg ← rereadConfig env copy path updated fs
  let r ← getAll env (env.conf cfg) fs copy (Dict.keys (env.conf cfg).modules) [] sys
  let proc ← Dict.getItem r.1 ((env.conf updated).specName.getD "processing_cfg")
  return ⟨r.1, r.2, proc, env.conf updated, cfg⟩

/-- `RTprocess.setup` (`rtprocess.py` lines 263-376); `none` if there is no valid config file.  The calls of the class and of
`get_fitobject`, and the checks in lines 364-376 are not modelled. -/
def setupRun (env : Env C) (upper : String → String) (set : Settings) (path : FPath) (kw : InitKwargs) (answers : List String)
    (fs : FS C) (sys : Dict String C) : FS C × Except PyErr (Option (Run C)) :=
  match readConfig env fs path with
  | none => (fs, .ok none)
  | some sections =>
    match applyKw sections kw with
    | .error e => (fs, .error e)
    | .ok updated =>
      match (setup upper set (configFile env fs path) kw answers fs).1 with
      | ⟨fs', .error e⟩ => (fs', .error e)
      | ⟨fs', .ok ()⟩ => (fs', (finish env set.copy path updated fs' sys).map some)

end RT1.Modules
