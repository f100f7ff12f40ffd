import Verif.Model.General

/-!
# Model of the log handlers (`rt1/__init__.py`)

The handlers attached to the logger "rt1". Levels, formatters and the messages are not modelled.
-/

namespace RT1
namespace Log

/-- A handler: its identity, its name (None for handlers without a name) and, for a FileHandler, the path. -/
structure Handler where
  id : Nat
  name : Option String
  file : Option String
  deriving DecidableEq

/-- The handlers of the logger, in order, and the identity of the next handler that is created. -/
structure Logger where
  handlers : List Handler
  next : Nat
  deriving DecidableEq

/-- The name of the console handler (line 226). -/
def console : String := "rt1_consolehandler"

/-- `log.addHandler` of a new handler. -/
def Logger.add (l : Logger) (name : Option String) (file : Option String) : Logger :=
  ⟨l.handlers ++ [⟨l.next, name, file⟩], l.next + 1⟩

/-- `setup_logger` (`rt1/__init__.py` lines 206-231). `root`: do the loggers above "rt1" have handlers
(`hasHandlers` asks them too)? -/
def setup (root consoleOut : Bool) (l : Logger) : Logger :=
  if !l.handlers.isEmpty || root then l
  else if consoleOut then l.add (some console) none
  else l

/-- The loop over the handlers with the given name (lines 119-126): a handler is removed, then its `baseFilename` is used in
the message, which raises AttributeError if it is no FileHandler. -/
def stopLoop : List Handler → Logger → Logger × Except PyErr Unit
  | [], l => (l, .ok ())
  | h :: hs, l =>
    let l := { l with handlers := l.handlers.erase h }
    match h.file with
    | none => (l, .error .attributeError)
    | some _ => stopLoop hs l

/-- `stop_log_to_file(name)` (`rt1/__init__.py` lines 106-126). -/
def stop (root : Bool) (name : String) (l : Logger) : Logger × Except PyErr Unit :=
  let l := setup root true l
  stopLoop (l.handlers.filter fun h => h.name = some name) l

/-- `start_log_to_file(path, name)` (`rt1/__init__.py` lines 64-103). `canOpen`: can the file be opened? (OSError
otherwise.) IndexError is not raised by any of the calls. -/
def start (root : Bool) (path name : String) (canOpen : Bool) (l : Logger) : Logger × Except PyErr Unit :=
  match stop root name l with
  | (l, .error e) => (l, .error e)
  | (l, .ok ()) =>
    let l := setup root true l
    if canOpen then (l.add (some name) (some path), .ok ()) else (l, .error .osError)

/-- What can happen to the logger; `other` is a handler added by somebody else. -/
inductive Op
  | setup (consoleOut : Bool)
  | start (path name : String) (canOpen : Bool)
  | stop (name : String)
  | other (name : Option String) (file : Option String)

/-- The logger after an operation (exceptions are caught by the caller). -/
def apply (root : Bool) (l : Logger) : Op → Logger
  | .setup c => Log.setup root c l
  | .start p n c => (Log.start root p n c l).1
  | .stop n => (Log.stop root n l).1
  | .other n f => l.add n f

def run (root : Bool) (l : Logger) (ops : List Op) : Logger := ops.foldl (apply root) l

/-- The logger before `rt1` is imported. -/
def init : Logger := ⟨[], 0⟩

end Log
end RT1
