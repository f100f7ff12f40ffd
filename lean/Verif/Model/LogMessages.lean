import Verif.Model.Config

/-!
# Delivery of log messages

Modelled: levels and formatters of the handlers, `log.progress` and the other logging functions, `set_log_handler_level`
(`rt1/__init__.py`), the process that writes the log-file of a processing run (`RTprocess._listener_process`) and the treatment of
the handlers in `RTprocess._remove_dumpfolder` (`rt1/rtprocess.py`).  The identity and the names of the handlers in
`start_log_to_file` and `stop_log_to_file` follow `Model/Log`.
-/

namespace RT1.LogMsg
open General Config

/-- The formatter of a handler: one of the two formatters of rt1, or the formatter of somebody else. -/
inductive Fmt
  | plain
  | colored
  | other
  deriving DecidableEq

/-- A handler: identity, name, directory of the file (FileHandler only), level, formatter. -/
structure Hand where
  id : Nat
  name : Option String
  dir : Option (List String)
  level : Nat
  fmt : Fmt
  deriving DecidableEq

/-- A message: its level and the text after the formatting of the record (`Formatter.format`: time, process, level, message). -/
structure Msg where
  level : Nat
  text : Str
  deriving DecidableEq

/-- The logger "rt1": effective level, handlers, number of the next handler, and everything that was written by the handlers. -/
structure St where
  level : Nat
  hs : List Hand
  next : Nat
  out : Nat → List Str

/-- `logging.DEBUG`, `INFO`, `WARNING`, `ERROR`, `CRITICAL` and `_PROGRESS_LEVEL_NUM` (`rt1/__init__.py` line 23): the keys of
`FORMATS` (lines 147-154). -/
def formats : List Nat := [10, 20, 30, 40, 50, 21]

/-! ## formatters -/

/-- `"\n".join(lines)` -/
def joinLines : List Str → Str
  | [] => []
  | [l] => l
  | l :: ls => l ++ '\n' :: joinLines ls

/-- `textwrap.indent(text, prefix)`: lines that consist of whitespace are not changed.  `ws` is `str.isspace` for one character.
Simplified: lines are separated by newline characters only. -/
def indent (ws : Char → Bool) (pre : Str) (text : Str) : Str :=
  joinLines ((splitChar '\n' text).map fun l => if l.all ws then l else pre ++ l)

/-- `s.strip()` -/
def strip (ws : Char → Bool) (s : Str) : Str := ((s.dropWhile ws).reverse.dropWhile ws).reverse

/-- The indentation of both formatters (`rt1/__init__.py` lines 190-202). -/
def pad : Str := List.replicate 51 ' '

/-- `WrappedFixedIndentingLog.format` and `ColoredWrappedFixedIndentingLog.format` (`rt1/__init__.py` lines 137-138, 156-166).  The
escape sequences for the colors belong to the text; `FORMATS.get(levelno)` is None for other levels (`str + None`: TypeError). -/
def format (ws : Char → Bool) (f : Fmt) (m : Msg) : Except PyErr Str :=
  match f with
  | .plain => .ok (strip ws (indent ws pad m.text))
  | .colored => if m.level ∈ formats then .ok (strip ws (indent ws pad m.text)) else .error .typeError
  | .other => .ok m.text

/-! ## messages -/

/-- What a handler writes for a message: nothing if its level is higher (`Logger.callHandlers`), and nothing if the formatter raises
(`Handler.handleError` prints a traceback to stderr). -/
def emit (ws : Char → Bool) (h : Hand) (m : Msg) : List Str :=
  if h.level ≤ m.level then
    match format ws h.fmt m with
    | .ok s => [s]
    | .error _ => []
  else []

/-- `log.debug`, `log.info`, …, `log.progress` (`rt1/__init__.py` lines 27-29): `isEnabledFor(level)`, then all handlers. -/
def log (ws : Char → Bool) (m : Msg) (s : St) : St :=
  if s.level ≤ m.level then
    { s with out := fun i => s.out i ++ ((s.hs.filter fun h => decide (h.id = i)).map fun h => emit ws h m).flatten }
  else s

/-- `setup_logger` (`rt1/__init__.py` lines 206-231). `root`: do the loggers above "rt1" have handlers? `colored`: is colorama
installed? -/
def setup (root colored : Bool) (s : St) : St :=
  if !s.hs.isEmpty || root then s
  else { s with
    level := 10
    hs := [⟨s.next, some "rt1_consolehandler", none, 21, if colored then .colored else .plain⟩]
    next := s.next + 1 }

/-- `h.setLevel(level)` for the first handler with the name. -/
def setFirst (name : String) (level : Nat) : List Hand → Option (List Hand)
  | [] => none
  | h :: hs => if h.name = some name then some ({ h with level := level } :: hs) else (setFirst name level hs).map (h :: ·)

/-- `set_log_handler_level(level, name)` (`rt1/__init__.py` lines 35-61). -/
def setLevel (root colored : Bool) (name : String) (level : Nat) (s : St) : Except PyErr St :=
  let s := setup root colored s
  match setFirst name level s.hs with
  | none => .error .indexError
  | some hs => .ok { s with hs := hs }

/-- `start_log_to_file(path, name, level)` if there is no handler with the name (`rt1/__init__.py` lines 64-103; see `Model/Log` for
existing handlers); `note` is the debug message. -/
def startFile (ws : Char → Bool) (root colored : Bool) (dir : List String) (name : String) (level : Nat) (note : Str) (s : St) : St :=
  let s := setup root colored s
  log ws ⟨10, note⟩ { s with hs := s.hs ++ [⟨s.next, some name, some dir, level, .plain⟩], next := s.next + 1 }

/-- Removal of the handlers with a name, each followed by a debug message (`stop_log_to_file`, `rt1/__init__.py` lines 106-126; all
of them are file handlers). -/
def stopFile (ws : Char → Bool) (root colored : Bool) (name : String) (note : Str) (s : St) : St :=
  let s := setup root colored s
  (s.hs.filter fun h => decide (h.name = some name)).foldl
    (fun s h => log ws ⟨10, note⟩ { s with hs := s.hs.filter fun h' => decide (h'.id ≠ h.id) }) s

/-- What can happen to the logger. -/
inductive Op
  | setup (root : Bool)
  | msg (m : Msg)
  | setLevel (root : Bool) (name : String) (level : Nat)
  | start (root : Bool) (dir : List String) (name : String) (level : Nat) (note : Str)
  | stop (root : Bool) (name : String) (note : Str)

/-- The state after an operation (exceptions are caught by the caller). -/
def apply (ws : Char → Bool) (colored : Bool) (s : St) : Op → St
  | .setup root => setup root colored s
  | .msg m => log ws m s
  | .setLevel root n l => match setLevel root colored n l s with
    | .ok s => s
    | .error _ => setup root colored s
  | .start root d n l note => startFile ws root colored d n l note s
  | .stop root n note => stopFile ws root colored n note s

def run (ws : Char → Bool) (colored : Bool) (s : St) (ops : List Op) : St := ops.foldl (apply ws colored) s

/-! ## the log-file of a processing run -/

/-- `_listener_process` (`rt1/rtprocess.py` lines 160-188): the records of the queue (`none` is None), until None is received.
`Logger.handle` ignores the level of the logger, the level of the handler is checked. -/
def listener (ws : Char → Bool) (level : Nat) : List (Option Msg) → List Str
  | [] => []
  | none :: _ => []
  | some m :: q => emit ws ⟨0, none, none, level, .plain⟩ m ++ listener ws level q

/-! ## removal of the results -/

/-- The loop over the handlers in `_remove_dumpfolder` (`rt1/rtprocess.py` lines 250-256): the list is changed while it is iterated,
the iteration is by position.  The result lists the remaining handlers and the numbers of the handlers that were closed. -/
def removeLoop (inCfg : Hand → Bool) (i : Nat) (hs : List Hand) (closed : List Nat) : List Hand × List Nat :=
  match _h : hs[i]? with
  | none => (hs, closed)
  | some x =>
    if inCfg x then removeLoop inCfg (i + 1) (hs.eraseIdx i) (closed ++ [x.id])
    else removeLoop inCfg (i + 1) hs (closed ++ [x.id])
  termination_by hs.length - i
  decreasing_by
  · have := (List.getElem?_eq_some_iff.mp _h).1
    rw [List.length_eraseIdx_of_lt this]; omega
  · have := (List.getElem?_eq_some_iff.mp _h).1
    omega

/-- `Path(h.baseFilename).parent.samefile(self.dumppath / "cfg")`; handlers without a file (AttributeError) and missing folders
(FileNotFoundError) are skipped.  Simplified: paths are resolved. -/
def inCfg (cfgExists : Bool) (dump : List String) (h : Hand) : Bool :=
  match h.dir with
  | none => false
  | some d => cfgExists && decide (d = dump ++ ["cfg"])

/-- `_remove_dumpfolder` (`rt1/rtprocess.py` lines 245-261) after the folder is removed: a file handler that was closed opens its file
again for the message (line 261), which raises FileNotFoundError in a removed folder. -/
def removeDump (cfgExists : Bool) (dump : List String) (level : Nat) (hs : List Hand) : List Hand × Except PyErr Unit :=
  let r := removeLoop (inCfg cfgExists dump) 0 hs []
  let broken := r.1.any fun h => match h.dir with
    | none => false
    | some d => dump.isPrefixOf d && decide (h.id ∈ r.2) && decide (h.level ≤ 21) && decide (level ≤ 21)
  (r.1, if broken then .error .osError else .ok ())

end RT1.LogMsg
