import Verif.Model.Pipeline

/-!
# Model of `RTprocess.run_processing` and `RTprocess.run_finaloutput` (`rt1/rtprocess.py`)

The control flow (try / except / finally) with its effects on the objects that outlive the call: the handlers of the loggers, the
log level, the capturing of warnings, the listener process and `autocontinue`.  The actual work is a parameter.
-/

namespace RT1.RunProc
open General

/-- The errors of a run: raised by the called functions (user code, the processing) or by the statements of the two
functions. -/
inductive Exc (X : Type)
  | user (x : X)
  | py (e : PyErr)
  deriving DecidableEq

/-- A handler of a logger: its name and an identity. -/
structure Handler where
  name : Option String
  ident : Nat
  deriving DecidableEq

/-- The state of a `mp.Process`. -/
inductive Proc
  | created | running | ended
  deriving DecidableEq

/-- Everything that is changed by a run. `queue`, `listener` are the local variables (none = not yet assigned). -/
structure St where
  /-- `log.handlers` -/
  handlers : List Handler
  /-- the handlers of the logger `py.warnings` -/
  warnHandlers : List Handler
  /-- the level of `log` -/
  level : Nat
  /-- `logging.captureWarnings` -/
  capture : Bool
  /-- `self.autocontinue` -/
  autocontinue : Bool
  /-- number of running listener processes of earlier runs -/
  stray : Nat
  /-- the identity of the next handler -/
  next : Nat
  queue : Option Unit
  listener : Option Proc
  deriving DecidableEq

/-- A computation that may raise; the changes made before an error persist. -/
def M (X α : Type) := St → Except (Exc X) α × St

namespace M
variable {X α β : Type}

def ret (a : α) : M X α := fun s => (.ok a, s)

def throw (e : Exc X) : M X α := fun s => (.error e, s)

def bind (m : M X α) (f : α → M X β) : M X β := fun s => match m s with
  | (.ok a, s') => f a s'
  | (.error e, s') => (.error e, s')

def modify (f : St → St) : M X Unit := fun s => (.ok (), f s)

/-- `m; k` -/
def seq (m : M X Unit) (k : M X β) : M X β := bind m fun _ => k

/-- A call of a function with the given outcome and no effect on the state. -/
def call (r : Except X α) : M X α := fun s => match r with
  | .ok a => (.ok a, s)
  | .error x => (.error (.user x), s)

/-- `try: m finally: f`: an error in `f` replaces the outcome of `m`. -/
def tryFinally (m : M X α) (f : M X Unit) : M X α := fun s => match m s with
  | (r, s') => match f s' with
    | (.ok _, s'') => (r, s'')
    | (.error e, s'') => (.error e, s'')

end M

open M

/-- The name given to the queue-handlers (`rt1/rtprocess.py` line 196). -/
def qname : String := "rtprocessing_queuehandler"

/-- `_worker_configurer(queue, loglevel)` (`rt1/rtprocess.py` lines 190-202); `setLevel(None)` raises TypeError. -/
def workerConfigurer {X : Type} (level : Option Nat) : M X Unit := match level with
  | none => throw (.py .typeError)
  | some l => M.modify fun s => { s with
      level := l
      handlers := s.handlers ++ [⟨some qname, s.next⟩]
      capture := true
      warnHandlers := s.warnHandlers ++ [⟨some qname, s.next⟩]
      next := s.next + 1 }

/-- `queue.put_nowait(None)` (lines 959, 1137); an unassigned local variable raises UnboundLocalError. -/
def putStop {X : Type} : M X Unit := fun s => match s.queue with
  | some _ => (.ok (), s)
  | none => (.error (.py .unboundLocalError), s)

/-- `listener.join()` (lines 962, 1140): the listener ends after it has received None. -/
def joinListener {X : Type} : M X Unit := fun s => match s.listener with
  | some .created => (.error (.py .assertionError), s)
  | some _ => (.ok (), { s with listener := some .ended })
  | none => (.error (.py .unboundLocalError), s)

/-- The creation of the queue, the counter and the listener, and `listener.start()` (lines 860-887, 1079-1106). -/
def startListener {X : Type} (l : Nat) : M X Unit :=
  seq (M.modify fun s => { s with queue := some (), listener := some .created })
    (seq (workerConfigurer (some l)) (M.modify fun s => { s with listener := some .running }))

/-- The removal of the queue-handlers (lines 966-971, 1143-1148; `groupby_unsorted` returns all handlers with the name). -/
def removeHandlers {X : Type} : M X Unit :=
  M.modify fun s => { s with handlers := s.handlers.filter fun h => decide (h.name ≠ some qname) }

/-- The common part of the `finally` blocks (lines 954-971, 1131-1148). -/
def cleanup {X : Type} (level : Option Nat) : M X Unit :=
  seq (M.modify fun s => { s with capture := false })
    (match level with
      | none => ret ()
      | some _ => seq putStop (seq joinListener removeHandlers))

/-- The called functions of `run_processing`: the finalizer of the processing class at the start (if `proc_cls` exists already) and
in the `finally` block, `setup`, and the rest of the try block (`open`, `_processfunc`). A missing finalizer is `.ok ()`. -/
structure ProcEnv (X : Type) where
  finalizer0 : Except X Unit
  setup : Except X Unit
  process : Except X Unit
  finalizer1 : Except X Unit

/-- `run_processing` (`rt1/rtprocess.py` lines 773-971). `queue, proc_counter = None` (line 880) raises TypeError. Errors of
`mp.Manager()` and of starting a process are not modelled. -/
def runProcessing {X : Type} (level : Option Nat) (env : ProcEnv X) : M X Unit :=
  seq (call env.finalizer0)
    (M.tryFinally
      (seq (call env.setup)
        (seq (match level with
            | some l => startListener l
            | none => throw (.py .typeError))
          (call env.process)))
      (seq (call env.finalizer1) (cleanup level)))

/-- The called functions of `run_finaloutput`: `override_config` (with the check of `finalout_name`), `setup`, and
`_get_files` followed by `_run_finalout`. -/
structure FinalEnv (X R : Type) where
  override : Except X Unit
  setup : Except X Unit
  finalout : Except X R

/-- `run_finaloutput` (`rt1/rtprocess.py` lines 973-1148) with a callable `postprocess`. -/
def runFinaloutput {X R : Type} (level : Option Nat) (env : FinalEnv X R) : M X R :=
  M.tryFinally
    (seq (call env.override)
      (fun s0 =>
        seq (M.modify fun s => { s with autocontinue := true })
          (seq (call env.setup)
            (seq (M.modify fun s => { s with autocontinue := s0.autocontinue })
              (seq (match level with
                  | some l => startListener l
                  | none => ret ())
                (call env.finalout)))) s0))
    (cleanup level)

/-- Local variables of a new call are unassigned; a listener that is still running stays alive. -/
def enter (s : St) : St :=
  { s with queue := none, listener := none, stray := s.stray + (if s.listener = some .running then 1 else 0) }

/-- A call of one of the two functions. -/
inductive Run (X R : Type)
  | processing (level : Option Nat) (env : ProcEnv X)
  | finaloutput (level : Option Nat) (env : FinalEnv X R)

def Run.exec {X R : Type} (r : Run X R) (s : St) : St := match r with
  | .processing l e => (runProcessing l e (enter s)).2
  | .finaloutput l e => (runFinaloutput l e (enter s)).2

def history {X R : Type} (rs : List (Run X R)) (s : St) : St := rs.foldl (fun s r => r.exec s) s

/-! ## Processes started by `writer_pool` -/

/-- The state of the pipeline after the start of the writer and combiner processes (`_start_writer_process`,
`_start_combiner_process`; `rt1/_rtprocess_writer.py` lines 224-228, 371-375): `init_func(*init_args)` is called first in each process; if it
raises, the process ends. -/
def startState {R K V : Type} (cfg : Pipeline.Cfg) (initOk : Bool) (tasks : List (Pipeline.Outcome R)) (store : Dict K (List V)) :
    Pipeline.State cfg R K V :=
  if initOk then Pipeline.init cfg tasks store
  else { Pipeline.init cfg tasks store with
    combs := fun _ => ⟨.dead, []⟩
    writers := fun _ => .dead }

/-- The call `init_func(*init_args)` with `init_func=self._worker_configurer`, `init_args=(queue, logfile_level)`
(`rt1/rtprocess.py` lines 1120-1121) in a started process. -/
def initOk (level : Option Nat) (s : St) : Bool := match (workerConfigurer (X := Empty) level s).1 with
  | .ok _ => true
  | .error _ => false

end RT1.RunProc
