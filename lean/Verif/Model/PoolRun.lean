import Verif.Model.General

/-!
# Model of `RTprocess._processfunc`, `RTprocess._initializer` (`rt1/rtprocess.py`) and `RT1_processor.writer_pool`, `run_starmap`, `stop` (`rt1/_rtprocess_writer.py`)

The selection of the arguments, the preparation of the keyword-arguments of the pool (a mutable dict of the caller), the calls executed by
each worker before its first task, and the order in which processes are started, joined and stopped, for all errors of the called functions.
The exchange of results between the processes is the subject of `Model/Pipeline`.
-/

namespace RT1.PoolRun
open General

/-! ## initializer of the workers -/

/-- Functions that can be used as initializer: those of the user and the bound method `self._initializer`. -/
inductive Fn
  | user (f : Nat)
  | own
deriving DecidableEq

/-- Values passed to initializers. -/
inductive PVal
  | none
  | fn (f : Fn)
  | queue (q : Nat)
  | counter (c : Nat)
  | other (v : Nat)
deriving DecidableEq

/-- Effects in a worker-process. -/
inductive Eff
  | configure (queue : PVal)
  | rename
  | count (c : Nat)
  | setup
  | call (f : Nat) (args : List PVal)
deriving DecidableEq

/-- The functions called in the workers: `self.setup()` and the functions of the user. -/
structure WEnv where
  setup : Except PyErr Unit
  user : Nat → List PVal → Except PyErr Unit

/-- Effects and outcome. -/
abbrev W := List Eff × Except PyErr Unit

/-- `a; b` -/
def W.seq (a b : W) : W := match a.2 with
  | .ok _ => (a.1 ++ b.1, b.2)
  | .error e => (a.1, .error e)

/-- `if queue is not None: RTprocess._worker_configurer(queue)` (`rt1/rtprocess.py` lines 563-564) -/
def configure (q : PVal) : W := if q = .none then ([], .ok ()) else ([.configure q], .ok ())

/-- `if proc_counter is not None: proc_counter.value += 1; …` (lines 572-574) -/
def countWorker : PVal → W
  | .none => ([], .ok ())
  | .counter c => ([.count c], .ok ())
  | _ => ([], .error .attributeError)

/-- The first part of `_initializer` (lines 563-577) in a worker-process (its name is never "MainProcess"). -/
def prepare (env : WEnv) (q c : PVal) : W :=
  (configure q).seq (W.seq ([.rename], .ok ()) ((countWorker c).seq ([.setup], env.setup)))

/-- The call of an initializer with the given arguments; `_initializer(self, initializer, queue, proc_counter=None, *args)`
(`rt1/rtprocess.py` lines 555-581).  The result of the initializer is not used by the pool. -/
def callFn (env : WEnv) : Fn → List PVal → W
  | .user f, args => ([.call f args], env.user f args)
  | .own, [i, q] => (prepare env q .none).seq (match i with
    | .none => ([], .ok ())
    | .fn (.user f) => ([.call f []], env.user f [])
    | _ => ([], .error .typeError))
  | .own, i :: q :: c :: args => (prepare env q c).seq (match i with
    | .none => ([], .ok ())
    | .fn f => callFn env f args
    | _ => ([], .error .typeError))
  | .own, _ => ([], .error .typeError)

/-- A dict of keyword-arguments for `mp.Pool`: the keys "initializer" and "initargs" (none: key missing) and all others. -/
structure PoolKw where
  initializer : Option PVal
  initargs : Option (List PVal)
  other : List (String × Nat)
deriving DecidableEq

/-- `dict()` -/
def PoolKw.empty : PoolKw := ⟨none, none, []⟩

/-- The statements of `_processfunc` that add the initializer to `pool_kwargs` (lines 709-715); `pop` removes the entries of the user. -/
def PoolKw.wrap (kw : PoolKw) (queue counter : PVal) : PoolKw where
  initializer := some (.fn .own)
  initargs := some ([kw.initializer.getD .none, queue, counter] ++ kw.initargs.getD [])
  other := kw.other

/-- The calls of a worker of `mp.Pool(n, **kw)` before its first task. -/
def workerInit (env : WEnv) (kw : PoolKw) : W := match kw.initializer.getD .none with
  | .none => ([], .ok ())
  | .fn f => callFn env f (kw.initargs.getD [])
  | _ => ([], .error .typeError)

/-! ## `_processfunc` -/

/-- The dict returned by `preprocess`: the keys that are used. -/
structure SetupDict (α : Type) where
  readerArgs : Option (List α)
  poolKw : Option PoolKw

/-- The values returned by `preprocess`. -/
inductive PreRet (α : Type)
  | none
  | dict (d : SetupDict α)
  | other

/-- The values of the argument `create_index`: a bool, a dict of keyword-arguments, another object. -/
inductive CI
  | bool (b : Bool)
  | dict (kws : List (String × Nat))
  | other (truthy : Bool)

/-- The arguments of `_processfunc` and the state it uses: `preprocess` (none: not callable), the names of the configs (one for a single
config) with the value of `int_Q is True`. -/
structure Call (α : Type) where
  preprocess : Option (Nat → Except PyErr (PreRet α))
  preKw : Option Nat
  readerArgs : Option (List α)
  poolKw : Option PoolKw
  queue : PVal
  counter : PVal
  fits : List (String × Bool)
  createIndex : CI

variable {α : Type}

/-- The evaluation of `preprocess` (lines 673-681); `preprocess(**None)` raises TypeError. -/
def setupdict (c : Call α) : Except PyErr (SetupDict α) := match c.preprocess with
  | none => .ok ⟨none, none⟩
  | some f => match c.preKw with
    | none => .error .typeError
    | some k => match f k with
      | .error e => .error e
      | .ok .none => .ok ⟨none, none⟩
      | .ok (.dict d) => .ok d
      | .ok .other => .error .assertionError

/-- The selection of `reader_args` (lines 684-695). -/
def selectArgs (c : Call α) (d : SetupDict α) : Except PyErr (List α) := match c.readerArgs, d.readerArgs with
  | none, none => .error .assertionError
  | none, some l => .ok l
  | some l, none => .ok l
  | some _, some _ => .error .assertionError

/-- The dict that is prepared for the pool (lines 703-707). -/
def selectKw (c : Call α) (d : SetupDict α) : PoolKw := match d.poolKw with
  | some kw => kw
  | none => c.poolKw.getD .empty

/-- What is processed: nothing, or a list of arguments by a pool with the given keyword-arguments. -/
inductive Plan (α : Type)
  | nothing
  | run (args : List α) (kw : PoolKw)

/-- The first part of `_processfunc` (lines 671-715). -/
def plan (c : Call α) : Except PyErr (Plan α) := match setupdict c with
  | .error e => .error e
  | .ok d => match selectArgs c d with
    | .error e => .error e
    | .ok l => if l.length = 0 then .ok .nothing else .ok (.run l ((selectKw c d).wrap c.queue c.counter))

/-- The content of the dict `pool_kwargs` of the caller after the call: it is the same object as the prepared dict unless `preprocess`
returned another one. -/
def callerKw (c : Call α) : Option PoolKw := match setupdict c, plan c with
  | .ok d, .ok (.run _ kw) => match d.poolKw with
    | some _ => c.poolKw
    | none => c.poolKw.map fun _ => kw
  | _, _ => c.poolKw

/-! ## pool and processes -/

/-- The events in the main process. -/
inductive Ev
  | preeval (name : String)
  | writerStart (i : Nat)
  | combinerStart (i : Nat)
  | poolStart
  | poolClose
  | poolJoin
  | shouldStop
  | combinerJoin (i : Nat)
  | combinerReady
  | writerJoin (i : Nat)
  | stopAll
  | managerShutdown
  | index (kws : List (String × Nat))
deriving DecidableEq

/-- The outcome: a value, an exception, or the call does not return. -/
inductive Res (β : Type)
  | val (b : β)
  | exc (e : PyErr)
  | hang

/-- Events and outcome. -/
abbrev R (β : Type) := List Ev × Res β

/-- `try: m finally: f` -/
def tryFin {β : Type} (m : R β) (f : R Unit) : R β := match m.2 with
  | .hang => m
  | r => match f.2 with
    | .val _ => (m.1 ++ f.1, r)
    | .exc e => (m.1 ++ f.1, .exc e)
    | .hang => (m.1 ++ f.1, .hang)

/-- The errors of the called functions: `RT1_processor(…)`, `_setup_manager()`, the start of the i-th writer and combiner, `_check_IDs`
(the arguments to process), `ctx.Pool(…)`, `worker.get()`. -/
structure Env (α : Type) where
  nWriter : Nat
  nCombiner : Nat
  ctor : Option PyErr
  manager : Option PyErr
  writerStart : Nat → Option PyErr
  combinerStart : Nat → Option PyErr
  check : List α → Except PyErr (List α)
  pool : Option PyErr
  get : Option PyErr
  worker : WEnv

/-- `_start_writer_process`, `_start_combiner_process` (`rt1/_rtprocess_writer.py` lines 479-508): `n` processes starting with the `i`-th. -/
def startProcs (mk : Nat → Ev) (fail : Nat → Option PyErr) : Nat → Nat → List Ev × Option PyErr
  | 0, _ => ([], none)
  | n + 1, i => match fail i with
    | some e => ([], some e)
    | none => match startProcs mk fail n (i + 1) with
      | (l, r) => (mk i :: l, r)

/-- `pool.starmap_async(…)`, `worker.get()`: the tasks return None (`_worker_process`, lines 457-477).  A worker whose initializer raises ends
and is replaced by a new one, no task is ever started. -/
def starmap (env : Env α) (kw : PoolKw) (args : List α) : Res (List Unit) := match (workerInit env.worker kw).2 with
  | .error _ => .hang
  | .ok _ => match env.get with
    | some e => .exc e
    | none => .val (args.map fun _ => ())

/-- `run_starmap` (lines 556-641) -/
def runStarmap (env : Env α) (kw : PoolKw) (args : List α) : R (Option (List Unit)) := match env.check args with
  | .error e => ([], .exc e)
  | .ok todo =>
    if todo.length = 0 then ([], .val none)
    else match env.pool with
      | some e => ([], .exc e)
      | none => tryFin ([.poolStart], match starmap env kw todo with
          | .val l => .val (some l)
          | .exc e => .exc e
          | .hang => .hang) ([.poolClose, .poolJoin], .val ())

/-- `stop` (lines 643-666) -/
def stop (env : Env α) : R Unit :=
  ([.shouldStop] ++ (List.range env.nCombiner).map Ev.combinerJoin ++ [.combinerReady] ++ (List.range env.nWriter).map Ev.writerJoin ++
    [.stopAll, .managerShutdown], .val ())

/-- `with RT1_processor.writer_pool(…) as w: body` (lines 533-546): the `finally`-block uses variables that are unassigned if an error
occurred before. -/
def writerPool {β : Type} (env : Env α) (body : R β) : R β := match env.ctor, env.manager with
  | some _, _ => ([], .exc .unboundLocalError)
  | none, some _ => ([], .exc .unboundLocalError)
  | none, none => match startProcs Ev.writerStart env.writerStart env.nWriter 0 with
    | (t, some _) => (t, .exc .unboundLocalError)
    | (t, none) => match startProcs Ev.combinerStart env.combinerStart env.nCombiner 0 with
      | (t', some _) => (t ++ t', .exc .unboundLocalError)
      | (t', none) => tryFin (t ++ t' ++ body.1, body.2) (stop env)

/-- `create_index` at the end of `_processfunc` (`rt1/rtprocess.py` lines 750-759); an empty dict is false. -/
def indexEvents : CI → List Ev
  | .bool true => [.index []]
  | .bool false => []
  | .dict [] => []
  | .dict (k :: l) => [.index (k :: l)]
  | .other _ => []

/-- The pre-evaluation of the fn-coefficients (lines 717-730). -/
def preevals (c : Call α) : List Ev := (c.fits.filter fun f => f.2).map fun f => .preeval f.1

/-- `a` followed by `create_index` -/
def thenIndex {β : Type} (c : Call α) (a : R β) : R β := match a.2 with
  | .val b => (a.1 ++ indexEvents c.createIndex, .val b)
  | r => (a.1, r)

/-- `_processfunc` (`rt1/rtprocess.py` lines 583-763) -/
def processfunc (env : Env α) (c : Call α) : R (Option (List Unit)) := match plan c with
  | .error e => ([], .exc e)
  | .ok .nothing => thenIndex c ([], .val (some []))
  | .ok (.run args kw) => thenIndex c (preevals c ++ (writerPool env (runStarmap env kw args)).1, (writerPool env (runStarmap env kw args)).2)

end RT1.PoolRun
