import Mathlib.Logic.Function.Basic
import Mathlib.Logic.Relation
import Verif.Model.Dict

/-!
# Model of the processing pipeline `rt1/_rtprocess_writer.py` (`RT1_processor`)

A labelled transition system: pool workers, combiner processes with their threads, writer processes and the main process.
Every transition performs at most one operation on shared objects (queues, events, locks, counters, HDF store); local
computations are merged with the preceding shared operation.  The queues, events, locks and values of
`multiprocessing.Manager` are atomic objects, the queues are FIFO, `get(timeout=…)` gives `QueueEmpty` only if the queue is
empty.  Timeouts are nondeterministic.  The pool is modelled as `n_worker` workers that take pending tasks in any order.

`lost`, `bad` and `done` are history variables that do not exist in the code.
-/

namespace RT1.Pipeline

/-- The sizes (`RT1_processor.__init__`, lines 64-133). -/
structure Cfg where
  nWorker : Nat
  nComb : Nat
  nWriter : Nat
  /-- `write_chunk_size` -/
  chunkSize : Nat
  /-- `out_cache_size` -/
  cacheSize : Nat

/-- What happens if a task is processed (`_worker_process`, lines 460-477): the reader returns None, an exception is raised
(or the result is None), or a result is obtained. -/
inductive Outcome (R : Type)
  | skip | err | res (r : R)

/-- The entries put into the queue for a processed task (lines 467-475). -/
def Outcome.put {R : Type} : Outcome R → List (Option R)
  | .skip => []
  | .err => [none]
  | .res r => [some r]

/-- A worker of the pool (`_worker_process`): idle, waiting for the event `should_wait` (line 458), processing. -/
inductive Worker (R : Type)
  | idle | waiting (t : Outcome R) | exec (t : Outcome R)

/-- The program counter of a combiner (`_combiner_process`, lines 230-290). -/
inductive CPc (R : Type)
  /-- start of the loop: `should_stop.is_set()` (line 233) -/
  | top
  /-- `queue.empty()` (line 234) -/
  | chkEmpty
  /-- `_stop.is_set()` (line 242) -/
  | chkStop
  /-- the inner loop (line 253) with the results collected so far -/
  | collect (chunk : List R)
  /-- a value has been taken from the queue (line 256) -/
  | hold (chunk : List R) (v : Option R)
  /-- joining the threads (lines 289-292) -/
  | joining
  | dead

/-- A combiner: its program counter and its running threads (each will put one combined chunk into `out_queue`). -/
structure Comb (R : Type) where
  pc : CPc R
  threads : List (List R)

/-- The program counter of a writer (`_save_file_process`, lines 377-455). -/
inductive Writer (R K V : Type)
  /-- start of the loop: `combiner_ready.is_set()` (line 379) -/
  | top
  /-- `out_queue.empty()` (line 380) -/
  | chkEmpty
  /-- `_stop.is_set()` (line 389) -/
  | chkStop
  /-- `out_queue.qsize()` (line 394) -/
  | gate
  /-- `should_wait.set()` (line 395) -/
  | gateSet
  /-- `should_wait.is_set()` (line 396) -/
  | gateChk
  /-- `should_wait.clear()` (line 397) -/
  | gateClr
  /-- `out_queue.get(timeout=2)` (line 403) -/
  | get
  /-- `write_lock.acquire()` (line 408) -/
  | acquire (chunk : List R)
  /-- the tables that are still to be appended to the HDF store (line 410) -/
  | writing (chunk : List R) (rem : List (K × List V))
  /-- the exception handler (lines 451-455): `_stop.set()`, `should_wait.clear()`, `write_lock.release()` -/
  | failing (n : Nat)
  | dead

/-- The main process (`run_starmap`, `stop`): waiting for the pool, joining the combiners, joining the writers, finished. -/
inductive Main
  | pool | joinC | joinW | finished
  deriving DecidableEq

variable {R K V : Type} [DecidableEq K]

section
variable (entries : R → Option (List (K × V)))

/-- The tables collected from one result: `results[key].append(val)` (lines 263-270). -/
def addEntry (d : Dict K (List V)) (e : K × V) : Dict K (List V) := d.set e.1 ((d.get? e.1).getD [] ++ [e.2])

def addResult (d : Dict K (List V)) (r : R) : Dict K (List V) := ((entries r).getD []).foldl addEntry d

/-- The combined tables of a chunk (`results` of the inner loop, `_combine_results`, lines 204-214). -/
def combined (chunk : List R) : Dict K (List V) := chunk.foldl (addResult entries) []
end

/-- `store.append(key, val)` (lines 427-435) -/
def appendTable (st : Dict K (List V)) (k : K) (vs : List V) : Dict K (List V) := st.set k ((st.get? k).getD [] ++ vs)

structure State (cfg : Cfg) (R K V : Type) where
  pending : List (Outcome R)
  workers : Fin cfg.nWorker → Worker R
  queue : List (Option R)
  combs : Fin cfg.nComb → Comb R
  outq : List (List R)
  writers : Fin cfg.nWriter → Writer R K V
  /-- `write_lock` is held -/
  lock : Bool
  store : Dict K (List V)
  shouldWait : Bool
  shouldStop : Bool
  stop : Bool
  ready : Bool
  main : Main
  /-- `p_totcnt` -/
  tot : Nat
  /-- `p_meancnt` -/
  succ : Nat
  /-- results discarded because of an exception in the combiner -/
  lost : List R
  /-- number of results that raised an exception in the combiner -/
  bad : Nat
  /-- results whose tables have been written completely -/
  done : List R

/-- The state after the processes have been started and the tasks have been submitted. -/
def init (cfg : Cfg) (tasks : List (Outcome R)) (store : Dict K (List V)) : State cfg R K V where
  pending := tasks
  workers := fun _ => .idle
  queue := []
  combs := fun _ => ⟨.top, []⟩
  outq := []
  writers := fun _ => .top
  lock := false
  store := store
  shouldWait := false
  shouldStop := false
  stop := false
  ready := false
  main := .pool
  tot := 0
  succ := 0
  lost := []
  bad := 0
  done := []

section
open Function
variable (entries : R → Option (List (K × V))) (cfg : Cfg)

namespace State
variable {cfg}

def setW (s : State cfg R K V) (w : Fin cfg.nWorker) (x : Worker R) : State cfg R K V := { s with workers := update s.workers w x }
def setC (s : State cfg R K V) (i : Fin cfg.nComb) (x : Comb R) : State cfg R K V := { s with combs := update s.combs i x }
def setPc (s : State cfg R K V) (i : Fin cfg.nComb) (x : CPc R) : State cfg R K V := s.setC i ⟨x, (s.combs i).threads⟩
def setWr (s : State cfg R K V) (i : Fin cfg.nWriter) (x : Writer R K V) : State cfg R K V :=
  { s with writers := update s.writers i x }

end State

/-- Steps without failures of the environment. -/
inductive Step : State cfg R K V → State cfg R K V → Prop
  -- workers (`_worker_process`, lines 457-477)
  | start (s) (w) (l₁) (t) (l₂) : s.workers w = .idle → s.pending = l₁ ++ t :: l₂ →
      Step s ({ s with pending := l₁ ++ l₂ }.setW w (.waiting t))
  | pass (s) (w) (t) : s.workers w = .waiting t → s.shouldWait = true → Step s (s.setW w (.exec t))
  | finish (s) (w) (t) : s.workers w = .exec t → Step s ({ s with queue := s.queue ++ t.put }.setW w .idle)
  -- combiners (`_combiner_process`, lines 216-292)
  | cTopStop (s) (i) : (s.combs i).pc = .top → s.shouldStop = true → Step s (s.setPc i .chkEmpty)
  | cTopRun (s) (i) : (s.combs i).pc = .top → s.shouldStop = false → Step s (s.setPc i .chkStop)
  | cEmpty (s) (i) : (s.combs i).pc = .chkEmpty → s.queue = [] → Step s (s.setPc i .joining)
  | cNonempty (s) (i) : (s.combs i).pc = .chkEmpty → s.queue ≠ [] → Step s (s.setPc i .chkStop)
  | cStop (s) (i) : (s.combs i).pc = .chkStop → s.stop = true → Step s (s.setPc i .joining)
  | cGo (s) (i) : (s.combs i).pc = .chkStop → s.stop = false → Step s (s.setPc i (.collect []))
  | cGet (s) (i) (chunk) (v) (q) : (s.combs i).pc = .collect chunk → chunk.length < cfg.chunkSize → s.queue = v :: q →
      Step s ({ s with queue := q }.setPc i (.hold chunk v))
  | cNone (s) (i) (chunk) : (s.combs i).pc = .hold chunk none →
      Step s ({ s with tot := s.tot + 1 }.setPc i (.collect chunk))
  | cGood (s) (i) (chunk) (r) : (s.combs i).pc = .hold chunk (some r) → (entries r).isSome →
      Step s ({ s with tot := s.tot + 1, succ := s.succ + 1 }.setPc i (.collect (chunk ++ [r])))
  | cBroken (s) (i) (chunk) (r) : (s.combs i).pc = .hold chunk (some r) → entries r = none →
      Step s ({ s with lost := s.lost ++ chunk ++ [r], bad := s.bad + 1 }.setPc i .top)
  | cSpawn (s) (i) (chunk) : (s.combs i).pc = .collect chunk → (chunk.length < cfg.chunkSize → s.queue = []) →
      combined entries chunk ≠ [] → Step s (s.setC i ⟨.top, (s.combs i).threads ++ [chunk]⟩)
  | cNothing (s) (i) (chunk) : (s.combs i).pc = .collect chunk → (chunk.length < cfg.chunkSize → s.queue = []) →
      combined entries chunk = [] → Step s ({ s with done := s.done ++ chunk }.setPc i .top)
  | cThread (s) (i) (l₁) (chunk) (l₂) : (s.combs i).threads = l₁ ++ chunk :: l₂ →
      Step s ({ s with outq := s.outq ++ [chunk] }.setC i ⟨(s.combs i).pc, l₁ ++ l₂⟩)
  | cDead (s) (i) : s.combs i = ⟨.joining, []⟩ → Step s (s.setPc i .dead)
  -- writers (`_save_file_process`, lines 368-455)
  | wTopReady (s) (i) : s.writers i = .top → s.ready = true → Step s (s.setWr i .chkEmpty)
  | wTopRun (s) (i) : s.writers i = .top → s.ready = false → Step s (s.setWr i .chkStop)
  | wEmpty (s) (i) : s.writers i = .chkEmpty → s.outq = [] → Step s (s.setWr i .dead)
  | wNonempty (s) (i) : s.writers i = .chkEmpty → s.outq ≠ [] → Step s (s.setWr i .chkStop)
  | wStop (s) (i) : s.writers i = .chkStop → s.stop = true → Step s (s.setWr i .dead)
  | wGo (s) (i) : s.writers i = .chkStop → s.stop = false → Step s (s.setWr i .gate)
  | wLow (s) (i) : s.writers i = .gate → s.outq.length < cfg.cacheSize → Step s (s.setWr i .gateSet)
  | wHigh (s) (i) : s.writers i = .gate → ¬ s.outq.length < cfg.cacheSize → Step s (s.setWr i .gateChk)
  | wSet (s) (i) : s.writers i = .gateSet → Step s ({ s with shouldWait := true }.setWr i .get)
  | wChkSet (s) (i) : s.writers i = .gateChk → s.shouldWait = true → Step s (s.setWr i .gateClr)
  | wChkUnset (s) (i) : s.writers i = .gateChk → s.shouldWait = false → Step s (s.setWr i .get)
  | wClear (s) (i) : s.writers i = .gateClr → Step s ({ s with shouldWait := false }.setWr i .get)
  | wGet (s) (i) (chunk) (q) : s.writers i = .get → s.outq = chunk :: q → Step s ({ s with outq := q }.setWr i (.acquire chunk))
  | wTimeout (s) (i) : s.writers i = .get → s.outq = [] → Step s (s.setWr i .top)
  | wAcquire (s) (i) (chunk) : s.writers i = .acquire chunk → s.lock = false →
      Step s ({ s with lock := true }.setWr i (.writing chunk (combined entries chunk)))
  | wWrite (s) (i) (chunk) (k) (vs) (rem) : s.writers i = .writing chunk ((k, vs) :: rem) →
      Step s ({ s with store := appendTable s.store k vs }.setWr i (.writing chunk rem))
  | wRelease (s) (i) (chunk) : s.writers i = .writing chunk [] →
      Step s ({ s with lock := false, done := s.done ++ chunk }.setWr i .top)
  | wFail0 (s) (i) : s.writers i = .failing 0 → Step s ({ s with stop := true }.setWr i (.failing 1))
  | wFail1 (s) (i) : s.writers i = .failing 1 → Step s ({ s with shouldWait := false }.setWr i (.failing 2))
  | wFail2 (s) (i) : s.writers i = .failing 2 → Step s ({ s with lock := false }.setWr i .top)
  -- the main process (`run_starmap` lines 611-641, `stop` lines 643-658)
  | mStop (s) : s.main = .pool → s.pending = [] → (∀ w, s.workers w = .idle) →
      Step s { s with shouldStop := true, main := .joinC }
  | mReady (s) : s.main = .joinC → (∀ i, (s.combs i).pc = .dead) → Step s { s with ready := true, main := .joinW }
  | mEnd (s) : s.main = .joinW → (∀ i, s.writers i = .dead) → Step s { s with stop := true, main := .finished }

/-- Failures of the environment: an exception while writing (lines 409-448), a signal while the pool is running
(`manual_shutdown`, lines 135-142; the `finally` blocks then wait for the pool and call `stop`). -/
inductive Fault : State cfg R K V → State cfg R K V → Prop
  | write (s) (i) (chunk) (rem) : s.writers i = .writing chunk rem → Fault s (s.setWr i (.failing 0))
  | signal (s) : s.main = .pool → Fault s { s with shouldStop := true, stop := true }

/-- Runs without failures. -/
abbrev Run := Relation.ReflTransGen (Step entries cfg)

/-- Runs with failures at arbitrary points. -/
abbrev FaultyRun := Relation.ReflTransGen fun s s' => Step entries cfg s s' ∨ Fault (K := K) (V := V) (R := R) cfg s s'

end
end RT1.Pipeline
