import Mathlib.Data.Int.Notation
import Mathlib.Logic.Function.Basic

/-!
# Model of the counters of a processing run

`RT1_processor._increase_cnt`, `print_progress` (`rt1/_rtprocess_writer.py` lines 144-202) together with the part of `_combiner_process` that
takes the results from the queue (lines 254-276), and the numbering of the workers in `RTprocess._initializer` (`rt1/rtprocess.py` lines
566-574).  Counters are values of a manager process: `x.value += 1` consists of a request that reads the value and one that writes it, requests of
different processes are executed in any order.
-/

namespace RT1.Counters

/-! ## counters of the results -/

/-- The position of a process or thread within `_combiner_process` / `_increase_cnt` or `print_progress`; results are represented by the flag
`err` (a None in the queue). -/
inductive Pc
  | idle
  /-- `self.queue.get(…)` has returned (line 257) -/
  | got (err : Bool)
  /-- `self.lock.acquire()` has returned (line 145) -/
  | locked (err : Bool)
  /-- the value `v` of `p_totcnt` has been read (lines 148, 153) -/
  | readT (err : Bool) (v : Nat)
  /-- `p_totcnt` has been written -/
  | wroteT (err : Bool)
  /-- the value `v` of `p_meancnt` has been read (line 150) -/
  | readM (v : Nat)
  /-- before `self.lock.release()` (line 154) -/
  | fin
  /-- `print_progress` before `self.lock.acquire()` (line 162) -/
  | pWait
  | pLocked
  /-- `qsize = self.queue.qsize()` (line 163) -/
  | pQ (q : Nat)
  /-- `self.p_totcnt.value` (line 164) -/
  | pT (q t : Nat)
  /-- `self.p_meancnt.value` (line 165) -/
  | pM (q t m : Nat)
  /-- after `self.lock.release()` with the variables `p_totcnt`, `p_meancnt` (line 166) -/
  | pOut (tot mean : Nat)
  /-- after the calculation of the title (lines 168-187) -/
  | shown (tot mean : Nat)
  /-- `self.p_totcnt.value` for the final message (line 194) -/
  | pFin (tot mean t : Nat)
  /-- the output: progress, and the number of errors in the final message -/
  | output (tot mean : Nat) (errors : Int)
  /-- ZeroDivisionError in line 174, the thread ends -/
  | crashed
deriving DecidableEq

/-- The state: the queue of results, the holder of the lock, the counters, and the positions. -/
structure St where
  queue : List Bool
  lock : Option Nat
  tot : Nat
  mean : Nat
  pc : Nat → Pc

/-- The start. -/
def init : St := ⟨[], none, 0, 0, fun _ => .idle⟩

/-- Set the position of a process. -/
def St.goto (s : St) (p : Nat) (c : Pc) : St := { s with pc := Function.update s.pc p c }

/-- The next step of process `p` (no change if it has to wait). -/
def next (s : St) (p : Nat) : St := match s.pc p with
  | .idle => match s.queue with
    | [] => s
    | b :: l => { s with queue := l }.goto p (.got b)
  | .got b => if s.lock = none then { s with lock := some p }.goto p (.locked b) else s
  | .locked b => s.goto p (.readT b s.tot)
  | .readT b v => { s with tot := v + 1 }.goto p (.wroteT b)
  | .wroteT true => s.goto p .fin
  | .wroteT false => s.goto p (.readM s.mean)
  | .readM v => { s with mean := v + 1 }.goto p .fin
  | .fin => { s with lock := none }.goto p .idle
  | .pWait => if s.lock = none then { s with lock := some p }.goto p .pLocked else s
  | .pLocked => s.goto p (.pQ s.queue.length)
  | .pQ q => s.goto p (.pT q s.tot)
  | .pT q t => s.goto p (.pM q t s.mean)
  | .pM q t m => { s with lock := none }.goto p (.pOut (t + q) (m + q))
  | .pOut T M => if s.mean = 0 then s.goto p (.shown T M) else if M = 0 then s.goto p .crashed else s.goto p (.shown T M)
  | .shown T M => s.goto p (.pFin T M s.tot)
  | .pFin T M t => s.goto p (.output T M (t - s.mean))
  | .output _ _ _ => s.goto p .idle
  | .crashed => s

/-- The actions: a worker puts a result (or None) into the queue, a process continues, the timer starts `print_progress`. -/
inductive Act
  | put (err : Bool)
  | move (p : Nat)
  | print (p : Nat)
deriving DecidableEq

def exec (s : St) : Act → St
  | .put b => { s with queue := s.queue ++ [b] }
  | .move p => next s p
  | .print p => if s.pc p = .idle then s.goto p .pWait else s

/-- The state after a sequence of actions. -/
def run (acts : List Act) : St := acts.foldl exec init

/-! ## numbers of the workers -/

/-- The position of a worker in `_initializer`. -/
inductive WPc
  | start
  /-- the value of the counter has been read -/
  | read (v : Nat)
  /-- the counter has been written -/
  | wrote
  /-- the name with the number (another request of the value) has been set -/
  | named (n : Nat)
deriving DecidableEq

structure WSt where
  counter : Nat
  pc : Nat → WPc

def winit : WSt := ⟨0, fun _ => .start⟩

/-- `proc_counter.value += 1; mp.current_process().name = f"RTprocess-{proc_counter.value}"` (`rt1/rtprocess.py` lines 572-574) -/
def wnext (s : WSt) (w : Nat) : WSt := match s.pc w with
  | .start => { s with pc := Function.update s.pc w (.read s.counter) }
  | .read v => ⟨v + 1, Function.update s.pc w .wrote⟩
  | .wrote => { s with pc := Function.update s.pc w (.named s.counter) }
  | .named _ => s

/-- The state after the workers continued in the given order. -/
def wrun (ws : List Nat) : WSt := ws.foldl wnext winit

end RT1.Counters
