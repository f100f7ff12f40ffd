import Verif.Model.RunProc
import Verif.Props.Pipeline

/-!
# C97, C98: cleaning up after a run, runs without log-file

Specification: what a user can observe after a call of `run_processing` or `run_finaloutput` has ended.
-/

namespace RT1.RunProc
open General M

variable {X R : Type}

/-- The state before a run: no queue-handler is attached to `log`. -/
def NoQueueHandler (s : St) : Prop := ∀ h ∈ s.handlers, h.name ≠ some qname

/-- Everything is as before: the handlers of `log`, `autocontinue`; warnings are not captured and no listener process is
alive. -/
structure Clean (s s' : St) : Prop where
  handlers : s'.handlers = s.handlers
  autocontinue : s'.autocontinue = s.autocontinue
  capture : s'.capture = false
  listener : s'.listener ≠ some .running
  stray : s'.stray = (enter s).stray

/-- The outcome of a called function. -/
def outcome {α : Type} : Except X α → Except (Exc X) α
  | .ok a => .ok a
  | .error x => .error (.user x)

theorem filter_queue {s : St} (h : NoQueueHandler s) (i : Nat) :
    (s.handlers ++ [(⟨some qname, i⟩ : Handler)]).filter (fun h => decide (h.name ≠ some qname)) = s.handlers := by
  rw [List.filter_append, List.filter_eq_self.2 (by simpa [NoQueueHandler] using h)]
  simp

/-- C97 (partial): if the set-up and the finalizers do not raise, then `run_processing` (with a log-file) raises exactly the error of the
processing and cleans up, whatever happens during the processing. -/
theorem C97_processing_partial (l : Nat) (env : ProcEnv X) (s : St) (hq : NoQueueHandler s) (h0 : env.finalizer0 = .ok ())
    (hs : env.setup = .ok ()) (h1 : env.finalizer1 = .ok ()) :
    (runProcessing (some l) env (enter s)).1 = outcome env.process ∧ Clean s (runProcessing (some l) env (enter s)).2 := by
  cases hp : env.process with
  | ok a =>
    refine ⟨by simp [runProcessing, seq, M.bind, call, h0, hs, h1, hp, M.tryFinally, startListener, workerConfigurer, M.modify, cleanup,
      putStop, joinListener, removeHandlers, outcome], ?_⟩
    constructor <;> simp [runProcessing, seq, M.bind, call, h0, hs, h1, hp, M.tryFinally, startListener, workerConfigurer, M.modify,
      cleanup, putStop, joinListener, removeHandlers, enter]
    simpa [NoQueueHandler] using hq
  | error x =>
    refine ⟨by simp [runProcessing, seq, M.bind, call, h0, hs, h1, hp, M.tryFinally, startListener, workerConfigurer, M.modify, cleanup,
      putStop, joinListener, removeHandlers, outcome], ?_⟩
    constructor <;> simp [runProcessing, seq, M.bind, call, h0, hs, h1, hp, M.tryFinally, startListener, workerConfigurer, M.modify,
      cleanup, putStop, joinListener, removeHandlers, enter]
    simpa [NoQueueHandler] using hq

/-- C97 (partial): if the set-up does not raise, then `run_finaloutput` returns the result (or raises the error) of the generation of the
output and cleans up. -/
theorem C97_finaloutput_partial (l : Option Nat) (env : FinalEnv X R) (s : St) (hq : NoQueueHandler s) (h0 : env.override = .ok ())
    (hs : env.setup = .ok ()) :
    (runFinaloutput l env (enter s)).1 = outcome env.finalout ∧ Clean s (runFinaloutput l env (enter s)).2 := by
  cases l <;> cases hp : env.finalout <;>
  refine ⟨by simp [runFinaloutput, seq, M.bind, ret, call, h0, hs, hp, M.tryFinally, startListener, workerConfigurer, M.modify, cleanup,
    putStop, joinListener, removeHandlers, outcome], ?_⟩ <;>
  constructor <;> simp [runFinaloutput, seq, M.bind, ret, call, h0, hs, hp, M.tryFinally, startListener, workerConfigurer, M.modify,
      cleanup, putStop, joinListener, removeHandlers, enter] <;>
  simpa [NoQueueHandler] using hq

/-- A run whose set-up and finalizers do not raise. -/
def Fine : Run X R → Prop
  | .processing l e => (∃ n, l = some n) ∧ e.finalizer0 = .ok () ∧ e.setup = .ok () ∧ e.finalizer1 = .ok ()
  | .finaloutput _ e => e.override = .ok () ∧ e.setup = .ok ()

theorem exec_clean (r : Run X R) (s : St) (hq : NoQueueHandler s) (hr : Fine r) : Clean s (r.exec s) := by
  cases r with
  | processing l e =>
    obtain ⟨⟨n, rfl⟩, h0, hs, h1⟩ := hr
    exact (C97_processing_partial n e s hq h0 hs h1).2
  | finaloutput l e => exact (C97_finaloutput_partial l e s hq hr.1 hr.2).2

/-- C97 (partial): after any number of such runs (successful or not) everything is as before. -/
theorem C97_history_partial (rs : List (Run X R)) (s : St) (hq : NoQueueHandler s) (hl : s.listener ≠ some .running)
    (hc : s.capture = false) (hr : ∀ r ∈ rs, Fine r) :
    (history rs s).handlers = s.handlers ∧ (history rs s).autocontinue = s.autocontinue ∧ (history rs s).capture = false ∧
      (history rs s).stray = s.stray ∧ (history rs s).listener ≠ some .running := by
  induction rs generalizing s with
  | nil => exact ⟨rfl, rfl, hc, rfl, hl⟩
  | cons r rs ih =>
    have hcl := exec_clean r s hq (hr r (by simp))
    have hq' : NoQueueHandler (r.exec s) := by
      intro h hh
      rw [hcl.handlers] at hh
      exact hq h hh
    obtain ⟨a, b, c, d, e⟩ := ih (r.exec s) hq' hcl.listener hcl.capture (fun r' hr' => hr r' (by simp [hr']))
    have hst := hcl.stray
    simp only [enter, if_neg hl, Nat.add_zero] at hst
    exact ⟨a.trans hcl.handlers, b.trans hcl.autocontinue, c, d.trans hst, e⟩

/-- C97 fails: an error in `setup` (including the SystemExit after the user has aborted) is replaced by an UnboundLocalError in both
functions. -/
theorem C97_setup_fails (l : Nat) (s : St) (x : X) :
    (∀ env : ProcEnv X, env.finalizer0 = .ok () → env.finalizer1 = .ok () → env.setup = .error x →
      (runProcessing (some l) env (enter s)).1 = .error (.py .unboundLocalError)) ∧
    (∀ env : FinalEnv X R, env.override = .ok () → env.setup = .error x →
      (runFinaloutput (some l) env (enter s)).1 = .error (.py .unboundLocalError)) := by
  refine ⟨fun env h0 h1 hs => ?_, fun env h0 hs => ?_⟩
  · simp [runProcessing, seq, M.bind, call, h0, hs, h1, M.tryFinally, M.modify, cleanup, putStop, enter]
  · simp [runFinaloutput, seq, M.bind, call, h0, hs, M.tryFinally, M.modify, cleanup, putStop, enter]

/-- C97 fails: an error in `setup` leaves `autocontinue` switched on: a later `run_processing` continues without asking. -/
theorem C97_autocontinue_fails (l : Option Nat) (env : FinalEnv X R) (s : St) (x : X) (h0 : env.override = .ok ())
    (hs : env.setup = .error x) : (runFinaloutput l env (enter s)).2.autocontinue = true := by
  cases l <;> simp [runFinaloutput, seq, M.bind, ret, call, h0, hs, M.tryFinally, M.modify, cleanup, putStop, enter]

/-- C97 fails: an error in the finalizer leaves the listener process running and the queue-handler attached; the error of the processing is
replaced. -/
theorem C97_finalizer_fails (l : Nat) (env : ProcEnv X) (s : St) (x : X) (h0 : env.finalizer0 = .ok ())
    (hs : env.setup = .ok ()) (h1 : env.finalizer1 = .error x) :
    (runProcessing (some l) env (enter s)).1 = .error (.user x) ∧
    (runProcessing (some l) env (enter s)).2.listener = some .running ∧
    (runProcessing (some l) env (enter s)).2.handlers = s.handlers ++ [⟨some qname, s.next⟩] ∧
    (runProcessing (some l) env (enter s)).2.capture = true := by
  cases hp : env.process <;> simp [runProcessing, seq, M.bind, call, h0, hs, h1, hp, M.tryFinally, startListener, workerConfigurer,
    M.modify, enter]

/-- `logfile_level` of a call. -/
def levelOf : Run X R → Option Nat
  | .processing l _ => l
  | .finaloutput l _ => l

theorem exec_warn (r : Run X R) (s : St) (hr : Fine r) (n : Nat)
    (hlev : levelOf r = some n) :
    (r.exec s).warnHandlers.length = s.warnHandlers.length + 1 ∧ (r.exec s).level = n := by
  cases r with
  | processing l e =>
    obtain ⟨_, h0, hs, h1⟩ := hr
    simp only [levelOf] at hlev
    subst hlev
    cases hp : e.process <;> simp [Run.exec, runProcessing, seq, M.bind, call, h0, hs, h1, hp, M.tryFinally, startListener,
      workerConfigurer, M.modify, cleanup, putStop, joinListener, removeHandlers, enter]
  | finaloutput l e =>
    obtain ⟨h0, hs⟩ := hr
    simp only [levelOf] at hlev
    subst hlev
    cases hp : e.finalout <;> simp [Run.exec, runFinaloutput, seq, M.bind, call, h0, hs, hp, M.tryFinally, startListener,
      workerConfigurer, M.modify, cleanup, putStop, joinListener, removeHandlers, enter]

/-- C97 fails: every run with a log-file leaves one more (closed) queue-handler at the logger `py.warnings`, and the level of `log` stays at the level of
the log-file. -/
theorem C97_warnings_fails (rs : List (Run X R)) (s : St) (n : Nat) (hr : ∀ r ∈ rs, Fine r)
    (hlev : ∀ r ∈ rs, levelOf r = some n) :
    (history rs s).warnHandlers.length = s.warnHandlers.length + rs.length ∧ (rs ≠ [] → (history rs s).level = n) := by
  induction rs generalizing s with
  | nil => simp [history]
  | cons r rs ih =>
    obtain ⟨h1, h2⟩ := exec_warn r s (hr r (by simp)) n (hlev r (by simp))
    obtain ⟨h3, h4⟩ := ih (r.exec s) (fun r' h => hr r' (by simp [h])) (fun r' h => hlev r' (by simp [h]))
    refine ⟨by
      have : (history (r :: rs) s) = history rs (r.exec s) := rfl
      rw [this, h3, h1, List.length_cons]; omega, fun _ => ?_⟩
    have : (history (r :: rs) s) = history rs (r.exec s) := rfl
    rw [this]
    by_cases hrs : rs = []
    · subst hrs; exact h2
    · exact h4 hrs

/-! ## C98: runs without log-file -/

open Pipeline in
/-- A run that started with ended writer and combiner processes: no writer can set `should_wait`, so no task is ever processed. -/
theorem stuck {K V : Type} [DecidableEq K] (entries : R → Option (List (K × V))) (cfg : Cfg) {tasks : List (Outcome R)}
    {store : Dict K (List V)} (ht : tasks ≠ []) {s : State cfg R K V} (h : FaultyRun entries cfg (startState cfg false tasks store) s) :
    (∀ i, s.writers i = .dead) ∧ (∀ i, s.combs i = ⟨.dead, []⟩) ∧ s.shouldWait = false ∧ (∀ w t, s.workers w ≠ .exec t) ∧
      (s.pending = [] → ∃ w t, s.workers w = .waiting t) ∧ s.main = .pool ∧ s.queue = [] ∧ s.store = store := by
  induction h with
  | refl => simp [startState, init, ht]
  | tail _ hstep ih =>
    obtain ⟨hw, hc, hsw, hx, hp, hm, hqu, hst⟩ := ih
    rcases hstep with hstep | hstep
    · cases hstep with
      | start w l₁ t l₂ hwk hpe =>
        refine ⟨hw, hc, hsw, fun w' t' => ?_, fun _ => ⟨w, t, by simp [State.setW]⟩, hm, hqu, hst⟩
        by_cases hww : w' = w
        · subst hww; simp [State.setW]
        · simp [State.setW, Function.update_of_ne hww, hx w' t']
      | pass w t hwk hsw' => rw [hsw] at hsw'; cases hsw'
      | finish w t hwk => exact absurd hwk (hx w t)
      | mStop hm' hpe hidle =>
        obtain ⟨w, t, hwt⟩ := hp hpe
        rw [hidle w] at hwt; cases hwt
      | mReady hm' _ => rw [hm] at hm'; cases hm'
      | mEnd hm' _ => rw [hm] at hm'; cases hm'
      | cTopStop i h _ => rw [hc i] at h; cases h
      | cTopRun i h _ => rw [hc i] at h; cases h
      | cEmpty i h _ => rw [hc i] at h; cases h
      | cNonempty i h _ => rw [hc i] at h; cases h
      | cStop i h _ => rw [hc i] at h; cases h
      | cGo i h _ => rw [hc i] at h; cases h
      | cGet i chunk v q h _ _ => rw [hc i] at h; cases h
      | cNone i chunk h => rw [hc i] at h; cases h
      | cGood i chunk r h _ => rw [hc i] at h; cases h
      | cBroken i chunk r h _ => rw [hc i] at h; cases h
      | cSpawn i chunk h _ _ => rw [hc i] at h; cases h
      | cNothing i chunk h _ _ => rw [hc i] at h; cases h
      | cThread i l₁ chunk l₂ h => rw [hc i] at h; simp at h
      | cDead i h => rw [hc i] at h; cases h
      | wTopReady i h _ => rw [hw i] at h; cases h
      | wTopRun i h _ => rw [hw i] at h; cases h
      | wEmpty i h _ => rw [hw i] at h; cases h
      | wNonempty i h _ => rw [hw i] at h; cases h
      | wStop i h _ => rw [hw i] at h; cases h
      | wGo i h _ => rw [hw i] at h; cases h
      | wLow i h _ => rw [hw i] at h; cases h
      | wHigh i h _ => rw [hw i] at h; cases h
      | wSet i h => rw [hw i] at h; cases h
      | wChkSet i h _ => rw [hw i] at h; cases h
      | wChkUnset i h _ => rw [hw i] at h; cases h
      | wClear i h => rw [hw i] at h; cases h
      | wGet i chunk q h _ => rw [hw i] at h; cases h
      | wTimeout i h _ => rw [hw i] at h; cases h
      | wAcquire i chunk h _ => rw [hw i] at h; cases h
      | wWrite i chunk k vs rem h => rw [hw i] at h; cases h
      | wRelease i chunk h => rw [hw i] at h; cases h
      | wFail0 i h => rw [hw i] at h; cases h
      | wFail1 i h => rw [hw i] at h; cases h
      | wFail2 i h => rw [hw i] at h; cases h
    · cases hstep with
      | write i chunk rem h => rw [hw i] at h; cases h
      | signal _ => exact ⟨hw, hc, hsw, hx, hp, hm, hqu, hst⟩

/-- C98 (partial): with a log-file level the writer and combiner processes start and all results are written (C50). -/
theorem C98_level_partial {K V : Type} [DecidableEq K] (entries : R → Option (List (K × V))) (cfg : Pipeline.Cfg) (l : Nat) (st : St)
    (hC : 0 < cfg.nComb) (hW : 0 < cfg.nWriter) {tasks : List (Pipeline.Outcome R)} {store₀ : Dict K (List V)}
    (hg : ∀ r, Pipeline.Outcome.res r ∈ tasks → (entries r).isSome) {s : Pipeline.State cfg R K V}
    (hrun : Pipeline.Run entries cfg (startState cfg (initOk (some l) st) tasks store₀) s) (hfin : s.main = .finished) :
    (Pipeline.PipeSpec.rows s.store).Perm (Pipeline.PipeSpec.rows store₀ ++ (Pipeline.PipeSpec.results tasks).flatMap (Pipeline.PipeSpec.rowsOf entries)) :=
  Pipeline.C50_complete hC hW hg (by simpa [startState, initOk, workerConfigurer, M.modify] using hrun) hfin

/-- C98 fails: `run_finaloutput(logfile_level=None)` never ends and writes nothing if there is at least one ID to process: `setLevel(None)` raises in
every writer and combiner process, therefore the event `should_wait` is never set and all workers wait forever. -/
theorem C98_finaloutput_fails {K V : Type} [DecidableEq K] (entries : R → Option (List (K × V))) (cfg : Pipeline.Cfg) (st : St)
    {tasks : List (Pipeline.Outcome R)} {store₀ : Dict K (List V)} (ht : tasks ≠ []) {s : Pipeline.State cfg R K V}
    (hrun : Pipeline.FaultyRun entries cfg (startState cfg (initOk none st) tasks store₀) s) :
    s.main ≠ .finished ∧ s.main = .pool ∧ s.store = store₀ ∧ ∀ w t, s.workers w ≠ .exec t := by
  have h := stuck entries cfg ht (by simpa [initOk, workerConfigurer, M.throw] using hrun)
  exact ⟨by rw [h.2.2.2.2.2.1]; decide, h.2.2.2.2.2.1, h.2.2.2.2.2.2.2, h.2.2.2.1⟩

/-- C98 fails: `run_processing(logfile_level=None)` always raises (TypeError, unless another error occurs): the processing is never started, i.e. the result does
not depend on it. -/
theorem C98_processing_fails (env : ProcEnv X) (s : St) :
    (∃ e, (runProcessing none env (enter s)).1 = .error e) ∧
    (env.finalizer0 = .ok () → env.setup = .ok () → env.finalizer1 = .ok () →
      (runProcessing none env (enter s)).1 = .error (.py .typeError)) ∧
    (∀ p, runProcessing none { env with process := p } (enter s) = runProcessing none env (enter s)) := by
  refine ⟨?_, fun h0 hs h1 => ?_, fun p => ?_⟩
  · cases h0 : env.finalizer0 <;> cases hs : env.setup <;> cases h1 : env.finalizer1 <;>
      simp [runProcessing, seq, M.bind, ret, call, h0, hs, h1, M.tryFinally, M.modify, cleanup, M.throw]
  · simp [runProcessing, seq, M.bind, ret, call, h0, hs, h1, M.tryFinally, M.modify, cleanup, M.throw]
  · cases h0 : env.finalizer0 <;> cases hs : env.setup <;> cases h1 : env.finalizer1 <;>
      simp [runProcessing, seq, M.bind, call, h0, hs, h1, M.tryFinally, M.throw]

/-! ## Examples -/

/-- A console handler is attached. -/
def exSt : St := ⟨[⟨some "rt1_consolehandler", 0⟩], [], 10, false, false, 0, 1, none, none⟩

example : NoQueueHandler exSt := by simp [NoQueueHandler, exSt, qname]

/-- A failing processing followed by a successful one. -/
def exRuns : List (Run String Nat) :=
  [.processing (some 21) ⟨.ok (), .ok (), .error "no data", .ok ()⟩, .finaloutput (some 21) ⟨.ok (), .ok (), .ok 3⟩,
    .finaloutput none ⟨.ok (), .ok (), .ok 3⟩]

example : (∀ r ∈ exRuns, Fine r) ∧ (history exRuns exSt).handlers = exSt.handlers ∧ (history exRuns exSt).warnHandlers.length = 2 := by
  refine ⟨?_, by decide, by decide⟩
  intro r hr
  simp only [exRuns, List.mem_cons, List.not_mem_nil, or_false] at hr
  rcases hr with rfl | rfl | rfl <;> simp [Fine]

example : (runProcessing (some 21) (⟨.ok (), .ok (), .error "no data", .ok ()⟩ : ProcEnv String) (enter exSt)).1 =
    .error (.user "no data") := rfl

example : initOk (some 21) exSt = true ∧ initOk none exSt = false := by decide

/-- One task, one worker, one writer: the task is taken by the worker, which then waits. -/
example : ∃ s, Pipeline.FaultyRun (fun r : Nat => some [("t", r)]) ⟨1, 1, 1, 10, 10⟩
    (startState ⟨1, 1, 1, 10, 10⟩ (initOk none exSt) [.res 5] []) s ∧ s.pending = [] ∧ s.workers 0 = .waiting (.res 5) := by
  refine ⟨_, .tail .refl (.inl (.start _ 0 [] (.res 5) [] rfl rfl)), rfl, rfl⟩

end RT1.RunProc
