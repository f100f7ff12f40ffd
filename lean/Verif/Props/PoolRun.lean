import Verif.Model.PoolRun
import Mathlib.Data.List.Count
import Mathlib.Data.List.Range
import Mathlib.Tactic.SplitIfs

/-!
# C108 Preparation and shutdown of a processing run
-/

namespace RT1.PoolRun
open General

variable {α : Type}

/-! ### arguments -/

/-- C108: exactly one source of arguments is required, its arguments are processed; without arguments nothing is processed. -/
theorem C108_reader_args (c : Call α) (d : SetupDict α) (h : setupdict c = .ok d) :
    plan c = match [c.readerArgs, d.readerArgs].filterMap id with
      | [[]] => .ok .nothing
      | [l] => .ok (.run l ((selectKw c d).wrap c.queue c.counter))
      | _ => .error .assertionError := by
  unfold plan
  rw [h]
  dsimp only
  unfold selectArgs
  cases h1 : c.readerArgs with
  | none =>
    cases h2 : d.readerArgs with
    | none => rfl
    | some l => cases l <;> rfl
  | some l =>
    cases h2 : d.readerArgs with
    | none => cases l <;> rfl
    | some l' => cases l <;> cases l' <;> rfl

/-- C108: the dict of `preprocess` is used; errors of `preprocess` and values other than dicts are raised. -/
theorem C108_preprocess (c : Call α) (f : Nat → Except PyErr (PreRet α)) (hf : c.preprocess = some f) (k : Nat) (hk : c.preKw = some k) :
    (∀ d, f k = .ok (.dict d) → setupdict c = .ok d) ∧ (f k = .ok .none → setupdict c = .ok ⟨none, none⟩) ∧
      (f k = .ok .other → plan c = .error .assertionError) ∧ ∀ e, f k = .error e → plan c = .error e := by
  unfold plan setupdict
  rw [hf, hk]
  dsimp only
  refine ⟨fun d h => ?_, fun h => ?_, fun h => ?_, fun e h => ?_⟩ <;> rw [h]

/-- C108: if the arguments cannot be determined, no process is started; an empty list is not processed. -/
theorem C108_nothing (env : Env α) (c : Call α) :
    (∀ e, plan c = .error e → (processfunc env c).1 = []) ∧
      (plan c = .ok .nothing → (processfunc env c).1 = indexEvents c.createIndex) := by
  refine ⟨fun e h => ?_, fun h => ?_⟩ <;> unfold processfunc <;> rw [h]
  rfl

/-- C108: keyword-arguments returned by `preprocess` replace those of the caller, all others are passed to the pool. -/
theorem C108_pool_kwargs (c : Call α) (d : SetupDict α) (h : setupdict c = .ok d) (args : List α) (kw : PoolKw)
    (hp : plan c = .ok (.run args kw)) :
    kw.other = (match d.poolKw, c.poolKw with
      | some k, _ => k.other
      | none, some k => k.other
      | none, none => []) := by
  rw [C108_reader_args c d h] at hp
  have hkw : kw = (selectKw c d).wrap c.queue c.counter := by
    split at hp
    · cases hp
    · cases hp; rfl
    · cases hp
  rw [hkw]
  unfold selectKw
  cases d.poolKw with
  | some k => rfl
  | none => cases c.poolKw <;> rfl

/-! ### workers -/

/-- The initializer is missing, None, or a function. -/
def PoolKw.Callable (kw : PoolKw) : Prop := kw.initializer.getD .none = .none ∨ ∃ f, kw.initializer = some (.fn f)

/-- C108: a worker executes the preparation and then what the original keyword-arguments specify. -/
theorem C108_wrap (env : WEnv) (kw : PoolKw) (h : kw.Callable) (q c : PVal) :
    workerInit env (kw.wrap q c) = (prepare env q c).seq (workerInit env kw) := by
  rcases h with h | ⟨f, h⟩
  · have e : workerInit env kw = ([], .ok ()) := by unfold workerInit; rw [h]
    rw [e]
    show callFn env .own (kw.initializer.getD .none :: q :: c :: (kw.initargs.getD [])) = _
    rw [h]
    simp only [callFn]
  · have e : workerInit env kw = callFn env f (kw.initargs.getD []) := by unfold workerInit; rw [h]; rfl
    rw [e]
    show callFn env .own (kw.initializer.getD .none :: q :: c :: (kw.initargs.getD [])) = _
    rw [h]
    simp only [callFn, Option.getD_some]

/-- The expected effects for a queue, a counter and an initializer of the user. -/
def expected (q c : Option Nat) (init : Option Nat) (args : List PVal) : List Eff :=
  (match q with | some q => [.configure (.queue q)] | none => []) ++ [.rename] ++
  (match c with | some c => [.count c] | none => []) ++ [.setup] ++
  (match init with | some f => [.call f args] | none => [])

def optQueue : Option Nat → PVal
  | some q => .queue q
  | none => .none
def optCounter : Option Nat → PVal
  | some c => .counter c
  | none => .none

/-- C108: with a dict that has not been used before, each worker configures the logging, is named, calls `setup` once, and then calls the
initializer of the user with the arguments of the user. -/
theorem C108_worker_partial (env : WEnv) (hs : env.setup = .ok ()) (init : Option Nat) (args : Option (List PVal)) (other : List (String × Nat))
    (q c : Option Nat) :
    workerInit env ((⟨init.map fun f => .fn (.user f), args, other⟩ : PoolKw).wrap (optQueue q) (optCounter c)) =
      (expected q c init (args.getD []), match init with | some f => env.user f (args.getD []) | none => .ok ()) := by
  rw [C108_wrap _ _ (by cases init with | none => exact Or.inl rfl | some f => exact Or.inr ⟨_, rfl⟩)]
  cases q <;> cases c <;> cases init <;>
    simp [prepare, configure, countWorker, W.seq, workerInit, callFn, expected, optQueue, optCounter, hs]

/-- C108: an error of `setup` is raised, the initializer of the user is not called. -/
theorem C108_worker_setup (env : WEnv) (e : PyErr) (hs : env.setup = .error e) (kw : PoolKw) (h : kw.Callable) (q c : Option Nat) :
    (workerInit env (kw.wrap (optQueue q) (optCounter c))).2 = .error e ∧
      ∀ f args, Eff.call f args ∉ (workerInit env (kw.wrap (optQueue q) (optCounter c))).1 := by
  rw [C108_wrap _ _ h]
  cases q <;> cases c <;> simp [prepare, configure, countWorker, W.seq, optQueue, optCounter, hs]

/-- A dict that is used for several runs with the given queues and counters (most recent run first). -/
def reused (kw : PoolKw) : List (Nat × Nat) → PoolKw
  | [] => kw
  | (q, c) :: l => (reused kw l).wrap (.queue q) (.counter c)

/-- What happens if a dict is used for several runs: the workers call `setup` once for each of the runs, and configure the logging for the
queues of all runs. -/
theorem C108_reused_dict (env : WEnv) (hs : env.setup = .ok ()) (f : Nat) (args : List PVal) (hu : ∀ a, env.user f a = .ok ())
    (l : List (Nat × Nat)) :
    workerInit env (reused ⟨some (.fn (.user f)), some args, []⟩ l) =
      ((l.flatMap fun qc => [.configure (.queue qc.1), .rename, .count qc.2, .setup]) ++ [.call f args], .ok ()) := by
  induction l with
  | nil => simp [reused, workerInit, callFn, hu]
  | cons qc l ih =>
    unfold reused
    rw [C108_wrap, ih]
    · simp [prepare, configure, countWorker, W.seq, hs]
    · cases l with
      | nil => exact Or.inr ⟨_, rfl⟩
      | cons qc l => exact Or.inr ⟨.own, rfl⟩

/-- Violation: two calls with the same dict; the workers of the second call use the queue of the first call and call `setup` twice. -/
theorem C108_reuse_fails : ∃ (c₁ c₂ : Call Nat) (kw : PoolKw), c₂.poolKw = callerKw c₁ ∧ c₁.queue = .queue 1 ∧ c₂.queue = .queue 2 ∧
    plan c₂ = .ok (.run [5] kw) ∧ ∀ env : WEnv, env.setup = .ok () → (∀ f a, env.user f a = .ok ()) →
      Eff.configure (.queue 1) ∈ (workerInit env kw).1 ∧ (workerInit env kw).1.count .setup = 2 := by
  refine ⟨⟨none, some 0, some [4], some ⟨some (.fn (.user 0)), some [.other 3], []⟩, .queue 1, .counter 1, [], .bool false⟩,
    ⟨none, some 0, some [5], some (reused ⟨some (.fn (.user 0)), some [.other 3], []⟩ [(1, 1)]), .queue 2, .counter 2, [], .bool false⟩,
    reused ⟨some (.fn (.user 0)), some [.other 3], []⟩ [(2, 2), (1, 1)], rfl, rfl, rfl, rfl, fun env hs hu => ?_⟩
  rw [C108_reused_dict env hs 0 [.other 3] (hu 0)]
  decide

/-! ### processes -/

/-- All events up to one position, and all later ones. -/
def Before (a b : Ev) (t : List Ev) : Prop := ∃ l l', t = l ++ l' ∧ a ∈ l ∧ b ∈ l'

/-- The processes can be started. -/
structure Startable (env : Env α) : Prop where
  ctor : env.ctor = none
  manager : env.manager = none
  writer : ∀ i, env.writerStart i = none
  combiner : ∀ i, env.combinerStart i = none

theorem startProcs_ok (mk : Nat → Ev) (fail : Nat → Option PyErr) (h : ∀ i, fail i = none) :
    ∀ n i, startProcs mk fail n i = ((List.range' i n).map mk, none)
  | 0, i => rfl
  | n + 1, i => by
    unfold startProcs
    rw [h i]
    dsimp only
    rw [startProcs_ok mk fail h n (i + 1)]
    rfl

theorem writerPool_ok {β : Type} (env : Env α) (h : Startable env) (body : R β) (hb : body.2 ≠ .hang) :
    writerPool env body = ((List.range env.nWriter).map Ev.writerStart ++ (List.range env.nCombiner).map Ev.combinerStart ++ body.1 ++
      (stop env).1, body.2) := by
  unfold writerPool
  rw [h.ctor, h.manager]
  dsimp only
  rw [startProcs_ok _ _ h.writer, startProcs_ok _ _ h.combiner]
  dsimp only
  rw [← List.range_eq_range', ← List.range_eq_range']
  unfold tryFin
  dsimp only
  cases hr : body.2 with
  | hang => exact absurd hr hb
  | val b => rfl
  | exc e => rfl

/-- The events of `run_starmap`. -/
theorem runStarmap_events (env : Env α) (kw : PoolKw) (args : List α) (h : (runStarmap env kw args).2 ≠ .hang) :
    (runStarmap env kw args).1 = [] ∨ (runStarmap env kw args).1 = [.poolStart, .poolClose, .poolJoin] := by
  unfold runStarmap at h ⊢
  cases hc : env.check args with
  | error e => left; rfl
  | ok todo =>
    rw [hc] at h
    dsimp only at h ⊢
    split_ifs at h ⊢ with h0
    · left; rfl
    · cases hp : env.pool with
      | some e => left; rfl
      | none =>
        rw [hp] at h
        dsimp only at h ⊢
        cases hs : starmap env kw todo with
        | hang => rw [hs] at h; exact absurd rfl h
        | val l => right; rfl
        | exc e => right; rfl

theorem count_map_range (mk : Nat → Ev) (hinj : Function.Injective mk) (n i : Nat) :
    ((List.range n).map mk).count (mk i) = if i < n then 1 else 0 := by
  rw [List.count_map_of_injective _ _ hinj]
  split_ifs with h
  · exact List.count_eq_one_of_mem List.nodup_range (List.mem_range.2 h)
  · exact List.count_eq_zero_of_not_mem fun hm => h (List.mem_range.1 hm)

theorem count_map_zero (mk : Nat → Ev) (e : Ev) (h : ∀ j, mk j ≠ e) (n : Nat) : ((List.range n).map mk).count e = 0 :=
  List.count_eq_zero_of_not_mem fun hm => by
    obtain ⟨j, -, hj⟩ := List.mem_map.1 hm
    exact h j hj

theorem count_preevals (c : Call α) (e : Ev) (h : ∀ n, Ev.preeval n ≠ e) : (preevals c).count e = 0 :=
  List.count_eq_zero_of_not_mem fun hm => by
    obtain ⟨j, -, hj⟩ := List.mem_map.1 hm
    exact h _ hj

theorem count_index (ci : CI) (e : Ev) (h : ∀ k, Ev.index k ≠ e) : (indexEvents ci).count e = 0 := by
  unfold indexEvents
  split <;> simp [h]

/-- The events of a run. -/
theorem processfunc_events (env : Env α) (c : Call α) (h : Startable env) (args : List α) (kw : PoolKw)
    (hp : plan c = .ok (.run args kw)) (hb : (runStarmap env kw args).2 ≠ .hang) :
    ∃ post, (post = [] ∨ post = indexEvents c.createIndex) ∧
      processfunc env c = (preevals c ++ ((List.range env.nWriter).map Ev.writerStart ++ (List.range env.nCombiner).map Ev.combinerStart ++
        (runStarmap env kw args).1 ++ (stop env).1) ++ post, (runStarmap env kw args).2) := by
  unfold processfunc
  rw [hp]
  dsimp only
  rw [writerPool_ok env h _ hb]
  dsimp only
  unfold thenIndex
  dsimp only
  cases hr : (runStarmap env kw args).2 with
  | hang => exact absurd hr hb
  | val b => exact ⟨_, Or.inr rfl, rfl⟩
  | exc e => exact ⟨[], Or.inl rfl, by simp⟩

/-- C108: whatever happens in the processing, all processes are started once and joined once, the combiners are joined before the writers are
told that all results are combined, the writers afterwards; the pool is closed before, and the manager is shut down at the end; the outcome of
the processing is that of the run. -/
theorem C108_shutdown_partial (env : Env α) (c : Call α) (h : Startable env) (args : List α) (kw : PoolKw)
    (hp : plan c = .ok (.run args kw)) (hb : (runStarmap env kw args).2 ≠ .hang) :
    let t := (processfunc env c).1
    (processfunc env c).2 = (runStarmap env kw args).2 ∧
    (∀ i, t.count (.writerStart i) = (if i < env.nWriter then 1 else 0) ∧ t.count (.writerJoin i) = (if i < env.nWriter then 1 else 0)) ∧
    (∀ i, t.count (.combinerStart i) = (if i < env.nCombiner then 1 else 0) ∧
      t.count (.combinerJoin i) = (if i < env.nCombiner then 1 else 0)) ∧
    t.count .shouldStop = 1 ∧ t.count .combinerReady = 1 ∧ t.count .stopAll = 1 ∧ t.count .managerShutdown = 1 ∧
    (∀ i < env.nWriter, Before (.writerStart i) .shouldStop t ∧ Before .combinerReady (.writerJoin i) t ∧
      Before (.writerJoin i) .stopAll t) ∧
    (∀ i < env.nCombiner, Before (.combinerStart i) .shouldStop t ∧ Before .shouldStop (.combinerJoin i) t ∧
      Before (.combinerJoin i) .combinerReady t) ∧
    Before .stopAll .managerShutdown t ∧
    (Ev.poolStart ∈ t → Before .poolStart .poolClose t ∧ Before .poolClose .poolJoin t ∧ Before .poolJoin .shouldStop t) := by
  intro t
  obtain ⟨post, hpost, e⟩ := processfunc_events env c h args kw hp hb
  have et : t = preevals c ++ ((List.range env.nWriter).map Ev.writerStart ++ (List.range env.nCombiner).map Ev.combinerStart ++
        (runStarmap env kw args).1 ++ (stop env).1) ++ post := congrArg Prod.fst e
  have e2 : (processfunc env c).2 = (runStarmap env kw args).2 := by rw [e]
  have hpc : ∀ x, (∀ k, Ev.index k ≠ x) → post.count x = 0 := by
    intro x hx
    rcases hpost with rfl | rfl
    · rfl
    · exact count_index _ x hx
  have hr := runStarmap_events env kw args hb
  have hrc : ∀ x, x ≠ .poolStart → x ≠ .poolClose → x ≠ .poolJoin → (runStarmap env kw args).1.count x = 0 := by
    intro x h1 h2 h3
    rcases hr with h | h <;> rw [h]
    · rfl
    · simp [h1.symm, h2.symm, h3.symm]
  have hcount : ∀ x, (∀ k, Ev.index k ≠ x) → (∀ n, Ev.preeval n ≠ x) → x ≠ .poolStart → x ≠ .poolClose → x ≠ .poolJoin →
      t.count x = ((List.range env.nWriter).map Ev.writerStart).count x + ((List.range env.nCombiner).map Ev.combinerStart).count x +
        ((stop env).1).count x := by
    intro x h1 h2 h3 h4 h5
    rw [et]
    simp only [List.count_append]
    rw [count_preevals c x h2, hrc x h3 h4 h5, hpc x h1]
    omega
  refine ⟨e2, fun i => ⟨?_, ?_⟩, fun i => ⟨?_, ?_⟩, ?_, ?_, ?_, ?_, fun i hi => ⟨?_, ?_, ?_⟩, fun i hi => ⟨?_, ?_, ?_⟩, ?_, fun hm => ?_⟩
  · rw [hcount _ (by simp) (by simp) (by simp) (by simp) (by simp), count_map_range _ (fun a b h => by injection h),
      count_map_zero _ _ (by simp)]
    simp only [stop, List.count_append]
    rw [count_map_zero _ _ (by simp), count_map_zero _ _ (by simp)]
    simp
  · rw [hcount _ (by simp) (by simp) (by simp) (by simp) (by simp), count_map_zero _ _ (by simp), count_map_zero _ _ (by simp)]
    simp only [stop, List.count_append]
    rw [count_map_range _ (fun a b h => by injection h), count_map_zero _ _ (by simp)]
    simp
  · rw [hcount _ (by simp) (by simp) (by simp) (by simp) (by simp), count_map_range _ (fun a b h => by injection h),
      count_map_zero _ _ (by simp)]
    simp only [stop, List.count_append]
    rw [count_map_zero _ _ (by simp), count_map_zero _ _ (by simp)]
    simp
  · rw [hcount _ (by simp) (by simp) (by simp) (by simp) (by simp), count_map_zero _ _ (by simp), count_map_zero _ _ (by simp)]
    simp only [stop, List.count_append]
    rw [count_map_range _ (fun a b h => by injection h), count_map_zero _ _ (by simp)]
    simp
  iterate 4
    · rw [hcount _ (by simp) (by simp) (by simp) (by simp) (by simp), count_map_zero _ _ (by simp), count_map_zero _ _ (by simp)]
      simp only [stop, List.count_append]
      rw [count_map_zero _ _ (by simp), count_map_zero _ _ (by simp)]
      decide
  · exact ⟨preevals c ++ ((List.range env.nWriter).map Ev.writerStart ++ (List.range env.nCombiner).map Ev.combinerStart ++
        (runStarmap env kw args).1), (stop env).1 ++ post, by rw [et]; simp, by simp [hi], by simp [stop]⟩
  · exact ⟨preevals c ++ ((List.range env.nWriter).map Ev.writerStart ++ (List.range env.nCombiner).map Ev.combinerStart ++
        (runStarmap env kw args).1) ++ ([.shouldStop] ++ (List.range env.nCombiner).map Ev.combinerJoin ++ [.combinerReady]),
        (List.range env.nWriter).map Ev.writerJoin ++ [.stopAll, .managerShutdown] ++ post, by rw [et]; simp [stop], by simp, by simp [hi]⟩
  · exact ⟨preevals c ++ ((List.range env.nWriter).map Ev.writerStart ++ (List.range env.nCombiner).map Ev.combinerStart ++
        (runStarmap env kw args).1) ++ ([.shouldStop] ++ (List.range env.nCombiner).map Ev.combinerJoin ++ [.combinerReady]) ++
        (List.range env.nWriter).map Ev.writerJoin, [.stopAll, .managerShutdown] ++ post, by rw [et]; simp [stop], by simp [hi], by simp⟩
  · exact ⟨preevals c ++ ((List.range env.nWriter).map Ev.writerStart ++ (List.range env.nCombiner).map Ev.combinerStart ++
        (runStarmap env kw args).1), (stop env).1 ++ post, by rw [et]; simp, by simp [hi], by simp [stop]⟩
  · exact ⟨preevals c ++ ((List.range env.nWriter).map Ev.writerStart ++ (List.range env.nCombiner).map Ev.combinerStart ++
        (runStarmap env kw args).1) ++ [.shouldStop], (List.range env.nCombiner).map Ev.combinerJoin ++ [.combinerReady] ++
        (List.range env.nWriter).map Ev.writerJoin ++ [.stopAll, .managerShutdown] ++ post, by rw [et]; simp [stop], by simp, by simp [hi]⟩
  · exact ⟨preevals c ++ ((List.range env.nWriter).map Ev.writerStart ++ (List.range env.nCombiner).map Ev.combinerStart ++
        (runStarmap env kw args).1) ++ ([.shouldStop] ++ (List.range env.nCombiner).map Ev.combinerJoin), [.combinerReady] ++
        (List.range env.nWriter).map Ev.writerJoin ++ [.stopAll, .managerShutdown] ++ post, by rw [et]; simp [stop], by simp [hi], by simp⟩
  · exact ⟨preevals c ++ ((List.range env.nWriter).map Ev.writerStart ++ (List.range env.nCombiner).map Ev.combinerStart ++
        (runStarmap env kw args).1) ++ ([.shouldStop] ++ (List.range env.nCombiner).map Ev.combinerJoin ++ [.combinerReady]) ++
        (List.range env.nWriter).map Ev.writerJoin ++ [.stopAll], [.managerShutdown] ++ post, by rw [et]; simp [stop], by simp, by simp⟩
  · rcases hr with hr | hr
    · exfalso
      have h0 : t.count .poolStart = 0 := by
        rw [et]
        simp only [List.count_append, stop]
        rw [count_preevals c _ (by simp), hr, hpc _ (by simp), count_map_zero _ _ (by simp), count_map_zero _ _ (by simp),
          count_map_zero _ _ (by simp), count_map_zero _ _ (by simp)]
        decide
      exact List.count_eq_zero.1 h0 hm
    · rw [hr] at et
      refine ⟨⟨preevals c ++ ((List.range env.nWriter).map Ev.writerStart ++ (List.range env.nCombiner).map Ev.combinerStart ++
        [.poolStart]), [.poolClose, .poolJoin] ++ (stop env).1 ++ post, by rw [et]; simp, by simp, by simp⟩,
        ⟨preevals c ++ ((List.range env.nWriter).map Ev.writerStart ++ (List.range env.nCombiner).map Ev.combinerStart ++
        [.poolStart, .poolClose]), [.poolJoin] ++ (stop env).1 ++ post, by rw [et]; simp, by simp, by simp⟩,
        ⟨preevals c ++ ((List.range env.nWriter).map Ev.writerStart ++ (List.range env.nCombiner).map Ev.combinerStart ++
        [.poolStart, .poolClose, .poolJoin]), (stop env).1 ++ post, by rw [et]; simp, by simp, by simp [stop]⟩⟩

/-- The functions called in the example: all of them succeed. -/
def goodEnv : Env Nat := ⟨1, 2, none, none, fun _ => none, fun _ => none, fun l => .ok l, none, none, ⟨.ok (), fun _ _ => .ok ()⟩⟩

/-- A call with two arguments. -/
def goodCall : Call Nat := ⟨none, some 0, some [3, 4], none, .queue 1, .counter 1, [("a", true), ("b", false)], .bool true⟩

/-- Violation: if a combiner cannot be started, the writers are neither stopped nor joined, and the error is replaced. -/
theorem C108_shutdown_fails : ∃ (env : Env Nat) (c : Call Nat), env.combinerStart 0 = some .osError ∧
    Ev.writerStart 0 ∈ (processfunc env c).1 ∧ Ev.writerJoin 0 ∉ (processfunc env c).1 ∧ Ev.shouldStop ∉ (processfunc env c).1 ∧
    (processfunc env c).2 = .exc .unboundLocalError :=
  ⟨{goodEnv with combinerStart := fun _ => some .osError}, goodCall, rfl, by decide, by decide, by decide, rfl⟩

/-- C108: the run returns if the initializer of the workers does not raise. -/
theorem C108_returns_partial (env : Env α) (c : Call α) (hw : ∀ args kw, plan c = .ok (.run args kw) → (workerInit env.worker kw).2 = .ok ()) :
    (processfunc env c).2 ≠ .hang := by
  have hst : ∀ args kw, plan c = .ok (.run args kw) → (runStarmap env kw args).2 ≠ .hang := by
    intro args kw hp
    unfold runStarmap
    cases env.check args with
    | error e => intro h; cases h
    | ok todo =>
      dsimp only
      split_ifs
      · intro h; cases h
      · cases env.pool with
        | some e => intro h; cases h
        | none =>
          dsimp only
          unfold starmap
          rw [hw args kw hp]
          cases env.get with
          | some e => intro h; cases h
          | none => intro h; cases h
  unfold processfunc
  cases hp : plan c with
  | error e => intro h; cases h
  | ok p =>
    cases p with
    | nothing => intro h; cases h
    | run args kw =>
      dsimp only
      have hb := hst args kw hp
      have hpool : (writerPool env (runStarmap env kw args)).2 ≠ .hang := by
        unfold writerPool
        cases env.ctor with
        | some e => intro h; cases h
        | none =>
          cases env.manager with
          | some e => intro h; cases h
          | none =>
            dsimp only
            rcases startProcs Ev.writerStart env.writerStart env.nWriter 0 with ⟨t, _ | e⟩
            · dsimp only
              rcases startProcs Ev.combinerStart env.combinerStart env.nCombiner 0 with ⟨t', _ | e⟩
              · dsimp only
                unfold tryFin
                dsimp only
                cases hr : (runStarmap env kw args).2 with
                | hang => exact absurd hr hb
                | val b => intro h; cases h
                | exc e => intro h; cases h
              · intro h; cases h
            · intro h; cases h
      unfold thenIndex
      dsimp only
      cases hr : (writerPool env (runStarmap env kw args)).2 with
      | hang => exact absurd hr hpool
      | val b => intro h; cases h
      | exc e => intro h; cases h

/-- Violation: the run does not return if the initializer of the user raises an error. -/
theorem C108_returns_fails : ∃ (env : Env Nat) (c : Call Nat), Startable env ∧ (processfunc env c).2 = .hang :=
  ⟨{goodEnv with worker := ⟨.ok (), fun _ _ => .error .valueError⟩},
    {goodCall with poolKw := some ⟨some (.fn (.user 0)), none, []⟩}, ⟨rfl, rfl, fun _ => rfl, fun _ => rfl⟩, rfl⟩

/-- C108: the result is a list with one entry (None) for each argument that is not yet stored, or None if all of them are stored. -/
theorem C108_result (env : Env α) (c : Call α) (h : Startable env) (args todo : List α) (kw : PoolKw)
    (hp : plan c = .ok (.run args kw)) (hc : env.check args = .ok todo) (hw : (workerInit env.worker kw).2 = .ok ()) (hpool : env.pool = none)
    (hg : env.get = none) :
    (processfunc env c).2 = .val (if todo = [] then none else some (todo.map fun _ => ())) := by
  have hrun : (runStarmap env kw args).2 = .val (if todo = [] then none else some (todo.map fun _ => ())) := by
    unfold runStarmap
    rw [hc]
    dsimp only
    cases todo with
    | nil => rfl
    | cons a l =>
      rw [if_neg (by simp), hpool]
      dsimp only
      unfold starmap
      rw [hw, hg]
      rfl
  obtain ⟨post, -, e⟩ := processfunc_events env c h args kw hp (by rw [hrun]; intro h; cases h)
  rw [e]
  exact hrun

/-- Pre-evaluations and index-creations are no events of the pool. -/
theorem writerPool_avoid (env : Env α) (kw : PoolKw) (args : List α) (x : Ev) (hx : (∃ n, x = .preeval n) ∨ ∃ k, x = .index k) :
    x ∉ (writerPool env (runStarmap env kw args)).1 := by
  intro hn
  have hproc : ∀ (mk : Nat → Ev) fail k i, (∀ j, mk j ≠ x) → x ∉ (startProcs mk fail k i).1 := by
    intro mk fail k
    induction k with
    | zero => intro i _ h; simp [startProcs] at h
    | succ k ih =>
      intro i hm h
      unfold startProcs at h
      cases hf : fail i with
      | some e => rw [hf] at h; simp at h
      | none =>
        rw [hf] at h
        dsimp only at h
        rcases List.mem_cons.1 h with h | h
        · exact hm i h.symm
        · exact ih (i + 1) hm h
  have h1 := hproc Ev.writerStart env.writerStart env.nWriter 0 (by rcases hx with ⟨n, rfl⟩ | ⟨k, rfl⟩ <;> simp)
  have h2 := hproc Ev.combinerStart env.combinerStart env.nCombiner 0 (by rcases hx with ⟨n, rfl⟩ | ⟨k, rfl⟩ <;> simp)
  have h3 : x ∉ (runStarmap env kw args).1 := by
    unfold runStarmap
    cases env.check args with
    | error e => simp
    | ok todo =>
      dsimp only
      split_ifs
      · simp
      · cases env.pool with
        | some e => simp
        | none =>
          dsimp only
          unfold tryFin
          rcases hx with ⟨n, rfl⟩ | ⟨k, rfl⟩ <;> cases starmap env kw todo <;> simp
  unfold writerPool at hn
  cases hc : env.ctor with
  | some e => rw [hc] at hn; simp at hn
  | none =>
    cases hm : env.manager with
    | some e => rw [hc, hm] at hn; simp at hn
    | none =>
      rw [hc, hm] at hn
      dsimp only at hn
      cases h4 : startProcs Ev.writerStart env.writerStart env.nWriter 0 with
      | mk t o =>
        rw [h4] at hn h1
        cases o with
        | some e => exact h1 hn
        | none =>
          dsimp only at hn
          cases h5 : startProcs Ev.combinerStart env.combinerStart env.nCombiner 0 with
          | mk t' o =>
            rw [h5] at hn h2
            cases o with
            | some e => exact (List.mem_append.1 hn).elim h1 h2
            | none =>
              dsimp only at hn
              unfold tryFin at hn
              dsimp only at hn
              rcases hx with ⟨n, rfl⟩ | ⟨k, rfl⟩ <;> cases hr : (runStarmap env kw args).2 <;> rw [hr] at hn <;> simp [stop] at hn h1 h2 <;> tauto

/-- C108: the coefficients of exactly those configs with interaction-terms are evaluated, before any process is started. -/
theorem C108_preevaluation (env : Env α) (c : Call α) (args : List α) (kw : PoolKw) (hp : plan c = .ok (.run args kw)) :
    ∃ t, (processfunc env c).1 = (c.fits.filter fun f => f.2).map (fun f => Ev.preeval f.1) ++ t ∧ ∀ n, Ev.preeval n ∈ t → False := by
  have hw : ∀ n, Ev.preeval n ∉ (writerPool env (runStarmap env kw args)).1 := fun n => writerPool_avoid env kw args _ (Or.inl ⟨n, rfl⟩)
  unfold processfunc
  rw [hp]
  dsimp only
  unfold thenIndex preevals
  dsimp only
  cases hr : (writerPool env (runStarmap env kw args)).2 with
  | val b =>
    refine ⟨_, by rw [List.append_assoc], fun n hn => ?_⟩
    rcases List.mem_append.1 hn with h | h
    · exact hw n h
    · revert h
      unfold indexEvents
      split <;> simp
  | exc e => exact ⟨_, rfl, hw⟩
  | hang => exact ⟨_, rfl, hw⟩

/-- C108: an index is created at the end of a successful run if it is requested (`True`, or a dict with at least one entry). -/
theorem C108_index_partial (env : Env α) (c : Call α) (b : Option (List Unit)) (h : (processfunc env c).2 = .val b) :
    (c.createIndex = .bool true → (processfunc env c).1.getLast? = some (.index [])) ∧
      (∀ kws, kws ≠ [] → c.createIndex = .dict kws → (processfunc env c).1.getLast? = some (.index kws)) := by
  have key : ∃ t, (processfunc env c).1 = t ++ indexEvents c.createIndex := by
    unfold processfunc at h ⊢
    cases hp : plan c with
    | error e => rw [hp] at h; cases h
    | ok p =>
      rw [hp] at h
      cases p with
      | nothing => exact ⟨[], rfl⟩
      | run args kw =>
        dsimp only at h ⊢
        unfold thenIndex at h ⊢
        dsimp only at h ⊢
        cases hr : (writerPool env (runStarmap env kw args)).2 with
        | val b => exact ⟨_, rfl⟩
        | exc e => rw [hr] at h; cases h
        | hang => rw [hr] at h; cases h
  obtain ⟨t, ht⟩ := key
  rw [ht]
  refine ⟨fun hc => ?_, fun kws hk hc => ?_⟩
  · rw [hc]
    simp [indexEvents]
  · rw [hc]
    cases kws with
    | nil => exact absurd rfl hk
    | cons k l => simp [indexEvents]

/-- C108: no index is created if none is requested, or if the run is not successful. -/
theorem C108_no_index (env : Env α) (c : Call α) (h : c.createIndex = .bool false ∨ ∀ b, (processfunc env c).2 ≠ .val b) (k : List (String × Nat)) :
    Ev.index k ∉ (processfunc env c).1 := by
  unfold processfunc at h ⊢
  cases hp : plan c with
  | error e => exact List.not_mem_nil
  | ok p =>
    rw [hp] at h
    cases p with
    | nothing =>
      rcases h with h | h
      · dsimp only [thenIndex]
        rw [h]
        exact List.not_mem_nil
      · exact absurd rfl (h (some []))
    | run args kw =>
      have hpre : Ev.index k ∉ preevals c := by simp [preevals]
      have hw := writerPool_avoid env kw args (.index k) (Or.inr ⟨k, rfl⟩)
      dsimp only [thenIndex] at h ⊢
      cases hr : (writerPool env (runStarmap env kw args)).2 with
      | val b =>
        rw [hr] at h
        rcases h with h | h
        · rw [h]
          simp [indexEvents, hpre, hw]
        · exact absurd rfl (h b)
      | exc e => simp [hpre, hw]
      | hang => simp [hpre, hw]

/-- Violation: with an empty dict no index is created. -/
theorem C108_index_fails : ∃ (env : Env Nat) (c : Call Nat), c.createIndex = .dict [] ∧ (∃ b, (processfunc env c).2 = .val b) ∧
    ∀ k, Ev.index k ∉ (processfunc env c).1 := by
  refine ⟨goodEnv, {goodCall with createIndex := .dict []}, rfl, ⟨_, rfl⟩, fun k hk => ?_⟩
  have e : (processfunc goodEnv {goodCall with createIndex := .dict []}).1 = [.preeval "a", .writerStart 0, .combinerStart 0, .combinerStart 1,
    .poolStart, .poolClose, .poolJoin, .shouldStop, .combinerJoin 0, .combinerJoin 1, .combinerReady, .writerJoin 0, .stopAll,
    .managerShutdown] := by decide
  rw [e] at hk
  simp at hk

/-! ### examples -/

example : Startable goodEnv ∧ plan goodCall = .ok (.run [3, 4] (PoolKw.empty.wrap (.queue 1) (.counter 1))) ∧
    (runStarmap goodEnv (PoolKw.empty.wrap (.queue 1) (.counter 1)) [3, 4]).2 = .val (some [(), ()]) :=
  ⟨⟨rfl, rfl, fun _ => rfl, fun _ => rfl⟩, rfl, rfl⟩

example : (workerInit goodEnv.worker ((⟨some (.fn (.user 7)), some [.other 3], []⟩ : PoolKw).wrap (.queue 1) (.counter 2))).1 =
    [.configure (.queue 1), .rename, .count 2, .setup, .call 7 [.other 3]] := by decide

example : setupdict ({goodCall with readerArgs := none, preprocess := some fun k => .ok (.dict ⟨some [k], none⟩)} : Call Nat) =
    .ok ⟨some [0], none⟩ := rfl

example : ∃ e, plan ({goodCall with readerArgs := none} : Call Nat) = .error e := ⟨_, rfl⟩

end RT1.PoolRun
