import Verif.Lemmas.PipelineLive
import Verif.Props.Pipeline

/-!
# The processing pipeline: termination (C52, C53, C84)

Termination is stated as: from every reachable state some continuation ends the run, so that no process is blocked forever.
-/

namespace RT1.Pipeline
open Function

variable {R K V : Type} [DecidableEq K] {entries : R → Option (List (K × V))} {cfg : Cfg}

theorem live_of_ctl (hP : 0 < cfg.nWorker) {s : State cfg R K V} (hs : Ctl s) (hf : s.main ≠ .finished) : Live s := by
  have hst : s.stop = false := by
    cases h : s.stop with
    | false => rfl
    | true => exact absurd (hs.mainStop.2 h) hf
  constructor
  · intro h
    obtain ⟨i, hi⟩ := hs.lock2 h
    refine ⟨i, .inl ?_⟩
    cases hw : s.writers i with
    | writing c r => exact ⟨c, r, rfl⟩
    | _ => rw [hw] at hi; exact hi.elim
  · exact fun i n h => absurd h (hs.noFail i n)
  · intro h
    cases h' : s.shouldStop with
    | true => rfl
    | false => have := hs.mainPool.2 h'; rw [h] at this; cases this
  · exact fun h => hs.mainReady.1 (.inl h)
  · intro w t h
    have hss : s.shouldStop = false := by
      cases h' : s.shouldStop with
      | false => rfl
      | true => have := (hs.pool h').2 w; rw [h] at this; cases this
    have hr : s.ready = false := by
      cases h' : s.ready with
      | false => rfl
      | true =>
        have h1 := hs.mainReady.2 h'
        rw [hs.mainPool.2 hss] at h1
        simp at h1
    refine ⟨hst, hr, fun i hi => ?_⟩
    have := (hs.wDead i hi).1
    rw [hr] at this; cases this
  · exact fun _ => hP

/-- C52: from every state that is reachable without failures the run can be completed. -/
theorem C52_finish (hP : 0 < cfg.nWorker) (hW : 0 < cfg.nWriter) (hS : 0 < cfg.chunkSize) (hK : 0 < cfg.cacheSize)
    {tasks : List (Outcome R)} {store₀ : Dict K (List V)} {s : State cfg R K V} (hrun : Run entries cfg (init cfg tasks store₀) s) :
    ∃ s', Run entries cfg s s' ∧ s'.main = .finished :=
  finish_of_live (P := Ctl) (fun _ _ h1 h2 => ctl_step h1 h2)
    (fun _ h1 h2 => progress hW hS hK (live_of_ctl hP h1 h2) h2) s (ctl_run hrun)

/-- C52: combiners terminate only after everything has been processed and combined, writers only after all combiners have
terminated and everything has been written. -/
theorem C52_drained {tasks : List (Outcome R)} {store₀ : Dict K (List V)} {s : State cfg R K V}
    (hrun : Run entries cfg (init cfg tasks store₀) s) :
    (∀ i, (s.combs i).pc = .dead →
      s.pending = [] ∧ (∀ w, s.workers w = .idle) ∧ s.queue = [] ∧ (s.combs i).threads = []) ∧
    (∀ i, s.writers i = .dead → s.outq = [] ∧ ∀ j, (s.combs j).pc = .dead ∧ (s.combs j).threads = []) := by
  have hs := ctl_run hrun
  refine ⟨fun i h => ?_, fun i h => ?_⟩
  · obtain ⟨h1, h2, h3⟩ := hs.dead i h
    exact ⟨(hs.pool h1).1, (hs.pool h1).2, h2, h3⟩
  · obtain ⟨h1, h2⟩ := hs.wDead i h
    exact ⟨h2, fun j => ⟨hs.ready h1 j, (hs.dead j (hs.ready h1 j)).2.2⟩⟩

/-- The hypotheses of C52 hold for the start of a run (with any number of tasks). -/
example : ∃ s : State (demoCfg 2) (Option Nat) String Nat,
    Run demo (demoCfg 2) (init (demoCfg 2) [.res (some 7), .err, .skip] []) s ∧ s.main = .finished :=
  C52_finish (by decide) (by decide) (by decide) (by decide) .refl

/-! ## failures -/

/-- If all writers have terminated while a worker waits for the event `should_wait`, the run never ends. -/
theorem stuck {s : State cfg R K V} (h1 : ∀ i, s.writers i = .dead) (h2 : s.shouldWait = false) {w : Fin cfg.nWorker} {t : Outcome R}
    (h3 : s.workers w = .waiting t) (h4 : s.main = .pool) {s' : State cfg R K V} (h : FaultyRun entries cfg s s') :
    s'.main ≠ .finished := by
  suffices hh : (∀ i, s'.writers i = .dead) ∧ s'.shouldWait = false ∧ s'.workers w = .waiting t ∧ s'.main = .pool by
    rw [hh.2.2.2]; simp
  induction h with
  | refl => exact ⟨h1, h2, h3, h4⟩
  | @tail s₁ s₂ _ h ih =>
    obtain ⟨i1, i2, i3, i4⟩ := ih
    have hset : ∀ (v : Fin cfg.nWorker) (x : Worker R), s₁.workers v ≠ .waiting t → update s₁.workers v x w = .waiting t := by
      intro v x hv
      have : w ≠ v := fun h => hv (h ▸ i3)
      rw [update_of_ne this]; exact i3
    rcases h with h | h
    · cases h with
      | start v l₁ t' l₂ h1 _ => exact ⟨i1, i2, hset v _ (by rw [h1]; simp), i4⟩
      | pass v t' h1 h2 => rw [i2] at h2; cases h2
      | finish v t' h1 => exact ⟨i1, i2, hset v _ (by rw [h1]; simp), i4⟩
      | cTopStop | cTopRun | cEmpty | cNonempty | cStop | cGo | cGet | cNone | cGood | cBroken | cSpawn | cNothing | cThread | cDead =>
        exact ⟨i1, i2, i3, i4⟩
      | wTopReady i h | wTopRun i h | wEmpty i h | wNonempty i h | wStop i h | wGo i h | wLow i h | wHigh i h | wSet i h | wChkSet i h
      | wChkUnset i h | wClear i h | wGet i _ _ h | wTimeout i h | wAcquire i _ h | wWrite i _ _ _ _ h | wRelease i _ h | wFail0 i h
      | wFail1 i h | wFail2 i h => rw [i1 i] at h; cases h
      | mStop _ _ h => have := h w; rw [i3] at this; cases this
      | mReady h => rw [i4] at h; cases h
      | mEnd h => rw [i4] at h; cases h
    · cases h with
      | write i _ _ h => rw [i1 i] at h; cases h
      | signal _ => exact ⟨i1, i2, i3, i4⟩

theorem goF {a b : State cfg R K V} {P : State cfg R K V → Prop} (h : Step entries cfg a b ∨ Fault cfg a b)
    (hb : ∃ s, FaultyRun entries cfg b s ∧ P s) : ∃ s, FaultyRun entries cfg a s ∧ P s := by
  obtain ⟨s, h1, h2⟩ := hb
  exact ⟨s, .head h h1, h2⟩

/-- C53 fails: after an exception while writing, the remaining workers wait forever for `should_wait`, and so does the main
process. -/
theorem C53_fails : ∃ s : State (demoCfg 1) (Option Nat) String Nat,
    FaultyRun demo (demoCfg 1) (init (demoCfg 1) [.res (some 7), .res (some 8)] []) s ∧
      ∀ s', FaultyRun demo (demoCfg 1) s s' → s'.main ≠ .finished := by
  refine goF (.inl (Step.wTopRun _ ⟨0, by decide⟩ rfl rfl)) ?_
  refine goF (.inl (Step.wGo _ ⟨0, by decide⟩ rfl rfl)) ?_
  refine goF (.inl (Step.wLow _ ⟨0, by decide⟩ rfl (by decide))) ?_
  refine goF (.inl (Step.wSet _ ⟨0, by decide⟩ rfl)) ?_
  refine goF (.inl (Step.start _ ⟨0, by decide⟩ [] _ [_] rfl rfl)) ?_
  refine goF (.inl (Step.pass _ ⟨0, by decide⟩ _ rfl rfl)) ?_
  refine goF (.inl (Step.finish _ ⟨0, by decide⟩ _ rfl)) ?_
  refine goF (.inl (Step.cTopRun _ ⟨0, by decide⟩ rfl rfl)) ?_
  refine goF (.inl (Step.cGo _ ⟨0, by decide⟩ rfl rfl)) ?_
  refine goF (.inl (Step.cGet _ ⟨0, by decide⟩ _ _ _ rfl (by decide) rfl)) ?_
  refine goF (.inl (Step.cGood _ ⟨0, by decide⟩ _ _ rfl rfl)) ?_
  refine goF (.inl (Step.cSpawn _ ⟨0, by decide⟩ _ rfl (by decide) (by decide))) ?_
  refine goF (.inl (Step.cThread _ ⟨0, by decide⟩ [] _ [] rfl)) ?_
  refine goF (.inl (Step.wGet _ ⟨0, by decide⟩ _ _ rfl rfl)) ?_
  refine goF (.inl (Step.wAcquire _ ⟨0, by decide⟩ _ rfl rfl)) ?_
  refine goF (.inr (Fault.write _ ⟨0, by decide⟩ _ _ rfl)) ?_
  refine goF (.inl (Step.wFail0 _ ⟨0, by decide⟩ rfl)) ?_
  refine goF (.inl (Step.wFail1 _ ⟨0, by decide⟩ rfl)) ?_
  refine goF (.inl (Step.wFail2 _ ⟨0, by decide⟩ rfl)) ?_
  refine goF (.inl (Step.wTopRun _ ⟨0, by decide⟩ rfl rfl)) ?_
  refine goF (.inl (Step.wStop _ ⟨0, by decide⟩ rfl rfl)) ?_
  refine goF (.inl (Step.start _ ⟨0, by decide⟩ [] _ [] rfl rfl)) ?_
  exact ⟨_, .refl, fun s' h => stuck (w := ⟨0, by decide⟩) (t := .res (some 8)) (fun | ⟨0, _⟩ => rfl) rfl rfl rfl h⟩

/-- C84 fails: after a termination signal the workers wait forever for `should_wait`. -/
theorem C84_fails : ∃ s : State (demoCfg 1) (Option Nat) String Nat,
    FaultyRun demo (demoCfg 1) (init (demoCfg 1) [.res (some 7)] []) s ∧
      ∀ s', FaultyRun demo (demoCfg 1) s s' → s'.main ≠ .finished := by
  refine goF (.inl (Step.start _ ⟨0, by decide⟩ [] _ [] rfl rfl)) ?_
  refine goF (.inr (Fault.signal _ rfl)) ?_
  refine goF (.inl (Step.wTopRun _ ⟨0, by decide⟩ rfl rfl)) ?_
  refine goF (.inl (Step.wStop _ ⟨0, by decide⟩ rfl rfl)) ?_
  exact ⟨_, .refl, fun s' h => stuck (w := ⟨0, by decide⟩) (t := .res (some 7)) (fun | ⟨0, _⟩ => rfl) rfl rfl rfl h⟩

/-- Invariants of runs with failures. -/
structure FInv (s : State cfg R K V) : Prop where
  lock : s.lock = true → ∃ i, (∃ chunk rem, s.writers i = .writing chunk rem) ∨ ∃ n, s.writers i = .failing n
  fail : ∀ i n, s.writers i = .failing n → n ≤ 2
  joinC : s.main ≠ .pool → s.shouldStop = true
  joinW : s.main = .joinW → s.ready = true

theorem finv_Wr {s : State cfg R K V} (hs : FInv s) (i : Fin cfg.nWriter) (x : Writer R K V) (o lk st sw stp done)
    (hx : ∀ n, x = .failing n → n ≤ 2)
    (hl : lk = false ∨ ((∃ c r, x = .writing c r) ∨ ∃ n, x = .failing n) ∨
      (lk = s.lock ∧ (∀ c r, s.writers i ≠ .writing c r) ∧ ∀ n, s.writers i ≠ .failing n)) :
    FInv ({ s with outq := o, lock := lk, store := st, shouldWait := sw, stop := stp, done := done }.setWr i x) := by
  refine ⟨fun h => ?_, fun j n h => ?_, hs.joinC, hs.joinW⟩ <;> simp only [State.setWr] at h ⊢
  · rcases hl with hl | hl | ⟨h1, h2, h3⟩
    · rw [hl] at h; cases h
    · exact ⟨i, by rw [update_self]; exact hl⟩
    · rw [h1] at h
      obtain ⟨j, hj⟩ := hs.lock h
      have hji : j ≠ i := by
        rintro rfl
        rcases hj with ⟨c, r, hj⟩ | ⟨n, hj⟩
        · exact h2 c r hj
        · exact h3 n hj
      exact ⟨j, by rw [update_of_ne hji]; exact hj⟩
  · by_cases hj : j = i
    · subst hj; rw [update_self] at h; exact hx n h
    · rw [update_of_ne hj] at h; exact hs.fail j n h

theorem finv_step {s s' : State cfg R K V} (hs : FInv s) (h : Step entries cfg s s' ∨ Fault cfg s s') : FInv s' := by
  rcases h with h | h
  · cases h with
    | start | pass | finish | cTopStop | cTopRun | cEmpty | cNonempty | cStop | cGo | cGet | cNone | cGood | cBroken | cSpawn | cThread
    | cDead | cNothing => exact ⟨hs.lock, hs.fail, hs.joinC, hs.joinW⟩
    | wTopReady i h1 | wTopRun i h1 | wEmpty i h1 | wNonempty i h1 | wStop i h1 | wGo i h1 | wLow i h1 | wHigh i h1 | wChkSet i h1
    | wChkUnset i h1 | wTimeout i h1 =>
      exact finv_Wr hs i _ s.outq s.lock s.store s.shouldWait s.stop s.done (by simp) (.inr (.inr ⟨rfl, by simp [h1], by simp [h1]⟩))
    | wSet i h1 =>
      exact finv_Wr hs i _ s.outq s.lock s.store true s.stop s.done (by simp) (.inr (.inr ⟨rfl, by simp [h1], by simp [h1]⟩))
    | wClear i h1 =>
      exact finv_Wr hs i _ s.outq s.lock s.store false s.stop s.done (by simp) (.inr (.inr ⟨rfl, by simp [h1], by simp [h1]⟩))
    | wGet i c q h1 _ =>
      exact finv_Wr hs i _ q s.lock s.store s.shouldWait s.stop s.done (by simp) (.inr (.inr ⟨rfl, by simp [h1], by simp [h1]⟩))
    | wAcquire i c h1 _ =>
      exact finv_Wr hs i (.writing c (combined entries c)) s.outq true s.store s.shouldWait s.stop s.done (by simp)
        (.inr (.inl (.inl ⟨_, _, rfl⟩)))
    | wWrite i c k vs rem h1 =>
      exact finv_Wr hs i (.writing c rem) s.outq s.lock (appendTable s.store k vs) s.shouldWait s.stop s.done (by simp)
        (.inr (.inl (.inl ⟨_, _, rfl⟩)))
    | wRelease i c h1 => exact finv_Wr hs i .top s.outq false s.store s.shouldWait s.stop (s.done ++ c) (by simp) (.inl rfl)
    | wFail0 i h1 =>
      exact finv_Wr hs i (.failing 1) s.outq s.lock s.store s.shouldWait true s.done (by simp) (.inr (.inl (.inr ⟨_, rfl⟩)))
    | wFail1 i h1 =>
      exact finv_Wr hs i (.failing 2) s.outq s.lock s.store false s.stop s.done (by simp) (.inr (.inl (.inr ⟨_, rfl⟩)))
    | wFail2 i h1 => exact finv_Wr hs i .top s.outq false s.store s.shouldWait s.stop s.done (by simp) (.inl rfl)
    | mStop h1 => exact ⟨hs.lock, hs.fail, fun _ => rfl, by simp⟩
    | mReady h1 => exact ⟨hs.lock, hs.fail, fun _ => hs.joinC (by rw [h1]; simp), fun _ => rfl⟩
    | mEnd h1 => exact ⟨hs.lock, hs.fail, fun _ => hs.joinC (by rw [h1]; simp), by simp⟩
  · cases h with
    | write i c rem h1 =>
      exact finv_Wr hs i (.failing 0) s.outq s.lock s.store s.shouldWait s.stop s.done (by simp) (.inr (.inl (.inr ⟨_, rfl⟩)))
    | signal h1 => exact ⟨hs.lock, hs.fail, fun _ => rfl, hs.joinW⟩

theorem finv_run {tasks : List (Outcome R)} {store₀ : Dict K (List V)} {s : State cfg R K V}
    (h : FaultyRun entries cfg (init cfg tasks store₀) s) : FInv s := by
  induction h with
  | refl => exact ⟨by simp [init], by simp [init], by simp [init], by simp [init]⟩
  | tail _ h ih => exact finv_step ih h

/-- States after a failure in which all tasks have passed `should_wait`. -/
structure Passed (s : State cfg R K V) : Prop where
  inv : FInv s
  stop : s.stop = true
  pending : s.pending = []
  waiting : ∀ w t, s.workers w ≠ .waiting t

theorem passed_step {s s' : State cfg R K V} (hs : Passed s) (h : Step entries cfg s s') : Passed s' := by
  have hi := finv_step hs.inv (.inl h)
  have hset : ∀ (v : Fin cfg.nWorker) (x : Worker R), (∀ t, x ≠ .waiting t) → ∀ w t, update s.workers v x w ≠ .waiting t := by
    intro v x hx w t
    by_cases hw : w = v
    · subst hw; rw [update_self]; exact hx t
    · rw [update_of_ne hw]; exact hs.waiting w t
  cases h with
  | start w l₁ t l₂ _ h2 => have := hs.pending; rw [h2] at this; simp at this
  | pass w t h1 _ => exact absurd h1 (hs.waiting w t)
  | finish w t _ => exact ⟨hi, hs.stop, hs.pending, hset w _ (by simp)⟩
  | wFail0 => exact ⟨hi, rfl, hs.pending, hs.waiting⟩
  | mEnd => exact ⟨hi, rfl, hs.pending, hs.waiting⟩
  | _ => exact ⟨hi, hs.stop, hs.pending, hs.waiting⟩

/-- C53 (partial): if a failure (or a signal) happens when all tasks have passed the event `should_wait`, the run can be
completed.  (Missing: tasks that have not passed, where it is false.) -/
theorem C53_passed_partial (hW : 0 < cfg.nWriter) (hS : 0 < cfg.chunkSize) (hK : 0 < cfg.cacheSize)
    {tasks : List (Outcome R)} {store₀ : Dict K (List V)} {s : State cfg R K V}
    (hrun : FaultyRun entries cfg (init cfg tasks store₀) s) (hstop : s.stop = true) (hp : s.pending = [])
    (hw : ∀ w t, s.workers w ≠ .waiting t) : ∃ s', Run entries cfg s s' ∧ s'.main = .finished :=
  finish_of_live (P := Passed) (fun _ _ h1 h2 => passed_step h1 h2)
    (fun _ h1 h2 => progress hW hS hK
      ⟨h1.inv.lock, h1.inv.fail, fun h => h1.inv.joinC (by rw [h]; simp), h1.inv.joinW,
        fun w t h => absurd h (h1.waiting w t), fun h => absurd h1.pending h⟩ h2)
    s ⟨finv_run hrun, hstop, hp, hw⟩

/-- C84 (partial): the same for a termination signal. -/
theorem C84_passed_partial (hW : 0 < cfg.nWriter) (hS : 0 < cfg.chunkSize) (hK : 0 < cfg.cacheSize)
    {tasks : List (Outcome R)} {store₀ : Dict K (List V)} {s s' : State cfg R K V}
    (hrun : FaultyRun entries cfg (init cfg tasks store₀) s) (hsig : s.main = .pool)
    (hs' : s' = { s with shouldStop := true, stop := true }) (hp : s.pending = []) (hw : ∀ w t, s.workers w ≠ .waiting t) :
    ∃ s'', Run entries cfg s' s'' ∧ s''.main = .finished := by
  subst hs'
  exact C53_passed_partial hW hS hK (hrun.tail (.inr (.signal s hsig))) rfl hp hw

/-- A failure of the last write meets the hypotheses. -/
example : ∃ s : State (demoCfg 1) (Option Nat) String Nat,
    FaultyRun demo (demoCfg 1) (init (demoCfg 1) [.res (some 7)] []) s ∧ s.stop = true ∧ s.pending = [] ∧
      ∀ w t, s.workers w ≠ .waiting t := by
  refine goF (.inl (Step.wTopRun _ ⟨0, by decide⟩ rfl rfl)) ?_
  refine goF (.inl (Step.wGo _ ⟨0, by decide⟩ rfl rfl)) ?_
  refine goF (.inl (Step.wLow _ ⟨0, by decide⟩ rfl (by decide))) ?_
  refine goF (.inl (Step.wSet _ ⟨0, by decide⟩ rfl)) ?_
  refine goF (.inl (Step.start _ ⟨0, by decide⟩ [] _ [] rfl rfl)) ?_
  refine goF (.inl (Step.pass _ ⟨0, by decide⟩ _ rfl rfl)) ?_
  refine goF (.inl (Step.finish _ ⟨0, by decide⟩ _ rfl)) ?_
  refine goF (.inl (Step.cTopRun _ ⟨0, by decide⟩ rfl rfl)) ?_
  refine goF (.inl (Step.cGo _ ⟨0, by decide⟩ rfl rfl)) ?_
  refine goF (.inl (Step.cGet _ ⟨0, by decide⟩ _ _ _ rfl (by decide) rfl)) ?_
  refine goF (.inl (Step.cGood _ ⟨0, by decide⟩ _ _ rfl rfl)) ?_
  refine goF (.inl (Step.cSpawn _ ⟨0, by decide⟩ _ rfl (by decide) (by decide))) ?_
  refine goF (.inl (Step.cThread _ ⟨0, by decide⟩ [] _ [] rfl)) ?_
  refine goF (.inl (Step.wGet _ ⟨0, by decide⟩ _ _ rfl rfl)) ?_
  refine goF (.inl (Step.wAcquire _ ⟨0, by decide⟩ _ rfl rfl)) ?_
  refine goF (.inr (Fault.write _ ⟨0, by decide⟩ _ _ rfl)) ?_
  refine goF (.inl (Step.wFail0 _ ⟨0, by decide⟩ rfl)) ?_
  exact ⟨_, .refl, rfl, rfl, fun | ⟨0, _⟩, t => fun h => nomatch h⟩

end RT1.Pipeline
