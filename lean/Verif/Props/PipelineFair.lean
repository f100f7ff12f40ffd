import Verif.Lemmas.PipelineFair
import Verif.Props.PipelineLive

/-!
# The processing pipeline: termination of all fair executions (C52, C53, C84)

An execution is an infinite sequence of states in which every state is the previous one or follows by a step of some process.
It is (weakly) fair if every process that could perform a step at all times from some time on performs a step later.
-/

namespace RT1.Pipeline
open Function PipeSpec

variable {R K V : Type} [DecidableEq K] {entries : R → Option (List (K × V))} {cfg : Cfg}

theorem exec_run {σ : Nat → State cfg R K V} (h : Exec entries σ) (n : Nat) : Run entries cfg (σ 0) (σ n) := by
  induction n with
  | zero => exact .refl
  | succ n ih =>
    rcases h n with h | h
    · rw [h]; exact ih
    · exact ih.tail h

/-- C52: every fair execution without failures ends. -/
theorem C52_fair (hP : 0 < cfg.nWorker) (hW : 0 < cfg.nWriter) (hS : 0 < cfg.chunkSize) (hK : 0 < cfg.cacheSize)
    {tasks : List (Outcome R)} {store₀ : Dict K (List V)} {σ : Nat → State cfg R K V} (h0 : σ 0 = init cfg tasks store₀)
    (he : Exec entries σ) (hf : Fair entries σ) : ∃ n, (σ n).main = .finished :=
  fair_of_live hW hS hK he hf fun n hn => live_of_ctl hP (ctl_run (h0 ▸ exec_run he n)) hn

theorem final_no_step {s s' : State cfg R K V} (hs : Final s) (hf : s.main = .finished) (h : Step entries cfg s s') : False := by
  cases h with
  | start w l₁ t l₂ _ h => rw [hs.pending] at h; simp at h
  | pass w t h | finish w t h => rw [hs.workers w] at h; cases h
  | cTopStop i h | cTopRun i h | cEmpty i h | cNonempty i h | cStop i h | cGo i h | cGet i _ _ _ h | cNone i _ h | cGood i _ _ h
  | cBroken i _ _ h | cSpawn i _ h | cNothing i _ h => rw [hs.pc i] at h; cases h
  | cThread i l₁ c l₂ h => rw [hs.threads i] at h; simp at h
  | cDead i h => have := hs.pc i; rw [h] at this; cases this
  | wTopReady i h | wTopRun i h | wEmpty i h | wNonempty i h | wStop i h | wGo i h | wLow i h | wHigh i h | wSet i h | wChkSet i h
  | wChkUnset i h | wClear i h | wGet i _ _ h | wTimeout i h | wAcquire i _ h | wWrite i _ _ _ _ h | wRelease i _ h | wFail0 i h
  | wFail1 i h | wFail2 i h => rw [hs.writers i] at h; cases h
  | mStop h | mReady h | mEnd h => rw [hf] at h; cases h

/-- C52: every fair execution without failures ends with all processes terminated and (if the results are valid) all results
stored, and the store does not change afterwards. -/
theorem C52_fair_complete (hP : 0 < cfg.nWorker) (hC : 0 < cfg.nComb) (hW : 0 < cfg.nWriter) (hS : 0 < cfg.chunkSize)
    (hK : 0 < cfg.cacheSize) {tasks : List (Outcome R)} {store₀ : Dict K (List V)} (hg : ∀ r, Outcome.res r ∈ tasks → (entries r).isSome)
    {σ : Nat → State cfg R K V} (h0 : σ 0 = init cfg tasks store₀) (he : Exec entries σ) (hf : Fair entries σ) :
    ∃ N, ∀ n, N ≤ n → (σ n).main = .finished ∧ (∀ i, ((σ n).combs i).pc = .dead) ∧ (∀ i, (σ n).writers i = .dead) ∧
      (rows (σ n).store).Perm (rows store₀ ++ (results tasks).flatMap (rowsOf entries)) := by
  obtain ⟨N, hN⟩ := C52_fair hP hW hS hK h0 he hf
  have hrun := exec_run he N
  rw [h0] at hrun
  have hfin := final_of_ctl hC hW (ctl_run hrun) hN
  have hconst : ∀ k, σ (N + k) = σ N := by
    intro k
    induction k with
    | zero => rfl
    | succ k ih =>
      rcases he (N + k) with h | h
      · exact h.trans ih
      · rw [ih] at h; exact (final_no_step hfin hN h).elim
  refine ⟨N, fun n hn => ?_⟩
  obtain ⟨k, rfl⟩ := Nat.exists_eq_add_of_le hn
  rw [hconst k]
  exact ⟨hN, hfin.pc, hfin.writers, C50_complete hC hW hg hrun hN⟩

/-- Every run can be continued to a fair execution. -/
theorem fair_exists (hP : 0 < cfg.nWorker) (hC : 0 < cfg.nComb) (hW : 0 < cfg.nWriter) (hS : 0 < cfg.chunkSize)
    (hK : 0 < cfg.cacheSize) {tasks : List (Outcome R)} {store₀ : Dict K (List V)} {s : State cfg R K V}
    (hrun : Run entries cfg (init cfg tasks store₀) s) :
    ∃ σ : Nat → State cfg R K V, σ 0 = init cfg tasks store₀ ∧ Exec entries σ ∧ Fair entries σ ∧ ∃ n, σ n = s := by
  obtain ⟨s', h1, h2⟩ := C52_finish hP hW hS hK hrun
  have key : ∀ {a b : State cfg R K V}, Run entries cfg a b → Run entries cfg b s' →
      ∃ (σ : Nat → State cfg R K V) (N : Nat), σ 0 = a ∧ Exec entries σ ∧ (∀ n, N ≤ n → σ n = s') ∧ ∃ n, σ n = b := by
    have base : ∀ {b : State cfg R K V}, Run entries cfg b s' →
        ∃ (σ : Nat → State cfg R K V) (N : Nat), σ 0 = b ∧ Exec entries σ ∧ ∀ n, N ≤ n → σ n = s' := by
      intro b hb
      induction hb using Relation.ReflTransGen.head_induction_on with
      | refl => exact ⟨fun _ => s', 0, rfl, fun _ => .inl rfl, fun _ _ => rfl⟩
      | @head a c hac _ ih =>
        obtain ⟨σ, N, e0, e1, e2⟩ := ih
        refine ⟨fun | 0 => a | n + 1 => σ n, N + 1, rfl, ?_, ?_⟩
        · intro n
          cases n with
          | zero => right; show Step entries cfg a (σ 0); rw [e0]; exact hac
          | succ n => exact e1 n
        · intro n hn
          cases n with
          | zero => omega
          | succ n => exact e2 n (by omega)
    intro a b ha hb
    induction ha using Relation.ReflTransGen.head_induction_on with
    | refl =>
      obtain ⟨σ, N, e0, e1, e2⟩ := base hb
      exact ⟨σ, N, e0, e1, e2, 0, e0⟩
    | @head a c hac _ ih =>
      obtain ⟨σ, N, e0, e1, e2, m, e3⟩ := ih
      refine ⟨fun | 0 => a | n + 1 => σ n, N + 1, rfl, ?_, ?_, m + 1, e3⟩
      · intro n
        cases n with
        | zero => right; show Step entries cfg a (σ 0); rw [e0]; exact hac
        | succ n => exact e1 n
      · intro n hn
        cases n with
        | zero => omega
        | succ n => exact e2 n (by omega)
  obtain ⟨σ, N, e0, e1, e2, e3⟩ := key hrun h1
  refine ⟨σ, e0, e1, fun p M hen => ?_, e3⟩
  obtain ⟨t, ht, _⟩ := hen (M + N) (by omega)
  rw [e2 (M + N) (by omega)] at ht
  exact (final_no_step (final_of_ctl hC hW (ctl_run (hrun.trans h1)) h2) h2 ht).elim

/-- The hypotheses of C52 hold for the start of a run (with any number of tasks). -/
example : ∃ σ : Nat → State ⟨2, 1, 2, 3, 4⟩ (Option Nat) String Nat, σ 0 = init _ [.res (some 7), .err, .skip] [] ∧ Exec demo σ ∧
    Fair demo σ ∧ ∃ n, (σ n).main = .finished := by
  obtain ⟨σ, h0, he, hf, _⟩ := fair_exists (entries := demo) (cfg := ⟨2, 1, 2, 3, 4⟩) (tasks := [.res (some 7), .err, .skip]) (store₀ := [])
    (by decide) (by decide) (by decide) (by decide) (by decide) .refl
  exact ⟨σ, h0, he, hf, C52_fair (by decide) (by decide) (by decide) (by decide) h0 he hf⟩

/-- An execution that never does anything is not fair, so fairness is needed. -/
theorem C52_fairness_needed {tasks : List (Outcome R)} {store₀ : Dict K (List V)} (hW : 0 < cfg.nWriter) :
    Exec entries (fun _ => init cfg tasks store₀) ∧ ¬ Fair entries (fun _ : Nat => init cfg tasks store₀) := by
  refine ⟨fun _ => .inl rfl, fun h => ?_⟩
  obtain ⟨n, _, ha⟩ := h (.writer ⟨0, hW⟩) 0 fun n _ => enabled_polling (i := ⟨0, hW⟩) (by simp [init, Writer.polling])
  exact ha rfl

/-! ## after failures -/

/-- C53 (partial): if a failure happens when all tasks have passed the event `should_wait`, then every fair continuation without
further failures ends.  (Missing: tasks that have not passed, where it is false, `C53_fails`.) -/
theorem C53_fair_partial (hW : 0 < cfg.nWriter) (hS : 0 < cfg.chunkSize) (hK : 0 < cfg.cacheSize)
    {tasks : List (Outcome R)} {store₀ : Dict K (List V)} {σ : Nat → State cfg R K V}
    (hrun : FaultyRun entries cfg (init cfg tasks store₀) (σ 0)) (hstop : (σ 0).stop = true) (hp : (σ 0).pending = [])
    (hw : ∀ w t, (σ 0).workers w ≠ .waiting t) (he : Exec entries σ) (hf : Fair entries σ) : ∃ n, (σ n).main = .finished := by
  have hall : ∀ n, Passed (σ n) := by
    intro n
    induction n with
    | zero => exact ⟨finv_run hrun, hstop, hp, hw⟩
    | succ n ih =>
      rcases he n with h | h
      · rw [h]; exact ih
      · exact passed_step ih h
  refine fair_of_live hW hS hK he hf fun n _ => ?_
  have h1 := hall n
  exact ⟨h1.inv.lock, h1.inv.fail, fun h => h1.inv.joinC (by rw [h]; simp), h1.inv.joinW,
    fun w t h => absurd h (h1.waiting w t), fun h => absurd h1.pending h⟩

/-- C84 (partial): the same for a termination signal. -/
theorem C84_fair_partial (hW : 0 < cfg.nWriter) (hS : 0 < cfg.chunkSize) (hK : 0 < cfg.cacheSize)
    {tasks : List (Outcome R)} {store₀ : Dict K (List V)} {s : State cfg R K V} {σ : Nat → State cfg R K V}
    (hrun : FaultyRun entries cfg (init cfg tasks store₀) s) (hsig : s.main = .pool)
    (h0 : σ 0 = { s with shouldStop := true, stop := true }) (hp : s.pending = []) (hw : ∀ w t, s.workers w ≠ .waiting t)
    (he : Exec entries σ) (hf : Fair entries σ) : ∃ n, (σ n).main = .finished := by
  refine C53_fair_partial hW hS hK (tasks := tasks) (store₀ := store₀) ?_ ?_ ?_ ?_ he hf
  · rw [h0]; exact hrun.tail (.inr (.signal s hsig))
  · rw [h0]
  · rw [h0]; exact hp
  · rw [h0]; exact hw

end RT1.Pipeline
