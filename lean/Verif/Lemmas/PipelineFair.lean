import Verif.Lemmas.PipelineLive

/-!
# Fair executions of the processing pipeline

`nu` measures the remaining work such that no step increases it.  The steps that leave it unchanged are the polling steps of
combiners and writers and the writing of tables (`Quiet`).
-/

namespace RT1.Pipeline
open Function

set_option linter.unusedSectionVars false

variable {R K V : Type} [DecidableEq K] {entries : R → Option (List (K × V))} {cfg : Cfg}

/-- The processes and threads of the pipeline. -/
inductive Proc (cfg : Cfg)
  | worker (w : Fin cfg.nWorker)
  | comb (i : Fin cfg.nComb)
  | thread (i : Fin cfg.nComb)
  | writer (i : Fin cfg.nWriter)
  | main

/-- The local state of the process has been changed (every step changes the local state of the process that performs it; a
thread terminates as soon as it has put its chunk into `out_queue`). -/
def Acts : Proc cfg → State cfg R K V → State cfg R K V → Prop
  | .worker w, s, s' => s'.workers w ≠ s.workers w
  | .comb i, s, s' => (s'.combs i).pc ≠ (s.combs i).pc
  | .thread i, s, s' => (s'.combs i).threads.length < (s.combs i).threads.length
  | .writer i, s, s' => s'.writers i ≠ s.writers i
  | .main, s, s' => s'.main ≠ s.main

/-- The process can perform a step. -/
def Enabled (entries : R → Option (List (K × V))) (p : Proc cfg) (s : State cfg R K V) : Prop :=
  ∃ s', Step entries cfg s s' ∧ Acts p s s'

/-- An infinite execution; the state may remain unchanged for any time. -/
def Exec (entries : R → Option (List (K × V))) (σ : Nat → State cfg R K V) : Prop :=
  ∀ n, σ (n + 1) = σ n ∨ Step entries cfg (σ n) (σ (n + 1))

/-- Weak fairness: a process that can perform a step at all times from `N` on performs a step after `N`. -/
def Fair (entries : R → Option (List (K × V))) (σ : Nat → State cfg R K V) : Prop :=
  ∀ p N, (∀ n, N ≤ n → Enabled entries p (σ n)) → ∃ n, N ≤ n ∧ Acts p (σ n) (σ (n + 1))

/-! ## the measure -/

def nuPc : CPc R → Nat
  | .collect c => 10 * c.length + 1
  | .hold c _ => 10 * c.length + 13
  | .dead => 0
  | _ => 1

def nuC (c : Comb R) : Nat := nuPc c.pc + wl (fun ch => 4 * (ch.length + 1)) c.threads

def nuW : Worker R → Nat
  | .idle => 0
  | .waiting _ => 26
  | .exec _ => 25

def nu (s : State cfg R K V) : Nat :=
  27 * s.pending.length + ∑ w, nuW (s.workers w) + 24 * s.queue.length + ∑ i, nuC (s.combs i) +
    wl (fun ch => 3 * (ch.length + 1)) s.outq + ∑ i, muWr (s.writers i) + muM s.main

theorem nu_setW (s : State cfg R K V) (w : Fin cfg.nWorker) (x : Worker R) : nu (s.setW w x) + nuW (s.workers w) = nu s + nuW x := by
  have := sum_upd nuW s.workers w x
  simp only [nu, State.setW]
  omega

theorem nu_setC (s : State cfg R K V) (i : Fin cfg.nComb) (x : Comb R) : nu (s.setC i x) + nuC (s.combs i) = nu s + nuC x := by
  have := sum_upd nuC s.combs i x
  simp only [nu, State.setC]
  omega

theorem nu_setPc (s : State cfg R K V) (i : Fin cfg.nComb) (x : CPc R) :
    nu (s.setPc i x) + nuPc (s.combs i).pc = nu s + nuPc x := by
  have := nu_setC s i ⟨x, (s.combs i).threads⟩
  simp only [State.setPc, nuC] at this ⊢
  omega

theorem nu_setWr (s : State cfg R K V) (i : Fin cfg.nWriter) (x : Writer R K V) :
    nu (s.setWr i x) + muWr (s.writers i) = nu s + muWr x := by
  have := sum_upd muWr s.writers i x
  simp only [nu, State.setWr]
  omega

/-! ## steps that leave the measure unchanged -/

/-- Polling of a combiner. -/
inductive QC (s : State cfg R K V) : CPc R → CPc R → Prop
  | topStop : s.shouldStop = true → QC s .top .chkEmpty
  | topRun : s.shouldStop = false → QC s .top .chkStop
  | empty : s.queue = [] → QC s .chkEmpty .joining
  | nonempty : s.queue ≠ [] → QC s .chkEmpty .chkStop
  | stop : s.stop = true → QC s .chkStop .joining
  | go : s.stop = false → QC s .chkStop (.collect [])
  | nothing : (0 < cfg.chunkSize → s.queue = []) → QC s (.collect []) .top

/-- Polling of a writer, and writing; `b` is the event `should_wait` afterwards. -/
inductive QW (s : State cfg R K V) : Writer R K V → Writer R K V → Bool → Prop
  | topReady : s.ready = true → QW s .top .chkEmpty s.shouldWait
  | topRun : s.ready = false → QW s .top .chkStop s.shouldWait
  | nonempty : s.outq ≠ [] → QW s .chkEmpty .chkStop s.shouldWait
  | go : s.stop = false → QW s .chkStop .gate s.shouldWait
  | low : s.outq.length < cfg.cacheSize → QW s .gate .gateSet s.shouldWait
  | high : ¬ s.outq.length < cfg.cacheSize → QW s .gate .gateChk s.shouldWait
  | set : QW s .gateSet .get true
  | chkSet : s.shouldWait = true → QW s .gateChk .gateClr s.shouldWait
  | chkUnset : s.shouldWait = false → QW s .gateChk .get s.shouldWait
  | clear : QW s .gateClr .get false
  | timeout : s.outq = [] → QW s .get .top s.shouldWait
  | write (chunk : List R) (e : K × List V) (rem : List (K × List V)) : QW s (.writing chunk (e :: rem)) (.writing chunk rem) s.shouldWait

inductive Quiet : State cfg R K V → State cfg R K V → Prop
  | comb (s) (i) (x) : QC s (s.combs i).pc x → Quiet s (s.setPc i x)
  | writer (s) (i) (x) (b) (st) : QW s (s.writers i) x b → Quiet s ({ s with shouldWait := b, store := st }.setWr i x)

theorem quietC {s : State cfg R K V} {i : Fin cfg.nComb} {x y : CPc R} (h : (s.combs i).pc = y) (hq : QC s y x) :
    Quiet s (s.setPc i x) := .comb s i x (h ▸ hq)

theorem quietW {s : State cfg R K V} {i : Fin cfg.nWriter} {x y : Writer R K V} (h : s.writers i = y) (hq : QW s y x s.shouldWait) :
    Quiet s (s.setWr i x) := .writer s i x s.shouldWait s.store (h ▸ hq)

theorem quiet_of_step {s s' : State cfg R K V} (h : Step entries cfg s s') : nu s' < nu s ∨ Quiet s s' := by
  cases h with
  | start w l₁ t l₂ h1 h2 =>
    left
    have := nu_setW { s with pending := l₁ ++ l₂ } w (.waiting t)
    simp only [h1, nuW] at this
    have e : nu s = nu { s with pending := l₁ ++ l₂ } + 27 := by
      simp only [nu, h2, List.length_append, List.length_cons]; omega
    omega
  | pass w t h1 h2 =>
    left
    have := nu_setW s w (.exec t)
    simp only [h1, nuW] at this
    omega
  | finish w t h1 =>
    left
    have := nu_setW { s with queue := s.queue ++ t.put } w .idle
    simp only [h1, nuW] at this
    have e : nu { s with queue := s.queue ++ t.put } = nu s + 24 * t.put.length := by
      simp only [nu, List.length_append]; omega
    have : t.put.length ≤ 1 := by cases t <;> simp [Outcome.put]
    omega
  | cTopStop i h1 h2 => exact .inr (quietC h1 (.topStop h2))
  | cTopRun i h1 h2 => exact .inr (quietC h1 (.topRun h2))
  | cEmpty i h1 h2 => exact .inr (quietC h1 (.empty h2))
  | cNonempty i h1 h2 => exact .inr (quietC h1 (.nonempty h2))
  | cStop i h1 h2 => exact .inr (quietC h1 (.stop h2))
  | cGo i h1 h2 => exact .inr (quietC h1 (.go h2))
  | cGet i chunk v q h1 h2 h3 =>
    left
    have := nu_setPc { s with queue := q } i (.hold chunk v)
    simp only [h1, nuPc] at this
    have e : nu s = nu { s with queue := q } + 24 := by
      simp only [nu, h3, List.length_cons]; omega
    omega
  | cNone i chunk h1 =>
    left
    have := nu_setPc { s with tot := s.tot + 1 } i (.collect chunk)
    simp only [h1, nuPc] at this
    have e : nu { s with tot := s.tot + 1 } = nu s := rfl
    omega
  | cGood i chunk r h1 h2 =>
    left
    have := nu_setPc { s with tot := s.tot + 1, succ := s.succ + 1 } i (.collect (chunk ++ [r]))
    simp only [h1, nuPc, List.length_append, List.length_cons, List.length_nil] at this
    have e : nu { s with tot := s.tot + 1, succ := s.succ + 1 } = nu s := rfl
    omega
  | cBroken i chunk r h1 h2 =>
    left
    have := nu_setPc { s with lost := s.lost ++ chunk ++ [r], bad := s.bad + 1 } i .top
    simp only [h1, nuPc] at this
    have e : nu { s with lost := s.lost ++ chunk ++ [r], bad := s.bad + 1 } = nu s := rfl
    omega
  | cSpawn i chunk h1 h2 h3 =>
    left
    have hne : chunk ≠ [] := by rintro rfl; exact h3 rfl
    have hl : 0 < chunk.length := List.length_pos_iff.2 hne
    have := nu_setC s i ⟨.top, (s.combs i).threads ++ [chunk]⟩
    simp only [nuC, h1, nuPc, wl_append, wl_cons, wl_nil] at this
    omega
  | cNothing i chunk h1 h2 h3 =>
    cases chunk with
    | nil =>
      right
      have : ({ s with done := s.done ++ [] } : State cfg R K V) = s := by simp
      rw [this]
      exact quietC h1 (.nothing h2)
    | cons r l =>
      left
      have := nu_setPc { s with done := s.done ++ r :: l } i .top
      simp only [h1, nuPc, List.length_cons] at this
      have e : nu { s with done := s.done ++ r :: l } = nu s := rfl
      omega
  | cThread i l₁ chunk l₂ h1 =>
    left
    have := nu_setC { s with outq := s.outq ++ [chunk] } i ⟨(s.combs i).pc, l₁ ++ l₂⟩
    simp only [nuC, h1, wl_append, wl_cons] at this
    have e : nu { s with outq := s.outq ++ [chunk] } = nu s + 3 * (chunk.length + 1) := by
      simp only [nu, wl_append, wl_cons, wl_nil]; omega
    omega
  | cDead i h1 =>
    left
    have := nu_setPc s i .dead
    simp only [h1, nuPc] at this
    omega
  | wTopReady i h1 h2 => exact .inr (quietW h1 (.topReady h2))
  | wTopRun i h1 h2 => exact .inr (quietW h1 (.topRun h2))
  | wEmpty i h1 h2 =>
    left
    have := nu_setWr s i .dead
    simp only [h1, muWr] at this
    omega
  | wNonempty i h1 h2 => exact .inr (quietW h1 (.nonempty h2))
  | wStop i h1 h2 =>
    left
    have := nu_setWr s i .dead
    simp only [h1, muWr] at this
    omega
  | wGo i h1 h2 => exact .inr (quietW h1 (.go h2))
  | wLow i h1 h2 => exact .inr (quietW h1 (.low h2))
  | wHigh i h1 h2 => exact .inr (quietW h1 (.high h2))
  | wSet i h1 => exact .inr (.writer s i _ true s.store (h1 ▸ .set))
  | wChkSet i h1 h2 => exact .inr (quietW h1 (.chkSet h2))
  | wChkUnset i h1 h2 => exact .inr (quietW h1 (.chkUnset h2))
  | wClear i h1 => exact .inr (.writer s i _ false s.store (h1 ▸ .clear))
  | wGet i chunk q h1 h2 =>
    left
    have := nu_setWr { s with outq := q } i (.acquire chunk)
    simp only [h1, muWr] at this
    have e : nu s = nu { s with outq := q } + 3 * (chunk.length + 1) := by simp only [nu, h2, wl_cons]; omega
    omega
  | wTimeout i h1 h2 => exact .inr (quietW h1 (.timeout h2))
  | wAcquire i chunk h1 h2 =>
    left
    have := nu_setWr { s with lock := true } i (.writing chunk (combined entries chunk))
    simp only [h1, muWr] at this
    have e : nu { s with lock := true } = nu s := rfl
    omega
  | wWrite i chunk k vs rem h1 => exact .inr (.writer s i _ s.shouldWait _ (h1 ▸ .write chunk (k, vs) rem))
  | wRelease i chunk h1 =>
    left
    have := nu_setWr { s with lock := false, done := s.done ++ chunk } i .top
    simp only [h1, muWr] at this
    have e : nu { s with lock := false, done := s.done ++ chunk } = nu s := rfl
    omega
  | wFail0 i h1 =>
    left
    have := nu_setWr { s with stop := true } i (.failing 1)
    simp only [h1, muWr] at this
    have e : nu { s with stop := true } = nu s := rfl
    omega
  | wFail1 i h1 =>
    left
    have := nu_setWr { s with shouldWait := false } i (.failing 2)
    simp only [h1, muWr] at this
    have e : nu { s with shouldWait := false } = nu s := rfl
    omega
  | wFail2 i h1 =>
    left
    have := nu_setWr { s with lock := false } i .top
    simp only [h1, muWr] at this
    have e : nu { s with lock := false } = nu s := rfl
    omega
  | mStop h1 h2 h3 => left; simp only [nu, h1, muM]; omega
  | mReady h1 h2 => left; simp only [nu, h1, muM]; omega
  | mEnd h1 h2 => left; simp only [nu, h1, muM]; omega

/-- Quiet steps do not change the measure. -/
theorem nu_quiet {s s' : State cfg R K V} (h : Quiet s s') : nu s' = nu s := by
  cases h with
  | comb i x hq =>
    have := nu_setPc s i x
    have e : nuPc (s.combs i).pc = nuPc x := by
      generalize (s.combs i).pc = y at hq
      cases hq <;> rfl
    omega
  | writer i x b st hq =>
    have := nu_setWr { s with shouldWait := b, store := st } i x
    have e : muWr (s.writers i) = muWr x := by
      generalize s.writers i = y at hq
      cases hq <;> rfl
    have e' : nu { s with shouldWait := b, store := st } = nu s := rfl
    simp only [e'] at this
    omega

theorem nu_step {s s' : State cfg R K V} (h : Step entries cfg s s') : nu s' ≤ nu s := by
  rcases quiet_of_step h with h | h
  · omega
  · exact Nat.le_of_eq (nu_quiet h)

/-- What quiet steps leave unchanged. -/
structure Same (s s' : State cfg R K V) : Prop where
  pending : s'.pending = s.pending
  workers : s'.workers = s.workers
  queue : s'.queue = s.queue
  threads : ∀ i, (s'.combs i).threads = (s.combs i).threads
  outq : s'.outq = s.outq
  lock : s'.lock = s.lock
  shouldStop : s'.shouldStop = s.shouldStop
  stop : s'.stop = s.stop
  ready : s'.ready = s.ready
  main : s'.main = s.main

theorem Same.refl (s : State cfg R K V) : Same s s := ⟨rfl, rfl, rfl, fun _ => rfl, rfl, rfl, rfl, rfl, rfl, rfl⟩

theorem Same.trans {s s' s'' : State cfg R K V} (h : Same s s') (h' : Same s' s'') : Same s s'' :=
  ⟨h'.1.trans h.1, h'.2.trans h.2, h'.3.trans h.3, fun i => (h'.4 i).trans (h.4 i), h'.5.trans h.5, h'.6.trans h.6,
    h'.7.trans h.7, h'.8.trans h.8, h'.9.trans h.9, h'.10.trans h.10⟩

theorem same_quiet {s s' : State cfg R K V} (h : Quiet s s') : Same s s' := by
  cases h with
  | comb i x hq =>
    refine ⟨rfl, rfl, rfl, fun j => ?_, rfl, rfl, rfl, rfl, rfl, rfl⟩
    by_cases hj : j = i
    · subst hj; simp [State.setPc, State.setC]
    · simp [State.setPc, State.setC, hj]
  | writer i x b st hq => exact ⟨rfl, rfl, rfl, fun _ => rfl, rfl, rfl, rfl, rfl, rfl, rfl⟩

/-- The step of one writer, seen from a writer. -/
theorem quiet_writer {s s' : State cfg R K V} (h : Quiet s s') (i : Fin cfg.nWriter) :
    (s'.writers i = s.writers i) ∨ QW s (s.writers i) (s'.writers i) s'.shouldWait := by
  cases h with
  | comb j x hq => exact .inl rfl
  | writer j x b st hq =>
    by_cases hj : i = j
    · subst hj; right; simpa [State.setWr] using hq
    · left; simp [State.setWr, hj]

theorem quiet_comb {s s' : State cfg R K V} (h : Quiet s s') (i : Fin cfg.nComb) :
    ((s'.combs i).pc = (s.combs i).pc) ∨ QC s (s.combs i).pc (s'.combs i).pc := by
  cases h with
  | comb j x hq =>
    by_cases hj : i = j
    · subst hj; right; simpa [State.setPc, State.setC] using hq
    · left; simp [State.setPc, State.setC, hj]
  | writer j x b st hq => exact .inl rfl

/-- If `should_wait` is cleared, then by a writer that has seen a full cache. -/
theorem quiet_wait {s s' : State cfg R K V} (h : Quiet s s') (hs : s.shouldWait = true) (h' : s'.shouldWait = false) :
    ∃ i, s.writers i = .gateClr := by
  cases h with
  | comb j x hq =>
    have : s.shouldWait = false := h'
    rw [hs] at this; cases this
  | writer j x b st hq =>
    have hb : b = false := h'
    subst hb
    refine ⟨j, ?_⟩
    generalize s.writers j = y at hq
    generalize hf : false = f at hq
    cases hq <;> first | rfl | (rw [← hf] at hs; cases hs) | cases hf | (rw [hs] at hf; cases hf)

/-! ## executions -/

theorem const_of_antitone (f : Nat → Nat) (h : ∀ n, f (n + 1) ≤ f n) : ∃ N, ∀ n, N ≤ n → f n = f N := by
  have hm : ∀ k n, f (n + k) ≤ f n := by
    intro k
    induction k with
    | zero => exact fun n => Nat.le_refl _
    | succ k ih => exact fun n => (h (n + k)).trans (ih n)
  have key : ∀ v N, f N ≤ v → ∃ N, ∀ n, N ≤ n → f n = f N := by
    intro v
    induction v with
    | zero =>
      intro N hN
      refine ⟨N, fun n hn => ?_⟩
      have := hm (n - N) N
      rw [Nat.add_sub_cancel' hn] at this
      omega
    | succ v ih =>
      intro N hN
      by_cases hc : ∀ n, N ≤ n → f n = f N
      · exact ⟨N, hc⟩
      · push Not at hc
        obtain ⟨n, hn, hne⟩ := hc
        have := hm (n - N) N
        rw [Nat.add_sub_cancel' hn] at this
        exact ih n (by omega)
  exact key (f 0) 0 (Nat.le_refl _)

/-- From `N` on only quiet steps are performed. -/
def Still (σ : Nat → State cfg R K V) (N : Nat) : Prop := ∀ n, N ≤ n → σ (n + 1) = σ n ∨ Quiet (σ n) (σ (n + 1))

theorem still_of_exec {σ : Nat → State cfg R K V} (h : Exec entries σ) : ∃ N, Still σ N := by
  obtain ⟨N, hN⟩ := const_of_antitone (fun n => nu (σ n)) fun n => by
    rcases h n with h | h
    · simp only [h]; exact Nat.le_refl _
    · exact nu_step h
  refine ⟨N, fun n hn => ?_⟩
  rcases h n with h | h
  · exact .inl h
  · rcases quiet_of_step h with h' | h'
    · have h1 := hN n hn
      have h2 := hN (n + 1) (by omega)
      omega
    · exact .inr h'

theorem Still.mono {σ : Nat → State cfg R K V} {N M : Nat} (h : Still σ N) (hM : N ≤ M) : Still σ M :=
  fun n hn => h n (hM.trans hn)

theorem Still.same {σ : Nat → State cfg R K V} {N : Nat} (h : Still σ N) {n : Nat} (hn : N ≤ n) : Same (σ N) (σ n) := by
  obtain ⟨k, rfl⟩ := Nat.exists_eq_add_of_le hn
  clear hn
  induction k with
  | zero => exact .refl _
  | succ k ih =>
    refine ih.trans ?_
    rcases h (N + k) (by omega) with h | h
    · rw [Nat.add_succ]
      have h' : σ (N + k).succ = σ (N + k) := h
      rw [h']; exact .refl _
    · exact same_quiet h

/-- An invariant of the quiet steps. -/
theorem Still.inv {σ : Nat → State cfg R K V} {N : Nat} (h : Still σ N) {P : State cfg R K V → Prop} (h0 : P (σ N))
    (hP : ∀ n, N ≤ n → Quiet (σ n) (σ (n + 1)) → P (σ n) → P (σ (n + 1))) {n : Nat} (hn : N ≤ n) : P (σ n) := by
  obtain ⟨k, rfl⟩ := Nat.exists_eq_add_of_le hn
  clear hn
  induction k with
  | zero => exact h0
  | succ k ih =>
    rcases h (N + k) (by omega) with h | h
    · have h' : σ (N + (k + 1)) = σ (N + k) := h
      rw [h']; exact ih
    · exact hP (N + k) (by omega) h ih

/-- A rank that is decreased by every step of a process that can perform a step as long as the rank is not 0. -/
theorem reach {σ : Nat → State cfg R K V} (hf : Fair entries σ) (p : Proc cfg) (r : State cfg R K V → Nat) (N : Nat)
    (hm : ∀ n, N ≤ n → r (σ (n + 1)) ≤ r (σ n)) (he : ∀ n, N ≤ n → r (σ n) ≠ 0 → Enabled entries p (σ n))
    (hd : ∀ n, N ≤ n → r (σ n) ≠ 0 → Acts p (σ n) (σ (n + 1)) → r (σ (n + 1)) < r (σ n)) : ∃ n, N ≤ n ∧ r (σ n) = 0 := by
  have hle : ∀ n, N ≤ n → ∀ k, r (σ (n + k)) ≤ r (σ n) := by
    intro n hn k
    induction k with
    | zero => exact Nat.le_refl _
    | succ k ih => exact (hm (n + k) (by omega)).trans ih
  have key : ∀ v M, N ≤ M → r (σ M) ≤ v → ∃ n, N ≤ n ∧ r (σ n) = 0 := by
    intro v
    induction v with
    | zero => exact fun M hM h => ⟨M, hM, by omega⟩
    | succ v ih =>
      intro M hM h
      by_cases hz : ∃ n, N ≤ n ∧ r (σ n) = 0
      · exact hz
      · have hz' : ∀ n, N ≤ n → r (σ n) ≠ 0 := fun n hn h0 => hz ⟨n, hn, h0⟩
        obtain ⟨n, hn, ha⟩ := hf p M fun n hn => he n (by omega) (hz' n (by omega))
        have h1 := hd n (by omega) (hz' n (by omega)) ha
        have h2 := hle M hM (n - M)
        rw [Nat.add_sub_cancel' hn] at h2
        exact ih (n + 1) (by omega) (by omega)
  exact key (r (σ N)) N (Nat.le_refl _) (Nat.le_refl _)

/-! ## no process is quiet forever -/

section
variable {σ : Nat → State cfg R K V} {N : Nat}

theorem quiet_no_worker (hs : Still σ N) (hf : Fair entries σ) (w : Fin cfg.nWorker)
    (he : ∀ n, N ≤ n → Enabled entries (.worker w) (σ n)) : False := by
  obtain ⟨n, hn, ha⟩ := hf _ N he
  apply ha
  rw [(hs.same (n := n + 1) (by omega)).workers, (hs.same hn).workers]

theorem quiet_no_thread (hs : Still σ N) (hf : Fair entries σ) (i : Fin cfg.nComb)
    (he : ∀ n, N ≤ n → Enabled entries (.thread i) (σ n)) : False := by
  obtain ⟨n, hn, ha⟩ := hf _ N he
  simp only [Acts] at ha
  rw [(hs.same (n := n + 1) (by omega)).threads, (hs.same hn).threads] at ha
  omega

theorem quiet_no_main (hs : Still σ N) (hf : Fair entries σ) (he : ∀ n, N ≤ n → Enabled entries .main (σ n)) : False := by
  obtain ⟨n, hn, ha⟩ := hf _ N he
  apply ha
  rw [(hs.same (n := n + 1) (by omega)).main, (hs.same hn).main]

theorem enabled_setWr {s s' : State cfg R K V} {i : Fin cfg.nWriter} {x y : Writer R K V} (h : s.writers i = x) (hne : y ≠ x)
    (hst : Step entries cfg s s') (hw : s'.writers i = y) : Enabled entries (.writer i) s :=
  ⟨s', hst, by simp only [Acts, hw, h]; exact hne⟩

/-- A writer that polls can always continue. -/
theorem enabled_polling {s : State cfg R K V} {i : Fin cfg.nWriter} (h : (s.writers i).polling) : Enabled entries (.writer i) s := by
  cases hw : s.writers i with
  | acquire | writing | failing | dead => rw [hw] at h; exact h.elim
  | top =>
    cases hr : s.ready with
    | true => exact enabled_setWr hw (y := .chkEmpty) (by simp) (.wTopReady s i hw hr) (by simp [State.setWr])
    | false => exact enabled_setWr hw (y := .chkStop) (by simp) (.wTopRun s i hw hr) (by simp [State.setWr])
  | chkEmpty =>
    by_cases hq : s.outq = []
    · exact enabled_setWr hw (y := .dead) (by simp) (.wEmpty s i hw hq) (by simp [State.setWr])
    · exact enabled_setWr hw (y := .chkStop) (by simp) (.wNonempty s i hw hq) (by simp [State.setWr])
  | chkStop =>
    cases hr : s.stop with
    | true => exact enabled_setWr hw (y := .dead) (by simp) (.wStop s i hw hr) (by simp [State.setWr])
    | false => exact enabled_setWr hw (y := .gate) (by simp) (.wGo s i hw hr) (by simp [State.setWr])
  | gate =>
    by_cases hl : s.outq.length < cfg.cacheSize
    · exact enabled_setWr hw (y := .gateSet) (by simp) (.wLow s i hw hl) (by simp [State.setWr])
    · exact enabled_setWr hw (y := .gateChk) (by simp) (.wHigh s i hw hl) (by simp [State.setWr])
  | gateSet => exact enabled_setWr hw (y := .get) (by simp) (.wSet s i hw) (by simp [State.setWr])
  | gateChk =>
    cases hb : s.shouldWait with
    | true => exact enabled_setWr hw (y := .gateClr) (by simp) (.wChkSet s i hw hb) (by simp [State.setWr])
    | false => exact enabled_setWr hw (y := .get) (by simp) (.wChkUnset s i hw hb) (by simp [State.setWr])
  | gateClr => exact enabled_setWr hw (y := .get) (by simp) (.wClear s i hw) (by simp [State.setWr])
  | get =>
    cases ho : s.outq with
    | nil => exact enabled_setWr hw (y := .top) (by simp) (.wTimeout s i hw ho) (by simp [State.setWr])
    | cons c q => exact enabled_setWr hw (y := .acquire c) (by simp) (.wGet s i c q hw ho) (by simp [State.setWr])

theorem polling_inv (hs : Still σ N) {i : Fin cfg.nWriter} (h : ((σ N).writers i).polling) {n : Nat} (hn : N ≤ n) :
    ((σ n).writers i).polling := by
  refine hs.inv (P := fun s => (s.writers i).polling) h ?_ hn
  intro n _ hq hp
  rcases quiet_writer hq i with h | h
  · rw [h]; exact hp
  · generalize (σ n).writers i = x at h hp
    generalize (σ (n + 1)).writers i = y at h
    generalize (σ (n + 1)).shouldWait = b at h
    cases h <;> first | trivial | exact hp.elim

/-- The rank of a writer decreases with every step: contradiction. -/
theorem no_writer (hs : Still σ N) (hf : Fair entries σ) {i : Fin cfg.nWriter} (hp : ((σ N).writers i).polling)
    (r : Writer R K V → Nat) (hr : ∀ x : Writer R K V, x.polling → r x ≠ 0)
    (hd : ∀ n, N ≤ n → ∀ x y b, QW (σ n) x y b → x.polling → r y < r x) : False := by
  have hstep : ∀ n, N ≤ n → (σ (n + 1)).writers i = (σ n).writers i ∨ r ((σ (n + 1)).writers i) < r ((σ n).writers i) := by
    intro n hn
    rcases hs n hn with h | h
    · exact .inl (by rw [h])
    · rcases quiet_writer h i with h | h
      · exact .inl h
      · exact .inr (hd n hn _ _ _ h (polling_inv hs hp hn))
  obtain ⟨n, hn, h0⟩ := reach hf (.writer i) (fun s => r (s.writers i)) N
    (fun n hn => by
      rcases hstep n hn with h | h
      · rw [h]
      · exact h.le)
    (fun n hn _ => enabled_polling (polling_inv hs hp hn))
    (fun n hn _ ha => (hstep n hn).resolve_left ha)
  exact hr _ (polling_inv hs hp hn) h0

/-- A writer takes a chunk from a nonempty `out_queue`. -/
theorem no_outq (hs : Still σ N) (hf : Fair entries σ) {i : Fin cfg.nWriter} (hp : ((σ N).writers i).polling) (ho : (σ N).outq ≠ []) :
    False := by
  let r : Writer R K V → Nat
    | .top => 8
    | .chkEmpty => 7
    | .chkStop => 6
    | .gate => 5
    | .gateSet => 4
    | .gateChk => 4
    | .gateClr => 3
    | .get => 2
    | _ => 0
  refine no_writer hs hf hp r (fun x hx => ?_) fun n hn x y b h hx => ?_
  · cases x <;> first | exact hx.elim | (simp only [r]; decide)
  · have ho' : (σ n).outq ≠ [] := by rw [(hs.same hn).outq]; exact ho
    cases h <;> first | exact hx.elim | (simp only [r]; omega) | exact absurd ‹_› ho'

/-- Once the combiners are ready, a writer terminates if `out_queue` is empty. -/
theorem no_ready (hs : Still σ N) (hf : Fair entries σ) {i : Fin cfg.nWriter} (hp : ((σ N).writers i).polling) (ho : (σ N).outq = [])
    (hr : (σ N).ready = true) : False := by
  let r : Writer R K V → Nat
    | .chkStop => 8
    | .gate => 7
    | .gateSet => 6
    | .gateChk => 6
    | .gateClr => 5
    | .get => 4
    | .top => 3
    | .chkEmpty => 2
    | _ => 0
  refine no_writer hs hf hp r (fun x hx => ?_) fun n hn x y b h hx => ?_
  · cases x <;> first | exact hx.elim | (simp only [r]; decide)
  · have ho' : (σ n).outq = [] := by rw [(hs.same hn).outq]; exact ho
    have hr' : (σ n).ready = true := by rw [(hs.same hn).ready]; exact hr
    cases h with
    | topRun h => rw [hr'] at h; cases h
    | nonempty h => exact absurd ho' h
    | write => exact hx.elim
    | _ => simp only [r]; omega

/-- A writer that holds the lock releases it. -/
theorem no_writing (hs : Still σ N) (hf : Fair entries σ) {i : Fin cfg.nWriter} {chunk rem} (h : (σ N).writers i = .writing chunk rem) :
    False := by
  have hinv : ∀ {n}, N ≤ n → ∃ rem, (σ n).writers i = .writing chunk rem := by
    intro n hn
    refine hs.inv (P := fun s => ∃ rem, s.writers i = .writing chunk rem) ⟨rem, h⟩ ?_ hn
    rintro n _ hq ⟨rem, hr⟩
    rcases quiet_writer hq i with h | h
    · exact ⟨rem, h.trans hr⟩
    · rw [hr] at h
      generalize (σ (n + 1)).writers i = y at h ⊢
      generalize (σ (n + 1)).shouldWait = b at h
      cases h with
      | write _ e rem' => exact ⟨rem', rfl⟩
  let r : Writer R K V → Nat
    | .writing _ rem => rem.length + 1
    | _ => 0
  have hstep : ∀ n, N ≤ n → (σ (n + 1)).writers i = (σ n).writers i ∨ r ((σ (n + 1)).writers i) < r ((σ n).writers i) := by
    intro n hn
    rcases hs n hn with h | h
    · exact .inl (by rw [h])
    · rcases quiet_writer h i with h | h
      · exact .inl h
      · right
        obtain ⟨rem, hr⟩ := hinv hn
        rw [hr] at h ⊢
        generalize (σ (n + 1)).writers i = y at h ⊢
        generalize (σ (n + 1)).shouldWait = b at h
        cases h with
        | write _ e rem' => simp only [r, List.length_cons]; omega
  obtain ⟨n, hn, h0⟩ := reach hf (.writer i) (fun s => r (s.writers i)) N
    (fun n hn => by
      rcases hstep n hn with h | h
      · rw [h]
      · exact h.le)
    (fun n hn _ => by
      obtain ⟨rem, hr⟩ := hinv hn
      cases rem with
      | nil => exact enabled_setWr hr (y := .top) (by simp) (.wRelease _ i chunk hr) (by simp [State.setWr])
      | cons e rem =>
        obtain ⟨k, vs⟩ := e
        refine enabled_setWr hr (y := .writing chunk rem) ?_ (.wWrite _ i chunk k vs rem hr) (by simp [State.setWr])
        intro he
        injection he with _ he
        have := congrArg List.length he
        simp at this)
    (fun n hn _ ha => (hstep n hn).resolve_left ha)
  obtain ⟨rem, hr⟩ := hinv hn
  rw [hr] at h0
  simp only [r] at h0
  omega

/-- A writer whose next step is always possible and never quiet. -/
theorem no_stuck (hs : Still σ N) (hf : Fair entries σ) {i : Fin cfg.nWriter} {x : Writer R K V} (h : (σ N).writers i = x)
    (hx : ∀ s y b, ¬ QW (cfg := cfg) s x y b) (he : ∀ n, N ≤ n → (σ n).writers i = x → Enabled entries (.writer i) (σ n)) : False := by
  have hstep : ∀ n, N ≤ n → (σ n).writers i = x → (σ (n + 1)).writers i = x := by
    intro n hn hw
    rcases hs n hn with h | h
    · rw [h]; exact hw
    · rcases quiet_writer h i with h | h
      · exact h.trans hw
      · rw [hw] at h; exact (hx _ _ _ h).elim
  have hinv : ∀ {n}, N ≤ n → (σ n).writers i = x := fun hn =>
    hs.inv (P := fun s => s.writers i = x) h (fun n hn _ => hstep n hn) hn
  obtain ⟨n, hn, ha⟩ := hf (.writer i) N fun n hn => he n hn (hinv hn)
  exact ha (by rw [hinv (n := n + 1) (by omega), hinv hn])

theorem no_acquire (hs : Still σ N) (hf : Fair entries σ) {i : Fin cfg.nWriter} {chunk} (h : (σ N).writers i = .acquire chunk)
    (hl : (σ N).lock = false) : False :=
  no_stuck hs hf h (fun _ _ _ h => nomatch h) fun n hn hw =>
    enabled_setWr hw (y := .writing chunk (combined entries chunk)) (by simp)
      (.wAcquire _ i chunk hw (by rw [(hs.same hn).lock]; exact hl)) (by simp [State.setWr])

theorem no_failing (hs : Still σ N) (hf : Fair entries σ) {i : Fin cfg.nWriter} {k} (hk : k ≤ 2) (h : (σ N).writers i = .failing k) :
    False := by
  refine no_stuck hs hf h (fun _ _ _ h => nomatch h) fun n hn hw => ?_
  obtain rfl | rfl | rfl : k = 0 ∨ k = 1 ∨ k = 2 := by omega
  · exact enabled_setWr hw (y := .failing 1) (by simp) (.wFail0 _ i hw) (by simp [State.setWr])
  · exact enabled_setWr hw (y := .failing 2) (by simp) (.wFail1 _ i hw) (by simp [State.setWr])
  · exact enabled_setWr hw (y := .top) (by simp) (.wFail2 _ i hw) (by simp [State.setWr])

/-! ### combiners -/

theorem no_thread (hs : Still σ N) (hf : Fair entries σ) (i : Fin cfg.nComb) : ((σ N).combs i).threads = [] := by
  by_contra hne
  refine quiet_no_thread hs hf i fun n hn => ?_
  have ht := (hs.same hn).threads i
  cases hc : ((σ N).combs i).threads with
  | nil => exact absurd hc hne
  | cons c l =>
    rw [hc] at ht
    refine ⟨_, .cThread _ i [] c l ht, ?_⟩
    simp only [Acts]
    rw [ht]
    simp [State.setC]

theorem enabled_setPc {s s' : State cfg R K V} {i : Fin cfg.nComb} {x y : CPc R} (h : (s.combs i).pc = x) (hne : y ≠ x)
    (hst : Step entries cfg s s') (hw : (s'.combs i).pc = y) : Enabled entries (.comb i) s :=
  ⟨s', hst, by simp only [Acts, hw, h]; exact hne⟩

/-- A combiner with no running threads can always continue. -/
theorem enabled_comb {s : State cfg R K V} {i : Fin cfg.nComb} (ht : (s.combs i).threads = []) (hd : (s.combs i).pc ≠ .dead) :
    Enabled entries (.comb i) s := by
  cases hw : (s.combs i).pc with
  | dead => exact absurd hw hd
  | top =>
    cases hr : s.shouldStop with
    | true => exact enabled_setPc hw (y := .chkEmpty) (by simp) (.cTopStop s i hw hr) (by simp [State.setPc, State.setC])
    | false => exact enabled_setPc hw (y := .chkStop) (by simp) (.cTopRun s i hw hr) (by simp [State.setPc, State.setC])
  | chkEmpty =>
    by_cases hq : s.queue = []
    · exact enabled_setPc hw (y := .joining) (by simp) (.cEmpty s i hw hq) (by simp [State.setPc, State.setC])
    · exact enabled_setPc hw (y := .chkStop) (by simp) (.cNonempty s i hw hq) (by simp [State.setPc, State.setC])
  | chkStop =>
    cases hr : s.stop with
    | true => exact enabled_setPc hw (y := .joining) (by simp) (.cStop s i hw hr) (by simp [State.setPc, State.setC])
    | false => exact enabled_setPc hw (y := .collect []) (by simp) (.cGo s i hw hr) (by simp [State.setPc, State.setC])
  | joining =>
    exact enabled_setPc hw (y := .dead) (by simp) (.cDead s i (by cases hc : s.combs i; simp_all)) (by simp [State.setPc, State.setC])
  | hold chunk v =>
    cases v with
    | none => exact enabled_setPc hw (y := .collect chunk) (by simp) (.cNone s i chunk hw) (by simp [State.setPc, State.setC])
    | some r =>
      cases hr : entries r with
      | none => exact enabled_setPc hw (y := .top) (by simp) (.cBroken s i chunk r hw hr) (by simp [State.setPc, State.setC])
      | some l =>
        exact enabled_setPc hw (y := .collect (chunk ++ [r])) (by simp) (.cGood s i chunk r hw (by simp [hr]))
          (by simp [State.setPc, State.setC])
  | collect chunk =>
    by_cases hq : chunk.length < cfg.chunkSize ∧ s.queue ≠ []
    · cases hqq : s.queue with
      | nil => exact absurd hqq hq.2
      | cons v q =>
        exact enabled_setPc hw (y := .hold chunk v) (by simp) (.cGet s i chunk v q hw hq.1 hqq) (by simp [State.setPc, State.setC])
    · have hq' : chunk.length < cfg.chunkSize → s.queue = [] := fun hl => by
        by_contra hne; exact hq ⟨hl, hne⟩
      by_cases hc : combined entries chunk = []
      · exact enabled_setPc hw (y := .top) (by simp) (.cNothing s i chunk hw hq' hc) (by simp [State.setPc, State.setC])
      · exact enabled_setPc hw (y := .top) (by simp) (.cSpawn s i chunk hw hq' hc) (by simp [State.setC])

/-- If the combiners are to stop, then a combiner terminates or has something to do. -/
theorem no_comb (hS : 0 < cfg.chunkSize) (hs : Still σ N) (hf : Fair entries σ) {i : Fin cfg.nComb} (hd : ((σ N).combs i).pc ≠ .dead)
    (hst : (σ N).shouldStop = true) : False := by
  classical
  have hdead : ∀ {n}, N ≤ n → ((σ n).combs i).pc ≠ .dead := by
    intro n hn
    refine hs.inv (P := fun s => (s.combs i).pc ≠ .dead) hd ?_ hn
    intro n _ hq hp
    rcases quiet_comb hq i with h | h
    · rw [h]; exact hp
    · generalize ((σ n).combs i).pc = x at h hp
      generalize ((σ (n + 1)).combs i).pc = y at h
      cases h <;> simp
  let r : CPc R → Nat := fun x => if (σ N).queue = [] then
      match x with
      | .chkStop => 6
      | .collect _ => 5
      | .top => 4
      | .chkEmpty => 3
      | .joining => 2
      | .hold _ _ => 1
      | .dead => 0
    else
      match x with
      | .top => 6
      | .chkEmpty => 5
      | .chkStop => 4
      | .collect _ => 3
      | .joining => 2
      | .hold _ _ => 1
      | .dead => 0
  have hdec : ∀ n, N ≤ n → ∀ x y, QC (σ n) x y → r y < r x := by
    intro n hn x y h
    have h1 := (hs.same hn).queue
    have h2 := (hs.same hn).shouldStop
    rw [hst] at h2
    simp only [r]
    by_cases hq : (σ N).queue = []
    · simp only [if_pos hq]
      cases h with
      | topRun h => rw [h2] at h; cases h
      | nonempty h => rw [h1] at h; exact absurd hq h
      | _ => dsimp only; omega
    · simp only [if_neg hq]
      cases h with
      | topRun h => rw [h2] at h; cases h
      | empty h => rw [h1] at h; exact absurd h hq
      | nothing h => rw [h1] at h; exact absurd (h hS) hq
      | _ => dsimp only; omega
  have hstep : ∀ n, N ≤ n → ((σ (n + 1)).combs i).pc = ((σ n).combs i).pc ∨ r ((σ (n + 1)).combs i).pc < r ((σ n).combs i).pc := by
    intro n hn
    rcases hs n hn with h | h
    · exact .inl (by rw [h])
    · rcases quiet_comb h i with h | h
      · exact .inl h
      · exact .inr (hdec n hn _ _ h)
  obtain ⟨n, hn, h0⟩ := reach hf (.comb i) (fun s => r (s.combs i).pc) N
    (fun n hn => by
      rcases hstep n hn with h | h
      · rw [h]
      · exact h.le)
    (fun n hn _ => enabled_comb (by rw [(hs.same hn).threads]; exact no_thread hs hf i) (hdead hn))
    (fun n hn _ ha => (hstep n hn).resolve_left ha)
  have hne := hdead hn
  generalize ((σ n).combs i).pc = x at h0 hne
  simp only [r] at h0
  split at h0 <;> cases x <;> first | exact hne rfl | (dsimp only at h0; omega)

/-! ### workers -/

/-- If `out_queue` is empty, then `should_wait` is eventually set forever. -/
theorem open_gate (hK : 0 < cfg.cacheSize) (hs : Still σ N) (hf : Fair entries σ) {i : Fin cfg.nWriter}
    (hp : ∀ i, (σ N).writers i = .dead ∨ ((σ N).writers i).polling) (hi : ((σ N).writers i).polling) (hr : (σ N).ready = false)
    (ho : (σ N).outq = []) : ∃ M, N ≤ M ∧ ∀ n, M ≤ n → (σ n).shouldWait = true := by
  have hlen : ∀ {n}, N ≤ n → (σ n).outq.length < cfg.cacheSize := fun hn => by
    rw [(hs.same hn).outq, ho]; exact hK
  -- every writer leaves the branch of the full cache
  let c : Writer R K V → Nat
    | .gateChk => 2
    | .gateClr => 1
    | _ => 0
  have hcstep : ∀ j, ∀ n, N ≤ n → (σ (n + 1)).writers j = (σ n).writers j ∨
      (c ((σ (n + 1)).writers j) ≤ c ((σ n).writers j) ∧ (c ((σ n).writers j) ≠ 0 → c ((σ (n + 1)).writers j) < c ((σ n).writers j))) := by
    intro j n hn
    rcases hs n hn with h | h
    · exact .inl (by rw [h])
    · rcases quiet_writer h j with h | h
      · exact .inl h
      · right
        generalize (σ n).writers j = x at h ⊢
        generalize (σ (n + 1)).writers j = y at h ⊢
        generalize (σ (n + 1)).shouldWait = b at h
        cases h with
        | high h => exact absurd (hlen hn) h
        | _ => simp [c]
  have hc0 : ∀ j, ∃ M, N ≤ M ∧ ∀ n, M ≤ n → c ((σ n).writers j) = 0 := by
    intro j
    have hmono : ∀ n, N ≤ n → c ((σ (n + 1)).writers j) ≤ c ((σ n).writers j) := fun n hn => by
      rcases hcstep j n hn with h | h
      · rw [h]
      · exact h.1
    obtain ⟨M, hM, h0⟩ := reach hf (.writer j) (fun s => c (s.writers j)) N hmono
      (fun n hn hne => by
        refine enabled_polling ?_
        generalize (σ n).writers j = x at hne
        cases x <;> first | trivial | exact absurd rfl hne)
      (fun n hn hne ha => ((hcstep j n hn).resolve_left ha).2 hne)
    refine ⟨M, hM, fun n hn => ?_⟩
    obtain ⟨k, rfl⟩ := Nat.exists_eq_add_of_le hn
    clear hn
    induction k with
    | zero => exact h0
    | succ k ih => have := hmono (M + k) (by omega); simp only [ih] at this; exact Nat.le_zero.1 this
  choose f hf1 hf2 using hc0
  -- from `M` on the event is not cleared
  obtain ⟨M, hM1, hM2⟩ : ∃ M, N ≤ M ∧ ∀ n, M ≤ n → ∀ j, c ((σ n).writers j) = 0 := by
    refine ⟨N + ∑ j, f j, by omega, fun n hn j => hf2 j n ?_⟩
    have := Finset.single_le_sum (f := f) (fun _ _ => Nat.zero_le _) (Finset.mem_univ j)
    omega
  have hkeep : ∀ n, M ≤ n → (σ n).shouldWait = true → (σ (n + 1)).shouldWait = true := by
    intro n hn h
    rcases hs n (by omega) with h' | h'
    · rw [h']; exact h
    · by_contra hne
      obtain ⟨j, hj⟩ := quiet_wait h' h (by simpa using hne)
      have := hM2 n hn j
      rw [hj] at this
      simp [c] at this
  let r : State cfg R K V → Nat := fun s => if s.shouldWait then 0 else
    match s.writers i with
    | .get => 6
    | .top => 5
    | .chkStop => 4
    | .gate => 3
    | .gateSet => 2
    | _ => 1
  have hsM := hs.mono hM1
  have hiM := polling_inv hs hi hM1
  have hstep : ∀ n, M ≤ n → (σ (n + 1)).writers i = (σ n).writers i ∧ r (σ (n + 1)) ≤ r (σ n) ∨
      r (σ (n + 1)) = 0 ∨ r (σ (n + 1)) < r (σ n) := by
    intro n hn
    rcases hs n (by omega) with h | h
    · exact .inl (by rw [h]; exact ⟨rfl, Nat.le_refl _⟩)
    · cases hb : (σ n).shouldWait with
      | true =>
        right; left
        have := hkeep n hn hb
        simp [r, this]
      | false =>
        cases hb' : (σ (n + 1)).shouldWait with
        | true => right; left; simp [r, hb']
        | false =>
          rcases quiet_writer h i with h1 | h1
          · left; refine ⟨h1, ?_⟩; simp [r, hb, hb', h1]
          · right; right
            simp only [r, hb, hb']
            have hcc := hM2 n hn i
            have hpp := polling_inv hsM hiM hn
            have hr' : (σ n).ready = false := by rw [(hs.same (n := n) (by omega)).ready]; exact hr
            have ho' : (σ n).outq = [] := by rw [(hs.same (n := n) (by omega)).outq]; exact ho
            rw [hb'] at h1
            generalize (σ n).writers i = x at h1 hcc hpp ⊢
            generalize (σ (n + 1)).writers i = y at h1 ⊢
            generalize hfb : false = fb at h1
            cases h1 with
            | topReady h => rw [hr'] at h; cases h
            | nonempty h => exact absurd ho' h
            | high h => exact absurd (hlen (n := n) (by omega)) h
            | set => cases hfb
            | chkSet => simp [c] at hcc
            | chkUnset => simp [c] at hcc
            | clear => simp [c] at hcc
            | write => exact hpp.elim
            | _ => simp [hb]
  obtain ⟨n, hn, h0⟩ := reach hf (.writer i) r M
    (fun n hn => by rcases hstep n hn with h | h | h <;> omega)
    (fun n hn _ => enabled_polling (polling_inv hsM hiM hn))
    (fun n hn hne ha => by
      rcases hstep n hn with h | h | h
      · exact absurd h.1 ha
      · omega
      · exact h)
  refine ⟨n, by omega, fun m hm => ?_⟩
  obtain ⟨k, rfl⟩ := Nat.exists_eq_add_of_le hm
  clear hm
  induction k with
  | zero =>
    by_contra hne
    simp only [r] at h0
    rw [if_neg (by simpa using hne)] at h0
    split at h0 <;> omega
  | succ k ih => exact hkeep (n + k) (by omega) ih

theorem enabled_setW {s s' : State cfg R K V} {w : Fin cfg.nWorker} {x y : Worker R} (h : s.workers w = x) (hne : y ≠ x)
    (hst : Step entries cfg s s') (hw : s'.workers w = y) : Enabled entries (.worker w) s :=
  ⟨s', hst, by simp only [Acts, hw, h]; exact hne⟩

end

/-- Every fair execution in which no process is blocked forever ends. -/
theorem fair_of_live (hW : 0 < cfg.nWriter) (hS : 0 < cfg.chunkSize) (hK : 0 < cfg.cacheSize) {σ : Nat → State cfg R K V}
    (he : Exec entries σ) (hf : Fair entries σ) (hl : ∀ n, (σ n).main ≠ .finished → Live (σ n)) : ∃ n, (σ n).main = .finished := by
  classical
  by_contra hno
  have hnf : ∀ n, (σ n).main ≠ .finished := fun n h => hno ⟨n, h⟩
  obtain ⟨N, hs⟩ := still_of_exec he
  have hL := hl N (hnf N)
  have n1 : ∀ i chunk rem, (σ N).writers i ≠ .writing chunk rem := fun i c r h => no_writing hs hf h
  have n2 : ∀ i n, (σ N).writers i ≠ .failing n := fun i n h => no_failing hs hf (hL.fail i n h) h
  have hlk : (σ N).lock = false := by
    cases hl : (σ N).lock with
    | false => rfl
    | true =>
      obtain ⟨i, ⟨c, r, h⟩ | ⟨n, h⟩⟩ := hL.lock hl
      · exact absurd h (n1 i c r)
      · exact absurd h (n2 i n)
  have n3 : ∀ i chunk, (σ N).writers i ≠ .acquire chunk := fun i c h => no_acquire hs hf h hlk
  have hpoll : ∀ i, (σ N).writers i = .dead ∨ ((σ N).writers i).polling := by
    intro i
    cases hw : (σ N).writers i with
    | acquire c => exact absurd hw (n3 i c)
    | writing c r => exact absurd hw (n1 i c r)
    | failing n => exact absurd hw (n2 i n)
    | dead => exact .inl rfl
    | _ => exact .inr trivial
  have n5 : ∀ w t, (σ N).workers w ≠ .exec t := fun w t h =>
    quiet_no_worker hs hf w fun n hn => by
      have hw : (σ n).workers w = .exec t := by rw [(hs.same hn).workers]; exact h
      exact enabled_setW hw (y := .idle) (by simp) (.finish _ w t hw) (by simp [State.setW])
  have n6 : ∀ w t, (σ N).workers w ≠ .waiting t := by
    intro w t h
    obtain ⟨h1, h2, h3⟩ := hL.waiting w t h
    have hp := (hpoll ⟨0, hW⟩).resolve_left (h3 _)
    have ho : (σ N).outq = [] := by
      by_contra ho; exact no_outq hs hf hp ho
    obtain ⟨M, hM, hM2⟩ := open_gate hK hs hf hpoll hp h2 ho
    refine quiet_no_worker (hs.mono hM) hf w fun n hn => ?_
    have hw : (σ n).workers w = .waiting t := by rw [(hs.same (n := n) (by omega)).workers]; exact h
    exact enabled_setW hw (y := .exec t) (by simp) (.pass _ w t hw (hM2 n hn)) (by simp [State.setW])
  have n7 : ∀ w, (σ N).workers w = .idle := by
    intro w
    cases hw : (σ N).workers w with
    | idle => rfl
    | waiting t => exact absurd hw (n6 w t)
    | exec t => exact absurd hw (n5 w t)
  have n8 : (σ N).pending = [] := by
    by_contra hp
    have h0 := hL.pending hp
    cases hpe : (σ N).pending with
    | nil => exact hp hpe
    | cons t l =>
      refine quiet_no_worker hs hf ⟨0, h0⟩ fun n hn => ?_
      have hw : (σ n).workers ⟨0, h0⟩ = .idle := by rw [(hs.same hn).workers]; exact n7 _
      have hpp : (σ n).pending = [] ++ t :: l := by rw [(hs.same hn).pending]; exact hpe
      exact enabled_setW hw (y := .waiting t) (by simp) (.start _ _ [] t l hw hpp) (by simp [State.setW])
  cases hm : (σ N).main with
  | finished => exact hnf N hm
  | pool =>
    refine quiet_no_main hs hf fun n hn => ?_
    have hm' : (σ n).main = .pool := by rw [(hs.same hn).main]; exact hm
    refine ⟨_, .mStop (σ n) hm' ?_ ?_, ?_⟩
    · rw [(hs.same hn).pending]; exact n8
    · rw [(hs.same hn).workers]; exact n7
    · simp only [Acts, hm']; decide
  | joinC =>
    have hd : ∀ i, ((σ N).combs i).pc = .dead := by
      intro i
      by_contra hd
      exact no_comb hS hs hf hd (hL.joinC hm)
    have hdn : ∀ {n}, N ≤ n → ∀ i, ((σ n).combs i).pc = .dead := by
      intro n hn i
      refine hs.inv (P := fun s => (s.combs i).pc = .dead) (hd i) ?_ hn
      intro n _ hq hp
      rcases quiet_comb hq i with h | h
      · exact h.trans hp
      · rw [hp] at h; exact nomatch h
    refine quiet_no_main hs hf fun n hn => ?_
    have hm' : (σ n).main = .joinC := by rw [(hs.same hn).main]; exact hm
    exact ⟨_, .mReady (σ n) hm' (hdn hn), by simp only [Acts, hm']; decide⟩
  | joinW =>
    have hd : ∀ i, (σ N).writers i = .dead := by
      intro i
      rcases hpoll i with hd | hp
      · exact hd
      · exfalso
        by_cases ho : (σ N).outq = []
        · exact no_ready hs hf hp ho (hL.joinW hm)
        · exact no_outq hs hf hp ho
    have hdn : ∀ {n}, N ≤ n → ∀ i, (σ n).writers i = .dead := by
      intro n hn i
      refine hs.inv (P := fun s => s.writers i = .dead) (hd i) ?_ hn
      intro n _ hq hp
      rcases quiet_writer hq i with h | h
      · exact h.trans hp
      · rw [hp] at h; exact nomatch h
    refine quiet_no_main hs hf fun n hn => ?_
    have hm' : (σ n).main = .joinW := by rw [(hs.same hn).main]; exact hm
    exact ⟨_, .mEnd (σ n) hm' (hdn hn), by simp only [Acts, hm']; decide⟩

end RT1.Pipeline
