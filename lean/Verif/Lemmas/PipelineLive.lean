import Verif.Lemmas.Pipeline

/-!
# Progress of the processing pipeline

`mu` measures the remaining work.  From every state without blocked workers some run decreases it.
-/

namespace RT1.Pipeline
open Function

set_option linter.unusedSectionVars false

variable {R K V : Type} [DecidableEq K] {entries : R → Option (List (K × V))} {cfg : Cfg}

def muPc : CPc R → Nat
  | .collect c => 5 * (c.length + 1) + 1
  | .hold c _ => 5 * (c.length + 1) + 7
  | .dead => 0
  | _ => 1

def muC (c : Comb R) : Nat := muPc c.pc + wl (fun ch => 4 * (ch.length + 1)) c.threads

def muW : Worker R → Nat
  | .idle => 0
  | .waiting _ => 14
  | .exec _ => 13

def muWr : Writer R K V → Nat
  | .acquire c => 2 * (c.length + 1) + 1
  | .writing c _ => c.length + 2
  | .failing n => (3 - n) + 1
  | .dead => 0
  | _ => 1

def muM : Main → Nat
  | .pool => 3
  | .joinC => 2
  | .joinW => 1
  | .finished => 0

/-- The remaining work. -/
def mu (s : State cfg R K V) : Nat :=
  15 * s.pending.length + ∑ w, muW (s.workers w) + 12 * s.queue.length + ∑ i, muC (s.combs i) +
    wl (fun ch => 3 * (ch.length + 1)) s.outq + ∑ i, muWr (s.writers i) + muM s.main

theorem mu_setW (s : State cfg R K V) (w : Fin cfg.nWorker) (x : Worker R) : mu (s.setW w x) + muW (s.workers w) = mu s + muW x := by
  have := sum_upd muW s.workers w x
  simp only [mu, State.setW]
  omega

theorem mu_setC (s : State cfg R K V) (i : Fin cfg.nComb) (x : Comb R) : mu (s.setC i x) + muC (s.combs i) = mu s + muC x := by
  have := sum_upd muC s.combs i x
  simp only [mu, State.setC]
  omega

theorem mu_setPc (s : State cfg R K V) (i : Fin cfg.nComb) (x : CPc R) :
    mu (s.setPc i x) + muPc (s.combs i).pc = mu s + muPc x := by
  have := mu_setC s i ⟨x, (s.combs i).threads⟩
  simp only [State.setPc, muC] at this ⊢
  omega

theorem mu_setWr (s : State cfg R K V) (i : Fin cfg.nWriter) (x : Writer R K V) :
    mu (s.setWr i x) + muWr (s.writers i) = mu s + muWr x := by
  have := sum_upd muWr s.writers i x
  simp only [mu, State.setWr]
  omega

/-- Some run decreases the remaining work. -/
def Prog (entries : R → Option (List (K × V))) (s : State cfg R K V) : Prop := ∃ s', Run entries cfg s s' ∧ mu s' < mu s

theorem Prog.step {s s' : State cfg R K V} (h : Step entries cfg s s') (hm : mu s' < mu s) : Prog entries s :=
  ⟨s', .single h, hm⟩

/-- A step that does not increase the work, followed by progress. -/
theorem Prog.head {s s' : State cfg R K V} (h : Step entries cfg s s') (hm : mu s' ≤ mu s) (hp : Prog entries s') :
    Prog entries s := by
  obtain ⟨s'', h1, h2⟩ := hp
  exact ⟨s'', .head h h1, by omega⟩

theorem Prog.run {s s' : State cfg R K V} (h : Run entries cfg s s') (hm : mu s' ≤ mu s) (hp : Prog entries s') :
    Prog entries s := by
  obtain ⟨s'', h1, h2⟩ := hp
  exact ⟨s'', h.trans h1, by omega⟩

/-! ## writers -/

theorem prog_writing {s : State cfg R K V} {i : Fin cfg.nWriter} {chunk rem} (h : s.writers i = .writing chunk rem) :
    Prog entries s := by
  induction rem generalizing s with
  | nil =>
    refine .step (.wRelease s i chunk h) ?_
    have := mu_setWr { s with lock := false, done := s.done ++ chunk } i .top
    simp only [h, muWr] at this
    have e : mu { s with lock := false, done := s.done ++ chunk } = mu s := rfl
    omega
  | cons e rem ih =>
    obtain ⟨k, vs⟩ := e
    refine .head (.wWrite s i chunk k vs rem h) ?_ (ih (s := { s with store := appendTable s.store k vs }.setWr i (.writing chunk rem))
      (by simp [State.setWr]))
    have := mu_setWr { s with store := appendTable s.store k vs } i (.writing chunk rem)
    simp only [h, muWr] at this
    exact Nat.le_of_eq (Nat.add_right_cancel this)

theorem prog_failing {s : State cfg R K V} {i : Fin cfg.nWriter} {n} (hn : n ≤ 2) (h : s.writers i = .failing n) : Prog entries s := by
  obtain rfl | rfl | rfl : n = 0 ∨ n = 1 ∨ n = 2 := by omega
  · refine .step (.wFail0 s i h) ?_
    have := mu_setWr { s with stop := true } i (.failing 1)
    simp only [h, muWr] at this
    have e : mu { s with stop := true } = mu s := rfl
    omega
  · refine .step (.wFail1 s i h) ?_
    have := mu_setWr { s with shouldWait := false } i (.failing 2)
    simp only [h, muWr] at this
    have e : mu { s with shouldWait := false } = mu s := rfl
    omega
  · refine .step (.wFail2 s i h) ?_
    have := mu_setWr { s with lock := false } i .top
    simp only [h, muWr] at this
    have e : mu { s with lock := false } = mu s := rfl
    omega

theorem prog_acquire {s : State cfg R K V} {i : Fin cfg.nWriter} {chunk} (h : s.writers i = .acquire chunk) (hl : s.lock = false) :
    Prog entries s := by
  refine .step (.wAcquire s i chunk h hl) ?_
  have := mu_setWr { s with lock := true } i (.writing chunk (combined entries chunk))
  simp only [h, muWr] at this
  have e : mu { s with lock := true } = mu s := rfl
  omega

/-- A writer that is between two writes. -/
def Writer.polling : Writer R K V → Prop
  | .acquire _ => False
  | .writing _ _ => False
  | .failing _ => False
  | .dead => False
  | _ => True

theorem mu_poll {s : State cfg R K V} {i : Fin cfg.nWriter} (h : (s.writers i).polling) {x : Writer R K V} (hx : x.polling) (b : Bool) :
    mu ({ s with shouldWait := b }.setWr i x) = mu s := by
  have := mu_setWr { s with shouldWait := b } i x
  have e : mu { s with shouldWait := b } = mu s := rfl
  have e1 : muWr (s.writers i) = 1 := by
    cases hw : s.writers i <;> first | rfl | (rw [hw] at h; exact h.elim)
  have e2 : muWr x = 1 := by
    cases x <;> first | rfl | exact h.elim | exact hx.elim
  have e3 : ({ s with shouldWait := b } : State cfg R K V).writers i = s.writers i := rfl
  rw [e3, e1, e2] at this
  omega

theorem mu_dead {s : State cfg R K V} {i : Fin cfg.nWriter} (h : (s.writers i).polling) : mu (s.setWr i .dead) < mu s := by
  have := mu_setWr s i .dead
  have e1 : muWr (s.writers i) = 1 := by
    cases hw : s.writers i <;> first | rfl | (rw [hw] at h; exact h.elim)
  have e2 : muWr (.dead : Writer R K V) = 0 := rfl
  omega

/-- A writer either terminates or arrives at `out_queue.get`. -/
def AtGet (entries : R → Option (List (K × V))) (s : State cfg R K V) (i : Fin cfg.nWriter) : Prop :=
  ∃ b, Run entries cfg s ({ s with shouldWait := b }.setWr i .get)

theorem setWr_setWr (s : State cfg R K V) (i : Fin cfg.nWriter) (x y : Writer R K V) : (s.setWr i x).setWr i y = s.setWr i y := by
  simp [State.setWr]

theorem atGet_step {s : State cfg R K V} {i : Fin cfg.nWriter} {x : Writer R K V} {b : Bool}
    (h : Step entries cfg s ({ s with shouldWait := b }.setWr i x))
    (hg : AtGet entries ({ s with shouldWait := b }.setWr i x) i) : AtGet entries s i := by
  obtain ⟨b', hb⟩ := hg
  refine ⟨b', .head h ?_⟩
  have : ({ { s with shouldWait := b }.setWr i x with shouldWait := b' } : State cfg R K V).setWr i .get =
      { s with shouldWait := b' }.setWr i .get := by simp [State.setWr]
  rw [← this]; exact hb

theorem poll_gate {s : State cfg R K V} {i : Fin cfg.nWriter} (h : s.writers i = .gate ∨ s.writers i = .gateSet ∨
    s.writers i = .gateChk ∨ s.writers i = .gateClr ∨ s.writers i = .get) : AtGet entries s i := by
  have hget : ∀ {s : State cfg R K V}, s.writers i = .get → AtGet entries s i := by
    intro s h
    refine ⟨s.shouldWait, ?_⟩
    have : ({ s with shouldWait := s.shouldWait } : State cfg R K V).setWr i .get = s := by
      simp only [State.setWr]; rw [← h, update_eq_self]
    rw [this]
  have hset : ∀ {s : State cfg R K V}, s.writers i = .gateSet → AtGet entries s i := fun h =>
    atGet_step (b := true) (.wSet _ i h) (hget (by simp [State.setWr]))
  have hclr : ∀ {s : State cfg R K V}, s.writers i = .gateClr → AtGet entries s i := fun h =>
    atGet_step (b := false) (.wClear _ i h) (hget (by simp [State.setWr]))
  have hchk : ∀ {s : State cfg R K V}, s.writers i = .gateChk → AtGet entries s i := by
    intro s h
    cases hb : s.shouldWait with
    | true => exact atGet_step (b := s.shouldWait) (.wChkSet _ i h hb) (hclr (by simp [State.setWr]))
    | false => exact atGet_step (b := s.shouldWait) (.wChkUnset _ i h hb) (hget (by simp [State.setWr]))
  rcases h with h | h | h | h | h
  · by_cases hl : s.outq.length < cfg.cacheSize
    · exact atGet_step (b := s.shouldWait) (.wLow _ i h hl) (hset (by simp [State.setWr]))
    · exact atGet_step (b := s.shouldWait) (.wHigh _ i h hl) (hchk (by simp [State.setWr]))
  · exact hset h
  · exact hchk h
  · exact hclr h
  · exact hget h

theorem poll_chkStop {s : State cfg R K V} {i : Fin cfg.nWriter} (h : s.writers i = .chkStop) :
    Prog entries s ∨ AtGet entries s i := by
  cases hs : s.stop with
  | true => exact .inl (.step (.wStop s i h hs) (mu_dead (by rw [h]; trivial)))
  | false => exact .inr (atGet_step (b := s.shouldWait) (.wGo _ i h hs) (poll_gate (by simp [State.setWr])))

/-- `Prog` of the state after a polling step. -/
theorem prog_poll {s : State cfg R K V} {i : Fin cfg.nWriter} {x : Writer R K V} (h : (s.writers i).polling) (hx : x.polling)
    (hs : Step entries cfg s (s.setWr i x)) (hp : Prog entries (s.setWr i x)) : Prog entries s :=
  .head hs (Nat.le_of_eq (mu_poll h hx s.shouldWait)) hp

theorem poll_chkEmpty {s : State cfg R K V} {i : Fin cfg.nWriter} (h : s.writers i = .chkEmpty) :
    Prog entries s ∨ AtGet entries s i := by
  by_cases hq : s.outq = []
  · exact .inl (.step (.wEmpty s i h hq) (mu_dead (by rw [h]; trivial)))
  · rcases poll_chkStop (entries := entries) (s := s.setWr i .chkStop) (i := i) (by simp [State.setWr]) with hp | hp
    · exact .inl (prog_poll (x := .chkStop) (by rw [h]; trivial) trivial (.wNonempty s i h hq) hp)
    · exact .inr (atGet_step (b := s.shouldWait) (.wNonempty s i h hq) hp)

theorem poll {s : State cfg R K V} {i : Fin cfg.nWriter} (h : (s.writers i).polling) : Prog entries s ∨ AtGet entries s i := by
  cases hw : s.writers i with
  | acquire | writing | failing | dead => rw [hw] at h; exact h.elim
  | gate => exact .inr (poll_gate (.inl hw))
  | gateSet => exact .inr (poll_gate (.inr (.inl hw)))
  | gateChk => exact .inr (poll_gate (.inr (.inr (.inl hw))))
  | gateClr => exact .inr (poll_gate (.inr (.inr (.inr (.inl hw)))))
  | get => exact .inr (poll_gate (.inr (.inr (.inr (.inr hw)))))
  | chkStop => exact poll_chkStop hw
  | chkEmpty => exact poll_chkEmpty hw
  | top =>
    cases hr : s.ready with
    | true =>
      rcases poll_chkEmpty (entries := entries) (s := s.setWr i .chkEmpty) (i := i) (by simp [State.setWr]) with hp | hp
      · exact .inl (prog_poll (x := .chkEmpty) h trivial (.wTopReady s i hw hr) hp)
      · exact .inr (atGet_step (b := s.shouldWait) (.wTopReady s i hw hr) hp)
    | false =>
      rcases poll_chkStop (entries := entries) (s := s.setWr i .chkStop) (i := i) (by simp [State.setWr]) with hp | hp
      · exact .inl (prog_poll (x := .chkStop) h trivial (.wTopRun s i hw hr) hp)
      · exact .inr (atGet_step (b := s.shouldWait) (.wTopRun s i hw hr) hp)

theorem prog_get {s : State cfg R K V} {i : Fin cfg.nWriter} (h : s.writers i = .get) (hq : s.outq ≠ []) : Prog entries s := by
  cases ho : s.outq with
  | nil => exact absurd ho hq
  | cons c q =>
    refine .step (.wGet s i c q h ho) ?_
    have := mu_setWr { s with outq := q } i (.acquire c)
    simp only [h, muWr] at this
    have e : mu s = mu { s with outq := q } + 3 * (c.length + 1) := by simp only [mu, ho, wl_cons]; omega
    omega

theorem prog_atGet {s : State cfg R K V} {i : Fin cfg.nWriter} (h : (s.writers i).polling)
    (hp : ∀ b, Prog entries ({ s with shouldWait := b }.setWr i .get)) : Prog entries s := by
  rcases poll (entries := entries) h with h' | ⟨b, hb⟩
  · exact h'
  · exact .run hb (Nat.le_of_eq (mu_poll (x := .get) h trivial b)) (hp b)

/-- The writers take chunks from a nonempty `out_queue`. -/
theorem prog_outq {s : State cfg R K V} {i : Fin cfg.nWriter} (h : (s.writers i).polling) (hq : s.outq ≠ []) : Prog entries s :=
  prog_atGet h fun b => prog_get (i := i) (by simp [State.setWr]) hq

/-- Once the combiners are ready, a writer terminates or takes another chunk. -/
theorem prog_ready {s : State cfg R K V} {i : Fin cfg.nWriter} (h : (s.writers i).polling) (hr : s.ready = true) : Prog entries s := by
  by_cases hq : s.outq = []
  · refine prog_atGet h fun b => ?_
    refine prog_poll (i := i) (x := .top) (by simp [State.setWr, Writer.polling]) trivial
      (.wTimeout _ i (by simp [State.setWr]) hq) ?_
    refine prog_poll (i := i) (x := .chkEmpty) (by simp [State.setWr, Writer.polling]) trivial
      (.wTopReady _ i (by simp [State.setWr]) hr) ?_
    exact .step (.wEmpty _ i (by simp [State.setWr]) hq) (mu_dead (by simp [State.setWr, Writer.polling]))
  · exact prog_outq h hq

/-! ## combiners -/

theorem prog_hold {s : State cfg R K V} {i : Fin cfg.nComb} {chunk v} (h : (s.combs i).pc = .hold chunk v) : Prog entries s := by
  cases v with
  | none =>
    refine .step (.cNone s i chunk h) ?_
    have := mu_setPc { s with tot := s.tot + 1 } i (.collect chunk)
    simp only [h, muPc] at this
    have e : mu { s with tot := s.tot + 1 } = mu s := rfl
    omega
  | some r =>
    cases hr : entries r with
    | none =>
      refine .step (.cBroken s i chunk r h hr) ?_
      have := mu_setPc { s with lost := s.lost ++ chunk ++ [r], bad := s.bad + 1 } i .top
      simp only [h, muPc] at this
      have e : mu { s with lost := s.lost ++ chunk ++ [r], bad := s.bad + 1 } = mu s := rfl
      omega
    | some l =>
      refine .step (.cGood s i chunk r h (by simp [hr])) ?_
      have := mu_setPc { s with tot := s.tot + 1, succ := s.succ + 1 } i (.collect (chunk ++ [r]))
      simp only [h, muPc, List.length_append, List.length_cons, List.length_nil] at this
      have e : mu { s with tot := s.tot + 1, succ := s.succ + 1 } = mu s := rfl
      omega

theorem prog_thread {s : State cfg R K V} {i : Fin cfg.nComb} (h : (s.combs i).threads ≠ []) : Prog entries s := by
  cases ht : (s.combs i).threads with
  | nil => exact absurd ht h
  | cons c l =>
    refine .step (.cThread s i [] c l ht) ?_
    have := mu_setC { s with outq := s.outq ++ [c] } i ⟨(s.combs i).pc, [] ++ l⟩
    simp only [muC, ht, wl_cons, List.nil_append] at this
    have e : mu { s with outq := s.outq ++ [c] } = mu s + 3 * (c.length + 1) := by
      simp only [mu, wl_append, wl_cons, wl_nil]; omega
    simp only [List.nil_append]
    omega

theorem prog_cGet {s : State cfg R K V} {i : Fin cfg.nComb} {chunk v q} (h : (s.combs i).pc = .collect chunk)
    (hq : s.queue = v :: q) : mu ({ s with queue := q }.setPc i (.hold chunk v)) + 6 = mu s := by
  have := mu_setPc { s with queue := q } i (.hold chunk v)
  simp only [h, muPc] at this
  have e : mu s = mu { s with queue := q } + 12 := by
    simp only [mu, hq, List.length_cons]; omega
  omega

theorem prog_collect {s : State cfg R K V} {i : Fin cfg.nComb} {chunk} (h : (s.combs i).pc = .collect chunk) : Prog entries s := by
  by_cases hq : chunk.length < cfg.chunkSize ∧ s.queue ≠ []
  · cases hqq : s.queue with
    | nil => exact absurd hqq hq.2
    | cons v q =>
      refine .step (.cGet s i chunk v q h hq.1 hqq) ?_
      have := prog_cGet h hqq
      omega
  · have hq' : chunk.length < cfg.chunkSize → s.queue = [] := fun hl => by
      by_contra hne; exact hq ⟨hl, hne⟩
    by_cases hc : combined entries chunk = []
    · refine .step (.cNothing s i chunk h hq' hc) ?_
      have := mu_setPc { s with done := s.done ++ chunk } i .top
      simp only [h, muPc] at this
      have e : mu { s with done := s.done ++ chunk } = mu s := rfl
      omega
    · refine .step (.cSpawn s i chunk h hq' hc) ?_
      have := mu_setC s i ⟨.top, (s.combs i).threads ++ [chunk]⟩
      simp only [muC, h, muPc, wl_append, wl_cons, wl_nil] at this
      omega

/-- A combiner that is between two chunks. -/
def CPc.polling : CPc R → Prop
  | .top => True
  | .chkEmpty => True
  | .chkStop => True
  | .joining => True
  | _ => False

theorem mu_pcPoll {s : State cfg R K V} {i : Fin cfg.nComb} (h : (s.combs i).pc.polling) {x : CPc R} (hx : x.polling) :
    mu (s.setPc i x) = mu s := by
  have := mu_setPc s i x
  have e1 : muPc (s.combs i).pc = 1 := by
    cases hw : (s.combs i).pc <;> first | rfl | (rw [hw] at h; exact h.elim)
  have e2 : muPc x = 1 := by cases x <;> first | rfl | exact hx.elim
  omega

theorem prog_pc {s : State cfg R K V} {i : Fin cfg.nComb} {x : CPc R} (h : (s.combs i).pc.polling) (hx : x.polling)
    (hs : Step entries cfg s (s.setPc i x)) (hp : Prog entries (s.setPc i x)) : Prog entries s :=
  .head hs (Nat.le_of_eq (mu_pcPoll h hx)) hp

theorem prog_joining {s : State cfg R K V} {i : Fin cfg.nComb} (h : (s.combs i).pc = .joining) (ht : (s.combs i).threads = []) :
    Prog entries s := by
  refine .step (.cDead s i (by cases hc : s.combs i; simp_all)) ?_
  have := mu_setPc s i .dead
  simp only [h, muPc] at this
  omega

/-- A combiner that is to stop or has something to do makes progress. -/
theorem prog_comb (hS : 0 < cfg.chunkSize) {s : State cfg R K V} {i : Fin cfg.nComb} (h : (s.combs i).pc.polling)
    (ht : (s.combs i).threads = []) (hq : s.shouldStop = true ∨ s.queue ≠ []) : Prog entries s := by
  have hE : ∀ {s : State cfg R K V}, (s.combs i).pc = .chkEmpty → (s.combs i).threads = [] → s.queue = [] → Prog entries s := by
    intro s h ht hq
    exact prog_pc (i := i) (x := .joining) (by rw [h]; trivial) trivial (.cEmpty s i h hq)
      (prog_joining (i := i) (by simp [State.setPc, State.setC]) (by simpa [State.setPc, State.setC] using ht))
  have hT : ∀ {s : State cfg R K V}, (s.combs i).pc = .top → (s.combs i).threads = [] → s.queue = [] → s.shouldStop = true →
      Prog entries s := by
    intro s h ht hq hs
    exact prog_pc (i := i) (x := .chkEmpty) (by rw [h]; trivial) trivial (.cTopStop s i h hs)
      (hE (by simp [State.setPc, State.setC]) (by simpa [State.setPc, State.setC] using ht) hq)
  have hS' : ∀ {s : State cfg R K V}, (s.combs i).pc = .chkStop → (s.combs i).threads = [] → (s.shouldStop = true ∨ s.queue ≠ []) →
      Prog entries s := by
    intro s h ht hq
    cases hs : s.stop with
    | true =>
      exact prog_pc (i := i) (x := .joining) (by rw [h]; trivial) trivial (.cStop s i h hs)
        (prog_joining (i := i) (by simp [State.setPc, State.setC]) (by simpa [State.setPc, State.setC] using ht))
    | false =>
      have hm := mu_setPc s i (.collect [])
      simp only [h, muPc, List.length_nil] at hm
      have hpc : ((s.setPc i (.collect [])).combs i).pc = .collect [] := by simp [State.setPc, State.setC]
      have hth : ((s.setPc i (.collect [])).combs i).threads = [] := by simpa [State.setPc, State.setC] using ht
      have hq1 : (s.setPc i (.collect [])).queue = s.queue := rfl
      have hss : (s.setPc i (.collect [])).shouldStop = s.shouldStop := rfl
      have hstep := Step.cGo (entries := entries) s i h hs
      generalize s.setPc i (.collect []) = s1 at hm hpc hth hq1 hss hstep
      cases hqq : s.queue with
      | nil =>
        rw [hqq] at hq1
        have hstop := hq.resolve_right (by simp [hqq])
        have e := mu_setPc { s1 with done := s1.done ++ [] } i .top
        simp only [hpc, muPc, List.length_nil] at e
        have e' : mu { s1 with done := s1.done ++ [] } = mu s1 := rfl
        refine .run (.head hstep (.single (.cNothing s1 i [] hpc (fun _ => hq1) rfl))) (by omega)
          (hT (by simp [State.setPc, State.setC]) (by simpa [State.setPc, State.setC] using hth) hq1 (hss.trans hstop))
      | cons v q =>
        rw [hqq] at hq1
        have e := prog_cGet (v := v) hpc hq1
        exact ⟨_, .head hstep (.single (.cGet s1 i [] v q hpc hS hq1)), by omega⟩
  have hE' : ∀ {s : State cfg R K V}, (s.combs i).pc = .chkEmpty → (s.combs i).threads = [] → (s.shouldStop = true ∨ s.queue ≠ []) →
      Prog entries s := by
    intro s h ht hq
    by_cases hqq : s.queue = []
    · exact hE h ht hqq
    · exact prog_pc (i := i) (x := .chkStop) (by rw [h]; trivial) trivial (.cNonempty s i h hqq)
        (hS' (by simp [State.setPc, State.setC]) (by simpa [State.setPc, State.setC] using ht) hq)
  cases hpc : (s.combs i).pc with
  | collect | hold | dead => rw [hpc] at h; exact h.elim
  | joining => exact prog_joining hpc ht
  | chkStop => exact hS' hpc ht hq
  | chkEmpty => exact hE' hpc ht hq
  | top =>
    cases hs : s.shouldStop with
    | true =>
      exact prog_pc (i := i) (x := .chkEmpty) h trivial (.cTopStop s i hpc hs)
        (hE' (by simp [State.setPc, State.setC]) (by simpa [State.setPc, State.setC] using ht) hq)
    | false =>
      exact prog_pc (i := i) (x := .chkStop) h trivial (.cTopRun s i hpc hs)
        (hS' (by simp [State.setPc, State.setC]) (by simpa [State.setPc, State.setC] using ht) hq)

/-! ## workers -/

theorem prog_exec {s : State cfg R K V} {w : Fin cfg.nWorker} {t} (h : s.workers w = .exec t) : Prog entries s := by
  refine .step (.finish s w t h) ?_
  have := mu_setW { s with queue := s.queue ++ t.put } w .idle
  simp only [h, muW] at this
  have e : mu { s with queue := s.queue ++ t.put } = mu s + 12 * t.put.length := by
    simp only [mu, List.length_append]; omega
  have : t.put.length ≤ 1 := by cases t <;> simp [Outcome.put]
  omega

theorem prog_pass {s : State cfg R K V} {w : Fin cfg.nWorker} {t} (h : s.workers w = .waiting t) (hs : s.shouldWait = true) :
    Prog entries s := by
  refine .step (.pass s w t h hs) ?_
  have := mu_setW s w (.exec t)
  simp only [h, muW] at this
  omega

/-- A waiting worker continues after some writer has found space in the cache. -/
theorem prog_waiting (hK : 0 < cfg.cacheSize) {s : State cfg R K V} {w : Fin cfg.nWorker} {t} (h : s.workers w = .waiting t)
    {i : Fin cfg.nWriter} (hi : (s.writers i).polling) (hr : s.ready = false) (hs : s.stop = false) (ho : s.outq = []) :
    Prog entries s := by
  refine prog_atGet hi fun b => ?_
  refine prog_poll (i := i) (x := .top) (by simp [State.setWr, Writer.polling]) trivial (.wTimeout _ i (by simp [State.setWr]) ho) ?_
  refine prog_poll (i := i) (x := .chkStop) (by simp [State.setWr, Writer.polling]) trivial (.wTopRun _ i (by simp [State.setWr]) hr) ?_
  refine prog_poll (i := i) (x := .gate) (by simp [State.setWr, Writer.polling]) trivial (.wGo _ i (by simp [State.setWr]) hs) ?_
  refine prog_poll (i := i) (x := .gateSet) (by simp [State.setWr, Writer.polling]) trivial
    (.wLow _ i (by simp [State.setWr]) (by simpa [State.setWr, ho] using hK)) ?_
  refine .head (.wSet _ i (by simp [State.setWr]))
    (Nat.le_of_eq (mu_poll (x := .get) (by simp [State.setWr, Writer.polling]) trivial true)) ?_
  exact prog_pass (w := w) (t := t) (by simpa [State.setWr] using h) rfl

/-! ## everything -/

/-- States in which no process is blocked forever. -/
structure Live (s : State cfg R K V) : Prop where
  lock : s.lock = true → ∃ i, (∃ chunk rem, s.writers i = .writing chunk rem) ∨ ∃ n, s.writers i = .failing n
  fail : ∀ i n, s.writers i = .failing n → n ≤ 2
  joinC : s.main = .joinC → s.shouldStop = true
  joinW : s.main = .joinW → s.ready = true
  waiting : ∀ w t, s.workers w = .waiting t → s.stop = false ∧ s.ready = false ∧ ∀ i, s.writers i ≠ .dead
  pending : s.pending ≠ [] → 0 < cfg.nWorker

theorem progress (hW : 0 < cfg.nWriter) (hS : 0 < cfg.chunkSize) (hK : 0 < cfg.cacheSize) {s : State cfg R K V} (hs : Live s)
    (hf : s.main ≠ .finished) : Prog entries s := by
  classical
  by_contra hno
  have n1 : ∀ i chunk rem, s.writers i ≠ .writing chunk rem := fun i c r h => hno (prog_writing h)
  have n2 : ∀ i n, s.writers i ≠ .failing n := fun i n h => hno (prog_failing (hs.fail i n h) h)
  have hl : s.lock = false := by
    cases hl : s.lock with
    | false => rfl
    | true =>
      obtain ⟨i, ⟨c, r, h⟩ | ⟨n, h⟩⟩ := hs.lock hl
      · exact absurd h (n1 i c r)
      · exact absurd h (n2 i n)
  have n3 : ∀ i chunk, s.writers i ≠ .acquire chunk := fun i c h => hno (prog_acquire h hl)
  have hpoll : ∀ i, s.writers i ≠ .dead → (s.writers i).polling := by
    intro i h
    cases hw : s.writers i with
    | acquire c => exact absurd hw (n3 i c)
    | writing c r => exact absurd hw (n1 i c r)
    | failing n => exact absurd hw (n2 i n)
    | dead => exact absurd hw h
    | _ => trivial
  have n4 : ∀ i, (s.combs i).threads = [] := fun i => by
    by_contra h; exact hno (prog_thread h)
  have hcpoll : ∀ i, (s.combs i).pc ≠ .dead → (s.combs i).pc.polling := by
    intro i h
    cases hw : (s.combs i).pc with
    | collect c => exact absurd (prog_collect hw) hno
    | hold c v => exact absurd (prog_hold hw) hno
    | dead => exact absurd hw h
    | _ => trivial
  have n5 : ∀ w t, s.workers w ≠ .exec t := fun w t h => hno (prog_exec h)
  have n6 : ∀ w t, s.workers w ≠ .waiting t := by
    intro w t h
    obtain ⟨h1, h2, h3⟩ := hs.waiting w t h
    have hp := hpoll ⟨0, hW⟩ (h3 _)
    have ho : s.outq = [] := by
      by_contra ho; exact hno (prog_outq hp ho)
    exact hno (prog_waiting hK h hp h2 h1 ho)
  have n7 : ∀ w, s.workers w = .idle := by
    intro w
    cases hw : s.workers w with
    | idle => rfl
    | waiting t => exact absurd hw (n6 w t)
    | exec t => exact absurd hw (n5 w t)
  have n8 : s.pending = [] := by
    by_contra hp
    have h0 := hs.pending hp
    cases hpe : s.pending with
    | nil => exact hp hpe
    | cons t l =>
      refine hno (.step (.start s ⟨0, h0⟩ [] t l (n7 _) hpe) ?_)
      have := mu_setW { s with pending := [] ++ l } ⟨0, h0⟩ (.waiting t)
      have e : muW (({ s with pending := [] ++ l } : State cfg R K V).workers ⟨0, h0⟩) = 0 := by
        show muW (s.workers ⟨0, h0⟩) = 0
        rw [n7]; rfl
      have e2 : muW (.waiting t) = 14 := rfl
      have e3 : mu s = mu { s with pending := [] ++ l } + 15 := by
        simp only [mu, hpe, List.nil_append, List.length_cons]; omega
      omega
  cases hm : s.main with
  | finished => exact hf hm
  | pool =>
    refine hno (.step (.mStop s hm n8 n7) ?_)
    simp only [mu, hm, muM]; omega
  | joinC =>
    by_cases hd : ∀ i, (s.combs i).pc = .dead
    · refine hno (.step (.mReady s hm hd) ?_)
      simp only [mu, hm, muM]; omega
    · obtain ⟨i, hi⟩ := not_forall.1 hd
      exact hno (prog_comb hS (hcpoll i hi) (n4 i) (.inl (hs.joinC hm)))
  | joinW =>
    by_cases hd : ∀ i, s.writers i = .dead
    · refine hno (.step (.mEnd s hm hd) ?_)
      simp only [mu, hm, muM]; omega
    · obtain ⟨i, hi⟩ := not_forall.1 hd
      exact hno (prog_ready (hpoll i hi) (hs.joinW hm))

/-- If progress is possible as long as the run is not finished, then it can finish. -/
theorem finish_of_live {P : State cfg R K V → Prop} (hstep : ∀ s s', P s → Step entries cfg s s' → P s')
    (hlive : ∀ s, P s → s.main ≠ .finished → Prog entries s) (s : State cfg R K V) (hs : P s) :
    ∃ s', Run entries cfg s s' ∧ s'.main = .finished := by
  have hrun : ∀ s s', P s → Run entries cfg s s' → P s' := by
    intro s s' h hr
    induction hr with
    | refl => exact h
    | tail _ h1 ih => exact hstep _ _ ih h1
  induction hn : mu s using Nat.strong_induction_on generalizing s with
  | _ n ih =>
    by_cases hf : s.main = .finished
    · exact ⟨s, .refl, hf⟩
    · obtain ⟨s', h1, h2⟩ := hlive s hs hf
      obtain ⟨s'', h3, h4⟩ := ih (mu s') (by omega) s' (hrun s s' hs h1) rfl
      exact ⟨s'', h1.trans h3, h4⟩

end RT1.Pipeline
