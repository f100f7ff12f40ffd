import Verif.Model.Counters
import Mathlib.Data.List.Count
import Mathlib.Data.List.Induction
import Mathlib.Data.List.Nodup
import Mathlib.Tactic.SplitIfs
import Mathlib.Tactic.Tauto

/-!
# C110 Counters of a processing run
-/

namespace RT1.Counters

/-! ### invariant -/

/-- Ghost state: results that have been taken but are not yet counted, and the numbers of counted results. -/
structure Ghost where
  flight : List (Nat × Bool)
  oks : Nat
  errs : Nat

/-- The process is in the critical section. -/
def Pc.holds : Pc → Bool
  | .locked _ | .readT _ _ | .wroteT _ | .readM _ | .fin | .pLocked | .pQ _ | .pT _ _ | .pM _ _ _ => true
  | _ => false

/-- The counters as a function of the position of the holder of the lock. -/
def Local (s : St) (g : Ghost) (puts : Nat) : Pc → Prop
  | .locked true => s.tot + 1 = g.oks + g.errs ∧ s.mean = g.oks ∧ 1 ≤ g.errs
  | .locked false => s.tot + 1 = g.oks + g.errs ∧ s.mean + 1 = g.oks
  | .readT true v => v = s.tot ∧ s.tot + 1 = g.oks + g.errs ∧ s.mean = g.oks ∧ 1 ≤ g.errs
  | .readT false v => v = s.tot ∧ s.tot + 1 = g.oks + g.errs ∧ s.mean + 1 = g.oks
  | .wroteT true => s.tot = g.oks + g.errs ∧ s.mean = g.oks
  | .wroteT false => s.tot = g.oks + g.errs ∧ s.mean + 1 = g.oks
  | .readM v => v = s.mean ∧ s.tot = g.oks + g.errs ∧ s.mean + 1 = g.oks
  | .fin | .pLocked => s.tot = g.oks + g.errs ∧ s.mean = g.oks
  | .pQ q => (s.tot = g.oks + g.errs ∧ s.mean = g.oks) ∧ s.tot + q ≤ puts
  | .pT q t => (s.tot = g.oks + g.errs ∧ s.mean = g.oks) ∧ t + q ≤ puts ∧ t = s.tot
  | .pM q t m => (s.tot = g.oks + g.errs ∧ s.mean = g.oks) ∧ t + q ≤ puts ∧ t = s.tot ∧ m = s.mean
  | _ => True

/-- The values outside of the critical section. -/
def Out (mean puts nErr : Nat) : Pc → Prop
  | .pOut T M | .shown T M => M ≤ T ∧ T ≤ puts ∧ T ≤ M + nErr
  | .pFin T M t => (M ≤ T ∧ T ≤ puts ∧ T ≤ M + nErr) ∧ t ≤ mean + nErr + 1
  | .output T M e => (M ≤ T ∧ T ≤ puts ∧ T ≤ M + nErr) ∧ e ≤ nErr + 1
  | _ => True

/-- The invariant for `nOk` results and `nErr` errors put into the queue. -/
structure Inv (s : St) (g : Ghost) (nOk nErr : Nat) : Prop where
  lock : ∀ p, (s.pc p).holds = true ↔ s.lock = some p
  free : s.lock = none → s.tot = g.oks + g.errs ∧ s.mean = g.oks
  held : ∀ p, Local s g (nOk + nErr) (s.pc p)
  out : ∀ p, Out s.mean (nOk + nErr) nErr (s.pc p)
  flight : ∀ p b, (p, b) ∈ g.flight ↔ s.pc p = .got b
  nodup : g.flight.Nodup
  oks : nOk = s.queue.count false + (g.flight.map Prod.snd).count false + g.oks
  errs : nErr = s.queue.count true + (g.flight.map Prod.snd).count true + g.errs

theorem out_mono {mean mean' n m e e' : Nat} (hmm : mean ≤ mean') (hnm : n ≤ m) (hee : e ≤ e') {c : Pc} (h : Out mean n e c) :
    Out mean' m e' c := by
  cases c <;> simp only [Out] at h ⊢ <;> omega

theorem count_both (l : List Bool) : l.count false + l.count true = l.length := by
  induction l with
  | nil => rfl
  | cons b l ih => cases b <;> simp <;> omega

theorem inv_init : Inv init ⟨[], 0, 0⟩ 0 0 where
  lock p := by simp [init, Pc.holds]
  free _ := ⟨rfl, rfl⟩
  held p := trivial
  out p := trivial
  flight p b := by simp [init]
  nodup := List.nodup_nil
  oks := rfl
  errs := rfl

/-- A step within the process that keeps the queue, the lock and the ghost state. -/
theorem inv_local {s : St} {g : Ghost} {nOk nErr : Nat} (h : Inv s g nOk nErr) (p : Nat) (c : Pc) (tot mean : Nat)
    (hh : c.holds = (s.pc p).holds) (hg : ∀ b, s.pc p ≠ .got b) (hc : ∀ b, c ≠ .got b)
    (hsame : (s.pc p).holds = false → tot = s.tot ∧ mean = s.mean)
    (hl : Local { s with tot := tot, mean := mean } g (nOk + nErr) c) (hm : s.mean ≤ mean) (ho : Out mean (nOk + nErr) nErr c) :
    Inv ({ s with tot := tot, mean := mean }.goto p c) g nOk nErr := by
  refine ⟨fun q => ?_, fun hf => ?_, fun q => ?_, fun q => ?_, fun q b => ?_, h.nodup, h.oks, h.errs⟩
  · show (Function.update s.pc p c q).holds = true ↔ s.lock = some q
    by_cases hq : q = p
    · subst hq
      rw [Function.update_self, hh]
      exact h.lock q
    · rw [Function.update_of_ne hq]
      exact h.lock q
  · have hp : (s.pc p).holds = false := by
      by_contra hp
      have := (h.lock p).1 (by simpa using hp)
      have hf' : s.lock = none := hf
      rw [hf'] at this
      cases this
    obtain ⟨rfl, rfl⟩ := hsame hp
    exact h.free hf
  · show Local _ g _ (Function.update s.pc p c q)
    by_cases hq : q = p
    · subst hq
      rw [Function.update_self]
      exact hl
    · rw [Function.update_of_ne hq]
      by_cases hp : (s.pc p).holds = true
      · have hnq : (s.pc q).holds = false := by
          by_contra hnq
          have h1 := (h.lock q).1 (by simpa using hnq)
          have h2 := (h.lock p).1 hp
          rw [h1] at h2
          cases h2
          exact hq rfl
        cases hpc : s.pc q <;> rw [hpc] at hnq <;> first | exact trivial | simp [Pc.holds] at hnq
      · obtain ⟨rfl, rfl⟩ := hsame (by simpa using hp)
        exact h.held q
  · show Out _ _ _ (Function.update s.pc p c q)
    by_cases hq : q = p
    · subst hq
      rw [Function.update_self]
      exact ho
    · rw [Function.update_of_ne hq]
      exact out_mono hm (Nat.le_refl _) (Nat.le_refl _) (h.out q)
  · show (q, b) ∈ g.flight ↔ Function.update s.pc p c q = .got b
    rw [h.flight q b]
    by_cases hq : q = p
    · subst hq
      rw [Function.update_self]
      exact ⟨fun e => absurd e (hg b), fun e => absurd e (hc b)⟩
    · rw [Function.update_of_ne hq]

theorem holder_unique {s : St} {g : Ghost} {nOk nErr : Nat} (h : Inv s g nOk nErr) {p q : Nat} (hp : (s.pc p).holds = true)
    (hq : (s.pc q).holds = true) : q = p := by
  have h1 := (h.lock q).1 hq
  have h2 := (h.lock p).1 hp
  rw [h1] at h2
  exact Option.some.inj h2

theorem local_of_not_holds (s : St) (g : Ghost) (n : Nat) {c : Pc} (hc : c.holds = false) : Local s g n c := by
  cases c <;> first | exact trivial | simp [Pc.holds] at hc

theorem not_holds_of_free {s : St} {g : Ghost} {nOk nErr : Nat} (h : Inv s g nOk nErr) (hl : s.lock = none) (p : Nat) :
    (s.pc p).holds = false := by
  by_contra hp
  have := (h.lock p).1 (by simpa using hp)
  rw [hl] at this
  cases this

/-- The lock is released. -/
theorem inv_release {s : St} {g : Ghost} {nOk nErr : Nat} (h : Inv s g nOk nErr) (p : Nat) (c : Pc)
    (hp : (s.pc p).holds = true) (hh : c.holds = false) (hc : ∀ b, c ≠ .got b)
    (hl : s.tot = g.oks + g.errs ∧ s.mean = g.oks) (ho : Out s.mean (nOk + nErr) nErr c) :
    Inv ({ s with lock := none }.goto p c) g nOk nErr := by
  refine ⟨fun q => ?_, fun _ => hl, fun q => ?_, fun q => ?_, fun q b => ?_, h.nodup, h.oks, h.errs⟩
  · show (Function.update s.pc p c q).holds = true ↔ none = some q
    by_cases hq : q = p
    · subst hq
      rw [Function.update_self, hh]
      simp
    · rw [Function.update_of_ne hq]
      exact ⟨fun e => absurd (holder_unique h hp e) hq, fun e => (nomatch e)⟩
  · show Local _ g _ (Function.update s.pc p c q)
    by_cases hq : q = p
    · subst hq
      rw [Function.update_self]
      exact local_of_not_holds _ _ _ hh
    · rw [Function.update_of_ne hq]
      refine local_of_not_holds _ _ _ ?_
      by_contra e
      exact hq (holder_unique h hp (by simpa using e))
  · show Out _ _ _ (Function.update s.pc p c q)
    by_cases hq : q = p
    · subst hq
      rw [Function.update_self]
      exact ho
    · rw [Function.update_of_ne hq]
      exact h.out q
  · show (q, b) ∈ g.flight ↔ Function.update s.pc p c q = .got b
    rw [h.flight q b]
    by_cases hq : q = p
    · subst hq
      rw [Function.update_self]
      exact ⟨fun e => absurd hp (by rw [e]; simp [Pc.holds]), fun e => absurd e (hc b)⟩
    · rw [Function.update_of_ne hq]

/-- The lock is acquired by `print_progress`. -/
theorem inv_acquire {s : St} {g : Ghost} {nOk nErr : Nat} (h : Inv s g nOk nErr) (p : Nat) (hpc : s.pc p = .pWait) (hl : s.lock = none) :
    Inv ({ s with lock := some p }.goto p .pLocked) g nOk nErr := by
  refine ⟨fun q => ?_, fun e => (nomatch e), fun q => ?_, fun q => ?_, fun q b => ?_, h.nodup, h.oks, h.errs⟩
  · show (Function.update s.pc p .pLocked q).holds = true ↔ some p = some q
    by_cases hq : q = p
    · subst hq
      rw [Function.update_self]
      simp [Pc.holds]
    · rw [Function.update_of_ne hq, not_holds_of_free h hl q]
      simp [Ne.symm hq]
  · show Local _ g _ (Function.update s.pc p .pLocked q)
    by_cases hq : q = p
    · subst hq
      rw [Function.update_self]
      exact h.free hl
    · rw [Function.update_of_ne hq]
      exact local_of_not_holds _ _ _ (not_holds_of_free h hl q)
  · show Out _ _ _ (Function.update s.pc p .pLocked q)
    by_cases hq : q = p
    · subst hq
      rw [Function.update_self]
      exact trivial
    · rw [Function.update_of_ne hq]
      exact h.out q
  · show (q, b) ∈ g.flight ↔ Function.update s.pc p .pLocked q = .got b
    rw [h.flight q b]
    by_cases hq : q = p
    · subst hq
      rw [Function.update_self, hpc]
      simp
    · rw [Function.update_of_ne hq]

/-- A result is taken from the queue. -/
theorem inv_get {s : St} {g : Ghost} {nOk nErr : Nat} (h : Inv s g nOk nErr) (p : Nat) (b : Bool) (l : List Bool) (hpc : s.pc p = .idle)
    (hq : s.queue = b :: l) : Inv ({ s with queue := l }.goto p (.got b)) { g with flight := (p, b) :: g.flight } nOk nErr := by
  have h1 := h.oks
  have h2 := h.errs
  rw [hq] at h1 h2
  refine ⟨fun q => ?_, h.free, fun q => ?_, fun q => ?_, fun q b' => ?_, ?_, ?_, ?_⟩
  · show (Function.update s.pc p (.got b) q).holds = true ↔ s.lock = some q
    rw [← h.lock q]
    by_cases hq : q = p
    · subst hq
      rw [Function.update_self, hpc]
      simp [Pc.holds]
    · rw [Function.update_of_ne hq]
  · show Local _ _ _ (Function.update s.pc p (.got b) q)
    by_cases hq : q = p
    · subst hq
      rw [Function.update_self]
      exact trivial
    · rw [Function.update_of_ne hq]
      exact h.held q
  · show Out _ _ _ (Function.update s.pc p (.got b) q)
    by_cases hq : q = p
    · subst hq
      rw [Function.update_self]
      exact trivial
    · rw [Function.update_of_ne hq]
      exact h.out q
  · show (q, b') ∈ (p, b) :: g.flight ↔ Function.update s.pc p (.got b) q = .got b'
    rw [List.mem_cons, h.flight q b']
    by_cases hq : q = p
    · subst hq
      rw [Function.update_self, hpc]
      simp [eq_comm]
    · rw [Function.update_of_ne hq]
      simp [hq]
  · refine List.nodup_cons.2 ⟨fun e => ?_, h.nodup⟩
    rw [h.flight, hpc] at e
    cases e
  · show nOk = l.count false + (((p, b) :: g.flight).map Prod.snd).count false + g.oks
    cases b <;> simp at h1 ⊢ <;> omega
  · show nErr = l.count true + (((p, b) :: g.flight).map Prod.snd).count true + g.errs
    cases b <;> simp at h2 ⊢ <;> omega

/-- A result is counted. -/
theorem inv_count {s : St} {g : Ghost} {nOk nErr : Nat} (h : Inv s g nOk nErr) (p : Nat) (b : Bool) (hpc : s.pc p = .got b)
    (hl : s.lock = none) : Inv ({ s with lock := some p }.goto p (.locked b))
      ⟨g.flight.erase (p, b), g.oks + (if b then 0 else 1), g.errs + (if b then 1 else 0)⟩ nOk nErr := by
  have hmem : (p, b) ∈ g.flight := (h.flight p b).2 hpc
  have hperm := (List.perm_cons_erase hmem).map Prod.snd
  have h1 := h.oks
  have h2 := h.errs
  rw [hperm.count_eq] at h1 h2
  have hf := h.free hl
  refine ⟨fun q => ?_, fun e => (nomatch e), fun q => ?_, fun q => ?_, fun q b' => ?_, h.nodup.erase _, ?_, ?_⟩
  · show (Function.update s.pc p (.locked b) q).holds = true ↔ some p = some q
    by_cases hq : q = p
    · subst hq
      rw [Function.update_self]
      simp [Pc.holds]
    · rw [Function.update_of_ne hq, not_holds_of_free h hl q]
      simp [Ne.symm hq]
  · show Local _ _ _ (Function.update s.pc p (.locked b) q)
    by_cases hq : q = p
    · subst hq
      rw [Function.update_self]
      cases b <;> simp only [Local, St.goto] <;> simp <;> omega
    · rw [Function.update_of_ne hq]
      exact local_of_not_holds _ _ _ (not_holds_of_free h hl q)
  · show Out _ _ _ (Function.update s.pc p (.locked b) q)
    by_cases hq : q = p
    · subst hq
      rw [Function.update_self]
      exact trivial
    · rw [Function.update_of_ne hq]
      exact h.out q
  · show (q, b') ∈ g.flight.erase (p, b) ↔ Function.update s.pc p (.locked b) q = .got b'
    rw [h.nodup.mem_erase_iff, h.flight q b']
    by_cases hq : q = p
    · subst hq
      rw [Function.update_self, hpc]
      simp
      exact fun a => fun e => a e.symm
    · rw [Function.update_of_ne hq]
      simp [hq]
  · show nOk = s.queue.count false + ((g.flight.erase (p, b)).map Prod.snd).count false + (g.oks + (if b then 0 else 1))
    cases b <;> simp at h1 ⊢ <;> omega
  · show nErr = s.queue.count true + ((g.flight.erase (p, b)).map Prod.snd).count true + (g.errs + (if b then 1 else 0))
    cases b <;> simp at h2 ⊢ <;> omega

/-- The counters and the counted results at any time. -/
theorem inv_counters {s : St} {g : Ghost} {nOk nErr : Nat} (h : Inv s g nOk nErr) :
    s.mean ≤ s.tot ∧ s.mean ≤ g.oks ∧ s.tot ≤ g.oks + g.errs ∧ g.oks ≤ s.mean + 1 := by
  cases hl : s.lock with
  | none =>
    have := h.free hl
    omega
  | some p =>
    have hh := (h.lock p).2 hl
    have hp := h.held p
    cases hc : s.pc p with
    | locked b => rw [hc] at hp; cases b <;> simp only [Local] at hp <;> omega
    | readT b v => rw [hc] at hp; cases b <;> simp only [Local] at hp <;> omega
    | wroteT b => rw [hc] at hp; cases b <;> simp only [Local] at hp <;> omega
    | _ => rw [hc] at hp hh; first | (simp [Pc.holds] at hh; done) | (simp only [Local] at hp; omega)

theorem inv_tot {s : St} {g : Ghost} {nOk nErr : Nat} (h : Inv s g nOk nErr) : s.tot ≤ s.mean + nErr + 1 := by
  have h1 := inv_counters h
  have h2 := h.errs
  omega

theorem inv_next {s : St} {g : Ghost} {nOk nErr : Nat} (h : Inv s g nOk nErr) (p : Nat) : ∃ g', Inv (next s p) g' nOk nErr := by
  have hheld := h.held p
  have hheld2 := h.held p
  have hout := h.out p
  unfold next
  cases hpc : s.pc p with
  | idle =>
    dsimp only
    cases hq : s.queue with
    | nil => exact ⟨g, h⟩
    | cons b l => exact ⟨_, inv_get h p b l hpc hq⟩
  | got b =>
    dsimp only
    split_ifs with hl
    · exact ⟨_, inv_count h p b hpc hl⟩
    · exact ⟨g, h⟩
  | locked b =>
    rw [hpc] at hheld
    refine ⟨g, inv_local h p _ s.tot s.mean (by rw [hpc]; rfl) (by rw [hpc]; simp) (by simp) (by rw [hpc]; simp [Pc.holds]) ?_ (by first | exact Nat.le_refl _ | (rw [hpc] at hheld2; simp only [Local] at hheld2; omega)) trivial⟩
    cases b <;> simp only [Local] at hheld ⊢ <;> tauto
  | readT b v =>
    rw [hpc] at hheld
    refine ⟨g, inv_local h p _ (v + 1) s.mean (by rw [hpc]; rfl) (by rw [hpc]; simp) (by simp) (by rw [hpc]; simp [Pc.holds]) ?_ (by first | exact Nat.le_refl _ | (rw [hpc] at hheld2; simp only [Local] at hheld2; omega)) trivial⟩
    cases b <;> simp only [Local] at hheld ⊢ <;> omega
  | wroteT b =>
    rw [hpc] at hheld
    cases b with
    | true =>
      refine ⟨g, inv_local h p _ s.tot s.mean (by rw [hpc]; rfl) (by rw [hpc]; simp) (by simp) (by rw [hpc]; simp [Pc.holds]) ?_ (by first | exact Nat.le_refl _ | (rw [hpc] at hheld2; simp only [Local] at hheld2; omega)) trivial⟩
      simp only [Local] at hheld ⊢; omega
    | false =>
      refine ⟨g, inv_local h p _ s.tot s.mean (by rw [hpc]; rfl) (by rw [hpc]; simp) (by simp) (by rw [hpc]; simp [Pc.holds]) ?_ (by first | exact Nat.le_refl _ | (rw [hpc] at hheld2; simp only [Local] at hheld2; omega)) trivial⟩
      simp only [Local] at hheld ⊢; tauto
  | readM v =>
    rw [hpc] at hheld
    refine ⟨g, inv_local h p _ s.tot (v + 1) (by rw [hpc]; rfl) (by rw [hpc]; simp) (by simp) (by rw [hpc]; simp [Pc.holds]) ?_ (by first | exact Nat.le_refl _ | (rw [hpc] at hheld2; simp only [Local] at hheld2; omega)) trivial⟩
    simp only [Local] at hheld ⊢; omega
  | fin =>
    rw [hpc] at hheld
    exact ⟨g, inv_release h p .idle (by rw [hpc]; rfl) rfl (by simp) hheld trivial⟩
  | pWait =>
    dsimp only
    split_ifs with hl
    · exact ⟨g, inv_acquire h p hpc hl⟩
    · exact ⟨g, h⟩
  | pLocked =>
    rw [hpc] at hheld
    refine ⟨g, inv_local h p _ s.tot s.mean (by rw [hpc]; rfl) (by rw [hpc]; simp) (by simp) (by rw [hpc]; simp [Pc.holds]) ?_ (by first | exact Nat.le_refl _ | (rw [hpc] at hheld2; simp only [Local] at hheld2; omega)) trivial⟩
    simp only [Local] at hheld ⊢
    refine ⟨hheld, ?_⟩
    have := count_both s.queue
    have h1 := h.oks
    have h2 := h.errs
    omega
  | pQ q =>
    rw [hpc] at hheld
    refine ⟨g, inv_local h p _ s.tot s.mean (by rw [hpc]; rfl) (by rw [hpc]; simp) (by simp) (by rw [hpc]; simp [Pc.holds]) ?_ (by first | exact Nat.le_refl _ | (rw [hpc] at hheld2; simp only [Local] at hheld2; omega)) trivial⟩
    simp only [Local] at hheld ⊢; tauto
  | pT q t =>
    rw [hpc] at hheld
    refine ⟨g, inv_local h p _ s.tot s.mean (by rw [hpc]; rfl) (by rw [hpc]; simp) (by simp) (by rw [hpc]; simp [Pc.holds]) ?_ (by first | exact Nat.le_refl _ | (rw [hpc] at hheld2; simp only [Local] at hheld2; omega)) trivial⟩
    simp only [Local] at hheld ⊢; tauto
  | pM q t m =>
    rw [hpc] at hheld
    simp only [Local] at hheld
    exact ⟨g, inv_release h p _ (by rw [hpc]; rfl) rfl (by simp) hheld.1
      (by simp only [Out]; have := h.errs; omega)⟩
  | pOut T M =>
    rw [hpc] at hout
    have h1 : ∃ g', Inv (s.goto p (.shown T M)) g' nOk nErr :=
      ⟨g, inv_local h p _ s.tot s.mean (by rw [hpc]; rfl) (by rw [hpc]; simp) (by simp) (fun _ => ⟨rfl, rfl⟩) trivial (Nat.le_refl _) hout⟩
    have h2 : ∃ g', Inv (s.goto p .crashed) g' nOk nErr :=
      ⟨g, inv_local h p _ s.tot s.mean (by rw [hpc]; rfl) (by rw [hpc]; simp) (by simp) (fun _ => ⟨rfl, rfl⟩) trivial (Nat.le_refl _) trivial⟩
    dsimp only
    split_ifs
    · exact h1
    · exact h2
    · exact h1
  | shown T M =>
    rw [hpc] at hout
    exact ⟨g, inv_local h p _ s.tot s.mean (by rw [hpc]; rfl) (by rw [hpc]; simp) (by simp) (fun _ => ⟨rfl, rfl⟩) trivial (Nat.le_refl _) ⟨hout, inv_tot h⟩⟩
  | pFin T M t =>
    rw [hpc] at hout
    exact ⟨g, inv_local h p _ s.tot s.mean (by rw [hpc]; rfl) (by rw [hpc]; simp) (by simp) (fun _ => ⟨rfl, rfl⟩) trivial (Nat.le_refl _)
      ⟨hout.1, by have := hout.2; omega⟩⟩
  | output T M e =>
    exact ⟨g, inv_local h p _ s.tot s.mean (by rw [hpc]; rfl) (by rw [hpc]; simp) (by simp) (fun _ => ⟨rfl, rfl⟩) trivial (Nat.le_refl _) trivial⟩
  | crashed => exact ⟨g, h⟩

theorem local_mono {s : St} {g : Ghost} {n m : Nat} (hnm : n ≤ m) (queue : List Bool) {c : Pc} (h : Local s g n c) :
    Local { s with queue := queue } g m c := by
  cases c with
  | locked b => cases b <;> exact h
  | readT b v => cases b <;> exact h
  | wroteT b => cases b <;> exact h
  | pQ q => exact ⟨h.1, Nat.le_trans h.2 hnm⟩
  | pT q t => exact ⟨h.1, Nat.le_trans h.2.1 hnm, h.2.2⟩
  | pM q t m => exact ⟨h.1, Nat.le_trans h.2.1 hnm, h.2.2⟩
  | _ => exact h

theorem inv_put {s : St} {g : Ghost} {nOk nErr : Nat} (h : Inv s g nOk nErr) (b : Bool) :
    Inv (exec s (.put b)) g (nOk + (if b then 0 else 1)) (nErr + (if b then 1 else 0)) := by
  have hn : nOk + nErr ≤ nOk + (if b then 0 else 1) + (nErr + (if b then 1 else 0)) := by omega
  refine ⟨h.lock, h.free, fun p => local_mono hn _ (h.held p), fun p => out_mono (Nat.le_refl _) hn (Nat.le_add_right _ _) (h.out p), h.flight, h.nodup, ?_, ?_⟩
  · have h1 := h.oks
    show _ = (s.queue ++ [b]).count false + _ + _
    cases b <;> simp [List.count_append] at h1 ⊢ <;> omega
  · have h1 := h.errs
    show _ = (s.queue ++ [b]).count true + _ + _
    cases b <;> simp [List.count_append] at h1 ⊢ <;> omega

theorem inv_run (acts : List Act) : ∃ g, Inv (run acts) g (acts.count (.put false)) (acts.count (.put true)) := by
  induction acts using List.reverseRecOn with
  | nil => exact ⟨_, inv_init⟩
  | append_singleton acts a ih =>
    obtain ⟨g, h⟩ := ih
    have hr : run (acts ++ [a]) = exec (run acts) a := by simp [run, List.foldl_append]
    rw [hr, List.count_append, List.count_append]
    cases a with
    | put b =>
      refine ⟨g, ?_⟩
      have := inv_put h b
      cases b <;> simpa using this
    | move p =>
      have := inv_next h p
      simp only [List.count_singleton, beq_iff_eq, reduceCtorEq, if_false, Nat.add_zero]
      exact this
    | print p =>
      refine ⟨g, ?_⟩
      have : Inv (exec (run acts) (.print p)) g (acts.count (.put false)) (acts.count (.put true)) := by
        show Inv (if (run acts).pc p = .idle then (run acts).goto p .pWait else run acts) g _ _
        split_ifs with hp
        · exact inv_local h p .pWait (run acts).tot (run acts).mean (by rw [hp]; rfl) (by rw [hp]; simp) (by simp) (fun _ => ⟨rfl, rfl⟩)
            trivial (Nat.le_refl _) trivial
        · exact h
      simpa using this

/-! ### property -/

/-- **C110** For any number of combiners and print-threads and any interleaving of their requests: once every result has been taken from the queue
and every process has finished its step, the counters are the number of all results and the number of successful results. -/
theorem C110_counters (acts : List Act) (hq : (run acts).queue = []) (hp : ∀ p, (run acts).pc p = .idle) :
    (run acts).tot = acts.count (.put false) + acts.count (.put true) ∧ (run acts).mean = acts.count (.put false) := by
  obtain ⟨g, h⟩ := inv_run acts
  have hf : g.flight = [] := by
    refine List.eq_nil_iff_forall_not_mem.2 fun x hx => ?_
    have := (h.flight x.1 x.2).1 hx
    rw [hp] at this
    cases this
  have hl : (run acts).lock = none := by
    cases hl : (run acts).lock with
    | none => rfl
    | some p =>
      have := (h.lock p).2 hl
      rw [hp] at this
      cases this
  have h1 := h.oks
  have h2 := h.errs
  have h3 := h.free hl
  rw [hq, hf] at h1 h2
  simp at h1 h2
  omega

/-- **C110** At any time the counter of all results is at least the counter of the successful results, and none exceeds the number of results put
into the queue. -/
theorem C110_bounds (acts : List Act) : (run acts).mean ≤ (run acts).tot ∧ (run acts).mean ≤ acts.count (.put false) ∧
    (run acts).tot ≤ acts.count (.put false) + acts.count (.put true) := by
  obtain ⟨g, h⟩ := inv_run acts
  have h1 := h.oks
  have h2 := h.errs
  have := inv_counters h
  omega

/-- **C110** The lock excludes: no two processes are in the critical section. -/
theorem C110_exclusive (acts : List Act) (p q : Nat) (hp : ((run acts).pc p).holds = true) (hq : ((run acts).pc q).holds = true) : p = q := by
  obtain ⟨g, h⟩ := inv_run acts
  exact holder_unique h hq hp

/-- **C110** What the progress-bar shows: the number of finished results never exceeds the number of results put into the queue, and the number of
errors (the difference) never exceeds the number of errors put into the queue. -/
theorem C110_progress (acts : List Act) (p T M : Nat) (e : Int) (hp : (run acts).pc p = .output T M e) :
    M ≤ T ∧ T ≤ acts.count (.put false) + acts.count (.put true) ∧ T - M ≤ acts.count (.put true) := by
  obtain ⟨g, h⟩ := inv_run acts
  have := h.out p
  rw [hp] at this
  simp only [Out] at this
  omega

/-- **C110** (partial: see `C110_final_fails`) The number of errors in the final message exceeds the number of errors put into the queue by at most
one. -/
theorem C110_final_partial (acts : List Act) (p T M : Nat) (e : Int) (hp : (run acts).pc p = .output T M e) :
    e ≤ acts.count (.put true) + 1 := by
  obtain ⟨g, h⟩ := inv_run acts
  have := h.out p
  rw [hp] at this
  exact this.2

/-- **C110 (violated)** The final message reads the counters without the lock: it reports one error in a run of one successful result, or a negative
number of errors. -/
theorem C110_final_fails :
    (∃ acts : List Act, ∃ p, acts.count (.put false) = 1 ∧ acts.count (.put true) = 0 ∧ (run acts).pc p = .output 1 1 1) ∧
    (∃ acts : List Act, ∃ p, acts.count (.put false) = 1 ∧ acts.count (.put true) = 0 ∧ (run acts).pc p = .output 1 1 (-1)) :=
  ⟨⟨[.put false, .print 2, .move 2, .move 2, .move 2, .move 2, .move 2, .move 2, .move 1, .move 1, .move 1, .move 1, .move 2, .move 2], 2,
      by decide, by decide, by decide⟩,
    ⟨[.put false, .print 2, .move 2, .move 2, .move 2, .move 2, .move 2, .move 2, .move 2, .move 1, .move 1, .move 1, .move 1, .move 1, .move 1,
      .move 2], 2, by decide, by decide, by decide⟩⟩

/-- **C110 (violated)** The check for zero reads the counter again after the lock has been released: the print-thread ends with a
ZeroDivisionError if the first result is counted in between. -/
theorem C110_progress_fails : ∃ acts : List Act, ∃ p, (run acts).pc p = .crashed :=
  ⟨[.put false, .move 1, .print 2, .move 2, .move 2, .move 2, .move 2, .move 2, .move 1, .move 1, .move 1, .move 1, .move 1, .move 2], 2, by decide⟩

/-- Positions that do not lead to a division by zero. -/
def Safe : Pc → Prop
  | .pM _ _ m => 1 ≤ m
  | .pOut _ M => 1 ≤ M
  | .crashed => False
  | _ => True

theorem safe_step {s : St} {g : Ghost} {nOk nErr : Nat} (h : Inv s g nOk nErr) (a : Act) (p : Nat) (hm : 1 ≤ s.mean) (hs : Safe (s.pc p)) :
    1 ≤ (exec s a).mean ∧ Safe ((exec s a).pc p) := by
  have key : ∀ (s' : St) (q : Nat) (c : Pc), 1 ≤ s'.mean → s'.pc = s.pc → (q = p → Safe c) →
      1 ≤ (s'.goto q c).mean ∧ Safe ((s'.goto q c).pc p) := by
    intro s' q c h1 h2 h3
    refine ⟨h1, ?_⟩
    show Safe (Function.update s'.pc q c p)
    by_cases hq : p = q
    · subst hq
      rw [Function.update_self]
      exact h3 rfl
    · rw [Function.update_of_ne hq, h2]
      exact hs
  cases a with
  | put b => exact ⟨hm, hs⟩
  | print q =>
    show 1 ≤ (if s.pc q = .idle then s.goto q .pWait else s).mean ∧ Safe ((if s.pc q = .idle then s.goto q .pWait else s).pc p)
    split_ifs
    · exact key s q .pWait hm rfl fun _ => trivial
    · exact ⟨hm, hs⟩
  | move q =>
    show 1 ≤ (next s q).mean ∧ Safe ((next s q).pc p)
    have hheld := h.held q
    unfold next
    cases hpc : s.pc q with
    | idle =>
      dsimp only
      cases s.queue with
      | nil => exact ⟨hm, hs⟩
      | cons b l => exact key _ q _ hm rfl fun _ => trivial
    | got b =>
      dsimp only
      split_ifs
      · exact key _ q _ hm rfl fun _ => trivial
      · exact ⟨hm, hs⟩
    | locked b => exact key _ q _ hm rfl fun _ => trivial
    | readT b v => exact key _ q _ hm rfl fun _ => trivial
    | wroteT b => cases b <;> exact key _ q _ hm rfl fun _ => trivial
    | readM v => exact key _ q _ (Nat.le_add_left 1 v) rfl fun _ => trivial
    | fin => exact key _ q _ hm rfl fun _ => trivial
    | pWait =>
      dsimp only
      split_ifs
      · exact key _ q _ hm rfl fun _ => trivial
      · exact ⟨hm, hs⟩
    | pLocked => exact key _ q _ hm rfl fun _ => trivial
    | pQ n => exact key _ q _ hm rfl fun _ => trivial
    | pT n t => exact key _ q _ hm rfl fun _ => hm
    | pM n t m =>
      refine key _ q _ hm rfl fun e => ?_
      subst e
      rw [hpc] at hs
      exact Nat.le_trans hs (Nat.le_add_right _ _)
    | pOut T M =>
      dsimp only
      split_ifs with h1 h2
      · exact key _ q _ hm rfl fun _ => trivial
      · refine key _ q _ hm rfl fun e => ?_
        subst e
        rw [hpc] at hs
        simp only [Safe] at hs
        omega
      · exact key _ q _ hm rfl fun _ => trivial
    | shown T M => exact key _ q _ hm rfl fun _ => trivial
    | pFin T M t => exact key _ q _ hm rfl fun _ => trivial
    | output T M e => exact key _ q _ hm rfl fun _ => trivial
    | crashed => exact ⟨hm, hs⟩

/-- **C110** (partial: see `C110_progress_fails`) Once a successful result has been counted, a print-thread that is idle never ends with an error,
whatever happens afterwards. -/
theorem C110_progress_partial (acts more : List Act) (p : Nat) (hm : 1 ≤ (run acts).mean) (hp : (run acts).pc p = .idle) :
    (run (acts ++ more)).pc p ≠ .crashed := by
  suffices h : 1 ≤ (run (acts ++ more)).mean ∧ Safe ((run (acts ++ more)).pc p) by
    intro e
    rw [e] at h
    exact h.2
  induction more using List.reverseRecOn with
  | nil =>
    rw [List.append_nil, hp]
    exact ⟨hm, trivial⟩
  | append_singleton more a ih =>
    obtain ⟨g, h⟩ := inv_run (acts ++ more)
    have hr : run (acts ++ (more ++ [a])) = exec (run (acts ++ more)) a := by
      rw [← List.append_assoc]
      simp [run, List.foldl_append]
    rw [hr]
    exact safe_step h a p ih.1 ih.2

/-! ### names of the workers -/

/-- The steps of a worker that is not interrupted. -/
def alone (w : Nat) : List Nat := [w, w, w]

/-- **C110** (partial: see `C110_names_fails`) If the initializations of the workers do not overlap, the workers are numbered in the order of their
initialization. -/
theorem C110_names_partial (ws : List Nat) (hn : ws.Nodup) :
    (wrun (ws.flatMap alone)).counter = ws.length ∧ ∀ i (hi : i < ws.length), (wrun (ws.flatMap alone)).pc ws[i] = .named (i + 1) := by
  suffices h : (wrun (ws.flatMap alone)).counter = ws.length ∧
      (∀ i (hi : i < ws.length), (wrun (ws.flatMap alone)).pc ws[i] = .named (i + 1)) ∧
      ∀ w, w ∉ ws → (wrun (ws.flatMap alone)).pc w = .start from ⟨h.1, h.2.1⟩
  induction ws using List.reverseRecOn with
  | nil => exact ⟨rfl, fun i hi => absurd hi (Nat.not_lt_zero i), fun _ _ => rfl⟩
  | append_singleton ws w ih =>
    rw [List.nodup_append] at hn
    have hw : w ∉ ws := fun hw => hn.2.2 w hw w (List.mem_singleton_self w) rfl
    obtain ⟨h1, h2, h3⟩ := ih hn.1
    have hs := h3 w hw
    have hr : wrun ((ws ++ [w]).flatMap alone) =
        ⟨ws.length + 1, Function.update (wrun (ws.flatMap alone)).pc w (.named (ws.length + 1))⟩ := by
      rw [List.flatMap_append]
      have hfold : wrun (ws.flatMap alone ++ [w].flatMap alone) = [w, w, w].foldl wnext (wrun (ws.flatMap alone)) := by
        simp [wrun, List.foldl_append, alone]
      rw [hfold]
      simp [wnext, hs, h1]
    rw [hr]
    refine ⟨by simp, fun i hi => ?_, fun v hv => ?_⟩
    · show Function.update _ w _ _ = _
      rw [List.length_append, List.length_singleton] at hi
      by_cases hiw : i < ws.length
      · rw [List.getElem_append_left hiw, Function.update_of_ne (fun e : ws[i] = w => hw (e ▸ List.getElem_mem hiw))]
        exact h2 i hiw
      · have : i = ws.length := by omega
        subst this
        simp
    · rw [List.mem_append, List.mem_singleton, not_or] at hv
      show Function.update _ w _ v = _
      rw [Function.update_of_ne hv.2]
      exact h3 v hv.1

/-- **C110 (violated)** The counter of the workers is used without a lock: two workers can get the same name, with or without losing an increment. -/
theorem C110_names_fails :
    (∃ ws, (wrun ws).counter = 1 ∧ (wrun ws).pc 0 = .named 1 ∧ (wrun ws).pc 1 = .named 1) ∧
    (∃ ws, (wrun ws).counter = 2 ∧ (wrun ws).pc 0 = .named 2 ∧ (wrun ws).pc 1 = .named 2) :=
  ⟨⟨[0, 1, 0, 1, 0, 1], by decide, by decide, by decide⟩, ⟨[0, 0, 1, 1, 0, 1], by decide, by decide, by decide⟩⟩

/-! ### examples -/

/-- two combiners that count a result and an error -/
def twoCombiners : List Act := [.put false, .put true, .move 0, .move 1, .move 0, .move 1, .move 0, .move 1, .move 0, .move 0, .move 0, .move 0,
  .move 1, .move 1, .move 1, .move 1, .move 1]

example : (run twoCombiners).tot = 2 ∧ (run twoCombiners).mean = 1 ∧ (run twoCombiners).queue = [] ∧ (run twoCombiners).pc 0 = .idle ∧
    (run twoCombiners).pc 1 = .idle := by decide

example : (run (twoCombiners ++ [.put false, .print 2, .move 2, .move 2, .move 2, .move 2, .move 2, .move 2, .move 2, .move 2])).pc 2 =
    .output 3 2 1 := by decide

example : (run (twoCombiners.take 7)).pc 0 = .readT false 0 ∧ (run (twoCombiners.take 7)).lock = some 0 := by decide

example : (wrun ([4, 2].flatMap alone)).pc 2 = .named 2 := by decide

end RT1.Counters
