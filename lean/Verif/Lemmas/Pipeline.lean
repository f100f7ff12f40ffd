import Mathlib.Algebra.BigOperators.Fin
import Mathlib.Algebra.BigOperators.Group.Finset.Basic
import Mathlib.Tactic.Ring
import Verif.Model.Pipeline
import Verif.Lemmas.Dict

/-!
# Invariants of the processing pipeline

Conservation laws are stated for arbitrary weights of results and table rows, so that they can be combined by linear arithmetic.
-/

namespace RT1.Pipeline
open Function

set_option linter.unusedSectionVars false

variable {R K V : Type} [DecidableEq K] {entries : R → Option (List (K × V))} {cfg : Cfg}

theorem sum_upd {n : Nat} {α : Type} (f : α → Nat) (c : Fin n → α) (i : Fin n) (x : α) :
    ∑ j, f (update c i x j) + f (c i) = ∑ j, f (c j) + f x := by
  have h1 := Finset.add_sum_erase Finset.univ (fun j => f (update c i x j)) (Finset.mem_univ i)
  have h2 := Finset.add_sum_erase Finset.univ (fun j => f (c j)) (Finset.mem_univ i)
  have h3 : ∑ j ∈ Finset.univ.erase i, f (update c i x j) = ∑ j ∈ Finset.univ.erase i, f (c j) := by
    apply Finset.sum_congr rfl
    intro j hj
    rw [update_of_ne (Finset.ne_of_mem_erase hj)]
  simp only [update_self] at h1
  omega

/-! ## weights -/

/-- The weight of a list. -/
def wl {α : Type} (φ : α → Nat) (l : List α) : Nat := (l.map φ).sum

@[simp] theorem wl_nil {α : Type} (φ : α → Nat) : wl φ [] = 0 := rfl
@[simp] theorem wl_cons {α : Type} (φ : α → Nat) (a : α) (l : List α) : wl φ (a :: l) = φ a + wl φ l := by simp [wl]
@[simp] theorem wl_append {α : Type} (φ : α → Nat) (l l' : List α) : wl φ (l ++ l') = wl φ l + wl φ l' := by simp [wl]

/-- The weight of tables. -/
def wt (θ : K × V → Nat) (d : Dict K (List V)) : Nat := wl (fun e => wl (fun v => θ (e.1, v)) e.2) d

theorem wt_nil (θ : K × V → Nat) : wt θ ([] : Dict K (List V)) = 0 := rfl

theorem wt_append (θ : K × V → Nat) (st : Dict K (List V)) (k : K) (vs : List V) :
    wt θ (appendTable st k vs) = wt θ st + wl (fun v => θ (k, v)) vs := by
  unfold appendTable
  induction st with
  | nil => simp [Dict.set, Dict.get?, wt]
  | cons e st ih =>
    rw [Dict.get?_cons]
    by_cases h : e.1 = k
    · simp only [Dict.set, if_pos h, Option.getD_some, wt, wl_cons, wl_append]
      subst h
      omega
    · simp only [Dict.set, if_neg h, wt, wl_cons] at ih ⊢
      omega

/-- The weight of the entries of a result. -/
def wr (entries : R → Option (List (K × V))) (θ : K × V → Nat) (r : R) : Nat := wl θ ((entries r).getD [])

theorem wt_combined (θ : K × V → Nat) (chunk : List R) : wt θ (combined entries chunk) = wl (wr entries θ) chunk := by
  have h1 : ∀ (l : List (K × V)) (d : Dict K (List V)), wt θ (l.foldl addEntry d) = wt θ d + wl θ l := by
    intro l
    induction l with
    | nil => simp
    | cons e l ih =>
      intro d
      rw [List.foldl_cons, ih]
      obtain ⟨k, v⟩ := e
      have := wt_append θ d k [v]
      simp only [appendTable, wl_cons, wl_nil] at this
      simp only [addEntry, this, wl_cons]
      omega
  have h2 : ∀ (d : Dict K (List V)), wt θ (chunk.foldl (addResult entries) d) = wt θ d + wl (wr entries θ) chunk := by
    induction chunk with
    | nil => simp
    | cons r chunk ih =>
      intro d
      rw [List.foldl_cons, ih, addResult, h1, wl_cons, wr]
      omega
  rw [combined, h2, wt_nil, Nat.zero_add]

/-! ## conservation of results -/

def wO (φ : R → Nat) : Outcome R → Nat
  | .res r => φ r
  | _ => 0

def wQ (φ : R → Nat) : Option R → Nat
  | some r => φ r
  | none => 0

def wW (φ : R → Nat) : Worker R → Nat
  | .idle => 0
  | .waiting t => wO φ t
  | .exec t => wO φ t

def wPc (φ : R → Nat) : CPc R → Nat
  | .collect chunk => wl φ chunk
  | .hold chunk v => wl φ chunk + wQ φ v
  | _ => 0

def wC (φ : R → Nat) (c : Comb R) : Nat := wPc φ c.pc + wl (wl φ) c.threads

def wWr (φ : R → Nat) : Writer R K V → Nat
  | .acquire chunk => wl φ chunk
  | .writing chunk _ => wl φ chunk
  | _ => 0

/-- The weight of all results in a state. -/
def total (φ : R → Nat) (s : State cfg R K V) : Nat :=
  wl (wO φ) s.pending + ∑ i, wW φ (s.workers i) + wl (wQ φ) s.queue + ∑ i, wC φ (s.combs i) + wl (wl φ) s.outq +
    ∑ i, wWr φ (s.writers i) + wl φ s.done + wl φ s.lost

theorem total_setW (φ : R → Nat) (s : State cfg R K V) (w : Fin cfg.nWorker) (x : Worker R) :
    total φ (s.setW w x) + wW φ (s.workers w) = total φ s + wW φ x := by
  have := sum_upd (wW φ) s.workers w x
  simp only [total, State.setW]
  omega

theorem total_setC (φ : R → Nat) (s : State cfg R K V) (i : Fin cfg.nComb) (x : Comb R) :
    total φ (s.setC i x) + wC φ (s.combs i) = total φ s + wC φ x := by
  have := sum_upd (wC φ) s.combs i x
  simp only [total, State.setC]
  omega

theorem total_setPc (φ : R → Nat) (s : State cfg R K V) (i : Fin cfg.nComb) (x : CPc R) :
    total φ (s.setPc i x) + wPc φ (s.combs i).pc = total φ s + wPc φ x := by
  have := total_setC φ s i ⟨x, (s.combs i).threads⟩
  simp only [State.setPc, wC] at this ⊢
  omega

theorem total_setWr (φ : R → Nat) (s : State cfg R K V) (i : Fin cfg.nWriter) (x : Writer R K V) :
    total φ (s.setWr i x) + wWr φ (s.writers i) = total φ s + wWr φ x := by
  have := sum_upd (wWr φ) s.writers i x
  simp only [total, State.setWr]
  omega

theorem wQ_put (φ : R → Nat) (t : Outcome R) : wl (wQ φ) t.put = wO φ t := by
  cases t <;> simp [Outcome.put, wQ, wO]

/-- No step creates or destroys results. -/
theorem total_step (φ : R → Nat) {s s' : State cfg R K V} (h : Step entries cfg s s') : total φ s' = total φ s := by
  cases h with
  | start w l₁ t l₂ h1 h2 =>
    have := total_setW φ { s with pending := l₁ ++ l₂ } w (.waiting t)
    simp only [h1, wW] at this
    have e : total φ s = total φ { s with pending := l₁ ++ l₂ } + wO φ t := by
      simp only [total, h2, wl_append, wl_cons]; omega
    omega
  | pass w t h1 h2 =>
    have := total_setW φ s w (.exec t)
    simp only [h1, wW] at this
    omega
  | finish w t h1 =>
    have := total_setW φ { s with queue := s.queue ++ t.put } w .idle
    simp only [h1, wW] at this
    have e : total φ { s with queue := s.queue ++ t.put } = total φ s + wO φ t := by
      simp only [total, wl_append, wQ_put]; omega
    omega
  | cTopStop i h1 _ | cTopRun i h1 _ | cEmpty i h1 _ | cNonempty i h1 _ | cStop i h1 _ =>
    first
      | (have := total_setPc φ s i .chkEmpty; simp only [h1, wPc] at this; exact Nat.add_right_cancel this)
      | (have := total_setPc φ s i .chkStop; simp only [h1, wPc] at this; exact Nat.add_right_cancel this)
      | (have := total_setPc φ s i .joining; simp only [h1, wPc] at this; exact Nat.add_right_cancel this)
  | cGo i h1 _ =>
    have := total_setPc φ s i (.collect [])
    simp only [h1, wPc, wl_nil] at this
    exact Nat.add_right_cancel this
  | cGet i chunk v q h1 _ h2 =>
    have := total_setPc φ { s with queue := q } i (.hold chunk v)
    simp only [h1, wPc] at this
    have e : total φ s = total φ { s with queue := q } + wQ φ v := by
      simp only [total, h2, wl_cons]; omega
    omega
  | cNone i chunk h1 =>
    have := total_setPc φ { s with tot := s.tot + 1 } i (.collect chunk)
    simp only [h1, wPc, wQ] at this
    have e : total φ { s with tot := s.tot + 1 } = total φ s := rfl
    omega
  | cGood i chunk r h1 _ =>
    have := total_setPc φ { s with tot := s.tot + 1, succ := s.succ + 1 } i (.collect (chunk ++ [r]))
    simp only [h1, wPc, wQ, wl_append, wl_cons, wl_nil] at this
    have e : total φ { s with tot := s.tot + 1, succ := s.succ + 1 } = total φ s := rfl
    omega
  | cBroken i chunk r h1 _ =>
    have := total_setPc φ { s with lost := s.lost ++ chunk ++ [r], bad := s.bad + 1 } i .top
    simp only [h1, wPc, wQ] at this
    have e : total φ { s with lost := s.lost ++ chunk ++ [r], bad := s.bad + 1 } = total φ s + wl φ chunk + φ r := by
      simp only [total, wl_append, wl_cons, wl_nil]; omega
    omega
  | cSpawn i chunk h1 _ _ =>
    have := total_setC φ s i ⟨.top, (s.combs i).threads ++ [chunk]⟩
    simp only [wC, h1, wPc, wl_append, wl_cons, wl_nil] at this
    omega
  | cNothing i chunk h1 _ _ =>
    have := total_setPc φ { s with done := s.done ++ chunk } i .top
    simp only [h1, wPc] at this
    have e : total φ { s with done := s.done ++ chunk } = total φ s + wl φ chunk := by
      simp only [total, wl_append]; omega
    omega
  | cThread i l₁ chunk l₂ h1 =>
    have := total_setC φ { s with outq := s.outq ++ [chunk] } i ⟨(s.combs i).pc, l₁ ++ l₂⟩
    simp only [wC, h1, wl_append, wl_cons] at this
    have e : total φ { s with outq := s.outq ++ [chunk] } = total φ s + wl φ chunk := by
      simp only [total, wl_append, wl_cons, wl_nil]; omega
    omega
  | cDead i h1 =>
    have := total_setPc φ s i .dead
    simp only [h1, wPc] at this
    exact Nat.add_right_cancel this
  | wTopReady i h1 _ => have := total_setWr φ s i .chkEmpty; simp only [h1, wWr] at this; exact Nat.add_right_cancel this
  | wTopRun i h1 _ => have := total_setWr φ s i .chkStop; simp only [h1, wWr] at this; exact Nat.add_right_cancel this
  | wEmpty i h1 _ => have := total_setWr φ s i .dead; simp only [h1, wWr] at this; exact Nat.add_right_cancel this
  | wNonempty i h1 _ => have := total_setWr φ s i .chkStop; simp only [h1, wWr] at this; exact Nat.add_right_cancel this
  | wStop i h1 _ => have := total_setWr φ s i .dead; simp only [h1, wWr] at this; exact Nat.add_right_cancel this
  | wGo i h1 _ => have := total_setWr φ s i .gate; simp only [h1, wWr] at this; exact Nat.add_right_cancel this
  | wLow i h1 _ => have := total_setWr φ s i .gateSet; simp only [h1, wWr] at this; exact Nat.add_right_cancel this
  | wHigh i h1 _ => have := total_setWr φ s i .gateChk; simp only [h1, wWr] at this; exact Nat.add_right_cancel this
  | wSet i h1 =>
    have := total_setWr φ { s with shouldWait := true } i .get
    simp only [h1, wWr] at this; exact Nat.add_right_cancel this
  | wChkSet i h1 _ => have := total_setWr φ s i .gateClr; simp only [h1, wWr] at this; exact Nat.add_right_cancel this
  | wChkUnset i h1 _ => have := total_setWr φ s i .get; simp only [h1, wWr] at this; exact Nat.add_right_cancel this
  | wClear i h1 =>
    have := total_setWr φ { s with shouldWait := false } i .get
    simp only [h1, wWr] at this; exact Nat.add_right_cancel this
  | wGet i chunk q h1 h2 =>
    have := total_setWr φ { s with outq := q } i (.acquire chunk)
    simp only [h1, wWr] at this
    have e : total φ s = total φ { s with outq := q } + wl φ chunk := by
      simp only [total, h2, wl_cons]; omega
    omega
  | wTimeout i h1 _ => have := total_setWr φ s i .top; simp only [h1, wWr] at this; exact Nat.add_right_cancel this
  | wAcquire i chunk h1 _ =>
    have := total_setWr φ { s with lock := true } i (.writing chunk (combined entries chunk))
    simp only [h1, wWr] at this; exact Nat.add_right_cancel this
  | wWrite i chunk k vs rem h1 =>
    have := total_setWr φ { s with store := appendTable s.store k vs } i (.writing chunk rem)
    simp only [h1, wWr] at this; exact Nat.add_right_cancel this
  | wRelease i chunk h1 =>
    have := total_setWr φ { s with lock := false, done := s.done ++ chunk } i .top
    simp only [h1, wWr] at this
    have e : total φ { s with lock := false, done := s.done ++ chunk } = total φ s + wl φ chunk := by
      simp only [total, wl_append]; omega
    omega
  | wFail0 i h1 =>
    have := total_setWr φ { s with stop := true } i (.failing 1)
    simp only [h1, wWr] at this; exact Nat.add_right_cancel this
  | wFail1 i h1 =>
    have := total_setWr φ { s with shouldWait := false } i (.failing 2)
    simp only [h1, wWr] at this; exact Nat.add_right_cancel this
  | wFail2 i h1 =>
    have := total_setWr φ { s with lock := false } i .top
    simp only [h1, wWr] at this; exact Nat.add_right_cancel this
  | mStop _ _ _ => rfl
  | mReady _ _ => rfl
  | mEnd _ _ => rfl

/-! ## contents of the store -/

/-- Rows of the chunk that is being written which are already in the store / still to be written. -/
def wRem (θ : K × V → Nat) : Writer R K V → Nat
  | .writing _ rem => wt θ rem
  | _ => 0

def wCur (entries : R → Option (List (K × V))) (θ : K × V → Nat) : Writer R K V → Nat
  | .writing chunk _ => wl (wr entries θ) chunk
  | _ => 0

/-- The store contains the previous content, all tables of the results that are done and the part of the current chunks
that has been written. -/
def StoreInv (entries : R → Option (List (K × V))) (store₀ : Dict K (List V)) (s : State cfg R K V) : Prop :=
  ∀ θ : K × V → Nat, wt θ s.store + ∑ i, wRem θ (s.writers i) =
    wt θ store₀ + wl (wr entries θ) s.done + ∑ i, wCur entries θ (s.writers i)

theorem wr_chunk_nil {chunk : List R} (h : combined entries chunk = []) (θ : K × V → Nat) : wl (wr entries θ) chunk = 0 := by
  rw [← wt_combined, h]; rfl

theorem storeInv_setWr {store₀ : Dict K (List V)} {s : State cfg R K V} (i : Fin cfg.nWriter) (x : Writer R K V)
    (h : ∀ θ : K × V → Nat, wt θ s.store + ∑ i, wRem θ (s.writers i) + wRem θ x + wCur entries θ (s.writers i) =
      wt θ store₀ + wl (wr entries θ) s.done + ∑ i, wCur entries θ (s.writers i) + wRem θ (s.writers i) + wCur entries θ x) :
    StoreInv entries store₀ (s.setWr i x) := by
  intro θ
  have h1 := sum_upd (wRem θ) s.writers i x
  have h2 := sum_upd (wCur entries θ) s.writers i x
  have := h θ
  simp only [State.setWr]
  omega

theorem store_step {store₀ : Dict K (List V)} {s s' : State cfg R K V} (hs : StoreInv entries store₀ s)
    (hf : ∀ i n, s.writers i ≠ .failing n) (h : Step entries cfg s s') : StoreInv entries store₀ s' := by
  cases h with
  | start | pass | finish | cTopStop | cTopRun | cEmpty | cNonempty | cStop | cGo | cGet | cNone | cGood | cBroken | cSpawn | cThread
  | cDead | mStop | mReady | mEnd => exact hs
  | cNothing i chunk h1 _ h2 =>
    intro θ
    have := hs θ
    simp only [State.setPc, State.setC, wl_append, wr_chunk_nil h2]
    omega
  | wTopReady i h1 _ | wTopRun i h1 _ | wEmpty i h1 _ | wNonempty i h1 _ | wStop i h1 _ | wGo i h1 _ | wLow i h1 _ | wHigh i h1 _
  | wSet i h1 | wChkSet i h1 _ | wChkUnset i h1 _ | wClear i h1 | wGet i _ _ h1 _ | wTimeout i h1 _ =>
    refine storeInv_setWr i _ fun θ => ?_
    have := hs θ
    simp only [h1, wRem, wCur] at this ⊢
    omega
  | wAcquire i chunk h1 _ =>
    refine storeInv_setWr i _ fun θ => ?_
    have := hs θ
    simp only [h1, wRem, wCur, wt_combined] at this ⊢
    omega
  | wWrite i chunk k vs rem h1 =>
    refine storeInv_setWr i _ fun θ => ?_
    have := hs θ
    have e : wt θ ((k, vs) :: rem) = wl (fun v => θ (k, v)) vs + wt θ rem := by simp [wt]
    simp only [h1, wRem, wCur, wt_append, e] at this ⊢
    omega
  | wRelease i chunk h1 =>
    refine storeInv_setWr i _ fun θ => ?_
    have := hs θ
    simp only [h1, wRem, wCur, wl_append, wt_nil] at this ⊢
    omega
  | wFail0 i h1 => exact absurd h1 (hf i 0)
  | wFail1 i h1 => exact absurd h1 (hf i 1)
  | wFail2 i h1 => exact absurd h1 (hf i 2)

/-! ## counters -/

def cO (φ : Option R → Nat) : Outcome R → Nat
  | .skip => 0
  | .err => φ none
  | .res r => φ (some r)

def cW (φ : Option R → Nat) : Worker R → Nat
  | .idle => 0
  | .waiting t => cO φ t
  | .exec t => cO φ t

def cPc (φ : Option R → Nat) : CPc R → Nat
  | .hold _ v => φ v
  | _ => 0

/-- The weight of the queue entries that have not been counted yet. -/
def uncounted (φ : Option R → Nat) (s : State cfg R K V) : Nat :=
  wl (cO φ) s.pending + ∑ i, cW φ (s.workers i) + wl φ s.queue + ∑ i, cPc φ (s.combs i).pc

theorem unc_setW (φ : Option R → Nat) (s : State cfg R K V) (w : Fin cfg.nWorker) (x : Worker R) :
    uncounted φ (s.setW w x) + cW φ (s.workers w) = uncounted φ s + cW φ x := by
  have := sum_upd (cW φ) s.workers w x
  simp only [uncounted, State.setW]
  omega

theorem unc_setC (φ : Option R → Nat) (s : State cfg R K V) (i : Fin cfg.nComb) (x : Comb R) :
    uncounted φ (s.setC i x) + cPc φ (s.combs i).pc = uncounted φ s + cPc φ x.pc := by
  have := sum_upd (fun c => cPc φ c.pc) s.combs i x
  simp only [uncounted, State.setC]
  omega

theorem unc_setPc (φ : Option R → Nat) (s : State cfg R K V) (i : Fin cfg.nComb) (x : CPc R) :
    uncounted φ (s.setPc i x) + cPc φ (s.combs i).pc = uncounted φ s + cPc φ x := unc_setC φ s i _

theorem c_put (φ : Option R → Nat) (t : Outcome R) : wl φ t.put = cO φ t := by cases t <;> simp [Outcome.put, cO]

/-- Does a queue entry increase the total counter (the counter of successful results)? -/
def cntTot (entries : R → Option (List (K × V))) : Option R → Nat
  | none => 1
  | some r => if (entries r).isSome then 1 else 0

def cntSucc (entries : R → Option (List (K × V))) : Option R → Nat
  | none => 0
  | some r => if (entries r).isSome then 1 else 0

def cntBad (entries : R → Option (List (K × V))) : Option R → Nat
  | none => 0
  | some r => if (entries r).isSome then 0 else 1

/-- What a step counts: nothing, or one queue entry `v`. -/
theorem count_step {s s' : State cfg R K V} (h : Step entries cfg s s') :
    (s'.tot = s.tot ∧ s'.succ = s.succ ∧ s'.bad = s.bad ∧ ∀ φ : Option R → Nat, uncounted φ s' = uncounted φ s) ∨
    ∃ v : Option R, s'.tot = s.tot + cntTot entries v ∧ s'.succ = s.succ + cntSucc entries v ∧ s'.bad = s.bad + cntBad entries v ∧
      ∀ φ : Option R → Nat, uncounted φ s' + φ v = uncounted φ s := by
  cases h with
  | start w l₁ t l₂ h1 h2 =>
    refine .inl ⟨rfl, rfl, rfl, fun φ => ?_⟩
    have := unc_setW φ { s with pending := l₁ ++ l₂ } w (.waiting t)
    simp only [h1, cW] at this
    have e : uncounted φ s = uncounted φ { s with pending := l₁ ++ l₂ } + cO φ t := by
      simp only [uncounted, h2, wl_append, wl_cons]; omega
    omega
  | pass w t h1 h2 =>
    refine .inl ⟨rfl, rfl, rfl, fun φ => ?_⟩
    have := unc_setW φ s w (.exec t)
    simp only [h1, cW] at this
    omega
  | finish w t h1 =>
    refine .inl ⟨rfl, rfl, rfl, fun φ => ?_⟩
    have := unc_setW φ { s with queue := s.queue ++ t.put } w .idle
    simp only [h1, cW] at this
    have e : uncounted φ { s with queue := s.queue ++ t.put } = uncounted φ s + cO φ t := by
      simp only [uncounted, wl_append, c_put]; omega
    omega
  | cTopStop i h1 _ | cTopRun i h1 _ | cEmpty i h1 _ | cNonempty i h1 _ | cStop i h1 _ | cGo i h1 _ =>
    refine .inl ⟨rfl, rfl, rfl, fun φ => ?_⟩
    first
      | (have := unc_setPc φ s i .chkEmpty; simp only [h1, cPc] at this; exact Nat.add_right_cancel this)
      | (have := unc_setPc φ s i .chkStop; simp only [h1, cPc] at this; exact Nat.add_right_cancel this)
      | (have := unc_setPc φ s i .joining; simp only [h1, cPc] at this; exact Nat.add_right_cancel this)
      | (have := unc_setPc φ s i (.collect []); simp only [h1, cPc] at this; exact Nat.add_right_cancel this)
  | cGet i chunk v q h1 _ h2 =>
    refine .inl ⟨rfl, rfl, rfl, fun φ => ?_⟩
    have := unc_setPc φ { s with queue := q } i (.hold chunk v)
    simp only [h1, cPc] at this
    have e : uncounted φ s = uncounted φ { s with queue := q } + φ v := by
      simp only [uncounted, h2, wl_cons]; omega
    omega
  | cNone i chunk h1 =>
    refine .inr ⟨none, rfl, rfl, rfl, fun φ => ?_⟩
    have := unc_setPc φ { s with tot := s.tot + 1 } i (.collect chunk)
    simp only [h1, cPc] at this
    exact this
  | cGood i chunk r h1 h2 =>
    refine .inr ⟨some r, by simp [State.setPc, State.setC, cntTot, h2], by simp [State.setPc, State.setC, cntSucc, h2],
      by simp [State.setPc, State.setC, cntBad, h2], fun φ => ?_⟩
    have := unc_setPc φ { s with tot := s.tot + 1, succ := s.succ + 1 } i (.collect (chunk ++ [r]))
    simp only [h1, cPc] at this
    exact this
  | cBroken i chunk r h1 h2 =>
    refine .inr ⟨some r, by simp [State.setPc, State.setC, cntTot, h2], by simp [State.setPc, State.setC, cntSucc, h2],
      by simp [State.setPc, State.setC, cntBad, h2], fun φ => ?_⟩
    have := unc_setPc φ { s with lost := s.lost ++ chunk ++ [r], bad := s.bad + 1 } i .top
    simp only [h1, cPc] at this
    exact this
  | cSpawn i chunk h1 _ _ =>
    refine .inl ⟨rfl, rfl, rfl, fun φ => ?_⟩
    have := unc_setC φ s i ⟨.top, (s.combs i).threads ++ [chunk]⟩
    simp only [h1, cPc] at this
    exact Nat.add_right_cancel this
  | cNothing i chunk h1 _ _ =>
    refine .inl ⟨rfl, rfl, rfl, fun φ => ?_⟩
    have := unc_setPc φ { s with done := s.done ++ chunk } i .top
    simp only [h1, cPc] at this
    exact Nat.add_right_cancel this
  | cThread i l₁ chunk l₂ h1 =>
    refine .inl ⟨rfl, rfl, rfl, fun φ => ?_⟩
    have := unc_setC φ { s with outq := s.outq ++ [chunk] } i ⟨(s.combs i).pc, l₁ ++ l₂⟩
    exact Nat.add_right_cancel this
  | cDead i h1 =>
    refine .inl ⟨rfl, rfl, rfl, fun φ => ?_⟩
    have := unc_setPc φ s i .dead
    simp only [h1, cPc] at this
    exact Nat.add_right_cancel this
  | wTopReady | wTopRun | wEmpty | wNonempty | wStop | wGo | wLow | wHigh | wSet | wChkSet | wChkUnset | wClear | wGet | wTimeout
  | wAcquire | wWrite | wRelease | wFail0 | wFail1 | wFail2 | mStop | mReady | mEnd => exact .inl ⟨rfl, rfl, rfl, fun φ => rfl⟩

/-! ## control -/

def Writer.isWriting : Writer R K V → Prop
  | .writing _ _ => True
  | _ => False

/-- The control invariant of runs without failures. -/
structure Ctl (s : State cfg R K V) : Prop where
  pool : s.shouldStop = true → s.pending = [] ∧ ∀ w, s.workers w = .idle
  chkEmpty : ∀ i, (s.combs i).pc = .chkEmpty → s.shouldStop = true
  joining : ∀ i, (s.combs i).pc = .joining → s.shouldStop = true ∧ s.queue = []
  dead : ∀ i, (s.combs i).pc = .dead → s.shouldStop = true ∧ s.queue = [] ∧ (s.combs i).threads = []
  ready : s.ready = true → ∀ i, (s.combs i).pc = .dead
  wEmpty : ∀ i, s.writers i = .chkEmpty → s.ready = true
  wDead : ∀ i, s.writers i = .dead → s.ready = true ∧ s.outq = []
  stop : s.stop = true → ∀ i, s.writers i = .dead
  noFail : ∀ i n, s.writers i ≠ .failing n
  lock1 : ∀ i, (s.writers i).isWriting → s.lock = true
  lock2 : s.lock = true → ∃ i, (s.writers i).isWriting
  lock3 : ∀ i j, (s.writers i).isWriting → (s.writers j).isWriting → i = j
  mainPool : s.main = .pool ↔ s.shouldStop = false
  mainReady : (s.main = .joinW ∨ s.main = .finished) ↔ s.ready = true
  mainStop : s.main = .finished ↔ s.stop = true

theorem ctl_init (tasks : List (Outcome R)) (store : Dict K (List V)) : Ctl (init cfg tasks store) := by
  constructor <;> simp [init, Writer.isWriting]

theorem ctl_setW {s : State cfg R K V} (hs : Ctl s) (hno : s.shouldStop = false) (p q w) (x : Worker R) :
    Ctl ({ s with pending := p, queue := q }.setW w x) := by
  constructor <;> simp only [State.setW]
  · intro h; rw [hno] at h; cases h
  · exact hs.chkEmpty
  · intro i h; have := hs.joining i h; rw [hno] at this; exact absurd this.1 (by decide)
  · intro i h; have := hs.dead i h; rw [hno] at this; exact absurd this.1 (by decide)
  · exact hs.ready
  · exact hs.wEmpty
  · exact hs.wDead
  · exact hs.stop
  · exact hs.noFail
  · exact hs.lock1
  · exact hs.lock2
  · exact hs.lock3
  · exact hs.mainPool
  · exact hs.mainReady
  · exact hs.mainStop

/-- Steps of combiners. -/
theorem ctl_C {s : State cfg R K V} (hs : Ctl s) (i : Fin cfg.nComb) (x : Comb R) (q o tot succ lost bad done)
    (hq : s.queue = [] → q = []) (ho : o = s.outq ∨ s.ready = false) (hr : s.ready = true → x.pc = .dead)
    (h1 : x.pc = .chkEmpty → s.shouldStop = true) (h2 : x.pc = .joining → s.shouldStop = true ∧ q = [])
    (h3 : x.pc = .dead → s.shouldStop = true ∧ q = [] ∧ x.threads = []) :
    Ctl ({ s with queue := q, outq := o, tot := tot, succ := succ, lost := lost, bad := bad, done := done }.setC i x) := by
  constructor <;> simp only [State.setC]
  · exact hs.pool
  · intro j h
    by_cases hj : j = i
    · subst hj; rw [update_self] at h; exact h1 h
    · rw [update_of_ne hj] at h; exact hs.chkEmpty j h
  · intro j h
    by_cases hj : j = i
    · subst hj; rw [update_self] at h; exact h2 h
    · rw [update_of_ne hj] at h; exact ⟨(hs.joining j h).1, hq (hs.joining j h).2⟩
  · intro j h
    by_cases hj : j = i
    · subst hj; rw [update_self] at h ⊢; exact h3 h
    · rw [update_of_ne hj] at h ⊢; exact ⟨(hs.dead j h).1, hq (hs.dead j h).2.1, (hs.dead j h).2.2⟩
  · intro h j
    by_cases hj : j = i
    · subst hj; rw [update_self]; exact hr h
    · rw [update_of_ne hj]; exact hs.ready h j
  · exact hs.wEmpty
  · intro j h
    have := hs.wDead j h
    rcases ho with ho | ho
    · rw [ho]; exact this
    · rw [ho] at this; exact absurd this.1 (by decide)
  · exact hs.stop
  · exact hs.noFail
  · exact hs.lock1
  · exact hs.lock2
  · exact hs.lock3
  · exact hs.mainPool
  · exact hs.mainReady
  · exact hs.mainStop

/-- Steps of writers. -/
theorem ctl_Wr {s : State cfg R K V} (hs : Ctl s) (i : Fin cfg.nWriter) (x : Writer R K V) (o lk st sw done)
    (hi : s.writers i ≠ .dead) (ho : s.outq = [] → o = []) (h1 : x = .chkEmpty → s.ready = true)
    (h2 : x = .dead → s.ready = true ∧ o = [])
    (h3 : ∀ n, x ≠ .failing n)
    (hl : (lk = s.lock ∧ (x.isWriting ↔ (s.writers i).isWriting)) ∨ (s.lock = false ∧ lk = true ∧ x.isWriting) ∨
      (lk = false ∧ (s.writers i).isWriting ∧ ¬ x.isWriting)) :
    Ctl ({ s with outq := o, lock := lk, store := st, shouldWait := sw, done := done }.setWr i x) := by
  have hns : s.stop = false := by
    cases h : s.stop with
    | false => rfl
    | true => exact absurd (hs.stop h i) hi
  constructor <;> simp only [State.setWr]
  · exact hs.pool
  · exact hs.chkEmpty
  · exact hs.joining
  · exact hs.dead
  · exact hs.ready
  · intro j h
    by_cases hj : j = i
    · subst hj; rw [update_self] at h; exact h1 h
    · rw [update_of_ne hj] at h; exact hs.wEmpty j h
  · intro j h
    by_cases hj : j = i
    · subst hj; rw [update_self] at h; exact h2 h
    · rw [update_of_ne hj] at h; exact ⟨(hs.wDead j h).1, ho (hs.wDead j h).2⟩
  · intro h; rw [hns] at h; cases h
  · intro j n
    by_cases hj : j = i
    · subst hj; rw [update_self]; exact h3 n
    · rw [update_of_ne hj]; exact hs.noFail j n
  · intro j h
    by_cases hj : j = i
    · subst hj; rw [update_self] at h
      rcases hl with ⟨e1, e2⟩ | ⟨_, e, _⟩ | ⟨_, _, e⟩
      · rw [e1]; exact hs.lock1 j (e2.1 h)
      · exact e
      · exact absurd h e
    · rw [update_of_ne hj] at h
      rcases hl with ⟨e1, _⟩ | ⟨_, e, _⟩ | ⟨_, e, _⟩
      · rw [e1]; exact hs.lock1 j h
      · exact e
      · exact absurd (hs.lock3 _ _ h e) hj
  · intro h
    rcases hl with ⟨e1, e2⟩ | ⟨_, _, e⟩ | ⟨e, _, _⟩
    · rw [e1] at h
      obtain ⟨j, hj⟩ := hs.lock2 h
      refine ⟨j, ?_⟩
      by_cases hji : j = i
      · subst hji; rw [update_self]; exact e2.2 hj
      · rw [update_of_ne hji]; exact hj
    · exact ⟨i, by rw [update_self]; exact e⟩
    · rw [e] at h; cases h
  · intro j k hj hk
    by_cases hji : j = i
    · subst hji
      by_cases hki : k = j
      · exact hki.symm
      · rw [update_self] at hj; rw [update_of_ne hki] at hk
        rcases hl with ⟨_, e2⟩ | ⟨e, _, _⟩ | ⟨_, _, e⟩
        · exact hs.lock3 _ _ (e2.1 hj) hk
        · rw [hs.lock1 k hk] at e; cases e
        · exact absurd hj e
    · rw [update_of_ne hji] at hj
      by_cases hki : k = i
      · subst hki
        rw [update_self] at hk
        rcases hl with ⟨_, e2⟩ | ⟨e, _, _⟩ | ⟨_, _, e⟩
        · exact hs.lock3 _ _ hj (e2.1 hk)
        · rw [hs.lock1 j hj] at e; cases e
        · exact absurd hk e
      · rw [update_of_ne hki] at hk; exact hs.lock3 _ _ hj hk
  · exact hs.mainPool
  · exact hs.mainReady
  · exact hs.mainStop

/-- The control invariant holds in all states of runs without failures. -/
theorem ctl_step {s s' : State cfg R K V} (hs : Ctl s) (h : Step entries cfg s s') : Ctl s' := by
  have noStop : ∀ w, s.workers w ≠ .idle → s.shouldStop = false := by
    intro w hw
    cases h : s.shouldStop with
    | false => rfl
    | true => exact absurd ((hs.pool h).2 w) hw
  have noReady : ∀ i, (s.combs i).pc ≠ .dead → s.ready = true → False := fun i hi hr => hi (hs.ready hr i)
  cases h with
  | start w l₁ t l₂ h1 h2 =>
    have hno : s.shouldStop = false := by
      cases h : s.shouldStop with
      | false => rfl
      | true => have := (hs.pool h).1; rw [h2] at this; simp at this
    exact ctl_setW hs hno (l₁ ++ l₂) s.queue w _
  | pass w t h1 h2 => exact ctl_setW hs (noStop w (by rw [h1]; simp)) s.pending s.queue w _
  | finish w t h1 => exact ctl_setW hs (noStop w (by rw [h1]; simp)) s.pending _ w _
  | cTopStop i h1 h2 =>
    exact ctl_C hs i ⟨.chkEmpty, (s.combs i).threads⟩ s.queue s.outq s.tot s.succ s.lost s.bad s.done id (.inl rfl)
      (fun h => (noReady i (by rw [h1]; simp) h).elim) (fun _ => h2) (by simp) (by simp)
  | cTopRun i h1 _ =>
    exact ctl_C hs i ⟨.chkStop, (s.combs i).threads⟩ s.queue s.outq s.tot s.succ s.lost s.bad s.done id (.inl rfl)
      (fun h => (noReady i (by rw [h1]; simp) h).elim) (by simp) (by simp) (by simp)
  | cEmpty i h1 h2 =>
    exact ctl_C hs i ⟨.joining, (s.combs i).threads⟩ s.queue s.outq s.tot s.succ s.lost s.bad s.done id (.inl rfl)
      (fun h => (noReady i (by rw [h1]; simp) h).elim) (by simp) (fun _ => ⟨hs.chkEmpty i h1, h2⟩) (by simp)
  | cNonempty i h1 _ =>
    exact ctl_C hs i ⟨.chkStop, (s.combs i).threads⟩ s.queue s.outq s.tot s.succ s.lost s.bad s.done id (.inl rfl)
      (fun h => (noReady i (by rw [h1]; simp) h).elim) (by simp) (by simp) (by simp)
  | cStop i h1 h2 =>
    exfalso
    have := (hs.mainReady.1 (.inr (hs.mainStop.2 h2)))
    exact noReady i (by rw [h1]; simp) this
  | cGo i h1 _ =>
    exact ctl_C hs i ⟨.collect [], (s.combs i).threads⟩ s.queue s.outq s.tot s.succ s.lost s.bad s.done id (.inl rfl)
      (fun h => (noReady i (by rw [h1]; simp) h).elim) (by simp) (by simp) (by simp)
  | cGet i chunk v q h1 _ h2 =>
    exact ctl_C hs i ⟨.hold chunk v, (s.combs i).threads⟩ q s.outq s.tot s.succ s.lost s.bad s.done (by rw [h2]; simp) (.inl rfl)
      (fun h => (noReady i (by rw [h1]; simp) h).elim) (by simp) (by simp) (by simp)
  | cNone i chunk h1 =>
    exact ctl_C hs i ⟨.collect chunk, (s.combs i).threads⟩ s.queue s.outq (s.tot + 1) s.succ s.lost s.bad s.done id (.inl rfl)
      (fun h => (noReady i (by rw [h1]; simp) h).elim) (by simp) (by simp) (by simp)
  | cGood i chunk r h1 _ =>
    exact ctl_C hs i ⟨.collect (chunk ++ [r]), (s.combs i).threads⟩ s.queue s.outq (s.tot + 1) (s.succ + 1) s.lost s.bad s.done id
      (.inl rfl) (fun h => (noReady i (by rw [h1]; simp) h).elim) (by simp) (by simp) (by simp)
  | cBroken i chunk r h1 _ =>
    exact ctl_C hs i ⟨.top, (s.combs i).threads⟩ s.queue s.outq s.tot s.succ (s.lost ++ chunk ++ [r]) (s.bad + 1) s.done id
      (.inl rfl) (fun h => (noReady i (by rw [h1]; simp) h).elim) (by simp) (by simp) (by simp)
  | cSpawn i chunk h1 _ _ =>
    exact ctl_C hs i ⟨.top, (s.combs i).threads ++ [chunk]⟩ s.queue s.outq s.tot s.succ s.lost s.bad s.done id (.inl rfl)
      (fun h => (noReady i (by rw [h1]; simp) h).elim) (by simp) (by simp) (by simp)
  | cNothing i chunk h1 _ _ =>
    exact ctl_C hs i ⟨.top, (s.combs i).threads⟩ s.queue s.outq s.tot s.succ s.lost s.bad (s.done ++ chunk) id (.inl rfl)
      (fun h => (noReady i (by rw [h1]; simp) h).elim) (by simp) (by simp) (by simp)
  | cThread i l₁ chunk l₂ h1 =>
    have hnd : (s.combs i).pc ≠ .dead := by
      intro hd
      have := (hs.dead i hd).2.2
      rw [h1] at this; simp at this
    have hnr : s.ready = false := by
      cases h : s.ready with
      | false => rfl
      | true => exact (noReady i hnd h).elim
    exact ctl_C hs i ⟨(s.combs i).pc, l₁ ++ l₂⟩ s.queue (s.outq ++ [chunk]) s.tot s.succ s.lost s.bad s.done id (.inr hnr)
      (fun h => (noReady i hnd h).elim) (hs.chkEmpty i) (hs.joining i) (fun h => absurd h hnd)
  | cDead i h1 =>
    have hj := hs.joining i (by rw [h1])
    exact ctl_C hs i ⟨.dead, (s.combs i).threads⟩ s.queue s.outq s.tot s.succ s.lost s.bad s.done id (.inl rfl)
      (fun _ => rfl) (by simp) (by simp) (fun _ => ⟨hj.1, hj.2, by rw [h1]⟩)
  | wTopReady i h1 h2 =>
    exact ctl_Wr hs i .chkEmpty s.outq s.lock s.store s.shouldWait s.done (by rw [h1]; simp) id (fun _ => h2) (by simp) (by simp)
      (.inl ⟨rfl, by simp [h1, Writer.isWriting]⟩)
  | wTopRun i h1 _ =>
    exact ctl_Wr hs i .chkStop s.outq s.lock s.store s.shouldWait s.done (by rw [h1]; simp) id (by simp) (by simp) (by simp)
      (.inl ⟨rfl, by simp [h1, Writer.isWriting]⟩)
  | wEmpty i h1 h2 =>
    exact ctl_Wr hs i .dead s.outq s.lock s.store s.shouldWait s.done (by rw [h1]; simp) id (by simp)
      (fun _ => ⟨hs.wEmpty i h1, h2⟩) (by simp) (.inl ⟨rfl, by simp [h1, Writer.isWriting]⟩)
  | wNonempty i h1 _ =>
    exact ctl_Wr hs i .chkStop s.outq s.lock s.store s.shouldWait s.done (by rw [h1]; simp) id (by simp) (by simp) (by simp)
      (.inl ⟨rfl, by simp [h1, Writer.isWriting]⟩)
  | wStop i h1 h2 => have := hs.stop h2 i; rw [h1] at this; cases this
  | wGo i h1 _ =>
    exact ctl_Wr hs i .gate s.outq s.lock s.store s.shouldWait s.done (by rw [h1]; simp) id (by simp) (by simp) (by simp)
      (.inl ⟨rfl, by simp [h1, Writer.isWriting]⟩)
  | wLow i h1 _ =>
    exact ctl_Wr hs i .gateSet s.outq s.lock s.store s.shouldWait s.done (by rw [h1]; simp) id (by simp) (by simp) (by simp)
      (.inl ⟨rfl, by simp [h1, Writer.isWriting]⟩)
  | wHigh i h1 _ =>
    exact ctl_Wr hs i .gateChk s.outq s.lock s.store s.shouldWait s.done (by rw [h1]; simp) id (by simp) (by simp) (by simp)
      (.inl ⟨rfl, by simp [h1, Writer.isWriting]⟩)
  | wSet i h1 =>
    exact ctl_Wr hs i .get s.outq s.lock s.store true s.done (by rw [h1]; simp) id (by simp) (by simp) (by simp)
      (.inl ⟨rfl, by simp [h1, Writer.isWriting]⟩)
  | wChkSet i h1 _ =>
    exact ctl_Wr hs i .gateClr s.outq s.lock s.store s.shouldWait s.done (by rw [h1]; simp) id (by simp) (by simp) (by simp)
      (.inl ⟨rfl, by simp [h1, Writer.isWriting]⟩)
  | wChkUnset i h1 _ =>
    exact ctl_Wr hs i .get s.outq s.lock s.store s.shouldWait s.done (by rw [h1]; simp) id (by simp) (by simp) (by simp)
      (.inl ⟨rfl, by simp [h1, Writer.isWriting]⟩)
  | wClear i h1 =>
    exact ctl_Wr hs i .get s.outq s.lock s.store false s.done (by rw [h1]; simp) id (by simp) (by simp) (by simp)
      (.inl ⟨rfl, by simp [h1, Writer.isWriting]⟩)
  | wGet i chunk q h1 h2 =>
    exact ctl_Wr hs i (.acquire chunk) q s.lock s.store s.shouldWait s.done (by rw [h1]; simp) (by rw [h2]; simp) (by simp) (by simp)
      (by simp) (.inl ⟨rfl, by simp [h1, Writer.isWriting]⟩)
  | wTimeout i h1 _ =>
    exact ctl_Wr hs i .top s.outq s.lock s.store s.shouldWait s.done (by rw [h1]; simp) id (by simp) (by simp) (by simp)
      (.inl ⟨rfl, by simp [h1, Writer.isWriting]⟩)
  | wAcquire i chunk h1 h2 =>
    exact ctl_Wr hs i (.writing chunk (combined entries chunk)) s.outq true s.store s.shouldWait s.done (by rw [h1]; simp) id
      (by simp) (by simp) (by simp) (.inr (.inl ⟨h2, rfl, trivial⟩))
  | wWrite i chunk k vs rem h1 =>
    exact ctl_Wr hs i (.writing chunk rem) s.outq s.lock (appendTable s.store k vs) s.shouldWait s.done (by rw [h1]; simp) id
      (by simp) (by simp) (by simp) (.inl ⟨rfl, by simp [h1, Writer.isWriting]⟩)
  | wRelease i chunk h1 =>
    exact ctl_Wr hs i .top s.outq false s.store s.shouldWait (s.done ++ chunk) (by rw [h1]; simp) id
      (by simp) (by simp) (by simp) (.inr (.inr ⟨rfl, by rw [h1]; trivial, by simp [Writer.isWriting]⟩))
  | wFail0 i h1 => exact absurd h1 (hs.noFail i 0)
  | wFail1 i h1 => exact absurd h1 (hs.noFail i 1)
  | wFail2 i h1 => exact absurd h1 (hs.noFail i 2)
  | mStop h1 h2 h3 =>
    have hss : s.shouldStop = false := hs.mainPool.1 h1
    have hr : s.ready = false := by
      cases h : s.ready with
      | false => rfl
      | true => have := hs.mainReady.2 h; rw [h1] at this; simp at this
    have hst : s.stop = false := by
      cases h : s.stop with
      | false => rfl
      | true => have := hs.mainStop.2 h; rw [h1] at this; simp at this
    constructor <;> simp only
    · exact fun _ => ⟨h2, h3⟩
    · exact fun _ _ => trivial
    · intro i h; have := (hs.joining i h).1; rw [hss] at this; cases this
    · intro i h; have := (hs.dead i h).1; rw [hss] at this; cases this
    · exact hs.ready
    · exact hs.wEmpty
    · exact hs.wDead
    · exact hs.stop
    · exact hs.noFail
    · exact hs.lock1
    · exact hs.lock2
    · exact hs.lock3
    · simp
    · simp [hr]
    · simp [hst]
  | mReady h1 h2 =>
    have hst : s.stop = false := by
      cases h : s.stop with
      | false => rfl
      | true => have := hs.mainStop.2 h; rw [h1] at this; simp at this
    have hr : s.ready = false := by
      cases h : s.ready with
      | false => rfl
      | true => have := hs.mainReady.2 h; rw [h1] at this; simp at this
    have hss : s.shouldStop = true := by
      cases h : s.shouldStop with
      | true => rfl
      | false => have := hs.mainPool.2 h; rw [h1] at this; simp at this
    constructor <;> simp only
    · exact hs.pool
    · exact hs.chkEmpty
    · exact hs.joining
    · exact hs.dead
    · exact fun _ => h2
    · exact fun _ _ => trivial
    · intro i h; have := (hs.wDead i h).1; rw [hr] at this; cases this
    · exact hs.stop
    · exact hs.noFail
    · exact hs.lock1
    · exact hs.lock2
    · exact hs.lock3
    · simp [hss]
    · simp
    · simp [hst]
  | mEnd h1 h2 =>
    have hr : s.ready = true := hs.mainReady.1 (.inl h1)
    have hss : s.shouldStop = true := by
      cases h : s.shouldStop with
      | true => rfl
      | false => have := hs.mainPool.2 h; rw [h1] at this; simp at this
    constructor <;> simp only
    · exact hs.pool
    · exact hs.chkEmpty
    · exact hs.joining
    · exact hs.dead
    · exact hs.ready
    · exact hs.wEmpty
    · exact hs.wDead
    · exact fun _ => h2
    · exact hs.noFail
    · exact hs.lock1
    · exact hs.lock2
    · exact hs.lock3
    · simp [hss]
    · simp [hr]

theorem ctl_run {tasks : List (Outcome R)} {store : Dict K (List V)} {s : State cfg R K V}
    (h : Run entries cfg (init cfg tasks store) s) : Ctl s := by
  induction h with
  | refl => exact ctl_init tasks store
  | tail _ h ih => exact ctl_step ih h

theorem total_run (φ : R → Nat) {tasks : List (Outcome R)} {store : Dict K (List V)} {s : State cfg R K V}
    (h : Run entries cfg (init cfg tasks store) s) : total φ s = wl (wO φ) tasks := by
  induction h with
  | refl => simp [total, init, wW, wC, wPc, wWr]
  | tail _ h ih => rw [total_step φ h, ih]

theorem store_run {tasks : List (Outcome R)} {store : Dict K (List V)} {s : State cfg R K V}
    (h : Run entries cfg (init cfg tasks store) s) : StoreInv entries store s := by
  induction h with
  | refl => intro θ; simp [init, wRem, wCur]
  | tail h1 h ih => exact store_step ih (ctl_run h1).noFail h

theorem count_run {tasks : List (Outcome R)} {store : Dict K (List V)} {s : State cfg R K V}
    (h : Run entries cfg (init cfg tasks store) s) :
    s.tot + uncounted (cntTot entries) s = wl (cO (cntTot entries)) tasks ∧
    s.succ + uncounted (cntSucc entries) s = wl (cO (cntSucc entries)) tasks ∧
    s.bad + uncounted (cntBad entries) s = wl (cO (cntBad entries)) tasks := by
  induction h with
  | refl => simp [uncounted, init, cW, cPc]
  | tail _ h ih =>
    rcases count_step h with ⟨h1, h2, h3, h4⟩ | ⟨v, h1, h2, h3, h4⟩
    · rw [h1, h2, h3, h4, h4, h4]; exact ih
    · have e1 := h4 (cntTot entries); have e2 := h4 (cntSucc entries); have e3 := h4 (cntBad entries)
      refine ⟨?_, ?_, ?_⟩ <;> omega

/-! ## discarded results -/

/-- At most `write_chunk_size - 1` other results are discarded for every broken one. -/
structure LostInv (entries : R → Option (List (K × V))) (s : State cfg R K V) : Prop where
  chunk : ∀ i chunk v, (s.combs i).pc = .hold chunk v → chunk.length < cfg.chunkSize
  good : (s.lost.filter fun r => (entries r).isSome).length ≤ s.bad * (cfg.chunkSize - 1)

theorem lost_setPc {s : State cfg R K V} (hs : LostInv entries s) (i : Fin cfg.nComb) (x : Comb R)
    (hx : ∀ chunk v, x.pc = .hold chunk v → chunk.length < cfg.chunkSize) : LostInv entries (s.setC i x) := by
  refine ⟨fun j chunk v h => ?_, hs.good⟩
  simp only [State.setC] at h
  by_cases hj : j = i
  · subst hj; rw [update_self] at h; exact hx chunk v h
  · rw [update_of_ne hj] at h; exact hs.chunk j chunk v h

theorem lost_step {s s' : State cfg R K V} (hs : LostInv entries s) (h : Step entries cfg s s') : LostInv entries s' := by
  cases h with
  | start | pass | finish | wTopReady | wTopRun | wEmpty | wNonempty | wStop | wGo | wLow | wHigh | wSet | wChkSet | wChkUnset | wClear
  | wGet | wTimeout | wAcquire | wWrite | wRelease | wFail0 | wFail1 | wFail2 | mStop | mReady | mEnd => exact ⟨hs.chunk, hs.good⟩
  | cTopStop i | cTopRun i | cEmpty i | cNonempty i | cStop i | cGo i | cDead i =>
    exact lost_setPc hs i _ (fun _ _ h => by simp at h)
  | cSpawn i => exact lost_setPc hs i _ (fun _ _ h => by simp at h)
  | cThread i l₁ chunk l₂ _ =>
    exact lost_setPc (s := { s with outq := s.outq ++ [chunk] }) ⟨hs.chunk, hs.good⟩ i _ (fun c v h => hs.chunk i c v h)
  | cNothing i chunk =>
    exact lost_setPc (s := { s with done := s.done ++ chunk }) ⟨hs.chunk, hs.good⟩ i _ (fun _ _ h => by simp at h)
  | cNone i chunk => 
    exact lost_setPc (s := { s with tot := s.tot + 1 }) ⟨hs.chunk, hs.good⟩ i _ (fun _ _ h => by simp at h)
  | cGood i chunk r => 
    exact lost_setPc (s := { s with tot := s.tot + 1, succ := s.succ + 1 }) ⟨hs.chunk, hs.good⟩ i _ (fun _ _ h => by simp at h)
  | cGet i chunk v q h1 h2 h3 =>
    refine lost_setPc (s := { s with queue := q }) ⟨hs.chunk, hs.good⟩ i _ (fun c v' h => ?_)
    simp only [CPc.hold.injEq] at h
    rw [← h.1]; exact h2
  | cBroken i chunk r h1 h2 =>
    refine lost_setPc (s := { s with lost := s.lost ++ chunk ++ [r], bad := s.bad + 1 }) ⟨hs.chunk, ?_⟩ i _ (fun _ _ h => by simp at h)
    have hc := hs.chunk i chunk _ h1
    have hl := List.length_filter_le (fun r => (entries r).isSome) chunk
    have hg := hs.good
    simp only [List.filter_append, List.length_append, List.filter_cons, h2, Option.isSome_none, List.filter_nil]
    simp only [Bool.false_eq_true, if_false, List.length_nil]
    have e : (s.bad + 1) * (cfg.chunkSize - 1) = s.bad * (cfg.chunkSize - 1) + (cfg.chunkSize - 1) := by ring
    omega

theorem lost_run {tasks : List (Outcome R)} {store : Dict K (List V)} {s : State cfg R K V}
    (h : Run entries cfg (init cfg tasks store) s) : LostInv entries s := by
  induction h with
  | refl => exact ⟨by simp [init], by simp [init]⟩
  | tail _ h ih => exact lost_step ih h

/-! ## sizes of chunks -/

def pcSize (n : Nat) : CPc R → Prop
  | .collect chunk => chunk.length ≤ n
  | .hold chunk _ => chunk.length < n
  | _ => True

def wrSize (n : Nat) : Writer R K V → Prop
  | .acquire chunk => chunk.length ≤ n
  | .writing chunk _ => chunk.length ≤ n
  | _ => True

/-- No chunk has more than `write_chunk_size` results. -/
structure SizeInv (s : State cfg R K V) : Prop where
  pc : ∀ i, pcSize cfg.chunkSize (s.combs i).pc
  threads : ∀ i, ∀ c ∈ (s.combs i).threads, c.length ≤ cfg.chunkSize
  outq : ∀ c ∈ s.outq, c.length ≤ cfg.chunkSize
  writers : ∀ i, wrSize cfg.chunkSize (s.writers i)

theorem size_C {s : State cfg R K V} (hs : SizeInv s) (i : Fin cfg.nComb) (x : Comb R) (q o tot succ lost bad done)
    (ho : ∀ c ∈ o, c.length ≤ cfg.chunkSize) (h1 : pcSize cfg.chunkSize x.pc) (h2 : ∀ c ∈ x.threads, c.length ≤ cfg.chunkSize) :
    SizeInv ({ s with queue := q, outq := o, tot := tot, succ := succ, lost := lost, bad := bad, done := done }.setC i x) := by
  refine ⟨fun j => ?_, fun j => ?_, ho, hs.writers⟩ <;> simp only [State.setC] <;> by_cases hj : j = i
  · subst hj; rw [update_self]; exact h1
  · rw [update_of_ne hj]; exact hs.pc j
  · subst hj; rw [update_self]; exact h2
  · rw [update_of_ne hj]; exact hs.threads j

theorem size_Wr {s : State cfg R K V} (hs : SizeInv s) (i : Fin cfg.nWriter) (x : Writer R K V) (o lk st sw stp done)
    (ho : ∀ c ∈ o, c.length ≤ cfg.chunkSize) (h1 : wrSize cfg.chunkSize x) :
    SizeInv ({ s with outq := o, lock := lk, store := st, shouldWait := sw, stop := stp, done := done }.setWr i x) := by
  refine ⟨hs.pc, hs.threads, ho, fun j => ?_⟩
  simp only [State.setWr]
  by_cases hj : j = i
  · subst hj; rw [update_self]; exact h1
  · rw [update_of_ne hj]; exact hs.writers j

theorem size_step {s s' : State cfg R K V} (hs : SizeInv s) (h : Step entries cfg s s') : SizeInv s' := by
  cases h with
  | start | pass | finish | mStop | mReady | mEnd => exact ⟨hs.pc, hs.threads, hs.outq, hs.writers⟩
  | cTopStop i | cTopRun i | cEmpty i | cNonempty i | cStop i | cDead i =>
    exact size_C hs i ⟨_, (s.combs i).threads⟩ s.queue s.outq s.tot s.succ s.lost s.bad s.done hs.outq trivial (hs.threads i)
  | cGo i =>
    exact size_C hs i ⟨_, (s.combs i).threads⟩ s.queue s.outq s.tot s.succ s.lost s.bad s.done hs.outq (Nat.zero_le _) (hs.threads i)
  | cGet i chunk v q h1 h2 h3 =>
    exact size_C hs i ⟨_, (s.combs i).threads⟩ q s.outq s.tot s.succ s.lost s.bad s.done hs.outq h2 (hs.threads i)
  | cNone i chunk h1 =>
    have := hs.pc i; rw [h1] at this
    exact size_C hs i ⟨_, (s.combs i).threads⟩ s.queue s.outq (s.tot + 1) s.succ s.lost s.bad s.done hs.outq
      (Nat.le_of_lt this) (hs.threads i)
  | cGood i chunk r h1 _ =>
    have := hs.pc i; rw [h1] at this
    refine size_C hs i ⟨.collect (chunk ++ [r]), (s.combs i).threads⟩ s.queue s.outq (s.tot + 1) (s.succ + 1) s.lost s.bad s.done hs.outq
      ?_ (hs.threads i)
    simp only [pcSize, List.length_append, List.length_cons, List.length_nil] at this ⊢
    omega
  | cBroken i chunk r h1 _ =>
    exact size_C hs i ⟨_, (s.combs i).threads⟩ s.queue s.outq s.tot s.succ (s.lost ++ chunk ++ [r]) (s.bad + 1) s.done hs.outq
      trivial (hs.threads i)
  | cSpawn i chunk h1 _ _ =>
    have := hs.pc i; rw [h1] at this
    refine size_C hs i ⟨.top, (s.combs i).threads ++ [chunk]⟩ s.queue s.outq s.tot s.succ s.lost s.bad s.done hs.outq trivial ?_
    intro c hc
    rcases List.mem_append.1 hc with hc | hc
    · exact hs.threads i c hc
    · rw [List.mem_singleton.1 hc]; exact this
  | cNothing i chunk h1 _ _ =>
    exact size_C hs i ⟨.top, (s.combs i).threads⟩ s.queue s.outq s.tot s.succ s.lost s.bad (s.done ++ chunk) hs.outq trivial (hs.threads i)
  | cThread i l₁ chunk l₂ h1 =>
    have := hs.threads i; rw [h1] at this
    refine size_C hs i ⟨(s.combs i).pc, l₁ ++ l₂⟩ s.queue (s.outq ++ [chunk]) s.tot s.succ s.lost s.bad s.done ?_ (hs.pc i) ?_
    · intro c hc
      rcases List.mem_append.1 hc with hc | hc
      · exact hs.outq c hc
      · rw [List.mem_singleton.1 hc]; exact this chunk (by simp)
    · intro c hc
      refine this c ?_
      rcases List.mem_append.1 hc with hc | hc <;> simp [hc]
  | wTopReady i | wTopRun i | wEmpty i | wNonempty i | wStop i | wGo i | wLow i | wHigh i | wChkSet i | wChkUnset i | wTimeout i =>
    exact size_Wr hs i _ s.outq s.lock s.store s.shouldWait s.stop s.done hs.outq trivial
  | wSet i => exact size_Wr hs i _ s.outq s.lock s.store true s.stop s.done hs.outq trivial
  | wClear i => exact size_Wr hs i _ s.outq s.lock s.store false s.stop s.done hs.outq trivial
  | wGet i chunk q h1 h2 =>
    have := hs.outq; rw [h2] at this
    exact size_Wr hs i (.acquire chunk) q s.lock s.store s.shouldWait s.stop s.done (fun c hc => this c (by simp [hc])) (this chunk (by simp))
  | wAcquire i chunk h1 _ =>
    have := hs.writers i; rw [h1] at this
    exact size_Wr hs i (.writing chunk (combined entries chunk)) s.outq true s.store s.shouldWait s.stop s.done hs.outq this
  | wWrite i chunk k vs rem h1 =>
    have := hs.writers i; rw [h1] at this
    exact size_Wr hs i (.writing chunk rem) s.outq s.lock (appendTable s.store k vs) s.shouldWait s.stop s.done hs.outq this
  | wRelease i chunk h1 => exact size_Wr hs i .top s.outq false s.store s.shouldWait s.stop (s.done ++ chunk) hs.outq trivial
  | wFail0 i => exact size_Wr hs i _ s.outq s.lock s.store s.shouldWait true s.done hs.outq trivial
  | wFail1 i => exact size_Wr hs i _ s.outq s.lock s.store false s.stop s.done hs.outq trivial
  | wFail2 i => exact size_Wr hs i _ s.outq false s.store s.shouldWait s.stop s.done hs.outq trivial

theorem size_run {tasks : List (Outcome R)} {store : Dict K (List V)} {s : State cfg R K V}
    (h : Run entries cfg (init cfg tasks store) s) : SizeInv s := by
  induction h with
  | refl => exact ⟨fun _ => trivial, by simp [init], by simp [init], fun _ => trivial⟩
  | tail _ h ih => exact size_step ih h

/-- The tables still to be written are the last tables of the combined chunk. -/
theorem writing_run {tasks : List (Outcome R)} {store : Dict K (List V)} {s : State cfg R K V}
    (h : Run entries cfg (init cfg tasks store) s) :
    ∀ i chunk rem, s.writers i = .writing chunk rem → ∃ pre, combined entries chunk = pre ++ rem := by
  induction h with
  | refl => intro i chunk rem h; simp [init] at h
  | @tail s s' _ h ih =>
    have key : ∀ (j : Fin cfg.nWriter) (x : Writer R K V), (∀ chunk rem, x = .writing chunk rem → ∃ pre, combined entries chunk = pre ++ rem) →
        ∀ i chunk rem, update s.writers j x i = .writing chunk rem → ∃ pre, combined entries chunk = pre ++ rem := by
      intro j x hx i chunk rem h
      by_cases hj : i = j
      · subst hj; rw [update_self] at h; exact hx chunk rem h
      · rw [update_of_ne hj] at h; exact ih i chunk rem h
    cases h with
    | start | pass | finish | cTopStop | cTopRun | cEmpty | cNonempty | cStop | cGo | cGet | cNone | cGood | cBroken | cSpawn | cThread
    | cDead | cNothing | mStop | mReady | mEnd => exact ih
    | wTopReady i | wTopRun i | wEmpty i | wNonempty i | wStop i | wGo i | wLow i | wHigh i
    | wSet i | wChkSet i | wChkUnset i | wClear i | wGet i | wTimeout i | wRelease i | wFail0 i | wFail1 i | wFail2 i =>
      exact key i _ (fun _ _ h => by simp at h)
    | wAcquire i c h1 _ =>
      refine key i _ (fun _ _ h => ?_)
      cases h; exact ⟨[], rfl⟩
    | wWrite i c k vs r h1 =>
      refine key i _ (fun _ _ h => ?_)
      cases h
      obtain ⟨pre, hpre⟩ := ih i _ _ h1
      exact ⟨pre ++ [(k, vs)], by rw [hpre]; simp⟩

/-! ## the end of a run -/

structure Final (s : State cfg R K V) : Prop where
  pending : s.pending = []
  workers : ∀ w, s.workers w = .idle
  queue : s.queue = []
  pc : ∀ i, (s.combs i).pc = .dead
  threads : ∀ i, (s.combs i).threads = []
  outq : s.outq = []
  writers : ∀ i, s.writers i = .dead

theorem final_of_ctl (hC : 0 < cfg.nComb) (hW : 0 < cfg.nWriter) {s : State cfg R K V} (hs : Ctl s) (hf : s.main = .finished) :
    Final s := by
  have hss : s.shouldStop = true := by
    cases h : s.shouldStop with
    | true => rfl
    | false => have := hs.mainPool.2 h; rw [hf] at this; cases this
  have hr := hs.mainReady.1 (.inr hf)
  have hw := hs.stop (hs.mainStop.1 hf)
  have hd := hs.ready hr
  exact ⟨(hs.pool hss).1, (hs.pool hss).2, (hs.dead ⟨0, hC⟩ (hd _)).2.1, hd, fun i => (hs.dead i (hd i)).2.2,
    (hs.wDead ⟨0, hW⟩ (hw _)).2, hw⟩

theorem wl_eq_zero {α : Type} {l : List α} (φ : α → Nat) (h : ∀ a ∈ l, φ a = 0) : wl φ l = 0 := by
  induction l with
  | nil => rfl
  | cons a l ih => rw [wl_cons, h a (by simp), ih (fun b hb => h b (by simp [hb]))]

theorem Final.total {s : State cfg R K V} (hs : Final s) (φ : R → Nat) : Pipeline.total φ s = wl φ s.done + wl φ s.lost := by
  simp [Pipeline.total, hs.pending, hs.workers, hs.queue, wC, hs.pc, hs.threads, hs.outq, hs.writers, wW, wPc, wWr]

theorem Final.uncounted {s : State cfg R K V} (hs : Final s) (φ : Option R → Nat) : Pipeline.uncounted φ s = 0 := by
  simp [Pipeline.uncounted, hs.pending, hs.workers, hs.queue, hs.pc, cW, cPc]

theorem Final.store {s : State cfg R K V} {store₀ : Dict K (List V)} (hs : Final s) (h : StoreInv entries store₀ s) (θ : K × V → Nat) :
    wt θ s.store = wt θ store₀ + wl (wr entries θ) s.done := by
  have := h θ
  simpa [hs.writers, wRem, wCur] using this

end RT1.Pipeline
