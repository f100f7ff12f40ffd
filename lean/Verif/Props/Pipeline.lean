import Mathlib.Data.List.Perm.Subperm
import Mathlib.Data.List.Count
import Verif.Lemmas.Pipeline

/-!
# The processing pipeline: contents of the HDF store (C50, C51, C54, C56)

The specification describes the store by its rows (key, value) up to their order.
-/

namespace RT1.Pipeline
open Function

variable {R K V : Type} [DecidableEq K] {entries : R → Option (List (K × V))} {cfg : Cfg}

namespace PipeSpec

/-- The rows of a store. -/
def rows (d : List (K × List V)) : List (K × V) := d.flatMap fun e => e.2.map fun v => (e.1, v)

/-- The rows of one result (a broken result has none). -/
def rowsOf (entries : R → Option (List (K × V))) (r : R) : List (K × V) :=
  match entries r with
  | some l => l
  | none => []

/-- The results of the tasks. -/
def results : List (Outcome R) → List R
  | [] => []
  | .res r :: l => r :: results l
  | _ :: l => results l

end PipeSpec
open PipeSpec

theorem wl_flatMap {α β : Type} (θ : β → Nat) (f : α → List β) (l : List α) : wl θ (l.flatMap f) = wl (fun a => wl θ (f a)) l := by
  induction l with
  | nil => rfl
  | cons a l ih => rw [List.flatMap_cons, wl_append, wl_cons, ih]

theorem wl_map {α β : Type} (θ : β → Nat) (f : α → β) (l : List α) : wl θ (l.map f) = wl (fun a => θ (f a)) l := by
  induction l with
  | nil => rfl
  | cons a l ih => rw [List.map_cons, wl_cons, wl_cons, ih]

theorem wt_rows (θ : K × V → Nat) (d : Dict K (List V)) : wt θ d = wl θ (rows d) := by
  rw [rows, wl_flatMap, wt]; simp only [wl_map]

theorem wr_rows (θ : K × V → Nat) (l : List R) : wl (wr entries θ) l = wl θ (l.flatMap (rowsOf entries)) := by
  rw [wl_flatMap]
  have : wr entries θ = fun r => wl θ (rowsOf entries r) := by
    funext r; unfold wr rowsOf; cases entries r <;> rfl
  rw [this]

theorem wO_results (φ : R → Nat) (l : List (Outcome R)) : wl (wO φ) l = wl φ (results l) := by
  induction l with
  | nil => rfl
  | cons t l ih => cases t <;> simp [results, wO, ih]

theorem wl_count {α : Type} [DecidableEq α] (a : α) (l : List α) : wl (fun b => if b = a then 1 else 0) l = l.count a := by
  induction l with
  | nil => rfl
  | cons b l ih =>
    rw [wl_cons, List.count_cons, ih]
    by_cases h : b = a <;> simp [h]; omega

theorem perm_of_wl {α : Type} {l l' : List α} (h : ∀ θ : α → Nat, wl θ l = wl θ l') : l.Perm l' := by
  classical
  rw [List.perm_iff_count]
  intro a
  rw [← wl_count, ← wl_count, h]

theorem subperm_of_wl {α : Type} {l l' : List α} (h : ∀ θ : α → Nat, wl θ l ≤ wl θ l') : l.Subperm l' := by
  classical
  rw [List.subperm_iff_count]
  intro a
  rw [← wl_count, ← wl_count]; exact h _

theorem mem_results {tasks : List (Outcome R)} {r : R} : r ∈ results tasks ↔ Outcome.res r ∈ tasks := by
  induction tasks with
  | nil => simp [results]
  | cons t l ih => cases t <;> simp [results, ih]

theorem filter_flatMap_rows (l : List R) :
    (l.filter fun r => (entries r).isSome).flatMap (rowsOf entries) = l.flatMap (rowsOf entries) := by
  induction l with
  | nil => rfl
  | cons r l ih =>
    rw [List.filter_cons, List.flatMap_cons]
    cases h : entries r with
    | some x => rw [if_pos (by simp), List.flatMap_cons, ih]
    | none => rw [if_neg (by simp), ih]; simp [rowsOf, h]

/-- C54 (partial): when the pipeline has finished, everything has been written except for broken results and at most
`write_chunk_size - 1` other results per broken result.  (Missing: that no other result is discarded, which is false.) -/
theorem C54_bound_partial (hC : 0 < cfg.nComb) (hW : 0 < cfg.nWriter) {tasks : List (Outcome R)} {store₀ : Dict K (List V)}
    {s : State cfg R K V} (hrun : Run entries cfg (init cfg tasks store₀) s) (hfin : s.main = .finished) :
    ∃ lost : List R, lost.Subperm (results tasks) ∧
      lost.length ≤ ((results tasks).filter fun r => (entries r).isNone).length * (cfg.chunkSize - 1) ∧
      (rows s.store ++ lost.flatMap (rowsOf entries)).Perm (rows store₀ ++ (results tasks).flatMap (rowsOf entries)) := by
  have hF := final_of_ctl hC hW (ctl_run hrun) hfin
  have ht : ∀ φ, wl φ s.done + wl φ s.lost = wl φ (results tasks) := by
    intro φ; rw [← wO_results, ← total_run φ hrun, hF.total]
  have hb : s.bad = ((results tasks).filter fun r => (entries r).isNone).length := by
    have := (count_run hrun).2.2
    rw [hF.uncounted, Nat.add_zero] at this
    rw [this]
    clear this hrun ht
    induction tasks with
    | nil => rfl
    | cons t l ih =>
      cases t with
      | skip => simp [results, cO, ih]
      | err => simp [results, cO, cntBad, ih]
      | res r => cases h : entries r <;> simp [results, cO, cntBad, ih, h]; omega
  have hsub : (s.lost.filter fun r => (entries r).isSome).Subperm (results tasks) := by
    refine List.Subperm.trans (List.filter_sublist (l := s.lost)).subperm ?_
    exact subperm_of_wl fun θ => by have := ht θ; omega
  refine ⟨s.lost.filter fun r => (entries r).isSome, hsub, ?_, ?_⟩
  · rw [← hb]; exact (lost_run hrun).good
  · rw [filter_flatMap_rows]
    apply perm_of_wl
    intro θ
    have h1 := hF.store (store_run hrun) θ
    have h2 := ht (wr entries θ)
    rw [wr_rows, wr_rows, wr_rows] at h2
    rw [wt_rows, wt_rows, wr_rows] at h1
    rw [wl_append, wl_append]
    omega

/-- C50: in every run without failures the store finally contains exactly its previous rows and the rows of all results. -/
theorem C50_complete (hC : 0 < cfg.nComb) (hW : 0 < cfg.nWriter) {tasks : List (Outcome R)} {store₀ : Dict K (List V)}
    (hg : ∀ r, Outcome.res r ∈ tasks → (entries r).isSome) {s : State cfg R K V}
    (hrun : Run entries cfg (init cfg tasks store₀) s) (hfin : s.main = .finished) :
    (rows s.store).Perm (rows store₀ ++ (results tasks).flatMap (rowsOf entries)) := by
  obtain ⟨lost, _, h2, h3⟩ := C54_bound_partial hC hW hrun hfin
  have h0 : ((results tasks).filter fun r => (entries r).isNone) = [] := by
    rw [List.filter_eq_nil_iff]
    intro r hr
    have := hg r (mem_results.1 hr)
    cases h : entries r
    · rw [h] at this; simp at this
    · simp
  rw [h0, List.length_nil, Nat.zero_mul, Nat.le_zero, List.length_eq_zero_iff] at h2
  simpa [h2] using h3

/-- C54 (partial): with `write_chunk_size = 1` broken results do not affect others. -/
theorem C54_single_partial (hC : 0 < cfg.nComb) (hW : 0 < cfg.nWriter) (hS : cfg.chunkSize = 1) {tasks : List (Outcome R)}
    {store₀ : Dict K (List V)} {s : State cfg R K V}
    (hrun : Run entries cfg (init cfg tasks store₀) s) (hfin : s.main = .finished) :
    (rows s.store).Perm (rows store₀ ++ (results tasks).flatMap (rowsOf entries)) := by
  obtain ⟨lost, _, h2, h3⟩ := C54_bound_partial hC hW hrun hfin
  rw [hS, Nat.sub_self, Nat.mul_zero, Nat.le_zero, List.length_eq_zero_iff] at h2
  simpa [h2] using h3

/-- C51: the final values of the counters. -/
theorem C51_final (hC : 0 < cfg.nComb) (hW : 0 < cfg.nWriter) {tasks : List (Outcome R)} {store₀ : Dict K (List V)}
    {s : State cfg R K V} (hrun : Run entries cfg (init cfg tasks store₀) s) (hfin : s.main = .finished) :
    s.succ = ((results tasks).filter fun r => (entries r).isSome).length ∧
    s.tot = s.succ + (tasks.filter fun t => match t with | .err => true | _ => false).length := by
  have hF := final_of_ctl hC hW (ctl_run hrun) hfin
  obtain ⟨h1, h2, h3⟩ := count_run hrun
  clear h3
  rw [hF.uncounted, Nat.add_zero] at h1 h2
  have e2 : wl (cO (cntSucc entries)) tasks = ((results tasks).filter fun r => (entries r).isSome).length := by
    clear h1 h2 hrun
    induction tasks with
    | nil => rfl
    | cons t l ih =>
      cases t with
      | skip => simp [results, cO, ih]
      | err => simp [results, cO, cntSucc, ih]
      | res r => cases h : entries r <;> simp [results, cO, cntSucc, ih, h]; omega
  refine ⟨h2.trans e2, ?_⟩
  rw [h1, h2]
  clear h1 h2 e2 hrun
  induction tasks with
  | nil => rfl
  | cons t l ih =>
    cases t with
    | skip => simp [cO, ih]
    | err => simp [cO, cntSucc, cntTot, ih]; omega
    | res r => cases h : entries r <;> simp [cO, cntSucc, cntTot, ih, h]; omega

/-- C51: the counters only grow, and the number of successful results never exceeds the total number (also in runs with
failures). -/
theorem C51_mono {s s' : State cfg R K V} (h : FaultyRun entries cfg s s') :
    s.tot ≤ s'.tot ∧ s.succ ≤ s'.succ ∧ s'.succ - s.succ ≤ s'.tot - s.tot := by
  induction h with
  | refl => simp
  | tail _ h ih =>
    rcases h with h | h
    · rcases count_step h with ⟨h1, h2, _⟩ | ⟨v, h1, h2, _⟩
      · rw [h1, h2]; exact ih
      · have : cntSucc entries v ≤ cntTot entries v := by cases v <;> simp [cntSucc, cntTot]
        omega
    · cases h <;> exact ih

theorem C51_le {tasks : List (Outcome R)} {store₀ : Dict K (List V)} {s : State cfg R K V}
    (h : FaultyRun entries cfg (init cfg tasks store₀) s) : s.succ ≤ s.tot := by
  have := C51_mono h
  simp only [init] at this
  omega

/-- C56 (partial): at every point of a run without failures the store consists of its previous rows, all rows of some results
and some rows of at most `write_chunk_size` further results.  (Missing: that there are no such further results, which is
false.) -/
theorem C56_bound_partial {tasks : List (Outcome R)} {store₀ : Dict K (List V)} {s : State cfg R K V}
    (hrun : Run entries cfg (init cfg tasks store₀) s) :
    ∃ (done current : List R) (part : List (K × V)), (done ++ current).Subperm (results tasks) ∧ current.length ≤ cfg.chunkSize ∧
      part.Subperm (current.flatMap (rowsOf entries)) ∧ (s.lock = false → current = []) ∧
      (rows s.store).Perm (rows store₀ ++ done.flatMap (rowsOf entries) ++ part) := by
  have hc := ctl_run hrun
  have ht : ∀ φ, total φ s = wl φ (results tasks) := by
    intro φ; rw [← wO_results, ← total_run φ hrun]
  have hst := store_run hrun
  by_cases hl : s.lock = true
  · obtain ⟨i, hi⟩ := hc.lock2 hl
    cases hw : s.writers i with
    | writing chunk rem =>
      have hsz := (size_run hrun).writers i
      rw [hw] at hsz
      have hone : ∀ f : Writer R K V → Nat, (∀ x, ¬ x.isWriting → f x = 0) → ∑ j, f (s.writers j) = f (s.writers i) := by
        intro f hf
        refine Finset.sum_eq_single i (fun j _ hj => hf _ fun hjw => hj (hc.lock3 j i hjw hi)) (by simp)
      have hrem : ∀ θ, ∑ j, wRem θ (s.writers j) = wt θ rem := by
        intro θ
        rw [hone (wRem θ) (fun x hx => by cases x <;> first | rfl | exact absurd trivial hx), hw]; rfl
      have hcur : ∀ θ, ∑ j, wCur entries θ (s.writers j) = wl (wr entries θ) chunk := by
        intro θ
        rw [hone (wCur entries θ) (fun x hx => by cases x <;> first | rfl | exact absurd trivial hx), hw]; rfl
      classical
      have hs : ∀ θ, wl θ (rows s.store) + wl θ (rows rem) =
          wl θ (rows store₀) + wl θ (s.done.flatMap (rowsOf entries)) + wl θ (chunk.flatMap (rowsOf entries)) := by
        intro θ
        have := hst θ
        rw [hrem, hcur, wr_rows, wr_rows, wt_rows, wt_rows, wt_rows] at this
        exact this
      -- the rows still to be written are rows of the chunk
      have hsubm : ∃ part, (part ++ rows rem).Perm (chunk.flatMap (rowsOf entries)) := by
        obtain ⟨pre, hpre⟩ := writing_run hrun i chunk rem hw
        refine ⟨rows pre, perm_of_wl fun θ => ?_⟩
        rw [← wr_rows, ← wt_combined, hpre, wt_rows, rows, rows, rows, List.flatMap_append]
      obtain ⟨part, hpart⟩ := hsubm
      refine ⟨s.done, chunk, part, ?_, hsz, ?_, ?_, ?_⟩
      · refine subperm_of_wl fun θ => ?_
        rw [wl_append]
        have := ht θ
        have h2 : wWr θ (s.writers i) ≤ ∑ j, wWr θ (s.writers j) :=
          Finset.single_le_sum (f := fun j => wWr θ (s.writers j)) (fun _ _ => Nat.zero_le _) (Finset.mem_univ i)
        have h3 : wWr θ (s.writers i) = wl θ chunk := by rw [hw]; rfl
        simp only [total] at this
        omega
      · exact (List.sublist_append_left part (rows rem)).subperm.trans hpart.subperm
      · intro h; rw [hl] at h; cases h
      · apply perm_of_wl
        intro θ
        have h1 := hs θ
        have h2 : wl θ (part ++ rows rem) = wl θ (chunk.flatMap (rowsOf entries)) := by
          unfold wl; exact (hpart.map θ).sum_eq
        rw [wl_append] at h2
        rw [wl_append, wl_append]
        omega
    | _ => rw [hw] at hi; exact hi.elim
  · have hl' : s.lock = false := by simpa using hl
    have hnw : ∀ i, ¬ (s.writers i).isWriting := fun i hi => hl (hc.lock1 i hi)
    refine ⟨s.done, [], [], ?_, Nat.zero_le _, List.nil_subperm, fun _ => rfl, ?_⟩
    · refine subperm_of_wl fun θ => ?_
      have := ht θ
      simp only [total] at this
      rw [List.append_nil]
      omega
    · apply perm_of_wl
      intro θ
      have h1 := hst θ
      have e1 : ∑ j, wRem θ (s.writers j) = 0 :=
        Finset.sum_eq_zero fun j _ => by have := hnw j; cases h : s.writers j <;> first | rfl | (rw [h] at this; exact absurd trivial this)
      have e2 : ∑ j, wCur entries θ (s.writers j) = 0 :=
        Finset.sum_eq_zero fun j _ => by have := hnw j; cases h : s.writers j <;> first | rfl | (rw [h] at this; exact absurd trivial this)
      rw [e1, e2, wr_rows, wt_rows, wt_rows] at h1
      rw [wl_append, wl_append, wl_nil]
      omega

/-! ## concrete runs -/

/-- Results of the examples: `none` is broken, `some n` gives a row in `reader_arg` and one in `res`. -/
def demo : Option Nat → Option (List (String × Nat))
  | none => none
  | some n => some [("reader_arg", n), ("res", n)]

theorem go {a b : State cfg R K V} {P : State cfg R K V → Prop} (h : Step entries cfg a b)
    (hb : ∃ s, Run entries cfg b s ∧ P s) : ∃ s, Run entries cfg a s ∧ P s := by
  obtain ⟨s, h1, h2⟩ := hb
  exact ⟨s, .head h h1, h2⟩

/-- One process of each kind. -/
abbrev demoCfg (n : Nat) : Cfg := ⟨1, 1, 1, n, 1⟩

/-- C56 fails: there is a point at which the ID is listed (table `reader_arg`) but the results are missing. -/
theorem C56_fails : ∃ s : State (demoCfg 1) (Option Nat) String Nat,
    Run demo (demoCfg 1) (init (demoCfg 1) [.res (some 7)] []) s ∧
      ("reader_arg", 7) ∈ rows s.store ∧ ("res", 7) ∉ rows s.store := by
  refine go (Step.wTopRun _ ⟨0, by decide⟩ rfl rfl) ?_
  refine go (Step.wGo _ ⟨0, by decide⟩ rfl rfl) ?_
  refine go (Step.wLow _ ⟨0, by decide⟩ rfl (by decide)) ?_
  refine go (Step.wSet _ ⟨0, by decide⟩ rfl) ?_
  refine go (Step.start _ ⟨0, by decide⟩ [] _ [] rfl rfl) ?_
  refine go (Step.pass _ ⟨0, by decide⟩ _ rfl rfl) ?_
  refine go (Step.finish _ ⟨0, by decide⟩ _ rfl) ?_
  refine go (Step.cTopRun _ ⟨0, by decide⟩ rfl rfl) ?_
  refine go (Step.cGo _ ⟨0, by decide⟩ rfl rfl) ?_
  refine go (Step.cGet _ ⟨0, by decide⟩ _ _ _ rfl (by decide) rfl) ?_
  refine go (Step.cGood _ ⟨0, by decide⟩ _ _ rfl rfl) ?_
  refine go (Step.cSpawn _ ⟨0, by decide⟩ _ rfl (by decide) (by decide)) ?_
  refine go (Step.cThread _ ⟨0, by decide⟩ [] _ [] rfl) ?_
  refine go (Step.wGet _ ⟨0, by decide⟩ _ _ rfl rfl) ?_
  refine go (Step.wAcquire _ ⟨0, by decide⟩ _ rfl rfl) ?_
  refine go (Step.wWrite _ ⟨0, by decide⟩ _ _ _ _ rfl) ?_
  exact ⟨_, .refl, by decide⟩

/-- C54 fails: a broken result discards the good result collected before. -/
theorem C54_fails : ∃ s : State (demoCfg 2) (Option Nat) String Nat,
    Run demo (demoCfg 2) (init (demoCfg 2) [.res (some 7), .res none] []) s ∧ s.main = .finished ∧ rows s.store = [] := by
  refine go (Step.wTopRun _ ⟨0, by decide⟩ rfl rfl) ?_
  refine go (Step.wGo _ ⟨0, by decide⟩ rfl rfl) ?_
  refine go (Step.wLow _ ⟨0, by decide⟩ rfl (by decide)) ?_
  refine go (Step.wSet _ ⟨0, by decide⟩ rfl) ?_
  refine go (Step.start _ ⟨0, by decide⟩ [] _ [_] rfl rfl) ?_
  refine go (Step.pass _ ⟨0, by decide⟩ _ rfl rfl) ?_
  refine go (Step.finish _ ⟨0, by decide⟩ _ rfl) ?_
  refine go (Step.start _ ⟨0, by decide⟩ [] _ [] rfl rfl) ?_
  refine go (Step.pass _ ⟨0, by decide⟩ _ rfl rfl) ?_
  refine go (Step.finish _ ⟨0, by decide⟩ _ rfl) ?_
  refine go (Step.cTopRun _ ⟨0, by decide⟩ rfl rfl) ?_
  refine go (Step.cGo _ ⟨0, by decide⟩ rfl rfl) ?_
  refine go (Step.cGet _ ⟨0, by decide⟩ _ _ _ rfl (by decide) rfl) ?_
  refine go (Step.cGood _ ⟨0, by decide⟩ _ _ rfl rfl) ?_
  refine go (Step.cGet _ ⟨0, by decide⟩ _ _ _ rfl (by decide) rfl) ?_
  refine go (Step.cBroken _ ⟨0, by decide⟩ _ _ rfl rfl) ?_
  refine go (Step.mStop _ rfl rfl (fun | ⟨0, _⟩ => rfl)) ?_
  refine go (Step.cTopStop _ ⟨0, by decide⟩ rfl rfl) ?_
  refine go (Step.cEmpty _ ⟨0, by decide⟩ rfl rfl) ?_
  refine go (Step.cDead _ ⟨0, by decide⟩ rfl) ?_
  refine go (Step.mReady _ rfl (fun | ⟨0, _⟩ => rfl)) ?_
  refine go (Step.wTimeout _ ⟨0, by decide⟩ rfl rfl) ?_
  refine go (Step.wTopReady _ ⟨0, by decide⟩ rfl rfl) ?_
  refine go (Step.wEmpty _ ⟨0, by decide⟩ rfl rfl) ?_
  refine go (Step.mEnd _ rfl (fun | ⟨0, _⟩ => rfl)) ?_
  exact ⟨_, .refl, rfl, by decide⟩

/-- A complete run with two results (hypotheses of C50, C51). -/
example : ∃ s : State (demoCfg 2) (Option Nat) String Nat,
    Run demo (demoCfg 2) (init (demoCfg 2) [.res (some 7), .res (some 8)] []) s ∧ s.main = .finished ∧
      rows s.store = [("reader_arg", 7), ("reader_arg", 8), ("res", 7), ("res", 8)] ∧ s.tot = 2 ∧ s.succ = 2 := by
  refine go (Step.wTopRun _ ⟨0, by decide⟩ rfl rfl) ?_
  refine go (Step.wGo _ ⟨0, by decide⟩ rfl rfl) ?_
  refine go (Step.wLow _ ⟨0, by decide⟩ rfl (by decide)) ?_
  refine go (Step.wSet _ ⟨0, by decide⟩ rfl) ?_
  refine go (Step.start _ ⟨0, by decide⟩ [] _ [_] rfl rfl) ?_
  refine go (Step.pass _ ⟨0, by decide⟩ _ rfl rfl) ?_
  refine go (Step.finish _ ⟨0, by decide⟩ _ rfl) ?_
  refine go (Step.start _ ⟨0, by decide⟩ [] _ [] rfl rfl) ?_
  refine go (Step.pass _ ⟨0, by decide⟩ _ rfl rfl) ?_
  refine go (Step.finish _ ⟨0, by decide⟩ _ rfl) ?_
  refine go (Step.cTopRun _ ⟨0, by decide⟩ rfl rfl) ?_
  refine go (Step.cGo _ ⟨0, by decide⟩ rfl rfl) ?_
  refine go (Step.cGet _ ⟨0, by decide⟩ _ _ _ rfl (by decide) rfl) ?_
  refine go (Step.cGood _ ⟨0, by decide⟩ _ _ rfl rfl) ?_
  refine go (Step.cGet _ ⟨0, by decide⟩ _ _ _ rfl (by decide) rfl) ?_
  refine go (Step.cGood _ ⟨0, by decide⟩ _ _ rfl rfl) ?_
  refine go (Step.cSpawn _ ⟨0, by decide⟩ _ rfl (by decide) (by decide)) ?_
  refine go (Step.cThread _ ⟨0, by decide⟩ [] _ [] rfl) ?_
  refine go (Step.wGet _ ⟨0, by decide⟩ _ _ rfl rfl) ?_
  refine go (Step.wAcquire _ ⟨0, by decide⟩ _ rfl rfl) ?_
  refine go (Step.wWrite _ ⟨0, by decide⟩ _ _ _ _ rfl) ?_
  refine go (Step.wWrite _ ⟨0, by decide⟩ _ _ _ _ rfl) ?_
  refine go (Step.wRelease _ ⟨0, by decide⟩ _ rfl) ?_
  refine go (Step.mStop _ rfl rfl (fun | ⟨0, _⟩ => rfl)) ?_
  refine go (Step.cTopStop _ ⟨0, by decide⟩ rfl rfl) ?_
  refine go (Step.cEmpty _ ⟨0, by decide⟩ rfl rfl) ?_
  refine go (Step.cDead _ ⟨0, by decide⟩ rfl) ?_
  refine go (Step.mReady _ rfl (fun | ⟨0, _⟩ => rfl)) ?_
  refine go (Step.wTopReady _ ⟨0, by decide⟩ rfl rfl) ?_
  refine go (Step.wEmpty _ ⟨0, by decide⟩ rfl rfl) ?_
  refine go (Step.mEnd _ rfl (fun | ⟨0, _⟩ => rfl)) ?_
  exact ⟨_, .refl, rfl, by decide, rfl, rfl⟩

end RT1.Pipeline
