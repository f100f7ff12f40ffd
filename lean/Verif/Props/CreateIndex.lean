import Verif.Model.CreateIndex
import Mathlib.Tactic.SplitIfs
import Mathlib.Tactic.Tauto

/-!
# C109 Creation of indexes for stored results
-/

namespace RT1.CreateIndex
open General

/-- The levels a user requests: the first one, all of them, or the given ones as far as they are present. -/
def Requested (idx : IdxLevels) (ns : List String) (n : String) : Prop := match idx with
  | .none => ns.head? = some n
  | .all => n ∈ ns
  | .some is => n ∈ is ∧ n ∈ ns

/-- Two tables differ at most in their indexes. -/
def SameData (t t' : Table) : Prop := t'.levels = t.levels ∧ t'.cols = t.cols ∧ t'.labels = t.labels ∧ t'.data = t.data

theorem addIndex_same (l : List String) : ∀ t, SameData t (addIndex t l).1 := by
  induction l with
  | nil => intro t; exact ⟨rfl, rfl, rfl, rfl⟩
  | cons c l ih =>
    intro t
    unfold addIndex
    split_ifs
    · exact ih _
    · exact ih _
    · exact ⟨rfl, rfl, rfl, rfl⟩
    · exact ih t

theorem addIndex_spec (l : List String) : ∀ t : Table, (∀ c ∈ l, c ∈ t.cols) →
    (addIndex t l).2 = .ok () ∧ ∀ c, c ∈ (addIndex t l).1.indexed ↔ c ∈ t.indexed ∨ c ∈ l := by
  induction l with
  | nil => intro t _; exact ⟨rfl, fun c => by simp [addIndex]⟩
  | cons c l ih =>
    intro t h
    unfold addIndex
    rw [if_pos (h c (by simp))]
    obtain ⟨h1, h2⟩ := ih { t with indexed := if c ∈ t.indexed then t.indexed else t.indexed ++ [c] } fun c' hc' => h c' (by simp [hc'])
    refine ⟨h1, fun c' => ?_⟩
    rw [h2 c']
    dsimp only
    split_ifs with hc
    · simp only [List.mem_cons]
      constructor
      · tauto
      · rintro (h | rfl | h)
        · exact Or.inl h
        · exact Or.inl hc
        · exact Or.inr h
    · simp only [List.mem_append, List.mem_cons, List.not_mem_nil, or_false]
      tauto

theorem useLevels_spec (idx : IdxLevels) {ns : List String} (hne : ns ≠ []) :
    ∃ ls, useLevels idx (.multi ns) = .ok ls ∧ ∀ c, c ∈ ls ↔ Requested idx ns c := by
  cases idx with
  | none =>
    cases ns with
    | nil => exact absurd rfl hne
    | cons n ns => exact ⟨_, rfl, fun c => by simp [Requested, eq_comm]⟩
  | all => exact ⟨_, by cases ns <;> rfl, fun c => Iff.rfl⟩
  | some is => exact ⟨is.filter fun n => decide (n ∈ ns), by cases ns <;> rfl, fun c => by simp [Requested]⟩

theorem get_put (s : Store) (k : Key) (t u : Table) (h : s.get k = some u) (k' : Key) :
    (s.put k t).get k' = if k' = k then some t else s.get k' := by
  induction s with
  | nil => simp [Store.get] at h
  | cons kt s ih =>
    unfold Store.get Store.put at *
    by_cases h1 : kt.1 = k
    · simp only [List.map_cons, if_pos h1]
      by_cases h2 : k' = k
      · subst h2; simp
      · rw [if_neg h2]
        have h3 : ¬ k = k' := fun e => h2 e.symm
        have h4 : ¬ kt.1 = k' := by rw [h1]; exact h3
        simp only [List.find?_cons, h3, h4, decide_false]
        clear ih h
        induction s with
        | nil => rfl
        | cons x s ih' =>
          simp only [List.map_cons, List.find?_cons]
          by_cases hx : x.1 = k
          · simp only [if_pos hx, h3, decide_false]
            have : ¬ x.1 = k' := by rw [hx]; exact h3
            simp only [this, decide_false]
            exact ih'
          · simp only [if_neg hx]
            by_cases hx' : x.1 = k'
            · simp [hx']
            · simp only [hx', decide_false]
              exact ih'
    · simp only [List.find?_cons, h1, decide_false] at h
      simp only [List.map_cons, if_neg h1, List.find?_cons]
      by_cases h2 : kt.1 = k'
      · have : k' ≠ k := by rw [← h2]; exact h1
        simp [h2, this]
      · simp only [h2, decide_false]
        exact ih h

/-- The index-levels of a table are columns on disk. -/
def Table.Wf (t : Table) : Prop := ∀ ns, t.levels = .multi ns → ns ≠ [] ∧ ∀ n ∈ ns, n ∈ t.cols

theorem step_multi (idx : IdxLevels) {s : Store} {k : Key} {t : Table} {ns : List String} (h : s.get k = some t) (hw : t.Wf)
    (hm : t.levels = .multi ns) :
    ∃ t', step idx s k = (s.put k t', .ok ()) ∧ SameData t t' ∧ ∀ c, c ∈ t'.indexed ↔ c ∈ t.indexed ∨ Requested idx ns c := by
  obtain ⟨hne, hcols⟩ := hw ns hm
  obtain ⟨ls, h1, h2⟩ := useLevels_spec idx hne
  have hls : ∀ c ∈ ls, c ∈ t.cols := by
    intro c hc
    apply hcols
    have := (h2 c).1 hc
    unfold Requested at this
    cases idx with
    | none => exact List.mem_of_mem_head? this
    | all => exact this
    | some is => exact this.2
  obtain ⟨h3, h4⟩ := addIndex_spec ls t hls
  refine ⟨(addIndex t ls).1, ?_, addIndex_same ls t, fun c => by rw [h4 c, h2 c]⟩
  unfold step
  rw [h]
  dsimp only
  rw [hm, h1]
  dsimp only
  rw [h3]

theorem loop_multi (idx : IdxLevels) (l : List Key) : ∀ s : Store,
    (∀ k ∈ l, ∃ t ns, s.get k = some t ∧ t.Wf ∧ t.levels = .multi ns) →
    ∃ s', loop idx l s = (s', .ok ()) ∧ (∀ k, k ∉ l → s'.get k = s.get k) ∧
      ∀ k t ns, k ∈ l → s.get k = some t → t.levels = .multi ns →
        ∃ t', s'.get k = some t' ∧ SameData t t' ∧ ∀ c, c ∈ t'.indexed ↔ c ∈ t.indexed ∨ Requested idx ns c := by
  induction l with
  | nil => intro s _; exact ⟨s, rfl, fun _ _ => rfl, fun _ _ _ h => by simp at h⟩
  | cons k l ih =>
    intro s h
    obtain ⟨t, ns, h1, h2, h3⟩ := h k (by simp)
    obtain ⟨t', e, hsame, hidx⟩ := step_multi idx h1 h2 h3
    have hget := get_put s k t' t h1
    obtain ⟨s', g1, g2, g3⟩ := ih (s.put k t') fun k' hk' => by
      obtain ⟨u, ms, u1, u2, u3⟩ := h k' (by simp [hk'])
      rw [hget k']
      by_cases hkk : k' = k
      · rw [if_pos hkk]
        refine ⟨t', ns, rfl, fun ms hms => ?_, by rw [hsame.1]; exact h3⟩
        rw [hsame.1] at hms
        rw [hsame.2.1]
        exact h2 ms hms
      · rw [if_neg hkk]
        exact ⟨u, ms, u1, u2, u3⟩
    refine ⟨s', ?_, fun k' hk' => ?_, fun k' u ms hk' hu hms => ?_⟩
    · unfold loop
      rw [e]
      exact g1
    · rw [g2 k' (fun h => hk' (by simp [h])), hget k', if_neg (fun h => hk' (by simp [h]))]
    · by_cases hkl : k' ∈ l
      · by_cases hkk : k' = k
        · subst hkk
          rw [h1] at hu
          cases hu
          rw [h3] at hms
          cases hms
          obtain ⟨t'', a1, a2, a3⟩ := g3 k' t' ns hkl (by rw [hget k', if_pos rfl]) (by rw [hsame.1]; exact h3)
          refine ⟨t'', a1, ⟨a2.1.trans hsame.1, a2.2.1.trans hsame.2.1, a2.2.2.1.trans hsame.2.2.1, a2.2.2.2.trans hsame.2.2.2⟩,
            fun c => ?_⟩
          rw [a3 c, hidx c]
          tauto
        · exact g3 k' u ms hkl (by rw [hget k', if_neg hkk]; exact hu) hms
      · have hkk : k' = k := by
          rcases List.mem_cons.1 hk' with h | h
          · exact h
          · exact absurd h hkl
        subst hkk
        rw [h1] at hu
        cases hu
        rw [h3] at hms
        cases hms
        exact ⟨t', by rw [g2 k' hkl, hget k', if_pos rfl], hsame, hidx⟩

/-- Specification: the tables selected by the argument `keys` (all tables of the store if none is given), except those that store
meta-information. -/
def Selected (keys : List Key) (s : Store) (k : Key) : Prop :=
  (k ∈ keys ∨ keys = [] ∧ ∃ t, (k, t) ∈ s) ∧ ¬ ∃ name : List Char, k = name ++ ['/', 'm', 'e', 't', 'a']

theorem mem_useKeys (keys : List Key) (s : Store) (k : Key) : k ∈ useKeys keys s ↔ Selected keys s k := by
  unfold useKeys Selected
  have hsuf : (List.isSuffixOf ['/', 'm', 'e', 't', 'a'] k = true) ↔ ∃ name : List Char, k = name ++ ['/', 'm', 'e', 't', 'a'] := by
    rw [List.isSuffixOf_iff_suffix]
    exact ⟨fun ⟨n, h⟩ => ⟨n, h.symm⟩, fun ⟨n, h⟩ => ⟨n, h.symm⟩⟩
  rw [List.mem_filter, Bool.not_eq_true', ← Bool.not_eq_true, hsuf]
  by_cases hk : keys = []
  · simp [hk]
  · simp [hk]

/-- C109: if all selected tables have several index-levels, exactly the requested levels of the selected tables get an index; nothing else is
changed. -/
theorem C109_levels_partial (idx : IdxLevels) (keys : List Key) (s : Store)
    (h : ∀ k, Selected keys s k → ∃ t ns, s.get k = some t ∧ t.Wf ∧ t.levels = .multi ns) :
    ∃ s', createIndex idx keys s = (s', .ok ()) ∧
      (∀ k, ¬ Selected keys s k → s'.get k = s.get k) ∧
      ∀ k t ns, Selected keys s k → s.get k = some t → t.levels = .multi ns →
        ∃ t', s'.get k = some t' ∧ SameData t t' ∧ ∀ c, c ∈ t'.indexed ↔ c ∈ t.indexed ∨ Requested idx ns c := by
  simp only [← mem_useKeys] at h ⊢
  exact loop_multi idx (useKeys keys s) s h

theorem step_data (idx : IdxLevels) (s : Store) (k k' : Key) (t : Table) (h : s.get k' = some t) :
    ∃ t', (step idx s k).1.get k' = some t' ∧ SameData t t' ∧ ∀ c ∈ t.indexed, c ∈ t'.indexed := by
  have hrefl : SameData t t := ⟨rfl, rfl, rfl, rfl⟩
  have hmono : ∀ (l : List String) (t : Table), ∀ c ∈ t.indexed, c ∈ (addIndex t l).1.indexed := by
    intro l
    induction l with
    | nil => intro t c hc; exact hc
    | cons x l ih =>
      intro t c hc
      unfold addIndex
      split_ifs
      · exact ih _ c hc
      · exact ih _ c (by simp [hc])
      · exact hc
      · exact ih t c hc
  unfold step
  cases hg : s.get k with
  | none => exact ⟨t, h, hrefl, fun c hc => hc⟩
  | some u =>
    dsimp only
    cases hu : useLevels idx u.levels with
    | error e => exact ⟨t, h, hrefl, fun c hc => hc⟩
    | ok ls =>
      dsimp only
      rw [get_put s k _ u hg k']
      by_cases hk : k' = k
      · rw [if_pos hk]
        subst hk
        rw [hg] at h
        cases h
        exact ⟨_, rfl, addIndex_same ls _, hmono ls _⟩
      · rw [if_neg hk]
        exact ⟨t, h, hrefl, fun c hc => hc⟩

/-- C109: whatever the arguments and the tables are, the data is not changed, no table and no index is removed. -/
theorem C109_data (idx : IdxLevels) (keys : List Key) (s : Store) (k : Key) (t : Table) (h : s.get k = some t) :
    ∃ t', (createIndex idx keys s).1.get k = some t' ∧ SameData t t' ∧ ∀ c ∈ t.indexed, c ∈ t'.indexed := by
  unfold createIndex
  generalize useKeys keys s = l
  induction l generalizing s t with
  | nil => exact ⟨t, h, ⟨rfl, rfl, rfl, rfl⟩, fun c hc => hc⟩
  | cons k' l ih =>
    obtain ⟨t', h1, h2, h3⟩ := step_data idx s k' k t h
    unfold loop
    cases hs : step idx s k' with
    | mk s' r =>
      rw [hs] at h1
      cases r with
      | error e => exact ⟨t', h1, h2, h3⟩
      | ok _ =>
        obtain ⟨t'', g1, g2, g3⟩ := ih s' t' h1
        exact ⟨t'', g1, ⟨g2.1.trans h2.1, g2.2.1.trans h2.2.1, g2.2.2.1.trans h2.2.2.1, g2.2.2.2.trans h2.2.2.2⟩, fun c hc => g3 c (h3 c hc)⟩

/-- The keys "/ds" and "/arg". -/
def dataset : Key := ['/', 'd', 's']
def readerArg : Key := ['/', 'a', 'r', 'g']

/-- The tables of a processing run: the dataset has the levels "ID" and "date", the arguments of the reader a simple index "ID" (stored as
column "index"). -/
def runStore : Store :=
  [(dataset, ⟨.multi ["ID", "date"], ["index", "values_block_0", "ID", "date"], ["sig", "inc"], [], 1⟩),
   (readerArg, ⟨.simple, ["index", "values_block_0", "ID"], ["ID", "path"], [], 2⟩)]

/-- Violation: no index is created for tables with a simple index, although the first (and only) level is requested. -/
theorem C109_simple_fails : ∃ t, (createIndex .none [] runStore).1.get readerArg = some t ∧ t.indexed = [] ∧
    (createIndex .none [] runStore).2 = .ok () := ⟨_, rfl, rfl, rfl⟩

/-- Violation: all levels (or a list of levels) cannot be requested for a store with a table with a simple index. -/
theorem C109_all_fails : (createIndex .all [] runStore).2 = .error .typeError ∧
    (createIndex (.some ["ID"]) [] runStore).2 = .error .typeError := ⟨rfl, rfl⟩

/-! ### examples -/

example : useKeys [dataset] runStore = [dataset] ∧ (createIndex (.some ["date", "x"]) [dataset] runStore).2 = .ok () ∧
    ((createIndex (.some ["date", "x"]) [dataset] runStore).1.get dataset).map Table.indexed = some ["date"] := by
  refine ⟨by decide, rfl, rfl⟩

example : ∀ k, Selected [dataset] runStore k → ∃ t ns, runStore.get k = some t ∧ t.Wf ∧ t.levels = .multi ns := by
  intro k hk
  rw [← mem_useKeys] at hk
  have e : useKeys [dataset] runStore = [dataset] := by decide
  rw [e] at hk
  rw [List.mem_singleton.1 hk]
  refine ⟨_, _, rfl, ?_, rfl⟩
  intro ns hns
  cases hns
  decide

example : ¬ Selected [] [("/a/meta".toList, ⟨.simple, [], [], [], 1⟩)] "/a/meta".toList := fun h => h.2 ⟨['/', 'a'], rfl⟩

end RT1.CreateIndex
