import Verif.Model.General
import Mathlib.Tactic.Ring
import Mathlib.Tactic.Linarith
import Mathlib.Tactic.FieldSimp
import Mathlib.Tactic.Positivity
import Mathlib.Algebra.Order.BigOperators.Group.List
import Mathlib.Data.List.Basic

/-! Helper lemmas for the properties of `general_functions.py`. -/

namespace RT1.General

theorem foldl_max_le_iff (l : List Nat) (a b : Nat) : l.foldl max a ≤ b ↔ a ≤ b ∧ ∀ x ∈ l, x ≤ b := by
  induction l generalizing a with
  | nil => simp
  | cons x xs ih => simp [ih, and_assoc]

theorem foldl_max_mem (l : List Nat) (a : Nat) : l.foldl max a = a ∨ l.foldl max a ∈ l := by
  induction l generalizing a with
  | nil => simp
  | cons x xs ih =>
    rcases ih (max a x) with h | h
    · rcases max_choice a x with h' | h' <;> rw [h'] at h <;> simp [h', h]
    · simp [h]

/-- `mapM` in `Except` succeeds iff every element succeeds, with the elementwise results. -/
theorem mapM_ok_iff {α β ε : Type} (f : α → Except ε β) (l : List α) (r : List β) :
    l.mapM f = .ok r ↔ List.Forall₂ (fun a b => f a = .ok b) l r := by
  induction l generalizing r with
  | nil =>
    simp only [List.mapM_nil, List.forall₂_nil_left_iff]
    constructor
    · intro h; cases h; rfl
    · rintro rfl; rfl
  | cons a l ih =>
    rw [List.mapM_cons]
    cases ha : f a with
    | error e =>
      constructor
      · intro h; cases h
      · intro h; cases h with | cons h1 _ => rw [ha] at h1; cases h1
    | ok b =>
      cases hl : l.mapM f with
      | error e =>
        constructor
        · intro h; cases h
        · intro h
          cases h with
          | cons h1 h2 => rw [← ih, hl] at h2; cases h2
      | ok bs =>
        constructor
        · intro h; cases h
          exact .cons ha ((ih bs).1 hl)
        · intro h
          cases h with
          | cons h1 h2 =>
            rw [ha] at h1; cases h1
            rw [← ih, hl] at h2; cases h2
            rfl

theorem mapM_isOk_iff {α β ε : Type} (f : α → Except ε β) (l : List α) :
    (∃ r, l.mapM f = .ok r) ↔ ∀ a ∈ l, ∃ b, f a = .ok b := by
  simp only [mapM_ok_iff]
  induction l with
  | nil => simp
  | cons a l ih =>
    simp only [List.forall₂_cons_left_iff, List.mem_cons, forall_eq_or_imp]
    constructor
    · rintro ⟨_, b, r, h1, h2, rfl⟩
      exact ⟨⟨b, h1⟩, ih.1 ⟨r, h2⟩⟩
    · rintro ⟨⟨b, h1⟩, h2⟩
      obtain ⟨r, h3⟩ := ih.2 h2
      exact ⟨_, b, r, h1, h3, rfl⟩

theorem zipStar_drop {α : Type} (s : List α) (n k : Nat) :
    zipStar ((List.range (n + 1)).map fun i => s.drop (k + i)) =
      (List.range (s.length - k - n)).map fun i => (s.drop (k + i)).take (n + 1) := by
  induction n generalizing k with
  | zero =>
    have h0 : (List.range (0 + 1)).map (fun i => s.drop (k + i)) = [s.drop k] := by simp
    rw [h0]
    simp only [zipStar]
    apply List.ext_getElem
    · simp
    · intro i h1 h2
      simp at h1 h2
      simp only [List.getElem_map, List.getElem_drop, List.getElem_range, Nat.zero_add]
      rw [List.drop_eq_getElem_cons (i := k + i) (by omega), List.take_succ_cons, List.take_zero]
  | succ n ih =>
    have hr : (List.range (n + 1 + 1)).map (fun i => s.drop (k + i)) =
        s.drop k :: (List.range (n + 1)).map (fun i => s.drop (k + 1 + i)) := by
      rw [List.range_succ_eq_map]
      simp [Function.comp_def, Nat.add_assoc, Nat.add_comm 1]
    rw [hr]
    have hz : zipStar (s.drop k :: (List.range (n + 1)).map (fun i => s.drop (k + 1 + i))) =
        List.zipWith (fun a t => a :: t) (s.drop k)
          (zipStar ((List.range (n + 1)).map (fun i => s.drop (k + 1 + i)))) := by
      rw [List.range_succ_eq_map]; rfl
    rw [hz, ih (k + 1)]
    apply List.ext_getElem
    · simp; omega
    · intro i h1 h2
      simp at h1 h2
      simp only [List.getElem_zipWith, List.getElem_map, List.getElem_drop, List.getElem_range]
      rw [List.drop_eq_getElem_cons (i := k + i) (by omega), List.take_succ_cons]
      congr 3
      omega

theorem setdefaultAppend_keys {κ β : Type} [DecidableEq κ] (d : List (κ × List β)) (k : κ) (v : β) :
    (setdefaultAppend d k v).map Prod.fst =
      if k ∈ d.map Prod.fst then d.map Prod.fst else d.map Prod.fst ++ [k] := by
  induction d with
  | nil => simp [setdefaultAppend]
  | cons p d ih =>
    obtain ⟨k', vs⟩ := p
    unfold setdefaultAppend
    by_cases h : k' = k
    · simp [h]
    · have h' : ¬ k = k' := fun e => h e.symm
      simp only [h, if_false, List.map_cons, ih, List.mem_cons, h', false_or]
      split <;> simp_all

/-- The list stored under a key (`[]` if absent). -/
def lookupD {κ β : Type} [DecidableEq κ] (d : List (κ × List β)) (k : κ) : List β :=
  (d.lookup k).getD []

theorem lookupD_setdefaultAppend {κ β : Type} [DecidableEq κ] (d : List (κ × List β)) (k k' : κ) (v : β) :
    lookupD (setdefaultAppend d k v) k' = if k' = k then lookupD d k' ++ [v] else lookupD d k' := by
  induction d with
  | nil =>
    by_cases h : k' = k
    · simp [setdefaultAppend, lookupD, h]
    · have : (k' == k) = false := by simpa using h
      simp [setdefaultAppend, lookupD, h, List.lookup, this]
  | cons p d ih =>
    obtain ⟨k₀, vs⟩ := p
    unfold setdefaultAppend
    by_cases h : k₀ = k
    · subst h
      simp only [if_true]
      by_cases h' : k' = k₀
      · simp [lookupD, h']
      · have : (k' == k₀) = false := by simpa using h'
        simp [lookupD, List.lookup, this, h']
    · simp only [h, if_false]
      by_cases h' : k' = k₀
      · subst h'
        simp [lookupD, h]
      · have : (k' == k₀) = false := by simpa using h'
        simpa [lookupD, List.lookup, this] using ih

theorem groupby_snoc {α κ β : Type} [DecidableEq κ] (l : List α) (x : α) (key : α → κ) (get : α → β) :
    groupbyUnsorted (l ++ [x]) key get = setdefaultAppend (groupbyUnsorted l key get) (key x) (get x) := by
  simp [groupbyUnsorted]

theorem groupby_keys_mem {α κ β : Type} [DecidableEq κ] (l : List α) (key : α → κ) (get : α → β) (k : κ) :
    k ∈ (groupbyUnsorted l key get).map Prod.fst ↔ k ∈ l.map key := by
  induction l using List.reverseRecOn generalizing k with
  | nil => simp [groupbyUnsorted]
  | append_singleton l x ih =>
    rw [groupby_snoc, setdefaultAppend_keys]
    split
    · rename_i h
      rw [ih] at h ⊢
      simp only [List.map_append, List.map_cons, List.map_nil, List.mem_append, List.mem_singleton]
      constructor
      · intro h'; exact Or.inl h'
      · rintro (h' | rfl)
        · exact h'
        · exact h
    · simp only [List.mem_append, ih, List.map_append, List.map_cons, List.map_nil]

theorem groupby_keys_nodup {α κ β : Type} [DecidableEq κ] (l : List α) (key : α → κ) (get : α → β) :
    ((groupbyUnsorted l key get).map Prod.fst).Nodup := by
  induction l using List.reverseRecOn with
  | nil => simp [groupbyUnsorted]
  | append_singleton l x ih =>
    rw [groupby_snoc, setdefaultAppend_keys]
    split
    · exact ih
    · rename_i h
      rw [List.nodup_append]
      refine ⟨ih, by simp, ?_⟩
      intro a ha b hb
      simp at hb
      subst hb
      rintro rfl
      exact h ha

theorem groupby_keys_order {α κ β : Type} [DecidableEq κ] (l : List α) (key : α → κ) (get : α → β) :
    ((groupbyUnsorted l key get).map Prod.fst).Pairwise
      fun a b => (l.map key).idxOf a < (l.map key).idxOf b := by
  induction l using List.reverseRecOn with
  | nil => simp [groupbyUnsorted]
  | append_singleton l x ih =>
    rw [groupby_snoc, setdefaultAppend_keys]
    have hm := groupby_keys_mem l key get
    have key1 : ∀ a, a ∈ l.map key → ((l ++ [x]).map key).idxOf a = (l.map key).idxOf a := by
      intro a ha
      rw [List.map_append, List.idxOf_append_of_mem ha]
    have base : ((groupbyUnsorted l key get).map Prod.fst).Pairwise
      fun a b => ((l ++ [x]).map key).idxOf a < ((l ++ [x]).map key).idxOf b := by
      refine List.Pairwise.imp_of_mem ?_ ih
      intro a b ha hb hab
      rw [key1 a ((hm a).1 ha), key1 b ((hm b).1 hb)]
      exact hab
    split
    · exact base
    · rename_i h
      rw [List.pairwise_append]
      refine ⟨base, by simp, ?_⟩
      intro a ha b hb
      simp at hb
      subst hb
      rw [key1 a ((hm a).1 ha), List.map_append]
      rw [hm] at h
      rw [List.idxOf_append_of_notMem h]
      have := List.idxOf_lt_length_of_mem ((hm a).1 ha)
      omega

theorem groupby_lookup {α κ β : Type} [DecidableEq κ] (l : List α) (key : α → κ) (get : α → β) (k : κ) :
    lookupD (groupbyUnsorted l key get) k = (l.filter fun x => decide (key x = k)).map get := by
  induction l using List.reverseRecOn with
  | nil => simp [groupbyUnsorted, lookupD]
  | append_singleton l x ih =>
    rw [groupby_snoc, lookupD_setdefaultAppend, ih]
    by_cases h : k = key x
    · subst h; simp
    · have h' : ¬ key x = k := fun e => h e.symm
      simp [h, h']

theorem lookupD_of_mem {κ β : Type} [DecidableEq κ] (d : List (κ × List β)) (hd : (d.map Prod.fst).Nodup)
    (k : κ) (vs : List β) (h : (k, vs) ∈ d) : lookupD d k = vs := by
  induction d with
  | nil => simp at h
  | cons p d ih =>
    obtain ⟨k', vs'⟩ := p
    simp only [List.map_cons, List.nodup_cons] at hd
    rcases List.mem_cons.1 h with h | hm
    · cases h; simp [lookupD]
    · have hk : k ≠ k' := by
        rintro rfl
        exact hd.1 (List.mem_map.2 ⟨(k, vs), hm, rfl⟩)
      have : (k == k') = false := by simpa using hk
      have := ih hd.2 hm
      simpa [lookupD, List.lookup, ‹(k == k') = false›] using this

theorem groupby_flatten_perm {α κ β : Type} [DecidableEq κ] (l : List α) (key : α → κ) (get : α → β) :
    ((groupbyUnsorted l key get).map Prod.snd).flatten.Perm (l.map get) := by
  have aux : ∀ (d : List (κ × List β)) k v,
      ((setdefaultAppend d k v).map Prod.snd).flatten.Perm ((d.map Prod.snd).flatten ++ [v]) := by
    intro d k v
    induction d with
    | nil => simp [setdefaultAppend]
    | cons p d ih =>
      obtain ⟨k', vs⟩ := p
      unfold setdefaultAppend
      split
      · simp only [List.map_cons, List.flatten_cons, List.append_assoc]
        exact List.Perm.append_left _ List.perm_append_comm
      · simp only [List.map_cons, List.flatten_cons, List.append_assoc]
        exact List.Perm.append_left _ ih
  induction l using List.reverseRecOn with
  | nil => simp [groupbyUnsorted]
  | append_singleton l x ih =>
    rw [groupby_snoc]
    refine (aux _ _ _).trans ?_
    rw [List.map_append]
    exact List.Perm.append_right _ ih

theorem maxID_ge (l : List Int) (x : Int) (h : x ∈ l) : x ≤ maxID l := by
  have aux : ∀ (l : List Int) a, a ≤ l.foldl max a ∧ ∀ x ∈ l, x ≤ l.foldl max a := by
    intro l
    induction l with
    | nil => simp
    | cons y ys ih =>
      intro a
      have := ih (max a y)
      simp only [List.foldl_cons, List.mem_cons, forall_eq_or_imp]
      refine ⟨le_trans (le_max_left _ _) this.1, le_trans (le_max_right _ _) this.1, this.2⟩
  cases l with
  | nil => simp at h
  | cons y ys =>
    rcases List.mem_cons.1 h with h | h
    · subst h; exact (aux ys _).1
    · exact (aux ys _).2 x h

theorem maxID_mem (l : List Int) (h : l ≠ []) : maxID l ∈ l := by
  have aux : ∀ (l : List Int) a, l.foldl max a = a ∨ l.foldl max a ∈ l := by
    intro l
    induction l with
    | nil => simp
    | cons y ys ih =>
      intro a
      rcases ih (max a y) with h | h
      · rcases max_choice a y with h' | h' <;> rw [h'] at h <;> simp [h', h]
      · simp [h]
  cases l with
  | nil => simp at h
  | cons y ys =>
    rcases aux ys y with h | h
    · simp [maxID, h]
    · simp [maxID, h]

theorem mem_pyRange (n x : Int) : x ∈ pyRange n ↔ 0 ≤ x ∧ x < n := by
  simp only [pyRange, List.mem_map, List.mem_range]
  constructor
  · rintro ⟨k, hk, rfl⟩
    simp only [Int.ofNat_eq_natCast]
    omega
  · rintro ⟨h1, h2⟩
    exact ⟨x.toNat, by omega, by simp only [Int.ofNat_eq_natCast]; omega⟩

theorem pyRange_sorted (n : Int) : (pyRange n).Pairwise (· < ·) := by
  unfold pyRange
  rw [List.pairwise_map]
  refine List.Pairwise.imp ?_ List.pairwise_lt_range
  intro a b h
  simp only [Int.ofNat_eq_natCast]
  omega

theorem missing_sorted (l : List Int) : (missingIDs l).Pairwise (· < ·) := by
  unfold missingIDs
  split
  · exact (pyRange_sorted _).filter _
  · simp

theorem mem_missing (l : List Int) (x : Int) :
    x ∈ missingIDs l ↔ l ≠ [] ∧ 0 ≤ x ∧ x < maxID l ∧ x ∉ l := by
  unfold missingIDs
  split
  · rename_i h
    have : l ≠ [] := by rintro rfl; simp at h
    simp [List.mem_filter, mem_pyRange, this, and_assoc]
  · rename_i h
    have : l = [] := by
      cases l with
      | nil => rfl
      | cons => simp at h
    simp [this]

theorem npMin_le (l : List ℝ) (x : ℝ) (h : x ∈ l) : npMin l ≤ x := by
  have aux : ∀ (l : List ℝ) a, l.foldl min a ≤ a ∧ ∀ x ∈ l, l.foldl min a ≤ x := by
    intro l
    induction l with
    | nil => simp
    | cons y ys ih =>
      intro a
      have := ih (min a y)
      simp only [List.foldl_cons, List.mem_cons, forall_eq_or_imp]
      refine ⟨le_trans this.1 (min_le_left _ _), le_trans this.1 (min_le_right _ _), this.2⟩
  cases l with
  | nil => simp at h
  | cons y ys =>
    rcases List.mem_cons.1 h with h | h
    · subst h; exact (aux ys _).1
    · exact (aux ys _).2 x h

theorem le_npMax (l : List ℝ) (x : ℝ) (h : x ∈ l) : x ≤ npMax l := by
  have aux : ∀ (l : List ℝ) a, a ≤ l.foldl max a ∧ ∀ x ∈ l, x ≤ l.foldl max a := by
    intro l
    induction l with
    | nil => simp
    | cons y ys ih =>
      intro a
      have := ih (max a y)
      simp only [List.foldl_cons, List.mem_cons, forall_eq_or_imp]
      refine ⟨le_trans (le_max_left _ _) this.1, le_trans (le_max_right _ _) this.1, this.2⟩
  cases l with
  | nil => simp at h
  | cons y ys =>
    rcases List.mem_cons.1 h with h | h
    · subst h; exact (aux ys _).1
    · exact (aux ys _).2 x h

theorem npMin_mem (l : List ℝ) (h : l ≠ []) : npMin l ∈ l := by
  have aux : ∀ (l : List ℝ) a, l.foldl min a = a ∨ l.foldl min a ∈ l := by
    intro l
    induction l with
    | nil => simp
    | cons y ys ih =>
      intro a
      rcases ih (min a y) with h | h
      · rcases min_choice a y with h' | h' <;> rw [h'] at h <;> simp [h', h]
      · simp [h]
  cases l with
  | nil => simp at h
  | cons y ys => rcases aux ys y with h | h <;> simp [npMin, h]

theorem npMax_mem (l : List ℝ) (h : l ≠ []) : npMax l ∈ l := by
  have aux : ∀ (l : List ℝ) a, l.foldl max a = a ∨ l.foldl max a ∈ l := by
    intro l
    induction l with
    | nil => simp
    | cons y ys ih =>
      intro a
      rcases ih (max a y) with h | h
      · rcases max_choice a y with h' | h' <;> rw [h'] at h <;> simp [h', h]
      · simp [h]
  cases l with
  | nil => simp at h
  | cons y ys => rcases aux ys y with h | h <;> simp [npMax, h]

/-- `roundHalfEven` in terms of twice the quotient. -/
theorem roundHalfEven_bounds (a b : Nat) (hb : 0 < b) :
    2 * a ≤ 2 * b * roundHalfEven a b + b ∧ 2 * b * roundHalfEven a b ≤ 2 * a + b := by
  have h := Nat.div_add_mod a b
  have h2 := Nat.mod_lt a hb
  unfold roundHalfEven
  generalize hq : a / b = q at *
  generalize hr : a % b = r at *
  have e1 : 2 * b * q = 2 * (b * q) := by ring
  have e2 : 2 * b * (q + 1) = 2 * (b * q) + 2 * b := by ring
  simp only
  split
  · rw [e1]; omega
  · split
    · rw [e2]; omega
    · split
      · rw [e1]; omega
      · rw [e2]; omega

theorem roundHalfEven_mono (a a' b : Nat) (hb : 0 < b) (h : a ≤ a') :
    roundHalfEven a b ≤ roundHalfEven a' b := by
  by_contra hc
  push Not at hc
  obtain ⟨h1, h2⟩ := roundHalfEven_bounds a b hb
  obtain ⟨h3, h4⟩ := roundHalfEven_bounds a' b hb
  have hle : roundHalfEven a' b + 1 ≤ roundHalfEven a b := hc
  have : 2 * b * (roundHalfEven a' b + 1) ≤ 2 * b * roundHalfEven a b := Nat.mul_le_mul_left _ hle
  have e : 2 * b * (roundHalfEven a' b + 1) = 2 * b * roundHalfEven a' b + 2 * b := by ring
  have haa : a = a' := by omega
  subst haa
  omega

end RT1.General
