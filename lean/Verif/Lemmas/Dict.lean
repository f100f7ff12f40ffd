import Verif.Model.Dict
import Mathlib.Data.List.Nodup

/-!
# Lemmas about python dictionaries
-/

namespace RT1.Dict
open General

variable {κ ν : Type} [DecidableEq κ]

theorem get?_nil (k : κ) : get? ([] : Dict κ ν) k = none := rfl

theorem get?_cons (e : κ × ν) (d : Dict κ ν) (k : κ) : get? (e :: d) k = if e.1 = k then some e.2 else get? d k := by
  unfold get?
  by_cases h : e.1 = k <;> simp [h]

theorem get?_eq_none (d : Dict κ ν) (k : κ) : get? d k = none ↔ k ∉ d.keys := by
  induction d with
  | nil => simp [get?, keys]
  | cons e d ih =>
    rw [get?_cons]
    by_cases h : e.1 = k
    · simp [h, keys]
    · rw [if_neg h, ih]
      simp only [keys, List.map_cons, List.mem_cons, not_or]
      exact ⟨fun h' => ⟨fun e => h e.symm, h'⟩, fun h' => h'.2⟩

theorem get?_isSome (d : Dict κ ν) (k : κ) : (get? d k).isSome ↔ k ∈ d.keys := by
  have := get?_eq_none d k
  cases h : get? d k with
  | none => rw [h] at this; simp at this ⊢; exact this
  | some v => rw [h] at this; simp at this ⊢; exact this

theorem mem_of_get? {d : Dict κ ν} {k : κ} {v : ν} (h : get? d k = some v) : (k, v) ∈ d := by
  induction d with
  | nil => simp [get?] at h
  | cons e d ih =>
    rw [get?_cons] at h
    by_cases hk : e.1 = k
    · rw [if_pos hk] at h
      have : e = (k, v) := by rw [← hk, ← Option.some.inj h]
      rw [this]; exact List.mem_cons_self
    · rw [if_neg hk] at h
      exact List.mem_cons_of_mem _ (ih h)

theorem get?_iff_mem {d : Dict κ ν} (hn : d.keys.Nodup) (k : κ) (v : ν) : get? d k = some v ↔ (k, v) ∈ d := by
  refine ⟨mem_of_get?, fun h => ?_⟩
  induction d with
  | nil => simp at h
  | cons e d ih =>
    simp only [keys, List.map_cons, List.nodup_cons] at hn
    rw [get?_cons]
    rcases List.mem_cons.1 h with rfl | h
    · simp
    · have : e.1 ≠ k := by
        rintro rfl
        exact hn.1 (List.mem_map.2 ⟨_, h, rfl⟩)
      rw [if_neg this]
      exact ih hn.2 h

theorem get?_set (d : Dict κ ν) (k : κ) (v : ν) (k' : κ) : get? (set d k v) k' = if k' = k then some v else get? d k' := by
  induction d with
  | nil =>
    simp only [set, get?_cons, get?_nil]
    by_cases h : k = k'
    · rw [if_pos h, if_pos h.symm]
    · rw [if_neg h, if_neg (Ne.symm h)]
  | cons e d ih =>
    simp only [set]
    by_cases h : e.1 = k
    · rw [if_pos h, get?_cons, get?_cons]
      by_cases h' : k = k'
      · rw [if_pos h', if_pos h'.symm]
      · rw [if_neg h', if_neg (Ne.symm h'), h, if_neg h']
    · rw [if_neg h, get?_cons, get?_cons, ih]
      by_cases h' : e.1 = k'
      · rw [if_pos h', if_pos h']
        have : ¬ k' = k := fun q => h (h'.trans q)
        rw [if_neg this]
      · rw [if_neg h', if_neg h']

theorem mem_keys_set (d : Dict κ ν) (k : κ) (v : ν) (k' : κ) : k' ∈ (set d k v).keys ↔ k' = k ∨ k' ∈ d.keys := by
  rw [← get?_isSome, get?_set, ← get?_isSome]
  by_cases h : k' = k <;> simp [h]

theorem keys_cons (e : κ × ν) (d : Dict κ ν) : keys (e :: d) = e.1 :: keys d := rfl

theorem set_keys (d : Dict κ ν) (k : κ) (v : ν) : (set d k v).keys = if k ∈ d.keys then d.keys else d.keys ++ [k] := by
  induction d with
  | nil => simp [set, keys]
  | cons e d ih =>
    simp only [set]
    by_cases h : e.1 = k
    · simp [h, keys_cons]
    · rw [if_neg h, keys_cons, keys_cons, ih]
      have hk : ¬ k = e.1 := fun q => h q.symm
      by_cases hm : k ∈ keys d
      · rw [if_pos hm, if_pos (List.mem_cons_of_mem _ hm)]
      · rw [if_neg hm, if_neg (by simp [hk, hm])]; rfl

theorem nodup_set {d : Dict κ ν} (h : d.keys.Nodup) (k : κ) (v : ν) : (set d k v).keys.Nodup := by
  rw [set_keys]
  split_ifs with hk
  · exact h
  · rw [List.nodup_append]
    refine ⟨h, by simp, ?_⟩
    intro a ha b hb
    rw [List.mem_singleton] at hb
    rintro rfl
    exact hk (hb ▸ ha)

theorem update_cons (d : Dict κ ν) (e : κ × ν) (u : Dict κ ν) : update d (e :: u) = update (set d e.1 e.2) u := rfl

theorem nodup_update {d : Dict κ ν} (h : d.keys.Nodup) (u : Dict κ ν) : (update d u).keys.Nodup := by
  induction u generalizing d with
  | nil => exact h
  | cons e u ih => rw [update_cons]; exact ih (nodup_set h _ _)

/-- The last entry of `u` for the key counts. -/
theorem get?_update' (d u : Dict κ ν) (k : κ) :
    get? (update d u) k = ((u.reverse.find? fun e => decide (e.1 = k)).map Prod.snd).or (get? d k) := by
  induction u generalizing d with
  | nil => simp [update]
  | cons e u ih =>
    rw [update_cons, ih, get?_set, List.reverse_cons, List.find?_append]
    cases u.reverse.find? fun e => decide (e.1 = k) with
    | some x => simp
    | none =>
      by_cases h : k = e.1
      · simp [h]
      · have : ¬ e.1 = k := fun q => h q.symm
        simp [h, this]

theorem get?_update (d : Dict κ ν) {u : Dict κ ν} (hu : u.keys.Nodup) (k : κ) :
    get? (update d u) k = (get? u k).or (get? d k) := by
  rw [get?_update']
  congr 1
  cases h : get? u k with
  | none =>
    rw [get?_eq_none] at h
    rw [Option.map_eq_none_iff, List.find?_eq_none]
    intro e he
    simp only [decide_eq_true_eq]
    rintro rfl
    exact h (List.mem_map.2 ⟨e, List.mem_reverse.1 he, rfl⟩)
  | some v =>
    have hm := mem_of_get? h
    cases hf : u.reverse.find? fun e => decide (e.1 = k) with
    | none =>
      rw [List.find?_eq_none] at hf
      have := hf (k, v) (List.mem_reverse.2 hm)
      simp at this
    | some e =>
      have h1 := List.find?_some hf
      simp only [decide_eq_true_eq] at h1
      have h2 := List.mem_reverse.1 (List.mem_of_find?_eq_some hf)
      have h3 : get? u e.1 = some e.2 := (get?_iff_mem hu _ _).2 h2
      rw [h1, h] at h3
      simp [h3]

theorem get?_ofList {l : List (κ × ν)} (hl : (l.map Prod.fst).Nodup) (k : κ) (v : ν) :
    get? (ofList l) k = some v ↔ (k, v) ∈ l := by
  rw [ofList, get?_update [] hl, get?_nil, Option.or_none, get?_iff_mem hl]

/-- If no key occurs with different values, the order of the insertions does not matter. -/
theorem get?_ofList_functional {l : List (κ × ν)} (hl : ∀ k v v', (k, v) ∈ l → (k, v') ∈ l → v = v') (k : κ) (v : ν) :
    get? (ofList l) k = some v ↔ (k, v) ∈ l := by
  rw [ofList, get?_update', get?_nil, Option.or_none]
  cases hf : l.reverse.find? fun e => decide (e.1 = k) with
  | none =>
    rw [List.find?_eq_none] at hf
    simp only [Option.map_none, reduceCtorEq, false_iff]
    intro h
    have := hf (k, v) (List.mem_reverse.2 h)
    simp at this
  | some e =>
    have h1 := List.find?_some hf
    simp only [decide_eq_true_eq] at h1
    have h2 := List.mem_reverse.1 (List.mem_of_find?_eq_some hf)
    simp only [Option.map_some, Option.some.injEq]
    have h3 : (k, e.2) ∈ l := by rw [← h1]; exact h2
    constructor
    · rintro rfl; exact h3
    · intro h; exact hl k _ _ h3 h

theorem mem_keys_update (d u : Dict κ ν) (k : κ) : k ∈ (update d u).keys ↔ k ∈ u.keys ∨ k ∈ d.keys := by
  induction u generalizing d with
  | nil => simp [update, keys]
  | cons e u ih =>
    rw [update_cons, ih, mem_keys_set]
    simp only [keys, List.map_cons, List.mem_cons]
    tauto

theorem get?_erase (d : Dict κ ν) (k k' : κ) : get? (erase d k) k' = if k' = k then none else get? d k' := by
  induction d with
  | nil => simp [erase, get?]
  | cons e d ih =>
    unfold erase at *
    by_cases h : e.1 = k
    · rw [List.filter_cons_of_neg (by simpa using h), ih, get?_cons]
      by_cases h' : k' = k
      · simp [h']
      · have : ¬ e.1 = k' := fun q => h' (q.symm.trans h)
        simp [h', this]
    · rw [List.filter_cons_of_pos (by simpa using h), get?_cons, ih, get?_cons]
      by_cases h' : e.1 = k'
      · have : ¬ k' = k := fun q => h (h'.trans q)
        simp [h', this]
      · simp [h']

/-- Two dicts with the same lookups have the same keys. -/
theorem mem_keys_congr {d d' : Dict κ ν} (h : ∀ k, get? d k = get? d' k) (k : κ) : k ∈ d.keys ↔ k ∈ d'.keys := by
  rw [← get?_isSome, ← get?_isSome, h]

end RT1.Dict
