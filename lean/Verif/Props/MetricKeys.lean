import Verif.Model.MetricKeys
import Verif.Lemmas.Dict
import Verif.Props.General

/-!
# Metric keys resolve unambiguously (C69)
-/

namespace RT1.MetricKeys
open General

/-- Specification: the name under which column `k` of source `s` is offered: the column name if no other source has a column
of this name, otherwise the name with the source as suffix. -/
def IsLabel (c : Cols) (s : Source) (k d : Str) : Prop :=
  k ∈ c.colsOf s ∧
    (((∃ s', s' ≠ s ∧ k ∈ c.colsOf s') ∧ d = k ++ "__".toList ++ s.name) ∨ ((∀ s', s' ≠ s → k ∉ c.colsOf s') ∧ d = k))

/-- The condition under which the keys are unambiguous: no column name ends with `__` and the name of a source. -/
def Clean (c : Cols) : Prop := ∀ s, ∀ k ∈ c.colsOf s, ∀ s' : Source, ¬ ("__".toList ++ s'.name) <:+ k

/-- The columns of each source are distinct (the model components always are). -/
def Distinct (c : Cols) : Prop := ∀ s, (c.colsOf s).Nodup

theorem mem_all (c : Cols) (s : Source) (k : Str) : (s, k) ∈ c.all ↔ k ∈ c.colsOf s := by
  cases s <;> simp [Cols.all, Cols.colsOf]

theorem all_nodup {c : Cols} (h : Distinct c) : c.all.Nodup := by
  have hm : ∀ s, ((c.colsOf s).map fun k => (s, k)).Nodup := fun s => (h s).map fun a b e => (Prod.mk.inj e).2
  unfold Cols.all
  have e := hm .dataset; have e2 := hm .calc_model; have e3 := hm .res_df; have e4 := hm .auxdat
  simp only [Cols.colsOf] at e e2 e3 e4
  rw [List.nodup_append, List.nodup_append, List.nodup_append]
  refine ⟨⟨⟨e, e2, ?_⟩, e3, ?_⟩, e4, ?_⟩
  · intro a ha b hb
    simp only [List.mem_map] at ha hb
    obtain ⟨_, _, rfl⟩ := ha; obtain ⟨_, _, rfl⟩ := hb; simp
  · intro a ha b hb
    simp only [List.mem_append, List.mem_map] at ha hb
    obtain ⟨_, _, rfl⟩ := hb
    rcases ha with ⟨_, _, rfl⟩ | ⟨_, _, rfl⟩ <;> simp
  · intro a ha b hb
    simp only [List.mem_append, List.mem_map] at ha hb
    obtain ⟨_, _, rfl⟩ := hb
    rcases ha with (⟨_, _, rfl⟩ | ⟨_, _, rfl⟩) | ⟨_, _, rfl⟩ <;> simp

/-- The entries of `_all_keys` before inserting them into the dict. -/
theorem mem_entries {c : Cols} (h : Distinct c) (d : Str) (s : Source) :
    (d, s) ∈ (groupbyUnsorted c.all Prod.snd Prod.fst).flatMap entries ↔ ∃ k, IsLabel c s k d := by
  obtain ⟨⟨g1, g2, g3, _⟩, _⟩ := C25_groupby_unsorted c.all Prod.snd Prod.fst
  have hv : ∀ k vs, (k, vs) ∈ groupbyUnsorted c.all Prod.snd Prod.fst → vs.Nodup ∧ ∀ s, s ∈ vs ↔ k ∈ c.colsOf s := by
    intro k vs hg
    rw [g3 k vs hg]
    constructor
    · apply List.Nodup.map_on _ ((all_nodup h).filter _)
      intro x hx y hy e
      simp only [List.mem_filter, decide_eq_true_eq] at hx hy
      exact Prod.ext e (hx.2.trans hy.2.symm)
    · intro s
      simp only [List.mem_map, List.mem_filter, decide_eq_true_eq]
      constructor
      · rintro ⟨⟨s', k'⟩, ⟨h1, rfl⟩, rfl⟩
        exact (mem_all c _ _).1 h1
      · intro hk
        exact ⟨(s, k), ⟨(mem_all c s k).2 hk, rfl⟩, rfl⟩
  have hex : ∀ s k, k ∈ c.colsOf s → ∃ vs, (k, vs) ∈ groupbyUnsorted c.all Prod.snd Prod.fst := by
    intro s k hk
    have := (g2 k).2 ⟨(s, k), (mem_all c s k).2 hk, rfl⟩
    obtain ⟨⟨k', vs⟩, hm, rfl⟩ := List.mem_map.1 this
    exact ⟨vs, hm⟩
  have hlen : ∀ k vs, (k, vs) ∈ groupbyUnsorted c.all Prod.snd Prod.fst → ∀ s ∈ vs, 1 < vs.length ↔
      ∃ s', s' ≠ s ∧ k ∈ c.colsOf s' := by
    intro k vs hg s hs
    obtain ⟨hn, hm⟩ := hv k vs hg
    constructor
    · intro hl
      match vs, hl, hn with
      | a :: b :: vs, _, hn =>
        have hab : a ≠ b := by
          intro e; simp [e] at hn
        by_cases ha : a = s
        · exact ⟨b, by rw [← ha]; exact hab.symm, (hm b).1 (by simp)⟩
        · exact ⟨a, ha, (hm a).1 (by simp)⟩
    · rintro ⟨s', hne, hk⟩
      have hs' := (hm s').2 hk
      match vs, hs, hs' with
      | [a], hs, hs' =>
        simp only [List.mem_singleton] at hs hs'
        exact absurd (hs'.trans hs.symm) hne
      | a :: b :: vs, _, _ => simp
  rw [List.mem_flatMap]
  constructor
  · rintro ⟨⟨k, vs⟩, hg, he⟩
    obtain ⟨hn, hm⟩ := hv k vs hg
    unfold entries at he
    by_cases hl : 1 < vs.length
    · rw [if_pos hl] at he
      obtain ⟨i, hi, e⟩ := List.mem_map.1 he
      obtain ⟨rfl, rfl⟩ := Prod.mk.inj e
      exact ⟨k, (hm i).1 hi, .inl ⟨(hlen k vs hg i hi).1 hl, rfl⟩⟩
    · rw [if_neg hl] at he
      match vs, hl, he, hm, hg with
      | i :: vs, hl, he, hm, hg =>
        simp only [List.mem_singleton, Prod.mk.injEq] at he
        obtain ⟨rfl, rfl⟩ := he
        refine ⟨d, (hm s).1 (by simp), .inr ⟨?_, rfl⟩⟩
        intro s' hne hk
        exact hl ((hlen d _ hg s (by simp)).2 ⟨s', hne, hk⟩)
      | [], _, he, _, _ => simp at he
  · rintro ⟨k, hk, hd⟩
    obtain ⟨vs, hg⟩ := hex s k hk
    obtain ⟨hn, hm⟩ := hv k vs hg
    have hs := (hm s).2 hk
    refine ⟨(k, vs), hg, ?_⟩
    unfold entries
    rcases hd with ⟨hex, rfl⟩ | ⟨hno, rfl⟩
    · rw [if_pos ((hlen k vs hg s hs).2 hex)]
      exact List.mem_map.2 ⟨s, hs, rfl⟩
    · have hl : ¬ 1 < vs.length := by
        intro hl
        obtain ⟨s', hne, hk'⟩ := (hlen d vs hg s hs).1 hl
        exact hno s' hne hk'
      rw [if_neg hl]
      match vs, hl, hs with
      | [i], _, hs => simp only [List.mem_singleton] at hs ⊢; rw [hs]
      | i :: j :: vs, hl, _ => simp at hl

theorem suffix_inj {s s' : Source} {k k' : Str} (h : k ++ "__".toList ++ s.name = k' ++ "__".toList ++ s'.name) :
    s = s' ∧ k = k' := by
  have h1 : ("__".toList ++ s.name) <:+ (k ++ "__".toList ++ s.name) := ⟨k, by simp⟩
  have h2 : ("__".toList ++ s'.name) <:+ (k ++ "__".toList ++ s.name) := ⟨k', by rw [h]; simp⟩
  have hs : s = s' := by
    rcases Nat.le_total ("__".toList ++ s.name).length ("__".toList ++ s'.name).length with hl | hl
    · have := List.suffix_of_suffix_length_le h1 h2 hl
      revert this; cases s <;> cases s' <;> decide
    · have := List.suffix_of_suffix_length_le h2 h1 hl
      revert this; cases s <;> cases s' <;> decide
  subst hs
  refine ⟨rfl, ?_⟩
  rw [List.append_assoc, List.append_assoc] at h
  exact List.append_cancel_right h

theorem label_inj {c : Cols} (hc : Clean c) {s s' : Source} {k k' d : Str} (h : IsLabel c s k d) (h' : IsLabel c s' k' d) :
    s = s' ∧ k = k' := by
  obtain ⟨hk, h⟩ := h
  obtain ⟨hk', h'⟩ := h'
  rcases h with ⟨_, e⟩ | ⟨hno, rfl⟩ <;> rcases h' with ⟨_, e'⟩ | ⟨hno', e'⟩
  · exact suffix_inj (e.symm.trans e')
  · exact absurd ⟨k, by rw [← e', e]; simp⟩ (hc s' k' hk' s)
  · exact absurd ⟨k', by rw [e']; simp⟩ (hc s d hk s')
  · subst e'
    refine ⟨?_, rfl⟩
    by_contra hne
    exact hno s' (fun e => hne e.symm) hk'

theorem checkKeys_iff {c : Cols} (hd : Distinct c) (hc : Clean c) (d : Str) (s : Source) :
    (checkKeys c).get? d = some s ↔ ∃ k, IsLabel c s k d := by
  rw [checkKeys, Dict.get?_ofList_functional, mem_entries hd]
  intro d s s' h h'
  obtain ⟨k, hk⟩ := (mem_entries hd d s).1 h
  obtain ⟨k', hk'⟩ := (mem_entries hd d s').1 h'
  exact (label_inj hc hk hk').1

/-- C69, for column names that do not end with `__` and the name of a source: a key resolves to column `k` of source `s`
exactly if it is the name specified for that column.  Hence all columns of all sources are available, under distinct keys,
and every key offered to the user resolves to an existing column. -/
theorem C69_metric_keys_partial {c : Cols} (hd : Distinct c) (hc : Clean c) (d : Str) (s : Source) (k : Str) :
    getData c d = .ok (s, k) ↔ IsLabel c s k d := by
  have key : ∀ s k, IsLabel c s k d → getData c d = .ok (s, k) := by
    intro s k hl
    have h1 := (checkKeys_iff hd hc d s).2 ⟨k, hl⟩
    have h2 : (if endsWith d ("__".toList ++ s.name) then d.take (d.length - ("__".toList ++ s.name).length) else d) = k := by
      obtain ⟨hk, ⟨_, rfl⟩ | ⟨_, rfl⟩⟩ := hl
      · rw [if_pos (by rw [endsWith, List.isSuffixOf_iff_suffix]; exact ⟨k, by simp⟩)]
        rw [List.append_assoc, List.length_append, Nat.add_sub_cancel, List.take_left]
      · rw [if_neg (by rw [endsWith, List.isSuffixOf_iff_suffix]; exact hc s d hk s)]
    unfold getData resolve
    simp only [h1, h2]
    change (if k ∈ c.colsOf s then _ else _) = _
    rw [if_pos hl.1]
  constructor
  · intro h
    cases hg : (checkKeys c).get? d with
    | none =>
      have : getData c d = .error .assertionError := by unfold getData resolve; rw [hg]; rfl
      rw [this] at h; simp at h
    | some s' =>
      obtain ⟨k', hk'⟩ := (checkKeys_iff hd hc d s').1 hg
      rw [key s' k' hk'] at h
      obtain ⟨rfl, rfl⟩ := Prod.mk.inj (Except.ok.inj h)
      exact hk'
  · exact key s k

/-- C69: every column has exactly one key. -/
theorem C69_unique_key_partial {c : Cols} (hd : Distinct c) (hc : Clean c) (s : Source) (k : Str) (hk : k ∈ c.colsOf s) :
    ∃! d, getData c d = .ok (s, k) := by
  by_cases h : ∃ s', s' ≠ s ∧ k ∈ c.colsOf s'
  · refine ⟨k ++ "__".toList ++ s.name, (C69_metric_keys_partial hd hc _ s k).2 ⟨hk, .inl ⟨h, rfl⟩⟩, fun d hd' => ?_⟩
    obtain ⟨_, ⟨_, e⟩ | ⟨hno, _⟩⟩ := (C69_metric_keys_partial hd hc d s k).1 hd'
    · exact e
    · obtain ⟨s', hne, hk'⟩ := h; exact absurd hk' (hno s' hne)
  · refine ⟨k, (C69_metric_keys_partial hd hc _ s k).2 ⟨hk, .inr ⟨fun s' hne hk' => h ⟨s', hne, hk'⟩, rfl⟩⟩, fun d hd' => ?_⟩
    obtain ⟨_, ⟨hex, e⟩ | ⟨_, e⟩⟩ := (C69_metric_keys_partial hd hc d s k).1 hd'
    · exact absurd hex h
    · exact e

/-- C69: every key that is offered resolves to a column. -/
theorem C69_offered_partial {c : Cols} (hd : Distinct c) (hc : Clean c) (d : Str) (h : d ∈ (checkKeys c).keys) :
    ∃ s k, getData c d = .ok (s, k) := by
  obtain ⟨s, hs⟩ := Option.isSome_iff_exists.1 ((Dict.get?_isSome _ d).2 h)
  obtain ⟨k, hk⟩ := (checkKeys_iff hd hc d s).1 hs
  exact ⟨s, k, (C69_metric_keys_partial hd hc d s k).2 hk⟩

/-- C69: the full statement fails: a dataset column `x__dataset` is offered under its own name, but the name resolves to the
(missing) column `x`: KeyError. -/
theorem C69_suffix_fails : ∃ c : Cols, Distinct c ∧ "x__dataset".toList ∈ c.data ∧
    "x__dataset".toList ∈ (checkKeys c).keys ∧ getData c "x__dataset".toList = .error .keyError :=
  ⟨⟨["x__dataset".toList], false, [], none⟩, by intro s; cases s <;> decide +kernel, by decide +kernel,
    by decide +kernel, by decide +kernel⟩

/-- C69: the full statement fails: with the dataset columns `sm` and `sm__dataset` and a parameter `sm`, the key
`sm__dataset` stands for two columns; the column `sm__dataset` is not available under any key. -/
theorem C69_collision_fails : ∃ c : Cols, Distinct c ∧ "sm__dataset".toList ∈ c.data ∧
    ∀ d, getData c d ≠ .ok (.dataset, "sm__dataset".toList) := by
  refine ⟨⟨["sm".toList, "sm__dataset".toList], false, ["sm".toList], none⟩, by intro s; cases s <;> decide +kernel,
    by decide +kernel, ?_⟩
  intro d h
  by_cases hm : d ∈ (checkKeys ⟨["sm".toList, "sm__dataset".toList], false, ["sm".toList], none⟩).keys
  · have e : (checkKeys ⟨["sm".toList, "sm__dataset".toList], false, ["sm".toList], none⟩).keys =
      ["sm__dataset".toList, "sm__res_df".toList, "tot".toList, "surf".toList, "vol".toList] := by decide +kernel
    rw [e] at hm
    simp only [List.mem_cons, List.not_mem_nil, or_false] at hm
    rcases hm with rfl | rfl | rfl | rfl | rfl <;> revert h <;> decide +kernel
  · rw [← Dict.get?_eq_none] at hm
    have : getData ⟨["sm".toList, "sm__dataset".toList], false, ["sm".toList], none⟩ d = .error .assertionError := by
      unfold getData resolve; rw [hm]; rfl
    rw [this] at h; simp at h

/-- C69: a dataset, a parameter and auxiliary data with equally named columns. -/
example : let c : Cols := ⟨["sig".toList, "sm".toList], true, ["omega".toList, "sm".toList], some ["sm".toList]⟩
    (checkKeys c).keys = ["sig".toList, "sm__dataset".toList, "sm__res_df".toList, "sm__auxdat".toList, "tot".toList,
      "surf".toList, "vol".toList, "inter".toList, "omega".toList] := by decide +kernel

example : let c : Cols := ⟨["sig".toList, "sm".toList], true, ["omega".toList, "sm".toList], some ["sm".toList]⟩
    Distinct c ∧ Clean c := by
  refine ⟨by intro s; cases s <;> decide +kernel, ?_⟩
  intro s k hk s'
  have hk' : k ∈ ["sig".toList, "sm".toList, "omega".toList, "tot".toList, "surf".toList, "vol".toList, "inter".toList] := by
    cases s <;> simp [Cols.colsOf, Cols.model, Cols.auxkeys] at hk ⊢ <;> tauto
  simp only [List.mem_cons, List.not_mem_nil, or_false] at hk'
  rcases hk' with rfl | rfl | rfl | rfl | rfl | rfl | rfl <;> cases s' <;> decide +kernel

end RT1.MetricKeys
