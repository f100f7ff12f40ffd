import Verif.Model.FitSpec
import Verif.Lemmas.Assign

/-! Helper lemmas for the start values. -/

namespace RT1.FitSpec
open General Grouping

variable {κ κ' : Type} [DecidableEq κ] [DecidableEq κ']

theorem filterMap_some {α β : Type} (l : List α) (g : α → Option β) (f : α → β) (h : ∀ a ∈ l, g a = some (f a)) :
    l.filterMap g = l.map f := by
  induction l with
  | nil => rfl
  | cons a l ih => simp [h a (by simp), ih fun b hb => h b (by simp [hb])]

/-- The mean of the padded and masked array is the mean of the rows. -/
theorem maMean_rect (rows : List (List ℝ)) (A : List (List ℝ)) (M : List (List Bool))
    (h : rectangularize rows = .ok (A, M)) : maMean (A.map (List.map some)) M = rows.map fun r => some (mean r) := by
  obtain ⟨W, _, _, hl1, hl2, hrow⟩ := C20_rectangularize rows A M h
  have hne := (C20_rectangularize_succeeds_iff rows).1 ⟨_, h⟩
  unfold maMean
  apply List.ext_getElem
  · simp [hl1, hl2]
  · intro i h1 h2
    simp only [List.length_zipWith, List.length_map] at h1
    rw [List.getElem_zipWith, List.getElem_map, List.getElem_map]
    have := (hrow i rows[i] A[i] M[i] (List.getElem?_eq_getElem _) (List.getElem?_eq_getElem _)
      (List.getElem?_eq_getElem _)).2.2.1
    have e : ((((A[i].map some).zip M[i]).filter fun x => !x.2).map Prod.fst).reduceOption = rows[i] := by
      rw [← this, List.zip_map_left, List.filter_map, List.map_map]
      simp only [List.reduceOption, List.filterMap_map]
      simp only [Function.comp_def, Prod.map_fst, id]
      rw [← List.filterMap_eq_map]
      rfl
    simp only [e]
    have hr : rows[i] ≠ [] := hne.2 _ (List.getElem_mem _)
    simp [hr]

theorem zip_map_self {α β : Type} (l : List α) (f : α → β) : l.zip (l.map f) = l.map fun a => (a, f a) := by
  induction l with
  | nil => rfl
  | cons a l ih => simp [ih]

theorem zip_map_map {α β γ : Type} (l : List α) (f : α → β) (g : α → γ) :
    (l.map f).zip (l.map g) = l.map fun a => (f a, g a) := by
  induction l with
  | nil => rfl
  | cons a l ih => simp [ih]

/-- A column that is constant on the fit-groups is a function of the fit-group. -/
theorem exists_fun [Inhabited κ'] (gi : List κ) (dyn : List κ') (hl : dyn.length = gi.length)
    (h : ∀ i j : Nat, i < gi.length → j < gi.length → gi[i]? = gi[j]? → dyn[i]? = dyn[j]?) :
    ∃ f : κ → κ', dyn = gi.map f := by
  refine ⟨fun g => dyn.getD (gi.idxOf g) default, ?_⟩
  apply List.ext_getElem
  · simp [hl]
  · intro i h1 h2
    simp only [List.length_map] at h2
    rw [List.getElem_map]
    have hlt : gi.idxOf gi[i] < gi.length := List.idxOf_lt_length_of_mem (List.getElem_mem _)
    have := h i (gi.idxOf gi[i]) h2 hlt (by
      rw [List.getElem?_eq_getElem h2, List.getElem?_eq_getElem hlt, List.getElem_idxOf])
    rw [List.getElem?_eq_getElem h1] at this
    rw [List.getD_eq_getElem?_getD, ← this, Option.getD_some]

theorem dynDf_eq (gi : List κ) (f : κ → κ') : dynDf gi (gi.map f) = (firsts gi).map f := by
  unfold dynDf
  rw [zip_map_self, groupValues_comp, groupValues_eq, List.map_id', List.filterMap_map]
  apply filterMap_some
  intro k hk
  simp only [Function.comp]
  have : (gi.filter fun x => decide (x = k)) = List.replicate (gi.count k) k := by
    rw [← List.filter_beq]; congr 1; 
  rw [this, List.map_replicate, List.head?_replicate]
  have : gi.count k ≠ 0 := by
    rw [Ne, List.count_eq_zero, not_not]; exact (mem_firsts _ _).1 hk
  simp [this]

/-- The values of a column in a group. -/
def valuesOf {α : Type} (gi : List κ) (col : List α) (g : κ) : List α :=
  ((gi.zip col).filter fun x => decide (x.1 = g)).map Prod.snd

theorem grouped_valuesOf {α : Type} (gi : List κ) (col : List α) (hl : col.length = gi.length) :
    grouped gi col = (firsts gi).map (valuesOf gi col) := by
  unfold grouped
  rw [groupValues_eq, List.map_fst_zip (by omega)]
  rfl

theorem auxStart_eq (gi : List κ) (f : κ → κ') (col : List ℝ) (hne : gi ≠ []) (hl : col.length = gi.length) :
    auxStart gi (gi.map f) col = .ok ((firsts (gi.map f)).map fun d =>
      mean (((firsts gi).filter fun g => decide (f g = d)).map fun g => mean (valuesOf gi col g))) := by
  have hL : (firsts gi).map f ≠ [] := by
    intro h0
    rw [List.map_eq_nil_iff] at h0
    obtain ⟨x, xs, rfl⟩ := List.exists_cons_of_ne_nil hne
    simp [firsts] at h0
  unfold auxStart paramAssigns
  rw [dynDf_eq]
  obtain ⟨st, sm, _, hst, _, hlt⟩ := idxAssigns_spec ((firsts gi).map f) hL
  have hst' := hst
  unfold groupPos at hst'
  simp only [hst', bind, Except.bind]
  have hg : grouped gi col ≠ [] ∧ ∀ r ∈ grouped gi col, r ≠ [] := by
    rw [grouped_eq gi col hl]
    have := groupPos_ne_nil gi hne
    refine ⟨by simpa using this.1, ?_⟩
    intro r hr
    obtain ⟨r', hr', rfl⟩ := List.mem_map.1 hr
    simpa using this.2 r' hr'
  obtain ⟨⟨A, M⟩, hA⟩ := (C20_rectangularize_succeeds_iff (grouped gi col)).2 hg
  simp only [hA]
  rw [maMean_rect _ _ _ hA, grouped_valuesOf gi col hl, List.map_map]
  rw [take2_spec _ st (by simpa using hlt)]
  simp only [pure, Except.pure]
  congr 1
  have hmap : List.map (List.map fun i => ((firsts gi).map ((fun r => some (mean r)) ∘ valuesOf gi col)).getD i default) st
      = List.map (List.map some)
        (List.map (List.map fun i => ((firsts gi).map fun g => mean (valuesOf gi col g)).getD i default) st) := by
    rw [List.map_map]
    apply List.map_congr_left
    intro r hr
    simp only [Function.comp, List.map_map]
    apply List.map_congr_left
    intro i hi
    have := hlt r hr i hi
    simp only [List.length_map] at this
    simp [List.getD_eq_getElem?_getD, this]
  rw [hmap]
  have hrect := rectangularize_map (fun i => ((firsts gi).map fun g => mean (valuesOf gi col g)).getD i default)
    (groupPos ((firsts gi).map f))
  rw [hst] at hrect
  rw [maMean_rect _ _ _ hrect]
  rw [← grouped_eq ((firsts gi).map f) ((firsts gi).map fun g => mean (valuesOf gi col g)) (by simp)]
  unfold grouped
  rw [zip_map_map, groupValues_comp, groupValues_eq, firsts_map_firsts, List.map_map]
  simp only [List.reduceOption, List.filterMap_map]
  exact filterMap_some _ _ _ fun _ _ => rfl

theorem firsts_filter (l : List κ) (p : κ → Bool) : firsts (l.filter p) = (firsts l).filter p := by
  induction l with
  | nil => rfl
  | cons x xs ih =>
    by_cases hx : p x = true
    · rw [List.filter_cons_of_pos hx, firsts, firsts, ih, List.filter_cons_of_pos hx, List.filter_filter,
        List.filter_filter]
      simp only [Bool.and_comm]
    · rw [List.filter_cons_of_neg hx, firsts, ih, List.filter_cons_of_neg hx, List.filter_filter]
      apply List.filter_congr
      intro y _
      by_cases hy : y = x
      · subst hy; simp [hx]
      · simp [hy]

end RT1.FitSpec
