import Verif.Lemmas.FitSpec

/-!
# C87 Start values of the fitted parameters

Specification: a fitted parameter has exactly one start value for each of its dyn-groups, in the order of their first
appearance; a number is used for all of them, an auxiliary parameter starts with the average of the column `<key>_start`
over the observations of the group.
-/

namespace RT1.FitSpec
open General Grouping

/-- The arithmetic mean. -/
noncomputable def avg (l : List ℝ) : ℝ := l.sum / l.length

/-- The values of a column for the observations whose entry in `keys` is `k`. -/
def valuesWith {κ α : Type} [DecidableEq κ] (keys : List κ) (col : List α) (k : κ) : List α :=
  ((keys.zip col).filter fun x => decide (x.1 = k)).map Prod.snd

/-- The fit-groups that contain an observation of the dyn-group `d`, in the order of their first appearance. -/
def fitGroupsOf {κ κ' : Type} [DecidableEq κ] [DecidableEq κ'] (gi : List κ) (dyn : List κ') (d : κ') : List κ :=
  (firsts gi).filter fun g => decide ((g, d) ∈ gi.zip dyn)

/-- Observations of the same fit-group belong to the same dyn-group (C36). -/
def Refines {κ κ' : Type} (gi : List κ) (dyn : List κ') : Prop :=
  ∀ i j : Nat, i < gi.length → j < gi.length → gi[i]? = gi[j]? → dyn[i]? = dyn[j]?

variable {κ κ' : Type} [DecidableEq κ] [DecidableEq κ']

theorem fitGroupsOf_map (gi : List κ) (f : κ → κ') (d : κ') :
    fitGroupsOf gi (gi.map f) d = (firsts gi).filter fun g => decide (f g = d) := by
  unfold fitGroupsOf
  apply List.filter_congr
  intro g hg
  rw [zip_map_self]
  have : g ∈ gi := (mem_firsts _ _).1 hg
  apply decide_eq_decide.2
  simp only [List.mem_map, Prod.mk.injEq]
  constructor
  · rintro ⟨a, _, rfl, h⟩; exact h
  · intro h; exact ⟨g, this, rfl, h⟩

/-- C87: a number is used as the start value of all dyn-groups; explicit lists are used as they are. -/
theorem C87_number (gi : List κ) (dyn : List κ') (isIndex : Bool) (col : Option (List ℝ)) (hne : gi ≠ [])
    (hd : dyn.length = gi.length) (hr : Refines gi dyn) :
    (∀ x : ℝ, startvals gi dyn isIndex col (.value (.scalar x)) = .ok (.list ((firsts dyn).map fun _ => x))) ∧
    (∀ l : List ℝ, startvals gi dyn isIndex col (.value (.list l)) = .ok (.list l)) := by
  refine ⟨?_, fun l => rfl⟩
  intro x
  have : Inhabited κ' := ⟨dyn.head (by rintro rfl; simp at hd; exact hne (List.length_eq_zero_iff.1 hd.symm))⟩
  obtain ⟨f, rfl⟩ := exists_fun gi dyn hd hr
  have hlen : (dynDf gi (gi.map f)).dedup.length = (firsts (gi.map f)).length := by
    rw [dynDf_eq, ← firsts_length_dedup, firsts_map_firsts]
  have hpos : 1 ≤ (firsts (gi.map f)).length := by
    obtain ⟨x, xs, rfl⟩ := List.exists_cons_of_ne_nil hne
    simp [firsts]
  simp only [startvals, bind, Except.bind, pure, Except.pure, startVals, hlen]
  rw [if_pos hpos, List.map_const']

/-- C87: the start values of an auxiliary parameter: one per dyn-group in the order of first appearance, the average of the
averages of its fit-groups. -/
theorem C87_auxiliary (gi : List κ) (dyn : List κ') (col : List ℝ) (hne : gi ≠ []) (hd : dyn.length = gi.length)
    (hc : col.length = gi.length) (hr : Refines gi dyn) :
    ∃ v, startvals gi dyn false (some col) .auxiliary = .ok (.list v) ∧ v.length = (firsts dyn).length ∧
      ∀ (q : Nat) (d : κ'), (firsts dyn)[q]? = some d →
        v[q]? = some (avg ((fitGroupsOf gi dyn d).map fun g => avg (valuesWith gi col g))) := by
  have : Inhabited κ' := ⟨dyn.head (by rintro rfl; simp at hd; exact hne (List.length_eq_zero_iff.1 hd.symm))⟩
  obtain ⟨f, rfl⟩ := exists_fun gi dyn hd hr
  refine ⟨(firsts (gi.map f)).map fun d =>
      mean (((firsts gi).filter fun g => decide (f g = d)).map fun g => mean (valuesOf gi col g)), ?_, ?_, ?_⟩
  · simp only [startvals, bind, Except.bind, pure, Except.pure, Bool.false_eq_true, if_false,
      auxStart_eq gi f col hne hc, Except.map, startVals]
  · simp
  · intro q d hq
    rw [List.getElem?_map, hq, Option.map_some, fitGroupsOf_map]
    rfl

theorem avg_between (l : List ℝ) (lo hi : ℝ) (hne : l ≠ []) (h : ∀ x ∈ l, lo ≤ x ∧ x ≤ hi) : lo ≤ avg l ∧ avg l ≤ hi := by
  have hpos : (0 : ℝ) < l.length := by exact_mod_cast List.length_pos_iff.2 hne
  unfold avg
  rw [le_div_iff₀ hpos, div_le_iff₀ hpos]
  have := List.card_nsmul_le_sum l lo (fun x hx => (h x hx).1)
  have := List.sum_le_card_nsmul l hi (fun x hx => (h x hx).2)
  simp only [nsmul_eq_mul] at *
  constructor <;> nlinarith

theorem valuesWith_ne_nil {α : Type} (keys : List κ) (col : List α) (k : κ) (hl : col.length = keys.length)
    (hk : k ∈ keys) : valuesWith keys col k ≠ [] := by
  obtain ⟨i, hi, rfl⟩ := List.getElem_of_mem hk
  have : col[i] ∈ valuesWith keys col keys[i] := by
    unfold valuesWith
    refine List.mem_map.2 ⟨(keys[i], col[i]), ?_, rfl⟩
    rw [List.mem_filter]
    refine ⟨?_, by simp⟩
    rw [List.mem_iff_getElem]
    exact ⟨i, by simp; omega, by simp⟩
  intro h0
  rw [h0] at this
  simp at this

theorem mem_valuesWith {α : Type} (keys : List κ) (col : List α) (k : κ) (x : α) (h : x ∈ valuesWith keys col k) :
    ∃ i : Nat, keys[i]? = some k ∧ col[i]? = some x := by
  unfold valuesWith at h
  obtain ⟨⟨k', x'⟩, h1, rfl⟩ := List.mem_map.1 h
  rw [List.mem_filter] at h1
  obtain ⟨h1, h2⟩ := h1
  obtain ⟨i, hi, e⟩ := List.getElem_of_mem h1
  rw [List.getElem_zip] at e
  simp only [decide_eq_true_eq] at h2
  subst h2
  simp only [List.length_zip] at hi
  simp only [Prod.mk.injEq] at e
  refine ⟨i, ?_, ?_⟩
  · rw [List.getElem?_eq_getElem (by omega), e.1]
  · rw [List.getElem?_eq_getElem (by omega), e.2]

/-- C87: the start value of a dyn-group lies within the range of the values of the column in this group (in particular, a
column that is constant within the group is reproduced). -/
theorem C87_between (gi : List κ) (dyn : List κ') (col : List ℝ) (hne : gi ≠ []) (hd : dyn.length = gi.length)
    (hc : col.length = gi.length) (hr : Refines gi dyn) (v : List ℝ)
    (h : startvals gi dyn false (some col) .auxiliary = .ok (.list v)) (q : Nat) (d : κ')
    (hq : (firsts dyn)[q]? = some d) (lo hi : ℝ)
    (hb : ∀ (i : Nat) (x : ℝ), dyn[i]? = some d → col[i]? = some x → lo ≤ x ∧ x ≤ hi) :
    ∃ x, v[q]? = some x ∧ lo ≤ x ∧ x ≤ hi := by
  obtain ⟨v', hv, _, hv'⟩ := C87_auxiliary gi dyn col hne hd hc hr
  rw [h] at hv
  cases hv
  refine ⟨_, hv' q d hq, ?_⟩
  have hmem : d ∈ dyn := (mem_firsts _ _).1 (List.mem_of_getElem? hq)
  apply avg_between
  · obtain ⟨i, hi', rfl⟩ := List.getElem_of_mem hmem
    intro h0
    rw [List.map_eq_nil_iff] at h0
    have : gi[i] ∈ fitGroupsOf gi dyn dyn[i] := by
      unfold fitGroupsOf
      rw [List.mem_filter]
      refine ⟨(mem_firsts _ _).2 (List.getElem_mem _), ?_⟩
      rw [decide_eq_true_eq, List.mem_iff_getElem]
      exact ⟨i, by simp; omega, by simp⟩
    rw [h0] at this
    simp at this
  · intro y hy
    obtain ⟨g, hg, rfl⟩ := List.mem_map.1 hy
    unfold fitGroupsOf at hg
    rw [List.mem_filter] at hg
    obtain ⟨hg1, hg2⟩ := hg
    have hg1 := (mem_firsts _ _).1 hg1
    rw [decide_eq_true_eq] at hg2
    apply avg_between
    · exact valuesWith_ne_nil _ _ _ hc hg1
    · intro x hx
      obtain ⟨i, hi1, hi2⟩ := mem_valuesWith _ _ _ _ hx
      obtain ⟨j, hj, e⟩ := List.getElem_of_mem hg2
      rw [List.getElem_zip, Prod.mk.injEq] at e
      simp only [List.length_zip] at hj
      have hilt : i < gi.length := by
        by_contra hh
        rw [List.getElem?_eq_none (by omega)] at hi1
        cases hi1
      refine hb i x ?_ hi2
      rw [hr i j hilt (by omega) (by rw [hi1, List.getElem?_eq_getElem (by omega), e.1]),
        List.getElem?_eq_getElem (by omega), e.2]

theorem sum_groups (gi : List κ) (f : κ → κ') (col : List ℝ) (hc : col.length = gi.length) (d : κ') :
    (((firsts gi).filter fun g => decide (f g = d)).map fun g => (valuesWith gi col g).sum).sum =
      (valuesWith (gi.map f) col d).sum := by
  have h1 : valuesWith (gi.map f) col d = ((gi.zip col).filter fun x => decide (f x.1 = d)).map Prod.snd := by
    unfold valuesWith
    rw [List.zip_map_left, List.filter_map, List.map_map]
    rfl
  rw [h1]
  set l := (gi.zip col).filter fun x => decide (f x.1 = d) with hl
  have h2 : (groupValues l Prod.fst Prod.snd).flatten.Perm (l.map Prod.snd) := groupby_flatten_perm l Prod.fst Prod.snd
  rw [← h2.sum_eq, groupValues_eq]
  have h3 : l.map Prod.fst = gi.filter fun g => decide (f g = d) := by
    have : gi = (gi.zip col).map Prod.fst := (List.map_fst_zip (by omega)).symm
    conv_rhs => rw [this]
    rw [List.filter_map, hl]
    rfl
  rw [h3, firsts_filter, List.sum_flatten, List.map_map]
  congr 1
  apply List.map_congr_left
  intro g hg
  rw [List.mem_filter, decide_eq_true_eq] at hg
  simp only [Function.comp]
  congr 1
  unfold valuesWith
  rw [hl, List.filter_filter]
  congr 1
  apply List.filter_congr
  intro x _
  by_cases hx : x.1 = g
  · simp [hx, hg.2]
  · simp [hx]

/-- C87 (partial): the start value is the average of the column over the observations of the dyn-group if all fit-groups of
the dyn-group have the same number of observations.  Missing: the code averages the averages of the fit-groups, see
`C87_mean_fails`. -/
theorem C87_mean_partial (gi : List κ) (dyn : List κ') (col : List ℝ) (hne : gi ≠ []) (hd : dyn.length = gi.length)
    (hc : col.length = gi.length) (hr : Refines gi dyn) (v : List ℝ)
    (h : startvals gi dyn false (some col) .auxiliary = .ok (.list v)) (q : Nat) (d : κ')
    (hq : (firsts dyn)[q]? = some d) (n : Nat) (hn : ∀ g, (g, d) ∈ gi.zip dyn → gi.count g = n) :
    v[q]? = some (avg (valuesWith dyn col d)) := by
  obtain ⟨v', hv, _, hv'⟩ := C87_auxiliary gi dyn col hne hd hc hr
  rw [h] at hv
  cases hv
  rw [hv' q d hq]
  congr 1
  have : Inhabited κ' := ⟨d⟩
  obtain ⟨f, rfl⟩ := exists_fun gi dyn hd hr
  rw [fitGroupsOf_map]
  have hlen : ∀ g, g ∈ gi → (valuesWith gi col g).length = gi.count g := by
    intro g _
    unfold valuesWith
    rw [List.length_map, ← List.countP_eq_length_filter]
    have : gi = (gi.zip col).map Prod.fst := (List.map_fst_zip (by omega)).symm
    conv_rhs => rw [this, List.count, List.countP_map]
    apply List.countP_congr
    intro x _
    simp
  have hmem : d ∈ gi.map f := (mem_firsts _ _).1 (List.mem_of_getElem? hq)
  have hn' : ∀ g ∈ (firsts gi).filter (fun g => decide (f g = d)), (valuesWith gi col g).length = n := by
    intro g hg
    rw [List.mem_filter, decide_eq_true_eq, mem_firsts] at hg
    rw [hlen g hg.1]
    apply hn
    rw [zip_map_self]
    exact List.mem_map.2 ⟨g, hg.1, by rw [hg.2]⟩
  have hsum := sum_groups gi f col hc d
  have hcnt := sum_groups gi f (col.map fun _ => (1 : ℝ)) (by simp [hc]) d
  have hone : ∀ {κ₀ : Type} [DecidableEq κ₀] (k : List κ₀) (a : κ₀),
      (valuesWith k (col.map fun _ => (1 : ℝ)) a).sum = ((valuesWith k col a).length : ℝ) := by
    intro κ₀ _ k a
    have : valuesWith k (col.map fun _ => (1 : ℝ)) a = (valuesWith k col a).map fun _ => (1 : ℝ) := by
      unfold valuesWith
      rw [List.zip_map_right, List.filter_map, List.map_map, List.map_map]
      rfl
    rw [this]
    simp
  simp only [hone] at hcnt
  set G := (firsts gi).filter fun g => decide (f g = d) with hG
  have e1 : (G.map fun g => avg (valuesWith gi col g)).sum = (G.map fun g => (valuesWith gi col g).sum).sum / n := by
    rw [div_eq_mul_inv, ← List.sum_map_mul_right]
    congr 1
    apply List.map_congr_left
    intro g hg
    rw [avg, hn' g hg, div_eq_mul_inv]
  have e2 : (G.map fun g => ((valuesWith gi col g).length : ℝ)).sum = G.length * n := by
    rw [List.map_congr_left (g := fun _ => (n : ℝ)) (fun g hg => by rw [hn' g hg])]
    simp
  unfold avg
  rw [List.length_map]
  change (G.map fun g => avg (valuesWith gi col g)).sum / _ = _
  rw [e1, hsum, ← hcnt, e2, div_div, mul_comm (n : ℝ)]

/-- C87: fit-groups of different size: the start value is not the average over the observations of the dyn-group. -/
theorem C87_mean_fails : ∃ (gi : List Nat) (dyn : List Nat) (col v : List ℝ), gi ≠ [] ∧ dyn.length = gi.length ∧
    col.length = gi.length ∧ Refines gi dyn ∧ startvals gi dyn false (some col) .auxiliary = .ok (.list v) ∧
    (firsts dyn)[0]? = some 7 ∧ v[0]? ≠ some (avg (valuesWith dyn col 7)) := by
  have hr : Refines ([0, 0, 1] : List Nat) ([7, 7, 7] : List Nat) := by
    intro i j hi hj _
    simp only [List.length_cons, List.length_nil] at hi hj
    interval_cases i <;> interval_cases j <;> simp
  obtain ⟨v, h1, h2, h3⟩ := C87_auxiliary ([0, 0, 1] : List Nat) ([7, 7, 7] : List Nat) [0, 0, 6] (by simp) rfl rfl hr
  refine ⟨[0, 0, 1], [7, 7, 7], [0, 0, 6], v, by simp, rfl, rfl, hr, h1, rfl, ?_⟩
  have e : fitGroupsOf ([0, 0, 1] : List Nat) ([7, 7, 7] : List Nat) 7 = [0, 1] := by decide
  rw [h3 0 7 rfl, e]
  norm_num [avg, valuesWith]

theorem groupedLengths (gi : List κ) (col : List ℝ) (hc : col.length = gi.length) (n : Nat)
    (hn : ∀ g ∈ gi, gi.count g = n) : ∀ x ∈ (grouped gi col).map List.length, x = n := by
  intro x hx
  obtain ⟨r, hr', rfl⟩ := List.mem_map.1 hx
  rw [grouped_valuesOf gi col hc] at hr'
  obtain ⟨g, hg, rfl⟩ := List.mem_map.1 hr'
  rw [mem_firsts] at hg
  rw [← hn g hg]
  unfold valuesOf
  rw [List.length_map, ← List.countP_eq_length_filter]
  have : gi = (gi.zip col).map Prod.fst := (List.map_fst_zip (by omega)).symm
  conv_rhs => rw [this, List.count, List.countP_map]
  apply List.countP_congr
  intro y _
  simp

/-- C87 (partial): variability `"index"`: one start value per time stamp, the average over its observations, if all time
stamps have the same number of observations and the fit-groups are the time stamps (no other parameter has a finer
variability).  Missing: `C87_index_ragged_fails`, `C87_index_count_fails`. -/
theorem C87_index_partial {τ : Type} [DecidableEq τ] (gi : List κ) (index : List τ) (col : List ℝ) (hne : gi ≠ [])
    (hd : index.length = gi.length) (hc : col.length = gi.length)
    (hr : ∀ i j : Nat, i < gi.length → j < gi.length → (gi[i]? = gi[j]? ↔ index[i]? = index[j]?))
    (n : Nat) (hn : ∀ g ∈ gi, gi.count g = n) :
    ∃ v, startvals gi (indexDyn index) true (some col) .auxiliary = .ok (.list v) ∧
      v.length = (firsts index).length ∧
      ∀ (q : Nat) (t : τ), (firsts index)[q]? = some t → v[q]? = some (avg (valuesWith index col t)) := by
  have : Inhabited τ := ⟨index.head (by rintro rfl; simp at hd; exact hne (List.length_eq_zero_iff.1 hd.symm))⟩
  obtain ⟨f, rfl⟩ := exists_fun gi index hd (fun i j hi hj h => (hr i j hi hj).1 h)
  have hinj : ∀ a ∈ gi, ∀ b ∈ gi, f a = f b → a = b := by
    intro a ha b hb hab
    obtain ⟨i, hi, rfl⟩ := List.getElem_of_mem ha
    obtain ⟨j, hj, rfl⟩ := List.getElem_of_mem hb
    have := (hr i j hi hj).2 (by simp [hi, hj, hab])
    rwa [List.getElem?_eq_getElem hi, List.getElem?_eq_getElem hj, Option.some.injEq] at this
  have hlen : ((grouped gi col).map List.length).dedup.length ≤ 1 := by
    have := groupedLengths gi col hc n hn
    have hs : ((grouped gi col).map List.length).dedup ⊆ [n] := by
      intro x hx; simp [this x (List.mem_dedup.1 hx)]
    exact (List.nodup_dedup _).subperm hs |>.length_le
  have hf : firsts (gi.map f) = (firsts gi).map f := by
    rw [← firsts_map_firsts]
    apply firsts_of_nodup
    apply List.Nodup.map_on _ (firsts_nodup gi)
    intro a ha b hb
    exact hinj a ((mem_firsts _ _).1 ha) b ((mem_firsts _ _).1 hb)
  refine ⟨(grouped gi col).map mean, ?_, ?_, ?_⟩
  · simp only [startvals, bind, Except.bind, pure, Except.pure, if_true, auxStartIndex]
    rw [if_neg (by omega)]
    rfl
  · rw [grouped_valuesOf gi col hc, hf, List.length_map, List.length_map, List.length_map]
  · intro q t hq
    rw [hf, List.getElem?_map, Option.map_eq_some_iff] at hq
    obtain ⟨g, hg, rfl⟩ := hq
    rw [grouped_valuesOf gi col hc, List.map_map, List.getElem?_map, hg, Option.map_some]
    have hgm : g ∈ gi := (mem_firsts _ _).1 (List.mem_of_getElem? hg)
    have : valuesWith (gi.map f) col (f g) = valuesOf gi col g := by
      unfold valuesWith valuesOf
      rw [List.zip_map_left, List.filter_map, List.map_map]
      have e : (gi.zip col).filter ((fun x => decide (x.1 = f g)) ∘ Prod.map f id) =
          (gi.zip col).filter fun x => decide (x.1 = g) := by
        apply List.filter_congr
        intro x hx
        simp only [Function.comp, Prod.map_fst]
        apply decide_eq_decide.2
        exact ⟨fun h => hinj x.1 (List.of_mem_zip hx).1 g hgm h, fun h => by rw [h]⟩
      rw [e]
      rfl
    rw [this]
    rfl

/-- C87: variability `"index"` with a different number of observations per time stamp: the auxiliary start values raise a
ValueError. -/
theorem C87_index_ragged_fails : ∃ (gi index : List Nat) (col : List ℝ), gi ≠ [] ∧ index = gi ∧ col.length = gi.length ∧
    startvals gi (indexDyn index) true (some col) .auxiliary = .error .valueError := by
  refine ⟨[0, 0, 1], [0, 0, 1], [1, 1, 2], by simp, rfl, rfl, ?_⟩
  have e : ((grouped [0, 0, 1] ([1, 1, 2] : List ℝ)).map List.length).dedup.length = 2 := by
    have : (grouped [0, 0, 1] ([1, 1, 2] : List ℝ)).map List.length = [2, 1] := rfl
    rw [this]; rfl
  simp only [startvals, bind, Except.bind, pure, Except.pure, if_true, auxStartIndex, e]
  rfl

/-- C87: variability `"index"` together with another parameter whose dynamics separate observations of the same time stamp:
there are more start values than dyn-groups. -/
theorem C87_index_count_fails : ∃ (gi index : List Nat) (col v : List ℝ), gi ≠ [] ∧ index.length = gi.length ∧
    col.length = gi.length ∧ Refines gi (indexDyn index) ∧
    startvals gi (indexDyn index) true (some col) .auxiliary = .ok (.list v) ∧
    v.length ≠ (firsts (indexDyn index)).length := by
  refine ⟨[0, 1, 2], [5, 5, 6], [1, 1, 2], [1, 1, 2], by simp, rfl, rfl, ?_, ?_, by decide⟩
  · intro i j hi hj
    simp only [List.length_cons, List.length_nil] at hi hj
    interval_cases i <;> interval_cases j <;> simp
  · have e : ((grouped [0, 1, 2] ([1, 1, 2] : List ℝ)).map List.length).dedup.length = 1 := by
      have : (grouped [0, 1, 2] ([1, 1, 2] : List ℝ)).map List.length = [1, 1, 1] := rfl
      rw [this]; rfl
    have e2 : grouped [0, 1, 2] ([1, 1, 2] : List ℝ) = [[1], [1], [2]] := rfl
    simp only [startvals, bind, Except.bind, pure, Except.pure, if_true, auxStartIndex, e]
    rw [if_neg (by omega), e2]
    simp [Except.map, startVals, mean]

/-- C87: auxiliary start values without the column `<key>_start` raise an AssertionError. -/
theorem C87_missing (gi : List κ) (dyn : List κ') (isIndex : Bool) :
    startvals gi dyn isIndex none .auxiliary = .error .assertionError := rfl

/-- Two fit-groups of two observations in dyn-group 7, one in dyn-group 8. -/
example : ∃ v, startvals ([0, 1, 0, 1, 2] : List Nat) ([7, 7, 7, 7, 8] : List Nat) false (some [1, 3, 2, 6, 9]) .auxiliary = .ok (.list v) ∧
    v[0]? = some (avg [1, 3, 2, 6]) ∧ ([0, 1, 0, 1, 2] : List Nat) ≠ [] ∧
    Refines ([0, 1, 0, 1, 2] : List Nat) ([7, 7, 7, 7, 8] : List Nat) := by
  have hr : Refines ([0, 1, 0, 1, 2] : List Nat) ([7, 7, 7, 7, 8] : List Nat) := by
    intro i j hi hj
    simp only [List.length_cons, List.length_nil] at hi hj
    interval_cases i <;> interval_cases j <;> simp
  obtain ⟨v, h1, _, _⟩ := C87_auxiliary ([0, 1, 0, 1, 2] : List Nat) ([7, 7, 7, 7, 8] : List Nat) [1, 3, 2, 6, 9] (by simp) rfl rfl hr
  refine ⟨v, h1, ?_, by simp, hr⟩
  rw [C87_mean_partial ([0, 1, 0, 1, 2] : List Nat) ([7, 7, 7, 7, 8] : List Nat) [1, 3, 2, 6, 9] (by simp) rfl rfl hr v h1 0 7 rfl 2 (by
    intro g hg
    simp at hg
    rcases hg with rfl | rfl | rfl | rfl <;> decide)]
  rfl

/-- Two time stamps with two observations each. -/
example : ∃ v, startvals ([3, 3, 4, 4] : List Nat) (indexDyn ([10, 10, 20, 20] : List Nat)) true (some [1, 2, 3, 4]) .auxiliary = .ok (.list v) ∧
    v[1]? = some (avg [3, 4]) := by
  obtain ⟨v, h1, _, h3⟩ := C87_index_partial ([3, 3, 4, 4] : List Nat) ([10, 10, 20, 20] : List Nat) [1, 2, 3, 4] (by simp) rfl rfl (by
    intro i j hi hj
    simp only [List.length_cons, List.length_nil] at hi hj
    interval_cases i <;> interval_cases j <;> simp) 2 (by decide)
  exact ⟨v, h1, h3 1 20 rfl⟩

end RT1.FitSpec
