import Verif.Model.MetricData
import Verif.Props.Metrics
import Verif.Props.Assign

/-!
# C96: metrics compare the values of the same observations
-/

namespace RT1.Metrics
open General Grouping

variable {ι : Type} [DecidableEq ι]

/-! ### the metrics do not depend on the order of the rows -/

theorem lookup_iff {s : Series ι} (h : (s.map Prod.fst).Nodup) (i : ι) (v : ℝ) : s.lookup i = some v ↔ (i, v) ∈ s := by
  induction s with
  | nil => simp
  | cons e s ih =>
    obtain ⟨j, w⟩ := e
    rw [List.map_cons, List.nodup_cons] at h
    rw [List.lookup_cons]
    by_cases hj : i = j
    · subst hj
      simp only [beq_self_eq_true, Option.some.injEq, List.mem_cons, Prod.mk.injEq, true_and]
      constructor
      · rintro rfl; exact Or.inl rfl
      · rintro (rfl | hm)
        · rfl
        · exact absurd (List.mem_map.mpr ⟨_, hm, rfl⟩) h.1
    · have hb : (i == j) = false := by simpa using hj
      rw [hb]
      simp only [List.mem_cons, Prod.mk.injEq, hj, false_and, false_or]
      exact ih h.2

theorem lookup_perm {s s' : Series ι} (hp : s.Perm s') (h : (s.map Prod.fst).Nodup) (i : ι) : s.lookup i = s'.lookup i := by
  have h' : (s'.map Prod.fst).Nodup := ((hp.map Prod.fst).nodup_iff).mp h
  apply Option.ext
  intro v
  rw [lookup_iff h, lookup_iff h', hp.mem_iff]

/-- With unique labels, the alignment consists of the pairs with a common label. -/
theorem align_lookup {a b : Series ι} (hb : (b.map Prod.fst).Nodup) :
    align a b = a.filterMap fun e => (b.lookup e.1).map fun y => (e.2, y) := by
  unfold align
  split_ifs with h
  · have hl : a.length = b.length := by simpa using congrArg List.length h
    have hk : ∀ i (hi : i < a.length), b.lookup (a[i]).1 = some (b[i]'(hl ▸ hi)).2 := by
      intro i hi
      rw [lookup_iff hb]
      have e : (a[i]).1 = (b[i]'(hl ▸ hi)).1 := by
        have := congrArg (fun l => l[i]?) h
        simpa [hi, hl ▸ hi] using this
      rw [e]
      exact List.getElem_mem _
    have : a.filterMap (fun e => (b.lookup e.1).map fun y => (e.2, y)) =
        a.map fun e => (e.2, (b.lookup e.1).getD 0) := by
      rw [← List.filterMap_eq_map]
      apply List.filterMap_congr
      intro e he
      obtain ⟨i, hi, rfl⟩ := List.getElem_of_mem he
      simp [hk i hi]
    rw [this]
    apply List.ext_getElem
    · simp [vals, hl]
    · intro i h1 h2
      simp only [List.length_map] at h2
      simp [vals, hk i h2]
  · rfl

theorem align_perm {a a' b b' : Series ι} (ha : a.Perm a') (hb : b.Perm b') (hn : (b.map Prod.fst).Nodup) :
    (align a b).Perm (align a' b') := by
  rw [align_lookup hn, align_lookup (((hb.map Prod.fst).nodup_iff).mp hn)]
  have : (fun e : ι × ℝ => (b.lookup e.1).map fun y => (e.2, y)) = fun e => (b'.lookup e.1).map fun y => (e.2, y) := by
    funext e
    rw [lookup_perm hb hn]
  rw [this]
  exact ha.filterMap _

theorem mean_perm {l l' : List ℝ} (h : l.Perm l') : mean l = mean l' := by
  unfold mean
  rw [h.sum_eq, h.length_eq]
  by_cases hl : l = []
  · have : l' = [] := by subst hl; exact (List.Perm.nil_eq h).symm
    rw [if_pos hl, if_pos this]
  · rw [if_neg hl, if_neg]
    rintro rfl
    exact hl (List.Perm.eq_nil h)

theorem ssq_perm {l l' : List ℝ} (h : l.Perm l') : ssq l = ssq l' := by
  unfold ssq
  rw [h.sum_eq, h.length_eq]
  exact (h.map _).sum_eq

theorem std_perm {l l' : List ℝ} (h : l.Perm l') : std l = std l' := by
  unfold std
  rw [h.length_eq, ssq_perm h]

theorem sxy_perm {l l' : List (ℝ × ℝ)} (h : l.Perm l') : sxy l = sxy l' := by
  unfold sxy
  rw [(h.map Prod.fst).sum_eq, (h.map Prod.snd).sum_eq, h.length_eq]
  exact (h.map _).sum_eq

theorem corr_perm {l l' : List (ℝ × ℝ)} (h : l.Perm l') : corr l = corr l' := by
  unfold corr
  rw [h.length_eq, ssq_perm (h.map Prod.fst), ssq_perm (h.map Prod.snd), sxy_perm h]

theorem ranks_perm {l l' : List (ℝ × ℝ)} (h : l.Perm l') : (ranks l).Perm (ranks l') := by
  have hr : ∀ {m m' : List ℝ}, m.Perm m' → rank m = rank m' := by
    intro m m' hm
    funext x
    unfold rank
    rw [hm.countP_eq, hm.countP_eq]
  unfold ranks
  rw [hr (h.map Prod.fst), hr (h.map Prod.snd)]
  exact h.map _

theorem mape_perm {a a' b b' : Series ι} (h : (align a b).Perm (align a' b')) : mape a b = mape a' b' := by
  classical
  unfold mape
  have hf := h.filter fun p => decide ¬ (p.1 = 0 ∧ p.2 = 0)
  simp only
  have he : (∃ p ∈ (align a b).filter (fun p => decide ¬ (p.1 = 0 ∧ p.2 = 0)), p.1 = 0) ↔
      ∃ p ∈ (align a' b').filter (fun p => decide ¬ (p.1 = 0 ∧ p.2 = 0)), p.1 = 0 := by
    constructor
    · rintro ⟨p, hp, h0⟩; exact ⟨p, hf.mem_iff.mp hp, h0⟩
    · rintro ⟨p, hp, h0⟩; exact ⟨p, hf.mem_iff.mpr hp, h0⟩
  by_cases hx : ∃ p ∈ (align a b).filter (fun p => decide ¬ (p.1 = 0 ∧ p.2 = 0)), p.1 = 0
  · rw [if_pos hx, if_pos (he.mp hx)]
  · rw [if_neg hx, if_neg (fun h => hx (he.mpr h))]
    exact mean_perm (hf.map _)

/-- Specification: all metrics except the linear regression agree. -/
structure SameMetrics (a b a' b' : Series ι) : Prop where
  pearson : pearson a b = pearson a' b'
  spearman : spearman a b = spearman a' b'
  rmsd : rmsd a b = rmsd a' b'
  ub_rmsd : ubRmsd a b = ubRmsd a' b'
  bias : bias a b = bias a' b'
  mae : mae a b = mae a' b'
  mape : mape a b = mape a' b'
  std_ratio : stdRatio a b = stdRatio a' b'

theorem sameMetrics_perm {a a' b b' : Series ι} (ha : a.Perm a') (hb : b.Perm b') (hn : (b.map Prod.fst).Nodup) :
    SameMetrics a b a' b' := by
  have h := align_perm ha hb hn
  have hva : (vals a).Perm (vals a') := ha.map _
  have hvb : (vals b).Perm (vals b') := hb.map _
  have hr : ∀ {a a' b b' : Series ι}, a.Perm a' → b.Perm b' → (b.map Prod.fst).Nodup → rmsd a b = rmsd a' b' := by
    intro a a' b b' ha hb hn
    unfold rmsd
    rw [mean_perm ((align_perm ha hb hn).map _)]
  refine ⟨corr_perm h, corr_perm (ranks_perm h), hr ha hb hn, ?_, ?_, mean_perm (h.map _), mape_perm h, ?_⟩
  · unfold ubRmsd
    rw [mean_perm hva, mean_perm hvb]
    cases mean (vals a') with
    | none => rfl
    | some m1 =>
      cases mean (vals b') with
      | none => rfl
      | some m2 =>
        refine hr (ha.map _) (hb.map _) ?_
        rw [List.map_map]
        exact hn
  · unfold bias
    rw [mean_perm hva, mean_perm hvb]
  · unfold stdRatio
    rw [std_perm hva, std_perm hvb]

/-! ### C96 -/

theorem modelSeries_perm {κ : Type} [DecidableEq κ] (gi : List κ) (hne : gi ≠ []) (index : List ι) (model : List ℝ)
    (h1 : index.length = gi.length) (h2 : model.length = gi.length) :
    ∃ s, modelSeries gi index model = .ok s ∧ s.Perm (index.zip model) := by
  obtain ⟨A, M, hA, hp⟩ := C39_calc_model gi hne index model h1 h2
  refine ⟨_, ?_, hp⟩
  unfold modelSeries
  rw [hA]
  rfl

theorem unify_eq_length (union : List ι → List ι → List ι) (a b : Series ι) (h : a.length = b.length) :
    unify union a b = .ok (a, b) := by
  unfold unify
  rw [if_neg (by simpa using h)]

/-- For a dataset with unique time stamps and every grouping (also unsorted ones): all metrics of a variable of the dataset and
the modelled backscatter, except the linear regression, are the metrics of the pairs of values of the observations; likewise with
the two variables exchanged and for two modelled variables. -/
theorem C96_unique_partial {κ : Type} [DecidableEq κ] (union : List ι → List ι → List ι) (gi : List κ) (hne : gi ≠ [])
    (index : List ι) (hn : index.Nodup) (col model model' : List ℝ) (h1 : index.length = gi.length)
    (h2 : model.length = gi.length) (h3 : col.length = gi.length) (h4 : model'.length = gi.length) :
    ∃ s s', modelSeries gi index model = .ok s ∧ modelSeries gi index model' = .ok s' ∧
      unify union (dataSeries index col) s = .ok (dataSeries index col, s) ∧
      SameMetrics (dataSeries index col) s (index.zip col) (index.zip model) ∧
      unify union s (dataSeries index col) = .ok (s, dataSeries index col) ∧
      SameMetrics s (dataSeries index col) (index.zip model) (index.zip col) ∧
      unify union s s' = .ok (s, s') ∧ SameMetrics s s' (index.zip model) (index.zip model') := by
  obtain ⟨s, hs, hp⟩ := modelSeries_perm gi hne index model h1 h2
  obtain ⟨s', hs', hp'⟩ := modelSeries_perm gi hne index model' h1 h4
  have hl : s.length = gi.length := by rw [hp.length_eq]; simp [h1, h2]
  have hl' : s'.length = gi.length := by rw [hp'.length_eq]; simp [h1, h4]
  have hd : (dataSeries index col).length = gi.length := by simp [dataSeries, h1, h3]
  have hk : ((dataSeries index col).map Prod.fst).Nodup := by
    unfold dataSeries; rwa [List.map_fst_zip (by omega)]
  have hz : ∀ m : List ℝ, m.length = gi.length → ((index.zip m).map Prod.fst).Nodup := by
    intro m hm; rwa [List.map_fst_zip (by omega)]
  have hks : (s.map Prod.fst).Nodup := ((hp.map Prod.fst).nodup_iff).mpr (hz _ h2)
  have hks' : (s'.map Prod.fst).Nodup := ((hp'.map Prod.fst).nodup_iff).mpr (hz _ h4)
  exact ⟨s, s', hs, hs', unify_eq_length _ _ _ (by omega), sameMetrics_perm (List.Perm.refl _) hp hks,
    unify_eq_length _ _ _ (by omega), sameMetrics_perm hp (List.Perm.refl _) hk,
    unify_eq_length _ _ _ (by omega), sameMetrics_perm hp hp' hks'⟩

/-- Specification: the observations of each fit-group are consecutive. -/
def Consecutive {κ : Type} (gi : List κ) : Prop :=
  ∀ i j k : Nat, i ≤ j → j ≤ k → k < gi.length → gi[i]? = gi[k]? → gi[j]? = gi[i]?

theorem groupPos_sorted {κ : Type} [DecidableEq κ] (gi : List κ) (h : Consecutive gi) :
    (groupPos gi).flatten = List.range gi.length := by
  refine List.Perm.eq_of_pairwise (le := fun a b => a < b) ?_ ?_ List.pairwise_lt_range (groupPos_perm gi)
  · intro a b _ _ h1 h2; omega
  · rw [groupPos_filter, List.pairwise_flatten]
    constructor
    · intro l hl
      obtain ⟨k, -, rfl⟩ := List.mem_map.mp hl
      exact List.pairwise_lt_range.filter _
    · rw [List.pairwise_map]
      have ho := firsts_order gi
      refine List.Pairwise.imp_of_mem ?_ ho
      intro k k' hk hk' hlt i hi j hj
      simp only [List.mem_filter, List.mem_range, decide_eq_true_eq] at hi hj
      rw [mem_firsts] at hk
      by_contra hge
      have h0 : gi[gi.idxOf k]? = some k := by
        rw [List.getElem?_eq_getElem (List.idxOf_lt_length_of_mem hk), List.getElem_idxOf]
      have hjle : gi.idxOf k' ≤ j := by
        by_contra hcon
        push Not at hcon
        have := List.not_of_lt_findIdx (p := (· == k')) (xs := gi) (i := j) (by simpa [List.idxOf] using hcon)
        have hj2 : gi[j]'hj.1 = k' := by
          have := hj.2
          rwa [List.getElem?_eq_getElem hj.1, Option.some.injEq] at this
        simp [hj2] at this
      have := h (gi.idxOf k) j i (by omega) (by omega) hi.1 (by rw [h0, hi.2])
      rw [h0, hj.2, Option.some.injEq] at this
      rw [this] at hlt
      omega

/-- If the observations of each fit-group are consecutive, the rows of `calc_model` are the rows of the dataset, so that all metrics
(including the linear regression, and for repeated time stamps) compare the values of the same observations. -/
theorem C96_consecutive_partial {κ : Type} [DecidableEq κ] (union : List ι → List ι → List ι) (gi : List κ) (hne : gi ≠ [])
    (hc : Consecutive gi) (index : List ι) (col model : List ℝ) (h1 : index.length = gi.length)
    (h2 : model.length = gi.length) (h3 : col.length = gi.length) :
    modelSeries gi index model = .ok (index.zip model) ∧
      unify union (dataSeries index col) (index.zip model) = .ok (index.zip col, index.zip model) ∧
      align (index.zip col) (index.zip model) = col.zip model ∧
      vals (index.zip col) = col ∧ vals (index.zip model) = model := by
  have e1 : vals (index.zip col) = col := List.map_snd_zip (by omega)
  have e2 : vals (index.zip model) = model := List.map_snd_zip (by omega)
  refine ⟨?_, unify_eq_length _ _ _ (by simp [dataSeries, h1, h2, h3]), ?_, e1, e2⟩
  · obtain ⟨I, M, f1, f2, f3, f4⟩ := idxAssigns_spec gi hne
    have : Inhabited ι := ⟨index[0]'(by rw [h1]; exact List.length_pos_iff.2 hne)⟩
    unfold modelSeries
    rw [getData_spec gi I M f2 model h2]
    simp only [bind, Except.bind, pure, Except.pure]
    rw [unmask_map, f3, grouped_eq gi index h1, ← List.map_flatten, groupPos_sorted gi hc, List.zip_map']
    congr 1
    apply List.ext_getElem
    · simp [h1, h2]
    · intro i a b
      simp only [List.length_zip, List.length_map, List.length_range] at a b
      simp only [List.getElem_zip, List.getElem_map, List.getElem_range]
      rw [List.getD_eq_getElem?_getD, List.getD_eq_getElem?_getD, List.getElem?_eq_getElem (by omega),
        List.getElem?_eq_getElem (by omega)]
      rfl
  · unfold align
    rw [List.map_fst_zip (by omega), List.map_fst_zip (by omega), if_pos rfl, e1, e2]

example : Consecutive [(7 : Nat), 7, 3] ∧ ¬ Consecutive [(7 : Nat), 3, 7] := by
  constructor
  · intro i j k h1 h2 h3 h4
    simp only [List.length_cons, List.length_nil] at h3
    have : k = 0 ∨ k = 1 ∨ k = 2 := by omega
    rcases this with rfl | rfl | rfl
    · have : i = 0 := by omega
      have : j = 0 := by omega
      subst i j; rfl
    · have hi : i = 0 ∨ i = 1 := by omega
      have hj : j = 0 ∨ j = 1 := by omega
      rcases hi with rfl | rfl <;> rcases hj with rfl | rfl <;> rfl
    · have hi : i = 0 ∨ i = 1 ∨ i = 2 := by omega
      rcases hi with rfl | rfl | rfl
      · simp at h4
      · simp at h4
      · have : j = 2 := by omega
        subst j; rfl
  · intro h
    have := h 0 1 2 (by omega) (by omega) (by simp) rfl
    simp at this

/-- With an unsorted grouping the linear regression compares values of different observations: the regression of a variable with
itself does not have the slope 1. -/
theorem C96_linregress_fails : ∃ (s : Series Nat), modelSeries [7, 3, 7] [0, 1, 2] [0, 1, 2] = .ok s ∧
    unify (fun a _ => a) (dataSeries [0, 1, 2] [0, 1, 2]) s = .ok (dataSeries [0, 1, 2] [0, 1, 2], s) ∧
    linregress (dataSeries [0, 1, 2] [0, 1, 2]) s = some (1 / 2, 1 / 2, 1 / 2) := by
  have hm : modelSeries [7, 3, 7] [0, 1, 2] [(0 : ℝ), 1, 2] = .ok [((0 : Nat), (0 : ℝ)), (2, 2), (1, 1)] := rfl
  refine ⟨_, hm, unify_eq_length _ _ _ rfl, ?_⟩
  have hsx : ssq [(0 : ℝ), 1, 2] = 2 := by norm_num [ssq]
  have hsy : ssq [(0 : ℝ), 2, 1] = 2 := by norm_num [ssq]
  have hxy : sxy [((0 : ℝ), (0 : ℝ)), (1, 2), (2, 1)] = 1 := by norm_num [sxy]
  have hq : Real.sqrt (2 * 2) = 2 := Real.sqrt_mul_self (by norm_num)
  unfold linregress scipyLinregress
  have e1 : vals (dataSeries [(0 : Nat), 1, 2] [(0 : ℝ), 1, 2]) = [0, 1, 2] := rfl
  have e2 : vals [((0 : Nat), (0 : ℝ)), (2, 2), (1, 1)] = [0, 2, 1] := rfl
  rw [e1, e2, if_neg]
  · simp only [List.zip_cons_cons, List.zip_nil_right]
    rw [hsx, hsy, hxy, hq, if_neg (by norm_num)]
    norm_num
  · push Not
    refine ⟨by simp, by simp, 0, by simp, 1, by simp, by norm_num⟩

/-! ### series of different length -/

theorem dropna_some (a : Series ι) : dropna (a.map fun e => (e.1, some e.2)) = a := by
  unfold dropna
  rw [List.filterMap_map]
  have : ((fun e : ι × Option ℝ => e.2.map fun v => (e.1, v)) ∘ fun e : ι × ℝ => (e.1, some e.2)) = some := by
    funext e; rfl
  rw [this, List.filterMap_some]

/-- A series with repeated labels (an observation-wise variable) and a series with one value for each of these labels (`res_df`):
every observation is compared with the value of its label, provided that the union of the indexes is the index of the longer
series. -/
theorem C96_broadcast (union : List ι → List ι → List ι) (a b : Series ι) (hl : a.length ≠ b.length)
    (hu : union (a.map Prod.fst) (b.map Prod.fst) = a.map Prod.fst) (hb : (b.map Prod.fst).Nodup)
    (hsub : ∀ e ∈ a, e.1 ∈ b.map Prod.fst) :
    ∃ b', unify union a b = .ok (a, b') ∧ b'.map Prod.fst = a.map Prod.fst ∧ ∀ e ∈ b', e ∈ b := by
  have hlook : ∀ i ∈ a.map Prod.fst, ∃ v, b.lookup i = some v := by
    intro i hi
    obtain ⟨e, he, rfl⟩ := List.mem_map.mp hi
    obtain ⟨f, hf, hfe⟩ := List.mem_map.mp (hsub e he)
    exact ⟨f.2, (lookup_iff hb _ _).mpr (by rw [← hfe]; exact hf)⟩
  have hd : dropna ((a.map Prod.fst).map fun i => (i, b.lookup i)) =
      (a.map Prod.fst).map fun i => (i, (b.lookup i).getD 0) := by
    unfold dropna
    revert hlook
    generalize a.map Prod.fst = L
    intro hlook
    rw [List.filterMap_map, ← List.filterMap_eq_map]
    apply List.filterMap_congr
    intro i hi
    obtain ⟨v, hv⟩ := hlook i hi
    simp [hv]
  have ha : dropna (a.map fun e => (e.1, some e.2)) = a := dropna_some a
  refine ⟨(a.map Prod.fst).map fun i => (i, (b.lookup i).getD 0), ?_, ?_, ?_⟩
  · unfold unify
    rw [if_pos hl]
    simp only [hu]
    unfold reindex
    have hne : ¬ b.map Prod.fst = a.map Prod.fst := by
      intro h
      exact hl (by simpa using (congrArg List.length h).symm)
    rw [if_pos rfl, if_neg hne, if_pos hb]
    simp only [bind, Except.bind]
    rw [ha, hd, if_neg (by simp)]
    rfl
  · rw [List.map_map]
    simp [Function.comp_def]
  · intro e he
    obtain ⟨i, hi, rfl⟩ := List.mem_map.mp he
    obtain ⟨v, hv⟩ := hlook i hi
    rw [hv]
    exact (lookup_iff hb _ _).mp hv

/-- Two observations at the same time. -/
example : unify (fun a _ => a) [((5 : Nat), (1 : ℝ)), (5, 2), (6, 3)] [(5, 10), (6, 20)] =
    .ok ([(5, 1), (5, 2), (6, 3)], [(5, 10), (5, 10), (6, 20)]) := rfl

theorem reindex_perm (join : List ι) (s : Series ι) (hs : (s.map Prod.fst).Nodup) (hj : join.Nodup)
    (hsub : ∀ i ∈ s.map Prod.fst, i ∈ join) : ∃ c, reindex join s = .ok c ∧ (dropna c).Perm s := by
  unfold reindex
  by_cases h : s.map Prod.fst = join
  · refine ⟨_, if_pos h, ?_⟩
    rw [dropna_some]
  · refine ⟨_, by rw [if_neg h, if_pos hs], ?_⟩
    unfold dropna
    rw [List.filterMap_map, List.perm_ext_iff_of_nodup _ (List.Nodup.of_map _ hs)]
    · rintro ⟨i, v⟩
      simp only [List.mem_filterMap, Function.comp, Option.map_eq_some_iff, Prod.mk.injEq]
      constructor
      · rintro ⟨j, -, w, hw, rfl, rfl⟩
        exact (lookup_iff hs _ _).mp hw
      · intro hm
        exact ⟨i, hsub i (List.mem_map.mpr ⟨_, hm, rfl⟩), v, (lookup_iff hs _ _).mpr hm, rfl, rfl⟩
    · refine hj.filterMap ?_
      intro i j e hi hj
      simp only [Function.comp, Option.mem_def, Option.map_eq_some_iff] at hi hj
      obtain ⟨_, _, rfl⟩ := hi
      obtain ⟨_, _, h⟩ := hj
      exact (Prod.mk.inj h).1.symm

/-- Two series with unique labels and different lengths are never unified. -/
theorem C96_length_fails (union : List ι → List ι → List ι) (a b : Series ι) (ha : (a.map Prod.fst).Nodup)
    (hb : (b.map Prod.fst).Nodup) (hl : a.length ≠ b.length)
    (hun : (union (a.map Prod.fst) (b.map Prod.fst)).Nodup)
    (hu : ∀ i, i ∈ union (a.map Prod.fst) (b.map Prod.fst) ↔ i ∈ a.map Prod.fst ∨ i ∈ b.map Prod.fst) :
    unify union a b = .error .assertionError := by
  obtain ⟨c1, e1, p1⟩ := reindex_perm _ a ha hun fun i hi => (hu i).mpr (Or.inl hi)
  obtain ⟨c2, e2, p2⟩ := reindex_perm _ b hb hun fun i hi => (hu i).mpr (Or.inr hi)
  unfold unify
  rw [if_pos hl]
  simp only [e1, e2, bind, Except.bind]
  rw [if_pos (by rw [p1.length_eq, p2.length_eq]; exact hl)]
  rfl

end RT1.Metrics
