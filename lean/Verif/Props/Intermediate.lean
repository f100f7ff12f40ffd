import Verif.Model.Intermediate
import Verif.Props.Plots
import Verif.Props.Interp

/-!
# Properties of the intermediate results (C125)
-/

namespace RT1.Intermediate
open General Grouping Plots

/-! ## recording -/

section
variable {P R J : Type}

/-- Specification: the calls of each kind, in their order. -/
def paramsOf (calls : List (Call P R J)) : List P := calls.filterMap fun | .eval p _ => some p | .jac _ => none
def residualsOf (calls : List (Call P R J)) : List R := calls.filterMap fun | .eval _ r => some r | .jac _ => none
def jacobiansOf (calls : List (Call P R J)) : List J := calls.filterMap fun | .eval _ _ => none | .jac j => some j

theorem record_fold (keep : Bool) (calls : List (Call P R J)) : ∀ s : Record P R J, calls.foldl (record keep) (some s) =
    some ⟨s.parameters ++ (if keep then paramsOf calls else []), s.residuals ++ (if keep then residualsOf calls else []),
      s.jacobian ++ jacobiansOf calls⟩ := by
  induction calls with
  | nil => intro s; cases keep <;> simp [paramsOf, residualsOf, jacobiansOf]
  | cons c calls ih =>
    intro s
    rw [List.foldl_cons]
    cases c with
    | eval p r =>
      show List.foldl (record keep) (some (if keep then _ else s)) calls = _
      rw [ih]
      cases keep <;> simp [paramsOf, residualsOf, jacobiansOf]
    | jac j =>
      show List.foldl (record keep) (some _) calls = _
      rw [ih]
      cases keep <;> simp [paramsOf, residualsOf, jacobiansOf]

theorem record_none (keep : Bool) (calls : List (Call P R J)) : calls.foldl (record keep) none = none := by
  induction calls with
  | nil => rfl
  | cons c calls ih => cases c <;> exact ih

/-- After `performfit(intermediate_results=True)` exactly the evaluations of this fit are recorded, in their order, whatever has been done with
the object before. -/
theorem C125_record (before : List (Bool × List (Call P R J))) (calls : List (Call P R J)) :
    performFits none (before ++ [(true, calls)]) = some ⟨paramsOf calls, residualsOf calls, jacobiansOf calls⟩ := by
  unfold performFits
  rw [List.foldl_append]
  show List.foldl (record true) (some ⟨[], [], []⟩) calls = _
  rw [record_fold]
  simp

/-- Nothing is recorded if it was never requested. -/
theorem C125_nothing (fits : List (Bool × List (Call P R J))) (h : ∀ f ∈ fits, f.1 = false) : performFits none fits = none := by
  unfold performFits
  induction fits with
  | nil => rfl
  | cons f fits ih =>
    rw [List.foldl_cons]
    have : performFit none f = none := by
      unfold performFit
      rw [h f (List.mem_cons_self ..)]
      exact record_none _ _
    rw [this]
    exact ih fun g hg => h g (List.mem_cons_of_mem _ hg)

/-- A later fit without intermediate results leaves the recorded parameters and residuals unchanged; the jacobians are unchanged if it does not
evaluate the jacobian. -/
theorem C125_later_partial (s : Record P R J) (calls : List (Call P R J)) :
    ∃ s', performFit (some s) (false, calls) = some s' ∧ s'.parameters = s.parameters ∧ s'.residuals = s.residuals ∧
      (jacobiansOf calls = [] → s'.jacobian = s.jacobian) := by
  refine ⟨_, record_fold false calls s, by simp, by simp, fun h => by simp [h]⟩
end

/-- The jacobians of a later fit without intermediate results are added to those of the previous fit. -/
theorem C125_later_fails : ∃ fits : List (Bool × List (Call Nat Nat Nat)),
    performFits none fits = some ⟨[1, 2], [10, 20], [7, 8]⟩ ∧ fits = [(true, [.eval 1 10, .jac 7, .eval 2 20]), (false, [.eval 3 30, .jac 8])] :=
  ⟨_, rfl, rfl⟩

/-! ## slices -/

theorem apply_map {α β : Type} (s : Slice) (f : α → β) (l : List α) : s.apply (l.map f) = (s.apply l).map f := by
  have key : ∀ l : List α, ((l.map f).zipIdx.filter fun x => x.2 % s.step = 0).map Prod.fst =
      ((l.zipIdx.filter fun x => x.2 % s.step = 0).map Prod.fst).map f := by
    intro l
    rw [List.zipIdx_map, List.filter_map, List.map_map, List.map_map]
    rfl
  unfold Slice.apply
  cases s.stop with
  | none =>
    dsimp only
    rw [← List.map_drop]
    exact key _
  | some n =>
    dsimp only
    rw [← List.map_take, ← List.map_drop]
    exact key _

/-- Specification: the numbers of the evaluations (from 1) that are selected by a slice. -/
def Selected (s : Slice) (n m : Nat) : Prop :=
  s.start < m ∧ m ≤ n ∧ (∀ k, s.stop = some k → m ≤ k) ∧ ∃ q, m = s.start + 1 + q * s.step

theorem mem_apply_range (s : Slice) (n k : Nat) : k ∈ s.apply (List.range n) ↔
    s.start ≤ k ∧ k < n ∧ (∀ m, s.stop = some m → k < m) ∧ (k - s.start) % s.step = 0 := by
  have key : ∀ m : Nat, k ∈ (((List.range m).drop s.start).zipIdx.filter fun x => x.2 % s.step = 0).map Prod.fst ↔
      s.start ≤ k ∧ k < m ∧ (k - s.start) % s.step = 0 := by
    intro m
    simp only [List.mem_map, List.mem_filter, decide_eq_true_eq, Prod.exists, exists_and_right, exists_eq_right]
    constructor
    · rintro ⟨j, hj, h⟩
      rw [List.mem_zipIdx_iff_getElem?] at hj
      dsimp only at hj
      rw [List.getElem?_drop, List.getElem?_eq_some_iff] at hj
      obtain ⟨h1, h2⟩ := hj
      rw [List.getElem_range] at h2
      rw [List.length_range] at h1
      refine ⟨by omega, by omega, ?_⟩
      rw [show k - s.start = j by omega]
      exact h
    · rintro ⟨h1, h2, h3⟩
      refine ⟨k - s.start, ?_, h3⟩
      rw [List.mem_zipIdx_iff_getElem?]
      dsimp only
      rw [List.getElem?_drop, List.getElem?_eq_some_iff]
      refine ⟨by rw [List.length_range]; omega, ?_⟩
      rw [List.getElem_range]
      omega
  unfold Slice.apply
  cases hs : s.stop with
  | none =>
    dsimp only
    rw [key n]
    simp
  | some t =>
    dsimp only
    rw [List.take_range, key]
    simp only [Option.some.injEq, forall_eq']
    omega

theorem apply_sublist {α : Type} (s : Slice) (l : List α) : (s.apply l).Sublist l := by
  unfold Slice.apply
  have key : ∀ l : List α, ((l.zipIdx.filter fun x => x.2 % s.step = 0).map Prod.fst).Sublist l := by
    intro l
    have := (List.filter_sublist (p := fun x => decide (x.2 % s.step = 0)) (l := l.zipIdx)).map Prod.fst
    rwa [show l.zipIdx.map Prod.fst = l by simp] at this
  cases s.stop with
  | none => exact (key _).trans (List.drop_sublist _ _)
  | some n => exact ((key _).trans (List.drop_sublist _ _)).trans (List.take_sublist _ _)

/-- The shown iterations are the selected ones, in increasing order. -/
def Iterations (s : Slice) (n : Nat) (l : List Nat) : Prop := l.Pairwise (· < ·) ∧ ∀ m, m ∈ l ↔ Selected s n m

theorem iterations_apply (s : Slice) (n : Nat) : Iterations s n (s.apply ((List.range n).map (· + 1))) := by
  constructor
  · refine List.Pairwise.sublist (apply_sublist s _) ?_
    rw [List.pairwise_map]
    exact List.pairwise_lt_range.imp (by omega)
  · intro m
    rw [apply_map, List.mem_map]
    constructor
    · rintro ⟨k, hk, rfl⟩
      obtain ⟨h1, h2, h3, h4⟩ := (mem_apply_range s n k).1 hk
      refine ⟨by omega, by omega, fun t ht => h3 t ht, ?_⟩
      obtain ⟨q, hq⟩ := Nat.dvd_of_mod_eq_zero h4
      exact ⟨q, by rw [Nat.mul_comm q]; omega⟩
    · rintro ⟨h1, h2, h3, q, hq⟩
      refine ⟨m - 1, (mem_apply_range s n _).2 ⟨by omega, by omega, fun t ht => by have := h3 t ht; omega, ?_⟩, by omega⟩
      rw [show m - 1 - s.start = q * s.step by omega]
      exact Nat.mul_mod_left _ _

/-! ## residuals -/

variable {ι κ γ : Type} [DecidableEq κ] [DecidableEq γ]

/-- Specification: the weight of an observation. -/
noncomputable def weight (w : Option (List ℝ)) (i : Nat) : ℝ := (w.map fun w => w.getD i default).getD 1

/-- Specification: the (weighted) error of an observation, relative to the measurement. -/
noncomputable def errorAt (err : Err) (sig : List ℝ) (w : Option (List ℝ)) (model : List ℝ) (i : Nat) : ℝ :=
  match err with
  | .abs => weight w i * (model.getD i default - sig.getD i default)
  | .rel => weight w i * (model.getD i default - sig.getD i default) / sig.getD i default

/-- Specification: the absolute value of the mean error of the observations of a group. -/
noncomputable def groupError (n : Nat) (inGroup : Nat → Bool) (e : Nat → ℝ) : Option ℝ :=
  (Metrics.mean (((List.range n).filter inGroup).map e)).map abs

theorem groupPos_contig (gi : List κ) (h : Contig gi) : (groupPos gi).flatten = List.range gi.length := by
  unfold groupPos
  rw [groupValues_eq, contig_flatten gi.zipIdx Prod.fst Prod.snd (by simpa using h)]
  simp [List.range_eq_range']

theorem errDict_pos (gi : List κ) (hne : gi ≠ []) (sig : List ℝ) (w : Option (List ℝ)) (model : List ℝ) (h1 : sig.length = gi.length)
    (h2 : model.length = gi.length) (h3 : ∀ v, w = some v → v.length = gi.length) :
    errDict gi sig w model = .ok ((groupPos gi).flatten.map (errorAt .abs sig w model), (groupPos gi).flatten.map (errorAt .rel sig w model)) := by
  obtain ⟨I, M, -, hI, hu, -⟩ := idxAssigns_spec gi hne
  have hw : weightArr gi (I.map (List.map fun i => sig.getD i default)) w = .ok (I.map (List.map fun i => weight w i)) := by
    cases w with
    | none =>
      show Except.ok _ = _
      rw [List.map_map]
      congr 1
      apply List.map_congr_left
      intro r _
      simp [weight]
    | some v =>
      show (getData gi v).map Prod.fst = _
      rw [getData_spec gi I M hI v (h3 v rfl)]
      rfl
  unfold errDict
  rw [getData_spec gi I M hI sig h1, getData_spec gi I M hI model h2]
  show (do
    let ws ← weightArr gi (I.map (List.map fun i => sig.getD i default)) w
    _) = _
  rw [hw]
  show Except.ok _ = _
  rw [Grouping.map2_map, Grouping.map2_map, unmask_map, unmask_map, hu, List.zipWith_map, List.zipWith_self]
  rfl

theorem err_get (gi : List κ) (hne : gi ≠ []) (hc : Contig gi) (sig : List ℝ) (w : Option (List ℝ)) (models : List (List ℝ)) (h1 : sig.length = gi.length)
    (h2 : ∀ m ∈ models, m.length = gi.length) (h3 : ∀ v, w = some v → v.length = gi.length) :
    models.mapM (errDict gi sig w) = .ok (models.map fun m => ((List.range gi.length).map (errorAt .abs sig w m),
      (List.range gi.length).map (errorAt .rel sig w m))) := by
  induction models with
  | nil => rfl
  | cons m ms ih =>
    rw [List.mapM_cons, errDict_pos gi hne sig w m h1 (h2 m (List.mem_cons_self ..)) h3, groupPos_contig gi hc,
      ih fun x hx => h2 x (List.mem_cons_of_mem _ hx)]
    rfl

theorem groupMeans_pos (labels : List (Option γ)) (cats : List γ) (n : Nat) (hl : labels.length = n) (e : Nat → ℝ) :
    groupMeans labels cats ((List.range n).map e) = cats.map fun c => groupError n (fun i => decide (labels[i]? = some (some c))) e := by
  unfold groupMeans groupError
  apply List.map_congr_left
  intro c _
  congr 2
  have : labels.zip ((List.range n).map e) = (List.range n).map fun i => (labels.getD i none, e i) := by
    apply List.ext_getElem
    · simp [hl]
    · intro i h1 h2
      simp only [List.length_zip, List.length_map, List.length_range] at h1
      simp [List.getD_eq_getElem?_getD, List.getElem?_eq_getElem (show i < labels.length by omega)]
  rw [this, List.filter_map, List.map_map]
  congr 1
  apply List.filter_congr
  intro i hi
  rw [List.mem_range] at hi
  simp [List.getD_eq_getElem?_getD, List.getElem?_eq_getElem (show i < labels.length by omega)]

/-- Specification: the arithmetic mean of some dates. -/
noncomputable def meanDate (l : List ℝ) : ℝ := l.sum / l.length

theorem firsts_sublist {κ : Type} [DecidableEq κ] (l : List κ) : (firsts l).Sublist l := by
  induction l with
  | nil => exact List.Sublist.refl _
  | cons x l ih => exact (List.filter_sublist.trans ih).cons_cons x

/-- The values of a figure: for each shown iteration `m` the mean errors of all groups in the `m`-th evaluation. -/
def Shows (fig : Figure ι) (err : Err) (sl : Slice) (labels : List (Option γ)) (cats : List γ) (sig : List ℝ) (w : Option (List ℝ))
    (models : List (List ℝ)) : Prop :=
  Iterations sl models.length fig.iterations ∧
  fig.values = fig.iterations.map fun m => cats.map fun c =>
    groupError sig.length (fun i => decide (labels[i]? = some (some c))) (errorAt err sig w (models.getD (m - 1) []))

theorem figure_shows (err : Err) (sl : Slice) (labels : List (Option γ)) (cats : List γ) (shown : List ι) (n : Nat) (hl : labels.length = n)
    (sig : List ℝ) (hs : sig.length = n) (w : Option (List ℝ)) (models : List (List ℝ)) :
    Shows (figure err sl labels cats shown (models.map fun m => ((List.range n).map (errorAt .abs sig w m),
      (List.range n).map (errorAt .rel sig w m)))) err sl labels cats sig w models := by
  refine ⟨?_, ?_⟩
  · show Iterations sl models.length (sl.apply _)
    rw [List.length_map]
    exact iterations_apply sl models.length
  · show (sl.apply _).map _ = (sl.apply _).map _
    rw [List.length_map]
    have hm : models = (List.range models.length).map fun i => models.getD i [] := (range_getD models _ rfl).symm
    conv_lhs => rw [hm]
    rw [List.map_map, apply_map, apply_map, List.map_map, List.map_map]
    apply List.map_congr_left
    intro k _
    have : ∀ m : List ℝ, err.get ((List.range n).map (errorAt .abs sig w m), (List.range n).map (errorAt .rel sig w m)) =
        (List.range n).map (errorAt err sig w m) := by
      intro m
      cases err <;> rfl
    simp only [Function.comp]
    rw [this, groupMeans_pos labels cats n hl, hs]
    rfl

theorem sortedKeys_spec [LinearOrder γ] (l : List γ) :
    (sortedKeys (fun a b => decide (a ≤ b)) l).Pairwise (· < ·) ∧ ∀ c, c ∈ sortedKeys (fun a b => decide (a ≤ b)) l ↔ c ∈ l := by
  unfold sortedKeys
  rw [distinct_eq]
  constructor
  · have hs := List.pairwise_mergeSort (le := fun a b : γ => decide (a ≤ b)) (by intro a b c; simp only [decide_eq_true_eq]; exact le_trans)
      (by intro a b; simp only [Bool.or_eq_true, decide_eq_true_eq]; exact le_total a b) (firsts l)
    have hn : ((firsts l).mergeSort fun a b => decide (a ≤ b)).Nodup := (List.mergeSort_perm _ _).nodup_iff.mpr (firsts_nodup _)
    have := hs.and hn
    refine this.imp ?_
    rintro a b ⟨h1, h2⟩
    exact lt_of_le_of_ne (by simpa using h1) h2
  · intro c
    rw [(List.mergeSort_perm _ _).mem_iff, mem_firsts]

/-- Two strictly increasing lists with the same elements are equal. -/
theorem sorted_unique [LinearOrder γ] {a b : List γ} (ha : a.Pairwise (· < ·)) (hb : b.Pairwise (· < ·)) (h : ∀ c, c ∈ a ↔ c ∈ b) : a = b := by
  have hp : a.Perm b := (List.perm_ext_iff_of_nodup (ha.imp ne_of_lt) (hb.imp ne_of_lt)).2 h
  exact hp.eq_of_pairwise (fun a b _ _ h1 h2 => absurd (lt_trans h1 h2) (lt_irrefl a)) ha hb

/-- `plot.intermediate_residuals(grp="groups")`: for each selected iteration the mean errors of the fit-groups, sorted by their numbers.  Partial:
the observations of a fit-group must be adjacent in the dataset. -/
theorem C125_groups_partial (err : Err) (sl : Slice) (index : List ℝ) (gi : List Int) (hne : gi ≠ []) (hc : Contig gi) (sig : List ℝ)
    (w : Option (List ℝ)) (models : List (List ℝ)) (h0 : index.length = gi.length) (h1 : sig.length = gi.length)
    (h2 : ∀ m ∈ models, m.length = gi.length) (h3 : ∀ v, w = some v → v.length = gi.length)
    (_h4 : err = .rel → ∀ x ∈ sig, x ≠ 0) :
    ∃ fig cats, plotGroups err sl index gi sig w models = .ok fig ∧ cats.Pairwise (· < ·) ∧ (∀ c, c ∈ cats ↔ c ∈ gi) ∧
      Shows fig err sl (gi.map some) cats sig w models ∧
      (gi.Pairwise (· ≤ ·) → fig.labels = cats.map fun c =>
        meanDate (((List.range gi.length).filter fun i => decide (gi[i]? = some c)).map fun i => index.getD i default)) := by
  have hm : Interp.meandatetimesGroup index gi = .ok ((firsts gi).map fun c =>
      meanDate (((List.range gi.length).filter fun i => decide (gi[i]? = some c)).map fun i => index.getD i default)) := by
    have hz : index.zip gi = (List.range gi.length).map fun i => (index.getD i default, gi.getD i default) := zip_getD index gi gi.length h0 rfl
    unfold Interp.meandatetimesGroup
    rw [groupValues_eq, show (index.zip gi).map Prod.snd = gi by
      rw [List.map_snd_zip (by omega)]]
    have : ∀ k ∈ firsts gi, ((index.zip gi).filter fun x => decide (x.2 = k)).map Prod.fst =
        ((List.range gi.length).filter fun i => decide (gi[i]? = some k)).map fun i => index.getD i default := by
      intro k _
      rw [hz, List.filter_map, List.map_map]
      congr 1
      apply List.filter_congr
      intro i hi
      rw [List.mem_range] at hi
      simp [List.getD_eq_getElem?_getD, List.getElem?_eq_getElem hi]
    rw [List.map_congr_left this]
    have hk : ∀ k ∈ firsts gi, ((List.range gi.length).filter fun i => decide (gi[i]? = some k)).map (fun i => index.getD i default) ≠ [] := by
      intro k hk
      rw [mem_firsts] at hk
      obtain ⟨i, hi, rfl⟩ := List.getElem_of_mem hk
      apply List.ne_nil_of_mem (a := index.getD i default)
      exact List.mem_map.2 ⟨i, List.mem_filter.2 ⟨List.mem_range.2 hi, by simp [List.getElem?_eq_getElem hi]⟩, rfl⟩
    revert hk
    generalize firsts gi = L
    intro hk
    clear this
    induction L with
    | nil => rfl
    | cons a L ih =>
      rw [List.map_cons, List.mapM_cons, C21_meandatetime _ (hk a (List.mem_cons_self ..)), ih fun k h => hk k (List.mem_cons_of_mem _ h)]
      rfl
  refine ⟨_, sortedKeys (fun a b => decide (a ≤ b)) gi, ?_, (sortedKeys_spec gi).1, (sortedKeys_spec gi).2,
    figure_shows err sl (gi.map some) _
      ((firsts gi).map fun c => meanDate (((List.range gi.length).filter fun i => decide (gi[i]? = some c)).map fun i => index.getD i default))
      gi.length (by simp) sig h1 w models, fun hs => ?_⟩
  · unfold plotGroups
    rw [err_get gi hne hc sig w models h1 h2 h3, hm]
    rfl
  · show (firsts gi).map _ = _
    congr 1
    refine sorted_unique ?_ (sortedKeys_spec gi).1 fun c => by rw [mem_firsts, (sortedKeys_spec gi).2]
    have : (firsts gi).Pairwise (· ≤ ·) := by
      have hsub : (firsts gi).Sublist gi := firsts_sublist gi
      exact hs.sublist hsub
    exact (this.and (firsts_nodup gi)).imp fun h => lt_of_le_of_ne h.1 h.2

example : Contig [(7 : Int), 7, 3] ∧ ¬ [(7 : Int), 7, 3].Pairwise (· ≤ ·) ∧ Selected ⟨1, some 6, 2⟩ 9 4 ∧ ¬ Selected ⟨1, some 6, 2⟩ 9 5 ∧
    ¬ Selected ⟨1, some 6, 2⟩ 9 8 := by
  refine ⟨by simp [Contig], by decide, ⟨by decide, by decide, by simp, 1, rfl⟩, ?_, ?_⟩
  · rintro ⟨-, -, -, q, h⟩
    simp only at h
    omega
  · rintro ⟨-, -, h, -⟩
    have := h 6 rfl
    omega

/-- `plot.intermediate_residuals(grp="dataset")`: for each selected iteration the errors of all dates.  Partial: the observations of a fit-group must
be adjacent in the dataset; the labels are those dates if each date occurs once. -/
theorem C125_dataset_partial [LinearOrder ι] [Inhabited ι] (err : Err) (sl : Slice) (index : List ι) (gi : List κ) (hne : gi ≠ []) (hc : Contig gi)
    (sig : List ℝ) (w : Option (List ℝ)) (models : List (List ℝ)) (h0 : index.length = gi.length) (h1 : sig.length = gi.length)
    (h2 : ∀ m ∈ models, m.length = gi.length) (h3 : ∀ v, w = some v → v.length = gi.length) (_h4 : err = .rel → ∀ x ∈ sig, x ≠ 0) :
    ∃ fig cats, plotDataset err sl index gi sig w models = .ok fig ∧ cats.Pairwise (· < ·) ∧ (∀ c, c ∈ cats ↔ c ∈ index) ∧
      Shows fig err sl (index.map some) cats sig w models ∧ (index.Pairwise (· < ·) → fig.labels = cats) := by
  refine ⟨_, sortedKeys (fun a b => decide (a ≤ b)) index, ?_, (sortedKeys_spec index).1, (sortedKeys_spec index).2,
    figure_shows err sl (index.map some) _ (fitIndex gi index) gi.length (by simpa using h0) sig h1 w models, fun hs => ?_⟩
  · unfold plotDataset
    rw [err_get gi hne hc sig w models h1 h2 h3]
    rfl
  · show fitIndex gi index = _
    have hf : fitIndex gi index = index := by
      have hg : (grouped gi index).flatten = index := by
        rw [grouped_eq gi index h0, ← List.map_flatten, groupPos_contig gi hc, range_getD index _ h0]
      have hn : index.Nodup := hs.imp ne_of_lt
      have hd : (grouped gi index).map distinct = grouped gi index := by
        conv_rhs => rw [← List.map_id (grouped gi index)]
        apply List.map_congr_left
        intro l hl
        rw [distinct_eq, firsts_of_nodup]
        · rfl
        · exact hn.sublist (hg ▸ List.sublist_flatten_of_mem hl)
      unfold fitIndex
      rw [hd, hg]
    rw [hf]
    exact sorted_unique hs (sortedKeys_spec index).1 fun c => ((sortedKeys_spec index).2 c).symm

/-- Groups of dates (`grp="2M"`) or of values of a dataset (`grp=("inc", ...)`): the mean errors of the observations in each of the bins. -/
theorem C125_bins_partial (err : Err) (sl : Slice) (labels : List (Option γ)) (cats : List γ) (gi : List κ) (hne : gi ≠ []) (hc : Contig gi)
    (sig : List ℝ) (w : Option (List ℝ)) (models : List (List ℝ)) (h0 : labels.length = gi.length) (h1 : sig.length = gi.length)
    (h2 : ∀ m ∈ models, m.length = gi.length) (h3 : ∀ v, w = some v → v.length = gi.length) (_h4 : err = .rel → ∀ x ∈ sig, x ≠ 0) :
    ∃ fig, plotBins err sl (some (labels, cats)) gi sig w models = .ok fig ∧ fig.labels = cats ∧
      Shows fig err sl labels cats sig w models := by
  refine ⟨_, ?_, rfl, figure_shows err sl labels cats cats gi.length h0 sig h1 w models⟩
  unfold plotBins
  dsimp only
  rw [err_get gi hne hc sig w models h1 h2 h3]
  rfl

/-- An unknown name of a dataset is reported as UnboundLocalError. -/
theorem C125_unknown_fails (err : Err) (sl : Slice) (gi : List κ) (sig : List ℝ) (w : Option (List ℝ)) (models : List (List ℝ)) :
    plotBins (γ := γ) err sl none gi sig w models = .error .unboundLocalError := rfl

/-- The errors of observations without a group (e.g. outside of the range of the bins) have no effect on the figure; the same holds for the
evaluations that are not selected: two figures are equal if they agree on everything that is shown. -/
theorem C125_only (fig fig' : Figure ι) (err : Err) (sl : Slice) (labels : List (Option γ)) (cats : List γ) (sig : List ℝ) (w : Option (List ℝ))
    (models models' : List (List ℝ)) (hl : models.length = models'.length) (h : Shows fig err sl labels cats sig w models)
    (h' : Shows fig' err sl labels cats sig w models')
    (he : ∀ m, Selected sl models.length m → ∀ i, (∃ c ∈ cats, labels[i]? = some (some c)) →
      (models.getD (m - 1) []).getD i default = (models'.getD (m - 1) []).getD i default) : fig.values = fig'.values := by
  have hi : fig.iterations = fig'.iterations :=
    sorted_unique h.1.1 h'.1.1 fun m => by rw [h.1.2, h'.1.2, hl]
  rw [h.2, h'.2, hi]
  apply List.map_congr_left
  intro m hm
  apply List.map_congr_left
  intro c hc
  unfold groupError
  congr 2
  apply List.map_congr_left
  intro i hmem
  have hlab : labels[i]? = some (some c) := by simpa using (List.mem_filter.1 hmem).2
  have := he m ((h.1.2 m).1 (hi ▸ hm)) i ⟨c, hc, hlab⟩
  unfold errorAt
  cases err <;> dsimp only <;> rw [this]

theorem mean_cons (a : ℝ) (l : List ℝ) : Metrics.mean (a :: l) = some ((a :: l).sum / (a :: l).length) := if_neg (by simp)

/-- Observations at the times 0, 1, 2 in the fit-groups 7, 3, 7 with the errors 1, 2, 3: the mean errors of the fit-groups 3 and 7 are shown as 3 and
3/2 (instead of 2 and 2). -/
theorem C125_residuals_fails : ∃ fig, plotGroups .abs ⟨0, none, 1⟩ [0, 1, 2] [7, 3, 7] [0, 0, 0] none [[1, 2, 3]] = .ok fig ∧
    fig.values = [[some 3, some (3 / 2)]] ∧
    groupError 3 (fun i => decide ([(7 : Int), 3, 7][i]? = some 3)) (errorAt .abs [0, 0, 0] none [1, 2, 3]) = some 2 ∧
    groupError 3 (fun i => decide ([(7 : Int), 3, 7][i]? = some 7)) (errorAt .abs [0, 0, 0] none [1, 2, 3]) = some 2 := by
  have hg : (groupPos [(7 : Int), 3, 7]).flatten = [0, 2, 1] := by decide
  have hk : sortedKeys (fun a b => decide (a ≤ b)) [(7 : Int), 3, 7] = [3, 7] := 
    sorted_unique (sortedKeys_spec _).1 (by decide) fun c => by rw [(sortedKeys_spec _).2]; simp; try omega
  have hm : Interp.meandatetimesGroup [0, 1, 2] [(7 : Int), 3, 7] = .ok [1, 1] := by
    show List.mapM meandatetime [[(0 : ℝ), 2], [1]] = _
    simp [meandatetime]
    rfl
  have h1 : errDict [(7 : Int), 3, 7] [0, 0, 0] none [1, 2, 3] = .ok ([1, 3, 2], [0, 0, 0]) := by
    rw [errDict_pos [(7 : Int), 3, 7] (by simp) [0, 0, 0] none [1, 2, 3] rfl rfl (by simp), hg]
    simp [errorAt, weight]
  refine ⟨figure .abs ⟨0, none, 1⟩ ([(7 : Int), 3, 7].map some) [3, 7] [1, 1] [([1, 3, 2], [0, 0, 0])], ?_, ?_, ?_, ?_⟩
  · unfold plotGroups
    rw [List.mapM_cons, h1, hm, hk]
    rfl
  · norm_num [figure, Slice.apply, groupMeans, Err.get, mean_cons, abs_of_pos]
  · have : (List.range 3).filter (fun i => decide ([(7 : Int), 3, 7][i]? = some 3)) = [1] := by decide
    unfold groupError
    rw [this]
    norm_num [errorAt, weight, mean_cons, abs_of_pos]
  · have : (List.range 3).filter (fun i => decide ([(7 : Int), 3, 7][i]? = some 7)) = [0, 2] := by decide
    unfold groupError
    rw [this]
    norm_num [errorAt, weight, mean_cons, abs_of_pos]

/-- The fit-groups 7 (time 0, error 1) and 3 (time 1, error 2): the labels are the times 0, 1, the values are those of the groups 3, 7. -/
theorem C125_labels_fails : ∃ fig, plotGroups .abs ⟨0, none, 1⟩ [0, 1] [7, 3] [0, 0] none [[1, 2]] = .ok fig ∧
    fig.labels = [0, 1] ∧ fig.values = [[some 2, some 1]] := by
  have hg : (groupPos [(7 : Int), 3]).flatten = [0, 1] := by decide
  have hk : sortedKeys (fun a b => decide (a ≤ b)) [(7 : Int), 3] = [3, 7] := 
    sorted_unique (sortedKeys_spec _).1 (by decide) fun c => by rw [(sortedKeys_spec _).2]; simp; try omega
  have h1 : errDict [(7 : Int), 3] [0, 0] none [1, 2] = .ok ([1, 2], [0, 0]) := by
    rw [errDict_pos [(7 : Int), 3] (by simp) [0, 0] none [1, 2] rfl rfl (by simp), hg]
    simp [errorAt, weight]
  refine ⟨figure .abs ⟨0, none, 1⟩ ([(7 : Int), 3].map some) [3, 7] [0, 1] [([1, 2], [0, 0])], ?_, rfl, ?_⟩
  · unfold plotGroups
    rw [List.mapM_cons, h1, hk]
    rfl
  · norm_num [figure, Slice.apply, groupMeans, Err.get, mean_cons, abs_of_pos]

/-- The same date in two fit-groups: there are two labels, but only one value. -/
theorem C125_dates_fails : ∃ fig, plotDataset .abs ⟨0, none, 1⟩ [(5 : Nat), 5] [(7 : Int), 3] [0, 0] none [[1, 2]] = .ok fig ∧
    fig.labels = [5, 5] ∧ fig.values = [[some (3 / 2)]] := by
  have hg : (groupPos [(7 : Int), 3]).flatten = [0, 1] := by decide
  have hk : sortedKeys (fun a b => decide (a ≤ b)) [(5 : Nat), 5] = [5] := 
    sorted_unique (sortedKeys_spec _).1 (by decide) fun c => by rw [(sortedKeys_spec _).2]; simp; try omega
  have h1 : errDict [(7 : Int), 3] [0, 0] none [1, 2] = .ok ([1, 2], [0, 0]) := by
    rw [errDict_pos [(7 : Int), 3] (by simp) [0, 0] none [1, 2] rfl rfl (by simp), hg]
    simp [errorAt, weight]
  refine ⟨figure .abs ⟨0, none, 1⟩ ([(5 : Nat), 5].map some) [5] [5, 5] [([1, 2], [0, 0])], ?_, rfl, ?_⟩
  · unfold plotDataset
    rw [List.mapM_cons, h1, hk]
    rfl
  · norm_num [figure, Slice.apply, groupMeans, Err.get, mean_cons, abs_of_pos]

/-! ## the curves of the parameters -/

theorem paramCurve_first (key : String) (recs : List (List (String × List ℝ))) (f : List (String × List ℝ) → ℝ)
    (h : ∀ d ∈ recs, ∃ v, d.lookup key = some v ∧ v.head? = some (f d)) : paramCurve key recs = .ok (recs.zipIdx.map fun d => (d.2, f d.1)) := by
  unfold paramCurve
  have : ∀ (k : Nat), ((recs.zipIdx k).filterMap fun d => (d.1.lookup key).map fun v => (d.2, v)).mapM
      (fun x : Nat × List ℝ => (firstVal x.2).map fun v => (x.1, v)) = .ok ((recs.zipIdx k).map fun d => (d.2, f d.1)) := by
    induction recs with
    | nil => intro k; rfl
    | cons d recs ih =>
      intro k
      obtain ⟨v, hv, hf⟩ := h d (List.mem_cons_self ..)
      rw [List.zipIdx_cons, List.filterMap_cons_some (b := (k, v)) (by simp [hv]), List.mapM_cons, ih (fun d hd => h d (List.mem_cons_of_mem _ hd))]
      cases v with
      | nil => cases hf
      | cons a v =>
        cases hf
        rfl
  exact this 0

/-- `plot.intermediate_results`: the curve of a parameter shows its mean value for each of the evaluations.  Partial: for parameters with the same
value in all fit-groups. -/
theorem C125_curve_partial (key : String) (recs : List (List (String × List ℝ)))
    (h : ∀ d ∈ recs, ∃ v, d.lookup key = some v ∧ v ≠ [] ∧ ∀ x ∈ v, ∀ y ∈ v, x = y) :
    ∃ ms, paramCurve key recs = .ok ms ∧ ms.length = recs.length ∧
      ∀ (i : Nat) (d : List (String × List ℝ)), recs[i]? = some d → ∃ v m, d.lookup key = some v ∧ Metrics.mean v = some m ∧ ms[i]? = some (i, m) := by
  refine ⟨_, paramCurve_first key recs (fun d => ((d.lookup key).bind List.head?).getD 0) ?_, by simp, ?_⟩
  · intro d hd
    obtain ⟨v, h1, h2, -⟩ := h d hd
    refine ⟨v, h1, ?_⟩
    rw [h1]
    cases v with
    | nil => exact absurd rfl h2
    | cons a v => rfl
  · intro i d hd
    obtain ⟨v, h1, h2, h3⟩ := h d (List.mem_of_getElem? hd)
    cases v with
    | nil => exact absurd rfl h2
    | cons a v =>
      have he : a :: v = List.replicate (v.length + 1) a :=
        List.eq_replicate_iff.2 ⟨rfl, fun b hb => h3 b hb a (List.mem_cons_self ..)⟩
      refine ⟨a :: v, a, h1, ?_, ?_⟩
      · rw [Metrics.mean, if_neg (by simp), he]
        simp only [List.sum_replicate, List.length_replicate, nsmul_eq_mul]
        congr 1
        have : ((v.length + 1 : Nat) : ℝ) ≠ 0 := by positivity
        field_simp
      · rw [List.getElem?_map, List.getElem?_zipIdx, hd]
        simp [h1]

example : ∀ d ∈ [[("omega", [(1 : ℝ), 1]), ("s", [2, 3])], [("omega", [4])]], ∃ v, d.lookup "omega" = some v ∧ v ≠ [] ∧ ∀ x ∈ v, ∀ y ∈ v, x = y := by
  intro d hd
  simp only [List.mem_cons, List.not_mem_nil, or_false] at hd
  rcases hd with rfl | rfl
  · exact ⟨[1, 1], rfl, by simp, by simp⟩
  · exact ⟨[4], rfl, by simp, by simp⟩

/-- For a parameter with several values the first one is shown, not the mean. -/
theorem C125_curve_fails : paramCurve "omega" [[("omega", [1, 3])]] = .ok [(0, 1)] ∧ Metrics.mean [1, 3] = some 2 := by
  refine ⟨rfl, ?_⟩
  norm_num [mean_cons]

/-- If parameters and jacobians have the same keys, there is exactly one panel for each of the parameters. -/
theorem C125_panels (paramKeys jacKeys : List String) (h : paramKeys.Perm jacKeys) : panels paramKeys jacKeys = paramKeys := by
  unfold panels
  rw [← h.length_eq]
  have : ∀ (l : List String), (∀ k ∈ l, k ∈ jacKeys) →
      ((List.replicate l.length ()).zip l).filterMap (fun x => if x.2 ∈ jacKeys then some x.2 else none) = l := by
    intro l
    induction l with
    | nil => intro _; rfl
    | cons k l ih =>
      intro hl
      rw [List.length_cons, List.replicate_succ, List.zip_cons_cons, List.filterMap_cons]
      dsimp only
      rw [if_pos (hl k (List.mem_cons_self ..)), ih fun k hk => hl k (List.mem_cons_of_mem _ hk)]
  exact this paramKeys fun k hk => h.mem_iff.1 hk

example : ["omega", "s"].Perm ["s", "omega"] := List.Perm.swap ..

end RT1.Intermediate
