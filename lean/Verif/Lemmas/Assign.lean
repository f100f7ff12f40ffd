import Verif.Lemmas.Grouping
import Verif.Props.General

/-! Helper lemmas for the assignment of values, residuals and the jacobian. -/

namespace RT1.Grouping
open General

variable {κ : Type} [DecidableEq κ]

/-! ### grouping of columns -/

theorem padRow_map {α β : Type} (f : α → β) (d : Nat) (s : List α) :
    padRow d (s.map f) = (padRow d s).map fun p => (p.1.map f, p.2) := by
  unfold padRow
  rw [List.length_map]
  split
  · rfl
  · rw [List.getLast?_map]
    cases s.getLast? with
    | none => rfl
    | some z => simp [Except.map, List.map_take]

theorem mapM_map_except {α β γ δ : Type} (f : α → Except PyErr γ) (g : β → α) (l : List β) (h : γ → δ)
    (k : β → Except PyErr δ) (hk : ∀ b, k b = (f (g b)).map h) :
    l.mapM k = ((l.map g).mapM f).map (List.map h) := by
  induction l with
  | nil => rfl
  | cons b l ih =>
    rw [List.mapM_cons, List.map_cons, List.mapM_cons, ih, hk]
    cases f (g b) with
    | error e => rfl
    | ok v =>
      simp only [Except.map, bind, Except.bind]
      cases (List.map g l).mapM f with
      | error e => rfl
      | ok vs => rfl

theorem rectangularize_map {α β : Type} (f : α → β) (rows : List (List α)) :
    rectangularize (rows.map (List.map f)) = (rectangularize rows).map fun p => (p.1.map (List.map f), p.2) := by
  unfold rectangularize
  cases rows with
  | nil => rfl
  | cons r rs =>
    simp only [List.map_cons, List.isEmpty_cons, Bool.false_eq_true, if_false, List.length_map, List.map_map]
    have e : (List.length ∘ List.map f) = (List.length : List α → Nat) := by ext x; simp
    rw [e]
    generalize (List.foldl max 0 (r.length :: rs.map List.length)) = d
    have h1 := mapM_map_except (f := padRow d) (g := fun x : List α => x) (l := r :: rs)
      (h := fun p : List α × List Bool => (p.1.map f, p.2)) (k := fun s => padRow d (s.map f))
      (fun s => padRow_map f d s)
    have h2 : (List.map f r :: List.map (List.map f) rs).mapM (padRow d) =
        (r :: rs).mapM (fun s => padRow d (s.map f)) := by
      have := mapM_map_except (f := padRow d) (g := fun x : List α => x.map f) (l := r :: rs)
        (h := fun p : List β × List Bool => p) (k := fun s => padRow d (s.map f))
        (fun s => by cases padRow d (s.map f) <;> rfl)
      rw [this]
      simp only [List.map_cons]
      cases (List.map f r :: List.map (List.map f) rs).mapM (padRow d) <;> simp [Except.map]
    rw [h2, h1]
    simp only [List.map_id']
    cases (r :: rs).mapM (padRow d) with
    | error e => rfl
    | ok ps => simp [Except.map, List.map_map, Function.comp_def]

theorem setdefaultAppend_map {κ β γ : Type} [DecidableEq κ] (f : β → γ) (d : List (κ × List β)) (k : κ) (v : β) :
    setdefaultAppend (d.map fun p => (p.1, p.2.map f)) k (f v) =
      (setdefaultAppend d k v).map fun p => (p.1, p.2.map f) := by
  induction d with
  | nil => rfl
  | cons p d ih =>
    simp only [List.map_cons, setdefaultAppend]
    split
    · simp
    · simp [ih]

theorem groupValues_map {α κ β γ : Type} [DecidableEq κ] (l : List α) (key : α → κ) (get : α → β) (f : β → γ) :
    groupValues l key (fun x => f (get x)) = (groupValues l key get).map (List.map f) := by
  rw [groupValues_eq, groupValues_eq, List.map_map]
  apply List.map_congr_left
  intro k _
  simp [List.map_map, Function.comp_def]

theorem groupValues_comp {α α' κ β : Type} [DecidableEq κ] (l : List α') (h : α' → α) (key : α → κ) (get : α → β) :
    groupValues (l.map h) key get = groupValues l (fun x => key (h x)) (fun x => get (h x)) := by
  rw [groupValues_eq, groupValues_eq, List.map_map]
  apply List.map_congr_left
  intro k _
  rw [List.filter_map, List.map_map]
  rfl

/-- The positions of the fit-groups. -/
def groupPos (gi : List κ) : List (List Nat) := groupValues gi.zipIdx Prod.fst Prod.snd

theorem grouped_eq {α : Type} [Inhabited α] (gi : List κ) (col : List α) (h : col.length = gi.length) :
    grouped gi col = (groupPos gi).map (List.map fun i => col.getD i default) := by
  unfold grouped groupPos
  rw [← groupValues_map]
  have : gi.zip col = gi.zipIdx.map fun p => (p.1, col.getD p.2 default) := by
    apply List.ext_getElem
    · simp [h]
    · intro i h1 h2
      simp only [List.length_zip, List.length_map, List.length_zipIdx] at h1 h2
      simp only [List.getElem_zip, List.getElem_map, List.getElem_zipIdx, zero_add]
      rw [List.getD_eq_getElem?_getD, List.getElem?_eq_getElem (by omega), Option.getD_some]
  rw [this, groupValues_comp]

theorem groupPos_ne_nil (gi : List κ) (hne : gi ≠ []) : groupPos gi ≠ [] ∧ ∀ r ∈ groupPos gi, r ≠ [] := by
  unfold groupPos
  rw [groupValues_eq]
  have hz : gi.zipIdx.map Prod.fst = gi := by simp
  rw [hz]
  constructor
  · obtain ⟨a, t, rfl⟩ := List.exists_cons_of_ne_nil hne
    simp [firsts]
  · intro r hr
    obtain ⟨k, hk, rfl⟩ := List.mem_map.1 hr
    rw [mem_firsts] at hk
    rw [← hz] at hk
    obtain ⟨p, hp, e⟩ := List.mem_map.1 hk
    intro h0
    have := congrArg List.length h0
    simp only [List.length_map, List.length_nil, List.length_eq_zero_iff, List.filter_eq_nil_iff] at this
    exact this p hp (by simpa using e)

theorem groupPos_perm (gi : List κ) : (groupPos gi).flatten.Perm (List.range gi.length) := by
  have := groupby_flatten_perm gi.zipIdx Prod.fst Prod.snd
  rw [show gi.zipIdx.map Prod.snd = List.range gi.length by simp [List.range_eq_range']] at this
  exact this

theorem unmask_map {α β : Type} (f : α → β) (A : List (List α)) (M : List (List Bool)) :
    unmask (A.map (List.map f)) M = (unmask A M).map f := by
  unfold unmask
  rw [List.map_flatten]
  congr 1
  rw [List.zipWith_map_left, List.map_zipWith]
  congr 1
  ext r m
  simp only [List.zip_map_left, List.filter_map, List.map_map]
  rfl

theorem unmask_rect {α : Type} (rows A : List (List α)) (M : List (List Bool)) (h : rectangularize rows = .ok (A, M)) :
    unmask A M = rows.flatten := by
  obtain ⟨W, _, _, hl1, hl2, hrow⟩ := C20_rectangularize rows A M h
  unfold unmask
  congr 1
  apply List.ext_getElem
  · simp [hl1, hl2]
  · intro i h1 h2
    simp only [List.length_zipWith] at h1
    rw [List.getElem_zipWith]
    exact (hrow i rows[i] A[i] M[i] (List.getElem?_eq_getElem _) (List.getElem?_eq_getElem _)
      (List.getElem?_eq_getElem _)).2.2.1

/-- The rectangular array of positions and the mask shared by all columns. -/
theorem idxAssigns_spec (gi : List κ) (hne : gi ≠ []) :
    ∃ I M, idxAssigns gi = .ok (I, M) ∧ rectangularize (groupPos gi) = .ok (I, M) ∧ unmask I M = (groupPos gi).flatten ∧
      (∀ r ∈ I, ∀ i ∈ r, i < gi.length) := by
  obtain ⟨⟨I, M⟩, h⟩ := (C20_rectangularize_succeeds_iff (groupPos gi)).2 (groupPos_ne_nil gi hne)
  refine ⟨I, M, h, h, unmask_rect _ _ _ h, ?_⟩
  intro r hr i hi
  obtain ⟨W, _, hW, hl1, hl2, hrow⟩ := C20_rectangularize _ I M h
  obtain ⟨k, hk, rfl⟩ := List.getElem_of_mem hr
  obtain ⟨c, hc, rfl⟩ := List.getElem_of_mem hi
  have hk1 : k < (groupPos gi).length := by omega
  have hk2 : k < M.length := by omega
  obtain ⟨a1, a2, a3, a4, a5⟩ := hrow k (groupPos gi)[k] I[k] M[k] (List.getElem?_eq_getElem _)
    (List.getElem?_eq_getElem _) (List.getElem?_eq_getElem _)
  have hmem : I[k][c] ∈ (groupPos gi)[k] := by
    by_cases hm : M[k][c]? = some true
    · have := a5 c hm
      rw [List.getElem?_eq_getElem hc] at this
      exact List.mem_of_getLast? this.symm
    · rw [← a3]
      refine List.mem_map.2 ⟨(I[k][c], M[k][c]'(by omega)), ?_, rfl⟩
      rw [List.mem_filter]
      refine ⟨?_, ?_⟩
      · rw [List.mem_iff_getElem]
        exact ⟨c, by rw [List.length_zip]; omega, by rw [List.getElem_zip]⟩
      · rw [List.getElem?_eq_getElem (by omega)] at hm
        simpa using hm
  have : I[k][c] ∈ (groupPos gi).flatten := List.mem_flatten.2 ⟨_, List.getElem_mem hk1, hmem⟩
  exact List.mem_range.1 ((groupPos_perm gi).mem_iff.1 this)

theorem getData_spec {α : Type} [Inhabited α] (gi : List κ) (I : List (List Nat)) (M : List (List Bool))
    (h : rectangularize (groupPos gi) = .ok (I, M)) (col : List α) (hl : col.length = gi.length) :
    getData gi col = .ok (I.map (List.map fun i => col.getD i default), M) := by
  unfold getData
  rw [grouped_eq gi col hl, rectangularize_map, h]
  rfl

theorem put_getElem? {α : Type} (ind : List Nat) (x : List α) (v : α) (i : Nat) :
    (put x ind v)[i]? = if i ∈ ind ∧ i < x.length then some v else x[i]? := by
  unfold put
  induction ind generalizing x with
  | nil => simp
  | cons a ind ih =>
    rw [List.foldl_cons, ih, List.length_set, List.getElem?_set]
    by_cases h1 : i ∈ ind
    · by_cases h2 : i < x.length
      · simp [h1, h2]
      · have e : x[i]? = none := List.getElem?_eq_none (by omega)
        simp [h2]
        omega
    · by_cases h3 : a = i
      · subst h3; simp only [h1, false_and, if_false, if_true, List.mem_cons, true_or, true_and]
        split
        · rfl
        · rw [List.getElem?_eq_none (by omega)]
      · have : ¬ i = a := fun e => h3 e.symm
        simp [h1, h3, this]

theorem put_length {α : Type} (ind : List Nat) (x : List α) (v : α) : (put x ind v).length = x.length := by
  unfold put
  induction ind generalizing x with
  | nil => rfl
  | cons a ind ih => rw [List.foldl_cons, ih, List.length_set]

theorem foldPut_length {α : Type} (L : List (α × List Nat)) (x : List α) :
    (L.foldl (fun x vi => put x vi.2 vi.1) x).length = x.length := by
  induction L generalizing x with
  | nil => rfl
  | cons p L ih => rw [List.foldl_cons, ih, put_length]

theorem foldPut_notMem {α : Type} (L : List (α × List Nat)) (x : List α) (i : Nat) (h : ∀ p ∈ L, i ∉ p.2) :
    (L.foldl (fun x vi => put x vi.2 vi.1) x)[i]? = x[i]? := by
  induction L generalizing x with
  | nil => rfl
  | cons p L ih =>
    rw [List.foldl_cons, ih _ (fun q hq => h q (by simp [hq])), put_getElem?]
    rw [if_neg]
    rintro ⟨h1, _⟩
    exact h p (by simp) h1

theorem foldPut_mem {α : Type} (L : List (α × List Nat)) (x : List α) (i : Nat) (v : α) (ind : List Nat)
    (hd : L.Pairwise fun p q => ∀ a ∈ p.2, a ∉ q.2) (hm : (v, ind) ∈ L) (hi : i ∈ ind) (hx : i < x.length) :
    (L.foldl (fun x vi => put x vi.2 vi.1) x)[i]? = some v := by
  induction L generalizing x with
  | nil => simp at hm
  | cons p L ih =>
    rw [List.pairwise_cons] at hd
    rw [List.foldl_cons]
    rcases List.mem_cons.1 hm with rfl | hm
    · rw [foldPut_notMem L _ i (fun q hq => hd.1 q hq i hi), put_getElem?, if_pos ⟨hi, hx⟩]
    · exact ih _ hd.2 hm (by rw [put_length]; exact hx)

theorem mem_groupPos (dyn : List κ) (q : Nat) (r : List Nat) (hr : (groupPos dyn)[q]? = some r) (i : Nat) :
    i ∈ r ↔ i < dyn.length ∧ dyn[i]? = (firsts dyn)[q]? := by
  unfold groupPos at hr
  rw [groupValues_eq, show dyn.zipIdx.map Prod.fst = dyn by simp, List.getElem?_map, Option.map_eq_some_iff] at hr
  obtain ⟨k, hk, rfl⟩ := hr
  rw [hk]
  simp only [List.mem_map, List.mem_filter, decide_eq_true_eq]
  constructor
  · rintro ⟨p, ⟨hp, rfl⟩, rfl⟩
    have := List.mem_zipIdx_iff_getElem?.1 hp
    exact ⟨(List.getElem?_eq_some_iff.1 this).1, this⟩
  · rintro ⟨hi, e⟩
    exact ⟨(k, i), ⟨List.mem_zipIdx_iff_getElem?.2 e, rfl⟩, rfl⟩

theorem groupPos_length (dyn : List κ) : (groupPos dyn).length = (firsts dyn).length := by
  unfold groupPos
  rw [groupValues_eq]; simp

theorem assignDataset_spec {α : Type} (x0 : List α) (dyn : List κ) (vals : List α) (hx : x0.length = dyn.length)
    (hv : vals.length = (firsts dyn).length) (i q : Nat) (hi : i < dyn.length) (hq : dyn[i]? = (firsts dyn)[q]?) :
    (assignDataset x0 dyn vals)[i]? = vals[q]? := by
  have hq' : q < (firsts dyn).length := by
    by_contra hc
    rw [List.getElem?_eq_none (by omega : (firsts dyn).length ≤ q), List.getElem?_eq_getElem hi] at hq
    cases hq
  have hqv : q < vals.length := by omega
  have hqp : q < (groupPos dyn).length := by rw [groupPos_length]; exact hq'
  rw [List.getElem?_eq_getElem hqv]
  show ((vals.zip (groupPos dyn)).foldl (fun x vi => put x vi.2 vi.1) x0)[i]? = _
  apply foldPut_mem (ind := (groupPos dyn)[q])
  · rw [List.pairwise_iff_getElem]
    intro a b ha hb hab x hxa hxb
    simp only [List.length_zip] at ha hb
    simp only [List.getElem_zip] at hxa hxb
    have h1 := (mem_groupPos dyn a _ (List.getElem?_eq_getElem (by omega)) x).1 hxa
    have h2 := (mem_groupPos dyn b _ (List.getElem?_eq_getElem (by omega)) x).1 hxb
    have h3 := h1.2.symm.trans h2.2
    rw [groupPos_length] at ha hb
    rw [List.getElem?_eq_getElem (by omega), List.getElem?_eq_getElem (by omega)] at h3
    have := (List.Nodup.getElem_inj_iff (firsts_nodup dyn)).1 (Option.some.inj h3)
    omega
  · rw [List.mem_iff_getElem]
    exact ⟨q, by rw [List.length_zip]; omega, by rw [List.getElem_zip]⟩
  · exact (mem_groupPos dyn q _ (List.getElem?_eq_getElem hqp) i).2 ⟨hi, hq⟩
  · omega

theorem assignDataset_length {α : Type} (x0 : List α) (dyn : List κ) (vals : List α) :
    (assignDataset x0 dyn vals).length = x0.length := foldPut_length _ _

theorem take2_spec {α : Type} [Inhabited α] (x : List α) (I : List (List Nat)) (h : ∀ r ∈ I, ∀ i ∈ r, i < x.length) :
    take2 x I = .ok (I.map (List.map fun i => x.getD i default)) := by
  unfold take2
  rw [mapM_ok_iff]
  rw [List.forall₂_map_right_iff, List.forall₂_same]
  intro r hr
  rw [mapM_ok_iff, List.forall₂_map_right_iff, List.forall₂_same]
  intro i hi
  rw [List.getElem?_eq_getElem (h r hr i hi), List.getD_eq_getElem?_getD, List.getElem?_eq_getElem (h r hr i hi)]
  rfl

/-- The value of the parameter for observation `i`. -/
def ownValue {α : Type} [Inhabited α] (dyn : List κ) (vals : List α) (i : Nat) : α :=
  match dyn[i]? with
  | some k => vals.getD ((firsts dyn).idxOf k) default
  | none => default

theorem assignVals_spec {κ' α : Type} [DecidableEq κ'] [Inhabited α] (gi : List κ) (I : List (List Nat))
    (M : List (List Bool)) (h : idxAssigns gi = .ok (I, M)) (hI : ∀ r ∈ I, ∀ i ∈ r, i < gi.length) (x0 : List α)
    (dyn : List κ') (vals : List α) (hx : x0.length = gi.length) (hd : dyn.length = gi.length)
    (hv : vals.length = (firsts dyn).length) :
    assignVals gi x0 dyn vals = .ok (I.map (List.map (ownValue dyn vals))) := by
  simp only [assignVals, h, bind, Except.bind]
  rw [take2_spec _ I (by rw [assignDataset_length, hx]; exact hI)]
  congr 1
  apply List.map_congr_left
  intro r hr
  apply List.map_congr_left
  intro i hi
  have hi' : i < dyn.length := by rw [hd]; exact hI r hr i hi
  have hm : dyn[i] ∈ firsts dyn := (mem_firsts _ _).2 (List.getElem_mem hi')
  have hq := List.idxOf_lt_length_of_mem hm
  have := assignDataset_spec x0 dyn vals (by omega) hv i ((firsts dyn).idxOf dyn[i]) hi' (by
    rw [List.getElem?_eq_getElem hi', List.getElem?_eq_getElem hq, List.getElem_idxOf])
  rw [List.getD_eq_getElem?_getD, this, ownValue, List.getElem?_eq_getElem hi']
  simp only [List.getD_eq_getElem?_getD]


/-! ### residuals -/

theorem map2_map {α β γ δ : Type} (f : α → β → γ) (I : List (List δ)) (g : δ → α) (h : δ → β) :
    map2 f (I.map (List.map g)) (I.map (List.map h)) = I.map (List.map fun i => f (g i) (h i)) := by
  unfold map2
  rw [List.zipWith_map, List.zipWith_self]
  apply List.map_congr_left
  intro r _
  rw [List.zipWith_map, List.zipWith_self]

theorem calcModel_map {δ β : Type} (F : β → List ℝ → ℝ) (I : List (List δ)) (t : δ → β) (ps : List (δ → ℝ)) :
    calcModel F (I.map (List.map t)) (ps.map fun p => I.map (List.map p)) =
      I.map (List.map fun i => F (t i) (ps.map fun p => p i)) := by
  unfold calcModel
  have : (ps.map fun p => I.map (List.map p)).foldr (fun p acc => map2 (fun x xs => x :: xs) p acc)
      ((I.map (List.map t)).map fun r => r.map fun _ => []) = I.map (List.map fun i => ps.map fun p => p i) := by
    induction ps with
    | nil => simp [List.map_map, Function.comp_def]
    | cons p ps ih =>
      simp only [List.map_cons, List.foldr_cons]
      rw [ih, map2_map]
  rw [this, map2_map]

/-! ### jacobian -/

theorem csr_perm (data : List ℝ) (rows cols : List Nat) (r c : Nat) (h1 : rows.length = data.length)
    (h2 : cols = List.range data.length) (hc : c < data.length) :
    csrEntry data rows cols r c = if rows.getD c 0 = r then data.getD c 0 else 0 := by
  subst h2
  unfold csrEntry
  have e : data.zip (rows.zip (List.range data.length)) =
      (List.range data.length).map fun k => (data.getD k 0, rows.getD k 0, k) := by
    apply List.ext_getElem
    · simp [h1]
    · intro k k1 k2
      simp only [List.length_zip, List.length_range] at k1
      simp only [List.getElem_zip, List.getElem_range, List.getElem_map, List.getD_eq_getElem?_getD]
      rw [List.getElem?_eq_getElem (by omega), List.getElem?_eq_getElem (by omega)]
      rfl
  rw [e, List.filter_map, List.map_map]
  have e2 : (List.range data.length).filter ((fun x : ℝ × Nat × Nat => decide (x.2 = (r, c))) ∘
      fun k => (data.getD k 0, rows.getD k 0, k)) = if rows.getD c 0 = r then [c] else [] := by
    have : ((fun x : ℝ × Nat × Nat => decide (x.2 = (r, c))) ∘ fun k => (data.getD k 0, rows.getD k 0, k)) =
        fun k => decide (k = c) && decide (rows.getD c 0 = r) := by
      ext k
      simp only [Function.comp, Prod.mk.injEq]
      by_cases hk : k = c
      · subst hk; simp
      · simp [hk]
    rw [this]
    by_cases hr : rows.getD c 0 = r
    · rw [if_pos hr]
      simp only [hr, decide_true, Bool.and_true]
      have := List.filter_eq (l := List.range data.length) c
      rw [this, List.count_eq_one_of_mem List.nodup_range (List.mem_range.2 hc)]
      rfl
    · rw [if_neg hr, List.filter_eq_nil_iff]
      simp only [hr, decide_false, Bool.and_false]
      simp
  rw [e2]
  split <;> simp

theorem jacRule_contig (gd : List κ) (h : Contig gd) :
    (jacRule gd).2 = List.range gd.length ∧ (jacRule gd).1 = gd.map fun k => (firsts gd).idxOf k := by
  have hz : gd.zipIdx.map Prod.fst = gd := by simp
  constructor
  · unfold jacRule
    simp only
    rw [groupValues_eq, contig_flatten _ _ _ (by rw [hz]; exact h)]
    simp [List.range_eq_range']
  · unfold jacRule
    simp only
    rw [← flatten_groups_map gd h]
    congr 1
    apply List.ext_getElem
    · rw [List.length_mapIdx, List.length_map, ← groupPos_length]; rfl
    · intro i h1 h2
      simp only [List.getElem_mapIdx, List.getElem_map]
      rw [List.Nodup.idxOf_getElem (firsts_nodup gd)]
      congr 1
      simp only [groupValues_eq, hz, List.getElem_map, List.length_map]
      generalize (firsts gd)[i]'(by simpa using h2) = k
      conv_rhs => rw [← hz]
      rw [List.filter_map, List.length_map]
      rfl

theorem firsts_order (l : List κ) : (firsts l).Pairwise fun a b => l.idxOf a < l.idxOf b := by
  have := groupby_keys_order l (fun x => x) (fun x => x)
  rw [groupby_keys] at this
  simpa using this

theorem firsts_map_firsts {κ' : Type} [DecidableEq κ'] (l : List κ) (f : κ → κ') :
    firsts ((firsts l).map f) = firsts (l.map f) := by
  induction l using List.reverseRecOn with
  | nil => rfl
  | append_singleton l x ih =>
    rw [firsts_snoc, List.map_append, List.map_singleton, firsts_snoc]
    by_cases hx : x ∈ l
    · rw [if_pos hx, if_pos (List.mem_map_of_mem hx), ih]
    · rw [if_neg hx, List.map_append, List.map_singleton, firsts_snoc, ih]
      have : f x ∈ (firsts l).map f ↔ f x ∈ l.map f := by simp only [List.mem_map, mem_firsts]
      simp only [this]

theorem firsts_of_nodup (l : List κ) (h : l.Nodup) : firsts l = l := by
  induction l with
  | nil => rfl
  | cons x xs ih =>
    rw [List.nodup_cons] at h
    rw [firsts, ih h.2, List.filter_eq_self.2]
    intro y hy
    simp only [ne_eq, decide_not, Bool.not_eq_eq_eq_not, Bool.not_true, decide_eq_false_iff_not]
    rintro rfl; exact h.1 hy

theorem firsts_append (a b : List κ) : firsts (a ++ b) = firsts a ++ (firsts b).filter fun y => decide (y ∉ a) := by
  induction a with
  | nil => simp [firsts]
  | cons x a ih =>
    simp only [List.cons_append, firsts, ih, List.filter_append, List.filter_filter]
    congr 2
    apply List.filter_congr
    intro y _
    simp [Bool.and_comm]

theorem firsts_replicate (x : κ) (n : Nat) (h : 1 ≤ n) : firsts (List.replicate n x) = [x] := by
  obtain ⟨n, rfl⟩ : ∃ m, n = m + 1 := ⟨n - 1, by omega⟩
  rw [List.replicate_succ, firsts]
  congr 1
  rw [List.filter_eq_nil_iff]
  intro y hy
  rw [mem_firsts] at hy
  simp [List.eq_of_mem_replicate hy]

theorem firsts_repeat (keys : List κ) (h : keys.Nodup) (n : κ → Nat) (hn : ∀ k ∈ keys, 1 ≤ n k) :
    firsts ((keys.map fun k => List.replicate (n k) k).flatten) = keys := by
  induction keys with
  | nil => rfl
  | cons x xs ih =>
    rw [List.nodup_cons] at h
    rw [List.map_cons, List.flatten_cons, firsts_append, ih h.2 (fun k hk => hn k (by simp [hk])),
      firsts_replicate x _ (hn x (by simp)), List.filter_eq_self.2]
    · rfl
    · intro y hy
      have : y ≠ x := by rintro rfl; exact h.1 hy
      simp [List.mem_replicate, this]

/-- The flattened rectangular array of the positions consists of the groups, each at least once. -/
theorem rect_groups (gi : List κ) (I : List (List Nat)) (M : List (List Bool))
    (h : rectangularize (groupPos gi) = .ok (I, M)) :
    ∃ n : κ → Nat, (∀ k ∈ firsts gi, 1 ≤ n k) ∧
      I.flatten.map (fun i => gi[i]?) = ((firsts gi).map fun k => List.replicate (n k) (some k)).flatten := by
  obtain ⟨W, hW1, hW2, hl1, hl2, hrow⟩ := C20_rectangularize _ I M h
  refine ⟨fun _ => W, ?_, ?_⟩
  · intro k hk
    obtain ⟨q, hq, rfl⟩ := List.getElem_of_mem hk
    have hq' : q < (groupPos gi).length := by rw [groupPos_length]; exact hq
    have hne : (groupPos gi)[q] ≠ [] := by
      have hgi : gi ≠ [] := by
        rintro rfl
        simp [firsts] at hq
      exact (groupPos_ne_nil gi hgi).2 _ (List.getElem_mem hq')
    have := List.length_pos_iff.2 hne
    have := hW2 _ (List.getElem_mem hq')
    show 1 ≤ W
    omega
  · rw [List.map_flatten]
    congr 1
    apply List.ext_getElem
    · rw [List.length_map, hl1, groupPos_length, List.length_map]
    · intro q h1 h2
      rw [List.length_map] at h1 h2
      have hq' : q < (groupPos gi).length := by omega
      obtain ⟨a1, a2, a3, a4, a5⟩ := hrow q (groupPos gi)[q] I[q] M[q] (List.getElem?_eq_getElem _)
        (List.getElem?_eq_getElem _) (List.getElem?_eq_getElem _)
      simp only [List.getElem_map]
      rw [List.eq_replicate_iff]
      refine ⟨by simpa using a1, ?_⟩
      intro y hy
      obtain ⟨i, hi, rfl⟩ := List.mem_map.1 hy
      have hmem : i ∈ (groupPos gi)[q] := by
        obtain ⟨c, hc, rfl⟩ := List.getElem_of_mem hi
        by_cases hm : M[q][c]? = some true
        · have := a5 c hm
          rw [List.getElem?_eq_getElem hc] at this
          exact List.mem_of_getLast? this.symm
        · rw [← a3]
          refine List.mem_map.2 ⟨(I[q][c], M[q][c]'(by omega)), ?_, rfl⟩
          rw [List.mem_filter]
          refine ⟨?_, ?_⟩
          · rw [List.mem_iff_getElem]
            exact ⟨c, by rw [List.length_zip]; omega, by rw [List.getElem_zip]⟩
          · rw [List.getElem?_eq_getElem (by omega)] at hm
            simpa using hm
      have := ((mem_groupPos gi q _ (List.getElem?_eq_getElem hq') i).1 hmem).2
      rw [this, List.getElem?_eq_getElem h2]

theorem unmask_flatten {α : Type} (A : List (List α)) (M : List (List Bool)) (hl : A.length = M.length)
    (h : ∀ (k : Nat) (a : List α) (m : List Bool), A[k]? = some a → M[k]? = some m → a.length = m.length) :
    unmask A M = ((A.flatten.zip M.flatten).filter fun x => !x.2).map Prod.fst := by
  unfold unmask
  induction A generalizing M with
  | nil => simp
  | cons a A ih =>
    cases M with
    | nil => simp at hl
    | cons m M =>
      have h0 := h 0 a m rfl rfl
      simp only [List.zipWith_cons_cons, List.flatten_cons]
      rw [List.zip_append h0, List.filter_append, List.map_append,
        ih M (by simpa using hl) (fun k x y hx hy => h (k + 1) x y (by simpa using hx) (by simpa using hy))]

/-- The jacobian if the dyn-groups are contiguous in the order of the fit-groups. -/
theorem jacobian_spec {κ' : Type} [DecidableEq κ'] [Inhabited κ'] (gi : List κ) (dyn : List κ') (I : List (List Nat))
    (M : List (List Bool)) (h : rectangularize (groupPos gi) = .ok (I, M)) (hne : gi ≠ []) (hd : dyn.length = gi.length)
    (hI : ∀ r ∈ I, ∀ i ∈ r, i < gi.length) (href : ∀ i j : Nat, i < gi.length → j < gi.length → gi[i]? = gi[j]? → dyn[i]? = dyn[j]?)
    (hc : Contig (I.flatten.map fun i => dyn.getD i default)) (δ ι : Nat → ℝ) :
    jacobian gi dyn (I.flatten.map δ) (I.flatten.map ι) =
      .ok ((unmask I M).map fun i => (firsts dyn).map fun k => if dyn[i]? = some k then δ i * ι i else 0) := by
  obtain ⟨W, hW1, hW2, hl1, hl2, hrow⟩ := C20_rectangularize _ I M h
  have hgd : (I.map (List.map fun i => dyn.getD i default)).flatten = I.flatten.map fun i => dyn.getD i default := by
    rw [List.map_flatten]
  simp only [jacobian, getData_spec gi I M h dyn hd, bind, Except.bind, hgd, pure, Except.pure]
  set gd := I.flatten.map fun i => dyn.getD i default with hgdd
  have hIf : ∀ i ∈ I.flatten, i < gi.length := by
    intro i hi
    obtain ⟨r, hr, hi⟩ := List.mem_flatten.1 hi
    exact hI r hr i hi
  -- the groups appear in the same order
  have hfirst : firsts gd = firsts dyn := by
    obtain ⟨n, hn1, hn2⟩ := rect_groups gi I M h
    set D : Option κ → κ' := fun o => match o with
      | some k => dyn.getD (gi.idxOf k) default
      | none => default with hD
    have hDgi : ∀ i, i < gi.length → D gi[i]? = dyn.getD i default := by
      intro i hi
      rw [List.getElem?_eq_getElem hi]
      simp only [hD]
      have h1 : gi.idxOf gi[i] < gi.length := List.idxOf_lt_length_of_mem (List.getElem_mem hi)
      have := href (gi.idxOf gi[i]) i h1 hi (by
        rw [List.getElem?_eq_getElem h1, List.getElem_idxOf, List.getElem?_eq_getElem hi])
      simp only [List.getD_eq_getElem?_getD]
      rw [this]
    have e1 : gd = (I.flatten.map fun i => gi[i]?).map D := by
      rw [List.map_map, hgdd]
      apply List.map_congr_left
      intro i hi
      exact (hDgi i (hIf i hi)).symm
    have e2 : dyn = (gi.map some).map D := by
      apply List.ext_getElem
      · simp [hd]
      · intro i h1 h2
        have := hDgi i (by omega)
        rw [List.getElem?_eq_getElem (by omega), List.getD_eq_getElem?_getD, List.getElem?_eq_getElem h1] at this
        simp only [List.getElem_map]
        exact this.symm
    have e3 : (firsts gi).map some = firsts (gi.map some) :=
      (firsts_of_nodup _ ((firsts_nodup gi).map (Option.some_injective _))).symm.trans (firsts_map_firsts gi some)
    rw [e1, hn2]
    conv_rhs => rw [e2, ← firsts_map_firsts, ← e3]
    rw [← firsts_map_firsts]
    congr 2
    have := firsts_repeat ((firsts gi).map some) ((firsts_nodup gi).map (Option.some_injective _))
      (fun o => match o with
        | some k => n k
        | none => 1) (by
        intro o ho
        obtain ⟨k, hk, rfl⟩ := List.mem_map.1 ho
        exact hn1 k hk)
    rw [List.map_map] at this
    exact this
  have hlen : gd.length = I.flatten.length := by rw [hgdd, List.length_map]
  have hentry : ∀ r c, r < (firsts dyn).length → c < gd.length →
      jacEntry gd (I.flatten.map δ) (I.flatten.map ι) r c =
        if dyn[I.flatten.getD c 0]? = (firsts dyn)[r]? then δ (I.flatten.getD c 0) * ι (I.flatten.getD c 0) else 0 := by
    intro r c hr hcl
    have hcI : c < I.flatten.length := by omega
    have ec : I.flatten.getD c 0 = I.flatten[c] := by
      rw [List.getD_eq_getElem?_getD, List.getElem?_eq_getElem hcI]; rfl
    have hcd : I.flatten[c] < dyn.length := by rw [hd]; exact hIf _ (List.getElem_mem hcI)
    have edyn : dyn[I.flatten[c]]? = some gd[c] := by
      simp only [hgdd, List.getElem_map, List.getD_eq_getElem?_getD]
      rw [List.getElem?_eq_getElem hcd]; rfl
    have ed : (I.flatten.map δ).getD c 0 = δ I.flatten[c] := by
      rw [List.getD_eq_getElem?_getD, List.getElem?_map, List.getElem?_eq_getElem hcI]; rfl
    have ei : (I.flatten.map ι).getD c 1 = ι I.flatten[c] := by
      rw [List.getD_eq_getElem?_getD, List.getElem?_map, List.getElem?_eq_getElem hcI]; rfl
    rw [ec, edyn]
    have hmem : gd[c] ∈ firsts dyn := by rw [← hfirst, mem_firsts]; exact List.getElem_mem hcl
    unfold jacEntry
    rw [groupby_length, hfirst, ei]
    split
    · rename_i h1
      have hr0 : r = 0 := by omega
      subst hr0
      rw [if_pos rfl, ed, if_pos]
      obtain ⟨k, hk⟩ := List.length_eq_one_iff.1 h1
      rw [hk] at hmem ⊢
      simp at hmem
      simp [hmem]
    · obtain ⟨j2, j1⟩ := jacRule_contig gd hc
      rw [csr_perm _ _ _ _ _ (by rw [j1, List.length_map, hlen, List.length_map])
        (by rw [j2, hlen, List.length_map]) (by rw [List.length_map]; exact hcI), ed, j1]
      have : (gd.map fun k => (firsts gd).idxOf k).getD c 0 = (firsts dyn).idxOf gd[c] := by
        rw [List.getD_eq_getElem?_getD, List.getElem?_map, List.getElem?_eq_getElem hcl, hfirst]; rfl
      rw [this]
      have iff : (firsts dyn).idxOf gd[c] = r ↔ some gd[c] = (firsts dyn)[r]? := by
        rw [List.getElem?_eq_getElem hr, Option.some.injEq]
        constructor
        · rintro rfl; rw [List.getElem_idxOf]
        · intro e; rw [e, List.Nodup.idxOf_getElem (firsts_nodup dyn)]
      simp only [iff]
      split <;> simp
  rw [groupby_length, hfirst]
  have hshape : ∀ (k : Nat) (a : List Nat) (m : List Bool), I[k]? = some a → M[k]? = some m → a.length = m.length := by
    intro k a m ha hm
    have hk : k < (groupPos gi).length := by
      have := (List.getElem?_eq_some_iff.1 ha).1; omega
    obtain ⟨a1, a2, _⟩ := hrow k _ a m (List.getElem?_eq_getElem hk) ha hm
    omega
  rw [unmask_flatten I M (by omega) hshape]
  have hzip : I.flatten.zip M.flatten = ((List.range gd.length).zip M.flatten).map fun x => (I.flatten.getD x.1 0, x.2) := by
    apply List.ext_getElem
    · simp [hlen]
    · intro i h1 h2
      simp only [List.length_zip, List.length_map] at h1 h2
      simp only [List.getElem_zip, List.getElem_map, List.getElem_range, List.getD_eq_getElem?_getD]
      rw [List.getElem?_eq_getElem (by omega)]; rfl
  rw [hzip, List.filter_map, List.map_map, List.map_map]
  congr 1
  apply List.map_congr_left
  intro x hx
  have hx1 : x.1 < gd.length := by
    have := (List.mem_filter.1 hx).1
    have := (List.of_mem_zip this).1
    exact List.mem_range.1 this
  apply List.ext_getElem
  · simp
  · intro r h1 h2
    simp only [List.length_map, List.length_range] at h1 h2
    simp only [List.getElem_map, List.getElem_range, Function.comp]
    rw [hentry r x.1 h1 hx1, List.getElem?_eq_getElem h1]
end RT1.Grouping
