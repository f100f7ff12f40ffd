import Verif.Model.FitStore
import Verif.Lemmas.Dict
import Verif.Lemmas.General
import Verif.Props.Variability

/-!
# C94, C95: fits that are stored in the database are restored by `load_fit`
-/

namespace RT1.FitStore
open General FitSpec

variable {κ ν ι : Type}

/-! ### lemmas -/

theorem unionCols_go (cols acc : List String) (hn : acc.Nodup) :
    (cols.foldl (fun acc c => if c ∈ acc then acc else acc ++ [c]) acc).Nodup ∧
    ∀ c, c ∈ cols.foldl (fun acc c => if c ∈ acc then acc else acc ++ [c]) acc ↔ c ∈ acc ∨ c ∈ cols := by
  induction cols generalizing acc with
  | nil => simp [hn]
  | cons x xs ih =>
    rw [List.foldl_cons]
    by_cases hx : x ∈ acc
    · rw [if_pos hx]
      refine ⟨(ih acc hn).1, fun c => ?_⟩
      rw [(ih acc hn).2 c, List.mem_cons]
      constructor
      · rintro (h | h) <;> simp [h]
      · rintro (h | rfl | h) <;> simp [*]
    · rw [if_neg hx]
      have hn' : (acc ++ [x]).Nodup := by
        rw [List.nodup_append]
        refine ⟨hn, by simp, ?_⟩
        intro a ha b hb
        rw [List.mem_singleton] at hb
        rintro rfl
        exact hx (hb ▸ ha)
      refine ⟨(ih _ hn').1, fun c => ?_⟩
      rw [(ih _ hn').2 c, List.mem_cons, List.mem_append, List.mem_singleton, or_assoc]

theorem unionCols_nodup (cols : List String) : (unionCols cols).Nodup := (unionCols_go cols [] List.nodup_nil).1

theorem mem_unionCols (cols : List String) (c : String) : c ∈ unionCols cols ↔ c ∈ cols := by
  have h := (unionCols_go cols [] List.nodup_nil).2 c
  unfold unionCols
  rw [h]; simp

theorem unionCols_stay (cols acc : List String) (h : ∀ c ∈ cols, c ∈ acc) :
    cols.foldl (fun acc c => if c ∈ acc then acc else acc ++ [c]) acc = acc := by
  induction cols generalizing acc with
  | nil => rfl
  | cons x xs ih =>
    rw [List.foldl_cons, if_pos (h x (by simp))]
    exact ih acc fun c hc => h c (by simp [hc])

theorem unionCols_new (cols acc : List String) (hn : cols.Nodup) (h : ∀ c ∈ cols, c ∉ acc) :
    cols.foldl (fun acc c => if c ∈ acc then acc else acc ++ [c]) acc = acc ++ cols := by
  induction cols generalizing acc with
  | nil => simp
  | cons x xs ih =>
    rw [List.nodup_cons] at hn
    rw [List.foldl_cons, if_neg (h x (by simp)), ih _ hn.2]
    · simp
    · intro c hc
      rw [List.mem_append, List.mem_singleton]
      rintro (h1 | rfl)
      · exact h c (by simp [hc]) h1
      · exact hn.1 hc

/-- The first frame determines the columns if it contains all columns. -/
theorem unionCols_first (K rest : List String) (hn : K.Nodup) (h : ∀ c ∈ rest, c ∈ K) : unionCols (K ++ rest) = K := by
  unfold unionCols
  rw [List.foldl_append, unionCols_new K [] hn (by simp), List.nil_append, unionCols_stay rest K h]

theorem nRows_spec (d : Dict String (List (Option ν))) (k : String) (l : List (Option ν)) (h : (k, l) ∈ d) :
    l.length ≤ nRows d := by
  induction d with
  | nil => simp at h
  | cons e d ih =>
    unfold nRows
    rw [List.foldr_cons]
    rcases List.mem_cons.mp h with rfl | h
    · exact le_max_left _ _
    · exact le_trans (ih h) (le_max_right _ _)

theorem filterMap_range (l : List (Option ν)) (m : Nat) (hm : l.length ≤ m) (hs : ∀ v ∈ l, v.isSome = true) :
    ((List.range m).filterMap fun n => (l[n]?).join).map some = l := by
  obtain ⟨j, rfl⟩ := Nat.exists_eq_add_of_le hm
  rw [List.range_add, List.filterMap_append]
  have h2 : ((List.range j).map (l.length + ·)).filterMap (fun n => (l[n]?).join) = [] := by
    rw [List.filterMap_eq_nil_iff]
    intro n hn
    obtain ⟨i, -, rfl⟩ := List.mem_map.mp hn
    rw [List.getElem?_eq_none (by omega)]; rfl
  rw [h2, List.append_nil]
  clear h2 hm j
  induction l using List.reverseRecOn with
  | nil => simp
  | append_singleton l v ih =>
    obtain ⟨x, rfl⟩ := Option.isSome_iff_exists.mp (hs v (by simp))
    rw [List.length_append, List.length_singleton, List.range_succ, List.filterMap_append, List.map_append]
    congr 1
    · have : (List.range l.length).filterMap (fun n => ((l ++ [some x])[n]?).join)
          = (List.range l.length).filterMap (fun n => (l[n]?).join) := by
        apply List.filterMap_congr
        intro n hn
        rw [List.mem_range] at hn
        rw [List.getElem?_append_left hn]
      rw [this, ih fun w hw => hs w (by simp [hw])]
    · simp

/-- The rows of one frame. -/
def frameRows (k : κ) (d : Dict String (List (Option ν))) : List (Row κ ν) :=
  (List.range (nRows d)).map fun n =>
    { key := k, n := n, cell := fun c => ((Dict.get? d c).bind fun l => l[n]?).join }

theorem colVals_frameRows (k : κ) (d : Dict String (List (Option ν))) (c : String) (l : List (Option ν))
    (h : Dict.get? d c = some l) (hs : ∀ v ∈ l, v.isSome = true) : colVals (frameRows k d) c = l := by
  unfold colVals frameRows
  rw [List.filterMap_map]
  have : ((fun r : Row κ ν => r.cell c) ∘ fun n =>
      { key := k, n := n, cell := fun c => ((Dict.get? d c).bind fun l => l[n]?).join })
      = fun n => (l[n]?).join := by
    funext n
    simp [h]
  rw [this]
  exact filterMap_range l _ (nRows_spec d c l (Dict.mem_of_get? h)) hs

/-- The rows of one key in a list of frames with distinct keys. -/
theorem filter_rows [DecidableEq κ] (fs : List (κ × Dict String (List (Option ν)))) (hn : (fs.map Prod.fst).Nodup)
    (k : κ) (d : Dict String (List (Option ν))) (h : (k, d) ∈ fs) :
    (fs.flatMap fun f => frameRows f.1 f.2).filter (fun r => decide (r.key = k)) = frameRows k d := by
  have hall : ∀ (f : κ × Dict String (List (Option ν))), f.1 = k →
      (frameRows f.1 f.2).filter (fun r => decide (r.key = k)) = frameRows f.1 f.2 := by
    intro f hf
    rw [List.filter_eq_self]
    intro r hr
    obtain ⟨n, -, rfl⟩ := List.mem_map.mp hr
    simpa using hf
  have hnone : ∀ (f : κ × Dict String (List (Option ν))), f.1 ≠ k →
      (frameRows f.1 f.2).filter (fun r => decide (r.key = k)) = [] := by
    intro f hf
    rw [List.filter_eq_nil_iff]
    intro r hr
    obtain ⟨n, -, rfl⟩ := List.mem_map.mp hr
    simpa using hf
  induction fs with
  | nil => simp at h
  | cons f fs ih =>
    rw [List.map_cons, List.nodup_cons] at hn
    rw [List.flatMap_cons, List.filter_append]
    rcases List.mem_cons.mp h with rfl | h
    · rw [hall _ rfl]
      have : (fs.flatMap fun f => frameRows f.1 f.2).filter (fun r => decide (r.key = k)) = [] := by
        rw [List.filter_eq_nil_iff]
        intro r hr
        obtain ⟨g, hg, hr⟩ := List.mem_flatMap.mp hr
        obtain ⟨n, -, rfl⟩ := List.mem_map.mp hr
        simp only [decide_eq_true_eq]
        intro hk
        exact hn.1 (List.mem_map.mpr ⟨g, hg, hk⟩)
      rw [this, List.append_nil]
    · have hf : f.1 ≠ k := by
        rintro hk
        exact hn.1 (List.mem_map.mpr ⟨(k, d), h, hk.symm⟩)
      rw [hnone f hf, List.nil_append, ih hn.2 h]

theorem mapM_ok_map {α β ε : Type} (f : α → Except ε β) (g : α → β) (l : List α) (h : ∀ a ∈ l, f a = .ok (g a)) :
    l.mapM f = .ok (l.map g) := by
  rw [mapM_ok_iff, List.forall₂_map_right_iff, List.forall₂_same]
  exact h

theorem resFrame_eq (k : κ) (d : Dict String (List (Option ν))) (h : d ≠ []) :
    resFrame k d = .ok { cols := d.keys, rows := frameRows k d } := by
  unfold resFrame
  rw [if_neg (by simpa using h)]
  rfl

theorem concatFrames_map {α : Type} (l : List α) (c : α → List String) (r : α → List (Row κ ν)) (h : l ≠ []) :
    concatFrames (l.map fun a => { cols := c a, rows := r a }) =
      .ok { cols := unionCols (l.flatMap c), rows := l.flatMap r } := by
  unfold concatFrames
  rw [if_neg (by simpa using h), List.flatMap_map, List.flatMap_map]

theorem frameRows_ne_nil (k : κ) (d : Dict String (List (Option ν))) (c : String) (l : List (Option ν)) (h : (c, l) ∈ d)
    (hl : l ≠ []) : (frameRows k d).isEmpty = false := by
  have h1 := nRows_spec d c l h
  have h2 := List.length_pos_of_ne_nil hl
  unfold frameRows
  rw [List.isEmpty_eq_false_iff, ne_eq, List.map_eq_nil_iff, List.range_eq_nil]
  omega

/-! ### C94 -/

/-- Results of a fit: at least one parameter, distinct names, at least one value for each parameter, and no NaN. -/
structure Complete (d : Dict String (List (Option ν))) : Prop where
  some_param : d ≠ []
  distinct : d.keys.Nodup
  values : ∀ k l, (k, l) ∈ d → l ≠ []
  no_nan : ∀ k l, (k, l) ∈ d → ∀ v ∈ l, v.isSome = true

/-- A database of `Fits` objects with the same fitted parameters (one configuration): the loaded `res_dict` is the stored one,
including the order of the parameters, for every number of values of each parameter. -/
theorem C94_single_partial [DecidableEq ι] (fits : List (ι × Dict String (List (Option ν)))) (hne : fits ≠ [])
    (hid : (fits.map Prod.fst).Nodup) (K : List String) (hK : ∀ f ∈ fits, f.2.keys = K)
    (hc : ∀ f ∈ fits, Complete f.2) :
    ∃ t, storeSingle fits = .ok t ∧ ∀ id d, (id, d) ∈ fits → loadSingle t id = .ok d := by
  have h1 : fits.mapM (fun f => resFrame f.1 f.2) = .ok (fits.map fun f => { cols := f.2.keys, rows := frameRows f.1 f.2 }) :=
    mapM_ok_map _ _ _ fun f hf => resFrame_eq f.1 f.2 (hc f hf).some_param
  have hcols : unionCols (fits.flatMap fun f => f.2.keys) = K := by
    cases fits with
    | nil => exact absurd rfl hne
    | cons f fs =>
      rw [List.flatMap_cons, hK f (by simp)]
      refine unionCols_first K _ (hK f (by simp) ▸ (hc f (by simp)).distinct) ?_
      intro c hcm
      obtain ⟨g, hg, hcm⟩ := List.mem_flatMap.mp hcm
      rwa [hK g (by simp [hg])] at hcm
  refine ⟨{ cols := K, rows := fits.flatMap fun f => frameRows f.1 f.2 }, ?_, ?_⟩
  · unfold storeSingle
    rw [h1]
    simp only [bind, Except.bind]
    rw [concatFrames_map _ _ _ hne, hcols]
  · intro id d hd
    have hC := hc (id, d) hd
    unfold loadSingle
    simp only
    rw [filter_rows fits hid id d hd]
    obtain ⟨⟨c, l⟩, hcl⟩ := List.exists_mem_of_ne_nil _ hC.some_param
    rw [if_neg (by rw [frameRows_ne_nil id d c l hcl (hC.values c l hcl)]; simp)]
    congr 1
    rw [← hK (id, d) hd]
    unfold Dict.keys
    rw [List.map_map]
    conv_rhs => rw [← List.map_id d]
    apply List.map_congr_left
    rintro ⟨c, l⟩ hcl
    have hg : Dict.get? d c = some l := (Dict.get?_iff_mem hC.distinct _ _).mpr hcl
    simp only [Function.comp, _root_.id]
    rw [colVals_frameRows _ d c l hg (hC.no_nan c l hcl)]

/-- A monthly and a daily parameter: the shorter list is filled with NaN in the table and restored. -/
example : Complete [("a", [some 1]), ("b", [some 2, some 3, some (4 : Nat)])] ∧
    (do loadSingle (← storeSingle [((7 : Nat), [("a", [some 1]), ("b", [some 2, some 3, some (4 : Nat)])]),
      (8, [("a", [some 5, some 6]), ("b", [some 9])])]) 8) = .ok [("a", [some 5, some 6]), ("b", [some 9])] := by
  refine ⟨⟨by decide, by decide, ?_, ?_⟩, by decide +kernel⟩
  · rintro k l h
    simp at h
    rcases h with ⟨_, rfl⟩ | ⟨_, rfl⟩ <;> simp
  · rintro k l h
    simp at h
    rcases h with ⟨_, rfl⟩ | ⟨_, rfl⟩ <;> simp

/-- The table of a database of `MultiFits` objects. -/
theorem storeMulti_eq (fits : List (ι × List (String × Dict String (List (Option ν))))) (hne : fits ≠ [])
    (hcf : ∀ f ∈ fits, f.2 ≠ []) (hc : ∀ f ∈ fits, ∀ c ∈ f.2, Complete c.2) :
    storeMulti fits = .ok
      { cols := unionCols (fits.flatMap fun f => unionCols (f.2.flatMap fun c => c.2.keys))
        rows := (fits.flatMap fun f => f.2.map fun c => ((f.1, c.1), c.2)).flatMap fun g => frameRows g.1 g.2 } := by
  have h1 : fits.mapM (fun f => multiFrame f.1 f.2) = .ok (fits.map fun f =>
      { cols := unionCols (f.2.flatMap fun c => c.2.keys), rows := f.2.flatMap fun c => frameRows (f.1, c.1) c.2 }) := by
    apply mapM_ok_map
    intro f hf
    unfold multiFrame
    rw [mapM_ok_map (fun c : String × Dict String (List (Option ν)) => resFrame (f.1, c.1) c.2)
      (fun c => { cols := c.2.keys, rows := frameRows (f.1, c.1) c.2 }) f.2
      (fun c hcm => resFrame_eq _ _ (hc f hf c hcm).some_param)]
    simp only [bind, Except.bind]
    rw [concatFrames_map _ _ _ (hcf f hf)]
  unfold storeMulti
  rw [h1]
  simp only [bind, Except.bind]
  rw [concatFrames_map _ _ _ hne, List.flatMap_assoc]
  congr 3
  funext f
  rw [List.flatMap_map]

theorem nodup_pairs (fits : List (ι × List (String × Dict String (List (Option ν))))) (hid : (fits.map Prod.fst).Nodup)
    (hcn : ∀ f ∈ fits, (f.2.map Prod.fst).Nodup) :
    ((fits.flatMap fun f => f.2.map fun c => ((f.1, c.1), c.2)).map Prod.fst).Nodup := by
  induction fits with
  | nil => simp
  | cons f fs ih =>
    rw [List.map_cons, List.nodup_cons] at hid
    rw [List.flatMap_cons, List.map_append, List.nodup_append]
    refine ⟨?_, ih hid.2 fun g hg => hcn g (by simp [hg]), ?_⟩
    · rw [List.map_map]
      have h := hcn f (by simp)
      have : (Prod.fst ∘ fun c : String × Dict String (List (Option ν)) => ((f.1, c.1), c.2))
          = (fun s => (f.1, s)) ∘ Prod.fst := rfl
      rw [this, ← List.map_map]
      exact h.map fun a b hab => (Prod.mk.inj hab).2
    · rintro a ha b hb rfl
      obtain ⟨x, hx, rfl⟩ := List.mem_map.mp ha
      obtain ⟨c, -, rfl⟩ := List.mem_map.mp hx
      obtain ⟨y, hy, hxy⟩ := List.mem_map.mp hb
      obtain ⟨g, hg, hy⟩ := List.mem_flatMap.mp hy
      obtain ⟨c', -, rfl⟩ := List.mem_map.mp hy
      exact hid.1 (List.mem_map.mpr ⟨g, hg, (Prod.mk.inj hxy).1⟩)

theorem any_frameRows (k : κ) (d : Dict String (List (Option ν))) (hC : Complete d) (c : String) :
    ((frameRows k d).any fun r => (r.cell c).isSome) = true ↔ c ∈ d.keys := by
  constructor
  · intro h
    rw [List.any_eq_true] at h
    obtain ⟨r, hr, h⟩ := h
    obtain ⟨n, -, rfl⟩ := List.mem_map.mp hr
    by_contra hk
    rw [← Dict.get?_eq_none] at hk
    simp [hk] at h
  · intro h
    obtain ⟨⟨c', l⟩, hcl, rfl⟩ := List.mem_map.mp h
    have hg : Dict.get? d c' = some l := (Dict.get?_iff_mem hC.distinct _ _).mpr hcl
    have hl := hC.values c' l hcl
    have hv := colVals_frameRows k d c' l hg (hC.no_nan c' l hcl)
    by_contra hno
    rw [Bool.not_eq_true, List.any_eq_false] at hno
    apply hl
    rw [← hv]
    unfold colVals
    rw [List.map_eq_nil_iff, List.filterMap_eq_nil_iff]
    intro r hr
    have := hno r hr
    simpa using this

/-- The loaded results of one configuration. -/
theorem loadMulti_eq [DecidableEq ι] (fits : List (ι × List (String × Dict String (List (Option ν)))))
    (hid : (fits.map Prod.fst).Nodup) (hcn : ∀ f ∈ fits, (f.2.map Prod.fst).Nodup)
    (hc : ∀ f ∈ fits, ∀ c ∈ f.2, Complete c.2) (cols : List String)
    (id : ι) (cfgs : List (String × Dict String (List (Option ν)))) (hf : (id, cfgs) ∈ fits) (cfg : String)
    (d : Dict String (List (Option ν))) (hd : (cfg, d) ∈ cfgs) :
    loadMulti { cols := cols
                rows := (fits.flatMap fun f => f.2.map fun c => ((f.1, c.1), c.2)).flatMap fun g => frameRows g.1 g.2 } id cfg =
      .ok ((cols.filter fun c => decide (c ∈ d.keys)).map fun c => (c, (Dict.get? d c).getD [])) := by
  have hC := hc (id, cfgs) hf (cfg, d) hd
  have hmem : ((id, cfg), d) ∈ fits.flatMap fun f => f.2.map fun c => ((f.1, c.1), c.2) :=
    List.mem_flatMap.mpr ⟨(id, cfgs), hf, List.mem_map.mpr ⟨(cfg, d), hd, rfl⟩⟩
  unfold loadMulti
  simp only
  rw [filter_rows _ (nodup_pairs fits hid hcn) (id, cfg) d hmem]
  obtain ⟨⟨c, l⟩, hcl⟩ := List.exists_mem_of_ne_nil _ hC.some_param
  rw [if_neg (by rw [frameRows_ne_nil (id, cfg) d c l hcl (hC.values c l hcl)]; simp)]
  congr 1
  have hfil : (cols.filter fun c => (frameRows (id, cfg) d).any fun r => (r.cell c).isSome)
      = cols.filter fun c => decide (c ∈ d.keys) := by
    apply List.filter_congr
    intro c _
    rw [Bool.eq_iff_iff, any_frameRows _ d hC, decide_eq_true_eq]
  rw [hfil]
  apply List.map_congr_left
  intro c hcm
  have hk : c ∈ d.keys := by simpa using (List.mem_filter.mp hcm).2
  obtain ⟨⟨c', l⟩, hcl, rfl⟩ := List.mem_map.mp hk
  have hg : Dict.get? d c' = some l := (Dict.get?_iff_mem hC.distinct _ _).mpr hcl
  rw [colVals_frameRows _ d c' l hg (hC.no_nan c' l hcl), hg]
  rfl

/-- A database of `MultiFits` objects: the loaded `res_dict` of each configuration has exactly the stored parameters with
exactly the stored values, up to the order of the parameters.  Different configurations may have different parameters and
different numbers of values. -/
theorem C94_multi_partial [DecidableEq ι] (fits : List (ι × List (String × Dict String (List (Option ν))))) (hne : fits ≠ [])
    (hid : (fits.map Prod.fst).Nodup) (hcf : ∀ f ∈ fits, f.2 ≠ []) (hcn : ∀ f ∈ fits, (f.2.map Prod.fst).Nodup)
    (hc : ∀ f ∈ fits, ∀ c ∈ f.2, Complete c.2) :
    ∃ t, storeMulti fits = .ok t ∧ ∀ id cfgs, (id, cfgs) ∈ fits → ∀ cfg d, (cfg, d) ∈ cfgs →
      ∃ d', loadMulti t id cfg = .ok d' ∧ d'.Perm d := by
  refine ⟨_, storeMulti_eq fits hne hcf hc, ?_⟩
  intro id cfgs hf cfg d hd
  refine ⟨_, loadMulti_eq fits hid hcn hc _ id cfgs hf cfg d hd, ?_⟩
  have hC := hc (id, cfgs) hf (cfg, d) hd
  set cols := unionCols (fits.flatMap fun f => unionCols (f.2.flatMap fun c => c.2.keys)) with hcols
  have hsub : ∀ c ∈ d.keys, c ∈ cols := by
    intro c hck
    rw [hcols, mem_unionCols, List.mem_flatMap]
    refine ⟨(id, cfgs), hf, ?_⟩
    rw [mem_unionCols, List.mem_flatMap]
    exact ⟨(cfg, d), hd, hck⟩
  have hperm : (cols.filter fun c => decide (c ∈ d.keys)).Perm d.keys := by
    rw [List.perm_ext_iff_of_nodup ((unionCols_nodup _).filter _) hC.distinct]
    intro c
    rw [List.mem_filter, decide_eq_true_eq]
    exact ⟨fun h => h.2, fun h => ⟨hsub c h, h⟩⟩
  have h2 := hperm.map fun c => (c, (Dict.get? d c).getD [])
  refine h2.trans ?_
  unfold Dict.keys
  rw [List.map_map]
  have : d.map ((fun c => (c, (Dict.get? d c).getD [])) ∘ Prod.fst) = d := by
    conv_rhs => rw [← List.map_id d]
    apply List.map_congr_left
    rintro ⟨c, l⟩ hcl
    have hg : Dict.get? d c = some l := (Dict.get?_iff_mem hC.distinct _ _).mpr hcl
    simp [hg]
  rw [this]

/-- If every configuration fits (in the same order) some of the parameters of the first configuration of the first stored fit,
the order is restored too. -/
theorem C94_multi_order_partial [DecidableEq ι] (id₀ : ι) (cfg₀ : String) (d₀ : Dict String (List (Option ν)))
    (cfgs₀ : List (String × Dict String (List (Option ν))))
    (fits : List (ι × List (String × Dict String (List (Option ν)))))
    (hid : (((id₀, (cfg₀, d₀) :: cfgs₀) :: fits).map Prod.fst).Nodup)
    (hcf : ∀ f ∈ (id₀, (cfg₀, d₀) :: cfgs₀) :: fits, f.2 ≠ [])
    (hcn : ∀ f ∈ (id₀, (cfg₀, d₀) :: cfgs₀) :: fits, (f.2.map Prod.fst).Nodup)
    (hc : ∀ f ∈ (id₀, (cfg₀, d₀) :: cfgs₀) :: fits, ∀ c ∈ f.2, Complete c.2)
    (hord : ∀ f ∈ (id₀, (cfg₀, d₀) :: cfgs₀) :: fits, ∀ c ∈ f.2, c.2.keys.Sublist d₀.keys) :
    ∃ t, storeMulti ((id₀, (cfg₀, d₀) :: cfgs₀) :: fits) = .ok t ∧
      ∀ id cfgs, (id, cfgs) ∈ (id₀, (cfg₀, d₀) :: cfgs₀) :: fits → ∀ cfg d, (cfg, d) ∈ cfgs → loadMulti t id cfg = .ok d := by
  refine ⟨_, storeMulti_eq _ (by simp) hcf hc, ?_⟩
  intro id cfgs hf cfg d hd
  rw [loadMulti_eq _ hid hcn hc _ id cfgs hf cfg d hd]
  have hC := hc (id, cfgs) hf (cfg, d) hd
  have hC0 := hc (id₀, (cfg₀, d₀) :: cfgs₀) (by simp) (cfg₀, d₀) (by simp)
  have hin : unionCols (((cfg₀, d₀) :: cfgs₀).flatMap fun c => c.2.keys) = d₀.keys := by
    rw [List.flatMap_cons]
    refine unionCols_first _ _ hC0.distinct ?_
    intro c hcm
    obtain ⟨g, hg, hcm⟩ := List.mem_flatMap.mp hcm
    exact (hord (id₀, (cfg₀, d₀) :: cfgs₀) (by simp) g (by simp [hg])).subset hcm
  have hcols : unionCols (((id₀, (cfg₀, d₀) :: cfgs₀) :: fits).flatMap fun f => unionCols (f.2.flatMap fun c => c.2.keys))
      = d₀.keys := by
    rw [List.flatMap_cons, hin]
    refine unionCols_first _ _ hC0.distinct ?_
    intro c hcm
    obtain ⟨g, hg, hcm⟩ := List.mem_flatMap.mp hcm
    rw [mem_unionCols] at hcm
    obtain ⟨e, he, hcm⟩ := List.mem_flatMap.mp hcm
    exact (hord g (by simp [hg]) e he).subset hcm
  rw [hcols]
  have hfil : d₀.keys.filter (fun c => decide (c ∈ d.keys)) = d.keys := by
    have hs := hord (id, cfgs) hf (cfg, d) hd
    have h1 := hC0.distinct
    clear hcols hin hord hC0 hc hcn hcf hid hf
    revert hs h1
    generalize d₀.keys = L
    generalize d.keys = M
    intro hs h1
    induction hs with
    | slnil => rfl
    | cons a hs ih =>
      rw [List.nodup_cons] at h1
      rw [List.filter_cons_of_neg (by simpa using fun h => h1.1 (hs.subset h))]
      exact ih h1.2
    | @cons_cons l₁ l₂ a hs ih =>
      rw [List.nodup_cons] at h1
      rw [List.filter_cons_of_pos (by simp)]
      congr 1
      conv_rhs => rw [← ih h1.2]
      apply List.filter_congr
      intro x hx
      have : x ≠ a := by rintro rfl; exact h1.1 hx
      simp [this]
  rw [hfil]
  unfold Dict.keys
  rw [List.map_map]
  congr 1
  conv_rhs => rw [← List.map_id d]
  apply List.map_congr_left
  rintro ⟨c, l⟩ hcl
  have hg : Dict.get? d c = some l := (Dict.get?_iff_mem hC.distinct _ _).mpr hcl
  simp [hg]

/-- Two configurations, the second one without the parameter `b`. -/
example : (do
    let t ← storeMulti [((0 : Nat), [("c", [("a", [some (1 : Nat)]), ("b", [some 2, some 3])]), ("d", [("a", [some 4])])])]
    loadMulti t 0 "d") = .ok [("a", [some 4])] := by decide +kernel

/-- The order of the parameters of a configuration is not restored in general: the columns of all configurations are merged in
the order of appearance. -/
theorem C94_order_fails : ∃ (fits : List (Nat × List (String × Dict String (List (Option Nat))))) (d : Dict String (List (Option Nat))),
    (∀ f ∈ fits, ∀ c ∈ f.2, Complete c.2) ∧ (∃ f ∈ fits, (("cfg_1", d) : String × _) ∈ f.2) ∧
    (do loadMulti (← storeMulti fits) 0 "cfg_1") ≠ .ok d ∧
    (do loadMulti (← storeMulti fits) 0 "cfg_1") = .ok d.reverse := by
  refine ⟨[(0, [("cfg_0", [("a", [some 1])]), ("cfg_1", [("b", [some 2]), ("a", [some 3])])])],
    [("b", [some 2]), ("a", [some 3])], ?_, ?_, ?_, ?_⟩
  · intro f hf c hc
    rw [List.mem_singleton] at hf
    subst hf
    simp only [List.mem_cons, List.not_mem_nil, or_false] at hc
    rcases hc with rfl | rfl
    · exact ⟨by decide, by decide, by simp, by simp⟩
    · refine ⟨by decide, by decide, ?_, ?_⟩
      · rintro k l h
        simp at h
        rcases h with ⟨_, rfl⟩ | ⟨_, rfl⟩ <;> simp
      · rintro k l h
        simp at h
        rcases h with ⟨_, rfl⟩ | ⟨_, rfl⟩ <;> simp
  · exact ⟨_, List.mem_singleton.mpr rfl, by simp⟩
  · decide +kernel
  · decide +kernel

/-- NaN values are removed, so that the following values of the parameter move to the wrong group. -/
theorem C94_nan_fails : ∃ (d : Dict String (List (Option Nat))),
    (do loadSingle (← storeSingle [(0, d)]) 0) = .ok [("a", [some 1, some 3])] ∧ d = [("a", [some 1, none, some 3])] :=
  ⟨[("a", [some 1, none, some 3])], by decide +kernel, rfl⟩

/-- If one configuration has no fitted parameter, the results of no configuration are stored. -/
theorem C94_empty_fails : storeMulti [((0 : Nat), [("cfg_0", [("a", [some (1 : Nat)])]), ("cfg_1", [])])] = .error .valueError := by
  rfl

/-! ### C95 -/

theorem foldlM_congr_mem {α β ε : Type} (f g : β → α → Except ε β) (l : List α) (h : ∀ b, ∀ a ∈ l, f b a = g b a) (b : β) :
    l.foldlM f b = l.foldlM g b := by
  induction l generalizing b with
  | nil => rfl
  | cons a l ih =>
    rw [List.foldlM_cons, List.foldlM_cons, h b a (by simp)]
    congr 1
    funext x
    exact ih (fun b a ha => h b a (by simp [ha])) x

theorem collectFitted_congr {β : Type} (g : ParamDef → Except PyErr (Option β)) (f : String × ParamDef → String × ParamDef)
    (defs : List (String × ParamDef)) (h : ∀ kd ∈ defs, (f kd).1 = kd.1 ∧ (f kd).2.fit = kd.2.fit ∧
      (kd.2.fit = true → g (f kd).2 = g kd.2)) : collectFitted g (defs.map f) = collectFitted g defs := by
  unfold collectFitted
  rw [List.foldlM_map]
  apply foldlM_congr_mem
  intro acc kd hkd
  have h0 := h kd hkd
  rw [h0.1, h0.2.1]
  by_cases hf : kd.2.fit = true
  · rw [if_pos hf, if_pos hf, h0.2.2 hf]
  · rw [if_neg hf, if_neg hf]

/-- Loading with the columns that are needed gives the same groups. -/
theorem paramDynDict_loadDefs {τ : Type} [DecidableEq τ] (lib : Lib τ) (index : List τ) (s : List String)
    (defs : List (String × ParamDef))
    (h : ∀ k p, (k, p) ∈ defs → p.fit = true → p.col ≠ none → manualDyn lib index p.col p.freq ≠ manualDyn lib index none p.freq →
      k ∈ s) :
    paramDynDict lib index (loadDefs s defs) = paramDynDict lib index defs := by
  have hfit : ((loadDefs s defs).filter fun kd => kd.2.fit).map Prod.fst = (defs.filter fun kd => kd.2.fit).map Prod.fst := by
    unfold loadDefs
    induction defs with
    | nil => rfl
    | cons kd ds ih =>
      have ih' := ih fun k p hkp => h k p (by simp [hkp])
      rw [List.map_cons]
      by_cases hf : kd.2.fit = true
      · rw [List.filter_cons_of_pos (by simpa using hf), List.filter_cons_of_pos (by simpa using hf), List.map_cons, List.map_cons,
          ih']
      · rw [List.filter_cons_of_neg (by simpa using hf), List.filter_cons_of_neg (by simpa using hf), ih']
  have hts : timescaleDict lib (loadDefs s defs) = timescaleDict lib defs := by
    unfold timescaleDict loadDefs
    apply collectFitted_congr
    intro kd _
    exact ⟨rfl, rfl, fun _ => rfl⟩
  have hman : manualDict lib index (loadDefs s defs) = manualDict lib index defs := by
    unfold manualDict loadDefs
    apply collectFitted_congr
    intro kd hkd
    refine ⟨rfl, rfl, fun hf => ?_⟩
    dsimp only
    split_ifs with hin
    · rfl
    · by_contra hne
      by_cases hcol : kd.2.col = none
      · rw [hcol] at hne; exact hne rfl
      · exact hin (h kd.1 kd.2 hkd hf hcol fun he => hne he.symm)
  have hst : freqStage lib index (loadDefs s defs) = freqStage lib index defs := by
    unfold freqStage
    rw [hfit, hts]
  unfold paramDynDict
  rw [hst, hman]

/-- With `save_data=True` the loaded fit has the same groups. -/
theorem C95_data {τ : Type} [DecidableEq τ] (lib : Lib τ) (index : List τ) (saveResults : Bool) (defs : List (String × ParamDef)) :
    loadedDyn lib index (storedDyn true saveResults defs) defs = paramDynDict lib index defs ∧
    loadedDyn lib index (storedDynMulti true saveResults defs) defs = paramDynDict lib index defs := by
  have h : paramDynDict lib index (loadDefs ((defs.filter fun kd => kd.2.col.isSome).map Prod.fst) defs) =
      paramDynDict lib index defs := by
    apply paramDynDict_loadDefs
    intro k p hkp _ hcol _
    exact List.mem_map.mpr ⟨(k, p), List.mem_filter.mpr ⟨hkp, by simpa [Option.isSome_iff_ne_none] using hcol⟩, rfl⟩
  exact ⟨h, h⟩

/-- Without `save_data`: if at least one fitted parameter is defined as `"manual"` and the column is used for no other definition,
the loaded fit has the same groups.  (Missing: `"D + manual"`, fits without `"manual"`, and `MultiFits`, see below.) -/
theorem C95_results_partial {τ : Type} [DecidableEq τ] (lib : Lib τ) (hl : LibOk lib) (index : List τ)
    (defs : List (String × ParamDef))
    (hm : ∃ k p, (k, p) ∈ defs ∧ p.fit = true ∧ p.freq = .str manualStr)
    (hex : ∀ k p, (k, p) ∈ defs → p.fit = true → ∃ t m, Means lib p.freq t m ∧ (m = .column → p.freq = .str manualStr)) :
    loadedDyn lib index (storedDyn false true defs) defs = paramDynDict lib index defs := by
  obtain ⟨k0, p0, h0, hf0, hq0⟩ := hm
  have hmem : k0 ∈ (defs.filter fun kd => needsCol kd.2).map Prod.fst :=
    List.mem_map.mpr ⟨(k0, p0), List.mem_filter.mpr ⟨h0, by simp [needsCol, hf0, hq0]⟩, rfl⟩
  have hst : storedDyn false true defs = some ((defs.filter fun kd => needsCol kd.2).map Prod.fst) := by
    unfold storedDyn appendCols
    rw [if_neg (by simp), if_pos rfl, if_neg]
    rw [List.isEmpty_iff]
    exact List.ne_nil_of_mem hmem
  rw [hst]
  unfold loadedDyn
  dsimp only
  apply paramDynDict_loadDefs
  intro k p hkp hf _ hne
  obtain ⟨t, m, hM, hcolumn⟩ := hex k p hkp hf
  rw [(C88_meaning lib hl index p.col p.freq t m hM).2, (C88_meaning lib hl index none p.freq t m hM).2] at hne
  have hmc : m = .column := by
    cases m with
    | no => exact absurd rfl hne
    | index => exact absurd rfl hne
    | column => rfl
  exact List.mem_map.mpr ⟨(k, p), List.mem_filter.mpr ⟨hkp, by simp [needsCol, hf, hcolumn hmc]⟩, rfl⟩

/-- A `"manual"` and a daily parameter. -/
example : loadedDyn exampleLib [0, 30] (storedDyn false true
    [("a", ⟨true, .str manualStr, some [1, 2]⟩), ("b", ⟨true, .str ['D'], some [5, 5]⟩), ("c", ⟨false, .none, none⟩)])
    [("a", ⟨true, .str manualStr, some [1, 2]⟩), ("b", ⟨true, .str ['D'], some [5, 5]⟩), ("c", ⟨false, .none, none⟩)]
    = .ok [("a", [11, 12]), ("b", [0, 1])] := by decide +kernel

/-- `"D + manual"` needs the column, but it is not stored. -/
theorem C95_superimposed_fails : ∃ (defs : List (String × ParamDef)) (r : Dict String (List Int)),
    paramDynDict exampleLib [0, 30] defs = .ok r ∧
    loadedDyn exampleLib [0, 30] (storedDyn false true defs) defs = .error .assertionError := by
  refine ⟨[("a", ⟨true, .str manualStr, some [1, 1]⟩),
    ("b", ⟨true, .str ['D', '+', 'm', 'a', 'n', 'u', 'a', 'l'], some [1, 2]⟩)], [("a", [11, 11]), ("b", [1, 12])], ?_, ?_⟩
  · decide +kernel
  · decide +kernel

/-- Without any `"manual"` the stored dataset would have no columns; then nothing is stored and the index is lost. -/
theorem C95_index_fails : ∃ (defs : List (String × ParamDef)) (r : Dict String (List Int)),
    paramDynDict exampleLib [0, 30] defs = .ok r ∧
    loadedDyn exampleLib [0, 30] (storedDyn false true defs) defs = .error .attributeError := by
  refine ⟨[("a", ⟨true, .str ['D'], none⟩)], [("a", [0, 1])], ?_, ?_⟩
  · decide +kernel
  · decide +kernel

/-- For `MultiFits` objects the dataset is never stored without `save_data`. -/
theorem C95_multi_fails (defs : List (String × ParamDef)) (index : List Nat) :
    loadedDyn exampleLib index (storedDynMulti false true defs) defs = .error .attributeError := rfl

end RT1.FitStore
