import Verif.Model.ExportTables
import Verif.Props.Export

/-!
# The exported tables (C116)
-/

namespace RT1
namespace ExportTables
open Export (groupOf Group)

/-! ## Specification -/

/-- What is expected for a requested parameter: a time series or a single value. -/
inductive Expect
  | series (s : Series)
  | value (v : SVal)

/-- The results of the model. -/
def modelNames : List String := ["tot", "surf", "vol", "inter"]

def column (F : Frame) (k : String) : Option Expect := (Dict.get? F.cols k).map fun v => .series ⟨F.idx, v⟩

def single : Arg → Option Expect
  | .scalar v => some (.value v)
  | .list [v] => some (.value v)
  | .list _ => none

/-- The values of a parameter without export function. -/
def default (f : Fit) (k : String) : Option Expect :=
  if k = "sig" then column f.dataset k
  else match f.defdict.get? k with
    | some e =>
      match groupOf e with
      | .fittedDynamic => column f.resDf k
      | .auxiliary => column f.dataset k
      | .fittedConst => ((f.resDict.get? k).bind List.head?).map fun x => .value (.num x)
      | .constant => none
    | none =>
      match column f.dataset k with
      | some x => some x
      | none => (f.readerArg.get? k).bind single

/-- The values of the model results. -/
def modelSeries (f : Fit) (k : String) : Option Expect :=
  match f.model with
  | .ok F => column F k
  | .error _ => none

/-- The expected values of a requested parameter; none: it cannot be exported. -/
def wanted (fns : Dict String Fn) (f : Fit) (k : String) : Option Expect :=
  match Dict.get? fns k with
  | some g =>
    match g f with
    | .ok (.scalar x) => some (.value (.num x))
    | .ok (.obj (.series s)) => some (.series s)
    | _ => none
  | none => if k ∈ modelNames then modelSeries f k else default f k

/-- The series is a column of the dynamic table, with the number of the fit as label. -/
def HasSeries (r : Ret) (num : Nat) (k : String) (s : Series) : Prop :=
  ∃ F v, r.dynamic = some ([("ID", (num : ℤ))], F) ∧ (k, v) ∈ F.cols ∧
    ∀ t, cellAt F.idx v t = cellAt s.idx s.vals t ∧ (t ∈ s.idx → t ∈ F.idx)

/-- The value is in the static table, with the number of the fit as label. -/
def HasValue (r : Ret) (num : Nat) (k : String) (v : SVal) : Prop :=
  ∃ d, r.static = some ([("ID", (num : ℤ))], d) ∧ d.get? k = some v

/-- The dynamic table contains nothing else: each column is one of the requested parameters, and each row is a row of one of them. -/
def OnlySeries (r : Ret) (want : String → Option Expect) (parameters : List String) : Prop :=
  ∀ L F, r.dynamic = some (L, F) → F.names.Nodup ∧ F.idx.Nodup ∧
    (∀ k ∈ F.names, k ∈ parameters ∧ ∃ s, want k = some (.series s)) ∧
    ∀ t ∈ F.idx, ∃ k ∈ parameters, ∃ s, want k = some (.series s) ∧ t ∈ s.idx

/-- The static table contains nothing else. -/
def OnlyValues (r : Ret) (want : String → Option Expect) (parameters : List String) : Prop :=
  ∀ L d, r.static = some (L, d) → d.keys.Nodup ∧ ∀ k ∈ d.keys, k ∈ parameters ∧ ∃ v, want k = some (.value v)

/-- The value of a metric. -/
inductive MetricIs (fns : Dict String Fn) (f : Fit) : String × MSpec → ℝ → Prop
  | custom (name : String) (g : Fn) (x : ℝ) : Dict.get? fns name = some g → g f = .ok (.scalar x) → MetricIs fns f (name, .custom) x
  | triple (name m d1 d2 : String) (x : ℝ) : f.metric m.toLower d1 d2 = .ok (.num x) → MetricIs fns f (name, .triple m d1 d2) x

/-! ## Lemmas on tables -/

theorem cellAt_none {idx : List ℤ} {v : List (Option ℝ)} {t : ℤ} (h : t ∉ idx) : cellAt idx v t = none := by
  unfold cellAt
  rw [List.find?_eq_none.2]
  intro e he hd
  exact h (by rw [← of_decide_eq_true hd]; exact (List.of_mem_zip he).1)

theorem cellAt_map (u : List ℤ) (g : ℤ → Option ℝ) (t : ℤ) : cellAt u (u.map g) t = if t ∈ u then g t else none := by
  induction u with
  | nil => rfl
  | cons a u ih =>
    unfold cellAt at ih ⊢
    rw [List.map_cons, List.zip_cons_cons, List.find?_cons]
    by_cases h : a = t
    · subst h; simp
    · have h' : t ≠ a := fun e => h e.symm
      simp only [h, decide_false, ih, List.mem_cons, h', false_or]

theorem cellAt_reindex {u idx : List ℤ} {v : List (Option ℝ)} (h : ∀ t ∈ idx, t ∈ u) (t : ℤ) :
    cellAt u (u.map (cellAt idx v)) t = cellAt idx v t := by
  rw [cellAt_map]
  split_ifs with h1
  · rfl
  · exact (cellAt_none fun h2 => h1 (h t h2)).symm

theorem join_spec (odd : List Frame → Except PyErr Frame) (fs : List Frame) (hne : fs ≠ []) (hn : ∀ G ∈ fs, G.idx.Nodup) :
    ∃ F, joinFrames odd fs = .ok F ∧ F.names = fs.flatMap Frame.names ∧ F.idx.Nodup ∧
      (∀ t, t ∈ F.idx ↔ ∃ G ∈ fs, t ∈ G.idx) ∧
      ∀ G ∈ fs, ∀ c ∈ G.cols, ∃ v, (c.1, v) ∈ F.cols ∧ ∀ t, cellAt F.idx v t = cellAt G.idx c.2 t := by
  cases fs with
  | nil => exact absurd rfl hne
  | cons F fs =>
    dsimp only [joinFrames]
    by_cases h : ∀ G ∈ fs, G.idx = F.idx
    · rw [if_pos h]
      have h' : ∀ G ∈ F :: fs, G.idx = F.idx := by
        intro G hG
        rcases List.mem_cons.1 hG with rfl | hG
        · rfl
        · exact h G hG
      refine ⟨_, rfl, ?_, hn F List.mem_cons_self, fun t => ?_, fun G hG c hc => ?_⟩
      · simp only [Frame.names, List.map_flatMap]
        rfl
      · constructor
        · exact fun ht => ⟨F, List.mem_cons_self, ht⟩
        · rintro ⟨G, hG, ht⟩
          rw [h' G hG] at ht
          exact ht
      · exact ⟨c.2, List.mem_flatMap.2 ⟨G, hG, hc⟩, fun t => by rw [h' G hG]⟩
    · rw [if_neg h, if_pos hn]
      have hu : ∀ t, t ∈ union (F :: fs) ↔ ∃ G ∈ F :: fs, t ∈ G.idx := by
        intro t
        unfold union
        rw [List.mem_dedup, List.mem_flatMap]
      refine ⟨_, rfl, ?_, List.nodup_dedup _, hu, fun G hG c hc => ?_⟩
      · simp only [Frame.names, List.map_flatMap, List.map_map]
        rfl
      · exact ⟨(reindex (union (F :: fs)) G.idx c).2, List.mem_flatMap.2 ⟨G, hG, List.mem_map.2 ⟨c, hc, rfl⟩⟩,
          cellAt_reindex fun t ht => (hu t).2 ⟨G, hG, ht⟩⟩

/-! ## Lemmas on `_postprocess_getparams` -/

theorem column_some {F : Frame} {k : String} {x : Expect} (h : column F k = some x) : ∃ v, Dict.get? F.cols k = some v ∧ x = .series ⟨F.idx, v⟩ := by
  unfold column at h
  cases hg : Dict.get? F.cols k with
  | none => rw [hg] at h; cases h
  | some v => rw [hg] at h; cases h; exact ⟨v, rfl, rfl⟩

theorem series_of_get? {F : Frame} {k : String} {v : List (Option ℝ)} (h : Dict.get? F.cols k = some v) : F.series k = .ok ⟨F.idx, v⟩ := by
  unfold Frame.series
  rw [h]

theorem argCell_single {k : String} {a : Arg} {x : Expect} (h : single a = some x) : ∃ v, x = .value v ∧ argCell (k, a) = .ok (k, v) := by
  cases a with
  | scalar v => cases h; exact ⟨v, rfl, rfl⟩
  | list l =>
    match l with
    | [] => cases h
    | [v] => cases h; exact ⟨v, rfl, rfl⟩
    | _ :: _ :: _ => cases h

/-- The effect of one iteration. -/
def Effect (f : Fit) (k : String) : Expect → Prop
  | .series s => ∀ acc : Acc, paramStep f false false acc k = .ok { acc with dfs := acc.dfs ++ [s.named k] }
  | .value v => ∃ a, argCell (k, a) = .ok (k, v) ∧ ∀ acc : Acc, paramStep f false false acc k = .ok { acc with statics := acc.statics.set k a }

theorem source_sig (f : Fit) : Export.source f.info false false "sig" = some .dataset := by
  simp [Export.source]

theorem source_other (f : Fit) {k : String} (h1 : k ≠ "sig") (h2 : k ∉ f.defdict.keys) :
    Export.source f.info false false k = if k ∈ f.dataset.names then some .dataset else if k ∈ f.readerArg.keys then some .readerArg else none := by
  have h2' : k ∉ f.info.defdict.keys := h2
  unfold Export.source
  simp only [h1, if_false, Bool.false_eq_true, and_false, h2']
  rfl

theorem effect (f : Fit) (hd : f.defdict.keys.Nodup) (k : String) (x : Expect) (h : default f k = some x) : Effect f k x := by
  unfold default at h
  have hcol : ∀ F : Frame, column F k = some x → (∀ acc : Acc, paramStep f false false acc k = acc.addSeries k (F.series k)) → Effect f k x := by
    intro F hc hp
    obtain ⟨v, hv, rfl⟩ := column_some hc
    intro acc
    rw [hp, series_of_get? hv]
    rfl
  by_cases h1 : k = "sig"
  · subst h1
    rw [if_pos rfl] at h
    exact hcol _ h fun acc => by unfold paramStep; rw [source_sig]
  rw [if_neg h1] at h
  cases hg : f.defdict.get? k with
  | some e =>
    rw [hg] at h
    have hs := Export.source_definition f.info hd false false k e (Dict.mem_of_get? hg) h1 (.inr rfl)
    dsimp only at h
    cases hgr : groupOf e with
    | fittedDynamic =>
      rw [hgr] at h hs
      exact hcol _ h fun acc => by unfold paramStep; rw [hs]
    | auxiliary =>
      rw [hgr] at h hs
      exact hcol _ h fun acc => by unfold paramStep; rw [hs]
    | constant => rw [hgr] at h; cases h
    | fittedConst =>
      rw [hgr] at h hs
      dsimp only at h
      cases hr : f.resDict.get? k with
      | none => rw [hr] at h; cases h
      | some l =>
        cases l with
        | nil => rw [hr] at h; cases h
        | cons y l =>
          rw [hr] at h
          cases h
          refine ⟨.scalar (.num y), rfl, fun acc => ?_⟩
          unfold paramStep
          rw [hs]
          dsimp only [resValue]
          rw [hr]
          rfl
  | none =>
    rw [hg] at h
    have hk := (Dict.get?_eq_none _ _).1 hg
    have hs := source_other f h1 hk
    cases hc : column f.dataset k with
    | some y =>
      rw [hc] at h
      dsimp only at h
      have hm : k ∈ f.dataset.names := by
        obtain ⟨v, hv, _⟩ := column_some hc
        exact (Dict.get?_isSome f.dataset.cols k).1 (by rw [hv]; rfl)
      rw [if_pos hm] at hs
      exact hcol _ (hc.trans h) fun acc => by unfold paramStep; rw [hs]
    | none =>
      rw [hc] at h
      dsimp only at h
      have hm : k ∉ f.dataset.names := by
        unfold column at hc
        rw [Option.map_eq_none_iff] at hc
        exact (Dict.get?_eq_none f.dataset.cols k).1 hc
      rw [if_neg hm] at hs
      cases ha : f.readerArg.get? k with
      | none => rw [ha] at h; cases h
      | some a =>
        rw [ha] at h
        obtain ⟨v, rfl, hv⟩ := argCell_single (k := k) h
        rw [if_pos ((Dict.get?_isSome _ _).1 (by rw [ha]; rfl))] at hs
        refine ⟨a, hv, fun acc => ?_⟩
        unfold paramStep
        rw [hs]
        dsimp only [argValue]
        rw [ha]
        rfl

/-- The time series of a parameter without export function. -/
def seriesFrame (f : Fit) (k : String) : Option Frame :=
  match default f k with
  | some (.series s) => some (s.named k)
  | _ => none

theorem params_spec (f : Fit) (hd : f.defdict.keys.Nodup) : ∀ (ks : List String) (acc : Acc), ks.Nodup → (∀ k ∈ ks, (default f k).isSome) →
    acc.statics.keys.Nodup →
    ∃ acc', ks.foldlM (paramStep f false false) acc = .ok acc' ∧ acc'.dfs = acc.dfs ++ ks.filterMap (seriesFrame f) ∧
      acc'.statics.keys.Nodup ∧
      (∀ k ∈ ks, ∀ v, default f k = some (.value v) → ∃ a, acc'.statics.get? k = some a ∧ argCell (k, a) = .ok (k, v)) ∧
      ∀ k, (k ∉ ks ∨ ∃ s, default f k = some (.series s)) → acc'.statics.get? k = acc.statics.get? k
  | [], acc, _, _, hn => ⟨acc, rfl, by simp, hn, by simp, fun _ _ => rfl⟩
  | k :: ks, acc, hk, hw, hn => by
    have hk' := List.nodup_cons.1 hk
    obtain ⟨x, hx⟩ := Option.isSome_iff_exists.1 (hw k List.mem_cons_self)
    have he := effect f hd k x hx
    cases x with
    | series s =>
      obtain ⟨acc', h1, h2, h3, h4, h5⟩ := params_spec f hd ks { acc with dfs := acc.dfs ++ [s.named k] } hk'.2
        (fun k' h => hw k' (List.mem_cons_of_mem _ h)) hn
      refine ⟨acc', ?_, ?_, h3, ?_, ?_⟩
      · rw [List.foldlM_cons, he acc]
        exact h1
      · rw [h2, List.filterMap_cons_some (b := s.named k) (by unfold seriesFrame; rw [hx])]
        simp
      · intro k' hk'' v hv
        rcases List.mem_cons.1 hk'' with rfl | hm
        · rw [hx] at hv; cases hv
        · exact h4 k' hm v hv
      · intro k' hk''
        refine h5 k' ?_
        rcases hk'' with h | h
        · exact .inl fun hm => h (List.mem_cons_of_mem _ hm)
        · exact .inr h
    | value v =>
      obtain ⟨a, ha, he⟩ := he
      obtain ⟨acc', h1, h2, h3, h4, h5⟩ := params_spec f hd ks { acc with statics := acc.statics.set k a } hk'.2
        (fun k' h => hw k' (List.mem_cons_of_mem _ h)) (Dict.nodup_set hn _ _)
      refine ⟨acc', ?_, ?_, h3, ?_, ?_⟩
      · rw [List.foldlM_cons, he acc]
        exact h1
      · rw [h2, List.filterMap_cons_none (by unfold seriesFrame; rw [hx])]
      · intro k' hk'' v' hv
        rcases List.mem_cons.1 hk'' with rfl | hm
        · rw [hx] at hv; cases hv
          refine ⟨a, ?_, ha⟩
          rw [h5 k' (.inl hk'.1), Dict.get?_set, if_pos rfl]
        · exact h4 k' hm v' hv
      · intro k' hk''
        have hne : k' ≠ k := by
          rintro rfl
          rcases hk'' with h | ⟨s, h⟩
          · exact h List.mem_cons_self
          · rw [hx] at h; cases h
        rw [h5 k', Dict.get?_set, if_neg hne]
        rcases hk'' with h | h
        · exact .inl fun hm => h (List.mem_cons_of_mem _ hm)
        · exact .inr h

theorem cells_spec : ∀ (l : Dict String Arg), (∀ e ∈ l, ∃ v, argCell e = .ok (e.1, v)) →
    ∃ d : Dict String SVal, l.mapM argCell = .ok d ∧ d.keys = l.keys ∧
      ∀ k a v, Dict.get? l k = some a → argCell (k, a) = .ok (k, v) → d.get? k = some v
  | [], _ => ⟨[], rfl, rfl, fun k a v h _ => by cases h⟩
  | e :: l, h => by
    obtain ⟨v, hv⟩ := h e List.mem_cons_self
    obtain ⟨d, h1, h2, h3⟩ := cells_spec l fun e' he => h e' (List.mem_cons_of_mem _ he)
    refine ⟨(e.1, v) :: d, ?_, ?_, ?_⟩
    · rw [List.mapM_cons, hv, h1]; rfl
    · rw [Dict.keys_cons, Dict.keys_cons, h2]
    · intro k a v' hg ha
      rw [Dict.get?_cons] at hg ⊢
      by_cases hk : e.1 = k
      · rw [if_pos hk] at hg ⊢
        cases hg
        subst hk
        rw [hv] at ha
        cases ha
        rfl
      · rw [if_neg hk] at hg ⊢
        exact h3 k a v' hg ha

/-! ## Lemmas on the export functions -/

/-- A column of `auxdata`. -/
def objSeries : String × Obj → Option (String × Series)
  | (k, .series s) => some (k, s)
  | (_, .frame _) => none

/-- The columns of `auxdata` as series. -/
def Aux.ents : Aux → List (String × Series)
  | .dict d => d.filterMap objSeries
  | .frame F => F.cols.map fun c => (c.1, ⟨F.idx, c.2⟩)

/-- There are series only, with distinct names. -/
def Aux.Ok (a : Aux) : Prop := a.ents.map Prod.fst = a.names ∧ a.names.Nodup

/-- The index of the model results (if there are any). -/
def Aux.base : Aux → Option (List ℤ)
  | .dict _ => none
  | .frame F => some F.idx

/-- The column has the values of the series. -/
def Same (base : Option (List ℤ)) (σ s : Series) : Prop :=
  (∀ t, cellAt σ.idx σ.vals t = cellAt s.idx s.vals t) ∧ (∀ t ∈ s.idx, t ∈ σ.idx) ∧ (σ.idx = s.idx ∨ base = some σ.idx)

/-- A series that can be added without loss. -/
def Fits (base : Option (List ℤ)) (s : Series) : Prop := s.idx.Nodup ∧ ∀ b, base = some b → ∀ t ∈ s.idx, t ∈ b

theorem dict_set_new {ν : Type} : ∀ (d : Dict String ν) (k : String) (v : ν), k ∉ d.keys → d.set k v = d ++ [(k, v)]
  | [], _, _, _ => rfl
  | e :: d, k, v, h => by
    have h1 : e.1 ≠ k := fun he => h (by rw [Dict.keys_cons, he]; exact List.mem_cons_self)
    have h2 := dict_set_new d k v fun hk => h (by rw [Dict.keys_cons]; exact List.mem_cons_of_mem _ hk)
    simp only [Dict.set, if_neg h1, h2, List.cons_append]

theorem add_spec (a : Aux) (ha : a.Ok) (k : String) (hk : k ∉ a.names) (s : Series) (hs : Fits a.base s) :
    ∃ a' σ, a.add k (.series s) = .ok a' ∧ a'.Ok ∧ a'.base = a.base ∧ a'.names = a.names ++ [k] ∧ a'.ents = a.ents ++ [(k, σ)] ∧
      Same a.base σ s := by
  cases a with
  | dict d =>
    refine ⟨_, s, rfl, ?_, rfl, ?_, ?_, fun _ => rfl, fun _ h => h, .inl rfl⟩
    all_goals have hset := dict_set_new d k (.series s) hk
    · obtain ⟨h1, h2⟩ := ha
      unfold Aux.Ok Aux.ents Aux.names at *
      dsimp only at *
      rw [hset, List.filterMap_append, List.map_append, h1]
      refine ⟨by simp [Dict.keys, objSeries], ?_⟩
      unfold Dict.keys at *
      rw [List.map_append, List.nodup_append]
      refine ⟨h2, by simp, ?_⟩
      intro x hx y hy
      rw [List.map_singleton, List.mem_singleton] at hy
      rintro rfl
      subst hy
      exact hk hx
    · dsimp only [Aux.names]
      rw [hset]
      simp [Dict.keys]
    · dsimp only [Aux.ents]
      rw [hset, List.filterMap_append]
      rfl
  | frame F =>
    obtain ⟨h1, h2⟩ := ha
    have hk' : k ∉ F.names := hk
    have hn : ∀ v, (Aux.frame ⟨F.idx, F.cols ++ [(k, v)]⟩).Ok := by
      intro v
      refine ⟨?_, ?_⟩
      · simp [Aux.ents, Aux.names, Frame.names, Function.comp_def]
      · dsimp only [Aux.names, Frame.names]
        rw [List.map_append, List.nodup_append]
        refine ⟨h2, by simp, ?_⟩
        intro x hx y hy
        rw [List.map_singleton, List.mem_singleton] at hy
        rintro rfl
        subst hy
        exact hk hx
    dsimp only [Aux.add, assignCol]
    by_cases h : s.idx = F.idx
    · rw [if_pos h]
      refine ⟨_, ⟨F.idx, s.vals⟩, rfl, hn _, rfl, ?_, ?_, ?_, ?_, .inr rfl⟩
      · simp [Aux.names, Frame.names]
      · simp [Aux.ents]
      · intro t; rw [h]
      · intro t ht; rw [h] at ht; exact ht
    · rw [if_neg h, if_pos hs.1]
      have hsub : ∀ t ∈ s.idx, t ∈ F.idx := hs.2 F.idx rfl
      refine ⟨_, ⟨F.idx, (reindex F.idx s.idx (k, s.vals)).2⟩, rfl, hn _, rfl, ?_, ?_, ?_, hsub, .inr rfl⟩
      · simp [Aux.names, Frame.names, reindex]
      · simp [Aux.ents, reindex]
      · exact cellAt_reindex hsub

/-- The export function of a parameter can be used. -/
def GoodFn (f : Fit) (base : Option (List ℤ)) (g : Fn) : Prop :=
  (∃ x, g f = .ok (.scalar x)) ∨ ∃ s, g f = .ok (.obj (.series s)) ∧ Fits base s

theorem fns_spec (f : Fit) : ∀ (fns : Dict String Fn) (s : St), fns.keys.Nodup → s.parameters.Nodup → s.statics.keys.Nodup → s.aux.Ok →
    (∀ k ∈ s.parameters, k ∈ fns.keys → k ∉ s.aux.names) → (∀ e ∈ fns, e.1 ∈ s.parameters → GoodFn f s.aux.base e.2) →
    ∃ s', fns.foldlM (fnStep f) s = .ok s' ∧ s'.parameters.Nodup ∧ s'.statics.keys.Nodup ∧ s'.aux.Ok ∧ s'.aux.base = s.aux.base ∧
      (∀ k, k ∈ s'.parameters ↔ k ∈ s.parameters ∧ ∀ g x, Dict.get? fns k = some g → g f ≠ .ok (.scalar x)) ∧
      (∀ k g x, k ∈ s.parameters → Dict.get? fns k = some g → g f = .ok (.scalar x) → s'.statics.get? k = some (.scalar (.num x))) ∧
      (∀ k, (k ∉ s.parameters ∨ ∀ g x, Dict.get? fns k = some g → g f ≠ .ok (.scalar x)) → s'.statics.get? k = s.statics.get? k) ∧
      (∀ k, k ∈ s'.aux.names ↔ k ∈ s.aux.names ∨ (k ∈ s.parameters ∧ ∃ g x, Dict.get? fns k = some g ∧ g f = .ok (.obj (.series x)))) ∧
      (∀ e ∈ s.aux.ents, e ∈ s'.aux.ents) ∧
      ∀ e ∈ s'.aux.ents, e ∈ s.aux.ents ∨ ∃ g x, e.1 ∈ s.parameters ∧ Dict.get? fns e.1 = some g ∧ g f = .ok (.obj (.series x)) ∧
        Same s.aux.base e.2 x
  | [], s, _, h2, h3, h4, _, _ => by
    refine ⟨s, rfl, h2, h3, h4, rfl, ?_, ?_, fun _ _ => rfl, ?_, fun _ h => h, fun _ h => .inl h⟩
    · intro k; simp [Dict.get?]
    · intro k g x _ h; simp [Dict.get?] at h
    · intro k; simp [Dict.get?]
  | (n, g) :: fns, s, h1, h2, h3, h4, h5, h6 => by
    rw [Dict.keys_cons] at h1
    obtain ⟨h1a, h1b⟩ := List.nodup_cons.1 h1
    have hget : ∀ k, Dict.get? ((n, g) :: fns) k = if n = k then some g else Dict.get? fns k := fun k => Dict.get?_cons _ _ _
    have hnone : Dict.get? fns n = none := (Dict.get?_eq_none _ _).2 h1a
    by_cases hp : n ∈ s.parameters
    · rcases h6 _ List.mem_cons_self hp with ⟨x, hx⟩ | ⟨σ0, hx, hfit⟩
      · -- a single value
        dsimp only at hx
        have hstep : fnStep f s (n, g) =
            .ok { s with statics := s.statics.set n (.scalar (.num x)), parameters := s.parameters.filter (· ≠ n) } := by
          unfold fnStep
          dsimp only
          rw [if_pos hp, hx]
        have hmem : ∀ k, k ∈ s.parameters.filter (· ≠ n) ↔ k ∈ s.parameters ∧ k ≠ n := fun k => by simp
        obtain ⟨s', e0, e1, e2, e3, e4, e5, e6, e7, e8, e9, e10⟩ := fns_spec f fns
          { s with statics := s.statics.set n (.scalar (.num x)), parameters := s.parameters.filter (· ≠ n) } h1b (h2.filter _)
          (Dict.nodup_set h3 _ _) h4 (fun k hk hk2 => h5 k ((hmem k).1 hk).1 (by rw [Dict.keys_cons]; exact List.mem_cons_of_mem _ hk2))
          (fun e he hep => h6 e (List.mem_cons_of_mem _ he) ((hmem _).1 hep).1)
        dsimp only at e4 e5 e6 e7 e8 e9 e10
        refine ⟨s', ?_, e1, e2, e3, e4, ?_, ?_, ?_, ?_, e9, ?_⟩
        · rw [List.foldlM_cons, hstep]; exact e0
        · intro k
          rw [e5, hmem, hget]
          by_cases hk : n = k
          · subst hk
            simp [hx]
          · have hk' : k ≠ n := fun e => hk e.symm
            simp [hk, hk']
        · intro k g' x' hk hg hx'
          rw [hget] at hg
          by_cases hk2 : n = k
          · subst hk2
            rw [if_pos rfl] at hg
            cases hg
            rw [hx] at hx'
            cases hx'
            rw [e7 n (.inl (by simp)), Dict.get?_set, if_pos rfl]
          · rw [if_neg hk2] at hg
            exact e6 k g' x' ((hmem k).2 ⟨hk, fun e => hk2 e.symm⟩) hg hx'
        · intro k hk
          have hne : k ≠ n := by
            rintro rfl
            rcases hk with h | h
            · exact h hp
            · exact h g x (by rw [hget, if_pos rfl]) hx
          rw [e7 k, Dict.get?_set, if_neg hne]
          rcases hk with h | h
          · exact .inl fun hm => h ((hmem k).1 hm).1
          · exact .inr fun g' x' hg => h g' x' (by rw [hget, if_neg (fun e => hne e.symm)]; exact hg)
        · intro k
          rw [e8, hmem, hget]
          by_cases hk : n = k
          · subst hk
            simp [hx]
          · have hk' : k ≠ n := fun e => hk e.symm
            simp [hk, hk']
        · intro e he
          rcases e10 e he with h | ⟨g', x', hm, hg, hx', hs⟩
          · exact .inl h
          · refine .inr ⟨g', x', ((hmem _).1 hm).1, ?_, hx', hs⟩
            rw [hget, if_neg (fun e => ((hmem _).1 hm).2 e.symm)]
            exact hg
      · -- a series
        dsimp only at hx
        have hnn : n ∉ s.aux.names := h5 n hp (by rw [Dict.keys_cons]; exact List.mem_cons_self)
        obtain ⟨a', σ, a1, a2, a3, a4, a5, a6⟩ := add_spec s.aux h4 n hnn σ0 hfit
        have hstep : fnStep f s (n, g) = .ok { s with aux := a' } := by
          unfold fnStep
          dsimp only
          rw [if_pos hp, hx]
          dsimp only
          rw [a1]
        have hmem : ∀ k, k ∈ a'.names ↔ k ∈ s.aux.names ∨ k = n := fun k => by rw [a4]; simp
        obtain ⟨s', e0, e1, e2, e3, e4, e5, e6, e7, e8, e9, e10⟩ := fns_spec f fns { s with aux := a' } h1b h2 h3 a2
          (fun k hk hk2 hm => by
            rcases (hmem k).1 hm with h | rfl
            · exact h5 k hk (by rw [Dict.keys_cons]; exact List.mem_cons_of_mem _ hk2) h
            · exact h1a hk2)
          (fun e he hep => by
            dsimp only
            rw [a3]
            exact h6 e (List.mem_cons_of_mem _ he) hep)
        dsimp only at e4 e5 e6 e7 e8 e9 e10
        refine ⟨s', ?_, e1, e2, e3, e4.trans a3, ?_, ?_, ?_, ?_, ?_, ?_⟩
        · rw [List.foldlM_cons, hstep]; exact e0
        · intro k
          rw [e5, hget]
          by_cases hk : n = k
          · subst hk
            refine ⟨fun h => ⟨h.1, fun g' x' hg h' => ?_⟩, fun h => ⟨h.1, fun g' x' hg => ?_⟩⟩
            · rw [if_pos rfl] at hg
              cases hg
              rw [hx] at h'
              cases h'
            · rw [hnone] at hg
              cases hg
          · simp [hk]
        · intro k g' x' hk hg hx'
          rw [hget] at hg
          by_cases hk2 : n = k
          · subst hk2
            rw [if_pos rfl] at hg
            cases hg
            rw [hx] at hx'
            cases hx'
          · rw [if_neg hk2] at hg
            exact e6 k g' x' hk hg hx'
        · intro k hk
          refine e7 k ?_
          rcases hk with h | h
          · exact .inl h
          · refine .inr fun g' x' hg => ?_
            by_cases hk2 : n = k
            · subst hk2
              rw [hnone] at hg
              cases hg
            · exact h g' x' (by rw [hget, if_neg hk2]; exact hg)
        · intro k
          rw [e8, hmem, hget]
          by_cases hk : n = k
          · subst hk
            exact ⟨fun _ => .inr ⟨hp, g, σ0, if_pos rfl, hx⟩, fun _ => .inl (.inr rfl)⟩
          · have hk' : k ≠ n := fun e => hk e.symm
            simp [hk, hk']
        · intro e he
          exact e9 e (by rw [a5]; exact List.mem_append_left _ he)
        · intro e he
          rcases e10 e he with h | ⟨g', x', hm, hg, hx', hs⟩
          · rw [a5, List.mem_append, List.mem_singleton] at h
            rcases h with h | rfl
            · exact .inl h
            · exact .inr ⟨g, σ0, hp, by rw [hget, if_pos rfl], hx, a6⟩
          · refine .inr ⟨g', x', hm, ?_, hx', by rw [← a3]; exact hs⟩
            rw [hget]
            by_cases hk2 : n = e.1
            · rw [← hk2, hnone] at hg
              cases hg
            · rw [if_neg hk2]; exact hg
    · have hstep : fnStep f s (n, g) = .ok s := by
        unfold fnStep
        dsimp only
        rw [if_neg hp]
      obtain ⟨s', e0, e1, e2, e3, e4, e5, e6, e7, e8, e9, e10⟩ := fns_spec f fns s h1b h2 h3 h4
        (fun k hk hk2 => h5 k hk (by rw [Dict.keys_cons]; exact List.mem_cons_of_mem _ hk2))
        (fun e he hep => h6 e (List.mem_cons_of_mem _ he) hep)
      have hne : ∀ k ∈ s.parameters, n ≠ k := by rintro k hk rfl; exact hp hk
      refine ⟨s', ?_, e1, e2, e3, e4, ?_, ?_, ?_, ?_, e9, ?_⟩
      · rw [List.foldlM_cons, hstep]; exact e0
      · intro k
        rw [e5, hget]
        constructor
        · rintro ⟨h, h'⟩
          exact ⟨h, by rw [if_neg (hne k h)]; exact h'⟩
        · rintro ⟨h, h'⟩
          rw [if_neg (hne k h)] at h'
          exact ⟨h, h'⟩
      · intro k g' x' hk hg hx'
        rw [hget, if_neg (hne k hk)] at hg
        exact e6 k g' x' hk hg hx'
      · intro k hk
        refine e7 k ?_
        by_cases hks : k ∈ s.parameters
        · rcases hk with h | h
          · exact .inl h
          · exact .inr fun g' x' hg => h g' x' (by rw [hget, if_neg (hne k hks)]; exact hg)
        · exact .inl hks
      · intro k
        rw [e8, hget]
        constructor
        · rintro (h | ⟨h, h'⟩)
          · exact .inl h
          · exact .inr ⟨h, by rw [if_neg (hne k h)]; exact h'⟩
        · rintro (h | ⟨h, h'⟩)
          · exact .inl h
          · rw [if_neg (hne k h)] at h'
            exact .inr ⟨h, h'⟩
      · intro e he
        rcases e10 e he with h | ⟨g', x', hm, hg, hx', hs⟩
        · exact .inl h
        · exact .inr ⟨g', x', hm, by rw [hget, if_neg (hne _ hm)]; exact hg, hx', hs⟩

theorem objs_spec : ∀ (d : Dict String Obj), (d.filterMap objSeries).length = d.length →
    d.mapM objCol = .ok ((d.filterMap objSeries).map fun e => e.2.named e.1)
  | [], _ => rfl
  | (k, .series s) :: d, h => by
    have hd : (d.filterMap objSeries).length = d.length := by
      rw [List.filterMap_cons_some (f := objSeries) (b := (k, s)) rfl] at h
      simpa using h
    rw [List.mapM_cons, objs_spec d hd]
    rfl
  | (k, .frame F) :: d, h => by
    rw [List.filterMap_cons_none (f := objSeries) rfl] at h
    have := List.length_filterMap_le objSeries d
    simp only [List.length_cons] at h
    omega

theorem toFrame_spec (odd : List Frame → Except PyErr Frame) (a : Aux) (ha : a.Ok) (hn : ∀ e ∈ a.ents, e.2.idx.Nodup)
    (hb : ∀ b, a.base = some b → a.names ≠ []) :
    ∃ A, a.toFrame odd = .ok A ∧ A.names = a.names ∧ A.idx.Nodup ∧
      (∀ e ∈ a.ents, ∃ v, (e.1, v) ∈ A.cols ∧ ∀ t, cellAt A.idx v t = cellAt e.2.idx e.2.vals t ∧ (t ∈ e.2.idx → t ∈ A.idx)) ∧
      ∀ t ∈ A.idx, ∃ e ∈ a.ents, t ∈ e.2.idx := by
  cases a with
  | frame F =>
    refine ⟨F, rfl, rfl, ?_, ?_, ?_⟩
    · obtain ⟨c, hc⟩ := List.exists_mem_of_ne_nil _ (hb F.idx rfl)
      obtain ⟨c', hc', _⟩ := List.mem_map.1 (show c ∈ F.cols.map Prod.fst from hc)
      exact hn (c'.1, ⟨F.idx, c'.2⟩) (List.mem_map.2 ⟨c', hc', rfl⟩)
    · intro e he
      obtain ⟨c, hc, rfl⟩ := List.mem_map.1 (show e ∈ F.cols.map _ from he)
      exact ⟨c.2, hc, fun t => ⟨rfl, fun h => h⟩⟩
    · intro t ht
      obtain ⟨c, hc⟩ := List.exists_mem_of_ne_nil _ (hb F.idx rfl)
      obtain ⟨c', hc', _⟩ := List.mem_map.1 (show c ∈ F.cols.map Prod.fst from hc)
      exact ⟨(c'.1, ⟨F.idx, c'.2⟩), List.mem_map.2 ⟨c', hc', rfl⟩, ht⟩
  | dict d =>
    cases d with
    | nil => exact ⟨⟨[], []⟩, rfl, rfl, List.nodup_nil, fun e he => (List.not_mem_nil he).elim, fun t ht => (List.not_mem_nil ht).elim⟩
    | cons e0 d =>
      have hlen : ((e0 :: d).filterMap objSeries).length = (e0 :: d).length := by
        have := congrArg List.length ha.1
        simpa [Aux.ents, Aux.names, Dict.keys] using this
      have hm := objs_spec (e0 :: d) hlen
      have hents : (Aux.dict (e0 :: d)).ents = (e0 :: d).filterMap objSeries := rfl
      rw [hents] at hn
      generalize hE : (e0 :: d).filterMap objSeries = E at hm hn hents hlen
      obtain ⟨F, f1, f2, f3, f4, f5⟩ := join_spec odd (E.map fun e => e.2.named e.1)
        (by
          intro h
          have := congrArg List.length h
          rw [List.length_map, hlen] at this
          simp at this)
        (by
          intro G hG
          obtain ⟨e, he, rfl⟩ := List.mem_map.1 hG
          exact hn e he)
      refine ⟨F, ?_, ?_, f3, ?_, ?_⟩
      · dsimp only [Aux.toFrame]
        rw [hm]
        exact f1
      · rw [f2, ← ha.1, hents, List.flatMap_map]
        induction E with
        | nil => rfl
        | cons e E _ =>
          clear * -
          generalize e :: E = E
          induction E with
          | nil => rfl
          | cons e E ih => rw [List.flatMap_cons, ih]; rfl
      · intro e he
        rw [hents] at he
        obtain ⟨v, hv, hc⟩ := f5 (e.2.named e.1) (List.mem_map.2 ⟨e, he, rfl⟩) (e.1, e.2.vals) List.mem_cons_self
        exact ⟨v, hv, fun t => ⟨hc t, fun ht => (f4 t).2 ⟨e.2.named e.1, List.mem_map.2 ⟨e, he, rfl⟩, ht⟩⟩⟩
      · intro t ht
        obtain ⟨G, hG, htG⟩ := (f4 t).1 ht
        obtain ⟨e, he, rfl⟩ := List.mem_map.1 hG
        exact ⟨e, by rw [hents]; exact he, htG⟩

/-! ## Lemmas on the export of a fit -/

theorem mem_symDiff {a b : List String} {k : String} : k ∈ symDiff a b ↔ (k ∈ a ∧ k ∉ b) ∨ (k ∈ b ∧ k ∉ a) := by
  simp [symDiff]

theorem nodup_symDiff {a b : List String} (ha : a.Nodup) (hb : b.Nodup) : (symDiff a b).Nodup := by
  unfold symDiff
  rw [List.nodup_append]
  refine ⟨ha.filter _, hb.filter _, ?_⟩
  rintro x hx y hy rfl
  simp only [List.mem_filter, decide_eq_true_eq] at hx hy
  exact hy.2 hx.1

theorem modelCols_spec (f : Fit) (M : Frame) (hM : f.model = .ok M) : ∀ (keys : List String), (∀ k ∈ keys, ∃ x, column M k = some x) →
    ∃ cols, modelCols true f keys = .ok ⟨M.idx, cols⟩ ∧ cols.map Prod.fst = keys ∧ ∀ c ∈ cols, Dict.get? M.cols c.1 = some c.2 := by
  intro keys h
  have : ∃ cols, keys.mapM (fun k => (M.series k).map fun s => (k, s.vals)) = .ok cols ∧ cols.map Prod.fst = keys ∧
      ∀ c ∈ cols, Dict.get? M.cols c.1 = some c.2 := by
    induction keys with
    | nil => exact ⟨[], rfl, rfl, fun c hc => (List.not_mem_nil hc).elim⟩
    | cons k keys ih =>
      obtain ⟨cols, h1, h2, h3⟩ := ih fun k' hk' => h k' (List.mem_cons_of_mem _ hk')
      obtain ⟨x, hx⟩ := h k List.mem_cons_self
      obtain ⟨v, hv, _⟩ := column_some hx
      refine ⟨(k, v) :: cols, ?_, by simp [h2], ?_⟩
      · rw [List.mapM_cons, h1, series_of_get? hv]; rfl
      · intro c hc
        rcases List.mem_cons.1 hc with rfl | hc
        · exact hv
        · exact h3 c hc
  obtain ⟨cols, h1, h2, h3⟩ := this
  refine ⟨cols, ?_, h2, h3⟩
  unfold modelCols
  rw [hM]
  dsimp only [bind, Except.bind]
  rw [if_pos rfl, h1]

theorem seriesFrames_names (f : Fit) (ks : List String) :
    ((ks.filterMap (seriesFrame f)).flatMap Frame.names).Sublist ks ∧
      ∀ k ∈ (ks.filterMap (seriesFrame f)).flatMap Frame.names, ∃ s, default f k = some (.series s) := by
  induction ks with
  | nil => exact ⟨List.Sublist.refl _, fun k hk => (List.not_mem_nil hk).elim⟩
  | cons k ks ih =>
    cases h : seriesFrame f k with
    | none =>
      rw [List.filterMap_cons_none h]
      exact ⟨ih.1.cons _, ih.2⟩
    | some F =>
      rw [List.filterMap_cons_some h, List.flatMap_cons]
      have : ∃ s, default f k = some (.series s) ∧ F = s.named k := by
        unfold seriesFrame at h
        split at h
        · cases h; exact ⟨_, by assumption, rfl⟩
        · cases h
      obtain ⟨s, hs, rfl⟩ := this
      refine ⟨ih.1.cons_cons _, fun k' hk' => ?_⟩
      rcases List.mem_append.1 hk' with h' | h'
      · rw [show (s.named k).names = [k] from rfl, List.mem_singleton] at h'
        rw [h']; exact ⟨s, hs⟩
      · exact ih.2 k' h'

theorem metrics_spec (fns : Dict String Fn) (f : Fit) : ∀ (ms : Dict String MSpec) (x : String → ℝ), (∀ e ∈ ms, MetricIs fns f e (x e.1)) →
    ms.mapM (metricCell fns f) = .ok (ms.map fun e => (e.1, some (.num (x e.1))))
  | [], _, _ => rfl
  | e :: ms, x, h => by
    have h1 : metricCell fns f e = .ok (e.1, some (.num (x e.1))) := by
      have := h e List.mem_cons_self
      unfold metricCell
      cases e with
      | mk n p =>
        generalize hy : x n = y at this
        cases this with
        | custom _ g _ hg hx => dsimp only; rw [hg]; dsimp only; rw [hx]; rfl
        | triple _ m d1 d2 _ hx => dsimp only [builtin]; rw [hx]; rfl
    rw [List.mapM_cons, h1, metrics_spec fns f ms x fun e' he => h e' (List.mem_cons_of_mem _ he)]
    rfl

theorem mem_model {parameters : List String} {k : String} :
    k ∈ (Export.splitParameters parameters).1 ↔ k ∈ parameters ∧ k ∈ modelNames := by
  simp [Export.splitParameters, modelNames]

theorem mem_params {parameters : List String} {k : String} :
    k ∈ (Export.splitParameters parameters).2 ↔ k ∈ parameters ∧ k ∉ modelNames := by
  simp [Export.splitParameters, modelNames]

theorem init_spec (setOk : Bool) (f : Fit) (keys : List String) (hk : keys.Nodup) (hset : setOk = true ∨ keys = [])
    (hw : ∀ k ∈ keys, (modelSeries f k).isSome) :
    ∃ a : Aux, initAux setOk f keys = .ok a ∧ a.Ok ∧ a.names = keys ∧ (∀ b, a.base = some b → keys ≠ [] ∧ ∃ M, f.model = .ok M ∧ M.idx = b) ∧
      ∀ e ∈ a.ents, modelSeries f e.1 = some (.series e.2) := by
  unfold initAux
  by_cases h : keys = []
  · subst h
    rw [if_pos rfl]
    exact ⟨_, rfl, ⟨rfl, List.nodup_nil⟩, rfl, fun b hb => (by cases hb), fun e he => (List.not_mem_nil he).elim⟩
  · rw [if_neg h]
    obtain ⟨k0, hk0⟩ := List.exists_mem_of_ne_nil _ h
    obtain ⟨M, hM⟩ : ∃ M, f.model = .ok M := by
      have := hw k0 hk0
      unfold modelSeries at this
      cases hm : f.model with
      | ok M => exact ⟨M, rfl⟩
      | error e => rw [hm] at this; cases this
    have hms : ∀ k, modelSeries f k = column M k := fun k => by unfold modelSeries; rw [hM]
    obtain ⟨cols, c1, c2, c3⟩ := modelCols_spec f M hM keys fun k hk' => by
      rw [← hms]; exact Option.isSome_iff_exists.1 (hw k hk')
    rcases hset with rfl | h'
    · refine ⟨.frame ⟨M.idx, cols⟩, by rw [c1]; rfl, ⟨?_, ?_⟩, c2, ?_, ?_⟩
      · simp [Aux.ents, Aux.names, Frame.names, Function.comp_def]
      · show (cols.map Prod.fst).Nodup
        rw [c2]; exact hk
      · intro b hb
        cases hb
        exact ⟨h, M, hM, rfl⟩
      · intro e he
        obtain ⟨c, hc, rfl⟩ := List.mem_map.1 (show e ∈ cols.map _ from he)
        rw [hms]
        unfold column
        rw [c3 c hc]
        rfl
    · exact absurd h' h

/-- The arguments for which everything can be exported: `model_keys` can be used, the export functions are not those of model results,
all parameters are available, their time stamps are unique, and the series of the export functions have no time stamps without model
results (if model results are exported). -/
structure Valid (setOk : Bool) (parameters : List String) (fns : Dict String Fn) (f : Fit) : Prop where
  set : setOk = true ∨ ∀ k ∈ parameters, k ∉ modelNames
  defs : f.defdict.keys.Nodup
  fnKeys : fns.keys.Nodup
  fnModel : ∀ k ∈ parameters, k ∈ modelNames → k ∉ fns.keys
  available : ∀ k ∈ parameters, (wanted fns f k).isSome
  unique : ∀ k ∈ parameters, ∀ s, wanted fns f k = some (.series s) → s.idx.Nodup ∧ s.idx ≠ []
  inModel : ∀ k ∈ parameters, k ∈ fns.keys → ∀ s, wanted fns f k = some (.series s) → ∀ k' ∈ parameters, k' ∈ modelNames →
    ∀ s', wanted fns f k' = some (.series s') → ∀ t ∈ s.idx, t ∈ s'.idx

/-- Every requested parameter is exported once, with its values and labelled with the number of the fit, and nothing else; the metrics
are those that have been defined. -/
theorem C116_export_partial (setOk : Bool) (odd : List Frame → Except PyErr Frame) (parameters : List String) (metrics : Dict String MSpec)
    (fns : Dict String Fn) (sigToDB incToDegree : Bool) (f : Fit) (h : Valid setOk parameters fns f) (x : String → ℝ)
    (hm : ∀ e ∈ metrics, MetricIs fns f e (x e.1)) :
    ∃ r, exportData setOk odd parameters metrics fns sigToDB incToDegree f = .ok r ∧
      (∀ k ∈ parameters, ∀ s, wanted fns f k = some (.series s) → HasSeries r f.num k s) ∧
      (∀ k ∈ parameters, ∀ v, wanted fns f k = some (.value v) → HasValue r f.num k v) ∧
      OnlySeries r (wanted fns f) parameters ∧ OnlyValues r (wanted fns f) parameters ∧
      r.metrics = if metrics.length = 0 then none else some ([("ID", (f.num : ℤ))], metrics.map fun e => (e.1, some (.num (x e.1)))) := by
  have hMK : ∀ k, k ∈ (Export.splitParameters parameters).1 ↔ k ∈ parameters ∧ k ∈ modelNames := fun k => mem_model
  have hP : ∀ k, k ∈ (Export.splitParameters parameters).2 ↔ k ∈ parameters ∧ k ∉ modelNames := fun k => mem_params
  have hMKn : (Export.splitParameters parameters).1.Nodup := (List.nodup_dedup _).filter _
  have hPn : (Export.splitParameters parameters).2.Nodup := (List.nodup_dedup _).filter _
  unfold exportData
  generalize (Export.splitParameters parameters).1 = MK at *
  generalize (Export.splitParameters parameters).2 = P at *
  have hwm : ∀ k ∈ MK, wanted fns f k = modelSeries f k := by
    intro k hk
    have hk' := (hMK k).1 hk
    unfold wanted
    rw [(Dict.get?_eq_none _ _).2 (h.fnModel k hk'.1 hk'.2)]
    dsimp only
    rw [if_pos hk'.2]
  -- the model results
  obtain ⟨a, i1, i2, i3, i4, i5⟩ := init_spec setOk f MK hMKn
    (by
      rcases h.set with h | h
      · exact .inl h
      · refine .inr (List.eq_nil_iff_forall_not_mem.2 fun k hk => ?_)
        exact h k ((hMK k).1 hk).1 ((hMK k).1 hk).2)
    (fun k hk => by rw [← hwm k hk]; exact h.available k ((hMK k).1 hk).1)
  have hwfn : ∀ k g, Dict.get? fns k = some g → ∀ o, g f = .ok (.obj (.series o)) → wanted fns f k = some (.series o) := by
    intro k g hg o ho
    unfold wanted
    rw [hg]
    dsimp only
    rw [ho]
  have hwsc : ∀ k g, Dict.get? fns k = some g → ∀ y, g f = .ok (.scalar y) → wanted fns f k = some (.value (.num y)) := by
    intro k g hg y hy
    unfold wanted
    rw [hg]
    dsimp only
    rw [hy]
  have hfns : ∀ k g, k ∈ parameters → Dict.get? fns k = some g → (∃ y, g f = .ok (.scalar y)) ∨ ∃ o, g f = .ok (.obj (.series o)) := by
    intro k g hk hg
    have := h.available k hk
    unfold wanted at this
    rw [hg] at this
    dsimp only at this
    cases hgf : g f with
    | error e => rw [hgf] at this; cases this
    | ok o =>
      cases o with
      | scalar y => exact .inl ⟨y, rfl⟩
      | obj o =>
        cases o with
        | series o => exact .inr ⟨o, rfl⟩
        | frame F => rw [hgf] at this; cases this
  have hbase : ∀ b, a.base = some b → ∃ k0 ∈ MK, ∃ s0, wanted fns f k0 = some (.series s0) ∧ s0.idx = b := by
    intro b hb
    obtain ⟨hne, M, hM, rfl⟩ := i4 b hb
    obtain ⟨k0, hk0⟩ := List.exists_mem_of_ne_nil _ hne
    refine ⟨k0, hk0, ?_⟩
    obtain ⟨y, hy⟩ := Option.isSome_iff_exists.1 (h.available k0 ((hMK k0).1 hk0).1)
    have hy' := hy
    rw [hwm k0 hk0] at hy'
    unfold modelSeries at hy'
    rw [hM] at hy'
    dsimp only at hy'
    obtain ⟨v, _, rfl⟩ := column_some hy'
    exact ⟨_, hy, rfl⟩
  -- the export functions
  obtain ⟨s, e0, e1, e2, e3, e4, e5, e6, e7, e8, e9, e10⟩ := fns_spec f fns ⟨P, [], a⟩ h.fnKeys hPn List.nodup_nil i2
    (fun k hk _ hk' => by
      dsimp only at hk hk'
      rw [i3] at hk'
      exact ((hP k).1 hk).2 ((hMK k).1 hk').2)
    (fun e he hep => by
      have hg := (Dict.get?_iff_mem h.fnKeys e.1 e.2).2 he
      have hk := (hP e.1).1 hep
      rcases hfns e.1 e.2 hk.1 hg with hy | ⟨o, ho⟩
      · exact .inl hy
      · refine .inr ⟨o, ho, (h.unique e.1 hk.1 o (hwfn e.1 e.2 hg o ho)).1, ?_⟩
        intro b hb t ht
        obtain ⟨k0, hk0, s0, hs0, rfl⟩ := hbase b hb
        exact h.inModel e.1 hk.1 ((Dict.get?_isSome _ _).1 (by rw [hg]; rfl)) o (hwfn e.1 e.2 hg o ho) k0 ((hMK k0).1 hk0).1
          ((hMK k0).1 hk0).2 s0 hs0 t ht)
  dsimp only at e4 e5 e6 e7 e8 e9 e10
  -- each column of auxdata is one of the requested parameters
  have hent : ∀ e ∈ s.aux.ents, e.1 ∈ parameters ∧ ∃ s0, wanted fns f e.1 = some (.series s0) ∧ Same a.base e.2 s0 := by
    intro e he
    rcases e10 e he with h1 | ⟨g, o, hp, hg, ho, hs⟩
    · have hk : e.1 ∈ MK := by
        rw [← i3, ← i2.1]
        exact List.mem_map.2 ⟨e, h1, rfl⟩
      exact ⟨((hMK _).1 hk).1, e.2, by rw [hwm _ hk]; exact i5 e h1, fun _ => rfl, fun _ h => h, .inl rfl⟩
    · exact ⟨((hP _).1 hp).1, o, hwfn _ g hg o ho, hs⟩
  have hentn : ∀ e ∈ s.aux.ents, e.2.idx.Nodup := by
    intro e he
    obtain ⟨hk, s0, hs0, hs⟩ := hent e he
    rcases hs.2.2 with h1 | h1
    · rw [h1]; exact (h.unique _ hk s0 hs0).1
    · obtain ⟨k0, hk0, s1, hs1, h2⟩ := hbase _ h1
      rw [← h2]; exact (h.unique _ ((hMK k0).1 hk0).1 s1 hs1).1
  have hmk : ∀ k ∈ MK, k ∈ s.aux.names := fun k hk => (e8 k).2 (.inl (by rw [i3]; exact hk))
  obtain ⟨A, t1, t2, t3, t4, t5⟩ := toFrame_spec odd s.aux e3 hentn (by
    intro b hb
    rw [e4] at hb
    obtain ⟨k0, hk0, _⟩ := hbase b hb
    exact List.ne_nil_of_mem (hmk k0 hk0))
  -- the other parameters
  have hsave : ∀ k, k ∈ symDiff (symDiff s.parameters s.aux.names) MK ↔ k ∈ s.parameters ∧ k ∉ s.aux.names := by
    intro k
    rw [mem_symDiff, mem_symDiff]
    have h1 : k ∈ MK → k ∈ s.aux.names := hmk k
    have h2 : k ∈ MK → k ∉ s.parameters := fun hk hp => ((hP k).1 ((e5 k).1 hp).1).2 ((hMK k).1 hk).2
    have h3 : k ∈ s.aux.names → k ∈ MK ∨ k ∈ s.parameters := by
      intro hk
      rcases (e8 k).1 hk with hk | ⟨hk, g, o, hg, ho⟩
      · rw [i3] at hk; exact .inl hk
      · refine .inr ((e5 k).2 ⟨hk, fun g' y hg' hy => ?_⟩)
        rw [hg] at hg'
        cases hg'
        rw [ho] at hy
        cases hy
    tauto
  have hsaven : (symDiff (symDiff s.parameters s.aux.names) MK).Nodup := nodup_symDiff (nodup_symDiff e1 e3.2) hMKn
  have hdef : ∀ k ∈ symDiff (symDiff s.parameters s.aux.names) MK, k ∈ parameters ∧ wanted fns f k = default f k := by
    intro k hk
    obtain ⟨hk1, hk2⟩ := (hsave k).1 hk
    obtain ⟨hk3, hk4⟩ := (e5 k).1 hk1
    refine ⟨((hP k).1 hk3).1, ?_⟩
    have hg : Dict.get? fns k = none := by
      cases hg : Dict.get? fns k with
      | none => rfl
      | some g =>
        exfalso
        rcases hfns k g ((hP k).1 hk3).1 hg with ⟨y, hy⟩ | ⟨o, ho⟩
        · exact hk4 g y hg hy
        · exact hk2 ((e8 k).2 (.inr ⟨hk3, g, o, hg, ho⟩))
    unfold wanted
    rw [hg]
    dsimp only
    rw [if_neg ((hP k).1 hk3).2]
  have hcases : ∀ k ∈ parameters, k ∈ s.aux.names ∨ k ∈ symDiff (symDiff s.parameters s.aux.names) MK ∨
      ∃ g y, k ∈ P ∧ Dict.get? fns k = some g ∧ g f = .ok (.scalar y) := by
    intro k hk
    by_cases hm : k ∈ modelNames
    · exact .inl (hmk k ((hMK k).2 ⟨hk, hm⟩))
    · have hp := (hP k).2 ⟨hk, hm⟩
      by_cases hs : ∃ g y, Dict.get? fns k = some g ∧ g f = .ok (.scalar y)
      · obtain ⟨g, y, hg, hy⟩ := hs
        exact .inr (.inr ⟨g, y, hp, hg, hy⟩)
      · by_cases hn : k ∈ s.aux.names
        · exact .inl hn
        · refine .inr (.inl ((hsave k).2 ⟨(e5 k).2 ⟨hp, fun g y hg hy => hs ⟨g, y, hg, hy⟩⟩, hn⟩))
  generalize hS : symDiff (symDiff s.parameters s.aux.names) MK = S at hsave hsaven hdef hcases
  obtain ⟨acc, p1, p2, p3, p4, p5⟩ := params_spec f h.defs S ⟨[], s.statics⟩ hsaven
    (fun k hk => by rw [← (hdef k hk).2]; exact h.available k (hdef k hk).1) e2
  dsimp only at p2 p5
  rw [List.nil_append] at p2
  -- the dynamic table
  have hL : ∀ G ∈ acc.dfs, ∃ k ∈ S, ∃ s0, default f k = some (.series s0) ∧ G = s0.named k := by
    intro G hG
    rw [p2] at hG
    obtain ⟨k, hk, hs⟩ := List.mem_filterMap.1 hG
    refine ⟨k, hk, ?_⟩
    unfold seriesFrame at hs
    split at hs
    · cases hs; exact ⟨_, by assumption, rfl⟩
    · cases hs
  have hAent : ∀ e ∈ s.aux.ents, A.idx.length ≠ 0 := by
    intro e he hA
    obtain ⟨hk, s0, hs0, hs⟩ := hent e he
    obtain ⟨t, ht⟩ := List.exists_mem_of_ne_nil _ (h.unique _ hk s0 hs0).2
    obtain ⟨v, _, hv⟩ := t4 e he
    have := (hv t).2 (hs.2.1 t ht)
    rw [List.length_eq_zero_iff.1 hA] at this
    cases this
  have hD : ∃ D, appendAux acc.dfs (some A) = D ∧ (∀ G ∈ D, G ∈ acc.dfs ∨ G = A) ∧ (∀ G ∈ acc.dfs, G ∈ D) ∧
      (∀ e ∈ s.aux.ents, A ∈ D) ∧ D.flatMap Frame.names = acc.dfs.flatMap Frame.names ++ s.aux.names := by
    dsimp only [appendAux]
    by_cases hA : A.idx.length = 0
    · rw [if_pos hA]
      have : s.aux.names = [] := by
        rw [← e3.1]
        rw [List.eq_nil_iff_forall_not_mem]
        intro k hk
        obtain ⟨e, he, _⟩ := List.mem_map.1 hk
        exact hAent e he hA
      exact ⟨_, rfl, fun G hG => .inl hG, fun G hG => hG, fun e he => absurd hA (hAent e he), by rw [this, List.append_nil]⟩
    · rw [if_neg hA]
      refine ⟨_, rfl, fun G hG => ?_, fun G hG => List.mem_append_left _ hG, fun e he => List.mem_append_right _ List.mem_cons_self, ?_⟩
      · rcases List.mem_append.1 hG with h1 | h1
        · exact .inl h1
        · exact .inr (List.mem_singleton.1 h1)
      · rw [List.flatMap_append, List.flatMap_cons, List.flatMap_nil, List.append_nil, t2]
  obtain ⟨D, d1, d2, d3, d4, d5⟩ := hD
  have hDn : ∀ G ∈ D, G.idx.Nodup := by
    intro G hG
    rcases d2 G hG with h1 | rfl
    · obtain ⟨k, hk, s0, hs0, rfl⟩ := hL G h1
      exact (h.unique k (hdef k hk).1 s0 (by rw [(hdef k hk).2]; exact hs0)).1
    · exact t3
  have hnames : (D.flatMap Frame.names).Nodup ∧ ∀ k ∈ D.flatMap Frame.names, k ∈ parameters ∧ ∃ s0, wanted fns f k = some (.series s0) := by
    rw [d5, p2]
    obtain ⟨n1, n2⟩ := seriesFrames_names f S
    refine ⟨?_, ?_⟩
    · rw [List.nodup_append]
      refine ⟨hsaven.sublist n1, e3.2, ?_⟩
      rintro k hk k' hk' rfl
      exact ((hsave k).1 (n1.subset hk)).2 hk'
    · intro k hk
      rcases List.mem_append.1 hk with h1 | h1
      · obtain ⟨s0, hs0⟩ := n2 k h1
        have := hdef k (n1.subset h1)
        exact ⟨this.1, s0, by rw [this.2]; exact hs0⟩
      · rw [← e3.1] at h1
        obtain ⟨e, he, rfl⟩ := List.mem_map.1 h1
        obtain ⟨h2, s0, hs0, _⟩ := hent e he
        exact ⟨h2, s0, hs0⟩
  have hdyn : ∃ dyn, dynamicTable odd [("ID", (f.num : ℤ))] D = .ok dyn ∧
      (∀ k ∈ parameters, ∀ s0, wanted fns f k = some (.series s0) → ∀ r : Ret, r.dynamic = dyn → HasSeries r f.num k s0) ∧
      ∀ r : Ret, r.dynamic = dyn → OnlySeries r (wanted fns f) parameters := by
    -- the place of a series
    have hplace : ∀ k ∈ parameters, ∀ s0, wanted fns f k = some (.series s0) →
        ∃ G ∈ D, ∃ c ∈ G.cols, c.1 = k ∧ ∀ t, cellAt G.idx c.2 t = cellAt s0.idx s0.vals t ∧ (t ∈ s0.idx → t ∈ G.idx) := by
      intro k hk s0 hs0
      rcases hcases k hk with h1 | h1 | ⟨g, y, _, hg, hy⟩
      · rw [← e3.1] at h1
        obtain ⟨e, he, rfl⟩ := List.mem_map.1 h1
        obtain ⟨_, s1, hs1, hsame⟩ := hent e he
        rw [hs0] at hs1
        cases hs1
        obtain ⟨v, hv, hc⟩ := t4 e he
        exact ⟨A, d4 e he, (e.1, v), hv, rfl, fun t => ⟨(hc t).1.trans (hsame.1 t), fun ht => (hc t).2 (hsame.2.1 t ht)⟩⟩
      · have hd := (hdef k h1).2
        rw [hs0] at hd
        refine ⟨s0.named k, d3 _ ?_, (k, s0.vals), List.mem_cons_self, rfl, fun t => ⟨rfl, fun ht => ht⟩⟩
        rw [p2]
        exact List.mem_filterMap.2 ⟨k, h1, by unfold seriesFrame; rw [← hd]⟩
      · rw [hwsc k g hg y hy] at hs0
        cases hs0
    unfold dynamicTable
    by_cases hlen : D.length = 0
    · rw [if_pos hlen]
      refine ⟨none, rfl, fun k hk s0 hs0 r hr => ?_, fun r hr L F hF => ?_⟩
      · obtain ⟨G, hG, _⟩ := hplace k hk s0 hs0
        rw [List.length_eq_zero_iff.1 hlen] at hG
        cases hG
      · rw [hr] at hF
        cases hF
    · rw [if_neg hlen]
      obtain ⟨F, f1, f2, f3, f4, f5⟩ := join_spec odd D (fun e => hlen (by rw [e]; rfl)) hDn
      rw [f1]
      refine ⟨_, rfl, fun k hk s0 hs0 r hr => ?_, fun r hr L F' hF => ?_⟩
      · obtain ⟨G, hG, c, hc, rfl, hcell⟩ := hplace k hk s0 hs0
        obtain ⟨v, hv, hcv⟩ := f5 G hG c hc
        exact ⟨F, v, hr, hv, fun t => ⟨(hcv t).trans (hcell t).1, fun ht => (f4 t).2 ⟨G, hG, (hcell t).2 ht⟩⟩⟩
      · rw [hr] at hF
        cases hF
        refine ⟨by rw [f2]; exact hnames.1, f3, by rw [f2]; exact hnames.2, fun t ht => ?_⟩
        obtain ⟨G, hG, htG⟩ := (f4 t).1 ht
        rcases d2 G hG with h1 | rfl
        · obtain ⟨k, hk, s0, hs0, rfl⟩ := hL G h1
          exact ⟨k, (hdef k hk).1, s0, by rw [(hdef k hk).2]; exact hs0, htG⟩
        · obtain ⟨e, he, hte⟩ := t5 t htG
          obtain ⟨hk, s0, hs0, hs⟩ := hent e he
          rcases hs.2.2 with h1 | h1
          · exact ⟨e.1, hk, s0, hs0, by rw [← h1]; exact hte⟩
          · obtain ⟨k0, hk0, s1, hs1, h2⟩ := hbase _ h1
            exact ⟨k0, ((hMK k0).1 hk0).1, s1, hs1, by rw [h2]; exact hte⟩
  obtain ⟨dyn, dy1, dy2, dy3⟩ := hdyn
  -- the static table
  have hscal : ∀ k, k ∈ parameters → ∀ v, wanted fns f k = some (.value v) →
      ∃ b, acc.statics.get? k = some b ∧ argCell (k, b) = .ok (k, v) := by
    intro k hk v hv
    rcases hcases k hk with h1 | h1 | ⟨g, y, hp, hg, hy⟩
    · rw [← e3.1] at h1
      obtain ⟨e, he, rfl⟩ := List.mem_map.1 h1
      obtain ⟨_, s1, hs1, _⟩ := hent e he
      rw [hv] at hs1
      cases hs1
    · exact p4 k h1 v (by rw [← (hdef k h1).2]; exact hv)
    · rw [hwsc k g hg y hy] at hv
      cases hv
      refine ⟨.scalar (.num y), ?_, rfl⟩
      rw [p5 k (.inl fun hS => ((e5 k).1 ((hsave k).1 hS).1).2 g y hg hy)]
      exact e6 k g y hp hg hy
  have hstat : ∀ k b, acc.statics.get? k = some b → k ∈ parameters ∧ ∃ v, wanted fns f k = some (.value v) ∧ argCell (k, b) = .ok (k, v) := by
    intro k b hb
    have hinit : ∀ k b, s.statics.get? k = some b → k ∈ parameters ∧ ∃ v, wanted fns f k = some (.value v) := by
      intro k b hb
      by_cases hs : k ∈ P ∧ ∃ g y, Dict.get? fns k = some g ∧ g f = .ok (.scalar y)
      · obtain ⟨hp, g, y, hg, hy⟩ := hs
        exact ⟨((hP k).1 hp).1, _, hwsc k g hg y hy⟩
      · rw [e7 k] at hb
        · cases hb
        · by_cases hp : k ∈ P
          · exact .inr fun g y hg hy => hs ⟨hp, g, y, hg, hy⟩
          · exact .inl hp
    have hfin : k ∈ parameters ∧ ∃ v, wanted fns f k = some (.value v) := by
      by_cases hkS : k ∈ S
      · have hd := hdef k hkS
        obtain ⟨y, hy⟩ := Option.isSome_iff_exists.1 (h.available k hd.1)
        cases y with
        | value v => exact ⟨hd.1, v, hy⟩
        | series s0 =>
          rw [p5 k (.inr ⟨s0, by rw [← hd.2]; exact hy⟩)] at hb
          exact hinit k b hb
      · rw [p5 k (.inl hkS)] at hb
        exact hinit k b hb
    obtain ⟨hk, v, hv⟩ := hfin
    obtain ⟨b', hb', hc⟩ := hscal k hk v hv
    rw [hb] at hb'
    cases hb'
    exact ⟨hk, v, hv, hc⟩
  obtain ⟨d, c1, c2, c3⟩ := cells_spec acc.statics fun e he => by
    obtain ⟨_, v, _, hv⟩ := hstat e.1 e.2 ((Dict.get?_iff_mem p3 e.1 e.2).2 he)
    exact ⟨v, hv⟩
  have hst : ∃ st, staticTable [("ID", (f.num : ℤ))] acc.statics = .ok st ∧
      (∀ k ∈ parameters, ∀ v, wanted fns f k = some (.value v) → ∀ r : Ret, r.static = st → HasValue r f.num k v) ∧
      ∀ r : Ret, r.static = st → OnlyValues r (wanted fns f) parameters := by
    unfold staticTable
    by_cases hlen : acc.statics.length = 0
    · rw [if_pos hlen]
      refine ⟨none, rfl, fun k hk v hv r hr => ?_, fun r hr L F hF => ?_⟩
      · obtain ⟨b, hb, _⟩ := hscal k hk v hv
        rw [List.length_eq_zero_iff.1 hlen] at hb
        cases hb
      · rw [hr] at hF
        cases hF
    · rw [if_neg hlen, c1]
      refine ⟨_, rfl, fun k hk v hv r hr => ?_, fun r hr L F hF => ?_⟩
      · obtain ⟨b, hb, hc⟩ := hscal k hk v hv
        exact ⟨d, hr, c3 k b v hb hc⟩
      · rw [hr] at hF
        cases hF
        refine ⟨by rw [c2]; exact p3, fun k hk => ?_⟩
        rw [c2] at hk
        obtain ⟨b, hb⟩ := Option.isSome_iff_exists.1 ((Dict.get?_isSome _ _).2 hk)
        obtain ⟨h1, v, h2, _⟩ := hstat k b hb
        exact ⟨h1, v, h2⟩
  obtain ⟨st, st1, st2, st3⟩ := hst
  -- the metrics
  have hmt : metricTable fns metrics f = .ok (if metrics.length = 0 then none else
      some ([("ID", (f.num : ℤ))], metrics.map fun e => (e.1, some (.num (x e.1))))) := by
    unfold metricTable
    rw [metrics_spec fns f metrics x hm]
    split_ifs <;> rfl
  refine ⟨⟨dyn, st, _⟩, ?_, fun k hk s0 hs0 => dy2 k hk s0 hs0 _ rfl, fun k hk v hv => st2 k hk v hv _ rfl, dy3 _ rfl, st3 _ rfl, rfl⟩
  unfold postprocess
  rw [i1]
  dsimp only [bind, Except.bind]
  rw [e0]
  dsimp only
  rw [t1]
  dsimp only
  unfold getparams
  rw [hS, p1]
  dsimp only [bind, Except.bind, dynLabel, staticLabel]
  rw [d1, dy1]
  dsimp only
  rw [st1]
  dsimp only
  rw [hmt]
  rfl

/-! ## Units -/

theorem C116_dB (x : ℝ) (hx : 0 < x) : (10 : ℝ) ^ (toDB x / 10) = x := by
  have h10 : Real.log 10 ≠ 0 := (Real.log_pos (by norm_num)).ne'
  rw [Real.rpow_def_of_pos (by norm_num), toDB]
  rw [show Real.log 10 * (10 * (Real.log x / Real.log 10) / 10) = Real.log x by field_simp]
  exact Real.exp_log hx

theorem C116_degree (x : ℝ) : toDeg (x * Real.pi / 180) = x := by
  have := Real.pi_ne_zero
  unfold toDeg
  field_simp

/-- `_postprocess_getparams` converts the backscatter and the incidence angles as requested. -/
theorem C116_converted (odd : List Frame → Except PyErr Frame) (f : Fit) (x : String × ℤ) (y : Option (String × ℤ)) (v w : List (Option ℝ))
    (hs : Dict.get? f.dataset.cols "sig" = some v) (hi : Dict.get? f.dataset.cols "inc" = some w) (sigToDB incToDegree : Bool)
    (hd : "inc" ∉ f.defdict.keys) :
    getparams odd f ["sig", "inc"] x y [] none sigToDB incToDegree = .ok
      { dynamic := some (dynLabel x y, ⟨f.dataset.idx, [("sig", v.map (Option.map (if sigToDB = true ∧ f.dB = false then toDB else id))),
          ("inc", w.map (Option.map (if incToDegree = true then toDeg else id)))]⟩) } := by
  have hinc : "inc" ∈ f.dataset.names := (Dict.get?_isSome f.dataset.cols "inc").1 (by rw [hi]; rfl)
  have h1 : ∀ acc : Acc, paramStep f sigToDB incToDegree acc "sig" = .ok { acc with dfs := acc.dfs ++ [⟨f.dataset.idx,
      [("sig", v.map (Option.map (if sigToDB = true ∧ f.dB = false then toDB else id)))]⟩] } := by
    intro acc
    unfold paramStep
    have := Export.C86_sig f.info sigToDB incToDegree
    rw [show f.info.dB = f.dB from rfl] at this
    rw [this]
    by_cases h : sigToDB = true ∧ f.dB = false
    · rw [if_pos h, if_pos h]
      dsimp only
      rw [series_of_get? hs]
      rfl
    · rw [if_neg h, if_neg h]
      dsimp only
      rw [series_of_get? hs]
      simp [Acc.addSeries, Series.named]
  have h2 : ∀ acc : Acc, paramStep f sigToDB incToDegree acc "inc" = .ok { acc with dfs := acc.dfs ++ [⟨f.dataset.idx,
      [("inc", w.map (Option.map (if incToDegree = true then toDeg else id)))]⟩] } := by
    intro acc
    unfold paramStep
    have hd' : "inc" ∉ f.info.defdict.keys := hd
    have hinc' : "inc" ∈ f.info.columns := hinc
    by_cases h : incToDegree = true
    · have : Export.source f.info sigToDB incToDegree "inc" = some .datasetDegree := by
        simp [Export.source, h]
      rw [this, if_pos h]
      dsimp only
      rw [series_of_get? hi]
      rfl
    · have : Export.source f.info sigToDB incToDegree "inc" = some .dataset := by
        simp [Export.source, h, hd', hinc']
      rw [this, if_neg h]
      dsimp only
      rw [series_of_get? hi]
      simp [Acc.addSeries, Series.named]
  unfold getparams
  rw [List.foldlM_cons, h1]
  dsimp only [bind, Except.bind]
  rw [List.foldlM_cons, h2]
  simp [dynamicTable, appendAux, joinFrames, staticTable, bind, Except.bind, pure, Except.pure]

/-- `export_data_to_HDF` ignores these arguments. -/
theorem C116_units_fails : ¬ ∀ (odd : List Frame → Except PyErr Frame) (f : Fit) (v : List (Option ℝ)),
    Dict.get? f.dataset.cols "sig" = some v → f.dB = false →
      exportData true odd ["sig"] [] [] true false f =
        .ok { dynamic := some ([("ID", (f.num : ℤ))], ⟨f.dataset.idx, [("sig", v.map (Option.map toDB))]⟩) } := by
  intro h
  have h1 := h (fun _ => .error .valueError) ⟨3, [], ⟨[0], [("sig", [some 1])]⟩, ⟨[], []⟩, [], [], false, .ok ⟨[], []⟩, fun _ _ _ => .error .keyError⟩
    [some 1] rfl rfl
  have h2 : exportData true (fun _ => .error .valueError) ["sig"] [] [] true false
      ⟨3, [], ⟨[0], [("sig", [some 1])]⟩, ⟨[], []⟩, [], [], false, .ok ⟨[], []⟩, fun _ _ _ => .error .keyError⟩ =
        .ok { dynamic := some ([("ID", 3)], ⟨[0], [("sig", [some (1 : ℝ)])]⟩) } := by
    rfl
  rw [h2] at h1
  have h3 : (1 : ℝ) = toDB 1 := by
    have := congrArg (fun r : Except PyErr Ret => match r with
      | .ok r => r.dynamic.map fun e : Label × Frame => e.2.cols
      | .error _ => none) h1
    simpa using this
  simp [toDB] at h3

/-! ## What cannot be exported -/

theorem split_single {k : String} (h : k ∉ modelNames) : Export.splitParameters [k] = ([], [k]) := by
  simp only [modelNames, List.mem_cons, List.not_mem_nil, or_false, not_or] at h
  simp [Export.splitParameters, h]

/-- Results of the model are not converted to dB, even if this is requested from `_HDF_export_postprocess`. -/
theorem C116_model_units_fails (odd : List Frame → Except PyErr Frame) (f : Fit) (M : Frame) (hM : f.model = .ok M) (v : List (Option ℝ))
    (hv : Dict.get? M.cols "tot" = some v) (hi : M.idx ≠ []) (sigToDB : Bool) :
    postprocess true odd [] [] [] ["tot"] sigToDB false f = .ok { dynamic := some ([("ID", (f.num : ℤ))], ⟨M.idx, [("tot", v)]⟩) } := by
  have h1 : modelCols true f ["tot"] = .ok ⟨M.idx, [("tot", v)]⟩ := by
    unfold modelCols
    rw [hM]
    dsimp only [bind, Except.bind]
    rw [if_pos rfl, List.mapM_cons, series_of_get? hv]
    rfl
  have hl : M.idx.length ≠ 0 := fun h => hi (List.length_eq_zero_iff.1 h)
  unfold postprocess initAux
  rw [h1]
  simp [getparams, Except.map, bind, Except.bind, Aux.toFrame, Aux.names, Frame.names, symDiff, appendAux, hl, dynamicTable, joinFrames, staticTable,
    metricTable, dynLabel, pure, Except.pure]

/-- A fixed parameter cannot be exported. -/
theorem C116_fixed_fails (setOk : Bool) (odd : List Frame → Except PyErr Frame) (f : Fit) (hd : f.defdict.keys.Nodup) (k : String)
    (h1 : k ≠ "sig") (h2 : k ∉ modelNames) (e : Export.Entry) (he : f.defdict.get? k = some e) (hg : groupOf e = .constant)
    (metrics : Dict String MSpec) (sigToDB incToDegree : Bool) :
    exportData setOk odd [k] metrics [] sigToDB incToDegree f = .error .attributeError := by
  have hs := Export.source_definition f.info hd false false k e (Dict.mem_of_get? he) h1 (.inr rfl)
  rw [hg] at hs
  have hsp := split_single h2
  unfold exportData
  rw [hsp]
  simp [postprocess, initAux, Aux.toFrame, bind, Except.bind, pure, Except.pure, getparams, symDiff, Aux.names, Dict.keys, paramStep, hs]

/-- If pandas does not accept a set of columns, no model results can be exported. -/
theorem C116_set_fails (odd : List Frame → Except PyErr Frame) (parameters : List String) (k : String) (hk : k ∈ parameters)
    (hm : k ∈ modelNames) (metrics : Dict String MSpec) (fns : Dict String Fn) (sigToDB incToDegree : Bool) (f : Fit) (M : Frame)
    (hM : f.model = .ok M) : exportData false odd parameters metrics fns sigToDB incToDegree f = .error .typeError := by
  have h1 : (Export.splitParameters parameters).1 ≠ [] := List.ne_nil_of_mem (mem_model.2 ⟨hk, hm⟩)
  unfold exportData postprocess initAux
  rw [if_neg h1]
  unfold modelCols
  rw [hM]
  rfl

/-- Export functions of model results are not used. -/
theorem C116_override_fails (setOk : Bool) (odd : List Frame → Except PyErr Frame) (parameters : List String) (k : String) (hm : k ∈ modelNames)
    (g : Fn) (sigToDB incToDegree : Bool) (f : Fit) :
    exportData setOk odd parameters [] [(k, g)] sigToDB incToDegree f = exportData setOk odd parameters [] [] sigToDB incToDegree f := by
  have h : k ∉ (Export.splitParameters parameters).2 := fun hk => (mem_params.1 hk).2 hm
  unfold exportData postprocess
  cases initAux setOk f (Export.splitParameters parameters).1 with
  | error e => rfl
  | ok a =>
    dsimp only [bind, Except.bind]
    rw [List.foldlM_cons]
    have : fnStep f ⟨(Export.splitParameters parameters).2, [], a⟩ (k, g) = .ok ⟨(Export.splitParameters parameters).2, [], a⟩ := by
      unfold fnStep
      rw [if_neg h]
    rw [this]
    rfl

/-- A DataFrame, as required by the documentation, cannot be exported. -/
theorem C116_frame_fails (setOk : Bool) (odd : List Frame → Except PyErr Frame) (k : String) (hm : k ∉ modelNames) (g : Fn) (f : Fit) (F : Frame)
    (hg : g f = .ok (.obj (.frame F))) (metrics : Dict String MSpec) (sigToDB incToDegree : Bool) :
    exportData setOk odd [k] metrics [(k, g)] sigToDB incToDegree f = .error .valueError := by
  have hsp := split_single hm
  unfold exportData
  rw [hsp]
  simp [postprocess, initAux, bind, Except.bind, pure, Except.pure, fnStep, hg, Aux.add, Dict.set, Aux.toFrame, objCol]

/-- A list in `reader_arg` (with more than one element) cannot be exported. -/
theorem C116_list_fails (setOk : Bool) (odd : List Frame → Except PyErr Frame) (f : Fit) (k : String) (h1 : k ≠ "sig") (h2 : k ∉ modelNames)
    (h3 : k ∉ f.defdict.keys) (h4 : k ∉ f.dataset.names) (a b : SVal) (l : List SVal) (ha : f.readerArg.get? k = some (.list (a :: b :: l)))
    (metrics : Dict String MSpec) (sigToDB incToDegree : Bool) :
    exportData setOk odd [k] metrics [] sigToDB incToDegree f = .error .valueError := by
  have hsp := split_single h2
  have hs := source_other f h1 h3
  rw [if_neg h4, if_pos ((Dict.get?_isSome _ _).1 (by rw [ha]; rfl))] at hs
  unfold exportData
  rw [hsp]
  simp [postprocess, initAux, Aux.toFrame, bind, Except.bind, pure, Except.pure, getparams, symDiff, Aux.names, Dict.keys, paramStep, hs,
    argValue, ha, Acc.addStatic, Dict.set, dynamicTable, appendAux, staticTable, argCell]

/-- With model results, rows of an exported series without model results get lost. -/
theorem C116_rows_fails : ¬ ∀ (odd : List Frame → Except PyErr Frame) (f : Fit) (M : Frame) (g : Fn) (s : Series), f.model = .ok M →
    "tot" ∈ M.names → M.idx.Nodup → s.idx.Nodup → g f = .ok (.obj (.series s)) →
    ∃ r, exportData true odd ["tot", "a"] [] [("a", g)] false false f = .ok r ∧ HasSeries r f.num "a" s := by
  intro h
  obtain ⟨r, h1, F, v, h2, h3, h4⟩ := h (fun _ => .error .valueError)
    ⟨3, [], ⟨[0], []⟩, ⟨[], []⟩, [], [], false, .ok ⟨[0], [("tot", [some 1])]⟩, fun _ _ _ => .error .keyError⟩ ⟨[0], [("tot", [some 1])]⟩
    (fun _ => .ok (.obj (.series ⟨[0, 1], [some 2, some 3]⟩))) ⟨[0, 1], [some 2, some 3]⟩ rfl (by decide) (by decide) (by decide) rfl
  have h5 : exportData true (fun _ => .error .valueError) ["tot", "a"] [] [("a", fun _ => .ok (.obj (.series ⟨[0, 1], [some 2, some 3]⟩)))] false false
      ⟨3, [], ⟨[0], []⟩, ⟨[], []⟩, [], [], false, .ok ⟨[0], [("tot", [some 1])]⟩, fun _ _ _ => .error .keyError⟩ =
      .ok { dynamic := some ([("ID", 3)], ⟨[0], [("tot", [some 1]), ("a", [some 2])]⟩) } := by
    rfl
  rw [h5] at h1
  cases h1
  cases h2
  have := (h4 1).2 (by decide)
  simp at this

/-- A metric that is not a single number (`linregress`) is exported as NaN. -/
theorem C116_linregress_fails (fns : Dict String Fn) (f : Fit) (name m d1 d2 : String) (h : f.metric m.toLower d1 d2 = .ok .dict) :
    metricTable fns [(name, .triple m d1 d2)] f = .ok (some ([("ID", (f.num : ℤ))], [(name, none)])) := by
  simp [metricTable, metricCell, builtin, h, Except.map, MVal.cell, bind, Except.bind, pure, Except.pure]

/-- A custom metric without export function is read from the attributes `u`, `s` and `c`. -/
theorem C116_custom_fails (fns : Dict String Fn) (f : Fit) (name : String) (hn : name ∉ fns.keys) (e : PyErr) (h : f.metric "c" "u" "s" = .error e) :
    metricTable fns [(name, .custom)] f = .error e := by
  have := (Dict.get?_eq_none fns name).2 hn
  simp [metricTable, metricCell, builtin, h, this, Except.map, bind, Except.bind]

/-- If two index-levels are used, the static table is not labelled with the given names. -/
theorem C116_yindex_fails (odd : List Frame → Except PyErr Frame) (f : Fit) (x y : String × ℤ) (k : String) (v : SVal) (sigToDB incToDegree : Bool) :
    getparams odd f [] x (some y) [(k, .scalar v)] none sigToDB incToDegree =
      .ok { static := some ([("x", x.2), ("y", y.2)], [(k, v)]) } := by
  simp [getparams, dynamicTable, appendAux, staticTable, staticLabel, argCell, bind, Except.bind, pure, Except.pure]

/-! ## Examples -/

/-- A fit with a time series of the vegetation (`omega`), a constant (`tau`), and a column of the dataset. -/
def exFit : Fit where
  num := 7
  defdict := [("omega", ⟨true, false, .str "M"⟩), ("tau", ⟨true, false, .none⟩), ("v", ⟨false, false, .none⟩)]
  dataset := ⟨[0, 1, 2], [("sig", [some 1, some 2, some 3]), ("lai", [some 4, none, some 5])]⟩
  resDf := ⟨[0, 2], [("omega", [some 6, some 7]), ("tau", [some 8, some 8])]⟩
  resDict := [("omega", [6, 7]), ("tau", [8])]
  readerArg := [("site", .scalar (.str "a"))]
  dB := false
  model := .ok ⟨[0, 1, 2], [("tot", [some 1, some 1, some 1]), ("surf", [some 1, some 1, some 1])]⟩
  metric := fun _ d1 d2 => if d1 = "sig" ∧ d2 = "tot" then .ok (.num 2) else .error .attributeError

example : Valid true ["omega", "tau", "lai", "site", "tot", "x", "n"]
    [("x", fun _ => .ok (.obj (.series ⟨[0, 1], [some 5, some 6]⟩))), ("n", fun _ => .ok (.scalar 3))] exFit where
  set := .inl rfl
  defs := by decide
  fnKeys := by decide
  fnModel := by decide
  available := by
    intro k hk
    fin_cases hk <;> rfl
  unique := by
    intro k hk s hs
    fin_cases hk <;> cases hs <;> exact ⟨by decide, by decide⟩
  inModel := by
    intro k hk hf s hs k' hk' hm s' hs'
    fin_cases hf
    · cases hs
      fin_cases hk' <;> first | (cases hs'; decide) | (exfalso; revert hm; decide)
    · cases hs

example : (exFit.defdict.get? "v").map groupOf = some .constant ∧ "v" ∉ modelNames := by decide

example : MetricIs [] exFit ("R", .triple "pearson" "sig" "tot") 2 := .triple _ _ _ _ _ (by simp [exFit])

end ExportTables
end RT1
