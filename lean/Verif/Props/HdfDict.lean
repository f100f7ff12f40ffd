import Verif.Model.HdfDict
import Verif.Props.Database

/-!
# The tables that are stored for a fit (C114)
-/

namespace RT1
namespace HdfDict

/-! ## Specification -/

/-- All rows have this label. -/
def Labelled (v : Val) (t : Table) : Prop := ∀ e ∈ t, e.1 = v

/-- A row without config. -/
def plain (e : Int × Cells) : Row := ⟨none, some e.1, e.2⟩

/-- All rows of the DataFrame, with the label. -/
def LabelledFrame (v : Val) (df : DF) (t : Table) : Prop := t = df.map fun e => (v, plain e)

/-- The rows of all configs one after the other. -/
def CfgFrames (v : Val) (get : Cfg → Except PyErr DF) (cs : List (String × Cfg)) (t : Table) : Prop :=
  ∃ dfs, List.Forall₂ (fun nc df => get nc.2 = .ok df) cs dfs ∧
    t = (List.zipWith (fun nc df => df.map fun e => (v, (⟨some nc.1, some e.1, e.2⟩ : Row))) cs dfs).flatten

/-! ## Lemmas -/

def opt : Except PyErr (Option Table) → Option Table
  | .ok (some t) => some t
  | _ => none

theorem get_tryAdd (hf : Dict String Table) (k : String) (x : Except PyErr (Option Table)) (k' : String) :
    (tryAdd hf k x).get? k' = if k' = k then (opt x).or (hf.get? k) else hf.get? k' := by
  match x with
  | .ok (some t) =>
    show (hf.set k t).get? k' = _
    rw [Dict.get?_set]
    by_cases h : k' = k
    · rw [if_pos h, if_pos h]; rfl
    · rw [if_neg h, if_neg h]
  | .ok none =>
    show hf.get? k' = _
    by_cases h : k' = k
    · rw [if_pos h, h]; rfl
    · rw [if_neg h]
  | .error e =>
    show hf.get? k' = _
    by_cases h : k' = k
    · rw [if_pos h, h]; rfl
    · rw [if_neg h]

theorem get_tables (setOk : Bool) (o : Obj) (kw : Kwargs) (v : Val) (k : String) :
    (tables setOk o kw v).get? k =
      if k = "res_df" then opt (ifFlag (kw.saveResDf.getD true) (resTable Cfg.resDf v o.kind))
      else if k = "res_dict" then opt (ifFlag kw.saveResults (resTable Cfg.res v o.kind))
      else if k = "aux_data" then opt (auxTable o kw v)
      else if k = "dataset" then opt (dataTable setOk o kw v)
      else if k = "const__reader_arg" then some (argTable v o.readerArg)
      else if k = "init_dict" then opt ((initTable v o.kind).map some)
      else none := by
  unfold tables
  dsimp only
  simp only [get_tryAdd, Dict.get?_set, Dict.get?_nil]
  by_cases h1 : k = "res_df"
  · subst h1; simp
  by_cases h2 : k = "res_dict"
  · subst h2; simp
  by_cases h3 : k = "aux_data"
  · subst h3; simp
  by_cases h4 : k = "dataset"
  · subst h4; simp
  by_cases h5 : k = "const__reader_arg"
  · subst h5; simp
  by_cases h6 : k = "init_dict"
  · subst h6; simp
  simp [h1, h2, h3, h4, h5, h6]

theorem opt_some {x : Except PyErr (Option Table)} {t : Table} : opt x = some t ↔ x = .ok (some t) := by
  match x with
  | .ok (some t') => simp [opt]
  | .ok none => simp [opt]
  | .error e => simp [opt]

theorem map_some {x : Except PyErr Table} {t : Table} : x.map some = .ok (some t) ↔ x = .ok t := by
  cases x with
  | error e => simp [Except.map]
  | ok t' => simp [Except.map]

theorem ifFlag_some {b : Bool} {x : Except PyErr Table} {t : Table} : ifFlag b x = .ok (some t) ↔ b = true ∧ x = .ok t := by
  unfold ifFlag
  cases b with
  | true => simp [map_some]
  | false => simp

theorem mapM_forall2 {α β : Type} (f : α → Except PyErr β) : ∀ (l : List α) (r : List β), l.mapM f = .ok r ↔ List.Forall₂ (fun a b => f a = .ok b) l r
  | [], r => by
    rw [List.mapM_nil]
    constructor
    · intro h; cases h; exact .nil
    · intro h; cases h; rfl
  | a :: l, r => by
    rw [List.mapM_cons]
    cases ha : f a with
    | error e =>
      simp only [bind, Except.bind]
      constructor
      · intro h; cases h
      · intro h; cases h with
        | cons h _ => rw [ha] at h; cases h
    | ok b =>
      simp only [bind, Except.bind]
      cases hl : l.mapM f with
      | error e =>
        simp only
        constructor
        · intro h; cases h
        · intro h; cases h with
          | cons _ h2 => rw [(mapM_forall2 f l _).2 h2] at hl; cases hl
      | ok bs =>
        simp only [pure, Except.pure]
        constructor
        · intro h; cases h; exact .cons ha ((mapM_forall2 f l bs).1 hl)
        · intro h
          cases h with
          | cons h1 h2 =>
            rw [ha] at h1; cases h1
            rw [(mapM_forall2 f l _).2 h2] at hl; cases hl
            rfl

theorem concat_ok {l : List Table} {t : Table} : concat l = .ok t ↔ l ≠ [] ∧ t = l.flatten := by
  unfold concat
  cases l with
  | nil => simp
  | cons a l => simp [eq_comm]

theorem resTable_single (get : Cfg → Except PyErr DF) (v : Val) (c : Cfg) (t : Table) :
    resTable get v (.single c) = .ok t ↔ ∃ df, get c = .ok df ∧ LabelledFrame v df t := by
  unfold resTable LabelledFrame
  dsimp only
  cases hg : get c with
  | error e => simp [bind, Except.bind]
  | ok df =>
    simp only [bind, Except.bind, Except.ok.injEq, exists_eq_left']
    unfold cfgRows plain
    exact eq_comm

theorem resTable_multi (get : Cfg → Except PyErr DF) (v : Val) (cs : List (String × Cfg)) (t : Table) :
    resTable get v (.multi cs) = .ok t ↔ cs ≠ [] ∧ CfgFrames v get cs t := by
  unfold resTable CfgFrames
  dsimp only
  have key : ∀ (l : List Table), cs.mapM (fun nc => do
      let df ← get nc.2
      .ok (cfgRows v (some nc.1) df)) = Except.ok l ↔ ∃ dfs, List.Forall₂ (fun nc df => get nc.2 = .ok df) cs dfs ∧
        l = List.zipWith (fun nc df => df.map fun e => (v, (⟨some nc.1, some e.1, e.2⟩ : Row))) cs dfs := by
    intro l
    rw [mapM_forall2]
    constructor
    · intro h
      induction h with
      | nil => exact ⟨[], .nil, rfl⟩
      | @cons nc b cs l h _ ih =>
        obtain ⟨dfs, h1, h2⟩ := ih
        cases hg : get nc.2 with
        | error e => rw [hg] at h; cases h
        | ok df =>
          rw [hg] at h
          simp only [bind, Except.bind, Except.ok.injEq] at h
          refine ⟨df :: dfs, .cons hg h1, ?_⟩
          rw [List.zipWith_cons_cons, ← h2, ← h]; rfl
    · rintro ⟨dfs, h1, rfl⟩
      induction h1 with
      | nil => exact .nil
      | cons h _ ih =>
        refine .cons ?_ ih
        rw [h]; rfl
  cases hm : cs.mapM (fun nc => do
      let df ← get nc.2
      .ok (cfgRows v (some nc.1) df)) with
  | error e =>
    simp only [bind, Except.bind, reduceCtorEq, false_iff, not_and, not_exists]
    rintro _ dfs h _
    have := (key _).2 ⟨dfs, h, rfl⟩
    simp only [bind, Except.bind] at this hm
    rw [this] at hm; cases hm
  | ok l =>
    obtain ⟨dfs, h1, h2⟩ := (key l).1 hm
    show concat l = _ ↔ _
    rw [concat_ok]
    have hl : l.length = cs.length := by rw [h2, List.length_zipWith, h1.length_eq, min_self]
    have hne : l ≠ [] ↔ cs ≠ [] := by
      rw [← List.length_pos_iff, ← List.length_pos_iff, hl]
    rw [hne]
    refine and_congr_right fun _ => ?_
    constructor
    · rintro rfl; exact ⟨dfs, h1, by rw [h2]⟩
    · rintro ⟨dfs', h3, h4⟩
      have := (key _).2 ⟨dfs', h3, rfl⟩
      rw [hm] at this
      cases this
      exact h4

theorem hdf_ok {setOk : Bool} {o : Obj} {kw : Kwargs} {v : Val} {hf : Dict String Table} (h : hdfDict setOk o kw (some v) = .ok hf) :
    hf = tables setOk o kw v := by
  unfold hdfDict at h
  split at h
  · cases h
  · simp only [useID] at h; cases h; rfl

/-! ## C114: labels -/

theorem tables_labelled (setOk : Bool) (o : Obj) (kw : Kwargs) (v : Val) (key : String) (t : Table)
    (h : (tables setOk o kw v).get? key = some t) : Labelled v t := by
  have hpre : ∀ df, Labelled v (prependID v df) := by
    intro df e he
    obtain ⟨x, _, rfl⟩ := List.mem_map.1 he
    rfl
  have hres : ∀ get t, resTable get v o.kind = .ok t → Labelled v t := by
    intro get t ht
    cases hk : o.kind with
    | single c =>
      rw [hk, resTable_single] at ht
      obtain ⟨df, _, rfl⟩ := ht
      intro e he
      obtain ⟨x, _, rfl⟩ := List.mem_map.1 he
      rfl
    | multi cs =>
      rw [hk, resTable_multi] at ht
      obtain ⟨hne, dfs, hf, rfl⟩ := ht
      clear hk hne
      intro e he
      induction hf with
      | nil => cases he
      | cons _ _ ih =>
        rw [List.zipWith_cons_cons, List.flatten_cons, List.mem_append] at he
        rcases he with he | he
        · obtain ⟨x, _, rfl⟩ := List.mem_map.1 he; rfl
        · exact ih he
  rw [get_tables] at h
  split_ifs at h with h1 h2 h3 h4 h5 h6
  · exact hres _ t (ifFlag_some.1 (opt_some.1 h)).2
  · exact hres _ t (ifFlag_some.1 (opt_some.1 h)).2
  · have := opt_some.1 h
    unfold auxTable at this
    split_ifs at this
    · split at this
      · cases this
      · cases this; exact hpre _
      · cases this
    · cases this
  · have := opt_some.1 h
    unfold dataTable at this
    split_ifs at this
    · simp only [Except.ok.injEq, Option.map_eq_some_iff] at this
      obtain ⟨df, _, rfl⟩ := this
      exact hpre _
    · cases hd : dynKeys o.kind with
      | error e => rw [hd] at this; cases this
      | ok cols =>
        rw [hd] at this
        simp only [bind, Except.bind] at this
        cases hc : dynCols setOk o.dataset cols with
        | error e => rw [hc] at this; cases this
        | ok df => rw [hc] at this; cases this; exact hpre _
    · cases this
  · cases h
    unfold argTable
    split <;> (intro e he; rw [List.mem_singleton.1 he])
  · have := map_some.1 (opt_some.1 h)
    cases hk : o.kind with
    | single c =>
      rw [hk] at this
      unfold initTable at this
      dsimp only at this
      cases hi : c.init with
      | error e => rw [hi] at this; cases this
      | ok a => rw [hi] at this; cases this; intro e he; rw [List.mem_singleton.1 he]
    | multi cs =>
      rw [hk] at this
      unfold initTable at this
      dsimp only at this
      cases hm : cs.mapM (fun nc => do
          let a ← nc.2.init
          .ok ([(v, ⟨some nc.1, none, a⟩)] : Table)) with
      | error e => rw [hm] at this; cases this
      | ok l =>
        rw [hm] at this
        have := (concat_ok.1 this).2
        subst this
        rw [mapM_forall2] at hm
        clear hk h this
        intro e he
        induction hm with
        | nil => cases he
        | @cons nc b _ _ h1 _ ih =>
          rw [List.flatten_cons, List.mem_append] at he
          rcases he with he | he
          · cases hi : nc.2.init with
            | error e => rw [hi] at h1; cases h1
            | ok a => rw [hi] at h1; cases h1; rw [List.mem_singleton.1 he]
          · exact ih he

/-- For a site that has just been fitted, all rows of all tables have the number that has been assigned to the site.  (Missing: sites whose fit
has been dumped before, see `C114_existing_fails`.) -/
theorem C114_number_partial (setOk : Bool) (o : Obj) (kw : Kwargs) (v : Val) (hf : Dict String Table)
    (h : fresh setOk o kw (some v) = .ok hf) (key : String) (t : Table) (ht : hf.get? key = some t) : Labelled v t := by
  rw [hdf_ok h] at ht
  exact tables_labelled setOk o kw v key t ht

/-- For a dumped fit (whose dump has no number) all rows have the ID instead of the number. -/
theorem C114_existing_fails (setOk : Bool) (o : Obj) (s : String) (h1 : o.idNum = none) (h2 : o.ident = .ok (.str s)) :
    ∃ hf, existing setOk o = .ok hf ∧ (∃ t, hf.get? "const__reader_arg" = some t ∧ t ≠ []) ∧
      ∀ key t, hf.get? key = some t → Labelled (.str s) t := by
  refine ⟨tables setOk o {} (.str s), ?_, ⟨argTable (.str s) o.readerArg, ?_, ?_⟩, tables_labelled setOk o {} (.str s)⟩
  · unfold existing hdfDict useID
    rw [h1, h2]
    cases o.kind <;> rfl
  · rw [get_tables]; simp
  · unfold argTable; split <;> simp

/-! ## C114: contents -/

/-- The specification of the fit is always stored, if it can be evaluated. -/
theorem C114_init (setOk : Bool) (o : Obj) (kw : Kwargs) (v : Val) (hf : Dict String Table) (h : hdfDict setOk o kw (some v) = .ok hf)
    (c : Cfg) (hk : o.kind = .single c) (t : Table) :
    hf.get? "init_dict" = some t ↔ ∃ a, c.init = .ok a ∧ t = [(v, ⟨none, none, a⟩)] := by
  rw [hdf_ok h, get_tables]
  simp only [String.reduceEq, if_false, if_true]
  rw [opt_some, map_some, hk]
  unfold initTable
  dsimp only
  cases c.init with
  | error e => simp [bind, Except.bind]
  | ok a => simp [bind, Except.bind, eq_comm]

/-- … and those of all configs, in their order, if all of them can be evaluated.  (Missing: `C114_one_config_fails`.) -/
theorem C114_init_multi_partial (setOk : Bool) (o : Obj) (kw : Kwargs) (v : Val) (hf : Dict String Table)
    (h : hdfDict setOk o kw (some v) = .ok hf) (cs : List (String × Cfg)) (hk : o.kind = .multi cs) (hne : cs ≠ []) (as : List Cells)
    (ha : List.Forall₂ (fun nc a => nc.2.init = .ok a) cs as) :
    hf.get? "init_dict" = some (List.zipWith (fun nc a => (v, ⟨some nc.1, none, a⟩)) cs as) := by
  rw [hdf_ok h, get_tables]
  simp only [String.reduceEq, if_false, if_true]
  rw [opt_some, map_some, hk]
  unfold initTable
  dsimp only
  have hm : cs.mapM (fun nc => do
      let a ← nc.2.init
      .ok ([(v, ⟨some nc.1, none, a⟩)] : Table)) = .ok (List.zipWith (fun nc a => [(v, ⟨some nc.1, none, a⟩)]) cs as) := by
    rw [mapM_forall2]
    clear hk hne
    induction ha with
    | nil => exact .nil
    | cons h1 _ ih => exact .cons (by rw [h1]; rfl) ih
  rw [hm]
  show concat _ = _
  rw [concat_ok]
  constructor
  · cases cs with
    | nil => exact absurd rfl hne
    | cons a cs => cases ha; simp
  · clear hk hne hm
    induction ha with
    | nil => rfl
    | cons _ _ ih => rw [List.zipWith_cons_cons, List.zipWith_cons_cons, List.flatten_cons, ← ih]; rfl

/-- A `reader_arg` with scalar values is stored as it is. (Missing: lists, see `C114_arg_fails`.) -/
theorem C114_arg_partial (setOk : Bool) (o : Obj) (kw : Kwargs) (v : Val) (hf : Dict String Table) (h : hdfDict setOk o kw (some v) = .ok hf)
    (cells : Cells) (hc : o.readerArg = cells.map fun e => (e.1, .scalar e.2)) :
    hf.get? "const__reader_arg" = some [(v, ⟨none, none, cells⟩)] := by
  rw [hdf_ok h, get_tables]
  simp only [String.reduceEq, if_false, if_true]
  unfold argTable
  have : o.readerArg.mapM argCell = .ok cells := by
    rw [hc, mapM_forall2, List.forall₂_map_left_iff]
    induction cells with
    | nil => exact .nil
    | cons e l ih =>
      clear ih hc
      exact .cons rfl (List.forall₂_same.2 fun _ _ => rfl)
  rw [this]

/-- With `save_data` the dataset is stored; otherwise, with `save_results`, the columns of the manual dynamics of a `Fits` object; otherwise
nothing.  (Missing: `MultiFits` without `save_data`, see `C114_multi_data_fails`, and pandas versions that do not accept a set of columns, see
`C114_set_fails`.) -/
theorem C114_dataset_partial (o : Obj) (kw : Kwargs) (v : Val) (hf : Dict String Table) (h : hdfDict true o kw (some v) = .ok hf)
    (df : DF) (hd : o.dataset = some df) :
    (kw.saveData = true → ∃ t, hf.get? "dataset" = some t ∧ LabelledFrame v df t) ∧
    (kw.saveData = false → kw.saveResults = false → hf.get? "dataset" = none) ∧
    (kw.saveData = false → kw.saveResults = true → ∀ c, o.kind = .single c →
      (∀ e ∈ df, ∀ k ∈ c.manual, ∃ x, Dict.get? e.2 (k ++ "_dyn") = some x) →
      ∃ df' t, hf.get? "dataset" = some t ∧ LabelledFrame v df' t ∧ df'.map Prod.fst = df.map Prod.fst ∧
        List.Forall₂ (fun e e' => e'.2.map Prod.fst = c.manual.map (fun k => k ++ "_dyn") ∧
          ∀ k ∈ c.manual, Dict.get? e'.2 (k ++ "_dyn") = Dict.get? e.2 (k ++ "_dyn")) df df') := by
  rw [hdf_ok h, get_tables]
  simp only [String.reduceEq, if_false, if_true]
  refine ⟨fun h1 => ⟨prependID v df, ?_, rfl⟩, fun h1 h2 => ?_, fun h1 h2 c hk hc => ?_⟩
  · rw [opt_some]; unfold dataTable; rw [if_pos h1, hd]; rfl
  · unfold dataTable
    rw [if_neg (by simp [h1]), if_neg (by simp [h2])]
    rfl
  · have row : ∀ e : Int × Cells, (∀ k ∈ c.manual, ∃ x, Dict.get? e.2 (k ++ "_dyn") = some x) →
        ∃ e', selectRow (c.manual.map fun k => k ++ "_dyn") e = .ok e' ∧ e'.1 = e.1 ∧
          e'.2.map Prod.fst = c.manual.map (fun k => k ++ "_dyn") ∧
          ∀ k ∈ c.manual, Dict.get? e'.2 (k ++ "_dyn") = Dict.get? e.2 (k ++ "_dyn") := by
      intro e he
      have : ∃ cells : Cells, (c.manual.map fun k => k ++ "_dyn").mapM (cellOf e.2) = .ok cells ∧
          cells.map Prod.fst = c.manual.map (fun k => k ++ "_dyn") ∧ ∀ p ∈ cells, Dict.get? e.2 p.1 = some p.2 := by
        clear hk hc
        generalize c.manual = man at he ⊢
        induction man with
        | nil => exact ⟨[], rfl, rfl, by simp⟩
        | cons k l ih =>
          obtain ⟨cells, h1, h2, h3⟩ := ih fun k' hk' => he k' (List.mem_cons_of_mem _ hk')
          obtain ⟨x, hx⟩ := he k (by simp)
          refine ⟨(k ++ "_dyn", x) :: cells, ?_, by rw [List.map_cons, List.map_cons, h2], ?_⟩
          · have hx' : cellOf e.2 (k ++ "_dyn") = .ok (k ++ "_dyn", x) := by unfold cellOf; rw [hx]
            rw [List.map_cons, List.mapM_cons, hx', h1]; rfl
          · intro p hp
            rcases List.mem_cons.1 hp with rfl | hp
            · exact hx
            · exact h3 p hp
      obtain ⟨cells, h1, h2, h3⟩ := this
      refine ⟨(e.1, cells), ?_, rfl, h2, fun k hk => ?_⟩
      · unfold selectRow; rw [h1]; rfl
      · have hm : k ++ "_dyn" ∈ Dict.keys cells := by
          show _ ∈ cells.map Prod.fst
          rw [h2]; exact List.mem_map.2 ⟨k, hk, rfl⟩
        rw [← Dict.get?_isSome] at hm
        obtain ⟨x, hx⟩ := Option.isSome_iff_exists.1 hm
        rw [hx, h3 _ (Dict.mem_of_get? hx)]
    have all : ∃ df', df.mapM (selectRow (c.manual.map fun k => k ++ "_dyn")) = .ok df' ∧ df'.map Prod.fst = df.map Prod.fst ∧
        List.Forall₂ (fun e e' => e'.2.map Prod.fst = c.manual.map (fun k => k ++ "_dyn") ∧
          ∀ k ∈ c.manual, Dict.get? e'.2 (k ++ "_dyn") = Dict.get? e.2 (k ++ "_dyn")) df df' := by
      clear hd
      induction df with
      | nil => exact ⟨[], rfl, rfl, .nil⟩
      | cons e df ih =>
        obtain ⟨df', h1, h2, h3⟩ := ih fun e' he' => hc e' (List.mem_cons_of_mem _ he')
        obtain ⟨e', h4, h5, h6⟩ := row e (hc e (by simp))
        refine ⟨e' :: df', ?_, by rw [List.map_cons, List.map_cons, h2, h5], .cons h6 h3⟩
        rw [List.mapM_cons, h4, h1]; rfl
    obtain ⟨df', h3, h4, h5⟩ := all
    refine ⟨df', prependID v df', ?_, rfl, h4, h5⟩
    rw [opt_some]
    unfold dataTable dynKeys dynCols
    rw [if_neg (by simp [h1]), if_pos h2, hk, hd]
    simp only [bind, Except.bind, if_true, h3]

/-- The auxiliary data are stored if this is requested. (Missing: more than one auxiliary dataset, see `C114_aux_fails`.) -/
theorem C114_aux_partial (setOk : Bool) (o : Obj) (kw : Kwargs) (v : Val) (hf : Dict String Table) (h : hdfDict setOk o kw (some v) = .ok hf) :
    (kw.saveAux = true → ∀ df, o.aux = some (.frame df) → ∃ t, hf.get? "aux_data" = some t ∧ LabelledFrame v df t) ∧
    (kw.saveAux = false ∨ o.aux = none → hf.get? "aux_data" = none) := by
  rw [hdf_ok h, get_tables]
  simp only [String.reduceEq, if_false, if_true]
  refine ⟨fun h1 df hd => ⟨prependID v df, ?_, rfl⟩, fun h1 => ?_⟩
  · rw [opt_some]; unfold auxTable; rw [if_pos h1, hd]
  · unfold auxTable
    rcases h1 with h1 | h1
    · rw [if_neg (by simp [h1])]; rfl
    · rw [h1]; split_ifs <;> rfl

/-- The results (and the results on the index of the data) are stored if this is requested and they can be evaluated. -/
theorem C114_results (setOk : Bool) (o : Obj) (kw : Kwargs) (v : Val) (hf : Dict String Table) (h : hdfDict setOk o kw (some v) = .ok hf)
    (c : Cfg) (hk : o.kind = .single c) (t : Table) :
    (hf.get? "res_dict" = some t ↔ kw.saveResults = true ∧ ∃ df, c.res = .ok df ∧ LabelledFrame v df t) ∧
      (hf.get? "res_df" = some t ↔ kw.saveResDf ≠ some false ∧ ∃ df, c.resDf = .ok df ∧ LabelledFrame v df t) := by
  rw [hdf_ok h]
  simp only [get_tables, String.reduceEq, if_false, if_true]
  rw [opt_some, opt_some, ifFlag_some, ifFlag_some, hk, resTable_single, resTable_single]
  refine ⟨Iff.rfl, and_congr_left fun _ => ?_⟩
  match kw.saveResDf with
  | none => simp
  | some true => simp
  | some false => simp

/-- … for a `MultiFits` object with the rows of all configs. -/
theorem C114_results_multi (setOk : Bool) (o : Obj) (kw : Kwargs) (v : Val) (hf : Dict String Table)
    (h : hdfDict setOk o kw (some v) = .ok hf) (cs : List (String × Cfg)) (hk : o.kind = .multi cs) (t : Table) :
    (hf.get? "res_dict" = some t ↔ kw.saveResults = true ∧ cs ≠ [] ∧ CfgFrames v Cfg.res cs t) ∧
      (hf.get? "res_df" = some t ↔ cs ≠ [] ∧ CfgFrames v Cfg.resDf cs t) := by
  have hr : kw.saveResDf = none := by
    unfold hdfDict at h
    rw [hk] at h
    cases hs : kw.saveResDf with
    | none => rfl
    | some b => rw [hs] at h; cases h
  rw [hdf_ok h]
  simp only [get_tables, String.reduceEq, if_false, if_true]
  rw [opt_some, opt_some, ifFlag_some, ifFlag_some, hk, resTable_multi, resTable_multi, hr]
  simp

/-- Nothing else is stored, and only the missing ID of a fit or `save_res_df` for a `MultiFits` object are exceptions. -/
theorem C114_keys (setOk : Bool) (o : Obj) (kw : Kwargs) (v : Val) (hf : Dict String Table) (h : hdfDict setOk o kw (some v) = .ok hf)
    (k : String) (hk : hf.get? k ≠ none) :
    k ∈ ["init_dict", "const__reader_arg", "dataset", "aux_data", "res_dict", "res_df"] := by
  rw [hdf_ok h, get_tables] at hk
  split_ifs at hk <;> simp_all

theorem C114_total (setOk : Bool) (o : Obj) (kw : Kwargs) (v : Val) (h : kw.saveResDf = none ∨ ∃ c, o.kind = .single c) :
    ∃ hf, hdfDict setOk o kw (some v) = .ok hf := by
  unfold hdfDict useID
  rcases h with h | ⟨c, h⟩
  · rw [h]; cases o.kind <;> exact ⟨_, rfl⟩
  · rw [h]; exact ⟨_, rfl⟩

/-! ## C114: the database -/

/-- The content of a table without the labels. -/
def content (t : Table) : List Row := t.map Prod.snd

theorem numRows_filter {n m : Nat} {t : Table} (h : Labelled (.num n) t) :
    ((numRows t).filter fun e => decide (e.1 = m)).map Prod.snd = if n = m then content t else [] := by
  induction t with
  | nil => split_ifs <;> rfl
  | cons e t ih =>
    have he : e.1 = .num n := h e (by simp)
    have ih := ih fun e' he' => h e' (List.mem_cons_of_mem _ he')
    have hn : numRows (e :: t) = (n, e.2) :: numRows t := by
      unfold numRows; rw [List.filterMap_cons, he]
    rw [hn]
    by_cases hm : n = m
    · rw [if_pos hm] at ih ⊢
      rw [List.filter_cons_of_pos (by simpa using hm), List.map_cons, ih]; rfl
    · rw [if_neg hm] at ih ⊢
      rw [List.filter_cons_of_neg (by simpa using hm), ih]

/-- The sites have different numbers, and their tables are labelled with the number. -/
def Labels (sites : List Site) : Prop :=
  (sites.map Site.num).Nodup ∧ ∀ s ∈ sites, ∀ k t, s.hf.get? k = some t → Labelled (.num s.num) t

theorem stored_rows {sites : List Site} (h : Labels sites) {s : Site} (hs : s ∈ sites) {k : String} {t : Table}
    (ht : s.hf.get? k = some t) : ∃ f, stored sites k = some f ∧ (f.filter fun e => decide (e.1 = s.num)).map Prod.snd = content t := by
  have hmem : t ∈ sites.filterMap fun s => s.hf.get? k := List.mem_filterMap.2 ⟨s, hs, ht⟩
  refine ⟨((sites.filterMap fun s => s.hf.get? k).map numRows).flatten, ?_, ?_⟩
  · unfold stored
    split
    · rename_i he; rw [he] at hmem; cases hmem
    · rfl
  · clear hmem
    obtain ⟨h1, h2⟩ := h
    have none_ : ∀ l : List Site, (∀ x ∈ l, x.num ≠ s.num ∧ ∀ k t, x.hf.get? k = some t → Labelled (.num x.num) t) →
        ((((l.filterMap fun s => s.hf.get? k).map numRows).flatten).filter fun e => decide (e.1 = s.num)).map Prod.snd = [] := by
      intro l
      induction l with
      | nil => intro _; rfl
      | cons x l ih =>
        intro hl
        have ih := ih fun y hy => hl y (List.mem_cons_of_mem _ hy)
        have hx := hl x (by simp)
        cases hg : x.hf.get? k with
        | none => rw [List.filterMap_cons_none (f := fun s : Site => s.hf.get? k) hg]; exact ih
        | some t' =>
          rw [List.filterMap_cons_some (f := fun s : Site => s.hf.get? k) hg, List.map_cons, List.flatten_cons, List.filter_append, List.map_append, ih,
            numRows_filter (hx.2 k t' hg), if_neg hx.1]
          rfl
    induction sites with
    | nil => cases hs
    | cons x l ih =>
      rw [List.map_cons, List.nodup_cons] at h1
      rcases List.mem_cons.1 hs with rfl | hs
      · rw [List.filterMap_cons_some (f := fun s : Site => s.hf.get? k) ht, List.map_cons, List.flatten_cons, List.filter_append, List.map_append,
          numRows_filter (h2 s (by simp) k t ht), if_pos rfl, none_ l, List.append_nil]
        intro y hy
        exact ⟨fun hn => h1.1 (List.mem_map.2 ⟨y, hy, hn⟩), h2 y (List.mem_cons_of_mem _ hy)⟩
      · have ih := ih hs h1.2 fun y hy => h2 y (List.mem_cons_of_mem _ hy)
        have hne : x.num ≠ s.num := fun hn => h1.1 (List.mem_map.2 ⟨s, hs, hn.symm⟩)
        cases hg : x.hf.get? k with
        | none => rw [List.filterMap_cons_none (f := fun s : Site => s.hf.get? k) hg]; exact ih
        | some t' =>
          rw [List.filterMap_cons_some (f := fun s : Site => s.hf.get? k) hg, List.map_cons, List.flatten_cons, List.filter_append, List.map_append, ih,
            numRows_filter (h2 x (by simp) k t' hg), if_neg hne]
          rfl

theorem stored_none {sites : List Site} {k : String} : stored sites k = none ↔ ∀ s ∈ sites, s.hf.get? k = none := by
  unfold stored
  split
  · rename_i he
    simp only [true_iff]
    intro s hs
    exact List.filterMap_eq_nil_iff.1 he s hs
  · rename_i l he
    simp only [reduceCtorEq, false_iff]
    intro h
    exact he (List.filterMap_eq_nil_iff.2 h)

/-- The names of the tables in the store. -/
def storeKey (k : String) : String := if k = "reader_arg" then "const__reader_arg" else k

theorem database_get (multi : Bool) (sites : List Site) (k : String) :
    (k ∈ ["init_dict", "reader_arg", "dataset", "aux_data", "res_dict", "res_df"] →
      ((database multi sites).tables.get? k).map (fun t => t.rows) = stored sites (storeKey k)) ∧
    (k ∉ ["init_dict", "reader_arg", "dataset", "aux_data", "res_dict", "res_df"] → (database multi sites).tables.get? k = none) := by
  have add : ∀ (d : Dict String (Database.Table Row)) (e : String × String × Bool) (k : String),
      (addTable sites d e).get? k = if k = e.1 then ((stored sites e.2.1).map fun f => ⟨e.2.2, f⟩).or (d.get? k) else d.get? k := by
    intro d e k
    unfold addTable
    cases stored sites e.2.1 with
    | none => simp
    | some f => rw [Dict.get?_set]; simp
  unfold database
  dsimp only
  simp only [List.foldl_cons, List.foldl_nil, add, Dict.get?_nil]
  constructor
  · intro hk
    simp only [List.mem_cons, List.not_mem_nil, or_false] at hk
    rcases hk with rfl | rfl | rfl | rfl | rfl | rfl <;> simp [storeKey, Function.comp_def]
  · intro hk
    simp only [List.mem_cons, List.not_mem_nil, or_false, not_or] at hk
    obtain ⟨h1, h2, h3, h4, h5, h6⟩ := hk
    simp [h1, h2, h3, h4, h5, h6]

/-- The tables of all sites with different numbers and IDs can be loaded again: each part of the loaded fit is the stored one.  (Missing: sites
without data in a table that other sites have, see `C65_aux_fails`; sites that are labelled with their ID, see `C114_existing_fails`.) -/
theorem C114_load_partial (multi : Bool) (sites : List Site) (hl : Labels sites) (hi : (sites.map Site.ident).Nodup) (s : Site)
    (hs : s ∈ sites) (hinit : s.hf.get? "init_dict" ≠ none)
    (hall : ∀ s' ∈ sites, ∀ k, s'.hf.get? k ≠ none → ∃ t, s.hf.get? k = some t ∧ t ≠ []) :
    ∃ l, Database.loadFit (database multi sites) (.str s.ident) = .ok (some l) ∧ l.ident = s.ident ∧
      (s.hf.get? "init_dict").map content = some l.init ∧ (s.hf.get? "dataset").map content = l.dataset ∧
      (s.hf.get? "aux_data").map content = l.aux ∧ (s.hf.get? "const__reader_arg").map content = l.readerArg ∧
      (s.hf.get? "res_dict").map content = l.res := by
  have hex : ∀ k, s.hf.get? k = none → stored sites k = none := by
    intro k hk
    rw [stored_none]
    intro s' hs'
    by_contra hne
    obtain ⟨t, ht, _⟩ := hall s' hs' k hne
    rw [hk] at ht; cases ht
  have hu : (database multi sites).index.Nodup := by
    unfold Database.DB.index database
    dsimp only
    rw [List.map_map]; exact hl.1
  have hsn : ((database multi sites).ids.map Prod.snd).Nodup := by
    unfold database
    dsimp only
    rw [List.map_map]; exact hi
  have hin : (s.num, s.ident) ∈ (database multi sites).ids := List.mem_map.2 ⟨s, hs, rfl⟩
  have htab : ∀ key t, (database multi sites).tables.get? key = some t → ∃ x, (s.num, x) ∈ t.rows := by
    intro key t ht
    by_cases hk : key ∈ ["init_dict", "reader_arg", "dataset", "aux_data", "res_dict", "res_df"]
    · have := (database_get multi sites key).1 hk
      rw [ht] at this
      cases hg : s.hf.get? (storeKey key) with
      | none => rw [hex _ hg] at this; cases this
      | some t' =>
        obtain ⟨f, hf, hc⟩ := stored_rows hl hs hg
        rw [hf] at this
        have hrows : t.rows = f := by simpa using this
        have hne : t' ≠ [] := by
          obtain ⟨t'', h1, h2⟩ := hall s hs (storeKey key) (by rw [hg]; simp)
          rw [hg] at h1; cases h1; exact h2
        obtain ⟨e, t'', rfl⟩ := List.exists_cons_of_ne_nil hne
        have : e.2 ∈ (f.filter fun e => decide (e.1 = s.num)).map Prod.snd := by rw [hc]; simp [content]
        obtain ⟨p, hp, hp2⟩ := List.mem_map.1 this
        obtain ⟨hp, hp1⟩ := List.mem_filter.1 hp
        refine ⟨p.2, ?_⟩
        rw [hrows]
        have : p.1 = s.num := by simpa using hp1
        rw [← this]; exact hp
    · rw [(database_get multi sites key).2 hk] at ht; cases ht
  have hii : (database multi sites).tables.get? "init_dict" ≠ none := by
    intro hn
    have := (database_get multi sites "init_dict").1 (by simp)
    rw [hn] at this
    obtain ⟨t, ht⟩ := Option.ne_none_iff_exists'.1 hinit
    obtain ⟨f, hf, _⟩ := stored_rows hl hs ht
    have h2 : storeKey "init_dict" = "init_dict" := by simp [storeKey]
    rw [h2, hf] at this
    cases this
  obtain ⟨l, h1, h2, h3, h4, h5, h6, h7⟩ := Database.C65_load_partial (database multi sites) hu hsn s.ident s.num hin hii htab
  have part : ∀ key p, key ∈ ["init_dict", "reader_arg", "dataset", "aux_data", "res_dict", "res_df"] →
      Database.Part (database multi sites) key s.num p → (s.hf.get? (storeKey key)).map content = p := by
    intro key p hk hp
    have hg := (database_get multi sites key).1 hk
    rcases hp with ⟨hn, rfl⟩ | ⟨t, ht, rfl, _⟩
    · rw [hn] at hg
      cases hx : s.hf.get? (storeKey key) with
      | none => rfl
      | some t =>
        obtain ⟨f, hf, _⟩ := stored_rows hl hs hx
        rw [hf] at hg; cases hg
    · rw [ht] at hg
      cases hx : s.hf.get? (storeKey key) with
      | none => rw [hex _ hx] at hg; cases hg
      | some t' =>
        obtain ⟨f, hf, hc⟩ := stored_rows hl hs hx
        rw [hf] at hg
        have hrows : t.rows = f := by simpa using hg
        rw [hrows, hc]; rfl
  refine ⟨l, h1, h2, ?_, ?_, ?_, ?_, ?_⟩
  · have := part "init_dict" _ (by simp) h3; simpa [storeKey] using this
  · have := part "dataset" _ (by simp) h4; simpa [storeKey] using this
  · have := part "aux_data" _ (by simp) h5; simpa [storeKey] using this
  · have := part "reader_arg" _ (by simp) h6; simpa [storeKey] using this
  · have := part "res_dict" _ (by simp) h7; simpa [storeKey] using this

/-- Freshly fitted sites with different numbers satisfy the condition on the labels. -/
theorem C114_labels (setOk : Bool) (kw : Kwargs) (sites : List Site) (hn : (sites.map Site.num).Nodup)
    (hf : ∀ s ∈ sites, ∃ o, fresh setOk o kw (some (.num s.num)) = .ok s.hf) : Labels sites := by
  refine ⟨hn, fun s hs k t ht => ?_⟩
  obtain ⟨o, ho⟩ := hf s hs
  exact C114_number_partial setOk o kw _ _ ho k t ht

/-! ## C114: violations -/

/-- A `MultiFits` object cannot be stored if `save_res_df` is specified. -/
theorem C114_kwargs_fails (setOk : Bool) (o : Obj) (kw : Kwargs) (ID : Option Val) (cs : List (String × Cfg)) (hk : o.kind = .multi cs)
    (b : Bool) (hb : kw.saveResDf = some b) : hdfDict setOk o kw ID = .error .typeError := by
  unfold hdfDict; rw [hk, hb]

/-- Without `save_data` nothing of the dataset of a `MultiFits` object is stored. -/
theorem C114_multi_data_fails (setOk : Bool) (o : Obj) (kw : Kwargs) (v : Val) (hf : Dict String Table)
    (h : hdfDict setOk o kw (some v) = .ok hf) (cs : List (String × Cfg)) (hk : o.kind = .multi cs) (hne : cs ≠ [])
    (hd : kw.saveData = false) : hf.get? "dataset" = none := by
  rw [hdf_ok h, get_tables]
  simp only [String.reduceEq, if_false, if_true]
  unfold dataTable dynKeys
  rw [if_neg (by simp [hd]), hk]
  cases cs with
  | nil => exact absurd rfl hne
  | cons c cs => split_ifs <;> rfl

/-- A pandas version that does not accept a set of columns: the dynamics are not stored. -/
theorem C114_set_fails (o : Obj) (kw : Kwargs) (v : Val) (hf : Dict String Table) (h : hdfDict false o kw (some v) = .ok hf)
    (hd : kw.saveData = false) : hf.get? "dataset" = none := by
  rw [hdf_ok h, get_tables]
  simp only [String.reduceEq, if_false, if_true]
  unfold dataTable
  rw [if_neg (by simp [hd])]
  split_ifs
  · cases dynKeys o.kind with
    | error e => rfl
    | ok cols =>
      simp only [bind, Except.bind]
      unfold dynCols
      cases o.dataset <;> rfl
  · rfl

/-- More than one auxiliary dataset: they are not stored. -/
theorem C114_aux_fails (setOk : Bool) (o : Obj) (kw : Kwargs) (v : Val) (hf : Dict String Table) (h : hdfDict setOk o kw (some v) = .ok hf)
    (l : List DF) (ha : o.aux = some (.list l)) : hf.get? "aux_data" = none := by
  rw [hdf_ok h, get_tables]
  simp only [String.reduceEq, if_false, if_true]
  unfold auxTable
  rw [ha]
  split_ifs <;> rfl

def exCfg : Cfg := ⟨.ok [("sig0", .str "True")], ["tau"], .ok [(0, [("tau", .obj 1)])], .ok [(5, [("tau", .obj 1)]), (7, [("tau", .obj 2)])]⟩
def exDf : DF := [(5, [("inc", .obj 3), ("tau_dyn", .num 1)]), (7, [("inc", .obj 4), ("tau_dyn", .num 2)])]
def exObj : Obj := ⟨.single exCfg, none, .ok (.str "site"), some exDf, some (.frame [(6, [("x", .num 0)])]),
  [("ID", .scalar (.str "site")), ("_RT1_ID_num", .scalar (.num 3))]⟩

/-- If one entry of `reader_arg` is a list, the ID of the site is lost: its number is stored as ID. -/
theorem C114_arg_fails : ∃ o : Obj, o.ident = .ok (.str "site") ∧ ("ID", Arg.scalar (.str "site")) ∈ o.readerArg ∧
    ∃ hf, fresh true o {} (some (.num 3)) = .ok hf ∧ hf.get? "const__reader_arg" = some [(.num 3, ⟨none, none, [("ID", .num 3)]⟩)] := by
  refine ⟨{ exObj with readerArg := [("ID", .scalar (.str "site")), ("bounds", .list [.num 1, .num 2])] }, rfl, by simp, _, rfl, ?_⟩
  rfl

/-- If the specification of one config cannot be evaluated, those of all other configs are not stored either. -/
theorem C114_one_config_fails : ∃ o : Obj, o.kind = .multi [("a", exCfg), ("b", { exCfg with init := .error .attributeError })] ∧
    ∃ hf, fresh true o {} (some (.num 3)) = .ok hf ∧ hf.get? "init_dict" = none ∧ hf.get? "res_dict" ≠ none := by
  refine ⟨{ exObj with kind := .multi [("a", exCfg), ("b", { exCfg with init := .error .attributeError })] }, rfl, _, rfl, rfl, ?_⟩
  simp [Dict.get?_set, tables, tryAdd, Dict.get?_cons, Dict.set, initTable, resTable, bind, Except.bind, exCfg, exObj, ifFlag, concat, dataTable,
    auxTable, pure, Except.pure, Except.map, Dict.get?, List.mapM_cons]

/-! ## Examples -/

example : ∃ hf, fresh true exObj {} (some (.num 3)) = .ok hf ∧ Dict.keys hf =
    ["init_dict", "const__reader_arg", "dataset", "aux_data", "res_dict", "res_df"] := ⟨_, rfl, by decide +kernel⟩
example : exObj.idNum = none ∧ exObj.ident = .ok (.str "site") := ⟨rfl, rfl⟩
example : (tables true exObj { saveData := false } (.num 3)).get? "dataset" =
    some [(.num 3, ⟨none, some 5, [("tau_dyn", .num 1)]⟩), (.num 3, ⟨none, some 7, [("tau_dyn", .num 2)]⟩)] := by decide +kernel
example : ∀ e ∈ exDf, ∀ k ∈ exCfg.manual, ∃ x, Dict.get? e.2 (k ++ "_dyn") = some x := by
  intro e he k hk
  have hk : k = "tau" := by simpa [exCfg] using hk
  subst hk
  simp only [exDf, List.mem_cons, List.not_mem_nil, or_false] at he
  rcases he with rfl | rfl
  · exact ⟨.num 1, by decide +kernel⟩
  · exact ⟨.num 2, by decide +kernel⟩
example : exObj.readerArg = ([("ID", .str "site"), ("_RT1_ID_num", .num 3)] : Cells).map fun e => (e.1, .scalar e.2) := rfl

/-- Two sites. -/
def exSites : List Site := [⟨3, "site", tables true exObj {} (.num 3)⟩, ⟨0, "other", tables true exObj {} (.num 0)⟩]

example : (exSites.map Site.num).Nodup ∧ (exSites.map Site.ident).Nodup := by decide
example : ∀ s ∈ exSites, ∃ o, fresh true o {} (some (.num s.num)) = .ok s.hf := by
  intro s hs
  simp only [exSites, List.mem_cons, List.not_mem_nil, or_false] at hs
  rcases hs with rfl | rfl <;> exact ⟨exObj, rfl⟩
example : Database.loadFit (database false exSites) (.str "other") = .ok (some ⟨"other", [⟨none, none, [("sig0", .str "True")]⟩],
    some (exDf.map plain), some [⟨none, some 6, [("x", .num 0)]⟩],
    some [⟨none, none, [("ID", .str "site"), ("_RT1_ID_num", .num 3)]⟩], some [⟨none, some 0, [("tau", .obj 1)]⟩]⟩) := by
  decide +kernel

end HdfDict
end RT1
