import Verif.Model.Export
import Verif.Lemmas.Dict

/-!
# Classification of the parameters, export and exception handling (C60, C61, C63, C86)
-/

namespace RT1
namespace Export
open Dict

/-! ## Specification -/

/-- The four groups of parameters. -/
inductive Group
  | constant | auxiliary | fittedConst | fittedDynamic
  deriving DecidableEq

/-- The four kinds of dynamic parameters. -/
inductive Kind
  | manual | index | datetime | integer
  deriving DecidableEq

/-- The group a definition belongs to. -/
def groupOf (e : Entry) : Group :=
  match e.fitted, e.auxiliary, e.freq with
  | true, _, .none => .fittedConst
  | true, _, _ => .fittedDynamic
  | false, true, _ => .auxiliary
  | false, false, _ => .constant

/-- The kind of a frequency. -/
def kindOf : Freq → Option Kind
  | .none => none
  | .str s => some (if s = "manual" then .manual else if s = "index" then .index else .datetime)
  | .int _ => some .integer
  | .other => none

/-- The list of a group in the result. -/
def Specs.group (p : Specs) : Group → List String
  | .constant => p.constant
  | .auxiliary => p.auxiliary
  | .fittedConst => p.fittedConst
  | .fittedDynamic => p.fittedDynamic

/-- The names of a kind in the result. -/
def Specs.kind (p : Specs) : Kind → List String
  | .manual => p.manual
  | .index => p.index
  | .datetime => p.datetime.map Prod.fst
  | .integer => p.integer.map Prod.fst

/-! ## Lemmas -/

def names (q : Entry → Bool) (d : Dict String Entry) : List String := (d.filter fun e => q e.2).map Prod.fst

theorem names_cons (q : Entry → Bool) (e : String × Entry) (d : Dict String Entry) :
    names q (e :: d) = (if q e.2 then [e.1] else []) ++ names q d := by
  unfold names
  by_cases h : q e.2 = true
  · rw [List.filter_cons_of_pos (by exact h)]; simp [h]
  · rw [List.filter_cons_of_neg (by exact h)]; simp [h]

theorem mem_names {q : Entry → Bool} {d : Dict String Entry} {k : String} :
    k ∈ names q d ↔ ∃ e, (k, e) ∈ d ∧ q e = true := by
  unfold names
  simp only [List.mem_map, List.mem_filter]
  constructor
  · rintro ⟨x, ⟨h1, h2⟩, rfl⟩; exact ⟨x.2, h1, h2⟩
  · rintro ⟨e, h1, h2⟩; exact ⟨(k, e), ⟨h1, h2⟩, rfl⟩

theorem names_sublist (q : Entry → Bool) (d : Dict String Entry) : (names q d).Sublist d.keys :=
  List.Sublist.map Prod.fst List.filter_sublist

/-- The datetime frequencies. -/
def datetimes (d : Dict String Entry) : List (String × String) :=
  d.filterMap fun e => match e.2.fitted, e.2.freq with
    | true, .str s => if s = "manual" ∨ s = "index" then none else some (e.1, s)
    | _, _ => none

/-- The integer frequencies. -/
def integers (d : Dict String Entry) : List (String × ℤ) :=
  d.filterMap fun e => match e.2.fitted, e.2.freq with
    | true, .int i => some (e.1, i)
    | _, _ => none

theorem parser_foldl (d : Dict String Entry) : ∀ p : Specs,
    (d.foldl addSpec p).fitted = p.fitted ++ names (fun e => e.fitted) d ∧
    (∀ g, (d.foldl addSpec p).group g = p.group g ++ names (fun e => groupOf e = g) d) ∧
    (d.foldl addSpec p).manual = p.manual ++ names (fun e => e.fitted && decide (kindOf e.freq = some .manual)) d ∧
    (d.foldl addSpec p).index = p.index ++ names (fun e => e.fitted && decide (kindOf e.freq = some .index)) d ∧
    (d.foldl addSpec p).datetime = p.datetime ++ datetimes d ∧
    (d.foldl addSpec p).integer = p.integer ++ integers d := by
  induction d with
  | nil =>
    intro p
    refine ⟨by simp [names], fun g => by simp [names], by simp [names], by simp [names], by simp [datetimes],
      by simp [integers]⟩
  | cons e d ih =>
    intro p
    obtain ⟨h1, h2, h3, h4, h5, h6⟩ := ih (addSpec p e)
    rw [List.foldl_cons, h1, h3, h4, h5, h6]
    simp only [h2, names_cons]
    obtain ⟨k, f, a, q⟩ := e
    unfold datetimes integers addSpec kindOf groupOf
    cases f
    · cases a <;> refine ⟨by simp, fun g => ?_, by simp, by simp, by simp, by simp⟩ <;>
        cases g <;> simp [Specs.group]
    · cases q with
      | none => refine ⟨by simp, fun g => ?_, by simp, by simp, by simp, by simp⟩; cases g <;> simp [Specs.group]
      | int i => refine ⟨by simp, fun g => ?_, by simp, by simp, by simp, by simp⟩; cases g <;> simp [Specs.group]
      | other => refine ⟨by simp, fun g => ?_, by simp, by simp, by simp, by simp⟩; cases g <;> simp [Specs.group]
      | str s =>
        by_cases hm : s = "manual"
        · subst hm
          refine ⟨by simp, fun g => ?_, by simp, by simp, by simp, by simp⟩
          cases g <;> simp [Specs.group]
        · by_cases hi : s = "index"
          · subst hi
            refine ⟨by simp, fun g => ?_, by simp, by simp, by simp, by simp⟩
            cases g <;> simp [Specs.group]
          · refine ⟨by simp [hm, hi], fun g => ?_, by simp [hm, hi], by simp [hm, hi], by simp [hm, hi],
              by simp [hm, hi]⟩
            cases g <;> simp [Specs.group, hm, hi]

theorem fitted_eq (d : Dict String Entry) : (defdictParser d).fitted = names (fun e => e.fitted) d := by
  simpa [defdictParser] using (parser_foldl d {}).1

theorem group_eq (d : Dict String Entry) (g : Group) :
    (defdictParser d).group g = names (fun e => groupOf e = g) d := by
  have := (parser_foldl d {}).2.1 g
  rw [defdictParser, this]
  cases g <;> rfl

theorem datetime_eq (d : Dict String Entry) : (defdictParser d).datetime = datetimes d := by
  simpa [defdictParser] using (parser_foldl d {}).2.2.2.2.1

theorem integer_eq (d : Dict String Entry) : (defdictParser d).integer = integers d := by
  simpa [defdictParser] using (parser_foldl d {}).2.2.2.2.2

theorem names_congr {q q' : Entry → Bool} (h : ∀ e, q e = q' e) (d : Dict String Entry) : names q d = names q' d := by
  have : q = q' := funext h
  rw [this]

theorem kind_eq (d : Dict String Entry) (k : Kind) :
    (defdictParser d).kind k = names (fun e => e.fitted && decide (kindOf e.freq = some k)) d := by
  cases k with
  | manual => simpa [defdictParser, Specs.kind] using (parser_foldl d {}).2.2.1
  | index => simpa [defdictParser, Specs.kind] using (parser_foldl d {}).2.2.2.1
  | datetime =>
    simp only [Specs.kind, datetime_eq]
    induction d with
    | nil => rfl
    | cons e d ih =>
      rw [names_cons, ← ih]
      obtain ⟨k, f, a, q⟩ := e
      unfold datetimes kindOf
      cases f
      · simp
      · cases q with
        | none => simp
        | int i => simp
        | other => simp
        | str s =>
          by_cases hm : s = "manual"
          · simp [hm]
          · by_cases hi : s = "index"
            · simp [hi]
            · simp [hm, hi]
  | integer =>
    simp only [Specs.kind, integer_eq]
    induction d with
    | nil => rfl
    | cons e d ih =>
      rw [names_cons, ← ih]
      obtain ⟨k, f, a, q⟩ := e
      unfold integers kindOf
      cases f
      · simp
      · cases q with
        | none => simp
        | int i => simp
        | other => simp
        | str s =>
          by_cases hm : s = "manual"
          · simp [hm]
          · by_cases hi : s = "index"
            · simp [hi]
            · simp [hm, hi]

/-! ## C60 -/

/-- Every parameter is in exactly one of constant, auxiliary, fitted_const and fitted_dynamic: the one its
definition belongs to. -/
theorem C60_group (d : Dict String Entry) (hd : d.keys.Nodup) (k : String) (e : Entry) (h : (k, e) ∈ d) (g : Group) :
    k ∈ (defdictParser d).group g ↔ g = groupOf e := by
  rw [group_eq, mem_names]
  constructor
  · rintro ⟨e', h', hg⟩
    have : e' = e := by
      have h1 := (get?_iff_mem hd k e).2 h
      rw [(get?_iff_mem hd k e').2 h'] at h1
      exact Option.some.inj h1
    subst this
    exact (of_decide_eq_true hg).symm
  · rintro rfl
    exact ⟨e, h, by simp⟩

/-- Nothing else is in the lists, and the order of the definitions is preserved. -/
theorem C60_order (d : Dict String Entry) :
    (defdictParser d).fitted.Sublist d.keys ∧ (∀ g, ((defdictParser d).group g).Sublist d.keys) ∧
      ∀ k, ((defdictParser d).kind k).Sublist (defdictParser d).fittedDynamic := by
  refine ⟨?_, fun g => ?_, fun k => ?_⟩
  · rw [fitted_eq]; exact names_sublist _ _
  · rw [group_eq]; exact names_sublist _ _
  · rw [kind_eq, show (defdictParser d).fittedDynamic = (defdictParser d).group .fittedDynamic from rfl, group_eq]
    unfold names
    refine List.Sublist.map _ (List.monotone_filter_right d fun e he => ?_)
    obtain ⟨n, f, a, q⟩ := e
    simp only [Bool.and_eq_true, decide_eq_true_eq] at he ⊢
    obtain ⟨h1, h2⟩ := he
    subst h1
    unfold groupOf
    cases q <;> simp_all [kindOf]

/-- fitted = fitted_const + fitted_dynamic. -/
theorem C60_fitted (d : Dict String Entry) :
    (defdictParser d).fitted.Perm ((defdictParser d).fittedConst ++ (defdictParser d).fittedDynamic) := by
  rw [show (defdictParser d).fittedDynamic = (defdictParser d).group .fittedDynamic from rfl,
    show (defdictParser d).fittedConst = (defdictParser d).group .fittedConst from rfl, group_eq, group_eq, fitted_eq]
  induction d with
  | nil => exact List.Perm.refl _
  | cons e d ih =>
    simp only [names_cons]
    obtain ⟨n, f, a, q⟩ := e
    cases f
    · cases a
      · have h : groupOf ⟨false, false, q⟩ = .constant := rfl
        simpa [h] using ih
      · have h : groupOf ⟨false, true, q⟩ = .auxiliary := rfl
        simpa [h] using ih
    · by_cases hq : q = .none
      · have h : groupOf ⟨true, a, q⟩ = .fittedConst := by subst hq; rfl
        simpa [h] using ih
      · have h : groupOf ⟨true, a, q⟩ = .fittedDynamic := by
          cases q <;> first | exact absurd rfl hq | rfl
        simpa [h] using (List.Perm.cons n ih).trans List.perm_middle.symm

/-- Every dynamic parameter with a `str` or `int` frequency is in exactly one of manual, index, datetime and
integer (other frequencies in none). -/
theorem C60_kind (d : Dict String Entry) (hd : d.keys.Nodup) (k : String) (e : Entry) (h : (k, e) ∈ d)
    (hk : k ∈ (defdictParser d).fittedDynamic) (i : Kind) :
    k ∈ (defdictParser d).kind i ↔ some i = kindOf e.freq := by
  have hg := (C60_group d hd k e h .fittedDynamic).1 hk
  have hf : e.fitted = true := by
    unfold groupOf at hg
    cases hf : e.fitted
    · rw [hf] at hg; cases ha : e.auxiliary <;> rw [ha] at hg <;> simp at hg
    · rfl
  rw [kind_eq, mem_names]
  constructor
  · rintro ⟨e', h', hq⟩
    have : e' = e := by
      have h1 := (get?_iff_mem hd k e).2 h
      rw [(get?_iff_mem hd k e').2 h'] at h1
      exact Option.some.inj h1
    subst this
    simp only [Bool.and_eq_true, decide_eq_true_eq] at hq
    exact hq.2.symm
  · intro hi
    exact ⟨e, h, by simp [hf, hi]⟩

/-- The frequencies are returned with the names. -/
theorem C60_freq (d : Dict String Entry) (k : String) :
    (∀ s, (k, s) ∈ (defdictParser d).datetime ↔
      ∃ a, (k, (⟨true, a, .str s⟩ : Entry)) ∈ d ∧ s ≠ "manual" ∧ s ≠ "index") ∧
    ∀ i, (k, i) ∈ (defdictParser d).integer ↔ ∃ a, (k, (⟨true, a, .int i⟩ : Entry)) ∈ d := by
  rw [datetime_eq, integer_eq]
  unfold datetimes integers
  constructor
  · intro s
    simp only [List.mem_filterMap]
    constructor
    · rintro ⟨⟨n, f, a, q⟩, h, he⟩
      cases f
      · simp at he
      · cases q with
        | str s' =>
          dsimp only at he
          split_ifs at he with hs
          cases he
          push Not at hs
          exact ⟨a, h, hs⟩
        | _ => simp at he
    · rintro ⟨a, h, h1, h2⟩
      exact ⟨_, h, by simp [h1, h2]⟩
  · intro i
    simp only [List.mem_filterMap]
    constructor
    · rintro ⟨⟨n, f, a, q⟩, h, he⟩
      cases f
      · simp at he
      · cases q with
        | int i' => cases he; exact ⟨a, h⟩
        | _ => simp at he
    · rintro ⟨a, h⟩
      exact ⟨_, h, by simp⟩

/-! ## C86 -/

theorem source_isSome (f : FitInfo) (hd : f.defdict.keys.Nodup) (sigToDB incToDegree : Bool) (k : String) :
    (source f sigToDB incToDegree k).isSome = true ↔
        (k = "sig" ∨ (k = "inc" ∧ incToDegree = true) ∨ k ∈ f.defdict.keys ∨ k ∈ f.columns ∨ k ∈ f.readerArg) := by
  unfold source
  dsimp only
  by_cases h1 : k = "sig"
  · rw [if_pos h1]; split_ifs <;> simp [h1]
  rw [if_neg h1]
  by_cases h2 : k = "inc" ∧ incToDegree = true
  · rw [if_pos h2]; simp [h2]
  rw [if_neg h2]
  by_cases h3 : k ∈ f.defdict.keys
  · rw [if_pos h3]
    simp only [h3, true_or, or_true, iff_true]
    obtain ⟨e, he⟩ : ∃ e, (k, e) ∈ f.defdict := by
      unfold Dict.keys at h3
      obtain ⟨x, hx, rfl⟩ := List.mem_map.1 h3
      exact ⟨x.2, hx⟩
    have hg := fun g => C60_group f.defdict hd k e he g
    cases hgg : groupOf e with
    | constant =>
      have := (hg .constant).2 hgg.symm
      simp only [Specs.group] at this
      split_ifs <;> simp_all
    | auxiliary =>
      have := (hg .auxiliary).2 hgg.symm
      simp only [Specs.group] at this
      split_ifs <;> simp_all
    | fittedConst =>
      have := (hg .fittedConst).2 hgg.symm
      simp only [Specs.group] at this
      split_ifs <;> simp_all
    | fittedDynamic =>
      have := (hg .fittedDynamic).2 hgg.symm
      simp only [Specs.group] at this
      rw [if_pos this]; rfl
  rw [if_neg h3]
  by_cases h4 : k ∈ f.columns
  · rw [if_pos h4]; split_ifs <;> simp [h4]
  rw [if_neg h4]
  by_cases h5 : k ∈ f.readerArg
  · rw [if_pos h5]; simp [h5]
  · rw [if_neg h5]; simp [h1, h2, h3, h4, h5]

theorem source_definition (f : FitInfo) (hd : f.defdict.keys.Nodup) (sigToDB incToDegree : Bool) (k : String) (e : Entry)
    (he : (k, e) ∈ f.defdict) (h1 : k ≠ "sig") (h2 : k ≠ "inc" ∨ incToDegree = false) :
    source f sigToDB incToDegree k = some (match groupOf e with
      | .fittedDynamic => .resDf
      | .fittedConst => .resDict
      | .constant => .defValue
      | .auxiliary => .dataset) := by
  have hg := fun g => C60_group f.defdict hd k e he g
  have h3 : k ∈ f.defdict.keys := List.mem_map.2 ⟨_, he, rfl⟩
  unfold source
  dsimp only
  rw [if_neg h1, if_neg (by rintro ⟨h, h'⟩; rcases h2 with h2 | h2; exact h2 h; rw [h2] at h'; cases h'), if_pos h3]
  have e1 : (k ∈ (defdictParser f.defdict).fittedDynamic) = (Group.fittedDynamic = groupOf e) := propext (hg .fittedDynamic)
  have e2 : (k ∈ (defdictParser f.defdict).fittedConst) = (Group.fittedConst = groupOf e) := propext (hg .fittedConst)
  have e3 : (k ∈ (defdictParser f.defdict).constant) = (Group.constant = groupOf e) := propext (hg .constant)
  have e4 : (k ∈ (defdictParser f.defdict).auxiliary) = (Group.auxiliary = groupOf e) := propext (hg .auxiliary)
  simp only [e1, e2, e3, e4]
  cases groupOf e <;> simp

theorem source_defValue (f : FitInfo) (hd : f.defdict.keys.Nodup) (sigToDB incToDegree : Bool) (k : String) :
    source f sigToDB incToDegree k = some .defValue ↔
      k ≠ "sig" ∧ (k ≠ "inc" ∨ incToDegree = false) ∧ ∃ e, (k, e) ∈ f.defdict ∧ groupOf e = .constant := by
  constructor
  · intro h
    have h1 : k ≠ "sig" := by
      rintro rfl
      unfold source at h
      dsimp only at h
      split_ifs at h <;> simp_all
    have h2 : k ≠ "inc" ∨ incToDegree = false := by
      by_contra h2
      push Not at h2
      unfold source at h
      simp [h2.1, h2.2] at h
    have h3 : k ∈ f.defdict.keys := by
      by_contra h3
      unfold source at h
      dsimp only at h
      rw [if_neg h3] at h
      split_ifs at h <;> simp_all
    obtain ⟨x, hx, rfl⟩ := List.mem_map.1 (show k ∈ f.defdict.map Prod.fst from h3)
    refine ⟨h1, h2, x.2, hx, ?_⟩
    rw [source_definition f hd sigToDB incToDegree _ x.2 hx h1 h2] at h
    cases hg : groupOf x.2 <;> simp_all
  · rintro ⟨h1, h2, e, he, hg⟩
    rw [source_definition f hd sigToDB incToDegree _ e he h1 h2, hg]

/-- Is the value of this parameter taken from its definition? (A fixed parameter; `sig` is always taken from the dataset, and `inc` if
it is converted.) -/
def Fixed (f : FitInfo) (incToDegree : Bool) (k : String) : Prop :=
  k ≠ "sig" ∧ (k ≠ "inc" ∨ incToDegree = false) ∧ ∃ e, (k, e) ∈ f.defdict ∧ groupOf e = .constant

/-- If no fixed parameter is requested, every requested parameter that is known (`sig`, a definition, a column of the dataset, a key of
`reader_arg`) is exported exactly once, no other parameters are exported. -/
theorem C86_exported_partial (f : FitInfo) (hd : f.defdict.keys.Nodup) (sigToDB incToDegree : Bool) (save : List String)
    (hc : ∀ k ∈ save, ¬ Fixed f incToDegree k) :
    ∃ l, getparams f sigToDB incToDegree save = .ok l ∧ l.map Prod.fst =
      save.filter fun k => k = "sig" ∨ (k = "inc" ∧ incToDegree = true) ∨ k ∈ f.defdict.keys ∨ k ∈ f.columns ∨
        k ∈ f.readerArg := by
  have h : ∃ ls, save.mapM (getparam f sigToDB incToDegree) = .ok ls ∧ ls.flatten.map Prod.fst =
      save.filter fun k => k = "sig" ∨ (k = "inc" ∧ incToDegree = true) ∨ k ∈ f.defdict.keys ∨ k ∈ f.columns ∨
        k ∈ f.readerArg := by
    induction save with
    | nil => exact ⟨[], rfl, rfl⟩
    | cons k save ih =>
      obtain ⟨ls, h1, h2⟩ := ih fun k' hk' => hc k' (List.mem_cons_of_mem _ hk')
      have key := source_isSome f hd sigToDB incToDegree k
      have hn : source f sigToDB incToDegree k ≠ some .defValue := fun h =>
        hc k List.mem_cons_self ((source_defValue f hd sigToDB incToDegree k).1 h)
      rw [List.mapM_cons]
      cases hs : source f sigToDB incToDegree k with
      | none =>
        rw [hs] at key
        refine ⟨[] :: ls, ?_, ?_⟩
        · simp only [getparam, hs, h1]; rfl
        · rw [List.filter_cons_of_neg (by simpa using key)]
          simpa using h2
      | some s =>
        rw [hs] at key hn
        refine ⟨[(k, s)] :: ls, ?_, ?_⟩
        · have : getparam f sigToDB incToDegree k = .ok [(k, s)] := by
            unfold getparam
            rw [hs]
            cases s <;> first | rfl | exact absurd rfl hn
          rw [this, h1]; rfl
        · rw [List.filter_cons_of_pos (by simpa using key)]
          rw [List.flatten_cons, List.map_append, h2]; rfl
  obtain ⟨ls, h1, h2⟩ := h
  exact ⟨ls.flatten, by simp only [getparams, h1]; rfl, h2⟩

/-- A requested fixed parameter raises AttributeError, nothing is exported for the fit. -/
theorem C86_fixed_fails (f : FitInfo) (hd : f.defdict.keys.Nodup) (sigToDB incToDegree : Bool) (save : List String)
    (k : String) (hk : k ∈ save) (hc : Fixed f incToDegree k) :
    getparams f sigToDB incToDegree save = .error .attributeError := by
  have h : save.mapM (getparam f sigToDB incToDegree) = .error .attributeError := by
    have he : ∀ k', getparam f sigToDB incToDegree k' = .error .attributeError ∨
        ∃ x, getparam f sigToDB incToDegree k' = .ok x := by
      intro k'
      unfold getparam
      cases source f sigToDB incToDegree k' with
      | none => exact .inr ⟨_, rfl⟩
      | some s => cases s <;> first | exact .inl rfl | exact .inr ⟨_, rfl⟩
    induction save with
    | nil => cases hk
    | cons k' save ih =>
      rw [List.mapM_cons]
      rcases he k' with h1 | ⟨x, h1⟩
      · rw [h1]; rfl
      · rcases List.mem_cons.1 hk with rfl | hk'
        · exfalso
          rw [getparam, (source_defValue f hd sigToDB incToDegree k).2 hc] at h1
          cases h1
        · rw [h1, ih hk']; rfl
  simp only [getparams, h]; rfl

/-- The source of the values: fitted dynamic parameters come from `res_df`, fitted constants from `res_dict`, auxiliary ones from the
dataset; the value of fixed parameters cannot be read. -/
theorem C86_definition_partial (f : FitInfo) (hd : f.defdict.keys.Nodup) (sigToDB incToDegree : Bool) (k : String) (e : Entry)
    (he : (k, e) ∈ f.defdict) (h1 : k ≠ "sig") (h2 : k ≠ "inc" ∨ incToDegree = false) :
    getparams f sigToDB incToDegree [k] = match groupOf e with
      | .fittedDynamic => .ok [(k, .resDf)]
      | .fittedConst => .ok [(k, .resDict)]
      | .constant => .error .attributeError
      | .auxiliary => .ok [(k, .dataset)] := by
  have h := source_definition f hd sigToDB incToDegree k e he h1 h2
  unfold getparams
  rw [List.mapM_cons, List.mapM_nil]
  unfold getparam
  rw [h]
  cases groupOf e <;> rfl

/-- The dataset: `sig` and the model results are converted to dB if wanted and if they are not yet in dB; nothing
else is converted. -/
theorem C86_dB (f : FitInfo) (sigToDB incToDegree : Bool) (k : String)
    (h : source f sigToDB incToDegree k = some .datasetDB) :
    sigToDB = true ∧ f.dB = false ∧ k ∈ ["sig", "tot", "surf", "vol", "inter"] := by
  unfold source at h
  dsimp only at h
  split_ifs at h <;> simp_all

theorem C86_sig (f : FitInfo) (sigToDB incToDegree : Bool) :
    source f sigToDB incToDegree "sig" = some (if sigToDB = true ∧ f.dB = false then .datasetDB else .dataset) := by
  unfold source
  simp only [if_true]
  by_cases h : sigToDB = true ∧ f.dB = false
  · rw [if_pos h, if_pos ⟨h.2, h.1⟩]
  · rw [if_neg h, if_neg (fun h' => h ⟨h'.2, h'.1⟩)]

/-! ## C63 -/

variable {Fit : Type}

/-- The parameters left in the set after a fit: those without a scalar from an export function. -/
def kept (fns : List (String × (Fit → Val))) (fit : Fit) (k : String) : Prop :=
  ∀ f x, (k, f) ∈ fns → f fit ≠ .scalar x

theorem foldl_exp (fit : Fit) : ∀ (fns : List (String × (Fit → Val))) (s : ExpState), (fns.map Prod.fst).Nodup →
    (∀ k, k ∈ (fns.foldl (expStep fit) s).parameters ↔ k ∈ s.parameters ∧ kept fns fit k) ∧
    (∀ k, k ∈ (fns.foldl (expStep fit) s).statics.keys ↔ k ∈ s.statics.keys ∨
      (k ∈ s.parameters ∧ ∃ f x, (k, f) ∈ fns ∧ f fit = .scalar x)) ∧
    (∀ k, k ∈ (fns.foldl (expStep fit) s).aux.keys ↔ k ∈ s.aux.keys ∨
      (k ∈ s.parameters ∧ ∃ f x, (k, f) ∈ fns ∧ f fit = .series x))
  | [], s, _ => by simp [kept]
  | (n, f) :: fns, s, hn => by
    simp only [List.map_cons, List.nodup_cons] at hn
    rw [List.foldl_cons]
    obtain ⟨h1, h2, h3⟩ := foldl_exp fit fns (expStep fit s (n, f)) hn.2
    have hnf : ∀ g, (n, g) ∉ fns := fun g h => hn.1 (List.mem_map.2 ⟨_, h, rfl⟩)
    simp only [h1, h2, h3]
    unfold expStep
    by_cases hp : n ∈ s.parameters
    · simp only [hp, if_true]
      cases hv : f fit with
      | scalar x =>
        simp only [List.mem_filter, mem_keys_set]
        refine ⟨fun k => ?_, fun k => ?_, fun k => ?_⟩ <;> by_cases hk : k = n
        · subst hk
          simp only [kept, List.mem_cons]
          simp only [decide_not, decide_true, Bool.not_true, Bool.false_eq_true, and_false, false_and, false_iff, not_and]
          intro _ h
          exact h f x (.inl rfl) hv
        · simp [kept, hk]
        · subst hk
          simp only [true_or, true_iff]
          exact .inr ⟨hp, f, x, by simp, hv⟩
        · simp [hk]
        · subst hk
          simp only [decide_not, decide_true, Bool.not_true, Bool.false_eq_true, and_false, false_and, or_false]
          constructor
          · exact .inl
          · rintro (h | ⟨-, g, y, hm, hg⟩)
            · exact h
            · rcases List.mem_cons.1 hm with hm | hm
              · cases hm; rw [hv] at hg; cases hg
              · exact absurd hm (hnf g)
        · simp [hk]
      | series x =>
        simp only [mem_keys_set]
        refine ⟨fun k => ?_, fun k => ?_, fun k => ?_⟩ <;> by_cases hk : k = n
        · subst hk
          simp only [kept, List.mem_cons]
          constructor
          · rintro ⟨ha, -⟩
            refine ⟨ha, fun g y hm hg => ?_⟩
            rcases hm with hm | hm
            · cases hm; rw [hv] at hg; cases hg
            · exact hnf g hm
          · rintro ⟨ha, h⟩
            exact ⟨ha, fun g y hm => h g y (.inr hm)⟩
        · simp [kept, hk]
        · subst hk
          constructor
          · rintro (h | ⟨-, g, y, hm, -⟩)
            · exact .inl h
            · exact absurd hm (hnf g)
          · rintro (h | ⟨-, g, y, hm, hg⟩)
            · exact .inl h
            · rcases List.mem_cons.1 hm with hm | hm
              · cases hm; rw [hv] at hg; cases hg
              · exact absurd hm (hnf g)
        · simp [hk]
        · subst hk
          simp only [true_or, true_iff]
          exact .inr ⟨hp, f, x, by simp, hv⟩
        · simp [hk]
    · simp only [hp, if_false]
      refine ⟨fun k => ?_, fun k => ?_, fun k => ?_⟩ <;> by_cases hk : k = n
      · subst hk; simp [hp]
      · simp [kept, hk]
      · subst hk; simp [hp]
      · simp [hk]
      · subst hk; simp [hp]
      · simp [hk]

/-- The parameters exported for one fit, and those that are left for the next. -/
theorem exportOne_names (modelKeys : List String) (fns : List (String × (Fit → Val))) (hf : (fns.map Prod.fst).Nodup)
    (parameters : List String) (hm : ∀ k ∈ modelKeys, k ∉ parameters) (fit : Fit) (k : String) :
    (k ∈ (exportOne modelKeys fns parameters fit).1.names ↔ k ∈ modelKeys ∨ k ∈ parameters) ∧
    (k ∈ (exportOne modelKeys fns parameters fit).2 ↔ k ∈ parameters ∧ kept fns fit k) := by
  obtain ⟨h1, h2, h3⟩ := foldl_exp fit fns ⟨parameters, [], []⟩ hf
  have h2' := h2 k
  have h3' := h3 k
  have h1' := h1 k
  unfold exportOne Exported.names
  dsimp only
  generalize List.foldl (expStep fit) ⟨parameters, [], []⟩ fns = s at *
  dsimp only at h1' h2' h3' ⊢
  have hnil : k ∉ Dict.keys ([] : Dict String Val) := by simp [Dict.keys]
  refine ⟨?_, h1'⟩
  have hmk : k ∈ modelKeys → k ∉ s.parameters := fun h hp => hm k h (h1'.1 hp).1
  simp only [List.mem_append, List.mem_filter, decide_not, Bool.not_eq_true', decide_eq_false_iff_not]
  by_cases hkm : k ∈ modelKeys
  · simp [hkm]
  · simp only [hkm, false_or, or_false, false_and, not_false_eq_true, and_true, false_iff]
    constructor
    · rintro ((h | h) | h)
      · exact ((h2'.1 h).resolve_left hnil).1
      · exact ((h3'.1 h).resolve_left hnil).1
      · rcases h with ⟨h, -⟩ | ⟨h, -⟩
        · exact (h1'.1 h).1
        · exact ((h3'.1 h).resolve_left hnil).1
    · intro hp
      by_cases hk : kept fns fit k
      · by_cases ha : k ∈ s.aux.keys
        · exact .inl (.inr ha)
        · exact .inr (.inl ⟨h1'.2 ⟨hp, hk⟩, ha⟩)
      · unfold kept at hk
        push Not at hk
        obtain ⟨f, x, hfn, hx⟩ := hk
        exact .inl (.inl (h2'.2 (.inr ⟨hp, f, x, hfn, hx⟩)))

/-- What is exported for every fit of a batch: the model results and those parameters for which no export function
has returned a scalar for an earlier fit. -/
theorem C63_batch_partial (modelKeys : List String) (fns : List (String × (Fit → Val))) (hf : (fns.map Prod.fst).Nodup) :
    ∀ (fits : List Fit) (parameters : List String), (∀ k ∈ modelKeys, k ∉ parameters) →
    ∀ (n : Nat) (e : Exported), (exportBatch modelKeys fns parameters fits)[n]? = some e →
    ∀ k, k ∈ e.names ↔ k ∈ modelKeys ∨ (k ∈ parameters ∧ ∀ fit ∈ fits.take n, kept fns fit k)
  | [], _, _, n, e, h, _ => by simp [exportBatch] at h
  | fit :: fits, parameters, hm, 0, e, h, k => by
    simp only [exportBatch, List.getElem?_cons_zero, Option.some.injEq] at h
    subst h
    simp [(exportOne_names modelKeys fns hf parameters hm fit k).1]
  | fit :: fits, parameters, hm, n + 1, e, h, k => by
    simp only [exportBatch, List.getElem?_cons_succ] at h
    have hm' : ∀ k ∈ modelKeys, k ∉ (exportOne modelKeys fns parameters fit).2 := fun k hk hp =>
      hm k hk ((exportOne_names modelKeys fns hf parameters hm fit k).2.1 hp).1
    rw [C63_batch_partial modelKeys fns hf fits _ hm' n e h k, (exportOne_names modelKeys fns hf parameters hm fit k).2]
    simp only [List.take_succ_cons, List.mem_cons, forall_eq_or_imp, and_assoc]

/-- If no export function returns a scalar, the same parameters are exported for all fits: those given by the user.
(Missing: export functions that return scalars, see `C63_fails`.) -/
theorem C63_series_partial (parameters : List String) (fns : List (String × (Fit → Val)))
    (hf : (fns.map Prod.fst).Nodup) (fits : List Fit)
    (hs : ∀ fit ∈ fits, ∀ k ∈ parameters, kept fns fit k) (e : Exported)
    (he : e ∈ exportBatch (splitParameters parameters).1 fns (splitParameters parameters).2 fits) (k : String) :
    k ∈ e.names ↔ k ∈ parameters := by
  obtain ⟨n, hn⟩ := List.mem_iff_getElem?.1 he
  rw [C63_batch_partial _ fns hf fits _ (by
    intro k hk hk'
    unfold splitParameters at hk hk'
    simp only [List.mem_filter, decide_not, Bool.not_eq_true', decide_eq_false_iff_not, decide_eq_true_eq] at hk hk'
    exact hk'.2 hk.2) n e hn k]
  unfold splitParameters
  simp only [List.mem_filter, List.mem_dedup, decide_not, Bool.not_eq_true', decide_eq_false_iff_not, decide_eq_true_eq]
  constructor
  · rintro (h | h)
    · exact h.1
    · exact h.1.1
  · intro h
    by_cases hk : k ∈ ["tot", "surf", "vol", "inter"]
    · exact .inl ⟨h, hk⟩
    · exact .inr ⟨⟨h, hk⟩, fun fit hfit => hs fit (List.mem_of_mem_take hfit) k h⟩

/-- C63 does not hold: a parameter exported by a function that returns a number is only exported for the first fit. -/
theorem C63_fails : ¬ ∀ (parameters : List String) (fns : List (String × (ℤ → Val))) (fits : List ℤ) (e e' : Exported),
    e ∈ exportBatch (splitParameters parameters).1 fns (splitParameters parameters).2 fits →
    e' ∈ exportBatch (splitParameters parameters).1 fns (splitParameters parameters).2 fits →
    ∀ k, k ∈ e.names ↔ k ∈ e'.names := by
  intro h
  have := h ["omega", "lai"] [("lai", fun i => .scalar i)] [1, 2] _ _ (List.mem_cons_self ..)
    (List.mem_cons_of_mem _ (List.mem_cons_self ..)) "lai"
  revert this
  decide

/-- An export function for a model result (`tot`, …) is never used, although it should replace the default
procedure. -/
theorem C63_model_fails (parameters : List String) (fns : List (String × (Fit → Val))) (fits : List Fit) (e : Exported)
    (he : e ∈ exportBatch (splitParameters parameters).1 fns (splitParameters parameters).2 fits)
    (hf : (fns.map Prod.fst).Nodup) (k : String) (hk : k ∈ ["tot", "surf", "vol", "inter"]) :
    k ∉ e.statics.keys ∧ k ∉ e.aux.keys := by
  have hp : k ∉ (splitParameters parameters).2 := by
    unfold splitParameters
    simp only [List.mem_filter, not_and]
    intro _ h
    exact of_decide_eq_true h hk
  revert he hp
  generalize (splitParameters parameters).1 = mk
  generalize (splitParameters parameters).2 = ps
  intro he hp
  induction fits generalizing ps with
  | nil => simp [exportBatch] at he
  | cons fit fits ih =>
    obtain ⟨h1, h2, h3⟩ := foldl_exp fit fns ⟨ps, [], []⟩ hf
    simp only [exportBatch, List.mem_cons] at he
    rcases he with rfl | he
    · have hnil : k ∉ Dict.keys ([] : Dict String Val) := by simp [Dict.keys]
      constructor
      · intro h
        rcases (h2 k).1 h with h | h
        · exact hnil h
        · exact hp h.1
      · intro h
        rcases (h3 k).1 h with h | h
        · exact hnil h
        · exact hp h.1
    · refine ih _ he ?_
      intro h
      exact hp ((h1 k).1 h).1

/-! ## C61 -/

variable {R : Type}

/-- The part of C61 that holds for all arguments with an ID: nothing is raised for the three special exceptions. -/
theorem C61_special_partial (dumppath : Option (List String)) (load : List String → Option R) (id : String) (ex : Exc)
    (h : "rt1_skip" ∈ ex.args ∨ "rt1_data_error" ∈ ex.args ∨ "rt1_file_already_exists" ∈ ex.args) :
    exceptfunc dumppath load (some id) ex ≠ .reraise ∧ exceptfunc dumppath load (some id) ex ≠ .keyError := by
  unfold exceptfunc
  dsimp only
  split_ifs with h1 h2 h3 h4
  · simp
  · cases dumppath with
    | none => simp
    | some p => dsimp only; cases load (p ++ [id ++ ".dump"]) <;> simp
  · simp
  · simp_all
  · simp

/-- All other exceptions are raised iff there is no dump path. -/
theorem C61_other (dumppath : Option (List String)) (load : List String → Option R) (id : String) (ex : Exc)
    (h : "rt1_skip" ∉ ex.args ∧ "rt1_data_error" ∉ ex.args ∧ "rt1_file_already_exists" ∉ ex.args) :
    exceptfunc dumppath load (some id) ex = if dumppath = none then .reraise else .none := by
  unfold exceptfunc
  simp only [h.1, h.2.1, h.2.2, if_false]

/-- A result is returned iff the exception is `rt1_file_already_exists` (and not also `rt1_skip`) and the dump file of
the site can be loaded. -/
theorem C61_result (dumppath : Option (List String)) (load : List String → Option R) (id : Option String) (ex : Exc)
    (r : R) :
    exceptfunc dumppath load id ex = .result r ↔
      "rt1_skip" ∉ ex.args ∧ "rt1_file_already_exists" ∈ ex.args ∧
        ∃ p i, dumppath = some p ∧ id = some i ∧ load (p ++ [i ++ ".dump"]) = some r := by
  unfold exceptfunc
  cases id with
  | none => simp
  | some i =>
    dsimp only
    by_cases h1 : "rt1_skip" ∈ ex.args
    · simp [h1]
    · by_cases h2 : "rt1_file_already_exists" ∈ ex.args
      · simp only [h1, h2, if_false, if_true, not_false_eq_true, true_and]
        cases dumppath with
        | none => simp
        | some p =>
          dsimp only
          cases hl : load (p ++ [i ++ ".dump"]) with
          | none =>
            simp only [reduceCtorEq, Option.some.injEq, false_iff]
            rintro ⟨p', i', h, h', hl'⟩
            subst h; subst h'
            rw [hl] at hl'; cases hl'
          | some r' =>
            simp only [Handled.result.injEq, Option.some.injEq]
            constructor
            · rintro rfl; exact ⟨p, i, rfl, rfl, hl⟩
            · rintro ⟨p', i', h, h', hl'⟩
              subst h; subst h'
              rw [hl] at hl'; exact Option.some.inj hl'
      · simp only [h1, h2, if_false, false_and, and_false, iff_false]
        split_ifs <;> simp

/-- Without an ID in `reader_arg` even `rt1_skip` raises. -/
theorem C61_fails : ¬ ∀ (dumppath : Option (List String)) (load : List String → Option Nat) (id : Option String) (ex : Exc),
    "rt1_skip" ∈ ex.args → exceptfunc dumppath load id ex = .none := by
  intro h
  have := h none (fun _ => none) none ⟨["rt1_skip"]⟩ (by simp)
  simp [exceptfunc] at this

/-! ## Examples -/

def exDef : Dict String Entry :=
  [("omega", ⟨true, false, .str "M"⟩), ("tau", ⟨true, false, .none⟩), ("v", ⟨false, true, .none⟩),
   ("t", ⟨false, false, .none⟩), ("s", ⟨true, false, .int 3⟩), ("x", ⟨true, false, .str "manual"⟩)]

example : exDef.keys.Nodup ∧ ("omega", (⟨true, false, .str "M"⟩ : Entry)) ∈ exDef ∧
    "omega" ∈ (defdictParser exDef).fittedDynamic := by decide

example : defdictParser exDef = ⟨["omega", "tau", "s", "x"], ["tau"], ["omega", "s", "x"], ["x"], [], [("omega", "M")],
    [("s", 3)], ["t"], ["v"]⟩ := by decide

example : getparams ⟨exDef, ["sig", "inc", "v", "lai"], ["ID"], false⟩ true false ["sig", "omega", "tau", "v", "lai", "ID", "z"] =
    .ok [("sig", .datasetDB), ("omega", .resDf), ("tau", .resDict), ("v", .dataset), ("lai", .dataset), ("ID", .readerArg)] := rfl

example : Fixed ⟨exDef, ["sig", "inc", "v", "lai"], ["ID"], false⟩ false "t" ∧
    ∀ k ∈ ["sig", "omega", "tau", "v", "lai", "ID", "z"], ¬ Fixed ⟨exDef, ["sig", "inc", "v", "lai"], ["ID"], false⟩ false k := by
  refine ⟨⟨by decide, by decide, ⟨false, false, .none⟩, by decide, by decide⟩, ?_⟩
  intro k hk h
  have := (source_defValue ⟨exDef, ["sig", "inc", "v", "lai"], ["ID"], false⟩ (by decide) false false k).2 h
  clear h
  revert this
  revert k
  decide

/-- A batch with an export function that returns a series. -/
example : (exportBatch (splitParameters ["omega", "lai", "tot"]).1 [("lai", fun i : ℤ => .series [i])]
    (splitParameters ["omega", "lai", "tot"]).2 [1, 2]).map Exported.names =
    [["tot", "lai", "omega"], ["tot", "lai", "omega"]] := by decide

example : exceptfunc (some ["dumps"]) (fun p => if p = ["dumps", "a.dump"] then some 3 else none) (some "a")
    ⟨["rt1_file_already_exists"]⟩ = .result 3 := by decide

example : exceptfunc (none) (fun _ => (none : Option Nat)) (some "a") ⟨["something"]⟩ = .reraise := by decide

end Export
end RT1
