import Verif.Model.FitObject
import Verif.Props.ConfigOverride
import Verif.Props.ConfigValues

/-!
# The fit object of a configuration file (C120)
-/

namespace RT1.Config
open General

variable {F D P : Type} (c : Conv F D P) (env : FitEnv F)

/-! ## Specification -/

/-- The value of an option: the given value, or the default if it is not given. -/
def OptVal (d : Dict Str (KVal F)) (k : Str) (dflt v : KVal F) : Prop :=
  (k ∈ d.keys → d.get? k = some v) ∧ (k ∉ d.keys → v = dflt)

/-- The fit object has the specified variable definition. -/
def HasDef (v : VarDef F) (d : DVal F) : Prop :=
  v.fitQ = d.fitQ ∧ v.val = d.val ∧
    (d.rest = none → v.freq = .none ∧ v.minval = none ∧ v.maxval = none ∧ v.interpQ = none) ∧
    ∀ freq lo hi q, d.rest = some (freq, lo, hi, q) → v.minval = some lo ∧ v.maxval = some hi ∧ v.interpQ = some q ∧
      (freq = none → v.freq = .none) ∧ ∀ s, freq = some s → v.freq = .str s

/-- The fit object is the one specified by a parsed configuration. -/
structure Specified (cfg : Cfg F) (x : FitObj F) : Prop where
  sig0 : OptVal cfg.fits ['s', 'i', 'g', '0'] (.bool false) x.sig0
  dB : OptVal cfg.fits ['d', 'B'] (.bool false) x.dB
  int_Q : OptVal cfg.fits ['i', 'n', 't', '_', 'Q'] (.bool true) x.int_Q
  verbose : OptVal cfg.fits ['v', 'e', 'r', 'b', 'o', 's', 'e'] (.int 2) x.verbose
  fnevals : OptVal cfg.fits "_fnevals_input".toList .none x.fnevals_input
  backend : ∃ v, OptVal cfg.fits "lambda_backend".toList .none v ∧ (v = .none → x.lambda_backend = env.backend) ∧
    (v ≠ .none → x.lambda_backend = v)
  ID : ∃ v, OptVal cfg.fits ['I', 'D'] (.str "RT1_fit".toList) v ∧ x.ID = env.toID v
  lsq : x.lsq = cfg.lsq
  V : x.V = cfg.V
  SRF : x.SRF = cfg.SRF
  vars : ∀ k, k ∈ x.defdict.keys ↔ k ∈ cfg.defdict.keys
  defs : ∀ k d, cfg.defdict.get? k = some d → ∃ v, x.defdict.get? k = some v ∧ HasDef v d

/-- Arguments that cannot be given in the section `fits_kwargs`. -/
def Clash (cfg : Cfg F) : Prop :=
  "self".toList ∈ cfg.fits.keys ∨ "dataset".toList ∈ cfg.fits.keys ∨ "defdict".toList ∈ cfg.fits.keys ∨
    "set_V_SRF".toList ∈ cfg.fits.keys ∨ "lsq_kwargs".toList ∈ cfg.fits.keys

/-- The order in which the elements of a set are iterated: every element once. -/
def IsSetOrder (so : List Str → List Str) : Prop := ∀ l, (so l).Nodup ∧ ∀ x, x ∈ so l ↔ x ∈ l

/-- The file has a section for the config `n`. -/
def Named (f : File) (n : Str) : Prop :=
  ' ' ∉ n ∧ ("#config ".toList ++ n ∈ f.sections.keys ∨ ∃ sec, ' ' ∉ sec ∧ secName n sec ∈ f.sections.keys)

/-- A name that can be used for a config. -/
def ValidName (n : Str) : Prop := env.isIdent n = true ∧
  n ∉ ["config_names", "configs", "_accessor", "_dataset", "_aux_data", "_reader_arg"].map String.toList

/-- The file has no section of a config. -/
def Plain (f : File) : Prop := ∀ s ∈ f.sections.keys, s ≠ "#config".toList ∧ ¬ "#config ".toList <+: s

/-- The sections of configs are `#config NAME` and `#config NAME SECTION`, where `SECTION` is a section of the file. -/
def WellFormed (f : File) : Prop := ∀ s ∈ f.sections.keys, (s = "#config".toList ∨ "#config ".toList <+: s) →
  ∃ n, ' ' ∉ n ∧ (s = "#config ".toList ++ n ∨
    ∃ sec, ' ' ∉ sec ∧ s = secName n sec ∧ (sec = "DEFAULT".toList ∨ sec ∈ f.sections.keys))

/-- The file without the sections of configs. -/
def onlyBase (f : File) : File := { f with sections := f.sections.filter fun e => !decide ("#config".toList <+: e.1) }

/-- Fit objects with the same options and definitions. -/
structure SameFit (x y : FitObj F) : Prop where
  sig0 : x.sig0 = y.sig0
  dB : x.dB = y.dB
  int_Q : x.int_Q = y.int_Q
  verbose : x.verbose = y.verbose
  fnevals : x.fnevals_input = y.fnevals_input
  backend : x.lambda_backend = y.lambda_backend
  ID : x.ID = y.ID
  lsq : ∀ k, x.lsq.get? k = y.lsq.get? k
  V : ∀ k, x.V.get? k = y.V.get? k
  SRF : ∀ k, x.SRF.get? k = y.SRF.get? k
  defdict : ∀ k, x.defdict.get? k = y.defdict.get? k

/-! ## Lemmas -/

theorem optVal_kwarg (d : Dict Str (KVal F)) (k : String) (dflt : KVal F) : OptVal d k.toList dflt (kwarg d k dflt) := by
  unfold kwarg
  constructor
  · intro h
    obtain ⟨v, hv⟩ := Option.isSome_iff_exists.1 ((Dict.get?_isSome d _).2 h)
    rw [hv]; rfl
  · intro h
    rw [(Dict.get?_eq_none d _).2 h]; rfl

theorem optVal_unique {d : Dict Str (KVal F)} {k : Str} {dflt v w : KVal F} (h : OptVal d k dflt v) (h' : OptVal d k dflt w) :
    v = w := by
  by_cases hk : k ∈ d.keys
  · exact Option.some.inj ((h.1 hk).symm.trans (h'.1 hk))
  · rw [h.2 hk, h'.2 hk]

theorem hasDef_varDef (d : DVal F) : HasDef (varDef d) d := by
  obtain ⟨q, v, rest⟩ := d
  cases rest with
  | none => exact ⟨rfl, rfl, fun _ => ⟨rfl, rfl, rfl, rfl⟩, by simp⟩
  | some r =>
    obtain ⟨fr, lo, hi, i⟩ := r
    refine ⟨rfl, rfl, by simp, ?_⟩
    intro fr' lo' hi' q' h
    cases h
    cases fr <;> simp [varDef]

theorem hasDef_unique {v w : VarDef F} {d : DVal F} (h : HasDef v d) (h' : HasDef w d) : v = w := by
  obtain ⟨a1, a2, a3, a4⟩ := h
  obtain ⟨b1, b2, b3, b4⟩ := h'
  obtain ⟨q, x, rest⟩ := d
  obtain ⟨v1, v2, v3, v4, v5, v6⟩ := v
  obtain ⟨w1, w2, w3, w4, w5, w6⟩ := w
  simp only at *
  cases rest with
  | none =>
    obtain ⟨c1, c2, c3, c4⟩ := a3 rfl
    obtain ⟨d1, d2, d3, d4⟩ := b3 rfl
    simp [a1, a2, b1, b2, c1, c2, c3, c4, d1, d2, d3, d4]
  | some r =>
    obtain ⟨fr, lo, hi, i⟩ := r
    obtain ⟨c1, c2, c3, c4, c5⟩ := a4 _ _ _ _ rfl
    obtain ⟨d1, d2, d3, d4, d5⟩ := b4 _ _ _ _ rfl
    cases fr with
    | none => simp [a1, a2, b1, b2, c1, c2, c3, d1, d2, d3, c4 rfl, d4 rfl]
    | some s => simp [a1, a2, b1, b2, c1, c2, c3, d1, d2, d3, c5 s rfl, d5 s rfl]

theorem parseWith_nodup {α : Type} {g : Str × Option Str → Except PyErr α} {s : Section} {d : Dict Str α}
    (h : parseWith g s = .ok d) : (Dict.keys d).Nodup := by
  have gen : ∀ (s : Section) (d0 d : Dict Str α), (Dict.keys d0).Nodup →
      s.foldlM (fun d e => do let v ← g e; .ok (Dict.set d e.1 v)) d0 = .ok d → (Dict.keys d).Nodup := by
    intro s
    induction s with
    | nil => intro d0 d h0 h; cases h; exact h0
    | cons e s ih =>
      intro d0 d h0 h
      rw [List.foldlM_cons] at h
      obtain ⟨d1, h1, h⟩ := bindOk h
      obtain ⟨v, _, h1⟩ := bindOk h1
      cases h1
      exact ih _ _ (Dict.nodup_set h0 _ _) h
  exact gen s [] d (by simp [Dict.keys]) h

theorem getConfig_nodup {f : File} {n : Option Str} {r : Cfg F} (h : getConfig c f n = .ok r) : (Dict.keys r.defdict).Nodup := by
  unfold getConfig at h
  obtain ⟨l0, hl0, h⟩ := bindOk h
  obtain ⟨f0, hf0, h⟩ := bindOk h
  obtain ⟨d0, hd0, h⟩ := bindOk h
  obtain ⟨v0, hv0, h⟩ := bindOk h
  obtain ⟨s0, hs0, h⟩ := bindOk h
  obtain ⟨l1, hl1, h⟩ := bindOk h
  obtain ⟨f1, hf1, h⟩ := bindOk h
  obtain ⟨d1, hd1, h⟩ := bindOk h
  obtain ⟨v1, hv1, h⟩ := bindOk h
  obtain ⟨s1, hs1, h⟩ := bindOk h
  obtain rfl := Except.ok.inj h
  have h0 : (Dict.keys d0).Nodup := by
    unfold parseDefdict at hd0
    obtain ⟨inp, _, hd0⟩ := bindOk hd0
    exact parseWith_nodup hd0
  unfold updated at hd1
  cases n with
  | none => cases hd1; exact h0
  | some m =>
    simp only at hd1
    split_ifs at hd1
    · obtain ⟨u, _, hd1⟩ := bindOk hd1
      cases hd1
      exact Dict.nodup_update h0 u
    · cases hd1; exact h0

theorem fromDict_get {d : Dict Str (DVal F)} (hd : d.keys.Nodup) (k : Str) : (fromDict d).get? k = (d.get? k).map varDef := by
  have hn : ((d.map fun e => (e.1, varDef e.2)).map Prod.fst).Nodup := by
    rw [List.map_map]; exact hd
  cases h : (fromDict d).get? k with
  | none =>
    have h' := (Dict.get?_eq_none _ _).1 h
    cases h2 : d.get? k with
    | none => rfl
    | some v =>
      exfalso
      have := (Dict.get?_ofList hn k (varDef v)).2 (List.mem_map.2 ⟨_, Dict.mem_of_get? h2, rfl⟩)
      unfold fromDict at h
      rw [this] at h
      cases h
  | some w =>
    have := (Dict.get?_ofList hn k w).1 h
    obtain ⟨e, he, heq⟩ := List.mem_map.1 this
    obtain ⟨k', v'⟩ := e
    cases heq
    rw [(Dict.get?_iff_mem hd k' v').2 he]; rfl

theorem newFit_iff {cfg : Cfg F} (hn : cfg.defdict.keys.Nodup) :
    (Clash cfg → newFit env cfg = .error .typeError) ∧
    (¬ Clash cfg → ∃ x, newFit env cfg = .ok x ∧ Specified env cfg x ∧ x.config_name = none) := by
  have hc : Clash cfg ↔ (cfg.fits.keys.any fun k => decide (k ∈ explicitArgs)) = true := by
    simp only [List.any_eq_true, decide_eq_true_eq, explicitArgs, List.map_cons, List.map_nil, List.mem_cons, List.not_mem_nil, or_false]
    constructor
    · rintro (h | h | h | h | h)
      · exact ⟨_, h, .inl rfl⟩
      · exact ⟨_, h, .inr (.inl rfl)⟩
      · exact ⟨_, h, .inr (.inr (.inl rfl))⟩
      · exact ⟨_, h, .inr (.inr (.inr (.inl rfl)))⟩
      · exact ⟨_, h, .inr (.inr (.inr (.inr rfl)))⟩
    · rintro ⟨k, hk, rfl | rfl | rfl | rfl | rfl⟩
      · exact .inl hk
      · exact .inr (.inl hk)
      · exact .inr (.inr (.inl hk))
      · exact .inr (.inr (.inr (.inl hk)))
      · exact .inr (.inr (.inr (.inr hk)))
  refine ⟨fun h => by unfold newFit; rw [if_pos (hc.1 h)], fun h => ?_⟩
  unfold newFit
  rw [if_neg fun h' => h (hc.2 h')]
  refine ⟨_, rfl, ?_, rfl⟩
  refine ⟨optVal_kwarg _ "sig0" _, optVal_kwarg _ "dB" _, optVal_kwarg _ "int_Q" _, optVal_kwarg _ "verbose" _,
    optVal_kwarg _ "_fnevals_input" _, ⟨_, optVal_kwarg _ "lambda_backend" _, ?_, ?_⟩, ⟨_, optVal_kwarg _ "ID" _, rfl⟩, rfl, rfl, rfl,
    fun k => ?_, fun k d hd => ⟨varDef d, ?_, hasDef_varDef d⟩⟩
  · intro h; dsimp only; rw [h]; rfl
  · intro h
    dsimp only
    revert h
    generalize kwarg cfg.fits "lambda_backend" KVal.none = v
    intro h
    cases v <;> simp [backendOf] at h ⊢
  · rw [← Dict.get?_isSome, ← Dict.get?_isSome, fromDict_get hn]; simp
  · rw [fromDict_get hn, hd]; rfl

theorem newFit_ok {cfg : Cfg F} (hn : cfg.defdict.keys.Nodup) {x : FitObj F} (h : newFit env cfg = .ok x) :
    ¬ Clash cfg ∧ Specified env cfg x ∧ x.config_name = none := by
  have hc : ¬ Clash cfg := fun hc => by rw [(newFit_iff env hn).1 hc] at h; cases h
  obtain ⟨y, hy, hs, hm⟩ := (newFit_iff env hn).2 hc
  rw [hy] at h
  cases h
  exact ⟨hc, hs, hm⟩

theorem fold_ok (f : File) : ∀ (L : List Str) (A : List Str) (B : Dict Str (FitObj F)) (s : List Str × Dict Str (FitObj F)),
    L.Nodup → L.foldlM (addNamed c env f) (A, B) = .ok s →
    s.1 = A ++ L ∧ (∀ n, n ∉ L → s.2.get? n = B.get? n) ∧
    ∀ n ∈ L, ValidName env n ∧ ∃ cfg x, getConfig c f (some n) = .ok cfg ∧ newFit env cfg = .ok x ∧
      s.2.get? n = some { x with config_name := some n } := by
  intro L
  induction L with
  | nil => intro A B s _ h; cases h; simp
  | cons m L ih =>
    intro A B s hn h
    rw [List.foldlM_cons] at h
    obtain ⟨s1, h1, h⟩ := bindOk h
    unfold addNamed at h1
    obtain ⟨cfg, hcfg, h1⟩ := bindOk h1
    obtain ⟨x, hx, h1⟩ := bindOk h1
    unfold addFit at h1
    split_ifs at h1 with hi hr
    obtain rfl := Except.ok.inj h1
    obtain ⟨e1, e2, e3⟩ := ih _ _ s (List.nodup_cons.1 hn).2 h
    have hm := (List.nodup_cons.1 hn).1
    refine ⟨by rw [e1]; simp, fun n hnn => ?_, fun n hnn => ?_⟩
    · rw [List.mem_cons, not_or] at hnn
      rw [e2 n hnn.2, Dict.get?_set, if_neg hnn.1]
    · rcases List.mem_cons.1 hnn with rfl | hnn
      · refine ⟨⟨by simpa using hi, hr⟩, cfg, x, hcfg, hx, ?_⟩
        rw [e2 n hm, Dict.get?_set, if_pos rfl]
      · exact e3 n hnn

theorem fold_isOk (f : File) : ∀ (L : List Str) (s : List Str × Dict Str (FitObj F)),
    (∀ n ∈ L, ValidName env n ∧ ∃ cfg x, getConfig c f (some n) = .ok cfg ∧ newFit env cfg = .ok x) →
    ∃ r, L.foldlM (addNamed c env f) s = .ok r := by
  intro L
  induction L with
  | nil => intro s _; exact ⟨s, rfl⟩
  | cons m L ih =>
    intro s h
    obtain ⟨⟨v1, v2⟩, cfg, x, hcfg, hx⟩ := h m (by simp)
    rw [List.foldlM_cons]
    have : addNamed c env f s m = .ok (s.1 ++ [m], s.2.set m { x with config_name := some m }) := by
      unfold addNamed addFit
      rw [hcfg]
      simp only [bind, Except.bind, hx, v1]
      rw [if_neg (by simp), if_neg (show m ∉ reservedNames from v2)]
    rw [this]
    exact ih _ fun n hn => h n (List.mem_cons_of_mem _ hn)

theorem names_mem {f : File} {l : List Str} (h : configNames f = .ok l) (n : Str) : n ∈ l ↔ Named f n := by
  constructor
  · intro hn
    have hsp : ' ' ∉ n := by
      have h' := h
      unfold configNames at h'
      obtain ⟨r, hr, h'⟩ := bindOk h'
      obtain rfl := Except.ok.inj h'
      obtain ⟨q, hq, hnq⟩ := List.mem_flatten.1 hn
      obtain ⟨i, hi, heq⟩ := (mem_mapM hr _).1 hq
      split_ifs at heq with hpre
      · split at heq
        · rename_i hd rest hspl
          split_ifs at heq with hh
          · split at heq
            · obtain rfl := Except.ok.inj heq
              simp only [List.mem_singleton] at hnq
              subst hnq
              exact (splitChar_spec ' ' i).2 _ (by rw [hspl]; simp)
            · split_ifs at heq
              obtain rfl := Except.ok.inj heq
              simp only [List.mem_singleton] at hnq
              subst hnq
              exact (splitChar_spec ' ' i).2 _ (by rw [hspl]; simp)
            · cases heq
          · obtain rfl := Except.ok.inj heq
            simp at hnq
        · obtain rfl := Except.ok.inj heq
          simp at hnq
      · obtain rfl := Except.ok.inj heq
        simp at hnq
    exact ⟨hsp, (C46_names h n hsp).1 hn⟩
  · rintro ⟨hsp, hn⟩
    exact (C46_names h n hsp).2 hn

theorem mapM_nil {α β : Type} {g : α → Except PyErr (List β)} {l : List α} (h : ∀ i ∈ l, g i = .ok []) :
    (do let r ← l.mapM g; .ok r.flatten : Except PyErr (List β)) = .ok [] := by
  obtain ⟨r, hr⟩ := (mapM_isOk_iff g l).2 fun i hi => ⟨_, h i hi⟩
  have hr0 : r.flatten = [] := by
    rw [List.flatten_eq_nil_iff]
    intro q hq
    obtain ⟨i, hi, heq⟩ := (mem_mapM hr q).1 hq
    rw [h i hi] at heq
    exact (Except.ok.inj heq).symm
  rw [hr]
  show Except.ok r.flatten = _
  rw [hr0]

theorem names_nil (f : File) : configNames f = .ok [] ↔ Plain f := by
  constructor
  · intro h s hs
    constructor
    · rintro rfl
      unfold configNames at h
      obtain ⟨r, hr, _⟩ := bindOk h
      obtain ⟨q, hq⟩ := (mapM_isOk_iff _ _).1 ⟨r, hr⟩ _ hs
      have hspl : splitChar ' ' "#config".toList = ["#config".toList] := by decide
      have hpre : "#config".toList.isPrefixOf "#config".toList = true := by decide
      simp only [hpre, if_true, hspl] at hq
      cases hq
    · rintro ⟨t, rfl⟩
      have h' := h
      unfold configNames at h'
      obtain ⟨r, hr, h'⟩ := bindOk h'
      have h'' := Except.ok.inj h'
      obtain ⟨q, hq⟩ := (mapM_isOk_iff _ _).1 ⟨r, hr⟩ _ hs
      have hmem : q ∈ r := (mem_mapM hr q).2 ⟨_, hs, hq⟩
      have hq0 : q = [] := by
        by_contra hne
        obtain ⟨y, hy⟩ := List.exists_mem_of_ne_nil _ hne
        have : y ∈ r.flatten := List.mem_flatten.2 ⟨q, hmem, hy⟩
        rw [h''] at this
        cases this
      subst hq0
      have e : "#config ".toList ++ t = "#config".toList ++ ' ' :: t := by
        rw [show "#config ".toList = "#config".toList ++ [' '] from by decide, List.append_assoc]; rfl
      have hpre : "#config".toList.isPrefixOf ("#config ".toList ++ t) = true := by
        rw [List.isPrefixOf_iff_prefix, e]
        exact List.prefix_append _ _
      have hspl : splitChar ' ' ("#config ".toList ++ t) = "#config".toList :: splitChar ' ' t := by
        rw [e, splitChar_append (by decide)]
      simp only [hpre, if_true, hspl] at hq
      split at hq
      · cases hq
      · split_ifs at hq
        cases hq
      · cases hq
  · intro h
    unfold configNames
    apply mapM_nil
    intro i hi
    obtain ⟨h1, h2⟩ := h i hi
    split_ifs with hpre
    · split
      · rename_i hd rest hspl
        rw [if_neg]
        rintro rfl
        have hj := (splitChar_spec ' ' i).1
        rw [hspl] at hj
        cases rest with
        | nil => exact h1 hj.symm
        | cons a rest =>
          apply h2
          rw [← hj]
          refine ⟨join ' ' (a :: rest), ?_⟩
          rw [show "#config ".toList = "#config".toList ++ [' '] from by decide, List.append_assoc]; rfl
      · rfl
    · rfl

theorem names_ok (f : File) : (∃ l, configNames f = .ok l) ↔ WellFormed f := by
  have e : ∀ t : Str, "#config ".toList ++ t = "#config".toList ++ ' ' :: t := by
    intro t
    rw [show "#config ".toList = "#config".toList ++ [' '] from by decide, List.append_assoc]; rfl
  have hhas : ∀ sec, f.has sec = true ↔ sec = "DEFAULT".toList ∨ sec ∈ f.sections.keys := by
    intro sec
    unfold File.has
    rw [Bool.or_eq_true, decide_eq_true_eq, Dict.get?_isSome]
  have hsplit : ∀ i : Str, ∀ parts, splitChar ' ' i = parts → i = join ' ' parts := by
    rintro i _ rfl
    exact ((splitChar_spec ' ' i).1).symm
  unfold configNames
  have hb : ∀ {g : Str → Except PyErr (List Str)}, (∃ l, (do let l ← f.sections.keys.mapM g; .ok l.flatten) = .ok l) ↔
      ∀ i ∈ f.sections.keys, ∃ q, g i = .ok q := by
    intro g
    rw [← mapM_isOk_iff]
    constructor
    · rintro ⟨l, h⟩
      obtain ⟨r, hr, _⟩ := bindOk h
      exact ⟨r, hr⟩
    · rintro ⟨r, hr⟩
      exact ⟨_, by rw [hr]; rfl⟩
  rw [hb]
  refine forall_congr' fun i => imp_congr_right fun hi => ?_
  constructor
  · rintro ⟨q, hq⟩ hc
    have hpre : "#config".toList.isPrefixOf i = true := by
      rw [List.isPrefixOf_iff_prefix]
      rcases hc with rfl | ⟨t, rfl⟩
      · exact List.prefix_rfl
      · rw [e]; exact List.prefix_append _ _
    have hhead : ∃ rest, splitChar ' ' i = "#config".toList :: rest := by
      rcases hc with rfl | ⟨t, rfl⟩
      · exact ⟨[], by decide⟩
      · exact ⟨_, by rw [e, splitChar_append (by decide)]⟩
    obtain ⟨rest, hspl⟩ := hhead
    have hi' := hsplit i _ hspl
    have hsp := (splitChar_spec ' ' i).2
    rw [hspl] at hsp
    simp only [hpre, if_true, hspl] at hq
    split at hq
    · rename_i n
      exact ⟨n, hsp n (by simp), .inl hi'⟩
    · rename_i n sec
      split_ifs at hq with hh
      refine ⟨n, hsp n (by simp), .inr ⟨sec, hsp sec (by simp), ?_, (hhas sec).1 hh⟩⟩
      rw [hi']
      simp [join, secName]
    · cases hq
  · intro h
    by_cases hc : i = "#config".toList ∨ "#config ".toList <+: i
    · obtain ⟨n, hn, h⟩ := h hc
      have hpre : "#config".toList.isPrefixOf i = true := by
        rw [List.isPrefixOf_iff_prefix]
        rcases hc with rfl | ⟨t, rfl⟩
        · exact List.prefix_rfl
        · rw [e]; exact List.prefix_append _ _
      rcases h with rfl | ⟨sec, hsec, rfl, hs⟩
      · have hspl : splitChar ' ' ("#config ".toList ++ n) = ["#config".toList, n] := by
          rw [e, splitChar_append (by decide), splitChar_free hn]
        simp only [hpre, if_true, hspl]
        exact ⟨_, rfl⟩
      · have hspl : splitChar ' ' (secName n sec) = ["#config".toList, n, sec] := by
          have : secName n sec = "#config".toList ++ ' ' :: (n ++ ' ' :: sec) := by simp [secName]
          rw [this, splitChar_append (by decide), splitChar_append hn, splitChar_free hsec]
        simp only [hpre, if_true, hspl, (hhas sec).2 hs]
        exact ⟨_, rfl⟩
    · rw [not_or] at hc
      split_ifs with hpre
      · split
        · rename_i hd rest hspl
          rw [if_neg]
          · exact ⟨_, rfl⟩
          rintro rfl
          have hj := (splitChar_spec ' ' i).1
          rw [hspl] at hj
          cases rest with
          | nil => exact hc.1 hj.symm
          | cons a rest =>
            apply hc.2
            rw [← hj]
            refine ⟨join ' ' (a :: rest), ?_⟩
            rw [e]; rfl
        · exact ⟨_, rfl⟩
      · exact ⟨_, rfl⟩

theorem order_nil {so : List Str → List Str} (hso : IsSetOrder so) (l : List Str) : so l = [] ↔ l = [] := by
  constructor
  · intro h
    by_contra hne
    obtain ⟨y, hy⟩ := List.exists_mem_of_ne_nil _ hne
    have := ((hso l).2 y).2 hy
    rw [h] at this
    cases this
  · rintro rfl
    by_contra hne
    obtain ⟨y, hy⟩ := List.exists_mem_of_ne_nil _ hne
    have := ((hso []).2 y).1 hy
    cases this

theorem getFitobject_nil {so : List Str → List Str} (hso : IsSetOrder so) {f : File} (h : configNames f = .ok []) :
    getFitobject c env so f = (do
      let cfg ← getConfig c f none
      let x ← newFit env cfg
      .ok (.single x)) := by
  unfold getFitobject
  rw [h]
  show (if _ then _ else _) = _
  rw [(order_nil hso []).2 rfl]
  rfl

theorem getFitobject_cons {so : List Str → List Str} (hso : IsSetOrder so) {f : File} {l : List Str} (h : configNames f = .ok l)
    (hl : l ≠ []) : getFitobject c env so f = (do
      let s ← (so l).foldlM (addNamed c env f) ([], [])
      .ok (.multi s.1 s.2)) := by
  unfold getFitobject
  rw [h]
  show (if _ then _ else _) = _
  rw [if_neg]
  rw [List.isEmpty_iff, order_nil hso]
  exact hl

/-! ## C120 -/

/-- C120: a single fit object is returned if the file has no section of a config. It has the options and definitions of the
sections of the file. -/
theorem C120_single {so : List Str → List Str} (hso : IsSetOrder so) {f : File} {x : FitObj F}
    (h : getFitobject c env so f = .ok (.single x)) :
    Plain f ∧ x.config_name = none ∧ ∃ cfg, getConfig c f none = .ok cfg ∧ Specified env cfg x := by
  cases hn : configNames f with
  | error e => unfold getFitobject at h; rw [hn] at h; cases h
  | ok l =>
    by_cases hl : l = []
    · subst hl
      rw [getFitobject_nil c env hso hn] at h
      obtain ⟨cfg, hcfg, h⟩ := bindOk h
      obtain ⟨y, hy, h⟩ := bindOk h
      cases h
      obtain ⟨_, hs, hm⟩ := newFit_ok env (getConfig_nodup c hcfg) hy
      exact ⟨(names_nil f).1 hn, hm, cfg, hcfg, hs⟩
    · rw [getFitobject_cons c env hso hn hl] at h
      obtain ⟨s, _, h⟩ := bindOk h
      cases h

/-- C120: otherwise the result contains exactly one fit object for every config of the file. The fit object of a config
has the options and definitions of this config. -/
theorem C120_multi {so : List Str → List Str} (hso : IsSetOrder so) {f : File} {names : List Str}
    {configs : Dict Str (FitObj F)} (h : getFitobject c env so f = .ok (.multi names configs)) :
    ¬ Plain f ∧ names.Nodup ∧ (∀ n, n ∈ names ↔ Named f n) ∧ (∀ n, n ∈ configs.keys ↔ Named f n) ∧
    ∀ n, Named f n → ValidName env n ∧ ∃ cfg x, getConfig c f (some n) = .ok cfg ∧ configs.get? n = some x ∧
      Specified env cfg x ∧ x.config_name = some n := by
  cases hn : configNames f with
  | error e => unfold getFitobject at h; rw [hn] at h; cases h
  | ok l =>
    by_cases hl : l = []
    · subst hl
      rw [getFitobject_nil c env hso hn] at h
      obtain ⟨cfg, _, h⟩ := bindOk h
      obtain ⟨y, _, h⟩ := bindOk h
      cases h
    · rw [getFitobject_cons c env hso hn hl] at h
      obtain ⟨s, hs, h⟩ := bindOk h
      cases h
      obtain ⟨e1, e2, e3⟩ := fold_ok c env f _ _ _ s (hso l).1 hs
      have hmem : ∀ n, n ∈ so l ↔ Named f n := fun n => ((hso l).2 n).trans (names_mem hn n)
      rw [List.nil_append] at e1
      refine ⟨fun hp => ?_, by rw [e1]; exact (hso l).1, fun n => by rw [e1]; exact hmem n, fun n => ?_, fun n hnn => ?_⟩
      · rw [(names_nil f).2 hp] at hn
        cases hn
        exact hl rfl
      · rw [← Dict.get?_isSome, ← hmem]
        by_cases hm : n ∈ so l
        · obtain ⟨_, _, _, _, _, e⟩ := e3 n hm
          simp [hm, e]
        · simp [hm, e2 n hm, Dict.get?_nil]
      · obtain ⟨hv, cfg, x, hcfg, hx, e⟩ := e3 n ((hmem n).2 hnn)
        obtain ⟨_, hsp, _⟩ := newFit_ok env (getConfig_nodup c hcfg) hx
        exact ⟨hv, cfg, _, hcfg, e, ⟨hsp.1, hsp.2, hsp.3, hsp.4, hsp.5, hsp.6, hsp.7, hsp.8, hsp.9, hsp.10, hsp.11, hsp.12⟩, rfl⟩

/-- C120: which files are accepted. -/
theorem C120_accepted {so : List Str → List Str} (hso : IsSetOrder so) (f : File) :
    (∃ r, getFitobject c env so f = .ok r) ↔
      (Plain f ∧ ∃ cfg, getConfig c f none = .ok cfg ∧ ¬ Clash cfg) ∨
      (¬ Plain f ∧ WellFormed f ∧ ∀ n, Named f n → ValidName env n ∧ ∃ cfg, getConfig c f (some n) = .ok cfg ∧ ¬ Clash cfg) := by
  constructor
  · rintro ⟨r, h⟩
    cases r with
    | single x =>
      left
      have hp := (C120_single c env hso h).1
      refine ⟨hp, ?_⟩
      rw [getFitobject_nil c env hso ((names_nil f).2 hp)] at h
      obtain ⟨cfg, hcfg, h⟩ := bindOk h
      obtain ⟨y, hy, h⟩ := bindOk h
      exact ⟨cfg, hcfg, (newFit_ok env (getConfig_nodup c hcfg) hy).1⟩
    | multi names configs =>
      right
      have hp := (C120_multi c env hso h).1
      cases hn : configNames f with
      | error e => unfold getFitobject at h; rw [hn] at h; cases h
      | ok l =>
        have hl : l ≠ [] := by
          rintro rfl
          exact hp ((names_nil f).1 hn)
        rw [getFitobject_cons c env hso hn hl] at h
        obtain ⟨s, hs, h⟩ := bindOk h
        refine ⟨hp, (names_ok f).1 ⟨l, hn⟩, fun n hnn => ?_⟩
        obtain ⟨hv, cfg, x, hcfg, hx, _⟩ := (fold_ok c env f _ _ _ s (hso l).1 hs).2.2 n
          (((hso l).2 n).2 ((names_mem hn n).2 hnn))
        exact ⟨hv, cfg, hcfg, (newFit_ok env (getConfig_nodup c hcfg) hx).1⟩
  · rintro (⟨hp, cfg, hcfg, hc⟩ | ⟨hp, hw, hall⟩)
    · rw [getFitobject_nil c env hso ((names_nil f).2 hp), hcfg]
      obtain ⟨x, hx, _⟩ := (newFit_iff env (getConfig_nodup c hcfg)).2 hc
      exact ⟨.single x, by simp only [bind, Except.bind, hx]⟩
    · obtain ⟨l, hn⟩ := (names_ok f).2 hw
      have hl : l ≠ [] := by
        rintro rfl
        exact hp ((names_nil f).1 hn)
      rw [getFitobject_cons c env hso hn hl]
      obtain ⟨r, hr⟩ := fold_isOk c env f (so l) ([], []) fun n hnn => by
        obtain ⟨hv, cfg, hcfg, hc⟩ := hall n ((names_mem hn n).1 (((hso l).2 n).1 hnn))
        obtain ⟨x, hx, _⟩ := (newFit_iff env (getConfig_nodup c hcfg)).2 hc
        exact ⟨hv, cfg, x, hcfg, hx⟩
      exact ⟨_, by rw [hr]; rfl⟩

theorem specified_same {cfg cfg' : Cfg F} {x y : FitObj F} (hx : Specified env cfg x) (hy : Specified env cfg' y)
    (h : ∀ k, cfg.lsq.get? k = cfg'.lsq.get? k ∧ cfg.fits.get? k = cfg'.fits.get? k ∧ cfg.defdict.get? k = cfg'.defdict.get? k ∧
        cfg.V.get? k = cfg'.V.get? k ∧ cfg.SRF.get? k = cfg'.SRF.get? k) : SameFit x y := by
  have hopt : ∀ {k dflt v w}, OptVal cfg.fits k dflt v → OptVal cfg'.fits k dflt w → v = w := by
    intro k dflt v w a b
    refine optVal_unique a ⟨fun hk => ?_, fun hk => ?_⟩
    · rw [(h k).2.1]
      exact b.1 ((Dict.mem_keys_congr (fun k => (h k).2.1) k).1 hk)
    · exact b.2 fun hk' => hk ((Dict.mem_keys_congr (fun k => (h k).2.1) k).2 hk')
  refine ⟨hopt hx.sig0 hy.sig0, hopt hx.dB hy.dB, hopt hx.int_Q hy.int_Q, hopt hx.verbose hy.verbose, hopt hx.fnevals hy.fnevals,
    ?_, ?_, fun k => ?_, fun k => ?_, fun k => ?_, fun k => ?_⟩
  · obtain ⟨v, a1, a2, a3⟩ := hx.backend
    obtain ⟨w, b1, b2, b3⟩ := hy.backend
    obtain rfl := hopt a1 b1
    by_cases hv : v = .none
    · rw [a2 hv, b2 hv]
    · rw [a3 hv, b3 hv]
  · obtain ⟨v, a1, a2⟩ := hx.ID
    obtain ⟨w, b1, b2⟩ := hy.ID
    rw [a2, b2, hopt a1 b1]
  · rw [hx.lsq, hy.lsq]; exact (h k).1
  · rw [hx.V, hy.V]; exact (h k).2.2.2.1
  · rw [hx.SRF, hy.SRF]; exact (h k).2.2.2.2
  · have hk := (h k).2.2.1
    cases hd : cfg.defdict.get? k with
    | none =>
      have h1 : x.defdict.get? k = none := by
        rw [Dict.get?_eq_none, hx.vars, ← Dict.get?_eq_none]; exact hd
      have h2 : y.defdict.get? k = none := by
        rw [Dict.get?_eq_none, hy.vars, ← Dict.get?_eq_none, ← hk]; exact hd
      rw [h1, h2]
    | some d =>
      obtain ⟨v, hv, a⟩ := hx.defs k d hd
      obtain ⟨w, hw, b⟩ := hy.defs k d (by rw [← hk]; exact hd)
      rw [hv, hw, hasDef_unique a b]

/-- C120: the fit object of a config does not depend on the other configs: two files that differ only in sections of
other configs give the same fit object for this config. -/
theorem C120_independent {so so' : List Str → List Str} (hso : IsSetOrder so) (hso' : IsSetOrder so') {f f' : File}
    (hd : f.defaults = f'.defaults) {n : Str}
    (h : ∀ s, (∀ n' sec, n' ≠ n → sec ∈ cfgSections → s ≠ secName n' sec) → f.sections.get? s = f'.sections.get? s)
    {l l' : List Str} {d d' : Dict Str (FitObj F)} (hf : getFitobject c env so f = .ok (.multi l d))
    (hf' : getFitobject c env so' f' = .ok (.multi l' d')) (hn : n ∈ l) (hn' : n ∈ l') :
    ∃ x y, d.get? n = some x ∧ d'.get? n = some y ∧ SameFit x y ∧ x.config_name = some n ∧ y.config_name = some n := by
  obtain ⟨_, _, a, _, b⟩ := C120_multi c env hso hf
  obtain ⟨_, _, a', _, b'⟩ := C120_multi c env hso' hf'
  obtain ⟨_, cfg, x, hcfg, hx, hs, hm⟩ := b n ((a n).1 hn)
  obtain ⟨_, cfg', y, hcfg', hy, hs', hm'⟩ := b' n ((a' n).1 hn')
  have := C46_other_configs c hd (some n) fun s hs => h s fun n' sec hne => hs n' sec (by simpa using hne)
  rw [this, hcfg'] at hcfg
  cases hcfg
  exact ⟨x, y, hx, hy, specified_same env hs hs' fun k => ⟨rfl, rfl, rfl, rfl, rfl⟩, hm, hm'⟩

theorem getConfig_onlyBase (f : File) : getConfig c (onlyBase f) none = getConfig c f none := by
  have hget : ∀ s, ¬ "#config".toList <+: s → (onlyBase f).get s = f.get s := by
    intro s hs
    unfold File.get
    have : (onlyBase f).sections.get? s = f.sections.get? s := by
      unfold onlyBase
      have := get?_filter_key f.sections (fun k => !decide ("#config".toList <+: k)) s
      simp only at this ⊢
      rw [this, if_pos (by simpa using hs)]
    rw [this]
    rfl
  unfold getConfig parseDict parseDefdict parseVSRF
  rw [hget lsqProps.section_ (by decide), hget fitProps.section_ (by decide), hget "defdict".toList (by decide),
    hget "RT1_V".toList (by decide), hget "RT1_SRF".toList (by decide)]
  rfl

/-- C120, for files without `DEFAULT` entries and without linear combinations (see C46): the fit object of a config is the
fit object of the file without configs in which the entries of the config are written directly into the base sections. -/
theorem C120_merged_partial {so : List Str → List Str} (hso : IsSetOrder so) {f : File} (hd : f.defaults = []) (hs : f.Strict)
    (hl : f.NoLinComb) {names : List Str} {configs : Dict Str (FitObj F)} (h : getFitobject c env so f = .ok (.multi names configs))
    {n : Str} (hn : n ∈ names) :
    ∃ x y, configs.get? n = some x ∧ getFitobject c env so (onlyBase (merged f n)) = .ok (.single y) ∧ SameFit x y := by
  obtain ⟨_, _, a, _, b⟩ := C120_multi c env hso h
  obtain ⟨_, cfg, x, hcfg, hx, hsx, _⟩ := b n ((a n).1 hn)
  obtain ⟨cfg0, h0, hk⟩ := C46_override_partial c hd hs hl hcfg
  have hplain : Plain (onlyBase (merged f n)) := by
    intro s hs
    unfold onlyBase Dict.keys at hs
    simp only [List.mem_map, List.mem_filter, Bool.not_eq_true', decide_eq_false_iff_not] at hs
    obtain ⟨e, ⟨_, he⟩, rfl⟩ := hs
    refine ⟨fun e' => he (e' ▸ List.prefix_rfl), fun hp => he (List.IsPrefix.trans ?_ hp)⟩
    exact ⟨[' '], by decide⟩
  have hclash : ¬ Clash cfg0 := by
    have hc : ¬ Clash cfg := by
      rcases (C120_accepted c env hso f).1 ⟨_, h⟩ with ⟨hp, _⟩ | ⟨_, _, hall⟩
      · exact absurd hp (C120_multi c env hso h).1
      · obtain ⟨_, cfg', hcfg', hc⟩ := hall n ((a n).1 hn)
        rw [hcfg] at hcfg'
        cases hcfg'
        exact hc
    have hm := Dict.mem_keys_congr (d := cfg.fits) (d' := cfg0.fits) fun k => (hk k).2.1
    unfold Clash at hc ⊢
    simpa only [hm] using hc
  obtain ⟨r, hr⟩ := (C120_accepted c env hso (onlyBase (merged f n))).2 (.inl ⟨hplain, cfg0, by rw [getConfig_onlyBase]; exact h0, hclash⟩)
  cases r with
  | multi a b => exact absurd hplain (C120_multi c env hso hr).1
  | single y =>
    obtain ⟨_, _, cfg1, h1, hsy⟩ := C120_single c env hso hr
    rw [getConfig_onlyBase, h0] at h1
    cases h1
    exact ⟨x, y, hx, hr, specified_same env hsx hsy hk⟩

/-! ### examples and negations -/

theorem spec_freq {cfg : Cfg F} {x : FitObj F} (h : Specified env cfg x) {k : Str} {v : VarDef F} (hv : x.defdict.get? k = some v)
    (n : Int) : v.freq ≠ .int n := by
  have hk : k ∈ cfg.defdict.keys := (h.vars k).1 ((Dict.get?_isSome _ _).1 (by rw [hv]; rfl))
  obtain ⟨d, hd⟩ := Option.isSome_iff_exists.1 ((Dict.get?_isSome _ _).2 hk)
  obtain ⟨w, hw, _, _, a, b⟩ := h.defs k d hd
  rw [hv] at hw
  cases hw
  cases hr : d.rest with
  | none => rw [(a hr).1]; exact fun e => nomatch e
  | some r =>
    obtain ⟨fr, lo, hi, q⟩ := r
    obtain ⟨_, _, _, c1, c2⟩ := b _ _ _ _ hr
    cases fr with
    | none => rw [c1 rfl]; exact fun e => nomatch e
    | some s => rw [c2 s rfl]; exact fun e => nomatch e

/-- C120: an integer frequency (groups of `N` observations) cannot be specified in a file: no variable of a resulting fit
object has an integer frequency. -/
theorem C120_integer_frequency_fails {so : List Str → List Str} (hso : IsSetOrder so) {f : File} {r : FitResult F}
    (h : getFitobject c env so f = .ok r) (N : Int) :
    (∀ x, r = .single x → ∀ k v, x.defdict.get? k = some v → v.freq ≠ .int N) ∧
    ∀ names configs, r = .multi names configs → ∀ n ∈ names, ∃ x, configs.get? n = some x ∧
      ∀ k v, x.defdict.get? k = some v → v.freq ≠ .int N := by
  constructor
  · rintro x rfl k v hv
    obtain ⟨_, _, cfg, _, hs⟩ := C120_single c env hso h
    exact spec_freq env hs hv N
  · rintro names configs rfl n hn
    obtain ⟨_, _, a, _, b⟩ := C120_multi c env hso h
    obtain ⟨_, cfg, x, _, hx, hs, _⟩ := b n ((a n).1 hn)
    exact ⟨x, hx, fun k v hv => spec_freq env hs hv N⟩

/-- An environment in which words of letters and digits are identifiers. -/
def exEnv : FitEnv Nat := ⟨fun s => s ≠ [] && s.all Char.isAlphanum, fun v => match v with | .str s => s | _ => [], .str "cython".toList⟩

theorem dedup_order : IsSetOrder List.dedup := fun l => ⟨List.nodup_dedup l, fun _ => List.mem_dedup⟩

theorem reverse_order : IsSetOrder fun l => l.dedup.reverse :=
  fun l => ⟨List.nodup_reverse.2 (List.nodup_dedup l), fun _ => by rw [List.mem_reverse, List.mem_dedup]⟩

/-- The names of the configs of a result. -/
def FitResult.names : FitResult F → List Str
  | .single _ => []
  | .multi l _ => l

/-- The fit object of a config. -/
def FitResult.fit : FitResult F → Str → Option (FitObj F)
  | .single _, _ => none
  | .multi _ d, n => d.get? n

example : ∃ r, getFitobject exConv' exEnv List.dedup exFile = .ok r := by
  have : (getFitobject exConv' exEnv List.dedup exFile).toBool = true := by decide +kernel
  cases h : getFitobject exConv' exEnv List.dedup exFile with
  | ok r => exact ⟨r, rfl⟩
  | error e => rw [h] at this; cases this

example : ((getFitobject exConv' exEnv List.dedup exFile).map fun r => (r.fit "A".toList).map fun x =>
      [x.sig0, x.dB, x.verbose, x.lambda_backend, .str x.ID]) =
    .ok (some [.bool true, .bool false, .int 2, .str "cython".toList, .str "RT1_fit".toList]) := by
  decide +kernel

example : ((getFitobject exConv' exEnv List.dedup exFile).map fun r => (r.fit "A".toList).map fun x => x.defdict) =
    .ok (some [("omega".toList, ⟨false, some 7, .none, none, none, none⟩), ("tau".toList, ⟨false, some 3, .none, none, none, none⟩)]) := by
  decide +kernel

example : ((getFitobject exConv' exEnv List.dedup exFile).map fun r => (r.fit "B".toList).map fun x => (x.sig0, x.defdict)) =
    .ok (some (.bool false,
      [("omega".toList, ⟨true, some 5, .none, some 1, some 9, some false⟩), ("tau".toList, ⟨false, some 3, .none, none, none, none⟩)])) := by
  decide +kernel

/-- C120: the order of the configs is not determined by the file: it is the order of a python set, which differs between
python processes. -/
theorem C120_order_fails : ∃ (f : File) (so so' : List Str → List Str), IsSetOrder so ∧ IsSetOrder so' ∧
    (getFitobject exConv' exEnv so f).map FitResult.names = .ok ["A".toList, "B".toList] ∧
    (getFitobject exConv' exEnv so' f).map FitResult.names = .ok ["B".toList, "A".toList] :=
  ⟨exFile, _, _, dedup_order, reverse_order, by decide +kernel, by decide +kernel⟩

/-- A file with a misspelled option. -/
def exTypo : File := ⟨[], [("least_squares_kwargs".toList, []), ("fits_kwargs".toList, [("sigma0".toList, some "True".toList)]),
  ("defdict".toList, []), ("RT1_V".toList, []), ("RT1_SRF".toList, [])]⟩

/-- C120: an unknown option of the section `fits_kwargs` is accepted without effect. -/
theorem C120_unknown_option_fails : ∃ (f f' : File) (so : List Str → List Str), IsSetOrder so ∧
    f.sections.get? "fits_kwargs".toList = some [("sigma0".toList, some "True".toList)] ∧
    f'.sections = f.sections.set "fits_kwargs".toList [] ∧
    getFitobject exConv' exEnv so f = getFitobject exConv' exEnv so f' ∧
    (getFitobject exConv' exEnv so f).toBool = true :=
  ⟨exTypo, ⟨[], exTypo.sections.set "fits_kwargs".toList []⟩, _, dedup_order, by decide +kernel, rfl, by decide +kernel, by decide +kernel⟩

/-- C120: a config cannot be called like an attribute of `MultiFits`. -/
example : getFitobject exConv' exEnv List.dedup ⟨[], exBase ++ [("#config configs defdict".toList, [])]⟩ = .error .assertionError := by
  decide +kernel

end RT1.Config
