import Verif.Props.Config

/-!
# Named configs (C46), completeness of accepted config files (C81)
-/

namespace RT1.Config
open General

variable {F D P : Type} (c : Conv F D P)

/-! ## C46 -/

/-- Specification: the sections that define a configuration. -/
def cfgSections : List Str := ["least_squares_kwargs", "fits_kwargs", "defdict", "RT1_V", "RT1_SRF"].map String.toList

/-- Specification: the name of the section `sec` of the config `n`. -/
def secName (n sec : Str) : Str := ['#', 'c', 'o', 'n', 'f', 'i', 'g', ' '] ++ n ++ ' ' :: sec

/-- Specification: the file in which the entries of the config `n` are written directly into the base sections. -/
def merged (f : File) (n : Str) : File where
  defaults := f.defaults
  sections := f.sections.map fun e =>
    if e.1 ∈ cfgSections then
      match f.sections.get? (secName n e.1) with
      | some u => (e.1, Dict.update e.2 u)
      | none => e
    else e

/-- Section names and the keys of every section are unique (`ConfigParser` rejects other files). -/
def File.Strict (f : File) : Prop := f.sections.keys.Nodup ∧ ∀ e ∈ f.sections, (Dict.keys e.2).Nodup

/-- No section of the file specifies a linear combination of phase functions. -/
def File.NoLinComb (f : File) : Prop := ∀ e ∈ f.sections, ∀ x ∈ e.2,
  x ≠ ("V_name".toList, some "LinCombV".toList) ∧ x ≠ ("SRF_name".toList, some "LinCombSRF".toList)

theorem parseWith_form {α : Type} {g : Str × Option Str → Except PyErr α} {s : Section} {d : Dict Str α}
    (h : parseWith g s = .ok d) : ∃ r, s.mapM (fun e => do let v ← g e; .ok (e.1, v)) = .ok r ∧ d = Dict.ofList r := by
  unfold parseWith at h
  have e : (fun (d : Dict Str α) (e : Str × Option Str) => (do let v ← g e; .ok (Dict.set d e.1 v) : Except PyErr (Dict Str α))) =
      (fun d e => (do let p ← (do let v ← g e; .ok (e.1, v) : Except PyErr (Str × α)); .ok (Dict.set d p.1 p.2))) := by
    funext d e
    cases g e <;> rfl
  rw [e, foldlM_set] at h
  cases hm : s.mapM (fun e => (do let v ← g e; .ok (e.1, v) : Except PyErr (Str × α))) with
  | error e => rw [hm] at h; simp [bind, Except.bind] at h
  | ok r => rw [hm] at h; exact ⟨r, rfl, (Except.ok.inj h).symm⟩

theorem parseWith_ok {α : Type} {g : Str × Option Str → Except PyErr α} {s : Section}
    (h : ∀ e ∈ s, ∃ v, g e = .ok v) : ∃ d, parseWith g s = .ok d := by
  unfold parseWith
  have : ∀ d0 : Dict Str α, ∃ d, s.foldlM (fun d e => (do let v ← g e; .ok (Dict.set d e.1 v) : Except PyErr (Dict Str α))) d0 = .ok d := by
    induction s with
    | nil => exact fun d0 => ⟨d0, rfl⟩
    | cons e s ih =>
      intro d0
      obtain ⟨v, hv⟩ := h e List.mem_cons_self
      obtain ⟨d, hd⟩ := ih (fun e he => h e (List.mem_cons_of_mem _ he)) (Dict.set d0 e.1 v)
      exact ⟨d, by rw [List.foldlM_cons, hv]; exact hd⟩
  exact this []

theorem parseWith_mem_ok {α : Type} {g : Str × Option Str → Except PyErr α} {s : Section} {d : Dict Str α}
    (h : parseWith g s = .ok d) : ∀ e ∈ s, ∃ v, g e = .ok v := by
  obtain ⟨r, hr, _⟩ := parseWith_form h
  intro e he
  obtain ⟨p, hp⟩ := (mapM_isOk_iff _ _).1 ⟨r, hr⟩ e he
  cases hg : g e with
  | error err => rw [hg] at hp; simp [bind, Except.bind] at hp
  | ok v => exact ⟨v, rfl⟩

/-- The parsed value of every key. -/
theorem parseWith_get {α : Type} {g : Str × Option Str → Except PyErr α} {s : Section} (hs : (Dict.keys s).Nodup)
    {d : Dict Str α} (h : parseWith g s = .ok d) (k : Str) :
    d.get? k = (Dict.get? s k).bind fun v => (g (k, v)).toOption := by
  obtain ⟨r, hr, rfl⟩ := parseWith_form h
  have hkeys : r.map Prod.fst = Dict.keys s := by
    have h2 := (mapM_ok_iff _ _ _).1 hr
    clear hr h hs
    induction h2 with
    | nil => rfl
    | @cons e p s r h1 _ ih =>
      cases hg : g e with
      | error err => rw [hg] at h1; simp [bind, Except.bind] at h1
      | ok v =>
        rw [hg] at h1
        obtain rfl := Except.ok.inj h1
        simp only [List.map_cons, Dict.keys] at ih ⊢
        rw [ih]
  have hn : (r.map Prod.fst).Nodup := by rw [hkeys]; exact hs
  have key : ∀ w, (Dict.ofList r).get? k = some w ↔ (Dict.get? s k).bind (fun v => (g (k, v)).toOption) = some w := by
    intro w
    rw [Dict.get?_ofList hn, mem_mapM hr]
    constructor
    · rintro ⟨e, he, heq⟩
      cases hg : g e with
      | error err => rw [hg] at heq; simp [bind, Except.bind] at heq
      | ok v =>
        rw [hg] at heq
        obtain ⟨h1, h2⟩ := Prod.mk.inj (Except.ok.inj heq)
        obtain ⟨k', v'⟩ := e
        simp only at h1
        subst h1
        rw [(Dict.get?_iff_mem hs k' v').2 he, Option.bind_some, hg, ← h2]; rfl
    · intro hb
      obtain ⟨v, hv, hg⟩ := Option.bind_eq_some_iff.1 hb
      refine ⟨(k, v), Dict.mem_of_get? hv, ?_⟩
      cases hgv : g (k, v) with
      | error err => rw [hgv] at hg; simp [Except.toOption] at hg
      | ok v' => rw [hgv] at hg; simp only [Except.toOption, Option.some.injEq] at hg; rw [hg]; rfl
  cases h1 : (Dict.ofList r).get? k with
  | some w => exact ((key w).1 h1).symm
  | none =>
    cases h2 : (Dict.get? s k).bind fun v => (g (k, v)).toOption with
    | none => rfl
    | some w => rw [(key w).2 h2] at h1; simp at h1

theorem keys_parseWith {α : Type} {g : Str × Option Str → Except PyErr α} {s : Section}
    {d : Dict Str α} (h : parseWith g s = .ok d) : d.keys.Nodup := by
  obtain ⟨r, _, rfl⟩ := parseWith_form h
  exact Dict.nodup_update (by simp [Dict.keys]) r

theorem withDefaults_nil (s : Section) : withDefaults [] s = s := by simp [withDefaults]

theorem secName_eq (n sec : Str) : cfgSection n sec = secName n sec := by
  unfold cfgSection secName
  rw [show "#config ".toList = ['#', 'c', 'o', 'n', 'f', 'i', 'g', ' '] from by decide, List.append_assoc, List.append_assoc,
    List.append_assoc]
  rfl

/-- Parsing the merged section is the same as updating the parsed base section. -/
theorem parse_merged {α : Type} {g : Str × Option Str → Except PyErr α} {b u : Section} (hb : (Dict.keys b).Nodup)
    (hu : (Dict.keys u).Nodup) {db du : Dict Str α} (h1 : parseWith g b = .ok db) (h2 : parseWith g u = .ok du) :
    ∃ d, parseWith g (Dict.update b u) = .ok d ∧ ∀ k, d.get? k = (Dict.update db du).get? k := by
  have hn := Dict.nodup_update hb u
  obtain ⟨d, hd⟩ := parseWith_ok (g := g) (s := Dict.update b u) (by
    rintro ⟨k, v⟩ he
    have := (Dict.get?_iff_mem hn k v).2 he
    rw [Dict.get?_update b hu] at this
    cases hu' : Dict.get? u k with
    | some w =>
      rw [hu'] at this
      simp only [Option.some_or, Option.some.injEq] at this
      exact parseWith_mem_ok h2 _ (by rw [← this]; exact Dict.mem_of_get? hu')
    | none =>
      rw [hu'] at this
      exact parseWith_mem_ok h1 _ (Dict.mem_of_get? (by simpa using this)))
  refine ⟨d, hd, fun k => ?_⟩
  rw [parseWith_get hn hd, Dict.get?_update b hu, Dict.get?_update db (keys_parseWith h2), parseWith_get hu h2,
    parseWith_get hb h1]
  cases hu' : Dict.get? u k with
  | none => simp
  | some v =>
    obtain ⟨w, hw⟩ := parseWith_mem_ok h2 _ (Dict.mem_of_get? hu')
    simp [hw, Except.toOption]

theorem merged_get (f : File) (n sec : Str) (hsec : sec ∈ cfgSections) :
    (merged f n).sections.get? sec = (f.sections.get? sec).map fun s =>
      match f.sections.get? (secName n sec) with
      | some u => Dict.update s u
      | none => s := by
  have key : ∀ l : Dict Str Section, Dict.get? (l.map fun e =>
      if e.1 ∈ cfgSections then
        match f.sections.get? (secName n e.1) with
        | some u => (e.1, Dict.update e.2 u)
        | none => e
      else e) sec = (Dict.get? l sec).map fun s =>
      match f.sections.get? (secName n sec) with
      | some u => Dict.update s u
      | none => s := by
    intro l
    induction l with
    | nil => rfl
    | cons e l ih =>
      rw [List.map_cons, Dict.get?_cons, Dict.get?_cons, ih]
      by_cases he : e.1 = sec
      · subst he
        rw [if_pos hsec]
        cases f.sections.get? (secName n e.1) <;> simp
      · have : (if e.1 ∈ cfgSections then
          match f.sections.get? (secName n e.1) with
          | some u => (e.1, Dict.update e.2 u)
          | none => e
          else e).1 = e.1 := by
          split_ifs
          · split <;> rfl
          · rfl
        rw [this, if_neg he, if_neg he]
  exact key f.sections

/-- No linear combinations: the second part of `_parse_V_SRF` does nothing. -/
theorem linComb_id {s : Section} {d : Dict Str (VProp F)} (hs : (Dict.keys s).Nodup)
    (h : parseWith (fun e => do let v ← vEntry c e; .ok (VProp.val v)) s = .ok d) (pre : Str)
    (hpre : pre = "V".toList ∨ pre = "SRF".toList)
    (hn : (pre ++ "_name".toList, some ("LinComb".toList ++ pre)) ∉ s) : linComb c pre d = d := by
  unfold linComb
  rw [parseWith_get hs h]
  cases hg : Dict.get? s (pre ++ "_name".toList) with
  | none => rfl
  | some v =>
    simp only [Option.bind_some]
    have hv : ∀ x, vEntry c (pre ++ "_name".toList, v) = .ok (.str x) → v = some x := by
      intro x hx
      unfold vEntry at hx
      have c1 : ¬ (pre ++ "_name".toList = "ncoefs".toList ∨ (pre ++ "_name".toList).drop 1 = "__ncoefs".toList) := by
        rcases hpre with rfl | rfl <;> decide
      have c2 : ¬ (pre ++ "_name".toList = "a".toList ∨ (pre ++ "_name".toList).drop 1 = "__a".toList) := by
        rcases hpre with rfl | rfl <;> decide
      simp only [if_neg c1, if_neg c2] at hx
      cases hf : getfloat c v with
      | ok y => rw [hf] at hx; simp at hx
      | error e =>
        rw [hf] at hx
        cases v with
        | none => simp at hx
        | some y => simp only [Except.ok.injEq, VVal.str.injEq] at hx; rw [hx]
    cases he : vEntry c (pre ++ "_name".toList, v) with
    | error e => rfl
    | ok w =>
      simp only [bind, Except.bind, Except.toOption]
      cases w with
      | str x =>
        simp only
        rw [if_neg]
        intro hx
        apply hn
        rw [← hx, ← hv x he]
        exact Dict.mem_of_get? hg
      | none => rfl
      | float _ => rfl
      | int _ => rfl
      | floats _ => rfl

theorem bindOk {α β : Type} {x : Except PyErr α} {g : α → Except PyErr β} {r : β} (h : (x >>= g) = .ok r) :
    ∃ a, x = .ok a ∧ g a = .ok r := by
  cases x with
  | error e => simp [bind, Except.bind] at h
  | ok a => exact ⟨a, rfl, h⟩

/-- The parsed section of the merged file. -/
theorem section_merged {α : Type} {f : File} (hd : f.defaults = []) (hs : f.Strict) {n sec : Str} (hsec : sec ∈ cfgSections)
    {g : Str × Option Str → Except PyErr α} {b r : Dict Str α}
    (hb : (do let inp ← f.get sec; parseWith g inp) = .ok b)
    (hr : updated f (some n) sec (fun s => do let inp ← f.get s; parseWith g inp) b = .ok r) :
    ∃ d, (do let inp ← (merged f n).get sec; parseWith g inp) = .ok d ∧ (∀ k, d.get? k = r.get? k) ∧
      ∃ s, (merged f n).get sec = .ok s ∧ (Dict.keys s).Nodup ∧ parseWith g s = .ok d ∧
        ∀ x ∈ s, (∃ e ∈ f.sections, x ∈ e.2) := by
  obtain ⟨s, hs1, hs2⟩ := bindOk hb
  have hnd : sec ≠ "DEFAULT".toList := by rintro rfl; revert hsec; decide
  unfold File.get at hs1
  cases hg : f.sections.get? sec with
  | none => rw [hg] at hs1; simp only [if_neg hnd] at hs1; simp at hs1
  | some s0 =>
    rw [hg] at hs1
    simp only [hd, withDefaults_nil, Except.ok.injEq] at hs1
    subst hs1
    have hs0 : (Dict.keys s0).Nodup := hs.2 _ (Dict.mem_of_get? hg)
    have hm := merged_get f n sec hsec
    rw [hg] at hm
    simp only [Option.map_some] at hm
    unfold updated at hr
    simp only [secName_eq] at hr
    have hnd2 : secName n sec ≠ "DEFAULT".toList := by
      intro h
      have := congrArg List.head? h
      simp [secName] at this
    cases hu : f.sections.get? (secName n sec) with
    | none =>
      rw [hu] at hm
      have : f.has (secName n sec) = false := by unfold File.has; rw [hu, decide_eq_false hnd2]; rfl
      rw [this] at hr
      simp only [Bool.false_eq_true, if_false, Except.ok.injEq] at hr
      subst hr
      have hget : (merged f n).get sec = .ok s0 := by
        unfold File.get
        rw [hm]
        simp [merged, hd, withDefaults_nil]
      refine ⟨b, by rw [hget]; exact hs2, fun _ => rfl, s0, hget, hs0, hs2, ?_⟩
      intro x hx
      exact ⟨_, Dict.mem_of_get? hg, hx⟩
    | some u =>
      rw [hu] at hm
      have : f.has (secName n sec) = true := by simp [File.has, hu]
      rw [this] at hr
      simp only [if_true] at hr
      obtain ⟨du, hdu, hrr⟩ := bindOk hr
      obtain ⟨u', hu', hpu⟩ := bindOk hdu
      unfold File.get at hu'
      rw [hu] at hu'
      simp only [hd, withDefaults_nil, Except.ok.injEq] at hu'
      subst hu'
      have hu0 : (Dict.keys u).Nodup := hs.2 _ (Dict.mem_of_get? hu)
      obtain ⟨d, hd1, hd2⟩ := parse_merged hs0 hu0 hs2 hpu
      have hget : (merged f n).get sec = .ok (Dict.update s0 u) := by
        unfold File.get
        rw [hm]
        simp [merged, hd, withDefaults_nil]
      have hnn := Dict.nodup_update hs0 u
      refine ⟨d, by rw [hget]; exact hd1, ?_, _, hget, hnn, hd1, ?_⟩
      · intro k
        rw [hd2, ← Except.ok.inj hrr]
      · rintro ⟨k, v⟩ hx
        have := (Dict.get?_iff_mem hnn k v).2 hx
        rw [Dict.get?_update s0 hu0] at this
        cases huk : Dict.get? u k with
        | some w =>
          rw [huk] at this
          simp only [Option.some_or, Option.some.injEq] at this
          exact ⟨_, Dict.mem_of_get? hu, by rw [← this]; exact Dict.mem_of_get? huk⟩
        | none =>
          rw [huk] at this
          exact ⟨_, Dict.mem_of_get? hg, Dict.mem_of_get? (by simpa using this)⟩

theorem vsrf_eq {f : File} (hd : f.defaults = []) (hs : f.Strict) (hl : f.NoLinComb) {sec : Str}
    (hnd : sec ≠ "DEFAULT".toList) :
    parseVSRF c f sec = (do let inp ← f.get sec; parseWith (fun e => do let v ← vEntry c e; .ok (VProp.val v)) inp) := by
  unfold parseVSRF
  unfold File.get
  cases hg : f.sections.get? sec with
  | none => simp only [if_neg hnd]; rfl
  | some s =>
    simp only [hd, withDefaults_nil, bind, Except.bind]
    cases hp : parseWith (fun e => (do let v ← vEntry c e; .ok (VProp.val v) : Except PyErr (VProp F))) s with
    | error e =>
      simp only [bind, Except.bind] at hp
      simp only [hp]
    | ok d =>
      have hs0 := hs.2 _ (Dict.mem_of_get? hg)
      have h1 := linComb_id c hs0 hp "V".toList (.inl rfl) (fun h => (hl _ (Dict.mem_of_get? hg) _ h).1 rfl)
      have h2 := linComb_id c hs0 hp "SRF".toList (.inr rfl) (fun h => (hl _ (Dict.mem_of_get? hg) _ h).2 rfl)
      simp only [bind, Except.bind] at hp
      simp only [hp, h1, h2]

/-- C46, for files without `DEFAULT` entries and without linear combinations: the configuration of a named config is the
configuration defined by the file in which the entries of the config are written into the base sections. -/
theorem C46_override_partial {f : File} (hd : f.defaults = []) (hs : f.Strict) (hl : f.NoLinComb) {n : Str} {r : Cfg F}
    (h : getConfig c f (some n) = .ok r) : ∃ r0 : Cfg F, getConfig c (merged f n) none = .ok r0 ∧
      ∀ k, r.lsq.get? k = r0.lsq.get? k ∧ r.fits.get? k = r0.fits.get? k ∧ r.defdict.get? k = r0.defdict.get? k ∧
        r.V.get? k = r0.V.get? k ∧ r.SRF.get? k = r0.SRF.get? k := by
  unfold getConfig at h
  obtain ⟨l0, hl0, h⟩ := bindOk h
  obtain ⟨f0, hf0, h⟩ := bindOk h
  obtain ⟨d0, hd0, h⟩ := bindOk h
  obtain ⟨v0, hv0, h⟩ := bindOk h
  obtain ⟨s0, hs0, h⟩ := bindOk h
  obtain ⟨l1, hl1, h⟩ := bindOk h
  obtain ⟨f1, hf1, h⟩ := bindOk h
  obtain ⟨d1, hd1, h⟩ := bindOk h
  obtain ⟨v1, hv1, h⟩ := bindOk h
  obtain ⟨s1, hs1, h⟩ := bindOk h
  obtain rfl := Except.ok.inj h
  have hV : ∀ sec ∈ ["RT1_V".toList, "RT1_SRF".toList], ∀ b r : Dict Str (VProp F), parseVSRF c f sec = .ok b →
      updated f (some n) sec (parseVSRF c f) b = .ok r →
      ∃ d, parseVSRF c (merged f n) sec = .ok d ∧ ∀ k, d.get? k = r.get? k := by
    intro sec hsec b r hb hr
    have hsec' : sec ∈ cfgSections := by
      simp only [List.mem_cons, List.not_mem_nil, or_false] at hsec
      rcases hsec with rfl | rfl <;> decide
    have hnd : sec ≠ "DEFAULT".toList := by rintro rfl; revert hsec; decide
    have hnd2 : cfgSection n sec ≠ "DEFAULT".toList := by
      rw [secName_eq]
      intro h
      have := congrArg List.head? h
      simp [secName] at this
    rw [vsrf_eq c hd hs hl hnd] at hb
    have hr' : updated f (some n) sec (fun s => do
        let inp ← f.get s
        parseWith (fun e => do let v ← vEntry c e; .ok (VProp.val v)) inp) b = .ok r := by
      rw [← hr]
      unfold updated
      simp only
      rw [vsrf_eq c hd hs hl hnd2]
    obtain ⟨d, _, hk, s, hget, hsn, hps, hmem⟩ := section_merged hd hs hsec' hb hr'
    refine ⟨d, ?_, hk⟩
    unfold parseVSRF
    rw [hget]
    have h1 := linComb_id c hsn hps "V".toList (.inl rfl) (fun h => by
      obtain ⟨e, he, hx⟩ := hmem _ h
      exact (hl e he _ hx).1 rfl)
    have h2 := linComb_id c hsn hps "SRF".toList (.inr rfl) (fun h => by
      obtain ⟨e, he, hx⟩ := hmem _ h
      exact (hl e he _ hx).2 rfl)
    simp only [bind, Except.bind] at hps ⊢
    simp only [hps, h1, h2]
  obtain ⟨L, hL, kL, _⟩ := section_merged hd hs (sec := "least_squares_kwargs".toList) (by decide) hl0 hl1
  obtain ⟨G, hG, kG, _⟩ := section_merged hd hs (sec := "fits_kwargs".toList) (by decide) hf0 hf1
  obtain ⟨E, hE, kE, _⟩ := section_merged hd hs (sec := "defdict".toList) (by decide) hd0 hd1
  obtain ⟨A, hA, kA⟩ := hV "RT1_V".toList (by decide) _ _ hv0 hv1
  obtain ⟨B, hB, kB⟩ := hV "RT1_SRF".toList (by decide) _ _ hs0 hs1
  refine ⟨⟨L, E, A, B, G⟩, ?_, fun k => ⟨(kL k).symm, (kG k).symm, (kE k).symm, (kA k).symm, (kB k).symm⟩⟩
  have hL' : parseDict c (merged f n) lsqProps = .ok L := hL
  have hG' : parseDict c (merged f n) fitProps = .ok G := hG
  have hE' : parseDefdict c (merged f n) "defdict".toList = .ok E := hE
  unfold getConfig
  rw [hL', hG', hE', hA, hB]
  rfl

/-- C46: without a selected config only the base sections are used, and with a selected config the sections of other configs
have no influence: changing or removing them does not change the result. -/
theorem C46_other_configs {f f' : File} (hd : f.defaults = f'.defaults) (n : Option Str)
    (h : ∀ s, (∀ n' sec, some n' ≠ n → sec ∈ cfgSections → s ≠ secName n' sec) → f.sections.get? s = f'.sections.get? s) :
    getConfig c f n = getConfig c f' n := by
  have hbase : ∀ s ∈ cfgSections, f.sections.get? s = f'.sections.get? s := by
    intro s hs
    apply h
    rintro n' sec _ _ rfl
    simp only [cfgSections, List.map_cons, List.map_nil, List.mem_cons, List.not_mem_nil, or_false] at hs
    rcases hs with hs | hs | hs | hs | hs <;>
      · have := congrArg List.head? hs
        simp [secName] at this
  have hown : ∀ m, n = some m → ∀ s ∈ cfgSections, f.sections.get? (secName m s) = f'.sections.get? (secName m s) := by
    rintro m rfl s hs
    apply h
    intro n' sec hne hsec heq
    apply hne
    have hsp : ∀ t ∈ cfgSections, ' ' ∉ t := by decide
    unfold secName at heq
    simp only [List.append_assoc] at heq
    have h1 := List.append_cancel_left heq
    have h2 := congrArg List.reverse h1
    simp only [List.reverse_append, List.reverse_cons, List.append_assoc, List.singleton_append] at h2
    have h3 := congrArg (splitChar ' ') h2
    rw [splitChar_append (by simpa using hsp s hs), splitChar_append (by simpa using hsp sec hsec)] at h3
    have h4 := (List.cons.inj h3).2
    have h5 := congrArg (join ' ') h4
    rw [(splitChar_spec ' ' _).1, (splitChar_spec ' ' _).1] at h5
    rw [List.reverse_inj.1 h5]
  have hget : ∀ s, f.sections.get? s = f'.sections.get? s → f.get s = f'.get s := by
    intro s hs
    unfold File.get
    rw [hs, hd]
  have hhas : ∀ s, f.sections.get? s = f'.sections.get? s → f.has s = f'.has s := by
    intro s hs
    unfold File.has
    rw [hs]
  have hupd : ∀ {α : Type} (s : Str) (hs : s ∈ cfgSections) (g g' : Str → Except PyErr (Dict Str α)) (b : Dict Str α),
      (∀ t, f.sections.get? t = f'.sections.get? t → g t = g' t) → updated f n s g b = updated f' n s g' b := by
    intro α s hs g g' b hg
    unfold updated
    cases n with
    | none => rfl
    | some m =>
      have := hown m rfl s hs
      simp only [secName_eq]
      rw [hhas _ this, hg _ this]
  unfold getConfig parseDict parseDefdict parseVSRF
  rw [hget _ (hbase lsqProps.section_ (by decide)), hget _ (hbase fitProps.section_ (by decide)),
    hget _ (hbase "defdict".toList (by decide)), hget _ (hbase "RT1_V".toList (by decide)),
    hget _ (hbase "RT1_SRF".toList (by decide))]
  refine congrArg _ (funext fun l0 => congrArg _ (funext fun f0 => congrArg _ (funext fun d0 => congrArg _ (funext fun v0 =>
    congrArg _ (funext fun s0 => ?_)))))
  rw [hupd lsqProps.section_ (by decide) _ (fun s => do
        let inp ← f'.get { lsqProps with section_ := s }.section_
        parseWith (dictEntry c { lsqProps with section_ := s }) inp) l0 (fun t ht => by simp only [hget t ht]),
    hupd fitProps.section_ (by decide) _ (fun s => do
        let inp ← f'.get { fitProps with section_ := s }.section_
        parseWith (dictEntry c { fitProps with section_ := s }) inp) f0 (fun t ht => by simp only [hget t ht]),
    hupd "defdict".toList (by decide) _ (fun s => do
        let inp ← f'.get s
        parseWith (defdictEntry c) inp) d0 (fun t ht => by simp only [hget t ht]),
    hupd "RT1_V".toList (by decide) _ (fun s => do
        let inp ← f'.get s
        let d ← parseWith (fun e => do let v ← vEntry c e; .ok (VProp.val v)) inp
        .ok (linComb c "SRF".toList (linComb c "V".toList d))) v0 (fun t ht => by simp only [hget t ht]),
    hupd "RT1_SRF".toList (by decide) _ (fun s => do
        let inp ← f'.get s
        let d ← parseWith (fun e => do let v ← vEntry c e; .ok (VProp.val v)) inp
        .ok (linComb c "SRF".toList (linComb c "V".toList d))) s0 (fun t ht => by simp only [hget t ht])]

/-! ### config names -/

/-- C46: the names of the configs are the names in the sections `#config NAME` and `#config NAME SECTION`. -/
theorem C46_names {f : File} {l : List Str} (h : configNames f = .ok l) (n : Str) (hn : ' ' ∉ n) :
    n ∈ l ↔ "#config ".toList ++ n ∈ f.sections.keys ∨ ∃ sec, ' ' ∉ sec ∧ secName n sec ∈ f.sections.keys := by
  unfold configNames at h
  obtain ⟨r, hr, h⟩ := bindOk h
  obtain rfl := Except.ok.inj h
  have hsplit : ∀ i : Str, ∀ parts, splitChar ' ' i = parts → i = join ' ' parts := by
    rintro i _ rfl
    exact ((splitChar_spec ' ' i).1).symm
  rw [List.mem_flatten]
  constructor
  · rintro ⟨q, hq, hnq⟩
    obtain ⟨i, hi, heq⟩ := (mem_mapM hr _).1 hq
    split_ifs at heq with hpre
    · have hs := hsplit i _ rfl
      split at heq
      · rename_i hd rest hsp
        rw [hsp] at hs
        split_ifs at heq with hh
        · subst hh
          split at heq
          · rename_i n'
            obtain rfl := Except.ok.inj heq
            simp only [List.mem_singleton] at hnq
            subst hnq
            left
            rw [hs] at hi
            exact hi
          · rename_i n' sec
            split_ifs at heq with hsec
            obtain rfl := Except.ok.inj heq
            simp only [List.mem_singleton] at hnq
            subst hnq
            right
            refine ⟨sec, ?_, ?_⟩
            · exact (splitChar_spec ' ' i).2 sec (by rw [hsp]; simp)
            · rw [hs] at hi
              have : join ' ' ["#config".toList, n, sec] = secName n sec := by simp [join, secName]
              rw [this] at hi
              exact hi
          · simp at heq
        · obtain rfl := Except.ok.inj heq
          simp at hnq
      · obtain rfl := Except.ok.inj heq
        simp at hnq
    · obtain rfl := Except.ok.inj heq
      simp at hnq
  · have key : ∀ i ∈ f.sections.keys, ∀ rest, splitChar ' ' i = "#config".toList :: n :: rest → ∃ q ∈ r, n ∈ q := by
      intro i hi rest hsp
      have hpre : "#config".toList.isPrefixOf i = true := by
        rw [List.isPrefixOf_iff_prefix, hsplit i _ hsp]
        exact List.prefix_append _ _
      obtain ⟨q, hq⟩ := (mapM_isOk_iff _ _).1 ⟨r, hr⟩ i hi
      refine ⟨q, (mem_mapM hr q).2 ⟨i, hi, hq⟩, ?_⟩
      simp only [hpre, if_true, hsp] at hq
      split at hq
      · rename_i hh
        obtain rfl := Except.ok.inj hq
        simp only [List.cons.injEq] at hh
        simp [hh.1]
      · rename_i hh
        split_ifs at hq
        obtain rfl := Except.ok.inj hq
        simp only [List.cons.injEq] at hh
        simp [hh.1]
      · simp at hq
    rintro (hi | ⟨sec, hsec, hi⟩)
    · refine key _ hi [] ?_
      have : "#config ".toList ++ n = "#config".toList ++ ' ' :: n := by
        rw [show "#config ".toList = "#config".toList ++ [' '] from by decide, List.append_assoc]; rfl
      rw [this, splitChar_append (by decide), splitChar_free hn]
    · refine key _ hi [sec] ?_
      have : secName n sec = "#config".toList ++ ' ' :: (n ++ ' ' :: sec) := by simp [secName]
      rw [this, splitChar_append (by decide), splitChar_append hn, splitChar_free hsec]

/-- C46: a file with a section `#config NAME SECTION` for a section that does not exist in the file is rejected. -/
theorem C46_names_invalid {f : File} {n sec : Str} (hn : ' ' ∉ n) (hsec : ' ' ∉ sec) (hi : secName n sec ∈ f.sections.keys)
    (hmiss : sec ∉ f.sections.keys) (hdef : sec ≠ "DEFAULT".toList) : ∃ e, configNames f = .error e := by
  cases h : configNames f with
  | error e => exact ⟨e, rfl⟩
  | ok l =>
    exfalso
    unfold configNames at h
    obtain ⟨r, hr, _⟩ := bindOk h
    obtain ⟨q, hq⟩ := (mapM_isOk_iff _ _).1 ⟨r, hr⟩ _ hi
    have hsp : splitChar ' ' (secName n sec) = ["#config".toList, n, sec] := by
      have : secName n sec = "#config".toList ++ ' ' :: (n ++ ' ' :: sec) := by simp [secName]
      rw [this, splitChar_append (by decide), splitChar_append hn, splitChar_free hsec]
    have hpre : "#config".toList.isPrefixOf (secName n sec) = true := by
      rw [List.isPrefixOf_iff_prefix]
      exact ⟨' ' :: (n ++ ' ' :: sec), by simp [secName]⟩
    have hhas : f.has sec = false := by
      have : f.sections.get? sec = none := (Dict.get?_eq_none _ _).2 hmiss
      unfold File.has
      rw [this, decide_eq_false hdef]; rfl
    simp only [hpre, if_true, hsp, hhas] at hq
    simp at hq

/-! ## C81 -/

/-- Specification: the requirements for config files. -/
def Complete (f : File) : Prop :=
  (∀ k ∈ ["PROCESS_SPECS", "CONFIGFILES", "fits_kwargs", "least_squares_kwargs", "defdict", "RT1_V", "RT1_SRF"],
    (f.sections.get? k.toList).isSome) ∧
  (∀ s, f.get "PROCESS_SPECS".toList = .ok s → "path__save_path".toList ∈ s.map Prod.fst ∧ "dumpfolder".toList ∈ s.map Prod.fst) ∧
  (∀ s, f.get "CONFIGFILES".toList = .ok s →
    match Dict.get? s "processing_cfg_module".toList with
    | some (some m) => "module__".toList ++ m ∈ s.map Prod.fst
    | some none => False
    | none => "module__processing_cfg".toList ∈ s.map Prod.fst)

theorem has_iff (f : File) (k : Str) (hk : k ≠ "DEFAULT".toList) : f.has k = (f.sections.get? k).isSome := by
  unfold File.has
  rw [decide_eq_false hk, Bool.false_or]

theorem required_iff (f : File) : requiredSections.all f.has = true ↔
    ∀ k ∈ ["PROCESS_SPECS", "CONFIGFILES", "fits_kwargs", "least_squares_kwargs", "defdict", "RT1_V", "RT1_SRF"],
      (f.sections.get? k.toList).isSome := by
  have hnd : ∀ k ∈ requiredSections, k ≠ "DEFAULT".toList := by decide
  rw [List.all_eq_true]
  constructor
  · intro h k hk
    have hm : k.toList ∈ requiredSections := List.mem_map_of_mem hk
    rw [← has_iff f _ (hnd _ hm)]
    exact h _ hm
  · intro h k hk
    rw [has_iff f _ (hnd _ hk)]
    obtain ⟨k', hk', rfl⟩ := List.mem_map.1 hk
    exact h k' hk'

theorem get_ok {f : File} {k : Str} (h : (f.sections.get? k).isSome) : ∃ s, f.get k = .ok s := by
  obtain ⟨s, hs⟩ := Option.isSome_iff_exists.1 h
  exact ⟨withDefaults f.defaults s, by unfold File.get; rw [hs]⟩

/-- C81: the constructor accepts a config file exactly if the required sections and entries are present. -/
theorem C81_accepted (f : File) : checkIntegrity f = .ok () ↔ Complete f := by
  unfold checkIntegrity Complete
  rw [← required_iff]
  by_cases h1 : requiredSections.all f.has = true
  · obtain ⟨ps, hps⟩ := get_ok ((required_iff f).1 h1 "PROCESS_SPECS" (by decide))
    obtain ⟨cf, hcf⟩ := get_ok ((required_iff f).1 h1 "CONFIGFILES" (by decide))
    simp only [h1, Bool.not_true, Bool.false_eq_true, if_false, hps, hcf, bind, Except.bind, true_and, Except.ok.injEq, forall_eq']
    by_cases h2 : "path__save_path".toList ∈ ps.map Prod.fst ∧ "dumpfolder".toList ∈ ps.map Prod.fst
    · rw [if_neg (not_not.2 h2)]
      simp only [h2, and_self, true_and]
      have e : "module__processing_cfg".toList = "module__".toList ++ "processing_cfg".toList := by decide
      rw [e]
      cases hm : Dict.get? cf "processing_cfg_module".toList with
      | none =>
        simp only
        by_cases h3 : "module__".toList ++ "processing_cfg".toList ∈ cf.map Prod.fst
        · rw [if_neg (not_not.2 h3)]; exact iff_of_true rfl h3
        · rw [if_pos h3]; exact iff_of_false (by simp) h3
      | some m =>
        cases m with
        | none => simp
        | some m =>
          simp only
          by_cases h3 : "module__".toList ++ m ∈ cf.map Prod.fst
          · rw [if_neg (not_not.2 h3)]; exact iff_of_true rfl h3
          · rw [if_pos h3]; exact iff_of_false (by simp) h3
    · rw [if_pos h2]
      exact iff_of_false (by simp) fun h => h2 h.1
  · have h1' : requiredSections.all f.has = false := by simpa using h1
    rw [h1']
    simp

theorem parseWith_no_key {α : Type} {g : Str × Option Str → Except PyErr α} (hg : ∀ e, g e ≠ .error .keyError) (s : Section) :
    parseWith g s ≠ .error .keyError := by
  unfold parseWith
  have : ∀ d0 : Dict Str α, s.foldlM (fun d e => (do let v ← g e; .ok (Dict.set d e.1 v) : Except PyErr (Dict Str α))) d0 ≠
      .error .keyError := by
    induction s with
    | nil => intro d0 h; simp [pure, Except.pure] at h
    | cons e s ih =>
      intro d0 h
      rw [List.foldlM_cons] at h
      cases hge : g e with
      | error err =>
        rw [hge] at h
        simp only [bind, Except.bind] at h
        exact hg e (by rw [hge, Except.error.inj h])
      | ok v =>
        rw [hge] at h
        exact ih _ h
  exact this []

theorem bind_no_key {α β : Type} {x : Except PyErr α} {g : α → Except PyErr β} (hx : x ≠ .error .keyError)
    (hg : ∀ a, x = .ok a → g a ≠ .error .keyError) : (x >>= g) ≠ .error .keyError := by
  cases x with
  | error e => intro h; exact hx (by rw [Except.error.inj h])
  | ok a => exact hg a rfl

theorem orValueError_no_key {α : Type} (o : Option α) : orValueError o ≠ .error .keyError := by cases o <;> simp [orValueError]
theorem getfloat_no_key (v : Option Str) : getfloat c v ≠ .error .keyError := by
  cases v with
  | none => simp [getfloat]
  | some s => exact orValueError_no_key _
theorem getint_no_key (v : Option Str) : getint c v ≠ .error .keyError := by
  cases v with
  | none => simp [getint]
  | some s => exact orValueError_no_key _
theorem getboolean_no_key (v : Option Str) : getboolean v ≠ .error .keyError := by
  cases v with
  | none => simp [getboolean]
  | some s => simp only [getboolean, toBool]; split_ifs <;> simp
theorem nth_no_key (l : List Str) (i : Nat) : nth l i ≠ .error .keyError := by
  unfold nth; split <;> simp

theorem mapM_no_key {α β : Type} {g : α → Except PyErr β} (hg : ∀ a, g a ≠ .error .keyError) (l : List α) :
    l.mapM g ≠ .error .keyError := by
  induction l with
  | nil => simp [pure, Except.pure]
  | cons a l ih =>
    rw [List.mapM_cons]
    refine bind_no_key (hg a) fun b _ => bind_no_key ih fun r _ => ?_
    simp [pure, Except.pure]

theorem dictEntry_no_key (p : Props) (e : Str × Option Str) : dictEntry c p e ≠ .error .keyError := by
  unfold dictEntry
  split_ifs
  · exact bind_no_key (getfloat_no_key c _) (by simp)
  · exact bind_no_key (getint_no_key c _) (by simp)
  · exact bind_no_key (getboolean_no_key _) (by simp)
  · simp
  · split <;> simp
  · split
    · simp
    · split_ifs <;> simp

theorem defdictEntry_no_key (e : Str × Option Str) : defdictEntry c e ≠ .error .keyError := by
  unfold defdictEntry
  split
  · simp
  · split_ifs
    · simp
    · refine bind_no_key (nth_no_key _ _) fun v0 _ => bind_no_key ?_ fun fq _ => bind_no_key (nth_no_key _ _) fun v1 _ =>
        bind_no_key ?_ fun v _ => ?_
      · split_ifs <;> simp
      · split_ifs
        · simp
        · exact bind_no_key (orValueError_no_key _) (by simp)
      · split_ifs
        all_goals first
          | (refine bind_no_key (nth_no_key _ _) fun v2 _ => bind_no_key (nth_no_key _ _) fun v3 _ =>
              bind_no_key (orValueError_no_key _) fun lo _ => bind_no_key (nth_no_key _ _) fun v4 _ =>
              bind_no_key (orValueError_no_key _) ?_
             simp)
          | simp

theorem vEntry_no_key (e : Str × Option Str) : vEntry c e ≠ .error .keyError := by
  unfold vEntry
  split_ifs
  · exact bind_no_key (getint_no_key c _) (by simp)
  · split
    · simp
    · split_ifs
      · exact bind_no_key (mapM_no_key (fun _ => orValueError_no_key _) _) (by simp)
      · simp
  · split
    · simp
    · split <;> simp

theorem processEntry_no_key (e : Str × Option Str) : processEntry c e ≠ .error .keyError := by
  unfold processEntry
  simp only
  split
  · split
    · simp
    · exact bind_no_key (orValueError_no_key _) (by simp)
  split
  · split
    · simp
    · split_ifs <;> simp
  split
  · exact bind_no_key (getboolean_no_key _) (by simp)
  split
  · exact bind_no_key (getfloat_no_key c _) (by simp)
  split
  · exact bind_no_key (getint_no_key c _) (by simp)
  split
  · unfold listEntry
    split
    · simp
    · split_ifs
      · refine bind_no_key (mapM_no_key (fun s => ?_) _) (by simp)
        have hb : ∀ s, toBool s ≠ .error .keyError := fun s => getboolean_no_key (some s)
        split
        · exact bind_no_key (hb _) (by simp)
        split
        · exact bind_no_key (orValueError_no_key _) (by simp)
        split
        · exact bind_no_key (orValueError_no_key _) (by simp)
        split
        · exact bind_no_key (orValueError_no_key _) (by simp)
        · simp
      · simp
  · simp

/-- C81: for an accepted file no section or entry is missing later on: neither the process specs nor any configuration fails
with a KeyError, and the process specs contain `save_path` and `dumpfolder`. -/
theorem C81_complete {f : File} (h : checkIntegrity f = .ok ()) :
    (∀ n, getConfig c f n ≠ .error .keyError) ∧ getProcessSpecs c f ≠ .error .keyError ∧
      ∀ d : Dict Str (Spec F D P), getProcessSpecs c f = .ok d → "save_path".toList ∈ d.keys ∧ "dumpfolder".toList ∈ d.keys := by
  obtain ⟨h1, h2, _⟩ := (C81_accepted f).1 h
  have hget : ∀ k : String, k ∈ ["PROCESS_SPECS", "CONFIGFILES", "fits_kwargs", "least_squares_kwargs", "defdict", "RT1_V",
      "RT1_SRF"] → f.get k.toList ≠ .error .keyError := by
    intro k hk
    obtain ⟨s, hs⟩ := get_ok (h1 k hk)
    rw [hs]; simp
  have hhas : ∀ k : Str, f.has k = true → f.get k ≠ .error .keyError := by
    intro k hk
    unfold File.has at hk
    unfold File.get
    cases hg : f.sections.get? k with
    | some s => simp
    | none =>
      rw [hg] at hk
      simp only [Option.isSome_none, Bool.or_false, decide_eq_true_eq] at hk
      simp [hk]
  have hv : ∀ k, f.get k ≠ .error .keyError → parseVSRF c f k ≠ .error .keyError := fun k hk =>
    bind_no_key hk fun s _ => bind_no_key (parseWith_no_key (fun e => bind_no_key (vEntry_no_key c e) (by simp)) s) (by simp)
  have hupd : ∀ {α : Type} (n : Option Str) (s : Str) (g : Str → Except PyErr (Dict Str α)) (b : Dict Str α),
      (∀ k, f.get k ≠ .error .keyError → g k ≠ .error .keyError) → updated f n s g b ≠ .error .keyError := by
    intro α n s g b hg
    unfold updated
    cases n with
    | none => simp
    | some m =>
      simp only
      split_ifs with hh
      · exact bind_no_key (hg _ (hhas _ hh)) (by simp)
      · simp
  refine ⟨?_, ?_, ?_⟩
  · intro n
    unfold getConfig
    refine bind_no_key (bind_no_key (hget "least_squares_kwargs" (by decide)) fun s _ => parseWith_no_key (dictEntry_no_key c _) s)
      fun l0 _ => ?_
    refine bind_no_key (bind_no_key (hget "fits_kwargs" (by decide)) fun s _ => parseWith_no_key (dictEntry_no_key c _) s)
      fun f0 _ => ?_
    refine bind_no_key (bind_no_key (hget "defdict" (by decide)) fun s _ => parseWith_no_key (defdictEntry_no_key c) s)
      fun d0 _ => ?_
    refine bind_no_key (hv _ (hget "RT1_V" (by decide))) fun v0 _ => ?_
    refine bind_no_key (hv _ (hget "RT1_SRF" (by decide))) fun s0 _ => ?_
    refine bind_no_key (hupd _ _ _ _ fun k hk => bind_no_key hk fun s _ => parseWith_no_key (dictEntry_no_key c _) s) fun l1 _ => ?_
    refine bind_no_key (hupd _ _ _ _ fun k hk => bind_no_key hk fun s _ => parseWith_no_key (dictEntry_no_key c _) s) fun f1 _ => ?_
    refine bind_no_key (hupd _ _ _ _ fun k hk => bind_no_key hk fun s _ => parseWith_no_key (defdictEntry_no_key c) s) fun d1 _ => ?_
    refine bind_no_key (hupd _ _ _ _ hv) fun v1 _ => ?_
    refine bind_no_key (hupd _ _ _ _ hv) fun s1 _ => ?_
    simp
  · refine bind_no_key (hget "PROCESS_SPECS" (by decide)) fun s _ => ?_
    unfold processSpecs
    rw [foldlM_set]
    exact bind_no_key (mapM_no_key (processEntry_no_key c) s) (by simp)
  · intro d hd
    obtain ⟨s, hs, hd⟩ := bindOk hd
    obtain ⟨e1, e2⟩ := h2 s hs
    rw [C45_names c hd, C45_names c hd]
    constructor
    · obtain ⟨e, he, hk⟩ := List.mem_map.1 e1
      refine ⟨e, he, ?_⟩
      rw [hk]
      exact Target.typed (p := "path__".toList) (n := "save_path".toList) (by decide)
    · obtain ⟨e, he, hk⟩ := List.mem_map.1 e2
      refine ⟨e, he, ?_⟩
      rw [hk]
      exact Target.plain (by decide) (by decide)

example : Complete ⟨[], [("PROCESS_SPECS".toList, [("path__save_path".toList, some "x".toList), ("dumpfolder".toList, some "y".toList)]),
    ("CONFIGFILES".toList, [("module__processing_cfg".toList, some "a.py".toList)]), ("fits_kwargs".toList, []),
    ("least_squares_kwargs".toList, []), ("defdict".toList, []), ("RT1_V".toList, []), ("RT1_SRF".toList, [])]⟩ := by
  rw [← C81_accepted]; decide +kernel

/-! ### examples and negations -/

def exBase : Dict Str Section :=
  [("least_squares_kwargs".toList, [("ftol".toList, some "1".toList), ("verbose".toList, some "2".toList)]),
   ("fits_kwargs".toList, [("sig0".toList, some "True".toList)]),
   ("defdict".toList, [("omega".toList, some "[True, 5, None, 1, 9]".toList), ("tau".toList, some "[False, 3]".toList)]),
   ("RT1_V".toList, [("V_name".toList, some "Rayleigh".toList)]),
   ("RT1_SRF".toList, [("SRF_name".toList, some "Isotropic".toList)])]

def exConv' : Conv Nat (List Char × List Char) (List Char) :=
  { exConv with float := fun s => if s.all Char.isDigit then exConv.float s else none }

/-- A file with two configs. -/
def exFile : File := ⟨[], exBase ++ [("#config A defdict".toList, [("omega".toList, some "[False, 7]".toList)]),
  ("#config A least_squares_kwargs".toList, [("xtol".toList, some "4".toList)]),
  ("#config B fits_kwargs".toList, [("sig0".toList, some "no".toList)])]⟩

example : exFile.defaults = [] ∧ exFile.Strict ∧ exFile.NoLinComb :=
  ⟨rfl, by unfold File.Strict; decide +kernel, by unfold File.NoLinComb; decide +kernel⟩

example : ((getConfig exConv' exFile (some "A".toList)).map fun r => r.lsq) =
    .ok [("ftol".toList, .float 1), ("verbose".toList, .int 2), ("xtol".toList, .float 4)] := by decide +kernel

example : ((getConfig exConv' exFile (some "A".toList)).map fun r => r.fits) = .ok [("sig0".toList, .bool true)] := by
  decide +kernel

example : ((getConfig exConv' exFile (some "A".toList)).map fun r => r.defdict) =
    .ok [("omega".toList, ⟨false, some 7, none⟩), ("tau".toList, ⟨false, some 3, none⟩)] := by decide +kernel

example : configNames exFile = .ok ["A".toList, "A".toList, "B".toList] := by decide +kernel

/-- C46: the full statement fails: an entry of the section `DEFAULT` appears in the sections of the config and replaces the
explicit value of the base section, although the config does not mention it. -/
theorem C46_default_fails : ∃ (f : File) (n : Str) (r r0 : Cfg Nat), f.Strict ∧ f.NoLinComb ∧
    getConfig exConv' f (some n) = .ok r ∧ getConfig exConv' (merged f n) none = .ok r0 ∧
    (f.sections.get? (secName n "least_squares_kwargs".toList)).map Dict.keys = some ["xtol".toList] ∧
    r0.lsq.get? "verbose".toList = some (.int 2) ∧ r.lsq.get? "verbose".toList = some (.int 0) := by
  refine ⟨⟨[("verbose".toList, some "0".toList)],
    [("least_squares_kwargs".toList, [("verbose".toList, some "2".toList)]), ("fits_kwargs".toList, []),
     ("defdict".toList, [("verbose".toList, some "[False, 3]".toList)]), ("RT1_V".toList, []), ("RT1_SRF".toList, []),
     ("#config A least_squares_kwargs".toList, [("xtol".toList, some "4".toList)])]⟩, "A".toList, ?_⟩
  refine ⟨_, _, by unfold File.Strict; decide +kernel, by unfold File.NoLinComb; decide +kernel, rfl, rfl, ?_, ?_, ?_⟩ <;>
    decide +kernel

/-- C46: the full statement fails for linear combinations: changing one parameter of one component in a config has no effect
on the component. -/
theorem C46_lincomb_fails : ∃ (f : File) (n : Str) (r r0 : Cfg Nat), f.defaults = [] ∧ f.Strict ∧
    getConfig exConv' f (some n) = .ok r ∧ getConfig exConv' (merged f n) none = .ok r0 ∧
    r0.V.get? "Vchoices".toList = some (.choices [(.float 1, [("V_name".toList, .str "HG".toList), ("t".toList, .float 7)])]) ∧
    r.V.get? "Vchoices".toList = some (.choices [(.float 1, [("V_name".toList, .str "HG".toList), ("t".toList, .float 3)])]) := by
  refine ⟨⟨[],
    [("least_squares_kwargs".toList, []), ("fits_kwargs".toList, []), ("defdict".toList, []),
     ("RT1_V".toList, [("V_name".toList, some "LinCombV".toList), ("A__frac".toList, some "1".toList),
       ("A__V_name".toList, some "HG".toList), ("A__t".toList, some "3".toList)]), ("RT1_SRF".toList, []),
     ("#config A RT1_V".toList, [("A__t".toList, some "7".toList)])]⟩, "A".toList, ?_⟩
  refine ⟨_, _, rfl, by unfold File.Strict; decide +kernel, rfl, rfl, ?_, ?_⟩ <;> decide +kernel

end RT1.Config
