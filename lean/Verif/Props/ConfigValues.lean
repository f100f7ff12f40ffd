import Verif.Props.ConfigOverride

/-!
# Values of the sections that define a configuration (C82), linear combinations of phase functions (C83)
-/

namespace RT1.Config
open General

variable {F D P : Type} (c : Conv F D P)

/-! ## C82 -/

/-- Specification: the comma-separated words of a bracketed string, blanks are ignored. -/
def Words (v : Str) (toks : List Str) : Prop :=
  ∃ s, v = '[' :: (s ++ [']']) ∧ toks ≠ [] ∧ (∀ t ∈ toks, ',' ∉ t) ∧ s.filter (fun x => x ≠ ' ') = join ',' toks

/-- Specification: a defdict entry given as words. -/
def DefWords (toks : List Str) (d : DVal F) : Prop :=
  match toks with
  | q :: x :: r =>
    q = (if d.fitQ then "True".toList else "False".toList) ∧
    (match d.val with | none => x = "auxiliary".toList | some y => x ≠ "auxiliary".toList ∧ c.float x = some y) ∧
    (match r, d.rest with
      | [], none => True
      | fr :: lo :: hi :: more, some (freq, l, h, interp) =>
        freq = (if fr = "None".toList then none else some fr) ∧ c.float lo = some l ∧ c.float hi = some h ∧
          (interp = true ↔ ∃ more', more = "True".toList :: more')
      | _, _ => False)
  | _ => False

theorem bracketed_iff (v : Str) : bracketed v = true ↔ ∃ s, v = '[' :: (s ++ [']']) := by
  unfold bracketed
  constructor
  · intro h
    simp only [Bool.and_eq_true, beq_iff_eq] at h
    cases v with
    | nil => simp at h
    | cons x r =>
      simp only [List.head?_cons, Option.some.injEq] at h
      obtain ⟨rfl, h2⟩ := h
      cases hr : r.reverse with
      | nil => simp only [List.reverse_eq_nil_iff] at hr; subst hr; simp at h2
      | cons y t =>
        have : r = t.reverse ++ [y] := by rw [← List.reverse_reverse r, hr]; simp
        subst this
        refine ⟨t.reverse, ?_⟩
        rw [← List.cons_append, List.getLast?_append] at h2
        simp at h2
        rw [h2]
  · rintro ⟨s, rfl⟩
    simp [List.getLast?_cons]

theorem words_iff (v : Str) (toks : List Str) : Words v toks ↔ bracketed v = true ∧ splitChar ',' (noBlanks (inner v)) = toks := by
  rw [bracketed_iff]
  constructor
  · rintro ⟨s, rfl, h0, h1, h2⟩
    refine ⟨⟨s, rfl⟩, ?_⟩
    rw [inner_brackets]
    unfold noBlanks
    rw [h2, splitChar_join h0 h1]
  · rintro ⟨⟨s, rfl⟩, h⟩
    rw [inner_brackets] at h
    subst h
    refine ⟨s, rfl, splitChar_ne_nil _ _, (splitChar_spec _ _).2, ?_⟩
    rw [(splitChar_spec _ _).1]
    rfl

theorem okBind {α β : Type} (a : α) (g : α → Except PyErr β) : ((.ok a : Except PyErr α) >>= g) = g a := rfl

theorem flag_iff {T Fa q : Str} (hne : T ≠ Fa) (b : Bool) : (q = if b then T else Fa) ↔
    (if q = T then Except.ok true else if q = Fa then .ok false else .error .assertionError : Except PyErr Bool) = .ok b := by
  by_cases h1 : q = T
  · rw [if_pos h1]; cases b <;> simp [h1, hne]
  · rw [if_neg h1]
    by_cases h2 : q = Fa
    · rw [if_pos h2]; cases b <;> simp [h2, hne.symm]
    · rw [if_neg h2]; cases b <;> simp [h1, h2]

theorem val_iff {A x : Str} (val : Option F) :
    (match val with | none => x = A | some y => x ≠ A ∧ c.float x = some y) ↔
      (if x = A then Except.ok none
        else do let v ← orValueError (c.float x); .ok (some v) : Except PyErr (Option F)) = .ok val := by
  by_cases h1 : x = A
  · rw [if_pos h1]; cases val <;> simp [h1]
  · rw [if_neg h1]
    cases hf : c.float x <;> cases val <;> simp [h1, orValueError, bind, Except.bind]

theorem defdictEntry_iff (k : Str) (v : Option Str) (d : DVal F) :
    defdictEntry c (k, v) = .ok d ↔ ∃ s toks, v = some s ∧ Words s toks ∧ DefWords c toks d := by
  cases v with
  | none => simp [defdictEntry]
  | some s =>
    by_cases hb : bracketed s = true
    · have hw : ∀ toks, Words s toks ↔ splitChar ',' (noBlanks (inner s)) = toks := fun t => by rw [words_iff]; simp [hb]
      have : (∃ s' toks, some s = some s' ∧ Words s' toks ∧ DefWords c toks d) ↔
          DefWords c (splitChar ',' (noBlanks (inner s))) d := by
        constructor
        · rintro ⟨s', t, h1, h2, h3⟩
          obtain rfl := Option.some.inj h1
          rw [(hw t).1 h2]; exact h3
        · exact fun h => ⟨s, _, rfl, (hw _).2 rfl, h⟩
      rw [this]
      simp only [defdictEntry, hb, Bool.not_true, Bool.false_eq_true, if_false]
      generalize splitChar ',' (noBlanks (inner s)) = l
      obtain ⟨fitQ, val, rest⟩ := d
      match l with
      | [] => simp [nth, DefWords, bind, Except.bind]
      | [q] =>
        simp only [nth, DefWords, bind, Except.bind, iff_false]
        simp only [List.getElem?_cons_zero]
        split_ifs <;> simp
      | q :: x :: r =>
        simp only [nth, DefWords, okBind, List.getElem?_cons_zero, List.getElem?_cons_succ]
        rw [flag_iff (by decide)]
        generalize (if q = "True".toList then Except.ok true else if q = "False".toList then .ok false else .error .assertionError :
              Except PyErr Bool) = Q
        cases Q with
        | error e => exact Iff.intro (fun h => nomatch h) (fun h => nomatch h.1)
        | ok b =>
          rw [val_iff, okBind]
          generalize (if x = "auxiliary".toList then Except.ok none
                else do let v ← orValueError (c.float x); .ok (some v) : Except PyErr (Option F)) = X
          generalize "None".toList = N, "True".toList = T
          cases X with
          | error e => exact Iff.intro (fun h => nomatch h) (fun h => nomatch h.2.1)
          | ok xv =>
            simp only [bind, Except.bind]
            match r with
            | [] => cases rest <;> simp
            | [f0] => simp
            | [f0, lo] =>
              cases hlo : c.float lo <;> simp [orValueError, hlo]
            | f0 :: lo :: hi :: more =>
              have hl : 2 < (q :: x :: f0 :: lo :: hi :: more).length := by simp
              rw [if_pos hl]
              simp only [List.getElem?_cons_zero, List.getElem?_cons_succ]
              have hm : ∀ interp : Bool, (interp = true ↔ ∃ more', more = T :: more') ↔
                  interp = decide (more[0]? = some T) := by
                intro interp
                cases more with
                | nil => cases interp <;> simp
                | cons y t =>
                  by_cases hy : y = T
                  · cases interp <;> simp [hy]
                  · cases interp <;> simp [hy]
              cases hlo : c.float lo with
              | none => cases rest <;> simp [orValueError, hlo]
              | some l =>
                simp only [orValueError]
                cases hhi : c.float hi with
                | none => cases rest <;> simp [hhi]
                | some h =>
                  cases rest with
                  | none => simp
                  | some p =>
                    obtain ⟨freq, l', h', interp⟩ := p
                    simp only [hm, hlo, hhi, Except.ok.injEq, DVal.mk.injEq, Option.some.injEq, Prod.mk.injEq]
                    constructor
                    · rintro ⟨h1, h2, h3, h4, h5, h6⟩
                      exact ⟨h1, h2, h3.symm, h4, h5, h6.symm⟩
                    · rintro ⟨h1, h2, h3, h4, h5, h6⟩
                      exact ⟨h1, h2, h3.symm, h4, h5, h6.symm⟩
    · have : ∀ toks, ¬ Words s toks := fun t h => hb ((words_iff s t).1 h).1
      simp only [defdictEntry]
      simp [hb, this]

/-- Specification: the kinds of keyword-arguments. -/
inductive Kind
  | float | int | bool | other
  deriving DecidableEq

/-- Specification: the value of an entry of `least_squares_kwargs` or `fits_kwargs`, given the kind of the key. -/
inductive Kwarg : Kind → Option Str → KVal F → Prop
  | float {s x} : c.float s = some x → Kwarg .float (some s) (.float x)
  | int {s n} : c.int s = some n → Kwarg .int (some s) (.int n)
  | bool {s b} : BoolWord s b → Kwarg .bool (some s) (.bool b)
  | none {v} : v = Option.none ∨ v = some "None".toList → Kwarg .other v .none
  | str {s} : s ≠ "None".toList → Kwarg .other (some s) (.str s)

/-- Specification: the kinds of the keys (documented in the class docstring / `scipy.optimize.least_squares`). -/
def kindOf (sec : Str) (k : Str) : Kind :=
  if sec = "least_squares_kwargs".toList then
    if k = "ftol".toList ∨ k = "gtol".toList ∨ k = "xtol".toList then .float
    else if k = "verbose".toList ∨ k = "max_nfev".toList then .int else .other
  else
    if k = "sig0".toList ∨ k = "dB".toList ∨ k = "int_Q".toList then .bool else if k = "verbose".toList then .int else .other

theorem dictEntry_iff (p : Props) (hp : p = lsqProps ∨ p = fitProps) (k : Str) (v : Option Str) (w : KVal F) :
    dictEntry c p (k, v) = .ok w ↔ Kwarg c (kindOf p.section_ k) v w := by
  have hcase : ∀ w, (match v with | none => Except.ok KVal.none | some v => if v = "None".toList then .ok .none else .ok (.str v) :
      Except PyErr (KVal F)) = .ok w ↔ Kwarg c .other v w := by
    intro w
    cases v with
    | none =>
      simp only [Except.ok.injEq]
      constructor
      · rintro rfl; exact .none (.inl rfl)
      · intro h; cases h; rfl
    | some s =>
      simp only
      by_cases h : s = "None".toList
      · rw [if_pos h]
        constructor
        · intro e; obtain rfl := Except.ok.inj e; exact .none (.inr (by rw [h]))
        · intro e; cases e with
          | none _ => rfl
          | str h' => exact absurd h h'
      · rw [if_neg h]
        constructor
        · intro e; obtain rfl := Except.ok.inj e; exact .str h
        · intro e; cases e with
          | none h' => rcases h' with h' | h' <;> simp at h'; exact absurd h' h
          | str h' => rfl
  have hfloat : ∀ w, (do let x ← getfloat c v; .ok (.float x) : Except PyErr (KVal F)) = .ok w ↔ Kwarg c .float v w := by
    intro w
    constructor
    · intro h
      obtain ⟨x, hx, h⟩ := bindOk h
      obtain rfl := Except.ok.inj h
      cases v with
      | none => simp [getfloat] at hx
      | some s =>
        refine .float ?_
        cases hf : c.float s <;> simp [getfloat, hf, orValueError] at hx
        rw [hx]
    · intro h
      cases h with
      | float h => simp [getfloat, h, orValueError, bind, Except.bind]
  have hint : ∀ w, (do let x ← getint c v; .ok (.int x) : Except PyErr (KVal F)) = .ok w ↔ Kwarg c .int v w := by
    intro w
    constructor
    · intro h
      obtain ⟨x, hx, h⟩ := bindOk h
      obtain rfl := Except.ok.inj h
      cases v with
      | none => simp [getint] at hx
      | some s =>
        refine .int ?_
        cases hf : c.int s <;> simp [getint, hf, orValueError] at hx
        rw [hx]
    · intro h
      cases h with
      | int h => simp [getint, h, orValueError, bind, Except.bind]
  have hbool : ∀ w, (do let x ← getboolean v; .ok (.bool x) : Except PyErr (KVal F)) = .ok w ↔ Kwarg c .bool v w := by
    intro w
    constructor
    · intro h
      obtain ⟨x, hx, h⟩ := bindOk h
      obtain rfl := Except.ok.inj h
      cases v with
      | none => simp [getboolean] at hx
      | some s => exact .bool ((toBool_iff s x).1 hx)
    · intro h
      cases h with
      | @bool s b h => simp [getboolean, (toBool_iff s b).2 h, bind, Except.bind]
  rcases hp with hp | hp
  · have e1 : p.section_ = "least_squares_kwargs".toList := by rw [hp]; rfl
    have e2 : p.float_keys = ["ftol".toList, "gtol".toList, "xtol".toList] := by rw [hp]; rfl
    have e3 : p.int_keys = ["verbose".toList, "max_nfev".toList] := by rw [hp]; rfl
    have e4 : p.bool_keys = [] := by rw [hp]; rfl
    have e5 : p.list_keys = [] := by rw [hp]; rfl
    clear hp
    unfold dictEntry kindOf
    rw [if_pos e1]
    simp only [e2, e3, e4, e5, List.mem_cons, List.not_mem_nil, or_false, if_false]
    generalize "ftol".toList = k1, "gtol".toList = k2, "xtol".toList = k3, "verbose".toList = k4, "max_nfev".toList = k5
    by_cases h1 : k = k1 ∨ k = k2 ∨ k = k3
    · rw [if_pos h1, if_pos h1]; exact hfloat w
    · rw [if_neg h1, if_neg h1]
      by_cases h2 : k = k4 ∨ k = k5
      · rw [if_pos h2, if_pos h2]; exact hint w
      · rw [if_neg h2, if_neg h2]; exact hcase w
  · have e1 : p.section_ ≠ "least_squares_kwargs".toList := by rw [hp]; decide
    have e2 : p.float_keys = [] := by rw [hp]; rfl
    have e3 : p.int_keys = ["verbose".toList] := by rw [hp]; rfl
    have e4 : p.bool_keys = ["sig0".toList, "dB".toList, "int_Q".toList] := by rw [hp]; rfl
    have e5 : p.list_keys = [] := by rw [hp]; rfl
    clear hp
    unfold dictEntry kindOf
    rw [if_neg e1]
    simp only [e2, e3, e4, e5, List.mem_cons, List.not_mem_nil, or_false, if_false]
    have h0 : ¬ ("verbose".toList = "sig0".toList ∨ "verbose".toList = "dB".toList ∨ "verbose".toList = "int_Q".toList) := by decide
    generalize "sig0".toList = k1, "dB".toList = k2, "int_Q".toList = k3, "verbose".toList = k4 at h0 ⊢
    by_cases h1 : k = k4
    · have h2 : ¬ (k = k1 ∨ k = k2 ∨ k = k3) := by rw [h1]; exact h0
      rw [if_pos h1, if_neg h2, if_pos h1]
      exact hint w
    · rw [if_neg h1, if_neg h1]
      by_cases h2 : k = k1 ∨ k = k2 ∨ k = k3
      · rw [if_pos h2, if_pos h2]; exact hbool w
      · rw [if_neg h2, if_neg h2]; exact hcase w

/-- The parsed section as a relation between entries and values. -/
theorem parseWith_iff {α : Type} {g : Str × Option Str → Except PyErr α} {s : Section} (hs : (Dict.keys s).Nodup)
    {d : Dict Str α} (h : parseWith g s = .ok d) (k : Str) (w : α) :
    d.get? k = some w ↔ ∃ v, (k, v) ∈ s ∧ g (k, v) = .ok w := by
  rw [parseWith_get hs h, Option.bind_eq_some_iff]
  constructor
  · rintro ⟨v, hv, hg⟩
    refine ⟨v, Dict.mem_of_get? hv, ?_⟩
    cases hgv : g (k, v) with
    | error e => rw [hgv] at hg; simp [Except.toOption] at hg
    | ok x => rw [hgv] at hg; simp only [Except.toOption, Option.some.injEq] at hg; rw [hg]
  · rintro ⟨v, hv, hg⟩
    exact ⟨v, (Dict.get?_iff_mem hs k v).2 hv, by rw [hg]; rfl⟩

/-- The entries of a section as seen by the parser: explicit entries and those of `DEFAULT` that are not overridden. -/
def Visible (f : File) (sec k : Str) (v : Option Str) : Prop :=
  ∃ s, (sec, s) ∈ f.sections ∧ ((k, v) ∈ s ∨ ((k, v) ∈ f.defaults ∧ ∀ v', (k, v') ∉ s))

theorem visible_iff {f : File} (hs : f.Strict) {sec : Str} (hsec : sec ≠ "DEFAULT".toList) {s : Section}
    (h : f.get sec = .ok s) (k : Str) (v : Option Str) : (k, v) ∈ s ↔ Visible f sec k v := by
  unfold File.get at h
  cases hg : f.sections.get? sec with
  | none => rw [hg] at h; simp only [if_neg hsec] at h; cases h
  | some s0 =>
    rw [hg] at h
    obtain rfl := Except.ok.inj h
    have key : ∀ s', (sec, s') ∈ f.sections ↔ s' = s0 := by
      intro s'
      rw [← Dict.get?_iff_mem hs.1, hg]
      simp [eq_comm]
    unfold Visible withDefaults
    simp only [key, exists_eq_left, List.mem_append, List.mem_filter, decide_eq_true_eq]
    constructor
    · rintro (h | ⟨h1, h2⟩)
      · exact .inl h
      · exact .inr ⟨h1, fun v' hv' => h2 (List.mem_map.2 ⟨_, hv', rfl⟩)⟩
    · rintro (h | ⟨h1, h2⟩)
      · exact .inl h
      · refine .inr ⟨h1, fun hm => ?_⟩
        obtain ⟨e, he, rfl⟩ := List.mem_map.1 hm
        exact h2 e.2 he

theorem visible_nodup {f : File} (hs : f.Strict) (hd : (Dict.keys f.defaults).Nodup) {sec : Str} (hsec : sec ≠ "DEFAULT".toList)
    {s : Section} (h : f.get sec = .ok s) : (Dict.keys s).Nodup := by
  unfold File.get at h
  cases hg : f.sections.get? sec with
  | none => rw [hg] at h; simp only [if_neg hsec] at h; cases h
  | some s0 =>
    rw [hg] at h
    obtain rfl := Except.ok.inj h
    unfold withDefaults Dict.keys
    rw [List.map_append, List.nodup_append]
    refine ⟨hs.2 _ (Dict.mem_of_get? hg), hd.sublist (List.Sublist.map _ List.filter_sublist), ?_⟩
    intro a ha b hb hab
    obtain ⟨e, he, rfl⟩ := List.mem_map.1 hb
    simp only [List.mem_filter, decide_eq_true_eq] at he
    exact he.2 (hab ▸ ha)

/-- C82: the fit parameters of the section `defdict`: every entry of the file becomes one entry of the defdict with exactly the
written values, a file is rejected if and only if some entry is not of the documented form. -/
theorem C82_defdict {f : File} (hs : f.Strict) (hd : (Dict.keys f.defaults).Nodup) {sec : Str} (hsec : sec ≠ "DEFAULT".toList)
    {d : Dict Str (DVal F)} (h : parseDefdict c f sec = .ok d) (k : Str) (w : DVal F) :
    d.get? k = some w ↔ ∃ s toks, Visible f sec k (some s) ∧ Words s toks ∧ DefWords c toks w := by
  obtain ⟨s, hg, h⟩ := bindOk h
  rw [parseWith_iff (visible_nodup hs hd hsec hg) h]
  constructor
  · rintro ⟨v, hv, he⟩
    obtain ⟨x, toks, rfl, hw⟩ := (defdictEntry_iff c k v w).1 he
    exact ⟨x, toks, (visible_iff hs hsec hg _ _).1 hv, hw⟩
  · rintro ⟨x, toks, hv, hw⟩
    exact ⟨some x, (visible_iff hs hsec hg _ _).2 hv, (defdictEntry_iff c k _ w).2 ⟨x, toks, rfl, hw⟩⟩

theorem C82_defdict_accepted {f : File} (hs : f.Strict) {sec : Str} (hsec : sec ≠ "DEFAULT".toList)
    (hmem : sec ∈ f.sections.keys) : (∃ d, parseDefdict c f sec = .ok d) ↔
      ∀ k v, Visible f sec k v → ∃ s toks w, v = some s ∧ Words s toks ∧ DefWords c toks w := by
  obtain ⟨s, hg⟩ := get_ok ((Dict.get?_isSome _ _).2 hmem)
  have e : parseDefdict c f sec = parseWith (defdictEntry c) s := by unfold parseDefdict; rw [hg]; rfl
  rw [e]
  constructor
  · rintro ⟨d, h⟩ k v hv
    obtain ⟨w, hw⟩ := parseWith_mem_ok h (k, v) ((visible_iff hs hsec hg _ _).2 hv)
    obtain ⟨x, toks, h1, h2⟩ := (defdictEntry_iff c k v w).1 hw
    exact ⟨x, toks, w, h1, h2⟩
  · intro h
    refine parseWith_ok fun e he => ?_
    obtain ⟨x, toks, w, h1, h2⟩ := h e.1 e.2 ((visible_iff hs hsec hg _ _).1 he)
    exact ⟨w, (defdictEntry_iff c e.1 e.2 w).2 ⟨x, toks, h1, h2⟩⟩

/-- C82: the keyword-arguments of the optimiser and of the fit. -/
theorem C82_kwargs {f : File} (hs : f.Strict) (hd : (Dict.keys f.defaults).Nodup) {r : Cfg F} (h : getConfig c f none = .ok r) :
    (∀ k w, r.lsq.get? k = some w ↔ ∃ v, Visible f "least_squares_kwargs".toList k v ∧
      Kwarg c (kindOf "least_squares_kwargs".toList k) v w) ∧
    (∀ k w, r.fits.get? k = some w ↔ ∃ v, Visible f "fits_kwargs".toList k v ∧ Kwarg c (kindOf "fits_kwargs".toList k) v w) ∧
    (∀ k w, r.defdict.get? k = some w ↔ ∃ s toks, Visible f "defdict".toList k (some s) ∧ Words s toks ∧ DefWords c toks w) := by
  unfold getConfig at h
  obtain ⟨lsq, h1, h⟩ := bindOk h
  obtain ⟨fits, h2, h⟩ := bindOk h
  obtain ⟨dd, h3, h⟩ := bindOk h
  obtain ⟨V, h4, h⟩ := bindOk h
  obtain ⟨SRF, h5, h⟩ := bindOk h
  simp only [updated, bind, Except.bind] at h
  obtain rfl := Except.ok.inj h
  have key : ∀ (p : Props) (hp : p = lsqProps ∨ p = fitProps) (hsec : p.section_ ≠ "DEFAULT".toList) (d : Dict Str (KVal F)),
      parseDict c f p = .ok d → ∀ k w, d.get? k = some w ↔ ∃ v, Visible f p.section_ k v ∧ Kwarg c (kindOf p.section_ k) v w := by
    intro p hp hsec d hpd k w
    obtain ⟨s, hg, hpd⟩ := bindOk hpd
    rw [parseWith_iff (visible_nodup hs hd hsec hg) hpd]
    simp only [visible_iff hs hsec hg, dictEntry_iff c p hp]
  exact ⟨key lsqProps (.inl rfl) (by decide) _ h1, key fitProps (.inr rfl) (by decide) _ h2,
    C82_defdict c hs hd (by decide) h3⟩

/-! ## C83 -/

/-- The key of the parameter `p` of the component `x` of a linear combination. -/
def ckey (x : Char) (p : Str) : Str := x :: '_' :: '_' :: p

/-- Specification: the value of a phase-function parameter with the name `p`. -/
def Val (p : Str) (v : Option Str) (w : VVal F) : Prop :=
  if p = "ncoefs".toList then ∃ s n, v = some s ∧ c.int s = some n ∧ w = .int n
  else if p = "a".toList then ∃ s toks l, v = some s ∧ Words s toks ∧ List.Forall₂ (fun t y => c.float t = some y) toks l ∧ w = .floats l
  else match v with
    | some s => (∃ y, c.float s = some y ∧ w = .float y) ∨ (c.float s = none ∧ w = .str s)
    | none => w = .none

theorem ckey_drop (x : Char) (p : Str) (t : Str) : ((ckey x p).drop 1 = '_' :: '_' :: t) ↔ p = t := by
  simp [ckey]

theorem vEntry_core {k : Str} {v : Option Str} {w : VVal F} {A B : Prop} [Decidable A] [Decidable B]
    (hA : (k = "ncoefs".toList ∨ k.drop 1 = "__ncoefs".toList) ↔ A) (hB : (k = "a".toList ∨ k.drop 1 = "__a".toList) ↔ B) :
    vEntry c (k, v) = .ok w ↔ (if A then ∃ s n, v = some s ∧ c.int s = some n ∧ w = .int n
      else if B then ∃ s toks l, v = some s ∧ Words s toks ∧ List.Forall₂ (fun t y => c.float t = some y) toks l ∧ w = .floats l
      else match v with
        | some s => (∃ y, c.float s = some y ∧ w = .float y) ∨ (c.float s = none ∧ w = .str s)
        | none => w = .none) := by
  unfold vEntry
  by_cases a : A
  · rw [if_pos a, if_pos (hA.2 a)]
    constructor
    · intro h
      obtain ⟨n, hn, h⟩ := bindOk h
      obtain rfl := Except.ok.inj h
      cases v with
      | none => simp [getint] at hn
      | some s =>
        refine ⟨s, n, rfl, ?_, rfl⟩
        cases hi : c.int s <;> simp [getint, hi, orValueError] at hn
        rw [hn]
    · rintro ⟨s, n, rfl, hi, rfl⟩
      simp [getint, hi, orValueError, bind, Except.bind]
  · rw [if_neg a, if_neg (fun h => a (hA.1 h))]
    by_cases b : B
    · rw [if_pos b, if_pos (hB.2 b)]
      have hm : ∀ toks (l : List F), (toks.mapM fun s => orValueError (c.float s)) = .ok l ↔
          List.Forall₂ (fun t y => c.float t = some y) toks l := by
        intro toks l
        rw [mapM_ok_iff]
        have e : (fun (t : Str) (y : F) => orValueError (c.float t) = .ok y) = (fun t y => c.float t = some y) := by
          funext t y
          cases c.float t <;> simp [orValueError]
        rw [e]
      cases v with
      | none => simp
      | some s =>
        simp only
        by_cases hb : bracketed s = true
        · rw [if_pos hb]
          constructor
          · intro h
            obtain ⟨l, hl, h⟩ := bindOk h
            obtain rfl := Except.ok.inj h
            exact ⟨s, _, l, rfl, (words_iff _ _).2 ⟨hb, rfl⟩, (hm _ _).1 hl, rfl⟩
          · rintro ⟨s', toks, l, h1, h2, h3, rfl⟩
            obtain rfl := Option.some.inj h1
            obtain ⟨_, rfl⟩ := (words_iff _ _).1 h2
            rw [(hm _ _).2 h3]; rfl
        · rw [if_neg hb]
          constructor
          · intro h; cases h
          · rintro ⟨s', toks, l, h1, h2, _⟩
            obtain rfl := Option.some.inj h1
            exact absurd ((words_iff _ _).1 h2).1 hb
    · rw [if_neg b, if_neg (fun h => b (hB.1 h))]
      cases v with
      | none => simp [getfloat, eq_comm]
      | some s =>
        cases hf : c.float s <;> simp [getfloat, hf, orValueError, eq_comm]

theorem vEntry_component (x : Char) (p : Str) (v : Option Str) (w : VVal F) :
    vEntry c (ckey x p, v) = .ok w ↔ Val c p v w := by
  refine vEntry_core c ?_ ?_
  · rw [show "__ncoefs".toList = '_' :: '_' :: "ncoefs".toList from rfl, ckey_drop]
    simp only [or_iff_right_iff_imp]
    intro h
    exfalso
    have : (ckey x p)[1]? = "ncoefs".toList[1]? := by rw [h]
    simp only [ckey, List.getElem?_cons_succ, List.getElem?_cons_zero] at this
    exact absurd this (by decide)
  · rw [show "__a".toList = '_' :: '_' :: "a".toList from rfl, ckey_drop]
    simp only [or_iff_right_iff_imp]
    intro h
    exfalso
    have : (ckey x p)[1]? = "a".toList[1]? := by rw [h]
    simp only [ckey, List.getElem?_cons_succ, List.getElem?_cons_zero] at this
    exact absurd this (by decide)

theorem vEntry_plain {k : Str} (hk : ∀ x p, k ≠ ckey x p) (v : Option Str) (w : VVal F) :
    vEntry c (k, v) = .ok w ↔ Val c k v w := by
  have hd : ∀ t, k.drop 1 ≠ '_' :: '_' :: t := by
    intro t h
    cases k with
    | nil => simp at h
    | cons x r => simp only [List.drop_one, List.tail_cons] at h; exact hk x t (by rw [h]; rfl)
  refine vEntry_core c ?_ ?_
  · exact ⟨fun h => h.resolve_right (hd "ncoefs".toList), .inl⟩
  · exact ⟨fun h => h.resolve_right (hd "a".toList), .inl⟩

theorem isComponent_iff (k : Str) : isComponent c k = true ↔ ∃ x p, k = ckey x p ∧ c.upper x = true := by
  unfold isComponent
  rw [Bool.and_eq_true, List.isPrefixOf_iff_prefix]
  constructor
  · rintro ⟨h1, h2⟩
    cases k with
    | nil => simp at h1
    | cons x r =>
      obtain ⟨t, ht⟩ := h2
      simp only [List.head?_cons] at h1
      refine ⟨x, t, ?_, h1⟩
      rw [List.drop_one, List.tail_cons] at ht
      rw [← ht]; rfl
  · rintro ⟨x, p, rfl, hx⟩
    exact ⟨hx, ⟨p, rfl⟩⟩

def fracKey : Str := ['f', 'r', 'a', 'c']

theorem frac_suffix (x : Char) : "__frac".toList <:+ ckey x fracKey := ⟨[x], rfl⟩

/-- The components collected from a list of entries. -/
theorem choices_spec (comps : List (Str × VVal F)) (hn : (comps.map Prod.fst).Nodup)
    (hc : ∀ e ∈ comps, ∃ x p, e.1 = ckey x p)
    (hf : ∀ x p w, (ckey x p, w) ∈ comps → "__frac".toList <:+ ckey x p → p = fracKey) :
    let ch := comps.foldl (fun ch e => addChoice ch e.1 e.2) ([] : Dict Char (VVal F × Dict Str (VVal F)))
    ch.keys.Nodup ∧ (∀ x, x ∈ ch.keys ↔ ∃ p w, (ckey x p, w) ∈ comps) ∧
      ∀ x fr ps, ch.get? x = some (fr, ps) →
        (∀ p w, Dict.get? ps p = some w ↔ (ckey x p, w) ∈ comps ∧ p ≠ fracKey) ∧
        (∀ w, (ckey x fracKey, w) ∈ comps → fr = w) ∧ ((∀ w, (ckey x fracKey, w) ∉ comps) → fr = .int 1) := by
  induction comps using List.reverseRecOn with
  | nil => simp [Dict.keys, Dict.get?]
  | append_singleton comps e ih =>
    intro ch
    obtain ⟨ih1, ih2, ih3⟩ := ih (by rw [List.map_append] at hn; exact (List.nodup_append.1 hn).1)
      (fun e' he' => hc e' (List.mem_append_left _ he')) (fun x p w hw => hf x p w (List.mem_append_left _ hw))
    obtain ⟨x0, p0, he⟩ := hc e (by simp)
    obtain ⟨k0, w0⟩ := e
    simp only at he
    subst he
    have hnew : ∀ w, (ckey x0 p0, w) ∉ comps := by
      intro w hw
      rw [List.map_append, List.nodup_append] at hn
      exact hn.2.2 _ (List.mem_map.2 ⟨_, hw, rfl⟩) _ (by simp) rfl
    generalize hch0 : comps.foldl (fun ch e => addChoice ch e.1 e.2) ([] : Dict Char (VVal F × Dict Str (VVal F))) = ch0
      at ih1 ih2 ih3
    have hch : ch = addChoice ch0 (ckey x0 p0) w0 := by
      simp only [ch, List.foldl_append, List.foldl_cons, List.foldl_nil, hch0]
    have inj : ∀ x p, ckey x p = ckey x0 p0 ↔ x = x0 ∧ p = p0 := by intro x p; simp [ckey]
    have hmem : ∀ x p w, (ckey x p, w) ∈ comps ++ [(ckey x0 p0, w0)] ↔ (ckey x p, w) ∈ comps ∨ (x = x0 ∧ p = p0 ∧ w = w0) := by
      intro x p w
      simp only [List.mem_append, List.mem_singleton, Prod.mk.injEq, inj, and_assoc]
    obtain ⟨val, hval, hkeep⟩ : ∃ val, ch = Dict.set ch0 x0 val ∧
        (if "__frac".toList <:+ ckey x0 p0 then val = (w0, ((ch0.get? x0).getD (.int 1, [])).2)
          else val = (((ch0.get? x0).getD (.int 1, [])).1, Dict.set ((ch0.get? x0).getD (.int 1, [])).2 p0 w0)) := by
      rw [hch]
      unfold addChoice ckey
      simp only [List.isSuffixOf_iff_suffix, List.drop_succ_cons, List.drop_zero]
      by_cases hs : "__frac".toList <:+ (x0 :: '_' :: '_' :: p0)
      · exact ⟨_, by rw [if_pos hs], by rw [if_pos hs]⟩
      · exact ⟨_, by rw [if_neg hs], by rw [if_neg hs]⟩
    have hold : ∀ fr ps, (ch0.get? x0).getD (.int 1, []) = (fr, ps) →
        (∀ p w, Dict.get? ps p = some w ↔ (ckey x0 p, w) ∈ comps ∧ p ≠ fracKey) ∧
        (∀ w, (ckey x0 fracKey, w) ∈ comps → fr = w) ∧ ((∀ w, (ckey x0 fracKey, w) ∉ comps) → fr = .int 1) := by
      intro fr ps h
      cases hg : ch0.get? x0 with
      | some q => rw [hg] at h; simp only [Option.getD_some] at h; subst h; exact ih3 _ _ _ hg
      | none =>
        rw [hg] at h
        simp only [Option.getD_none, Prod.mk.injEq] at h
        obtain ⟨rfl, rfl⟩ := h
        have hno : ∀ p w, (ckey x0 p, w) ∉ comps := by
          intro p w hw
          exact (Dict.get?_eq_none _ _).1 hg ((ih2 x0).2 ⟨p, w, hw⟩)
        refine ⟨fun p w => ⟨fun h => by simp [Dict.get?] at h, fun h => absurd h.1 (hno _ _)⟩, fun w hw => absurd hw (hno _ _),
          fun _ => rfl⟩
    rw [hval]
    refine ⟨Dict.nodup_set ih1 _ _, ?_, ?_⟩
    · intro x
      rw [Dict.mem_keys_set, ih2]
      simp only [hmem]
      constructor
      · rintro (rfl | ⟨p, w, h⟩)
        · exact ⟨p0, w0, .inr ⟨rfl, rfl, rfl⟩⟩
        · exact ⟨p, w, .inl h⟩
      · rintro ⟨p, w, h | ⟨rfl, -, -⟩⟩
        · exact .inr ⟨p, w, h⟩
        · exact .inl rfl
    · intro x fr ps hx
      rw [Dict.get?_set] at hx
      by_cases hxx : x = x0
      · subst hxx
        rw [if_pos rfl] at hx
        obtain rfl := Option.some.inj hx
        obtain ⟨o1, o2, o3⟩ := hold ((ch0.get? x).getD (.int 1, [])).1 ((ch0.get? x).getD (.int 1, [])).2 rfl
        by_cases hs : "__frac".toList <:+ ckey x p0
        · rw [if_pos hs] at hkeep
          have hp0 : p0 = fracKey := hf x p0 w0 (by simp) hs
          subst hp0
          obtain ⟨rfl, rfl⟩ := Prod.mk.inj hkeep
          refine ⟨?_, ?_, ?_⟩
          · intro p w
            rw [o1, hmem]
            constructor
            · rintro ⟨h1, h2⟩; exact ⟨.inl h1, h2⟩
            · rintro ⟨h1 | ⟨-, h1, -⟩, h2⟩
              · exact ⟨h1, h2⟩
              · exact absurd h1 h2
          · intro w hw
            rcases (hmem _ _ _).1 hw with h | ⟨-, -, h⟩
            · exact absurd h (hnew w)
            · exact h.symm
          · intro h
            exact absurd ((hmem _ _ _).2 (.inr ⟨rfl, rfl, rfl⟩)) (h fr)
        · rw [if_neg hs] at hkeep
          have hp0 : p0 ≠ fracKey := by rintro rfl; exact hs (frac_suffix x)
          obtain ⟨rfl, rfl⟩ := Prod.mk.inj hkeep
          refine ⟨?_, ?_, ?_⟩
          · intro p w
            rw [Dict.get?_set, hmem]
            by_cases hp : p = p0
            · subst hp
              rw [if_pos rfl]
              constructor
              · intro h; exact ⟨.inr ⟨rfl, rfl, (Option.some.inj h).symm⟩, hp0⟩
              · rintro ⟨h | ⟨-, -, h⟩, -⟩
                · exact absurd h (hnew w)
                · rw [h]
            · rw [if_neg hp, o1]
              simp [hp]
          · intro w hw
            rcases (hmem _ _ _).1 hw with h | ⟨-, h, -⟩
            · exact o2 w h
            · exact absurd h.symm hp0
          · intro h
            exact o3 fun w hw => h w ((hmem _ _ _).2 (.inl hw))
      · rw [if_neg hxx] at hx
        obtain ⟨o1, o2, o3⟩ := ih3 x fr ps hx
        refine ⟨?_, ?_, ?_⟩
        · intro p w; rw [o1, hmem]; simp [hxx]
        · intro w hw; exact o2 w (by simpa [hmem, hxx] using hw)
        · intro h; exact o3 fun w hw => h w ((hmem _ _ _).2 (.inl hw))

/-- The entries of the components. -/
def compsOf (d : Dict Str (VProp F)) : List (Str × VVal F) :=
  d.filterMap fun e => match e.2 with | .val v => if isComponent c e.1 then some (e.1, v) else none | _ => none

theorem mem_compsOf (d : Dict Str (VProp F)) (k : Str) (v : VVal F) :
    (k, v) ∈ compsOf c d ↔ (k, .val v) ∈ d ∧ isComponent c k = true := by
  unfold compsOf
  rw [List.mem_filterMap]
  constructor
  · rintro ⟨⟨k', w⟩, he, h⟩
    cases w with
    | choices l => simp at h
    | val u =>
      simp only at h
      split_ifs at h with hc
      · simp only [Option.some.injEq, Prod.mk.injEq] at h
        obtain ⟨rfl, rfl⟩ := h
        exact ⟨he, hc⟩
  · rintro ⟨h1, h2⟩
    exact ⟨_, h1, by simp [h2]⟩

theorem compsOf_nodup {d : Dict Str (VProp F)} (hd : d.keys.Nodup) : ((compsOf c d).map Prod.fst).Nodup := by
  refine List.Nodup.sublist ?_ hd
  unfold compsOf Dict.keys
  clear hd
  induction d with
  | nil => simp
  | cons e d ih =>
    rw [List.filterMap_cons, List.map_cons]
    split
    · exact ih.cons _
    · rename_i b hb
      cases hw : e.2 with
      | choices l => rw [hw] at hb; simp at hb
      | val u =>
        rw [hw] at hb
        simp only at hb
        split_ifs at hb
        obtain rfl := Option.some.inj hb
        exact ih.cons_cons _

theorem get?_filter_key {ν : Type} (d : Dict Str ν) (q : Str → Bool) (k : Str) :
    Dict.get? (d.filter fun e => q e.1) k = if q k then Dict.get? d k else none := by
  induction d with
  | nil => simp [Dict.get?]
  | cons e d ih =>
    rw [List.filter_cons]
    by_cases hq : q e.1 = true
    · rw [if_pos hq, Dict.get?_cons, Dict.get?_cons, ih]
      by_cases hk : e.1 = k
      · subst hk; simp [hq]
      · simp [hk]
    · rw [if_neg hq, ih, Dict.get?_cons]
      by_cases hk : e.1 = k
      · subst hk; simp [hq]
      · simp [hk]

set_option maxHeartbeats 800000 in
/-- C83: a linear combination of phase functions specified in the file: one component per upper-case letter that occurs as
prefix, with the fraction given as `X__frac` (1 if not given) and exactly the parameters given as `X__name`; the entries of the
components are removed and all other entries are kept. -/
theorem C83_components {f : File} (hs : f.Strict) (hd : (Dict.keys f.defaults).Nodup) {sec : Str} (hsec : sec ≠ "DEFAULT".toList)
    {pre other : Str} (hpre : (pre = "V".toList ∧ other = "SRF".toList) ∨ (pre = "SRF".toList ∧ other = "V".toList))
    (hname : Visible f sec (pre ++ "_name".toList) (some ("LinComb".toList ++ pre)))
    (hfl : c.float ("LinComb".toList ++ pre) = none)
    (hother : ¬ Visible f sec (other ++ "_name".toList) (some ("LinComb".toList ++ other)))
    (hfrac : ∀ x p v, Visible f sec (ckey x p) v → "__frac".toList <:+ ckey x p → p = "frac".toList)
    {d : Dict Str (VProp F)} (h : parseVSRF c f sec = .ok d) :
    (∃ (letters : List Char) (choices : List (VVal F × Dict Str (VVal F))),
      d.get? (pre ++ "choices".toList) = some (.choices choices) ∧ letters.Nodup ∧
      (∀ x, x ∈ letters ↔ c.upper x = true ∧ ∃ p v, Visible f sec (ckey x p) v) ∧
      List.Forall₂ (fun x ch =>
        (∀ v, Visible f sec (ckey x "frac".toList) v → Val c "frac".toList v ch.1) ∧
        ((∀ v, ¬ Visible f sec (ckey x "frac".toList) v) → ch.1 = .int 1) ∧
        (∀ p w, Dict.get? ch.2 p = some w ↔ p ≠ "frac".toList ∧ ∃ v, Visible f sec (ckey x p) v ∧ Val c p v w)) letters choices) ∧
    (∀ x p, c.upper x = true → d.get? (ckey x p) = none) ∧
    (∀ k w, (∀ x p, k ≠ ckey x p) → k ≠ pre ++ "choices".toList →
      (d.get? k = some (.val w) ↔ ∃ v, Visible f sec k v ∧ Val c k v w)) := by
  obtain ⟨s, hg, h⟩ := bindOk h
  obtain ⟨d0, h0, h⟩ := bindOk h
  have hnd := visible_nodup hs hd hsec hg
  have hkd := keys_parseWith h0
  have hget : ∀ k w, d0.get? k = some w ↔ ∃ v u, Visible f sec k v ∧ vEntry c (k, v) = .ok u ∧ w = .val u := by
    intro k w
    rw [parseWith_iff hnd h0]
    constructor
    · rintro ⟨v, hv, he⟩
      obtain ⟨u, hu, he⟩ := bindOk he
      exact ⟨v, u, (visible_iff hs hsec hg _ _).1 hv, hu, (Except.ok.inj he).symm⟩
    · rintro ⟨v, u, hv, hu, rfl⟩
      exact ⟨v, (visible_iff hs hsec hg _ _).2 hv, by rw [hu]; rfl⟩
  have hvis : ∀ k v, Visible f sec k v → ∃ u, vEntry c (k, v) = .ok u := by
    intro k v hv
    obtain ⟨w, hw⟩ := parseWith_mem_ok h0 _ ((visible_iff hs hsec hg k v).2 hv)
    obtain ⟨u, hu, _⟩ := bindOk hw
    exact ⟨u, hu⟩
  have hfun : ∀ k v v', Visible f sec k v → Visible f sec k v' → v = v' := by
    intro k v v' h1 h2
    have a := (Dict.get?_iff_mem hnd k v).2 ((visible_iff hs hsec hg _ _).2 h1)
    have b := (Dict.get?_iff_mem hnd k v').2 ((visible_iff hs hsec hg _ _).2 h2)
    rw [a] at b; exact Option.some.inj b
  -- the name entry
  have hplain : ∀ q ∈ [pre, other], ∀ x p, q ++ "_name".toList ≠ ckey x p := by
    intro q hq x p he
    have e2 : (q ++ "_name".toList)[1]? = some '_' := by rw [he]; rfl
    have e3 : (q ++ "_name".toList)[2]? = some '_' := by rw [he]; rfl
    simp only [List.mem_cons, List.not_mem_nil, or_false] at hq
    have hq' : q = "V".toList ∨ q = "SRF".toList := by
      rcases hpre with ⟨rfl, rfl⟩ | ⟨rfl, rfl⟩ <;> rcases hq with rfl | rfl <;> simp
    rcases hq' with rfl | rfl
    · exact absurd e3 (by decide)
    · exact absurd e2 (by decide)
  have hnameGet : d0.get? (pre ++ "_name".toList) = some (.val (.str ("LinComb".toList ++ pre))) := by
    rw [hget]
    refine ⟨_, _, hname, ?_, rfl⟩
    rw [vEntry_plain c (hplain pre (by simp))]
    unfold Val
    have n1 : pre ++ "_name".toList ≠ "ncoefs".toList := by rcases hpre with ⟨rfl, -⟩ | ⟨rfl, -⟩ <;> decide
    have n2 : pre ++ "_name".toList ≠ "a".toList := by rcases hpre with ⟨rfl, -⟩ | ⟨rfl, -⟩ <;> decide
    rw [if_neg n1, if_neg n2]
    exact .inr ⟨hfl, rfl⟩
  -- the other prefix does nothing
  have hotherId : linComb c other d0 = d0 := by
    refine linComb_id c hnd h0 other ?_ ?_
    · rcases hpre with ⟨-, rfl⟩ | ⟨-, rfl⟩ <;> simp
    · exact fun hm => hother ((visible_iff hs hsec hg _ _).1 hm)
  let choices := (compsOf c d0).foldl (fun ch e => addChoice ch e.1 e.2) ([] : Dict Char (VVal F × Dict Str (VVal F)))
  let d1 := Dict.set (d0.filter fun e => !isComponent c e.1) (pre ++ "choices".toList) (VProp.choices (choices.map Prod.snd))
  have hpreLin : linComb c pre d0 = d1 := by
    unfold linComb
    rw [hnameGet]
    simp only [if_true]
    rfl
  have hget1 : ∀ k, d1.get? k = if k = pre ++ "choices".toList then some (.choices (choices.map Prod.snd))
      else if isComponent c k then none else d0.get? k := by
    intro k
    simp only [d1]
    rw [Dict.get?_set, get?_filter_key d0 (fun k => !isComponent c k) k]
    cases isComponent c k <;> rfl
  have hd1 : d = d1 := by
    obtain rfl := Except.ok.inj h
    rcases hpre with ⟨rfl, rfl⟩ | ⟨rfl, rfl⟩
    · rw [hpreLin]
      have e1 : d1.get? ("SRF".toList ++ "_name".toList) = d0.get? ("SRF".toList ++ "_name".toList) := by
        rw [hget1, if_neg (by decide), if_neg]
        rw [isComponent_iff]
        rintro ⟨x, p, he, -⟩
        exact hplain _ (by simp) x p he
      have e2 := hotherId
      unfold linComb at e2 ⊢
      rw [e1]
      cases hv : d0.get? ("SRF".toList ++ "_name".toList) with
      | none => rfl
      | some w =>
        cases w with
        | choices l => rfl
        | val u =>
          cases u with
          | str n =>
            simp only
            rw [if_neg]
            rintro rfl
            obtain ⟨v, u, hv1, hv2, hv3⟩ := (hget _ _).1 hv
            obtain rfl := VProp.val.inj hv3
            rw [vEntry_plain c (hplain _ (by simp))] at hv2
            unfold Val at hv2
            rw [if_neg (by decide), if_neg (by decide)] at hv2
            cases v with
            | none => cases hv2
            | some s' =>
              rcases hv2 with ⟨y, -, hy⟩ | ⟨-, hy⟩
              · cases hy
              · obtain rfl := VVal.str.inj hy; exact hother hv1
          | none => rfl
          | float _ => rfl
          | int _ => rfl
          | floats _ => rfl
    · rw [hotherId, hpreLin]
  subst hd1
  -- the components
  have hcm : ∀ x p w, (ckey x p, w) ∈ compsOf c d0 ↔ c.upper x = true ∧ ∃ v, Visible f sec (ckey x p) v ∧ Val c p v w := by
    intro x p w
    rw [mem_compsOf, ← Dict.get?_iff_mem hkd, hget, isComponent_iff]
    constructor
    · rintro ⟨⟨v, u, h1, h2, h3⟩, x', p', he, hx⟩
      obtain rfl := VProp.val.inj h3
      obtain ⟨rfl, -⟩ : x = x' ∧ p = p' := by simpa [ckey] using he
      exact ⟨hx, v, h1, (vEntry_component c x p v _).1 h2⟩
    · rintro ⟨hx, v, h1, h2⟩
      exact ⟨⟨v, w, h1, (vEntry_component c x p v w).2 h2, rfl⟩, x, p, rfl, hx⟩
  have hval : ∀ x p v, Visible f sec (ckey x p) v → ∃ w, Val c p v w := by
    intro x p v hv
    obtain ⟨u, hu⟩ := hvis _ _ hv
    exact ⟨u, (vEntry_component c x p v u).1 hu⟩
  obtain ⟨i1, i2, i3⟩ := choices_spec (compsOf c d0) (compsOf_nodup c hkd)
    (by
      rintro ⟨k, w⟩ he
      obtain ⟨x, p, rfl, -⟩ := (isComponent_iff c k).1 ((mem_compsOf c d0 k w).1 he).2
      exact ⟨x, p, rfl⟩)
    (by
      intro x p w hw hsuf
      obtain ⟨-, v, hv, -⟩ := (hcm x p w).1 hw
      exact hfrac x p v hv hsuf)
  refine ⟨⟨choices.keys, choices.map Prod.snd, ?_, i1, ?_, ?_⟩, ?_, ?_⟩
  · rw [hget1, if_pos rfl]
  · intro x
    rw [i2]
    simp only [hcm]
    constructor
    · rintro ⟨p, w, hx, v, hv, -⟩; exact ⟨hx, p, v, hv⟩
    · rintro ⟨hx, p, v, hv⟩
      obtain ⟨w, hw⟩ := hval x p v hv
      exact ⟨p, w, hx, v, hv, hw⟩
  · unfold Dict.keys
    rw [List.forall₂_map_left_iff, List.forall₂_map_right_iff, List.forall₂_same]
    rintro ⟨x, fr, ps⟩ he
    have hgx : choices.get? x = some (fr, ps) := (Dict.get?_iff_mem i1 _ _).2 he
    obtain ⟨o1, o2, o3⟩ := i3 x fr ps hgx
    have hx : c.upper x = true := by
      obtain ⟨p, w, hw⟩ := (i2 x).1 (by rw [← Dict.get?_isSome, hgx]; rfl)
      exact ((hcm x p w).1 hw).1
    have hfk : "frac".toList = fracKey := rfl
    simp only [hfk]
    refine ⟨?_, ?_, ?_⟩
    · intro v hv
      obtain ⟨w, hw⟩ := hval x fracKey v hv
      rw [o2 w ((hcm _ _ _).2 ⟨hx, v, hv, hw⟩)]
      exact hw
    · intro hno
      exact o3 fun w hw => by
        obtain ⟨-, v, hv, -⟩ := (hcm _ _ _).1 hw
        exact hno v hv
    · intro p w
      rw [o1, hcm]
      constructor
      · rintro ⟨⟨-, h1⟩, h2⟩; exact ⟨h2, h1⟩
      · rintro ⟨h2, h1⟩; exact ⟨⟨hx, h1⟩, h2⟩
  · intro x p hx
    rw [hget1, if_neg, if_pos ((isComponent_iff c _).2 ⟨x, p, rfl, hx⟩)]
    intro he
    have e2 : (pre ++ "choices".toList)[1]? = some '_' := by rw [← he]; rfl
    rcases hpre with ⟨rfl, -⟩ | ⟨rfl, -⟩ <;> exact absurd e2 (by decide)
  · intro k w hk hkc
    rw [hget1, if_neg hkc, if_neg, hget]
    · constructor
      · rintro ⟨v, u, h1, h2, h3⟩
        obtain rfl := VProp.val.inj h3
        exact ⟨v, h1, (vEntry_plain c hk v _).1 h2⟩
      · rintro ⟨v, h1, h2⟩
        exact ⟨v, w, h1, (vEntry_plain c hk v w).2 h2, rfl⟩
    · rw [isComponent_iff]
      rintro ⟨x, p, he, -⟩
      exact hk x p he

/-- C83: without a linear combination all entries are kept. -/
theorem C83_single {f : File} (hs : f.Strict) (hd : (Dict.keys f.defaults).Nodup) {sec : Str} (hsec : sec ≠ "DEFAULT".toList)
    (h1 : ¬ Visible f sec "V_name".toList (some "LinCombV".toList))
    (h2 : ¬ Visible f sec "SRF_name".toList (some "LinCombSRF".toList))
    {d : Dict Str (VProp F)} (h : parseVSRF c f sec = .ok d) (k : Str) (hk : ∀ x p, k ≠ ckey x p) (w : VProp F) :
    d.get? k = some w ↔ ∃ v u, Visible f sec k v ∧ Val c k v u ∧ w = .val u := by
  obtain ⟨s, hg, h⟩ := bindOk h
  obtain ⟨d0, h0, h⟩ := bindOk h
  have hnd := visible_nodup hs hd hsec hg
  rw [linComb_id c hnd h0 "V".toList (.inl rfl) (fun hm => h1 ((visible_iff hs hsec hg _ _).1 hm)),
    linComb_id c hnd h0 "SRF".toList (.inr rfl) (fun hm => h2 ((visible_iff hs hsec hg _ _).1 hm))] at h
  obtain rfl := Except.ok.inj h
  rw [parseWith_iff hnd h0]
  constructor
  · rintro ⟨v, hv, he⟩
    obtain ⟨u, hu, he⟩ := bindOk he
    exact ⟨v, u, (visible_iff hs hsec hg _ _).1 hv, (vEntry_plain c hk v u).1 hu, (Except.ok.inj he).symm⟩
  · rintro ⟨v, u, hv, hu, rfl⟩
    exact ⟨v, (visible_iff hs hsec hg _ _).2 hv, by rw [(vEntry_plain c hk v u).2 hu]; rfl⟩

/-! ### examples -/

/-- A file with defaults, a defdict with all forms of entries and a linear combination of two volume-scattering functions. -/
def exFile2 : File := ⟨[("t".toList, some "[False, auxiliary]".toList)],
  [("defdict".toList, [("omega".toList, some "[True, 5, 3D, 1, 9, True]".toList), ("tau".toList, some "[False, 3]".toList)]),
   ("RT1_V".toList, [("V_name".toList, some "LinCombV".toList), ("A__frac".toList, some "2".toList),
     ("A__V_name".toList, some "HG".toList), ("A__ncoefs".toList, some "7".toList), ("B__V_name".toList, some "Rayleigh".toList)])]⟩

example : exFile2.Strict ∧ (Dict.keys exFile2.defaults).Nodup := ⟨by unfold File.Strict; decide +kernel, by decide +kernel⟩

example : parseDefdict exConv' exFile2 "defdict".toList = .ok [("omega".toList, ⟨true, some 5, some (some "3D".toList, 1, 9, true)⟩),
    ("tau".toList, ⟨false, some 3, none⟩), ("t".toList, ⟨false, none, none⟩)] := by decide +kernel

example : parseVSRF exConv' ⟨[], exFile2.sections⟩ "RT1_V".toList = .ok [("V_name".toList, .val (.str "LinCombV".toList)),
    ("Vchoices".toList, .choices [(.float 2, [("V_name".toList, .str "HG".toList), ("ncoefs".toList, .int 7)]),
      (.int 1, [("V_name".toList, .str "Rayleigh".toList)])])] := by decide +kernel

example : exConv'.float ("LinComb".toList ++ "V".toList) = none := by decide +kernel


end RT1.Config
