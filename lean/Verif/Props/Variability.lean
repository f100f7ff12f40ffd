import Verif.Model.FitSpec
import Verif.Lemmas.Config
import Verif.Lemmas.Dict
import Verif.Lemmas.Grouping

/-!
# C88 Definition of the temporal variability

Specification: a small grammar of the third entry of a definition (`None`, `"manual"`, `"index"`, an integer, an offset, an
offset or integer combined with `manual`), together with its meaning: the frequency and the source of the manual dynamics.
-/

namespace RT1.FitSpec
open General Grouping
open Config (Str strip splitChar)

/-- The source of the manual dynamics. -/
inductive Source
  | no
  | column
  | index
deriving DecidableEq

/-- An integer if the string is one, the offset otherwise. -/
def intOrOffset {τ : Type} (lib : Lib τ) (f : Str) : TimeScale :=
  match lib.toInt f with
  | some n => .int n
  | none => .offset f

/-- The documented definitions and their meaning.  Blanks around the parts are ignored. -/
inductive Means {τ : Type} (lib : Lib τ) : FreqDef → Option TimeScale → Source → Prop
  | const : Means lib .none none .no
  | manual : Means lib (.str manualStr) none .column
  | index : Means lib (.str indexStr) none .index
  | int (n : Int) : Means lib (.int n) (some (.int n)) .no
  | freq (s : Str) (h : '+' ∉ s) (hm : strip lib.ws s ≠ manualStr) (hi : s ≠ indexStr) :
      Means lib (.str s) (some (intOrOffset lib (strip lib.ws s))) .no
  | freqManual (a b : Str) (ha : '+' ∉ a) (hb : '+' ∉ b) (hm : strip lib.ws b = manualStr)
      (hf : strip lib.ws a ≠ manualStr) :
      Means lib (.str (a ++ '+' :: b)) (some (intOrOffset lib (strip lib.ws a))) .column
  | manualFreq (a b : Str) (ha : '+' ∉ a) (hb : '+' ∉ b) (hm : strip lib.ws a = manualStr)
      (hf : strip lib.ws b ≠ manualStr) :
      Means lib (.str (a ++ '+' :: b)) (some (intOrOffset lib (strip lib.ws b))) .column

/-- The documented behaviour of the library functions: `int(str(n)) == n`; digits, signs and letters are no blanks; `"manual"` is
neither an integer nor a datetime-offset. -/
structure LibOk {τ : Type} (lib : Lib τ) : Prop where
  int_str : ∀ n : Int, lib.toInt (strInt n) = some n
  digit : ∀ c : Char, c.isDigit = true → lib.ws c = false
  minus : lib.ws '-' = false
  letter_m : lib.ws 'm' = false
  letter_l : lib.ws 'l' = false
  manual_int : lib.toInt manualStr = none
  manual_bins : lib.bins manualStr = none

/-- The manual dynamics of a source. -/
def manualOf {τ : Type} [DecidableEq τ] (index : List τ) (col : Option (List Int)) : Source → Except PyErr (Option (List Int))
  | .no => .ok none
  | .index => .ok (some (indexDyn index))
  | .column => match col with
    | some c => .ok (some c)
    | none => .error .assertionError

/-! ### strings -/

theorem strNat_chars (n : Nat) : ∀ c ∈ strNat n, c.isDigit = true := by
  have h := (strNat_isDigits n).2
  rw [List.all_eq_true] at h
  exact h

theorem strInt_plus (n : Int) : '+' ∉ strInt n := by
  unfold strInt
  split
  · intro h
    rcases List.mem_cons.1 h with h | h
    · exact absurd h (by decide)
    · have := strNat_chars _ _ h
      exact absurd this (by decide)
  · intro h
    have := strNat_chars _ _ h
    exact absurd this (by decide)

theorem strInt_chars (n : Int) : ∀ c ∈ strInt n, c.isDigit = true ∨ c = '-' := by
  unfold strInt
  split
  · intro c h
    rcases List.mem_cons.1 h with h | h
    · exact Or.inr h
    · exact Or.inl (strNat_chars _ _ h)
  · intro c h
    exact Or.inl (strNat_chars _ _ h)

theorem strInt_strip {τ : Type} {lib : Lib τ} (hl : LibOk lib) (n : Int) : strip lib.ws (strInt n) = strInt n := by
  have h : ∀ c ∈ strInt n, lib.ws c = false := by
    intro c hc
    rcases strInt_chars n c hc with h | rfl
    · exact hl.digit c h
    · exact hl.minus
  apply Config.strip_id
  · intro c hc; exact h c (List.mem_of_mem_head? hc)
  · intro c hc; exact h c (List.mem_of_getLast? hc)

theorem manualStr_not_int (n : Int) : strInt n ≠ manualStr := by
  intro h
  have : 'm' ∈ strInt n := by rw [h]; simp [manualStr]
  rcases strInt_chars n 'm' this with h | h <;> exact absurd h (by decide)

theorem manualStr_strip {τ : Type} {lib : Lib τ} (hl : LibOk lib) : strip lib.ws manualStr = manualStr := by
  apply Config.strip_id
  · intro c hc
    simp only [manualStr, List.head?_cons, Option.mem_def, Option.some.injEq] at hc
    rw [← hc]; exact hl.letter_m
  · intro c hc
    simp [manualStr] at hc
    rw [← hc]; exact hl.letter_l

theorem manualStr_plus : '+' ∉ manualStr := by decide
theorem indexStr_plus : '+' ∉ indexStr := by decide

/-! ### one definition -/

/-- C88: a documented definition has the documented meaning, for both parts of the variability. -/
theorem C88_meaning {τ : Type} [DecidableEq τ] (lib : Lib τ) (hl : LibOk lib) (index : List τ) (col : Option (List Int))
    (d : FreqDef) (t : Option TimeScale) (m : Source) (h : Means lib d t m) :
    timescale lib d = .ok t ∧ manualDyn lib index col d = manualOf index col m := by
  cases h with
  | const => exact ⟨rfl, rfl⟩
  | manual =>
    refine ⟨rfl, ?_⟩
    unfold manualDyn
    rw [if_pos rfl]
    rfl
  | index => exact ⟨rfl, rfl⟩
  | int n =>
    have hp : freqParts lib (.int n) = [strInt n] := by
      simp only [freqParts, Config.splitChar_free (strInt_plus n), List.map_cons, List.map_nil, strInt_strip hl]
    have hmi := manualStr_not_int n
    constructor
    · simp [timescale, hp, hl.int_str, bind, Except.bind, pure, Except.pure]
    · simp only [manualDyn, hp, manualOf]
      rw [if_neg (by simp), if_neg (by simp), if_neg (by simp [hmi.symm])]
  | freq s h hm hi =>
    have hp : freqParts lib (.str s) = [strip lib.ws s] := by
      simp only [freqParts, Config.splitChar_free h, List.map_cons, List.map_nil]
    have hsm : s ≠ manualStr := by
      rintro rfl
      exact hm (manualStr_strip hl)
    constructor
    · simp only [timescale, hp]
      rw [if_neg (by simp [hsm, hi])]
      simp only [List.length_cons, List.length_nil, bind, Except.bind, pure, Except.pure, intOrOffset]
      cases h : lib.toInt (strip lib.ws s) <;> simp [h]
    · simp only [manualDyn, hp, manualOf]
      rw [if_neg (by simp [hsm]), if_neg (by simp [hi]), if_neg (by simp [hm.symm])]
  | freqManual a b ha hb hm hf =>
    have hp : freqParts lib (.str (a ++ '+' :: b)) = [strip lib.ws a, manualStr] := by
      simp only [freqParts, Config.splitChar_append ha, Config.splitChar_free hb, List.map_cons, List.map_nil, hm]
    have hpl : '+' ∈ a ++ '+' :: b := by simp
    have h1 : a ++ '+' :: b ≠ manualStr := fun e => manualStr_plus (e ▸ hpl)
    have h2 : a ++ '+' :: b ≠ indexStr := fun e => indexStr_plus (e ▸ hpl)
    constructor
    · simp only [timescale, hp]
      rw [if_neg (by simp [h1, h2])]
      have he : [strip lib.ws a, manualStr].erase manualStr = [strip lib.ws a] := by
        rw [List.erase_cons_tail (by simpa using hf), List.erase_cons_head]
      simp only [List.length_cons, List.length_nil, bind, Except.bind, pure, Except.pure, intOrOffset, he]
      cases h : lib.toInt (strip lib.ws a) <;> simp [h]
    · simp only [manualDyn, hp, manualOf]
      rw [if_neg (by simp [h1]), if_neg (by simp [h2]), if_pos (by simp)]
      cases col <;> rfl
  | manualFreq a b ha hb hm hf =>
    have hp : freqParts lib (.str (a ++ '+' :: b)) = [manualStr, strip lib.ws b] := by
      simp only [freqParts, Config.splitChar_append ha, Config.splitChar_free hb, List.map_cons, List.map_nil, hm]
    have hpl : '+' ∈ a ++ '+' :: b := by simp
    have h1 : a ++ '+' :: b ≠ manualStr := fun e => manualStr_plus (e ▸ hpl)
    have h2 : a ++ '+' :: b ≠ indexStr := fun e => indexStr_plus (e ▸ hpl)
    constructor
    · simp only [timescale, hp]
      rw [if_neg (by simp [h1, h2])]
      simp only [List.length_cons, List.length_nil, bind, Except.bind, pure, Except.pure, intOrOffset,
        List.erase_cons_head]
      cases h : lib.toInt (strip lib.ws b) <;> simp [h]
    · simp only [manualDyn, hp, manualOf]
      rw [if_neg (by simp [h1]), if_neg (by simp [h2]), if_pos (by simp)]
      cases col <;> rfl

/-- C88: every other definition is rejected: the definition itself raises an AssertionError, or its frequency is no valid
datetime-offset. -/
theorem C88_rejected {τ : Type} [DecidableEq τ] (lib : Lib τ) (hl : LibOk lib) (index : List τ) (d : FreqDef)
    (h : ¬ ∃ t m, Means lib d t m) :
    timescale lib d = .error .assertionError ∨
      ∃ t, timescale lib d = .ok (some t) ∧ freqDyn lib index t = .error .valueError := by
  cases d with
  | none => exact absurd ⟨_, _, Means.const⟩ h
  | int n => exact absurd ⟨_, _, Means.int n⟩ h
  | str s =>
    have h1 : s ≠ manualStr := by rintro rfl; exact h ⟨_, _, Means.manual⟩
    have h2 : s ≠ indexStr := by rintro rfl; exact h ⟨_, _, Means.index⟩
    obtain ⟨hj, hfree⟩ := Config.splitChar_spec '+' s
    have hne := Config.splitChar_ne_nil '+' s
    have hman : freqDyn lib index (.offset manualStr) = .error .valueError := by
      simp [freqDyn, hl.manual_bins]
    rw [timescale, if_neg (by simp [h1, h2])]
    rcases hsp : splitChar '+' s with _ | ⟨a, _ | ⟨b, _ | ⟨c, rest⟩⟩⟩
    · exact absurd hsp hne
    · -- no plus: the stripped string is `manual`
      rw [hsp] at hj hfree
      simp only [Config.join] at hj
      subst hj
      have ha := hfree a (by simp)
      have hm : strip lib.ws a = manualStr := by
        by_contra hm
        exact h ⟨_, _, Means.freq a ha hm h2⟩
      right
      refine ⟨.offset manualStr, ?_, hman⟩
      have hp : freqParts lib (.str a) = [manualStr] := by simp [freqParts, hsp, hm]
      simp [hp, hl.manual_int, bind, Except.bind, pure, Except.pure]
    · rw [hsp] at hj hfree
      simp only [Config.join] at hj
      subst hj
      have ha := hfree a (by simp)
      have hb := hfree b (by simp)
      have hp : freqParts lib (.str (a ++ '+' :: b)) = [strip lib.ws a, strip lib.ws b] := by simp [freqParts, hsp]
      by_cases hm1 : strip lib.ws a = manualStr
      · by_cases hm2 : strip lib.ws b = manualStr
        · right
          refine ⟨.offset manualStr, ?_, hman⟩
          simp [hp, hm1, hm2, hl.manual_int, bind, Except.bind, pure, Except.pure]
        · exact absurd ⟨_, _, Means.manualFreq a b ha hb hm1 hm2⟩ h
      · by_cases hm2 : strip lib.ws b = manualStr
        · exact absurd ⟨_, _, Means.freqManual a b ha hb hm2 hm1⟩ h
        · left
          have hmn : manualStr ∉ [strip lib.ws a, strip lib.ws b] := by
            simp only [List.mem_cons, List.not_mem_nil, or_false, not_or]
            exact ⟨fun e => hm1 e.symm, fun e => hm2 e.symm⟩
          simp only [hp]
          rw [if_neg (by simp), if_pos ⟨by simp, hmn⟩]
          rfl
    · left
      have hp : (freqParts lib (.str s)).length > 2 := by simp [freqParts, hsp]
      simp only [hp, if_true]
      rfl

/-! ### all parameters -/

/-- A loop that collects the results of a function that may fail or yield nothing. -/
theorem collect_spec {α β : Type} (f : α → Except PyErr (Option β)) (step : List β → α → Except PyErr (List β))
    (hstep : ∀ acc a, step acc a = (f a).map fun o => acc ++ o.toList) (l : List α) (acc r : List β) :
    l.foldlM step acc = .ok r ↔ ∃ os, List.Forall₂ (fun a o => f a = .ok o) l os ∧ r = acc ++ os.reduceOption := by
  induction l generalizing acc with
  | nil =>
    simp only [List.foldlM_nil, pure, Except.pure, Except.ok.injEq, List.forall₂_nil_left_iff, exists_eq_left]
    simp [eq_comm]
  | cons a l ih =>
    rw [List.foldlM_cons, hstep]
    cases hfa : f a with
    | error e =>
      simp only [Except.map, bind, Except.bind, reduceCtorEq, false_iff, not_exists, not_and]
      intro os hos
      cases hos with
      | cons h1 _ => rw [hfa] at h1; cases h1
    | ok o =>
      simp only [Except.map, bind, Except.bind]
      rw [ih]
      constructor
      · rintro ⟨os, h1, rfl⟩
        refine ⟨o :: os, .cons hfa h1, ?_⟩
        cases o <;> simp
      · rintro ⟨os, h1, rfl⟩
        cases h1 with
        | cons h2 h3 =>
          rw [hfa] at h2
          cases h2
          refine ⟨_, h3, ?_⟩
          cases o <;> simp

theorem mem_reduceOption_forall₂ {α β : Type} {R : α → Option β → Prop} {l : List α} {os : List (Option β)}
    (h : List.Forall₂ R l os) (b : β) : b ∈ os.reduceOption ↔ ∃ a ∈ l, R a (some b) ∧ some b ∈ os ∧
      ∃ i : Nat, l[i]? = some a ∧ os[i]? = some (some b) := by
  rw [List.reduceOption_mem_iff]
  constructor
  · intro hb
    obtain ⟨i, hi, e⟩ := List.getElem_of_mem hb
    have hl : i < l.length := by rw [h.length_eq]; exact hi
    refine ⟨l[i], List.getElem_mem _, ?_, hb, i, List.getElem?_eq_getElem _, by rw [List.getElem?_eq_getElem hi, e]⟩
    have := List.Forall₂.get h hl hi
    simpa [e] using this
  · rintro ⟨_, _, _, hb, _⟩; exact hb

/-- The entries collected from the fitted parameters. -/
theorem collect_defs {β : Type} (g : ParamDef → Except PyErr (Option β)) (defs : List (String × ParamDef))
    (hn : (defs.map Prod.fst).Nodup) (r : List (String × β))
    (h : collectFitted g defs = .ok r) :
    (∀ k p, (k, p) ∈ defs → p.fit = true → ∃ o, g p = .ok o ∧ ∀ t, (k, t) ∈ r ↔ o = some t) ∧
    (∀ k t, (k, t) ∈ r → ∃ p, (k, p) ∈ defs ∧ p.fit = true ∧ g p = .ok (some t)) ∧ (r.map Prod.fst).Nodup := by
  unfold collectFitted at h
  rw [collect_spec (fun kd : String × ParamDef => if kd.2.fit then (g kd.2).map (Option.map fun t => (kd.1, t)) else .ok none)
    _ (by
      intro acc kd
      by_cases hf : kd.2.fit = true
      · simp only [hf, if_true, bind, Except.bind]
        cases g kd.2 with
        | error e => rfl
        | ok o => cases o <;> simp [Except.map, pure, Except.pure]
      · simp [hf, pure, Except.pure, Except.map])] at h
  obtain ⟨os, hos, rfl⟩ := h
  rw [List.nil_append]
  -- membership
  have hB : ∀ k t, (k, t) ∈ os.reduceOption → ∃ p, (k, p) ∈ defs ∧ p.fit = true ∧ g p = .ok (some t) := by
    intro k t hkt
    obtain ⟨⟨k', p⟩, hmem, hR, _⟩ := (mem_reduceOption_forall₂ hos (k, t)).1 hkt
    by_cases hf : p.fit = true
    · simp only [hf, if_true] at hR
      cases hg : g p with
      | error e => rw [hg] at hR; cases hR
      | ok o =>
        rw [hg] at hR
        cases o with
        | none => simp [Except.map] at hR
        | some t' =>
          simp only [Except.map, Option.map_some, Except.ok.injEq, Option.some.injEq, Prod.mk.injEq] at hR
          obtain ⟨rfl, rfl⟩ := hR
          exact ⟨p, hmem, hf, hg⟩
    · simp [hf] at hR
  refine ⟨?_, hB, ?_⟩
  · intro k p hkp hf
    obtain ⟨i, hi, e⟩ := List.getElem_of_mem hkp
    have hi' : i < os.length := by rw [← hos.length_eq]; exact hi
    have hR := List.Forall₂.get hos hi hi'
    simp only [List.get_eq_getElem, e, hf, if_true] at hR
    cases hg : g p with
    | error e => rw [hg] at hR; cases hR
    | ok o =>
      refine ⟨o, rfl, ?_⟩
      intro t
      constructor
      · intro hkt
        obtain ⟨p', hp', _, hg'⟩ := hB k t hkt
        have : p' = p := by
          have h1 := (Dict.get?_iff_mem (d := defs) hn k p').2 hp'
          have h2 := (Dict.get?_iff_mem (d := defs) hn k p).2 hkp
          rw [h1] at h2
          exact Option.some.inj h2
        rw [this, hg] at hg'
        exact Except.ok.inj hg'
      · rintro rfl
        rw [hg] at hR
        simp only [Except.map, Option.map_some, Except.ok.injEq] at hR
        rw [List.reduceOption_mem_iff, hR]
        exact List.getElem_mem _
  · -- the keys are a sublist of the keys of the definitions
    have hsub : List.Sublist (os.reduceOption.map Prod.fst) (defs.map Prod.fst) := by
      clear hB hn
      induction hos with
      | nil => simp
      | cons h1 _ ih =>
        rename_i a o l os' _
        cases o with
        | none =>
          rw [List.reduceOption_cons_of_none]
          exact ih.trans (by simp)
        | some x =>
          rw [List.reduceOption_cons_of_some, List.map_cons, List.map_cons]
          have : x.1 = a.1 := by
            by_cases hf : a.2.fit = true
            · simp only [hf, if_true] at h1
              cases hg : g a.2 with
              | error e => rw [hg] at h1; cases h1
              | ok o =>
                rw [hg] at h1
                cases o with
                | none => simp [Except.map] at h1
                | some t => simp [Except.map] at h1; rw [← h1]
            · simp [hf] at h1
          rw [this]
          exact ih.cons_cons _
    exact hn.sublist hsub

theorem foldl_set_keys {ν : Type} (ks : List String) (g : ν) (d : Dict String ν) (h : ∀ k ∈ ks, k ∈ d.keys) :
    (ks.foldl (fun d k => Dict.set d k g) d).keys = d.keys := by
  induction ks generalizing d with
  | nil => rfl
  | cons k ks ih =>
    rw [List.foldl_cons]
    have e : (Dict.set d k g).keys = d.keys := by rw [Dict.set_keys, if_pos (h k (by simp))]
    rw [ih _ (by intro k' hk'; rw [e]; exact h k' (by simp [hk'])), e]

theorem foldl_set_get {ν : Type} (ks : List String) (g : ν) (d : Dict String ν) (k : String) :
    Dict.get? (ks.foldl (fun d k => Dict.set d k g) d) k = if k ∈ ks then some g else Dict.get? d k := by
  induction ks generalizing d with
  | nil => simp
  | cons k' ks ih =>
    rw [List.foldl_cons, ih, Dict.get?_set]
    by_cases h1 : k ∈ ks
    · simp [h1]
    · by_cases h2 : k = k' <;> simp [h1, h2]

/-- The loop over the frequencies. -/
theorem freq_loop {τ : Type} [DecidableEq τ] (lib : Lib τ) (index : List τ) (T : String → Option TimeScale)
    (L : List (TimeScale × List String)) (hT : ∀ fk ∈ L, ∀ k ∈ fk.2, T k = some fk.1) (d d' : Dict String (List Int))
    (hk : ∀ fk ∈ L, ∀ k ∈ fk.2, k ∈ d.keys)
    (h : L.foldlM (fun (d : Dict String (List Int)) fk => do
      let g ← freqDyn lib index fk.1
      return fk.2.foldl (fun d k => Dict.set d k g) d) d = .ok d') :
    d'.keys = d.keys ∧ (∀ k, (∀ fk ∈ L, k ∉ fk.2) → Dict.get? d' k = Dict.get? d k) ∧
      (∀ k t, T k = some t → (∃ fk ∈ L, k ∈ fk.2) → ∃ g, freqDyn lib index t = .ok g ∧ Dict.get? d' k = some g) := by
  induction L generalizing d with
  | nil =>
    simp only [List.foldlM_nil, pure, Except.pure, Except.ok.injEq] at h
    subst h
    refine ⟨rfl, fun _ _ => rfl, ?_⟩
    rintro k t _ ⟨fk, hfk, _⟩
    simp at hfk
  | cons fk L ih =>
    rw [List.foldlM_cons] at h
    cases hg : freqDyn lib index fk.1 with
    | error e => simp [hg, bind, Except.bind] at h
    | ok g =>
      simp only [hg, bind, Except.bind, pure, Except.pure] at h
      have hkeys := foldl_set_keys fk.2 g d (hk fk (by simp))
      obtain ⟨i1, i2, i3⟩ := ih (fun fk' hfk' => hT fk' (by simp [hfk'])) _
        (by intro fk' hfk' k hk'; rw [hkeys]; exact hk fk' (by simp [hfk']) k hk') h
      refine ⟨by rw [i1, hkeys], ?_, ?_⟩
      · intro k hkn
        rw [i2 k (fun fk' hfk' => hkn fk' (by simp [hfk'])), foldl_set_get, if_neg (hkn fk (by simp))]
      · intro k t ht hex
        by_cases hin : ∃ fk' ∈ L, k ∈ fk'.2
        · exact i3 k t ht hin
        · push Not at hin
          obtain ⟨fk', hfk', hk'⟩ := hex
          rcases List.mem_cons.1 hfk' with rfl | hfk'
          · have := hT fk' (by simp) k hk'
            rw [ht, Option.some.injEq] at this
            subst this
            exact ⟨g, hg, by rw [i2 k hin, foldl_set_get, if_pos hk']⟩
          · exact absurd hk' (hin fk' hfk')

/-- The loop over the manual dynamics. -/
theorem manual_loop (L : List (String × List Int)) (hn : (L.map Prod.fst).Nodup) (d d' : Dict String (List Int))
    (h : L.foldlM (fun (d : Dict String (List Int)) km => do
      let base ← Dict.getItem d km.1
      return Dict.set d km.1 (← superimpose base km.2)) d = .ok d') :
    d'.keys = d.keys ∧ (∀ k, k ∉ L.map Prod.fst → Dict.get? d' k = Dict.get? d k) ∧
      (∀ k man, (k, man) ∈ L → ∃ base r, Dict.get? d k = some base ∧ superimpose base man = .ok r ∧
        Dict.get? d' k = some r) := by
  induction L generalizing d with
  | nil =>
    simp only [List.foldlM_nil, pure, Except.pure, Except.ok.injEq] at h
    subst h
    exact ⟨rfl, fun _ _ => rfl, fun _ _ h => by simp at h⟩
  | cons km L ih =>
    rw [List.map_cons, List.nodup_cons] at hn
    rw [List.foldlM_cons] at h
    cases hb : Dict.get? d km.1 with
    | none => simp [Dict.getItem, hb, bind, Except.bind] at h
    | some base =>
      cases hs : superimpose base km.2 with
      | error e => simp [Dict.getItem, hb, hs, bind, Except.bind] at h
      | ok r =>
        simp only [Dict.getItem, hb, hs, bind, Except.bind, pure, Except.pure] at h
        obtain ⟨i1, i2, i3⟩ := ih hn.2 _ h
        have hmem : km.1 ∈ d.keys := by rw [← Dict.get?_isSome, hb]; rfl
        refine ⟨?_, ?_, ?_⟩
        · rw [i1, Dict.set_keys, if_pos hmem]
        · intro k hk
          rw [List.map_cons, List.mem_cons, not_or] at hk
          rw [i2 k hk.2, Dict.get?_set, if_neg hk.1]
        · intro k man hk
          rcases List.mem_cons.1 hk with e | hk
          · subst e
            exact ⟨base, r, hb, hs, by rw [i2 _ hn.1, Dict.get?_set, if_pos rfl]⟩
          · have hne : k ≠ km.1 := by
              rintro rfl
              exact hn.1 (List.mem_map.2 ⟨_, hk, rfl⟩)
            obtain ⟨b', r', h1, h2, h3⟩ := i3 k man hk
            rw [Dict.get?_set, if_neg hne] at h1
            exact ⟨b', r', h1, h2, h3⟩

/-- The frequency that belongs to an entry of `_timescaledict`. -/
inductive FreqOf {τ : Type} (lib : Lib τ) : Option TimeScale → Freq τ → Prop
  | const : FreqOf lib none .const
  | int (n : Int) : FreqOf lib (some (.int n)) (.int n)
  | offset (s : Str) (b : τ → Int) (h : lib.bins s = some b) : FreqOf lib (some (.offset s)) (.offset b)

theorem FreqOf.unique {τ : Type} {lib : Lib τ} {t : Option TimeScale} {f f' : Freq τ} (h : FreqOf lib t f)
    (h' : FreqOf lib t f') : f = f' := by
  cases h with
  | const => cases h'; rfl
  | int n => cases h'; rfl
  | offset s b hb =>
    cases h' with
    | offset _ b' hb' => rw [hb, Option.some.injEq] at hb'; rw [hb']

/-- The dynamics of the frequencies. -/
theorem freqStage_spec {τ : Type} [DecidableEq τ] (lib : Lib τ) (index : List τ)
    (defs : List (String × ParamDef)) (hn : (defs.map Prod.fst).Nodup) (d1 : Dict String (List Int))
    (h : freqStage lib index defs = .ok d1) :
    d1.keys = (defs.filter fun kd => kd.2.fit).map Prod.fst ∧
    ∀ k p, (k, p) ∈ defs → p.fit = true → ∃ ot freq base, timescale lib p.freq = .ok ot ∧ FreqOf lib ot freq ∧
      Dict.get? d1 k = some base ∧
      (∀ mo, paramDyn index freq mo = (match mo with | none => .ok base | some x => superimpose base x)) ∧
      (∀ t, ot = some t → freqDyn lib index t = .ok base) := by
  unfold freqStage at h
  cases hts : timescaleDict lib defs with
  | error e => simp [hts, bind, Except.bind] at h
  | ok ts =>
  rw [hts] at h
  replace hd1 := h
  simp only [bind, Except.bind] at hd1
  obtain ⟨tA, tB, tN⟩ := collect_defs (fun p => timescale lib p.freq) defs hn ts hts
  set fk := (defs.filter fun kd => kd.2.fit).map Prod.fst with hfk
  have hfkn : fk.Nodup := hn.sublist (List.filter_sublist.map _)
  have hinit : ∀ k, Dict.get? (Dict.ofList (fk.map fun k => (k, List.replicate index.length (1 : Int)))) k =
      if k ∈ fk then some (List.replicate index.length 1) else none := by
    intro k
    have hnd : ((fk.map fun k => (k, List.replicate index.length (1 : Int))).map Prod.fst).Nodup := by
      rw [List.map_map]; simpa [Function.comp_def] using hfkn
    by_cases hk : k ∈ fk
    · rw [if_pos hk, Dict.get?_ofList hnd]
      exact List.mem_map.2 ⟨k, hk, rfl⟩
    · rw [if_neg hk, Dict.get?_eq_none]
      unfold Dict.ofList
      rw [Dict.mem_keys_update]
      simpa [Dict.keys, Function.comp_def] using hk
  have hkeysinit : (Dict.ofList (fk.map fun k => (k, List.replicate index.length (1 : Int)))).keys = fk := by
    clear_value fk
    have key : ∀ (l : List String) (d0 : Dict String (List Int)), (d0.keys ++ l).Nodup →
        (Dict.update d0 (l.map fun k => (k, List.replicate index.length (1 : Int)))).keys = d0.keys ++ l := by
      intro l
      induction l with
      | nil => intro d0 _; simp [Dict.update]
      | cons a l ih =>
        intro d0 h0
        rw [List.map_cons, Dict.update_cons]
        have ha : a ∉ d0.keys := by
          intro ha
          rw [List.nodup_append] at h0
          exact h0.2.2 a ha a (by simp) rfl
        have e : (Dict.set d0 a (List.replicate index.length (1 : Int))).keys = d0.keys ++ [a] := by
          rw [Dict.set_keys, if_neg ha]
        rw [ih _ (by rw [e]; simpa using h0), e]
        simp
    have := key fk [] (by simpa [Dict.keys] using hfkn)
    simpa [Dict.ofList, Dict.keys] using this
  have hmemfk : ∀ k p, (k, p) ∈ defs → p.fit = true → k ∈ fk := by
    intro k p hkp hf
    exact List.mem_map.2 ⟨(k, p), List.mem_filter.2 ⟨hkp, hf⟩, rfl⟩
  have hgrp := groupby_eq ts Prod.snd Prod.fst
  have hmemgrp : ∀ f ∈ groupbyUnsorted ts Prod.snd Prod.fst, ∀ k ∈ f.2, (k, f.1) ∈ ts := by
    intro f hf k hk
    rw [hgrp] at hf
    obtain ⟨t, _, rfl⟩ := List.mem_map.1 hf
    obtain ⟨⟨k', t'⟩, h1, rfl⟩ := List.mem_map.1 hk
    rw [List.mem_filter, decide_eq_true_eq] at h1
    rw [← h1.2]
    exact h1.1
  have hts_grp : ∀ k t, (k, t) ∈ ts → ∃ f ∈ groupbyUnsorted ts Prod.snd Prod.fst, k ∈ f.2 := by
    intro k t hkt
    rw [hgrp]
    refine ⟨_, List.mem_map.2 ⟨t, (mem_firsts _ _).2 (List.mem_map.2 ⟨_, hkt, rfl⟩), rfl⟩, ?_⟩
    exact List.mem_map.2 ⟨(k, t), List.mem_filter.2 ⟨hkt, by simp⟩, rfl⟩
  obtain ⟨f1, f2, f3⟩ := freq_loop lib index (fun k => Dict.get? ts k) _ (by
      intro f hf k hk
      exact (Dict.get?_iff_mem (d := ts) tN k f.1).2 (hmemgrp f hf k hk)) _ d1 (by
      intro f hf k hk
      obtain ⟨p, hp, hfit, _⟩ := tB k f.1 (hmemgrp f hf k hk)
      rw [hkeysinit]
      exact hmemfk k p hp hfit) hd1
  refine ⟨by rw [f1, hkeysinit], ?_⟩
  intro k p hkp hfit
  obtain ⟨ot, hot, ht⟩ := tA k p hkp hfit
  -- the frequency
  have hbase : ∃ freq base, FreqOf lib ot freq ∧ Dict.get? d1 k = some base ∧
      (∀ mo, paramDyn index freq mo = (match mo with | none => .ok base | some x => superimpose base x)) ∧
      (∀ t, ot = some t → freqDyn lib index t = .ok base) := by
    cases ot with
    | none =>
      refine ⟨.const, List.replicate index.length 1, .const, ?_, ?_, by simp⟩
      · rw [f2 k, hinit, if_pos (hmemfk k p hkp hfit)]
        intro f hf hk
        have := (ht f.1).1 (hmemgrp f hf k hk)
        cases this
      · intro mo; cases mo <;> rfl
    | some t =>
      have hkt := (ht t).2 rfl
      obtain ⟨g, hg, hdg⟩ := f3 k t ((Dict.get?_iff_mem (d := ts) tN k t).2 hkt) (hts_grp k t hkt)
      cases t with
      | int n =>
        refine ⟨.int n, g, .int n, hdg, ?_, by rintro _ ⟨⟩; exact hg⟩
        intro mo
        have hg' : intDyn index n = .ok g := hg
        cases mo <;> simp [paramDyn, hg', bind, Except.bind, pure, Except.pure]
      | offset s =>
        cases hb : lib.bins s with
        | none => simp [freqDyn, hb] at hg
        | some b =>
          refine ⟨.offset b, g, .offset s b hb, hdg, ?_, by rintro _ ⟨⟩; exact hg⟩
          simp only [freqDyn, hb, Except.ok.injEq] at hg
          intro mo
          cases mo <;> simp [paramDyn, hg, bind, Except.bind, pure, Except.pure]
  obtain ⟨freq, base, hF, hd1k, hpd, hfd⟩ := hbase
  exact ⟨ot, freq, base, hot, hF, hd1k, hpd, hfd⟩

/-- C88: if the dynamics of the parameters can be evaluated, there is exactly one entry for each fitted parameter (in the
order of the definitions), each of them has a documented definition, and its dynamics are those of this definition
alone. -/
theorem C88_parameters {τ : Type} [DecidableEq τ] (lib : Lib τ) (hl : LibOk lib) (index : List τ)
    (defs : List (String × ParamDef)) (hn : (defs.map Prod.fst).Nodup) (d : Dict String (List Int))
    (h : paramDynDict lib index defs = .ok d) :
    d.keys = (defs.filter fun kd => kd.2.fit).map Prod.fst ∧
    ∀ k p, (k, p) ∈ defs → p.fit = true → ∃ t m freq man r, Means lib p.freq t m ∧ FreqOf lib t freq ∧
      manualOf index p.col m = .ok man ∧ paramDyn index freq man = .ok r ∧ Dict.get? d k = some r := by
  unfold paramDynDict at h
  cases hd1 : freqStage lib index defs with
  | error e => simp [hd1, bind, Except.bind] at h
  | ok d1 =>
  rw [hd1] at h
  simp only [bind, Except.bind] at h
  split at h
  · cases h
  rename_i man hman
  obtain ⟨mA, mB, mN⟩ := collect_defs (fun p => manualDyn lib index p.col p.freq) defs hn man hman
  obtain ⟨f1, f2⟩ := freqStage_spec lib index defs hn d1 hd1
  obtain ⟨m1, m2, m3⟩ := manual_loop man mN d1 d h
  refine ⟨by rw [m1, f1], ?_⟩
  intro k p hkp hfit
  obtain ⟨om, hom, hm⟩ := mA k p hkp hfit
  obtain ⟨ot, freq, base, hot, hF, hd1k, hpd, hfd⟩ := f2 k p hkp hfit
  have hmeans : ∃ t m, Means lib p.freq t m := by
    by_contra hno
    rcases C88_rejected lib hl index p.freq hno with e | ⟨t, e1, e2⟩
    · rw [hot] at e; cases e
    · rw [hot, Except.ok.injEq] at e1
      rw [hfd t e1] at e2
      cases e2
  obtain ⟨t, m, hM⟩ := hmeans
  obtain ⟨q1, q2⟩ := C88_meaning lib hl index p.col p.freq t m hM
  rw [hot, Except.ok.injEq] at q1
  subst q1
  rw [hom] at q2
  cases om with
  | none =>
    refine ⟨ot, m, freq, none, base, hM, hF, q2.symm, hpd none, ?_⟩
    rw [m2 k, hd1k]
    intro hk
    obtain ⟨⟨k', x⟩, h1, rfl⟩ := List.mem_map.1 hk
    have := (hm x).1 h1
    cases this
  | some x =>
    obtain ⟨base', r, h1, h2, h3⟩ := m3 k x ((hm x).2 rfl)
    rw [hd1k, Option.some.injEq] at h1
    subst h1
    exact ⟨ot, m, freq, some x, r, hM, hF, q2.symm, by rw [hpd]; exact h2, h3⟩

theorem foldlM_ok {α β : Type} (step : β → α → Except PyErr β) (l : List α) (acc : β)
    (h : ∀ acc, ∀ a ∈ l, ∃ r, step acc a = .ok r) : ∃ r, l.foldlM step acc = .ok r := by
  induction l generalizing acc with
  | nil => exact ⟨acc, rfl⟩
  | cons a l ih =>
    obtain ⟨r, hr⟩ := h acc a (by simp)
    rw [List.foldlM_cons, hr]
    exact ih r fun acc a ha => h acc a (by simp [ha])

theorem collectFitted_ok {β : Type} (g : ParamDef → Except PyErr (Option β)) (defs : List (String × ParamDef))
    (h : ∀ k p, (k, p) ∈ defs → p.fit = true → ∃ o, g p = .ok o) : ∃ r, collectFitted g defs = .ok r := by
  apply foldlM_ok
  rintro acc ⟨k, p⟩ hkp
  by_cases hf : p.fit = true
  · obtain ⟨o, ho⟩ := h k p hkp hf
    simp only [hf, if_true, ho, bind, Except.bind]
    cases o <;> exact ⟨_, rfl⟩
  · simp only [hf]
    exact ⟨_, rfl⟩

theorem manual_loop_ok (L : List (String × List Int)) (hn : (L.map Prod.fst).Nodup) (d : Dict String (List Int))
    (h : ∀ k man, (k, man) ∈ L → ∃ base r, Dict.get? d k = some base ∧ superimpose base man = .ok r) :
    ∃ d', L.foldlM (fun (d : Dict String (List Int)) km => do
      let base ← Dict.getItem d km.1
      return Dict.set d km.1 (← superimpose base km.2)) d = .ok d' := by
  induction L generalizing d with
  | nil => exact ⟨d, rfl⟩
  | cons km L ih =>
    rw [List.map_cons, List.nodup_cons] at hn
    obtain ⟨base, r, hb, hr⟩ := h km.1 km.2 (by simp)
    rw [List.foldlM_cons]
    simp only [Dict.getItem, hb, hr, bind, Except.bind, pure, Except.pure]
    apply ih hn.2
    intro k man hk
    have hne : k ≠ km.1 := by
      rintro rfl
      exact hn.1 (List.mem_map.2 ⟨_, hk, rfl⟩)
    rw [Dict.get?_set, if_neg hne]
    exact h k man (by simp [hk])

/-- C88: the dynamics can be evaluated if every fitted parameter has a documented definition with a valid frequency and the
required column, and its own dynamics can be evaluated. -/
theorem C88_evaluates {τ : Type} [DecidableEq τ] (lib : Lib τ) (hl : LibOk lib) (index : List τ)
    (defs : List (String × ParamDef)) (hn : (defs.map Prod.fst).Nodup)
    (h : ∀ k p, (k, p) ∈ defs → p.fit = true → ∃ t m freq man r, Means lib p.freq t m ∧ FreqOf lib t freq ∧
      manualOf index p.col m = .ok man ∧ paramDyn index freq man = .ok r) :
    ∃ d, paramDynDict lib index defs = .ok d := by
  obtain ⟨ts, hts⟩ := collectFitted_ok (fun p => timescale lib p.freq) defs (by
    intro k p hkp hf
    obtain ⟨t, m, _, _, _, hM, _⟩ := h k p hkp hf
    exact ⟨t, (C88_meaning lib hl index p.col p.freq t m hM).1⟩)
  obtain ⟨man, hman⟩ := collectFitted_ok (fun p => manualDyn lib index p.col p.freq) defs (by
    intro k p hkp hf
    obtain ⟨t, m, _, mm, _, hM, _, h3, _⟩ := h k p hkp hf
    exact ⟨mm, by rw [(C88_meaning lib hl index p.col p.freq t m hM).2, h3]⟩)
  obtain ⟨tA, tB, tN⟩ := collect_defs _ defs hn ts hts
  obtain ⟨mA, mB, mN⟩ := collect_defs _ defs hn man hman
  have hgrp := groupby_eq ts Prod.snd Prod.fst
  -- the frequency of a parameter can be evaluated
  have hfreq : ∀ k p t, (k, p) ∈ defs → p.fit = true → timescale lib p.freq = .ok (some t) →
      ∃ g, freqDyn lib index t = .ok g := by
    intro k p t hkp hf ht
    obtain ⟨t', m, freq, mo, r, hM, hF, h3, h4⟩ := h k p hkp hf
    rw [(C88_meaning lib hl index p.col p.freq t' m hM).1, Except.ok.injEq] at ht
    subst ht
    cases hF with
    | int n =>
      cases hg : intDyn index n with
      | ok g => exact ⟨g, hg⟩
      | error e => simp [paramDyn, hg, bind, Except.bind] at h4
    | offset s b hb => exact ⟨offsetDyn index b, by simp [freqDyn, hb]⟩
  have hd1 : ∃ d1, freqStage lib index defs = .ok d1 := by
    unfold freqStage
    rw [show timescaleDict lib defs = .ok ts from hts]
    simp only [bind, Except.bind]
    apply foldlM_ok
    intro acc fk hfk
    rw [hgrp] at hfk
    obtain ⟨t, ht, rfl⟩ := List.mem_map.1 hfk
    rw [mem_firsts] at ht
    obtain ⟨⟨k, t'⟩, hkt, rfl⟩ := List.mem_map.1 ht
    obtain ⟨p, hp, hf, hto⟩ := tB k t' hkt
    obtain ⟨g, hg⟩ := hfreq k p t' hp hf hto
    simp only [hg, pure, Except.pure]
    exact ⟨_, rfl⟩
  obtain ⟨d1, hd1⟩ := hd1
  obtain ⟨_, f2⟩ := freqStage_spec lib index defs hn d1 hd1
  unfold paramDynDict
  rw [hd1]
  simp only [bind, Except.bind]
  rw [show manualDict lib index defs = .ok man from hman]
  simp only
  apply manual_loop_ok man mN d1
  intro k x hkx
  obtain ⟨p, hp, hf, hmd⟩ := mB k x hkx
  obtain ⟨t, m, freq, mo, r, hM, hF, h3, h4⟩ := h k p hp hf
  obtain ⟨ot, freq', base, hot, hF', hd1k, hpd, _⟩ := f2 k p hp hf
  obtain ⟨q1, q2⟩ := C88_meaning lib hl index p.col p.freq t m hM
  rw [hot, Except.ok.injEq] at q1
  subst q1
  have := hF.unique hF'
  subst this
  rw [hmd, h3, Except.ok.injEq] at q2
  subst q2
  rw [hpd] at h4
  exact ⟨base, r, hd1k, h4⟩

/-- A simple model of the library functions: blanks, integers of digits, `"D"` is a valid offset. -/
def exampleLib : Lib Nat where
  toInt s := (pyInt s).toOption
  ws c := c = ' '
  bins s := if s = ['D'] then some fun t => (t / 24 : Nat) else none

/-- `" manual + D"` is the offset `D` with manual dynamics, `"3"` an integer. -/
example : Means exampleLib (.str [' ', 'm', 'a', 'n', 'u', 'a', 'l', ' ', '+', ' ', 'D']) (some (.offset ['D'])) .column ∧
    Means exampleLib (.str ['3']) (some (.int 3)) .no ∧
    timescale exampleLib (.str ['D', '+', '3']) = .error .assertionError := by
  refine ⟨?_, ?_, by decide⟩
  · exact Means.manualFreq [' ', 'm', 'a', 'n', 'u', 'a', 'l', ' '] [' ', 'D'] (by decide) (by decide) (by decide) (by decide)
  · exact Means.freq ['3'] (by decide) (by decide) (by decide)

/-- Four parameters, three of them fitted. -/
example : paramDynDict exampleLib [1, 2, 30, 31]
    [("tau", ⟨true, .str ['D'], none⟩), ("omega", ⟨false, .none, none⟩), ("N", ⟨true, .none, none⟩),
      ("t", ⟨true, .str ['D', '+', 'm', 'a', 'n', 'u', 'a', 'l'], some [0, 1, 0, 0]⟩)] =
    .ok [("tau", [0, 0, 1, 1]), ("N", [1, 1, 1, 1]), ("t", [0, 1, 10, 10])] := by
  decide +kernel

theorem exampleLib_ok : LibOk exampleLib where
  int_str n := by
    unfold exampleLib
    simp only
    unfold strInt
    split
    · rename_i h
      have hd := strNat_isDigits n.natAbs
      have : pyInt ('-' :: strNat n.natAbs) = .ok n := by
        have hp : parseDigits (strNat n.natAbs) = some (val (strNat n.natAbs)) := by
          unfold parseDigits
          exact if_pos hd
        rw [val_strNat] at hp
        simp only [pyInt, hp]
        congr 1
        omega
      rw [this]; rfl
    · rename_i h
      have hd := strNat_isDigits n.natAbs
      rw [pyInt_digits _ hd, val_strNat]
      simp only [Except.toOption]
      congr 1
      omega
  digit c h := by
    unfold exampleLib
    simp only [decide_eq_false_iff_not]
    rintro rfl
    exact absurd h (by decide)
  minus := by decide
  letter_m := by decide
  letter_l := by decide
  manual_int := by decide
  manual_bins := by decide

end RT1.FitSpec
