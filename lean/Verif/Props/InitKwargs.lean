import Verif.Model.Process
import Verif.Lemmas.Dict

/-!
# Properties of `override_config` and of the application of `init_kwargs` (C59, C85)
-/

namespace RT1
namespace Process
open Dict

/-! ## Specification -/

/-- The value that is to be used for `key` in `section`. -/
def value (kw : InitKwargs) (s k : String) : Option String :=
  match kw.get? s with
  | some (.dict d) => d.get? k
  | _ => none

/-- The value given in a call: `section=dict(key=val, …)`, the last one counts (for the keys that are converted
to the same string). -/
def given (kwargs : List (String × List (String × String))) (s k : String) : Option String :=
  (kwargs.find? fun e => decide (e.1 = s)).bind fun e =>
    (e.2.reverse.find? fun x => decide (x.1 = k)).map Prod.snd

/-- What the sequence of calls asks for. -/
def asked (old : String → String → Option String) (call : Bool × List (String × List (String × String))) :
    String → String → Option String :=
  fun s k => (given call.2 s k).or (if call.1 then none else old s k)

/-- The sections named in a call. -/
def sectionsOf (kwargs : List (String × List (String × String))) : List String := kwargs.map Prod.fst

/-- A sequence of calls; a call that raises leaves `init_kwargs` as they are. -/
def runCalls (sections : List String) (kw : InitKwargs) (calls : List (Bool × List (String × List (String × String)))) :
    InitKwargs :=
  calls.foldl (fun kw c => match overrideConfig sections kw c.1 c.2 with
    | .ok kw' => kw'
    | .error _ => kw) kw

/-! ## Lemmas -/

theorem givenKw_ok {sections : List String} : ∀ {kwargs : List (String × List (String × String))}
    {g : Dict String (Dict String String)},
    givenKw sections kwargs = .ok g ↔
      (∀ s ∈ sectionsOf kwargs, s ∈ sections) ∧ g = kwargs.map fun e => (e.1, Dict.ofList e.2)
  | [], g => by
    simp only [givenKw, Except.ok.injEq, sectionsOf, List.map_nil, List.not_mem_nil, false_imp_iff, implies_true,
      true_and]
    exact eq_comm
  | (s, defs) :: l, g => by
    unfold givenKw
    by_cases hs : s ∈ sections
    · rw [if_pos hs]
      cases hr : givenKw sections l with
      | error e =>
        have := fun g => (givenKw_ok (sections := sections) (kwargs := l) (g := g)).not.1 (by rw [hr]; simp)
        simp only [sectionsOf, List.map_cons, List.mem_cons, forall_eq_or_imp]
        constructor
        · intro h; cases h
        · rintro ⟨⟨-, h⟩, -⟩
          exact absurd ⟨h, rfl⟩ (this _)
      | ok r =>
        obtain ⟨h1, rfl⟩ := givenKw_ok.1 hr
        simp only [sectionsOf, List.map_cons, List.mem_cons, forall_eq_or_imp] at h1 ⊢
        constructor
        · intro h; cases h; exact ⟨⟨hs, h1⟩, rfl⟩
        · rintro ⟨-, rfl⟩; rfl
    · rw [if_neg hs]
      simp only [sectionsOf, List.map_cons, List.mem_cons, forall_eq_or_imp]
      constructor
      · intro h; cases h
      · rintro ⟨⟨h, -⟩, -⟩; exact absurd h hs

theorem get?_map_snd {ν μ : Type} (f : String → ν → μ) (l : Dict String ν) (s : String) :
    Dict.get? (l.map fun e => (e.1, f e.1 e.2)) s = (Dict.get? l s).map (f s) := by
  induction l with
  | nil => rfl
  | cons e l ih =>
    rw [List.map_cons, get?_cons, get?_cons]
    by_cases h : e.1 = s
    · simp [h]
    · simp only [h, if_false]; exact ih

/-- The entries of the merged dict. -/
theorem merge_get {cur : InitKwargs} : ∀ {g : Dict String (Dict String String)} {new : InitKwargs},
    (g.mapM fun e => do
      let d ← mergeKw cur e.1 e.2
      .ok (e.1, KwVal.dict d)) = (.ok new : Except PyErr InitKwargs) →
    ∀ s, match g.get? s with
      | none => new.get? s = none
      | some defs => ∃ d, mergeKw cur s defs = .ok d ∧ new.get? s = some (.dict d)
  | [], new, h, s => by
    cases h; rfl
  | e :: g, new, h, s => by
    rw [List.mapM_cons] at h
    cases hm : mergeKw cur e.1 e.2 with
    | error x => rw [hm] at h; cases h
    | ok d =>
      rw [hm] at h
      cases hr : (g.mapM fun e => do
          let d ← mergeKw cur e.1 e.2
          .ok (e.1, KwVal.dict d) : Except PyErr InitKwargs) with
      | error x =>
        have hr' := hr
        simp only [bind, Except.bind] at hr' h
        rw [hr'] at h
        cases h
      | ok r =>
        have ih := merge_get hr s
        have hr' := hr
        simp only [bind, Except.bind] at hr' h
        rw [hr'] at h
        cases h
        rw [get?_cons, get?_cons]
        by_cases hs : e.1 = s
        · subst hs
          simp only [if_true]
          exact ⟨d, hm, rfl⟩
        · simp only [hs, if_false]
          exact ih

theorem merge_mem {cur : InitKwargs} : ∀ {g : Dict String (Dict String String)} {new : InitKwargs},
    (g.mapM fun e => do
      let d ← mergeKw cur e.1 e.2
      .ok (e.1, KwVal.dict d)) = (.ok new : Except PyErr InitKwargs) →
    ∀ e ∈ new, ∃ x ∈ g, x.1 = e.1 ∧ ∃ d, e.2 = .dict d
  | [], new, h, s, hs => by
    cases h; simp at hs
  | e :: g, new, h, s, hs => by
    rw [List.mapM_cons] at h
    cases hm : mergeKw cur e.1 e.2 with
    | error x => rw [hm] at h; cases h
    | ok d =>
      rw [hm] at h
      cases hr : (g.mapM fun e => do
          let d ← mergeKw cur e.1 e.2
          .ok (e.1, KwVal.dict d) : Except PyErr InitKwargs) with
      | error x =>
        have hr' := hr
        simp only [bind, Except.bind] at hr' h
        rw [hr'] at h
        cases h
      | ok r =>
        have ih := merge_mem hr s
        have hr' := hr
        simp only [bind, Except.bind] at hr' h
        rw [hr'] at h
        cases h
        rcases List.mem_cons.1 hs with rfl | hs
        · exact ⟨e, by simp, rfl, d, rfl⟩
        · obtain ⟨x, hx, h1, h2⟩ := ih hs
          exact ⟨x, by simp [hx], h1, h2⟩

theorem find_given (kwargs : List (String × List (String × String))) (s k : String) :
    (Dict.get? (kwargs.map fun e => (e.1, Dict.ofList e.2)) s).bind (fun d => d.get? k) = given kwargs s k := by
  rw [get?_map_snd (fun _ l => Dict.ofList l)]
  unfold given Dict.get?
  cases kwargs.find? fun e => decide (e.1 = s) with
  | none => rfl
  | some e =>
    simp only [Option.map_some, Option.bind_some]
    have := get?_update' ([] : Dict String String) e.2 k
    rw [get?_nil, Option.or_none] at this
    exact this

/-! ## C59 -/

/-- `override_config(override=True, …)` replaces all overrides by the given ones. -/
theorem C59_replace (sections : List String) (cur new : InitKwargs)
    (kwargs : List (String × List (String × String)))
    (h : overrideConfig sections cur true kwargs = .ok new) (s k : String) : value new s k = given kwargs s k := by
  unfold overrideConfig at h
  cases hg : givenKw sections kwargs with
  | error e => rw [hg] at h; cases h
  | ok g =>
    rw [hg] at h
    obtain ⟨-, rfl⟩ := givenKw_ok.1 hg
    cases h
    unfold value
    rw [get?_map_snd (fun _ d => KwVal.dict d), ← find_given]
    cases Dict.get? (kwargs.map fun e => (e.1, Dict.ofList e.2)) s <;> rfl

/-- The part of the second half that holds: with `override=False` the values of the sections that are named in
the call are merged key-wise. The values of all other sections are lost (missing: they should be kept). -/
theorem C59_merge_partial (sections : List String) (cur new : InitKwargs)
    (kwargs : List (String × List (String × String)))
    (h : overrideConfig sections cur false kwargs = .ok new) (s : String) :
    (s ∈ sectionsOf kwargs → ∀ k, value new s k = (given kwargs s k).or (value cur s k)) ∧
    (s ∉ sectionsOf kwargs → new.get? s = none) := by
  unfold overrideConfig at h
  cases hg : givenKw sections kwargs with
  | error e => rw [hg] at h; cases h
  | ok g =>
    rw [hg] at h
    obtain ⟨-, rfl⟩ := givenKw_ok.1 hg
    have hm := merge_get h s
    have hk : Dict.keys (kwargs.map fun e => (e.1, Dict.ofList e.2)) = sectionsOf kwargs := by
      unfold Dict.keys sectionsOf; simp
    constructor
    · intro hs k
      rw [← hk, ← get?_isSome] at hs
      obtain ⟨defs, hd⟩ := Option.isSome_iff_exists.1 hs
      rw [← find_given, hd, Option.bind_some]
      rw [hd] at hm
      obtain ⟨d, h1, h2⟩ := hm
      have hnd : defs.keys.Nodup := by
        rw [get?_map_snd (fun _ l => Dict.ofList l)] at hd
        obtain ⟨l, -, rfl⟩ := Option.map_eq_some_iff.1 hd
        exact nodup_update (by simp [Dict.keys]) l
      unfold value
      rw [h2]
      unfold mergeKw at h1
      cases hc : cur.get? s with
      | none => rw [hc] at h1; cases h1; exact get?_update [] hnd k
      | some v =>
        rw [hc] at h1
        cases v with
        | str _ => cases h1
        | dict d' => cases h1; exact get?_update d' hnd k
    · intro hs
      rw [← hk, ← get?_eq_none] at hs
      rw [hs] at hm
      exact hm

/-- The second half of C59 does not hold: other sections are dropped. -/
theorem C59_fails : ¬ ∀ (sections : List String) (cur new : InitKwargs) (kwargs : List (String × List (String × String))),
    overrideConfig sections cur false kwargs = .ok new →
    ∀ s k, value new s k = (given kwargs s k).or (value cur s k) := by
  intro h
  have := h ["PROCESS_SPECS", "RT1"] [("RT1", .dict [("dB", "False")])] _ [("PROCESS_SPECS", [("ncpu", "4")])] rfl
    "RT1" "dB"
  revert this
  decide

/-- When does a call raise (and leave everything as it is)? -/
theorem C59_raises (sections : List String) (cur : InitKwargs) (override : Bool)
    (kwargs : List (String × List (String × String))) :
    (∃ new, overrideConfig sections cur override kwargs = .ok new) ↔
      (∀ s ∈ sectionsOf kwargs, s ∈ sections) ∧
      (override = true ∨ ∀ s ∈ sectionsOf kwargs, ∀ x, cur.get? s ≠ some (.str x)) := by
  unfold overrideConfig
  cases hg : givenKw sections kwargs with
  | error e =>
    constructor
    · rintro ⟨n, h⟩; cases h
    · rintro ⟨h, -⟩
      rw [givenKw_ok.2 ⟨h, rfl⟩] at hg; cases hg
  | ok g =>
    obtain ⟨h1, rfl⟩ := givenKw_ok.1 hg
    rw [and_iff_right h1]
    cases override with
    | true => exact ⟨fun _ => .inl rfl, fun _ => ⟨_, rfl⟩⟩
    | false =>
      simp only [Bool.false_eq_true, false_or]
      clear hg h1
      induction kwargs with
      | nil => exact ⟨fun _ => by simp [sectionsOf], fun _ => ⟨_, rfl⟩⟩
      | cons e l ih =>
        simp only [bind, Except.bind, Bool.false_eq_true, if_false, sectionsOf, List.map_cons, List.mem_cons,
          forall_eq_or_imp, List.mapM_cons] at ih ⊢
        rw [← ih]
        have hm : (∃ d, mergeKw cur e.1 (Dict.ofList e.2) = .ok d) ↔ ∀ x, cur.get? e.1 ≠ some (.str x) := by
          unfold mergeKw
          cases cur.get? e.1 with
          | none => simp
          | some v => cases v <;> simp
        rw [← hm]
        cases mergeKw cur e.1 (Dict.ofList e.2) with
        | error x => simp
        | ok d =>
          simp only [Except.ok.injEq, exists_eq', true_and]
          generalize (List.mapM _ _ : Except PyErr (List (String × KwVal))) = r
          cases r with
          | error x => simp
          | ok r => simp [pure, Except.pure]

/-- Histories: if all calls name the same sections, the final overrides are what has been asked for.
(Without this hypothesis `C59_fails`.) -/
theorem C59_history_partial (sections : List String) (S : List String)
    (calls : List (Bool × List (String × List (String × String))))
    (hS : ∀ c ∈ calls, ∀ s, s ∈ sectionsOf c.2 ↔ s ∈ S) (hsec : ∀ s ∈ S, s ∈ sections) (s k : String) :
    value (runCalls sections [] calls) s k = calls.foldl asked (fun _ _ => none) s k := by
  suffices H : ∀ (calls : List (Bool × List (String × List (String × String)))) (kw : InitKwargs)
      (f : String → String → Option String), (∀ c ∈ calls, ∀ s, s ∈ sectionsOf c.2 ↔ s ∈ S) →
      (∀ s k, value kw s k = f s k) → (∀ s v, kw.get? s = some v → s ∈ S ∧ ∃ d, v = .dict d) →
      ∀ s k, value (runCalls sections kw calls) s k = calls.foldl asked f s k from
    H calls [] _ hS (fun _ _ => rfl) (fun s v h => by simp [Dict.get?] at h) s k
  intro calls
  induction calls with
  | nil => intro kw f _ h _ s k; exact h s k
  | cons c calls ih =>
    intro kw f hS hv hd s k
    obtain ⟨new, hnew⟩ := (C59_raises sections kw c.1 c.2).2 ⟨fun s hs => hsec s ((hS c (by simp) s).1 hs),
      .inr fun s _ x hx => by obtain ⟨-, d, hd⟩ := hd s _ hx; cases hd⟩
    have hrun : runCalls sections kw (c :: calls) = runCalls sections new calls := by
      unfold runCalls
      rw [List.foldl_cons, hnew]
    rw [hrun, List.foldl_cons]
    refine ih new (asked f c) (fun c' hc => hS c' (by simp [hc])) ?_ ?_ s k
    · intro s k
      unfold asked
      cases hb : c.1 with
      | true =>
        rw [hb] at hnew
        rw [C59_replace _ _ _ _ hnew]; simp
      | false =>
        rw [hb] at hnew
        obtain ⟨h1, h2⟩ := C59_merge_partial _ _ _ _ hnew s
        by_cases hs : s ∈ sectionsOf c.2
        · rw [h1 hs, hv]; simp
        · have hf : f s k = none := by
            rw [← hv]
            unfold value
            cases hx : kw.get? s with
            | none => rfl
            | some v => exact absurd ((hS c (by simp) s).2 (hd s v hx).1) hs
          have hgn : given c.2 s k = none := by
            rw [← find_given]
            have hk : Dict.keys (c.2.map fun e => (e.1, Dict.ofList e.2)) = sectionsOf c.2 := by
              unfold Dict.keys sectionsOf; simp
            rw [← hk, ← get?_eq_none] at hs
            rw [hs]; rfl
          unfold value
          rw [h2 hs, hf, hgn]; simp
    · intro s v hx
      have hmem : s ∈ sectionsOf c.2 ∧ ∃ d, v = .dict d := by
        unfold overrideConfig at hnew
        cases hg : givenKw sections c.2 with
        | error e => rw [hg] at hnew; cases hnew
        | ok g =>
          rw [hg] at hnew
          obtain ⟨-, rfl⟩ := givenKw_ok.1 hg
          have hk : Dict.keys (c.2.map fun e => (e.1, Dict.ofList e.2)) = sectionsOf c.2 := by
            unfold Dict.keys sectionsOf; simp
          cases hb : c.1 with
          | true =>
            rw [hb] at hnew
            cases hnew
            rw [get?_map_snd (fun _ d => KwVal.dict d)] at hx
            obtain ⟨d, h1, rfl⟩ := Option.map_eq_some_iff.1 hx
            refine ⟨?_, d, rfl⟩
            rw [← hk, ← get?_isSome, h1]; rfl
          | false =>
            rw [hb] at hnew
            have := merge_get hnew s
            cases hd : Dict.get? (c.2.map fun e => (e.1, Dict.ofList e.2)) s with
            | none => rw [hd] at this; rw [this] at hx; cases hx
            | some defs =>
              rw [hd] at this
              obtain ⟨d, -, h2⟩ := this
              rw [h2] at hx
              cases hx
              refine ⟨?_, d, rfl⟩
              rw [← hk, ← get?_isSome, hd]; rfl
      exact ⟨(hS c (by simp) s).1 hmem.1, hmem.2⟩

/-! ## C85 -/

/-- The value in a config file. -/
def cfgValue (cfg : Sections) (s k : String) : Option String := (cfg.get? s).bind fun d => d.get? k

/-- `setup` uses the overrides where there are any and the values of the config file otherwise; no section is
added or lost. -/
theorem C85_applied (kw : InitKwargs) (cfg cfg' : Sections) (hkw : kw.keys.Nodup)
    (hd : ∀ s d, kw.get? s = some (.dict d) → d.keys.Nodup) (h : applyKw cfg kw = .ok cfg') (s : String) :
    (s ∈ cfg'.keys ↔ s ∈ cfg.keys) ∧ ∀ k, cfgValue cfg' s k = (value kw s k).or (cfgValue cfg s k) := by
  induction kw generalizing cfg with
  | nil =>
    cases h
    exact ⟨Iff.rfl, fun k => by simp [value, Dict.get?]⟩
  | cons e kw ih =>
    obtain ⟨s', v⟩ := e
    unfold applyKw at h
    cases hs : cfg.get? s' with
    | none => rw [hs] at h; cases h
    | some old =>
      rw [hs] at h
      cases v with
      | str x => cases h
      | dict d =>
        dsimp only at h
        have hn : s' ∉ Dict.keys kw ∧ (Dict.keys kw).Nodup := by
          rw [keys_cons, List.nodup_cons] at hkw; exact hkw
        have hdd : d.keys.Nodup := hd s' d (by rw [get?_cons]; simp)
        obtain ⟨h1, h2⟩ := ih _ hn.2 (fun s d hsd => by
          refine hd s d ?_
          rw [get?_cons, if_neg]
          · exact hsd
          · rintro rfl
            exact hn.1 ((get?_isSome _ _).1 (by rw [hsd]; rfl))) h
        refine ⟨h1.trans ?_, fun k => ?_⟩
        · rw [mem_keys_set]
          refine ⟨?_, .inr⟩
          rintro (rfl | h)
          · exact (get?_isSome _ _).1 (by rw [hs]; rfl)
          · exact h
        · rw [h2 k]
          unfold cfgValue value
          rw [get?_set, get?_cons]
          by_cases hss : s = s'
          · subst hss
            have : Dict.get? kw s = none := (get?_eq_none _ _).2 hn.1
            simp only [this, if_true, hs, Option.bind_some]
            rw [get?_update _ hdd]; rfl
          · simp only [hss, if_false, Ne.symm hss]

/-- The overrides set by `override_config` can always be applied. -/
theorem C85_applicable_partial (cfg : Sections) (cur new : InitKwargs) (override : Bool)
    (kwargs : List (String × List (String × String)))
    (h : overrideConfig cfg.keys cur override kwargs = .ok new) : ∃ cfg', applyKw cfg new = .ok cfg' := by
  have key : ∀ (new : InitKwargs) (cfg : Sections), (∀ e ∈ new, e.1 ∈ cfg.keys ∧ ∃ d, e.2 = .dict d) →
      ∃ cfg', applyKw cfg new = .ok cfg' := by
    intro new
    induction new with
    | nil => intro cfg _; exact ⟨cfg, rfl⟩
    | cons e new ih =>
      intro cfg he
      obtain ⟨s, v⟩ := e
      obtain ⟨h1, d, h2⟩ := he (s, v) (by simp)
      dsimp only at h1 h2
      subst h2
      obtain ⟨old, ho⟩ := Option.isSome_iff_exists.1 ((get?_isSome _ _).2 h1)
      unfold applyKw
      rw [ho]
      refine ih _ fun e' h' => ?_
      obtain ⟨h3, h4⟩ := he e' (by simp [h'])
      exact ⟨(mem_keys_set _ _ _ _).2 (.inr h3), h4⟩
  refine key new cfg ?_
  unfold overrideConfig at h
  cases hg : givenKw cfg.keys kwargs with
  | error e => rw [hg] at h; cases h
  | ok g =>
    rw [hg] at h
    obtain ⟨hs, rfl⟩ := givenKw_ok.1 hg
    cases override with
    | true =>
      cases h
      intro e he
      simp only [List.map_map, List.mem_map, Function.comp_apply] at he
      obtain ⟨x, hx, rfl⟩ := he
      exact ⟨hs _ (List.mem_map.2 ⟨x, hx, rfl⟩), _, rfl⟩
    | false =>
      clear hg
      have hk : ∀ e ∈ (kwargs.map fun e => (e.1, Dict.ofList e.2) : Dict String (Dict String String)),
          e.1 ∈ cfg.keys := by
        intro e he
        obtain ⟨x, hx, rfl⟩ := List.mem_map.1 he
        exact hs _ (List.mem_map.2 ⟨x, hx, rfl⟩)
      intro e he
      obtain ⟨x, hx, h1, h2⟩ := merge_mem h e he
      exact ⟨h1 ▸ hk x hx, h2⟩

/-- The `init_kwargs` accepted by `RTprocess.__init__` (strings instead of dicts) can never be applied, so that
`setup` raises for all of them. -/
theorem C85_init_fails (kw kw' : InitKwargs) (h : initKw (some kw) = .ok kw') (hne : kw ≠ []) (cfg : Sections) :
    ∃ e, applyKw cfg kw' = .error e := by
  unfold initKw at h
  dsimp only at h
  split_ifs at h with ha
  cases h
  cases kw with
  | nil => exact absurd rfl hne
  | cons e kw =>
    obtain ⟨s, v⟩ := e
    simp only [List.all_cons, Bool.and_eq_true] at ha
    unfold applyKw
    cases cfg.get? s with
    | none => exact ⟨_, rfl⟩
    | some old =>
      cases v with
      | str x => exact ⟨_, rfl⟩
      | dict d => simp at ha

/-! ## Examples -/

example : overrideConfig ["RT1", "PROCESS_SPECS"] [("RT1", .dict [("dB", "False"), ("bsf", "0.1")])] false
    [("RT1", [("bsf", "0.2")])] = .ok [("RT1", .dict [("dB", "False"), ("bsf", "0.2")])] := rfl

example : value (runCalls ["RT1"] [] [(true, [("RT1", [("dB", "False")])]), (false, [("RT1", [("bsf", "0.2")])])])
    "RT1" "dB" = some "False" := by decide

example : initKw (some [("RT1", .str "x")]) = .ok [("RT1", .str "x")] := rfl

example : applyKw [("RT1", [("dB", "True")])] [("RT1", .dict [("dB", "False")])] =
    .ok [("RT1", [("dB", "False")])] := rfl

end Process
end RT1
