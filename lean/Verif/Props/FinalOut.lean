import Verif.Model.FinalOut
import Verif.Lemmas.Dict
import Verif.Props.Pipeline
import Verif.Props.FitStore

/-!
# C99: the final output contains the results of the selected configurations

Specification: for every ID the output consists of the return values of the postprocess function for the selected configurations
and the reader-arguments.
-/

namespace RT1.FinalOut
open General

variable {F A V : Type}

/-- The selected configurations. -/
def selected (cfgs : Dict String F) : Use → List String
  | .all | .direct => cfgs.keys
  | .one n => [n]
  | .list ns => ns
  | .other ns => ns

/-- The documented forms of `use_config`. -/
def Documented : Use → Prop
  | .all | .one _ | .list _ => True
  | .direct | .other _ => False

/-- The value of an entry of the output. -/
def entry (val : F → V) (cfgs : Dict String F) (sel : List String) (arg : V) (k : String) : Option V :=
  if k ∈ sel then (cfgs.get? k).map val else if k = argKey then some arg else none

/-- The parent object contains the configurations of the loaded object. -/
def Compatible (parent : Parent) (cfgs : Dict String F) : Prop := match parent with
  | .missing => True
  | .single => False
  | .multi names => ∀ n ∈ cfgs.keys, n ∈ names

theorem reader_multi {parent : Parent} {cfgs : Dict String F} (h : Compatible parent cfgs) (arg : A) (num : Nat) :
    reader parent (.ok (some (.multi cfgs arg num))) = some (.multi cfgs arg num) := by
  cases parent with
  | missing => rfl
  | single => exact h.elim
  | multi names =>
    simp only [reader]
    rw [if_pos]
    simpa [Compatible] using h

theorem nodup_ofList {ν : Type} (l : List (String × ν)) : (Dict.ofList l).keys.Nodup :=
  Dict.nodup_update (by simp [Dict.keys]) l

/-- The dict of the results of the selected configurations. -/
theorem applyCfgs_spec (f : Post F A V) (val : F → V) (cfgs : Dict String F) (use : Use) (hd : Documented use) (hk : f.kw = true)
    (hn : cfgs.keys.Nodup) (hs : ∀ n ∈ selected cfgs use, n ∈ cfgs.keys) (hv : ∀ n ∈ selected cfgs use, ∀ x, cfgs.get? n = some x → f.run (.cfg x) = .ok (val x)) :
    ∃ d, applyCfgs f cfgs use = .ok d ∧ d.keys.Nodup ∧
      ∀ k, d.get? k = if k ∈ selected cfgs use then (cfgs.get? k).map val else none := by
  cases use with
  | direct => exact hd.elim
  | other ns => exact hd.elim
  | all =>
    have hm : (cfgs.mapM fun e => (f.callKw e.2).map fun v => (e.1, v)) = Except.ok (cfgs.map fun e => (e.1, val e.2)) := by
      refine FitStore.mapM_ok_map _ _ _ fun e he => ?_
      simp only [Post.callKw, if_pos hk]
      rw [hv e.1 (List.mem_map_of_mem he) e.2 ((Dict.get?_iff_mem hn _ _).2 he)]
      rfl
    refine ⟨Dict.ofList (cfgs.map fun e => (e.1, val e.2)), ?_, nodup_ofList _, fun k => ?_⟩
    · simp only [applyCfgs, hm]; rfl
    · have hn' : ((cfgs.map fun e => (e.1, val e.2)).map Prod.fst).Nodup := by
        simpa [Dict.keys, Function.comp_def] using hn
      change _ = if k ∈ cfgs.keys then _ else _
      by_cases hkm : k ∈ cfgs.keys
      · rw [if_pos hkm]
        obtain ⟨x, hx⟩ := Option.isSome_iff_exists.1 ((Dict.get?_isSome cfgs k).2 hkm)
        rw [hx, Option.map_some, Dict.get?_ofList hn', List.mem_map]
        exact ⟨(k, x), Dict.mem_of_get? hx, rfl⟩
      · rw [if_neg hkm, Dict.get?_eq_none, ← Dict.get?_isSome]
        intro hh
        obtain ⟨v, hv'⟩ := Option.isSome_iff_exists.1 hh
        rw [Dict.get?_ofList hn', List.mem_map] at hv'
        obtain ⟨e, he, hee⟩ := hv'
        have hk1 : e.1 = k := (Prod.ext_iff.1 hee).1
        exact hkm (hk1 ▸ List.mem_map_of_mem he)
  | one n =>
    obtain ⟨x, hx⟩ := Option.isSome_iff_exists.1 ((Dict.get?_isSome cfgs n).2 (hs n (by simp [selected])))
    have hr := hv n (by simp [selected]) x hx
    refine ⟨[(n, val x)], ?_, by simp [Dict.keys], fun k => ?_⟩
    · simp only [applyCfgs, Dict.getItem, hx, Post.callKw, if_pos hk, bind, Except.bind, hr]
    · change _ = if k ∈ [n] then _ else _
      simp only [List.mem_singleton, Dict.get?_cons, Dict.get?_nil]
      by_cases h : k = n
      · subst h; simp [hx]
      · rw [if_neg (Ne.symm h), if_neg h]
  | list ns =>
    change ∀ n ∈ ns, _ at hs
    change ∀ n ∈ ns, _ at hv
    change ∃ d, _ ∧ _ ∧ ∀ k, _ = if k ∈ ns then _ else _
    have hx : ∀ n ∈ ns, ∃ x, cfgs.get? n = some x := fun n hn' =>
      Option.isSome_iff_exists.1 ((Dict.get?_isSome cfgs n).2 (hs n hn'))
    have hm : ∃ l, (ns.mapM fun n => do
        let fit ← cfgs.getItem n
        (f.callKw fit).map fun v => (n, v)) = Except.ok l ∧ (∀ k v, (k, v) ∈ l ↔ k ∈ ns ∧ (cfgs.get? k).map val = some v) := by
      clear hs hd
      induction ns with
      | nil => exact ⟨[], rfl, by simp⟩
      | cons n ns ih =>
        obtain ⟨l, hl, hml⟩ := ih (fun m hm => hv m (by simp [hm])) (fun m hm => hx m (by simp [hm]))
        obtain ⟨x, hxn⟩ := hx n (by simp)
        refine ⟨(n, val x) :: l, ?_, fun k v => ?_⟩
        · rw [List.mapM_cons, hl]
          simp only [Dict.getItem, hxn, Post.callKw, if_pos hk, bind, Except.bind, hv n (by simp) x hxn]
          rfl
        · rw [List.mem_cons, hml, List.mem_cons]
          constructor
          · rintro (h | h)
            · obtain ⟨rfl, rfl⟩ := Prod.mk.inj h
              exact ⟨.inl rfl, by simp [hxn]⟩
            · exact ⟨.inr h.1, h.2⟩
          · rintro ⟨rfl | h, h2⟩
            · rw [hxn, Option.map_some, Option.some.injEq] at h2
              exact .inl (by rw [h2])
            · exact .inr ⟨h, h2⟩
    obtain ⟨l, hl, hml⟩ := hm
    refine ⟨Dict.ofList l, ?_, nodup_ofList _, fun k => ?_⟩
    · simp only [applyCfgs, hl]; rfl
    · have hfun : ∀ k v v', (k, v) ∈ l → (k, v') ∈ l → v = v' := by
        intro k v v' h h'
        rw [hml] at h h'
        exact Option.some.inj (h.2.symm.trans h'.2)
      by_cases hkm : k ∈ ns
      · obtain ⟨x, hxk⟩ := hx k hkm
        rw [if_pos hkm, hxk, Option.map_some, Dict.get?_ofList_functional hfun, hml]
        exact ⟨hkm, by simp [hxk]⟩
      · rw [if_neg hkm, Dict.get?_eq_none, ← Dict.get?_isSome]
        intro hh
        obtain ⟨v, hv'⟩ := Option.isSome_iff_exists.1 hh
        rw [Dict.get?_ofList_functional hfun, hml] at hv'
        exact hkm hv'.1

/-- The function that is applied: the explicit one or that of the processing class. -/
def usedPost (env : Env F A V) (post : Option (Post F A V)) : Option (Post F A V) := post.or env.clsPost

theorem evalPost_multi (env : Env F A V) (use : Use) (post : Option (Post F A V)) (f : Post F A V) (hf : usedPost env post = some f)
    (hd : Documented use) (cfgs : Dict String F) (arg : A) (num : Nat) :
    evalPost env use post (.multi cfgs arg num) = applyCfgs f cfgs use := by
  cases post with
  | none =>
    simp only [usedPost, Option.none_or] at hf
    simp only [evalPost, Env.cls, hf]; rfl
  | some g =>
    simp only [usedPost, Option.some_or, Option.some.injEq] at hf
    subst hf
    cases use <;> first | rfl | exact hd.elim

theorem get?_addArg (env : Env F A V) (o : Obj F A) (a : A) (ha : o.arg? = some a) (d : Dict String V) (k : String) :
    (addArg env o d).get? k = if k ∈ d.keys then d.get? k else if k = argKey then some (env.frame a o.num) else none := by
  simp only [addArg, ha]
  by_cases hk : argKey ∈ d.keys
  · rw [if_pos hk]
    by_cases hkm : k ∈ d.keys
    · rw [if_pos hkm]
    · rw [if_neg hkm, if_neg (by rintro rfl; exact hkm hk), Dict.get?_eq_none]; exact hkm
  · rw [if_neg hk, Dict.get?_set]
    by_cases hkm : k ∈ d.keys
    · rw [if_neg (by rintro rfl; exact hk hkm), if_pos hkm]
    · rw [if_neg hkm]
      split_ifs with h
      · rfl
      · rwa [Dict.get?_eq_none]

/-- C99 (partial): for a loaded `MultiFits` object the output of an ID consists of the return values of the postprocess function for
exactly the selected configurations, and of the reader-arguments. Missing: `use_config` given as string for a parent with several
configurations (see `C99_string_fails`), functions whose argument is not named `fit`. -/
theorem C99_multi_partial (env : Env F A V) (parent : Parent) (use : Use) (post : Option (Post F A V)) (f : Post F A V)
    (hf : usedPost env post = some f) (hk : f.kw = true) (hd : Documented use) (val : F → V) (cfgs : Dict String F) (arg : A) (num : Nat)
    (hp : Compatible parent cfgs) (hn : cfgs.keys.Nodup) (hs : ∀ n ∈ selected cfgs use, n ∈ cfgs.keys)
    (hv : ∀ n ∈ selected cfgs use, ∀ x, cfgs.get? n = some x → f.run (.cfg x) = .ok (val x)) :
    ∃ d, worker env parent use post (.ok (some (.multi cfgs arg num))) = .res d ∧
      ∀ k, d.get? k = entry val cfgs (selected cfgs use) (env.frame arg num) k := by
  obtain ⟨d, h1, _, h3⟩ := applyCfgs_spec f val cfgs use hd hk hn hs hv
  refine ⟨addArg env (.multi cfgs arg num) d, ?_, fun k => ?_⟩
  · simp only [worker, reader_multi hp, runPostprocess, evalPost_multi env use post f hf hd, h1]
  · rw [get?_addArg env _ arg rfl, entry]
    have hkd : k ∈ d.keys ↔ k ∈ selected cfgs use := by
      rw [← Dict.get?_isSome, h3]
      by_cases h : k ∈ selected cfgs use
      · rw [if_pos h, Option.isSome_map]
        simp only [h, iff_true]
        exact (Dict.get?_isSome cfgs k).2 (hs k h)
      · simp [h]
    by_cases h : k ∈ selected cfgs use
    · rw [if_pos (hkd.2 h), if_pos h, h3, if_pos h]
    · rw [if_neg (fun h' => h (hkd.1 h')), if_neg h]
      rfl

/-- C99: for a loaded `Fits` object the result is stored under the name of its configuration (or "default"); `use_config` has no
effect. -/
theorem C99_single (env : Env F A V) (parent : Parent) (hp : parent = .missing ∨ parent = .single) (use : Use) (hu : use ≠ .direct)
    (post : Option (Post F A V)) (f : Post F A V) (hf : usedPost env post = some f) (name : Option String) (fit : F) (arg : Option A) (num : Nat)
    (v : V) (hv : f.run (.obj (.single name fit arg num)) = .ok v) :
    ∃ d, worker env parent use post (.ok (some (.single name fit arg num))) = .res d ∧
      ∀ k, d.get? k = if k = name.getD "default" then some v else if k = argKey then arg.map (env.frame · num) else none := by
  have he : evalPost env use post (.single name fit arg num) = .ok [(name.getD "default", v)] := by
    cases post with
    | none =>
      simp only [usedPost, Option.none_or] at hf
      simp only [evalPost, Env.cls, hf, bind, Except.bind, hv]
    | some g =>
      simp only [usedPost, Option.some_or, Option.some.injEq] at hf
      subst hf
      simp only [evalPost, bind, Except.bind, hv]
  have hr : reader parent (.ok (some (.single name fit arg num))) = some (.single name fit arg num) := by
    rcases hp with rfl | rfl <;> rfl
  refine ⟨addArg env (.single name fit arg num) [(name.getD "default", v)], ?_, fun k => ?_⟩
  · simp only [worker, hr, runPostprocess, he]
  · cases arg with
    | none =>
      simp only [addArg, Obj.arg?, Dict.get?_cons, Dict.get?_nil, Option.map_none, ite_self]
      by_cases h : k = name.getD "default"
      · rw [if_pos h, if_pos h.symm]
      · rw [if_neg h, if_neg (Ne.symm h)]
    | some a =>
      rw [get?_addArg env _ a rfl]
      simp only [Dict.keys, List.map_cons, List.map_nil, List.mem_singleton, Dict.get?_cons, Dict.get?_nil, Option.map_some, Obj.num]
      by_cases h : k = name.getD "default"
      · rw [if_pos h, if_pos h, if_pos h.symm]
      · rw [if_neg h, if_neg h]

/-- C99 (partial): with "from_postprocess" and an explicit function, the returned dict is used, with the reader-arguments added if
they are not contained. -/
theorem C99_direct_partial (env : Env F A V) (parent : Parent) (f : Post F A V) (o : Obj F A) (hr : reader parent (.ok (some o)) = some o)
    (v : V) (d : Dict String V) (a : A) (ha : o.arg? = some a) (hv : f.run (.obj o) = .ok v) (hd : env.items v = some d) :
    ∃ d', worker env parent .direct (some f) (.ok (some o)) = .res d' ∧
      ∀ k, d'.get? k = if k ∈ d.keys then d.get? k else if k = argKey then some (env.frame a o.num) else none := by
  refine ⟨addArg env o d, ?_, get?_addArg env o a ha d⟩
  have he : evalPost env .direct (some f) o = .ok d := by
    cases o <;> simp only [evalPost, hv, bind, Except.bind, Env.asDict, hd]
  simp only [worker, hr, runPostprocess, he]

theorem mapM_error {α β : Type} (g : α → Except PyErr β) : ∀ (l : List α), (∃ x ∈ l, ∃ e, g x = .error e) → ∃ e, l.mapM g = .error e
  | [], h => by simp at h
  | y :: l, h => by
    rw [List.mapM_cons]
    cases hy : g y with
    | error e => exact ⟨e, rfl⟩
    | ok b =>
      obtain ⟨x, hx, e, he⟩ := h
      rcases List.mem_cons.1 hx with rfl | hx
      · rw [hy] at he; cases he
      · obtain ⟨e', he'⟩ := mapM_error g l ⟨x, hx, e, he⟩
        exact ⟨e', by rw [he']; rfl⟩

/-- C99: all or nothing for each ID: if the function raises for one of the selected configurations (and there is no handler of exceptions), then nothing is
stored for this ID. -/
theorem C99_error (env : Env F A V) (hx : env.exceptfunc = none) (parent : Parent) (use : Use) (hd : Documented use)
    (post : Option (Post F A V)) (f : Post F A V) (hf : usedPost env post = some f) (cfgs : Dict String F) (arg : A) (num : Nat)
    (hp : Compatible parent cfgs) (n : String) (hs : n ∈ selected cfgs use) (x : F) (e : PyErr)
    (hg : cfgs.get? n = some x) (he : f.run (.cfg x) = .error e) :
    worker env parent use post (.ok (some (.multi cfgs arg num))) = .err := by
  have hc : ∃ e', f.callKw x = .error e' := by
    by_cases hk : f.kw
    · exact ⟨e, by simp [Post.callKw, hk, he]⟩
    · exact ⟨.typeError, by simp [Post.callKw, hk]⟩
  obtain ⟨e', hc⟩ := hc
  have ha : ∃ e'', applyCfgs f cfgs use = .error e'' := by
    cases use with
    | direct => exact hd.elim
    | other _ => exact hd.elim
    | all =>
      obtain ⟨e'', h⟩ := mapM_error (fun e : String × F => (f.callKw e.2).map fun v => (e.1, v)) cfgs
        ⟨(n, x), Dict.mem_of_get? hg, e', by simp only [hc]; rfl⟩
      exact ⟨e'', by simp only [applyCfgs, h]; rfl⟩
    | one m =>
      simp only [selected, List.mem_singleton] at hs
      subst hs
      exact ⟨e', by simp only [applyCfgs, Dict.getItem, hg, bind, Except.bind, hc]⟩
    | list ns =>
      obtain ⟨e'', h⟩ := mapM_error (fun n => do
        let fit ← cfgs.getItem n
        (f.callKw fit).map fun v => (n, v)) ns ⟨n, hs, e', by simp only [Dict.getItem, hg, bind, Except.bind, hc]; rfl⟩
      exact ⟨e'', by simp only [applyCfgs, h]; rfl⟩
  obtain ⟨e'', ha⟩ := ha
  simp only [worker, reader_multi hp, runPostprocess, evalPost_multi env use post f hf hd, ha, hx]

/-- C99 (partial): the complete output. With a list of configurations (or None) of the parent object, every ID with a loadable fit contributes exactly the values
of the selected configurations, and the finished run has written all of them (C50). `ids` are the objects of the IDs. -/
theorem C99_output_partial {K W : Type} [DecidableEq K] (entries : Dict String V → Option (List (K × W))) (cfg : Pipeline.Cfg)
    (hC : 0 < cfg.nComb) (hW : 0 < cfg.nWriter) (env : Env F A V) (names : List String) (use : Use) (hd : use = .all ∨ ∃ ns, use = .list ns ∧ ∀ n ∈ ns, n ∈ names)
    (post : Option (Post F A V)) (f : Post F A V) (hf : usedPost env post = some f) (hk : f.kw = true) (val : F → V)
    (hv : ∀ x, f.run (.cfg x) = .ok (val x)) (ids : List (Dict String F × A × Nat))
    (hp : ∀ o ∈ ids, o.1.keys.Nodup ∧ ∀ n, n ∈ o.1.keys ↔ n ∈ names) (hg : ∀ d, (entries d).isSome) :
    ∃ ds : List (Dict String V),
      List.Forall₂ (fun o d => ∀ k, d.get? k = entry val o.1 (selected o.1 use) (env.frame o.2.1 o.2.2) k) ids ds ∧
      ∃ tasks, runFinalout env (.multi names) use post (ids.map fun o => .ok (some (.multi o.1 o.2.1 o.2.2))) = .ok tasks ∧
        ∀ (store₀ : Dict K (List W)) (s : Pipeline.State cfg (Dict String V) K W),
          Pipeline.Run entries cfg (Pipeline.init cfg tasks store₀) s → s.main = .finished →
          (Pipeline.PipeSpec.rows s.store).Perm (Pipeline.PipeSpec.rows store₀ ++ ds.flatMap (Pipeline.PipeSpec.rowsOf entries)) := by
  have hdoc : Documented use := by rcases hd with rfl | ⟨ns, rfl, _⟩ <;> trivial
  have hpre : preEval (.multi names) use = .ok () := by
    simp only [preEval]
    rw [if_pos]
    rcases hd with rfl | ⟨ns, rfl, h⟩
    · simp [preNames]
    · simpa [preNames] using h
  have hw : ∀ o ∈ ids, ∃ d, worker env (.multi names) use post (.ok (some (.multi o.1 o.2.1 o.2.2))) = .res d ∧
      ∀ k, d.get? k = entry val o.1 (selected o.1 use) (env.frame o.2.1 o.2.2) k := by
    intro o ho
    obtain ⟨hn, hkeys⟩ := hp o ho
    refine C99_multi_partial env (.multi names) use post f hf hk hdoc val o.1 o.2.1 o.2.2 (fun n hn' => (hkeys n).1 hn') hn ?_
      (fun n _ x _ => hv x)
    intro n hns
    rcases hd with rfl | ⟨ns, rfl, h⟩
    · exact hns
    · exact (hkeys n).2 (h n hns)
  have hall : ∃ ds, List.Forall₂ (fun o d => ∀ k, d.get? k = entry val o.1 (selected o.1 use) (env.frame o.2.1 o.2.2) k) ids ds ∧
      ids.map (fun o => worker env (.multi names) use post (.ok (some (.multi o.1 o.2.1 o.2.2)))) = ds.map Pipeline.Outcome.res := by
    clear hp hpre
    induction ids with
    | nil => exact ⟨[], .nil, rfl⟩
    | cons o ids ih =>
      obtain ⟨ds, h1, h2⟩ := ih (fun o ho => hw o (by simp [ho]))
      obtain ⟨d, h3, h4⟩ := hw o (by simp)
      exact ⟨d :: ds, .cons h4 h1, by simp only [List.map_cons, h3, h2]⟩
  obtain ⟨ds, h1, h2⟩ := hall
  refine ⟨ds, h1, ds.map Pipeline.Outcome.res, ?_, fun store₀ s hrun hfin => ?_⟩
  · simp only [runFinalout, hpre, bind, Except.bind, List.map_map]
    rw [← h2]; rfl
  · have hres : Pipeline.PipeSpec.results (ds.map Pipeline.Outcome.res) = ds := by
      clear h1 h2 hrun
      induction ds with
      | nil => rfl
      | cons d ds ih => simp [Pipeline.PipeSpec.results, ih]
    have := Pipeline.C50_complete hC hW (fun r _ => hg r) hrun hfin
    rwa [hres] at this

/-- C99 fails: `use_config` given as string (as documented) with a parent of several configurations: the string is iterated by characters, so the
run is aborted with a KeyError if one of its characters is not the name of a configuration. -/
theorem C99_string_fails (env : Env F A V) (names : List String) (post : Option (Post F A V)) (name : String) (c : Char) (hc : c ∈ name.toList)
    (hn : c.toString ∉ names) (ids : List (Except PyErr (Option (Obj F A)))) :
    runFinalout env (.multi names) (.one name) post ids = .error .keyError := by
  have h : preEval (.multi names) (.one name) = .error .keyError := by
    refine if_neg ?_
    simp only [preNames, List.all_map, List.all_eq_true, Function.comp_apply, decide_eq_true_eq, not_forall]
    exact ⟨c, hc, hn⟩
  simp only [runFinalout, h]; rfl

/-- C99 fails: "from_postprocess" is ignored for a `MultiFits` object if the function of the processing class is used. -/
theorem C99_direct_fails (env : Env F A V) (parent : Parent) (cfgs : Dict String F) (arg : A) (num : Nat) :
    worker env parent .direct none (.ok (some (.multi cfgs arg num))) = worker env parent .all none (.ok (some (.multi cfgs arg num))) := by
  have h : ∀ f : Post F A V, applyCfgs f cfgs .direct = applyCfgs f cfgs .all := fun f => by simp only [applyCfgs]
  have h2 : evalPost env .direct none (.multi cfgs arg num) = evalPost env .all none (.multi cfgs arg num) := by
    simp only [evalPost, h]
  cases hr : reader parent (.ok (some (.multi cfgs arg num))) with
  | none => simp only [worker, hr]
  | some o =>
    have ho : o = .multi cfgs arg num := by
      cases parent <;> simp only [reader] at hr
      · exact (Option.some.inj hr).symm
      · split_ifs at hr; exact (Option.some.inj hr).symm
      · split_ifs at hr; exact (Option.some.inj hr).symm
    simp only [worker, hr, ho, runPostprocess, h2]

/-- C99 fails: a function whose argument is not called `fit` works for `Fits` objects but not for `MultiFits` objects with at least one configuration. -/
theorem C99_keyword_fails (env : Env F A V) (hx : env.exceptfunc = none) (parent : Parent) (f : Post F A V) (hk : f.kw = false) (e : String × F)
    (cfgs : Dict String F) (arg : A) (num : Nat) (hp : Compatible parent (e :: cfgs)) :
    worker env parent .all (some f) (.ok (some (.multi (e :: cfgs) arg num))) = .err := by
  obtain ⟨e'', h⟩ := mapM_error (fun e : String × F => (f.callKw e.2).map fun v => (e.1, v)) (e :: cfgs)
    ⟨e, by simp, .typeError, by simp [Post.callKw, hk, Except.map]⟩
  have ha : applyCfgs f (e :: cfgs) .all = .error e'' := by simp only [applyCfgs, h]; rfl
  simp only [worker, reader_multi hp, runPostprocess, evalPost_multi env .all (some f) f rfl trivial, ha, hx]

/-! ## Examples -/

/-- Values are numbers, no dicts; the postprocess function doubles the fit. -/
def exEnv : Env Nat Nat Nat := ⟨fun _ => none, fun a n => a + n, none, none⟩

def exPost : Post Nat Nat Nat := ⟨true, fun t => match t with
  | .cfg x => .ok (2 * x)
  | .obj _ => .ok 0⟩

example : worker exEnv (.multi ["a", "b"]) (.list ["b"]) (some exPost) (.ok (some (.multi [("a", 1), ("b", 5)] 100 7))) =
    .res [("b", 10), ("const__reader_arg", 107)] := by rfl

example : runFinalout exEnv (.multi ["cfg_0", "cfg_1"]) (.one "cfg_0") (some exPost) [.ok (some (.multi [("cfg_0", 1), ("cfg_1", 5)] 100 7))] =
    .error .keyError := C99_string_fails _ _ _ _ 'c' (by decide) (by decide) _

example : ∃ ds : List (Dict String Nat), List.Forall₂ (fun o d => ∀ k, d.get? k =
      entry (2 * ·) o.1 (selected o.1 (.list ["b"])) (exEnv.frame o.2.1 o.2.2) k) [([("a", 1), ("b", 5)], 100, 7)] ds := by
  obtain ⟨ds, h, _⟩ := C99_output_partial (K := String) (W := Nat) (fun d => some d) ⟨1, 1, 1, 1, 1⟩ (by decide) (by decide) exEnv ["a", "b"]
    (.list ["b"]) (.inr ⟨["b"], rfl, by simp⟩) (some exPost) exPost rfl rfl (2 * ·) (fun _ => rfl) [([("a", 1), ("b", 5)], 100, 7)]
    (by intro o ho; rw [List.mem_singleton] at ho; subst ho; exact ⟨by decide, fun n => Iff.rfl⟩) (fun _ => rfl)
  exact ⟨ds, h⟩

end RT1.FinalOut
