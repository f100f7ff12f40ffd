import Verif.Model.Modules
import Verif.Props.Process
import Verif.Lemmas.Dict

/-!
# C104 A processing run uses the modules and the definition of the config file

Specification: after the first set-up (with `copy=True`) every module of the config file is the content of its file, and the fit is
defined by the config file.  All later runs use the modules and the definition of the first one, whatever happens to the original files.
-/

namespace RT1.Modules
open Process
variable {C : Type}

/-! ### specification -/

/-- All files of the run (the modules and the config file) have different names. -/
def DistinctNames (path : FPath) (c : Conf) : Prop :=
  path ≠ [] ∧ (∀ e ∈ c.modules, e.2 ≠ []) ∧ (path.getLast? :: c.modules.map fun e => e.2.getLast?).Nodup

/-- The folder for the copies. -/
def cfgDir (c : Conf) : FPath := c.dump ++ ["cfg"]

/-! ### lemmas -/

theorem copyPath_inj {d p q : FPath} (hp : p ≠ []) (hq : q ≠ []) (h : copyPath d p = copyPath d q) : p.getLast? = q.getLast? := by
  unfold copyPath at h
  rw [List.getLast?_eq_some_getLast hp, List.getLast?_eq_some_getLast hq] at h ⊢
  simpa using h

theorem get?_of_mem {ν : Type} : ∀ {d : Dict String ν}, (Dict.keys d).Nodup → ∀ {e : String × ν}, e ∈ d → Dict.get? d e.1 = some e.2
  | [], _, e, he => by simp at he
  | (k, v) :: d, hn, e, he => by
    rw [Dict.get?_cons]
    rcases List.mem_cons.1 he with rfl | he'
    · simp
    · have : k ≠ e.1 := by
        rintro rfl
        exact (List.nodup_cons.1 hn).1 (List.mem_map.2 ⟨e, he', rfl⟩)
      rw [if_neg this]
      exact get?_of_mem (List.nodup_cons.1 hn).2 he'

theorem getAll_ok {env : Env C} {cfg : Conf} {fs : FS C} {lc : Bool} : ∀ {ks : List String} {mods sys m s : Dict String C},
    getAll env cfg fs lc ks mods sys = .ok (m, s) → ks.Nodup →
    (∀ k ∈ ks, ∃ p c, modulePath cfg fs lc k = .ok p ∧ fs p = some (.file c) ∧ Dict.get? m k = some c) ∧
    (∀ k, k ∉ ks → Dict.get? m k = Dict.get? mods k)
  | [], mods, sys, m, s, h, _ => by
    simp only [getAll, Except.ok.injEq, Prod.mk.injEq] at h
    obtain ⟨rfl, rfl⟩ := h
    exact ⟨by simp, by simp⟩
  | k :: ks, mods, sys, m, s, h, hn => by
    rw [getAll] at h
    cases hp : modulePath cfg fs lc k with
    | error e => simp [getModule, hp, bind, Except.bind] at h
    | ok p =>
      cases he : execModule env fs sys p with
      | error e => simp [getModule, hp, he, bind, Except.bind] at h
      | ok r =>
        simp only [getModule, hp, he, bind, Except.bind] at h
        obtain ⟨h1, h2⟩ := getAll_ok h hn.of_cons
        have hk : k ∉ ks := (List.nodup_cons.1 hn).1
        have hf : fs p = some (.file r.1) := by
          unfold execModule at he
          split at he
          · next c hc => cases he; exact hc
          · cases he
        refine ⟨?_, ?_⟩
        · intro j hj
          rcases List.mem_cons.1 hj with rfl | hj
          · exact ⟨p, r.1, hp, hf, by rw [h2 j hk, Dict.get?_set]; simp⟩
          · exact h1 j hj
        · intro j hj
          simp only [List.mem_cons, not_or] at hj
          rw [h2 j hj.2, Dict.get?_set, if_neg hj.1]

theorem execModule_ok {env : Env C} {fs : FS C} {sys : Dict String C} {p : FPath} {r : C × Dict String C}
    (h : execModule env fs sys p = .ok r) : fs p = some (.file r.1) ∧ r.2 = Dict.set sys (env.stem p) r.1 := by
  unfold execModule at h
  split at h
  · next c hc => cases h; exact ⟨hc, rfl⟩
  · cases h

/-- An entry of `sys.modules` is kept if no module with this name is loaded. -/
theorem getAll_sys_other {env : Env C} {cfg : Conf} {fs : FS C} {lc : Bool} {n : String} :
    ∀ {ks : List String} {mods sys m s : Dict String C}, getAll env cfg fs lc ks mods sys = .ok (m, s) →
    (∀ k ∈ ks, ∀ p, modulePath cfg fs lc k = .ok p → env.stem p ≠ n) → Dict.get? s n = Dict.get? sys n
  | [], mods, sys, m, s, h, _ => by
    simp only [getAll, Except.ok.injEq, Prod.mk.injEq] at h
    rw [h.2]
  | k :: ks, mods, sys, m, s, h, hn => by
    rw [getAll] at h
    cases hp : modulePath cfg fs lc k with
    | error e => simp [getModule, hp, bind, Except.bind] at h
    | ok p =>
      cases he : execModule env fs sys p with
      | error e => simp [getModule, hp, he, bind, Except.bind] at h
      | ok r =>
        simp only [getModule, hp, he, bind, Except.bind] at h
        rw [getAll_sys_other h fun j hj => hn j (by simp [hj]), (execModule_ok he).2, Dict.get?_set,
          if_neg (hn k (by simp) p hp).symm]

theorem getAll_sys {env : Env C} {cfg : Conf} {fs : FS C} {lc : Bool} :
    ∀ {ks : List String} {mods sys m s : Dict String C}, getAll env cfg fs lc ks mods sys = .ok (m, s) → ks.Nodup →
    ∀ k ∈ ks, ∀ p, modulePath cfg fs lc k = .ok p →
      (∀ j ∈ ks, j ≠ k → ∀ q, modulePath cfg fs lc j = .ok q → env.stem q ≠ env.stem p) →
      Dict.get? s (env.stem p) = Dict.get? m k
  | k' :: ks, mods, sys, m, s, h, hnd, k, hk, p, hkp, hn => by
    have h0 := h
    rw [getAll] at h
    cases hp : modulePath cfg fs lc k' with
    | error e => simp [getModule, hp, bind, Except.bind] at h
    | ok p' =>
      cases he : execModule env fs sys p' with
      | error e => simp [getModule, hp, he, bind, Except.bind] at h
      | ok r =>
        simp only [getModule, hp, he, bind, Except.bind] at h
        rcases List.mem_cons.1 hk with rfl | hk'
        · rw [hp] at hkp
          cases hkp
          have hk' := (List.nodup_cons.1 hnd).1
          rw [getAll_sys_other h fun j hj => hn j (by simp [hj]) (fun e => hk' (e ▸ hj)), (execModule_ok he).2, Dict.get?_set,
            if_pos rfl, (getAll_ok h hnd.of_cons).2 k hk', Dict.get?_set, if_pos rfl]
        · exact getAll_sys h hnd.of_cons k hk' p hkp fun j hj => hn j (by simp [hj])

theorem finish_ok {env : Env C} {copy : Bool} {path : FPath} {upd : Sections} {fs : FS C} {sys : Dict String C} {run : Run C}
    (h : finish env copy path upd fs sys = .ok run) :
    rereadConfig env copy path upd fs = .ok run.cfg ∧
      getAll env (env.conf run.cfg) fs copy (Dict.keys (env.conf run.cfg).modules) [] sys = .ok (run.modules, run.sys) ∧
      Dict.getItem run.modules ((env.conf upd).specName.getD "processing_cfg") = .ok run.proc ∧ run.specs = env.conf upd := by
  unfold finish at h
  cases h1 : rereadConfig env copy path upd fs with
  | error e => simp [h1, bind, Except.bind] at h
  | ok cfg =>
    simp only [h1, bind, Except.bind] at h
    cases h2 : getAll env (env.conf cfg) fs copy (Dict.keys (env.conf cfg).modules) [] sys with
    | error e => simp [h2] at h
    | ok r =>
      simp only [h2] at h
      cases h3 : Dict.getItem r.1 ((env.conf upd).specName.getD "processing_cfg") with
      | error e => simp [h3] at h
      | ok p =>
        simp only [h3, pure, Except.pure, Except.ok.injEq] at h
        subst h
        exact ⟨rfl, h2, h3, rfl⟩

theorem setupRun_ok {env : Env C} {upper : String → String} {set : Settings} {path : FPath} {kw : InitKwargs} {answers : List String}
    {fs fs' : FS C} {sys : Dict String C} {run : Run C} (h : setupRun env upper set path kw answers fs sys = (fs', .ok (some run))) :
    ∃ sections upd, readConfig env fs path = some sections ∧ applyKw sections kw = .ok upd ∧
      (setup upper set (configFile env fs path) kw answers fs).1 = ⟨fs', .ok ()⟩ ∧
      finish env set.copy path upd fs' sys = .ok run := by
  unfold setupRun at h
  cases h1 : readConfig env fs path with
  | none => simp [h1] at h
  | some sections =>
    simp only [h1] at h
    cases h2 : applyKw sections kw with
    | error e => simp [h2] at h
    | ok upd =>
      simp only [h2] at h
      split at h
      · simp at h
      · next fs1 h3 =>
        simp only [Prod.mk.injEq] at h
        obtain ⟨rfl, h⟩ := h
        cases h4 : finish env set.copy path upd fs1 sys with
        | error e => rw [h4] at h; simp [Except.map] at h
        | ok r =>
          rw [h4] at h
          simp only [Except.map, Except.ok.injEq, Option.some.injEq] at h
          subst h
          exact ⟨sections, upd, rfl, h2, h3, h4⟩

theorem readConfig_some {env : Env C} {fs : FS C} {p : FPath} {s : Sections} (h : readConfig env fs p = some s) :
    ∃ c, fs p = some (.file c) ∧ validSections env c = some s := by
  unfold readConfig at h
  split at h
  · next c hc => exact ⟨c, hc, h⟩
  · cases h

theorem plan {env : Env C} {fs : FS C} {path : FPath} {kw : InitKwargs} {sections upd : Sections}
    (h1 : readConfig env fs path = some sections) (h2 : applyKw sections kw = .ok upd) :
    Plan (configFile env fs path) kw ⟨(env.conf upd).dump, path, (env.conf upd).modules.map Prod.snd⟩ (env.text upd) :=
  ⟨sections, upd, h1, h2, rfl, rfl⟩

/-! ### the first run -/

/-- A set-up in a folder without copies uses the sections of the config file (updated by `init_kwargs`), and every module is the content
of the file that is specified in the config file. -/
theorem C104_fresh_partial (env : Env C) (hrt : ∀ s, env.parse (env.text s) = some s) (upper : String → String) (set : Settings)
    (path : FPath) (kw : InitKwargs) (answers : List String) (fs fs' : FS C) (sys : Dict String C) (sections upd : Sections)
    (run : Run C) (hm : set.main = true) (ha : set.autocontinue = true) (hc : set.copy = true)
    (h1 : readConfig env fs path = some sections) (h2 : applyKw sections kw = .ok upd)
    (hk : (Dict.keys (env.conf upd).modules).Nodup) (hn : DistinctNames path (env.conf upd))
    (hfiles : ∀ e ∈ (env.conf upd).modules, ∃ c, fs e.2 = some (.file c))
    (hnew : fs (copyPath (cfgDir (env.conf upd)) path) = none)
    (hnews : ∀ e ∈ (env.conf upd).modules, fs (copyPath (cfgDir (env.conf upd)) e.2) = none)
    (hrun : setupRun env upper set path kw answers fs sys = (fs', .ok (some run))) :
    run.cfg = upd ∧ run.specs = env.conf upd ∧
      (∀ e ∈ (env.conf upd).modules, ∃ c, fs e.2 = some (.file c) ∧ Dict.get? run.modules e.1 = some c ∧
        fs' (copyPath (cfgDir (env.conf upd)) e.2) = some (.file c)) ∧
      readConfig env fs' (copyPath (cfgDir (env.conf upd)) path) = some upd := by
  obtain ⟨sections', upd', h1', h2', h3, h4⟩ := setupRun_ok hrun
  rw [h1] at h1'
  cases h1'
  rw [h2] at h2'
  cases h2'
  have hpl := plan h1 h2
  have hok : (setup upper set (configFile env fs path) kw answers fs).1.res = .ok () := by rw [h3]
  have hfs : (setup upper set (configFile env fs path) kw answers fs).1.fs = fs' := by rw [h3]
  obtain ⟨g1, g2, g3, g4⟩ := finish_ok h4
  obtain ⟨hne, hne', hnd⟩ := hn
  -- the copy of the config file
  have hcopy : readConfig env fs' (copyPath (cfgDir (env.conf upd)) path) = some upd := by
    have hcfg := C58_config upper set (configFile env fs path) kw answers fs _ _ hpl hm ha hc hne hok
    rw [hfs] at hcfg
    by_cases hkw : kw = []
    · subst hkw
      obtain ⟨c, e1, e2⟩ := hcfg.2 rfl hnew
      cases h2
      obtain ⟨c', e3, e4⟩ := readConfig_some h1
      change fs path = _ at e1
      rw [e1] at e3
      cases e3
      change fs' (copyPath (cfgDir (env.conf sections)) path) = _ at e2
      rw [readConfig, e2]
      exact e4
    · have e2 := hcfg.1 hkw
      change fs' (copyPath (cfgDir (env.conf upd)) path) = _ at e2
      have e5 : readConfig env fs' (copyPath (cfgDir (env.conf upd)) path) = (some upd).filter fun s => (env.conf s).valid := by
        rw [readConfig, e2]
        change validSections env (env.text upd) = _
        rw [validSections, hrt]
      rw [e5]
      rw [rereadConfig, hc, if_pos rfl] at g1
      change (match readConfig env fs' (copyPath (cfgDir (env.conf upd)) path) with | some s => Except.ok s | none => _) = _ at g1
      rw [e5] at g1
      by_cases hv : (env.conf upd).valid = true
      · simp [Option.filter, hv]
      · simp [Option.filter, hv] at g1
  have hcfg : run.cfg = upd := by
    rw [rereadConfig, hc, if_pos rfl] at g1
    change (match readConfig env fs' (copyPath (cfgDir (env.conf upd)) path) with | some s => Except.ok s | none => _) = _ at g1
    rw [hcopy] at g1
    cases g1
    rfl
  refine ⟨hcfg, g4, ?_, hcopy⟩
  intro e he
  rw [hcfg, hc] at g2
  obtain ⟨k1, -⟩ := getAll_ok g2 hk
  obtain ⟨p, c, p1, p2, p3⟩ := k1 e.1 (List.mem_map.2 ⟨e, he, rfl⟩)
  have hget : Dict.get? (env.conf upd).modules e.1 = some e.2 := get?_of_mem hk he
  rw [modulePath, hget] at p1
  simp only [if_true] at p1
  split at p1
  swap
  · cases p1
  cases p1
  obtain ⟨c0, hc0⟩ := hfiles e he
  -- the copy of the module
  obtain ⟨pre, post, hl⟩ := List.append_of_mem he
  have hmod := (C58_modules upper set (configFile env fs path) kw answers fs _ _ hpl hm ha hc hok).2 e.2 (pre.map Prod.snd)
    (post.map Prod.snd) (by simp [hl]) (hne' e he) (by
      intro m' hm' heq
      obtain ⟨e', he', rfl⟩ := List.mem_map.1 hm'
      have := copyPath_inj (hne' e' (by simp [hl, he'])) (hne' e he) heq
      have hnd' := (List.nodup_cons.1 hnd).2
      rw [hl, List.map_append, List.map_cons, List.nodup_append] at hnd'
      exact hnd'.2.2 _ (List.mem_map.2 ⟨e', he', rfl⟩) _ (by simp) this) (by
      intro heq
      have := copyPath_inj (hne' e he) hne heq
      exact (List.nodup_cons.1 hnd).1 (this ▸ List.mem_map.2 ⟨e, he, rfl⟩)) (hnews e he)
  rw [hfs] at hmod
  obtain ⟨c1, m1, m2⟩ := hmod
  have hkeep := C58_keep upper set (configFile env fs path) kw answers fs (.inl ha) e.2 _ hc0
  rw [hfs] at hkeep
  have hm0 : fs' e.2 = some (.file c0) := by
    rcases hkeep with hkeep | ⟨-, -, s, u, hs, hp⟩
    · exact hkeep
    · exfalso
      obtain ⟨s1, u1, q1, q2, q3, q4⟩ := hs
      change readConfig env fs path = _ at q1
      rw [h1] at q1
      cases q1
      rw [h2] at q2
      cases q2
      cases q3
      change e.2 = copyPath (cfgDir (env.conf upd)) path at hp
      rw [← hp, hc0] at hnew
      cases hnew
  rw [hm0] at m1
  cases m1
  change fs' (copyPath (cfgDir (env.conf upd)) e.2) = _ at m2
  change fs' (copyPath (cfgDir (env.conf upd)) e.2) = _ at p2
  refine ⟨c0, hc0, ?_, m2⟩
  rw [m2] at p2
  cases p2
  exact p3

/-! ### later runs -/

/-- A run in a folder with copies uses the copies: neither the modules nor the definition of the fit depend on the original files.
The current config file only provides `specs`. -/
theorem C104_frozen_partial (env : Env C) (upper : String → String) (set : Settings) (path : FPath) (answers : List String)
    (fs fs' : FS C) (sys : Dict String C) (sections old : Sections) (run : Run C) (hc : set.copy = true)
    (hu : set.autocontinue = true ∨ ¬ Confirms upper answers) (h1 : readConfig env fs path = some sections)
    (hcopy : readConfig env fs (copyPath (cfgDir (env.conf sections)) path) = some old)
    (hd : (env.conf old).dump = (env.conf sections).dump) (hk : (Dict.keys (env.conf old).modules).Nodup)
    (hrun : setupRun env upper set path [] answers fs sys = (fs', .ok (some run))) :
    run.cfg = old ∧ run.specs = env.conf sections ∧
      (∀ e ∈ (env.conf old).modules, ∀ c, fs (copyPath (cfgDir (env.conf old)) e.2) = some (.file c) →
        Dict.get? run.modules e.1 = some c ∧ fs' (copyPath (cfgDir (env.conf old)) e.2) = some (.file c)) ∧
      readConfig env fs' (copyPath (cfgDir (env.conf sections)) path) = some old := by
  obtain ⟨sections', upd, h1', h2, h3, h4⟩ := setupRun_ok hrun
  rw [h1] at h1'
  cases h1'
  cases h2
  have hfs : (setup upper set (configFile env fs path) [] answers fs).1.fs = fs' := by rw [h3]
  have keep : ∀ p n, fs p = some n → fs' p = some n := by
    intro p n hp
    have := C58_keep upper set (configFile env fs path) [] answers fs hu p n hp
    rw [hfs] at this
    rcases this with h | h
    · exact h
    · exact absurd rfl h.1
  obtain ⟨g1, g2, g3, g4⟩ := finish_ok h4
  have hcopy' : readConfig env fs' (copyPath (cfgDir (env.conf sections)) path) = some old := by
    obtain ⟨c, e1, e2⟩ := readConfig_some hcopy
    rw [readConfig, keep _ _ e1]
    exact e2
  have hcfg : run.cfg = old := by
    rw [rereadConfig, hc, if_pos rfl] at g1
    change (match readConfig env fs' (copyPath (cfgDir (env.conf sections)) path) with | some s => Except.ok s | none => _) = _ at g1
    rw [hcopy'] at g1
    cases g1
    rfl
  refine ⟨hcfg, g4, ?_, hcopy'⟩
  intro e he c hce
  rw [hcfg, hc] at g2
  obtain ⟨k1, -⟩ := getAll_ok g2 hk
  obtain ⟨p, c', p1, p2, p3⟩ := k1 e.1 (List.mem_map.2 ⟨e, he, rfl⟩)
  have hget : Dict.get? (env.conf old).modules e.1 = some e.2 := get?_of_mem hk he
  rw [modulePath, hget] at p1
  simp only [if_true] at p1
  split at p1
  swap
  · cases p1
  cases p1
  have hce' := keep _ _ hce
  change fs' (copyPath (cfgDir (env.conf old)) e.2) = _ at p2
  rw [hce'] at p2
  cases p2
  exact ⟨p3, hce'⟩

/-- After the first run, later runs (without `init_kwargs` and without removing the folder) use the same modules and the same definition of
the fit, even if the original files and the config file have been changed in any way that does not change the folder of the run. -/
theorem C104_rerun_partial (env : Env C) (hrt : ∀ s, env.parse (env.text s) = some s) (upper : String → String) (set set2 : Settings)
    (path path2 : FPath) (kw : InitKwargs) (answers answers2 : List String) (fs fs1 fs2 fs3 : FS C) (sys sys2 : Dict String C)
    (sections upd sections2 : Sections) (run run2 : Run C) (hm : set.main = true) (ha : set.autocontinue = true)
    (hc : set.copy = true) (h1 : readConfig env fs path = some sections) (h2 : applyKw sections kw = .ok upd)
    (hk : (Dict.keys (env.conf upd).modules).Nodup) (hn : DistinctNames path (env.conf upd))
    (hfiles : ∀ e ∈ (env.conf upd).modules, ∃ c, fs e.2 = some (.file c))
    (hnew : fs (copyPath (cfgDir (env.conf upd)) path) = none)
    (hnews : ∀ e ∈ (env.conf upd).modules, fs (copyPath (cfgDir (env.conf upd)) e.2) = none)
    (hrun : setupRun env upper set path kw answers fs sys = (fs1, .ok (some run)))
    (hsame : ∀ p, cfgDir (env.conf upd) <+: p → fs2 p = fs1 p) (hc2 : set2.copy = true)
    (hu2 : set2.autocontinue = true ∨ ¬ Confirms upper answers2) (hp2 : path2.getLast? = path.getLast?)
    (h12 : readConfig env fs2 path2 = some sections2) (hd2 : (env.conf sections2).dump = (env.conf upd).dump)
    (hrun2 : setupRun env upper set2 path2 [] answers2 fs2 sys2 = (fs3, .ok (some run2))) :
    run2.cfg = run.cfg ∧ ∀ e ∈ (env.conf upd).modules, ∃ c, fs e.2 = some (.file c) ∧ Dict.get? run2.modules e.1 = some c := by
  obtain ⟨a1, a2, a3, a4⟩ := C104_fresh_partial env hrt upper set path kw answers fs fs1 sys sections upd run hm ha hc h1 h2 hk hn
    hfiles hnew hnews hrun
  have hpre : ∀ q, cfgDir (env.conf upd) <+: copyPath (cfgDir (env.conf upd)) q := by
    intro q
    unfold copyPath
    split
    · exact List.prefix_append _ _
    · exact List.prefix_rfl
  have hcd : cfgDir (env.conf sections2) = cfgDir (env.conf upd) := by rw [cfgDir, hd2]; rfl
  have hcp : copyPath (cfgDir (env.conf sections2)) path2 = copyPath (cfgDir (env.conf upd)) path := by
    rw [hcd, copyPath, hp2]; rfl
  have hcopy : readConfig env fs2 (copyPath (cfgDir (env.conf sections2)) path2) = some upd := by
    rw [hcp]
    obtain ⟨c, e1, e2⟩ := readConfig_some a4
    rw [readConfig, hsame _ (hpre path), e1]
    exact e2
  obtain ⟨b1, b2, b3, b4⟩ := C104_frozen_partial env upper set2 path2 answers2 fs2 fs3 sys2 sections2 upd run2 hc2 hu2 h12 hcopy
    hd2.symm hk hrun2
  refine ⟨by rw [b1, a1], fun e he => ?_⟩
  obtain ⟨c, c1, c2, c3⟩ := a3 e he
  exact ⟨c, c1, (b3 e he c (by rw [hsame _ (hpre e.2), c3])).1⟩

/-! ### imports between modules -/

/-- A module that is the only one of its name can be imported by this name from `sys.modules`. -/
theorem C104_importable_partial (env : Env C) (upper : String → String) (set : Settings) (path : FPath) (kw : InitKwargs)
    (answers : List String) (fs fs' : FS C) (sys : Dict String C) (run : Run C)
    (hrun : setupRun env upper set path kw answers fs sys = (fs', .ok (some run)))
    (hk : (Dict.keys (env.conf run.cfg).modules).Nodup) (k : String) (hkm : k ∈ Dict.keys (env.conf run.cfg).modules) (p : FPath)
    (hp : modulePath (env.conf run.cfg) fs' set.copy k = .ok p)
    (hn : ∀ j ∈ Dict.keys (env.conf run.cfg).modules, j ≠ k → ∀ q, modulePath (env.conf run.cfg) fs' set.copy j = .ok q →
      env.stem q ≠ env.stem p) :
    ∃ c, fs' p = some (.file c) ∧ Dict.get? run.modules k = some c ∧ Dict.get? run.sys (env.stem p) = some c := by
  obtain ⟨_, _, _, _, _, h4⟩ := setupRun_ok hrun
  obtain ⟨-, g2, -, -⟩ := finish_ok h4
  obtain ⟨p', c, h1, h2, h3⟩ := (getAll_ok g2 hk).1 k hkm
  rw [hp] at h1
  cases h1
  exact ⟨c, h2, h3, by rw [getAll_sys g2 hk k hkm p hp hn, h3]⟩

/-! ### single modules and errors -/

/-- `get_module` returns the content of the specified file (or of its copy), if there is one. -/
theorem C104_getModule_partial (env : Env C) (cfg : Conf) (fs : FS C) (lc : Bool) (sys : Dict String C) (key : String) (c : C) :
    (∃ s, getModule env cfg fs lc sys key = .ok (c, s)) ↔
      ∃ p, Dict.get? cfg.modules key = some p ∧ fs (if lc then copyPath (cfgDir cfg) p else p) = some (.file c) := by
  cases hg : Dict.get? cfg.modules key with
  | none => simp [getModule, modulePath, hg, bind, Except.bind]
  | some p =>
    cases lc with
    | false =>
      have hp : modulePath cfg fs false key = .ok p := by rw [modulePath, hg]; rfl
      simp only [getModule, hp, bind, Except.bind, Option.some.injEq, exists_eq_left', Bool.false_eq_true, if_false]
      unfold execModule
      split
      · next c' hc => simp [hc]
      · next h => simpa using h c
    | true =>
      simp only [Option.some.injEq, exists_eq_left', if_true]
      by_cases he : pathExists fs (copyPath (cfgDir cfg) p) = true
      · have hp : modulePath cfg fs true key = .ok (copyPath (cfgDir cfg) p) := by
          rw [modulePath, hg]
          change (if true = true then if pathExists fs (copyPath (cfgDir cfg) p) = true then _ else _ else _) = _
          rw [if_pos rfl, if_pos he]; rfl
        simp only [getModule, hp, bind, Except.bind]
        unfold execModule
        split
        · next c' hc => simp [hc]
        · next h => simpa using h c
      · have hp : modulePath cfg fs true key = .error .assertionError := by
          rw [modulePath, hg]
          change (if true = true then if pathExists fs (copyPath (cfgDir cfg) p) = true then _ else _ else _) = _
          rw [if_pos rfl, if_neg he]
        have hn : fs (copyPath (cfgDir cfg) p) = none := by
          simpa [pathExists] using he
        simp [getModule, hp, bind, Except.bind, hn]

/-- Modules that are not defined in the config file, and copies that do not exist, raise an AssertionError. -/
theorem C104_missing_partial (env : Env C) (cfg : Conf) (fs : FS C) (lc : Bool) (sys : Dict String C) (key : String)
    (h : Dict.get? cfg.modules key = none ∨
      lc = true ∧ ∃ p, Dict.get? cfg.modules key = some p ∧ fs (copyPath (cfgDir cfg) p) = none) :
    getModule env cfg fs lc sys key = .error .assertionError := by
  rcases h with h | ⟨rfl, p, hp, hn⟩
  · simp [getModule, modulePath, h, bind, Except.bind]
  · have he : pathExists fs (copyPath (cfg.dump ++ ["cfg"]) p) = false := by
      change pathExists fs (copyPath (cfgDir cfg) p) = false
      simp [pathExists, hn]
    simp [getModule, modulePath, hp, he, bind, Except.bind]

/-- An exception of the first part of the set-up (folders and copies) ends the set-up. -/
theorem C104_errors_partial (env : Env C) (upper : String → String) (set : Settings) (path : FPath) (kw : InitKwargs)
    (answers : List String) (fs : FS C) (sys : Dict String C) (e : PyErr)
    (h : (setup upper set (configFile env fs path) kw answers fs).1.res = .error e) :
    (setupRun env upper set path kw answers fs sys).2 = .error e := by
  unfold setupRun
  cases h1 : readConfig env fs path with
  | none =>
    have : (configFile env fs path).sections = none := h1
    rw [setup, this] at h
    cases h
  | some sections =>
    have hs : (configFile env fs path).sections = some sections := h1
    cases h2 : applyKw sections kw with
    | error e' =>
      rw [setup, hs] at h
      simp only [h2] at h ⊢
      simpa using h
    | ok upd =>
      simp only [h2]
      split
      · next h3 => rw [h3] at h; simpa using h
      · next h3 => rw [h3] at h; cases h

/-! ### violations -/

/-- The sections of the config files of the examples, identified by a value. -/
def exSec (v : String) : Sections := [("PROCESS_SPECS", [("v", v)])]

/-- The config files `a`, `b`, …: `b` has another entry in PROCESS_SPECS, `c` two modules with the same file name, `d` another folder, `e`
another name of the processing-module. -/
def exConf (s : Sections) : Conf :=
  if s = exSec "a" then ⟨["dump"], [("processing_cfg", ["m.py"])], none, none, [("x", "1")]⟩
  else if s = exSec "b" then ⟨["dump"], [("processing_cfg", ["m.py"])], none, none, [("x", "2")]⟩
  else if s = exSec "c" then ⟨["dump"], [("processing_cfg", ["m.py"]), ("other", ["other", "m.py"])], none, none, []⟩
  else if s = exSec "d" then ⟨["dump2"], [("processing_cfg", ["m.py"])], none, none, []⟩
  else ⟨["dump"], [("my_cfg", ["m.py"])], some "my_cfg", none, []⟩

def exEnv : Env String where
  parse c := if c ∈ ["a", "b", "c", "d", "e"] then some (exSec c) else none
  text s := match s with
    | [(_, [(_, v)])] => v
    | _ => ""
  conf := exConf
  stem p := p.getLast?.getD ""

/-- A new folder: the config file `v` and two modules. -/
def exNew (v : String) : FS String := fun p =>
  if p = [] then some .dir
  else if p = ["conf.ini"] then some (.file v)
  else if p = ["m.py"] then some (.file "module")
  else if p = ["other"] then some .dir
  else if p = ["other", "m.py"] then some (.file "other module")
  else none

/-- The folder `dir` has been used with the config file `old`, which is now `v`. -/
def exOld (v old dir : String) : FS String := fun p =>
  if p = [dir] ∨ p = [dir, "cfg"] ∨ p = [dir, "results"] ∨ p = [dir, "dumps"] then some .dir
  else if p = [dir, "cfg", "conf.ini"] then some (.file old)
  else if p = [dir, "cfg", "m.py"] then some (.file "copied module")
  else exNew v p

/-- Two modules with the same file name: the content of the first file is loaded for both. -/
theorem C104_names_fails : ∃ fs' run,
    setupRun exEnv id ⟨true, true, true⟩ ["conf.ini"] [] [] (exNew "c") [] = (fs', .ok (some run)) ∧
      (exNew "c") ["other", "m.py"] = some (.file "other module") ∧
      Dict.get? (exConf run.cfg).modules "other" = some ["other", "m.py"] ∧ Dict.get? run.modules "other" = some "module" :=
  ⟨_, _, rfl, rfl, rfl, rfl⟩

/-- A config file that has been changed after the first run: the class is initialized with the changed specs, but the fit is defined by the
copy of the first run. -/
theorem C104_mixed_fails : ∃ fs' run,
    setupRun exEnv id ⟨true, true, true⟩ ["conf.ini"] [] [] (exOld "b" "a" "dump") [] = (fs', .ok (some run)) ∧
      run.specs.rest = [("x", "2")] ∧ run.cfg = exSec "a" ∧ (exConf run.cfg).rest = [("x", "1")] :=
  ⟨_, _, rfl, rfl, rfl, rfl⟩

/-- A folder that has been moved (from `dump` to `dump2`, with an adapted config file) is not used: the copied config still refers to the
previous place, where the modules are searched. -/
theorem C104_moved_fails :
    (setupRun exEnv id ⟨true, true, true⟩ ["conf.ini"] [] [] (exOld "d" "a" "dump2") []).2 = .error .assertionError ∧
      exOld "d" "a" "dump2" ["dump2", "cfg", "m.py"] = some (.file "copied module") ∧
      readConfig exEnv (exOld "d" "a" "dump2") ["conf.ini"] = some (exSec "d") ∧ (exConf (exSec "d")).dump = ["dump2"] :=
  ⟨rfl, rfl, rfl, rfl⟩

/-- Another name of the processing-module in the section CONFIGFILES is accepted by the checks, but it is not used. -/
theorem C104_name_fails :
    readConfig exEnv (exNew "e") ["conf.ini"] = some (exSec "e") ∧ (exConf (exSec "e")).cfgName = some "my_cfg" ∧
      (setupRun exEnv id ⟨true, true, true⟩ ["conf.ini"] [] [] (exNew "e") []).2 = .error .keyError :=
  ⟨rfl, rfl, rfl⟩

/-! ### examples -/

/-- The assumptions of `C104_fresh_partial`. -/
example : ∃ fs' run, readConfig exEnv (exNew "a") ["conf.ini"] = some (exSec "a") ∧ applyKw (exSec "a") [] = .ok (exSec "a") ∧
    DistinctNames ["conf.ini"] (exConf (exSec "a")) ∧ (∀ e ∈ (exConf (exSec "a")).modules, ∃ c, exNew "a" e.2 = some (.file c)) ∧
    setupRun exEnv id ⟨true, true, true⟩ ["conf.ini"] [] [] (exNew "a") [] = (fs', .ok (some run)) :=
  ⟨_, _, rfl, rfl, by unfold DistinctNames; decide, fun e he => by
    have : e = ("processing_cfg", ["m.py"]) := by simpa [exConf] using he
    subst this; exact ⟨_, rfl⟩, rfl⟩

/-- Files whose content is the sections. -/
example : ∃ env : Env Sections, (∀ s, env.parse (env.text s) = some s) ∧ env.conf = exConf :=
  ⟨⟨some, id, exConf, exEnv.stem⟩, fun _ => rfl, rfl⟩

/-- The copy of a module does not exist. -/
example : ∃ p, Dict.get? (exConf (exSec "a")).modules "processing_cfg" = some p ∧
    exNew "a" (copyPath (cfgDir (exConf (exSec "a"))) p) = none := ⟨_, rfl, rfl⟩

/-- A module that does not exist. -/
example : (setup id ⟨true, true, true⟩ (configFile exEnv (fun p => if p = ["m.py"] then none else exNew "a" p) ["conf.ini"]) [] []
    (fun p => if p = ["m.py"] then none else exNew "a" p)).1.res = .error .osError := rfl

/-- The assumptions of `C104_frozen_partial` with a changed config file. -/
example : ∃ fs' run, readConfig exEnv (exOld "b" "a" "dump") ["conf.ini"] = some (exSec "b") ∧
    readConfig exEnv (exOld "b" "a" "dump") (copyPath (cfgDir (exConf (exSec "b"))) ["conf.ini"]) = some (exSec "a") ∧
    (exConf (exSec "a")).dump = (exConf (exSec "b")).dump ∧
    setupRun exEnv id ⟨true, true, true⟩ ["conf.ini"] [] [] (exOld "b" "a" "dump") [] = (fs', .ok (some run)) :=
  ⟨_, _, rfl, rfl, rfl, rfl⟩

end RT1.Modules
