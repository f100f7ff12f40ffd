import Verif.Lemmas.Process

/-!
# Properties of the set-up of a run (C57, C58)
-/

namespace RT1
namespace Process
variable {C : Type}

/-! ## Specification -/

/-- The user asks for removal and confirms it. -/
def Confirms (upper : String → String) (answers : List String) : Prop :=
  ∃ a b rest, answers = a :: b :: rest ∧ upper a = "REMOVE" ∧ (upper b = "Y" ∨ upper b = "YES")

/-- The user wants to continue with the existing folder. -/
def Continues (upper : String → String) (answers : List String) : Prop :=
  ∃ a rest, answers = a :: rest ∧ (upper a = "Y" ∨ upper a = "YES")

/-- The config file (with the `init_kwargs`) describes the run `s`; `u` is the text of the updated config. -/
def Plan (file : ConfigFile C) (kw : InitKwargs) (s : Spec) (u : C) : Prop :=
  ∃ sections upd, file.sections = some sections ∧ applyKw sections kw = .ok upd ∧ file.spec upd = .ok s ∧
    file.text upd = u

/-- The file-system without the folder `p`. -/
def Without (fs : FS C) (p : FPath) : FS C := fun q => if p.isPrefixOf q then none else fs q

/-! ## Helpers -/

theorem setup_plan {upper : String → String} {set : Settings} {file : ConfigFile C} {kw : InitKwargs} {s : Spec}
    {u : C} (h : Plan file kw s u) (answers : List String) (fs : FS C) :
    setup upper set file kw answers fs =
      if !set.main then (⟨fs, .ok ()⟩, 0)
      else if !set.autocontinue && pathExists fs s.dump then
        match confirmInput upper answers with
        | (.error e, n) => (⟨fs, .error e⟩, n)
        | (.ok .proceed, n) => (setupFolders set s (!kw.isEmpty) u fs, n)
        | (.ok .remove, n) =>
          match rmtree fs s.dump with
          | .error e => (⟨fs, .error e⟩, n)
          | .ok fs => (setupFolders set s (!kw.isEmpty) u fs, n)
      else (setupFolders set s (!kw.isEmpty) u fs, 0) := by
  obtain ⟨sections, upd, h1, h2, h3, rfl⟩ := h
  unfold setup
  simp only [h1, h2, h3]
  rfl

/-- Either nothing happens or the config file describes a run. -/
theorem setup_cases (upper : String → String) (set : Settings) (file : ConfigFile C) (kw : InitKwargs) :
    (∃ r, ∀ answers fs, setup upper set file kw answers fs = (⟨fs, r⟩, 0)) ∨
      ∃ s u, Plan file kw s u := by
  unfold setup
  cases h1 : file.sections with
  | none => exact .inl ⟨.ok (), fun _ _ => rfl⟩
  | some sections =>
    dsimp only
    cases h2 : applyKw sections kw with
    | error e => exact .inl ⟨.error e, fun _ _ => rfl⟩
    | ok upd =>
      dsimp only
      cases h3 : file.spec upd with
      | error e => exact .inl ⟨.error e, fun _ _ => rfl⟩
      | ok s => exact .inr ⟨s, _, sections, upd, h1, h2, h3, rfl⟩

theorem confirm_remove {upper : String → String} {answers : List String} :
    Confirms upper answers ↔ ∃ n, confirmInput upper answers = (.ok .remove, n) := by
  unfold Confirms confirmInput defaultAnswer
  constructor
  · rintro ⟨a, b, rest, rfl, ha, hb⟩
    refine ⟨2, ?_⟩
    dsimp only
    rw [if_pos ha]
    rw [if_pos (by rcases hb with hb | hb <;> simp [hb])]
  · rintro ⟨n, h⟩
    cases answers with
    | nil => simp at h
    | cons a l =>
      dsimp only at h
      split_ifs at h with h1 h2
      · cases l with
        | nil => simp at h
        | cons b rest =>
          dsimp only at h
          split_ifs at h with h3
          · refine ⟨a, b, rest, rfl, h1, ?_⟩
            simp only [Bool.or_eq_true, decide_eq_true_eq] at h3
            tauto
          · simp at h
      · simp at h
      · simp at h

theorem confirm_proceed {upper : String → String} {answers : List String} :
    Continues upper answers ↔ ∃ n, confirmInput upper answers = (.ok .proceed, n) := by
  unfold Continues confirmInput defaultAnswer
  constructor
  · rintro ⟨a, rest, rfl, ha⟩
    refine ⟨1, ?_⟩
    dsimp only
    rw [if_neg (by rcases ha with ha | ha <;> simp [ha])]
    rw [if_pos (by rcases ha with ha | ha <;> simp [ha])]
  · rintro ⟨n, h⟩
    cases answers with
    | nil => simp at h
    | cons a l =>
      dsimp only at h
      split_ifs at h with h1 h2
      · cases l with
        | nil => simp at h
        | cons b rest =>
          dsimp only at h
          split_ifs at h with h3
          · simp at h
          · simp at h
      · refine ⟨a, l, rfl, ?_⟩
        simp only [Bool.or_eq_true, decide_eq_true_eq] at h2
        tauto
      · simp at h

/-! ## C57 -/

/-- Whatever is removed belongs to the folder of the run, and is only removed if the main process, without
`autocontinue`, has got the answers REMOVE and Y/YES. -/
theorem C57_removed (upper : String → String) (set : Settings) (file : ConfigFile C) (kw : InitKwargs)
    (answers : List String) (fs : FS C) (p : FPath) (hp : fs p ≠ none)
    (hr : (setup upper set file kw answers fs).1.fs p = none) :
    set.main = true ∧ set.autocontinue = false ∧ Confirms upper answers ∧
      ∃ s u, Plan file kw s u ∧ s.dump <+: p := by
  rcases setup_cases upper set file kw with ⟨r, h⟩ | ⟨s, u, hs⟩
  · rw [h] at hr; exact absurd hr hp
  obtain ⟨n, hn⟩ := Option.ne_none_iff_exists'.1 hp
  have keep : ∀ fs' : FS C, fs' p = some n → (setupFolders set s (!kw.isEmpty) u fs').fs p ≠ none := by
    intro fs' h'
    rw [setupFolders_eq]
    have hk := foldersOut_keep s fs' p n h'
    split_ifs with hc
    · have h2 : ((foldersOut s fs').step (copyConfig s (!kw.isEmpty) u)).fs p ≠ none := by
        by_cases hq : p = copyPath s.cfgDir s.config
        · refine step_rel (fun a b => a p ≠ none → b p ≠ none) (fun _ h => h) _ (fun a b hab ha => ?_) _ (by
            rw [hk]; simp)
          subst hq
          unfold copyConfig at hab
          dsimp only at hab
          split_ifs at hab with h1 h2
          · cases hab; exact ha
          · obtain ⟨c, _, hw⟩ := copy_ok hab
            rw [write_at hw]; simp
          · rw [write_at hab]; simp
        · rw [configStep_other s _ u p _ hq, hk]; simp
      obtain ⟨n', hn'⟩ := Option.ne_none_iff_exists'.1 h2
      unfold copyAll
      rw [modules_keep s s.modules _ p n' hn']; simp
    · rw [hk]; simp
  rw [setup_plan hs] at hr
  by_cases hm : set.main = true
  · by_cases hw : (!set.autocontinue && pathExists fs s.dump) = true
    · simp only [hm, Bool.not_true, Bool.false_eq_true, if_false, hw, if_true] at hr
      simp only [Bool.and_eq_true, Bool.not_eq_true'] at hw
      cases hc : confirmInput upper answers with
      | mk d k =>
        rw [hc] at hr
        cases d with
        | error e => exact absurd hr hp
        | ok d =>
          cases d with
          | proceed => exact absurd hr (keep fs hn)
          | remove =>
            refine ⟨hm, hw.1, confirm_remove.2 ⟨k, hc⟩, s, u, hs, ?_⟩
            by_contra hpre
            dsimp only at hr
            unfold rmtree at hr
            split_ifs at hr with hd
            · refine keep _ ?_ hr
              rw [if_neg (by rwa [List.isPrefixOf_iff_prefix]), hn]
            · exact hp hr
    · simp only [hm, Bool.not_true, Bool.false_eq_true, if_false, hw] at hr
      exact absurd hr (keep fs hn)
  · simp only [Bool.not_eq_true] at hm
    simp only [hm, Bool.not_false, if_true] at hr
    exact absurd hr hp

/-- After REMOVE and Y/YES the run is set up as if the folder had not been there. -/
theorem C57_remove (upper : String → String) (set : Settings) (file : ConfigFile C) (kw : InitKwargs)
    (answers : List String) (fs : FS C) (s : Spec) (u : C) (hs : Plan file kw s u) (hm : set.main = true)
    (ha : set.autocontinue = false) (hd : fs s.dump = some .dir) (hc : Confirms upper answers) :
    setup upper set file kw answers fs =
      ((setup upper { set with autocontinue := true } file kw [] (Without fs s.dump)).1, 2) := by
  rw [setup_plan hs, setup_plan hs]
  have hn : confirmInput upper answers = (.ok .remove, 2) := by
    obtain ⟨n, hn⟩ := confirm_remove.1 hc
    obtain ⟨a, b, rest, rfl, h1, h2⟩ := hc
    rw [hn]
    unfold confirmInput at hn
    simp only [h1, if_true] at hn
    split_ifs at hn
    · cases hn; rfl
    · cases hn
  simp only [hm, ha, hn, Bool.not_true, Bool.false_eq_true, if_false, Bool.not_false, Bool.true_and,
    Bool.false_and]
  have he : pathExists fs s.dump = true := by unfold pathExists; rw [hd]; rfl
  have hr : rmtree fs s.dump = .ok (Without fs s.dump) := by
    unfold rmtree isDir
    rw [hd]
    rfl
  simp only [he, if_true, hr]
  rfl

/-- On Y/YES the run continues with the existing folder, as with `autocontinue`. -/
theorem C57_continue (upper : String → String) (set : Settings) (file : ConfigFile C) (kw : InitKwargs)
    (answers : List String) (fs : FS C) (s : Spec) (u : C) (hs : Plan file kw s u) (hm : set.main = true)
    (ha : set.autocontinue = false) (hd : fs s.dump ≠ none) (hc : Continues upper answers) :
    setup upper set file kw answers fs =
      ((setup upper { set with autocontinue := true } file kw [] fs).1, 1) := by
  rw [setup_plan hs, setup_plan hs]
  have hn : confirmInput upper answers = (.ok .proceed, 1) := by
    obtain ⟨n, hn⟩ := confirm_proceed.1 hc
    obtain ⟨a, rest, rfl, h1⟩ := hc
    rw [hn]
    unfold confirmInput at hn
    dsimp only at hn
    rw [if_neg (by rcases h1 with h1 | h1 <;> simp [h1])] at hn
    split_ifs at hn
    · cases hn; rfl
    · cases hn
  simp only [hm, ha, hn, Bool.not_true, Bool.false_eq_true, if_false, Bool.not_false, Bool.true_and,
    Bool.false_and]
  have he : pathExists fs s.dump = true := by
    unfold pathExists
    exact Option.isSome_iff_ne_none.2 hd
  simp only [he, if_true]
  rfl

/-- Any other answer stops the program and nothing has been changed. -/
theorem C57_exit (upper : String → String) (set : Settings) (file : ConfigFile C) (kw : InitKwargs)
    (answers : List String) (fs : FS C) (s : Spec) (u : C) (hs : Plan file kw s u) (hm : set.main = true)
    (ha : set.autocontinue = false) (hd : fs s.dump ≠ none) (h1 : ¬ Continues upper answers)
    (h2 : ¬ Confirms upper answers) :
    (setup upper set file kw answers fs).1.fs = fs ∧
      ((setup upper set file kw answers fs).1.res = .error .systemExit ∨
        (setup upper set file kw answers fs).1.res = .error .eofError ∧
          (answers = [] ∨ ∃ a, answers = [a] ∧ upper a = "REMOVE")) := by
  rw [setup_plan hs]
  have he : pathExists fs s.dump = true := by
    unfold pathExists
    exact Option.isSome_iff_ne_none.2 hd
  simp only [hm, ha, he, Bool.not_true, Bool.false_eq_true, if_false, Bool.not_false, Bool.true_and, if_true]
  cases hc : confirmInput upper answers with
  | mk d k =>
    cases d with
    | ok d =>
      cases d with
      | proceed => exact absurd (confirm_proceed.2 ⟨k, hc⟩) h1
      | remove => exact absurd (confirm_remove.2 ⟨k, hc⟩) h2
    | error e =>
      refine ⟨rfl, ?_⟩
      unfold confirmInput at hc
      cases answers with
      | nil => cases hc; exact .inr ⟨rfl, .inl rfl⟩
      | cons a l =>
        dsimp only at hc
        split_ifs at hc with h3 h4
        · cases l with
          | nil => cases hc; exact .inr ⟨rfl, .inr ⟨a, rfl, h3⟩⟩
          | cons b rest =>
            dsimp only at hc
            split_ifs at hc with h5
            · cases hc
            · cases hc; exact .inl rfl
        · cases hc
        · cases hc; exact .inl rfl

/-- Nothing is asked (and the answers do not matter) with `autocontinue`, in a worker process, or if the folder
of the run does not exist. -/
theorem C57_asks (upper : String → String) (set : Settings) (file : ConfigFile C) (kw : InitKwargs)
    (answers : List String) (fs : FS C)
    (h : set.autocontinue = true ∨ set.main = false ∨ ∀ s u, Plan file kw s u → fs s.dump = none) :
    (setup upper set file kw answers fs).2 = 0 ∧
      ∀ answers', setup upper set file kw answers' fs = setup upper set file kw answers fs := by
  rcases setup_cases upper set file kw with ⟨r, h'⟩ | ⟨s, u, hs⟩
  · simp only [h', implies_true, and_self]
  simp only [setup_plan hs]
  rcases h with h | h | h
  · simp only [h, Bool.not_true, Bool.false_and, Bool.false_eq_true, if_false, implies_true, and_true]
    split_ifs <;> rfl
  · simp only [h, Bool.not_false, if_true, implies_true, and_self]
  · have he : pathExists fs s.dump = false := by
      unfold pathExists; rw [h s u hs]; rfl
    simp only [he, Bool.and_false, Bool.false_eq_true, if_false, implies_true, and_true]
    split_ifs <;> rfl

/-- A worker process changes nothing. -/
theorem C57_worker (upper : String → String) (set : Settings) (file : ConfigFile C) (kw : InitKwargs)
    (answers : List String) (fs : FS C) (h : set.main = false) :
    (setup upper set file kw answers fs).1.fs = fs := by
  rcases setup_cases upper set file kw with ⟨r, h'⟩ | ⟨s, u, hs⟩
  · rw [h']
  simp only [setup_plan hs, h, Bool.not_false, if_true]

/-! ## C58 -/

/-- Unless the user asks for the removal of the folder, everything that exists is left untouched. The only
exception is the copy of the config file if there are `init_kwargs`. -/
theorem C58_keep (upper : String → String) (set : Settings) (file : ConfigFile C) (kw : InitKwargs)
    (answers : List String) (fs : FS C)
    (h : set.autocontinue = true ∨ ¬ Confirms upper answers) (p : FPath) (n : Node C) (hp : fs p = some n) :
    (setup upper set file kw answers fs).1.fs p = some n ∨
      (kw ≠ [] ∧ set.copy = true ∧ ∃ s u, Plan file kw s u ∧ p = copyPath s.cfgDir s.config) := by
  rcases setup_cases upper set file kw with ⟨r, h'⟩ | ⟨s, u, hs⟩
  · rw [h']; exact .inl hp
  have key : (setupFolders set s (!kw.isEmpty) u fs).fs p = some n ∨
      (kw ≠ [] ∧ set.copy = true ∧ ∃ s u, Plan file kw s u ∧ p = copyPath s.cfgDir s.config) := by
    by_cases hk : kw = []
    · subst hk
      exact .inl (setupFolders_keep set s false u fs (.inl rfl) p n hp)
    by_cases hc : set.copy = true
    · by_cases ht : p = copyPath s.cfgDir s.config
      · exact .inr ⟨hk, hc, s, u, hs, ht⟩
      · exact .inl (setupFolders_keepBut set s _ u fs p n ht hp)
    · exact .inl (setupFolders_keep set s _ u fs (.inr (by simpa using hc)) p n hp)
  rw [setup_plan hs]
  split_ifs with h1 h2
  · exact .inl hp
  · cases hc : confirmInput upper answers with
    | mk d k =>
      cases d with
      | error e => exact .inl hp
      | ok d =>
        cases d with
        | proceed => exact key
        | remove =>
          exfalso
          rcases h with h | h
          · simp [h] at h2
          · exact h (confirm_remove.2 ⟨k, hc⟩)
  · exact key

/-- The same for the histories of runs without `init_kwargs` (with any settings and config files). -/
theorem C58_history (upper : String → String) (runs : List (Settings × ConfigFile C × List String))
    (h : ∀ r ∈ runs, r.1.autocontinue = true ∨ ¬ Confirms upper r.2.2) (fs : FS C) (p : FPath) (n : Node C)
    (hp : fs p = some n) :
    (runs.foldl (fun fs r => (setup upper r.1 r.2.1 [] r.2.2 fs).1.fs) fs) p = some n := by
  induction runs generalizing fs with
  | nil => exact hp
  | cons r runs ih =>
    rw [List.foldl_cons]
    refine ih (fun r' hr => h r' (by simp [hr])) _ ?_
    rcases C58_keep upper r.1 r.2.1 [] r.2.2 fs (h r (by simp)) p n hp with h' | h'
    · exact h'
    · exact absurd rfl h'.1

/-- Nothing is created but the folders of the run and, with `copy=True`, the copies. -/
theorem C58_only (upper : String → String) (set : Settings) (file : ConfigFile C) (kw : InitKwargs)
    (answers : List String) (fs : FS C) (p : FPath) (hp : fs p = none)
    (hc : (setup upper set file kw answers fs).1.fs p ≠ none) :
    ∃ s u, Plan file kw s u ∧
      ((∃ f ∈ ["results", "cfg", "dumps"], p <+: s.dump ++ [f]) ∨
        (set.copy = true ∧ ∃ m ∈ s.config :: s.modules, p = copyPath s.cfgDir m)) := by
  rcases setup_cases upper set file kw with ⟨r, h'⟩ | ⟨s, u, hs⟩
  · rw [h'] at hc; exact absurd hp hc
  refine ⟨s, u, hs, ?_⟩
  by_contra hno
  push Not at hno
  obtain ⟨hn1, hn2⟩ := hno
  have hf : ∀ q ∈ folders s.dump, p ∉ q.inits := by
    intro q hq hmem
    rw [List.mem_inits] at hmem
    unfold folders at hq
    simp only [List.mem_cons, List.not_mem_nil, or_false] at hq
    rcases hq with rfl | rfl | rfl | rfl
    · exact hn1 "cfg" (by simp) (hmem.trans (List.prefix_append _ _))
    · exact hn1 "results" (by simp) hmem
    · exact hn1 "cfg" (by simp) hmem
    · exact hn1 "dumps" (by simp) hmem
  have key : ∀ fs' : FS C, fs' p = none → (setupFolders set s (!kw.isEmpty) u fs').fs p = none := by
    intro fs' hp
    rw [setupFolders_eq]
    split_ifs with hcp
    · unfold copyAll
      rw [modules_other s p _ _ fun m hm => hn2 hcp m (by simp [hm]),
        configStep_other s _ u p _ (hn2 hcp _ (by simp)), foldersOut_new s fs' p hf, hp]
    · rw [foldersOut_new s fs' p hf, hp]
  rw [setup_plan hs] at hc
  split_ifs at hc with h1 h2
  · exact hc hp
  · cases hcf : confirmInput upper answers with
    | mk d k =>
      rw [hcf] at hc
      cases d with
      | error e => exact hc hp
      | ok d =>
        cases d with
        | proceed => exact hc (key fs hp)
        | remove =>
          dsimp only at hc
          unfold rmtree at hc
          split_ifs at hc
          · exact hc (key _ (by split_ifs <;> [rfl; exact hp]))
          · exact hc hp
  · exact hc (key fs hp)

/-- The config file: with `init_kwargs` the updated config is written; without them the existing copy is kept,
and if there is none the original file is copied. -/
theorem C58_config (upper : String → String) (set : Settings) (file : ConfigFile C) (kw : InitKwargs)
    (answers : List String) (fs : FS C) (s : Spec) (u : C) (hs : Plan file kw s u) (hm : set.main = true)
    (ha : set.autocontinue = true) (hc : set.copy = true) (hne : s.config ≠ [])
    (hok : (setup upper set file kw answers fs).1.res = .ok ()) :
    (kw ≠ [] → (setup upper set file kw answers fs).1.fs (copyPath s.cfgDir s.config) = some (.file u)) ∧
    (kw = [] → (fs (copyPath s.cfgDir s.config) = none →
      ∃ c, fs s.config = some (.file c) ∧
        (setup upper set file kw answers fs).1.fs (copyPath s.cfgDir s.config) = some (.file c))) := by
  rw [setup_plan hs] at hok ⊢
  simp only [hm, ha, Bool.not_true, Bool.false_eq_true, if_false, Bool.false_and] at hok ⊢
  rw [setupFolders_eq, if_pos hc] at hok ⊢
  unfold copyAll at hok ⊢
  have h1 := steps_ok hok
  obtain ⟨h2, h3⟩ := step_ok h1
  constructor
  · intro hk
    refine modules_keep s _ _ _ _ ?_
    have : (!kw.isEmpty) = true := by cases kw with
      | nil => exact absurd rfl hk
      | cons a b => rfl
    rw [this] at h3 ⊢
    exact write_at (copyConfig_override h3)
  · rintro rfl hn
    have hnf : (foldersOut s fs).fs (copyPath s.cfgDir s.config) = none := by
      rw [foldersOut_new s fs _ (copyPath_not_folder s _ hne), hn]
    simp only [List.isEmpty_nil, Bool.not_true] at h3 ⊢
    obtain ⟨c, hcc, hw⟩ := copy_ok (copyConfig_copies h3 hnf)
    refine ⟨c, ?_, modules_keep s _ _ _ _ (write_at hw)⟩
    by_cases hfold : ∀ p ∈ folders s.dump, s.config ∉ p.inits
    · rw [← foldersOut_new s fs _ hfold, hcc]
    · -- a path of a folder is no file
      cases hfc : fs s.config with
      | some n =>
        rw [foldersOut_keep s fs _ n hfc] at hcc
        exact hcc
      | none =>
        exfalso
        have hnd : ∀ (l : List FPath) (o : Out C), (∀ c, o.fs s.config ≠ some (.file c)) →
            ∀ c, (l.foldl (fun o p => o.step fun fs => makeFolder fs p) o).fs s.config ≠ some (.file c) := by
          intro l o ho
          refine steps_rel (fun a b => (∀ c, a s.config ≠ some (.file c)) → ∀ c, b s.config ≠ some (.file c))
            (fun _ h => h) (fun _ _ _ h h' x => h' (h x)) makeFolder ?_ l o ho
          intro a b x hx hf c hbc
          unfold makeFolder at hx
          split_ifs at hx with h4
          · cases hx; exact hf c hbc
          · unfold mkdir at hx
            split_ifs at hx with h5
            cases hx
            dsimp only at hbc
            split_ifs at hbc with h6
            · cases hbc
            · exact hf c hbc
        exact hnd _ ⟨fs, .ok ()⟩ (fun c => by dsimp only; rw [hfc]; simp) c hcc

/-- The modules: after a successful set-up there is a copy for every module; a copy that was not there before is
the content of the first module of that name. -/
theorem C58_modules (upper : String → String) (set : Settings) (file : ConfigFile C) (kw : InitKwargs)
    (answers : List String) (fs : FS C) (s : Spec) (u : C) (hs : Plan file kw s u) (hm : set.main = true)
    (ha : set.autocontinue = true) (hc : set.copy = true)
    (hok : (setup upper set file kw answers fs).1.res = .ok ()) :
    (∀ m ∈ s.modules, (setup upper set file kw answers fs).1.fs (copyPath s.cfgDir m) ≠ none) ∧
    ∀ m pre post, s.modules = pre ++ m :: post → m ≠ [] →
      (∀ m' ∈ pre, copyPath s.cfgDir m' ≠ copyPath s.cfgDir m) →
      copyPath s.cfgDir m ≠ copyPath s.cfgDir s.config → fs (copyPath s.cfgDir m) = none →
      ∃ c, (setup upper set file kw answers fs).1.fs m = some (.file c) ∧
        (setup upper set file kw answers fs).1.fs (copyPath s.cfgDir m) = some (.file c) := by
  rw [setup_plan hs] at hok ⊢
  simp only [hm, ha, Bool.not_true, Bool.false_eq_true, if_false, Bool.false_and] at hok ⊢
  rw [setupFolders_eq, if_pos hc] at hok ⊢
  unfold copyAll at hok ⊢
  constructor
  · intro m hmem
    obtain ⟨pre, post, hl⟩ := List.append_of_mem hmem
    rw [hl] at hok ⊢
    obtain ⟨a, b, -, hab, heq⟩ := steps_mem hok
    rw [heq]
    have := Keep.exists (modules_keep s post b) (copyModule_exists hab)
    exact Option.isSome_iff_ne_none.1 this
  · intro m pre post hl hne hpre hcfg hnone
    rw [hl] at hok ⊢
    obtain ⟨a, b, ha', hab, heq⟩ := steps_mem hok
    rw [heq]
    have hna : a.fs (copyPath s.cfgDir m) = none := by
      rw [ha', modules_other s _ _ _ fun m' hm' => (hpre m' hm').symm, configStep_other s _ u _ _ hcfg,
        foldersOut_new s fs _ (copyPath_not_folder s m hne), hnone]
    obtain ⟨c, h1, h2⟩ := copyModule_copies hab hna
    exact ⟨c, modules_keep s post b _ _ (copyModule_keep hab _ _ h1), modules_keep s post b _ _ h2⟩

/-- Setting up twice is the same as setting up once. -/
theorem C58_twice (upper : String → String) (set : Settings) (file : ConfigFile C) (kw : InitKwargs)
    (answers answers' : List String) (fs : FS C) (ha : set.autocontinue = true)
    (hok : (setup upper set file kw answers fs).1.res = .ok ()) :
    setup upper set file kw answers' (setup upper set file kw answers fs).1.fs =
      (⟨(setup upper set file kw answers fs).1.fs, .ok ()⟩, 0) := by
  rcases setup_cases upper set file kw with ⟨r, h'⟩ | ⟨s, u, hs⟩
  · rw [h'] at hok
    dsimp only at hok
    subst hok
    simp only [h']
  by_cases hm : set.main = true
  swap
  · simp only [Bool.not_eq_true] at hm
    simp only [setup_plan hs, hm, Bool.not_false, if_true]
  have e : ∀ (answers : List String) (fs : FS C), setup upper set file kw answers fs =
      (setupFolders set s (!kw.isEmpty) u fs, 0) := by
    intro answers fs
    rw [setup_plan hs]
    simp only [hm, ha, Bool.not_true, Bool.false_eq_true, if_false, Bool.false_and]
  rw [e] at hok ⊢
  rw [e]
  congr 1
  dsimp only at hok ⊢
  generalize hov : (!kw.isEmpty) = ov at hok ⊢
  generalize hres : setupFolders set s ov u fs = o at hok ⊢
  have hfin : (foldersOut s fs).res = .ok () ∧ Keep (foldersOut s fs).fs o.fs ∨
      (set.copy = true ∧ ov = true ∧ (foldersOut s fs).res = .ok () ∧
        KeepBut (copyPath s.cfgDir s.config) (foldersOut s fs).fs o.fs ∧
        o.fs (copyPath s.cfgDir s.config) = some (.file u)) := by
    rw [setupFolders_eq] at hres
    split_ifs at hres with hc
    · unfold copyAll at hres
      rw [← hres] at hok
      have h1 := steps_ok hok
      obtain ⟨h2, h3⟩ := step_ok h1
      cases ov with
      | false =>
        refine .inl ⟨h2, ?_⟩
        rw [← hres]
        exact (copyConfig_keep h3).trans (modules_keep s _ _)
      | true =>
        refine .inr ⟨hc, rfl, h2, ?_, ?_⟩
        · rw [← hres]
          refine KeepBut.trans (fun p n hp hn => ?_) ((modules_keep s _ _).but _)
          rw [copyConfig_other h3 hp, hn]
        · rw [← hres]
          refine modules_keep s _ _ _ _ ?_
          exact write_at (copyConfig_override h3)
    · rw [← hres] at hok ⊢
      exact .inl ⟨hok, .refl _⟩
  -- all folders exist
  have hfold : ∀ p ∈ folders s.dump, pathExists o.fs p = true := by
    intro p hp
    rcases hfin with ⟨h1, h2⟩ | ⟨_, _, h1, h2, h3⟩
    · exact h2.exists (foldersOut_exists h1 hp)
    · have := foldersOut_exists h1 hp
      by_cases hq : p = copyPath s.cfgDir s.config
      · unfold pathExists; rw [hq, h3]; rfl
      · unfold pathExists at this ⊢
        obtain ⟨n, hn⟩ := Option.isSome_iff_exists.1 this
        rw [h2 p n hq hn]; rfl
  have hfo : foldersOut s o.fs = ⟨o.fs, .ok ()⟩ := by
    unfold foldersOut
    exact steps_id fun p hp => by unfold makeFolder; rw [if_pos (hfold p hp)]
  rw [setupFolders_eq, hfo]
  split_ifs with hc
  · unfold copyAll
    have hmod : ∀ m ∈ s.modules, copyModule s o.fs m = .ok o.fs := by
      intro m hmem
      rw [setupFolders_eq, if_pos hc] at hres
      unfold copyAll at hres
      obtain ⟨pre, post, hl⟩ := List.append_of_mem hmem
      rw [hl] at hres
      rw [← hres] at hok
      obtain ⟨a, b, -, hab, heq⟩ := steps_mem hok
      have : pathExists o.fs (copyPath s.cfgDir m) = true := by
        rw [← hres, heq]
        exact Keep.exists (modules_keep s post b) (copyModule_exists hab)
      unfold copyModule
      dsimp only
      rw [if_pos this]
    have hcfg : (⟨o.fs, .ok ()⟩ : Out C).step (copyConfig s ov u) = ⟨o.fs, .ok ()⟩ := by
      unfold Out.step
      dsimp only
      have : copyConfig s ov u o.fs = .ok o.fs := by
        rw [setupFolders_eq, if_pos hc] at hres
        unfold copyAll at hres
        rw [← hres] at hok
        obtain ⟨h2, h3⟩ := step_ok (steps_ok hok)
        have hk := modules_keep s s.modules ((foldersOut s fs).step (copyConfig s ov u))
        rw [hres] at hk
        cases ov with
        | false =>
          have hex := hk.exists (copyConfig_exists h3)
          unfold copyConfig
          dsimp only
          rw [if_pos (by simp [hex])]
        | true =>
          replace h3 := copyConfig_override h3
          unfold copyConfig
          simp only [Bool.not_true, Bool.and_false, Bool.false_eq_true, if_false]
          have hat := hk _ _ (write_at h3)
          have hcond : (isDir ((foldersOut s fs).fs) (copyPath s.cfgDir s.config).dropLast) = true := by
            unfold write at h3
            split_ifs at h3 with h4
            simp only [Bool.and_eq_true] at h4
            exact h4.1
          have hne : (copyPath s.cfgDir s.config).dropLast ≠ copyPath s.cfgDir s.config := by
            intro h
            have := congrArg List.length h
            rw [List.length_dropLast] at this
            have : (copyPath s.cfgDir s.config).length = 0 := by omega
            unfold copyPath Spec.cfgDir at this
            split at this <;> simp at this
          have hpar : o.fs (copyPath s.cfgDir s.config).dropLast = some .dir := by
            rcases hfin with ⟨_, h⟩ | ⟨_, _, _, h, _⟩
            · refine h _ _ ?_
              unfold isDir at hcond
              split at hcond
              · assumption
              · cases hcond
            · refine h _ _ hne ?_
              unfold isDir at hcond
              split at hcond
              · assumption
              · cases hcond
          unfold write
          rw [if_pos (by unfold isDir; rw [hpar, hat]; rfl)]
          congr 1
          funext q
          split_ifs with hq
          · rw [hq, hat]
          · rfl
      rw [this]
    rw [hcfg]
    rw [steps_id hmod]
  · rfl

/-! ## Examples -/

section Examples

/-- A config file with one module, the folder of the run is `/run`. -/
def exFile : ConfigFile String where
  sections := some [("PROCESS_SPECS", [("ncpu", "1")])]
  spec := fun _ => .ok ⟨["run"], ["home", "a.ini"], [["home", "m.py"], ["other", "m.py"]]⟩
  text := fun s => toString (s.map fun e => (e.1, e.2))

/-- The original files and a folder of a previous run with one result. -/
def exFs : FS String := fun p =>
  if p = [] ∨ p = ["home"] ∨ p = ["run"] ∨ p = ["run", "results"] ∨ p = ["other"] then some .dir
  else if p = ["home", "a.ini"] then some (.file "config")
  else if p = ["home", "m.py"] then some (.file "module")
  else if p = ["other", "m.py"] then some (.file "other module")
  else if p = ["run", "results", "fit_db.h5"] then some (.file "data")
  else none

def exSet (auto : Bool) : Settings := ⟨auto, true, true⟩

def exUpper (s : String) : String := if s = "remove" then "REMOVE" else if s = "y" then "Y" else s

theorem exPlan : Plan exFile [] ⟨["run"], ["home", "a.ini"], [["home", "m.py"], ["other", "m.py"]]⟩
    (exFile.text [("PROCESS_SPECS", [("ncpu", "1")])]) :=
  ⟨_, _, rfl, rfl, rfl, rfl⟩

example : Confirms exUpper ["remove", "y"] := ⟨_, _, _, rfl, by decide, .inl (by decide)⟩
example : Continues exUpper ["y"] := ⟨_, _, rfl, .inl (by decide)⟩
example : ¬ Continues exUpper ["maybe"] ∧ ¬ Confirms exUpper ["maybe"] :=
  ⟨by rintro ⟨a, r, h, h'⟩; cases h; revert h'; decide, by rintro ⟨a, b, r, h, _⟩; cases h⟩

/-- The result is removed … -/
example : exFs ["run", "results", "fit_db.h5"] ≠ none ∧
    (setup exUpper (exSet false) exFile [] ["remove", "y"] exFs).1.fs ["run", "results", "fit_db.h5"] = none := by
  constructor <;> decide +kernel

/-- … and kept in these cases. -/
example : (setup exUpper (exSet false) exFile [] ["y"] exFs).1.fs ["run", "results", "fit_db.h5"] = some (.file "data") ∧
    (setup exUpper (exSet false) exFile [] ["remove", "n"] exFs).1.fs ["run", "results", "fit_db.h5"] = some (.file "data") ∧
    (setup exUpper (exSet true) exFile [] [] exFs).1.fs ["run", "results", "fit_db.h5"] = some (.file "data") := by
  refine ⟨rfl, rfl, rfl⟩

/-- The set-up succeeds and copies the files. -/
example : (setup exUpper (exSet true) exFile [] [] exFs).1.res = .ok () ∧
    (setup exUpper (exSet true) exFile [] [] exFs).1.fs ["run", "cfg", "a.ini"] = some (.file "config") ∧
    (setup exUpper (exSet true) exFile [] [] exFs).1.fs ["run", "cfg", "m.py"] = some (.file "module") := by
  refine ⟨rfl, rfl, rfl⟩

/-- With `init_kwargs` the config is updated. -/
example : (setup exUpper (exSet true) exFile [("PROCESS_SPECS", .dict [("ncpu", "4")])] [] exFs).1.res = .ok () := by
  rfl

end Examples

/-- Two modules with the same file name: only one of them is copied; the copy that belongs to the second one has
the content of the first. -/
theorem C58_collision : ∃ (file : ConfigFile String) (fs : FS String) (s : Spec) (u : String) (m : FPath),
    Plan file [] s u ∧ m ∈ s.modules ∧
    (setup id ⟨true, true, true⟩ file [] [] fs).1.res = .ok () ∧
    (setup id ⟨true, true, true⟩ file [] [] fs).1.fs m = some (.file "other module") ∧
    (setup id ⟨true, true, true⟩ file [] [] fs).1.fs (copyPath s.cfgDir m) = some (.file "module") :=
  ⟨exFile, exFs, _, _, ["other", "m.py"], exPlan, by simp, rfl, rfl, rfl⟩

end Process
end RT1
