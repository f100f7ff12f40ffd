import Verif.Model.Process
import Verif.Lemmas.Dict

/-! # Lemmas about the set-up of a run -/

namespace RT1
namespace Process
variable {C : Type}

/-- Everything that exists in `fs` is unchanged in `fs'`. -/
def Keep (fs fs' : FS C) : Prop := ∀ p n, fs p = some n → fs' p = some n

/-- The same except at `t`. -/
def KeepBut (t : FPath) (fs fs' : FS C) : Prop := ∀ p n, p ≠ t → fs p = some n → fs' p = some n

theorem Keep.refl (fs : FS C) : Keep fs fs := fun _ _ h => h

theorem Keep.trans {a b c : FS C} (h : Keep a b) (h' : Keep b c) : Keep a c := fun p n x => h' p n (h p n x)

theorem Keep.but {a b : FS C} (t : FPath) (h : Keep a b) : KeepBut t a b := fun p n _ x => h p n x

theorem KeepBut.trans {t : FPath} {a b c : FS C} (h : KeepBut t a b) (h' : KeepBut t b c) : KeepBut t a c :=
  fun p n x y => h' p n x (h p n x y)

theorem Keep.exists {a b : FS C} (h : Keep a b) {p : FPath} (hp : pathExists a p = true) :
    pathExists b p = true := by
  unfold pathExists at *
  obtain ⟨n, hn⟩ := Option.isSome_iff_exists.1 hp
  rw [h p n hn]; rfl

theorem mkdir_keep {fs fs' : FS C} {p : FPath} (h : mkdir fs p = .ok fs') : Keep fs fs' := by
  unfold mkdir at h
  split_ifs at h with hf
  cases h
  intro q n hq
  by_cases hm : q ∈ p.inits
  · simp only [hm, if_true]
    cases n with
    | dir => rfl
    | file c =>
      exact absurd (List.any_eq_true.2 ⟨q, hm, by unfold isFile; rw [hq]⟩) hf
  · simp only [hm, if_false, hq]

theorem mkdir_exists {fs fs' : FS C} {p : FPath} (h : mkdir fs p = .ok fs') : pathExists fs' p = true := by
  unfold mkdir at h
  split_ifs at h with hf
  cases h
  unfold pathExists
  have : p ∈ p.inits := by rw [List.mem_inits]
  simp only [this, if_true]; rfl

theorem mkdir_new {fs fs' : FS C} {p q : FPath} (h : mkdir fs p = .ok fs') (hq : q ∉ p.inits) : fs' q = fs q := by
  unfold mkdir at h
  split_ifs at h with hf
  cases h
  simp only [hq, if_false]

theorem makeFolder_keep {fs fs' : FS C} {p : FPath} (h : makeFolder fs p = .ok fs') : Keep fs fs' := by
  unfold makeFolder at h
  split_ifs at h with he
  · cases h; exact .refl _
  · exact mkdir_keep h

theorem makeFolder_exists {fs fs' : FS C} {p : FPath} (h : makeFolder fs p = .ok fs') :
    pathExists fs' p = true := by
  unfold makeFolder at h
  split_ifs at h with he
  · cases h; exact he
  · exact mkdir_exists h

theorem makeFolder_new {fs fs' : FS C} {p q : FPath} (h : makeFolder fs p = .ok fs') (hq : q ∉ p.inits) :
    fs' q = fs q := by
  unfold makeFolder at h
  split_ifs at h with he
  · cases h; rfl
  · exact mkdir_new h hq

theorem write_at {fs fs' : FS C} {p : FPath} {c : C} (h : write fs p c = .ok fs') : fs' p = some (.file c) := by
  unfold write at h
  split_ifs at h with hf
  cases h; simp

theorem write_other {fs fs' : FS C} {p q : FPath} {c : C} (h : write fs p c = .ok fs') (hq : q ≠ p) :
    fs' q = fs q := by
  unfold write at h
  split_ifs at h with hf
  cases h; simp [hq]

theorem copy_ok {fs fs' : FS C} {src dst : FPath} (h : copy fs src dst = .ok fs') :
    ∃ c, fs src = some (.file c) ∧ write fs dst c = .ok fs' := by
  unfold copy at h
  split at h
  · rename_i c hc; exact ⟨c, hc, h⟩
  · cases h

theorem copyModule_keep {s : Spec} {fs fs' : FS C} {m : FPath} (h : copyModule s fs m = .ok fs') :
    Keep fs fs' := by
  unfold copyModule at h
  dsimp only at h
  split_ifs at h with he
  · cases h; exact .refl _
  · obtain ⟨c, _, hw⟩ := copy_ok h
    intro q n hq
    rw [write_other hw, hq]
    rintro rfl
    exact he (by unfold pathExists; rw [hq]; rfl)

theorem copyModule_exists {s : Spec} {fs fs' : FS C} {m : FPath} (h : copyModule s fs m = .ok fs') :
    pathExists fs' (copyPath s.cfgDir m) = true := by
  unfold copyModule at h
  dsimp only at h
  split_ifs at h with he
  · cases h; exact he
  · obtain ⟨c, _, hw⟩ := copy_ok h
    unfold pathExists; rw [write_at hw]; rfl

theorem copyModule_other {s : Spec} {fs fs' : FS C} {m q : FPath} (h : copyModule s fs m = .ok fs')
    (hq : q ≠ copyPath s.cfgDir m) : fs' q = fs q := by
  unfold copyModule at h
  dsimp only at h
  split_ifs at h with he
  · cases h; rfl
  · obtain ⟨c, _, hw⟩ := copy_ok h
    exact write_other hw hq

theorem copyModule_copies {s : Spec} {fs fs' : FS C} {m : FPath} (h : copyModule s fs m = .ok fs')
    (hn : fs (copyPath s.cfgDir m) = none) :
    ∃ c, fs m = some (.file c) ∧ fs' (copyPath s.cfgDir m) = some (.file c) := by
  unfold copyModule at h
  dsimp only at h
  rw [if_neg (by unfold pathExists; rw [hn]; simp)] at h
  obtain ⟨c, hc, hw⟩ := copy_ok h
  exact ⟨c, hc, write_at hw⟩

theorem copyConfig_other {s : Spec} {ov : Bool} {u : C} {fs fs' : FS C} {q : FPath}
    (h : copyConfig s ov u fs = .ok fs') (hq : q ≠ copyPath s.cfgDir s.config) : fs' q = fs q := by
  unfold copyConfig at h
  dsimp only at h
  split_ifs at h with h1 h2
  · cases h; rfl
  · obtain ⟨c, _, hw⟩ := copy_ok h
    exact write_other hw hq
  · exact write_other h hq

theorem copyConfig_keep {s : Spec} {u : C} {fs fs' : FS C} (h : copyConfig s false u fs = .ok fs') :
    Keep fs fs' := by
  unfold copyConfig at h
  dsimp only at h
  split_ifs at h with h1 h2
  · cases h; exact .refl _
  · obtain ⟨c, _, hw⟩ := copy_ok h
    intro q n hq
    rw [write_other hw, hq]
    rintro rfl
    exact h1 (by unfold pathExists; rw [hq]; rfl)
  · simp at h2

theorem copyConfig_override {s : Spec} {u : C} {fs fs' : FS C} (h : copyConfig s true u fs = .ok fs') :
    write fs (copyPath s.cfgDir s.config) u = .ok fs' := by
  unfold copyConfig at h
  simpa using h

theorem copyConfig_copies {s : Spec} {u : C} {fs fs' : FS C} (h : copyConfig s false u fs = .ok fs')
    (hn : fs (copyPath s.cfgDir s.config) = none) : copy fs s.config (copyPath s.cfgDir s.config) = .ok fs' := by
  unfold copyConfig pathExists at h
  dsimp only at h
  rw [hn] at h
  simpa using h

theorem copyConfig_exists {s : Spec} {ov : Bool} {u : C} {fs fs' : FS C} (h : copyConfig s ov u fs = .ok fs') :
    pathExists fs' (copyPath s.cfgDir s.config) = true := by
  unfold copyConfig at h
  dsimp only at h
  split_ifs at h with h1 h2
  · cases h
    simp only [Bool.and_eq_true] at h1
    exact h1.1
  · obtain ⟨c, _, hw⟩ := copy_ok h
    unfold pathExists; rw [write_at hw]; rfl
  · unfold pathExists; rw [write_at h]; rfl

/-! ## Sequences of steps -/

/-- A relation that holds for every step holds for the sequence. -/
theorem steps_rel {α : Type} (R : FS C → FS C → Prop) (hr : ∀ a, R a a) (ht : ∀ a b c, R a b → R b c → R a c)
    (f : FS C → α → Except PyErr (FS C)) (hf : ∀ a b x, f a x = .ok b → R a b) :
    ∀ (l : List α) (o : Out C), R o.fs (l.foldl (fun o x => o.step fun fs => f fs x) o).fs
  | [], o => hr _
  | x :: l, o => by
    simp only [List.foldl_cons]
    refine ht _ _ _ ?_ (steps_rel R hr ht f hf l _)
    unfold Out.step
    split
    · exact hr _
    · try dsimp only
      cases hx : f o.fs x with
      | ok b => exact hf _ _ _ hx
      | error e => exact hr _

theorem step_rel (R : FS C → FS C → Prop) (hr : ∀ a, R a a)
    (f : FS C → Except PyErr (FS C)) (hf : ∀ a b, f a = .ok b → R a b) (o : Out C) :
    R o.fs (o.step f).fs := by
  unfold Out.step
  split
  · exact hr _
  · try dsimp only
    cases hx : f o.fs with
    | ok b => exact hf _ _ hx
    | error e => exact hr _

theorem step_ok {o : Out C} {f : FS C → Except PyErr (FS C)} (h : (o.step f).res = .ok ()) :
    o.res = .ok () ∧ f o.fs = .ok (o.step f).fs := by
  unfold Out.step at h ⊢
  split
  · rename_i e he
    rw [he] at h
    simp only [he] at h
    cases h
  · rename_i he
    simp only [he] at h ⊢
    cases hx : f o.fs with
    | ok b => simp
    | error e => simp [hx] at h

theorem steps_ok {α : Type} {f : FS C → α → Except PyErr (FS C)} : ∀ {l : List α} {o : Out C},
    (l.foldl (fun o x => o.step fun fs => f fs x) o).res = .ok () → o.res = .ok ()
  | [], _, h => h
  | x :: l, o, h => (step_ok (steps_ok (l := l) h)).1

/-- The states before and after the step for `x`. -/
theorem steps_mem {α : Type} {f : FS C → α → Except PyErr (FS C)} {pre post : List α} {x : α} {o : Out C}
    (h : ((pre ++ x :: post).foldl (fun o x => o.step fun fs => f fs x) o).res = .ok ()) :
    ∃ a b : Out C, a = pre.foldl (fun o x => o.step fun fs => f fs x) o ∧ f a.fs x = .ok b.fs ∧
      (pre ++ x :: post).foldl (fun o x => o.step fun fs => f fs x) o =
        post.foldl (fun o x => o.step fun fs => f fs x) b := by
  rw [List.foldl_append, List.foldl_cons] at *
  exact ⟨_, _, rfl, (step_ok (steps_ok h)).2, rfl⟩

theorem steps_id {α : Type} {f : FS C → α → Except PyErr (FS C)} {fs : FS C} : ∀ {l : List α},
    (∀ x ∈ l, f fs x = .ok fs) → l.foldl (fun (o : Out C) x => o.step fun fs => f fs x) ⟨fs, .ok ()⟩ = ⟨fs, .ok ()⟩
  | [], _ => rfl
  | x :: l, h => by
    rw [List.foldl_cons]
    have : (⟨fs, .ok ()⟩ : Out C).step (fun fs => f fs x) = ⟨fs, .ok ()⟩ := by
      unfold Out.step; simp only [h x (by simp)]
    rw [this]
    exact steps_id fun y hy => h y (by simp [hy])

/-! ## The folders and the copies -/

/-- The state after the folders have been created. -/
def foldersOut (s : Spec) (fs : FS C) : Out C :=
  (folders s.dump).foldl (fun o p => o.step fun fs => makeFolder fs p) ⟨fs, .ok ()⟩

theorem foldersOut_keep (s : Spec) (fs : FS C) : Keep fs (foldersOut s fs).fs :=
  steps_rel Keep Keep.refl (fun _ _ _ => Keep.trans) makeFolder (fun _ _ _ => makeFolder_keep) _ ⟨fs, .ok ()⟩

theorem modules_keep (s : Spec) (l : List FPath) (o : Out C) :
    Keep o.fs (l.foldl (fun o m => o.step fun fs => copyModule s fs m) o).fs :=
  steps_rel Keep Keep.refl (fun _ _ _ => Keep.trans) (copyModule s) (fun _ _ _ => copyModule_keep) l o

theorem setupFolders_eq (set : Settings) (s : Spec) (ov : Bool) (u : C) (fs : FS C) :
    setupFolders set s ov u fs = if set.copy then copyAll s ov u (foldersOut s fs) else foldersOut s fs := rfl

theorem setupFolders_keep (set : Settings) (s : Spec) (ov : Bool) (u : C) (fs : FS C)
    (h : ov = false ∨ set.copy = false) : Keep fs (setupFolders set s ov u fs).fs := by
  rw [setupFolders_eq]
  split_ifs with hc
  · obtain rfl : ov = false := by
      rcases h with h | h
      · exact h
      · rw [hc] at h; cases h
    refine (foldersOut_keep s fs).trans (Keep.trans ?_ (modules_keep s _ _))
    exact step_rel Keep Keep.refl _ (fun _ _ => copyConfig_keep) _
  · exact foldersOut_keep s fs

theorem setupFolders_keepBut (set : Settings) (s : Spec) (ov : Bool) (u : C) (fs : FS C) :
    KeepBut (copyPath s.cfgDir s.config) fs (setupFolders set s ov u fs).fs := by
  rw [setupFolders_eq]
  split_ifs with hc
  · refine ((foldersOut_keep s fs).but _).trans (KeepBut.trans ?_ ((modules_keep s _ _).but _))
    refine step_rel (KeepBut _) (fun a => (Keep.refl a).but _) _ (fun a b hab => ?_) _
    intro p n hp hn
    rw [copyConfig_other hab hp, hn]
  · exact (foldersOut_keep s fs).but _

theorem foldersOut_exists {s : Spec} {fs : FS C} (h : (foldersOut s fs).res = .ok ()) {p : FPath}
    (hp : p ∈ folders s.dump) : pathExists (foldersOut s fs).fs p = true := by
  obtain ⟨pre, post, hl⟩ := List.append_of_mem hp
  unfold foldersOut at *
  rw [hl] at h ⊢
  obtain ⟨a, b, _, hab, heq⟩ := steps_mem h
  rw [heq]
  refine Keep.exists ?_ (makeFolder_exists hab)
  exact steps_rel Keep Keep.refl (fun _ _ _ => Keep.trans) makeFolder (fun _ _ _ => makeFolder_keep) post b

theorem foldersOut_new (s : Spec) (fs : FS C) (q : FPath) (hq : ∀ p ∈ folders s.dump, q ∉ p.inits) :
    (foldersOut s fs).fs q = fs q := by
  unfold foldersOut
  have : ∀ (l : List FPath) (o : Out C), (∀ p ∈ l, q ∉ p.inits) →
      (l.foldl (fun o p => o.step fun fs => makeFolder fs p) o).fs q = o.fs q := by
    intro l
    induction l with
    | nil => intro o _; rfl
    | cons p l ih =>
      intro o h
      rw [List.foldl_cons, ih _ fun p hp => h p (by simp [hp])]
      unfold Out.step
      split
      · rfl
      · try dsimp only
        cases hx : makeFolder o.fs p with
        | ok b => exact makeFolder_new hx (h p (by simp))
        | error e => rfl
  exact this _ ⟨fs, .ok ()⟩ hq

theorem modules_other (s : Spec) (q : FPath) : ∀ (l : List FPath) (o : Out C),
    (∀ m ∈ l, q ≠ copyPath s.cfgDir m) →
    (l.foldl (fun o m => o.step fun fs => copyModule s fs m) o).fs q = o.fs q
  | [], _, _ => rfl
  | m :: l, o, h => by
    rw [List.foldl_cons, modules_other s q l _ fun m' hm => h m' (by simp [hm])]
    unfold Out.step
    split
    · rfl
    · try dsimp only
      cases hx : copyModule s o.fs m with
      | ok b => exact copyModule_other hx (h m (by simp))
      | error e => rfl

theorem configStep_other (s : Spec) (ov : Bool) (u : C) (q : FPath) (o : Out C)
    (hq : q ≠ copyPath s.cfgDir s.config) : (o.step (copyConfig s ov u)).fs q = o.fs q := by
  unfold Out.step
  split
  · rfl
  · try dsimp only
    cases hx : copyConfig s ov u o.fs with
    | ok b => exact copyConfig_other hx hq
    | error e => rfl

/-- Below the `cfg` folder there is no folder of the run. -/
theorem copyPath_not_folder (s : Spec) (m : FPath) (hm : m ≠ []) :
    ∀ p ∈ folders s.dump, copyPath s.cfgDir m ∉ p.inits := by
  intro p hp hmem
  rw [List.mem_inits] at hmem
  have hl := hmem.length_le
  unfold copyPath Spec.cfgDir at hl
  obtain ⟨n, hn⟩ : ∃ n, m.getLast? = some n := by
    cases h : m.getLast? with
    | none => exact absurd (List.getLast?_eq_none_iff.1 h) hm
    | some n => exact ⟨n, rfl⟩
  rw [hn] at hl
  unfold folders at hp
  simp only [List.mem_cons, List.not_mem_nil, or_false] at hp
  simp only [List.length_append, List.length_cons, List.length_nil] at hl
  rcases hp with rfl | rfl | rfl | rfl <;> (try simp only [List.length_append, List.length_cons, List.length_nil] at hl) <;> omega

end Process
end RT1
