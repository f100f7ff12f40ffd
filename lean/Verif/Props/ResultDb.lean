import Verif.Model.ResultDb
import Verif.Props.Results
import Verif.Props.PhaseCache

/-!
# Properties of the handlers of the result databases (C124)
-/

namespace RT1.ResultDb

open RT1.Results (Name h5N getResults loadResult ResultFile)
open RT1.PhaseCache (Lru maxsize find_mem mem_touch mem_insert)

variable {C : Type}

/-! ## Specification -/

/-- The names in a folder are unique, and there is no file without a name. -/
def Good (f : Folder C) : Prop := (f.map Prod.fst).Nodup ∧ ∀ c, ¬ ResultFile ['h', '5'] f [] c

/-- The folder has a file "fit_db.h5" with this content. -/
def HasDb (f : Folder C) (c : C) : Prop := ResultFile ['h', '5'] f fitDbN c

/-- The states of the folder of a result since the last scan, the current one first. -/
def sinceStep (o : Nat) (fs : List (Folder C)) : Op C → List (Folder C)
  | .write i f => if i = o then f :: fs else fs
  | .rescan i => if i = o then fs.take 1 else fs
  | _ => fs

def since (o : Nat) (fs : List (Folder C)) (ops : List (Op C)) : List (Folder C) := ops.foldl (sinceStep o) fs

/-- All folders that occur are good. -/
def GoodHist (folder : Nat → Folder C) (ops : List (Op C)) : Prop := (∀ o, Good (folder o)) ∧ ∀ o f, Op.write o f ∈ ops → Good f

/-! ## Lemmas -/

theorem load_of_has {f : Folder C} (hg : Good f) {c : C} (h : HasDb f c) : loadResult h5N f (some fitDbN) = .ok c :=
  (Results.C105_load_result ['h', '5'] f (by simp) (by decide) hg.1 hg.2).1 fitDbN c h

theorem has_of_load {f : Folder C} (hg : Good f) {c : C} (h : loadResult h5N f (some fitDbN) = .ok c) : HasDb f c := by
  by_contra hn
  by_cases he : ∃ c', HasDb f c'
  · obtain ⟨c', he⟩ := he
    have := load_of_has hg he
    rw [h] at this
    cases this
    exact hn he
  · obtain ⟨e, he'⟩ := (Results.C105_load_result ['h', '5'] f (by simp) (by decide) hg.1 hg.2).2.1 fitDbN
      (fun c' hc => he ⟨c', hc⟩)
    have : loadResult h5N f (some fitDbN) = .error e := he'
    rw [h] at this
    cases this

theorem mem_scanned {f : Folder C} (hg : Good f) : fitDbN ∈ scanned f ↔ ∃ c, HasDb f c := by
  have key := Results.get?_getResults (s := ['h', '5']) (by simp) (by decide) hg.1 hg.2 fitDbN
  unfold scanned
  constructor
  · intro h
    have := (Dict.get?_isSome (d := getResults h5N f) (k := fitDbN)).2 h
    obtain ⟨c, hc⟩ := Option.isSome_iff_exists.1 this
    exact ⟨c, (key c).1 hc⟩
  · rintro ⟨c, hc⟩
    exact (Dict.get?_isSome (d := getResults h5N f) (k := fitDbN)).1 (Option.isSome_iff_exists.2 ⟨c, (key c).2 hc⟩)

/-- The cached accessors exist, and have been opened since the last scan. -/
structure Inv (s : State C) (fs : Nat → List (Folder C)) : Prop where
  cur : ∀ o, (fs o).head? = some (s.folder o)
  known : ∀ o, ∃ f, (fs o).getLast? = some f ∧ s.known o = scanned f
  cached : ∀ e ∈ s.cache, ∃ x, s.handles[e.2]? = some x ∧ x.alive = true ∧ fitDbN ∈ s.known e.1 ∧
    ∃ f ∈ fs e.1, loadResult h5N f (some fitDbN) = .ok x.content

theorem inv_start (folder : Nat → Folder C) : Inv (start folder) (fun o => [folder o]) :=
  ⟨fun _ => rfl, fun o => ⟨folder o, rfl, rfl⟩, fun _ h => by cases h⟩

theorem inv_reset {s : State C} {fs : Nat → List (Folder C)} (h : Inv s fs) : Inv (resetCache s) fs :=
  ⟨h.cur, h.known, fun _ h => by cases h⟩

theorem inv_new {s : State C} {fs : Nat → List (Folder C)} (h : Inv s fs) (c : C) (b : Bool) : Inv (newHandle s c b) fs := by
  refine ⟨h.cur, h.known, fun e he => ?_⟩
  obtain ⟨x, hx, r⟩ := h.cached e he
  refine ⟨x, ?_, r⟩
  show (s.handles ++ [⟨c, true, true, b⟩])[e.2]? = some x
  rw [List.getElem?_append_left (List.getElem?_eq_some_iff.1 hx).1, hx]

theorem mem_cur {s : State C} {fs : Nat → List (Folder C)} (h : Inv s fs) (o : Nat) : s.folder o ∈ fs o :=
  List.mem_of_head? (h.cur o)

theorem inv_open {s : State C} {fs : Nat → List (Folder C)} (h : Inv s fs) (o : Nat) : Inv (openDb s o).2 fs := by
  unfold openDb
  by_cases hk : fitDbN ∈ s.known o
  · rw [if_pos hk]
    cases hl : loadResult h5N (s.folder o) (some fitDbN) with
    | error e => exact h
    | ok c =>
      have h' := inv_new h c false
      refine ⟨h'.cur, h'.known, fun e he => ?_⟩
      rcases mem_insert he with rfl | he
      · refine ⟨⟨c, true, true, false⟩, ?_, rfl, hk, s.folder o, mem_cur h o, hl⟩
        show (s.handles ++ [(⟨c, true, true, false⟩ : Handle C)])[s.handles.length]? = _
        simp
      · exact h'.cached e he
  · rw [if_neg hk]
    exact h

theorem inv_fitDb {s : State C} {fs : Nat → List (Folder C)} (h : Inv s fs) (o : Nat) : Inv (fitDb s o).2 fs := by
  unfold fitDb
  cases hf : s.cache.find o with
  | none => exact inv_open h o
  | some n =>
    refine ⟨h.cur, h.known, fun e he => ?_⟩
    rcases mem_touch he with rfl | he
    · exact h.cached _ (find_mem hf)
    · exact h.cached e he

/-- Afterwards the accessor is the cached one. -/
theorem find_fitDb {s : State C} {o h : Nat} (he : (fitDb s o).1 = .ok h) : (fitDb s o).2.cache.find o = some h := by
  unfold fitDb at he ⊢
  cases hf : s.cache.find o with
  | some n =>
    rw [hf] at he
    cases he
    simp [Lru.touch, Lru.find]
  | none =>
    rw [hf] at he
    dsimp only at he ⊢
    unfold openDb at he ⊢
    by_cases hk : fitDbN ∈ s.known o
    · rw [if_pos hk] at he ⊢
      cases hl : loadResult h5N (s.folder o) (some fitDbN) with
      | error e => rw [hl] at he; cases he
      | ok c =>
        rw [hl] at he
        cases he
        simp [Lru.insert, Lru.find, maxsize]
    · rw [if_neg hk] at he
      cases he

theorem fitDb_hit {s : State C} {o h : Nat} (hf : s.cache.find o = some h) :
    fitDb s o = (.ok h, { s with cache := s.cache.touch o h }) := by
  unfold fitDb
  rw [hf]

theorem inv_check {s : State C} {fs : Nat → List (Folder C)} (h : Inv s fs) (n : Nat) : Inv (checkOpen s n) fs := by
  unfold checkOpen
  split
  · exact h
  · exact inv_reset h

theorem inv_loadFrom {s : State C} {fs : Nat → List (Folder C)} (h : Inv s fs) (o : Nat) : Inv (loadFrom s o).2 fs := by
  have := inv_fitDb h o
  unfold loadFrom
  revert this
  rcases fitDb s o with ⟨_ | _, s'⟩ <;> exact fun h => h

theorem inv_loadFit {s : State C} {fs : Nat → List (Folder C)} (h : Inv s fs) (o : Nat) : Inv (loadFit s o).2 fs := by
  have := inv_fitDb h o
  unfold loadFit
  revert this
  rcases fitDb s o with ⟨_ | n, s'⟩
  · exact fun h => h
  · exact fun h => inv_loadFrom (inv_check h n) o

/-- Changing an accessor: those in the cache stay alive. -/
theorem inv_modify {s : State C} {fs : Nat → List (Folder C)} (h : Inv s fs) (n : Nat) (f : Handle C → Handle C)
    (hc : ∀ x, (f x).content = x.content) (ha : (∀ x, (f x).alive = x.alive) ∨ ∀ e ∈ s.cache, e.2 ≠ n) : Inv (modify s n f) fs := by
  refine ⟨h.cur, h.known, fun e he => ?_⟩
  obtain ⟨x, hx, h1, h2, h3⟩ := h.cached e he
  show ∃ x, (s.handles.modify n f)[e.2]? = some x ∧ _
  rw [List.getElem?_modify, hx]
  by_cases hn : n = e.2
  · rcases ha with ha | ha
    · refine ⟨f x, by simp [hn], by rw [ha, h1], h2, ?_⟩
      rw [hc]
      exact h3
    · exact absurd hn.symm (ha e he)
  · exact ⟨x, by simp [hn], h1, h2, h3⟩

theorem inv_loadHdf {s : State C} {fs : Nat → List (Folder C)} (h : Inv s fs) (o : Nat) (b : Bool) : Inv (loadHdf s o b).1 fs := by
  unfold loadHdf
  cases loadResult h5N (s.folder o) (some fitDbN) with
  | ok c => exact inv_new h c b
  | error e => exact h

theorem inv_withDb {s : State C} {fs : Nat → List (Folder C)} (h : Inv s fs) (o : Nat) (f : State C → Nat → State C)
    (hf : ∀ s n, Inv s fs → Inv (f s n) fs) : Inv (withDb s o f).1 fs := by
  have := inv_fitDb h o
  unfold withDb
  revert this
  rcases fitDb s o with ⟨_ | n, s'⟩
  · exact fun h => h
  · exact fun h => hf _ _ h

theorem inv_step {s : State C} {fs : Nat → List (Folder C)} (h : Inv s fs) (op : Op C) :
    Inv (step s op).1 (fun o => sinceStep o (fs o) op) := by
  cases op with
  | write i f =>
    refine ⟨fun o => ?_, fun o => ?_, fun e he => ?_⟩
    · show (if i = o then f :: fs o else fs o).head? = some (if o = i then f else s.folder o)
      by_cases hi : i = o
      · subst hi; simp
      · rw [if_neg hi, if_neg (Ne.symm hi), h.cur]
    · obtain ⟨g, hg, hk⟩ := h.known o
      refine ⟨g, ?_, hk⟩
      show (if i = o then f :: fs o else fs o).getLast? = some g
      split
      · rw [List.getLast?_cons, hg]; rfl
      · exact hg
    · obtain ⟨x, hx, h1, h2, g, hg, h3⟩ := h.cached e he
      refine ⟨x, hx, h1, h2, g, ?_, h3⟩
      show g ∈ (if i = e.1 then f :: fs e.1 else fs e.1)
      split
      · exact List.mem_cons_of_mem _ hg
      · exact hg
  | rescan i =>
    refine ⟨fun o => ?_, fun o => ?_, fun e he => by cases he⟩
    · show (if i = o then (fs o).take 1 else fs o).head? = some (s.folder o)
      have := h.cur o
      split
      · cases hf : fs o with
        | nil => rw [hf] at this; cases this
        | cons a l => rw [hf] at this; simpa using this
      · exact this
    · show ∃ f, (if i = o then (fs o).take 1 else fs o).getLast? = some f ∧ (if o = i then scanned (s.folder i) else s.known o) = scanned f
      by_cases hi : i = o
      · subst hi
        have := h.cur i
        refine ⟨s.folder i, ?_, by simp⟩
        rw [if_pos rfl]
        cases hf : fs i with
        | nil => rw [hf] at this; cases this
        | cons a l => rw [hf] at this; simpa using this
      · obtain ⟨g, hg, hk⟩ := h.known o
        exact ⟨g, by rw [if_neg hi, hg], by rw [if_neg (Ne.symm hi), hk]⟩
  | get o => exact inv_withDb h o _ fun s n h => inv_modify h n _ (fun _ => rfl) (.inl fun _ => rfl)
  | select o => exact inv_withDb h o _ fun s n h => h
  | openHdf o => exact inv_loadHdf h o true
  | selectHdf o => exact inv_loadHdf h o false
  | del n => exact inv_modify h n _ (fun _ => rfl) (.inl fun _ => rfl)
  | collect n =>
    show Inv (if reachable s n then s else modify s n fun x => { x with alive := false, isOpen := false }) fs
    split
    · exact h
    · rename_i hr
      refine inv_modify h n _ (fun _ => rfl) (.inr fun e he hn => hr ?_)
      unfold reachable
      rw [Bool.or_eq_true]
      exact .inr (List.any_eq_true.2 ⟨e, he, by simp [hn]⟩)
  | close n => exact inv_modify h n _ (fun _ => rfl) (.inl fun _ => rfl)
  | closeDb o => exact inv_withDb h o _ fun s n h => inv_modify h n _ (fun _ => rfl) (.inl fun _ => rfl)
  | load o => exact inv_loadFit h o
  | read n => exact h

theorem inv_exec (ops : List (Op C)) : ∀ {s : State C} {fs : Nat → List (Folder C)}, Inv s fs →
    Inv (exec s ops) (fun o => since o (fs o) ops) := by
  induction ops with
  | nil => exact fun h => h
  | cons op ops ih => exact fun h => ih (inv_step h op)

/-- Everything that occurs since the last scan has been the folder at the beginning or has been written. -/
theorem since_mem {o : Nat} (ops : List (Op C)) : ∀ {fs : List (Folder C)} {f : Folder C}, f ∈ since o fs ops →
    f ∈ fs ∨ Op.write o f ∈ ops := by
  induction ops with
  | nil => exact fun h => .inl h
  | cons op ops ih =>
    intro fs f h
    rcases ih (fs := sinceStep o fs op) h with h' | h'
    all_goals (clear h; rename' h' => h)
    · cases op with
      | write i g =>
        change f ∈ (if i = o then g :: fs else fs) at h
        split at h
        · rename_i hi
          subst hi
          rcases List.mem_cons.1 h with rfl | h
          · exact .inr (List.mem_cons_self ..)
          · exact .inl h
        · exact .inl h
      | rescan i =>
        change f ∈ (if i = o then fs.take 1 else fs) at h
        split at h
        · exact .inl (List.mem_of_mem_take h)
        · exact .inl h
      | _ => exact .inl h
    · exact .inr (List.mem_cons_of_mem _ h)

theorem good_since {folder : Nat → Folder C} {ops : List (Op C)} (hg : GoodHist folder ops) {o : Nat} {f : Folder C}
    (h : f ∈ since o [folder o] ops) : Good f := by
  rcases since_mem ops h with h | h
  · rw [List.mem_singleton.1 h]
    exact hg.1 o
  · exact hg.2 o f h

/-- A miss opens the file that is present now. -/
theorem fitDb_miss {s : State C} {o : Nat} {c : C} (hf : s.cache.find o = none) (hk : fitDbN ∈ s.known o)
    (hl : loadResult h5N (s.folder o) (some fitDbN) = .ok c) :
    (fitDb s o).1 = .ok s.handles.length ∧ (fitDb s o).2.handles = s.handles ++ [⟨c, true, true, false⟩] := by
  unfold fitDb
  rw [hf]
  dsimp only
  unfold openDb
  rw [if_pos hk, hl]
  exact ⟨rfl, rfl⟩

theorem loadFrom_miss {s : State C} {o : Nat} {c : C} (hf : s.cache.find o = none) (hk : fitDbN ∈ s.known o)
    (hl : loadResult h5N (s.folder o) (some fitDbN) = .ok c) : (loadFrom s o).1 = .ok c := by
  obtain ⟨h1, h2⟩ := fitDb_miss hf hk hl
  unfold loadFrom
  revert h1 h2
  rcases fitDb s o with ⟨_ | n, s'⟩
  · rintro ⟨⟩
  · intro h1 h2
    cases h1
    dsimp only at h2 ⊢
    unfold readStore
    rw [h2]
    simp

/-- What is read by `load_fit`: the cached database if it is open, otherwise the file that is present now. -/
theorem loadFit_miss {s : State C} {o : Nat} {c : C} (hf : s.cache.find o = none) (hk : fitDbN ∈ s.known o)
    (hl : loadResult h5N (s.folder o) (some fitDbN) = .ok c) : (loadFit s o).1 = .ok c := by
  obtain ⟨h1, h2⟩ := fitDb_miss hf hk hl
  have h3 := find_fitDb h1
  unfold loadFit
  revert h1 h2 h3
  rcases fitDb s o with ⟨_ | n, s'⟩
  · rintro ⟨⟩
  · intro h1 h2 h3
    cases h1
    dsimp only at h2 h3 ⊢
    have ho : isOpen s' s.handles.length = true := by
      unfold isOpen
      rw [h2]
      simp
    unfold checkOpen
    rw [if_pos ho]
    unfold loadFrom
    rw [fitDb_hit h3]
    show readStore { s' with cache := _ } _ = _
    unfold readStore
    rw [h2]
    simp

theorem loadFit_open {s : State C} {o n : Nat} {x : Handle C} (hf : s.cache.find o = some n) (hx : s.handles[n]? = some x)
    (ho : x.isOpen = true) : (loadFit s o).1 = .ok x.content := by
  have h2 : (Lru.touch s.cache o n).find o = some n := by simp [Lru.touch, Lru.find]
  unfold loadFit
  rw [fitDb_hit hf]
  show (loadFrom (checkOpen { s with cache := _ } n) o).1 = _
  unfold checkOpen
  rw [if_pos (by unfold isOpen; rw [hx]; exact ho)]
  unfold loadFrom
  rw [fitDb_hit (by exact h2)]
  show readStore { s with cache := _ } n = _
  unfold readStore
  rw [hx]
  simp [ho]

theorem loadFit_closed {s : State C} {o n : Nat} {x : Handle C} {c : C} (hf : s.cache.find o = some n) (hx : s.handles[n]? = some x)
    (ho : x.isOpen = false) (hk : fitDbN ∈ s.known o) (hl : loadResult h5N (s.folder o) (some fitDbN) = .ok c) :
    (loadFit s o).1 = .ok c := by
  unfold loadFit
  rw [fitDb_hit hf]
  show (loadFrom (checkOpen { s with cache := _ } n) o).1 = _
  unfold checkOpen
  rw [if_neg (by unfold isOpen; rw [hx]; simp [ho])]
  exact loadFrom_miss rfl hk hl

/-! ## Properties -/

/-- `load_fit` uses the database of the results-folder of this result in a state since the last scan of the folder — whatever has been done with
this and with all other results, if the database was present all the time. -/
theorem C124_load_partial (folder : Nat → Folder C) (ops : List (Op C)) (hg : GoodHist folder ops) (o : Nat)
    (hp : ∀ f ∈ since o [folder o] ops, ∃ c, HasDb f c) :
    ∃ f ∈ since o [folder o] ops, ∃ c, HasDb f c ∧ (step (exec (start folder) ops) (.load o)).2 = .content c := by
  have hi := inv_exec ops (inv_start folder)
  generalize hs : exec (start folder) ops = s at hi
  obtain ⟨f, hl, hk⟩ := hi.known o
  have hfm : f ∈ since o [folder o] ops := List.mem_of_getLast? hl
  have hk' : fitDbN ∈ s.known o := by
    rw [hk]
    exact (mem_scanned (good_since hg hfm)).2 (hp f hfm)
  have hc := mem_cur hi o
  obtain ⟨c, hcc⟩ := hp _ hc
  have hlc := load_of_has (good_since hg hc) hcc
  cases hf : s.cache.find o with
  | none => exact ⟨_, hc, c, hcc, by show Out.ofContent _ = _; rw [loadFit_miss hf hk' hlc]; rfl⟩
  | some n =>
    obtain ⟨x, hx, ha, -, f', hf', hl'⟩ := hi.cached _ (find_mem hf)
    by_cases ho : x.isOpen = true
    · exact ⟨f', hf', x.content, has_of_load (good_since hg hf') hl', by show Out.ofContent _ = _; rw [loadFit_open hf hx ho]; rfl⟩
    · exact ⟨_, hc, c, hcc, by
        show Out.ofContent _ = _
        rw [loadFit_closed hf hx (by simpa using ho) hk' hlc]
        rfl⟩

theorem since_append (o : Nat) (fs : List (Folder C)) (a b : List (Op C)) : since o fs (a ++ b) = since o (since o fs a) b := by
  unfold since
  rw [List.foldl_append]

theorem since_quiet (o : Nat) (ops : List (Op C)) (hw : ∀ f, Op.write o f ∉ ops) (f : Folder C) : since o [f] ops = [f] := by
  induction ops with
  | nil => rfl
  | cons op ops ih =>
    have : sinceStep o [f] op = [f] := by
      cases op with
      | write i g =>
        show (if i = o then g :: [f] else [f]) = [f]
        rw [if_neg]
        rintro rfl
        exact hw g (List.mem_cons_self ..)
      | rescan i =>
        show (if i = o then [f].take 1 else [f]) = [f]
        split <;> rfl
      | _ => rfl
    show since o (sinceStep o [f] op) ops = [f]
    rw [this]
    exact ih fun g hg => hw g (List.mem_cons_of_mem _ hg)

/-- After `rescan()` the database that is present is used, until the folder is changed; it does not matter what happened before, and what happens
with other results (their folders, handlers, scans), which handlers are closed, and when the garbage collector runs. -/
theorem C124_rescan (folder : Nat → Folder C) (before ops : List (Op C)) (o : Nat) (hg : GoodHist folder (before ++ .rescan o :: ops))
    (hw : ∀ f, Op.write o f ∉ ops) (c : C) (hc : HasDb ((exec (start folder) before).folder o) c) :
    (step (exec (start folder) (before ++ .rescan o :: ops)) (.load o)).2 = .content c := by
  have hi := inv_exec before (inv_start folder)
  have hs : since o [folder o] (before ++ .rescan o :: ops) = [(exec (start folder) before).folder o] := by
    rw [since_append]
    show since o (if o = o then (since o [folder o] before).take 1 else _) ops = _
    rw [if_pos rfl]
    have := hi.cur o
    cases hl : since o [folder o] before with
    | nil => simp [hl] at this
    | cons a l =>
      simp only [hl, List.head?_cons, Option.some.injEq] at this
      rw [← this]
      exact since_quiet o ops hw a
  obtain ⟨f, hf, c', hc', h⟩ := C124_load_partial folder _ hg o (by
    rw [hs]
    intro f hf
    rw [List.mem_singleton.1 hf]
    exact ⟨c, hc⟩)
  have hgf := good_since hg hf
  rw [hs] at hf
  rw [List.mem_singleton.1 hf] at hc' hgf
  have h1 := load_of_has hgf hc
  rw [load_of_has hgf hc'] at h1
  cases h1
  exact h

/-- If there was no database in the folder at the time of the last scan, an AssertionError is raised. -/
theorem C124_missing (folder : Nat → Folder C) (ops : List (Op C)) (hg : GoodHist folder ops) (o : Nat)
    (f : Folder C) (hf : (since o [folder o] ops).getLast? = some f) (hn : ∀ c, ¬ HasDb f c) :
    (step (exec (start folder) ops) (.load o)).2 = .error .assertionError := by
  have hi := inv_exec ops (inv_start folder)
  generalize hs : exec (start folder) ops = s at hi
  obtain ⟨f', hl, hk⟩ := hi.known o
  have hff : f' = f := by
    have hl' : (since o [folder o] ops).getLast? = some f' := hl
    rw [hf] at hl'
    exact (Option.some.inj hl').symm
  subst hff
  have hk' : fitDbN ∉ s.known o := by
    rw [hk, mem_scanned (good_since hg (List.mem_of_getLast? hf))]
    rintro ⟨c, hc⟩
    exact hn c hc
  have hnone : s.cache.find o = none := by
    cases hc : s.cache.find o with
    | none => rfl
    | some n => exact absurd (hi.cached _ (find_mem hc)).choose_spec.2.2.1 hk'
  have hm : fitDb s o = (.error .assertionError, s) := by
    unfold fitDb
    rw [hnone]
    dsimp only
    unfold openDb
    rw [if_neg hk']
  show Out.ofContent (loadFit s o).1 = _
  unfold loadFit
  rw [hm]
  rfl

/-- A closed handler (`result.fit_db.close()`, or the end of a with-block) is replaced: the next fit is loaded from the present file. -/
theorem C124_reopen (folder : Nat → Folder C) (ops : List (Op C)) (hg : GoodHist folder ops) (o : Nat)
    (hp : ∀ f ∈ since o [folder o] ops, ∃ c, HasDb f c) (c : C) (hc : HasDb ((exec (start folder) ops).folder o) c) :
    (step (exec (start folder) (ops ++ [.closeDb o])) (.load o)).2 = .content c := by
  have hi := inv_exec ops (inv_start folder)
  have hex : exec (start folder) (ops ++ [.closeDb o]) = (step (exec (start folder) ops) (.closeDb o)).1 := by
    unfold exec
    rw [List.foldl_append]
    rfl
  rw [hex]
  generalize exec (start folder) ops = s at hi hc
  have hlc := load_of_has (good_since hg (mem_cur hi o)) hc
  obtain ⟨f, hl, hk⟩ := hi.known o
  have hfm : f ∈ since o [folder o] ops := List.mem_of_getLast? hl
  have hk' : fitDbN ∈ s.known o := by
    rw [hk]
    exact (mem_scanned (good_since hg hfm)).2 (hp f hfm)
  have hstep : ∃ n x s', (step s (.closeDb o)).1 = modify s' n (fun x => { x with isOpen := false }) ∧ s'.cache.find o = some n ∧
      s'.handles[n]? = some x ∧ s'.known = s.known ∧ s'.folder = s.folder := by
    cases hf : s.cache.find o with
    | some n =>
      obtain ⟨x, hx, -⟩ := hi.cached _ (find_mem hf)
      refine ⟨n, x, { s with cache := s.cache.touch o n }, ?_, by simp [Lru.touch, Lru.find], hx, rfl, rfl⟩
      show (withDb s o _).1 = _
      unfold withDb
      rw [fitDb_hit hf]
    | none =>
      refine ⟨s.handles.length, ⟨c, true, true, false⟩, { newHandle s c false with cache := s.cache.insert maxsize o s.handles.length }, ?_,
        by simp [Lru.insert, Lru.find, maxsize], by simp [newHandle], rfl, rfl⟩
      have : fitDb s o = (.ok s.handles.length, { newHandle s c false with cache := s.cache.insert maxsize o s.handles.length }) := by
        unfold fitDb
        rw [hf]
        dsimp only
        unfold openDb
        rw [if_pos hk', hlc]
      show (withDb s o _).1 = _
      unfold withDb
      rw [this]
  obtain ⟨n, x, s', h1, h2, h3, h4, h5⟩ := hstep
  rw [h1]
  show Out.ofContent _ = _
  rw [loadFit_closed (s := modify s' n fun x => { x with isOpen := false }) (n := n) (x := { x with isOpen := false }) (c := c) h2 (by
    show (s'.handles.modify n _)[n]? = _
    simp [h3]) rfl (by show fitDbN ∈ s'.known o; rw [h4]; exact hk') (by
    show loadResult h5N (s'.folder o) _ = _
    rw [h5]
    exact hlc)]
  rfl

/-! ### accessors and selectors that the user keeps -/

/-- An accessor that the user keeps, and that is open. -/
def Held (s : State C) (h : Nat) (c : C) : Prop := s.handles[h]? = some ⟨c, true, true, true⟩

/-- The operation does not give up or close this accessor. -/
def Keeps (h : Nat) : Op C → Prop
  | .del i => i ≠ h
  | .close i => i ≠ h
  | .closeDb _ => False
  | _ => True

theorem held_append {s : State C} {h : Nat} {c : C} (hh : Held s h c) (l : List (Handle C)) : (s.handles ++ l)[h]? = some ⟨c, true, true, true⟩ := by
  rw [List.getElem?_append_left (List.getElem?_eq_some_iff.1 hh).1, hh]

theorem held_fitDb {s : State C} {h : Nat} {c : C} (hh : Held s h c) (o : Nat) : Held (fitDb s o).2 h c := by
  unfold fitDb
  cases s.cache.find o with
  | some n => exact hh
  | none =>
    dsimp only
    unfold openDb
    split
    · cases loadResult h5N (s.folder o) (some fitDbN) with
      | error e => exact hh
      | ok c' => exact held_append hh _
    · exact hh

theorem held_check {s : State C} {h : Nat} {c : C} (hh : Held s h c) (n : Nat) : Held (checkOpen s n) h c := by
  unfold checkOpen
  split <;> exact hh

theorem held_loadFit {s : State C} {h : Nat} {c : C} (hh : Held s h c) (o : Nat) : Held (loadFit s o).2 h c := by
  have h1 := held_fitDb hh o
  unfold loadFit
  revert h1
  rcases fitDb s o with ⟨_ | n, s'⟩
  · exact fun h => h
  · intro h1
    have h2 := held_fitDb (held_check h1 n) o
    show Held (loadFrom (checkOpen s' n) o).2 h c
    unfold loadFrom
    revert h2
    rcases fitDb (checkOpen s' n) o with ⟨_ | m, s''⟩ <;> exact fun h => h

theorem held_modify {s : State C} {h : Nat} {c : C} (hh : Held s h c) (n : Nat) (f : Handle C → Handle C)
    (hf : n = h → f ⟨c, true, true, true⟩ = ⟨c, true, true, true⟩) : Held (modify s n f) h c := by
  show (s.handles.modify n f)[h]? = _
  rw [List.getElem?_modify, hh]
  by_cases hn : n = h
  · simp [hn, hf hn]
  · simp [hn]

theorem held_step {s : State C} {h : Nat} {c : C} (hh : Held s h c) (op : Op C) (hk : Keeps h op) : Held (step s op).1 h c := by
  have hw : ∀ (o : Nat) (f : State C → Nat → State C), (∀ s n, Held s h c → Held (f s n) h c) → Held (withDb s o f).1 h c := by
    intro o f hf
    have h1 := held_fitDb hh o
    unfold withDb
    revert h1
    rcases fitDb s o with ⟨_ | n, s'⟩
    · exact fun h => h
    · exact fun h => hf _ _ h
  have hl : ∀ (o : Nat) (b : Bool), Held (loadHdf s o b).1 h c := by
    intro o b
    unfold loadHdf
    cases loadResult h5N (s.folder o) (some fitDbN) with
    | ok c' => exact held_append hh _
    | error e => exact hh
  cases op with
  | write i f => exact hh
  | rescan i => exact hh
  | get o => exact hw o _ fun s n h => held_modify h n _ fun _ => rfl
  | select o => exact hw o _ fun s n h => h
  | openHdf o => exact hl o true
  | selectHdf o => exact hl o false
  | del n => exact held_modify hh n _ fun hn => absurd hn hk
  | collect n =>
    show Held (if reachable s n then s else modify s n fun x => { x with alive := false, isOpen := false }) h c
    split
    · exact hh
    · rename_i hr
      refine held_modify hh n _ fun hn => absurd ?_ hr
      subst hn
      unfold reachable
      rw [hh]
      simp
  | close n => exact held_modify hh n _ fun hn => absurd hn hk
  | closeDb o => exact absurd hk (by simp [Keeps])
  | load o => exact held_loadFit hh o
  | read n => exact hh

theorem held_exec (ops : List (Op C)) {h : Nat} {c : C} (hk : ∀ op ∈ ops, Keeps h op) : ∀ {s : State C}, Held s h c →
    Held (exec s ops) h c := by
  induction ops with
  | nil => exact fun h => h
  | cons op ops ih =>
    exact fun hh => ih (fun o ho => hk o (List.mem_cons_of_mem _ ho)) (held_step hh op (hk op (List.mem_cons_self ..)))

/-- An accessor that is kept (`db = result.load_hdf("fit_db")`) reads the file that it has opened, whatever happens with the folder, the scans and
other accessors, until it is closed or given up. -/
theorem C124_held (folder : Nat → Folder C) (before ops : List (Op C)) (hg : GoodHist folder before) (o : Nat) (c : C)
    (hc : HasDb ((exec (start folder) before).folder o) c) :
    ∃ h, (step (exec (start folder) before) (.openHdf o)).2 = .handle h ∧
      ((∀ op ∈ ops, Keeps h op) → (step (exec (start folder) (before ++ .openHdf o :: ops)) (.read h)).2 = .content c) := by
  have hi := inv_exec before (inv_start folder)
  have hlc := load_of_has (good_since hg (mem_cur hi o)) hc
  have hst : step (exec (start folder) before) (.openHdf o) =
      (newHandle (exec (start folder) before) c true, .handle (exec (start folder) before).handles.length) := by
    show loadHdf _ o true = _
    unfold loadHdf
    rw [hlc]
  refine ⟨(exec (start folder) before).handles.length, by rw [hst], fun hk => ?_⟩
  have hex : exec (start folder) (before ++ .openHdf o :: ops) = exec (newHandle (exec (start folder) before) c true) ops := by
    have : exec (start folder) (before ++ .openHdf o :: ops) = exec (step (exec (start folder) before) (.openHdf o)).1 ops := by
      unfold exec
      rw [List.foldl_append, List.foldl_cons]
    rw [this, hst]
  have hh : Held (newHandle (exec (start folder) before) c true) (exec (start folder) before).handles.length c := by
    show ((exec (start folder) before).handles ++ [_])[_]? = _
    simp
  have := held_exec ops hk hh
  rw [hex]
  show Out.ofContent (readSelector _ _) = _
  unfold readSelector readStore
  rw [this]
  rfl

/-- The accessor of `result.fit_db` that the user keeps is open as well, unless it had been closed before. -/
theorem C124_held_db (folder : Nat → Folder C) (before ops : List (Op C)) (o h : Nat)
    (hr : (step (exec (start folder) before) (.get o)).2 = .handle h) (c : C)
    (ho : readStore (step (exec (start folder) before) (.get o)).1 h = .ok c) (hk : ∀ op ∈ ops, Keeps h op) :
    (step (exec (start folder) (before ++ .get o :: ops)) (.read h)).2 = .content c := by
  have hi := inv_exec before (inv_start folder)
  have hex : exec (start folder) (before ++ .get o :: ops) = exec (step (exec (start folder) before) (.get o)).1 ops := by
    unfold exec
    rw [List.foldl_append, List.foldl_cons]
  rw [hex]
  generalize exec (start folder) before = s at *
  have hh : Held (step s (.get o)).1 h c := by
    have h1 := inv_fitDb hi o
    have h2 := @find_fitDb _ s o h
    revert hr ho
    show (withDb s o _).2 = _ → readStore (withDb s o _).1 h = _ → Held (withDb s o _).1 h c
    unfold withDb
    revert h1 h2
    rcases fitDb s o with ⟨_ | n, s'⟩
    · intro _ _ hr; cases hr
    · intro h1 h2 hr ho
      cases hr
      obtain ⟨x, hx, ha, -⟩ := h1.cached _ (find_mem (h2 rfl))
      have hx' : (s'.handles.modify h fun x => { x with held := true })[h]? = some { x with held := true } := by
        rw [List.getElem?_modify]
        dsimp only at hx
        simp [hx]
      change readStore (modify s' h fun x => { x with held := true }) h = .ok c at ho
      unfold readStore at ho
      have hx'' : (modify s' h fun x => { x with held := true }).handles[h]? = some { x with held := true } := hx'
      rw [hx''] at ho
      dsimp only at ho
      cases hop : x.isOpen with
      | false => rw [hop] at ho; cases ho
      | true =>
        rw [hop] at ho
        cases ho
        show (modify s' h fun x => { x with held := true }).handles[h]? = _
        rw [hx'', ← hop]
        obtain ⟨xc, xo, xa, xh⟩ := x
        dsimp only at ha hop ⊢
        rw [ha, hop]
  have := held_exec ops hk hh
  show Out.ofContent (readSelector _ _) = _
  unfold readSelector readStore
  rw [this]
  rfl

/-- The operation neither closes an accessor nor resets the cache. -/
def Quiet : Op C → Prop
  | .close _ => False
  | .closeDb _ => False
  | .rescan _ => False
  | _ => True

/-- The operation does not close an accessor. -/
def NoClose : Op C → Prop
  | .close _ => False
  | .closeDb _ => False
  | _ => True

/-- The result whose `fit_db` is used. -/
def uses : Op C → Option Nat
  | .get o => some o
  | .select o => some o
  | .load o => some o
  | .closeDb o => some o
  | _ => none

/-- All cached accessors are open, and nothing has been removed because of the size of the cache. -/
structure Full (s : State C) (os : List Nat) : Prop where
  nodup : (s.cache.map Prod.fst).Nodup
  sub : ∀ e ∈ s.cache, e.1 ∈ os
  opened : ∀ e ∈ s.cache, ∃ x, s.handles[e.2]? = some x ∧ x.alive = true ∧ x.isOpen = true

/-- The cached accessors are still there, with the same content. -/
def Extends (s s' : State C) : Prop :=
  (∀ e ∈ s.cache, e ∈ s'.cache) ∧ ∀ (n : Nat) (x : Handle C), s.handles[n]? = some x → ∃ x', s'.handles[n]? = some x' ∧ x'.content = x.content

theorem Extends.refl (s : State C) : Extends s s := ⟨fun _ h => h, fun _ x h => ⟨x, h, rfl⟩⟩

theorem Extends.trans {s s' s'' : State C} (h : Extends s s') (h' : Extends s' s'') : Extends s s'' :=
  ⟨fun e he => h'.1 e (h.1 e he), fun n x hx => by
    obtain ⟨y, hy, hc⟩ := h.2 n x hx
    obtain ⟨z, hz, hc'⟩ := h'.2 n y hy
    exact ⟨z, hz, hc'.trans hc⟩⟩

theorem full_fitDb {s : State C} {os : List Nat} (h : Full s os) (hl : os.length ≤ 128) {o : Nat} (ho : o ∈ os) :
    Full (fitDb s o).2 os ∧ Extends s (fitDb s o).2 := by
  unfold fitDb
  cases hf : s.cache.find o with
  | some n =>
    dsimp only
    have hm := find_mem hf
    have hin : ∀ e ∈ s.cache, e ∈ Lru.touch s.cache o n := by
      intro e he
      by_cases h1 : e.1 = o
      · have : e = (o, n) := by
          have := List.inj_on_of_nodup_map h.nodup he hm h1
          exact this
        rw [this]
        exact List.mem_cons_self ..
      · exact List.mem_cons_of_mem _ (List.mem_filter.2 ⟨he, by simpa using h1⟩)
    refine ⟨⟨?_, fun e he => ?_, fun e he => ?_⟩, hin, fun _ x hx => ⟨x, hx, rfl⟩⟩
    · show (((o, n) :: List.filter (fun e => e.1 ≠ o) s.cache).map Prod.fst).Nodup
      rw [List.map_cons, List.nodup_cons]
      refine ⟨?_, h.nodup.sublist (List.Sublist.map _ List.filter_sublist)⟩
      rw [List.mem_map]
      rintro ⟨e, he, h1⟩
      have := (List.mem_filter.1 he).2
      simp [h1] at this
    · rcases mem_touch he with rfl | he
      · exact ho
      · exact h.sub e he
    · rcases mem_touch he with rfl | he
      · exact h.opened _ hm
      · exact h.opened e he
  | none =>
    dsimp only
    unfold openDb
    split
    · cases loadResult h5N (s.folder o) (some fitDbN) with
      | error e => exact ⟨h, .refl s⟩
      | ok c =>
        have hno : o ∉ s.cache.map Prod.fst := by
          intro hm
          obtain ⟨e, he, h1⟩ := List.mem_map.1 hm
          have : (List.find? (fun e => decide (e.1 = o)) s.cache).isSome := by
            rw [List.find?_isSome]
            exact ⟨e, he, by simpa using h1⟩
          unfold Lru.find at hf
          rw [Option.map_eq_none_iff] at hf
          rw [hf] at this
          cases this
        have hnd : (((o, s.handles.length) :: s.cache).map Prod.fst).Nodup := by
          rw [List.map_cons, List.nodup_cons]
          exact ⟨hno, h.nodup⟩
        have hlen : ((o, s.handles.length) :: s.cache).length ≤ 128 := by
          have hsub : ((o, s.handles.length) :: s.cache).map Prod.fst ⊆ os := by
            intro i hi
            obtain ⟨e, he, rfl⟩ := List.mem_map.1 hi
            rcases List.mem_cons.1 he with rfl | he
            · exact ho
            · exact h.sub e he
          have := (hnd.subperm hsub).length_le
          rw [List.length_map] at this
          exact this.trans hl
        have hins : Lru.insert maxsize s.cache o s.handles.length = (o, s.handles.length) :: s.cache := List.take_of_length_le hlen
        have hext : ∀ (n : Nat) (x : Handle C), s.handles[n]? = some x → (s.handles ++ [(⟨c, true, true, false⟩ : Handle C)])[n]? = some x := by
          intro n x hx
          rw [List.getElem?_append_left (List.getElem?_eq_some_iff.1 hx).1, hx]
        dsimp only
        rw [hins]
        refine ⟨⟨hnd, fun e he => ?_, fun e he => ?_⟩, fun e he => List.mem_cons_of_mem _ he, fun n x hx => ⟨x, hext n x hx, rfl⟩⟩
        · rcases List.mem_cons.1 he with rfl | he
          · exact ho
          · exact h.sub e he
        · rcases List.mem_cons.1 he with rfl | he
          · exact ⟨⟨c, true, true, false⟩, by simp [newHandle], rfl, rfl⟩
          · obtain ⟨x, hx, h1⟩ := h.opened e he
            exact ⟨x, hext _ _ hx, h1⟩
    · exact ⟨h, .refl s⟩

theorem full_loadFit {s : State C} {os : List Nat} (h : Full s os) (hl : os.length ≤ 128) {o : Nat} (ho : o ∈ os) :
    Full (loadFit s o).2 os ∧ Extends s (loadFit s o).2 := by
  have h1 := full_fitDb h hl ho
  have h2 := @find_fitDb _ s o
  unfold loadFit
  revert h1 h2
  rcases fitDb s o with ⟨_ | n, s'⟩
  · exact fun h _ => h
  · intro h1 h2
    obtain ⟨x, hx, -, hop⟩ := h1.1.opened _ (find_mem (h2 rfl))
    show Full (loadFrom (checkOpen s' n) o).2 os ∧ Extends s (loadFrom (checkOpen s' n) o).2
    unfold checkOpen
    rw [if_pos (by unfold isOpen; dsimp only at hx; rw [hx]; exact hop)]
    have h3 := full_fitDb h1.1 hl ho
    unfold loadFrom
    revert h3
    dsimp only
    rcases fitDb s' o with ⟨_ | m, s''⟩ <;> exact fun h3 => ⟨h3.1, h1.2.trans h3.2⟩

theorem full_modify {s : State C} {os : List Nat} (h : Full s os) (n : Nat) (f : Handle C → Handle C) (hc : ∀ x, (f x).content = x.content)
    (ha : (∀ x, (f x).alive = x.alive ∧ (f x).isOpen = x.isOpen) ∨ ∀ e ∈ s.cache, e.2 ≠ n) :
    Full (modify s n f) os ∧ Extends s (modify s n f) := by
  refine ⟨⟨h.nodup, h.sub, fun e he => ?_⟩, fun e he => he, fun i x hx => ?_⟩
  · obtain ⟨x, hx, h1, h2⟩ := h.opened e he
    show ∃ x, (s.handles.modify n f)[e.2]? = some x ∧ _
    rw [List.getElem?_modify, hx]
    by_cases hn : n = e.2
    · rcases ha with ha | ha
      · exact ⟨f x, by simp [hn], by rw [(ha x).1, h1], by rw [(ha x).2, h2]⟩
      · exact absurd hn.symm (ha e he)
    · exact ⟨x, by simp [hn], h1, h2⟩
  · show ∃ x', (s.handles.modify n f)[i]? = some x' ∧ _
    rw [List.getElem?_modify, hx]
    by_cases hn : n = i
    · exact ⟨f x, by simp [hn], hc x⟩
    · exact ⟨x, by simp [hn], rfl⟩

theorem full_loadHdf {s : State C} {os : List Nat} (h : Full s os) (o : Nat) (b : Bool) :
    Full (loadHdf s o b).1 os ∧ Extends s (loadHdf s o b).1 := by
  unfold loadHdf
  cases loadResult h5N (s.folder o) (some fitDbN) with
  | error e => exact ⟨h, .refl s⟩
  | ok c =>
    have hext : ∀ (n : Nat) (x : Handle C), s.handles[n]? = some x → (s.handles ++ [(⟨c, true, true, b⟩ : Handle C)])[n]? = some x := by
      intro n x hx
      rw [List.getElem?_append_left (List.getElem?_eq_some_iff.1 hx).1, hx]
    refine ⟨⟨h.nodup, h.sub, fun e he => ?_⟩, fun e he => he, fun n x hx => ⟨x, hext n x hx, rfl⟩⟩
    obtain ⟨x, hx, h1⟩ := h.opened e he
    exact ⟨x, hext _ _ hx, h1⟩

theorem full_step {s : State C} {os : List Nat} (h : Full s os) (hl : os.length ≤ 128) (op : Op C) (hu : ∀ o, uses op = some o → o ∈ os)
    (hc : NoClose op) : Full (step s op).1 os ∧ (Quiet op → Extends s (step s op).1) := by
  have hw : ∀ (o : Nat) (f : State C → Nat → State C), o ∈ os →
      (∀ s n, Full s os → Full (f s n) os ∧ Extends s (f s n)) → Full (withDb s o f).1 os ∧ Extends s (withDb s o f).1 := by
    intro o f ho hf
    have h1 := full_fitDb h hl ho
    unfold withDb
    revert h1
    rcases fitDb s o with ⟨_ | n, s'⟩
    · exact fun h => h
    · exact fun h1 => ⟨(hf s' n h1.1).1, h1.2.trans (hf s' n h1.1).2⟩
  have ok : ∀ {s' : State C} {P : Prop}, Full s' os ∧ Extends s s' → Full s' os ∧ (P → Extends s s') := fun h => ⟨h.1, fun _ => h.2⟩
  cases op with
  | write i f => exact ⟨⟨h.nodup, h.sub, h.opened⟩, fun _ => ⟨fun _ h => h, fun _ x h => ⟨x, h, rfl⟩⟩⟩
  | rescan i => exact ⟨⟨List.nodup_nil, fun e he => (by cases he), fun e he => (by cases he)⟩, fun hq => hq.elim⟩
  | get o => exact ok (hw o _ (hu o rfl) fun s n h => full_modify h n _ (fun _ => rfl) (.inl fun _ => ⟨rfl, rfl⟩))
  | select o => exact ok (hw o _ (hu o rfl) fun s n h => ⟨h, .refl s⟩)
  | openHdf o => exact ok (full_loadHdf h o true)
  | selectHdf o => exact ok (full_loadHdf h o false)
  | del n => exact ok (full_modify h n _ (fun _ => rfl) (.inl fun _ => ⟨rfl, rfl⟩))
  | collect n =>
    refine ok ?_
    show Full (if reachable s n then s else modify s n fun x => { x with alive := false, isOpen := false }) os ∧
      Extends s (if reachable s n then s else modify s n fun x => { x with alive := false, isOpen := false })
    split
    · exact ⟨h, .refl s⟩
    · rename_i hr
      refine full_modify h n _ (fun _ => rfl) (.inr fun e he hn => hr ?_)
      unfold reachable
      rw [Bool.or_eq_true]
      exact .inr (List.any_eq_true.2 ⟨e, he, by simp [hn]⟩)
  | close n => exact hc.elim
  | closeDb o => exact hc.elim
  | load o => exact ok (full_loadFit h hl (hu o rfl))
  | read n => exact ⟨h, fun _ => .refl s⟩

theorem full_exec (os : List Nat) (hl : os.length ≤ 128) (ops : List (Op C)) (hu : ∀ op ∈ ops, ∀ o, uses op = some o → o ∈ os)
    (hc : ∀ op ∈ ops, NoClose op) : ∀ {s : State C}, Full s os → Full (exec s ops) os ∧ ((∀ op ∈ ops, Quiet op) → Extends s (exec s ops)) := by
  induction ops with
  | nil => exact fun h => ⟨h, fun _ => .refl _⟩
  | cons op ops ih =>
    intro s h
    have h1 := full_step h hl op (hu op (List.mem_cons_self ..)) (hc op (List.mem_cons_self ..))
    have h2 := ih (fun o ho => hu o (List.mem_cons_of_mem _ ho)) (fun o ho => hc o (List.mem_cons_of_mem _ ho)) h1.1
    exact ⟨h2.1, fun hq => (h1.2 (hq op (List.mem_cons_self ..))).trans (h2.2 fun o ho => hq o (List.mem_cons_of_mem _ ho))⟩

/-- A selector of `result.fit_db` can be used (and reads the same database) as long as there is no `rescan` — of any result —, no accessor is
closed, and at most 128 results are used. -/
theorem C124_selector_partial (folder : Nat → Folder C) (os : List Nat) (hl : os.length ≤ 128) (before ops : List (Op C)) (o h : Nat)
    (ho : o ∈ os) (hu : ∀ op ∈ before ++ ops, ∀ i, uses op = some i → i ∈ os) (hb : ∀ op ∈ before, NoClose op) (hq : ∀ op ∈ ops, Quiet op)
    (hr : (step (exec (start folder) before) (.select o)).2 = .handle h) :
    ∃ c, (step (exec (start folder) (before ++ [.select o])) (.read h)).2 = .content c ∧
      (step (exec (start folder) (before ++ .select o :: ops)) (.read h)).2 = .content c := by
  have h0 : Full (start folder) os := ⟨List.nodup_nil, fun e he => (by cases he), fun e he => (by cases he)⟩
  have h1 := (full_exec os hl before (fun op hop => hu op (List.mem_append_left _ hop)) hb h0).1
  have hex : ∀ l, exec (start folder) (before ++ .select o :: l) = exec (step (exec (start folder) before) (.select o)).1 l := by
    intro l
    unfold exec
    rw [List.foldl_append, List.foldl_cons]
  have hnc : ∀ op ∈ ops, NoClose op := by
    intro op hop
    have := hq op hop
    cases op <;> first | trivial | exact this.elim
  rw [hex, hex]
  generalize exec (start folder) before = s at h1 hr
  have h2 := (full_step h1 hl (.select o) (fun i hi => by cases hi; exact ho) trivial).1
  have hm : (o, h) ∈ (step s (.select o)).1.cache := by
    have h3 := @find_fitDb _ s o h
    revert hr h3
    show (withDb s o _).2 = _ → _ → _ ∈ (withDb s o _).1.cache
    unfold withDb
    rcases fitDb s o with ⟨_ | n, s'⟩
    · intro hr; cases hr
    · intro hr h3
      cases hr
      exact find_mem (h3 rfl)
  generalize (step s (.select o)).1 = t at h2 hm
  have h4 := full_exec os hl ops (fun op hop => hu op (List.mem_append_right _ hop)) hnc h2
  obtain ⟨x, hx, ha, hop⟩ := h2.opened _ hm
  have hread : ∀ {t : State C} {x : Handle C}, t.handles[h]? = some x → x.alive = true → x.isOpen = true →
      (step t (.read h)).2 = .content x.content := by
    intro t x hx ha hop
    show Out.ofContent (readSelector t h) = _
    unfold readSelector readStore
    rw [hx]
    simp [ha, hop, Out.ofContent]
  refine ⟨x.content, hread hx ha hop, ?_⟩
  obtain ⟨y, hy, hc⟩ := (h4.2 hq).2 h x hx
  obtain ⟨z, hz, ha', hop'⟩ := h4.1.opened _ ((h4.2 hq).1 _ hm)
  dsimp only at hz
  rw [hy] at hz
  cases hz
  rw [hread hy ha' hop', hc]

/-! ### what does not hold -/

/-- The folder of a result with a database. -/
def exFolder (c : Nat) : Folder Nat := [(fitDbN ++ '.' :: ['h', '5'], .file c)]

theorem exFolder_good (c : Nat) : Good (exFolder c) := by
  refine ⟨by simp [exFolder], fun c' h => ?_⟩
  simp [exFolder, ResultFile, fitDbN] at h

theorem exFolder_has (c : Nat) : HasDb (exFolder c) c := by simp [exFolder, HasDb, ResultFile]

theorem empty_good : Good ([] : Folder Nat) := ⟨List.nodup_nil, fun c h => by cases h⟩

/-- A selector of `result.fit_db` (without a reference to the accessor) can no longer be used after the scan of ANOTHER result. -/
theorem C124_selector_fails : ∃ (folder : Nat → Folder Nat) (ops : List (Op Nat)) (h : Nat), GoodHist folder ops ∧
    (step (start folder) (.select 0)).2 = .handle h ∧
    (step (exec (start folder) [.select 0]) (.read h)).2 = .content 5 ∧
    (∀ op ∈ ops, ∀ o, op ≠ .rescan 0 ∧ op ≠ .close o ∧ op ≠ .closeDb o) ∧
    (step (exec (start folder) (.select 0 :: ops)) (.read h)).2 = .error .attributeError := by
  refine ⟨fun _ => exFolder 5, [.rescan 1, .collect 0], 0, ⟨fun o => exFolder_good 5, fun o f h => by simp at h⟩, ?_, ?_, ?_, ?_⟩
  · decide
  · decide
  · simp
  · decide

/-- A selector of an accessor that is not kept (`result.load_hdf().datasets.x`) can not be used after the garbage collection. -/
theorem C124_load_hdf_fails : ∃ (folder : Nat → Folder Nat) (h : Nat), (∀ o, Good (folder o)) ∧
    (step (start folder) (.selectHdf 0)).2 = .handle h ∧
    (step (exec (start folder) [.selectHdf 0, .collect h]) (.read h)).2 = .error .attributeError := by
  refine ⟨fun _ => exFolder 5, 0, fun o => exFolder_good 5, ?_, ?_⟩ <;> decide

/-- A database that is created after the scan is found by `load_hdf`, but not by `load_fit`. -/
theorem C124_new_file_fails : ∃ (folder : Nat → Folder Nat) (ops : List (Op Nat)), GoodHist folder ops ∧
    HasDb ((exec (start folder) ops).folder 0) 5 ∧ (step (exec (start folder) ops) (.openHdf 0)).2 = .handle 0 ∧
    (step (exec (start folder) ops) (.load 0)).2 = .error .assertionError := by
  refine ⟨fun _ => [], [.write 0 (exFolder 5)], ⟨fun _ => empty_good, fun o f h => ?_⟩, exFolder_has 5, ?_, ?_⟩
  · simp only [List.mem_singleton, Op.write.injEq] at h
    rw [h.2]
    exact exFolder_good 5
  · decide
  · decide

/-- A new database is not used if the old one has been opened before — unless another result is scanned. -/
theorem C124_stale_fails : ∃ (folder : Nat → Folder Nat) (ops : List (Op Nat)), GoodHist folder ops ∧
    HasDb ((exec (start folder) ops).folder 0) 6 ∧ (step (exec (start folder) ops) (.load 0)).2 = .content 5 ∧
    (step (exec (start folder) (ops ++ [.rescan 1])) (.load 0)).2 = .content 6 := by
  refine ⟨fun _ => exFolder 5, [.load 0, .write 0 (exFolder 6)], ⟨fun _ => exFolder_good 5, fun o f h => ?_⟩, exFolder_has 6, ?_, ?_⟩
  · simp only [List.mem_cons, reduceCtorEq, Op.write.injEq, List.not_mem_nil, or_false, false_or] at h
    rw [h.2]
    exact exFolder_good 6
  · decide
  · decide

/-! ### examples -/

/-- Two results, several versions of the databases, closed handlers, garbage collection. -/
def exOps : List (Op Nat) :=
  [.load 0, .get 1, .write 0 (exFolder 6), .closeDb 0, .load 0, .rescan 1, .collect 0, .write 1 (exFolder 8), .load 1, .close 1, .select 0]

theorem exOps_good : GoodHist (fun o => exFolder (o + 1)) exOps := by
  refine ⟨fun o => exFolder_good _, fun o f h => ?_⟩
  simp only [exOps, List.mem_cons, reduceCtorEq, Op.write.injEq, List.not_mem_nil, or_false, false_or] at h
  rcases h with h | h
  · rw [h.2]; exact exFolder_good 6
  · rw [h.2]; exact exFolder_good 8

example : ∃ f ∈ since 0 [exFolder 1] exOps, ∃ c, HasDb f c ∧
    (step (exec (start fun o => exFolder (o + 1)) exOps) (.load 0)).2 = .content c := by
  refine C124_load_partial _ exOps exOps_good 0 fun f hf => ?_
  have : since 0 [exFolder 1] exOps = [exFolder 6, exFolder 1] := rfl
  rw [show since 0 [(fun o => exFolder (o + 1)) 0] exOps = [exFolder 6, exFolder 1] from rfl] at hf
  simp only [List.mem_cons, List.not_mem_nil, or_false] at hf
  rcases hf with rfl | rfl
  · exact ⟨6, exFolder_has 6⟩
  · exact ⟨1, exFolder_has 1⟩

example : (step (exec (start fun o => exFolder (o + 1)) (exOps ++ .rescan 0 :: [.get 1, .closeDb 0, .collect 3])) (.load 0)).2 = .content 6 :=
  C124_rescan _ exOps _ 0 ⟨exOps_good.1, fun o f h => exOps_good.2 o f (by simpa using h)⟩ (by simp) 6 (exFolder_has 6)

example : (step (exec (start fun o => exFolder (o + 1)) (exOps ++ [.closeDb 0])) (.load 0)).2 = .content 6 :=
  C124_reopen _ exOps exOps_good 0 (by
    rw [show since 0 [(fun o => exFolder (o + 1)) 0] exOps = [exFolder 6, exFolder 1] from rfl]
    simp only [List.mem_cons, List.not_mem_nil, or_false]
    rintro f (rfl | rfl)
    · exact ⟨6, exFolder_has 6⟩
    · exact ⟨1, exFolder_has 1⟩) 6 (exFolder_has 6)

example : (step (exec (start fun _ => ([] : Folder Nat)) [.load 1, .write 0 (exFolder 3)]) (.load 0)).2 = .error .assertionError :=
  C124_missing _ _ ⟨fun _ => empty_good, fun o f h => by
    simp only [List.mem_cons, reduceCtorEq, Op.write.injEq, List.not_mem_nil, or_false, false_or] at h
    rw [h.2]
    exact exFolder_good 3⟩ 0 [] rfl fun c h => by cases h

example : ∃ h, (step (exec (start fun o => exFolder (o + 1)) exOps) (.openHdf 0)).2 = .handle h ∧
    ((∀ op ∈ [Op.write 0 (exFolder 9), .rescan 0, .collect 4, .load 0], Keeps h op) →
    (step (exec (start fun o => exFolder (o + 1)) (exOps ++ .openHdf 0 :: [.write 0 (exFolder 9), .rescan 0, .collect 4, .load 0])) (.read h)).2
      = .content 6) :=
  C124_held (fun o => exFolder (o + 1)) exOps _ exOps_good 0 6 (exFolder_has 6)

example : (step (exec (start fun o => exFolder (o + 1)) ([.load 1] ++ .get 1 :: [.rescan 1, .collect 0, .load 1])) (.read 0)).2 = .content 2 :=
  C124_held_db _ [.load 1] _ 1 0 (by decide) 2 (by rfl) (by simp [Keeps])

example : ∃ c, (step (exec (start fun o => exFolder (o + 1)) ([.load 1, .rescan 0] ++ [.select 0])) (.read 1)).2 = .content c ∧
    (step (exec (start fun o => exFolder (o + 1)) ([.load 1, .rescan 0] ++ .select 0 :: [.load 1, .collect 0, .collect 1, .write 0 (exFolder 7), .load 0]))
      (.read 1)).2 = .content c :=
  C124_selector_partial _ [0, 1] (by simp) _ _ 0 1 (by simp) (by simp [uses]) (by simp [NoClose]) (by simp [Quiet]) (by decide)

end RT1.ResultDb
