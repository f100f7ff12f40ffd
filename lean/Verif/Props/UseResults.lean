import Verif.Model.UseResults
import Verif.Props.Results

/-!
# C118: final outputs and exports use the stored fits of the configured folder
-/

namespace RT1.UseResults

variable {I C : Type} [DecidableEq I]

/-- What is stored in a folder: the fits of the dump-files or of the database. -/
def stored (fs : FS I C) (key : Conf) (useDumps : Bool) : Option (List (I × C)) :=
  (fs key).bind fun f => if useDumps then some f.dumps else f.db

/-- The configured folder: the overridden one, otherwise that of the config-file. -/
def configured (p : Proc I) : Conf := match p.kw with | some c => c | none => p.ini

omit [DecidableEq I] in
theorem conf_configured (p : Proc I) : p.conf = configured p := by
  unfold Proc.conf configured
  cases p.kw <;> rfl

/-- The first `n` elements (all without a number). -/
def first {α : Type} (n : Option Nat) (l : List α) : List α := match n with | some n => l.take n | none => l

/-- All stored fits (or the first n) are used, with their content. -/
def wanted (l : List (I × C)) (n : Option Nat) : List (I × Option C) := (first n l).map fun e => (e.1, some e.2)

theorem find_mem {l : List (I × C)} (h : (l.map Prod.fst).Nodup) {e : I × C} (he : e ∈ l) : find l e.1 = some e.2 := by
  induction l with
  | nil => cases he
  | cons a l ih =>
    rw [List.map_cons, List.nodup_cons] at h
    rcases List.mem_cons.mp he with rfl | he
    · simp [find]
    · have : a.1 ≠ e.1 := fun e' => h.1 (e' ▸ List.mem_map_of_mem he)
      have := ih h.2 he
      simpa [find, List.find?_cons, ‹a.1 ≠ e.1›] using this

theorem first_map {α β : Type} (g : α → β) (n : Option Nat) (l : List α) : first n (l.map g) = (first n l).map g := by
  cases n <;> simp [first, List.map_take]

theorem mem_first {α : Type} {n : Option Nat} {l : List α} {a : α} (h : a ∈ first n l) : a ∈ l := by
  cases n with
  | none => exact h
  | some n => exact List.mem_of_mem_take h

theorem mkFolder_db (fs : FS I C) (k key : Conf) : (mkFolder fs k key).bind Folder.db = (fs key).bind Folder.db := by
  unfold mkFolder
  split
  · rename_i h; subst h
    cases fs key <;> rfl
  · rfl

theorem stored_mkFolder {fs : FS I C} {k key : Conf} {d : Bool} {l : List (I × C)} (h : stored fs key d = some l) :
    stored (mkFolder fs k) key d = some l := by
  unfold stored mkFolder at *
  split
  · rename_i e; subst e
    cases hf : fs key with
    | none => rw [hf] at h; cases h
    | some f => rw [hf] at h; exact h
  · exact h

/-- Loading from an object that fits to the folder. -/
theorem loadAll_wanted {fs : FS I C} {p : Proc I} {r : Res I} {l : List (I × C)} (n : Option Nat) (hr : p.useres = some r)
    (hs : stored fs r.key r.useDumps = some l) (hdb : r.useDumps = false → r.hasDb = true) (hn : (l.map Prod.fst).Nodup) :
    loadAll fs p (first n (l.map Prod.fst)) = wanted l n := by
  unfold loadAll wanted
  rw [first_map, List.map_map]
  apply List.map_congr_left
  intro e he
  have he := find_mem hn (mem_first he)
  dsimp only [Function.comp]
  rw [hr]
  dsimp only
  congr 1
  unfold loadFit
  unfold stored at hs
  cases hf : fs r.key with
  | none => rw [hf] at hs; cases hs
  | some f =>
    rw [hf] at hs
    dsimp only [Option.bind_some] at hs ⊢
    cases hd : r.useDumps with
    | true =>
      rw [hd] at hs
      have : f.dumps = l := by simpa using hs
      simpa [this] using he
    | false =>
      rw [hd] at hs
      have : f.db = some l := by simpa using hs
      simpa [this, hdb hd] using he

/-- The object fits to the folder `key`: a cached handler has the current IDs. -/
structure Current (fs : FS I C) (key : Conf) (d : Bool) (r : Res I) : Prop where
  rkey : r.key = key
  dumps : r.useDumps = d
  hasDb : d = false → r.hasDb = ((fs key).bind Folder.db).isSome
  handler : d = false → ∀ l, r.handler = some l → ((fs key).bind Folder.db).map (List.map Prod.fst) = some l

theorem current_newRes (fs : FS I C) (key : Conf) (d : Bool) : Current fs key d (newRes fs key d) :=
  ⟨rfl, rfl, fun _ => rfl, fun _ l h => by cases h⟩

theorem current_fitDb {fs : FS I C} {key : Conf} {d : Bool} {r r' : Res I} {l : List I} (h : Current fs key d r)
    (e : fitDb fs r = .ok (l, r')) : Current fs key d r' := by
  unfold fitDb at e
  split at e
  · cases e; exact h
  · split at e
    · split at e
      · rename_i l' hl
        cases e
        exact ⟨h.rkey, h.dumps, h.hasDb, fun _ l hl' => by cases hl'; rw [← h.rkey, hl]; rfl⟩
      · cases e
    · cases e

theorem current_dumpFiles {fs : FS I C} {key : Conf} {d : Bool} {r r' : Res I} {l : List I} (h : Current fs key d r)
    (e : dumpFiles fs r = .ok (l, r')) : Current fs key d r' := by
  unfold dumpFiles at e
  split at e
  · split at e
    · cases e; exact h
    · cases e
  · exact current_fitDb h e

theorem current_ext {fs fs' : FS I C} {key : Conf} {d : Bool} {r : Res I} (h : Current fs key d r)
    (e : d = false → (fs' key).bind Folder.db = (fs key).bind Folder.db) : Current fs' key d r :=
  ⟨h.rkey, h.dumps, fun hd => by rw [e hd]; exact h.hasDb hd, fun hd => by rw [e hd]; exact h.handler hd⟩

/-- The IDs listed by an object that fits to the folder. -/
theorem dumpFiles_current {fs : FS I C} {key : Conf} {d : Bool} {r : Res I} {l : List (I × C)} (h : Current fs key d r)
    (hs : stored fs key d = some l) : ∃ r', dumpFiles fs r = .ok (l.map Prod.fst, r') ∧ r'.key = key ∧ r'.useDumps = d ∧
      (d = false → r'.hasDb = true) := by
  obtain ⟨rkey, rd, rh, rhd⟩ := r
  obtain ⟨h1, h2, h3, h4⟩ := h
  dsimp only at h1 h2 h3 h4
  subst h1 h2
  unfold stored at hs
  unfold dumpFiles fitDb
  cases hf : fs rkey with
  | none => rw [hf] at hs; cases hs
  | some f =>
    rw [hf] at hs h3 h4
    dsimp only [Option.bind_some] at *
    cases rd with
    | true =>
      have : f.dumps = l := by simpa using hs
      refine ⟨⟨rkey, true, rh, rhd⟩, by simp [hf, this], rfl, rfl, fun e => by cases e⟩
    | false =>
      have hdb : f.db = some l := by simpa using hs
      have h3 := h3 rfl
      rw [hdb] at h3
      cases rhd with
      | some l' =>
        have := h4 rfl l' rfl
        rw [hdb] at this
        have : l.map Prod.fst = l' := by simpa using this
        exact ⟨⟨rkey, false, rh, some l'⟩, by simp [this], rfl, rfl, fun _ => h3⟩
      | none =>
        have : rh = true := h3
        subst this
        exact ⟨⟨rkey, false, true, some (l.map Prod.fst)⟩, by simp [hf, hdb], rfl, rfl, fun _ => rfl⟩

theorem finalout_current {fs : FS I C} {p : Proc I} {d d' : Bool} {l : List (I × C)} {key : Conf} {r : Res I} (n : Option Nat)
    (hr : useRes (setup fs p).1 (setup fs p).2 d' = .ok r) (hc : Current (setup fs p).1 key d r) (hs : stored fs key d = some l)
    (hn : (l.map Prod.fst).Nodup) : (finalout fs p none n d').res = .ok (wanted l n) := by
  have hs' : stored (setup fs p).1 key d = some l := stored_mkFolder hs
  obtain ⟨r', h1, h2, h3, h4⟩ := dumpFiles_current hc hs'
  unfold finalout
  dsimp only
  unfold getFiles
  rw [hr]
  dsimp only
  rw [h1]
  dsimp only
  congr 1
  exact loadAll_wanted (r := r') n rfl (by rw [h2, h3]; exact hs') (fun e => h4 (h3 ▸ e)) hn

/-- **C118**: the first final output of an object uses exactly the stored fits of the configured folder (with the content that is stored
now). -/
theorem C118_first_partial (fs : FS I C) (p : Proc I) (n : Option Nat) (d : Bool) (l : List (I × C)) (hu : p.useres = none)
    (hk : Results.stem (configured p).2 = (configured p).2) (hs : stored fs (configured p) d = some l) (hn : (l.map Prod.fst).Nodup) :
    (finalout fs p none n d).res = .ok (wanted l n) := by
  rw [← conf_configured] at hk hs
  refine finalout_current (r := newRes (setup fs p).1 p.conf d) n ?_ (current_newRes _ _ _) hs hn
  show useRes (mkFolder fs p.conf) { p with cfg := some p.conf } d = _
  unfold useRes
  dsimp only
  rw [hu]
  dsimp only [getRes]
  rw [show Proc.conf { p with cfg := some p.conf, useres := none } = p.conf from rfl, if_pos hk]
  rfl

/-! ## Histories -/

/-- The folder and the choice of the files do not change, and no IDs are stored after the first use (dump-files may be added). -/
def Allowed (key : Conf) (d : Bool) (s : FS I C × Proc I) : Op I C → Prop
  | .override c => c.getD key = key
  | .store k f => k = key → d = true ∨ s.2.useres = none ∨
      (f.db.map (List.map Prod.fst) = ((s.1 key).bind Folder.db).map (List.map Prod.fst))
  | .finalout _ _ d' => d' = d
  | .exportData _ _ d' => d' = d

def AllAllowed (key : Conf) (d : Bool) : FS I C × Proc I → List (Op I C) → Prop
  | _, [] => True
  | s, o :: os => Allowed key d s o ∧ AllAllowed key d (step s o) os

structure Inv (key : Conf) (d : Bool) (s : FS I C × Proc I) : Prop where
  ini : s.2.ini = key
  kw : s.2.kw.getD key = key
  cfg : s.2.cfg.getD key = key
  res : ∀ r, s.2.useres = some r → Current s.1 key d r

theorem getRes_current {fs : FS I C} {key : Conf} {d : Bool} {r : Res I} (h : getRes fs key d = .ok r) : Current fs key d r := by
  unfold getRes at h
  split at h
  · cases h; exact current_newRes _ _ _
  · cases h

theorem inv_finalout {key : Conf} {d : Bool} {fs : FS I C} {p : Proc I} (h : Inv key d (fs, p)) (l : Option (FitList I)) (n : Option Nat) :
    Inv key d ((finalout fs p l n d).fs, (finalout fs p l n d).proc) := by
  have hconf : p.conf = key := by have := h.kw; unfold Proc.conf; rw [h.ini]; exact this
  have hres : ∀ r, p.useres = some r → Current (mkFolder fs p.conf) key d r := fun r hr =>
    current_ext (h.res r hr) fun _ => mkFolder_db _ _ _
  have base : Inv key d (mkFolder fs p.conf, { p with cfg := some p.conf }) := ⟨h.ini, h.kw, hconf, hres⟩
  unfold finalout
  dsimp only [setup]
  cases l with
  | some l => exact base
  | none =>
    dsimp only
    unfold getFiles
    cases hr : useRes (mkFolder fs p.conf) { p with cfg := some p.conf } d with
    | error e => exact base
    | ok r =>
      have hc : Current (mkFolder fs p.conf) key d r := by
        unfold useRes at hr
        dsimp only at hr
        cases hu : p.useres with
        | some r' => rw [hu] at hr; cases hr; exact hres _ hu
        | none =>
          rw [hu] at hr
          rw [show Proc.conf { p with cfg := some p.conf, useres := none } = p.conf from rfl] at hr
          exact hconf ▸ getRes_current hr
      dsimp only
      cases hd : dumpFiles (mkFolder fs p.conf) r with
      | error e => exact ⟨h.ini, h.kw, hconf, fun r' hr' => by cases hr'; exact hc⟩
      | ok x => exact ⟨h.ini, h.kw, hconf, fun r' hr' => by cases hr'; exact current_dumpFiles hc hd⟩

theorem current_firstFit {fs : FS I C} {key : Conf} {d : Bool} {r : Res I} (h : Current fs key d r) :
    Current fs key d (firstFit fs r).2 := by
  unfold firstFit
  cases e : fitDb fs r with
  | error e => exact h
  | ok x =>
    obtain ⟨l, r'⟩ := x
    have := current_fitDb h e
    cases l with
    | nil => exact this
    | cons i l =>
      dsimp only
      split <;> exact this

theorem inv_step {key : Conf} {d : Bool} {s : FS I C × Proc I} {o : Op I C} (h : Inv key d s) (ha : Allowed key d s o) :
    Inv key d (step s o) := by
  obtain ⟨fs, p⟩ := s
  cases o with
  | override c => exact ⟨h.ini, ha, h.cfg, h.res⟩
  | store k f =>
    refine ⟨h.ini, h.kw, h.cfg, fun r hr => ?_⟩
    have hc := h.res r hr
    by_cases hk : k = key
    · rcases ha hk with hd | hu | he
      · refine current_ext hc fun e => ?_
        rw [hd] at e; cases e
      · exact absurd (hr.symm.trans hu) (by simp)
      · subst hk
        have e1 : ((step (fs, p) (Op.store k f)).1 k).bind Folder.db = f.db := by simp [step]
        refine ⟨hc.rkey, hc.dumps, fun hd => ?_, fun hd l hl => ?_⟩
        · rw [hc.hasDb hd, e1]
          have := congrArg Option.isSome he
          rw [Option.isSome_map, Option.isSome_map] at this
          exact this.symm
        · rw [e1]; exact he.trans (hc.handler hd l hl)
    · refine current_ext hc fun _ => ?_
      show (if key = k then some f else fs key).bind Folder.db = _
      rw [if_neg fun e => hk e.symm]
  | finalout l n d' =>
    have : d' = d := ha
    subst this
    exact inv_finalout h l n
  | exportData df n d' =>
    have : d' = d := ha
    subst this
    have hec : p.exportConf = key := by have := h.cfg; unfold Proc.exportConf; rw [h.ini]; exact this
    show Inv key d' ((exportHDF fs p df n d').fs, (exportHDF fs p df n d').proc)
    unfold exportHDF
    cases hr : exportRes fs p df d' with
    | error e => exact h
    | ok r =>
      have hc : Current fs key d' r := by
        unfold exportRes at hr
        split at hr
        · cases hr
        · split at hr
          · cases hr; exact hec ▸ current_newRes _ _ _
          · cases hr
      have hf := current_firstFit hc
      dsimp only
      rcases hff : firstFit fs r with ⟨e | u, r'⟩
      · rw [hff] at hf
        exact ⟨h.ini, h.kw, h.cfg, fun r'' hr'' => by cases hr''; exact hf⟩
      · rw [hff] at hf
        exact inv_finalout (p := { p with useres := some r' }) ⟨h.ini, h.kw, h.cfg, fun r'' hr'' => by cases hr''; exact hf⟩ none n

theorem inv_run {key : Conf} {d : Bool} (ops : List (Op I C)) {s : FS I C × Proc I} (h : Inv key d s) (ha : AllAllowed key d s ops) :
    Inv key d (run s ops) := by
  induction ops generalizing s with
  | nil => exact h
  | cons o os ih => exact ih (inv_step h ha.1) ha.2

/-- **C118**, for histories: final outputs use exactly the fits that are stored now, if the folder and `use_dumps` have not been changed, and if
no IDs have been added to the database since the first use (dump-files may be added and fits may be replaced). -/
theorem C118_history_partial (fs : FS I C) (p : Proc I) (d : Bool) (ops : List (Op I C)) (hu : p.useres = none) (hkw : p.kw = none)
    (hc : p.cfg = none) (hk : Results.stem p.ini.2 = p.ini.2) (ha : AllAllowed p.ini d (fs, p) ops) (n : Option Nat) (l : List (I × C))
    (hs : stored (run (fs, p) ops).1 p.ini d = some l) (hn : (l.map Prod.fst).Nodup) :
    (finalout (run (fs, p) ops).1 (run (fs, p) ops).2 none n d).res = .ok (wanted l n) := by
  have h0 : Inv p.ini d (fs, p) := ⟨rfl, by rw [hkw]; rfl, by rw [hc]; rfl, fun r hr => by rw [hu] at hr; cases hr⟩
  have h := inv_run ops h0 ha
  generalize run (fs, p) ops = s at h hs
  obtain ⟨fs', p'⟩ := s
  have hconf : p'.conf = p.ini := by have := h.kw; unfold Proc.conf; rw [h.ini]; exact this
  cases hr : p'.useres with
  | none => exact C118_first_partial fs' p' n d l hr (by rw [← conf_configured, hconf]; exact hk) (by rw [← conf_configured, hconf]; exact hs) hn
  | some r =>
    refine finalout_current (key := p.ini) (r := r) n ?_ (current_ext (h.res r hr) fun _ => mkFolder_db _ _ _) hs hn
    show useRes (mkFolder fs' p'.conf) { p' with cfg := some p'.conf } d = _
    unfold useRes; dsimp only; rw [hr]

/-- **C118**: exports always use the fits that are stored now (whatever has been used before), if the folder has not been overridden since the
last set-up, the database is not empty and (for dump-files) the first ID of the database has a dump-file. -/
theorem C118_export_partial (fs : FS I C) (p : Proc I) (n : Option Nat) (d : Bool) (l db : List (I × C)) (i : I × C)
    (hc : p.cfg = some (configured p) ∨ (p.cfg = none ∧ p.kw = none)) (hs : stored fs (configured p) d = some l)
    (hn : (l.map Prod.fst).Nodup) (hdb : stored fs (configured p) false = some (i :: db)) (hi : d = true → i.1 ∈ l.map Prod.fst) :
    (exportHDF fs p none n d).res = .ok (wanted l n) := by
  have hc : p.exportConf = p.conf := by
    rcases hc with h | ⟨h1, h2⟩
    · rw [conf_configured]; unfold Proc.exportConf; rw [h]; rfl
    · unfold Proc.exportConf Proc.conf; rw [h1, h2]
  rw [← conf_configured] at hs hdb
  obtain ⟨f, hf, hfd⟩ : ∃ f, fs p.conf = some f ∧ f.db = some (i :: db) := by
    unfold stored at hdb
    cases hf : fs p.conf with
    | none => rw [hf] at hdb; cases hdb
    | some f => rw [hf] at hdb; exact ⟨f, rfl, by simpa using hdb⟩
  have e1 : exportRes fs p none d = .ok (newRes fs p.conf d) := by
    unfold exportRes
    rw [hc, hf]
    dsimp only [Option.getD]
    rw [if_pos rfl]
  have e2 : fitDb fs (newRes fs p.conf d) = .ok ((i :: db).map Prod.fst, { newRes fs p.conf d with handler := some ((i :: db).map Prod.fst) }) := by
    simp [fitDb, newRes, hf, hfd]
  have e3 : (loadFit fs { newRes fs p.conf d with handler := some ((i :: db).map Prod.fst) } i.1).isSome := by
    unfold loadFit
    show Option.isSome (match fs p.conf with
      | none => none
      | some f => if d then find f.dumps i.1 else if ((fs p.conf).bind Folder.db).isSome then f.db.bind fun l => find l i.1 else none)
    rw [hf]
    dsimp only [Option.bind_some]
    cases d with
    | false => simp [hfd, find]
    | true =>
      unfold stored at hs
      rw [hf] at hs
      have : f.dumps = l := by simpa using hs
      rw [this, if_pos rfl]
      obtain ⟨e, he, h1⟩ := List.mem_map.mp (hi rfl)
      rw [← h1, find_mem hn he]; rfl
  have e4 : firstFit fs (newRes fs p.conf d) = (.ok (), { newRes fs p.conf d with handler := some ((i :: db).map Prod.fst) }) := by
    unfold firstFit
    rw [e2]
    obtain ⟨c, hl⟩ := Option.isSome_iff_exists.mp e3
    simp only [List.map_cons] at hl ⊢
    rw [hl]
  unfold exportHDF
  rw [e1]
  dsimp only
  rw [e4]
  dsimp only
  refine finalout_current (key := p.conf) (d := d) (r := { newRes fs p.conf d with handler := some ((i :: db).map Prod.fst) }) n rfl ?_ hs hn
  exact current_ext (current_fitDb (current_newRes fs p.conf d) e2) fun _ => mkFolder_db _ _ _

/-! ## Violations -/

/-- **C118** is violated: as soon as results have been used by the object, the configured folder and `use_dumps` have no effect. -/
theorem C118_sticky_fails (fs : FS I C) (p : Proc I) (r : Res I) (f : Folder I C) (hu : p.useres = some r) (hf : fs r.key = some f)
    (c c' : Option Conf) (n : Option Nat) (d d' : Bool) :
    (finalout fs { p with kw := c } none n d).res = (finalout fs { p with kw := c' } none n d').res := by
  have key : ∀ k : Conf, mkFolder fs k r.key = some f := fun k => by
    unfold mkFolder; split
    · rename_i e; rw [← e, hf]; rfl
    · exact hf
  have h1 : ∀ (c : Option Conf) (d : Bool), (finalout fs { p with kw := c } none n d).res =
      match dumpFiles (fun _ => some f) r with
      | .error e => .error e
      | .ok (l, r') => .ok ((first n l).map fun i => (i, loadFit (fun _ => some f) r' i)) := by
    intro c d
    have e1 : dumpFiles (mkFolder fs (Proc.conf { p with kw := c, useres := some r })) r = dumpFiles (fun _ => some f) r := by
      unfold dumpFiles fitDb; rw [key]
    unfold finalout
    dsimp only [setup]
    unfold getFiles useRes
    dsimp only
    rw [hu]
    dsimp only
    rw [e1]
    cases hd : dumpFiles (fun _ => some f) r with
    | error e => rfl
    | ok x =>
      obtain ⟨l, r'⟩ := x
      have hk : r'.key = r.key := by
        unfold dumpFiles fitDb at hd
        repeat' split at hd
        all_goals first | (cases hd; rfl) | cases hd
      dsimp only
      unfold loadAll
      dsimp only
      congr 1
      have : ∀ i, loadFit (mkFolder fs (Proc.conf { p with kw := c, useres := some r })) r' i = loadFit (fun _ => some f) r' i := fun i => by
        unfold loadFit; rw [hk, key]
      simp only [this]
      rfl
  rw [h1, h1]

/-- **C118** is violated: after a final output, the folder is overridden: the fits of the old folder are used. -/
theorem C118_folder_fails (fs : FS I C) (p : Proc I) (c : Conf) (n : Option Nat) (d : Bool) (l : List (I × C)) (hu : p.useres = none)
    (hk : Results.stem (configured p).2 = (configured p).2) (hs : stored fs (configured p) d = some l) (hn : (l.map Prod.fst).Nodup) :
    (finalout (run (fs, p) [.finalout none n d, .override (some c)]).1 (run (fs, p) [.finalout none n d, .override (some c)]).2 none n d).res
      = .ok (wanted l n) := by
  rw [← conf_configured] at hk hs
  have h1 : useRes (setup fs p).1 (setup fs p).2 d = .ok (newRes (setup fs p).1 p.conf d) := by
    show useRes (mkFolder fs p.conf) { p with cfg := some p.conf } d = _
    unfold useRes; dsimp only; rw [hu]; dsimp only [getRes]
    rw [show Proc.conf { p with cfg := some p.conf, useres := none } = p.conf from rfl, if_pos hk]; rfl
  have hs' : stored (setup fs p).1 p.conf d = some l := stored_mkFolder hs
  obtain ⟨r', h2, h3, h4, h5⟩ := dumpFiles_current (current_newRes (setup fs p).1 p.conf d) hs'
  have hc := current_dumpFiles (current_newRes (setup fs p).1 p.conf d) h2
  have e : run (fs, p) [.finalout none n d, .override (some c)] =
      ((setup fs p).1, { (setup fs p).2 with useres := some r', kw := some c }) := by
    show step (step (fs, p) (.finalout none n d)) (.override (some c)) = _
    have : finalout fs p none n d = ⟨.ok (loadAll (setup fs p).1 { (setup fs p).2 with useres := some r' } (first n (l.map Prod.fst))),
        (setup fs p).1, { (setup fs p).2 with useres := some r' }⟩ := by
      unfold finalout; dsimp only; unfold getFiles; rw [h1]; dsimp only; rw [h2]; rfl
    simp only [step, this]
  rw [e]
  dsimp only
  exact finalout_current (key := p.conf) (r := r') n rfl (current_ext hc fun _ => mkFolder_db _ _ _) hs' hn

/-- **C118** is violated: fits that are added to the database after the first use are ignored. -/
theorem C118_new_fails (fs : FS I C) (p : Proc I) (r : Res I) (ids : List I) (n : Option Nat) (d : Bool) (hu : p.useres = some r)
    (hd : r.useDumps = false) (hh : r.handler = some ids) :
    ∃ l, (finalout fs p none n d).res = .ok l ∧ l.map Prod.fst = first n ids := by
  unfold finalout
  dsimp only [setup]
  unfold getFiles useRes dumpFiles fitDb
  dsimp only
  rw [hu]
  dsimp only
  rw [hd, hh]
  refine ⟨_, rfl, ?_⟩
  unfold loadAll
  rw [List.map_map]
  cases n <;> simp [first, Function.comp_def]

/-- **C118** is violated: if there was no database at the first use, a database that is generated later is not found. -/
theorem C118_scan_fails (fs : FS I C) (p : Proc I) (r : Res I) (n : Option Nat) (d : Bool) (hu : p.useres = some r)
    (hd : r.useDumps = false) (hh : r.handler = none) (hdb : r.hasDb = false) :
    (finalout fs p none n d).res = .error .assertionError := by
  unfold finalout
  dsimp only [setup]
  unfold getFiles useRes dumpFiles fitDb
  dsimp only
  rw [hu]
  dsimp only
  rw [hd, hh, hdb]
  rfl

/-- **C118** is violated: a given list of fits cannot be used by an object that has not been used before; a list of paths (as documented) can
never be used. -/
theorem C118_fitlist_fails (fs : FS I C) (p : Proc I) (n : Option Nat) (d : Bool) :
    (∀ l : List I, p.useres = none → (finalout fs p (some (.dicts l)) n d).res = .ok (l.map fun i => (i, none))) ∧
      ∀ (a : Name) (l : List Name), (finalout fs p (some (.paths (a :: l))) n d).res = .error .typeError := by
  refine ⟨fun l hu => ?_, fun a l => rfl⟩
  show Except.ok (loadAll _ _ l) = _
  unfold loadAll
  dsimp only [setup]
  rw [hu]

/-- **C118** is violated: no final output for folders whose name has an ending. -/
theorem C118_name_fails (fs : FS I C) (p : Proc I) (n : Option Nat) (d : Bool) (hu : p.useres = none)
    (hk : Results.stem (configured p).2 ≠ (configured p).2) : (finalout fs p none n d).res = .error .attributeError := by
  rw [← conf_configured] at hk
  unfold finalout
  dsimp only [setup]
  unfold getFiles useRes getRes
  dsimp only
  rw [hu]
  dsimp only
  rw [show Proc.conf { p with cfg := some p.conf, useres := none } = p.conf from rfl, if_neg hk]

/-- **C118** is violated: exports of a new object ignore the overridden folder. -/
theorem C118_export_override_fails (fs : FS I C) (p : Proc I) (n : Option Nat) (d : Bool) (l db : List (I × C)) (i : I × C) (c : Conf)
    (hc : p.cfg = none) (hs : stored fs p.ini d = some l) (hn : (l.map Prod.fst).Nodup)
    (hdb : stored fs p.ini false = some (i :: db)) (hi : d = true → i.1 ∈ l.map Prod.fst) :
    (exportHDF fs { p with kw := some c } none n d).res = .ok (wanted l n) := by
  have h := C118_export_partial fs { p with kw := none } n d l db i (.inr ⟨hc, rfl⟩) hs hn hdb hi
  rw [← h]
  obtain ⟨f, hf⟩ : ∃ f, fs p.ini = some f := by
    unfold stored at hdb
    cases hf : fs p.ini with
    | none => rw [hf] at hdb; cases hdb
    | some f => exact ⟨f, rfl⟩
  unfold exportHDF
  have e : ∀ kw, exportRes fs { p with kw := kw } none d = .ok (newRes fs p.ini d) := fun kw => by
    unfold exportRes Proc.exportConf
    dsimp only
    rw [hc]
    dsimp only [Option.getD]
    rw [hf]
    dsimp only
    rw [if_pos rfl]
  rw [e, e]
  dsimp only
  have hk : (firstFit fs (newRes fs p.ini d)).2.key = p.ini := (current_firstFit (current_newRes fs p.ini d)).rkey
  rcases hff : firstFit fs (newRes fs p.ini d) with ⟨e | u, r'⟩
  · rfl
  · rw [hff] at hk
    dsimp only
    exact C118_sticky_fails fs { p with useres := some r' } r' f rfl (by rw [hk]; exact hf) (some c) none n d d

/-- **C118** is violated: dump-files cannot be exported if there is no database. -/
theorem C118_export_dumps_fails (fs : FS I C) (p : Proc I) (n : Option Nat) (f : Folder I C) (hf : fs p.exportConf = some f)
    (hdb : f.db = none) : (exportHDF fs p none n true).res = .error .assertionError := by
  unfold exportHDF exportRes
  rw [hf]
  dsimp only [Option.getD]
  rw [if_pos rfl]
  dsimp only
  simp [firstFit, fitDb, newRes, hf, hdb]

/-! ## Examples -/

def exA : Conf := ("save".toList, "a".toList)
def exB : Conf := ("save".toList, "b".toList)

def exFs : FS Nat Nat := fun k =>
  if k = exA then some ⟨some [(1, 10), (2, 20)], [(1, 10), (2, 20), (3, 30)]⟩
  else if k = exB then some ⟨some [(7, 70)], []⟩ else none

def exP : Proc Nat := ⟨exA, none, none, none⟩

example : (finalout exFs exP none none false).res = .ok [(1, some 10), (2, some 20)] :=
  C118_first_partial exFs exP none false [(1, 10), (2, 20)] rfl (by decide) rfl (by decide)

example : (finalout exFs exP none (some 1) true).res = .ok [(1, some 10)] :=
  C118_first_partial exFs exP (some 1) true [(1, 10), (2, 20), (3, 30)] rfl (by decide) rfl (by decide)

/-- A dump-file is added and a fit is replaced after the first use. -/
def exOps : List (Op Nat Nat) := [.finalout none none true, .store exA ⟨none, [(1, 11), (4, 40)]⟩, .finalout none (some 1) true]

example : (finalout (run (exFs, exP) exOps).1 (run (exFs, exP) exOps).2 none none true).res = .ok [(1, some 11), (4, some 40)] :=
  C118_history_partial exFs exP true exOps rfl rfl rfl (by decide) ⟨rfl, fun _ => .inl rfl, rfl, trivial⟩ none [(1, 11), (4, 40)]
    (by decide) (by decide)

example : (exportHDF exFs exP none none true).res = .ok [(1, some 10), (2, some 20), (3, some 30)] :=
  C118_export_partial exFs exP none true [(1, 10), (2, 20), (3, 30)] [(2, 20)] (1, 10) (.inr ⟨rfl, rfl⟩) rfl (by decide) rfl (by decide)

/-- The folder b is configured, but the fits of the folder a are used. -/
example : (finalout (run (exFs, exP) [.finalout none none false, .override (some exB)]).1
    (run (exFs, exP) [.finalout none none false, .override (some exB)]).2 none none false).res = .ok [(1, some 10), (2, some 20)] :=
  C118_folder_fails exFs exP exB none false [(1, 10), (2, 20)] rfl (by decide) rfl (by decide)

example : (exportHDF exFs { exP with kw := some exB } none none false).res = .ok [(1, some 10), (2, some 20)] :=
  C118_export_override_fails exFs exP none false [(1, 10), (2, 20)] [(2, 20)] (1, 10) exB rfl rfl (by decide) rfl (by decide)

example : ∃ l, (finalout exFs { exP with useres := some ⟨exA, false, true, some [1]⟩ } none none false).res = .ok l ∧ l.map Prod.fst = [1] :=
  C118_new_fails exFs _ ⟨exA, false, true, some [1]⟩ [1] none false rfl rfl rfl

example : (finalout exFs { exP with useres := some ⟨exA, false, false, none⟩ } none none false).res = .error .assertionError :=
  C118_scan_fails exFs _ ⟨exA, false, false, none⟩ none false rfl rfl rfl rfl

example : (finalout exFs { exP with useres := some ⟨exA, false, true, none⟩ } none none true).res
    = (finalout exFs { exP with useres := some ⟨exA, false, true, none⟩, kw := some exB } none none false).res :=
  C118_sticky_fails exFs { exP with useres := some ⟨exA, false, true, none⟩ } ⟨exA, false, true, none⟩
    ⟨some [(1, 10), (2, 20)], [(1, 10), (2, 20), (3, 30)]⟩ rfl rfl none (some exB) none true false

example : (finalout exFs exP (some (.dicts [1, 2])) none false).res = .ok [(1, none), (2, none)] :=
  (C118_fitlist_fails exFs exP none false).1 [1, 2] rfl

example : (finalout exFs { exP with kw := some ("save".toList, "run.v1".toList) } none none false).res = .error .attributeError :=
  C118_name_fails exFs { exP with kw := some ("save".toList, "run.v1".toList) } none false rfl (by decide)

example : (exportHDF (fun _ => some ⟨none, [(1, 10)]⟩) exP none none true : Out Nat Nat).res = .error .assertionError :=
  C118_export_dumps_fails (fun _ => some ⟨none, [(1, 10)]⟩) exP none ⟨none, [(1, 10)]⟩ rfl rfl

end RT1.UseResults
