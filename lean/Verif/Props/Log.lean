import Verif.Model.Log
import Mathlib.Data.List.Nodup

/-!
# Log handlers (C67)
-/

namespace RT1
namespace Log

/-! ## Specification -/

/-- The handlers with a name. -/
def named (l : Logger) (name : String) : List Handler := l.handlers.filter fun h => h.name = some name

/-- All other handlers. -/
def others (l : Logger) (name : String) : List Handler := l.handlers.filter fun h => h.name ≠ some name

/-- The handlers are different objects, created before. -/
def Wf (l : Logger) : Prop := (l.handlers.map Handler.id).Nodup ∧ ∀ h ∈ l.handlers, h.id < l.next

/-- The name is only used for file handlers. -/
def FileName (l : Logger) (name : String) : Prop :=
  name ≠ console ∧ ∀ h ∈ l.handlers, h.name = some name → h.file ≠ none

/-- Nothing but (at most) the console handler has been added, and this only to a logger without handlers. -/
def Extra (root : Bool) (before : List Handler) (extra : List Handler) : Prop :=
  extra = [] ∨ (before = [] ∧ root = false ∧ ∃ i, extra = [⟨i, some console, none⟩])

/-! ## Lemmas -/

theorem wf_add {l : Logger} (h : Wf l) (n f : Option String) : Wf (l.add n f) := by
  refine ⟨?_, ?_⟩
  · simp only [Logger.add, List.map_append, List.map_cons, List.map_nil]
    rw [List.nodup_append]
    refine ⟨h.1, by simp, ?_⟩
    intro a ha b hb
    obtain ⟨x, hx, rfl⟩ := List.mem_map.1 ha
    simp only [List.mem_singleton] at hb
    subst hb
    exact Nat.ne_of_lt (h.2 x hx)
  · intro x hx
    simp only [Logger.add, List.mem_append, List.mem_singleton] at hx ⊢
    rcases hx with hx | rfl
    · exact Nat.lt_succ_of_lt (h.2 x hx)
    · exact Nat.lt_succ_self _

theorem wf_setup {l : Logger} (h : Wf l) (root c : Bool) : Wf (setup root c l) := by
  unfold setup
  split_ifs
  · exact h
  · exact wf_add h _ _
  · exact h

theorem wf_erase {l : Logger} (h : Wf l) (x : Handler) : Wf { l with handlers := l.handlers.erase x } :=
  ⟨h.1.sublist (List.Sublist.map _ List.erase_sublist), fun y hy => h.2 y (List.mem_of_mem_erase hy)⟩

theorem wf_stopLoop : ∀ (hs : List Handler) {l : Logger}, Wf l → Wf (stopLoop hs l).1
  | [], _, h => h
  | x :: hs, l, h => by
    unfold stopLoop
    dsimp only
    cases x.file with
    | none => exact wf_erase h x
    | some _ => exact wf_stopLoop hs (wf_erase h x)

theorem wf_stop {l : Logger} (h : Wf l) (root : Bool) (n : String) : Wf (stop root n l).1 :=
  wf_stopLoop _ (wf_setup h root true)

theorem wf_start {l : Logger} (h : Wf l) (root : Bool) (p n : String) (c : Bool) : Wf (start root p n c l).1 := by
  unfold start
  have h1 := wf_stop h root n
  cases hs : stop root n l with
  | mk l' r =>
    rw [hs] at h1
    cases r with
    | error e => exact h1
    | ok u =>
      dsimp only
      split_ifs
      · exact wf_add (wf_setup h1 root true) _ _
      · exact wf_setup h1 root true

theorem wf_run (root : Bool) (ops : List Op) : ∀ {l : Logger}, Wf l → Wf (run root l ops) := by
  induction ops with
  | nil => intro l h; exact h
  | cons o ops ih =>
    intro l h
    refine ih ?_
    cases o with
    | setup c => exact wf_setup h root c
    | start p n c => exact wf_start h root p n c
    | stop n => exact wf_stop h root n
    | other n f => exact wf_add h n f

theorem setup_handlers (root c : Bool) (l : Logger) :
    ∃ extra, (setup root c l).handlers = l.handlers ++ extra ∧ Extra root l.handlers extra := by
  unfold setup
  split_ifs with h h'
  · exact ⟨[], by simp, .inl rfl⟩
  · simp only [Bool.or_eq_true, Bool.not_eq_true', not_or, Bool.not_eq_false, Bool.not_eq_true] at h
    exact ⟨[⟨l.next, some console, none⟩], rfl, .inr ⟨by simpa using h.1, h.2, _, rfl⟩⟩
  · exact ⟨[], by simp, .inl rfl⟩

/-- The loop removes the given handlers if all of them are file handlers. -/
theorem stopLoop_ok : ∀ (hs : List Handler) (l : Logger), (∀ h ∈ hs, h.file ≠ none) →
    stopLoop hs l = ({ l with handlers := hs.foldl List.erase l.handlers }, .ok ())
  | [], l, _ => rfl
  | x :: hs, l, h => by
    unfold stopLoop
    have hx := h x (by simp)
    cases hf : x.file with
    | none => exact absurd hf hx
    | some p =>
      dsimp only
      rw [stopLoop_ok hs _ fun y hy => h y (List.mem_cons_of_mem _ hy)]
      rfl

theorem foldl_erase (l hs : List Handler) (hl : l.Nodup) : hs.foldl List.erase l = l.filter (· ∉ hs) := by
  induction hs generalizing l with
  | nil => simp
  | cons x hs ih =>
    rw [List.foldl_cons, ih _ (hl.erase x), hl.erase_eq_filter, List.filter_filter]
    refine List.filter_congr fun y _ => ?_
    simp only [List.mem_cons, not_or, bne_iff_ne, Bool.decide_and, ne_eq, Bool.and_comm, decide_not]
    by_cases hy : y = x <;> simp [hy]

theorem stop_ok (root : Bool) (name : String) (l : Logger) (hw : Wf l) (hn : FileName l name) :
    ∃ extra, Extra root l.handlers extra ∧ (stop root name l).2 = .ok () ∧
      (stop root name l).1.handlers = others l name ++ extra := by
  obtain ⟨extra, he, hx⟩ := setup_handlers root true l
  have hex : ∀ h ∈ extra, h.name ≠ some name := by
    intro h hh
    rcases hx with rfl | ⟨_, _, i, rfl⟩
    · cases hh
    · simp only [List.mem_singleton] at hh
      subst hh
      simpa using fun e => hn.1 e.symm
  refine ⟨extra, hx, ?_⟩
  unfold stop
  dsimp only
  rw [stopLoop_ok]
  · refine ⟨rfl, ?_⟩
    dsimp only
    have hnd : (setup root true l).handlers.Nodup := (wf_setup hw root true).1.of_map
    rw [foldl_erase _ _ hnd]
    have : (setup root true l).handlers.filter
        (· ∉ (setup root true l).handlers.filter fun h => h.name = some name) =
        (setup root true l).handlers.filter fun h => h.name ≠ some name := by
      refine List.filter_congr fun y hy => ?_
      simp only [List.mem_filter, hy, true_and, decide_eq_true_eq, ne_eq, decide_not]
    have hself : extra.filter (fun h => decide (h.name ≠ some name)) = extra :=
      List.filter_eq_self.2 fun h hh => by simpa using hex h hh
    rw [this, he, List.filter_append, hself]
    rfl
  · intro h hh
    simp only [he, List.mem_filter, List.mem_append, decide_eq_true_eq] at hh
    rcases hh.1 with h' | h'
    · exact hn.2 h h' hh.2
    · exact absurd hh.2 (hex h h')

/-! ## C67 -/

/-- Setting up the logger again adds no handlers. -/
theorem C67_setup (root c : Bool) (l : Logger) (h : l.handlers ≠ []) : setup root c l = l := by
  unfold setup
  cases hl : l.handlers with
  | nil => exact absurd hl h
  | cons a as => simp

/-- … and the first set-up adds at most the console handler. Any number of set-ups is the same as one. -/
theorem C67_setup_repeat (root : Bool) (l : Logger) (n : Nat) :
    run root l (List.replicate (n + 1) (.setup true)) = setup root true l := by
  have hfix : setup root true (setup root true l) = setup root true l := by
    by_cases hr : root = true
    · subst hr; simp [setup]
    · refine C67_setup _ _ _ ?_
      by_cases hl : l.handlers = []
      · simp [setup, hl, hr, Logger.add]
      · rw [C67_setup _ _ _ hl]; exact hl
  induction n with
  | zero => rfl
  | succ n ih =>
    rw [List.replicate_succ', run, List.foldl_append]
    unfold run at ih
    rw [ih]
    exact hfix

/-- After `stop_log_to_file` there is no handler with this name; all other handlers are left (in order). The
console handler may be added (to a logger without handlers only). The part of C67 for names that are only used for file
handlers; for other names see `C67_stop_fails`. -/
theorem C67_stop_partial (root : Bool) (name : String) (l : Logger) (hw : Wf l) (hn : FileName l name) :
    (stop root name l).2 = .ok () ∧ named (stop root name l).1 name = [] ∧
      ∃ extra, Extra root l.handlers extra ∧ (stop root name l).1.handlers = others l name ++ extra := by
  obtain ⟨extra, hx, h1, h2⟩ := stop_ok root name l hw hn
  refine ⟨h1, ?_, extra, hx, h2⟩
  unfold named
  rw [h2, List.filter_append, List.append_eq_nil_iff]
  constructor
  · rw [List.filter_eq_nil_iff]
    intro h hh
    simpa [others] using (List.mem_filter.1 hh).2
  · rcases hx with rfl | ⟨_, _, i, rfl⟩
    · rfl
    · simpa using fun e => hn.1 e.symm

/-- After `start_log_to_file` there is exactly one handler with this name, the one for the given path; all other
handlers are left. If the file cannot be opened, an exception is raised and there is none. -/
theorem C67_start_partial (root : Bool) (path name : String) (canOpen : Bool) (l : Logger) (hw : Wf l)
    (hn : FileName l name) :
    let r := start root path name canOpen l
    (r.2 = if canOpen then .ok () else .error .osError) ∧
    (named r.1 name).map Handler.file = (if canOpen then [some path] else []) ∧
    ∃ extra, (extra = [] ∨ ∃ i, extra = [⟨i, some console, none⟩]) ∧ (extra ≠ [] → others l name = [] ∧ root = false) ∧
      others r.1 name = others l name ++ extra := by
  obtain ⟨h1, h2, extra, hx, h3⟩ := C67_stop_partial root name l hw hn
  have hcon : ∀ i, (⟨i, some console, none⟩ : Handler).name ≠ some name := fun i => by simpa using fun e => hn.1 e.symm
  unfold start
  cases hs : stop root name l with
  | mk l' r =>
    rw [hs] at h1 h2 h3
    dsimp only at h1 h2 h3
    subst h1
    dsimp only
    obtain ⟨extra', he', hx'⟩ := setup_handlers root true l'
    have hex : extra' = [] ∨ ∃ i, extra' = [⟨i, some console, none⟩] := by
      rcases hx' with h | ⟨_, _, i, h⟩
      · exact .inl h
      · exact .inr ⟨i, h⟩
    have hn' : named (setup root true l') name = [] := by
      unfold named at h2 ⊢
      rw [he', List.filter_append, h2, List.nil_append]
      rcases hex with rfl | ⟨i, rfl⟩
      · rfl
      · simpa using hcon i
    have hself : ∀ e : List Handler, (e = [] ∨ ∃ i, e = [⟨i, some console, none⟩]) →
        e.filter (fun h => decide (h.name ≠ some name)) = e := by
      rintro e (rfl | ⟨i, rfl⟩)
      · rfl
      · simp [hcon i]
    have ho : others (setup root true l') name = others l name ++ (extra ++ extra') := by
      unfold others
      rw [he', h3, List.filter_append, List.filter_append, hself _ hex, hself extra, List.append_assoc]
      · congr 1
        simp [others, List.filter_filter]
      · rcases hx with h | ⟨_, _, i, h⟩
        · exact .inl h
        · exact .inr ⟨i, h⟩
    have hE : ∃ E, (E = [] ∨ ∃ i, E = [(⟨i, some console, none⟩ : Handler)]) ∧
        (E ≠ [] → others l name = [] ∧ root = false) ∧ extra ++ extra' = E := by
      rcases hx with rfl | ⟨hb, hr, i, rfl⟩
      · refine ⟨extra', hex, fun hne => ?_, rfl⟩
        rcases hx' with h | ⟨hb, hr, _⟩
        · exact absurd h hne
        · rw [h3, List.append_nil] at hb
          exact ⟨hb, hr⟩
      · rcases hx' with rfl | ⟨hb', _⟩
        · refine ⟨_, .inr ⟨i, rfl⟩, fun _ => ⟨by simp [others, hb], hr⟩, rfl⟩
        · rw [h3] at hb'; simp at hb'
    obtain ⟨E, hE1, hE2, hE3⟩ := hE
    rw [hE3] at ho
    cases canOpen with
    | false => exact ⟨rfl, by simp [hn'], E, hE1, hE2, ho⟩
    | true =>
      refine ⟨rfl, ?_, E, hE1, hE2, ?_⟩
      · unfold named at hn' ⊢
        simp only [if_true, Logger.add, List.filter_append, hn']
        simp
      · unfold others at ho ⊢
        simp only [if_true, Logger.add, List.filter_append, ho]
        simp

/-- For a name that is not only used for file handlers C67 does not hold: the console handler is removed and an
exception is raised. -/
theorem C67_stop_fails (i : Nat) :
    stop false console ⟨[⟨i, some console, none⟩], i + 1⟩ = (⟨[], i + 1⟩, .error .attributeError) := by
  simp [stop, setup, stopLoop]

/-! ## Histories -/

/-- The path that should be logged to after one more operation. -/
def want (name : String) (cur : Option String) : Op → Option String
  | .start p n c => if n = name then (if c then some p else none) else cur
  | .stop n => if n = name then none else cur
  | _ => cur

/-- The path that should be logged to: the last start or stop for the name counts. -/
def wanted (name : String) (ops : List Op) : Option String := ops.foldl (want name) none

/-- Nobody else uses the name, and it is not the name of the console handler. -/
def Fair (name : String) (ops : List Op) : Prop :=
  name ≠ console ∧ ∀ n f, Op.other n f ∈ ops → n ≠ some name

theorem named_setup (root c : Bool) (l : Logger) (name : String) (h : name ≠ console) :
    named (setup root c l) name = named l name := by
  obtain ⟨extra, he, hx⟩ := setup_handlers root c l
  unfold named
  rw [he, List.filter_append]
  rcases hx with rfl | ⟨_, _, i, rfl⟩
  · simp
  · simpa using fun e => h e.symm

theorem filter_erase_of_neg (q : Handler → Bool) (x : Handler) (hx : q x = false) :
    ∀ l : List Handler, (l.erase x).filter q = l.filter q
  | [] => rfl
  | y :: l => by
    by_cases h : y = x
    · subst h; simp [hx]
    · rw [List.erase_cons_tail (by simpa using h), List.filter_cons, List.filter_cons, filter_erase_of_neg q x hx l]

theorem named_stopLoop (name : String) : ∀ (hs : List Handler) (l : Logger), (∀ h ∈ hs, h.name ≠ some name) →
    named (stopLoop hs l).1 name = named l name
  | [], _, _ => rfl
  | x :: hs, l, h => by
    have hx : named { l with handlers := l.handlers.erase x } name = named l name :=
      filter_erase_of_neg _ x (by simpa using h x (by simp)) _
    unfold stopLoop
    dsimp only
    cases x.file with
    | none => exact hx
    | some _ => dsimp only; rw [named_stopLoop name hs _ fun y hy => h y (List.mem_cons_of_mem _ hy)]; exact hx

theorem named_stop (root : Bool) (n name : String) (l : Logger) (h : name ≠ console) (hn : n ≠ name) :
    named (stop root n l).1 name = named l name := by
  unfold stop
  dsimp only
  rw [named_stopLoop, named_setup _ _ _ _ h]
  intro x hx
  have := (List.mem_filter.1 hx).2
  simp only [decide_eq_true_eq] at this
  rw [this]
  simpa using hn

theorem named_add (l : Logger) (n f : Option String) (name : String) (h : n ≠ some name) :
    named (l.add n f) name = named l name := by
  unfold named Logger.add
  simp [h]

theorem named_start (root : Bool) (p n name : String) (c : Bool) (l : Logger) (h : name ≠ console) (hn : n ≠ name) :
    named (start root p n c l).1 name = named l name := by
  have h1 := named_stop root n name l h hn
  unfold start
  cases hs : stop root n l with
  | mk l' r =>
    rw [hs] at h1
    cases r with
    | error e => exact h1
    | ok u =>
      dsimp only
      split_ifs
      · rw [named_add _ _ _ _ (by simpa using hn), named_setup _ _ _ _ h, h1]
      · rw [named_setup _ _ _ _ h, h1]

/-- Histories: there is one handler, for the right path, if the last start (of this name) was successful and not
followed by a stop, and none otherwise; starts and stops of other names have no influence, even if they raise. -/
theorem C67_history_partial (root : Bool) (name : String) (ops : List Op) (h : Fair name ops) :
    (named (run root init ops) name).map Handler.file = (wanted name ops).toList.map some := by
  have key : ∀ (ops : List Op), (∀ n f, Op.other n f ∈ ops → n ≠ some name) → ∀ (l : Logger) (cur : Option String), Wf l →
      (named l name).map Handler.file = cur.toList.map some →
      (named (run root l ops) name).map Handler.file = (ops.foldl (want name) cur).toList.map some := by
    intro ops
    induction ops with
    | nil => intro _ l cur _ hc; exact hc
    | cons o ops ih =>
      intro ho l cur hw hc
      have hf : FileName l name := by
        refine ⟨h.1, fun x hx hxn hxf => ?_⟩
        have : x.file ∈ (named l name).map Handler.file :=
          List.mem_map.2 ⟨x, List.mem_filter.2 ⟨hx, by simpa using hxn⟩, rfl⟩
        rw [hc, hxf] at this
        simp at this
      refine ih (fun n f hm => ho n f (List.mem_cons_of_mem _ hm)) _ _ (wf_run root [o] hw) ?_
      cases o with
      | setup c => rw [show apply root l (.setup c) = setup root c l from rfl, named_setup _ _ _ _ h.1]; exact hc
      | start p n c =>
        show (named (start root p n c l).1 name).map Handler.file = _
        unfold want
        by_cases hn : n = name
        · subst hn
          rw [(C67_start_partial root p n c l hw hf).2.1]
          cases c <;> simp
        · rw [named_start _ _ _ _ _ _ h.1 hn, hc]
          simp [hn]
      | stop n =>
        show (named (stop root n l).1 name).map Handler.file = _
        unfold want
        by_cases hn : n = name
        · subst hn
          rw [(C67_stop_partial root n l hw hf).2.1]
          simp
        · rw [named_stop _ _ _ _ h.1 hn, hc]
          simp [hn]
      | other n f =>
        rw [show apply root l (.other n f) = l.add n f from rfl, named_add _ _ _ _ (ho n f (by simp))]
        exact hc
  exact key ops h.2 init none ⟨by simp [init], by simp [init]⟩ rfl

/-! ## Examples -/

def exOps : List Op := [.setup true, .start "a.log" "rt1_filehandler" true, .other none (some "x.log"),
  .start "b.log" "rt1_filehandler" true, .start "c.log" "more" true, .stop "rt1_consolehandler"]

example : Fair "rt1_filehandler" exOps := by
  refine ⟨by decide, ?_⟩
  intro n f h
  simp [exOps] at h
  rw [h.1]; simp
example : wanted "rt1_filehandler" exOps = some "b.log" := by decide
example : Wf (run false init exOps) := wf_run _ _ ⟨by simp [init], by simp [init]⟩
example : FileName (run false init exOps) "rt1_filehandler" := ⟨by decide, by decide +kernel⟩
example : (run false init exOps).handlers ≠ [] := by decide +kernel
example : (named (run false init exOps) "rt1_filehandler").map Handler.file = [some "b.log"] := by decide +kernel

end Log
end RT1
