import Verif.Model.DumpState
import Verif.Lemmas.Dict

/-!
# Dumping and loading a fit (C102)
-/

namespace RT1.DumpState
open General

variable {V : Type}

/-- A fit as it is created by the current version: all attributes set by `Fits.__init__` exist, the values of `res_dict` are lists
of numbers. -/
structure Current (s : Attrs V) : Prop where
  present : ∀ k ∈ ([.plot, .verbose, .lsqKwargs, .intQ, .backend, .fnevals, .dataset] : List Key), (s k).isSome
  fitset : s .fitset = none
  res : ∀ v, s .resDict = some v → ∃ d : Dict String (List (Item V)), v = .lists d ∧ ∀ e ∈ d, ∀ i ∈ e.2, ∃ x, i = .num x
  id : ∃ v, s .id = some v ∧ v ≠ .none

/-- The attributes that define the fit and its results, i.e. not the mark, the version, the pre-evaluated functions and the output
of the optimizer. -/
def Core (k : Key) : Prop := k ∉ ([.dumpMini, .version, .fnevals, .fitOutput] : List Key)

theorem put_ne (s : Attrs V) {k k' : Key} (v : Val V) (h : k' ≠ k) : s.put k v k' = s k' := by simp [Attrs.put, h]
theorem put_eq (s : Attrs V) (k : Key) (v : Val V) : s.put k v k = some v := by simp [Attrs.put]
theorem del_ne (s : Attrs V) {k k' : Key} (h : k' ≠ k) : s.del k k' = s k' := by simp [Attrs.del, h]
theorem del_eq (s : Attrs V) (k : Key) : s.del k k = none := by simp [Attrs.del]

theorem put_same {s : Attrs V} {k : Key} {v : Val V} (h : s k = some v) : s.put k v = s := by
  funext k'
  by_cases e : k' = k
  · subst e; rw [put_eq, h]
  · rw [put_ne _ _ e]

theorem default_present {s : Attrs V} {k : Key} (v : Val V) (h : (s k).isSome) : default s k v = s := by
  unfold default
  cases hk : s k with
  | none => rw [hk] at h; cases h
  | some _ => rfl

theorem popInto_present {s : Attrs V} {k : Key} (n : String) (v : Val V) (h : (s k).isSome) : popInto s k n v = .ok s := by
  unfold popInto
  cases hk : s k with
  | none => rw [hk] at h; cases h
  | some _ => rfl

theorem oldShape_num {l : List (Item V)} (h : ∀ i ∈ l, ∃ x, i = .num x) : oldShape l = false := by
  unfold oldShape
  split
  · next x y => obtain ⟨z, hz⟩ := h (.list x) (by simp); cases hz
  · rfl

theorem updateRes_new {s : Attrs V}
    (h : ∀ v, s .resDict = some v → ∃ d : Dict String (List (Item V)), v = .lists d ∧ ∀ e ∈ d, ∀ i ∈ e.2, ∃ x, i = .num x) :
    updateRes s = .ok s := by
  unfold updateRes
  cases hr : s .resDict with
  | none => rfl
  | some v =>
    obtain ⟨d, rfl, hd⟩ := h v hr
    dsimp only
    cases d with
    | nil => simp only [List.all_nil, if_true, List.map_nil]; rw [put_same hr]
    | cons e d =>
      have : oldShape e.2 = false := oldShape_num (hd e (by simp))
      simp [this]

theorem setstate_current (c : Consts V) {s : Attrs V} (h : Current s) : setstate c s = .ok s := by
  have p := h.present
  have e0 : moveDataset s = s := by
    unfold moveDataset
    have := p .dataset (by simp)
    cases hd : s .dataset with
    | none => rw [hd] at this; cases this
    | some _ => rfl
  have e1 : moveFitset s = s := by unfold moveFitset; rw [h.fitset]
  unfold setstate update
  dsimp only
  rw [e0, default_present _ (p .plot (by simp)), default_present _ (p .verbose (by simp)), e1,
    default_present _ (p .lsqKwargs (by simp)), popInto_present _ _ (p .intQ (by simp))]
  simp only [bind, Except.bind]
  rw [popInto_present _ _ (p .backend (by simp))]
  simp only
  rw [popInto_present _ _ (p .fnevals (by simp))]
  exact updateRes_new h.res

theorem load_current (c : Consts V) (stem : V) {s : Attrs V} (h : Current s) : load c stem s = .ok s := by
  unfold load
  rw [setstate_current c h]
  obtain ⟨v, hv, hn⟩ := h.id
  simp only [bind, Except.bind, hv]
  cases v with
  | none => exact absurd rfl hn
  | _ => rfl

/-- `s` has the same definition and results as `s₀`. -/
structure Agree (s₀ s : Attrs V) : Prop where
  core : ∀ k, Core k → s k = s₀ k
  fnevals : (s .fnevals).isSome

theorem Agree.current {s₀ s : Attrs V} (h : Current s₀) (a : Agree s₀ s) : Current s where
  present k hk := by
    simp only [List.mem_cons, List.not_mem_nil, or_false] at hk
    rcases hk with rfl | rfl | rfl | rfl | rfl | rfl | rfl
    case inr.inr.inr.inr.inr.inl => exact a.fnevals
    all_goals rw [a.core _ (by simp [Core])]; exact h.present _ (by simp)
  fitset := by rw [a.core _ (by simp [Core])]; exact h.fitset
  res := by rw [a.core _ (by simp [Core])]; exact h.res
  id := by rw [a.core _ (by simp [Core])]; exact h.id

theorem Core.ne {k : Key} (h : Core k) : k ≠ .dumpMini ∧ k ≠ .version ∧ k ≠ .fnevals ∧ k ≠ .fitOutput := by
  simpa [Core] using h

theorem getstate_agree {s₀ s : Attrs V} (a : Agree s₀ s) : Agree s₀ (getstate s).1 ∧ Agree s₀ (getstate s).2 := by
  unfold getstate
  cases hm : s .dumpMini with
  | none => exact ⟨a, a⟩
  | some _ =>
    dsimp only
    refine ⟨⟨fun k hk => ?_, ?_⟩, ⟨fun k hk => ?_, ?_⟩⟩
    · obtain ⟨h1, _, h3, h4⟩ := hk.ne
      rw [put_ne _ _ h4, put_ne _ _ h3, del_ne _ h1]
      exact a.core k hk
    · rw [put_ne _ _ (by decide), put_eq]; rfl
    · rw [del_ne _ hk.ne.1]; exact a.core k hk
    · rw [del_ne _ (by decide)]; exact a.fnevals

theorem mark_agree (c : Consts V) {s₀ s : Attrs V} (a : Agree s₀ s) (mini : Bool) : Agree s₀ (mark c s mini) := by
  unfold mark
  dsimp only
  refine ⟨fun k hk => ?_, ?_⟩
  · obtain ⟨h1, h2, _, _⟩ := hk.ne
    cases mini
    · simp only [Bool.false_eq_true, if_false]; rw [del_ne _ h1, put_ne _ _ h2]; exact a.core k hk
    · simp only [if_true]; rw [put_ne _ _ h1, put_ne _ _ h2]; exact a.core k hk
  · cases mini
    · simp only [Bool.false_eq_true, if_false]; rw [del_ne _ (by decide), put_ne _ _ (by decide)]; exact a.fnevals
    · simp only [if_true]; rw [put_ne _ _ (by decide), put_ne _ _ (by decide)]; exact a.fnevals

/-- The expected outcome of an operation: it only fails if the file cannot be opened or does not exist. -/
def DumpSpec.outcome (hasFile : Bool) : Op → Except PyErr Unit
  | .dump _ true => .ok ()
  | .dump _ false => .error .osError
  | .load => if hasFile then .ok () else .error .osError
  | .send => .ok ()

/-- Does the operation create the file? -/
def DumpSpec.creates : Op → Bool
  | .dump _ b => b
  | _ => false

/-- The expected outcomes of a sequence of operations. -/
def DumpSpec.outcomes (hasFile : Bool) : List Op → List (Except PyErr Unit)
  | [] => []
  | op :: l => DumpSpec.outcome hasFile op :: DumpSpec.outcomes (hasFile || DumpSpec.creates op) l

open DumpSpec

/-- The fit and the file have the definition and results of `s₀`. -/
structure Inv (s₀ : Attrs V) (st : State V) : Prop where
  obj : Agree s₀ st.obj
  file : ∀ f, st.file = some f → Agree s₀ f

theorem step_inv (c : Consts V) (stem : V) {s₀ : Attrs V} (h₀ : Current s₀) {st : State V} (h : Inv s₀ st) (op : Op) :
    Inv s₀ (step c stem st op).2 ∧ (step c stem st op).1 = outcome st.file.isSome op ∧
      (step c stem st op).2.file.isSome = (st.file.isSome || creates op) := by
  cases op with
  | dump mini canOpen =>
    have hm := mark_agree c h.obj mini
    cases canOpen with
    | true =>
      refine ⟨⟨(getstate_agree hm).2, fun f hf => ?_⟩, rfl, by simp [step, dump, creates]⟩
      simp only [step, dump, if_true, Option.some.injEq] at hf
      rw [← hf]; exact (getstate_agree hm).1
    | false => exact ⟨⟨hm, h.file⟩, rfl, by simp [step, dump, creates]⟩
  | load =>
    cases hf : st.file with
    | none => simp only [step, hf]; exact ⟨h, rfl, by simp [hf, creates]⟩
    | some f =>
      have e := load_current c stem ((h.file f hf).current h₀)
      simp only [step, hf, e]
      exact ⟨⟨h.file f hf, fun f' hf' => by cases hf'; exact h.file f hf⟩, rfl, by simp [creates]⟩
  | send =>
    have hg := (getstate_agree h.obj).1
    have e := setstate_current c (hg.current h₀)
    simp only [step, e]
    exact ⟨⟨hg, h.file⟩, rfl, by simp [creates]⟩

theorem run_inv (c : Consts V) (stem : V) {s₀ : Attrs V} (h₀ : Current s₀) (l : List Op) {st : State V} (h : Inv s₀ st) :
    Inv s₀ (run c stem st l).2 ∧ (run c stem st l).1 = outcomes st.file.isSome l := by
  induction l generalizing st with
  | nil => exact ⟨h, rfl⟩
  | cons op l ih =>
    obtain ⟨s1, s2, s3⟩ := step_inv c stem h₀ h op
    obtain ⟨i1, i2⟩ := ih s1
    refine ⟨i1, ?_⟩
    simp only [run, outcomes, s2, i2, s3]

/-- C102: no sequence of dumps (mini or not, also failing ones), loads and transfers to other processes changes the definition or
the results of a fit, neither of the fit nor of the file; operations only fail if the file cannot be opened. -/
theorem C102_core (c : Consts V) (stem : V) (s : Attrs V) (h : Current s) (l : List Op) :
    (∀ k, Core k → (run c stem ⟨s, none⟩ l).2.obj k = s k) ∧
      (∀ f, (run c stem ⟨s, none⟩ l).2.file = some f → ∀ k, Core k → f k = s k) ∧
      (run c stem ⟨s, none⟩ l).1 = outcomes false l := by
  have a : Inv s (⟨s, none⟩ : State V) := ⟨⟨fun _ _ => rfl, h.present _ (by simp)⟩, fun _ hf => (nomatch hf)⟩
  obtain ⟨h1, h2⟩ := run_inv c stem h l a
  exact ⟨h1.obj.core, fun f hf => (h1.file f hf).core, h2⟩

/-- The operation is no mini-dump. -/
def NoMini : Op → Prop
  | .dump mini _ => mini = false
  | _ => True

/-- Everything but the version is the same. -/
structure Same (s₀ s : Attrs V) : Prop where
  eq : ∀ k, k ≠ .version → s k = s₀ k

theorem Same.agree {s₀ s : Attrs V} (h₀ : Current s₀) (h : Same s₀ s) : Agree s₀ s :=
  ⟨fun k hk => h.eq k hk.ne.2.1, by rw [h.eq _ (by decide)]; exact h₀.present _ (by simp)⟩

/-- C102: without mini-dumps all attributes (but the version) are kept by any sequence of dumps, loads and transfers. -/
theorem C102_full (c : Consts V) (stem : V) (s : Attrs V) (h : Current s) (hm : s .dumpMini = none) (l : List Op)
    (hl : ∀ op ∈ l, NoMini op) (k : Key) (hk : k ≠ .version) : (run c stem ⟨s, none⟩ l).2.obj k = s k := by
  have key : ∀ (l : List Op), (∀ op ∈ l, NoMini op) → ∀ st : State V, Same s st.obj → (∀ f, st.file = some f → Same s f) →
      Same s (run c stem st l).2.obj := by
    intro l
    induction l with
    | nil => intro _ st h1 _; exact h1
    | cons op l ih =>
      intro hl st h1 h2
      have hop := hl op (by simp)
      have hl' : ∀ op ∈ l, NoMini op := fun o ho => hl o (by simp [ho])
      have gs : ∀ s' : Attrs V, Same s s' → getstate s' = (s', s') := by
        intro s' h'
        unfold getstate
        rw [h'.eq _ (by decide), hm]
      have mk : Same s (mark c st.obj false) := ⟨fun k hk => by
        unfold mark
        simp only [Bool.false_eq_true, if_false]
        by_cases e : k = .dumpMini
        · subst e; rw [del_eq, hm]
        · rw [del_ne _ e, put_ne _ _ hk]; exact h1.eq k hk⟩
      have st' : Same s (step c stem st op).2.obj ∧ ∀ f, (step c stem st op).2.file = some f → Same s f := by
        cases op with
        | dump mini canOpen =>
          cases hop
          cases canOpen with
          | true =>
            simp only [step, dump, if_true, gs _ mk]
            exact ⟨mk, fun f hf => by cases hf; exact mk⟩
          | false => exact ⟨mk, h2⟩
        | load =>
          cases hf : st.file with
          | none => simp only [step, hf]; exact ⟨h1, fun f hf' => (nomatch hf')⟩
          | some f =>
            have e := load_current c stem (((h2 f hf).agree h).current h)
            simp only [step, hf, e]
            exact ⟨h2 f hf, fun f' hf' => by cases hf'; exact h2 f hf⟩
        | send =>
          have e := setstate_current c ((h1.agree h).current h)
          simp only [step, gs _ h1, e]
          exact ⟨h1, h2⟩
      exact ih hl' _ st'.1 st'.2
  exact (key l hl ⟨s, none⟩ ⟨fun _ _ => rfl⟩ (fun _ hf => (nomatch hf))).eq k hk

/-- C102: a mini-dump does not change the fit itself (but the version); the loaded fit has no pre-evaluated functions and the
properties success, status and optimality of the output. -/
theorem C102_mini (c : Consts V) (stem : V) (s : Attrs V) (h : Current s) (hm : s .dumpMini = none) (a : Dict String V)
    (ho : s .fitOutput = some (.result a)) :
    (∀ k, k ≠ .version → (run c stem ⟨s, none⟩ [.dump true true]).2.obj k = s k) ∧
    (run c stem ⟨s, none⟩ [.dump true true, .load]).2.obj .fnevals = some .none ∧
    ∃ d, (run c stem ⟨s, none⟩ [.dump true true, .load]).2.obj .fitOutput = some (.dict d) ∧
      d.get? "fit_success" = a.get? "success" ∧ d.get? "fit_status" = a.get? "status" ∧
      d.get? "fit_optimality" = a.get? "optimality" := by
  have a1 : Agree s (mark c s true) := mark_agree c ⟨fun _ _ => rfl, h.present _ (by simp)⟩ true
  have hmk : mark c s true .dumpMini = some (.opaque c.true_) := by simp [mark, put_eq]
  have hmo : mark c s true .fitOutput = some (.result a) := by
    simp only [mark, if_true]; rw [put_ne _ _ (by decide), put_ne _ _ (by decide), ho]
  have eg : getstate (mark c s true) = ((((mark c s true).del .dumpMini).put .fnevals .none).put .fitOutput
      (.dict (fitProps (.result a))), (mark c s true).del .dumpMini) := by
    unfold getstate
    rw [hmk]
    simp only
    rw [del_ne _ (by decide), hmo]
    rfl
  have el := load_current c stem ((getstate_agree a1).1.current h)
  have e1 : (run c stem ⟨s, none⟩ [.dump true true]).2.obj = (getstate (mark c s true)).2 := rfl
  have e2 : (run c stem ⟨s, none⟩ [.dump true true, .load]).2.obj = (getstate (mark c s true)).1 := by
    simp only [run, step, dump, if_true, el]
  refine ⟨fun k hk => ?_, ?_, fitProps (.result a), ?_, ?_⟩
  · rw [e1, eg]
    simp only
    by_cases e : k = .dumpMini
    · subst e; rw [del_eq, hm]
    · rw [del_ne _ e]
      simp only [mark, if_true]
      rw [put_ne _ _ e, put_ne _ _ hk]
  · rw [e2, eg]
    simp only
    rw [put_ne _ _ (by decide), put_eq]
  · rw [e2, eg]
    simp only
    rw [put_eq]
  · unfold fitProps
    cases h1 : a.get? "success" <;> cases h2 : a.get? "status" <;> cases h3 : a.get? "optimality" <;>
      simp [attrOf, h1, h2, h3, Dict.get?_cons, Dict.get?_nil]

/-! ## dumps of previous versions -/

/-- C102: a dump of a previous version (`fitset` instead of `lsq_kwargs`, `dataset` instead of `_dataset`, results with two lists,
no `plot` and `verbose`) gets the attributes of a current one: the options of the evaluation are taken from `fitset`, the remaining
entries are `lsq_kwargs`, the values of the parameters are the first lists. -/
theorem C102_legacy (c : Consts V) (s : Attrs V) (d : Dict String V) (ds v : Val V) (r : Dict String (List V × V))
    (h1 : s .fitset = some (.dict d)) (h2 : ∀ k ∈ ([.plot, .verbose, .intQ, .backend, .fnevals, .dataset] : List Key), s k = none)
    (h3 : s .oldDataset = some ds) (h4 : s .resDict = some (.lists (r.map fun e => (e.1, [.list e.2.1, .num e.2.2]))))
    (h5 : s .id = some v) (h6 : v ≠ .none) :
    ∃ s', setstate c s = .ok s' ∧ Current s' ∧ s' .dataset = some ds ∧
      s' .intQ = some (.opaque ((d.get? "int_Q").getD c.true_)) ∧
      s' .backend = some (.opaque ((d.get? "lambda_backend").getD c.backend0)) ∧
      s' .fnevals = some ((d.get? "_fnevals_input").elim .none .opaque) ∧
      s' .resDict = some (.lists (r.map fun e => (e.1, e.2.1.map .num))) ∧
      (∃ d', s' .lsqKwargs = some (.dict d') ∧
        ∀ k, d'.get? k = if k ∈ ["int_Q", "lambda_backend", "_fnevals_input"] then none else d.get? k) ∧
      (∀ k, k ∈ ([.fitOutput, .version, .id] : List Key) ∨ (∃ n, k = .other n) → s' k = s k) := by
  have p1 := h2 .plot (by simp)
  have p2 := h2 .verbose (by simp)
  have p3 := h2 .intQ (by simp)
  have p4 := h2 .backend (by simp)
  have p5 := h2 .fnevals (by simp)
  have p6 := h2 .dataset (by simp)
  let s1 : Attrs V := (s.put .dataset ds).del .oldDataset
  have e1 : moveDataset s = s1 := by unfold moveDataset; rw [p6, h3]
  let s2 : Attrs V := (s1.put .plot (.opaque c.plots)).put .verbose (.opaque c.two)
  have e2 : default (default s1 .plot (.opaque c.plots)) .verbose (.opaque c.two) = s2 := by
    have q1 : s1 .plot = none := by simp [s1, Attrs.put, Attrs.del, p1]
    have q2 : default s1 .plot (.opaque c.plots) = s1.put .plot (.opaque c.plots) := by unfold default; rw [q1]
    have q3 : (s1.put .plot (.opaque c.plots)) .verbose = none := by simp [s1, Attrs.put, Attrs.del, p2]
    rw [q2]; unfold default; rw [q3]
  let s3 : Attrs V := (s2.put .lsqKwargs (.dict d)).del .fitset
  have e3 : moveFitset s2 = s3 := by
    have q1 : s2 .fitset = some (.dict d) := by simp [s2, s1, Attrs.put, Attrs.del, h1]
    unfold moveFitset; rw [q1]
  have e4 : default s3 .lsqKwargs (.dict []) = s3 := default_present _ (by simp [s3, Attrs.put, Attrs.del])
  let s5 : Attrs V := (s3.put .lsqKwargs (.dict (d.erase "int_Q"))).put .intQ ((d.get? "int_Q").elim (.opaque c.true_) .opaque)
  have e5 : popInto s3 .intQ "int_Q" (.opaque c.true_) = .ok s5 := by
    have q1 : s3 .intQ = none := by simp [s3, s2, s1, Attrs.put, Attrs.del, p3]
    have q2 : s3 .lsqKwargs = some (.dict d) := by simp [s3, Attrs.put, Attrs.del]
    unfold popInto; rw [q1, q2]
  let s6 : Attrs V := (s5.put .lsqKwargs (.dict ((d.erase "int_Q").erase "lambda_backend"))).put .backend
    (((d.erase "int_Q").get? "lambda_backend").elim (.opaque c.backend0) .opaque)
  have e6 : popInto s5 .backend "lambda_backend" (.opaque c.backend0) = .ok s6 := by
    have q1 : s5 .backend = none := by simp [s5, s3, s2, s1, Attrs.put, Attrs.del, p4]
    have q2 : s5 .lsqKwargs = some (.dict (d.erase "int_Q")) := by simp [s5, Attrs.put]
    unfold popInto; rw [q1, q2]
  let s7 : Attrs V := (s6.put .lsqKwargs (.dict (((d.erase "int_Q").erase "lambda_backend").erase "_fnevals_input"))).put .fnevals
    ((((d.erase "int_Q").erase "lambda_backend").get? "_fnevals_input").elim .none .opaque)
  have e7 : popInto s6 .fnevals "_fnevals_input" .none = .ok s7 := by
    have q1 : s6 .fnevals = none := by simp [s6, s5, s3, s2, s1, Attrs.put, Attrs.del, p5]
    have q2 : s6 .lsqKwargs = some (.dict ((d.erase "int_Q").erase "lambda_backend")) := by simp [s6, Attrs.put]
    unfold popInto; rw [q1, q2]
  have q8 : s7 .resDict = some (.lists (r.map fun e => (e.1, [.list e.2.1, .num e.2.2]))) := by
    simp [s7, s6, s5, s3, s2, s1, Attrs.put, Attrs.del, h4]
  let s8 : Attrs V := s7.put .resDict (.lists (r.map fun e => (e.1, e.2.1.map .num)))
  have e8 : updateRes s7 = .ok s8 := by
    unfold updateRes
    rw [q8]
    have : (r.map fun e => (e.1, ([.list e.2.1, .num e.2.2] : List (Item V)))).all (fun e => oldShape e.2) = true := by
      simp [oldShape]
    simp only [this, if_true, List.map_map, s8]
    rfl
  have g1 : (d.erase "int_Q").get? "lambda_backend" = d.get? "lambda_backend" := by rw [Dict.get?_erase]; simp
  have g2 : ((d.erase "int_Q").erase "lambda_backend").get? "_fnevals_input" = d.get? "_fnevals_input" := by
    rw [Dict.get?_erase, Dict.get?_erase]; simp
  refine ⟨s8, ?_, ⟨?_, ?_, ?_, v, ?_, h6⟩, ?_, ?_, ?_, ?_, ?_, ⟨((d.erase "int_Q").erase "lambda_backend").erase "_fnevals_input", ?_, ?_⟩, ?_⟩
  · unfold setstate update
    dsimp only
    rw [e1, e2, e3, e4, e5]
    simp only [bind, Except.bind]
    rw [e6]
    simp only
    rw [e7]
    exact e8
  · intro k hk
    simp only [List.mem_cons, List.not_mem_nil, or_false] at hk
    rcases hk with rfl | rfl | rfl | rfl | rfl | rfl | rfl <;> simp [s8, s7, s6, s5, s3, s2, s1, Attrs.put, Attrs.del]
  · simp [s8, s7, s6, s5, s3, s2, s1, Attrs.put, Attrs.del]
  · intro w hw
    simp only [s8, put_eq, Option.some.injEq] at hw
    refine ⟨_, hw.symm, ?_⟩
    intro e he i hi
    obtain ⟨x, _, rfl⟩ := List.mem_map.1 he
    obtain ⟨y, _, rfl⟩ := List.mem_map.1 hi
    exact ⟨y, rfl⟩
  · simp [s8, s7, s6, s5, s3, s2, s1, Attrs.put, Attrs.del, h5]
  · simp [s8, s7, s6, s5, s3, s2, s1, Attrs.put, Attrs.del]
  · simp only [s8, s7, s6, s5, Attrs.put]
    cases d.get? "int_Q" <;> simp
  · simp only [s8, s7, s6, Attrs.put, g1]
    cases d.get? "lambda_backend" <;> simp
  · simp only [s8, s7, Attrs.put, g2]
    simp
  · simp [s8, Attrs.put]
  · simp [s8, s7, Attrs.put]
  · intro k
    simp only [Dict.get?_erase, List.mem_cons, List.not_mem_nil, or_false]
    by_cases a1 : k = "int_Q" <;> by_cases a2 : k = "lambda_backend" <;> by_cases a3 : k = "_fnevals_input" <;> simp [a1, a2, a3]
  · intro k hk
    simp only [List.mem_cons, List.not_mem_nil, or_false] at hk
    rcases hk with (rfl | rfl | rfl) | ⟨n, rfl⟩ <;> simp [s8, s7, s6, s5, s3, s2, s1, Attrs.put, Attrs.del]

/-! ## examples and violations -/

/-- The constants of the examples. -/
def demoC : Consts String := ⟨"True", "2", "plots", "symengine", "v1"⟩

/-- A fit with results. -/
def demo : Attrs String
  | .dumpMini | .version | .oldDataset | .fitset => none
  | .fnevals => some (.opaque "lambda")
  | .fitOutput => some (.result [("x", "0.3"), ("success", "True"), ("status", "1"), ("optimality", "1e-9")])
  | .resDict => some (.lists [("tau", [.num "0.3", .num "0.2"])])
  | .lsqKwargs => some (.dict [("verbose", "2")])
  | .id => some (.opaque "site_1")
  | _ => some (.opaque "x")

/-- The hypotheses of `C102_core`, `C102_full` and `C102_mini`. -/
example : Current demo ∧ demo .dumpMini = none := by
  refine ⟨⟨?_, rfl, ?_, _, rfl, by simp⟩, rfl⟩
  · intro k hk
    simp only [List.mem_cons, List.not_mem_nil, or_false] at hk
    rcases hk with rfl | rfl | rfl | rfl | rfl | rfl | rfl <;> rfl
  · intro v hv
    simp only [demo, Option.some.injEq] at hv
    refine ⟨_, hv.symm, ?_⟩
    intro e he i hi
    simp only [List.mem_singleton] at he
    subst he
    simp only [List.mem_cons, List.not_mem_nil, or_false] at hi
    rcases hi with rfl | rfl <;> exact ⟨_, rfl⟩

/-- The hypotheses of `C102_legacy`. -/
def demoOld : Attrs String
  | .fitset => some (.dict [("int_Q", "False"), ("verbose", "2")])
  | .oldDataset => some (.opaque "df")
  | .resDict => some (.lists [("tau", [.list ["0.3", "0.2"], .num "2"])])
  | .id => some (.opaque "site_1")
  | _ => none

example : ∃ s', setstate demoC demoOld = .ok s' ∧ s' .intQ = some (.opaque "False") ∧ s' .dataset = some (.opaque "df") ∧
    s' .resDict = some (.lists [("tau", [.num "0.3", .num "0.2"])]) := ⟨_, rfl, rfl, rfl, rfl⟩

/-- C102 fails: the output of the optimizer is lost if a loaded fit is dumped again: the properties are looked up as attributes of
the dict that was stored by the first dump. -/
theorem C102_redump_fails (c : Consts V) (stem : V) (s : Attrs V) (h : Current s) (l : List Op)
    (hl : l = [.dump true true, .load, .dump true true, .load]) :
    (run c stem ⟨s, none⟩ l).2.obj .fitOutput = some (.dict []) := by
  subst hl
  have a1 : Agree s (mark c s true) := mark_agree c ⟨fun _ _ => rfl, h.present _ (by simp)⟩ true
  have gen : ∀ s' : Attrs V, ∃ o, (getstate (mark c s' true)).1 .fitOutput = some (.dict o) := by
    intro s'
    have hmk : mark c s' true .dumpMini = some (.opaque c.true_) := by simp [mark, put_eq]
    unfold getstate
    rw [hmk]
    simp only
    rw [put_eq]
    unfold miniOutput
    split <;> exact ⟨_, rfl⟩
  have a2 := (getstate_agree a1).1
  have l2 := load_current c stem (a2.current h)
  have a3 := mark_agree c a2 true
  have a4 := (getstate_agree a3).1
  have l4 := load_current c stem (a4.current h)
  have e : (run c stem ⟨s, none⟩ [.dump true true, .load, .dump true true, .load]).2.obj =
      (getstate (mark c (getstate (mark c s true)).1 true)).1 := by
    simp only [run, step, dump, if_true, l2, l4]
  rw [e]
  obtain ⟨o, ho⟩ := gen s
  generalize (getstate (mark c s true)).1 = s' at ho
  have hmk : mark c s' true .dumpMini = some (.opaque c.true_) := by simp [mark, put_eq]
  have hmo : mark c s' true .fitOutput = some (.dict o) := by
    simp only [mark, if_true]; rw [put_ne _ _ (by decide), put_ne _ _ (by decide), ho]
  unfold getstate
  rw [hmk]
  simp only
  rw [put_eq, del_ne _ (by decide), hmo]
  rfl

/-- C102 fails: after a dump that failed because the file cannot be opened, the fit that is sent to another process (or copied)
loses its pre-evaluated functions and the output of the optimizer, and stays marked until then. -/
theorem C102_mark_fails (c : Consts V) (stem : V) (s : Attrs V) (h : Current s) :
    (run c stem ⟨s, none⟩ [.dump true false, .send]).2.obj .fnevals = some .none ∧
      ∃ d, (run c stem ⟨s, none⟩ [.dump true false, .send]).2.obj .fitOutput = some (.dict d) := by
  have a1 : Agree s (mark c s true) := mark_agree c ⟨fun _ _ => rfl, h.present _ (by simp)⟩ true
  have l2 := setstate_current c ((getstate_agree a1).1.current h)
  have e : (run c stem ⟨s, none⟩ [.dump true false, .send]).2.obj = (getstate (mark c s true)).1 := by
    simp only [run, step, dump, Bool.false_eq_true, if_false, l2]
  rw [e]
  have hmk : mark c s true .dumpMini = some (.opaque c.true_) := by simp [mark, put_eq]
  unfold getstate
  rw [hmk]
  simp only
  rw [put_eq, put_ne _ _ (by decide), put_eq]
  refine ⟨rfl, ?_⟩
  unfold miniOutput
  split <;> exact ⟨_, rfl⟩

/-- C102 (partial): a fit that has not been dumped before, or whose last dump was successful, is sent to other processes with all
attributes.  (Missing: after a failed mini-dump, where it is false.) -/
theorem C102_send_partial (c : Consts V) (stem : V) (s : Attrs V) (h : Current s) (l : List Op) (mini : Bool) (k : Key) :
    (run c stem (run c stem ⟨s, none⟩ (l ++ [.dump mini true])).2 [.send]).2.obj k =
      (run c stem ⟨s, none⟩ (l ++ [.dump mini true])).2.obj k := by
  have append : ∀ (l : List Op) (st : State V), (run c stem st (l ++ [.dump mini true])).2 = (step c stem (run c stem st l).2 (.dump mini true)).2 := by
    intro l
    induction l with
    | nil => intro st; rfl
    | cons op l ih => intro st; exact ih _
  have a : Inv s (⟨s, none⟩ : State V) := ⟨⟨fun _ _ => rfl, h.present _ (by simp)⟩, fun _ hf => (nomatch hf)⟩
  have hl := (run_inv c stem h (l ++ [.dump mini true]) a).1
  have e := append l ⟨s, none⟩
  generalize (run c stem ⟨s, none⟩ (l ++ [.dump mini true])).2 = st at hl e
  generalize (run c stem ⟨s, none⟩ l).2 = st0 at e
  have hm : st.obj .dumpMini = none := by
    rw [e]
    simp only [step, dump, if_true]
    unfold getstate
    cases mini with
    | true =>
      have : mark c st0.obj true .dumpMini = some (.opaque c.true_) := by simp [mark, put_eq]
      rw [this]
      simp only
      rw [del_eq]
    | false =>
      have : mark c st0.obj false .dumpMini = none := by simp [mark, del_eq]
      rw [this]
      exact this
  have gs : getstate st.obj = (st.obj, st.obj) := by unfold getstate; rw [hm]
  have l2 := setstate_current c (hl.obj.current h)
  simp only [run, step, gs, l2]

end RT1.DumpState
