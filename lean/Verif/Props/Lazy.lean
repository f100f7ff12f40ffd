import Verif.Model.Lazy

/-!
# The lazy fn-coefficients of an RT1-object (C101)
-/

namespace RT1.Lazy
open General

variable {μ φ ψ : Type}

namespace LazySpec

/-- The fn-coefficients a user expects: the provided ones, otherwise those of the current V and SRF. -/
def coeffs (gen : μ → φ) (m : μ) (intQ : Bool) (input : Option φ) : Option φ :=
  match input with
  | some f => some f
  | none => if intQ then some (gen m) else none

end LazySpec
open LazySpec

/-- Operations that do not change the definition of the object. -/
def Op.pure : Op μ φ ψ → Prop
  | .readFn | .readFnevals | .pickle => True
  | _ => False

/-- What an observation has to be: `g` are the functions of the coefficients `f`. -/
def Expected (f : Option φ) (g : Except PyErr (Option ψ)) : Op μ φ ψ → Obs φ ψ → Prop
  | .readFn, .fn v => v = f
  | .readFnevals, .fnevals v => v = g
  | .pickle, .unit r => r = .ok ()
  | _, _ => False

/-- The functions a user expects: the provided ones, otherwise those for the coefficients. -/
def LazySpec.funcs (lam : φ → Except PyErr ψ) (intQ : Bool) (f : Option φ) (input : Option ψ) : Except PyErr (Option ψ) :=
  match input with
  | some g => .ok (some g)
  | none =>
    match intQ, f with
    | true, some c => (lam c).map some
    | true, none => .error .typeError
    | false, _ => .ok none

/-- The state of an object whose definition has not been changed. -/
structure Inv (env : Env μ φ ψ) (s₀ s : Obj μ φ ψ) : Prop where
  model : s.model = s₀.model
  intQ : s.intQ = s₀.intQ
  backend : s.backend = s₀.backend
  fnInput : s.fnInput = s₀.fnInput
  fnevalsInput : s.fnevalsInput = s₀.fnevalsInput
  fn : ∀ v, s.fn = some v → v = coeffs env.gen s₀.model s₀.intQ s₀.fnInput
  fnevals : ∀ v, s.fnevals = some v →
    funcs (env.lambdify s₀.backend) s₀.intQ (coeffs env.gen s₀.model s₀.intQ s₀.fnInput) s₀.fnevalsInput = .ok v

theorem getFn_val {env : Env μ φ ψ} {s₀ s : Obj μ φ ψ} (h : Inv env s₀ s) :
    (getFn env s).1 = coeffs env.gen s₀.model s₀.intQ s₀.fnInput ∧ Inv env s₀ (getFn env s).2 ∧
      (getFn env s).2.fn = some (getFn env s).1 ∧ (getFn env s).2.fnevals = s.fnevals := by
  unfold getFn
  cases hf : s.fn with
  | some v => exact ⟨h.fn v hf, h, hf, rfl⟩
  | none =>
    dsimp only
    cases hi : s.fnInput with
    | some f =>
      have e : s₀.fnInput = some f := by rw [← h.fnInput, hi]
      simp only [setFn, Option.getD_some]
      refine ⟨by simp [coeffs, e], ⟨h.model, h.intQ, h.backend, h.fnInput, h.fnevalsInput, ?_, h.fnevals⟩, trivial, trivial⟩
      intro v hv; cases hv; simp [coeffs, e]
    | none =>
      have e : s₀.fnInput = none := by rw [← h.fnInput, hi]
      cases hq : s.intQ with
      | true =>
        have e2 : s₀.intQ = true := by rw [← h.intQ, hq]
        simp only [setFn, hq, Option.getD_some, h.model]
        refine ⟨by simp [coeffs, e, e2], ⟨rfl, e2.symm, h.backend, h.fnInput, h.fnevalsInput, ?_, h.fnevals⟩, trivial, trivial⟩
        intro v hv; cases hv; simp [coeffs, e, e2]
      | false =>
        have e2 : s₀.intQ = false := by rw [← h.intQ, hq]
        simp only [setFn, hq, Option.getD_some]
        refine ⟨by simp [coeffs, e, e2], ⟨h.model, e2.symm, h.backend, h.fnInput, h.fnevalsInput, ?_, h.fnevals⟩, trivial, trivial⟩
        intro v hv; cases hv; simp [coeffs, e, e2]

theorem setFnevals_gen (env : Env μ φ ψ) (s : Obj μ φ ψ) (hb : s.backend ≠ .other) (hq : s.intQ = true) :
    setFnevals env s none = match lambdifyFn env s.backend (getFn env s).1 with
      | .ok g => (.ok (), { (getFn env s).2 with fnevals := some (some g) })
      | .error e => (.error e, (getFn env s).2) := by
  unfold setFnevals
  cases hbb : s.backend with
  | other => exact absurd hbb hb
  | symengine => simp only [hq]; cases lambdifyFn env .symengine (getFn env s).1 <;> rfl
  | sympy => simp only [hq]; cases lambdifyFn env .sympy (getFn env s).1 <;> rfl

theorem getFnevals_val {env : Env μ φ ψ} {s₀ s : Obj μ φ ψ} (hb : s₀.backend ≠ .other) (h : Inv env s₀ s) :
    (getFnevals env s).1 =
        funcs (env.lambdify s₀.backend) s₀.intQ (coeffs env.gen s₀.model s₀.intQ s₀.fnInput) s₀.fnevalsInput ∧
      Inv env s₀ (getFnevals env s).2 := by
  unfold getFnevals
  cases hf : s.fnevals with
  | some v => exact ⟨(h.fnevals v hf).symm, h⟩
  | none =>
    dsimp only
    cases hi : s.fnevalsInput with
    | some g =>
      have e : s₀.fnevalsInput = some g := by rw [← h.fnevalsInput, hi]
      simp only [setFnevals, readAttr]
      refine ⟨by simp [funcs, e], ⟨h.model, h.intQ, h.backend, h.fnInput, h.fnevalsInput, h.fn, ?_⟩⟩
      intro v hv; cases hv; simp [funcs, e]
    | none =>
      have e : s₀.fnevalsInput = none := by rw [← h.fnevalsInput, hi]
      cases hq : s.intQ with
      | false =>
        have e2 : s₀.intQ = false := by rw [← h.intQ, hq]
        simp only [setFnevals, hq, readAttr]
        refine ⟨by simp [funcs, e, e2], ⟨h.model, e2.symm, h.backend, h.fnInput, h.fnevalsInput, h.fn, ?_⟩⟩
        intro v hv; cases hv; simp [funcs, e, e2]
      | true =>
        have e2 : s₀.intQ = true := by rw [← h.intQ, hq]
        rw [setFnevals_gen env s (by rw [h.backend]; exact hb) hq]
        obtain ⟨g1, g2, g3, g4⟩ := getFn_val h
        rw [g1, h.backend]
        cases hc : coeffs env.gen s₀.model s₀.intQ s₀.fnInput with
        | none => exact ⟨by simp [lambdifyFn, funcs, e, e2], g2⟩
        | some c =>
          simp only [lambdifyFn]
          cases hl : env.lambdify s₀.backend c with
          | error er => exact ⟨by simp [funcs, e, e2, hl, Except.map], g2⟩
          | ok g =>
            simp only [readAttr]
            refine ⟨by simp [funcs, e, e2, hl, Except.map], ⟨g2.model, g2.intQ, g2.backend, g2.fnInput, g2.fnevalsInput, g2.fn, ?_⟩⟩
            intro v hv; cases hv; rw [hc]; simp [funcs, e, e2, hl, Except.map]

theorem run_inv {env : Env μ φ ψ} {s₀ s : Obj μ φ ψ} (hb : s₀.backend ≠ .other) (h : Inv env s₀ s) {l : List (Op μ φ ψ)}
    (hl : ∀ op ∈ l, op.pure) :
    List.Forall₂ (Expected (coeffs env.gen s₀.model s₀.intQ s₀.fnInput)
        (funcs (env.lambdify s₀.backend) s₀.intQ (coeffs env.gen s₀.model s₀.intQ s₀.fnInput) s₀.fnevalsInput)) l (run env s l).1 ∧
      Inv env s₀ (run env s l).2 := by
  induction l generalizing s with
  | nil => exact ⟨.nil, h⟩
  | cons op l ih =>
    have hop := hl op (by simp)
    have hl' : ∀ op ∈ l, op.pure := fun o ho => hl o (by simp [ho])
    have key : Expected (coeffs env.gen s₀.model s₀.intQ s₀.fnInput)
        (funcs (env.lambdify s₀.backend) s₀.intQ (coeffs env.gen s₀.model s₀.intQ s₀.fnInput) s₀.fnevalsInput) op (step env s op).1 ∧
        Inv env s₀ (step env s op).2 := by
      cases op with
      | readFn => exact ⟨(getFn_val h).1, (getFn_val h).2.1⟩
      | readFnevals => exact ⟨(getFnevals_val hb h).1, (getFnevals_val hb h).2⟩
      | pickle => exact ⟨rfl, h.model, h.intQ, h.backend, h.fnInput, h.fnevalsInput, fun _ hv => (nomatch hv), h.fnevals⟩
      | setModel | setIntQ | assignFn | assignFnevals => exact hop.elim
    obtain ⟨i1, i2⟩ := ih key.2 hl'
    exact ⟨.cons key.1 i1, i2⟩

/-- C101 (partial): as long as V, SRF, `int_Q` and the coefficients are not changed, every access of `fn` gives the provided
coefficients or those of V and SRF, every access of `_fnevals` gives the provided functions or those of the coefficients, in any
order and with any number of pickles in between.  (Missing: changed V, SRF or `int_Q`, where it is false.) -/
theorem C101_values_partial (env : Env μ φ ψ) (m : μ) (intQ : Bool) (b : Backend) (hb : b ≠ .other) (fi : Option φ) (gi : Option ψ)
    (l : List (Op μ φ ψ)) (hl : ∀ op ∈ l, op.pure) :
    List.Forall₂ (Expected (coeffs env.gen m intQ fi) (funcs (env.lambdify b) intQ (coeffs env.gen m intQ fi) gi)) l
      (run env (mk m intQ b fi gi) l).1 :=
  (run_inv (s₀ := mk m intQ b fi gi) hb ⟨rfl, rfl, rfl, rfl, rfl, fun _ hv => (nomatch hv), fun _ hv => (nomatch hv)⟩ hl).1

/-! ## at most one evaluation -/

/-- Number of pickles in a sequence. -/
def pickles : List (Op μ φ ψ) → Nat
  | [] => 0
  | .pickle :: l => pickles l + 1
  | _ :: l => pickles l

/-- 1 if there is no attribute `_RT1__fn` -/
def miss : Option (Option φ) → Nat
  | some _ => 0
  | none => 1

theorem evals_getFn (env : Env μ φ ψ) (s : Obj μ φ ψ) : (getFn env s).2.evals + miss (getFn env s).2.fn ≤ s.evals + miss s.fn := by
  unfold getFn
  cases hf : s.fn with
  | some v => simp [hf]
  | none =>
    dsimp only
    unfold setFn
    split <;> simp [miss]

/-- `evals + miss fn` of the object -/
def pot (s : Obj μ φ ψ) : Nat := s.evals + miss s.fn

theorem evals_getFnevals (env : Env μ φ ψ) (s : Obj μ φ ψ) : pot (getFnevals env s).2 ≤ pot s := by
  unfold getFnevals
  cases hf : s.fnevals with
  | some v => exact Nat.le_refl _
  | none =>
    dsimp only
    have key : pot (setFnevals env s s.fnevalsInput).2 ≤ pot s := by
      unfold setFnevals
      split
      · split
        · exact Nat.le_refl _
        · have := evals_getFn env s
          dsimp only
          cases lambdifyFn env s.backend (getFn env s).1 <;> exact this
      · exact Nat.le_refl _
    generalize setFnevals env s s.fnevalsInput = r at key
    obtain ⟨r1, r2⟩ := r
    cases r1 <;> exact key

/-- C101: the coefficients are evaluated at most once, and once more after each pickling (which removes them from the object). -/
theorem C101_once (env : Env μ φ ψ) (m : μ) (intQ : Bool) (b : Backend) (fi : Option φ) (gi : Option ψ)
    (l : List (Op μ φ ψ)) (hl : ∀ op ∈ l, op.pure) : (run env (mk m intQ b fi gi) l).2.evals ≤ 1 + pickles l := by
  have key : ∀ (l : List (Op μ φ ψ)) (s : Obj μ φ ψ), (∀ op ∈ l, op.pure) → pot (run env s l).2 ≤ pot s + pickles l := by
    intro l
    induction l with
    | nil => intro s _; exact Nat.le_refl _
    | cons op l ih =>
      intro s hl
      have h1 := ih (step env s op).2 fun o ho => hl o (by simp [ho])
      have hop := hl op (by simp)
      have hrun : (run env s (op :: l)).2 = (run env (step env s op).2 l).2 := rfl
      rw [hrun]
      cases op with
      | readFn => have := evals_getFn env s; simp only [step, pickles, pot] at h1 ⊢; omega
      | readFnevals => have := evals_getFnevals env s; simp only [step, pickles] at h1 ⊢; omega
      | pickle =>
        simp only [step, getstate, pickles, pot, miss] at h1 ⊢
        omega
      | setModel | setIntQ | assignFn | assignFnevals => exact hop.elim
  have := key l (mk m intQ b fi gi) hl
  simp only [mk, pot, miss] at this ⊢
  omega

/-- C101: provided functions are used without evaluating the coefficients, also if the object is pickled. -/
theorem C101_provided (env : Env μ φ ψ) (m : μ) (intQ : Bool) (b : Backend) (fi : Option φ) (g : ψ)
    (l : List (Op μ φ ψ)) (hl : ∀ op ∈ l, op = .readFnevals ∨ op = .pickle) :
    (run env (mk m intQ b fi (some g)) l).2.evals = 0 ∧ ∀ v, Obs.fnevals v ∈ (run env (mk m intQ b fi (some g)) l).1 → v = .ok (some g) := by
  have key : ∀ (l : List (Op μ φ ψ)) (s : Obj μ φ ψ), (∀ op ∈ l, op = .readFnevals ∨ op = .pickle) → s.fnevalsInput = some g →
      (s.fnevals = none ∨ s.fnevals = some (some g)) → s.evals = 0 →
      (run env s l).2.evals = 0 ∧ ∀ v, Obs.fnevals v ∈ (run env s l).1 → v = .ok (some g) := by
    intro l
    induction l with
    | nil => intro s _ _ _ h; exact ⟨h, by simp [run]⟩
    | cons op l ih =>
      intro s hl h1 h2 h3
      have hl' : ∀ op ∈ l, op = .readFnevals ∨ op = .pickle := fun o ho => hl o (by simp [ho])
      rcases hl op (by simp) with rfl | rfl
      · have hr : getFnevals env s = (.ok (some g), { s with fnevals := some (some g) }) := by
          rcases h2 with h | h
          · simp [getFnevals, h, h1, setFnevals, readAttr]
          · simp only [getFnevals, h]
            rw [← h]
        have := ih { s with fnevals := some (some g) } hl' h1 (.inr rfl) h3
        refine ⟨by simp only [run, step, hr]; exact this.1, fun v hv => ?_⟩
        simp only [run, step, hr, List.mem_cons] at hv
        rcases hv with hv | hv
        · injection hv
        · exact this.2 v hv
      · have := ih (getstate s) hl' h1 h2 h3
        refine ⟨this.1, fun v hv => ?_⟩
        simp only [run, step, List.mem_cons] at hv
        rcases hv with hv | hv
        · cases hv
        · exact this.2 v hv
  exact key l _ hl rfl (.inl rfl) rfl

/-- C101: after any operations, assigning None to `fn` and `_fnevals` renews the functions for the current V and SRF. -/
theorem C101_refresh (env : Env μ φ ψ) (s : Obj μ φ ψ) (hb : s.backend ≠ .other) (hq : s.intQ = true) {g : ψ}
    (hg : env.lambdify s.backend (env.gen s.model) = .ok g) :
    (run env s [.assignFn none, .assignFnevals none, .readFn, .readFnevals]).1 =
      [.unit (.ok ()), .unit (.ok ()), .fn (some (env.gen s.model)), .fnevals (.ok (some g))] := by
  have e1 : setFn env s none = { s with fn := some (some (env.gen s.model)), evals := s.evals + 1 } := by simp [setFn, hq]
  have e2 : setFnevals env (setFn env s none) none =
      (.ok (), { s with fn := some (some (env.gen s.model)), evals := s.evals + 1, fnevals := some (some g) }) := by
    rw [setFnevals_gen _ _ (by rw [e1]; exact hb) (by rw [e1]; exact hq), e1]
    simp [getFn, lambdifyFn, hg]
  simp only [run, step]
  rw [e2]
  simp [getFn, getFnevals]

/-! ## violations -/

/-- The environment of the examples: the model is a number, the coefficients are lists. -/
def demoEnv : Env Nat (List Nat) Nat where
  gen m := [m, m + 1]
  lambdify _ l := if l.length = 2 then .ok l.sum else .error .typeError

/-- The hypotheses of `C101_values_partial` and `C101_once` for a sequence with reads and pickles. -/
example : (∀ op ∈ ([.readFnevals, .pickle, .readFn, .readFnevals] : List (Op Nat (List Nat) Nat)), op.pure) ∧
    (run demoEnv (mk 3 true .sympy none none) [.readFnevals, .pickle, .readFn, .readFnevals]).1 =
      [.fnevals (.ok (some 7)), .unit (.ok ()), .fn (some [3, 4]), .fnevals (.ok (some 7))] ∧
    (run demoEnv (mk 3 true .sympy none none) [.readFnevals, .pickle, .readFn, .readFnevals]).2.evals = 2 :=
  ⟨by simp [Op.pure], rfl, rfl⟩

/-- The hypotheses of `C101_refresh`. -/
example : demoEnv.lambdify .sympy (demoEnv.gen 5) = .ok 11 := rfl

/-- C101 fails: after V or SRF has been replaced the functions of the previous ones are used. -/
theorem C101_stale_fails : ∃ (env : Env Nat (List Nat) Nat) (m m' : Nat),
    (run env (mk m true .sympy none none) [.readFnevals, .setModel m', .readFnevals, .readFn]).1 ≠
      [.fnevals ((env.lambdify .sympy (env.gen m)).map some), .unit (.ok ()), .fnevals ((env.lambdify .sympy (env.gen m')).map some),
        .fn (some (env.gen m'))] := by
  refine ⟨demoEnv, 3, 5, ?_⟩
  intro h
  have h1 : (run demoEnv (mk 3 true .sympy none none) [.readFnevals, .setModel 5, .readFnevals, .readFn]).1 =
    [.fnevals (.ok (some 7)), .unit (.ok ()), .fnevals (.ok (some 7)), .fn (some [3, 4])] := rfl
  rw [h1] at h
  have h2 : ([.fnevals ((demoEnv.lambdify .sympy (demoEnv.gen 3)).map some), .unit (.ok ()),
      .fnevals ((demoEnv.lambdify .sympy (demoEnv.gen 5)).map some), .fn (some (demoEnv.gen 5))] : List (Obs (List Nat) Nat)) =
    [.fnevals (.ok (some 7)), .unit (.ok ()), .fnevals (.ok (some 11)), .fn (some [5, 6])] := rfl
  rw [h2] at h
  simp at h

/-- C101 fails: if the functions are accessed while `int_Q` is False, then None is used (`'NoneType' object is not callable`)
after `int_Q` has been set to True. -/
theorem C101_intQ_fails (env : Env μ φ ψ) (m : μ) (b : Backend) :
    (run env (mk m false b none none) [.readFnevals, .setIntQ true, .readFnevals]).1 =
      [.fnevals (.ok none), .unit (.ok ()), .fnevals (.ok none)] := rfl

/-- C101 fails: pickling an object removes assigned coefficients from the object itself, the next access gives other ones. -/
theorem C101_pickle_fails (env : Env μ φ ψ) (m : μ) (b : Backend) (f : φ) :
    (run env (mk m true b none none) [.assignFn (some f), .readFn, .pickle, .readFn]).1 =
      [.unit (.ok ()), .fn (some f), .unit (.ok ()), .fn (some (env.gen m))] := rfl

/-- C101 fails: `fit.R.fn` are the fn-coefficients for the first access of `fit.R` only; afterwards it is the integer 1. -/
theorem C101_fitR_fails (env : Env μ φ ψ) (one : φ) (m : μ) (b : Backend) (hb : b ≠ .other) {g : ψ}
    (hg : env.lambdify b (env.gen m) = .ok g) :
    ∃ r r', fitR env one m true b none = .ok (r, some g) ∧ (getFn env r).1 = some (env.gen m) ∧
      fitR env one m true b (some g) = .ok (r', some g) ∧ (getFn env r').1 = some one ∧
      (getFnevals env r').1 = .ok (some g) := by
  have e : getFnevals env (mk m true b none none) =
      (.ok (some g), { mk m true b none none with fn := some (some (env.gen m)), fnevals := some (some g), evals := 1 }) := by
    have h1 := setFnevals_gen env (mk m true b none none) hb rfl
    have h2 : getFn env (mk m true b (none : Option φ) (none : Option ψ)) =
      (some (env.gen m), { mk m true b none none with fn := some (some (env.gen m)), evals := 1 }) := rfl
    rw [h2] at h1
    simp only [lambdifyFn, mk, hg] at h1
    simp only [getFnevals, mk, h1, readAttr]
  refine ⟨{ mk m true b none none with fn := some (some (env.gen m)), fnevals := some (some g), evals := 1 },
    { mk m true b none none with fnevalsInput := some g, fnInput := some one }, by simp only [fitR, e], rfl, rfl, rfl, rfl⟩

/-- An unknown backend is only reported, the access raises AttributeError. -/
theorem C101_backend (env : Env μ φ ψ) (m : μ) (fi : Option φ) :
    (getFnevals env (mk m true .other fi none)).1 = .error .attributeError := rfl

end RT1.Lazy
