import Verif.Model.Worker
import Mathlib.Data.List.Forall2

/-!
# Results of one site are independent of previously processed sites (C62)
-/

namespace RT1
namespace Worker
variable {Arg Id D A Cfg F X R : Type}

/-! ## Specification -/

/-- What a reader may return for a dataset with (or without) aux data. -/
inductive Provides : Read D A → D → Option (Aux D A) → Prop
  | frame (d : D) : Provides (.one (.frame d)) d none
  | pairNone (d : D) : Provides (.seq [.frame d, .none]) d none
  | pair (d : D) (v : PyVal D A) : v ≠ .none → Provides (.seq [.frame d, v]) d (some (.single v))
  | more (d : D) (v w : PyVal D A) (l : List (PyVal D A)) :
      Provides (.seq (.frame d :: v :: w :: l)) d (some (.many (v :: w :: l)))

/-- The site has a non-empty dataset, with these aux data. -/
def Site (env : Env Arg Id D A Cfg F X R) (arg : Arg) (d : D) (aux : Option (Aux D A)) : Prop :=
  ∃ r, env.reader arg = .ok r ∧ Provides r d aux ∧ env.empty d = false

/-- The site provides aux data. -/
def HasAux (env : Env Arg Id D A Cfg F X R) (arg : Arg) (a : Aux D A) : Prop := ∃ d, Site env arg d (some a)

/-- The last of the sites that provides aux data provides `a`. -/
def LastAux (env : Env Arg Id D A Cfg F X R) (before : List Arg) (a : Aux D A) : Prop :=
  ∃ l x l', before = l ++ x :: l' ∧ HasAux env x a ∧ ∀ y ∈ l', ∀ b, ¬ HasAux env y b

/-- The result of a site: its own data, its own ID and the fits of the configurations, in order. -/
def Result (env : Env Arg Id D A Cfg F X R) (cfgs : List Cfg) (arg : Arg) (s : Stored Arg Id D A F) : Prop :=
  Site env arg s.dataset s.aux ∧ s.arg = arg ∧ env.ident arg = .ok s.ident ∧
    List.Forall₂ (fun c f => env.fit c s.dataset = .ok f) cfgs s.fits

/-- The value returned for `arg` by a worker that handled the sites `before`. -/
def after (env : Env Arg Id D A Cfg F X R) (cfgs : List Cfg) (before : List Arg) (arg : Arg) :
    Ret (Stored Arg Id D A F) R (Exc X) :=
  (evalMulti env cfgs (runMulti env cfgs (fresh cfgs) before).2 arg).1

/-! ## Lemmas -/

theorem splitRead_iff (r : Read D A) (d : D) (aux : Option (Aux D A)) :
    (splitRead r : Except (Exc X) _) = .ok (d, aux) ↔ Provides r d aux := by
  constructor
  · intro h
    unfold splitRead at h
    split at h <;> cases h
    · exact .frame _
    · exact .pairNone _
    · rename_i v hv; exact .pair _ _ (fun e => hv e)
    · rename_i l h1 h2 h3
      match l with
      | [] => exact absurd rfl h1
      | [v] => exact absurd rfl (h3 v)
      | v :: w :: l => exact .more _ _ _ _
  · intro h
    cases h with
    | frame => rfl
    | pairNone => rfl
    | pair _ v hv => cases v <;> first | rfl | exact absurd rfl hv
    | more _ v w l => cases v <;> rfl

theorem readSite_iff (env : Env Arg Id D A Cfg F X R) (arg : Arg) (d : D) (aux : Option (Aux D A)) :
    readSite env arg = .ok (d, aux) ↔ Site env arg d aux := by
  unfold readSite Site
  cases hr : env.reader arg with
  | error x => simp
  | ok r =>
    simp only [Except.ok.injEq, exists_eq_left']
    rw [← splitRead_iff (X := X)]
    cases hs : (splitRead r : Except (Exc X) _) with
    | error e => simp
    | ok p =>
      obtain ⟨d', aux'⟩ := p
      dsimp only
      cases he : env.empty d' with
      | true =>
        simp only [if_true, reduceCtorEq, Except.ok.injEq, Prod.mk.injEq, false_iff]
        rintro ⟨⟨rfl, _⟩, h⟩
        rw [he] at h; cases h
      | false =>
        simp only [Bool.false_eq_true, if_false, Except.ok.injEq, Prod.mk.injEq]
        constructor
        · rintro ⟨rfl, rfl⟩; exact ⟨⟨rfl, rfl⟩, he⟩
        · rintro ⟨h, _⟩; exact h

/-- The aux data the site provides, as a function. -/
def siteAux (env : Env Arg Id D A Cfg F X R) (arg : Arg) : Option (Aux D A) :=
  match readSite env arg with
  | .ok (_, aux) => aux
  | .error _ => none

theorem siteAux_iff (env : Env Arg Id D A Cfg F X R) (arg : Arg) (a : Aux D A) :
    siteAux env arg = some a ↔ HasAux env arg a := by
  unfold siteAux HasAux
  simp only [← readSite_iff]
  cases readSite env arg with
  | error e => simp
  | ok r => obtain ⟨d, aux⟩ := r; simp

theorem siteAux_none (env : Env Arg Id D A Cfg F X R) (arg : Arg) :
    siteAux env arg = none ↔ ∀ a, ¬ HasAux env arg a := by
  simp only [← siteAux_iff]
  cases siteAux env arg <;> simp

theorem evalMulti_aux (env : Env Arg Id D A Cfg F X R) (cfgs : List Cfg) (m : Multi Arg Id D A F) (arg : Arg) :
    (evalMulti env cfgs m arg).2.aux = (siteAux env arg).or m.aux := by
  unfold evalMulti siteAux
  cases readSite env arg with
  | error e => rfl
  | ok r =>
    obtain ⟨d, aux⟩ := r
    cases aux with
    | none => dsimp only; cases env.ident arg <;> dsimp only <;> [skip; cases fitAll env d cfgs] <;> simp
    | some a => dsimp only; cases env.ident arg <;> dsimp only <;> [skip; cases fitAll env d cfgs] <;> simp

/-- The aux data retained by a worker. -/
theorem run_aux (env : Env Arg Id D A Cfg F X R) (cfgs : List Cfg) (a : Aux D A) (before : List Arg) :
    ∀ m : Multi Arg Id D A F, (runMulti env cfgs m before).2.aux = some a ↔
      LastAux env before a ∨ ((∀ y ∈ before, ∀ b, ¬ HasAux env y b) ∧ m.aux = some a) := by
  induction before with
  | nil =>
    intro m
    simp only [runMulti, LastAux, List.not_mem_nil, false_imp_iff, implies_true, true_and]
    constructor
    · exact .inr
    · rintro (⟨l, x, l', h, _⟩ | h)
      · simp at h
      · exact h
  | cons x as ih =>
    intro m
    have hl : LastAux env (x :: as) a ↔ LastAux env as a ∨ (HasAux env x a ∧ ∀ y ∈ as, ∀ b, ¬ HasAux env y b) := by
      constructor
      · rintro ⟨l, z, l', h, hz, hn⟩
        cases l with
        | nil => cases h; exact .inr ⟨hz, hn⟩
        | cons w l => cases h; exact .inl ⟨l, z, l', rfl, hz, hn⟩
      · rintro (⟨l, z, l', h, hz, hn⟩ | ⟨hz, hn⟩)
        · exact ⟨x :: l, z, l', by rw [h]; rfl, hz, hn⟩
        · exact ⟨[], x, as, rfl, hz, hn⟩
    simp only [runMulti, ih, evalMulti_aux, hl, List.forall_mem_cons]
    cases hs : siteAux env x with
    | none =>
      have h0 := (siteAux_none env x).1 hs
      simp only [Option.none_or]
      constructor
      · rintro (h | ⟨h, h'⟩)
        · exact .inl (.inl h)
        · exact .inr ⟨⟨h0, h⟩, h'⟩
      · rintro ((h | h) | h)
        · exact .inl h
        · exact absurd h.1 (h0 a)
        · exact .inr ⟨h.1.2, h.2⟩
    | some b =>
      have h0 := (siteAux_iff env x b).1 hs
      have h1 : HasAux env x a ↔ b = a := by rw [← siteAux_iff, hs]; simp
      simp only [Option.some_or, Option.some.injEq, h1]
      constructor
      · rintro (h | ⟨h, h'⟩)
        · exact .inl (.inl h)
        · exact .inl (.inr ⟨h', h⟩)
      · rintro ((h | h) | h)
        · exact .inl h
        · exact .inr ⟨h.2, h.1⟩
        · exact absurd h0 (h.1.1 b)

theorem fitAll_iff (env : Env Arg Id D A Cfg F X R) (d : D) : ∀ (cfgs : List Cfg) (fs : List F),
    fitAll env d cfgs = .ok fs ↔ List.Forall₂ (fun c f => env.fit c d = .ok f) cfgs fs
  | [], fs => by
    simp only [fitAll, Except.ok.injEq, List.forall₂_nil_left_iff]
    exact eq_comm
  | c :: cs, fs => by
    rw [List.forall₂_cons_left_iff]
    unfold fitAll
    cases hf : env.fit c d with
    | error x => simp
    | ok f =>
      dsimp only
      cases hfs : fitAll env d cs with
      | error x =>
        simp only [reduceCtorEq, Except.ok.injEq, false_iff]
        rintro ⟨f', fs', _, h, _⟩
        rw [← fitAll_iff env d cs fs', hfs] at h; cases h
      | ok gs =>
        simp only [Except.ok.injEq]
        constructor
        · rintro rfl; exact ⟨f, gs, rfl, (fitAll_iff env d cs gs).1 hfs, rfl⟩
        · rintro ⟨f', fs', rfl, h, rfl⟩
          rw [← fitAll_iff env d cs fs', hfs] at h
          cases h; rfl

theorem handleExc_ne {S : Type} (env : Env Arg Id D A Cfg F X R) (e : Exc X) (arg : Arg) (s : S) :
    handleExc env e arg ≠ .stored s := by
  unfold handleExc
  cases env.handle e arg <;> simp

/-- What is stored, from any state of the parent object. -/
theorem evalMulti_stored (env : Env Arg Id D A Cfg F X R) (cfgs : List Cfg) (m : Multi Arg Id D A F) (arg : Arg)
    (s : Stored Arg Id D A F) : (evalMulti env cfgs m arg).1 = .stored s ↔
      ∃ aux, Result env cfgs arg { s with aux := aux } ∧ s.aux = aux.or m.aux := by
  unfold Result
  simp only [← readSite_iff, ← fitAll_iff]
  unfold evalMulti
  cases hr : readSite env arg with
  | error e => simp [handleExc_ne]
  | ok r =>
    obtain ⟨d, aux⟩ := r
    dsimp only
    cases hi : env.ident arg with
    | error x => simp [handleExc_ne]
    | ok i =>
      dsimp only
      obtain ⟨sd, sa, sarg, si, sf⟩ := s
      cases hf : fitAll env d cfgs with
      | error x =>
        simp only [handleExc_ne, Except.ok.injEq, Prod.mk.injEq, false_iff]
        rintro ⟨aux', ⟨⟨rfl, _⟩, _, _, h⟩, _⟩
        rw [hf] at h; cases h
      | ok fs =>
        simp only [Ret.stored.injEq, Stored.mk.injEq, Except.ok.injEq, Prod.mk.injEq]
        constructor
        · rintro ⟨rfl, h, rfl, rfl, rfl⟩
          refine ⟨aux, ⟨⟨rfl, rfl⟩, rfl, rfl, hf⟩, ?_⟩
          rw [← h]; cases aux <;> rfl
        · rintro ⟨aux', ⟨⟨rfl, rfl⟩, rfl, rfl, h⟩, h'⟩
          rw [hf] at h
          cases h
          refine ⟨rfl, ?_, rfl, rfl, rfl⟩
          rw [h']; cases aux <;> rfl

/-- The aux data is the only part of the state that has an influence. -/
theorem evalMulti_congr (env : Env Arg Id D A Cfg F X R) (cfgs : List Cfg) (m m' : Multi Arg Id D A F) (arg : Arg)
    (h : m.aux = m'.aux ∨ ∀ s, (evalMulti env cfgs m arg).1 ≠ .stored s) :
    (evalMulti env cfgs m arg).1 = (evalMulti env cfgs m' arg).1 := by
  unfold evalMulti at h ⊢
  cases hr : readSite env arg with
  | error e => rfl
  | ok r =>
    obtain ⟨d, aux⟩ := r
    rw [hr] at h
    dsimp only at h ⊢
    cases hi : env.ident arg with
    | error x => rfl
    | ok i =>
      rw [hi] at h
      dsimp only at h ⊢
      cases hf : fitAll env d cfgs with
      | error x => rfl
      | ok fs =>
        rw [hf] at h
        rcases h with h | h
        · cases aux <;> simp only [h]
        · exact absurd rfl (h _)

/-! ## C62 -/

/-- A single configuration: exactly the result of the site is stored. (The model of this case has no state:
`reinit_object` creates a new object for every site.) -/
theorem C62_single (env : Env Arg Id D A Cfg F X R) (cfg : Cfg) (arg : Arg) (s : Stored Arg Id D A F) :
    evalSingle env cfg arg = .stored s ↔ Result env [cfg] arg s := by
  unfold Result
  simp only [← readSite_iff, ← fitAll_iff]
  unfold evalSingle
  obtain ⟨sd, sa, sarg, si, sf⟩ := s
  cases hr : readSite env arg with
  | error e => simp [handleExc_ne]
  | ok r =>
    obtain ⟨d, aux⟩ := r
    dsimp only
    cases hi : env.ident arg with
    | error x => simp [handleExc_ne]
    | ok i =>
      dsimp only
      cases hf : env.fit cfg d with
      | error x =>
        simp only [handleExc_ne, Except.ok.injEq, Prod.mk.injEq, false_iff]
        rintro ⟨⟨rfl, _⟩, _, _, h⟩
        simp [fitAll, hf] at h
      | ok f =>
        simp only [Ret.stored.injEq, Stored.mk.injEq, Except.ok.injEq, Prod.mk.injEq]
        constructor
        · rintro ⟨rfl, rfl, rfl, rfl, rfl⟩
          exact ⟨⟨rfl, rfl⟩, rfl, rfl, by simp [fitAll, hf]⟩
        · rintro ⟨⟨rfl, rfl⟩, rfl, rfl, h⟩
          simp [fitAll, hf] at h
          exact ⟨rfl, rfl, rfl, rfl, h⟩

/-- Several configurations: what is stored after any sequence of other sites is the result of the site, except for
the aux data. If the site has none, those of the last earlier site that provided any are stored. -/
theorem C62_multi (env : Env Arg Id D A Cfg F X R) (cfgs : List Cfg) (before : List Arg) (arg : Arg)
    (s : Stored Arg Id D A F) : after env cfgs before arg = .stored s ↔
      ∃ aux, Result env cfgs arg { s with aux := aux } ∧
        (aux ≠ none ∧ s.aux = aux ∨ aux = none ∧ ∀ a, s.aux = some a ↔ LastAux env before a) := by
  unfold after
  rw [evalMulti_stored]
  have hm := fun a => run_aux env cfgs a before (fresh cfgs)
  refine exists_congr fun aux => and_congr_right fun _ => ?_
  cases aux with
  | some a => simp
  | none =>
    simp only [Option.none_or, ne_eq, not_true_eq_false, false_and, false_or, true_and]
    constructor
    · intro h a
      rw [h, hm]
      simp [fresh]
    · intro h
      refine Option.ext fun a => ?_
      rw [h, hm]
      simp [fresh]

/-- If nothing is stored for a site (its exception is handled or raised) this does not depend on the earlier sites. -/
theorem C62_exceptions (env : Env Arg Id D A Cfg F X R) (cfgs : List Cfg) (before before' : List Arg) (arg : Arg)
    (h : ∀ s, after env cfgs before arg ≠ .stored s) : after env cfgs before arg = after env cfgs before' arg :=
  evalMulti_congr env cfgs _ _ arg (.inr h)

/-- C62 holds for all sites that provide aux data, and for all sites if none of the earlier ones provided any.
(Missing: sites without aux data after a site with aux data, see `C62_fails`.) -/
theorem C62_multi_partial (env : Env Arg Id D A Cfg F X R) (cfgs : List Cfg) (before : List Arg) (arg : Arg)
    (h : (∃ a, HasAux env arg a) ∨ ∀ y ∈ before, ∀ b, ¬ HasAux env y b) (s : Stored Arg Id D A F) :
    after env cfgs before arg = .stored s ↔ Result env cfgs arg s := by
  rw [C62_multi]
  constructor
  · rintro ⟨aux, hr, h' | ⟨rfl, h'⟩⟩
    · rw [← h'.2] at hr; exact hr
    · rcases h with ⟨a, ha⟩ | h
      · have h1 := (siteAux_iff env arg a).2 ha
        have h2 := (readSite_iff env arg _ _).2 hr.1
        unfold siteAux at h1
        rw [h2] at h1; cases h1
      · have : s.aux = none := by
          refine Option.eq_none_iff_forall_not_mem.2 fun a ha => ?_
          obtain ⟨l, x, l', rfl, hx, _⟩ := (h' a).1 ha
          exact h x (by simp) a hx
        rw [← this] at hr; exact hr
  · intro hr
    refine ⟨s.aux, hr, ?_⟩
    cases hs : s.aux with
    | some a => exact .inl ⟨by simp, rfl⟩
    | none =>
      refine .inr ⟨rfl, fun a => ?_⟩
      simp only [reduceCtorEq, false_iff]
      rintro ⟨l, x, l', rfl, hx, _⟩
      rcases h with ⟨b, hb⟩ | h
      · have h1 := (siteAux_iff env arg b).2 hb
        have h2 := (readSite_iff env arg _ _).2 hr.1
        unfold siteAux at h1
        rw [h2, hs] at h1; cases h1
      · exact h x (by simp) a hx

/-- The readers of the example: site 0 has aux data, all others do not. -/
def exEnv : Env Nat Nat Nat String Nat Nat Unit Unit where
  reader := fun a => .ok (if a = 0 then .seq [.frame 10, .obj "aux of site 0"] else .one (.frame (10 + a)))
  empty := fun _ => false
  ident := .ok
  fit := fun c d => .ok (c * d)
  handle := fun _ _ => .ok ()

/-- With several configurations C62 does not hold: the aux data of an earlier site are stored for a site without. -/
theorem C62_fails : ¬ ∀ (before before' : List Nat) (arg : Nat),
    after exEnv [1, 2] before arg = after exEnv [1, 2] before' arg := by
  intro h
  have := h [0] [] 1
  revert this
  decide

/-- A reader that returns a tuple with a DataFrame only: the handler gets an UnboundLocalError, the site is never
processed. -/
theorem C62_onetuple (env : Env Arg Id D A Cfg F X R) (cfgs : List Cfg) (before : List Arg) (arg : Arg) (d : D)
    (h : env.reader arg = .ok (.seq [.frame d])) :
    after env cfgs before arg = handleExc env (.py .unboundLocalError) arg := by
  unfold after evalMulti readSite
  rw [h]
  rfl

/-! ## Examples -/

example : HasAux exEnv 0 (.single (.obj "aux of site 0")) :=
  (siteAux_iff ..).1 (by decide)
example : ∀ y ∈ [1, 2, 3], ∀ b, ¬ HasAux exEnv y b := fun y hy =>
  (siteAux_none exEnv y).1 ((by decide : ∀ y ∈ [1, 2, 3], siteAux exEnv y = none) y hy)
example : after exEnv [1, 2] [1, 2] 3 = .stored ⟨13, none, 3, 3, [13, 26]⟩ := by decide
example : after exEnv [1, 2] [0, 2] 3 = .stored ⟨13, some (.single (.obj "aux of site 0")), 3, 3, [13, 26]⟩ := by decide
example : evalSingle exEnv 3 1 = .stored ⟨11, none, 1, 1, [33]⟩ := by decide

/-- A reader that raises, one with an empty dataset and one that returns a tuple with one element. -/
def exWith (r : Except Unit (Read Nat String)) (e : Bool) : Env Nat Nat Nat String Nat Nat Unit Unit :=
  { exEnv with reader := fun _ => r, empty := fun _ => e }

example : ∀ s, after (exWith (.error ()) false) [1] [0] 3 ≠ .stored s := by
  intro s h
  rw [show after (exWith (.error ()) false) [1] [0] 3 = .handled () by decide] at h
  cases h
example : after (exWith (.ok (.one (.frame 4))) true) [1] [0] 3 = .handled () := by decide
example : (exWith (.ok (.seq [.frame 4])) false).reader 0 = .ok (.seq [.frame 4]) := rfl

end Worker
end RT1
