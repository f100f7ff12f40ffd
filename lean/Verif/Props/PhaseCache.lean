import Verif.Model.PhaseCache
import Mathlib.Tactic.IntervalCases

/-!
# Phase functions are evaluated with their current parameters (C115)
-/

namespace RT1
namespace PhaseCache

variable {Cls Par S E C L A Y : Type} [DecidableEq Cls]

/-! ## Specification: the same objects without caches -/

/-- The value of a phase function with given parameters. -/
def valueOf (W : Classes Cls Par E C L A Y) (cls : Cls) (par : Par) (keys : List String) (arg : A) : Y :=
  match W.numeric cls with
  | some f => f par keys arg
  | none => W.run (W.lambdify keys (W.expr cls par)) arg

abbrev Objs (Cls Par S : Type) := Nat → Option (Obj Cls Par S)

/-- The objects after an operation. -/
def after (objs : Objs Cls Par S) : Op Cls Par S A → Objs Cls Par S
  | .new i o => fun j => if j = i then some ((objs i).getD o) else objs j
  | .set i par => fun j => if j = i then (objs i).map fun o => { o with par := par } else objs j
  | .setScal i scal => fun j => if j = i then (objs i).map fun o => { o with scal := scal } else objs j
  | _ => objs

/-- What an operation has to return. -/
def expected (W : Classes Cls Par E C L A Y) (objs : Objs Cls Par S) : Op Cls Par S A → Out S E C Y
  | .new i _ => if (objs i).isNone then .none else .error .runtimeError
  | .set i _ => if (objs i).isSome then .none else .error .nameError
  | .setScal i _ => if (objs i).isSome then .none else .error .nameError
  | .func i => (objs i).elim (.error .nameError) fun o => .expr (W.expr o.cls o.par)
  | .legcoefs i => (objs i).elim (.error .nameError) fun o => .coefs (W.coefs o.cls o.par)
  | .p i keys arg => (objs i).elim (.error .nameError) fun o => .val (valueOf W o.cls o.par keys arg)
  | .diff i n keys arg => (objs i).elim (.error .nameError) fun o => .val (W.run (W.lambdify keys (W.diff n (W.expr o.cls o.par))) arg)
  | .scal i => (objs i).elim (.error .nameError) fun o => .scal o.scal

/-- What a history has to return. -/
def expectedAll (W : Classes Cls Par E C L A Y) (objs : Objs Cls Par S) : List (Op Cls Par S A) → List (Out S E C Y)
  | [] => []
  | op :: ops => expected W objs op :: expectedAll W (after objs op) ops

/-- The function of the object is evaluated. -/
def Reads (i : Nat) : Op Cls Par S A → Prop
  | .func j => j = i
  | .legcoefs j => j = i
  | .p j _ _ => j = i
  | .diff j _ _ _ => j = i
  | _ => False

/-- No parameter is changed after the function has been evaluated. -/
def Fixed (ops : List (Op Cls Par S A)) : Prop :=
  ∀ pre post i par, ops = pre ++ .set i par :: post → ∀ op ∈ pre, ¬ Reads i op

/-! ## Lemmas -/

section
variable {K V : Type} [DecidableEq K]

theorem find_mem {c : Lru K V} {k : K} {v : V} (h : c.find k = some v) : (k, v) ∈ c := by
  unfold Lru.find at h
  rw [Option.map_eq_some_iff] at h
  obtain ⟨e, h1, rfl⟩ := h
  have h2 : e.1 = k := by have := List.find?_some h1; simpa using this
  subst h2
  exact List.mem_of_find?_eq_some h1

theorem mem_touch {c : Lru K V} {k : K} {v : V} {e : K × V} (h : e ∈ c.touch k v) : e = (k, v) ∨ e ∈ c := by
  rcases List.mem_cons.1 h with h | h
  · exact .inl h
  · exact .inr (List.mem_filter.1 h).1

theorem mem_insert {size : Nat} {c : Lru K V} {k : K} {v : V} {e : K × V} (h : e ∈ c.insert size k v) : e = (k, v) ∨ e ∈ c :=
  List.mem_cons.1 (List.mem_of_mem_take h)
end

/-- The entries of the caches are the values for the current parameters. -/
structure Inv (W : Classes Cls Par E C L A Y) (s : State Cls Par S E C L) : Prop where
  funcs : ∀ c i e, (i, e) ∈ s.funcs c → ∃ o, s.objs i = some o ∧ o.cls = c ∧ e = W.expr c o.par
  legs : ∀ c i e, (i, e) ∈ s.legs c → ∃ o, s.objs i = some o ∧ o.cls = c ∧ e = W.coefs c o.par
  lams : ∀ b i keys l, ((i, keys), l) ∈ s.lams b → ∃ o, s.objs i = some o ∧ W.volume o.cls = b ∧ l = W.lambdify keys (W.expr o.cls o.par)

/-- The object occurs in a cache. -/
def Cached (s : State Cls Par S E C L) (i : Nat) : Prop :=
  (∃ c e, (i, e) ∈ s.funcs c) ∨ (∃ c e, (i, e) ∈ s.legs c) ∨ ∃ b keys l, ((i, keys), l) ∈ s.lams b

theorem readFunc_ok (W : Classes Cls Par E C L A Y) {s : State Cls Par S E C L} (h : Inv W s) {i : Nat} {o : Obj Cls Par S}
    (ho : s.objs i = some o) :
    (readFunc W s i o).1 = W.expr o.cls o.par ∧ Inv W (readFunc W s i o).2 ∧ (readFunc W s i o).2.objs = s.objs ∧
      ∀ j, Cached (readFunc W s i o).2 j → Cached s j ∨ j = i := by
  have main : ∀ (e : E) (new : Lru Nat E), e = W.expr o.cls o.par → (∀ x ∈ new, x = (i, e) ∨ x ∈ s.funcs o.cls) →
      Inv W { s with funcs := fun c => if c = o.cls then new else s.funcs c } ∧
      ∀ j, Cached { s with funcs := fun c => if c = o.cls then new else s.funcs c } j → Cached s j ∨ j = i := by
    intro e new he hn
    refine ⟨⟨?_, h.legs, h.lams⟩, ?_⟩
    · intro c j x hx
      dsimp only at hx ⊢
      by_cases hc : c = o.cls
      · rw [if_pos hc] at hx
        rcases hn _ hx with hx | hx
        · cases hx; subst hc; exact ⟨o, ho, rfl, he⟩
        · subst hc; exact h.funcs _ _ _ hx
      · rw [if_neg hc] at hx; exact h.funcs _ _ _ hx
    · rintro j (⟨c, x, hx⟩ | hx)
      · dsimp only at hx
        by_cases hc : c = o.cls
        · rw [if_pos hc] at hx
          rcases hn _ hx with hx | hx
          · cases hx; exact .inr rfl
          · exact .inl (.inl ⟨_, _, hx⟩)
        · rw [if_neg hc] at hx; exact .inl (.inl ⟨_, _, hx⟩)
      · exact .inl (.inr hx)
  unfold readFunc
  cases hf : (s.funcs o.cls).find i with
  | some e =>
    dsimp only
    obtain ⟨o', h1, h2, h3⟩ := h.funcs _ _ _ (find_mem hf)
    rw [ho] at h1; cases h1
    have := main e ((s.funcs o.cls).touch i e) h3 fun x hx => mem_touch hx
    have heq : (fun c => if c = o.cls then (s.funcs c).touch i e else s.funcs c) = fun c => if c = o.cls then (s.funcs o.cls).touch i e else s.funcs c := by
      funext c; by_cases hc : c = o.cls
      · rw [if_pos hc, if_pos hc, hc]
      · rw [if_neg hc, if_neg hc]
    rw [heq]
    exact ⟨h3, this.1, rfl, this.2⟩
  | none =>
    dsimp only
    have := main (W.expr o.cls o.par) ((s.funcs o.cls).insert maxsize i (W.expr o.cls o.par)) rfl fun x hx => mem_insert hx
    have heq : (fun c => if c = o.cls then (s.funcs c).insert maxsize i (W.expr o.cls o.par) else s.funcs c) =
        fun c => if c = o.cls then (s.funcs o.cls).insert maxsize i (W.expr o.cls o.par) else s.funcs c := by
      funext c; by_cases hc : c = o.cls
      · rw [if_pos hc, if_pos hc, hc]
      · rw [if_neg hc, if_neg hc]
    rw [heq]
    exact ⟨rfl, this.1, rfl, this.2⟩

theorem readLeg_ok (W : Classes Cls Par E C L A Y) {s : State Cls Par S E C L} (h : Inv W s) {i : Nat} {o : Obj Cls Par S}
    (ho : s.objs i = some o) :
    (readLeg W s i o).1 = W.coefs o.cls o.par ∧ Inv W (readLeg W s i o).2 ∧ (readLeg W s i o).2.objs = s.objs ∧
      ∀ j, Cached (readLeg W s i o).2 j → Cached s j ∨ j = i := by
  have main : ∀ (e : C) (new : Cls → Lru Nat C), e = W.coefs o.cls o.par → (∀ c, ∀ x ∈ new c, (c = o.cls ∧ x = (i, e)) ∨ x ∈ s.legs c) →
      Inv W { s with legs := new } ∧ ∀ j, Cached { s with legs := new } j → Cached s j ∨ j = i := by
    intro e new he hn
    refine ⟨⟨h.funcs, ?_, h.lams⟩, ?_⟩
    · intro c j x hx
      rcases hn c _ hx with ⟨hc, hx⟩ | hx
      · cases hx; subst hc; exact ⟨o, ho, rfl, he⟩
      · exact h.legs _ _ _ hx
    · rintro j (hx | ⟨c, x, hx⟩ | hx)
      · exact .inl (.inl hx)
      · rcases hn c _ hx with ⟨_, hx⟩ | hx
        · cases hx; exact .inr rfl
        · exact .inl (.inr (.inl ⟨_, _, hx⟩))
      · exact .inl (.inr (.inr hx))
  unfold readLeg
  cases hf : (s.legs o.cls).find i with
  | some e =>
    dsimp only
    obtain ⟨o', h1, h2, h3⟩ := h.legs _ _ _ (find_mem hf)
    rw [ho] at h1; cases h1
    have := main e (fun c => if c = o.cls then (s.legs c).touch i e else s.legs c) h3 fun c x hx => by
      by_cases hc : c = o.cls
      · rw [if_pos hc] at hx
        rcases mem_touch hx with hx | hx
        · exact .inl ⟨hc, hx⟩
        · exact .inr hx
      · rw [if_neg hc] at hx; exact .inr hx
    exact ⟨h3, this.1, rfl, this.2⟩
  | none =>
    dsimp only
    have := main (W.coefs o.cls o.par) (fun c => if c = o.cls then (s.legs c).insert maxsize i (W.coefs o.cls o.par) else s.legs c) rfl
      fun c x hx => by
        by_cases hc : c = o.cls
        · rw [if_pos hc] at hx
          rcases mem_insert hx with hx | hx
          · exact .inl ⟨hc, hx⟩
          · exact .inr hx
        · rw [if_neg hc] at hx; exact .inr hx
    exact ⟨rfl, this.1, rfl, this.2⟩

theorem readLam_ok (W : Classes Cls Par E C L A Y) {s : State Cls Par S E C L} (h : Inv W s) {i : Nat} {o : Obj Cls Par S}
    (ho : s.objs i = some o) (keys : List String) :
    (readLam W s i o keys).1 = W.lambdify keys (W.expr o.cls o.par) ∧ Inv W (readLam W s i o keys).2 ∧ (readLam W s i o keys).2.objs = s.objs ∧
      ∀ j, Cached (readLam W s i o keys).2 j → Cached s j ∨ j = i := by
  have main : ∀ (s : State Cls Par S E C L) (l : L) (new : Bool → Lru (Nat × List String) L), Inv W s → s.objs i = some o →
      l = W.lambdify keys (W.expr o.cls o.par) →
      (∀ b, ∀ x ∈ new b, (b = W.volume o.cls ∧ x = ((i, keys), l)) ∨ x ∈ s.lams b) →
      Inv W { s with lams := new } ∧ ∀ j, Cached { s with lams := new } j → Cached s j ∨ j = i := by
    intro s l new h ho hl hn
    refine ⟨⟨h.funcs, h.legs, ?_⟩, ?_⟩
    · intro b j k x hx
      rcases hn b _ hx with ⟨hb, hx⟩ | hx
      · cases hx; subst hb; exact ⟨o, ho, rfl, hl⟩
      · exact h.lams _ _ _ _ hx
    · rintro j (hx | hx | ⟨b, k, x, hx⟩)
      · exact .inl (.inl hx)
      · exact .inl (.inr (.inl hx))
      · rcases hn b _ hx with ⟨_, hx⟩ | hx
        · cases hx; exact .inr rfl
        · exact .inl (.inr (.inr ⟨_, _, _, hx⟩))
  unfold readLam
  cases hf : (s.lams (W.volume o.cls)).find (i, keys) with
  | some l =>
    dsimp only
    have hm := find_mem hf
    obtain ⟨o', h1, h2, h3⟩ := h.lams _ _ _ _ hm
    rw [ho] at h1; cases h1
    have := main s l (fun b => if b = W.volume o.cls then (s.lams b).touch (i, keys) l else s.lams b) h ho h3 fun b x hx => by
      by_cases hb : b = W.volume o.cls
      · rw [if_pos hb] at hx
        rcases mem_touch hx with hx | hx
        · exact .inl ⟨hb, hx⟩
        · exact .inr hx
      · rw [if_neg hb] at hx; exact .inr hx
    exact ⟨h3, this.1, rfl, this.2⟩
  | none =>
    dsimp only
    obtain ⟨g1, g2, g3, g4⟩ := readFunc_ok W h ho
    have := main (readFunc W s i o).2 (W.lambdify keys (readFunc W s i o).1)
      (fun b => if b = W.volume o.cls then ((readFunc W s i o).2.lams b).insert maxsize (i, keys) (W.lambdify keys (readFunc W s i o).1)
        else (readFunc W s i o).2.lams b) g2 (by rw [g3]; exact ho) (by rw [g1]) fun b x hx => by
        by_cases hb : b = W.volume o.cls
        · rw [if_pos hb] at hx
          rcases mem_insert hx with hx | hx
          · exact .inl ⟨hb, hx⟩
          · exact .inr hx
        · rw [if_neg hb] at hx; exact .inr hx
    refine ⟨by rw [g1], this.1, g3, fun j hj => ?_⟩
    rcases this.2 j hj with hj | hj
    · exact g4 j hj
    · exact .inr hj

theorem callP_ok (W : Classes Cls Par E C L A Y) {s : State Cls Par S E C L} (h : Inv W s) {i : Nat} {o : Obj Cls Par S}
    (ho : s.objs i = some o) (keys : List String) (arg : A) :
    (callP W s i o keys arg).1 = valueOf W o.cls o.par keys arg ∧ Inv W (callP W s i o keys arg).2 ∧
      (callP W s i o keys arg).2.objs = s.objs ∧ ∀ j, Cached (callP W s i o keys arg).2 j → Cached s j ∨ j = i := by
  unfold callP valueOf
  cases W.numeric o.cls with
  | some f => exact ⟨rfl, h, rfl, fun j hj => .inl hj⟩
  | none =>
    obtain ⟨g1, g2, g3, g4⟩ := readLam_ok W h ho keys
    dsimp only
    exact ⟨by rw [g1], g2, g3, g4⟩

/-- The objects do not depend on the caches. -/
theorem readFunc_objs (W : Classes Cls Par E C L A Y) (s : State Cls Par S E C L) (i : Nat) (o : Obj Cls Par S) :
    (readFunc W s i o).2.objs = s.objs := by
  unfold readFunc; cases (s.funcs o.cls).find i <;> rfl

theorem readLam_objs (W : Classes Cls Par E C L A Y) (s : State Cls Par S E C L) (i : Nat) (o : Obj Cls Par S) (keys : List String) :
    (readLam W s i o keys).2.objs = s.objs := by
  unfold readLam
  cases (s.lams (W.volume o.cls)).find (i, keys) with
  | some l => rfl
  | none => exact readFunc_objs W s i o

theorem step_objs (W : Classes Cls Par E C L A Y) (s : State Cls Par S E C L) (op : Op Cls Par S A) :
    (step W s op).2.objs = after s.objs op := by
  cases op with
  | new i o =>
    dsimp only [step, after]
    cases h : s.objs i with
    | none => rfl
    | some o' =>
      dsimp only
      funext j
      by_cases hj : j = i
      · rw [if_pos hj, hj, h]; rfl
      · rw [if_neg hj]
  | set i par =>
    dsimp only [step, after, onObj]
    cases h : s.objs i with
    | none => funext j; dsimp only; split_ifs with hj <;> simp_all
    | some o => rfl
  | setScal i sc =>
    dsimp only [step, after, onObj]
    cases h : s.objs i with
    | none => funext j; dsimp only; split_ifs with hj <;> simp_all
    | some o => rfl
  | func i =>
    dsimp only [step, after, onObj]
    cases h : s.objs i with
    | none => rfl
    | some o => exact readFunc_objs W s i o
  | legcoefs i =>
    dsimp only [step, after, onObj]
    cases h : s.objs i with
    | none => rfl
    | some o => dsimp only; unfold readLeg; cases (s.legs o.cls).find i <;> rfl
  | p i keys arg =>
    dsimp only [step, after, onObj]
    cases h : s.objs i with
    | none => rfl
    | some o =>
      dsimp only
      unfold callP
      cases W.numeric o.cls with
      | some f => rfl
      | none => exact readLam_objs W s i o keys
  | diff i n keys arg =>
    dsimp only [step, after, onObj]
    cases h : s.objs i with
    | none => rfl
    | some o => exact readFunc_objs W s i o
  | scal i =>
    dsimp only [step, after, onObj]
    cases h : s.objs i <;> rfl

/-- One operation on a state with correct caches. -/
theorem step_ok (W : Classes Cls Par E C L A Y) {s : State Cls Par S E C L} (h : Inv W s) (op : Op Cls Par S A)
    (hset : ∀ i par, op = .set i par → ¬ Cached s i) :
    (step W s op).1 = expected W s.objs op ∧ Inv W (step W s op).2 ∧
      ∀ j, Cached (step W s op).2 j → Cached s j ∨ Reads j op := by
  have keep : ∀ i o', (∀ j, Cached s j → j ≠ i ∨ ∃ o, s.objs i = some o ∧ o.cls = o'.cls ∧ o.par = o'.par) →
      Inv W (setObj s i o') := by
    intro i o' hk
    refine ⟨?_, ?_, ?_⟩
    · intro c j e he
      obtain ⟨o, h1, h2, h3⟩ := h.funcs c j e he
      unfold setObj
      dsimp only
      rcases hk j (.inl ⟨c, e, he⟩) with hj | ⟨o2, g1, g2, g3⟩
      · rw [if_neg hj]; exact ⟨o, h1, h2, h3⟩
      · by_cases hj : j = i
        · rw [if_pos hj]; subst hj; rw [g1] at h1; cases h1
          exact ⟨o', rfl, by rw [← g2, h2], by rw [← g3, h3]⟩
        · rw [if_neg hj]; exact ⟨o, h1, h2, h3⟩
    · intro c j e he
      obtain ⟨o, h1, h2, h3⟩ := h.legs c j e he
      unfold setObj
      dsimp only
      rcases hk j (.inr (.inl ⟨c, e, he⟩)) with hj | ⟨o2, g1, g2, g3⟩
      · rw [if_neg hj]; exact ⟨o, h1, h2, h3⟩
      · by_cases hj : j = i
        · rw [if_pos hj]; subst hj; rw [g1] at h1; cases h1
          exact ⟨o', rfl, by rw [← g2, h2], by rw [← g3, h3]⟩
        · rw [if_neg hj]; exact ⟨o, h1, h2, h3⟩
    · intro b j k e he
      obtain ⟨o, h1, h2, h3⟩ := h.lams b j k e he
      unfold setObj
      dsimp only
      rcases hk j (.inr (.inr ⟨b, k, e, he⟩)) with hj | ⟨o2, g1, g2, g3⟩
      · rw [if_neg hj]; exact ⟨o, h1, h2, h3⟩
      · by_cases hj : j = i
        · rw [if_pos hj]; subst hj; rw [g1] at h1; cases h1
          exact ⟨o', rfl, by rw [← g2, h2], by rw [← g2, ← g3, h3]⟩
        · rw [if_neg hj]; exact ⟨o, h1, h2, h3⟩
  have cachedObj : ∀ j, Cached s j → s.objs j ≠ none := by
    rintro j (⟨c, e, he⟩ | ⟨c, e, he⟩ | ⟨b, k, l, he⟩)
    · obtain ⟨o, h1, _⟩ := h.funcs _ _ _ he; rw [h1]; simp
    · obtain ⟨o, h1, _⟩ := h.legs _ _ _ he; rw [h1]; simp
    · obtain ⟨o, h1, _⟩ := h.lams _ _ _ _ he; rw [h1]; simp
  cases op with
  | new i o =>
    dsimp only [step, expected]
    cases ho : s.objs i with
    | none =>
      refine ⟨rfl, keep i o fun j hj => .inl fun hji => ?_, fun j hj => .inl hj⟩
      subst hji; exact cachedObj j hj ho
    | some o' => exact ⟨rfl, h, fun j hj => .inl hj⟩
  | set i par =>
    dsimp only [step, expected, onObj]
    cases ho : s.objs i with
    | none => exact ⟨rfl, h, fun j hj => .inl hj⟩
    | some o =>
      refine ⟨rfl, keep i _ fun j hj => .inl fun hji => ?_, fun j hj => .inl hj⟩
      subst hji; exact hset j par rfl hj
  | setScal i sc =>
    dsimp only [step, expected, onObj]
    cases ho : s.objs i with
    | none => exact ⟨rfl, h, fun j hj => .inl hj⟩
    | some o => exact ⟨rfl, keep i _ fun j hj => .inr ⟨o, ho, rfl, rfl⟩, fun j hj => .inl hj⟩
  | func i =>
    dsimp only [step, expected, onObj]
    cases ho : s.objs i with
    | none => exact ⟨rfl, h, fun j hj => .inl hj⟩
    | some o =>
      obtain ⟨g1, g2, _, g4⟩ := readFunc_ok W h ho
      exact ⟨by dsimp only; rw [g1]; rfl, g2, fun j hj => (g4 j hj).imp_right Eq.symm⟩
  | legcoefs i =>
    dsimp only [step, expected, onObj]
    cases ho : s.objs i with
    | none => exact ⟨rfl, h, fun j hj => .inl hj⟩
    | some o =>
      obtain ⟨g1, g2, _, g4⟩ := readLeg_ok W h ho
      exact ⟨by dsimp only; rw [g1]; rfl, g2, fun j hj => (g4 j hj).imp_right Eq.symm⟩
  | p i keys arg =>
    dsimp only [step, expected, onObj]
    cases ho : s.objs i with
    | none => exact ⟨rfl, h, fun j hj => .inl hj⟩
    | some o =>
      obtain ⟨g1, g2, _, g4⟩ := callP_ok W h ho keys arg
      exact ⟨by dsimp only; rw [g1]; rfl, g2, fun j hj => (g4 j hj).imp_right Eq.symm⟩
  | diff i n keys arg =>
    dsimp only [step, expected, onObj, callDiff]
    cases ho : s.objs i with
    | none => exact ⟨rfl, h, fun j hj => .inl hj⟩
    | some o =>
      obtain ⟨g1, g2, _, g4⟩ := readFunc_ok W h ho
      exact ⟨by dsimp only; rw [g1]; rfl, g2, fun j hj => (g4 j hj).imp_right Eq.symm⟩
  | scal i =>
    dsimp only [step, expected, onObj]
    cases ho : s.objs i with
    | none => exact ⟨rfl, h, fun j hj => .inl hj⟩
    | some o => exact ⟨rfl, h, fun j hj => .inl hj⟩

theorem inv_init (W : Classes Cls Par E C L A Y) : Inv W (init : State Cls Par S E C L) :=
  ⟨fun _ _ _ h => (List.not_mem_nil h).elim, fun _ _ _ h => (List.not_mem_nil h).elim, fun _ _ _ _ h => (List.not_mem_nil h).elim⟩

theorem exec_ok (W : Classes Cls Par E C L A Y) : ∀ (ops : List (Op Cls Par S A)) (s : State Cls Par S E C L), Inv W s → Fixed ops →
    (∀ i par, .set i par ∈ ops → ¬ Cached s i) → (exec W s ops).1 = expectedAll W s.objs ops
  | [], _, _, _, _ => rfl
  | op :: ops, s, h, hf, hc => by
    obtain ⟨h1, h2, h3⟩ := step_ok W h op fun i par he => hc i par (by rw [he]; simp)
    unfold exec expectedAll
    rw [h1, exec_ok W ops _ h2, step_objs]
    · intro pre post i par he op' hop'
      exact hf (op :: pre) post i par (by rw [he]; rfl) op' (List.mem_cons_of_mem _ hop')
    · intro i par hm hca
      rcases h3 i hca with hca | hca
      · exact hc i par (List.mem_cons_of_mem _ hm) hca
      · obtain ⟨pre, post, he⟩ := List.append_of_mem hm
        exact hf (op :: pre) post i par (by rw [he]; rfl) op (by simp) hca

/-! ## C115 -/

/-- Any number of objects, any order of evaluations (also more than the caches can keep): if no defining parameter is changed after the first
evaluation, all functions, coefficients, values and derivatives are those of the current parameters.  (Missing: changed parameters, see
`C115_stale_fails`.) -/
theorem C115_current_partial (W : Classes Cls Par E C L A Y) (ops : List (Op Cls Par S A)) (hf : Fixed ops) :
    (exec W (init : State Cls Par S E C L) ops).1 = expectedAll W (fun _ => none) ops :=
  exec_ok W ops init (inv_init W) hf fun i par _ hc => by
    rcases hc with ⟨_, _, hx⟩ | ⟨_, _, hx⟩ | ⟨_, _, _, hx⟩ <;> cases hx

/-- The objects after a history. -/
def afterAll (objs : Objs Cls Par S) (ops : List (Op Cls Par S A)) : Objs Cls Par S := ops.foldl after objs

theorem exec_objs (W : Classes Cls Par E C L A Y) : ∀ (ops : List (Op Cls Par S A)) (s : State Cls Par S E C L),
    (exec W s ops).2.objs = afterAll s.objs ops
  | [], _ => rfl
  | op :: ops, s => by
    unfold exec afterAll
    rw [List.foldl_cons, ← step_objs W]
    exact exec_objs W ops _

/-- After any history: `tau`, `omega` and `NormBRDF` are the assigned ones, and a function with a numeric version is evaluated with the current
parameters. -/
theorem C115_always (W : Classes Cls Par E C L A Y) (ops : List (Op Cls Par S A)) :
    (∀ i, (step W (exec W (init : State Cls Par S E C L) ops).2 (.scal i : Op Cls Par S A)).1 =
      expected W (afterAll (fun _ => none) ops) (.scal i)) ∧
    ∀ i keys arg, (∀ o, afterAll (fun _ => none) ops i = some o → W.numeric o.cls ≠ none) →
      (step W (exec W (init : State Cls Par S E C L) ops).2 (.p i keys arg)).1 = expected W (afterAll (fun _ => none) ops) (.p i keys arg) := by
  have ho := exec_objs W ops (init : State Cls Par S E C L)
  refine ⟨fun i => ?_, fun i keys arg hn => ?_⟩
  · dsimp only [step, expected, onObj]
    rw [ho]
    cases h : afterAll (init : State Cls Par S E C L).objs ops i with
    | none => have h' : afterAll (fun _ => none) ops i = none := h
              rw [h']; rfl
    | some o => have h' : afterAll (fun _ => none) ops i = some o := h
                rw [h']; rfl
  · dsimp only [step, expected, onObj]
    rw [ho]
    cases h : afterAll (init : State Cls Par S E C L).objs ops i with
    | none => have h' : afterAll (fun _ => none) ops i = none := h
              rw [h']; rfl
    | some o =>
      have h' : afterAll (fun _ => none) ops i = some o := h
      rw [h']
      dsimp only [Option.elim]
      unfold callP valueOf
      cases hw : W.numeric o.cls with
      | none => exact absurd hw (hn o h')
      | some f => rfl

/-- The caches never have more than 128 entries. -/
theorem C115_size (W : Classes Cls Par E C L A Y) (ops : List (Op Cls Par S A)) :
    (∀ c, ((exec W (init : State Cls Par S E C L) ops).2.funcs c).length ≤ 128) ∧
    (∀ c, ((exec W (init : State Cls Par S E C L) ops).2.legs c).length ≤ 128) ∧
    ∀ b, ((exec W (init : State Cls Par S E C L) ops).2.lams b).length ≤ 128 := by
  have touch : ∀ {K V : Type} [DecidableEq K] (c : Lru K V) k v v', c.find k = some v → c.length ≤ 128 → (c.touch k v').length ≤ 128 := by
    intro K V _ c k v v' hf hl
    have hm := find_mem hf
    unfold Lru.touch
    rw [List.length_cons]
    have : (List.filter (fun e : K × V => decide (e.1 ≠ k)) c).length < c.length := by
      rw [List.length_filter_lt_length_iff_exists]
      exact ⟨(k, v), hm, by simp⟩
    omega
  have insert : ∀ {K V : Type} (c : Lru K V) k v, (c.insert maxsize k v).length ≤ 128 := by
    intro K V c k v
    unfold Lru.insert maxsize
    rw [List.length_take]; omega
  have rf : ∀ (s : State Cls Par S E C L) i o, (∀ c, (s.funcs c).length ≤ 128) → ∀ c, ((readFunc W s i o).2.funcs c).length ≤ 128 := by
    intro s i o h c
    unfold readFunc
    cases hf : (s.funcs o.cls).find i with
    | some e =>
      dsimp only
      by_cases hc : c = o.cls
      · rw [if_pos hc]; subst hc; exact touch _ _ _ _ hf (h _)
      · rw [if_neg hc]; exact h c
    | none =>
      dsimp only
      by_cases hc : c = o.cls
      · rw [if_pos hc]; exact insert _ _ _
      · rw [if_neg hc]; exact h c
  have rfl' : ∀ (s : State Cls Par S E C L) i o, (readFunc W s i o).2.legs = s.legs ∧ (readFunc W s i o).2.lams = s.lams := by
    intro s i o; unfold readFunc; cases (s.funcs o.cls).find i <;> exact ⟨rfl, rfl⟩
  suffices h : ∀ (ops : List (Op Cls Par S A)) (s : State Cls Par S E C L),
      ((∀ c, (s.funcs c).length ≤ 128) ∧ (∀ c, (s.legs c).length ≤ 128) ∧ ∀ b, (s.lams b).length ≤ 128) →
      ((∀ c, ((exec W s ops).2.funcs c).length ≤ 128) ∧ (∀ c, ((exec W s ops).2.legs c).length ≤ 128) ∧
        ∀ b, ((exec W s ops).2.lams b).length ≤ 128) from
    h ops init ⟨fun _ => Nat.zero_le _, fun _ => Nat.zero_le _, fun _ => Nat.zero_le _⟩
  intro ops
  induction ops with
  | nil => intro s h; exact h
  | cons op ops ih =>
    intro s h
    unfold exec
    apply ih
    clear ih
    obtain ⟨h1, h2, h3⟩ := h
    cases op with
    | new i o => dsimp only [step]; cases s.objs i <;> exact ⟨h1, h2, h3⟩
    | set i par => dsimp only [step, onObj]; cases s.objs i <;> exact ⟨h1, h2, h3⟩
    | setScal i par => dsimp only [step, onObj]; cases s.objs i <;> exact ⟨h1, h2, h3⟩
    | scal i => dsimp only [step, onObj]; cases s.objs i <;> exact ⟨h1, h2, h3⟩
    | func i =>
      dsimp only [step, onObj]
      cases s.objs i with
      | none => exact ⟨h1, h2, h3⟩
      | some o => exact ⟨rf s i o h1, by dsimp only; rw [(rfl' s i o).1]; exact h2, by dsimp only; rw [(rfl' s i o).2]; exact h3⟩
    | diff i n keys arg =>
      dsimp only [step, onObj, callDiff]
      cases s.objs i with
      | none => exact ⟨h1, h2, h3⟩
      | some o => exact ⟨rf s i o h1, by dsimp only; rw [(rfl' s i o).1]; exact h2, by dsimp only; rw [(rfl' s i o).2]; exact h3⟩
    | legcoefs i =>
      dsimp only [step, onObj]
      cases s.objs i with
      | none => exact ⟨h1, h2, h3⟩
      | some o =>
        dsimp only
        unfold readLeg
        cases hf : (s.legs o.cls).find i with
        | some e =>
          refine ⟨h1, fun c => ?_, h3⟩
          dsimp only
          by_cases hc : c = o.cls
          · rw [if_pos hc]; subst hc; exact touch _ _ _ _ hf (h2 _)
          · rw [if_neg hc]; exact h2 c
        | none =>
          refine ⟨h1, fun c => ?_, h3⟩
          dsimp only
          by_cases hc : c = o.cls
          · rw [if_pos hc]; exact insert _ _ _
          · rw [if_neg hc]; exact h2 c
    | p i keys arg =>
      dsimp only [step, onObj]
      cases s.objs i with
      | none => exact ⟨h1, h2, h3⟩
      | some o =>
        dsimp only
        unfold callP
        cases W.numeric o.cls with
        | some f => exact ⟨h1, h2, h3⟩
        | none =>
          dsimp only
          unfold readLam
          cases hf : (s.lams (W.volume o.cls)).find (i, keys) with
          | some e =>
            refine ⟨h1, h2, fun b => ?_⟩
            dsimp only
            by_cases hb : b = W.volume o.cls
            · rw [if_pos hb]; subst hb; exact touch _ _ _ _ hf (h3 _)
            · rw [if_neg hb]; exact h3 b
          | none =>
            refine ⟨rf s i o h1, by dsimp only; rw [(rfl' s i o).1]; exact h2, fun b => ?_⟩
            dsimp only
            by_cases hb : b = W.volume o.cls
            · rw [if_pos hb]; exact insert _ _ _
            · rw [if_neg hb, (rfl' s i o).2]; exact h3 b

/-! ## Violations -/

/-- A function without numeric version: after an evaluation, assigning a new parameter has no effect. -/
theorem C115_stale_fails (W : Classes Cls Par E C L A Y) (i : Nat) (o : Obj Cls Par S) (hn : W.numeric o.cls = none) (par : Par)
    (keys : List String) (a b : A) :
    (exec W (init : State Cls Par S E C L) [.new i o, .p i keys a, .set i par, .p i keys b, .func i]).1 =
      [.none, .val (valueOf W o.cls o.par keys a), .none, .val (valueOf W o.cls o.par keys b), .expr (W.expr o.cls o.par)] := by
  simp [exec, step, onObj, setObj, init, callP, readLam, readFunc, hn, Lru.find, Lru.insert, Lru.touch, maxsize, valueOf]

/-- A function with numeric version: after an assignment the values belong to the new parameter, the legendre coefficients (and the derivatives)
to the old one. -/
theorem C115_mixed_fails (W : Classes Cls Par E C L A Y) (i : Nat) (o : Obj Cls Par S) (hn : W.numeric o.cls ≠ none) (par : Par)
    (keys : List String) (a : A) (n : Nat) :
    (exec W (init : State Cls Par S E C L) [.new i o, .legcoefs i, .func i, .set i par, .p i keys a, .legcoefs i, .diff i n keys a]).1 =
      [.none, .coefs (W.coefs o.cls o.par), .expr (W.expr o.cls o.par), .none, .val (valueOf W o.cls par keys a),
        .coefs (W.coefs o.cls o.par), .val (W.run (W.lambdify keys (W.diff n (W.expr o.cls o.par))) a)] := by
  obtain ⟨f, hf⟩ := Option.ne_none_iff_exists'.1 hn
  simp [exec, step, onObj, setObj, init, callP, callDiff, readFunc, readLeg, hf, Lru.find, Lru.insert, maxsize, valueOf]

/-- Other objects of the same class are created and evaluated. -/
def others (i : Nat) (o : Obj Cls Par S) (n : Nat) : List (Op Cls Par S A) :=
  (List.range n).flatMap fun k => [.new (i + 1 + k) o, .func (i + 1 + k)]

theorem exec_append (W : Classes Cls Par E C L A Y) : ∀ (xs ys : List (Op Cls Par S A)) (s : State Cls Par S E C L),
    exec W s (xs ++ ys) = ((exec W s xs).1 ++ (exec W (exec W s xs).2 ys).1, (exec W (exec W s xs).2 ys).2)
  | [], _, _ => rfl
  | op :: xs, ys, s => by
    show exec W s (op :: (xs ++ ys)) = _
    rw [exec, exec_append W xs ys]
    rfl

/-- Whether the assignment has an effect depends on the number of other objects that have been evaluated: with 128 of them the function is that of
the new parameter. -/
theorem C115_evict_fails (W : Classes Cls Par E C L A Y) (i : Nat) (o : Obj Cls Par S) (par : Par) (n : Nat) :
    (step W (exec W (init : State Cls Par S E C L) ([.new i o, .func i, .set i par] ++ others i o n)).2 (.func i : Op Cls Par S A)).1 =
      if n < 128 then .expr (W.expr o.cls o.par) else .expr (W.expr o.cls par) := by
  have key : ∀ n, let s := (exec W (init : State Cls Par S E C L) (([.new i o, .func i, .set i par] : List (Op Cls Par S A)) ++ others i o n)).2
      s.objs i = some { o with par := par } ∧ (∀ k, n ≤ k → s.objs (i + 1 + k) = none) ∧
        s.funcs o.cls = List.take 128 (((List.range n).reverse.map fun k => (i + 1 + k, W.expr o.cls o.par)) ++ [(i, W.expr o.cls o.par)]) := by
    intro n
    induction n with
    | zero =>
      refine ⟨?_, fun k _ => ?_, ?_⟩
      · simp [others, exec, step, onObj, setObj, init, readFunc, Lru.find]
      · have : i + 1 + k ≠ i := by omega
        simp [others, exec, step, onObj, setObj, init, readFunc, Lru.find, this]
      · simp [others, exec, step, onObj, setObj, init, readFunc, Lru.find, Lru.insert, maxsize]
    | succ n ih =>
      obtain ⟨h1, h2, h3⟩ := ih
      have ho : ([.new i o, .func i, .set i par] : List (Op Cls Par S A)) ++ others i o (n + 1) =
          (([.new i o, .func i, .set i par] : List (Op Cls Par S A)) ++ others i o n) ++ [.new (i + 1 + n) o, .func (i + 1 + n)] := by
        unfold others
        rw [List.range_succ, List.flatMap_append, List.append_assoc]
        simp
      rw [ho]
      rw [exec_append]
      generalize hs : (exec W (init : State Cls Par S E C L) (([.new i o, .func i, .set i par] : List (Op Cls Par S A)) ++ others i o n)).2 = s at h1 h2 h3
      dsimp only
      have hn := h2 n (le_refl n)
      have hnone : (s.funcs o.cls).find (i + 1 + n) = none := by
        unfold Lru.find
        rw [h3, Option.map_eq_none_iff, List.find?_eq_none]
        intro x hx
        have hx := List.mem_of_mem_take hx
        rw [List.mem_append] at hx
        rcases hx with hx | hx
        · obtain ⟨k, hk, rfl⟩ := List.mem_map.1 hx
          rw [List.mem_reverse, List.mem_range] at hk
          simp only [decide_eq_true_eq]; omega
        · rw [List.mem_singleton.1 hx]
          simp only [decide_eq_true_eq]; omega
      have e1 : (exec W s ([.new (i + 1 + n) o, .func (i + 1 + n)] : List (Op Cls Par S A))).2 =
          { setObj s (i + 1 + n) o with funcs := fun c => if c = o.cls then (s.funcs c).insert maxsize (i + 1 + n) (W.expr o.cls o.par) else s.funcs c } := by
        simp only [exec, step, hn, onObj, setObj, if_true, readFunc, hnone]
      rw [e1]
      refine ⟨?_, fun k hk => ?_, ?_⟩
      · simp only [setObj]
        rw [if_neg (by omega)]; exact h1
      · simp only [setObj]
        rw [if_neg (by omega)]; exact h2 k (by omega)
      · dsimp only
        rw [if_pos rfl, h3]
        unfold Lru.insert maxsize
        rw [List.range_succ, List.reverse_append, List.reverse_singleton, List.singleton_append, List.map_cons, List.cons_append]
        rw [List.take_succ_cons (i := 127), List.take_succ_cons (i := 127), List.take_take, min_eq_left (by omega)]
  obtain ⟨h1, _, h3⟩ := key n
  generalize hs : (exec W (init : State Cls Par S E C L) (([.new i o, .func i, .set i par] : List (Op Cls Par S A)) ++ others i o n)).2 = s at h1 h3
  dsimp only [step, onObj]
  rw [h1]
  dsimp only
  have hfind : (s.funcs o.cls).find i = if n < 128 then some (W.expr o.cls o.par) else none := by
    unfold Lru.find
    rw [h3]
    by_cases hn : n < 128
    · rw [if_pos hn, List.take_of_length_le (by simp; omega), List.find?_append]
      have : List.find? (fun e : Nat × E => decide (e.1 = i)) (List.map (fun k => (i + 1 + k, W.expr o.cls o.par)) (List.range n).reverse) = none := by
        rw [List.find?_eq_none]
        intro x hx
        obtain ⟨k, _, rfl⟩ := List.mem_map.1 hx
        simp only [decide_eq_true_eq]; omega
      rw [this]
      simp
    · rw [if_neg hn, Option.map_eq_none_iff, List.find?_eq_none]
      intro x hx
      rw [List.take_append_of_le_length (by simp; omega)] at hx
      obtain ⟨k, _, rfl⟩ := List.mem_map.1 (List.mem_of_mem_take hx)
      simp only [decide_eq_true_eq]; omega
  unfold readFunc
  dsimp only
  rw [hfind]
  by_cases hn : n < 128
  · rw [if_pos hn, if_pos hn]
  · rw [if_neg hn, if_neg hn]

/-! ## Examples -/

/-- Two classes: with (true) and without (false) numeric version; the function is `t * x`, the coefficient `t`. -/
def exW : Classes Bool Int (Int × Nat) Int (Int × Nat) Int Int where
  volume := fun _ => true
  expr := fun _ t => (t, 0)
  coefs := fun _ t => t
  numeric := fun c => if c then some fun t _ x => t * x else none
  lambdify := fun _ e => e
  run := fun l x => if l.2 = 0 then l.1 * x else if l.2 = 1 then l.1 else 0
  diff := fun n e => (e.1, e.2 + n)

def exOps : List (Op Bool Int Int Int) :=
  [.new 0 ⟨false, 2, 0⟩, .new 1 ⟨true, 3, 0⟩, .set 0 5, .p 0 [] 10, .setScal 0 4, .p 1 [] 10, .diff 0 1 [] 10, .legcoefs 1, .scal 0]

example : Fixed exOps := by
  intro pre post i par he op hop hr
  have hlen : ∃ n, n < exOps.length ∧ exOps[n]? = some (.set i par) ∧ pre = exOps.take n := by
    refine ⟨pre.length, ?_, ?_, ?_⟩
    · rw [he]; simp
    · rw [he]; simp
    · rw [he]; simp
  obtain ⟨n, hn, h1, rfl⟩ := hlen
  have hn : n < 9 := hn
  interval_cases n <;> simp [exOps] at h1
  obtain ⟨rfl, rfl⟩ := h1
  simp [exOps] at hop
  rcases hop with rfl | rfl <;> exact hr

example : (exec exW (init : State Bool Int Int (Int × Nat) Int (Int × Nat)) exOps).1 =
    [.none, .none, .none, .val 50, .none, .val 30, .val 5, .coefs 3, .scal 4] := by
  simp [exec, step, onObj, setObj, init, callP, callDiff, readLam, readFunc, readLeg, Lru.find, Lru.insert, Lru.touch, maxsize, exOps, exW]

/-- The stale value of `p` differs from the value for the current parameter. -/
example : exW.numeric false = none ∧ valueOf exW false 2 [] 10 ≠ valueOf exW false 5 [] 10 := ⟨rfl, by decide⟩
example : exW.numeric true ≠ none ∧ exW.coefs true 2 ≠ exW.coefs true 5 := ⟨by simp [exW], by decide⟩

end PhaseCache
end RT1
