import Verif.Model.RT1Init
import Mathlib.Tactic.NormNum

/-!
# RT1 objects are created for valid parameters only (C129)
-/

namespace RT1.Init
open General

/-- Specification: a non-negative number. -/
def NonNeg (x : Option ℝ) : Prop := ∃ y, x = some y ∧ 0 ≤ y

/-- Specification: all elements are non-negative numbers, constants too; nothing can be said about other expressions. -/
def Valid : Val → Prop
  | .none => False
  | .symbolic c => ∀ x, c = some x → 0 ≤ x
  | .scalar x => NonNeg x
  | .array xs => xs ≠ [] ∧ ∀ x ∈ xs, NonNeg x
  | .plain _ => False

/-- Specification: the arguments of an object. -/
def Good (a : Args) : Prop :=
  (∃ g, a.geometry = some g ∧ g.length = 4) ∧ (∃ v, a.V = some v ∧ Valid v.1 ∧ Valid v.2) ∧ ∃ n, a.SRF = some n ∧ Valid n

/-- Values for which the checks are right: no lists, no constant expressions, arrays without mixed signs. -/
def Plain : Val → Prop
  | .none => True
  | .symbolic c => c = none
  | .scalar _ => True
  | .array xs => (∀ x ∈ xs, NonNeg x) ∨ ∀ x ∈ xs, ¬ NonNeg x
  | .plain _ => False

theorem nonneg_iff (x : Option ℝ) : nonneg x = true ↔ NonNeg x := by
  cases x with
  | none => simp [nonneg, NonNeg]
  | some x => simp [nonneg, NonNeg]

theorem check_ok (v : Val) (hp : Plain v) (h : Valid v) : check v = .ok () := by
  cases v with
  | none => exact h.elim
  | symbolic c => rfl
  | scalar x => exact if_pos ((nonneg_iff x).2 h)
  | array xs =>
    refine if_pos ?_
    obtain ⟨x, hx⟩ := List.exists_mem_of_ne_nil xs h.1
    exact List.any_eq_true.2 ⟨x, hx, (nonneg_iff x).2 (h.2 x hx)⟩
  | plain xs => exact hp.elim

theorem check_err (v : Val) (hp : Plain v) (hn : v ≠ .none) (h : ¬ Valid v) : check v = .error .assertionError := by
  cases v with
  | none => exact absurd rfl hn
  | symbolic c =>
    have hc : c = none := hp
    subst hc
    exact absurd (fun x hx => by cases hx) h
  | scalar x => exact if_neg fun e => h ((nonneg_iff x).1 e)
  | array xs =>
    refine if_neg fun e => ?_
    obtain ⟨x, hx, hx2⟩ := List.any_eq_true.1 e
    rcases hp with hp | hp
    · exact h ⟨List.ne_nil_of_mem hx, hp⟩
    · exact hp x hx ((nonneg_iff x).1 hx2)
  | plain xs => exact hp.elim

theorem given_ok (v : Val) (h : v ≠ .none) : given v = .ok () := by
  cases v with
  | none => exact absurd rfl h
  | _ => rfl

theorem create_some (g : List Char) (hg : g.length = 4) (v : Val × Val) (n : Val) (h1 : v.1 ≠ .none) (h2 : v.2 ≠ .none) :
    create ⟨some g, some v, some n⟩ = (do check v.1; check v.2; check n) := by
  unfold create checkGeometry
  dsimp only
  rw [if_pos hg]
  dsimp only
  rw [given_ok _ h1, given_ok _ h2]
  rfl

/-- Numbers, expressions with symbols, and arrays without mixed signs: valid arguments are accepted, all others raise AssertionError. -/
theorem C129_checked_partial (a : Args) (hV : ∀ v, a.V = some v → Plain v.1 ∧ Plain v.2) (hS : ∀ n, a.SRF = some n → Plain n ∧ n ≠ .none) :
    (Good a → create a = .ok ()) ∧ (¬ Good a → create a = .error .assertionError) := by
  obtain ⟨geo, V, SRF⟩ := a
  constructor
  · rintro ⟨⟨g, h1, h2⟩, ⟨v, h3, h4, h5⟩, n, h6, h7⟩
    dsimp only at h1 h3 h6
    subst h1 h3 h6
    rw [create_some g h2 v n (fun e => by rw [e] at h4; exact h4) (fun e => by rw [e] at h5; exact h5), check_ok _ (hV v rfl).1 h4,
      check_ok _ (hV v rfl).2 h5, check_ok _ (hS n rfl).1 h7]
    rfl
  · intro h
    cases geo with
    | none => rfl
    | some g =>
      by_cases hg : g.length = 4
      · cases V with
        | none => unfold create checkGeometry; dsimp only; rw [if_pos hg]
        | some v =>
          cases SRF with
          | none => unfold create checkGeometry; dsimp only; rw [if_pos hg]
          | some n =>
            obtain ⟨p1, p2⟩ := hV v rfl
            obtain ⟨p3, p4⟩ := hS n rfl
            by_cases n1 : v.1 = .none
            · unfold create checkGeometry; dsimp only; rw [if_pos hg]; dsimp only; rw [n1]; rfl
            by_cases n2 : v.2 = .none
            · unfold create checkGeometry; dsimp only; rw [if_pos hg]; dsimp only; rw [n2, given_ok _ n1]; rfl
            rw [create_some g hg v n n1 n2]
            by_cases v1 : Valid v.1
            · rw [check_ok _ p1 v1]
              by_cases v2 : Valid v.2
              · rw [check_ok _ p2 v2]
                have v3 : ¬ Valid n := fun v3 => h ⟨⟨g, rfl, hg⟩, ⟨v, rfl, v1, v2⟩, n, rfl, v3⟩
                rw [check_err _ p3 p4 v3]
                rfl
              · rw [check_err _ p2 n2 v2]
                rfl
            · rw [check_err _ p1 n1 v1]
              rfl
      · unfold create checkGeometry; dsimp only; rw [if_neg hg]

/-- One non-negative element is sufficient: all other elements of the arrays may be negative or nan. -/
theorem C129_array_fails (g : List Char) (hg : g.length = 4) (o t n : List (Option ℝ)) (ho : ∃ x ∈ o, NonNeg x) (ht : ∃ x ∈ t, NonNeg x)
    (hn : ∃ x ∈ n, NonNeg x) : create ⟨some g, some (.array o, .array t), some (.array n)⟩ = .ok () := by
  have h : ∀ xs : List (Option ℝ), (∃ x ∈ xs, NonNeg x) → check (.array xs) = .ok () := by
    rintro xs ⟨x, hx, hx2⟩
    exact if_pos (List.any_eq_true.2 ⟨x, hx, (nonneg_iff x).2 hx2⟩)
  rw [create_some g hg _ _ (fun e => by cases e) (fun e => by cases e), h o ho, h t ht, h n hn]
  rfl

/-- Negative constants are accepted as expressions. -/
theorem C129_symbolic_fails (g : List Char) (hg : g.length = 4) (o t n : Option ℝ) :
    create ⟨some g, some (.symbolic o, .symbolic t), some (.symbolic n)⟩ = .ok () := by
  rw [create_some g hg _ _ (fun e => by cases e) (fun e => by cases e)]
  rfl

/-- Lists are rejected with TypeError. -/
theorem C129_list (g : List Char) (hg : g.length = 4) (o : List (Option ℝ)) (t n : Val) (ht : t ≠ .none) :
    create ⟨some g, some (.plain o, t), some n⟩ = .error .typeError := by
  rw [create_some g hg _ _ (fun e => by cases e) ht]
  rfl

/-- `NormBRDF=None` raises TypeError, while missing `omega` or `tau` raise AssertionError. -/
theorem C129_norm (g : List Char) (hg : g.length = 4) (o t : Val) (ho : Plain o ∧ Valid o) (ht : Plain t ∧ Valid t) :
    create ⟨some g, some (o, t), some .none⟩ = .error .typeError := by
  rw [create_some g hg _ _ (fun e => by dsimp only at e; rw [e] at ho; exact ho.2) (fun e => by dsimp only at e; rw [e] at ht; exact ht.2), check_ok _ ho.1 ho.2, check_ok _ ht.1 ht.2]
  rfl

/-- The property is violated: accepted arguments that are not valid. -/
theorem C129_accepted_fails : ∃ a, create a = .ok () ∧ ¬ Good a := by
  refine ⟨⟨some "mono".toList, some (.array [some 1, some (-1)], .array [some 1]), some (.array [some 1])⟩, ?_, ?_⟩
  · exact C129_array_fails _ rfl _ _ _ ⟨some 1, by simp, 1, rfl, by norm_num⟩ ⟨some 1, by simp, 1, rfl, by norm_num⟩ ⟨some 1, by simp, 1, rfl, by norm_num⟩
  · rintro ⟨-, ⟨v, h, hv, -⟩, -⟩
    cases h
    obtain ⟨y, hy, h0⟩ := hv.2 (some (-1)) (by simp)
    cases hy
    norm_num at h0

example : Good ⟨some "mono".toList, some (.array [some 1, some 0], .symbolic none), some (.scalar (some 2))⟩ ∧
    Plain (.array [some 1, some 0]) ∧ Plain (.array [some (-1), none]) := by
  refine ⟨⟨⟨_, rfl, rfl⟩, ⟨_, rfl, ⟨by simp, ?_⟩, fun x hx => by cases hx⟩, _, rfl, 2, rfl, by norm_num⟩, .inl ?_, .inr ?_⟩
  · intro x hx
    simp only [List.mem_cons, List.not_mem_nil, or_false] at hx
    rcases hx with rfl | rfl
    · exact ⟨1, rfl, by norm_num⟩
    · exact ⟨0, rfl, le_rfl⟩
  · intro x hx
    simp only [List.mem_cons, List.not_mem_nil, or_false] at hx
    rcases hx with rfl | rfl
    · exact ⟨1, rfl, by norm_num⟩
    · exact ⟨0, rfl, le_rfl⟩
  · intro x hx
    simp only [List.mem_cons, List.not_mem_nil, or_false] at hx
    rcases hx with rfl | rfl
    · rintro ⟨y, hy, h0⟩
      cases hy
      norm_num at h0
    · rintro ⟨y, hy, -⟩
      cases hy

end RT1.Init
