import Verif.Model.Arrays

/-!
# Broadcasting: specification and calculus
-/

namespace RT1.Arrays
open General

/-! ### specification of broadcasting -/

/-- An array of shape `s` can be broadcast to the shape `S` (missing axes have length one). -/
def Le (s S : Shape) : Prop := s.length ≤ S.length ∧ ∀ a, s.getD a 1 = 1 ∨ s.getD a 1 = S.getD a 1

/-- `S` is the common shape of the shapes `ss`: all of them can be broadcast to `S`, `S` has no additional axes, and the length of each
axis is that of one of the shapes. -/
structure Bc (ss : List Shape) (S : Shape) : Prop where
  le : ∀ s ∈ ss, Le s S
  rank : ∀ r, (∀ s ∈ ss, s.length ≤ r) → S.length ≤ r
  attained : ∀ a, S.getD a 1 ≠ 1 → ∃ s ∈ ss, s.getD a 1 = S.getD a 1

/-- There is a shape to which all shapes can be broadcast. -/
def Compatible (ss : List Shape) : Prop := ∃ W, ∀ s ∈ ss, Le s W

/-! ### shapes -/

theorem Le.refl (s : Shape) : Le s s := ⟨le_refl _, fun _ => Or.inr rfl⟩

theorem Le.trans {s t u : Shape} (h : Le s t) (h' : Le t u) : Le s u := by
  refine ⟨h.1.trans h'.1, fun a => ?_⟩
  rcases h.2 a with h1 | h1
  · exact Or.inl h1
  · rw [h1]; exact h'.2 a

theorem bshape_spec : ∀ {s t u : Shape}, bshape s t = .ok u →
    u.length = max s.length t.length ∧ ∀ a, u.getD a 1 = if s.getD a 1 = 1 then t.getD a 1 else s.getD a 1
  | [], t, u, h => by cases h; simp
  | a :: s, [], u, h => by
    cases h
    refine ⟨by simp, fun k => ?_⟩
    split
    · rename_i h1; rw [h1]; simp
    · rfl
  | a :: s, b :: t, u, h => by
    unfold bshape at h
    cases hr : bshape s t with
    | error e => rw [hr] at h; cases h
    | ok r =>
      rw [hr] at h
      obtain ⟨h1, h2⟩ := bshape_spec hr
      dsimp only at h
      split at h
      · cases h
        subst_vars
        refine ⟨by simp [h1], fun k => ?_⟩
        cases k with
        | zero => simp
        | succ k => simpa using h2 k
      · split at h
        · cases h
          subst_vars
          refine ⟨by simp [h1], fun k => ?_⟩
          cases k with
          | zero => simp
          | succ k => simpa using h2 k
        · split at h
          · cases h
            rename_i h3 h4 h5
            refine ⟨by simp [h1], fun k => ?_⟩
            cases k with
            | zero => simp [h4]
            | succ k => simpa using h2 k
          · cases h

theorem bshape_compat : ∀ {s t : Shape}, (∀ a, s.getD a 1 = 1 ∨ t.getD a 1 = 1 ∨ s.getD a 1 = t.getD a 1) →
    ∃ u, bshape s t = .ok u
  | [], t, _ => ⟨t, rfl⟩
  | a :: s, [], _ => ⟨a :: s, rfl⟩
  | a :: s, b :: t, h => by
    obtain ⟨u, hu⟩ := bshape_compat (s := s) (t := t) fun k => by simpa using h (k + 1)
    unfold bshape
    rw [hu]
    have h0 := h 0
    simp only [List.getD_cons_zero] at h0
    dsimp only
    split
    · exact ⟨_, rfl⟩
    · split
      · exact ⟨_, rfl⟩
      · split
        · exact ⟨_, rfl⟩
        · omega

theorem bshape_error : ∀ {s t : Shape} {e : PyErr}, bshape s t = .error e → e = .valueError
  | [], t, e, h => by cases h
  | a :: s, [], e, h => by cases h
  | a :: s, b :: t, e, h => by
    unfold bshape at h
    cases hr : bshape s t with
    | error e' =>
      rw [hr] at h
      cases h
      exact bshape_error hr
    | ok r =>
      rw [hr] at h
      dsimp only at h
      split at h
      · cases h
      · split at h
        · cases h
        · split at h
          · cases h
          · cases h; rfl

theorem Bc.ext {ss : List Shape} {S T : Shape} (h : Bc ss S) (h' : Bc ss T) : S = T := by
  have hl : S.length = T.length :=
    le_antisymm (h.rank _ fun s hs => (h'.le s hs).1) (h'.rank _ fun s hs => (h.le s hs).1)
  have key : ∀ {S T : Shape}, Bc ss S → Bc ss T → ∀ a, S.getD a 1 ≠ 1 → S.getD a 1 = T.getD a 1 := by
    intro S T h h' a ha
    obtain ⟨s, hs, e⟩ := h.attained a ha
    rcases (h'.le s hs).2 a with h1 | h1
    · rw [e] at h1; exact absurd h1 ha
    · rw [← e, h1]
  apply List.ext_getElem hl
  intro a ha ha'
  have e1 : S.getD a 1 = S[a] := by simp [List.getD_eq_getElem?_getD, ha]
  have e2 : T.getD a 1 = T[a] := by simp [List.getD_eq_getElem?_getD, ha']
  rw [← e1, ← e2]
  by_cases h1 : S.getD a 1 = 1
  · by_cases h2 : T.getD a 1 = 1
    · rw [h1, h2]
    · exact (key h' h a h2).symm
  · exact key h h' a h1

theorem Bc.congr {ss tt : List Shape} {S : Shape} (h : Bc ss S) (he : ∀ s, s ∈ ss ↔ s ∈ tt) : Bc tt S :=
  ⟨fun s hs => h.le s ((he s).2 hs), fun r hr => h.rank r fun s hs => hr s ((he s).1 hs),
    fun a ha => by obtain ⟨s, hs, e⟩ := h.attained a ha; exact ⟨s, (he s).1 hs, e⟩⟩

theorem bc_single (s : Shape) : Bc [s] s :=
  ⟨by simp [Le.refl], fun r hr => hr s (by simp), fun a _ => ⟨s, by simp, rfl⟩⟩

theorem bc_nil : Bc [] [] := ⟨by simp, fun r _ => by simp, fun a ha => by simp at ha⟩

theorem Bc.below {ss : List Shape} {S W : Shape} (h : Bc ss S) (hW : ∀ s ∈ ss, Le s W) : Le S W := by
  refine ⟨h.rank _ fun s hs => (hW s hs).1, fun a => ?_⟩
  by_cases ha : S.getD a 1 = 1
  · exact Or.inl ha
  · obtain ⟨s, hs, e⟩ := h.attained a ha
    rcases (hW s hs).2 a with h1 | h1
    · rw [e] at h1; exact absurd h1 ha
    · right; rw [← e, h1]

theorem bshape_bc {ss tt : List Shape} {S T : Shape} (hs : Bc ss S) (ht : Bc tt T) (hc : Compatible (ss ++ tt)) :
    ∃ U, bshape S T = .ok U ∧ Bc (ss ++ tt) U := by
  obtain ⟨W, hW⟩ := hc
  have h1 := hs.below fun s h => hW s (by simp [h])
  have h2 := ht.below fun s h => hW s (by simp [h])
  have hcomp : ∀ a, S.getD a 1 = 1 ∨ T.getD a 1 = 1 ∨ S.getD a 1 = T.getD a 1 := by
    intro a
    rcases h1.2 a with h | h
    · exact Or.inl h
    · rcases h2.2 a with h' | h'
      · exact Or.inr (Or.inl h')
      · right; right; rw [h, h']
  obtain ⟨U, hU⟩ := bshape_compat hcomp
  obtain ⟨hl, hg⟩ := bshape_spec hU
  have hSU : Le S U := by
    refine ⟨by omega, fun a => ?_⟩
    by_cases h : S.getD a 1 = 1
    · exact Or.inl h
    · right; rw [hg a, if_neg h]
  have hTU : Le T U := by
    refine ⟨by omega, fun a => ?_⟩
    by_cases h : S.getD a 1 = 1
    · right; rw [hg a, if_pos h]
    · rcases hcomp a with h' | h' | h'
      · exact absurd h' h
      · exact Or.inl h'
      · right; rw [hg a, if_neg h, h']
  refine ⟨U, hU, fun s h => ?_, fun r hr => ?_, fun a ha => ?_⟩
  · rcases List.mem_append.1 h with h | h
    · exact (hs.le s h).trans hSU
    · exact (ht.le s h).trans hTU
  · have := hs.rank r fun s h => hr s (by simp [h])
    have := ht.rank r fun s h => hr s (by simp [h])
    omega
  · rw [hg a] at ha
    split at ha
    · rename_i h
      obtain ⟨s, h3, h4⟩ := ht.attained a ha
      exact ⟨s, by simp [h3], by rw [h4, hg a, if_pos h]⟩
    · rename_i h
      obtain ⟨s, h3, h4⟩ := hs.attained a ha
      exact ⟨s, by simp [h3], by rw [h4, hg a, if_neg h]⟩

theorem Compatible.sub {ss tt : List Shape} (h : Compatible tt) (hs : ∀ s ∈ ss, s ∈ tt) : Compatible ss := by
  obtain ⟨W, hW⟩ := h
  exact ⟨W, fun s h => hW s (hs s h)⟩

/-! ### entries -/

theorem mask_mask {s S : Shape} (h : Le s S) (i : Idx) : mask s (mask S i) = mask s i := by
  funext a
  unfold mask
  by_cases h1 : s.getD a 1 = 1
  · rw [if_pos h1, if_pos h1]
  · rw [if_neg h1, if_neg h1]
    rcases h.2 a with h2 | h2
    · exact absurd h2 h1
    · rw [if_neg (by rw [← h2]; exact h1)]

theorem Arr.at_mask (A : Arr) {S : Shape} (h : Le A.shape S) (i : Idx) : A.at (mask S i) = A.at i := by
  unfold Arr.at
  rw [mask_mask h]

theorem Arr.at_update (A : Arr) {R : Nat} (h : A.shape.length ≤ R) (i : Idx) (n : Nat) : A.at (Function.update i R n) = A.at i := by
  unfold Arr.at
  congr 1
  funext a
  unfold mask
  by_cases ha : a = R
  · subst ha
    rw [List.getD_eq_getElem?_getD, List.getElem?_eq_none h]
    simp
  · rw [Function.update_of_ne ha]

/-- The value is an array with the common shape of `ss` and the entries `f`. -/
def Den (x : NpV) (ss : List Shape) (f : Idx → ℝ) : Prop :=
  ∃ A : Arr, x = .ok A ∧ Bc ss A.shape ∧ ∀ i, A.at i = f i

theorem den_lit (c : ℝ) : Den (lit c) [] fun _ => c := ⟨_, rfl, bc_nil, fun _ => rfl⟩

theorem den_arr (A : Arr) : Den (arr A) [A.shape] A.at := ⟨_, rfl, bc_single _, fun _ => rfl⟩

theorem Den.congr {x : NpV} {ss tt : List Shape} {f : Idx → ℝ} (h : Den x ss f) (he : ∀ s, s ∈ ss ↔ s ∈ tt) : Den x tt f := by
  obtain ⟨A, h1, h2, h3⟩ := h
  exact ⟨A, h1, h2.congr he, h3⟩

theorem den_map {x : NpV} {ss : List Shape} {f : Idx → ℝ} (g : ℝ → ℝ) (h : Den x ss f) : Den (mapV g x) ss fun i => g (f i) := by
  obtain ⟨A, rfl, h2, h3⟩ := h
  refine ⟨_, rfl, h2, fun i => ?_⟩
  show g (A.at (mask A.shape i)) = _
  rw [A.at_mask (Le.refl _), h3]

theorem den_zip {x y : NpV} {ss tt : List Shape} {f g : Idx → ℝ} (op : ℝ → ℝ → ℝ) (hx : Den x ss f) (hy : Den y tt g)
    (hc : Compatible (ss ++ tt)) : Den (zipV op x y) (ss ++ tt) fun i => op (f i) (g i) := by
  obtain ⟨A, rfl, h2, h3⟩ := hx
  obtain ⟨B, rfl, h5, h6⟩ := hy
  obtain ⟨U, hU, hbc⟩ := bshape_bc h2 h5 hc
  refine ⟨⟨U, fun i => op (A.at i) (B.at i)⟩, by unfold zipV; simp only [hU], hbc, fun i => ?_⟩
  show op (A.at (mask U i)) (B.at (mask U i)) = _
  have hA : Le A.shape U := h2.below fun s hs => hbc.le s (by simp [hs])
  have hB : Le B.shape U := h5.below fun s hs => hbc.le s (by simp [hs])
  rw [A.at_mask hA, B.at_mask hB, h3, h6]

theorem den_add {x y : NpV} {ss tt : List Shape} {f g : Idx → ℝ} (hx : Den x ss f) (hy : Den y tt g) (hc : Compatible (ss ++ tt)) :
    Den (x + y) (ss ++ tt) fun i => f i + g i := den_zip _ hx hy hc
theorem den_sub {x y : NpV} {ss tt : List Shape} {f g : Idx → ℝ} (hx : Den x ss f) (hy : Den y tt g) (hc : Compatible (ss ++ tt)) :
    Den (x - y) (ss ++ tt) fun i => f i - g i := den_zip _ hx hy hc
theorem den_mul {x y : NpV} {ss tt : List Shape} {f g : Idx → ℝ} (hx : Den x ss f) (hy : Den y tt g) (hc : Compatible (ss ++ tt)) :
    Den (x * y) (ss ++ tt) fun i => f i * g i := den_zip _ hx hy hc
theorem den_div {x y : NpV} {ss tt : List Shape} {f g : Idx → ℝ} (hx : Den x ss f) (hy : Den y tt g) (hc : Compatible (ss ++ tt)) :
    Den (x / y) (ss ++ tt) fun i => f i / g i := den_zip _ hx hy hc
theorem den_neg {x : NpV} {ss : List Shape} {f : Idx → ℝ} (hx : Den x ss f) : Den (-x) ss fun i => -f i := den_map _ hx

/-! ### stacked arrays -/

/-- A stack of `n` arrays with `R` axes. -/
def DenS (R n : Nat) (x : NpV) (ss : List Shape) (f : Nat → Idx → ℝ) : Prop :=
  ∃ (X : Arr) (S : Shape), x = .ok X ∧ X.shape = S ++ [n] ∧ S.length = R ∧ Bc ss S ∧
    ∀ i k, k < n → X.at (Function.update i R k) = f k i

theorem DenS.congr {R n : Nat} {x : NpV} {ss tt : List Shape} {f : Nat → Idx → ℝ} (h : DenS R n x ss f)
    (he : ∀ s, s ∈ ss ↔ s ∈ tt) : DenS R n x tt f := by
  obtain ⟨X, S, h1, h2, h3, h4, h5⟩ := h
  exact ⟨X, S, h1, h2, h3, h4.congr he, h5⟩

theorem bshape_append : ∀ {S H U : Shape} (n : Nat), bshape S H = .ok U → H.length ≤ S.length → bshape (S ++ [n]) H = .ok (U ++ [n])
  | [], [], U, n, h, _ => by cases h; rfl
  | [], _ :: _, U, n, h, hl => by simp at hl
  | a :: s, [], U, n, h, _ => by cases h; rfl
  | a :: s, b :: t, U, n, h, hl => by
    unfold bshape at h
    cases hr : bshape s t with
    | error e => rw [hr] at h; cases h
    | ok r =>
      rw [hr] at h
      have ih := bshape_append n hr (by simpa using hl)
      rw [List.cons_append]
      unfold bshape
      rw [ih]
      dsimp only at h ⊢
      split at h
      · cases h; rename_i h1; rw [if_pos h1]; rfl
      · split at h
        · cases h; rename_i h1 h2; rw [if_neg h1, if_pos h2]; rfl
        · split at h
          · cases h; rename_i h1 h2 h3; rw [if_neg h1, if_neg h2, if_pos h3]; rfl
          · cases h

theorem bshape_append₂ : ∀ {S T U : Shape} (n : Nat), bshape S T = .ok U → S.length = T.length →
    bshape (S ++ [n]) (T ++ [n]) = .ok (U ++ [n])
  | [], [], U, n, h, _ => by cases h; simp [bshape]
  | [], _ :: _, U, n, h, hl => by simp at hl
  | _ :: _, [], U, n, h, hl => by simp at hl
  | a :: s, b :: t, U, n, h, hl => by
    unfold bshape at h
    cases hr : bshape s t with
    | error e => rw [hr] at h; cases h
    | ok r =>
      rw [hr] at h
      have ih := bshape_append₂ n hr (by simpa using hl)
      rw [List.cons_append, List.cons_append]
      unfold bshape
      rw [ih]
      dsimp only at h ⊢
      split at h
      · cases h; rename_i h1; rw [if_pos h1]; rfl
      · split at h
        · cases h; rename_i h1 h2; rw [if_neg h1, if_pos h2]; rfl
        · split at h
          · cases h; rename_i h1 h2 h3; rw [if_neg h1, if_neg h2, if_pos h3]; rfl
          · cases h

theorem bshape_comm : ∀ s t : Shape, bshape s t = bshape t s
  | [], [] => rfl
  | [], _ :: _ => rfl
  | _ :: _, [] => rfl
  | a :: s, b :: t => by
    unfold bshape
    rw [bshape_comm s t]
    cases bshape t s with
    | error e => rfl
    | ok r =>
      dsimp only
      by_cases h : a = b
      · subst h; rfl
      · have h' : ¬ b = a := fun h' => h h'.symm
        by_cases h1 : a = 1 <;> by_cases h2 : b = 1 <;> simp [h, h', h1, h2] <;> omega

theorem getD_append_last (S : Shape) (n a : Nat) : (S ++ [n]).getD a 1 = if a = S.length then n else S.getD a 1 := by
  rw [List.getD_eq_getElem?_getD, List.getD_eq_getElem?_getD]
  by_cases h : a < S.length
  · rw [List.getElem?_append_left h, if_neg (by omega)]
  · rw [List.getElem?_append_right (by omega)]
    by_cases h1 : a = S.length
    · subst h1; simp
    · rw [if_neg h1, List.getElem?_eq_none (l := S) (by omega), List.getElem?_eq_none (by simp; omega)]

theorem le_append {s S : Shape} (h : Le s S) (n : Nat) : Le s (S ++ [n]) := by
  refine ⟨by have := h.1; simp; omega, fun a => ?_⟩
  rw [getD_append_last]
  by_cases ha : a = S.length
  · left
    rw [List.getD_eq_getElem?_getD, List.getElem?_eq_none (by have := h.1; omega)]
    rfl
  · rw [if_neg ha]; exact h.2 a

theorem le_append₂ {s S : Shape} (h : Le s S) (hl : s.length = S.length) (n : Nat) : Le (s ++ [n]) (S ++ [n]) := by
  refine ⟨by simp [hl], fun a => ?_⟩
  rw [getD_append_last, getD_append_last, hl]
  by_cases ha : a = S.length
  · rw [if_pos ha, if_pos ha]; right; rfl
  · rw [if_neg ha, if_neg ha]; exact h.2 a

theorem denS_zip {R n : Nat} {x y : NpV} {ss tt : List Shape} {f g : Nat → Idx → ℝ} (op : ℝ → ℝ → ℝ) (hx : DenS R n x ss f)
    (hy : DenS R n y tt g) (hc : Compatible (ss ++ tt)) : DenS R n (zipV op x y) (ss ++ tt) fun k i => op (f k i) (g k i) := by
  obtain ⟨X, S, rfl, h2, h3, h4, h5⟩ := hx
  obtain ⟨Y, T, rfl, k2, k3, k4, k5⟩ := hy
  obtain ⟨U, hU, hbc⟩ := bshape_bc h4 k4 hc
  have hap := bshape_append₂ n hU (by rw [h3, k3])
  obtain ⟨hl, -⟩ := bshape_spec hU
  have hUR : U.length = R := by omega
  have hX : Le X.shape (U ++ [n]) := by
    rw [h2]
    exact le_append₂ (h4.below fun s hs => hbc.le s (by simp [hs])) (by omega) n
  have hY : Le Y.shape (U ++ [n]) := by
    rw [k2]
    exact le_append₂ (k4.below fun s hs => hbc.le s (by simp [hs])) (by omega) n
  refine ⟨⟨U ++ [n], fun i => op (X.at i) (Y.at i)⟩, U, ?_, rfl, hUR, hbc, fun i k hk => ?_⟩
  · unfold zipV
    rw [← h2, ← k2] at hap
    simp only [hap]
  · show op (X.at (mask (U ++ [n]) _)) (Y.at (mask (U ++ [n]) _)) = _
    rw [X.at_mask hX, Y.at_mask hY, h5 i k hk, k5 i k hk]

theorem denS_zip_right {R n : Nat} {x y : NpV} {ss tt : List Shape} {f : Nat → Idx → ℝ} {g : Idx → ℝ} (op : ℝ → ℝ → ℝ)
    (hx : DenS R n x ss f) (hy : Den y tt g) (hR : ∀ t ∈ tt, t.length ≤ R) (hc : Compatible (ss ++ tt)) :
    DenS R n (zipV op x y) (ss ++ tt) fun k i => op (f k i) (g i) := by
  obtain ⟨X, S, rfl, h2, h3, h4, h5⟩ := hx
  obtain ⟨Y, rfl, k4, k5⟩ := hy
  obtain ⟨U, hU, hbc⟩ := bshape_bc h4 k4 hc
  have hYR := k4.rank R hR
  have hap := bshape_append n hU (by omega)
  obtain ⟨hl, -⟩ := bshape_spec hU
  have hUR : U.length = R := by omega
  have hX : Le X.shape (U ++ [n]) := by
    rw [h2]
    exact le_append₂ (h4.below fun s hs => hbc.le s (by simp [hs])) (by omega) n
  have hY : Le Y.shape (U ++ [n]) := le_append (k4.below fun s hs => hbc.le s (by simp [hs])) n
  refine ⟨⟨U ++ [n], fun i => op (X.at i) (Y.at i)⟩, U, ?_, rfl, hUR, hbc, fun i k hk => ?_⟩
  · unfold zipV
    rw [← h2] at hap
    simp only [hap]
  · show op (X.at (mask (U ++ [n]) _)) (Y.at (mask (U ++ [n]) _)) = _
    rw [X.at_mask hX, Y.at_mask hY, h5 i k hk, Y.at_update hYR, k5]

theorem denS_zip_left {R n : Nat} {x y : NpV} {ss tt : List Shape} {f : Nat → Idx → ℝ} {g : Idx → ℝ} (op : ℝ → ℝ → ℝ)
    (hx : DenS R n x ss f) (hy : Den y tt g) (hR : ∀ t ∈ tt, t.length ≤ R) (hc : Compatible (ss ++ tt)) :
    DenS R n (zipV op y x) (ss ++ tt) fun k i => op (g i) (f k i) := by
  have h := denS_zip_right (fun a b => op b a) hx hy hR hc
  obtain ⟨X, S, rfl, -⟩ := hx
  obtain ⟨Y, rfl, -⟩ := hy
  have e : zipV op (.ok Y) (.ok X) = zipV (fun a b => op b a) (.ok X) (.ok Y) := by
    unfold zipV
    dsimp only
    rw [bshape_comm]
  rw [e]
  exact h

theorem seqV_ok : ∀ {l : List NpV} {as : List Arr}, l = as.map (fun A => (Except.ok A : Except PyErr Arr)) → seqV l = .ok as
  | [], as, h => by
    cases as with
    | nil => rfl
    | cons a as => cases h
  | x :: l, as, h => by
    cases as with
    | nil => cases h
    | cons a as =>
      simp only [List.map_cons, List.cons.injEq] at h
      unfold seqV
      rw [h.1, seqV_ok h.2]

theorem stackOf_denS {R : Nat} {as : List Arr} {ss : List Shape} {S : Shape} (hne : as ≠ []) (hS : Bc ss S) (hR : S.length = R)
    (h : ∀ A ∈ as, A.shape = S) : DenS R as.length (stackOf as) ss fun k i => ((as[k]?).map fun A => A.at i).getD 0 := by
  cases as with
  | nil => exact absurd rfl hne
  | cons A l =>
    have hA : A.shape = S := h A (by simp)
    have hall : l.all (fun B => decide (B.shape = A.shape)) = true := by
      rw [List.all_eq_true]
      intro B hB
      rw [decide_eq_true_eq, h B (by simp [hB]), hA]
    refine ⟨⟨A.shape ++ [l.length + 1], fun i => ((A :: l).getD (i A.shape.length) A).at i⟩, S, ?_, ?_, hR, hS, fun i k hk => ?_⟩
    · exact if_pos hall
    · rw [hA]; rfl
    · show ((A :: l).getD (mask _ _ A.shape.length) A).at (mask _ _) = _
      have hlen : A.shape.length = R := by rw [hA, hR]
      have hget : (A :: l).getD (mask (A.shape ++ [l.length + 1]) (Function.update i R k) A.shape.length) A = (A :: l)[k] := by
        unfold mask
        rw [getD_append_last, if_pos rfl]
        by_cases h1 : l.length + 1 = 1
        · rw [if_pos h1]
          have : k = 0 := by simp only [List.length_cons] at hk; omega
          subst this
          rfl
        · rw [if_neg h1, hlen, Function.update_self, List.getD_eq_getElem?_getD, List.getElem?_eq_getElem hk]
          rfl
      have hk' : (A :: l)[k].shape = S := h _ (List.getElem_mem hk)
      rw [hget, Arr.at_mask _ (by rw [hk', hA]; exact le_append (Le.refl _) _), Arr.at_update _ (by rw [hk', hR])]
      beta_reduce
      rw [List.getElem?_eq_getElem hk]
      rfl

theorem stackV_denS {R : Nat} {l : List NpV} {ss : List Shape} {f : Nat → Idx → ℝ} (hne : l ≠ [])
    (hR : ∀ S, Bc ss S → S.length = R) (h : ∀ k x, l[k]? = some x → Den x ss (f k)) : DenS R l.length (stackV l) ss f := by
  obtain ⟨as, has⟩ : ∃ as : List Arr, l = as.map fun A => (Except.ok A : Except PyErr Arr) := by
    have : ∀ x ∈ l, ∃ A : Arr, x = Except.ok A := by
      intro x hx
      obtain ⟨k, hk⟩ := List.mem_iff_getElem?.1 hx
      obtain ⟨A, hA, -⟩ := h k x hk
      exact ⟨A, hA⟩
    clear h hne
    induction l with
    | nil => exact ⟨[], rfl⟩
    | cons x l ih =>
      obtain ⟨A, rfl⟩ := this x (by simp)
      obtain ⟨as, has⟩ := ih fun x hx => this x (by simp [hx])
      exact ⟨A :: as, by rw [has]; rfl⟩
  have hd : ∀ (k : Nat) (A : Arr), as[k]? = some A → Bc ss A.shape ∧ ∀ i, A.at i = f k i := by
    intro k A hA
    obtain ⟨B, hB, h1, h2⟩ := h k (.ok A) (by rw [has, List.getElem?_map, hA]; rfl)
    cases hB
    exact ⟨h1, h2⟩
  have hlen : l.length = as.length := by rw [has]; simp
  have hasne : as ≠ [] := by
    rintro rfl
    exact hne (by rw [has]; rfl)
  obtain ⟨A, as', rfl⟩ := List.exists_cons_of_ne_nil hasne
  obtain ⟨hbc, -⟩ := hd 0 A rfl
  have := stackOf_denS (R := R) (as := A :: as') (ss := ss) (S := A.shape) (by simp) hbc (hR _ hbc) (by
    intro B hB
    obtain ⟨k, hk⟩ := List.mem_iff_getElem?.1 hB
    exact (hd k B hk).1.ext hbc)
  rw [hlen]
  obtain ⟨X, S, h1, h2, h3, h4, h5⟩ := this
  refine ⟨X, S, ?_, h2, h3, h4, fun i k hk => ?_⟩
  · unfold stackV
    rw [seqV_ok has]
    exact h1
  · rw [h5 i k hk]
    beta_reduce
    rw [List.getElem?_eq_getElem hk]
    exact (hd k _ (List.getElem?_eq_getElem hk)).2 i

theorem denS_sum {R n : Nat} {x : NpV} {ss : List Shape} {f : Nat → Idx → ℝ} (h : DenS R n x ss f) :
    Den (sumAxis0 x) ss fun i => ((List.range n).map fun k => f k i).sum := by
  obtain ⟨X, S, rfl, h2, h3, h4, h5⟩ := h
  have e : sumAxis0 (.ok X) = .ok ⟨S, fun i => ((List.range n).map fun k => X.at (Function.update i R k)).sum⟩ := by
    unfold sumAxis0
    dsimp only
    rw [h2, List.getLast?_append_cons]
    simp [h3]
  rw [e]
  refine ⟨_, rfl, h4, fun i => ?_⟩
  show ((List.range n).map fun k => X.at (Function.update (mask S i) R k)).sum = _
  congr 1
  apply List.map_congr_left
  intro k hk
  rw [List.mem_range] at hk
  rw [← h5 i k hk]
  unfold Arr.at
  congr 1
  funext a
  unfold mask
  rw [h2, getD_append_last]
  by_cases ha : a = R
  · subst ha
    rw [Function.update_self, Function.update_self]
  · rw [Function.update_of_ne ha, Function.update_of_ne ha]
    rw [h3, if_neg ha]
    by_cases h1 : S.getD a 1 = 1
    · rw [if_pos h1, if_pos h1]
    · rw [if_neg h1, if_neg h1]

end RT1.Arrays
