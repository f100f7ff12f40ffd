import Verif.Model.Config
import Verif.Lemmas.Dict
import Verif.Lemmas.General

/-! # Lemmas on the string functions and loops of the config parser -/

namespace RT1.Config
open General

theorem breakOn_isSome {sep : Str} (hs : sep ≠ []) (s : Str) : (breakOn sep s).isSome ↔ sep <:+: s := by
  induction s with
  | nil => simp [breakOn, hs]
  | cons x xs ih =>
    rw [breakOn, List.infix_cons_iff]
    by_cases h : sep.isPrefixOf (x :: xs) = true
    · rw [if_pos h]
      simp [List.isPrefixOf_iff_prefix.1 h]
    · rw [if_neg h]
      have h' : ¬ sep <+: x :: xs := fun h2 => h (List.isPrefixOf_iff_prefix.2 h2)
      simp [h', ih]

theorem breakOn_none {sep : Str} (hs : sep ≠ []) {s : Str} (h : ¬ sep <:+: s) : breakOn sep s = none := by
  have := breakOn_isSome hs s
  cases hb : breakOn sep s with
  | none => rfl
  | some p => rw [hb] at this; exact absurd (this.1 rfl) h

theorem breakOn_fmt (a b : Str) (h : ¬ fmtSep <:+: a) : breakOn fmtSep (a ++ (fmtSep ++ b)) = some (a, b) := by
  induction a with
  | nil =>
    have : fmtSep = ['f', 'm', 't', '='] := rfl
    rw [this]
    simp [breakOn, List.isPrefixOf]
  | cons x xs ih =>
    have hx : ¬ fmtSep <:+: xs := fun h2 => h (h2.trans (List.suffix_cons x xs).isInfix)
    have hp : ¬ fmtSep.isPrefixOf (x :: (xs ++ (fmtSep ++ b))) = true := by
      intro hpre
      have hpre := List.isPrefixOf_iff_prefix.1 hpre
      have hf : fmtSep = ['f', 'm', 't', '='] := rfl
      rw [hf] at hpre
      match xs with
      | [] => simp [hf] at hpre
      | [y] => simp [hf] at hpre
      | [y, z] => simp [hf] at hpre
      | y :: z :: w :: r =>
        simp only [List.cons_append, List.cons_prefix_cons, List.nil_prefix, and_true] at hpre
        apply h
        refine ⟨[], r, ?_⟩
        rw [hf]
        simpa using hpre
    rw [List.cons_append, breakOn, if_neg hp, ih hx]
    rfl

theorem splitFmt_none {s : Str} (h : ¬ fmtSep <:+: s) : splitFmt s = (s, none) := by
  unfold splitFmt
  rw [breakOn_none (by decide) h]

theorem splitFmt_some {a b : Str} (ha : ¬ fmtSep <:+: a) (hb : ¬ fmtSep <:+: b) :
    splitFmt (a ++ (fmtSep ++ b)) = (a, some b) := by
  unfold splitFmt
  rw [breakOn_fmt a b ha]
  simp only [breakOn_none (by decide) hb]

theorem splitChar_ne_nil (ch : Char) (s : Str) : splitChar ch s ≠ [] := by
  cases s with
  | nil => simp [splitChar]
  | cons x xs =>
    rw [splitChar]
    split_ifs
    · simp
    · split <;> simp

theorem splitChar_free {ch : Char} {s : Str} (h : ch ∉ s) : splitChar ch s = [s] := by
  induction s with
  | nil => rfl
  | cons x xs ih =>
    rw [splitChar, if_neg (fun e => h (by rw [e]; exact List.mem_cons_self)), ih fun h2 => h (List.mem_cons_of_mem _ h2)]

theorem splitChar_append {ch : Char} {s : Str} (h : ch ∉ s) (r : Str) :
    splitChar ch (s ++ ch :: r) = s :: splitChar ch r := by
  induction s with
  | nil => simp [splitChar]
  | cons x xs ih =>
    rw [List.cons_append, splitChar, if_neg (fun e => h (by rw [e]; exact List.mem_cons_self)),
      ih fun h2 => h (List.mem_cons_of_mem _ h2)]

/-- `sep.join(l)` for a single character. -/
def join (ch : Char) : List Str → Str
  | [] => []
  | [s] => s
  | s :: t => s ++ ch :: join ch t

theorem splitChar_join {ch : Char} {l : List Str} (hl : l ≠ []) (h : ∀ s ∈ l, ch ∉ s) : splitChar ch (join ch l) = l := by
  induction l with
  | nil => exact absurd rfl hl
  | cons s t ih =>
    cases t with
    | nil => rw [join]; exact splitChar_free (h s List.mem_cons_self)
    | cons s2 t =>
      rw [join, splitChar_append (h s List.mem_cons_self), ih (by simp) fun s hs => h s (List.mem_cons_of_mem _ hs)]
      simp

theorem splitChar_spec (ch : Char) (s : Str) : join ch (splitChar ch s) = s ∧ ∀ t ∈ splitChar ch s, ch ∉ t := by
  induction s with
  | nil => simp [splitChar, join]
  | cons x xs ih =>
    rw [splitChar]
    have hne := splitChar_ne_nil ch xs
    cases hsp : splitChar ch xs with
    | nil => exact absurd hsp hne
    | cons h t =>
      rw [hsp] at ih
      by_cases hx : x = ch
      · rw [if_pos hx, join, ih.1]
        · refine ⟨by simp [hx], ?_⟩
          intro s hs
          rcases List.mem_cons.1 hs with rfl | hs
          · simp
          · exact ih.2 s hs
        · simp
      · rw [if_neg hx]
        refine ⟨?_, ?_⟩
        · cases t with
          | nil => simp only [join] at ih ⊢; rw [ih.1]
          | cons t1 t => simp only [join] at ih ⊢; rw [← ih.1]; rfl
        · intro s hs
          rcases List.mem_cons.1 hs with rfl | hs
          · simp only [List.mem_cons, not_or]
            exact ⟨fun e => hx e.symm, ih.2 h List.mem_cons_self⟩
          · exact ih.2 s (List.mem_cons_of_mem _ hs)

theorem strip_id {ws : Char → Bool} {s : Str} (h1 : ∀ x ∈ s.head?, ws x = false) (h2 : ∀ x ∈ s.getLast?, ws x = false) :
    strip ws s = s := by
  unfold strip
  have e1 : s.dropWhile ws = s := by
    cases s with
    | nil => rfl
    | cons x xs => rw [List.dropWhile_cons_of_neg]; simp [h1 x rfl]
  rw [e1]
  have e2 : s.reverse.dropWhile ws = s.reverse := by
    cases hr : s.reverse with
    | nil => rfl
    | cons x xs =>
      rw [List.dropWhile_cons_of_neg]
      have : s.getLast? = some x := by rw [List.getLast?_eq_head?_reverse, hr]; rfl
      simp [h2 x (by rw [this]; rfl)]
  rw [e2, List.reverse_reverse]

theorem inner_brackets (s : Str) : inner ('[' :: (s ++ [']'])) = s := by simp [inner]

theorem strip_brackets {ws : Char → Bool} (h1 : ws '[' = false) (h2 : ws ']' = false) (s : Str) :
    strip ws ('[' :: (s ++ [']'])) = '[' :: (s ++ [']']) := by
  apply strip_id
  · simp [h1]
  · intro x hx
    rw [show '[' :: (s ++ [']']) = ('[' :: s) ++ [']'] from rfl, List.getLast?_concat] at hx
    simp only [Option.mem_def, Option.some.injEq] at hx
    rw [← hx]; exact h2

/-- Trailing white space is removed. -/
theorem strip_trailing {ws : Char → Bool} (s t : Str) (ht : ∀ x ∈ t, ws x = true) (hs : s ≠ [])
    (hl : ∀ x ∈ s.getLast?, ws x = false) : strip ws (s ++ t) = strip ws s := by
  unfold strip
  have hd : (s ++ t).dropWhile ws = s.dropWhile ws ++ t := by
    have hex : ∃ x ∈ s, ws x = false := by
      refine ⟨s.getLast hs, List.getLast_mem hs, hl _ ?_⟩
      rw [List.getLast?_eq_some_getLast hs]; rfl
    clear hl
    induction s with
    | nil => exact absurd rfl hs
    | cons x xs ih =>
      by_cases hx : ws x = true
      · rw [List.cons_append, List.dropWhile_cons_of_pos hx, List.dropWhile_cons_of_pos hx]
        obtain ⟨y, hy, hyw⟩ := hex
        rcases List.mem_cons.1 hy with rfl | hy
        · rw [hx] at hyw; simp at hyw
        · exact ih (List.ne_nil_of_mem hy) ⟨y, hy, hyw⟩
      · rw [List.cons_append, List.dropWhile_cons_of_neg hx, List.dropWhile_cons_of_neg hx]; rfl
  rw [hd, List.reverse_append]
  congr 1
  have : ∀ r : Str, (t.reverse ++ r).dropWhile ws = r.dropWhile ws := by
    intro r
    have ht' : ∀ x ∈ t.reverse, ws x = true := fun x hx => ht x (List.mem_reverse.1 hx)
    generalize t.reverse = u at ht'
    induction u with
    | nil => rfl
    | cons x xs ih =>
      rw [List.cons_append, List.dropWhile_cons_of_pos (ht' x List.mem_cons_self)]
      exact ih fun x hx => ht' x (List.mem_cons_of_mem _ hx)
  exact this _

theorem afterPrefix_some {p s t : Str} : afterPrefix p s = some t ↔ s = p ++ t := by
  unfold afterPrefix
  constructor
  · intro h
    split_ifs at h with hp
    obtain ⟨r, rfl⟩ := List.isPrefixOf_iff_prefix.1 hp
    simp at h
    rw [h]
  · rintro rfl
    rw [if_pos (List.isPrefixOf_iff_prefix.2 (List.prefix_append _ _))]
    simp

theorem afterPrefix_none {p s : Str} : afterPrefix p s = none ↔ ¬ p <+: s := by
  unfold afterPrefix
  split_ifs with hp
  · simp [List.isPrefixOf_iff_prefix.1 hp]
  · simp only [true_iff]
    exact fun h => hp (List.isPrefixOf_iff_prefix.2 h)

/-- Loops that insert one entry per element. -/
theorem foldlM_set {ε κ ν : Type} [DecidableEq κ] (g : ε → Except PyErr (κ × ν)) (l : List ε) (d0 : Dict κ ν) :
    l.foldlM (fun d e => do let p ← g e; .ok (Dict.set d p.1 p.2)) d0 =
      (do let r ← l.mapM g; .ok (Dict.update d0 r) : Except PyErr (Dict κ ν)) := by
  induction l generalizing d0 with
  | nil => rfl
  | cons e l ih =>
    rw [List.foldlM_cons, List.mapM_cons]
    cases hg : g e with
    | error err => rfl
    | ok p =>
      simp only [bind, Except.bind] at ih ⊢
      rw [ih]
      cases l.mapM g with
      | error err => rfl
      | ok r => rfl

theorem mem_mapM {α β : Type} {g : α → Except PyErr β} {l : List α} {r : List β} (h : l.mapM g = .ok r) (b : β) :
    b ∈ r ↔ ∃ a ∈ l, g a = .ok b := by
  have h2 := (mapM_ok_iff _ _ _).1 h
  clear h
  induction h2 with
  | nil => simp
  | @cons a b' l r h1 _ ih =>
    simp only [List.mem_cons, ih]
    constructor
    · rintro (rfl | ⟨a', ha', h⟩)
      · exact ⟨a, .inl rfl, h1⟩
      · exact ⟨a', .inr ha', h⟩
    · rintro ⟨a', rfl | ha', h⟩
      · rw [h1] at h; exact .inl (Except.ok.inj h).symm
      · exact .inr ⟨a', ha', h⟩

end RT1.Config
