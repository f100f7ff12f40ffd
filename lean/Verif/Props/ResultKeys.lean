import Verif.Model.ResultKeys
import Mathlib.Data.List.Nodup
import Mathlib.Tactic.Push

/-!
# The keys of stored results (C55)

The specification splits a key at the prefix `const__` instead of stripping characters.
-/

namespace RT1.ResultKeys

variable {V : Type}

namespace KeySpec

/-- An entry `e` of a result and a stored entry that belongs to it. -/
inductive Stored : Key × Val V → List Char × Val V → Prop
  /-- `const__name` is stored as `name` -/
  | const (name : List Char) (v : Val V) : Stored (.str ("const__".toList ++ name), v) (name, v)
  /-- the entries of a configuration are stored as `config/key` -/
  | dict (cfg k : List Char) (l : List (Key × V)) (v : V) : ¬ "const__".toList <+: cfg → (Key.str k, v) ∈ l →
      Stored (.str cfg, .dict l) (cfg ++ "/".toList ++ k, .other v)
  /-- other entries are stored under their own key -/
  | plain (k : List Char) (v : V) : ¬ "const__".toList <+: k → Stored (.str k, .other v) (k, .other v)

/-- A name that does not start with one of the letters c, o, n, s, t, _. -/
def Safe (name : List Char) : Prop := ∀ c s, name = c :: s → c ∉ ['c', 'o', 'n', 's', 't', '_']

end KeySpec
open KeySpec

theorem const_eq : const = ['c', 'o', 'n', 's', 't', '_', '_'] := by decide

theorem lstrip_const (name : List Char) : lstrip const (const ++ name) = lstrip const name := by
  rw [const_eq]
  simp only [List.cons_append, List.nil_append]
  rfl

theorem lstrip_safe {name : List Char} (h : Safe name) : lstrip const name = name := by
  cases name with
  | nil => rfl
  | cons c s =>
    have := h c s rfl
    rw [lstrip, if_neg]
    rw [const_eq]
    simpa using this

theorem lstrip_length (chars s : List Char) : (lstrip chars s).length ≤ s.length := by
  induction s with
  | nil => simp [lstrip]
  | cons c s ih =>
    rw [lstrip]
    split_ifs
    · simp only [List.length_cons]; omega
    · exact Nat.le_refl _

theorem safe_of_lstrip {name : List Char} (h : lstrip const name = name) : Safe name := by
  rintro c s rfl hc
  rw [lstrip, if_pos (by rw [const_eq]; simpa using hc)] at h
  have := lstrip_length const s
  rw [h, List.length_cons] at this
  omega

/-- C55 (partial): an entry `const__name` is stored under `name` if and only if `name` does not start with one of the letters
of the prefix.  (Missing: the other names, for which the property is false.) -/
theorem C55_const_partial (name : List Char) (v : Val V) :
    keyEntries (.str ("const__".toList ++ name), v) = some [(name, v)] ↔ Safe name := by
  have h1 : const.isPrefixOf (const ++ name) = true := by simp
  have h2 : keyEntries (.str ("const__".toList ++ name), v) = some [(lstrip const name, v)] := by
    have : keyEntries (.str (const ++ name), v) = some [(lstrip const (const ++ name), v)] := by
      simp only [keyEntries, if_pos h1]
    rw [lstrip_const] at this
    exact this
  rw [h2]
  constructor
  · intro h
    simp only [Option.some.injEq, List.cons.injEq, Prod.mk.injEq, and_true] at h
    exact safe_of_lstrip h
  · intro h; rw [lstrip_safe h]

example : keyEntries (V := Nat) (.str "const__reader_arg".toList, .other 1) = some [("reader_arg".toList, .other 1)] := by
  have h := (C55_const_partial (V := Nat) "reader_arg".toList (.other 1)).2 (by
    intro c s h
    have e : "reader_arg".toList = 'r' :: "eader_arg".toList := by decide
    rw [e] at h
    rw [← (List.cons.inj h).1]; decide)
  have e : "const__".toList ++ "reader_arg".toList = "const__reader_arg".toList := by decide
  rwa [e] at h

/-- C55 fails: `const__static` is stored as `atic`. -/
theorem C55_const_fails : keyEntries (V := Nat) (.str "const__static".toList, .other 1) = some [("atic".toList, .other 1)] := by
  simp only [keyEntries]
  rw [if_pos (by decide)]
  have : lstrip const "const__static".toList = "atic".toList := by decide
  rw [this]

/-- C55 fails: two entries with different names are stored under the same key. -/
theorem C55_distinct_fails :
    entries (V := Nat) (.dict [(.str "const__static".toList, .other 1), (.str "const__atic".toList, .other 2)]) =
      some [("atic".toList, .other 1), ("atic".toList, .other 2)] ∧
    entries (V := Nat) (.dict [(.str "a".toList, .dict [(.str "b/c".toList, 1)]), (.str "a/b".toList, .dict [(.str "c".toList, 2)])]) =
      some [("a/b/c".toList, .other 1), ("a/b/c".toList, .other 2)] := by
  refine ⟨by decide, by decide⟩

theorem dictEntries_iff (cfg : List Char) (l : List (Key × V)) (es : List (List Char × Val V)) :
    dictEntries cfg l = some es ↔ ∃ kvs : List (List Char × V), l = kvs.map (fun p => (.str p.1, p.2)) ∧
      es = kvs.map (fun p => (cfg ++ '/' :: p.1, .other p.2)) := by
  induction l generalizing es with
  | nil =>
    constructor
    · intro h; cases h; exact ⟨[], rfl, rfl⟩
    · rintro ⟨kvs, h1, rfl⟩
      cases kvs with
      | nil => rfl
      | cons p kvs => simp at h1
  | cons e l ih =>
    obtain ⟨k, v⟩ := e
    cases k with
    | other =>
      simp only [dictEntries]
      constructor
      · intro h; cases h
      · rintro ⟨kvs, h, _⟩
        cases kvs <;> simp at h
    | str k =>
      simp only [dictEntries, Option.map_eq_some_iff, ih]
      constructor
      · rintro ⟨es', ⟨kvs, h1, h2⟩, rfl⟩
        exact ⟨(k, v) :: kvs, by simp [h1], by simp [h2]⟩
      · rintro ⟨kvs, h1, rfl⟩
        cases kvs with
        | nil => simp at h1
        | cons p kvs =>
          simp only [List.map_cons, List.cons.injEq, Prod.mk.injEq, Key.str.injEq] at h1
          exact ⟨_, ⟨kvs, h1.2, rfl⟩, by simp [← h1.1.1, ← h1.1.2]⟩

/-- All constant entries have safe names. -/
def SafeEntry (e : Key × Val V) : Prop := ∀ name, e.1 = .str ("const__".toList ++ name) → Safe name

/-- C55 (partial): the stored entries of a result are exactly those of the specification, provided that the names of constant
entries do not start with a letter of the prefix. -/
theorem C55_stored_partial {l : List (Key × Val V)} (hl : ∀ e ∈ l, SafeEntry e) {es : List (List Char × Val V)}
    (h : entries (.dict l) = some es) (x : List Char × Val V) : x ∈ es ↔ ∃ e ∈ l, Stored e x := by
  have key : ∀ (e : Key × Val V) es, SafeEntry e → keyEntries e = some es → ∀ x, x ∈ es ↔ Stored e x := by
    rintro ⟨k, v⟩ es hs h x
    cases k with
    | other => cases h
    | str cfg =>
      simp only [keyEntries] at h
      by_cases hp : const <+: cfg
      · rw [if_pos (by simpa using hp)] at h
        obtain ⟨name, rfl⟩ := hp
        have hsafe : Safe name := hs name rfl
        rw [lstrip_const, lstrip_safe hsafe] at h
        cases h
        rw [List.mem_singleton]
        constructor
        · rintro rfl; exact .const name v
        · intro hst
          generalize hk : Key.str (const ++ name) = k at hst
          cases hst with
          | const name' _ =>
            have := List.append_cancel_left (Key.str.inj hk)
            rw [this]
          | dict cfg' k' l v' hn _ => exact absurd ⟨name, Key.str.inj hk⟩ hn
          | plain k' v' hn => exact absurd ⟨name, Key.str.inj hk⟩ hn
      · rw [if_neg (by simpa using hp)] at h
        cases v with
        | other v =>
          cases h
          rw [List.mem_singleton]
          constructor
          · rintro rfl; exact .plain cfg v hp
          · intro hst
            cases hst with
            | const name' => exact absurd (List.prefix_append _ _) hp
            | plain k' v' hn => rfl
        | dict l =>
          rw [dictEntries_iff] at h
          obtain ⟨kvs, rfl, rfl⟩ := h
          constructor
          · intro hx
            obtain ⟨⟨k, v⟩, hk, rfl⟩ := List.mem_map.1 hx
            have := Stored.dict cfg k (kvs.map fun p => (Key.str p.1, p.2)) v hp (List.mem_map.2 ⟨(k, v), hk, rfl⟩)
            rwa [List.append_assoc] at this
          · intro hst
            cases hst with
            | const name' => exact absurd (List.prefix_append _ _) hp
            | dict cfg' k' l v' hn hm =>
              obtain ⟨⟨k, v⟩, hk, he⟩ := List.mem_map.1 hm
              simp only [Prod.mk.injEq, Key.str.injEq] at he
              obtain ⟨rfl, rfl⟩ := he
              exact List.mem_map.2 ⟨(k, v), hk, by rw [List.append_assoc]; rfl⟩
  have hloop : ∀ (l : List (Key × Val V)) es, (∀ e ∈ l, SafeEntry e) → loop l = some es → (x ∈ es ↔ ∃ e ∈ l, Stored e x) := by
    intro l
    induction l with
    | nil => intro es _ h; cases h; simp
    | cons e l ih =>
      intro es hl h
      rw [loop] at h
      cases hk : keyEntries e with
      | none => rw [hk] at h; cases h
      | some es' =>
        rw [hk] at h
        obtain ⟨es'', h2, rfl⟩ := Option.map_eq_some_iff.1 h
        rw [List.mem_append, key e es' (hl e (by simp)) hk, ih es'' (fun e he => hl e (by simp [he])) h2]
        simp
  exact hloop l es hl h

/-- C55: the combiner fails exactly for results that are not dicts with string keys. -/
theorem C55_broken (r : Res V) : entries r = none ↔
    r = .other ∨ ∃ l, r = .dict l ∧ ∃ e ∈ l, e.1 = .other ∨
      ∃ cfg d, e = (.str cfg, .dict d) ∧ ¬ "const__".toList <+: cfg ∧ ∃ v, (Key.other, v) ∈ d := by
  have hd : ∀ cfg (d : List (Key × V)), dictEntries cfg d = none ↔ ∃ v, (Key.other, v) ∈ d := by
    intro cfg d
    induction d with
    | nil => simp [dictEntries]
    | cons e d ih => obtain ⟨k, v⟩ := e; cases k <;> simp [dictEntries, ih]
  have hk : ∀ e : Key × Val V, keyEntries e = none ↔ (e.1 = .other ∨
      ∃ cfg d, e = (.str cfg, .dict d) ∧ ¬ "const__".toList <+: cfg ∧ ∃ v, (Key.other, v) ∈ d) := by
    rintro ⟨k, v⟩
    cases k with
    | other => simp [keyEntries]
    | str cfg =>
      simp only [keyEntries]
      by_cases hp : const <+: cfg
      · rw [if_pos (by simpa using hp)]
        constructor
        · intro h; cases h
        · rintro (h | ⟨c, d, h1, h2, _⟩)
          · cases h
          · cases h1; exact absurd hp h2
      · rw [if_neg (by simpa using hp)]
        cases v with
        | other v =>
          constructor
          · intro h; cases h
          · rintro (h | ⟨c, d, h1, _⟩)
            · cases h
            · cases h1
        | dict d =>
          show dictEntries cfg d = none ↔ _
          rw [hd]
          constructor
          · intro h; exact .inr ⟨cfg, d, rfl, hp, h⟩
          · rintro (h | ⟨c, d', h1, _, h2⟩)
            · cases h
            · cases h1; exact h2
  cases r with
  | other => simp [entries]
  | dict l =>
    simp only [entries, reduceCtorEq, false_or, Res.dict.injEq, exists_eq_left']
    induction l with
    | nil => simp [loop]
    | cons e l ih =>
      rw [loop]
      cases he : keyEntries e with
      | none =>
        simp only [List.mem_cons, exists_eq_or_imp, true_iff]
        exact .inl ((hk e).1 he)
      | some es =>
        have : ¬ _ := fun h => by
          have := (hk e).2 h; rw [he] at this; cases this
        simp only [Option.map_eq_none_iff, ih, List.mem_cons, exists_eq_or_imp, this, false_or]

/-- A key without a slash. -/
def NoSlash (s : List Char) : Prop := '/' ∉ s

/-- The name of an entry: without the prefix `const__`. -/
inductive Named : Key → List Char → Prop
  | const (name) : Named (.str ("const__".toList ++ name)) name
  | plain (k) : ¬ "const__".toList <+: k → Named (.str k) k

theorem split_slash {a b c d : List Char} (ha : NoSlash a) (hc : NoSlash c) (h : a ++ '/' :: b = c ++ '/' :: d) : a = c ∧ b = d := by
  induction a generalizing c with
  | nil =>
    cases c with
    | nil => simpa using h
    | cons x c =>
      simp only [List.nil_append, List.cons_append, List.cons.injEq] at h
      exact absurd (by rw [← h.1]; simp) hc
  | cons x a ih =>
    cases c with
    | nil =>
      simp only [List.nil_append, List.cons_append, List.cons.injEq] at h
      exact absurd (by rw [h.1]; simp) ha
    | cons y c =>
      simp only [List.cons_append, List.cons.injEq] at h
      have := ih (c := c) (fun hm => ha (by simp [hm])) (fun hm => hc (by simp [hm])) h.2
      exact ⟨by rw [h.1, this.1], this.2⟩

/-- C55 (partial): if the names of the entries contain no slash, two stored entries with the same key belong to entries with the
same name, and if they belong to the same configuration they have the same key there. -/
theorem C55_distinct_partial {e e' : Key × Val V} {x x' : List Char × Val V} (h : Stored e x) (h' : Stored e' x')
    {n n' : List Char} (hn : Named e.1 n) (hn' : Named e'.1 n') (hs : NoSlash n) (hs' : NoSlash n') (hk : x.1 = x'.1) :
    n = n' ∧ ∀ cfg l cfg' l' k k', e = (.str cfg, .dict l) → e' = (.str cfg', .dict l') →
      x.1 = cfg ++ "/".toList ++ k → x'.1 = cfg' ++ "/".toList ++ k' → NoSlash cfg → NoSlash cfg' → k = k' := by
  have named : ∀ {e : Key × Val V} {x n}, Stored e x → Named e.1 n → NoSlash n →
      x.1 = n ∨ ∃ k, x.1 = n ++ '/' :: k := by
    intro e x n h hn hs
    cases h with
    | const name v =>
      generalize hkk : Key.str ("const__".toList ++ name) = kk at hn
      cases hn with
      | const name' => left; exact List.append_cancel_left (Key.str.inj hkk)
      | plain k hp => exact absurd ⟨name, Key.str.inj hkk⟩ hp
    | dict cfg k l v hp hm =>
      generalize hkk : Key.str cfg = kk at hn
      cases hn with
      | const name' => rw [Key.str.inj hkk] at hp; exact absurd (List.prefix_append _ _) hp
      | plain k' hp' =>
        right
        refine ⟨k, ?_⟩
        rw [Key.str.inj hkk, List.append_assoc]; rfl
    | plain k v hp =>
      generalize hkk : Key.str k = kk at hn
      cases hn with
      | const name' => rw [Key.str.inj hkk] at hp; exact absurd (List.prefix_append _ _) hp
      | plain k' hp' => left; exact Key.str.inj hkk
  constructor
  · rcases named h hn hs with h1 | ⟨k, h1⟩ <;> rcases named h' hn' hs' with h2 | ⟨k', h2⟩
    · rw [← h1, ← h2, hk]
    · exfalso; rw [← h1, hk, h2] at hs; exact hs (by simp)
    · exfalso; rw [← h2, ← hk, h1] at hs'; exact hs' (by simp)
    · exact (split_slash hs hs' (by rw [← h1, ← h2, hk])).1
  · intro cfg l cfg' l' k k' _ _ h1 h2 hc hc'
    rw [h1, h2, List.append_assoc, List.append_assoc] at hk
    exact (split_slash hc hc' hk).2

example : Stored (V := Nat) (.str "cfg".toList, .dict [(.str "tau".toList, 1), (.str "sig".toList, 2)]) ("cfg/sig".toList, .other 2) ∧
    Named (.str "cfg".toList) "cfg".toList ∧ NoSlash "cfg".toList := by
  refine ⟨?_, .plain _ (by decide), by unfold NoSlash; decide⟩
  have := Stored.dict (V := Nat) "cfg".toList "sig".toList [(.str "tau".toList, 1), (.str "sig".toList, 2)] 2 (by decide) (by simp)
  have e : "cfg".toList ++ "/".toList ++ "sig".toList = "cfg/sig".toList := by decide
  rwa [e] at this

end RT1.ResultKeys
