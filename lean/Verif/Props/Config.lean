import Verif.Model.Config
import Verif.Lemmas.Config

/-!
# Typed config entries (C45), named configs (C46)
-/

namespace RT1.Config
open General

variable {F D P : Type} (c : Conv F D P)

/-! ## C45 -/

/-- Specification: the type prefixes of entries resp. of the elements of lists. -/
def prefixes : List Str := ["datetime__", "path__", "bool__", "float__", "int__"].map String.toList
def listPrefixes : List Str := ["bool__", "float__", "int__", "datetime__"].map String.toList

/-- Specification: the name of an entry is its key without the type prefix. -/
inductive Target : Str → Str → Prop
  | typed {p n} : p ∈ prefixes → Target (p ++ n) n
  | listTyped {p n} : p ∈ listPrefixes → Target ("list__".toList ++ (p ++ n)) n
  | list {n} : (∀ p ∈ listPrefixes, ¬ p <+: n) → Target ("list__".toList ++ n) n
  | plain {n} : (∀ p ∈ prefixes, ¬ p <+: n) → ¬ "list__".toList <+: n → Target n n

/-- Specification: words for booleans. -/
def BoolWord (s : Str) (b : Bool) : Prop :=
  String.ofList (s.map Char.toLower) ∈ if b then ["1", "yes", "true", "on"] else ["0", "no", "false", "off"]

/-- Specification: the conversion of one element of a list. -/
def ItemOf (t : Str) (s : Str) (i : Item F D) : Prop :=
  match i with
  | .bool b => t = "bool__".toList ∧ BoolWord s b
  | .float x => t = "float__".toList ∧ c.float s = some x
  | .int n => t = "int__".toList ∧ c.int s = some n
  | .datetime d => t = "datetime__".toList ∧ c.strptime s defaultFmt = some d
  | .str s' => t = [] ∧ s' = s

/-- Specification: name and value of an entry with the given key and string. -/
inductive Entry : Str → Option Str → Str → Spec F D P → Prop
  | str {n s} : (∀ p ∈ prefixes, ¬ p <+: n) → ¬ "list__".toList <+: n → s ≠ "None".toList → Entry n (some s) n (.item (.str s))
  | none {n v} : (∀ p ∈ prefixes, ¬ p <+: n) → ¬ "list__".toList <+: n → v = Option.none ∨ v = some "None".toList →
      Entry n v n .none
  | bool {n s b} : BoolWord s b → Entry ("bool__".toList ++ n) (some s) n (.item (.bool b))
  | float {n s x} : c.float s = some x → Entry ("float__".toList ++ n) (some s) n (.item (.float x))
  | int {n s x} : c.int s = some x → Entry ("int__".toList ++ n) (some s) n (.item (.int x))
  | path {n s} : s ≠ "None".toList → ¬ "..".toList <:+: strip c.ws s →
      Entry ("path__".toList ++ n) (some s) n (.path (c.path (strip c.ws s)))
  | resolved {n s p} : s ≠ "None".toList → "..".toList <:+: strip c.ws s → c.resolve (c.path (strip c.ws s)) = some p →
      Entry ("path__".toList ++ n) (some s) n (.path p)
  | unresolved {n s} : s ≠ "None".toList → "..".toList <:+: strip c.ws s → c.resolve (c.path (strip c.ws s)) = Option.none →
      Entry ("path__".toList ++ n) (some s) n (.path (c.path (strip c.ws s)))
  | datetime {n s d} : s ≠ "None".toList → ¬ fmtSep <:+: s → c.strptime (strip c.ws s) defaultFmt = some d →
      Entry ("datetime__".toList ++ n) (some s) n (.item (.datetime d))
  | datetimeFmt {n s f d} : ¬ fmtSep <:+: s → ¬ fmtSep <:+: f → c.strptime (strip c.ws s) (strip c.ws f) = some d →
      Entry ("datetime__".toList ++ n) (some (s ++ (fmtSep ++ f))) n (.item (.datetime d))
  | list {n t parts l} : t ∈ [] :: listPrefixes → (t = [] → ∀ p ∈ listPrefixes, ¬ p <+: n) → parts ≠ [] →
      (∀ s ∈ parts, ',' ∉ s) → (t = "datetime__".toList → ¬ fmtSep <:+: '[' :: (join ',' parts ++ [']'])) →
      List.Forall₂ (fun s i => ItemOf c t (strip c.ws s) i) parts l →
      Entry ("list__".toList ++ (t ++ n)) (some ('[' :: (join ',' parts ++ [']']))) n (.list l)
  | listFmt {n parts f l blanks} : parts ≠ [] → (∀ s ∈ parts, ',' ∉ s) → (∀ x ∈ blanks, c.ws x = true) →
      ¬ fmtSep <:+: '[' :: (join ',' parts ++ [']']) ++ blanks → ¬ fmtSep <:+: f →
      List.Forall₂ (fun s d => c.strptime (strip c.ws s) (strip c.ws f) = some d) parts l →
      Entry ("list__datetime__".toList ++ n) (some ('[' :: (join ',' parts ++ [']']) ++ blanks ++ (fmtSep ++ f))) n
        (.list (l.map .datetime))

theorem no_prefix {k : Str} (h : ∀ p ∈ prefixes, ¬ p <+: k) : afterPrefix "datetime__".toList k = none ∧
    afterPrefix "path__".toList k = none ∧ afterPrefix "bool__".toList k = none ∧ afterPrefix "float__".toList k = none ∧
    afterPrefix "int__".toList k = none :=
  ⟨afterPrefix_none.2 (h _ (by decide)), afterPrefix_none.2 (h _ (by decide)), afterPrefix_none.2 (h _ (by decide)),
    afterPrefix_none.2 (h _ (by decide)), afterPrefix_none.2 (h _ (by decide))⟩

theorem after_datetime (k : Str) : afterPrefix "datetime__".toList ("datetime__".toList ++ k) = some k := afterPrefix_some.2 rfl
theorem after_other {p q : Str} (k : Str) (h : (p.zip q).any (fun x => x.1 ≠ x.2) = true) :
    afterPrefix p (q ++ k) = none := by
  rw [afterPrefix_none]
  intro hp
  induction p generalizing q with
  | nil => simp at h
  | cons x p ih =>
    cases q with
    | nil => simp at h
    | cons y q =>
      simp only [List.zip_cons_cons, List.any_cons, Bool.or_eq_true] at h
      simp only [List.cons_append, List.cons_prefix_cons] at hp
      rcases h with h | h
      · simp [hp.1] at h
      · exact ih h hp.2

theorem toBool_iff (s : Str) (b : Bool) : toBool s = .ok b ↔ BoolWord s b := by
  have key : ∀ (l : Str) (w : String), String.ofList l = w ↔ l = w.toList := by
    intro l w
    constructor
    · rintro rfl; simp
    · rintro rfl; simp
  unfold toBool BoolWord
  generalize s.map Char.toLower = l
  cases b
  · simp only [Bool.false_eq_true, if_false, List.mem_cons, List.not_mem_nil, or_false, key]
    by_cases h1 : l ∈ ["1".toList, "yes".toList, "true".toList, "on".toList]
    · have h1' := h1
      simp only [List.mem_cons, List.not_mem_nil, or_false] at h1'
      simp only [List.mem_cons, List.not_mem_nil, or_false] at h1
      rw [if_pos h1]
      simp only [Except.ok.injEq, Bool.true_eq_false, false_iff]
      rcases h1' with rfl | rfl | rfl | rfl <;> decide
    · simp only [List.mem_cons, List.not_mem_nil, or_false] at h1
      rw [if_neg h1]
      by_cases h2 : l ∈ ["0".toList, "no".toList, "false".toList, "off".toList]
      · simp only [List.mem_cons, List.not_mem_nil, or_false] at h2
        rw [if_pos h2]; exact iff_of_true rfl h2
      · simp only [List.mem_cons, List.not_mem_nil, or_false] at h2
        rw [if_neg h2]; exact iff_of_false (by simp) h2
  · simp only [if_true, List.mem_cons, List.not_mem_nil, or_false, key]
    split_ifs with h1 h2
    · exact iff_of_true rfl h1
    · exact iff_of_false (by simp) h1
    · exact iff_of_false (by simp) h1

theorem ne_none_fmt (s f : Str) : s ++ (fmtSep ++ f) ≠ "None".toList := by
  intro h
  have : '=' ∈ s ++ (fmtSep ++ f) := by
    rw [List.mem_append, List.mem_append]
    exact .inr (.inl (by decide))
  rw [h] at this
  revert this
  decide

/-- Conversion of the elements of a list. -/
theorem items_ok {t n v : Str} {parts : List Str} {l : List (Item F D)} (ht : t ∈ [] :: listPrefixes)
    (hn : t = [] → ∀ p ∈ listPrefixes, ¬ p <+: n) (hv : t = "datetime__".toList → ¬ fmtSep <:+: v)
    (hl : List.Forall₂ (fun s i => ItemOf c t (strip c.ws s) i) parts l) (hs : strip c.ws v = v) :
    (listKind c (t ++ n) v).1 = n ∧ (listKind c (t ++ n) v).2.1 = v ∧
      parts.mapM (fun s => (listKind c (t ++ n) v).2.2 (strip c.ws s)) = .ok l := by
  have conv : ∀ conv : Str → Except PyErr (Item F D), (∀ s i, ItemOf c t s i → conv s = .ok i) →
      parts.mapM (fun s => conv (strip c.ws s)) = .ok l := by
    intro conv hc
    rw [mapM_ok_iff]
    exact hl.imp fun s i h => hc _ _ h
  simp only [listPrefixes, List.map_cons, List.map_nil, List.mem_cons, List.not_mem_nil, or_false] at ht
  rcases ht with rfl | rfl | rfl | rfl | rfl
  · have h := hn rfl
    unfold listKind
    rw [List.nil_append, afterPrefix_none.2 (h _ (by decide)), afterPrefix_none.2 (h _ (by decide)),
      afterPrefix_none.2 (h _ (by decide)), afterPrefix_none.2 (h _ (by decide))]
    refine ⟨rfl, rfl, conv _ ?_⟩
    intro s i hi
    cases i <;> simp only [ItemOf] at hi
    · rw [hi.2]
    all_goals exact absurd hi.1 (by decide)
  · unfold listKind
    rw [afterPrefix_some.2 (rfl : "bool__".toList ++ n = _)]
    refine ⟨rfl, rfl, conv _ ?_⟩
    intro s i hi
    cases i <;> simp only [ItemOf] at hi
    case bool b => simp only [(toBool_iff s b).2 hi.2, bind, Except.bind]
    all_goals exact absurd hi.1 (by decide)
  · unfold listKind
    rw [after_other n (by decide), afterPrefix_some.2 (rfl : "float__".toList ++ n = _)]
    refine ⟨rfl, rfl, conv _ ?_⟩
    intro s i hi
    cases i <;> simp only [ItemOf] at hi
    case float b => simp only [hi.2, orValueError, bind, Except.bind]
    all_goals exact absurd hi.1 (by decide)
  · unfold listKind
    rw [after_other n (by decide), after_other n (by decide), afterPrefix_some.2 (rfl : "int__".toList ++ n = _)]
    refine ⟨rfl, rfl, conv _ ?_⟩
    intro s i hi
    cases i <;> simp only [ItemOf] at hi
    case int b => simp only [hi.2, orValueError, bind, Except.bind]
    all_goals exact absurd hi.1 (by decide)
  · unfold listKind
    rw [after_other n (by decide), after_other n (by decide), after_other n (by decide), after_datetime]
    have e := splitFmt_none (hv rfl)
    refine ⟨rfl, by simp only [e, hs], conv _ ?_⟩
    intro s i hi
    cases i <;> simp only [ItemOf] at hi
    case datetime b => simp only [e, Option.map_none, toDt, Option.getD_none, hi.2, orValueError, bind, Except.bind]
    all_goals exact absurd hi.1 (by decide)

/-- Every entry of the documented form is converted as documented. -/
theorem processEntry_ok (h1 : c.ws '[' = false) (h2 : c.ws ']' = false) {k : Str} {v : Option Str} {n : Str}
    {w : Spec F D P} (h : Entry c k v n w) : processEntry c (k, v) = .ok (n, w) := by
  unfold processEntry
  simp only
  cases h with
  | str hp hl hs =>
    obtain ⟨e1, e2, e3, e4, e5⟩ := no_prefix hp
    rw [e1, e2, e3, e4, e5, afterPrefix_none.2 hl, if_neg (by simpa using hs)]
  | none hp hl hs =>
    obtain ⟨e1, e2, e3, e4, e5⟩ := no_prefix hp
    rw [e1, e2, e3, e4, e5, afterPrefix_none.2 hl]
    rcases hs with rfl | rfl
    · rfl
    · rfl
  | @bool n s b hb =>
    rw [after_other _ (by decide), after_other _ (by decide), afterPrefix_some.2 (rfl : "bool__".toList ++ n = _)]
    simp only [getboolean, (toBool_iff s b).2 hb, bind, Except.bind]
  | @float n s x hx =>
    rw [after_other _ (by decide), after_other _ (by decide), after_other _ (by decide),
      afterPrefix_some.2 (rfl : "float__".toList ++ n = _)]
    simp only [getfloat, hx, orValueError, bind, Except.bind]
  | @int n s x hx =>
    rw [after_other _ (by decide), after_other _ (by decide), after_other _ (by decide), after_other _ (by decide),
      afterPrefix_some.2 (rfl : "int__".toList ++ n = _)]
    simp only [getint, hx, orValueError, bind, Except.bind]
  | @path n s hs hd =>
    rw [after_other _ (by decide), afterPrefix_some.2 (rfl : "path__".toList ++ n = _), if_neg (by simpa using hs)]
    simp only
    rw [breakOn_none (by decide) hd]
    rfl
  | @resolved n s p hs hd hr =>
    rw [after_other _ (by decide), afterPrefix_some.2 (rfl : "path__".toList ++ n = _), if_neg (by simpa using hs)]
    simp only
    rw [if_pos ((breakOn_isSome (by decide) _).2 hd), hr]
    rfl
  | @unresolved n s hs hd hr =>
    rw [after_other _ (by decide), afterPrefix_some.2 (rfl : "path__".toList ++ n = _), if_neg (by simpa using hs)]
    simp only
    rw [if_pos ((breakOn_isSome (by decide) _).2 hd), hr]
    rfl
  | @datetime n s d hs hf hd =>
    rw [after_datetime, if_neg (by simpa using hs)]
    simp only [splitFmt_none hf, toDt, Option.map_none, Option.getD_none, hd, orValueError, bind, Except.bind]
  | @datetimeFmt n s f d hs hf hd =>
    rw [after_datetime, if_neg (by simpa using ne_none_fmt s f)]
    simp only [splitFmt_some hs hf, toDt, Option.map_some, Option.getD_some, hd, orValueError, bind, Except.bind]
  | @list n t parts l ht hn hne hc hf hl =>
    rw [after_other _ (by decide), after_other _ (by decide), after_other _ (by decide), after_other _ (by decide),
      after_other _ (by decide), afterPrefix_some.2 (rfl : "list__".toList ++ (t ++ n) = _),
      if_neg (by simp only [Option.some.injEq]; intro h; simp at h)]
    obtain ⟨i1, i2, i3⟩ := items_ok c ht hn hf hl (strip_brackets h1 h2 _)
    simp only [listEntry]
    rw [if_pos ⟨rfl, .inl (by rw [show '[' :: (join ',' parts ++ [']']) = ('[' :: join ',' parts) ++ [']'] from rfl,
      List.getLast?_concat])⟩, i1, i2, strip_brackets h1 h2, inner_brackets, splitChar_join hne hc]
    simp only [i3, bind, Except.bind]
  | @listFmt n parts f l blanks hne hc hb hf1 hf2 hl =>
    have ek : "list__datetime__".toList ++ n = "list__".toList ++ ("datetime__".toList ++ n) := by
      rw [← List.append_assoc]; rfl
    rw [ek]
    rw [after_other _ (by decide), after_other _ (by decide), after_other _ (by decide), after_other _ (by decide),
      after_other _ (by decide), afterPrefix_some.2 (rfl : "list__".toList ++ _ = _),
      if_neg (by simp only [Option.some.injEq]; exact ne_none_fmt _ f)]
    simp only [listEntry]
    rw [if_pos ⟨rfl, .inr (by rw [breakOn_fmt _ f hf1]; rfl)⟩]
    unfold listKind
    rw [after_other n (by decide), after_other n (by decide), after_other n (by decide), after_datetime]
    simp only [splitFmt_some hf1 hf2]
    have es : strip c.ws ('[' :: (join ',' parts ++ [']']) ++ blanks) = '[' :: (join ',' parts ++ [']']) := by
      rw [strip_trailing _ _ hb (by simp), strip_brackets h1 h2]
      intro x hx
      rw [show '[' :: (join ',' parts ++ [']']) = ('[' :: join ',' parts) ++ [']'] from rfl, List.getLast?_concat] at hx
      simp only [Option.mem_def, Option.some.injEq] at hx
      rw [← hx]; exact h2
    rw [es, strip_brackets h1 h2, inner_brackets, splitChar_join hne hc]
    have em : parts.mapM (fun s => (do let d ← toDt c (strip c.ws s) (some (strip c.ws f)); .ok (.datetime d) :
        Except PyErr (Item F D))) = .ok (l.map .datetime) := by
      rw [mapM_ok_iff, List.forall₂_map_right_iff]
      exact hl.imp fun s d h => by simp only [toDt, Option.getD_some, h, orValueError, bind, Except.bind]
    simp only [Option.map_some]
    rw [em]
    rfl

theorem listKind_target (k v : Str) : ∃ p ∈ [] :: listPrefixes, k = p ++ (listKind c k v).1 ∧
    (p = [] → ∀ q ∈ listPrefixes, ¬ q <+: k) := by
  unfold listKind
  cases h1 : afterPrefix "bool__".toList k with
  | some n => exact ⟨_, by decide, afterPrefix_some.1 h1, fun h => absurd h (by decide)⟩
  | none =>
  cases h2 : afterPrefix "float__".toList k with
  | some n => exact ⟨_, by decide, afterPrefix_some.1 h2, fun h => absurd h (by decide)⟩
  | none =>
  cases h3 : afterPrefix "int__".toList k with
  | some n => exact ⟨_, by decide, afterPrefix_some.1 h3, fun h => absurd h (by decide)⟩
  | none =>
  cases h4 : afterPrefix "datetime__".toList k with
  | some n => exact ⟨_, by decide, afterPrefix_some.1 h4, fun h => absurd h (by decide)⟩
  | none =>
    refine ⟨[], by decide, rfl, ?_⟩
    intro _ q hq
    simp only [listPrefixes, List.map_cons, List.map_nil, List.mem_cons, List.not_mem_nil, or_false] at hq
    rcases hq with rfl | rfl | rfl | rfl
    exacts [afterPrefix_none.1 h1, afterPrefix_none.1 h2, afterPrefix_none.1 h3, afterPrefix_none.1 h4]

/-- The name of an entry is its target. -/
theorem processEntry_target {k : Str} {v : Option Str} {n : Str} {w : Spec F D P} (h : processEntry c (k, v) = .ok (n, w)) :
    Target k n := by
  unfold processEntry at h
  simp only at h
  cases h1 : afterPrefix "datetime__".toList k with
  | some n' =>
    rw [h1] at h
    simp only at h
    rw [afterPrefix_some.1 h1]
    split at h
    · simp at h
    · rename_i v' _
      cases hd : toDt c (strip c.ws (splitFmt v').1) ((splitFmt v').2.map (strip c.ws)) with
      | error e => rw [hd] at h; simp [bind, Except.bind] at h
      | ok d =>
        rw [hd] at h
        obtain ⟨rfl, _⟩ := Prod.mk.inj (Except.ok.inj h)
        exact .typed (by decide)
  | none =>
  rw [h1] at h
  cases h2 : afterPrefix "path__".toList k with
  | some n' =>
    rw [h2] at h
    simp only at h
    rw [afterPrefix_some.1 h2]
    split at h
    · simp at h
    · split_ifs at h
      · obtain ⟨rfl, _⟩ := Prod.mk.inj (Except.ok.inj h)
        exact .typed (by decide)
      · obtain ⟨rfl, _⟩ := Prod.mk.inj (Except.ok.inj h)
        exact .typed (by decide)
  | none =>
  rw [h2] at h
  cases h3 : afterPrefix "bool__".toList k with
  | some n' =>
    rw [h3] at h
    simp only at h
    rw [afterPrefix_some.1 h3]
    cases hd : getboolean v with
    | error e => rw [hd] at h; simp [bind, Except.bind] at h
    | ok d =>
      rw [hd] at h
      obtain ⟨rfl, _⟩ := Prod.mk.inj (Except.ok.inj h)
      exact .typed (by decide)
  | none =>
  rw [h3] at h
  cases h4 : afterPrefix "float__".toList k with
  | some n' =>
    rw [h4] at h
    simp only at h
    rw [afterPrefix_some.1 h4]
    cases hd : getfloat c v with
    | error e => rw [hd] at h; simp [bind, Except.bind] at h
    | ok d =>
      rw [hd] at h
      obtain ⟨rfl, _⟩ := Prod.mk.inj (Except.ok.inj h)
      exact .typed (by decide)
  | none =>
  rw [h4] at h
  cases h5 : afterPrefix "int__".toList k with
  | some n' =>
    rw [h5] at h
    simp only at h
    rw [afterPrefix_some.1 h5]
    cases hd : getint c v with
    | error e => rw [hd] at h; simp [bind, Except.bind] at h
    | ok d =>
      rw [hd] at h
      obtain ⟨rfl, _⟩ := Prod.mk.inj (Except.ok.inj h)
      exact .typed (by decide)
  | none =>
  rw [h5] at h
  cases h6 : afterPrefix "list__".toList k with
  | some lk =>
    rw [h6] at h
    simp only at h
    rw [afterPrefix_some.1 h6]
    unfold listEntry at h
    split at h
    · simp at h
    · rename_i v' _
      split_ifs at h
      obtain ⟨p, hp, hk, hnil⟩ := listKind_target c lk v'
      have hn : (listKind c lk v').1 = n := by
        cases hm : (splitChar ',' (inner (strip c.ws (listKind c lk v').2.1))).mapM
            (fun s => (listKind c lk v').2.2 (strip c.ws s)) with
        | error e => simp only [hm, bind, Except.bind] at h; simp at h
        | ok l =>
          simp only [hm, bind, Except.bind] at h
          exact (Prod.mk.inj (Except.ok.inj h)).1
      rw [hn] at hk
      rcases List.mem_cons.1 hp with rfl | hp
      · have := hnil rfl
        rw [List.nil_append] at hk
        rw [hk] at this ⊢
        exact .list this
      · rw [hk]
        exact .listTyped hp
  | none =>
    rw [h6] at h
    obtain ⟨rfl, _⟩ := Prod.mk.inj (Except.ok.inj h)
    refine .plain ?_ (afterPrefix_none.1 h6)
    intro p hp
    simp only [prefixes, List.map_cons, List.map_nil, List.mem_cons, List.not_mem_nil, or_false] at hp
    rcases hp with rfl | rfl | rfl | rfl | rfl
    exacts [afterPrefix_none.1 h1, afterPrefix_none.1 h2, afterPrefix_none.1 h3, afterPrefix_none.1 h4, afterPrefix_none.1 h5]

theorem processSpecs_form {inp : Section} {d : Dict Str (Spec F D P)} (h : processSpecs c inp = .ok d) :
    ∃ r, inp.mapM (processEntry c) = .ok r ∧ d = Dict.ofList r := by
  unfold processSpecs at h
  rw [foldlM_set] at h
  cases hm : inp.mapM (processEntry c) with
  | error e => rw [hm] at h; simp [bind, Except.bind] at h
  | ok r => rw [hm] at h; exact ⟨r, rfl, (Except.ok.inj h).symm⟩

/-- C45: an entry of the documented form is available under its name with the converted value, whatever the other entries
are, provided that no other entry has the same name. -/
theorem C45_typed_partial (h1 : c.ws '[' = false) (h2 : c.ws ']' = false) {inp : Section} {d : Dict Str (Spec F D P)}
    (h : processSpecs c inp = .ok d) {k : Str} {v : Option Str} {n : Str} {w : Spec F D P} (hm : (k, v) ∈ inp)
    (he : Entry c k v n w) (hu : ∀ e ∈ inp, Target e.1 n → e = (k, v)) : d.get? n = some w := by
  obtain ⟨r, hr, rfl⟩ := processSpecs_form c h
  have hok := processEntry_ok c h1 h2 he
  have hall : ∀ w', (n, w') ∈ r → w' = w := by
    intro w' hw
    obtain ⟨e, hei, heq⟩ := (mem_mapM hr _).1 hw
    have := hu e hei (processEntry_target c (k := e.1) (v := e.2) heq)
    rw [this, hok] at heq
    exact (Prod.mk.inj (Except.ok.inj heq)).2.symm
  have hin : (n, w) ∈ r := (mem_mapM hr _).2 ⟨_, hm, hok⟩
  rw [Dict.ofList, Dict.get?_update', Dict.get?_nil, Option.or_none]
  cases hf : r.reverse.find? fun e => decide (e.1 = n) with
  | none =>
    have := List.find?_eq_none.1 hf _ (List.mem_reverse.2 hin)
    simp at this
  | some p =>
    have hp := List.find?_some hf
    simp only [decide_eq_true_eq] at hp
    have hpm := List.mem_reverse.1 (List.mem_of_find?_eq_some hf)
    have : p.2 = w := hall p.2 (by rw [← hp]; exact hpm)
    rw [Option.map_some, this]

/-- C45: the names are exactly the keys without type prefix. -/
theorem C45_names {inp : Section} {d : Dict Str (Spec F D P)} (h : processSpecs c inp = .ok d) (n : Str) :
    n ∈ d.keys ↔ ∃ e ∈ inp, Target e.1 n := by
  obtain ⟨r, hr, rfl⟩ := processSpecs_form c h
  have hk : n ∈ (Dict.ofList r).keys ↔ n ∈ r.map Prod.fst := by
    rw [Dict.ofList, Dict.mem_keys_update]; simp [Dict.keys]
  have tfun : ∀ {k n n' : Str}, Target k n → Target k n' → n = n' := by
    have pf : ∀ p ∈ prefixes, ∀ q ∈ prefixes, p ≠ q → (p.zip q).any (fun x => x.1 ≠ x.2) = true := by decide
    have pl : ∀ p ∈ prefixes, (p.zip "list__".toList).any (fun x => x.1 ≠ x.2) = true := by decide
    have pl' : ∀ p ∈ prefixes, ("list__".toList.zip p).any (fun x => x.1 ≠ x.2) = true := by decide
    have ll : ∀ p ∈ listPrefixes, ∀ q ∈ listPrefixes, p ≠ q → (p.zip q).any (fun x => x.1 ≠ x.2) = true := by decide
    have npre : ∀ {p q : Str} (k k' : Str), (p.zip q).any (fun x => x.1 ≠ x.2) = true → p ++ k ≠ q ++ k' := by
      intro p q k k' hz e
      have := afterPrefix_none.1 (after_other (p := p) (q := q) k' hz)
      exact this ⟨k, e⟩
    have main : ∀ {k n}, Target k n → ∀ {k' n'}, Target k' n' → k = k' → n = n' := by
      intro k n t1 k' n' t2 e
      cases t1 with
      | @typed p _ hp =>
        cases t2 with
        | @typed q _ hq =>
          by_cases hpq : p = q
          · subst hpq; exact List.append_cancel_left e
          · exact absurd e (npre _ _ (pf p hp q hq hpq))
        | listTyped hq => exact absurd e (npre _ _ (pl p hp))
        | list hq => exact absurd e (npre _ _ (pl p hp))
        | plain hq _ => exact absurd ⟨n, e⟩ (hq p hp)
      | @listTyped p _ hp =>
        cases t2 with
        | @typed q _ hq => exact absurd e (npre _ _ (pl' q hq))
        | @listTyped q _ hq =>
          have e' := List.append_cancel_left e
          by_cases hpq : p = q
          · subst hpq; exact List.append_cancel_left e'
          · exact absurd e' (npre _ _ (ll p hp q hq hpq))
        | list hq => exact absurd ⟨n, List.append_cancel_left e⟩ (hq p hp)
        | plain _ hq => exact absurd ⟨_, e⟩ hq
      | list hp =>
        cases t2 with
        | @typed q _ hq => exact absurd e (npre _ _ (pl' q hq))
        | @listTyped q _ hq => exact absurd ⟨_, (List.append_cancel_left e).symm⟩ (hp q hq)
        | list hq => exact List.append_cancel_left e
        | plain _ hq => exact absurd ⟨_, e⟩ hq
      | plain hp hl =>
        cases t2 with
        | @typed q _ hq => exact absurd ⟨_, e.symm⟩ (hp q hq)
        | @listTyped q _ hq => exact absurd ⟨_, e.symm⟩ hl
        | list hq => exact absurd ⟨_, e.symm⟩ hl
        | plain _ hq => exact e
    intro k n n' t1 t2
    exact main t1 t2 rfl
  rw [hk]
  constructor
  · intro hn
    obtain ⟨p, hp, rfl⟩ := List.mem_map.1 hn
    obtain ⟨e, he, heq⟩ := (mem_mapM hr _).1 hp
    exact ⟨e, he, processEntry_target c (k := e.1) (v := e.2) heq⟩
  · rintro ⟨e, he, ht⟩
    have h2 := (mapM_ok_iff _ _ _).1 hr
    have hex : ∃ p ∈ r, processEntry c e = .ok p := by
      have hok := (mapM_isOk_iff (processEntry c) inp).1 ⟨r, hr⟩ e he
      obtain ⟨p, hp⟩ := hok
      exact ⟨p, (mem_mapM hr p).2 ⟨e, he, hp⟩, hp⟩
    obtain ⟨p, hp, heq⟩ := hex
    have := tfun ht (processEntry_target c (k := e.1) (v := e.2) heq)
    rw [this]
    exact List.mem_map_of_mem hp

/-- C45: the value of an entry is the same in any two sections that contain the entry (and no other entry of the same
name). -/
theorem C45_independent_partial {inp inp' : Section} {d d' : Dict Str (Spec F D P)} (h : processSpecs c inp = .ok d)
    (h' : processSpecs c inp' = .ok d') {e : Str × Option Str} {n : Str} (hm : e ∈ inp) (hm' : e ∈ inp')
    (ht : Target e.1 n) (hu : ∀ e' ∈ inp, Target e'.1 n → e' = e) (hu' : ∀ e' ∈ inp', Target e'.1 n → e' = e) :
    d.get? n = d'.get? n := by
  have key : ∀ {inp : Section} {d : Dict Str (Spec F D P)}, processSpecs c inp = .ok d → e ∈ inp →
      (∀ e' ∈ inp, Target e'.1 n → e' = e) → ∃ w, processEntry c e = .ok (n, w) ∧ d.get? n = some w := by
    intro inp d h hm hu
    have hn := (C45_names c h n).2 ⟨e, hm, ht⟩
    obtain ⟨r, hr, rfl⟩ := processSpecs_form c h
    obtain ⟨w, hw⟩ := Option.isSome_iff_exists.1 ((Dict.get?_isSome _ n).2 hn)
    refine ⟨w, ?_, hw⟩
    rw [Dict.ofList, Dict.get?_update', Dict.get?_nil, Option.or_none] at hw
    cases hf : r.reverse.find? fun e => decide (e.1 = n) with
    | none => rw [hf] at hw; simp at hw
    | some p =>
      rw [hf] at hw
      simp only [Option.map_some, Option.some.injEq] at hw
      have hp := List.find?_some hf
      simp only [decide_eq_true_eq] at hp
      have hpm := List.mem_reverse.1 (List.mem_of_find?_eq_some hf)
      obtain ⟨e', he', heq⟩ := (mem_mapM hr _).1 hpm
      have hpe : p = (n, w) := by rw [← hp, ← hw]
      rw [hpe] at heq
      rw [← hu e' he' (processEntry_target c (k := e'.1) (v := e'.2) heq)]
      exact heq
  obtain ⟨w, e1, g1⟩ := key h hm hu
  obtain ⟨w', e2, g2⟩ := key h' hm' hu'
  rw [e1] at e2
  rw [g1, g2, (Prod.mk.inj (Except.ok.inj e2)).2]

/-- C45: the section is accepted exactly if every single entry is accepted on its own. -/
theorem C45_accepted (inp : Section) : (∃ d, processSpecs c inp = .ok d) ↔
    ∀ e ∈ inp, ∃ d, processSpecs c [e] = .ok d := by
  have single : ∀ e, (∃ d, processSpecs c [e] = .ok d) ↔ ∃ p, processEntry c e = .ok p := by
    intro e
    unfold processSpecs
    rw [foldlM_set]
    cases h : processEntry c e with
    | error err => simp [List.mapM_cons, h, bind, Except.bind]
    | ok p => simp [List.mapM_cons, h, bind, Except.bind, pure, Except.pure]
  simp only [single]
  unfold processSpecs
  rw [foldlM_set, ← mapM_isOk_iff]
  cases inp.mapM (processEntry c) <;> simp [bind, Except.bind]

/-- C45: an entry with a type prefix but without value (or with the value `None`) is rejected, as are words that are not
boolean, strings that are not numbers and lists without brackets. -/
theorem C45_rejected (n s : Str) :
    (∀ v : Option Str, v = none ∨ v = some "None".toList → c.float "None".toList = none → c.int "None".toList = none →
      ∀ p ∈ "list__".toList :: prefixes, ∃ err, processSpecs c [(p ++ n, v)] = .error err) ∧
    ((∀ b, ¬ BoolWord s b) → processSpecs c [("bool__".toList ++ n, some s)] = .error .valueError) ∧
    (c.float s = none → processSpecs c [("float__".toList ++ n, some s)] = .error .valueError) ∧
    (c.int s = none → processSpecs c [("int__".toList ++ n, some s)] = .error .valueError) ∧
    (s.head? ≠ some '[' → s ≠ "None".toList → processSpecs c [("list__".toList ++ n, some s)] = .error .assertionError) := by
  have single : ∀ e err, processEntry c e = .error err → processSpecs c [e] = .error err := by
    intro e err h
    unfold processSpecs
    rw [foldlM_set]
    simp [List.mapM_cons, h, bind, Except.bind]
  have hbool : ∀ s, (∀ b, ¬ BoolWord s b) → toBool s = .error .valueError := by
    intro s h
    cases ht : toBool s with
    | ok b => exact absurd ((toBool_iff s b).1 ht) (h b)
    | error e =>
      unfold toBool at ht
      simp only at ht
      split_ifs at ht
      rw [Except.error.inj ht]
  refine ⟨?_, ?_, ?_, ?_, ?_⟩
  · intro v hv hf hi p hp
    have hv' : (if v = some "None".toList then none else v) = (none : Option Str) := by
      rcases hv with rfl | rfl <;> simp
    have hnb : ∀ b, ¬ BoolWord "None".toList b := by unfold BoolWord; decide +kernel
    simp only [prefixes, List.map_cons, List.map_nil, List.mem_cons, List.not_mem_nil, or_false] at hp
    rcases hp with rfl | rfl | rfl | rfl | rfl | rfl
    · refine ⟨.attributeError, single _ _ ?_⟩
      unfold processEntry
      simp only [hv']
      rw [after_other _ (by decide), after_other _ (by decide), after_other _ (by decide), after_other _ (by decide),
        after_other _ (by decide), afterPrefix_some.2 (rfl : "list__".toList ++ n = _)]
      rfl
    · refine ⟨.attributeError, single _ _ ?_⟩
      unfold processEntry
      simp only [hv', after_datetime]
    · refine ⟨.attributeError, single _ _ ?_⟩
      unfold processEntry
      simp only [hv']
      rw [after_other _ (by decide), afterPrefix_some.2 (rfl : "path__".toList ++ n = _)]
    · rcases hv with rfl | rfl
      · refine ⟨.attributeError, single _ _ ?_⟩
        unfold processEntry
        simp only
        rw [after_other _ (by decide), after_other _ (by decide), afterPrefix_some.2 (rfl : "bool__".toList ++ n = _)]
        rfl
      · refine ⟨.valueError, single _ _ ?_⟩
        unfold processEntry
        simp only
        rw [after_other _ (by decide), after_other _ (by decide), afterPrefix_some.2 (rfl : "bool__".toList ++ n = _)]
        simp only [getboolean, hbool _ hnb, bind, Except.bind]
    · rcases hv with rfl | rfl
      · refine ⟨.typeError, single _ _ ?_⟩
        unfold processEntry
        simp only
        rw [after_other _ (by decide), after_other _ (by decide), after_other _ (by decide),
          afterPrefix_some.2 (rfl : "float__".toList ++ n = _)]
        rfl
      · refine ⟨.valueError, single _ _ ?_⟩
        unfold processEntry
        simp only
        rw [after_other _ (by decide), after_other _ (by decide), after_other _ (by decide),
          afterPrefix_some.2 (rfl : "float__".toList ++ n = _)]
        simp only [getfloat, hf, orValueError, bind, Except.bind]
    · rcases hv with rfl | rfl
      · refine ⟨.typeError, single _ _ ?_⟩
        unfold processEntry
        simp only
        rw [after_other _ (by decide), after_other _ (by decide), after_other _ (by decide), after_other _ (by decide),
          afterPrefix_some.2 (rfl : "int__".toList ++ n = _)]
        rfl
      · refine ⟨.valueError, single _ _ ?_⟩
        unfold processEntry
        simp only
        rw [after_other _ (by decide), after_other _ (by decide), after_other _ (by decide), after_other _ (by decide),
          afterPrefix_some.2 (rfl : "int__".toList ++ n = _)]
        simp only [getint, hi, orValueError, bind, Except.bind]
  · intro h
    apply single
    unfold processEntry
    simp only
    rw [after_other _ (by decide), after_other _ (by decide), afterPrefix_some.2 (rfl : "bool__".toList ++ n = _)]
    simp only [getboolean, hbool _ h, bind, Except.bind]
  · intro h
    apply single
    unfold processEntry
    simp only
    rw [after_other _ (by decide), after_other _ (by decide), after_other _ (by decide),
      afterPrefix_some.2 (rfl : "float__".toList ++ n = _)]
    simp only [getfloat, h, orValueError, bind, Except.bind]
  · intro h
    apply single
    unfold processEntry
    simp only
    rw [after_other _ (by decide), after_other _ (by decide), after_other _ (by decide), after_other _ (by decide),
      afterPrefix_some.2 (rfl : "int__".toList ++ n = _)]
    simp only [getint, h, orValueError, bind, Except.bind]
  · intro h hs
    apply single
    unfold processEntry
    simp only
    rw [after_other _ (by decide), after_other _ (by decide), after_other _ (by decide), after_other _ (by decide),
      after_other _ (by decide), afterPrefix_some.2 (rfl : "list__".toList ++ n = _), if_neg (by simpa using hs)]
    simp only [listEntry]
    rw [if_neg (fun h' => h h'.1)]

/-- C45: the full statement fails: entries with different types and the same name influence each other (the last one is
kept). -/
theorem C45_collision_fails (c : Conv F D P) (x : F) (hx : c.float "2".toList = some x) (hi : c.int "1".toList = some 1) :
    ∃ d, processSpecs c [("int__a".toList, some "1".toList), ("float__a".toList, some "2".toList)] = .ok d ∧
      Entry c "int__a".toList (some "1".toList) "a".toList (.item (.int 1)) ∧ d.get? "a".toList = some (.item (.float x)) := by
  refine ⟨[("a".toList, .item (.float x))], ?_, Entry.int (n := "a".toList) hi, rfl⟩
  have e1 : processEntry c ("int__a".toList, some "1".toList) = .ok ("a".toList, .item (.int 1)) := by
    have e : "int__a".toList = "int__".toList ++ "a".toList := by decide +kernel
    rw [e]
    unfold processEntry
    simp only
    rw [after_other _ (by decide), after_other _ (by decide), after_other _ (by decide), after_other _ (by decide),
      afterPrefix_some.2 (rfl : "int__".toList ++ "a".toList = _)]
    simp only [getint, hi, orValueError, bind, Except.bind]
  have e2 : processEntry c ("float__a".toList, some "2".toList) = .ok ("a".toList, .item (.float x)) := by
    have e : "float__a".toList = "float__".toList ++ "a".toList := by decide +kernel
    rw [e]
    unfold processEntry
    simp only
    rw [after_other _ (by decide), after_other _ (by decide), after_other _ (by decide),
      afterPrefix_some.2 (rfl : "float__".toList ++ "a".toList = _)]
    simp only [getfloat, hx, orValueError, bind, Except.bind]
  unfold processSpecs
  rw [foldlM_set]
  simp only [List.mapM_cons, List.mapM_nil, e1, e2, bind, Except.bind, pure, Except.pure]
  rfl

/-- C45: no list entry gives an empty list (`list__x = []` gives `['']`). -/
theorem C45_empty_list_fails {k : Str} {v : Option Str} {n : Str} {l : List (Item F D)}
    (h : processEntry c ("list__".toList ++ k, v) = .ok (n, .list l)) : l ≠ [] := by
  unfold processEntry at h
  simp only at h
  rw [after_other _ (by decide), after_other _ (by decide), after_other _ (by decide), after_other _ (by decide),
    after_other _ (by decide), afterPrefix_some.2 (rfl : "list__".toList ++ k = _)] at h
  simp only [listEntry] at h
  split at h
  · simp at h
  · rename_i v' _
    split_ifs at h
    cases hm : (splitChar ',' (inner (strip c.ws (listKind c k v').2.1))).mapM
        (fun s => (listKind c k v').2.2 (strip c.ws s)) with
    | error e => simp only [hm, bind, Except.bind] at h; simp at h
    | ok r =>
      simp only [hm, bind, Except.bind] at h
      have hlr := (Prod.mk.inj (Except.ok.inj h)).2
      simp only [Spec.list.injEq] at hlr
      rintro rfl
      rw [hlr] at hm
      have := ((mapM_ok_iff _ _ _).1 hm).length_eq
      exact splitChar_ne_nil _ _ (List.length_eq_zero_iff.1 this)

/-- Conversion functions for the examples (natural numbers as floats, dates as strings). -/
def exConv : Conv Nat (List Char × List Char) (List Char) where
  float s := some (s.foldl (fun n x => 10 * n + (x.toNat - 48)) 0)
  int s := some (s.foldl (fun n x => 10 * n + (x.toNat - 48 : Int)) 0)
  strptime s f := some (s, f)
  path s := s
  resolve _ := none
  ws x := x = ' '
  upper x := x.isUpper

example : processSpecs exConv [("int__n".toList, some "12".toList), ("list__float__l".toList, some "[1, 2,3]".toList),
    ("datetime__d".toList, some "1.1.2018 fmt= %d.%m.%Y".toList), ("bool__q".toList, some "Yes".toList),
    ("name".toList, some "abc".toList), ("nothing".toList, some "None".toList),
    ("list__datetime__t".toList, some "[1.1., 2.1.] fmt=%d.%m.".toList)] =
    .ok [("n".toList, .item (.int 12)), ("l".toList, .list [.float 1, .float 2, .float 3]),
      ("d".toList, .item (.datetime ("1.1.2018".toList, "%d.%m.%Y".toList))), ("q".toList, .item (.bool true)),
      ("name".toList, .item (.str "abc".toList)), ("nothing".toList, .none),
      ("t".toList, .list [.datetime ("1.1.".toList, "%d.%m.".toList), .datetime ("2.1.".toList, "%d.%m.".toList)])] := by
  decide +kernel

end RT1.Config
