import Verif.Model.MetricReport
import Verif.Props.MetricKeys
import Verif.Props.ModelDef
import Mathlib.Data.List.Nodup
import Mathlib.Algebra.Order.Round
import Mathlib.Data.Real.Archimedean
import Mathlib.Tactic.Linarith
import Mathlib.Data.List.Lemmas

/-!
# C119: all metrics are available and listed in the reports
-/

namespace RT1.MetricReport
open General MetricKeys
open ModelDef (Plain strip)

/-! ## The attributes -/

/-- `fit.metric.<d1>.<d2>` -/
def lookup (a : Attrs) (d1 d2 : Str) : Option Pair := (a.get? d1).bind fun b => b.get? d2

theorem lookup_set (a : Attrs) (k1 k2 : Str) (p : Pair) (d1 d2 : Str) :
    lookup (a.set k1 (((a.get? k1).getD []).set k2 p)) d1 d2 = if d1 = k1 ∧ d2 = k2 then some p else lookup a d1 d2 := by
  unfold lookup
  rw [Dict.get?_set]
  by_cases h1 : d1 = k1
  · subst h1
    rw [if_pos rfl, Option.bind_some, Dict.get?_set]
    by_cases h2 : d2 = k2
    · simp [h2]
    · rw [if_neg h2, if_neg (by simp [h2])]
      cases a.get? d1 <;> rfl
  · rw [if_neg h1, if_neg (by simp [h1])]

theorem addPairs (keys : Dict Str Source) (ps : List (Str × Str)) (h : ∀ k ∈ ps, k.1 ∉ reserved ∧ ∃ p, newPair keys k.1 k.2 = .ok p)
    (a : Attrs) : ∃ a', ps.foldlM (addPair keys) a = .ok a' ∧ ∀ d1 d2,
      lookup a' d1 d2 = if (d1, d2) ∈ ps then (newPair keys d1 d2).toOption else lookup a d1 d2 := by
  induction ps generalizing a with
  | nil => exact ⟨a, rfl, fun d1 d2 => by simp⟩
  | cons k ps ih =>
    obtain ⟨h1, p, hp⟩ := h k (by simp)
    obtain ⟨a', e1, e2⟩ := ih (fun k hk => h k (List.mem_cons_of_mem _ hk)) (a.set k.1 (((a.get? k.1).getD []).set k.2 p))
    refine ⟨a', ?_, fun d1 d2 => ?_⟩
    · rw [List.foldlM_cons]
      have : addPair keys a k = .ok (a.set k.1 (((a.get? k.1).getD []).set k.2 p)) := by
        unfold addPair; rw [if_neg h1, hp]; rfl
      rw [this]; exact e1
    · rw [e2, lookup_set]
      by_cases hm : (d1, d2) ∈ ps
      · rw [if_pos hm, if_pos (List.mem_cons_of_mem _ hm)]
      · rw [if_neg hm]
        by_cases he : d1 = k.1 ∧ d2 = k.2
        · rw [if_pos he, he.1, he.2, if_pos (by simp), hp]; rfl
        · rw [if_neg he, if_neg]
          intro e
          rcases List.mem_cons.mp e with e | e
          · exact he ⟨congrArg Prod.fst e, congrArg Prod.snd e⟩
          · exact hm e

theorem mem_permutations2 {α : Type} {l : List α} (hn : l.Nodup) (a b : α) :
    (a, b) ∈ permutations2 l ↔ a ∈ l ∧ b ∈ l ∧ a ≠ b := by
  unfold permutations2
  simp only [List.mem_flatMap, List.mem_filterMap, Prod.exists, List.mem_zipIdx_iff_getElem?]
  constructor
  · rintro ⟨x, i, hx, y, j, hy, e⟩
    by_cases hij : i ≠ j
    · rw [if_pos hij] at e
      obtain ⟨rfl, rfl⟩ := Prod.mk.inj (Option.some.inj e)
      refine ⟨List.mem_of_getElem? hx, List.mem_of_getElem? hy, fun e => hij ?_⟩
      subst e
      obtain ⟨hi, _⟩ := List.getElem?_eq_some_iff.mp hx
      exact (List.getElem?_inj hi hn).mp (hx.trans hy.symm)
    · rw [if_neg hij] at e; cases e
  · rintro ⟨ha, hb, hne⟩
    obtain ⟨i, hi⟩ := List.mem_iff_getElem?.mp ha
    obtain ⟨j, hj⟩ := List.mem_iff_getElem?.mp hb
    refine ⟨a, i, hi, b, j, hj, if_pos fun e => hne ?_⟩
    subst e
    exact Option.some.inj (hi.symm.trans hj)

theorem resolve_label {c : Cols} (hd : Distinct c) (hc : Clean c) {d : Str} {s : Source} {k : Str} (h : IsLabel c s k d) :
    resolve (checkKeys c) d = .ok (s, k) := by
  have h := (C69_metric_keys_partial hd hc d s k).2 h
  unfold getData at h
  cases hr : resolve (checkKeys c) d with
  | error e => rw [hr] at h; cases h
  | ok x =>
    obtain ⟨s', k'⟩ := x
    rw [hr] at h
    change (if k' ∈ c.colsOf s' then _ else _) = _ at h
    split at h
    · exact h
    · cases h

theorem keys_label {c : Cols} (hd : Distinct c) (hc : Clean c) (d : Str) : d ∈ (checkKeys c).keys ↔ ∃ s k, IsLabel c s k d := by
  rw [← Dict.get?_isSome, Option.isSome_iff_exists]
  simp only [checkKeys_iff hd hc]

/-- **C119**: exactly the pairs of different keys are available as attributes, with the columns of the two keys in this order. -/
theorem C119_attributes_partial {c : Cols} (hd : Distinct c) (hc : Clean c) (hr : ∀ s k d, IsLabel c s k d → d ∉ reserved) :
    ∃ a, metricKeys (checkKeys c) none none = .ok a ∧ ∀ d1 d2 p, lookup a d1 d2 = some p ↔
      d1 ≠ d2 ∧ IsLabel c p.1.1 p.1.2 d1 ∧ IsLabel c p.2.1 p.2.2 d2 := by
  have hn : (checkKeys c).keys.Nodup := Dict.nodup_update (d := []) (by simp [Dict.keys]) _
  have hp : ∀ d1 d2, d1 ∈ (checkKeys c).keys → d2 ∈ (checkKeys c).keys → ∃ p : Pair, newPair (checkKeys c) d1 d2 = .ok p ∧
      IsLabel c p.1.1 p.1.2 d1 ∧ IsLabel c p.2.1 p.2.2 d2 := by
    intro d1 d2 h1 h2
    obtain ⟨s1, k1, l1⟩ := (keys_label hd hc d1).1 h1
    obtain ⟨s2, k2, l2⟩ := (keys_label hd hc d2).1 h2
    refine ⟨((s1, k1), (s2, k2)), ?_, l1, l2⟩
    unfold newPair; rw [resolve_label hd hc l1, resolve_label hd hc l2]; rfl
  obtain ⟨a, e1, e2⟩ := addPairs (checkKeys c) (permutations2 (checkKeys c).keys) (fun k hk => by
    obtain ⟨h1, h2, -⟩ := (mem_permutations2 hn k.1 k.2).1 hk
    obtain ⟨s, k', l⟩ := (keys_label hd hc _).1 h1
    obtain ⟨p, e, -⟩ := hp _ _ h1 h2
    exact ⟨hr _ _ _ l, p, e⟩) []
  refine ⟨a, e1, fun d1 d2 p => ?_⟩
  rw [e2]
  by_cases hm : (d1, d2) ∈ permutations2 (checkKeys c).keys
  · obtain ⟨h1, h2, hne⟩ := (mem_permutations2 hn d1 d2).1 hm
    obtain ⟨q, e, l1, l2⟩ := hp _ _ h1 h2
    rw [if_pos hm, e]
    constructor
    · intro h
      obtain rfl : q = p := Option.some.inj h
      exact ⟨hne, l1, l2⟩
    · rintro ⟨-, m1, m2⟩
      obtain ⟨a1, a2⟩ := label_inj hc l1 m1
      obtain ⟨b1, b2⟩ := label_inj hc l2 m2
      exact congrArg some (Prod.ext (Prod.ext a1 a2) (Prod.ext b1 b2))
  · rw [if_neg hm]
    constructor
    · intro h; cases h
    · rintro ⟨hne, m1, m2⟩
      exact absurd ((mem_permutations2 hn d1 d2).2 ⟨(keys_label hd hc d1).2 ⟨_, _, m1⟩, (keys_label hd hc d2).2 ⟨_, _, m2⟩, hne⟩) hm

/-- **C119** is violated: metrics cannot be created for a single pair: neither for two names, nor for a name and a series. -/
theorem C119_pair_fails (keys : Dict Str Source) (d1 d2 : Str) :
    metricKeys keys (some d1) (some (.name d2)) = .error .typeError ∧ ∀ a, metricKeys keys (some d1) (some .series) ≠ .ok a := by
  refine ⟨rfl, fun a => ?_⟩
  show (if d1 ∈ keys.keys then Except.error PyErr.typeError else Except.error PyErr.assertionError) ≠ _
  split <;> simp

/-- **C119** is violated: a column with the name of a private attribute: no metrics at all. -/
theorem C119_reserved_fails : ∃ c : Cols, Distinct c ∧ "_all_keys".toList ∈ c.data ∧
    metricKeys (checkKeys c) none none = .error .attributeError :=
  ⟨⟨["sig".toList, "_all_keys".toList], false, [], none⟩, by intro s; cases s <;> decide +kernel, by decide +kernel, by rfl⟩

/-! ## The table -/

variable {N : Type}

/-- A line of the table: the level, the name and the text of the value (empty for dicts). -/
abbrev Line := Nat × Str × Str

/-- Reading a line. -/
def readLine (l : Str) : Option Line :=
  match l.splitOn '|' with
  | [a, b, _] => some (((a.drop 1).takeWhile (· = '-')).length / 2, strip ((a.drop 1).dropWhile (· = '-')), strip b)
  | _ => none

/-- Reading the table (the first two lines are the header). -/
def readTable (s : Str) : List Line := ((s.splitOn '\n').drop 2).filterMap readLine

/-- What should be listed: all numbers and dicts, sub-dicts with a higher level. -/
def listing (txt : N → Str) (depth : Nat) : Entries N → List Line
  | .nil => []
  | .val k (.float x) r => (depth, k, txt x) :: listing txt depth r
  | .val k (.int x) r => (depth, k, txt x) :: listing txt depth r
  | .val k (.f32 x) r => (depth, k, txt x) :: listing txt depth r
  | .val _ .none r => listing txt depth r
  | .dict k s r => (depth, k, []) :: (listing txt (depth + 1) s ++ listing txt depth r)

/-- A name: not empty, no separators, and no dash at its start. -/
def MName (s : Str) : Prop := Plain s ∧ s.head? ≠ some '-' ∧ s ≠ []

/-- All names are names, and there are no float32 numbers. -/
def Entries.Good : Entries N → Prop
  | .nil => True
  | .val k v r => MName k ∧ (∀ x, v ≠ .f32 x) ∧ r.Good
  | .dict k s r => MName k ∧ s.Good ∧ r.Good

/-- The number of levels below. -/
def Entries.levels : Entries N → Nat
  | .nil => 0
  | .val _ _ r => r.levels
  | .dict _ s r => max (s.levels + 1) r.levels

/-- The text of a number: 6 decimals, or scientific for large numbers. -/
def numText (F : Fmt N) (x : N) : Str := if F.small x then F.fix6 x else F.sci6 x

theorem takeWhile_dashes (n : Nat) {s : Str} (h : s.head? ≠ some '-') :
    (List.replicate n '-' ++ s).takeWhile (· = '-') = List.replicate n '-' ∧ (List.replicate n '-' ++ s).dropWhile (· = '-') = s := by
  have h0 : s.takeWhile (· = '-') = [] ∧ s.dropWhile (· = '-') = s := by
    cases s with
    | nil => exact ⟨rfl, rfl⟩
    | cons a l =>
      have : a ≠ '-' := fun e => h (by simp [e])
      exact ⟨List.takeWhile_cons_of_neg (by simpa using this), List.dropWhile_cons_of_neg (by simpa using this)⟩
  rw [List.takeWhile_append_of_pos (by simp), List.dropWhile_append_of_pos (by simp), h0.1, h0.2]
  simp

theorem head_ljust {n : Nat} {s : Str} (h : s ≠ []) : (ljust n s).head? = s.head? := by
  cases s with
  | nil => exact absurd rfl h
  | cons a l => rfl

theorem readLine_eq {depth : Nat} {n : Nat} {k b : Str} (hk : MName k) (hb : '|' ∉ b) :
    readLine (indent depth ++ ljust n k ++ ['|'] ++ b ++ ['|']) = some (depth, k, strip b) := by
  obtain ⟨hp, hd, he⟩ := hk
  have e : indent depth ++ ljust n k ++ ['|'] ++ b ++ ['|'] = ['|'].intercalate [indent depth ++ ljust n k, b, []] := by
    simp [List.intercalate_cons_cons]
  have hs : (indent depth ++ ljust n k ++ ['|'] ++ b ++ ['|']).splitOn '|' = [indent depth ++ ljust n k, b, []] := by
    rw [e, List.splitOn_intercalate]
    · intro l hl
      simp only [List.mem_cons, List.not_mem_nil, or_false] at hl
      rcases hl with rfl | rfl | rfl
      · have := ModelDef.not_mem_ljust (n := n) hp.2.2.1 (x := '|') (by decide)
        simp [indent, this]
      · exact hb
      · simp
    · simp
  unfold readLine
  rw [hs]
  have h2 : (indent depth ++ ljust n k).drop 1 = List.replicate (2 * depth) '-' ++ ljust n k := rfl
  obtain ⟨t1, t2⟩ := takeWhile_dashes (2 * depth) (s := ljust n k) (by rw [head_ljust he]; exact hd)
  dsimp only
  rw [h2, t1, t2]
  congr 1
  have : strip (ljust n k) = k := by rw [ModelDef.strip_ljust, ModelDef.strip_plain hp]
  rw [this]; simp

/-- The lines of a text that ends with a line-break. -/
theorem lines_append {a : Str} (h : '\n' ∉ a) (b : Str) : (a ++ '\n' :: b).splitOn '\n' = a :: b.splitOn '\n' := by
  rw [List.splitOn_append_cons_self, List.splitOn_eq_singleton h]; rfl

/-- The texts of numbers have no separators. -/
def Fmt.Plain (F : Fmt N) : Prop := ∀ x, ModelDef.Plain (F.fix6 x) ∧ ModelDef.Plain (F.sci6 x)

theorem numText_plain {F : Fmt N} (h : F.Plain) (x : N) : ModelDef.Plain (numText F x) := by
  unfold numText; split
  · exact (h x).1
  · exact (h x).2

/-- A row is a line of the table that can be read. -/
theorem read_row {depth n : Nat} {k b : Str} (hk : MName k) (hb : '|' ∉ b) (hn : '\n' ∉ b) (rest : Str) :
    ((indent depth ++ ljust n k ++ ['|'] ++ b ++ ['|', '\n'] ++ rest).splitOn '\n').filterMap readLine =
      (depth, k, strip b) :: (rest.splitOn '\n').filterMap readLine := by
  have e : indent depth ++ ljust n k ++ ['|'] ++ b ++ ['|', '\n'] ++ rest =
      (indent depth ++ ljust n k ++ ['|'] ++ b ++ ['|']) ++ '\n' :: rest := by simp
  have hnl : '\n' ∉ indent depth ++ ljust n k ++ ['|'] ++ b ++ ['|'] := by
    have := ModelDef.not_mem_ljust (n := n) hk.1.2.2.2 (x := '\n') (by decide)
    simp [indent, this, hn]
  rw [e, lines_append hnl, List.filterMap_cons_some (readLine_eq hk hb)]

theorem table_spec {F : Fmt N} (hF : F.Plain) (e : Entries N) : ∀ depth, e.Good → depth + e.levels ≤ 6 →
    ∃ t, tableEntries F depth e = .ok t ∧ ∀ rest, ((t ++ rest).splitOn '\n').filterMap readLine =
      listing (numText F) depth e ++ (rest.splitOn '\n').filterMap readLine := by
  induction e with
  | nil => exact fun depth _ _ => ⟨[], rfl, fun rest => rfl⟩
  | val k v r ih =>
    intro depth hg hl
    obtain ⟨hk, hv, hg⟩ := hg
    obtain ⟨t, e1, e2⟩ := ih depth hg hl
    have hc : metricCell depth k = .ok (ljust (13 - 2 * depth) k) := if_neg (by omega)
    refine ⟨valRow F depth (ljust (13 - 2 * depth) k) v ++ t, ?_, fun rest => ?_⟩
    · unfold tableEntries; rw [hc, e1]; rfl
    · have num : ∀ x, ((indent depth ++ ljust (13 - 2 * depth) k ++ ['|', ' '] ++ valstr F x ++ ['|', '\n'] ++ t ++ rest).splitOn '\n').filterMap
          readLine = (depth, k, numText F x) :: listing (numText F) depth r ++ (rest.splitOn '\n').filterMap readLine := fun x => by
        have hp := numText_plain hF x
        have e : indent depth ++ ljust (13 - 2 * depth) k ++ ['|', ' '] ++ valstr F x ++ ['|', '\n'] ++ t ++ rest
            = indent depth ++ ljust (13 - 2 * depth) k ++ ['|'] ++ (' ' :: ljust 14 (numText F x)) ++ ['|', '\n'] ++ (t ++ rest) := by
          simp [valstr, numText]
        have h1 := ModelDef.not_mem_ljust (n := 14) hp.2.2.1 (x := '|') (by decide)
        have h2 := ModelDef.not_mem_ljust (n := 14) hp.2.2.2 (x := '\n') (by decide)
        rw [e, read_row hk (by simpa using h1) (by simpa using h2), e2, ModelDef.strip_cell hp]; rfl
      cases v with
      | float x => exact num x
      | int x => exact num x
      | f32 x => exact absurd rfl (hv x)
      | none => exact e2 rest
  | dict k s r ihs ihr =>
    intro depth hg hl
    obtain ⟨hk, hgs, hgr⟩ := hg
    have hl' : depth + max (s.levels + 1) r.levels ≤ 6 := hl
    obtain ⟨ts, s1, s2⟩ := ihs (depth + 1) hgs (by omega)
    obtain ⟨tr, r1, r2⟩ := ihr depth hgr (by omega)
    have hc : metricCell depth k = .ok (ljust (13 - 2 * depth) k) := if_neg (by omega)
    refine ⟨dictRow depth (ljust (13 - 2 * depth) k) ++ ts ++ tr, ?_, fun rest => ?_⟩
    · unfold tableEntries; rw [hc, s1, r1]; rfl
    · obtain ⟨m, hm⟩ : ∃ m, dictRow depth (ljust (13 - 2 * depth) k) =
          indent depth ++ ljust (13 - 2 * depth) k ++ ['|'] ++ List.replicate m ' ' ++ ['|', '\n'] := by
        refine ⟨29 - 2 * depth - (ljust (13 - 2 * depth) k ++ ['|']).length, ?_⟩
        simp [dictRow, ljust, ModelDef.ljust]
      have e : dictRow depth (ljust (13 - 2 * depth) k) ++ ts ++ tr ++ rest
          = indent depth ++ ljust (13 - 2 * depth) k ++ ['|'] ++ List.replicate m ' ' ++ ['|', '\n'] ++ (ts ++ (tr ++ rest)) := by
        rw [hm]; simp
      have hb : strip (List.replicate m ' ') = [] := by
        have := ModelDef.strip_append_blank [] (List.replicate m ' ') (ModelDef.blank_replicate m)
        simpa [ModelDef.strip] using this
      rw [e, read_row hk (by simp) (by simp), s2, r2, hb]
      show _ = (depth, k, []) :: (_ ++ _) ++ _
      simp

/-- The entries of a list of metrics. -/
def Metric.Good : Metric N → Prop
  | .val v => ∀ x, v ≠ .f32 x
  | .dict s => s.Good ∧ s.levels ≤ 5

/-- What should be listed for a metric. -/
def metricLines (txt : N → Str) (k : Str) : Metric N → List Line
  | .val .none => []
  | .val (.float x) => [(0, k, txt x)]
  | .val (.int x) => [(0, k, txt x)]
  | .val (.f32 x) => [(0, k, txt x)]
  | .dict s => (0, k, []) :: listing txt 1 s

theorem listing_ofMetrics (txt : N → Str) (l : List (Str × Metric N)) :
    listing txt 0 (ofMetrics l) = l.flatMap fun e => metricLines txt e.1 e.2 := by
  induction l with
  | nil => rfl
  | cons a l ih =>
    obtain ⟨k, m⟩ := a
    rw [List.flatMap_cons, ← ih]
    rcases m with v | s
    · cases v <;> rfl
    · rfl

theorem good_ofMetrics {l : List (Str × Metric N)} (h : ∀ e ∈ l, MName e.1 ∧ e.2.Good) :
    (ofMetrics l).Good ∧ (ofMetrics l).levels ≤ 6 := by
  induction l with
  | nil => exact ⟨trivial, by simp [ofMetrics, Entries.levels]⟩
  | cons a l ih =>
    obtain ⟨k, m⟩ := a
    obtain ⟨h1, h2⟩ := ih fun e he => h e (List.mem_cons_of_mem _ he)
    obtain ⟨hk, hm⟩ := h (k, m) (by simp)
    rcases m with v | s
    · exact ⟨⟨hk, hm, h1⟩, h2⟩
    · refine ⟨⟨hk, hm.1, h1⟩, ?_⟩
      have : s.levels ≤ 5 := hm.2
      show max (s.levels + 1) (ofMetrics l).levels ≤ 6
      omega

theorem allmetrics_ok {fn : Str → Except PyErr (Metric N)} {g : Str → Metric N} (h : ∀ k ∈ registry, fn k = .ok (g k)) :
    allmetrics fn = .ok (registry.map fun k => (k, g k)) := by
  unfold allmetrics
  have : ∀ l : List Str, (∀ k ∈ l, fn k = .ok (g k)) →
      (l.mapM fun k => (fn k).map fun m => (k, m)) = .ok (l.map fun k => (k, g k)) := by
    intro l
    induction l with
    | nil => exact fun _ => rfl
    | cons a l ih =>
      intro h
      rw [List.mapM_cons, h a (by simp), ih fun k hk => h k (List.mem_cons_of_mem _ hk)]
      rfl
  exact this _ h

/-- The nine metrics. -/
def nine : List Str :=
  ["pearson".toList, "spearman".toList, "linregress".toList, "rmsd".toList, "ub_rmsd".toList, "bias".toList, "mae".toList, "mape".toList,
    "std_ratio".toList]

theorem nine_names : ∀ k ∈ registry, MName k := by
  intro k hk
  simp only [registry, List.mem_cons, List.not_mem_nil, or_false] at hk
  rcases hk with rfl | rfl | rfl | rfl | rfl | rfl | rfl | rfl | rfl <;> exact ⟨⟨by decide, by decide, by decide, by decide⟩, by decide, by decide⟩

/-- **C119**: `allmetrics` contains the values of all nine metrics. -/
theorem C119_allmetrics {fn : Str → Except PyErr (Metric N)} {g : Str → Metric N} (h : ∀ k ∈ nine, fn k = .ok (g k)) :
    ∃ l, allmetrics fn = .ok l ∧ l.map Prod.fst = nine ∧ ∀ k m, (k, m) ∈ l ↔ k ∈ nine ∧ m = g k := by
  refine ⟨_, allmetrics_ok h, by simp [registry, nine], fun k m => ?_⟩
  rw [List.mem_map]
  constructor
  · rintro ⟨k', hk', e⟩
    obtain ⟨rfl, rfl⟩ := Prod.mk.inj e
    exact ⟨hk', rfl⟩
  · rintro ⟨hk, rfl⟩; exact ⟨k, hk, rfl⟩

/-- **C119**, for metrics that are no float32 numbers: the printed table lists all metrics and all values of the regression, with their level,
name and value. -/
theorem C119_table_partial {F : Fmt N} (hF : F.Plain) {fn : Str → Except PyErr (Metric N)} {g : Str → Metric N}
    (h : ∀ k ∈ nine, fn k = .ok (g k)) (hg : ∀ k ∈ nine, (g k).Good) :
    ∃ t, metricsTable F fn = .ok t ∧ readTable t = nine.flatMap fun k => metricLines (numText F) k (g k) := by
  have ha := allmetrics_ok h
  obtain ⟨h1, h2⟩ := good_ofMetrics (l := registry.map fun k => (k, g k)) (fun e he => by
    obtain ⟨k, hk, rfl⟩ := List.mem_map.mp he
    exact ⟨nine_names k hk, hg k hk⟩)
  obtain ⟨t, e1, e2⟩ := table_spec hF _ 0 h1 (by omega)
  refine ⟨header ++ columns ++ t, ?_, ?_⟩
  · unfold metricsTable; rw [ha]; dsimp only [bind, Except.bind]; rw [e1]
  · have h1 : header = header.dropLast ++ ['\n'] := by decide
    have h2 : columns = columns.dropLast ++ ['\n'] := by decide
    have e : header ++ columns ++ t = header.dropLast ++ '\n' :: (columns.dropLast ++ '\n' :: (t ++ [])) := by
      rw [h1, h2]; simp
    unfold readTable
    rw [e, lines_append (by decide), lines_append (by decide)]
    show List.filterMap readLine ((t ++ []).splitOn '\n') = _
    rw [e2, listing_ofMetrics, List.flatMap_map]
    show _ ++ List.filterMap readLine [[]] = _
    rw [show List.filterMap readLine [[]] = [] from rfl, List.append_nil]
    rfl

/-- Numbers in the table have an absolute or relative accuracy of 5e-7. -/
theorem C119_accuracy {F : Fmt ℝ} {val : Str → ℝ} (hs : ∀ x, F.small x = true ↔ |x| < 1e5)
    (h6 : ∀ x, |x| < 1e5 → |val (F.fix6 x) - x| ≤ 5e-7) (he : ∀ x, 1e5 ≤ |x| → |val (F.sci6 x) - x| ≤ 5e-7 * |x|) (x : ℝ) :
    |val (numText F x) - x| ≤ 5e-7 * max 1 |x| := by
  unfold numText
  split
  · rename_i h
    exact (h6 x ((hs x).1 h)).trans (by have := le_max_left (1 : ℝ) |x|; linarith)
  · rename_i h
    exact (he x (not_lt.mp fun e => h ((hs x).2 e))).trans (by have := le_max_right (1 : ℝ) |x|; linarith)

/-- **C119** is violated: the table (and the table of the scatterplot) does not contain metrics that are float32 numbers. -/
theorem C119_float32_fails (F : Fmt N) (depth : Nat) (k : Str) (x : N) (r : Entries N) (h : depth ≤ 6) :
    tableEntries F depth (.val k (.f32 x) r) = tableEntries F depth r ∧
      flattenItems depth (.val k (.f32 x) r) = flattenItems depth r := by
  refine ⟨?_, rfl⟩
  have hc : metricCell depth k = .ok (ljust (13 - 2 * depth) k) := if_neg (by omega)
  rw [tableEntries, hc]
  show (tableEntries F depth r >>= fun r => Except.ok ([] ++ r)) = _
  cases tableEntries F depth r <;> rfl

/-! ## The table of the scatterplot -/

/-- The name of an entry: dashes for the level, a blank and the name. -/
def levelName (depth : Nat) (k : Str) : Str := List.replicate depth '-' ++ ' ' :: k

/-- What should be listed next to the scatterplot. -/
def flatListing (depth : Nat) : Entries N → List (Str × Option N)
  | .nil => []
  | .val k (.float x) r => (levelName depth k, some x) :: flatListing depth r
  | .val k (.int x) r => (levelName depth k, some x) :: flatListing depth r
  | .val k (.f32 x) r => (levelName depth k, some x) :: flatListing depth r
  | .val _ .none r => flatListing depth r
  | .dict k s r => (levelName depth k, none) :: (flatListing (depth + 1) s ++ flatListing depth r)

/-- The text of a cell: empty for dicts. -/
def cellText (F : Fmt N) (o : Option N) : Str := (o.map F.fix3).getD []

theorem cell_eq (F : Fmt N) (o : Option N) : cell F o = cellText F o := by cases o <;> rfl

/-- All numbers are floats. -/
def Entries.Floats : Entries N → Prop
  | .nil => True
  | .val _ (.float _) r => r.Floats
  | .val _ (.int _) _ => False
  | .val _ (.f32 _) _ => False
  | .val _ .none r => r.Floats
  | .dict _ s r => s.Floats ∧ r.Floats

theorem update_append {κ ν : Type} [DecidableEq κ] : ∀ (l d : List (κ × ν)), ((d ++ l).map Prod.fst).Nodup → Dict.update d l = d ++ l
  | [], d, _ => by simp [Dict.update]
  | e :: l, d, h => by
    have hm : e.1 ∉ d.map Prod.fst := by
      rw [List.map_append, List.nodup_append] at h
      exact fun hm => h.2.2 _ hm e.1 (by simp) rfl
    have hs : Dict.set d e.1 e.2 = d ++ [e] := by
      clear h
      induction d with
      | nil => rfl
      | cons a d ih =>
        have ha : a.1 ≠ e.1 := fun e' => hm (by simp [e'])
        rw [Dict.set, if_neg ha, ih fun hx => hm (List.mem_cons_of_mem _ hx)]; rfl
    have e0 : d ++ e :: l = (d ++ [e]) ++ l := by simp
    rw [Dict.update_cons, hs, e0]
    exact update_append l (d ++ [e]) (e0 ▸ h)

theorem ofList_nodup {κ ν : Type} [DecidableEq κ] {l : List (κ × ν)} (h : (l.map Prod.fst).Nodup) : Dict.ofList l = l :=
  update_append l [] (by simpa using h)

theorem flattenItems_eq (e : Entries N) : ∀ depth, e.Floats → ((flatListing depth e).map Prod.fst).Nodup →
    flattenItems depth e = flatListing depth e := by
  induction e with
  | nil => exact fun _ _ _ => rfl
  | val k v r ih =>
    intro depth hf hn
    cases v with
    | float x =>
      show _ :: _ = _ :: _
      rw [ih depth hf (List.Nodup.of_cons hn)]; rfl
    | int x => exact hf.elim
    | f32 x => exact hf.elim
    | none => exact ih depth hf hn
  | dict k s r ihs ihr =>
    intro depth hf hn
    have hn' : (levelName depth k :: ((flatListing (depth + 1) s).map Prod.fst ++ (flatListing depth r).map Prod.fst)).Nodup := by
      simpa [flatListing] using hn
    have hn2 := (List.nodup_cons.mp hn').2
    rw [List.nodup_append] at hn2
    show _ :: (_ ++ _) = _ :: (_ ++ _)
    rw [ihs (depth + 1) hf.1 hn2.1, ihr depth hf.2 hn2.2.1, ofList_nodup hn2.1]; rfl

theorem get_ofMetrics (g : Str → Metric N) (k : Str) : ∀ l : List Str, k ∈ l → (ofMetrics (l.map fun k => (k, g k))).get k = .ok (g k) := by
  intro l
  induction l with
  | nil => intro hk; cases hk
  | cons a l ih =>
    intro hk
    by_cases e : a = k
    · subst e
      rw [List.map_cons]
      cases g a <;> (show (if _ then _ else _) = _; rw [if_pos rfl])
    · have := ih ((List.mem_cons.mp hk).resolve_left fun x => e x.symm)
      rw [List.map_cons]
      cases g a <;> (show (if _ then _ else _) = _; rw [if_neg e]; exact this)

/-- **C119**: the table next to the scatterplot lists all metrics and all values of the regression (if all numbers are floats, and all names are
different). -/
theorem C119_scatter_partial (F : Fmt N) {fn : Str → Except PyErr (Metric N)} {g : Str → Metric N} {s : Entries N}
    (h : ∀ k ∈ nine, fn k = .ok (g k)) (hl : g "linregress".toList = .dict s)
    (hs : ∀ k ∈ ["intercept".toList, "slope".toList, "stderr".toList], ∃ m, s.get k = .ok m)
    (hf : (ofMetrics (nine.map fun k => (k, g k))).Floats)
    (hn : ((flatListing 0 (ofMetrics (nine.map fun k => (k, g k)))).map Prod.fst).Nodup) :
    scatterTable F fn = .ok ((flatListing 0 (ofMetrics (nine.map fun k => (k, g k)))).map fun e =>
      (e.1, cellText F e.2)) := by
  obtain ⟨a, ha⟩ := hs "intercept".toList (by simp)
  obtain ⟨b, hb⟩ := hs "slope".toList (by simp)
  obtain ⟨c, hc⟩ := hs "stderr".toList (by simp)
  have hr : regression (ofMetrics (nine.map fun k => (k, g k))) = .ok (a, b, c) := by
    unfold regression
    rw [get_ofMetrics g _ nine (by decide), hl]
    show (do let a ← s.get "intercept".toList; let b ← s.get "slope".toList; let c ← s.get "stderr".toList; Except.ok (a, b, c)) = _
    rw [ha, hb, hc]; rfl
  have e : scatterTable F fn = (do
      let _ ← regression (ofMetrics (nine.map fun k => (k, g k)))
      Except.ok ((flatten (ofMetrics (nine.map fun k => (k, g k)))).map fun e => (e.1, cell F e.2))) := by
    unfold scatterTable; rw [allmetrics_ok h]; rfl
  rw [e, hr]
  show Except.ok _ = _
  unfold flatten
  rw [flattenItems_eq _ 0 hf hn, ofList_nodup hn]
  simp only [cell_eq]

/-- **C119** is violated: no scatterplot if no regression is possible (the result of the regression is None). -/
theorem C119_scatter_fails (F : Fmt N) {fn : Str → Except PyErr (Metric N)} {g : Str → Metric N}
    (h : ∀ k ∈ nine, fn k = .ok (g k)) (hl : g "linregress".toList = .val .none) : scatterTable F fn = .error .typeError := by
  have hr : regression (ofMetrics (nine.map fun k => (k, g k))) = .error .typeError := by
    unfold regression
    rw [get_ofMetrics g _ nine (by decide), hl]; rfl
  have e : scatterTable F fn = (do
      let _ ← regression (ofMetrics (nine.map fun k => (k, g k)))
      Except.ok ((flatten (ofMetrics (nine.map fun k => (k, g k)))).map fun e => (e.1, cell F e.2))) := by
    unfold scatterTable; rw [allmetrics_ok h]; rfl
  rw [e, hr]; rfl

/-- **C119** is violated: values with the same name in two dicts are mixed up: the value of the second one is listed below the first one, and
nothing is listed below the second one. -/
theorem C119_flatten_fails (a b k : Str) (x y : N) (h : a ≠ b) :
    flatten (.dict a (.val k (.float x) .nil) (.dict b (.val k (.float y) .nil) .nil)) =
      [(levelName 0 a, none), (levelName 1 k, some y), (levelName 0 b, none)] := by
  show _ = [(flatKey 0 a, none), (flatKey 1 k, some y), (flatKey 0 b, none)]
  have hab : flatKey 0 a ≠ flatKey 0 b := fun e => h (by simpa [flatKey] using e)
  have h1 : ∀ a : Str, flatKey 0 a ≠ flatKey 1 k := fun a e => by simp [flatKey] at e
  simp [flatten, flattenItems, Dict.ofList, Dict.update, Dict.set, hab, h1 a, (h1 b).symm]

/-! ## Examples -/

/-- Numbers are given by their digits. -/
def exF : Fmt Nat := ⟨fun n => n < 100000, fun n => Nat.toDigits 10 n ++ ".0".toList, fun n => Nat.toDigits 10 n ++ ".E".toList,
  fun n => Nat.toDigits 10 n⟩

def exS : Entries Nat := .val "slope".toList (.float 1) (.val "intercept".toList (.float 2) (.val "stderr".toList (.float 3) .nil))

def exG (k : Str) : Metric Nat := if k = "linregress".toList then .dict exS else .val (.float k.length)

example : (readTable (match metricsTable exF (fun k => .ok (exG k)) with | .ok t => t | .error _ => [])).take 6 =
    [(0, "pearson".toList, "7.0".toList), (0, "spearman".toList, "8.0".toList), (0, "linregress".toList, []), (1, "slope".toList, "1.0".toList),
      (1, "intercept".toList, "2.0".toList), (1, "stderr".toList, "3.0".toList)] := by decide +kernel

example : (scatterTable exF fun k => .ok (exG k)) = .ok ((flatListing 0 (ofMetrics (nine.map fun k => (k, exG k)))).map fun e =>
    (e.1, cellText exF e.2)) := by
  refine C119_scatter_partial exF (g := exG) (s := exS) (fun _ _ => rfl) rfl ?_ ?_ (by decide)
  · intro k hk
    simp only [List.mem_cons, List.not_mem_nil, or_false] at hk
    rcases hk with rfl | rfl | rfl
    · exact ⟨.val (.float 2), rfl⟩
    · exact ⟨.val (.float 1), rfl⟩
    · exact ⟨.val (.float 3), rfl⟩
  · exact ⟨trivial, trivial⟩

example : scatterTable exF (fun k => .ok (if k = "linregress".toList then .val .none else .val (.float 1))) = .error .typeError :=
  C119_scatter_fails exF (g := fun k => if k = "linregress".toList then .val .none else .val (.float 1)) (fun _ _ => rfl) rfl

example : flatten (.dict "a".toList (.val "r".toList (.float 1) .nil) (.dict "b".toList (.val "r".toList (.float 2) .nil) .nil)) =
    [(levelName 0 "a".toList, none), (levelName 1 "r".toList, some 2), (levelName 0 "b".toList, none)] :=
  C119_flatten_fails _ _ _ 1 2 (by decide)

theorem exGood : ∀ k ∈ nine, (exG k).Good := by
  intro k _
  unfold exG
  split
  · refine ⟨⟨⟨⟨by decide, by decide, by decide, by decide⟩, by decide, by decide⟩, fun _ e => (by cases e),
      ⟨⟨by decide, by decide, by decide, by decide⟩, by decide, by decide⟩, fun _ e => (by cases e),
      ⟨⟨by decide, by decide, by decide, by decide⟩, by decide, by decide⟩, fun _ e => (by cases e), trivial⟩, ?_⟩
    decide
  · exact fun _ e => by cases e

/-- The digits of a number, followed by another text. -/
theorem exPlain : exF.Plain := by
  have h : ∀ (n : Nat) (s : Str), Plain s → s ≠ [] → Plain (Nat.toDigits 10 n ++ s) := by
    intro n s hs hne
    obtain ⟨a1, a2, a3, a4⟩ := ModelDef.natStr_plain n
    unfold ModelDef.natStr at a1 a2 a3 a4
    obtain ⟨b1, b2, b3, b4⟩ := hs
    refine ⟨?_, ?_, by simp [a3, b3], by simp [a4, b4]⟩
    · rw [List.head?_append]
      cases hd : (Nat.toDigits 10 n).head? with
      | none => simpa using b1
      | some c => rw [hd] at a1; simpa using a1
    · rw [List.getLast?_append]
      cases hd : s.getLast? with
      | none => exact absurd (List.getLast?_eq_none_iff.mp hd) hne
      | some c => rw [hd] at b2; simpa using b2
  exact fun x => ⟨h x _ ⟨by decide, by decide, by decide, by decide⟩ (by decide), h x _ ⟨by decide, by decide, by decide, by decide⟩ (by decide)⟩

example : ∃ t, metricsTable exF (fun k => .ok (exG k)) = .ok t ∧
    readTable t = nine.flatMap fun k => metricLines (numText exF) k (exG k) :=
  C119_table_partial exPlain (fun _ _ => rfl) exGood

example : ∃ l, allmetrics (fun k => .ok (exG k)) = .ok l ∧ l.map Prod.fst = nine ∧ ∀ k m, (k, m) ∈ l ↔ k ∈ nine ∧ m = exG k :=
  C119_allmetrics fun _ _ => rfl

example : metricKeys (checkKeys ⟨["sig".toList], false, ["sm".toList], none⟩) (some "sig".toList) (some (.name "sm".toList))
    = .error .typeError := (C119_pair_fails _ _ _).1

example : tableEntries exF 0 (.val "bias".toList (.f32 1) .nil) = .ok [] := (C119_float32_fails exF 0 _ 1 .nil (by decide)).1

/-- A dataset with the column sig, and the parameter sm. -/
def exC : Cols := ⟨["sig".toList], false, ["sm".toList], none⟩

example : ∃ a, metricKeys (checkKeys exC) none none = .ok a ∧ ∀ d1 d2 p, lookup a d1 d2 = some p ↔
    d1 ≠ d2 ∧ IsLabel exC p.1.1 p.1.2 d1 ∧ IsLabel exC p.2.1 p.2.2 d2 := by
  have hk : ∀ s, ∀ k ∈ exC.colsOf s, k ∈ ["sig".toList, "sm".toList, "tot".toList, "surf".toList, "vol".toList] := by
    intro s k hk
    cases s <;> simp [exC, Cols.colsOf, Cols.model, Cols.auxkeys] at hk ⊢ <;> tauto
  refine C119_attributes_partial (by intro s; cases s <;> decide +kernel) ?_ ?_
  · intro s k hm s'
    have := hk s k hm
    simp only [List.mem_cons, List.not_mem_nil, or_false] at this
    rcases this with rfl | rfl | rfl | rfl | rfl <;> cases s' <;> decide +kernel
  · rintro s k d ⟨hm, h⟩
    have := hk s k hm
    simp only [List.mem_cons, List.not_mem_nil, or_false] at this
    rcases h with ⟨-, rfl⟩ | ⟨-, rfl⟩
    · rcases this with rfl | rfl | rfl | rfl | rfl <;> cases s <;> decide +kernel
    · rcases this with rfl | rfl | rfl | rfl | rfl <;> decide +kernel

/-- Integers as texts. -/
def exEnc (n : ℤ) : Str := List.replicate n.toNat 'a' ++ List.replicate (-n).toNat 'b'

def exDec (s : Str) : ℤ := s.count 'a' - s.count 'b'

theorem exDec_exEnc (n : ℤ) : exDec (exEnc n) = n := by
  simp [exDec, exEnc, List.count_replicate]

/-- All numbers are rounded to 6 decimals. -/
noncomputable def exR : Fmt ℝ := ⟨fun x => decide (|x| < 1e5), fun x => exEnc (round (x * 1e6)), fun x => exEnc (round (x * 1e6)), fun _ => []⟩

example (x : ℝ) : |(exDec (numText exR x) : ℝ) / 1e6 - x| ≤ 5e-7 * max 1 |x| := by
  have key : ∀ x : ℝ, |(exDec (exEnc (round (x * 1e6))) : ℝ) / 1e6 - x| ≤ 5e-7 := fun x => by
    rw [exDec_exEnc]
    have := abs_sub_round (x * 1e6)
    rw [abs_le] at this ⊢
    constructor <;> linarith
  exact C119_accuracy (F := exR) (val := fun s => (exDec s : ℝ) / 1e6) (fun x => by simp [exR]) (fun x _ => key x)
    (fun x hx => (key x).trans (by linarith)) x

end RT1.MetricReport
