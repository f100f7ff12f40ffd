import Verif.Model.InterpIndex
import Mathlib.Tactic.Linarith
import Mathlib.Tactic.FieldSimp
import Mathlib.Tactic.Positivity
import Mathlib.Tactic.NormNum

/-!
# Properties of `interpolate_to_index` (C127)
-/

namespace RT1.InterpIndex
open General

/-- Specification: linear interpolation of some values at given places (in any order).  `none` outside of the range; otherwise the value on the line
between two places without other places in between. -/
def Linear (d : List (ℝ × ℝ)) (t : ℝ) : Option ℝ → Prop
  | none => (∀ p ∈ d, t < p.1) ∨ ∀ p ∈ d, p.1 < t
  | some v => ∃ p ∈ d, ∃ q ∈ d, p.1 < q.1 ∧ p.1 ≤ t ∧ t ≤ q.1 ∧ (∀ r ∈ d, r.1 ≤ p.1 ∨ q.1 ≤ r.1) ∧
      (v - p.2) * (q.1 - p.1) = (q.2 - p.2) * (t - p.1)

theorem segment_linear (l : List (ℝ × ℝ)) (hl : 2 ≤ l.length) (hs : (l.map Prod.fst).Pairwise (· < ·)) (t : ℝ) : Linear l t (segment l t) := by
  induction l with
  | nil => simp at hl
  | cons p l ih =>
    cases l with
    | nil => simp at hl
    | cons q rest =>
      rw [List.map_cons, List.pairwise_cons] at hs
      have hpq : p.1 < q.1 := hs.1 q.1 (by simp)
      have hp : ∀ r ∈ q :: rest, p.1 < r.1 := fun r hr => hs.1 r.1 (List.mem_map_of_mem hr)
      have hq : ∀ r ∈ rest, q.1 < r.1 := by
        have := hs.2
        rw [List.map_cons, List.pairwise_cons] at this
        exact fun r hr => this.1 r.1 (List.mem_map_of_mem hr)
      rw [segment]
      split
      · next h1 =>
        split
        · next h2 =>
          refine ⟨p, by simp, q, by simp, hpq, h2, h1, ?_, ?_⟩
          · intro r hr
            rcases List.mem_cons.1 hr with rfl | hr
            · exact .inl le_rfl
            · rcases List.mem_cons.1 hr with rfl | hr
              · exact .inr le_rfl
              · exact .inr (hq r hr).le
          · have : q.1 - p.1 ≠ 0 := by linarith
            field_simp
            ring
        · next h2 =>
          left
          intro r hr
          rcases List.mem_cons.1 hr with rfl | hr
          · linarith
          · have := hp r hr
            linarith
      · next h1 =>
        push Not at h1
        cases rest with
        | nil =>
          right
          intro r hr
          simp only [List.mem_cons, List.not_mem_nil, or_false] at hr
          rcases hr with rfl | rfl <;> linarith
        | cons r rest =>
          have := ih (by simp) hs.2
          cases e : segment (q :: r :: rest) t with
          | none =>
            rw [e] at this
            rcases this with h | h
            · exact absurd (h q (by simp)) (by linarith)
            · right
              intro s hs'
              rcases List.mem_cons.1 hs' with rfl | hs'
              · linarith
              · exact h s hs'
          | some v =>
            rw [e] at this
            obtain ⟨a, ha, b, hb, h2, h3, h4, h5, h6⟩ := this
            refine ⟨a, List.mem_cons_of_mem _ ha, b, List.mem_cons_of_mem _ hb, h2, h3, h4, ?_, h6⟩
            intro s hs'
            rcases List.mem_cons.1 hs' with rfl | hs'
            · exact .inl (hp a ha).le
            · exact h5 s hs'

/-- The specification determines the value if the places are distinct. -/
theorem linear_unique (d : List (ℝ × ℝ)) (hne : d ≠ []) (hd : (d.map Prod.fst).Nodup) (t : ℝ) (v w : Option ℝ) (hv : Linear d t v) (hw : Linear d t w) :
    v = w := by
  have heq : ∀ p ∈ d, ∀ q ∈ d, p.1 = q.1 → p = q := fun p hp q hq h => List.inj_on_of_nodup_map hd hp hq h
  obtain ⟨p0, hp0⟩ := List.exists_mem_of_ne_nil d hne
  cases v with
  | none =>
    cases w with
    | none => rfl
    | some w =>
      obtain ⟨p, hp, q, hq, h1, h2, h3, -⟩ := hw
      rcases hv with h | h
      · exact absurd (h p hp) (by linarith)
      · exact absurd (h q hq) (by linarith)
  | some v =>
    obtain ⟨p, hp, q, hq, h1, h2, h3, h4, h5⟩ := hv
    cases w with
    | none =>
      rcases hw with h | h
      · exact absurd (h p hp) (by linarith)
      · exact absurd (h q hq) (by linarith)
    | some w =>
      obtain ⟨a, ha, b, hb, g1, g2, g3, g4, g5⟩ := hw
      have e1 : (v - p.2) = (q.2 - p.2) * (t - p.1) / (q.1 - p.1) := by
        rw [eq_div_iff (by linarith)]; exact h5
      have e2 : (w - a.2) = (b.2 - a.2) * (t - a.1) / (b.1 - a.1) := by
        rw [eq_div_iff (by linarith)]; exact g5
      congr 1
      -- either the intervals are equal, or they share the end point `t`
      rcases h4 a ha with ha1 | ha1
      · rcases g4 p hp with hp1 | hp1
        · have hpa := heq p hp a ha (by linarith)
          subst hpa
          rcases h4 b hb with hb1 | hb1
          · linarith
          · rcases g4 q hq with hq1 | hq1
            · linarith
            · have hqb := heq q hq b hb (by linarith)
              subst hqb
              linarith
        · -- `b ≤ p ≤ t ≤ b`
          have hbp := heq b hb p hp (by linarith)
          subst hbp
          have ht : t = b.1 := by linarith
          have x1 : v = b.2 := by rw [ht] at e1; simp at e1; linarith
          have x2 : w = b.2 := by
            rw [ht, mul_div_assoc, div_self (by linarith)] at e2; linarith
          rw [x1, x2]
      · -- `q ≤ a ≤ t ≤ q`
        have hqa := heq q hq a ha (by linarith)
        subst hqa
        have ht : t = q.1 := by linarith
        have x1 : v = q.2 := by
          rw [ht, mul_div_assoc, div_self (by linarith)] at e1; linarith
        have x2 : w = q.2 := by rw [ht] at e2; simp at e2; linarith
        rw [x1, x2]

theorem knots_perm (x y : List ℝ) : (knots x y).Perm (x.zip y) := List.mergeSort_perm _ _

theorem knots_sorted (x y : List ℝ) (hl : x.length = y.length) (hx : x.Nodup) : ((knots x y).map Prod.fst).Pairwise (· < ·) := by
  have h1 := List.pairwise_mergeSort (le := fun a b : ℝ × ℝ => decide (a.1 ≤ b.1))
    (by intro a b c; simp only [decide_eq_true_eq]; exact le_trans)
    (by intro a b; simp only [Bool.or_eq_true, decide_eq_true_eq]; exact le_total _ _) (x.zip y)
  have h2 : ((knots x y).map Prod.fst).Nodup := by
    rw [((knots_perm x y).map Prod.fst).nodup_iff, List.map_fst_zip (by omega)]
    exact hx
  have h3 : ((knots x y).map Prod.fst).Pairwise (· ≤ ·) := by
    rw [List.pairwise_map]
    exact h1.imp fun h => by simpa using h
  exact (h3.and h2).imp fun h => lt_of_le_of_ne h.1 h.2

theorem linear_perm (d d' : List (ℝ × ℝ)) (h : d.Perm d') (t : ℝ) (v : Option ℝ) (hv : Linear d t v) : Linear d' t v := by
  cases v with
  | none =>
    rcases hv with hv | hv
    · exact .inl fun p hp => hv p (h.mem_iff.2 hp)
    · exact .inr fun p hp => hv p (h.mem_iff.2 hp)
  | some v =>
    obtain ⟨p, hp, q, hq, h1, h2, h3, h4, h5⟩ := hv
    exact ⟨p, h.mem_iff.1 hp, q, h.mem_iff.1 hq, h1, h2, h3, fun r hr => h4 r (h.mem_iff.2 hr), h5⟩

theorem column_spec {ι : Type} (jd : ι → ℝ) (dataIndex index : List ι) (values : List ℝ) (hn : (dataIndex.map jd).Nodup) (h2 : 2 ≤ dataIndex.length)
    (hl : values.length = dataIndex.length) :
    ∃ f : ℝ → Option ℝ, column jd dataIndex index values = .ok (index.map fun t => f (jd t)) ∧
      ∀ t, Linear ((dataIndex.map jd).zip values) t (f t) := by
  refine ⟨segment (knots (dataIndex.map jd) values), ?_, fun t => ?_⟩
  · unfold column interp1d
    rw [if_neg]
    · show Except.ok ((index.map jd).map _) = _
      rw [List.map_map]
      rfl
    · rintro (h | h)
      · exact h (by rw [List.length_map, hl])
      · rw [List.map_eq_nil_iff] at h
        rw [h] at h2
        simp at h2
  · refine linear_perm _ _ (knots_perm _ _) t _ (segment_linear _ ?_ (knots_sorted _ _ (by rw [List.length_map, hl]) hn) t)
    rw [(knots_perm _ _).length_eq, List.length_zip, List.length_map, hl]
    omega

/-- Specification: a column of the result. -/
def Interpolated {ι : Type} (jd : ι → ℝ) (dataIndex : List ι) (values : List ℝ) (index : List ι) (out : List (Option ℝ)) : Prop :=
  List.Forall₂ (fun t v => Linear ((dataIndex.map jd).zip values) (jd t) v) index out

/-- Series: linear interpolation at all dates of the index, nan outside of the range of the dates. -/
theorem C127_series_partial {ι : Type} (jd : ι → ℝ) (dataIndex index : List ι) (values : List ℝ) (any : Option (List ι)) (hn : (dataIndex.map jd).Nodup)
    (h2 : 2 ≤ dataIndex.length) (hl : values.length = dataIndex.length) :
    ∃ out, interpolateToIndex jd (.series dataIndex values) index any = .ok (.series index out) ∧ Interpolated jd dataIndex values index out := by
  obtain ⟨f, e, hf⟩ := column_spec jd dataIndex index values hn h2 hl
  refine ⟨index.map fun t => f (jd t), ?_, ?_⟩
  · unfold interpolateToIndex
    dsimp only
    rw [e]
    rfl
  · unfold Interpolated
    rw [List.forall₂_map_right_iff, List.forall₂_same]
    exact fun t _ => hf _

/-- DataFrame: each column is interpolated, with the same names. -/
theorem C127_frame_partial {ι : Type} (jd : ι → ℝ) (dataIndex index : List ι) (columns : List (String × List ℝ)) (any : Option (List ι))
    (hn : (dataIndex.map jd).Nodup) (h2 : 2 ≤ dataIndex.length) (hl : ∀ c ∈ columns, c.2.length = dataIndex.length) :
    ∃ out, interpolateToIndex jd (.frame dataIndex columns) index any = .ok (.frame index out) ∧
      List.Forall₂ (fun c o => o.1 = c.1 ∧ Interpolated jd dataIndex c.2 index o.2) columns out := by
  obtain ⟨out, e, h⟩ : ∃ out, (columns.mapM fun c => (column jd dataIndex index c.2).map fun x => (c.1, x)) = Except.ok out ∧
      List.Forall₂ (fun c o => o.1 = c.1 ∧ Interpolated jd dataIndex c.2 index o.2) columns out := by
    induction columns with
    | nil => exact ⟨[], rfl, .nil⟩
    | cons c columns ih =>
      obtain ⟨out, e, h⟩ := ih fun d hd => hl d (List.mem_cons_of_mem _ hd)
      obtain ⟨f, ef, hf⟩ := column_spec jd dataIndex index c.2 hn h2 (hl c (List.mem_cons_self ..))
      refine ⟨(c.1, index.map fun t => f (jd t)) :: out, ?_, .cons ⟨rfl, ?_⟩ h⟩
      · rw [List.mapM_cons, ef, e]
        rfl
      · unfold Interpolated
        rw [List.forall₂_map_right_iff, List.forall₂_same]
        exact fun t _ => hf _
  refine ⟨out, ?_, h⟩
  unfold interpolateToIndex
  dsimp only
  rw [e]
  rfl

theorem interpolated_unique {ι : Type} (jd : ι → ℝ) (i1 i2 index : List ι) (v1 v2 : List ℝ) (o1 o2 : List (Option ℝ)) (hne : i1 ≠ [])
    (hn : (i1.map jd).Nodup) (hl : v1.length = i1.length)
    (hp : ((i1.map jd).zip v1).Perm ((i2.map jd).zip v2)) (h1 : Interpolated jd i1 v1 index o1) (h2 : Interpolated jd i2 v2 index o2) : o1 = o2 := by
  unfold Interpolated at h1 h2
  induction index generalizing o1 o2 with
  | nil =>
    cases h1
    cases h2
    rfl
  | cons t index ih =>
    cases h1 with
    | cons a b =>
      cases h2 with
      | cons c d =>
        congr 1
        · refine linear_unique _ ?_ ?_ (jd t) _ _ a (linear_perm _ _ hp.symm _ _ c)
          · intro h
            rw [← List.length_eq_zero_iff, List.length_zip, List.length_map, hl, Nat.min_self] at h
            exact hne (List.length_eq_zero_iff.1 h)
          · rw [List.map_fst_zip (by rw [List.length_map]; omega)]
            exact hn
        · exact ih _ _ b d

theorem linear_exact {ι : Type} (jd : ι → ℝ) (dataIndex : List ι) (values : List ℝ) (hn : (dataIndex.map jd).Nodup)
    (hl : values.length = dataIndex.length) (i : Nat) (t : ι) (y : ℝ) (ht : dataIndex[i]? = some t) (hy : values[i]? = some y) (v : Option ℝ)
    (hv : Linear ((dataIndex.map jd).zip values) (jd t) v) : v = some y := by
  set d := (dataIndex.map jd).zip values with hd
  have hmem : (jd t, y) ∈ d := by
    rw [List.mem_iff_getElem?]
    refine ⟨i, ?_⟩
    rw [hd, List.zip, List.getElem?_zipWith, List.getElem?_map, ht, hy]
    rfl
  have hnd : (d.map Prod.fst).Nodup := by
    rw [List.map_fst_zip (by rw [List.length_map]; omega)]
    exact hn
  have heq : ∀ p ∈ d, p.1 = jd t → p = (jd t, y) := fun p hp h => List.inj_on_of_nodup_map hnd hp hmem h
  cases v with
  | none =>
    rcases hv with h | h
    · exact absurd (h _ hmem) (lt_irrefl _)
    · exact absurd (h _ hmem) (lt_irrefl _)
  | some v =>
    obtain ⟨p, hp, q, hq, h1, h3, h4, h5, h6⟩ := hv
    congr 1
    rcases h5 _ hmem with h | h
    · have := heq p hp (le_antisymm h3 h)
      subst this
      dsimp only at h6 h1
      rw [sub_self, mul_zero] at h6
      rcases mul_eq_zero.1 h6 with h | h <;> linarith
    · have := heq q hq (le_antisymm h h4)
      subst this
      dsimp only at h6 h1
      have : (v - p.2) = (y - p.2) := mul_right_cancel₀ (by linarith) h6
      linarith

theorem linear_bounds (d : List (ℝ × ℝ)) (t v a b : ℝ) (hv : Linear d t (some v)) (ha : ∀ p ∈ d, a ≤ p.2) (hb : ∀ p ∈ d, p.2 ≤ b) : a ≤ v ∧ v ≤ b := by
  obtain ⟨p, hp, q, hq, h1, h2, h3, -, h5⟩ := hv
  have hc : 0 < q.1 - p.1 := by linarith
  have e : v * (q.1 - p.1) = p.2 * (q.1 - t) + q.2 * (t - p.1) := by linarith
  have x1 : 0 ≤ q.1 - t := by linarith
  have x2 : 0 ≤ t - p.1 := by linarith
  constructor
  · have y1 := mul_le_mul_of_nonneg_right (ha p hp) x1
    have y2 := mul_le_mul_of_nonneg_right (ha q hq) x2
    refine le_of_mul_le_mul_right (a := q.1 - p.1) ?_ hc
    linarith
  · have y1 := mul_le_mul_of_nonneg_right (hb p hp) x1
    have y2 := mul_le_mul_of_nonneg_right (hb q hq) x2
    refine le_of_mul_le_mul_right (a := q.1 - p.1) ?_ hc
    linarith

/-- The result is the same for all orders of the data. -/
theorem C127_order {ι : Type} (jd : ι → ℝ) (d1 d2 : List (ι × ℝ)) (index : List ι) (a b : Option (List ι)) (h2 : 2 ≤ d1.length)
    (hn : (d1.map fun p => jd p.1).Nodup) (hp : d1.Perm d2) :
    interpolateToIndex jd (.series (d1.map Prod.fst) (d1.map Prod.snd)) index a =
      interpolateToIndex jd (.series (d2.map Prod.fst) (d2.map Prod.snd)) index b := by
  have hz : ∀ d : List (ι × ℝ), ((d.map Prod.fst).map jd).zip (d.map Prod.snd) = d.map fun p => (jd p.1, p.2) := by
    intro d
    induction d with
    | nil => rfl
    | cons x d ih => simp only [List.map_cons, List.zip_cons_cons, ih]
  have hn1 : ((d1.map Prod.fst).map jd).Nodup := by rw [List.map_map]; exact hn
  have hn2 : ((d2.map Prod.fst).map jd).Nodup := ((hp.map Prod.fst).map jd).nodup_iff.1 hn1
  obtain ⟨o1, e1, s1⟩ := C127_series_partial jd (d1.map Prod.fst) index (d1.map Prod.snd) a hn1 (by simpa using h2) (by simp)
  obtain ⟨o2, e2, s2⟩ := C127_series_partial jd (d2.map Prod.fst) index (d2.map Prod.snd) b hn2 (by simpa [← hp.length_eq] using h2) (by simp)
  rw [e1, e2, interpolated_unique jd _ _ index _ _ o1 o2 ?_ hn1 (by simp) ?_ s1 s2]
  · intro h
    rw [List.map_eq_nil_iff] at h
    rw [h] at h2
    simp at h2
  · rw [hz, hz]
    exact hp.map _

theorem forall₂_get {α β : Type} (R : α → β → Prop) (l : List α) (m : List β) (h : List.Forall₂ R l m) (k : Nat) (x : α) (hk : l[k]? = some x) :
    ∃ y, m[k]? = some y ∧ R x y := by
  induction h generalizing k with
  | nil => simp at hk
  | cons a _ ih =>
    cases k with
    | zero =>
      simp only [List.getElem?_cons_zero, Option.some.injEq] at hk
      subst hk
      exact ⟨_, by simp, a⟩
    | succ k => exact ih k (by simpa using hk)

/-- At the dates of the data the values are unchanged. -/
theorem C127_exact {ι : Type} (jd : ι → ℝ) (dataIndex index : List ι) (values : List ℝ) (any : Option (List ι)) (hn : (dataIndex.map jd).Nodup)
    (h2 : 2 ≤ dataIndex.length) (hl : values.length = dataIndex.length) :
    ∃ out, interpolateToIndex jd (.series dataIndex values) index any = .ok (.series index out) ∧
      ∀ (k i : Nat) (t : ι) (y : ℝ), index[k]? = some t → dataIndex[i]? = some t → values[i]? = some y → out[k]? = some (some y) := by
  obtain ⟨out, e, h⟩ := C127_series_partial jd dataIndex index values any hn h2 hl
  refine ⟨out, e, fun k i t y hk ht hy => ?_⟩
  obtain ⟨v, hv, hs⟩ := forall₂_get _ _ _ h k t hk
  rw [hv, linear_exact jd dataIndex values hn hl i t y ht hy v hs]

/-- All values of the result are nan or within the bounds of the data. -/
theorem C127_bounds {ι : Type} (jd : ι → ℝ) (dataIndex index : List ι) (values : List ℝ) (any : Option (List ι)) (hn : (dataIndex.map jd).Nodup)
    (h2 : 2 ≤ dataIndex.length) (hl : values.length = dataIndex.length) (a b : ℝ) (hab : ∀ y ∈ values, a ≤ y ∧ y ≤ b) :
    ∃ out, interpolateToIndex jd (.series dataIndex values) index any = .ok (.series index out) ∧ out.length = index.length ∧
      ∀ v, some v ∈ out → a ≤ v ∧ v ≤ b := by
  obtain ⟨out, e, h⟩ := C127_series_partial jd dataIndex index values any hn h2 hl
  refine ⟨out, e, h.length_eq.symm, fun v hv => ?_⟩
  obtain ⟨k, hk, e2⟩ := List.mem_iff_getElem.1 hv
  obtain ⟨w, hw, hs⟩ := forall₂_get _ _ _ h k (index[k]'(by rw [h.length_eq]; exact hk)) (List.getElem?_eq_getElem _)
  rw [List.getElem?_eq_getElem hk, e2, Option.some.injEq] at hw
  subst hw
  exact linear_bounds _ _ _ a b hs (fun p hp => (hab _ (List.of_mem_zip hp).2).1) fun p hp => (hab _ (List.of_mem_zip hp).2).2

/-- Series with different numbers of dates and values, or without values, raise ValueError. -/
theorem C127_invalid {ι : Type} (jd : ι → ℝ) (dataIndex index : List ι) (values : List ℝ) (any : Option (List ι))
    (h : values.length ≠ dataIndex.length ∨ dataIndex = []) : interpolateToIndex jd (.series dataIndex values) index any = .error .valueError := by
  unfold interpolateToIndex column interp1d
  dsimp only
  rw [if_pos]
  · rfl
  · rcases h with h | h
    · exact .inl (by rw [List.length_map]; exact fun e => h e.symm)
    · exact .inr (by rw [h]; rfl)

/-- Lists and arrays are never accepted, with and without `data_index`. -/
theorem C127_list_fails {ι : Type} (jd : ι → ℝ) (values : List ℝ) (index : List ι) (dataIndex : Option (List ι)) :
    interpolateToIndex jd (.plain values) index dataIndex = .error (if dataIndex.isNone then .assertionError else .attributeError) := by
  unfold interpolateToIndex
  dsimp only
  split <;> rfl

/-- Other arguments are ignored: the result is None. -/
theorem C127_other_fails {ι : Type} (jd : ι → ℝ) (index : List ι) (dataIndex : Option (List ι)) :
    interpolateToIndex jd .other index dataIndex = .ok .none := rfl

example : ([(2 : ℝ), 0, 1].map id).Nodup ∧ Linear (([(2 : ℝ), 0, 1].map id).zip [6, 4, 10]) (1 / 2) (some 7) ∧
    Linear (([(2 : ℝ), 0, 1].map id).zip [6, 4, 10]) 3 none := by
  refine ⟨by norm_num, ⟨(0, 4), by simp, (1, 10), by simp, by norm_num, by norm_num, by norm_num, ?_, by norm_num⟩, .inr ?_⟩
  · intro r hr
    simp at hr
    rcases hr with rfl | rfl | rfl <;> norm_num
  · intro r hr
    simp at hr
    rcases hr with rfl | rfl | rfl <;> norm_num

example : ([((2 : ℝ), (6 : ℝ)), (0, 4), (1, 10)].map fun p => id p.1).Nodup ∧ [((2 : ℝ), (6 : ℝ)), (0, 4), (1, 10)].Perm [(0, 4), (1, 10), (2, 6)] :=
  ⟨by norm_num, List.perm_append_comm (l₁ := [((2 : ℝ), (6 : ℝ))]) (l₂ := [(0, 4), (1, 10)])⟩

end RT1.InterpIndex
