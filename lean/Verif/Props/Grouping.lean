import Verif.Lemmas.Grouping
import Verif.Props.General

/-!
# Properties of the grouping logic (C35-C42)
-/

namespace RT1.Grouping
open General

/-! ## C35: integer frequencies -/

/-- The number of distinct time stamps of the observations in group `k`. -/
def stampsInGroup {τ : Type} [DecidableEq τ] (index : List τ) (g : List Int) (k : Int) : Nat :=
  (((index.zip g).filter fun p => decide (p.2 = k)).map Prod.fst).dedup.length

theorem stamps_map {τ : Type} [DecidableEq τ] (index : List τ) (b : τ → Int) (k : Int) :
    stampsInGroup index (index.map b) k = ((firsts index).map b).count k := by
  unfold stampsInGroup
  have e : (((index.zip (index.map b)).filter fun p => decide (p.2 = k)).map Prod.fst) =
      index.filter fun t => decide (b t = k) := by
    induction index with
    | nil => rfl
    | cons x xs ih =>
      simp only [List.map_cons, List.zip_cons_cons, List.filter_cons]
      split <;> simp_all
  rw [e, List.count_eq_countP, List.countP_map, List.countP_eq_length_filter]
  apply List.Perm.length_eq
  rw [List.perm_ext_iff_of_nodup (List.nodup_dedup _) ((firsts_nodup index).filter _)]
  intro x
  simp [mem_firsts, List.mem_filter]

theorem extra_spread (m j k k' : Nat) (hk : k < m) (hk' : k' < m) : extra m j k ≤ extra m j k' + 1 := by
  unfold extra
  have h1 : j + (m - 1 - k) ≤ j + (m - 1 - k') + m := by omega
  calc (j + (m - 1 - k)) / m ≤ (j + (m - 1 - k') + m) / m := Nat.div_le_div_right h1
    _ = (j + (m - 1 - k')) / m + 1 := by rw [Nat.add_div_right _ (by omega)]

/-- C35: an integer frequency `f` splits the time stamps of a sorted index with `n ≥ f` distinct values into `n / f`
consecutive groups (numbered from 0 without gaps) of at least `f` distinct time stamps whose sizes differ by at most one;
every observation is in exactly one group, observations with equal time stamps are in the same group. -/
theorem C35_int_groups {τ : Type} [LinearOrder τ] (index : List τ) (f : Nat) (hs : index.Pairwise (· ≤ ·))
    (h1 : 1 ≤ f) (hn : f ≤ index.dedup.length) :
    ∃ g, intDyn index (f : Int) = .ok g ∧ g.length = index.length ∧ g.Pairwise (· ≤ ·) ∧
      (∀ (i j : Nat) (t : τ), index[i]? = some t → index[j]? = some t → g[i]? = g[j]?) ∧
      (∀ k : Int, k ∈ g ↔ 0 ≤ k ∧ k < ((index.dedup.length / f : Nat) : Int)) ∧
      (∀ k ∈ g, f ≤ stampsInGroup index g k) ∧
      (∀ k ∈ g, ∀ k' ∈ g, stampsInGroup index g k ≤ stampsInGroup index g k' + 1) := by
  rw [intDyn_eq index f hs h1 hn]
  set n := index.dedup.length with hnd
  set m := n / f with hmd
  set j := n % f with hjd
  have hm : 0 < m := Nat.div_pos hn (by omega)
  have hmj : m * f + j = n := by rw [hmd, hjd, mul_comm]; exact Nat.div_add_mod n f
  set D := dynList f m j with hD
  have hDl : D.length = n := by rw [hD, dynList_length f m j hm, hmj]
  have hfl : (firsts index).length = n := by rw [firsts_length_dedup]
  set b : τ → Int := fun t => ((D.getD ((firsts index).idxOf t) 0 : Nat) : Int) with hb
  have hbD : (firsts index).map b = D.map (Nat.cast : Nat → Int) := by
    apply List.ext_getElem
    · simp [hDl, hfl]
    · intro i h1 h2
      simp only [List.length_map] at h1 h2
      simp only [List.getElem_map, hb]
      rw [List.Nodup.idxOf_getElem (firsts_nodup index), List.getD_eq_getElem?_getD,
        List.getElem?_eq_getElem (by omega), Option.getD_some]
  have hcount : ∀ k : Nat, k < m → stampsInGroup index (index.map b) (k : Int) = f + extra m j k := by
    intro k hk
    rw [stamps_map, hbD, List.count_map_of_injective _ _ Nat.cast_injective, hD]
    exact count_flatten_replicate m k _ hk
  have hmem : ∀ k : Int, k ∈ index.map b ↔ 0 ≤ k ∧ k < (m : Int) := by
    intro k
    have : k ∈ index.map b ↔ k ∈ (firsts index).map b := by simp only [List.mem_map, mem_firsts]
    rw [this, hbD, hD]
    unfold dynList
    simp only [List.mem_map, List.mem_flatten, List.mem_range]
    constructor
    · rintro ⟨a, ⟨l, ⟨i, hi, rfl⟩, ha⟩, rfl⟩
      rw [List.eq_of_mem_replicate ha]
      omega
    · rintro ⟨h0, hk⟩
      refine ⟨k.toNat, ⟨_, ⟨k.toNat, by omega, rfl⟩, ?_⟩, by omega⟩
      rw [List.mem_replicate]
      exact ⟨by omega, rfl⟩
  refine ⟨index.map b, rfl, by simp, ?_, ?_, hmem, ?_, ?_⟩
  · rw [← flatten_groups_map index (contig_of_sorted index hs) b]
    have : ((firsts index).map fun t => List.replicate (index.filter fun x => decide (x = t)).length (b t)) =
        ((firsts index).map fun t => (List.replicate (index.filter fun x => decide (x = t)).length
          (D.getD ((firsts index).idxOf t) 0))).map (List.map (Nat.cast : Nat → Int)) := by
      rw [List.map_map]
      apply List.map_congr_left
      intro t _
      simp [hb]
    rw [this, ← List.map_flatten, List.pairwise_map]
    refine (pairwise_flatten_replicate (firsts index) (fun t => D.getD ((firsts index).idxOf t) 0) _ ?_).imp ?_
    · rw [List.pairwise_iff_getElem]
      intro i i' hi hi' hii
      rw [List.Nodup.idxOf_getElem (firsts_nodup index), List.Nodup.idxOf_getElem (firsts_nodup index)]
      rw [List.getD_eq_getElem?_getD, List.getElem?_eq_getElem (by omega), Option.getD_some]
      rw [List.getD_eq_getElem?_getD, List.getElem?_eq_getElem (by omega), Option.getD_some]
      have hDs : D.Pairwise (· ≤ ·) := by
        rw [hD]; unfold dynList
        exact pairwise_flatten_replicate (List.range m) (fun k => k) _
          (List.pairwise_lt_range.imp (fun h => Nat.le_of_lt h))
      exact List.pairwise_iff_getElem.1 hDs i i' (by omega) (by omega) hii
    · intro a b hab; exact_mod_cast hab
  · intro i j t hi hj
    rw [List.getElem?_map, List.getElem?_map, hi, hj]
  · intro k hk
    obtain ⟨h0, hk⟩ := (hmem k).1 hk
    obtain ⟨k, rfl⟩ := Int.eq_ofNat_of_zero_le h0
    rw [hcount k (by omega)]
    omega
  · intro k hk k' hk'
    obtain ⟨h0, hk⟩ := (hmem k).1 hk
    obtain ⟨h0', hk'⟩ := (hmem k').1 hk'
    obtain ⟨k, rfl⟩ := Int.eq_ofNat_of_zero_le h0
    obtain ⟨k', rfl⟩ := Int.eq_ofNat_of_zero_le h0'
    rw [hcount k (by omega), hcount k' (by omega)]
    have := extra_spread m j k k' (by omega) (by omega)
    omega

/-- C35: fewer distinct time stamps than the frequency are rejected: ZeroDivisionError, for an empty index ValueError. -/
theorem C35_too_few {τ : Type} [DecidableEq τ] (index : List τ) (f : Nat) (hn : index.dedup.length < f) :
    intDyn index (f : Int) = .error (if index = [] then .valueError else .zeroDivisionError) := by
  set n := index.dedup.length with hnd
  have e1 : ((n : Int).fdiv (f : Int)) = 0 := by
    rw [Int.fdiv_eq_ediv_of_nonneg _ (by omega)]
    exact Int.ediv_eq_zero_of_lt (by omega) (by omega)
  have e2 : ((n : Int).fmod (f : Int)) = (n : Int) := by
    rw [Int.fmod_eq_emod_of_nonneg _ (by omega)]
    exact Int.emod_eq_of_lt (by omega) (by omega)
  unfold intDyn
  rw [if_neg (by omega)]
  simp only [← hnd, e1, e2, Int.toNat_natCast, Int.toNat_zero, List.replicate_zero]
  by_cases hi : index = []
  · subst hi
    simp at hnd
    rw [hnd]
    simp [bind, Except.bind, pure, Except.pure, throw, throwThe, MonadExceptOf.throw]
  · rw [if_neg hi]
    have hpos : 0 < n := by
      rw [hnd, List.length_pos_iff]
      simpa using hi
    obtain ⟨n', hn'⟩ : ∃ n', n = n' + 1 := ⟨n - 1, by omega⟩
    rw [hn', List.range_succ_eq_map, List.foldlM_cons]
    rfl

/-- C35: the frequency 0 is rejected. -/
theorem C35_zero {τ : Type} [DecidableEq τ] (index : List τ) : intDyn index 0 = .error .zeroDivisionError := rfl

example : intDyn [1, 1, 2, 3, 3, 3, 4, 5] 2 = .ok [0, 0, 0, 0, 0, 0, 1, 1] ∧
    ([1, 1, 2, 3, 3, 3, 4, 5] : List Nat).Pairwise (· ≤ ·) ∧ 2 ≤ ([1, 1, 2, 3, 3, 3, 4, 5] : List Nat).dedup.length := by
  decide
example : intDyn [1, 2, 2] 3 = .error .zeroDivisionError := by decide

/-! ## C36: fit-groups -/

/-- C36 (integers): for any number of parameters and any non-negative dyn-assignments, the combined integers of two
observations are equal iff all parameters are in the same dyn-group for both observations. -/
theorem C36_combined_integers (cols : List (List Int)) (L : Nat) (hL : 0 < L) (hne : cols ≠ [])
    (hlen : ∀ c ∈ cols, c.length = L) (h0 : ∀ c ∈ cols, ∀ x ∈ c, 0 ≤ x) :
    ∃ gi, groupInts cols = .ok gi ∧ gi.length = L ∧
      ∀ i j : Nat, i < L → j < L → (gi[i]? = gi[j]? ↔ ∀ c ∈ cols, c[i]? = c[j]?) := by
  obtain ⟨gi, h1, h2, _, h3, _⟩ := groupInts_spec cols L hL hne hlen h0
  exact ⟨gi, h1, h2, h3⟩

/-- C36: two observations belong to the same fit-group iff all fitted parameters are in the same dyn-group for both
observations, if the dyn-numbers have at most 18 digits altogether.

Full claim: the same for all dyn-assignments; this is false, see `C36_fails`.  Missing: combinations with more digits, for
which the conversion to a numpy array is not always exact (the integers themselves are always distinct, see
`C36_combined_integers`). -/
theorem C36_groups_partial (cols : List (List Int)) (L : Nat) (hL : 0 < L) (hne : cols ≠ [])
    (hlen : ∀ c ∈ cols, c.length = L) (h0 : ∀ c ∈ cols, ∀ x ∈ c, 0 ≤ x) (N : List Nat)
    (hN : List.Forall₂ (fun c n => 1 ≤ n ∧ ∀ x ∈ c, x.toNat < 10 ^ n) cols N) (h18 : N.sum ≤ 18) :
    ∃ gi, groupIndex cols = .ok gi ∧ gi.length = L ∧
      ∀ i j : Nat, i < L → j < L → (gi[i]? = gi[j]? ↔ ∀ c ∈ cols, c[i]? = c[j]?) := by
  obtain ⟨gi, h1, h2, hpos, h3, hlt⟩ := groupInts_spec cols L hL hne hlen h0
  refine ⟨gi, ?_, h2, h3⟩
  simp only [groupIndex, h1, bind, Except.bind, pure, Except.pure, npArray]
  rw [if_pos]
  rw [List.all_eq_true]
  intro x hx
  have a := hpos x hx
  have b := hlt N hN x hx
  have : (10 : Int) ^ N.sum ≤ 10 ^ 18 := by
    have h3 : (10 : Nat) ^ N.sum ≤ 10 ^ 18 := Nat.pow_le_pow_right (by norm_num) h18
    exact_mod_cast h3
  simp only [decide_eq_true_eq]
  constructor <;> omega

/-- C36: a dataset without observations is rejected (ValueError from `max`). -/
theorem C36_empty (cols : List (List Int)) (h : [] ∈ cols) : groupIndex cols = .error .valueError := by
  have : cols.mapM digitsOf = .error .valueError := by
    induction cols with
    | nil => simp at h
    | cons c cs ih =>
      rw [List.mapM_cons]
      cases c with
      | nil => rfl
      | cons x xs =>
        have := ih (by simpa using h)
        have e : digitsOf (x :: xs) = .ok (strInt (xs.foldl max x)).length := rfl
        simp [e, this, bind, Except.bind]
  simp [groupIndex, groupInts, this, bind, Except.bind]

/-- C36 is violated: five parameters with dyn-numbers below 10000.  The second and the third observation differ in
the dyn-group of the last parameter, but they are in the same fit-group since the array mixes integers of the ranges of
int64 and uint64, which numpy stores as float64. -/
theorem C36_fails :
    ∃ gi, groupIndex [[0, 1000, 1000], [1000, 1000, 1000], [1000, 1000, 1000], [1000, 1000, 1000], [1000, 1000, 1001]] =
      .ok gi ∧ gi[1]? = gi[2]? := by
  exact ⟨[1000100010001000, 10001000100010000384, 10001000100010000384], by decide +kernel, rfl⟩

example : groupIndex [[0, 0, 1, 1], [1, 12, 12, 1]] = .ok [1, 12, 112, 101] ∧
    List.Forall₂ (fun (c : List Int) n => 1 ≤ n ∧ ∀ x ∈ c, x.toNat < 10 ^ n) [[0, 0, 1, 1], [1, 12, 12, 1]] [1, 2] := by
  refine ⟨by decide +kernel, ?_⟩
  repeat constructor
  all_goals simp

/-! ## C37: manual dynamics -/

/-- C37: if a frequency is combined with manual dynamics, two observations share a parameter value iff they share both
groups, for non-negative group numbers with at most 15 digits altogether.

Full claim: the same for all manual group numbers; this is false, see `C37_fails`.  Missing: larger numbers. -/
theorem C37_superposition_partial (dyn man : List Int) (L : Nat) (hL : 0 < L) (hd : dyn.length = L) (hm : man.length = L)
    (hd0 : ∀ x ∈ dyn, 0 ≤ x) (hm0 : ∀ x ∈ man, 0 ≤ x) (n1 n2 : Nat) (h1 : 1 ≤ n1) (h2 : 1 ≤ n2) (h15 : n1 + n2 ≤ 15)
    (hb1 : ∀ x ∈ dyn, x < 10 ^ n1) (hb2 : ∀ x ∈ man, x < 10 ^ n2) :
    ∃ r, superimpose dyn man = .ok r ∧ r.length = L ∧ (∀ x ∈ r, 0 ≤ x) ∧
      ∀ i j : Nat, i < L → j < L → (r[i]? = r[j]? ↔ dyn[i]? = dyn[j]? ∧ man[i]? = man[j]?) := by
  obtain ⟨v, hv, hl, hpos, heq, hlt⟩ := superimpose_spec dyn man L hL hd hm hd0 hm0
  have e : v.map floatToInt = v := by
    conv_rhs => rw [← List.map_id v]
    apply List.map_congr_left
    intro x hx
    have b := hlt n1 n2 h1 h2 hb1 hb2 x hx
    have : (10 : Int) ^ (n1 + n2) ≤ 10 ^ 15 := by
      have h3 : (10 : Nat) ^ (n1 + n2) ≤ 10 ^ 15 := Nat.pow_le_pow_right (by norm_num) h15
      exact_mod_cast h3
    exact floatToInt_exact x (hpos x hx) (by omega)
  rw [e] at hv
  exact ⟨v, hv, hl, hpos, heq⟩

/-- C37: negative manual group numbers are rejected. -/
theorem C37_negative (dyn man : List Int) (h : dyn.length = man.length) (hd0 : ∀ x ∈ dyn, 0 ≤ x)
    (hneg : ∃ x ∈ man, x < 0) : superimpose dyn man = .error .valueError := by
  obtain ⟨y, hy, hy0⟩ := hneg
  obtain ⟨i, hi⟩ := List.mem_iff_getElem?.1 hy
  obtain ⟨hi', -⟩ := List.getElem?_eq_some_iff.1 hi
  have hdne : dyn.map strInt ≠ [] := by
    intro e
    have := congrArg List.length e
    simp at this
    subst this
    simp at h
    omega
  have hmne : man.map strInt ≠ [] := by
    intro e
    have := congrArg List.length e
    simp at this
    subst this
    simp at hi'
  obtain ⟨a, ha, _⟩ := maxLen_spec _ hdne
  obtain ⟨b, hb, _⟩ := maxLen_spec _ hmne
  have hx : dyn[i]? = some dyn[i] := List.getElem?_eq_getElem (by omega)
  set s := zfill a (strInt dyn[i]) ++ zfill b (strInt y) with hs
  have hmem : s ∈ List.zipWith (fun a_1 b_1 => zfill a (strInt a_1) ++ zfill b (strInt b_1)) dyn man := by
    apply List.mem_of_getElem? (i := i)
    rw [List.getElem?_zipWith_eq_some]
    exact ⟨_, _, hx, hi, rfl⟩
  have hbad : pyInt s = .error .valueError := by
    have h1 : IsDigits (zfill a (strInt dyn[i])) := by
      rw [strInt_nonneg _ (hd0 _ (List.getElem_mem _))]
      exact zfill_isDigits _ _ (strNat_isDigits _)
    have h2 : ∃ t, zfill b (strInt y) = '-' :: t := by
      unfold strInt
      rw [if_pos hy0]
      exact ⟨_, rfl⟩
    obtain ⟨t, ht⟩ := h2
    obtain ⟨c, cs, hc⟩ := List.exists_cons_of_ne_nil h1.1
    have hcd : c ≠ '-' := by
      rintro rfl
      exact not_minus h1 cs hc
    have hp : parseDigits s = none := by
      unfold parseDigits
      rw [if_neg]
      rintro ⟨-, hall⟩
      rw [hs, ht, List.all_append] at hall
      simp at hall
    have hs' : s = c :: (cs ++ '-' :: t) := by rw [hs, hc, ht]; rfl
    rw [hs'] at hp ⊢
    unfold pyInt
    split
    · rename_i heq
      exact absurd (List.cons.inj heq).1 hcd
    · rw [hp]
  simp only [superimpose, ha, hb, bind, Except.bind]
  rw [mapM_pyInt_error _ s hmem hbad]

/-- C37 is violated for manual group numbers with 16 digits: the two observations have different manual groups but share
the parameter value since the combined number is converted via a double. -/
theorem C37_fails : superimpose [1, 1] [1000000000000000, 1000000000000001] =
    .ok [11000000000000000, 11000000000000000] := by decide +kernel

/-- Valid frequencies: positive integers; the calendar bins are monotone in time. -/
def ValidFreq {τ : Type} [LinearOrder τ] : Freq τ → Prop
  | .const => True
  | .int f => 1 ≤ f
  | .offset bin => ∀ s t, s ≤ t → bin s ≤ bin t

/-- C37 (complete assignment): for every sorted index, every frequency and every non-negative manual column (at most 15
digits altogether) the parameter dynamics separate exactly the combinations of frequency-group and manual group.  Missing
from the full claim: larger numbers, see `C37_fails`. -/
theorem C37_param_dyn_partial {τ : Type} [LinearOrder τ] (index : List τ) (hs : index.Pairwise (· ≤ ·)) (hne : index ≠ [])
    (freq : Freq τ) (hf : ValidFreq freq) (base man : List Int) (hbase : paramDyn index freq none = .ok base)
    (hm : man.length = index.length) (hm0 : ∀ x ∈ man, 0 ≤ x) (n1 n2 : Nat) (h1 : 1 ≤ n1) (h2 : 1 ≤ n2)
    (h15 : n1 + n2 ≤ 15) (hb1 : ∀ x ∈ base, x < 10 ^ n1) (hb2 : ∀ x ∈ man, x < 10 ^ n2) :
    ∃ r, paramDyn index freq (some man) = .ok r ∧ r.length = index.length ∧
      ∀ i j : Nat, i < index.length → j < index.length →
        (r[i]? = r[j]? ↔ base[i]? = base[j]? ∧ man[i]? = man[j]?) := by
  have hl : base.length = index.length ∧ ∀ x ∈ base, 0 ≤ x := by
    cases freq with
    | const =>
      simp only [paramDyn, bind, Except.bind, pure, Except.pure, Except.ok.injEq] at hbase
      subst hbase
      refine ⟨by simp, ?_⟩
      intro x hx
      rw [List.eq_of_mem_replicate hx]; norm_num
    | int f =>
      simp only [paramDyn, bind, Except.bind, pure, Except.pure] at hbase
      split at hbase
      · cases hbase
      · rename_i g hg
        cases hbase
        refine ⟨?_, intDyn_nonneg index f _ hg⟩
        have hf : 1 ≤ f := hf
        obtain ⟨F, rfl⟩ := Int.eq_ofNat_of_zero_le (show 0 ≤ f by omega)
        by_cases hn : F ≤ index.dedup.length
        · obtain ⟨g', hg', hl', _⟩ := C35_int_groups index F hs (by omega) hn
          rw [hg] at hg'
          cases hg'
          exact hl'
        · rw [C35_too_few index F (by omega)] at hg
          cases hg
    | offset bin =>
      simp only [paramDyn, bind, Except.bind, pure, Except.pure, Except.ok.injEq] at hbase
      subst hbase
      obtain ⟨a, t, rfl⟩ := List.exists_cons_of_ne_nil hne
      rw [offsetDyn_eq (a :: t) bin hs hf a rfl]
      refine ⟨by simp, ?_⟩
      intro x hx
      obtain ⟨s, hsm, rfl⟩ := List.mem_map.1 hx
      have : a ≤ s := by
        rcases List.mem_cons.1 hsm with rfl | h
        · exact le_rfl
        · exact (List.pairwise_cons.1 hs).1 s h
      have := hf _ _ this
      omega
  obtain ⟨r, hr, hrl, _, heq⟩ := C37_superposition_partial base man index.length (List.length_pos_iff.2 hne) hl.1 hm hl.2 hm0
    n1 n2 h1 h2 h15 hb1 hb2
  refine ⟨r, ?_, hrl, heq⟩
  have : paramDyn index freq (some man) = (paramDyn index freq none).bind fun base => superimpose base man := by
    unfold paramDyn
    cases freq with
    | const => rfl
    | int f => simp only [bind, Except.bind]; cases intDyn index f <;> rfl
    | offset bin => rfl
  rw [this, hbase]
  exact hr

example : paramDyn [10, 20, 30, 40] (.int 2) (some [7, 12, 12, 12]) = .ok [7, 12, 112, 112] ∧
    paramDyn [10, 20, 30, 40] (.int 2) none = .ok [0, 0, 1, 1] ∧ ValidFreq (.int 2 : Freq Nat) := by
  refine ⟨by decide +kernel, by decide +kernel, by simp [ValidFreq]⟩
example : superimpose [1, 1] [3, -2] = .error .valueError := by decide +kernel

/-! ## C77: datetime-offset frequencies -/

/-- C77: for a sorted index a datetime-offset frequency puts two observations in the same group iff they are in the same
calendar bin; the group numbers are non-decreasing and start at 0. -/
theorem C77_offset_groups {τ : Type} [LinearOrder τ] (index : List τ) (bin : τ → Int) (hs : index.Pairwise (· ≤ ·))
    (hb : ∀ s t, s ≤ t → bin s ≤ bin t) (hne : index ≠ []) :
    ∃ g, paramDyn index (.offset bin) none = .ok g ∧ g.length = index.length ∧ g.Pairwise (· ≤ ·) ∧ g.head? = some 0 ∧
      ∀ (i j : Nat) (s t : τ), index[i]? = some s → index[j]? = some t → (g[i]? = g[j]? ↔ bin s = bin t) := by
  obtain ⟨a, t, rfl⟩ := List.exists_cons_of_ne_nil hne
  refine ⟨offsetDyn (a :: t) bin, rfl, ?_, ?_, ?_, ?_⟩
  all_goals rw [offsetDyn_eq (a :: t) bin hs hb a rfl]
  · simp
  · rw [List.pairwise_map]
    exact hs.imp fun h => by have := hb _ _ h; omega
  · simp
  · intro i j s s' hi hj
    rw [List.getElem?_map, List.getElem?_map, hi, hj]
    simp

example : offsetDyn [1, 1, 3, 11, 12, 35] (fun t : Nat => (t / 10 : Nat)) = [0, 0, 0, 1, 1, 3] := by decide

end RT1.Grouping
