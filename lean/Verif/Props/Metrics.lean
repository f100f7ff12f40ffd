import Verif.Lemmas.Metrics

/-!
# Metric identities (C47), rank correlation (C79), linear regression (C80)
-/

namespace RT1.Metrics
open General

variable {ι : Type} [DecidableEq ι]

/-- Specification: add a constant to all values of a series. -/
def shift (c : ℝ) (s : Series ι) : Series ι := s.map fun e => (e.1, e.2 + c)

/-- Specification: apply a function to all values of a series. -/
def apply (f : ℝ → ℝ) (s : Series ι) : Series ι := s.map fun e => (e.1, f e.2)

theorem nonempty_align {a b : Series ι} (h : a.map Prod.fst = b.map Prod.fst) (hne : a ≠ []) : align a b ≠ [] := by
  intro e
  have := (paired h).2.2
  rw [e] at this
  exact hne (List.length_eq_zero_iff.1 this.symm)

theorem metrics_eq {a b : Series ι} (h : a.map Prod.fst = b.map Prod.fst) (hne : a ≠ []) :
    let ps := align a b
    let D := fun p : ℝ × ℝ => p.1 - p.2
    rmsd a b = some (Real.sqrt (S ps (fun p => D p ^ 2) / ps.length)) ∧
      bias a b = some (S ps D / ps.length) ∧
      mae a b = some (S ps (fun p => |D p|) / ps.length) ∧
      ubRmsd a b = some (Real.sqrt (S ps (fun p => (D p - S ps D / ps.length) ^ 2) / ps.length)) := by
  intro ps D
  have hps : ps ≠ [] := nonempty_align h hne
  obtain ⟨h1, h2, h3⟩ := paired h
  have hn := (length_pos hps).ne'
  have hm1 : mean (vals a) = some (S ps Prod.fst / ps.length) := by rw [← h1, mean_map hps]
  have hm2 : mean (vals b) = some (S ps Prod.snd / ps.length) := by rw [← h2, mean_map hps]
  have hD : S ps D = S ps Prod.fst - S ps Prod.snd := by
    have := S_add ps (fun p => p.1) (fun p => (-1) * p.2)
    rw [S_mul] at this
    have e : S ps D = S ps fun p => p.1 + (-1) * p.2 := S_congr ps fun p _ => by simp only [D]; ring
    rw [e, this]; change S ps Prod.fst + -1 * S ps Prod.snd = _; ring
  refine ⟨?_, ?_, ?_, ?_⟩
  · rw [rmsd, mean_map hps]; rfl
  · simp only [bias, hm1, hm2, hD]; congr 1; ring
  · rw [mae, mean_map hps]
  · simp only [ubRmsd, hm1, hm2, rmsd]
    have e := align_map h (fun x => x - S ps Prod.fst / ps.length) (fun x => x - S ps Prod.snd / ps.length)
    rw [e, List.map_map, mean_map hps, Option.map_some]
    congr 3
    refine S_congr _ fun p _ => ?_
    simp only [Function.comp_apply, hD, D]
    ring

/-- C47: for series with the same index (at least one value), `rmsd² = ub_rmsd² + bias²` and `|bias| ≤ mae ≤ rmsd`. -/
theorem C47_decomposition_partial {a b : Series ι} (h : a.map Prod.fst = b.map Prod.fst) (hne : a ≠ []) :
    ∃ r u β m, rmsd a b = some r ∧ ubRmsd a b = some u ∧ bias a b = some β ∧ mae a b = some m ∧
      r ^ 2 = u ^ 2 + β ^ 2 ∧ |β| ≤ m ∧ m ≤ r ∧ 0 ≤ u := by
  obtain ⟨h1, h2, h3, h4⟩ := metrics_eq h hne
  have hps := nonempty_align h hne
  set ps := align a b
  have hn := length_pos hps
  set D := fun p : ℝ × ℝ => p.1 - p.2 with hDdef
  have p1 : 0 ≤ S ps (fun p => D p ^ 2) / ps.length := div_nonneg (S_nonneg _ fun _ _ => sq_nonneg _) hn.le
  have p2 : 0 ≤ S ps (fun p => (D p - S ps D / ps.length) ^ 2) / ps.length :=
    div_nonneg (S_nonneg _ fun _ _ => sq_nonneg _) hn.le
  refine ⟨_, _, _, _, h1, h4, h2, h3, ?_, ?_, ?_, Real.sqrt_nonneg _⟩
  · rw [Real.sq_sqrt p1, Real.sq_sqrt p2]
    have e : S ps (fun p => (D p - S ps D / ps.length) ^ 2) =
        S ps (fun p => D p ^ 2) - (S ps D) ^ 2 / ps.length := by
      have e1 : S ps (fun p => (D p - S ps D / ps.length) ^ 2) =
          S ps (fun p => D p ^ 2 + ((-2 * (S ps D / ps.length)) * D p + (S ps D / ps.length) ^ 2)) :=
        S_congr ps fun p _ => by ring
      rw [e1, S_add, S_add, S_mul, S_const]
      field_simp
      ring
    rw [e]
    field_simp
    ring
  · rw [abs_div, abs_of_pos hn]
    apply div_le_div_of_nonneg_right _ hn.le
    rw [abs_le]
    constructor
    · have := S_mono ps (f := fun p => (-1) * |D p|) (g := D) fun p _ => by linarith [neg_abs_le (D p)]
      rw [S_mul] at this; linarith
    · exact S_mono ps fun p _ => le_abs_self _
  · apply Real.le_sqrt_of_sq_le
    have := S_cs ps (fun p => |D p|) (fun _ => 1)
    simp only [mul_one, one_pow, S_const, sq_abs] at this
    rw [div_pow, div_le_div_iff₀ (by positivity) hn]
    nlinarith

/-- C47: no deviation between a series and itself. -/
theorem C47_equal (a : Series ι) (hne : a ≠ []) :
    rmsd a a = some 0 ∧ ubRmsd a a = some 0 ∧ bias a a = some 0 ∧ mae a a = some 0 := by
  obtain ⟨h1, h2, h3, h4⟩ := metrics_eq (rfl : a.map Prod.fst = a.map Prod.fst) hne
  have hz : ∀ p ∈ align a a, p.1 - p.2 = 0 := by
    intro p hp
    simp only [align, if_true, zip_self] at hp
    obtain ⟨x, _, rfl⟩ := List.mem_map.1 hp
    simp
  have e0 : S (align a a) (fun p => p.1 - p.2) = 0 := by
    rw [S_congr _ hz, S_const]; simp
  have e1 : S (align a a) (fun p => (p.1 - p.2) ^ 2) = 0 := by
    rw [S_congr (g := fun _ => 0) _ fun p hp => by rw [hz p hp]; simp, S_const]; simp
  have e2 : S (align a a) (fun p => |p.1 - p.2|) = 0 := by
    rw [S_congr (g := fun _ => 0) _ fun p hp => by rw [hz p hp]; simp, S_const]; simp
  simp only [e0, e1, e2, zero_div, sub_zero, Real.sqrt_zero] at h1 h2 h3 h4
  exact ⟨h1, h4, h2, h3⟩

/-- C47: bias is antisymmetric (for all series). -/
theorem C47_bias_antisymm (a b : Series ι) : bias b a = (bias a b).map fun x => -x := by
  unfold bias
  cases mean (vals a) <;> cases mean (vals b) <;> simp

/-- C47: the other metrics are symmetric. -/
theorem C47_symmetric_partial {a b : Series ι} (h : a.map Prod.fst = b.map Prod.fst) :
    rmsd b a = rmsd a b ∧ ubRmsd b a = ubRmsd a b ∧ mae b a = mae a b ∧ pearson b a = pearson a b := by
  have hr : ∀ {a b : Series ι}, a.map Prod.fst = b.map Prod.fst → rmsd b a = rmsd a b := by
    intro a b h
    unfold rmsd
    rw [align_swap h, List.map_map]
    congr 3
    funext p
    simp only [Function.comp_apply, Prod.fst_swap, Prod.snd_swap]; ring
  refine ⟨hr h, ?_, ?_, ?_⟩
  · unfold ubRmsd
    cases mean (vals a) <;> cases mean (vals b) <;> simp only []
    apply hr
    simpa [Function.comp_def] using h
  · unfold mae
    rw [align_swap h, List.map_map]
    congr 2
    funext p
    simp only [Function.comp_apply, Prod.fst_swap, Prod.snd_swap]
    exact abs_sub_comm _ _
  · unfold pearson
    rw [align_swap h, corr_swap]

/-- C47: rmsd and mae do not change if the same number is added to all values of both series. -/
theorem C47_shift_partial {a b : Series ι} (h : a.map Prod.fst = b.map Prod.fst) (c : ℝ) :
    rmsd (shift c a) (shift c b) = rmsd a b ∧ mae (shift c a) (shift c b) = mae a b := by
  have e := align_map h (fun x => x + c) (fun x => x + c)
  unfold rmsd mae shift
  rw [e, List.map_map, List.map_map]
  constructor
  · congr 2
    exact List.map_congr_left fun p _ => by simp
  · congr 1
    exact List.map_congr_left fun p _ => by simp

/-- C47: the unbiased rmsd does not change if arbitrary numbers are added to the two series. -/
theorem C47_unbiased {a b : Series ι} (h : a.map Prod.fst = b.map Prod.fst) (c d : ℝ) :
    ubRmsd (shift c a) (shift d b) = ubRmsd a b := by
  by_cases hne : a = []
  · subst hne
    simp [ubRmsd, shift, vals, mean]
  have hb : b ≠ [] := by rintro rfl; simp at h; exact hne h
  have hm : ∀ (c : ℝ) (s : Series ι), s ≠ [] → mean (vals (shift c s)) = (mean (vals s)).map (· + c) := by
    intro c s hs
    have hn := (length_pos hs).ne'
    have e : vals (shift c s) = s.map fun e => 1 * e.2 + c := by simp [vals, shift]
    rw [e]
    simp only [mean, List.map_eq_nil_iff, hs, if_false, sum_affine, vals, Option.map_some, List.length_map]
    congr 1
    field_simp
  unfold ubRmsd
  rw [hm c a hne, hm d b hb]
  cases mean (vals a) <;> cases mean (vals b) <;> simp only [Option.map_some, Option.map_none]
  simp [shift, Function.comp_def]

/-- C47: the pearson correlation is between -1 and 1 (whenever it is a number; for all series). -/
theorem C47_pearson_bound {a b : Series ι} {r : ℝ} (h : pearson a b = some r) : |r| ≤ 1 := corr_bound h

/-- C47: the pearson correlation is a number exactly if there are two pairs of values and neither series is constant. -/
theorem C47_pearson_defined {a b : Series ι} (h : a.map Prod.fst = b.map Prod.fst) :
    (pearson a b).isSome ↔ (∃ x ∈ vals a, ∃ x' ∈ vals a, x ≠ x') ∧ ∃ y ∈ vals b, ∃ y' ∈ vals b, y ≠ y' := by
  have key : ∀ l : List ℝ, ssq l = 0 ↔ ¬ ∃ x ∈ l, ∃ x' ∈ l, x ≠ x' := by
    intro l
    unfold ssq
    change S l _ = 0 ↔ _
    rw [S_zero_iff l fun _ _ => sq_nonneg _]
    push Not
    constructor
    · intro h x hx x' hx'
      have := pow_eq_zero_iff (two_ne_zero) |>.1 (h x hx)
      have := pow_eq_zero_iff (two_ne_zero) |>.1 (h x' hx')
      linarith
    · intro h x hx
      have hne : l ≠ [] := List.ne_nil_of_mem hx
      have : l.sum = l.length * x := by
        have := S_congr l (f := id) (g := fun _ => x) fun y hy => h y hy x hx
        rw [S_const] at this
        simpa [S] using this
      rw [this]
      have := (length_pos hne).ne'
      field_simp
      simp
  obtain ⟨h1, h2, h3⟩ := paired h
  unfold pearson corr
  rw [h1, h2, h3]
  have k1 := key (vals a)
  have k2 := key (vals b)
  by_cases c1 : ∃ x ∈ vals a, ∃ x' ∈ vals a, x ≠ x' <;> by_cases c2 : ∃ y ∈ vals b, ∃ y' ∈ vals b, y ≠ y'
  · have hl : ¬ a.length < 2 := by
      intro hl
      obtain ⟨x, hx, x', hx', hne⟩ := c1
      match a, hl with
      | [], _ => simp [vals] at hx
      | [e], _ => simp [vals] at hx hx'; exact hne (hx.trans hx'.symm)
    rw [if_neg (by
      rintro (q | q | q)
      · exact hl q
      · exact k1.1 q c1
      · exact k2.1 q c2)]
    simp only [Option.isSome_some, true_iff]
    exact ⟨c1, c2⟩
  · rw [if_pos (.inr (.inr (k2.2 c2)))]
    simp only [Option.isSome_none, Bool.false_eq_true, false_iff]
    exact fun q => c2 q.2
  · rw [if_pos (.inr (.inl (k1.2 c1)))]
    simp only [Option.isSome_none, Bool.false_eq_true, false_iff]
    exact fun q => c1 q.1
  · rw [if_pos (.inr (.inl (k1.2 c1)))]
    simp only [Option.isSome_none, Bool.false_eq_true, false_iff]
    exact fun q => c1 q.1

/-- C47: the pearson correlation is invariant under positive affine rescaling of either series. -/
theorem C47_pearson_affine_partial {a b : Series ι} (h : a.map Prod.fst = b.map Prod.fst) {c c' : ℝ} (d d' : ℝ) (hc : 0 < c)
    (hc' : 0 < c') : pearson (apply (fun x => c * x + d) a) (apply (fun x => c' * x + d') b) = pearson a b := by
  unfold pearson apply
  rw [align_map h (fun x => c * x + d) (fun x => c' * x + d'), corr_affine _ d d' hc.ne' hc'.ne', abs_of_pos hc, abs_of_pos hc', div_self hc.ne', div_self hc'.ne']
  simp

/-- C47: mirroring one series changes the sign of the pearson correlation. -/
theorem C47_pearson_neg {a b : Series ι} (h : a.map Prod.fst = b.map Prod.fst) :
    pearson (apply (fun x => -x) a) b = (pearson a b).map fun r => -r := by
  have e := align_map h (fun x => -x) (fun x => x)
  have e2 : (b.map fun e => (e.1, e.2)) = b := by simp
  rw [e2] at e
  unfold pearson apply
  rw [e]
  have := corr_affine (align a b) (c := -1) (c' := 1) 0 0 (by norm_num) (by norm_num)
  simp only [neg_mul, one_mul, add_zero, abs_neg, abs_one, div_one] at this
  rw [this]

/-- C47: the pearson correlation of a series with itself is 1. -/
theorem C47_pearson_self {a : Series ι} {r : ℝ} (h : pearson a a = some r) : r = 1 := by
  obtain ⟨h1, h2, h3⟩ := paired (rfl : a.map Prod.fst = a.map Prod.fst)
  unfold pearson corr at h
  split_ifs at h with hc
  push Not at hc
  rw [← Option.some.inj h, h1, h2]
  rw [h1] at hc
  have hp : 0 < ssq (vals a) := lt_of_le_of_ne (ssq_nonneg _) (Ne.symm hc.2.1)
  have e : sxy (align a a) = ssq (vals a) := by
    unfold sxy ssq
    rw [h1, h2]
    simp only [align, if_true, zip_self, List.map_map, List.length_map]
    congr 1
    apply List.map_congr_left
    intro x _
    simp only [Function.comp_apply]; ring
  rw [e, Real.mul_self_sqrt hp.le, div_self hp.ne']

/-- C47: std_ratio is inverted by exchanging the series, and multiplicative. -/
theorem C47_std_ratio {a b : Series ι} {r : ℝ} (h : stdRatio a b = some r) :
    0 ≤ r ∧ (r ≠ 0 → stdRatio b a = some (1 / r)) ∧
      ∀ (c : Series ι) (q : ℝ), stdRatio b c = some q → stdRatio a c = some (r * q) := by
  unfold stdRatio at h
  have hnn : ∀ {l : List ℝ} {s : ℝ}, std l = some s → 0 ≤ s := by
    intro l s hs
    unfold std at hs
    split_ifs at hs
    rw [← Option.some.inj hs]
    exact Real.sqrt_nonneg _
  cases ha : std (vals a) with
  | none => rw [ha] at h; simp at h
  | some s1 =>
    cases hb : std (vals b) with
    | none => rw [ha, hb] at h; simp at h
    | some s2 =>
      rw [ha, hb] at h
      simp only at h
      split_ifs at h with h0
      have hr := Option.some.inj h
      refine ⟨by rw [← hr]; exact div_nonneg (hnn ha) (hnn hb), ?_, ?_⟩
      · intro hr0
        have hs1 : s1 ≠ 0 := by rintro rfl; simp at hr; exact hr0 hr.symm
        simp only [stdRatio, ha, hb, if_neg hs1, Option.some.injEq, ← hr]
        rw [one_div, inv_div]
      · intro c q hq
        unfold stdRatio at hq ⊢
        rw [hb] at hq
        rw [ha]
        cases hc : std (vals c) with
        | none => rw [hc] at hq; simp at hq
        | some s3 =>
          rw [hc] at hq
          simp only at hq ⊢
          split_ifs at hq ⊢ with h3
          rw [← Option.some.inj hq, ← hr]
          congr 1
          field_simp

/-- C47: the statement fails for equally long series with a different index: the code concatenates the series only if the
lengths differ, so `subtract` compares the common labels only while `bias` uses all values.  Here the mean absolute error
is 0 and the bias is -2. -/
theorem C47_index_fails : ∃ a b : Series ℤ, a.length = b.length ∧ (a.map Prod.fst).Nodup ∧ (b.map Prod.fst).Nodup ∧
    ∃ m β, mae a b = some m ∧ bias a b = some β ∧ ¬ |β| ≤ m := by
  refine ⟨[(0, 0), (1, 2)], [(1, 2), (2, 4)], rfl, by decide, by decide, 0, -2, ?_, ?_, by norm_num⟩
  · have : align [((0 : ℤ), (0 : ℝ)), (1, 2)] [(1, 2), (2, 4)] = [(2, 2)] := by
      unfold align
      rw [if_neg (by decide)]
      simp [List.lookup]
    rw [mae, this]
    simp [mean]
  · simp [bias, vals, mean]; norm_num

example : ([(0, 1), (1, 3), (2, 2)] : Series ℤ).map Prod.fst = ([(0, 2), (1, 5), (2, 2)] : Series ℤ).map Prod.fst := rfl

/-- C47: a concrete correlation. -/
example : ∃ r, pearson ([(0, 1), (1, 3)] : Series ℤ) [(0, 2), (1, 5)] = some r := by
  rw [← Option.isSome_iff_exists, C47_pearson_defined (by rfl)]
  exact ⟨⟨1, by simp [vals], 3, by simp [vals], by norm_num⟩, 2, by simp [vals], 5, by simp [vals], by norm_num⟩

/-! ## C79: rank correlation -/

/-- C79: the rank correlation is between -1 and 1. -/
theorem C79_spearman_bound {a b : Series ι} {r : ℝ} (h : spearman a b = some r) : |r| ≤ 1 := corr_bound h

/-- C79: the rank correlation is symmetric. -/
theorem C79_spearman_symmetric {a b : Series ι} (h : a.map Prod.fst = b.map Prod.fst) : spearman b a = spearman a b := by
  unfold spearman
  rw [align_swap h, ← corr_swap (ranks (align a b))]
  congr 1
  simp only [ranks, List.map_map]
  rfl

/-- C79: the rank correlation does not change if strictly increasing functions are applied to the series. -/
theorem C79_spearman_monotone {a b : Series ι} (h : a.map Prod.fst = b.map Prod.fst) {f g : ℝ → ℝ} (hf : StrictMono f)
    (hg : StrictMono g) : spearman (apply f a) (apply g b) = spearman a b := by
  unfold spearman apply
  rw [align_map h]
  congr 1
  simp only [ranks, List.map_map]
  apply List.map_congr_left
  intro p _
  have e1 : (Prod.fst ∘ fun p : ℝ × ℝ => (f p.1, g p.2)) = f ∘ Prod.fst := rfl
  have e2 : (Prod.snd ∘ fun p : ℝ × ℝ => (f p.1, g p.2)) = g ∘ Prod.snd := rfl
  simp only [Function.comp_apply, e1, e2, ← List.map_map, rank_mono _ hf, rank_mono _ hg]

/-- C79: a series that is a strictly increasing function of the other one has rank correlation 1 (if it is a number). -/
theorem C79_spearman_one {a : Series ι} {f : ℝ → ℝ} (hf : StrictMono f) {r : ℝ} (h : spearman a (apply f a) = some r) :
    r = 1 := by
  have e := C79_spearman_monotone (rfl : a.map Prod.fst = a.map Prod.fst) strictMono_id hf
  have e1 : apply id a = a := by simp [apply]
  rw [e1] at e
  rw [e] at h
  unfold spearman at h
  -- correlation of a list of pairs with equal components
  have hdiag : ∀ p ∈ ranks (align a a), p.1 = p.2 := by
    intro p hp
    simp only [align, if_true, ranks] at hp
    rw [zip_self, List.map_map] at hp
    obtain ⟨x, _, rfl⟩ := List.mem_map.1 hp
    simp [Function.comp_def]
  have hfs : (ranks (align a a)).map Prod.snd = (ranks (align a a)).map Prod.fst :=
    List.map_congr_left fun p hp => (hdiag p hp).symm
  unfold corr at h
  split_ifs at h with hc
  push Not at hc
  rw [← Option.some.inj h, hfs]
  have hp : 0 < ssq ((ranks (align a a)).map Prod.fst) := lt_of_le_of_ne (ssq_nonneg _) (Ne.symm hc.2.1)
  have e : sxy (ranks (align a a)) = ssq ((ranks (align a a)).map Prod.fst) := by
    unfold sxy ssq
    rw [hfs, List.map_map, List.length_map]
    congr 1
    apply List.map_congr_left
    intro p hp
    simp only [Function.comp_apply, ← hdiag p hp]; ring
  rw [e, Real.mul_self_sqrt hp.le, div_self hp.ne']

example : StrictMono fun x : ℝ => x ^ 3 := by
  exact Odd.strictMono_pow (by decide)

/-! ## C80: linear regression -/

/-- C80: the regression line minimises the sum of the squared deviations of `d2` from a line in `d1`, among all lines. -/
theorem C80_linregress_optimal {a b : Series ι} (hl : a.length = b.length) {k q r : ℝ}
    (h : linregress a b = some (k, q, r)) (k' q' : ℝ) :
    (((vals a).zip (vals b)).map fun p => (p.2 - (k * p.1 + q)) ^ 2).sum ≤
      (((vals a).zip (vals b)).map fun p => (p.2 - (k' * p.1 + q')) ^ 2).sum := by
  set ps := (vals a).zip (vals b) with hps
  have hl' : (vals a).length = (vals b).length := by simpa [vals] using hl
  have h1 : ps.map Prod.fst = vals a := List.map_fst_zip hl'.le
  have h2 : ps.map Prod.snd = vals b := List.map_snd_zip hl'.ge
  have hlen : ps.length = (vals a).length := by simp [hps, hl']
  obtain ⟨hc, hk, hq⟩ := linregress_some h
  push Not at hc
  have hne : ps ≠ [] := by
    intro e; apply hc.1; rw [← h1, e]; rfl
  have hn := length_pos hne
  have hss : 0 < ssq (vals a) := by
    refine lt_of_le_of_ne (ssq_nonneg _) fun e => ?_
    obtain ⟨x, hx, y, hy, hxy⟩ := hc.2.2
    unfold ssq at e
    have := (S_zero_iff (vals a) (f := fun x => (x - (vals a).sum / (vals a).length) ^ 2) fun _ _ => sq_nonneg _).1 e.symm
    have e1 := pow_eq_zero_iff two_ne_zero |>.1 (this x hx)
    have e2 := pow_eq_zero_iff two_ne_zero |>.1 (this y hy)
    exact hxy (by linarith)
  set X := (vals a).sum / (vals a).length with hX
  set Y := (vals b).sum / (vals b).length with hY
  have hsx : S ps (fun p => p.1 - X) = 0 := by
    have := S_add ps (fun p => p.1) (fun _ => -X)
    rw [S_const] at this
    have e : S ps (fun p => p.1 - X) = S ps fun p => p.1 + -X := S_congr ps fun p _ => by ring
    rw [e, this]
    have e' : S ps (fun p => p.1) = (vals a).sum := by rw [← h1]; rfl
    rw [e', hX, hlen]
    have : ((vals a).length : ℝ) ≠ 0 := by rw [← hlen]; exact hn.ne'
    field_simp; ring
  have hsy : S ps (fun p => p.2 - Y) = 0 := by
    have := S_add ps (fun p => p.2) (fun _ => -Y)
    rw [S_const] at this
    have e : S ps (fun p => p.2 - Y) = S ps fun p => p.2 + -Y := S_congr ps fun p _ => by ring
    rw [e, this]
    have e' : S ps (fun p => p.2) = (vals b).sum := by rw [← h2]; rfl
    rw [e', hY, hlen, hl']
    have : ((vals b).length : ℝ) ≠ 0 := by rw [← hl', ← hlen]; exact hn.ne'
    field_simp; ring
  have hsxx : S ps (fun p => (p.1 - X) ^ 2) = ssq (vals a) := by
    rw [ssq, ← h1, List.map_map]
    rw [h1]; rfl
  have hsxy : S ps (fun p => (p.1 - X) * (p.2 - Y)) = sxy ps := by
    rw [sxy, h1, h2]
    unfold S
    rw [hlen, hX, hY, hl']
  have expand : ∀ k q : ℝ, S ps (fun p => (p.2 - (k * p.1 + q)) ^ 2) =
      S ps (fun p => (p.2 - Y) ^ 2) + k ^ 2 * ssq (vals a) - 2 * k * sxy ps + ps.length * (Y - k * X - q) ^ 2 := by
    intro k q
    have e : S ps (fun p => (p.2 - (k * p.1 + q)) ^ 2) = S ps (fun p => (p.2 - Y) ^ 2 + (k ^ 2 * (p.1 - X) ^ 2 +
        ((-2 * k) * ((p.1 - X) * (p.2 - Y)) + ((2 * (Y - k * X - q)) * (p.2 - Y) + ((-2 * k * (Y - k * X - q)) * (p.1 - X) +
          (Y - k * X - q) ^ 2))))) := S_congr ps fun p _ => by ring
    rw [e, S_add, S_add, S_add, S_add, S_add, S_mul, S_mul, S_mul, S_mul, S_const, hsx, hsy, hsxx, hsxy]
    ring
  change S ps _ ≤ S ps _
  rw [expand, expand]
  have hq' : Y - k * X - q = 0 := by rw [← hq]; ring
  have hk' : k * ssq (vals a) = sxy ps := by rw [← hk, div_mul_cancel₀ _ hss.ne']
  rw [hq', ← hk']
  have : 0 ≤ ps.length * (Y - k' * X - q') ^ 2 := mul_nonneg hn.le (sq_nonneg _)
  have : 0 ≤ ssq (vals a) * (k' - k) ^ 2 := mul_nonneg hss.le (sq_nonneg _)
  nlinarith

/-- C80: no regression is possible exactly for empty or differently long series and for a constant `d1`; `None` is returned
instead of an exception. -/
theorem C80_linregress_none (a b : Series ι) :
    linregress a b = none ↔ a.length ≠ b.length ∨ ∀ x ∈ vals a, ∀ y ∈ vals a, x = y := by
  unfold linregress scipyLinregress
  have e : (vals a).length ≠ (vals b).length ↔ a.length ≠ b.length := by simp [vals]
  split_ifs with h
  · simp only [true_iff]
    rcases h with h | h | h
    · right; rw [h]; simp
    · left; exact e.1 h
    · right; exact h
  · push Not at h
    simp only [reduceCtorEq, false_iff]
    push Not
    refine ⟨by simpa [vals] using h.2.1, h.2.2⟩

/-- C80: the correlation of the regression is the pearson correlation whenever the latter is a number. -/
theorem C80_linregress_rvalue {a b : Series ι} (hi : a.map Prod.fst = b.map Prod.fst) {k q r ρ : ℝ}
    (h : linregress a b = some (k, q, r)) (hp : pearson a b = some ρ) : r = ρ := by
  obtain ⟨h1, h2, h3⟩ := paired hi
  have ha : align a b = (vals a).zip (vals b) := by simp [align, hi]
  unfold linregress scipyLinregress at h
  split_ifs at h with hc
  all_goals simp only [Option.some.injEq, Prod.mk.injEq] at h
  all_goals unfold pearson corr at hp
  all_goals split_ifs at hp with hc'
  all_goals push Not at hc'
  · rw [h2] at hc'; exact absurd ‹ssq (vals b) = 0› hc'.2.2
  · rw [← h.2.2, ← Option.some.inj hp, h1, h2, ← Real.sqrt_mul (ssq_nonneg _), ha]

example : ∃ k q r, linregress ([(0, 1), (1, 3), (2, 4)] : Series ℤ) [(0, 2), (1, 5), (2, 2)] = some (k, q, r) := by
  have : linregress ([(0, 1), (1, 3), (2, 4)] : Series ℤ) [(0, 2), (1, 5), (2, 2)] ≠ none := by
    rw [Ne, C80_linregress_none]
    push Not
    exact ⟨rfl, 1, by simp [vals], 3, by simp [vals], by norm_num⟩
  obtain ⟨⟨k, q, r⟩, h⟩ := Option.ne_none_iff_exists'.1 this
  exact ⟨k, q, r, h⟩

end RT1.Metrics
