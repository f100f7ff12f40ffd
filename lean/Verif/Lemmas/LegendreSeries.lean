import Verif.Lemmas.Legendre
import Mathlib.Analysis.Calculus.SmoothSeries
import Mathlib.Analysis.SpecificLimits.Normed
import Mathlib.Analysis.Calculus.Deriv.MeanValue
import Mathlib.Analysis.SpecialFunctions.Sqrt

/-!
# Bound of the Legendre polynomials and their generating function
-/

namespace RT1.Legendre

open Real RT1.Rad RT1.Fn Set

/-- second derivative of `legP` -/
noncomputable def ddP (x : ℝ) : ℕ → ℝ
  | 0 => 0
  | 1 => 0
  | n + 2 => ((2 * n + 3) * (dP x (n + 1) + (dP x (n + 1) + x * ddP x (n + 1))) - (n + 1) * ddP x n) / (n + 2)

theorem hasDerivAt_dP (x : ℝ) (n : ℕ) : HasDerivAt (fun y => dP y n) (ddP x n) x := by
  induction n using Nat.twoStepInduction with
  | zero => simpa [dP, ddP] using hasDerivAt_const x (0 : ℝ)
  | one => simpa [dP, ddP] using hasDerivAt_const x (1 : ℝ)
  | more n ih1 ih2 =>
    have h1 := ((hasDerivAt_legP x (n + 1)).fun_add ((hasDerivAt_id' x).fun_mul ih2)).const_mul (2 * n + 3 : ℝ)
    have h2 := (h1.fun_sub (ih1.const_mul (n + 1 : ℝ))).div_const (n + 2 : ℝ)
    have e : (fun y => dP y (n + 2)) =
        fun y => ((2 * n + 3 : ℝ) * (legP y (n + 1) + y * dP y (n + 1)) - (n + 1 : ℝ) * dP y n) / (n + 2 : ℝ) := by
      ext y; rw [dP]
    rw [e]
    refine h2.congr_deriv ?_
    rw [ddP, one_mul]

theorem one_sub_sq_mul_dP (x : ℝ) (n : ℕ) : (1 - x ^ 2) * dP x (n + 1) = (n + 1) * (legP x n - x * legP x (n + 1)) := by
  have h := dP_rel x n
  linear_combination h.1 - x * h.2

/-- Legendre's differential equation -/
theorem ode (x : ℝ) (n : ℕ) :
    (1 - x ^ 2) * ddP x (n + 1) - 2 * x * dP x (n + 1) = -((n + 1) * (n + 2)) * legP x (n + 1) := by
  have hl : HasDerivAt (fun y : ℝ => (1 - y ^ 2) * dP y (n + 1)) ((-(2 * x)) * dP x (n + 1) + (1 - x ^ 2) * ddP x (n + 1)) x := by
    have h1 : HasDerivAt (fun y : ℝ => 1 - y ^ 2) (-(2 * x)) x := by
      simpa using (hasDerivAt_pow 2 x).const_sub 1
    exact h1.fun_mul (hasDerivAt_dP x (n + 1))
  have hr : HasDerivAt (fun y : ℝ => (n + 1 : ℝ) * (legP y n - y * legP y (n + 1)))
      ((n + 1 : ℝ) * (dP x n - (1 * legP x (n + 1) + x * dP x (n + 1)))) x :=
    ((hasDerivAt_legP x n).fun_sub ((hasDerivAt_id' x).fun_mul (hasDerivAt_legP x (n + 1)))).const_mul _
  have e : (fun y : ℝ => (1 - y ^ 2) * dP y (n + 1)) = fun y : ℝ => (n + 1 : ℝ) * (legP y n - y * legP y (n + 1)) := by
    ext y; exact one_sub_sq_mul_dP y n
  rw [e] at hl
  have := hl.unique hr
  have h2 := (dP_rel x n).2
  linear_combination this - (n + 1) * h2

theorem legP_sq_le_one_of_nonneg {x : ℝ} (h0 : 0 ≤ x) (h1 : x ≤ 1) (n : ℕ) : legP x n ^ 2 ≤ 1 := by
  cases n with
  | zero => simp [legP]
  | succ n =>
    let q : ℝ → ℝ := fun y => ((n + 1) * (n + 2) : ℝ) * legP y (n + 1) ^ 2 + (1 - y ^ 2) * dP y (n + 1) ^ 2
    have hq : ∀ y, HasDerivAt q (2 * y * dP y (n + 1) ^ 2) y := by
      intro y
      have a := (hasDerivAt_legP y (n + 1)).fun_pow 2
      have b := (hasDerivAt_dP y (n + 1)).fun_pow 2
      have c : HasDerivAt (fun y : ℝ => 1 - y ^ 2) (-(2 * y)) y := by
        simpa using (hasDerivAt_pow 2 y).const_sub 1
      have d := (a.const_mul ((n + 1) * (n + 2) : ℝ)).fun_add (c.fun_mul b)
      refine d.congr_deriv ?_
      have := ode y n
      simp only [Nat.cast_ofNat, Nat.add_one_sub_one, pow_one]
      linear_combination 2 * dP y (n + 1) * this
    have hm : MonotoneOn q (Icc 0 1) := by
      apply monotoneOn_of_deriv_nonneg (convex_Icc 0 1)
      · intro y _; exact (hq y).continuousAt.continuousWithinAt
      · intro y _; exact (hq y).differentiableAt.differentiableWithinAt
      · intro y hy
        rw [interior_Icc] at hy
        rw [(hq y).deriv]
        have := hy.1
        positivity
    have hle := hm ⟨h0, h1⟩ ⟨zero_le_one, le_rfl⟩ h1
    simp only [q, legP_one] at hle
    have hp : (0 : ℝ) < (n + 1) * (n + 2) := by positivity
    have : 0 ≤ (1 - x ^ 2) * dP x (n + 1) ^ 2 := by
      have : 0 ≤ 1 - x ^ 2 := by nlinarith
      positivity
    have h3 : ((n + 1) * (n + 2) : ℝ) * legP x (n + 1) ^ 2 ≤ ((n + 1) * (n + 2) : ℝ) * 1 := by linarith
    exact le_of_mul_le_mul_left h3 hp

theorem abs_legP_le_one {x : ℝ} (hx : x ∈ Icc (-1 : ℝ) 1) (n : ℕ) : |legP x n| ≤ 1 := by
  rw [← sq_le_one_iff_abs_le_one]
  rcases le_total 0 x with h | h
  · exact legP_sq_le_one_of_nonneg h hx.2 n
  · have := legP_sq_le_one_of_nonneg (neg_nonneg.2 h) (by linarith [hx.1]) n
    rw [legP_neg, mul_pow, ← pow_mul, mul_comm n 2, pow_mul] at this
    simpa using this

/-! ## Generating function -/

section
variable {x : ℝ} (hx : x ∈ Icc (-1 : ℝ) 1)
include hx

theorem summable_nP {t : ℝ} (ht : |t| < 1) : Summable fun n : ℕ => (n : ℝ) * (legP x n * t ^ n) := by
  have h := (summable_pow_mul_geometric_of_norm_lt_one 1 (r := |t|) (by simpa using ht))
  refine Summable.of_norm_bounded h fun n => ?_
  have := abs_legP_le_one hx n
  simp only [norm_mul, norm_pow, Real.norm_eq_abs, Nat.abs_cast, pow_one]
  calc (n : ℝ) * (|legP x n| * |t| ^ n) ≤ (n : ℝ) * (1 * |t| ^ n) := by gcongr
    _ = n * |t| ^ n := by ring

theorem summable_P {t : ℝ} (ht : |t| < 1) : Summable fun n : ℕ => legP x n * t ^ n := by
  have h := (summable_geometric_of_lt_one (abs_nonneg t) ht)
  refine Summable.of_norm_bounded h fun n => ?_
  have := abs_legP_le_one hx n
  simp only [norm_mul, norm_pow, Real.norm_eq_abs]
  calc |legP x n| * |t| ^ n ≤ 1 * |t| ^ n := by gcongr
    _ = |t| ^ n := by ring

/-- derivative series -/
theorem summable_P' {t : ℝ} (ht : |t| < 1) : Summable fun n : ℕ => (n + 1 : ℝ) * legP x (n + 1) * t ^ n := by
  have h1 := (summable_pow_mul_geometric_of_norm_lt_one 1 (r := |t|) (by simpa using ht))
  have h2 := (summable_geometric_of_lt_one (abs_nonneg t) ht)
  refine Summable.of_norm_bounded (h1.add h2) fun n => ?_
  have := abs_legP_le_one hx (n + 1)
  simp only [norm_mul, norm_pow, Real.norm_eq_abs, pow_one]
  rw [abs_of_nonneg (by positivity : (0 : ℝ) ≤ n + 1)]
  calc ((n : ℝ) + 1) * |legP x (n + 1)| * |t| ^ n ≤ (n + 1) * 1 * |t| ^ n := by gcongr
    _ = n * |t| ^ n + |t| ^ n := by ring

theorem hasDerivAt_gen {t : ℝ} (ht : |t| < 1) :
    HasDerivAt (fun s => ∑' n : ℕ, legP x n * s ^ n) (∑' n : ℕ, (n + 1 : ℝ) * legP x (n + 1) * t ^ n) t := by
  obtain ⟨r, hr1, hr2⟩ := exists_between ht
  have hr0 : 0 < r := (abs_nonneg t).trans_lt hr1
  have hu : Summable fun n : ℕ => (n : ℝ) * r ^ (n - 1) := by
    have h := (summable_pow_mul_geometric_of_norm_lt_one 1 (r := r) (by simpa [abs_of_pos hr0] using hr2)).mul_left (1 / r)
    refine h.congr fun n => ?_
    cases n with
    | zero => simp
    | succ n => simp only [Nat.add_sub_cancel, pow_succ]; field_simp
  have key := hasDerivAt_tsum_of_isPreconnected (u := fun n : ℕ => (n : ℝ) * r ^ (n - 1)) (t := Ioo (-r) r)
    (g := fun n s => legP x n * s ^ n) (g' := fun n s => legP x n * ((n : ℝ) * s ^ (n - 1)))
    (y₀ := 0) (y := t) hu isOpen_Ioo isPreconnected_Ioo
    (fun n y _ => (hasDerivAt_pow n y).const_mul _) ?_ ⟨by linarith, hr0⟩ (summable_P hx (by simp)) (abs_lt.1 hr1)
  · refine key.congr_deriv ?_
    have hs : Summable fun n : ℕ => legP x n * ((n : ℝ) * t ^ (n - 1)) := by
      rw [← summable_nat_add_iff 1]
      refine (summable_P' hx ht).congr fun n => ?_
      rw [Nat.add_sub_cancel]; push_cast; ring
    rw [hs.tsum_eq_zero_add]
    simp only [Nat.cast_zero, zero_mul, mul_zero, zero_add]
    refine tsum_congr fun n => ?_
    rw [Nat.add_sub_cancel]; push_cast; ring
  · intro n y hy
    have h1 := abs_legP_le_one hx n
    have h2 : |y| ≤ r := abs_le.2 ⟨hy.1.le, hy.2.le⟩
    simp only [norm_mul, norm_pow, Real.norm_eq_abs, Nat.abs_cast]
    calc |legP x n| * ((n : ℝ) * |y| ^ (n - 1)) ≤ 1 * ((n : ℝ) * r ^ (n - 1)) := by gcongr
      _ = _ := by ring

/-- the differential equation of the generating function in `t` -/
theorem gen_ode {t : ℝ} (ht : |t| < 1) :
    D t x * ∑' n : ℕ, (n + 1 : ℝ) * legP x (n + 1) * t ^ n = (x - t) * ∑' n : ℕ, legP x n * t ^ n := by
  have s0 := summable_P hx ht
  have s1 := summable_P' hx ht
  have s2 := summable_nP hx ht
  set F := ∑' n : ℕ, legP x n * t ^ n with hF
  set F1 := ∑' n : ℕ, (n + 1 : ℝ) * legP x (n + 1) * t ^ n with hF1
  have e1 : F = 1 + ∑' n : ℕ, legP x (n + 1) * t ^ (n + 1) := by
    rw [hF, s0.tsum_eq_zero_add]; simp [legP]
  have e2 : F1 = x + ∑' n : ℕ, (n + 2 : ℝ) * legP x (n + 2) * t ^ (n + 1) := by
    rw [hF1, s1.tsum_eq_zero_add]; simp [legP]; congr 1; ext n; ring
  have e3 : ∑' n : ℕ, (n : ℝ) * (legP x n * t ^ n) = t * F1 := by
    rw [s2.tsum_eq_zero_add, hF1, ← tsum_mul_left]
    simp only [Nat.cast_zero, zero_mul, zero_add]
    refine tsum_congr fun n => ?_
    push_cast; ring
  have sa : Summable fun n : ℕ => legP x (n + 1) * t ^ (n + 1) := (summable_nat_add_iff 1).2 s0
  have e4 : ∑' n : ℕ, (n + 2 : ℝ) * legP x (n + 2) * t ^ (n + 1) =
      2 * x * t * F1 + x * (∑' n : ℕ, legP x (n + 1) * t ^ (n + 1)) - t * (∑' n : ℕ, (n : ℝ) * (legP x n * t ^ n)) - t * F := by
    rw [hF1, hF, ← tsum_mul_left, ← tsum_mul_left, ← tsum_mul_left, ← tsum_mul_left,
      ← (s1.mul_left _).tsum_add (sa.mul_left _), ← ((s1.mul_left _).add (sa.mul_left _)).tsum_sub (s2.mul_left _),
      ← (((s1.mul_left _).add (sa.mul_left _)).sub (s2.mul_left _)).tsum_sub (s0.mul_left _)]
    refine tsum_congr fun n => ?_
    have := bonnet x n
    linear_combination t ^ (n + 1) * this
  rw [e3] at e4
  unfold D
  linear_combination e2 + e4 - x * e1

/-- Generating function of the Legendre polynomials. -/
theorem gen {t : ℝ} (ht : |t| < 1) : HasSum (fun n : ℕ => legP x n * t ^ n) (D t x ^ (-1 / 2 : ℝ)) := by
  have hconst : ∀ s ∈ Ioo (-1 : ℝ) 1, (∑' n : ℕ, legP x n * s ^ n) * √(D s x) =
      (∑' n : ℕ, legP x n * (0 : ℝ) ^ n) * √(D 0 x) := by
    intro s hs
    have hd : ∀ s ∈ Ioo (-1 : ℝ) 1, HasDerivAt (fun s => (∑' n : ℕ, legP x n * s ^ n) * √(D s x)) 0 s := by
      intro s hs
      have hs' := abs_lt.2 hs
      have hp := D_pos hs' hx
      have h1 : HasDerivAt (fun s => D s x) (2 * s - 2 * x) s := by
        have a := ((hasDerivAt_pow 2 s).const_add 1).fun_sub (((hasDerivAt_id' s).const_mul 2).mul_const x)
        exact a.congr_deriv (by norm_num)
      have h2 := (hasDerivAt_gen hx hs').fun_mul (h1.sqrt hp.ne')
      refine h2.congr_deriv ?_
      have ho := gen_ode hx hs'
      have hq : 0 < √(D s x) := Real.sqrt_pos.2 hp
      have hqq : √(D s x) * √(D s x) = D s x := Real.mul_self_sqrt hp.le
      have : (∑' n : ℕ, (n + 1 : ℝ) * legP x (n + 1) * s ^ n) * √(D s x) +
          (∑' n : ℕ, legP x n * s ^ n) * ((2 * s - 2 * x) / (2 * √(D s x))) =
          (D s x * (∑' n : ℕ, (n + 1 : ℝ) * legP x (n + 1) * s ^ n) - (x - s) * ∑' n : ℕ, legP x n * s ^ n) / √(D s x) := by
        generalize (∑' n : ℕ, (n + 1 : ℝ) * legP x (n + 1) * s ^ n) = A
        generalize (∑' n : ℕ, legP x n * s ^ n) = Bb
        generalize √(D s x) = w at *
        rw [← hqq]
        field_simp
        ring
      rw [this, ho]; simp
    exact isOpen_Ioo.is_const_of_deriv_eq_zero isPreconnected_Ioo
      (fun s hs => (hd s hs).differentiableAt.differentiableWithinAt) (fun s hs => (hd s hs).deriv) hs (by norm_num)
  have h := hconst t (abs_lt.1 ht)
  have h0 : ∑' n : ℕ, legP x n * (0 : ℝ) ^ n = 1 := by
    rw [tsum_eq_single 0]
    · simp [legP]
    · intro n hn; simp [hn]
  have hD0 : D 0 x = 1 := by simp [D]
  rw [h0, hD0, Real.sqrt_one, one_mul] at h
  have hp := D_pos ht hx
  have hq : 0 < √(D t x) := Real.sqrt_pos.2 hp
  have : ∑' n : ℕ, legP x n * t ^ n = D t x ^ (-1 / 2 : ℝ) := by
    rw [show (-1 / 2 : ℝ) = -(1 / 2) by norm_num, rpow_neg hp.le, ← Real.sqrt_eq_rpow]
    exact eq_inv_of_mul_eq_one_left h
  rw [← this]
  exact (summable_P hx ht).hasSum

/-- `Σ (2n+1) tⁿ Pₙ(x) = (1-t²) (1+t²-2tx)^(-3/2)` -/
theorem gen_hg {t : ℝ} (ht : |t| < 1) :
    HasSum (fun n : ℕ => (2 * n + 1 : ℝ) * t ^ n * legP x n) ((1 - t ^ 2) * D t x ^ (-3 / 2 : ℝ)) := by
  have s0 := gen hx ht
  have s2 := (summable_nP hx ht).hasSum
  have e3 : ∑' n : ℕ, (n : ℝ) * (legP x n * t ^ n) = t * ∑' n : ℕ, (n + 1 : ℝ) * legP x (n + 1) * t ^ n := by
    rw [(summable_nP hx ht).tsum_eq_zero_add, ← tsum_mul_left]
    simp only [Nat.cast_zero, zero_mul, zero_add]
    refine tsum_congr fun n => ?_
    push_cast; ring
  have ho := gen_ode hx ht
  rw [s0.tsum_eq] at ho
  have hp := D_pos ht hx
  have h := (s2.mul_left 2).add s0
  rw [e3] at h
  have hF1 : ∑' n : ℕ, (n + 1 : ℝ) * legP x (n + 1) * t ^ n = (x - t) * D t x ^ (-3 / 2 : ℝ) := by
    rw [rpow_step ht hx] at ho
    have : D t x * ∑' n : ℕ, (n + 1 : ℝ) * legP x (n + 1) * t ^ n = D t x * ((x - t) * D t x ^ (-3 / 2 : ℝ)) := by
      rw [ho]; ring
    exact mul_left_cancel₀ hp.ne' this
  rw [hF1, rpow_step ht hx] at h
  have ef : (fun n : ℕ => (2 * n + 1 : ℝ) * t ^ n * legP x n) =
      fun b : ℕ => 2 * ((b : ℝ) * (legP x b * t ^ b)) + legP x b * t ^ b := by ext n; ring
  have ev : (1 - t ^ 2) * D t x ^ (-3 / 2 : ℝ) = 2 * (t * ((x - t) * D t x ^ (-3 / 2 : ℝ))) + D t x * D t x ^ (-3 / 2 : ℝ) := by
    generalize D t x ^ (-3 / 2 : ℝ) = w
    unfold D; ring
  rw [ef, ev]
  exact h

/-- Legendre series of `(1 + x²)` times the Henyey-Greenstein function. -/
theorem gen_ray {t : ℝ} (ht : |t| < 1) :
    HasSum (fun n : ℕ => ((if n < 2 then 0 else (n : ℝ) * (n - 1) / (2 * n - 1) * t ^ (n - 2))
        + ((n : ℝ) + 2) * (n + 1) / (2 * n + 3) * t ^ (n + 2) + ((n : ℝ) + 1) ^ 2 / (2 * n + 3) * t ^ n
        + (5 * (n : ℝ) ^ 2 - 1) / (2 * n - 1) * t ^ n) * legP x n)
      ((1 + x ^ 2) * ((1 - t ^ 2) * D t x ^ (-3 / 2 : ℝ))) := by
  have h := (gen_hg hx ht).mul_left (1 + x ^ 2)
  let u : ℕ → ℝ := fun n => ((n : ℝ) + 1) * (n + 2) / (2 * n + 3) * t ^ n * legP x (n + 2)
  let w : ℕ → ℝ := fun n => (n : ℝ) * (n - 1) / (2 * n - 1) * t ^ n * legP x (n - 2)
  have g1 := (summable_pow_mul_geometric_of_norm_lt_one 1 (r := |t|) (by simpa using ht))
  have g0 := (summable_geometric_of_lt_one (abs_nonneg t) ht)
  have hu : Summable u := by
    refine Summable.of_norm_bounded (g1.add (g0.mul_left 2)) fun n => ?_
    have hP := abs_legP_le_one hx (n + 2)
    have hc : ((n : ℝ) + 1) * (n + 2) / (2 * n + 3) ≤ n + 2 := by
      rw [div_le_iff₀ (by positivity)]
      nlinarith [(Nat.cast_nonneg n : (0 : ℝ) ≤ n)]
    simp only [u, norm_mul, norm_pow, Real.norm_eq_abs, pow_one]
    rw [abs_of_nonneg (by positivity : (0 : ℝ) ≤ ((n : ℝ) + 1) * (n + 2) / (2 * n + 3))]
    calc ((n : ℝ) + 1) * (n + 2) / (2 * n + 3) * |t| ^ n * |legP x (n + 2)| ≤ (n + 2) * |t| ^ n * 1 := by gcongr
      _ = n * |t| ^ n + 2 * |t| ^ n := by ring
  have hw : Summable w := by
    refine Summable.of_norm_bounded g1 fun n => ?_
    have hP := abs_legP_le_one hx (n - 2)
    have hc : |(n : ℝ) * (n - 1) / (2 * n - 1)| ≤ n := by
      cases n with
      | zero => simp
      | succ n =>
        push_cast
        have h0 := (Nat.cast_nonneg n : (0 : ℝ) ≤ n)
        rw [show ((n : ℝ) + 1) * (n + 1 - 1) / (2 * (n + 1) - 1) = (n + 1) * n / (2 * n + 1) by ring,
          abs_of_nonneg (by positivity), div_le_iff₀ (by positivity)]
        nlinarith
    simp only [w, norm_mul, norm_pow, Real.norm_eq_abs, pow_one] at hc ⊢
    calc |(n : ℝ) * (n - 1) / (2 * n - 1)| * |t| ^ n * |legP x (n - 2)| ≤ n * |t| ^ n * 1 := by gcongr
      _ = n * |t| ^ n := by ring
  -- shift of the two series
  have hu' : HasSum (fun n : ℕ => if n < 2 then 0 else u (n - 2)) (∑' n, u n) := by
    have := (hasSum_nat_add_iff (f := fun n : ℕ => if n < 2 then 0 else u (n - 2)) 2 (g := ∑' n, u n)).1
      (by simpa using hu.hasSum)
    simpa [Finset.sum_range_succ] using this
  have hw' : HasSum (fun n : ℕ => w (n + 2)) (∑' n, w n) := by
    have := (hasSum_nat_add_iff (f := w) 2 (g := ∑' n, w n)).2
    have e : ∑ i ∈ Finset.range 2, w i = 0 := by simp [Finset.sum_range_succ, w]
    rw [e, add_zero] at this
    exact this hw.hasSum
  have hrest := ((h.sub hu.hasSum).sub hw.hasSum)
  have := (hrest.add hu').add hw'
  have ev : (1 + x ^ 2) * ((1 - t ^ 2) * D t x ^ (-3 / 2 : ℝ)) =
      (1 + x ^ 2) * ((1 - t ^ 2) * D t x ^ (-3 / 2 : ℝ)) - ∑' n, u n - ∑' n, w n + ∑' n, u n + ∑' n, w n := by ring
  rw [ev]
  have ef : (fun n : ℕ => ((if n < 2 then 0 else (n : ℝ) * (n - 1) / (2 * n - 1) * t ^ (n - 2))
        + ((n : ℝ) + 2) * (n + 1) / (2 * n + 3) * t ^ (n + 2) + ((n : ℝ) + 1) ^ 2 / (2 * n + 3) * t ^ n
        + (5 * (n : ℝ) ^ 2 - 1) / (2 * n - 1) * t ^ n) * legP x n) =
      fun b : ℕ => ((1 + x ^ 2) * ((2 * b + 1) * t ^ b * legP x b) - u b - w b + if b < 2 then 0 else u (b - 2)) + w (b + 2) := by
    ext n
    have hxx := xxP x n
    have hne : (2 * (n : ℝ) - 1) ≠ 0 := by
      intro h0
      have : (2 * n : ℝ) = 1 := by linarith
      have : 2 * n = 1 := by exact_mod_cast this
      omega
    have h3 : (2 * (n : ℝ) + 3) ≠ 0 := by positivity
    have hlast : w (n + 2) = ((n : ℝ) + 2) * (n + 1) / (2 * n + 3) * t ^ (n + 2) * legP x n := by
      simp only [w, Nat.add_sub_cancel]
      push_cast
      rw [show (2 * ((n : ℝ) + 2) - 1) = 2 * n + 3 by ring]
      ring
    have hif : (if n < 2 then 0 else u (n - 2)) =
        (if n < 2 then 0 else (n : ℝ) * (n - 1) / (2 * n - 1) * t ^ (n - 2)) * legP x n := by
      split
      · simp
      · obtain ⟨m, rfl⟩ := Nat.exists_eq_add_of_le (by omega : 2 ≤ n)
        simp only [u, Nat.add_sub_cancel_left]
        push_cast
        rw [show (2 * (2 + (m : ℝ)) - 1) = 2 * m + 3 by ring, add_comm m 2]
        ring
    have hmid : (2 * (n : ℝ) + 1) + n ^ 2 / (2 * n - 1) = (5 * (n : ℝ) ^ 2 - 1) / (2 * n - 1) := by
      field_simp; ring
    rw [hif, hlast, ← hmid]
    simp only [u, w]
    linear_combination -(t ^ n) * hxx
  rw [ef]
  exact this
end

end RT1.Legendre
