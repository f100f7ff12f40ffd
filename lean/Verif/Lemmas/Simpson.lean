import Verif.Model.HemReflect
import Mathlib.MeasureTheory.Integral.IntervalIntegral.Basic
import Mathlib.MeasureTheory.Integral.Prod
import Mathlib.MeasureTheory.Integral.DominatedConvergence
import Mathlib.Topology.UniformSpace.HeineCantor
import Mathlib.Topology.MetricSpace.Pseudo.Defs

/-!
# Simpson's rule
-/

namespace RT1.HemReflect
open MeasureTheory Set

/-- Equally spaced positions. -/
noncomputable def grid (a h : ℝ) (i : ℕ) : ℝ := a + i * h

theorem linspace_grid (a b : ℝ) (N : ℕ) : linspace a b N = grid a ((b - a) / (N - 1)) := rfl

theorem panel_grid {h : ℝ} (hh : h ≠ 0) (a : ℝ) (y : ℕ → ℝ) (i : ℕ) :
    panel y (grid a h) i = h / 3 * (y i + 4 * y (i + 1) + y (i + 2)) := by
  have e0 : grid a h (i + 1) - grid a h i = h := by unfold grid; push_cast; ring
  have e1 : grid a h (i + 2) - grid a h (i + 1) = h := by unfold grid; push_cast; ring
  unfold panel
  simp only [e0, e1]
  field_simp
  ring

theorem simps_odd (y x : ℕ → ℝ) (m : ℕ) : simps y x (2 * m + 1) = ∑ k ∈ Finset.range m, panel y x (2 * k) := by
  unfold simps basicSimps
  rw [if_neg (by omega)]
  have : (2 * m + 1 - 2 - 0 + 1) / 2 = m := by omega
  rw [this]
  simp

theorem simps_even (y x : ℕ → ℝ) (m : ℕ) : simps y x (2 * m + 2) =
    ((∑ k ∈ Finset.range m, panel y x (2 * k)) + ∑ k ∈ Finset.range m, panel y x (1 + 2 * k)) / 2 +
      ((x (2 * m + 1) - x (2 * m)) * (y (2 * m + 1) + y (2 * m)) / 2 + (x 1 - x 0) * (y 1 + y 0) / 2) / 2 := by
  unfold simps basicSimps
  rw [if_pos (by omega)]
  have e1 : (2 * m + 2 - 3 - 0 + 1) / 2 = m := by omega
  have e2 : (2 * m + 2 - 2 - 1 + 1) / 2 = m := by omega
  rw [e1, e2]
  simp

/-! ### linearity, monotonicity, constants -/

theorem panel_add (y y' x : ℕ → ℝ) (i : ℕ) : panel (fun k => y k + y' k) x i = panel y x i + panel y' x i := by
  unfold panel; ring

theorem panel_smul (c : ℝ) (y x : ℕ → ℝ) (i : ℕ) : panel (fun k => c * y k) x i = c * panel y x i := by
  unfold panel; ring

theorem simps_add (y y' x : ℕ → ℝ) (N : ℕ) : simps (fun k => y k + y' k) x N = simps y x N + simps y' x N := by
  unfold simps basicSimps
  simp only [panel_add, Finset.sum_add_distrib]
  split <;> ring

theorem simps_smul (c : ℝ) (y x : ℕ → ℝ) (N : ℕ) : simps (fun k => c * y k) x N = c * simps y x N := by
  unfold simps basicSimps
  simp only [panel_smul, ← Finset.mul_sum]
  split <;> ring

/-- The number of samples is odd or even. -/
theorem parity {N : ℕ} (hN : 2 ≤ N) : (∃ m, 1 ≤ m ∧ N = 2 * m + 1) ∨ ∃ m, N = 2 * m + 2 := by
  rcases Nat.even_or_odd' N with ⟨m, h | h⟩
  · exact Or.inr ⟨m - 1, by omega⟩
  · exact Or.inl ⟨m, by omega, h⟩

theorem simps_mono {a h : ℝ} (hh : 0 < h) {y y' : ℕ → ℝ} {N : ℕ} (hN : 2 ≤ N) (hy : ∀ i < N, y i ≤ y' i) :
    simps y (grid a h) N ≤ simps y' (grid a h) N := by
  have hp : ∀ i, i + 2 < N → panel y (grid a h) i ≤ panel y' (grid a h) i := by
    intro i hi
    rw [panel_grid hh.ne', panel_grid hh.ne']
    have h0 := hy i (by omega)
    have h1 := hy (i + 1) (by omega)
    have h2 := hy (i + 2) (by omega)
    apply mul_le_mul_of_nonneg_left _ (by positivity)
    linarith
  rcases parity hN with ⟨m, -, rfl⟩ | ⟨m, rfl⟩
  · rw [simps_odd, simps_odd]
    exact Finset.sum_le_sum fun k hk => hp _ (by have := Finset.mem_range.1 hk; omega)
  · rw [simps_even, simps_even]
    have s1 := Finset.sum_le_sum (s := Finset.range m) fun k hk => hp (2 * k) (by have := Finset.mem_range.1 hk; omega)
    have s2 := Finset.sum_le_sum (s := Finset.range m) fun k hk => hp (1 + 2 * k) (by have := Finset.mem_range.1 hk; omega)
    have e1 : grid a h (2 * m + 1) - grid a h (2 * m) = h := by unfold grid; push_cast; ring
    have e2 : grid a h 1 - grid a h 0 = h := by unfold grid; push_cast; ring
    rw [e1, e2]
    have t1 := mul_le_mul_of_nonneg_left (add_le_add (hy (2 * m + 1) (by omega)) (hy (2 * m) (by omega))) hh.le
    have t2 := mul_le_mul_of_nonneg_left (add_le_add (hy 1 (by omega)) (hy 0 (by omega))) hh.le
    linarith

theorem simps_const {a h : ℝ} (hh : h ≠ 0) (c : ℝ) {N : ℕ} (hN : 2 ≤ N) :
    simps (fun _ => c) (grid a h) N = c * ((N - 1) * h) := by
  have hp : ∀ i, panel (fun _ => c) (grid a h) i = 2 * h * c := by
    intro i
    rw [panel_grid hh]
    ring
  rcases parity hN with ⟨m, -, rfl⟩ | ⟨m, rfl⟩
  · rw [simps_odd]
    simp only [hp, Finset.sum_const, Finset.card_range, nsmul_eq_mul]
    push_cast
    ring
  · rw [simps_even]
    simp only [hp, Finset.sum_const, Finset.card_range, nsmul_eq_mul]
    unfold grid
    push_cast
    ring

theorem simps_close {a h : ℝ} (hh : 0 < h) {y y' : ℕ → ℝ} {N : ℕ} (hN : 2 ≤ N) {δ : ℝ} (hy : ∀ i < N, |y i - y' i| ≤ δ) :
    |simps y (grid a h) N - simps y' (grid a h) N| ≤ δ * ((N - 1) * h) := by
  have hc := simps_const (a := a) hh.ne' δ hN
  have h1 := simps_mono (a := a) hh hN (y := y) (y' := fun i => y' i + δ) fun i hi => by
    have := (abs_le.1 (hy i hi)).2; linarith
  have h2 := simps_mono (a := a) hh hN (y := y') (y' := fun i => y i + δ) fun i hi => by
    have := (abs_le.1 (hy i hi)).1; linarith
  rw [simps_add, hc] at h1 h2
  rw [abs_le]
  constructor <;> linarith

/-! ### estimate -/

/-- `f` changes by at most `ε` along distances up to `r`. -/
def Osc (f : ℝ → ℝ) (a b r ε : ℝ) : Prop := ∀ s ∈ Icc a b, ∀ t ∈ Icc a b, |s - t| ≤ r → |f s - f t| ≤ ε

theorem grid_mono {a h : ℝ} (hh : 0 < h) {i j : ℕ} (hij : i ≤ j) : grid a h i ≤ grid a h j := by
  unfold grid
  have : (i : ℝ) ≤ j := by exact_mod_cast hij
  nlinarith

theorem const_est {f : ℝ → ℝ} {u v c ε : ℝ} (huv : u ≤ v) (hf : ContinuousOn f (Icc u v))
    (hε : ∀ t ∈ Icc u v, |c - f t| ≤ ε) : |c * (v - u) - ∫ t in u..v, f t| ≤ ε * (v - u) := by
  have hi : IntervalIntegrable f volume u v := by
    apply ContinuousOn.intervalIntegrable
    rwa [uIcc_of_le huv]
  have e : c * (v - u) - ∫ t in u..v, f t = ∫ t in u..v, (c - f t) := by
    rw [intervalIntegral.integral_sub (by simp) hi]
    simp [mul_comm]
  rw [e, ← Real.norm_eq_abs]
  have := intervalIntegral.norm_integral_le_of_norm_le_const (a := u) (b := v) (f := fun t => c - f t) (C := ε) fun t ht => by
    rw [uIoc_of_le huv] at ht
    exact hε t ⟨ht.1.le, ht.2⟩
  rwa [abs_of_nonneg (sub_nonneg.2 huv)] at this

theorem panel_est {f : ℝ → ℝ} {a b h ε : ℝ} (hh : 0 < h) (hf : ContinuousOn f (Icc a b)) (ho : Osc f a b (2 * h) ε) {i : ℕ}
    (hb : grid a h (i + 2) ≤ b) :
    |panel (fun k => f (grid a h k)) (grid a h) i - ∫ t in grid a h i..grid a h (i + 2), f t| ≤ ε * (2 * h) := by
  have ha : ∀ j, a ≤ grid a h j := fun j => by
    unfold grid
    have : (0 : ℝ) ≤ j * h := by positivity
    linarith
  have e1 : grid a h (i + 1) = grid a h i + h := by unfold grid; push_cast; ring
  have e2 : grid a h (i + 2) = grid a h i + 2 * h := by unfold grid; push_cast; ring
  have := const_est (f := f) (u := grid a h i) (v := grid a h (i + 2))
    (c := (f (grid a h i) + 4 * f (grid a h (i + 1)) + f (grid a h (i + 2))) / 6) (ε := ε) (by linarith)
    (hf.mono fun t ht => ⟨(ha i).trans ht.1, ht.2.trans hb⟩) (fun t ht => by
      have htm : t ∈ Icc a b := ⟨(ha i).trans ht.1, ht.2.trans hb⟩
      have b0 := ho (grid a h i) ⟨ha _, by linarith⟩ t htm (by rw [abs_le]; constructor <;> linarith [ht.1, ht.2])
      have b1 := ho (grid a h (i + 1)) ⟨ha _, by linarith⟩ t htm (by rw [abs_le]; constructor <;> linarith [ht.1, ht.2])
      have b2 := ho (grid a h (i + 2)) ⟨ha _, hb⟩ t htm (by rw [abs_le]; constructor <;> linarith [ht.1, ht.2])
      rw [abs_le] at b0 b1 b2 ⊢
      constructor <;> linarith)
  have e3 : grid a h (i + 2) - grid a h i = 2 * h := by linarith
  rw [e3] at this
  rw [panel_grid hh.ne']
  convert this using 3
  ring

theorem trap_est {f : ℝ → ℝ} {a b h ε : ℝ} (hh : 0 < h) (hf : ContinuousOn f (Icc a b)) (ho : Osc f a b (2 * h) ε) {i : ℕ}
    (hb : grid a h (i + 1) ≤ b) :
    |(grid a h (i + 1) - grid a h i) * (f (grid a h (i + 1)) + f (grid a h i)) / 2 -
      ∫ t in grid a h i..grid a h (i + 1), f t| ≤ ε * h := by
  have ha : ∀ j, a ≤ grid a h j := fun j => by
    unfold grid
    have : (0 : ℝ) ≤ j * h := by positivity
    linarith
  have e1 : grid a h (i + 1) = grid a h i + h := by unfold grid; push_cast; ring
  have := const_est (f := f) (u := grid a h i) (v := grid a h (i + 1))
    (c := (f (grid a h i) + f (grid a h (i + 1))) / 2) (ε := ε) (by linarith)
    (hf.mono fun t ht => ⟨(ha i).trans ht.1, ht.2.trans hb⟩) (fun t ht => by
      have htm : t ∈ Icc a b := ⟨(ha i).trans ht.1, ht.2.trans hb⟩
      have b0 := ho (grid a h i) ⟨ha _, by linarith⟩ t htm (by rw [abs_le]; constructor <;> linarith [ht.1, ht.2])
      have b1 := ho (grid a h (i + 1)) ⟨ha _, by linarith⟩ t htm (by rw [abs_le]; constructor <;> linarith [ht.1, ht.2])
      rw [abs_le] at b0 b1 ⊢
      constructor <;> linarith)
  have e3 : grid a h (i + 1) - grid a h i = h := by linarith
  rw [e3] at this ⊢
  convert this using 3
  ring

theorem sum_est {f : ℝ → ℝ} {a b h ε : ℝ} (hh : 0 < h) (hf : ContinuousOn f (Icc a b)) (ho : Osc f a b (2 * h) ε) (s : ℕ) :
    ∀ m : ℕ, grid a h (s + 2 * m) ≤ b →
      |(∑ k ∈ Finset.range m, panel (fun k => f (grid a h k)) (grid a h) (s + 2 * k)) - ∫ t in grid a h s..grid a h (s + 2 * m), f t| ≤
        ε * (2 * m * h)
  | 0, _ => by simp
  | m + 1, hb => by
    have hle : grid a h (s + 2 * m) ≤ grid a h (s + 2 * (m + 1)) := grid_mono hh (by omega)
    have ih := sum_est hh hf ho s m (hle.trans hb)
    have hp := panel_est hh hf ho (i := s + 2 * m) hb
    have ha : a ≤ grid a h s := by
      unfold grid
      have : (0 : ℝ) ≤ s * h := by positivity
      linarith
    have hii : ∀ {u v : ℝ}, a ≤ u → u ≤ v → v ≤ b → IntervalIntegrable f volume u v := fun h1 h2 h3 => by
      apply ContinuousOn.intervalIntegrable
      rw [uIcc_of_le h2]
      exact hf.mono (Icc_subset_Icc h1 h3)
    have hg : grid a h s ≤ grid a h (s + 2 * m) := grid_mono hh (by omega)
    have hadd := intervalIntegral.integral_add_adjacent_intervals (hii ha hg (hle.trans hb)) (hii (ha.trans hg) hle hb)
    rw [Finset.sum_range_succ, ← hadd]
    rw [abs_le] at ih hp ⊢
    have e : s + 2 * m + 2 = s + 2 * (m + 1) := by ring
    rw [e] at hp
    push_cast
    constructor <;> linarith [ih.1, ih.2, hp.1, hp.2]

/-- The error of the rule for a function that changes by at most `ε` between neighbouring panels. -/
theorem simps_est {f : ℝ → ℝ} {a h ε : ℝ} (hh : 0 < h) {N : ℕ} (hN : 2 ≤ N) (hf : ContinuousOn f (Icc a (a + (N - 1) * h)))
    (ho : Osc f a (a + (N - 1) * h) (2 * h) ε) :
    |simps (fun k => f (grid a h k)) (grid a h) N - ∫ t in a..a + (N - 1) * h, f t| ≤ ε * ((N - 1) * h) := by
  have g0 : grid a h 0 = a := by unfold grid; simp
  have gN : grid a h (N - 1) = a + (N - 1) * h := by
    unfold grid
    rw [Nat.cast_sub (by omega)]
    simp
  rw [← gN] at hf ho ⊢
  have eN : ((N : ℝ) - 1) * h = grid a h (N - 1) - a := by rw [gN]; ring
  rw [eN]
  have hii : ∀ {i j : ℕ}, i ≤ j → j ≤ N - 1 → IntervalIntegrable f volume (grid a h i) (grid a h j) := fun h1 h2 => by
    apply ContinuousOn.intervalIntegrable
    rw [uIcc_of_le (grid_mono hh h1)]
    exact hf.mono (Icc_subset_Icc (g0.symm.le.trans (grid_mono hh (by omega))) (grid_mono hh h2))
  rcases parity hN with ⟨m, -, rfl⟩ | ⟨m, rfl⟩
  · rw [simps_odd]
    have e := sum_est hh hf ho 0 m (grid_mono hh (by omega))
    simp only [Nat.zero_add, g0] at e
    have : 2 * m + 1 - 1 = 2 * m := by omega
    rw [this]
    refine e.trans (le_of_eq ?_)
    unfold grid
    push_cast
    ring
  · rw [simps_even]
    have e1 := sum_est hh hf ho 0 m (grid_mono hh (by omega))
    have e2 := sum_est hh hf ho 1 m (grid_mono hh (by omega))
    have t1 := trap_est hh hf ho (i := 2 * m) (grid_mono hh (by omega))
    have t2 := trap_est hh hf ho (i := 0) (grid_mono hh (by omega))
    have : 2 * m + 2 - 1 = 2 * m + 1 := by omega
    rw [this] at hii ⊢
    have a1 := intervalIntegral.integral_add_adjacent_intervals (hii (i := 0) (j := 2 * m) (by omega) (by omega))
      (hii (i := 2 * m) (j := 2 * m + 1) (by omega) (by omega))
    have a2 := intervalIntegral.integral_add_adjacent_intervals (hii (i := 0) (j := 1) (by omega) (by omega))
      (hii (i := 1) (j := 2 * m + 1) (by omega) (by omega))
    rw [show (1 + 2 * m) = 2 * m + 1 by omega] at e2
    simp only [Nat.zero_add, g0] at e1 e2 t1 t2 a1 a2 ⊢
    have eg : grid a h (2 * m + 1) - a = (2 * m + 1) * h := by unfold grid; push_cast; ring
    rw [eg]
    rw [abs_le] at e1 e2 t1 t2 ⊢
    constructor <;> linarith [e1.1, e1.2, e2.1, e2.2, t1.1, t1.2, t2.1, t2.2]

/-! ### two dimensions -/

/-- The rule applied to both coordinates. -/
noncomputable def simps2 (F : ℝ → ℝ → ℝ) (a b c d : ℝ) (N : ℕ) : ℝ :=
  simps (fun i => simps (fun k => F (linspace a b N i) (linspace c d N k)) (linspace c d N) N) (linspace a b N) N

theorem linspace_mem {a b : ℝ} (hab : a ≤ b) {N i : ℕ} (hN : 2 ≤ N) (hi : i < N) : linspace a b N i ∈ Icc a b := by
  have hN' : (0 : ℝ) < N - 1 := by
    have : (2 : ℝ) ≤ N := by exact_mod_cast hN
    linarith
  have h1 : (i : ℝ) ≤ N - 1 := by
    have : ((i + 1 : ℕ) : ℝ) ≤ N := by exact_mod_cast hi
    push_cast at this
    linarith
  have hb : (i : ℝ) * ((b - a) / (N - 1)) = (i / (N - 1)) * (b - a) := by ring
  have h2 : (i : ℝ) / (N - 1) ≤ 1 := (div_le_one hN').2 h1
  have h3 : (0 : ℝ) ≤ i / (N - 1) := by positivity
  unfold linspace
  rw [hb]
  constructor <;> nlinarith

theorem simps_congr {y y' x : ℕ → ℝ} {N : ℕ} (hN : 2 ≤ N) (h : ∀ i < N, y i = y' i) : simps y x N = simps y' x N := by
  have hp : ∀ i, i + 2 < N → panel y x i = panel y' x i := fun i hi => by
    unfold panel
    rw [h i (by omega), h (i + 1) (by omega), h (i + 2) (by omega)]
  rcases parity hN with ⟨m, -, rfl⟩ | ⟨m, rfl⟩
  · rw [simps_odd, simps_odd]
    exact Finset.sum_congr rfl fun k hk => hp _ (by have := Finset.mem_range.1 hk; omega)
  · rw [simps_even, simps_even, h 0 (by omega), h 1 (by omega), h (2 * m) (by omega), h (2 * m + 1) (by omega)]
    rw [Finset.sum_congr rfl fun k hk => hp (2 * k) (by have := Finset.mem_range.1 hk; omega),
      Finset.sum_congr rfl fun k hk => hp (1 + 2 * k) (by have := Finset.mem_range.1 hk; omega)]

theorem simps2_congr {F G : ℝ → ℝ → ℝ} {a b c d : ℝ} (hab : a ≤ b) (hcd : c ≤ d) {N : ℕ} (hN : 2 ≤ N)
    (h : ∀ s ∈ Icc a b, ∀ t ∈ Icc c d, F s t = G s t) : simps2 F a b c d N = simps2 G a b c d N :=
  simps_congr hN fun _ hi => simps_congr hN fun _ hk => h _ (linspace_mem hab hN hi) _ (linspace_mem hcd hN hk)

theorem simps2_est {F : ℝ → ℝ → ℝ} (hF : Continuous (Function.uncurry F)) {a b c d ε : ℝ} (hab : a < b) (hcd : c < d) {N : ℕ}
    (hN : 2 ≤ N) (ho : ∀ s ∈ Icc a b, ∀ s' ∈ Icc a b, ∀ t ∈ Icc c d, ∀ t' ∈ Icc c d, |s - s'| ≤ 2 * ((b - a) / (N - 1)) →
      |t - t'| ≤ 2 * ((d - c) / (N - 1)) → |F s t - F s' t'| ≤ ε) :
    |simps2 F a b c d N - ∫ s in a..b, ∫ t in c..d, F s t| ≤ 2 * (ε * (d - c) * (b - a)) := by
  have hN' : (0 : ℝ) < N - 1 := by
    have : (2 : ℝ) ≤ N := by exact_mod_cast hN
    linarith
  have hx : 0 < (b - a) / (N - 1) := div_pos (by linarith) hN'
  have hy : 0 < (d - c) / (N - 1) := div_pos (by linarith) hN'
  have ex : ((N : ℝ) - 1) * ((b - a) / (N - 1)) = b - a := by field_simp
  have ey : ((N : ℝ) - 1) * ((d - c) / (N - 1)) = d - c := by field_simp
  have eb : a + ((N : ℝ) - 1) * ((b - a) / (N - 1)) = b := by rw [ex]; ring
  have ed : c + ((N : ℝ) - 1) * ((d - c) / (N - 1)) = d := by rw [ey]; ring
  set G : ℝ → ℝ := fun s => ∫ t in c..d, F s t with hG
  have hGc : Continuous G := intervalIntegral.continuous_parametric_intervalIntegral_of_continuous' hF c d
  have hin : ∀ i < N, |simps (fun k => F (linspace a b N i) (linspace c d N k)) (linspace c d N) N - G (linspace a b N i)| ≤
      ε * (d - c) := by
    intro i hi
    have hm := linspace_mem hab.le hN hi
    have := simps_est (f := F (linspace a b N i)) (a := c) hy hN
      ((hF.comp (Continuous.prodMk_right (linspace a b N i))).continuousOn) (ε := ε) (by
        rw [ed]
        intro t ht t' ht' hd
        exact ho _ hm _ hm t ht t' ht' (by rw [sub_self, abs_zero]; linarith) hd)
    rw [ed, ey] at this
    exact this
  have hout := simps_close (a := a) hx hN (y := fun i => simps (fun k => F (linspace a b N i) (linspace c d N k)) (linspace c d N) N)
    (y' := fun i => G (linspace a b N i)) hin
  rw [ex] at hout
  have hGo : |simps (fun k => G (grid a ((b - a) / (N - 1)) k)) (grid a ((b - a) / (N - 1))) N -
      ∫ t in a..a + (N - 1) * ((b - a) / (N - 1)), G t| ≤ ε * (d - c) * ((N - 1) * ((b - a) / (N - 1))) := by
    apply simps_est hx hN hGc.continuousOn
    rw [eb]
    intro s hs s' hs' hd
    have hi : ∀ s, IntervalIntegrable (F s) volume c d := fun s =>
      (hF.comp (Continuous.prodMk_right s)).intervalIntegrable c d
    have : G s - G s' = ∫ t in c..d, (F s t - F s' t) := (intervalIntegral.integral_sub (hi s) (hi s')).symm
    rw [this, ← Real.norm_eq_abs]
    have h1 := intervalIntegral.norm_integral_le_of_norm_le_const (a := c) (b := d) (f := fun t => F s t - F s' t) (C := ε)
      fun t ht => by
        rw [uIoc_of_le hcd.le] at ht
        exact ho s hs s' hs' t ⟨ht.1.le, ht.2⟩ t ⟨ht.1.le, ht.2⟩ hd (by rw [sub_self, abs_zero]; linarith)
    rwa [abs_of_nonneg (by linarith)] at h1
  rw [eb, ex] at hGo
  unfold simps2
  rw [linspace_grid a b] at hout ⊢
  rw [abs_le] at hout hGo ⊢
  constructor <;> linarith [hout.1, hout.2, hGo.1, hGo.2]

theorem simps2_tendsto_of_continuous {F : ℝ → ℝ → ℝ} (hF : Continuous (Function.uncurry F)) {a b c d : ℝ} (hab : a < b) (hcd : c < d) :
    Filter.Tendsto (simps2 F a b c d) Filter.atTop (nhds (∫ s in a..b, ∫ t in c..d, F s t)) := by
  rw [Metric.tendsto_atTop]
  intro ε hε
  have hK : IsCompact (Icc a b ×ˢ Icc c d) := isCompact_Icc.prod isCompact_Icc
  have hu := Metric.uniformContinuousOn_iff.1 (hK.uniformContinuousOn_of_continuous hF.continuousOn)
  have hA : 0 < (d - c) * (b - a) := mul_pos (by linarith) (by linarith)
  set η : ℝ := ε / (4 * ((d - c) * (b - a))) with hη
  obtain ⟨δ, hδ, hδ'⟩ := hu η (by positivity)
  obtain ⟨n, hn⟩ := exists_nat_gt (2 * ((b - a) + (d - c)) / δ)
  refine ⟨n + 2, fun N hN => ?_⟩
  have hN2 : 2 ≤ N := by omega
  have hN1 : (n : ℝ) + 1 ≤ N - 1 := by
    have : ((n + 2 : ℕ) : ℝ) ≤ N := by exact_mod_cast hN
    push_cast at this
    linarith
  have hn0 : (0 : ℝ) ≤ n := by positivity
  have hN' : (0 : ℝ) < N - 1 := by linarith
  have hlt : 2 * ((b - a) + (d - c)) < δ * (N - 1) := by
    rw [div_lt_iff₀ hδ] at hn
    nlinarith
  have h1 : 2 * ((b - a) / (N - 1)) < δ := by
    rw [← mul_div_assoc, div_lt_iff₀ hN']
    linarith
  have h2 : 2 * ((d - c) / (N - 1)) < δ := by
    rw [← mul_div_assoc, div_lt_iff₀ hN']
    linarith
  have := simps2_est hF hab hcd hN2 (ε := η) (fun s hs s' hs' t ht t' ht' hd hd' => by
    have := hδ' (s, t) ⟨hs, ht⟩ (s', t') ⟨hs', ht'⟩ (by
      rw [Prod.dist_eq, max_lt_iff, Real.dist_eq, Real.dist_eq]
      exact ⟨lt_of_le_of_lt hd h1, lt_of_le_of_lt hd' h2⟩)
    rw [Real.dist_eq] at this
    exact this.le)
  rw [Real.dist_eq]
  refine lt_of_le_of_lt this ?_
  have : 2 * (η * (d - c) * (b - a)) = ε / 2 := by
    rw [hη]
    have h1 : d - c ≠ 0 := by linarith
    have h2 : b - a ≠ 0 := by linarith
    field_simp
    norm_num
  rw [this]
  linarith

/-- The double rule converges to the double integral of functions that are continuous on the rectangle. -/
theorem simps2_tendsto {F : ℝ → ℝ → ℝ} {a b c d : ℝ} (hab : a < b) (hcd : c < d)
    (hF : ContinuousOn (Function.uncurry F) (Icc a b ×ˢ Icc c d)) :
    Filter.Tendsto (simps2 F a b c d) Filter.atTop (nhds (∫ s in a..b, ∫ t in c..d, F s t)) := by
  set G : ℝ → ℝ → ℝ := fun s t => F (max a (min b s)) (max c (min d t)) with hG
  have hmem : ∀ {u v : ℝ}, u ≤ v → ∀ s, max u (min v s) ∈ Icc u v := fun huv s => ⟨le_max_left _ _, max_le huv (min_le_left _ _)⟩
  have hid : ∀ {u v s : ℝ}, s ∈ Icc u v → max u (min v s) = s := fun hs => by rw [min_eq_right hs.2, max_eq_right hs.1]
  have hGc : Continuous (Function.uncurry G) := by
    have : Function.uncurry G = Function.uncurry F ∘ fun p : ℝ × ℝ => (max a (min b p.1), max c (min d p.2)) := rfl
    rw [this]
    exact hF.comp_continuous (by fun_prop) fun p => ⟨hmem hab.le _, hmem hcd.le _⟩
  have hFG : ∀ s ∈ Icc a b, ∀ t ∈ Icc c d, G s t = F s t := fun s hs t ht => by rw [hG]; simp only [hid hs, hid ht]
  have h := simps2_tendsto_of_continuous hGc hab hcd
  have e : ∫ s in a..b, ∫ t in c..d, G s t = ∫ s in a..b, ∫ t in c..d, F s t := by
    apply intervalIntegral.integral_congr
    intro s hs
    rw [uIcc_of_le hab.le] at hs
    apply intervalIntegral.integral_congr
    intro t ht
    rw [uIcc_of_le hcd.le] at ht
    exact hFG s hs t ht
  rw [e] at h
  refine h.congr' ?_
  filter_upwards [Filter.eventually_ge_atTop 2] with N hN
  exact simps2_congr hab.le hcd.le hN hFG

/-- The order of integration can be exchanged. -/
theorem integral_swap {F : ℝ → ℝ → ℝ} {a b c d : ℝ} (hab : a ≤ b) (hcd : c ≤ d)
    (hF : ContinuousOn (Function.uncurry F) (Icc a b ×ˢ Icc c d)) :
    ∫ s in a..b, ∫ t in c..d, F s t = ∫ t in c..d, ∫ s in a..b, F s t := by
  simp only [intervalIntegral.integral_of_le hab, intervalIntegral.integral_of_le hcd]
  apply integral_integral_swap
  rw [Measure.prod_restrict]
  exact (hF.integrableOn_compact (isCompact_Icc.prod isCompact_Icc)).mono_set (prod_mono Ioc_subset_Icc_self Ioc_subset_Icc_self)

end RT1.HemReflect
