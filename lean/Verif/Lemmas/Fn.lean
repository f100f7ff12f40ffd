import Verif.Model.Fn
import Verif.Lemmas.General
import Mathlib.Analysis.SpecialFunctions.Integrals.Basic
import Mathlib.Data.Nat.Choose.Central
import Mathlib.Tactic.Ring
import Mathlib.Tactic.FieldSimp
import Mathlib.Tactic.Linarith

/-! # Lemmas for the fn-coefficient generation -/

namespace RT1.Fn

open Real RT1.Rad intervalIntegral

theorem list_range_sum (f : ℕ → ℝ) (n : ℕ) : ((List.range n).map f).sum = ∑ i ∈ Finset.range n, f i := by
  induction n with
  | zero => simp
  | succ n ih => rw [List.range_succ, Finset.sum_range_succ, List.map_append, List.sum_append, ih]; simp

/-! ## Evaluation of expressions -/

theorem eval_nil (θ φ : ℝ) : eval [] θ φ = 0 := rfl

theorem eval_cons (m : Mono) (e : Expr) (θ φ : ℝ) : eval (m :: e) θ φ = m.eval θ φ + eval e θ φ := by
  simp [eval]

theorem eval_append (a b : Expr) (θ φ : ℝ) : eval (a ++ b) θ φ = eval a θ φ + eval b θ φ := by
  simp [eval]

theorem eval_smul (r : ℝ) (a : Expr) (θ φ : ℝ) : eval (smul r a) θ φ = r * eval a θ φ := by
  induction a with
  | nil => simp [eval, smul]
  | cons m a ih =>
    have : smul r (m :: a) = { m with c := r * m.c } :: smul r a := rfl
    rw [this, eval_cons, eval_cons, ih, Mono.eval, Mono.eval]
    ring

theorem Mono.eval_mul (m n : Mono) (θ φ : ℝ) : (m.mul n).eval θ φ = m.eval θ φ * n.eval θ φ := by
  simp only [Mono.eval, Mono.mul]; ring

theorem eval_map_mul (m : Mono) (b : Expr) (θ φ : ℝ) :
    eval (b.map fun n => m.mul n) θ φ = m.eval θ φ * eval b θ φ := by
  induction b with
  | nil => simp [eval]
  | cons n b ih => rw [List.map_cons, eval_cons, eval_cons, ih, Mono.eval_mul]; ring

theorem eval_mul (a b : Expr) (θ φ : ℝ) : eval (mul a b) θ φ = eval a θ φ * eval b θ φ := by
  induction a with
  | nil => simp [eval, mul]
  | cons m a ih =>
    have : mul (m :: a) b = (b.map fun n => m.mul n) ++ mul a b := rfl
    rw [this, eval_append, ih, eval_map_mul, eval_cons]; ring

theorem eval_scatExpr (a : ℝ × ℝ × ℝ) (t p θ φ : ℝ) : eval (scatExpr a t p) θ φ = scatAngle a t θ p φ := by
  simp [eval, scatExpr, Mono.eval, scatAngle]; ring

/-- Legendre polynomials (Bonnet's recursion). -/
noncomputable def legP (x : ℝ) : ℕ → ℝ
  | 0 => 1
  | 1 => x
  | n + 2 => ((2 * n + 3) * x * legP x (n + 1) - (n + 1) * legP x n) / (n + 2)

theorem eval_legExpr (x : Expr) (θ φ : ℝ) (n : ℕ) : eval (legExpr x n) θ φ = legP (eval x θ φ) n := by
  induction n using Nat.strong_induction_on with
  | _ n ih =>
    match n with
    | 0 => simp [legExpr, legP, eval, Mono.eval]
    | 1 => rfl
    | n + 2 =>
      rw [legExpr, legP, eval_append, eval_smul, eval_smul, eval_mul, ih (n + 1) (by omega), ih n (by omega)]
      ring

theorem eval_flatMap {α : Type} (l : List α) (f : α → Expr) (θ φ : ℝ) :
    eval (l.flatMap f) θ φ = (l.map fun x => eval (f x) θ φ).sum := by
  induction l with
  | nil => rfl
  | cons x l ih => rw [List.flatMap_cons, eval_append, ih]; simp

theorem eval_legexpansion (lc : ℕ → ℝ) (N : ℕ) (x : Expr) (θ φ : ℝ) :
    eval (legexpansion lc N x) θ φ = ∑ n ∈ Finset.range N, lc n * legP (eval x θ φ) n := by
  rw [legexpansion, eval_flatMap, ← list_range_sum]
  simp only [eval_smul, eval_legExpr]

/-! ## Degree bounds -/

/-- Monomials of degree at most `k` in which the power of `sin(theta_s)` equals the degree in `phi_s`. -/
def Good (k : ℕ) (m : Mono) : Prop := m.ct + m.st ≤ k ∧ m.st = m.cp + m.sp

theorem good_mono {k l : ℕ} (h : k ≤ l) {m : Mono} (hm : Good k m) : Good l m := ⟨hm.1.trans h, hm.2⟩

theorem good_mul {k l : ℕ} {a b : Expr} (ha : ∀ m ∈ a, Good k m) (hb : ∀ m ∈ b, Good l m) :
    ∀ m ∈ mul a b, Good (k + l) m := by
  intro m hm
  simp only [mul, List.mem_flatMap, List.mem_map] at hm
  obtain ⟨x, hx, y, hy, rfl⟩ := hm
  obtain ⟨h1, h2⟩ := ha x hx
  obtain ⟨h3, h4⟩ := hb y hy
  simp only [Good, Mono.mul]
  omega

theorem good_smul {k : ℕ} {a : Expr} (r : ℝ) (ha : ∀ m ∈ a, Good k m) : ∀ m ∈ smul r a, Good k m := by
  intro m hm
  simp only [smul, List.mem_map] at hm
  obtain ⟨x, hx, rfl⟩ := hm
  exact ha x hx

theorem good_scatExpr (a : ℝ × ℝ × ℝ) (t p : ℝ) : ∀ m ∈ scatExpr a t p, Good 1 m := by
  intro m hm
  simp only [scatExpr, List.mem_cons, List.not_mem_nil, or_false] at hm
  rcases hm with rfl | rfl | rfl <;> simp [Good]

theorem good_legExpr {x : Expr} (hx : ∀ m ∈ x, Good 1 m) (n : ℕ) : ∀ m ∈ legExpr x n, Good n m := by
  induction n using Nat.strong_induction_on with
  | _ n ih =>
    match n with
    | 0 => intro m hm; simp only [legExpr, List.mem_singleton] at hm; subst hm; simp [Good]
    | 1 => exact hx
    | n + 2 =>
      intro m hm
      rw [legExpr, List.mem_append] at hm
      rcases hm with hm | hm
      · exact good_mono (by omega) (good_smul _ (good_mul hx (ih (n + 1) (by omega))) m hm)
      · exact good_mono (by omega) (good_smul _ (ih n (by omega)) m hm)

theorem good_legexpansion {x : Expr} (hx : ∀ m ∈ x, Good 1 m) (lc : ℕ → ℝ) (N : ℕ) :
    ∀ m ∈ legexpansion lc N x, Good (N - 1) m := by
  intro m hm
  simp only [legexpansion, List.mem_flatMap, List.mem_range] at hm
  obtain ⟨n, hn, hm⟩ := hm
  exact good_mono (by omega) (good_smul _ (good_legExpr hx n) m hm)

/-! ## The cosine integral -/

theorem cosintegral_eq (i : ℕ) : cosintegral i = (2 * π)⁻¹ * ∫ x in (0 : ℝ)..2 * π, cos x ^ i := by
  have hpi : (2 * π) ≠ 0 := by positivity
  induction i using Nat.twoStepInduction with
  | zero => simp [cosintegral]; field_simp
  | one => simp [cosintegral]
  | more n ih _ =>
    rw [integral_cos_pow]
    simp only [sin_two_pi, mul_zero, sin_zero, sub_self, zero_div, zero_add]
    rw [mul_left_comm, ← ih]
    unfold cosintegral
    rcases Nat.even_or_odd' n with ⟨k, rfl | rfl⟩
    · have h1 : (2 * k + 2) % 2 = 0 := by omega
      have h2 : 2 * k % 2 = 0 := by omega
      have h3 : (2 * k + 2) / 2 = k + 1 := by omega
      have h4 : 2 * k / 2 = k := by omega
      rw [if_pos h1, if_pos h2, h3, h4]
      have hc := Nat.succ_mul_centralBinom_succ k
      rw [Nat.centralBinom_eq_two_mul_choose, Nat.centralBinom_eq_two_mul_choose] at hc
      have hc' : ((k : ℝ) + 1) * ((2 * k + 2).choose (k + 1) : ℝ) = 2 * (2 * k + 1) * ((2 * k).choose k : ℝ) := by
        have : 2 * (k + 1) = 2 * k + 2 := by ring
        rw [this] at hc
        exact_mod_cast hc
      have hk : ((k : ℝ) + 1) ≠ 0 := by positivity
      have e : ((2 * k + 2).choose (k + 1) : ℝ) = 2 * (2 * k + 1) * ((2 * k).choose k : ℝ) / (k + 1) := by
        rw [eq_div_iff hk, mul_comm, hc']
      rw [e]
      push_cast
      field_simp
      ring
    · have h1 : (2 * k + 1 + 2) % 2 ≠ 0 := by omega
      have h2 : (2 * k + 1) % 2 ≠ 0 := by omega
      rw [if_neg h1, if_neg h2, mul_zero]

/-! ## Integration over the azimuth -/

theorem expandOneSubSq_sum (h : ℕ) (y : ℝ) : ((expandOneSubSq h).map fun q => q.1 * y ^ q.2).sum = (1 - y ^ 2) ^ h := by
  have : (1 - y ^ 2) ^ h = (-(y ^ 2) + 1) ^ h := by ring
  rw [this, add_pow, expandOneSubSq, List.map_map, ← list_range_sum]
  congr 1
  apply List.map_congr_left
  intro j _
  simp only [Function.comp_apply, one_pow, mul_one]
  rw [neg_pow (y ^ 2), ← pow_mul]
  ring

/-- mean over one period -/
noncomputable def pmean (f : ℝ → ℝ) : ℝ := (2 * π)⁻¹ * ∫ φ in (0 : ℝ)..2 * π, f φ

theorem continuous_eval (e : Expr) (θ : ℝ) : Continuous fun φ => eval e θ φ := by
  induction e with
  | nil => exact continuous_const
  | cons m e ih =>
    simp only [eval_cons]
    refine Continuous.add ?_ ih
    unfold Mono.eval
    fun_prop

theorem pmean_add {f g : ℝ → ℝ} (hf : Continuous f) (hg : Continuous g) :
    pmean (fun φ => f φ + g φ) = pmean f + pmean g := by
  unfold pmean
  rw [integral_add (hf.intervalIntegrable _ _) (hg.intervalIntegrable _ _), mul_add]

theorem pmean_const_mul (c : ℝ) (f : ℝ → ℝ) : pmean (fun φ => c * f φ) = c * pmean f := by
  unfold pmean
  rw [integral_const_mul]; ring

theorem pmean_cos_pow (i : ℕ) : pmean (fun φ => cos φ ^ i) = cosintegral i := (cosintegral_eq i).symm

/-- odd powers of the sine integrate to zero -/
theorem pmean_odd (a b : ℕ) (hb : b % 2 = 1) : pmean (fun φ => cos φ ^ a * sin φ ^ b) = 0 := by
  have h := integral_comp_sub_left (fun φ => cos φ ^ a * sin φ ^ b) (2 * π) (a := 0) (b := 2 * π)
  have hodd : Odd b := Nat.odd_iff.2 hb
  simp only [cos_two_pi_sub, sin_two_pi_sub, hodd.neg_pow, sub_self, sub_zero, mul_neg, integral_neg] at h
  unfold pmean
  have : ∫ φ in (0 : ℝ)..2 * π, cos φ ^ a * sin φ ^ b = 0 := by linarith
  rw [this, mul_zero]

theorem pmean_eval_nil (θ : ℝ) : pmean (fun φ => eval [] θ φ) = 0 := by simp [eval, pmean]

theorem pmean_eval_cons (m : Mono) (e : Expr) (θ : ℝ) :
    pmean (fun φ => eval (m :: e) θ φ) = pmean (fun φ => m.eval θ φ) + pmean (fun φ => eval e θ φ) := by
  simp only [eval_cons]
  exact pmean_add (by unfold Mono.eval; fun_prop) (continuous_eval e θ)

theorem pmean_eval_append (a b : Expr) (θ : ℝ) :
    pmean (fun φ => eval (a ++ b) θ φ) = pmean (fun φ => eval a θ φ) + pmean (fun φ => eval b θ φ) := by
  simp only [eval_append]
  exact pmean_add (continuous_eval a θ) (continuous_eval b θ)

theorem eval_replSinPhi_even (N : ℕ) (m : Mono) (h : m.sp % 2 = 0) (θ φ : ℝ) :
    eval (replSinPhi N m) θ φ = m.eval θ φ := by
  unfold replSinPhi
  rw [if_neg (by omega)]
  split
  · obtain ⟨k, hk⟩ : ∃ k, m.sp = 2 * k := ⟨m.sp / 2, by omega⟩
    have e : m.eval θ φ = m.c * cos θ ^ m.ct * sin θ ^ m.st * cos φ ^ m.cp * (1 - cos φ ^ 2) ^ k := by
      rw [Mono.eval, hk, pow_mul, sin_sq]
    rw [e, ← expandOneSubSq_sum, hk, Nat.mul_div_cancel_left k (by norm_num)]
    simp only [eval, List.map_map]
    rw [← List.sum_map_mul_left]
    congr 1
    apply List.map_congr_left
    intro q _
    simp only [Function.comp_apply, Mono.eval]
    rw [pow_add]
    ring
  · simp [eval]

theorem pmean_replSinPhi (N : ℕ) (m : Mono) (θ : ℝ) :
    pmean (fun φ => eval (replSinPhi N m) θ φ) = pmean (fun φ => m.eval θ φ) := by
  rcases Nat.mod_two_eq_zero_or_one m.sp with h | h
  · simp only [eval_replSinPhi_even N m h]
  · by_cases hN : m.sp ≤ N
    · have : replSinPhi N m = [] := by
        unfold replSinPhi; rw [if_pos ⟨h, by omega, hN⟩]
      rw [this, pmean_eval_nil]
      have e : (fun φ => m.eval θ φ) =
          fun φ => (m.c * cos θ ^ m.ct * sin θ ^ m.st) * (cos φ ^ m.cp * sin φ ^ m.sp) := by
        funext φ; unfold Mono.eval; ring
      rw [e, pmean_const_mul, pmean_odd _ _ h, mul_zero]
    · have : replSinPhi N m = [m] := by
        unfold replSinPhi; rw [if_neg (by omega), if_neg (by omega)]
      rw [this]
      simp [eval]

theorem replSinPhi_mem {N : ℕ} {m m' : Mono} (hsp : m.sp ≤ N) (h : m' ∈ replSinPhi N m) :
    m'.sp = 0 ∧ m'.st = m.st ∧ m'.ct = m.ct ∧ m'.cp ≤ m.cp + m.sp ∧ m'.cp % 2 = m.cp % 2 ∧ m.sp % 2 = 0 := by
  unfold replSinPhi at h
  split at h
  · cases h
  · split at h
    · rename_i h1 h2
      simp only [expandOneSubSq, List.map_map, List.mem_map, List.mem_range, Function.comp_apply] at h
      obtain ⟨j, hj, rfl⟩ := h
      refine ⟨rfl, rfl, rfl, ?_, ?_, h2.1⟩
      · show m.cp + 2 * j ≤ m.cp + m.sp
        omega
      · show (m.cp + 2 * j) % 2 = m.cp % 2
        omega
    · rw [List.mem_singleton] at h
      subst h
      refine ⟨?_, rfl, rfl, ?_, rfl, ?_⟩ <;> omega

theorem eval_replCosPhi {N : ℕ} {m : Mono} (hsp : m.sp = 0) (hcp : m.cp ≤ N) (θ φ : ℝ) :
    eval (replCosPhi N m) θ φ = pmean (fun ψ => m.eval θ ψ) := by
  have e : (fun φ => m.eval θ φ) = fun φ => (m.c * cos θ ^ m.ct * sin θ ^ m.st) * (cos φ ^ m.cp) := by
    funext φ; unfold Mono.eval; rw [hsp]; ring
  rw [e, pmean_const_mul, pmean_cos_pow]
  unfold replCosPhi
  split
  · split
    · rename_i h
      simp [eval, cosintegral, h]
    · simp [eval, Mono.eval, hsp]; ring
  · have : m.cp = 0 := by omega
    simp [eval, Mono.eval, hsp, this, cosintegral]

theorem replCosPhi_mem {N : ℕ} {m m' : Mono} (hsp : m.sp = 0) (hcp : m.cp ≤ N) (h : m' ∈ replCosPhi N m) :
    m'.sp = 0 ∧ m'.cp = 0 ∧ m'.st = m.st ∧ m'.ct = m.ct ∧ m.cp % 2 = 0 := by
  unfold replCosPhi at h
  split at h
  · split at h
    · cases h
    · rw [List.mem_singleton] at h; subst h
      exact ⟨hsp, rfl, rfl, rfl, by omega⟩
  · rw [List.mem_singleton] at h; subst h
    exact ⟨hsp, by omega, rfl, rfl, by omega⟩

/-- `integratePhis` is the mean over the azimuth. -/
theorem eval_integratePhis {k N : ℕ} (hk : k ≤ N) {e : Expr} (he : ∀ m ∈ e, Good k m) (θ φ : ℝ) :
    eval (integratePhis N e) θ φ = pmean (fun ψ => eval e θ ψ) := by
  have hstep : ∀ e' : Expr, (∀ m ∈ e', m.sp = 0 ∧ m.cp ≤ N) →
      eval (e'.flatMap (replCosPhi N)) θ φ = pmean (fun ψ => eval e' θ ψ) := by
    intro e' h
    induction e' with
    | nil => rw [pmean_eval_nil]; rfl
    | cons m e' ih =>
      rw [List.flatMap_cons, eval_append, pmean_eval_cons, ih (fun x hx => h x (by simp [hx])),
        eval_replCosPhi (h m (by simp)).1 (h m (by simp)).2]
  have hstep1 : pmean (fun ψ => eval (e.flatMap (replSinPhi N)) θ ψ) = pmean (fun ψ => eval e θ ψ) := by
    clear he hstep
    induction e with
    | nil => rfl
    | cons m e ih => rw [List.flatMap_cons, pmean_eval_append, pmean_eval_cons, ih, pmean_replSinPhi]
  rw [integratePhis, hstep, hstep1]
  intro m hm
  rw [List.mem_flatMap] at hm
  obtain ⟨x, hx, hm⟩ := hm
  obtain ⟨g1, g2⟩ := he x hx
  obtain ⟨h1, _, _, h4, _⟩ := replSinPhi_mem (by omega) hm
  exact ⟨h1, by omega⟩

theorem integratePhis_mem {k N : ℕ} (hk : k ≤ N) {e : Expr} (he : ∀ m ∈ e, Good k m) {m : Mono}
    (h : m ∈ integratePhis N e) : m.sp = 0 ∧ m.cp = 0 ∧ m.st % 2 = 0 ∧ m.ct + m.st ≤ k := by
  rw [integratePhis, List.mem_flatMap] at h
  obtain ⟨y, hy, hm⟩ := h
  rw [List.mem_flatMap] at hy
  obtain ⟨x, hx, hy⟩ := hy
  obtain ⟨g1, g2⟩ := he x hx
  obtain ⟨h1, h2, h3, h4, h5, h6⟩ := replSinPhi_mem (by omega) hy
  obtain ⟨r1, r2, r3, r4, r5⟩ := replCosPhi_mem h1 (by omega) hm
  refine ⟨r1, r2, ?_, ?_⟩ <;> omega

/-! ## Elimination of the sine of theta_s -/

theorem eval_replSinTheta {N : ℕ} {m : Mono} (h : m.st % 2 = 0) (θ φ : ℝ) :
    eval (replSinTheta N m) θ φ = m.eval θ φ := by
  unfold replSinTheta
  split
  · obtain ⟨k, hk⟩ : ∃ k, m.st = 2 * k := ⟨m.st / 2, by omega⟩
    have e : m.eval θ φ = m.c * cos θ ^ m.ct * (1 - cos θ ^ 2) ^ k * cos φ ^ m.cp * sin φ ^ m.sp := by
      rw [Mono.eval, hk, pow_mul, sin_sq]
    rw [e, ← expandOneSubSq_sum, hk, Nat.mul_div_cancel_left k (by norm_num)]
    simp only [eval, List.map_map]
    rw [mul_assoc, mul_assoc, mul_comm _ (cos φ ^ m.cp * sin φ ^ m.sp), ← mul_assoc, ← List.sum_map_mul_left]
    congr 1
    apply List.map_congr_left
    intro q _
    simp only [Function.comp_apply, Mono.eval]
    rw [pow_add]
    ring
  · simp [eval]

theorem replSinTheta_mem {N k : ℕ} {m m' : Mono} (h : m.st % 2 = 0) (hk : m.ct + m.st ≤ k) (hN : k < N - 1)
    (hm : m' ∈ replSinTheta N m) : m'.st = 0 ∧ m'.cp = m.cp ∧ m'.sp = m.sp ∧ m'.ct ≤ k := by
  unfold replSinTheta at hm
  split at hm
  · simp only [expandOneSubSq, List.map_map, List.mem_map, List.mem_range, Function.comp_apply] at hm
    obtain ⟨j, hj, rfl⟩ := hm
    refine ⟨rfl, rfl, rfl, ?_⟩
    show m.ct + 2 * j ≤ k
    omega
  · rw [List.mem_singleton] at hm; subst hm
    refine ⟨by omega, rfl, rfl, by omega⟩

/-! ## Coefficient extraction -/

/-- Coefficient of `cos(theta_s)**n` in an expression. -/
noncomputable def coefOf (n : ℕ) (e : Expr) : ℝ := ((e.filter fun m => m.ct = n).map Mono.c).sum

theorem evalClosed_ok {e : Expr} (h : ∀ m ∈ e, m.ct = 0 ∧ m.st = 0 ∧ m.cp = 0 ∧ m.sp = 0) :
    evalClosed e = .ok ((e.map Mono.c).sum) := by
  unfold evalClosed
  rw [if_pos]
  simpa using h

theorem csum_sub (a b : Expr) : ((sub a b).map Mono.c).sum = (a.map Mono.c).sum - (b.map Mono.c).sum := by
  have : ((smul (-1) b).map Mono.c).sum = -(b.map Mono.c).sum := by
    induction b with
    | nil => simp [smul]
    | cons m b ih =>
      have : smul (-1) (m :: b) = { m with c := -1 * m.c } :: smul (-1) b := rfl
      rw [this, List.map_cons, List.sum_cons, ih]; simp; ring
  rw [sub, List.map_append, List.sum_append, this]; ring

theorem csum_repl1 {Nfn : ℕ} {e : Expr} (h : ∀ m ∈ e, m.ct ≤ Nfn) :
    ((repl1 Nfn e).map Mono.c).sum = coefOf 0 e + coefOf 1 e := by
  unfold repl1 coefOf
  induction e with
  | nil => simp
  | cons m e ih =>
    have ih := ih (fun x hx => h x (by simp [hx]))
    have hm := h m (by simp)
    by_cases h0 : m.ct = 0
    · simp [h0] at *; rw [ih]; ring
    · by_cases h1 : m.ct = 1
      · simp [h1] at *; rw [ih]; ring
      · have : 2 ≤ m.ct ∧ m.ct ≤ Nfn := ⟨by omega, hm⟩
        simp [this, h0, h1] at *; rw [ih]

theorem csum_repln {n : ℕ} (hn : n ≠ 0) (e : Expr) :
    ((repln n e).map Mono.c).sum = coefOf 0 e + coefOf n e := by
  unfold repln repl0 coefOf
  induction e with
  | nil => simp
  | cons m e ih =>
    by_cases h0 : m.ct = 0
    · have : ¬ (0 = n) := fun h => hn h.symm
      simp [h0, this] at *; rw [ih]; ring
    · by_cases h1 : m.ct = n
      · simp [h1, hn] at *; rw [ih]; ring
      · simp [h0, h1] at *; rw [ih]

theorem repl0_mem {e : Expr} {m : Mono} (h : m ∈ repl0 e) : m ∈ e ∧ m.ct = 0 := by
  simpa [repl0] using h

theorem extract_eq {Nfn : ℕ} {e : Expr}
    (h : ∀ m ∈ e, m.st = 0 ∧ m.cp = 0 ∧ m.sp = 0 ∧ m.ct ≤ Nfn) :
    (extractCoefficients Nfn e).mapM evalClosed =
      .ok ([coefOf 0 e, coefOf 1 e] ++ (List.range' 2 (Nfn - 2)).map fun n => coefOf n e) := by
  have h0 : ∀ m ∈ repl0 e, m.ct = 0 ∧ m.st = 0 ∧ m.cp = 0 ∧ m.sp = 0 := by
    intro m hm
    obtain ⟨a, b⟩ := repl0_mem hm
    obtain ⟨c, d, f, _⟩ := h m a
    exact ⟨b, c, d, f⟩
  have hs : ∀ (r : ℝ) (a : Expr), (∀ m ∈ a, m.ct = 0 ∧ m.st = 0 ∧ m.cp = 0 ∧ m.sp = 0) →
      ∀ m ∈ smul r a, m.ct = 0 ∧ m.st = 0 ∧ m.cp = 0 ∧ m.sp = 0 := by
    intro r a ha m hm
    simp only [smul, List.mem_map] at hm
    obtain ⟨x, hx, rfl⟩ := hm
    exact ha x hx
  have hsub : ∀ a : Expr, (∀ m ∈ a, m.ct = 0 ∧ m.st = 0 ∧ m.cp = 0 ∧ m.sp = 0) →
      ∀ m ∈ sub a (repl0 e), m.ct = 0 ∧ m.st = 0 ∧ m.cp = 0 ∧ m.sp = 0 := by
    intro a ha m hm
    rw [sub, List.mem_append] at hm
    rcases hm with hm | hm
    · exact ha m hm
    · exact hs _ _ h0 m hm
  have h1 : ∀ m ∈ repl1 Nfn e, m.ct = 0 ∧ m.st = 0 ∧ m.cp = 0 ∧ m.sp = 0 := by
    intro m hm
    simp only [repl1, List.mem_map, List.mem_filter] at hm
    obtain ⟨x, ⟨hx, _⟩, rfl⟩ := hm
    obtain ⟨c, d, f, _⟩ := h x hx
    exact ⟨rfl, c, d, f⟩
  have hn : ∀ n, ∀ m ∈ repln n e, m.ct = 0 ∧ m.st = 0 ∧ m.cp = 0 ∧ m.sp = 0 := by
    intro n m hm
    obtain ⟨a, b⟩ := repl0_mem hm
    rw [List.mem_map] at a
    obtain ⟨x, hx, rfl⟩ := a
    obtain ⟨c, d, f, _⟩ := h x hx
    refine ⟨b, ?_⟩
    split <;> exact ⟨c, d, f⟩
  rw [General.mapM_ok_iff]
  unfold extractCoefficients
  apply List.rel_append
  · refine List.Forall₂.cons ?_ (List.Forall₂.cons ?_ List.Forall₂.nil)
    · rw [evalClosed_ok h0]; rfl
    · rw [evalClosed_ok (hsub _ h1), csum_sub, csum_repl1 (fun m hm => (h m hm).2.2.2)]
      congr 1
      show coefOf 0 e + coefOf 1 e - coefOf 0 e = coefOf 1 e
      ring
  · rw [List.forall₂_map_left_iff, List.forall₂_map_right_iff]
    rw [List.forall₂_same]
    intro n hmem
    rw [List.mem_range'_1] at hmem
    rw [evalClosed_ok (hsub _ (hn n)), csum_sub, csum_repln (by omega)]
    congr 1
    show coefOf 0 e + coefOf n e - coefOf 0 e = coefOf n e
    ring

/-- Summing the coefficients times the powers gives back the expression. -/
theorem sum_coefOf {e : Expr} {K : ℕ} (h : ∀ m ∈ e, m.st = 0 ∧ m.cp = 0 ∧ m.sp = 0 ∧ m.ct < K) (θ φ : ℝ) :
    ∑ n ∈ Finset.range K, coefOf n e * cos θ ^ n = eval e θ φ := by
  induction e with
  | nil => simp [coefOf, eval]
  | cons m e ih =>
    obtain ⟨a, b, c, d⟩ := h m (by simp)
    rw [eval_cons, ← ih (fun x hx => h x (by simp [hx]))]
    have : ∀ n, coefOf n (m :: e) = (if m.ct = n then m.c else 0) + coefOf n e := by
      intro n
      unfold coefOf
      by_cases hn : m.ct = n <;> simp [hn]
    simp only [this, add_mul, Finset.sum_add_distrib]
    congr 1
    simp only [ite_mul, zero_mul]
    rw [Finset.sum_ite_eq, if_pos (Finset.mem_range.2 d)]
    simp [Mono.eval, a, b, c]

end RT1.Fn
