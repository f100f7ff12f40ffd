import Verif.Lemmas.Simpson
import Verif.Props.Arrays
import Verif.Props.Phase
import Mathlib.Analysis.SpecialFunctions.Trigonometric.Bounds
import Mathlib.Analysis.Calculus.Deriv.MeanValue

/-!
# C112 Hemispherical reflectance

Specification: the values returned by `hemreflect` approximate the hemispherical reflectance
`NormBRDF * ∫∫ BRDF cos θ sin θ dθ dφ` (`Phase.hemReflectance`) for the incidence-angles `t_0_min + j * t_0_step < t_0_max`, and the
message is printed if it exceeds 1.
-/

namespace RT1.HemReflect
open General Arrays Set Real

namespace Hem

/-! ### specification -/

/-- The BRDF with the values of `param_dict`. -/
noncomputable def brdfAt (h : Hem) (t0 tex p0 pex : ℝ) : ℝ := h.brdf.eval (symbols t0 tex p0 pex fun k => h.paramVal (.param k))

/-- All parameters of the BRDF are given. -/
def Given (h : Hem) : Prop := ∀ k, Var.param k ∈ h.brdf.vars → k ∈ h.params.map Prod.fst

/-- `theta_0` does not occur without `phi_ex`. -/
def Azimuthal (h : Hem) : Prop := Var.theta0 ∈ h.brdf.vars → Var.phiex ∈ h.brdf.vars

/-- The arguments are supported. -/
structure Valid (h : Hem) : Prop where
  given : h.Given
  azim : h.Azimuthal
  two : 2 ≤ h.N

/-- `NormBRDF` are the numbers `A`: they are given, or they are the value of an expression of the parameters (if `R` is given). -/
inductive HasNorm (h : Hem) : Arr → Prop
  | num {A : Arr} : h.src ≠ .none → h.norm = .num A → HasNorm h A
  | sym {e : Ex} {A : Arr} : h.src = .R → h.norm = .sym e → (∀ v ∈ e.vars, ∃ k, v = .param k ∧ k ∈ h.params.map Prod.fst) →
      A = ⟨[], fun _ => e.eval h.paramVal⟩ → HasNorm h A

/-- `n` is the number of incidence-angles. -/
def Count (h : Hem) (n : ℕ) : Prop := ∀ j : ℕ, j < n ↔ h.t0min + j * h.t0step < h.t0max

/-- The `j`-th incidence-angle in radians. -/
noncomputable def angle (h : Hem) (j : ℕ) : ℝ := (h.t0min + j * h.t0step) * π / 180

/-- The hemispherical reflectance (without the factor `NormBRDF`) for the `j`-th angle. -/
noncomputable def hemRefl (h : Hem) (j : ℕ) : ℝ := Phase.hemReflectance h.brdfAt (h.angle j) h.phi0

/-- The integrand. -/
noncomputable def integrand (h : Hem) (theta0 θ φ : ℝ) : ℝ := sin θ * cos θ * h.brdfAt theta0 θ h.phi0 φ

/-- The BRDF is continuous in the exit-angles. -/
def Smooth (h : Hem) : Prop := ∀ j, ContinuousOn (fun p : ℝ × ℝ => h.brdfAt (h.angle j) p.1 h.phi0 p.2) (Icc 0 (π / 2) ×ˢ Icc 0 (2 * π))

/-! ### the values -/

variable {h : Hem}

theorem bc_grid {ss : List Shape} {N : ℕ} (h1 : [N] ∈ ss) (h2 : [1, N] ∈ ss) (h3 : ∀ s ∈ ss, s = [] ∨ s = [N] ∨ s = [1, N]) :
    Bc ss [N, N] := by
  refine ⟨fun s hs => ?_, fun r hr => by simpa using hr _ h2, fun a ha => ?_⟩
  · rcases h3 s hs with rfl | rfl | rfl
    · exact ⟨by simp, fun a => Or.inl (by simp)⟩
    · refine ⟨by simp, fun a => ?_⟩
      match a with
      | 0 => exact Or.inr (by simp)
      | a + 1 => exact Or.inl (by simp)
    · refine ⟨by simp, fun a => ?_⟩
      match a with
      | 0 => exact Or.inl (by simp)
      | 1 => exact Or.inr (by simp)
      | a + 2 => exact Or.inl (by simp)
  · match a with
    | 0 => exact ⟨_, h1, by simp⟩
    | 1 => exact ⟨_, h2, by simp⟩
    | a + 2 => simp at ha

/-- The arguments of `BRDF`. -/
noncomputable def args (h : Hem) (theta0 : ℝ) : Args :=
  ⟨⟨[], fun _ => theta0⟩, h.xArr, ⟨[], fun _ => h.phi0⟩, h.yArr, h.paramArrs⟩

theorem args_shapes (theta0 : ℝ) : ∀ A ∈ (h.args theta0).all, A.shape = [] ∨ A.shape = [h.N] ∨ A.shape = [1, h.N] := by
  intro A hA
  simp only [Args.all, args, xArr, yArr, paramArrs, List.map_map, List.mem_append, List.mem_cons, List.not_mem_nil, or_false,
    List.mem_map] at hA
  rcases hA with (rfl | rfl | rfl | rfl) | ⟨kv, -, rfl⟩ <;> simp

theorem args_compatible (theta0 : ℝ) : Compatible ([1, h.N] :: [h.N] :: (h.args theta0).all.map Arr.shape) :=
  ⟨[h.N, h.N], fun s hs => (bc_grid (ss := [1, h.N] :: [h.N] :: (h.args theta0).all.map Arr.shape) (by simp) (by simp) (fun s hs => by
    simp only [List.mem_cons, List.mem_map] at hs
    rcases hs with rfl | rfl | ⟨A, hA, rfl⟩
    · simp
    · simp
    · exact args_shapes theta0 A hA)).le s hs⟩

theorem args_at (theta0 : ℝ) (i : Idx) (hN : h.N ≠ 1) : (fun v => ((h.args theta0).arrOf v).at i) =
    symbols theta0 (linspace 0 (π / 2) h.N (i 1)) h.phi0 (linspace 0 (2 * π) h.N (i 0)) fun k => h.paramVal (.param k) := by
  funext v
  match v with
  | .theta0 => rfl
  | .thetaex =>
    show h.xArr.get (mask [1, h.N] i) = _
    simp [xArr, mask, symbols, hN]
  | .phi0 => rfl
  | .phiex =>
    show h.yArr.get (mask [h.N] i) = _
    simp [yArr, mask, symbols, hN]
  | .param k =>
    unfold Args.arrOf symbols
    simp only [args, paramArrs, List.find?_map, paramVal]
    have : ((fun kv : String × Arr => decide (kv.1 = k)) ∘ fun kv : String × ℝ => (kv.1, (⟨[], fun _ => kv.2⟩ : Arr))) =
        fun kv => decide (kv.1 = k) := rfl
    rw [this]
    cases h.params.find? fun kv => decide (kv.1 = k) with
    | none => rfl
    | some kv => rfl

theorem args_closed (theta0 : ℝ) (hg : h.Given) : Closed h.brdf (h.args theta0) := by
  intro k hk
  have := hg k hk
  simpa [args, paramArrs] using this

theorem args_call (theta0 : ℝ) (hg : h.Given) (hN : 2 ≤ h.N) : ∃ A, callFn h.brdf (h.args theta0) = .ok A ∧
    Bc (usedShapes h.brdf (h.args theta0)) A.shape ∧
    ∀ i, A.at i = h.brdfAt theta0 (linspace 0 (π / 2) h.N (i 1)) h.phi0 (linspace 0 (2 * π) h.N (i 0)) := by
  obtain ⟨A, h1, h2, h3⟩ := C107_function (args_closed theta0 hg) ((args_compatible (h := h) theta0).sub fun s hs => by simp [hs])
    (fun _ A hA h0 => by
      rcases args_shapes theta0 A hA with e | e | e <;> rw [e] at h0 <;> simp at h0 <;> omega)
  exact ⟨A, h1, h2, fun i => by rw [h3, args_at theta0 i (by omega)]; rfl⟩

theorem z_den (theta0 : ℝ) (hg : h.Given) (hN : 2 ≤ h.N) :
    Den (h.z theta0) ([1, h.N] :: [1, h.N] :: usedShapes h.brdf (h.args theta0))
      fun i => h.integrand theta0 (linspace 0 (π / 2) h.N (i 1)) (linspace 0 (2 * π) h.N (i 0)) := by
  have hx : ∀ i : Idx, h.xArr.at i = linspace 0 (π / 2) h.N (i 1) := fun i => by
    have h1 : h.N ≠ 1 := by omega
    simp [Arr.at, xArr, mask, h1]
  have dx : Den (arr h.xArr) [[1, h.N]] fun i => linspace 0 (π / 2) h.N (i 1) := by
    have := den_arr h.xArr
    rw [show h.xArr.at = fun i => linspace 0 (π / 2) h.N (i 1) from funext hx] at this
    exact this
  have hu : ∀ s ∈ usedShapes h.brdf (h.args theta0), s ∈ (h.args theta0).all.map Arr.shape := used_mem (args_closed theta0 hg)
  have hm := den_mul (den_mul (den_map sin dx) (den_map cos dx) ((args_compatible (h := h) theta0).sub fun s hs => by
      simp at hs; simp [hs]))
    (args_call theta0 hg hN) ((args_compatible (h := h) theta0).sub fun s hs => by
      simp only [List.cons_append, List.nil_append, List.mem_cons] at hs
      rcases hs with rfl | rfl | hs
      · simp
      · simp
      · exact List.mem_cons_of_mem _ (List.mem_cons_of_mem _ (hu s hs)))
  exact hm

theorem z_shape (theta0 : ℝ) (hv : h.Valid) :
    Bc ([1, h.N] :: [1, h.N] :: usedShapes h.brdf (h.args theta0)) [h.N, h.N] := by
  apply bc_grid
  · refine List.mem_cons_of_mem _ (List.mem_cons_of_mem _ ?_)
    unfold usedShapes
    by_cases h0 : Var.theta0 ∈ h.brdf.vars
    · rw [if_pos h0]
      exact List.mem_map.2 ⟨_, hv.azim h0, rfl⟩
    · rw [if_neg h0]
      exact List.mem_map.2 ⟨h.yArr, by simp [Args.all, args], rfl⟩
  · simp
  · intro s hs
    simp only [List.mem_cons] at hs
    rcases hs with rfl | rfl | hs
    · simp
    · simp
    · obtain ⟨A, hA, rfl⟩ := List.mem_map.1 (used_mem (args_closed theta0 hv.given) s hs)
      exact args_shapes theta0 A hA

/-- The double integral for one angle. -/
theorem value_eq (theta0 : ℝ) (hv : h.Valid) :
    h.value theta0 = .ok ⟨[], fun _ => simps2 (h.integrand theta0) 0 (π / 2) 0 (2 * π) h.N⟩ := by
  obtain ⟨A, h1, h2, h3⟩ := z_den theta0 hv.given hv.two
  have hs : A.shape = [h.N, h.N] := h2.ext (z_shape theta0 hv)
  have hN : h.N ≠ 0 := by have := hv.two; omega
  have hN1 : h.N ≠ 1 := by have := hv.two; omega
  unfold value
  rw [h1]
  unfold simpsV
  simp only [hs, ne_eq, not_true, if_false, hN, simps2]
  congr 2
  funext i
  congr 1
  funext k
  show simps (fun k' => A.at _) _ _ = _
  simp only [h3]
  simp [mask, hN1]

theorem sol_eq (hv : h.Valid) : ∃ S : Arr, h.sol = .ok S ∧ S.shape = [h.incnum.length] ∧
    ∀ i : Idx, ∀ (hi : i 0 < h.incnum.length),
      S.at i = simps2 (h.integrand (deg2rad h.incnum[i 0])) 0 (π / 2) 0 (2 * π) h.N := by
  unfold sol stackV
  simp only [value_eq _ hv]
  rw [seqV_ok (as := h.incnum.map fun t => ⟨[], fun _ => simps2 (h.integrand (deg2rad t)) 0 (π / 2) 0 (2 * π) h.N⟩) (by
    rw [List.map_map]; rfl)]
  dsimp only
  cases hl : h.incnum with
  | nil => exact ⟨_, rfl, rfl, fun i hi => by simp at hi⟩
  | cons t l =>
    unfold stackOf
    simp only [List.map_cons]
    rw [if_pos (by simp)]
    refine ⟨_, rfl, by simp, fun i hi => ?_⟩
    unfold Arr.at
    have hm : mask ([] ++ [(l.map fun t => (⟨[], fun _ => simps2 (h.integrand (deg2rad t)) 0 (π / 2) 0 (2 * π) h.N⟩ : Arr)).length + 1]) i 0 =
        i 0 := by
      simp only [mask, List.nil_append, List.getD_cons_zero, List.length_map]
      split
      · rename_i h1
        simp at hi
        omega
      · rfl
    simp only [List.length_nil, hm]
    rw [← List.map_cons (f := fun t => (⟨[], fun _ => simps2 (h.integrand (deg2rad t)) 0 (π / 2) 0 (2 * π) h.N⟩ : Arr)),
      List.getD_eq_getElem?_getD, List.getElem?_map, List.getElem?_eq_getElem hi]
    rfl

theorem incnum_count (hs : 0 < h.t0step) : h.Count h.incnum.length := by
  intro j
  unfold incnum arange
  rw [List.length_map, List.length_range, Nat.lt_ceil, lt_div_iff₀ hs]
  constructor <;> intro _ <;> linarith

theorem Count.unique {n m : ℕ} (h1 : h.Count n) (h2 : h.Count m) : n = m := by
  by_contra hne
  rcases Nat.lt_or_gt_of_ne hne with hl | hl
  · have := (h1 n).2 ((h2 n).1 hl); omega
  · have := (h2 m).2 ((h1 m).1 hl); omega

theorem deg2rad_incnum {j : ℕ} (hj : j < h.incnum.length) : deg2rad h.incnum[j] = h.angle j := by
  have : h.incnum[j] = h.t0min + j * h.t0step := by simp [incnum, arange]
  rw [this]
  unfold deg2rad angle
  ring

theorem known_iff (e : Ex) : h.known e = true ↔ ∀ v ∈ e.vars, ∃ k, v = .param k ∧ k ∈ h.params.map Prod.fst := by
  unfold known
  rw [List.all_eq_true]
  refine forall₂_congr fun v _ => ?_
  cases v with
  | param k => simp
  | _ => simp

theorem run_scaled {A : Arr} (hn : h.HasNorm A) : h.run = h.sol * arr A := by
  cases hn with
  | num h1 h2 =>
    unfold run
    rw [h2]
    cases hs : h.src with
    | R => rfl
    | SRF => rfl
    | none => exact absurd hs h1
  | sym h1 h2 h3 h4 =>
    unfold run
    rw [h1, h2]
    dsimp only [normR]
    rw [if_pos ((known_iff _).2 h3), h4]
    rfl

end Hem

open Hem
variable {h : Hem}

/-- C112: the returned array contains for each angle before `t_0_max` the result of the double Simpson-rule, multiplied with `NormBRDF`
(numbers or arrays that can be broadcast). -/
theorem C112_values_partial (hv : h.Valid) (hs : 0 < h.t0step) {n : ℕ} (hc : h.Count n) {N : Arr} (hN : h.HasNorm N)
    (hcomp : Compatible [[n], N.shape]) : ∃ A : Arr, h.run = .ok A ∧ Bc [[n], N.shape] A.shape ∧
      ∀ i : Idx, i 0 < n → A.at i = simps2 (h.integrand (h.angle (i 0))) 0 (π / 2) 0 (2 * π) h.N * N.at i := by
  obtain ⟨S, h1, h2, h3⟩ := sol_eq hv
  have hl : h.incnum.length = n := (incnum_count hs).unique hc
  have dS : Den h.sol [[n]] S.at := ⟨S, h1, by rw [h2, hl]; exact bc_single _, fun _ => rfl⟩
  obtain ⟨A, e1, e2, e3⟩ := den_mul dS (den_arr N) hcomp
  refine ⟨A, by rw [run_scaled hN, e1], e2, fun i hi => ?_⟩
  rw [e3]
  beta_reduce
  rw [h3 i (by rw [hl]; exact hi), deg2rad_incnum]

/-- The number `c` as array. -/
def scalar (c : ℝ) : Arr := ⟨[], fun _ => c⟩

theorem scalar_values (hv : h.Valid) (hs : 0 < h.t0step) {n : ℕ} (hc : h.Count n) {c : ℝ} (hN : h.HasNorm (scalar c)) :
    ∃ A : Arr, h.run = .ok A ∧ A.shape = [n] ∧
      ∀ i : Idx, i 0 < n → A.at i = c * simps2 (h.integrand (h.angle (i 0))) 0 (π / 2) 0 (2 * π) h.N := by
  have hcomp : Compatible [[n], (scalar c).shape] := ⟨[n], fun s hs => by
    simp only [List.mem_cons, List.not_mem_nil, or_false] at hs
    rcases hs with rfl | rfl
    · exact Le.refl _
    · exact ⟨by simp [scalar], fun a => Or.inl (by simp [scalar])⟩⟩
  obtain ⟨A, e1, e2, e3⟩ := C112_values_partial hv hs hc hN hcomp
  refine ⟨A, e1, e2.ext ⟨fun s hs => ?_, fun r hr => hr [n] (by simp), fun a ha => ⟨[n], by simp, rfl⟩⟩, fun i hi => ?_⟩
  · simp only [List.mem_cons, List.not_mem_nil, or_false] at hs
    rcases hs with rfl | rfl
    · exact Le.refl _
    · exact ⟨by simp [scalar], fun a => Or.inl (by simp [scalar])⟩
  · rw [e3 i hi, mul_comm]
    rfl

/-! ### convergence -/

theorem refl_eq (hc : h.Smooth) (j : ℕ) :
    ∫ θ in (0 : ℝ)..π / 2, ∫ φ in (0 : ℝ)..2 * π, h.integrand (h.angle j) θ φ = h.hemRefl j := by
  have hcont : ContinuousOn (Function.uncurry (h.integrand (h.angle j))) (Icc 0 (π / 2) ×ˢ Icc 0 (2 * π)) := by
    have : Function.uncurry (h.integrand (h.angle j)) = fun p => sin p.1 * cos p.1 * h.brdfAt (h.angle j) p.1 h.phi0 p.2 := rfl
    rw [this]
    exact ContinuousOn.mul (by fun_prop) (hc j)
  rw [integral_swap (by positivity) (by positivity) hcont]
  unfold hemRefl Phase.hemReflectance integrand
  congr 1
  funext φ
  congr 1
  funext θ
  ring

theorem values_tendsto (hc : h.Smooth) (j : ℕ) :
    Filter.Tendsto (simps2 (h.integrand (h.angle j)) 0 (π / 2) 0 (2 * π)) Filter.atTop (nhds (h.hemRefl j)) := by
  rw [← refl_eq hc j]
  apply simps2_tendsto (by positivity) (by positivity)
  have : Function.uncurry (h.integrand (h.angle j)) = fun p => sin p.1 * cos p.1 * h.brdfAt (h.angle j) p.1 h.phi0 p.2 := rfl
  rw [this]
  exact ContinuousOn.mul (by fun_prop) (hc j)

/-- The same call with a different number of points. -/
def withN (h : Hem) (N : ℕ) : Hem := { h with N := N }

theorem HasNorm.withN {A : Arr} (hN : h.HasNorm A) (N : ℕ) : (withN h N).HasNorm A := by
  cases hN with
  | num h1 h2 => exact .num h1 h2
  | sym h1 h2 h3 h4 => exact .sym h1 h2 h3 h4

/-- C112: for a BRDF that is continuous in the exit-angles the values converge (for all angles of the call) to the hemispherical
reflectance if the number of points is increased. -/
theorem C112_converges_partial (hg : h.Given) (ha : h.Azimuthal) (hcont : h.Smooth) (hs : 0 < h.t0step) {n : ℕ} (hc : h.Count n) {c : ℝ}
    (hN : h.HasNorm (scalar c)) {ε : ℝ} (hε : 0 < ε) :
    ∃ N₀, ∀ N ≥ N₀, ∃ A : Arr, (withN h N).run = .ok A ∧ A.shape = [n] ∧ ∀ i : Idx, i 0 < n → |A.at i - c * h.hemRefl (i 0)| < ε := by
  have hev : ∀ᶠ N in Filter.atTop, ∀ j < n, |c * simps2 (h.integrand (h.angle j)) 0 (π / 2) 0 (2 * π) N - c * h.hemRefl j| < ε := by
    have : ∀ᶠ N in Filter.atTop, ∀ j ∈ Finset.range n,
        |c * simps2 (h.integrand (h.angle j)) 0 (π / 2) 0 (2 * π) N - c * h.hemRefl j| < ε := by
      rw [Filter.eventually_all_finset]
      intro j _
      have := Metric.tendsto_nhds.1 ((values_tendsto hcont j).const_mul c) ε hε
      simpa only [Real.dist_eq] using this
    filter_upwards [this] with N hN' j hj
    exact hN' j (Finset.mem_range.2 hj)
  obtain ⟨N₀, hN₀⟩ := Filter.eventually_atTop.1 (hev.and (Filter.eventually_ge_atTop 2))
  refine ⟨N₀, fun N hNN => ?_⟩
  obtain ⟨hb, h2⟩ := hN₀ N hNN
  obtain ⟨A, e1, e2, e3⟩ := scalar_values (h := withN h N) ⟨hg, ha, h2⟩ hs hc (HasNorm.withN hN N)
  refine ⟨A, e1, e2, fun i hi => ?_⟩
  rw [e3 i hi]
  exact hb _ hi

/-! ### the warning -/

theorem warns_iff {A : Arr} {n : ℕ} (hr : h.run = .ok A) (hsh : A.shape = [n]) : h.Warns ↔ ∃ j < n, 1 < A.at fun _ => j := by
  unfold Warns
  rw [hr]
  dsimp only
  constructor
  · rintro ⟨i, hi, h1⟩
    have h0 := hi 0
    rw [hsh] at h0
    refine ⟨i 0, h0, ?_⟩
    have : A.at (fun _ => i 0) = A.at i := by
      unfold Arr.at
      congr 1
      funext a
      unfold mask
      rw [hsh]
      match a with
      | 0 => rfl
      | a + 1 => simp
    rw [this]
    exact h1
  · rintro ⟨j, hj, h1⟩
    refine ⟨fun a => if a = 0 then j else 0, fun a => ?_, ?_⟩
    · rw [hsh]
      match a with
      | 0 => simpa using hj
      | a + 1 => simp
    · have : A.at (fun a => if a = 0 then j else 0) = A.at fun _ => j := by
        unfold Arr.at
        congr 1
        funext a
        unfold mask
        rw [hsh]
        match a with
        | 0 => rfl
        | a + 1 => simp
      rw [this]
      exact h1

/-- C112: with sufficiently many points the message is printed if a reflectance exceeds 1, and it is not printed if all of them are
below 1. -/
theorem C112_warning_partial (hg : h.Given) (ha : h.Azimuthal) (hcont : h.Smooth) (hs : 0 < h.t0step) {n : ℕ} (hc : h.Count n) {c : ℝ}
    (hN : h.HasNorm (scalar c)) (hne : ∀ j < n, c * h.hemRefl j ≠ 1) :
    ∃ N₀, ∀ N ≥ N₀, ((withN h N).Warns ↔ ∃ j < n, 1 < c * h.hemRefl j) := by
  obtain ⟨ε, hε, hgap⟩ : ∃ ε > 0, ∀ j < n, ε ≤ |c * h.hemRefl j - 1| := by
    clear hc
    induction n with
    | zero => exact ⟨1, one_pos, fun j hj => by omega⟩
    | succ n ih =>
      obtain ⟨ε, hε, hg⟩ := ih fun j hj => hne j (by omega)
      refine ⟨min ε |c * h.hemRefl n - 1|, lt_min hε (abs_pos.2 (sub_ne_zero.2 (hne n (by omega)))), fun j hj => ?_⟩
      rcases Nat.lt_succ_iff_lt_or_eq.1 hj with hj | rfl
      · exact (min_le_left _ _).trans (hg j hj)
      · exact min_le_right _ _
  obtain ⟨N₀, hN₀⟩ := C112_converges_partial hg ha hcont hs hc hN hε
  refine ⟨N₀, fun N hNN => ?_⟩
  obtain ⟨A, e1, e2, e3⟩ := hN₀ N hNN
  rw [warns_iff e1 e2]
  refine exists_congr fun j => and_congr_right fun hj => ?_
  have h1 := e3 (fun _ => j) hj
  have h2 := hgap j hj
  rw [abs_lt] at h1
  rcases le_or_gt 0 (c * h.hemRefl j - 1) with h0 | h0
  · rw [abs_of_nonneg h0] at h2
    constructor <;> intro _ <;> linarith
  · rw [abs_of_neg h0] at h2
    constructor <;> intro _ <;> linarith

/-! ### linear combinations and bounds -/

theorem simps2_add (F G : ℝ → ℝ → ℝ) (a b c d : ℝ) (N : ℕ) :
    simps2 (fun s t => F s t + G s t) a b c d N = simps2 F a b c d N + simps2 G a b c d N := by
  unfold simps2
  simp only [simps_add]

theorem simps2_smul (w : ℝ) (F : ℝ → ℝ → ℝ) (a b c d : ℝ) (N : ℕ) :
    simps2 (fun s t => w * F s t) a b c d N = w * simps2 F a b c d N := by
  unfold simps2
  simp only [simps_smul]

theorem simps2_mono {F G : ℝ → ℝ → ℝ} {a b c d : ℝ} (hab : a < b) (hcd : c < d) {N : ℕ} (hN : 2 ≤ N)
    (hFG : ∀ s ∈ Icc a b, ∀ t ∈ Icc c d, F s t ≤ G s t) : simps2 F a b c d N ≤ simps2 G a b c d N := by
  have hN' : (0 : ℝ) < N - 1 := by
    have : (2 : ℝ) ≤ N := by exact_mod_cast hN
    linarith
  unfold simps2
  simp only [linspace_grid]
  refine simps_mono (div_pos (by linarith) hN') hN fun i hi => simps_mono (div_pos (by linarith) hN') hN fun k hk => ?_
  rw [← linspace_grid, ← linspace_grid]
  exact hFG _ (linspace_mem hab.le hN hi) _ (linspace_mem hcd.le hN hk)

/-- The same call with another function. -/
def withBrdf (h : Hem) (e : Ex) : Hem := { h with brdf := e }

/-- C112: the values of a weighted sum of BRDF's (`LinCombSRF`) are the weighted sum of their values. -/
theorem C112_linear (hs : 0 < h.t0step) {n : ℕ} (hc : h.Count n) {c : ℝ} (hN : h.HasNorm (scalar c)) {e e₁ e₂ : Ex} {w₁ w₂ : ℝ}
    (he : ∀ ρ, e.eval ρ = w₁ * e₁.eval ρ + w₂ * e₂.eval ρ) (hv : (withBrdf h e).Valid) (hv₁ : (withBrdf h e₁).Valid)
    (hv₂ : (withBrdf h e₂).Valid) : ∃ A A₁ A₂ : Arr, (withBrdf h e).run = .ok A ∧ (withBrdf h e₁).run = .ok A₁ ∧
      (withBrdf h e₂).run = .ok A₂ ∧ A.shape = [n] ∧ ∀ i : Idx, i 0 < n → A.at i = w₁ * A₁.at i + w₂ * A₂.at i := by
  have hN' : ∀ e, (withBrdf h e).HasNorm (scalar c) := fun e => by
    cases hN with
    | num h1 h2 => exact .num h1 h2
    | sym h1 h2 h3 h4 => exact .sym h1 h2 h3 h4
  obtain ⟨A, a1, a2, a3⟩ := scalar_values hv hs hc (hN' e)
  obtain ⟨A₁, b1, -, b3⟩ := scalar_values hv₁ hs hc (hN' e₁)
  obtain ⟨A₂, c1, -, c3⟩ := scalar_values hv₂ hs hc (hN' e₂)
  refine ⟨A, A₁, A₂, a1, b1, c1, a2, fun i hi => ?_⟩
  rw [a3 i hi, b3 i hi, c3 i hi]
  have : (withBrdf h e).integrand ((withBrdf h e).angle (i 0)) = fun s t =>
      w₁ * (withBrdf h e₁).integrand ((withBrdf h e₁).angle (i 0)) s t +
        w₂ * (withBrdf h e₂).integrand ((withBrdf h e₂).angle (i 0)) s t := by
    funext s t
    let ρ := symbols (h.angle (i 0)) s h.phi0 t fun k => h.paramVal (.param k)
    show sin s * cos s * e.eval ρ = w₁ * (sin s * cos s * e₁.eval ρ) + w₂ * (sin s * cos s * e₂.eval ρ)
    rw [he]
    ring
  rw [this, simps2_add, simps2_smul, simps2_smul]
  simp only [show ∀ e, (withBrdf h e).N = h.N from fun _ => rfl]
  ring

/-- C112: a larger BRDF has larger values, and the values of a non-negative BRDF are non-negative. -/
theorem C112_monotone (hs : 0 < h.t0step) {n : ℕ} (hc : h.Count n) {c : ℝ} (hc0 : 0 ≤ c) (hN : h.HasNorm (scalar c)) {e₁ e₂ : Ex}
    (hv₁ : (withBrdf h e₁).Valid) (hv₂ : (withBrdf h e₂).Valid)
    (he : ∀ j < n, ∀ θ ∈ Icc 0 (π / 2), ∀ φ ∈ Icc 0 (2 * π),
      0 ≤ (withBrdf h e₁).brdfAt (h.angle j) θ h.phi0 φ ∧
        (withBrdf h e₁).brdfAt (h.angle j) θ h.phi0 φ ≤ (withBrdf h e₂).brdfAt (h.angle j) θ h.phi0 φ) :
    ∃ A₁ A₂ : Arr, (withBrdf h e₁).run = .ok A₁ ∧ (withBrdf h e₂).run = .ok A₂ ∧ A₁.shape = [n] ∧ A₂.shape = [n] ∧
      ∀ i : Idx, i 0 < n → 0 ≤ A₁.at i ∧ A₁.at i ≤ A₂.at i := by
  have hN' : ∀ e, (withBrdf h e).HasNorm (scalar c) := fun e => by
    cases hN with
    | num h1 h2 => exact .num h1 h2
    | sym h1 h2 h3 h4 => exact .sym h1 h2 h3 h4
  obtain ⟨A₁, b1, b2, b3⟩ := scalar_values hv₁ hs hc (hN' e₁)
  obtain ⟨A₂, c1, c2, c3⟩ := scalar_values hv₂ hs hc (hN' e₂)
  have hsc : ∀ θ ∈ Icc (0 : ℝ) (π / 2), 0 ≤ sin θ * cos θ := fun θ hθ =>
    mul_nonneg (sin_nonneg_of_nonneg_of_le_pi hθ.1 (by linarith [hθ.2, pi_pos]))
      (cos_nonneg_of_neg_pi_div_two_le_of_le (by linarith [hθ.1, pi_pos]) hθ.2)
  refine ⟨A₁, A₂, b1, c1, b2, c2, fun i hi => ?_⟩
  rw [b3 i hi, c3 i hi]
  have h0 : simps2 (fun _ _ => 0) 0 (π / 2) 0 (2 * π) h.N = 0 := by
    have := simps2_smul 0 (fun _ _ => 0) 0 (π / 2) 0 (2 * π) h.N
    simpa using this
  constructor
  · refine mul_nonneg hc0 ?_
    have := simps2_mono (F := fun _ _ => 0) (G := (withBrdf h e₁).integrand ((withBrdf h e₁).angle (i 0))) (a := 0) (b := π / 2) (c := 0)
      (d := 2 * π) (by positivity) (by positivity) hv₁.two fun s hs t ht => mul_nonneg (hsc s hs) (he _ hi s hs t ht).1
    exact h0.symm.le.trans this
  · refine mul_le_mul_of_nonneg_left ?_ hc0
    exact simps2_mono (by positivity) (by positivity) hv₁.two fun s hs t ht =>
      mul_le_mul_of_nonneg_left (he _ hi s hs t ht).2 (hsc s hs)

/-! ### the Lambertian surface -/

theorem mul_cos_lt_sin {x : ℝ} (h0 : 0 < x) (h1 : x < π / 2) : x * cos x < sin x := by
  have hc : 0 < cos x := cos_pos_of_mem_Ioo ⟨by linarith, h1⟩
  have := lt_tan h0 h1
  rwa [tan_eq_sin_div_cos, lt_div_iff₀ hc] at this

/-- `3 sin u < u (2 + cos u)` -/
theorem three_sin_lt {u : ℝ} (h0 : 0 < u) (h1 : u ≤ π / 2) : 3 * sin u < u * (2 + cos u) := by
  have hmono : StrictMonoOn (fun u : ℝ => u * (2 + cos u) - 3 * sin u) (Icc 0 (π / 2)) := by
    apply strictMonoOn_of_deriv_pos (convex_Icc _ _) (by fun_prop)
    intro x hx
    rw [interior_Icc] at hx
    have hd : HasDerivAt (fun u : ℝ => u * (2 + cos u) - 3 * sin u) (1 * (2 + cos x) + x * (-sin x) - 3 * cos x) x :=
      ((hasDerivAt_id' x).mul ((hasDerivAt_cos x).const_add 2)).sub ((hasDerivAt_sin x).const_mul 3)
    rw [hd.deriv]
    have hs := mul_cos_lt_sin (x := x / 2) (by linarith [hx.1]) (by linarith [hx.2, pi_pos])
    have hp : 0 < sin (x / 2) := sin_pos_of_pos_of_lt_pi (by linarith [hx.1]) (by linarith [hx.2, pi_pos])
    have e1 : sin x = 2 * sin (x / 2) * cos (x / 2) := by rw [← sin_two_mul]; ring_nf
    have e2 : cos x = 1 - 2 * sin (x / 2) ^ 2 := by
      have : cos x = cos (2 * (x / 2)) := by ring_nf
      rw [this, cos_two_mul, cos_sq']
      ring
    rw [e1, e2]
    nlinarith
  have := hmono (left_mem_Icc.2 (by positivity)) ⟨h0.le, h1⟩ h0
  simp at this
  linarith

/-- `x cos x (1 + x² / 3) < sin x` -/
theorem cubic_lt {x : ℝ} (h0 : 0 < x) (h1 : x < π / 2) : x * cos x * (1 + x ^ 2 / 3) < sin x := by
  have hmono : StrictMonoOn (fun x : ℝ => sin x - x * cos x * (1 + x ^ 2 / 3)) (Icc 0 (π / 2)) := by
    apply strictMonoOn_of_deriv_pos (convex_Icc _ _) (by fun_prop)
    intro x hx
    rw [interior_Icc] at hx
    have hd : HasDerivAt (fun x : ℝ => sin x - x * cos x * (1 + x ^ 2 / 3))
        (cos x - ((1 * cos x + x * (-sin x)) * (1 + x ^ 2 / 3) + x * cos x * ((2 : ℕ) * x ^ (2 - 1) / 3))) x :=
      (hasDerivAt_sin x).sub (((hasDerivAt_id' x).mul (hasDerivAt_cos x)).mul (((hasDerivAt_pow 2 x).div_const 3).const_add 1))
    rw [hd.deriv]
    have hs := mul_cos_lt_sin hx.1 hx.2
    have hp : 0 < sin x := sin_pos_of_pos_of_lt_pi hx.1 (by linarith [hx.2, pi_pos])
    have e : cos x - ((1 * cos x + x * (-sin x)) * (1 + x ^ 2 / 3) + x * cos x * ((2 : ℕ) * x ^ (2 - 1) / 3)) =
        x * (sin x - x * cos x + x ^ 2 / 3 * sin x) := by
      simp
      ring
    rw [e]
    have hx0 : (0 : ℝ) < x := hx.1
    have : 0 < x ^ 2 / 3 * sin x := by positivity
    exact mul_pos hx0 (by linarith)
  have := hmono (left_mem_Icc.2 (by positivity)) ⟨h0.le, h1.le⟩ h0
  simp at this
  linarith

/-- The sum of the central samples of the panels of `sin (2 θ)`. -/
theorem sin_sum (h s : ℝ) (m : ℕ) : 2 * sin (2 * h) * ∑ k ∈ Finset.range m, sin (2 * ((s + 2 * k + 1) * h)) =
    cos (2 * s * h) - cos (2 * (s + 2 * m) * h) := by
  induction m with
  | zero => simp
  | succ m ih =>
    rw [Finset.sum_range_succ, mul_add, ih]
    have e1 : 2 * (s + 2 * (m : ℝ)) * h = 2 * ((s + 2 * m + 1) * h) - 2 * h := by ring
    have e2 : 2 * (s + 2 * ((m + 1 : ℕ) : ℝ)) * h = 2 * ((s + 2 * m + 1) * h) + 2 * h := by push_cast; ring
    rw [e1, e2, cos_sub, cos_add]
    ring

theorem panels_sin {h : ℝ} (hh : h ≠ 0) (s m : ℕ) :
    ∑ k ∈ Finset.range m, panel (fun k => sin (2 * grid 0 h k)) (grid 0 h) (s + 2 * k) =
      2 * h / 3 * (2 + cos (2 * h)) * ∑ k ∈ Finset.range m, sin (2 * ((s + 2 * k + 1) * h)) := by
  rw [Finset.mul_sum]
  refine Finset.sum_congr rfl fun k _ => ?_
  rw [panel_grid hh]
  have e0 : 2 * grid 0 h (s + 2 * k) = 2 * (((s : ℝ) + 2 * k + 1) * h) - 2 * h := by unfold grid; push_cast; ring
  have e1 : 2 * grid 0 h (s + 2 * k + 1) = 2 * (((s : ℝ) + 2 * k + 1) * h) := by unfold grid; push_cast; ring
  have e2 : 2 * grid 0 h (s + 2 * k + 2) = 2 * (((s : ℝ) + 2 * k + 1) * h) + 2 * h := by unfold grid; push_cast; ring
  rw [e0, e1, e2, sin_sub, sin_add]
  ring

/-- An odd number of samples: the result for `sin (2 θ)` is larger than the integral 1. -/
theorem simps_sin_odd {m : ℕ} (hm : 1 ≤ m) :
    1 < simps (fun k => sin (2 * linspace 0 (π / 2) (2 * m + 1) k)) (linspace 0 (π / 2) (2 * m + 1)) (2 * m + 1) := by
  have hm' : (1 : ℝ) ≤ m := by exact_mod_cast hm
  set h : ℝ := (π / 2 - 0) / (((2 * m + 1 : ℕ) : ℝ) - 1) with hh
  have e : 2 * (m : ℝ) * h = π / 2 := by
    rw [hh]
    push_cast
    field_simp
    ring
  have h0 : 0 < h := by
    have := pi_pos
    by_contra hc
    nlinarith
  have hu : 2 * h ≤ π / 2 := by nlinarith
  rw [simps_odd, linspace_grid, ← hh]
  have hp := panels_sin h0.ne' 0 m
  simp only [Nat.zero_add, Nat.cast_zero] at hp
  rw [hp]
  have hsum := sin_sum h 0 m
  have ec : 2 * (0 + 2 * (m : ℝ)) * h = π := by linarith
  rw [ec] at hsum
  simp only [mul_zero, zero_mul, cos_zero, cos_pi] at hsum
  have hs : 0 < sin (2 * h) := sin_pos_of_pos_of_lt_pi (by linarith) (by linarith [pi_pos])
  have h3 := three_sin_lt (u := 2 * h) (by linarith) hu
  set T := ∑ k ∈ Finset.range m, sin (2 * ((0 + 2 * (k : ℝ) + 1) * h)) with hT
  have hT1 : T = 1 / sin (2 * h) := by
    rw [eq_div_iff hs.ne']
    linarith
  rw [hT1, mul_one_div, lt_div_iff₀ hs]
  linarith

/-- An even number of samples: the result for `sin (2 θ)` is smaller than the integral 1. -/
theorem simps_sin_even (m : ℕ) :
    simps (fun k => sin (2 * linspace 0 (π / 2) (2 * m + 2) k)) (linspace 0 (π / 2) (2 * m + 2)) (2 * m + 2) < 1 := by
  set h : ℝ := (π / 2 - 0) / (((2 * m + 2 : ℕ) : ℝ) - 1) with hh
  have hm0 : (0 : ℝ) ≤ m := by positivity
  have e : (2 * (m : ℝ) + 1) * h = π / 2 := by
    rw [hh]
    push_cast
    rw [show 2 * (m : ℝ) + 2 - 1 = 2 * m + 1 by ring]
    field_simp
    ring
  have h0 : 0 < h := by
    have := pi_pos
    by_contra hc
    nlinarith
  rw [simps_even, linspace_grid, ← hh]
  have p0 := panels_sin h0.ne' 0 m
  have p1 := panels_sin h0.ne' 1 m
  simp only [Nat.zero_add, Nat.cast_zero, Nat.cast_one] at p0 p1
  rw [p0, p1]
  have s0 := sin_sum h 0 m
  have s1 := sin_sum h 1 m
  have c0 : 2 * (0 + 2 * (m : ℝ)) * h = π - 2 * h := by linarith
  have c1 : 2 * (1 + 2 * (m : ℝ)) * h = π := by linarith
  rw [c0] at s0
  rw [c1] at s1
  simp only [mul_zero, zero_mul, cos_zero, mul_one, cos_pi, cos_pi_sub] at s0 s1
  have g0 : grid 0 h 0 = 0 := by unfold grid; simp
  have g1 : grid 0 h 1 = h := by unfold grid; simp
  have gm : grid 0 h (2 * m) = π / 2 - h := by unfold grid; push_cast; linarith
  have gm1 : grid 0 h (2 * m + 1) = π / 2 := by unfold grid; push_cast; linarith
  simp only [g0, g1, gm, gm1]
  have t1 : sin (2 * (π / 2)) = 0 := by rw [mul_div_cancel₀ _ two_ne_zero, sin_pi]
  have t2 : sin (2 * (π / 2 - h)) = sin (2 * h) := by
    rw [show 2 * (π / 2 - h) = π - 2 * h by ring, sin_pi_sub]
  rw [t1, t2, mul_zero, sin_zero]
  rcases Nat.eq_zero_or_pos m with rfl | hm
  · have hpi : 2 * h = π := by
      simp at e
      linarith
    simp [hpi]
  · have hm' : (1 : ℝ) ≤ m := by exact_mod_cast hm
    have hu : h < π / 2 := by nlinarith [pi_pos]
    have hu2 : 2 * h < π := by nlinarith [pi_pos]
    have hs : 0 < sin (2 * h) := sin_pos_of_pos_of_lt_pi (by linarith) hu2
    set T0 := ∑ k ∈ Finset.range m, sin (2 * ((0 + 2 * (k : ℝ) + 1) * h)) with hT0
    set T1 := ∑ k ∈ Finset.range m, sin (2 * ((1 + 2 * (k : ℝ) + 1) * h)) with hT1
    have hT0' : T0 = (1 + cos (2 * h)) / (2 * sin (2 * h)) := by
      rw [eq_div_iff (by positivity)]
      linarith
    have hT1' : T1 = (1 + cos (2 * h)) / (2 * sin (2 * h)) := by
      rw [eq_div_iff (by positivity)]
      linarith
    rw [hT0', hT1']
    have hk := cubic_lt h0 hu
    have hsin : 0 < sin h := sin_pos_of_pos_of_lt_pi h0 (by linarith [pi_pos])
    have hcos : 0 < cos h := cos_pos_of_mem_Ioo ⟨by linarith [pi_pos], hu⟩
    have hsl : sin h ^ 2 ≤ h ^ 2 := by
      have := sin_lt h0
      nlinarith
    have hk2 : h * cos h * (1 + sin h ^ 2 / 3) < sin h := by
      have : h * cos h * (1 + sin h ^ 2 / 3) ≤ h * cos h * (1 + h ^ 2 / 3) := by
        apply mul_le_mul_of_nonneg_left _ (by positivity)
        linarith
      linarith
    have es : sin (2 * h) = 2 * sin h * cos h := sin_two_mul h
    have ecs : cos (2 * h) = 1 - 2 * sin h ^ 2 := by rw [cos_two_mul, cos_sq']; ring
    have hsc : sin h ^ 2 + cos h ^ 2 = 1 := sin_sq_add_cos_sq h
    have hfin : (2 * h / 3 * (2 + cos (2 * h)) * ((1 + cos (2 * h)) / (2 * sin (2 * h))) +
        2 * h / 3 * (2 + cos (2 * h)) * ((1 + cos (2 * h)) / (2 * sin (2 * h)))) / 2 +
        ((π / 2 - (π / 2 - h)) * (0 + sin (2 * h)) / 2 + (h - 0) * (sin (2 * h) + 0) / 2) / 2 =
        h * cos h * (1 + sin h ^ 2 / 3) / sin h := by
      rw [es, ecs]
      have e3 : 1 + (1 - 2 * sin h ^ 2) = 2 * cos h ^ 2 := by linarith
      rw [e3]
      field_simp
      have e4 : cos h ^ 2 = 1 - sin h ^ 2 := by linarith
      ring_nf
      try rw [e4]
      try ring
    rw [hfin, div_lt_one hsin]
    exact hk2

/-- `Isotropic` (`rt1/surface.py` lines 578-612) with numbers for `NormBRDF`. -/
noncomputable def lambert (h : Hem) : Hem := { h with brdf := .const (1 / π), norm := .num (scalar 1) }

theorem lambert_value (theta0 : ℝ) {N : ℕ} (hN : 2 ≤ N) : simps2 ((lambert h).integrand theta0) 0 (π / 2) 0 (2 * π) N =
    simps (fun k => sin (2 * linspace 0 (π / 2) N k)) (linspace 0 (π / 2) N) N := by
  have hN' : (0 : ℝ) < N - 1 := by
    have : (2 : ℝ) ≤ N := by exact_mod_cast hN
    linarith
  unfold simps2
  congr 1
  funext i
  show simps (fun _ => sin _ * cos _ * (1 / π)) _ _ = _
  rw [linspace_grid 0 (2 * π), simps_const (div_pos (by linarith [pi_pos]) hN').ne' _ hN, sin_two_mul]
  field_simp
  ring

/-- The hemispherical reflectance of the Lambertian surface is 1. -/
theorem lambert_refl (j : ℕ) : (lambert h).hemRefl j = 1 := by
  have hi : ∫ θ in (0 : ℝ)..π / 2, (1 / π) * cos θ * sin θ = 1 / (2 * π) := by
    have hd : ∀ θ ∈ uIcc (0 : ℝ) (π / 2), HasDerivAt (fun θ => (1 / π) * (sin θ ^ 2 / 2)) ((1 / π) * cos θ * sin θ) θ := fun θ _ => by
      have := (((hasDerivAt_sin θ).pow 2).div_const 2).const_mul (1 / π)
      refine this.congr_deriv ?_
      simp only [Nat.cast_ofNat, Nat.add_one_sub_one, pow_one]
      ring
    rw [intervalIntegral.integral_eq_sub_of_hasDerivAt hd (by apply Continuous.intervalIntegrable; fun_prop)]
    simp
  show (∫ φ in (0 : ℝ)..2 * π, ∫ θ in (0 : ℝ)..π / 2, (1 / π) * cos θ * sin θ) = 1
  rw [hi]
  simp
  field_simp

theorem lambert_valid {N : ℕ} (hN : 2 ≤ N) : (withN (lambert h) N).Valid :=
  ⟨fun k hk => by simp [withN, lambert, Ex.vars] at hk, fun hk => by simp [withN, lambert, Ex.vars] at hk, hN⟩

theorem lambert_warns (hsrc : h.src ≠ .none) (hs : 0 < h.t0step) {N : ℕ} (hN : 2 ≤ N) : (withN (lambert h) N).Warns ↔
    h.t0min < h.t0max ∧ 1 < simps (fun k => sin (2 * linspace 0 (π / 2) N k)) (linspace 0 (π / 2) N) N := by
  have hc : (withN (lambert h) N).Count (withN (lambert h) N).incnum.length := incnum_count hs
  obtain ⟨A, e1, e2, e3⟩ := scalar_values (lambert_valid hN) hs hc (.num hsrc rfl)
  have h0 := hc 0
  rw [warns_iff e1 e2]
  have hval : ∀ j < (withN (lambert h) N).incnum.length, A.at (fun _ => j) =
      simps (fun k => sin (2 * linspace 0 (π / 2) N k)) (linspace 0 (π / 2) N) N := fun j hj => by
    rw [e3 (fun _ => j) hj, one_mul]
    exact lambert_value (h := withN h N) _ hN
  have hpos : 0 < (withN (lambert h) N).incnum.length ↔ h.t0min < h.t0max := by
    rw [h0]
    simp [withN, lambert]
  constructor
  · rintro ⟨j, hj, h1⟩
    rw [hval j hj] at h1
    exact ⟨hpos.1 (by omega), h1⟩
  · rintro ⟨h1, h2⟩
    exact ⟨0, hpos.2 h1, by rw [hval 0 (hpos.2 h1)]; exact h2⟩

/-- C112: for the Lambertian surface, with reflectance 1 for all angles, the message is not printed for an even number of points (as the
default 1000). -/
theorem C112_lambert_even_partial (hsrc : h.src ≠ .none) (hs : 0 < h.t0step) (m : ℕ) :
    ¬ (withN (lambert h) (2 * m + 2)).Warns ∧ ∀ j, (lambert h).hemRefl j = 1 := by
  refine ⟨?_, lambert_refl⟩
  rw [lambert_warns hsrc hs (by omega)]
  rintro ⟨-, h1⟩
  exact lt_asymm h1 (simps_sin_even m)

/-- Violation: it is printed for every odd number of points. -/
theorem C112_lambert_odd_fails (hsrc : h.src ≠ .none) (hs : 0 < h.t0step) (hne : h.t0min < h.t0max) {m : ℕ} (hm : 1 ≤ m) :
    (withN (lambert h) (2 * m + 1)).Warns ∧ ∀ j, (lambert h).hemRefl j = 1 :=
  ⟨(lambert_warns hsrc hs (by omega)).2 ⟨hne, simps_sin_odd hm⟩, lambert_refl⟩

/-! ### unsupported arguments -/

/-- Violation: functions of `theta_0` that do not depend on the azimuth raise a ValueError. -/
theorem C112_azimuth_fails (hg : h.Given) (hN : 2 ≤ h.N) (h0 : Var.theta0 ∈ h.brdf.vars) (hphi : Var.phiex ∉ h.brdf.vars)
    (theta0 : ℝ) : h.value theta0 = .error .valueError := by
  obtain ⟨A, h1, h2, -⟩ := z_den theta0 hg hN
  have hs : A.shape = [1, h.N] := by
    refine h2.ext ⟨fun s hs => ?_, fun r hr => hr [1, h.N] (by simp), fun a ha => ⟨[1, h.N], by simp, rfl⟩⟩
    simp only [List.mem_cons] at hs
    rcases hs with rfl | rfl | hs
    · exact Le.refl _
    · exact Le.refl _
    · unfold usedShapes at hs
      rw [if_pos h0] at hs
      obtain ⟨v, hv, rfl⟩ := List.mem_map.1 hs
      have hnil : ∀ {s : Shape}, s = [] → Le s [1, h.N] := fun e => by
        subst e
        exact ⟨by simp, fun a => Or.inl (by simp)⟩
      match v with
      | .theta0 => exact hnil rfl
      | .thetaex => exact Le.refl _
      | .phi0 => exact hnil rfl
      | .phiex => exact absurd hv hphi
      | .param k =>
        apply hnil
        unfold Args.arrOf
        simp only [args, paramArrs, List.find?_map]
        cases h.params.find? _ with
        | none => rfl
        | some kv => rfl
  unfold value
  rw [h1]
  unfold simpsV
  simp only [hs]
  rw [if_pos (by omega)]

/-- Violation: with `SRF` and an expression for `NormBRDF` a TypeError is raised, although the values of the symbols are given. -/
theorem C112_symbol_fails (hv : h.Valid) (hs : 0 < h.t0step) (hne : h.t0min < h.t0max) (hsrc : h.src = .SRF) {e : Ex}
    (hn : h.norm = .sym e) (he : e.vars ≠ []) : h.run = .error .typeError := by
  obtain ⟨S, h1, h2, -⟩ := sol_eq hv
  have hpos : 0 < h.incnum.length := (incnum_count hs 0).2 (by simpa using hne)
  unfold run
  rw [hsrc]
  dsimp only
  rw [hn, h1]
  show (if e.vars = [] ∨ 0 ∈ S.shape then _ else _) = _
  rw [if_neg]
  rintro (h3 | h3)
  · exact he h3
  · rw [h2] at h3
    simp at h3
    omega

/-- C112: one of the arguments must be given. -/
theorem C112_missing (hsrc : h.src = .none) : h.run = .error .assertionError := by
  unfold run
  rw [hsrc]

/-! ### examples -/

/-- The cosine of the scattering-angle (`rt1/scatter.py` lines 14-60) as expression. -/
noncomputable def scatEx (a : ℝ × ℝ × ℝ) : Ex :=
  .bin (· + ·)
    (.bin (· + ·)
      (.bin (fun x y => a.1 * x * y) (.un cos (.var .theta0)) (.un cos (.var .thetaex)))
      (.bin (fun x y => a.2.1 * x * y) (.bin (· * ·) (.un sin (.var .theta0)) (.un sin (.var .thetaex)))
        (.bin (· * ·) (.un cos (.var .phi0)) (.un cos (.var .phiex)))))
    (.bin (fun x y => a.2.2 * x * y) (.bin (· * ·) (.un sin (.var .theta0)) (.un sin (.var .thetaex)))
      (.bin (· * ·) (.un sin (.var .phi0)) (.un sin (.var .phiex))))

theorem scatEx_eval (a : ℝ × ℝ × ℝ) (ρ : Var → ℝ) :
    (scatEx a).eval ρ = Rad.scatAngle a (ρ .theta0) (ρ .thetaex) (ρ .phi0) (ρ .phiex) := by
  simp only [scatEx, Ex.eval, Rad.scatAngle]
  ring

/-- `HG_nadirnorm(t=1/2)`, the angles 0, 30, 60 and a symbol for `NormBRDF`. -/
noncomputable def exHem : Hem where
  src := .R
  brdf := .un (Phase.hgNadir (1 / 2) 1) (scatEx (1, 1, 1))
  norm := .sym (.var (.param "N"))
  phi0 := 0
  t0step := 30
  t0min := 0
  t0max := 90
  N := 1000
  params := [("N", 1 / 2)]

theorem exHem_count : exHem.Count 3 := by
  intro j
  show j < 3 ↔ (0 : ℝ) + j * 30 < 90
  constructor
  · intro hj
    have : (j : ℝ) ≤ 2 := by exact_mod_cast (by omega : j ≤ 2)
    linarith
  · intro hj
    have : (j : ℝ) < 3 := by linarith
    exact_mod_cast this

theorem exHem_norm : exHem.HasNorm (scalar (1 / 2)) :=
  .sym (e := .var (.param "N")) rfl rfl (fun v hv => by
    simp only [Ex.vars, List.mem_cons, List.not_mem_nil, or_false] at hv
    exact ⟨"N", hv, by simp [exHem]⟩) (by
      unfold scalar
      simp [Ex.eval, paramVal, exHem])

theorem exHem_given : exHem.Given := fun k hk => by
  simp [exHem, Ex.vars, scatEx] at hk

theorem exHem_azim : exHem.Azimuthal := fun _ => by simp [exHem, Ex.vars, scatEx]

theorem exHem_smooth : exHem.Smooth := by
  intro j
  have hs : ∀ p : ℝ × ℝ, exHem.brdfAt (exHem.angle j) p.1 exHem.phi0 p.2 =
      Phase.hgNadir (1 / 2) 1 (Rad.scatAngle (1, 1, 1) (exHem.angle j) p.1 0 p.2) := fun p => by
    show Phase.hgNadir (1 / 2) 1 ((scatEx (1, 1, 1)).eval _) = _
    rw [scatEx_eval]
    rfl
  simp only [hs]
  have hle : ∀ p : ℝ × ℝ, Rad.scatAngle (1, 1, 1) (exHem.angle j) p.1 0 p.2 ≤ 1 := fun p => by
    simp only [Rad.scatAngle, cos_zero, sin_zero]
    nlinarith [sin_sq_add_cos_sq (exHem.angle j), sin_sq_add_cos_sq p.1, sin_sq_add_cos_sq p.2,
      sq_nonneg (cos (exHem.angle j) - cos p.1), sq_nonneg (sin (exHem.angle j) - sin p.1 * cos p.2),
      sq_nonneg (sin p.1 * sin p.2)]
  have hpos : ∀ p : ℝ × ℝ, 0 < 1 + (1 / 2 : ℝ) ^ 2 - 2 * (1 / 2) * Rad.scatAngle (1, 1, 1) (exHem.angle j) p.1 0 p.2 := fun p => by
    have := hle p
    linarith
  have hcs : Continuous fun p : ℝ × ℝ => Rad.scatAngle (1, 1, 1) (exHem.angle j) p.1 0 p.2 := by
    unfold Rad.scatAngle
    fun_prop
  apply Continuous.continuousOn
  unfold Phase.hgNadir
  have hden : Continuous fun p : ℝ × ℝ => (1 + (1 / 2 : ℝ) ^ 2 - 2 * (1 / 2) * Rad.scatAngle (1, 1, 1) (exHem.angle j) p.1 0 p.2) ^ (3 / 2 : ℝ) :=
    Continuous.rpow_const (by fun_prop) fun p => Or.inl (hpos p).ne'
  exact continuous_const.mul (continuous_const.div (continuous_const.mul hden) fun p =>
    mul_ne_zero pi_ne_zero (rpow_pos_of_pos (hpos p) _).ne')

example : ∃ A : Arr, exHem.run = .ok A ∧ A.shape = [3] ∧ ∀ i : Idx, i 0 < 3 →
    A.at i = 1 / 2 * simps2 (exHem.integrand (exHem.angle (i 0))) 0 (π / 2) 0 (2 * π) 1000 :=
  scalar_values ⟨exHem_given, exHem_azim, by simp [exHem]⟩ (by norm_num [exHem]) exHem_count exHem_norm

/-- The value for nadir incidence converges to `NormBRDF`, since the function is normalized. -/
example {ε : ℝ} (hε : 0 < ε) : ∃ N₀, ∀ N ≥ N₀, ∃ A : Arr, (withN exHem N).run = .ok A ∧ A.shape = [3] ∧ |A.at (fun _ => 0) - 1 / 2| < ε := by
  obtain ⟨N₀, hN₀⟩ := C112_converges_partial exHem_given exHem_azim exHem_smooth (by norm_num [exHem]) exHem_count exHem_norm hε
  refine ⟨N₀, fun N hN => ?_⟩
  obtain ⟨A, e1, e2, e3⟩ := hN₀ N hN
  refine ⟨A, e1, e2, ?_⟩
  have h1 : exHem.hemRefl 0 = 1 := by
    have ha : exHem.angle 0 = 0 := by simp [angle, exHem]
    unfold hemRefl
    rw [ha, ← Phase.C75_nadir_reflectance (t := 1 / 2) (a := (1, 1, 1)) (by norm_num [abs_lt]) (by norm_num) (by norm_num) (by norm_num) 0]
    congr 1
    funext t0 tex p0 pex
    show Phase.hgNadir (1 / 2) 1 ((scatEx (1, 1, 1)).eval _) = _
    rw [scatEx_eval]
    rfl
  have := e3 (fun _ => 0) (by norm_num)
  rwa [h1, mul_one] at this

example : ¬ (withN (lambert exHem) 1000).Warns := (C112_lambert_even_partial (by simp [exHem]) (by norm_num [exHem]) 499).1

example : (withN (lambert exHem) 1001).Warns :=
  (C112_lambert_odd_fails (m := 500) (by simp [exHem]) (by norm_num [exHem]) (by norm_num [exHem]) (by norm_num)).1

/-- `CosineLobe(i=1, a=[1, 0, 0])`: the function does not depend on the azimuth. -/
noncomputable def exLobe : Hem :=
  { exHem with brdf := .un (fun x => 1 / π * max 0 x) (.bin (· * ·) (.un cos (.var .theta0)) (.un cos (.var .thetaex))) }

example (theta0 : ℝ) : exLobe.value theta0 = .error .valueError :=
  C112_azimuth_fails (fun k hk => by simp [exLobe, Ex.vars] at hk) (by simp [exLobe, exHem]) (by simp [exLobe, Ex.vars])
    (by simp [exLobe, Ex.vars]) theta0

example : ({ exHem with src := .SRF } : Hem).run = .error .typeError :=
  C112_symbol_fails ⟨exHem_given, exHem_azim, by simp [exHem]⟩ (by norm_num [exHem]) (by norm_num [exHem]) rfl rfl (by simp [Ex.vars])

/-- Several values of `NormBRDF` in a column. -/
example : ∃ A : Arr, ({ exHem with norm := .num (colOf [1 / 2, 1 / 3]) } : Hem).run = .ok A ∧ Bc [[3], [1, 2]] A.shape := by
  obtain ⟨A, e1, e2, -⟩ := C112_values_partial (h := { exHem with norm := .num (colOf [1 / 2, 1 / 3]) })
    ⟨exHem_given, exHem_azim, by simp [exHem]⟩ (by norm_num [exHem]) exHem_count (.num (by simp [exHem]) rfl) ⟨[3, 2], fun s hs => by
      simp only [List.mem_cons, List.not_mem_nil, or_false] at hs
      rcases hs with rfl | rfl
      · refine ⟨by simp, fun a => ?_⟩
        match a with
        | 0 => simp
        | a + 1 => simp
      · refine ⟨by simp [colOf], fun a => ?_⟩
        match a with
        | 0 => simp [colOf]
        | 1 => simp [colOf]
        | a + 2 => simp [colOf]⟩
  exact ⟨A, e1, e2⟩

/-- A weighted sum of the normalized function and the Lambertian function. -/
example : ∃ A A₁ A₂ : Arr,
    (withBrdf exHem (.bin (fun x y => 1 / 4 * x + 1 / 2 * y) exHem.brdf (.const (1 / π)))).run = .ok A ∧
    (withBrdf exHem exHem.brdf).run = .ok A₁ ∧ (withBrdf exHem (.const (1 / π))).run = .ok A₂ ∧ A.shape = [3] ∧
      ∀ i : Idx, i 0 < 3 → A.at i = 1 / 4 * A₁.at i + 1 / 2 * A₂.at i :=
  C112_linear (by norm_num [exHem]) exHem_count exHem_norm (fun ρ => rfl)
    ⟨fun k hk => by simp [withBrdf, exHem, Ex.vars, scatEx] at hk, fun _ => by simp [withBrdf, exHem, Ex.vars, scatEx], by simp [withBrdf, exHem]⟩
    ⟨exHem_given, exHem_azim, by simp [withBrdf, exHem]⟩
    ⟨fun k hk => by simp [withBrdf, Ex.vars] at hk, fun hk => by simp [withBrdf, Ex.vars] at hk, by simp [withBrdf, exHem]⟩

example : ∃ A₁ A₂ : Arr, (withBrdf exHem (.const (1 / (2 * π)))).run = .ok A₁ ∧ (withBrdf exHem (.const (1 / π))).run = .ok A₂ ∧
    A₁.shape = [3] ∧ A₂.shape = [3] ∧ ∀ i : Idx, i 0 < 3 → 0 ≤ A₁.at i ∧ A₁.at i ≤ A₂.at i :=
  C112_monotone (by norm_num [exHem]) exHem_count (by norm_num) exHem_norm
    ⟨fun k hk => by simp [withBrdf, Ex.vars] at hk, fun hk => by simp [withBrdf, Ex.vars] at hk, by simp [withBrdf, exHem]⟩
    ⟨fun k hk => by simp [withBrdf, Ex.vars] at hk, fun hk => by simp [withBrdf, Ex.vars] at hk, by simp [withBrdf, exHem]⟩
    fun j _ θ _ φ _ => ⟨by show (0 : ℝ) ≤ 1 / (2 * π); positivity, by
      show 1 / (2 * π) ≤ 1 / π
      exact one_div_le_one_div_of_le pi_pos (by linarith [pi_pos])⟩

/-- The Lambertian surface with `NormBRDF=2`. -/
example : ∃ N₀, ∀ N ≥ N₀, (withN { lambert exHem with norm := .num (scalar 2) } N).Warns := by
  obtain ⟨N₀, hN₀⟩ := C112_warning_partial (h := { lambert exHem with norm := .num (scalar 2) }) (n := 3) (c := 2)
    (fun k hk => by simp [lambert, Ex.vars] at hk) (fun hk => by simp [lambert, Ex.vars] at hk)
    (fun j => by
      show ContinuousOn (fun _ : ℝ × ℝ => 1 / π) _
      exact continuousOn_const) (by norm_num [lambert, exHem]) exHem_count (.num (by simp [lambert, exHem]) rfl)
    (fun j _ => by
      have : ({ lambert exHem with norm := .num (scalar 2) } : Hem).hemRefl j = 1 := lambert_refl (h := exHem) j
      rw [this]
      norm_num)
  refine ⟨N₀, fun N hN => (hN₀ N hN).2 ⟨0, by norm_num, ?_⟩⟩
  have : ({ lambert exHem with norm := .num (scalar 2) } : Hem).hemRefl 0 = 1 := lambert_refl (h := exHem) 0
  rw [this]
  norm_num

end RT1.HemReflect
