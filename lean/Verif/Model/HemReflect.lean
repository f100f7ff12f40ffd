import Verif.Model.Arrays
import Mathlib.Algebra.Order.Floor.Semiring
import Mathlib.Data.Real.Archimedean

/-!
# Model of the hemispherical reflectance (`hemreflect`, `rt1/rtplots.py` lines 265-410)

The numbers are exact reals, shapes and exceptions are explicit (`Model/Arrays`).
-/

namespace RT1.HemReflect
open General Arrays

/-! ## numpy and scipy -/

/-- `np.arange(a, b, s)` for `s ≠ 0`: `ceil((b - a) / s)` numbers. -/
noncomputable def arange (a b s : ℝ) : List ℝ := (List.range ⌈(b - a) / s⌉₊).map fun i : Nat => a + i * s

/-- The `i`-th of the `N` numbers `np.linspace(a, b, N)`. -/
noncomputable def linspace (a b : ℝ) (N i : Nat) : ℝ := a + i * ((b - a) / (N - 1))

/-- One summand of scipy's `_basic_simpson(y, start, stop, x, dx, axis)` (formula for irregularly spaced samples, since `x` is given);
`i` is the position of the first of the three samples. -/
noncomputable def panel (y x : Nat → ℝ) (i : Nat) : ℝ :=
  let h0 := x (i + 1) - x i
  let h1 := x (i + 2) - x (i + 1)
  let hsum := h0 + h1
  let hprod := h0 * h1
  let h0divh1 := h0 / h1
  hsum / 6 * (y i * (2 - 1 / h0divh1) + y (i + 1) * (hsum * hsum / hprod) + y (i + 2) * (2 - h0divh1))

/-- `_basic_simpson(y, start, stop, x, dx, axis)`: the positions `start, start + 2, …` before `stop`. -/
noncomputable def basicSimps (y x : Nat → ℝ) (start stop : Nat) : ℝ :=
  ∑ k ∈ Finset.range ((stop - start + 1) / 2), panel y x (start + 2 * k)

/-- `scipy.integrate.simps(y, x)` for `N ≥ 1` samples (`even='avg'`): for an even number of samples the average of two results, in which
the last or the first interval is treated with the trapezoidal rule. -/
noncomputable def simps (y x : Nat → ℝ) (N : Nat) : ℝ :=
  if N % 2 = 0 then
    (basicSimps y x 0 (N - 3) + basicSimps y x 1 (N - 2)) / 2 +
      ((x (N - 1) - x (N - 2)) * (y (N - 1) + y (N - 2)) / 2 + (x 1 - x 0) * (y 1 + y 0) / 2) / 2
  else basicSimps y x 0 (N - 2)

/-- `simps(Y, x)` for an array `Y` and `n` positions `x`: the last axis of `Y` is integrated and must have the length of `x`. -/
noncomputable def simpsV (x : Nat → ℝ) (n : Nat) : NpV → NpV
  | .error e => .error e
  | .ok Y =>
    match Y.shape with
    | [] => .error .indexError
    | N :: s =>
      if N ≠ n then .error .valueError
      else if N = 0 then .error .indexError
      else .ok ⟨s, fun i => simps (fun k => Y.at fun a => if a = 0 then k else i (a - 1)) x N⟩

/-! ## the function -/

/-- The attribute `NormBRDF`: numbers (a number or an array of numbers) or a sympy-expression. -/
inductive Norm
  | num (A : Arr)
  | sym (e : Ex)

/-- Which of the arguments is given. -/
inductive Src
  | R | SRF | none
deriving DecidableEq

/-- The arguments of `hemreflect`; `brdf` and `norm` are the function and the attribute `NormBRDF` of `R.SRF` or `SRF`, `param_dict`
contains numbers. -/
structure Hem where
  src : Src
  brdf : Ex
  norm : Norm
  phi0 : ℝ
  t0step : ℝ
  t0min : ℝ
  t0max : ℝ
  N : Nat
  params : List (String × ℝ)

namespace Hem
variable (h : Hem)

/-- `param_dict` as arrays without axes. -/
def paramArrs : List (String × Arr) := h.params.map fun kv => (kv.1, ⟨[], fun _ => kv.2⟩)

/-- The values of the symbols of `NormBRDF`. -/
def paramVal : Var → ℝ
  | .param k => match (h.params.find? fun kv => decide (kv.1 = k)) with
    | some kv => kv.2
    | none => 0
  | _ => 0

/-- All symbols of an expression are keys of `param_dict`. -/
def known (e : Ex) : Bool := e.vars.all fun v =>
  match v with
  | .param k => (h.params.map Prod.fst).contains k
  | _ => false

/-- The number `NormBRDF` (lines 326-345).  The bodies of the `try`-blocks raise an exception for numbers (no attribute `free_symbols`),
for symbols without value (KeyError), and, if only `SRF` is given, for all sympy-expressions (they have no elements); in these cases the
attribute is used as it is. -/
noncomputable def normR : Norm → Norm
  | .num A => .num A
  | .sym e => if h.known e then .num ⟨[], fun _ => e.eval h.paramVal⟩ else .sym e

/-- See `normR`. -/
def normSRF (_h : Hem) : Norm → Norm
  | .num A => .num A
  | .sym e => .sym e

/-- `x[:, None]` (lines 352, 376) -/
noncomputable def xArr : Arr := ⟨[1, h.N], fun i => linspace 0 (Real.pi / 2) h.N (i 1)⟩

/-- `y` (line 353) -/
noncomputable def yArr : Arr := ⟨[h.N], fun i => linspace 0 (2 * Real.pi) h.N (i 0)⟩

/-- `integfunkt(x[:, None], y)` (lines 368-376); `BRDF` is `Surface.brdf`. -/
noncomputable def z (theta0 : ℝ) : NpV :=
  mapV Real.sin (arr h.xArr) * mapV Real.cos (arr h.xArr) *
    callFn h.brdf ⟨⟨[], fun _ => theta0⟩, h.xArr, ⟨[], fun _ => h.phi0⟩, h.yArr, h.paramArrs⟩

/-- `simps(simps(z, y), x)` (line 377) -/
noncomputable def value (theta0 : ℝ) : NpV :=
  simpsV (linspace 0 (Real.pi / 2) h.N) h.N (simpsV (linspace 0 (2 * Real.pi) h.N) h.N (h.z theta0))

/-- `incnum` (line 349) -/
noncomputable def incnum : List ℝ := arange h.t0min h.t0max h.t0step

/-- `np.deg2rad` -/
noncomputable def deg2rad (x : ℝ) : ℝ := x * (Real.pi / 180)

/-- The array `np.array(sol)` before the multiplication with `NormBRDF` (lines 355-379). -/
noncomputable def sol : NpV := stackV (h.incnum.map fun t => h.value (deg2rad t))

/-- `np.array(sol) * NormBRDF` and `np.any(sol > 1.0)` (lines 379-383): the product with an expression that contains symbols is an array of
expressions, and the comparison raises a TypeError (unless there are no elements). -/
noncomputable def scaled (s : NpV) : Norm → NpV
  | .num A => s * arr A
  | .sym e =>
    match s with
    | .error err => .error err
    | .ok S => if e.vars = [] ∨ 0 ∈ S.shape then s * lit (e.eval h.paramVal) else .error .typeError

/-- The array returned with `returnarray=True` (lines 326-386). -/
noncomputable def run : NpV :=
  match h.src with
  | .R => h.scaled h.sol (h.normR h.norm)
  | .SRF => h.scaled h.sol (h.normSRF h.norm)
  | .none => .error .assertionError

/-- The position `i` is one of an array of this shape. -/
def InShape (s : Shape) (i : Idx) : Prop := ∀ a, i a < s.getD a 1

/-- A message is printed (lines 382-383). -/
def Warns : Prop :=
  match h.run with
  | .ok A => ∃ i, InShape A.shape i ∧ A.at i > 1
  | .error _ => False

end Hem
end RT1.HemReflect
