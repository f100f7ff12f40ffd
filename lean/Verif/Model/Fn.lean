import Verif.Model.RT1
import Mathlib.Data.Nat.Choose.Basic

/-!
# Model of the fn-coefficient generation (`rt1/rt1.py` lines 459-658, `rt1/volume.py`/`rt1/surface.py` `legexpansion`)

The code manipulates sympy expressions.  After `expand(...)` an expression is a sum of monomials in
`cos(theta_s), sin(theta_s), cos(phi_s), sin(phi_s)` whose coefficients contain the remaining symbols
(`theta_0, phi_0, theta_ex, phi_ex`, additional parameters).  The model fixes the values of the remaining symbols, so a
coefficient is a real number; an expanded expression is a list of monomials.  Simplified: sympy collects equal
monomials, the lists do not (all steps act on every monomial separately, so collecting has no effect on values).
-/

namespace RT1.Fn

open Real RT1.Rad

/-- A monomial `c * cos(theta_s)**ct * sin(theta_s)**st * cos(phi_s)**cp * sin(phi_s)**sp` of an expanded
expression. -/
structure Mono where
  c : ℝ
  ct : ℕ
  st : ℕ
  cp : ℕ
  sp : ℕ

/-- A fully expanded expression (the result of `expand`, `rt1/rt1.py` lines 23-40). -/
abbrev Expr := List Mono

/-- The number denoted by a monomial for given `theta_s`, `phi_s`. -/
noncomputable def Mono.eval (m : Mono) (θ φ : ℝ) : ℝ :=
  m.c * cos θ ^ m.ct * sin θ ^ m.st * cos φ ^ m.cp * sin φ ^ m.sp

/-- The number denoted by an expression for given `theta_s`, `phi_s`. -/
noncomputable def eval (e : Expr) (θ φ : ℝ) : ℝ := (e.map fun m => m.eval θ φ).sum

/-- Product of two monomials (sympy combines equal bases automatically). -/
def Mono.mul (m n : Mono) : Mono := ⟨m.c * n.c, m.ct + n.ct, m.st + n.st, m.cp + n.cp, m.sp + n.sp⟩

/-- `expand(a * b)` for expanded `a`, `b`. -/
def mul (a b : Expr) : Expr := a.flatMap fun m => b.map fun n => m.mul n

/-- `expand(r * a)` for a number `r`. -/
def smul (r : ℝ) (a : Expr) : Expr := a.map fun m => { m with c := r * m.c }

/-- `scat_angle(t, theta_s, p, phi_s, a)` (equally `scat_angle(theta_s, t, phi_s, p, a)`) as expanded expression
(`rt1/scatter.py` lines 51-55, called in `rt1/volume.py` line 444 with `t = pi - theta_0`, `p = phi_0` and in
`rt1/surface.py` line 267 with `t = theta_ex`, `p = phi_ex`). -/
noncomputable def scatExpr (a : ℝ × ℝ × ℝ) (t p : ℝ) : Expr :=
  [⟨a.1 * cos t, 1, 0, 0, 0⟩, ⟨a.2.1 * sin t * cos p, 0, 1, 1, 0⟩, ⟨a.2.2 * sin t * sin p, 0, 1, 0, 1⟩]

/-- The expansion of `sp.legendre(n, x)`: sympy's Legendre polynomials by Bonnet's recursion
`(n+2) P_{n+2} = (2n+3) x P_{n+1} - (n+1) P_n`. -/
noncomputable def legExpr (x : Expr) : ℕ → Expr
  | 0 => [⟨1, 0, 0, 0, 0⟩]
  | 1 => x
  | n + 2 => smul ((2 * n + 3) / (n + 2)) (mul x (legExpr x (n + 1))) ++ smul (-((n + 1) / (n + 2))) (legExpr x n)

/-- `legexpansion(...).doit()` expanded (`rt1/volume.py` lines 436-446, `rt1/surface.py` lines 258-270):
`Sum(legcoefs * legendre(n, scat_angle), (n, 0, NP - 1))`.  `legcoefs n` is the coefficient for the index `n`. -/
noncomputable def legexpansion (legcoefs : ℕ → ℝ) (ncoefs : ℕ) (x : Expr) : Expr :=
  (List.range ncoefs).flatMap fun n => smul (legcoefs n) (legExpr x n)

/-- `_cosintegral(i)` (`rt1/rt1.py` lines 575-596). -/
noncomputable def cosintegral (i : ℕ) : ℝ :=
  if i % 2 = 0 then ((2 : ℝ) ^ i)⁻¹ * (i.choose (i / 2)) else 0

/-- `expand((1 - y**2) ** h)` as list of (coefficient, exponent of `y`), used for `y = cos(phi_s)` (line 637) and
`y = cos(theta_s)` (line 566). -/
def expandOneSubSq (h : ℕ) : List (ℝ × ℕ) :=
  (List.range (h + 1)).map fun j => ((-1) ^ j * (h.choose j : ℝ), 2 * j)

/-- First replacement in `_integrate_0_2pi_phis` (`rt1/rt1.py` lines 625-645) applied to one monomial,
`N = SRF.ncoefs + V.ncoefs`: odd powers of `sin(phi_s)` up to `N` are replaced by 0, even powers from 2 up to `N` by
`(1 - cos**2) ** (i/2)`; other powers are not in the replacement dictionary. -/
noncomputable def replSinPhi (N : ℕ) (m : Mono) : Expr :=
  if m.sp % 2 = 1 ∧ 1 ≤ m.sp ∧ m.sp ≤ N then []
  else if m.sp % 2 = 0 ∧ 2 ≤ m.sp ∧ m.sp ≤ N then
    (expandOneSubSq (m.sp / 2)).map fun (c, e) => { m with c := m.c * c, cp := m.cp + e, sp := 0 }
  else [m]

/-- Second replacement in `_integrate_0_2pi_phis` (`rt1/rt1.py` lines 651-657): `cos(phi_s)**i` is replaced by
`_cosintegral(i)` for `1 ≤ i ≤ N`; sympy drops a monomial that is multiplied with `0.0`, the value for odd `i`. -/
noncomputable def replCosPhi (N : ℕ) (m : Mono) : Expr :=
  if 1 ≤ m.cp ∧ m.cp ≤ N then
    if m.cp % 2 = 1 then [] else [{ m with c := m.c * cosintegral m.cp, cp := 0 }]
  else [m]

/-- `_integrate_0_2pi_phis(expr)` (`rt1/rt1.py` lines 598-658). -/
noncomputable def integratePhis (N : ℕ) (e : Expr) : Expr := (e.flatMap (replSinPhi N)).flatMap (replCosPhi N)

/-- The replacement of `sin(theta_s)**i` in `_calc_interaction_expansion` (`rt1/rt1.py` lines 560-571): even
`i` in `range(1, N - 1)`. -/
noncomputable def replSinTheta (N : ℕ) (m : Mono) : Expr :=
  if m.st % 2 = 0 ∧ 1 ≤ m.st ∧ m.st < N - 1 then
    (expandOneSubSq (m.st / 2)).map fun (c, e) => { m with c := m.c * c, ct := m.ct + e, st := 0 }
  else [m]

/-- `_calc_interaction_expansion()` (`rt1/rt1.py` lines 517-573) given the expansions of volume and surface. -/
noncomputable def interactionExpansion (N : ℕ) (volexp brdfexp : Expr) : Expr :=
  let fPoly := smul (2 * π) (mul volexp brdfexp)
  let expr := integratePhis N fPoly
  expr.flatMap (replSinTheta N)

/-- `expr.xreplace({cos(theta_s): 0})` (`rt1/rt1.py` line 488): every monomial with a positive power of
`cos(theta_s)` vanishes. -/
def repl0 (e : Expr) : Expr := e.filter fun m => m.ct = 0

/-- `expr.xreplace(repl1)` (`rt1/rt1.py` lines 492-496): `cos**i → 0` for `2 ≤ i ≤ N_fn`, `cos → 1` (also inside
higher powers, which are not in the dictionary). -/
def repl1 (Nfn : ℕ) (e : Expr) : Expr :=
  (e.filter fun m => ¬ (2 ≤ m.ct ∧ m.ct ≤ Nfn)).map fun m => { m with ct := 0 }

/-- `expr.xreplace({cos(theta_s)**n: 1}).xreplace({cos(theta_s): 0})` (`rt1/rt1.py` lines 500-501), `n ≥ 2`. -/
def repln (n : ℕ) (e : Expr) : Expr := repl0 (e.map fun m => if m.ct = n then { m with ct := 0 } else m)

/-- `a - b` -/
def sub (a b : Expr) : Expr := a ++ smul (-1) b

/-- `_extract_coefficients(expr)` (`rt1/rt1.py` lines 459-515), `N_fn = SRF.ncoefs + V.ncoefs - 1`. -/
def extractCoefficients (Nfn : ℕ) (e : Expr) : List Expr :=
  [repl0 e, sub (repl1 Nfn e) (repl0 e)] ++
    (List.range' 2 (Nfn - 2)).map fun n => sub (repln n e) (repl0 e)

/-- Numerical evaluation of one coefficient by the generated functions (`rt1/rt1.py` lines 314-386): a
coefficient in which one of the symbols `theta_s`, `phi_s` is left cannot be evaluated (NameError, here
`runtimeError`). -/
noncomputable def evalClosed (e : Expr) : Except PyErr ℝ :=
  if e.all (fun m => m.ct = 0 ∧ m.st = 0 ∧ m.cp = 0 ∧ m.sp = 0) then .ok ((e.map Mono.c).sum) else .error .runtimeError

/-- The fn-coefficients (`rt1/rt1.py` lines 272-304 and 314-386: `fn` followed by `_fnevals`) for given values of the
four angles.  `legV`, `legS`, `nV`, `nS`, `aV`, `aS` are `legcoefs`, `ncoefs` and `a` of the volume and
surface object. -/
noncomputable def fnCoefs (legV legS : ℕ → ℝ) (nV nS : ℕ) (aV aS : ℝ × ℝ × ℝ) (ang : Angles) : Except PyErr (List ℝ) :=
  let volexp := legexpansion legV nV (scatExpr aV (π - ang.theta0) ang.phi0)
  let brdfexp := legexpansion legS nS (scatExpr aS ang.thetaex ang.phiex)
  (extractCoefficients (nS + nV - 1) (interactionExpansion (nS + nV) volexp brdfexp)).mapM evalClosed

end RT1.Fn
