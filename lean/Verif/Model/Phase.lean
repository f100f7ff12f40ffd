import Verif.Model.Fn
import Mathlib.Analysis.SpecialFunctions.Gamma.Basic
import Mathlib.Analysis.SpecialFunctions.Pow.Real

/-!
# Model of the phase functions and BRDFs (`rt1/volume.py`, `rt1/surface.py`)

A phase function is modelled as a function of the generalised scattering angle cosine `x` (the value of
`scat_angle(...)`); `_func` and `_func_numeric` are the same formula.  `legcoefs` is the sympy expression with the
symbol `n` replaced by a natural number.
-/

namespace RT1.Phase

open Real RT1.Rad RT1.Fn

/-- `sp.KroneckerDelta(i, n)` -/
def kronecker (i n : ℕ) : ℝ := if i = n then 1 else 0

/-- `Rayleigh._func` (`rt1/volume.py` lines 629-638). -/
noncomputable def rayleigh (x : ℝ) : ℝ := 3 / (16 * π) * (1 + x ^ 2)

/-- `Rayleigh.legcoefs` (`rt1/volume.py` lines 640-655). -/
noncomputable def rayleighLeg (n : ℕ) : ℝ := 3 / (16 * π) * (4 / 3 * kronecker 0 n + 2 / 3 * kronecker 2 n)

/-- `Rayleigh.ncoefs` (`rt1/volume.py` lines 622-627). -/
def rayleighNcoefs : ℕ := 3

/-- `HenyeyGreenstein._func`, `_func_numeric` of the volume class (`rt1/volume.py` lines 703-728). -/
noncomputable def hgV (t x : ℝ) : ℝ := (1 - t ^ 2) / (4 * π * (1 + t ^ 2 - 2 * t * x) ^ (3 / 2 : ℝ))

/-- `HenyeyGreenstein.legcoefs` of the volume class (`rt1/volume.py` lines 730-737). -/
noncomputable def hgVLeg (t : ℝ) (n : ℕ) : ℝ := 1 / (4 * π) * (2 * n + 1) * t ^ n

/-- `HGRayleigh._func` (`rt1/volume.py` lines 790-810). -/
noncomputable def hgRay (t x : ℝ) : ℝ :=
  3 / (8 * π) * (1 / (2 + t ^ 2) * (1 + x ^ 2) * (1 - t ^ 2) / (1 + t ^ 2 - 2 * t * x) ^ (3 / 2 : ℝ))

/-- `HGRayleigh.legcoefs` (`rt1/volume.py` lines 812-845). -/
noncomputable def hgRayLeg (t : ℝ) (n : ℕ) : ℝ :=
  if n < 2 then
    3 / (8 * π) * 1 / (2 + t ^ 2) *
      (((n : ℝ) + 2) * (n + 1) / (2 * n + 3) * t ^ (n + 2) + ((n : ℝ) + 1) ^ 2 / (2 * n + 3) * t ^ n
        + (5 * (n : ℝ) ^ 2 - 1) / (2 * n - 1) * t ^ n)
  else
    3 / (8 * π) * 1 / (2 + t ^ 2) *
      ((n : ℝ) * (n - 1) / (2 * n - 1) * t ^ (n - 2)
        + ((n : ℝ) + 2) * (n + 1) / (2 * n + 3) * t ^ (n + 2) + ((n : ℝ) + 1) ^ 2 / (2 * n + 3) * t ^ n
        + (5 * (n : ℝ) ^ 2 - 1) / (2 * n - 1) * t ^ n)

/-- `Isotropic._func` (`rt1/surface.py` lines 608-612). -/
noncomputable def isotropic (_x : ℝ) : ℝ := 1 / π

/-- `Isotropic.legcoefs` (`rt1/surface.py` lines 602-606). -/
noncomputable def isotropicLeg (n : ℕ) : ℝ := 1 / π * kronecker 0 n

/-- `Isotropic.ncoefs` (`rt1/surface.py` lines 595-600). -/
def isotropicNcoefs : ℕ := 1

/-- `CosineLobe._func` (`rt1/surface.py` lines 688-709); the power `i` is a natural number (asserted in
`__init__`). -/
noncomputable def cosineLobe (i : ℕ) (x : ℝ) : ℝ := 1 / π * (x * (1 + SignType.sign x) / 2) ^ i

/-- `CosineLobe.legcoefs` (`rt1/surface.py` lines 663-686).  sympy's `gamma` is `zoo` at the poles and `1/zoo = 0`;
Mathlib's `Gamma` is 0 at the poles and `1/0 = 0`, so the quotient is the same. -/
noncomputable def cosineLobeLeg (i n : ℕ) : ℝ :=
  1 / π * ((2 : ℝ) ^ (-2 - (i : ℝ)) * (1 + 2 * n) * √π * Gamma (1 + i) /
    (Gamma ((2 - n + i) * (1 / 2)) * Gamma ((3 + n + i) * (1 / 2))))

/-- `HenyeyGreenstein._func` of the surface class (`rt1/surface.py` lines 753-769). -/
noncomputable def hgS (t x : ℝ) : ℝ := 1 * (1 - t ^ 2) / (π * (1 + t ^ 2 - 2 * t * x) ^ (3 / 2 : ℝ))

/-- `HenyeyGreenstein.legcoefs` of the surface class (`rt1/surface.py` lines 771-775). -/
noncomputable def hgSLeg (t : ℝ) (n : ℕ) : ℝ := 1 * (1 / π) * (2 * n + 1) * t ^ n

/-- `nadir_hemreflect` (`rt1/surface.py` lines 831-846, 866-879, 889-904). -/
noncomputable def nadirHemreflect (t a0 : ℝ) : ℝ :=
  4 * ((1 - t ^ 2) * (1 - t * (-t + a0) - √((1 + t ^ 2 - 2 * a0 * t) * (1 + t ^ 2))) /
    (2 * a0 ^ 2 * t ^ 2 * √(1 + t ^ 2 - 2 * a0 * t)))

/-- `HG_nadirnorm._func`, `_func_numeric` (`rt1/surface.py` lines 819-885). -/
noncomputable def hgNadir (t a0 x : ℝ) : ℝ :=
  1 / nadirHemreflect t a0 * ((1 - t ^ 2) / (π * (1 + t ^ 2 - 2 * t * x) ^ (3 / 2 : ℝ)))

/-- `HG_nadirnorm.legcoefs` (`rt1/surface.py` lines 887-913). -/
noncomputable def hgNadirLeg (t a0 : ℝ) (n : ℕ) : ℝ := 1 / nadirHemreflect t a0 * (1 / π * (2 * n + 1) * t ^ n)

/-! ## Linear combinations -/

/-- A phase function or BRDF object that is not a linear combination: its function of the four angles
(`t_0, t_ex, p_0, p_ex`), its Legendre coefficients, the number of coefficients and the weights of the
generalised scattering angle. -/
structure Comp where
  func : ℝ → ℝ → ℝ → ℝ → ℝ
  legcoefs : ℕ → ℝ
  ncoefs : ℕ
  a : ℝ × ℝ × ℝ

/-- The combined object returned by `_Vcombiner` / `_SRFcombiner`: function, number of coefficients and the
Legendre expansion (as function of the angle pair that is not integrated over). -/
structure Combined where
  func : ℝ → ℝ → ℝ → ℝ → ℝ
  ncoefs : ℕ
  legexp : ℝ → ℝ → Expr

/-- `equals` (`rt1/volume.py` lines 530-538, `rt1/surface.py` lines 528-536): for every component the indices of the
components with equal weights `a`. -/
noncomputable def equals (cs : List (ℝ × Comp)) : List (List ℕ) :=
  cs.map fun V => by
    classical
    exact (List.range cs.length).filter fun j => decide ((cs.map fun VV => VV.2.a)[j]? = some V.2.a)

/-- The dummy object of one group (`rt1/volume.py` lines 556-573, `rt1/surface.py` lines 545-562): `np.take` selects the
components, `ncoefs` is the maximum in the group, `legcoefs` is the weighted sum, `a` is the one of the last component;
the result is the Legendre expansion of the dummy object. -/
noncomputable def groupLegexp (cs : List (ℝ × Comp)) (g : List ℕ) (t p : ℝ) : Expr :=
  let sel := g.filterMap fun j => cs[j]?
  let ncoefs := (sel.map fun V => V.2.ncoefs).foldl max 0
  let legcoefs := sel.foldl (fun (acc : ℕ → ℝ) V => fun n => acc n + V.2.legcoefs n * V.1) (fun _ => 0)
  let a := sel.foldl (fun _ V => V.2.a) (1, 1, 1)
  legexpansion legcoefs ncoefs (scatExpr a t p)

/-- `_Vcombiner` / `_SRFcombiner` (`rt1/volume.py` lines 498-591, `rt1/surface.py` lines 489-575).  `equalA` is
`list({tuple(row) for row in equals})`: the distinct rows in the arbitrary order of the python set.  `max` of an empty
list raises ValueError.  Not modelled: tau, omega, NormBRDF of the combined object (copied unchanged). -/
noncomputable def combine (equalA : List (List ℕ)) (cs : List (ℝ × Comp)) : Except PyErr Combined :=
  if cs.isEmpty then .error .valueError
  else .ok
    { func := cs.foldl (fun (f : ℝ → ℝ → ℝ → ℝ → ℝ) V => fun t0 tex p0 pex => f t0 tex p0 pex + V.2.func t0 tex p0 pex * V.1)
        (fun _ _ _ _ => 0)
      ncoefs := (cs.map fun V => V.2.ncoefs).foldl max 0
      legexp := fun t p => equalA.flatMap fun g => groupLegexp cs g t p }

/-- The kinds of objects that can appear as component of a linear combination. -/
inductive Obj
  | leaf (c : Comp)
  | lincombV (cs : List (ℝ × Comp))
  | lincombSRF (cs : List (ℝ × Comp))

/-- Reading the attributes `ncoefs` and `legcoefs` of a component as `_Vcombiner` / `_SRFcombiner` do
(`rt1/volume.py` lines 546, 571; `rt1/surface.py` lines 521, 560): a `LinCombV` has neither attribute (its
`_set_legexpansion` is never called), a `LinCombSRF` has no `legcoefs`. -/
def Obj.asComp : Obj → Except PyErr Comp
  | .leaf c => .ok c
  | .lincombV _ => .error .attributeError
  | .lincombSRF _ => .error .attributeError

/-- `_Vcombiner` / `_SRFcombiner` for components of any kind. -/
noncomputable def combineObj (equalA : List (List ℕ)) (cs : List (ℝ × Obj)) : Except PyErr Combined :=
  match cs.mapM fun (w, o) => (o.asComp.map fun c => (w, c)) with
  | .error e => .error e
  | .ok l => combine equalA l

/-- `V.legexpansion` of a `LinCombV` as used by `RT1.fn`: the inherited `Volume.legexpansion` starts with
`assert self.ncoefs > 0` (`rt1/volume.py` line 368) and the attribute was never set. -/
def lincombVLegexp (_cs : List (ℝ × Comp)) (_t _p : ℝ) : Except PyErr Expr := .error .attributeError

/-- The fn-coefficients (`rt1/rt1.py` lines 272-304 and 314-386) for a single volume phase function and a surface given
as linear combination. -/
noncomputable def fnCoefsComb (V : Comp) (S : Combined) (ang : Angles) : Except PyErr (List ℝ) :=
  let volexp := legexpansion V.legcoefs V.ncoefs (scatExpr V.a (π - ang.theta0) ang.phi0)
  let brdfexp := S.legexp ang.thetaex ang.phiex
  (extractCoefficients (S.ncoefs + V.ncoefs - 1) (interactionExpansion (S.ncoefs + V.ncoefs) volexp brdfexp)).mapM evalClosed

end RT1.Phase
