import Mathlib.Analysis.SpecialFunctions.Log.Base
import Mathlib.Analysis.SpecialFunctions.Trigonometric.Inverse
import Mathlib.Analysis.SpecialFunctions.Trigonometric.Deriv
import Verif.Model.General

/-!
# Model of `rt1/rt1.py` (class `RT1`) and `rt1/scatter.py`

One array element at a time: all quantities of an `Elem` are real numbers (the broadcast values of one pixel).
Floating point numbers are modelled by exact reals.  sympy's `diff` and `lambdify` are represented by the fields
`brdfDiff`, `pDiff`, `dbrdf`, `dp`; the theorems that need it assume that these are the derivatives.
-/

namespace RT1.Rad

open Real

/-- Signature of a phase function: `f(t_0, t_ex, p_0, p_ex)`. -/
abbrev AngFn := ℝ → ℝ → ℝ → ℝ → ℝ

/-- The values of the additional symbols (`param_dict`). -/
abbrev Env := String → ℝ

/-- One element of the arrays of an `RT1` object (`rt1/rt1.py` lines 124-200: the attributes assigned in
`__init__`), together with the functions provided by the `V` and `SRF` objects:
`brdf`, `p` (`SRF.brdf`, `V.p`), `brdfDiff n`, `pDiff n` (`brdf_theta_diff`, `p_theta_diff` with
`geometry="mono"`), `dbrdf key`, `dp key` (`_d_surface_dummy_lambda(key)`, `_d_volume_dummy_lambda(key)`, lines
1539-1585), `fn` (all-variable fn-coefficients `_fnevals` as function of
`theta_0, phi_0, theta_ex, phi_ex`). -/
structure Elem where
  I0 : ℝ
  tau : ℝ
  omega : ℝ
  NormBRDF : ℝ
  bsf : ℝ
  t0 : ℝ
  tex : ℝ
  p0 : ℝ
  pex : ℝ
  env : Env
  keys : List String
  brdf : Env → AngFn
  p : Env → AngFn
  brdfDiff : ℕ → Env → AngFn
  pDiff : ℕ → Env → AngFn
  dbrdf : String → Env → AngFn
  dp : String → Env → AngFn

namespace Elem

variable (o : Elem)

/-- `_get_mu_0` (`rt1/rt1.py` lines 449-452). -/
noncomputable def mu0 : ℝ := cos o.t0

/-- `_get_mu_ex` (`rt1/rt1.py` lines 454-457). -/
noncomputable def muex : ℝ := cos o.tex

/-- `self.SRF.brdf(self.t_0, self.t_ex, self.p_0, self.p_ex, param_dict)`. -/
def brdfVal : ℝ := o.brdf o.env o.t0 o.tex o.p0 o.pex

/-- `self.V.p(self.t_0, self.t_ex, self.p_0, self.p_ex, param_dict)`. -/
def pVal : ℝ := o.p o.env o.t0 o.tex o.p0 o.pex

/-- `self.SRF.brdf_theta_diff(..., geometry="mono", n=n)`: the arguments `t_ex`, `p_ex` are replaced by
`t_0`, `p_0 + pi` in `brdf_theta_diff` (`rt1/surface.py` lines 272-443, like `rt1/volume.py` lines 200-214). -/
noncomputable def brdfSlope (n : ℕ) : ℝ := o.brdfDiff n o.env o.t0 o.t0 o.p0 (o.p0 + π)

/-- `self.V.p_theta_diff(..., geometry="mono", n=n)` (`rt1/volume.py` lines 137-308). -/
noncomputable def pSlope (n : ℕ) : ℝ := o.pDiff n o.env o.t0 o.t0 o.p0 (o.p0 + π)

/-! ## Contributions -/

/-- `surface` (`rt1/rt1.py` lines 722-748). -/
noncomputable def surface : ℝ :=
  let I_bs := o.I0 * o.mu0 * o.brdfVal
  let Isurf := exp (-(o.tau / o.mu0) - (o.tau / o.muex)) * I_bs
  o.NormBRDF * ((1 - o.bsf) * Isurf + o.bsf * I_bs)

/-- `volume` (`rt1/rt1.py` lines 926-949). -/
noncomputable def volume : ℝ :=
  let vol := (o.I0 * o.omega * o.mu0 / (o.mu0 + o.muex))
    * (1 - exp (-(o.tau / o.mu0) - (o.tau / o.muex))) * o.pVal
  (1 - o.bsf) * vol

/-! ## Slopes and curvatures -/

/-- The conversion of a slope to the requested unit, repeated at the end of `surface_slope` (lines 806-817),
`volume_slope` (lines 1011-1022) and `tot_slope` (lines 1150-1161) of `rt1/rt1.py`. -/
noncomputable def unitSlope (I_slope I_val : ℝ) (dB sig0 : Bool) : ℝ :=
  if sig0 = false ∧ dB = false then I_slope
  else if sig0 = true ∧ dB = false then 4 * π * (o.mu0 * I_slope - sin o.t0 * I_val)
  else if sig0 = false ∧ dB = true then 10 / log 10 * I_slope / I_val
  else 10 / log 10 * (I_slope / I_val - tan o.t0)

/-- The conversion of a curvature to the requested unit, repeated at the end of `surface_curv`
(lines 904-924), `volume_curv` (lines 1104-1124) and `tot_curv` (lines 1190-1213) of `rt1/rt1.py`. -/
noncomputable def unitCurv (I_curv I_slope I_val : ℝ) (dB sig0 : Bool) : ℝ :=
  if sig0 = false ∧ dB = false then I_curv
  else if sig0 = true ∧ dB = false then
    4 * π * (o.mu0 * I_curv - 2 * sin o.t0 * I_slope - o.mu0 * I_val)
  else if sig0 = false ∧ dB = true then 10 / log 10 * (I_curv / I_val - I_slope ^ 2 / I_val ^ 2)
  else 10 / log 10 * (I_curv / I_val - I_slope ^ 2 / I_val ^ 2 - (o.mu0 ^ 2)⁻¹)

/-- `surface_slope` in linear intensity units (`rt1/rt1.py` lines 772-805). -/
noncomputable def surfaceSlopeLin : ℝ :=
  let brdf_slope := o.brdfSlope 1
  let brdf_val := o.brdfVal
  let I_vegs_slope := o.I0 * exp (-(2 * o.tau / o.mu0))
    * (o.mu0 * brdf_slope - (2 * o.tau / o.mu0 + 1) * sin o.t0 * brdf_val)
  let I_bs_slope := o.I0 * (o.mu0 * brdf_slope - sin o.t0 * brdf_val)
  o.NormBRDF * ((1 - o.bsf) * I_vegs_slope + o.bsf * I_bs_slope)

/-- `surface_slope(dB, sig0)` (`rt1/rt1.py` lines 750-817). -/
noncomputable def surfaceSlope (dB sig0 : Bool) : ℝ := o.unitSlope o.surfaceSlopeLin o.surface dB sig0

/-- `surface_curv` in linear intensity units (`rt1/rt1.py` lines 841-903). -/
noncomputable def surfaceCurvLin : ℝ :=
  let brdf_curv := o.brdfSlope 2
  let brdf_slope := o.brdfSlope 1
  let brdf_val := o.brdfVal
  let I_vegs_curv := o.I0 * exp (-(2 * o.tau / o.mu0))
    * (o.mu0 * brdf_curv - 2 * sin o.t0 * brdf_slope * (2 * o.tau / o.mu0 + 1)
      + (4 * o.tau ^ 2 / o.mu0 ^ 3 * sin o.t0 ^ 2 - 2 * o.tau - o.mu0) * brdf_val)
  let I_bs_curv := o.I0 * (o.mu0 * brdf_curv - 2 * sin o.t0 * brdf_slope - o.mu0 * brdf_val)
  o.NormBRDF * ((1 - o.bsf) * I_vegs_curv + o.bsf * I_bs_curv)

/-- `surface_curv(dB, sig0)` (`rt1/rt1.py` lines 819-924). -/
noncomputable def surfaceCurv (dB sig0 : Bool) : ℝ :=
  o.unitCurv o.surfaceCurvLin o.surfaceSlopeLin o.surface dB sig0

/-- `volume_slope` in linear intensity units (`rt1/rt1.py` lines 973-1010). -/
noncomputable def volumeSlopeLin : ℝ :=
  let p_slope := o.pSlope 1
  let p_val := o.pVal
  (1 - o.bsf) * o.I0 * o.omega / 2
    * ((exp (-(2 * o.tau / o.mu0)) * 2 * o.tau * sin o.t0 / o.mu0 ^ 2) * p_val
      + (1 - exp (-(2 * o.tau / o.mu0))) * p_slope)

/-- `volume_slope(dB, sig0)` (`rt1/rt1.py` lines 951-1022). -/
noncomputable def volumeSlope (dB sig0 : Bool) : ℝ := o.unitSlope o.volumeSlopeLin o.volume dB sig0

/-- `volume_curv` in linear intensity units (`rt1/rt1.py` lines 1045-1103). -/
noncomputable def volumeCurvLin : ℝ :=
  let p_curv := o.pSlope 2
  let p_slope := o.pSlope 1
  let p_val := o.pVal
  (1 - o.bsf) * o.I0 * o.omega / 2
    * (exp (-(2 * o.tau / o.mu0)) * (2 * o.tau / o.mu0 ^ 3)
        * (sin o.t0 ^ 2 + 1 - 2 * o.tau / o.mu0 * sin o.t0 ^ 2) * p_val
      + (exp (-(2 * o.tau / o.mu0)) * 4 * o.tau / o.mu0 ^ 2 * sin o.t0) * p_slope
      + (1 - exp (-(2 * o.tau / o.mu0))) * p_curv)

/-- `volume_curv(dB, sig0)` (`rt1/rt1.py` lines 1024-1124). -/
noncomputable def volumeCurv (dB sig0 : Bool) : ℝ :=
  o.unitCurv o.volumeCurvLin o.volumeSlopeLin o.volume dB sig0

/-- `tot_slope(sig0, dB)` (`rt1/rt1.py` lines 1126-1161). -/
noncomputable def totSlope (sig0 dB : Bool) : ℝ :=
  o.unitSlope (o.volumeSlopeLin + o.surfaceSlopeLin) (o.volume + o.surface) dB sig0

/-- `tot_curv(sig0, dB)` (`rt1/rt1.py` lines 1163-1213). -/
noncomputable def totCurv (sig0 dB : Bool) : ℝ :=
  o.unitCurv (o.volumeCurvLin + o.surfaceCurvLin) (o.volumeSlopeLin + o.surfaceSlopeLin)
    (o.volume + o.surface) dB sig0

/-! ## Jacobian -/

/-- `_dvolume_dtau` (`rt1/rt1.py` lines 1363-1384); the factor `1.0 / self._mu_ex ** (-1)` is modelled as written. -/
noncomputable def dvolumeDtau : ℝ :=
  let dvdt := o.I0 * o.omega * (o.mu0 / (o.mu0 + o.muex))
    * ((1 / o.mu0 + 1 / (o.muex)⁻¹) * exp (-o.tau / o.mu0 - o.tau / o.muex)) * o.pVal
  (1 - o.bsf) * dvdt

/-- `_dvolume_domega` (`rt1/rt1.py` lines 1386-1402). -/
noncomputable def dvolumeDomega : ℝ :=
  let dvdo := (o.I0 * o.mu0 / (o.mu0 + o.muex))
    * (1 - exp (-(o.tau / o.mu0) - (o.tau / o.muex))) * o.pVal
  (1 - o.bsf) * dvdo

/-- `_dvolume_dbsf` (`rt1/rt1.py` lines 1404-1426). -/
noncomputable def dvolumeDbsf : ℝ :=
  let vol := (o.I0 * o.omega * o.mu0 / (o.mu0 + o.muex))
    * (1 - exp (-(o.tau / o.mu0) - (o.tau / o.muex))) * o.pVal;
  -vol

/-- `_dvolume_dR` (`rt1/rt1.py` lines 1428-1441). -/
def dvolumeDR : ℝ := 0

/-- `_dsurface_dtau` (`rt1/rt1.py` lines 1443-1464). -/
noncomputable def dsurfaceDtau : ℝ :=
  let dsdt := o.I0 * (-1 / o.mu0 - 1 / o.muex) * exp (-o.tau / o.mu0 - o.tau / o.muex) * o.mu0 * o.brdfVal
  o.NormBRDF * (1 - o.bsf) * dsdt

/-- `_dsurface_domega` (`rt1/rt1.py` lines 1466-1478). -/
def dsurfaceDomega : ℝ := 0

/-- `_dsurface_dR` (`rt1/rt1.py` lines 1480-1505). -/
noncomputable def dsurfaceDR : ℝ :=
  let I_bs := o.I0 * o.mu0 * o.brdfVal
  let Isurf := exp (-(o.tau / o.mu0) - (o.tau / o.muex)) * I_bs
  (1 - o.bsf) * Isurf + o.bsf * I_bs

/-- `_dsurface_dbsf` (`rt1/rt1.py` lines 1507-1537). -/
noncomputable def dsurfaceDbsf : ℝ :=
  let I_bs := o.I0 * o.mu0 * o.brdfVal
  let Isurf := exp (-(o.tau / o.mu0) - (o.tau / o.muex)) * I_bs
  o.NormBRDF * (I_bs - Isurf)

/-- `_d_surface_ddummy(key)` (`rt1/rt1.py` lines 1587-1613). -/
noncomputable def dsurfaceDdummy (key : String) : ℝ :=
  let dI_bs := o.I0 * o.mu0 * o.dbrdf key o.env o.t0 o.tex o.p0 o.pex
  let dI_s := exp (-(o.tau / o.mu0) - (o.tau / o.muex)) * dI_bs
  o.NormBRDF * ((1 - o.bsf) * dI_s + o.bsf * dI_bs)

/-- `_d_volume_ddummy(key)` (`rt1/rt1.py` lines 1615-1628). -/
noncomputable def dvolumeDdummy (key : String) : ℝ :=
  let dIvol := o.I0 * o.omega * o.mu0 / (o.mu0 + o.muex)
    * (1 - exp (-(o.tau / o.mu0) - (o.tau / o.muex))) * o.dp key o.env o.t0 o.tex o.p0 o.pex
  (1 - o.bsf) * dIvol

/-- The factor `norm` in `jacobian` (`rt1/rt1.py` lines 1673-1678). -/
noncomputable def jacNorm (dB sig0 : Bool) : ℝ :=
  if sig0 = true ∧ dB = false then 4 * π * cos o.t0
  else if dB = true then 10 / (log 10 * (o.surface + o.volume))
  else 1

/-- The entry added for one key in the loop of `jacobian` (`rt1/rt1.py` lines 1680-1701). -/
noncomputable def jacEntry (dB sig0 : Bool) (key : String) : Except PyErr ℝ :=
  let norm := o.jacNorm dB sig0
  if key = "omega" then .ok ((dsurfaceDomega + o.dvolumeDomega) * norm)
  else if key = "tau" then .ok ((o.dsurfaceDtau + o.dvolumeDtau) * norm)
  else if key = "NormBRDF" then .ok ((o.dsurfaceDR + dvolumeDR) * norm)
  else if key = "bsf" then .ok ((o.dsurfaceDbsf + o.dvolumeDbsf) * norm)
  else if key ∈ o.keys then .ok ((o.dsurfaceDdummy key + o.dvolumeDdummy key) * norm)
  else .error .assertionError

/-- `jacobian(dB, sig0, param_list)` (`rt1/rt1.py` lines 1630-1703): the loop `jac += [...]`. -/
noncomputable def jacobianLoop (dB sig0 : Bool) : List String → List ℝ → Except PyErr (List ℝ)
  | [], jac => .ok jac
  | key :: ks, jac =>
    match o.jacEntry dB sig0 key with
    | .error e => .error e
    | .ok v => jacobianLoop dB sig0 ks (jac ++ [v])

/-- `jacobian(dB, sig0, param_list)` (`rt1/rt1.py` lines 1630-1703). -/
noncomputable def jacobian (dB sig0 : Bool) (paramList : List String) : Except PyErr (List ℝ) :=
  o.jacobianLoop dB sig0 paramList []

end Elem

/-! ## Interaction term -/

/-- `_mu_0_x`, `_mu_ex_x` (`rt1/rt1.py` lines 1326-1338): the list `mu ** (n + 1)`, `n < nmax`.  The caching
(`lru_cache`) is not modelled here. -/
def muX (mu : ℝ) (nmax : ℕ) : List ℝ := (List.range nmax).map fun n => mu ^ (n + 1)

/-- `innerfunc(k)` in `_S2_mu` (`rt1/rt1.py` lines 1351-1352); `expn` is `scipy.special.expn`. -/
noncomputable def S2inner (expn : ℕ → ℝ → ℝ) (mu tau : ℝ) (k : ℕ) : ℝ :=
  (mu ^ k)⁻¹ * (expn (k + 1) tau - exp (-tau / mu) / k)

/-- `hlp1` in `_S2_mu` (`rt1/rt1.py` lines 1343-1347); `expi` is `scipy.special.expi`. -/
noncomputable def hlp1 (expi : ℝ → ℝ) (mu tau : ℝ) : ℝ :=
  exp (-tau / mu) * log (mu / (1 - mu)) - expi (-tau) + exp (-tau / mu) * expi (tau / mu - tau)

/-- `_S2_mu(mu, tau)` (`rt1/rt1.py` lines 1340-1361). -/
noncomputable def S2mu (expi : ℝ → ℝ) (expn : ℕ → ℝ → ℝ) (mu tau : ℝ) (nmax : ℕ) : List ℝ :=
  (List.range nmax).map fun n =>
    (((List.range' 1 (n + 1)).map (S2inner expn mu tau)).sum) + hlp1 expi mu tau

/-- The final sum of `_calc_Fint_1` / `_calc_Fint_2` (`rt1/rt1.py` lines 1280-1282, 1322-1324):
`np.sum(fn * (mu_x * S2_mu(mu, tau)))`. -/
noncomputable def Fint (expi : ℝ → ℝ) (expn : ℕ → ℝ → ℝ) (mu tau : ℝ) (fn : List ℝ) : ℝ :=
  (List.zipWith (· * ·) fn
    (List.zipWith (· * ·) (muX mu fn.length) (S2mu expi expn mu tau fn.length))).sum

/-- The four angles in the order of the arguments of the fn-coefficient functions
(`theta_0, phi_0, theta_ex, phi_ex`, `rt1/rt1.py` lines 324-327). -/
structure Angles where
  theta0 : ℝ
  phi0 : ℝ
  thetaex : ℝ
  phiex : ℝ

/-- The angles that enter the fn-coefficients generated for a geometry string if the generated functions are called
with the angles `arg` (`_calc_interaction_expansion`, `rt1/rt1.py` lines 517-573, via `legexpansion` of `V` and `SRF`,
`rt1/volume.py` lines 372-430, `rt1/surface.py` lines 200-262): an angle marked `'f'` is replaced by its numeric value
(`fix`) before the expansion, hence the corresponding argument of the generated function has no effect; with
`"mono"` the generated function only depends on `theta_0`, the azimuths are the numbers `p_0` and `p_0 + pi`,
`theta_ex` is replaced by `theta_0`.  Any other character raises AssertionError (as does a `'f'` for non-unique
values, which cannot occur for a single element). -/
noncomputable def geomArgs (geometry : List Char) (fix arg : Angles) : Except PyErr Angles :=
  if geometry = ['m', 'o', 'n', 'o'] then .ok ⟨arg.theta0, fix.phi0, arg.theta0, fix.phi0 + π⟩
  else match geometry with
    | [c0, c1, c2, c3] =>
      let pick (c : Char) (f v : ℝ) : Except PyErr ℝ :=
        if c = 'v' then .ok v else if c = 'f' then .ok f else .error .assertionError
      match pick c0 fix.theta0 arg.theta0, pick c1 fix.thetaex arg.thetaex,
          pick c2 fix.phi0 arg.phi0, pick c3 fix.phiex arg.phiex with
      | .ok a, .ok b, .ok c, .ok d => .ok ⟨a, c, b, d⟩
      | _, _, _, _ => .error .assertionError
    | _ => .error .assertionError

/-- The angles of an element. -/
def Elem.angles (o : Elem) : Angles := ⟨o.t0, o.p0, o.tex, o.pex⟩

/-- `_calc_Fint_1` (`rt1/rt1.py` lines 1242-1282): the generated coefficient functions are evaluated at
`arccos(mu_0), p_0, arccos(mu_ex), p_ex`.  `fnAll` are the all-variable coefficients. -/
noncomputable def Elem.calcFint1 (o : Elem) (expi : ℝ → ℝ) (expn : ℕ → ℝ → ℝ) (geometry : List Char)
    (fnAll : Angles → List ℝ) : Except PyErr ℝ :=
  match geomArgs geometry o.angles ⟨arccos o.mu0, o.p0, arccos o.muex, o.pex⟩ with
  | .error e => .error e
  | .ok a => .ok (Fint expi expn o.mu0 o.tau (fnAll a))

/-- `_calc_Fint_2` (`rt1/rt1.py` lines 1284-1324): the *same* generated coefficient functions evaluated with
exchanged directions `arccos(mu_ex), p_ex, arccos(mu_0), p_0`. -/
noncomputable def Elem.calcFint2 (o : Elem) (expi : ℝ → ℝ) (expn : ℕ → ℝ → ℝ) (geometry : List Char)
    (fnAll : Angles → List ℝ) : Except PyErr ℝ :=
  match geomArgs geometry o.angles ⟨arccos o.muex, o.pex, arccos o.mu0, o.p0⟩ with
  | .error e => .error e
  | .ok a => .ok (Fint expi expn o.muex o.tau (fnAll a))

/-- The last lines of `interaction` (`rt1/rt1.py` lines 1230-1240) given the two values of F_int. -/
noncomputable def Elem.interactionOf (o : Elem) (Fint1 Fint2 : ℝ) : ℝ :=
  let Iint := o.I0 * o.mu0 * o.omega * (exp (-o.tau / o.muex) * Fint1 + exp (-o.tau / o.mu0) * Fint2)
  o.NormBRDF * (1 - o.bsf) * Iint

/-- `interaction` (`rt1/rt1.py` lines 1215-1240). -/
noncomputable def Elem.interaction (o : Elem) (expi : ℝ → ℝ) (expn : ℕ → ℝ → ℝ) (geometry : List Char)
    (fnAll : Angles → List ℝ) : Except PyErr ℝ :=
  match o.calcFint1 expi expn geometry fnAll, o.calcFint2 expi expn geometry fnAll with
  | .ok F1, .ok F2 => .ok (o.interactionOf F1 F2)
  | .error e, _ => .error e
  | _, .error e => .error e

/-! ## calc -/

/-- A numpy float: `none` is nan. -/
abbrev NpFloat := Option ℝ

/-- Addition of numpy floats (nan propagates). -/
def npAdd : NpFloat → NpFloat → NpFloat
  | some a, some b => some (a + b)
  | _, _ => none

/-- Elementwise addition of arrays of equal length. -/
def npAddL (a b : List NpFloat) : List NpFloat := List.zipWith npAdd a b

/-- The return value of `calc`: `tot, surf, vol` and `inter` if `int_Q` is True. -/
structure CalcOut where
  tot : List NpFloat
  surf : List NpFloat
  vol : List NpFloat
  inter : Option (List NpFloat)

/-- The replacement of nan values in the array branch of `calc` (`rt1/rt1.py` lines 701-713): nan values are
replaced by 0 iff there are nan values and they are exactly at the positions where `tau == 0`. -/
noncomputable def fixNan (taus : List ℝ) (Iint : List NpFloat) : List NpFloat :=
  let wherenan := Iint.map Option.isNone
  if wherenan.any id ∧ wherenan = taus.map (fun t => decide (t = 0)) then
    Iint.map fun v => some (v.getD 0)
  else Iint

/-- `calc` (`rt1/rt1.py` lines 660-720) on the broadcast arrays `elems`.  `tauScalar = some t` iff `V.tau` is a plain
python number (then every element has this tau).  `inter` is `interaction()` per element (may be nan, e.g. for
`tau = 0`).  Simplified: the one-element arrays `np.array([0.0])` are broadcast to the number of elements. -/
noncomputable def calcAll (tauScalar : Option ℝ) (intQ : Bool) (elems : List Elem) (inter : Elem → NpFloat) : CalcOut :=
  let zeros : List NpFloat := elems.map fun _ => some 0
  let Isurf := elems.map fun o => (some o.surface : NpFloat)
  let (Ivol, Iint) :=
    match tauScalar with
    | some t =>
      if t > 0 then (elems.map fun o => some o.volume, if intQ = true then elems.map inter else zeros)
      else (zeros, zeros)
    | none =>
      (elems.map fun o => some o.volume,
        if intQ = true then fixNan (elems.map Elem.tau) (elems.map inter) else [])
  if intQ = true then ⟨npAddL (npAddL Isurf Ivol) Iint, Isurf, Ivol, some Iint⟩
  else ⟨npAddL Isurf Ivol, Isurf, Ivol, none⟩

/-! ## Angle slots -/

/-- A value assigned to an angle: a python scalar or an array. -/
inductive AngVal
  | scalar (x : ℝ)
  | array (xs : List ℝ)

/-- `np.array([x]) if np.isscalar(x) else x` (`rt1/rt1.py` lines 393-394 etc.). -/
def AngVal.toArr : AngVal → List ℝ
  | .scalar x => [x]
  | .array xs => xs

/-- The angle attributes of an `RT1` object (`rt1/rt1.py` lines 388-446); `tex`, `pex` are the private slots
`__t_ex`, `__p_ex` (absent for objects created with `geometry="mono"`). -/
structure AngleObj where
  geometry : String
  t0 : List ℝ
  p0 : List ℝ
  tex : Option (List ℝ)
  pex : Option (List ℝ)

namespace AngleObj

/-- `_set_t_0` (`rt1/rt1.py` lines 391-395). -/
def setT0 (o : AngleObj) (v : AngVal) : AngleObj := { o with t0 := v.toArr }

/-- `_set_p_0` (`rt1/rt1.py` lines 402-406). -/
def setP0 (o : AngleObj) (v : AngVal) : AngleObj := { o with p0 := v.toArr }

/-- `_set_t_ex` (`rt1/rt1.py` lines 416-425). -/
def setTex (o : AngleObj) (v : AngVal) : AngleObj :=
  if o.geometry = "mono" then o else { o with tex := some v.toArr }

/-- `_set_p_ex` (`rt1/rt1.py` lines 435-444). -/
def setPex (o : AngleObj) (v : AngVal) : AngleObj :=
  if o.geometry = "mono" then o else { o with pex := some v.toArr }

/-- `_get_t_ex` (`rt1/rt1.py` lines 410-414); reading an absent slot raises AttributeError. -/
def getTex (o : AngleObj) : Except PyErr (List ℝ) :=
  if o.geometry = "mono" then .ok o.t0
  else match o.tex with
    | some v => .ok v
    | none => .error .attributeError

/-- `_get_p_ex` (`rt1/rt1.py` lines 429-433). -/
noncomputable def getPex (o : AngleObj) : Except PyErr (List ℝ) :=
  if o.geometry = "mono" then .ok (o.p0.map (· + π))
  else match o.pex with
    | some v => .ok v
    | none => .error .attributeError

/-- The angle part of `__init__` (`rt1/rt1.py` lines 142-168): a geometry that is not a 4-character string is
rejected. -/
def init (geometry : String) (t0 tex p0 pex : AngVal) : Except PyErr AngleObj :=
  if geometry.length ≠ 4 then .error .assertionError
  else
    let o : AngleObj := ⟨geometry, t0.toArr, p0.toArr, none, none⟩
    if geometry ≠ "mono" then .ok ((o.setTex tex).setPex pex) else .ok o

/-- An assignment to one of the four angle attributes. -/
inductive Op
  | t0 (v : AngVal)
  | tex (v : AngVal)
  | p0 (v : AngVal)
  | pex (v : AngVal)

/-- Effect of an assignment. -/
def step (o : AngleObj) : Op → AngleObj
  | .t0 v => o.setT0 v
  | .tex v => o.setTex v
  | .p0 v => o.setP0 v
  | .pex v => o.setPex v

end AngleObj

/-! ## Scattering angle -/

/-- `Scatter.scat_angle` (`rt1/scatter.py` lines 51-55), denotation of the symbolic expression. -/
noncomputable def scatAngle (a : ℝ × ℝ × ℝ) (t0 tex p0 pex : ℝ) : ℝ :=
  a.1 * cos t0 * cos tex + a.2.1 * sin t0 * sin tex * cos p0 * cos pex
    + a.2.2 * sin t0 * sin tex * sin p0 * sin pex

/-- `Scatter._scat_angle_numeric` (`rt1/scatter.py` lines 57-63). -/
noncomputable def scatAngleNumeric (a : ℝ × ℝ × ℝ) (t0 tex p0 pex : ℝ) : ℝ :=
  a.1 * cos t0 * cos tex + a.2.1 * sin t0 * sin tex * cos p0 * cos pex
    + a.2.2 * sin t0 * sin tex * sin p0 * sin pex

/-- Default of `a` in `Volume` (`rt1/volume.py` line 25). -/
def aVolume : ℝ × ℝ × ℝ := (-1, 1, 1)

/-- Default of `a` in `Surface` (`rt1/surface.py` lines 18-30). -/
def aSurface : ℝ × ℝ × ℝ := (1, 1, 1)

end RT1.Rad
