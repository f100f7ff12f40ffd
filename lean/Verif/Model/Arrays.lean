import Verif.Model.RT1

/-!
# Model of the evaluation with numpy arrays (`rt1/rt1.py`, `rt1/volume.py`, `rt1/surface.py`, `Fits.calc`)

The shapes of the arrays and numpy's broadcasting are explicit; the numbers are exact reals.  `Model/RT1` describes the same functions
for one element of the arrays.
-/

namespace RT1.Arrays
open General Rad

/-! ## numpy arrays -/

/-- The shape of an array, **starting with the last axis** (so that broadcasting aligns the heads). -/
abbrev Shape := List Nat

/-- A multi-index; `i a` is the position along the `a`-th axis from the end. -/
abbrev Idx := Nat → Nat

/-- An array; python's numbers and numpy's scalars have the shape `[]`. -/
structure Arr where
  shape : Shape
  get : Idx → ℝ

/-- The position in an array of shape `s` that is used for the position `i` of the result of an operation: axes of length one are
repeated, missing axes are ignored. -/
def mask (s : Shape) (i : Idx) : Idx := fun a => if s.getD a 1 = 1 then 0 else i a

/-- The entry used for the position `i`. -/
def Arr.at (A : Arr) (i : Idx) : ℝ := A.get (mask A.shape i)

/-- The shape of the result of an elementwise operation (numpy's broadcasting rules). -/
def bshape : Shape → Shape → Except PyErr Shape
  | [], t => .ok t
  | a :: s, [] => .ok (a :: s)
  | a :: s, b :: t =>
    match bshape s t with
    | .error e => .error e
    | .ok r =>
      if a = b then .ok (a :: r) else if a = 1 then .ok (b :: r) else if b = 1 then .ok (a :: r) else .error .valueError

/-- The value of an expression of numpy arrays: an array or an exception. -/
abbrev NpV := Except PyErr Arr

/-- A number. -/
def lit (c : ℝ) : NpV := .ok ⟨[], fun _ => c⟩

/-- An array as a value. -/
def arr (A : Arr) : NpV := .ok A

/-- An elementwise function of one array (`np.cos(A)`, `-A`, …). -/
def mapV (f : ℝ → ℝ) : NpV → NpV
  | .ok A => .ok ⟨A.shape, fun i => f (A.at i)⟩
  | .error e => .error e

/-- An elementwise function of two arrays. -/
def zipV (f : ℝ → ℝ → ℝ) : NpV → NpV → NpV
  | .ok A, .ok B =>
    match bshape A.shape B.shape with
    | .ok s => .ok ⟨s, fun i => f (A.at i) (B.at i)⟩
    | .error e => .error e
  | .error e, _ => .error e
  | .ok _, .error e => .error e

noncomputable instance : Add NpV := ⟨zipV (· + ·)⟩
noncomputable instance : Sub NpV := ⟨zipV (· - ·)⟩
noncomputable instance : Mul NpV := ⟨zipV (· * ·)⟩
noncomputable instance : Div NpV := ⟨zipV (· / ·)⟩
noncomputable instance : Neg NpV := ⟨mapV (- ·)⟩

/-- The arrays of a list, or the first exception. -/
def seqV : List NpV → Except PyErr (List Arr)
  | [] => .ok []
  | x :: l =>
    match x, seqV l with
    | .ok A, .ok r => .ok (A :: r)
    | .error e, _ => .error e
    | .ok _, .error e => .error e

/-- `np.array([A, B, …])`: a new first axis; arrays of different shape raise a ValueError. -/
def stackOf : List Arr → NpV
  | [] => .ok ⟨[0], fun _ => 0⟩
  | A :: l =>
    if l.all fun B => decide (B.shape = A.shape) then
      .ok ⟨A.shape ++ [l.length + 1], fun i => ((A :: l).getD (i A.shape.length) A).at i⟩
    else .error .valueError

def stackV (l : List NpV) : NpV :=
  match seqV l with
  | .ok as => stackOf as
  | .error e => .error e

/-- `np.sum(X, axis=0)`. -/
noncomputable def sumAxis0 : NpV → NpV
  | .error e => .error e
  | .ok X =>
    match X.shape.getLast? with
    | none => .error .valueError
    | some n =>
      .ok ⟨X.shape.dropLast,
        fun i => ((List.range n).map fun k => X.at (Function.update i (X.shape.length - 1) k)).sum⟩

/-- The common shape of a list of shapes. -/
def bshapes : List Shape → Except PyErr Shape
  | [] => .ok []
  | s :: l =>
    match bshapes l with
    | .ok t => bshape s t
    | .error e => .error e

/-- `np.broadcast_arrays(*l)` -/
def broadcastArrays (l : List Arr) : Except PyErr (List Arr) :=
  match bshapes (l.map Arr.shape) with
  | .ok s => .ok (l.map fun A => ⟨s, A.at⟩)
  | .error e => .error e

/-! ## lambdified functions -/

/-- The symbols of the functions. -/
inductive Var
  | theta0 | thetaex | phi0 | phiex
  | param (key : String)
deriving DecidableEq

/-- An expression (as generated by `sp.lambdify` or written with numpy functions in `_func_numeric`). -/
inductive Ex
  | const (c : ℝ)
  | var (v : Var)
  | un (f : ℝ → ℝ) (e : Ex)
  | bin (f : ℝ → ℝ → ℝ) (e e' : Ex)

/-- The number an expression denotes. -/
def Ex.eval (ρ : Var → ℝ) : Ex → ℝ
  | .const c => c
  | .var v => ρ v
  | .un f e => f (e.eval ρ)
  | .bin f e e' => f (e.eval ρ) (e'.eval ρ)

/-- The symbols of an expression. -/
def Ex.vars : Ex → List Var
  | .const _ => []
  | .var v => [v]
  | .un _ e => e.vars
  | .bin _ e e' => e.vars ++ e'.vars

/-- The evaluation with arrays. -/
def Ex.evalV (ρ : Var → NpV) : Ex → NpV
  | .const c => lit c
  | .var v => ρ v
  | .un f e => mapV f (e.evalV ρ)
  | .bin f e e' => zipV f (e.evalV ρ) (e'.evalV ρ)

/-- The four angles and the additional parameters. -/
structure Args where
  t0 : Arr
  tex : Arr
  p0 : Arr
  pex : Arr
  params : List (String × Arr)

/-- The array of a symbol; symbols that are not part of `param_dict` are undefined (NameError). -/
def Args.val (a : Args) : Var → NpV
  | .theta0 => .ok a.t0
  | .thetaex => .ok a.tex
  | .phi0 => .ok a.p0
  | .phiex => .ok a.pex
  | .param k => match (a.params.find? fun kv => decide (kv.1 = k)) with
    | some kv => .ok kv.2
    | none => .error .nameError

/-- All arrays in the order of the arguments. -/
def Args.all (a : Args) : List Arr := [a.t0, a.tex, a.p0, a.pex] ++ a.params.map Prod.snd

/-- The entries of all arrays used for the position `i`. -/
def Args.at (a : Args) (i : Idx) : Var → ℝ
  | .theta0 => a.t0.at i
  | .thetaex => a.tex.at i
  | .phi0 => a.p0.at i
  | .phiex => a.pex.at i
  | .param k => match (a.params.find? fun kv => decide (kv.1 = k)) with
    | some kv => kv.2.at i
    | none => 0

/-- `np.broadcast_arrays(…)` for the arguments, `s` is their common shape. -/
def Args.broadcast (a : Args) (s : Shape) : Args :=
  ⟨⟨s, a.t0.at⟩, ⟨s, a.tex.at⟩, ⟨s, a.p0.at⟩, ⟨s, a.pex.at⟩, a.params.map fun kv => (kv.1, ⟨s, kv.2.at⟩)⟩

/-- The arguments of the test call (`rt1/volume.py` lines 123-130, `rt1/surface.py` lines 126-133). -/
noncomputable def probe (keys : List String) : Args where
  t0 := ⟨[3], fun i => if i 0 = 0 then 0.1 else if i 0 = 1 then 0.2 else 0.3⟩
  tex := ⟨[], fun _ => 0.1⟩
  p0 := ⟨[], fun _ => 0.1⟩
  pex := ⟨[], fun _ => 0.1⟩
  params := keys.map fun k => (k, ⟨[], fun _ => 0.12⟩)

/-- `np.vectorize(pfunc)(…)`: the function is called for each element of the broadcast arguments; arguments without elements raise a
ValueError (the type of the result is determined by the first element).  Symbols without value have already raised a NameError in the
test call. -/
def vectorize (e : Ex) (a : Args) : NpV :=
  match bshapes (a.all.map Arr.shape) with
  | .error err => .error err
  | .ok s =>
    if 0 ∈ s then .error .valueError
    else .ok ⟨s, fun i => e.eval (a.at i)⟩

/-- The second part of `p` and `brdf` (`rt1/volume.py` lines 118-135, `rt1/surface.py` lines 121-138). -/
noncomputable def callWith (e : Ex) (a : Args) : Except PyErr Arr → NpV
  | .error err => .error err
  | .ok r => if r.shape = [] then vectorize e a else e.evalV a.val

/-- `Volume.p` (`rt1/volume.py` lines 87-135) and `Surface.brdf` (`rt1/surface.py` lines 89-138): the function is wrapped by
`np.vectorize` if a test call with an array for `t_0` does not return an array. -/
noncomputable def callFn (e : Ex) (a : Args) : NpV :=
  callWith e a (e.evalV (probe (a.params.map Prod.fst)).val)

/-! ## RT1 -/

inductive Backend
  | sympy | symengine
deriving DecidableEq

/-- The attributes of an RT1-object that are used by `calc`; `fn` are the expressions of the fn-coefficients. -/
structure RObj extends Args where
  I0 : Arr
  tau : Arr
  omega : Arr
  N : Arr
  bsf : Arr
  brdf : Ex
  p : Ex
  fn : List Ex
  backend : Backend

namespace RObj

variable (o : RObj)

/-- `_mu_0` (`rt1/rt1.py` lines 449-452) -/
noncomputable def mu0 : NpV := mapV Real.cos (arr o.t0)
/-- `_mu_ex` (`rt1/rt1.py` lines 454-457) -/
noncomputable def muex : NpV := mapV Real.cos (arr o.tex)

/-- `surface` (`rt1/rt1.py` lines 722-748) -/
noncomputable def surface : NpV :=
  let I_bs := arr o.I0 * o.mu0 * callFn o.brdf o.toArgs
  let Isurf := mapV Real.exp (-(arr o.tau / o.mu0) - (arr o.tau / o.muex)) * I_bs
  arr o.N * ((lit 1 - arr o.bsf) * Isurf + arr o.bsf * I_bs)

/-- `volume` (`rt1/rt1.py` lines 926-949) -/
noncomputable def volume : NpV :=
  let vol := (arr o.I0 * arr o.omega * o.mu0 / (o.mu0 + o.muex)) *
    (lit 1 - mapV Real.exp (-(arr o.tau / o.mu0) - (arr o.tau / o.muex))) * callFn o.p o.toArgs
  (lit 1 - arr o.bsf) * vol

/-- `_mu_0_x`, `_mu_ex_x` (`rt1/rt1.py` lines 1326-1338; the caching is modelled in `Model/RT1Cache`) -/
noncomputable def muX (mu : NpV) (nmax : Nat) : NpV := stackV ((List.range nmax).map fun n => mapV (· ^ (n + 1)) mu)

/-- `innerfunc(k)` (`rt1/rt1.py` lines 1351-1352) -/
noncomputable def inner (expn : Nat → ℝ → ℝ) (mu tau : NpV) (k : Nat) : NpV :=
  mapV (fun x => (x ^ k)⁻¹) mu * (mapV (expn (k + 1)) tau - mapV Real.exp (-tau / mu) / lit k)

/-- `hlp1` (`rt1/rt1.py` lines 1343-1347) -/
noncomputable def hlp1 (expi : ℝ → ℝ) (mu tau : NpV) : NpV :=
  mapV Real.exp (-tau / mu) * mapV Real.log (mu / (lit 1 - mu)) - mapV expi (-tau) +
    mapV Real.exp (-tau / mu) * mapV expi (tau / mu - tau)

/-- `_S2_mu` (`rt1/rt1.py` lines 1340-1361) -/
noncomputable def S2mu (expi : ℝ → ℝ) (expn : Nat → ℝ → ℝ) (mu tau : NpV) (nmax : Nat) : NpV :=
  stackV ((List.range nmax).map fun n => (List.range' 1 (n + 1)).foldl (fun acc k => acc + inner expn mu tau k) (lit 0)) +
    hlp1 expi mu tau

/-- `np.broadcast_arrays(*self._fnevals(…))` (`rt1/rt1.py` lines 1257-1278) for the angles `a` (`theta_0, phi_0, theta_ex, phi_ex` as
arrays): the functions of symengine return arrays of the shape of the arguments for all coefficients, those generated with sympy return
numbers for coefficients without symbols. -/
noncomputable def fnvals (a : Args) : Except PyErr (List Arr) :=
  match bshapes (a.all.map Arr.shape) with
  | .error e => .error e
  | .ok s =>
    match seqV (o.fn.map fun e => e.evalV (a.broadcast s).val) with
    | .error e => .error e
    | .ok vals =>
      match o.backend with
      | .sympy => broadcastArrays vals
      | .symengine => .ok (vals.map fun A => ⟨s, A.at⟩)

/-- `np.sum(fn * multip, axis=0)` (`rt1/rt1.py` lines 1280-1282, 1322-1324) -/
noncomputable def sumFn (multip : NpV) : Except PyErr (List Arr) → NpV
  | .error e => .error e
  | .ok fn => sumAxis0 (stackOf fn * multip)

/-- `_calc_Fint_1` and `_calc_Fint_2` (`rt1/rt1.py` lines 1242-1324) with `mu1 = cos t1`, `mu2 = cos t2`. -/
noncomputable def Fint (expi : ℝ → ℝ) (expn : Nat → ℝ → ℝ) (t1 p1 t2 p2 : Arr) : NpV :=
  match mapV Real.arccos (mapV Real.cos (arr t1)), mapV Real.arccos (mapV Real.cos (arr t2)) with
  | .ok th1, .ok th2 =>
    sumFn (muX (mapV Real.cos (arr t1)) o.fn.length * S2mu expi expn (mapV Real.cos (arr t1)) (arr o.tau) o.fn.length)
      (o.fnvals ⟨th1, th2, p1, p2, o.params⟩)
  | .error e, _ => .error e
  | .ok _, .error e => .error e

/-- `interaction` (`rt1/rt1.py` lines 1215-1240) -/
noncomputable def interaction (expi : ℝ → ℝ) (expn : Nat → ℝ → ℝ) : NpV :=
  let Fint1 := o.Fint expi expn o.t0 o.p0 o.tex o.pex
  let Fint2 := o.Fint expi expn o.tex o.pex o.t0 o.p0
  let Iint := arr o.I0 * o.mu0 * arr o.omega *
    (mapV Real.exp (-arr o.tau / o.muex) * Fint1 + mapV Real.exp (-arr o.tau / o.mu0) * Fint2)
  arr o.N * (lit 1 - arr o.bsf) * Iint

/-- `np.array([0.0])` -/
def zero1 : NpV := .ok ⟨[1], fun _ => 0⟩

/-- `calc` (`rt1/rt1.py` lines 660-720): the list `[tot, surf, vol]` or `[tot, surf, vol, inter]`.  `scalarTau` is
`isinstance(self.V.tau, (int, float))`.  The replacement of nan-values is modelled in `Model/RT1` (`calcAll`), here values are real
numbers. -/
noncomputable def calcV (expi : ℝ → ℝ) (expn : Nat → ℝ → ℝ) (scalarTau intQ : Bool) : List NpV :=
  let canopy := !scalarTau || decide (o.tau.at (fun _ => 0) > 0)
  let Isurf := o.surface
  let Ivol := if canopy then o.volume else zero1
  if intQ then
    let Iint := if canopy then o.interaction expi expn else zero1
    [Isurf + Ivol + Iint, Isurf, Ivol, Iint]
  else [Isurf + Ivol, Isurf, Ivol]

end RObj

/-! ## `Fits.calc` -/

/-- The conversion of the results in `_calc_model` (`rt1/rtfits.py` lines 1776-1789): with `return_components` the tuple of arrays is
multiplied with an array, i.e. it is converted to an array. -/
noncomputable def convert (t0 : Arr) (dB sig0 : Bool) (res : NpV) : NpV :=
  let res := if sig0 then (lit (4 * Real.pi) * mapV Real.cos (arr t0)) * res else res
  if dB then lit 10 * mapV (fun x => Real.log x / Real.log 10) res else res

/-- `Fits.calc` (`rt1/rtfits.py` lines 2436-2517) with `return_components=True` (and `dB` or `sig0` set, otherwise the tuple is returned
unchanged), the arrays of the parameters have been assigned to `o` (`_set_calc_values`). -/
noncomputable def fitComponents (o : RObj) (expi : ℝ → ℝ) (expn : Nat → ℝ → ℝ) (scalarTau intQ dB sig0 : Bool) : NpV :=
  convert o.t0 dB sig0 (stackV (o.calcV expi expn scalarTau intQ))

/-- `return_components=False` -/
noncomputable def fitTotal (o : RObj) (expi : ℝ → ℝ) (expn : Nat → ℝ → ℝ) (scalarTau intQ dB sig0 : Bool) : NpV :=
  convert o.t0 dB sig0 ((o.calcV expi expn scalarTau intQ).headD (.error .indexError))

/-- `np.atleast_2d(inc)` for a one-dimensional list (`rt1/rtfits.py` line 2478) -/
def rowOf (inc : List ℝ) : Arr := ⟨[inc.length, 1], fun i => inc.getD (i 0) 0⟩

/-- `np.atleast_1d(val)[:, np.newaxis]` (`rt1/rtfits.py` lines 2484, 2497) -/
def colOf (vals : List ℝ) : Arr := ⟨[1, vals.length], fun i => vals.getD (i 1) 0⟩

end RT1.Arrays
