import Verif.Model.General
import Mathlib.Data.Real.Basic

/-!
# Model of `polarplot`

`rt1/rtplots.py` lines 37-262.  Not modelled: arrows, filled areas, ticks, titles, exceptions of the phase functions.
-/

namespace RT1.Polar
open General

/-- The object `X`: its class is part of `rt1.surface` or of `rt1.volume` (`str(X.__class__)`, lines 126, 143), or something else (a list of
objects, a class defined by the user). -/
inductive Kind
  | surface
  | volume
  | other
  deriving DecidableEq

/-- The argument `polarax` (`rt1/rtplots.py` lines 120-124): missing, polar axes, other axes. -/
inductive Axes
  | missing
  | polar
  | cartesian
  deriving DecidableEq

/-- A line of the plot (`rt1/rtplots.py` lines 204-206): the function itself (`exact`) or its approximation, with a color and points. -/
structure Line where
  exact : Bool
  color : String
  points : List (ℝ × ℝ)

/-- What is drawn: the lines, the limit of the radius (line 232), the entries of the legend (colors with an angle, or "approx."). -/
structure Drawn where
  lines : List Line
  rmax : Option ℝ
  legend : List (String × Option ℝ)

/-- The functions in use, `P` are the sets of parameters: `f` (`X.brdf` or `X.p`), `approx` (lambdified `X.legexpansion`, lines 160-165), `peak`
(`multip * np.max(…)`, lines 173-181), `grid` (`thetass`, lines 135, 153), `sub` (`angsub`, lines 132-133, 150-151). -/
structure Fns (P : Type) where
  f : P → ℝ → ℝ → ℝ
  approx : P → ℝ → ℝ → ℝ
  peak : P → ℝ → ℝ
  grid : List ℝ
  sub : ℝ → ℝ

/-- `cycle(["k", "r", "g", "b", "c", "m", "y"])` (line 169): the color after `c` other ones. -/
def palette (c : Nat) : String := ["k", "r", "g", "b", "c", "m", "y"].getD (c % 7) ""

/-- The state of the loops: the lines, `pmax`, the limit, `used_colors` (if assigned). -/
structure State where
  lines : List Line
  pmax : ℝ
  rmax : Option ℝ
  used : Option (List String)

variable {P : Type}

/-- `pmax` (`rt1/rtplots.py` lines 171-183). -/
noncomputable def updateMax (F : Fns P) (p : P) (pmax : ℝ) (incs : List ℝ) : ℝ :=
  incs.foldl (fun m i => if m < F.peak p i then F.peak p i else m) pmax

/-- The body of the loop over the angles (`rt1/rtplots.py` lines 189-206): the counter of `cycle`, and the lines and `used_colors` so far. -/
def drawAngle (F : Fns P) (aprox : Bool) (p : P) (s : Nat × List Line × List String) (ti : ℝ) : Nat × List Line × List String :=
  let color := palette s.1
  let line := [⟨true, color, F.grid.map fun ts => (ts, F.f p ti ts)⟩]
  let dashed := if aprox then [⟨false, color, F.grid.map fun ts => (ts, F.approx p (F.sub ti) ts)⟩] else []
  (s.1 + 1, s.2.1 ++ line ++ dashed, s.2.2 ++ [color])

/-- The body of the loop over the parameters (`rt1/rtplots.py` lines 158-234). -/
noncomputable def drawParam (F : Fns P) (aprox : Bool) (incs : List ℝ) (s : State) (p : P) : State :=
  let pmax := updateMax F p s.pmax incs
  let r := incs.foldl (drawAngle F aprox p) (0, s.lines, [])
  { lines := r.2.1, pmax := pmax, rmax := if incs = [] then s.rmax else some (pmax * 1.2), used := some r.2.2 }

/-- The legend (`rt1/rtplots.py` lines 238-258). -/
def legendOf (aprox : Bool) (incs : List ℝ) (used : List String) : List (String × Option ℝ) :=
  (used.zip (incs.map some)) ++ if aprox then [("k", none)] else []

/-- Everything after the checks (`rt1/rtplots.py` lines 126-262); for other objects `angs` and `funcname` are not assigned; `fig` is not assigned if axes have been
provided (`rt1/rtplots.py` lines 120-124, 262). -/
noncomputable def draw (F : Fns P) (kind : Kind) (incs : List ℝ) (params : List P) (axes : Axes) (aprox legend : Bool) : Drawn × Except PyErr Unit :=
  if kind = .other ∧ params ≠ [] ∧ (aprox = true ∨ incs ≠ []) then (⟨[], none, []⟩, .error .unboundLocalError)
  else
    let s := params.foldl (drawParam F aprox incs) ⟨[], 0, none, none⟩
    match s.used with
    | none => (⟨s.lines, s.rmax, []⟩, .error .unboundLocalError)
    | some used =>
      (⟨s.lines, s.rmax, if legend then legendOf aprox incs used else []⟩, if axes = .missing then .ok () else .error .unboundLocalError)

/-- `polarplot(X, inc, multip, aprox, legend, param_dict, polarax)` (`rt1/rtplots.py` lines 107-262); `inc` is in radians here, missing if it is no list;
`multip`: is it a float; a single dict is a list with one element (`rt1/rtplots.py` lines 117-118). -/
noncomputable def polarplot (F : Fns P) (X : Option Kind) (inc : Option (List ℝ)) (multip : Bool) (params : List P) (axes : Axes)
    (aprox legend : Bool) : Drawn × Except PyErr Unit :=
  match inc, multip, X with
  | none, _, _ => (⟨[], none, []⟩, .error .assertionError)
  | some _, false, _ => (⟨[], none, []⟩, .error .assertionError)
  | some _, true, none => (⟨[], none, []⟩, .error .assertionError)
  | some incs, true, some kind =>
    if axes = .cartesian then (⟨[], none, []⟩, .error .assertionError) else draw F kind incs params axes aprox legend

end RT1.Polar
