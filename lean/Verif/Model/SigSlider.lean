import Verif.Model.General

/-!
# Model of the slider of `printsig0analysis`

`rt1/rtplots.py` lines 1465-2334: the lines drawn by `plotlines`, and their update by `animate`.  The values of a line depend on what is shown
(`Kind`) and on the number of the measurement; they are not modelled.  One slider is modelled (the second one has its own lines and its own label).
Not modelled: the plot of the parameters, the limits of the axes, legends, and zooming (`updatesliderboundary`).
-/

namespace RT1.SigSlider
open General

/-- What a line shows (`rt1/rtplots.py` lines 1799-1900). -/
inductive Kind
  | tot
  | surf
  | vol
  | inter
  | data
  | indicator
  deriving DecidableEq

/-- A line: its style (fixed in `plotlines`), what it shows, and for which measurement. -/
structure Line where
  style : Kind
  shown : Kind
  day : Nat
  deriving DecidableEq

/-- The four lists of lines, and the measurements whose dates are shown in the label. -/
structure Fig where
  lines : List Line
  frac : List Line
  full : List Line
  fracFull : List Line
  label : List Nat
  deriving DecidableEq

/-- The lines of one measurement in `plotlines` (`rt1/rtplots.py` lines 1799-1828). -/
def plotMain (comp intQ : Bool) : List Kind :=
  [.tot] ++ (if comp then [.surf, .vol] ++ (if intQ then [.inter] else []) else []) ++ [.data] ++ [.indicator]

/-- The fractions of one measurement in `plotlines` (`rt1/rtplots.py` lines 1831-1849, 1886-1906). -/
def plotFrac (intQ : Bool) : List Kind := [.surf] ++ [.vol] ++ if intQ then [.inter] else []

/-- The lines for all incidence-angles in `plotlines` (`rt1/rtplots.py` lines 1857-1880). -/
def plotFull (comp intQ : Bool) : List Kind := [.tot] ++ if comp then [.surf, .vol] ++ (if intQ then [.inter] else []) else []

/-- The loops `for day in np.arange(0, dayrange, 1)` of `plotlines`. -/
def plotDays (ks : List Kind) (range : Nat) : List Line := (List.range range).flatMap fun d => ks.map fun k => ⟨k, k, d⟩

/-- The figure before the sliders are used (`rt1/rtplots.py` lines 1994-2000, 2248-2256), for `n` measurements: IndexError if there are less than
`range1` measurements (`incs[day]`) or none at all; `newsig0_vals` is not assigned if `printfullt_0` is False (lines 1605-1652, 1711); the label needs the first date (line 2251). -/
def create (n range : Nat) (comp intQ fullT0 : Bool) : Except PyErr Fig :=
  if fullT0 = false then .error .unboundLocalError
  else if n < range ∨ n = 0 then .error .indexError
  else .ok ⟨plotDays (plotMain comp intQ) range, plotDays (plotFrac intQ) range, plotDays (plotFull comp intQ) range, plotDays (plotFrac intQ) range, [0]⟩

/-- `lines[i].set_xdata(…)`, `lines[i].set_ydata(…)`, `i += 1`. -/
def write (d : Nat) (s : List Line × Nat) (k : Kind) : Except PyErr (List Line × Nat) :=
  match s.1[s.2]? with
  | none => .error .indexError
  | some x => .ok (s.1.set s.2 { x with shown := k, day := d }, s.2 + 1)

/-- The updates of one measurement in `animate` (`rt1/rtplots.py` lines 2112-2133). -/
def animMain (comp intQ : Bool) : List Kind :=
  [.tot] ++ (if comp then [.surf] ++ [.vol] ++ (if intQ then [.inter] else []) else []) ++ [.data] ++ [.indicator]

/-- The updates of the fractions (`rt1/rtplots.py` lines 2145-2154, 2191-2200). -/
def animFrac (intQ : Bool) : List Kind := [.surf] ++ [.vol] ++ if intQ then [.inter] else []

/-- The updates of the lines for all incidence-angles (`rt1/rtplots.py` lines 2164-2177). -/
def animFull (comp intQ : Bool) : List Kind := [.tot] ++ if comp then [.surf] ++ [.vol] ++ (if intQ then [.inter] else []) else []

/-- The body of a loop of `animate` (`rt1/rtplots.py` lines 2109-2133, 2136-2154, 2158-2177, 2179-2200). -/
def writeDay (ks : List Kind) (n : Nat) (s : List Line × Nat) (d : Nat) : Except PyErr (List Line × Nat) :=
  if n ≤ d then .ok s else ks.foldlM (write d) s

/-- `for day in np.arange(day0, day0 + dayrange, 1)` (`rt1/rtplots.py` lines 2108-2133, 2135-2154, 2157-2177, 2178-2200). -/
def writeDays (ks : List Kind) (n day0 range : Nat) (lines : List Line) : Except PyErr (List Line) :=
  ((List.range' day0 range).foldlM (writeDay ks n) (lines, 0)).map Prod.fst

/-- The label (`rt1/rtplots.py` lines 2098-2105): `sig0_vals["indexes"][…]` raises IndexError. -/
def newLabel (n day0 range : Nat) (old : List Nat) : Except PyErr (List Nat) :=
  if range = 1 then (if day0 < n then .ok [day0] else .error .indexError)
  else if 1 < range then (if day0 < n ∧ day0 + range - 1 < n then .ok [day0, day0 + range - 1] else .error .indexError)
  else .ok old

/-- `animate(day0, …)` (`rt1/rtplots.py` lines 2095-2202), `printfullt_0` is True. -/
def animate (n range : Nat) (comp intQ : Bool) (f : Fig) (day0 : Nat) : Except PyErr Fig := do
  let label ← newLabel n day0 range f.label
  let lines ← writeDays (animMain comp intQ) n day0 range f.lines
  let frac ← writeDays (animFrac intQ) n day0 range f.frac
  let full ← writeDays (animFull comp intQ) n day0 range f.full
  let fracFull ← writeDays (animFrac intQ) n day0 range f.fracFull
  return ⟨lines, frac, full, fracFull, label⟩

/-- An event of the slider; exceptions in callbacks are reported and the figure stays as it is (the exceptions occur before the first update, see
`C131_end_fails`). -/
def event (n range : Nat) (comp intQ : Bool) (f : Fig) (day0 : Nat) : Fig :=
  match animate n range comp intQ f day0 with
  | .ok g => g
  | .error _ => f

end RT1.SigSlider
