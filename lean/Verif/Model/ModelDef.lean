import Verif.Model.General

/-!
# Model of the text that describes a model (`Fits._model_definition` in `rt1/rtfits.py`)

Texts are lists of characters.  The formatting of numbers (`format(x, ".5")`, `str(x)`), of dates and of the other values is given by
parameters; blanks are the only white space.
-/

namespace RT1
namespace ModelDef

abbrev Str := List Char

/-- A value of a definition; `npFloat` is a number that is no instance of `int` or `float` (e.g. `np.float32`). -/
inductive Val
  | float (x : Nat)
  | int (n : ℤ)
  | npFloat (x : Nat)
  | str (s : Str)
  | none
deriving DecidableEq

/-- One entry of `defdict.items()`: `fitQ` is none if the first value is neither `True` nor `False` (e.g. a numpy bool); `freq` and
`interp` are given by their string-representation. -/
structure Def where
  name : Str
  fitQ : Option Bool
  val : Val
  freq : Option Str
  lo : Val
  hi : Val
  interp : Str

/-- The dataset: its index, the group-index and the dyn-numbers of all parameters. -/
structure Data where
  idx : List ℤ
  group : List Nat
  dyn : List (Str × List Nat)

/-- A `Fits` object. -/
structure Fit where
  defs : List Def
  /-- the names of V and SRF -/
  vname : Str
  srfname : Str
  /-- `V_props` and `SRF_props` without the names (name and string-representation of the value); none if `set_V_SRF` is no dict -/
  props : Option (List (Str × Str) × List (Str × Str))
  version : Option Str
  intQ : Str
  lsq : List (Str × Str)
  data : Option Data

/-- String-representations. -/
structure Fmt where
  /-- `format(x, f".{p}")` of a float -/
  prec : Nat → Nat → Str
  /-- `str(x)` -/
  str : Val → Str
  date : ℤ → Str
  now : Str
  version : Str

/-- `s.ljust(n)` -/
def ljust (n : Nat) (s : Str) : Str := s ++ List.replicate (n - s.length) ' '

/-- `s.rjust(n)` -/
def rjust (n : Nat) (s : Str) : Str := List.replicate (n - s.length) ' ' ++ s

/-- `s.strip()` -/
def strip (s : Str) : Str := ((s.dropWhile (· = ' ')).reverse.dropWhile (· = ' ')).reverse

def dashes (n : Nat) : Str := List.replicate n '-'

/-- `f"{val:.{p}}"`: a precision is not allowed for integers (ValueError), None does not support it (TypeError). -/
def format (F : Fmt) (p : Nat) : Val → Except PyErr Str
  | .float x => .ok (F.prec p x)
  | .npFloat x => .ok (F.prec p x)
  | .str s => .ok (s.take p)
  | .int _ => .error .valueError
  | .none => .error .typeError

/-- The text for the variability (`rt1/rtfits.py` lines 2575-2579). -/
def variability : Option Str → Str
  | some s => ljust 14 ([' ', '&', ' '].intercalate ((s.splitOn '+').map strip))
  | none => "      -       ".toList

/-- The row of a fitted parameter (`rt1/rtfits.py` lines 2572-2587). -/
def row (F : Fmt) (d : Def) : Except PyErr Str := do
  let star ← format F 10 d.val
  let lo ← format F 5 d.lo
  let hi ← format F 5 d.hi
  .ok (' ' :: ljust 13 d.name ++ ['|', ' '] ++ ljust 13 star ++ ['|', ' '] ++ variability d.freq ++ ['|', ' ']
    ++ ljust 13 (lo ++ '-' :: hi) ++ ['|', ' '] ++ ljust 14 d.interp ++ ['|'])

/-- `fitted`, `auxiliary`, `fixed` -/
structure Acc where
  fitted : List Str
  aux : List Str
  fixed : List Str

/-- `f" {key:<13}= {val}"` -/
def fixedText (F : Fmt) (d : Def) : Str := ' ' :: ljust 13 d.name ++ ['=', ' '] ++ F.str d.val

/-- `f"| {key}"` -/
def auxText (d : Def) : Str := ['|', ' '] ++ d.name

/-- The branch for parameters that are not fitted (`rt1/rtfits.py` lines 2589-2593). -/
def addFixed (F : Fmt) (a : Acc) (d : Def) : Acc :=
  match d.val with
  | .str s => if s = "auxiliary".toList then { a with aux := a.aux ++ [auxText d] } else a
  | .float _ => { a with fixed := a.fixed ++ [fixedText F d] }
  | .int _ => { a with fixed := a.fixed ++ [fixedText F d] }
  | .npFloat _ => a
  | .none => a

/-- One iteration of the loop over the definitions (`rt1/rtfits.py` lines 2570-2593). -/
def step (F : Fmt) (a : Acc) (d : Def) : Except PyErr Acc :=
  match d.fitQ with
  | some true =>
    match row F d with
    | .ok r => .ok { a with fitted := a.fitted ++ [r] }
    | .error e => .error e
  | some false => .ok (addFixed F a d)
  | none => .ok a

/-- The longest name. -/
def width (l : List (Str × Str)) : Nat := (l.map fun e => e.1.length).foldr max 0

/-- One side of the table of properties: name and value, or the blanks for the missing entries (`rt1/rtfits.py` lines 2602-2616). -/
def propText (l : List (Str × Str)) (i : Nat) : Str :=
  match l[i]? with
  | some e => List.replicate 5 ' ' ++ (ljust (width l) e.1 ++ [':']) ++ ' ' :: e.2
  | none => List.replicate 5 ' ' ++ [] ++ ' ' :: []

/-- The table of properties (`rt1/rtfits.py` lines 2644-2648). -/
def propLines : Option (List (Str × Str) × List (Str × Str)) → List Str
  | none => []
  | some (v, s) => ((List.range (max v.length s.length)).map fun i => ljust 37 (propText v i) ++ '|' :: propText s i) ++ [[]]

/-- The first line (`rt1/rtfits.py` lines 2629-2634). -/
def firstLine (F : Fmt) (f : Fit) : Str :=
  (match f.version with
    | some v => ljust 38 ("used RT1_version:  ".toList ++ v)
    | none => ljust 38 ("RT1_version: ".toList ++ F.version)) ++ rjust 38 F.now

/-- The dyn-numbers of a parameter in `param_dyn_df`: one value for each group (`rt1/rtfits.py` lines 691-703). -/
def groupVals : List Nat → List Nat → List Nat → List Nat
  | _, [], _ => []
  | _, _, [] => []
  | seen, g :: gs, v :: vs => if g ∈ seen then groupVals seen gs vs else v :: groupVals (g :: seen) gs vs

/-- `param_dyn_df.nunique()` -/
def numbers (D : Data) : List (Str × Nat) := D.dyn.map fun e => (e.1, (groupVals [] D.group e.2).dedup.length)

/-- `str(n)` -/
def natStr (n : Nat) : Str := Nat.toDigits 10 n

/-- The number of estimated values (`rt1/rtfits.py` lines 2655-2663); nothing without dataset. -/
def numberLines : Option Data → List Str
  | none => []
  | some D =>
    if D.dyn = [] then []
    else ["# NUMBER OF ESIMATED VALUES ".toList,
      [',', ' ', ' ', ' '].intercalate ((numbers D).map fun e => e.1 ++ [':', ' '] ++ natStr e.2), []]

def fittedTitle : Str := dashes 29 ++ " FITTED PARAMETERS ".toList ++ dashes 29

def fittedHeader : Str :=
  ljust 14 "     NAME".toList ++ ljust 15 "|     START".toList ++ ljust 16 "|  VARIABILITY".toList ++ ljust 15 "|    BOUNDS".toList
    ++ ljust 15 "| INTERPOLATION".toList ++ [' ', '|']

def fixedTitle : Str :=
  dashes 9 ++ " FIXED PARAMETERS ".toList ++ dashes 10 ++ ['|'] ++ dashes 10 ++ " AUXILIARY DATASETS ".toList ++ dashes 9

/-- The fixed and auxiliary parameters (`rt1/rtfits.py` lines 2675-2686). -/
def fixedLines (fixed aux : List Str) : List Str :=
  (List.range (max aux.length fixed.length)).map fun i => ljust 37 (fixed.getD i []) ++ ljust 38 (aux.getD i [])

/-- `f" {key:<15}= {val}"` -/
def lsqText (e : Str × Str) : Str := ' ' :: ljust 15 e.1 ++ ['=', ' '] ++ e.2

/-- The least-squares keywords (`rt1/rtfits.py` lines 2690-2702): the first half of the keywords is combined with the second half by
`zip`. -/
def lsqLines (l : List (Str × Str)) : List Str :=
  if l.length = 0 then []
  else [[], "# LSQ PARAMETERS ".toList]
    ++ (List.zip (l.take ((l.length + 1) / 2)) (l.drop ((l.length + 1) / 2))).map
      (fun e => ljust 37 (lsqText e.1) ++ ' ' :: lsqText e.2)
    ++ [dashes 77]

/-- The properties of the dataset (`rt1/rtfits.py` lines 2703-2711); an empty dataset is not modelled. -/
def dataLines (F : Fmt) : Option Data → List Str
  | none => []
  | some D => [[], "# DATASET PROPERTIES ".toList,
      ljust 37 ("Start-date: ".toList ++ F.date (D.idx.foldr min (D.idx.headD 0)))
        ++ ("End-date: ".toList ++ F.date (D.idx.foldr max (D.idx.headD 0))),
      "Number of observations: ".toList ++ natStr D.idx.dedup.length]

/-- The lines of `_model_definition` (`rt1/rtfits.py` lines 2546-2713). -/
def lines (F : Fmt) (f : Fit) : Except PyErr (List Str) := do
  let a ← f.defs.foldlM (step F) ⟨[], [], []⟩
  .ok ([firstLine F f, dashes 77, "# SCATTERING FUNCTIONS ".toList,
      ljust 37 " VOLUME:".toList ++ '|' :: " SURFACE:".toList,
      ljust 37 (' ' :: f.vname) ++ '|' :: ' ' :: f.srfname]
    ++ propLines f.props
    ++ ["# Interaction-contribution?        ".toList ++ f.intQ, [], fittedTitle, fittedHeader]
    ++ a.fitted ++ [[]]
    ++ numberLines f.data
    ++ [fixedTitle] ++ fixedLines a.fixed a.aux ++ [dashes 77]
    ++ lsqLines f.lsq
    ++ dataLines F f.data)

/-- `_model_definition` -/
def text (F : Fmt) (f : Fit) : Except PyErr Str := (lines F f).map fun l => ['\n'].intercalate l

end ModelDef
end RT1
