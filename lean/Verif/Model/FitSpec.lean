import Verif.Model.Grouping
import Verif.Model.Config
import Mathlib.Data.List.ReduceOption

/-! Model of the definitions of a fit: start values (`_startvaldict`), temporal variability (`_timescaledict`,
`_manual_dyn_df`). -/

namespace RT1.FitSpec
open General Grouping

/-! ## start values -/

/-- The column of a parameter in `param_dyn_df` (`rt1/rtfits.py` lines 686-703): the dyn-group of the first observation
(`i[0]`) of each fit-group. -/
def dynDf {κ κ' : Type} [DecidableEq κ] (gi : List κ) (dyn : List κ') : List κ' :=
  (groupValues (gi.zip dyn) Prod.fst Prod.snd).filterMap List.head?

/-- `_param_assigns[key].values()` (`rt1/rtfits.py` lines 1019-1029): the positions of the fit-groups that belong to each
dyn-group. -/
def paramAssigns {κ κ' : Type} [DecidableEq κ] [DecidableEq κ'] (gi : List κ) (dyn : List κ') : List (List Nat) :=
  groupValues (dynDf gi dyn).zipIdx Prod.fst Prod.snd

/-- The arithmetic mean of a list of numbers. -/
noncomputable def mean (l : List ℝ) : ℝ := l.sum / l.length

/-- `np.ma.mean(np.ma.masked_array(A, M), axis=1)`: the mean of the unmasked entries of each row, where entries of `A` that
are masked already are `none`; the result is masked for a row without unmasked entries. -/
noncomputable def maMean (A : List (List (Option ℝ))) (M : List (List Bool)) : List (Option ℝ) :=
  List.zipWith (fun r m => let l := (((r.zip m).filter fun x => !x.2).map Prod.fst).reduceOption
    if l.isEmpty then none else some (mean l)) A M

/-- The start values of an auxiliary parameter (`rt1/rtfits.py` lines 1124-1153, without the frequency `"index"`): the
means of the fit-groups, averaged over the fit-groups of each dyn-group.  `.compressed()` drops the masked entries.
Simplified: the column contains no nan. -/
noncomputable def auxStart {κ κ' : Type} [DecidableEq κ] [DecidableEq κ'] (gi : List κ) (dyn : List κ')
    (col : List ℝ) : Except PyErr (List ℝ) := do
  let (st, sm) ← rectangularize (paramAssigns gi dyn)
  let (A, M) ← rectangularize (grouped gi col)
  let T ← take2 (maMean (A.map (List.map some)) M) st
  return (maMean T sm).reduceOption

/-- The start values of an auxiliary parameter with frequency `"index"` (`rt1/rtfits.py` lines 1124-1138):
`np.mean(rows, axis=1)`; lists of different lengths can not be converted to a two-dimensional array (ValueError). -/
noncomputable def auxStartIndex {κ : Type} [DecidableEq κ] (gi : List κ) (col : List ℝ) : Except PyErr (List ℝ) :=
  let rows := grouped gi col
  if (rows.map List.length).dedup.length > 1 then .error .valueError else .ok (rows.map mean)

/-- The start value of a fitted parameter (second entry of the definition). -/
inductive StartSpec
  | auxiliary
  | value (v : StartVal)

/-- `_startvaldict[key]` (`rt1/rtfits.py` lines 1110-1165) for one fitted parameter.  `isIndex` is
`defdict[key][2] == "index"`; `col` is the column `<key>_start` of the dataset (AssertionError if it is missing).
`uniques[key]` is the number of distinct values of the column of `param_dyn_df`. -/
noncomputable def startvals {κ κ' : Type} [DecidableEq κ] [DecidableEq κ'] (gi : List κ) (dyn : List κ') (isIndex : Bool)
    (col : Option (List ℝ)) (s : StartSpec) : Except PyErr StartVal := do
  let v ← match s with
    | .auxiliary => match col with
      | none => .error .assertionError
      | some c => (if isIndex then auxStartIndex gi c else auxStart gi dyn c).map StartVal.list
    | .value v => .ok v
  return startVals (dynDf gi dyn).dedup.length v

/-! ## temporal variability -/

open Config (Str strip splitChar)

/-- The third entry of the definition of a fitted parameter: `None`, a string or an integer. -/
inductive FreqDef
  | none
  | str (s : Str)
  | int (n : Int)
deriving DecidableEq

/-- The values of `_timescaledict`: an integer or a datetime-offset string. -/
inductive TimeScale
  | int (n : Int)
  | offset (s : Str)
deriving DecidableEq

/-- The library functions used for the variability: `int(s)` (`none` is a ValueError), `str.isspace`, and the calendar bins
of `pd.Grouper(freq=s)` (`none` if `s` is not a valid datetime-offset). -/
structure Lib (τ : Type) where
  toInt : Str → Option Int
  ws : Char → Bool
  bins : Str → Option (τ → Int)

def manualStr : Str := ['m', 'a', 'n', 'u', 'a', 'l']
def indexStr : Str := ['i', 'n', 'd', 'e', 'x']

/-- `list(map(str.strip, str(val[2]).split("+")))` (`rt1/rtfits.py` lines 1200, 1251-1253). -/
def freqParts {τ : Type} (lib : Lib τ) (d : FreqDef) : List Str :=
  (splitChar '+' (match d with
    | .none => ['N', 'o', 'n', 'e']
    | .str s => s
    | .int n => strInt n)).map (strip lib.ws)

/-- The entry of one fitted parameter in `_timescaledict` (`rt1/rtfits.py` lines 1192-1220), `none` if there is none. -/
def timescale {τ : Type} (lib : Lib τ) (d : FreqDef) : Except PyErr (Option TimeScale) :=
  if d = .none ∨ d = .str manualStr ∨ d = .str indexStr then .ok none
  else do
    let usevals := freqParts lib d
    if usevals.length > 2 then throw .assertionError
    if usevals.length = 2 ∧ manualStr ∉ usevals then throw .assertionError
    let usevals := if usevals.length = 2 then usevals.erase manualStr else usevals
    match usevals.head? with
    | none => throw .indexError
    | some s => match lib.toInt s with
      | some n => return some (.int n)
      | none => return some (.offset s)

/-- The column of one fitted parameter in `_manual_dyn_df` (`rt1/rtfits.py` lines 1230-1266), `none` if there is none.
`col` is the column `<key>_dyn` of the dataset.  The warning about ignored columns is not modelled. -/
def manualDyn {τ : Type} [DecidableEq τ] (lib : Lib τ) (index : List τ) (col : Option (List Int)) (d : FreqDef) :
    Except PyErr (Option (List Int)) :=
  if d = .str manualStr then
    match col with
    | some c => .ok (some c)
    | none => .error .assertionError
  else if d = .str indexStr then .ok (some (indexDyn index))
  else if d ≠ .none ∧ manualStr ∈ freqParts lib d then
    match col with
    | some c => .ok (some c)
    | none => .error .assertionError
  else .ok none

/-- The definition of one parameter: is it fitted, its variability, and the column `<key>_dyn` of the dataset. -/
structure ParamDef where
  fit : Bool
  freq : FreqDef
  col : Option (List Int)

/-- The loop of `_timescaledict` and `_manual_dyn_df` over the fitted parameters (`rt1/rtfits.py` lines 1192-1193,
1230-1232): the values that are not `none` are collected. -/
def collectFitted {β : Type} (g : ParamDef → Except PyErr (Option β)) (defs : List (String × ParamDef)) :
    Except PyErr (List (String × β)) :=
  defs.foldlM (fun acc kd => if kd.2.fit then do
    match ← g kd.2 with
    | some t => return acc ++ [(kd.1, t)]
    | none => return acc
    else return acc) []

/-- `_timescaledict` (`rt1/rtfits.py` lines 1187-1221); `defs` is the defdict (distinct keys). -/
def timescaleDict {τ : Type} (lib : Lib τ) (defs : List (String × ParamDef)) :
    Except PyErr (List (String × TimeScale)) :=
  collectFitted (fun p => timescale lib p.freq) defs

/-- The columns of `_manual_dyn_df` (`rt1/rtfits.py` lines 1223-1271). -/
def manualDict {τ : Type} [DecidableEq τ] (lib : Lib τ) (index : List τ) (defs : List (String × ParamDef)) :
    Except PyErr (List (String × List Int)) :=
  collectFitted (fun p => manualDyn lib index p.col p.freq) defs

/-- The groups of a frequency (`rt1/rtfits.py` lines 605-662); invalid offsets raise a ValueError (lines 611-616). -/
def freqDyn {τ : Type} [DecidableEq τ] (lib : Lib τ) (index : List τ) : TimeScale → Except PyErr (List Int)
  | .int n => intDyn index n
  | .offset s => match lib.bins s with
    | some b => .ok (offsetDyn index b)
    | none => .error .valueError

/-- The first part of `param_dyn_dict` (`rt1/rtfits.py` lines 580-662): all fitted parameters are initialized with ones
(lines 598-600), the frequencies are grouped by their value and evaluated once (lines 590-597, 602-662). -/
def freqStage {τ : Type} [DecidableEq τ] (lib : Lib τ) (index : List τ) (defs : List (String × ParamDef)) :
    Except PyErr (Dict String (List Int)) := do
  let dynKeys := (defs.filter fun kd => kd.2.fit).map Prod.fst
  let ts ← timescaleDict lib defs
  let init : Dict String (List Int) := Dict.ofList (dynKeys.map fun k => (k, List.replicate index.length 1))
  (groupbyUnsorted ts Prod.snd Prod.fst).foldlM (fun (d : Dict String (List Int)) fk => do
    let g ← freqDyn lib index fk.1
    return fk.2.foldl (fun d k => Dict.set d k g) d) init

/-- `param_dyn_dict` (`rt1/rtfits.py` lines 580-682) for all parameters: the manual dynamics are superimposed (lines
664-681) on the dynamics of the frequencies. -/
def paramDynDict {τ : Type} [DecidableEq τ] (lib : Lib τ) (index : List τ) (defs : List (String × ParamDef)) :
    Except PyErr (Dict String (List Int)) := do
  let d ← freqStage lib index defs
  let man ← manualDict lib index defs
  man.foldlM (fun (d : Dict String (List Int)) km => do
    let base ← Dict.getItem d km.1
    return Dict.set d km.1 (← superimpose base km.2)) d

end RT1.FitSpec
