import Verif.Model.Dict

/-!
# Model of the identification of sites

* ID normalisation: `rt1/rtfits.py` (`Fits.ID`), `rt1/rtresults.py` (`HDFaccessor`), `rt1/rtprocess.py` (`_extract_ID`),
  `rt1/_rtprocess_writer.py` (`_check_IDs`), `rt1/processing_config.py` (`mask_existing_HDF_IDs`)
* selection of the arguments to process and numeric IDs (`_check_IDs`), histories of processing runs
-/

namespace RT1.Ids
open General

abbrev Str := List Char

/-- The characters allowed in python identifiers (unicode properties XID_Start and XID_Continue, `_` is allowed at the
start as well): every start character may also follow, and the properties of `R`, `T`, `1`, `_`, `a` and `-`. -/
structure Chars where
  start : Char → Bool
  cont : Char → Bool
  start_cont : ∀ c, start c = true → cont c = true
  start_R : start 'R' = true
  cont_T : cont 'T' = true
  cont_1 : cont '1' = true
  cont_us : cont '_' = true
  start_1 : start '1' = false
  start_a : start 'a' = true
  cont_minus : cont '-' = false

/-- `keyword.kwlist` -/
def keywords : List Str :=
  ["False", "None", "True", "and", "as", "assert", "async", "await", "break", "class", "continue", "def", "del", "elif",
   "else", "except", "finally", "for", "from", "global", "if", "import", "in", "is", "lambda", "nonlocal", "not", "or",
   "pass", "raise", "return", "try", "while", "with", "yield"].map String.toList

/-- `str.isidentifier` -/
def strIsIdentifier (u : Chars) : Str → Bool
  | [] => false
  | c :: cs => u.start c && cs.all u.cont

/-- `isidentifier` (`rt1/general_functions.py` lines 13-28). -/
def isidentifier (u : Chars) (s : Str) : Bool :=
  if !strIsIdentifier u s then false
  else if keywords.contains s then false
  else true

def RT1_ : Str := ['R', 'T', '1', '_']

/-- The values used in reader-arguments: strings, integers, sequences (of a given length) and other scalars. -/
inductive Val
  | str (s : Str)
  | int (n : Int)
  | seq (len : Nat) (repr : Str)
  | other (repr : Str)
  deriving DecidableEq, Repr

/-- `str(v)` -/
def Val.toStr : Val → Str
  | .str s => s
  | .int n => (toString n).toList
  | .seq _ r => r
  | .other r => r

/-- `Fits.ID = v` (`rt1/rtfits.py` lines 420-427). -/
def fitsID (u : Chars) (v : Val) : Str := if !isidentifier u v.toStr then RT1_ ++ v.toStr else v.toStr

/-- `HDFaccessor._get_ID` (`rt1/rtresults.py` lines 580-585). -/
def hdfGetID (u : Chars) (v : Val) : Str := if !isidentifier u v.toStr then RT1_ ++ v.toStr else v.toStr

abbrev Arg := Dict Str Val

def keyID : Str := "ID".toList
def keyNum : Str := "_RT1_ID_num".toList

/-- `get_names_ids(reader_arg)["feature_id"]` (`rt1/processing_config.py` lines 83-111, the default implementation). -/
def featureID (a : Arg) : Except PyErr Str := do
  let v ← a.getItem keyID
  .ok v.toStr

/-- `_extract_ID` (`rt1/rtprocess.py` lines 765-771), used by `run_processing` to find existing results. -/
def extractID (u : Chars) (a : Arg) : Except PyErr Str := do
  let s ← featureID a
  .ok (if !isidentifier u s then RT1_ ++ s else s)

/-- `s.split(os.sep)[-1].split(".")[0]` (with `os.sep = "/"`). -/
def stem (s : Str) : Str := ((s.reverse.takeWhile fun c => c ≠ '/').reverse).takeWhile fun c => c ≠ '.'

/-- The default `get_ID` of `_check_IDs` and `mask_existing_HDF_IDs` (`rt1/_rtprocess_writer.py` lines 323-328,
`rt1/processing_config.py` lines 303-308). -/
def defaultGetID (u : Chars) (a : Arg) : Except PyErr Str := do
  let v ← a.getItem keyID
  let s := stem v.toStr
  .ok (if !isidentifier u s then RT1_ ++ s else s)

/-- The ID of a fit loaded from the database: the normalised ID is assigned to `Fits.ID` (`rt1/rtresults.py` lines 495-503,
665). -/
def loadedID (u : Chars) (v : Val) : Str := fitsID u (.str (hdfGetID u v))

/-! ## selection of the arguments -/

/-- A row of the table `reader_arg`: the numeric ID (index) and the column `ID`. -/
abbrev Row := Int × Val

/-- The HDF file: missing, without the table `reader_arg`, or with the rows of the table. -/
inductive DB
  | noFile
  | noTable
  | rows (r : List Row)
  deriving DecidableEq, Repr

/-- `{**arg, "_RT1_ID_num": n}` -/
def withNum (a : Arg) (n : Int) : Arg := Dict.set a keyNum (.int n)

/-- `_check_IDs` (`rt1/_rtprocess_writer.py` lines 294-366; `mask_existing_HDF_IDs` in `rt1/processing_config.py` lines 263-348
is the same function): the arguments to process. Without the table `reader_arg` the attribute `IDs` is None
(AttributeError). -/
def checkIDs (u : Chars) (getID : Arg → Except PyErr Str) (db : DB) (args : List Arg) : Except PyErr (List Arg) :=
  match db with
  | .noFile => .ok (args.zipIdx.map fun p => withNum p.1 p.2)
  | .noTable => .error .attributeError
  | .rows r => do
    let ids ← args.mapM getID
    let processQ := ids.map fun i => decide (i ∈ r.map fun e => hdfGetID u e.2)
    let sel := ((args.zip processQ).filter fun p => !p.2).map Prod.fst
    .ok (sel.zipIdx.map fun p => withNum p.1 (findMissing (r.map Prod.fst) p.2))

/-! ## runs -/

/-- The row of the table `reader_arg` stored for a processed argument (`rt1/rtfits.py` lines 2945-2955): if the argument
cannot be converted to a data frame with one row (a sequence of another length), the numeric ID is stored instead of the
ID. `none`: the argument has no ID (the fit fails). -/
def rowOf (a : Arg) : Option Row :=
  match a.get? keyNum, a.get? keyID with
  | some (.int n), some v =>
    if a.any fun e => match e.2 with | .seq l _ => decide (l ≠ 1) | _ => false then some (n, .int n) else some (n, v)
  | _, _ => none

def DB.content : DB → List Row
  | .rows r => r
  | _ => []

/-- One processing run (with the default `get_names_ids`): an arbitrary subset of the selected arguments is stored, in
arbitrary order (the others failed, or the run was interrupted).  The file may be created even if nothing was stored. -/
def Run (u : Chars) (args : List Arg) (db db' : DB) : Prop :=
  ∃ sel stored done, checkIDs u (extractID u) db args = .ok sel ∧ stored.Sublist (sel.filterMap rowOf) ∧
    done.Perm stored ∧ db'.content = db.content ++ done ∧ (db ≠ .noFile → db' ≠ .noFile)

/-- A history of runs (each with its own arguments), starting without database. -/
inductive History (u : Chars) : List (List Arg) → DB → Prop
  | start : History u [] .noFile
  | run {h args db db'} : History u h db → Run u args db db' → History u (args :: h) db'

end RT1.Ids
