import Verif.Model.Dict
import Mathlib.Data.List.Sort

/-!
# Model of reading a result database (`HDFaccessor` in `rt1/rtresults.py`, `RT1_processor.get_data`)

A table is the list of its rows with the numeric ID of each row (the first index level), in storage order.
-/

namespace RT1
namespace Database

variable {ρ : Type}

abbrev Frame (ρ : Type) := List (Nat × ρ)

structure Table (ρ : Type) where
  /-- `is_multi_index` of the storer -/
  multi : Bool
  rows : Frame ρ

/-- `HDFaccessor`: `IDs` (numeric index and string ID) and the tables of the store. `IDs is None` (no `reader_arg`
table) is not modelled. -/
structure DB (ρ : Type) where
  ids : List (Nat × String)
  tables : Dict String (Table ρ)

/-- `self.IDs.index` -/
def DB.index (db : DB ρ) : List Nat := db.ids.map Prod.fst

/-- `_chunks` (`rt1/rtresults.py` lines 683-687) for `n > 0`. -/
def chunks {α : Type} (n : Nat) (l : List α) : List (List α) :=
  (List.range ((l.length + n - 1) / n)).map fun k => (l.drop (k * n)).take n

/-- The rows of a table for a set of IDs (`select_as_coordinates`, `read`). -/
def rowsOf (t : Frame ρ) (ids : List Nat) : Frame ρ := t.filter fun e => e.1 ∈ ids

/-- `_get_vals` (`rt1/rtresults.py` lines 689-709): all frames of the generator, or the exception raised by the first `next`.
`start` is not negative (None is 0). A step 0 of `range` raises ValueError. -/
def getVals (index : List Nat) (t : Frame ρ) (chunksize start : Nat) : Except PyErr (List (Frame ρ)) :=
  if start ≠ 0 ∧ ¬ start < index.length then .error .assertionError
  else if chunksize = 0 then .error .valueError
  else .ok ((chunks chunksize (index.drop start)).map (rowsOf t))

/-- The values of the first index level (`df.index.levels[0]`), sorted. -/
def level (f : Frame ρ) : List Nat := ((f.map Prod.fst).dedup).insertionSort (· ≤ ·)

/-- `iloc_level(df, slice(…))` (`rt1/rtresults.py` lines 964-1001); raises AttributeError without a MultiIndex. `sel` selects the
values of the first level. -/
def ilocLevel (multi : Bool) (f : Frame ρ) (sel : List Nat → List Nat) : Except PyErr (Frame ρ) :=
  if multi then .ok (rowsOf f (sel (level f))) else .error .attributeError

/-- The frames of a generator that have been yielded, and the exception that ended it (none: it is exhausted). -/
abbrev Gen (ρ : Type) := List (Frame ρ) × Option PyErr

/-- The loop in `_get_nids_iter` (lines 860-892). `q` is `nids // read_chunksize`, `r` is `nids % read_chunksize`, `r10` is
`nids % 10`. A `next` on the exhausted generator raises StopIteration, which python turns into RuntimeError inside of a
generator. Simplified: `set_ID` is False. -/
def loop (multi : Bool) (q r r10 : Nat) : Nat → List (Frame ρ) → List (Frame ρ) → Gen ρ
  | _, [], ret => if ret.isEmpty then ([], none) else ([ret.flatten], none)
  | i, d :: ds, ret =>
    let ret := ret ++ [d]
    if q = 0 then ([], some .zeroDivisionError)
    else if (i + 1) % q = 0 then
      if r ≠ 0 then
        match ds with
        | [] => ([], some .runtimeError)
        | data :: ds =>
          match ilocLevel multi data (List.take r10) with
          | .error e => ([], some e)
          | .ok first =>
            let block := (ret ++ [first]).flatten
            match ilocLevel multi block (List.drop r10) with
            | .error e => ([block], some e)
            | .ok rest =>
              let g := loop multi q r r10 (i + 1) ds [rest]
              (block :: g.1, g.2)
      else
        let g := loop multi q r r10 (i + 1) ds []
        (ret.flatten :: g.1, g.2)
    else loop multi q r r10 (i + 1) ds ret
termination_by structural _ ds => ds

/-- `read_chunksize` (lines 835-846) -/
def readChunk (multi : Bool) (nids : Nat) : Option Nat → Nat
  | some n => n
  | none => if multi then min 10 nids else nids

/-- `_get_nids_iter` for an integer `nids` (`rt1/rtresults.py` lines 795-892). (For other values of `nids` the first line raises
TypeError, so that the branches for iterables are never reached.) -/
def nidsIter (db : DB ρ) (key : String) (nids start : Nat) (chunk : Option Nat) : Gen ρ :=
  let n := min db.ids.length nids
  match db.tables.get? key with
  | none => ([], some .assertionError)
  | some t =>
    let c := readChunk t.multi n chunk
    match getVals db.index t.rows c start with
    | .error e => ([], some e)
    | .ok frames => loop t.multi (n / c) (n % c) (n % 10) 0 frames []

/-- `next(generator)` -/
def Gen.next (g : Gen ρ) : Except PyErr (Frame ρ) :=
  match g with
  | (f :: _, _) => .ok f
  | ([], some e) => .error e
  | ([], none) => .error .stopIteration

/-! ## Loading by ID -/

/-- `_ID_to_IDnum` (`rt1/rtresults.py` lines 766-767) -/
def idNum (db : DB ρ) (s : String) : Except PyErr Nat :=
  match db.ids.filter fun e => e.2 = s with
  | [] => .error .indexError
  | e :: _ => .ok e.1

/-- `self.IDs.index.get_loc(n)`: a number if the label is unique; for other labels a slice or a mask, which cannot be used as a
start (TypeError or ValueError). -/
def getLoc (db : DB ρ) (n : Nat) : Except PyErr Nat :=
  match db.index.count n with
  | 0 => .error .keyError
  | 1 => .ok (db.index.idxOf n)
  | _ => .error .typeError

/-- `_get_id` for the numeric ID (`rt1/rtresults.py` lines 769-793) -/
def getId (db : DB ρ) (key : String) (n : Nat) : Except PyErr (Frame ρ) := do
  let pos ← getLoc db n
  (nidsIter db key 1 pos none).next

/-- `frame.loc[ID]`: the rows without the ID; KeyError if there are none. -/
def loc (f : Frame ρ) (n : Nat) : Except PyErr (List ρ) :=
  match (f.filter fun e => e.1 = n).map Prod.snd with
  | [] => .error .keyError
  | l => .ok l

/-- The argument of `load_fit`. -/
inductive Key
  | str (s : String)
  | num (n : Nat)

/-- A loaded fit: the rows it is created from. -/
structure Loaded (ρ : Type) where
  ident : String
  init : List ρ
  dataset : Option (List ρ)
  aux : Option (List ρ)
  readerArg : Option (List ρ)
  res : Option (List ρ)
deriving DecidableEq

/-- `try: x = get_id(ID) except: x = None`, then `x.loc[ID]` if it is not None. -/
def part (db : DB ρ) (key : String) (n : Nat) : Except PyErr (Option (List ρ)) :=
  match getId db key n with
  | .error _ => .ok none
  | .ok f => (loc f n).map some

/-- The string ID of a numeric ID (`self.IDs.loc[ID].values[0]`). -/
def identOf (db : DB ρ) (n : Nat) : Except PyErr String :=
  match db.ids.find? fun e => e.1 = n with
  | none => .error .keyError
  | some e => .ok e.2

/-- `_load_fit` (`rt1/rtresults.py` lines 587-681) for a given ID (None, a random choice, is not modelled). The creation of
the fit objects from the rows is not modelled. Any exception while reading `reader_arg` is replaced by `dict(ID=…)` (none).
The result none: "fit can not be loaded". -/
def loadFit (db : DB ρ) (key : Key) : Except PyErr (Option (Loaded ρ)) := do
  let n ← match key with
    | .str s => idNum db s
    | .num n => .ok n
  match getId db "init_dict" n with
  | .error _ => .ok none
  | .ok f =>
    let ident ← identOf db n
    let init ← loc f n
    let dataset ← part db "dataset" n
    let aux ← part db "aux_data" n
    let res ← part db "res_dict" n
    let readerArg := match part db "reader_arg" n with
      | .ok r => r
      | .error _ => none
    .ok (some ⟨ident, init, dataset, aux, readerArg, res⟩)

/-! ## get_data -/

/-- `get_data` (`rt1/_rtprocess_writer.py` lines 748-788). The keys of the store are paths (`/config/key` or `/key`);
`key` and `config` are names without slashes. `select` raises KeyError for a missing key. -/
def getData {τ : Type} (store : Dict (List String) τ) (key : String) (config : Option String) : Except PyErr τ :=
  let constKeys := store.keys.filter fun p => p.length = 1
  if config = none ∧ [key] ∉ constKeys then .error .assertionError
  else store.getItem [config.getD "None", key]

end Database
end RT1
