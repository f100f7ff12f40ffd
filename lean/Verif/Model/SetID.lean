import Verif.Model.Database

/-!
# Model of the access to the tables of a result database with string-IDs (`HDFaccessor(set_ID=True)`, `rt1/rtresults.py`)

Extends `Model/Database` (numeric IDs): the index of a DataFrame with a MultiIndex is given by the values of its first level and a code
for each row.
-/

namespace RT1
namespace SetID
open Database

variable {ρ : Type}

/-- A value of the first level of an index. -/
inductive Label
  | num (n : Nat)
  | str (s : String)
deriving DecidableEq

/-- The rows of a DataFrame with the value of the first level of the index. -/
abbrev LFrame (ρ : Type) := List (Label × ρ)

/-- A DataFrame with a MultiIndex: `df.index.levels[0]`, and the rows with their code. -/
structure MFrame (ρ : Type) where
  levels : List Label
  rows : List (Nat × ρ)

inductive DFrame (ρ : Type)
  | multi (m : MFrame ρ)
  | single (f : LFrame ρ)

/-- The number of a label (0 for strings). -/
def Label.toNum : Label → Nat
  | .num n => n
  | .str _ => 0

def Label.isNum : Label → Bool
  | .num _ => true
  | .str _ => false

/-- The values of a new level: sorted numbers; mixed values are not sorted.  (Levels with strings only are not created, see `loop`.) -/
def factor (f : LFrame ρ) : List Label :=
  if f.all fun e => e.1.isNum then (((f.map fun e => e.1.toNum).dedup).insertionSort (· ≤ ·)).map .num
  else (f.map Prod.fst).dedup

/-- `MultiIndex.from_arrays` -/
def fromRows (f : LFrame ρ) : MFrame ρ := ⟨factor f, f.map fun e => ((factor f).idxOf e.1, e.2)⟩

/-- The label of each row. -/
def MFrame.labels (m : MFrame ρ) : LFrame ρ := m.rows.map fun e => (m.levels.getD e.1 (.num 0), e.2)

def DFrame.labels : DFrame ρ → LFrame ρ
  | .multi m => m.labels
  | .single f => f

/-- A DataFrame that is read from the store (`set_index(levels)` for tables with a MultiIndex). -/
def read (multi : Bool) (f : Frame ρ) : DFrame ρ :=
  let g : LFrame ρ := f.map fun e => (.num e.1, e.2)
  if multi then .multi (fromRows g) else .single g

/-- `pd.concat(l)`: the levels are created anew. -/
def concat (multi : Bool) (l : List (DFrame ρ)) : DFrame ρ :=
  let g := (l.map DFrame.labels).flatten
  if multi then .multi (fromRows g) else .single g

/-- `self.IDs.loc[labels].ID`: all rows of `IDs` with these numbers; a label without rows raises KeyError. -/
def idsLoc (ids : List (Nat × String)) : List Label → Except PyErr (List String)
  | [] => .ok []
  | .str _ :: _ => .error .keyError
  | .num n :: ls =>
    match (ids.filter fun e => e.1 = n).map Prod.snd with
    | [] => .error .keyError
    | new =>
      match idsLoc ids ls with
      | .error e => .error e
      | .ok l => .ok (new ++ l)

/-- The replacement of numeric IDs (`rt1/rtresults.py` lines 872-879 and 922-930).  With a MultiIndex the values of the level are replaced
(`set_levels`, ValueError if they are not unique); otherwise the column `ID` is the new index (ValueError for numbers that are not unique
in `IDs`). -/
def setIDs (ids : List (Nat × String)) : DFrame ρ → Except PyErr (DFrame ρ)
  | .multi m =>
    match idsLoc ids m.levels with
    | .error e => .error e
    | .ok new => if new.Nodup then .ok (.multi ⟨new.map .str, m.rows⟩) else .error .valueError
  | .single f =>
    match idsLoc ids (f.map Prod.fst) with
    | .error e => .error e
    | .ok new =>
      if new.length = f.length then .ok (.single (List.zipWith (fun s e => (.str s, e.2)) new f)) else .error .valueError

/-- `if self.set_ID is True: …` -/
def applyID (setID : Bool) (ids : List (Nat × String)) (d : DFrame ρ) : Except PyErr (DFrame ρ) :=
  if setID then setIDs ids d else .ok d

/-- `iloc_level(df, slice(…))` (`rt1/rtresults.py` lines 962-1001): the rows with the selected values of the first level; AttributeError
without a MultiIndex. -/
def iloc (sel : List Label → List Label) : DFrame ρ → Except PyErr (DFrame ρ)
  | .multi m => .ok (.multi ⟨m.levels, m.rows.filter fun e => m.levels.getD e.1 (.num 0) ∈ sel m.levels⟩)
  | .single _ => .error .attributeError

/-- The yielded frames and the exception. -/
abbrev DGen (ρ : Type) := List (DFrame ρ) × Option PyErr

/-- The loop in `_get_nids_iter` (`rt1/rtresults.py` lines 862-892), see `Database.loop`; `set_ID` does not change during the iteration. -/
def loop (multi setID : Bool) (ids : List (Nat × String)) (q r r10 : Nat) : Nat → List (DFrame ρ) → List (DFrame ρ) → DGen ρ
  | _, [], ret => if ret.isEmpty then ([], none) else ([concat multi ret], none)
  | i, d :: ds, ret =>
    let ret := ret ++ [d]
    if q = 0 then ([], some .zeroDivisionError)
    else if (i + 1) % q = 0 then
      if r ≠ 0 then
        match ds with
        | [] => ([], some .runtimeError)
        | data :: ds =>
          match iloc (List.take r10) data with
          | .error e => ([], some e)
          | .ok first =>
            match applyID setID ids (concat multi (ret ++ [first])) with
            | .error e => ([], some e)
            | .ok block =>
              match iloc (List.drop r10) block with
              | .error e => ([block], some e)
              | .ok rest =>
                let g := loop multi setID ids q r r10 (i + 1) ds [rest]
                (block :: g.1, g.2)
      else
        match applyID setID ids (concat multi ret) with
        | .error e => ([], some e)
        | .ok block =>
          let g := loop multi setID ids q r r10 (i + 1) ds []
          (block :: g.1, g.2)
    else loop multi setID ids q r r10 (i + 1) ds ret
termination_by structural _ ds => ds

/-- `_get_nids_iter` for an integer `nids` (`rt1/rtresults.py` lines 795-892), see `Database.nidsIter`. -/
def nidsIter (db : DB ρ) (setID : Bool) (key : String) (nids start : Nat) (chunk : Option Nat) : DGen ρ :=
  let n := min db.ids.length nids
  match db.tables.get? key with
  | none => ([], some .assertionError)
  | some t =>
    let c := readChunk t.multi n chunk
    match getVals db.index t.rows c start with
    | .error e => ([], some e)
    | .ok frames => loop t.multi setID db.ids (n / c) (n % c) (n % 10) 0 (frames.map (read t.multi)) []

/-- `next(generator)` -/
def next : DGen ρ → Except PyErr (DFrame ρ)
  | (f :: _, _) => .ok f
  | ([], some e) => .error e
  | ([], none) => .error .stopIteration

/-- `_get_nids` (`rt1/rtresults.py` lines 729-764) -/
def getNids (db : DB ρ) (setID : Bool) (key : String) (nids start : Nat) (chunk : Option Nat) : Except PyErr (DFrame ρ) :=
  next (nidsIter db setID key nids start chunk)

/-- The argument of `_get_id` as number (`_ID_to_IDnum` for strings). -/
def keyNum (db : DB ρ) : Key → Except PyErr Nat
  | .str s => idNum db s
  | .num n => .ok n

/-- `_get_id` (`rt1/rtresults.py` lines 769-793) -/
def getId (db : DB ρ) (setID : Bool) (key : String) (n : Key) : Except PyErr (DFrame ρ) :=
  match keyNum db n with
  | .error e => .error e
  | .ok n =>
    match getLoc db n with
    | .error e => .error e
    | .ok pos => next (nidsIter db setID key 1 pos none)

/-- `_subselector.select()` without arguments (`rt1/rtresults.py` lines 919-932); a missing table raises KeyError. -/
def select (db : DB ρ) (setID : Bool) (key : String) : Except PyErr (DFrame ρ) :=
  match db.tables.get? key with
  | none => .error .keyError
  | some t => applyID setID db.ids (read t.multi t.rows)

/-! ## load_fit -/

/-- `with self._numeric_ID(): …` (`rt1/rtresults.py` lines 569-577): `set_ID` is False while the body runs; the result (or the exception)
of the body and the value of `set_ID` afterwards. -/
def numericID {α : Type} (setID : Bool) (body : Bool → Except PyErr α) : Except PyErr α × Bool :=
  let saved := setID
  let current := false
  (body current, saved)

/-- `frame.loc[ID]` with a numeric ID; KeyError if there are no such rows. -/
def loc (d : DFrame ρ) (n : Nat) : Except PyErr (List ρ) :=
  match (d.labels.filter fun e => e.1 = .num n).map Prod.snd with
  | [] => .error .keyError
  | l => .ok l

/-- `try: x = get_id(ID) except: x = None`, then `x.loc[ID]` if it is not None. -/
def part (db : DB ρ) (setID : Bool) (key : String) (n : Nat) : Except PyErr (Option (List ρ)) :=
  match getId db setID key (.num n) with
  | .error _ => .ok none
  | .ok f => (loc f n).map some

/-- The body of `_load_fit` (`rt1/rtresults.py` lines 588-681), see `Database.loadFit`. -/
def loadBody (db : DB ρ) (key : Key) (setID : Bool) : Except PyErr (Option (Loaded ρ)) := do
  let n ← keyNum db key
  match getId db setID "init_dict" (.num n) with
  | .error _ => .ok none
  | .ok f =>
    let ident ← identOf db n
    let init ← loc f n
    let dataset ← part db setID "dataset" n
    let aux ← part db setID "aux_data" n
    let res ← part db setID "res_dict" n
    let readerArg := match part db setID "reader_arg" n with
      | .ok r => r
      | .error _ => none
    .ok (some ⟨ident, init, dataset, aux, readerArg, res⟩)

/-- `_load_fit` (`rt1/rtresults.py` lines 586-681): the fit and the value of `set_ID` afterwards. -/
def loadFit (db : DB ρ) (setID : Bool) (key : Key) : Except PyErr (Option (Loaded ρ)) × Bool :=
  numericID setID (loadBody db key)

/-! ## the attributes of `datasets` -/

/-- The name of an attribute: a name without slashes, or the full key of the store. -/
inductive Attr
  | name (s : String)
  | full (path : List String)
deriving DecidableEq

/-- An attribute of `datasets`: the table with this path (`_subselector`), or the tables of a config (`_cfgselector`). -/
inductive Sel
  | table (path : List String)
  | cfg (tables : Dict String (List String))

/-- `cfgkeys[keysplit[0]].append(keysplit[1])` for keys with two parts (`rt1/rtresults.py` lines 525-526). -/
def addCfg (d : Dict String (List String)) : List String → Dict String (List String)
  | [c, k] => d.set c ((d.get? c).getD [] ++ [k])
  | _ => d

/-- The other keys (`rt1/rtresults.py` lines 527-530). -/
def addAttr (d : Dict Attr Sel) : List String → Dict Attr Sel
  | [k] => d.set (.name k) (.table [k])
  | [_, _] => d
  | p => d.set (.full p) (.table p)

/-- `_cfgselector.__init__` (`rt1/rtresults.py` lines 900-909).  (Tables with the names of the attributes `_parent`, `_cfg`, `_keys` are not
modelled.) -/
def cfgSel (c : String) (ks : List String) : Sel :=
  .cfg (ks.foldl (fun d k => d.set k [c, k]) [])

/-- The attributes of `self.datasets` (`rt1/rtresults.py` lines 519-533) for the keys of the store (as paths); keys that end with `/meta` are
ignored. -/
def datasets (keys : List (List String)) : Dict Attr Sel :=
  let used := keys.filter fun p => p.getLast? ≠ some "meta"
  let cfgkeys := used.foldl addCfg []
  let attrs := used.foldl addAttr []
  cfgkeys.foldl (fun d ck => d.set (.name ck.1) (cfgSel ck.1 ck.2)) attrs

end SetID
end RT1
