import Verif.Model.General

/-!
# Model of `RT1_processor.create_index` (`rt1/_rtprocess_writer.py` lines 668-746)

Tables of a HDF-store are represented by what `create_index` uses: the levels of the index, the columns of the table on disk, the labels of
the columns of the DataFrame, and the set of columns for which an index exists.
-/

namespace RT1.CreateIndex
open General

/-- `storer.levels`: the number 1 for tables with a simple index, otherwise the list of the names of the levels. -/
inductive Levels
  | simple
  | multi (names : List String)
deriving DecidableEq

/-- A table: the index-levels, the columns on disk, the labels of the DataFrame, the columns with an index, and the data. -/
structure Table where
  levels : Levels
  cols : List String
  labels : List String
  indexed : List String
  data : Nat

/-- The keys of the store as lists of characters. -/
abbrev Key := List Char

/-- The tables of the store with their keys. -/
abbrev Store := List (Key × Table)

/-- `store.get_storer(key)` -/
def Store.get (s : Store) (key : Key) : Option Table := (s.find? fun kt => decide (kt.1 = key)).map Prod.snd

/-- Replace the table of a key. -/
def Store.put (s : Store) (key : Key) (t : Table) : Store := s.map fun kt => if kt.1 = key then (key, t) else kt

/-- `storer.create_index(columns)` of pandas: columns of the table get an index, labels of the DataFrame that are not columns on disk raise
AttributeError, all others are ignored. -/
def addIndex (t : Table) : List String → Table × Except PyErr Unit
  | [] => (t, .ok ())
  | c :: l =>
    if c ∈ t.cols then addIndex { t with indexed := if c ∈ t.indexed then t.indexed else t.indexed ++ [c] } l
    else if c ∈ t.labels then (t, .error .attributeError)
    else addIndex t l

/-- The argument `idx_levels`. -/
inductive IdxLevels
  | none
  | all
  | some (names : List String)

/-- `use_levels` (lines 712-735) as strings; the number 1 has no length and is not iterable. -/
def useLevels : IdxLevels → Levels → Except PyErr (List String)
  | .none, .multi (n :: _) => .ok [n]
  | .none, .multi [] => .error .indexError
  | .none, .simple => .ok ["1"]
  | .all, .multi ns => .ok ns
  | .all, .simple => .error .typeError
  | .some is, .multi ns => .ok (is.filter fun n => decide (n ∈ ns))
  | .some _, .simple => .error .typeError

/-- The body of the loop for one key (lines 711-745). -/
def step (idx : IdxLevels) (s : Store) (key : Key) : Store × Except PyErr Unit := match s.get key with
  | none => (s, .error .keyError)
  | some t => match useLevels idx t.levels with
    | .error e => (s, .error e)
    | .ok ls => (s.put key (addIndex t ls).1, (addIndex t ls).2)

/-- The loop over the keys (line 710). -/
def loop (idx : IdxLevels) : List Key → Store → Store × Except PyErr Unit
  | [], s => (s, .ok ())
  | k :: l, s => match step idx s k with
    | (s', .ok _) => loop idx l s'
    | (s', .error e) => (s', .error e)

/-- `use_keys` (lines 703-704): an empty list of keys is replaced by all keys. -/
def useKeys (keys : List Key) (s : Store) : List Key :=
  (if keys = [] then s.map Prod.fst else keys).filter fun k => !(List.isSuffixOf ['/', 'm', 'e', 't', 'a'] k)

/-- `create_index` (lines 668-746) -/
def createIndex (idx : IdxLevels) (keys : List Key) (s : Store) : Store × Except PyErr Unit := loop idx (useKeys keys s) s

end RT1.CreateIndex
