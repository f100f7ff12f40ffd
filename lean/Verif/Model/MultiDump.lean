import Verif.Model.DumpState
import Verif.Model.MultiFits

/-!
# Dumping and loading `MultiFits` objects, access to their configurations (`rt1/rtfits.py`)

On top of `Model/DumpState` (state of a single fit).  Simplified: every fit is attached under one name (for shared objects see
`Model/MultiFits`).
-/

namespace RT1.MultiDump
open General DumpState

variable {V : Type}

/-- A fit in a container: its attributes, and `config_name` (if it has this attribute). -/
structure Cfg (V : Type) where
  attrs : Attrs V
  name : Option String

/-- The attribute `_parent` of the container: the object itself, another object with a list of names, or missing (files of previous
versions). -/
inductive Parent
  | self
  | own (names : List String)
  | missing
  deriving DecidableEq

/-- `config_names`, the fits in the `__dict__` of the container, the shared attributes. -/
structure State (V : Type) where
  names : List String
  fits : Dict String (Cfg V)
  parent : Parent
  dataset : Val V
  aux : Val V
  reader : Val V

/-- `aux_data` of a fit -/
def kAux : Key := .other "aux_data"

/-- `reader_arg` of a fit -/
def kReader : Key := .other "reader_arg"

/-- `self._parent.config_names` in the container -/
def parentNames (s : State V) : Except PyErr (List String) :=
  match s.parent with
  | .self => .ok s.names
  | .own l => .ok l
  | .missing => .error .attributeError

/-- `getattr(self.configs, name)` -/
def getFit (s : State V) (n : String) : Except PyErr (Cfg V) :=
  match s.fits.get? n with
  | some f => .ok f
  | none => .error .attributeError

/-- One entry of `config_fits`: `i.config_name`, and the name of `i` in the container. -/
def entry (s : State V) (n : String) : Except PyErr (String × String) := do
  let f ← getFit s n
  match f.name with
  | some m => .ok (m, n)
  | none => .error .attributeError

/-- `accessor.config_fits` (lines 3089-3091, 3143-3144); the values are the names in the container. -/
def configFits (s : State V) : Except PyErr (Dict String String) := do
  let l ← parentNames s
  let es ← l.mapM (entry s)
  .ok (Dict.ofList es)

/-- Lines 3383-3390 of `dump` for one fit. -/
def markFit (c : Consts V) (mini : Bool) (f : Cfg V) : Cfg V :=
  { f with attrs := if mini then f.attrs.put .dumpMini (.opaque c.true_) else f.attrs.del .dumpMini }

/-- The loop of lines 3383-3390. -/
def markAll (c : Consts V) (mini : Bool) (d : Dict String String) (s : State V) : State V :=
  { s with fits := s.fits.map fun e => (e.1, if e.1 ∈ d.map Prod.snd then markFit c mini e.2 else e.2) }

/-- The pickled state (`Fits.__getstate__` is called for every fit of the container). -/
def pickled (s : State V) : State V :=
  { s with fits := s.fits.map fun e => (e.1, { e.2 with attrs := (getstate e.2.attrs).1 }) }

/-- The object after pickling. -/
def afterPickle (s : State V) : State V :=
  { s with fits := s.fits.map fun e => (e.1, { e.2 with attrs := (getstate e.2.attrs).2 }) }

/-- `MultiFits.dump(path, mini)` (lines 3375-3393): the content of the file, and the object afterwards.  The version is not modelled
here. -/
def dump (c : Consts V) (s : State V) (mini canOpen : Bool) : Except PyErr (State V) × State V :=
  match configFits s with
  | .error e => (.error e, s)
  | .ok d =>
    let s := markAll c mini d s
    if canOpen then (.ok (pickled s), afterPickle s) else (.error .osError, s)

/-- `parent.add_config(key, val)` of line 3136 for a `MultiFits()` without dataset: the fit afterwards. -/
def legacyFit (isIdent : String → Bool) (e : String × Cfg V) : Except PyErr (String × Cfg V) :=
  if !isIdent e.1 || decide (e.1 ∈ MultiFits.reserved) then .error .assertionError
  else .ok (e.1, ⟨(e.2.attrs.put .dataset .none).put kAux .none, some e.1⟩)

/-- `_FitContainer.__setstate__` (lines 3130-3140) -/
def containerSetstate (isIdent : String → Bool) (s : State V) : Except PyErr (State V) :=
  match s.parent with
  | .missing => do
    let fits ← s.fits.mapM (legacyFit isIdent)
    .ok { s with fits := fits, parent := .own (s.fits.map Prod.fst) }
  | _ => .ok s

/-- `MultiFits.__setstate__` (lines 3213-3218) -/
def multiSetstate (s : State V) : Except PyErr (State V) := do
  let d ← configFits s
  .ok { s with fits := s.fits.map fun e =>
    (e.1, if e.2.name = none ∧ e.1 ∈ d.map Prod.snd then { e.2 with name := (d.find? fun x => x.2 = e.1).map Prod.fst } else e.2) }

/-- `Fits.__setstate__` for a fit of the container -/
def fitSetstate (c : Consts V) (e : String × Cfg V) : Except PyErr (String × Cfg V) := do
  let a ← setstate c e.2.attrs
  .ok (e.1, ⟨a, e.2.name⟩)

/-- `pd.read_pickle(file)` -/
def unpickle (c : Consts V) (isIdent : String → Bool) (file : State V) : Except PyErr (State V) := do
  let fits ← file.fits.mapM (fitSetstate c)
  let s ← containerSetstate isIdent { file with fits := fits }
  multiSetstate s

/-- `for name in self.config_names: getattr(self.configs, name).… = …` -/
def setAll (f : Attrs V → Attrs V) (s : State V) : Except PyErr (State V) :=
  if s.names.all fun n => (s.fits.get? n).isSome then
    .ok { s with fits := s.fits.map fun e => (e.1, if e.1 ∈ s.names then { e.2 with attrs := f e.2.attrs } else e.2) }
  else .error .attributeError

/-- Does the ID have to be set (line 68)?  `hasattr` does not catch the AssertionError of an empty object (lines 3235-3239). -/
def needsID (s : State V) : Except PyErr Bool :=
  match s.names with
  | [] => .error .assertionError
  | n :: _ =>
    match s.fits.get? n with
    | none => .ok true
    | some f => match f.attrs .id with
      | none | some .none => .ok true
      | _ => .ok false

/-- `load(path)` (lines 51-78) for a `MultiFits` object; `sort` is `_check_monotonic_dataset_index`. -/
def load (c : Consts V) (isIdent : String → Bool) (sort : Val V → Val V) (stem : V) (file : State V) : Except PyErr (State V) := do
  let s ← unpickle c isIdent file
  let b ← needsID s
  let s ← if b then setAll (fun a => a.put .id (.opaque stem)) s else .ok s
  let ds := sort s.dataset
  let s ← setAll (fun a => a.put .dataset ds) { s with dataset := ds }
  let s ← setAll (fun a => a.put kAux s.aux) s
  setAll (fun a => a.put kReader s.reader) s

/-- The argument of `configs[key]`. -/
inductive Index
  | str (n : String)
  | int (i : Int)
  | other

/-- `names[i]` -/
def pyIndex (l : List String) (i : Int) : Except PyErr String :=
  let j := if i < 0 then i + l.length else i
  if j < 0 then .error .indexError
  else match l[j.toNat]? with
    | some x => .ok x
    | none => .error .indexError

/-- `_FitContainer.__getitem__` (lines 3146-3163) -/
def getItem (s : State V) : Index → Except PyErr (Cfg V)
  | .str n => do
    let l ← parentNames s
    if n ∈ l then getFit s n else .error .assertionError
  | .int i => do
    let l ← parentNames s
    if i < l.length then do
      let n ← pyIndex l i
      getFit s n
    else .error .assertionError
  | .other => .error .attributeError

/-- `add_config(name, fit)` (lines 3345-3373; see `Model/MultiFits`) for a fit that is not attached. -/
def addConfig (isIdent : String → Bool) (s : State V) (name : String) (a : Attrs V) : Except PyErr (State V) :=
  if !isIdent name || decide (name ∈ MultiFits.reserved) then .error .assertionError
  else .ok { s with
    names := s.names ++ [name]
    fits := s.fits.set name ⟨(a.put .dataset s.dataset).put kAux s.aux, some name⟩ }

/-- The object and the file. -/
structure World (V : Type) where
  obj : State V
  file : Option (State V)

/-- The operations of `Model/DumpState`, for a `MultiFits` object. -/
def step (c : Consts V) (isIdent : String → Bool) (sort : Val V → Val V) (stem : V) (w : World V) : Op → Except PyErr Unit × World V
  | .dump mini canOpen =>
    match dump c w.obj mini canOpen with
    | (.ok f, s) => (.ok (), ⟨s, some f⟩)
    | (.error e, s) => (.error e, ⟨s, w.file⟩)
  | .load =>
    match w.file with
    | none => (.error .osError, w)
    | some f =>
      match load c isIdent sort stem f with
      | .ok s => (.ok (), ⟨s, w.file⟩)
      | .error e => (.error e, w)
  | .send =>
    match unpickle c isIdent (pickled w.obj) with
    | .ok s => (.ok (), ⟨s, w.file⟩)
    | .error e => (.error e, ⟨afterPickle w.obj, w.file⟩)

def run (c : Consts V) (isIdent : String → Bool) (sort : Val V → Val V) (stem : V) (w : World V) :
    List Op → List (Except PyErr Unit) × World V
  | [] => ([], w)
  | op :: l =>
    let r := step c isIdent sort stem w op
    let r' := run c isIdent sort stem r.2 l
    (r.1 :: r'.1, r'.2)

end RT1.MultiDump
