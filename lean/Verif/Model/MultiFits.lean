import Verif.Model.Dict

/-!
# Model of `MultiFits` and its container (`rt1/rtfits.py`)

Fit objects have an identity: the same object may be added several times.
-/

namespace RT1
namespace MultiFits

/-- The attributes of a fit object that are changed by `MultiFits`. `V` is the type of python values. -/
structure Fit (V : Type) where
  dataset : V
  aux : V
  readerArg : V
  ident : V
  configName : Option String

/-- The objects (by identity), `config_names`, the attributes of the container `configs` and the shared
attributes (`rt1/rtfits.py` lines 3189-3206). -/
structure State (V : Type) where
  heap : Nat → Fit V
  names : List String
  attrs : Dict String Nat
  dataset : V
  aux : V
  readerArg : V

variable {V : Type}

/-- The keys of `MultiFits.__dict__` (lines 3194-3206; `_RT1_version` is added by `dump`, not modelled). -/
def reserved : List String := ["config_names", "configs", "_accessor", "_dataset", "_aux_data", "_reader_arg"]

/-- `add_config` (`rt1/rtfits.py` lines 3345-3373). `isIdent` is `str.isidentifier`. The check for a monotonic index in the dataset
setter has no effect, because the dataset has already been sorted by `set_dataset`. Simplified: names with a
special meaning for `setattr` (`__class__`, `__dict__`) behave like others. -/
def addConfig (isIdent : String → Bool) (s : State V) (name : String) (o : Nat) : Except PyErr (State V) :=
  if !isIdent name then .error .assertionError
  else if name ∈ reserved then .error .assertionError
  else .ok { s with
    names := s.names ++ [name]
    heap := fun i => if i = o then { s.heap o with dataset := s.dataset, aux := s.aux, configName := some name } else s.heap i
    attrs := s.attrs.set name o }

/-- The loop `for name in self.config_names: getattr(self.configs, name).… = …` -/
def setAll (s : State V) (f : Fit V → Fit V) : State V :=
  { s with heap := s.names.foldl (fun h n => match s.attrs.get? n with
    | some o => fun i => if i = o then f (h o) else h i
    | none => h) s.heap }

/-- `set_dataset` (lines 3281-3286); the argument is the sorted dataset. -/
def setDataset (s : State V) (v : V) : State V := setAll { s with dataset := v } fun f => { f with dataset := v }

/-- `set_aux_data` (lines 3288-3291) -/
def setAux (s : State V) (v : V) : State V := setAll { s with aux := v } fun f => { f with aux := v }

/-- `set_reader_arg` (lines 3293-3296) -/
def setReaderArg (s : State V) (v : V) : State V := setAll { s with readerArg := v } fun f => { f with readerArg := v }

/-- `set_ID` (lines 3298-3300); the argument is the ID after the conversion in the setter of `Fits.ID`. -/
def setID (s : State V) (v : V) : State V := setAll s fun f => { f with ident := v }

/-- `__iter__` of the container (lines 3143-3144): the list of names is taken from the attribute `_parent`, which is lost if a
configuration of this name has been added. -/
def iter (s : State V) : Except PyErr (List Nat) :=
  if (s.attrs.get? "_parent").isSome then .error .attributeError
  else s.names.mapM fun n => match s.attrs.get? n with
    | some o => .ok o
    | none => .error .attributeError

/-- `config_fits` (lines 3089-3091): `{i.config_name: i for i in container}` -/
def configFits (s : State V) : Except PyErr (Dict (Option String) Nat) := do
  let l ← iter s
  .ok (Dict.ofList (l.map fun o => ((s.heap o).configName, o)))

/-- `use_config` -/
inductive Use
  | all
  | one (name : String)
  | list (names : List String)
  | other

/-- `apply` (`rt1/rtfits.py` lines 3306-3343) with a function that does not raise; the generator is read to the end. -/
def apply {W : Type} (s : State V) (f : Nat → W) : Use → Except PyErr (List (Option String × W))
  | .all => do
    let d ← configFits s
    .ok (d.map fun e => (e.1, f e.2))
  | .one n => do
    let d ← configFits s
    let o ← d.getItem (some n)
    .ok [(some n, f o)]
  | .list ns => ns.mapM fun n => do
    let d ← configFits s
    let o ← d.getItem (some n)
    .ok (some n, f o)
  | .other => .error .assertionError

/-- The public operations. -/
inductive Op (V : Type)
  | add (name : String) (o : Nat)
  | setDataset (v : V)
  | setAux (v : V)
  | setReaderArg (v : V)
  | setID (v : V)

/-- The state after an operation; a call of `add_config` that raises changes nothing. -/
def step (isIdent : String → Bool) (s : State V) : Op V → State V
  | .add n o => match addConfig isIdent s n o with
    | .ok s => s
    | .error _ => s
  | .setDataset v => setDataset s v
  | .setAux v => setAux s v
  | .setReaderArg v => setReaderArg s v
  | .setID v => setID s v

def run (isIdent : String → Bool) (s : State V) (ops : List (Op V)) : State V := ops.foldl (step isIdent) s

/-- `MultiFits()` (lines 3189-3206): nothing has been added. -/
def fresh (heap : Nat → Fit V) (dataset aux readerArg : V) : State V := ⟨heap, [], [], dataset, aux, readerArg⟩

end MultiFits
end RT1
