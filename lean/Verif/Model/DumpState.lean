import Verif.Model.Dict

/-!
# Model of dumping and loading a fit (`rt1/rtfits.py`)

`Fits.dump`, `Fits.__getstate__`, `Fits.__setstate__`, `Fits.__update__` and `load`.  `V` are python values that are not
inspected.  Pickling (`cloudpickle.dump`, `pd.read_pickle`) calls `__getstate__` and hands over an equal dict to `__setstate__`.
-/

namespace RT1.DumpState
open General

/-- The attributes that are treated explicitly, and all others. -/
inductive Key
  /-- `_rt1_dump_mini` -/
  | dumpMini
  /-- `_RT1_version` -/
  | version
  /-- `_fnevals_input` -/
  | fnevals
  /-- `fit_output` -/
  | fitOutput
  /-- `_dataset` -/
  | dataset
  /-- `dataset` in the `__dict__` of old dumps -/
  | oldDataset
  /-- `fitset` (old name of `lsq_kwargs`) -/
  | fitset
  /-- `lsq_kwargs` -/
  | lsqKwargs
  /-- `int_Q` -/
  | intQ
  /-- `lambda_backend` -/
  | backend
  | plot
  | verbose
  /-- `res_dict` -/
  | resDict
  /-- `_ID` -/
  | id
  | other (name : String)
  deriving DecidableEq

/-- An entry of a value of `res_dict`: a number, or a list of numbers (first entry of the values of old dumps). -/
inductive Item (V : Type)
  | num (v : V)
  | list (l : List V)

/-- Python values as far as the code looks at them. -/
inductive Val (V : Type)
  | none
  | opaque (v : V)
  /-- `scipy.optimize.OptimizeResult` with its attributes -/
  | result (attrs : Dict String V)
  /-- a dict -/
  | dict (d : Dict String V)
  /-- a dict of lists -/
  | lists (d : Dict String (List (Item V)))

/-- The `__dict__` of a fit. -/
abbrev Attrs (V : Type) := Key → Option (Val V)

variable {V : Type}

/-- `self.key = v` -/
def Attrs.put (s : Attrs V) (k : Key) (v : Val V) : Attrs V := fun k' => if k' = k then some v else s k'

/-- `delattr(self, key)` -/
def Attrs.del (s : Attrs V) (k : Key) : Attrs V := fun k' => if k' = k then none else s k'

/-- Constants used by the code. -/
structure Consts (V : Type) where
  true_ : V
  /-- `2` -/
  two : V
  /-- `rt1_plots(self)` -/
  plots : V
  /-- `_init_lambda_backend` -/
  backend0 : V
  /-- `_RT1_version` -/
  version0 : V

/-- `getattr(self.fit_output, key)` in a `try`: `none` for AttributeError.  The keys of a dict are no attributes. -/
def attrOf : Val V → String → Option V
  | .result a, key => a.get? key
  | _, _ => none

/-- The loop of lines 392-399: the entries of `fit_props`. -/
def fitProps (out : Val V) : Dict String V :=
  ([("success", "fit_success"), ("status", "fit_status"), ("optimality", "fit_optimality")] : List (String × String)).filterMap
    fun e => (attrOf out e.1).map fun v => (e.2, v)

/-- Lines 391-400: the value of `fit_output` in a mini-dump. -/
def miniOutput : Option (Val V) → Val V
  | some .none => .dict []
  | some out => .dict (fitProps out)
  | none => .dict []

/-- `__getstate__` (lines 381-404): the pickled dict and the object afterwards. -/
def getstate (s : Attrs V) : Attrs V × Attrs V :=
  match s .dumpMini with
  | some _ =>
    let s' := s.del .dumpMini
    ((s'.put .fnevals .none).put .fitOutput (miniOutput (s' .fitOutput)), s')
  | none => (s, s)

/-- Lines 359-362 … 345-349: `if not hasattr(self, key): self.key = default` -/
def default (s : Attrs V) (k : Key) (v : Val V) : Attrs V :=
  match s k with
  | some _ => s
  | none => s.put k v

/-- Lines 350-352 -/
def moveFitset (s : Attrs V) : Attrs V :=
  match s .fitset with
  | some v => (s.put .lsqKwargs v).del .fitset
  | none => s

/-- Lines 355-362: `if not hasattr(self, key): self.key = self.lsq_kwargs.pop(name, default)` -/
def popInto (s : Attrs V) (k : Key) (name : String) (dflt : Val V) : Except PyErr (Attrs V) :=
  match s k with
  | some _ => .ok s
  | none =>
    match s .lsqKwargs with
    | some (.dict d) => .ok ((s.put .lsqKwargs (.dict (d.erase name))).put k ((d.get? name).elim dflt .opaque))
    | _ => .error .attributeError

/-- A value of `res_dict` in the shape of old dumps: `[list, …]` with two entries. -/
def oldShape : List (Item V) → Bool
  | [.list _, _] => true
  | _ => false

/-- `val[0]` (line 369); only used for values of the old shape -/
def first : List (Item V) → List (Item V)
  | .list l :: _ => l.map .num
  | _ => []

/-- Lines 364-369.  (An attribute `res_dict` that is no dict has no `items`.) -/
def updateRes (s : Attrs V) : Except PyErr (Attrs V) :=
  match s .resDict with
  | none => .ok s
  | some (.lists d) =>
    if d.all fun e => oldShape e.2 then .ok (s.put .resDict (.lists (d.map fun e => (e.1, first e.2)))) else .ok s
  | some (.dict []) => .ok s
  | some (.dict _) => .error .typeError
  | some _ => .error .attributeError

/-- `__update__` (lines 340-369) -/
def update (c : Consts V) (s : Attrs V) : Except PyErr (Attrs V) := do
  let s := default (default s .plot (.opaque c.plots)) .verbose (.opaque c.two)
  let s := default (moveFitset s) .lsqKwargs (.dict [])
  let s ← popInto s .intQ "int_Q" (.opaque c.true_)
  let s ← popInto s .backend "lambda_backend" (.opaque c.backend0)
  let s ← popInto s .fnevals "_fnevals_input" .none
  updateRes s

/-- Lines 372-375 -/
def moveDataset (d : Attrs V) : Attrs V :=
  match d .dataset, d .oldDataset with
  | none, some v => (d.put .dataset v).del .oldDataset
  | _, _ => d

/-- `__setstate__` (lines 371-379) -/
def setstate (c : Consts V) (d : Attrs V) : Except PyErr (Attrs V) := update c (moveDataset d)

/-- Lines 2421-2430 of `dump`: the attributes that are set before the file is opened. -/
def mark (c : Consts V) (s : Attrs V) (mini : Bool) : Attrs V :=
  let s := s.put .version (.opaque c.version0)
  if mini then s.put .dumpMini (.opaque c.true_) else s.del .dumpMini

/-- `Fits.dump(path, mini)` (lines 2395-2434): the content of the file (or the error, if the file cannot be opened) and the object
afterwards. -/
def dump (c : Consts V) (s : Attrs V) (mini canOpen : Bool) : Except PyErr (Attrs V) × Attrs V :=
  let s := mark c s mini
  if canOpen then (.ok (getstate s).1, (getstate s).2) else (.error .osError, s)

/-- `load(path)` (lines 51-78) for a `Fits` object; `stem` is the ID that is set for the name of the file. -/
def load (c : Consts V) (stem : V) (file : Attrs V) : Except PyErr (Attrs V) := do
  let s ← setstate c file
  match s .id with
  | none | some .none => .ok (s.put .id (.opaque stem))
  | _ => .ok s

/-- What a user (or the processing) does with a fit: dump it, replace it by the loaded file, or send it to another process. -/
inductive Op
  | dump (mini canOpen : Bool)
  | load
  /-- pickling and unpickling (multiprocessing, `copy.deepcopy`, …) -/
  | send
  deriving DecidableEq

/-- The fit and the file. -/
structure State (V : Type) where
  obj : Attrs V
  file : Option (Attrs V)

def step (c : Consts V) (stem : V) (st : State V) : Op → Except PyErr Unit × State V
  | .dump mini canOpen =>
    match dump c st.obj mini canOpen with
    | (.ok f, s) => (.ok (), ⟨s, some f⟩)
    | (.error e, s) => (.error e, ⟨s, st.file⟩)
  | .load =>
    match st.file with
    | none => (.error .osError, st)
    | some f =>
      match load c stem f with
      | .ok s => (.ok (), ⟨s, st.file⟩)
      | .error e => (.error e, st)
  | .send =>
    match setstate c (getstate st.obj).1 with
    | .ok s => (.ok (), ⟨s, st.file⟩)
    | .error e => (.error e, ⟨(getstate st.obj).2, st.file⟩)

def run (c : Consts V) (stem : V) (st : State V) : List Op → List (Except PyErr Unit) × State V
  | [] => ([], st)
  | op :: l =>
    let r := step c stem st op
    let r' := run c stem r.2 l
    (r.1 :: r'.1, r'.2)

end RT1.DumpState
