import Verif.Model.Dict

/-!
# Model of the callbacks of `MultiFits.accessor` (`_MultiAccessors`, `rt1/rtfits.py` lines 3051-3125)

`O` are the fit objects, `V` python values.  Not modelled: keyword arguments named `prop` or `val`.
-/

namespace RT1.Accessor

variable {O V : Type}

/-- A callback created by `lazy` (lines 3100-3117): the fit object and the closure variable `start_kwargs` (which is modified by
calls). The closure variable `start_args` is always the empty tuple, because `_applyit` cannot be called with positional arguments. -/
structure Cb (O V : Type) where
  obj : O
  start : Dict String V
  deriving DecidableEq

/-- `accessor.method(*args, **kwargs)` (lines 3119-3123): a dict of callbacks. `_applyit` is called via `partial(self._applyit, prop=prop)`, so a positional
argument is a second value for `prop` (TypeError). -/
def accessorCall (cfgs : Dict String O) (args : List V) (kwargs : Dict String V) : Except PyErr (Dict String (Cb O V)) :=
  if args ≠ [] then .error .typeError else .ok (cfgs.map fun e => (e.1, ⟨e.2, kwargs⟩))

/-- A call of a method of a fit object. -/
structure Call (O V : Type) where
  obj : O
  kwargs : Dict String V
  deriving DecidableEq

/-- `callback(*args, **kwargs)` (lines 3104-3115): the performed call and the changed callback. A positional argument raises
AttributeError (`start_args.append` of a tuple). -/
def Cb.call (c : Cb O V) (args : List V) (kwargs : Dict String V) : Except PyErr (Call O V) × Cb O V :=
  if args ≠ [] then (.error .attributeError, c)
  else (.ok ⟨c.obj, c.start.update kwargs⟩, { c with start := c.start.update kwargs })

/-- The user calls callbacks: the name of the configuration and the arguments. -/
structure Req (V : Type) where
  name : String
  args : List V
  kwargs : Dict String V

/-- One request: `callbacks[name](*args, **kwargs)`. -/
def step (cbs : Dict String (Cb O V)) (r : Req V) : Except PyErr (Call O V) × Dict String (Cb O V) := match cbs.get? r.name with
  | none => (.error .keyError, cbs)
  | some c => ((c.call r.args r.kwargs).1, cbs.set r.name (c.call r.args r.kwargs).2)

/-- A sequence of requests: the outcomes and the final callbacks. -/
def run : Dict String (Cb O V) → List (Req V) → List (Except PyErr (Call O V)) × Dict String (Cb O V)
  | cbs, [] => ([], cbs)
  | cbs, r :: rs => ((step cbs r).1 :: (run (step cbs r).2 rs).1, (run (step cbs r).2 rs).2)

/-! ## properties

The properties of the accessor (`mf.accessor.res_dict`, …) are set on the class `_MultiAccessors` by `__init__` (lines 3079-3091), so
that they belong to the process and not to the object. -/

/-- What creates a `MultiFits` object in a process. -/
inductive Create
  /-- `MultiFits()`, e.g. by `get_fitobject` or `HDFaccessor.load_fit` -/
  | construct
  /-- unpickling (`rt1.rtfits.load`, results of other processes): `__init__` is not called -/
  | unpickle
  deriving DecidableEq

/-- The names of the properties of the class after the objects have been created (`names` are those of `Fits`). -/
def classProps (names : List String) (cls : List String) : List Create → List String
  | [] => cls
  | .construct :: l => classProps names (cls ++ names) l
  | .unpickle :: l => classProps names cls l

/-- `mf.accessor.prop` (lines 3093-3098): the values of all configurations. -/
def getProp (cls : List String) (cfgs : Dict String O) (attr : O → String → V) (prop : String) : Except PyErr (Dict String V) :=
  if prop ∈ cls then .ok (cfgs.map fun e => (e.1, attr e.2 prop)) else .error .attributeError

end RT1.Accessor
