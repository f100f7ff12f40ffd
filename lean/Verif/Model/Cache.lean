import Verif.Model.General

/-!
# Model of the caches of `rt1/rtfits.py` (`Fits`)

The derived quantities of `Fits` are decorated with `functools.lru_cache`.  The caches belong to the class and are keyed by
the object, so all `Fits` objects share one table per quantity.  The bodies of the quantities are a parameter of the model
(`Body`): arbitrary programs over the defining attributes of the object that may read other cached quantities of the same
object, and may catch exceptions.
-/

namespace RT1.Cache
open General

/-- The quantities of `Fits` decorated with `lru_cache` (`rt1/rtfits.py` lines 535, 555, 581, 685, 706, 714, 737, 742, 776,
786, 854, 874, 934, 945, 955, 966, 980, 991, 1006, 1020, 1032, 1042, 1314, 1326, 1408-1448, 1499, 1626, 3030). -/
inductive Name
  | set_model | interp_vals | param_dyn_dict | param_dyn_df | param_dyn_monotonic | groupindex | N_groups | dataset_used
  | index | jac_assign_rule | meandatetimes | meandt_interp_assigns | inc | mask | data | data_weights | order | orig_index
  | idx_assigns | param_assigns | param_assigns_dataset | val_assigns | V | SRF | tau_symb | tau_func | tau_diff_func
  | omega_symb | omega_func | omega_diff_func | N_symb | N_func | N_diff_func | assignvals_log_message | get_excludesymbs
  | metric
  deriving DecidableEq, Repr

/-- Is the cached function a property?  (`set_model`, `_meandt_interp_assigns` and `_assignvals_log_message` are methods.) -/
def Name.isProp : Name → Bool
  | .set_model | .meandt_interp_assigns | .assignvals_log_message => false
  | _ => true

open Name in
/-- `_cached_props` (`rt1/rtfits.py` lines 449-485), in the order of the code. -/
def cachedProps : List Name :=
  [param_dyn_dict, param_dyn_df, groupindex, N_groups, dataset_used, index, orig_index, jac_assign_rule, meandatetimes, inc,
   data, mask, data_weights, idx_assigns, param_assigns, param_assigns_dataset, val_assigns, order, interp_vals,
   meandt_interp_assigns, param_dyn_monotonic, get_excludesymbs, metric, V, SRF, set_model, assignvals_log_message] ++
  [tau_symb, tau_func, tau_diff_func, omega_symb, omega_func, omega_diff_func, N_symb, N_func, N_diff_func]

/-- The key of a cache entry: the object (`self`) and the further arguments of the method. -/
abbrev Key := Nat × List String

/-- A body: a program that may read other cached quantities (with arguments) of the same object.  The continuation
gets the exception if the read failed (python's try-except). -/
inductive Prog (ν : Type) where
  | ret (v : ν)
  | raise (e : PyErr)
  | ask (q : Name) (args : List String) (k : Except PyErr ν → Prog ν)

/-- The attributes of a fit object that define the derived quantities (`rt1/rtfits.py` lines 279-322), of arbitrary types. -/
structure Attrs (S B D F M : Type) where
  sig0 : S
  dB : B
  dataset : D
  defdict : F
  set_V_SRF : M

/-- The class: the bodies of the quantities, the normalisation of a new dataset (`_check_monotonic_dataset_index`, lines
438-447) and of a new defdict (lines 328-338, TypeError for unsupported inputs). -/
structure Cls (S B D F M ν : Type) where
  body : Name → Nat → List String → Attrs S B D F M → Prog ν
  sortData : D → D
  parseDef : F → Except PyErr F

variable {S B D F M ν : Type}

/-! ## evaluation without caches (specification) -/

/-- Run a body, answering reads of cached quantities with `rd`. -/
def Prog.eval (rd : Name → List String → Except PyErr ν) : Prog ν → Except PyErr ν
  | .ret v => .ok v
  | .raise e => .error e
  | .ask q args k => (k (rd q args)).eval rd

/-- The value of a quantity computed from scratch from the attributes `a` of the object `o`.
`fuel` bounds the depth of the recursion (python raises RecursionError, modelled as runtimeError). -/
def scratch (c : Cls S B D F M ν) (o : Nat) (a : Attrs S B D F M) : Nat → Name → List String → Except PyErr ν
  | 0, _, _ => .error .runtimeError
  | fuel + 1, q, args => (c.body q o args a).eval (scratch c o a fuel)

/-! ## the caches -/

/-- One table per quantity: keys and values, most recently used first. -/
abbrev Tables (ν : Type) := Name → List (Key × ν)

/-- The default `maxsize` of `lru_cache`. -/
def maxsize : Nat := 128

def lookup (l : List (Key × ν)) (k : Key) : Option ν := (l.find? fun e => decide (e.1 = k)).map Prod.snd

/-- Move the entry of `k` to the front (hit). -/
def touch (l : List (Key × ν)) (k : Key) : List (Key × ν) :=
  l.filter (fun e => decide (e.1 = k)) ++ l.filter (fun e => decide (e.1 ≠ k))

/-- Insert a new entry; the least recently used entry is dropped if the table is full (miss).  If the key has been
inserted in the meantime the table is not changed (`functools.lru_cache`). -/
def insert (l : List (Key × ν)) (k : Key) (v : ν) : List (Key × ν) :=
  if (lookup l k).isSome then l else ((k, v) :: l).take maxsize

def update (t : Tables ν) (q : Name) (l : List (Key × ν)) : Tables ν := fun q' => if q' = q then l else t q'

/-- Run a body with cached reads. -/
def Prog.run (rd : Name → List String → Tables ν → Except PyErr ν × Tables ν) :
    Prog ν → Tables ν → Except PyErr ν × Tables ν
  | .ret v, t => (.ok v, t)
  | .raise e, t => (.error e, t)
  | .ask q args k, t => (k (rd q args t).1).run rd (rd q args t).2

/-- Read a cached quantity: exceptions are not cached. -/
def read (c : Cls S B D F M ν) (o : Nat) (a : Attrs S B D F M) :
    Nat → Name → List String → Tables ν → Except PyErr ν × Tables ν
  | 0, _, _, t => (.error .runtimeError, t)
  | fuel + 1, q, args, t =>
    match lookup (t q) (o, args) with
    | some v => (.ok v, update t q (touch (t q) (o, args)))
    | none =>
      match (c.body q o args a).run (read c o a fuel) t with
      | (.ok v, t') => (.ok v, update t' q (insert (t' q) (o, args) v))
      | (.error e, t') => (.error e, t')

/-- `_cached_arg_number` contains a non-zero number (`rt1/rtfits.py` lines 515-533): `getattr(Fits, name).fget` exists for
properties only, methods raise AttributeError and are skipped. -/
def anyCached (t : Tables ν) : Bool := cachedProps.any fun q => q.isProp && decide (0 < (t q).length)

/-- `_clear_cache` (`rt1/rtfits.py` lines 487-498): the tables of all objects are cleared. -/
def clear (t : Tables ν) : Tables ν :=
  if anyCached t then fun q => if q ∈ cachedProps then [] else t q else t

/-! ## objects and operations -/

/-- The state: the attributes of all objects and the shared tables. -/
structure State (S B D F M ν : Type) where
  objs : Nat → Attrs S B D F M
  tables : Tables ν

/-- An assignment `fit.attr = value` of a defining attribute. -/
inductive Assign (S B D F M : Type)
  | sig0 (v : S)
  | dB (v : B)
  | dataset (v : D)
  | defdict (v : F)
  | set_V_SRF (v : M)

/-- The effect of an assignment on the attributes (property setters, `rt1/rtfits.py` lines 328-338, 433-436). -/
def assignAttr (c : Cls S B D F M ν) (a : Attrs S B D F M) : Assign S B D F M → Except PyErr (Attrs S B D F M)
  | .sig0 v => .ok { a with sig0 := v }
  | .dB v => .ok { a with dB := v }
  | .dataset v => .ok { a with dataset := c.sortData v }
  | .defdict v => (c.parseDef v).map fun d => { a with defdict := d }
  | .set_V_SRF v => .ok { a with set_V_SRF := v }

def setObj (objs : Nat → Attrs S B D F M) (o : Nat) (a : Attrs S B D F M) : Nat → Attrs S B D F M :=
  fun o' => if o' = o then a else objs o'

/-- `__setattr__` (`rt1/rtfits.py` lines 406-415) for the defining attributes: the cache is cleared first. -/
def setAttr (c : Cls S B D F M ν) (s : State S B D F M ν) (o : Nat) (x : Assign S B D F M) :
    Except PyErr Unit × State S B D F M ν :=
  let t := clear s.tables
  match assignAttr c (s.objs o) x with
  | .ok a => (.ok (), { objs := setObj s.objs o a, tables := t })
  | .error e => (.error e, { objs := s.objs, tables := t })

/-- The operations of a user on any number of fit objects: assigning attributes, reading derived quantities, clearing the
caches (`_clear_cache()`, also called by `performfit`). -/
inductive Op (S B D F M : Type)
  | assign (o : Nat) (x : Assign S B D F M)
  | read (o : Nat) (q : Name) (args : List String)
  | clear

/-- What a user observes: the success of an assignment, or the value read. -/
inductive Obs (ν : Type)
  | done (r : Except PyErr Unit)
  | value (r : Except PyErr ν)

def step (c : Cls S B D F M ν) (fuel : Nat) (s : State S B D F M ν) : Op S B D F M → Obs ν × State S B D F M ν
  | .assign o x => let r := setAttr c s o x; (.done r.1, r.2)
  | .read o q args => let r := read c o (s.objs o) fuel q args s.tables; (.value r.1, { s with tables := r.2 })
  | .clear => (.done (.ok ()), { s with tables := clear s.tables })

/-- Run a sequence of operations and collect the observations. -/
def run (c : Cls S B D F M ν) (fuel : Nat) : State S B D F M ν → List (Op S B D F M) → List (Obs ν) × State S B D F M ν
  | s, [] => ([], s)
  | s, op :: ops =>
    let r := step c fuel s op
    let rs := run c fuel r.2 ops
    (r.1 :: rs.1, rs.2)

/-- `MultiFits.set_dataset` (`rt1/rtfits.py` lines 3281-3286) for the configs `os`: the private attribute is assigned, so
`__setattr__` does not clear the cache. -/
def multiSetDataset (c : Cls S B D F M ν) (s : State S B D F M ν) (os : List Nat) (v : D) : State S B D F M ν :=
  { s with objs := os.foldl (fun objs o => setObj objs o { objs o with dataset := c.sortData v }) s.objs }

/-- In-place changes of an attribute value (e.g. `fit.dataset["x"] = …`, `fit.defdict.omega.val.freq = …`): no attribute of
the fit is assigned, the caches are not cleared. -/
def mutate (s : State S B D F M ν) (o : Nat) (f : Attrs S B D F M → Attrs S B D F M) : State S B D F M ν :=
  { s with objs := setObj s.objs o (f (s.objs o)) }

/-! ## the coefficient functions stored on the fit object -/

/-- The part of a fit object used by `R` (`rt1/rtfits.py` lines 1336-1367): `int_Q`, the stored coefficient functions
`_fnevals_input` (not a cached quantity), and the attributes. -/
structure FitR (S B D F M φ : Type) where
  attrs : Attrs S B D F M
  int_Q : Bool
  fnevals : Option φ

/-- The coefficient functions of `fit.R` and the side effect on the fit (`rt1/rtfits.py` lines 1358-1365): `gen` generates
the functions for the current V and SRF. Without interaction (`int_Q` False) there are none. -/
def readFnevals {φ : Type} (gen : Attrs S B D F M → φ) (s : FitR S B D F M φ) : Option φ × FitR S B D F M φ :=
  if s.int_Q then
    match s.fnevals with
    | none => (some (gen s.attrs), { s with fnevals := some (gen s.attrs) })
    | some f => (some f, s)
  else (none, s)

/-- Assigning an attribute does not change `_fnevals_input` (`__setattr__`, lines 406-415). -/
def FitR.assign {φ : Type} (c : Cls S B D F M ν) (s : FitR S B D F M φ) (x : Assign S B D F M) : FitR S B D F M φ :=
  match assignAttr c s.attrs x with
  | .ok a => { s with attrs := a }
  | .error _ => s

end RT1.Cache
