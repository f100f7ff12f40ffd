import Verif.Model.Pipeline

/-!
# Model of the generation of the final output (`RTprocess._run_finalout`, `_finalout_reader`, `_run_postprocess`)

`F` are the fits of a configuration, `A` the `reader_arg`, `V` python values (return values of the postprocess function,
pandas objects).  The assignment of the pre-evaluated coefficients has no effect on the results and is only modelled as far
as it can raise an error.
-/

namespace RT1.FinalOut
open General

/-- A loaded object: `Fits` (its `config_name` and `reader_arg`, if the attributes exist) or `MultiFits` (`config_fits`, see C68, and
`reader_arg`); `num` is the attached number `_RT1_ID_num`. -/
inductive Obj (F A : Type)
  | single (name : Option String) (fit : F) (arg : Option A) (num : Nat)
  | multi (cfgs : Dict String F) (arg : A) (num : Nat)

/-- The argument of a postprocess function: a fit of a configuration or the loaded object itself. -/
inductive Target (F A : Type)
  | cfg (fit : F)
  | obj (o : Obj F A)

/-- `use_config` -/
inductive Use
  | all
  /-- the string "from_postprocess" -/
  | direct
  /-- another string -/
  | one (name : String)
  | list (names : List String)
  /-- another iterable of strings, e.g. a tuple -/
  | other (names : List String)

/-- A postprocess function: does it accept the keyword argument `fit`, and what does it return. -/
structure Post (F A V : Type) where
  kw : Bool
  run : Target F A → Except PyErr V

variable {F A V : Type}

/-- `f(fit=fit)` (`rt1/rtfits.py` lines 3328, 3333, 3337) -/
def Post.callKw (f : Post F A V) (fit : F) : Except PyErr V :=
  if f.kw then f.run (.cfg fit) else .error .typeError

/-- `dict(fit.apply(f, use_config=…))` (`rt1/rtfits.py` lines 3306-3343). -/
def applyCfgs (f : Post F A V) (cfgs : Dict String F) : Use → Except PyErr (Dict String V)
  | .all | .direct => do
    let l ← cfgs.mapM fun e => (f.callKw e.2).map fun v => (e.1, v)
    .ok (Dict.ofList l)
  | .one n => do
    let fit ← cfgs.getItem n
    let v ← f.callKw fit
    .ok [(n, v)]
  | .list ns => do
    let l ← ns.mapM fun n => do
      let fit ← cfgs.getItem n
      (f.callKw fit).map fun v => (n, v)
    .ok (Dict.ofList l)
  | .other _ => .error .assertionError

/-- What is needed from the outside. -/
structure Env (F A V : Type) where
  /-- the items of a value if it is a dict -/
  items : V → Option (Dict String V)
  /-- `pd.DataFrame(fit.reader_arg, [fit._RT1_ID_num])` (lines 1308-1309) -/
  frame : A → Nat → V
  /-- `self.proc_cls.postprocess` -/
  clsPost : Option (Post F A V)
  /-- `self.proc_cls.exceptfunc` (if callable); `ok none` is a returned None -/
  exceptfunc : Option (PyErr → A → Except PyErr (Option (Dict String V)))

/-- A value that is used like a dict; for other objects `in` or the item assignment raises TypeError. -/
def Env.asDict (env : Env F A V) (v : V) : Except PyErr (Dict String V) := match env.items v with
  | some d => .ok d
  | none => .error .typeError

/-- `self.proc_cls.postprocess` -/
def Env.cls (env : Env F A V) (e : PyErr) : Except PyErr (Post F A V) := match env.clsPost with
  | some f => .ok f
  | none => .error e

/-- The branches of `_run_postprocess` that call the function (`rt1/rtprocess.py` lines 1265-1304). -/
def evalPost (env : Env F A V) (use : Use) (post : Option (Post F A V)) : Obj F A → Except PyErr (Dict String V)
  | .multi cfgs arg num => match post with
    | none => do
      let f ← env.cls .assertionError
      applyCfgs f cfgs use
    | some f => match use with
      | .direct => do
        let v ← f.run (.obj (.multi cfgs arg num))
        env.asDict v
      | u => applyCfgs f cfgs u
  | .single name fit arg num => do
    let f ← match post with
      | none => env.cls .attributeError
      | some f => .ok f
    let v ← f.run (.obj (.single name fit arg num))
    match use with
    | .direct => env.asDict v
    | _ => .ok [(name.getD "default", v)]

/-- `hasattr(fit, "reader_arg")`, `fit.reader_arg` -/
def Obj.arg? : Obj F A → Option A
  | .single _ _ a _ => a
  | .multi _ a _ => some a

def Obj.num : Obj F A → Nat
  | .single _ _ _ n => n
  | .multi _ _ n => n

/-- The key added in line 1314. -/
def argKey : String := "const__reader_arg"

/-- Lines 1306-1314: the reader-arguments are added if the key is not yet present. -/
def addArg (env : Env F A V) (o : Obj F A) (d : Dict String V) : Dict String V := match o.arg? with
  | some a => if argKey ∈ d.keys then d else d.set argKey (env.frame a o.num)
  | none => d

/-- `_run_postprocess` (`rt1/rtprocess.py` lines 1255-1322). -/
def runPostprocess (env : Env F A V) (use : Use) (post : Option (Post F A V)) (o : Obj F A) :
    Except PyErr (Option (Dict String V)) :=
  match evalPost env use post o with
  | .ok d => .ok (some (addArg env o d))
  | .error e => match env.exceptfunc with
    | some f => match o.arg? with
      | some a => f e a
      | none => .error .attributeError
    | none => .error e

/-- `self.parent_fit` (if the attribute exists): `Fits` or `MultiFits` with the names of its configurations. -/
inductive Parent
  | missing | single | multi (names : List String)

/-- `_finalout_reader` (`rt1/rtprocess.py` lines 1210-1253): the loaded object, or None if it cannot be loaded or does not fit
to the parent. `use_config` is always None here (the reader is called with one argument). -/
def reader (parent : Parent) (loaded : Except PyErr (Option (Obj F A))) : Option (Obj F A) := match loaded with
  | .error _ => none
  | .ok none => none
  | .ok (some (.multi cfgs arg num)) => match parent with
    | .missing => some (.multi cfgs arg num)
    | .single => if cfgs = [] then some (.multi cfgs arg num) else none
    | .multi names => if cfgs.keys.all (· ∈ names) then some (.multi cfgs arg num) else none
  | .ok (some (.single n f a num)) => match parent with
    | .missing => some (.single n f a num)
    | .single => some (.single n f a num)
    | .multi _ => none

/-- `_worker_process` (`rt1/_rtprocess_writer.py` lines 457-477) for one ID. -/
def worker (env : Env F A V) (parent : Parent) (use : Use) (post : Option (Post F A V))
    (loaded : Except PyErr (Option (Obj F A))) : Pipeline.Outcome (Dict String V) :=
  match reader parent loaded with
  | none => .skip
  | some o => match runPostprocess env use post o with
    | .ok (some d) => .res d
    | .ok none => .err
    | .error _ => .err

/-- The names for which the coefficients are pre-evaluated (`rt1/rtprocess.py` lines 1173-1178): a string is iterated by
characters. -/
def preNames (names : List String) : Use → List String
  | .all | .direct => names
  | .one s => s.toList.map Char.toString
  | .list ns => ns
  | .other ns => ns

/-- The pre-evaluation (`rt1/rtprocess.py` lines 1171-1186). -/
def preEval (parent : Parent) (use : Use) : Except PyErr Unit := match parent with
  | .multi names => if (preNames names use).all (· ∈ names) then .ok () else .error .keyError
  | _ => .ok ()

/-- `_run_finalout` (`rt1/rtprocess.py` lines 1150-1208): an error, or the tasks given to the pipeline (`ids` are the loaded
objects of the IDs that are not yet in the output file, C49). -/
def runFinalout (env : Env F A V) (parent : Parent) (use : Use) (post : Option (Post F A V))
    (ids : List (Except PyErr (Option (Obj F A)))) : Except PyErr (List (Pipeline.Outcome (Dict String V))) := do
  preEval parent use
  .ok (ids.map (worker env parent use post))

end RT1.FinalOut
