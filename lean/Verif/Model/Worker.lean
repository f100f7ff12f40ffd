import Verif.Model.General

/-!
# Model of the processing of sites by a worker (`RTprocess._evalfunc`, `rt1/rtprocess.py`)

The reader, the naming of the sites, the exception handler and the fit itself are parameters. A fit that is performed
clears all caches first (`Fits.performfit`, `rt1/rtfits.py` lines 2277-2279, see C43), so that its result is a function of
the configuration and the dataset.
-/

namespace RT1
namespace Worker

/-- A value returned by a reader: a DataFrame, None or something else. -/
inductive PyVal (D A : Type)
  | frame (d : D)
  | none
  | obj (a : A)
  deriving DecidableEq

/-- The return value of a reader: a single value, or a list or tuple. -/
inductive Read (D A : Type)
  | one (v : PyVal D A)
  | seq (l : List (PyVal D A))
  deriving DecidableEq

/-- `aux_data`: a single value or the sequence of all further values. -/
inductive Aux (D A : Type)
  | single (v : PyVal D A)
  | many (l : List (PyVal D A))
  deriving DecidableEq

/-- The exceptions: those raised in `_evalfunc` itself, and any others. -/
inductive Exc (X : Type)
  | skip
  | py (e : PyErr)
  | other (x : X)
  deriving DecidableEq

/-- What a site needs: the parameters of the model. -/
structure Env (Arg Id D A Cfg F X R : Type) where
  /-- `proc_cls.reader` -/
  reader : Arg → Except X (Read D A)
  /-- `len(dataset) == 0` -/
  empty : D → Bool
  /-- `proc_cls.get_names_ids(reader_arg)["feature_id"]` -/
  ident : Arg → Except X Id
  /-- `performfit` of a configuration with a dataset -/
  fit : Cfg → D → Except X F
  /-- `proc_cls.exceptfunc`: a return value or an exception -/
  handle : Exc X → Arg → Except (Exc X) R

variable {Arg Id D A Cfg F X R : Type}

/-- Splitting the return value of the reader (`rt1/rtprocess.py` lines 459-479): the dataset and `aux_data`
(none: None). A sequence with one element leaves `dataset` undefined (UnboundLocalError), an empty one raises IndexError. -/
def splitRead : Read D A → Except (Exc X) (D × Option (Aux D A))
  | .one (.frame d) => .ok (d, none)
  | .one _ => .error (.py .typeError)
  | .seq [] => .error (.py .indexError)
  | .seq [.frame _] => .error (.py .unboundLocalError)
  | .seq [.frame d, .none] => .ok (d, none)
  | .seq [.frame d, v] => .ok (d, some (.single v))
  | .seq (.frame d :: l) => .ok (d, some (.many l))
  | .seq (_ :: _) => .error (.py .typeError)

/-- The reader and the check for an empty dataset (lines 456-483). -/
def readSite (env : Env Arg Id D A Cfg F X R) (arg : Arg) : Except (Exc X) (D × Option (Aux D A)) :=
  match env.reader arg with
  | .error x => .error (.other x)
  | .ok r => match splitRead r with
    | .error e => .error e
    | .ok (d, aux) => if env.empty d then .error .skip else .ok (d, aux)

/-- The data attached to a fit object: what is stored for a site (`_get_fit_to_hdf_dict`) is a function of this. -/
structure Stored (Arg Id D A F : Type) where
  dataset : D
  aux : Option (Aux D A)
  arg : Arg
  ident : Id
  fits : List F
  deriving DecidableEq

/-- The return value of `_evalfunc`: the stored data, what the exception handler returned, or an exception. -/
inductive Ret (S R E : Type)
  | stored (s : S)
  | handled (r : R)
  | raised (e : E)
  deriving DecidableEq

/-- The exception handler (lines 543-553). -/
def handleExc {S : Type} (env : Env Arg Id D A Cfg F X R) (e : Exc X) (arg : Arg) : Ret S R (Exc X) :=
  match env.handle e arg with
  | .ok r => .handled r
  | .error e => .raised e

/-- `_evalfunc` for a single configuration (lines 518-541): the fit object is created anew for every site
(`reinit_object`, `rt1/rtfits.py` lines 2723-2829). Simplified: the parent object has no `aux_data`; dumps are not modelled. -/
def evalSingle (env : Env Arg Id D A Cfg F X R) (cfg : Cfg) (arg : Arg) : Ret (Stored Arg Id D A F) R (Exc X) :=
  match readSite env arg with
  | .error e => handleExc env e arg
  | .ok (d, aux) =>
    match env.ident arg with
    | .error x => handleExc env (.other x) arg
    | .ok i =>
      match env.fit cfg d with
      | .error x => handleExc env (.other x) arg
      | .ok f => .stored ⟨d, aux, arg, i, [f]⟩

/-- The attributes of the parent `MultiFits` object that are changed by `_evalfunc` (none: not yet set). -/
structure Multi (Arg Id D A F : Type) where
  dataset : Option D
  aux : Option (Aux D A)
  arg : Option Arg
  ident : Option Id
  fits : List (Option F)

/-- `performfit` for all configurations, in order (lines 502-503): the results up to the first exception. -/
def fitAll (env : Env Arg Id D A Cfg F X R) (d : D) : List Cfg → Except X (List F)
  | [] => .ok []
  | c :: cs => match env.fit c d with
    | .error x => .error x
    | .ok f => match fitAll env d cs with
      | .error x => .error x
      | .ok fs => .ok (f :: fs)

/-- The results of the configurations after `performfit`: the configurations from the one that raised on keep
their previous results. -/
def keepFits (env : Env Arg Id D A Cfg F X R) (d : D) : List Cfg → List (Option F) → List (Option F)
  | c :: cs, old :: olds => match env.fit c d with
    | .error _ => old :: olds
    | .ok f => some f :: keepFits env d cs olds
  | [], olds => olds
  | _, [] => []

/-- `_evalfunc` for a `MultiFits` object (lines 486-516): the parent object itself is used for all sites. -/
def evalMulti (env : Env Arg Id D A Cfg F X R) (cfgs : List Cfg) (m : Multi Arg Id D A F) (arg : Arg) :
    Ret (Stored Arg Id D A F) R (Exc X) × Multi Arg Id D A F :=
  match readSite env arg with
  | .error e => (handleExc env e arg, m)
  | .ok (d, aux) =>
    -- set_dataset
    let m := { m with dataset := some d }
    -- set_aux_data, only if there are any
    let m := match aux with
      | none => m
      | some a => { m with aux := some a }
    -- set_reader_arg
    let m := { m with arg := some arg }
    match env.ident arg with
    | .error x => (handleExc env (.other x) arg, m)
    | .ok i =>
      -- set_ID
      let m := { m with ident := some i }
      let m' := { m with fits := keepFits env d cfgs m.fits }
      match fitAll env d cfgs with
      | .error x => (handleExc env (.other x) arg, m')
      | .ok fs => (.stored ⟨d, m.aux, arg, i, fs⟩, m')

/-- A worker handles a sequence of sites. -/
def runMulti (env : Env Arg Id D A Cfg F X R) (cfgs : List Cfg) :
    Multi Arg Id D A F → List Arg → List (Ret (Stored Arg Id D A F) R (Exc X)) × Multi Arg Id D A F
  | m, [] => ([], m)
  | m, a :: as =>
    let r := evalMulti env cfgs m a
    let rs := runMulti env cfgs r.2 as
    (r.1 :: rs.1, rs.2)

/-- The parent object at the start: `MultiFits(dataset=None, aux_data=None)` with the configurations of the config
file (`rt1/rtfits.py` lines 3189-3206). -/
def fresh (cfgs : List Cfg) : Multi Arg Id D A F := ⟨none, none, none, none, cfgs.map fun _ => none⟩

end Worker
end RT1
