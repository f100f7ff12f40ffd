import Verif.Model.Config

/-!
# Model of `RT1_configparser.get_fitobject` (`rt1/rtparse.py` lines 434-478)

The configurations are parsed by the model in `Verif.Model.Config`. Fit objects are modelled by the attributes that are set by
`Fits.__init__` from the configuration.
-/

namespace RT1.Config
open General

/-- The parts of the python library that are used: `str.isidentifier`, the conversion in the setter of `Fits.ID`
(`rt1/rtfits.py` lines 421-427) and the default backend `_init_lambda_backend`. -/
structure FitEnv (F : Type) where
  isIdent : Str → Bool
  toID : KVal F → Str
  backend : KVal F

/-- A frequency of a variable. -/
inductive Freq
  | none | str (s : Str) | int (n : Int)
  deriving DecidableEq, Repr

/-- The definition of a variable in the defdict of a fit object. `val = none` is `"auxiliary"`. -/
structure VarDef (F : Type) where
  fitQ : Bool
  val : Option F
  freq : Freq
  minval : Option F
  maxval : Option F
  interpQ : Option Bool
  deriving DecidableEq, Repr

/-- A fit object; `V`/`SRF` are the entries of `set_V_SRF`. The dataset is `None`. -/
structure FitObj (F : Type) where
  sig0 : KVal F
  dB : KVal F
  int_Q : KVal F
  lambda_backend : KVal F
  fnevals_input : KVal F
  verbose : KVal F
  ID : Str
  lsq : Dict Str (KVal F)
  defdict : Dict Str (VarDef F)
  V : Dict Str (VProp F)
  SRF : Dict Str (VProp F)
  config_name : Option Str
  deriving DecidableEq

variable {F D P : Type}

/-- `_RT1_variable._from_list` (`rt1/_containers.py` lines 323-343) for a list made by `_parse_defdict`: missing elements are `None`.
Only strings and `None` are parsed as frequency (`rt1/rtparse.py` lines 317-320). -/
def varDef (d : DVal F) : VarDef F :=
  match d.rest with
  | none => ⟨d.fitQ, d.val, .none, none, none, none⟩
  | some (freq, lo, hi, q) =>
    ⟨d.fitQ, d.val, match freq with | some s => .str s | none => .none, some lo, some hi, some q⟩

/-- `_RT1_defdict.from_dict` (`rt1/_containers.py` lines 138-168; C31). Simplified: variable names that are attributes of every python
object (`__class__`, …) behave like others. -/
def fromDict (d : Dict Str (DVal F)) : Dict Str (VarDef F) := Dict.ofList (d.map fun e => (e.1, varDef e.2))

/-- The keyword-arguments that are given explicitly in the call of `Fits` (and `self`). -/
def explicitArgs : List Str := ["self", "dataset", "defdict", "set_V_SRF", "lsq_kwargs"].map String.toList

/-- The value bound to an argument with a default. -/
def kwarg (d : Dict Str (KVal F)) (k : String) (dflt : KVal F) : KVal F := (d.get? k.toList).getD dflt

/-- `if self.lambda_backend is None: self.lambda_backend = _init_lambda_backend` (`rt1/rtfits.py` lines 305-306) -/
def backendOf (env : FitEnv F) : KVal F → KVal F
  | .none => env.backend
  | v => v

/-- `Fits(dataset=None, defdict=…, set_V_SRF=…, lsq_kwargs=…, **fits_kwargs)` (`rt1/rtfits.py` lines 279-337): a repeated argument is a TypeError,
other names are collected in `**kwargs` and not used. -/
def newFit (env : FitEnv F) (cfg : Cfg F) : Except PyErr (FitObj F) :=
  if cfg.fits.keys.any fun k => decide (k ∈ explicitArgs) then .error .typeError
  else .ok {
    sig0 := kwarg cfg.fits "sig0" (.bool false)
    dB := kwarg cfg.fits "dB" (.bool false)
    int_Q := kwarg cfg.fits "int_Q" (.bool true)
    lambda_backend := backendOf env (kwarg cfg.fits "lambda_backend" .none)
    fnevals_input := kwarg cfg.fits "_fnevals_input" .none
    verbose := kwarg cfg.fits "verbose" (.int 2)
    ID := env.toID (kwarg cfg.fits "ID" (.str "RT1_fit".toList))
    lsq := cfg.lsq
    defdict := fromDict cfg.defdict
    V := cfg.V
    SRF := cfg.SRF
    config_name := none }

/-- The keys of `MultiFits.__dict__` (`rt1/rtfits.py` lines 3195-3212). -/
def reservedNames : List Str :=
  ["config_names", "configs", "_accessor", "_dataset", "_aux_data", "_reader_arg"].map String.toList

/-- A fit object or a `MultiFits` object (`config_names` and the attributes of `configs`). -/
inductive FitResult (F : Type)
  | single (x : FitObj F)
  | multi (names : List Str) (configs : Dict Str (FitObj F))
  deriving DecidableEq

/-- `MultiFits.add_config` (`rt1/rtfits.py` lines 3345-3373; see `Verif.Model.MultiFits` for the shared attributes). -/
def addFit (env : FitEnv F) (s : List Str × Dict Str (FitObj F)) (n : Str) (x : FitObj F) :
    Except PyErr (List Str × Dict Str (FitObj F)) :=
  if !env.isIdent n then .error .assertionError
  else if n ∈ reservedNames then .error .assertionError
  else .ok (s.1 ++ [n], s.2.set n { x with config_name := some n })

/-- One iteration of the loop over the configs (`rt1/rtparse.py` lines 438-450). -/
def addNamed (c : Conv F D P) (env : FitEnv F) (f : File) (s : List Str × Dict Str (FitObj F)) (n : Str) :
    Except PyErr (List Str × Dict Str (FitObj F)) := do
  let cfg ← getConfig c f (some n)
  let x ← newFit env cfg
  addFit env s n x

/-- `get_fitobject` (`rt1/rtparse.py` lines 434-478). `setOrder` is the order in which python iterates over `set(l)`. -/
def getFitobject (c : Conv F D P) (env : FitEnv F) (setOrder : List Str → List Str) (f : File) : Except PyErr (FitResult F) := do
  let configs ← configNames f
  if (setOrder configs).isEmpty then do
    let cfg ← getConfig c f none
    let x ← newFit env cfg
    .ok (.single x)
  else do
    let s ← (setOrder configs).foldlM (addNamed c env f) ([], [])
    .ok (.multi s.1 s.2)

end RT1.Config
