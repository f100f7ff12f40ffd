import Verif.Model.General

/-!
# Model of the caches of the phase functions (`rt1/volume.py`, `rt1/surface.py`)

`_func`, `legcoefs` and `_lambda_func` are decorated with `functools.lru_cache()`.  The caches belong to the classes, they are keyed by the
object (and the names of the parameters) and keep at most 128 entries.
-/

namespace RT1
namespace PhaseCache

/-- The entries of a `functools.lru_cache`, the most recently used one first. -/
abbrev Lru (K V : Type) := List (K × V)

section
variable {K V : Type} [DecidableEq K]

/-- The stored value of a key. -/
def Lru.find (c : Lru K V) (k : K) : Option V := (List.find? (fun e => e.1 = k) c).map Prod.snd

/-- A hit: the entry is the most recently used one now. -/
def Lru.touch (c : Lru K V) (k : K) (v : V) : Lru K V := (k, v) :: List.filter (fun e => e.1 ≠ k) c

/-- A miss: a new entry; the least recently used one is removed if there are more than `size`. -/
def Lru.insert (size : Nat) (c : Lru K V) (k : K) (v : V) : Lru K V := List.take size ((k, v) :: c)
end

/-- `lru_cache()` -/
def maxsize : Nat := 128

/-- The classes of phase functions: `Par` are the values of the attributes that define the function (`t`, `i`, `a`, the components of a linear
combination), `E` symbolic expressions, `C` legendre coefficients, `L` generated functions, `A` numeric arguments, `Y` results.
`volume`: is it a subclass of `Volume` (or of `Surface`); `expr`: the body of `_func`; `coefs`: the body of `legcoefs`; `numeric`:
`_func_numeric` if the class has this method; `lambdify` and `run`: `sp.lambdify` for the names of the parameters, and the call of the result;
`diff`: `sp.diff(_func, theta_ex, n)`. -/
structure Classes (Cls Par E C L A Y : Type) where
  volume : Cls → Bool
  expr : Cls → Par → E
  coefs : Cls → Par → C
  numeric : Cls → Option (Par → List String → A → Y)
  lambdify : List String → E → L
  run : L → A → Y
  diff : Nat → E → E

/-- An object: its class, the defining attributes, and the attributes `tau`, `omega`, `NormBRDF` (of some type `S`). -/
structure Obj (Cls Par S : Type) where
  cls : Cls
  par : Par
  scal : S

/-- The objects, and the caches: one of `_func` and one of `legcoefs` for each class, one of `_lambda_func` for each base class. -/
structure State (Cls Par S E C L : Type) where
  objs : Nat → Option (Obj Cls Par S)
  funcs : Cls → Lru Nat E
  legs : Cls → Lru Nat C
  lams : Bool → Lru (Nat × List String) L

/-- What a user does: create an object, assign attributes, and read. -/
inductive Op (Cls Par S A : Type)
  | new (i : Nat) (o : Obj Cls Par S)
  | set (i : Nat) (par : Par)
  | setScal (i : Nat) (scal : S)
  | func (i : Nat)
  | legcoefs (i : Nat)
  | p (i : Nat) (keys : List String) (arg : A)
  | diff (i : Nat) (n : Nat) (keys : List String) (arg : A)
  | scal (i : Nat)

/-- What is read. -/
inductive Out (S E C Y : Type)
  | none
  | expr (e : E)
  | coefs (c : C)
  | val (y : Y)
  | scal (s : S)
  | error (e : PyErr)

variable {Cls Par S E C L A Y : Type} [DecidableEq Cls]

/-- `self._func` (`rt1/volume.py` lines 494-498, 629-638, 701-713, 791-810, `rt1/surface.py` lines 482-485, 608-612, 690-713, 754-769, 822-855) -/
def readFunc (W : Classes Cls Par E C L A Y) (s : State Cls Par S E C L) (i : Nat) (o : Obj Cls Par S) : E × State Cls Par S E C L :=
  match (s.funcs o.cls).find i with
  | some e => (e, { s with funcs := fun c => if c = o.cls then (s.funcs c).touch i e else s.funcs c })
  | none =>
    let e := W.expr o.cls o.par
    (e, { s with funcs := fun c => if c = o.cls then (s.funcs c).insert maxsize i e else s.funcs c })

/-- `self.legcoefs` (`rt1/volume.py` lines 640-655, 728-737, 811-845, `rt1/surface.py` lines 602-606, 667-688, 771-775, 888-913) -/
def readLeg (W : Classes Cls Par E C L A Y) (s : State Cls Par S E C L) (i : Nat) (o : Obj Cls Par S) : C × State Cls Par S E C L :=
  match (s.legs o.cls).find i with
  | some e => (e, { s with legs := fun c => if c = o.cls then (s.legs c).touch i e else s.legs c })
  | none =>
    let e := W.coefs o.cls o.par
    (e, { s with legs := fun c => if c = o.cls then (s.legs c).insert maxsize i e else s.legs c })

/-- `self._lambda_func(*keys)` (`rt1/volume.py` lines 73-85, `rt1/surface.py` lines 75-87) -/
def readLam (W : Classes Cls Par E C L A Y) (s : State Cls Par S E C L) (i : Nat) (o : Obj Cls Par S) (keys : List String) :
    L × State Cls Par S E C L :=
  match (s.lams (W.volume o.cls)).find (i, keys) with
  | some l => (l, { s with lams := fun b => if b = W.volume o.cls then (s.lams b).touch (i, keys) l else s.lams b })
  | none =>
    let (e, s) := readFunc W s i o
    let l := W.lambdify keys e
    (l, { s with lams := fun b => if b = W.volume o.cls then (s.lams b).insert maxsize (i, keys) l else s.lams b })

/-- `p` and `brdf` (`rt1/volume.py` lines 87-135, `rt1/surface.py` lines 89-138); the vectorization is part of `run` (see C107). -/
def callP (W : Classes Cls Par E C L A Y) (s : State Cls Par S E C L) (i : Nat) (o : Obj Cls Par S) (keys : List String) (arg : A) :
    Y × State Cls Par S E C L :=
  match W.numeric o.cls with
  | some f => (f o.par keys arg, s)
  | none =>
    let (l, s) := readLam W s i o keys
    (W.run l arg, s)

/-- `p_theta_diff` and `brdf_theta_diff` (`rt1/volume.py` lines 137-308, `rt1/surface.py` lines 272-443): the derivative is generated in each
call, from `self._func`. -/
def callDiff (W : Classes Cls Par E C L A Y) (s : State Cls Par S E C L) (i : Nat) (o : Obj Cls Par S) (n : Nat) (keys : List String)
    (arg : A) : Y × State Cls Par S E C L :=
  let (e, s) := readFunc W s i o
  (W.run (W.lambdify keys (W.diff n e)) arg, s)

/-- One operation on an object. -/
def onObj (s : State Cls Par S E C L) (i : Nat) (f : Obj Cls Par S → Out S E C Y × State Cls Par S E C L) : Out S E C Y × State Cls Par S E C L :=
  match s.objs i with
  | none => (.error .nameError, s)
  | some o => f o

def setObj (s : State Cls Par S E C L) (i : Nat) (o : Obj Cls Par S) : State Cls Par S E C L :=
  { s with objs := fun j => if j = i then some o else s.objs j }

/-- One operation; an object cannot be created twice (the caches hold references to the objects, so an identity is not used again). -/
def step (W : Classes Cls Par E C L A Y) (s : State Cls Par S E C L) : Op Cls Par S A → Out S E C Y × State Cls Par S E C L
  | .new i o =>
    match s.objs i with
    | none => (.none, setObj s i o)
    | some _ => (.error .runtimeError, s)
  | .set i par => onObj s i fun o => (.none, setObj s i { o with par := par })
  | .setScal i scal => onObj s i fun o => (.none, setObj s i { o with scal := scal })
  | .func i => onObj s i fun o => ((readFunc W s i o).1 |> Out.expr, (readFunc W s i o).2)
  | .legcoefs i => onObj s i fun o => ((readLeg W s i o).1 |> Out.coefs, (readLeg W s i o).2)
  | .p i keys arg => onObj s i fun o => ((callP W s i o keys arg).1 |> Out.val, (callP W s i o keys arg).2)
  | .diff i n keys arg => onObj s i fun o => ((callDiff W s i o n keys arg).1 |> Out.val, (callDiff W s i o n keys arg).2)
  | .scal i => onObj s i fun o => (.scal o.scal, s)

/-- A history. -/
def exec (W : Classes Cls Par E C L A Y) (s : State Cls Par S E C L) : List (Op Cls Par S A) → List (Out S E C Y) × State Cls Par S E C L
  | [] => ([], s)
  | op :: ops => ((step W s op).1 :: (exec W (step W s op).2 ops).1, (exec W (step W s op).2 ops).2)

/-- At the start there are no objects, and the caches are empty. -/
def init : State Cls Par S E C L := ⟨fun _ => none, fun _ => [], fun _ => [], fun _ => []⟩

end PhaseCache
end RT1
