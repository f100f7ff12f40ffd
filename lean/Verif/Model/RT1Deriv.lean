import Verif.Model.RT1
import Verif.Model.PhaseCache

/-!
# Model of the cached derivatives of `rt1/rt1.py` (`_d_surface_dummy_lambda`, `_d_volume_dummy_lambda`)

The compiled derivatives with respect to a parameter are stored in two tables of the class `RT1` (`lru_cache(20)`), keyed by the object and the
parameter.  The derivatives of the current `SRF` and `V` are `Elem.dbrdf` and `Elem.dp` (the caches of `SRF._func`, `V._func`: C115).
-/

namespace RT1.Rad
open General Real PhaseCache

/-- A compiled derivative (`sp.lambdify(args, …)`, `rt1/rt1.py` lines 1562-1568, 1579-1585): the names of its parameters and its values. -/
structure Compiled where
  names : List String
  body : Env → AngFn

/-- A table of compiled derivatives (lines 1539, 1570). -/
abbrev DTable := Lru (Nat × String) Compiled

/-- The objects and the tables of `_d_surface_dummy_lambda` and `_d_volume_dummy_lambda` (lines 1539-1585). -/
structure DState where
  objs : Nat → Elem
  surf : DTable
  vol : DTable

/-- A call of a cached function (lines 1539, 1570: `@lru_cache(20)`); `new` is the result of its body. -/
def lookup (c : DTable) (k : Nat × String) (new : Compiled) : Compiled × DTable :=
  match c.find k with
  | some f => (f, c.touch k f)
  | none => (new, c.insert 20 k new)

/-- `_d_surface_dummy_lambda(key)` (`rt1/rt1.py` lines 1539-1568). -/
def readSurf (s : DState) (i : Nat) (key : String) : Compiled × DState :=
  let r := lookup s.surf (i, key) ⟨(s.objs i).keys, (s.objs i).dbrdf key⟩
  (r.1, { s with surf := r.2 })

/-- `_d_volume_dummy_lambda(key)` (`rt1/rt1.py` lines 1570-1585). -/
def readVol (s : DState) (i : Nat) (key : String) : Compiled × DState :=
  let r := lookup s.vol (i, key) ⟨(s.objs i).keys, (s.objs i).dp key⟩
  (r.1, { s with vol := r.2 })

/-- A compiled function can be called with `**self.param_dict` if the names agree, otherwise TypeError (lines 1605-1608, 1623-1625). -/
def callable (f : Compiled) (o : Elem) : Bool := (f.names.all fun k => decide (k ∈ o.keys)) && o.keys.all fun k => decide (k ∈ f.names)

/-- The entry of `jacobian` for one key (`rt1/rt1.py` lines 1680-1701) with `_d_surface_ddummy`, `_d_volume_ddummy` (lines 1587-1628). -/
noncomputable def dEntry (s : DState) (i : Nat) (dB sig0 : Bool) (key : String) : Except PyErr ℝ × DState :=
  if key = "omega" ∨ key = "tau" ∨ key = "NormBRDF" ∨ key = "bsf" ∨ key ∉ (s.objs i).keys then ((s.objs i).jacEntry dB sig0 key, s)
  else
    let f := readSurf s i key
    if callable f.1 (s.objs i) then
      let g := readVol f.2 i key
      if callable g.1 (s.objs i) then
        (.ok ((({ s.objs i with dbrdf := fun _ => f.1.body } : Elem).dsurfaceDdummy key +
          ({ s.objs i with dp := fun _ => g.1.body } : Elem).dvolumeDdummy key) * (s.objs i).jacNorm dB sig0), g.2)
      else (.error .typeError, g.2)
    else (.error .typeError, f.2)

/-- The loop of `jacobian` (`rt1/rt1.py` lines 1680-1701). -/
noncomputable def dLoop (i : Nat) (dB sig0 : Bool) : DState → List String → List ℝ → Except PyErr (List ℝ) × DState
  | s, [], jac => (.ok jac, s)
  | s, key :: ks, jac =>
    match dEntry s i dB sig0 key with
    | (.error e, s1) => (.error e, s1)
    | (.ok v, s1) => dLoop i dB sig0 s1 ks (jac ++ [v])

/-- `jacobian(dB, sig0, param_list)` of an object (`rt1/rt1.py` lines 1630-1703). -/
noncomputable def dJacobian (s : DState) (i : Nat) (dB sig0 : Bool) (ks : List String) : Except PyErr (List ℝ) × DState :=
  dLoop i dB sig0 s ks []

/-- What is done with the objects: assignments of attributes, `_clear_cache()` (of any object), and `jacobian`. -/
inductive DOp
  | set (i : Nat) (f : Elem → Elem)
  | clear
  | jac (i : Nat) (dB sig0 : Bool) (ks : List String)

/-- `_clear_cache()` (`rt1/rt1.py` lines 235-239): the table of the surface is cleared twice, the one of the volume is not cleared. -/
def dClear (s : DState) : DState := { s with surf := [] }

/-- The state after an operation. -/
noncomputable def dStep (s : DState) : DOp → DState
  | .set i f => { s with objs := fun j => if j = i then f (s.objs i) else s.objs j }
  | .clear => dClear s
  | .jac i dB sig0 ks => (dJacobian s i dB sig0 ks).2

/-- The state after a history, starting with objects whose derivatives have not been evaluated. -/
noncomputable def dExec (objs : Nat → Elem) (ops : List DOp) : DState := ops.foldl dStep ⟨objs, [], []⟩

end RT1.Rad
