import Verif.Model.General

/-!
# Model of the definition containers (`rt1/_containers.py`)

Python values are modelled by `Val`: `None`, lists, tuples, and atoms (any other object, identified by its text).  Atoms
are not iterable and have no attribute `value` (strings, sets and dicts inside a definition are not modelled).  Variable
names are strings that are not names of attributes of the classes themselves.  Object identity is not modelled: a
variable is only reached through its defdict.
-/

namespace RT1.Defdict

/-- Python values occurring in a variable definition. -/
inductive Val
  | none
  | atom (s : String)
  | list (l : List Val)
  | tup (l : List Val)

/-- `_RT1_variable` (`rt1/_containers.py` lines 226-249): the values of the six `_var` slots. -/
structure Var where
  fitQ : Val
  val : Val
  freq : Val
  minval : Val
  maxval : Val
  interpQ : Val

/-- The properties of a variable (`_paramnames`, `rt1/_containers.py` line 227). -/
inductive Prop6
  | fitQ | val | freq | minval | maxval | interpQ
  deriving DecidableEq

/-- Name of a property. -/
def Prop6.name : Prop6 → String
  | .fitQ => "fitQ"
  | .val => "val"
  | .freq => "freq"
  | .minval => "minval"
  | .maxval => "maxval"
  | .interpQ => "interpQ"

/-- `key in ["fitQ", "val", "freq", "minval", "maxval", "interpQ"]` -/
def Prop6.ofName (s : String) : Option Prop6 :=
  if s = "fitQ" then some .fitQ
  else if s = "val" then some .val
  else if s = "freq" then some .freq
  else if s = "minval" then some .minval
  else if s = "maxval" then some .maxval
  else if s = "interpQ" then some .interpQ
  else none

/-- `_RT1_variable.__getattribute__` for one of the six names (`rt1/_containers.py` lines 257-261). -/
def Var.get (v : Var) : Prop6 → Val
  | .fitQ => v.fitQ
  | .val => v.val
  | .freq => v.freq
  | .minval => v.minval
  | .maxval => v.maxval
  | .interpQ => v.interpQ

/-- `object.__getattribute__(self, key).value = val` for one of the six names (`rt1/_containers.py` lines 276, 281). -/
def Var.set (v : Var) (p : Prop6) (x : Val) : Var :=
  match p with
  | .fitQ => { v with fitQ := x }
  | .val => { v with val := x }
  | .freq => { v with freq := x }
  | .minval => { v with minval := x }
  | .maxval => { v with maxval := x }
  | .interpQ => { v with interpQ := x }

/-- `_RT1_variable.__setattr__` (`rt1/_containers.py` lines 278-283).  `name` and `_props` are properties without setter;
any other key becomes a new instance attribute, which has no effect on the definition.  Keys that start with an
underscore (other than `_props`) would overwrite internals and are not modelled. -/
def Var.setattr (v : Var) (key : String) (x : Val) : Except PyErr Var :=
  match Prop6.ofName key with
  | some p => .ok (v.set p x)
  | none => if key = "name" ∨ key = "_props" then .error .attributeError else .ok v

/-- `_RT1_variable._props` and `_to_list` (`rt1/_containers.py` lines 313-321, 345-361). -/
def Var.toList (v : Var) : List Val :=
  [v.fitQ, v.val, v.freq, .tup [.list [v.minval], .list [v.maxval]], v.interpQ]

/-- python list index: negative numbers count from the end -/
def pyIndex {α : Type} (l : List α) (i : ℤ) : Except PyErr α :=
  let j := if i < 0 then i + l.length else i
  if h : 0 ≤ j ∧ j.toNat < l.length then .ok (l[j.toNat]'h.2) else .error .indexError

/-- `_RT1_variable.__getitem__` with an integer (`rt1/_containers.py` lines 251-253). -/
def Var.getPos (v : Var) (i : ℤ) : Except PyErr Val := pyIndex v.toList i

/-- `_RT1_variable.__getitem__` with a string (`rt1/_containers.py` lines 254-255); other attributes of the object have no
`value` (except `name`, not modelled). -/
def Var.getName (v : Var) (key : String) : Except PyErr Val :=
  match Prop6.ofName key with
  | some p => .ok (v.get p)
  | none => .error .attributeError

/-- `[v0] = x` -/
def unpack1 : Val → Except PyErr Val
  | .list [x] => .ok x
  | .tup [x] => .ok x
  | .list _ => .error .valueError
  | .tup _ => .error .valueError
  | _ => .error .typeError

/-- `(x, y) = val` -/
def unpack2 : Val → Except PyErr (Val × Val)
  | .list [x, y] => .ok (x, y)
  | .tup [x, y] => .ok (x, y)
  | .list _ => .error .valueError
  | .tup _ => .error .valueError
  | _ => .error .typeError

/-- `([v0], [v1]) = val` -/
def unpackMima (x : Val) : Except PyErr (Val × Val) := do
  let (a, b) ← unpack2 x
  let v0 ← unpack1 a
  let v1 ← unpack1 b
  return (v0, v1)

/-- The targets of positional item assignment (`rt1/_containers.py` line 266). -/
inductive Slot
  | single (p : Prop6)
  | mima

/-- `["fitQ", "val", "freq", "mima", "interpQ"]` -/
def slots : List Slot := [.single .fitQ, .single .val, .single .freq, .mima, .single .interpQ]

/-- `_RT1_variable.__setitem__` with an integer (`rt1/_containers.py` lines 265-274). -/
def Var.setPos (v : Var) (i : ℤ) (x : Val) : Except PyErr Var := do
  match ← pyIndex slots i with
  | .single p => return v.set p x
  | .mima =>
    let (v0, v1) ← unpackMima x
    return (v.set .minval v0).set .maxval v1

/-- `_RT1_variable.__setitem__` with a string (`rt1/_containers.py` lines 275-276). -/
def Var.setName (v : Var) (key : String) (x : Val) : Except PyErr Var :=
  match Prop6.ofName key with
  | some p => .ok (v.set p x)
  | none => .error .attributeError

/-- The default list of `_from_list` (`rt1/_containers.py` line 342). -/
def defaultList : List Val := [.none, .none, .none, .list [.list [.none], .list [.none]], .none]

/-- `_RT1_variable._from_list` (`rt1/_containers.py` lines 323-343): all six slots are overwritten.  When unpacking fails
the partially overwritten object is lost (the caller `from_dict` propagates the exception). -/
def Var.fromList (l : List Val) : Except PyErr Var :=
  match l ++ defaultList.drop l.length with
  | [a, b, c, m, e] => do
    let (v0, v1) ← unpackMima m
    return ⟨a, b, c, v0, v1, e⟩
  | _ => .error .valueError

/-- `_RT1_variable._from_dict` (`rt1/_containers.py` lines 363-376). -/
def Var.fromDict (v : Var) (d : List (String × Val)) : Except PyErr Var :=
  d.foldlM (fun v kv => v.setattr kv.1 kv.2) v

/-- `_RT1_variable._to_dict` (`rt1/_containers.py` lines 378-395): `self.fitQ` is already the value, and the value has no
attribute `value`. -/
def Var.toDict (_v : Var) : Except PyErr (List (String × Val)) := .error .attributeError

/-- Defaults of `add_variable` (`rt1/_containers.py` lines 48-50). -/
def Var.default : Var := ⟨.atom "True", .atom "0.5", .none, .atom "0.0", .atom "1.0", .atom "False"⟩

/-- `_RT1_defdict` (`rt1/_containers.py` lines 12-17): the list of names, the attributes of the container and the plain
attributes of the object itself. -/
structure DD where
  names : List String
  vars : String → Option Var
  attrs : String → Bool

/-- `_RT1_defdict()` -/
def DD.empty : DD := ⟨[], fun _ => none, fun _ => false⟩

/-- `_RT1_defdict.add_variable` (`rt1/_containers.py` lines 48-123). -/
def DD.addVariable (s : DD) (name : String) (v : Var) : DD :=
  { s with
    names := if name ∈ s.names then s.names else s.names ++ [name]
    vars := fun k => if k = name then some v else s.vars k }

/-- `_RT1_defdict.remove_variable` (`rt1/_containers.py` lines 125-136); `pop(index(name))` removes the first occurrence,
`delattr` fails if the container has no such attribute (the name has been removed from the list by then). -/
def DD.removeVariable (s : DD) (name : String) : DD × Except PyErr Unit :=
  let s1 := { s with names := if name ∈ s.names then s.names.erase name else s.names }
  match s.vars name with
  | some _ => ({ s1 with vars := fun k => if k = name then none else s.vars k }, .ok ())
  | none => (s1, .error .attributeError)

/-- `_RT1_defdict.__getitem__` (`rt1/_containers.py` lines 23-24). -/
def DD.getitem (s : DD) (name : String) : Except PyErr Var :=
  match s.vars name with
  | some v => .ok v
  | none => .error .attributeError

/-- Binding the positional arguments `fitQ, val, freq, minval, maxval, interpQ` (`rt1/_containers.py` lines 31-32, 48-50). -/
def Var.ofPositional (l : List Val) : Except PyErr Var :=
  match l with
  | [] => .ok .default
  | [a] => .ok { Var.default with fitQ := a }
  | [a, b] => .ok { Var.default with fitQ := a, val := b }
  | [a, b, c] => .ok { Var.default with fitQ := a, val := b, freq := c }
  | [a, b, c, d] => .ok { Var.default with fitQ := a, val := b, freq := c, minval := d }
  | [a, b, c, d, e] => .ok { Var.default with fitQ := a, val := b, freq := c, minval := d, maxval := e }
  | [a, b, c, d, e, f] => .ok ⟨a, b, c, d, e, f⟩
  | _ => .error .typeError

/-- Binding keyword arguments (`rt1/_containers.py` lines 29-30, 48-50): unknown keywords raise TypeError. -/
def Var.ofKeywords (d : List (String × Val)) : Except PyErr Var :=
  d.foldlM (fun v kv => match Prop6.ofName kv.1 with
    | some p => .ok (v.set p kv.2)
    | none => .error .typeError) Var.default

/-- A value assigned to an attribute of a defdict, or contained in the dict given to `from_dict`. -/
inductive Def
  | list (l : List Val)
  | dict (d : List (String × Val))
  | other

/-- `_RT1_defdict.__setattr__` (`rt1/_containers.py` lines 26-39). -/
def DD.setattr (s : DD) (key : String) (x : Def) : DD × Except PyErr Unit :=
  if ¬ key.startsWith "_" ∧ key ∉ s.names then
    match x with
    | .dict d => match Var.ofKeywords d with
      | .ok v => (s.addVariable key v, .ok ())
      | .error e => (s, .error e)
    | .list l => match Var.ofPositional l with
      | .ok v => (s.addVariable key v, .ok ())
      | .error e => (s, .error e)
    | .other => (s, .error .attributeError)
  else ({ s with attrs := fun k => if k = key then true else s.attrs k }, .ok ())

/-- One entry of `_RT1_defdict.from_dict` (`rt1/_containers.py` lines 161-167). -/
def DD.addEntry (s : DD) (key : String) (x : Def) : Except PyErr DD :=
  match x with
  | .list l => do return s.addVariable key (← Var.fromList l)
  | .dict d => do return s.addVariable key (← Var.default.fromDict d)
  | .other => .ok (s.addVariable key Var.default)

/-- `_RT1_defdict.from_dict` (`rt1/_containers.py` lines 138-168); the python dict is a list of items with distinct keys
(a hypothesis of the theorems). -/
def DD.fromDict (d : List (String × Def)) : Except PyErr DD :=
  d.foldlM (fun s kv => s.addEntry kv.1 kv.2) DD.empty

/-- `_RT1_defdict.to_dict("list")` (`rt1/_containers.py` lines 186-189). -/
def DD.toDictList (s : DD) : Except PyErr (List (String × List Val)) :=
  s.names.mapM fun n => do return (n, (← s.getitem n).toList)

/-- `_RT1_defdict.to_dict("dict")` (`rt1/_containers.py` lines 190-192). -/
def DD.toDictDict (s : DD) : Except PyErr (List (String × List (String × Val))) :=
  s.names.mapM fun n => do return (n, ← (← s.getitem n).toDict)

/-- Operations on a defdict. -/
inductive Op
  | add (name : String) (v : Var)
  | remove (name : String)
  | assign (name : String) (x : Def)
  | writeAttr (name : String) (p : Prop6) (x : Val)
  | writeName (name key : String) (x : Val)
  | writePos (name : String) (i : ℤ) (x : Val)

/-- Replace the definition of a variable in place. -/
def DD.update (s : DD) (name : String) (r : Var → Except PyErr Var) : DD × Except PyErr Unit :=
  match s.getitem name with
  | .error e => (s, .error e)
  | .ok v => match r v with
    | .error e => (s, .error e)
    | .ok v' => ({ s with vars := fun k => if k = name then some v' else s.vars k }, .ok ())

/-- Execute one operation. -/
def DD.step (s : DD) : Op → DD × Except PyErr Unit
  | .add name v => (s.addVariable name v, .ok ())
  | .remove name => s.removeVariable name
  | .assign name x => s.setattr name x
  | .writeAttr name p x => s.update name fun v => .ok (v.set p x)
  | .writeName name key x => s.update name fun v => v.setName key x
  | .writePos name i x => s.update name fun v => v.setPos i x

/-- Execute a history; exceptions are caught by the caller, the state remains. -/
def DD.run (s : DD) (ops : List Op) : DD := ops.foldl (fun s o => (s.step o).1) s

end RT1.Defdict
