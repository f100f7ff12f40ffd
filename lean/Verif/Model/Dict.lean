import Verif.Model.General

/-!
# Python dictionaries

A dict is a list of (key, value) with distinct keys in insertion order.
-/

namespace RT1
open General

abbrev Dict (κ ν : Type) := List (κ × ν)

namespace Dict
variable {κ ν : Type} [DecidableEq κ]

/-- `d.get(k)` -/
def get? (d : Dict κ ν) (k : κ) : Option ν := (d.find? fun e => decide (e.1 = k)).map Prod.snd

/-- `d[k]` -/
def getItem (d : Dict κ ν) (k : κ) : Except PyErr ν :=
  match d.get? k with
  | some v => .ok v
  | none => .error .keyError

def keys (d : Dict κ ν) : List κ := d.map Prod.fst

/-- `d[k] = v`: an existing key keeps its position. -/
def set : Dict κ ν → κ → ν → Dict κ ν
  | [], k, v => [(k, v)]
  | e :: d, k, v => if e.1 = k then (k, v) :: d else e :: set d k v

/-- `d.update(u)`, `{**d, **u}` -/
def update (d u : Dict κ ν) : Dict κ ν := u.foldl (fun d e => set d e.1 e.2) d

/-- `del d[k]` / the dict after `d.pop(k, None)` -/
def erase (d : Dict κ ν) (k : κ) : Dict κ ν := d.filter fun e => decide (e.1 ≠ k)

/-- A dict built by inserting the entries one after the other. -/
def ofList (l : List (κ × ν)) : Dict κ ν := update [] l

end Dict
end RT1
