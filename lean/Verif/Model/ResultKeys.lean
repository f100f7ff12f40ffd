import Verif.Model.Dict

/-!
# The keys under which results are stored (`rt1/_rtprocess_writer.py`, lines 264-271)

A result must be a dict.  Values are dicts (results of one configuration) or other objects; only the distinction between
strings and other objects matters for the keys.  Strings are lists of characters.
-/

namespace RT1.ResultKeys

/-- A key of a dict: a string or another object. -/
inductive Key
  | str (s : List Char)
  | other
  deriving DecidableEq

/-- A value of a result. -/
inductive Val (V : Type)
  | dict (l : List (Key × V))
  | other (v : V)
  deriving DecidableEq

/-- What the queue contains: a dict or another object. -/
inductive Res (V : Type)
  | dict (l : List (Key × Val V))
  | other
  deriving DecidableEq

/-- `str.lstrip(chars)`: removes all leading characters that occur in `chars`. -/
def lstrip (chars : List Char) : List Char → List Char
  | [] => []
  | c :: s => if c ∈ chars then lstrip chars s else c :: s

def const : List Char := "const__".toList

/-- `for cfg_key, cfg_val in cfg_results.items(): results[cfg + "/" + cfg_key].append(cfg_val)` (lines 268-269);
`none`: a key that is not a string raises a TypeError. -/
def dictEntries {V : Type} (cfg : List Char) : List (Key × V) → Option (List (List Char × Val V))
  | [] => some []
  | (.other, _) :: _ => none
  | (.str k, v) :: l => (dictEntries cfg l).map ((cfg ++ '/' :: k, .other v) :: ·)

/-- One iteration of the loop (lines 264-271). -/
def keyEntries {V : Type} : Key × Val V → Option (List (List Char × Val V))
  | (.other, _) => none
  | (.str cfg, v) =>
    if const.isPrefixOf cfg then some [(lstrip const cfg, v)]
    else
      match v with
      | .dict l => dictEntries cfg l
      | .other v => some [(cfg, .other v)]

def loop {V : Type} : List (Key × Val V) → Option (List (List Char × Val V))
  | [] => some []
  | e :: l =>
    match keyEntries e with
    | none => none
    | some es => (loop l).map (es ++ ·)

/-- The entries (key, value) of a result in the order in which they are appended; `none`: an exception is raised (lines
264-271; `val.items()` of another object raises an AttributeError). -/
def entries {V : Type} : Res V → Option (List (List Char × Val V))
  | .other => none
  | .dict l => loop l

end RT1.ResultKeys
