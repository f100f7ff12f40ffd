import Verif.Model.Dict

/-!
# Model of the configuration parser `rt1/rtparse.py` (`RT1_configparser`)

Strings are lists of characters.  A section is the list of its entries after interpolation (`ConfigParser.get`), `none` is an
entry without value (`allow_no_value=True`).
-/

namespace RT1.Config
open General

abbrev Str := List Char

/-- The conversion functions of the python library: `none` stands for a ValueError. -/
structure Conv (F D P : Type) where
  /-- `float(s)` -/
  float : Str → Option F
  /-- `int(s)` -/
  int : Str → Option Int
  /-- `datetime.strptime(s, fmt)` -/
  strptime : Str → Str → Option D
  /-- `Path(s)` -/
  path : Str → P
  /-- `Path.resolve`; `none` is a PermissionError -/
  resolve : P → Option P
  /-- `str.isspace` for single characters -/
  ws : Char → Bool
  /-- `str.isupper` for single characters -/
  upper : Char → Bool

variable {F D P : Type} (c : Conv F D P)

/-! ## strings -/

/-- `s.strip()` -/
def strip (ws : Char → Bool) (s : Str) : Str := ((s.dropWhile ws).reverse.dropWhile ws).reverse

/-- The parts before and after the first occurrence of `sep`. -/
def breakOn (sep : Str) : Str → Option (Str × Str)
  | [] => none
  | x :: xs =>
    if sep.isPrefixOf (x :: xs) then some ([], (x :: xs).drop sep.length)
    else (breakOn sep xs).map fun p => (x :: p.1, p.2)

def fmtSep : Str := "fmt=".toList

/-- The first two parts of `s.split("fmt=")`. -/
def splitFmt (s : Str) : Str × Option Str :=
  match breakOn fmtSep s with
  | none => (s, none)
  | some (a, r) => (a, some (match breakOn fmtSep r with | none => r | some (b, _) => b))

/-- `s.split(ch)` for a single character. -/
def splitChar (ch : Char) : Str → List Str
  | [] => [[]]
  | x :: xs =>
    if x = ch then [] :: splitChar ch xs
    else match splitChar ch xs with
      | h :: t => (x :: h) :: t
      | [] => [[x]]

/-- `s[1:-1]` -/
def inner (s : Str) : Str := (s.drop 1).dropLast

/-- `s.startswith("[") and s.endswith("]")` -/
def bracketed (s : Str) : Bool := s.head? == some '[' && s.getLast? == some ']'

/-- `s.replace(" ", "")` -/
def noBlanks (s : Str) : Str := s.filter fun x => x ≠ ' '

/-- `ConfigParser._convert_to_boolean`: ValueError for other words. -/
def toBool (s : Str) : Except PyErr Bool :=
  let l := s.map Char.toLower
  if l ∈ ["1".toList, "yes".toList, "true".toList, "on".toList] then .ok true
  else if l ∈ ["0".toList, "no".toList, "false".toList, "off".toList] then .ok false
  else .error .valueError

def orValueError {α : Type} : Option α → Except PyErr α
  | some a => .ok a
  | none => .error .valueError

/-! ## `ConfigParser` -/

abbrev Section := List (Str × Option Str)

/-- A config file: the section `DEFAULT` and the other sections. -/
structure File where
  defaults : Section
  sections : Dict Str Section

/-- The entries of a section as seen by `self.config[name]`: the explicit entries, then the entries of `DEFAULT` that are
not given explicitly. -/
def withDefaults (defaults s : Section) : Section := s ++ defaults.filter fun e => decide (e.1 ∉ s.map Prod.fst)

/-- `self.config[name]` -/
def File.get (f : File) (name : Str) : Except PyErr Section :=
  match f.sections.get? name with
  | some s => .ok (withDefaults f.defaults s)
  | none => if name = "DEFAULT".toList then .ok f.defaults else .error .keyError

/-- `name in self.config` -/
def File.has (f : File) (name : Str) : Bool := decide (name = "DEFAULT".toList) || (f.sections.get? name).isSome

/-- `SectionProxy.getfloat`: TypeError for entries without value. -/
def getfloat (v : Option Str) : Except PyErr F :=
  match v with | some s => orValueError (c.float s) | none => .error .typeError

/-- `SectionProxy.getint` -/
def getint (v : Option Str) : Except PyErr Int :=
  match v with | some s => orValueError (c.int s) | none => .error .typeError

/-- `SectionProxy.getboolean`: AttributeError for entries without value. -/
def getboolean (v : Option Str) : Except PyErr Bool :=
  match v with | some s => toBool s | none => .error .attributeError

/-! ## `get_process_specs` -/

/-- The elements of lists. -/
inductive Item (F D : Type)
  | str (s : Str) | bool (b : Bool) | float (x : F) | int (n : Int) | datetime (d : D)
  deriving DecidableEq, Repr

/-- The values of the process specs. -/
inductive Spec (F D P : Type)
  | none | item (i : Item F D) | path (p : P) | list (l : List (Item F D))
  deriving DecidableEq, Repr

/-- `s[n:]` if `s.startswith(p)` (`n = len(p)`). -/
def afterPrefix (p s : Str) : Option Str := if p.isPrefixOf s then some (s.drop p.length) else none

def defaultFmt : Str := "%Y-%m-%d %H:%M:%S.%f".toList

/-- `_to_dt` (`rt1/rtparse.py` lines 340-343). -/
def toDt (s : Str) (fmt : Option Str) : Except PyErr D := orValueError (c.strptime s (fmt.getD defaultFmt))

/-- The name, the string with the elements and the conversion function of a list entry (`rt1/rtparse.py` lines 613-644). -/
def listKind (listkey val : Str) : Str × Str × (Str → Except PyErr (Item F D)) :=
  match afterPrefix "bool__".toList listkey with
  | some k => (k, val, fun s => do let b ← toBool s; .ok (.bool b))
  | none =>
  match afterPrefix "float__".toList listkey with
  | some k => (k, val, fun s => do let b ← orValueError (c.float s); .ok (.float b))
  | none =>
  match afterPrefix "int__".toList listkey with
  | some k => (k, val, fun s => do let b ← orValueError (c.int s); .ok (.int b))
  | none =>
  match afterPrefix "datetime__".toList listkey with
  | some k =>
    let spl := splitFmt val
    (k, strip c.ws spl.1, fun s => do let d ← toDt c s (spl.2.map (strip c.ws)); .ok (.datetime d))
  | none => (listkey, val, fun s => .ok (.str s))

/-- The entries with the prefix `list__` (`rt1/rtparse.py` lines 610-651). -/
def listEntry (listkey : Str) (val : Option Str) : Except PyErr (Str × Spec F D P) :=
  match val with
  | none => .error .attributeError
  | some v =>
    if v.head? = some '[' ∧ (v.getLast? = some ']' ∨ (breakOn fmtSep v).isSome) then do
      let (k, v', conv) := listKind c listkey v
      let l ← (splitChar ',' (inner (strip c.ws v'))).mapM fun s => conv (strip c.ws s)
      .ok (k, .list l)
    else .error .assertionError

/-- The name and the value of one entry (`rt1/rtparse.py` lines 585-653). -/
def processEntry (e : Str × Option Str) : Except PyErr (Str × Spec F D P) :=
  let (key, raw) := e
  let val := if raw = some "None".toList then none else raw
  match afterPrefix "datetime__".toList key with
  | some k =>
    match val with
    | none => .error .attributeError
    | some v => do
      let d ← toDt c (strip c.ws (splitFmt v).1) ((splitFmt v).2.map (strip c.ws))
      .ok (k, .item (.datetime d))
  | none =>
  match afterPrefix "path__".toList key with
  | some k =>
    match val with
    | none => .error .attributeError
    | some v =>
      let p := c.path (strip c.ws v)
      if (breakOn "..".toList (strip c.ws v)).isSome then .ok (k, .path ((c.resolve p).getD p)) else .ok (k, .path p)
  | none =>
  match afterPrefix "bool__".toList key with
  | some k => do let b ← getboolean raw; .ok (k, .item (.bool b))
  | none =>
  match afterPrefix "float__".toList key with
  | some k => do let x ← getfloat c raw; .ok (k, .item (.float x))
  | none =>
  match afterPrefix "int__".toList key with
  | some k => do let n ← getint c raw; .ok (k, .item (.int n))
  | none =>
  match afterPrefix "list__".toList key with
  | some k => listEntry c k val
  | none => .ok (key, match val with | some v => .item (.str v) | none => .none)

/-- `get_process_specs` (`rt1/rtparse.py` lines 573-655): the loop over the entries. -/
def processSpecs (inp : Section) : Except PyErr (Dict Str (Spec F D P)) :=
  inp.foldlM (fun d e => do let p ← processEntry c e; .ok (Dict.set d p.1 p.2)) []

/-- `get_process_specs` -/
def getProcessSpecs (f : File) : Except PyErr (Dict Str (Spec F D P)) := do
  let inp ← f.get "PROCESS_SPECS".toList
  processSpecs c inp

/-! ## `get_config` -/

/-- The values of parsed keyword-arguments. -/
inductive KVal (F : Type)
  | none | str (s : Str) | float (x : F) | int (n : Int) | bool (b : Bool) | list (l : List Str)
  deriving DecidableEq, Repr

/-- The keys to convert (`lsq_parse_props`, `fitargs_parse_props`). -/
structure Props where
  section_ : Str
  int_keys : List Str
  float_keys : List Str
  bool_keys : List Str
  list_keys : List Str

/-- `rt1/rtparse.py` lines 149-153 -/
def lsqProps : Props where
  section_ := "least_squares_kwargs".toList
  int_keys := ["verbose".toList, "max_nfev".toList]
  float_keys := ["ftol".toList, "gtol".toList, "xtol".toList]
  bool_keys := []
  list_keys := []

/-- `rt1/rtparse.py` lines 155-160 -/
def fitProps : Props where
  section_ := "fits_kwargs".toList
  int_keys := ["verbose".toList]
  float_keys := []
  bool_keys := ["sig0".toList, "dB".toList, "int_Q".toList]
  list_keys := []

/-- One entry of `_parse_dict` (`rt1/rtparse.py` lines 228-247). -/
def dictEntry (p : Props) (e : Str × Option Str) : Except PyErr (KVal F) :=
  if e.1 ∈ p.float_keys then do let x ← getfloat c e.2; .ok (.float x)
  else if e.1 ∈ p.int_keys then do let x ← getint c e.2; .ok (.int x)
  else if e.1 ∈ p.bool_keys then do let x ← getboolean e.2; .ok (.bool x)
  else if e.1 ∈ p.list_keys then
    if e.2 = some "None".toList then .ok (.list [])
    else match e.2 with
      | none => .error .attributeError
      | some v => .ok (.list ((splitChar ',' (noBlanks v)).filter fun s => 0 < s.length))
  else match e.2 with
    | none => .ok .none
    | some v => if v = "None".toList then .ok .none else .ok (.str v)

/-- Parse all entries of a section with a function for single entries. -/
def parseWith {α : Type} (g : Str × Option Str → Except PyErr α) (inp : Section) : Except PyErr (Dict Str α) :=
  inp.foldlM (fun d e => do let v ← g e; .ok (Dict.set d e.1 v)) []

/-- `_parse_dict` (`rt1/rtparse.py` lines 201-249). -/
def parseDict (f : File) (p : Props) : Except PyErr (Dict Str (KVal F)) := do
  let inp ← f.get p.section_
  parseWith (dictEntry c p) inp

/-- A parsed defdict entry: `[fitQ, value or "auxiliary", freq, ([min], [max]), interpolate]`, the last three are optional. -/
structure DVal (F : Type) where
  fitQ : Bool
  val : Option F
  rest : Option (Option Str × F × F × Bool)
  deriving DecidableEq, Repr

def nth (l : List Str) (i : Nat) : Except PyErr Str :=
  match l[i]? with | some s => .ok s | none => .error .indexError

/-- One entry of `_parse_defdict` (`rt1/rtparse.py` lines 293-336). -/
def defdictEntry (e : Str × Option Str) : Except PyErr (DVal F) :=
  match e.2 with
  | none => .error .attributeError
  | some v =>
    if !bracketed v then .error .assertionError
    else do
      let l := splitChar ',' (noBlanks (inner v))
      let v0 ← nth l 0
      let fitQ ← (if v0 = "True".toList then .ok true else if v0 = "False".toList then .ok false else .error .assertionError :
        Except PyErr Bool)
      let v1 ← nth l 1
      let val ← (if v1 = "auxiliary".toList then .ok none else do let x ← orValueError (c.float v1); .ok (some x) :
        Except PyErr (Option F))
      if 2 < l.length then do
        let v2 ← nth l 2
        let v3 ← nth l 3
        let lo ← orValueError (c.float v3)
        let v4 ← nth l 4
        let hi ← orValueError (c.float v4)
        .ok ⟨fitQ, val, some (if v2 = "None".toList then none else some v2, lo, hi, decide (l[5]? = some "True".toList))⟩
      else .ok ⟨fitQ, val, none⟩

/-- `_parse_defdict` (`rt1/rtparse.py` lines 287-338). -/
def parseDefdict (f : File) (name : Str) : Except PyErr (Dict Str (DVal F)) := do
  let inp ← f.get name
  parseWith (defdictEntry c) inp

/-- Parsed values of the sections `RT1_V` and `RT1_SRF`. -/
inductive VVal (F : Type)
  | none | str (s : Str) | float (x : F) | int (n : Int) | floats (l : List F)
  deriving DecidableEq, Repr

inductive VProp (F : Type)
  | val (v : VVal F) | choices (l : List (VVal F × Dict Str (VVal F)))
  deriving DecidableEq, Repr

/-- One entry of `_parse_V_SRF` (`rt1/rtparse.py` lines 255-271). -/
def vEntry (e : Str × Option Str) : Except PyErr (VVal F) :=
  if e.1 = "ncoefs".toList ∨ e.1.drop 1 = "__ncoefs".toList then do let n ← getint c e.2; .ok (.int n)
  else if e.1 = "a".toList ∨ e.1.drop 1 = "__a".toList then
    match e.2 with
    | none => .error .attributeError
    | some v =>
      if bracketed v then do
        let l ← (splitChar ',' (noBlanks (inner v))).mapM fun s => orValueError (c.float s)
        .ok (.floats l)
      else .error .assertionError
  else match getfloat c e.2 with
    | .ok x => .ok (.float x)
    | .error _ => match e.2 with | some s => .ok (.str s) | none => .ok .none

/-- Does a key belong to a component of a linear combination (`rt1/rtparse.py` line 280)? -/
def isComponent (k : Str) : Bool :=
  (match k.head? with | some ch => c.upper ch | none => false) && "__".toList.isPrefixOf (k.drop 1)

/-- Add one entry to the components (`rt1/rtparse.py` lines 281-284). -/
def addChoice (ch : Dict Char (VVal F × Dict Str (VVal F))) (k : Str) (v : VVal F) : Dict Char (VVal F × Dict Str (VVal F)) :=
  match k with
  | [] => ch
  | x :: _ =>
    let old := (ch.get? x).getD (.int 1, [])
    if "__frac".toList.isSuffixOf k then ch.set x (v, old.2)
    else ch.set x (old.1, Dict.set old.2 (k.drop 3) v)

/-- The transformation of linear combinations for one prefix (`rt1/rtparse.py` lines 274-286). -/
def linComb (pre : Str) (d : Dict Str (VProp F)) : Dict Str (VProp F) :=
  match d.get? (pre ++ "_name".toList) with
  | some (.val (.str n)) =>
    if n = "LinComb".toList ++ pre then
      let comps := d.filterMap fun e => match e.2 with | .val v => if isComponent c e.1 then some (e.1, v) else none | _ => none
      let choices := comps.foldl (fun ch e => addChoice ch e.1 e.2) []
      Dict.set (d.filter fun e => !isComponent c e.1) (pre ++ "choices".toList) (.choices (choices.map Prod.snd))
    else d
  | _ => d

/-- `_parse_V_SRF` (`rt1/rtparse.py` lines 251-287). -/
def parseVSRF (f : File) (name : Str) : Except PyErr (Dict Str (VProp F)) := do
  let inp ← f.get name
  let d ← parseWith (fun e => do let v ← vEntry c e; .ok (VProp.val v)) inp
  .ok (linComb c "SRF".toList (linComb c "V".toList d))

/-- The name of the section of a config (`f"#config {config} {section}"`). -/
def cfgSection (config sec : Str) : Str := "#config ".toList ++ config ++ [' '] ++ sec

/-- The result of `get_config`. -/
structure Cfg (F : Type) where
  lsq : Dict Str (KVal F)
  defdict : Dict Str (DVal F)
  V : Dict Str (VProp F)
  SRF : Dict Str (VProp F)
  fits : Dict Str (KVal F)

/-- Update a parsed section with the parsed section of the config, if it exists. -/
def updated {α : Type} (f : File) (config : Option Str) (sec : Str) (parse : Str → Except PyErr (Dict Str α))
    (base : Dict Str α) : Except PyErr (Dict Str α) :=
  match config with
  | none => .ok base
  | some n =>
    if f.has (cfgSection n sec) then do
      let u ← parse (cfgSection n sec)
      .ok (Dict.update base u)
    else .ok base

/-- `get_config` (`rt1/rtparse.py` lines 345-407). -/
def getConfig (f : File) (config : Option Str) : Except PyErr (Cfg F) := do
  let lsq ← parseDict c f lsqProps
  let fits ← parseDict c f fitProps
  let dd ← parseDefdict c f "defdict".toList
  let V ← parseVSRF c f "RT1_V".toList
  let SRF ← parseVSRF c f "RT1_SRF".toList
  let lsq ← updated f config lsqProps.section_ (fun s => parseDict c f { lsqProps with section_ := s }) lsq
  let fits ← updated f config fitProps.section_ (fun s => parseDict c f { fitProps with section_ := s }) fits
  let dd ← updated f config "defdict".toList (parseDefdict c f) dd
  let V ← updated f config "RT1_V".toList (parseVSRF c f) V
  let SRF ← updated f config "RT1_SRF".toList (parseVSRF c f) SRF
  .ok ⟨lsq, dd, V, SRF, fits⟩

/-- `config_names` (`rt1/rtparse.py` lines 409-432), as the list that is converted to a set. -/
def configNames (f : File) : Except PyErr (List Str) := do
  let l ← f.sections.keys.mapM fun i =>
    if "#config".toList.isPrefixOf i then
      match splitChar ' ' i with
      | h :: rest =>
        if h = "#config".toList then
          match rest with
          | [n] => .ok [n]
          | [n, sec] => if f.has sec then .ok [n] else .error .assertionError
          | _ => .error .assertionError
        else .ok []
      | [] => .ok []
    else .ok []
  .ok l.flatten

/-- `required_sections` -/
def requiredSections : List Str :=
  ["PROCESS_SPECS", "CONFIGFILES", "fits_kwargs", "least_squares_kwargs", "defdict", "RT1_V", "RT1_SRF"].map String.toList

/-- `_check_integrity` (`rt1/rtparse.py` lines 164-199); the assertions in loops are taken together. -/
def checkIntegrity (f : File) : Except PyErr Unit :=
  if !requiredSections.all f.has then .error .assertionError
  else do
    let ps ← f.get "PROCESS_SPECS".toList
    if ¬ ("path__save_path".toList ∈ ps.map Prod.fst ∧ "dumpfolder".toList ∈ ps.map Prod.fst) then .error .assertionError
    else do
      let cf ← f.get "CONFIGFILES".toList
      let name ← (match Dict.get? cf "processing_cfg_module".toList with
        | some (some s) => .ok s
        | some none => .error .typeError
        | none => .ok "processing_cfg".toList : Except PyErr Str)
      if "module__".toList ++ name ∉ cf.map Prod.fst then .error .assertionError else .ok ()

end RT1.Config
