import Verif.Model.Results
import Verif.Model.PhaseCache

/-!
# Model of the handlers of the result databases (`fit_db`, `rescan` and `_load_fit_from_HDF` of `_RT1_fitresult` in `rt1/rtresults.py`)

The result objects are numbered.  An `HDFaccessor` is identified by its number (in the order of opening); the database itself (what is read
from an opened file, see `Model/Database` and `Model/FitStore`) is abstract: `C`.

The selectors (`accessor.datasets.x`) keep only a weak reference to the accessor (`_cfgselector`, `_subselector`: lines 900-917).  An accessor is
removed by the garbage collection at some time after the last reference is gone, its store is closed then (`__del__`, lines 546-548).  The time is
not determined: an accessor with an "init_dict" refers to itself (`self.load_fit = self._load_fit`, lines 535-537), so that it is removed
by one of the next runs of the collector; otherwise it is removed at once.  Here the collection is a separate operation that can occur at any time.

Not modelled: `use_dumps` (see `Model/Results`), generators that are suspended, and files that are changed in place while they are opened (a
file of the folder is replaced as a whole; an opened store keeps reading what it has opened).
-/

namespace RT1.ResultDb

open RT1.Results (Name h5N getResults loadResult)
open RT1.PhaseCache (Lru maxsize)

/-- `"fit_db"` -/
def fitDbN : Name := ['f', 'i', 't', '_', 'd', 'b']

/-- The files of a results-folder. -/
abbrev Folder (C : Type) := List (Name × Results.Tree C)

/-- An `HDFaccessor`: what is read from its store, `store.is_open`, has it not been removed yet, does the user keep a reference. -/
structure Handle (C : Type) where
  content : C
  isOpen : Bool
  alive : Bool
  held : Bool

/-- The results-folders, the names in `_hdf_paths` of the objects, the accessors, and the cache of `fit_db` (it belongs to the class). -/
structure State (C : Type) where
  folder : Nat → Folder C
  known : Nat → List Name
  handles : List (Handle C)
  cache : Lru Nat Nat

variable {C : Type}

/-- The names in `self._hdf_paths = self._get_results(".h5")` (lines 159, 189) -/
def scanned (folder : Folder C) : List Name := Dict.keys (getResults h5N folder)

/-- `__init__` of the objects (lines 150-159) -/
def start (folder : Nat → Folder C) : State C := ⟨folder, fun o => scanned (folder o), [], []⟩

/-- `HDFaccessor(path)`: a new accessor (lines 259, 495) -/
def newHandle (s : State C) (c : C) (held : Bool) : State C := { s with handles := s.handles ++ [⟨c, true, true, held⟩] }

/-- The body of `fit_db` (lines 194-199); nothing is cached if an exception is raised. -/
def openDb (s : State C) (o : Nat) : Except PyErr Nat × State C :=
  if fitDbN ∈ s.known o then
    match loadResult h5N (s.folder o) (some fitDbN) with
    | .ok c => (.ok s.handles.length,
        { newHandle s c false with cache := s.cache.insert maxsize o s.handles.length })
    | .error e => (.error e, s)
  else (.error .assertionError, s)

/-- `result.fit_db` (lines 192-199) -/
def fitDb (s : State C) (o : Nat) : Except PyErr Nat × State C :=
  match s.cache.find o with
  | some h => (.ok h, { s with cache := s.cache.touch o h })
  | none => openDb s o

/-- `_reset_fit_db_cache` (lines 201-206): the cache of the class, i.e. of all objects. -/
def resetCache (s : State C) : State C := { s with cache := [] }

/-- `rescan()` (lines 175-190) -/
def rescan (s : State C) (o : Nat) : State C :=
  resetCache { s with known := fun i => if i = o then scanned (s.folder o) else s.known i }

/-- `store.is_open` -/
def isOpen (s : State C) (h : Nat) : Bool :=
  match s.handles[h]? with
  | some x => x.isOpen
  | none => false

/-- Reading from the store of an accessor; the user error stands for the `ClosedFileError` of pandas. -/
def readStore (s : State C) (h : Nat) : Except PyErr C :=
  match s.handles[h]? with
  | some x => if x.isOpen then .ok x.content else .error .userError
  | none => .error .nameError

/-- `self._parent().store.select(...)` of a selector (lines 919-920): `self._parent()` is None if the accessor has been removed. -/
def readSelector (s : State C) (h : Nat) : Except PyErr C :=
  match s.handles[h]? with
  | some x => if x.alive then readStore s h else .error .attributeError
  | none => .error .nameError

/-- `if not self.fit_db.store.is_open: self._reset_fit_db_cache()` (lines 303-304) -/
def checkOpen (s : State C) (h : Nat) : State C := if isOpen s h then s else resetCache s

/-- `self.fit_db.load_fit(ID)` (line 305): the database that is used to create the fit. -/
def loadFrom (s : State C) (o : Nat) : Except PyErr C × State C :=
  match fitDb s o with
  | (.ok h, s') => (readStore s' h, s')
  | (.error e, s') => (.error e, s')

/-- `_load_fit_from_HDF` (lines 302-307) -/
def loadFit (s : State C) (o : Nat) : Except PyErr C × State C :=
  match fitDb s o with
  | (.ok h, s') => loadFrom (checkOpen s' h) o
  | (.error e, s') => (.error e, s')

/-- Change an accessor. -/
def modify (s : State C) (h : Nat) (f : Handle C → Handle C) : State C := { s with handles := s.handles.modify h f }

/-- Is there still a reference to the accessor? -/
def reachable (s : State C) (h : Nat) : Bool :=
  (match s.handles[h]? with
  | some x => x.held
  | none => false) || s.cache.any (fun e => e.2 == h)

/-- What happens: the results-folder is changed; `result.rescan()`; `db = result.fit_db`; `sel = result.fit_db.datasets.x`;
`db = result.load_hdf("fit_db")`; `sel = result.load_hdf("fit_db").datasets.x`; `del db`; the garbage collector runs; `db.close()` (or the end
of a with-block); `result.fit_db.close()`; `result.load_fit(...)`; `db.datasets.x.select()` or `sel.select()`. -/
inductive Op (C : Type)
  | write (o : Nat) (folder : Folder C)
  | rescan (o : Nat)
  | get (o : Nat)
  | select (o : Nat)
  | openHdf (o : Nat)
  | selectHdf (o : Nat)
  | del (h : Nat)
  | collect (h : Nat)
  | close (h : Nat)
  | closeDb (o : Nat)
  | load (o : Nat)
  | read (h : Nat)

/-- The result of an operation. -/
inductive Out (C : Type)
  | none
  | handle (h : Nat)
  | content (c : C)
  | error (e : PyErr)
  deriving DecidableEq

def Out.ofContent : Except PyErr C → Out C
  | .ok c => .content c
  | .error e => .error e

/-- `load_hdf("fit_db")` (lines 228-259, see `Model/Results`) -/
def loadHdf (s : State C) (o : Nat) (held : Bool) : State C × Out C :=
  match loadResult h5N (s.folder o) (some fitDbN) with
  | .ok c => (newHandle s c held, .handle s.handles.length)
  | .error e => (s, .error e)

/-- Use the accessor `result.fit_db`. -/
def withDb (s : State C) (o : Nat) (f : State C → Nat → State C) : State C × Out C :=
  match fitDb s o with
  | (.ok h, s') => (f s' h, .handle h)
  | (.error e, s') => (s', .error e)

/-- One operation. -/
def step (s : State C) : Op C → State C × Out C
  | .write o folder => ({ s with folder := fun i => if i = o then folder else s.folder i }, .none)
  | .rescan o => (rescan s o, .none)
  | .get o => withDb s o fun s h => modify s h fun x => { x with held := true }
  | .select o => withDb s o fun s _ => s
  | .openHdf o => loadHdf s o true
  | .selectHdf o => loadHdf s o false
  | .del h => (modify s h fun x => { x with held := false }, .none)
  | .collect h =>
    (if reachable s h then s else modify s h fun x => { x with alive := false, isOpen := false }, .none)
  | .close h => (modify s h fun x => { x with isOpen := false }, .none)
  | .closeDb o => withDb s o fun s h => modify s h fun x => { x with isOpen := false }
  | .load o => ((loadFit s o).2, Out.ofContent (loadFit s o).1)
  | .read h => (s, Out.ofContent (readSelector s h))

/-- A history of operations. -/
def exec (s : State C) (ops : List (Op C)) : State C := ops.foldl (fun s op => (step s op).1) s

end RT1.ResultDb
