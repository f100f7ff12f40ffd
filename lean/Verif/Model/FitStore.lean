import Verif.Model.Dict
import Verif.Model.FitSpec

/-!
# Storing the results of a fit in the database and loading them again

Modelled: `Fits._get_res_dict_df` (`rt1/rtfits.py` lines 2831-2868), the sections `dataset` and `res_dict` of
`Fits._get_fit_to_hdf_dict` (lines 2942-2966, 2977-2990) and the part of `HDFaccessor._load_fit` (`rt1/rtresults.py` lines
617-672) that rebuilds `res_dict` and the dataset.  A cell of a table is `none` if it is NaN.  The index of a row consists
of a key (the ID for `Fits`, the pair of ID and config-name for `MultiFits`) and the number `n`.

Not modelled: the HDF file (appended tables are the rows one after the other, `get_id` returns the rows of the ID), dtypes,
`init_dict`, `reader_arg`, `aux_data` and `res_df`.
-/

namespace RT1.FitStore
open General FitSpec

variable {κ ν : Type}

/-- One row of a table; a column that does not exist has the cell `none`. -/
structure Row (κ ν : Type) where
  key : κ
  n : Nat
  cell : String → Option ν

structure Frame (κ ν : Type) where
  cols : List String
  rows : List (Row κ ν)

/-- The number of rows of the outer join of the index of all parameters (`rt1/rtfits.py` lines 2856-2867). -/
def nRows (d : Dict String (List (Option ν))) : Nat := d.foldr (fun e m => max e.2.length m) 0

/-- `_get_res_dict_df` (`rt1/rtfits.py` lines 2831-2868): one column for each parameter, shorter columns are filled with NaN.
`pd.concat` of an empty list is a ValueError. -/
def resFrame (k : κ) (d : Dict String (List (Option ν))) : Except PyErr (Frame κ ν) :=
  if d.isEmpty then .error .valueError
  else .ok
    { cols := d.keys
      rows := (List.range (nRows d)).map fun n =>
        { key := k, n := n, cell := fun c => ((Dict.get? d c).bind fun l => l[n]?).join } }

/-- The columns of `pd.concat(frames)`: the union in order of appearance. -/
def unionCols (cols : List String) : List String := cols.foldl (fun acc c => if c ∈ acc then acc else acc ++ [c]) []

/-- `pd.concat(frames)` along the index, and also the table after all frames have been appended. -/
def concatFrames (fs : List (Frame κ ν)) : Except PyErr (Frame κ ν) :=
  if fs.isEmpty then .error .valueError
  else .ok { cols := unionCols (fs.flatMap Frame.cols), rows := fs.flatMap Frame.rows }

/-- The table `res_dict` of a database with the given `Fits` objects (`rt1/rtfits.py` line 2986, `_rtprocess_writer.py` lines
408-437). -/
def storeSingle {ι : Type} (fits : List (ι × Dict String (List (Option ν)))) : Except PyErr (Frame ι ν) := do
  concatFrames (← fits.mapM fun f => resFrame f.1 f.2)

/-- The frame `res_dict` of a `MultiFits` object (`rt1/rtfits.py` lines 2980-2984). -/
def multiFrame {ι : Type} (id : ι) (cfgs : List (String × Dict String (List (Option ν)))) :
    Except PyErr (Frame (ι × String) ν) := do
  concatFrames (← cfgs.mapM fun c => resFrame (id, c.1) c.2)

/-- The table `res_dict` of a database with the given `MultiFits` objects. -/
def storeMulti {ι : Type} (fits : List (ι × List (String × Dict String (List (Option ν))))) :
    Except PyErr (Frame (ι × String) ν) := do
  concatFrames (← fits.mapM fun f => multiFrame f.1 f.2)

/-- `val.dropna().to_list()` for one column. -/
def colVals (rows : List (Row κ ν)) (c : String) : List (Option ν) := (rows.filterMap fun r => r.cell c).map some

/-- `res_dict` of a loaded `Fits` object (`rt1/rtresults.py` lines 673-677). -/
def loadSingle {ι : Type} [DecidableEq ι] (t : Frame ι ν) (id : ι) : Except PyErr (Dict String (List (Option ν))) :=
  let rows := t.rows.filter fun r => decide (r.key = id)
  if rows.isEmpty then .error .keyError
  else .ok (t.cols.map fun c => (c, colVals rows c))

/-- `res_dict` of one config of a loaded `MultiFits` object (`rt1/rtresults.py` lines 632-642): columns without values are
dropped. -/
def loadMulti {ι : Type} [DecidableEq ι] (t : Frame (ι × String) ν) (id : ι) (cfg : String) :
    Except PyErr (Dict String (List (Option ν))) :=
  let rows := t.rows.filter fun r => decide (r.key = (id, cfg))
  if rows.isEmpty then .error .keyError
  else .ok ((t.cols.filter fun c => rows.any fun r => (r.cell c).isSome).map fun c => (c, colVals rows c))

/-! ## the dataset -/

/-- `key + "_dyn"` is stored for the parameters with `val[0] and val[2] == "manual"` (`rt1/rtfits.py` lines 2957-2961). -/
def needsCol (p : ParamDef) : Bool := p.fit && decide (p.freq = .str manualStr)

/-- `store.append(key, df, format="t")` stores nothing if the frame is empty, i.e. has no column (pandas `_write_to_group`). -/
def appendCols (cols : List String) : Option (List String) := if cols.isEmpty then none else some cols

/-- The keys for which the column `<key>_dyn` of the dataset of a `Fits` object is part of the stored dataset (`rt1/rtfits.py`
lines 2942-2966, `_rtprocess_writer.py` lines 427-437), `none` if no dataset is stored.  (The whole dataset also has the columns
`inc` and `sig`, it is never empty.) -/
def storedDyn (saveData saveResults : Bool) (defs : List (String × ParamDef)) : Option (List String) :=
  if saveData then some ((defs.filter fun kd => kd.2.col.isSome).map Prod.fst)
  else if saveResults then appendCols ((defs.filter fun kd => needsCol kd.2).map Prod.fst)
  else none

/-- The same for a `MultiFits` object: without `save_data` the evaluation of `self.defdict` (line 2952) raises an
AttributeError that is caught, so no dataset is stored. -/
def storedDynMulti (saveData _saveResults : Bool) (defs : List (String × ParamDef)) : Option (List String) :=
  if saveData then some ((defs.filter fun kd => kd.2.col.isSome).map Prod.fst)
  else none

/-- The definitions of the loaded fit: the columns that are not part of the loaded dataset do not exist. -/
def loadDefs (stored : List String) (defs : List (String × ParamDef)) : List (String × ParamDef) :=
  defs.map fun kd => (kd.1, { kd.2 with col := if kd.1 ∈ stored then kd.2.col else none })

/-- `param_dyn_dict` of the loaded fit; without dataset there is no index (`fit.index` of `None` is an AttributeError). -/
def loadedDyn {τ : Type} [DecidableEq τ] (lib : Lib τ) (index : List τ) (stored : Option (List String))
    (defs : List (String × ParamDef)) : Except PyErr (Dict String (List Int)) :=
  match stored with
  | none => .error .attributeError
  | some s => paramDynDict lib index (loadDefs s defs)

end RT1.FitStore
