import Verif.Model.Plotter
import Verif.Model.Import

/-!
# Targets whose names contain a slash

h5py takes the name of a group for a path. `Model/Hdf5` and `Model/Run` have names without `/`; here a target of any name is written to
the output file (`exorad/models/target.py:44-51`, `exorad/output/hdf5/hdf5.py:120-127`).

Assumed about h5py: a name is split at `/`, empty components and `.` are dropped, a name that begins with `/` starts at the root of the
file, `create_group` makes the missing groups on the way and is a ValueError if the last one exists or something on the way is a dataset;
indexing with a path through a dataset is a KeyError.
-/

namespace ExoRad.Slash

open Hdf5

variable {V : Type}

/-- The components of a path. `exorad/output/hdf5/hdf5.py:123-125`. -/
def parts (name : String) : List String :=
  ((Import.splitSlash name.toList).map String.ofList).filter (fun k => decide (k ≠ "" ∧ k ≠ "."))

/-- A path from the root of the file. `exorad/output/hdf5/hdf5.py:123`. -/
def absolute (name : String) : Bool := name.toList.head? == some '/'

/-- `create_group(name)` and the entries of the target: `exorad/output/output.py:78-84`, `exorad/output/hdf5/hdf5.py:119-127`. A name without
components is not modelled (ValueError). -/
def saveAt (d : List (String × Item V)) : List String → Hdf5.Group V → W V
  | [], g => (g, .error .valueError)
  | [k], g => storeThing (.dict d) k g
  | k :: ks, g =>
    match g.get? k with
    | none => let r := saveAt d ks []; (g.set k (.group r.1), r.2)
    | some (.group sub) => let r := saveAt d ks sub; (g.set k (.group r.1), r.2)
    | some (.ds _) => (g, .error .keyError)

/-- `output.create_group("targets")` (`exorad/models/target.py:45`); a dataset of this name fails later. -/
def withTargets (file : Hdf5.Group V) : Hdf5.Group V :=
  match file.get? "targets" with
  | none => file.set "targets" (.group [])
  | some _ => file

/-- `exorad/models/target.py:44-51` `write`, for a target of any name. -/
def writeTarget (name : String) (d : List (String × Item V)) (file : Hdf5.Group V) : W V :=
  if absolute name then saveAt d (parts name) (withTargets file) else saveAt d ("targets" :: parts name) (withTargets file)

end ExoRad.Slash
