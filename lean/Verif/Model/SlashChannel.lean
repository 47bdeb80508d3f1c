import Verif.Model.Slash
import Verif.Model.Loaded

/-!
# Channels whose names contain a slash

As `Model/Slash`, for the channels of a payload (`exorad/models/instruments/instrument.py:72-84`): the group and the table of a channel are both
named by it. The same is assumed about h5py; names that begin with a slash, or have no component, are not modelled.
-/

namespace ExoRad.SlashChannel

open Hdf5 Run

variable {V : Type}

/-- `create_group(path)` and what is then written there. `exorad/output/hdf5/hdf5.py:119-127`. -/
def within : List String → (Hdf5.Group V → W V) → Hdf5.Group V → W V
  | [], f, g => f g
  | k :: ks, f, g =>
    match g.get? k with
    | none => let r := within ks f []; (g.set k (.group r.1), r.2)
    | some (.group sub) => let r := within ks f sub; (g.set k (.group r.1), r.2)
    | some (.ds _) => (g, .error .keyError)

/-- `exorad/models/instruments/instrument.py:77-82`: the table, the description and the built data, in the group of the channel. -/
def writeBody (path : List String) (c : ChanRec V) (g : Hdf5.Group V) : W V :=
  match within path.dropLast (saveDict [(path.getLast?.getD "", .table c.tableId c.cols)]) g with
  | (g, .error e) => (g, .error e)
  | (g, .ok _) => saveDict [("description", .dict c.description), ("built_instr", .dict c.built)] g

/-- `exorad/models/instruments/instrument.py:72-84` `write`, in the group `channels`. -/
def writeChannel (c : ChanRec V) (chs : Hdf5.Group V) : W V :=
  within (Slash.parts c.name) (writeBody (Slash.parts c.name) c) chs

/-- The loop over the channels, `exorad/tasks/instrumentHandler.py:120-152`. -/
def writeAll : List (ChanRec V) → Hdf5.Group V → W V
  | [], g => (g, .ok ())
  | c :: cs, g =>
    match writeChannel c g with
    | (g, .error e) => (g, .error e)
    | (g, .ok _) => writeAll cs g

end ExoRad.SlashChannel
