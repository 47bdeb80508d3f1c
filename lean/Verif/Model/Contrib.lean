import Verif.Model.Pipeline
import Verif.Model.Optics

/-!
# Separate contributions: the option `full_contrib` of `exorad/exorad.py`

`instrument_signal` of every channel is replaced by one column per optical element that emits.
-/

namespace ExoRad.Contrib
open Pipeline
noncomputable section

/-- The name a column gets in `astropy.table.hstack`: a name that is also in the other table gets `_1` or `_2`. Used for `exorad/exorad.py:91`. -/
def hname (other : List String) (suffix c : String) : String := if other.contains c then c ++ suffix else c

/-- `astropy.table.hstack([a, b])` for tables with the same number of rows. Names in both tables are made different; a repetition that is
left is a `TableMergeError`, a ValueError. A table without columns adds nothing. (Tables of different lengths would get masked
cells; a channel's table and its table of signals have the same rows.). Used for `exorad/exorad.py:87-97` and `exorad/models/optics/opticalPath.py:360`. -/
def hstack (a b : Table ℝ) : Except Exc (Table ℝ) :=
  let t : Table ℝ := a.map (fun q => (hname b.keys "_1" q.1, q.2)) ++ b.map (fun q => (hname a.keys "_2" q.1, q.2))
  if t.keys.Nodup then .ok t else .error .valueError

/-- `exorad/exorad.py:90-97`, one channel: its table and the column per element, without `instrument_signal` (KeyError if the table
does not have it). -/
def splitTable (tab parts : Table ℝ) : Except Exc (Table ℝ) :=
  match hstack tab parts with
  | .error e => .error e
  | .ok t => if t.has "instrument_signal" then .ok (t.removeAll ["instrument_signal"]) else .error .keyError

/-- `exorad/exorad.py:86-97`: the loop over the channels. -/
def splitAll : List (Table ℝ) → List (Table ℝ) → Except Exc (List (Table ℝ))
  | tab :: tabs, parts :: ps =>
    match splitTable tab parts with
    | .error e => .error e
    | .ok t =>
      match splitAll tabs ps with
      | .error e => .error e
      | .ok ts => .ok (t :: ts)
  | _, _ => .ok []

/-- `exorad/exorad.py:80-97`: the channel tables the targets are observed with, `parts` the tables of signals of the channels
(`built_instr["optical_path"]["signal_table"]`). -/
def startTables (full : Bool) (tabs parts : List (Table ℝ)) : Except Exc (List (Table ℝ)) :=
  if full then splitAll tabs parts else .ok tabs

/-- `exorad/models/optics/opticalPath.py:351`: the table of signals. -/
def signalTable (s : Optics.SigState ℝ) : Table ℝ := s.signals.map (fun q => (q.1, col q.2))

/-- `exorad/models/optics/opticalPath.py:356-362`: the channel's table with the two columns added. -/
def chanTable (base : Table ℝ) (s : Optics.SigState ℝ) : Except Exc (Table ℝ) :=
  hstack base [("instrument_signal", col s.total), ("instrument_MaxSignal_inPixel", col s.totalMax)]

/-- `exorad/exorad.py:80-117`, the observation of one target by channels whose tables are `tabs`. -/
def observeWith (full : Bool) (w : World) (p : Payload) (tabs parts : List (Table ℝ)) (t : Target) : Except Exc Target :=
  match startTables full tabs parts with
  | .error e => .error e
  | .ok ts => (observe w p ts t).2

end
end ExoRad.Contrib
