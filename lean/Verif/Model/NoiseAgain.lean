import Verif.Model.Noise

/-!
# The units of the signal columns in `photon_noise` (`exorad/models/noise.py:131-142`)

`Model/Noise` takes every signal column as a rate in counts per second. Here every column of the target's table has a unit of its own, and the conversion
`.to(u.count / u.s)` in `photon_noise` fails for the wrong ones. That decides what happens to a target whose noise was estimated before: its columns
`<signal>_noise` have "signal" in their names.
-/

namespace ExoRad.Again
noncomputable section

/-- A unit up to its size: the powers of count and of time. The unit of a column in `exorad/models/noise.py:131-142`. -/
structure Dim where
  count : ℚ
  time : ℚ
deriving DecidableEq

/-- count / s. The unit of the signals (`exorad/models/noise.py:140`). -/
def rate : Dim := ⟨1, -1⟩

/-- count / s * hr ** 0.5. The unit of the noise columns (`exorad/models/noise.py:140-141`). -/
def noise : Dim := ⟨1, -1 / 2⟩

/-- `np.sqrt(shot_gain * column * u.count / u.hr)` (`noise.py:134-139`) -/
def rootPerHour (d : Dim) : Dim := ⟨(d.count + 1) / 2, (d.time - 1) / 2⟩

/-- `noise.py:131-142`: the loop of `photon_noise` with units. `.to(u.count / u.s)` raises UnitConversionError, a ValueError, if the unit is of another kind. -/
def photonLoop (dims : String → Dim) (table : Table ℝ) (name : String) (gain : Num ℝ) : List String → Out → Except Exc Out
  | [], out => .ok out
  | k :: ks, out => do
    let s ← table.selNum k name
    if rootPerHour (dims k) = rate then photonLoop dims table name gain ks (out.set (k ++ "_noise") (s.map (photonNoise1 gain)))
    else .error .valueError

/-- `exorad/tasks/noiseHandler.py:27-47`: `EstimateNoiseInChannel.execute` until the end of `photon_noise`. -/
def photonPart (dims : String → Dim) (table : Table ℝ) (ch : NoiseChannel) : Except Exc Out := do
  let out ← frameTimeF table ch []
  let ft ← out.getE "frameTime"
  match ft with
  | [] => .error .indexError
  | ft0 :: _ =>
    let (_, shotGain) ← multiaccum ch.detector ft0
    photonLoop dims table ch.value shotGain (signalKeys table) out

/-- `exorad/tasks/noiseHandler.py:27-108` `EstimateNoiseInChannel.execute` with the units of the signal columns. The steps up to `photon_noise` have no effect on the table, so they
are written as a first run of them. -/
def channel (dims : String → Dim) (table : Table ℝ) (ch : NoiseChannel) (common : Option CustomNoise) : Except Exc Out := do
  let _ ← photonPart dims table ch
  estimateNoiseInChannel table ch common

/-- `exorad/tasks/noiseHandler.py:147-155` -/
def channels (dims : String → Dim) (table : Table ℝ) : List (NoiseChannel × Option CustomNoise) → Except Exc (List (Table ℝ))
  | [] => .ok []
  | (c, p) :: cs => do
    let o ← channel dims table c p
    return o.toTable :: (← channels dims table cs)

/-- The names under which `add_custom_noise` stores noises (`noise.py:196-211`, `:213-223`), up to the first entry without value or name. -/
def stored : Option CustomNoise → List String
  | none => []
  | some (.single e) => if e.value.isSome then e.name.toList else []
  | some (.many es) => (es.takeWhile (fun e => e.value.isSome && e.name.isSome)).filterMap CustomEntry.name

/-- The unit of a column of the noise table (`noise.py:36-49`, `:131-142`, `:194-223`, `noiseHandler.py:49-90`): later assignments replace earlier ones. -/
def outDim (table : Table ℝ) (ch : NoiseChannel) (common : Option CustomNoise) (q : String) : Option Dim :=
  if q ∈ (stored common ++ stored ch.customNoise).map (· ++ "_noise") then some ⟨0, 1 / 2⟩
  else if q = "total_noise" then some ⟨0, 1 / 2⟩
  else if q = "darkcurrent_noise" ∨ q = "read_noise" then some noise
  else if q ∈ (signalKeys table).map (· ++ "_noise") then some noise
  else if q = "frameTime" ∨ q = "saturation_time" then some ⟨0, 1⟩
  else none

/-- The units after the estimate: those of the first channel with the column (a conversion between channels that fails is not modelled), else `MaxSignal_inPixel` in count / s
(`targetHandler.py:179`), else what they were. -/
def dimsAfter (dims : String → Dim) (table : Table ℝ) (chs : List (NoiseChannel × Option CustomNoise)) (q : String) : Dim :=
  match chs.findSome? (fun c => outDim table c.1 c.2 q) with
  | some d => d
  | none => if q = "MaxSignal_inPixel" then rate else dims q

/-- `exorad/tasks/noiseHandler.py:131-158` `EstimateNoise.execute`, on the target's table and the units of its columns. -/
def estimate (dims : String → Dim) (table : Table ℝ) (chs : List (NoiseChannel × Option CustomNoise)) : Except Exc (Table ℝ × (String → Dim)) := do
  let table ← table.estimateMaxSignal
  let ts ← channels dims table chs
  let (r, _) ← Table.vstackTables ts
  match r with
  | none => .error .attributeError
  | some r => return (table.update r, dimsAfter dims table chs)

end
end ExoRad.Again
