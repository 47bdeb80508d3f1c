import Verif.Model.Noise

/-!
# Units of the detector options (`exorad/models/noise.py`)

`Model/Noise` has times in seconds, rates in 1/s and charges in counts. The XML file gives each option with a unit of its own, and
astropy converts when two quantities meet, except for `np.floor`, which keeps the unit of its argument and rounds the number in that
unit (`noise.py:72`). Here the values of a description are in seconds, 1/s and counts and `NoiseUnits` says in which units they were
written. The column `MaxSignal_inPixel` is in counts per second.
-/

namespace ExoRad
noncomputable section

/-- The size of the units the options were written in. For `exorad/models/noise.py:38-103`. -/
structure NoiseUnits where
  /-- `detector/frame_time`, in seconds -/
  time : ℝ
  /-- `detector/freqNDR`, in 1/s -/
  freq : ℝ
  /-- `detector/well_depth`, in counts -/
  well : ℝ
  /-- `detector/f_well_depth`, 1 or 1/100 for percent -/
  frac : ℝ

/-- Seconds, 1/s, counts, no unit. For `exorad/models/noise.py:38-103`. -/
def NoiseUnits.base : NoiseUnits := ⟨1, 1, 1, 1⟩

/-- The unit of `out["frameTime"]` (`noise.py:36-49`): that of the option, or the unit of `f_well_depth` times that of `well_depth` over counts
per second. -/
def frameUnit (u : NoiseUnits) (d : Detector) : ℝ :=
  match d.frameTime with
  | some _ => u.time
  | none => u.frac * u.well

/-- The unit of `t_frame * freqNDR` (`noise.py:72`). -/
def readUnit (u : NoiseUnits) (d : Detector) : ℝ := frameUnit u d * u.freq

/-- `noise.py:72`: `np.floor` of a quantity whose unit is `k`. -/
def floorIn (k : ℝ) (x : Num ℝ) : Num ℝ := Num.floor (x / Num.fin k) * Num.fin k

/-- `exorad/models/noise.py:54-105` `multiaccum`, the number of reads rounded in the unit `k`. -/
def multiaccumIn (k : ℝ) (d : Detector) (tFrame : Num ℝ) : Except Exc (Num ℝ × Num ℝ) := do
  let freq ← key d.freqNDR
  let n0 := floorIn k (tFrame * Num.fin freq)
  let m : Num ℝ := multiaccumM d
  let tf : Num ℝ := Num.fin 0
  let n : Num ℝ := if Num.lt n0 (Num.fin 2) then Num.fin 2 else n0
  let one : Num ℝ := Num.fin 1
  let readGain := Num.fin 12 * (n - one) / (n * n + n) / m
  let shotGain := Num.fin 6 * (n * n + one) / (n * n + n) / Num.fin 5 *
    (one - Num.fin 5 / Num.fin 3 * (m * m - one) / m / (n * n + one) * tf / (n - one) / tFrame)
  return (readGain, shotGain)

/-- `exorad/tasks/noiseHandler.py:27-108` `EstimateNoiseInChannel.execute` for a channel whose options were written in the units `u`; as
`estimateNoiseInChannel` otherwise. -/
def estimateNoiseInChannelIn (u : NoiseUnits) (table : Table ℝ) (ch : NoiseChannel) (common : Option CustomNoise) :
    Except Exc Out := do
  let out ← frameTimeF table ch []
  let ft ← out.getE "frameTime"
  match ft with
  | [] => .error .indexError
  | ft0 :: _ =>
    let (readGain, shotGain) ← multiaccumIn (readUnit u ch.detector) ch.detector ft0
    let out ← photonNoise table ch shotGain out
    let window ← table.selNum "WindowSize" ch.value
    let dark ← key ch.detector.darkCurrent
    let darkCol := window.map (fun w => darkNoise1 shotGain w (Num.fin dark))
    let out := out.set "darkcurrent_noise" darkCol
    let rn ← key ch.detector.readNoise
    let ft ← out.getE "frameTime"
    let readCol := List.zipWith (fun w f => readNoise1 readGain w f rn) window ft
    let out := out.set "read_noise" readCol
    let noiseX : ℝ := ch.noiseX.getD 0
    let phot ← photonNoiseVariance table out
    let signal ← table.selNum "star_signal_inAperture" ch.value
    let darkCol ← out.getE "darkcurrent_noise"
    let readCol ← out.getE "read_noise"
    let out := out.set "total_noise" (totalNoiseCol noiseX darkCol phot readCol signal)
    let wl ← table.selNum "Wavelength" ch.value
    let out := tryCustom common wl.length out
    let out := tryCustom ch.customNoise wl.length out
    return out

/-- `exorad/tasks/noiseHandler.py:147-155`. -/
def noiseTablesIn (table : Table ℝ) : List (NoiseUnits × NoiseChannel × Option CustomNoise) → Except Exc (List (Table ℝ))
  | [] => .ok []
  | (u, c, p) :: cs => do
    let o ← estimateNoiseInChannelIn u table c p
    return o.toTable :: (← noiseTablesIn table cs)

/-- `exorad/tasks/noiseHandler.py:131-158` `EstimateNoise.execute`, every channel with units of its own. -/
def estimateNoiseIn (table : Table ℝ) (chs : List (NoiseUnits × NoiseChannel × Option CustomNoise)) : Except Exc (Table ℝ) := do
  let table ← table.estimateMaxSignal
  let ts ← noiseTablesIn table (chs)
  let (r, _) ← Table.vstackTables ts
  match r with
  | none => .error .attributeError
  | some r => return table.update r

end
end ExoRad
