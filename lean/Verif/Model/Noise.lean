import Verif.Model.Table

/-!
# Noise model: `exorad/models/noise.py` and `exorad/tasks/noiseHandler.py`

Signals are in counts/s, times in seconds, noise in counts/s·hr^½ before and hr^½ after the
normalisation by the star signal. The conversion `sqrt(.. / u.hr).to(u.ct / u.s)` is the explicit
factor 1/3600 under the square root.
-/

namespace ExoRad
noncomputable section

/-- The keys of `channel["detector"]` read by the noise code; `none` = key absent
(reading an absent key raises KeyError). `exorad/models/noise.py:18-128`, `exorad/tasks/noiseHandler.py:30-106`. -/
structure Detector where
  wellDepth : Option ℝ := none
  fWellDepth : Option ℝ := none
  frameTime : Option ℝ := none
  freqNDR : Option ℝ := none
  multiaccumM : Option ℝ := none
  darkCurrent : Option ℝ := none
  readNoise : Option ℝ := none

/-- One `customNoise` entry: its `value` (ppm) and `name` (`none` = key absent). `exorad/models/noise.py:191-223`. -/
structure CustomEntry where
  value : Option ℝ
  name : Option String

/-- The parsed `customNoise` option: a plain dict for one entry, an `OrderedDict` for several
(`exorad/tasks/loadOptions.py:115-128`). The variant with a `data` table
(`exorad/models/noise.py:175-190`) is not modelled. -/
inductive CustomNoise where
  | single (e : CustomEntry)
  | many (es : List CustomEntry)

/-- The keys of a channel description read by the noise code. `exorad/tasks/noiseHandler.py:30-106`. -/
structure NoiseChannel where
  value : String
  detector : Detector
  noiseX : Option ℝ := none
  customNoise : Option CustomNoise := none

/-- The noise output table `out` (numeric columns only). `exorad/tasks/noiseHandler.py:40`. -/
abbrev Out := Dict String (List (Num ℝ))

/-- Reading an optional description key. As `description["detector"]["..."]["value"]` in `exorad/models/noise.py:18-128`. -/
def key {β : Type} (o : Option β) : Except Exc β :=
  match o with
  | some v => .ok v
  | none => .error .keyError

/-- `exorad/models/noise.py:13-51` `frame_time`. `np.min` of an empty array raises ValueError. -/
def frameTimeF (table : Table ℝ) (ch : NoiseChannel) (out : Out) : Except Exc Out := do
  let mx ← table.selNum "MaxSignal_inPixel" ch.value
  let well ← key ch.detector.wellDepth
  let sat := mx.map (fun s => Num.fin well / s)
  let out := out.set "saturation_time" sat
  match ch.detector.frameTime with
  | some ft => return out.set "frameTime" (sat.map (fun _ => Num.fin ft * Num.fin 1))
  | none =>
    let fw ← key ch.detector.fWellDepth
    match Num.minList sat with
    | none => .error .valueError
    | some mn => return out.set "frameTime" (sat.map (fun _ => Num.fin fw * mn * Num.fin 1))

/-- `exorad/models/noise.py:74-80`: `m` is the payload's `multiaccumM`, or 1. -/
def multiaccumM (d : Detector) : Num ℝ :=
  match d.multiaccumM with
  | some m => Num.fin m
  | none => Num.fin 1

/-- `exorad/models/noise.py:54-105` `multiaccum`: `(read_gain, shot_gain)`. The time `tf` is zero
in both branches (lines 77 and 80). -/
def multiaccum (d : Detector) (tFrame : Num ℝ) : Except Exc (Num ℝ × Num ℝ) := do
  let freq ← key d.freqNDR
  let n0 := Num.floor (tFrame * Num.fin freq)
  let m : Num ℝ := multiaccumM d
  let tf : Num ℝ := Num.fin 0
  let n : Num ℝ := if Num.lt n0 (Num.fin 2) then Num.fin 2 else n0
  let one : Num ℝ := Num.fin 1
  let readGain := Num.fin 12 * (n - one) / (n * n + n) / m
  let shotGain := Num.fin 6 * (n * n + one) / (n * n + n) / Num.fin 5 *
    (one - Num.fin 5 / Num.fin 3 * (m * m - one) / m / (n * n + one) * tf / (n - one) / tFrame)
  return (readGain, shotGain)

/-- `exorad/models/noise.py:130` and `:164`: the columns producing photon noise. -/
def signalKeys (table : Table ℝ) : List String := table.keys.filter (fun k => substr "signal" k)

/-- `exorad/models/noise.py:133-141`: photon noise of one signal value. -/
def photonNoise1 (gain s : Num ℝ) : Num ℝ := Num.sqrt (gain * s * Num.fin 1 / Num.fin 3600)

/-- `exorad/models/noise.py:131-142`: the loop of `photon_noise` over the given keys. -/
def photonNoiseLoop (table : Table ℝ) (name : String) (gain : Num ℝ) :
    List String → Out → Except Exc Out
  | [], out => .ok out
  | k :: ks, out => do
    let s ← table.selNum k name
    photonNoiseLoop table name gain ks (out.set (k ++ "_noise") (s.map (photonNoise1 gain)))

/-- `exorad/models/noise.py:108-143` `photon_noise`. -/
def photonNoise (table : Table ℝ) (ch : NoiseChannel) (gain : Num ℝ) (out : Out) :
    Except Exc Out :=
  photonNoiseLoop table ch.value gain (signalKeys table) out

/-- `exorad/models/noise.py:168-170`: the loop of `photon_noise_variance`. -/
def photonVarianceLoop (out : Out) : List String → List (Num ℝ) → Except Exc (List (Num ℝ))
  | [], acc => .ok acc
  | k :: ks, acc => do
    let c ← out.getE (k ++ "_noise")
    photonVarianceLoop out ks (List.zipWith (· + ·) acc (c.map (fun x => x * x)))

/-- `exorad/models/noise.py:146-171` `photon_noise_variance`. -/
def photonNoiseVariance (table : Table ℝ) (out : Out) : Except Exc (List (Num ℝ)) := do
  let ft ← out.getE "frameTime"
  photonVarianceLoop out (signalKeys table) (List.replicate ft.length (Num.fin 0))

/-- `np.sqrt(total * total + c * c)`, bin by bin. `exorad/models/noise.py:186-189`, `:203-211`, `:214-223`. -/
def addQuad (total c : List (Num ℝ)) : List (Num ℝ) :=
  List.zipWith (fun t x => Num.sqrt (t * t + x * x)) total c

/-- `exorad/models/noise.py:194-211` (loop body) and `:213-223`: apply one custom noise entry.
Second component: the KeyError, if any; `out` is mutated in place, so the changes made before the
exception stay. `value` is read before, `name` after computing the noise; neither changes `out`
before the exception, so the entry has no effect. -/
def applyCustom (nwl : Nat) (e : CustomEntry) (out : Out) : Out × Option Exc :=
  match e.value with
  | none => (out, some .keyError)
  | some v =>
    match e.name with
    | none => (out, some .keyError)
    | some nm =>
      let c : List (Num ℝ) := List.replicate nwl (Num.fin v * Num.fin (1 / 1000000) * Num.fin 1)
      let out := out.set (nm ++ "_noise") c
      match out.get? "total_noise" with
      | none => (out, some .keyError)
      | some t => (out.set "total_noise" (addQuad t c), none)

/-- `exorad/models/noise.py:193-211`: the loop over an `OrderedDict`; stops at the first KeyError,
keeping earlier effects. -/
def applyCustoms (nwl : Nat) : List CustomEntry → Out → Out × Option Exc
  | [], out => (out, none)
  | e :: es, out =>
    match applyCustom nwl e out with
    | (out', some x) => (out', some x)
    | (out', none) => applyCustoms nwl es out'

/-- `exorad/models/noise.py:174-224` `add_custom_noise` (without the `data` variant). -/
def addCustomNoise (c : CustomNoise) (nwl : Nat) (out : Out) : Out × Option Exc :=
  match c with
  | .single e => applyCustom nwl e out
  | .many es => applyCustoms nwl es out

/-- `exorad/tasks/noiseHandler.py:94-104`: `try: add_custom_noise(..) except KeyError: pass`; a
missing `customNoise` key is such a KeyError. The only exception of the modelled
`add_custom_noise` is KeyError. -/
def tryCustom (c : Option CustomNoise) (nwl : Nat) (out : Out) : Out :=
  match c with
  | none => out
  | some c => (addCustomNoise c nwl out).1

/-- `exorad/tasks/noiseHandler.py:49-58`: dark current noise of one bin. -/
def darkNoise1 (gain window dark : Num ℝ) : Num ℝ :=
  Num.sqrt (gain * window * dark * Num.fin 1 / Num.fin 3600)

/-- `exorad/tasks/noiseHandler.py:60-70`: read noise of one bin. -/
def readNoise1 (gain window frame : Num ℝ) (rn : ℝ) : Num ℝ :=
  Num.sqrt (gain * Num.fin (rn ^ 2) * window / frame * Num.fin 1 / Num.fin 3600)

/-- `exorad/tasks/noiseHandler.py:83`: zero signal becomes NaN. -/
def zeroToNan (s : Num ℝ) : Num ℝ :=
  match s with
  | .fin x => if x = 0 then .nan else .fin x
  | s => s

/-- `exorad/tasks/noiseHandler.py:84-91`: total noise of one bin before custom noise. -/
def totalNoise1 (noiseX : ℝ) (dark phot read signal : Num ℝ) : Num ℝ :=
  Num.sqrt (dark * dark + (Num.fin 1 + Num.fin noiseX) * phot + read * read) / zeroToNan signal

/-- zip of four columns through `totalNoise1`. `exorad/tasks/noiseHandler.py:84-92`. -/
def totalNoiseCol (noiseX : ℝ) : (dark phot read signal : List (Num ℝ)) → List (Num ℝ)
  | d :: ds, p :: ps, r :: rs, s :: ss =>
    totalNoise1 noiseX d p r s :: totalNoiseCol noiseX ds ps rs ss
  | _, _, _, _ => []

/-- `exorad/tasks/noiseHandler.py:27-108` `EstimateNoiseInChannel.execute`. `common` is
`payload["common"]["customNoise"]` if the channel carries a payload with that key, else `none`. -/
def estimateNoiseInChannel (table : Table ℝ) (ch : NoiseChannel) (common : Option CustomNoise) :
    Except Exc Out := do
  let out ← frameTimeF table ch []
  let ft ← out.getE "frameTime"
  match ft with
  | [] => .error .indexError
  | ft0 :: _ =>
    let (readGain, shotGain) ← multiaccum ch.detector ft0
    let out ← photonNoise table ch shotGain out
    let window ← table.selNum "WindowSize" ch.value
    let dark ← key ch.detector.darkCurrent
    let darkCol := window.map (fun w => darkNoise1 shotGain w (Num.fin dark))
    let out := out.set "darkcurrent_noise" darkCol
    let rn ← key ch.detector.readNoise
    let ft ← out.getE "frameTime"
    let readCol := List.zipWith (fun w f => readNoise1 readGain w f rn) window ft
    let out := out.set "read_noise" readCol
    let noiseX : ℝ := ch.noiseX.getD 0
    let phot ← photonNoiseVariance table out
    let signal ← table.selNum "star_signal_inAperture" ch.value
    let darkCol ← out.getE "darkcurrent_noise"
    let readCol ← out.getE "read_noise"
    let out := out.set "total_noise" (totalNoiseCol noiseX darkCol phot readCol signal)
    let wl ← table.selNum "Wavelength" ch.value
    let out := tryCustom common wl.length out
    let out := tryCustom ch.customNoise wl.length out
    return out

/-- The noise output as a table. `exorad/tasks/noiseHandler.py:106`, `:150-157`. -/
def Out.toTable (o : Out) : Table ℝ := o.map (fun p => (p.1, p.2.map Cell.num))

/-- `exorad/tasks/noiseHandler.py:147-155`: noise of each channel, in channel order. -/
def noiseTables (table : Table ℝ) : List (NoiseChannel × Option CustomNoise) →
    Except Exc (List (Table ℝ))
  | [] => .ok []
  | (c, p) :: cs => do
    let o ← estimateNoiseInChannel table c p
    return o.toTable :: (← noiseTables table cs)

/-- `exorad/tasks/noiseHandler.py:131-158` `EstimateNoise.execute`. For no channels `vstack_tables`
returns `False` and `UpdateTargetTable` raises AttributeError on `False.keys()`. -/
def estimateNoise (table : Table ℝ) (chs : List (NoiseChannel × Option CustomNoise)) :
    Except Exc (Table ℝ) := do
  let table ← table.estimateMaxSignal
  let ts ← noiseTables table chs
  let (r, _) ← Table.vstackTables ts
  match r with
  | none => .error .attributeError
  | some r => return table.update r

end
end ExoRad
