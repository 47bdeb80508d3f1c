import Verif.Model.Diffuse
import Mathlib.Analysis.SpecialFunctions.Log.Basic
import Mathlib.Analysis.SpecialFunctions.Pow.Real
import Mathlib.Analysis.SpecialFunctions.Log.Base

/-!
# `exorad/models/instruments/`

The wavelength tables of photometers and spectrometers, the pixel grid of a spectrometer, and the
propagation of the light of a target. Units are not carried. Numbers are elements of a linearly ordered field;
the number of bins of a fixed-R grid and `np.logspace` need logarithms and use `ℝ`.
-/

namespace ExoRad.Instrument

open ExoRad.Diffuse

variable {α : Type} [Field α] [LinearOrder α]

/-! ## Wavelength tables -/

/-- The columns `Wavelength`, `Bandwidth`, `LeftBinEdge`, `RightBinEdge` of a channel table.
`exorad/models/instruments/photometer.py:18-36`, `spectrometer.py:25-109`. -/
structure Bins (α : Type) where
  wl : List α
  width : List α
  left : List α
  right : List α
deriving DecidableEq, Repr

/-- `exorad/models/instruments/spectrometer.py:98-107`: the table for given bin centres and widths. -/
def mkBins (c w : List α) : Bins α :=
  ⟨c, w, List.zipWith (fun c w => c - 1 / 2 * w) c w, List.zipWith (fun c w => c + 1 / 2 * w) c w⟩

/-- `exorad/models/instruments/photometer.py:18-36`. -/
def photometerBins (wlMin wlMax : α) : Bins α :=
  mkBins [1 / 2 * (wlMin + wlMax)] [wlMax - wlMin]

/-- `0.5 * (x[0:-1] + x[1:])` (spectrometer.py:66, 88-90). -/
def centres : List α → List α
  | a :: b :: l => (1 / 2 * (a + b)) :: centres (b :: l)
  | _ => []

/-- The table of a list of bin edges (spectrometer.py:66-67, 88-107). -/
def binsOfEdges (e : List α) : Bins α := mkBins (centres e) (Rebin.diffs e)

/-- spectrometer.py:51-62: the number of edges. -/
noncomputable def numberOfEdges (wlMin wlMax R : ℝ) : Nat :=
  (⌈Real.log (wlMax / wlMin) / Real.log (1 + 1 / R)⌉ + 1).toNat

/-- spectrometer.py:63-65: the edges of a fixed-R grid. -/
noncomputable def fixedREdges (wlMin wlMax R : ℝ) : List ℝ :=
  (List.range (numberOfEdges wlMin wlMax R)).map (fun k : Nat => wlMin * (1 + 1 / R) ^ k)

/-- spectrometer.py:39-48: one bin per pixel; IndexError without pixels. Ties of `argsort` are broken by the
order of the pixels here (numpy leaves it open). The result is the sorted centres and widths and the edges. -/
def nativeGrid (c w : List α) : Except Exc (List α × List α × List α) :=
  let s := (c.zip w).insertionSort (fun p q => p.1 ≤ q.1)
  match s.getLast? with
  | none => .error .indexError
  | some l => .ok (s.map Prod.fst, s.map Prod.snd, s.map (fun p => p.1 - 1 / 2 * p.2) ++ [l.1 + 1 / 2 * l.2])

/-- `np.round(x, 4)`: round half to even. `exorad/models/instruments/spectrometer.py:80`. -/
def round4 [FloorRing α] (x : α) : α :=
  let y := x * 10000
  let f := ⌊y⌋
  let r : Int := if y - f < 1 / 2 then f else if 1 / 2 < y - f then f + 1 else if f % 2 = 0 then f else f + 1
  (r : α) / 10000

/-- spectrometer.py:77-81: the loop over the bins, `fuel` rounds of it. `edges` is reversed. `res` is
`interp1d(res_data["W"], res_data["R"])`, a ValueError outside its range. `none`: still running. -/
def variableLoop [FloorRing α] (res : α → Except Exc α) (wlMax : α) : (fuel : Nat) → (w : α) → (edges : List α) →
    Option (Except Exc (List α))
  | 0, _, _ => none
  | fuel + 1, w, edges =>
    if w < wlMax then
      match res w with
      | .error e => some (.error e)
      | .ok r => variableLoop res wlMax fuel (round4 (w + w / r)) (round4 (w + w / r) :: edges)
    else some (.ok edges)

/-- spectrometer.py:82-87 on the reversed edges: the last edge is dropped and the one before it moved to `wl_max`
when the last bin would be short. IndexError with fewer than three edges. -/
def trimLast (wlMax : α) : List α → Except Exc (List α)
  | e1 :: e2 :: e3 :: rest => if wlMax - e2 < (e2 - e3) / 2 then .ok (wlMax :: e3 :: rest) else .ok (e1 :: e2 :: e3 :: rest)
  | _ => .error .indexError

/-- spectrometer.py:69-93. -/
def variableEdges [FloorRing α] (res : α → Except Exc α) (wlMin wlMax : α) (fuel : Nat) : Option (Except Exc (List α)) :=
  match variableLoop res wlMax fuel wlMin [wlMin] with
  | none => none
  | some (.error e) => some (.error e)
  | some (.ok l) =>
    match trimLast wlMax l with
    | .error e => some (.error e)
    | .ok l => some (.ok l.reverse)

/-- `np.logspace(np.log10(a), np.log10(b), n)`.
`exorad/models/instruments/instrument.py:109`, `:306`, `exorad/tasks/foregroundHandler.py:43`, `:100`, `exorad/tasks/loadSource.py:66`, `exorad/models/optics/opticalPath.py:192`. -/
noncomputable def logspace (a b : ℝ) (n : Nat) : List ℝ :=
  (List.range n).map (fun k : Nat => (10 : ℝ) ^ (Real.logb 10 a + (k : ℝ) * ((Real.logb 10 b - Real.logb 10 a) / ((n : ℝ) - 1))))

/-! ## Pixels of a spectrometer -/

/-- `interp1d(..., fill_value="extrapolate")` on sorted points: outside the range the first or last segment goes
on. `exorad/models/instruments/spectrometer.py:126-141`. -/
def extendSorted (lo : α × α) : List (α × α) → α → α
  | [], _ => lo.2
  | [hi], x => (hi.2 - lo.2) / (hi.1 - lo.1) * (x - lo.1) + lo.2
  | hi :: rest, x => if x ≤ hi.1 then (hi.2 - lo.2) / (hi.1 - lo.1) * (x - lo.1) + lo.2 else extendSorted hi rest x

/-- `interp1d(x, y, assume_sorted=False, fill_value="extrapolate")` (spectrometer.py:126-140). -/
def extend (pts : List (α × α)) (x : α) : α :=
  match pts.insertionSort (fun p q => p.1 ≤ q.1) with
  | [] => 0
  | lo :: rest => extendSorted lo rest x

/-- The pixel grid of a spectrometer. `exorad/models/instruments/spectrometer.py:155-183`. -/
structure Pixels (α : Type) where
  x : List α
  wl : List α
  bandwidth : List α

/-- `np.arange(a, b, d)` for `d > 0`. `exorad/models/instruments/spectrometer.py:163`. -/
def arange [FloorRing α] (a b d : α) : List α := (List.range ⌈(b - a) / d⌉.toNat).map (fun k : Nat => a + (k : α) * d)

/-- spectrometer.py:142-182. `sol` are the pairs (x, wavelength) of the wavelength solution. -/
def pixelGrid [FloorRing α] (sol : List (α × α)) (wlMin wlMax delta : α) : Pixels α :=
  let p := extend (sol.map Prod.swap) wlMin
  let q := extend (sol.map Prod.swap) wlMax
  let x := (if q < p then arange q p delta else arange p q delta).reverse
  ⟨x, x.map (extend sol), x.map (fun t => |extend sol (t - 1 / 2 * delta) - extend sol (t + 1 / 2 * delta)|)⟩

/-- spectrometer.py:242-322: the extraction window of every bin. -/
structure Window (α : Type) where
  spectral : List α
  spatial : List α
  size : List α

/-- The optional keys of the description that change the window. `exorad/models/instruments/spectrometer.py:242-322`. -/
structure WindowDescr (α : Type) where
  fnumY : α
  /-- `EncESolution`: pairs (wavelength, radius) -/
  encE : Option (List (α × α)) := none
  spatialScale : Option α := none
  spatialPixel : Option α := none
  spectralPixel : Option α := none

/-- The radius of the extraction window of every bin (spectrometer.py:249-280). -/
def windowRadius (d : WindowDescr α) (w : α) : α :=
  match d.encE with
  | some pts => extend pts w
  | none => 61 / 50

/-- spectrometer.py:283-308. -/
def spatialWidth (d : WindowDescr α) (delta w : α) : α :=
  match d.spatialPixel with
  | some v => v
  | none =>
    let s := 2 * windowRadius d w * d.fnumY * w / delta
    match d.spatialScale with
    | some k => s * k
    | none => s

/-- spectrometer.py:242-247 and 309-318: a window per bin, `edges` are the bin edges. -/
def spectralWidth (d : WindowDescr α) (sol : List (α × α)) (delta : α) (edges : List α) : List α :=
  match d.spectralPixel with
  | some v => (Rebin.diffs edges).map (fun _ => v)
  | none => (Rebin.diffs (edges.map (extend (sol.map Prod.swap)))).map (fun t => |t| / delta)

/-- The columns of the window (`exorad/models/instruments/spectrometer.py:242-322`). -/
def window (d : WindowDescr α) (sol : List (α × α)) (delta : α) (edges wl : List α) : Window α :=
  let sx := spectralWidth d sol delta edges
  let sy := wl.map (spatialWidth d delta)
  ⟨sx, sy, mulCol sx sy⟩

/-! ## `Instrument` -/

/-- `exorad/models/instruments/instrument.py:240-245` `_bin_signal`; `none` is the NaN of an empty bin. -/
def binSignal (wl sig left right : List α) : List (Option α) :=
  List.zipWith (fun lo hi => Rebin.mean (((wl.zip sig).filter (fun p => decide (lo ≤ p.1) && decide (p.1 < hi))).map Prod.snd))
    left right

/-- `np.logical_or(wl < wl_min, wl > wl_max)`. `exorad/models/instruments/instrument.py:268-285`, `photometer.py:143`, `spectrometer.py:334`. -/
def outOfBand (wlMin wlMax w : α) : Bool := decide (w < wlMin) || decide (w > wlMax)

/-- `data[idx] = 0.0` (instrument.py:268-289, photometer.py:143-153, spectrometer.py:334-344). -/
def zeroOut (wlMin wlMax : α) (wl data : List α) : List α :=
  List.zipWith (fun w d => if outOfBand wlMin wlMax w then 0 else d) wl data

/-- The same for a column that may hold NaN. `exorad/models/instruments/photometer.py:143-148`, `spectrometer.py:334-339`. -/
def zeroOutCol (wlMin wlMax : α) (wl : List α) (data : List (Option α)) : List (Option α) :=
  List.zipWith (fun w d => if outOfBand wlMin wlMax w then some 0 else d) wl data

/-- What the propagation of a target reads from a built channel.
`exorad/models/instruments/photometer.py:134-208`, `spectrometer.py:326-422`, `instrument.py:343-372`. -/
structure Chan (α : Type) where
  wlMin : α
  wlMax : α
  /-- `payload["optics"]["ForceChannelWlEdge"]["value"]` if there is one -/
  force : Option Bool
  bins : Bins α
  /-- `payload["optics"]["Atel"]["value"]` -/
  atel : α
  /-- `1 / (c h)` -/
  perPhoton : α
  /-- `qe_data` and `transmission_data` -/
  qe : Rebin.Signal α
  tr : Rebin.Signal α
  /-- `apertureCorrection` and `EnE` of the aperture (photometers) -/
  apertureCorrection : Option α
  enE : Option α
  /-- `PRF.max()` (photometers) -/
  prfMax : α
  /-- `wl_pix_center`, `pixel_bandwidth` and the interpolated `gain_prf_data` (spectrometers) -/
  wlPix : List α
  dwlPix : List α
  gain : α → α

/-- `exorad/models/instruments/instrument.py:247-292` `_get_transmission`: the column of the table and the signal.
The second component also stands for the argument `tr_data` afterwards when that is a dimensionless quantity:
`Signal` keeps a reference to it and line 289 writes into it. -/
def getTransmission (ch : Chan α) (wl data : List α) : Except Exc (List (Option α) × Rebin.Signal α) :=
  match Rebin.Signal.mk? wl data with
  | .error e => .error e
  | .ok s =>
    let t := binSignal ch.bins.wl (ch.bins.wl.map (Rebin.interp (wl.zip data))) ch.bins.left ch.bins.right
    match ch.force with
    | none => .error .keyError
    | some false => .ok (t, s)
    | some true => .ok (zeroOutCol ch.wlMin ch.wlMax ch.bins.wl t, ⟨s.wl, zeroOut ch.wlMin ch.wlMax s.wl s.data⟩)

/-- `exorad/models/instruments/instrument.py:294-341` `_get_qe`: the `QE` column from the quantum efficiency curve. -/
def qeColumn (b : Bins α) (qe : Rebin.Signal α) : List (Option α) :=
  binSignal b.wl (b.wl.map (Rebin.interp (qe.wl.zip qe.data))) b.left b.right

/-- instrument.py:304-325: a constant quantum efficiency. -/
noncomputable def constantQe (v wlMin cutOff : ℝ) (workingR : Nat) : Rebin.Signal ℝ :=
  ⟨logspace wlMin cutOff workingR, (logspace wlMin cutOff workingR).map (fun _ => v)⟩

/-- What `_get_efficiency` returns, and the `sky TR` column it leaves in the table of the channel. `exorad/models/instruments/instrument.py:343-372`. -/
structure Efficiency (α : Type) where
  qe : List α
  tr : List α
  skyTR : Option (List (Option α))

/-- instrument.py:363-369: the transmission of the sky in front of the target. -/
def withSky (ch : Chan α) (wl tr : List α) (old : Option (List (Option α))) :
    Option (Rebin.Signal α) → Except Exc (List α × Option (List (Option α)))
  | none => .ok (tr, old)
  | some sky =>
    match getTransmission ch sky.wl sky.data with
    | .error e => .error e
    | .ok (col, s) =>
      match s.spectralRebin wl with
      | .error e => .error e
      | .ok s => .ok (mulCol tr s.data, some col)

/-- `exorad/models/instruments/instrument.py:343-372` `_get_efficiency`. `old` is the `sky TR` column of the table
before the call. The window it returns is constant 1. -/
def getEfficiency (ch : Chan α) (wl : List α) (sky : Option (Rebin.Signal α)) (old : Option (List (Option α))) :
    Except Exc (Efficiency α) :=
  match ch.qe.spectralRebin wl with
  | .error e => .error e
  | .ok q =>
    match ch.tr.spectralRebin wl with
    | .error e => .error e
    | .ok t =>
      match withSky ch wl t.data old sky with
      | .error e => .error e
      | .ok (t, col) => .ok ⟨q.data, t, col⟩

/-- The columns `propagate_target` returns; `foreground_transmission` only if the table has `sky TR`.
`exorad/models/instruments/photometer.py:134-208`, `spectrometer.py:326-422`. -/
structure TargetOut (α : Type) where
  foregroundTransmission : Option (List (Option α))
  starFlux : List α
  starSignal : List α
  inAperture : List α
  maxInPixel : List α

/-- Transmission and window after `ForceChannelWlEdge` (photometer.py:141-153, spectrometer.py:332-344). -/
def forceEdge (ch : Chan α) (wl tr : List α) : Except Exc (List α × List α) :=
  match ch.force with
  | none => .error .keyError
  | some false => .ok (tr, wl.map (fun _ => 1))
  | some true => .ok (zeroOut ch.wlMin ch.wlMax wl tr, zeroOut ch.wlMin ch.wlMax wl (wl.map (fun _ => 1)))

/-- Detected photons per wavelength without the telescope area (photometer.py:163-169). -/
def density (ch : Chan α) (wl qe sed tr : List α) : List α :=
  mulCol (mulCol (mulCol qe sed) tr) (wl.map (fun w => w * ch.perPhoton))

/-- photometer.py:177-188. -/
def apertureFactor (ch : Chan α) : α :=
  match ch.apertureCorrection with
  | some v => v
  | none => match ch.enE with
    | some v => v
    | none => 1

/-- `exorad/models/instruments/photometer.py:134-208` `propagate_target`. -/
def photometerTarget (ch : Chan α) (sed : Rebin.Signal α) (sky : Option (Rebin.Signal α)) (old : Option (List (Option α))) :
    Except Exc (TargetOut α) :=
  match getEfficiency ch sed.wl sky old with
  | .error e => .error e
  | .ok eff =>
    match forceEdge ch sed.wl eff.tr with
    | .error e => .error e
    | .ok (tr, win) =>
      let flux := trapz sed.wl (mulCol win sed.data)
      let sig := ch.atel * trapz sed.wl (density ch sed.wl eff.qe sed.data tr)
      .ok ⟨eff.skyTR, [flux], [sig], [sig * apertureFactor ch], [ch.prfMax * sig]⟩

/-- One row of `exorad/models/instruments/instrument.py:377-388` `_window_function`. -/
def windowRow (wl : List α) (lo hi : α) : List α := wl.map (fun w => if lo ≤ w ∧ w < hi then 1 else 0)

/-- `np.trapz(y * window_function, x)` for every bin (spectrometer.py:378-386). -/
def binIntegrals (b : Bins α) (wl y : List α) : List α :=
  List.zipWith (fun lo hi => trapz wl (mulCol y (windowRow wl lo hi))) b.left b.right

/-- spectrometer.py:404-417: the largest pixel strictly within every bin, ValueError if there is none. -/
def pixelMaxima (wlPix v : List α) : List (α × α) → Except Exc (List α)
  | [] => .ok []
  | (lo, hi) :: bs =>
    match Rebin.maxE (((wlPix.zip v).filter (fun p => decide (lo < p.1) && decide (p.1 < hi))).map Prod.snd) with
    | .error e => .error e
    | .ok m =>
      match pixelMaxima wlPix v bs with
      | .error e => .error e
      | .ok ms => .ok (m :: ms)

/-- spectrometer.py:391-417. -/
def spectrometerMaxima (ch : Chan α) (wl d : List α) : Except Exc (List α) :=
  match (Rebin.Signal.mk wl d).spectralRebin ch.wlPix with
  | .error e => .error e
  | .ok r => pixelMaxima ch.wlPix (mulCol (mulCol r.data ch.dwlPix) (ch.wlPix.map ch.gain)) (ch.bins.left.zip ch.bins.right)

/-- `exorad/models/instruments/spectrometer.py:326-422` `propagate_target`. -/
def spectrometerTarget (ch : Chan α) (sed : Rebin.Signal α) (sky : Option (Rebin.Signal α)) (old : Option (List (Option α))) :
    Except Exc (TargetOut α) :=
  match getEfficiency ch sed.wl sky old with
  | .error e => .error e
  | .ok eff =>
    match forceEdge ch sed.wl eff.tr with
    | .error e => .error e
    | .ok (tr, win) =>
      let d := (density ch sed.wl eff.qe sed.data tr).map (fun v => ch.atel * v)
      match spectrometerMaxima ch sed.wl d with
      | .error e => .error e
      | .ok m =>
        .ok ⟨eff.skyTR, binIntegrals ch.bins sed.wl (mulCol win sed.data), binIntegrals ch.bins sed.wl d,
          binIntegrals ch.bins sed.wl d, m⟩

end ExoRad.Instrument
