import Verif.Model.Contrib
import Verif.Model.Psf

/-!
# Building the channels of a payload: `Instrument.build` (`exorad/models/instruments/`)

The pieces of `Model/Instrument`, `Model/Optics` and `Model/Psf` put together: from the description of a channel to the built
channel and its table. Numbers are real, units are not carried. Keys every channel must have (`wl_min`, `wl_max`, `Fnum_x`, `aperture`
of a photometer, and `wl_min`, `cut_off`, `delta_pix`, `qe` of the detector) are there; the others are optional and their absence is the exception it
is in Python. The number of points of the working grid is at least 1 (`PassVal.working_R`). Loops that may not end have a bound
on their number of rounds, `none` is a loop still running.
-/

namespace ExoRad.Build
open Pipeline
noncomputable section

/-! ## Descriptions -/

/-- A FITS image and its sampling.
Read by `exorad/utils/exolib.py` `binnedPSF` and `paosPSF` (`exorad/models/instruments/photometer.py:64-77`, `spectrometer.py:209-217`). -/
structure Fits where
  ima : Psf.Img ℝ
  cdelt1 : ℝ
  cdelt2 : ℝ

/-- What is at the path of the `PSF` entry. `exorad/models/instruments/photometer.py:50-77`, `exorad/models/instruments/spectrometer.py:199-217`. -/
inductive PsfFile where
  /-- nothing; whether the name ends in `.fits` -/
  | missing (fitsName : Bool)
  | fits (f : Fits)
  /-- a directory: the FITS files in it, by name, with their `WAVELEN` -/
  | dir (files : List (ℝ × Fits))
  /-- a PAOS file: image and pixel response at a wavelength -/
  | paos (image : ℝ → Except Exc (Psf.Img ℝ × Psf.Img ℝ))
  /-- another file -/
  | other

/-- The `PSF` entry: the file and the format. `exorad/models/instruments/photometer.py:50-54`, `exorad/models/instruments/spectrometer.py:199-202`. -/
structure PsfDescr where
  file : PsfFile
  format : Option String

/-- `detector["qe"]`: a constant or a data table. `exorad/models/instruments/instrument.py:294-341`. -/
inductive Qe where
  | constant (v : ℝ)
  | data (t : Dict String (List ℝ))

/-- `targetR`: absent or `native`, a number, a file with the columns W and R, neither of them. `exorad/models/instruments/spectrometer.py:27-96`. -/
inductive Resolution where
  | native
  | fixed (R : ℝ)
  | curve (pts : List (ℝ × ℝ))
  | unsupported

/-- The `aperture` section of a photometer. `exorad/models/instruments/photometer.py:90-132`, `:177-185`. -/
structure ApertureDescr where
  radius : Option ℝ := none
  enE : Option ℝ := none
  apertureCorrection : Option ℝ := none

/-- What only a spectrometer reads. `exorad/models/instruments/spectrometer.py:25-324`. -/
structure SpecDescr where
  targetR : Resolution
  /-- `wlSolution`: pairs (x, wavelength) -/
  solution : Option (List (ℝ × ℝ))
  /-- `WFErms` -/
  wfe : Option ℝ := none
  encE : Option (List (ℝ × ℝ)) := none
  spatialScale : Option ℝ := none
  spatialPixel : Option ℝ := none
  spectralPixel : Option ℝ := none

/-- The class of a channel: `Photometer` or `Spectrometer` (`exorad/models/instruments/photometer.py:13`, `spectrometer.py:20`). -/
inductive Kind where
  | photometer (ap : ApertureDescr)
  | spectrometer (s : SpecDescr)

/-- The description of a channel. What `exorad/models/instruments/*.py` read of it (`instrument.py:52-61`). -/
structure Descr where
  /-- the name of the channel and what the noise code reads -/
  noise : NoiseChannel
  wlMin : ℝ
  wlMax : ℝ
  fnumX : ℝ
  fnumY : Option ℝ
  detWlMin : ℝ
  cutOff : ℝ
  deltaPix : ℝ
  qe : Qe
  psf : Option PsfDescr
  /-- `optics` -/
  optics : Option (Optics.Section ℝ)
  kind : Kind

/-- What all channels share: `payload["optics"]` and `payload["common"]`. `exorad/models/instruments/instrument.py:52-61`, `:101-155`. -/
structure Common where
  force : Option Bool
  atel : ℝ
  optics : Optics.Section ℝ
  customNoise : Option CustomNoise

/-- Constants and libraries: `PassVal.working_R`, Planck's law, `1 / (c h)`, the Airy image and its sampling
(`exorad/utils/exolib.py:238-243`), the energy within an elliptical aperture (`photutils`: image, the three numbers that scale
the radius, radius), cubic interpolation (`interp1d(.., kind="cubic")`). -/
structure Env where
  workingR : ℕ
  B : ℝ → ℝ → ℝ
  perPhoton : ℝ
  airy : Psf.Img ℝ
  step : ℝ
  enc : Psf.Img ℝ → ℝ → ℝ → ℝ → ℕ → ℝ
  spline : List (ℝ × ℝ) → ℝ → ℝ

/-! ## Point spread functions -/

/-- `exorad/utils/exolib.py:204-271` `binnedPSF`: which image is used. -/
def binnedPsf (env : Env) (file : PsfFile) (fx fy wl delta : ℝ) : Except Exc (Psf.Img ℝ × Psf.Img ℝ) :=
  match file with
  | .missing _ => .ok (Psf.airyPsf env.airy env.step fx fy wl delta)
  | .fits f => .ok (Psf.filePsf f.ima f.cdelt1 f.cdelt2 fx fy wl delta)
  | .dir fs =>
    match Psf.nearestFile fs wl with
    | .error e => .error e
    | .ok f => .ok (Psf.filePsf f.ima f.cdelt1 f.cdelt2 fx fy wl delta)
  | .paos _ => .error .unboundLocalError
  | .other => .error .unboundLocalError

/-- `exorad/utils/exolib.py:283-302` `pixel_based_psf`: the image as it is, the pixel response is 1. -/
def pixelBasedPsf (file : PsfFile) (wl : ℝ) : Except Exc (Psf.Img ℝ × Psf.Img ℝ) :=
  match file with
  | .missing true => .error .osError
  | .fits f => .ok (f.ima, Psf.ones 1 1)
  | .dir fs =>
    match Psf.nearestFile fs wl with
    | .error e => .error e
    | .ok f => .ok (f.ima, Psf.ones 1 1)
  | _ => .error .unboundLocalError

/-- `exorad/utils/exolib.py:383-428` `paosPSF`: OSError for a file that is not HDF5 or not there. -/
def paosPsf (file : PsfFile) (wl : ℝ) : Except Exc (Psf.Img ℝ × Psf.Img ℝ) :=
  match file with
  | .paos f => f wl
  | _ => .error .osError

/-- The format of the PSF (`photometer.py:48-55`, `spectrometer.py:196-202`). -/
def psfFormat (d : Descr) : Option String := d.psf.bind PsfDescr.format

/-- Without `PSF` entry `binnedPSF` gets no file name. `exorad/models/instruments/photometer.py:50-77`, `spectrometer.py:199-217`. -/
def psfFile (d : Descr) : PsfFile :=
  match d.psf with
  | some p => p.file
  | none => .missing false

/-- `exorad/models/instruments/photometer.py:57-78`, `spectrometer.py:204-219`: image and pixel response at a wavelength. -/
def psfImages (env : Env) (d : Descr) (wl : ℝ) : Except Exc (Psf.Img ℝ × Psf.Img ℝ) :=
  if psfFormat d = some "pixel_based" then pixelBasedPsf (psfFile d) wl
  else if psfFormat d = some "paos" then paosPsf (psfFile d) wl
  else
    match d.fnumY with
    | none => .error .keyError
    | some fy => binnedPsf env (psfFile d) d.fnumX fy wl d.deltaPix

/-! ## Quantum efficiency -/

/-- `exorad/models/instruments/instrument.py:294-325` `_get_qe`: the curve. -/
def getQe (env : Env) (d : Descr) : Except Exc (Rebin.Signal ℝ) :=
  match d.qe with
  | .constant v => .ok (Instrument.constantQe v d.detWlMin d.cutOff env.workingR)
  | .data t =>
    match Misc.getWlColName t.keys none with
    | .error e => .error e
    | .ok none => .error .valueError
    | .ok (some c) =>
      match t.getE c with
      | .error e => .error e
      | .ok wl =>
        match t.getE d.noise.value with
        | .error e => .error e
        | .ok v => Rebin.Signal.mk? wl v

/-! ## The builders -/

/-- What a builder leaves in the table and in `built_instr`. `exorad/models/instruments/instrument.py:86-99`, `photometer.py:38-88`, `spectrometer.py:111-324`. -/
structure Stage where
  bins : Instrument.Bins ℝ
  qe : Rebin.Signal ℝ
  /-- `window_spatial_width` (spectrometers) -/
  spatial : List ℝ
  /-- `window_size_px` -/
  size : List ℝ
  /-- `PRF.max()` (photometers) -/
  prfMax : ℝ
  /-- pixels and gain (spectrometers) -/
  px : Instrument.Pixels ℝ
  gain : ℝ → ℝ

/-- `exorad/models/instruments/photometer.py:90-132` `_windows_size` on the image `prf`. Fnum_y is needed unless the PSF is pixel based. -/
def windowsSize (fuel : ℕ) (env : Env) (d : Descr) (ap : ApertureDescr) (wl : ℝ) (prf : Psf.Img ℝ) : Option (Except Exc ℝ) :=
  if psfFormat d = some "pixel_based" then
    Psf.photometerWindow Real.pi ⟨ap.radius, ap.enE⟩ ⟨1, 1, 1, 1, true⟩ (env.enc prf 1 1 1) fuel
  else
    match d.fnumY with
    | none => if ap.radius.isSome || ap.enE.isSome then some (.error .keyError) else some (.error .unboundLocalError)
    | some fy => Psf.photometerWindow Real.pi ⟨ap.radius, ap.enE⟩ ⟨d.fnumX, fy, wl, d.deltaPix, false⟩ (env.enc prf d.fnumX fy wl) fuel

/-- `exorad/models/instruments/photometer.py:38-88` `builder`. `PRF.max()` is computed when a target is propagated; an empty image
is an error here already. -/
def photometerStage (fuel : ℕ) (env : Env) (d : Descr) (ap : ApertureDescr) : Option (Except Exc Stage) :=
  match getQe env d with
  | .error e => some (.error e)
  | .ok qe =>
    match psfImages env d (1 / 2 * (d.wlMin + d.wlMax)) with
    | .error e => some (.error e)
    | .ok (prf, _) =>
      match windowsSize fuel env d ap (1 / 2 * (d.wlMin + d.wlMax)) prf with
      | none => none
      | some (.error e) => some (.error e)
      | some (.ok s) =>
        match prf.max with
        | .error e => some (.error e)
        | .ok m => some (.ok ⟨Instrument.photometerBins d.wlMin d.wlMax, qe, [], [s], m, ⟨[], [], []⟩, fun _ => 0⟩)

/-- `exorad/models/instruments/spectrometer.py:25-107` `_wavelength_table`: the bins and their edges. -/
def wavelengthTable (fuel : ℕ) (d : Descr) (r : Resolution) (px : Instrument.Pixels ℝ) : Option (Except Exc (Instrument.Bins ℝ × List ℝ)) :=
  match r with
  | .native =>
    match Instrument.nativeGrid px.wl px.bandwidth with
    | .error e => some (.error e)
    | .ok (c, w, e) => some (.ok (Instrument.mkBins c w, e))
  | .fixed R => some (.ok (Instrument.binsOfEdges (Instrument.fixedREdges d.wlMin d.wlMax R), Instrument.fixedREdges d.wlMin d.wlMax R))
  | .curve pts =>
    match Instrument.variableEdges (Psf.interpStrict pts) d.wlMin d.wlMax fuel with
    | none => none
    | some (.error e) => some (.error e)
    | some (.ok e) => some (.ok (Instrument.binsOfEdges e, e))
  | .unsupported => some (.error .keyError)

/-- `np.linspace(a, b, 10)` (spectrometer.py:192-194). -/
def linspace10 (a b : ℝ) : List ℝ := (List.range 10).map (fun k : ℕ => a + (k : ℝ) * ((b - a) / 9))

/-- spectrometer.py:226-236. -/
def strehl (s : SpecDescr) (wl : ℝ) : ℝ :=
  match s.wfe with
  | some v => Real.exp (-((2 * Real.pi * v / wl) ^ 2))
  | none => 1

/-- spectrometer.py:196-237, one wavelength. -/
def gainAt (env : Env) (d : Descr) (s : SpecDescr) (wl : ℝ) : Except Exc ℝ :=
  match psfImages env d wl with
  | .error e => .error e
  | .ok (prf, kernel) =>
    match Psf.gainPrf prf kernel with
    | .error e => .error e
    | .ok g => .ok (g * strehl s wl)

/-- spectrometer.py:190-240: the gain at ten wavelengths, interpolated when the target is propagated (lines 371-376). -/
def gainCurve (env : Env) (d : Descr) (s : SpecDescr) (px : Instrument.Pixels ℝ) : Except Exc (List (ℝ × ℝ)) :=
  match Rebin.minE px.wl with
  | .error e => .error e
  | .ok lo =>
    match Rebin.maxE px.wl with
    | .error e => .error e
    | .ok hi =>
      match Source.mapE (gainAt env d s) (linspace10 lo hi) with
      | .error e => .error e
      | .ok g => .ok ((linspace10 lo hi).zip g)

/-- `exorad/models/instruments/spectrometer.py:111-324` `builder`. -/
def spectrometerStage (fuel : ℕ) (env : Env) (d : Descr) (s : SpecDescr) : Option (Except Exc Stage) :=
  match s.solution with
  | none => some (.error .keyError)
  | some sol =>
    match wavelengthTable fuel d s.targetR (Instrument.pixelGrid sol d.wlMin d.wlMax d.deltaPix) with
    | none => none
    | some (.error e) => some (.error e)
    | some (.ok (b, edges)) =>
      match getQe env d with
      | .error e => some (.error e)
      | .ok qe =>
        match gainCurve env d s (Instrument.pixelGrid sol d.wlMin d.wlMax d.deltaPix) with
        | .error e => some (.error e)
        | .ok g =>
          match d.fnumY with
          | none => some (.error .keyError)
          | some fy =>
            let w := Instrument.window ⟨fy, s.encE, s.spatialScale, s.spatialPixel, s.spectralPixel⟩ sol d.deltaPix edges b.wl
            some (.ok ⟨b, qe, w.spatial, w.size, 0, Instrument.pixelGrid sol d.wlMin d.wlMax d.deltaPix, env.spline g⟩)

/-! ## The optical path -/

/-- The table after the builder (`photometer.py:30-35, 44, 86`, `spectrometer.py:98-107, 188, 323`). -/
def stageTable (name : String) (st : Stage) : Table ℝ :=
  [("chName", List.replicate st.bins.wl.length (.str name)), ("Wavelength", col st.bins.wl), ("Bandwidth", col st.bins.width),
    ("LeftBinEdge", col st.bins.left), ("RightBinEdge", col st.bins.right), ("QE", colN (Instrument.qeColumn st.bins st.qe)),
    ("WindowSize", col st.size)]

/-- Whether the class is `Spectrometer` (`exorad/models/instruments/spectrometer.py:20`). -/
def isSpectrometer : Kind → Bool
  | .photometer _ => false
  | .spectrometer _ => true

/-- The aperture section, empty for a spectrometer (which does not read it). `exorad/models/instruments/photometer.py:90-132`. -/
def apertureOf : Kind → ApertureDescr
  | .photometer ap => ap
  | .spectrometer _ => {}

/-- What the propagation of a target will read. `exorad/models/instruments/photometer.py:134-208`, `spectrometer.py:326-422`. -/
def chanOf (env : Env) (c : Common) (d : Descr) (st : Stage) (tr : Rebin.Signal ℝ) : Instrument.Chan ℝ where
  wlMin := d.wlMin
  wlMax := d.wlMax
  force := c.force
  bins := st.bins
  atel := c.atel
  perPhoton := env.perPhoton
  qe := st.qe
  tr := tr
  apertureCorrection := (apertureOf d.kind).apertureCorrection
  enE := (apertureOf d.kind).enE
  prfMax := st.prfMax
  wlPix := st.px.wl
  dwlPix := st.px.bandwidth
  gain := st.gain

/-- What diffuse light needs (`exorad/utils/diffuse_light_propagation.py:14-36`). -/
def diffuseOf (env : Env) (d : Descr) (st : Stage) (slit : Option ℝ) : Diffuse.Channel ℝ where
  wlPix := st.px.wl
  dwlPix := st.px.bandwidth
  slitWidth := slit
  deltaPix := d.deltaPix
  spatialWidth := st.spatial
  windowSize := st.size
  left := st.bins.left
  right := st.bins.right
  area := d.deltaPix * d.deltaPix
  omega := Psf.omegaPix d.fnumX d.fnumY
  perPhoton := env.perPhoton

/-- A built channel: what an observation needs, its table, the tables of the optical path. `exorad/models/instruments/instrument.py:52-61`, `:86-99`. -/
structure Built where
  ch : Channel
  table : Table ℝ
  transmissions : Dict String (List ℝ)
  signals : Optics.SigState ℝ

/-- The working grid (`instrument.py:105-117`). -/
def workGrid (env : Env) (d : Descr) : List ℝ := Instrument.logspace d.detWlMin d.cutOff env.workingR

/-- `instrument.py:119-125` with `exorad/models/optics/opticalPath.py:123-145, 170-203`: the elements of the channel after those of the
payload. A grid of one point would be refined from `description["detector"]`, which a payload does not have (KeyError). -/
def pathElements (env : Env) (c : Common) (d : Descr) : Except Exc (Dict String (Optics.Element ℝ)) :=
  if env.workingR = 1 then .error .keyError
  else
    match Optics.prepareElements (workGrid env d) c.optics with
    | .error e => .error e
    | .ok shared =>
      match d.optics with
      | none => .error .keyError
      | some o =>
        match Optics.prepareElements (workGrid env d) o with
        | .error e => .error e
        | .ok own => .ok (Optics.prepend shared own)

/-- The emission of the optical path (`opticalPath.py:283-355`). A photometer has no pixels for the light of a slit (KeyError). -/
def pathSignal (env : Env) (d : Descr) (st : Stage) (rads : Dict String (Optics.Rad ℝ)) (slit : Option ℝ) : Except Exc (Optics.SigState ℝ) :=
  if isSpectrometer d.kind = false ∧ slit.isSome then
    match st.qe.spectralRebin (workGrid env d) with
    | .error e => .error e
    | .ok _ => .error .keyError
  else Optics.computeSignal Real.pi (diffuseOf env d st slit) (workGrid env d) st.qe st.bins.wl.length rads

/-- `exorad/models/instruments/instrument.py:98-145` `build_optical_path`. -/
def buildPath (env : Env) (c : Common) (d : Descr) (st : Stage) : Except Exc Built :=
  match pathElements env c d with
  | .error e => .error e
  | .ok els =>
    match (Optics.transmissionTable (workGrid env d) els).getE "total" with
    | .error e => .error e
    | .ok total =>
      match Instrument.getTransmission (chanOf env c d st ⟨[], []⟩) (workGrid env d) total with
      | .error e => .error e
      | .ok (trCol, tr) =>
        match Optics.chain env.B (workGrid env d) els [] none with
        | .error e => .error e
        | .ok (rads, slit) =>
          match pathSignal env d st rads slit with
          | .error e => .error e
          | .ok s =>
            match Contrib.chanTable ((stageTable d.noise.value st).set "TR" (colN trCol)) s with
            | .error e => .error e
            | .ok t => .ok ⟨⟨isSpectrometer d.kind, chanOf env c d st tr, diffuseOf env d st slit, d.noise, c.customNoise⟩, t,
                Optics.transmissionTable (workGrid env d) els, s⟩

/-- The builder of the class of the channel. `exorad/models/instruments/photometer.py:38-88`, `spectrometer.py:111-324`. -/
def builder (fuel : ℕ) (env : Env) (d : Descr) : Option (Except Exc Stage) :=
  match d.kind with
  | .photometer ap => photometerStage fuel env d ap
  | .spectrometer s => spectrometerStage fuel env d s

/-- `exorad/models/instruments/instrument.py:82-96` `build` of an instrument that was loaded from a file or not. -/
def build (fuel : ℕ) (env : Env) (c : Common) (loaded : Bool) (d : Descr) : Option (Except Exc Built) :=
  if loaded then some (.error .valueError)
  else
    match builder fuel env d with
    | none => none
    | some (.error e) => some (.error e)
    | some (.ok st) => some (buildPath env c d st)

/-- `exorad/tasks/instrumentHandler.py:122-136`: the channels one after the other. -/
def buildAll (fuel : ℕ) (env : Env) (c : Common) : List Descr → Option (Except Exc (List Built))
  | [] => some (.ok [])
  | d :: ds =>
    match build fuel env c false d with
    | none => none
    | some (.error e) => some (.error e)
    | some (.ok b) =>
      match buildAll fuel env c ds with
      | none => none
      | some (.error e) => some (.error e)
      | some (.ok bs) => some (.ok (b :: bs))

end
end ExoRad.Build
