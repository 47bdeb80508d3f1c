import Verif.Model.Build
import Verif.Model.Channels

/-!
# From the parsed payload to the descriptions of the instrument

`Model/Options` parses a payload file into nested dictionaries, `Model/Build` and `Model/Pipeline` start from descriptions (`Descr`, `Common`,
sections of the sky and the source). Here is what the code between them reads: every `description["key"]["value"]` of
`exorad/models/instruments/`, `exorad/models/optics/`, `exorad/models/foregrounds/`, `exorad/models/noise.py`, `exorad/tasks/`. The code
reads an entry when it needs it; here all entries are read first. `none` means that an entry that every payload must have is missing, has
another type than the code expects, or another unit than the one written at the entry (other units: `Model/Units`, `Model/UnitsNoise`).
-/

namespace ExoRad.Read
open Options (Opt Key Scalar)
noncomputable section

/-- The files of the payload: the columns of a data table (`Options.Opt.table`), what is at the path of a PSF, the columns W and R of a file
of resolutions. `exorad/tasks/loadOptions.py:186-223`, `exorad/models/instruments/spectrometer.py:70-72`, `:199-217`. -/
structure Files where
  table : String → Dict String (List ℝ)
  psf : String → Build.PsfFile
  curve : String → Option (List (ℝ × ℝ))

/-! ## Entries -/

/-- `o[k]`. As everywhere in `exorad/models/` and `exorad/tasks/`, e.g. `exorad/models/noise.py:32-52`. -/
def sub (k : String) : Opt → Option Opt
  | .dict d => Dict.get? d k
  | .odict d => Dict.get? d (.str k)
  | .table _ => none
  | .scalar _ => none

/-- `f(o[k])`, the entry must be there. As `exorad/models/noise.py:32-38`. -/
def need {β : Type} (k : String) (f : Opt → Option β) (o : Opt) : Option β :=
  match sub k o with
  | none => none
  | some x => f x

/-- `f(o[k])` if `k` is there. As `exorad/models/noise.py:41`. -/
def may {β : Type} (k : String) (f : Opt → Option β) (o : Opt) : Option (Option β) :=
  match sub k o with
  | none => some none
  | some x =>
    match f x with
    | none => none
    | some v => some (some v)

/-- `f(o[k]["value"])`. As `exorad/models/noise.py:38`. -/
def needV {β : Type} (k : String) (f : Opt → Option β) : Opt → Option β := need k (need "value" f)

/-- `f(o[k]["value"])` if `k` is there. As `exorad/models/noise.py:41-43`. -/
def mayV {β : Type} (k : String) (f : Opt → Option β) : Opt → Option (Option β) := may k (need "value" f)

/-- A number, without unit or dimensionless. As `exorad/models/instruments/spectrometer.py:58`. -/
def bare : Opt → Option ℝ
  | .scalar (.int n) => some n
  | .scalar (.float q) => some q
  | .scalar (.qty _ q u) => if u = "" then some q else none
  | _ => none

/-- A quantity in a unit. As `exorad/models/noise.py:38` (a count), `exorad/models/instruments/instrument.py:109-117` (micron). -/
def inUnit (u : String) : Opt → Option ℝ
  | .scalar (.qty _ q u') => if u' = u then some q else none
  | _ => none

/-- `hasattr(x, "unit")`: a quantity in a unit, or a number that is taken to be in it (`opticalElement.py:95-100,131-136`). -/
def bareOr (u : String) (o : Opt) : Option ℝ :=
  match o with
  | .scalar (.int n) => some n
  | .scalar (.float q) => some q
  | _ => inUnit u o

/-- A text, as `exorad/tasks/instrumentHandler.py:125`. -/
def text : Opt → Option String
  | .scalar (.str s) => some s
  | _ => none

/-- A truth value, as the options of `exorad/models/foregrounds/zodiacalForeground.py:38-64`. -/
def flag : Opt → Option Bool
  | .scalar (.bool b) => some b
  | _ => none

/-- The columns of a data table. `exorad/tasks/loadOptions.py:186-205`. -/
def columns (F : Files) : Opt → Option (Dict String (List ℝ))
  | .table id => some (F.table id)
  | _ => none

/-- Two columns of a data table. As `exorad/models/instruments/instrument.py:295-303`. -/
def pairs (F : Files) (x y : String) (o : Opt) : Option (List (ℝ × ℝ)) :=
  match columns F o with
  | none => none
  | some t =>
    match t.get? x, t.get? y with
    | some a, some b => some (a.zip b)
    | _, _ => none

/-- All of them or none. For the sections of `exorad/models/optics/opticalPath.py:219-241` and `exorad/tasks/instrumentHandler.py:124-135`. -/
def allOf {β γ : Type} (f : β → Option γ) : List β → Option (List γ)
  | [] => some []
  | b :: l =>
    match f b with
    | none => none
    | some c =>
      match allOf f l with
      | none => none
      | some cs => some (c :: cs)

/-! ## Optical elements -/

/-- `exorad/models/optics/opticalElement.py:62-289`: the entries of an element. -/
def element (F : Files) (o : Opt) : Option (Optics.Descr ℝ) := do
  let value ← need "value" text o
  let type ← needV "type" text o
  let data ← may "data" (columns F) o
  let use ← mayV "use" text o
  let transmission ← mayV "transmission" bare o
  let reflectivity ← mayV "reflectivity" bare o
  let emissivity ← mayV "emissivity" bare o
  let wlMin ← mayV "wl_min" (inUnit "um") o
  let wlMax ← mayV "wl_max" (inUnit "um") o
  let temperature ← mayV "temperature" (bareOr "K") o
  let solidAngle ← mayV "solid_angle" (bareOr "sr") o
  let wlColName ← mayV "wl_col_name" text o
  let width ← mayV "width" (inUnit "um") o
  return ⟨value, type, data, use, transmission, reflectivity, emissivity, wlMin, wlMax, temperature, solidAngle, wlColName, width⟩

/-- An element under its key; keys are texts. `exorad/tasks/loadOptions.py:115-128`. -/
def keyed {β : Type} (f : Opt → Option β) (p : Key × Opt) : Option (String × β) :=
  match p.1 with
  | .str k =>
    match f p.2 with
    | none => none
    | some e => some (k, e)
  | _ => none

/-- An entry that occurs several times is an `OrderedDict`, once a dictionary. `exorad/tasks/loadOptions.py:115-128`. -/
inductive Entries (β : Type) where
  | none
  | one (b : β)
  | many (l : List (String × β))

/-- The entry `k` (`exorad/tasks/loadOptions.py:115-128`). -/
def entries {β : Type} (k : String) (f : Opt → Option β) (o : Opt) : Option (Entries β) :=
  match sub k o with
  | none => some .none
  | some (.odict d) =>
    match allOf (keyed f) d with
    | none => none
    | some l => some (.many l)
  | some x =>
    match f x with
    | none => none
    | some b => some (.one b)

/-- `exorad/models/optics/opticalPath.py:219-241`. -/
def elements (F : Files) (o : Opt) : Option (Optics.Section ℝ) :=
  match entries "opticalElement" (element F) o with
  | none => none
  | some .none => some .absent
  | some (.one e) => some (.one e)
  | some (.many l) => some (.many l)

/-! ## Noise -/

/-- `exorad/models/noise.py:174-224`: an entry without a data table. -/
def customEntry (o : Opt) : Option CustomEntry := do
  let _ ← may "data" (fun _ => (none : Option Unit)) o
  let value ← may "value" bare o
  let name ← mayV "name" text o
  return ⟨value, name⟩

/-- Several entries are keyed by their numbers (`loadOptions.py:115-128`). -/
def customNoise (o : Opt) : Option (Option CustomNoise) :=
  match sub "customNoise" o with
  | none => some none
  | some (.odict d) =>
    match allOf (fun p : Key × Opt => customEntry p.2) d with
    | none => none
    | some l => some (some (.many l))
  | some x =>
    match customEntry x with
    | none => none
    | some e => some (some (.single e))

/-- `channel["detector"]` as read by `exorad/models/noise.py` and `exorad/tasks/noiseHandler.py`. -/
def detector (o : Opt) : Option Detector := do
  let wellDepth ← mayV "well_depth" (inUnit "ct") o
  let fWellDepth ← mayV "f_well_depth" bare o
  let frameTime ← mayV "frame_time" (inUnit "s") o
  let freqNDR ← mayV "freqNDR" (inUnit "Hz") o
  let multiaccumM ← mayV "multiaccumM" bare o
  let darkCurrent ← mayV "dark_current" (inUnit "ct / s") o
  let readNoise ← mayV "read_noise" (inUnit "ct") o
  return ⟨wellDepth, fWellDepth, frameTime, freqNDR, multiaccumM, darkCurrent, readNoise⟩

/-- The channel description as read by the noise code. `exorad/models/noise.py:13-223`, `exorad/tasks/noiseHandler.py:27-106`. -/
def noiseChannel (o : Opt) : Option NoiseChannel := do
  let value ← need "value" text o
  let det ← need "detector" detector o
  let noiseX ← mayV "NoiseX" bare o
  let custom ← customNoise o
  return ⟨value, det, noiseX, custom⟩

/-! ## Channels -/

/-- `exorad/models/instruments/instrument.py:295-324` `detector["qe"]`. -/
def qe (F : Files) (o : Opt) : Option Build.Qe :=
  match sub "datafile" o with
  | some _ =>
    match need "data" (columns F) o with
    | none => none
    | some t => some (.data t)
  | none =>
    match need "value" bare o with
    | none => none
    | some v => some (.constant v)

/-- `photometer.py:50-54`, `spectrometer.py:199-202`. -/
def psf (F : Files) (o : Opt) : Option Build.PsfDescr := do
  let path ← need "value" text o
  let format ← mayV "format" text o
  return ⟨F.psf path, format⟩

/-- `targetR["value"]`: the text `native`, or a number. `exorad/models/instruments/spectrometer.py:27-67`. -/
def resolutionValue (o : Opt) : Option Build.Resolution :=
  match text o with
  | some s => if s = "native" then some .native else none
  | none =>
    match bare o with
    | none => none
    | some r => some (.fixed r)

/-- `exorad/models/instruments/spectrometer.py:26-92` `targetR`. -/
def resolution (F : Files) (o : Opt) : Option Build.Resolution :=
  match sub "value" o with
  | some v => resolutionValue v
  | none =>
    match sub "data" o with
    | none => some .unsupported
    | some d =>
      match need "value" text d with
      | none => none
      | some f =>
        match F.curve f with
        | none => none
        | some pts => some (.curve pts)

/-- `photometer.py:92-118,177-184`. -/
def aperture (o : Opt) : Option Build.ApertureDescr := do
  let radius ← mayV "radius" bare o
  let enE ← mayV "EnE" bare o
  let corr ← mayV "apertureCorrection" bare o
  return ⟨radius, enE, corr⟩

/-- What only a spectrometer reads. `exorad/models/instruments/spectrometer.py:25-324`. -/
def specDescr (F : Files) (o : Opt) : Option Build.SpecDescr := do
  let targetR ← may "targetR" (resolution F) o
  let solution ← may "wlSolution" (need "data" (pairs F "x" "Wavelength")) o
  let wfe ← mayV "WFErms" (inUnit "um") o
  let encE ← may "EncESolution" (need "data" (pairs F "Wavelength" "EE")) o
  let spatialScale ← mayV "window_spatial_scale" bare o
  let spatialPixel ← mayV "window_spatial_pixel" bare o
  let spectralPixel ← mayV "window_spectral_pixel" bare o
  return ⟨targetR.getD .native, solution, wfe, encE, spatialScale, spatialPixel, spectralPixel⟩

/-- The class of the channel decides what else is read. `exorad/tasks/instrumentHandler.py:58-69`. -/
def kind (F : Files) (c : Channels.Class) (o : Opt) : Option Build.Kind :=
  match c with
  | .photometer =>
    match need "aperture" aperture o with
    | none => none
    | some a => some (.photometer a)
  | .spectrometer =>
    match specDescr F o with
    | none => none
    | some s => some (.spectrometer s)

/-- A channel. `exorad/models/instruments/instrument.py:86-155`, `:294-341`, `photometer.py:38-132`, `spectrometer.py:25-324`. -/
def channel (F : Files) (c : Channels.Class) (o : Opt) : Option Build.Descr := do
  let noise ← noiseChannel o
  let wlMin ← needV "wl_min" (inUnit "um") o
  let wlMax ← needV "wl_max" (inUnit "um") o
  let fnumX ← needV "Fnum_x" bare o
  let fnumY ← mayV "Fnum_y" bare o
  let detWlMin ← need "detector" (needV "wl_min" (inUnit "um")) o
  let cutOff ← need "detector" (needV "cut_off" (inUnit "um")) o
  let deltaPix ← need "detector" (needV "delta_pix" (inUnit "um")) o
  let q ← need "detector" (need "qe" (qe F)) o
  let psf ← may "PSF" (psf F) o
  let optics ← may "optics" (elements F) o
  let k ← kind F c o
  return ⟨noise, wlMin, wlMax, fnumX, fnumY, detWlMin, cutOff, deltaPix, q, psf, optics, k⟩

/-! ## The payload -/

/-- What all channels share: `payload["optics"]` and `payload["common"]["customNoise"]`.
`exorad/models/instruments/instrument.py:101-155`, `exorad/tasks/noiseHandler.py:94-104`. -/
def common (F : Files) (o : Opt) : Option Build.Common := do
  let force ← need "optics" (mayV "ForceChannelWlEdge" flag) o
  let atel ← need "optics" (needV "Atel" (inUnit "m2")) o
  let optics ← need "optics" (elements F) o
  let custom ← may "common" customNoise o
  return ⟨force, atel, optics, custom.getD none⟩

/-- Truth of the text of `zodiacalMap`: `True` and `False` are flags, numbers and texts are not read.
`exorad/tasks/foregroundHandler.py:36-130`, `exorad/models/foregrounds/zodiacalForeground.py:38-64`. -/
def foreground (F : Files) (o : Opt) : Option (Foreground.Descr ℝ) := do
  let value ← need "value" text o
  let data ← may "data" (columns F) o
  let zodiacalMap ← mayV "zodiacalMap" flag o
  let mapFile ← mayV "custom_map_file" text o
  let factor ← mayV "zodiacFactor" bare o
  return ⟨value, data, zodiacalMap, mapFile, factor⟩

/-- `exorad/tasks/targetHandler.py:247-252`, `exorad/tasks/foregroundHandler.py:153-182`. -/
def foregrounds (F : Files) (o : Opt) : Option (Option (Foreground.Section ℝ)) :=
  match entries "foreground" (foreground F) o with
  | none => none
  | some .none => some none
  | some (.one e) => some (some (.single e))
  | some (.many l) => some (some (.many l))

/-- `exorad/tasks/loadSource.py:40-160` `payload["common"]["sourceSpectrum"]`. -/
def source (o : Opt) : Option Source.Descr := do
  let value ← need "value" text o
  let models ← mayV "StellarModels" text o
  let custom ← mayV "CustomSed" text o
  return ⟨value, false, models, custom⟩

/-- The instrument and its surroundings. `exorad/tasks/targetHandler.py:223-265`. -/
structure Described where
  common : Build.Common
  /-- the channels, by name, in the order of the payload -/
  channels : Dict Key Build.Descr
  foreground : Option (Foreground.Section ℝ)
  source : Option Source.Descr
  wlMin : ℝ
  wlMax : ℝ

/-- The channels of the payload, by `Model/Channels` (`exorad/tasks/instrumentHandler.py:102-153`). -/
def channels (F : Files) (o : Opt) : Option (Dict Key Build.Descr) :=
  match Channels.buildChannels (fun c _ d _ => .ok (channel F c d)) o with
  | .error _ => none
  | .ok r => allOf (fun p : Key × Option Build.Descr => match p.2 with | none => none | some d => some (p.1, d)) r

/-- The payload (`exorad/tasks/instrumentHandler.py:244-285`). -/
def describe (F : Files) (o : Opt) : Option Described := do
  let c ← common F o
  let chs ← channels F o
  let fg ← need "common" (foregrounds F) o
  let src ← need "common" (may "sourceSpectrum" source) o
  let wlMin ← need "common" (needV "wl_min" (inUnit "um")) o
  let wlMax ← need "common" (needV "wl_max" (inUnit "um")) o
  return ⟨c, chs, fg, src, wlMin, wlMax⟩

/-- `np.logspace(.., PassVal.working_R)`: the number of points of the working grids must be an integer.
`exorad/tasks/foregroundHandler.py:43-47`, `exorad/tasks/loadSource.py:66-70`. -/
def workingR (s : Options.St) : Option ℕ :=
  match s.workingR with
  | .int n => some n.toNat
  | _ => none

/-- From a payload file to its description and the number of points of the working grids; `none` if it cannot be parsed or is not
described. `exorad/tasks/loadOptions.py:46-53`. -/
def readFile (F : Files) (py : Options.Py) (cfg : Option String) (doc : Options.Xml) (s : Options.St) : Option (Described × ℕ) :=
  match Options.parser py cfg doc s with
  | (_, .error _) => none
  | (s', .ok p) =>
    match describe F (.dict p), workingR s' with
    | some D, some n => some (D, n)
    | _, _ => none

/-- From a payload file to the built channels (outer `none`: not described; inner `none`: a loop is still running).
`exorad/tasks/loadOptions.py:46-53`, `exorad/tasks/instrumentHandler.py:103-150`. -/
def buildFile (fuel : ℕ) (env : Build.Env) (F : Files) (py : Options.Py) (cfg : Option String) (doc : Options.Xml) (s : Options.St) :
    Option (Option (Except Exc (List Build.Built))) :=
  match readFile F py cfg doc s with
  | none => none
  | some (D, n) => some (Build.buildAll fuel { env with workingR := n } D.common (D.channels.map Prod.snd))

end
end ExoRad.Read
