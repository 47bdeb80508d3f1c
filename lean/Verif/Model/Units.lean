import Verif.Model.Build

/-!
# Units of the lengths in a description (`exorad/models/instruments/`)

`Model/Build` has all lengths in microns. The XML file gives each length with a unit of its own; astropy converts when two
quantities meet, but some places take the bare number (`.value`, `np.asarray`, `scipy`'s `interp1d`). Here `d` is a description in
microns and `Units` says in which unit three of its lengths were written: the range of the detector, the size of a pixel, the
coordinate `x` of the wavelength solution. `wl_min`, `wl_max` of the channel and the wavelengths of data files are in microns.
-/

namespace ExoRad.Build
open Pipeline
noncomputable section

/-- How many microns one unit is. For `exorad/models/instruments/instrument.py:105-117`, `spectrometer.py:118-183`. -/
structure Units where
  /-- `detector/wl_min`, `detector/cut_off` -/
  det : ℝ
  /-- `detector/delta_pix` -/
  pix : ℝ
  /-- column `x` of `wlSolution` -/
  x : ℝ

/-- Everything in microns. For `exorad/models/instruments/instrument.py:105-117`, `spectrometer.py:118-183`. -/
def Units.microns : Units := ⟨1, 1, 1⟩

/-- The bare numbers of the detector's range: `description["detector"]["wl_min"]["value"].value` (instrument.py:105-117 multiplies them
by `u.um` again, whatever their unit was). -/
def bareDetector (u : Units) (d : Descr) : Descr := { d with detWlMin := d.detWlMin / u.det, cutOff := d.cutOff / u.det }

/-- The wavelength solution with `x` in its unit. `exorad/models/instruments/spectrometer.py:118-141`. -/
def solutionIn (k : ℝ) (sol : List (ℝ × ℝ)) : List (ℝ × ℝ) := sol.map (fun p => (p.1 / k, p.2))

/-- spectrometer.py:118-183: `delta_pix` is converted to the unit of `x` (line 157), coordinates are in that unit. The bandwidth, a
difference of two wavelengths in microns, gets the unit of `x` (line 180): in microns it is multiplied by that unit. -/
def pixelGridIn (k : ℝ) (sol : List (ℝ × ℝ)) (wlMin wlMax delta : ℝ) : Instrument.Pixels ℝ :=
  let g := Instrument.pixelGrid (solutionIn k sol) wlMin wlMax (delta / k)
  ⟨g.x, g.wl, g.bandwidth.map (fun b => b * k)⟩

/-- spectrometer.py:242-322: the spectral width from coordinates in the unit of `x`, `.to("")`; the spatial width from the wavelength
in microns and `delta`, `.to("")`. -/
def windowIn (k : ℝ) (w : Instrument.WindowDescr ℝ) (sol : List (ℝ × ℝ)) (delta : ℝ) (edges wl : List ℝ) : Instrument.Window ℝ :=
  let sx := Instrument.spectralWidth w (solutionIn k sol) (delta / k) edges
  let sy := wl.map (Instrument.spatialWidth w delta)
  ⟨sx, sy, Diffuse.mulCol sx sy⟩

/-- `spectrometer.py:111-324` `builder`. -/
def spectrometerStageIn (fuel : ℕ) (env : Env) (u : Units) (d : Descr) (s : SpecDescr) : Option (Except Exc Stage) :=
  match s.solution with
  | none => some (.error .keyError)
  | some sol =>
    match wavelengthTable fuel d s.targetR (pixelGridIn u.x sol d.wlMin d.wlMax d.deltaPix) with
    | none => none
    | some (.error e) => some (.error e)
    | some (.ok (b, edges)) =>
      match getQe env d with
      | .error e => some (.error e)
      | .ok qe =>
        match gainCurve env d s (pixelGridIn u.x sol d.wlMin d.wlMax d.deltaPix) with
        | .error e => some (.error e)
        | .ok g =>
          match d.fnumY with
          | none => some (.error .keyError)
          | some fy =>
            let w := windowIn u.x ⟨fy, s.encE, s.spatialScale, s.spatialPixel, s.spectralPixel⟩ sol d.deltaPix edges b.wl
            some (.ok ⟨b, qe, w.spatial, w.size, 0, pixelGridIn u.x sol d.wlMin d.wlMax d.deltaPix, env.spline g⟩)

/-- The builder of the class of the channel. That of a photometer converts everything it uses (photometer.py:57-78, the column `WindowSize`
keeps its unit, photometer.py:90-132). -/
def builderIn (fuel : ℕ) (env : Env) (u : Units) (d : Descr) : Option (Except Exc Stage) :=
  match d.kind with
  | .photometer ap => photometerStage fuel env d ap
  | .spectrometer s => spectrometerStageIn fuel env u d s

/-- The number `np.asarray(window_size_px)` (diffuse_light_propagation.py:122): the window of a photometer without its unit, which is that of
`wl ** 2 / delta_pix ** 2`, unless the PSF is pixel based; the window of a spectrometer has no unit. -/
def bareSize (u : Units) (d : Descr) (size : List ℝ) : List ℝ :=
  if isSpectrometer d.kind = true ∨ psfFormat d = some "pixel_based" then size else size.map (fun s => s * u.pix ^ 2)

/-- What diffuse light reads: as `diffuseOf`, with the bare window. The area (line 26-29) and the number of pixels of the slit (line 83-88) are
converted. -/
def diffuseIn (env : Env) (u : Units) (d : Descr) (st : Stage) (slit : Option ℝ) : Diffuse.Channel ℝ :=
  { diffuseOf env d st slit with windowSize := bareSize u d st.size }

/-- `opticalPath.py:283-355`, as `pathSignal`. -/
def pathSignalIn (env : Env) (u : Units) (d : Descr) (st : Stage) (rads : Dict String (Optics.Rad ℝ)) (slit : Option ℝ) :
    Except Exc (Optics.SigState ℝ) :=
  if isSpectrometer d.kind = false ∧ slit.isSome then
    match st.qe.spectralRebin (workGrid env (bareDetector u d)) with
    | .error e => .error e
    | .ok _ => .error .keyError
  else Optics.computeSignal Real.pi (diffuseIn env u d st slit) (workGrid env (bareDetector u d)) st.qe st.bins.wl.length rads

/-- `instrument.py:98-145` `build_optical_path`, as `buildPath`. -/
def buildPathIn (env : Env) (c : Common) (u : Units) (d : Descr) (st : Stage) : Except Exc Built :=
  match pathElements env c (bareDetector u d) with
  | .error e => .error e
  | .ok els =>
    match (Optics.transmissionTable (workGrid env (bareDetector u d)) els).getE "total" with
    | .error e => .error e
    | .ok total =>
      match Instrument.getTransmission (chanOf env c d st ⟨[], []⟩) (workGrid env (bareDetector u d)) total with
      | .error e => .error e
      | .ok (trCol, tr) =>
        match Optics.chain env.B (workGrid env (bareDetector u d)) els [] none with
        | .error e => .error e
        | .ok (rads, slit) =>
          match pathSignalIn env u d st rads slit with
          | .error e => .error e
          | .ok s =>
            match Contrib.chanTable ((stageTable d.noise.value st).set "TR" (colN trCol)) s with
            | .error e => .error e
            | .ok t => .ok ⟨⟨isSpectrometer d.kind, chanOf env c d st tr, diffuseIn env u d st slit, d.noise, c.customNoise⟩, t,
                Optics.transmissionTable (workGrid env (bareDetector u d)) els, s⟩

/-- `instrument.py:82-96` `build` of a channel whose description is `d` in microns, written in the units `u`. -/
def buildIn (fuel : ℕ) (env : Env) (c : Common) (loaded : Bool) (u : Units) (d : Descr) : Option (Except Exc Built) :=
  if loaded then some (.error .valueError)
  else
    match builderIn fuel env u d with
    | none => none
    | some (.error e) => some (.error e)
    | some (.ok st) => some (buildPathIn env c u d st)

end
end ExoRad.Build
