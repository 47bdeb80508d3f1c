import Verif.Model.Instrument
import Mathlib.MeasureTheory.Integral.IntervalIntegral.Basic
import Mathlib.Analysis.SpecialFunctions.Trigonometric.Arctan

/-!
# `exorad/utils/exolib.py:193-566`: point spread functions, apertures and the solid angle of a pixel

Images are functions of a row and a column index together with their size. Units are not carried. Reading FITS
and HDF5 files, the Bessel function of the Airy image and `photutils` are not modelled: the image, and the
encircled energy as a function of the radius, are arguments. `OmegaPix` uses `ℝ` and the integral that
defines the complete elliptic integral of the third kind (`mpmath.ellippi`).
-/

namespace ExoRad.Psf

open ExoRad.Rebin

section kernel
variable {α : Type} [Field α] [LinearOrder α]

/-- A two-dimensional array: `at i j` is row `i`, column `j`. The images of `exorad/utils/exolib.py:193-427`. -/
structure Img (α : Type) where
  rows : Nat
  cols : Nat
  px : Nat → Nat → α

/-- `array.sum()`. `exorad/utils/exolib.py:255`, `:522`. -/
def Img.sum (m : Img α) : α := ∑ i ∈ Finset.range m.rows, ∑ j ∈ Finset.range m.cols, m.px i j

/-- `np.modf` (integer part towards zero, rest). `exorad/utils/exolib.py:257-258`, `:411-412`. -/
def modf [FloorRing α] (x : α) : α × Int :=
  if 0 ≤ x then (x - ⌊x⌋, ⌊x⌋) else (x - ⌈x⌉, ⌈x⌉)

/-- `kernel[:, j] *= v`. `exorad/utils/exolib.py:260-265`, `:414-420`. -/
def Img.scaleCol (m : Img α) (j : Nat) (v : α) : Img α := { m with px := fun i j' => if j' = j then m.px i j' * v else m.px i j' }

/-- `kernel[i, :] *= v`. `exorad/utils/exolib.py:260-265`, `:414-420`. -/
def Img.scaleRow (m : Img α) (i : Nat) (v : α) : Img α := { m with px := fun i' j => if i' = i then m.px i' j * v else m.px i' j }

/-- `np.ones((r, c))`. `exorad/utils/exolib.py:260`, `:414`. -/
def ones (r c : Nat) : Img α := ⟨r, c, fun _ _ => 1⟩

/-- `exorad/utils/exolib.py:257-264` and `411-419`: the response of a detector pixel, in samples of the PSF.
`kx` and `ky` are the pixel size over the sampling. For `k ≤ -2` numpy raises ValueError, here the kernel is
empty. -/
def pixelKernel [FloorRing α] (kx ky : α) : Img α :=
  let fx := (modf kx).1
  let fy := (modf ky).1
  let r := ((modf ky).2 + 2).toNat
  let c := ((modf kx).2 + 2).toNat
  ((((ones r c).scaleCol 0 (1 / 2 * fx)).scaleCol (c - 1) (1 / 2 * fx)).scaleRow 0 (1 / 2 * fy)).scaleRow (r - 1) (1 / 2 * fy)

/-- `scipy.signal.convolve2d(ima, kernel, mode="same")` (exolib.py:266, 421). Terms outside the image are 0. -/
def convolveSame (m k : Img α) : Img α :=
  ⟨m.rows, m.cols, fun i j => ∑ a ∈ Finset.range k.rows, ∑ b ∈ Finset.range k.cols,
    if a ≤ i + (k.rows - 1) / 2 ∧ i + (k.rows - 1) / 2 - a < m.rows ∧
        b ≤ j + (k.cols - 1) / 2 ∧ j + (k.cols - 1) / 2 - b < m.cols
    then m.px (i + (k.rows - 1) / 2 - a) (j + (k.cols - 1) / 2 - b) * k.px a b else 0⟩

/-- `ima /= ima.sum()` (exolib.py:255), for the analytic image only. -/
def normalise (m : Img α) : Img α := { m with px := fun i j => m.px i j / m.sum }

/-- `exorad/utils/exolib.py:204-271` `binnedPSF` without a file: `raw` is the unnormalised Airy image (lines
238-243), `step` its sampling `x[1] - x[0]`. -/
def airyPsf [FloorRing α] (raw : Img α) (step fx fy wl deltaPix : α) : Img α × Img α :=
  let k := pixelKernel (deltaPix / (fx * wl * step)) (deltaPix / (fy * wl * step))
  (convolveSame (normalise raw) k, k)

/-- `binnedPSF` with a FITS file, and `load_standard_psf` (exolib.py:193-201, 214-223): the image is used as it
is. `cdelt2` and `cdelt1` are its sampling. -/
def filePsf [FloorRing α] (ima : Img α) (cdelt1 cdelt2 fx fy wl deltaPix : α) : Img α × Img α :=
  let k := pixelKernel (deltaPix / (fx * wl * cdelt2)) (deltaPix / (fy * wl * cdelt1))
  (convolveSame ima k, k)

/-- `prf.max()` over the image. `exorad/models/instruments/photometer.py:199`, `spectrometer.py:222`. -/
def Img.max (m : Img α) : Except Exc α :=
  maxE ((List.range m.rows).flatMap (fun i => (List.range m.cols).map (fun j => m.px i j)))

/-- `prf.sum(axis=0)`. `exorad/models/instruments/spectrometer.py:222`. -/
def Img.colSum (m : Img α) (j : Nat) : α := ∑ i ∈ Finset.range m.rows, m.px i j

/-- `exorad/models/instruments/spectrometer.py:221-223`: the largest fraction of the light of a wavelength that
a pixel in the spatial direction gets, relative to the pixel response. -/
def gainPrf (prf kernel : Img α) : Except Exc α :=
  match maxE ((List.range kernel.cols).map kernel.colSum) with
  | .error e => .error e
  | .ok n => maxE ((List.range prf.cols).map (fun j => prf.colSum j / n))

end kernel

section select
variable {α : Type} [Field α] [LinearOrder α]

/-- `np.argmin`: the first position of the smallest entry. ValueError if there is none. `exorad/utils/exolib.py:230`, `:296`. -/
def argmin : List α → Except Exc Nat
  | [] => .error .valueError
  | a :: l => match argmin l with
    | .error _ => .ok 0
    | .ok i => match l[i]? with
      | some v => if a ≤ v then .ok 0 else .ok (i + 1)
      | none => .ok 0

/-- `exorad/utils/exolib.py:224-236` and `290-300`: of the files of a directory (sorted by name, with their
`WAVELEN`) the one with the wavelength next to `wl`. -/
def nearestFile {β : Type} (files : List (α × β)) (wl : α) : Except Exc β :=
  match argmin (files.map (fun f => |f.1 - wl|)) with
  | .error e => .error e
  | .ok i => match files[i]? with
    | some f => .ok f.2
    | none => .error .indexError

/-- What `load_paos_psf` returns (exolib.py:305-320); `ima` is flattened. -/
structure Paos (α : Type) where
  ima : List α
  dx : α
  dy : α
  extent : List α
  fratio : α
deriving DecidableEq

/-- `interp1d([x0, x1], [y0, y1], fill_value="extrapolate")(x)`. The points are sorted first. `exorad/utils/exolib.py:323-382`. -/
def line2 (x0 x1 y0 y1 x : α) : α :=
  if x0 ≤ x1 then (y1 - y0) / (x1 - x0) * (x - x0) + y0 else (y0 - y1) / (x0 - x1) * (x - x1) + y1

/-- Python `l[i]` with `i` possibly negative. `exorad/utils/exolib.py:323-382`. -/
def pyIndex {β : Type} (l : List β) (i : Int) : Except Exc β :=
  let j := if i < 0 then i + l.length else i
  if j < 0 then .error .indexError else match l[j.toNat]? with
    | some v => .ok v
    | none => .error .indexError

/-- exolib.py:354-381. Images of different size cannot be stacked: ValueError. -/
def blend (w0 w1 : α) (p0 p1 : Paos α) (wl : α) : Except Exc (Paos α) :=
  if p0.ima.length = p1.ima.length ∧ p0.extent.length = p1.extent.length then
    .ok ⟨List.zipWith (fun a b => line2 w0 w1 a b wl) p0.ima p1.ima, line2 w0 w1 p0.dx p1.dx wl,
      line2 w0 w1 p0.dy p1.dy wl, List.zipWith (fun a b => line2 w0 w1 a b wl) p0.extent p1.extent,
      line2 w0 w1 p0.fratio p1.fratio wl⟩
  else .error .valueError

/-- exolib.py:337-343: the second neighbour of the wavelength `wl`, `i0` being the position of the next one. -/
def secondIndex (lo hi w0 wl : α) (i0 : Nat) : Int :=
  if lo ≤ wl ∧ wl ≤ hi then (if w0 - wl > 0 then (i0 : Int) - 1 else (i0 : Int) + 1)
  else (if w0 - wl > 0 then (i0 : Int) + 1 else (i0 : Int) - 1)

/-- exolib.py:324-345: the two wavelengths used. -/
def neighbours (ws : List α) (wl : α) : Except Exc (α × α) :=
  let ws := ws.insertionSort (· ≤ ·)
  if ws.length = 1 then .error .valueError
  else match argmin (ws.map (fun w => |w - wl|)) with
    | .error e => .error e
    | .ok i0 => match pyIndex ws i0, minE ws, maxE ws with
      | .ok w0, .ok lo, .ok hi =>
        match pyIndex ws (secondIndex lo hi w0 wl i0) with
        | .error e => .error e
        | .ok w1 => .ok (w0, w1)
      | _, _, _ => .error .indexError

/-- `exorad/utils/exolib.py:323-381` `interpolate_paos_psf`. `fd` holds a PSF for every wavelength; the names of the
groups are taken to be `str` of their wavelength, so that `fd[f"{wl0}"]` finds the group. -/
def interpolatePaos (fd : Dict α (Paos α)) (wl : α) : Except Exc (Paos α) :=
  match neighbours (fd.map Prod.fst) wl with
  | .error e => .error e
  | .ok (w0, w1) => match fd.getE w0 with
    | .error e => .error e
    | .ok p0 => match fd.getE w1 with
      | .error e => .error e
      | .ok p1 => blend w0 w1 p0 p1 wl

/-- exolib.py:392-402: a stored wavelength is taken as it is. -/
def paosAt (fd : Dict α (Paos α)) (wl : α) : Except Exc (Paos α) :=
  match fd.get? wl with
  | some p => .ok p
  | none => interpolatePaos fd wl

end select

section aperture
variable {α : Type} [Field α] [LinearOrder α]

/-- `exorad/utils/exolib.py:499-505`: `fuel` rounds of the search. `enc i` is the energy within the radius `i`. The
points (energy, radius) are reversed. `none`: still searching. -/
def searchLoop (enc : Nat → α) (eec : α) : (fuel : Nat) → (i : Nat) → (last : α) → (acc : List (α × α)) → Option (List (α × α))
  | 0, _, _, _ => none
  | fuel + 1, i, last, acc =>
    if last < eec + 1 / 50 then searchLoop enc eec fuel (i + 1) (enc (i + 1)) ((enc (i + 1), ((i + 1 : Nat) : α)) :: acc)
    else some acc

/-- `interp1d(x, y)(v)` with the default arguments: ValueError outside the range of the points. `exorad/models/instruments/spectrometer.py:73`, `:253-258`. -/
def interpStrict (pts : List (α × α)) (v : α) : Except Exc α :=
  match minE (pts.map Prod.fst), maxE (pts.map Prod.fst) with
  | .ok lo, .ok hi => if v < lo ∨ hi < v then .error .valueError else .ok (interp pts v)
  | _, _ => .error .valueError

/-- `exorad/utils/exolib.py:478-508` `find_aperture_radius`. -/
def findApertureRadius (enc : Nat → α) (eec : α) (fuel : Nat) : Option (Except Exc α) :=
  match searchLoop enc eec fuel 0 0 [] with
  | none => none
  | some pts => some (interpStrict pts.reverse eec)

/-- The aperture of a photometer. `exorad/models/instruments/photometer.py:90-132`. -/
structure Aperture (α : Type) where
  radius : Option α := none
  enE : Option α := none

/-- What the size of the window of a photometer depends on. `exorad/models/instruments/photometer.py:90-132`. -/
structure Focal (α : Type) where
  fnumX : α
  fnumY : α
  wl : α
  deltaPix : α
  pixelBased : Bool

/-- Area in pixels of a radius given in units of the diffraction scale (photometer.py:97-104, 123-131). -/
def inPixels (f : Focal α) (r2 : α) : α :=
  if f.pixelBased then r2 else r2 * f.fnumX * f.wl * f.fnumY * f.wl / f.deltaPix ^ 2

/-- `exorad/models/instruments/photometer.py:90-132` `_windows_size`; `pi` is `np.pi`. UnboundLocalError when the
aperture has neither a radius nor an energy. -/
def photometerWindow (pi : α) (ap : Aperture α) (f : Focal α) (enc : Nat → α) (fuel : Nat) : Option (Except Exc α) :=
  match ap.radius with
  | some r => some (.ok (inPixels f (r ^ 2)))
  | none => match ap.enE with
    | none => some (.error .unboundLocalError)
    | some e => match findApertureRadius enc e fuel with
      | none => none
      | some (.error x) => some (.error x)
      | some (.ok r) => some (.ok (inPixels f (pi * r ^ 2)))

end aperture

section omega
open Real

/-- `mpmath.ellippi(n, m)`: the complete elliptic integral of the third kind. `exorad/utils/exolib.py:525-566`. -/
noncomputable def ellippi (n m : ℝ) : ℝ := ∫ t in (0 : ℝ)..(π / 2), 1 / ((1 - n * sin t ^ 2) * √(1 - m * sin t ^ 2))

/-- exolib.py:558-564. -/
noncomputable def coneFormula (a b : ℝ) : ℝ :=
  let A := 4 * 1 * b / (a * √(1 ^ 2 + a ^ 2))
  let k := √((a ^ 2 - b ^ 2) / (1 ^ 2 + a ^ 2))
  let alpha := √(1 - (b / a) ^ 2)
  2 * π - A * ellippi (alpha ^ 2) (k ^ 2)

/-- `exorad/utils/exolib.py:525-566` `OmegaPix`. -/
noncomputable def omegaPix (fx : ℝ) (fy : Option ℝ) : ℝ :=
  let fy := match fy with
    | none => fx
    | some v => if v = 0 then fx else v
  if fx > fy then coneFormula (1 / (2 * fy)) (1 / (2 * fx)) else coneFormula (1 / (2 * fx)) (1 / (2 * fy))

end omega

end ExoRad.Psf
