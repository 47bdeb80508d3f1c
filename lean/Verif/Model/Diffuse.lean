import Verif.Model.Rebin
import Mathlib.Algebra.Order.Floor.Ring

/-!
# `exorad/utils/diffuse_light_propagation.py`

Numbers are elements of a linearly ordered field; units are not carried (all quantities in one
consistent set of units); an array operation on arrays of different length, a ValueError in numpy, keeps
the common part here (it does not arise for built channels, whose columns have one entry per bin).
-/

namespace ExoRad.Diffuse

variable {α : Type} [Field α] [LinearOrder α]

/-- Elementwise product of two columns. Used for `exorad/utils/diffuse_light_propagation.py:72-80`. -/
def mulCol (a b : List α) : List α := List.zipWith (· * ·) a b

/-- Elementwise sum of two columns. Used for the sums of `exorad/models/instruments/instrument.py:170-238` and `exorad/models/optics/opticalPath.py:290-350`. -/
def addCol (a b : List α) : List α := List.zipWith (· + ·) a b

/-- `np.trapz(y, x=x)`.
Used in `exorad/utils/diffuse_light_propagation.py:119`, `exorad/models/source.py:225-257`, `exorad/models/instruments/photometer.py:155-163`, `spectrometer.py:378-384`. -/
def trapz : List α → List α → α
  | x0 :: x1 :: xs, y0 :: y1 :: ys => (x1 - x0) * (y1 + y0) / 2 + trapz (x1 :: xs) (y1 :: ys)
  | _, _ => 0

/-- `np.convolve(a, np.ones(k), "same")` for `1 ≤ k ≤ len(a)`: the sum of `k` neighbours, `k // 2` of them
before the sample. Used in `exorad/utils/diffuse_light_propagation.py:90`. -/
def convSame (a : List α) (k : Nat) : List α :=
  (List.range a.length).map (fun i => ((a.take (i + (k - k / 2))).drop (i - k / 2)).sum)

/-- Samples of `v` whose wavelength lies in `(lo, hi]` (lines 93-98). -/
def inSlitBin (lo hi : α) (wl v : List α) : List α :=
  ((wl.zip v).filter (fun p => decide (lo < p.1) && decide (p.1 ≤ hi))).map Prod.snd

/-- A built channel as far as diffuse light is concerned. Read in `exorad/utils/diffuse_light_propagation.py:15-53`. -/
structure Channel (α : Type) where
  /-- `wl_pix_center`, `pixel_bandwidth` -/
  wlPix : List α
  dwlPix : List α
  /-- `slit_width` if present -/
  slitWidth : Option α
  deltaPix : α
  /-- `window_spatial_width` (spectrometers) -/
  spatialWidth : List α
  /-- `window_size_px` -/
  windowSize : List α
  /-- table columns `LeftBinEdge`, `RightBinEdge` -/
  left : List α
  right : List α
  /-- pixel area and solid angle (`prepare`, lines 14-53) -/
  area : α
  omega : α
  /-- `1 / (c h)` -/
  perPhoton : α

/-- `array.max()` for every bin, ValueError if one is empty (lines 107-113). -/
def maxPerBin : List (List α) → Except Exc (List α)
  | [] => .ok []
  | b :: bs =>
    match Rebin.maxE b with
    | .error e => .error e
    | .ok m =>
      match maxPerBin bs with
      | .error e => .error e
      | .ok ms => .ok (m :: ms)

/-- The bins of the channel table (lines 93-98). -/
def slitBins (ch : Channel α) (v : List α) : List (List α) :=
  List.zipWith (fun lo hi => inSlitBin lo hi ch.wlPix v) ch.left ch.right

/-- Lines 83-91: the number of pixels within the slit, `int(slit_width / delta_pix)`. -/
def slitPixels [FloorRing α] (w pix : α) : Nat := ⌊w / pix⌋.toNat

/-- Lines 62-91: the light in every pixel, before the slit. -/
def pixelLight (ch : Channel α) (qe rad : Rebin.Signal α) : Except Exc (List α) :=
  match rad.spectralRebin ch.wlPix with
  | .error e => .error e
  | .ok r =>
    let aomega := ch.wlPix.map (fun w => ch.omega * ch.area * Rebin.interp (qe.wl.zip qe.data) w * (w * ch.perPhoton))
    .ok (mulCol (mulCol r.data aomega) ch.dwlPix)

/-- Lines 83-114 given the light of every pixel. A slit narrower than a pixel gives an empty kernel
(ValueError); a slit wider than the spectrum gives an array longer than the pixel grid (IndexError). -/
def throughSlit [FloorRing α] (ch : Channel α) (w : α) (light : List α) : Except Exc (List α × List α) :=
  let k := slitPixels w ch.deltaPix
  if k = 0 then .error .valueError
  else if light.length < k then .error .indexError
  else
    let tmp := convSame light k
    let bins := slitBins ch tmp
    match maxPerBin bins with
    | .error e => .error e
    | .ok m => .ok (m, mulCol (bins.map List.sum) ch.spatialWidth)

/-- `exorad/utils/diffuse_light_propagation.py:56-114` `convolve_with_slit`: (maximum per pixel, signal). -/
def convolveWithSlit [FloorRing α] (ch : Channel α) (w : α) (qe rad : Rebin.Signal α) :
    Except Exc (List α × List α) :=
  match pixelLight ch qe rad with
  | .error e => .error e
  | .ok light => throughSlit ch w light

/-- `exorad/utils/diffuse_light_propagation.py:117-126` `integrate_light`: (maximum per pixel, signal). -/
def integrateLight (ch : Channel α) (rad : Rebin.Signal α) : List α × List α :=
  let s := trapz rad.wl rad.data
  (ch.windowSize.map (fun _ => s), ch.windowSize.map (fun w => s * w))

end ExoRad.Diffuse
