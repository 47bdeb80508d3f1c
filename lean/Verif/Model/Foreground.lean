import Verif.Model.Psf

/-!
# Foregrounds: `exorad/tasks/foregroundHandler.py`, `exorad/models/foregrounds/` and
`exorad/models/instruments/instrument.py` `propagate_diffuse_foreground`

Numbers are elements of a linearly ordered field and units are not carried. The black body is a parameter `B`
(wavelength, temperature), instantiated with `ExoRad.planck` in the theorems about zodiacal light. Array operations on
arrays of different length are a ValueError.
-/

namespace ExoRad.Foreground

open ExoRad.Diffuse

variable {α : Type} [Field α] [LinearOrder α]

/-- A `<foreground>` section of the payload, as loaded: `value`, the table `data`, and the keys of the zodiacal
model. `zodiacalMap` is the truth value of its text. `exorad/tasks/foregroundHandler.py:36-86`, `:93-130`, `exorad/models/foregrounds/zodiacalForeground.py:32-64`. -/
structure Descr (α : Type) where
  value : String
  data : Option (Dict String (List α)) := none
  zodiacalMap : Option Bool := none
  mapFile : Option String := none
  factor : Option α := none

/-- `Radiance` (zodiacal light, no transmission) or `SkyFilter` (skyForegrounds.py:7-17). -/
structure Filter (α : Type) where
  rad : Rebin.Signal α
  transmission : Option (List α)

/-- What a target carries about the sky: the star's coordinates and the attributes `foreground` and
`skyTransmission`, which may be absent. `exorad/tasks/foregroundHandler.py:93-130`, `:149-190`. -/
structure Sky (α : Type) where
  ra : Option α := none
  dec : Option α := none
  foreground : Option (Dict String (Filter α)) := none
  transmission : Option (Rebin.Signal α) := none

/-! ## Custom foregrounds -/

/-- `interp1d(..., assume_sorted=False, fill_value=fill, bounds_error=False)(x)`. `exorad/models/foregrounds/skyForegrounds.py:31-50`. -/
def interpFill (fill : α) (pts : List (α × α)) (x : α) : α :=
  match pts.insertionSort (fun p q => p.1 ≤ q.1) with
  | [] => fill
  | lo :: rest => if x < lo.1 then fill else if Rebin.lastX lo rest < x then fill else Rebin.segment lo rest x

/-- `exorad/models/foregrounds/skyForegrounds.py:28-53`: the radiance (0 outside the table) and the transmission (1
outside the table) on the grid `wl`. KeyError for a missing table or column. -/
def skyForeground (wl : List α) (d : Descr α) : Except Exc (Filter α) :=
  match d.data with
  | none => .error .keyError
  | some t =>
    match t.getE "Wavelength" with
    | .error e => .error e
    | .ok w =>
      match t.getE "Radiance" with
      | .error e => .error e
      | .ok r =>
        match t.getE "Transmission" with
        | .error e => .error e
        | .ok tr =>
          .ok ⟨⟨wl, wl.map (interpFill 0 (w.zip r))⟩, some (wl.map (interpFill 1 (w.zip tr)))⟩

/-- `target.foreground[name] = f`, creating the dictionary if needed (foregroundHandler.py:63-65, 109-111). -/
def addForeground (s : Sky α) (name : String) (f : Filter α) : Sky α :=
  { s with foreground := some (Dict.set (s.foreground.getD []) name f) }

/-- foregroundHandler.py:112-121: the first custom foreground sets the sky transmission, the next ones multiply
it. ValueError for arrays of different lengths. -/
def attenuate (s : Sky α) (wl tr : List α) : Sky α × Except Exc Unit :=
  match s.transmission with
  | none => ({ s with transmission := some ⟨wl, tr⟩ }, .ok ())
  | some t =>
    if t.data.length = tr.length then ({ s with transmission := some ⟨t.wl, mulCol t.data tr⟩ }, .ok ())
    else (s, .error .valueError)

/-- `exorad/tasks/foregroundHandler.py:93-122` `EstimateForeground` on the working grid `wl` (lines 99-106, see
`Instrument.logspace`): the target afterwards, and whether an exception was raised. -/
def estimateForeground (wl : List α) (d : Descr α) (s : Sky α) : Sky α × Except Exc Unit :=
  match skyForeground wl d with
  | .error e => (s, .error e)
  | .ok f => attenuate (addForeground s d.value f) wl (f.transmission.getD [])

/-! ## Zodiacal light -/

/-- The files a zodiacal map may come from: `file path` is `none` if there is no such file, and otherwise the result
of reading the columns `ra_icrs`, `dec_icrs`, `zodi_coeff`. `searched` is the path found by climbing the
directories (lines 98-114). -/
structure MapFiles (α : Type) where
  file : String → Option (Except Exc (List (α × α × α)))
  packaged : String
  searched : String

/-- zodiacalForeground.py:91-131: which map is read; OSError if it cannot be. -/
def readMap (m : MapFiles α) (custom : Option String) : Except Exc (List (α × α × α)) :=
  let p := match custom with
    | some f => if f = "" then m.packaged else f
    | none => m.packaged
  let p := if (m.file p).isNone then m.searched else p
  match m.file p with
  | none => .error .osError
  | some r => r

/-- zodiacalForeground.py:120-127: the coefficient of the entry at the smallest distance. -/
def mapCoefficient (rows : List (α × α × α)) (ra dec : α) : Except Exc α :=
  match Psf.argmin (rows.map (fun r => (r.1 - ra) ^ 2 + (r.2.1 - dec) ^ 2)) with
  | .error e => .error e
  | .ok i =>
    match rows[i]? with
    | none => .error .indexError
    | some r => .ok r.2.2

/-- zodiacalForeground.py:78-131 `zodiacal_fit_direction`. -/
def fitDirection (m : MapFiles α) (custom : Option String) (ra dec : α) : Except Exc α :=
  match readMap m custom with
  | .error e => .error e
  | .ok rows => mapCoefficient rows ra dec

/-- zodiacalForeground.py:38-62: the coefficient `A`. After a failed fit (KeyError, OSError) the recursive call's
result is dropped and `A` is unbound. -/
def zodiCoefficient (m : MapFiles α) (d : Descr α) (coord : Option (α × α)) : Except Exc α :=
  match d.zodiacalMap, coord with
  | some true, some (ra, dec) =>
    match fitDirection m d.mapFile ra dec with
    | .ok a => .ok a
    | .error .keyError => .error .unboundLocalError
    | .error .osError => .error .unboundLocalError
    | .error e => .error e
  | _, _ =>
    match d.factor with
    | some a => .ok a
    | none => .ok 0

/-- zodiacalForeground.py:66-76 `model` at one wavelength; `3.5e-14` and `3.58e-8` as fractions. -/
def zodiModel (B : α → α → α) (a w : α) : α :=
  a * (35 / 10 ^ 15 * B w 5500 + 358 / 10 ^ 10 * B w 270)

/-- foregroundHandler.py:51-61: the coordinates passed on; KeyError for `ra` without `dec`. -/
def coordinates (s : Sky α) : Except Exc (Option (α × α)) :=
  match s.ra, s.dec with
  | some ra, some dec => .ok (some (ra, dec))
  | some _, none => .error .keyError
  | none, _ => .ok none

/-- `exorad/tasks/foregroundHandler.py:36-66` `EstimateZodi`. -/
def estimateZodi (B : α → α → α) (m : MapFiles α) (wl : List α) (d : Descr α) (s : Sky α) : Sky α × Except Exc Unit :=
  match coordinates s with
  | .error e => (s, .error e)
  | .ok c =>
    match zodiCoefficient m d c with
    | .error e => (s, .error e)
    | .ok a => (addForeground s "zodi" ⟨⟨wl, wl.map (zodiModel B a)⟩, none⟩, .ok ())

/-! ## All of them -/

/-- `payload["common"]["foreground"]`: an OrderedDict for several sections, the section itself for one. `exorad/tasks/foregroundHandler.py:149-183`. -/
inductive Section (α : Type) where
  | many (d : Dict String (Descr α))
  | single (d : Descr α)

/-- foregroundHandler.py:158-171: one foreground, by its key. -/
def estimateOne (B : α → α → α) (m : MapFiles α) (wl : List α) (key : String) (d : Descr α) (s : Sky α) :
    Sky α × Except Exc Unit :=
  if key = "zodiacal" then estimateZodi B m wl d s else estimateForeground wl d s

/-- foregroundHandler.py:159-171: the loop, stopping at the first exception. -/
def estimateLoop (B : α → α → α) (m : MapFiles α) (wl : List α) : Dict String (Descr α) → Sky α → Sky α × Except Exc Unit
  | [], s => (s, .ok ())
  | (k, d) :: ds, s =>
    match estimateOne B m wl k d s with
    | (s, .error e) => (s, .error e)
    | (s, .ok _) => estimateLoop B m wl ds s

/-- `exorad/tasks/foregroundHandler.py:149-183` `EstimateForegrounds`. -/
def estimateForegrounds (B : α → α → α) (m : MapFiles α) (wl : List α) (sec : Section α) (s : Sky α) :
    Sky α × Except Exc Unit :=
  match sec with
  | .many ds => estimateLoop B m wl ds s
  | .single d => estimateOne B m wl d.value d s

/-! ## Propagation through a channel -/

/-- `a *= b` on arrays. `exorad/tasks/foregroundHandler.py:121`. -/
def mulData (a b : List α) : Except Exc (List α) :=
  if a.length = b.length then .ok (mulCol a b) else .error .valueError

/-- instrument.py:217-231: the light of one foreground (radiance after the optics) on the detector, without a slit, and the
quantum efficiency as rebinned. -/
def slitless (ch : Channel α) (qe rad : Rebin.Signal α) : Except Exc (Rebin.Signal α × List α × List α) :=
  match qe.spectralRebin rad.wl with
  | .error e => .error e
  | .ok q =>
    match mulData rad.data (List.zipWith (fun w v => ch.omega * ch.area * v * (w * ch.perPhoton)) q.wl q.data) with
    | .error e => .error e
    | .ok d => .ok (q, integrateLight ch ⟨rad.wl, d⟩)

/-- instrument.py:206-231: (quantum efficiency afterwards, maximum per pixel, signal). -/
def detect [FloorRing α] (ch : Channel α) (qe rad : Rebin.Signal α) : Except Exc (Rebin.Signal α × List α × List α) :=
  match ch.slitWidth with
  | some w =>
    match convolveWithSlit ch w qe rad with
    | .error e => .error e
    | .ok r => .ok (qe, r)
  | none => slitless ch qe rad

/-- instrument.py:189-237: the loop over the (reversed) foregrounds. `hasattr(frg, "transmission")` (line 194) asks
the key, a text, and is False. Transmission and quantum efficiency stay rebinned for the next round. -/
def propagateLoop [FloorRing α] (ch : Channel α) : List (String × Filter α) → (qe tr : Rebin.Signal α) →
    (out : Dict String (List α)) → Except Exc (Dict String (List α))
  | [], _, _, out => .ok out
  | (k, f) :: fs, qe, tr, out =>
    match tr.spectralRebin f.rad.wl with
    | .error e => .error e
    | .ok tr =>
      match mulData f.rad.data tr.data with
      | .error e => .error e
      | .ok data =>
        match detect ch qe ⟨f.rad.wl, data⟩ with
        | .error e => .error e
        | .ok (qe, m, sig) =>
          propagateLoop ch fs qe tr (Dict.set (Dict.set out (k ++ "_signal") sig) (k ++ "_MaxSignal_inPixel") m)

/-- `exorad/models/instruments/instrument.py:170-238` `propagate_diffuse_foreground`: the columns of the table. AttributeError
for a target without foregrounds. -/
def propagate [FloorRing α] (ch : Channel α) (qe tr : Rebin.Signal α) (s : Sky α) : Except Exc (Dict String (List α)) :=
  match s.foreground with
  | none => .error .attributeError
  | some fs => propagateLoop ch fs.reverse qe tr []

end ExoRad.Foreground
