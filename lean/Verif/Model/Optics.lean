import Verif.Model.Diffuse
import Verif.Model.Misc

/-!
# `exorad/models/optics/`

`OpticalElement` and `OpticalPath`. Units are not carried, Planck's law is a parameter `B wl T`
(see `Model/Planck`), all elements of a path are evaluated on one wavelength grid.
-/

namespace ExoRad.Optics

open ExoRad.Diffuse

variable {α : Type} [Field α] [LinearOrder α]

/-- The `<opticalElement>` section of a payload, as loaded. `exorad/models/optics/opticalElement.py:62-83`. -/
structure Descr (α : Type) where
  value : String
  type : String
  data : Option (Dict String (List α)) := none
  use : Option String := none
  transmission : Option α := none
  reflectivity : Option α := none
  emissivity : Option α := none
  wlMin : Option α := none
  wlMax : Option α := none
  temperature : Option α := none
  solidAngle : Option α := none
  wlColName : Option String := none
  width : Option α := none

/-- `description[key]["value"]` as a number: KeyError for an absent key, TypeError for texts. `exorad/models/optics/opticalElement.py:121-138`, `:197-208`, `:281`. -/
def Descr.num (d : Descr α) (key : String) : Except Exc α :=
  let f (o : Option α) : Except Exc α := match o with | some v => .ok v | none => .error .keyError
  if key = "transmission" then f d.transmission
  else if key = "reflectivity" then f d.reflectivity
  else if key = "emissivity" then f d.emissivity
  else if key = "wl_min" then f d.wlMin
  else if key = "wl_max" then f d.wlMax
  else if key = "temperature" then f d.temperature
  else if key = "solid_angle" then f d.solidAngle
  else if key = "width" then f d.width
  else if key = "type" ∨ key = "value" ∨ key = "use" then .error .typeError
  else .error .keyError

/-- The wavelength column of a data table (lines 181-183, 254-256); indexing a table with `None` is a
ValueError. -/
def wlColumn (d : Descr α) (t : Dict String (List α)) : Except Exc (List α) :=
  match Misc.getWlColName t.keys (some (d.wlColName.map some)) with
  | .error e => .error e
  | .ok none => .error .valueError
  | .ok (some c) => t.getE c

/-- `interp1d(...)(wl)`, 0 outside (lines 185-193). -/
def evalTable (wl wcol vcol : List α) : List α := wl.map (Rebin.interp (wcol.zip vcol))

/-- The column of a data table used for the transmission (lines 165-178). -/
def trColumn (d : Descr α) (t : Dict String (List α)) : Except Exc String :=
  match d.use with
  | some c => .ok c
  | none =>
    if t.has "Transmission" then .ok "Transmission"
    else if t.has "Reflectivity" then .ok "Reflectivity"
    else .error .keyError

/-- A constant cut to `[wl_min, wl_max]` (lines 212-223). -/
def cut (d : Descr α) (c : α) (w : α) : α :=
  let c := match d.wlMin with | some m => if w < m then 0 else c | none => c
  match d.wlMax with | some m => if w > m then 0 else c | none => c

/-- `exorad/models/optics/opticalElement.py:140-228`. -/
def getTransmission (d : Descr α) (wl : List α) : Except Exc (List α) :=
  match d.data with
  | some t =>
    match trColumn d t with
    | .error e => .error e
    | .ok c =>
      match wlColumn d t with
      | .error e => .error e
      | .ok wcol =>
        match t.getE c with
        | .error e => .error e
        | .ok vcol => .ok (evalTable wl wcol vcol)
  | none =>
    match d.transmission, d.reflectivity with
    | some _, some _ =>
      match d.use with
      | none => .error .keyError
      | some key =>
        match d.num key with
        | .error e => .error e
        | .ok v => .ok (wl.map (fun _ => v))
    | some v, none => .ok (wl.map (cut d v))
    | none, some v => .ok (wl.map (cut d v))
    | none, none => .ok (wl.map (fun _ => 1))

/-- The emissivity column (lines 259-267). -/
def emColumn (t : Dict String (List α)) : Except Exc String :=
  if t.has "Emissivity" then .ok "Emissivity"
  else if t.has "emissivity" then .ok "emissivity"
  else .error .keyError

/-- `exorad/models/optics/opticalElement.py:230-289`. -/
def getEmissivity (d : Descr α) (wl : List α) : Except Exc (List α) :=
  match d.data with
  | some t =>
    match wlColumn d t with
    | .error e => .error e
    | .ok wcol =>
      match emColumn t with
      | .error e => .error e
      | .ok c =>
        match t.getE c with
        | .error e => .error e
        | .ok vcol => .ok (evalTable wl wcol vcol)
  | none =>
    match d.emissivity with
    | some v => .ok (wl.map (fun _ => v))
    | none => if d.type = "detector box" then .ok (wl.map (fun _ => 1)) else .ok (wl.map (fun _ => 0))

/-- `_get_position` (lines 105-119). -/
inductive Position where
  | detector | opticsBox | path
deriving DecidableEq, Repr

/-- `exorad/models/optics/opticalElement.py:105-119` `_get_position`. -/
def getPosition (type : String) : Position :=
  if type = "detector box" then .detector else if type = "optics box" then .opticsBox else .path

/-- An `OpticalElement` object. `exorad/models/optics/opticalElement.py:62-83`. -/
structure Element (α : Type) where
  name : String
  type : String
  transmission : List α
  emissivity : List α
  temperature : Option α
  position : Position
  angle : Option α
  width : Option α

/-- `exorad/models/optics/opticalElement.py:62-83`. -/
def mkElement (d : Descr α) (wl : List α) : Except Exc (Element α) :=
  match getTransmission d wl with
  | .error e => .error e
  | .ok tr =>
    match getEmissivity d wl with
    | .error e => .error e
    | .ok em => .ok ⟨d.value, d.type, tr, em, d.temperature, getPosition d.type, d.solidAngle, d.width⟩

/-! ## `OpticalPath` -/

/-- The `opticalElement` entry of the optics section: absent, one element (plain dict), or several. `exorad/models/optics/opticalPath.py:219-241`. -/
inductive Section (α : Type) where
  | absent
  | one (d : Descr α)
  | many (ds : Dict String (Descr α))

/-- `exorad/models/optics/opticalPath.py:219-241`. -/
def buildMany (wl : List α) : Dict String (Descr α) → Dict String (Element α) → Except Exc (Dict String (Element α))
  | [], out => .ok out
  | (k, d) :: ds, out =>
    match mkElement d wl with
    | .error e => .error e
    | .ok el => buildMany wl ds (out.set k el)

/-- The element standing for an optics section without any (lines 232-234). -/
def noElement : Descr α := { value := "noElement", type := "surface" }

/-- `exorad/models/optics/opticalPath.py:219-241` `_prepare_elements`. -/
def prepareElements (wl : List α) : Section α → Except Exc (Dict String (Element α))
  | .absent => buildMany wl [("noElement", noElement)] []
  | .one d => buildMany wl [(d.value, d)] []
  | .many ds => buildMany wl ds []

/-- `exorad/models/optics/opticalPath.py:205-217` `prepend_optical_elements`:
`OrderedDict(list(a.items()) + list(b.items()))`. -/
def prepend {β : Type} (common own : Dict String β) : Dict String β :=
  (common ++ own).foldl (fun d p => d.set p.1 p.2) []

/-- The loop of `exorad/models/optics/opticalPath.py:159-164`. -/
def trLoop : Dict String (Element α) → (table : Dict String (List α)) → (total : List α) →
    Dict String (List α) × List α
  | [], table, total => (table, total)
  | (k, el) :: els, table, total => trLoop els (table.set k el.transmission) (mulCol total el.transmission)

/-- `exorad/models/optics/opticalPath.py:148-168` `build_transmission_table`. -/
def transmissionTable (wl : List α) (els : Dict String (Element α)) : Dict String (List α) :=
  let r := trLoop els [("Wavelength", wl)] (wl.map (fun _ => 1))
  r.1.set "total" r.2

/-- An `InstRadiance` object (lines 56-70). -/
structure Rad (α : Type) where
  position : Position
  slit : Bool
  data : List α

/-- `surface_radiance` (lines 20-53): black body times emissivity. -/
def surfaceRadiance (B : α → α → α) (wl : List α) (T : α) (emissivity : List α) : List α :=
  mulCol emissivity (wl.map (fun w => B w T))

/-- Lines 270-276: pass one element's light through the elements after it. The width of a slit found on the
way is remembered; a slit without width is a KeyError. -/
def passThrough : Dict String (Element α) → Rad α → (slitWidth : Option α) → Except Exc (Rad α × Option α)
  | [], r, w => .ok (r, w)
  | (_, el) :: els, r, w =>
    let r := { r with data := mulCol r.data el.transmission }
    if el.type = "slit" then
      match el.width with
      | none => .error .keyError
      | some x => passThrough els { r with slit := true } (some x)
    else passThrough els r w

/-- `exorad/models/optics/opticalPath.py:243-281` `chain`: the radiance dictionary and `slit_width`. -/
def chain (B : α → α → α) (wl : List α) : Dict String (Element α) → (rads : Dict String (Rad α)) →
    (slitWidth : Option α) → Except Exc (Dict String (Rad α) × Option α)
  | [], rads, w => .ok (rads, w)
  | (_, el) :: els, rads, w =>
    match el.temperature with
    | none => chain B wl els rads w
    | some T =>
      match passThrough els ⟨el.position, false, surfaceRadiance B wl T el.emissivity⟩ w with
      | .error e => .error e
      | .ok (r, w) => chain B wl els (rads.set el.name r) w

/-- Lines 333-345: the solid angle over which the light of an element is collected. No radiance object
ever gets an `angle` attribute (lines 260-261 copy the position only), so the first branch is never
taken. -/
def solidAngle (pi omega : α) : Position → α
  | .detector => pi
  | .opticsBox => pi - omega
  | .path => omega

/-- Lines 310-349 for one radiance, given the quantum efficiency already on its grid. -/
def elementSignal [FloorRing α] (pi : α) (ch : Channel α) (wl : List α) (qe : Rebin.Signal α) (r : Rad α) :
    Except Exc (List α × List α) :=
  match r.slit, ch.slitWidth with
  | true, some w => convolveWithSlit ch w qe ⟨wl, r.data⟩
  | _, _ =>
    let data := mulCol r.data (List.zipWith (fun q w => ch.area * q * (w * ch.perPhoton)) qe.data qe.wl)
    .ok (integrateLight ch ⟨wl, data.map (fun v => v * solidAngle pi ch.omega r.position)⟩)

/-- State of the loop of `compute_signal`. `exorad/models/optics/opticalPath.py:283-364`. -/
structure SigState (α : Type) where
  qe : Rebin.Signal α
  signals : Dict String (List α)
  maxima : Dict String (List α)
  total : List α
  totalMax : List α

/-- Lines 308-355. -/
def signalLoop [FloorRing α] (pi : α) (ch : Channel α) (wl : List α) : Dict String (Rad α) → SigState α →
    Except Exc (SigState α)
  | [], s => .ok s
  | (k, r) :: rs, s =>
    match s.qe.spectralRebin wl with
    | .error e => .error e
    | .ok qe =>
      match elementSignal pi ch wl qe r with
      | .error e => .error e
      | .ok (m, sig) =>
        signalLoop pi ch wl rs
          ⟨qe, s.signals.set (k ++ " signal") sig, s.maxima.set k m, addCol s.total sig, addCol s.totalMax m⟩

/-- `exorad/models/optics/opticalPath.py:283-362` `compute_signal`: the new columns and the per-element
tables. `n` is the number of bins. -/
def computeSignal [FloorRing α] (pi : α) (ch : Channel α) (wl : List α) (qe : Rebin.Signal α) (n : Nat)
    (rads : Dict String (Rad α)) : Except Exc (SigState α) :=
  signalLoop pi ch wl rads ⟨qe, [], [], List.replicate n 0, List.replicate n 0⟩

end ExoRad.Optics
