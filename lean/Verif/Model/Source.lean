import Verif.Model.Psf
import Verif.Model.Misc
import Mathlib.Analysis.SpecialFunctions.Log.Base

/-!
# Stars: `exorad/models/source.py`, `exorad/models/target.py` `calc_logg`, `exorad/tasks/loadSource.py`

Numbers are elements of a linearly ordered field; lengths are in metres, temperatures in K, wavelengths in µm,
luminosities in W (the code converts them to solar ones). `π`, the black body `B` (wavelength, temperature), `log g` and the
logarithmic grid are parameters, instantiated with `Real.pi`, `ExoRad.planck`, `calcLogg` and `Instrument.logspace`
in the theorems. Texts are lowered letter by letter for ASCII only.
-/

namespace ExoRad.Source

open ExoRad.Diffuse

variable {α : Type} [Field α] [LinearOrder α]

/-- `s.lower()`, ASCII letters. `exorad/tasks/loadSource.py:49-180`. -/
def lower (s : String) : String := String.ofList (s.toList.map Char.toLower)

/-- `np.round(x)`: the nearest integer, half to even. `exorad/models/source.py:110-143`. -/
def roundEven [FloorRing α] (x : α) : α :=
  let f := ⌊x⌋
  let r : Int := if x - f < 1 / 2 then f else if 1 / 2 < x - f then f + 1 else if f % 2 = 0 then f else f + 1
  (r : α)

/-- `np.linspace(a, b, n)`. `exorad/models/source.py:64`. -/
def linspace (a b : α) (n : Nat) : List α := (List.range n).map (fun k : Nat => a + (k : α) * ((b - a) / ((n : α) - 1)))

/-- The attribute `model`. `exorad/models/source.py:37-93`, `:251-269`. -/
inductive Kind where
  | planck
  | phoenix (file : String)
  | custom
deriving DecidableEq, Repr

/-- A `Star` or `CustomSed`: the attributes `sed`, `luminosity`, `model`. `exorad/models/source.py:37-93`, `:251-269`. -/
structure Built (α : Type) where
  sed : Rebin.Signal α
  luminosity : α
  model : Kind

/-- The constants and functions the code takes from its libraries.
Used in `exorad/models/source.py:145-269`, `exorad/models/target.py:26-32`, `exorad/utils/exolib.py:167-190`. -/
structure Consts (α : Type) where
  pi : α
  B : α → α → α
  logg : α → α → α

/-- `exorad/models/target.py:26-32` `calc_logg`: the logarithm of the surface gravity in cm s⁻², for M in kg and R in m. -/
noncomputable def calcLogg (M R : ℝ) : ℝ := Real.logb 10 (6.6743e-11 * M / R ^ 2 * 100)

/-- The star as far as the source needs it; `none` for an attribute that is missing or is not a quantity. `exorad/tasks/loadSource.py:49-180`. -/
structure StarData (α : Type) where
  D : Option α := none
  Teff : Option α := none
  M : Option α := none
  R : Option α := none

/-- `exorad/models/source.py:62-72, 238-247`: a black body of 10000 points, seen under the star's solid angle. -/
def planckStar (c : Consts α) (D T R lo hi : α) : Except Exc (Built α) :=
  let wl := linspace lo hi 10000
  let sed := wl.map (fun w => c.pi * (R / D) ^ 2 * c.B w T)
  match Rebin.Signal.mk? wl sed with
  | .error e => .error e
  | .ok s => .ok ⟨s, 4 * c.pi * D ^ 2 * trapz wl sed, .planck⟩

/-! ## The stellar library -/

/-- `float(...)` of a piece of a file name: ValueError. `exorad/models/source.py:95-143`. -/
def toFloat (float : List Char → Option α) (s : List Char) : Except Exc α :=
  match float s with
  | some v => .ok v
  | none => .error .valueError

/-- `name.split("-")[i]`: IndexError. `exorad/models/source.py:95-143`. -/
def piece (name : String) (i : Nat) : Except Exc (List Char) :=
  match (Misc.splitOn '-' name.toList)[i]? with
  | some s => .ok s
  | none => .error .indexError

/-- source.py:116-118: the temperature (in 100 K) of a file name, `lte060.0-4.5-0.0...` gives 60. -/
def fileT (float : List Char → Option α) (name : String) : Except Exc α :=
  match piece name 0 with
  | .error e => .error e
  | .ok s => toFloat float (s.drop 3)

/-- source.py:119-121: the gravity of a file name. -/
def fileG (float : List Char → Option α) (name : String) : Except Exc α :=
  match piece name 1 with
  | .error e => .error e
  | .ok s => toFloat float s

/-- source.py:122-124: the metallicity of a file name. -/
def fileZ (float : List Char → Option α) (name : String) : Except Exc α :=
  match piece name 2 with
  | .error e => .error e
  | .ok s => toFloat float (s.take 3)

/-- A list comprehension whose body may raise. `exorad/models/source.py:95-143`. -/
def mapE {β γ : Type} (f : β → Except Exc γ) : List β → Except Exc (List γ)
  | [] => .ok []
  | b :: bs =>
    match f b with
    | .error e => .error e
    | .ok c =>
      match mapE f bs with
      | .error e => .error e
      | .ok cs => .ok (c :: cs)

/-- source.py:116-124: the three lists. -/
def parseFiles (float : List Char → Option α) (files : List String) : Except Exc (List α × List α × List α) :=
  match mapE (fileT float) files with
  | .error e => .error e
  | .ok ts =>
    match mapE (fileG float) files with
    | .error e => .error e
    | .ok gs =>
      match mapE (fileZ float) files with
      | .error e => .error e
      | .ok zs => .ok (ts, gs, zs)

/-- source.py:135-139: the distances. -/
def distances (ts gs zs : List α) (t g z : α) : List α :=
  List.zipWith (· + ·) (List.zipWith (· + ·) (ts.map (fun x => |x - t|)) (gs.map (fun x => |x - g|))) (zs.map (fun x => |x - z|))

/-- source.py:126-141: the file for a (rounded) temperature `t` in 100 K, gravity and metallicity. -/
def chooseFile (files : List String) (ts gs zs : List α) (t g z : α) : Except Exc String :=
  match Rebin.minE ts with
  | .error e => .error e
  | .ok lo =>
    match Rebin.maxE ts with
    | .error e => .error e
    | .ok hi =>
      if t < lo ∨ t > hi then .error .valueError
      else
        match Psf.argmin (distances ts gs zs t g z) with
        | .error e => .error e
        | .ok i =>
          match files[i]? with
          | some f => .ok f
          | none => .error .indexError

/-- `exorad/models/source.py:95-143`: the model file; OSError without files. `files` are the base names matching
`*.BT-Settl.spec.fits.gz`, in the order of `glob`. -/
def phoenixFile [FloorRing α] (float : List Char → Option α) (files : List String) (T g z : α) : Except Exc String :=
  if files = [] then .error .osError
  else
    match parseFiles float files with
    | .error e => .error e
    | .ok (ts, gs, zs) => chooseFile files ts gs zs (roundEven (T / 100)) g z

/-- source.py:220-223: a sample is kept if the next one has another wavelength. -/
def keepChanges : List (α × α) → List (α × α)
  | p :: q :: l => if q.1 - p.1 = 0 then keepChanges (q :: l) else p :: keepChanges (q :: l)
  | _ => []

/-- `exorad/models/source.py:145-236`: a star with the spectrum of a file (wavelengths, surface flux). -/
def phoenixStar (c : Consts α) (pts : List (α × α)) (D R : α) (file : String) : Except Exc (Built α) :=
  let wl := (keepChanges pts).map Prod.fst
  let flux := (keepChanges pts).map Prod.snd
  match Rebin.Signal.mk? wl (flux.map (fun f => f * (R / D) ^ 2)) with
  | .error e => .error e
  | .ok s => .ok ⟨s, 4 * c.pi * R ^ 2 * trapz wl flux, .phoenix file⟩

/-- `exorad/models/source.py:250-269` `CustomSed`. -/
def customStar (c : Consts α) (wl flux : List α) (D R : α) : Except Exc (Built α) :=
  match Rebin.Signal.mk? wl (flux.map (fun f => f * (R / D) ^ 2)) with
  | .error e => .error e
  | .ok s => .ok ⟨s, 4 * c.pi * R ^ 2 * trapz wl flux, .custom⟩

/-! ## `LoadSource` -/

/-- The `<sourceSpectrum>` section. `bytes`: its texts come from an HDF5 file (`item[()]` gives bytes, which equal no
text). `exorad/tasks/loadSource.py:49-180`. -/
structure Descr where
  value : String
  bytes : Bool := false
  stellarModels : Option String := none
  customSed : Option String := none

/-- The files and the environment. `exorad/tasks/loadSource.py:49-180`, `exorad/models/source.py:95-236`. -/
structure Env (α : Type) where
  phoenixPath : Option String
  pathExists : String → Bool
  glob : String → List String
  float : List Char → Option α
  phoenix : String → String → Except Exc (List (α × α))
  custom : String → Except Exc (List α × List α)

/-- `source["value"].lower() == name`. `exorad/tasks/loadSource.py:49-180`. -/
def Descr.is (d : Descr) (name : String) : Bool := !d.bytes && decide (lower d.value = name)

/-- A wavelength as given: a number or a quantity with a unit (its size in µm). `wl_range` (`exorad/tasks/loadSource.py:60-72`). -/
structure Wl (α : Type) where
  v : α
  unit : Option α

/-- In µm. `exorad/tasks/loadSource.py:60-72`. -/
def Wl.um (w : Wl α) : α := w.v * w.unit.getD 1

/-- loadSource.py:57-59: `wl_min > wl_max`, and swap. A number cannot be compared with a quantity
(UnitConversionError, a TypeError). -/
def sortRange (a b : Wl α) : Except Exc (Wl α × Wl α) :=
  match a.unit, b.unit with
  | none, none => if a.v > b.v then .ok (b, a) else .ok (a, b)
  | some _, some _ => if a.um > b.um then .ok (b, a) else .ok (a, b)
  | _, _ => .error .typeError

/-- loadSource.py:112-123: the directory of the stellar models. -/
def modelPath (env : Env α) (d : Descr) : Except Exc String :=
  match (match d.stellarModels with | some p => some p | none => env.phoenixPath) with
  | none => .error .osError
  | some p => if env.pathExists p then .ok p else .error .osError

/-- A star of the library (loadSource.py:125-138). -/
def libraryStar [FloorRing α] (c : Consts α) (env : Env α) (path : String) (D T M R : α) : Except Exc (Built α) :=
  match phoenixFile env.float (env.glob path) T (c.logg M R) 0 with
  | .error e => .error e
  | .ok f =>
    match env.phoenix path f with
    | .error e => .error e
    | .ok pts => phoenixStar c pts D R f

/-- loadSource.py:111-156: a library star, or a black body if a ValueError was raised. -/
def phoenixOrPlanck [FloorRing α] (c : Consts α) (env : Env α) (d : Descr) (D T M R lo hi : α) : Except Exc (Built α) :=
  match modelPath env d with
  | .error e => .error e
  | .ok p =>
    match libraryStar c env p D T M R with
    | .error .valueError => planckStar c D T R lo hi
    | r => r

/-- loadSource.py:74-85: the custom source; only D and R are needed. -/
def customSource (c : Consts α) (env : Env α) (d : Descr) (s : StarData α) : Except Exc (Built α) :=
  match s.D, s.R with
  | some D, some R =>
    match d.customSed with
    | none => .error .keyError
    | some f =>
      match env.custom f with
      | .error e => .error e
      | .ok (wl, flux) => customStar c wl flux D R
  | _, _ => .error .attributeError

/-- loadSource.py:74-173: the star before rebinning, for the range `lo`, `hi` in µm. -/
def buildStar [FloorRing α] (c : Consts α) (env : Env α) (d : Descr) (s : StarData α) (lo hi : α) : Except Exc (Built α) :=
  if d.is "custom" then customSource c env d s
  else
    match s.D, s.Teff, s.M, s.R with
    | some D, some T, some M, some R =>
      if d.is "planck" then planckStar c D T R lo hi
      else if d.is "phoenix" then phoenixOrPlanck c env d D T M R lo hi
      else planckStar c D T R lo hi
    | _, _, _, _ => .error .attributeError

/-- loadSource.py:65-72, 175: rebin onto the working grid, `grid a b` on the bare values of the range with the unit of its upper
end (the lower end is not converted); a grid not in µm is a ValueError of `rebin` (exolib.py:38-42). -/
def toGrid (grid : α → α → List α) (a b : Wl α) (s : Built α) : Except Exc (Built α) :=
  if b.unit.getD 1 ≠ 1 then .error .valueError
  else
    match s.sed.spectralRebin (grid a.v b.v) with
    | .error e => .error e
    | .ok r => .ok { s with sed := r }

/-- `exorad/tasks/loadSource.py:49-180` `LoadSource`: what the target's star gets. -/
def loadSource [FloorRing α] (c : Consts α) (env : Env α) (grid : α → α → List α) (d : Descr) (s : StarData α) (a b : Wl α) :
    Except Exc (Built α) :=
  match sortRange a b with
  | .error e => .error e
  | .ok (a, b) =>
    match buildStar c env d s a.um b.um with
    | .error e => .error e
    | .ok st => toGrid grid a b st

end ExoRad.Source
