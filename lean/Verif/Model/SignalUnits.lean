import Verif.Model.Rebin
import Verif.Model.Source

/-!
# `exorad/models/signal.py`: signals, their units and their shapes

The constructors of `Signal` and its subclasses with the units of what they are given. A unit is its
dimension (exponents of the base units astropy does not take apart) and its size in base units; astropy
calls two units equal when both agree. Arrays are their shape and their values. Numbers are elements of a
field, without rounding.
-/

namespace ExoRad.SignalUnits

open Rebin

variable {α : Type} [Field α] [LinearOrder α]

/-- Exponents of the base units a unit of `exorad/models/signal.py:57-59`, `:207-236` is made of:
metre, kilogram, second, kelvin, radian, count, electron. -/
structure Dim where
  m : ℚ := 0
  kg : ℚ := 0
  s : ℚ := 0
  K : ℚ := 0
  rad : ℚ := 0
  ct : ℚ := 0
  electron : ℚ := 0
  deriving DecidableEq

/-- An astropy unit as `check_quantities` sees it (`exorad/models/signal.py:96-100`). -/
structure Unit (α : Type) where
  dim : Dim
  size : α
  deriving DecidableEq

/-- `"um"` (`exorad/models/signal.py:57`). -/
def um : Unit α := ⟨{ m := 1 }, 1 / 1000000⟩

/-- `""` (`exorad/models/signal.py:58`). -/
def one : Unit α := ⟨{}, 1⟩

/-- `"hr"` (`exorad/models/signal.py:59`). -/
def hr : Unit α := ⟨{ s := 1 }, 3600⟩

/-- The metre (`exorad/models/signal.py:213`, `exorad/models/source.py:259-264`). -/
def metre : Unit α := ⟨{ m := 1 }, 1⟩

/-- The watt (`exorad/models/signal.py:213`). -/
def watt : Unit α := ⟨{ kg := 1, m := 2, s := -3 }, 1⟩

/-- The steradian (`exorad/models/signal.py:222-224`): a square radian. -/
def steradian : Unit α := ⟨{ rad := 2 }, 1⟩

/-- Quotient of dimensions (`exorad/models/signal.py:213`). -/
def Dim.div (a b : Dim) : Dim :=
  ⟨a.m - b.m, a.kg - b.kg, a.s - b.s, a.K - b.K, a.rad - b.rad, a.ct - b.ct, a.electron - b.electron⟩

/-- `a / b` of units (`exorad/models/signal.py:213`, `:222-224`). -/
def Unit.div (a b : Unit α) : Unit α := ⟨a.dim.div b.dim, a.size / b.size⟩

/-- `u.W / u.m**2 / u.um` (`exorad/models/signal.py:213`). -/
def sedUnit : Unit α := ((watt.div metre).div metre).div um

/-- `u.W / u.m**2 / u.um / u.sr` (`exorad/models/signal.py:222-224`). -/
def radianceUnit : Unit α := (((watt.div metre).div metre).div um).div steradian

/-- `"ct/s"` (`exorad/models/signal.py:233`). -/
def countsUnit : Unit α := Unit.div ⟨{ ct := 1 }, 1⟩ ⟨{ s := 1 }, 1⟩

/-- `u.hr**0.5` (`exorad/models/noise.py:233`). -/
def noiseUnit : Unit α := ⟨{ s := 1 / 2 }, 60⟩

/-- The classes of `exorad/models/signal.py:9-236` and `exorad/models/noise.py:227-233`. -/
inductive Class (α : Type) where
  | signal
  | custom (unit : Unit α)
  | sed
  | radiance
  | countsPerSeconds
  | noise

/-- The unit the data of a class are kept in (`exorad/models/signal.py:58`, `:203`, `:213`, `:222-224`,
`:233`, `exorad/models/noise.py:233`). -/
def Class.unit : Class α → Unit α
  | .signal => one
  | .custom v => v
  | .sed => sedUnit
  | .radiance => radianceUnit
  | .countsPerSeconds => countsUnit
  | .noise => noiseUnit

/-- A numpy array: `.shape` and the values in memory order (`exorad/models/signal.py:120`, `:127-151`). -/
structure Arr (α : Type) where
  shape : List ℕ
  vals : List α

/-- An argument of a constructor (`exorad/models/signal.py:96`, `:115`): a Quantity, or numbers without a
unit. -/
inductive Arg (α : Type) where
  | bare (a : Arr α)
  | quantity (a : Arr α) (unit : Unit α)

/-- The array of an argument (`exorad/models/signal.py:97`, `:120`). -/
def Arg.arr : Arg α → Arr α
  | .bare a => a
  | .quantity a _ => a

/-- `Quantity.to`: the same quantity in units of another size (`exorad/models/signal.py:99`). -/
def convert (a : Arr α) (old new : Unit α) : Arr α := ⟨a.shape, a.vals.map (fun v => v * (old.size / new.size))⟩

/-- `exorad/models/signal.py:76-121` `check_quantities`: a UnitConversionError (a ValueError) when the
dimensions differ. The result is in units of `new`. -/
def checkQuantities (x : Arg α) (new : Unit α) : Except Exc (Arr α) :=
  match x with
  | .bare a => .ok a
  | .quantity a old =>
    if old = new then .ok a
    else if old.dim = new.dim then .ok (convert a old new)
    else .error .valueError

/-- The attributes of a signal (`exorad/models/signal.py:57-59`): microns, the unit of the class, hours. -/
structure Sig (α : Type) where
  wl : Arr α
  data : Arr α
  time : Arr α
  unit : Unit α

/-- The default argument `[0] * u.hr` (`exorad/models/signal.py:43`). -/
def noTimes : Arg α := .quantity ⟨[1], [0]⟩ hr

/-- The constructors: `exorad/models/signal.py:43-60`, `:199-205`, `:212-213`, `:221-224`, `:232-233`,
`exorad/models/noise.py:232-233`. -/
def construct (c : Class α) (wl data : Arg α) (time : Arg α := noTimes) : Except Exc (Sig α) :=
  match checkQuantities wl um with
  | .error e => .error e
  | .ok w =>
    match checkQuantities data c.unit with
    | .error e => .error e
    | .ok d =>
      match checkQuantities time hr with
      | .error e => .error e
      | .ok t =>
        match checkSizes ⟨w.shape, t.shape, d.shape⟩ with
        | .error e => .error e
        | .ok _ => .ok ⟨w, d, t, c.unit⟩

/-- `exorad/models/signal.py:63-74` `time_dependent`. -/
def timeDependent (s : Sig α) : Except Exc Bool :=
  if s.time.vals.all (fun t => decide (t = 0)) then .ok false else .error .notImplementedError

/-- A one-dimensional array (`exorad/models/signal.py:153-160`). -/
def vec (l : List α) : Arr α := ⟨[l.length], l⟩

/-- `exorad/models/signal.py:153-160` `spectral_rebin` of a one-dimensional signal onto a one-dimensional
grid: `exorad/utils/exolib.py:38-42` refuses a grid whose unit is not that of the signal, and numbers
without a unit have no `.unit`. -/
def spectralRebin (s : Sig α) (new : Arg α) : Except Exc (Sig α) :=
  match new with
  | .bare _ => .error .attributeError
  | .quantity g unit =>
    if unit ≠ um then .error .valueError
    else
      match (Signal.mk s.wl.vals s.data.vals).spectralRebin g.vals with
      | .error e => .error e
      | .ok s' => .ok ⟨vec s'.wl, vec s'.data, s.time, s.unit⟩

/-- A sequence of calls of `spectral_rebin` (`exorad/models/signal.py:153-160`). -/
def rebinAll : List (Arg α) → Sig α → Except Exc (Sig α)
  | [], s => .ok s
  | g :: gs, s =>
    match spectralRebin s g with
    | .error e => .error e
    | .ok s' => rebinAll gs s'

/-- `exorad/models/signal.py:162-166` `temporal_rebin`. -/
def temporalRebin (_s : Sig α) (_new : Arg α) : Except Exc (Sig α) := .error .notImplementedError

/-- A scalar Quantity (`exorad/models/source.py:251`). -/
structure Scalar (α : Type) where
  value : α
  unit : Unit α

/-- `q.to(u.m)` of a scalar (`exorad/models/source.py:259-264`). -/
def toMetres (q : Scalar α) : Except Exc α :=
  if q.unit.dim = (metre : Unit α).dim then .ok (q.value * (q.unit.size / (metre : Unit α).size)) else .error .valueError

/-- `exorad/models/source.py:250-269` `CustomSed`: the columns of the file with their units, the radius and
the distance of the star. The result is the signal and the luminosity (in watt; the code divides by the
constant `Lsun`). Columns of the file are one-dimensional; a column without a unit is an error of astropy
and is not modelled. -/
def customSed (pi : α) (wl : List α) (wlUnit : Unit α) (flux : List α) (fluxUnit : Unit α) (R D : Scalar α) :
    Except Exc (Sig α × α) :=
  match toMetres R with
  | .error e => .error e
  | .ok r =>
    match toMetres D with
    | .error e => .error e
    | .ok d =>
      match construct .sed (.quantity (vec wl) wlUnit) (.quantity (vec (flux.map (fun f => f * (r / d) ^ 2))) fluxUnit) with
      | .error e => .error e
      | .ok s => .ok (s, 4 * pi * r ^ 2 * (Diffuse.trapz wl flux * (wlUnit.size * fluxUnit.size)))

end ExoRad.SignalUnits
