import Verif.Model.Foreground
import Verif.Model.SignalUnits
import Verif.Model.Build

/-!
# The data tables of a payload, with the units of their columns

`exorad/tasks/loadOptions.py:186-201` reads the data files of a payload with `ascii.read`: a column of an
ecsv file that declares a unit is a `Column` with that unit (a Quantity if the file was written from a
`QTable`), a column of a csv file has none. What the optical elements, the quantum efficiency and the
foregrounds make of them. Numbers are elements of a field, without rounding.
-/

namespace ExoRad.TableUnits

open SignalUnits

variable {α : Type} [Field α] [LinearOrder α]

/-- A column of a data table as read (`exorad/tasks/loadOptions.py:186-201`): without a unit, a `Column`
with a unit, or a Quantity. -/
inductive Col (α : Type) where
  | bare (vals : List α)
  | column (vals : List α) (unit : Unit α)
  | quantity (vals : List α) (unit : Unit α)

/-- The numbers of a column: what numpy and scipy make of it (`exorad/models/optics/opticalElement.py:185-188`,
`:270-273`, `exorad/models/signal.py:120`). -/
def Col.raw : Col α → List α
  | .bare v => v
  | .column v _ => v
  | .quantity v _ => v

/-- A data table (`exorad/tasks/loadOptions.py:186-201`). -/
abbrev Tab (α : Type) := Dict String (Col α)

/-- The numbers of a table (`exorad/models/optics/opticalElement.py:185-188`). -/
def raw (t : Tab α) : Dict String (List α) := t.map (fun p => (p.1, p.2.raw))

/-- `exorad/models/optics/opticalElement.py:140-228` `_get_transmission` with a data table: `interp1d` takes
the numbers of the columns. -/
def transmission (d : Optics.Descr α) (t : Tab α) (wl : List α) : Except Exc (List α) :=
  Optics.getTransmission { d with data := some (raw t) } wl

/-- `exorad/models/optics/opticalElement.py:230-289` `_get_emissivity` with a data table. -/
def emissivity (d : Optics.Descr α) (t : Tab α) (wl : List α) : Except Exc (List α) :=
  Optics.getEmissivity { d with data := some (raw t) } wl

/-- A column as an argument of `Signal` (`exorad/models/signal.py:96`): `isinstance(quantity, u.Quantity)` is
false of a `Column`, even of one with a unit. -/
def Col.arg : Col α → Arg α
  | .bare v => .bare (vec v)
  | .column v _ => .bare (vec v)
  | .quantity v u => .quantity (vec v) u

/-- `exorad/models/instruments/instrument.py:294-303` `_get_qe` with a data table, for the channel `name`. -/
def qe (name : String) (t : Tab α) : Except Exc (Sig α) :=
  match Misc.getWlColName t.keys none with
  | .error e => .error e
  | .ok none => .error .valueError
  | .ok (some c) =>
    match t.getE c with
    | .error e => .error e
    | .ok w =>
      match t.getE name with
      | .error e => .error e
      | .ok v => construct .signal w.arg v.arg

/-- `column.to(unit)` of astropy, as used in `exorad/models/foregrounds/skyForegrounds.py:32`, `:44`: the values in
units of `new`. A column without a unit counts as dimensionless; other dimensions are a
UnitConversionError (a ValueError). -/
def Col.to (c : Col α) (new : Unit α) : Except Exc (List α) :=
  let f (v : List α) (old : Unit α) : Except Exc (List α) :=
    if old.dim = new.dim then .ok (v.map (fun x => x * (old.size / new.size))) else .error .valueError
  match c with
  | .bare v => f v one
  | .column v u => f v u
  | .quantity v u => f v u

/-- `column.unit` (`exorad/models/foregrounds/skyForegrounds.py:39`). -/
def Col.unit? : Col α → Option (Unit α)
  | .bare _ => none
  | .column _ u => some u
  | .quantity _ u => some u

/-- `exorad/models/foregrounds/skyForegrounds.py:28-53` `_get_radiance` on a grid in microns. A radiance column
without a unit is a TypeError (a product with `None`), one in a unit that is not a radiance a
UnitConversionError of `SkyFilter` (lines 7-17), a missing column a KeyError. -/
def foreground (wl : List α) (t : Tab α) : Except Exc (Foreground.Filter α) :=
  match t.getE "Wavelength" with
  | .error e => .error e
  | .ok w =>
    match w.to um with
    | .error e => .error e
    | .ok w =>
      match t.getE "Radiance" with
      | .error e => .error e
      | .ok r =>
        match r.unit? with
        | none => .error .typeError
        | some u =>
          match checkQuantities (.quantity (vec (wl.map (Foreground.interpFill 0 (w.zip r.raw)))) u) radianceUnit with
          | .error e => .error e
          | .ok s =>
            match t.getE "Transmission" with
            | .error e => .error e
            | .ok tr => .ok ⟨⟨wl, s.vals⟩, some (wl.map (Foreground.interpFill 1 (w.zip tr.raw)))⟩

end ExoRad.TableUnits
