import Verif.Model.Run
import Verif.Model.Table
import Verif.Model.Rebin
import Verif.Model.Misc

/-!
# `exorad/utils/plotter.py`: what is drawn, and the plot command

A figure is the list of its curves, the bands of the channels and the positions of the ticks. Colours, line styles, legends, limits and
everything matplotlib does with them are not modelled; matplotlib is assumed to draw what it is given.
-/

set_option linter.unusedSectionVars false

namespace ExoRad.Plotter

variable {α : Type} [Field α] [LinearOrder α]

/-- `ax.plot(x, y, label=label)`. `exorad/utils/plotter.py:95-366`. -/
structure Curve (α : Type) where
  label : String
  x : List (Cell α)
  y : List (Cell α)
deriving DecidableEq, Repr

/-- `ax.axvspan(lo, hi)` for the rows of one channel. `exorad/utils/plotter.py:39-93`. -/
structure Band (α : Type) where
  channel : Cell α
  lo : Num α
  hi : Num α
deriving DecidableEq, Repr

/-- The curves, bands and ticks of one axes. `exorad/utils/plotter.py:39-366`. -/
structure Axes (α : Type) where
  curves : List (Curve α)
  bands : List (Band α)
  ticks : Option (List (Num α))
deriving DecidableEq, Repr

/-- The table a `Plotter` is given: `meta["name"]` if there, the columns, and which of them have the unit `hr**0.5`. `exorad/utils/plotter.py:31-37`, `:384`. -/
structure Input (α : Type) where
  name : Option String
  table : Table α
  sqrtHour : String → Bool

/-! ## Bands -/

/-- Python's `min` of the elements: ValueError without any. `exorad/utils/plotter.py:39-93`. -/
def pyMin : List (Num α) → Except Exc (Num α)
  | [] => .error .valueError
  | a :: l => .ok (l.foldl (fun m x => if Num.lt x m then x else m) a)

/-- Python's `max`. `exorad/utils/plotter.py:39-93`. -/
def pyMax : List (Num α) → Except Exc (Num α)
  | [] => .error .valueError
  | a :: l => .ok (l.foldl (fun m x => if Num.lt m x then x else m) a)

/-- `table[key][np.where(table["chName"] == name)]`. `exorad/utils/plotter.py:39-93`. -/
def rowsOf (t : Table α) (key : String) (name : Cell α) : Except Exc (List (Cell α)) :=
  match t.getE key with
  | .error e => .error e
  | .ok c =>
    match t.getE "chName" with
    | .error e => .error e
    | .ok ch => .ok ((List.zip ch c).filterMap (fun p => if p.1 = name then some p.2 else none))

/-- The numbers of the rows of a channel (text in the columns of the edges is not modelled: TypeError). `exorad/utils/plotter.py:39-93`. -/
def edgesOf (t : Table α) (key : String) (name : Cell α) : Except Exc (List (Num α)) :=
  match rowsOf t key name with
  | .error e => .error e
  | .ok c => Table.numCol c

/-- `exorad/utils/plotter.py:60-84`: the band of one channel. -/
def bandOf (t : Table α) (name : Cell α) : Except Exc (Band α) :=
  match edgesOf t "LeftBinEdge" name with
  | .error e => .error e
  | .ok l =>
    match pyMin l with
    | .error e => .error e
    | .ok lo =>
      match edgesOf t "RightBinEdge" name with
      | .error e => .error e
      | .ok r =>
        match pyMax r with
        | .error e => .error e
        | .ok hi => .ok ⟨name, lo, hi⟩

/-- The loop of `exorad/utils/plotter.py:60-84`. -/
def bandLoop (t : Table α) : List (Cell α) → Except Exc (List (Band α))
  | [] => .ok []
  | n :: ns =>
    match bandOf t n with
    | .error e => .error e
    | .ok b =>
      match bandLoop t ns with
      | .error e => .error e
      | .ok bs => .ok (b :: bs)

/-- `exorad/utils/plotter.py:39-93` `plot_bands`: the bands and the ticks. `order` is the order in which Python goes through
`set(table["chName"])`, which depends on the seed of the hash of strings. After the loop `wl_max` is the end of the last band: unbound
without rows. -/
def plotBands (order : List (Cell α) → List (Cell α)) (channelEdges : Bool) (t : Table α) :
    Except Exc (List (Band α) × Option (List (Num α))) :=
  match t.getE "chName" with
  | .error e => .error e
  | .ok ch =>
    match bandLoop t (order ch) with
    | .error e => .error e
    | .ok bs =>
      match bs.getLast? with
      | none => .error .unboundLocalError
      | some b => .ok (bs, if channelEdges then some (bs.map Band.lo ++ [b.hi]) else none)

/-! ## Signals and noise -/

/-- `exorad/utils/plotter.py:317-321`. -/
def signalNames (t : Table α) : List String := t.keys.filter (fun k => substr "signal" k && !substr "noise" k)

/-- `exorad/utils/plotter.py:227-229`. -/
def noiseNames (t : Table α) : List String := t.keys.filter (fun k => substr "noise" k || substr "custom" k)

/-- `ax.plot(table["Wavelength"], y, label=k)`. `exorad/utils/plotter.py:208-366`. -/
def curve (t : Table α) (k : String) (y : List (Cell α)) : Except Exc (Curve α) :=
  match t.getE "Wavelength" with
  | .error e => .error e
  | .ok x => .ok ⟨k, x, y⟩

/-- `exorad/utils/plotter.py:323-333`: a column as it is. -/
def asStored (t : Table α) (k : String) : Except Exc (Curve α) :=
  match t.getE k with
  | .error e => .error e
  | .ok y => curve t k y

/-- `table[k] / table["star_signal_inAperture"]` (`exorad/utils/plotter.py:251-254`), on numbers. -/
def overStar (t : Table α) (y : List (Cell α)) : Except Exc (List (Cell α)) :=
  match t.getE "star_signal_inAperture" with
  | .error e => .error e
  | .ok s =>
    match Table.numCol y with
    | .error e => .error e
    | .ok y =>
      match Table.numCol s with
      | .error e => .error e
      | .ok s => .ok (List.zipWith (fun a b => Cell.num (a / b)) y s)

/-- `exorad/utils/plotter.py:231-264`: the total and what has the unit `hr**0.5` as stored, the other columns relative to the star. -/
def noiseCurve (i : Input α) (k : String) : Except Exc (Curve α) :=
  if k = "total_noise" then asStored i.table k
  else
    match i.table.getE k with
    | .error e => .error e
    | .ok y =>
      if i.sqrtHour k then curve i.table k y
      else
        match overStar i.table y with
        | .error e => .error e
        | .ok y => curve i.table k y

/-- One curve after the other. `exorad/utils/plotter.py:208-366`. -/
def curves (f : String → Except Exc (Curve α)) : List String → Except Exc (List (Curve α))
  | [] => .ok []
  | k :: ks =>
    match f k with
    | .error e => .error e
    | .ok c =>
      match curves f ks with
      | .error e => .error e
      | .ok cs => .ok (c :: cs)

/-- Bands behind curves. `exorad/utils/plotter.py:39-93`, `:208-366`. -/
def withBands (order : List (Cell α) → List (Cell α)) (channelEdges : Bool) (t : Table α) (cs : Except Exc (List (Curve α))) :
    Except Exc (Axes α) :=
  match cs with
  | .error e => .error e
  | .ok cs =>
    match plotBands order channelEdges t with
    | .error e => .error e
    | .ok (bs, ticks) => .ok ⟨cs, bs, ticks⟩

/-- `exorad/utils/plotter.py:297-366` `plot_signal`. -/
def plotSignal (order : List (Cell α) → List (Cell α)) (channelEdges : Bool) (i : Input α) : Except Exc (Axes α) :=
  withBands order channelEdges i.table (curves (asStored i.table) (signalNames i.table))

/-- `exorad/utils/plotter.py:208-295` `plot_noise`. -/
def plotNoise (order : List (Cell α) → List (Cell α)) (channelEdges : Bool) (i : Input α) : Except Exc (Axes α) :=
  withBands order channelEdges i.table (curves (noiseCurve i) (noiseNames i.table))

/-- The figure of a table. `exorad/utils/plotter.py:368-394`. -/
structure Fig (α : Type) where
  title : String
  signal : Axes α
  noise : Axes α
deriving DecidableEq, Repr

/-- `exorad/utils/plotter.py:368-394` `plot_table`. -/
def plotTable (order : List (Cell α) → List (Cell α)) (channelEdges : Bool) (i : Input α) : Except Exc (Fig α) :=
  match i.name with
  | none => .error .keyError
  | some n =>
    match plotSignal order channelEdges i with
    | .error e => .error e
    | .ok s =>
      match plotNoise order channelEdges i with
      | .error e => .error e
      | .ok m => .ok ⟨n, s, m⟩

/-! ## Efficiency -/

/-- `transmission_data` and `qe_data` of a built channel: wavelengths and values. `exorad/utils/plotter.py:95-206`. -/
structure Built (α : Type) where
  tr : List α × List α
  qe : List α × List α

/-- The curves of one channel. `exorad/utils/plotter.py:95-206`. -/
structure Efficiency (α : Type) where
  transmission : Rebin.Signal α
  qe : Rebin.Signal α
  pce : Rebin.Signal α

/-- `exorad/utils/plotter.py:122-154`: the efficiencies of one channel. `pce` starts as the transmission; the quantum efficiency is
drawn, rebinned onto the grid of the transmission, and multiplied in (numpy's ValueError for different lengths). The arrays of
a `Signal` are copies (`exorad/models/signal.py:123`), the data of the channel do not change. -/
def efficiencyOf (b : Built α) : Except Exc (Efficiency α) :=
  match Rebin.Signal.mk? b.tr.1 b.tr.2 with
  | .error e => .error e
  | .ok tr =>
    match Rebin.Signal.mk? b.qe.1 b.qe.2 with
    | .error e => .error e
    | .ok qe =>
      match qe.spectralRebin tr.wl with
      | .error e => .error e
      | .ok q =>
        if q.data.length = tr.data.length then .ok ⟨tr, qe, ⟨tr.wl, List.zipWith (· * ·) tr.data q.data⟩⟩
        else .error .valueError

/-- The channels in order. `exorad/utils/plotter.py:95-206`. -/
def efficiencies : List (Built α) → Except Exc (List (Efficiency α))
  | [] => .ok []
  | b :: bs =>
    match efficiencyOf b with
    | .error e => .error e
    | .ok x =>
      match efficiencies bs with
      | .error e => .error e
      | .ok xs => .ok (x :: xs)

/-- `exorad/utils/plotter.py:95-206` `plot_efficiency`, `none`: no figure (an error is logged). Lines 179-190 cannot be reached. -/
def plotEfficiency (order : List (Cell α) → List (Cell α)) (channelEdges : Bool) (t : Table α) (chs : List (Built α)) :
    Except Exc (Option (List (Efficiency α) × List (Band α) × Option (List (Num α)))) :=
  if chs = [] then .ok none
  else
    match efficiencies chs with
    | .error e => .error e
    | .ok es =>
      match plotBands order channelEdges t with
      | .error e => .error e
      | .ok (bs, ticks) => .ok (some (es, bs, ticks))

/-- `exorad/exorad.py:25-37` `efficiency_plot`: the tables of the channels afterwards and what is drawn. Merging the tables adds missing columns
to them (`exorad/tasks/instrumentHandler.py:307-315`). `vstack_tables` of nothing is False, which is only passed on. -/
def efficiencyPlot (order : List (Cell α) → List (Cell α)) (tabs : List (Table α)) (chs : List (Built α)) :
    List (Table α) × Except Exc (Option (List (Efficiency α) × List (Band α) × Option (List (Num α)))) :=
  match Table.vstackTables tabs with
  | .error e => (tabs, .error e)
  | .ok (r, tabs') => (tabs', plotEfficiency order true (r.getD []) chs)

/-! ## The plot command -/

open Hdf5 Run

variable {V : Type}

/-- The arguments of the command (`exorad/utils/plotter.py:420-470`). -/
structure Cmd where
  input : Path
  out : String
  number : String := "all"
  name : String := "None"

/-- `list(group.keys())`: h5py lists names in alphabetical order. `exorad/utils/plotter.py:494-499`. -/
def listing (g : Hdf5.Group V) : List String := (Dict.keys g).mergeSort (fun a b => decide (a ≤ b))

/-- `l[n]` in Python. `exorad/utils/plotter.py:499`. -/
def pyIndex {β : Type} (l : List β) (n : Int) : Except Exc β :=
  let k : Int := if n < 0 then n + l.length else n
  if k < 0 then .error .indexError
  else
    match l[k.toNat]? with
    | none => .error .indexError
    | some x => .ok x

/-- `[l[n] for n in ids]`. `exorad/utils/plotter.py:499`. -/
def pick {β : Type} (l : List β) : List Int → Except Exc (List β)
  | [] => .ok []
  | n :: ns =>
    match pyIndex l n with
    | .error e => .error e
    | .ok x =>
      match pick l ns with
      | .error e => .error e
      | .ok xs => .ok (x :: xs)

/-- `group[name]["table"]` and `read_table_hdf5(.., path="table")` (`exorad/utils/plotter.py:507-509`). `decode` is what astropy makes of the
stored table: its name, columns and units. KeyError for a missing entry, OSError without a table. (A dataset instead of a group is a ValueError;
a group instead of the dataset is searched for tables by astropy: not modelled, ValueError.) -/
def readTarget (decode : String → Input α) (targets : Hdf5.Group V) (name : String) : Except Exc (Input α) :=
  match targets.get? name with
  | none => .error .keyError
  | some (.ds _) => .error .valueError
  | some (.group g) =>
    match Dict.get? g "table" with
    | none => .error .keyError
    | some (.ds _) => .error .valueError
    | some (.group tg) =>
      match Dict.get? tg "table" with
      | none => .error .osError
      | some (.ds (.tab id)) => .ok (decode id)
      | some _ => .error .valueError

/-- `exorad/utils/plotter.py:491-504`: the names of the targets to draw, and the group they are in. `int` is Python's `int` of a text. -/
def selected (int : List Char → Option Int) (c : Cmd) (file : Hdf5.Group V) : Except Exc (Hdf5.Group V × List String) :=
  if c.number ≠ "all" ∧ c.name ≠ "None" then .error .valueError
  else
    match file.get? "targets" with
    | none => .error .keyError
    | some (.ds _) => .error .attributeError
    | some (.group g) =>
      match Misc.parseRange int c.number.toList (listing g).length with
      | none => .error .typeError
      | some ids =>
        match pick (listing g) ids with
        | .error e => .error e
        | .ok names => .ok (g, if c.name ≠ "None" then names.filter (fun n => n = c.name) else names)

/-- `exorad/utils/plotter.py:506-514`: the figures, one after the other. Errors of `savefig` are not modelled. -/
def drawAll (order : List (Cell α) → List (Cell α)) (decode : String → Input α) (out : String) (targets : Hdf5.Group V) :
    List String → Mach V → Mach V × Except Exc (List (Fig α))
  | [], m => (m, .ok [])
  | n :: ns, m =>
    match readTarget decode targets n with
    | .error e => (m, .error e)
    | .ok i =>
      match plotTable order true i with
      | .error e => (m, .error e)
      | .ok f =>
        match drawAll order decode out targets ns (m.write (figure out n) (.bytes "png")) with
        | (m, .error e) => (m, .error e)
        | (m, .ok fs) => (m, .ok (f :: fs))

/-- `exorad/utils/plotter.py:420-514` `main`: the files afterwards and the figures. OSError for an input that is not an HDF5 file. The
output directory is made first. -/
def command (order : List (Cell α) → List (Cell α)) (int : List Char → Option Int) (decode : String → Input α) (c : Cmd) (m : Mach V) :
    Mach V × Except Exc (List (Fig α)) :=
  match m.cur.get? c.input with
  | some (.h5 file) =>
    match selected int c file with
    | .error e => (m, .error e)
    | .ok (g, names) => drawAll order decode c.out g names m
  | _ => (m, .error .osError)

end ExoRad.Plotter
