import Verif.Model.Run
import Verif.Model.Read
import Verif.Model.Spawn
import Verif.Model.TargetList
import Verif.Model.Contrib
import Verif.Model.Plotter

/-!
# The whole program: `exorad/exorad.py` `standard_pipeline` with the code it calls

`Model/Run` leaves open what the steps compute. Here they are the steps of the other parts of the model: `LoadOptions` is `Options.parser`
followed by `Read.describe`, `BuildChannels` is `Build.build`, `LoadTargetList` is `TargetList`, `ObserveTargetlist` is
`Pipeline.observeTargetlistOn`. What is read by libraries (XML, csv and xlsx files, units of a catalogue, data tables) and the entries of
the output file other than the tables stay parameters (`Outside`). A number in a payload with another unit than the one the model reads
(`Model/Read`) ends the run here with a KeyError.
-/

namespace ExoRad.Whole
noncomputable section

/-- The contents of a dataset: a column of a table. Written in `exorad/exorad.py:118-121`, `exorad/models/target.py:43-49`. -/
abbrev V := List (Cell ℝ)

/-- A payload: its description, and the number of points of the working grids. `exorad/exorad.py:84-86`. -/
abbrev P := Read.Described × ℕ

/-- The targets of a list. `exorad/exorad.py:104`. -/
abbrev R := List (TargetList.Target ℝ)

/-- What is outside the program, or outside the model. For `exorad/exorad.py:39-121`. -/
structure Outside where
  /-- `ElementTree.parse` -/
  xml : Run.File V → Except Exc Options.Xml
  /-- astropy's csv reader -/
  csv : Run.File V → Except Exc (TargetList.Table ℝ)
  /-- xlrd -/
  xlsx : Run.File V → Except Exc (TargetList.Sheet ℝ)
  /-- `LoadPayload` -/
  loadH5 : Hdf5.Group V → Except Exc P
  /-- Python and astropy as the parser of options uses them -/
  py : Options.Py
  /-- The argument `config` of `LoadOptions` -/
  config : Option String
  /-- `PassVal` before the run -/
  pass : Options.St
  files : Read.Files
  build : Build.Env
  /-- Steps after which a loop of the builder is taken to run for ever -/
  fuel : ℕ
  setting : Pipeline.Setting
  list : TargetList.Env ℝ
  /-- A quantity of the catalogue in the unit the code works with, by its unit; none if it cannot be converted -/
  number : TargetList.Text → ℝ → Option ℝ
  /-- A coordinate of the catalogue -/
  angle : TargetList.Cell ℝ → ℝ
  opts : Pipeline.RunOpts
  /-- The argument `full_contrib` -/
  full : Bool
  start : Pipeline.Start
  nThread : ℕ
  /-- The order in which the processes of the pool finish -/
  sched : List ℕ
  /-- `exorad/output/hdf5/hdf5.py:203-217` -/
  attrs : List (String × Hdf5.Item V)
  /-- The payload description as a dictionary -/
  describe : P → List (String × Hdf5.Item V)
  /-- A channel's description and its `built_instr` as dictionaries -/
  descr : Build.Descr → List (String × Hdf5.Item V)
  built : Build.Built → List (String × Hdf5.Item V)
  /-- The attributes of an observed target other than its table -/
  rest : Pipeline.Target → List (String × Hdf5.Item V)
  /-- The unit of a column, by its name -/
  unit : String → Option String
  /-- The order in which `set` lists the names of channels, for the plotter -/
  order : V → V

/-- The texts of the attributes of a star (`exorad/models/target.py`, `exorad/tasks/loadSource.py`, `exorad/tasks/foregroundHandler.py:51-57`). -/
def keyD : TargetList.Text := ['D']
/-- `star.Teff` (`exorad/tasks/loadSource.py:187`). -/
def keyT : TargetList.Text := ['T', 'e', 'f', 'f']
/-- `star.M` (`exorad/tasks/loadSource.py:186`). -/
def keyM : TargetList.Text := ['M']
/-- `star.R` (`exorad/tasks/loadSource.py:188`). -/
def keyR : TargetList.Text := ['R']
/-- `star.ra` (`exorad/tasks/foregroundHandler.py:51-57`). -/
def keyRa : TargetList.Text := ['r', 'a']
/-- `star.dec` (`exorad/tasks/foregroundHandler.py:57`). -/
def keyDec : TargetList.Text := ['d', 'e', 'c']

/-- A quantity of the star, none if it is missing or is not a quantity. `exorad/tasks/loadSource.py:49-180`. -/
def starNumber (o : Outside) (t : TargetList.Target ℝ) (k : TargetList.Text) : Option ℝ :=
  match t.star.get? k with
  | some (.qty v u) => o.number u v
  | _ => none

/-- The target of a list (`exorad/models/targetlist.py:55-84`) as the observation reads it. -/
def targetOf (o : Outside) (t : TargetList.Target ℝ) : Pipeline.Target where
  name := String.ofList (o.list.str t.name)
  star := ⟨starNumber o t keyD, starNumber o t keyT, starNumber o t keyM, starNumber o t keyR⟩
  attrs := t.star.keys.map String.ofList
  sky := { ra := (t.star.get? keyRa).map o.angle, dec := (t.star.get? keyDec).map o.angle }

/-- `exorad/tasks/loadOptions.py:62-68` and what is read from its result: a payload file. -/
def loadXml (o : Outside) (f : Run.File V) : Except Exc P :=
  match o.xml f with
  | .error e => .error e
  | .ok doc =>
    match Options.parser o.py o.config doc o.pass with
    | (_, .error e) => .error e
    | (s, .ok p) =>
      match Read.describe o.files (.dict p), Read.workingR s with
      | some D, some n => .ok (D, n)
      | _, _ => .error .keyError

/-- The descriptions of the channels, in the order of the payload. `exorad/tasks/instrumentHandler.py:122-150`. -/
def channelsOf (pl : P) : List Build.Descr := pl.1.channels.map Prod.snd

/-- The builder's surroundings in a process with this payload. `exorad/utils/passVal.py:25-41`, `exorad/models/instruments/instrument.py:101-155`. -/
def buildEnv (o : Outside) (pl : P) : Build.Env := { o.build with workingR := pl.2 }

/-- A built channel as it is written (`exorad/models/instruments/instrument.py:73-84`). The name of a channel is its `value`. -/
def record (o : Outside) (d : Build.Descr) (b : Build.Built) : Run.ChanRec V where
  name := d.noise.value
  tableId := d.noise.value
  cols := b.table.map (fun c => (c.1, c.2, o.unit c.1))
  description := o.descr d
  built := o.built b

/-- One channel. `exorad/tasks/instrumentHandler.py:58-72`. -/
def buildOne (o : Outside) (pl : P) (d : Build.Descr) : Except Exc (Run.ChanRec V) :=
  match Build.build o.fuel (buildEnv o pl) pl.1.common false d with
  | none => .error .systemExit
  | some (.error e) => .error e
  | some (.ok b) => .ok (record o d b)

/-- The payload the observation works with, once its channels are built. `exorad/exorad.py:107-116`. -/
def payloadOf (pl : P) (bs : List Build.Built) : Pipeline.Payload :=
  ⟨bs.map Build.Built.ch, pl.1.foreground, pl.1.source, ⟨pl.1.wlMin, some 1⟩, ⟨pl.1.wlMax, some 1⟩⟩

/-- `exorad/exorad.py:83-97`: the tables of the channels the targets are observed with. -/
def tables (o : Outside) (bs : List Build.Built) : Except Exc (List (Table ℝ)) :=
  Contrib.startTables o.full (bs.map Build.Built.table) (bs.map (fun b => Contrib.signalTable b.signals))

/-- `exorad/exorad.py:83-97`: separating the contributions may raise. It follows immediately on reading the range of wavelengths, the last step of `PreparePayload`; the two
together are the step `range` of `Model/Run`. (Without built channels the run has ended before.) -/
def separate (o : Outside) (pl : P) : Except Exc Unit :=
  match Build.buildAll o.fuel (buildEnv o pl) pl.1.common (channelsOf pl) with
  | some (.ok bs) =>
    match tables o bs with
    | .error e => .error e
    | .ok _ => .ok ()
  | _ => .ok ()

/-- What the efficiency plot reads of a built channel: `transmission_data` and `qe_data` (`exorad/utils/plotter.py:122-154`). -/
def efficiencyData (b : Build.Built) : Plotter.Built ℝ := ⟨(b.ch.inst.tr.wl, b.ch.inst.tr.data), (b.ch.inst.qe.wl, b.ch.inst.qe.data)⟩

/-- `exorad/exorad.py:99-101`: the efficiency plot. -/
def drawEfficiency (o : Outside) (pl : P) : Except Exc Bool :=
  match Build.buildAll o.fuel (buildEnv o pl) pl.1.common (channelsOf pl) with
  | some (.ok bs) =>
    match tables o bs with
    | .error e => .error e
    | .ok tabs =>
      match (Plotter.efficiencyPlot o.order tabs (bs.map efficiencyData)).2 with
      | .error e => .error e
      | .ok f => .ok f.isSome
  | _ => .ok false

/-- The tables of the channels when the observation begins: the efficiency plot adds missing columns. `exorad/exorad.py:100-101`. -/
def startOf (o : Outside) (bs : List Build.Built) (tabs : List (Table ℝ)) : List (Table ℝ) :=
  if o.opts.plot then (Plotter.efficiencyPlot o.order tabs (bs.map efficiencyData)).1 else tabs

/-- `exorad/tasks/targetHandler.py:361-401` `ObserveTargetlist` on a list (`exorad/exorad.py:98-116`). -/
def observeList (o : Outside) (pl : P) (bs : List Build.Built) (tabs : List (Table ℝ)) (rows : R) : Dict (Option String) (Option Pipeline.Target) :=
  (Pipeline.observeTargetlistOn o.start o.setting pl.2 (payloadOf pl bs) o.opts o.nThread o.sched ⟨tabs, .info⟩ (rows.map (targetOf o))).2

/-- The names of the targets that were observed, and the dictionary. (Without built channels, or if the contributions cannot be separated, the run has ended before.).
`exorad/exorad.py:107-116`. -/
def observe (o : Outside) (pl : P) (rows : R) : List String × Dict (Option String) (Option Pipeline.Target) :=
  match Build.buildAll o.fuel (buildEnv o pl) pl.1.common (channelsOf pl) with
  | some (.ok bs) =>
    match tables o bs with
    | .error _ => ([], [])
    | .ok tabs => (((observeList o pl bs (startOf o bs tabs) rows).filterMap Prod.snd).map Pipeline.Target.name, observeList o pl bs (startOf o bs tabs) rows)
  | _ => ([], [])

/-- `exorad/models/target.py:51-54` with `exorad/utils/util.py:30-77`: a table is put into a dictionary of its own. -/
def items (o : Outside) (t : Pipeline.Target) : List (String × Hdf5.Item V) :=
  o.rest t ++
  (match t.table with
    | none => []
    | some r => [("table", .dict [("table", .table t.name (r.map (fun c => (c.1, c.2, o.unit c.1))))])])

/-- `exorad/tasks/targetHandler.py:62-64`: a TypeError makes the code take the file name for a table, which has no `keys`. -/
def asTable (r : Except Exc R) : Except Exc R :=
  match r with
  | .error .typeError => .error .attributeError
  | r => r

/-- A csv file, in one of the two formats (`exorad/tasks/targetHandler.py:50-64`). -/
def loadCsv (o : Outside) (f : Run.File V) : Except Exc R :=
  match o.csv f with
  | .error e => asTable (.error e)
  | .ok t => asTable (TargetList.csvEither o.list t)

/-- A workbook. `exorad/models/targetlist.py:105-165`. -/
def loadXlsx (o : Outside) (f : Run.File V) : Except Exc R :=
  match o.xlsx f with
  | .error e => asTable (.error e)
  | .ok s => asTable (TargetList.xlsxList o.list s)

/-- The steps of the run. `exorad/exorad.py:39-121`. -/
def env (o : Outside) : Run.Env V P R Pipeline.Target where
  attrs := o.attrs
  loadXml := loadXml o
  describe := o.describe
  build := fun pl => (channelsOf pl).map (buildOne o pl)
  loadH5 := o.loadH5
  range := separate o
  drawEfficiency := drawEfficiency o
  loadCsv := loadCsv o
  loadXlsx := loadXlsx o
  observe := observe o
  items := items o
  name := Pipeline.Target.name

/-- `exorad/exorad.py:40-121` `standard_pipeline`. -/
def run (o : Outside) (a : Run.Args P R) (fs : Run.FS V) : Run.Mach V × Except Exc Unit := Run.pipeline (env o) a fs

end
end ExoRad.Whole
