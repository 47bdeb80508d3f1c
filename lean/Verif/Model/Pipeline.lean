import Verif.Model.Noise
import Verif.Model.Instrument
import Verif.Model.Foreground
import Verif.Model.Source

/-!
# Observing targets: `exorad/tasks/targetHandler.py`, `exorad/tasks/propagateLight.py`

The whole observation of a target, put together from the models of its steps, over `ℝ`. The channels are shared
by all the targets of a run and their tables are mutable: stacking adds columns to them
(`exorad/utils/util.py:79-94`), the light propagation writes `sky TR`, and updating the target's table removes columns from
a table it shares with a channel. Everything else of a channel is fixed (`Channel`); in particular the columns
`Wavelength`, `LeftBinEdge`, `RightBinEdge`, which nothing removes, are in `Instrument.Chan.bins`.
Table metadata is not carried. An exception while stacking the channel tables leaves them as they were (Python would leave
some columns added).
-/

namespace ExoRad.Pipeline
noncomputable section

/-- A built channel. `exorad/models/instruments/instrument.py:52-61`. -/
structure Channel where
  /-- Spectrometer or photometer -/
  spectrometer : Bool
  inst : Instrument.Chan ℝ
  diffuse : Diffuse.Channel ℝ
  noise : NoiseChannel
  /-- `payload["common"]["customNoise"]` -/
  common : Option CustomNoise

/-- The payload description and the built channels without their tables. `exorad/tasks/targetHandler.py:224-227`. -/
structure Payload where
  channels : List Channel
  /-- `payload["common"]["foreground"]` -/
  foreground : Option (Foreground.Section ℝ)
  /-- `payload["common"]["sourceSpectrum"]` -/
  source : Option Source.Descr
  /-- `wl_range` -/
  wlMin : Source.Wl ℝ
  wlMax : Source.Wl ℝ

/-- Constants, files and working grids. Read by `exorad/tasks/foregroundHandler.py:36-130` and `exorad/tasks/loadSource.py:49-180`. -/
structure World where
  consts : Source.Consts ℝ
  env : Source.Env ℝ
  maps : Foreground.MapFiles ℝ
  /-- The working grid of the foregrounds -/
  skyGrid : List ℝ
  /-- The working grid of the source, from the two ends of the range -/
  grid : ℝ → ℝ → List ℝ

/-- A target: its name, the star's data, the attributes of the star object (as far as the metadata of the table need them), what it knows about the sky,
the star's spectrum after `LoadSource`, its table. `exorad/models/target.py:10-60`, `exorad/models/targetlist.py:55-84`. -/
structure Target where
  name : String
  star : Source.StarData ℝ
  attrs : List String := ["name", "M", "Teff", "R", "D"]
  sky : Foreground.Sky ℝ := {}
  built : Option (Source.Built ℝ) := none
  table : Option (Table ℝ) := none

/-- What an observation changes: the tables of the channels and the target. `exorad/tasks/targetHandler.py:223-265`. -/
structure St where
  tabs : List (Table ℝ)
  target : Target

/-- A task of the pipeline. -/
abbrev Step := St → St × Except Exc Unit

/-! ## Columns -/

/-- A column of finite numbers. Columns of the tables in `exorad/tasks/propagateLight.py:29-100`. -/
def col (l : List ℝ) : List (Cell ℝ) := l.map (fun v => .num (.fin v))

/-- A column that may hold NaN. Columns of the tables in `exorad/tasks/propagateLight.py:29-100`. -/
def colN (l : List (Option ℝ)) : List (Cell ℝ) := l.map (fun v => .num (match v with | some v => .fin v | none => .nan))

/-! ## The steps -/

/-- `exorad/tasks/targetHandler.py:88-103` `PrepareTarget` with `exorad/tasks/instrumentHandler.py:307-315`
`MergeChannelsOutput`: the target's table is the stack of the channel tables. Without channels it is `False` and setting its
metadata is an AttributeError. -/
def prepareTarget : Step := fun s =>
  match Table.vstackTables s.tabs with
  | .error e => (s, .error e)
  | .ok (none, tabs) => ({ s with tabs := tabs }, .error .attributeError)
  | .ok (some r, tabs) => (⟨tabs, { s.target with table := some r }⟩, .ok ())

/-- `exorad/tasks/targetHandler.py:232-237`: `EstimateForegrounds` on the target. -/
def estimateForegrounds (w : World) (sec : Foreground.Section ℝ) : Step := fun s =>
  match Foreground.estimateForegrounds w.consts.B w.maps w.skyGrid sec s.target.sky with
  | (sky, r) => ({ s with target := { s.target with sky := sky } }, r)

/-- The columns of a foreground table. `exorad/models/instruments/instrument.py:170-238`. -/
def foregroundTable (d : Dict String (List ℝ)) : Table ℝ := d.map (fun p => (p.1, col p.2))

/-- The table of one channel (`propagate_diffuse_foreground`). `exorad/models/instruments/instrument.py:170-238`, `exorad/tasks/propagateLight.py:70-87`. -/
def channelForeground (sky : Foreground.Sky ℝ) (ch : Channel) : Except Exc (Table ℝ) :=
  match Foreground.propagate ch.diffuse ch.inst.qe ch.inst.tr sky with
  | .error e => .error e
  | .ok d => .ok (foregroundTable d)

/-- `target.table` is the table object of a channel if `vstack_tables` stacked nothing: all tables before the last
have no rows. Removing columns from it (`exorad/tasks/targetHandler.py:145`) then removes them from the channel. -/
def removeShared (tabs : List (Table ℝ)) (new : Table ℝ) : List (Table ℝ) :=
  if tabs.dropLast.all (fun t => t.rows == 0) then
    match tabs.getLast? with
    | none => tabs
    | some t => tabs.dropLast ++ [t.removeAll (t.keys.filter (fun k => new.has k))]
  else tabs

/-- `UpdateTargetTable` (`exorad/tasks/targetHandler.py:127-147`) with the stack of the given tables. AttributeError for
a target without table or without new tables (`False.keys()`). -/
def updateWith (t : Target) (new : Option (Table ℝ)) : Except Exc (Target × Table ℝ) :=
  match t.table, new with
  | some old, some n => .ok ({ t with table := some (Table.update old n) }, n)
  | _, _ => .error .attributeError

/-- `exorad/tasks/propagateLight.py:69-88` `PropagateForegroundLight`. -/
def propagateForeground (chs : List Channel) : Step := fun s =>
  match Source.mapE (channelForeground s.target.sky) chs with
  | .error e => (s, .error e)
  | .ok ts =>
    match Table.vstackTables ts with
    | .error e => (s, .error e)
    | .ok (new, _) =>
      match updateWith s.target new with
      | .error e => (s, .error e)
      | .ok (t, n) => (⟨removeShared s.tabs n, t⟩, .ok ())

/-- `exorad/tasks/loadSource.py:178-196`: `_add_star_metadata`, if the target has a table: reads five attributes of the star, whatever the source is
(`luminosity` and `model` were just set). The metadata themselves are in `Model/Meta`. -/
def addStarMetadata (t : Target) : Except Exc Unit :=
  match t.table with
  | none => .ok ()
  | some _ => if ∀ k ∈ ["name", "M", "Teff", "R", "D"], k ∈ t.attrs then .ok () else .error .attributeError

/-- `exorad/tasks/targetHandler.py:240-244`: `LoadSource`; the description is read first (KeyError). -/
def loadSource (w : World) (p : Payload) : Step := fun s =>
  match p.source with
  | none => (s, .error .keyError)
  | some d =>
    match Source.loadSource w.consts w.env w.grid d s.target.star p.wlMin p.wlMax with
    | .error e => (s, .error e)
    | .ok b => ({ s with target := { s.target with built := some b } }, addStarMetadata s.target)

/-- `exorad/models/instruments/instrument.py:349-369`: the table of the channel after `_get_efficiency`, which writes the
column `sky TR` once quantum efficiency and transmission were rebinned. -/
def markSky (ch : Instrument.Chan ℝ) (wl : List ℝ) (sky : Option (Rebin.Signal ℝ)) (tab : Table ℝ) : Table ℝ :=
  match ch.qe.spectralRebin wl, ch.tr.spectralRebin wl, sky with
  | .ok _, .ok _, some s =>
    match Instrument.getTransmission ch s.wl s.data with
    | .ok (c, _) => tab.set "sky TR" (colN c)
    | .error _ => tab
  | _, _, _ => tab

/-- The table `propagate_target` returns (`photometer.py:134-208`, `spectrometer.py:326-422`); `fg` is the column `sky TR`
of the channel's table, if any. -/
def targetTable (fg : Option (List (Cell ℝ))) (o : Instrument.TargetOut ℝ) : Table ℝ :=
  (match fg with
    | some c => [("foreground_transmission", c)]
    | none => []) ++
  [("starFlux", col o.starFlux), ("starSignal", col o.starSignal), ("star_signal_inAperture", col o.inAperture),
    ("star_MaxSignal_inPixel", col o.maxInPixel)]

/-- The numbers `propagate_target` computes. `exorad/models/instruments/photometer.py:134-208`, `spectrometer.py:326-422`. -/
def channelTarget (ch : Channel) (sed : Rebin.Signal ℝ) (sky : Option (Rebin.Signal ℝ)) : Except Exc (Instrument.TargetOut ℝ) :=
  if ch.spectrometer then Instrument.spectrometerTarget ch.inst sed sky none
  else Instrument.photometerTarget ch.inst sed sky none

/-- `propagate_target` of one channel: the channel's table afterwards and the result.
`exorad/models/instruments/photometer.py:134-208`, `spectrometer.py:326-422`, `instrument.py:343-372`. -/
def propagateIn (ch : Channel) (sed : Rebin.Signal ℝ) (sky : Option (Rebin.Signal ℝ)) (tab : Table ℝ) :
    Table ℝ × Except Exc (Table ℝ) :=
  let tab' := markSky ch.inst sed.wl sky tab
  match channelTarget ch sed sky with
  | .error e => (tab', .error e)
  | .ok o => (tab', .ok (targetTable (tab'.get? "sky TR") o))

/-- The loop of `exorad/tasks/propagateLight.py:38-40`. -/
def propagateAll (sed : Rebin.Signal ℝ) (sky : Option (Rebin.Signal ℝ)) : List Channel → List (Table ℝ) →
    List (Table ℝ) × Except Exc (List (Table ℝ))
  | ch :: chs, tab :: tabs =>
    match propagateIn ch sed sky tab with
    | (tab', .error e) => (tab' :: tabs, .error e)
    | (tab', .ok t) =>
      match propagateAll sed sky chs tabs with
      | (tabs', .error e) => (tab' :: tabs', .error e)
      | (tabs', .ok ts) => (tab' :: tabs', .ok (t :: ts))
  | _, tabs => (tabs, .ok [])

/-- `exorad/tasks/propagateLight.py:29-45` `PropagateTargetLight`. -/
def propagateTarget (chs : List Channel) : Step := fun s =>
  match s.target.built with
  | none => (s, .error .attributeError)
  | some b =>
    match propagateAll b.sed s.target.sky.transmission chs s.tabs with
    | (tabs, .error e) => ({ s with tabs := tabs }, .error e)
    | (tabs, .ok ts) =>
      match Table.vstackTables ts with
      | .error e => ({ s with tabs := tabs }, .error e)
      | .ok (new, _) =>
        match updateWith s.target new with
        | .error e => ({ s with tabs := tabs }, .error e)
        | .ok (t, _) => (⟨tabs, t⟩, .ok ())

/-- `EstimateNoise` on the target (`exorad/tasks/noiseHandler.py:131-158`). After an exception the target's table may already
have its column `MaxSignal_inPixel`; here it is unchanged. -/
def noiseStep (chs : List Channel) : Step := fun s =>
  match s.target.table with
  | none => (s, .error .attributeError)
  | some t =>
    match estimateNoise t (chs.map (fun c => (c.noise, c.common))) with
    | .error e => (s, .error e)
    | .ok r => ({ s with target := { s.target with table := some r } }, .ok ())

/-- One task after the other, until one raises. `exorad/tasks/targetHandler.py:245-262`. -/
def runSteps : List Step → Step
  | [], s => (s, .ok ())
  | f :: fs, s =>
    match f s with
    | (s', .error e) => (s', .error e)
    | (s', .ok _) => runSteps fs s'

/-- The tasks of `exorad/tasks/targetHandler.py:230-248`, in order. -/
def steps (w : World) (p : Payload) : List Step :=
  [prepareTarget] ++
  (match p.foreground with
    | some sec => [estimateForegrounds w sec]
    | none => []) ++
  [propagateForeground p.channels, loadSource w p, propagateTarget p.channels, noiseStep p.channels]

/-- `exorad/tasks/targetHandler.py:223-250` `ObserveTarget`: the channel tables afterwards and the target or the
exception. -/
def observe (w : World) (p : Payload) (tabs : List (Table ℝ)) (t : Target) : List (Table ℝ) × Except Exc Target :=
  match runSteps (steps w p) ⟨tabs, t⟩ with
  | (s, .error e) => (s.tabs, .error e)
  | (s, .ok _) => (s.tabs, .ok s.target)

/-! ## Target lists -/

/-- Levels of `logging`. `exorad/log/__init__.py:53-80`. -/
inductive Level where
  | debug | info | warning | error
deriving DecidableEq, Repr

/-- The arguments `plot`, `out_dir`, `debug`, and the plotter: `draw` fails or not for the target's table
(`Plotter.plot_table`), `save` for the file name. `exorad/tasks/targetHandler.py:267-315`. -/
structure RunOpts where
  plot : Bool
  outDir : Option String
  debug : Bool
  draw : Table ℝ → Except Exc Unit
  save : String → Except Exc Unit

/-- What the process shares between targets: the channel tables and the level of the log. `exorad/tasks/targetHandler.py:391-397`, `exorad/log/__init__.py:53-80`. -/
structure Shared where
  tabs : List (Table ℝ)
  level : Level

/-- `exorad/tasks/targetHandler.py:293-304`: the plot of a target. `os.path.join(None, ..)` is a TypeError. -/
def plotTarget (o : RunOpts) (t : Target) : Except Exc Unit :=
  if o.plot then
    match o.draw (t.table.getD []) with
    | .error e => .error e
    | .ok _ =>
      match o.outDir with
      | none => .error .typeError
      | some d => o.save (d ++ "/" ++ t.name ++ ".png")
  else .ok ()

/-- `exorad/tasks/targetHandler.py:267-315` `pipeline_to_dict`: `none` for a target skipped. The log is set to ERROR
unless debugging, and to INFO afterwards (`exorad/log/__init__.py:67-80`). -/
def pipelineToDict (w : World) (p : Payload) (o : RunOpts) (s : Shared) (t : Target) : Shared × Option Target :=
  match observe w p s.tabs t with
  | (tabs, .error _) => (⟨tabs, .info⟩, none)
  | (tabs, .ok t') =>
    match plotTarget o t' with
    | .error _ => (⟨tabs, .info⟩, none)
    | .ok _ => (⟨tabs, .info⟩, some t')

/-- `exorad/tasks/targetHandler.py:391-397`: the targets one after the other, in this process. -/
def runList (w : World) (p : Payload) (o : RunOpts) : Shared → List Target → Shared × List (Option Target)
  | s, [] => (s, [])
  | s, t :: ts =>
    match pipelineToDict w p o s t with
    | (s', r) =>
      match runList w p o s' ts with
      | (s'', rs) => (s'', r :: rs)

/-- Work of a process pool: the calls finish in the order `sched` (positions in the list); every call works on
a copy of the channels as they were submitted, and its result goes into its own future. `exorad/tasks/targetHandler.py:374-390`. -/
def poolLoop (w : World) (p : Payload) (o : RunOpts) (s : Shared) (ts : List Target) :
    List Nat → Dict Nat (Option Target) → Dict Nat (Option Target)
  | [], done => done
  | i :: is, done =>
    match ts[i]? with
    | none => poolLoop w p o s ts is done
    | some t => poolLoop w p o s ts is (done.set i (pipelineToDict w p o s t).2)

/-- `exorad/tasks/targetHandler.py:374-390`: `executor.map` gives the results in the order of the targets. -/
def runPool (w : World) (p : Payload) (o : RunOpts) (sched : List Nat) (s : Shared) (ts : List Target) : List (Option Target) :=
  let done := poolLoop w p o s ts sched []
  (List.range ts.length).map (fun i => (Dict.get? done i).getD none)

/-- `outputDict[t_name] = output` for all results; the key and the value of a skipped target are None. `exorad/tasks/targetHandler.py:386-401`. -/
def collect (rs : List (Option Target)) : Dict (Option String) (Option Target) :=
  rs.foldl (fun d r => Dict.set d (r.map Target.name) r) []

/-- `exorad/tasks/targetHandler.py:361-401` `ObserveTargetlist`: what this process shares afterwards and the dictionary.
The workers of a pool have their own log. -/
def observeTargetlist (w : World) (p : Payload) (o : RunOpts) (nThread : Nat) (sched : List Nat) (s : Shared)
    (ts : List Target) : Shared × Dict (Option String) (Option Target) :=
  if 1 < nThread then (s, collect (runPool w p o sched s ts))
  else
    match runList w p o s ts with
    | (s', rs) => (s', collect rs)

end
end ExoRad.Pipeline
