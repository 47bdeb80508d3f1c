import Verif.Model.Hdf5

/-!
# A whole run: `exorad/exorad.py` `standard_pipeline` and its effects on files

What the steps compute is given (`Env`): everything stated about a run holds for every payload builder, target loader and
observation. What is modelled is which files are read, written and removed, in which order, and what an exception or an
interruption leaves behind. A file is found by its resolved absolute directory and its name; directories, symbolic
links, permissions, the log file (`exorad/log/__init__.py`) and figures shown on the screen are not modelled.
-/

namespace ExoRad.Run
open Hdf5

/-- A resolved path. `exorad/exorad.py:62-79`. -/
structure Path where
  dir : String
  base : String
deriving DecidableEq, Repr

/-- Contents of a file. `torn`: an interrupted or unfinished write. The files of `exorad/exorad.py:62-121`. -/
inductive File (V : Type) where
  | h5 (g : Group V)
  | bytes (s : String)
  | torn

/-- The files on disk. The files of `exorad/exorad.py:62-121`. -/
abbrev FS (V : Type) := Dict Path (File V)

/-- The disk, and every state it went through. `exorad/exorad.py:62-121`. -/
structure Mach (V : Type) where
  cur : FS V
  past : List (FS V) := []

variable {V : Type}

/-- Every state of the disk so far, the current one last. `exorad/exorad.py:62-121`. -/
def Mach.states (m : Mach V) : List (FS V) := m.past ++ [m.cur]

/-- One change of the disk (`exorad/exorad.py:62-121`). -/
def Mach.step (m : Mach V) (fs : FS V) : Mach V := ⟨fs, m.past ++ [m.cur]⟩

/-- Write a file: unfinished, then complete. As `exorad/exorad.py:73-79`, `:120-121`. -/
def Mach.write (m : Mach V) (p : Path) (f : File V) : Mach V :=
  let m := m.step (m.cur.set p .torn)
  m.step (m.cur.set p f)

/-- `os.remove`. `exorad/exorad.py:65`. -/
def Mach.remove (m : Mach V) (p : Path) : Mach V := m.step (m.cur.removeAll [p])

/-- Run a step after one that may have raised. `exorad/exorad.py:62-121`. -/
def andThen {α β : Type} (r : Mach V × Except Exc α) (f : Mach V → α → Mach V × Except Exc β) : Mach V × Except Exc β :=
  match r.2 with
  | .error e => (r.1, .error e)
  | .ok x => f r.1 x

/-- An argument that is a file, or an object already in memory (a payload dictionary, a `QTable`). `exorad/exorad.py:39-41`, `exorad/tasks/targetHandler.py:47-62`. -/
inductive Src (P : Type) where
  | file (p : Path)
  | obj (x : P)

/-- `shutil.copy(src, out_dir)`: FileNotFoundError if there is no such file, TypeError for something that is not a path;
SameFileError is caught (`exorad/exorad.py:67-74`). -/
def copyInto {P : Type} (src : Src P) (dir : String) (m : Mach V) : Mach V × Except Exc Unit :=
  match src with
  | .obj _ => (m, .error .typeError)
  | .file p =>
    match m.cur.get? p with
    | none => (m, .error .osError)
    | some f => if p = ⟨dir, p.base⟩ then (m, .ok ()) else (m.write ⟨dir, p.base⟩ f, .ok ())

/-- A channel as it is written (`exorad/models/instruments/instrument.py:73-84`). -/
structure ChanRec (V : Type) where
  name : String
  tableId : String
  cols : List (String × V × Option String)
  description : List (String × Item V)
  built : List (String × Item V)

/-- What the steps of the run compute. `P`: a loaded payload with its channels, `R`: the rows of a target list,
`T`: an observed target. `exorad/exorad.py:84-116`. -/
structure Env (V P R T : Type) where
  /-- The attributes of `exorad/output/hdf5/hdf5.py:203-217` -/
  attrs : List (String × Item V)
  /-- `LoadOptions` on the contents of a file -/
  loadXml : File V → Except Exc P
  /-- The payload description as a dictionary -/
  describe : P → List (String × Item V)
  /-- `BuildInstrument` on the channels, in order -/
  build : P → List (Except Exc (ChanRec V))
  /-- `LoadPayload` -/
  loadH5 : Group V → Except Exc P
  /-- `payload["common"]["wl_min"]["value"]` and `wl_max` -/
  range : P → Except Exc Unit
  /-- `plotter.plot_efficiency`: whether it makes a figure -/
  drawEfficiency : P → Except Exc Bool
  /-- The loaders of target lists for `.csv` and `.xlsx` -/
  loadCsv : File V → Except Exc R
  loadXlsx : File V → Except Exc R
  /-- `ObserveTargetlist`: the names of the targets plotted, and the dictionary -/
  observe : P → R → List String × Dict (Option String) (Option T)
  /-- `target.to_dict()` -/
  items : T → List (String × Item V)
  name : T → String

/-- The arguments of `standard_pipeline`. -/
structure Args (P R : Type) where
  options : Src P
  targets : Src R
  output : Option Path
  replace : Bool := true
  plot : Bool := false

variable {P R T : Type}

/-- The file an HDF5 session works on (`exorad/output/hdf5/hdf5.py:196-232`): a new one, or an existing HDF5 file to which the
group `info` is added if missing. Times and attributes on the root group are not modelled. -/
def withInfo (env : Env V P R T) (g : Group V) : Group V :=
  if g.has "info" then g else (storeThing (.dict [("ExoRad", .dict env.attrs)]) "info" g).1

/-- `with HDF5Output(path, append) as out: …`: the file is closed also after an exception. OSError for a file that
is not HDF5. `exorad/exorad.py:120`, `exorad/output/output.py:69-74`, `exorad/output/hdf5/hdf5.py:189-243`. -/
def session (env : Env V P R T) (p : Path) (f : Group V → W V) (m : Mach V) : Mach V × Except Exc Unit :=
  match m.cur.get? p with
  | none => let r := f (withInfo env []); (m.write p (.h5 r.1), r.2)
  | some (.h5 g) => let r := f (withInfo env g); (m.write p (.h5 r.1), r.2)
  | some _ => (m, .error .osError)

/-- One channel inside the group `payload` (`instrument.py:73-84`). -/
def channelItem (c : ChanRec V) : Item V :=
  .dict [("channels", .dict [(c.name, .dict [(c.name, .table c.tableId c.cols), ("description", .dict c.description),
    ("built_instr", .dict c.built)])])]

/-- The loop of `exorad/tasks/instrumentHandler.py:120-152`: build a channel, write it, go on. -/
def writeChannels : List (Except Exc (ChanRec V)) → Group V → W V
  | [], g => (g, .ok ())
  | .error e :: _, g => (g, .error e)
  | .ok c :: cs, g =>
    match storeThing (channelItem c) "payload" g with
    | (g, .error e) => (g, .error e)
    | (g, .ok _) => writeChannels cs g

/-- `exorad/tasks/instrumentHandler.py:103-153` `BuildChannels` with `write=True`. -/
def writePayload (env : Env V P R T) (pl : P) (g : Group V) : W V :=
  match storeThing (.dict [("payload description", .dict (env.describe pl)), ("channels", .dict [])]) "payload" g with
  | (g, .error e) => (g, .error e)
  | (g, .ok _) => writeChannels (env.build pl) g

/-- `BuildChannels` without output: the first channel that cannot be built raises. `exorad/tasks/instrumentHandler.py:103-150`. -/
def buildOnly : List (Except Exc (ChanRec V)) → Except Exc Unit
  | [] => .ok ()
  | .error e :: _ => .error e
  | .ok _ :: cs => buildOnly cs

/-- Build the channels of a payload, and write it if there is an output (`instrumentHandler.py:260-276`). -/
def buildPayload (env : Env V P R T) (out : Option Path) (pl : P) (m : Mach V) : Mach V × Except Exc Unit :=
  match out with
  | some o => session env o (writePayload env pl) m
  | none => (m, buildOnly (env.build pl))

/-- `exorad/tasks/instrumentHandler.py:239-288` `PreparePayload`, on a path by its extension. -/
def preparePayload (env : Env V P R T) (src : Src P) (out : Option Path) (m : Mach V) : Mach V × Except Exc P :=
  let loaded : Except Exc (P × Bool) :=
    match src with
    | .obj pl => .ok (pl, true)
    | .file p =>
      if ext p.base = ".xml" then
        match m.cur.get? p with
        | none => .error .osError
        | some f =>
          match env.loadXml f with
          | .error e => .error e
          | .ok pl => .ok (pl, true)
      else if ext p.base = ".h5" ∨ ext p.base = ".hdf5" then
        match m.cur.get? p with
        | some (.h5 g) =>
          match env.loadH5 g with
          | .error e => .error e
          | .ok pl => .ok (pl, false)
        | _ => .error .osError
      else .error .osError
  match loaded with
  | .error e => (m, .error e)
  | .ok (pl, build) =>
    andThen (if build then buildPayload env out pl m else (m, .ok ())) (fun m _ =>
      match env.range pl with
      | .error e => (m, .error e)
      | .ok _ => (m, .ok pl))

/-- `exorad/tasks/targetHandler.py:38-64` `LoadTargetList`: by the extension. The loaders' own KeyErrors become OSError. (A
TypeError of a loader makes it try the file name as a table; that is part of `loadCsv` and `loadXlsx`.) -/
def loadTargets (env : Env V P R T) (src : Src R) (m : Mach V) : Except Exc R :=
  match src with
  | .obj r => .ok r
  | .file p =>
    let loader : Option (File V → Except Exc R) :=
      if ext p.base = ".csv" then some env.loadCsv else if ext p.base = ".xlsx" then some env.loadXlsx else none
    match loader with
    | none => .error .osError
    | some load =>
      match m.cur.get? p with
      | none => .error .osError
      | some f =>
        match load f with
        | .error .keyError => .error .osError
        | r => r

/-- `exorad/exorad.py:57-60`: the old output is removed. -/
def removeOld (a : Args P R) (m : Mach V) : Mach V :=
  match a.output with
  | none => m
  | some out => if a.replace && (m.cur.get? out).isSome then m.remove out else m

/-- `exorad/exorad.py:62-76`: the inputs are copied next to the output. -/
def copyInputs (a : Args P R) (m : Mach V) : Mach V × Except Exc Unit :=
  match a.output with
  | none => (m, .ok ())
  | some out => andThen (copyInto a.options out.dir m) (fun m _ => copyInto a.targets out.dir m)

/-- The file of a figure. `exorad/exorad.py:33`, `exorad/tasks/targetHandler.py:267-315`. -/
def figure (dir name : String) : Path := ⟨dir, name ++ ".png"⟩

/-- `exorad/exorad.py:25-37`. Without a figure `save_fig` only logs (`exorad/utils/plotter.py:407-417`). -/
def efficiencyPlot (env : Env V P R T) (a : Args P R) (pl : P) (m : Mach V) : Mach V × Except Exc Unit :=
  if a.plot then
    match env.drawEfficiency pl with
    | .error e => (m, .error e)
    | .ok false => (m, .ok ())
    | .ok true =>
      match a.output with
      | none => (m, .ok ())
      | some out => (m.write (figure out.dir "efficiency") (.bytes "png"), .ok ())
  else (m, .ok ())

/-- The figures of the targets (`exorad/tasks/targetHandler.py:293-304`). Names with `/` are not modelled. -/
def targetPlots (a : Args P R) (names : List String) (m : Mach V) : Mach V :=
  match a.plot, a.output with
  | true, some out => names.foldl (fun m n => m.write (figure out.dir n) (.bytes "png")) m
  | _, _ => m

/-- `Target.write` (`exorad/models/target.py:44-51`). -/
def writeTarget (env : Env V P R T) (t : T) (g : Group V) : W V :=
  storeThing (.dict [(env.name t, .dict (env.items t))]) "targets" g

/-- The loop of `exorad/exorad.py:117-121`: a skipped target is None, which has no `write`. -/
def saveTargets (env : Env V P R T) (out : Path) : List (Option T) → Mach V → Mach V × Except Exc Unit
  | [], m => (m, .ok ())
  | none :: _, m => session env out (fun g => (g, .error .attributeError)) m
  | some t :: ts, m =>
    match session env out (writeTarget env t) m with
    | (m, .error e) => (m, .error e)
    | (m, .ok _) => saveTargets env out ts m

/-- `exorad/exorad.py:98-121`: the targets. -/
def observeAndSave (env : Env V P R T) (a : Args P R) (pl : P) (m : Mach V) : Mach V × Except Exc Unit :=
  match loadTargets env a.targets m with
  | .error e => (m, .error e)
  | .ok rows =>
    let r := env.observe pl rows
    let m := targetPlots a r.1 m
    match a.output with
    | none => (m, .ok ())
    | some out => saveTargets env out (r.2.map Prod.snd) m

/-- `exorad/exorad.py:40-121` `standard_pipeline`, from the files on disk. The options `full_contrib` (lines 83-97), `debug`
and `log` are not modelled. -/
def pipeline (env : Env V P R T) (a : Args P R) (fs : FS V) : Mach V × Except Exc Unit :=
  andThen (copyInputs a (removeOld a ⟨fs, []⟩)) (fun m _ =>
    andThen (preparePayload env a.options a.output m) (fun m pl =>
      andThen (efficiencyPlot env a pl m) (fun m _ => observeAndSave env a pl m)))

end ExoRad.Run
