import Verif.Model.Whole
import Verif.Model.Command

/-!
# The commands `exorad` and `exorad-plot`: `exorad/exorad.py` `main` and the run it starts, `exorad/utils/plotter.py` `main`

The words of the command line are the arguments of `standard_pipeline` (`Model/Command`), and these the parameters of the run (`Model/Whole`). The log file `exorad.log`
of `-l` is not among the files here (`Model/Log`).
-/

namespace ExoRad.Program
open Command
noncomputable section

/-- A text among the values of the namespace. (The options concerned have no other values: `exorad_types`.).
`exorad/exorad.py:201-210`, `exorad/utils/plotter.py:481-513`. -/
def text : Val → Word
  | .str w => w
  | _ => []

/-- A truth value among the values of the namespace (`exorad/exorad.py:201-210`). -/
def flag : Val → Bool
  | .bool b => b
  | _ => false

/-- `args.numberOfThreads` (`exorad/exorad.py:208`). -/
def count : Val → ℕ
  | .int n => n.toNat
  | _ => 1

/-- `exorad/exorad.py:200-209`: the arguments that name files, and `plot`. `path`: where the file system looks for a name, from the directory the command was started in. -/
def argsOf (path : Word → Run.Path) (c : Call) : Run.Args Whole.P Whole.R where
  options := .file (path (text c.options))
  targets := .file (path (text c.targetList))
  output := c.output.map (fun v => path (text v))
  replace := c.replace
  plot := flag c.plot

/-- `exorad/exorad.py:65,106-116`: the arguments `full_contrib` and `n_thread`, and those that are passed on to the targets (`plot`, `out_dir`, `debug`). -/
def outsideOf (o : Whole.Outside) (path : Word → Run.Path) (c : Call) : Whole.Outside :=
  { o with
    full := flag c.fullContrib
    nThread := count c.nThread
    opts := { o.opts with plot := flag c.plot, outDir := c.output.map (fun v => (path (text v)).dir), debug := flag c.debug } }

/-- `exorad/exorad.py:124-209` `main`: the process with the command line `ws`, on the files `fs`. `o` says what is outside of the program; its fields for the arguments of the run
(`full`, `nThread`, and `plot`, `outDir`, `debug`) are not used. -/
def program (o : Whole.Outside) (path : Word → Run.Path) (int : Word → Option Int) (ws : List Word) (fs : Run.FS Whole.V) : Run.Mach Whole.V × Except Exc Unit :=
  match main int ws with
  | .error e => (⟨fs, []⟩, .error e)
  | .ok c => Whole.run (outsideOf o path c) (argsOf path c) fs

/-- `exorad/utils/plotter.py:474-504`: the arguments of the plot command. `dir`: where the file system looks for the name of a directory. -/
def plotCmd (path : Word → Run.Path) (dir : Word → String) (c : PlotCall) : Plotter.Cmd :=
  ⟨path (text c.input), dir (text c.out), String.ofList (text c.targetNumber), String.ofList (text c.targetName)⟩

/-- `exorad/utils/plotter.py:420-514` `main` (the command `exorad-plot`): the process with the command line `ws`, on the files `fs`. -/
def plotProgram (order : List (Cell ℝ) → List (Cell ℝ)) (path : Word → Run.Path) (dir : Word → String) (int : Word → Option Int) (decode : String → Plotter.Input ℝ) (ws : List Word)
    (fs : Run.FS Whole.V) : Run.Mach Whole.V × Except Exc (List (Plotter.Fig ℝ)) :=
  match plotMain int ws with
  | .error e => (⟨fs, []⟩, .error e)
  | .ok c => Plotter.command order int decode (plotCmd path dir c) ⟨fs, []⟩

end
end ExoRad.Program
