import Verif.Model.Pipeline

/-!
# The processes of a pool and the working resolution: `exorad/utils/passVal.py`, `exorad/tasks/targetHandler.py`

`PassVal.working_R` lives in the process. `LoadOptions` sets it in the process that reads the payload
(`exorad/tasks/loadOptions.py:107-108`), and the grids of `EstimateZodi`, `EstimateForeground` and `LoadSource` read it in the process
that observes the target. With `n_thread > 1` that is a worker of a `ProcessPoolExecutor`
(`exorad/tasks/targetHandler.py:373-390`). The code does not choose how workers are started: they are copies of the parent (`fork`,
Linux up to Python 3.13), or new interpreters that import the package again (`spawn`, `forkserver`: Windows, macOS, Linux from
Python 3.14). The arguments of `pipeline_to_dict` are pickled in both cases.
-/

namespace ExoRad.Pipeline
noncomputable section

/-- How a worker starts. `exorad/tasks/targetHandler.py:374-390`. -/
inductive Start where
  | fork
  | fresh
deriving DecidableEq, Repr

/-- `exorad/utils/passVal.py:30`: the value after importing the package. -/
def importedR : ℕ := 6000

/-- What a process knows apart from the payload: constants and files, without the grids. `exorad/tasks/targetHandler.py:374-390`. -/
structure Setting where
  consts : Source.Consts ℝ
  env : Source.Env ℝ
  maps : Foreground.MapFiles ℝ

/-- The grids in a process with `PassVal.working_R = R`: `exorad/tasks/foregroundHandler.py:42-49`, `99-106` (in µm) and
`exorad/tasks/loadSource.py:65-72` (bare values of the sorted range). -/
def worldAt (k : Setting) (p : Payload) (R : ℕ) : World where
  consts := k.consts
  env := k.env
  maps := k.maps
  skyGrid := Instrument.logspace p.wlMin.um p.wlMax.um R
  grid := fun a b => Instrument.logspace a b R

/-- `PassVal.working_R` in a worker of a parent where it is `R`. `exorad/utils/passVal.py:25-41`, `exorad/tasks/targetHandler.py:374-390`. -/
def workerR (m : Start) (R : ℕ) : ℕ :=
  match m with
  | .fork => R
  | .fresh => importedR

/-- `exorad/tasks/targetHandler.py:361-401` `ObserveTargetlist` called in a process where `PassVal.working_R` is `R`. -/
def observeTargetlistOn (m : Start) (k : Setting) (R : ℕ) (p : Payload) (o : RunOpts) (nThread : Nat) (sched : List Nat) (s : Shared)
    (ts : List Target) : Shared × Dict (Option String) (Option Target) :=
  if 1 < nThread then (s, collect (runPool (worldAt k p (workerR m R)) p o sched s ts))
  else
    match runList (worldAt k p R) p o s ts with
    | (s', rs) => (s', collect rs)

end
end ExoRad.Pipeline
