import Verif.Model.Log
import Verif.Model.Spawn

/-!
# Messages of a pool of processes: `exorad/tasks/targetHandler.py:373-390`, `exorad/log/`

With `n_thread > 1` the targets are observed by the workers of a `ProcessPoolExecutor`. Every worker has its own level and its own
handlers; the screen and the files are shared. A handler writes a whole line at once at the end of its file
(`logging.StreamHandler.emit` writes and flushes, files are opened for appending), so the lines of different workers
may come in any order but are not torn. A worker takes the next waiting target when it is done with one; which worker observes which
target and how their messages interleave are parameters.
-/

namespace ExoRad.Log

/-- What a worker has of its own. `exorad/tasks/targetHandler.py:374-390`, `exorad/log/__init__.py:53-92`. -/
structure Worker where
  level : Nat
  handlers : List String

/-- The workers, the screen and the files. `exorad/tasks/targetHandler.py:374-390`. -/
structure Pool where
  rank : Nat
  worker : Nat → Worker
  screen : List Msg
  files : Dict String (List Msg)

/-- The log of one worker. `exorad/tasks/targetHandler.py:374-390`. -/
def Pool.view (p : Pool) (i : Nat) : State := ⟨p.rank, (p.worker i).level, p.screen, (p.worker i).handlers, p.files⟩

/-- One worker does one thing to the log. `exorad/tasks/targetHandler.py:267-315` in a worker. -/
def Pool.step (p : Pool) (i : Nat) (e : Event) : Pool :=
  let s := Log.step (p.view i) e
  { p with worker := Function.update p.worker i ⟨s.level, s.handlers⟩, screen := s.screen, files := s.files }

/-- What happens, in order of time. `exorad/tasks/targetHandler.py:374-390`. -/
def Pool.run (p : Pool) (l : List (Nat × Event)) : Pool := l.foldl (fun p q => p.step q.1 q.2) p

/-- `exorad/tasks/targetHandler.py:267-315` `pipeline_to_dict`: what observing a target does to the log, as a history (see
`pipelineToDict`). -/
def obsEvents (debug : Bool) (o : Obs) : List Event :=
  [.msg (observing o)] ++ (if debug then [] else [.level ERROR]) ++ o.msgs.map .msg ++
    (if o.observed then [.level INFO] ++ o.plotMsgs.map .msg ++ (if o.plotted then [] else [.level INFO, .msg (skipped o)])
      else [.level INFO, .msg (skipped o)])

/-- The workers when they start: copies of the parent have its level and its handlers, new interpreters have the log of a
package just imported (`exorad/log/logger.py:53-81`): no files, INFO. -/
def startPool (m : Pipeline.Start) (s : State) : Pool where
  rank := s.rank
  worker := fun _ =>
    match m with
    | .fork => ⟨s.level, s.handlers⟩
    | .fresh => ⟨(fresh s.rank s.files).level, (fresh s.rank s.files).handlers⟩
  screen := s.screen
  files := s.files

/-- A history of the pool in which every worker observes its targets one after the other. `exorad/tasks/targetHandler.py:374-390`. -/
def Runs (debug : Bool) (tasks : Nat → List Obs) (l : List (Nat × Event)) : Prop :=
  ∀ i, (l.filter (fun q => q.1 = i)).map Prod.snd = (tasks i).flatMap (obsEvents debug)

/-- The log of the parent after the pool: its own level and handlers, what the screen shows and the files hold. `exorad/tasks/targetHandler.py:374-401`. -/
def afterPool (s : State) (p : Pool) : State := { s with screen := p.screen, files := p.files }

end ExoRad.Log
