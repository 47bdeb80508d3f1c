import Verif.Model.Py

/-!
# Messages: `exorad/log/__init__.py`, `exorad/log/logger.py`, and what a run logs

Every logger of the package is `exorad` or a child `exorad.<Class>` of it (`exorad/log/logger.py:53,92-96`), so every
message reaches the handlers of `exorad`: first the screen, then the files added by `addLogFile`. A level is its number in
`logging` (DEBUG 10, INFO 20, WARNING 30, ERROR 40, CRITICAL 50). Not modelled: the layout of a line (the date in particular),
closing or rotating files, and the handlers of other loggers (`propagate` is False, `exorad/log/logger.py:56`).
-/

namespace ExoRad.Log

/-- `logging.DEBUG` (`exorad/log/__init__.py:91`). -/
def DEBUG : Nat := 10
/-- `logging.INFO` (`exorad/log/__init__.py:53`, `:80`). -/
def INFO : Nat := 20
/-- `logging.WARNING`, of `exorad/log/logger.py:102-104`. -/
def WARNING : Nat := 30
/-- `logging.ERROR` (`exorad/log/__init__.py:69`). -/
def ERROR : Nat := 40

/-- A message: the level and the text. `exorad/log/logger.py:98-116`. -/
structure Msg where
  level : Nat
  text : String
deriving DecidableEq, Repr

/-- The log of a process. `exorad/log/__init__.py:53-92`, `exorad/log/logger.py:60-87`. -/
structure State where
  /-- The MPI rank, read when the package is imported (`exorad/log/logger.py:60-65`, `exorad/utils/mpi.py:26-44`) -/
  rank : Nat
  /-- The level of `root_logger.handlers[0]`, the screen -/
  level : Nat
  /-- What the screen shows, oldest first -/
  screen : List Msg
  /-- The names of the file handlers, in the order they were added -/
  handlers : List String
  /-- What the files of the machine hold, the oldest message first; a missing file is not a key -/
  files : Dict String (List Msg)
deriving DecidableEq, Repr

/-- `exorad/log/logger.py:53-81`: the log when the package is imported. -/
def fresh (rank : Nat) (files : Dict String (List Msg)) : State :=
  { rank := rank, level := INFO, screen := [], handlers := [], files := files }

/-- `exorad/log/logger.py:67-74` `ExoRadHandler.emit`, after the handler's own level was checked by `logging`. -/
def emitScreen (s : State) (m : Msg) : State :=
  if s.level ≤ m.level then
    if s.rank = 0 ∨ ERROR ≤ m.level then { s with screen := s.screen ++ [m] } else s
  else s

/-- A file handler (`exorad/log/__init__.py:86-92`): its level is DEBUG; it writes at the end of its file. -/
def emitFile (fs : Dict String (List Msg)) (f : String) (m : Msg) : Dict String (List Msg) :=
  if DEBUG ≤ m.level then fs.set f ((fs.get? f).getD [] ++ [m]) else fs

/-- A message of any logger of the package (`exorad/log/logger.py:98-116`): the level of `exorad` is DEBUG
(`exorad/log/logger.py:54`), its children have none of their own. -/
def log (s : State) (m : Msg) : State :=
  if DEBUG ≤ m.level then
    let s' := emitScreen s m
    { s' with files := s'.handlers.foldl (fun fs f => emitFile fs f m) s'.files }
  else s

/-- `exorad/log/__init__.py:56-62` `setLogLevel`. -/
def setLogLevel (s : State) (level : Nat) : State := { s with level := level }

/-- `exorad/log/__init__.py:65-69` -/
def disableLogging (s : State) : State := setLogLevel s ERROR

/-- `exorad/log/__init__.py:72-80` -/
def enableLogging (s : State) : State := setLogLevel s INFO

/-- `exorad/log/__init__.py:83-92` `addLogFile`: the file is opened for appending at once (`logging.FileHandler`), which
creates it; `openable` says whether it can be. Names stand for absolute paths, so two names are two files. -/
def addLogFile (openable : String → Bool) (s : State) (f : String) : State × Except Exc Unit :=
  if openable f then
    ({ s with handlers := s.handlers ++ [f], files := s.files.set f ((s.files.get? f).getD []) }, .ok ())
  else (s, .error .osError)

/-- What happens to the log: a message, a change of level, a file that could be opened. `exorad/log/__init__.py:56-92`, `exorad/log/logger.py:98-116`. -/
inductive Event where
  | msg (m : Msg)
  | level (n : Nat)
  | file (f : String)
deriving DecidableEq, Repr

/-- One event. `exorad/log/__init__.py:56-92`, `exorad/log/logger.py:98-116`. -/
def step (s : State) : Event → State
  | .msg m => log s m
  | .level n => setLogLevel s n
  | .file f => (addLogFile (fun _ => true) s f).1

/-- A history of events. Calls of `exorad/log/__init__.py:56-92` and `exorad/log/logger.py:98-116`. -/
def run (s : State) (es : List Event) : State := es.foldl step s

/-! ## What a run logs -/

/-- A target for the log: its name, what observing it logs, whether it succeeds, what plotting it logs and whether
that succeeds. `exorad/tasks/targetHandler.py:267-315`. -/
structure Obs where
  name : String
  msgs : List Msg
  observed : Bool
  plotMsgs : List Msg := []
  plotted : Bool := true
deriving DecidableEq, Repr

/-- The line a target starts with (`exorad/tasks/targetHandler.py:282`). -/
def observing (o : Obs) : Msg := ⟨INFO, "observing " ++ o.name⟩

/-- The line of a target that was skipped (`exorad/tasks/targetHandler.py:310-314`). -/
def skipped (o : Obs) : Msg := ⟨WARNING, "target " ++ o.name ++ " skipped. Please check for previous error messages"⟩

/-- Messages one after the other. Calls of `exorad/log/logger.py:98-116`. -/
def logAll (s : State) (ms : List Msg) : State := ms.foldl log s

/-- `exorad/tasks/targetHandler.py:267-315` `pipeline_to_dict`: what it does to the log. -/
def pipelineToDict (debug : Bool) (s : State) (o : Obs) : State :=
  let s := log s (observing o)
  let s := if debug then s else disableLogging s
  let s := logAll s o.msgs
  if o.observed then
    let s := enableLogging s
    let s := logAll s o.plotMsgs
    if o.plotted then s else log (enableLogging s) (skipped o)
  else log (enableLogging s) (skipped o)

/-- `exorad/tasks/targetHandler.py:393-399`: the targets one after the other. -/
def observeTargetlist (debug : Bool) (s : State) (os : List Obs) : State := os.foldl (pipelineToDict debug) s

/-- The argument `log` of `standard_pipeline`: a name, or a flag. -/
inductive LogArg where
  | name (f : String)
  | flag (b : Bool)
deriving DecidableEq, Repr

/-- The file asked for (`exorad/exorad.py:57-60`, `exorad/log/__init__.py:83`). -/
def LogArg.file : LogArg → Option String
  | .name f => some f
  | .flag true => some "exorad.log"
  | .flag false => none

/-- `exorad/exorad.py:50-60`: the beginning of `standard_pipeline`. `art`, `version` are the two lines it starts with. -/
def start (openable : String → Bool) (art version : String) (debug : Bool) (arg : LogArg) (s : State) : State × Except Exc Unit :=
  let s := log s ⟨INFO, art⟩
  let s := log s ⟨INFO, "code version " ++ version⟩
  let s := if debug then setLogLevel s DEBUG else s
  match arg.file with
  | some f => addLogFile openable s f
  | none => (s, .ok ())

/-- `exorad/exorad.py:39-121` `standard_pipeline` with one thread: `before` is what is logged between the beginning and the
observation of the targets (directories, payload, channels, efficiency plot, target list), `after` what is logged while saving.
A run that fails in these parts logs less; that is a shorter `before`, no targets, and an empty `after`. -/
def pipeline (openable : String → Bool) (art version : String) (debug : Bool) (arg : LogArg) (before : List Msg) (os : List Obs)
    (after : List Msg) (s : State) : State × Except Exc Unit :=
  match start openable art version debug arg s with
  | (s, .error e) => (s, .error e)
  | (s, .ok _) => (logAll (observeTargetlist debug (logAll s before) os) after, .ok ())

end ExoRad.Log
