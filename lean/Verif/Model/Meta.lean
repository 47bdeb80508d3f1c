import Verif.Model.Pipeline

/-!
# The metadata of a target's table: `exorad/tasks/targetHandler.py`, `exorad/tasks/loadSource.py`

`table.meta` of a target's table is stored with the table and gives the title of its figure. The table of a target begins as the stack of the tables
of the channels. If `vstack_tables` stacks nothing (one channel, or the tables before the last have no rows) this *is* the table object of a channel, which
all targets of a run share; `UpdateTargetTable` replaces it with a new table.

Modelled: which table object the target holds, and the metadata of every table object. The columns are those of `Model/Pipeline`, which this model runs.
Assumed about astropy: `vstack` and `hstack` merge the metadata of their arguments, a later argument wins (values here are numbers and strings, which astropy
does not concatenate), and give a new table. The tables of the light and of the noise are new tables without metadata.
-/

namespace ExoRad.Meta
noncomputable section
open Pipeline

variable {V : Type}

/-- `table.meta`. `exorad/tasks/targetHandler.py:100-104`, `exorad/tasks/loadSource.py:182-196`. -/
abbrev Info (V : Type) := Dict String V

/-- The table object a target holds: the one of a channel, or its own with this metadata. `exorad/tasks/targetHandler.py:88-98`, `:127-147`. -/
inductive Obj (V : Type) where
  | channel (i : ℕ)
  | own (m : Info V)

/-- What is known of a target besides the numbers: the values of `target.name`, of the attributes of `target.star`, and what `update_target` sets
(`exorad/models/target.py:34-39`). -/
structure Card (V : Type) where
  name : V
  attr : String → V
  luminosity : V
  model : V

/-- The state of an observation with the metadata of the channels' tables. `exorad/tasks/targetHandler.py:223-265`. -/
structure MSt (V : Type) where
  st : St
  metas : List (Info V)
  obj : Option (Obj V)

/-- A task. One of the calls in `exorad/tasks/targetHandler.py:223-265`. -/
abbrev MStep (V : Type) := MSt V → MSt V × Except Exc Unit

/-- `meta.update(new)`, and the merge of two metadata. `exorad/tasks/targetHandler.py:145-146`, `exorad/tasks/loadSource.py:195`. -/
def merge (m new : Info V) : Info V := new.foldl (fun d kv => d.set kv.1 kv.2) m

/-- The metadata of the stack of tables with rows and metadata as given (`exorad/utils/util.py:79-94`): tables without rows in front are dropped. -/
def stackMeta : List (Table ℝ) → List (Info V) → Info V
  | [], _ => []
  | _, [] => []
  | [_], m :: _ => m
  | t :: ts, m :: ms => if t.rows = 0 then stackMeta ts ms else ms.foldl merge m

/-- The table object that `vstack_tables` returns for the channels' tables. `exorad/tasks/targetHandler.py:88-98`, `exorad/utils/util.py:79-94`. -/
def stacked (tabs : List (Table ℝ)) (metas : List (Info V)) : Obj V :=
  if tabs.dropLast.all (fun t => t.rows == 0) then .channel (tabs.length - 1) else .own (stackMeta tabs metas)

/-- The metadata of the object. `exorad/tasks/targetHandler.py:100-104`. -/
def current (s : MSt V) : Info V :=
  match s.obj with
  | none => []
  | some (.own m) => m
  | some (.channel i) => (s.metas[i]?).getD []

/-- Assigning in the metadata of the target's table. `exorad/tasks/targetHandler.py:101-102`, `exorad/tasks/loadSource.py:195`. -/
def write (f : Info V → Info V) (s : MSt V) : MSt V :=
  match s.obj with
  | none => s
  | some (.own m) => { s with obj := some (.own (f m)) }
  | some (.channel i) => { s with metas := s.metas.modify i f }

/-- `exorad/tasks/targetHandler.py:100-103` `add_metadata`. -/
def addMetadata (version : V) (c : Card V) (m : Info V) : Info V := (m.set "name" c.name).set "ExoRad version" version

/-- `exorad/tasks/targetHandler.py:85-98` `PrepareTarget`. -/
def prepareM (version : V) (c : Card V) : MStep V := fun s =>
  match prepareTarget s.st with
  | (st, .error e) => ({ s with st := st }, .error e)
  | (st, .ok _) => (write (addMetadata version c) { s with st := st, obj := some (stacked s.st.tabs s.metas) }, .ok ())

/-- A task that does not touch the table object. `exorad/tasks/targetHandler.py:223-265`. -/
def keepM (f : Step) : MStep V := fun s =>
  match f s.st with
  | (st, r) => ({ s with st := st }, r)

/-- A task that ends in `UpdateTargetTable` (`exorad/tasks/targetHandler.py:127-147`) with a table without metadata: a new table. -/
def updateM (f : Step) : MStep V := fun s =>
  match f s.st with
  | (st, .error e) => ({ s with st := st }, .error e)
  | (st, .ok _) => ({ s with st := st, obj := some (.own (merge (merge (current s) []) [])) }, .ok ())

/-- `exorad/tasks/loadSource.py:182-193`: the dictionary `metadata`. -/
def starMetadata (c : Card V) (attrs : List String) : Info V :=
  [("starName", c.attr "name"), ("starM", c.attr "M"), ("starTeff", c.attr "Teff"), ("starR", c.attr "R"), ("starDistance", c.attr "D"),
    ("starL", c.luminosity), ("starModel", c.model)] ++ (if "magk" ∈ attrs then [("starMagK", c.attr "magk")] else [])

/-- `LoadSource` with `exorad/tasks/loadSource.py:178-196`. -/
def loadSourceM (w : World) (p : Payload) (c : Card V) : MStep V := fun s =>
  match loadSource w p s.st with
  | (st, .error e) => ({ s with st := st }, .error e)
  | (st, .ok _) => (write (fun m => merge m (starMetadata c s.st.target.attrs)) { s with st := st }, .ok ())

/-- One task after the other, until one raises. `exorad/tasks/targetHandler.py:223-265`. -/
def runM : List (MStep V) → MStep V
  | [], s => (s, .ok ())
  | f :: fs, s =>
    match f s with
    | (s', .error e) => (s', .error e)
    | (s', .ok _) => runM fs s'

/-- The tasks of `exorad/tasks/targetHandler.py:230-248`, in order. `EstimateNoise` updates the table of the target too
(`exorad/tasks/noiseHandler.py:157`). -/
def stepsM (w : World) (p : Payload) (version : V) (c : Card V) : List (MStep V) :=
  [prepareM version c] ++
  (match p.foreground with
    | some sec => [keepM (estimateForegrounds w sec)]
    | none => []) ++
  [updateM (propagateForeground p.channels), loadSourceM w p c, updateM (propagateTarget p.channels), updateM (noiseStep p.channels)]

/-- `exorad/tasks/targetHandler.py:223-250`: the channels' tables and their metadata afterwards, and the target with the metadata of its table. -/
def observeM (w : World) (p : Payload) (version : V) (tabs : List (Table ℝ)) (metas : List (Info V)) (t : Target) (c : Card V) :
    (List (Table ℝ) × List (Info V)) × Except Exc (Target × Info V) :=
  match runM (stepsM w p version c) ⟨⟨tabs, t⟩, metas, none⟩ with
  | (s, .error e) => ((s.st.tabs, s.metas), .error e)
  | (s, .ok _) => ((s.st.tabs, s.metas), .ok (s.st.target, current s))

/-- `exorad/tasks/targetHandler.py:267-315` `pipeline_to_dict`. -/
def pipelineM (w : World) (p : Payload) (o : RunOpts) (version : V) (tabs : List (Table ℝ)) (metas : List (Info V)) (t : Target) (c : Card V) :
    (List (Table ℝ) × List (Info V)) × Option (Target × Info V) :=
  match observeM w p version tabs metas t c with
  | (sh, .error _) => (sh, none)
  | (sh, .ok r) =>
    match plotTarget o r.1 with
    | .error _ => (sh, none)
    | .ok _ => (sh, some r)

/-- `exorad/tasks/targetHandler.py:391-397`: the targets one after the other, in this process. -/
def runListM (w : World) (p : Payload) (o : RunOpts) (version : V) :
    List (Table ℝ) → List (Info V) → List (Target × Card V) → List (Option (Target × Info V))
  | _, _, [] => []
  | tabs, metas, t :: ts =>
    match pipelineM w p o version tabs metas t.1 t.2 with
    | (sh, r) => r :: runListM w p o version sh.1 sh.2 ts

end
end ExoRad.Meta
