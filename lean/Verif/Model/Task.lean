import Verif.Model.Py

/-!
# `exorad/tasks/task.py`: the Task base class, over an arbitrary body

A body (`execute`) may read its inputs, change the object's private state, call `set_output` and
raise. Simplification: log calls have no effect on the result.
-/

namespace ExoRad

/-- What one run of `execute` does: new private state, the last product passed to `set_output` in
this run (if any), and the exception it raises (if any). `exorad/tasks/task.py:26-59`. -/
structure BodyResult (σ V : Type) where
  state : σ
  product : Option V
  raised : Option Exc

/-- A task object. `params` is `_task_params` (`none`: class attribute `None`, no parameter was ever
declared; only the default of each parameter matters), `output` is `_output` (`none`: Python
`None`), `state` everything else the body can keep in `self`. `exorad/tasks/task.py:19-63`. -/
structure TaskObj (σ V : Type) where
  params : Option (Dict String V)
  output : Option V
  state : σ

/-- `exorad/tasks/task.py:61-67` `addTaskParam` (default value only). -/
def TaskObj.addTaskParam {σ V : Type} (t : TaskObj σ V) (name : String) (dflt : V) : TaskObj σ V :=
  { t with params := some ((t.params.getD []).set name dflt) }

/-- `exorad/tasks/task.py:41-45` `_validate_input_params`: the first undeclared keyword raises
ValueError; with no parameter declared at all the attribute is `None` and looking a keyword up in
it raises AttributeError. -/
def validateInput {V : Type} (params : Option (Dict String V)) : List String → Option Exc
  | [] => none
  | k :: ks =>
    match params with
    | none => some .attributeError
    | some p => if p.has k then validateInput (some p) ks else some .valueError

/-- `exorad/tasks/task.py:47-50` `_populate_empty_param`: defaults for the declared parameters the
caller did not give. -/
def populate {V : Type} : Dict String V → Dict String V → Dict String V
  | [], kw => kw
  | (k, d) :: ps, kw => populate ps (if kw.has k then kw else kw.set k d)

/-- `exorad/tasks/task.py:33-39` `__call__`. Returns the object afterwards and the result of the
call. -/
def TaskObj.call {σ V : Type} (body : Dict String V → σ → BodyResult σ V) (t : TaskObj σ V)
    (kw : Dict String V) : TaskObj σ V × Except Exc (Option V) :=
  match validateInput t.params kw.keys with
  | some e => (t, .error e)
  | none =>
    match t.params with
    | none => (t, .error .attributeError)
    | some p =>
      let r := body (populate p kw) t.state
      let t' := { t with state := r.state, output := r.product.or t.output }
      match r.raised with
      | some e => (t', .error e)
      | none => (t', .ok t'.output)

end ExoRad
