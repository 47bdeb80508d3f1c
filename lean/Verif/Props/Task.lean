import Verif.Model.Task
import Verif.Lemmas.Dict
import Mathlib.Tactic.Push

/-! # C13, C14: task calls -/

namespace ExoRad
variable {σ V : Type}

theorem validateInput_none_iff (p : Dict String V) (ks : List String) :
    validateInput (some p) ks = none ↔ ∀ k ∈ ks, k ∈ p.keys := by
  induction ks with
  | nil => simp [validateInput]
  | cons k ks ih =>
    unfold validateInput
    by_cases h : k ∈ p.keys
    · simp [(Dict.has_iff p k).mpr h, ih, h]
    · simp [(Dict.has_eq_false_iff p k).mpr h, h]

theorem validateInput_some (p : Dict String V) (ks : List String) (h : ∃ k ∈ ks, k ∉ p.keys) :
    validateInput (some p) ks = some .valueError := by
  induction ks with
  | nil => simp at h
  | cons k ks ih =>
    unfold validateInput
    by_cases hk : k ∈ p.keys
    · simp only [(Dict.has_iff p k).mpr hk, if_true]
      apply ih
      obtain ⟨q, hq, hq'⟩ := h
      rcases List.mem_cons.mp hq with rfl | hq
      · exact absurd hk hq'
      · exact ⟨q, hq, hq'⟩
    · simp [(Dict.has_eq_false_iff p k).mpr hk]

theorem get?_populate (p kw : Dict String V) (hp : p.keys.Nodup) (k : String) :
    (populate p kw).get? k = if k ∈ kw.keys then kw.get? k else p.get? k := by
  induction p generalizing kw with
  | nil =>
    by_cases h : k ∈ kw.keys
    · simp [populate, h]
    · simp [populate, h, (Dict.get?_eq_none_iff kw k).mpr h]
  | cons q p ih =>
    obtain ⟨a, d⟩ := q
    rw [Dict.keys_cons, List.nodup_cons] at hp
    unfold populate
    rw [ih _ hp.2, Dict.get?_cons]
    by_cases ha : a ∈ kw.keys
    · rw [if_pos ((Dict.has_iff kw a).mpr ha)]
      by_cases hk : k ∈ kw.keys
      · simp [hk]
      · have : a ≠ k := fun e => hk (e ▸ ha)
        simp [hk, this]
    · have hf : kw.has a = false := (Dict.has_eq_false_iff kw a).mpr ha
      simp only [hf, Bool.false_eq_true, if_false]
      simp only [Dict.mem_keys_set, Dict.get?_set]
      by_cases hka : k = a
      · subst hka; simp [ha]
      · have : a ≠ k := fun e => hka e.symm
        simp [hka, this]

/-- C13: a call with an undeclared keyword raises ValueError and leaves the object exactly as it
was: the body does not run (for every body). -/
theorem call_unknown_keyword (body : Dict String V → σ → BodyResult σ V) (t : TaskObj σ V)
    (p : Dict String V) (hp : t.params = some p) (kw : Dict String V)
    (h : ∃ k ∈ kw.keys, k ∉ p.keys) :
    t.call body kw = (t, .error .valueError) := by
  unfold TaskObj.call
  rw [hp, validateInput_some p _ h]

/-- C13: otherwise the body runs exactly once, on inputs that give each declared parameter the
caller's value if there is one and the default if not, and nothing else. -/
theorem call_declared (body : Dict String V → σ → BodyResult σ V) (t : TaskObj σ V)
    (p : Dict String V) (hp : t.params = some p) (hn : p.keys.Nodup) (kw : Dict String V)
    (h : ∀ k ∈ kw.keys, k ∈ p.keys) :
    ∃ inp, (∀ k, inp.get? k = if k ∈ kw.keys then kw.get? k else p.get? k) ∧
      (∀ k, (inp.get? k).isSome ↔ k ∈ p.keys) ∧
      t.call body kw =
        ({ t with state := (body inp t.state).state,
                  output := (body inp t.state).product.or t.output },
          match (body inp t.state).raised with
          | some e => .error e
          | none => .ok ((body inp t.state).product.or t.output)) := by
  refine ⟨populate p kw, get?_populate p kw hn, ?_, ?_⟩
  · intro k
    rw [get?_populate p kw hn]
    by_cases hk : k ∈ kw.keys
    · simp [hk, (Dict.get?_isSome_iff kw k).mpr hk, h k hk]
    · simp [hk, Dict.get?_isSome_iff]
  · unfold TaskObj.call
    rw [hp, (validateInput_none_iff p kw.keys).mpr h]
    cases hr : (body (populate p kw) t.state).raised <;> simp [hr]

/-- C13: a task that never declared a parameter cannot be called at all. -/
theorem call_no_params (body : Dict String V → σ → BodyResult σ V) (t : TaskObj σ V)
    (hp : t.params = none) (kw : Dict String V) :
    t.call body kw = (t, .error .attributeError) := by
  unfold TaskObj.call
  rw [hp]
  cases kw with
  | nil => rfl
  | cons q kw => rfl

/-- Declared parameters: the last declaration of a name sets its default. -/
theorem addTaskParam_get (t : TaskObj σ V) (name : String) (d : V) (k : String) :
    ((t.addTaskParam name d).params.getD []).get? k =
      if k = name then some d else (t.params.getD []).get? k := by
  simp [TaskObj.addTaskParam, Dict.get?_set]

/-- A history of calls of one task object. -/
def runCalls (body : Dict String V → σ → BodyResult σ V) (t : TaskObj σ V) :
    List (Dict String V) → TaskObj σ V
  | [] => t
  | kw :: ks => runCalls body (t.call body kw).1 ks

theorem call_params (body : Dict String V → σ → BodyResult σ V) (t : TaskObj σ V)
    (kw : Dict String V) : (t.call body kw).1.params = t.params := by
  unfold TaskObj.call
  cases validateInput t.params kw.keys with
  | some e => rfl
  | none =>
    cases hp : t.params with
    | none => simp [hp]
    | some p =>
      simp only
      cases (body (populate p kw) t.state).raised <;> rfl

theorem runCalls_params (body : Dict String V → σ → BodyResult σ V) (t : TaskObj σ V)
    (hist : List (Dict String V)) : (runCalls body t hist).params = t.params := by
  induction hist generalizing t with
  | nil => rfl
  | cons kw ks ih => rw [runCalls, ih, call_params]

/-- C14, partial: after any history of calls, a call that returns gives the product its own run made
from its own inputs, provided the body calls `set_output` whenever it does not raise (as every task
of the package does). Missing from C14: bodies that do not set an output, see
`call_stale_output`. -/
theorem call_own_product_partial (body : Dict String V → σ → BodyResult σ V) (t₀ : TaskObj σ V)
    (p : Dict String V) (hp : t₀.params = some p) (hn : p.keys.Nodup)
    (hist : List (Dict String V))
    (hset : ∀ inp s, (body inp s).raised = none → (body inp s).product ≠ none)
    (kw : Dict String V) (v : Option V)
    (hv : ((runCalls body t₀ hist).call body kw).2 = .ok v) :
    ∃ inp x, (∀ k, inp.get? k = if k ∈ kw.keys then kw.get? k else p.get? k) ∧
      (body inp (runCalls body t₀ hist).state).product = some x ∧ v = some x := by
  have hp' := (runCalls_params body t₀ hist).trans hp
  generalize runCalls body t₀ hist = t at hv hp'
  by_cases hk : ∀ k ∈ kw.keys, k ∈ p.keys
  · obtain ⟨inp, h1, -, h3⟩ := call_declared body t p hp' hn kw hk
    rw [h3] at hv
    cases hr : (body inp t.state).raised with
    | some e => simp [hr] at hv
    | none =>
      cases hx : (body inp t.state).product with
      | none => exact absurd hx (hset _ _ hr)
      | some x =>
        simp [hr, hx] at hv
        exact ⟨inp, x, h1, hx, hv.symm⟩
  · push Not at hk
    rw [call_unknown_keyword body t p hp' kw hk] at hv
    cases hv

/-- C14 fails in general: if the body sets no output, the call returns the product of an earlier
call. -/
theorem call_stale_output (body : Dict String V → σ → BodyResult σ V) (t : TaskObj σ V)
    (p : Dict String V) (hp : t.params = some p) (hn : p.keys.Nodup) (kw : Dict String V)
    (h : ∀ k ∈ kw.keys, k ∈ p.keys)
    (hb : ∀ inp s, (body inp s).product = none ∧ (body inp s).raised = none) :
    (t.call body kw).2 = .ok t.output := by
  obtain ⟨inp, -, -, hc⟩ := call_declared body t p hp hn kw h
  rw [hc]
  simp [(hb inp t.state).1, (hb inp t.state).2]

/-- A body that sets an output only when `a = 1`. -/
def exBody (inp : Dict String Nat) (_ : Unit) : BodyResult Unit Nat :=
  ⟨(), if inp.get? "a" = some 1 then inp.get? "b" else none, none⟩

/-- A task with parameters `a` (default 0) and `b` (default 7). -/
def exTask : TaskObj Unit Nat :=
  ((⟨none, none, ()⟩ : TaskObj Unit Nat).addTaskParam "a" 0).addTaskParam "b" 7

/-- Non-vacuity: the first call uses the default of `b`; the second returns the stale product of the
first; an undeclared keyword is refused. -/
example : exTask.params = some [("a", 0), ("b", 7)] ∧
    (exTask.call exBody [("a", 1)]).2 = .ok (some 7) ∧
    ((exTask.call exBody [("a", 1)]).1.call exBody [("b", 3)]).2 = .ok (some 7) ∧
    (exTask.call exBody [("z", 1)]).2 = .error .valueError := ⟨by decide, rfl, rfl, rfl⟩

end ExoRad
