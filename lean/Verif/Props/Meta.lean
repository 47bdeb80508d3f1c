import Verif.Model.Meta
import Verif.Lemmas.PipelineKeys
import Verif.Lemmas.Stack
import Verif.Props.Pipeline
import Verif.Props.CompleteDemo

/-!
# The metadata of every result are its own
-/

set_option linter.unusedSectionVars false
set_option linter.unusedVariables false

namespace ExoRad.Meta
noncomputable section
open Pipeline Table

variable {V : Type}

/-! ## Specification -/

/-- What the metadata of the table of a target must be: its name, the version of the package, and what is known of its star. `none`: no such entry. -/
def owned (version : V) (t : Target) (c : Card V) (k : String) : Option V :=
  if k = "name" then some c.name
  else if k = "ExoRad version" then some version
  else if k = "starName" then some (c.attr "name")
  else if k = "starM" then some (c.attr "M")
  else if k = "starTeff" then some (c.attr "Teff")
  else if k = "starR" then some (c.attr "R")
  else if k = "starDistance" then some (c.attr "D")
  else if k = "starL" then some c.luminosity
  else if k = "starModel" then some c.model
  else if k = "starMagK" then (if "magk" ∈ t.attrs then some (c.attr "magk") else none)
  else none

/-- Metadata as a channel's table may have them: no entry but a name and a version. -/
def Plain (m : Info V) : Prop := ∀ k, k ≠ "name" → k ≠ "ExoRad version" → m.get? k = none

/-! ## The metadata model runs the pipeline -/

/-- The task with metadata does what the task does. -/
def Refines (g : MStep V) (f : Step) : Prop := ∀ s, (g s).1.st = (f s.st).1 ∧ (g s).2 = (f s.st).2

theorem write_st (f : Info V → Info V) (s : MSt V) : (write f s).st = s.st := by
  unfold write
  split <;> rfl

theorem prepareM_refines (version : V) (c : Card V) : Refines (prepareM version c) prepareTarget := by
  intro s
  unfold prepareM
  cases h : prepareTarget s.st with
  | mk st r => cases r <;> simp [write_st]

theorem keepM_refines (f : Step) : Refines (keepM f : MStep V) f := by
  intro s
  unfold keepM
  cases h : f s.st with
  | mk st r => cases r <;> simp

theorem updateM_refines (f : Step) : Refines (updateM f : MStep V) f := by
  intro s
  unfold updateM
  cases h : f s.st with
  | mk st r => cases r <;> simp

theorem loadSourceM_refines (w : World) (p : Payload) (c : Card V) : Refines (loadSourceM w p c) (loadSource w p) := by
  intro s
  unfold loadSourceM
  cases h : loadSource w p s.st with
  | mk st r => cases r <;> simp [write_st]

theorem runM_refines : ∀ (gs : List (MStep V)) (fs : List Step), List.Forall₂ Refines gs fs → Refines (runM gs) (runSteps fs)
  | _, _, .nil => fun s => ⟨rfl, rfl⟩
  | _, _, .cons (a := g) (b := f) (l₁ := gs) (l₂ := fs) h hs => by
    intro s
    obtain ⟨h1, h2⟩ := h s
    unfold runM runSteps
    cases hg : g s with
    | mk s' r =>
      cases hf : f s.st with
      | mk st' r' =>
        rw [hg, hf] at h1 h2
        simp only at h1 h2
        subst h1 h2
        cases r with
        | error e => exact ⟨rfl, rfl⟩
        | ok u => exact runM_refines gs fs hs s'

theorem steps_refines (w : World) (p : Payload) (version : V) (c : Card V) : Refines (runM (stepsM w p version c)) (runSteps (steps w p)) := by
  apply runM_refines
  unfold stepsM steps
  cases p.foreground with
  | none =>
    exact .cons (prepareM_refines _ _) (.cons (updateM_refines _) (.cons (loadSourceM_refines _ _ _)
      (.cons (updateM_refines _) (.cons (updateM_refines _) .nil))))
  | some sec =>
    exact .cons (prepareM_refines _ _) (.cons (keepM_refines _) (.cons (updateM_refines _) (.cons (loadSourceM_refines _ _ _)
      (.cons (updateM_refines _) (.cons (updateM_refines _) .nil)))))

/-- The observation with metadata is the observation of `Model/Pipeline`. -/
theorem observeM_observe (w : World) (p : Payload) (version : V) (tabs : List (Table ℝ)) (metas : List (Info V)) (t : Target) (c : Card V) :
    (observeM w p version tabs metas t c).1.1 = (observe w p tabs t).1 ∧
    (observeM w p version tabs metas t c).2.map Prod.fst = (observe w p tabs t).2 := by
  obtain ⟨h1, h2⟩ := steps_refines w p version c ⟨⟨tabs, t⟩, metas, none⟩
  unfold observeM observe
  cases hm : runM (stepsM w p version c) ⟨⟨tabs, t⟩, metas, none⟩ with
  | mk s r =>
    cases hp : runSteps (steps w p) ⟨tabs, t⟩ with
    | mk s' r' =>
      rw [hm, hp] at h1 h2
      simp only at h1 h2
      subst h1 h2
      cases r <;> simp [Except.map]

theorem pipelineM_pipeline (w : World) (p : Payload) (o : RunOpts) (version : V) (s : Shared) (metas : List (Info V)) (t : Target) (c : Card V) :
    (pipelineM w p o version s.tabs metas t c).1.1 = (pipelineToDict w p o s t).1.tabs ∧
    (pipelineM w p o version s.tabs metas t c).2.map Prod.fst = (pipelineToDict w p o s t).2 := by
  obtain ⟨h1, h2⟩ := observeM_observe w p version s.tabs metas t c
  unfold pipelineM pipelineToDict
  cases hm : observeM w p version s.tabs metas t c with
  | mk sh r =>
    cases hp : observe w p s.tabs t with
    | mk tabs' r' =>
      rw [hm, hp] at h1 h2
      simp only at h1 h2
      subst h1 h2
      cases r with
      | error e => exact ⟨rfl, rfl⟩
      | ok r =>
        simp only [Except.map]
        cases plotTarget o r.1 <;> exact ⟨rfl, rfl⟩

/-- The results with metadata are the results of `runList`. -/
theorem runListM_runList (w : World) (p : Payload) (o : RunOpts) (version : V) : ∀ (ts : List (Target × Card V)) (s : Shared) (metas : List (Info V)),
    (runListM w p o version s.tabs metas ts).map (Option.map Prod.fst) = (runList w p o s (ts.map Prod.fst)).2
  | [], _, _ => rfl
  | t :: ts, s, metas => by
    obtain ⟨h1, h2⟩ := pipelineM_pipeline w p o version s metas t.1 t.2
    simp only [runListM, List.map_cons, runList]
    rw [h1, h2]
    exact congrArg _ (runListM_runList w p o version ts _ _)

/-! ## Dictionaries -/

theorem merge_nil (m : Info V) : merge m [] = m := rfl

theorem get?_merge_ne (k : String) : ∀ (new m : Info V), (∀ q ∈ new, q.1 ≠ k) → (merge m new).get? k = m.get? k
  | [], _, _ => rfl
  | q :: new, m, h => by
    have e : merge m (q :: new) = merge (m.set q.1 q.2) new := rfl
    rw [e, get?_merge_ne k new _ (fun x hx => h x (by simp [hx])), Dict.get?_set_ne _ _ (h q (by simp)).symm]

theorem plain_merge {m new : Info V} (h1 : Plain m) (h2 : Plain new) : Plain (merge m new) := by
  intro k h3 h4
  rw [get?_merge_ne, h1 k h3 h4]
  rintro q hq rfl
  have := h2 q.1 h3 h4
  have hk : q.1 ∈ Dict.keys new := List.mem_map_of_mem hq
  obtain ⟨v, hv⟩ := Dict.exists_get? hk
  rw [hv] at this
  cases this

theorem plain_foldl : ∀ (ms : List (Info V)) (m : Info V), Plain m → (∀ x ∈ ms, Plain x) → Plain (ms.foldl merge m)
  | [], _, h, _ => h
  | x :: ms, m, h, hs => plain_foldl ms _ (plain_merge h (hs x (by simp))) (fun y hy => hs y (by simp [hy]))

theorem plain_nil : Plain ([] : Info V) := fun _ _ _ => rfl

theorem plain_stackMeta : ∀ (ts : List (Table ℝ)) (ms : List (Info V)), (∀ x ∈ ms, Plain x) → Plain (stackMeta ts ms)
  | [], _, _ => plain_nil
  | _ :: _, [], _ => by unfold stackMeta; exact plain_nil
  | [t], m :: ms, h => h m (by simp)
  | t :: u :: ts, m :: ms, h => by
    unfold stackMeta
    split
    · exact plain_stackMeta (u :: ts) ms (fun x hx => h x (by simp [hx]))
    · exact plain_foldl ms m (h m (by simp)) (fun x hx => h x (by simp [hx]))

/-- After `add_metadata`. -/
structure Named (version : V) (c : Card V) (m : Info V) : Prop where
  name : m.get? "name" = some c.name
  version : m.get? "ExoRad version" = some version
  plain : Plain m

theorem named_add (version : V) (c : Card V) {m : Info V} (h : Plain m) : Named version c (addMetadata version c m) := by
  unfold addMetadata
  refine ⟨?_, by simp, ?_⟩
  · rw [Dict.get?_set_ne _ _ (by decide)]; simp
  · intro k h1 h2
    rw [Dict.get?_set_ne _ _ h2, Dict.get?_set_ne _ _ h1, h k h1 h2]

/-- After `_add_star_metadata`. -/
theorem owned_star {version : V} {c : Card V} {m : Info V} (h : Named version c m) (t : Target) (k : String) :
    (merge m (starMetadata c t.attrs)).get? k = owned version t c k := by
  obtain ⟨h1, h2, h3⟩ := h
  have e : ∀ m : Info V, merge m (starMetadata c t.attrs) =
      (if "magk" ∈ t.attrs then Dict.set (Dict.set (Dict.set (Dict.set (Dict.set (Dict.set (Dict.set (Dict.set m "starName" (c.attr "name")) "starM" (c.attr "M"))
          "starTeff" (c.attr "Teff")) "starR" (c.attr "R")) "starDistance" (c.attr "D")) "starL" c.luminosity) "starModel" c.model) "starMagK" (c.attr "magk")
        else Dict.set (Dict.set (Dict.set (Dict.set (Dict.set (Dict.set (Dict.set m "starName" (c.attr "name")) "starM" (c.attr "M"))
          "starTeff" (c.attr "Teff")) "starR" (c.attr "R")) "starDistance" (c.attr "D")) "starL" c.luminosity) "starModel" c.model) := by
    intro m
    unfold starMetadata merge
    by_cases ha : "magk" ∈ t.attrs
    · rw [if_pos ha, if_pos ha]; rfl
    · rw [if_neg ha, if_neg ha]; rfl
  rw [e]
  by_cases k1 : k = "name"
  · subst k1
    by_cases ha : "magk" ∈ t.attrs <;> simp [ha, owned, Dict.get?_set, h1]
  by_cases k2 : k = "ExoRad version"
  · subst k2
    by_cases ha : "magk" ∈ t.attrs <;> simp [ha, owned, Dict.get?_set, h2]
  have h := h3 k k1 k2
  by_cases k3 : k = "starName"
  · subst k3
    by_cases ha : "magk" ∈ t.attrs <;> simp [ha, owned, Dict.get?_set]
  by_cases k4 : k = "starM"
  · subst k4
    by_cases ha : "magk" ∈ t.attrs <;> simp [ha, owned, Dict.get?_set]
  by_cases k5 : k = "starTeff"
  · subst k5
    by_cases ha : "magk" ∈ t.attrs <;> simp [ha, owned, Dict.get?_set]
  by_cases k6 : k = "starR"
  · subst k6
    by_cases ha : "magk" ∈ t.attrs <;> simp [ha, owned, Dict.get?_set]
  by_cases k7 : k = "starDistance"
  · subst k7
    by_cases ha : "magk" ∈ t.attrs <;> simp [ha, owned, Dict.get?_set]
  by_cases k8 : k = "starL"
  · subst k8
    by_cases ha : "magk" ∈ t.attrs <;> simp [ha, owned, Dict.get?_set]
  by_cases k9 : k = "starModel"
  · subst k9
    by_cases ha : "magk" ∈ t.attrs <;> simp [ha, owned, Dict.get?_set]
  by_cases k10 : k = "starMagK"
  · subst k10
    by_cases ha : "magk" ∈ t.attrs
    · simp [ha, owned]
    · simp [ha, owned, Dict.get?_set, h]
  unfold owned
  rw [if_neg k1, if_neg k2, if_neg k3, if_neg k4, if_neg k5, if_neg k6, if_neg k7, if_neg k8, if_neg k9, if_neg k10]
  split
  · rw [Dict.get?_set_ne _ _ k10, Dict.get?_set_ne _ _ k9, Dict.get?_set_ne _ _ k8, Dict.get?_set_ne _ _ k7, Dict.get?_set_ne _ _ k6, Dict.get?_set_ne _ _ k5,
      Dict.get?_set_ne _ _ k4, Dict.get?_set_ne _ _ k3, h]
  · rw [Dict.get?_set_ne _ _ k9, Dict.get?_set_ne _ _ k8, Dict.get?_set_ne _ _ k7, Dict.get?_set_ne _ _ k6, Dict.get?_set_ne _ _ k5,
      Dict.get?_set_ne _ _ k4, Dict.get?_set_ne _ _ k3, h]

/-! ## The steps -/

/-- The channels keep their number of tables, and their metadata stay plain. -/
structure Keeps (n : ℕ) (s : MSt V) : Prop where
  tabs : s.st.tabs.length = n
  metas : s.metas.length = n
  plain : ∀ m ∈ s.metas, Plain m

theorem prepareTarget_length (s : St) : (prepareTarget s).1.tabs.length = s.tabs.length := by
  unfold prepareTarget
  split
  · rfl
  · rename_i h; exact (vstackTables_length _ _ _ h)
  · rename_i h; exact (vstackTables_length _ _ _ h)

theorem propagateForeground_length (chs : List Channel) (s : St) : (propagateForeground chs s).1.tabs.length = s.tabs.length := by
  unfold propagateForeground
  split
  · rfl
  split
  · rfl
  split
  · rfl
  · exact removeShared_length _ _

theorem propagateAll_length (sed : Rebin.Signal ℝ) (sky : Option (Rebin.Signal ℝ)) : ∀ (chs : List Channel) (tabs : List (Table ℝ)),
    (propagateAll sed sky chs tabs).1.length = tabs.length
  | [], _ => by unfold propagateAll; rfl
  | _ :: _, [] => by unfold propagateAll; rfl
  | ch :: chs, tab :: tabs => by
    have ih := propagateAll_length sed sky chs tabs
    unfold propagateAll
    cases propagateIn ch sed sky tab with
    | mk tab' r =>
      cases r with
      | error e => rfl
      | ok t =>
        simp only
        cases h : propagateAll sed sky chs tabs with
        | mk tabs' r' =>
          rw [h] at ih
          cases r' <;> simpa using ih

theorem propagateTarget_length (chs : List Channel) (s : St) : (propagateTarget chs s).1.tabs.length = s.tabs.length := by
  unfold propagateTarget
  split
  · rfl
  rename_i b _
  have h := propagateAll_length b.sed s.target.sky.transmission chs s.tabs
  split
  · rename_i e; rw [e] at h; exact h
  · rename_i e
    rw [e] at h
    split
    · exact h
    split
    · exact h
    · exact h

theorem noiseStep_length (chs : List Channel) (s : St) : (noiseStep chs s).1.tabs.length = s.tabs.length := by
  unfold noiseStep
  split
  · rfl
  split <;> rfl

theorem loadSource_length (w : World) (p : Payload) (s : St) : (loadSource w p s).1.tabs.length = s.tabs.length := by
  unfold loadSource
  split
  · rfl
  split <;> rfl

theorem write_keeps {n : ℕ} {s : MSt V} (h : Keeps n s) (f : Info V → Info V) (hf : ∀ m, Plain m → Plain (f m)) : Keeps n (write f s) := by
  obtain ⟨h1, h2, h3⟩ := h
  unfold write
  split
  · exact ⟨h1, h2, h3⟩
  · exact ⟨h1, h2, h3⟩
  · rename_i i _
    refine ⟨h1, by simpa using h2, ?_⟩
    intro m hm
    obtain ⟨j, hj⟩ := List.mem_iff_getElem?.mp hm
    rw [List.getElem?_modify] at hj
    cases e : s.metas[j]? with
    | none => rw [e] at hj; cases hj
    | some x =>
      rw [e] at hj
      have hx := h3 x (List.mem_of_getElem? e)
      by_cases hij : i = j
      · simp only [hij, if_true, Option.map_eq_map, Option.map_some, Option.some.injEq] at hj
        exact hj ▸ hf x hx
      · simp only [hij, if_false, Option.map_eq_map, Option.map_some, Option.some.injEq] at hj
        exact hj ▸ hx

theorem current_write {s : MSt V} (f : Info V → Info V) (h : ∀ i, s.obj = some (.channel i) → i < s.metas.length) (hs : s.obj ≠ none) :
    current (write f s) = f (current s) := by
  unfold write
  split
  · rename_i e; exact absurd e hs
  · rename_i m e; simp [current, e]
  · rename_i i e
    have := h i e
    simp only [current, e, List.getElem?_modify, if_true, List.getElem?_eq_getElem this]
    simp

theorem write_some (f : Info V → Info V) {s : MSt V} (h : s.obj ≠ none) : (write f s).obj ≠ none := by
  unfold write
  split
  · exact h
  · simp
  · exact h

theorem current_plain {n : ℕ} {s : MSt V} (h : Keeps n s) (ho : ∀ m, s.obj = some (.own m) → Plain m) : Plain (current s) := by
  unfold current
  split
  · exact plain_nil
  · rename_i m e; exact ho m e
  · rename_i i e
    cases e' : s.metas[i]? with
    | none => exact plain_nil
    | some m => exact h.plain m (List.mem_of_getElem? e')

/-- The step keeps the channels' tables in any case; if it succeeds, `Q` holds. -/
def Tri (n : ℕ) (g : MStep V) (P Q : MSt V → Prop) : Prop :=
  ∀ s, Keeps n s → P s → Keeps n (g s).1 ∧ ((g s).2 = .ok () → Q (g s).1)

theorem Tri.run_nil {n : ℕ} {P : MSt V → Prop} : Tri n (runM []) P P := fun _ h hp => ⟨h, fun _ => hp⟩

theorem Tri.run_cons {n : ℕ} {g : MStep V} {gs : List (MStep V)} {P Q R : MSt V → Prop} (h1 : Tri n g P Q) (h2 : Tri n (runM gs) Q R) :
    Tri n (runM (g :: gs)) P R := by
  intro s hk hp
  obtain ⟨a, b⟩ := h1 s hk hp
  unfold runM
  cases e : g s with
  | mk s' r =>
    rw [e] at a b
    cases r with
    | error x => exact ⟨a, fun h => by cases h⟩
    | ok u => exact h2 s' a (b rfl)

/-- After `PrepareTarget`. -/
structure Prepared (A : List String) (version : V) (c : Card V) (s : MSt V) : Prop where
  attrs : s.st.target.attrs = A
  some : s.obj ≠ none
  named : Named version c (current s)

/-- After the foregrounds. -/
structure Updated (A : List String) (version : V) (c : Card V) (s : MSt V) : Prop where
  attrs : s.st.target.attrs = A
  own : ∃ m, s.obj = .some (.own m) ∧ Named version c m

theorem prepare_tri (n : ℕ) (A : List String) (version : V) (c : Card V) :
    Tri n (prepareM version c) (fun s => s.st.target.attrs = A) (Prepared A version c) := by
  intro s hk hA
  have hl := prepareTarget_length s.st
  unfold prepareM
  cases h : prepareTarget s.st with
  | mk st r =>
    rw [h] at hl
    simp only at hl
    have hk' : ∀ o, Keeps n { s with st := st, obj := o } := fun o => ⟨by simpa [hl] using hk.tabs, hk.metas, hk.plain⟩
    cases r with
    | error e => exact ⟨hk' _, fun h => by cases h⟩
    | ok u =>
      obtain ⟨r, tabs, hv, rfl⟩ := prepareTarget_ok h
      have hne : s.st.tabs ≠ [] := by
        intro e
        rw [e] at hv
        cases hv
      have hlen : 0 < s.st.tabs.length := List.length_pos_iff.mpr hne
      refine ⟨write_keeps (hk' _) _ (fun m hm => (named_add version c hm).plain), fun _ => ⟨?_, ?_, ?_⟩⟩
      · rw [write_st]; exact hA
      · exact write_some _ (by simp)
      · rw [current_write]
        · apply named_add
          apply current_plain (hk' _)
          intro m hm
          simp only [Option.some.injEq] at hm
          unfold stacked at hm
          split at hm
          · cases hm
          · cases hm
            exact plain_stackMeta _ _ hk.plain
        · intro i hi
          simp only [Option.some.injEq] at hi
          unfold stacked at hi
          split at hi
          · cases hi
            have h1 := hk.tabs
            have h2 := hk.metas
            simp only
            omega
          · cases hi
        · simp

theorem estimate_tri (n : ℕ) (A : List String) (version : V) (c : Card V) (w : World) (sec : Foreground.Section ℝ) :
    Tri n (keepM (estimateForegrounds w sec)) (Prepared A version c) (Prepared A version c) := by
  intro s hk hp
  exact ⟨⟨hk.tabs, hk.metas, hk.plain⟩, fun _ => ⟨hp.attrs, hp.some, hp.named⟩⟩

theorem update_keeps (n : ℕ) (f : Step) (hf : ∀ s, (f s).1.tabs.length = s.tabs.length) (s : MSt V) (hk : Keeps n s) : Keeps n (updateM f s).1 := by
  have hl := hf s.st
  unfold updateM
  cases h : f s.st with
  | mk st r =>
    rw [h] at hl
    simp only at hl
    cases r <;> exact ⟨by simpa [hl] using hk.tabs, hk.metas, hk.plain⟩

theorem foreground_tri (n : ℕ) (A : List String) (version : V) (c : Card V) (chs : List Channel) :
    Tri n (updateM (propagateForeground chs)) (Prepared A version c) (Updated A version c) := by
  intro s hk hp
  refine ⟨update_keeps n _ (propagateForeground_length chs) s hk, ?_⟩
  unfold updateM
  cases h : propagateForeground chs s.st with
  | mk st r =>
    cases r with
    | error e => exact fun h => by cases h
    | ok u =>
      obtain ⟨ts, m, us, old, _, _, _, rfl⟩ := propagateForeground_ok h
      exact fun _ => ⟨hp.attrs, _, rfl, hp.named⟩

theorem source_tri (n : ℕ) (version : V) (t : Target) (c : Card V) (w : World) (p : Payload) :
    Tri n (loadSourceM w p c) (Updated t.attrs version c) (fun s => ∃ m, s.obj = some (.own m) ∧ ∀ k, m.get? k = owned version t c k) := by
  intro s hk hp
  have hl := loadSource_length w p s.st
  obtain ⟨m, hm, hn⟩ := hp.own
  unfold loadSourceM
  cases h : loadSource w p s.st with
  | mk st r =>
    rw [h] at hl
    simp only at hl
    cases r with
    | error e => exact ⟨⟨by simpa [hl] using hk.tabs, hk.metas, hk.plain⟩, fun h => by cases h⟩
    | ok u =>
      unfold write
      simp only [hm]
      refine ⟨⟨by simpa [hl] using hk.tabs, hk.metas, hk.plain⟩, fun _ => ⟨_, rfl, ?_⟩⟩
      intro k
      rw [hp.attrs]
      exact owned_star hn t k

theorem later_tri (n : ℕ) (F : Info V → Prop) (f : Step) (hf : ∀ s, (f s).1.tabs.length = s.tabs.length) :
    Tri n (updateM f) (fun s => ∃ m, s.obj = some (.own m) ∧ F m) (fun s => ∃ m, s.obj = some (.own m) ∧ F m) := by
  intro s hk hp
  refine ⟨update_keeps n f hf s hk, ?_⟩
  obtain ⟨m, hm, hF⟩ := hp
  unfold updateM
  cases h : f s.st with
  | mk st r =>
    cases r with
    | error e => exact fun h => by cases h
    | ok u => exact fun _ => ⟨_, rfl, by simpa [current, hm, merge_nil] using hF⟩

/-- One observation, whatever the channels' tables hold: the metadata of the result are exactly its own, and those of the channels' tables stay plain,
whether it succeeds or not. -/
theorem observe_metadata (w : World) (p : Payload) (version : V) (tabs : List (Table ℝ)) (metas : List (Info V)) (t : Target) (c : Card V)
    (hl : metas.length = tabs.length) (hp : ∀ m ∈ metas, Plain m) :
    ((observeM w p version tabs metas t c).1.2.length = (observeM w p version tabs metas t c).1.1.length ∧
      ∀ m ∈ (observeM w p version tabs metas t c).1.2, Plain m) ∧
    ∀ t' m, (observeM w p version tabs metas t c).2 = .ok (t', m) → ∀ k, m.get? k = owned version t c k := by
  have key : Tri tabs.length (runM (stepsM w p version c)) (fun s => s.st.target.attrs = t.attrs)
      (fun s => ∃ m, s.obj = some (.own m) ∧ ∀ k, m.get? k = owned version t c k) := by
    have h := fun n => Tri.run_cons (foreground_tri n t.attrs version c p.channels) (Tri.run_cons (source_tri n version t c w p)
      (Tri.run_cons (later_tri n _ _ (propagateTarget_length p.channels)) (Tri.run_cons (later_tri n _ _ (noiseStep_length p.channels)) Tri.run_nil)))
    unfold stepsM
    cases p.foreground with
    | none => exact Tri.run_cons (prepare_tri _ _ _ _) (h _)
    | some sec => exact Tri.run_cons (prepare_tri _ _ _ _) (Tri.run_cons (estimate_tri _ _ _ _ _ _) (h _))
  obtain ⟨a, b⟩ := key ⟨⟨tabs, t⟩, metas, none⟩ ⟨rfl, hl, hp⟩ rfl
  unfold observeM
  cases e : runM (stepsM w p version c) ⟨⟨tabs, t⟩, metas, none⟩ with
  | mk s r =>
    rw [e] at a b
    simp only at a b
    cases r with
    | error x => exact ⟨⟨a.metas.trans a.tabs.symm, a.plain⟩, fun t' m h => by cases h⟩
    | ok u =>
      refine ⟨⟨a.metas.trans a.tabs.symm, a.plain⟩, fun t' m h => ?_⟩
      simp only [Except.ok.injEq, Prod.mk.injEq] at h
      obtain ⟨_, rfl⟩ := h
      obtain ⟨m, hm, hk⟩ := b rfl
      unfold current
      rw [hm]
      exact hk

/-- **Every list of targets**, whatever happened to those before: the metadata of every result are exactly its own. -/
theorem targets_metadata (w : World) (p : Payload) (o : RunOpts) (version : V) : ∀ (ts : List (Target × Card V)) (tabs : List (Table ℝ))
    (metas : List (Info V)), metas.length = tabs.length → (∀ m ∈ metas, Plain m) →
    List.Forall₂ (fun (t : Target × Card V) r => ∀ t' m, r = some (t', m) → ∀ k, m.get? k = owned version t.1 t.2 k) ts
      (runListM w p o version tabs metas ts)
  | [], _, _, _, _ => .nil
  | t :: ts, tabs, metas, hl, hp => by
    obtain ⟨⟨a, b⟩, h⟩ := observe_metadata w p version tabs metas t.1 t.2 hl hp
    simp only [runListM]
    have e : (pipelineM w p o version tabs metas t.1 t.2).1 = (observeM w p version tabs metas t.1 t.2).1 ∧
        ∀ r, (pipelineM w p o version tabs metas t.1 t.2).2 = some r → (observeM w p version tabs metas t.1 t.2).2 = .ok r := by
      unfold pipelineM
      cases hm : observeM w p version tabs metas t.1 t.2 with
      | mk sh r =>
        cases r with
        | error x => exact ⟨rfl, fun r h => by cases h⟩
        | ok r =>
          simp only
          cases plotTarget o r.1 with
          | error x => exact ⟨rfl, fun r h => by cases h⟩
          | ok u => exact ⟨rfl, fun r' h => by simpa using h⟩
    refine .cons (fun t' m hr => h t' m (e.2 _ hr)) ?_
    rw [e.1]
    exact targets_metadata w p o version ts _ _ a b

/-- The same star in different lists: the metadata of its result do not depend on the others. -/
theorem metadata_alone (w : World) (p : Payload) (o : RunOpts) (version : V) (ts : List (Target × Card V)) (tabs : List (Table ℝ)) (metas : List (Info V))
    (hl : metas.length = tabs.length) (hp : ∀ m ∈ metas, Plain m) (i : ℕ) (t : Target × Card V) (ht : ts[i]? = some t)
    (t₁ t₂ : Target) (m₁ m₂ : Info V) (h1 : (runListM w p o version tabs metas ts)[i]? = some (some (t₁, m₁)))
    (h2 : runListM w p o version tabs metas [t] = [some (t₂, m₂)]) : ∀ k, m₁.get? k = m₂.get? k := by
  intro k
  have a := targets_metadata w p o version ts tabs metas hl hp
  have b := targets_metadata w p o version [t] tabs metas hl hp
  rw [h2] at b
  cases b with
  | cons b _ =>
    rw [b t₂ m₂ rfl k]
    exact (List.forall₂_iff_get.mp a).2 i (by
      have := (List.getElem?_eq_some_iff.mp ht).1; exact this) (by have := (List.getElem?_eq_some_iff.mp h1).1; exact this)
      t₁ m₁ (by
        have := (List.getElem?_eq_some_iff.mp h1).2
        simpa using this) k |>.trans (by
        have := (List.getElem?_eq_some_iff.mp ht).2
        simp only [List.get_eq_getElem, this])

/-! ## What the catalogue must give -/

theorem loadSource_catalogue {w : World} {p : Payload} {s s' : St} {old : Table ℝ} (h : loadSource w p s = (s', .ok ())) (ht : s.target.table = some old) :
    ∀ k ∈ ["name", "M", "Teff", "R", "D"], k ∈ s.target.attrs := by
  unfold loadSource at h
  split at h
  · cases h
  split at h
  · cases h
  · simp only [Prod.mk.injEq] at h
    have h2 := h.2
    unfold addStarMetadata at h2
    rw [ht] at h2
    simp only at h2
    split at h2
    · assumption
    · cases h2

/-- A target is only observed if its star has a name, a mass, a temperature, a radius and a distance, whatever the source. -/
theorem observed_catalogued (w : World) (p : Payload) (tabs : List (Table ℝ)) (t t' : Target) (h : (observe w p tabs t).2 = .ok t') :
    ∀ k ∈ ["name", "M", "Teff", "R", "D"], k ∈ t.attrs := by
  unfold observe at h
  split at h
  · cases h
  rename_i s _ hs
  have hst := (runSteps_ok _ _ _).mp hs
  have key : ∀ s0 : St, s0.target.attrs = t.attrs →
      Steps [propagateForeground p.channels, loadSource w p, propagateTarget p.channels, noiseStep p.channels] s0 s →
      ∀ k ∈ ["name", "M", "Teff", "R", "D"], k ∈ t.attrs := by
    intro s0 ha h
    cases h with
    | cons h1 h =>
      obtain ⟨_, _, _, _, _, _, _, rfl⟩ := propagateForeground_ok h1
      cases h with
      | cons h2 _ =>
        have := loadSource_catalogue h2 rfl
        rw [← ha]
        exact this
  unfold steps at hst
  cases hf : p.foreground with
  | none =>
    rw [hf] at hst
    cases hst with
    | cons h1 h =>
      obtain ⟨_, _, _, rfl⟩ := prepareTarget_ok h1
      exact key _ rfl h
  | some sec =>
    rw [hf] at hst
    cases hst with
    | cons h1 h =>
      obtain ⟨_, _, _, rfl⟩ := prepareTarget_ok h1
      cases h with
      | cons h2 h =>
        obtain ⟨_, _, rfl⟩ := estimateForegrounds_ok h2
        exact key _ rfl h

/-- In a list such a target is skipped, at every place and after every history. -/
theorem uncatalogued_skipped (w : World) (p : Payload) (o : RunOpts) : ∀ (ts : List Target) (s : Shared) (i : ℕ) (t : Target), ts[i]? = some t →
    (∃ k ∈ ["name", "M", "Teff", "R", "D"], k ∉ t.attrs) → (runList w p o s ts).2[i]? = some none
  | [], _, _, _, h, _ => by simp at h
  | u :: ts, s, 0, t, h, hk => by
    simp only [List.getElem?_cons_zero, Option.some.injEq] at h
    subst h
    simp only [runList, List.getElem?_cons_zero, Option.some.injEq]
    obtain ⟨k, h1, h2⟩ := hk
    unfold pipelineToDict
    cases e : observe w p s.tabs u with
    | mk tabs r =>
      cases r with
      | error x => rfl
      | ok t' => exact absurd (observed_catalogued w p s.tabs u t' (by rw [e]) k h1) h2
  | u :: ts, s, i + 1, t, h, hk => by
    simp only [runList, List.getElem?_cons_succ]
    exact uncatalogued_skipped w p o ts _ i t (by simpa using h) hk

end

/-! ## Example -/

namespace Demo
open Pipeline Pipeline.Demo

/-- A custom source needs the distance and the radius only: the source is built, and the target is observed if the catalogue has the other columns too,
although no number depends on them; without one of them it is not. -/
theorem demo_custom (n : String) :
    Source.loadSource world.consts world.env world.grid { value := "custom", customSed := some "sed.csv" } (target n).star payload.wlMin payload.wlMax = .ok built ∧
    (∃ t', (observe world payload [tab "P", tab "Q"] (target n)).2 = .ok t') ∧
    ∀ t', (observe world payload [tab "P", tab "Q"] { target n with attrs := ["name", "R", "D"] }).2 ≠ .ok t' := by
  refine ⟨source_ok n, ?_, ?_⟩
  · obtain ⟨_, _, _, h, _⟩ := demo_observed n
    exact ⟨_, by rw [h]⟩
  · intro t' h
    have := observed_catalogued _ _ _ _ _ h "M" (by simp)
    simp at this

/-- What is known of a star. -/
def card (n : String) : Card String := ⟨n, fun k => n ++ "." ++ k, "1 Lsun", "Custom"⟩

/-- The observation succeeds, and the metadata are the target's: the channels' tables had those of another one. -/
theorem demo_metadata (n : String) : ∃ r m, (observeM world payload "2.1" [tab "P", tab "Q"] [[("name", "other"), ("ExoRad version", "1.0")], []] (target n)
      (card n)).2 = .ok (r, m) ∧ m.get? "name" = some n ∧ m.get? "starR" = some (n ++ "." ++ "R") ∧ m.get? "starMagK" = none := by
  obtain ⟨h1, h2⟩ := observeM_observe world payload "2.1" [tab "P", tab "Q"] [[("name", "other"), ("ExoRad version", "1.0")], []] (target n) (card n)
  obtain ⟨_, _, _, h, _⟩ := demo_observed n
  rw [h] at h2
  have hp : ∀ m ∈ ([[("name", "other"), ("ExoRad version", "1.0")], []] : List (Info String)), Plain m := by
    intro m hm k k1 k2
    simp only [List.mem_cons, List.not_mem_nil, or_false] at hm
    rcases hm with rfl | rfl
    · simp [Dict.get?, Ne.symm k1, Ne.symm k2]
    · rfl
  have hk := (observe_metadata world payload "2.1" [tab "P", tab "Q"] [[("name", "other"), ("ExoRad version", "1.0")], []] (target n) (card n) rfl hp).2
  cases e : (observeM world payload "2.1" [tab "P", tab "Q"] [[("name", "other"), ("ExoRad version", "1.0")], []] (target n) (card n)).2 with
  | error x => rw [e] at h2; cases h2
  | ok q =>
    obtain ⟨r, m⟩ := q
    have hk := hk r m e
    refine ⟨r, m, rfl, ?_, ?_, ?_⟩
    · rw [hk]; rfl
    · rw [hk]; simp [owned, card]
    · rw [hk]; simp [owned, target]

end Demo
end ExoRad.Meta
