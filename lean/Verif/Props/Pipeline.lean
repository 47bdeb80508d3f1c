import Verif.Lemmas.PipelineKeys

/-!
# Observing targets: C19, C21, C22, C56, C71
-/

set_option linter.unusedSectionVars false

namespace ExoRad.Pipeline
open Table

/-! ## Specification -/

/-- The tables have the same columns in the same order, with the same cells, but for the column `sky TR`. -/
def SameTable (a b : Table ℝ) : Prop := a.filter (fun q => q.1 ≠ "sky TR") = b.filter (fun q => q.1 ≠ "sky TR")

/-- The targets are the same but for the column `sky TR` of their tables. -/
structure SameTarget (a b : Target) : Prop where
  name : a.name = b.name
  star : a.star = b.star
  attrs : a.attrs = b.attrs
  sky : a.sky = b.sky
  built : a.built = b.built
  hasTable : a.table.isSome = b.table.isSome
  table : SameTable (a.table.getD []) (b.table.getD [])

/-- Both skipped, or both observed with the same result. -/
inductive SameResult : Option Target → Option Target → Prop
  | skipped : SameResult none none
  | observed {a b : Target} : SameTarget a b → SameResult (some a) (some b)

/-- The plot of a table does not depend on the column `sky TR` (`Plotter.plot_table` draws the columns with `signal` and `noise`
in their names, `exorad/utils/plotter.py`). -/
def PlotIgnoresSky (o : RunOpts) : Prop := ∀ a b, SameTable a b → o.draw a = o.draw b

/-- What observing `t` as the only target gives. -/
noncomputable def alone (w : World) (p : Payload) (o : RunOpts) (s : Shared) (t : Target) : Option Target :=
  (pipelineToDict w p o s t).2

theorem SameTable.refl (a : Table ℝ) : SameTable a a := rfl

theorem SameTarget.refl (a : Target) : SameTarget a a := ⟨rfl, rfl, rfl, rfl, rfl, rfl, rfl⟩

theorem SameTarget.symm {a b : Target} (h : SameTarget a b) : SameTarget b a :=
  ⟨h.1.symm, h.2.symm, h.3.symm, h.4.symm, h.5.symm, h.6.symm, Eq.symm h.7⟩

theorem SameTarget.trans {a b c : Target} (h : SameTarget a b) (h' : SameTarget b c) : SameTarget a c :=
  ⟨h.1.trans h'.1, h.2.trans h'.2, h.3.trans h'.3, h.4.trans h'.4, h.5.trans h'.5, h.6.trans h'.6, Eq.trans h.7 h'.7⟩

theorem SameResult.refl : ∀ a : Option Target, SameResult a a
  | none => .skipped
  | some a => .observed (.refl a)

theorem SameResult.symm {a b : Option Target} (h : SameResult a b) : SameResult b a := by
  cases h with
  | skipped => exact .skipped
  | observed h => exact .observed h.symm

theorem SameResult.trans {a b c : Option Target} (h : SameResult a b) (h' : SameResult b c) : SameResult a c := by
  cases h with
  | skipped => exact h'
  | observed h =>
    cases h' with
    | observed h' => exact .observed (h.trans h')

theorem erase_eq_filter (t : Table ℝ) : t.removeAll ["sky TR"] = t.filter (fun q => q.1 ≠ "sky TR") := by
  unfold Dict.removeAll
  congr 1
  funext q
  by_cases h : q.1 = "sky TR" <;> simp [h]

/-- The columns other than `sky TR` are the same. -/
theorem SameTable.get? {a b : Table ℝ} (h : SameTable a b) {k : String} (hk : k ≠ "sky TR") : a.get? k = b.get? k := by
  unfold SameTable at h
  rw [← erase_eq_filter, ← erase_eq_filter] at h
  rw [← get?_erase ["sky TR"] a k (by simpa using hk), ← get?_erase ["sky TR"] b k (by simpa using hk), h]

/-! ## One observation -/

/-- Observing a target from channel tables as earlier observations leave them is the same as from those of the payload. -/
theorem observe_same {p : Payload} {tabs0 tabs : List (Table ℝ)} (h0 : Built p tabs0) (hi : Inv p tabs0 tabs) (w : World)
    (t : Target) (hf : Fresh t) :
    Inv p tabs0 (observe w p tabs t).1 ∧
    ((∃ e, (observe w p tabs t).2 = .error e ∧ (observe w p tabs0 t).2 = .error e) ∨
      ∃ a b, (observe w p tabs t).2 = .ok a ∧ (observe w p tabs0 t).2 = .ok b ∧ SameTarget a b) := by
  obtain ⟨i1, _, e, hp⟩ := steps_rel h0 w ⟨tabs, t⟩ ⟨tabs0, t⟩ hi h0.inv ⟨rfl, hf⟩
  unfold observe
  revert i1 e hp
  generalize runSteps (steps w p) ⟨tabs, t⟩ = o1
  generalize runSteps (steps w p) ⟨tabs0, t⟩ = o2
  intro i1 e hp
  obtain ⟨s1, r1⟩ := o1
  obtain ⟨s2, r2⟩ := o2
  simp only at e i1 hp
  subst e
  cases r1 with
  | error e => exact ⟨i1, .inl ⟨e, rfl, rfl⟩⟩
  | ok u =>
    obtain ⟨a, b, h1, h2, h3⟩ := hp rfl
    refine ⟨i1, .inr ⟨s1.target, s2.target, rfl, rfl, ?_⟩⟩
    rw [h3]
    refine ⟨rfl, rfl, rfl, rfl, rfl, by simp [h1], ?_⟩
    simp only [h1, Option.getD_some]
    rw [erase_eq_filter, erase_eq_filter] at h2
    exact h2

theorem plotTarget_same {o : RunOpts} (hd : PlotIgnoresSky o) {a b : Target} (h : SameTarget a b) : plotTarget o a = plotTarget o b := by
  unfold plotTarget
  rw [hd _ _ h.table, h.name]

theorem pipeline_same {p : Payload} {tabs0 : List (Table ℝ)} (h0 : Built p tabs0) (w : World) (o : RunOpts)
    (hd : PlotIgnoresSky o) (s s0 : Shared) (hs0 : s0.tabs = tabs0) (hi : Inv p tabs0 s.tabs) (t : Target) (hf : Fresh t) :
    Inv p tabs0 (pipelineToDict w p o s t).1.tabs ∧ SameResult (pipelineToDict w p o s t).2 (alone w p o s0 t) := by
  obtain ⟨i1, h⟩ := observe_same h0 hi w t hf
  unfold alone pipelineToDict
  rw [hs0]
  revert i1 h
  generalize observe w p s.tabs t = o1
  generalize observe w p tabs0 t = o2
  intro i1 h
  obtain ⟨t1, r1⟩ := o1
  obtain ⟨t2, r2⟩ := o2
  simp only at i1 h
  rcases h with ⟨e, rfl, rfl⟩ | ⟨a, b, rfl, rfl, hab⟩
  · exact ⟨i1, .skipped⟩
  · simp only
    rw [plotTarget_same hd hab]
    cases plotTarget o b with
    | error e => exact ⟨i1, .skipped⟩
    | ok u => exact ⟨i1, .observed hab⟩

/-! ## C19: targets do not affect each other -/

theorem runList_inv {p : Payload} {tabs0 : List (Table ℝ)} (h0 : Built p tabs0) (w : World) (o : RunOpts)
    (hd : PlotIgnoresSky o) (s0 : Shared) (hs0 : s0.tabs = tabs0) : ∀ (ts : List Target) (s : Shared), Inv p tabs0 s.tabs →
    (∀ t ∈ ts, Fresh t) → List.Forall₂ (fun t r => SameResult r (alone w p o s0 t)) ts (runList w p o s ts).2
  | [], s, _, _ => .nil
  | t :: ts, s, hi, hf => by
    obtain ⟨i, h⟩ := pipeline_same h0 w o hd s s0 hs0 hi t (hf t (by simp))
    have ih := runList_inv h0 w o hd s0 hs0 ts (pipelineToDict w p o s t).1 i (fun u hu => hf u (by simp [hu]))
    unfold runList
    exact .cons h ih

/-- C19: in a list of targets, every target gets the result it gets when it is the only target: which targets come before,
whether they fail and where, changes nothing but the column `sky TR`. -/
theorem targets_independent {p : Payload} {w : World} {o : RunOpts} {s : Shared} (h0 : Built p s.tabs) (hd : PlotIgnoresSky o)
    (ts : List Target) (hf : ∀ t ∈ ts, Fresh t) :
    List.Forall₂ (fun t r => SameResult r (alone w p o s t)) ts (runList w p o s ts).2 :=
  runList_inv h0 w o hd s rfl ts s h0.inv hf

theorem forall₂_comp {α β γ : Type} {R : α → β → Prop} {S : α → γ → Prop} {T : β → γ → Prop} (h : ∀ a b c, R a b → S a c → T b c) :
    ∀ {l : List α} {l1 : List β} {l2 : List γ}, List.Forall₂ R l l1 → List.Forall₂ S l l2 → List.Forall₂ T l1 l2
  | _, _, _, .nil, .nil => .nil
  | _, _, _, .cons h1 t1, .cons h2 t2 => .cons (h _ _ _ h1 h2) (forall₂_comp h t1 t2)

theorem forall₂_split {α β : Type} {R : α → β → Prop} : ∀ {l l' : List α} {m : List β}, List.Forall₂ R (l ++ l') m →
    ∃ m1 m2, List.Forall₂ R l m1 ∧ List.Forall₂ R l' m2 ∧ m = m1 ++ m2
  | [], _, m, h => ⟨[], m, .nil, h, rfl⟩
  | _ :: l, _, _, .cons h t => by
    obtain ⟨m1, m2, a, b, e⟩ := forall₂_split (l := l) t
    exact ⟨_ :: m1, m2, .cons h a, b, by rw [e]; rfl⟩

/-- C19: taking one target (that fails or not) out of the list leaves the results of the others as they were. -/
theorem unlisted_target {p : Payload} {w : World} {o : RunOpts} {s : Shared} (h0 : Built p s.tabs) (hd : PlotIgnoresSky o)
    (pre : List Target) (bad : Target) (post : List Target) (hf : ∀ t ∈ pre ++ bad :: post, Fresh t) :
    List.Forall₂ SameResult ((runList w p o s (pre ++ bad :: post)).2.eraseIdx pre.length) (runList w p o s (pre ++ post)).2 := by
  have h1 := targets_independent (w := w) h0 hd (pre ++ bad :: post) hf
  have h2 := targets_independent (w := w) h0 hd (pre ++ post) (fun t ht => hf t (by
    simp only [List.mem_append, List.mem_cons] at ht ⊢
    tauto))
  have h1' : List.Forall₂ (fun t r => SameResult r (alone w p o s t)) (pre ++ post)
      ((runList w p o s (pre ++ bad :: post)).2.eraseIdx pre.length) := by
    obtain ⟨l1, l2, a1, a2, e⟩ := forall₂_split h1
    cases a2 with
    | cons hb a3 =>
      rw [e, a1.length_eq, List.eraseIdx_append_of_length_le (Nat.le_refl _)]
      simp only [Nat.sub_self, List.eraseIdx_cons_zero]
      exact List.rel_append a1 a3
  exact forall₂_comp (fun a b c h h' => h.trans h'.symm) h1' h2

/-- The figure of a target was asked for and cannot be made: it cannot be drawn, there is no directory for it, or it cannot be saved as
`<directory>/<name>.png`. -/
def NoFigure (o : RunOpts) (t : Target) : Prop :=
  o.plot = true ∧ ((∃ e, o.draw (t.table.getD []) = .error e) ∨ o.outDir = none ∨
    ∃ d e, o.outDir = some d ∧ o.save (d ++ "/" ++ t.name ++ ".png") = .error e)

theorem plotTarget_error_iff (o : RunOpts) (t : Target) : (∃ e, plotTarget o t = .error e) ↔ NoFigure o t := by
  unfold plotTarget NoFigure
  cases hp : o.plot with
  | false => simp
  | true =>
    simp only [if_true, true_and]
    cases hd : o.draw (t.table.getD []) with
    | error e => simp
    | ok u =>
      cases ho : o.outDir with
      | none => simp
      | some d => simp

/-- C19: a target is skipped exactly if its observation, or its plot, raises; with no exception its result is there. -/
theorem skipped_iff {p : Payload} {w : World} {o : RunOpts} {s : Shared} (h0 : Built p s.tabs) (hd : PlotIgnoresSky o)
    (ts : List Target) (hf : ∀ t ∈ ts, Fresh t) (i : Nat) (t : Target) (ht : ts[i]? = some t) :
    (runList w p o s ts).2[i]? = some none ↔
      (∃ e, (observe w p s.tabs t).2 = .error e) ∨ ∃ t', (observe w p s.tabs t).2 = .ok t' ∧ NoFigure o t' := by
  have h := targets_independent (w := w) h0 hd ts hf
  have hl : i < ts.length := by
    rw [List.getElem?_eq_some_iff] at ht
    exact ht.1
  have hl' : i < (runList w p o s ts).2.length := h.length_eq ▸ hl
  have hr := (List.forall₂_iff_get.mp h).2 i hl hl'
  have et : ts.get ⟨i, hl⟩ = t := by
    rw [List.getElem?_eq_some_iff] at ht
    exact ht.2
  rw [et] at hr
  rw [List.getElem?_eq_getElem hl']
  simp only [List.get_eq_getElem] at hr
  revert hr
  generalize (runList w p o s ts).2[i] = r
  intro hr
  have hal : alone w p o s t = none ↔ (∃ e, (observe w p s.tabs t).2 = .error e) ∨
      ∃ t', (observe w p s.tabs t).2 = .ok t' ∧ NoFigure o t' := by
    simp only [← plotTarget_error_iff]
    unfold alone pipelineToDict
    generalize observe w p s.tabs t = q
    obtain ⟨tb, q⟩ := q
    cases q with
    | error e => simp
    | ok t' =>
      simp only [reduceCtorEq, exists_false, Except.ok.injEq, false_or]
      cases hp : plotTarget o t' with
      | error e => simp [hp]
      | ok u => simp [hp]
  rw [← hal]
  revert hr
  generalize alone w p o s t = q
  intro hr
  cases hr with
  | skipped => simp_all
  | observed h => simp_all

/-! ## C21: threads -/

theorem poolLoop_get (w : World) (p : Payload) (o : RunOpts) (s : Shared) (ts : List Target) (i : Nat) :
    ∀ (sched : List Nat) (done : Dict Nat (Option Target)),
    Dict.get? (poolLoop w p o s ts sched done) i =
      if i ∈ sched then (match ts[i]? with | some t => some (alone w p o s t) | none => Dict.get? done i) else Dict.get? done i
  | [], done => by simp [poolLoop]
  | j :: is, done => by
    unfold poolLoop
    cases hj : ts[j]? with
    | none =>
      simp only
      rw [poolLoop_get w p o s ts i is done]
      by_cases e : i = j
      · subst e
        simp [hj]
      · simp [e]
    | some t =>
      simp only
      rw [poolLoop_get w p o s ts i is]
      by_cases e : i = j
      · subst e
        simp only [hj, List.mem_cons, true_or, if_true]
        by_cases hm : i ∈ is
        · simp [hm]
        · simp only [hm, if_false]
          rw [Dict.get?_set_self]
          rfl
      · rw [Dict.get?_set_ne _ _ e]
        simp [e]

/-- C21: with several processes every target gets, for every order in which the calls finish, the result it gets when it is
the only target. -/
theorem pool_results (w : World) (p : Payload) (o : RunOpts) (s : Shared) (ts : List Target) (sched : List Nat)
    (hs : ∀ i < ts.length, i ∈ sched) : runPool w p o sched s ts = ts.map (alone w p o s) := by
  unfold runPool
  apply List.ext_getElem
  · simp
  · intro i h1 h2
    simp only [List.length_map, List.length_range] at h1
    simp only [List.getElem_map, List.getElem_range]
    rw [poolLoop_get, if_pos (hs i h1), List.getElem?_eq_getElem h1]
    rfl

/-- The same keys in the same order with the same results. -/
def SameDict (a b : Dict (Option String) (Option Target)) : Prop :=
  List.Forall₂ (fun x y => x.1 = y.1 ∧ SameResult x.2 y.2) a b

theorem sameDict_set {a b : Dict (Option String) (Option Target)} (h : SameDict a b) (k : Option String) {x y : Option Target}
    (hxy : SameResult x y) : SameDict (a.set k x) (b.set k y) := by
  unfold SameDict at h ⊢
  induction h with
  | nil => exact .cons ⟨rfl, hxy⟩ .nil
  | @cons q r a b hq h ih =>
    obtain ⟨qk, qv⟩ := q
    obtain ⟨rk, rv⟩ := r
    obtain ⟨h1, h2⟩ := hq
    simp only at h1 h2
    subst h1
    unfold Dict.set
    by_cases e : qk = k
    · simp only [e, if_true]
      exact .cons ⟨rfl, hxy⟩ h
    · simp only [e, if_false]
      exact .cons ⟨rfl, h2⟩ ih

theorem collect_same {l l' : List (Option Target)} (h : List.Forall₂ SameResult l l') : SameDict (collect l) (collect l') := by
  unfold collect
  suffices ∀ a b, SameDict a b → SameDict (l.foldl (fun d r => Dict.set d (r.map Target.name) r) a)
      (l'.foldl (fun d r => Dict.set d (r.map Target.name) r) b) from this [] [] .nil
  induction h with
  | nil => exact fun a b h => h
  | @cons x y l l' hxy h ih =>
    intro a b hab
    simp only [List.foldl_cons]
    have hk : x.map Target.name = y.map Target.name := by
      cases hxy with
      | skipped => rfl
      | observed h => simp [h.name]
    rw [hk]
    exact ih _ _ (sameDict_set hab _ hxy)

/-- C21: the dictionary is the same for every number of processes and every order in which they finish, but for
the column `sky TR`. Partial: that column may be missing with several processes (`threads_differ`). -/
theorem threads_partial {p : Payload} {w : World} {o : RunOpts} {s : Shared} (h0 : Built p s.tabs) (hd : PlotIgnoresSky o)
    (ts : List Target) (hf : ∀ t ∈ ts, Fresh t) (n m : Nat) (sched sched' : List Nat) (hs : ∀ i < ts.length, i ∈ sched)
    (hs' : ∀ i < ts.length, i ∈ sched') :
    SameDict (observeTargetlist w p o n sched s ts).2 (observeTargetlist w p o m sched' s ts).2 := by
  have key : ∀ (n : Nat) (sched : List Nat), (∀ i < ts.length, i ∈ sched) →
      ∃ rs, (observeTargetlist w p o n sched s ts).2 = collect rs ∧ List.Forall₂ SameResult rs (ts.map (alone w p o s)) := by
    intro n sched hs
    unfold observeTargetlist
    by_cases hn : 1 < n
    · rw [if_pos hn]
      refine ⟨_, rfl, ?_⟩
      rw [pool_results w p o s ts sched hs]
      exact List.forall₂_same.mpr (fun x _ => .refl x)
    · rw [if_neg hn]
      have h := targets_independent (w := w) h0 hd ts hf
      revert h
      generalize runList w p o s ts = q
      intro h
      obtain ⟨s', rs⟩ := q
      refine ⟨rs, rfl, ?_⟩
      rw [List.forall₂_map_right_iff]
      exact h.flip
  obtain ⟨r1, e1, f1⟩ := key n sched hs
  obtain ⟨r2, e2, f2⟩ := key m sched' hs'
  rw [e1, e2]
  exact collect_same (forall₂_comp (fun a b c h h' => h.symm.trans h'.symm.symm) (f1.flip.imp (fun _ _ h => h.symm)) (f2.flip.imp (fun _ _ h => h.symm)))

/-! ## C22: the steps -/

/-- The steps in order, each from the state the one before left. -/
inductive Steps : List Step → St → St → Prop
  | nil (s : St) : Steps [] s s
  | cons {f : Step} {fs : List Step} {s s' s'' : St} : f s = (s', .ok ()) → Steps fs s' s'' → Steps (f :: fs) s s''

theorem runSteps_ok : ∀ (fs : List Step) (s s' : St), runSteps fs s = (s', .ok ()) ↔ Steps fs s s'
  | [], s, s' => by
    simp only [runSteps, Prod.mk.injEq, and_true]
    constructor
    · rintro rfl; exact .nil s
    · intro h; cases h; rfl
  | f :: fs, s, s' => by
    unfold runSteps
    cases hf : f s with
    | mk s1 r =>
      cases r with
      | error e =>
        simp only [Prod.mk.injEq, reduceCtorEq, and_false, false_iff]
        intro h
        cases h with
        | cons h _ => rw [hf] at h; simp at h
      | ok u =>
        simp only
        rw [runSteps_ok fs s1 s']
        constructor
        · exact fun h => .cons hf h
        · intro h
          cases h with
          | cons h h' =>
            rw [hf] at h
            simp only [Prod.mk.injEq, and_true] at h
            rw [h]
            exact h'

theorem runSteps_error : ∀ (fs : List Step) (s s' : St) (e : Exc), runSteps fs s = (s', .error e) ↔
    ∃ pre f post m, fs = pre ++ f :: post ∧ Steps pre s m ∧ f m = (s', .error e)
  | [], s, s', e => by simp [runSteps]
  | f :: fs, s, s', e => by
    unfold runSteps
    cases hf : f s with
    | mk s1 r =>
      cases r with
      | error e1 =>
        simp only
        constructor
        · rintro h
          exact ⟨[], f, fs, s, rfl, .nil s, by rw [hf, h]⟩
        · rintro ⟨pre, g, post, m, he, hs, hg⟩
          cases hs with
          | nil =>
            simp only [List.nil_append, List.cons.injEq] at he
            rw [← he.1, hf] at hg
            exact hg
          | cons h _ =>
            simp only [List.cons_append, List.cons.injEq] at he
            rw [← he.1, hf] at h
            simp at h
      | ok u =>
        simp only
        rw [runSteps_error fs s1 s' e]
        constructor
        · rintro ⟨pre, g, post, m, rfl, hs, hg⟩
          exact ⟨f :: pre, g, post, m, rfl, .cons hf hs, hg⟩
        · rintro ⟨pre, g, post, m, he, hs, hg⟩
          cases hs with
          | nil =>
            simp only [List.nil_append, List.cons.injEq] at he
            rw [← he.1, hf] at hg
            simp at hg
          | @cons f' fs' _ s2 _ h hs =>
            simp only [List.cons_append, List.cons.injEq] at he
            rw [← he.1, hf] at h
            simp only [Prod.mk.injEq, and_true] at h
            subst h
            exact ⟨fs', g, post, m, he.2, hs, hg⟩

/-- C22: with a foreground section an observation succeeds exactly if prepare, foregrounds, foreground propagation, source,
target propagation and noise succeed in this order, each on the result of the one before. -/
theorem observe_ok_iff (w : World) (p : Payload) (sec : Foreground.Section ℝ) (hsec : p.foreground = some sec)
    (tabs tabs' : List (Table ℝ)) (t t' : Target) :
    observe w p tabs t = (tabs', .ok t') ↔
      ∃ s1 s2 s3 s4 s5, prepareTarget ⟨tabs, t⟩ = (s1, .ok ()) ∧ estimateForegrounds w sec s1 = (s2, .ok ()) ∧
        propagateForeground p.channels s2 = (s3, .ok ()) ∧ loadSource w p s3 = (s4, .ok ()) ∧
        propagateTarget p.channels s4 = (s5, .ok ()) ∧ noiseStep p.channels s5 = (⟨tabs', t'⟩, .ok ()) := by
  have h : observe w p tabs t = (tabs', .ok t') ↔ runSteps (steps w p) ⟨tabs, t⟩ = (⟨tabs', t'⟩, .ok ()) := by
    unfold observe
    generalize runSteps (steps w p) ⟨tabs, t⟩ = q
    obtain ⟨⟨a, b⟩, r⟩ := q
    cases r <;> simp
  rw [h, runSteps_ok]
  unfold steps
  rw [hsec]
  constructor
  · intro h
    simp only [List.cons_append, List.nil_append] at h
    cases h with | cons h1 h =>
    cases h with | cons h2 h =>
    cases h with | cons h3 h =>
    cases h with | cons h4 h =>
    cases h with | cons h5 h =>
    cases h with | cons h6 h =>
    cases h
    exact ⟨_, _, _, _, _, h1, h2, h3, h4, h5, h6⟩
  · rintro ⟨s1, s2, s3, s4, s5, h1, h2, h3, h4, h5, h6⟩
    exact .cons h1 (.cons h2 (.cons h3 (.cons h4 (.cons h5 (.cons h6 (.nil _))))))

/-- C22: an observation that raises did the steps before the failing one, in order, raises what that one raises, and leaves
the channels as that one left them: no later step runs. -/
theorem observe_error_iff (w : World) (p : Payload) (tabs tabs' : List (Table ℝ)) (t : Target) (e : Exc) :
    observe w p tabs t = (tabs', .error e) ↔
      ∃ pre f post m s', steps w p = pre ++ f :: post ∧ Steps pre ⟨tabs, t⟩ m ∧ f m = (s', .error e) ∧ s'.tabs = tabs' := by
  have h : observe w p tabs t = (tabs', .error e) ↔ ∃ s', runSteps (steps w p) ⟨tabs, t⟩ = (s', .error e) ∧ s'.tabs = tabs' := by
    unfold observe
    generalize runSteps (steps w p) ⟨tabs, t⟩ = q
    obtain ⟨⟨a, b⟩, r⟩ := q
    cases r with
    | ok u => simp
    | error e' =>
      simp only [Prod.mk.injEq, Except.error.injEq]
      constructor
      · rintro ⟨rfl, rfl⟩; exact ⟨_, ⟨rfl, rfl⟩, rfl⟩
      · rintro ⟨s', ⟨rfl, rfl⟩, rfl⟩; exact ⟨rfl, rfl⟩
  rw [h]
  constructor
  · rintro ⟨s', h, e⟩
    obtain ⟨pre, f, post, m, h1, h2, h3⟩ := (runSteps_error _ _ _ _).mp h
    exact ⟨pre, f, post, m, s', h1, h2, h3, e⟩
  · rintro ⟨pre, f, post, m, s', h1, h2, h3, e⟩
    exact ⟨s', (runSteps_error _ _ _ _).mpr ⟨pre, f, post, m, h1, h2, h3⟩, e⟩

/-- C22, what does not hold: without a foreground section in the payload every observation of a new target raises (the
foreground propagation reads `target.foreground`, which only `EstimateForegrounds` sets). -/
theorem no_foreground_fails (w : World) (p : Payload) (h : p.foreground = none) (hp : p.channels ≠ []) (tabs : List (Table ℝ))
    (r : Table ℝ) (tabs' : List (Table ℝ)) (hr : vstackTables tabs = .ok (some r, tabs')) (t : Target) (ht : Fresh t) :
    (observe w p tabs t).2 = .error .attributeError := by
  obtain ⟨ch, chs, hch⟩ := List.exists_cons_of_ne_nil hp
  have h2 : propagateForeground p.channels ⟨tabs', { t with table := some r }⟩ = (⟨tabs', { t with table := some r }⟩, .error .attributeError) := by
    unfold propagateForeground
    have : Source.mapE (channelForeground t.sky) p.channels = .error .attributeError := by
      rw [hch]
      unfold Source.mapE channelForeground Foreground.propagate
      simp [ht.1]
    simp only [this]
  have h1 : runSteps (steps w p) ⟨tabs, t⟩ = (⟨tabs', { t with table := some r }⟩, .error .attributeError) := by
    unfold steps
    rw [h]
    simp only [List.append_nil, List.cons_append, List.nil_append]
    unfold runSteps prepareTarget
    simp only [hr]
    unfold runSteps
    simp only [h2]
  unfold observe
  rw [h1]

/-- C22: hence without a foreground section no list of targets has a single result. -/
theorem no_foreground_no_results {p : Payload} {w : World} {o : RunOpts} {s : Shared} (h0 : Built p s.tabs)
    (hd : PlotIgnoresSky o) (h : p.foreground = none) (hp : p.channels ≠ []) (ts : List Target) (hf : ∀ t ∈ ts, Fresh t) :
    ∀ r ∈ (runList w p o s ts).2, r = none := by
  have hi := targets_independent (w := w) h0 hd ts hf
  have key : ∀ t ∈ ts, alone w p o s t = none := by
    intro t ht
    have he : ∃ e, (observe w p s.tabs t).2 = .error e := by
      cases hv : vstackTables s.tabs with
      | error e =>
        refine ⟨e, ?_⟩
        unfold observe steps
        simp only [List.append_assoc, List.cons_append, List.nil_append]
        unfold runSteps prepareTarget
        simp only [hv]
      | ok q =>
        obtain ⟨r, tabs'⟩ := q
        cases r with
        | none =>
          refine ⟨.attributeError, ?_⟩
          unfold observe steps
          simp only [List.append_assoc, List.cons_append, List.nil_append]
          unfold runSteps prepareTarget
          simp only [hv]
        | some r => exact ⟨_, no_foreground_fails w p h hp s.tabs r tabs' hv t (hf t ht)⟩
    obtain ⟨e, he⟩ := he
    unfold alone pipelineToDict
    revert he
    generalize observe w p s.tabs t = q
    obtain ⟨tb, q⟩ := q
    rintro rfl
    rfl
  clear hf
  revert hi
  generalize (runList w p o s ts).2 = rs
  intro hi
  induction hi with
  | nil => simp
  | @cons t r ts rs h hi ih =>
    intro x hx
    rcases List.mem_cons.mp hx with rfl | hx
    · rw [key t (by simp)] at h
      cases h
      rfl
    · exact ih (fun u hu => key u (by simp [hu])) x hx

/-! ## C21: what differs -/

/-- C21, what does not hold: with a foreground other than `zodiacal` the second of two targets that can be observed has
a column `sky TR` in its table when they are observed in one process, and has none with several processes. -/
theorem threads_differ {p : Payload} {w : World} {o : RunOpts} {s : Shared} (h0 : Built p s.tabs) (hplot : o.plot = false)
    (sec : Foreground.Section ℝ) (hsec : p.foreground = some sec) (hcustom : ∃ kd ∈ sec.list, kd.1 ≠ "zodiacal")
    (first second a b : Target) (hf1 : Fresh first) (hf2 : Fresh second) (ha : alone w p o s first = some a)
    (hb : alone w p o s second = some b) :
    (∃ a' b' tab, (runList w p o s [first, second]).2 = [some a', some b'] ∧ b'.table = some tab ∧ "sky TR" ∈ tab.keys) ∧
    (∀ sched, 0 ∈ sched → 1 ∈ sched → ∃ tab, runPool w p o sched s [first, second] = [some a, some b] ∧ b.table = some tab ∧ "sky TR" ∉ tab.keys) := by
  have key : ∀ (s' : Shared) (t r : Target), alone w p o s' t = some r → ∃ tabs', observe w p s'.tabs t = (tabs', .ok r) := by
    intro s' t r h
    unfold alone pipelineToDict at h
    revert h
    generalize observe w p s'.tabs t = q
    intro h
    obtain ⟨tb, q⟩ := q
    cases q with
    | error e => simp at h
    | ok t' =>
      simp only [plotTarget, hplot, if_false, Bool.false_eq_true, Option.some.injEq] at h
      exact ⟨tb, by rw [h]⟩
  obtain ⟨tabs1, oa⟩ := key s first a ha
  obtain ⟨tabs2, ob⟩ := key s second b hb
  have trans_some : ∀ (tabs tabs' : List (Table ℝ)) (t t' : Target), Fresh t → observe w p tabs t = (tabs', .ok t') →
      t'.sky.transmission.isSome = true := by
    intro tabs tabs' t t' hf h
    obtain ⟨s1, s2, s3, s4, s5, h1, h2, h3, h4, h5, h6⟩ := (observe_ok_iff w p sec hsec _ _ _ _).mp h
    obtain ⟨r, tb, hr, rfl⟩ := prepareTarget_ok h1
    obtain ⟨sky, he, rfl⟩ := estimateForegrounds_ok h2
    obtain ⟨ts, n, us, old, hts, hn, ho, rfl⟩ := propagateForeground_ok h3
    obtain ⟨b, rfl⟩ := loadSource_ok h4
    obtain ⟨b', tb2, ts2, n2, us2, old2, hb, hp, hn2, ho2, rfl⟩ := propagateTarget_ok h5
    obtain ⟨old3, r3, ho3, hr3, h7⟩ := noiseStep_ok h6
    simp only [St.mk.injEq] at h7
    rw [h7.2]
    simp only
    rw [estimateForegrounds_loop] at he
    have := (estimateLoop_sky w.consts.B w.maps w.skyGrid sec.list t.sky (by rw [he])).2
    rw [he] at this
    simp only at this
    rw [this, hf.2]
    simp only [Option.isSome_none, Bool.false_or, List.any_eq_true, decide_eq_true_eq]
    exact hcustom
  have sky_has : ∀ (tabs tabs' : List (Table ℝ)) (t t' : Target), Built p tabs → Fresh t → observe w p tabs t = (tabs', .ok t') →
      (∀ u ∈ tabs', "sky TR" ∈ u.keys) ∧ ∃ tab, t'.table = some tab ∧ "sky TR" ∉ tab.keys := by
    intro tabs tabs' t t' hbt hf h
    have ht := trans_some _ _ _ _ hf h
    obtain ⟨s1, s2, s3, s4, s5, h1, h2, h3, h4, h5, h6⟩ := (observe_ok_iff w p sec hsec _ _ _ _).mp h
    obtain ⟨r, hr, c1, _, c3⟩ := observe_sky w p sec hsec h1 h2 h3 h4 h5 h6
    refine ⟨c3 ht ?_, r, hr, c1 hbt.clean⟩
    obtain ⟨r, tb, hr, rfl⟩ := prepareTarget_ok h1
    obtain ⟨sky, he, rfl⟩ := estimateForegrounds_ok h2
    obtain ⟨ts, n, us, old, hts, hn, ho, rfl⟩ := propagateForeground_ok h3
    obtain ⟨b, rfl⟩ := loadSource_ok h4
    simp only
    rw [← hbt.count, ← vstackTables_length _ _ _ hr, removeShared_length]
  obtain ⟨all1, _⟩ := sky_has _ _ _ _ h0 hf1 oa
  obtain ⟨_, tabb, htb, hnb⟩ := sky_has _ _ _ _ h0 hf2 ob
  constructor
  · have i1 : Inv p s.tabs tabs1 := by
      have := (observe_same h0 h0.inv w first hf1).1
      rw [oa] at this
      exact this
    have h2 := (observe_same h0 i1 w second hf2).2
    rw [ob] at h2
    rcases h2 with ⟨e, _, he⟩ | ⟨x, y, hx, hy, hxy⟩
    · cases he
    · have ox : observe w p tabs1 second = ((observe w p tabs1 second).1, .ok x) := Prod.ext rfl hx
      obtain ⟨s1, s2, s3, s4, s5, g1, g2, g3, g4, g5, g6⟩ := (observe_ok_iff w p sec hsec _ _ _ _).mp ox
      obtain ⟨r, hr, _, c2, _⟩ := observe_sky w p sec hsec g1 g2 g3 g4 g5 g6
      refine ⟨a, x, r, ?_, hr, c2 all1⟩
      have noplot : ∀ t, plotTarget o t = .ok () := by intro t; simp [plotTarget, hplot]
      have e1 : pipelineToDict w p o s first = (⟨tabs1, .info⟩, some a) := by
        unfold pipelineToDict
        rw [oa]
        simp only [noplot]
      have e2 : ∃ s'', pipelineToDict w p o ⟨tabs1, .info⟩ second = (s'', some x) := by
        unfold pipelineToDict
        simp only
        rw [ox]
        simp only [noplot]
        exact ⟨_, rfl⟩
      obtain ⟨s'', e2⟩ := e2
      unfold runList
      rw [e1]
      simp only
      unfold runList
      rw [e2]
      rfl
  · intro sched m0 m1
    refine ⟨tabb, ?_, htb, hnb⟩
    rw [pool_results w p o s _ sched]
    · simp [ha, hb]
    · intro i hi
      simp only [List.length_cons, List.length_nil] at hi
      rcases (by omega : i = 0 ∨ i = 1) with rfl | rfl
      · exact m0
      · exact m1

/-! ## C56: the level of the log -/

theorem runList_level (w : World) (p : Payload) (o : RunOpts) : ∀ (ts : List Target) (s : Shared), ts ≠ [] →
    (runList w p o s ts).1.level = .info
  | [t], s, _ => by
    unfold runList pipelineToDict
    generalize observe w p s.tabs t = q
    obtain ⟨tb, q⟩ := q
    cases q with
    | error e => rfl
    | ok t' => simp only; cases plotTarget o t' <;> rfl
  | t :: u :: us, s, _ => by
    unfold runList
    exact runList_level w p o (u :: us) _ (by simp)

/-- C56, what does not hold: after observing targets in this process the level of the log is INFO, whatever it was and
however the observations end; so the configured level survives only if it was INFO, if there is no target, or with
several processes. -/
theorem log_level_after_partial (w : World) (p : Payload) (o : RunOpts) (n : Nat) (sched : List Nat) (s : Shared) (ts : List Target) :
    (observeTargetlist w p o n sched s ts).1.level = (if n ≤ 1 ∧ ts ≠ [] then .info else s.level) ∧
    ((observeTargetlist w p o n sched s ts).1.level = s.level ↔ s.level = .info ∨ ts = [] ∨ 1 < n) := by
  have h : (observeTargetlist w p o n sched s ts).1.level = (if n ≤ 1 ∧ ts ≠ [] then .info else s.level) := by
    unfold observeTargetlist
    by_cases hn : 1 < n
    · rw [if_pos hn, if_neg (by omega)]
    · rw [if_neg hn]
      by_cases ht : ts = []
      · subst ht
        simp [runList]
      · rw [if_pos ⟨by omega, ht⟩]
        exact runList_level w p o ts s ht
  refine ⟨h, ?_⟩
  rw [h]
  split
  · rename_i hc
    constructor
    · exact fun e => .inl e.symm
    · rintro (e | e | e)
      · exact e.symm
      · exact absurd e hc.2
      · omega
  · rename_i hc
    refine ⟨fun _ => ?_, fun _ => rfl⟩
    by_contra hx
    push Not at hx
    exact hc ⟨hx.2.2, hx.2.1⟩

/-- Not the level that `debug` set: the run's own DEBUG level is gone after the first target. -/
theorem debug_level_lost (w : World) (p : Payload) (o : RunOpts) (tabs : List (Table ℝ)) (sched : List Nat) (t : Target) (ts : List Target) :
    (observeTargetlist w p o 1 sched ⟨tabs, .debug⟩ (t :: ts)).1.level = .info := by
  rw [(log_level_after_partial w p o 1 sched _ _).1]
  simp

/-! ## C71: plotting -/

/-- C71, what does not hold: asking for plots without an output directory skips every target, even those that can be
observed. -/
theorem plot_without_directory (w : World) (p : Payload) (o : RunOpts) (hplot : o.plot = true) (hdir : o.outDir = none)
    (s : Shared) (ts : List Target) : ∀ r ∈ (runList w p o s ts).2, r = none := by
  have one : ∀ (s : Shared) (t : Target), (pipelineToDict w p o s t).2 = none := by
    intro s t
    unfold pipelineToDict
    generalize observe w p s.tabs t = q
    obtain ⟨tb, q⟩ := q
    cases q with
    | error e => rfl
    | ok t' =>
      simp only [plotTarget, hplot, hdir, if_true]
      cases o.draw (t'.table.getD []) <;> rfl
  induction ts generalizing s with
  | nil => simp [runList]
  | cons t ts ih =>
    unfold runList
    intro r hr
    simp only [List.mem_cons] at hr
    rcases hr with rfl | hr
    · exact one s t
    · exact ih _ r hr

/-- C71: if the plots can be drawn and saved, plotting changes no result. -/
theorem plots_do_not_matter (w : World) (p : Payload) (o : RunOpts) (hd : ∀ t, o.draw t = .ok ()) (hs : ∀ f, o.save f = .ok ())
    (hdir : o.outDir ≠ none) (s : Shared) (ts : List Target) :
    runList w p o s ts = runList w p { o with plot := false } s ts := by
  have one : ∀ (s : Shared) (t : Target), pipelineToDict w p o s t = pipelineToDict w p { o with plot := false } s t := by
    intro s t
    have e : ∀ t', plotTarget o t' = .ok () := by
      intro t'
      unfold plotTarget
      rw [hd]
      cases h : o.outDir with
      | none => exact absurd h hdir
      | some d => simp [hs]
    have e' : ∀ t', plotTarget { o with plot := false } t' = .ok () := by intro t'; simp [plotTarget]
    unfold pipelineToDict
    simp only [e, e']
  induction ts generalizing s with
  | nil => rfl
  | cons t ts ih =>
    unfold runList
    rw [one s t]
    generalize pipelineToDict w p { o with plot := false } s t = q
    obtain ⟨s', r⟩ := q
    simp only [ih s']

end ExoRad.Pipeline
