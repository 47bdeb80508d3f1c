import Verif.Props.CompleteDemo

/-!
# C19, C21: exact independence, and a run that meets the hypotheses
-/

set_option linter.unusedSectionVars false

namespace ExoRad.Pipeline
open Table

theorem sameTable_clean {a b : Table ℝ} (h : SameTable a b) (ha : "sky TR" ∉ a.keys) (hb : "sky TR" ∉ b.keys) : a = b := by
  have key : ∀ t : Table ℝ, "sky TR" ∉ t.keys → t.filter (fun q => q.1 ≠ "sky TR") = t := by
    intro t ht
    rw [List.filter_eq_self]
    intro q hq
    simp only [ne_eq, decide_not, Bool.not_eq_true', decide_eq_false_iff_not]
    intro he
    exact ht (List.mem_map.mpr ⟨q, hq, he⟩)
  unfold SameTable at h
  rwa [key a ha, key b hb] at h

theorem observed_clean {p : Payload} {w : World} {sec : Foreground.Section ℝ} (hsec : p.foreground = some sec) {tabs : List (Table ℝ)}
    (hc : ∀ t ∈ tabs, "sky TR" ∉ t.keys) {t r : Target} (h : (observe w p tabs t).2 = .ok r) :
    ∃ tab, r.table = some tab ∧ "sky TR" ∉ tab.keys := by
  have ho : observe w p tabs t = ((observe w p tabs t).1, .ok r) := Prod.ext rfl h
  obtain ⟨s1, s2, s3, s4, s5, g1, g2, g3, g4, g5, g6⟩ := (observe_ok_iff w p sec hsec _ _ _ _).mp ho
  obtain ⟨tab, hr, c1, _, _⟩ := observe_sky w p sec hsec g1 g2 g3 g4 g5 g6
  exact ⟨tab, hr, c1 hc⟩

/-- Without a foreground that has a transmission, an observation does not depend on the earlier ones at all. -/
theorem observe_exact {p : Payload} {tabs0 tabs : List (Table ℝ)} (h0 : Built p tabs0) (hi : Inv p tabs0 tabs) (w : World)
    (sec : Foreground.Section ℝ) (hsec : p.foreground = some sec) (hz : ∀ kd ∈ sec.list, kd.1 = "zodiacal") (t : Target) (hf : Fresh t) :
    Inv p tabs0 (observe w p tabs t).1 ∧ (observe w p tabs t).2 = (observe w p tabs0 t).2 := by
  obtain ⟨i, h⟩ := observe_same h0 hi w t hf
  refine ⟨i, ?_⟩
  rcases h with ⟨e, h1, h2⟩ | ⟨a, b, h1, h2, h3⟩
  · rw [h1, h2]
  · rw [h1, h2]
    have hs : skySet p ≠ true := by
      simp only [skySet, sections, hsec, ne_eq, List.any_eq_true, decide_eq_true_eq, not_exists, not_and, not_not]
      exact hz
    obtain ⟨ta, ea, ca⟩ := observed_clean (w := w) hsec (hi.sky.resolve_left hs) h1
    obtain ⟨tb, eb, cb⟩ := observed_clean (w := w) hsec h0.clean h2
    have ht := h3.table
    rw [ea, eb] at ht
    have := sameTable_clean ht ca cb
    subst this
    obtain ⟨n1, st1, at1, sk1, b1, t1⟩ := a
    obtain ⟨n2, st2, at2, sk2, b2, t2⟩ := b
    obtain ⟨e1, e2, e5, e3, e4, _, _⟩ := h3
    simp only at e1 e2 e3 e4 e5 ea eb
    subst e1 e2 e3 e4 e5 ea eb
    rfl

/-- C19: if the payload's foregrounds are only zodiacal light, the results of a list of targets are exactly those of observing each target alone. -/
theorem targets_exact {p : Payload} {w : World} {o : RunOpts} {s : Shared} (h0 : Built p s.tabs) (sec : Foreground.Section ℝ)
    (hsec : p.foreground = some sec) (hz : ∀ kd ∈ sec.list, kd.1 = "zodiacal") (ts : List Target) (hf : ∀ t ∈ ts, Fresh t) :
    (runList w p o s ts).2 = ts.map (alone w p o s) := by
  have key : ∀ (ts : List Target) (s' : Shared), Inv p s.tabs s'.tabs → (∀ t ∈ ts, Fresh t) →
      (runList w p o s' ts).2 = ts.map (alone w p o s) := by
    intro ts
    induction ts with
    | nil => intros; rfl
    | cons t ts ih =>
      intro s' hi hf
      obtain ⟨i, h⟩ := observe_exact h0 hi w sec hsec hz t (hf t (by simp))
      have h1 : Inv p s.tabs (pipelineToDict w p o s' t).1.tabs ∧ (pipelineToDict w p o s' t).2 = alone w p o s t := by
        unfold alone pipelineToDict
        revert i h
        generalize observe w p s'.tabs t = o1
        generalize observe w p s.tabs t = o2
        intro i h
        obtain ⟨t1, r1⟩ := o1
        obtain ⟨t2, r2⟩ := o2
        simp only at i h
        subst h
        cases r1 with
        | error e => exact ⟨i, rfl⟩
        | ok a =>
          simp only
          cases plotTarget o a with
          | error e => exact ⟨i, rfl⟩
          | ok u => exact ⟨i, rfl⟩
      have h2 := ih (pipelineToDict w p o s' t).1 h1.1 (fun u hu => hf u (by simp [hu]))
      unfold runList
      simp only [List.map_cons]
      rw [← h1.2, ← h2]
  exact key ts s h0.inv hf

/-- C21: if the payload's foregrounds are only zodiacal light, the dictionary is exactly the same for every number of processes
and every order in which they finish. -/
theorem threads_exact {p : Payload} {w : World} {o : RunOpts} {s : Shared} (h0 : Built p s.tabs) (sec : Foreground.Section ℝ)
    (hsec : p.foreground = some sec) (hz : ∀ kd ∈ sec.list, kd.1 = "zodiacal") (ts : List Target) (hf : ∀ t ∈ ts, Fresh t)
    (n m : Nat) (sched sched' : List Nat) (hs : ∀ i < ts.length, i ∈ sched) (hs' : ∀ i < ts.length, i ∈ sched') :
    (observeTargetlist w p o n sched s ts).2 = (observeTargetlist w p o m sched' s ts).2 := by
  have key : ∀ (n : Nat) (sched : List Nat), (∀ i < ts.length, i ∈ sched) →
      (observeTargetlist w p o n sched s ts).2 = collect (ts.map (alone w p o s)) := by
    intro n sched hs
    unfold observeTargetlist
    by_cases hn : 1 < n
    · rw [if_pos hn, pool_results w p o s ts sched hs]
    · rw [if_neg hn, ← targets_exact h0 sec hsec hz ts hf]
  rw [key n sched hs, key m sched' hs']

/-! ## A run that meets the hypotheses -/

namespace Demo

theorem demo_built : Built payload [tab "P", tab "Q"] := by
  refine ⟨rfl, ?_, ?_, ?_⟩
  · intro t ht
    simp only [List.mem_cons, List.not_mem_nil, or_false] at ht
    rcases ht with rfl | rfl <;> simp [tab, Table.rows]
  · intro t ht
    simp only [List.mem_cons, List.not_mem_nil, or_false] at ht
    rcases ht with rfl | rfl <;> simp [tab, Dict.keys]
  · intro c hc
    simp only [payload, List.mem_cons, List.not_mem_nil, or_false] at hc
    rcases hc with rfl | rfl <;> simp [ch]

theorem demo_fresh (n : String) : Fresh (target n) := ⟨rfl, rfl⟩

noncomputable def opts : RunOpts := ⟨false, none, false, fun _ => .ok (), fun _ => .ok ()⟩

theorem demo_plot : PlotIgnoresSky opts := fun _ _ _ => rfl

noncomputable def shared : Shared := ⟨[tab "P", tab "Q"], .info⟩

theorem demo_alone (n : String) : ∃ r, alone world payload opts shared (target n) = some r := by
  obtain ⟨tabs', r, tot, h, _⟩ := demo_observed n
  refine ⟨{ target n with sky := sky, built := some built, table := some r }, ?_⟩
  unfold alone pipelineToDict
  simp only [shared, h, plotTarget, opts, Bool.false_eq_true, if_false]

/-- The demonstration run shows both sides of C21: one process adds the column `sky TR` to the second target, two processes do not. -/
theorem demo_threads_differ (n m : String) :
    (∃ a' b' tb, (runList world payload opts shared [target n, target m]).2 = [some a', some b'] ∧ b'.table = some tb ∧ "sky TR" ∈ tb.keys) ∧
    (∀ sched, 0 ∈ sched → 1 ∈ sched →
      ∃ a b tb, runPool world payload opts sched shared [target n, target m] = [some a, some b] ∧ b.table = some tb ∧ "sky TR" ∉ tb.keys) := by
  obtain ⟨a, ha⟩ := demo_alone n
  obtain ⟨b, hb⟩ := demo_alone m
  obtain ⟨h1, h2⟩ := threads_differ (p := payload) (w := world) (o := opts) (s := shared) demo_built rfl (.many [("screen", screen)]) rfl
    ⟨("screen", screen), by simp [Foreground.Section.list], by decide⟩ (target n) (target m) a b (demo_fresh n) (demo_fresh m) ha hb
  refine ⟨h1, fun sched m0 m1 => ?_⟩
  obtain ⟨tb, e, f⟩ := h2 sched m0 m1
  exact ⟨a, b, tb, e, f⟩

/-- Every number of targets of any names is observed in the demonstration run. -/
theorem demo_all (names : List String) : ∀ r ∈ (runList world payload opts shared (names.map target)).2, r.isSome := by
  have h := targets_independent (w := world) (o := opts) (s := shared) demo_built demo_plot (names.map target) (by
    intro t ht
    obtain ⟨n, _, rfl⟩ := List.mem_map.mp ht
    exact demo_fresh n)
  have hs : ∀ t ∈ names.map target, (alone world payload opts shared t).isSome := by
    intro t ht
    obtain ⟨n, _, rfl⟩ := List.mem_map.mp ht
    obtain ⟨r, hr⟩ := demo_alone n
    simp [hr]
  revert h hs
  generalize names.map target = ts
  generalize (runList world payload opts shared ts).2 = rs
  intro h hs
  induction h with
  | nil => simp
  | @cons t r ts rs hr _ ih =>
    intro x hx
    rcases List.mem_cons.mp hx with rfl | hx
    · have := hs t (by simp)
      revert this hr
      generalize alone world payload opts shared t = y
      intro hr hy
      cases hr with
      | skipped => exact hy
      | observed _ => rfl
    · exact ih (fun u hu => hs u (by simp [hu])) x hx

end Demo
end ExoRad.Pipeline
