import Verif.Props.LogRun

/-!
# C95: the log of several processes
-/

set_option linter.unusedSectionVars false

namespace ExoRad.Log

/-! ## Grouping -/

/-- What one worker does. -/
def own {β : Type} (i : Nat) (l : List (Nat × β)) : List β := (l.filter (fun q => q.1 = i)).map Prod.snd

theorem own_append {β : Type} (i : Nat) (a b : List (Nat × β)) : own i (a ++ b) = own i a ++ own i b := by
  unfold own
  rw [List.filter_append, List.map_append]

theorem own_single {β : Type} (i j : Nat) (e : β) : own i [(j, e)] = if j = i then [e] else [] := by
  unfold own
  by_cases h : j = i <;> simp [h]

theorem flatMap_update {β : Type} (f : Nat → List β) (b : β) (j : Nat) : ∀ (is : List Nat), is.Nodup → j ∈ is →
    (is.flatMap (fun i => if i = j then b :: f i else f i)).Perm (b :: is.flatMap f)
  | [], _, h => by cases h
  | i :: is, hn, h => by
    rw [List.flatMap_cons, List.flatMap_cons]
    obtain ⟨h1, h2⟩ := List.nodup_cons.mp hn
    by_cases e : i = j
    · subst e
      rw [if_pos rfl]
      have : is.flatMap (fun k => if k = i then b :: f k else f k) = is.flatMap f := by
        apply List.flatMap_congr
        intro k hk
        rw [if_neg (fun e : k = i => h1 (e ▸ hk))]
      rw [this]
      exact List.Perm.refl _
    · rw [if_neg e]
      have hj : j ∈ is := by
        rcases List.mem_cons.mp h with h | h
        · exact absurd h.symm e
        · exact h
      exact (List.Perm.append_left _ (flatMap_update f b j is h2 hj)).trans List.perm_middle

/-- The histories of the workers, one after the other, are the whole history in another order. -/
theorem perm_own {β : Type} (n : Nat) : ∀ (l : List (Nat × β)), (∀ q ∈ l, q.1 < n) → ((List.range n).flatMap (fun i => own i l)).Perm (l.map Prod.snd)
  | [], _ => by simp [own]
  | (j, b) :: l, h => by
    have ih := perm_own n l (fun q hq => h q (List.mem_cons_of_mem _ hq))
    have e : (fun i => own i ((j, b) :: l)) = fun i => if i = j then b :: own i l else own i l := by
      funext i
      unfold own
      by_cases e : j = i
      · subst e; simp
      · simp [e, Ne.symm e]
    rw [e, List.map_cons]
    exact (flatMap_update (fun i => own i l) b j (List.range n) List.nodup_range (List.mem_range.mpr (h (j, b) (by simp)))).trans (ih.cons b)

/-! ## One step at a time -/

theorem pool_append (p : Pool) (a b : List (Nat × Event)) : p.run (a ++ b) = (p.run a).run b := List.foldl_append ..

theorem pool_rank (p : Pool) (l : List (Nat × Event)) : (p.run l).rank = p.rank := by
  induction l using List.reverseRecOn with
  | nil => rfl
  | append_singleton l q ih => rw [pool_append]; exact ih

theorem pool_level (p : Pool) (l : List (Nat × Event)) (i : Nat) : ((p.run l).worker i).level = lastLevel (p.worker i).level (own i l) := by
  induction l using List.reverseRecOn with
  | nil => rfl
  | append_singleton l q ih =>
    obtain ⟨j, e⟩ := q
    rw [pool_append, own_append, own_single]
    show (Function.update (p.run l).worker j _ i).level = _
    by_cases h : j = i
    · subst h
      rw [Function.update_self, if_pos rfl]
      have h2 : (Log.step ((p.run l).view j) e).level = (Log.run ((p.run l).view j) [e]).level := rfl
      rw [h2, run_level]
      have h3 : ((p.run l).view j).level = lastLevel (p.worker j).level (own j l) := ih
      rw [h3]
      unfold lastLevel
      cases e <;> simp
    · rw [Function.update_of_ne (Ne.symm h), if_neg h, List.append_nil]
      exact ih

theorem pool_handlers (p : Pool) (l : List (Nat × Event)) (hl : ∀ q ∈ l, ∀ f, q.2 ≠ .file f) (i : Nat) :
    ((p.run l).worker i).handlers = (p.worker i).handlers := by
  induction l using List.reverseRecOn with
  | nil => rfl
  | append_singleton l q ih =>
    obtain ⟨j, e⟩ := q
    have ih := ih (fun q hq => hl q (List.mem_append_left _ hq))
    rw [pool_append]
    show (Function.update (p.run l).worker j _ i).handlers = _
    by_cases h : j = i
    · subst h
      rw [Function.update_self, ← ih]
      cases e with
      | msg m => exact log_handlers _ m
      | level n => rfl
      | file f => exact absurd rfl (hl (j, .file f) (by simp) f)
    · rw [Function.update_of_ne (Ne.symm h)]
      exact ih

/-- The messages of a history of the pool. -/
def poolMsgs (l : List (Nat × Event)) : List Msg := msgsOf (l.map Prod.snd)

/-- A file in the pool. -/
def Pool.contents (p : Pool) (f : String) : List Msg := (p.files.get? f).getD []

theorem pool_contents (p : Pool) (k : Nat) (f : String) (hk : ∀ i, (p.worker i).handlers.count f = k) (l : List (Nat × Event))
    (hl : ∀ q ∈ l, ∀ g, q.2 ≠ .file g) :
    (p.run l).contents f = p.contents f ++ (atLeast 10 (poolMsgs l)).flatMap (fun m => List.replicate k m) := by
  induction l using List.reverseRecOn with
  | nil => simp [Pool.run, poolMsgs, msgsOf, atLeast]
  | append_singleton l q ih =>
    obtain ⟨j, e⟩ := q
    have hl' : ∀ q ∈ l, ∀ g, q.2 ≠ .file g := fun q hq => hl q (List.mem_append_left _ hq)
    have ih := ih hl'
    have hm : poolMsgs (l ++ [(j, e)]) = poolMsgs l ++ msgsOf [e] := by
      unfold poolMsgs
      rw [List.map_append, msgsOf_append]
      rfl
    rw [hm, atLeast_append, List.flatMap_append, ← List.append_assoc, ← ih, pool_append]
    show Log.contents (Log.run ((p.run l).view j) [e]) f = _
    rw [replicate_contents _ f [e] (by
      rw [List.mem_singleton]
      exact fun h => hl (j, e) (by simp) f h.symm)]
    have h1 : ((p.run l).view j).handlers.count f = k := by
      show ((p.run l).worker j).handlers.count f = k
      rw [pool_handlers p l hl' j, hk]
    rw [h1]
    rfl

/-- The screen, with the worker that wrote each line. -/
theorem pool_screen (p : Pool) (l : List (Nat × Event)) : ∃ tagged : List (Nat × Msg), (p.run l).screen = p.screen ++ tagged.map Prod.snd ∧
    (∀ i, own i tagged = (Log.run ⟨p.rank, (p.worker i).level, [], [], []⟩ (own i l)).screen) ∧ ∀ q ∈ tagged, ∃ e, (q.1, e) ∈ l := by
  induction l using List.reverseRecOn with
  | nil => exact ⟨[], by simp [Pool.run], fun i => rfl, by simp⟩
  | append_singleton l q ih =>
    obtain ⟨j, e⟩ := q
    obtain ⟨tagged, h1, h2, h3⟩ := ih
    cases e with
    | msg m =>
      by_cases hs : 10 ≤ m.level ∧ lastLevel (p.worker j).level (own j l) ≤ m.level ∧ (p.rank = 0 ∨ 40 ≤ m.level)
      · refine ⟨tagged ++ [(j, m)], ?_, ?_, ?_⟩
        · rw [pool_append, List.map_append, ← List.append_assoc, ← h1]
          show (log ((p.run l).view j) m).screen = _
          rw [log_screen]
          have hv : ((p.run l).view j).level = lastLevel (p.worker j).level (own j l) := pool_level p l j
          have hr : ((p.run l).view j).rank = p.rank := pool_rank p l
          rw [hv, hr, if_pos hs]
          rfl
        · intro i
          rw [own_append, own_append, own_single, own_single, h2 i]
          by_cases h : j = i
          · subst h
            rw [if_pos rfl, if_pos rfl, (screen_exact _ (own j l)).1 m, if_pos hs]
          · rw [if_neg h, if_neg h, List.append_nil, List.append_nil]
        · intro q hq
          rcases List.mem_append.mp hq with hq | hq
          · obtain ⟨e, he⟩ := h3 q hq
            exact ⟨e, List.mem_append_left _ he⟩
          · rw [List.mem_singleton] at hq
            subst hq
            exact ⟨.msg m, by simp⟩
      · refine ⟨tagged, ?_, ?_, ?_⟩
        · rw [pool_append, ← h1]
          show (log ((p.run l).view j) m).screen = _
          rw [log_screen]
          have hv : ((p.run l).view j).level = lastLevel (p.worker j).level (own j l) := pool_level p l j
          have hr : ((p.run l).view j).rank = p.rank := pool_rank p l
          rw [hv, hr, if_neg hs, List.append_nil]
          rfl
        · intro i
          rw [own_append, own_single, h2 i]
          by_cases h : j = i
          · subst h
            rw [if_pos rfl, (screen_exact _ (own j l)).1 m, if_neg hs, List.append_nil]
          · rw [if_neg h, List.append_nil]
        · intro q hq
          obtain ⟨e, he⟩ := h3 q hq
          exact ⟨e, List.mem_append_left _ he⟩
    | level n =>
      refine ⟨tagged, by rw [pool_append, ← h1]; rfl, ?_, ?_⟩
      · intro i
        rw [own_append, own_single, h2 i]
        by_cases h : j = i
        · rw [if_pos h, (screen_exact _ (own i l)).2.1 n]
        · rw [if_neg h, List.append_nil]
      · intro q hq
        obtain ⟨e, he⟩ := h3 q hq
        exact ⟨e, List.mem_append_left _ he⟩
    | file f =>
      refine ⟨tagged, by rw [pool_append, ← h1]; rfl, ?_, ?_⟩
      · intro i
        rw [own_append, own_single, h2 i]
        by_cases h : j = i
        · rw [if_pos h, (screen_exact _ (own i l)).2.2 f]
        · rw [if_neg h, List.append_nil]
      · intro q hq
        obtain ⟨e, he⟩ := h3 q hq
        exact ⟨e, List.mem_append_left _ he⟩

/-! ## C95 -/

theorem runs_no_file {debug : Bool} {tasks : Nat → List Obs} {l : List (Nat × Event)} (h : Runs debug tasks l) :
    ∀ q ∈ l, ∀ f, q.2 ≠ .file f := by
  intro q hq f hf
  have : q.2 ∈ own q.1 l := List.mem_map.mpr ⟨q, List.mem_filter.mpr ⟨hq, by simp⟩, rfl⟩
  have h' : own q.1 l = _ := h q.1
  rw [h', hf] at this
  obtain ⟨o, _, ho⟩ := List.mem_flatMap.mp this
  exact file_not_mem_obs f debug o ho

theorem runs_msgs {debug : Bool} {tasks : Nat → List Obs} {l : List (Nat × Event)} (h : Runs debug tasks l) (n : Nat) (hn : ∀ q ∈ l, q.1 < n) :
    ((List.range n).flatMap (fun i => (tasks i).flatMap transcript)).Perm (poolMsgs l) := by
  have e : (List.range n).flatMap (fun i => (tasks i).flatMap transcript) = msgsOf ((List.range n).flatMap (fun i => own i l)) := by
    unfold msgsOf
    rw [List.filterMap_flatMap]
    apply List.flatMap_congr
    intro i _
    have h' : own i l = _ := h i
    rw [h']
    exact (msgsOf_flatMap debug (tasks i)).symm
  rw [e]
  exact (perm_own n l hn).filterMap _

/-- C95: if the workers are copies of the parent, a log file of the parent gets exactly the lines that a single process would have written, once
each, whichever worker observes which target and however their lines interleave; only the order may differ. -/
theorem pool_file_fork (debug : Bool) (s : State) (f : String) (hf : s.handlers.count f = 1) (n : Nat) (tasks : Nat → List Obs) (os : List Obs)
    (ht : ((List.range n).flatMap tasks).Perm os) (l : List (Nat × Event)) (hl : Runs debug tasks l) (hn : ∀ q ∈ l, q.1 < n) :
    ∃ new : List Msg, contents (afterPool s ((startPool .fork s).run l)) f = contents s f ++ new ∧
      new.Perm (atLeast 10 (os.flatMap transcript)) ∧ contents (observeTargetlist debug s os) f = contents s f ++ atLeast 10 (os.flatMap transcript) := by
  refine ⟨atLeast 10 (poolMsgs l), ?_, ?_, ?_⟩
  · have := pool_contents (startPool .fork s) 1 f (fun i => hf) l (runs_no_file hl)
    simp only [List.replicate_one, List.flatMap_singleton'] at this
    exact this
  · have h1 := (runs_msgs hl n hn).symm
    have h2 : ((List.range n).flatMap (fun i => (tasks i).flatMap transcript)).Perm (os.flatMap transcript) := by
      rw [← List.flatMap_assoc]
      exact ht.flatMap_right _
    exact (h1.trans h2).filter _
  · rw [observeTargetlist_eq, file_added_once s f hf _ (by
      intro h
      obtain ⟨o, _, ho⟩ := List.mem_flatMap.mp h
      exact file_not_mem_obs f debug o ho), msgsOf_flatMap]
    rfl

/-- C95: and the lines of one target come in the order in which it logs them. -/
theorem pool_file_order (debug : Bool) (s : State) (f : String) (hf : s.handlers.count f = 1) (tasks : Nat → List Obs)
    (l : List (Nat × Event)) (hl : Runs debug tasks l) (i : Nat) (o : Obs) (ho : o ∈ tasks i) :
    ∃ new : List Msg, contents (afterPool s ((startPool .fork s).run l)) f = contents s f ++ new ∧ (atLeast 10 (transcript o)).Sublist new := by
  refine ⟨atLeast 10 (poolMsgs l), ?_, ?_⟩
  · have := pool_contents (startPool .fork s) 1 f (fun i => hf) l (runs_no_file hl)
    simp only [List.replicate_one, List.flatMap_singleton'] at this
    exact this
  · apply List.Sublist.filter
    have h1 : (transcript o).Sublist ((tasks i).flatMap transcript) := List.sublist_flatten_of_mem (List.mem_map.mpr ⟨o, ho, rfl⟩)
    refine h1.trans ?_
    rw [← msgsOf_flatMap debug]
    have h' : own i l = _ := hl i
    rw [← h']
    exact (List.filter_sublist.map _).filterMap _

/-- C95, what does not hold: workers that start afresh write to no file at all. With a log file, nothing about the observation of the
targets is recorded. -/
theorem pool_file_fresh (debug : Bool) (s : State) (f : String) (tasks : Nat → List Obs) (l : List (Nat × Event)) (hl : Runs debug tasks l) :
    contents (afterPool s ((startPool .fresh s).run l)) f = contents s f := by
  have := pool_contents (startPool .fresh s) 0 f (fun i => rfl) l (runs_no_file hl)
  have hz : ∀ ms : List Msg, ms.flatMap (fun m => List.replicate 0 m) = [] := by
    intro ms
    induction ms with
    | nil => rfl
    | cons m ms ih => rw [List.flatMap_cons, ih]; rfl
  rw [hz, List.append_nil] at this
  exact this

/-- C95: the screen shows, for every worker, what a single process would show that observed the worker's targets, starting with the level
of the parent (copies) or INFO (new interpreters); the lines of different workers may be mixed. -/
theorem pool_shows (m : Pipeline.Start) (debug : Bool) (s : State) (tasks : Nat → List Obs) (l : List (Nat × Event)) (hl : Runs debug tasks l) :
    ∃ tagged : List (Nat × Msg), (afterPool s ((startPool m s).run l)).screen = s.screen ++ tagged.map Prod.snd ∧
      ∀ i, own i tagged = (observeTargetlist debug ⟨s.rank, if m = .fork then s.level else 20, [], [], []⟩ (tasks i)).screen := by
  obtain ⟨tagged, h1, h2, _⟩ := pool_screen (startPool m s) l
  refine ⟨tagged, h1, fun i => ?_⟩
  have h' : own i l = _ := hl i
  rw [h2 i, observeTargetlist_eq, h']
  cases m <;> rfl

/-- C95: at level INFO or below, the first process's workers show for every target the line it starts with, and for a target that fails the line that says
so, after it; this holds on every platform, for every schedule, with and without `debug`. -/
theorem pool_progress (m : Pipeline.Start) (debug : Bool) (s : State) (hr : s.rank = 0) (h10 : 10 ≤ s.level) (h20 : s.level ≤ 20) (tasks : Nat → List Obs)
    (l : List (Nat × Event)) (hl : Runs debug tasks l) (i : Nat) (o : Obs) (ho : o ∈ tasks i) :
    ∃ new : List Msg, (afterPool s ((startPool m s).run l)).screen = s.screen ++ new ∧
      ([observing o] ++ (if o.observed ∧ o.plotted then [] else [skipped o])).Sublist new := by
  obtain ⟨tagged, h1, h2⟩ := pool_shows m debug s tasks l hl
  refine ⟨_, h1, ?_⟩
  have hsub : (own i tagged).Sublist (tagged.map Prod.snd) := List.filter_sublist.map _
  refine List.Sublist.trans ?_ hsub
  rw [h2 i]
  have key : ∀ (ts : List Obs) (t : State), t.rank = 0 → 10 ≤ t.level → t.level ≤ 20 → o ∈ ts →
      ∃ x, (observeTargetlist debug t ts).screen = t.screen ++ x ∧ ([observing o] ++ (if o.observed ∧ o.plotted then [] else [skipped o])).Sublist x := by
    intro ts
    induction ts with
    | nil => intro t _ _ _ h; cases h
    | cons u ts ih =>
      intro t a1 a2 a3 hmem
      have hu := target_screen debug t a1 a2 u
      have pre : ∃ y, (observeTargetlist debug (pipelineToDict debug t u) ts).screen = (pipelineToDict debug t u).screen ++ y :=
        ⟨_, list_screen debug ts _ ((rank_after_target debug t u).trans a1) (level_after_target debug t u)⟩
      rcases List.mem_cons.mp hmem with rfl | hmem
      · obtain ⟨y, hy⟩ := pre
        refine ⟨_, by show (observeTargetlist debug (pipelineToDict debug t o) ts).screen = _; rw [hy, hu, List.append_assoc], ?_⟩
        rw [if_pos a3]
        refine List.Sublist.trans ?_ (List.sublist_append_left _ _)
        refine List.Sublist.append ?_ (List.Sublist.refl _)
        rw [List.append_assoc]
        exact List.sublist_append_left _ _
      · obtain ⟨x, hx, hxs⟩ := ih (pipelineToDict debug t u) ((rank_after_target debug t u).trans a1) (by rw [level_after_target]; decide)
          (by rw [level_after_target]) hmem
        refine ⟨_, by show (observeTargetlist debug (pipelineToDict debug t u) ts).screen = _; rw [hx, hu, List.append_assoc], ?_⟩
        exact hxs.trans (List.sublist_append_right _ _)
  obtain ⟨x, hx, hxs⟩ := key (tasks i) ⟨s.rank, if m = .fork then s.level else 20, [], [], []⟩ hr (by cases m <;> simp [h10]) (by cases m <;> simp [h20]) ho
  rw [hx]
  simpa using hxs

/-- C95: the parent keeps its level, unlike with one process (C56). -/
theorem pool_parent_level (m : Pipeline.Start) (s : State) (l : List (Nat × Event)) : (afterPool s ((startPool m s).run l)).level = s.level := rfl

/-! ## A run -/

namespace PoolDemo

def good : Obs := { name := "A", msgs := [⟨10, "a1"⟩, ⟨20, "a2"⟩], observed := true }
def bad : Obs := { name := "B", msgs := [⟨40, "b1"⟩], observed := false }
def parent : State := { rank := 0, level := 20, screen := [], handlers := ["run.log"], files := [("run.log", [⟨20, "start"⟩])] }
def tasks (i : Nat) : List Obs := if i = 0 then [good] else if i = 1 then [bad] else []

/-- The two workers take turns. -/
def history : List (Nat × Event) :=
  [(0, .msg (observing good)), (1, .msg (observing bad)), (0, .level 40), (1, .level 40), (1, .msg ⟨40, "b1"⟩), (0, .msg ⟨10, "a1"⟩), (1, .level 20),
    (0, .msg ⟨20, "a2"⟩), (1, .msg (skipped bad)), (0, .level 20)]

theorem history_runs : Runs false tasks history := by
  intro i
  by_cases h0 : i = 0
  · subst h0; decide
  · by_cases h1 : i = 1
    · subst h1; decide
    · have e : tasks i = [] := by simp [tasks, h0, h1]
      rw [e]
      simp [history, Ne.symm h0, Ne.symm h1]

/-- Copies of the parent write all seven lines; new interpreters none. -/
theorem demo_files :
    contents (afterPool parent ((startPool .fork parent).run history)) "run.log" =
      [⟨20, "start"⟩, observing good, observing bad, ⟨40, "b1"⟩, ⟨10, "a1"⟩, ⟨20, "a2"⟩, skipped bad] ∧
    contents (afterPool parent ((startPool .fresh parent).run history)) "run.log" = [⟨20, "start"⟩] ∧
    (afterPool parent ((startPool .fresh parent).run history)).screen = [observing good, observing bad, ⟨40, "b1"⟩, skipped bad] := by
  refine ⟨by decide, pool_file_fresh false parent "run.log" tasks history history_runs, by decide⟩

theorem demo_bound : (∀ q ∈ history, q.1 < 2) ∧ ((List.range 2).flatMap tasks).Perm [bad, good] ∧ parent.handlers.count "run.log" = 1 := by
  refine ⟨by decide, ?_, by decide⟩
  show List.Perm [good, bad] [bad, good]
  exact List.Perm.swap ..

end PoolDemo
end ExoRad.Log
