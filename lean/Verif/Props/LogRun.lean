import Verif.Props.Log
import Verif.Model.LogPool

/-!
# C90, C91, C92: what a run shows and records
-/

namespace ExoRad.Log

/-- Everything the observation of a target logs, in order. -/
def transcript (o : Obs) : List Msg :=
  [observing o] ++ o.msgs ++ (if o.observed then o.plotMsgs else []) ++ (if o.observed ∧ o.plotted then [] else [skipped o])

/-- The messages of at least a level. -/
def atLeast (n : Nat) (ms : List Msg) : List Msg := ms.filter (fun m => n ≤ m.level)

theorem atLeast_append (n : Nat) (a b : List Msg) : atLeast n (a ++ b) = atLeast n a ++ atLeast n b := List.filter_append ..

/-! ## Runs as histories -/

theorem logAll_eq (s : State) (ms : List Msg) : logAll s ms = run s (ms.map .msg) := by
  unfold logAll run
  rw [List.foldl_map]
  rfl

theorem pipelineToDict_eq (debug : Bool) (s : State) (o : Obs) : pipelineToDict debug s o = run s (obsEvents debug o) := by
  unfold pipelineToDict obsEvents
  rw [run_append, run_append, run_append]
  have hc : ∀ (t : State) (e : Event) (es : List Event), run t (e :: es) = run (step t e) es := fun _ _ _ => rfl
  cases debug <;> cases o.observed <;> cases o.plotted <;> simp [logAll_eq, run_append, hc] <;> rfl

theorem observeTargetlist_eq (debug : Bool) : ∀ (os : List Obs) (s : State),
    observeTargetlist debug s os = run s (os.flatMap (obsEvents debug))
  | [], s => rfl
  | o :: os, s => by
    rw [List.flatMap_cons, run_append, ← pipelineToDict_eq, ← observeTargetlist_eq debug os]
    rfl

theorem msgsOf_append (a b : List Event) : msgsOf (a ++ b) = msgsOf a ++ msgsOf b := List.filterMap_append ..

theorem msgsOf_map (ms : List Msg) : msgsOf (ms.map .msg) = ms := by
  unfold msgsOf
  rw [List.filterMap_map]
  exact List.filterMap_some

theorem msgsOf_obs (debug : Bool) (o : Obs) : msgsOf (obsEvents debug o) = transcript o := by
  unfold obsEvents transcript
  simp only [msgsOf_append, msgsOf_map]
  cases debug <;> cases o.observed <;> cases o.plotted <;> simp [msgsOf]

theorem msgsOf_flatMap (debug : Bool) (os : List Obs) : msgsOf (os.flatMap (obsEvents debug)) = os.flatMap transcript := by
  induction os with
  | nil => rfl
  | cons o os ih => rw [List.flatMap_cons, List.flatMap_cons, msgsOf_append, msgsOf_obs, ih]

theorem file_not_mem_map (f : String) (ms : List Msg) : Event.file f ∉ ms.map Event.msg := by
  intro h
  obtain ⟨m, _, hm⟩ := List.mem_map.mp h
  cases hm

theorem file_not_mem_obs (f : String) (debug : Bool) (o : Obs) : Event.file f ∉ obsEvents debug o := by
  unfold obsEvents
  cases debug <;> cases o.observed <;> cases o.plotted <;> simp

/-- The history of a run after its beginning. -/
def bodyEvents (debug : Bool) (before : List Msg) (os : List Obs) (after : List Msg) : List Event :=
  before.map .msg ++ os.flatMap (obsEvents debug) ++ after.map .msg

theorem body_eq (debug : Bool) (before : List Msg) (os : List Obs) (after : List Msg) (s : State) :
    logAll (observeTargetlist debug (logAll s before) os) after = run s (bodyEvents debug before os after) := by
  unfold bodyEvents
  rw [logAll_eq, observeTargetlist_eq, logAll_eq, ← run_append, ← run_append]
  simp

theorem file_not_mem_body (f : String) (debug : Bool) (before : List Msg) (os : List Obs) (after : List Msg) :
    Event.file f ∉ bodyEvents debug before os after := by
  unfold bodyEvents
  intro h
  rcases List.mem_append.mp h with h | h
  · rcases List.mem_append.mp h with h | h
    · exact file_not_mem_map f _ h
    · obtain ⟨o, _, ho⟩ := List.mem_flatMap.mp h
      exact file_not_mem_obs f debug o ho
  · exact file_not_mem_map f _ h

/-- The history of the beginning of a run. -/
def startEvents (art version : String) (debug : Bool) (arg : LogArg) : List Event :=
  [.msg ⟨20, art⟩, .msg ⟨20, "code version " ++ version⟩] ++ (if debug then [.level 10] else []) ++
    (match arg.file with | some f => [.file f] | none => [])

theorem start_eq (openable : String → Bool) (art version : String) (debug : Bool) (arg : LogArg) (s : State)
    (ho : ∀ f, arg.file = some f → openable f = true) :
    start openable art version debug arg s = (run s (startEvents art version debug arg), .ok ()) := by
  unfold start startEvents
  dsimp only
  cases hf : arg.file with
  | none => cases debug <;> rfl
  | some f =>
    simp only [addLogFile, ho f hf]
    cases debug <;> rfl

/-- A run is a history: the beginning, what comes before the targets, the targets, the saving. -/
theorem pipeline_eq (openable : String → Bool) (art version : String) (debug : Bool) (arg : LogArg) (before : List Msg) (os : List Obs)
    (after : List Msg) (s : State) (ho : ∀ f, arg.file = some f → openable f = true) :
    pipeline openable art version debug arg before os after s =
      (run s (startEvents art version debug arg ++ bodyEvents debug before os after), .ok ()) := by
  unfold pipeline
  rw [start_eq openable art version debug arg s ho]
  dsimp only
  rw [body_eq, run_append]

/-! ## C90 -/

/-- C90, what holds: the log file of a run that was not already a log file of the process holds, after what it held, every message of
the run from level DEBUG on, except the two lines the run starts with, once, in order, whatever `debug` and the level of the
screen are and however the targets end. -/
theorem run_log_file_partial (openable : String → Bool) (art version : String) (debug : Bool) (arg : LogArg) (f : String)
    (hf : arg.file = some f) (ho : openable f = true) (before : List Msg) (os : List Obs) (after : List Msg) (s : State)
    (hn : f ∉ s.handlers) :
    contents (pipeline openable art version debug arg before os after s).1 f =
      contents s f ++ atLeast 10 (before ++ os.flatMap transcript ++ after) := by
  rw [pipeline_eq openable art version debug arg before os after s (fun g hg => by rw [hf] at hg; cases hg; exact ho)]
  dsimp only
  unfold startEvents
  simp only [hf]
  rw [List.append_assoc _ [Event.file f], List.singleton_append]
  rw [file_complete s f hn _ _ (by cases debug <;> simp) (file_not_mem_body f debug before os after)]
  congr 1
  unfold bodyEvents atLeast
  rw [msgsOf_append, msgsOf_append, msgsOf_map, msgsOf_map, msgsOf_flatMap]

theorem replicate_contents (s : State) (f : String) (es : List Event) (hes : Event.file f ∉ es) :
    contents (run s es) f = contents s f ++ (atLeast 10 (msgsOf es)).flatMap (fun m => List.replicate (s.handlers.count f) m) := by
  induction es using List.reverseRecOn with
  | nil => simp [run, msgsOf, atLeast]
  | append_singleton es e ih =>
    have h1 : Event.file f ∉ es := fun h => hes (List.mem_append_left _ h)
    rw [run_append, run_single, msgsOf_append, atLeast_append, List.flatMap_append, ← List.append_assoc, ← ih h1]
    cases e with
    | msg m =>
      show contents (log _ m) f = _
      rw [log_contents, run_handlers, List.count_eq_zero.mpr h1, Nat.add_zero]
      by_cases hl : 10 ≤ m.level
      · simp [msgsOf, atLeast, hl]
      · simp [msgsOf, atLeast, hl]
    | level n => simp [msgsOf, atLeast]; rfl
    | file g => simpa [msgsOf, atLeast] using file_contents _ g f

/-- C90, what does not hold: if the file was already asked for `k` times in this process, the run writes its two first lines `k` times and
all its other lines `k + 1` times. -/
theorem run_log_repeats (openable : String → Bool) (art version : String) (debug : Bool) (arg : LogArg) (f : String)
    (hf : arg.file = some f) (ho : openable f = true) (before : List Msg) (os : List Obs) (after : List Msg) (s : State) :
    contents (pipeline openable art version debug arg before os after s).1 f =
      contents s f ++ ([⟨20, art⟩, ⟨20, "code version " ++ version⟩] : List Msg).flatMap (fun m => List.replicate (s.handlers.count f) m) ++
        (atLeast 10 (before ++ os.flatMap transcript ++ after)).flatMap (fun m => List.replicate (s.handlers.count f + 1) m) ∧
    (pipeline openable art version debug arg before os after s).1.handlers.count f = s.handlers.count f + 1 := by
  rw [pipeline_eq openable art version debug arg before os after s (fun g hg => by rw [hf] at hg; cases hg; exact ho)]
  dsimp only
  constructor
  · unfold startEvents
    simp only [hf]
    rw [run_append, replicate_contents _ f _ (file_not_mem_body f debug before os after), run_append]
    congr 1
    · rw [run_single, file_contents, replicate_contents s f _ (by cases debug <;> simp)]
      congr 2
      cases debug <;> simp [msgsOf, atLeast]
    · have hc : (run (run s ([Event.msg ⟨20, art⟩, .msg ⟨20, "code version " ++ version⟩] ++ if debug = true then [.level 10] else [])) [.file f]).handlers.count f
          = s.handlers.count f + 1 := by
        rw [run_handlers, run_handlers]
        cases debug <;> simp
      rw [hc]
      unfold bodyEvents
      rw [msgsOf_append, msgsOf_append, msgsOf_map, msgsOf_map, msgsOf_flatMap]
  · rw [run_handlers, List.count_append, List.count_eq_zero.mpr (file_not_mem_body f debug before os after)]
    unfold startEvents
    simp only [hf]
    cases debug <;> simp

/-- A log file that cannot be opened ends the run with an OSError after its first two lines; no file is changed that was not a log file
already, and no target is observed. -/
theorem run_log_unopenable (openable : String → Bool) (art version : String) (debug : Bool) (arg : LogArg) (f : String)
    (hf : arg.file = some f) (ho : openable f = false) (before : List Msg) (os : List Obs) (after : List Msg) (s : State) :
    (pipeline openable art version debug arg before os after s).2 = .error .osError ∧
    (∀ g, g ∉ s.handlers → (pipeline openable art version debug arg before os after s).1.files.get? g = s.files.get? g) ∧
    (pipeline openable art version debug arg before os after s).1.handlers = s.handlers := by
  have e : pipeline openable art version debug arg before os after s =
      (run s ([.msg ⟨20, art⟩, .msg ⟨20, "code version " ++ version⟩] ++ (if debug then [.level 10] else [])), .error .osError) := by
    unfold pipeline start
    simp only [hf, addLogFile, ho]
    cases debug <;> rfl
  rw [e]
  refine ⟨rfl, fun g hg => other_files s g hg _ (by cases debug <;> simp), ?_⟩
  cases debug <;> simp only [run, List.foldl, step, List.append_nil, List.cons_append, List.nil_append, setLogLevel, if_true, Bool.false_eq_true, if_false] <;>
    rw [log_handlers, log_handlers]

/-- Without a log file asked for, a run touches no file that was not a log file before. -/
theorem run_no_log (openable : String → Bool) (art version : String) (debug : Bool) (before : List Msg) (os : List Obs)
    (after : List Msg) (s : State) (g : String) (hg : g ∉ s.handlers) :
    (pipeline openable art version debug (.flag false) before os after s).1.files.get? g = s.files.get? g := by
  rw [pipeline_eq openable art version debug (.flag false) before os after s (fun g hg => by cases hg)]
  apply other_files s g hg
  intro h
  rcases List.mem_append.mp h with h | h
  · unfold startEvents at h
    cases debug <;> simp [LogArg.file] at h
  · exact file_not_mem_body g debug before os after h

/-! ## C91 -/

theorem screen_msgs (s : State) (ms : List Msg) : (run s (ms.map .msg)).screen =
    s.screen ++ ms.filter (fun m => decide (10 ≤ m.level ∧ s.level ≤ m.level ∧ (s.rank = 0 ∨ 40 ≤ m.level))) := by
  induction ms using List.reverseRecOn with
  | nil => simp [run]
  | append_singleton ms m ih =>
    rw [List.map_append, List.map_singleton, (screen_exact s (ms.map .msg)).1 m, ih, List.filter_append, List.append_assoc]
    congr 1
    rw [lastLevel_msgs]
    by_cases h : 10 ≤ m.level ∧ s.level ≤ m.level ∧ (s.rank = 0 ∨ 40 ≤ m.level)
    · rw [if_pos h, List.filter_cons_of_pos (by simpa using h)]; rfl
    · rw [if_neg h, List.filter_cons_of_neg (by simpa using h)]; rfl

theorem screen_master (s : State) (hr : s.rank = 0) (n : Nat) (hn : 10 ≤ n) (hl : s.level = n) (ms : List Msg) :
    (run s (ms.map .msg)).screen = s.screen ++ atLeast n ms := by
  rw [screen_msgs]
  congr 1
  unfold atLeast
  apply List.filter_congr
  intro m _
  rw [hr, hl]
  by_cases h : n ≤ m.level
  · have : 10 ≤ m.level := Nat.le_trans hn h
    simp [h, this]
  · simp [h]

theorem run_msgs_level (s : State) (ms : List Msg) : (run s (ms.map .msg)).level = s.level := by
  rw [run_level, lastLevel_msgs]

/-- After a target the level is INFO, however it ends. -/
theorem level_after_target (debug : Bool) (s : State) (o : Obs) : (pipelineToDict debug s o).level = 20 := by
  unfold pipelineToDict
  dsimp only
  have hl : ∀ (t : State) (ms : List Msg), (logAll t ms).level = t.level := by
    intro t ms
    rw [logAll_eq, run_msgs_level]
  cases o.observed <;> cases o.plotted <;> simp [hl, log_level, enableLogging, setLogLevel] <;> rfl

theorem rank_after_target (debug : Bool) (s : State) (o : Obs) : (pipelineToDict debug s o).rank = s.rank := by
  rw [pipelineToDict_eq, run_rank]

/-- What the first process shows of one target: the line it starts with if the level is at most INFO; what the observation logs from `n` on, where
`n` is the level if `debug` and ERROR otherwise; from INFO on what the plot logs; and the line of a skipped target. -/
theorem target_screen (debug : Bool) (s : State) (hr : s.rank = 0) (hl : 10 ≤ s.level) (o : Obs) :
    (pipelineToDict debug s o).screen = s.screen ++ ((if s.level ≤ 20 then [observing o] else []) ++
      atLeast (if debug then s.level else 40) o.msgs ++ (if o.observed then atLeast 20 o.plotMsgs else []) ++
      (if o.observed ∧ o.plotted then [] else [skipped o])) := by
  have h1 : (log s (observing o)).screen = s.screen ++ (if s.level ≤ 20 then [observing o] else []) := by
    rw [log_screen]
    congr 1
    have : (observing o).level = 20 := rfl
    rw [this, hr]
    by_cases h : s.level ≤ 20
    · simp [h]
    · simp [h]
  have hskip : ∀ t : State, t.rank = 0 → (log (enableLogging t) (skipped o)).screen = t.screen ++ [skipped o] := by
    intro t ht
    rw [log_screen]
    have h2 : (enableLogging t).screen = t.screen := rfl
    have h3 : (enableLogging t).level = 20 := rfl
    have h4 : (enableLogging t).rank = t.rank := rfl
    have h5 : (skipped o).level = 30 := rfl
    rw [h2, h3, h4, h5, ht]
    simp
  have key : ∀ t : State, t.rank = 0 →
      (if o.observed = true then
        if o.plotted = true then logAll (enableLogging t) o.plotMsgs
        else log (enableLogging (logAll (enableLogging t) o.plotMsgs)) (skipped o)
      else log (enableLogging t) (skipped o)).screen =
      t.screen ++ ((if o.observed then atLeast 20 o.plotMsgs else []) ++ (if o.observed ∧ o.plotted then [] else [skipped o])) := by
    intro t ht
    have hp : (logAll (enableLogging t) o.plotMsgs).screen = t.screen ++ atLeast 20 o.plotMsgs := by
      rw [logAll_eq, screen_master (enableLogging t) ht 20 (by decide) rfl]
      rfl
    have hpr : (logAll (enableLogging t) o.plotMsgs).rank = 0 := by
      rw [logAll_eq, run_rank]; exact ht
    by_cases ho : o.observed = true
    · by_cases hq : o.plotted = true
      · simp [ho, hq, hp]
      · simp only [ho, hq, if_true, Bool.false_eq_true, if_false]
        rw [hskip _ hpr, hp]
        simp
    · simp only [ho, Bool.false_eq_true, if_false, false_and, List.nil_append]
      exact hskip t ht
  unfold pipelineToDict
  dsimp only
  have hrank : (log s (observing o)).rank = 0 := (log_rank _ _).trans hr
  cases debug with
  | true =>
    simp only [if_true]
    rw [key _ (by rw [logAll_eq, run_rank]; exact hrank), logAll_eq,
      screen_master _ hrank s.level hl (log_level _ _), h1]
    simp
  | false =>
    simp only [Bool.false_eq_true, if_false]
    have hd : (disableLogging (log s (observing o))).rank = 0 := hrank
    rw [key _ (by rw [logAll_eq, run_rank]; exact hd), logAll_eq, screen_master _ hd 40 (by decide) rfl]
    have : (disableLogging (log s (observing o))).screen = (log s (observing o)).screen := rfl
    rw [this, h1]
    simp

/-- What the screen shows of a target when the level was INFO. -/
def shown (n : Nat) (o : Obs) : List Msg :=
  [observing o] ++ atLeast n o.msgs ++ (if o.observed then atLeast 20 o.plotMsgs else []) ++
    (if o.observed ∧ o.plotted then [] else [skipped o])

theorem list_screen (debug : Bool) : ∀ (os : List Obs) (s : State), s.rank = 0 → s.level = 20 →
    (observeTargetlist debug s os).screen = s.screen ++ os.flatMap (shown (if debug then 20 else 40))
  | [], s, _, _ => by simp [observeTargetlist]
  | o :: os, s, hr, hl => by
    have h1 := target_screen debug s hr (by omega) o
    rw [hl] at h1
    have h2 := list_screen debug os (pipelineToDict debug s o) ((rank_after_target debug s o).trans hr) (level_after_target debug s o)
    show (observeTargetlist debug (pipelineToDict debug s o) os).screen = _
    rw [h2, h1, List.flatMap_cons, List.append_assoc]
    congr 1

/-- C91: without `debug`, starting from the level of a new process, the first process shows of a target list, in its order: the line each
target starts with, the errors of its observation and nothing else of it, what its plot logs from INFO on, and for each target
skipped one line saying so. -/
theorem quiet_screen (s : State) (hr : s.rank = 0) (hl : s.level = 20) (os : List Obs) :
    (observeTargetlist false s os).screen = s.screen ++ os.flatMap (fun o =>
      [observing o] ++ atLeast 40 o.msgs ++ (if o.observed then atLeast 20 o.plotMsgs else []) ++
        (if o.observed ∧ o.plotted then [] else [skipped o])) :=
  list_screen false os s hr hl

theorem screen_grows (s : State) (es : List Event) : s.screen <+: (run s es).screen := by
  induction es using List.reverseRecOn with
  | nil => exact List.prefix_refl _
  | append_singleton es e ih =>
    refine ih.trans ?_
    cases e with
    | msg m => rw [(screen_exact s es).1]; exact List.prefix_append ..
    | level n => exact ((screen_exact s es).2.1 n).symm ▸ List.prefix_refl _
    | file f => exact ((screen_exact s es).2.2 f).symm ▸ List.prefix_refl _

/-- C91: whatever the level and `debug`, the first process shows for every target that fails a line with its name, after its errors (messages of
level ERROR, if the level was not above it with `debug`). -/
theorem skipped_shown (debug : Bool) : ∀ (os : List Obs) (s : State), s.rank = 0 → 10 ≤ s.level →
    ∀ o ∈ os, ¬ (o.observed = true ∧ o.plotted = true) → skipped o ∈ (observeTargetlist debug s os).screen
  | p :: os, s, hr, hl, o, ho, hf => by
    show skipped o ∈ (observeTargetlist debug (pipelineToDict debug s p) os).screen
    rcases List.mem_cons.mp ho with h | h
    · subst h
      have : skipped o ∈ (pipelineToDict debug s o).screen := by
        rw [target_screen debug s hr hl o, if_neg hf]
        simp
      rw [observeTargetlist_eq]
      exact (screen_grows _ _).subset this
    · exact skipped_shown debug os _ ((rank_after_target debug s p).trans hr) (by rw [level_after_target]; omega) o h hf

/-- C91: another process of an MPI run shows nothing below ERROR, so it never shows that a target was skipped. -/
theorem other_ranks (s : State) (hr : s.rank ≠ 0) (es : List Event) : ∀ m ∈ (run s es).screen, m ∈ s.screen ∨ 40 ≤ m.level := by
  induction es using List.reverseRecOn with
  | nil => intro m hm; exact Or.inl hm
  | append_singleton es e ih =>
    intro m hm
    cases e with
    | msg m' =>
      rw [(screen_exact s es).1] at hm
      rcases List.mem_append.mp hm with h | h
      · exact ih m h
      · by_cases hc : 10 ≤ m'.level ∧ lastLevel s.level es ≤ m'.level ∧ (s.rank = 0 ∨ 40 ≤ m'.level)
        · rw [if_pos hc] at h
          rw [List.mem_singleton.mp h]
          exact Or.inr (hc.2.2.resolve_left hr)
        · rw [if_neg hc] at h; cases h
    | level n => rw [(screen_exact s es).2.1] at hm; exact ih m hm
    | file f => rw [(screen_exact s es).2.2] at hm; exact ih m hm

/-! ## C92 -/

/-- C92, exactly: a run with `debug` in the first process shows every message before the targets from DEBUG on, of the first target every
message of its observation from DEBUG on, but of the others, and of the saving, only those from INFO on. -/
theorem debug_screen_partial (openable : String → Bool) (art version : String) (arg : LogArg) (before : List Msg) (o : Obs) (os : List Obs)
    (after : List Msg) (s : State) (ho : ∀ f, arg.file = some f → openable f = true) (hr : s.rank = 0) (hl : s.level ≤ 20) :
    (pipeline openable art version true arg before (o :: os) after s).1.screen =
      s.screen ++ [⟨20, art⟩, ⟨20, "code version " ++ version⟩] ++ atLeast 10 before ++ shown 10 o ++ os.flatMap (shown 20) ++ atLeast 20 after := by
  unfold pipeline
  rw [start_eq openable art version true arg s ho]
  dsimp only
  have hs : (run s (startEvents art version true arg)).screen = s.screen ++ [⟨20, art⟩, ⟨20, "code version " ++ version⟩] := by
    unfold startEvents
    cases hf : arg.file <;>
    · simp only [hf, if_true, List.cons_append, List.nil_append, List.append_nil, run, List.foldl, step, setLogLevel, addLogFile]
      rw [log_screen, log_screen, log_level, log_rank, hr]
      simp [hl]
  have hsl : (run s (startEvents art version true arg)).level = 10 := by
    rw [run_level]
    unfold startEvents lastLevel
    cases hf : arg.file <;> simp [hf]
  have hsr : (run s (startEvents art version true arg)).rank = 0 := (run_rank _ _).trans hr
  generalize run s (startEvents art version true arg) = t at hs hsl hsr
  have hb : (logAll t before).screen = t.screen ++ atLeast 10 before := by
    rw [logAll_eq, screen_master t hsr 10 (by decide) hsl]
  have hbl : (logAll t before).level = 10 := by rw [logAll_eq, run_msgs_level, hsl]
  have hbr : (logAll t before).rank = 0 := by rw [logAll_eq, run_rank, hsr]
  generalize logAll t before = t1 at hb hbl hbr
  have h1 := target_screen true t1 hbr (by omega) o
  have h2 := list_screen true os (pipelineToDict true t1 o) ((rank_after_target true t1 o).trans hbr) (level_after_target true t1 o)
  have hol : (observeTargetlist true t1 (o :: os)).screen = t1.screen ++ shown 10 o ++ os.flatMap (shown 20) := by
    show (observeTargetlist true (pipelineToDict true t1 o) os).screen = _
    rw [h2, h1, hbl]
    rfl
  have hll : (observeTargetlist true t1 (o :: os)).level = 20 := by
    have : ∀ (os : List Obs) (u : State), u.level = 20 → (observeTargetlist true u os).level = 20 := by
      intro os
      induction os with
      | nil => intro u h; exact h
      | cons p os ih => intro u _; exact ih _ (level_after_target true u p)
    exact this os _ (level_after_target true t1 o)
  have hlr : (observeTargetlist true t1 (o :: os)).rank = 0 := by rw [observeTargetlist_eq, run_rank, hbr]
  rw [logAll_eq, screen_master _ hlr 20 (by decide) hll, hol, hb, hs]

/-- C92, what does not hold: a message below INFO of a target after the first is not shown by a run with `debug`, unless another message is equal to it. -/
theorem debug_hidden (openable : String → Bool) (art version : String) (arg : LogArg) (before : List Msg) (o o' : Obs) (os : List Obs)
    (after : List Msg) (rank : Nat) (files : Dict String (List Msg)) (ho : ∀ f, arg.file = some f → openable f = true) (hr : rank = 0)
    (m : Msg) (_hm : m ∈ o'.msgs) (hl : m.level < 20) (hb : m ∉ before) (h1 : m ∉ o.msgs) :
    m ∉ (pipeline openable art version true arg before (o :: o' :: os) after (fresh rank files)).1.screen := by
  rw [debug_screen_partial openable art version arg before o (o' :: os) after _ ho hr (Nat.le_refl 20)]
  have hsk : ∀ q : Obs, m ≠ skipped q := fun q h => by rw [h] at hl; exact Nat.lt_irrefl 20 (Nat.lt_of_le_of_lt (by show 20 ≤ _; first | exact Nat.le_refl 20 | exact (by decide : 20 ≤ 30)) hl)
  have hob : ∀ q : Obs, m ≠ observing q := fun q h => by rw [h] at hl; exact Nat.lt_irrefl 20 (Nat.lt_of_le_of_lt (by show 20 ≤ _; first | exact Nat.le_refl 20 | exact (by decide : 20 ≤ 30)) hl)
  have hat : ∀ ms : List Msg, m ∉ atLeast 20 ms := fun ms h => by
    have := of_decide_eq_true (List.mem_filter.mp h).2
    omega
  have hlev : ∀ t : String, m ≠ ⟨20, t⟩ := fun t h => by rw [h] at hl; exact Nat.lt_irrefl 20 (Nat.lt_of_le_of_lt (by show 20 ≤ _; first | exact Nat.le_refl 20 | exact (by decide : 20 ≤ 30)) hl)
  have hshown : ∀ (n : Nat) (q : Obs), m ∉ atLeast n q.msgs → m ∉ shown n q := by
    intro n q hq h
    unfold shown at h
    rcases List.mem_append.mp h with h | h
    · rcases List.mem_append.mp h with h | h
      · rcases List.mem_append.mp h with h | h
        · exact hob q (List.mem_singleton.mp h)
        · exact hq h
      · by_cases hc : q.observed = true
        · rw [if_pos hc] at h; exact hat _ h
        · rw [if_neg hc] at h; cases h
    · by_cases hc : q.observed = true ∧ q.plotted = true
      · rw [if_pos hc] at h; cases h
      · rw [if_neg hc] at h; exact hsk q (List.mem_singleton.mp h)
  intro h
  rcases List.mem_append.mp h with h | h
  · rcases List.mem_append.mp h with h | h
    · rcases List.mem_append.mp h with h | h
      · rcases List.mem_append.mp h with h | h
        · rcases List.mem_append.mp h with h | h
          · cases h
          · rcases List.mem_cons.mp h with h | h
            · exact hlev _ h
            · exact hlev _ (List.mem_singleton.mp h)
        · exact hb (List.mem_filter.mp h).1
      · exact hshown 10 o (fun hh => h1 (List.mem_filter.mp hh).1) h
    · obtain ⟨q, _, hq⟩ := List.mem_flatMap.mp h
      exact hshown 20 q (hat _) hq
  · exact hat _ h

namespace Demo

/-- Two targets; the second one fails. -/
def good : Obs := ⟨"star A", [⟨10, "reading"⟩, ⟨20, "updating target table"⟩], true, [⟨10, "plot"⟩], true⟩
def bad : Obs := ⟨"star B", [⟨10, "reading B"⟩, ⟨40, "star not found"⟩], false, [], true⟩

/-- A quiet run shows progress, the error and the skip; its log file has everything but the first two lines; a second run doubles the lines. -/
theorem run_twice :
    let s0 := fresh 0 [("exorad.log", [⟨20, "old"⟩])]
    let r1 := (pipeline (fun _ => true) "ART" "2" false (.flag true) [⟨10, "payload"⟩] [good, bad] [] s0).1
    let r2 := (pipeline (fun _ => true) "ART" "2" false (.flag true) [⟨10, "payload"⟩] [] [] r1).1
    r1.screen = [⟨20, "ART"⟩, ⟨20, "code version 2"⟩, ⟨20, "observing star A"⟩, ⟨20, "observing star B"⟩, ⟨40, "star not found"⟩,
      ⟨30, "target star B skipped. Please check for previous error messages"⟩] ∧
    contents r1 "exorad.log" = [⟨20, "old"⟩, ⟨10, "payload"⟩, ⟨20, "observing star A"⟩, ⟨10, "reading"⟩, ⟨20, "updating target table"⟩, ⟨10, "plot"⟩,
      ⟨20, "observing star B"⟩, ⟨10, "reading B"⟩, ⟨40, "star not found"⟩, ⟨30, "target star B skipped. Please check for previous error messages"⟩] ∧
    contents r2 "exorad.log" = contents r1 "exorad.log" ++ [⟨20, "ART"⟩, ⟨20, "code version 2"⟩, ⟨10, "payload"⟩, ⟨10, "payload"⟩] := by
  decide +kernel

/-- With `debug` the screen shows `reading` of the first target, not `reading B` of the second; the other way round if the list is reversed. -/
theorem debug_order :
    (⟨10, "reading"⟩ ∈ (pipeline (fun _ => true) "ART" "2" true (.flag false) [] [good, bad] [] (fresh 0 [])).1.screen) ∧
    (⟨10, "reading B"⟩ ∉ (pipeline (fun _ => true) "ART" "2" true (.flag false) [] [good, bad] [] (fresh 0 [])).1.screen) ∧
    (⟨10, "reading B"⟩ ∈ (pipeline (fun _ => true) "ART" "2" true (.flag false) [] [bad, good] [] (fresh 0 [])).1.screen) ∧
    (⟨10, "reading"⟩ ∉ (pipeline (fun _ => true) "ART" "2" true (.flag false) [] [bad, good] [] (fresh 0 [])).1.screen) := by
  decide +kernel

/-- The second process of an MPI run shows the error only. -/
theorem second_rank : (pipeline (fun _ => true) "ART" "2" false (.flag false) [] [good, bad] [] (fresh 1 [])).1.screen = [⟨40, "star not found"⟩] := by
  decide +kernel

end Demo
end ExoRad.Log
