import Verif.Model.Log
import Verif.Lemmas.Dict
import Mathlib.Data.List.Induction

/-!
# C90, C91, C92: what the screen shows and what a log file holds
-/

namespace ExoRad.Log

/-- What a file holds; nothing if it does not exist. -/
def contents (s : State) (f : String) : List Msg := (s.files.get? f).getD []

/-- The last level set in a history, or the one it started with. -/
def lastLevel (l : Nat) (es : List Event) : Nat :=
  (es.filterMap (fun e => match e with | .level n => some n | _ => none)).getLastD l

theorem lastLevel_msgs (l : Nat) (ms : List Msg) : lastLevel l (ms.map .msg) = l := by
  unfold lastLevel
  rw [List.filterMap_map]
  simp

/-! ## One event at a time -/

theorem contents_set (fs : Dict String (List Msg)) (f g : String) (m : Msg) (hm : 10 ≤ m.level) :
    ((emitFile fs f m).get? g).getD [] = (fs.get? g).getD [] ++ (if f = g then [m] else []) := by
  unfold emitFile
  rw [if_pos (show DEBUG ≤ m.level from hm), Dict.get?_set]
  by_cases h : f = g
  · subst h; simp
  · simp [h, Ne.symm h]

theorem emitFile_fold (m : Msg) (hm : 10 ≤ m.level) (g : String) : ∀ (hs : List String) (fs : Dict String (List Msg)),
    ((hs.foldl (fun fs f => emitFile fs f m) fs).get? g).getD [] = (fs.get? g).getD [] ++ List.replicate (hs.count g) m
  | [], fs => by simp
  | f :: hs, fs => by
    rw [List.foldl_cons, emitFile_fold m hm g hs, contents_set fs f g m hm, List.append_assoc, List.count_cons]
    congr 1
    by_cases h : f = g
    · subst h; simp [List.replicate_succ]
    · simp [h]

theorem log_rank (s : State) (m : Msg) : (log s m).rank = s.rank := by
  unfold log emitScreen
  dsimp only
  split_ifs <;> rfl

theorem log_level (s : State) (m : Msg) : (log s m).level = s.level := by
  unfold log emitScreen
  dsimp only
  split_ifs <;> rfl

theorem log_handlers (s : State) (m : Msg) : (log s m).handlers = s.handlers := by
  unfold log emitScreen
  dsimp only
  split_ifs <;> rfl

theorem log_screen (s : State) (m : Msg) : (log s m).screen =
    s.screen ++ (if 10 ≤ m.level ∧ s.level ≤ m.level ∧ (s.rank = 0 ∨ 40 ≤ m.level) then [m] else []) := by
  unfold log emitScreen
  by_cases h1 : DEBUG ≤ m.level
  · have h1' : 10 ≤ m.level := h1
    rw [if_pos h1]
    by_cases h2 : s.level ≤ m.level
    · by_cases h3 : s.rank = 0 ∨ ERROR ≤ m.level
      · have h3' : s.rank = 0 ∨ 40 ≤ m.level := h3
        simp [h1', h2, h3, h3']
      · have h3' : ¬ (s.rank = 0 ∨ 40 ≤ m.level) := h3
        simp [h2, h3, h3']
    · simp [h2]
  · have h1' : ¬ 10 ≤ m.level := h1
    rw [if_neg h1]
    simp [h1']

theorem log_contents (s : State) (m : Msg) (g : String) : contents (log s m) g =
    contents s g ++ (if 10 ≤ m.level then List.replicate (s.handlers.count g) m else []) := by
  unfold log contents
  by_cases h1 : DEBUG ≤ m.level
  · have h1' : 10 ≤ m.level := h1
    rw [if_pos h1, if_pos h1']
    dsimp only
    rw [emitFile_fold m h1']
    have : (emitScreen s m).handlers = s.handlers ∧ (emitScreen s m).files = s.files := by
      unfold emitScreen
      split_ifs <;> exact ⟨rfl, rfl⟩
    rw [this.1, this.2]
  · have h1' : ¬ 10 ≤ m.level := h1
    rw [if_neg h1, if_neg h1']
    simp

theorem file_contents (s : State) (f g : String) : contents (step s (.file f)) g = contents s g := by
  show ((s.files.set f ((s.files.get? f).getD [])).get? g).getD [] = (s.files.get? g).getD []
  rw [Dict.get?_set]
  by_cases h : g = f
  · subst h; simp
  · simp [h]

theorem run_append (s : State) (a b : List Event) : run s (a ++ b) = run (run s a) b := List.foldl_append ..

theorem run_single (s : State) (e : Event) : run s [e] = step s e := rfl

theorem run_rank (s : State) (es : List Event) : (run s es).rank = s.rank := by
  induction es using List.reverseRecOn with
  | nil => rfl
  | append_singleton es e ih =>
    rw [run_append, run_single]
    cases e with
    | msg m => exact (log_rank _ m).trans ih
    | level n => exact ih
    | file f => exact ih

theorem run_level (s : State) (es : List Event) : (run s es).level = lastLevel s.level es := by
  induction es using List.reverseRecOn with
  | nil => rfl
  | append_singleton es e ih =>
    rw [run_append, run_single]
    unfold lastLevel at *
    cases e with
    | msg m =>
      have h : (step (run s es) (.msg m)).level = (run s es).level := log_level _ m
      rw [h, ih]; simp
    | level n => simp [step, setLogLevel]
    | file f =>
      have h : (step (run s es) (.file f)).level = (run s es).level := rfl
      rw [h, ih]; simp

theorem run_handlers (s : State) (es : List Event) (f : String) :
    (run s es).handlers.count f = s.handlers.count f + es.count (.file f) := by
  induction es using List.reverseRecOn with
  | nil => rfl
  | append_singleton es e ih =>
    rw [run_append, run_single, List.count_append]
    cases e with
    | msg m =>
      have : (step (run s es) (.msg m)).handlers = (run s es).handlers := log_handlers _ m
      rw [this, ih]; simp
    | level n =>
      have : (step (run s es) (.level n)).handlers = (run s es).handlers := rfl
      rw [this, ih]; simp
    | file g =>
      have : (step (run s es) (.file g)).handlers = (run s es).handlers ++ [g] := rfl
      rw [this, List.count_append, ih]
      by_cases h : g = f
      · subst h; simp; omega
      · simp [h]

/-! ## C91: the screen -/

/-- C91: after any history, a message appears on the screen, after everything shown before, exactly when its level is at least
DEBUG and at least the last level set, and this is the first process or the message an ERROR; nothing else changes the screen. -/
theorem screen_exact (s : State) (es : List Event) :
    (∀ m, (run s (es ++ [.msg m])).screen = (run s es).screen ++
      (if 10 ≤ m.level ∧ lastLevel s.level es ≤ m.level ∧ (s.rank = 0 ∨ 40 ≤ m.level) then [m] else [])) ∧
    (∀ n, (run s (es ++ [.level n])).screen = (run s es).screen) ∧
    (∀ f, (run s (es ++ [.file f])).screen = (run s es).screen) := by
  refine ⟨fun m => ?_, fun n => ?_, fun f => ?_⟩
  · rw [run_append, run_single]
    show (log _ m).screen = _
    rw [log_screen, run_level, run_rank]
  · rw [run_append]; rfl
  · rw [run_append]; rfl

/-! ## C90: log files -/

/-- C90: a file holds what it held, then every message of level DEBUG or more, in order, as often as the file had been added when
it was logged: no level set for the screen matters. -/
theorem file_exact (s : State) (es : List Event) (f : String) :
    contents (run s es) f = contents s f ++ (List.range es.length).flatMap (fun i : Nat =>
      match es[i]? with
      | some (Event.msg m) => if 10 ≤ m.level then List.replicate (s.handlers.count f + (es.take i).count (.file f)) m else []
      | _ => []) := by
  induction es using List.reverseRecOn with
  | nil => simp [run]
  | append_singleton es e ih =>
    have hpre : (List.range es.length).flatMap (fun i : Nat =>
        match (es ++ [e])[i]? with
        | some (Event.msg m) => if 10 ≤ m.level then List.replicate (s.handlers.count f + ((es ++ [e]).take i).count (.file f)) m else []
        | _ => []) = (List.range es.length).flatMap (fun i : Nat =>
        match es[i]? with
        | some (Event.msg m) => if 10 ≤ m.level then List.replicate (s.handlers.count f + (es.take i).count (.file f)) m else []
        | _ => []) := by
      apply List.flatMap_congr
      intro i hi
      have hi' : i < es.length := List.mem_range.mp hi
      rw [List.getElem?_append_left hi', List.take_append_of_le_length (Nat.le_of_lt hi')]
    rw [run_append, run_single, List.length_append, List.length_singleton, List.range_succ, List.flatMap_append, hpre, ← List.append_assoc,
      ← ih]
    have hlast : (es ++ [e])[es.length]? = some e := by simp
    have htake : (es ++ [e]).take es.length = es := by simp
    simp only [List.flatMap_cons, List.flatMap_nil, List.append_nil, hlast, htake]
    cases e with
    | msg m =>
      show contents (log _ m) f = _
      rw [log_contents, run_handlers]
    | level n =>
      rw [List.append_nil]
      rfl
    | file g =>
      rw [List.append_nil]
      exact file_contents _ g f

/-- The messages of a history. -/
def msgsOf (es : List Event) : List Msg := es.filterMap (fun e => match e with | .msg m => some m | _ => none)

theorem file_added_once (s : State) (f : String) (hs : s.handlers.count f = 1) (es : List Event) (hes : Event.file f ∉ es) :
    contents (run s es) f = contents s f ++ (msgsOf es).filter (fun m => 10 ≤ m.level) := by
  induction es using List.reverseRecOn with
  | nil => simp [run, msgsOf]
  | append_singleton es e ih =>
    have h1 : Event.file f ∉ es := fun h => hes (List.mem_append_left _ h)
    rw [run_append, run_single]
    have hm : msgsOf (es ++ [e]) = msgsOf es ++ msgsOf [e] := List.filterMap_append ..
    rw [hm, List.filter_append, ← List.append_assoc, ← ih h1]
    cases e with
    | msg m =>
      show contents (log _ m) f = _
      rw [log_contents, run_handlers, hs, List.count_eq_zero.mpr h1]
      by_cases hl : 10 ≤ m.level
      · simp [msgsOf, hl]
      · simp [msgsOf, hl]
    | level n => simp [msgsOf]; rfl
    | file g => simpa [msgsOf] using file_contents _ g f

/-- C90: a file added once, at some point of a history, holds every message logged after that point, once, in order, whatever the
levels set before and after, and nothing logged before. -/
theorem file_complete (s : State) (f : String) (hs : f ∉ s.handlers) (pre post : List Event) (h1 : Event.file f ∉ pre)
    (h2 : Event.file f ∉ post) :
    contents (run s (pre ++ .file f :: post)) f = contents s f ++ (msgsOf post).filter (fun m => 10 ≤ m.level) := by
  have e : pre ++ Event.file f :: post = (pre ++ [.file f]) ++ post := by simp
  rw [e, run_append]
  have hc : (run s (pre ++ [.file f])).handlers.count f = 1 := by
    rw [run_handlers, List.count_append, List.count_eq_zero.mpr hs, List.count_eq_zero.mpr h1]
    simp
  rw [file_added_once _ f hc post h2]
  congr 1
  rw [run_append, run_single, file_contents, file_exact]
  have : (List.range pre.length).flatMap (fun i : Nat =>
      match pre[i]? with
      | some (Event.msg m) => if 10 ≤ m.level then List.replicate (s.handlers.count f + (pre.take i).count (.file f)) m else []
      | _ => []) = [] := by
    rw [List.flatMap_eq_nil_iff]
    intro i _
    have hz : s.handlers.count f + (pre.take i).count (.file f) = 0 := by
      rw [List.count_eq_zero.mpr hs, List.count_eq_zero.mpr (fun h => h1 (List.mem_of_mem_take h))]
    rw [hz]
    split <;> simp
  rw [this, List.append_nil]

/-- A file that is never added is never written. -/
theorem other_files (s : State) (f : String) (hs : f ∉ s.handlers) (es : List Event) (h1 : Event.file f ∉ es) :
    (run s es).files.get? f = s.files.get? f := by
  induction es using List.reverseRecOn with
  | nil => rfl
  | append_singleton es e ih =>
    have h2 : Event.file f ∉ es := fun h => h1 (List.mem_append_left _ h)
    rw [run_append, run_single, ← ih h2]
    have hh : f ∉ (run s es).handlers := by
      rw [← List.count_eq_zero, run_handlers, List.count_eq_zero.mpr hs, List.count_eq_zero.mpr h2]
    generalize run s es = t at hh
    cases e with
    | msg m =>
      show (log t m).files.get? f = _
      have hfold : ∀ (hs : List String) (fs : Dict String (List Msg)), f ∉ hs →
          (hs.foldl (fun fs f => emitFile fs f m) fs).get? f = fs.get? f := by
        intro hs
        induction hs with
        | nil => intros; rfl
        | cons a hs ih =>
          intro fs hn
          rw [List.foldl_cons, ih _ (fun h => hn (List.mem_cons_of_mem _ h))]
          unfold emitFile
          split_ifs
          · exact Dict.get?_set_ne _ _ (fun h => hn (h ▸ List.mem_cons_self ..))
          · rfl
      unfold log
      split_ifs
      · have : (emitScreen t m).handlers = t.handlers ∧ (emitScreen t m).files = t.files := by
          unfold emitScreen
          split_ifs <;> exact ⟨rfl, rfl⟩
        dsimp only
        rw [this.1, this.2]
        exact hfold _ _ hh
      · rfl
    | level n => rfl
    | file g =>
      have hg : f ≠ g := fun h => h1 (List.mem_append_right _ (by rw [h]; exact List.mem_singleton_self _))
      exact Dict.get?_set_ne _ _ hg

end ExoRad.Log
