import Verif.Model.Run
import Verif.Props.Hdf5

/-!
# C20, C23, C55, C74, C75: a run and its files
-/

set_option linter.unusedSectionVars false

namespace ExoRad.Run
open Hdf5

variable {V P R T : Type}

/-! ## Extensions -/

theorem splitLast_none (s : List Char) : splitLast s = none ↔ '.' ∉ s := by
  induction s with
  | nil => simp [splitLast]
  | cons c s ih =>
    unfold splitLast
    cases h : splitLast s with
    | some q =>
      have : '.' ∈ s := by
        by_contra hc
        rw [ih.mpr hc] at h
        cases h
      simp [this]
    | none =>
      have hn := ih.mp h
      by_cases hc : c = '.'
      · simp [hc]
      · simp only [hc, if_false, List.mem_cons, hn, or_false, true_iff]
        exact fun e => hc e.symm

theorem splitLast_some (a e : List Char) (he : '.' ∉ e) : splitLast (a ++ '.' :: e) = some (a, '.' :: e) := by
  induction a with
  | nil =>
    simp only [List.nil_append]
    unfold splitLast
    rw [(splitLast_none e).mpr he]
    simp
  | cons c a ih =>
    simp only [List.cons_append]
    unfold splitLast
    rw [ih]

theorem exists_last_dot : ∀ s : List Char, '.' ∈ s → ∃ a e, s = a ++ '.' :: e ∧ '.' ∉ e
  | [], h => by simp at h
  | c :: s, h => by
    by_cases hs : '.' ∈ s
    · obtain ⟨a, e, rfl, he⟩ := exists_last_dot s hs
      exact ⟨c :: a, e, rfl, he⟩
    · rcases List.mem_cons.mp h with rfl | h
      · exact ⟨[], s, rfl, hs⟩
      · exact absurd h hs

/-- C55: the extension is the part from the last dot on, if something other than dots comes before it, and empty otherwise. -/
theorem ext_spec (name : String) :
    (∀ stem e : String, name = stem ++ "." ++ e → '.' ∉ e.toList → (∃ c ∈ stem.toList, c ≠ '.') → ext name = "." ++ e) ∧
    ((∀ stem e : String, name = stem ++ "." ++ e → ∀ c ∈ stem.toList, c = '.') → ext name = "") := by
  constructor
  · rintro stem e rfl he ⟨c, hc, hd⟩
    unfold ext
    have : (stem ++ "." ++ e).toList = stem.toList ++ '.' :: e.toList := by simp
    rw [this, splitLast_some _ _ he]
    simp only
    rw [if_pos]
    · apply String.toList_inj.mp
      simp
    · rw [List.any_eq_true]
      exact ⟨c, hc, by simpa using hd⟩
  · intro h
    unfold ext
    by_cases hd : '.' ∈ name.toList
    · obtain ⟨a, e, hs, he⟩ := exists_last_dot _ hd
      rw [hs, splitLast_some _ _ he]
      simp only
      rw [if_neg]
      simp only [List.any_eq_true, not_exists, not_and]
      intro c hc
      have := h (String.ofList a) (String.ofList e) (by
        apply String.toList_inj.mp
        simp [hs]) c (by simpa using hc)
      simp [this]
    · rw [(splitLast_none _).mpr hd]

theorem ext_png (n : String) : ext (n ++ ".png") = ".png" ∨ ext (n ++ ".png") = "" := by
  by_cases h : ∃ c ∈ n.toList, c ≠ '.'
  · left
    exact (ext_spec _).1 n "png" (by apply String.toList_inj.mp; simp) (by decide) h
  · right
    unfold ext
    have : (n ++ ".png").toList = n.toList ++ '.' :: "png".toList := by simp
    rw [this, splitLast_some _ _ (by decide)]
    simp only
    rw [if_neg]
    simp only [List.any_eq_true, not_exists, not_and]
    intro c hc
    by_contra hne
    exact h ⟨c, hc, by simpa using hne⟩

theorem not_figure {p : Path} (h : ext p.base ≠ ".png") (h' : ext p.base ≠ "") (dir n : String) : p ≠ figure dir n := by
  rintro rfl
  rcases ext_png n with e | e
  · exact h e
  · exact h' e

/-! ## Every state of the disk -/

/-- In every state so far, the files outside `S` are those of `fs`. -/
def Only (S : Path → Prop) (fs : FS V) (m : Mach V) : Prop := ∀ s ∈ m.states, ∀ p, ¬ S p → s.get? p = fs.get? p

theorem only_cur {S : Path → Prop} {fs : FS V} {m : Mach V} (h : Only S fs m) : ∀ p, ¬ S p → m.cur.get? p = fs.get? p :=
  h m.cur (by simp [Mach.states])

theorem only_step {S : Path → Prop} {fs fs' : FS V} {m : Mach V} (h : Only S fs m) (hs : ∀ p, ¬ S p → fs'.get? p = m.cur.get? p) :
    Only S fs (m.step fs') := by
  intro s hs'
  simp only [Mach.states, Mach.step, List.mem_append, List.mem_singleton] at hs'
  rcases hs' with (h1 | rfl) | rfl
  · exact h s (by simp [Mach.states, h1])
  · exact only_cur h
  · intro p hp
    rw [hs p hp, only_cur h p hp]

theorem only_set {S : Path → Prop} {fs : FS V} {m : Mach V} (h : Only S fs m) {p : Path} (hp : S p) (f : File V) :
    Only S fs (m.step (m.cur.set p f)) := by
  refine only_step h (fun q hq => ?_)
  refine Dict.get?_set_ne _ _ ?_
  rintro rfl
  exact hq hp

theorem only_write {S : Path → Prop} {fs : FS V} {m : Mach V} (h : Only S fs m) {p : Path} (hp : S p) (f : File V) :
    Only S fs (m.write p f) := only_set (only_set h hp .torn) hp f

theorem only_remove {S : Path → Prop} {fs : FS V} {m : Mach V} (h : Only S fs m) {p : Path} (hp : S p) : Only S fs (m.remove p) := by
  refine only_step h (fun q hq => ?_)
  rw [Dict.get?_removeAll]
  rw [if_neg]
  simp only [List.mem_singleton]
  rintro rfl
  exact hq hp

theorem andThen_inv {α β : Type} {Q : Mach V → Prop} {r : Mach V × Except Exc α} {f : Mach V → α → Mach V × Except Exc β}
    (h : Q r.1) (hf : ∀ m x, Q m → Q (f m x).1) : Q (andThen r f).1 := by
  unfold andThen
  cases r.2 with
  | error e => exact h
  | ok x => exact hf _ _ h

theorem writeChannels_kept : ∀ (cs : List (Except Exc (ChanRec V))) (g : Hdf5.Group V), Kept g (writeChannels cs g).1
  | [], g => Kept.refl g
  | .error e :: cs, g => Kept.refl g
  | .ok c :: cs, g => by
    unfold writeChannels
    have h := storeThing_kept (channelItem c) "payload" g
    revert h
    generalize storeThing (channelItem c) "payload" g = q
    intro h
    obtain ⟨g', r⟩ := q
    cases r with
    | error e => exact h
    | ok u => exact h.trans (writeChannels_kept cs g')

theorem writePayload_kept (env : Env V P R T) (pl : P) (g : Hdf5.Group V) : Kept g (writePayload env pl g).1 := by
  unfold writePayload
  have h := storeThing_kept (.dict [("payload description", .dict (env.describe pl)), ("channels", .dict [])]) "payload" g
  revert h
  generalize storeThing (.dict [("payload description", .dict (env.describe pl)), ("channels", .dict [])]) "payload" g = q
  intro h
  obtain ⟨g', r⟩ := q
  cases r with
  | error e => exact h
  | ok u => exact h.trans (writeChannels_kept _ g')

/-- What holds before and is kept by every copy, figure and session holds after: whatever the steps compute and raise. -/
theorem pipeline_inv (env : Env V P R T) (a : Args P R) (fs : FS V) (Q : Mach V → Prop) (h0 : Q (removeOld a ⟨fs, []⟩))
    (hcopy1 : ∀ m out p f, a.output = some out → a.options = .file p → p ≠ ⟨out.dir, p.base⟩ → m.cur.get? p = some f → Q m →
      Q (m.write ⟨out.dir, p.base⟩ f))
    (hcopy2 : ∀ m out p f, a.output = some out → a.targets = .file p → p ≠ ⟨out.dir, p.base⟩ → m.cur.get? p = some f → Q m →
      Q (m.write ⟨out.dir, p.base⟩ f))
    (hfig : ∀ m out n f, a.output = some out → a.plot = true → Q m → Q (m.write (figure out.dir n) f))
    (hsess : ∀ m out f, a.output = some out → (∀ g, Kept g (f g).1) → Q m → Q (session env out f m).1) :
    Q (pipeline env a fs).1 := by
  unfold pipeline
  apply andThen_inv
  · unfold copyInputs
    cases ho : a.output with
    | none => exact h0
    | some out =>
      simp only
      apply andThen_inv
      · unfold copyInto
        cases hs : a.options with
        | obj x => exact h0
        | file p =>
          simp only
          cases hg : (removeOld a ⟨fs, []⟩).cur.get? p with
          | none => exact h0
          | some f =>
            simp only
            split
            · exact h0
            · rename_i hne
              exact hcopy1 _ out p f ho hs hne hg h0
      · intro m _ hm
        unfold copyInto
        cases hs : a.targets with
        | obj x => exact hm
        | file p =>
          simp only
          cases hg : m.cur.get? p with
          | none => exact hm
          | some f =>
            simp only
            split
            · exact hm
            · rename_i hne
              exact hcopy2 _ out p f ho hs hne hg hm
  · intro m _ hm
    apply andThen_inv
    · unfold preparePayload
      simp only
      split
      · exact hm
      · rename_i pl build _
        apply andThen_inv
        · split
          · unfold buildPayload
            cases ho : a.output with
            | none => exact hm
            | some out => exact hsess m out _ ho (writePayload_kept env pl) hm
          · exact hm
        · intro m x hm
          split <;> exact hm
    · intro m pl hm
      apply andThen_inv
      · unfold efficiencyPlot
        split
        · rename_i hpl
          split
          · exact hm
          · exact hm
          · split
            · exact hm
            · rename_i out ho
              exact hfig m out _ _ ho hpl hm
        · exact hm
      · intro m _ hm
        unfold observeAndSave
        split
        · exact hm
        · simp only
          have hplots : ∀ names m, Q m → Q (targetPlots a names m) := by
            intro names m hm
            unfold targetPlots
            split
            · rename_i out hpl ho
              induction names generalizing m with
              | nil => exact hm
              | cons n names ih =>
                simp only [List.foldl_cons]
                exact ih _ (hfig m out n _ ho hpl hm)
            · exact hm
          split
          · exact hplots _ _ hm
          · rename_i out ho
            have hsave : ∀ (ts : List (Option T)) (m : Mach V), Q m → Q (saveTargets env out ts m).1 := by
              intro ts
              induction ts with
              | nil => intro m hm; exact hm
              | cons t ts ih =>
                intro m hm
                cases t with
                | none =>
                  unfold saveTargets
                  exact hsess m out _ ho (fun g => Kept.refl g) hm
                | some t =>
                  unfold saveTargets
                  have h1 := hsess m out (writeTarget env t) ho (fun g => storeThing_kept _ _ g) hm
                  revert h1
                  generalize session env out (writeTarget env t) m = q
                  intro h1
                  obtain ⟨m', r⟩ := q
                  cases r with
                  | error e => exact h1
                  | ok u => exact ih m' h1
            exact hsave _ _ (hplots _ _ hm)

theorem session_cases (env : Env V P R T) (p : Path) (f : Hdf5.Group V → W V) (m : Mach V) :
    (session env p f m).1 = m ∨ ∃ g, (session env p f m).1 = m.write p (.h5 (f (withInfo env g)).1) ∧
      ((m.cur.get? p = none ∧ g = []) ∨ m.cur.get? p = some (.h5 g)) := by
  unfold session
  cases h : m.cur.get? p with
  | none => exact .inr ⟨[], rfl, .inl ⟨rfl, rfl⟩⟩
  | some x =>
    cases x with
    | h5 g => exact .inr ⟨g, rfl, .inr rfl⟩
    | bytes s => exact .inl rfl
    | torn => exact .inl rfl

theorem withInfo_kept (env : Env V P R T) (g : Hdf5.Group V) : Kept g (withInfo env g) := by
  unfold withInfo
  split
  · exact Kept.refl g
  · exact storeThing_kept _ _ g

/-! ## Specification -/

/-- The files a run may write: the output, the copies of the inputs next to it, and figures next to it. -/
def Touches (a : Args P R) (p : Path) : Prop :=
  ∃ out, a.output = some out ∧
    (p = out ∨ (∃ q, a.options = .file q ∧ q ≠ p ∧ p = ⟨out.dir, q.base⟩) ∨ (∃ q, a.targets = .file q ∧ q ≠ p ∧ p = ⟨out.dir, q.base⟩) ∨
      (a.plot = true ∧ ∃ n, p = figure out.dir n))

/-- C23: at every point of a run, and whatever it raises, every file is as it was, except the output, the copies of the inputs next to it and,
when plotting, the figures next to it. -/
theorem only_these_files (env : Env V P R T) (a : Args P R) (fs : FS V) :
    ∀ s ∈ (pipeline env a fs).1.states, ∀ p, ¬ Touches a p → s.get? p = fs.get? p := by
  have h0 : Only (Touches a) fs (⟨fs, []⟩ : Mach V) := by
    intro s hs p _
    simp only [Mach.states, List.nil_append, List.mem_singleton] at hs
    rw [hs]
  change Only (Touches a) fs (pipeline env a fs).1
  apply pipeline_inv env a fs (Only (Touches a) fs)
  · unfold removeOld
    cases ho : a.output with
    | none => exact h0
    | some out =>
      simp only
      split
      · exact only_remove h0 ⟨out, ho, .inl rfl⟩
      · exact h0
  · intro m out p f ho hp hne _ hm
    exact only_write hm ⟨out, ho, .inr (.inl ⟨p, hp, hne, rfl⟩)⟩ f
  · intro m out p f ho hp hne _ hm
    exact only_write hm ⟨out, ho, .inr (.inr (.inl ⟨p, hp, hne, rfl⟩))⟩ f
  · intro m out n f ho hpl hm
    exact only_write hm ⟨out, ho, .inr (.inr (.inr ⟨hpl, n, rfl⟩))⟩ f
  · intro m out f ho _ hm
    rcases session_cases env out f m with h | ⟨g, h, _⟩
    · rw [h]; exact hm
    · rw [h]; exact only_write hm ⟨out, ho, .inl rfl⟩ _

/-- C23: without an output nothing on disk changes. -/
theorem no_output_no_writes (env : Env V P R T) (a : Args P R) (h : a.output = none) (fs : FS V) :
    ∀ s ∈ (pipeline env a fs).1.states, ∀ p, s.get? p = fs.get? p := by
  intro s hs p
  refine only_these_files env a fs s hs p ?_
  rintro ⟨out, ho, _⟩
  rw [h] at ho
  cases ho

/-- A payload file that can be loaded. -/
def PayloadName (p : Path) : Prop := ext p.base = ".xml" ∨ ext p.base = ".h5" ∨ ext p.base = ".hdf5"

/-- A target list file that can be loaded. -/
def TargetsName (p : Path) : Prop := ext p.base = ".csv" ∨ ext p.base = ".xlsx"

/-- C23: a run whose output is not one of its input files leaves both inputs as they were at every point, whatever happens and wherever it is
interrupted. -/
theorem inputs_kept (env : Env V P R T) (a : Args P R) (fs : FS V) (p q out : Path) (hp : a.options = .file p) (hq : a.targets = .file q)
    (ho : a.output = some out) (kp : PayloadName p) (kq : TargetsName q) (hpo : p ≠ out) (hqo : q ≠ out) :
    ∀ s ∈ (pipeline env a fs).1.states, s.get? p = fs.get? p ∧ s.get? q = fs.get? q := by
  have hb : p.base ≠ q.base := by
    intro e
    unfold PayloadName at kp
    unfold TargetsName at kq
    rw [e] at kp
    rcases kp with h | h | h <;> rcases kq with h' | h' <;> rw [h] at h' <;> exact absurd h' (by decide)
  have np : ∀ n, p ≠ figure out.dir n := fun n => by
    rcases kp with h | h | h <;> exact not_figure (by rw [h]; decide) (by rw [h]; decide) _ _
  have nq : ∀ n, q ≠ figure out.dir n := fun n => by
    rcases kq with h | h <;> exact not_figure (by rw [h]; decide) (by rw [h]; decide) _ _
  intro s hs
  refine ⟨only_these_files env a fs s hs p ?_, only_these_files env a fs s hs q ?_⟩
  · rintro ⟨out', ho', h⟩
    rw [ho, Option.some.injEq] at ho'
    subst ho'
    rcases h with rfl | ⟨r, hr, hne, _⟩ | ⟨r, hr, _, he⟩ | ⟨_, n, hn⟩
    · exact hpo rfl
    · rw [hp, Src.file.injEq] at hr
      exact hne hr.symm
    · rw [hq, Src.file.injEq] at hr
      subst hr
      exact hb (by rw [he])
    · exact np n hn
  · rintro ⟨out', ho', h⟩
    rw [ho, Option.some.injEq] at ho'
    subst ho'
    rcases h with rfl | ⟨r, hr, _, he⟩ | ⟨r, hr, hne, _⟩ | ⟨_, n, hn⟩
    · exact hqo rfl
    · rw [hp, Src.file.injEq] at hr
      subst hr
      exact hb (by rw [he])
    · rw [hq, Src.file.injEq] at hr
      exact hne hr.symm
    · exact nq n hn

/-- C23, what does not hold: with `replace` (the default) a payload loaded from the output file itself is deleted before it is read, and the run
fails: the payload is lost. -/
theorem payload_in_output_lost (env : Env V P R T) (a : Args P R) (fs : FS V) (p : Path) (hp : a.options = .file p) (ho : a.output = some p)
    (hr : a.replace = true) (f : File V) (hf : fs.get? p = some f) :
    (pipeline env a fs).2 = .error .osError ∧ (pipeline env a fs).1.cur.get? p = none := by
  have hn : (fs.removeAll [p]).get? p = none := by rw [Dict.get?_removeAll, if_pos (by simp)]
  simp [pipeline, copyInputs, removeOld, ho, hr, hf, hp, copyInto, Mach.remove, Mach.step, hn, andThen]

/-- C23, what does not hold: whenever there is an old output and `replace` is set, there is a point of the run at which neither the old nor a new output
exists. -/
theorem output_absent_meanwhile (env : Env V P R T) (a : Args P R) (fs : FS V) (out : Path) (ho : a.output = some out) (hr : a.replace = true)
    (f : File V) (hf : fs.get? out = some f) : ∃ s ∈ (pipeline env a fs).1.states, s.get? out = none := by
  have grow : ∀ (m : Mach V) (p : Path) (f : File V), (∃ s ∈ m.states, s.get? out = none) → ∃ s ∈ (m.write p f).states, s.get? out = none := by
    rintro m p f ⟨s, hs, hn⟩
    refine ⟨s, ?_, hn⟩
    simp only [Mach.states, List.mem_append, List.mem_singleton] at hs
    simp only [Mach.states, Mach.write, Mach.step, List.mem_append, List.mem_singleton]
    tauto
  apply pipeline_inv env a fs (fun m => ∃ s ∈ m.states, s.get? out = none)
  · unfold removeOld
    simp only [ho, hr, hf, Option.isSome_some, Bool.and_self, if_true]
    refine ⟨fs.removeAll [out], by simp [Mach.remove, Mach.step, Mach.states], ?_⟩
    rw [Dict.get?_removeAll, if_pos (by simp)]
  · intro m _ p f _ _ _ _ hm
    exact grow m _ f hm
  · intro m _ p f _ _ _ _ hm
    exact grow m _ f hm
  · intro m _ n f _ _ hm
    exact grow m _ f hm
  · intro m o f _ _ hm
    rcases session_cases env o f m with h | ⟨g, h, _⟩
    · rw [h]; exact hm
    · rw [h]; exact grow m _ _ hm

/-! ## C74: appending -/

/-- C74: with `replace=False` an existing HDF5 output keeps everything stored in it, at every point of the run (except while the file is being
written) and whatever the run raises, if neither input has the name of the output and no figure is the output. -/
theorem append_keeps (env : Env V P R T) (a : Args P R) (fs : FS V) (out : Path) (ho : a.output = some out) (hr : a.replace = false)
    (g : Hdf5.Group V) (hg : fs.get? out = some (.h5 g)) (h1 : ∀ p, a.options = .file p → p.base ≠ out.base ∨ p = out)
    (h2 : ∀ p, a.targets = .file p → p.base ≠ out.base ∨ p = out) (h3 : ∀ n, out ≠ figure out.dir n) :
    (∀ s ∈ (pipeline env a fs).1.states, s.get? out = some .torn ∨ ∃ g', s.get? out = some (.h5 g') ∧ Kept g g') ∧
    ∃ g', (pipeline env a fs).1.cur.get? out = some (.h5 g') ∧ Kept g g' := by
  have other : ∀ (m : Mach V) (p : Path) (f : File V), p ≠ out →
      ((∀ s ∈ m.states, s.get? out = some .torn ∨ ∃ g', s.get? out = some (.h5 g') ∧ Kept g g') ∧ ∃ g', m.cur.get? out = some (.h5 g') ∧ Kept g g') →
      ((∀ s ∈ (m.write p f).states, s.get? out = some .torn ∨ ∃ g', s.get? out = some (.h5 g') ∧ Kept g g') ∧
        ∃ g', (m.write p f).cur.get? out = some (.h5 g') ∧ Kept g g') := by
    intro m p f hp hm
    have e1 : (m.cur.set p .torn).get? out = m.cur.get? out := Dict.get?_set_ne _ _ (fun e => hp e.symm)
    have e2 : ((m.cur.set p .torn).set p f).get? out = m.cur.get? out := by rw [Dict.get?_set_ne _ _ (fun e => hp e.symm), e1]
    refine ⟨?_, ?_⟩
    · intro s hs
      simp only [Mach.states, Mach.write, Mach.step, List.mem_append, List.mem_singleton] at hs
      rcases hs with ((hs | rfl) | rfl) | rfl
      · exact hm.1 s (by simp [Mach.states, hs])
      · exact .inr hm.2
      · rw [e1]; exact .inr hm.2
      · rw [e2]; exact .inr hm.2
    · simp only [Mach.write, Mach.step]
      rw [e2]
      exact hm.2
  apply pipeline_inv env a fs (fun m => (∀ s ∈ m.states, s.get? out = some .torn ∨ ∃ g', s.get? out = some (.h5 g') ∧ Kept g g') ∧
    ∃ g', m.cur.get? out = some (.h5 g') ∧ Kept g g')
  · unfold removeOld
    simp only [ho, hr, Bool.false_and, Bool.false_eq_true, if_false, Mach.states, List.nil_append, List.mem_singleton, forall_eq]
    exact ⟨.inr ⟨g, hg, Kept.refl g⟩, g, hg, Kept.refl g⟩
  · intro m o p f ho' hp hne _ hm
    rw [ho, Option.some.injEq] at ho'
    subst ho'
    refine other m _ f ?_ hm
    intro e
    rcases h1 p hp with h | h
    · exact h (by rw [← e])
    · subst h
      exact hne rfl
  · intro m o p f ho' hp hne _ hm
    rw [ho, Option.some.injEq] at ho'
    subst ho'
    refine other m _ f ?_ hm
    intro e
    rcases h2 p hp with h | h
    · exact h (by rw [← e])
    · subst h
      exact hne rfl
  · intro m o n f ho' _ hm
    rw [ho, Option.some.injEq] at ho'
    subst ho'
    exact other m _ f (fun e => h3 n e.symm) hm
  · intro m o f ho' hk hm
    rw [ho, Option.some.injEq] at ho'
    subst ho'
    rcases session_cases env out f m with h | ⟨g1, h, h'⟩
    · rw [h]; exact hm
    · rw [h]
      obtain ⟨g0, hg0, k0⟩ := hm.2
      have : g1 = g0 := by
        rcases h' with ⟨e, _⟩ | e
        · rw [hg0] at e; cases e
        · rw [hg0] at e
          simp only [Option.some.injEq, File.h5.injEq] at e
          exact e.symm
      subst this
      have hkept : Kept g (f (withInfo env g1)).1 := k0.trans ((withInfo_kept env g1).trans (hk _))
      refine ⟨?_, ?_⟩
      · intro s hs
        simp only [Mach.states, Mach.write, Mach.step, List.mem_append, List.mem_singleton] at hs
        rcases hs with ((hs | rfl) | rfl) | rfl
        · exact hm.1 s (by simp [Mach.states, hs])
        · exact .inr hm.2
        · left; simp
        · right; exact ⟨_, by simp, hkept⟩
      · exact ⟨_, by simp [Mach.write, Mach.step], hkept⟩

end ExoRad.Run
