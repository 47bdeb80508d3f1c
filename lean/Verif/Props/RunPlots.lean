import Verif.Props.RunSave
import Verif.Props.RunMore

/-!
# A run with figures: C71, C109
-/

namespace ExoRad.Run
open Hdf5

variable {V P R T : Type}

/-- Files that have the same contents except for the figures called `names` in the directory `dir`. -/
def SameBut (dir : String) (names : List String) (fs fs' : FS V) : Prop := ∀ x, (∀ n ∈ names, x ≠ figure dir n) → fs'.get? x = fs.get? x

/-- The figures called `names` are in the directory `dir`. -/
def Figures (dir : String) (names : List String) (fs : FS V) : Prop := ∀ n ∈ names, fs.get? (figure dir n) = some (.bytes "png")

theorem figures_write (dir : String) : ∀ (names : List String) (m : Mach V),
    SameBut dir names m.cur (names.foldl (fun m n => m.write (figure dir n) (.bytes "png")) m).cur ∧
    Figures dir names (names.foldl (fun m n => m.write (figure dir n) (.bytes "png")) m).cur
  | [], m => ⟨fun _ _ => rfl, fun n hn => by cases hn⟩
  | n :: ns, m => by
    obtain ⟨h1, h2⟩ := figures_write dir ns (m.write (figure dir n) (.bytes "png"))
    have hw : ∀ x, (m.write (figure dir n) (.bytes "png")).cur.get? x = if x = figure dir n then some (.bytes "png") else m.cur.get? x := by
      intro x
      simp only [Mach.write, Mach.step, Dict.get?_set]
      by_cases h : x = figure dir n
      · simp [h]
      · simp [h]
    rw [List.foldl_cons]
    refine ⟨fun x hx => ?_, fun k hk => ?_⟩
    · rw [h1 x (fun k hk => hx k (by simp [hk])), hw, if_neg (hx n (by simp))]
    · by_cases hkn : k ∈ ns
      · exact h2 k hkn
      · rcases List.mem_cons.mp hk with rfl | hk
        · rw [h1 _ (fun k' hk' e => hkn (by
            have := congrArg Path.base e
            simp only [figure] at this
            have h3 := congrArg String.toList this
            rw [String.toList_append, String.toList_append] at h3
            rw [String.toList_inj.mp (List.append_cancel_right h3)]
            exact hk')), hw, if_pos rfl]
        · exact absurd hk hkn

theorem session_other (env : Env V P R T) (p : Path) (f : Hdf5.Group V → W V) (m : Mach V) (x : Path) (hx : x ≠ p) : (session env p f m).1.cur.get? x = m.cur.get? x := by
  unfold session
  have hw : ∀ y : File V, (m.write p y).cur.get? x = m.cur.get? x := by
    intro y
    simp only [Mach.write, Mach.step]
    rw [Dict.get?_set_ne _ _ hx, Dict.get?_set_ne _ _ hx]
  cases m.cur.get? p with
  | none => exact hw _
  | some y =>
    cases y with
    | h5 g => exact hw _
    | bytes s => rfl
    | torn => rfl

theorem saveTargets_other (env : Env V P R T) (out : Path) (x : Path) (hx : x ≠ out) : ∀ (ts : List (Option T)) (m : Mach V), (saveTargets env out ts m).1.cur.get? x = m.cur.get? x
  | [], m => rfl
  | none :: ts, m => by
    unfold saveTargets
    exact session_other env out _ m x hx
  | some t :: ts, m => by
    unfold saveTargets
    have h1 := session_other env out (writeTarget env t) m x hx
    revert h1
    generalize session env out (writeTarget env t) m = q
    obtain ⟨n, r⟩ := q
    intro h1
    cases r with
    | error e => exact h1
    | ok u => exact (saveTargets_other env out x hx ts n).trans h1

/-- The name of the figure of the efficiency, if it is drawn. -/
def drawn (b : Bool) : List String := if b then ["efficiency"] else []

/-- C71, C109: a run with figures, and the same run without, whose targets are observed with the same results. If the plotter of the efficiency does not fail, the two end alike, and their files
are the same except for the figures: that of the efficiency if there is one, and one of every target that was observed. -/
theorem run_with_figures_of (env : Env V P R T) {a : Args P R} {fs : FS V} {p q out : Path} {fp fq : File V} (h : Plain a fs p q out fp fq)
    (pl : P) (hpl : env.loadXml fp = .ok pl) (hw : (writePayload env pl (withInfo env [])).2 = .ok ()) (hrange : env.range pl = .ok ())
    (rows : R) (hrows : env.loadCsv fq = .ok rows) {b : Bool} (heff : env.drawEfficiency pl = .ok b) (hout : ∀ n, out ≠ figure out.dir n)
    (obs : P → R → List String × Dict (Option String) (Option T)) (hobs : (obs pl rows).2 = (env.observe pl rows).2) :
    (pipeline { env with observe := obs } { a with plot := true } fs).2 = (pipeline env a fs).2 ∧
    SameBut out.dir (drawn b ++ (obs pl rows).1) (pipeline env a fs).1.cur (pipeline { env with observe := obs } { a with plot := true } fs).1.cur ∧
    Figures out.dir (drawn b ++ (obs pl rows).1) (pipeline { env with observe := obs } { a with plot := true } fs).1.cur := by
  obtain ⟨m, e, c1, c2, c3⟩ := plain_copied h
  have hqo : q ≠ out := fun e => h.qname (by rw [e])
  have hqf : ∀ n, q ≠ figure out.dir n := not_figure (by rw [h.csv]; decide) (by rw [h.csv]; decide) out.dir
  have hs := session_ok env out (writePayload env pl) m [] (.inl ⟨c3, rfl⟩)
  set m1 := m.write out (.h5 (writePayload env pl (withInfo env [])).1) with hm1
  have hq : m1.cur.get? q = some fq := by
    simp only [hm1, Mach.write, Mach.step]
    rw [Dict.get?_set_ne _ _ hqo, Dict.get?_set_ne _ _ hqo, c2]
  have hprep : preparePayload env a.options a.output m = (m1, .ok pl) := by
    unfold preparePayload
    simp only [h.options, h.output, h.xml, if_true, c1, hpl, buildPayload, hs, andThen, hw, hrange, hm1]
  have e0 : pipeline env a fs = saveTargets env out ((env.observe pl rows).2.map Prod.snd) m1 := by
    unfold pipeline
    rw [e]
    simp only [andThen, hprep, efficiencyPlot, h.noplot]
    unfold observeAndSave
    have hl : loadTargets env a.targets m1 = .ok rows := by
      unfold loadTargets
      simp only [h.targets, h.csv, if_true, hq, hrows]
    simp only [Bool.false_eq_true, if_false, hl, targetPlots, h.noplot, h.output]
  have e1 : pipeline { env with observe := obs } { a with plot := true } fs = saveTargets env out ((obs pl rows).2.map Prod.snd)
      ((drawn b ++ (obs pl rows).1).foldl (fun m n => m.write (figure out.dir n) (.bytes "png")) m1) := by
    have hcopy : copyInputs { a with plot := true } (removeOld { a with plot := true } ⟨fs, []⟩) = (m, .ok ()) := e
    have hprep' : preparePayload { env with observe := obs } a.options (some out) m = (m1, .ok pl) := h.output ▸ hprep
    unfold pipeline
    rw [hcopy]
    set me := (drawn b).foldl (fun m n => m.write (figure out.dir n) (.bytes "png")) m1 with hme
    have heff' : efficiencyPlot { env with observe := obs } { a with plot := true, output := some out } pl m1 = (me, .ok ()) := by
      cases b <;> simp [efficiencyPlot, heff, drawn, hme]
    simp only [andThen, h.output, hprep', heff']
    unfold observeAndSave
    have hl : loadTargets { env with observe := obs } a.targets me = .ok rows := by
      unfold loadTargets
      have : me.cur.get? q = some fq := by
        cases b
        · exact hq
        · simp only [hme, drawn, if_true, List.foldl_cons, List.foldl_nil, Mach.write, Mach.step]
          rw [Dict.get?_set_ne _ _ (hqf _), Dict.get?_set_ne _ _ (hqf _), hq]
      simp only [h.targets, h.csv, if_true, this, hrows]
    simp only [hl, targetPlots, h.output]
    have sv : ∀ (ts : List (Option T)) (m : Mach V), saveTargets { env with observe := obs } out ts m = saveTargets env out ts m := by
      intro ts
      induction ts with
      | nil => intro m; rfl
      | cons t ts ih =>
        intro m
        cases t with
        | none => rfl
        | some t =>
          unfold saveTargets
          simp only [ih]
          rfl
    rw [sv, List.foldl_append]
  obtain ⟨f1, f2⟩ := figures_write out.dir (drawn b ++ (obs pl rows).1) m1
  set m2 := (drawn b ++ (obs pl rows).1).foldl (fun m n => m.write (figure out.dir n) (.bytes "png")) m1 with hm2
  have hag : Agree (fun x => ∀ n ∈ drawn b ++ (obs pl rows).1, x ≠ figure out.dir n) m2 m1 := fun x hx => f1 x hx
  have := saveTargets_rel env out (fun n _ => hout n) ((obs pl rows).2.map Prod.snd) m2 m1 hag
  rw [e1, e0, ← hobs]
  refine ⟨this.1, fun x hx => this.2 x hx, fun n hn => ?_⟩
  rw [saveTargets_other env out _ (fun e => hout n e.symm)]
  exact f2 n hn

/-- C71, C109: `run_with_figures_of` when the efficiency is drawn. -/
theorem run_with_figures (env : Env V P R T) {a : Args P R} {fs : FS V} {p q out : Path} {fp fq : File V} (h : Plain a fs p q out fp fq)
    (pl : P) (hpl : env.loadXml fp = .ok pl) (hw : (writePayload env pl (withInfo env [])).2 = .ok ()) (hrange : env.range pl = .ok ())
    (rows : R) (hrows : env.loadCsv fq = .ok rows) (heff : env.drawEfficiency pl = .ok true) (hout : ∀ n, out ≠ figure out.dir n)
    (obs : P → R → List String × Dict (Option String) (Option T)) (hobs : (obs pl rows).2 = (env.observe pl rows).2) :
    (pipeline { env with observe := obs } { a with plot := true } fs).2 = (pipeline env a fs).2 ∧
    SameBut out.dir ("efficiency" :: (obs pl rows).1) (pipeline env a fs).1.cur (pipeline { env with observe := obs } { a with plot := true } fs).1.cur ∧
    Figures out.dir ("efficiency" :: (obs pl rows).1) (pipeline { env with observe := obs } { a with plot := true } fs).1.cur :=
  run_with_figures_of env h pl hpl hw hrange rows hrows heff hout obs hobs

/-- C71: a run with figures of a payload whose efficiency is not drawn: it ends like the run without figures, and only the figures of the targets are new. -/
theorem run_without_efficiency (env : Env V P R T) {a : Args P R} {fs : FS V} {p q out : Path} {fp fq : File V} (h : Plain a fs p q out fp fq)
    (pl : P) (hpl : env.loadXml fp = .ok pl) (hw : (writePayload env pl (withInfo env [])).2 = .ok ()) (hrange : env.range pl = .ok ())
    (rows : R) (hrows : env.loadCsv fq = .ok rows) (heff : env.drawEfficiency pl = .ok false) (hout : ∀ n, out ≠ figure out.dir n)
    (obs : P → R → List String × Dict (Option String) (Option T)) (hobs : (obs pl rows).2 = (env.observe pl rows).2) :
    (pipeline { env with observe := obs } { a with plot := true } fs).2 = (pipeline env a fs).2 ∧
    SameBut out.dir (obs pl rows).1 (pipeline env a fs).1.cur (pipeline { env with observe := obs } { a with plot := true } fs).1.cur ∧
    Figures out.dir (obs pl rows).1 (pipeline { env with observe := obs } { a with plot := true } fs).1.cur :=
  run_with_figures_of env h pl hpl hw hrange rows hrows heff hout obs hobs

end ExoRad.Run
