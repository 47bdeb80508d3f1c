import Verif.Props.Program
import Verif.Props.WholeThenPlot

/-!
# The command `exorad` with `-P`, and the command `exorad-plot`: C109
-/

set_option linter.unusedSectionVars false

namespace ExoRad.Program
open Command Whole Run Plotter

/-- C109: a command `exorad` with the option `-P`, and one that differs in this option only. Both end without an exception. The files are the same except for the figures of the first: `efficiency.png`
and one with the name of every star, in the directory of the output. (The name of the output file does not end with `.png`, and the figures can be drawn and saved.) -/
theorem program_figures {u : String → Option String} {o : Whole.Outside} {pl : P} {sec : Foreground.Section ℝ} {src : Source.Descr} {well fw freq dark rn : NoiseChannel → ℝ}
    (h : Ready u o pl sec src well fw freq dark rn) (hd : Draws o) :
    ∃ fuel, ∀ m, fuel ≤ m → ∀ (path : Word → Path) (int : Word → Option Int) (ws ws' : List Word) (s s' : Sets) (p t out : Word) (n : Int) (fs : FS V) (fp ft : File V) (rows : R),
      Sets3 int ws s p t out n → Given int ws' s' p t out n → "plot" ∈ s'.map Prod.fst → ("contrib" ∈ s.map Prod.fst ↔ "contrib" ∈ s'.map Prod.fst) →
      ("debug" ∈ s.map Prod.fst ↔ "debug" ∈ s'.map Prod.fst) → (∀ k, (path out).base ≠ k ++ ".png") →
      Names path fs p t out fp ft → loadXml o fp = .ok pl → loadCsv o ft = .ok rows →
      (∀ i < rows.length, i ∈ o.sched) → (o.start = .fork ∨ n ≤ 1 ∨ pl.2 = 6000) → (rows.map (fun row => (targetOf o row).name)).Nodup → (∀ row ∈ rows, Star o pl sec row) →
      (program { o with fuel := m } path int ws fs).2 = .ok () ∧ (program { o with fuel := m } path int ws' fs).2 = .ok () ∧
      SameBut (path out).dir ("efficiency" :: rows.map (fun row => (targetOf o row).name)) (program { o with fuel := m } path int ws fs).1.cur (program { o with fuel := m } path int ws' fs).1.cur ∧
      Figures (path out).dir ("efficiency" :: rows.map (fun row => (targetOf o row).name)) (program { o with fuel := m } path int ws' fs).1.cur := by
  obtain ⟨fuel, hfile⟩ := program_file h
  obtain ⟨hb, hcu, hph⟩ := h.planck
  obtain ⟨fuel', hrun⟩ := black_figures h.stores h.sound h.elements h.perPhoton h.atel h.channels h.complete h.world h.within h.budgets h.foreground h.source hb hcu hph h.notInstrument
  refine ⟨max fuel fuel', fun m hm path int ws ws' s s' p t out n fs fp ft rows hset hset' hplot hc hdb hpng hnm hpl hrows hsched hk hnd hstar => ?_⟩
  have hplain : Plain (P := P) (R := R) ⟨.file (path p), .file (path t), some (path out), true, false⟩ fs (path p) (path t) (path out) fp ft :=
    ⟨rfl, rfl, rfl, hnm.xml, hnm.csv, hnm.pname, hnm.tname, hnm.payload, hnm.list, .inl rfl, rfl⟩
  have hend := (hfile m (le_trans (le_max_left _ _) hm) path int ws s p t out n fs fp ft rows hset hnm hpl hrows hsched hk hnd hstar).1
  obtain ⟨r1, r2, r3⟩ := hrun m (le_trans (le_max_right _ _) hm) hplain hpng
    { o.opts with plot := false, outDir := some (path out).dir, debug := decide ("debug" ∈ s.map Prod.fst) } n.toNat (decide ("contrib" ∈ s.map Prod.fst)) rfl (by simp)
    ⟨hd.order, hd.draw, hd.save⟩ hpl hrows hsched (few hk) hnd hstar
  have edb : decide ("debug" ∈ s'.map Prod.fst) = decide ("debug" ∈ s.map Prod.fst) := by rw [decide_eq_decide]; exact hdb.symm
  have ec : decide ("contrib" ∈ s'.map Prod.fst) = decide ("contrib" ∈ s.map Prod.fst) := by rw [decide_eq_decide]; exact hc.symm
  refine ⟨hend, ?_⟩
  rw [program_eq hset, program_given hset', edb, ec, decide_eq_true hplot]
  exact ⟨r1, r2, r3⟩

/-- C109: a command line that is not one of the options of `exorad-plot` with an input and an output ends the process with `SystemExit`; no file is touched. -/
theorem plot_refused (order : List (Cell ℝ) → List (Cell ℝ)) (path : Word → Path) (dir : Word → String) (int : Word → Option Int) (decode : String → Input ℝ) (ws : List Word) (fs : FS V)
    (h : ¬ ∃ s, Line plotOpts int ws s ∧ "input" ∈ s.map Prod.fst ∧ "out" ∈ s.map Prod.fst) :
    plotProgram order path dir int decode ws fs = (⟨fs, []⟩, .error .systemExit) := by
  unfold plotProgram
  cases hm : plotMain int ws with
  | ok c =>
    obtain ⟨s, hl, h1, h2, _⟩ := (plot_call int ws c).mp hm
    exact absurd ⟨s, hl, List.mem_map.mpr ⟨_, last_mem h1, rfl⟩, List.mem_map.mpr ⟨_, last_mem h2, rfl⟩⟩ h
  | error e =>
    have : e = .systemExit := by
      unfold plotMain at hm
      cases hp : parse plotOpts int ws with
      | error e' => simp only [hp] at hm; cases hm; exact parse_exit _ _ _ _ hp
      | ok s => simp only [hp] at hm; cases hm
    subst this
    rfl

/-- A command line of `exorad-plot` that sets the input `i` and the output `d`, for the targets with the numbers `k` and the name `nm`. -/
structure PlotGiven (int : Word → Option Int) (ws : List Word) (s : Sets) (i d k nm : Word) : Prop where
  line : Line plotOpts int ws s
  input : Last s "input" (.str i)
  out : Last s "out" (.str d)
  number : IsValueOf s "target_number" (.str "all".toList) (.str k)
  name : IsValueOf s "target_name" (.str "None".toList) (.str nm)

theorem plotProgram_eq {int : Word → Option Int} {ws : List Word} {s : Sets} {i d k nm : Word} (h : PlotGiven int ws s i d k nm) (order : List (Cell ℝ) → List (Cell ℝ)) (path : Word → Path)
    (dir : Word → String) (decode : String → Input ℝ) (fs : FS V) :
    plotProgram order path dir int decode ws fs = command order int decode ⟨path i, dir d, String.ofList k, String.ofList nm⟩ ⟨fs, []⟩ := by
  have hc := (plot_call int ws ⟨.str i, .str d, .str k, .str nm, value s "debug" (.bool false)⟩).mpr ⟨s, h.line, h.input, h.out, h.number, h.name, value_isValueOf ..⟩
  unfold plotProgram
  rw [hc]
  rfl

/-- C109: the command `exorad` as in `program_file`, on at least one star, and after it the command `exorad-plot` with the output file and a directory, for all targets. It draws every star, in alphabetical
order, each from the columns in the output file, and changes no file but the figures. -/
theorem program_then_plot {u : String → Option String} {o : Whole.Outside} {pl : P} {sec : Foreground.Section ℝ} {src : Source.Descr} {well fw freq dark rn : NoiseChannel → ℝ}
    (h : Ready u o pl sec src well fw freq dark rn) (ho : Enumerates o.order) :
    ∃ fuel, ∀ m, fuel ≤ m → ∀ (path : Word → Path) (dir : Word → String) (int : Word → Option Int) (ws ws' : List Word) (s s' : Sets) (p t out i d : Word) (n : Int) (fs : FS V) (fp ft : File V) (rows : R),
      Sets3 int ws s p t out n → PlotGiven int ws' s' i d "all".toList "None".toList → path i = path out →
      Names path fs p t out fp ft → loadXml o fp = .ok pl → loadCsv o ft = .ok rows →
      (∀ i < rows.length, i ∈ o.sched) → (o.start = .fork ∨ n ≤ 1 ∨ pl.2 = 6000) → (rows.map (fun row => (targetOf o row).name)).Nodup → rows ≠ [] → (∀ row ∈ rows, Star o pl sec row) →
      ∃ (g : Hdf5.Group V) (tab : String → Table ℝ), (program { o with fuel := m } path int ws fs).1.cur.get? (path out) = some (.h5 g) ∧
        (∀ row ∈ rows, ∀ c, columnIn g (targetOf o row).name c = (tab (targetOf o row).name).get? c) ∧
        ∀ decode : String → Input ℝ, (∀ row ∈ rows, ReadsAs decode (targetOf o row).name (tab (targetOf o row).name)) →
        ∃ (names : List String) (fig : String → Fig ℝ), names.Perm (rows.map (fun row => (targetOf o row).name)) ∧ names.Pairwise (· ≤ ·) ∧
          (∀ row ∈ rows, plotTable o.order true (decode (targetOf o row).name) = .ok (fig (targetOf o row).name) ∧ (fig (targetOf o row).name).title = (targetOf o row).name) ∧
          (plotProgram o.order path dir int decode ws' (program { o with fuel := m } path int ws fs).1.cur).2 = .ok (names.map fig) ∧
          AllThere (dir d) names (plotProgram o.order path dir int decode ws' (program { o with fuel := m } path int ws fs).1.cur).1.cur ∧
          OnlyFigures (dir d) names (program { o with fuel := m } path int ws fs).1.cur (plotProgram o.order path dir int decode ws' (program { o with fuel := m } path int ws fs).1.cur).1.cur := by
  obtain ⟨hb, hcu, hph⟩ := h.planck
  obtain ⟨fuel, hrun⟩ := black_then_plot h.stores h.sound h.elements h.perPhoton h.atel h.channels h.complete h.world h.within h.budgets h.foreground h.source hb hcu hph h.notInstrument
  refine ⟨fuel, fun m hm path dir int ws ws' s s' p t out i d n fs fp ft rows hset hpg hpi hnm hpl hrows hsched hk hnd hne hstar => ?_⟩
  have hplain : Plain (P := P) (R := R) ⟨.file (path p), .file (path t), some (path out), true, false⟩ fs (path p) (path t) (path out) fp ft :=
    ⟨rfl, rfl, rfl, hnm.xml, hnm.csv, hnm.pname, hnm.tname, hnm.payload, hnm.list, .inl rfl, rfl⟩
  obtain ⟨g, tab, r1, r2, r3⟩ := hrun m hm hplain
    { o.opts with plot := false, outDir := some (path out).dir, debug := decide ("debug" ∈ s.map Prod.fst) } n.toNat (decide ("contrib" ∈ s.map Prod.fst)) rfl ho hpl hrows hsched (few hk) hnd hne hstar
  rw [program_eq hset]
  refine ⟨g, tab, r1, r2, fun decode hdec => ?_⟩
  obtain ⟨names, fig, k1, k2, k3, k4, k5, k6⟩ := r3 int decode (dir d) hdec
  rw [plotProgram_eq hpg, hpi]
  exact ⟨names, fig, k1, k2, k3, k4, k5, k6⟩

end ExoRad.Program
