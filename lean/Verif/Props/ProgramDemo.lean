import Verif.Props.ProgramPlots
import Verif.Props.WholeDemo

/-!
# C108, a concrete case: `exorad -p in/p.xml -t in/l.csv -o out/o.h5 -c`
-/

namespace ExoRad.Program.Demo
open Command Whole Whole.Demo Run
noncomputable section

def path (w : Word) : Path := if w = "in/p.xml".toList then payloadPath else if w = "in/l.csv".toList then listPath else outPath

def words : List Word := ["-p".toList, "in/p.xml".toList, "--targetL=in/l.csv".toList, "-cdoout/o.h5".toList, "-n".toList, "2".toList]

def sets : Sets := [("opt", .str "in/p.xml".toList), ("targetList", .str "in/l.csv".toList), ("contrib", .bool true), ("debug", .bool true), ("output", .str "out/o.h5".toList),
  ("numberOfThreads", .int 2)]

theorem ready (c : Catalogue) (n : ℕ) :
    Ready some (outside c n) pl (.single zodiD) Build.Demo.planckSource (fun _ => 100) (fun _ => 1) (fun _ => 1) (fun _ => 2) (fun _ => 3) where
  stores := stores c n
  sound := sound c n
  elements := elements_ok c n
  perPhoton := by norm_num [outside, Build.Demo.env]
  atel := by norm_num [pl, describedX, Build.Demo.common]
  channels := by simp [channelsOf, pl, describedX]
  complete := two Build.Demo.complete_phot3 Build.Demo.complete_spec3
  world := world_ok c n
  within := within_ok
  budgets := budgets_ok
  foreground := rfl
  source := rfl
  planck := ⟨rfl, by decide +kernel, by decide +kernel⟩
  notInstrument := by intro kd hkd; simp only [Foreground.Section.list, List.mem_singleton] at hkd; subst hkd; decide

theorem words_ok : Sets3 Command.Demo.digits words sets "in/p.xml".toList "in/l.csv".toList "out/o.h5".toList 2 where
  line := ((parse_iff exorad_good Command.Demo.digits words sets).mp (by decide +kernel)).1
  payload := ⟨[], _, rfl, by decide⟩
  list := ⟨[_], _, rfl, by decide⟩
  output := ⟨[_, _, _, _], _, rfl, by decide⟩
  noplot := by decide
  processes := .inl ⟨[_, _, _, _, _], [], rfl, by decide⟩

theorem names_there : Names path disk "in/p.xml".toList "in/l.csv".toList "out/o.h5".toList (.bytes "payload") (.bytes "list") where
  xml := by decide +kernel
  csv := by decide +kernel
  pname := by decide +kernel
  tname := by decide +kernel
  payload := by rfl
  list := by rfl

/-- C108, a concrete case: `exorad -p in/p.xml --targetL=in/l.csv -cdoout/o.h5 -n 2` on the payload and any list of stars as in C106. -/
theorem demo_program (c : Catalogue) (n : ℕ) (hD : ∀ i ≤ n, c.D i ≠ 0) (hT : ∀ i ≤ n, 0 < c.T i) (hR : ∀ i ≤ n, c.R i ≠ 0) (hn : ∀ i ≤ n, ∀ j ≤ n, c.name i = c.name j → i = j) :
    ∃ fuel, ∀ m, fuel ≤ m → (program { outside c (n + 1) with fuel := m } path Command.Demo.digits words disk).2 = .ok () ∧
      ∃ g, (program { outside c (n + 1) with fuel := m } path Command.Demo.digits words disk).1.cur.get? outPath = some (.h5 g) ∧
        ∀ i ≤ n, ∃ r : ExoRad.Table ℝ, (∀ k, columnIn g (String.ofList (c.name i)) k = r.get? k) ∧ "M1 signal" ∈ r.keys ∧ "instrument_signal" ∉ r.keys := by
  obtain ⟨fuel, h⟩ := program_file (ready c (n + 1))
  refine ⟨fuel, fun m hm => ?_⟩
  obtain ⟨r1, g, r2, r3⟩ := h m hm path Command.Demo.digits words sets _ _ _ 2 disk _ _ _ words_ok names_there (loaded c (n + 1)) (listed c n) (sched_ok c n) (.inl rfl) (names_ok c n hn)
    (stars_ok c n hD hT hR)
  refine ⟨r1, g, r2, fun i hi => ?_⟩
  obtain ⟨r, _, hr, hs⟩ := r3 ⟨i, (nameC c).value i, TargetList.row [nameC c, massC c, teffC c, radiusC c, distanceC c] i, none⟩
      (List.mem_map.mpr ⟨i, List.mem_range.mpr (by omega), rfl⟩)
  obtain ⟨s1, s2⟩ := hs (by decide)
  refine ⟨r, hr, ?_, s1⟩
  have hm : Build.Demo.phot3 ∈ channelsOf pl := by simp [channelsOf, pl, describedX]
  exact s2 Build.Demo.phot3 hm "M1" (by
    have e : Build.emitters (buildEnv (outside c (n + 1)) pl) pl.1.common Build.Demo.phot3 = ["M1"] := emits _ hm
    rw [e]; simp)

/-! ## C109 -/

def wordsP : List Word := words ++ ["-P".toList]

def setsP : Sets := sets ++ [("plot", .bool true)]

theorem wordsP_ok : Given Command.Demo.digits wordsP setsP "in/p.xml".toList "in/l.csv".toList "out/o.h5".toList 2 where
  line := ((parse_iff exorad_good Command.Demo.digits wordsP setsP).mp (by decide +kernel)).1
  payload := ⟨[], _, rfl, by decide⟩
  list := ⟨[_], _, rfl, by decide⟩
  output := ⟨[_, _, _, _], _, rfl, by decide⟩
  processes := .inl ⟨[_, _, _, _, _], [_], rfl, by decide⟩

theorem draws (c : Catalogue) (n : ℕ) : Draws (outside c n) where
  order := fun l => ⟨by classical exact List.nodup_dedup l, fun x => by classical exact List.mem_dedup⟩
  draw := ⟨fun _ => false, fun _ _ _ _ => rfl⟩
  save := fun _ => rfl

theorem out_h5 (k : String) : (path "out/o.h5".toList).base ≠ k ++ ".png" := by
  intro e
  have h : (path "out/o.h5".toList).base = "o.h5" := by decide +kernel
  rw [h] at e
  have := congrArg (fun s : String => s.toList.reverse) e
  simp [String.toList_append] at this

/-- C109, a concrete case: the command of `demo_program` with `-P` at its end. -/
theorem demo_figures (c : Catalogue) (n : ℕ) (hD : ∀ i ≤ n, c.D i ≠ 0) (hT : ∀ i ≤ n, 0 < c.T i) (hR : ∀ i ≤ n, c.R i ≠ 0) (hn : ∀ i ≤ n, ∀ j ≤ n, c.name i = c.name j → i = j) :
    ∃ fuel, ∀ m, fuel ≤ m → (program { outside c (n + 1) with fuel := m } path Command.Demo.digits wordsP disk).2 = .ok () ∧
      (∀ i ≤ n, (program { outside c (n + 1) with fuel := m } path Command.Demo.digits wordsP disk).1.cur.get? (figure outPath.dir (String.ofList (c.name i))) = some (.bytes "png")) ∧
      (program { outside c (n + 1) with fuel := m } path Command.Demo.digits wordsP disk).1.cur.get? outPath = (program { outside c (n + 1) with fuel := m } path Command.Demo.digits words disk).1.cur.get? outPath := by
  obtain ⟨fuel, h⟩ := program_figures (ready c (n + 1)) (draws c (n + 1))
  refine ⟨fuel, fun m hm => ?_⟩
  obtain ⟨_, r1, r2, r3⟩ := h m hm path Command.Demo.digits words wordsP sets setsP _ _ _ 2 disk _ _ _ words_ok wordsP_ok (by decide) (by decide) (by decide) out_h5 names_there (loaded c (n + 1)) (listed c n)
    (sched_ok c n) (.inl rfl) (names_ok c n hn) (stars_ok c n hD hT hR)
  refine ⟨r1, fun i hi => ?_, r2 outPath (fun k _ e => out_h5 k (congrArg Path.base e))⟩
  refine r3 _ (List.mem_cons_of_mem _ (List.mem_map.mpr ⟨⟨i, (nameC c).value i, TargetList.row [nameC c, massC c, teffC c, radiusC c, distanceC c] i, none⟩, ?_, rfl⟩))
  exact List.mem_map.mpr ⟨i, List.mem_range.mpr (by omega), rfl⟩

def wordsQ : List Word := ["-iout/o.h5".toList, "--out".toList, "figs".toList]

def setsQ : Sets := [("input", .str "out/o.h5".toList), ("out", .str "figs".toList)]

theorem wordsQ_ok : PlotGiven Command.Demo.digits wordsQ setsQ "out/o.h5".toList "figs".toList "all".toList "None".toList where
  line := ((parse_iff plot_good Command.Demo.digits wordsQ setsQ).mp (by decide +kernel)).1
  input := ⟨[], _, rfl, by decide⟩
  out := ⟨[_], _, rfl, by decide⟩
  number := .inr ⟨by decide, rfl⟩
  name := .inr ⟨by decide, rfl⟩

/-- C109, a concrete case: `exorad-plot -iout/o.h5 --out figs` after the command of `demo_program`, when astropy reads the tables in the file as what they are. -/
theorem demo_then_plot (c : Catalogue) (n : ℕ) (hD : ∀ i ≤ n, c.D i ≠ 0) (hT : ∀ i ≤ n, 0 < c.T i) (hR : ∀ i ≤ n, c.R i ≠ 0) (hn : ∀ i ≤ n, ∀ j ≤ n, c.name i = c.name j → i = j) :
    ∃ fuel, ∀ m, fuel ≤ m → ∃ decode : String → Plotter.Input ℝ, ∃ figs,
      (plotProgram orderX path String.ofList Command.Demo.digits decode wordsQ (program { outside c (n + 1) with fuel := m } path Command.Demo.digits words disk).1.cur).2 = .ok figs ∧ figs.length = n + 1 ∧
      ∀ i ≤ n, (plotProgram orderX path String.ofList Command.Demo.digits decode wordsQ (program { outside c (n + 1) with fuel := m } path Command.Demo.digits words disk).1.cur).1.cur.get?
        (figure "figs" (String.ofList (c.name i))) = some (.bytes "png") := by
  obtain ⟨fuel, h⟩ := program_then_plot (ready c (n + 1)) (draws c (n + 1)).order
  refine ⟨fuel, fun m hm => ?_⟩
  obtain ⟨g, tab, _, _, r3⟩ := h m hm path String.ofList Command.Demo.digits words wordsQ sets setsQ _ _ _ _ _ 2 disk _ _ _ words_ok wordsQ_ok rfl names_there (loaded c (n + 1)) (listed c n)
    (sched_ok c n) (.inl rfl) (names_ok c n hn) (by simp [TargetList.starTargets]) (stars_ok c n hD hT hR)
  obtain ⟨names, fig, k1, _, _, k4, k5, _⟩ := r3 (fun nm => ⟨some nm, tab nm, fun _ => false⟩) (fun row _ => ⟨_, rfl⟩)
  refine ⟨_, _, k4, ?_, fun i hi => ?_⟩
  · rw [List.length_map, k1.length_eq]
    simp [TargetList.starTargets]
  · refine k5 _ (k1.mem_iff.mpr (List.mem_map.mpr ⟨⟨i, (nameC c).value i, TargetList.row [nameC c, massC c, teffC c, radiusC c, distanceC c] i, none⟩, ?_, rfl⟩))
    exact List.mem_map.mpr ⟨i, List.mem_range.mpr (by omega), rfl⟩

end
end ExoRad.Program.Demo
