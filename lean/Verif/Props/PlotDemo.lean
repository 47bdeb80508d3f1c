import Verif.Props.PlotMore
import Verif.Props.PlotCommand
import Verif.Props.RunDemo
import Verif.Props.BuildDemo

/-! # Cases that meet the hypotheses of C71, C85-C88 -/

set_option linter.unusedSectionVars false

namespace ExoRad.Plotter.Demo
open Run Hdf5

theorem dedup_enumerates : Enumerates (List.dedup : List (Cell ℚ) → List (Cell ℚ)) :=
  fun l => ⟨List.nodup_dedup l, fun _ => List.mem_dedup⟩

/-- The table `two` has bins, numbers and a star: it can be drawn, and the dark noise is drawn relative to the star. -/
theorem two_bins : Bins two 2 (fun i => if i = 0 then .str "A" else .str "B") (fun i => if i = 0 then 1 / 2 else 2) (fun i => if i = 0 then 2 else 4) := by
  refine ⟨?_, ?_, ?_⟩ <;> decide +kernel

theorem two_drawn (name : String) : ∃ f, plotTable List.dedup true ⟨some name, two, fun _ => false⟩ = .ok f ∧ f.title = name ∧
    f.noise.curves = [⟨"total_noise", [.num (.fin 1), .num (.fin 3)], [.num (.fin 5), .num (.fin 6)]⟩,
      ⟨"dark_noise", [.num (.fin 1), .num (.fin 3)], [.num (.fin (1 / 2)), .num (.fin (1 / 2))]⟩] ∧
    f.signal.bands = [⟨.str "A", .fin (1 / 2), .fin 2⟩, ⟨.str "B", .fin 2, .fin 4⟩] ∧ f.signal.ticks = some [.fin (1 / 2), .fin 2, .fin 4] := by
  have h1 : plotSignal List.dedup true ⟨some name, two, fun _ => false⟩ = plotSignal List.dedup true ⟨some "x", two, fun _ => false⟩ := rfl
  have h2 : plotNoise List.dedup true ⟨some name, two, fun _ => false⟩ = plotNoise List.dedup true ⟨some "x", two, fun _ => false⟩ := rfl
  have key : ∀ (x y : Except Exc (Axes ℚ)), (match x, y with
      | .ok s, .ok m => decide (m.curves = [⟨"total_noise", [.num (.fin 1), .num (.fin 3)], [.num (.fin 5), .num (.fin 6)]⟩,
        ⟨"dark_noise", [.num (.fin 1), .num (.fin 3)], [.num (.fin (1 / 2)), .num (.fin (1 / 2))]⟩] ∧
        s.bands = [⟨.str "A", .fin (1 / 2), .fin 2⟩, ⟨.str "B", .fin 2, .fin 4⟩] ∧ s.ticks = some [.fin (1 / 2), .fin 2, .fin 4])
      | _, _ => false) = true → ∃ s m, x = .ok s ∧ y = .ok m ∧
      m.curves = [⟨"total_noise", [.num (.fin 1), .num (.fin 3)], [.num (.fin 5), .num (.fin 6)]⟩,
        ⟨"dark_noise", [.num (.fin 1), .num (.fin 3)], [.num (.fin (1 / 2)), .num (.fin (1 / 2))]⟩] ∧
        s.bands = [⟨.str "A", .fin (1 / 2), .fin 2⟩, ⟨.str "B", .fin 2, .fin 4⟩] ∧ s.ticks = some [.fin (1 / 2), .fin 2, .fin 4] := by
    intro x y h
    cases x with
    | error e => simp at h
    | ok s =>
      cases y with
      | error e => simp at h
      | ok m => exact ⟨s, m, rfl, rfl, by simpa using h⟩
  obtain ⟨s, m, e1, e2, e3, e4, e5⟩ := key (plotSignal List.dedup true ⟨some "x", two, fun _ => false⟩) (plotNoise List.dedup true ⟨some "x", two, fun _ => false⟩) (by decide +kernel)
  refine ⟨⟨name, s, m⟩, ?_, rfl, e3, e4, e5⟩
  unfold plotTable
  simp only [h1, h2, e1, e2]

/-- A run that saves the table of each target. -/
def env : Env Nat Unit (List String) String :=
  { Run.Demo.env [] with
    loadCsv := fun _ => .ok ["B", "A"]
    items := fun t => [("table", .dict [("table", .table t [("a", 1, none)])])] }

theorem env_storable (t : String) : Storable (fun s => some s) (.dict (env.items t)) := by
  simp only [env, Storable, StorableAll, and_true]
  simp [namesOf]
  refine ⟨by decide, ⟨by decide, by decide⟩, by decide, ?_⟩
  exact ⟨by decide, by decide, by decide, by simp⟩

/-- After a run of two targets the command draws both, in alphabetical order. -/
theorem plotted : ∃ f : String → Fig ℚ, ∃ sorted : List String, sorted.Perm ["B", "A"] ∧ sorted.Pairwise (· ≤ ·) ∧
    (command List.dedup (fun _ => none) (fun id => ⟨some id, two, fun _ => false⟩) { input := Run.Demo.pOut, out := "/fig" }
      ⟨(pipeline env (Run.Demo.args true) Run.Demo.disk).1.cur, []⟩).2 = .ok (sorted.map f) := by
  refine ⟨fun n => (two_drawn n).choose, ?_⟩
  obtain ⟨sorted, h1, h2, h3, _⟩ := run_then_plot (fun s => some s) env Run.Demo.plain () rfl (by rfl) rfl ["B", "A"] rfl ["B", "A"] (by rfl) (by simp)
    (by decide) (fun t _ => env_storable t) id (fun _ => [("a", 1, none)]) (by intro t _; simp [env]) List.dedup (fun _ => none)
    (fun id => ⟨some id, two, fun _ => false⟩) "/fig" (fun n => (two_drawn n).choose) (fun t _ => (two_drawn t).choose_spec.1)
  exact ⟨sorted, h1, by simpa [env, Run.Demo.env] using h2, h3⟩

/-- Curves on one grid: the efficiency is the product. -/
theorem product : ∃ x, efficiencyOf (⟨([1, 2, 3], [1 / 2, 1, 0]), ([1, 2, 3], [1 / 2, 1 / 4, 1])⟩ : Built ℚ) = .ok x ∧ x.pce.data = [1 / 4, 1 / 4, 0] := by
  have key : ∀ x : Except Exc (Efficiency ℚ), (match x with | .ok y => decide (y.pce.data = [1 / 4, 1 / 4, 0]) | _ => false) = true →
      ∃ y, x = .ok y ∧ y.pce.data = [1 / 4, 1 / 4, 0] := by
    intro x h
    cases x with
    | error e => simp at h
    | ok y => exact ⟨y, rfl, by simpa using h⟩
  exact key _ (by decide +kernel)

end ExoRad.Plotter.Demo

namespace ExoRad.Build.Demo
open Pipeline Plotter

noncomputable section
open Classical in
/-- The instrument of `BuildDemo`: built, its efficiency is drawn, and plotting changes no result. -/
theorem demo_plots : ∃ fuel bs, buildAll fuel env common [phot, spec] = some (.ok bs) ∧
    (∃ es bands ticks, (efficiencyPlot List.dedup (bs.map Built.table) (bs.map Whole.efficiencyData)).2 = .ok (some (es, bands, ticks))) ∧
    ∀ (level : Level) (w : World) (p : Payload) (o : RunOpts), DrawsAs List.dedup o → (∀ f, o.save f = .ok ()) → o.outDir ≠ none → ∀ ts : List Target,
      (∀ t ∈ ts, t.table = none) → ∀ nThread sched,
      observeTargetlist w p o nThread sched ⟨bs.map Built.table, level⟩ ts = observeTargetlist w p { o with plot := false } nThread sched ⟨bs.map Built.table, level⟩ ts := by
  have ho : Enumerates (List.dedup : List (Cell ℝ) → List (Cell ℝ)) := fun l => ⟨List.nodup_dedup l, fun _ => List.mem_dedup⟩
  have hs : ∀ d ∈ [phot, spec], SoundDescr env d := by
    intro d hd
    simp only [List.mem_cons, List.not_mem_nil, or_false] at hd
    rcases hd with rfl | rfl
    · exact sound_phot
    · exact sound_spec
  obtain ⟨fuel, bs, hb, _⟩ := demo_built
  refine ⟨fuel, bs, hb, ?_, ?_⟩
  · have hq : ∀ d ∈ [phot, spec], QeThere d := by
      intro d hd
      simp only [List.mem_cons, List.not_mem_nil, or_false] at hd
      rcases hd with rfl | rfl
      · exact complete_phot.qe
      · exact complete_spec.qe
    obtain ⟨es, bands, ticks, h, _⟩ := built_efficiency_plot List.dedup ho fuel env sound_env common sound_common [phot, spec] (by simp) hs bs hb (.inr hq)
    exact ⟨es, bands, ticks, h⟩
  · intro level w p o h1 h2 h3 ts ht nThread sched
    exact built_plots_never_matter List.dedup ho fuel env sound_env common [phot, spec] hs bs hb level w p o h1 h2 h3 ts ht nThread sched

end
end ExoRad.Build.Demo
