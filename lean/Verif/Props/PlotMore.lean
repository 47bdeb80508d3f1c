import Verif.Props.PlotRun
import Verif.Props.BuildNeeds
import Verif.Props.BuildOk
import Verif.Props.Run
import Verif.Model.Whole
import Verif.Lemmas.Stack
import Mathlib.Data.List.Dedup

/-! # Plots of built payloads, and what plotting leaves behind (C71, C85, C87, C88) -/

set_option linter.unusedSectionVars false

namespace ExoRad.Build
open Pipeline Plotter
open Whole (efficiencyData)

/-! ## Built channels can be drawn -/

theorem colN_num (l : List (Option ℝ)) : ∀ x ∈ colN l, ∃ v, x = Cell.num v := by
  intro x hx
  obtain ⟨y, _, rfl⟩ := List.mem_map.mp hx
  exact ⟨_, rfl⟩

/-- The table of a built channel has the columns of bins and otherwise numbers. -/
theorem built_placed {fuel : ℕ} {env : Env} (he : SoundEnv env) {c : Common} {loaded : Bool} {d : Descr} (hd : SoundDescr env d) {b : Built}
    (h : build fuel env c loaded d = some (.ok b)) : Placed b.table := by
  obtain ⟨_, st, h1, h2⟩ := build_inv h
  obtain ⟨n, hst⟩ := builder_sound he hd h1
  obtain ⟨els, total, trCol, tr, rads, slit, _, _, _, _, _, _, htab, _, _⟩ := buildPath_inv hst h2
  refine ⟨?_, ?_, ?_⟩
  · intro k cs hk hne
    have hm := Dict.mem_of_get? hk
    rw [htab] at hm
    simp only [stageTable, List.mem_append, List.mem_cons, List.not_mem_nil, or_false, Prod.mk.injEq] at hm
    rcases hm with (hm | hm) | hm
    · rcases hm with hm | hm | hm | hm | hm | hm | hm
      · exact absurd hm.1 hne
      all_goals first | (rw [hm.2]; exact col_num _) | (rw [hm.2]; exact colN_num _)
    · rw [hm.2]; exact colN_num _
    · rcases hm with hm | hm <;> (rw [hm.2]; exact col_num _)
  · rw [htab]; simp [stageTable, Dict.keys]
  · refine ⟨List.replicate st.bins.wl.length (.str d.noise.value), st.bins.left, st.bins.right, ?_, ?_, ?_, ?_, ?_, ?_⟩
    · intro e
      have := congrArg List.length e
      rw [List.length_replicate, hst.wl] at this
      exact absurd this hst.pos.ne'
    · rw [List.length_replicate, hst.wl, hst.left]
    · rw [List.length_replicate, hst.wl, hst.right]
    all_goals rw [htab]; simp [stageTable, Dict.get?]

theorem buildAll_each {fuel : ℕ} {env : Env} {c : Common} {ds : List Descr} {bs : List Built} (hb : buildAll fuel env c ds = some (.ok bs)) :
    ∀ b ∈ bs, ∃ d ∈ ds, build fuel env c false d = some (.ok b) := by
  have h := buildAll_mem hb
  clear hb
  induction h with
  | nil => simp
  | cons h1 _ ih =>
    intro b hbm
    rcases List.mem_cons.mp hbm with rfl | hbm
    · exact ⟨_, by simp, h1⟩
    · obtain ⟨d, h3, h4⟩ := ih b hbm
      exact ⟨d, List.mem_cons_of_mem _ h3, h4⟩

theorem buildAll_built {fuel : ℕ} {env : Env} {c : Common} {ds : List Descr} {bs : List Built} (hb : buildAll fuel env c ds = some (.ok bs)) :
    ∀ d ∈ ds, ∃ b ∈ bs, build fuel env c false d = some (.ok b) := by
  have h := buildAll_mem hb
  clear hb
  induction h with
  | nil => simp
  | cons h1 _ ih =>
    intro d hdm
    rcases List.mem_cons.mp hdm with rfl | hdm
    · exact ⟨_, by simp, h1⟩
    · obtain ⟨b, i1, i2⟩ := ih d hdm
      exact ⟨b, List.mem_cons_of_mem _ i1, i2⟩

/-- C71: a payload whose channels are built: plotting the targets changes no result of a list of targets, if figures can be saved. -/
theorem built_plots_never_matter (order : List (Cell ℝ) → List (Cell ℝ)) (ho : Enumerates order) (fuel : ℕ) (env : Env) (he : SoundEnv env) (c : Common)
    (ds : List Descr) (hd : ∀ d ∈ ds, SoundDescr env d) (bs : List Built) (hb : buildAll fuel env c ds = some (.ok bs)) (level : Level)
    (w : World) (p : Payload) (o : RunOpts) (hdr : DrawsAs order o) (hs : ∀ f, o.save f = .ok ()) (hdir : o.outDir ≠ none) (ts : List Target)
    (ht : ∀ t ∈ ts, t.table = none) (nThread : ℕ) (sched : List ℕ) :
    observeTargetlist w p o nThread sched ⟨bs.map Built.table, level⟩ ts = observeTargetlist w p { o with plot := false } nThread sched ⟨bs.map Built.table, level⟩ ts := by
  refine plots_never_matter order ho w p o hdr hs hdir ts _ ?_ ht nThread sched
  intro x hx
  obtain ⟨b, hbm, rfl⟩ := List.mem_map.mp hx
  obtain ⟨d, hdm, hdb⟩ := buildAll_each hb b hbm
  exact built_placed he (hd d hdm) hdb

theorem getTransmission_wellFormed {ch : Instrument.Chan ℝ} {wl data : List ℝ} {t : List (Option ℝ)} {s : Rebin.Signal ℝ}
    (h : Instrument.getTransmission ch wl data = .ok (t, s)) : s.wl = wl ∧ s.WellFormed := by
  unfold Instrument.getTransmission at h
  cases hm : Rebin.Signal.mk? wl data with
  | error e => simp [hm] at h
  | ok q =>
    obtain ⟨rfl, hw⟩ := (Rebin.mk?_ok _ _ _).mp hm
    simp only [hm] at h
    cases hf : ch.force with
    | none => simp [hf] at h
    | some f =>
      cases f with
      | false =>
        simp only [hf, Except.ok.injEq, Prod.mk.injEq] at h
        rw [← h.2]
        exact ⟨rfl, hw⟩
      | true =>
        simp only [hf, Except.ok.injEq, Prod.mk.injEq] at h
        rw [← h.2]
        refine ⟨rfl, ?_⟩
        unfold Rebin.Signal.WellFormed at hw ⊢
        simp only [Instrument.zeroOut, List.length_zipWith] at hw ⊢
        omega

theorem getQe_wellFormed {env : Env} {d : Descr} {q : Rebin.Signal ℝ} (h : getQe env d = .ok q) : q.WellFormed := by
  unfold getQe at h
  cases hq : d.qe with
  | constant v =>
    simp only [hq, Except.ok.injEq] at h
    subst h
    simp [Rebin.Signal.WellFormed, Instrument.constantQe]
  | data t =>
    simp only [hq] at h
    split at h
    · cases h
    · cases h
    · split at h
      · cases h
      · split at h
        · cases h
        · exact ((Rebin.mk?_ok _ _ _).mp h).2

/-- C88: the efficiency of a built channel can be drawn, if some element of its optical path emits (then the quantum efficiency was already
rebinned onto the grid of the transmission when the channel was built), or if the data of the quantum efficiency are on the grid of the detector
at two points. -/
theorem built_efficiency {fuel : ℕ} {env : Env} (he : SoundEnv env) {c : Common} {loaded : Bool} {d : Descr} (hd : SoundDescr env d) {b : Built}
    (h : build fuel env c loaded d = some (.ok b)) (hem : b.signals.signals ≠ [] ∨ QeThere d) :
    ∃ x, efficiencyOf (efficiencyData b) = .ok x ∧ x.transmission = b.ch.inst.tr ∧ x.qe = b.ch.inst.qe ∧ x.pce.wl = workGrid env d := by
  obtain ⟨_, st, h1, h2⟩ := build_inv h
  obtain ⟨n, hst⟩ := builder_sound he hd h1
  obtain ⟨els, total, trCol, tr, rads, slit, _, _, htr, _, _, hsig, _, hch, _⟩ := buildPath_inv hst h2
  obtain ⟨t1, t2⟩ := getTransmission_wellFormed htr
  have q1 := getQe_wellFormed (builder_inv h1).1
  obtain ⟨q, hq⟩ : ∃ q, st.qe.spectralRebin (workGrid env d) = .ok q := by
    rcases hem with hem | hem
    swap
    · obtain ⟨q0, q', a1, a2, _⟩ := getQe_ok he hd hem
      rw [(builder_inv h1).1, Except.ok.injEq] at a1
      rw [a1]
      exact ⟨q', a2⟩
    unfold Optics.computeSignal at hsig
    cases rads with
    | nil =>
      simp only [Optics.signalLoop, Except.ok.injEq] at hsig
      rw [← hsig] at hem
      exact absurd rfl hem
    | cons r rs =>
      unfold Optics.signalLoop at hsig
      simp only at hsig
      cases hq : st.qe.spectralRebin (workGrid env d) with
      | error e => simp [hq] at hsig
      | ok q => exact ⟨q, rfl⟩
  obtain ⟨g1, _, _⟩ := grid_sound he hd
  have h0 : (0 : ℝ) ∉ Rebin.diffs (workGrid env d) := fun h => lt_irrefl _ (Rebin.diffs_pos _ g1 0 h)
  obtain ⟨w1, w2⟩ := Rebin.spectralRebin_wellFormed _ _ _ h0 hq
  have e1 : b.ch.inst.tr = tr := by rw [hch]; rfl
  have e2 : b.ch.inst.qe = st.qe := by rw [hch]; rfl
  unfold efficiencyOf efficiencyData
  have m1 : Rebin.Signal.mk? tr.wl tr.data = .ok tr := (Rebin.mk?_ok _ _ _).mpr ⟨rfl, t2⟩
  have m2 : Rebin.Signal.mk? st.qe.wl st.qe.data = .ok st.qe := (Rebin.mk?_ok _ _ _).mpr ⟨rfl, q1⟩
  have hl : q.data.length = tr.data.length := by
    unfold Rebin.Signal.WellFormed at w1 t2
    rw [w1, w2, t2, t1]
  simp only [e1, e2, m1, m2]
  rw [t1, hq]
  simp only [hl, if_true]
  exact ⟨_, rfl, rfl, rfl, rfl⟩

theorem efficiencies_each : ∀ (bs : List (Plotter.Built ℝ)) (xs : List (Efficiency ℝ)), efficiencies bs = .ok xs → List.Forall₂ (fun b x => efficiencyOf b = .ok x) bs xs
  | [], xs, h => by cases h; exact .nil
  | b :: bs, xs, h => by
    unfold efficiencies at h
    cases h1 : efficiencyOf b with
    | error e => simp [h1] at h
    | ok x =>
      simp only [h1] at h
      cases h2 : efficiencies bs with
      | error e => simp [h2] at h
      | ok ys =>
        simp only [h2, Except.ok.injEq] at h
        subst h
        exact .cons h1 (efficiencies_each bs ys h2)

theorem efficiencies_data : ∀ (bs : List Built) (es : List (Efficiency ℝ)), List.Forall₂ (fun b x => efficiencyOf b = .ok x) (bs.map efficiencyData) es →
    (∀ b ∈ bs, ∀ y, efficiencyOf (efficiencyData b) = .ok y → y.transmission = b.ch.inst.tr ∧ y.qe = b.ch.inst.qe) →
    es.map Efficiency.transmission = bs.map (fun b => b.ch.inst.tr) ∧ es.map Efficiency.qe = bs.map (fun b => b.ch.inst.qe)
  | [], es, h, _ => by cases h; exact ⟨rfl, rfl⟩
  | b :: bs, es, h, hall => by
    rw [List.map_cons] at h
    cases h with
    | cons h1 h2 =>
      obtain ⟨i1, i2⟩ := efficiencies_data bs _ h2 (fun b hb => hall b (List.mem_cons_of_mem _ hb))
      obtain ⟨j1, j2⟩ := hall b (by simp) _ h1
      simp only [List.map_cons, i1, i2, j1, j2, and_self]

/-- C88: the efficiency figure has the curves of every channel, in order, over the bands of the table; without channels there is none, and no error. -/
theorem efficiency_figure (order : List (Cell ℝ) → List (Cell ℝ)) (ce : Bool) (t : Table ℝ) (chs : List (Plotter.Built ℝ)) :
    (chs = [] → plotEfficiency order ce t chs = .ok none) ∧
    ∀ r, plotEfficiency order ce t chs = .ok r → chs ≠ [] → ∃ es bands ticks, r = some (es, bands, ticks) ∧
      List.Forall₂ (fun b x => efficiencyOf b = .ok x) chs es ∧ plotBands order ce t = .ok (bands, ticks) := by
  refine ⟨fun h => by unfold plotEfficiency; rw [if_pos h], ?_⟩
  intro r h hne
  unfold plotEfficiency at h
  rw [if_neg hne] at h
  cases h1 : efficiencies chs with
  | error e => simp [h1] at h
  | ok es =>
    simp only [h1] at h
    cases h2 : plotBands order ce t with
    | error e => simp [h2] at h
    | ok q =>
      obtain ⟨bands, ticks⟩ := q
      simp only [h2, Except.ok.injEq] at h
      exact ⟨es, bands, ticks, h.symm, efficiencies_each _ _ h1, rfl⟩

theorem efficiencies_ok : ∀ (bs : List (Plotter.Built ℝ)), (∀ b ∈ bs, ∃ x, efficiencyOf b = .ok x) → ∃ xs, efficiencies bs = .ok xs
  | [], _ => ⟨[], rfl⟩
  | b :: bs, h => by
    obtain ⟨x, hx⟩ := h b (by simp)
    obtain ⟨xs, hxs⟩ := efficiencies_ok bs (fun b hb => h b (by simp [hb]))
    exact ⟨x :: xs, by simp only [efficiencies, hx, hxs]⟩

/-- C71, C88: the efficiency plot of a built payload is drawn, with a band for every channel, if there are channels and each has an element that emits or
quantum efficiency data where its detector works. -/
theorem built_efficiency_plot (order : List (Cell ℝ) → List (Cell ℝ)) (ho : Enumerates order) (fuel : ℕ) (env : Env) (he : SoundEnv env) (c : Common)
    (hc : SoundCommon c) (ds : List Descr) (hne : ds ≠ []) (hd : ∀ d ∈ ds, SoundDescr env d) (bs : List Built) (hb : buildAll fuel env c ds = some (.ok bs))
    (hem : (∀ b ∈ bs, b.signals.signals ≠ []) ∨ ∀ d ∈ ds, QeThere d) :
    ∃ es bands ticks, (efficiencyPlot order (bs.map Built.table) (bs.map efficiencyData)).2 = .ok (some (es, bands, ticks)) ∧
      es.map Efficiency.transmission = bs.map (fun b => b.ch.inst.tr) ∧ es.map Efficiency.qe = bs.map (fun b => b.ch.inst.qe) ∧
      (bands.map Band.channel).Nodup ∧ ∀ x, x ∈ bands.map Band.channel ↔ ∃ d ∈ ds, x = .str d.noise.value := by
  obtain ⟨hl, _, hk, hfill⟩ := buildAll_fillable he hc hd hb
  have hbs : bs ≠ [] := by
    rintro rfl
    simp only [List.length_nil] at hl
    exact hne (List.length_eq_zero_iff.mp hl.symm)
  obtain ⟨r, ts', hv, _, _, _, hcol, _⟩ := Table.vstack_tables_complete (bs.map Built.table) (by simpa using hbs) (by
    intro t ht
    obtain ⟨b, hbm, rfl⟩ := List.mem_map.mp ht
    obtain ⟨d, hdm, hdb⟩ := buildAll_each hb b hbm
    obtain ⟨_, _, _, n, hn, hr⟩ := build_sound he hc (hd d hdm) hdb
    exact ⟨n, hn, (hr [] ⟨none, [], [], [], []⟩).table.rect⟩) hfill
  have hp : Placed r := (placed_stack hv (by
    intro t ht
    obtain ⟨b, hbm, rfl⟩ := List.mem_map.mp ht
    obtain ⟨d, hdm, hdb⟩ := buildAll_each hb b hbm
    exact built_placed he (hd d hdm) hdb)).1 r rfl
  obtain ⟨n, hn, ch, left, right, hbins⟩ := framed_bins hp.2
  obtain ⟨bands, ticks, hpb, hnd, hbm, _⟩ := bands_spec order ho true r n hn ch left right hbins
  obtain ⟨es, hes⟩ := efficiencies_ok (bs.map efficiencyData) (by
    intro x hx
    obtain ⟨b, hbm, rfl⟩ := List.mem_map.mp hx
    obtain ⟨d, hdm, hdb⟩ := buildAll_each hb b hbm
    obtain ⟨y, hy, _⟩ := built_efficiency he (hd d hdm) hdb (hem.imp (fun h => h b hbm) (fun h => h d hdm))
    exact ⟨y, hy⟩)
  have hfa := efficiencies_each _ _ hes
  have hdata : es.map Efficiency.transmission = bs.map (fun b => b.ch.inst.tr) ∧ es.map Efficiency.qe = bs.map (fun b => b.ch.inst.qe) := by
    have hall : ∀ b ∈ bs, ∀ y, efficiencyOf (efficiencyData b) = .ok y → y.transmission = b.ch.inst.tr ∧ y.qe = b.ch.inst.qe := by
      intro b hbm y hy
      obtain ⟨d, hdm, hdb⟩ := buildAll_each hb b hbm
      obtain ⟨z, hz, z1, z2, _⟩ := built_efficiency he (hd d hdm) hdb (hem.imp (fun h => h b hbm) (fun h => h d hdm))
      rw [hy, Except.ok.injEq] at hz
      rw [hz]
      exact ⟨z1, z2⟩
    exact efficiencies_data bs es hfa hall
  refine ⟨es, bands, ticks, ?_, hdata.1, hdata.2, hnd, ?_⟩
  · unfold efficiencyPlot
    rw [hv]
    simp only [Option.getD_some]
    unfold plotEfficiency
    rw [if_neg (by simpa using hbs), hes]
    simp only [hpb]
  · intro x
    rw [hbm]
    have hchn := hcol "chName" (Dict.mem_keys_of_get? hbins.1)
    rw [hbins.1, Option.some.injEq] at hchn
    have hx : (∃ i < n, ch i = x) ↔ x ∈ Table.stackedCol (bs.map Built.table) "chName" := by
      rw [← hchn, List.mem_map]
      simp only [List.mem_range]
    rw [hx]
    have hone : ∀ d ∈ ds, ∀ b, build fuel env c false d = some (.ok b) →
        ∃ m, 0 < m ∧ b.table.get? "chName" = some (List.replicate m (.str d.noise.value)) := by
      intro d hdm b hdb
      obtain ⟨_, st, h1, h2⟩ := build_inv hdb
      obtain ⟨m, hst⟩ := builder_sound he (hd d hdm) h1
      obtain ⟨els, total, trCol, tr, rads, slit, _, _, _, _, _, _, htab, _, _⟩ := buildPath_inv hst h2
      refine ⟨st.bins.wl.length, by rw [hst.wl]; exact hst.pos, ?_⟩
      rw [htab]; simp [stageTable, Dict.get?]
    unfold Table.stackedCol
    simp only [List.mem_map, exists_exists_and_eq_and, List.mem_flatMap]
    constructor
    · rintro ⟨b, hbm, hxb⟩
      obtain ⟨d, hdm, hdb⟩ := buildAll_each hb b hbm
      obtain ⟨m, _, hm⟩ := hone d hdm b hdb
      rw [hm] at hxb
      exact ⟨d, hdm, (List.mem_replicate.mp hxb).2⟩
    · rintro ⟨d, hdm, rfl⟩
      obtain ⟨b, hbm, hdb⟩ := buildAll_built hb d hdm
      obtain ⟨m, hm0, hm⟩ := hone d hdm b hdb
      refine ⟨b, hbm, ?_⟩
      rw [hm]
      exact List.mem_replicate.mpr ⟨hm0.ne', rfl⟩

end ExoRad.Build

namespace ExoRad.Pipeline
open Table Plotter

/-! ## What the efficiency plot leaves behind -/

/-- C71: the tables of the channels after the efficiency plot may have more columns, but an observation makes the same of them. -/
theorem observe_after_efficiency (order : List (Cell ℝ) → List (Cell ℝ)) (w : World) (p : Payload) (tabs : List (Table ℝ)) (chs : List (Plotter.Built ℝ)) (t : Target) :
    observe w p (efficiencyPlot order tabs chs).1 t = observe w p tabs t := by
  unfold efficiencyPlot
  cases h : vstackTables tabs with
  | error e => rfl
  | ok q =>
    obtain ⟨r, tabs'⟩ := q
    simp only
    have h' := vstackTables_again tabs r tabs' h
    have hp : prepareTarget ⟨tabs', t⟩ = prepareTarget ⟨tabs, t⟩ := by
      unfold prepareTarget
      simp only [h, h']
      cases r <;> rfl
    unfold observe
    have hs : runSteps (steps w p) ⟨tabs', t⟩ = runSteps (steps w p) ⟨tabs, t⟩ := by
      unfold steps
      simp only [List.cons_append, runSteps]
      rw [hp]
    rw [hs]

theorem pipeline_after_efficiency (order : List (Cell ℝ) → List (Cell ℝ)) (w : World) (p : Payload) (o : RunOpts) (tabs : List (Table ℝ)) (chs : List (Plotter.Built ℝ))
    (level : Level) (t : Target) : pipelineToDict w p o ⟨(efficiencyPlot order tabs chs).1, level⟩ t = pipelineToDict w p o ⟨tabs, level⟩ t := by
  unfold pipelineToDict
  rw [observe_after_efficiency]

/-- C71: the results of a list of targets are the same with and without the efficiency plot before. -/
theorem results_after_efficiency (order : List (Cell ℝ) → List (Cell ℝ)) (w : World) (p : Payload) (o : RunOpts) (tabs : List (Table ℝ)) (chs : List (Plotter.Built ℝ))
    (level : Level) (ts : List Target) (nThread : ℕ) (sched : List ℕ) :
    (observeTargetlist w p o nThread sched ⟨(efficiencyPlot order tabs chs).1, level⟩ ts).2 = (observeTargetlist w p o nThread sched ⟨tabs, level⟩ ts).2 := by
  have hl : (runList w p o ⟨(efficiencyPlot order tabs chs).1, level⟩ ts).2 = (runList w p o ⟨tabs, level⟩ ts).2 := by
    cases ts with
    | nil => rfl
    | cons t ts =>
      unfold runList
      rw [pipeline_after_efficiency]
  have hp : ∀ (is : List Nat) (done : Dict Nat (Option Target)),
      poolLoop w p o ⟨(efficiencyPlot order tabs chs).1, level⟩ ts is done = poolLoop w p o ⟨tabs, level⟩ ts is done := by
    intro is
    induction is with
    | nil => intro done; rfl
    | cons i is ih =>
      intro done
      unfold poolLoop
      cases hi : ts[i]? with
      | none => exact ih done
      | some t =>
        simp only
        rw [pipeline_after_efficiency]
        exact ih _
  unfold observeTargetlist runPool
  split
  · simp only [hp]
  · simp only [hl]

end ExoRad.Pipeline

namespace ExoRad.Plotter
variable {α : Type} [Field α] [LinearOrder α] [IsStrictOrderedRing α]

/-! ## Bounds of the efficiency -/

/-- C88: with transmission and quantum efficiency between 0 and 1, the photon conversion efficiency is too, and never above the transmission. -/
theorem efficiency_bounds (b : Built α) (x : Efficiency α) (h : efficiencyOf b = .ok x) (ht : ∀ v ∈ b.tr.2, 0 ≤ v ∧ v ≤ 1) (hq : ∀ v ∈ b.qe.2, 0 ≤ v ∧ v ≤ 1) :
    ∀ j < b.tr.1.length, 0 ≤ x.pce.data.getD j 0 ∧ x.pce.data.getD j 0 ≤ b.tr.2.getD j 0 ∧ x.pce.data.getD j 0 ≤ 1 := by
  obtain ⟨_, h2, _, h4, _, h6, q, h7, h8, h9⟩ := efficiency_curves b x h
  intro j hj
  have hb := Rebin.spectralRebin_bounds x.qe q b.tr.1 0 1 le_rfl zero_le_one (by rw [h4]; exact hq) h7
  have hqj : 0 ≤ q.data.getD j 0 ∧ q.data.getD j 0 ≤ 1 := by
    have hjl : j < q.data.length := by rw [h8]; exact hj
    rw [List.getD_eq_getElem _ _ hjl]
    exact hb _ (List.getElem_mem hjl)
  have htj : 0 ≤ b.tr.2.getD j 0 ∧ b.tr.2.getD j 0 ≤ 1 := by
    by_cases hjl : j < b.tr.2.length
    · rw [List.getD_eq_getElem _ _ hjl]
      exact ht _ (List.getElem_mem hjl)
    · rw [List.getD_eq_default _ _ (by omega)]
      exact ⟨le_rfl, zero_le_one⟩
  rw [h9 j]
  have hle : b.tr.2.getD j 0 * q.data.getD j 0 ≤ b.tr.2.getD j 0 := mul_le_of_le_one_right htj.1 hqj.2
  exact ⟨mul_nonneg htj.1 hqj.1, hle, hle.trans htj.2⟩

namespace Demo

/-- A quantum efficiency that is given only outside the grid of the transmission. -/
def apart : Built ℚ := ⟨([1, 2], [1, 1]), ([5, 6], [1, 1])⟩

/-- C71, C88: the efficiency plot can end a run: the curves need not overlap, unless an emitting element made sure of it. -/
theorem efficiency_can_fail : ∃ e, efficiencyOf apart = .error e := by
  have h : ∀ x : Except Exc (Efficiency ℚ), x.toOption = none → ∃ e, x = .error e := by
    intro x hx
    cases x with
    | error e => exact ⟨e, rfl⟩
    | ok y => cases hx
  apply h
  have : (efficiencyOf apart).toOption.isNone = true := by decide +kernel
  simpa using this

/-- Two channels. -/
def two : Table ℚ := [("chName", [.str "A", .str "B"]), ("Wavelength", [.num (.fin 1), .num (.fin 3)]),
  ("LeftBinEdge", [.num (.fin (1/2)), .num (.fin 2)]), ("RightBinEdge", [.num (.fin 2), .num (.fin 4)]),
  ("star_signal_inAperture", [.num (.fin 8), .num (.fin 2)]), ("total_noise", [.num (.fin 5), .num (.fin 6)]),
  ("dark_noise", [.num (.fin 4), .num (.fin 1)])]

/-- C87: the ticks depend on the order in which the set of channels is gone through: the last one is the end of the last channel. -/
theorem ticks_differ : ∃ o o' : List (Cell ℚ) → List (Cell ℚ), Enumerates o ∧ Enumerates o' ∧ ∃ f f', plotTable o true ⟨some "x", two, fun _ => false⟩ = .ok f ∧
    plotTable o' true ⟨some "x", two, fun _ => false⟩ = .ok f' ∧ f.signal.ticks ≠ f'.signal.ticks := by
  refine ⟨List.dedup, fun l => l.dedup.reverse, ?_, ?_, ?_⟩
  · intro l
    exact ⟨List.nodup_dedup l, fun x => List.mem_dedup⟩
  · intro l
    exact ⟨List.nodup_reverse.mpr (List.nodup_dedup l), fun x => by rw [List.mem_reverse]; exact List.mem_dedup⟩
  · have key : ∀ x y : Except Exc (Fig ℚ), (match x, y with | .ok f, .ok f' => decide (f.signal.ticks ≠ f'.signal.ticks) | _, _ => false) = true →
        ∃ f f', x = .ok f ∧ y = .ok f' ∧ f.signal.ticks ≠ f'.signal.ticks := by
      intro x y hxy
      cases x with
      | error e => simp at hxy
      | ok f =>
        cases y with
        | error e => simp at hxy
        | ok f' => exact ⟨f, f', rfl, rfl, by simpa using hxy⟩
    apply key
    decide +kernel

end Demo
end ExoRad.Plotter
