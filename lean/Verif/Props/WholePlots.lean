import Verif.Props.Whole
import Verif.Props.PlotContrib
import Verif.Props.RunPlots

/-!
# A whole run with figures: C109
-/

set_option linter.unusedSectionVars false

namespace ExoRad.Whole
open Run

variable {u : String → Option String} {o : Outside} {pl : P}

/-- Figures can be drawn and saved: the plotter is that of `Model/Plotter`, and no file it writes fails. -/
structure Draws (o : Outside) : Prop where
  order : Plotter.Enumerates o.order
  draw : Pipeline.DrawsAs o.order o.opts
  save : ∀ f, o.opts.save f = .ok ()

/-- The same with the option `plot`. -/
noncomputable def plotted (o : Outside) : Outside := { o with opts := { o.opts with plot := true } }

/-- The tables the targets are observed with have the columns of bins and otherwise numbers, and can be stacked. -/
theorem tables_placed (hs : SoundPayload o pl) (hfull : o.full = true → Elements o pl) {bs : List Build.Built}
    (hbs : Build.buildAll o.fuel (buildEnv o pl) pl.1.common (channelsOf pl) = some (.ok bs)) {tabs : List (Table ℝ)} (htabs : tables o bs = .ok tabs) :
    tabs.length = bs.length ∧ (∀ t ∈ tabs, Pipeline.Placed t ∧ ∃ n, 0 < n ∧ Table.Rect t n) ∧ Table.Fillable tabs := by
  unfold tables Contrib.startTables at htabs
  cases hf : o.full with
  | false =>
    rw [hf] at htabs
    simp only [Bool.false_eq_true, if_false, Except.ok.injEq] at htabs
    subst htabs
    refine ⟨by simp, ?_, (Build.buildAll_fillable hs.env hs.common hs.descr hbs).2.2.2⟩
    intro t ht
    obtain ⟨b, hb, rfl⟩ := List.mem_map.mp ht
    obtain ⟨d, hdm, hdb⟩ := Build.buildAll_each hbs b hb
    obtain ⟨_, _, _, n, hn, hr⟩ := Build.build_sound hs.env hs.common (hs.descr d hdm) hdb
    exact ⟨Build.built_placed hs.env (hs.descr d hdm) hdb, n, hn, (hr [] ⟨none, [], [], [], []⟩).table.rect⟩
  | true =>
    rw [hf] at htabs
    simp only [if_true] at htabs
    obtain ⟨tabs', h1, h2, _⟩ := Build.split_tables hs.env hs.common hs.descr hs.names (hfull hf).quiet hbs
    rw [h1, Except.ok.injEq] at htabs
    subst htabs
    exact ⟨h2, Build.split_placed hs.env hs.common hs.descr hs.names (hfull hf).quiet hbs h1⟩

/-- The efficiency of the channels is drawn. -/
theorem efficiency_of (hs : SoundPayload o pl) (hfull : o.full = true → Elements o pl) (hne : channelsOf pl ≠ []) (hqe : ∀ d ∈ channelsOf pl, Build.QeThere d) (hd : Draws o)
    {bs : List Build.Built} (hbs : Build.buildAll o.fuel (buildEnv o pl) pl.1.common (channelsOf pl) = some (.ok bs)) {tabs : List (Table ℝ)} (htabs : tables o bs = .ok tabs) :
    drawEfficiency o pl = .ok true ∧ ∀ t ∈ (Plotter.efficiencyPlot o.order tabs (bs.map efficiencyData)).1, Pipeline.Placed t := by
  obtain ⟨hl, hp, hf⟩ := tables_placed hs hfull hbs htabs
  have hlen := (Build.buildAll_mem hbs).length_eq
  have hb0 : bs ≠ [] := by
    rintro rfl
    exact hne (List.length_eq_zero_iff.mp hlen)
  obtain ⟨⟨f, hfig⟩, h2⟩ := Build.efficiency_drawn o.order hd.order tabs (by
      rintro rfl
      exact hb0 (List.length_eq_zero_iff.mp hl.symm)) hp hf (bs.map efficiencyData) (by simpa using hb0) (by
      intro x hx
      obtain ⟨b, hb, rfl⟩ := List.mem_map.mp hx
      obtain ⟨d, hdm, hdb⟩ := Build.buildAll_each hbs b hb
      obtain ⟨y, hy, _⟩ := Build.built_efficiency hs.env (hs.descr d hdm) hdb (.inr (hqe d hdm))
      exact ⟨y, hy⟩)
  refine ⟨?_, h2⟩
  unfold drawEfficiency
  simp only [hbs, htabs, hfig]
  rfl

/-- The list as one of the two kinds of processes observes it. -/
theorem on_some (k : Pipeline.Setting) (m : Pipeline.Start) (R : ℕ) (p : Pipeline.Payload) (n : ℕ) (sched : List ℕ) (ts : List Pipeline.Target) :
    ∃ w, ∀ (x : Pipeline.RunOpts) (s : Pipeline.Shared), Pipeline.observeTargetlistOn m k R p x n sched s ts = Pipeline.observeTargetlist w p x n sched s ts := by
  by_cases hn : n ≤ 1
  · exact ⟨_, fun x s => Pipeline.on_one _ _ _ hn _ _⟩
  · cases m with
    | fork => exact ⟨_, fun x s => rfl⟩
    | fresh => exact ⟨_, fun x s => Pipeline.on_fresh _ _ (by omega) _ _⟩

/-- C109: figures change no result of a list of targets. -/
theorem observe_plotted (hs : SoundPayload o pl) (hfull : o.full = true → Elements o pl) (hne : channelsOf pl ≠ []) (hqe : ∀ d ∈ channelsOf pl, Build.QeThere d) (hd : Draws o)
    (hdir : o.opts.outDir ≠ none) (hplot : o.opts.plot = false) {bs : List Build.Built} (hbs : Build.buildAll o.fuel (buildEnv o pl) pl.1.common (channelsOf pl) = some (.ok bs))
    {tabs : List (Table ℝ)} (htabs : tables o bs = .ok tabs) (rows : R) : observe (plotted o) pl rows = observe o pl rows := by
  obtain ⟨_, hpl⟩ := efficiency_of hs hfull hne hqe hd hbs htabs
  have e : observeList (plotted o) pl bs (startOf (plotted o) bs tabs) rows = observeList o pl bs (startOf o bs tabs) rows := by
    obtain ⟨w, hw⟩ := on_some o.setting o.start pl.2 (payloadOf pl bs) o.nThread o.sched (rows.map (targetOf o))
    have e1 : observeList (plotted o) pl bs (startOf (plotted o) bs tabs) rows =
        (Pipeline.observeTargetlist w (payloadOf pl bs) { o.opts with plot := true } o.nThread o.sched ⟨(Plotter.efficiencyPlot o.order tabs (bs.map efficiencyData)).1, .info⟩ (rows.map (targetOf o))).2 := by
      rw [← hw]
      rfl
    have e2 : observeList o pl bs (startOf o bs tabs) rows = (Pipeline.observeTargetlist w (payloadOf pl bs) o.opts o.nThread o.sched ⟨tabs, .info⟩ (rows.map (targetOf o))).2 := by
      rw [← hw]
      unfold observeList startOf
      rw [hplot]
      rfl
    rw [e1, e2, Pipeline.plots_never_matter o.order hd.order w (payloadOf pl bs) { o.opts with plot := true } hd.draw hd.save hdir _ _ hpl (by
      intro t ht
      obtain ⟨row, _, rfl⟩ := List.mem_map.mp ht
      rfl), Pipeline.results_after_efficiency]
    have : ({ o.opts with plot := false } : Pipeline.RunOpts) = o.opts := by rw [← hplot]
    exact congrArg (fun x => (Pipeline.observeTargetlist w (payloadOf pl bs) x o.nThread o.sched ⟨tabs, .info⟩ (rows.map (targetOf o))).2) this
  have hbs' : Build.buildAll (plotted o).fuel (buildEnv (plotted o) pl) pl.1.common (channelsOf pl) = some (.ok bs) := hbs
  have htabs' : tables (plotted o) bs = .ok tabs := htabs
  unfold observe
  simp only [hbs, htabs, hbs', htabs', e]

/-- C109: a run as in `whole_file`, with figures. It ends without an exception, and its files are those of the run without figures and the figures: that of the efficiency and one for every row of the
list. (The name of the output file does not end with `.png`.) -/
theorem whole_figures (hu : Stores u o pl) (hs : SoundPayload o pl) (hfull : o.full = true → Elements o pl) (hne : channelsOf pl ≠ []) (hqe : ∀ d ∈ channelsOf pl, Build.QeThere d) (hd : Draws o)
    (hdir : o.opts.outDir ≠ none) {a : Args P R} {fs : FS V} {p q out : Path} {fp fq : File V} (h : Plain a fs p q out fp fq) (hout : ∀ n, out.base ≠ n ++ ".png")
    (hplot : o.opts.plot = a.plot) (hpl : loadXml o fp = .ok pl) {bs : List Build.Built}
    (hbs : Build.buildAll o.fuel (buildEnv o pl) pl.1.common (channelsOf pl) = some (.ok bs)) {tabs : List (Table ℝ)} (htabs : tables o bs = .ok tabs) {rows : R} (hrows : loadCsv o fq = .ok rows)
    (hsched : ∀ i < rows.length, i ∈ o.sched) (hk : KnowGrid o pl.2) (hn : (rows.map (fun row => (targetOf o row).name)).Nodup)
    (hobs : ∀ row ∈ rows, ∃ t, (Pipeline.observe (worldOf o pl) (payloadOf pl bs) tabs (targetOf o row)).2 = .ok t) :
    (run (plotted o) { a with plot := true } fs).2 = .ok () ∧
    SameBut out.dir ("efficiency" :: rows.map (fun row => (targetOf o row).name)) (run o a fs).1.cur (run (plotted o) { a with plot := true } fs).1.cur ∧
    Figures out.dir ("efficiency" :: rows.map (fun row => (targetOf o row).name)) (run (plotted o) { a with plot := true } fs).1.cur := by
  classical
  have hp0 : o.opts.plot = false := by rw [hplot, h.noplot]
  obtain ⟨res, hres⟩ : ∃ res : TargetList.Target ℝ → Pipeline.Target, ∀ row ∈ rows,
      (Pipeline.observe (worldOf o pl) (payloadOf pl bs) tabs (targetOf o row)).2 = .ok (res row) := by
    refine ⟨fun row => if hr : row ∈ rows then (hobs row hr).choose else targetOf o row, fun row hr => ?_⟩
    simp only [dif_pos hr]
    exact (hobs row hr).choose_spec
  obtain ⟨tabs', ht1, ht2, ht3⟩ := tables_ok hs hfull hbs
  have et : tabs' = tabs := by
    rw [htabs] at ht1
    exact (Except.ok.inj ht1).symm
  subst et
  obtain ⟨ts, e1, e2, e3, e4⟩ := observed hu hs hbs htabs ht2 ht3 hp0 rows hsched hk hn res hres
  have hnames : ts.map Pipeline.Target.name = rows.map (fun row => (targetOf o row).name) := by
    apply List.ext_getElem
    · simp [e4.length_eq]
    · intro i h1 h2
      simp only [List.length_map] at h1 h2
      simp only [List.getElem_map]
      have hsame : Pipeline.SameTarget ts[i] (res rows[i]) := (List.forall₂_iff_get.mp e4).2 i h2 h1
      exact hsame.name.trans (observe_name (hres _ (List.getElem_mem _)))
  have hobs1 : (observe o pl rows).1 = rows.map (fun row => (targetOf o row).name) := by
    have h1 : (observe o pl rows).1 = ((observe o pl rows).2.filterMap Prod.snd).map Pipeline.Target.name := by
      unfold observe
      simp only [hbs, htabs]
    have h2 : ∀ {l : Dict (Option String) (Option Pipeline.Target)} {ts : List Pipeline.Target}, l.map Prod.snd = ts.map some → l.filterMap Prod.snd = ts := by
      intro l ts h
      have : l.filterMap Prod.snd = (l.map Prod.snd).filterMap id := by simp [List.filterMap_map]
      rw [this, h]
      simp
    have e1' : (observe o pl rows).2.map Prod.snd = ts.map some := e1
    rw [h1, h2 e1', hnames]
  have hrange : (env o).range pl = .ok () := by
    show separate o pl = _
    unfold separate
    simp only [hbs, htabs]
  have hend := (whole_file hu hs hfull h hplot hpl hbs htabs hrows hsched hk hn hobs).1
  have hfig := run_with_figures (env o) h pl hpl (payload_ok hu hs hbs) hrange rows hrows (efficiency_of hs hfull hne hqe hd hbs htabs).1
    (fun n e => hout n (congrArg Path.base e)) (observe (plotted o)) (by rw [observe_plotted hs hfull hne hqe hd hdir hp0 hbs htabs]; rfl)
  have henv : ({ env o with observe := observe (plotted o) } : Env V P R Pipeline.Target) = env (plotted o) := rfl
  rw [henv, observe_plotted hs hfull hne hqe hd hdir hp0 hbs htabs, hobs1] at hfig
  exact ⟨hfig.1.trans hend, hfig.2⟩

/-- C109: the run of `whole_contrib`, with and without figures, with and without `full_contrib`. -/
theorem black_figures (hu : Stores u o pl) (hs : SoundPayload o pl) (hel : Elements o pl) (hpp : 0 < o.build.perPhoton) (hat : 0 < pl.1.common.atel) (hds : channelsOf pl ≠ [])
    (hcp : ∀ d ∈ channelsOf pl, Build.Complete (buildEnv o pl) pl.1.common d) (hw : Build.PayloadWorld (worldOf o pl) pl.1.wlMin pl.1.wlMax pl.2)
    (hin : ∀ d ∈ channelsOf pl, Build.Within pl.1.wlMin pl.1.wlMax pl.2 d) {well fw freq dark rn : NoiseChannel → ℝ}
    (hbud : Build.Budgets pl.1.common (channelsOf pl) well fw freq dark rn) {sec : Foreground.Section ℝ} (hsec : pl.1.foreground = some sec) {src : Source.Descr}
    (hsrc : pl.1.source = some src) (hby : src.bytes = false) (hcu : Source.lower src.value ≠ "custom") (hph : Source.lower src.value ≠ "phoenix")
    (hinst : ∀ kd ∈ sec.list, Foreground.nameOf kd ≠ "instrument") :
    ∃ fuel, ∀ m, fuel ≤ m → ∀ {a : Args P R} {fs : FS V} {p q out : Path} {fp fq : File V}, Plain a fs p q out fp fq → (∀ n, out.base ≠ n ++ ".png") →
      ∀ (x : Pipeline.RunOpts) (k : ℕ) (full : Bool), x.plot = a.plot → x.outDir ≠ none → Draws { o with opts := x } → loadXml o fp = .ok pl →
      ∀ {rows : R}, loadCsv o fq = .ok rows → (∀ i < rows.length, i ∈ o.sched) → (o.start = .fork ∨ k ≤ 1 ∨ pl.2 = 6000) → (rows.map (fun row => (targetOf o row).name)).Nodup →
      (∀ row ∈ rows, Star o pl sec row) →
      (run { o with fuel := m, opts := { x with plot := true }, nThread := k, full := full } { a with plot := true } fs).2 = .ok () ∧
      SameBut out.dir ("efficiency" :: rows.map (fun row => (targetOf o row).name)) (run { o with fuel := m, opts := x, nThread := k, full := full } a fs).1.cur
        (run { o with fuel := m, opts := { x with plot := true }, nThread := k, full := full } { a with plot := true } fs).1.cur ∧
      Figures out.dir ("efficiency" :: rows.map (fun row => (targetOf o row).name)) (run { o with fuel := m, opts := { x with plot := true }, nThread := k, full := full } { a with plot := true } fs).1.cur := by
  obtain ⟨fuel, bs, tabs, hbs, htabs, hkey⟩ := stars_observed hs hel hpp hat hds hcp hw hin hbud hsec hsrc hby hcu hph hinst
  refine ⟨fuel, fun m hm a fs p q out fp fq hp hout x k full hplot hdir hd hpl rows hrows hsched hk hn hstar => ?_⟩
  have hu' : Stores u { o with fuel := m, opts := x, nThread := k, full := full } pl :=
    ⟨hu.payload, hu.channels, hu.descr, hu.built, hu.rest, hu.units, hu.foregrounds, hu.custom, hu.own⟩
  have hs' : SoundPayload { o with fuel := m, opts := x, nThread := k, full := full } pl := ⟨hs.env, hs.common, hs.descr, hs.names⟩
  have hel' : Elements { o with fuel := m, opts := x, nThread := k, full := full } pl := ⟨hel.quiet, hel.plain⟩
  have hd' : Draws { o with fuel := m, opts := x, nThread := k, full := full } := ⟨hd.order, hd.draw, hd.save⟩
  have hqe : ∀ d ∈ channelsOf pl, Build.QeThere d := fun d hdm => (hcp d hdm).qe
  cases full with
  | false =>
    exact whole_figures hu' hs' (fun _ => hel') hds hqe hd' hdir hp hout hplot hpl (hbs m hm) (tabs := bs.map Build.Built.table) (by simp [tables, Contrib.startTables]) hrows hsched hk hn
      (fun row hrow => by
        obtain ⟨t, _, _, _, ht, _⟩ := hkey row (hstar row hrow)
        exact ⟨t, ht⟩)
  | true =>
    exact whole_figures hu' hs' (fun _ => hel') hds hqe hd' hdir hp hout hplot hpl (hbs m hm) (tabs := tabs) htabs hrows hsched hk hn
      (fun row hrow => by
        obtain ⟨_, t, _, _, _, ht, _⟩ := hkey row (hstar row hrow)
        exact ⟨t, ht⟩)

end ExoRad.Whole
