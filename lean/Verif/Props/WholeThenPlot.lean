import Verif.Props.WholePlots
import Verif.Props.PlotCommand

/-!
# A whole run, and the plot command on its output: C109
-/

set_option linter.unusedSectionVars false

namespace ExoRad.Pipeline
open Plotter

/-- A table that can be drawn: the columns of bins, otherwise numbers, and the star's light. -/
def Pictured (t : Target) : Prop := ∃ r, t.table = some r ∧ Placed r ∧ "star_signal_inAperture" ∈ r.keys

theorem pipelineToDict_pictured (w : World) (p : Payload) (o : RunOpts) (s : Shared) (t : Target) (hp : ∀ x ∈ s.tabs, Placed x) (ht : t.table = none) :
    (∀ x ∈ (pipelineToDict w p o s t).1.tabs, Placed x) ∧ ∀ t', (pipelineToDict w p o s t).2 = some t' → Pictured t' := by
  obtain ⟨h1, h2⟩ := observe_sound w p s.tabs t (by rw [ht]; simp) hp
  unfold pipelineToDict
  revert h1 h2
  generalize observe w p s.tabs t = q
  obtain ⟨tabs, q⟩ := q
  intro h1 h2
  cases q with
  | error e => exact ⟨h1, by simp⟩
  | ok t' =>
    simp only
    cases plotTarget o t' with
    | error e => exact ⟨h1, by simp⟩
    | ok _ =>
      refine ⟨h1, fun u hu => ?_⟩
      simp only [Option.some.injEq] at hu
      subst hu
      exact h2 t' rfl

theorem runList_pictured (w : World) (p : Payload) (o : RunOpts) : ∀ (ts : List Target) (s : Shared), (∀ x ∈ s.tabs, Placed x) → (∀ t ∈ ts, t.table = none) →
    ∀ t', some t' ∈ (runList w p o s ts).2 → Pictured t'
  | [], s, _, _ => by simp [runList]
  | t :: ts, s, hp, ht => by
    obtain ⟨h1, h2⟩ := pipelineToDict_pictured w p o s t hp (ht t (by simp))
    have ih := runList_pictured w p o ts (pipelineToDict w p o s t).1 h1 (fun u hu => ht u (by simp [hu]))
    unfold runList
    intro t' hm
    rcases List.mem_cons.mp hm with e | hm
    · exact h2 t' e.symm
    · exact ih t' hm

theorem mem_collected (rs : List (Option Target)) (t : Target) (h : some t ∈ (collect rs).map Prod.snd) : some t ∈ rs := by
  obtain ⟨q, hq, e⟩ := List.mem_map.mp h
  rcases collect_mem rs [] q hq with h | h
  · cases h
  · rwa [← e]

/-- Every target that was observed has a table that can be drawn. -/
theorem results_pictured (w : World) (p : Payload) (o : RunOpts) (nThread : ℕ) (sched : List ℕ) (s : Shared) (ts : List Target) (hp : ∀ x ∈ s.tabs, Placed x)
    (ht : ∀ t ∈ ts, t.table = none) (hs : ∀ i < ts.length, i ∈ sched) : ∀ t, some t ∈ (observeTargetlist w p o nThread sched s ts).2.map Prod.snd → Pictured t := by
  intro t h
  unfold observeTargetlist at h
  split at h
  · have hm := mem_collected _ t h
    rw [pool_results w p o s ts sched hs] at hm
    obtain ⟨x, hx, e⟩ := List.mem_map.mp hm
    exact (pipelineToDict_pictured w p o s x hp (ht x hx)).2 t e
  · exact runList_pictured w p o ts s hp ht t (mem_collected _ t h)

end ExoRad.Pipeline

namespace ExoRad.Whole
open Run Plotter

variable {u : String → Option String} {o : Outside} {pl : P}

/-- What astropy reads of the table of a target: its name and its columns. (Which of the columns are quantities is known from their units.) -/
def ReadsAs (decode : String → Input ℝ) (name : String) (r : Table ℝ) : Prop := ∃ sq, decode name = ⟨some name, r, sq⟩

/-- C109: a run as in `whole_file`, of at least one target, and after it the plot command with the run's output and the directory `dir`, for every target: it draws every target, in alphabetical order,
each from the columns the run saved for it, and changes no file but the figures. -/
theorem whole_then_plot (hu : Stores u o pl) (hs : SoundPayload o pl) (hfull : o.full = true → Elements o pl) (horder : Enumerates o.order)
    {a : Args P R} {fs : FS V} {p q out : Path} {fp fq : File V} (h : Plain a fs p q out fp fq)
    (hplot : o.opts.plot = a.plot) (hpl : loadXml o fp = .ok pl) {bs : List Build.Built}
    (hbs : Build.buildAll o.fuel (buildEnv o pl) pl.1.common (channelsOf pl) = some (.ok bs)) {tabs : List (Table ℝ)} (htabs : tables o bs = .ok tabs) {rows : R} (hrows : loadCsv o fq = .ok rows)
    (hsched : ∀ i < rows.length, i ∈ o.sched) (hk : KnowGrid o pl.2) (hn : (rows.map (fun row => (targetOf o row).name)).Nodup) (hne : rows ≠ [])
    (hobs : ∀ row ∈ rows, ∃ t, (Pipeline.observe (worldOf o pl) (payloadOf pl bs) tabs (targetOf o row)).2 = .ok t) :
    ∃ (g : Hdf5.Group V) (tab : String → Table ℝ), (run o a fs).1.cur.get? out = some (.h5 g) ∧ (∀ row ∈ rows, ∀ c, columnIn g (targetOf o row).name c = (tab (targetOf o row).name).get? c) ∧
      ∀ (int : List Char → Option Int) (decode : String → Input ℝ) (dir : String), (∀ row ∈ rows, ReadsAs decode (targetOf o row).name (tab (targetOf o row).name)) →
      ∃ (names : List String) (fig : String → Fig ℝ), names.Perm (rows.map (fun row => (targetOf o row).name)) ∧ names.Pairwise (· ≤ ·) ∧
        (∀ row ∈ rows, plotTable o.order true (decode (targetOf o row).name) = .ok (fig (targetOf o row).name) ∧ (fig (targetOf o row).name).title = (targetOf o row).name) ∧
        (command o.order int decode { input := out, out := dir } ⟨(run o a fs).1.cur, []⟩).2 = .ok (names.map fig) ∧
        AllThere dir names (command o.order int decode { input := out, out := dir } ⟨(run o a fs).1.cur, []⟩).1.cur ∧
        OnlyFigures dir names (run o a fs).1.cur (command o.order int decode { input := out, out := dir } ⟨(run o a fs).1.cur, []⟩).1.cur := by
  classical
  have hp0 : o.opts.plot = false := by rw [hplot, h.noplot]
  obtain ⟨res, hres⟩ : ∃ res : TargetList.Target ℝ → Pipeline.Target, ∀ row ∈ rows,
      (Pipeline.observe (worldOf o pl) (payloadOf pl bs) tabs (targetOf o row)).2 = .ok (res row) := by
    refine ⟨fun row => if hr : row ∈ rows then (hobs row hr).choose else targetOf o row, fun row hr => ?_⟩
    simp only [dif_pos hr]
    exact (hobs row hr).choose_spec
  obtain ⟨tabs', ht1, ht2, ht3⟩ := tables_ok hs hfull hbs
  have et : tabs' = tabs := by
    rw [htabs] at ht1
    exact (Except.ok.inj ht1).symm
  subst et
  obtain ⟨ts, e1, e2, e3, e4⟩ := observed hu hs hbs htabs ht2 ht3 hp0 rows hsched hk hn res hres
  have hrange : (env o).range pl = .ok () := by
    show separate o pl = _
    unfold separate
    simp only [hbs, htabs]
  have hnames : ts.map Pipeline.Target.name = rows.map (fun row => (targetOf o row).name) := by
    apply List.ext_getElem
    · simp [e4.length_eq]
    · intro i h1 h2
      simp only [List.length_map] at h1 h2
      simp only [List.getElem_map]
      have hsame : Pipeline.SameTarget ts[i] (res rows[i]) := (List.forall₂_iff_get.mp e4).2 i h2 h1
      exact hsame.name.trans (observe_name (hres _ (List.getElem_mem _)))
  -- every target has a table that can be drawn
  have hpic : ∀ t ∈ ts, Pipeline.Pictured t := by
    intro t ht
    obtain ⟨w, hw⟩ := on_some o.setting o.start pl.2 (payloadOf pl bs) o.nThread o.sched (rows.map (targetOf o))
    refine Pipeline.results_pictured w (payloadOf pl bs) o.opts o.nThread o.sched ⟨tabs', .info⟩ (rows.map (targetOf o)) (fun x hx => ((tables_placed hs hfull hbs htabs).2.1 x hx).1) (by
      intro t ht
      obtain ⟨row, _, rfl⟩ := List.mem_map.mp ht
      rfl) (by simpa using hsched) t ?_
    rw [← hw]
    have e0 : (observe o pl rows).2 = (Pipeline.observeTargetlistOn o.start o.setting pl.2 (payloadOf pl bs) o.opts o.nThread o.sched ⟨tabs', .info⟩ (rows.map (targetOf o))).2 := by
      unfold observe observeList startOf
      simp only [hbs, htabs, hp0, Bool.false_eq_true, if_false]
    rw [← e0]
    have e1' : (observe o pl rows).2.map Prod.snd = ts.map some := e1
    rw [e1']
    exact List.mem_map.mpr ⟨t, ht, rfl⟩
  have hstor : ∀ t ∈ ts, Hdf5.Storable u (.dict (items o t)) := fun t ht => items_storable hu (e3 t ht)
  obtain ⟨h1, g, h2, _, h3⟩ := run_saves_all u (env o) h pl hpl (payload_ok hu hs hbs) hrange rows hrows ts e1 e2 hstor
  -- the table of a name
  let tab : String → Table ℝ := fun n => ((ts.find? (fun t => decide (t.name = n))).bind Pipeline.Target.table).getD []
  have htab : ∀ t ∈ ts, t.table = some (tab t.name) := by
    intro t ht
    have hf : ts.find? (fun t' => decide (t'.name = t.name)) = some t := by
      have hsome : (ts.find? (fun t' => decide (t'.name = t.name))).isSome := by
        rw [List.find?_isSome]
        exact ⟨t, ht, by simp⟩
      obtain ⟨x, hx⟩ := Option.isSome_iff_exists.mp hsome
      have hxn : x.name = t.name := by simpa using List.find?_some hx
      rw [hx, List.inj_on_of_nodup_map e2 (List.mem_of_find?_eq_some hx) ht hxn]
    obtain ⟨r, hr, _⟩ := hpic t ht
    simp only [tab, hf, Option.bind_some, hr, Option.getD_some]
  refine ⟨g, tab, h2, ?_, ?_⟩
  · intro row hrow c
    have hm : (targetOf o row).name ∈ ts.map Pipeline.Target.name := by rw [hnames]; exact List.mem_map.mpr ⟨row, hrow, rfl⟩
    obtain ⟨t, ht, e⟩ := List.mem_map.mp hm
    rw [← e]
    exact columnIn_items (htab t ht) (hu.rest _).2 (h3 t ht) c
  · intro int decode dir hdec
    have hfig : ∀ t ∈ ts, ∃ f, plotTable o.order true (decode t.name) = .ok f ∧ f.title = t.name := by
      intro t ht
      have hm : t.name ∈ rows.map (fun row => (targetOf o row).name) := by rw [← hnames]; exact List.mem_map.mpr ⟨t, ht, rfl⟩
      obtain ⟨row, hrow, e⟩ := List.mem_map.mp hm
      obtain ⟨sq, hsq⟩ := hdec row hrow
      rw [e] at hsq
      rw [hsq]
      obtain ⟨r, hr, hpl, hst⟩ := hpic t ht
      have : tab t.name = r := by
        have := htab t ht
        rw [hr] at this
        exact (Option.some.inj this).symm
      rw [this]
      exact Pipeline.placed_drawable o.order horder true hpl hst t.name sq
    have hne' : ∃ t, t ∈ ts := List.exists_mem_of_ne_nil ts (by
      rintro rfl
      exact hne (by simpa using hnames))
    have hall : ∀ n, ∃ f, ∀ t ∈ ts, t.name = n → plotTable o.order true (decode n) = .ok f ∧ f.title = n := by
      intro n
      by_cases hx : ∃ t ∈ ts, t.name = n
      · obtain ⟨t, ht, rfl⟩ := hx
        obtain ⟨f, hf⟩ := hfig t ht
        exact ⟨f, fun _ _ _ => hf⟩
      · obtain ⟨t, ht⟩ := hne'
        obtain ⟨f, _⟩ := hfig t ht
        exact ⟨f, fun t ht e => absurd ⟨t, ht, e⟩ hx⟩
    choose fig hfig' using hall
    have hfg : ∀ t ∈ ts, plotTable o.order true (decode t.name) = .ok (fig t.name) ∧ (fig t.name).title = t.name := fun t ht => hfig' t.name t ht rfl
    obtain ⟨sorted, k1, k2, k3, k4, k5⟩ := run_then_plot u (env o) h pl hpl (payload_ok hu hs hbs) hrange rows hrows ts e1 (by
        rintro rfl
        exact hne (by simpa using hnames)) e2 hstor Pipeline.Target.name (fun t => (tab t.name).map (fun c => (c.1, c.2, o.unit c.1))) (by
        intro t ht
        show _ ∈ items o t
        unfold items
        rw [htab t ht]
        simp) o.order int decode dir (fun t => fig t.name) (fun t ht => (hfg t ht).1)
    have hperm : (sorted.map Pipeline.Target.name).Perm (rows.map (fun row => (targetOf o row).name)) := by
      rw [← hnames]
      exact k1.map _
    refine ⟨sorted.map Pipeline.Target.name, fig, hperm, k2, ?_, ?_, ?_, ?_⟩
    · intro row hrow
      have hm : (targetOf o row).name ∈ ts.map Pipeline.Target.name := by rw [hnames]; exact List.mem_map.mpr ⟨row, hrow, rfl⟩
      obtain ⟨t, ht, e⟩ := List.mem_map.mp hm
      rw [← e]
      exact hfg t ht
    · rw [List.map_map]
      exact k3
    · intro n hn
      exact k4 n ((k1.map _).mem_iff.mp hn)
    · intro x hx
      exact k5 x (fun n hn => hx n ((k1.map _).mem_iff.mpr hn))

/-- C109: the run of `whole_contrib` on at least one star, and the plot command after it. -/
theorem black_then_plot (hu : Stores u o pl) (hs : SoundPayload o pl) (hel : Elements o pl) (hpp : 0 < o.build.perPhoton) (hat : 0 < pl.1.common.atel) (hds : channelsOf pl ≠ [])
    (hcp : ∀ d ∈ channelsOf pl, Build.Complete (buildEnv o pl) pl.1.common d) (hw : Build.PayloadWorld (worldOf o pl) pl.1.wlMin pl.1.wlMax pl.2)
    (hin : ∀ d ∈ channelsOf pl, Build.Within pl.1.wlMin pl.1.wlMax pl.2 d) {well fw freq dark rn : NoiseChannel → ℝ}
    (hbud : Build.Budgets pl.1.common (channelsOf pl) well fw freq dark rn) {sec : Foreground.Section ℝ} (hsec : pl.1.foreground = some sec) {src : Source.Descr}
    (hsrc : pl.1.source = some src) (hby : src.bytes = false) (hcu : Source.lower src.value ≠ "custom") (hph : Source.lower src.value ≠ "phoenix")
    (hinst : ∀ kd ∈ sec.list, Foreground.nameOf kd ≠ "instrument") :
    ∃ fuel, ∀ m, fuel ≤ m → ∀ {a : Args P R} {fs : FS V} {p q out : Path} {fp fq : File V}, Plain a fs p q out fp fq →
      ∀ (x : Pipeline.RunOpts) (k : ℕ) (full : Bool), x.plot = a.plot → Enumerates o.order → loadXml o fp = .ok pl →
      ∀ {rows : R}, loadCsv o fq = .ok rows → (∀ i < rows.length, i ∈ o.sched) → (o.start = .fork ∨ k ≤ 1 ∨ pl.2 = 6000) → (rows.map (fun row => (targetOf o row).name)).Nodup → rows ≠ [] →
      (∀ row ∈ rows, Star o pl sec row) →
      ∃ (g : Hdf5.Group V) (tab : String → Table ℝ), (run { o with fuel := m, opts := x, nThread := k, full := full } a fs).1.cur.get? out = some (.h5 g) ∧ (∀ row ∈ rows, ∀ c, columnIn g (targetOf o row).name c = (tab (targetOf o row).name).get? c) ∧
      ∀ (int : List Char → Option Int) (decode : String → Input ℝ) (dir : String), (∀ row ∈ rows, ReadsAs decode (targetOf o row).name (tab (targetOf o row).name)) →
      ∃ (names : List String) (fig : String → Fig ℝ), names.Perm (rows.map (fun row => (targetOf o row).name)) ∧ names.Pairwise (· ≤ ·) ∧
        (∀ row ∈ rows, plotTable o.order true (decode (targetOf o row).name) = .ok (fig (targetOf o row).name) ∧ (fig (targetOf o row).name).title = (targetOf o row).name) ∧
        (command o.order int decode { input := out, out := dir } ⟨(run { o with fuel := m, opts := x, nThread := k, full := full } a fs).1.cur, []⟩).2 = .ok (names.map fig) ∧
        AllThere dir names (command o.order int decode { input := out, out := dir } ⟨(run { o with fuel := m, opts := x, nThread := k, full := full } a fs).1.cur, []⟩).1.cur ∧
        OnlyFigures dir names (run { o with fuel := m, opts := x, nThread := k, full := full } a fs).1.cur (command o.order int decode { input := out, out := dir } ⟨(run { o with fuel := m, opts := x, nThread := k, full := full } a fs).1.cur, []⟩).1.cur := by
  obtain ⟨fuel, bs, tabs, hbs, htabs, hkey⟩ := stars_observed hs hel hpp hat hds hcp hw hin hbud hsec hsrc hby hcu hph hinst
  refine ⟨fuel, fun m hm a fs p q out fp fq hp x k full hplot ho hpl rows hrows hsched hk hn hne hstar => ?_⟩
  have hu' : Stores u { o with fuel := m, opts := x, nThread := k, full := full } pl :=
    ⟨hu.payload, hu.channels, hu.descr, hu.built, hu.rest, hu.units, hu.foregrounds, hu.custom, hu.own⟩
  have hs' : SoundPayload { o with fuel := m, opts := x, nThread := k, full := full } pl := ⟨hs.env, hs.common, hs.descr, hs.names⟩
  have hel' : Elements { o with fuel := m, opts := x, nThread := k, full := full } pl := ⟨hel.quiet, hel.plain⟩
  cases full with
  | false =>
    exact whole_then_plot hu' hs' (fun _ => hel') ho hp hplot hpl (hbs m hm) (tabs := bs.map Build.Built.table) (by simp [tables, Contrib.startTables]) hrows hsched hk hn hne
      (fun row hrow => by
        obtain ⟨t, _, _, _, ht, _⟩ := hkey row (hstar row hrow)
        exact ⟨t, ht⟩)
  | true =>
    exact whole_then_plot hu' hs' (fun _ => hel') ho hp hplot hpl (hbs m hm) (tabs := tabs) htabs hrows hsched hk hn hne
      (fun row hrow => by
        obtain ⟨_, t, _, _, _, ht, _⟩ := hkey row (hstar row hrow)
        exact ⟨t, ht⟩)

end ExoRad.Whole
