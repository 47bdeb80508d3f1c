import Verif.Props.PlotMore
import Verif.Props.ContribBuilt

/-!
# Figures of channels whose contributions are separate: C109
-/

set_option linter.unusedSectionVars false

namespace ExoRad.Build
open Table Pipeline Plotter
open Whole (efficiencyData)

theorem frame_not_swapped {k : String} (hk : k ∈ frame) : ¬ Contrib.Swapped k := by
  rintro (rfl | ⟨el, e⟩)
  · simp [frame] at hk
  · have h := congrArg (fun s : String => s.toList.reverse) e
    simp only [frame, List.mem_cons, List.not_mem_nil, or_false] at hk
    rcases hk with rfl | rfl | rfl | rfl <;> simp [String.toList_append] at h

/-- The tables with separate contributions have the columns of bins and otherwise numbers, and can be stacked. -/
theorem split_placed {fuel : ℕ} {env : Env} (he : SoundEnv env) {c : Common} (hc : SoundCommon c) {ds : List Descr} (hd : ∀ d ∈ ds, SoundDescr env d)
    (hnames : (ds.map (fun d => d.noise.value)).Nodup) (hq : QuietElements env c ds) {bs : List Built} (hbs : buildAll fuel env c ds = some (.ok bs)) {tabs : List (Table ℝ)}
    (h : Contrib.splitAll (bs.map Built.table) (bs.map (fun b => Contrib.signalTable b.signals)) = .ok tabs) :
    (∀ t ∈ tabs, Placed t ∧ ∃ n, 0 < n ∧ Rect t n) ∧ Fillable tabs := by
  obtain ⟨items, i1, i2, i3, i4⟩ := split_items he hc hd hnames hq hbs
  rw [i3, Except.ok.injEq] at h
  subst h
  have htab : ∀ it ∈ items, ∃ b ∈ bs, it.tab = b.table := by
    intro it hit
    have hm : it.tab ∈ bs.map Built.table := by rw [← i2]; exact List.mem_map.mpr ⟨it, hit, rfl⟩
    obtain ⟨b, hb, e⟩ := List.mem_map.mp hm
    exact ⟨b, hb, e.symm⟩
  obtain ⟨_, _, hcols, _⟩ := buildAll_fillable he hc hd hbs
  refine ⟨fun t ht => ?_, ?_⟩
  · rw [List.map_map] at ht
    obtain ⟨it, hit, rfl⟩ := List.mem_map.mp ht
    obtain ⟨hreal, d, hdm, hk, hp, ha⟩ := i4 it hit
    have hbt := Contrib.split_built hreal.table hp ha
    obtain ⟨b, hb, e⟩ := htab it hit
    obtain ⟨d', hdm', hdb⟩ := buildAll_each hbs b hb
    have hpl : Placed it.tab := e ▸ built_placed he (hd d' hdm') hdb
    simp only [Function.comp]
    have hget : ∀ k ∈ frame, (Contrib.splitObs (partsOf bs) it).tab.get? k = it.tab.get? k := fun k hk => Contrib.split_get_other hp (frame_not_swapped hk)
    refine ⟨⟨?_, ?_⟩, _, hbt.pos, hbt.rect⟩
    · intro k cs hkc hne x hx
      by_cases hs : Contrib.Swapped k
      · rcases hs with rfl | ⟨el, rfl⟩
        · exact absurd (Dict.mem_keys_of_get? hkc) (by rw [Contrib.split_keys]; simp)
        · rw [Contrib.split_get_part hp ha] at hkc
          obtain ⟨v, hv, _⟩ := (hp.cells _ (Dict.mem_of_get? hkc)).2 x hx
          exact ⟨_, hv⟩
      · rw [Contrib.split_get_other hp hs] at hkc
        exact hpl.1 k cs hkc hne x hx
    · obtain ⟨w, ch, l, r, f1, f2, f3, f4, f5, f6⟩ := hpl.2
      refine ⟨?_, ch, l, r, f1, f2, f3, ?_, ?_, ?_⟩
      · rw [Contrib.split_keys]
        exact ⟨.inl w, by decide⟩
      · rw [hget _ (by simp [frame]), f4]
      · rw [hget _ (by simp [frame]), f5]
      · rw [hget _ (by simp [frame]), f6]
  · intro t ht p hpt
    rw [List.map_map] at ht
    obtain ⟨it, hit, rfl⟩ := List.mem_map.mp ht
    obtain ⟨hreal, d, hdm, hk, hp, ha⟩ := i4 it hit
    have hbt := Contrib.split_built hreal.table hp ha
    simp only [Function.comp] at hpt ⊢
    have hm : p.1 ∈ (Contrib.splitObs (partsOf bs) it).tab.keys := List.mem_map.mpr ⟨p, hpt, rfl⟩
    rw [Contrib.split_keys] at hm
    rcases hm.1 with h1 | h1
    · left
      intro u hu
      obtain ⟨it', hit', rfl⟩ := List.mem_map.mp (List.map_map .. ▸ hu)
      simp only [Function.comp]
      rw [Contrib.split_keys]
      refine ⟨.inl ?_, hm.2⟩
      obtain ⟨b, hb, e⟩ := htab it hit
      obtain ⟨b', hb', e'⟩ := htab it' hit'
      rw [e, hcols b hb] at h1
      rw [e', hcols b' hb']
      exact h1
    · right
      intro x hx
      obtain ⟨el, e⟩ := hp.names _ h1
      have hg : (Contrib.splitObs (partsOf bs) it).tab.get? p.1 = some p.2 := Dict.get?_of_mem hbt.rect.nodup hpt
      rw [e, Contrib.split_get_part hp ha] at hg
      obtain ⟨v, hv, _⟩ := (hp.cells _ (Dict.mem_of_get? hg)).2 x hx
      exact ⟨v, hv⟩

/-- The efficiency of channels whose tables can be stacked is drawn, if that of every channel can. -/
theorem efficiency_drawn (order : List (Cell ℝ) → List (Cell ℝ)) (ho : Enumerates order) (tabs : List (Table ℝ)) (hne : tabs ≠ []) (hp : ∀ t ∈ tabs, Placed t ∧ ∃ n, 0 < n ∧ Rect t n)
    (hfill : Fillable tabs) (chs : List (Plotter.Built ℝ)) (hchs : chs ≠ []) (heff : ∀ b ∈ chs, ∃ x, efficiencyOf b = .ok x) :
    (∃ f, (efficiencyPlot order tabs chs).2 = .ok (some f)) ∧ ∀ t ∈ (efficiencyPlot order tabs chs).1, Placed t := by
  obtain ⟨r, ts', hv, _, _, _, hcol, _⟩ := Table.vstack_tables_complete tabs hne (fun t ht => (hp t ht).2) hfill
  have hs := placed_stack hv (fun t ht => (hp t ht).1)
  obtain ⟨n, hn, ch, left, right, hbins⟩ := framed_bins (hs.1 r rfl).2
  obtain ⟨bands, ticks, hpb, hnd, hbm, _⟩ := bands_spec order ho true r n hn ch left right hbins
  obtain ⟨es, hes⟩ := efficiencies_ok chs heff
  unfold efficiencyPlot
  rw [hv]
  simp only [Option.getD_some]
  unfold plotEfficiency
  rw [if_neg hchs, hes]
  simp only [hpb]
  exact ⟨⟨_, rfl⟩, hs.2⟩

end ExoRad.Build
