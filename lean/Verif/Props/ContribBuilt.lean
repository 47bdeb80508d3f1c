import Verif.Props.Contrib
import Verif.Props.LitBuilt
import Verif.Lemmas.ResultKeys

/-!
# Separate contributions of built channels: `full_contrib` from the description of an instrument to the result of a target (C108)
-/

set_option linter.unusedSectionVars false

namespace ExoRad.Build
open Table Pipeline Light

/-! ## Specification -/

/-- No element that emits has a name with `Max` or `_noise` in it. -/
def QuietElements (env : Env) (c : Common) (ds : List Descr) : Prop :=
  ∀ d ∈ ds, ∀ el ∈ emitters env c d, substr "Max" (el ++ " signal") = false ∧ substr "_noise" (el ++ " signal") = false

/-- Two results of a target, `r` observed without and `r'` with `full_contrib`: in `r'` there is a column per element that emits in some channel, and no `instrument_signal`; in every row
the column `instrument_signal` of `r` is the sum of those of the elements; all other columns are the same (except for the photon noise of these, and for those called `E`). -/
structure Separates (env : Env) (c : Common) (ds : List Descr) (E : List String) (r r' : Table ℝ) : Prop where
  same : ∀ q, q ∉ E → q ≠ "instrument_signal" → q ≠ "instrument_signal_noise" → (∀ el, q ≠ el ++ " signal" ∧ q ≠ el ++ " signal_noise") → r'.get? q = r.get? q
  gone : "instrument_signal" ∉ r'.keys
  parts : ∀ d ∈ ds, ∀ el ∈ emitters env c d, el ++ " signal" ∈ r'.keys
  sum : ∀ names, r.get? "chName" = some names → ∀ i < names.length, cellAt r "instrument_signal" i =
    ((r'.keys.filter (fun k => decide (∃ d ∈ ds, ∃ el ∈ emitters env c d, k = el ++ " signal"))).map (fun k => cellAt r' k i)).sum

/-! ## Channels and their signals -/

/-- The table of signals of the channel with this name. -/
noncomputable def partsOf (bs : List Built) (it : Obs) : Table ℝ :=
  match bs.find? (fun b => decide (b.ch.noise.value = it.ch.noise.value)) with
  | some b => Contrib.signalTable b.signals
  | none => []

theorem find_name {bs : List Built} (h : (bs.map (fun b => b.ch.noise.value)).Nodup) {b : Built} (hb : b ∈ bs) :
    bs.find? (fun x => decide (x.ch.noise.value = b.ch.noise.value)) = some b := by
  induction bs with
  | nil => cases hb
  | cons x bs ih =>
    rw [List.map_cons, List.nodup_cons] at h
    rcases List.mem_cons.mp hb with rfl | hb
    · rw [List.find?_cons_of_pos (by simp)]
    · have hne : x.ch.noise.value ≠ b.ch.noise.value := fun e => h.1 (e ▸ List.mem_map.mpr ⟨b, hb, rfl⟩)
      rw [List.find?_cons_of_neg (by simpa using hne)]
      exact ih h.2 hb

theorem built_names {fuel : ℕ} {env : Env} (he : SoundEnv env) {c : Common} (hc : SoundCommon c) {ds : List Descr} (hd : ∀ d ∈ ds, SoundDescr env d)
    (hnames : (ds.map (fun d => d.noise.value)).Nodup) {bs : List Built} (hbs : buildAll fuel env c ds = some (.ok bs)) :
    (bs.map (fun b => b.ch.noise.value)).Nodup := by
  obtain ⟨_, hnoise, _⟩ := buildAll_fillable he hc hd hbs
  have e : bs.map (fun b => b.ch.noise.value) = (bs.map (fun b => b.ch.noise)).map (fun n => n.value) := by rw [List.map_map]; rfl
  rw [e, hnoise, List.map_map]
  exact hnames

/-- The channels of a payload, seen by an observation, with their tables of signals. -/
theorem items_split {fuel : ℕ} {env : Env} (he : SoundEnv env) {c : Common} (hc : SoundCommon c) {ds : List Descr} (hd : ∀ d ∈ ds, SoundDescr env d)
    (hnames : (ds.map (fun d => d.noise.value)).Nodup) (hq : QuietElements env c ds) {bs : List Built} (hbs : buildAll fuel env c ds = some (.ok bs))
    {items : List Obs} (i1 : items.map Obs.ch = bs.map Built.ch) (i2 : items.map Obs.tab = bs.map Built.table) (hreal : ∀ it ∈ items, it.Real)
    (hfg : ∀ it ∈ items, "instrument_signal" ∉ it.fg.keys) :
    items.map (partsOf bs) = bs.map (fun b => Contrib.signalTable b.signals) ∧
    (∀ it ∈ items, ∃ d ∈ ds, it.ch.noise = d.noise ∧ it.ch.common = c.customNoise ∧ (partsOf bs it).keys = (emitters env c d).map (· ++ " signal") ∧
      Contrib.Parts it (partsOf bs it) ∧ Contrib.Apart it) ∧
    ∀ d ∈ ds, ∃ it ∈ items, it.ch.noise = d.noise ∧ it.ch.common = c.customNoise ∧ (partsOf bs it).keys = (emitters env c d).map (· ++ " signal") := by
  have hn := built_names he hc hd hnames hbs
  have hf2 := buildAll_mem hbs
  have hl1 : items.length = bs.length := by simpa using congrArg List.length i1
  have hl2 := hf2.length_eq
  have key : ∀ (i : ℕ) (h1 : i < items.length) (h2 : i < bs.length) (h3 : i < ds.length), partsOf bs items[i] = Contrib.signalTable bs[i].signals ∧
      items[i].ch.noise = ds[i].noise ∧ items[i].ch.common = c.customNoise ∧
      (partsOf bs items[i]).keys = (emitters env c ds[i]).map (· ++ " signal") ∧ Contrib.Parts items[i] (partsOf bs items[i]) ∧ Contrib.Apart items[i] := by
    intro i h1 h2 h3
    have e1 : items[i].ch = bs[i].ch := by
      have := List.getElem_of_eq i1 (i := i) (by simpa using h1)
      simpa using this
    have e2 : items[i].tab = bs[i].table := by
      have := List.getElem_of_eq i2 (i := i) (by simpa using h1)
      simpa using this
    have ep : partsOf bs items[i] = Contrib.signalTable bs[i].signals := by
      unfold partsOf
      rw [e1, find_name hn (List.getElem_mem _)]
    have hbuild : build fuel env c false ds[i] = some (.ok bs[i]) := (List.forall₂_iff_get.mp hf2).2 i h3 h2
    have hdm : ds[i] ∈ ds := List.getElem_mem _
    obtain ⟨_, n1, n2, _⟩ := build_sound he hc (hd _ hdm) hbuild
    have hr := hreal _ (List.getElem_mem h1)
    have hg := hfg _ (List.getElem_mem h1)
    rw [ep]
    refine ⟨rfl, by rw [e1, n1], by rw [e1, n2], ?_⟩
    revert hr hg e1 e2
    generalize items[i] = it
    obtain ⟨ch, tab, n, fg, out⟩ := it
    intro e1 e2 hr hg
    simp only at e1 e2 hg
    subst e1 e2
    exact build_parts he hc (hd _ hdm) hbuild (hq _ hdm) hr hg
  refine ⟨?_, ?_, ?_⟩
  · apply List.ext_getElem
    · simp [hl1]
    · intro i h1 h2
      simp only [List.length_map] at h1 h2
      simp only [List.getElem_map]
      exact (key i h1 h2 (by omega)).1
  · intro it hit
    obtain ⟨i, hi, rfl⟩ := List.mem_iff_getElem.mp hit
    exact ⟨ds[i]'(by omega), List.getElem_mem _, (key i hi (by omega) (by omega)).2⟩
  · intro d hdm
    obtain ⟨i, hi, rfl⟩ := List.mem_iff_getElem.mp hdm
    obtain ⟨_, k1, k2, k3, _⟩ := key i (by omega) (by omega) hi
    exact ⟨items[i]'(by omega), List.getElem_mem _, k1, k2, k3⟩

/-- What the separation of built channels gives. -/
theorem split_items {fuel : ℕ} {env : Env} (he : SoundEnv env) {c : Common} (hc : SoundCommon c) {ds : List Descr} (hd : ∀ d ∈ ds, SoundDescr env d)
    (hnames : (ds.map (fun d => d.noise.value)).Nodup) (hq : QuietElements env c ds) {bs : List Built} (hbs : buildAll fuel env c ds = some (.ok bs)) :
    ∃ items : List Obs, items.map Obs.ch = bs.map Built.ch ∧ items.map Obs.tab = bs.map Built.table ∧
      Contrib.splitAll (bs.map Built.table) (bs.map (fun b => Contrib.signalTable b.signals)) = .ok ((items.map (Contrib.splitObs (partsOf bs))).map Obs.tab) ∧
      ∀ it ∈ items, it.Real ∧ ∃ d ∈ ds, (partsOf bs it).keys = (emitters env c d).map (· ++ " signal") ∧ Contrib.Parts it (partsOf bs it) ∧ Contrib.Apart it := by
  have hitems : ∀ {ds : List Descr} {bs : List Built}, (∀ d ∈ ds, SoundDescr env d) → List.Forall₂ (fun d b => build fuel env c false d = some (.ok b)) ds bs →
      ∃ items : List Obs, items.map Obs.ch = bs.map Built.ch ∧ items.map Obs.tab = bs.map Built.table ∧ ∀ it ∈ items, it.Real ∧ it.fg = [] := by
    intro ds bs hd hf
    induction hf with
    | nil => exact ⟨[], rfl, rfl, by simp⟩
    | @cons d b ds bs h1 _ ih =>
      obtain ⟨items, i1, i2, i3⟩ := ih (fun d hdm => hd d (by simp [hdm]))
      obtain ⟨_, _, _, n, _, hr⟩ := build_sound he hc (hd d (by simp)) h1
      refine ⟨⟨b.ch, b.table, n, [], ⟨none, [], [], [], []⟩⟩ :: items, by simp [i1], by simp [i2], ?_⟩
      intro it hit
      rcases List.mem_cons.mp hit with rfl | hit
      · exact ⟨hr _ _, rfl⟩
      · exact i3 it hit
  obtain ⟨items, i1, i2, i3⟩ := hitems hd (buildAll_mem hbs)
  obtain ⟨s1, s2, _⟩ := items_split he hc hd hnames hq hbs i1 i2 (fun it hit => (i3 it hit).1) (fun it hit => by rw [(i3 it hit).2]; simp [Dict.keys])
  have hsplit := Contrib.splitAll_ok (parts := partsOf bs) (items := items) (fun it hit => by
    obtain ⟨_, _, _, _, _, hp, ha⟩ := s2 it hit
    exact ⟨(i3 it hit).1.table.rect.nodup, hp, ha⟩)
  rw [i2, s1] at hsplit
  refine ⟨items, i1, i2, hsplit, fun it hit => ⟨(i3 it hit).1, ?_⟩⟩
  obtain ⟨d, hdm, _, _, hk, hp, ha⟩ := s2 it hit
  exact ⟨d, hdm, hk, hp, ha⟩

/-- The tables of built channels can be separated into contributions. -/
theorem split_tables {fuel : ℕ} {env : Env} (he : SoundEnv env) {c : Common} (hc : SoundCommon c) {ds : List Descr} (hd : ∀ d ∈ ds, SoundDescr env d)
    (hnames : (ds.map (fun d => d.noise.value)).Nodup) (hq : QuietElements env c ds) {bs : List Built} (hbs : buildAll fuel env c ds = some (.ok bs)) :
    ∃ tabs, Contrib.splitAll (bs.map Built.table) (bs.map (fun b => Contrib.signalTable b.signals)) = .ok tabs ∧ tabs.length = bs.length ∧
      ∀ t ∈ tabs, t.rows ≠ 0 ∧ "sky TR" ∉ t.keys ∧ t.keys.Nodup ∧
        ∀ k ∈ t.keys, k ∈ builtColumns ∨ ∃ d ∈ ds, ∃ el ∈ emitters env c d, k = el ++ " signal" := by
  obtain ⟨items, i1, i2, hsplit, i3⟩ := split_items he hc hd hnames hq hbs
  refine ⟨_, hsplit, ?_, ?_⟩
  · have := congrArg List.length i1
    simpa using this
  · intro t ht
    rw [List.map_map] at ht
    obtain ⟨it, hit, rfl⟩ := List.mem_map.mp ht
    obtain ⟨hreal, d, hdm, hk, hp, ha⟩ := i3 it hit
    have hb := Contrib.split_built hreal.table hp ha
    refine ⟨?_, hb.clean, hb.rect.nodup, ?_⟩
    · have h1 := hb.rect.rows
      have h2 := hb.pos
      simp only [Function.comp]
      omega
    · intro k hkk
      simp only [Function.comp] at hkk
      rw [Contrib.split_keys] at hkk
      rcases hkk.1 with h | h
      · left
        have hm : it.tab ∈ bs.map Built.table := by rw [← i2]; exact List.mem_map.mpr ⟨it, hit, rfl⟩
        obtain ⟨b, hb, e⟩ := List.mem_map.mp hm
        obtain ⟨_, _, hcols, _⟩ := buildAll_fillable he hc hd hbs
        rw [← e, hcols b hb] at h
        exact h
      · right
        rw [hk] at h
        obtain ⟨el, hel, e⟩ := List.mem_map.mp h
        exact ⟨d, hdm, el, hel, e.symm⟩

/-! ## One target -/

theorem reached_no_instrument {names : List String} {g : List ℝ} {sky : Foreground.Sky ℝ} (hon : OnSky g names sky) (hn : "instrument" ∉ names) {ch : Channel} {fg : Table ℝ}
    (h : channelForeground sky ch = .ok fg) : "instrument_signal" ∉ fg.keys := by
  intro hk
  have ht := channelForeground_tidy (S := fun k => ∃ x ∈ names, k = x ++ "_signal" ∨ k = x ++ "_MaxSignal_inPixel") (sky := sky) (by
    intro k hk
    obtain ⟨kf, hkf, rfl⟩ := List.mem_map.mp hk
    exact ⟨⟨_, (hon.fg kf hkf).1, .inl rfl⟩, ⟨_, (hon.fg kf hkf).1, .inr rfl⟩⟩) h
  obtain ⟨x, hx, e⟩ := ht.names _ hk
  rcases e with e | e
  · have : x = "instrument" := by
      have h2 : ("instrument" ++ "_signal" : String) = x ++ "_signal" := e
      have h3 := congrArg String.toList h2
      rw [String.toList_append, String.toList_append] at h3
      exact (String.toList_inj.mp (List.append_cancel_right h3)).symm
    exact hn (this ▸ hx)
  · have h := congrArg (fun s : String => s.toList.reverse) e
    simp [String.toList_append] at h

/-- C108 (one target): a payload of complete, sound descriptions can be built and its tables separated into contributions. Every target that is observed without `full_contrib` as in C102 is
observed with it, and with the noise budget of every channel again; the two results differ in the columns of the contributions only. -/
theorem contrib_observation {env : Env} (he : SoundEnv env) {c : Common} (hc : SoundCommon c) {ds : List Descr} (hds : ds ≠ [])
    (hd : ∀ d ∈ ds, SoundDescr env d) (hcp : ∀ d ∈ ds, Complete env c d) (hnames : (ds.map (fun d => d.noise.value)).Nodup) (hq : QuietElements env c ds)
    {w : World} {a b : ℝ} {n : ℕ} (hw : PayloadWorld w a b n) (hin : ∀ d ∈ ds, Within a b n d)
    {well fw freq dark rn : NoiseChannel → ℝ} (hbud : Budgets c ds well fw freq dark rn)
    {sec : Foreground.Section ℝ} {src : Source.Descr} :
    ∃ fuel bs tabs, (∀ m, fuel ≤ m → buildAll m env c ds = some (.ok bs)) ∧
      Contrib.startTables true (bs.map Built.table) (bs.map (fun b => Contrib.signalTable b.signals)) = .ok tabs ∧
      ∀ (t : Target), Ready t → SkyThere w t sec → (∀ kd ∈ sec.list, Foreground.nameOf kd ≠ "instrument") → (∀ T, t.star.Teff = some T → 0 < T) →
      ∀ (star : Source.Built ℝ), Source.loadSource w.consts w.env w.grid src t.star ⟨a, some 1⟩ ⟨b, some 1⟩ = .ok star →
      (∀ sky, Foreground.estimateForegrounds w.consts.B w.maps w.skyGrid sec t.sky = (sky, .ok ()) → ∀ x ∈ bs, ∀ out,
        channelTarget x.ch star.sed sky.transmission = .ok out → ∃ v ∈ out.maxInPixel, 0 < v) →
      ∃ t1 t2 r r', (observe w ⟨bs.map Built.ch, some sec, some src, ⟨a, some 1⟩, ⟨b, some 1⟩⟩ (bs.map Built.table) t).2 = .ok t1 ∧
        (observe w ⟨bs.map Built.ch, some sec, some src, ⟨a, some 1⟩, ⟨b, some 1⟩⟩ tabs t).2 = .ok t2 ∧
        t1.table = some r ∧ t2.table = some r' ∧ HasBudget c ds well fw freq dark rn r ∧ HasBudget c ds well fw freq dark rn r' ∧ Separates env c ds [] r r' := by
  obtain ⟨ha, hab, hn⟩ := hw.range
  obtain ⟨fuel, bs, hbs, hobs⟩ := complete_observation he hc hds hd hcp hnames hw hin hbud (sec := sec) (src := src)
  have hb := hbs fuel (le_refl _)
  obtain ⟨tabs, htabs, _⟩ := split_tables he hc hd hnames hq hb
  refine ⟨fuel, bs, tabs, hbs, by simpa [Contrib.startTables] using htabs, ?_⟩
  intro t hf hsk hinst hT star hstar hlit0
  obtain ⟨tabs1, t1, r, o1, _, o2, o3⟩ := hobs t hf hsk hT star hstar hlit0
  have hg := logspace_isGrid ha hab hn
  obtain ⟨sky, hsky, hon, hsome⟩ := estimate_ok (B := w.consts.B) (m := w.maps) (g := w.skyGrid) (s := t.sky) hsk.some hf.fresh.1 hf.fresh.2 hsk.there
  have hon' := hon
  rw [hw.skyGrid] at hon'
  have hgd : (0 : ℝ) ∉ Rebin.diffs (w.grid a b) := by rw [hw.grid]; exact diffs_ne hg.sorted
  obtain ⟨s1, s2⟩ := loadSource_sed hab.le hgd hstar
  rw [hw.grid] at s1 s2
  have hf2 := buildAll_mem hb
  have hreach : ∀ x ∈ bs, Reached sky star.sed x.ch := by
    intro x hx
    obtain ⟨i, hi, rfl⟩ := List.mem_iff_getElem.mp hx
    have hlen := hf2.length_eq
    have h := (List.forall₂_iff_get.mp hf2).2 i (by omega) hi
    have hm : ds[i]'(by omega) ∈ ds := List.getElem_mem _
    obtain ⟨fg, out, e1, e2, e3⟩ := light_reaches he (hd _ hm) (hcp _ hm) ha hab hn (hin _ hm) h hon' hsome s1 s2
      (fun k hk => by obtain ⟨kd, hkd, rfl⟩ := List.mem_map.mp hk; exact hsk.names kd hkd)
    exact ⟨fg, out, e1, e2, hlit0 sky hsky _ hx out e2, e3⟩
  obtain ⟨items, i1, i2, i3⟩ := observed_items he hc hd hf2 hreach
  have hni : "instrument" ∉ sec.list.map Foreground.nameOf := by
    intro h
    obtain ⟨kd, hkd, e⟩ := List.mem_map.mp h
    exact hinst kd hkd e
  obtain ⟨p1, p2, p3⟩ := items_split he hc hd hnames hq hb i1 i2 (fun it hit => (i3 it hit).1) (fun it hit => reached_no_instrument hon' hni (i3 it hit).2.1)
  have hfill := (buildAll_fillable he hc hd hb).2.2.2
  have hne : items ≠ [] := by
    rintro rfl
    obtain ⟨d, hdm⟩ := List.exists_mem_of_ne_nil _ hds
    obtain ⟨it, hit, _⟩ := p3 d hdm
    simp at hit
  have hnames' : (items.map (fun it => it.ch.noise.value)).Nodup := by
    have e1 : items.map (fun it => it.ch.noise.value) = (items.map Obs.ch).map (fun ch => ch.noise.value) := by rw [List.map_map]; rfl
    rw [e1, i1, List.map_map]
    exact built_names he hc hd hnames hb
  have hlit := observation_lit w (by rw [hw.consts]; rfl) (by rw [hw.consts]; rfl) hw.files hw.maps (by rw [hw.skyGrid]; exact logspace_sane n a b ha hab.le)
    (by intro x y hx hxy; rw [hw.grid]; exact logspace_sane n x y hx hxy) ⟨bs.map Built.ch, some sec, some src, ⟨a, some 1⟩, ⟨b, some 1⟩⟩ sec hsk.some hsk.good src
    ⟨ha, rfl⟩ ⟨ha.trans hab, rfl⟩ items (fun it hit => (i3 it hit).1) t hf hT sky hsky star hstar
    (fun it hit => (i3 it hit).2.1) (fun it hit => (i3 it hit).2.2.1) (fun it hit => (i3 it hit).2.2.2.1)
  have hbuilt : ∀ it ∈ items, it.BuiltTable := fun it hit => (i3 it hit).1.table
  have hparts : ∀ it ∈ items, Contrib.Parts it (partsOf bs it) ∧ Contrib.Apart it := by
    intro it hit
    obtain ⟨_, _, _, _, _, h⟩ := p2 it hit
    exact h
  have hdet : ∀ it ∈ items, GoodDetector it.ch.noise.detector (well it.ch.noise) (fw it.ch.noise) (freq it.ch.noise) (dark it.ch.noise) (rn it.ch.noise) := by
    intro it hit
    obtain ⟨d, hdm, e, _⟩ := p2 it hit
    rw [e]; exact hbud.detector d hdm
  obtain ⟨r0, r', f1, f2, f3, f4, f5, f6⟩ := Contrib.full_contrib_same w ⟨bs.map Built.ch, some sec, some src, ⟨a, some 1⟩, ⟨b, some 1⟩⟩ sec rfl src rfl items hne i1.symm hnames'
    (by rw [i2]; exact hfill) t hf sky hsky star hstar hbuilt hlit well fw freq dark rn hdet (partsOf bs) hparts
  rw [i2, p1] at f1 f2
  unfold Contrib.observeWith Contrib.startTables at f1 f2
  simp only [Bool.false_eq_true, if_false] at f1
  simp only [if_true, htabs] at f2
  rw [o1] at f1
  have e0 := Except.ok.inj f1
  have er : r0 = r := by
    have := o2
    rw [e0] at this
    simpa using this
  subst er
  -- the budget of the second
  obtain ⟨items', hitems'⟩ : ∃ l, l = items.map (Contrib.splitObs (partsOf bs)) := ⟨_, rfl⟩
  have mem' : ∀ it' ∈ items', ∃ it ∈ items, Contrib.splitObs (partsOf bs) it = it' := by
    intro it' h
    rw [hitems'] at h
    exact List.mem_map.mp h
  have hof : ∀ it ∈ items', ∃ d ∈ ds, it.ch.noise = d.noise ∧ it.ch.common = c.customNoise := by
    intro it' h
    obtain ⟨it, hit, rfl⟩ := mem' it' h
    obtain ⟨d, hdm, e1, e2, _⟩ := p2 it hit
    exact ⟨d, hdm, e1, e2⟩
  have htabs' : items'.map Obs.tab = tabs := by
    have := Contrib.splitAll_ok (parts := partsOf bs) (items := items) (fun it hit => ⟨(hbuilt it hit).rect.nodup, hparts it hit⟩)
    rw [i2, p1, htabs] at this
    rw [hitems']
    exact (Except.ok.inj this).symm
  have hbuilt' : ∀ it ∈ items', it.BuiltTable := by
    intro it' h
    obtain ⟨it, hit, rfl⟩ := mem' it' h
    exact Contrib.split_built (hbuilt it hit) (hparts it hit).1 (hparts it hit).2
  obtain ⟨tabs2, r2, tot, b1, b2, b3, b4, b5⟩ := observation_budget w ⟨bs.map Built.ch, some sec, some src, ⟨a, some 1⟩, ⟨b, some 1⟩⟩ sec rfl src rfl items'
    (by rw [hitems']; simpa using hne) (by rw [hitems', List.map_map]; exact i1.symm) (by rw [hitems', List.map_map]; exact hnames')
    (by rw [hitems']; exact Contrib.split_fillable (by rw [i2]; exact hfill) (fun it hit => (hparts it hit).1)) t hf sky hsky star hstar hbuilt'
    (by
      intro it' h
      obtain ⟨it, hit, rfl⟩ := mem' it' h
      have l := hlit it hit
      exact ⟨l.fg, l.fgRect, l.fgPos, l.out, l.flux, l.signal, l.aperture, l.maxPix, l.bright⟩)
    (by
      intro it' h k hk
      obtain ⟨it, hit, rfl⟩ := mem' it' h
      rcases hk with hk | hk
      · rw [Contrib.split_keys] at hk
        rcases hk.1 with hk | hk
        · exact (i3 it hit).2.2.2.2 k (.inl hk)
        · have := ((hparts it hit).1.quiet k hk).2
          obtain ⟨el, rfl⟩ := (hparts it hit).1.names k hk
          rintro (h | h | h)
          · rw [this] at h; cases h
          · exact Contrib.part_ne (el := el) "frameTime" (by simp) h.symm
          · exact Contrib.part_ne (el := el) "saturation_time" (by simp) h.symm
      · exact (i3 it hit).2.2.2.2 k (.inr hk))
    well fw freq dark rn (by intro it h; obtain ⟨d, hdm, e, _⟩ := hof it h; rw [e]; exact hbud.detector d hdm)
    (by intro it h; obtain ⟨d, hdm, e, _⟩ := hof it h; rw [e]; exact hbud.excess d hdm)
    (by intro it h; obtain ⟨d, hdm, e, e'⟩ := hof it h; rw [e, e']; exact ⟨hbud.common, hbud.own d hdm⟩)
  rw [htabs'] at b1
  have er2 : r' = r2 := by
    rw [b1] at f2
    have := Except.ok.inj f2
    have h2 := congrArg Target.table this
    simpa using h2.symm
  subst er2
  have hrow : rowNames items' = rowNames items := by
    rw [hitems']
    unfold rowNames
    rw [List.flatMap_map]
    rfl
  refine ⟨t1, _, r0, r', by rw [o1], f2, o2, rfl, o3, ?_, ?_⟩
  · refine ⟨rowNames items', tot, b2, b3, b4, ?_, ?_⟩
    · intro x
      constructor
      · intro hx
        obtain ⟨it, hit, hx⟩ := List.mem_flatMap.mp hx
        have e := List.eq_of_mem_replicate hx
        obtain ⟨d, hdm, e1, _⟩ := hof it hit
        exact ⟨d, hdm, by rw [e, e1]⟩
      · rintro ⟨d, hdm, rfl⟩
        obtain ⟨it, hit, e1, _⟩ := p3 d hdm
        rw [hrow]
        refine List.mem_flatMap.mpr ⟨it, hit, ?_⟩
        rw [e1]
        exact List.mem_replicate.mpr ⟨(hbuilt it hit).pos.ne', rfl⟩
    · intro d hdm i hi
      obtain ⟨it, hit, e1, e2, _⟩ := p3 d hdm
      have h6 := (b5 (Contrib.splitObs (partsOf bs) it) (by rw [hitems']; exact List.mem_map.mpr ⟨it, hit, rfl⟩)).2
      have c1 : (Contrib.splitObs (partsOf bs) it).ch.noise = d.noise := e1
      have c2 : (Contrib.splitObs (partsOf bs) it).ch.common = c.customNoise := e2
      rw [c1, c2] at h6
      obtain ⟨_, q1, q2, q3, q4, q5⟩ := h6 i hi
      exact ⟨q1, q2, q3, q4, q5⟩
  · obtain ⟨names0, tot0, n1, _⟩ := id o3
    refine ⟨?_, f4, ?_, ?_⟩
    · intro q _ h1 h2 h3
      refine f3 q ⟨?_, ?_⟩
      · rintro (h | ⟨el, h⟩)
        · exact h1 h
        · exact (h3 el).1 h
      · rintro k (rfl | ⟨el, rfl⟩)
        · exact h2
        · rw [String.append_assoc]
          exact (h3 el).2
    · intro d hdm el hel
      obtain ⟨it, hit, _, _, hk⟩ := p3 d hdm
      exact mem_keys_of_get (f5 it hit (el ++ " signal") (by rw [hk]; exact List.mem_map.mpr ⟨el, hel, rfl⟩))
    · intro names hnm i hi
      have hc1 : r'.get? "chName" = r0.get? "chName" := f3 "chName" ⟨by
          rintro (h | ⟨el, h⟩)
          · exact absurd h (by decide)
          · exact Contrib.part_ne (el := el) "chName" (by simp) h, by
          intro k _ e
          have := congrArg (fun s : String => s.toList.reverse) e
          simp [String.toList_append] at this⟩
      rw [b2, hnm] at hc1
      have hl : names.length = (rowNames items).length := by rw [← Option.some.inj hc1, hrow]; simp
      rw [f6 i (by omega)]
      congr 2
      apply List.filter_congr
      intro k _
      rw [decide_eq_decide]
      constructor
      · rintro ⟨it, hit, hk⟩
        obtain ⟨d, hdm, _, _, e, _⟩ := p2 it hit
        rw [e] at hk
        obtain ⟨el, hel, e⟩ := List.mem_map.mp hk
        exact ⟨d, hdm, el, hel, e.symm⟩
      · rintro ⟨d, hdm, el, hel, rfl⟩
        obtain ⟨it, hit, _, _, e⟩ := p3 d hdm
        exact ⟨it, hit, by rw [e]; exact List.mem_map.mpr ⟨el, hel, rfl⟩⟩

/-- C108 (black bodies): the same for every star that is a black body at a distance, if every channel is aimed at some stretch of wavelengths through its sky. -/
theorem blackbody_contrib {env : Env} (he : SoundEnv env) (hpp : 0 < env.perPhoton) {c : Common} (hc : SoundCommon c) (hat : 0 < c.atel) {ds : List Descr} (hds : ds ≠ [])
    (hd : ∀ d ∈ ds, SoundDescr env d) (hcp : ∀ d ∈ ds, Complete env c d) (hnames : (ds.map (fun d => d.noise.value)).Nodup) (hq : QuietElements env c ds)
    {w : World} {a b : ℝ} {n : ℕ} (hw : PayloadWorld w a b n) (hin : ∀ d ∈ ds, Within a b n d)
    {well fw freq dark rn : NoiseChannel → ℝ} (hbud : Budgets c ds well fw freq dark rn)
    {sec : Foreground.Section ℝ} {src : Source.Descr} (hsrc : src.bytes = false) (h1 : Source.lower src.value ≠ "custom") (h2 : Source.lower src.value ≠ "phoenix")
    (hinst : ∀ kd ∈ sec.list, Foreground.nameOf kd ≠ "instrument") :
    ∃ fuel bs tabs, (∀ m, fuel ≤ m → buildAll m env c ds = some (.ok bs)) ∧
      Contrib.startTables true (bs.map Built.table) (bs.map (fun b => Contrib.signalTable b.signals)) = .ok tabs ∧
      ∀ (t : Target) (D T M R : ℝ), t.star = ⟨some D, some T, some M, some R⟩ → D ≠ 0 → 0 < T → R ≠ 0 → Ready t → SkyThere w t sec →
      (∀ sky, Foreground.estimateForegrounds w.consts.B w.maps w.skyGrid sec t.sky = (sky, .ok ()) → ∀ d ∈ ds, ∀ x, build fuel env c false d = some (.ok x) →
        ∃ L U, Aimed env c d a b (Instrument.logspace a b n) sky.transmission x L U) →
      ∃ t1 t2 r r', (observe w ⟨bs.map Built.ch, some sec, some src, ⟨a, some 1⟩, ⟨b, some 1⟩⟩ (bs.map Built.table) t).2 = .ok t1 ∧
        (observe w ⟨bs.map Built.ch, some sec, some src, ⟨a, some 1⟩, ⟨b, some 1⟩⟩ tabs t).2 = .ok t2 ∧
        t1.table = some r ∧ t2.table = some r' ∧ HasBudget c ds well fw freq dark rn r ∧ HasBudget c ds well fw freq dark rn r' ∧ Separates env c ds [] r r' := by
  obtain ⟨fuel, bs, tabs, hbs, htabs, hobs⟩ := contrib_observation he hc hds hd hcp hnames hq hw hin hbud (sec := sec) (src := src)
  refine ⟨fuel, bs, tabs, hbs, htabs, ?_⟩
  intro t D T M R hstar hD hT hR hf hsk haim
  obtain ⟨hTs, st, hst, hlit⟩ := blackbody_lit he hpp hc hat hd hcp hw hsrc h1 h2 (hbs fuel (le_refl _)) hstar hD hT hR hf hsk haim
  exact hobs t hf hsk hinst hTs st hst hlit

end ExoRad.Build
