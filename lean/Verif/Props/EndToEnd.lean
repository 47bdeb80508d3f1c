import Verif.Props.Build
import Verif.Props.Budget

/-!
# From the description of an instrument to the noise of a target: C83
-/

set_option linter.unusedSectionVars false

namespace ExoRad.Build
open Table Pipeline Light

/-! ## Specification -/

/-- The light of sky and target reaches the channel: its columns can be computed and some pixel gets light. -/
def Reached (sky : Foreground.Sky ℝ) (sed : Rebin.Signal ℝ) (ch : Channel) : Prop :=
  ∃ fg out, channelForeground sky ch = .ok fg ∧ channelTarget ch sed sky.transmission = .ok out ∧ (∃ v ∈ out.maxInPixel, 0 < v) ∧
    ∀ k ∈ fg.keys, ¬ NoiseName k

/-! ## C83 -/

theorem builtColumns_clean : ∀ k ∈ builtColumns, ¬ NoiseName k := by
  intro k hk
  simp only [builtColumns, List.mem_cons, List.not_mem_nil, or_false] at hk
  unfold NoiseName
  rcases hk with rfl | rfl | rfl | rfl | rfl | rfl | rfl | rfl | rfl | rfl <;> decide

/-- The built channels, seen by the observation of one target. -/
theorem observed_items {fuel : ℕ} {env : Env} (he : SoundEnv env) {c : Common} (hc : SoundCommon c) {sky : Foreground.Sky ℝ} {sed : Rebin.Signal ℝ} :
    ∀ {ds : List Descr} {bs : List Built}, (∀ d ∈ ds, SoundDescr env d) → List.Forall₂ (fun d b => build fuel env c false d = some (.ok b)) ds bs →
    (∀ b ∈ bs, Reached sky sed b.ch) → ∃ items : List Obs, items.map Obs.ch = bs.map Built.ch ∧ items.map Obs.tab = bs.map Built.table ∧
      ∀ it ∈ items, it.Real ∧ channelForeground sky it.ch = .ok it.fg ∧ channelTarget it.ch sed sky.transmission = .ok it.out ∧
        (∃ v ∈ it.out.maxInPixel, 0 < v) ∧ ∀ k, k ∈ it.tab.keys ∨ k ∈ it.fg.keys → ¬ NoiseName k
  | [], _, _, .nil, _ => ⟨[], rfl, rfl, by simp⟩
  | d :: ds, b :: bs, hd, .cons h1 h2, hr => by
    obtain ⟨items, i1, i2, i3⟩ := observed_items he hc (fun d hdm => hd d (by simp [hdm])) h2 (fun b hb => hr b (by simp [hb]))
    obtain ⟨hk, _, _, n, _, hreal⟩ := build_sound he hc (hd d (by simp)) h1
    obtain ⟨fg, out, r1, r2, r3, r4⟩ := hr b (by simp)
    refine ⟨⟨b.ch, b.table, n, fg, out⟩ :: items, by simp [i1], by simp [i2], ?_⟩
    intro it hit
    rcases List.mem_cons.mp hit with rfl | hit
    · refine ⟨hreal fg out, r1, r2, r3, ?_⟩
      intro k hkk
      rcases hkk with hkk | hkk
      · exact builtColumns_clean k (by rw [← hk]; exact hkk)
      · exact r4 k hkk
    · exact i3 it hit

/-- C83: channels built from sound descriptions observe a target. The result has the columns of the noise budget, row by row: `items` are the channels as built,
in payload order, with the columns the foregrounds and the target add. -/
theorem built_observation {fuel : ℕ} {env : Env} (he : SoundEnv env) {c : Common} (hc : SoundCommon c) {ds : List Descr} (hds : ds ≠ [])
    (hd : ∀ d ∈ ds, SoundDescr env d) (hnames : (ds.map (fun d => d.noise.value)).Nodup) {bs : List Built} (hbs : buildAll fuel env c ds = some (.ok bs))
    (w : World) (hpi : w.consts.pi = Real.pi) (hB : w.consts.B = planck) (henv : GoodFiles w.env)
    (hmaps : ∀ p rows, w.maps.file p = some (.ok rows) → ∀ r ∈ rows, 0 ≤ r.2.2)
    (hskyGrid : w.skyGrid.Pairwise (· ≤ ·) ∧ ∀ x ∈ w.skyGrid, 0 < x)
    (hgrid : ∀ a b, 0 < a → a ≤ b → (w.grid a b).Pairwise (· ≤ ·) ∧ ∀ x ∈ w.grid a b, 0 < x)
    (p : Payload) (hch : p.channels = bs.map Built.ch) (sec : Foreground.Section ℝ) (hsec : p.foreground = some sec) (hsec0 : sec.list ≠ [])
    (hdescr : ∀ kd ∈ sec.list, GoodDescr kd.2) (src : Source.Descr) (hsrc : p.source = some src)
    (hmin : 0 < p.wlMin.v ∧ p.wlMin.unit.getD 1 = 1) (hmax : 0 < p.wlMax.v ∧ p.wlMax.unit.getD 1 = 1)
    (t : Target) (hf : Ready t) (hT : ∀ T, t.star.Teff = some T → 0 < T) (sky : Foreground.Sky ℝ)
    (hsky : Foreground.estimateForegrounds w.consts.B w.maps w.skyGrid sec t.sky = (sky, .ok ())) (star : Source.Built ℝ)
    (hstar : Source.loadSource w.consts w.env w.grid src t.star p.wlMin p.wlMax = .ok star)
    (hreach : ∀ b ∈ bs, Reached sky star.sed b.ch)
    (well fw freq dark rn : NoiseChannel → ℝ)
    (hdet : ∀ d ∈ ds, GoodDetector d.noise.detector (well d.noise) (fw d.noise) (freq d.noise) (dark d.noise) (rn d.noise))
    (hX : ∀ d ∈ ds, -1 ≤ d.noise.noiseX.getD 0) (hcust : ∀ e ∈ entries c.customNoise, GoodEntry e)
    (hown : ∀ d ∈ ds, ∀ e ∈ entries d.noise.customNoise, GoodEntry e) :
    ∃ (items : List Obs) (tabs' : List (Table ℝ)) (r : Table ℝ) (tot : List (Num ℝ)),
      items.map Obs.ch = bs.map Built.ch ∧ items.map Obs.tab = bs.map Built.table ∧
      observe w p (bs.map Built.table) t = (tabs', .ok { t with sky := sky, built := some star, table := some r }) ∧
      r.get? "chName" = some ((rowNames items).map Cell.str) ∧ r.get? "total_noise" = some (tot.map Cell.num) ∧
      tot.length = (rowNames items).length ∧
      ∀ d ∈ ds, (∃ i : ℕ, (rowNames items)[i]? = some d.noise.value) ∧ ∀ i : ℕ, (rowNames items)[i]? = some d.noise.value →
        0 < cellAt r "frameTime" i ∧
        (∀ f, d.noise.detector.frameTime = some f → cellAt r "frameTime" i = f) ∧
        (d.noise.detector.frameTime = none → cellAt r "frameTime" i * cellAt r "MaxSignal_inPixel" i ≤ fw d.noise * well d.noise) ∧
        (cellAt r "star_signal_inAperture" i = 0 → tot[i]? = some Num.nan) ∧
        (cellAt r "star_signal_inAperture" i ≠ 0 → ∃ T : ℝ, tot[i]? = some (Num.fin T) ∧ 0 ≤ T ∧
          T ^ 2 = Spec.relVariance
            { dark := dark d.noise, read := rn d.noise, excess := d.noise.noiseX.getD 0, frame := cellAt r "frameTime" i,
              freq := freq d.noise, avg := d.noise.detector.multiaccumM.getD 1 }
            { star := cellAt r "star_signal_inAperture" i, total := signalSum r i, window := cellAt r "WindowSize" i }
            (values (entries c.customNoise) ++ values (entries d.noise.customNoise))) := by
  have hf2 := buildAll_mem hbs
  obtain ⟨hlen, hnoise, _, hfill⟩ := buildAll_fillable he hc hd hbs
  obtain ⟨items, i1, i2, i3⟩ := observed_items he hc hd hf2 hreach
  have hcommon : ∀ b ∈ bs, b.ch.common = c.customNoise := by
    intro b hb
    obtain ⟨i, hi, rfl⟩ := List.mem_iff_getElem.mp hb
    have h := (List.forall₂_iff_get.mp hf2).2 i (by omega) hi
    exact (build_sound he hc (hd _ (List.getElem_mem _)) h).2.2.1
  have hitem : items.map (fun it => (it.ch.noise, it.ch.common)) = ds.map (fun d => (d.noise, c.customNoise)) := by
    have e1 : items.map (fun it => (it.ch.noise, it.ch.common)) = (items.map Obs.ch).map (fun ch => (ch.noise, ch.common)) := by rw [List.map_map]; rfl
    have e2 : ds.map (fun d => (d.noise, c.customNoise)) = (ds.map Descr.noise).map (fun n => (n, c.customNoise)) := by rw [List.map_map]; rfl
    rw [e1, i1, e2, ← hnoise, List.map_map, List.map_map]
    apply List.map_congr_left
    intro b hb
    simp [hcommon b hb]
  have hof : ∀ it ∈ items, ∃ d ∈ ds, it.ch.noise = d.noise ∧ it.ch.common = c.customNoise := by
    intro it hit
    have : (it.ch.noise, it.ch.common) ∈ ds.map (fun d => (d.noise, c.customNoise)) := by
      rw [← hitem]; exact List.mem_map.mpr ⟨it, hit, rfl⟩
    obtain ⟨d, hdm, e⟩ := List.mem_map.mp this
    simp only [Prod.mk.injEq] at e
    exact ⟨d, hdm, e.1.symm, e.2.symm⟩
  have hof' : ∀ d ∈ ds, ∃ it ∈ items, it.ch.noise = d.noise ∧ it.ch.common = c.customNoise := by
    intro d hdm
    have : (d.noise, c.customNoise) ∈ items.map (fun it => (it.ch.noise, it.ch.common)) := by
      rw [hitem]; exact List.mem_map.mpr ⟨d, hdm, rfl⟩
    obtain ⟨it, hit, e⟩ := List.mem_map.mp this
    simp only [Prod.mk.injEq] at e
    exact ⟨it, hit, e.1, e.2⟩
  have hne : items ≠ [] := by
    rintro rfl
    obtain ⟨d, hdm⟩ := List.exists_mem_of_ne_nil _ hds
    obtain ⟨it, hit, _⟩ := hof' d hdm
    simp at hit
  have hnames' : (items.map (fun it => it.ch.noise.value)).Nodup := by
    have e1 : items.map (fun it => it.ch.noise.value) = (items.map (fun it => (it.ch.noise, it.ch.common))).map (fun x => x.1.value) := by rw [List.map_map]; rfl
    rw [e1, hitem, List.map_map]
    exact hnames
  have hlit := observation_lit w hpi hB henv hmaps hskyGrid hgrid p sec hsec0 hdescr src hmin hmax items (fun it hit => (i3 it hit).1) t hf hT sky hsky star hstar
    (fun it hit => (i3 it hit).2.1) (fun it hit => (i3 it hit).2.2.1) (fun it hit => (i3 it hit).2.2.2.1)
  obtain ⟨tabs', r, tot, h1, h2, h3, h4, h5⟩ := observation_budget w p sec hsec src hsrc items hne (by rw [hch, i1]) hnames' (by rw [i2]; exact hfill) t hf sky hsky star hstar
    (fun it hit => (i3 it hit).1.table) hlit (fun it hit => (i3 it hit).2.2.2.2) well fw freq dark rn
    (fun it hit => by obtain ⟨d, hdm, e, _⟩ := hof it hit; rw [e]; exact hdet d hdm)
    (fun it hit => by obtain ⟨d, hdm, e, _⟩ := hof it hit; rw [e]; exact hX d hdm)
    (fun it hit => by obtain ⟨d, hdm, e, e'⟩ := hof it hit; rw [e, e']; exact ⟨hcust, hown d hdm⟩)
  refine ⟨items, tabs', r, tot, i1, i2, by rw [← i2]; exact h1, h2, h3, h4, ?_⟩
  intro d hdm
  obtain ⟨it, hit, e1, e2⟩ := hof' d hdm
  obtain ⟨_, h6⟩ := h5 it hit
  rw [e1, e2] at h6
  refine ⟨?_, fun i hi => (h6 i hi).2⟩
  have hm : d.noise.value ∈ rowNames items := by
    refine List.mem_flatMap.mpr ⟨it, hit, ?_⟩
    rw [e1]
    exact List.mem_replicate.mpr ⟨(i3 it hit).1.table.pos.ne', rfl⟩
  obtain ⟨i, hi, e⟩ := List.mem_iff_getElem.mp hm
  exact ⟨i, by rw [List.getElem?_eq_getElem hi, e]⟩

end ExoRad.Build
