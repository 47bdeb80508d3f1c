import Verif.Props.Complete

/-!
# A run that meets the hypotheses of C19, C21, C72

Two photometers, a custom source and one custom foreground in front of it, all sampled at 1, 2 and 4 µm.
-/

set_option linter.unusedSectionVars false

namespace ExoRad.Pipeline.Demo
open Table Light

/-- The grid of everything. -/
def g : List ℝ := [1, 2, 4]

def flat (v : ℝ) : Rebin.Signal ℝ := ⟨g, [v, v, v]⟩

/-- A photometer. -/
noncomputable def ch (name : String) : Channel where
  spectrometer := false
  inst :=
    { wlMin := 1, wlMax := 4, force := some false, bins := ⟨[5 / 2], [3], [1], [4]⟩, atel := 1, perPhoton := 1, qe := flat 1, tr := flat 1,
      apertureCorrection := none, enE := none, prfMax := 1 / 2, wlPix := [], dwlPix := [], gain := fun _ => 0 }
  diffuse :=
    { wlPix := [], dwlPix := [], slitWidth := none, deltaPix := 1, spatialWidth := [], windowSize := [4], left := [1], right := [4], area := 1,
      omega := 1, perPhoton := 1 }
  noise :=
    { value := name,
      detector := { wellDepth := some 100, fWellDepth := some 1, freqNDR := some 1, darkCurrent := some 0, readNoise := some 0 } }
  common := none

/-- Its table. -/
noncomputable def tab (name : String) : Table ℝ :=
  [("chName", [.str name]), ("Wavelength", [.num (.fin (5 / 2))]), ("WindowSize", [.num (.fin 4)])]

/-- The foreground `screen`. -/
noncomputable def screen : Foreground.Descr ℝ where
  value := "screen"
  data := some [("Wavelength", g), ("Radiance", [1, 1, 1]), ("Transmission", [1 / 2, 1 / 2, 1 / 2])]

noncomputable def payload : Payload where
  channels := [ch "P", ch "Q"]
  foreground := some (.many [("screen", screen)])
  source := some { value := "custom", customSed := some "sed.csv" }
  wlMin := ⟨1, none⟩
  wlMax := ⟨4, none⟩

noncomputable def world : World where
  consts := ⟨Real.pi, planck, fun _ _ => 0⟩
  env := ⟨none, fun _ => false, fun _ => [], fun _ => none, fun _ _ => .error .osError, fun _ => .ok (g, [1, 1, 1])⟩
  maps := ⟨fun _ => none, "", ""⟩
  skyGrid := g
  grid := fun _ _ => g

def target (name : String) : Target where
  name := name
  star := { D := some 1, R := some 1 }

/-- The foreground on the working grid. -/
noncomputable def filter : Foreground.Filter ℝ := ⟨flat 1, some [1 / 2, 1 / 2, 1 / 2]⟩

noncomputable def sky : Foreground.Sky ℝ where
  foreground := some [("screen", filter)]
  transmission := some (flat (1 / 2))

noncomputable def built : Source.Built ℝ := ⟨flat 1, 4 * Real.pi * 1 ^ 2 * Diffuse.trapz g [1, 1, 1], .custom⟩

noncomputable def fg : Table ℝ := [("screen_signal", [.num (.fin 30)]), ("screen_MaxSignal_inPixel", [.num (.fin (15 / 2))])]

noncomputable def out : Instrument.TargetOut ℝ :=
  ⟨some (Instrument.binSignal [5 / 2] ([5 / 2].map (Rebin.interp (g.zip [1 / 2, 1 / 2, 1 / 2]))) [1] [4]), [3], [15 / 4], [15 / 4], [15 / 8]⟩

noncomputable def obs (name : String) : Obs := ⟨ch name, tab name, 1, fg, out⟩

theorem g_sorted : g.Pairwise (· < ·) := by
  simp only [g, List.pairwise_cons, List.mem_cons, List.not_mem_nil, or_false, forall_eq_or_imp, forall_eq, List.Pairwise.nil, and_true]
  norm_num

theorem g_pos : ∀ w ∈ g, 0 < w := by
  intro w hw
  simp only [g, List.mem_cons, List.not_mem_nil, or_false] at hw
  rcases hw with rfl | rfl | rfl <;> norm_num

theorem flat_self (v : ℝ) : (flat v).spectralRebin g = .ok (flat v) :=
  Rebin.spectralRebin_self (flat v) (by simp [flat, g]) g_sorted g_pos (by simp [flat, g])

theorem fill_nodes (fill v : ℝ) : g.map (Foreground.interpFill fill (g.zip [v, v, v])) = [v, v, v] := by
  have key : ∀ x ∈ g, Foreground.interpFill fill (g.zip [v, v, v]) x = v := by
    intro x hx
    have hp : (g.zip [v, v, v]).Pairwise (fun p q => p.1 < q.1) := by
      simp only [g, List.zip_cons_cons, List.zip_nil_left, List.pairwise_cons, List.mem_cons, List.not_mem_nil, or_false, forall_eq_or_imp,
        forall_eq, List.Pairwise.nil, and_true]
      norm_num
    have hm : (x, v) ∈ g.zip [v, v, v] := by
      simp only [g, List.mem_cons, List.not_mem_nil, or_false] at hx
      rcases hx with rfl | rfl | rfl <;> simp [g]
    rw [(Foreground.interpFill_spec fill _ x).1 ⟨⟨_, hm, le_refl _⟩, ⟨_, hm, le_refl _⟩⟩]
    exact Rebin.interp_node _ hp (x, v) hm
  rw [List.map_congr_left key]
  simp [g]

theorem sky_ok (n : String) : Foreground.estimateForegrounds world.consts.B world.maps world.skyGrid (.many [("screen", screen)]) (target n).sky = (sky, .ok ()) := by
  have h : Foreground.skyForeground g screen = .ok filter := by
    simp [Foreground.skyForeground, screen, Dict.getE, Dict.get?, fill_nodes, filter, flat]
  have hv : screen.value = "screen" := rfl
  simp [Foreground.estimateForegrounds, Foreground.estimateLoop, Foreground.estimateOne, Foreground.estimateForeground, world, h, filter,
    Foreground.attenuate, Foreground.addForeground, target, sky, hv, Dict.set, flat]

theorem source_ok (n : String) : Source.loadSource world.consts world.env world.grid { value := "custom", customSed := some "sed.csv" } (target n).star
    payload.wlMin payload.wlMax = .ok built := by
  have hr : (Rebin.Signal.mk g [1, 1, 1] : Rebin.Signal ℝ).spectralRebin g = .ok ⟨g, [1, 1, 1]⟩ := flat_self 1
  have hm : Rebin.Signal.mk? g [(1 : ℝ), 1, 1] = .ok ⟨g, [1, 1, 1]⟩ := (Rebin.mk?_ok _ _ _).mpr ⟨rfl, by simp [Rebin.Signal.WellFormed, g]⟩
  have hc : (Source.Descr.is { value := "custom", customSed := some "sed.csv" } "custom") = true := by decide
  have h4 : ¬ (1 : ℝ) > 4 := by norm_num
  simp [Source.loadSource, Source.sortRange, payload, h4, Source.buildStar, hc, Source.customSource, target, world, Source.customStar, hm,
    Source.toGrid, hr, built, flat]

theorem fg_ok (name : String) : channelForeground sky (ch name) = .ok fg := by
  have h1 : Rebin.Signal.spectralRebin (flat 1) (flat 1).wl = .ok (flat 1) := flat_self 1
  have hp : Foreground.propagate (ch name).diffuse (ch name).inst.qe (ch name).inst.tr sky =
      .ok [("screen_signal", [30]), ("screen_MaxSignal_inPixel", [15 / 2])] := by
    have h2 : Foreground.mulData (flat 1).data (flat 1).data = .ok [1, 1, 1] := by
      simp [Foreground.mulData, flat, Diffuse.mulCol]
    have h3 : Foreground.slitless (ch name).diffuse (flat 1) ⟨g, [1, 1, 1]⟩ = .ok (flat 1, [15 / 2], [30]) := by
      have e : (flat 1).spectralRebin g = .ok (flat 1) := flat_self 1
      simp only [Foreground.slitless, e, ch]
      simp [Foreground.mulData, flat, g, Diffuse.mulCol, Diffuse.integrateLight, Diffuse.trapz]
      norm_num
    have h4 : Foreground.detect (ch name).diffuse (flat 1) ⟨(flat 1).wl, [1, 1, 1]⟩ = .ok (flat 1, [15 / 2], [30]) := by
      simp only [Foreground.detect, show (ch name).diffuse.slitWidth = none from rfl]
      exact h3
    simp only [Foreground.propagate, sky, List.reverse_singleton, Foreground.propagateLoop, filter, show (ch name).inst.qe = flat 1 from rfl,
      show (ch name).inst.tr = flat 1 from rfl, h1, h2, h4]
    simp [Dict.set]
  unfold channelForeground
  rw [hp]
  simp [foregroundTable, fg, col]

theorem out_ok (name : String) : channelTarget (ch name) built.sed sky.transmission = .ok out := by
  have e1 : (flat 1).spectralRebin g = .ok (flat 1) := flat_self 1
  have e2 : (flat (1 / 2)).spectralRebin g = .ok (flat (1 / 2)) := flat_self (1 / 2)
  have hm : Rebin.Signal.mk? g [(1 / 2 : ℝ), 1 / 2, 1 / 2] = .ok (flat (1 / 2)) :=
    (Rebin.mk?_ok _ _ _).mpr ⟨rfl, by simp [Rebin.Signal.WellFormed, flat, g]⟩
  have heff : Instrument.getEfficiency (ch name).inst g (some (flat (1 / 2))) none = .ok ⟨[1, 1, 1], [1 / 2, 1 / 2, 1 / 2], out.foregroundTransmission⟩ := by
    simp only [Instrument.getEfficiency, ch, e1, Instrument.withSky, Instrument.getTransmission]
    simp only [show (flat (1 / 2)).wl = g from rfl, show (flat (1 / 2)).data = [1 / 2, 1 / 2, 1 / 2] from rfl, hm, e2]
    simp [flat, Diffuse.mulCol, out]
  simp only [channelTarget, ch, Bool.false_eq_true, if_false]
  simp only [Instrument.photometerTarget, built, show (flat 1).wl = g from rfl, show sky.transmission = some (flat (1 / 2)) from rfl]
  have := heff
  simp only [ch] at this
  simp only [this, Instrument.forceEdge]
  simp [out, flat, g, Diffuse.trapz, Diffuse.mulCol, Instrument.density, Instrument.apertureFactor]
  norm_num

theorem real_ok (name : String) : (obs name).Real := by
  refine ⟨⟨Nat.one_pos, ⟨by simp [obs, tab], by simp [obs, tab, Dict.keys], ?_⟩, by simp [obs, tab, Dict.keys], by simp [obs, tab, Dict.keys], rfl,
    by simp [obs, tab, Dict.keys], by simp [obs, tab, Dict.keys], ?_, ?_, ?_, ⟨rfl, rfl, rfl⟩⟩, ?_, ?_, ?_, fun _ => rfl⟩
  · intro q hq
    simp only [obs, tab, List.mem_cons, List.not_mem_nil, or_false] at hq
    rcases hq with rfl | rfl | rfl <;> rfl
  · intro c hc
    have : c = [.num (.fin (5 / 2))] := by simpa [obs, tab, Dict.get?] using hc.symm
    subst this
    simp [isFin]
  · intro c hc
    have : c = [.num (.fin 4)] := by simpa [obs, tab, Dict.get?] using hc.symm
    subst this
    intro x hx
    rw [List.mem_singleton] at hx
    subst hx
    exact ⟨4, rfl, by norm_num⟩
  · intro k c hc hk
    have hm : k ∈ (tab name).keys := mem_keys_of_get hc
    simp only [tab, Dict.keys, List.map_cons, List.map_nil, List.mem_cons, List.not_mem_nil, or_false] at hm
    rcases hm with rfl | rfl | rfl <;> exact absurd hk (by decide)
  · refine ⟨?_, ?_, ?_, ?_, ?_, ?_, ?_, ?_, ?_⟩ <;> simp [obs, ch, flat, All0]
  · refine ⟨?_, ?_, ?_, ?_, ?_, ?_, ?_⟩ <;> simp [obs, ch, All0]
  · refine ⟨rfl, rfl, rfl, ?_⟩
    simp [obs, ch]

theorem le_of_lt_pairwise : g.Pairwise (· ≤ ·) := g_sorted.imp (fun h => h.le)

/-- The demonstration run succeeds, for a target of any name. -/
theorem demo_observed (n : String) : ∃ (tabs' : List (Table ℝ)) (r : Table ℝ) (tot : List (Num ℝ)),
    observe world payload [tab "P", tab "Q"] (target n) = (tabs', .ok { target n with sky := sky, built := some built, table := some r }) ∧
    r.get? "chName" = some [.str "P", .str "Q"] ∧
    r.get? "star_signal_inAperture" = some [.num (.fin (15 / 4)), .num (.fin (15 / 4))] ∧
    r.get? "total_noise" = some (tot.map Cell.num) ∧ tot.length = 2 ∧ ∀ i < 2, ∃ T : ℝ, tot[i]? = some (Num.fin T) ∧ 0 ≤ T := by
  have hmem : ∀ it ∈ [obs "P", obs "Q"], ∃ name, it = obs name := by
    intro it hit
    simp only [List.mem_cons, List.not_mem_nil, or_false] at hit
    rcases hit with rfl | rfl <;> exact ⟨_, rfl⟩
  obtain ⟨tabs', r, tot, h1, h2, h3, _, h5, h6, h7⟩ := observation_succeeds world rfl rfl
    ⟨fun p f pts h => by simp [world] at h, fun f wl flux h => by
      simp only [world, Except.ok.injEq, Prod.mk.injEq] at h
      rw [← h.2]
      simp [All0]⟩
    (fun p rows h => by simp [world] at h) ⟨le_of_lt_pairwise, g_pos⟩ (fun _ _ _ _ => ⟨le_of_lt_pairwise, g_pos⟩)
    payload (.many [("screen", screen)]) rfl (by simp [Foreground.Section.list]) (by
      intro kd hkd
      simp only [Foreground.Section.list, List.mem_singleton] at hkd
      subst hkd
      refine ⟨?_, ?_, ?_⟩
      · intro t c ht hc
        simp only [screen, Option.some.injEq] at ht
        subst ht
        have : c = [1, 1, 1] := by simpa [Dict.get?] using hc.symm
        subst this
        simp [All0]
      · intro t c ht hc
        simp only [screen, Option.some.injEq] at ht
        subst ht
        have : c = [1 / 2, 1 / 2, 1 / 2] := by simpa [Dict.get?] using hc.symm
        subst this
        simp [All0]
      · simp [screen])
    { value := "custom", customSed := some "sed.csv" } rfl ⟨by norm_num [payload], rfl⟩ ⟨by norm_num [payload], rfl⟩
    [obs "P", obs "Q"] (by simp) rfl (by simp [obs, ch]) (by
      intro u hu q hq
      left
      intro v hv
      simp only [List.map_cons, List.map_nil, List.mem_cons, List.not_mem_nil, or_false] at hu hv
      have : q.1 ∈ ["chName", "Wavelength", "WindowSize"] := by
        rcases hu with rfl | rfl <;> simp only [obs, tab, List.mem_cons, List.not_mem_nil, or_false] at hq <;> rcases hq with rfl | rfl | rfl <;> simp
      rcases hv with rfl | rfl <;> exact this)
    (fun it hit => by obtain ⟨name, rfl⟩ := hmem it hit; exact real_ok name)
    (target n) ⟨⟨rfl, rfl⟩, by simp [target]⟩ (by simp [target]) sky (sky_ok n) built (source_ok n)
    (fun it hit => by obtain ⟨name, rfl⟩ := hmem it hit; exact fg_ok name)
    (fun it hit => by obtain ⟨name, rfl⟩ := hmem it hit; exact out_ok name)
    (fun it hit => by obtain ⟨name, rfl⟩ := hmem it hit; exact ⟨15 / 8, by simp [obs, out], by norm_num⟩)
    (fun _ => 100) (fun _ => 1) (fun _ => 1) (fun _ => 0) (fun _ => 0)
    (fun it hit => by
      obtain ⟨name, rfl⟩ := hmem it hit
      exact ⟨rfl, by norm_num, rfl, by norm_num, rfl, rfl, le_refl _, rfl, by simp [obs, ch], by simp [obs, ch]⟩)
    (fun it hit => by obtain ⟨name, rfl⟩ := hmem it hit; simp [obs, ch])
    (fun it hit => by obtain ⟨name, rfl⟩ := hmem it hit; simp [obs, ch, entries])
  refine ⟨tabs', r, tot, h1, h2, h3, h5, by simpa [rowNames, obs] using h6, ?_⟩
  intro i hi
  refine (h7 i (15 / 4) ?_).2 (by norm_num)
  rcases (by omega : i = 0 ∨ i = 1) with rfl | rfl <;> rfl

end ExoRad.Pipeline.Demo
