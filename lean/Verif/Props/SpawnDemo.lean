import Verif.Props.Spawn

/-!
# C94: a run where the platform changes the table

One photometer, a star of constant spectrum, and a foreground whose radiance is a triangle over the band, observed with a payload that declares
`working_R` 2.
-/

set_option linter.unusedSectionVars false

namespace ExoRad.Pipeline.SpawnDemo
open Table Light

theorem diffs_mem : ∀ (l : List ℝ) (d : ℝ), d ∈ Rebin.diffs l → ∃ a ∈ l, ∃ b ∈ l, d = b - a
  | [], d, h => by simp [Rebin.diffs] at h
  | [_], d, h => by simp [Rebin.diffs] at h
  | x :: y :: l, d, h => by
    rw [Rebin.diffs, List.mem_cons] at h
    rcases h with h | h
    · exact ⟨x, by simp, y, by simp, h⟩
    · obtain ⟨a, ha, b, hb, e⟩ := diffs_mem (y :: l) d h
      exact ⟨a, List.mem_cons_of_mem _ ha, b, List.mem_cons_of_mem _ hb, e⟩

/-- The band is sampled from 1 to 4 µm. -/
structure Samples (G : List ℝ) : Prop where
  sorted : G.Pairwise (· < ·)
  first : (1 : ℝ) ∈ G
  last : (4 : ℝ) ∈ G
  range : ∀ w ∈ G, 1 ≤ w ∧ w ≤ 4
  two : 2 ≤ G.length

theorem samples_logspace (R : ℕ) (hR : 2 ≤ R) : Samples (Instrument.logspace 1 4 R) := by
  obtain ⟨h1, h2, h3, h4, h5⟩ := Instrument.logspace_spec 1 4 R (by norm_num) (by norm_num) hR
  exact ⟨h1, h2, h3, h5, by omega⟩

variable {G : List ℝ}

/-- A constant known at both ends of the band. -/
noncomputable def ends (v : ℝ) : Rebin.Signal ℝ := ⟨[1, 4], [v, v]⟩

theorem ends_rebin (h : Samples G) (v : ℝ) : (ends v).spectralRebin G = .ok ⟨G, G.map (fun _ => v)⟩ := by
  have nz : (0 : ℝ) ∉ Rebin.diffs G := fun hm => lt_irrefl _ (Rebin.diffs_pos G h.sorted 0 hm)
  have hd : Rebin.diffs G ≠ [] := by
    intro hm
    have := Rebin.diffs_length G
    have h2 := h.two
    rw [hm] at this
    simp at this
    omega
  unfold Rebin.Signal.spectralRebin Rebin.rebin
  cases hlo : Rebin.minE G with
  | error e =>
    have h2 := h.two
    rw [(Rebin.minE_error hlo).1] at h2
    simp at h2
  | ok lo =>
    cases hhi : Rebin.maxE G with
    | error e =>
      have h2 := h.two
      rw [(Rebin.maxE_error hhi).1] at h2
      simp at h2
    | ok hi =>
      simp only
      have e1 : lo = 1 := le_antisymm ((Rebin.minE_spec hlo).2 1 h.first) (h.range lo (Rebin.minE_spec hlo).1).1
      have e4 : hi = 4 := le_antisymm (h.range hi (Rebin.maxE_spec hhi).1).2 ((Rebin.maxE_spec hhi).2 4 h.last)
      subst e1 e4
      have hw : Rebin.window (1 : ℝ) 4 ((ends v).wl.zip (ends v).data) = [(1, v), (4, v)] := by
        simp [Rebin.window, ends, List.filter_cons]
        norm_num
      rw [hw, Rebin.dedup_id _ _ (by simp [Rebin.diffs]; norm_num) (by simp), Rebin.dedupGrid_id _ nz h.two]
      simp only
      have hres : Rebin.resample G [(1, v), (4, v)] = .ok (G.map (fun _ => some v)) := by
        unfold Rebin.resample
        have hmax : Rebin.maxE (Rebin.diffs ([((1 : ℝ), v), (4, v)].map Prod.fst)) = .ok 3 := by
          simp [Rebin.diffs, Rebin.maxE]
          norm_num
        rw [hmax]
        cases hm' : Rebin.minE (Rebin.diffs G) with
        | error e => exact absurd (Rebin.minE_error hm').1 hd
        | ok mx =>
          have hle : mx ≤ 3 := by
            obtain ⟨a, ha, b, hb, e⟩ := diffs_mem _ _ (Rebin.minE_spec hm').1
            have := (h.range a ha).1
            have := (h.range b hb).2
            rw [e]
            linarith
          simp only [if_neg (not_lt.mpr hle), Except.ok.injEq]
          apply List.map_congr_left
          intro t ht
          have := Rebin.interp_line [((1 : ℝ), v), (4, v)] (by simp) 0 v t (by simp) (1, v) (4, v) (by simp) (by simp)
            (h.range t ht).1 (h.range t ht).2
          rw [this]
          simp
      simp only [hres, List.map_map]
      rfl

theorem self_rebin (h : Samples G) (f : ℝ → ℝ) : (Rebin.Signal.mk G (G.map f)).spectralRebin G = .ok ⟨G, G.map f⟩ :=
  Rebin.spectralRebin_self _ (by simp) h.sorted (fun w hw => lt_of_lt_of_le one_pos (h.range w hw).1) h.two

theorem mulCol_map (f g : ℝ → ℝ) : ∀ l : List ℝ, Diffuse.mulCol (l.map f) (l.map g) = l.map (fun w => f w * g w)
  | [] => rfl
  | a :: l => by
    have := mulCol_map f g l
    unfold Diffuse.mulCol at this ⊢
    simp [this]

theorem trapz_pos : ∀ (l : List ℝ) (f : ℝ → ℝ), l.Pairwise (· < ·) → 2 ≤ l.length → (∀ w ∈ l, 0 ≤ f w) → (∃ w ∈ l, 0 < f w) →
    0 < Diffuse.trapz l (l.map f)
  | [], _, _, h, _, _ => by simp at h
  | [_], _, _, h, _, _ => by simp at h
  | a :: b :: l, f, hs, _, h0, hex => by
    have hab : a < b := (List.pairwise_cons.mp hs).1 b (by simp)
    have hs' := (List.pairwise_cons.mp hs).2
    have h0' : ∀ w ∈ b :: l, 0 ≤ f w := fun w hw => h0 w (List.mem_cons_of_mem _ hw)
    have hn : 0 ≤ Diffuse.trapz (b :: l) ((b :: l).map f) := Diffuse.trapz_nonneg _ _ (hs'.imp (fun h => h.le)) (by
      intro v hv
      obtain ⟨w, hw, rfl⟩ := List.mem_map.mp hv
      exact h0' w hw)
    have hfa := h0 a (by simp)
    have hfb := h0 b (by simp)
    have hstep : 0 ≤ (b - a) * (f b + f a) / 2 := by
      have := sub_pos.mpr hab
      positivity
    have e : Diffuse.trapz (a :: b :: l) ((a :: b :: l).map f) = (b - a) * (f b + f a) / 2 + Diffuse.trapz (b :: l) ((b :: l).map f) := by
      simp [Diffuse.trapz]
    rw [e]
    by_cases h2 : 0 < f b + f a
    · have := sub_pos.mpr hab
      have : 0 < (b - a) * (f b + f a) / 2 := by positivity
      linarith
    · have hza : f a = 0 := by linarith
      have hzb : f b = 0 := by linarith
      obtain ⟨w, hw, hpos⟩ := hex
      rcases List.mem_cons.mp hw with rfl | hw
      · linarith
      · rcases List.mem_cons.mp hw with rfl | hw
        · linarith
        · have hl : 2 ≤ (b :: l).length := by
            have := List.length_pos_of_mem hw
            simp only [List.length_cons]
            omega
          have := trapz_pos (b :: l) f hs' hl h0' ⟨w, List.mem_cons_of_mem _ hw, hpos⟩
          linarith

/-! ## The run -/

/-- A photometer. -/
noncomputable def ch : Channel where
  spectrometer := false
  inst :=
    { wlMin := 1, wlMax := 4, force := some false, bins := ⟨[5 / 2], [3], [1], [4]⟩, atel := 1, perPhoton := 1, qe := ends 1, tr := ends 1,
      apertureCorrection := none, enE := none, prfMax := 1 / 2, wlPix := [], dwlPix := [], gain := fun _ => 0 }
  diffuse :=
    { wlPix := [], dwlPix := [], slitWidth := none, deltaPix := 1, spatialWidth := [], windowSize := [4], left := [1], right := [4], area := 1,
      omega := 1, perPhoton := 1 }
  noise :=
    { value := "P",
      detector := { wellDepth := some 100, fWellDepth := some 1, freqNDR := some 1, darkCurrent := some 0, readNoise := some 0 } }
  common := none

/-- Its table. -/
noncomputable def tab : Table ℝ :=
  [("chName", [.str "P"]), ("Wavelength", [.num (.fin (5 / 2))]), ("WindowSize", [.num (.fin 4)])]

/-- The foreground `screen`. -/
noncomputable def screen : Foreground.Descr ℝ where
  value := "screen"
  data := some [("Wavelength", [1, 2, 4]), ("Radiance", [0, 1, 0]), ("Transmission", [1, 1, 1])]

noncomputable def payload : Payload where
  channels := [ch]
  foreground := some (.many [("screen", screen)])
  source := some { value := "custom", customSed := some "sed.csv" }
  wlMin := ⟨1, none⟩
  wlMax := ⟨4, none⟩

noncomputable def setting : Setting where
  consts := ⟨Real.pi, planck, fun _ _ => 0⟩
  env := ⟨none, fun _ => false, fun _ => [], fun _ => none, fun _ _ => .error .osError, fun _ => .ok ([1, 4], [1, 1])⟩
  maps := ⟨fun _ => none, "", ""⟩

def target (name : String) : Target where
  name := name
  star := { D := some 1, R := some 1 }

/-- The radiance at a wavelength. -/
noncomputable def tri (w : ℝ) : ℝ := Foreground.interpFill 0 ([1, 2, 4].zip [0, 1, 0]) w

theorem tri_at : tri 1 = 0 ∧ tri 4 = 0 ∧ (∀ w, 1 ≤ w → w ≤ 4 → 0 ≤ tri w) ∧ ∀ w, 1 < w → w < 4 → 0 < tri w := by
  have key : ∀ w : ℝ, 1 ≤ w → w ≤ 4 → tri w = if w ≤ 2 then w - 1 else -1 / 2 * (w - 2) + 1 := by
    intro w h1 h2
    have hs : ([1, 2, 4].zip [0, 1, 0] : List (ℝ × ℝ)).insertionSort (fun p q => p.1 ≤ q.1) = [(1, 0), (2, 1), (4, 0)] := by
      apply List.Pairwise.insertionSort_eq
      simp
      norm_num
    unfold tri Foreground.interpFill
    rw [hs]
    have hl : Rebin.lastX ((1 : ℝ), (0 : ℝ)) [(2, 1), (4, 0)] = 4 := rfl
    simp only [hl, Rebin.segment]
    rw [if_neg (not_lt.mpr h1), if_neg (not_lt.mpr h2)]
    by_cases h : w ≤ 2
    · rw [if_pos h, if_pos h]
      ring
    · rw [if_neg h, if_neg h, if_pos h2]
      norm_num
  refine ⟨?_, ?_, ?_, ?_⟩
  · rw [key 1 (le_refl _) (by norm_num)]
    norm_num
  · rw [key 4 (by norm_num) (le_refl _)]
    norm_num
  · intro w h1 h2
    rw [key w h1 h2]
    split <;> linarith
  · intro w h1 h2
    rw [key w h1.le h2.le]
    split <;> linarith

theorem ones_at (h : Samples G) : G.map (Foreground.interpFill 1 ([1, 2, 4].zip [1, 1, 1])) = G.map (fun _ => (1 : ℝ)) := by
  apply List.map_congr_left
  intro w hw
  obtain ⟨h1, h4⟩ := h.range w hw
  rw [(Foreground.interpFill_spec 1 _ w).1 ⟨⟨(1, 1), by simp, h1⟩, ⟨(4, 1), by simp, h4⟩⟩]
  have := Rebin.interp_line ([1, 2, 4].zip [1, 1, 1] : List (ℝ × ℝ)) (by simp; norm_num) 0 1 w (by simp) (1, 1) (4, 1) (by simp) (by simp) h1 h4
  rw [this]
  simp

/-- The sky on a grid. -/
noncomputable def sky (G : List ℝ) : Foreground.Sky ℝ where
  foreground := some [("screen", ⟨⟨G, G.map tri⟩, some (G.map (fun _ => 1))⟩)]
  transmission := some ⟨G, G.map (fun _ => 1)⟩

theorem sky_ok (h : Samples G) (B : ℝ → ℝ → ℝ) (m : Foreground.MapFiles ℝ) (n : String) :
    Foreground.estimateForegrounds B m G (.many [("screen", screen)]) (target n).sky = (sky G, .ok ()) := by
  have hf : Foreground.skyForeground G screen = .ok ⟨⟨G, G.map tri⟩, some (G.map (fun _ => 1))⟩ := by
    simp only [Foreground.skyForeground, screen, Dict.getE, Dict.get?]
    simp only [String.reduceEq, if_true, if_false]
    rw [ones_at h]
    rfl
  have hv : screen.value = "screen" := rfl
  simp [Foreground.estimateForegrounds, Foreground.estimateLoop, Foreground.estimateOne, Foreground.estimateForeground, hf,
    Foreground.attenuate, Foreground.addForeground, target, sky, hv, Dict.set]

/-- The star on a grid. -/
noncomputable def star (G : List ℝ) : Source.Built ℝ := ⟨⟨G, G.map (fun _ => 1)⟩, 4 * Real.pi * 1 ^ 2 * Diffuse.trapz [1, 4] [1, 1], .custom⟩

theorem star_ok (grid : ℝ → ℝ → List ℝ) (h : Samples (grid 1 4)) (n : String) : Source.loadSource setting.consts setting.env grid
    { value := "custom", customSed := some "sed.csv" } (target n).star payload.wlMin payload.wlMax = .ok (star (grid 1 4)) := by
  have hr : (Rebin.Signal.mk [1, 4] [1, 1] : Rebin.Signal ℝ).spectralRebin (grid 1 4) = .ok ⟨grid 1 4, (grid 1 4).map (fun _ => 1)⟩ := ends_rebin h 1
  have hm : Rebin.Signal.mk? [(1 : ℝ), 4] [(1 : ℝ), 1] = .ok ⟨[1, 4], [1, 1]⟩ := (Rebin.mk?_ok _ _ _).mpr ⟨rfl, by simp [Rebin.Signal.WellFormed]⟩
  have hc : (Source.Descr.is { value := "custom", customSed := some "sed.csv" } "custom") = true := by decide
  have h4 : ¬ (1 : ℝ) > 4 := by norm_num
  simp [Source.loadSource, Source.sortRange, payload, h4, Source.buildStar, hc, Source.customSource, target, setting, Source.customStar, hm,
    Source.toGrid, hr, star]

/-- The integral of the radiance. -/
noncomputable def glow (G : List ℝ) : ℝ := Diffuse.trapz G (G.map (fun w => tri w * w))

noncomputable def fg (G : List ℝ) : Table ℝ :=
  [("screen_signal", [.num (.fin (glow G * 4))]), ("screen_MaxSignal_inPixel", [.num (.fin (glow G))])]

theorem zipWith_map_right (f : ℝ → ℝ → ℝ) (v : ℝ) : ∀ l : List ℝ, List.zipWith f l (l.map (fun _ => v)) = l.map (fun w => f w v)
  | [] => rfl
  | a :: l => by
    rw [List.map_cons, List.zipWith_cons_cons, zipWith_map_right f v l, List.map_cons]

theorem fg_ok (h : Samples G) : channelForeground (sky G) ch = .ok (fg G) := by
  have h1 : (ends 1).spectralRebin G = .ok ⟨G, G.map (fun _ => 1)⟩ := ends_rebin h 1
  have hp : Foreground.propagate ch.diffuse ch.inst.qe ch.inst.tr (sky G) =
      .ok [("screen_signal", [glow G * 4]), ("screen_MaxSignal_inPixel", [glow G])] := by
    have h2 : Foreground.mulData (G.map tri) (G.map (fun _ => (1 : ℝ))) = .ok (G.map tri) := by
      simp only [Foreground.mulData, List.length_map, if_true, mulCol_map, mul_one]
    have h3 : Foreground.slitless ch.diffuse (ends 1) ⟨G, G.map tri⟩ = .ok (⟨G, G.map (fun _ => 1)⟩, [glow G], [glow G * 4]) := by
      simp only [Foreground.slitless, h1, zipWith_map_right, Foreground.mulData, List.length_map, if_true, mulCol_map]
      simp [ch, Diffuse.integrateLight, glow]
    simp only [Foreground.propagate, sky, List.reverse_singleton, Foreground.propagateLoop, show ch.inst.qe = ends 1 from rfl,
      show ch.inst.tr = ends 1 from rfl, h1, h2, Foreground.detect, show ch.diffuse.slitWidth = none from rfl, h3]
    simp [Dict.set]
  unfold channelForeground
  rw [hp]
  simp [foregroundTable, fg, col]

theorem out_ok (h : Samples G) : ∃ out, channelTarget ch (star G).sed (sky G).transmission = .ok out ∧ ∃ v ∈ out.maxInPixel, 0 < v := by
  have h1 : (ends 1).spectralRebin G = .ok ⟨G, G.map (fun _ => 1)⟩ := ends_rebin h 1
  have hm : Rebin.Signal.mk? G (G.map (fun _ => (1 : ℝ))) = .ok ⟨G, G.map (fun _ => 1)⟩ := (Rebin.mk?_ok _ _ _).mpr ⟨rfl, by simp [Rebin.Signal.WellFormed]⟩
  have hpos : 0 < Diffuse.trapz G (G.map (fun w => w)) :=
    trapz_pos G _ h.sorted h.two (fun w hw => zero_le_one.trans (h.range w hw).1) ⟨1, h.first, one_pos⟩
  have hsig : Diffuse.trapz G (Instrument.density ch.inst G (G.map (fun _ => 1)) (G.map (fun _ => 1)) (G.map (fun _ => 1))) =
      Diffuse.trapz G (G.map (fun w => w)) := by
    simp only [Instrument.density, mulCol_map]
    simp [ch]
  simp only [channelTarget, show ch.spectrometer = false from rfl, Bool.false_eq_true, if_false, Instrument.photometerTarget, Instrument.getEfficiency, star,
    show ch.inst.qe = ends 1 from rfl, show ch.inst.tr = ends 1 from rfl, h1, sky, Instrument.withSky, Instrument.getTransmission, hm,
    show ch.inst.force = some false from rfl, self_rebin h (fun _ => 1), mulCol_map, mul_one, Instrument.forceEdge, hsig]
  refine ⟨_, rfl, _, List.mem_singleton.mpr rfl, ?_⟩
  simp only [show ch.inst.prfMax = 1 / 2 from rfl, show ch.inst.atel = 1 from rfl]
  linarith

theorem real_ok (out : Instrument.TargetOut ℝ) : (Obs.mk ch tab 1 (fg G) out).Real := by
  refine ⟨⟨Nat.one_pos, ⟨by simp [tab], by simp [tab, Dict.keys], ?_⟩, by simp [tab, Dict.keys], by simp [tab, Dict.keys], rfl,
    by simp [tab, Dict.keys], by simp [tab, Dict.keys], ?_, ?_, ?_, ⟨rfl, rfl, rfl⟩⟩, ?_, ?_, ?_, fun _ => rfl⟩
  · intro q hq
    simp only [tab, List.mem_cons, List.not_mem_nil, or_false] at hq
    rcases hq with rfl | rfl | rfl <;> rfl
  · intro c hc
    have : c = [.num (.fin (5 / 2))] := by simpa [tab, Dict.get?] using hc.symm
    subst this
    simp [isFin]
  · intro c hc
    have : c = [.num (.fin 4)] := by simpa [tab, Dict.get?] using hc.symm
    subst this
    intro x hx
    rw [List.mem_singleton] at hx
    subst hx
    exact ⟨4, rfl, by norm_num⟩
  · intro k c hc hk
    have hm : k ∈ tab.keys := mem_keys_of_get hc
    simp only [tab, Dict.keys, List.map_cons, List.map_nil, List.mem_cons, List.not_mem_nil, or_false] at hm
    rcases hm with rfl | rfl | rfl <;> exact absurd hk (by decide)
  · refine ⟨?_, ?_, ?_, ?_, ?_, ?_, ?_, ?_, ?_⟩ <;> simp [ch, ends, All0]
  · refine ⟨?_, ?_, ?_, ?_, ?_, ?_, ?_⟩ <;> simp [ch, All0]
  · refine ⟨rfl, rfl, rfl, ?_⟩
    simp [ch]

theorem logspace_sane (R : ℕ) (a b : ℝ) (ha : 0 < a) (hab : a ≤ b) :
    (Instrument.logspace a b R).Pairwise (· ≤ ·) ∧ ∀ x ∈ Instrument.logspace a b R, 0 < x := by
  constructor
  · unfold Instrument.logspace
    rw [List.pairwise_map]
    rcases Nat.lt_or_ge R 2 with hR | hR
    · rcases (by omega : R = 0 ∨ R = 1) with rfl | rfl <;> simp [List.range_succ]
    · apply List.Pairwise.imp _ List.pairwise_lt_range
      intro i j hij
      have h1 : (0 : ℝ) < (R : ℝ) - 1 := by
        have : (2 : ℝ) ≤ (R : ℝ) := by exact_mod_cast hR
        linarith
      have h2 : Real.logb 10 a ≤ Real.logb 10 b := Real.logb_le_logb_of_le (by norm_num) ha hab
      have h3 : (i : ℝ) ≤ (j : ℝ) := by exact_mod_cast hij.le
      apply Real.rpow_le_rpow_of_exponent_le (by norm_num)
      have := mul_le_mul_of_nonneg_right h3 (div_nonneg (sub_nonneg.mpr h2) h1.le)
      linarith
  · intro x hx
    unfold Instrument.logspace at hx
    obtain ⟨k, _, rfl⟩ := List.mem_map.mp hx
    positivity

/-- The target is observed with every resolution, and the table tells the light of the foreground. -/
theorem observed (R : ℕ) (hR : 2 ≤ R) (n : String) : ∃ (tabs' : List (Table ℝ)) (r : Table ℝ),
    observe (worldAt setting payload R) payload [tab] (target n) =
      (tabs', .ok { target n with sky := sky (Instrument.logspace 1 4 R), built := some (star (Instrument.logspace 1 4 R)), table := some r }) ∧
    r.get? "screen_signal" = some [.num (.fin (glow (Instrument.logspace 1 4 R) * 4))] := by
  have hG := samples_logspace R hR
  obtain ⟨out, hout, hbright⟩ := out_ok hG
  have hum : (worldAt setting payload R).skyGrid = Instrument.logspace 1 4 R := by simp [worldAt, payload, Source.Wl.um]
  have hsky : Foreground.estimateForegrounds (worldAt setting payload R).consts.B (worldAt setting payload R).maps (worldAt setting payload R).skyGrid
      (.many [("screen", screen)]) (target n).sky = (sky (Instrument.logspace 1 4 R), .ok ()) := by rw [hum]; exact sky_ok hG _ _ n
  have hstar : Source.loadSource (worldAt setting payload R).consts (worldAt setting payload R).env (worldAt setting payload R).grid
      { value := "custom", customSed := some "sed.csv" } (target n).star payload.wlMin payload.wlMax = .ok (star (Instrument.logspace 1 4 R)) :=
    star_ok (fun a b => Instrument.logspace a b R) hG n
  have hreal : ∀ it ∈ [Obs.mk ch tab 1 (fg (Instrument.logspace 1 4 R)) out], it.Real := by
    intro it hit
    rw [List.mem_singleton] at hit
    subst hit
    exact real_ok out
  have hlit := observation_lit (worldAt setting payload R) rfl rfl
    ⟨fun p f pts h => by simp [worldAt, setting] at h, fun f wl flux h => by
      simp only [worldAt, setting, Except.ok.injEq, Prod.mk.injEq] at h
      rw [← h.2]
      simp [All0]⟩
    (fun p rows h => by simp [worldAt, setting] at h) (by rw [hum]; exact logspace_sane R 1 4 one_pos (by norm_num)) (fun a b ha hab => logspace_sane R a b ha hab)
    payload (.many [("screen", screen)]) (by simp [Foreground.Section.list]) (by
      intro kd hkd
      simp only [Foreground.Section.list, List.mem_singleton] at hkd
      subst hkd
      refine ⟨?_, ?_, ?_⟩
      · intro t c ht hc
        simp only [screen, Option.some.injEq] at ht
        subst ht
        have : c = [0, 1, 0] := by simpa [Dict.get?] using hc.symm
        subst this
        simp [All0]
      · intro t c ht hc
        simp only [screen, Option.some.injEq] at ht
        subst ht
        have : c = [1, 1, 1] := by simpa [Dict.get?] using hc.symm
        subst this
        simp [All0]
      · simp [screen])
    { value := "custom", customSed := some "sed.csv" } ⟨by norm_num [payload], rfl⟩ ⟨by norm_num [payload], rfl⟩
    [Obs.mk ch tab 1 (fg (Instrument.logspace 1 4 R)) out] hreal
    (target n) ⟨⟨rfl, rfl⟩, by simp [target]⟩ (by simp [target]) _ hsky _ hstar
    (fun it hit => by rw [List.mem_singleton] at hit; subst hit; exact fg_ok hG)
    (fun it hit => by rw [List.mem_singleton] at hit; subst hit; exact hout)
    (fun it hit => by rw [List.mem_singleton] at hit; subst hit; exact hbright)
  obtain ⟨tabs', r, ft, tot, h1, _, _, _, _, _, _, h8, _⟩ := observation_complete (worldAt setting payload R) payload (.many [("screen", screen)]) rfl
    { value := "custom", customSed := some "sed.csv" } rfl [Obs.mk ch tab 1 (fg (Instrument.logspace 1 4 R)) out] (by simp) rfl (by simp) (by
      intro u hu q hq
      left
      intro v hv
      simp only [List.map_cons, List.map_nil, List.mem_cons, List.not_mem_nil, or_false] at hu hv
      subst hu hv
      exact List.mem_map.mpr ⟨q, hq, rfl⟩)
    (target n) ⟨⟨rfl, rfl⟩, by simp [target]⟩ _ hsky _ hstar (fun it hit => (hreal it hit).table) hlit
    (fun _ => 100) (fun _ => 1) (fun _ => 1) (fun _ => 0) (fun _ => 0)
    (fun it hit => by
      rw [List.mem_singleton] at hit; subst hit
      exact ⟨rfl, by norm_num, rfl, by norm_num, rfl, rfl, le_refl _, rfl, by simp [ch], by simp [ch]⟩)
    (fun it hit => by rw [List.mem_singleton] at hit; subst hit; simp [ch])
    (fun it hit => by rw [List.mem_singleton] at hit; subst hit; simp [ch, entries])
  refine ⟨tabs', r, h1, ?_⟩
  rw [h8 "screen_signal" (by decide) ⟨_, List.mem_singleton.mpr rfl, by simp [fg, Dict.keys]⟩ (by decide)]
  simp [stackedCol, fg, Dict.get?]

/-! ## The tables -/

noncomputable def opts : RunOpts := ⟨false, none, false, fun _ => .ok (), fun _ => .ok ()⟩
noncomputable def shared : Shared := ⟨[tab], .info⟩

theorem demo_built : Built payload [tab] := by
  refine ⟨rfl, ?_, ?_, ?_⟩
  · intro t ht
    rw [List.mem_singleton] at ht
    subst ht
    simp [tab, Table.rows]
  · intro t ht
    rw [List.mem_singleton] at ht
    subst ht
    simp [tab, Dict.keys]
  · intro c hc
    simp only [payload, List.mem_singleton] at hc
    subst hc
    simp [ch]

theorem glow_two : glow (Instrument.logspace 1 4 2) = 0 := by
  have : Instrument.logspace 1 4 2 = [1, 4] := by
    simp only [Instrument.logspace, List.range_succ, List.range_zero, List.nil_append, List.cons_append, List.map_cons, List.map_nil]
    norm_num
  rw [this]
  simp [glow, Diffuse.trapz, tri_at.1, tri_at.2.1]

theorem glow_pos (R : ℕ) (hR : 3 ≤ R) : 0 < glow (Instrument.logspace 1 4 R) := by
  have hG := samples_logspace R (by omega)
  apply trapz_pos _ _ hG.sorted hG.two
  · intro w hw
    obtain ⟨h1, h4⟩ := hG.range w hw
    exact mul_nonneg (tri_at.2.2.1 w h1 h4) (zero_le_one.trans h1)
  · have hlen : (Instrument.logspace 1 4 R).length = R := by simp [Instrument.logspace]
    have hp := List.pairwise_iff_getElem.mp hG.sorted
    have h01 := hp 0 1 (by omega) (by omega) (by omega)
    have h12 := hp 1 2 (by omega) (by omega) (by omega)
    have r0 := hG.range _ (List.getElem_mem (l := Instrument.logspace 1 4 R) (n := 0) (by omega))
    have r2 := hG.range _ (List.getElem_mem (l := Instrument.logspace 1 4 R) (n := 2) (by omega))
    refine ⟨_, List.getElem_mem (l := Instrument.logspace 1 4 R) (n := 1) (by omega), ?_⟩
    exact mul_pos (tri_at.2.2.2 _ (by linarith) (by linarith)) (by linarith)

theorem alone_eq (R : ℕ) (hR : 2 ≤ R) (n : String) : ∃ r : Table ℝ, alone (worldAt setting payload R) payload opts shared (target n) =
    some { target n with sky := sky (Instrument.logspace 1 4 R), built := some (star (Instrument.logspace 1 4 R)), table := some r } ∧
    r.get? "screen_signal" = some [.num (.fin (glow (Instrument.logspace 1 4 R) * 4))] := by
  obtain ⟨tabs', r, h1, h2⟩ := observed R hR n
  refine ⟨r, ?_, h2⟩
  unfold alone pipelineToDict
  simp only [shared, h1, plotTarget, opts, Bool.false_eq_true, if_false]

/-- C94, what does not hold, on a run: the payload declares `working_R` 2 and the target is observed both by this process and by two workers that
start afresh. Its table says there is no light from the foreground in the first case and some in the second. -/
theorem table_differs (n : String) : ∃ a b : Target,
    (observeTargetlistOn .fresh setting 2 payload opts 1 [0] shared [target n]).2 = [(some n, some a)] ∧
    (observeTargetlistOn .fresh setting 2 payload opts 2 [0] shared [target n]).2 = [(some n, some b)] ∧
    ∃ ta tb v, a.table = some ta ∧ b.table = some tb ∧ ta.get? "screen_signal" = some [.num (.fin 0)] ∧
      tb.get? "screen_signal" = some [.num (.fin v)] ∧ 0 < v := by
  obtain ⟨ra, ea, fa⟩ := alone_eq 2 (le_refl _) n
  obtain ⟨rb, eb, fb⟩ := alone_eq 6000 (by norm_num) n
  refine ⟨{ target n with sky := sky (Instrument.logspace 1 4 2), built := some (star (Instrument.logspace 1 4 2)), table := some ra },
    { target n with sky := sky (Instrument.logspace 1 4 6000), built := some (star (Instrument.logspace 1 4 6000)), table := some rb },
    ?_, ?_, ra, rb, _, rfl, rfl, ?_, fb, ?_⟩
  rotate_left 2
  · rw [fa, glow_two]
    simp
  · have := glow_pos 6000 (by norm_num)
    linarith
  · rw [on_one .fresh 2 1 (le_refl _)]
    unfold alone at ea
    unfold observeTargetlist runList
    rw [if_neg (by omega)]
    simp only [runList, ea]
    rfl
  · rw [on_fresh 2 2 (by norm_num)]
    unfold observeTargetlist
    rw [if_pos (by norm_num), pool_results _ _ _ _ _ _ (by simp)]
    simp only [List.map_cons, List.map_nil, eb]
    rfl

/-- The hypotheses of `fresh_same_iff` are met: the workers do not give the same dictionary. -/
theorem not_same (n : String) : ¬ SameDict (observeTargetlistOn .fresh setting 2 payload opts 2 [0] shared [target n]).2
    (observeTargetlistOn .fresh setting 2 payload opts 1 [0] shared [target n]).2 := by
  obtain ⟨a, b, ha, hb, _⟩ := table_differs n
  have := fresh_same_iff (k := setting) (p := payload) (o := opts) (s := shared) demo_built (fun _ _ _ => rfl) [target n]
    (by intro t ht; rw [List.mem_singleton] at ht; subst ht; exact ⟨rfl, rfl⟩) 2 .fresh 2 1 (by norm_num) (le_refl _) [0] [0] (by simp) (by simp)
    (some n) a (by rw [ha]; simp)
  intro h
  exact absurd (this.mp h) (by norm_num)

end ExoRad.Pipeline.SpawnDemo
