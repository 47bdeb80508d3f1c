import Verif.Props.Bright

/-!
# A nearer star with more noise: C97, C98

The photometer of `CompleteDemo` with read noise and a well of 75/2 counts observes a star at distance `D`.
-/

set_option linter.unusedSectionVars false

namespace ExoRad.Pipeline.Demo
open Table Light

/-- The photometer, with read noise. -/
noncomputable def chR (name : String) (rn : ℝ) : Channel :=
  { ch name with noise :=
    { value := name,
      detector := { wellDepth := some (75 / 2), fWellDepth := some 1, freqNDR := some 1, darkCurrent := some 0, readNoise := some rn } } }

noncomputable def payloadR (rn : ℝ) : Payload := { payload with channels := [chR "P" rn] }

/-- The star at distance `D`. -/
noncomputable def starAt (n : String) (D : ℝ) : Target := { target n with star := ⟨some D, some 5000, some 1, some 1⟩ }

noncomputable def obsR (rn : ℝ) : Obs := { obs "P" with ch := chR "P" rn }

noncomputable def builtAt (D : ℝ) : Source.Built ℝ :=
  ⟨⟨g, [1, 1, 1].map (fun v => (1 / D) ^ 2 * v)⟩, 4 * Real.pi * 1 ^ 2 * Diffuse.trapz g [1, 1, 1], .custom⟩

theorem sourceAt_ok (n : String) (rn D : ℝ) : Source.loadSource world.consts world.env world.grid { value := "custom", customSed := some "sed.csv" }
    (starAt n D).star (payloadR rn).wlMin (payloadR rn).wlMax = .ok (builtAt D) := by
  have hr : (Rebin.Signal.mk g ([1, 1, 1].map (fun v : ℝ => (1 / D) ^ 2 * v))).spectralRebin g = .ok ⟨g, [1, 1, 1].map (fun v : ℝ => (1 / D) ^ 2 * v)⟩ := by
    have := Source.spectralRebin_scale ((1 / D) ^ 2) (flat 1) g
    rw [flat_self] at this
    exact this
  have hm : Rebin.Signal.mk? g ([1, 1, 1].map (fun v : ℝ => (1 / D) ^ 2 * v)) = .ok ⟨g, [1, 1, 1].map (fun v : ℝ => (1 / D) ^ 2 * v)⟩ :=
    (Rebin.mk?_ok _ _ _).mpr ⟨rfl, by simp [Rebin.Signal.WellFormed, g]⟩
  have hc : (Source.Descr.is { value := "custom", customSed := some "sed.csv" } "custom") = true := by decide
  have h4 : ¬ (1 : ℝ) > 4 := by norm_num
  have he : ([1, 1, 1] : List ℝ).map (fun f => f * (1 / D) ^ 2) = [1, 1, 1].map (fun v : ℝ => (1 / D) ^ 2 * v) := by
    apply List.map_congr_left; intro x _; ring
  have hs : Source.customStar world.consts g [1, 1, 1] D 1 = .ok (builtAt D) := by
    unfold Source.customStar
    rw [he, hm]
    rfl
  unfold Source.loadSource Source.sortRange
  simp only [payloadR, payload, h4, if_false, Source.buildStar, hc, if_true, Source.customSource, starAt, world] at hs ⊢
  simp [hs, Source.toGrid, builtAt] at hr ⊢
  simp [hr]

theorem litR (rn : ℝ) : (obsR rn).Lit sky built.sed := by
  obtain ⟨h1, h2, h3, h4, h5, h6, h7, h8, h9⟩ := lit_ok "P"
  exact ⟨h1, h2, h3, h4, h5, h6, h7, h8, h9⟩

theorem builtR (rn : ℝ) : (obsR rn).BuiltTable := by
  obtain ⟨h1, h2, h3, h4, h5, h6, h7, h8, h9, h10, h11⟩ := (real_ok "P").table
  exact ⟨h1, h2, h3, h4, h5, h6, h7, h8, h9, h10, h11⟩

theorem keysR (rn c : ℝ) : ∀ it ∈ [obsR rn].map (Obs.scale c), ∀ k, k ∈ it.tab.keys ∨ k ∈ it.fg.keys →
    k ∈ ["chName", "Wavelength", "WindowSize", "screen_signal", "screen_MaxSignal_inPixel"] := by
  intro it hit k hk
  simp only [List.map_cons, List.map_nil, List.mem_singleton] at hit
  subst hit
  simp only [Obs.scale, obsR, obs, tab, fg, Dict.keys, List.map_cons, List.map_nil, List.mem_cons, List.not_mem_nil, or_false] at hk ⊢
  tauto

theorem noiseR (rn c : ℝ) : ∀ it ∈ [obsR rn].map (Obs.scale c), ∀ k, k ∈ it.tab.keys ∨ k ∈ it.fg.keys → ¬ NoiseName k := by
  intro it hit k hk
  have := keysR rn c it hit k hk
  simp only [List.mem_cons, List.not_mem_nil, or_false] at this
  unfold NoiseName
  rcases this with rfl | rfl | rfl | rfl | rfl <;> decide

theorem detR (rn c : ℝ) : ∀ it ∈ [obsR rn].map (Obs.scale c), GoodDetector it.ch.noise.detector (75 / 2) 1 1 0 rn := by
  intro it hit
  simp only [List.map_cons, List.map_nil, List.mem_singleton] at hit
  subst hit
  exact ⟨rfl, by norm_num, rfl, by norm_num, rfl, rfl, le_refl _, rfl, by simp [Obs.scale, obsR, chR], by simp [Obs.scale, obsR, chR]⟩

theorem fillR (rn c : ℝ) : Fillable (([obsR rn].map (Obs.scale c)).map Obs.tab) := by
  intro u hu q hq
  left
  intro v hv
  simp only [List.map_cons, List.map_nil, List.mem_singleton] at hu hv
  rw [hv, ← hu]
  exact List.mem_map.mpr ⟨q, hq, rfl⟩

/-- Observation of the star at distance `D`, exactly. -/
theorem demo_at (n : String) (rn D : ℝ) (hD : 0 < D) : ∃ (tabs' : List (Table ℝ)) (r : Table ℝ) (T : ℝ),
    observe world (payloadR rn) [tab "P"] (starAt n D) = (tabs', .ok { starAt n D with sky := sky, built := some (builtAt D), table := some r }) ∧
    r.get? "star_signal_inAperture" = some [.num (.fin ((1 / D) ^ 2 * (15 / 4)))] ∧
    r.get? "total_noise" = some [.num (.fin T)] ∧ 0 ≤ T ∧
    T ^ 2 = Spec.relVariance ⟨0, rn, 0, 75 / 2 / (15 / 2 + (1 / D) ^ 2 * (15 / 8)), 1, 1⟩
      ⟨(1 / D) ^ 2 * (15 / 4), 30 + (1 / D) ^ 2 * (15 / 4), 4⟩ [] := by
  obtain ⟨c, hc⟩ : ∃ c, c = (1 / D) ^ 2 := ⟨_, rfl⟩
  have hc0 : 0 < c := by rw [hc]; positivity
  have hsed : (builtAt D).sed = Source.scale c built.sed := by rw [hc]; rfl
  have hlit : ∀ it ∈ [obsR rn].map (Obs.scale c), it.Lit sky (builtAt D).sed := by
    intro it hit
    simp only [List.map_cons, List.map_nil, List.mem_singleton] at hit
    subst hit
    rw [hsed]
    exact (litR rn).scaled hc0
  have hbuilt : ∀ it ∈ [obsR rn].map (Obs.scale c), it.BuiltTable := by
    intro it hit
    simp only [List.map_cons, List.map_nil, List.mem_singleton] at hit
    subst hit
    exact (builtR rn).scaled c
  have hX : ∀ it ∈ [obsR rn].map (Obs.scale c), -1 ≤ it.ch.noise.noiseX.getD 0 := by
    intro it hit
    simp only [List.map_cons, List.map_nil, List.mem_singleton] at hit
    subst hit
    simp [Obs.scale, obsR, chR]
  have hcust : ∀ it ∈ [obsR rn].map (Obs.scale c), (∀ e ∈ entries it.ch.common, GoodEntry e) ∧ ∀ e ∈ entries it.ch.noise.customNoise, GoodEntry e := by
    intro it hit
    simp only [List.map_cons, List.map_nil, List.mem_singleton] at hit
    subst hit
    simp [Obs.scale, obsR, chR, ch, entries]
  obtain ⟨tabs', M, r, h1, hM, hT, rnd, keep, out⟩ := observation_table world (payloadR rn) (.many [("screen", screen)]) rfl
    { value := "custom", customSed := some "sed.csv" } rfl ([obsR rn].map (Obs.scale c)) (by simp) rfl (by simp) (fillR rn c) (starAt n D) ⟨⟨rfl, rfl⟩, by simp [starAt, target]⟩
    sky (sky_ok n) (builtAt D) (sourceAt_ok n rn D) hbuilt hlit (noiseR rn c) (fun _ => 75 / 2) (fun _ => 1) (fun _ => 1) (fun _ => 0) (fun _ => rn)
    (detR rn c) hX hcust
  obtain ⟨_, r2, tot, q1, _, q3, q4, q5⟩ := observation_budget world (payloadR rn) (.many [("screen", screen)]) rfl
    { value := "custom", customSed := some "sed.csv" } rfl ([obsR rn].map (Obs.scale c)) (by simp) rfl (by simp) (fillR rn c) (starAt n D) ⟨⟨rfl, rfl⟩, by simp [starAt, target]⟩
    sky (sky_ok n) (builtAt D) (sourceAt_ok n rn D) hbuilt hlit (noiseR rn c) (fun _ => 75 / 2) (fun _ => 1) (fun _ => 1) (fun _ => 0) (fun _ => rn)
    (detR rn c) hX hcust
  rw [h1] at q1
  simp only [Prod.mk.injEq, Except.ok.injEq, Target.mk.injEq, Option.some.injEq, true_and] at q1
  obtain ⟨_, rfl⟩ := q1
  have kM : ∀ k ∈ M.keys, k ∈ starNames ∨ k ∈ ["chName", "Wavelength", "WindowSize", "screen_signal", "screen_MaxSignal_inPixel"] := by
    intro k hk
    by_contra hcon
    push Not at hcon
    exact hM.none k hcon.1 (fun it hit h => hcon.2 (keysR rn c it hit k (.inr h))) (fun it hit h => hcon.2 (keysR rn c it hit k (.inl h))) hk
  have hstar : M.get? "star_signal_inAperture" = some (col [c * (15 / 4)]) := hM.aperture
  have hpix : M.get? "star_MaxSignal_inPixel" = some (col [c * (15 / 8)]) := hM.maxPix
  have hscr : M.get? "screen_signal" = some (col [30]) := by
    rw [hM.fg _ (by decide) ⟨(obsR rn).scale c, by simp, by simp [Obs.scale, obsR, obs, fg, tab, Dict.keys]⟩]
    rfl
  have hscm : M.get? "screen_MaxSignal_inPixel" = some (col [15 / 2]) := by
    rw [hM.fg _ (by decide) ⟨(obsR rn).scale c, by simp, by simp [Obs.scale, obsR, obs, fg, tab, Dict.keys]⟩]
    rfl
  have hwin : M.get? "WindowSize" = some (col [4]) := by
    rw [hM.tab _ (by decide) (by
      intro it hit
      simp only [List.map_cons, List.map_nil, List.mem_singleton] at hit
      subst hit
      simp [Obs.scale, obsR, obs, fg, Dict.keys]) ⟨(obsR rn).scale c, by simp, by simp [Obs.scale, obsR, obs, fg, tab, Dict.keys]⟩]
    rfl
  have val : ∀ {k : String} {x : ℝ}, M.get? k = some (col [x]) → cellAt r k 0 = x := by
    intro k x h
    rw [cellAt_congr (keep k (mem_keys_of_get h)).2.2, cellAt_col h]
    rfl
  have names : ∀ (P : String → Bool) (a b : String), a ≠ b → a ∈ M.keys → b ∈ M.keys → P a = true → P b = true →
      P "MaxSignal_inPixel" = false → (∀ k, NoiseName k → P k = false) →
      (∀ k, k ∈ starNames ∨ k ∈ ["chName", "Wavelength", "WindowSize", "screen_signal", "screen_MaxSignal_inPixel"] → P k = true → k = a ∨ k = b) →
      ((r.keys.filter P).map (fun k => cellAt r k 0)).sum = cellAt r a 0 + cellAt r b 0 := by
    intro P a b hab ha hb pa pb pm pn pk
    have hp : (r.keys.filter P).Perm [a, b] := by
      rw [List.perm_ext_iff_of_nodup (rnd.filter _) (by simpa using hab)]
      intro k
      simp only [List.mem_filter, List.mem_cons, List.not_mem_nil, or_false]
      constructor
      · rintro ⟨k1, k2⟩
        rcases out k k1 with h | rfl | h
        · exact pk k (kM k h) k2
        · rw [pm] at k2; cases k2
        · rw [pn k h] at k2; cases k2
      · rintro (rfl | rfl)
        · exact ⟨(keep _ ha).2.1, pa⟩
        · exact ⟨(keep _ hb).2.1, pb⟩
    rw [(hp.map (fun k => cellAt r k 0)).sum_eq]
    simp
  have hsum : signalSum r 0 = 30 + c * (15 / 4) := by
    unfold signalSum
    rw [names _ "screen_signal" "star_signal_inAperture" (by decide) (mem_keys_of_get hscr) (mem_keys_of_get hstar) (by decide) (by decide) (by decide)
      (by
        rintro k (h | rfl | rfl)
        · simp [h]
        · decide
        · decide)
      (by
        intro k hk hP
        simp only [starNames, List.mem_cons, List.not_mem_nil, or_false] at hk
        rcases hk with (rfl | rfl | rfl | rfl | rfl) | rfl | rfl | rfl | rfl | rfl <;> first | exact .inl rfl | exact .inr rfl | exact absurd hP (by decide)),
      val hscr, val hstar]
  have hmax : maxSum r 0 = 15 / 2 + c * (15 / 8) := by
    unfold maxSum
    rw [names _ "screen_MaxSignal_inPixel" "star_MaxSignal_inPixel" (by decide) (mem_keys_of_get hscm) (mem_keys_of_get hpix) (by decide) (by decide)
      (by decide)
      (by
        rintro k (h | rfl | rfl)
        · simp [h]
        · decide
        · decide)
      (by
        intro k hk hP
        simp only [starNames, List.mem_cons, List.not_mem_nil, or_false] at hk
        rcases hk with (rfl | rfl | rfl | rfl | rfl) | rfl | rfl | rfl | rfl | rfl <;> first | exact .inl rfl | exact .inr rfl | exact absurd hP (by decide)),
      val hscm, val hpix]
  obtain ⟨m0, m1⟩ := q5 ((obsR rn).scale c) (by simp)
  obtain ⟨a1, a2, _, _, _, a6⟩ := m1 0 rfl
  obtain ⟨j, hj, e⟩ := m0 rfl
  have hj0 : j = 0 := by
    have := (List.getElem?_eq_some_iff.mp hj).1
    simp only [rowNames, List.map_cons, List.map_nil, List.flatMap_cons, List.flatMap_nil, List.append_nil, List.length_replicate] at this
    have h1 : ((obsR rn).scale c).n = 1 := rfl
    omega
  subst hj0
  have hframe : cellAt r "frameTime" 0 = 75 / 2 / (15 / 2 + c * (15 / 8)) := by
    rw [a1, hmax] at e
    rw [eq_div_iff (by positivity), e]
    norm_num
  obtain ⟨T, t1, t2, t3⟩ := a6 (by rw [val hstar]; positivity)
  have htot : tot = [.fin T] := by
    have hl : tot.length = 1 := by rw [q4]; rfl
    obtain ⟨x, rfl⟩ := List.length_eq_one_iff.mp hl
    simpa using t1
  rw [val hstar, hsum, hframe, val hwin] at t3
  rw [← hc]
  refine ⟨tabs', r, T, h1, ?_, ?_, t2, t3⟩
  · rw [(keep _ (mem_keys_of_get hstar)).2.2, hstar]
    rfl
  · rw [q3, htot]
    rfl

/-- C98 fails with read noise: the same star, nearer. Its signal is greater by 5 %, the frame is shorter, one read of the ramp is
lost, and the relative noise is greater. -/
theorem nearer_star_more_noise (n : String) : ∃ (tabs₁ tabs₂ : List (Table ℝ)) (r r' : Table ℝ) (S S' T T' : ℝ),
    observe world (payloadR 100) [tab "P"] (starAt n 1) = (tabs₁, .ok { starAt n 1 with sky := sky, built := some (builtAt 1), table := some r }) ∧
    observe world (payloadR 100) [tab "P"] (starAt n (40 / 41)) =
      (tabs₂, .ok { starAt n (40 / 41) with sky := sky, built := some (builtAt (40 / 41)), table := some r' }) ∧
    r.get? "star_signal_inAperture" = some [.num (.fin S)] ∧ r'.get? "star_signal_inAperture" = some [.num (.fin S')] ∧
    r.get? "total_noise" = some [.num (.fin T)] ∧ r'.get? "total_noise" = some [.num (.fin T')] ∧ S < S' ∧ T < T' := by
  obtain ⟨tabs₁, r, T, h1, h2, h3, h4, h5⟩ := demo_at n 100 1 one_pos
  obtain ⟨tabs₂, r', T', h1', h2', h3', h4', h5'⟩ := demo_at n 100 (40 / 41) (by norm_num)
  refine ⟨tabs₁, tabs₂, r, r', _, _, T, T', h1, h1', h2, h2', h3, h3', by norm_num, ?_⟩
  refine (pow_lt_pow_iff_left₀ h4 h4' two_ne_zero).mp ?_
  rw [h5, h5']
  have e1 : Spec.reads (75 / 2 / (15 / 2 + (1 / 1) ^ 2 * (15 / 8))) 1 = 4 := by
    unfold Spec.reads
    norm_num
  have e2 : Spec.reads (75 / 2 / (15 / 2 + (1 / (40 / 41)) ^ 2 * (15 / 8))) 1 = 3 := by
    unfold Spec.reads
    have : ⌊(75 / 2 / (15 / 2 + (1 / (40 / 41)) ^ 2 * (15 / 8)) * 1 : ℝ)⌋ = 3 := by
      rw [Int.floor_eq_iff]
      norm_num
    rw [this]
    norm_num
  unfold Spec.relVariance Spec.rateVariance
  simp only [e1, e2]
  unfold Spec.shotGain Spec.readGain
  norm_num

/-- The hypotheses of `signal_distance` and `brighter_noise` are met by a star moved from `k · D` to `D`, for every `D` and `k ≥ 1`. -/
theorem demo_brighter (n : String) (rn D k : ℝ) (hD : 0 < D) (hk : 1 ≤ k) :
    ∃ (tabs₁ tabs₂ : List (Table ℝ)) (r r' : Table ℝ) (tot tot' : List (Num ℝ)),
      observe world (payloadR rn) [tab "P"] (starAt n (k * D)) =
        (tabs₁, .ok { starAt n (k * D) with sky := sky, built := some (builtAt (k * D)), table := some r }) ∧
      observe world (payloadR rn) [tab "P"] (starAt n D) = (tabs₂, .ok { starAt n D with sky := sky, built := some (builtAt D), table := some r' }) ∧
      r.get? "total_noise" = some (tot.map Cell.num) ∧ r'.get? "total_noise" = some (tot'.map Cell.num) ∧
      ∃ T T' : ℝ, tot[0]? = some (Num.fin T) ∧ tot'[0]? = some (Num.fin T') ∧ T' ^ 2 ≤ 5 / 4 * T ^ 2 ∧ (rn = 0 → T' ≤ T) := by
  obtain ⟨c, hc⟩ : ∃ c, c = (1 / (k * D)) ^ 2 := ⟨_, rfl⟩
  have hkD : 0 < k * D := by positivity
  have hc0 : 0 < c := by rw [hc]; positivity
  have hsed : (builtAt (k * D)).sed = Source.scale c built.sed := by rw [hc]; rfl
  have hone : ∀ {P : Obs → Prop}, P ((obsR rn).scale c) → ∀ it ∈ [obsR rn].map (Obs.scale c), P it := by
    intro P h it hit
    simp only [List.map_cons, List.map_nil, List.mem_singleton] at hit
    exact hit ▸ h
  obtain ⟨tabs₁, tabs₂, r, r', tot, tot', h1, h2, h3, h4, h5⟩ := brighter_noise world (payloadR rn) (.many [("screen", screen)]) rfl
    { value := "custom", customSed := some "sed.csv" } rfl ([obsR rn].map (Obs.scale c)) (by simp) rfl (by simp) (fillR rn c) (starAt n (k * D)) (starAt n D)
    ⟨⟨rfl, rfl⟩, by simp [starAt, target]⟩ ⟨⟨rfl, rfl⟩, by simp [starAt, target]⟩ sky (sky_ok n) rfl (builtAt (k * D)) (builtAt D) (sourceAt_ok n rn (k * D)) (sourceAt_ok n rn D) (k ^ 2)
    (one_le_pow₀ hk) rfl (by
      simp only [builtAt, List.map_map]
      apply List.map_congr_left
      intro x _
      simp only [Function.comp]
      field_simp)
    (hone ((builtR rn).scaled c)) (hone (by rw [hsed]; exact (litR rn).scaled hc0)) (noiseR rn c)
    (fun it hit h => by
      have := keysR rn c it hit _ (.inl h)
      exact absurd this (by decide))
    (fun _ => 75 / 2) (fun _ => 1) (fun _ => 1) (fun _ => 0) (fun _ => rn) (detR rn c) (hone zero_le_one)
    (hone (by simp [Obs.scale, obsR, chR])) (hone (by simp [Obs.scale, obsR, chR, ch, entries]))
  obtain ⟨_, _, h6⟩ := h5 ((obsR rn).scale c) (by simp) 0 rfl
  obtain ⟨_, r0, _, g1, g2, _⟩ := demo_at n rn (k * D) hkD
  have hr : r = r0 := by
    have : observe world (payloadR rn) (([obsR rn].map (Obs.scale c)).map Obs.tab) (starAt n (k * D)) = observe world (payloadR rn) [tab "P"] (starAt n (k * D)) := rfl
    rw [this, g1] at h1
    simp only [Prod.mk.injEq, Except.ok.injEq, Target.mk.injEq, Option.some.injEq, true_and] at h1
    exact h1.2.symm
  obtain ⟨T, T', t1, t2, _, _, t5, t6⟩ := h6 (by
    rw [hr]
    unfold cellAt
    rw [g2]
    simp only [Option.getD_some, List.getD, List.getElem?_cons_zero, cellVal]
    positivity)
  exact ⟨tabs₁, tabs₂, r, r', tot, tot', h1, h2, h3, h4, T, T', t1, t2, t5, fun h => t6 (.inl h)⟩

end ExoRad.Pipeline.Demo
