import Verif.Props.Units
import Verif.Props.BuildValuesDemo

/-!
# C89: the hypotheses can be met, and the claim in full is false
-/

set_option linter.unusedSectionVars false

namespace ExoRad.Build.Demo
open Table Pipeline Light Build
noncomputable section

def nm : Units := ⟨1 / 1000, 1, 1⟩

def mm : Units := ⟨1, 1000, 1⟩

/-- Pixels of a spectrometer in millimetres, everything else in microns: nothing changes. -/
theorem spectrometer_mm (fuel : ℕ) (c : Common) : buildIn fuel env c false mm spec = build fuel env c false spec :=
  units_partial fuel env c false rfl (fun h => by cases h.1) (fun _ => rfl)

theorem grid2 : workGrid env phot2 = [1, 19 / 10] := by
  have h1 : (10 : ℝ) ^ Real.logb 10 (19 / 10) = 19 / 10 := Real.rpow_logb (by norm_num) (by norm_num) (by norm_num)
  simp only [workGrid, Instrument.logspace, env, phot2, phot, List.range_succ, List.range_zero, List.nil_append, List.cons_append, List.map_cons, List.map_nil,
    Real.logb_one]
  norm_num [h1]

def mirror2 (g : List ℝ) : Optics.Element ℝ := ⟨"M1", "surface", g.map (Optics.cut mirror (9 / 10)), g.map (fun _ => 1 / 10), some 80, .path, none, none⟩

def filter2 (g : List ℝ) : Optics.Element ℝ := ⟨"filter", "surface", g.map (Optics.cut filter (1 / 2)), g.map (fun _ => 0), none, .path, none, none⟩

/-- The elements of the path on a grid. -/
theorem elements2 (d : Descr) (ho : d.optics = phot2.optics) :
    pathElements env common2 d = .ok [("M1", mirror2 (workGrid env d)), ("filter", filter2 (workGrid env d))] := by
  unfold pathElements
  rw [if_neg (by simp [env]), ho]
  simp [common2, phot2, Optics.prepareElements, Optics.buildMany, Optics.mkElement, Optics.getTransmission, Optics.getEmissivity, mirror, filter, Optics.prepend,
    mirror2, filter2, Optics.getPosition, Dict.set]

/-- The detector's range in nanometres: the photometer behind a warm mirror cannot be built. -/
theorem detector_nm (fuel : ℕ) (b : Built) : buildIn fuel env common2 false nm phot2 ≠ some (.ok b) := by
  intro h
  have key := h
  unfold buildIn at h
  simp only [Bool.false_eq_true, if_false] at h
  have hst : builderIn fuel env nm phot2 = photometerStage fuel env phot2 { radius := some 1 } := rfl
  cases hs : photometerStage fuel env phot2 { radius := some 1 } with
  | none => simp [hst, hs] at h
  | some y =>
    cases y with
    | error x => simp [hst, hs] at h
    | ok st =>
      obtain ⟨hbins, _⟩ := photometer_inv hs
      have hq := (builder_inv (fuel := fuel) (env := env) (d := phot2) (st := st) hs).1
      have hq' : st.qe = ⟨workGrid env phot2, (workGrid env phot2).map (fun _ => 1 / 2)⟩ := (Except.ok.inj hq).symm
      have hch : b.ch.inst.qe = st.qe ∧ b.ch.inst.bins = st.bins := by
        simp only [hst, hs, Option.some.injEq] at h
        unfold buildPathIn at h
        repeat' split at h
        all_goals first | (cases h; done) | skip
        simp only [Except.ok.injEq] at h
        rw [← h]
        exact ⟨rfl, rfl⟩
      obtain ⟨⟨els, h1, h2⟩, _⟩ := detector_unit_fails sound_env (by norm_num [nm]) ⟨by norm_num [phot2, phot], by norm_num [phot2, phot]⟩ key
        (by
          intro w hw
          rw [hch.1, hq', grid2] at hw
          simp only [List.mem_cons, List.not_mem_nil, or_false] at hw
          rcases hw with rfl | rfl <;> norm_num [phot2, phot, nm])
        (by
          intro w hw
          rw [hch.2, hbins] at hw
          simp only [Instrument.binsOfEdges, Instrument.mkBins, Instrument.centres, List.mem_cons, List.not_mem_nil, or_false, phot2, phot] at hw
          rw [hw]
          norm_num [phot2, phot, nm])
      rw [elements2 (bareDetector nm phot2) rfl] at h1
      have := h2 ("M1", mirror2 (workGrid env (bareDetector nm phot2))) (by rw [← Except.ok.inj h1]; simp)
      simp [mirror2] at this

theorem qe2 : (⟨[1, 19 / 10], [1 / 2, 1 / 2]⟩ : Rebin.Signal ℝ).spectralRebin [1, 19 / 10] = .ok ⟨[1, 19 / 10], [1 / 2, 1 / 2]⟩ := by
  have hi : ∀ c, Rebin.interp ([(1, 1 / 2), (19 / 10, 1 / 2)] : List (ℝ × ℝ)) c = if (1 : ℝ) ≤ c ∧ c ≤ 19 / 10 then 1 / 2 else 0 := by
    intro c
    have := interp_constant sound_env sound_phot2 (1 / 2) c
    rw [grid2] at this
    exact this
  unfold Rebin.Signal.spectralRebin Rebin.rebin
  have hw : Rebin.window (1 : ℝ) (19 / 10) [(1, 1 / 2), (19 / 10, 1 / 2)] = [((1 : ℝ), (1 / 2 : ℝ)), (19 / 10, 1 / 2)] := by
    unfold Rebin.window
    rw [List.filter_eq_self]
    intro p hp
    simp only [List.mem_cons, List.not_mem_nil, or_false] at hp
    rcases hp with rfl | rfl <;> norm_num
  have hmin : Rebin.minE [(1 : ℝ), 19 / 10] = .ok 1 := by simp [Rebin.minE]; norm_num
  have hmax : Rebin.maxE [(1 : ℝ), 19 / 10] = .ok (19 / 10) := by simp [Rebin.maxE]; norm_num
  simp only [hmin, hmax, List.zip_cons_cons, List.zip_nil_right, hw]
  have hd : Rebin.dedup ([((1 : ℝ), (1 / 2 : ℝ)), (19 / 10, 1 / 2)].length + 1) [((1 : ℝ), (1 / 2 : ℝ)), (19 / 10, 1 / 2)] = .ok [(1, 1 / 2), (19 / 10, 1 / 2)] :=
    Rebin.dedup_id _ _ (by simp [Rebin.diffs]; norm_num) (by simp)
  have hg : Rebin.dedupGrid [(1 : ℝ), 19 / 10] = .ok [1, 19 / 10] := by
    unfold Rebin.dedupGrid
    rw [Rebin.dedup_id _ _ (by simp [Rebin.diffs]; norm_num) (by simp)]
    simp
  simp only [hd, hg]
  have hr : Rebin.resample [(1 : ℝ), 19 / 10] [((1 : ℝ), (1 / 2 : ℝ)), (19 / 10, 1 / 2)] = .ok [some (1 / 2), some (1 / 2)] := by
    unfold Rebin.resample
    simp only [Rebin.diffs, List.map_cons, List.map_nil, Rebin.maxE, Rebin.minE, List.foldl_nil, lt_irrefl, if_false]
    rw [hi, hi, if_pos (by norm_num), if_pos (by norm_num)]
  simp only [hr]
  rfl

/-- The pixel size of the photometer in millimetres: the emission of the mirror is a million times too bright. -/
theorem photometer_mm : ∃ fuel b b', build fuel env common2 false phot2 = some (.ok b) ∧ buildIn fuel env common2 false mm phot2 = some (.ok b') ∧
    ∃ v, 0 < v ∧ b.table.get? "instrument_signal" = some (col [v]) ∧ b'.table.get? "instrument_signal" = some (col [1000000 * v]) := by
  obtain ⟨fuel, b, h⟩ := build_succeeds sound_env sound_common2 sound_phot2 complete_phot2
  have h := h
  have hu : Unitful phot2 := ⟨rfl, by simp [psfFormat, phot2, phot]⟩
  obtain ⟨b', h', h1, _, _, _, h2, _⟩ := photometer_pixel_unit (u := mm) rfl hu h
  obtain ⟨_, st, hst, hb⟩ := build_inv h
  obtain ⟨els, total, trCol, tr, rads, g1, g2, g3, g4, g5, g6, g7⟩ := builder_photometer_slit hu.1 hb
  have hels : els = [("M1", mirror2 [1, 19 / 10]), ("filter", filter2 [1, 19 / 10])] := by
    rw [elements2 phot2 rfl, grid2] at g1
    exact (Except.ok.inj g1).symm
  have hrads : rads = [("M1", ⟨.path, false, [4, 4]⟩)] := by
    rw [hels, grid2] at g4
    simp [Optics.chain, mirror2, filter2, Optics.passThrough, Optics.surfaceRadiance, Diffuse.mulCol, Dict.set, Optics.cut, filter] at g4
    rw [← g4]
    norm_num [env]
  have hqe : st.qe = ⟨[1, 19 / 10], [1 / 2, 1 / 2]⟩ := by
    have := (builder_inv hst).1
    have e : getQe env phot2 = .ok ⟨workGrid env phot2, (workGrid env phot2).map (fun _ => 1 / 2)⟩ := rfl
    rw [e, grid2] at this
    exact (Except.ok.inj this).symm
  obtain ⟨hbins, prf, k, s, _, hws, hsize, _⟩ := photometer_inv (fuel := fuel) (env := env) (d := phot2) (ap := { radius := some 1 }) hst
  have hs : s = 6728 := by
    unfold windowsSize at hws
    rw [if_neg hu.2] at hws
    simp only [phot2, phot, Psf.photometerWindow, Psf.inPixels, Bool.false_eq_true, if_false, Option.some.injEq, Except.ok.injEq] at hws
    rw [← hws]
    norm_num
  have hn : st.bins.wl.length = 1 := by rw [hbins]; rfl
  obtain ⟨o1, _⟩ := Psf.omegaPix_bounds 20 10 (by norm_num) (by norm_num)
  have htot : b.signals.total = [0 + Diffuse.trapz [1, 19 / 10] (List.map (fun v => v * Psf.omegaPix 20 (some 10)) [4 * (1 / 16 * (1 / 2) * 1), 4 * (1 / 16 * (1 / 2) * (19 / 10))]) * 6728] := by
    rw [hrads, hqe, grid2, hn] at g5
    unfold Optics.computeSignal at g5
    rw [Optics.signalLoop] at g5
    simp only [qe2] at g5
    have g5' := Except.ok.inj g5
    rw [← g5']
    simp only [diffuseOf, hsize, hs, Diffuse.addCol, Diffuse.mulCol, Optics.solidAngle]
    norm_num [phot2, phot, env]
  refine ⟨fuel, b, b', h, h', 0 + Diffuse.trapz [1, 19 / 10] (List.map (fun v => v * Psf.omegaPix 20 (some 10)) [4 * (1 / 16 * (1 / 2) * 1), 4 * (1 / 16 * (1 / 2) * (19 / 10))]) * 6728, ?_, ?_, ?_⟩
  · simp only [List.map_cons, List.map_nil, Diffuse.trapz]
    nlinarith
  · rw [← htot]
    rw [chanTable_eq] at g6
    rw [← Except.ok.inj g6]
    simp [stageTable, Dict.get?]
  · rw [h2, htot]
    simp only [List.map_cons, List.map_nil, mm]
    congr 3
    norm_num
    ring

/-- The coordinates of the wavelength solution in millimetres. -/
def mmX : Units := ⟨1, 1, 1000⟩

/-- A spectrometer with four pixels of 0.25 microns of spectrum each: with `x` in millimetres they have 250 microns each, and the largest signal of a star in a
pixel is 1000 times too large, whatever the star. -/
theorem solution_mm : ∃ fuel b b', build fuel env common2 false spec2 = some (.ok b) ∧ buildIn fuel env common2 false mmX spec2 = some (.ok b') ∧
    b.ch.inst.dwlPix = [1 / 4, 1 / 4, 1 / 4, 1 / 4] ∧ b'.ch.inst.dwlPix = [250, 250, 250, 250] ∧ b'.table = b.table ∧
    ∀ sed sky, channelTarget b'.ch sed sky = (channelTarget b.ch sed sky).map (fun o => { o with maxInPixel := o.maxInPixel.map (fun v => v * 1000) }) := by
  obtain ⟨fuel, b, h⟩ := build_succeeds sound_env sound_common2 sound_spec2 complete_spec2
  have h := h
  obtain ⟨_, st, hst, hb⟩ := build_inv h
  obtain ⟨els, total, trCol, tr, rads, slit, g1, g2, g3, g4, g5, g6, g7⟩ := buildPath_slit rfl hb
  have hels : els = [("M1", mirror2 (workGrid env spec2)), ("filter", filter2 (workGrid env spec2))] := by
    rw [elements2 spec2 rfl] at g1
    exact (Except.ok.inj g1).symm
  have hslit : slit = none := by
    rw [hels] at g4
    simp [Optics.chain, mirror2, filter2, Optics.passThrough] at g4
    exact g4.2.symm
  have hs : b.ch.diffuse.slitWidth = none := by rw [g7]; exact hslit
  have hb' := solution_unit (u := mmX) rfl (by norm_num [mmX]) (s := specDescr2) rfl (by simp [specDescr2]) h hs
  have hpx : st.px = Instrument.pixelGrid [((0 : ℝ), (1 : ℝ)), (1, 2)] 1 2 (1 / 4) := by
    obtain ⟨sol, e, e1, e2, _⟩ := (builder_inv hst).2 specDescr2 rfl
    simp only [specDescr2, Option.some.injEq] at e1
    rw [e2, ← e1]
    rfl
  have hdw : b.ch.inst.dwlPix = [1 / 4, 1 / 4, 1 / 4, 1 / 4] := by
    have e0 : b.ch.inst.dwlPix = st.px.bandwidth := by rw [g7]; rfl
    have e1 : ∀ x, Instrument.extend [((0 : ℝ), (1 : ℝ)), (1, 2)] x = 1 * x + 1 := fun x =>
      Instrument.extend_line _ (by simp) (by simp) 1 1 (by intro p hp; simp at hp; rcases hp with rfl | rfl <;> norm_num) x
    have hl : (Instrument.pixelGrid [((0 : ℝ), (1 : ℝ)), (1, 2)] 1 2 (1 / 4)).bandwidth.length = 4 := by
      have := congrArg List.length pixels
      unfold Instrument.pixelGrid at this ⊢
      simpa using this
    have hall : ∀ v ∈ (Instrument.pixelGrid [((0 : ℝ), (1 : ℝ)), (1, 2)] 1 2 (1 / 4)).bandwidth, v = 1 / 4 := by
      intro v hv
      unfold Instrument.pixelGrid at hv
      simp only [List.mem_map] at hv
      obtain ⟨t, _, rfl⟩ := hv
      rw [e1, e1, show (1 * (t - 1 / 2 * (1 / 4)) + 1 - (1 * (t + 1 / 2 * (1 / 4)) + 1) : ℝ) = -(1 / 4) by ring, abs_neg, abs_of_pos (by norm_num)]
    rw [e0, hpx]
    have hrep := List.eq_replicate_of_mem hall
    rw [hl] at hrep
    exact hrep
  refine ⟨fuel, b, _, h, hb', hdw, ?_, rfl, ?_⟩
  · show b.ch.inst.dwlPix.map (fun v => v * mmX.x) = _
    rw [hdw]
    simp only [mmX, List.map_cons, List.map_nil]
    norm_num
  · intro sed sky
    have hsp : b.ch.spectrometer = true := by rw [g7]; rfl
    unfold channelTarget
    simp only [hsp, if_true]
    exact solution_unit_star (k := 1000) (by norm_num) _ sed sky none

end
end ExoRad.Build.Demo
