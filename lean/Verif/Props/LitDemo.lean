import Verif.Props.LitBuilt
import Verif.Props.BuildValuesDemo

/-!
# The hypotheses of C102 and C103 can be met

The photometer and the spectrometer of `BuildValuesDemo`, with detectors and a PSF, observe black bodies through zodiacal light, on a grid of five points
from 1 to 1.9.
-/

set_option linter.unusedSectionVars false

namespace ExoRad.Build.Demo
open Table Pipeline Light Build
noncomputable section

/-- The surroundings of `BuildDemo`, with grids of five points. -/
def env5 : Env := { env with workingR := 5 }

theorem sound_env5 : SoundEnv env5 := ⟨by norm_num [env5], sound_env.B, sound_env.perPhoton, sound_env.airy, sound_env.step⟩

def detector : Detector := { wellDepth := some 100, fWellDepth := some 1, freqNDR := some 1, darkCurrent := some 2, readNoise := some 3 }

def phot3 : Descr := { phot with optics := some (.one filter), noise := { value := "Phot", detector := detector }, psf := some ⟨.fits ⟨env.airy, 1, 1⟩, some "pixel_based"⟩ }

def spec3 : Descr := { spec with optics := some (.one filter), kind := .spectrometer specDescr2, noise := { value := "Spec", detector := detector } }

theorem sound_phot3 : SoundDescr env5 phot3 :=
  ⟨sound_phot.band, sound_phot.detector, sound_phot.deltaPix, sound_phot.fnumX, sound_phot.fnumY, sound_phot.qe, ⟨sound_env5.airy, by norm_num [phot3], by norm_num [phot3]⟩,
    (fun o ho => by cases ho; exact sound_filter), sound_phot.kind⟩

theorem sound_spec3 : SoundDescr env5 spec3 :=
  ⟨sound_spec2.band, sound_spec2.detector, sound_spec2.deltaPix, sound_spec2.fnumX, sound_spec2.fnumY, sound_spec2.qe, sound_spec2.psf, (fun o ho => by cases ho; exact sound_filter), by
    obtain ⟨k1, k2, k3, k4, k5, k6, k7⟩ : SoundSpec env spec2 specDescr2 := sound_spec2.kind
    exact ⟨k1, k2, k3, k4, k5, k6, k7⟩⟩

theorem readable3 {d : Descr} (hd : d.optics = some (.one filter)) : (∀ e ∈ opticsOf common d, Readable e) ∧ ∀ e ∈ opticsOf common d, e.type ≠ "slit" := by
  constructor <;> intro e he <;>
    simp only [opticsOf, common, hd, elements, Option.map_some, Option.getD_some, List.map_cons, List.map_nil, List.cons_append, List.nil_append,
      List.mem_cons, List.not_mem_nil, or_false] at he <;>
    rcases he with rfl | rfl <;> simp [Readable, mirror, filter]

theorem complete_phot3 : Complete env5 common phot3 :=
  ⟨complete_phot2.force, by simp [phot3], complete_phot2.fnumY, (readable3 rfl).1, ⟨fun _ => wide, fun h => by simp [psfFormat, phot3] at h, fun h => (h rfl).elim⟩,
    complete_phot2.qe, ⟨.inl (by simp), (readable3 rfl).2⟩⟩

theorem complete_spec3 : Complete env5 common spec3 :=
  ⟨complete_spec2.force, by simp [spec3], complete_spec2.fnumY, (readable3 rfl).1, complete_spec2.psf, complete_spec2.qe,
    ⟨by simp [specDescr2], trivial, fun e he ht => ((readable3 rfl).2 e he ht).elim⟩⟩

/-- The optics of both channels let light through. -/
theorem through {d : Descr} (hd : d.optics = some (.one filter)) {g tr : List ℝ} : ∀ e ∈ opticsOf common d, Optics.getTransmission e g = .ok tr →
    ∀ (j : ℕ) x, g[j]? = some x → PosAt tr j := by
  intro e he h j x hj
  simp only [opticsOf, common, hd, elements, Option.map_some, Option.getD_some, List.map_cons, List.map_nil, List.cons_append, List.nil_append,
      List.mem_cons, List.not_mem_nil, or_false] at he
  rcases he with rfl | rfl
  · simp only [Optics.getTransmission, mirror, Except.ok.injEq] at h
    subst h
    exact ⟨9 / 10, by simp [List.getElem?_map, hj, Optics.cut], by norm_num⟩
  · simp only [Optics.getTransmission, filter, Except.ok.injEq] at h
    subst h
    exact ⟨1 / 2, by simp [List.getElem?_map, hj, Optics.cut], by norm_num⟩

theorem clear_phot : Clear env5 common phot3 1 (19 / 10) := by
  refine ⟨fun _ => ⟨le_refl _, le_refl _⟩, ?_, ?_, ?_⟩
  · intro e he tr h j x hj _ _
    exact through rfl e he h j x hj
  · intro v hv
    have : (1 / 2 : ℝ) = v := by simpa [phot3, phot2, phot] using hv
    rw [← this]; norm_num
  · intro t ht
    simp [phot3, phot2, phot] at ht

theorem clear_spec : Clear env5 common spec3 1 2 := by
  refine ⟨fun _ => ⟨le_refl _, le_refl _⟩, ?_, ?_, ?_⟩
  · intro e he tr h j x hj _ _
    exact through rfl e he h j x hj
  · intro v hv
    simp [spec3, spec2, spec] at hv
  · intro t ht col wl v hc h1 h2 p hp _ _
    have : t = [("Wavelength", [1, 3 / 2, 2]), ("Spec", [1 / 2, 1, 1 / 2])] := by
      have := ht; simp only [spec3, spec2, spec, Qe.data.injEq] at this; exact this.symm
    subst this
    have e2 : v = [1 / 2, 1, 1 / 2] := by
      have : some [(1 / 2 : ℝ), 1, 1 / 2] = some v := h2
      simpa using this.symm
    subst e2
    have := (List.of_mem_zip hp).2
    simp only [List.mem_cons, List.not_mem_nil, or_false] at this
    rcases this with h | h | h <;> rw [h] <;> norm_num

/-! ## The grid -/

def grid5 : List ℝ := Instrument.logspace 1 (19 / 10) 5

theorem grid5_at (k : ℕ) (hk : k < 5) : grid5[k]? = some ((19 / 10 : ℝ) ^ ((k : ℝ) / 4)) := by
  unfold grid5 Instrument.logspace
  rw [List.getElem?_map, List.getElem?_range hk, Option.map_some, Real.logb_one, Option.some.injEq]
  have : (0 : ℝ) + (k : ℝ) * ((Real.logb 10 (19 / 10) - 0) / (((5 : ℕ) : ℝ) - 1)) = Real.logb 10 (19 / 10) * ((k : ℝ) / 4) := by push_cast; ring
  rw [this, Real.rpow_mul (by norm_num), Real.rpow_logb (by norm_num) (by norm_num) (by norm_num)]

theorem grid5_length : grid5.length = 5 := by simp [grid5, Instrument.logspace]

/-- The roots between the ends. -/
theorem root_between {u v : ℝ} (hv : 0 ≤ v) {k : ℕ} (h1 : u ^ 4 ≤ (19 / 10) ^ k) (h2 : (19 / 10) ^ k ≤ v ^ 4) :
    u ≤ (19 / 10 : ℝ) ^ ((k : ℝ) / 4) ∧ (19 / 10 : ℝ) ^ ((k : ℝ) / 4) ≤ v := by
  have key : ((19 / 10 : ℝ) ^ ((k : ℝ) / 4)) ^ 4 = (19 / 10) ^ k := by
    rw [← Real.rpow_natCast, ← Real.rpow_mul (by norm_num), ← Real.rpow_natCast]
    congr 1
    push_cast; ring
  have hp : (0 : ℝ) ≤ (19 / 10 : ℝ) ^ ((k : ℝ) / 4) := by positivity
  constructor
  · exact le_of_pow_le_pow_left₀ (n := 4) (by norm_num) hp (by rw [key]; exact h1)
  · exact le_of_pow_le_pow_left₀ (n := 4) (by norm_num) hv (by rw [key]; exact h2)

theorem grid5_bounds : (∀ x, grid5[0]? = some x → x = 1) ∧ (∀ x, grid5[1]? = some x → 1 ≤ x ∧ x < 13 / 10) ∧ (∀ x, grid5[2]? = some x → 13 / 10 ≤ x ∧ x ≤ 3 / 2) ∧
    (∀ x, grid5[3]? = some x → 3 / 2 ≤ x ∧ x ≤ 17 / 10) ∧ ∀ x, grid5[4]? = some x → x = 19 / 10 := by
  refine ⟨?_, ?_, ?_, ?_, ?_⟩ <;> intro x hx <;> rw [grid5_at _ (by norm_num), Option.some.injEq] at hx <;> rw [← hx]
  · simp
  · have := root_between (u := 1) (v := 5 / 4) (by norm_num) (k := 1) (by norm_num) (by norm_num)
    exact ⟨this.1, by linarith [this.2]⟩
  · exact root_between (u := 13 / 10) (v := 3 / 2) (by norm_num) (k := 2) (by norm_num) (by norm_num)
  · exact root_between (u := 3 / 2) (v := 17 / 10) (by norm_num) (k := 3) (by norm_num) (by norm_num)
  · norm_num

/-- The points from 1.3 to 1.7. -/
theorem grid5_inner {i : ℕ} {t : ℝ} (ht : grid5[i]? = some t) (h1 : 13 / 10 ≤ t) (h2 : t ≤ 17 / 10) : Inner grid5 1 (19 / 10) i := by
  obtain ⟨b0, b1, b2, b3, b4⟩ := grid5_bounds
  have hi : i < 5 := by
    have := (List.getElem?_eq_some_iff.mp ht).1
    rwa [grid5_length] at this
  interval_cases i
  · have := b0 t ht; linarith
  · have := b1 t ht; linarith
  · refine ⟨by norm_num, by rw [grid5_length]; norm_num, fun x hx => (b1 x hx).1, fun x hx => ?_⟩
    have := b3 x hx; linarith
  · refine ⟨by norm_num, by rw [grid5_length]; norm_num, fun x hx => ?_, fun x hx => (b4 x hx).le⟩
    have := b2 x hx; linarith
  · have := b4 t ht; linarith

theorem sampled_phot {t : ℝ} (h1 : 1 ≤ t) (h2 : t ≤ 19 / 10) : Sampled env5 phot3 1 t (19 / 10) := by
  obtain ⟨g1, g2⟩ := grid_ends sound_env5 sound_phot3
  exact ⟨⟨⟨_, g1, le_refl _, h1⟩, _, g2, h2, le_refl _⟩, by intro q hq; simp [phot3, phot2, phot] at hq⟩

theorem sampled_spec {t : ℝ} (h1 : 1 ≤ t) (h2 : t ≤ 19 / 10) : Sampled env5 spec3 1 t 2 := by
  obtain ⟨g1, g2⟩ := grid_ends sound_env5 sound_spec3
  refine ⟨⟨⟨_, g1, le_refl _, h1⟩, _, g2, h2, by norm_num [spec3, spec2, spec]⟩, ?_⟩
  intro q hq col wl hc h
  have : q = [("Wavelength", [1, 3 / 2, 2]), ("Spec", [1 / 2, 1, 1 / 2])] := by
    have := hq; simp only [spec3, spec2, spec, Qe.data.injEq] at this; exact this.symm
  subst this
  have e : wl = [1, 3 / 2, 2] := by
    rcases hc with rfl | ⟨rfl, _⟩
    · simp [Dict.get?] at h
    · simpa [Dict.get?] using h.symm
  subst e
  exact ⟨⟨1, by simp, le_refl _, h1⟩, 2, by simp, by linarith, le_refl _⟩

/-! ## Aimed -/

theorem aimed_phot {fuel : ℕ} {x : Built} (h : build fuel env5 common false phot3 = some (.ok x)) : Aimed env5 common phot3 1 (19 / 10) grid5 none x 1 (19 / 10) := by
  refine ⟨by norm_num, by norm_num, clear_phot, ?_, by intro h; simp [isSpectrometer, phot3, phot2, phot] at h⟩
  intro _
  constructor
  · obtain ⟨_, st, hst, hp⟩ := build_inv h
    obtain ⟨m, hsound⟩ := builder_sound sound_env5 sound_phot3 hst
    obtain ⟨els, total, trCol, tr, rads, slit, _, _, _, _, _, _, _, hch, _⟩ := buildPath_inv hsound hp
    rw [hch]
    show 0 < st.prfMax
    change photometerStage fuel env5 phot3 { radius := some 1 } = some (.ok st) at hst
    obtain ⟨_, prf, k, s, h1, _, _, h2⟩ := photometer_inv hst
    have hpsf : psfImages env5 phot3 ((phot3.wlMin + phot3.wlMax) / 2) = .ok (env.airy, Psf.ones 1 1) := by
      unfold psfImages
      rw [if_pos (show psfFormat phot3 = some "pixel_based" from rfl)]
      rfl
    rw [hpsf] at h1
    cases h1
    have hmax : env.airy.max = .ok 1 := by
      simp [Psf.Img.max, env5, env, List.range_succ, Rebin.maxE]
    rw [hmax, Except.ok.injEq] at h2
    rw [← h2]
    norm_num
  · have ht := grid5_at 2 (by norm_num)
    have hb := grid5_bounds.2.2.1 _ ht
    exact ⟨2, _, grid5_inner ht hb.1 (by linarith [hb.2]), ht, sampled_phot (by linarith [hb.1]) (by linarith [hb.2]), by simp⟩

theorem aimed_spec {fuel : ℕ} {x : Built} (h : build fuel env5 common false spec3 = some (.ok x)) : Aimed env5 common spec3 1 (19 / 10) grid5 none x 1 2 := by
  refine ⟨by norm_num, by norm_num, clear_spec, by intro h; simp [isSpectrometer, spec3, spec2] at h, ?_⟩
  intro _
  refine ⟨13 / 10, 17 / 10, 1, ?_, ?_⟩
  · obtain ⟨_, st, hst, hp⟩ := build_inv h
    obtain ⟨m, hsound⟩ := builder_sound sound_env5 sound_spec3 hst
    obtain ⟨els, total, trCol, tr, rads, slit, _, _, _, _, _, _, _, hch, _⟩ := buildPath_inv hsound hp
    obtain ⟨_, hs⟩ := builder_inv hst
    obtain ⟨sol, e, s1, s2, s3⟩ := hs specDescr2 rfl
    have hsol : sol = [(0, 1), (1, 2)] := by
      have : some [((0 : ℝ), (1 : ℝ)), (1, 2)] = some sol := s1
      simpa using this.symm
    subst hsol
    obtain ⟨e', ⟨he, _, hbins⟩, _⟩ := stage_edges sound_spec3 (by simp [Binned, spec3, spec2, specDescr2]) hst
    have he' : e' = [1, 2] := one_bin he
    subst he'
    obtain ⟨_, _, g, _, _, _, _, _, _, hgain, _⟩ := spectrometer_inv (s := specDescr2) (d := spec3) (st := st) (env := env5) (fuel := fuel) hst
    have hwl : st.px.wl = [7 / 4, 3 / 2, 5 / 4, 1] := by rw [s2]; exact pixels
    have hbw : st.px.bandwidth = st.px.wl.map (fun _ => (1 / 4 : ℝ)) := by
      have e1 : ∀ x, Instrument.extend [((0 : ℝ), (1 : ℝ)), (1, 2)] x = 1 * x + 1 := fun x =>
        Instrument.extend_line _ (by simp) (by simp) 1 1 (by intro p hp; simp at hp; rcases hp with rfl | rfl <;> norm_num) x
      rw [s2]
      show List.map _ (Instrument.pixelGrid _ _ _ _).x = ((Instrument.pixelGrid _ _ _ _).x.map _).map _
      rw [List.map_map]
      apply List.map_congr_left
      intro t _
      simp only [e1, Function.comp_apply]
      have : spec3.deltaPix = 1 / 4 := rfl
      rw [this, show 1 * (t - 1 / 2 * (1 / 4)) + 1 - (1 * (t + 1 / 2 * (1 / 4)) + 1) = -(1 / 4 : ℝ) by ring, abs_neg, abs_of_pos (by norm_num)]
    have hinst : x.ch.inst = chanOf env5 common spec3 st tr := by rw [hch]
    have g2 := grid5_at 2 (by norm_num)
    have g3 := grid5_at 3 (by norm_num)
    obtain ⟨_, _, b2, b3, _⟩ := grid5_bounds
    rw [hinst]
    have hw : (chanOf env5 common spec3 st tr).wlPix = [7 / 4, 3 / 2, 5 / 4, 1] := hwl
    refine ⟨⟨3 / 2, by rw [hw]; rfl, ⟨_, List.mem_of_getElem? g2, b2 _ g2⟩, ⟨_, List.mem_of_getElem? g3, b3 _ g3⟩, ?_, ?_⟩, ?_, ⟨1, by rw [hw]; simp, by norm_num⟩,
      ⟨7 / 4, by rw [hw]; simp, by norm_num⟩, .inl ?_⟩
    · show 0 < st.gain _
      rw [hgain]; simp [env5, env]
    · show ∃ r ∈ st.bins.left.zip st.bins.right, _
      obtain ⟨l1, l2, _⟩ := Instrument.bins_of_edges [(1 : ℝ), 2]
      rw [hbins, l1, l2]
      exact ⟨(1, 2), by simp, by norm_num, by norm_num⟩
    · refine ⟨1 / 4, ?_, by norm_num⟩
      show st.px.bandwidth[1]? = _
      rw [hbw, hwl]; rfl
    · rw [hw]
      simp only [List.pairwise_cons, List.mem_cons, List.not_mem_nil, or_false, forall_eq_or_imp, forall_eq, List.Pairwise.nil, and_true]
      norm_num
  · intro i t ht h1 h2
    have := grid5_inner ht h1 h2
    exact ⟨⟨this.first, this.last, this.low, fun x hx => (this.high x hx).trans (by norm_num)⟩, sampled_spec (by linarith) (by linarith), by simp⟩

/-! ## The observation -/

def world5 : World where
  consts := Source.code
  env := ⟨none, fun _ => false, fun _ => [], fun _ => none, fun _ _ => .error .osError, fun _ => .error .osError⟩
  maps := ⟨fun _ => none, "", ""⟩
  skyGrid := Instrument.logspace 1 (19 / 10) 5
  grid := fun x y => Instrument.logspace x y 5

def zodi : Foreground.Section ℝ := .many [("zodiacal", { value := "zodiacal", factor := some 2 })]

def planckSource : Source.Descr := { value := "planck" }

/-- A black body of temperature `T`, radius `R`, at the distance `D`. -/
def blackBody (name : String) (D T M R : ℝ) : Target := { name := name, star := ⟨some D, some T, some M, some R⟩ }

theorem world5_ok : PayloadWorld world5 1 (19 / 10) 5 :=
  ⟨⟨by norm_num, by norm_num, by norm_num⟩, rfl, rfl, fun _ _ => rfl, ⟨by simp [world5], by simp [world5]⟩, by simp [world5]⟩

theorem within_spec3 : Within 1 (19 / 10) 5 spec3 := by
  refine ⟨le_refl _, le_refl _, ?_⟩
  intro s hs sol hsol
  have es : s = specDescr2 := by have := hs; simp only [spec3, spec2, Kind.spectrometer.injEq] at this; exact this.symm
  subst es
  have hsol' : sol = [(0, 1), (1, 2)] := by
    have : some [((0 : ℝ), (1 : ℝ)), (1, 2)] = some sol := hsol
    simpa using this.symm
  subst hsol'
  have hp : (Instrument.pixelGrid [((0 : ℝ), (1 : ℝ)), (1, 2)] spec3.wlMin spec3.wlMax spec3.deltaPix).wl = [7 / 4, 3 / 2, 5 / 4, 1] := pixels
  rw [hp]
  refine ⟨by simp, ?_, ?_⟩
  · intro fuel b e h r hr
    simp only [specDescr2, wavelengthTable, Option.some.injEq, Except.ok.injEq, Prod.mk.injEq] at h
    obtain ⟨h1, h2, h3, h4, h5, h6⟩ := Instrument.fixed_R_edges (1 : ℝ) 2 1 (by norm_num) (by norm_num) (by norm_num)
    have he : Instrument.fixedREdges spec3.wlMin spec3.wlMax 1 = [1, 2] := one_bin ⟨h1, h2, h3, h5, h6⟩
    rw [he] at h
    obtain ⟨l1, l2, _⟩ := Instrument.bins_of_edges [(1 : ℝ), 2]
    rw [← h.1, l1, l2] at hr
    simp only [List.dropLast_cons_cons, List.dropLast_singleton, List.tail_cons, List.zip_cons_cons, List.zip_nil_right, List.mem_singleton] at hr
    subst hr
    exact ⟨3 / 2, by simp, by norm_num, by norm_num⟩
  · have g2 := grid5_at 2 (by norm_num)
    have g3 := grid5_at 3 (by norm_num)
    obtain ⟨b0, b1, b2, b3, b4⟩ := grid5_bounds
    have g0 := grid5_at 1 (by norm_num)
    refine ⟨_, List.mem_of_getElem? g0, _, List.mem_of_getElem? g3, ?_, 1, by simp, 7 / 4, by simp, ?_, ?_⟩
    · exact lt_of_lt_of_le (b1 _ g0).2 (by linarith [(b3 _ g3).1])
    · linarith [(b1 _ g0).1]
    · linarith [(b3 _ g3).2]

/-- Every black body at a distance is observed by the two channels, with its noise budget. -/
theorem demo_blackbody : ∃ fuel bs, buildAll fuel env5 common [phot3, spec3] = some (.ok bs) ∧
    ∀ (name : String) (D T M R : ℝ), D ≠ 0 → 0 < T → R ≠ 0 → ∃ tabs' t' r,
      observe world5 ⟨bs.map Built.ch, some zodi, some planckSource, ⟨1, some 1⟩, ⟨19 / 10, some 1⟩⟩ (bs.map Built.table) (blackBody name D T M R) = (tabs', .ok t') ∧
        t'.name = name ∧ t'.table = some r ∧ HasBudget common [phot3, spec3] (fun _ => 100) (fun _ => 1) (fun _ => 1) (fun _ => 2) (fun _ => 3) r := by
  have two : ∀ {p : Descr → Prop}, p phot3 → p spec3 → ∀ d ∈ [phot3, spec3], p d := by
    intro p h1 h2 d hd
    simp only [List.mem_cons, List.not_mem_nil, or_false] at hd
    rcases hd with rfl | rfl
    · exact h1
    · exact h2
  have det : GoodDetector detector 100 1 1 2 3 := ⟨rfl, by norm_num, rfl, by norm_num, rfl, rfl, by norm_num, rfl, by simp [detector], by simp [detector]⟩
  obtain ⟨fuel, bs, h1, h2⟩ := blackbody_observation (c := common) (ds := [phot3, spec3]) (w := world5) (sec := zodi) (src := planckSource) sound_env5 (by norm_num [env5, env]) sound_common
    (by norm_num [common, common]) (by simp) (two sound_phot3 sound_spec3) (two complete_phot3 complete_spec3) (by simp [phot3, spec3]) world5_ok
    (two ⟨le_refl _, le_refl _, fun s hs => by simp [phot3, phot2, phot] at hs⟩ within_spec3)
    (well := fun _ => 100) (fw := fun _ => 1) (freq := fun _ => 1) (dark := fun _ => 2) (rn := fun _ => 3)
    ⟨two det det, two (by norm_num [phot3]) (by norm_num [spec3]), by simp [common, common, entries], two (by simp [phot3, entries]) (by simp [spec3, entries])⟩
    rfl (by decide +kernel) (by decide +kernel)
  refine ⟨fuel, bs, h1 fuel le_rfl, ?_⟩
  intro name D T M R hD hT hR
  refine h2 (blackBody name D T M R) D T M R rfl hD hT hR ⟨⟨rfl, rfl⟩, by simp [blackBody]⟩ ⟨by simp [zodi, Foreground.Section.list], ?_, ?_, ?_⟩ ?_
  · intro kd hkd
    simp only [zodi, Foreground.Section.list, List.mem_singleton] at hkd
    subst hkd
    exact ⟨fun h => (h rfl).elim, fun _ => ⟨by simp [blackBody], by simp⟩⟩
  · intro kd hkd
    simp only [zodi, Foreground.Section.list, List.mem_singleton] at hkd
    subst hkd
    exact ⟨by simp, by simp, by simp⟩
  · intro kd hkd
    simp only [zodi, Foreground.Section.list, List.mem_singleton] at hkd
    subst hkd
    decide +kernel
  · intro sky hsky d hd x hx
    have ht : sky.transmission = none := by
      simp only [zodi, Foreground.estimateForegrounds, Foreground.estimateLoop, Foreground.estimateOne, if_true, Foreground.estimateZodi, blackBody, Foreground.coordinates,
        Foreground.zodiCoefficient, Foreground.addForeground, Prod.mk.injEq, and_true] at hsky
      rw [← hsky]
    rw [ht]
    revert hx
    revert d
    exact two (fun hx => ⟨1, 19 / 10, aimed_phot hx⟩) (fun hx => ⟨1, 2, aimed_spec hx⟩)

end
end ExoRad.Build.Demo
