import Verif.Props.BuildNeeds

/-!
# An instrument with a photometer and a spectrometer behind a slit: the hypotheses of C81, C82 and C83 can be met
-/

set_option linter.unusedSectionVars false

namespace ExoRad.Build.Demo
open Table Pipeline Light Build
noncomputable section

def env : Env where
  workingR := 2
  B := fun _ T => T
  perPhoton := 1
  airy := ⟨3, 3, fun i j => if i = 1 ∧ j = 1 then 1 else 0⟩
  step := 1
  enc := fun _ _ _ _ _ => 1
  spline := fun _ _ => 1

/-- A warm mirror in front of all channels. -/
def mirror : Optics.Descr ℝ := { value := "M1", type := "surface", reflectivity := some (9 / 10), emissivity := some (1 / 10), temperature := some 80 }

/-- The slit of the spectrometer: it has a width, no temperature. -/
def slit : Optics.Descr ℝ := { value := "slit", type := "slit", width := some (1 / 2) }

/-- A detector box, given by a table. -/
def box : Optics.Descr ℝ :=
  { value := "box", type := "detector box", temperature := some 60,
    data := some [("Wavelength", [1, 2]), ("Transmission", [1, 1]), ("Emissivity", [1, 1])] }

def common : Common := { force := some true, atel := 1, optics := .one mirror, customNoise := none }

def phot : Descr where
  noise := { value := "Phot", detector := {} }
  wlMin := 1
  wlMax := 19 / 10
  fnumX := 20
  fnumY := some 10
  detWlMin := 1
  cutOff := 19 / 10
  deltaPix := 1 / 4
  qe := .constant (1 / 2)
  psf := none
  optics := some (.many [("box", box)])
  kind := .photometer { radius := some 1 }

def specDescr : SpecDescr := { targetR := .native, solution := some [(0, 1), (1, 2)] }

def spec : Descr where
  noise := { value := "Spec", detector := {} }
  wlMin := 1
  wlMax := 2
  fnumX := 20
  fnumY := some 10
  detWlMin := 1
  cutOff := 19 / 10
  deltaPix := 1 / 4
  qe := .data [("Wavelength", [1, 3 / 2, 2]), ("Spec", [1 / 2, 1, 1 / 2])]
  psf := none
  optics := some (.many [("slit", slit), ("box", box)])
  kind := .spectrometer specDescr

theorem sound_env : SoundEnv env := by
  refine ⟨le_refl _, fun w T _ hT => hT.le, by norm_num [env], ?_, by norm_num [env]⟩
  intro i j
  simp only [env]
  split_ifs <;> norm_num

theorem sound_mirror : SoundElement mirror := by
  constructor <;> intro v hv <;> simp [mirror] at hv <;> subst hv <;> norm_num

theorem sound_slit : SoundElement slit := by
  constructor <;> intro v hv <;> simp [slit] at hv <;> subst hv <;> norm_num

theorem sound_box : SoundElement box := by
  constructor <;> intro v hv <;> simp [box] at hv <;> subst hv
  · intro q hq
    simp only [List.mem_cons, List.not_mem_nil, or_false] at hq
    rcases hq with rfl | rfl | rfl <;> intro x hx <;> simp at hx
    · rcases hx with rfl | rfl <;> norm_num
    · subst hx; norm_num
    · subst hx; norm_num
  · norm_num

theorem sound_common : SoundCommon common := ⟨by norm_num [common], sound_mirror⟩

theorem sound_phot : SoundDescr env phot := by
  refine ⟨by norm_num [phot], by norm_num [phot], by norm_num [phot], by norm_num [phot], ?_, ?_, trivial, ?_, ?_⟩
  · intro f hf; simp [phot] at hf; subst hf; norm_num
  · show (0 : ℝ) ≤ 1 / 2; norm_num
  · intro o ho
    simp only [phot, Option.some.injEq] at ho
    subst ho
    intro q hq
    rw [List.mem_singleton] at hq
    subst hq
    exact ⟨rfl, sound_box⟩
  · refine ⟨?_, ?_⟩ <;> intro v hv <;> simp at hv

theorem rising : Instrument.Rising [((0 : ℝ), (1 : ℝ)), (1, 2)] := by
  refine ⟨by simp, by simp, ?_⟩
  intro p hp q hq h
  simp only [List.mem_cons, List.not_mem_nil, or_false] at hp hq
  rcases hp with rfl | rfl <;> rcases hq with rfl | rfl <;> first | (exfalso; norm_num at h; done) | norm_num

/-- The four pixels. -/
theorem pixels : (Instrument.pixelGrid [((0 : ℝ), (1 : ℝ)), (1, 2)] 1 2 (1 / 4)).wl = [7 / 4, 3 / 2, 5 / 4, 1] := by
  have e1 : ∀ x, Instrument.extend [((0 : ℝ), (1 : ℝ)), (1, 2)] x = 1 * x + 1 := fun x =>
    Instrument.extend_line _ (by simp) (by simp) 1 1 (by intro p hp; simp at hp; rcases hp with rfl | rfl <;> norm_num) x
  have e2 : ∀ x, Instrument.extend ([((0 : ℝ), (1 : ℝ)), (1, 2)].map Prod.swap) x = 1 * x + (-1) := fun x =>
    Instrument.extend_line _ (by simp) (by simp) 1 (-1) (by intro p hp; simp at hp; rcases hp with rfl | rfl <;> norm_num) x
  unfold Instrument.pixelGrid
  simp only [e2]
  have e3 : Instrument.arange (1 * 1 + -1 : ℝ) (1 * 2 + -1) (1 / 4) = [0, 1 / 4, 2 / 4, 3 / 4] := by
    unfold Instrument.arange
    have : ⌈((1 * 2 + -1 : ℝ) - (1 * 1 + -1)) / (1 / 4)⌉.toNat = 4 := by
      have h4 : ((1 * 2 + -1 : ℝ) - (1 * 1 + -1)) / (1 / 4) = ((4 : ℤ) : ℝ) := by norm_num
      rw [h4, Int.ceil_intCast]
      rfl
    rw [this]
    simp [List.range_succ]
    norm_num
  rw [if_neg (by norm_num), e3]
  norm_num [e1]

theorem sound_spec : SoundDescr env spec := by
  refine ⟨by norm_num [spec], by norm_num [spec], by norm_num [spec], by norm_num [spec], ?_, ?_, trivial, ?_, ?_⟩
  · intro f hf; simp [spec] at hf; subst hf; norm_num
  · intro q hq
    simp only [List.mem_cons, List.not_mem_nil, or_false] at hq
    rcases hq with rfl | rfl <;> intro x hx <;> simp at hx
    · rcases hx with rfl | rfl | rfl <;> norm_num
    · rcases hx with rfl | rfl | rfl <;> norm_num
  · intro o ho
    simp only [spec, Option.some.injEq] at ho
    subst ho
    intro q hq
    simp only [List.mem_cons, List.not_mem_nil, or_false] at hq
    rcases hq with rfl | rfl
    · exact ⟨rfl, sound_slit⟩
    · exact ⟨rfl, sound_box⟩
  · refine ⟨?_, trivial, ?_, ?_, ?_, ?_, ?_⟩
    · intro sol hsol
      simp only [specDescr, Option.some.injEq] at hsol
      subst hsol
      exact .inl rising
    · intro sol g _ _ w _
      simp [env]
    · intro sol pts fuel b e _ h
      simp [specDescr] at h
    all_goals intro v hv; simp [specDescr] at hv

theorem readable_box : Readable box := by
  simp [Readable, box, Dict.keys]

theorem wide : Wide env.airy := by simp [Wide, env]

theorem complete_phot : Complete env common phot := by
  refine ⟨by simp [common], by simp [phot], by simp [phot], ?_, ⟨by simp [psfFormat, phot], by simp [psfFormat, phot], fun _ _ => wide⟩, trivial, ?_⟩
  · intro e he
    simp only [opticsOf, common, phot, elements, Option.map_some, Option.getD_some, List.map_cons, List.map_nil, List.cons_append, List.nil_append,
      List.mem_cons, List.not_mem_nil, or_false] at he
    rcases he with rfl | rfl
    · simp [Readable, mirror]
    · exact readable_box
  · refine ⟨.inl (by simp), ?_⟩
    intro e he
    simp only [opticsOf, common, phot, elements, Option.map_some, Option.getD_some, List.map_cons, List.map_nil, List.cons_append, List.nil_append,
      List.mem_cons, List.not_mem_nil, or_false] at he
    rcases he with rfl | rfl
    · simp [mirror]
    · simp [box]

theorem complete_spec : Complete env common spec := by
  obtain ⟨g1, g2⟩ := grid_ends sound_env sound_spec
  refine ⟨by simp [common], by simp [spec], by simp [spec], ?_, ⟨by simp [psfFormat, spec], by simp [psfFormat, spec], fun _ _ => wide⟩, ?_, ?_⟩
  · intro e he
    simp only [opticsOf, common, spec, elements, Option.map_some, Option.getD_some, List.map_cons, List.map_nil, List.cons_append, List.nil_append,
      List.mem_cons, List.not_mem_nil, or_false] at he
    rcases he with rfl | rfl | rfl
    · simp [Readable, mirror]
    · simp [Readable, slit]
    · exact readable_box
  · refine ⟨"Wavelength", [1, 3 / 2, 2], [1 / 2, 1, 1 / 2], .inr ⟨rfl, by simp [Dict.keys]⟩, by simp [Dict.get?], by simp [Dict.get?, spec], rfl, ?_,
      1, by simp, 2, by simp, by norm_num, by norm_num [spec], by norm_num [spec]⟩
    simp only [List.pairwise_cons, List.mem_cons, List.not_mem_nil, or_false, forall_eq_or_imp, forall_eq]
    norm_num
  · refine ⟨by simp [specDescr], trivial, ?_⟩
    intro e he ht
    simp only [opticsOf, common, spec, elements, Option.map_some, Option.getD_some, List.map_cons, List.map_nil, List.cons_append, List.nil_append,
      List.mem_cons, List.not_mem_nil, or_false] at he
    rcases he with rfl | rfl | rfl
    · simp [mirror] at ht
    · refine ⟨1 / 2, rfl, ?_⟩
      intro sol hsol
      simp only [specDescr, Option.some.injEq] at hsol
      subst hsol
      have hp : (Instrument.pixelGrid [((0 : ℝ), (1 : ℝ)), (1, 2)] spec.wlMin spec.wlMax spec.deltaPix).wl = [7 / 4, 3 / 2, 5 / 4, 1] := pixels
      refine ⟨by rw [hp]; simp, by norm_num [spec], by rw [hp]; norm_num [spec], ?_, 1, g1, 19 / 10, g2, by norm_num, 1, by rw [hp]; simp, 7 / 4, by rw [hp]; simp,
        by norm_num, by norm_num⟩
      intro fuel b e h
      exact native_bins_filled (by norm_num [spec]) rfl (.inl rising) h
    · simp [box] at ht

/-- The hypotheses of C81 and C82 are met: the whole instrument is built, both channels have their ten columns. -/
theorem demo_built : ∃ fuel bs, buildAll fuel env common [phot, spec] = some (.ok bs) ∧ bs.map (fun b => b.ch.noise.value) = ["Phot", "Spec"] ∧
    ∀ b ∈ bs, b.table.keys = builtColumns := by
  have hs : ∀ d ∈ [phot, spec], SoundDescr env d := by
    intro d hd
    simp only [List.mem_cons, List.not_mem_nil, or_false] at hd
    rcases hd with rfl | rfl
    · exact sound_phot
    · exact sound_spec
  have hc : ∀ d ∈ [phot, spec], Complete env common d := by
    intro d hd
    simp only [List.mem_cons, List.not_mem_nil, or_false] at hd
    rcases hd with rfl | rfl
    · exact complete_phot
    · exact complete_spec
  obtain ⟨fuel, bs, h⟩ := buildAll_succeeds sound_env sound_common hs hc
  have hb := h fuel le_rfl
  obtain ⟨_, h2, h3, _⟩ := buildAll_fillable sound_env sound_common hs hb
  refine ⟨fuel, bs, hb, ?_, h3⟩
  have : bs.map (fun b => b.ch.noise.value) = (bs.map (fun b => b.ch.noise)).map NoiseChannel.value := by simp [List.map_map, Function.comp_def]
  rw [this, h2]
  rfl

end
end ExoRad.Build.Demo
