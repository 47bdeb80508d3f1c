import Verif.Props.BuildValues
import Verif.Props.BuildDemo

/-!
# The hypotheses of C84 can be met: a photometer and a spectrometer with their numbers worked out
-/

set_option linter.unusedSectionVars false

namespace ExoRad.Build.Demo
open Table Pipeline Light Build
noncomputable section

def filter : Optics.Descr ℝ := { value := "filter", type := "surface", transmission := some (1 / 2) }

def common2 : Common := { common with optics := .many [("M1", mirror)] }

def phot2 : Descr := { phot with optics := some (.many [("filter", filter)]) }

def specDescr2 : SpecDescr := { targetR := .fixed 1, solution := some [(0, 1), (1, 2)], wfe := some (1 / 10) }

def spec2 : Descr := { spec with optics := some (.many [("filter", filter)]), kind := .spectrometer specDescr2 }

theorem sound_filter : SoundElement filter := by
  constructor <;> intro v hv <;> simp [filter] at hv <;> subst hv <;> norm_num

theorem sound_common2 : SoundCommon common2 := by
  refine ⟨by norm_num [common2, common], ?_⟩
  intro q hq
  rw [List.mem_singleton] at hq
  subst hq
  exact ⟨rfl, sound_mirror⟩

theorem sound_optics2 : ∀ o, some (Optics.Section.many [("filter", filter)]) = some o → SoundSection o := by
  intro o ho
  simp only [Option.some.injEq] at ho
  subst ho
  intro q hq
  rw [List.mem_singleton] at hq
  subst hq
  exact ⟨rfl, sound_filter⟩

theorem sound_phot2 : SoundDescr env phot2 :=
  ⟨sound_phot.band, sound_phot.detector, sound_phot.deltaPix, sound_phot.fnumX, sound_phot.fnumY, sound_phot.qe, sound_phot.psf, sound_optics2, sound_phot.kind⟩

theorem sound_spec2 : SoundDescr env spec2 := by
  refine ⟨sound_spec.band, sound_spec.detector, sound_spec.deltaPix, sound_spec.fnumX, sound_spec.fnumY, sound_spec.qe, sound_spec.psf, sound_optics2, ?_⟩
  refine ⟨?_, by simp [SoundResolution, specDescr2], ?_, ?_, ?_, ?_, ?_⟩
  · intro sol hsol
    simp only [specDescr2, Option.some.injEq] at hsol
    subst hsol
    exact .inl rising
  · intro sol g _ _ w _
    simp [env]
  all_goals simp [specDescr2]

theorem readable2 {d : Descr} (hd : d.optics = some (.many [("filter", filter)])) : (∀ e ∈ opticsOf common2 d, Readable e) ∧ ∀ e ∈ opticsOf common2 d, e.type ≠ "slit" := by
  constructor <;> intro e he <;>
    simp only [opticsOf, common2, hd, elements, Option.map_some, Option.getD_some, List.map_cons, List.map_nil, List.cons_append, List.nil_append,
      List.mem_cons, List.not_mem_nil, or_false] at he <;>
    rcases he with rfl | rfl <;> simp [Readable, mirror, filter]

theorem complete_phot2 : Complete env common2 phot2 :=
  ⟨by simp [common2, common], by simp [phot2], by show some (10 : ℝ) ≠ none; simp, (readable2 rfl).1, complete_phot.psf, complete_phot.qe, ⟨.inl (by simp), (readable2 rfl).2⟩⟩

theorem complete_spec2 : Complete env common2 spec2 := by
  refine ⟨by simp [common2, common], by simp [spec2], by show some (10 : ℝ) ≠ none; simp, (readable2 rfl).1, complete_spec.psf, complete_spec.qe, ?_⟩
  exact ⟨by simp [specDescr2], trivial, fun e he ht => ((readable2 rfl).2 e he ht).elim⟩

/-- One bin of resolving power 1 from 1 to 2. -/
theorem one_bin {e : List ℝ} (h : FixedEdges 1 2 1 e) : e = [1, 2] := by
  obtain ⟨h1, h2, h3, h4, h5⟩ := h
  rcases e with _ | ⟨a, _ | ⟨b, l⟩⟩
  · simp at h1
  · simp at h1
  · have ha : a = 1 := by simpa using h2
    have hb : b = 2 := by have := h3 0 (by simp); simp [ha] at this; linarith
    rcases l with _ | ⟨c, l⟩
    · rw [ha, hb]
    · exfalso
      have grow : ∀ i, i + 1 < (a :: b :: c :: l).length → 2 ≤ (a :: b :: c :: l).getD (i + 1) 0 := by
        intro i
        induction i with
        | zero => intro _; simp [hb]
        | succ i ih =>
          intro hi
          rw [h3 (i + 1) hi]
          have := ih (by omega)
          linarith
      have := grow l.length (by simp)
      have e1 : (a :: b :: c :: l).length - 2 = l.length + 1 := by simp
      rw [e1] at h5
      linarith

/-- The photometer: one bin from 1 to 1.9, the quantum efficiency of the description, 0.9 of the mirror times 0.5 of the filter, a window of
80 times 40 pixels scaled by the wavelength 1.45; the spectrometer: one bin of 4 pixels by 2 * 1.22 * 10 * 1.5 * 4. -/
theorem demo_values : ∃ fuel b b', build fuel env common2 false phot2 = some (.ok b) ∧ build fuel env common2 false spec2 = some (.ok b') ∧
    b.table.get? "Wavelength" = some (col [29 / 20]) ∧ b.table.get? "Bandwidth" = some (col [9 / 10]) ∧ b.table.get? "QE" = some (col [1 / 2]) ∧
    b.table.get? "TR" = some (col [9 / 20]) ∧ b.table.get? "WindowSize" = some (col [116 * 58]) ∧
    b'.table.get? "Wavelength" = some (col [3 / 2]) ∧ b'.table.get? "WindowSize" = some (col [4 * (732 / 5)]) ∧
    b'.table.get? "TR" = some (col [9 / 20]) := by
  obtain ⟨n, b, h1⟩ := build_succeeds sound_env sound_common2 sound_phot2 complete_phot2
  obtain ⟨m, b', h2⟩ := build_succeeds sound_env sound_common2 sound_spec2 complete_spec2
  have hp := build_mono (le_max_left n m) h1
  have hs := build_mono (le_max_right n m) h2
  have binp : Binned phot2 := by simp [Binned, phot2, phot]
  have bins : Binned spec2 := by simp [Binned, spec2, specDescr2]
  have plain : List.Forall₂ (fun e v => Plain e.2 v) ([("M1", mirror)] ++ [("filter", filter)]) [(9 / 10 : ℝ), 1 / 2] := by
    refine .cons ?_ (.cons ?_ .nil)
    · exact ⟨rfl, rfl, rfl, .inr ⟨rfl, rfl⟩⟩
    · exact ⟨rfl, rfl, rfl, .inl ⟨rfl, rfl⟩⟩
  have nd : (Dict.keys [("M1", mirror)] ++ Dict.keys [("filter", filter)]).Nodup := by decide
  have nt : "total" ∉ Dict.keys [("M1", mirror)] ++ Dict.keys [("filter", filter)] := by decide
  obtain ⟨e, total, e1, e2, _, _, e3, e4, _, _, ⟨q, e5, e6⟩, _⟩ := built_table sound_env sound_phot2 binp hp
  obtain ⟨e', e1', e7⟩ := plain_path sound_env sound_phot2 binp hp rfl rfl nd nt plain
  obtain ⟨s, prf, k, _, _, w1, _, w2⟩ := photometer_window sound_env sound_phot2 hp (ap := { radius := some 1 }) rfl
  obtain ⟨f, _, f1, _, _, _, f3, _⟩ := built_table sound_env sound_spec2 bins hs
  obtain ⟨f', f1', f7⟩ := plain_path sound_env sound_spec2 bins hs rfl rfl nd nt plain
  obtain ⟨f'', sol, fy, g1, g2, g3, g4⟩ := spectrometer_window sound_env sound_spec2 bins hs (s := specDescr2) rfl
  refine ⟨max n m, b, b', hp, hs, ?_, ?_, ?_, ?_, ?_, ?_, ?_, ?_⟩
  · have : e = [1, 19 / 10] := e1
    rw [e3, this]; simp only [mids, List.tail_cons, List.zip_cons_cons, List.zip_nil_right, List.map_cons, List.map_nil]; norm_num
  · have : e = [1, 19 / 10] := e1
    rw [e4, this]; simp only [gaps, List.tail_cons, List.zip_cons_cons, List.zip_nil_right, List.map_cons, List.map_nil]; norm_num
  · have : e = [1, 19 / 10] := e1
    have hq : q ((1 + 19 / 10) / 2) = 1 / 2 := by
      have : q ((1 + 19 / 10) / 2) = if (1 : ℝ) ≤ (1 + 19 / 10) / 2 ∧ (1 + 19 / 10 : ℝ) / 2 ≤ 19 / 10 then 1 / 2 else 0 := e5 _
      rw [this, if_pos (by norm_num)]
    rw [e6, this]; simp only [mids, List.tail_cons, List.zip_cons_cons, List.zip_nil_right, List.map_cons, List.map_nil, hq]
  · have : e' = [1, 19 / 10] := e1'
    rw [e7, this]; simp only [mids, List.tail_cons, List.zip_cons_cons, List.zip_nil_right, List.map_cons, List.map_nil]
    have a : phot2.wlMin = 1 := rfl
    have b : phot2.wlMax = 19 / 10 := rfl
    have c : phot2.detWlMin = 1 := rfl
    have d : phot2.cutOff = 19 / 10 := rfl
    rw [a, b, c, d, if_neg (by norm_num), if_pos (by norm_num)]
    norm_num
  · obtain ⟨fy, y1, y2, _⟩ := w2 (by simp [psfFormat, phot2, phot])
    have hy : fy = 10 := by
      have : some (10 : ℝ) = some fy := y1
      simpa using this.symm
    rw [w1, y2 1 rfl, hy]
    have a : phot2.wlMin = 1 := rfl
    have b : phot2.wlMax = 19 / 10 := rfl
    have c : phot2.fnumX = 20 := rfl
    have d : phot2.deltaPix = 1 / 4 := rfl
    rw [a, b, c, d]
    norm_num
  · have : f = [1, 2] := one_bin f1
    rw [f3, this]; simp only [mids, List.tail_cons, List.zip_cons_cons, List.zip_nil_right, List.map_cons, List.map_nil]; norm_num
  · have : f'' = [1, 2] := one_bin g1
    have hy : fy = 10 := by
      have : some (10 : ℝ) = some fy := g3
      simpa using this.symm
    have hsol : sol = [(0, 1), (1, 2)] := by
      have : some [((0 : ℝ), (1 : ℝ)), (1, 2)] = some sol := g2
      simpa using this.symm
    have e2 : ∀ x, Instrument.extend ([((0 : ℝ), (1 : ℝ)), (1, 2)].map Prod.swap) x = 1 * x + (-1) := fun x =>
      Instrument.extend_line _ (by simp) (by simp) 1 (-1) (by intro p hp; simp at hp; rcases hp with rfl | rfl <;> norm_num) x
    rw [g4, this, hy, hsol]
    simp only [List.tail_cons, List.zip_cons_cons, List.zip_nil_right, List.map_cons, List.map_nil]
    have d : spec2.deltaPix = 1 / 4 := rfl
    unfold widthOf heightAt
    simp only [List.map_cons, List.map_nil] at e2
    simp only [specDescr2, e2, d, List.map_cons, List.map_nil, Option.getD_none]
    norm_num
  · have : f' = [1, 2] := one_bin f1'
    rw [f7, this]; simp only [mids, List.tail_cons, List.zip_cons_cons, List.zip_nil_right, List.map_cons, List.map_nil]
    have a : spec2.wlMin = 1 := rfl
    have b : spec2.wlMax = 2 := rfl
    have c : spec2.detWlMin = 1 := rfl
    have d : spec2.cutOff = 19 / 10 := rfl
    rw [a, b, c, d, if_neg (by norm_num), if_pos (by norm_num)]
    norm_num

end
end ExoRad.Build.Demo
