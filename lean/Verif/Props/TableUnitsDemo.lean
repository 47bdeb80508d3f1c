import Verif.Props.TableUnits
import Verif.Props.BuildValuesDemo

/-!
# The hypotheses of C115 for a channel can be met: a photometer whose filter is measured in nanometres
-/

set_option linter.unusedSectionVars false

namespace ExoRad.TableUnits.Demo
open Build Build.Demo
noncomputable section

/-- A filter that transmits half of the light from 500 to 2500 nanometres. -/
def filterTable : Tab ℝ :=
  [("Wavelength", .column [500, 2500] ⟨{ m := 1 }, 1 / 1000000000⟩), ("Transmission", .bare [1 / 2, 1 / 2]), ("Emissivity", .bare [0, 0])]

def bare : Optics.Descr ℝ := { value := "filter", type := "surface" }

def filterNm : Optics.Descr ℝ := { bare with data := some (raw filterTable) }

def phot3 : Build.Descr := { phot with optics := some (.many [("filter", filterNm)]) }

theorem sound_filterNm : SoundElement filterNm := by
  constructor
  · intro t ht q hq
    simp only [filterNm, Option.some.injEq] at ht
    subst ht
    simp only [raw, filterTable, List.map_cons, List.map_nil, Col.raw, List.mem_cons, List.not_mem_nil, or_false] at hq
    rcases hq with rfl | rfl | rfl <;> intro x hx <;> simp at hx <;> (try rcases hx with rfl | rfl) <;> (try subst hx) <;> norm_num
  all_goals intro v hv; simp [filterNm, bare] at hv

theorem sound_optics3 : ∀ o, some (Optics.Section.many [("filter", filterNm)]) = some o → SoundSection o := by
  intro o ho
  simp only [Option.some.injEq] at ho
  subst ho
  intro q hq
  rw [List.mem_singleton] at hq
  subst hq
  exact ⟨rfl, sound_filterNm⟩

theorem sound_phot3 : SoundDescr env phot3 :=
  ⟨sound_phot.band, sound_phot.detector, sound_phot.deltaPix, sound_phot.fnumX, sound_phot.fnumY, sound_phot.qe, sound_phot.psf, sound_optics3, sound_phot.kind⟩

theorem readable3 : (∀ e ∈ opticsOf common2 phot3, Readable e) ∧ ∀ e ∈ opticsOf common2 phot3, e.type ≠ "slit" := by
  constructor <;> intro e he <;>
    simp only [opticsOf, common2, phot3, elements, Option.map_some, Option.getD_some, List.map_cons, List.map_nil, List.cons_append, List.nil_append,
      List.mem_cons, List.not_mem_nil, or_false] at he <;>
    rcases he with rfl | rfl <;> simp [Readable, Build.Demo.mirror, filterNm, bare, raw, filterTable, Dict.keys]

theorem complete_phot3 : Complete env common2 phot3 :=
  ⟨by simp [common2, common], by simp [phot3], by show some (10 : ℝ) ≠ none; simp, readable3.1, complete_phot.psf, complete_phot.qe, ⟨.inl (by simp), readable3.2⟩⟩

/-- C115 on a concrete channel: the photometer is built, and transmits nothing. -/
theorem demo_blank : ∃ fuel b, build fuel env common2 false phot3 = some (.ok b) ∧ b.table.get? "TR" = some (Pipeline.col [0]) := by
  obtain ⟨n, b, h⟩ := build_succeeds sound_env sound_common2 sound_phot3 complete_phot3
  refine ⟨n, b, h, ?_⟩
  have bin : Binned phot3 := by simp [Binned, phot3, phot]
  obtain ⟨es, e1, e2⟩ := channel_blank sound_env sound_phot3 bin h (shared := [("M1", Build.Demo.mirror)]) (own := [("filter", filterNm)]) rfl rfl
    (by decide) (by decide) (name := "filter") (e := bare) (t := filterTable) (by simp [filterNm]) (by
      intro col hc y hy
      have hcol : col = .column [500, 2500] ⟨{ m := 1 }, 1 / 1000000000⟩ := by
        rcases hc with hc | ⟨_, hc⟩ <;> simp [filterTable, Dict.get?] at hc
        rw [← hc]; norm_num
      subst hcol
      have : phot3.cutOff = 19 / 10 := rfl
      rw [this]
      simp only [Col.raw, List.mem_cons, List.not_mem_nil, or_false] at hy
      rcases hy with rfl | rfl <;> norm_num)
  have : es = [1, 19 / 10] := e1
  rw [e2, this]
  rfl

end

end ExoRad.TableUnits.Demo
