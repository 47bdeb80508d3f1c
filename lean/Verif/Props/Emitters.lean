import Verif.Props.BuildOk
import Verif.Props.Optics

/-!
# Which elements of a channel emit: C108, C35
-/

namespace ExoRad.Build

/-- The description `D` is called `name` in a section of optics (an element of a list is filed under its name, as the loader does). -/
def Named (o : Optics.Section ℝ) (name : String) (D : Optics.Descr ℝ) : Prop := D ∈ elements o ∧ D.value = name

/-- The elements of a section have different names. -/
def Distinct (o : Optics.Section ℝ) : Prop := ((elements o).map (·.value)).Nodup

theorem forall2_made {wl : List ℝ} {es : Dict String (Optics.Descr ℝ)} {els : Dict String (Optics.Element ℝ)}
    (hf : List.Forall₂ (fun d e => e.1 = d.1 ∧ Optics.mkElement d.2 wl = .ok e.2) es els) :
    els.keys = es.keys ∧ (∀ e ∈ els, ∃ q ∈ es, e.1 = q.1 ∧ Optics.mkElement q.2 wl = .ok e.2) ∧ ∀ q ∈ es, ∃ e ∈ els, e.1 = q.1 ∧ Optics.mkElement q.2 wl = .ok e.2 := by
  induction hf with
  | nil => exact ⟨rfl, fun e he => (by cases he), fun e he => (by cases he)⟩
  | cons hd _ ih =>
    obtain ⟨i1, i2, i3⟩ := ih
    refine ⟨by simp only [Dict.keys, List.map_cons] at i1 ⊢; rw [i1, hd.1], fun e he => ?_, fun e he => ?_⟩
    · rcases List.mem_cons.mp he with rfl | he
      · exact ⟨_, by simp, hd⟩
      · obtain ⟨q, hq, h⟩ := i2 e he
        exact ⟨q, by simp [hq], h⟩
    · rcases List.mem_cons.mp he with rfl | he
      · exact ⟨_, by simp, hd⟩
      · obtain ⟨q, hq, h⟩ := i3 e he
        exact ⟨q, by simp [hq], h⟩

theorem prepared_get {wl : List ℝ} {o : Optics.Section ℝ} (ho : SoundSection o) (hn : Distinct o) {els : Dict String (Optics.Element ℝ)} (h : Optics.prepareElements wl o = .ok els) (k : String) :
    (∀ el, els.get? k = some el → el.name = k ∧ (el.temperature.isSome = true → ∃ D, Named o k D ∧ D.temperature.isSome = true)) ∧
    (∀ D, Named o k D → ∃ el, els.get? k = some el ∧ el.temperature = D.temperature) := by
  have made : ∀ {D : Optics.Descr ℝ} {el : Optics.Element ℝ}, Optics.mkElement D wl = .ok el → el.name = D.value ∧ el.temperature = D.temperature := by
    intro D el hm
    unfold Optics.mkElement at hm
    split at hm
    · cases hm
    split at hm
    · cases hm
    cases hm
    exact ⟨rfl, rfl⟩
  have many : ∀ (es : Dict String (Optics.Descr ℝ)), (∀ q ∈ es, q.2.value = q.1) → ((es.map Prod.snd).map (·.value)).Nodup → Optics.prepareElements wl (.many es) = .ok els →
      (∀ el, els.get? k = some el → el.name = k ∧ (el.temperature.isSome = true → ∃ D, (D ∈ es.map Prod.snd ∧ D.value = k) ∧ D.temperature.isSome = true)) ∧
      (∀ D, (D ∈ es.map Prod.snd ∧ D.value = k) → ∃ el, els.get? k = some el ∧ el.temperature = D.temperature) := by
    intro es hes hnd hp
    have hk : es.keys = (es.map Prod.snd).map (·.value) := by
      unfold Dict.keys
      rw [List.map_map]
      exact List.map_congr_left (fun q hq => (hes q hq).symm)
    have hf := Optics.prepareElements_spec wl es els (by rw [hk]; exact hnd) hp
    obtain ⟨hke, two, three⟩ := forall2_made hf
    refine ⟨fun el he => ?_, fun D hD => ?_⟩
    · obtain ⟨q, hq, e1, e2⟩ := two _ (Dict.mem_of_get? he)
      obtain ⟨m1, m2⟩ := made e2
      simp only at e1
      refine ⟨by rw [m1, hes q hq, ← e1], fun hT => ⟨q.2, ⟨List.mem_map.mpr ⟨q, hq, rfl⟩, by rw [hes q hq, ← e1]⟩, by rwa [m2] at hT⟩⟩
    · obtain ⟨hm, hv⟩ := hD
      obtain ⟨q, hq, rfl⟩ := List.mem_map.mp hm
      obtain ⟨e, he, e1, e2⟩ := three q hq
      refine ⟨e.2, ?_, (made e2).2⟩
      have : e.1 = k := by rw [e1, ← hes q hq, hv]
      rw [← this]
      exact Dict.get?_of_mem (by rw [hke, hk]; exact hnd) he
  cases o with
  | absent =>
    obtain ⟨el, e1, e2, _⟩ := Optics.prepareElements_absent wl
    rw [e1] at h
    cases h
    have hname : el.name = "noElement" := by
      rw [Optics.prepareElements, Optics.buildMany] at e1
      split at e1
      · cases e1
      rename_i x hx
      simp only [Optics.buildMany, Dict.set, Except.ok.injEq, List.cons.injEq, Prod.mk.injEq, true_and, and_true] at e1
      rw [← e1, (made hx).1]
      rfl
    refine ⟨fun x hx => ?_, fun D hD => by cases hD.1⟩
    rw [Dict.get?_cons] at hx
    split at hx
    · rename_i hk
      cases hx
      exact ⟨by rw [hname, hk], fun hT => by rw [e2] at hT; cases hT⟩
    · cases hx
  | one e =>
    exact many [(e.value, e)] (fun q hq => by rw [List.mem_singleton] at hq; subst hq; rfl) (by simp) h
  | many es => exact many es (fun q hq => (ho q hq).1) hn h

/-- C108, C35: the elements of a channel that emit are those described with a temperature: its own ones, and the common ones whose name is not that of one of its own. (`noElement` is the name of the
element of a section without any.) -/
theorem emitters_mem {env : Env} {c : Common} {d : Descr} (hc : SoundCommon c) (hd : SoundDescr env d) {els : Dict String (Optics.Element ℝ)} (h : pathElements env c d = .ok els)
    (hn : Distinct c.optics) (hz : ∀ D, ¬ Named c.optics "noElement" D) (hno : ∀ o, d.optics = some o → Distinct o) (name : String) :
    name ∈ emitters env c d ↔ ∃ o, d.optics = some o ∧
      ((∃ D, Named o name D ∧ D.temperature.isSome = true) ∨ ((∀ D, ¬ Named o name D) ∧ ∃ D, Named c.optics name D ∧ D.temperature.isSome = true)) := by
  have he : emitters env c d = Optics.emitting els := by unfold emitters; rw [h]
  unfold pathElements at h
  split at h
  · cases h
  split at h
  · cases h
  rename_i shared hsh
  split at h
  · cases h
  rename_i o ho
  split at h
  · cases h
  rename_i own hown
  cases h
  obtain ⟨sh, shn⟩ := prepareElements_sound hc.optics hsh
  obtain ⟨ow, own'⟩ := prepareElements_sound (hd.optics o ho) hown
  have hps := prepend_sound sh ow
  have hget : ∀ k, (Optics.prepend shared own).get? k = if k ∈ own.keys then own.get? k else shared.get? k := by
    intro k
    unfold Optics.prepend
    rw [List.foldl_append, Optics.foldl_set_get k own _ own', Optics.foldl_set_get k shared _ shn]
    split
    · rfl
    · split
      · rfl
      · rename_i h2
        rw [(Dict.get?_eq_none_iff shared k).mpr h2]
        rfl
  have hs := fun k => prepared_get hc.optics hn hsh k
  have hw := fun k => prepared_get (hd.optics o ho) (hno o ho) hown k
  have hname : ∀ k el, (Optics.prepend shared own).get? k = some el → el.name = k := by
    intro k el hk
    rw [hget] at hk
    split at hk
    · exact ((hw k).1 el hk).1
    · exact ((hs k).1 el hk).1
  have hem : name ∈ Optics.emitting (Optics.prepend shared own) ↔ ∃ el, (Optics.prepend shared own).get? name = some el ∧ el.temperature.isSome = true := by
    unfold Optics.emitting
    constructor
    · intro hm
      obtain ⟨q, hq, e⟩ := List.mem_map.mp hm
      rw [List.mem_filter] at hq
      have hg := Dict.get?_of_mem hps.2 hq.1
      have := hname _ _ hg
      rw [e] at this
      rw [← this] at hg
      exact ⟨q.2, hg, hq.2⟩
    · rintro ⟨el, hg, hT⟩
      exact List.mem_map.mpr ⟨(name, el), List.mem_filter.mpr ⟨Dict.mem_of_get? hg, hT⟩, hname _ _ hg⟩
  rw [he, hem, hget]
  by_cases hk : name ∈ own.keys
  · rw [if_pos hk]
    obtain ⟨el0, hel0⟩ := Dict.exists_get? hk
    constructor
    · rintro ⟨el, hg, hT⟩
      exact ⟨o, ho, .inl (((hw name).1 el hg).2 hT)⟩
    · rintro ⟨o', ho', h1⟩
      rw [ho] at ho'
      cases ho'
      rcases h1 with ⟨D, hD, hT⟩ | ⟨hnot, D, hD, hT⟩
      · obtain ⟨el, hg, e⟩ := (hw name).2 D hD
        exact ⟨el, hg, by rw [e, hT]⟩
      · exfalso
        cases o with
        | absent =>
          obtain ⟨x, e1, _⟩ := Optics.prepareElements_absent (workGrid env d)
          rw [e1] at hown
          cases hown
          simp only [Dict.keys, List.map_cons, List.map_nil, List.mem_singleton] at hk
          subst hk
          exact hz D hD
        | one e =>
          have : own.keys = [e.value] := by
            have := (forall2_made (Optics.prepareElements_spec (workGrid env d) [(e.value, e)] own (by simp [Dict.keys]) hown)).1
            simpa [Dict.keys] using this
          rw [this, List.mem_singleton] at hk
          exact hnot e ⟨by simp [elements], hk.symm⟩
        | many es =>
          have hkk : es.keys = (es.map Prod.snd).map (·.value) := by
            unfold Dict.keys
            rw [List.map_map]
            exact List.map_congr_left (fun q hq => ((hd.optics _ ho) q hq).1.symm)
          rw [(forall2_made (Optics.prepareElements_spec (workGrid env d) es own (by rw [hkk]; exact hno _ ho) hown)).1, hkk] at hk
          obtain ⟨D', hD', e⟩ := List.mem_map.mp hk
          exact hnot D' ⟨hD', e⟩
  · rw [if_neg hk]
    have hnot : ∀ D, ¬ Named o name D := by
      intro D hD
      obtain ⟨el, hg, _⟩ := (hw name).2 D hD
      exact hk (Dict.mem_keys_of_get? hg)
    constructor
    · rintro ⟨el, hg, hT⟩
      exact ⟨o, ho, .inr ⟨hnot, ((hs name).1 el hg).2 hT⟩⟩
    · rintro ⟨o', ho', h1⟩
      rw [ho] at ho'
      cases ho'
      rcases h1 with ⟨D, hD, _⟩ | ⟨_, D, hD, hT⟩
      · exact absurd hD (hnot D)
      · obtain ⟨el, hg, e⟩ := (hs name).2 D hD
        exact ⟨el, hg, by rw [e, hT]⟩

end ExoRad.Build
