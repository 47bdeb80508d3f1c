import Verif.Props.Build
import Verif.Props.SourceSelect

/-!
# When a channel can be built: C82
-/

set_option linter.unusedSectionVars false

namespace ExoRad.Build
open Table Pipeline Light

/-! ## Specification: a complete description -/

/-- The curves of an element can be found: a data table has a wavelength column, the column to use and an emissivity; of two constants one is chosen. -/
def Readable (e : Optics.Descr ℝ) : Prop :=
  match e.data with
  | some t => e.wlColName = none ∧ ("Wavelength" ∈ t.keys ∨ "wavelength" ∈ t.keys) ∧ ("Emissivity" ∈ t.keys ∨ "emissivity" ∈ t.keys) ∧
      (e.use = none → "Transmission" ∈ t.keys ∨ "Reflectivity" ∈ t.keys) ∧ ∀ c, e.use = some c → c ∈ t.keys
  | none => e.transmission = none ∨ e.reflectivity = none ∨ e.use = some "transmission" ∨ e.use = some "reflectivity"

/-- The elements of an `optics` section. -/
def elements : Optics.Section ℝ → List (Optics.Descr ℝ)
  | .absent => []
  | .one e => [e]
  | .many es => es.map Prod.snd

/-- The elements in front of the detector. -/
def opticsOf (c : Common) (d : Descr) : List (Optics.Descr ℝ) := elements c.optics ++ (d.optics.map elements).getD []

/-- An image with pixels. -/
def Wide (m : Psf.Img ℝ) : Prop := 0 < m.rows ∧ 0 < m.cols

/-- There is an image for every wavelength. -/
def PsfThere (env : Env) (d : Descr) : Prop :=
  (psfFormat d = some "pixel_based" → match psfFile d with
    | .fits f => Wide f.ima
    | .dir fs => fs ≠ [] ∧ ∀ f ∈ fs, Wide f.2.ima
    | _ => False) ∧
  (psfFormat d = some "paos" → match psfFile d with
    | .paos g => ∀ wl, ∃ r, g wl = .ok r ∧ Wide r.1 ∧ Wide r.2
    | _ => False) ∧
  (psfFormat d ≠ some "pixel_based" → psfFormat d ≠ some "paos" → match psfFile d with
    | .missing _ => Wide env.airy
    | .fits f => Wide f.ima
    | .dir fs => fs ≠ [] ∧ ∀ f ∈ fs, Wide f.2.ima
    | _ => False)

/-- A quantum efficiency that can be sampled between the ends of the detector's range. -/
def QeThere (d : Descr) : Prop :=
  match d.qe with
  | .constant _ => True
  | .data t => ∃ c wl v, (c = "wavelength" ∨ (c = "Wavelength" ∧ "wavelength" ∉ t.keys)) ∧ t.get? c = some wl ∧ t.get? d.noise.value = some v ∧
      v.length = wl.length ∧ wl.Pairwise (· < ·) ∧ ∃ p ∈ wl, ∃ q ∈ wl, p < q ∧ 9 / 10 * d.detWlMin < p ∧ q < 11 / 10 * d.cutOff

/-- The aperture of a photometer: a radius, or an energy that the image has within some radius. -/
def ApertureThere (env : Env) (d : Descr) (ap : ApertureDescr) : Prop :=
  ap.radius ≠ none ∨ ∃ e, ap.enE = some e ∧ 0 ≤ e ∧ ∀ prf a b w, (∀ i j, 1 ≤ i → i ≤ j → env.enc prf a b w i ≤ env.enc prf a b w j) ∧
    env.enc prf a b w 1 < e ∧ ∃ n, 1 ≤ n ∧ e + 1 / 50 ≤ env.enc prf a b w n

/-- The resolution of a spectrometer: a given curve covers the band with steps of at least 0.0001, the first of them within the band. -/
def ResolutionThere (d : Descr) : Resolution → Prop
  | .native => True
  | .fixed _ => True
  | .curve pts => (∀ w, d.wlMin ≤ w → w < d.wlMax → ∃ r, Psf.interpStrict pts w = .ok r ∧ 1 / 10000 ≤ w / r) ∧
      ∀ r, Psf.interpStrict pts d.wlMin = .ok r → Instrument.round4 (d.wlMin + d.wlMin / r) < d.wlMax
  | .unsupported => False

/-- A slit: it is at least one pixel wide and not wider than the detector, all bins have a pixel, and the working grid has two points around the band of
the pixels. -/
def SlitFits (env : Env) (d : Descr) (s : SpecDescr) (w : ℝ) : Prop :=
  ∀ sol, s.solution = some sol →
    2 ≤ (Instrument.pixelGrid sol d.wlMin d.wlMax d.deltaPix).wl.length ∧
    d.deltaPix ≤ w ∧ w < ((Instrument.pixelGrid sol d.wlMin d.wlMax d.deltaPix).wl.length + 1) * d.deltaPix ∧
    (∀ fuel b e, wavelengthTable fuel d s.targetR (Instrument.pixelGrid sol d.wlMin d.wlMax d.deltaPix) = some (.ok (b, e)) →
      ∀ r ∈ b.left.zip b.right, ∃ x ∈ (Instrument.pixelGrid sol d.wlMin d.wlMax d.deltaPix).wl, r.1 < x ∧ x ≤ r.2) ∧
    ∃ p ∈ workGrid env d, ∃ q ∈ workGrid env d, p < q ∧ ∃ a ∈ (Instrument.pixelGrid sol d.wlMin d.wlMax d.deltaPix).wl,
      ∃ b ∈ (Instrument.pixelGrid sol d.wlMin d.wlMax d.deltaPix).wl, 9 / 10 * a < p ∧ q < 11 / 10 * b

/-- What the class of the channel needs. -/
def KindThere (env : Env) (c : Common) (d : Descr) : Kind → Prop
  | .photometer ap => ApertureThere env d ap ∧ ∀ e ∈ opticsOf c d, e.type ≠ "slit"
  | .spectrometer s => s.solution ≠ none ∧ ResolutionThere d s.targetR ∧
      ∀ e ∈ opticsOf c d, e.type = "slit" → ∃ w, e.width = some w ∧ SlitFits env d s w

/-- Nothing is missing in a description. -/
structure Complete (env : Env) (c : Common) (d : Descr) : Prop where
  force : c.force ≠ none
  optics : d.optics ≠ none
  fnumY : d.fnumY ≠ none
  readable : ∀ e ∈ opticsOf c d, Readable e
  psf : PsfThere env d
  qe : QeThere d
  kind : KindThere env c d d.kind

/-! ## Rebinning -/

theorem rebin_works {s : Rebin.Signal ℝ} (hs : s.data.length = s.wl.length) (hx : s.wl.Pairwise (· < ·)) {new : List ℝ} (h0 : (0 : ℝ) ∉ Rebin.diffs new)
    (h2 : 2 ≤ new.length) {p q a b : ℝ} (hp : p ∈ s.wl) (hq : q ∈ s.wl) (hpq : p < q) (ha : a ∈ new) (hb : b ∈ new) (hap : 9 / 10 * a < p) (hqb : q < 11 / 10 * b) :
    ∃ s', s.spectralRebin new = .ok s' := by
  unfold Rebin.Signal.spectralRebin Rebin.rebin
  cases hlo : Rebin.minE new with
  | error x => rw [(Rebin.minE_error hlo).1] at h2; simp at h2
  | ok lo =>
    cases hhi : Rebin.maxE new with
    | error x => rw [(Rebin.maxE_error hhi).1] at h2; simp at h2
    | ok hi =>
      simp only
      have hlo' := (Rebin.minE_spec hlo).2 a ha
      have hhi' := (Rebin.maxE_spec hhi).2 b hb
      have hin : ∀ x ∈ s.wl, p ≤ x → x ≤ q → ∃ v, (x, v) ∈ Rebin.window lo hi (s.wl.zip s.data) := by
        intro x hxm h1 h2
        obtain ⟨i, hi', rfl⟩ := List.mem_iff_getElem.mp hxm
        refine ⟨s.data[i]'(by omega), Rebin.window_mem.mpr ⟨?_, ?_, ?_⟩⟩
        · exact List.mem_iff_getElem.mpr ⟨i, by simp; omega, by simp⟩
        · simp only; linarith
        · simp only; linarith
      have hsort : ((Rebin.window lo hi (s.wl.zip s.data)).map Prod.fst).Pairwise (· < ·) := by
        have hsub : ((Rebin.window lo hi (s.wl.zip s.data)).map Prod.fst).Sublist ((s.wl.zip s.data).map Prod.fst) := (Rebin.window_sublist _ _ _).map _
        rw [Rebin.zip_map_fst _ _ hs] at hsub
        exact hx.sublist hsub
      obtain ⟨v1, m1⟩ := hin p hp le_rfl hpq.le
      obtain ⟨v2, m2⟩ := hin q hq hpq.le le_rfl
      have hlen : 2 ≤ (Rebin.window lo hi (s.wl.zip s.data)).length := by
        match hw : Rebin.window lo hi (s.wl.zip s.data) with
        | [] => rw [hw] at m1; cases m1
        | [y] =>
          rw [hw, List.mem_singleton] at m1 m2
          rw [← m2, Prod.mk.injEq] at m1
          exact absurd m1.1 hpq.ne
        | _ :: _ :: _ => simp
      have hd0 : (0 : ℝ) ∉ Rebin.diffs ((Rebin.window lo hi (s.wl.zip s.data)).map Prod.fst) := fun h => lt_irrefl _ (Rebin.diffs_pos _ hsort 0 h)
      rw [Rebin.dedup_id _ _ hd0 hlen, Rebin.dedupGrid_id _ h0 h2]
      simp only
      unfold Rebin.resample
      cases hm : Rebin.maxE (Rebin.diffs ((Rebin.window lo hi (s.wl.zip s.data)).map Prod.fst)) with
      | error x =>
        have h := Rebin.diffs_length ((Rebin.window lo hi (s.wl.zip s.data)).map Prod.fst)
        rw [(Rebin.maxE_error hm).1] at h
        simp at h; omega
      | ok mp =>
        cases hn : Rebin.minE (Rebin.diffs new) with
        | error x =>
          have h := Rebin.diffs_length new
          rw [(Rebin.minE_error hn).1] at h
          simp at h; omega
        | ok mx =>
          simp only
          split_ifs <;> exact ⟨_, rfl⟩

/-! ## Elements -/

theorem getE_ok {t : Dict String (List ℝ)} {k : String} (h : k ∈ t.keys) : ∃ v, t.getE k = .ok v := by
  obtain ⟨v, hv⟩ := Dict.exists_get? h
  exact ⟨v, by unfold Dict.getE; rw [hv]⟩

/-- The wavelengths of the data of an optical element: those of the column `wavelength`, else of `Wavelength`, else a ValueError; a description that names the column
is not accepted. -/
theorem wlColumn_iff (e : Optics.Descr ℝ) (t : Dict String (List ℝ)) :
    Optics.wlColumn e t =
      match e.wlColName with
      | some _ => .error .unboundLocalError
      | none => if "wavelength" ∈ t.keys then t.getE "wavelength" else if "Wavelength" ∈ t.keys then t.getE "Wavelength" else .error .valueError := by
  unfold Optics.wlColumn Misc.getWlColName
  rcases h : e.wlColName with _ | c
  · simp only [Option.map_none, List.foldl_cons, List.foldl_nil]
    by_cases h1 : "wavelength" ∈ t.keys
    · simp [h1]
    · by_cases h2 : "Wavelength" ∈ t.keys <;> simp [h1, h2]
  · simp

theorem wlColumn_ok {e : Optics.Descr ℝ} {t : Dict String (List ℝ)} (h0 : e.wlColName = none) (h : "Wavelength" ∈ t.keys ∨ "wavelength" ∈ t.keys) :
    ∃ v, Optics.wlColumn e t = .ok v := by
  unfold Optics.wlColumn Misc.getWlColName
  rw [h0]
  simp only [Option.map_none, List.foldl_cons, List.foldl_nil]
  by_cases hw : "wavelength" ∈ t.keys
  · rw [if_pos hw]
    exact getE_ok hw
  · rw [if_neg hw, if_pos (h.resolve_right hw)]
    exact getE_ok (h.resolve_right hw)

/-- C82: an element with a readable description can be made. -/
theorem mkElement_ok {e : Optics.Descr ℝ} (h : Readable e) (wl : List ℝ) : ∃ el, Optics.mkElement e wl = .ok el := by
  have ht : ∃ tr, Optics.getTransmission e wl = .ok tr := by
    unfold Optics.getTransmission
    unfold Readable at h
    cases hd : e.data with
    | some t =>
      simp only [hd] at h ⊢
      obtain ⟨h0, h1, h2, h3, h4⟩ := h
      have hc : ∃ c, Optics.trColumn e t = .ok c ∧ c ∈ t.keys := by
        unfold Optics.trColumn
        cases hu : e.use with
        | some c => exact ⟨c, rfl, h4 c hu⟩
        | none =>
          simp only [Dict.has_iff]
          by_cases hT : "Transmission" ∈ t.keys
          · exact ⟨_, by rw [if_pos hT], hT⟩
          · have hR := (h3 hu).resolve_left hT
            exact ⟨_, by rw [if_neg hT, if_pos hR], hR⟩
      obtain ⟨c, e1, e2⟩ := hc
      obtain ⟨w, e3⟩ := wlColumn_ok h0 h1
      obtain ⟨v, e4⟩ := getE_ok e2
      simp only [e1, e3, e4]
      exact ⟨_, rfl⟩
    | none =>
      simp only [hd] at h ⊢
      cases hT : e.transmission with
      | none => cases hR : e.reflectivity <;> exact ⟨_, rfl⟩
      | some a =>
        cases hR : e.reflectivity with
        | none => exact ⟨_, rfl⟩
        | some b =>
          simp only [hT, hR, reduceCtorEq, false_or] at h
          rcases h with h | h
          · simp only [h]
            have : e.num "transmission" = .ok a := by simp [Optics.Descr.num, hT]
            simp only [this]; exact ⟨_, rfl⟩
          · simp only [h]
            have : e.num "reflectivity" = .ok b := by simp [Optics.Descr.num, hR]
            simp only [this]; exact ⟨_, rfl⟩
  have hm : ∃ em, Optics.getEmissivity e wl = .ok em := by
    unfold Optics.getEmissivity
    unfold Readable at h
    cases hd : e.data with
    | some t =>
      simp only [hd] at h ⊢
      obtain ⟨h0, h1, h2, h3, h4⟩ := h
      have hc : ∃ c, Optics.emColumn t = .ok c ∧ c ∈ t.keys := by
        unfold Optics.emColumn
        simp only [Dict.has_iff]
        by_cases hT : "Emissivity" ∈ t.keys
        · exact ⟨_, by rw [if_pos hT], hT⟩
        · have hR := h2.resolve_left hT
          exact ⟨_, by rw [if_neg hT, if_pos hR], hR⟩
      obtain ⟨c, e1, e2⟩ := hc
      obtain ⟨w, e3⟩ := wlColumn_ok h0 h1
      obtain ⟨v, e4⟩ := getE_ok e2
      simp only [e1, e3, e4]
      exact ⟨_, rfl⟩
    | none =>
      simp only
      cases e.emissivity with
      | some v => exact ⟨_, rfl⟩
      | none =>
        simp only
        split_ifs <;> exact ⟨_, rfl⟩
  obtain ⟨tr, ht⟩ := ht
  obtain ⟨em, hm⟩ := hm
  unfold Optics.mkElement
  simp only [ht, hm]
  exact ⟨_, rfl⟩

theorem mkElement_slit {e : Optics.Descr ℝ} {wl : List ℝ} {el : Optics.Element ℝ} (h : Optics.mkElement e wl = .ok el) :
    el.type = e.type ∧ el.width = e.width := by
  unfold Optics.mkElement at h
  cases ht : Optics.getTransmission e wl with
  | error x => simp [ht] at h
  | ok tr =>
    simp only [ht] at h
    cases hm : Optics.getEmissivity e wl with
    | error x => simp [hm] at h
    | ok em =>
      simp only [hm, Except.ok.injEq] at h
      subst h
      exact ⟨rfl, rfl⟩

/-- Where an element of the path comes from: a description, or the stand-in of an empty section. -/
def From (ds : List (Optics.Descr ℝ)) (el : Optics.Element ℝ) : Prop := el.type = "surface" ∨ ∃ e ∈ ds, el.type = e.type ∧ el.width = e.width

theorem buildMany_ok {wl : List ℝ} {ds : List (Optics.Descr ℝ)} : ∀ {es : Dict String (Optics.Descr ℝ)} {out : Dict String (Optics.Element ℝ)},
    (∀ q ∈ es, Readable q.2 ∧ (q.2.type = "surface" ∨ q.2 ∈ ds)) → (∀ q ∈ out, From ds q.2) →
    ∃ els, Optics.buildMany wl es out = .ok els ∧ ∀ q ∈ els, From ds q.2
  | [], out, _, ho => ⟨out, rfl, ho⟩
  | (k, e) :: es, out, he, ho => by
    obtain ⟨h1, h2⟩ := he (k, e) (by simp)
    obtain ⟨el, hm⟩ := mkElement_ok h1 wl
    rw [Optics.buildMany]
    simp only [hm]
    refine buildMany_ok (fun q hq => he q (by simp [hq])) ?_
    intro q hq
    rcases mem_set' hq with hq | rfl
    · exact ho q hq
    · obtain ⟨e1, e2⟩ := mkElement_slit hm
      rcases h2 with h2 | h2
      · exact .inl (e1.trans h2)
      · exact .inr ⟨e, h2, e1, e2⟩

theorem prepareElements_ok {wl : List ℝ} {o : Optics.Section ℝ} (ho : ∀ e ∈ elements o, Readable e) :
    ∃ els, Optics.prepareElements wl o = .ok els ∧ ∀ q ∈ els, From (elements o) q.2 := by
  cases o with
  | absent =>
    refine buildMany_ok (ds := []) ?_ (by simp)
    intro q hq
    rw [List.mem_singleton] at hq
    subst hq
    exact ⟨by simp [Readable, Optics.noElement], .inl rfl⟩
  | one e =>
    refine buildMany_ok (ds := [e]) ?_ (by simp)
    intro q hq
    rw [List.mem_singleton] at hq
    subst hq
    exact ⟨ho e (by simp [elements]), .inr (by simp)⟩
  | many es =>
    refine buildMany_ok (ds := es.map Prod.snd) ?_ (by simp)
    intro q hq
    have : q.2 ∈ es.map Prod.snd := List.mem_map.mpr ⟨q, hq, rfl⟩
    exact ⟨ho _ this, .inr this⟩

theorem prepend_mem {β : Type} {a b : Dict String β} {q : String × β} (h : q ∈ Optics.prepend a b) : q ∈ a ∨ q ∈ b := by
  have key : ∀ (l out : Dict String β), q ∈ l.foldl (fun d p => d.set p.1 p.2) out → q ∈ out ∨ q ∈ l := by
    intro l
    induction l with
    | nil => intro out h; exact .inl h
    | cons p l ih =>
      intro out h
      rcases ih _ h with h | h
      · rcases mem_set' h with h | h
        · exact .inl h
        · exact .inr (by rw [h]; simp)
      · exact .inr (List.mem_cons_of_mem _ h)
  rcases key (a ++ b) [] h with h | h
  · cases h
  · exact List.mem_append.mp h

theorem pathElements_ok {env : Env} (he : SoundEnv env) {c : Common} {d : Descr} (ho : d.optics ≠ none) (hr : ∀ e ∈ opticsOf c d, Readable e) :
    ∃ els, pathElements env c d = .ok els ∧ ∀ q ∈ els, From (opticsOf c d) q.2 := by
  obtain ⟨o, ho⟩ := Option.ne_none_iff_exists'.mp ho
  have e0 : opticsOf c d = elements c.optics ++ elements o := by simp [opticsOf, ho]
  rw [e0] at hr ⊢
  obtain ⟨shared, h1, g1⟩ := prepareElements_ok (wl := workGrid env d) (o := c.optics) (fun e h => hr e (by simp [h]))
  obtain ⟨own, h2, g2⟩ := prepareElements_ok (wl := workGrid env d) (o := o) (fun e h => hr e (by simp [h]))
  refine ⟨Optics.prepend shared own, ?_, ?_⟩
  · unfold pathElements
    rw [if_neg (by have := he.workingR; omega)]
    simp only [h1, ho, h2]
  · intro q hq
    rcases prepend_mem hq with hq | hq
    · exact (g1 q hq).imp id (fun ⟨e, h, h'⟩ => ⟨e, by simp [h], h'⟩)
    · exact (g2 q hq).imp id (fun ⟨e, h, h'⟩ => ⟨e, by simp [h], h'⟩)

/-! ## Quantum efficiency -/

theorem grid_ends {env : Env} (he : SoundEnv env) {d : Descr} (hd : SoundDescr env d) : d.detWlMin ∈ workGrid env d ∧ d.cutOff ∈ workGrid env d := by
  obtain ⟨_, h2, h3, _⟩ := Instrument.logspace_spec d.detWlMin d.cutOff env.workingR hd.detector.1 hd.detector.2 he.workingR
  exact ⟨h2, h3⟩

theorem getQe_ok {env : Env} (he : SoundEnv env) {d : Descr} (hd : SoundDescr env d) (hq : QeThere d) :
    ∃ qe qe', getQe env d = .ok qe ∧ qe.spectralRebin (workGrid env d) = .ok qe' ∧ qe'.spectralRebin (workGrid env d) = .ok qe' := by
  obtain ⟨g1, g2, g3⟩ := grid_sound he hd
  have self : ∀ q : Rebin.Signal ℝ, q.data.length = q.wl.length → q.wl = workGrid env d → q.spectralRebin (workGrid env d) = .ok q := by
    intro q h1 h2
    rw [← h2] at g1 g2 g3 ⊢
    exact Rebin.spectralRebin_self q h1 g1 g2 g3
  unfold getQe
  unfold QeThere at hq
  cases hqe : d.qe with
  | constant v =>
    have h := self (Instrument.constantQe v d.detWlMin d.cutOff env.workingR) (by simp [Instrument.constantQe]) rfl
    exact ⟨_, _, rfl, h, h⟩
  | data t =>
    simp only [hqe] at hq ⊢
    obtain ⟨c, wl, v, hc, hw, hv, hl, hs, p, hp, q, hq', hpq, h9, h11⟩ := hq
    have hcol : Misc.getWlColName t.keys none = .ok (some c) := by
      simp only [Misc.getWlColName, List.foldl_cons, List.foldl_nil, Except.ok.injEq]
      have hck : c ∈ t.keys := Dict.mem_keys_of_get? hw
      rcases hc with rfl | ⟨rfl, hn⟩
      · rw [if_pos hck]
      · rw [if_neg hn, if_pos hck]
    have e1 : t.getE c = .ok wl := by unfold Dict.getE; rw [hw]
    have e2 : t.getE d.noise.value = .ok v := by unfold Dict.getE; rw [hv]
    have e3 : Rebin.Signal.mk? wl v = .ok ⟨wl, v⟩ := (Rebin.mk?_ok wl v ⟨wl, v⟩).mpr ⟨rfl, hl⟩
    simp only [hcol, e1, e2, e3]
    obtain ⟨k1, k2⟩ := grid_ends he hd
    have h0 : (0 : ℝ) ∉ Rebin.diffs (workGrid env d) := fun h => lt_irrefl _ (Rebin.diffs_pos _ g1 0 h)
    obtain ⟨s', hs'⟩ := rebin_works (s := ⟨wl, v⟩) hl hs h0 g3 hp hq' hpq k1 k2 h9 h11
    obtain ⟨w1, w2⟩ := Rebin.spectralRebin_wellFormed _ _ _ h0 hs'
    exact ⟨_, s', rfl, hs', self s' w1 w2⟩

/-! ## Images -/

theorem nearestFile_ok {fs : List (ℝ × Fits)} (h : fs ≠ []) (wl : ℝ) : ∃ f, Psf.nearestFile fs wl = .ok f := by
  unfold Psf.nearestFile
  cases ha : Psf.argmin (fs.map (fun f => |f.1 - wl|)) with
  | error e =>
    have := (Psf.argmin_error _ _ ha).1
    simp only [List.map_eq_nil_iff] at this
    exact absurd this h
  | ok i =>
    obtain ⟨v, hv, _⟩ := Psf.argmin_spec _ _ ha
    have hi : i < fs.length := by
      have := (List.getElem?_eq_some_iff.mp hv).1
      simpa using this
    simp only [List.getElem?_eq_getElem hi]
    exact ⟨_, rfl⟩

theorem psfImages_ok {env : Env} (he : SoundEnv env) {d : Descr} (hd : SoundDescr env d) (hy : d.fnumY ≠ none) (hp : PsfThere env d) {wl : ℝ} (hw : 0 < wl) :
    ∃ prf kernel, psfImages env d wl = .ok (prf, kernel) ∧ Wide prf ∧ 0 < kernel.cols := by
  have hsound := hd.psf
  obtain ⟨p1, p2, p3⟩ := hp
  unfold psfImages
  split_ifs with h1 h2
  · have p := p1 h1
    unfold pixelBasedPsf
    revert p
    generalize psfFile d = file
    intro p
    cases file with
    | fits f => exact ⟨_, _, rfl, p, by simp [Psf.ones]⟩
    | dir fs =>
      obtain ⟨f, hn⟩ := nearestFile_ok p.1 wl
      obtain ⟨w, hm⟩ := nearestFile_mem hn
      simp only [hn]
      exact ⟨_, _, rfl, p.2 _ hm, by simp [Psf.ones]⟩
    | missing b => exact p.elim
    | paos g => exact p.elim
    | other => exact p.elim
  · have p := p2 h2
    unfold paosPsf
    revert p
    generalize psfFile d = file
    intro p
    cases file with
    | paos g =>
      obtain ⟨r, e, w1, w2⟩ := p wl
      exact ⟨r.1, r.2, e, w1, w2.2⟩
    | missing b => exact p.elim
    | fits f => exact p.elim
    | dir fs => exact p.elim
    | other => exact p.elim
  · obtain ⟨fy, hy⟩ := Option.ne_none_iff_exists'.mp hy
    have p := p3 h1 h2
    have hy0 : 0 < fy := lt_of_lt_of_le (by norm_num) (hd.fnumY fy hy)
    have hx0 : 0 < d.fnumX := lt_of_lt_of_le (by norm_num) hd.fnumX
    have hdel := hd.deltaPix
    have hk : ∀ c1 c2 : ℝ, 0 < c1 → 0 < c2 → 0 < (Psf.pixelKernel (d.deltaPix / (d.fnumX * wl * c1)) (d.deltaPix / (fy * wl * c2))).cols := by
      intro c1 c2 h1 h2
      rw [(Psf.pixelKernel_px _ _ (by positivity) (by positivity)).2.1]
      omega
    simp only [hy]
    unfold binnedPsf
    revert p hsound
    generalize psfFile d = file
    intro hsound p
    cases file with
    | missing b => exact ⟨_, _, rfl, p, hk _ _ he.step he.step⟩
    | fits f => exact ⟨_, _, rfl, p, hk _ _ hsound.2.2 hsound.2.1⟩
    | dir fs =>
      obtain ⟨f, hn⟩ := nearestFile_ok p.1 wl
      obtain ⟨w, hm⟩ := nearestFile_mem hn
      simp only [hn]
      exact ⟨_, _, rfl, p.2 _ hm, hk _ _ (hsound _ hm).2.2 (hsound _ hm).2.1⟩
    | paos g => exact p.elim
    | other => exact p.elim

theorem maxE_ok {l : List ℝ} (h : l ≠ []) : ∃ m, Rebin.maxE l = .ok m := by
  cases l with
  | nil => exact absurd rfl h
  | cons a l => exact ⟨_, rfl⟩

theorem minE_ok {l : List ℝ} (h : l ≠ []) : ∃ m, Rebin.minE l = .ok m := by
  cases l with
  | nil => exact absurd rfl h
  | cons a l => exact ⟨_, rfl⟩

theorem max_ok {m : Psf.Img ℝ} (h : Wide m) : ∃ v, m.max = .ok v := by
  refine maxE_ok ?_
  intro e
  rw [List.flatMap_eq_nil_iff] at e
  have := e 0 (List.mem_range.mpr h.1)
  rw [List.map_eq_nil_iff, List.range_eq_nil] at this
  have := h.2
  omega

theorem gainPrf_ok {m k : Psf.Img ℝ} (hm : Wide m) (hk : 0 < k.cols) : ∃ g, Psf.gainPrf m k = .ok g := by
  unfold Psf.gainPrf
  obtain ⟨n, hn⟩ := maxE_ok (l := (List.range k.cols).map k.colSum) (by simp; omega)
  simp only [hn]
  exact maxE_ok (by have := hm.2; simp; omega)

/-! ## Windows and bins -/

theorem searchLoop_mono {enc : ℕ → ℝ} {eec : ℝ} : ∀ {n m : ℕ} {i : ℕ} {last : ℝ} {acc r : List (ℝ × ℝ)}, n ≤ m →
    Psf.searchLoop enc eec n i last acc = some r → Psf.searchLoop enc eec m i last acc = some r
  | 0, _, _, _, _, _, _, h => by simp [Psf.searchLoop] at h
  | n + 1, 0, _, _, _, _, hm, _ => by omega
  | n + 1, m + 1, i, last, acc, r, hm, h => by
    unfold Psf.searchLoop at h ⊢
    by_cases hc : last < eec + 1 / 50
    · rw [if_pos hc] at h ⊢
      exact searchLoop_mono (by omega) h
    · rw [if_neg hc] at h ⊢
      exact h

theorem photometerWindow_mono {pi : ℝ} {ap : Psf.Aperture ℝ} {f : Psf.Focal ℝ} {enc : ℕ → ℝ} {n m : ℕ} (hnm : n ≤ m) {r : Except Exc ℝ}
    (h : Psf.photometerWindow pi ap f enc n = some r) : Psf.photometerWindow pi ap f enc m = some r := by
  unfold Psf.photometerWindow at h ⊢
  cases hr : ap.radius with
  | some v => simpa [hr] using h
  | none =>
    cases he : ap.enE with
    | none => simpa [hr, he] using h
    | some e =>
      simp only [hr, he] at h ⊢
      unfold Psf.findApertureRadius at h ⊢
      cases hs : Psf.searchLoop enc e n 0 0 [] with
      | none => simp [hs] at h
      | some pts =>
        rw [searchLoop_mono hnm hs]
        simpa [hs] using h

theorem variableLoop_mono {res : ℝ → Except Exc ℝ} {wlMax : ℝ} : ∀ {n m : ℕ} {w : ℝ} {acc : List ℝ} {r : Except Exc (List ℝ)}, n ≤ m →
    Instrument.variableLoop res wlMax n w acc = some r → Instrument.variableLoop res wlMax m w acc = some r
  | 0, _, _, _, _, _, h => by simp [Instrument.variableLoop] at h
  | n + 1, 0, _, _, _, hm, _ => by omega
  | n + 1, m + 1, w, acc, r, hm, h => by
    unfold Instrument.variableLoop at h ⊢
    by_cases hc : w < wlMax
    · rw [if_pos hc] at h ⊢
      cases hr : res w with
      | error x => simpa [hr] using h
      | ok v =>
        simp only [hr] at h ⊢
        exact variableLoop_mono (by omega) h
    · rw [if_neg hc] at h ⊢
      exact h

theorem wavelengthTable_mono {n m : ℕ} (hnm : n ≤ m) {d : Descr} {r : Resolution} {px : Instrument.Pixels ℝ} {x : Except Exc (Instrument.Bins ℝ × List ℝ)}
    (h : wavelengthTable n d r px = some x) : wavelengthTable m d r px = some x := by
  cases r with
  | native => exact h
  | fixed R => exact h
  | unsupported => exact h
  | curve pts =>
    unfold wavelengthTable at h ⊢
    simp only at h ⊢
    unfold Instrument.variableEdges at h ⊢
    cases hv : Instrument.variableLoop (Psf.interpStrict pts) d.wlMax n d.wlMin [d.wlMin] with
    | none => simp [hv] at h
    | some y =>
      rw [variableLoop_mono hnm hv]
      simpa [hv] using h

theorem windowsSize_mono {n m : ℕ} (hnm : n ≤ m) {env : Env} {d : Descr} {ap : ApertureDescr} {wl : ℝ} {prf : Psf.Img ℝ} {r : Except Exc ℝ}
    (h : windowsSize n env d ap wl prf = some r) : windowsSize m env d ap wl prf = some r := by
  unfold windowsSize at h ⊢
  by_cases hp : psfFormat d = some "pixel_based"
  · rw [if_pos hp] at h ⊢
    exact photometerWindow_mono hnm h
  · rw [if_neg hp] at h ⊢
    cases hy : d.fnumY with
    | none => simpa [hy] using h
    | some fy =>
      simp only [hy] at h ⊢
      exact photometerWindow_mono hnm h

theorem builder_mono {n m : ℕ} (hnm : n ≤ m) {env : Env} {d : Descr} {x : Except Exc Stage} (h : builder n env d = some x) : builder m env d = some x := by
  unfold builder at h ⊢
  cases hk : d.kind with
  | photometer ap =>
    simp only [hk] at h ⊢
    unfold photometerStage at h ⊢
    cases hq : getQe env d with
    | error e => simpa [hq] using h
    | ok qe =>
      simp only [hq] at h ⊢
      cases hp : psfImages env d (1 / 2 * (d.wlMin + d.wlMax)) with
      | error e => simp only [hp] at h ⊢; exact h
      | ok r =>
        obtain ⟨prf, k⟩ := r
        simp only [hp] at h ⊢
        cases hw : windowsSize n env d ap (1 / 2 * (d.wlMin + d.wlMax)) prf with
        | none => simp only [hw] at h; cases h
        | some y =>
          rw [windowsSize_mono hnm hw]
          simp only [hw] at h
          exact h
  | spectrometer s =>
    simp only [hk] at h ⊢
    unfold spectrometerStage at h ⊢
    cases hs : s.solution with
    | none => simpa [hs] using h
    | some sol =>
      simp only [hs] at h ⊢
      cases ht : wavelengthTable n d s.targetR (Instrument.pixelGrid sol d.wlMin d.wlMax d.deltaPix) with
      | none => simp [ht] at h
      | some y =>
        rw [wavelengthTable_mono hnm ht]
        simp only [ht] at h
        exact h

/-- More rounds do not change a result. -/
theorem build_mono {n m : ℕ} (hnm : n ≤ m) {env : Env} {c : Common} {loaded : Bool} {d : Descr} {x : Except Exc Built} (h : build n env c loaded d = some x) :
    build m env c loaded d = some x := by
  unfold build at h ⊢
  cases loaded with
  | true => exact h
  | false =>
    simp only [Bool.false_eq_true, if_false] at h ⊢
    cases hb : builder n env d with
    | none => simp [hb] at h
    | some y =>
      rw [builder_mono hnm hb]
      simp only [hb] at h
      exact h

/-! ## The builders -/

theorem windowsSize_ok {env : Env} {d : Descr} {ap : ApertureDescr} (hy : d.fnumY ≠ none) (ha : ApertureThere env d ap) (wl : ℝ) (prf : Psf.Img ℝ) :
    ∃ fuel s, windowsSize fuel env d ap wl prf = some (.ok s) := by
  have key : ∀ (f : Psf.Focal ℝ) (a b w : ℝ), ∃ fuel s, Psf.photometerWindow Real.pi ⟨ap.radius, ap.enE⟩ f (env.enc prf a b w) fuel = some (.ok s) := by
    intro f a b w
    rcases ha with ha | ⟨e, he, h0, h⟩
    · obtain ⟨r, hr⟩ := Option.ne_none_iff_exists'.mp ha
      rw [hr]
      exact ⟨0, _, Psf.photometerWindow_radius _ _ _ _ _ _⟩
    · cases hr : ap.radius with
      | some r => exact ⟨0, _, Psf.photometerWindow_radius _ _ _ _ _ _⟩
      | none =>
        obtain ⟨h1, h2, n, h3, h4⟩ := h prf a b w
        obtain ⟨r, k, hf, _⟩ := Psf.aperture_found_partial (env.enc prf a b w) e h1 h0 h2 n h3 h4
        rw [he]
        exact ⟨n + 1, _, Psf.photometerWindow_energy _ _ _ _ _ _ (hf (n + 1) (by omega))⟩
  unfold windowsSize
  by_cases hp : psfFormat d = some "pixel_based"
  · simp only [if_pos hp]
    exact key _ _ _ _
  · obtain ⟨fy, hy⟩ := Option.ne_none_iff_exists'.mp hy
    simp only [if_neg hp, hy]
    exact key _ _ _ _

theorem photometerStage_ok {env : Env} (he : SoundEnv env) {c : Common} {d : Descr} (hd : SoundDescr env d) (hc : Complete env c d) {ap : ApertureDescr}
    (ha : ApertureThere env d ap) : ∃ fuel st, photometerStage fuel env d ap = some (.ok st) := by
  obtain ⟨qe, _, hq, _⟩ := getQe_ok he hd hc.qe
  have hw : 0 < 1 / 2 * (d.wlMin + d.wlMax) := by have := hd.band.1; have := hd.band.2; linarith
  obtain ⟨prf, k, hp, hwide, _⟩ := psfImages_ok he hd hc.fnumY hc.psf hw
  obtain ⟨fuel, s, hs⟩ := windowsSize_ok hc.fnumY ha (1 / 2 * (d.wlMin + d.wlMax)) prf
  obtain ⟨m, hm⟩ := max_ok hwide
  refine ⟨fuel, ?_⟩
  unfold photometerStage
  simp only [hq, hp, hs, hm]
  exact ⟨_, rfl⟩

theorem mapE_all {β γ : Type} {f : β → Except Exc γ} {l : List β} (h : ∀ x ∈ l, ∃ y, f x = .ok y) : ∃ r, Source.mapE f l = .ok r := by
  cases hr : Source.mapE f l with
  | ok r => exact ⟨r, rfl⟩
  | error e =>
    obtain ⟨b, hb, he⟩ := Source.mapE_error f l e hr
    obtain ⟨y, hy⟩ := h b hb
    rw [hy] at he
    cases he

theorem linspace10_mem {a b w : ℝ} (hab : a ≤ b) (h : w ∈ linspace10 a b) : a ≤ w ∧ w ≤ b := by
  obtain ⟨k, hk, rfl⟩ := List.mem_map.mp h
  rw [List.mem_range] at hk
  have h1 : (k : ℝ) ≤ 9 := by exact_mod_cast (by omega : k ≤ 9)
  have h2 : (0 : ℝ) ≤ k := by positivity
  constructor <;> nlinarith

theorem pixels_ne {sol : List (ℝ × ℝ)} (h : Instrument.Rising sol ∨ Instrument.Falling sol) {a b delta : ℝ} (hab : a < b) (hd : 0 < delta) :
    (Instrument.pixelGrid sol a b delta).wl ≠ [] := by
  obtain ⟨_, h1, h2⟩ := Instrument.pixel_band h hab hd
  rcases h with h | h
  · exact List.ne_nil_of_mem (h1 h).1
  · exact List.ne_nil_of_mem (h2 h).1

theorem gainCurve_ok {env : Env} (he : SoundEnv env) {c : Common} {d : Descr} (hd : SoundDescr env d) (hc : Complete env c d) (s : SpecDescr) {px : Instrument.Pixels ℝ}
    (h0 : px.wl ≠ []) (hpos : ∀ w ∈ px.wl, 0 < w) : ∃ g, gainCurve env d s px = .ok g := by
  obtain ⟨lo, hlo⟩ := minE_ok h0
  obtain ⟨hi, hhi⟩ := maxE_ok h0
  have h1 := Rebin.minE_spec hlo
  have h2 := Rebin.maxE_spec hhi
  obtain ⟨g, hg⟩ := mapE_all (f := gainAt env d s) (l := linspace10 lo hi) (fun w hw => by
    obtain ⟨prf, k, e1, e2, e3⟩ := psfImages_ok he hd hc.fnumY hc.psf (lt_of_lt_of_le (hpos _ h1.1) (linspace10_mem (h1.2 _ h2.1) hw).1)
    obtain ⟨v, hv⟩ := gainPrf_ok e2 e3
    unfold gainAt
    simp only [e1, hv]
    exact ⟨_, rfl⟩)
  unfold gainCurve
  simp only [hlo, hhi, hg]
  exact ⟨_, rfl⟩

theorem wavelengthTable_ok {d : Descr} (hband : d.wlMin < d.wlMax) {r : Resolution} (hr : ResolutionThere d r) {px : Instrument.Pixels ℝ} (h0 : px.wl ≠ [])
    (hl : px.wl.length = px.bandwidth.length) : ∃ fuel b e, wavelengthTable fuel d r px = some (.ok (b, e)) := by
  cases r with
  | unsupported => exact hr.elim
  | fixed R => exact ⟨0, _, _, rfl⟩
  | native =>
    refine ⟨0, ?_⟩
    unfold wavelengthTable Instrument.nativeGrid
    simp only
    cases hg : ((px.wl.zip px.bandwidth).insertionSort (fun p q => p.1 ≤ q.1)).getLast? with
    | none =>
      rw [List.getLast?_eq_none_iff] at hg
      have := (List.perm_insertionSort (fun p q : ℝ × ℝ => p.1 ≤ q.1) (px.wl.zip px.bandwidth)).length_eq
      rw [hg] at this
      have h1 := List.length_pos_of_ne_nil h0
      simp [hl] at this
      omega
    | some l => exact ⟨_, _, rfl⟩
  | curve pts =>
    obtain ⟨h1, h2⟩ := hr
    obtain ⟨fuel, h⟩ := Instrument.variable_R_partial (Psf.interpStrict pts) d.wlMin d.wlMax hband h1
    refine ⟨fuel, ?_⟩
    unfold wavelengthTable
    rcases h with ⟨e, he, _⟩ | ⟨_, r, hr, hbad⟩
    · simp only [he]; exact ⟨_, _, rfl⟩
    · exact absurd (h2 r hr) (not_lt.mpr hbad)

theorem spectrometerStage_ok {env : Env} (he : SoundEnv env) {c : Common} {d : Descr} (hd : SoundDescr env d) (hc : Complete env c d) {s : SpecDescr}
    (hss : SoundSpec env d s) (hsol : s.solution ≠ none) (hr : ResolutionThere d s.targetR) : ∃ fuel st, spectrometerStage fuel env d s = some (.ok st) := by
  obtain ⟨sol, hsol⟩ := Option.ne_none_iff_exists'.mp hsol
  obtain ⟨fy, hy⟩ := Option.ne_none_iff_exists'.mp hc.fnumY
  have hmono := hss.solution sol hsol
  have h0 := pixels_ne hmono hd.band.2 hd.deltaPix
  obtain ⟨hpx, _⟩ := Instrument.pixel_band hmono hd.band.2 hd.deltaPix
  obtain ⟨fuel, b, e, ht⟩ := wavelengthTable_ok hd.band.2 hr h0 (by simp [Instrument.pixelGrid])
  obtain ⟨qe, _, hq, _⟩ := getQe_ok he hd hc.qe
  obtain ⟨g, hg⟩ := gainCurve_ok he hd hc s h0 (fun w hw => hd.band.1.trans_le (hpx w hw).1)
  refine ⟨fuel, ?_⟩
  unfold spectrometerStage
  simp only [hsol, ht, hq, hg, hy]
  exact ⟨_, rfl⟩

/-- What a builder that ends well has done. -/
theorem builder_inv {fuel : ℕ} {env : Env} {d : Descr} {st : Stage} (h : builder fuel env d = some (.ok st)) :
    getQe env d = .ok st.qe ∧ ∀ s, d.kind = .spectrometer s → ∃ sol e, s.solution = some sol ∧
      st.px = Instrument.pixelGrid sol d.wlMin d.wlMax d.deltaPix ∧ wavelengthTable fuel d s.targetR st.px = some (.ok (st.bins, e)) := by
  unfold builder at h
  cases hk : d.kind with
  | photometer ap =>
    refine ⟨?_, fun s hs => by cases hs⟩
    simp only [hk] at h
    unfold photometerStage at h
    cases hq : getQe env d with
    | error x => simp [hq] at h
    | ok qe =>
      simp only [hq] at h
      cases hp : psfImages env d (1 / 2 * (d.wlMin + d.wlMax)) with
      | error x => simp only [hp] at h; cases h
      | ok r =>
        obtain ⟨prf, k⟩ := r
        simp only [hp] at h
        cases hw : windowsSize fuel env d ap (1 / 2 * (d.wlMin + d.wlMax)) prf with
        | none => simp only [hw] at h; cases h
        | some y =>
          cases y with
          | error x => simp only [hw] at h; cases h
          | ok s =>
            simp only [hw] at h
            cases hm : prf.max with
            | error x => simp only [hm] at h; cases h
            | ok m =>
              simp only [hm, Option.some.injEq, Except.ok.injEq] at h
              subst h
              rfl
  | spectrometer s =>
    simp only [hk] at h
    unfold spectrometerStage at h
    cases hsol : s.solution with
    | none => simp [hsol] at h
    | some sol =>
      simp only [hsol] at h
      cases ht : wavelengthTable fuel d s.targetR (Instrument.pixelGrid sol d.wlMin d.wlMax d.deltaPix) with
      | none => simp [ht] at h
      | some y =>
        cases y with
        | error x => simp [ht] at h
        | ok be =>
          obtain ⟨b, e⟩ := be
          simp only [ht] at h
          cases hq : getQe env d with
          | error x => simp [hq] at h
          | ok qe =>
            simp only [hq] at h
            cases hg : gainCurve env d s (Instrument.pixelGrid sol d.wlMin d.wlMax d.deltaPix) with
            | error x => simp [hg] at h
            | ok g =>
              simp only [hg] at h
              cases hy : d.fnumY with
              | none => simp [hy] at h
              | some fy =>
                simp only [hy, Option.some.injEq, Except.ok.injEq] at h
                subst h
                refine ⟨rfl, fun s' hs' => ?_⟩
                cases hs'
                exact ⟨sol, e, hsol, rfl, ht⟩

/-! ## The optical path -/

theorem chain_lengths {B : ℝ → ℝ → ℝ} {wl : List ℝ} : ∀ {els : Dict String (Optics.Element ℝ)} {rads rads' : Dict String (Optics.Rad ℝ)} {w w' : Option ℝ},
    Optics.OnGrid wl.length els → (∀ q ∈ rads, q.2.data.length = wl.length) → Optics.chain B wl els rads w = .ok (rads', w') →
    ∀ q ∈ rads', q.2.data.length = wl.length
  | [], rads, rads', w, w', _, h0, h => by
    simp only [Optics.chain, Except.ok.injEq, Prod.mk.injEq] at h
    rw [← h.1]; exact h0
  | (k, el) :: els, rads, rads', w, w', hg, h0, h => by
    have hg' : Optics.OnGrid wl.length els := fun q hq => hg q (by simp [hq])
    cases hT : el.temperature with
    | none =>
      rw [Optics.chain, hT] at h
      exact chain_lengths hg' h0 h
    | some T =>
      obtain ⟨r, w1, hp, hc⟩ := Optics.chain_cons_some B wl k el els rads rads' w w' T hT h
      refine chain_lengths hg' ?_ hc
      intro q hq
      rcases mem_set' hq with hq | rfl
      · exact h0 q hq
      · exact (Optics.passThrough_spec els _ r w w1 wl.length hg' (Optics.surfaceRadiance_get B wl T el.emissivity (hg (k, el) (by simp)).2).1 hp).2.2.1

theorem pixels_distinct {sol : List (ℝ × ℝ)} (h : Instrument.Rising sol ∨ Instrument.Falling sol) {a b delta : ℝ} (hd : 0 < delta) :
    (0 : ℝ) ∉ Rebin.diffs (Instrument.pixelGrid sol a b delta).wl := by
  have hinj : Function.Injective (Instrument.extend sol) := by
    rcases h with h | h
    · exact h.strictMono.injective
    · exact h.strictAnti.injective
  have hx : (Instrument.pixelGrid sol a b delta).x.Pairwise (· > ·) := by
    rcases le_total (Instrument.extend (sol.map Prod.swap) a) (Instrument.extend (sol.map Prod.swap) b) with hle | hle
    · exact (Instrument.pixel_grid sol a b delta hd _ _ ⟨.inl ⟨rfl, rfl⟩, hle⟩).1
    · exact (Instrument.pixel_grid sol a b delta hd _ _ ⟨.inr ⟨rfl, rfl⟩, hle⟩).1
  have hn : (Instrument.pixelGrid sol a b delta).wl.Nodup := by
    show ((Instrument.pixelGrid sol a b delta).x.map (Instrument.extend sol)).Nodup
    exact List.Nodup.map hinj (hx.imp (fun h => ne_of_gt h))
  revert hn
  generalize (Instrument.pixelGrid sol a b delta).wl = l
  intro hn hm
  obtain ⟨i, hi, e⟩ := List.mem_iff_getElem.mp hm
  rw [Rebin.diffs_length] at hi
  rw [Rebin.diffs_getElem l i (by omega)] at e
  have := (List.Nodup.getElem_inj_iff hn (hi := by omega) (hj := by omega)).mp (sub_eq_zero.mp e)
  omega

/-- The light of a radiance on a grid can be collected through a slit that fits: the grid has two points around the band of the pixels. -/
theorem slit_ok_on {env : Env} {d : Descr} (hd : SoundDescr env d) {s : SpecDescr} (hmono : ∀ sol, s.solution = some sol → Instrument.Rising sol ∨ Instrument.Falling sol)
    {n : ℕ} {st : Stage} (hst : SoundStage n true st) {fuel : ℕ} {sol : List (ℝ × ℝ)} {e : List ℝ} (hsol : s.solution = some sol)
    (hpx : st.px = Instrument.pixelGrid sol d.wlMin d.wlMax d.deltaPix) (ht : wavelengthTable fuel d s.targetR st.px = some (.ok (st.bins, e)))
    {w : ℝ} (hw : SlitFits env d s w) {g : List ℝ} (hx : g.Pairwise (· < ·)) (hg : ∃ p ∈ g, ∃ q ∈ g, p < q ∧ ∃ a ∈ st.px.wl,
      ∃ b ∈ st.px.wl, 9 / 10 * a < p ∧ q < 11 / 10 * b) (qe : Rebin.Signal ℝ) {data : List ℝ} (hdata : data.length = g.length) :
    ∃ r, Diffuse.convolveWithSlit (diffuseOf env d st (some w)) w qe ⟨g, data⟩ = .ok r := by
  obtain ⟨h2, w1, w2, hbins, _⟩ := hw sol hsol
  obtain ⟨p, hp, q, hq, hpq, a, ha, b, hb, hap, hqb⟩ := hg
  rw [← hpx] at h2 w2 hbins
  have h0 : (0 : ℝ) ∉ Rebin.diffs st.px.wl := by rw [hpx]; exact pixels_distinct (hmono sol hsol) hd.deltaPix
  obtain ⟨r, hr⟩ := rebin_works (s := ⟨g, data⟩) hdata hx h0 h2 hp hq hpq ha hb hap hqb
  have hrl := (Rebin.spectralRebin_wellFormed _ _ _ h0 hr)
  have hrd : r.data.length = st.px.wl.length := by rw [hrl.1, hrl.2]
  have hbl : st.px.bandwidth.length = st.px.wl.length := by rw [hpx]; simp [Instrument.pixelGrid]
  unfold Diffuse.convolveWithSlit Diffuse.pixelLight
  have e1 : (diffuseOf env d st (some w)).wlPix = st.px.wl := rfl
  simp only [e1, hr]
  refine ((Diffuse.through_slit (diffuseOf env d st (some w)) w _ ?_ ?_ ?_).2.2.2 ?_ ?_).mpr ?_
  · simp [Diffuse.mulCol, diffuseOf, hrd, hbl]
  · simp only [diffuseOf]; rw [hst.left, hst.right]
  · simp only [diffuseOf]; rw [hst.left, hst.spatial.2 rfl]
  · unfold Diffuse.slitPixels
    have : (1 : ℤ) ≤ ⌊w / d.deltaPix⌋ := by
      rw [Int.le_floor]
      simpa using (one_le_div hd.deltaPix).mpr w1
    simp only [diffuseOf]
    omega
  · unfold Diffuse.slitPixels
    have h3 : ⌊w / d.deltaPix⌋ < (st.px.wl.length : ℤ) + 1 := by
      rw [Int.floor_lt]
      push_cast
      exact (div_lt_iff₀ hd.deltaPix).mpr w2
    have e2 : (Diffuse.mulCol (Diffuse.mulCol r.data (st.px.wl.map fun v => (diffuseOf env d st (some w)).omega * (diffuseOf env d st (some w)).area *
        Rebin.interp (qe.wl.zip qe.data) v * (v * (diffuseOf env d st (some w)).perPhoton))) (diffuseOf env d st (some w)).dwlPix).length = st.px.wl.length := by
      simp [Diffuse.mulCol, diffuseOf, hrd, hbl]
    rw [e2]
    simp only [diffuseOf]
    omega
  · intro i hi
    have e2 : (Diffuse.mulCol (Diffuse.mulCol r.data (st.px.wl.map fun v => (diffuseOf env d st (some w)).omega * (diffuseOf env d st (some w)).area *
        Rebin.interp (qe.wl.zip qe.data) v * (v * (diffuseOf env d st (some w)).perPhoton))) (diffuseOf env d st (some w)).dwlPix).length = st.px.wl.length := by
      simp [Diffuse.mulCol, diffuseOf, hrd, hbl]
    rw [e2]
    simp only [diffuseOf] at hi ⊢
    have hil : i < st.bins.left.length := hi
    have hir : i < st.bins.right.length := by rw [hst.right, ← hst.left]; exact hi
    obtain ⟨x, hxm, x1, x2⟩ := hbins fuel st.bins e ht (st.bins.left[i], st.bins.right[i])
      (List.mem_iff_getElem.mpr ⟨i, by simp; omega, by simp⟩)
    obtain ⟨j, hj, rfl⟩ := List.mem_iff_getElem.mp hxm
    refine ⟨j, hj, ?_⟩
    rw [List.getD_eq_getElem _ _ hil, List.getD_eq_getElem _ _ hir, List.getD_eq_getElem _ _ hj]
    exact ⟨x1, x2⟩

/-- The light of a radiance can be collected through a slit that fits. -/
theorem slit_ok {env : Env} {d : Descr} (hd : SoundDescr env d) {s : SpecDescr} (hmono : ∀ sol, s.solution = some sol → Instrument.Rising sol ∨ Instrument.Falling sol)
    {n : ℕ} {st : Stage} (hst : SoundStage n true st) {fuel : ℕ} {sol : List (ℝ × ℝ)} {e : List ℝ} (hsol : s.solution = some sol)
    (hpx : st.px = Instrument.pixelGrid sol d.wlMin d.wlMax d.deltaPix) (ht : wavelengthTable fuel d s.targetR st.px = some (.ok (st.bins, e)))
    {w : ℝ} (hw : SlitFits env d s w) (hx : (workGrid env d).Pairwise (· < ·)) (qe : Rebin.Signal ℝ) {data : List ℝ} (hdata : data.length = (workGrid env d).length) :
    ∃ r, Diffuse.convolveWithSlit (diffuseOf env d st (some w)) w qe ⟨workGrid env d, data⟩ = .ok r := by
  refine slit_ok_on hd hmono hst hsol hpx ht hw hx ?_ qe hdata
  rw [hpx]
  exact (hw sol hsol).2.2.2.2

theorem chanTable_ok (name : String) (st : Stage) (trCol : List (Option ℝ)) (s : Optics.SigState ℝ) :
    ∃ t, Contrib.chanTable ((stageTable name st).set "TR" (colN trCol)) s = .ok t := by
  have hset : (stageTable name st).set "TR" (colN trCol) = stageTable name st ++ [("TR", colN trCol)] :=
    Optics.set_new _ _ _ (by simp [stageTable, Dict.keys])
  unfold Contrib.chanTable
  rw [hset]
  refine ⟨_, Contrib.hstack_apart (by simp [stageTable, Dict.keys]) (by simp [Dict.keys]) ?_⟩
  intro k hk hm
  simp only [Dict.keys, List.map_cons, List.map_nil, List.mem_cons, List.not_mem_nil, or_false] at hm
  rcases hm with rfl | rfl <;> simp [stageTable, Dict.keys] at hk

theorem From.slit {ds : List (Optics.Descr ℝ)} {el : Optics.Element ℝ} (h : From ds el) (hs : el.type = "slit") : ∃ e ∈ ds, e.type = "slit" ∧ el.width = e.width := by
  rcases h with h | ⟨e, he, h1, h2⟩
  · rw [h] at hs; exact absurd hs (by decide)
  · exact ⟨e, he, h1 ▸ hs, h2⟩

theorem buildPath_ok {env : Env} (he : SoundEnv env) {c : Common} (hsc : SoundCommon c) {d : Descr} (hd : SoundDescr env d) (hc : Complete env c d) {fuel : ℕ} {st : Stage}
    (hb : builder fuel env d = some (.ok st)) : ∃ b, buildPath env c d st = .ok b := by
  obtain ⟨els, hels, hfrom⟩ := pathElements_ok he hc.optics hc.readable
  obtain ⟨hel, hnd⟩ := pathElements_sound hsc hd hels
  have hgrid : Optics.OnGrid (workGrid env d).length els := fun q hq => ⟨(hel q hq).transmission.1, (hel q hq).emissivity.1⟩
  obtain ⟨tot, htot, htl, _⟩ := (Optics.total_transmission (workGrid env d) els hgrid).1
  have htot' : (Optics.transmissionTable (workGrid env d) els).getE "total" = .ok tot := by unfold Dict.getE; rw [htot]
  obtain ⟨f, hf⟩ := Option.ne_none_iff_exists'.mp hc.force
  have htr : ∃ r, Instrument.getTransmission (chanOf env c d st ⟨[], []⟩) (workGrid env d) tot = .ok r := by
    unfold Instrument.getTransmission
    rw [(Rebin.mk?_ok (workGrid env d) tot ⟨workGrid env d, tot⟩).mpr ⟨rfl, htl⟩]
    simp only [chanOf, hf]
    cases f <;> exact ⟨_, rfl⟩
  obtain ⟨⟨trCol, tr⟩, htr⟩ := htr
  obtain ⟨n, hst⟩ := builder_sound he hd hb
  obtain ⟨hqe, hspec⟩ := builder_inv hb
  obtain ⟨qe0, qe', hq0, hq1, hq2⟩ := getQe_ok he hd hc.qe
  rw [hq0] at hqe
  cases hqe
  have hwidth : ∀ q ∈ els, q.2.type = "slit" → q.2.width ≠ none := by
    intro q hq hs
    obtain ⟨e, he', e1, e2⟩ := (hfrom q hq).slit hs
    have hk := hc.kind
    revert hk
    cases hkd : d.kind with
    | photometer ap => intro hk; exact absurd e1 (hk.2 e he')
    | spectrometer s =>
      intro hk
      obtain ⟨w, hw, _⟩ := hk.2.2 e he' e1
      rw [e2, hw]; simp
  obtain ⟨⟨rads, slit⟩, hch⟩ := Optics.chain_total env.B (workGrid env d) els [] none hwidth
  have hslit : ∀ w, slit = some w → ∃ e ∈ opticsOf c d, e.type = "slit" ∧ e.width = some w := by
    intro w hw
    rcases (Optics.chain_slit_width env.B (workGrid env d) els [] rads none slit hch).2 with h | ⟨q, hq, h1, h2⟩
    · rw [h] at hw; cases hw
    · obtain ⟨e, he', e1, e2⟩ := (hfrom q hq).slit h1
      exact ⟨e, he', e1, by rw [← e2, ← h2, hw]⟩
  have hsig : ∃ s, pathSignal env d st rads slit = .ok s := by
    unfold pathSignal
    rw [if_neg]
    · unfold Optics.computeSignal
      refine Optics.signalLoop_ok Real.pi _ _ qe' hq2 _ _ hq1 ?_
      intro q hq
      unfold Optics.elementSignal
      cases hs : slit with
      | none => cases q.2.slit <;> exact ⟨_, rfl⟩
      | some w =>
        cases q.2.slit with
        | false => exact ⟨_, rfl⟩
        | true =>
          obtain ⟨e, he', e1, e2⟩ := hslit w hs
          have hk := hc.kind
          have hk' := hd.kind
          revert hk hk' hspec hst
          cases hkd : d.kind with
          | photometer ap => intro _ _ hk; exact absurd e1 (hk.2 e he')
          | spectrometer s =>
            intro hst hspec hk hk'
            obtain ⟨sol, ed, hsol, hpx, ht⟩ := hspec s rfl
            obtain ⟨w', hw', hfit⟩ := hk.2.2 e he' e1
            rw [e2] at hw'
            cases hw'
            exact slit_ok hd hk'.solution hst hsol hpx ht hfit (grid_sound he hd).1 qe' (chain_lengths hgrid (by simp) hch q hq)
    · rintro ⟨hk0, hs⟩
      obtain ⟨w, hw⟩ := Option.isSome_iff_exists.mp hs
      obtain ⟨e, he', e1, _⟩ := hslit w hw
      have hk := hc.kind
      revert hk hk0
      cases d.kind with
      | photometer ap => intro _ hk; exact hk.2 e he' e1
      | spectrometer s => intro hk0; simp [isSpectrometer] at hk0
  obtain ⟨s, hs⟩ := hsig
  obtain ⟨t, ht⟩ := chanTable_ok d.noise.value st trCol s
  unfold buildPath
  simp only [hels, htot', htr, hch, hs, ht]
  exact ⟨_, rfl⟩

/-! ## C82 -/

/-- C82: a channel whose description is complete is built. -/
theorem build_succeeds {env : Env} (he : SoundEnv env) {c : Common} (hsc : SoundCommon c) {d : Descr} (hd : SoundDescr env d) (hc : Complete env c d) :
    ∃ fuel b, build fuel env c false d = some (.ok b) := by
  have hst : ∃ fuel st, builder fuel env d = some (.ok st) := by
    have hk := hc.kind
    have hk' := hd.kind
    unfold builder
    revert hk hk'
    cases hkd : d.kind with
    | photometer ap => intro hk _; exact photometerStage_ok he hd hc hk.1
    | spectrometer s => intro hk hk'; exact spectrometerStage_ok he hd hc hk' hk.1 hk.2.1
  obtain ⟨fuel, st, hst⟩ := hst
  obtain ⟨b, hb⟩ := buildPath_ok he hsc hd hc hst
  refine ⟨fuel, b, ?_⟩
  unfold build
  simp only [Bool.false_eq_true, if_false, hst, hb]

/-- C82: so is an instrument of such channels. -/
theorem buildAll_succeeds {env : Env} (he : SoundEnv env) {c : Common} (hsc : SoundCommon c) : ∀ {ds : List Descr}, (∀ d ∈ ds, SoundDescr env d) →
    (∀ d ∈ ds, Complete env c d) → ∃ fuel bs, ∀ m, fuel ≤ m → buildAll m env c ds = some (.ok bs)
  | [], _, _ => ⟨0, [], fun _ _ => rfl⟩
  | d :: ds, hd, hc => by
    obtain ⟨f1, b, h1⟩ := build_succeeds he hsc (hd d (by simp)) (hc d (by simp))
    obtain ⟨f2, bs, h2⟩ := buildAll_succeeds he hsc (fun d h => hd d (List.mem_cons_of_mem _ h)) (fun d h => hc d (List.mem_cons_of_mem _ h))
    refine ⟨max f1 f2, b :: bs, fun m hm => ?_⟩
    have e1 := build_mono (le_trans (le_max_left _ _) hm) h1
    have e2 := h2 m (le_trans (le_max_right _ _) hm)
    simp only [buildAll, e1, e2]

end ExoRad.Build
