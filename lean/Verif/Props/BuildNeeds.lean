import Verif.Props.BuildOk

/-!
# What a channel cannot be built without: C82
-/

set_option linter.unusedSectionVars false

namespace ExoRad.Build
open Table Pipeline Light

/-! ## Necessary -/

theorem build_inv {fuel : ℕ} {env : Env} {c : Common} {loaded : Bool} {d : Descr} {b : Built} (h : build fuel env c loaded d = some (.ok b)) :
    loaded = false ∧ ∃ st, builder fuel env d = some (.ok st) ∧ buildPath env c d st = .ok b := by
  unfold build at h
  cases loaded with
  | true => simp at h
  | false =>
    simp only [Bool.false_eq_true, if_false] at h
    cases hb : builder fuel env d with
    | none => simp [hb] at h
    | some y =>
      cases y with
      | error x => simp [hb] at h
      | ok st =>
        simp only [hb, Option.some.injEq] at h
        exact ⟨rfl, st, rfl, h⟩

theorem windowsSize_needs {fuel : ℕ} {env : Env} {d : Descr} {ap : ApertureDescr} {wl : ℝ} {prf : Psf.Img ℝ} {s : ℝ} (h : windowsSize fuel env d ap wl prf = some (.ok s)) :
    (ap.radius ≠ none ∨ ap.enE ≠ none) ∧ (psfFormat d ≠ some "pixel_based" → d.fnumY ≠ none) := by
  unfold windowsSize at h
  constructor
  · by_contra hc
    push Not at hc
    rw [hc.1, hc.2] at h
    by_cases hp : psfFormat d = some "pixel_based"
    · rw [if_pos hp, Psf.photometerWindow_none] at h; cases h
    · rw [if_neg hp] at h
      cases hy : d.fnumY with
      | none => simp [hy] at h
      | some fy => simp only [hy] at h; rw [Psf.photometerWindow_none] at h; cases h
  · intro hp hy
    rw [if_neg hp, hy] at h
    simp only at h
    split_ifs at h <;> cases h

/-- C82: what every built channel had in its description. -/
theorem build_needs {fuel : ℕ} {env : Env} {c : Common} {loaded : Bool} {d : Descr} {b : Built} (h : build fuel env c loaded d = some (.ok b)) :
    loaded = false ∧ c.force ≠ none ∧ d.optics ≠ none ∧ env.workingR ≠ 1 ∧
    (∀ ap, d.kind = .photometer ap → (ap.radius ≠ none ∨ ap.enE ≠ none) ∧ (psfFormat d ≠ some "pixel_based" → d.fnumY ≠ none)) ∧
    (∀ s, d.kind = .spectrometer s → s.solution ≠ none ∧ s.targetR ≠ .unsupported ∧ d.fnumY ≠ none) := by
  obtain ⟨h0, st, hb, hp⟩ := build_inv h
  refine ⟨h0, ?_, ?_, ?_, ?_, ?_⟩
  · intro hf
    unfold buildPath at hp
    cases hels : pathElements env c d with
    | error x => simp [hels] at hp
    | ok els =>
      simp only [hels] at hp
      cases htot : (Optics.transmissionTable (workGrid env d) els).getE "total" with
      | error x => simp [htot] at hp
      | ok total =>
        simp only [htot] at hp
        have : ∃ x, Instrument.getTransmission (chanOf env c d st ⟨[], []⟩) (workGrid env d) total = .error x := by
          unfold Instrument.getTransmission
          cases Rebin.Signal.mk? (workGrid env d) total with
          | error x => exact ⟨x, rfl⟩
          | ok s => simp only [chanOf, hf]; exact ⟨_, rfl⟩
        obtain ⟨x, hx⟩ := this
        simp [hx] at hp
  · intro ho
    unfold buildPath pathElements at hp
    rw [ho] at hp
    split_ifs at hp
    cases hs : Optics.prepareElements (workGrid env d) c.optics <;> simp [hs] at hp
  · intro hw
    unfold buildPath pathElements at hp
    rw [if_pos hw] at hp
    simp at hp
  · intro ap hk
    unfold builder at hb
    simp only [hk] at hb
    unfold photometerStage at hb
    cases hq : getQe env d with
    | error x => simp [hq] at hb
    | ok qe =>
      simp only [hq] at hb
      cases hi : psfImages env d (1 / 2 * (d.wlMin + d.wlMax)) with
      | error x => simp only [hi] at hb; cases hb
      | ok r =>
        obtain ⟨prf, k⟩ := r
        simp only [hi] at hb
        cases hw : windowsSize fuel env d ap (1 / 2 * (d.wlMin + d.wlMax)) prf with
        | none => simp only [hw] at hb; cases hb
        | some y =>
          cases y with
          | error x => simp only [hw] at hb; cases hb
          | ok s => exact windowsSize_needs hw
  · intro s hk
    unfold builder at hb
    simp only [hk] at hb
    unfold spectrometerStage at hb
    cases hsol : s.solution with
    | none => simp [hsol] at hb
    | some sol =>
      simp only [hsol] at hb
      refine ⟨by simp, ?_, ?_⟩
      · intro hr
        simp [hr, wavelengthTable] at hb
      · intro hy
        cases ht : wavelengthTable fuel d s.targetR (Instrument.pixelGrid sol d.wlMin d.wlMax d.deltaPix) with
        | none => simp [ht] at hb
        | some y =>
          cases y with
          | error x => simp [ht] at hb
          | ok be =>
            obtain ⟨b, e⟩ := be
            simp only [ht] at hb
            cases hq : getQe env d with
            | error x => simp [hq] at hb
            | ok qe =>
              simp only [hq] at hb
              cases hg : gainCurve env d s (Instrument.pixelGrid sol d.wlMin d.wlMax d.deltaPix) with
              | error x => simp [hg] at hb
              | ok g => simp [hg, hy] at hb

/-! ## Exceptions -/

/-- A channel that was loaded from a file is not built again. -/
theorem loaded_raises (fuel : ℕ) (env : Env) (c : Common) (d : Descr) : build fuel env c true d = some (.error .valueError) := rfl

/-- A spectrometer without `wlSolution`. -/
theorem no_solution_raises (fuel : ℕ) (env : Env) (c : Common) (d : Descr) (s : SpecDescr) (hk : d.kind = .spectrometer s) (h : s.solution = none) :
    build fuel env c false d = some (.error .keyError) := by
  simp [build, builder, hk, spectrometerStage, h]

/-- A spectrometer with an unknown `targetR`. -/
theorem unsupported_raises (fuel : ℕ) (env : Env) (c : Common) (d : Descr) (s : SpecDescr) (hk : d.kind = .spectrometer s) (hr : s.targetR = .unsupported) :
    build fuel env c false d = some (.error .keyError) := by
  cases h : s.solution with
  | none => exact no_solution_raises fuel env c d s hk h
  | some sol => simp [build, builder, hk, spectrometerStage, h, hr, wavelengthTable]

/-- A photometer with neither a radius nor an energy: UnboundLocalError, once quantum efficiency and image are there. -/
theorem no_aperture_raises (fuel : ℕ) {env : Env} (he : SoundEnv env) (c : Common) {d : Descr} (hd : SoundDescr env d) (hy : d.fnumY ≠ none) (hq : QeThere d)
    (hp : PsfThere env d) (ap : ApertureDescr) (hk : d.kind = .photometer ap) (h1 : ap.radius = none) (h2 : ap.enE = none) :
    build fuel env c false d = some (.error .unboundLocalError) := by
  obtain ⟨qe, _, hq, _⟩ := getQe_ok he hd hq
  obtain ⟨fy, hfy⟩ := Option.ne_none_iff_exists'.mp hy
  have hw : 0 < 1 / 2 * (d.wlMin + d.wlMax) := by have := hd.band.1; have := hd.band.2; linarith
  obtain ⟨prf, k, hp, _⟩ := psfImages_ok he hd hy hp hw
  have hs : windowsSize fuel env d ap (1 / 2 * (d.wlMin + d.wlMax)) prf = some (.error .unboundLocalError) := by
    unfold windowsSize
    rw [h1, h2, hfy]
    simp only [Psf.photometerWindow_none, ite_self]
  unfold build builder
  rw [hk]
  unfold photometerStage
  simp only [Bool.false_eq_true, if_false, hq, hp, hs]

/-- Without the optics of the channel, or without `ForceChannelWlEdge`: KeyError, once the builder of the channel is done. -/
theorem no_optics_raises {fuel : ℕ} {env : Env} (c : Common) {d : Descr} {st : Stage} (hb : builder fuel env d = some (.ok st))
    (hr : ∀ e ∈ elements c.optics, Readable e) (ho : d.optics = none) : build fuel env c false d = some (.error .keyError) := by
  obtain ⟨els, hels, _⟩ := prepareElements_ok (wl := workGrid env d) hr
  have : pathElements env c d = .error .keyError := by
    unfold pathElements
    split_ifs with h
    · rfl
    · simp only [hels, ho]
  simp [build, hb, buildPath, this]

theorem no_force_raises {fuel : ℕ} {env : Env} (he : SoundEnv env) {c : Common} (hsc : SoundCommon c) {d : Descr} (hd : SoundDescr env d) {st : Stage}
    (hb : builder fuel env d = some (.ok st)) (hr : ∀ e ∈ opticsOf c d, Readable e) (ho : d.optics ≠ none) (hf : c.force = none) :
    build fuel env c false d = some (.error .keyError) := by
  obtain ⟨els, hels, _⟩ := pathElements_ok he ho hr
  obtain ⟨hel, _⟩ := pathElements_sound hsc hd hels
  obtain ⟨tot, htot, htl, _⟩ := (Optics.total_transmission (workGrid env d) els (fun q hq => ⟨(hel q hq).transmission.1, (hel q hq).emissivity.1⟩)).1
  have htot' : (Optics.transmissionTable (workGrid env d) els).getE "total" = .ok tot := by unfold Dict.getE; rw [htot]
  have htr : Instrument.getTransmission (chanOf env c d st ⟨[], []⟩) (workGrid env d) tot = .error .keyError := by
    unfold Instrument.getTransmission
    rw [(Rebin.mk?_ok (workGrid env d) tot ⟨workGrid env d, tot⟩).mpr ⟨rfl, htl⟩]
    simp only [chanOf, hf]
  simp [build, hb, buildPath, hels, htot', htr]

/-- A photometer behind a slit with something emitting in front of the slit: KeyError. -/
theorem slit_photometer_raises {fuel : ℕ} {env : Env} (he : SoundEnv env) {c : Common} (hsc : SoundCommon c) {d : Descr} (hd : SoundDescr env d) {st : Stage}
    (hb : builder fuel env d = some (.ok st)) (hq : QeThere d) (hf : c.force ≠ none) {ap : ApertureDescr} (hk : d.kind = .photometer ap)
    {els pre post : Dict String (Optics.Element ℝ)} (hels : pathElements env c d = .ok els) {k : String} {el : Optics.Element ℝ} (hsplit : els = pre ++ (k, el) :: post)
    (hT : el.temperature ≠ none) (hslit : ∃ q ∈ post, q.2.type = "slit") (hwidth : ∀ q ∈ els, q.2.type = "slit" → q.2.width ≠ none) :
    build fuel env c false d = some (.error .keyError) := by
  obtain ⟨hel, _⟩ := pathElements_sound hsc hd hels
  obtain ⟨tot, htot, htl, _⟩ := (Optics.total_transmission (workGrid env d) els (fun q hq => ⟨(hel q hq).transmission.1, (hel q hq).emissivity.1⟩)).1
  have htot' : (Optics.transmissionTable (workGrid env d) els).getE "total" = .ok tot := by unfold Dict.getE; rw [htot]
  obtain ⟨f, hf⟩ := Option.ne_none_iff_exists'.mp hf
  have htr : ∃ r, Instrument.getTransmission (chanOf env c d st ⟨[], []⟩) (workGrid env d) tot = .ok r := by
    unfold Instrument.getTransmission
    rw [(Rebin.mk?_ok (workGrid env d) tot ⟨workGrid env d, tot⟩).mpr ⟨rfl, htl⟩]
    simp only [chanOf, hf]
    cases f <;> exact ⟨_, rfl⟩
  obtain ⟨⟨trCol, tr⟩, htr⟩ := htr
  obtain ⟨⟨rads, slit⟩, hch⟩ := Optics.chain_total env.B (workGrid env d) els [] none hwidth
  have hs := (Optics.chain_slit_width env.B (workGrid env d) els [] rads none slit hch).1.mpr (.inr ⟨pre, k, el, post, hsplit, hT, hslit⟩)
  obtain ⟨w, hw⟩ := Option.ne_none_iff_exists'.mp hs
  obtain ⟨hqe, _⟩ := builder_inv hb
  obtain ⟨qe0, qe', hq0, hq1, _⟩ := getQe_ok he hd hq
  rw [hq0] at hqe
  cases hqe
  have hsig : pathSignal env d st rads slit = .error .keyError := by
    unfold pathSignal
    rw [if_pos ⟨by rw [hk]; rfl, by rw [hw]; rfl⟩]
    simp only [hq1]
  simp [build, hb, buildPath, hels, htot', htr, hch, hsig]

/-! ## Slits in native mode -/

/-- In native mode every bin has its own pixel, so the condition on the bins in `SlitFits` is met. -/
theorem native_bins_filled {d : Descr} (hdel : 0 < d.deltaPix) {s : SpecDescr} (hr : s.targetR = .native) {sol : List (ℝ × ℝ)}
    (hmono : Instrument.Rising sol ∨ Instrument.Falling sol) {fuel : ℕ} {b : Instrument.Bins ℝ} {e : List ℝ}
    (h : wavelengthTable fuel d s.targetR (Instrument.pixelGrid sol d.wlMin d.wlMax d.deltaPix) = some (.ok (b, e))) :
    ∀ r ∈ b.left.zip b.right, ∃ x ∈ (Instrument.pixelGrid sol d.wlMin d.wlMax d.deltaPix).wl, r.1 < x ∧ x ≤ r.2 := by
  rw [hr] at h
  unfold wavelengthTable at h
  simp only at h
  cases hn : Instrument.nativeGrid (Instrument.pixelGrid sol d.wlMin d.wlMax d.deltaPix).wl (Instrument.pixelGrid sol d.wlMin d.wlMax d.deltaPix).bandwidth with
  | error x => simp [hn] at h
  | ok y =>
    obtain ⟨c', w', e'⟩ := y
    simp only [hn, Option.some.injEq, Except.ok.injEq, Prod.mk.injEq] at h
    obtain ⟨rfl, rfl⟩ := h
    have hinj : Function.Injective (Instrument.extend sol) := by
      rcases hmono with h | h
      · exact h.strictMono.injective
      · exact h.strictAnti.injective
    have hpos : ∀ t ∈ (Instrument.pixelGrid sol d.wlMin d.wlMax d.deltaPix).bandwidth, 0 < t := by
      intro t ht
      obtain ⟨x, _, rfl⟩ := List.mem_map.mp ht
      refine abs_pos.mpr (sub_ne_zero.mpr (fun h => ?_))
      have := hinj h
      linarith
    intro r hr
    obtain ⟨p, hp, h1, h2⟩ := Instrument.native_bins_have_pixels _ _ (Instrument.pixelGrid sol d.wlMin d.wlMax d.deltaPix).wl (by simp [Instrument.pixelGrid]) rfl hpos _ _ _ hn r hr
    exact ⟨p.1, (List.of_mem_zip hp).1, h1, h2.le⟩

end ExoRad.Build
