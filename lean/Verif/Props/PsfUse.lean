import Verif.Props.BuildNeeds
import Verif.Props.BuildValuesDemo

/-!
# C100: a channel uses the point spread function its payload names
-/

namespace ExoRad.Build
open Pipeline
noncomputable section

/-- `v` is the largest value of the image. -/
def Brightest (m : Psf.Img ℝ) (v : ℝ) : Prop :=
  (∃ i j, i < m.rows ∧ j < m.cols ∧ m.px i j = v) ∧ ∀ i j, i < m.rows → j < m.cols → m.px i j ≤ v

/-- The file of the directory whose wavelength is next to `wl`, the first of them. -/
def Nearest (fs : List (ℝ × Fits)) (wl : ℝ) (f : Fits) : Prop :=
  ∃ (pre post : List (ℝ × Fits)) (w : ℝ), fs = pre ++ (w, f) :: post ∧ (∀ p ∈ pre, |w - wl| < |p.1 - wl|) ∧ ∀ p ∈ post, |w - wl| ≤ |p.1 - wl|

/-- The image and the pixel response a `PSF` entry stands for at a wavelength. -/
inductive Names (env : Env) (d : Descr) (wl : ℝ) : Psf.Img ℝ × Psf.Img ℝ → Prop where
  /-- pixel based: the image of the file, a pixel is one sample -/
  | pixelFits (f : Fits) (h : d.psf = some ⟨.fits f, some "pixel_based"⟩) : Names env d wl (f.ima, ⟨1, 1, fun _ _ => 1⟩)
  | pixelDir (fs : List (ℝ × Fits)) (f : Fits) (h : d.psf = some ⟨.dir fs, some "pixel_based"⟩) (hn : Nearest fs wl f) :
      Names env d wl (f.ima, ⟨1, 1, fun _ _ => 1⟩)
  /-- PAOS -/
  | paos (g : ℝ → Except Exc (Psf.Img ℝ × Psf.Img ℝ)) (r : Psf.Img ℝ × Psf.Img ℝ) (h : d.psf = some ⟨.paos g, some "paos"⟩) (hr : g wl = .ok r) :
      Names env d wl r
  /-- a sampled image, convolved with the response of a pixel -/
  | fits (f : Fits) (fmt : Option String) (fy : ℝ) (h : d.psf = some ⟨.fits f, fmt⟩) (h1 : fmt ≠ some "pixel_based") (h2 : fmt ≠ some "paos")
      (hy : d.fnumY = some fy) : Names env d wl (Psf.filePsf f.ima f.cdelt1 f.cdelt2 d.fnumX fy wl d.deltaPix)
  | dir (fs : List (ℝ × Fits)) (f : Fits) (fmt : Option String) (fy : ℝ) (h : d.psf = some ⟨.dir fs, fmt⟩) (h1 : fmt ≠ some "pixel_based")
      (h2 : fmt ≠ some "paos") (hn : Nearest fs wl f) (hy : d.fnumY = some fy) :
      Names env d wl (Psf.filePsf f.ima f.cdelt1 f.cdelt2 d.fnumX fy wl d.deltaPix)
  /-- none: the diffraction pattern -/
  | airy (fy : ℝ) (h : d.psf = none) (hy : d.fnumY = some fy) : Names env d wl (Psf.airyPsf env.airy env.step d.fnumX fy wl d.deltaPix)

/-- The entry names a file that is not there, and its format is neither of the two that insist on it. -/
def Absent (d : Descr) : Prop :=
  ∃ b fmt, d.psf = some ⟨.missing b, fmt⟩ ∧ fmt ≠ some "pixel_based" ∧ fmt ≠ some "paos"

theorem argmin_first : ∀ (l : List ℝ) (i : ℕ), Psf.argmin l = .ok i → ∃ v, l[i]? = some v ∧ (∀ j w, j < i → l[j]? = some w → v < w) ∧
    (∀ j w, i < j → l[j]? = some w → v ≤ w)
  | [], i, h => by cases h
  | a :: l, i, h => by
    unfold Psf.argmin at h
    cases hl : Psf.argmin l with
    | error e =>
      simp only [hl] at h
      cases h
      have := (Psf.argmin_error l e hl).1
      subst this
      refine ⟨a, rfl, fun j w hj => by omega, fun j w hj hw => ?_⟩
      cases j with
      | zero => omega
      | succ j => simp at hw
    | ok k =>
      simp only [hl] at h
      obtain ⟨v, hv, h1, h2⟩ := argmin_first l k hl
      have hall : ∀ (j : ℕ) w, l[j]? = some w → v ≤ w := by
        intro j w hw
        rcases lt_trichotomy j k with hj | hj | hj
        · exact (h1 j w hj hw).le
        · subst hj; rw [hv] at hw; cases hw; exact le_rfl
        · exact h2 j w hj hw
      simp only [hv] at h
      by_cases hav : a ≤ v
      · rw [if_pos hav] at h
        cases h
        refine ⟨a, rfl, fun j w hj => by omega, fun j w hj hw => ?_⟩
        cases j with
        | zero => omega
        | succ j => exact hav.trans (hall j w (by simpa using hw))
      · rw [if_neg hav] at h
        cases h
        refine ⟨v, by simpa using hv, fun j w hj hw => ?_, fun j w hj hw => ?_⟩
        · cases j with
          | zero => simp at hw; subst hw; exact not_le.mp hav
          | succ j => exact h1 j w (by omega) (by simpa using hw)
        · cases j with
          | zero => omega
          | succ j => exact h2 j w (by omega) (by simpa using hw)

theorem nearestFile_nearest (fs : List (ℝ × Fits)) (wl : ℝ) (f : Fits) (h : Psf.nearestFile fs wl = .ok f) : Nearest fs wl f := by
  unfold Psf.nearestFile at h
  cases ha : Psf.argmin (fs.map (fun f => |f.1 - wl|)) with
  | error e => simp [ha] at h
  | ok i =>
    simp only [ha] at h
    obtain ⟨v, hv, h1, h2⟩ := argmin_first _ i ha
    cases hi : fs[i]? with
    | none => simp [hi] at h
    | some p =>
      simp only [hi, Except.ok.injEq] at h
      obtain ⟨hlt, hp⟩ := List.getElem?_eq_some_iff.mp hi
      have hve : v = |p.1 - wl| := by
        rw [List.getElem?_map, hi] at hv
        simpa using hv.symm
      refine ⟨fs.take i, fs.drop (i + 1), p.1, ?_, ?_, ?_⟩
      · have : (p.1, f) = p := by rw [← h]
        rw [this, ← hp, List.cons_getElem_drop_succ]
        exact (List.take_append_drop i fs).symm
      · intro q hq
        obtain ⟨j, hj, rfl⟩ := List.mem_take_iff_getElem.mp hq
        have hj' : j < i := lt_of_lt_of_le hj (min_le_left _ _)
        have hj'' : j < fs.length := lt_of_lt_of_le hj (min_le_right _ _)
        have := h1 j |fs[j].1 - wl| hj' (by rw [List.getElem?_map, List.getElem?_eq_getElem hj'']; rfl)
        rw [hve] at this
        exact this
      · intro q hq
        obtain ⟨j, hj, rfl⟩ := List.mem_drop_iff_getElem.mp hq
        have := h2 (i + 1 + j) |fs[i + 1 + j].1 - wl| (by omega) (by rw [List.getElem?_map, List.getElem?_eq_getElem]; rfl)
        rw [hve] at this
        exact this

/-- C100: the images a channel is built with are those its `PSF` entry stands for, unless the entry names a file that is not there. -/
theorem psf_named (env : Env) (d : Descr) (wl : ℝ) (r : Psf.Img ℝ × Psf.Img ℝ) (ha : ¬ Absent d) (h : psfImages env d wl = .ok r) :
    Names env d wl r := by
  unfold psfImages at h
  cases hp : d.psf with
  | none =>
    have hf : psfFormat d = none := by simp [psfFormat, hp]
    have hfile : psfFile d = .missing false := by simp [psfFile, hp]
    rw [hf, if_neg (by simp), if_neg (by simp)] at h
    cases hy : d.fnumY with
    | none => simp [hy] at h
    | some fy =>
      simp only [hy, hfile, binnedPsf, Except.ok.injEq] at h
      rw [← h]
      exact Names.airy fy hp hy
  | some p =>
    obtain ⟨file, fmt⟩ := p
    have hf : psfFormat d = fmt := by simp [psfFormat, hp]
    have hfile : psfFile d = file := by simp [psfFile, hp]
    rw [hf, hfile] at h
    by_cases h1 : fmt = some "pixel_based"
    · rw [if_pos h1] at h
      subst h1
      unfold pixelBasedPsf at h
      cases file with
      | missing b => cases b <;> simp at h
      | paos g => simp at h
      | other => simp at h
      | fits f =>
        simp only [Except.ok.injEq] at h
        rw [← h]
        exact Names.pixelFits f hp
      | dir fs =>
        simp only at h
        cases hn : Psf.nearestFile fs wl with
        | error e => simp [hn] at h
        | ok f =>
          simp only [hn, Except.ok.injEq] at h
          rw [← h]
          exact Names.pixelDir fs f hp (nearestFile_nearest fs wl f hn)
    · rw [if_neg h1] at h
      by_cases h2 : fmt = some "paos"
      · rw [if_pos h2] at h
        subst h2
        unfold paosPsf at h
        cases file with
        | paos g => exact Names.paos g r hp h
        | missing b => simp at h
        | fits f => simp at h
        | dir fs => simp at h
        | other => simp at h
      · rw [if_neg h2] at h
        cases hy : d.fnumY with
        | none => simp [hy] at h
        | some fy =>
          simp only [hy] at h
          unfold binnedPsf at h
          cases file with
          | missing b => exact absurd ⟨b, fmt, hp, h1, h2⟩ ha
          | paos g => simp at h
          | other => simp at h
          | fits f =>
            simp only [Except.ok.injEq] at h
            rw [← h]
            exact Names.fits f fmt fy hp h1 h2 hy
          | dir fs =>
            simp only at h
            cases hn : Psf.nearestFile fs wl with
            | error e => simp [hn] at h
            | ok f =>
              simp only [hn, Except.ok.injEq] at h
              rw [← h]
              exact Names.dir fs f fmt fy hp h1 h2 (nearestFile_nearest fs wl f hn) hy

/-- A `PSF` entry whose format insists on a file refuses the channel, with an error that tells files that are not there from others. -/
theorem psf_refused (env : Env) (d : Descr) (wl : ℝ) (p : PsfDescr) (hp : d.psf = some p) :
    (p.format = some "pixel_based" → (p.file = .missing true → psfImages env d wl = .error .osError) ∧
      (p.file = .missing false ∨ p.file = .other → psfImages env d wl = .error .unboundLocalError)) ∧
    (p.format = some "paos" → (∀ g, p.file ≠ .paos g) → psfImages env d wl = .error .osError) := by
  obtain ⟨file, fmt⟩ := p
  have hf : psfFormat d = fmt := by simp [psfFormat, hp]
  have hfile : psfFile d = file := by simp [psfFile, hp]
  unfold psfImages
  rw [hf, hfile]
  refine ⟨?_, ?_⟩
  · rintro (rfl : fmt = _)
    refine ⟨?_, ?_⟩
    · rintro (rfl : file = _)
      rw [if_pos rfl]; rfl
    · rintro (h | h)
      · have h' : file = .missing false := h
        subst h'; rw [if_pos rfl]; rfl
      · have h' : file = .other := h
        subst h'; rw [if_pos rfl]; rfl
  · rintro (rfl : fmt = _) hg
    rw [if_neg (by simp), if_pos rfl]
    unfold paosPsf
    cases file with
    | paos g => exact absurd rfl (hg g)
    | missing b => rfl
    | fits f => rfl
    | dir fs => rfl
    | other => rfl

/-! ## A file that is not there -/

theorem absent_images (env : Env) (d : Descr) (ha : Absent d) (wl : ℝ) : psfImages env d wl = psfImages env { d with psf := none } wl := by
  obtain ⟨b, fmt, hp, h1, h2⟩ := ha
  have hf : psfFormat d = fmt := by simp [psfFormat, hp]
  have hfile : psfFile d = .missing b := by simp [psfFile, hp]
  have hf' : psfFormat { d with psf := none } = none := rfl
  have hfile' : psfFile { d with psf := none } = .missing false := rfl
  unfold psfImages
  rw [hf, hfile, hf', hfile', if_neg h1, if_neg h2, if_neg (by simp), if_neg (by simp)]
  cases d.fnumY with
  | none => rfl
  | some fy => rfl

theorem absent_format (d : Descr) (ha : Absent d) : psfFormat d ≠ some "pixel_based" ∧ psfFormat { d with psf := none } ≠ some "pixel_based" := by
  obtain ⟨b, fmt, hp, h1, h2⟩ := ha
  have hf : psfFormat d = fmt := by simp [psfFormat, hp]
  have hf' : psfFormat { d with psf := none } = none := rfl
  rw [hf, hf']
  exact ⟨h1, by simp⟩

theorem absent_windows (fuel : ℕ) (env : Env) (d : Descr) (ha : Absent d) (ap : ApertureDescr) (wl : ℝ) (prf : Psf.Img ℝ) :
    windowsSize fuel env d ap wl prf = windowsSize fuel env { d with psf := none } ap wl prf := by
  obtain ⟨h1, h2⟩ := absent_format d ha
  unfold windowsSize
  rw [if_neg h1, if_neg h2]

theorem absent_photometer (fuel : ℕ) (env : Env) (d : Descr) (ha : Absent d) (ap : ApertureDescr) :
    photometerStage fuel env d ap = photometerStage fuel env { d with psf := none } ap := by
  unfold photometerStage
  rw [absent_images env d ha]
  have hw : (fun prf => windowsSize fuel env d ap (1 / 2 * (d.wlMin + d.wlMax)) prf) =
      fun prf => windowsSize fuel env { d with psf := none } ap (1 / 2 * (d.wlMin + d.wlMax)) prf := by
    funext prf; exact absent_windows fuel env d ha ap _ prf
  have hw' : ∀ prf, windowsSize fuel env d ap (1 / 2 * (d.wlMin + d.wlMax)) prf =
      windowsSize fuel env { d with psf := none } ap (1 / 2 * (d.wlMin + d.wlMax)) prf := fun prf => congrFun hw prf
  simp only [hw']
  rfl

theorem absent_gain (env : Env) (d : Descr) (ha : Absent d) (s : SpecDescr) : gainAt env d s = gainAt env { d with psf := none } s := by
  funext wl
  unfold gainAt
  rw [absent_images env d ha]

theorem absent_spectrometer (fuel : ℕ) (env : Env) (d : Descr) (ha : Absent d) (s : SpecDescr) :
    spectrometerStage fuel env d s = spectrometerStage fuel env { d with psf := none } s := by
  have hg : ∀ px, gainCurve env d s px = gainCurve env { d with psf := none } s px := by
    intro px
    unfold gainCurve
    rw [absent_gain env d ha]
  unfold spectrometerStage
  simp only [hg]
  rfl

/-- C100: a `PSF` entry that names a file which is not there is silently the same as no entry: the channel is built with the
diffraction pattern, nothing differs. -/
theorem absent_silent (fuel : ℕ) (env : Env) (c : Common) (loaded : Bool) (d : Descr) (ha : Absent d) :
    build fuel env c loaded d = build fuel env c loaded { d with psf := none } := by
  have hb : builder fuel env d = builder fuel env { d with psf := none } := by
    unfold builder
    simp only
    cases d.kind with
    | photometer ap => exact absent_photometer fuel env d ha ap
    | spectrometer s => exact absent_spectrometer fuel env d ha s
  unfold build
  rw [hb]
  rfl

/-! ## What the images are used for -/

theorem brightest_max (m : Psf.Img ℝ) (v : ℝ) (h : m.max = .ok v) : Brightest m v := by
  obtain ⟨h1, h2⟩ := Psf.Img.max_mem m v h
  exact ⟨h1, h2⟩

/-- C100: of a built photometer, the fraction of the star's light in the brightest pixel is the largest value of the image. -/
theorem photometer_prf {fuel : ℕ} {env : Env} {c : Common} {loaded : Bool} {d : Descr} {ap : ApertureDescr} (hk : d.kind = .photometer ap)
    {b : Built} (h : build fuel env c loaded d = some (.ok b)) :
    ∃ prf k, psfImages env d (1 / 2 * (d.wlMin + d.wlMax)) = .ok (prf, k) ∧ Brightest prf b.ch.inst.prfMax := by
  obtain ⟨-, st, hb, hp⟩ := build_inv h
  unfold builder at hb
  simp only [hk] at hb
  unfold photometerStage at hb
  cases hq : getQe env d with
  | error x => simp [hq] at hb
  | ok qe =>
    simp only [hq] at hb
    cases hi : psfImages env d (1 / 2 * (d.wlMin + d.wlMax)) with
    | error x => simp only [hi] at hb; cases hb
    | ok r =>
      obtain ⟨prf, k⟩ := r
      simp only [hi] at hb
      cases hw : windowsSize fuel env d ap (1 / 2 * (d.wlMin + d.wlMax)) prf with
      | none => simp only [hw] at hb; cases hb
      | some y =>
        cases y with
        | error x => simp only [hw] at hb; cases hb
        | ok s =>
          simp only [hw] at hb
          cases hm : prf.max with
          | error x => simp only [hm] at hb; cases hb
          | ok m =>
            simp only [hm, Option.some.injEq, Except.ok.injEq] at hb
            refine ⟨prf, k, rfl, ?_⟩
            have hch : b.ch.inst.prfMax = st.prfMax := by
              unfold buildPath at hp
              repeat' split at hp
              all_goals first
                | (cases hp; done)
                | skip
              cases hp
              rfl
            rw [hch, ← hb]
            exact brightest_max prf m hm

/-- C100: of a built spectrometer, the gains at ten wavelengths across the pixels are those of the images there: the largest
column sum of the image over the largest column sum of the pixel response, times the Strehl ratio. -/
theorem spectrometer_gain {fuel : ℕ} {env : Env} {c : Common} {loaded : Bool} {d : Descr} {s : SpecDescr} (hk : d.kind = .spectrometer s)
    {b : Built} (h : build fuel env c loaded d = some (.ok b)) :
    ∃ lo hi : ℝ, ∃ g : List ℝ, Rebin.minE b.ch.inst.wlPix = .ok lo ∧ Rebin.maxE b.ch.inst.wlPix = .ok hi ∧
      b.ch.inst.gain = env.spline ((linspace10 lo hi).zip g) ∧
      List.Forall₂ (fun wl v => ∃ prf k v₀, psfImages env d wl = .ok (prf, k) ∧ Psf.gainPrf prf k = .ok v₀ ∧ v = v₀ * strehl s wl)
        (linspace10 lo hi) g := by
  obtain ⟨-, st, hb, hp⟩ := build_inv h
  have hch : b.ch.inst.gain = st.gain ∧ b.ch.inst.wlPix = st.px.wl := by
    unfold buildPath at hp
    repeat' split at hp
    all_goals first
      | (cases hp; done)
      | skip
    cases hp
    exact ⟨rfl, rfl⟩
  unfold builder at hb
  simp only [hk] at hb
  unfold spectrometerStage at hb
  cases hs : s.solution with
  | none => simp [hs] at hb
  | some sol =>
    simp only [hs] at hb
    cases hw : wavelengthTable fuel d s.targetR (Instrument.pixelGrid sol d.wlMin d.wlMax d.deltaPix) with
    | none => simp [hw] at hb
    | some y =>
      cases y with
      | error x => simp [hw] at hb
      | ok r =>
        obtain ⟨bb, edges⟩ := r
        simp only [hw] at hb
        cases hq : getQe env d with
        | error x => simp [hq] at hb
        | ok qe =>
          simp only [hq] at hb
          cases hg : gainCurve env d s (Instrument.pixelGrid sol d.wlMin d.wlMax d.deltaPix) with
          | error x => simp [hg] at hb
          | ok gc =>
            simp only [hg] at hb
            cases hy : d.fnumY with
            | none => simp [hy] at hb
            | some fy =>
              simp only [hy, Option.some.injEq, Except.ok.injEq] at hb
              rw [hch.1, hch.2, ← hb]
              simp only
              unfold gainCurve at hg
              cases hlo : Rebin.minE (Instrument.pixelGrid sol d.wlMin d.wlMax d.deltaPix).wl with
              | error x => simp [hlo] at hg
              | ok lo =>
                simp only [hlo] at hg
                cases hhi : Rebin.maxE (Instrument.pixelGrid sol d.wlMin d.wlMax d.deltaPix).wl with
                | error x => simp [hhi] at hg
                | ok hi =>
                  simp only [hhi] at hg
                  cases hm : Source.mapE (gainAt env d s) (linspace10 lo hi) with
                  | error x => simp [hm] at hg
                  | ok g =>
                    simp only [hm, Except.ok.injEq] at hg
                    refine ⟨lo, hi, g, rfl, rfl, by rw [hg], ?_⟩
                    clear hg
                    revert hm
                    generalize linspace10 lo hi = l
                    intro hm
                    induction l generalizing g with
                    | nil => cases hm; exact List.Forall₂.nil
                    | cons w l ih =>
                      unfold Source.mapE at hm
                      cases h1 : gainAt env d s w with
                      | error x => simp [h1] at hm
                      | ok v =>
                        simp only [h1] at hm
                        cases h2 : Source.mapE (gainAt env d s) l with
                        | error x => simp [h2] at hm
                        | ok vs =>
                          simp only [h2, Except.ok.injEq] at hm
                          subst hm
                          refine List.Forall₂.cons ?_ (ih vs h2)
                          unfold gainAt at h1
                          cases h3 : psfImages env d w with
                          | error x => simp [h3] at h1
                          | ok r =>
                            obtain ⟨prf, k⟩ := r
                            simp only [h3] at h1
                            cases h4 : Psf.gainPrf prf k with
                            | error x => simp [h4] at h1
                            | ok v₀ =>
                              simp only [h4, Except.ok.injEq] at h1
                              exact ⟨prf, k, v₀, rfl, h4, h1.symm⟩

/-! ## Examples -/

namespace PsfDemo
open Demo

/-- An image of five samples. -/
def ima : Psf.Img ℝ := ⟨3, 3, fun i j => if i = 1 ∧ j = 1 then 1 / 2 else 1 / 8⟩

/-- The photometer of `BuildDemo` with a pixel based image. -/
def pixel : Descr := { phot with psf := some ⟨.fits ⟨ima, 1, 1⟩, some "pixel_based"⟩ }

/-- The photometer with a file that is not there. -/
def gone : Descr := { phot with psf := some ⟨.missing true, none⟩ }

theorem sound_ima : Bright ima := by
  intro i j
  simp only [ima]
  split_ifs <;> norm_num

theorem sound_pixel : SoundDescr env pixel :=
  ⟨sound_phot.band, sound_phot.detector, sound_phot.deltaPix, sound_phot.fnumX, sound_phot.fnumY, sound_phot.qe, ⟨sound_ima, one_pos, one_pos⟩, sound_phot.optics, sound_phot.kind⟩

theorem complete_pixel : Complete env common pixel :=
  ⟨complete_phot.force, complete_phot.optics, complete_phot.fnumY, complete_phot.readable,
    ⟨fun _ => by simp [Wide, psfFile, pixel, ima], fun h => by simp [psfFormat, pixel] at h, fun h => absurd rfl h⟩, complete_phot.qe, complete_phot.kind⟩

/-- The photometer is built, half of the light is in its brightest pixel. -/
theorem demo_pixel : ∃ fuel b, build fuel env common false pixel = some (.ok b) ∧ ¬ Absent pixel ∧ b.ch.inst.prfMax = 1 / 2 := by
  obtain ⟨fuel, b, hb⟩ := build_succeeds sound_env sound_common sound_pixel complete_pixel
  have ha : ¬ Absent pixel := by
    rintro ⟨x, fmt, h, -, -⟩
    simp [pixel] at h
  refine ⟨fuel, b, hb, ha, ?_⟩
  obtain ⟨prf, k, hi, ⟨i, j, _, _, hv⟩, hmax⟩ := photometer_prf (ap := { radius := some 1 }) rfl hb
  have hn := psf_named env pixel _ _ ha hi
  have hp : prf = ima := by
    cases hn with
    | pixelFits f h => simp [pixel] at h; rw [← h]
    | pixelDir fs f h _ => simp [pixel] at h
    | paos g r h _ => simp [pixel] at h
    | fits f fmt fy h h1 _ _ => simp [pixel] at h; exact absurd h.2.symm h1
    | dir fs f fmt fy h _ _ _ _ => simp [pixel] at h
    | airy fy h _ => simp [pixel] at h
  subst hp
  have h1 := hmax 1 1 (by norm_num [ima]) (by norm_num [ima])
  have h2 : ima.px i j ≤ 1 / 2 := by simp only [ima]; split_ifs <;> norm_num
  have h3 : ima.px 1 1 = 1 / 2 := by simp [ima]
  rw [h3] at h1
  linarith [hv]

/-- A photometer whose file is not there is built, as if no file were named. -/
theorem demo_gone : ∃ fuel b, Absent gone ∧ build fuel env common false gone = some (.ok b) ∧ build fuel env common false phot = some (.ok b) := by
  obtain ⟨fuel, b, hb⟩ := build_succeeds sound_env sound_common sound_phot complete_phot
  have ha : Absent gone := ⟨true, none, rfl, by simp, by simp⟩
  refine ⟨fuel, b, ha, ?_, hb⟩
  rw [absent_silent fuel env common false gone ha]
  exact hb

end PsfDemo

end
end ExoRad.Build
