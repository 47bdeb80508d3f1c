import Verif.Model.Build
import Verif.Props.Contrib
import Verif.Props.Solution
import Verif.Props.Aperture
import Verif.Props.Psf
import Verif.Props.Omega

/-!
# Building channels: C81
-/

set_option linter.unusedSectionVars false

namespace ExoRad.Build
open Table Pipeline Light

/-! ## Specification: the description of a real instrument -/

/-- An image without negative pixels. -/
def Bright (m : Psf.Img ℝ) : Prop := ∀ i j, 0 ≤ m.px i j

def Fits.Sound (f : Fits) : Prop := Bright f.ima ∧ 0 < f.cdelt1 ∧ 0 < f.cdelt2

def PsfFile.Sound : PsfFile → Prop
  | .missing _ => True
  | .fits f => f.Sound
  | .dir fs => ∀ f ∈ fs, f.2.Sound
  | .paos g => ∀ wl r, g wl = .ok r → Bright r.1
  | .other => True

/-- An optical element: no number is negative, temperatures are above absolute zero. -/
structure SoundElement (e : Optics.Descr ℝ) : Prop where
  data : ∀ t, e.data = some t → ∀ q ∈ t, All0 q.2
  transmission : ∀ v, e.transmission = some v → 0 ≤ v
  reflectivity : ∀ v, e.reflectivity = some v → 0 ≤ v
  emissivity : ∀ v, e.emissivity = some v → 0 ≤ v
  wlMin : ∀ v, e.wlMin = some v → 0 ≤ v
  wlMax : ∀ v, e.wlMax = some v → 0 ≤ v
  temperature : ∀ v, e.temperature = some v → 0 < v
  solidAngle : ∀ v, e.solidAngle = some v → 0 ≤ v
  width : ∀ v, e.width = some v → 0 ≤ v

/-- The elements of an `optics` section, each under its name. -/
def SoundSection : Optics.Section ℝ → Prop
  | .absent => True
  | .one e => SoundElement e
  | .many es => ∀ q ∈ es, q.2.value = q.1 ∧ SoundElement q.2

structure SoundEnv (env : Env) : Prop where
  workingR : 2 ≤ env.workingR
  B : ∀ w T, 0 < w → 0 < T → 0 ≤ env.B w T
  perPhoton : 0 ≤ env.perPhoton
  airy : Bright env.airy
  step : 0 < env.step

structure SoundCommon (c : Common) : Prop where
  atel : 0 ≤ c.atel
  optics : SoundSection c.optics

def SoundQe : Qe → Prop
  | .constant v => 0 ≤ v
  | .data t => ∀ q ∈ t, All0 q.2

def SoundResolution : Resolution → Prop
  | .fixed R => 0 < R
  | .curve pts => ∀ p ∈ pts, 0 < p.2
  | _ => True

structure SoundSpec (env : Env) (d : Descr) (s : SpecDescr) : Prop where
  solution : ∀ sol, s.solution = some sol → Instrument.Rising sol ∨ Instrument.Falling sol
  resolution : SoundResolution s.targetR
  /-- a cubic may overshoot: the interpolated gain is not negative on the pixels -/
  gain : ∀ sol g, s.solution = some sol → gainCurve env d s (Instrument.pixelGrid sol d.wlMin d.wlMax d.deltaPix) = .ok g →
    ∀ w ∈ (Instrument.pixelGrid sol d.wlMin d.wlMax d.deltaPix).wl, 0 ≤ env.spline g w
  /-- neither is the interpolated radius of the extraction window -/
  radius : ∀ sol pts fuel b e, s.solution = some sol → s.encE = some pts →
    wavelengthTable fuel d s.targetR (Instrument.pixelGrid sol d.wlMin d.wlMax d.deltaPix) = some (.ok (b, e)) →
    ∀ w ∈ b.wl, 0 ≤ Instrument.extend pts w
  spatialScale : ∀ v, s.spatialScale = some v → 0 ≤ v
  spatialPixel : ∀ v, s.spatialPixel = some v → 0 ≤ v
  spectralPixel : ∀ v, s.spectralPixel = some v → 0 ≤ v

def SoundKind (env : Env) (d : Descr) : Kind → Prop
  | .photometer ap => (∀ v, ap.apertureCorrection = some v → 0 ≤ v) ∧ ∀ v, ap.enE = some v → 0 ≤ v
  | .spectrometer s => SoundSpec env d s

/-- A channel as a payload describes a real one; no focal ratio is below 1/2. -/
structure SoundDescr (env : Env) (d : Descr) : Prop where
  band : 0 < d.wlMin ∧ d.wlMin < d.wlMax
  detector : 0 < d.detWlMin ∧ d.detWlMin < d.cutOff
  deltaPix : 0 < d.deltaPix
  fnumX : 1 / 2 ≤ d.fnumX
  fnumY : ∀ f, d.fnumY = some f → 1 / 2 ≤ f
  qe : SoundQe d.qe
  psf : (psfFile d).Sound
  optics : ∀ o, d.optics = some o → SoundSection o
  kind : SoundKind env d d.kind

/-- The columns of the table of a built channel. -/
def builtColumns : List String := ["chName", "Wavelength", "Bandwidth", "LeftBinEdge", "RightBinEdge", "QE", "WindowSize", "TR",
  "instrument_signal", "instrument_MaxSignal_inPixel"]

/-! ## Elements -/

theorem evalTable_nonneg {wl a b : List ℝ} (h : All0 b) : All0 (Optics.evalTable wl a b) :=
  all0_map (fun x _ => interp_nonneg h x)

theorem getE_mem {t : Dict String (List ℝ)} {c : String} {v : List ℝ} (h : t.getE c = .ok v) : (c, v) ∈ t :=
  Dict.mem_of_get? (Foreground.getE_get? h)

theorem transmission_nonneg {e : Optics.Descr ℝ} (he : SoundElement e) {wl tr : List ℝ} (h : Optics.getTransmission e wl = .ok tr) : All0 tr := by
  unfold Optics.getTransmission at h
  cases hd : e.data with
  | some t =>
    simp only [hd] at h
    cases hc : Optics.trColumn e t with
    | error x => simp [hc] at h
    | ok c =>
      simp only [hc] at h
      cases hw : Optics.wlColumn e t with
      | error x => simp [hw] at h
      | ok wcol =>
        simp only [hw] at h
        cases hv : t.getE c with
        | error x => simp [hv] at h
        | ok vcol =>
          simp only [hv, Except.ok.injEq] at h
          subst h
          exact evalTable_nonneg (he.data t hd _ (getE_mem hv))
  | none =>
    simp only [hd] at h
    have hcut : ∀ v, 0 ≤ v → All0 (wl.map (Optics.cut e v)) := by
      intro v hv
      refine all0_map (fun x _ => ?_)
      unfold Optics.cut
      cases e.wlMin <;> cases e.wlMax <;> simp only <;> (try split_ifs) <;> simp [hv]
    cases ht : e.transmission with
    | none =>
      cases hr : e.reflectivity with
      | none =>
        simp only [ht, hr, Except.ok.injEq] at h
        subst h
        exact all0_map (fun _ _ => zero_le_one)
      | some v =>
        simp only [ht, hr, Except.ok.injEq] at h
        subst h
        exact hcut v (he.reflectivity v hr)
    | some v =>
      cases hr : e.reflectivity with
      | none =>
        simp only [ht, hr, Except.ok.injEq] at h
        subst h
        exact hcut v (he.transmission v ht)
      | some v' =>
        simp only [ht, hr] at h
        cases hu : e.use with
        | none => simp [hu] at h
        | some key =>
          simp only [hu] at h
          cases hn : e.num key with
          | error x => simp [hn] at h
          | ok x =>
            simp only [hn, Except.ok.injEq] at h
            subst h
            refine all0_map (fun _ _ => ?_)
            unfold Optics.Descr.num at hn
            simp only at hn
            split_ifs at hn
            · rw [ht] at hn; cases hn; exact he.transmission _ ht
            · rw [hr] at hn; cases hn; exact he.reflectivity _ hr
            · split at hn
              · cases hn; exact he.emissivity _ ‹_›
              · cases hn
            · split at hn
              · cases hn; exact he.wlMin _ ‹_›
              · cases hn
            · split at hn
              · cases hn; exact he.wlMax _ ‹_›
              · cases hn
            · split at hn
              · cases hn; exact (he.temperature _ ‹_›).le
              · cases hn
            · split at hn
              · cases hn; exact he.solidAngle _ ‹_›
              · cases hn
            · split at hn
              · cases hn; exact he.width _ ‹_›
              · cases hn

theorem emissivity_nonneg {e : Optics.Descr ℝ} (he : SoundElement e) {wl em : List ℝ} (h : Optics.getEmissivity e wl = .ok em) : All0 em := by
  unfold Optics.getEmissivity at h
  cases hd : e.data with
  | some t =>
    simp only [hd] at h
    cases hw : Optics.wlColumn e t with
    | error x => simp [hw] at h
    | ok wcol =>
      simp only [hw] at h
      cases hc : Optics.emColumn t with
      | error x => simp [hc] at h
      | ok c =>
        simp only [hc] at h
        cases hv : t.getE c with
        | error x => simp [hv] at h
        | ok vcol =>
          simp only [hv, Except.ok.injEq] at h
          subst h
          exact evalTable_nonneg (he.data t hd _ (getE_mem hv))
  | none =>
    simp only [hd] at h
    cases hv : e.emissivity with
    | some v =>
      simp only [hv, Except.ok.injEq] at h
      subst h
      exact all0_map (fun _ _ => he.emissivity v hv)
    | none =>
      simp only [hv] at h
      split_ifs at h <;> cases h
      · exact all0_map (fun _ _ => zero_le_one)
      · exact all0_map (fun _ _ => le_refl _)

/-- What an element built from a sound description is. -/
structure SoundEl (n : ℕ) (q : String × Optics.Element ℝ) : Prop where
  name : q.2.name = q.1
  transmission : q.2.transmission.length = n ∧ All0 q.2.transmission
  emissivity : q.2.emissivity.length = n ∧ All0 q.2.emissivity
  temperature : ∀ T, q.2.temperature = some T → 0 < T

theorem mkElement_sound {e : Optics.Descr ℝ} (he : SoundElement e) {wl : List ℝ} {el : Optics.Element ℝ} (h : Optics.mkElement e wl = .ok el) :
    SoundEl wl.length (e.value, el) := by
  obtain ⟨l1, l2⟩ := Optics.mkElement_length e wl el h
  unfold Optics.mkElement at h
  cases ht : Optics.getTransmission e wl with
  | error x => simp [ht] at h
  | ok tr =>
    simp only [ht] at h
    cases hm : Optics.getEmissivity e wl with
    | error x => simp [hm] at h
    | ok em =>
      simp only [hm, Except.ok.injEq] at h
      subst h
      exact ⟨rfl, ⟨l1, transmission_nonneg he ht⟩, ⟨l2, emissivity_nonneg he hm⟩, he.temperature⟩

theorem mem_set' {β : Type} {d : Dict String β} {k : String} {v : β} {q : String × β} (h : q ∈ d.set k v) : q ∈ d ∨ q = (k, v) := by
  induction d with
  | nil => simp [Dict.set] at h; exact .inr h
  | cons a d ih =>
    obtain ⟨a1, a2⟩ := a
    unfold Dict.set at h
    split at h
    · rename_i e
      rcases List.mem_cons.mp h with h | h
      · right; rw [h, ← e]
      · exact .inl (List.mem_cons_of_mem _ h)
    · rcases List.mem_cons.mp h with h | h
      · exact .inl (by rw [h]; simp)
      · exact (ih h).imp (List.mem_cons_of_mem _) id

theorem nodup_set {β : Type} {d : Dict String β} {k : String} {v : β} (h : d.keys.Nodup) : (d.set k v).keys.Nodup := by
  rw [Dict.keys_set]
  split_ifs with hk
  · exact h
  · rw [List.nodup_append]
    refine ⟨h, by simp, ?_⟩
    intro a ha b hb e
    rw [List.mem_singleton] at hb
    subst e; subst hb
    exact hk ha

theorem buildMany_sound {wl : List ℝ} : ∀ {es : Dict String (Optics.Descr ℝ)} {out els : Dict String (Optics.Element ℝ)},
    (∀ q ∈ es, q.2.value = q.1 ∧ SoundElement q.2) → (∀ q ∈ out, SoundEl wl.length q) → out.keys.Nodup →
    Optics.buildMany wl es out = .ok els → (∀ q ∈ els, SoundEl wl.length q) ∧ els.keys.Nodup
  | [], out, els, _, ho, hn, h => by
    simp only [Optics.buildMany, Except.ok.injEq] at h
    subst h
    exact ⟨ho, hn⟩
  | (k, e) :: es, out, els, he, ho, hn, h => by
    rw [Optics.buildMany] at h
    cases hm : Optics.mkElement e wl with
    | error x => simp [hm] at h
    | ok el =>
      simp only [hm] at h
      obtain ⟨h1, h2⟩ := he (k, e) (by simp)
      simp only at h1
      refine buildMany_sound (fun q hq => he q (by simp [hq])) ?_ (nodup_set hn) h
      intro q hq
      rcases mem_set' hq with hq | rfl
      · exact ho q hq
      · have := mkElement_sound h2 hm
        rwa [h1] at this

theorem prepareElements_sound {wl : List ℝ} {o : Optics.Section ℝ} (ho : SoundSection o) {els : Dict String (Optics.Element ℝ)}
    (h : Optics.prepareElements wl o = .ok els) : (∀ q ∈ els, SoundEl wl.length q) ∧ els.keys.Nodup := by
  cases o with
  | absent =>
    refine buildMany_sound (es := [("noElement", Optics.noElement)]) ?_ (by simp) (by simp [Dict.keys]) h
    intro q hq
    rw [List.mem_singleton] at hq
    subst hq
    refine ⟨rfl, ?_⟩
    constructor <;> intro v hv <;> simp [Optics.noElement] at hv
  | one e =>
    refine buildMany_sound (es := [(e.value, e)]) ?_ (by simp) (by simp [Dict.keys]) h
    intro q hq
    rw [List.mem_singleton] at hq
    subst hq
    exact ⟨rfl, ho⟩
  | many es => exact buildMany_sound ho (by simp) (by simp [Dict.keys]) h

theorem prepend_sound {n : ℕ} {a b : Dict String (Optics.Element ℝ)} (ha : ∀ q ∈ a, SoundEl n q) (hb : ∀ q ∈ b, SoundEl n q) :
    (∀ q ∈ Optics.prepend a b, SoundEl n q) ∧ (Optics.prepend a b).keys.Nodup := by
  have key : ∀ (l out : Dict String (Optics.Element ℝ)), (∀ q ∈ l, SoundEl n q) → (∀ q ∈ out, SoundEl n q) → out.keys.Nodup →
      (∀ q ∈ l.foldl (fun d p => d.set p.1 p.2) out, SoundEl n q) ∧ (Dict.keys (l.foldl (fun d p => d.set p.1 p.2) out)).Nodup := by
    intro l
    induction l with
    | nil => intro out _ h2 h3; exact ⟨h2, h3⟩
    | cons p l ih =>
      intro out h1 h2 h3
      refine ih (out.set p.1 p.2) (fun q hq => h1 q (by simp [hq])) ?_ (nodup_set h3)
      intro q hq
      rcases mem_set' hq with hq | rfl
      · exact h2 q hq
      · exact h1 p (by simp)
  exact key (a ++ b) [] (fun q hq => (List.mem_append.mp hq).elim (ha q) (hb q)) (by simp) (by simp [Dict.keys])

/-! ## Stages -/

/-- What a builder leaves, for `n` bins. -/
structure SoundStage (n : ℕ) (spec : Bool) (st : Stage) : Prop where
  pos : 0 < n
  wl : st.bins.wl.length = n
  width : st.bins.width.length = n
  left : st.bins.left.length = n
  right : st.bins.right.length = n
  size : st.size.length = n ∧ All0 st.size
  spatial : All0 st.spatial ∧ (spec = true → st.spatial.length = n)
  qe : All0 st.qe.data
  prfMax : 0 ≤ st.prfMax
  px : All0 st.px.wl ∧ All0 st.px.bandwidth
  gain : ∀ w ∈ st.px.wl, 0 ≤ st.gain w
  photometer : spec = false → n = 1

theorem getQe_nonneg {env : Env} {d : Descr} (hd : SoundQe d.qe) {q : Rebin.Signal ℝ} (h : getQe env d = .ok q) : All0 q.data := by
  unfold getQe at h
  cases hq : d.qe with
  | constant v =>
    rw [hq] at hd
    simp only [hq, Except.ok.injEq] at h
    subst h
    exact all0_map (fun _ _ => hd)
  | data t =>
    rw [hq] at hd
    simp only [hq] at h
    cases hc : Misc.getWlColName t.keys none with
    | error x => simp [hc] at h
    | ok o =>
      cases o with
      | none => simp [hc] at h
      | some c =>
        simp only [hc] at h
        cases hw : t.getE c with
        | error x => simp [hw] at h
        | ok wl =>
          simp only [hw] at h
          cases hv : t.getE d.noise.value with
          | error x => simp [hv] at h
          | ok v =>
            simp only [hv] at h
            obtain ⟨rfl, _⟩ := (Rebin.mk?_ok _ _ _).mp h
            exact hd _ (getE_mem hv)

theorem kernel_bright {a b : ℝ} (ha : 0 ≤ a) (hb : 0 ≤ b) : Bright (Psf.pixelKernel a b) :=
  fun i j => ((Psf.pixelKernel_spec a b ha hb).2.1 i j).1

theorem airy_bright {raw : Psf.Img ℝ} (hr : Bright raw) {step fx fy wl del : ℝ} (hs : 0 < step) (hx : 0 < fx) (hy : 0 < fy) (hw : 0 < wl)
    (hd : 0 < del) : Bright (Psf.airyPsf raw step fx fy wl del).1 := by
  have hn : Bright (Psf.normalise raw) := by
    intro i j
    refine div_nonneg (hr i j) ?_
    exact Finset.sum_nonneg (fun i _ => Finset.sum_nonneg (fun j _ => hr i j))
  exact Psf.conv_nonneg _ _ hn (kernel_bright (by positivity) (by positivity))

theorem file_bright {f : Fits} (hf : f.Sound) {fx fy wl del : ℝ} (hx : 0 < fx) (hy : 0 < fy) (hw : 0 < wl)
    (hd : 0 < del) : Bright (Psf.filePsf f.ima f.cdelt1 f.cdelt2 fx fy wl del).1 := by
  obtain ⟨h1, h2, h3⟩ := hf
  exact Psf.conv_nonneg _ _ h1 (kernel_bright (by positivity) (by positivity))

theorem nearestFile_mem {β : Type} {fs : List (ℝ × β)} {wl : ℝ} {f : β} (h : Psf.nearestFile fs wl = .ok f) : ∃ w, (w, f) ∈ fs := by
  unfold Psf.nearestFile at h
  cases ha : Psf.argmin (fs.map (fun f => |f.1 - wl|)) with
  | error x => simp [ha] at h
  | ok i =>
    simp only [ha] at h
    cases hi : fs[i]? with
    | none => simp [hi] at h
    | some p =>
      simp only [hi, Except.ok.injEq] at h
      subst h
      exact ⟨p.1, List.mem_of_getElem? hi⟩

theorem psfImages_bright {env : Env} (he : SoundEnv env) {d : Descr} (hd : SoundDescr env d) {wl : ℝ} (hw : 0 < wl) {r : Psf.Img ℝ × Psf.Img ℝ}
    (h : psfImages env d wl = .ok r) : Bright r.1 := by
  have hf := hd.psf
  unfold psfImages at h
  split_ifs at h with h1 h2
  · unfold pixelBasedPsf at h
    revert h hf
    generalize psfFile d = file
    intro hf h
    cases file with
    | missing b => cases b <;> simp at h
    | fits f =>
      simp only [Except.ok.injEq] at h
      subst h
      exact hf.1
    | dir fs =>
      simp only at h
      cases hn : Psf.nearestFile fs wl with
      | error x => simp [hn] at h
      | ok f =>
        simp only [hn, Except.ok.injEq] at h
        subst h
        obtain ⟨w, hm⟩ := nearestFile_mem hn
        exact (hf _ hm).1
    | paos g => simp at h
    | other => simp at h
  · unfold paosPsf at h
    revert h hf
    generalize psfFile d = file
    intro hf h
    cases file with
    | paos g => exact hf wl r h
    | missing b => simp at h
    | fits f => simp at h
    | dir fs => simp at h
    | other => simp at h
  · cases hy : d.fnumY with
    | none => simp [hy] at h
    | some fy =>
      simp only [hy] at h
      have hy0 : 0 < fy := lt_of_lt_of_le (by norm_num) (hd.fnumY fy hy)
      have hx0 : 0 < d.fnumX := lt_of_lt_of_le (by norm_num) hd.fnumX
      unfold binnedPsf at h
      revert h hf
      generalize psfFile d = file
      intro hf h
      cases file with
      | missing b =>
        simp only [Except.ok.injEq] at h
        subst h
        exact airy_bright he.airy he.step hx0 hy0 hw hd.deltaPix
      | fits f =>
        simp only [Except.ok.injEq] at h
        subst h
        exact file_bright hf hx0 hy0 hw hd.deltaPix
      | dir fs =>
        simp only at h
        cases hn : Psf.nearestFile fs wl with
        | error x => simp [hn] at h
        | ok f =>
          simp only [hn, Except.ok.injEq] at h
          subst h
          obtain ⟨w, hm⟩ := nearestFile_mem hn
          exact file_bright (hf _ hm) hx0 hy0 hw hd.deltaPix
      | paos g => simp at h
      | other => simp at h

theorem photometerWindow_nonneg {pi : ℝ} (hpi : 0 ≤ pi) {ap : Psf.Aperture ℝ} {f : Psf.Focal ℝ} (hx : 0 ≤ f.fnumX) (hy : 0 ≤ f.fnumY) {enc : ℕ → ℝ} {fuel : ℕ} {s : ℝ}
    (h : Psf.photometerWindow pi ap f enc fuel = some (.ok s)) : 0 ≤ s := by
  have hin : ∀ r, 0 ≤ r → 0 ≤ Psf.inPixels f r := by
    intro r hr
    unfold Psf.inPixels
    split_ifs
    · exact hr
    · refine div_nonneg ?_ (sq_nonneg _)
      have : r * f.fnumX * f.wl * f.fnumY * f.wl = r * f.fnumX * f.fnumY * (f.wl * f.wl) := by ring
      rw [this]
      exact mul_nonneg (mul_nonneg (mul_nonneg hr hx) hy) (mul_self_nonneg _)
  unfold Psf.photometerWindow at h
  cases hr : ap.radius with
  | some r =>
    simp only [hr, Option.some.injEq, Except.ok.injEq] at h
    subst h
    exact hin _ (sq_nonneg _)
  | none =>
    simp only [hr] at h
    cases he : ap.enE with
    | none => simp [he] at h
    | some e =>
      simp only [he] at h
      cases hf : Psf.findApertureRadius enc e fuel with
      | none => simp [hf] at h
      | some x =>
        cases x with
        | error y => simp [hf] at h
        | ok r =>
          simp only [hf, Option.some.injEq, Except.ok.injEq] at h
          subst h
          exact hin _ (mul_nonneg hpi (sq_nonneg _))

theorem all0_nil : All0 ([] : List ℝ) := fun _ hv => absurd hv (by simp)

theorem photometerStage_sound {fuel : ℕ} {env : Env} (he : SoundEnv env) {d : Descr} (hd : SoundDescr env d) {ap : ApertureDescr} {st : Stage}
    (h : photometerStage fuel env d ap = some (.ok st)) : SoundStage 1 false st := by
  unfold photometerStage at h
  cases hq : getQe env d with
  | error x => simp [hq] at h
  | ok qe =>
    simp only [hq] at h
    cases hp : psfImages env d (1 / 2 * (d.wlMin + d.wlMax)) with
    | error x => simp only [hp] at h; cases h
    | ok r =>
      obtain ⟨prf, k⟩ := r
      simp only [hp] at h
      cases hw : windowsSize fuel env d ap (1 / 2 * (d.wlMin + d.wlMax)) prf with
      | none => simp only [hw] at h; cases h
      | some y =>
        cases y with
        | error x => simp only [hw] at h; cases h
        | ok s =>
          simp only [hw] at h
          cases hm : prf.max with
          | error x => simp [hm] at h
          | ok m =>
            simp only [hm, Option.some.injEq, Except.ok.injEq] at h
            subst h
            have hband := hd.band
            have hb := psfImages_bright he hd (by linarith) hp
            have hs : 0 ≤ s := by
              unfold windowsSize at hw
              by_cases hpb : psfFormat d = some "pixel_based"
              · rw [if_pos hpb] at hw
                exact photometerWindow_nonneg Real.pi_pos.le zero_le_one zero_le_one hw
              · rw [if_neg hpb] at hw
                cases hy : d.fnumY with
                | none =>
                  simp only [hy] at hw
                  split_ifs at hw <;> cases hw
                | some fy =>
                  simp only [hy] at hw
                  have hy0 := hd.fnumY fy hy
                  have hx0 := hd.fnumX
                  exact photometerWindow_nonneg Real.pi_pos.le (by simp only; linarith) (by simp only; linarith) hw
            have hm0 : 0 ≤ m := by
              obtain ⟨⟨i, j, _, _, e⟩, _⟩ := Psf.Img.max_mem prf m hm
              rw [← e]
              exact hb i j
            refine ⟨Nat.one_pos, rfl, rfl, rfl, rfl, ⟨rfl, ?_⟩, ⟨all0_nil, by simp⟩, getQe_nonneg hd.qe hq, hm0,
              ⟨all0_nil, all0_nil⟩, fun w hw => absurd hw (by simp), fun _ => rfl⟩
            intro v hv
            rw [List.mem_singleton] at hv
            rw [hv]; exact hs

/-! ## Spectrometers -/

theorem round4_nonneg {x : ℝ} (h : 0 ≤ x) : 0 ≤ Instrument.round4 x := by
  have hf : 0 ≤ ⌊x * 10000⌋ := Int.floor_nonneg.mpr (by linarith)
  unfold Instrument.round4
  simp only
  refine div_nonneg ?_ (by norm_num)
  have hf' : (0 : ℝ) ≤ ((⌊x * 10000⌋ : ℤ) : ℝ) := by exact_mod_cast hf
  split_ifs <;> push_cast <;> linarith

theorem interpStrict_nonneg {pts : List (ℝ × ℝ)} (hp : ∀ p ∈ pts, 0 < p.2) {w r : ℝ} (h : Psf.interpStrict pts w = .ok r) : 0 ≤ r := by
  unfold Psf.interpStrict at h
  split at h
  · split_ifs at h
    cases h
    have : pts = (pts.map Prod.fst).zip (pts.map Prod.snd) := by
      rw [List.zip_map']
      simp
    rw [this]
    refine interp_nonneg ?_ w
    intro v hv
    obtain ⟨p, hpm, rfl⟩ := List.mem_map.mp hv
    exact (hp p hpm).le
  · cases h

theorem variableLoop_nonneg {res : ℝ → Except Exc ℝ} (hr : ∀ w r, res w = .ok r → 0 ≤ r) {wlMax : ℝ} : ∀ {fuel : ℕ} {w : ℝ} {acc l : List ℝ},
    0 ≤ w → All0 acc → Instrument.variableLoop res wlMax fuel w acc = some (.ok l) → All0 l
  | 0, _, _, _, _, _, h => by simp [Instrument.variableLoop] at h
  | fuel + 1, w, acc, l, hw, ha, h => by
    rw [Instrument.variableLoop] at h
    split_ifs at h
    · cases hres : res w with
      | error x => simp [hres] at h
      | ok r =>
        simp only [hres] at h
        have h0 := round4_nonneg (add_nonneg hw (div_nonneg hw (hr w r hres)))
        refine variableLoop_nonneg hr h0 ?_ h
        intro v hv
        rcases List.mem_cons.mp hv with rfl | hv
        · exact h0
        · exact ha v hv
    · cases h
      exact ha

theorem variableEdges_nonneg {res : ℝ → Except Exc ℝ} (hr : ∀ w r, res w = .ok r → 0 ≤ r) {wlMin wlMax : ℝ} (h0 : 0 ≤ wlMin) (h1 : 0 ≤ wlMax) {fuel : ℕ} {e : List ℝ}
    (h : Instrument.variableEdges res wlMin wlMax fuel = some (.ok e)) : All0 e ∧ 2 ≤ e.length := by
  unfold Instrument.variableEdges at h
  cases hl : Instrument.variableLoop res wlMax fuel wlMin [wlMin] with
  | none => simp [hl] at h
  | some y =>
    cases y with
    | error x => simp [hl] at h
    | ok l =>
      simp only [hl] at h
      have hl0 := variableLoop_nonneg hr h0 (by intro v hv; rw [List.mem_singleton] at hv; rw [hv]; exact h0) hl
      rcases l with _ | ⟨e1, _ | ⟨e2, _ | ⟨e3, rest⟩⟩⟩
      · simp [Instrument.trimLast] at h
      · simp [Instrument.trimLast] at h
      · simp [Instrument.trimLast] at h
      · unfold Instrument.trimLast at h
        simp only at h
        split_ifs at h
        · simp only [Option.some.injEq, Except.ok.injEq] at h
          subst h
          refine ⟨?_, by simp⟩
          intro v hv
          simp only [List.mem_reverse, List.mem_cons] at hv
          rcases hv with rfl | rfl | hv
          · exact h1
          · exact hl0 _ (by simp)
          · exact hl0 _ (by simp [hv])
        · simp only [Option.some.injEq, Except.ok.injEq] at h
          subst h
          refine ⟨?_, by simp⟩
          intro v hv
          exact hl0 v (List.mem_reverse.mp hv)

/-- The bins of a spectrometer: `n` of them, between `n + 1` edges. -/
structure SoundBins (n : ℕ) (b : Instrument.Bins ℝ) (e : List ℝ) : Prop where
  pos : 0 < n
  wl : b.wl.length = n ∧ All0 b.wl
  width : b.width.length = n
  left : b.left.length = n
  right : b.right.length = n
  edges : e.length = n + 1

theorem centres_nonneg : ∀ {e : List ℝ}, All0 e → All0 (Instrument.centres e)
  | [], _ => by intro v hv; cases hv
  | [_], _ => by intro v hv; cases hv
  | a :: b :: l, h => by
    intro v hv
    rw [Instrument.centres] at hv
    rcases List.mem_cons.mp hv with rfl | hv
    · have := h a (by simp)
      have := h b (by simp)
      linarith
    · exact centres_nonneg (fun x hx => h x (by simp [hx])) v hv

theorem bins_of_edges_sound {e : List ℝ} (h0 : All0 e) (h2 : 2 ≤ e.length) : SoundBins (e.length - 1) (Instrument.binsOfEdges e) e := by
  obtain ⟨b1, b2, b3, b4, _⟩ := Instrument.bins_of_edges e
  exact ⟨by omega, ⟨b3, centres_nonneg h0⟩, b4, by rw [b1]; simp, by rw [b2]; simp, by omega⟩

theorem wavelengthTable_sound {fuel : ℕ} {d : Descr} (hband : 0 < d.wlMin ∧ d.wlMin < d.wlMax) {r : Resolution} (hr : SoundResolution r) {px : Instrument.Pixels ℝ}
    (hpx : All0 px.wl) (hlen : px.wl.length = px.bandwidth.length) {b : Instrument.Bins ℝ} {e : List ℝ} (h : wavelengthTable fuel d r px = some (.ok (b, e))) :
    ∃ n, SoundBins n b e := by
  cases r with
  | native =>
    unfold wavelengthTable at h
    simp only at h
    cases hn : Instrument.nativeGrid px.wl px.bandwidth with
    | error x => simp [hn] at h
    | ok y =>
      obtain ⟨c, w, e'⟩ := y
      simp only [hn, Option.some.injEq, Except.ok.injEq, Prod.mk.injEq] at h
      obtain ⟨rfl, rfl⟩ := h
      obtain ⟨hp, _, hl, last, hlast, he⟩ := Instrument.native_bins _ _ _ _ _ hlen hn
      have hc : All0 c := by
        intro v hv
        obtain ⟨i, hi, rfl⟩ := List.mem_iff_getElem.mp hv
        have hz : (c[i], w[i]'(by omega)) ∈ c.zip w := by
          refine List.mem_iff_getElem.mpr ⟨i, by simp [hl]; omega, by simp⟩
        exact hpx _ (List.of_mem_zip (hp.subset hz)).1
      have hpos : 0 < c.length := by
        rcases c with _ | ⟨a, c⟩
        · simp [Instrument.mkBins] at hlast
        · simp
      refine ⟨c.length, hpos, ⟨rfl, hc⟩, hl.symm, by simp [Instrument.mkBins, hl], by simp [Instrument.mkBins, hl], ?_⟩
      rw [he]
      simp [Instrument.mkBins, hl]
  | fixed R =>
    simp only [wavelengthTable, Option.some.injEq, Except.ok.injEq, Prod.mk.injEq] at h
    obtain ⟨rfl, rfl⟩ := h
    obtain ⟨h2, _⟩ := Instrument.fixed_R_edges d.wlMin d.wlMax R hband.1 hband.2 hr
    have hr : 0 < R := hr
    have h0 : All0 (Instrument.fixedREdges d.wlMin d.wlMax R) := by
      intro v hv
      obtain ⟨k, _, rfl⟩ := List.mem_map.mp hv
      have := hband.1
      positivity
    exact ⟨_, bins_of_edges_sound h0 h2⟩
  | curve pts =>
    unfold wavelengthTable at h
    simp only at h
    cases hv : Instrument.variableEdges (Psf.interpStrict pts) d.wlMin d.wlMax fuel with
    | none => simp [hv] at h
    | some y =>
      cases y with
      | error x => simp [hv] at h
      | ok e' =>
        simp only [hv, Option.some.injEq, Except.ok.injEq, Prod.mk.injEq] at h
        obtain ⟨rfl, rfl⟩ := h
        obtain ⟨h0, h2⟩ := variableEdges_nonneg (fun w r h => interpStrict_nonneg hr h) hband.1.le (hband.1.trans hband.2).le hv
        exact ⟨_, bins_of_edges_sound h0 h2⟩
  | unsupported => simp [wavelengthTable] at h

theorem spatial_nonneg {w : Instrument.WindowDescr ℝ} {delta x : ℝ} (hd : 0 < delta) (hf : 0 ≤ w.fnumY) (hx : 0 ≤ x)
    (h1 : ∀ pts, w.encE = some pts → 0 ≤ Instrument.extend pts x) (h2 : ∀ v, w.spatialPixel = some v → 0 ≤ v)
    (h3 : ∀ v, w.spatialScale = some v → 0 ≤ v) : 0 ≤ Instrument.spatialWidth w delta x := by
  rw [Instrument.spatialWidth_spec]
  cases hp : w.spatialPixel with
  | some v => exact h2 v hp
  | none =>
    simp only [Option.getD_none]
    have ha : 0 ≤ (w.encE.map (fun pts => Instrument.extend pts x)).getD (61 / 50) := by
      cases he : w.encE with
      | none => norm_num
      | some pts => exact h1 pts he
    have hb : 0 ≤ w.spatialScale.getD 1 := by
      cases hs : w.spatialScale with
      | none => norm_num
      | some v => exact h3 v hs
    positivity

theorem spectrometerStage_sound {fuel : ℕ} {env : Env} {d : Descr} (hd : SoundDescr env d) {s : SpecDescr} (hs : SoundSpec env d s) {st : Stage}
    (h : spectrometerStage fuel env d s = some (.ok st)) : ∃ n, SoundStage n true st := by
  unfold spectrometerStage at h
  cases hsol : s.solution with
  | none => simp [hsol] at h
  | some sol =>
    simp only [hsol] at h
    cases ht : wavelengthTable fuel d s.targetR (Instrument.pixelGrid sol d.wlMin d.wlMax d.deltaPix) with
    | none => simp [ht] at h
    | some y =>
      cases y with
      | error x => simp [ht] at h
      | ok be =>
        obtain ⟨b, e⟩ := be
        simp only [ht] at h
        cases hq : getQe env d with
        | error x => simp [hq] at h
        | ok qe =>
          simp only [hq] at h
          cases hg : gainCurve env d s (Instrument.pixelGrid sol d.wlMin d.wlMax d.deltaPix) with
          | error x => simp [hg] at h
          | ok g =>
            simp only [hg] at h
            cases hy : d.fnumY with
            | none => simp [hy] at h
            | some fy =>
              simp only [hy, Option.some.injEq, Except.ok.injEq] at h
              subst h
              obtain ⟨hpx, _⟩ := Instrument.pixel_band (hs.solution sol hsol) hd.band.2 hd.deltaPix
              have hpx0 : All0 (Instrument.pixelGrid sol d.wlMin d.wlMax d.deltaPix).wl := fun w hw => hd.band.1.le.trans (hpx w hw).1
              obtain ⟨n, hb⟩ := wavelengthTable_sound hd.band hs.resolution hpx0 (by simp [Instrument.pixelGrid]) ht
              have hf : 0 ≤ fy := by have := hd.fnumY fy hy; linarith
              refine ⟨n, hb.pos, hb.wl.1, hb.width, hb.left, hb.right, ⟨?_, ?_⟩, ⟨?_, ?_⟩, getQe_nonneg hd.qe hq, le_refl _, ⟨hpx0, ?_⟩,
                hs.gain sol g hsol hg, by simp⟩
              · have e1 : (Instrument.spectralWidth ⟨fy, s.encE, s.spatialScale, s.spatialPixel, s.spectralPixel⟩ sol d.deltaPix e).length = n := by
                  have hdl : ∀ l : List ℝ, (Rebin.diffs l).length = l.length - 1 := Rebin.diffs_length
                  unfold Instrument.spectralWidth
                  cases s.spectralPixel <;> simp [hdl, hb.edges]
                simp [Instrument.window, Diffuse.mulCol, e1, hb.wl.1]
              · refine Instrument.window_nonneg _ _ _ _ _ hd.deltaPix hf ?_ hs.spectralPixel hs.spatialPixel hs.spatialScale
                intro w hw
                exact ⟨hb.wl.2 w hw, fun pts hp => hs.radius sol pts fuel b e hsol hp ht w hw⟩
              · refine all0_map (fun w hw => spatial_nonneg hd.deltaPix hf (hb.wl.2 w hw) ?_ hs.spatialPixel hs.spatialScale)
                exact fun pts hp => hs.radius sol pts fuel b e hsol hp ht w hw
              · intro _
                simp [Instrument.window, hb.wl.1]
              · exact all0_map (fun t _ => abs_nonneg _)

theorem builder_sound {fuel : ℕ} {env : Env} (he : SoundEnv env) {d : Descr} (hd : SoundDescr env d) {st : Stage}
    (h : builder fuel env d = some (.ok st)) : ∃ n, SoundStage n (isSpectrometer d.kind) st := by
  have hk := hd.kind
  unfold builder at h
  revert h hk
  cases hkd : d.kind with
  | photometer ap =>
    intro h hk
    exact ⟨1, photometerStage_sound he hd h⟩
  | spectrometer s =>
    intro h hk
    exact spectrometerStage_sound hd hk h

/-! ## The whole channel -/

theorem omega_sound {env : Env} {d : Descr} (hd : SoundDescr env d) : 0 ≤ Psf.omegaPix d.fnumX d.fnumY ∧ Psf.omegaPix d.fnumX d.fnumY ≤ Real.pi := by
  have circ : ∀ (f : ℝ) (fy : Option ℝ), 1 / 2 ≤ f → fy = none ∨ fy = some 0 ∨ fy = some f → 0 ≤ Psf.omegaPix f fy ∧ Psf.omegaPix f fy ≤ Real.pi := by
    intro f fy hf hy
    have hf0 : 0 < f := by linarith
    rw [Psf.omegaPix_circular f hf0 fy hy]
    have hc : 1 / 2 ≤ Real.cos (Real.arctan (1 / (2 * f))) := by
      rw [Real.cos_arctan]
      have h1 : (1 / (2 * f)) ≤ 1 := by rw [div_le_one (by linarith)]; linarith
      have h2 : 0 ≤ 1 / (2 * f) := by positivity
      have h3 : √(1 + (1 / (2 * f)) ^ 2) ≤ 2 := by
        rw [Real.sqrt_le_iff]
        constructor
        · norm_num
        · nlinarith
      have h4 : 0 < √(1 + (1 / (2 * f)) ^ 2) := Real.sqrt_pos.mpr (by positivity)
      exact one_div_le_one_div_of_le h4 h3
    have hc1 := Real.cos_le_one (Real.arctan (1 / (2 * f)))
    have hpi := Real.pi_pos
    constructor
    · exact mul_nonneg (by linarith) (by linarith)
    · nlinarith
  cases hy : d.fnumY with
  | none => exact circ _ _ hd.fnumX (.inl rfl)
  | some fy =>
    have hfy := hd.fnumY fy hy
    have hfx := hd.fnumX
    obtain ⟨h1, _, _, h2⟩ := Psf.omegaPix_bounds d.fnumX fy (by linarith) (by linarith)
    exact ⟨h1.le, h2.trans (circ (min d.fnumX fy) none (le_min hfx hfy) (.inl rfl)).2⟩

theorem grid_sound {env : Env} (he : SoundEnv env) {d : Descr} (hd : SoundDescr env d) :
    (workGrid env d).Pairwise (· < ·) ∧ (∀ w ∈ workGrid env d, 0 < w) ∧ 2 ≤ (workGrid env d).length := by
  obtain ⟨h1, _, _, h4, h5⟩ := Instrument.logspace_spec d.detWlMin d.cutOff env.workingR hd.detector.1 hd.detector.2 he.workingR
  exact ⟨h1, fun w hw => hd.detector.1.trans_le (h5 w hw).1, by unfold workGrid; rw [h4]; exact he.workingR⟩

theorem pathElements_sound {env : Env} {c : Common} (hc : SoundCommon c) {d : Descr} (hd : SoundDescr env d)
    {els : Dict String (Optics.Element ℝ)} (h : pathElements env c d = .ok els) :
    (∀ q ∈ els, SoundEl (workGrid env d).length q) ∧ els.keys.Nodup := by
  unfold pathElements at h
  split_ifs at h
  cases hs : Optics.prepareElements (workGrid env d) c.optics with
  | error x => simp [hs] at h
  | ok shared =>
    simp only [hs] at h
    cases ho : d.optics with
    | none => simp [ho] at h
    | some o =>
      simp only [ho] at h
      cases hw : Optics.prepareElements (workGrid env d) o with
      | error x => simp [hw] at h
      | ok own =>
        simp only [hw, Except.ok.injEq] at h
        subst h
        exact prepend_sound (prepareElements_sound hc.optics hs).1 (prepareElements_sound (hd.optics o ho) hw).1

theorem emitting_nodup {n : ℕ} {els : Dict String (Optics.Element ℝ)} (h : ∀ q ∈ els, SoundEl n q) (hn : els.keys.Nodup) : (Optics.emitting els).Nodup := by
  have e : Optics.emitting els = Dict.keys (els.filter (fun p => p.2.temperature.isSome)) := by
    unfold Optics.emitting Dict.keys
    apply List.map_congr_left
    intro q hq
    exact (h q (List.mem_filter.mp hq).1).name
  rw [e]
  exact hn.sublist ((List.filter_sublist).map _)

/-- What is known of a channel that was built. -/
theorem buildPath_inv {env : Env} {c : Common} {d : Descr} {n : ℕ} {st : Stage}
    (hst : SoundStage n (isSpectrometer d.kind) st) {b : Built} (h : buildPath env c d st = .ok b) :
    ∃ els total trCol tr rads slit, pathElements env c d = .ok els ∧
      (Optics.transmissionTable (workGrid env d) els).get? "total" = some total ∧
      Instrument.getTransmission (chanOf env c d st ⟨[], []⟩) (workGrid env d) total = .ok (trCol, tr) ∧
      Optics.chain env.B (workGrid env d) els [] none = .ok (rads, slit) ∧
      (slit.isSome = true → isSpectrometer d.kind = true) ∧
      Optics.computeSignal Real.pi (diffuseOf env d st slit) (workGrid env d) st.qe n rads = .ok b.signals ∧
      b.table = (stageTable d.noise.value st ++ [("TR", colN trCol)]) ++ [("instrument_signal", col b.signals.total), ("instrument_MaxSignal_inPixel", col b.signals.totalMax)] ∧
      b.ch = ⟨isSpectrometer d.kind, chanOf env c d st tr, diffuseOf env d st slit, d.noise, c.customNoise⟩ ∧
      b.transmissions = Optics.transmissionTable (workGrid env d) els := by
  unfold buildPath at h
  cases hels : pathElements env c d with
  | error x => simp [hels] at h
  | ok els =>
    simp only [hels] at h
    cases htot : (Optics.transmissionTable (workGrid env d) els).getE "total" with
    | error x => simp [htot] at h
    | ok total =>
      simp only [htot] at h
      cases htr : Instrument.getTransmission (chanOf env c d st ⟨[], []⟩) (workGrid env d) total with
      | error x => simp [htr] at h
      | ok r =>
        obtain ⟨trCol, tr⟩ := r
        simp only [htr] at h
        cases hch : Optics.chain env.B (workGrid env d) els [] none with
        | error x => simp [hch] at h
        | ok r =>
          obtain ⟨rads, slit⟩ := r
          simp only [hch] at h
          cases hs : pathSignal env d st rads slit with
          | error x => simp [hs] at h
          | ok s =>
            simp only [hs] at h
            have hset : (stageTable d.noise.value st).set "TR" (colN trCol) = stageTable d.noise.value st ++ [("TR", colN trCol)] :=
              Optics.set_new _ _ _ (by simp [stageTable, Dict.keys])
            have hct : Contrib.chanTable ((stageTable d.noise.value st).set "TR" (colN trCol)) s =
                .ok ((stageTable d.noise.value st ++ [("TR", colN trCol)]) ++ [("instrument_signal", col s.total), ("instrument_MaxSignal_inPixel", col s.totalMax)]) := by
              unfold Contrib.chanTable
              rw [hset]
              refine Contrib.hstack_apart (by simp [stageTable, Dict.keys]) (by simp [Dict.keys]) ?_
              intro k hk hm
              simp only [Dict.keys, List.map_cons, List.map_nil, List.mem_cons, List.not_mem_nil, or_false] at hm
              rcases hm with rfl | rfl <;> simp [stageTable, Dict.keys] at hk
            simp only [hct, Except.ok.injEq] at h
            subst h
            have hsl : slit.isSome = true → isSpectrometer d.kind = true := by
              intro hsl
              by_contra hk
              rw [Bool.not_eq_true] at hk
              unfold pathSignal at hs
              rw [if_pos ⟨hk, hsl⟩] at hs
              split at hs <;> cases hs
            refine ⟨els, total, trCol, tr, rads, slit, rfl, Foreground.getE_get? htot, htr, hch, hsl, ?_, rfl, rfl, rfl⟩
            unfold pathSignal at hs
            rw [if_neg (by rintro ⟨a, b⟩; rw [hsl b] at a; cases a), hst.wl] at hs
            exact hs

theorem getTransmission_length {ch : Instrument.Chan ℝ} {n : ℕ} (h0 : ch.bins.wl.length = n) (h1 : ch.bins.left.length = n) (h2 : ch.bins.right.length = n) {wl t : List ℝ}
    {c : List (Option ℝ)} {s : Rebin.Signal ℝ} (h : Instrument.getTransmission ch wl t = .ok (c, s)) : c.length = n := by
  unfold Instrument.getTransmission at h
  cases hm : Rebin.Signal.mk? wl t with
  | error x => simp [hm] at h
  | ok s' =>
    simp only [hm] at h
    cases hf : ch.force with
    | none => simp [hf] at h
    | some b =>
      cases b <;> simp only [hf, Except.ok.injEq, Prod.mk.injEq] at h <;> obtain ⟨rfl, rfl⟩ := h <;>
        simp [Instrument.binSignal, Instrument.zeroOutCol, h0, h1, h2]

/-- C81: a channel built from the description of a real one. Its table has ten columns, none of them twice, a row for every bin and at least one;
and it is a channel as the rest of the program needs it: no efficiency, width, size or emission is negative. -/
theorem build_sound {fuel : ℕ} {env : Env} (he : SoundEnv env) {c : Common} (hc : SoundCommon c) {loaded : Bool} {d : Descr} (hd : SoundDescr env d) {b : Built}
    (h : build fuel env c loaded d = some (.ok b)) :
    b.table.keys = builtColumns ∧ b.ch.noise = d.noise ∧ b.ch.common = c.customNoise ∧
    ∃ n, 0 < n ∧ ∀ fg out, Obs.Real ⟨b.ch, b.table, n, fg, out⟩ := by
  unfold build at h
  cases loaded with
  | true => simp at h
  | false =>
    simp only [Bool.false_eq_true, if_false] at h
    cases hb : builder fuel env d with
    | none => simp [hb] at h
    | some y =>
      cases y with
      | error x => simp [hb] at h
      | ok st =>
        simp only [hb, Option.some.injEq] at h
        obtain ⟨n, hst⟩ := builder_sound he hd hb
        obtain ⟨els, total, trCol, tr, rads, slit, hels, htot, htr, hch, hsl, hsig, htab, hbch, _⟩ := buildPath_inv hst h
        obtain ⟨hel, hnd⟩ := pathElements_sound hc hd hels
        obtain ⟨hx, hpos, _⟩ := grid_sound he hd
        obtain ⟨ho1, ho2⟩ := omega_sound hd
        have hbins : Optics.Bins (diffuseOf env d st slit) n := ⟨hst.size.1, hst.left, hst.right, fun h => hst.spatial.2 (hsl h)⟩
        have hgd : GoodDiffuse (diffuseOf env d st slit) :=
          ⟨hst.px.1, hst.px.2, hst.spatial.1, hst.size.2, mul_self_nonneg _, ho1, he.perPhoton⟩
        obtain ⟨_, _, _, ⟨t1, t2⟩, ⟨m1, m2⟩, _⟩ := emission_nonneg (pi := Real.pi) (n := n) (fun q hq => ⟨(hel q hq).transmission.2, (hel q hq).emissivity.2⟩)
          (fun q hq T hT w hw => he.B w T (hpos w hw) ((hel q hq).temperature T hT)) hgd ho2 hbins hx hpos hst.qe (emitting_nodup hel hnd) hch hsig
        have htot0 : All0 total := by
          obtain ⟨tot, ht, hl, hv⟩ := (Optics.total_transmission (workGrid env d) els (fun q hq => ⟨(hel q hq).transmission.1, (hel q hq).emissivity.1⟩)).1
          rw [htot] at ht
          cases ht
          intro v hv'
          obtain ⟨i, hi, rfl⟩ := List.mem_iff_getElem.mp hv'
          have := hv i (by omega)
          rw [List.getD_eq_getElem _ _ hi] at this
          rw [this]
          refine List.prod_nonneg ?_
          intro x hx
          obtain ⟨q, hq, rfl⟩ := List.mem_map.mp hx
          by_cases hi' : i < q.2.transmission.length
          · rw [List.getD_eq_getElem _ _ hi']
            exact (hel q hq).transmission.2 _ (List.getElem_mem _)
          · rw [Diffuse.getD_ge _ _ (by omega)]
        have hqe : (Instrument.qeColumn st.bins st.qe).length = n := by simp [Instrument.qeColumn, Instrument.binSignal, hst.left, hst.right]
        have htrl : trCol.length = n := getTransmission_length (ch := chanOf env c d st ⟨[], []⟩) hst.wl hst.left hst.right htr
        have hnum : ∀ l : List ℝ, All0 l → ∀ x ∈ col l, NonNeg x := by
          intro l hl x hx
          obtain ⟨v, hv, rfl⟩ := List.mem_map.mp hx
          exact ⟨v, rfl, hl v hv⟩
        have hkind := hd.kind
        refine ⟨by rw [htab]; rfl, by rw [hbch], by rw [hbch], n, hst.pos, fun fg out => ⟨?_, ?_, ?_, ?_, ?_⟩⟩
        · have hget : ∀ k c', b.table.get? k = some c' → (k, c') ∈ b.table := fun k c' h => Dict.mem_of_get? h
          constructor
          · exact hst.pos
          · refine ⟨by rw [htab]; simp [stageTable], by rw [htab]; simp [stageTable, Dict.keys], ?_⟩
            intro q hq
            simp only [htab, stageTable, List.cons_append, List.nil_append, List.mem_cons, List.not_mem_nil, or_false] at hq
            rcases hq with rfl | rfl | rfl | rfl | rfl | rfl | rfl | rfl | rfl | rfl <;>
              simp [col, colN, hst.wl, hst.width, hst.left, hst.right, hst.size.1, hqe, htrl, t1, m1]
          · simp only [htab]; simp [stageTable, Dict.keys]
          · simp only [htab]; simp [stageTable, Dict.keys]
          · simp only [htab, hbch]
            simp [stageTable, Dict.get?, hst.wl]
          · simp only [htab]; simp [stageTable, Dict.keys]
          · simp only [htab]; simp [stageTable, Dict.keys]
          · intro c' hc' x hx
            have : c' = col st.bins.wl := by
              simp only [htab] at hc'
              simpa [stageTable, Dict.get?] using hc'.symm
            subst this
            obtain ⟨v, _, rfl⟩ := List.mem_map.mp hx
            exact ⟨v, rfl⟩
          · intro c' hc'
            have : c' = col st.size := by
              simp only [htab] at hc'
              simpa [stageTable, Dict.get?] using hc'.symm
            subst this
            exact hnum _ hst.size.2
          · intro k c' hc' hk
            have hm := hget k c' hc'
            simp only [htab, stageTable, List.cons_append, List.nil_append, List.mem_cons, List.not_mem_nil, or_false, Prod.mk.injEq] at hm
            rcases hm with ⟨rfl, rfl⟩ | ⟨rfl, rfl⟩ | ⟨rfl, rfl⟩ | ⟨rfl, rfl⟩ | ⟨rfl, rfl⟩ | ⟨rfl, rfl⟩ | ⟨rfl, rfl⟩ | ⟨rfl, rfl⟩ | ⟨rfl, rfl⟩ | ⟨rfl, rfl⟩
            · exact absurd hk (by decide)
            · exact absurd hk (by decide)
            · exact absurd hk (by decide)
            · exact absurd hk (by decide)
            · exact absurd hk (by decide)
            · exact absurd hk (by decide)
            · exact absurd hk (by decide)
            · exact absurd hk (by decide)
            · exact hnum _ t2
            · exact hnum _ m2
          · rw [hbch]
            exact ⟨hst.wl, hst.left, hst.right⟩
        · rw [hbch]
          refine ⟨hc.atel, he.perPhoton, hst.qe, getTransmission_nonneg htr htot0, ?_, ?_, hst.prfMax, hst.px.2, hst.gain⟩
          · intro v hv
            simp only [chanOf] at hv
            revert hv hkind
            cases d.kind with
            | photometer ap => intro hk hv; exact hk.1 v hv
            | spectrometer s => intro hk hv; simp [apertureOf] at hv
          · intro v hv
            simp only [chanOf] at hv
            revert hv hkind
            cases d.kind with
            | photometer ap => intro hk hv; exact hk.2 v hv
            | spectrometer s => intro hk hv; simp [apertureOf] at hv
        · rw [hbch]; exact hgd
        · rw [hbch]
          exact ⟨hst.left, hst.right, hst.size.1, fun h => hst.spatial.2 (hsl h)⟩
        · rw [hbch]
          intro hk
          exact hst.photometer hk

/-! ## The contributions of the optical path -/

theorem builtColumns_apart : ∀ k ∈ builtColumns, ∀ el, k ≠ el ++ " signal" := by
  intro k hk el e
  have h := congrArg (fun s : String => s.toList.reverse) e
  simp only [builtColumns, List.mem_cons, List.not_mem_nil, or_false] at hk
  rcases hk with rfl | rfl | rfl | rfl | rfl | rfl | rfl | rfl | rfl | rfl <;> simp [String.toList_append] at h

/-- The names of the elements of a channel that emit. -/
noncomputable def emitters (env : Env) (c : Common) (d : Descr) : List String :=
  match pathElements env c d with
  | .ok els => Optics.emitting els
  | .error _ => []

/-- C81: the table of signals of a built channel, in front of `full_contrib`. There is a column for every element that emits, `instrument_signal` is their sum in
every bin. -/
theorem build_parts {fuel : ℕ} {env : Env} (he : SoundEnv env) {c : Common} (hc : SoundCommon c) {loaded : Bool} {d : Descr} (hd : SoundDescr env d) {b : Built}
    (h : build fuel env c loaded d = some (.ok b))
    (hquiet : ∀ el ∈ emitters env c d, substr "Max" (el ++ " signal") = false ∧ substr "_noise" (el ++ " signal") = false)
    {n : ℕ} {fg : Table ℝ} {out : Instrument.TargetOut ℝ} (hreal : Obs.Real ⟨b.ch, b.table, n, fg, out⟩) (hfg : "instrument_signal" ∉ fg.keys) :
    (Contrib.signalTable b.signals).keys = (emitters env c d).map (· ++ " signal") ∧
    Contrib.Parts ⟨b.ch, b.table, n, fg, out⟩ (Contrib.signalTable b.signals) ∧ Contrib.Apart ⟨b.ch, b.table, n, fg, out⟩ := by
  have hkeys := (build_sound he hc hd h).1
  unfold build at h
  cases loaded with
  | true => simp at h
  | false =>
    simp only [Bool.false_eq_true, if_false] at h
    cases hb : builder fuel env d with
    | none => simp [hb] at h
    | some y =>
      cases y with
      | error x => simp [hb] at h
      | ok st =>
        simp only [hb, Option.some.injEq] at h
        obtain ⟨m, hst⟩ := builder_sound he hd hb
        obtain ⟨els, total, trCol, tr, rads, slit, hels, htot, htr, hch, hsl, hsig, htab, hbch, _⟩ := buildPath_inv hst h
        have hnm : n = m := by
          have := hreal.table.bins.1
          simp only [hbch, chanOf] at this
          rw [hst.wl] at this
          exact this.symm
        subst hnm
        obtain ⟨hel, hnd⟩ := pathElements_sound hc hd hels
        obtain ⟨hx, hpos, _⟩ := grid_sound he hd
        obtain ⟨ho1, ho2⟩ := omega_sound hd
        have hem : emitters env c d = Optics.emitting els := by unfold emitters; rw [hels]
        rw [hem] at hquiet ⊢
        have hbins : Optics.Bins (diffuseOf env d st slit) n := ⟨hst.size.1, hst.left, hst.right, fun h => hst.spatial.2 (hsl h)⟩
        have hgd : GoodDiffuse (diffuseOf env d st slit) :=
          ⟨hst.px.1, hst.px.2, hst.spatial.1, hst.size.2, mul_self_nonneg _, ho1, he.perPhoton⟩
        have hgood : GoodElements els := fun q hq => ⟨(hel q hq).transmission.2, (hel q hq).emissivity.2⟩
        have hwarm : Warm env.B (workGrid env d) els := fun q hq T hT w hw => he.B w T (hpos w hw) ((hel q hq).temperature T hT)
        have hsk := (emission_nonneg (pi := Real.pi) (n := n) hgood hwarm hgd ho2 hbins hx hpos hst.qe (emitting_nodup hel hnd) hch hsig).1
        refine ⟨?_, ?_, ?_, ?_, hfg⟩
        · rw [← hsk]
          unfold Contrib.signalTable Dict.keys
          rw [List.map_map]
          rfl
        · refine (Contrib.built_parts (pi := Real.pi) ⟨b.ch, b.table, n, fg, out⟩ (stageTable d.noise.value st ++ [("TR", colN trCol)]) hgood hwarm hgd ho2 hbins hx hpos
            hst.qe (emitting_nodup hel hnd) hch hsig hquiet ⟨by simp [stageTable, Dict.keys], by simp [stageTable, Dict.keys], by simp [stageTable, Dict.keys]⟩ ?_).1
          unfold Contrib.chanTable
          rw [Contrib.hstack_apart (by simp [stageTable, Dict.keys]) (by simp [Dict.keys])]
          · rw [htab]
          · intro k hk hm
            simp only [Dict.keys, List.map_cons, List.map_nil, List.mem_cons, List.not_mem_nil, or_false] at hm
            rcases hm with rfl | rfl <;> simp [stageTable, Dict.keys] at hk
        · intro k hk
          rw [show Dict.keys (Obs.tab ⟨b.ch, b.table, n, fg, out⟩) = builtColumns from hkeys] at hk
          exact builtColumns_apart k hk
        · rw [show Dict.keys (Obs.tab ⟨b.ch, b.table, n, fg, out⟩) = builtColumns from hkeys]
          simp [builtColumns]

/-! ## All channels of a payload -/

theorem buildAll_mem {fuel : ℕ} {env : Env} {c : Common} : ∀ {ds : List Descr} {bs : List Built}, buildAll fuel env c ds = some (.ok bs) →
    List.Forall₂ (fun d b => build fuel env c false d = some (.ok b)) ds bs
  | [], bs, h => by
    simp only [buildAll, Option.some.injEq, Except.ok.injEq] at h
    subst h
    exact .nil
  | d :: ds, bs, h => by
    unfold buildAll at h
    cases hb : build fuel env c false d with
    | none => simp [hb] at h
    | some y =>
      cases y with
      | error x => simp [hb] at h
      | ok b =>
        simp only [hb] at h
        cases ha : buildAll fuel env c ds with
        | none => simp [ha] at h
        | some z =>
          cases z with
          | error x => simp [ha] at h
          | ok bs' =>
            simp only [ha, Option.some.injEq, Except.ok.injEq] at h
            subst h
            exact .cons hb (buildAll_mem ha)

/-- C81: the tables of all channels have the same columns, so stacking them leaves no hole. -/
theorem buildAll_fillable {fuel : ℕ} {env : Env} (he : SoundEnv env) {c : Common} (hc : SoundCommon c) {ds : List Descr} (hd : ∀ d ∈ ds, SoundDescr env d)
    {bs : List Built} (h : buildAll fuel env c ds = some (.ok bs)) :
    bs.length = ds.length ∧ bs.map (fun b => b.ch.noise) = ds.map Descr.noise ∧ (∀ b ∈ bs, b.table.keys = builtColumns) ∧
    Fillable (bs.map Built.table) := by
  have hf := buildAll_mem h
  have hk : ∀ b ∈ bs, b.table.keys = builtColumns := by
    intro b hb
    obtain ⟨d, hdm, hb'⟩ : ∃ d, d ∈ ds ∧ build fuel env c false d = some (.ok b) := by
      obtain ⟨i, hi, rfl⟩ := List.mem_iff_getElem.mp hb
      have hl := hf.length_eq
      exact ⟨ds[i]'(by omega), List.getElem_mem _, (List.forall₂_iff_get.mp hf).2 i (by omega) hi⟩
    exact (build_sound he hc (hd d hdm) hb').1
  refine ⟨hf.length_eq.symm, ?_, hk, ?_⟩
  · clear h hk
    induction hf with
    | nil => rfl
    | @cons d b ds bs h1 h2 ih =>
      rw [List.map_cons, List.map_cons, (build_sound he hc (hd d (by simp)) h1).2.1, ih (fun d hdm => hd d (by simp [hdm]))]
  · intro t ht p hp
    left
    intro u hu
    obtain ⟨b, hb, rfl⟩ := List.mem_map.mp ht
    obtain ⟨b', hb', rfl⟩ := List.mem_map.mp hu
    rw [hk b' hb', ← hk b hb]
    exact List.mem_map.mpr ⟨p, hp, rfl⟩

end ExoRad.Build
