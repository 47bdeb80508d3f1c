import Verif.Props.BuildNeeds
import Verif.Props.EndToEnd
import Verif.Props.Options

/-!
# When a target can be observed: C102

Every step of the observation of a target, for channels built from complete descriptions: the light of the foregrounds and
of the star reaches every channel, without an exception.
-/

set_option linter.unusedSectionVars false

namespace ExoRad.Build
open Table Pipeline Light

/-! ## Specification -/

/-- The working grid of the payload has two points around the pixels of a spectrometer, there are at least two pixels, and every bin has a pixel inside. -/
def PixelsFit (grid : List ℝ) (d : Descr) (s : SpecDescr) : Prop :=
  ∀ sol, s.solution = some sol →
    2 ≤ (Instrument.pixelGrid sol d.wlMin d.wlMax d.deltaPix).wl.length ∧
    (∀ fuel b e, wavelengthTable fuel d s.targetR (Instrument.pixelGrid sol d.wlMin d.wlMax d.deltaPix) = some (.ok (b, e)) →
      ∀ r ∈ b.left.zip b.right, ∃ x ∈ (Instrument.pixelGrid sol d.wlMin d.wlMax d.deltaPix).wl, r.1 < x ∧ x < r.2) ∧
    ∃ p ∈ grid, ∃ q ∈ grid, p < q ∧ ∃ x ∈ (Instrument.pixelGrid sol d.wlMin d.wlMax d.deltaPix).wl,
      ∃ y ∈ (Instrument.pixelGrid sol d.wlMin d.wlMax d.deltaPix).wl, 9 / 10 * x < p ∧ q < 11 / 10 * y

/-- A channel within the range `a`, `b` of a payload: so is its detector, and a spectrometer has pixels that fit. -/
structure Within (a b : ℝ) (n : ℕ) (d : Descr) : Prop where
  lower : a ≤ d.detWlMin
  upper : d.cutOff ≤ b
  pixels : ∀ s, d.kind = .spectrometer s → PixelsFit (Instrument.logspace a b n) d s

/-- A foreground that can be estimated for a star at these coordinates: a table with the three columns, or for zodiacal light no right ascension without declination
and a readable map if one is asked for. -/
def ForegroundThere (m : Foreground.MapFiles ℝ) (ra dec : Option ℝ) (kd : String × Foreground.Descr ℝ) : Prop :=
  (kd.1 ≠ "zodiacal" → ∃ w r t, Foreground.HasColumns kd.2 w r t) ∧
  (kd.1 = "zodiacal" → (ra.isSome = true → dec.isSome = true) ∧
    (kd.2.zodiacalMap = some true → ra.isSome = true → ∃ rows, Foreground.readMap m kd.2.mapFile = .ok rows ∧ rows ≠ []))

/-! ## Foregrounds -/

/-- The light of the sky is given on one grid, under these names. -/
structure OnSky (g : List ℝ) (names : List String) (s : Foreground.Sky ℝ) : Prop where
  fg : ∀ kf ∈ s.foreground.getD [], kf.1 ∈ names ∧ kf.2.rad.wl = g ∧ kf.2.rad.data.length = g.length
  tr : ∀ t, s.transmission = some t → t.wl = g ∧ t.data.length = g.length

theorem OnSky.add {g : List ℝ} {names : List String} {s : Foreground.Sky ℝ} (h : OnSky g names s) {k : String} (hk : k ∈ names) {f : Foreground.Filter ℝ}
    (h1 : f.rad.wl = g) (h2 : f.rad.data.length = g.length) : OnSky g names (Foreground.addForeground s k f) := by
  refine ⟨?_, h.tr⟩
  intro kf hkf
  have : kf ∈ Dict.set (s.foreground.getD []) k f := hkf
  rcases mem_set' this with hm | rfl
  · exact h.fg kf hm
  · exact ⟨hk, h1, h2⟩

theorem estimateOne_ok {B : ℝ → ℝ → ℝ} {m : Foreground.MapFiles ℝ} {g : List ℝ} {names : List String} {kd : String × Foreground.Descr ℝ} {s : Foreground.Sky ℝ}
    (hs : OnSky g names s) (hn : Foreground.nameOf kd ∈ names) (ht : ForegroundThere m s.ra s.dec kd) :
    ∃ s', Foreground.estimateOne B m g kd.1 kd.2 s = (s', .ok ()) ∧ OnSky g names s' ∧ s'.ra = s.ra ∧ s'.dec = s.dec ∧ s'.foreground.isSome = true := by
  obtain ⟨k, d⟩ := kd
  unfold Foreground.nameOf at hn
  unfold Foreground.estimateOne
  by_cases hk : k = "zodiacal"
  · subst hk
    obtain ⟨h1, h2⟩ := ht.2 rfl
    simp only [if_true] at hn h1 h2 ⊢
    have hz : ∃ a, Foreground.coordinates s = .ok (Foreground.starCoordinates s) ∧ Foreground.zodiCoefficient m d (Foreground.starCoordinates s) = .ok a := by
      unfold Foreground.coordinates Foreground.starCoordinates
      cases hr : s.ra with
      | none => exact ⟨_, rfl, (Foreground.zodi_coefficient_partial m d).2 none (.inr rfl)⟩
      | some ra =>
        cases hd : s.dec with
        | none => simp [hr, hd] at h1
        | some dec =>
          by_cases hmap : d.zodiacalMap = some true
          · obtain ⟨rows, e1, e2⟩ := h2 hmap (by simp [hr])
            obtain ⟨r, _, e3, _⟩ := (Foreground.zodi_coefficient_partial m d).1 ra dec rows hmap e1 e2
            exact ⟨_, rfl, e3⟩
          · exact ⟨_, rfl, (Foreground.zodi_coefficient_partial m d).2 _ (.inl hmap)⟩
    obtain ⟨a, e1, e2⟩ := hz
    unfold Foreground.estimateZodi
    simp only [e1, e2]
    exact ⟨_, rfl, hs.add hn rfl (by simp), rfl, rfl, rfl⟩
  · obtain ⟨w, r, t, hc⟩ := ht.1 hk
    simp only [if_neg hk] at hn ⊢
    unfold Foreground.estimateForeground
    have hf := (Foreground.skyForeground_iff g d _).mpr ⟨w, r, t, hc, rfl⟩
    simp only [hf, Option.getD_some]
    have hadd := hs.add (k := d.value) (f := ⟨⟨g, g.map (Foreground.interpFill 0 (w.zip r))⟩, some (g.map (Foreground.interpFill 1 (w.zip t)))⟩) hn rfl (by simp)
    unfold Foreground.attenuate
    cases htr : (Foreground.addForeground s d.value ⟨⟨g, g.map (Foreground.interpFill 0 (w.zip r))⟩, some (g.map (Foreground.interpFill 1 (w.zip t)))⟩).transmission with
    | none =>
      refine ⟨_, rfl, ⟨hadd.fg, ?_⟩, rfl, rfl, rfl⟩
      intro t' ht'
      cases ht'
      exact ⟨rfl, by simp⟩
    | some t0 =>
      obtain ⟨t1, t2⟩ := hadd.tr t0 htr
      simp only
      rw [if_pos (by simp [t2])]
      refine ⟨_, rfl, ⟨hadd.fg, ?_⟩, rfl, rfl, rfl⟩
      intro t' ht'
      cases ht'
      exact ⟨t1, by simp [Diffuse.mulCol, t2]⟩

theorem estimateLoop_ok {B : ℝ → ℝ → ℝ} {m : Foreground.MapFiles ℝ} {g : List ℝ} {names : List String} : ∀ {ds : Dict String (Foreground.Descr ℝ)} {s : Foreground.Sky ℝ},
    OnSky g names s → (∀ kd ∈ ds, Foreground.nameOf kd ∈ names) → (∀ kd ∈ ds, ForegroundThere m s.ra s.dec kd) → (ds ≠ [] ∨ s.foreground.isSome = true) →
    ∃ s', Foreground.estimateLoop B m g ds s = (s', .ok ()) ∧ OnSky g names s' ∧ s'.foreground.isSome = true
  | [], s, hs, _, _, h0 => ⟨s, rfl, hs, h0.resolve_left (by simp)⟩
  | kd :: ds, s, hs, hn, ht, _ => by
    obtain ⟨s1, e1, h1, hra, hdec, hfg⟩ := estimateOne_ok (B := B) hs (hn kd (by simp)) (ht kd (by simp))
    obtain ⟨s', e2, h2, h3⟩ := estimateLoop_ok (B := B) (m := m) (ds := ds) h1 (fun x hx => hn x (by simp [hx]))
      (fun x hx => by rw [hra, hdec]; exact ht x (by simp [hx])) (.inr hfg)
    refine ⟨s', ?_, h2, h3⟩
    rw [Foreground.estimateLoop]
    simp only [e1]
    exact e2

/-- The foregrounds of a payload can be estimated for a fresh target. -/
theorem estimate_ok {B : ℝ → ℝ → ℝ} {m : Foreground.MapFiles ℝ} {g : List ℝ} {sec : Foreground.Section ℝ} {s : Foreground.Sky ℝ} (h0 : sec.list ≠ [])
    (hf : s.foreground = none) (ht : s.transmission = none) (hd : ∀ kd ∈ sec.list, ForegroundThere m s.ra s.dec kd) :
    ∃ s', Foreground.estimateForegrounds B m g sec s = (s', .ok ()) ∧ OnSky g (sec.list.map Foreground.nameOf) s' ∧ s'.foreground.isSome = true := by
  have hs : OnSky g (sec.list.map Foreground.nameOf) s := ⟨by simp [hf], by simp [ht]⟩
  cases sec with
  | many ds =>
    exact estimateLoop_ok hs (fun kd hkd => List.mem_map.mpr ⟨kd, hkd, rfl⟩) hd (.inl h0)
  | single d =>
    obtain ⟨s', e, h1, _, _, h2⟩ := estimateOne_ok (B := B) (kd := (d.value, d)) hs (by simp [Foreground.Section.list]) (hd _ (by simp [Foreground.Section.list]))
    exact ⟨s', e, h1, h2⟩

/-! ## Rebinning -/

/-- A curve with two points inside the range of the payload. -/
def Onto (a b : ℝ) (s : Rebin.Signal ℝ) : Prop :=
  s.data.length = s.wl.length ∧ s.wl.Pairwise (· < ·) ∧ ∃ p ∈ s.wl, ∃ q ∈ s.wl, p < q ∧ 9 / 10 * a < p ∧ q < 11 / 10 * b

/-- The working grid of a payload. -/
structure IsGrid (a b : ℝ) (g : List ℝ) : Prop where
  pos : 0 < a
  lt : a < b
  sorted : g.Pairwise (· < ·)
  low : a ∈ g
  high : b ∈ g
  two : 2 ≤ g.length

theorem logspace_isGrid {a b : ℝ} {n : ℕ} (ha : 0 < a) (hab : a < b) (hn : 2 ≤ n) : IsGrid a b (Instrument.logspace a b n) := by
  obtain ⟨h1, h2, h3, h4, _⟩ := Instrument.logspace_spec a b n ha hab hn
  exact ⟨ha, hab, h1, h2, h3, by omega⟩

theorem IsGrid.nz {a b : ℝ} {g : List ℝ} (h : IsGrid a b g) : (0 : ℝ) ∉ Rebin.diffs g := fun hm => lt_irrefl _ (Rebin.diffs_pos _ h.sorted 0 hm)

theorem IsGrid.onto {a b : ℝ} {g : List ℝ} (h : IsGrid a b g) {data : List ℝ} (hd : data.length = g.length) : Onto a b ⟨g, data⟩ := by
  have h1 := h.pos
  have h2 := h.lt
  exact ⟨hd, h.sorted, a, h.low, b, h.high, h.lt, by linarith, by linarith⟩

theorem Onto.rebin {a b : ℝ} {g : List ℝ} (hg : IsGrid a b g) {s : Rebin.Signal ℝ} (h : Onto a b s) :
    ∃ s', s.spectralRebin g = .ok s' ∧ s'.wl = g ∧ s'.data.length = g.length ∧ Onto a b s' := by
  obtain ⟨h1, h2, p, hp, q, hq, hpq, hap, hqb⟩ := h
  obtain ⟨s', hs'⟩ := rebin_works h1 h2 hg.nz hg.two hp hq hpq hg.low hg.high hap hqb
  obtain ⟨w1, w2⟩ := Rebin.spectralRebin_wellFormed _ _ _ hg.nz hs'
  have w3 : s'.data.length = g.length := by rw [w1, w2]
  refine ⟨s', hs', w2, w3, ?_⟩
  have := hg.onto w3
  rw [← w2] at this
  exact this

/-! ## The light of the foregrounds -/

theorem mulData_ok {a b : List ℝ} (h : a.length = b.length) : Foreground.mulData a b = .ok (Diffuse.mulCol a b) := by
  unfold Foreground.mulData
  rw [if_pos h]

theorem propagateLoop_ok {a b : ℝ} {g : List ℝ} (hg : IsGrid a b g) {ch : Diffuse.Channel ℝ}
    (hslit : ∀ w, ch.slitWidth = some w → ∀ (qe : Rebin.Signal ℝ) (data : List ℝ), data.length = g.length → ∃ r, Diffuse.convolveWithSlit ch w qe ⟨g, data⟩ = .ok r)
    {names : List String} : ∀ {fs : List (String × Foreground.Filter ℝ)} {qe tr : Rebin.Signal ℝ} {out : Dict String (List ℝ)},
    (∀ kf ∈ fs, kf.1 ∈ names ∧ kf.2.rad.wl = g ∧ kf.2.rad.data.length = g.length) → Onto a b qe → Onto a b tr →
    (∀ k ∈ out.keys, ∃ n ∈ names, k = n ++ "_signal" ∨ k = n ++ "_MaxSignal_inPixel") →
    ∃ o, Foreground.propagateLoop ch fs qe tr out = .ok o ∧ ∀ k ∈ o.keys, ∃ n ∈ names, k = n ++ "_signal" ∨ k = n ++ "_MaxSignal_inPixel"
  | [], _, _, out, _, _, _, ho => ⟨out, rfl, ho⟩
  | (k, f) :: fs, qe, tr, out, hfs, hq, ht, ho => by
    obtain ⟨f0, f1, f2⟩ := hfs (k, f) (by simp)
    simp only at f0 f1 f2
    obtain ⟨tr', e1, t1, t2, t3⟩ := ht.rebin hg
    rw [Foreground.propagateLoop]
    simp only [f1, e1, mulData_ok (f2.trans t2.symm)]
    have hlen : (Diffuse.mulCol f.rad.data tr'.data).length = g.length := by simp [Diffuse.mulCol, f2, t2]
    have hdet : ∃ qe' m sig, Foreground.detect ch qe ⟨g, Diffuse.mulCol f.rad.data tr'.data⟩ = .ok (qe', m, sig) ∧ Onto a b qe' := by
      unfold Foreground.detect
      cases hs : ch.slitWidth with
      | some w =>
        obtain ⟨⟨m, sig⟩, hr⟩ := hslit w hs qe _ hlen
        simp only [hr]
        exact ⟨_, _, _, rfl, hq⟩
      | none =>
        obtain ⟨q', e2, q1, q2, q3⟩ := hq.rebin hg
        unfold Foreground.slitless
        simp only [e2]
        rw [mulData_ok (by simp [hlen, q1, q2])]
        exact ⟨_, _, _, rfl, q3⟩
    obtain ⟨qe', m, sig, e2, q3⟩ := hdet
    simp only [e2]
    refine propagateLoop_ok hg hslit (fun x hx => hfs x (by simp [hx])) q3 t3 ?_
    intro x hx
    rcases (Dict.mem_keys_set _ _ _ _).mp hx with rfl | hx
    · exact ⟨k, f0, .inr rfl⟩
    · rcases (Dict.mem_keys_set _ _ _ _).mp hx with rfl | hx
      · exact ⟨k, f0, .inl rfl⟩
      · exact ho x hx

/-! ## Names -/

theorem noise_free {n t : String} (h : substr "_noise" n = false) (ht : ∀ i : Fin 7, ("_noise".toList.drop i) <+: t.toList → "_noise".toList.drop i = [])
    (hs : substr "_noise" t = false) : substr "_noise" (n ++ t) = false := by
  rw [← Bool.not_eq_true] at h hs ⊢
  rw [Options.substr_iff] at h hs ⊢
  intro hin
  rw [String.toList_append] at hin
  rw [List.infix_append_iff] at hin
  rcases hin with h1 | h1 | ⟨l1, l2, e, h1, h2⟩
  · exact h h1
  · exact hs h1
  · have hl : l1.length ≤ 6 := by
      have := congrArg List.length e
      rw [List.length_append] at this
      have h6 : "_noise".toList.length = 6 := by decide
      omega
    have hdrop : "_noise".toList.drop l1.length = l2 := by rw [e]; simp
    have := ht ⟨l1.length, by omega⟩ (by rw [hdrop]; exact h2)
    rw [hdrop] at this
    subst this
    rw [List.append_nil] at e
    exact h (by rw [e]; exact h1.isInfix)

/-- The columns of a foreground are no noise columns unless its name is. -/
theorem signal_not_noise {n : String} (h : substr "_noise" n = false) : ¬ NoiseName (n ++ "_signal") ∧ ¬ NoiseName (n ++ "_MaxSignal_inPixel") := by
  have e1 := noise_free (t := "_signal") h (by decide) (by decide)
  have e2 := noise_free (t := "_MaxSignal_inPixel") h (by decide) (by decide)
  have last : ∀ {a b : String} {c d : Char}, (a ++ b).toList.getLast? = some c → b.toList.getLast? = some d → c = d := by
    intro a b c d h1 h2
    rw [String.toList_append, List.getLast?_append, h2] at h1
    simpa using h1.symm
  have ne : ∀ {b : String} {c : String}, b.toList.getLast? ≠ c.toList.getLast? → b.toList.getLast?.isSome = true → n ++ b ≠ c := by
    intro b c hbc hb he
    obtain ⟨x, hx⟩ := Option.isSome_iff_exists.mp hb
    apply hbc
    rw [← he, String.toList_append, List.getLast?_append, hx]
    rfl
  constructor
  · rintro (h1 | h1 | h1)
    · rw [e1] at h1; cases h1
    · exact ne (b := "_signal") (c := "frameTime") (by decide) (by decide) h1
    · exact ne (b := "_signal") (c := "saturation_time") (by decide) (by decide) h1
  · rintro (h1 | h1 | h1)
    · rw [e2] at h1; cases h1
    · exact ne (b := "_MaxSignal_inPixel") (c := "frameTime") (by decide) (by decide) h1
    · exact ne (b := "_MaxSignal_inPixel") (c := "saturation_time") (by decide) (by decide) h1

/-! ## The light of the star -/

theorem getTransmission_ok {ch : Instrument.Chan ℝ} (hf : ch.force ≠ none) {wl data : List ℝ} (h : data.length = wl.length) :
    ∃ c s, Instrument.getTransmission ch wl data = .ok (c, s) ∧ s.wl = wl ∧ s.data.length = wl.length := by
  obtain ⟨f, hf⟩ := Option.ne_none_iff_exists'.mp hf
  unfold Instrument.getTransmission
  rw [(Rebin.mk?_ok wl data ⟨wl, data⟩).mpr ⟨rfl, h⟩]
  simp only [hf]
  cases f with
  | false => exact ⟨_, _, rfl, rfl, h⟩
  | true => exact ⟨_, _, rfl, rfl, by simp [Instrument.zeroOut, h]⟩

theorem getTransmission_lengths {ch : Instrument.Chan ℝ} {wl data : List ℝ} {c : List (Option ℝ)} {s : Rebin.Signal ℝ} (h : Instrument.getTransmission ch wl data = .ok (c, s)) :
    s.wl = wl ∧ s.data.length = wl.length := by
  unfold Instrument.getTransmission at h
  cases hm : Rebin.Signal.mk? wl data with
  | error e => simp [hm] at h
  | ok s0 =>
    obtain ⟨e1, e2⟩ := (Rebin.mk?_ok wl data s0).mp hm
    subst e1
    simp only [hm] at h
    cases hf : ch.force with
    | none => simp [hf] at h
    | some f =>
      cases f with
      | false =>
        simp only [hf, Except.ok.injEq, Prod.mk.injEq] at h
        rw [← h.2]; exact ⟨rfl, e2⟩
      | true =>
        simp only [hf, Except.ok.injEq, Prod.mk.injEq] at h
        rw [← h.2]; exact ⟨rfl, by have h3 : data.length = wl.length := e2; simp [Instrument.zeroOut, h3]⟩

theorem pixelMaxima_ok {wlPix v : List ℝ} (hl : v.length = wlPix.length) : ∀ {bs : List (ℝ × ℝ)}, (∀ r ∈ bs, ∃ x ∈ wlPix, r.1 < x ∧ x < r.2) →
    ∃ m, Instrument.pixelMaxima wlPix v bs = .ok m
  | [], _ => ⟨[], rfl⟩
  | (lo, hi) :: bs, h => by
    obtain ⟨ms, hms⟩ := pixelMaxima_ok hl (bs := bs) (fun r hr => h r (by simp [hr]))
    obtain ⟨x, hx, h1, h2⟩ := h (lo, hi) (by simp)
    obtain ⟨i, hi', rfl⟩ := List.mem_iff_getElem.mp hx
    have hm : ∃ m, Rebin.maxE (((wlPix.zip v).filter (fun p => decide (lo < p.1) && decide (p.1 < hi))).map Prod.snd) = .ok m := by
      cases hc : ((wlPix.zip v).filter (fun p => decide (lo < p.1) && decide (p.1 < hi))).map Prod.snd with
      | cons y l => exact ⟨_, rfl⟩
      | nil =>
        rw [List.map_eq_nil_iff, List.filter_eq_nil_iff] at hc
        have := hc (wlPix[i], v[i]'(by omega)) (List.mem_iff_getElem.mpr ⟨i, by simp; omega, by simp⟩)
        simp only [Bool.and_eq_true, decide_eq_true_eq, not_and] at this
        exact absurd h2 (this h1)
    obtain ⟨m, hm⟩ := hm
    refine ⟨m :: ms, ?_⟩
    rw [Instrument.pixelMaxima]
    simp only [hm, hms]

/-- What a spectrometer needs of its pixels. -/
structure PixelsOk (g : List ℝ) (ch : Instrument.Chan ℝ) : Prop where
  distinct : (0 : ℝ) ∉ Rebin.diffs ch.wlPix
  two : 2 ≤ ch.wlPix.length
  width : ch.dwlPix.length = ch.wlPix.length
  bins : ∀ r ∈ ch.bins.left.zip ch.bins.right, ∃ x ∈ ch.wlPix, r.1 < x ∧ x < r.2
  around : ∃ p ∈ g, ∃ q ∈ g, p < q ∧ ∃ x ∈ ch.wlPix, ∃ y ∈ ch.wlPix, 9 / 10 * x < p ∧ q < 11 / 10 * y

theorem efficiency_ok {a b : ℝ} {g : List ℝ} (hg : IsGrid a b g) {ch : Instrument.Chan ℝ} (hf : ch.force ≠ none) (hq : Onto a b ch.qe) (ht : Onto a b ch.tr)
    {sky : Option (Rebin.Signal ℝ)} (hsky : ∀ t, sky = some t → t.wl = g ∧ t.data.length = g.length) :
    ∃ eff, Instrument.getEfficiency ch g sky none = .ok eff ∧ eff.qe.length = g.length ∧ eff.tr.length = g.length := by
  obtain ⟨q, e1, q1, q2, _⟩ := hq.rebin hg
  obtain ⟨t, e2, t1, t2, _⟩ := ht.rebin hg
  unfold Instrument.getEfficiency
  simp only [e1, e2]
  cases hs : sky with
  | none => exact ⟨_, rfl, q2, t2⟩
  | some s =>
    obtain ⟨s1, s2⟩ := hsky s hs
    obtain ⟨c, s', e3, s3, s4⟩ := getTransmission_ok hf (wl := s.wl) (data := s.data) (by rw [s1, s2])
    have hon : Onto a b s' := by
      have := hg.onto (data := s'.data) (by rw [s4, s1])
      rw [← s1, ← s3] at this
      exact this
    obtain ⟨r, e4, r1, r2, _⟩ := hon.rebin hg
    unfold Instrument.withSky
    simp only [e3, e4]
    exact ⟨_, rfl, q2, by simp [Diffuse.mulCol, t2, r2]⟩

theorem target_ok {a b : ℝ} {g : List ℝ} (hg : IsGrid a b g) {ch : Channel} (hf : ch.inst.force ≠ none) (hq : Onto a b ch.inst.qe) (ht : Onto a b ch.inst.tr)
    {sed : Rebin.Signal ℝ} (hs1 : sed.wl = g) (hs2 : sed.data.length = g.length) {sky : Option (Rebin.Signal ℝ)}
    (hsky : ∀ t, sky = some t → t.wl = g ∧ t.data.length = g.length) (hpx : ch.spectrometer = true → PixelsOk g ch.inst) :
    ∃ out, channelTarget ch sed sky = .ok out := by
  obtain ⟨eff, e1, q1, t1⟩ := efficiency_ok hg hf hq ht hsky
  have hfe : ∃ tr win, Instrument.forceEdge ch.inst g eff.tr = .ok (tr, win) ∧ tr.length = g.length := by
    obtain ⟨f, hf⟩ := Option.ne_none_iff_exists'.mp hf
    unfold Instrument.forceEdge
    simp only [hf]
    cases f with
    | false => exact ⟨_, _, rfl, t1⟩
    | true => exact ⟨_, _, rfl, by simp [Instrument.zeroOut, t1]⟩
  obtain ⟨tr, win, e2, t2⟩ := hfe
  unfold channelTarget
  cases hk : ch.spectrometer with
  | false =>
    unfold Instrument.photometerTarget
    simp only [Bool.false_eq_true, if_false, hs1, e1, e2]
    exact ⟨_, rfl⟩
  | true =>
    have hp := hpx hk
    obtain ⟨p, hp1, q, hq1, hpq, x, hx, y, hy, h9, h11⟩ := hp.around
    have hlen : ((Instrument.density ch.inst g eff.qe sed.data tr).map (fun v => ch.inst.atel * v)).length = g.length := by
      simp [Instrument.density, Diffuse.mulCol, q1, hs2, t2]
    obtain ⟨r, hr⟩ := rebin_works (s := ⟨g, (Instrument.density ch.inst g eff.qe sed.data tr).map (fun v => ch.inst.atel * v)⟩) hlen hg.sorted hp.distinct hp.two hp1 hq1 hpq hx hy h9 h11
    obtain ⟨w1, w2⟩ := Rebin.spectralRebin_wellFormed _ _ _ hp.distinct hr
    have w3 : r.data.length = ch.inst.wlPix.length := by rw [w1, w2]
    obtain ⟨m, hm⟩ := pixelMaxima_ok (wlPix := ch.inst.wlPix) (v := Diffuse.mulCol (Diffuse.mulCol r.data ch.inst.dwlPix) (ch.inst.wlPix.map ch.inst.gain))
      (by simp [Diffuse.mulCol, w3, hp.width]) hp.bins
    unfold Instrument.spectrometerTarget
    simp only [if_true, hs1, e1, e2]
    unfold Instrument.spectrometerMaxima
    simp only [hr, hm]
    exact ⟨_, rfl⟩

/-! ## Built channels -/

theorem buildPath_parts {env : Env} {c : Common} {d : Descr} {st : Stage} {b : Built} (h : buildPath env c d st = .ok b) :
    ∃ els total trCol tr rads slit, pathElements env c d = .ok els ∧ Instrument.getTransmission (chanOf env c d st ⟨[], []⟩) (workGrid env d) total = .ok (trCol, tr) ∧
      Optics.chain env.B (workGrid env d) els [] none = .ok (rads, slit) ∧
      b.ch = ⟨isSpectrometer d.kind, chanOf env c d st tr, diffuseOf env d st slit, d.noise, c.customNoise⟩ := by
  unfold buildPath at h
  cases h1 : pathElements env c d with
  | error e => simp [h1] at h
  | ok els =>
    simp only [h1] at h
    cases h2 : (Optics.transmissionTable (workGrid env d) els).getE "total" with
    | error e => simp [h2] at h
    | ok total =>
      simp only [h2] at h
      cases h3 : Instrument.getTransmission (chanOf env c d st ⟨[], []⟩) (workGrid env d) total with
      | error e => simp [h3] at h
      | ok x =>
        obtain ⟨trCol, tr⟩ := x
        simp only [h3] at h
        cases h4 : Optics.chain env.B (workGrid env d) els [] none with
        | error e => simp [h4] at h
        | ok y =>
          obtain ⟨rads, slit⟩ := y
          simp only [h4] at h
          cases h5 : pathSignal env d st rads slit with
          | error e => simp [h5] at h
          | ok s =>
            simp only [h5] at h
            cases h6 : Contrib.chanTable ((stageTable d.noise.value st).set "TR" (colN trCol)) s with
            | error e => simp [h6] at h
            | ok t =>
              simp only [h6, Except.ok.injEq] at h
              subst h
              exact ⟨els, total, trCol, tr, rads, slit, rfl, h3, h4, rfl⟩

/-- The quantum efficiency of a channel within the range can be sampled on the payload's grid. -/
theorem qe_onto {env : Env} (he : SoundEnv env) {d : Descr} (hd : SoundDescr env d) (hq : QeThere d) {a b : ℝ} (ha : 0 < a) (h1 : a ≤ d.detWlMin) (h2 : d.cutOff ≤ b)
    {qe : Rebin.Signal ℝ} (h : getQe env d = .ok qe) : Onto a b qe := by
  obtain ⟨g1, g2, g3⟩ := grid_sound he hd
  obtain ⟨k1, k2⟩ := grid_ends he hd
  have d1 := hd.detector.1
  have d2 := hd.detector.2
  unfold getQe at h
  unfold QeThere at hq
  cases hqe : d.qe with
  | constant v =>
    simp only [hqe, Except.ok.injEq] at h
    subst h
    exact ⟨by simp [Instrument.constantQe], g1, _, k1, _, k2, d2, by linarith, by linarith⟩
  | data t =>
    simp only [hqe] at hq h
    obtain ⟨c, wl, v, hc, hw, hv, hl, hs, p, hp, q, hq', hpq, h9, h11⟩ := hq
    have hcol : Misc.getWlColName t.keys none = .ok (some c) := by
      simp only [Misc.getWlColName, List.foldl_cons, List.foldl_nil, Except.ok.injEq]
      have hck : c ∈ t.keys := Dict.mem_keys_of_get? hw
      rcases hc with rfl | ⟨rfl, hn⟩
      · rw [if_pos hck]
      · rw [if_neg hn, if_pos hck]
    have e1 : t.getE c = .ok wl := by unfold Dict.getE; rw [hw]
    have e2 : t.getE d.noise.value = .ok v := by unfold Dict.getE; rw [hv]
    have e3 : Rebin.Signal.mk? wl v = .ok ⟨wl, v⟩ := (Rebin.mk?_ok wl v ⟨wl, v⟩).mpr ⟨rfl, hl⟩
    simp only [hcol, e1, e2, e3, Except.ok.injEq] at h
    subst h
    exact ⟨hl, hs, p, hp, q, hq', hpq, by linarith, by linarith⟩

/-- The light of the sky and of a star, both on the payload's grid, reaches a channel that was built from a complete description within the payload's range. -/
theorem light_reaches {fuel : ℕ} {env : Env} (he : SoundEnv env) {c : Common} {d : Descr} (hd : SoundDescr env d)
    (hcp : Complete env c d) {a b : ℝ} {n : ℕ} (ha : 0 < a) (hab : a < b) (hn : 2 ≤ n) (hw : Within a b n d) {x : Built}
    (hb : build fuel env c false d = some (.ok x)) {names : List String} {sky : Foreground.Sky ℝ} (hsky : OnSky (Instrument.logspace a b n) names sky) (hfg : sky.foreground.isSome = true)
    {sed : Rebin.Signal ℝ} (hs1 : sed.wl = Instrument.logspace a b n) (hs2 : sed.data.length = (Instrument.logspace a b n).length)
    (hnames : ∀ k ∈ names, substr "_noise" k = false) :
    ∃ fg out, channelForeground sky x.ch = .ok fg ∧ channelTarget x.ch sed sky.transmission = .ok out ∧ ∀ k ∈ fg.keys, ¬ NoiseName k := by
  have hg := logspace_isGrid ha hab hn
  obtain ⟨_, st, hst, hp⟩ := build_inv hb
  obtain ⟨els, total, trCol, tr, rads, slit, hels, htr, hch, hx⟩ := buildPath_parts hp
  obtain ⟨hqe, hspec⟩ := builder_inv hst
  obtain ⟨m, hsound⟩ := builder_sound he hd hst
  have hq := qe_onto he hd hcp.qe ha hw.lower hw.upper hqe
  obtain ⟨tr1, tr2⟩ := getTransmission_lengths htr
  obtain ⟨g1, g2, g3⟩ := grid_sound he hd
  obtain ⟨k1, k2⟩ := grid_ends he hd
  have ht : Onto a b tr := by
    have l1 := hw.lower
    have l2 := hw.upper
    have l3 := hd.detector.1
    have l4 := hd.detector.2
    refine ⟨by rw [tr1, tr2], by rw [tr1]; exact g1, d.detWlMin, by rw [tr1]; exact k1, d.cutOff, by rw [tr1]; exact k2, l4, by linarith, by linarith⟩
  obtain ⟨els', hels', hfrom⟩ := pathElements_ok he hcp.optics hcp.readable
  rw [hels] at hels'
  cases hels'
  -- the pixels of a spectrometer
  have hpix : ∀ s, d.kind = .spectrometer s → ∃ sol e, s.solution = some sol ∧ st.px = Instrument.pixelGrid sol d.wlMin d.wlMax d.deltaPix ∧
      wavelengthTable fuel d s.targetR st.px = some (.ok (st.bins, e)) ∧ PixelsOk (Instrument.logspace a b n) (chanOf env c d st tr) := by
    intro s hk
    obtain ⟨sol, e, hsol, hpx, hwt⟩ := hspec s hk
    obtain ⟨f1, f2, f3⟩ := hw.pixels s hk sol hsol
    have hk' := hd.kind
    rw [hk] at hk'
    refine ⟨sol, e, hsol, hpx, hwt, ?_⟩
    constructor
    · show (0 : ℝ) ∉ Rebin.diffs st.px.wl
      rw [hpx]; exact pixels_distinct (hk'.solution sol hsol) hd.deltaPix
    · show 2 ≤ st.px.wl.length
      rw [hpx]; exact f1
    · show st.px.bandwidth.length = st.px.wl.length
      rw [hpx]; simp [Instrument.pixelGrid]
    · show ∀ r ∈ st.bins.left.zip st.bins.right, ∃ y ∈ st.px.wl, r.1 < y ∧ y < r.2
      rw [hpx] at hwt ⊢
      exact f2 fuel st.bins e hwt
    · show ∃ p ∈ _, ∃ q ∈ _, p < q ∧ ∃ x ∈ st.px.wl, ∃ y ∈ st.px.wl, 9 / 10 * x < p ∧ q < 11 / 10 * y
      rw [hpx]; exact f3
  -- a slit
  have hslit : ∀ w, slit = some w → ∀ (qe : Rebin.Signal ℝ) (data : List ℝ), data.length = (Instrument.logspace a b n).length →
      ∃ r, Diffuse.convolveWithSlit (diffuseOf env d st slit) w qe ⟨Instrument.logspace a b n, data⟩ = .ok r := by
    intro w hsw qe data hdata
    have hel : ∃ e ∈ opticsOf c d, e.type = "slit" ∧ e.width = some w := by
      rcases (Optics.chain_slit_width env.B (workGrid env d) els [] rads none slit hch).2 with h | ⟨q, hq, h1, h2⟩
      · rw [h] at hsw; cases hsw
      · obtain ⟨e, he', e1, e2⟩ := (hfrom q hq).slit h1
        exact ⟨e, he', e1, by rw [← e2, ← h2, hsw]⟩
    obtain ⟨e, he', e1, e2⟩ := hel
    have hk := hcp.kind
    have hk' := hd.kind
    revert hk hk' hspec hsound hpix
    cases hkd : d.kind with
    | photometer ap => intro _ _ _ hk; exact absurd e1 (hk.2 e he')
    | spectrometer s =>
      intro _ hsound hpix hk hk'
      obtain ⟨sol, ed, hsol, hpx, hwt, hok⟩ := hpix s rfl
      obtain ⟨w', hw', hfit⟩ := hk.2.2 e he' e1
      rw [e2] at hw'
      cases hw'
      rw [hsw]
      exact slit_ok_on hd hk'.solution hsound hsol hpx hwt hfit hg.sorted hok.around qe hdata
  obtain ⟨fs, hfs⟩ := Option.isSome_iff_exists.mp hfg
  obtain ⟨o, ho, hko⟩ := propagateLoop_ok hg (ch := diffuseOf env d st slit) (fun w hsw => hslit w hsw) (names := names) (fs := fs.reverse) (qe := st.qe) (tr := tr) (out := [])
    (fun kf hkf => hsky.fg kf (by rw [hfs]; simpa using hkf)) hq ht (by simp [Dict.keys])
  have hforce : x.ch.inst.force ≠ none := by rw [hx]; exact hcp.force
  obtain ⟨out, hout⟩ := target_ok hg (ch := x.ch) hforce (by rw [hx]; exact hq) (by rw [hx]; exact ht) hs1 hs2 (sky := sky.transmission) hsky.tr (by
    intro hsp
    rw [hx] at hsp ⊢
    cases hkd : d.kind with
    | photometer ap => rw [hkd] at hsp; simp [isSpectrometer] at hsp
    | spectrometer s => exact (hpix s hkd).choose_spec.choose_spec.2.2.2)
  refine ⟨foregroundTable o, out, ?_, hout, ?_⟩
  · unfold channelForeground Foreground.propagate
    rw [hx]
    simp only [hfs]
    have e : (chanOf env c d st tr).qe = st.qe := rfl
    have e' : (chanOf env c d st tr).tr = tr := rfl
    rw [e, e', ho]
  · intro k hk
    have : k ∈ o.keys := by
      simpa [foregroundTable, Dict.keys] using hk
    obtain ⟨nm, hnm, h | h⟩ := hko k this
    · rw [h]; exact (signal_not_noise (hnames nm hnm)).1
    · rw [h]; exact (signal_not_noise (hnames nm hnm)).2

end ExoRad.Build
