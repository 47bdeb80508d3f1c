import Verif.Props.Instrument

/-! # C37, C38, C40: the light of a target through a channel -/

set_option linter.unusedSectionVars false
set_option linter.unusedVariables false

namespace ExoRad.Instrument

open ExoRad.Diffuse

variable {α : Type} [Field α] [LinearOrder α] [IsStrictOrderedRing α]

/-! ## Sums over bins -/

theorem trapz_congr (x : List α) {f g : List α} (h : f = g) : trapz x f = trapz x g := by rw [h]

/-- The part of a curve with wavelength in `[lo, hi)`. -/
def clip (wl y : List α) (lo hi : α) : List α := mulCol y (windowRow wl lo hi)

theorem clip_length (wl y : List α) (lo hi : α) (h : y.length = wl.length) : (clip wl y lo hi).length = wl.length := by
  simp [clip, mulCol, windowRow, h]

theorem windowRow_getD (wl : List α) (lo hi : α) (i : Nat) (hi' : i < wl.length) :
    (windowRow wl lo hi).getD i 0 = if lo ≤ wl.getD i 0 ∧ wl.getD i 0 < hi then 1 else 0 := by
  simp [windowRow, List.getD_eq_getElem?_getD, List.getElem?_eq_getElem hi']

theorem clip_getD (wl y : List α) (lo hi : α) (h : y.length = wl.length) (i : Nat) (hi' : i < wl.length) :
    (clip wl y lo hi).getD i 0 = if lo ≤ wl.getD i 0 ∧ wl.getD i 0 < hi then y.getD i 0 else 0 := by
  unfold clip mulCol
  rw [getD_zipWith _ (by simp) _ _ (by simp [windowRow, h]), windowRow_getD wl lo hi i hi']
  split <;> simp

theorem clip_add (wl y : List α) (a b c : α) (hab : a ≤ b) (hbc : b ≤ c) (h : y.length = wl.length) :
    trapz wl (clip wl y a b) + trapz wl (clip wl y b c) = trapz wl (clip wl y a c) := by
  have := trapz_linear 1 1 wl (clip wl y a b) (clip wl y b c) (by rw [clip_length _ _ _ _ h, clip_length _ _ _ _ h])
  simp only [one_mul] at this
  rw [← this]
  apply trapz_congr
  apply ext_getD
  · simp [linCol, clip_length _ _ _ _ h]
  · intro i hi
    have hi' : i < wl.length := by simpa [linCol, clip_length _ _ _ _ h] using hi
    unfold linCol
    rw [getD_zipWith (fun u v => 1 * u + 1 * v) (by simp) _ _ (by rw [clip_length _ _ _ _ h, clip_length _ _ _ _ h]),
      clip_getD _ _ _ _ h i hi', clip_getD _ _ _ _ h i hi', clip_getD _ _ _ _ h i hi']
    simp only [one_mul]
    by_cases hx : wl.getD i 0 < b
    · have h1 : ¬ (b ≤ wl.getD i 0 ∧ wl.getD i 0 < c) := fun h => not_lt.mpr h.1 hx
      have h2 : wl.getD i 0 < c := hx.trans_le hbc
      rw [if_neg h1, add_zero]
      by_cases hy : a ≤ wl.getD i 0
      · rw [if_pos ⟨hy, hx⟩, if_pos ⟨hy, h2⟩]
      · rw [if_neg (fun h => hy h.1), if_neg (fun h => hy h.1)]
    · have hy := not_lt.mp hx
      rw [if_neg (fun h => hx h.2), zero_add]
      by_cases hz : wl.getD i 0 < c
      · rw [if_pos ⟨hy, hz⟩, if_pos ⟨hab.trans hy, hz⟩]
      · rw [if_neg (fun h => hz h.2), if_neg (fun h => hz h.2)]

theorem clip_empty (wl y : List α) (a : α) (h : y.length = wl.length) : trapz wl (clip wl y a a) = 0 := by
  have : clip wl y a a = wl.map (fun _ => (0 : α)) := by
    apply ext_getD
    · simp [clip_length _ _ _ _ h]
    · intro i hi
      rw [clip_length _ _ _ _ h] at hi
      rw [clip_getD _ _ _ _ h i hi, if_neg (fun h => absurd h.2 (not_lt.mpr h.1))]
      rw [List.getD_eq_getElem?_getD, List.getElem?_map, List.getElem?_eq_getElem hi]
      rfl
  rw [this, trapz_zero]

/-- C38: the bins of a channel together integrate what one bin from the first edge to the last does. -/
theorem bin_integrals_total (e : List α) (he : e.Pairwise (· < ·)) (h2 : 2 ≤ e.length) (wl y : List α)
    (h : y.length = wl.length) :
    (binIntegrals (binsOfEdges e) wl y).sum = trapz wl (clip wl y (e.getD 0 0) (e.getD (e.length - 1) 0)) := by
  obtain ⟨hl, hr, -⟩ := bins_of_edges e
  unfold binIntegrals
  rw [hl, hr]
  change (List.zipWith (fun lo hi => trapz wl (clip wl y lo hi)) e.dropLast e.tail).sum = _
  have key : ∀ (a : α) (l : List α), (a :: l).Pairwise (· < ·) →
      (List.zipWith (fun lo hi => trapz wl (clip wl y lo hi)) (a :: l).dropLast (a :: l).tail).sum =
        trapz wl (clip wl y a ((a :: l).getD l.length 0)) := by
    intro a l
    induction l generalizing a with
    | nil => intro _; simp [clip_empty wl y a h]
    | cons b l ih =>
      intro hp
      have hp' := (List.pairwise_cons.mp hp).2
      have hab := (List.pairwise_cons.mp hp).1 b (by simp)
      have hb := ih b hp'
      simp only [List.tail_cons] at hb
      simp only [List.dropLast_cons_cons, List.tail_cons, List.zipWith_cons_cons, List.sum_cons, hb]
      have hlast : b ≤ (b :: l).getD l.length 0 := by
        have := getD_mono_le hp' (Nat.zero_le l.length) (by simp)
        simpa using this
      rw [clip_add wl y a b _ hab.le hlast h]
      simp
  rcases e with _ | ⟨a, l⟩
  · simp at h2
  · simpa using key a l he

/-- C38, fixed R: band total = sum over the bins. -/
theorem fixed_R_total (wlMin wlMax R : ℝ) (h0 : 0 < wlMin) (h1 : wlMin < wlMax) (hR : 0 < R) (wl y : List ℝ)
    (h : y.length = wl.length) :
    (binIntegrals (binsOfEdges (fixedREdges wlMin wlMax R)) wl y).sum =
      trapz wl (clip wl y wlMin ((fixedREdges wlMin wlMax R).getD ((fixedREdges wlMin wlMax R).length - 1) 0)) := by
  obtain ⟨h2, hs, -, hp, -⟩ := fixed_R_edges wlMin wlMax R h0 h1 hR
  rw [bin_integrals_total _ hp h2 wl y h, hs]

/-! ## C37 out-of-band light -/

/-- Two spectra on one wavelength grid that agree within a band. -/
structure AgreeInBand (lo hi : α) (wl f g : List α) : Prop where
  length : f.length = g.length
  agree : ∀ i, i < wl.length → lo ≤ wl.getD i 0 → wl.getD i 0 ≤ hi → f.getD i 0 = g.getD i 0

theorem zeroOut_getD (lo hi : α) (wl d : List α) (i : Nat) (h1 : i < wl.length) (h2 : i < d.length) :
    (zeroOut lo hi wl d).getD i 0 = if lo ≤ wl.getD i 0 ∧ wl.getD i 0 ≤ hi then d.getD i 0 else 0 := by
  simp only [zeroOut, List.getD_eq_getElem?_getD, List.getElem?_zipWith, List.getElem?_eq_getElem h1,
    List.getElem?_eq_getElem h2, Option.getD_some, outOfBand]
  by_cases ha : wl[i] < lo
  · simp [ha]
  · by_cases hb : hi < wl[i]
    · simp [hb]
    · simp [ha, hb, not_lt.mp ha, not_lt.mp hb]

theorem zipWith_getD_min (f : α → α → α) (a b : List α) (i : Nat) (h1 : i < a.length) (h2 : i < b.length) :
    (List.zipWith f a b).getD i 0 = f (a.getD i 0) (b.getD i 0) := by
  simp [List.getD_eq_getElem?_getD, List.getElem?_zipWith, List.getElem?_eq_getElem h1, List.getElem?_eq_getElem h2]

theorem mul_zeroOut_congr (lo hi : α) (wl d f g : List α) (h : AgreeInBand lo hi wl f g) :
    mulCol (zeroOut lo hi wl d) f = mulCol (zeroOut lo hi wl d) g := by
  unfold mulCol
  apply ext_getD
  · simp [h.length]
  · intro i hi'
    simp only [zeroOut, List.length_zipWith] at hi'
    have a : i < wl.length := by omega
    have b : i < d.length := by omega
    have c : i < f.length := by omega
    have c' : i < g.length := by rw [← h.length]; exact c
    have z : i < (zeroOut lo hi wl d).length := by simp [zeroOut]; omega
    rw [zipWith_getD_min _ _ _ _ z c, zipWith_getD_min _ _ _ _ z c', zeroOut_getD _ _ _ _ _ a b]
    split
    · rename_i hb
      rw [h.agree i a hb.1 hb.2]
    · simp

theorem mulCol_comm (a b : List α) : mulCol a b = mulCol b a := by
  unfold mulCol
  rw [List.zipWith_comm]
  congr 1
  funext x y
  exact mul_comm y x

theorem mulCol_assoc : ∀ a b c : List α, mulCol (mulCol a b) c = mulCol a (mulCol b c)
  | [], b, c => by simp [mulCol]
  | _ :: _, [], c => by simp [mulCol]
  | _ :: _, _ :: _, [] => by simp [mulCol]
  | x :: a, y :: b, z :: c => by
    have := mulCol_assoc a b c
    simp only [mulCol, List.zipWith_cons_cons] at this ⊢
    rw [this, mul_assoc]

theorem density_congr (ch : Chan α) (lo hi : α) (wl qe t f g : List α) (h : AgreeInBand lo hi wl f g) :
    density ch wl qe f (zeroOut lo hi wl t) = density ch wl qe g (zeroOut lo hi wl t) := by
  unfold density
  rw [mulCol_assoc qe f, mulCol_assoc qe g, mulCol_comm f, mulCol_comm g, mul_zeroOut_congr lo hi wl t f g h]

/-- C37, photometer: with forced band edges the light of the target outside `[wl_min, wl_max]` changes nothing. -/
theorem photometer_out_of_band (ch : Chan α) (hf : ch.force = some true) (wl f g : List α)
    (h : AgreeInBand ch.wlMin ch.wlMax wl f g) (sky : Option (Rebin.Signal α)) (old : Option (List (Option α))) :
    photometerTarget ch ⟨wl, f⟩ sky old = photometerTarget ch ⟨wl, g⟩ sky old := by
  unfold photometerTarget
  simp only
  cases getEfficiency ch wl sky old with
  | error e => rfl
  | ok eff =>
    simp only [forceEdge, hf]
    rw [mul_zeroOut_congr _ _ _ _ f g h, density_congr ch _ _ wl eff.qe eff.tr f g h]

/-- C37, spectrometer: with forced band edges the light of the target outside `[wl_min, wl_max]` changes nothing, not
even the maximum in a pixel. -/
theorem spectrometer_out_of_band (ch : Chan α) (hf : ch.force = some true) (wl f g : List α)
    (h : AgreeInBand ch.wlMin ch.wlMax wl f g) (sky : Option (Rebin.Signal α)) (old : Option (List (Option α))) :
    spectrometerTarget ch ⟨wl, f⟩ sky old = spectrometerTarget ch ⟨wl, g⟩ sky old := by
  unfold spectrometerTarget
  simp only
  cases getEfficiency ch wl sky old with
  | error e => rfl
  | ok eff =>
    simp only [forceEdge, hf]
    rw [mul_zeroOut_congr _ _ _ _ f g h, density_congr ch _ _ wl eff.qe eff.tr f g h]

/-- A photometer for 2-4 micron whose optics transmit 1/2 everywhere. -/
def demoPhot (force : Option Bool) : Chan ℚ :=
  { wlMin := 2, wlMax := 4, force := force, bins := photometerBins 2 4, atel := 2, perPhoton := 1
    qe := ⟨[1, 3, 5], [1, 1, 1]⟩, tr := ⟨[1, 3, 5], [1 / 2, 1 / 2, 1 / 2]⟩, apertureCorrection := none, enE := some (9 / 10)
    prfMax := 1 / 4, wlPix := [], dwlPix := [], gain := fun _ => 0 }

/-- The columns starFlux, starSignal, star_signal_inAperture, star_MaxSignal_inPixel. -/
def runPhot (force : Option Bool) (sed : List ℚ) : Option (List (List ℚ)) :=
  match photometerTarget (demoPhot force) ⟨[1, 2, 3, 4, 5], sed⟩ none none with
  | .ok o => some [o.starFlux, o.starSignal, o.inAperture, o.maxInPixel]
  | .error _ => none

/-- Without forced edges the flux counts light out of the band. -/
theorem unforced_flux : runPhot (some false) [0, 1, 1, 1, 0] ≠ runPhot (some false) [7, 1, 1, 1, 0] := by
  decide +kernel

/-- The forced photometer on two different spectra that agree in band. -/
theorem demo_out_of_band : runPhot (some true) [0, 1, 1, 1, 0] = runPhot (some true) [7, 1, 1, 1, 9] ∧
    runPhot (some true) [0, 1, 1, 1, 0] ≠ none := by
  decide +kernel

/-! ## What a channel detects -/

/-- A curve given by its value at every sample of a grid of `n` points. -/
def sampled (n : Nat) (f : Nat → α) : List α := (List.range n).map f

theorem eq_sampled {l : List α} {n : Nat} {f : Nat → α} (hl : l.length = n) (h : ∀ i < n, l.getD i 0 = f i) : l = sampled n f := by
  apply ext_getD
  · simp [sampled, hl]
  · intro i hi
    rw [h i (hl ▸ hi)]
    simp [sampled, List.getD_eq_getElem?_getD, List.getElem?_range (hl ▸ hi)]

/-- The wavelengths a channel looks at. -/
def Chan.InBand (ch : Chan α) (w : α) : Prop := ch.force = some false ∨ (ch.wlMin ≤ w ∧ w ≤ ch.wlMax)

instance (ch : Chan α) (w : α) : Decidable (ch.InBand w) := by unfold Chan.InBand; infer_instance

theorem forceEdge_spec (ch : Chan α) (wl tr : List α) (h : tr.length = wl.length) (b : Bool) (hf : ch.force = some b) :
    forceEdge ch wl tr = .ok (sampled wl.length (fun i => if ch.InBand (wl.getD i 0) then tr.getD i 0 else 0),
      sampled wl.length (fun i => if ch.InBand (wl.getD i 0) then 1 else 0)) := by
  have hone : ∀ i < wl.length, (wl.map (fun _ => (1 : α))).getD i 0 = 1 := by
    intro i hi
    rw [List.getD_eq_getElem?_getD, List.getElem?_map, List.getElem?_eq_getElem hi]
    rfl
  unfold forceEdge
  rw [hf]
  cases b with
  | false =>
    simp only [Except.ok.injEq, Prod.mk.injEq]
    refine ⟨eq_sampled h (fun i hi => ?_), eq_sampled (by simp) (fun i hi => ?_)⟩
    · rw [if_pos (show ch.InBand _ from Or.inl hf)]
    · rw [if_pos (show ch.InBand _ from Or.inl hf), hone i hi]
  | true =>
    have hb : ∀ w, ch.InBand w ↔ ch.wlMin ≤ w ∧ w ≤ ch.wlMax := by intro w; simp [Chan.InBand, hf]
    simp only [Except.ok.injEq, Prod.mk.injEq]
    refine ⟨eq_sampled (by simp [zeroOut, h]) (fun i hi => ?_), eq_sampled (by simp [zeroOut]) (fun i hi => ?_)⟩
    · rw [zeroOut_getD _ _ _ _ _ hi (by omega)]
      simp only [hb]
    · rw [zeroOut_getD _ _ _ _ _ hi (by simpa using hi), hone i hi]
      simp only [hb]

theorem sampled_getD (n : Nat) (f : Nat → α) (i : Nat) (h : i < n) : (sampled n f).getD i 0 = f i := by
  simp [sampled, List.getD_eq_getElem?_getD, List.getElem?_range h]

theorem sampled_length (n : Nat) (f : Nat → α) : (sampled n f).length = n := by simp [sampled]

/-- Photons detected per wavelength at sample `i`, for a telescope of unit area. -/
def Chan.photons (ch : Chan α) (wl sed : List α) (eff : Efficiency α) (i : Nat) : α :=
  if ch.InBand (wl.getD i 0) then
    eff.qe.getD i 0 * eff.tr.getD i 0 * sed.getD i 0 * (wl.getD i 0 * ch.perPhoton) else 0

theorem density_spec (ch : Chan α) (wl sed : List α) (eff : Efficiency α) (hs : sed.length = wl.length)
    (hq : eff.qe.length = wl.length) (tr : List α)
    (ht : tr = sampled wl.length (fun i => if ch.InBand (wl.getD i 0) then eff.tr.getD i 0 else 0)) :
    density ch wl eff.qe sed tr = sampled wl.length (ch.photons wl sed eff) := by
  subst ht
  apply eq_sampled
  · simp [density, mulCol, hs, hq, sampled_length]
  · intro i hi
    unfold density mulCol
    rw [zipWith_getD_min _ _ _ _ (by simp [hs, hq, sampled_length]; exact hi) (by simpa using hi),
      zipWith_getD_min _ _ _ _ (by simp [hs, hq]; exact hi) (by rw [sampled_length]; exact hi),
      zipWith_getD_min _ _ _ _ (by omega) (by omega), sampled_getD _ _ _ hi]
    have : (wl.map (fun w => w * ch.perPhoton)).getD i 0 = wl.getD i 0 * ch.perPhoton := by
      simp [List.getD_eq_getElem?_getD, List.getElem?_eq_getElem hi]
    rw [this]
    unfold Chan.photons
    split
    · ring
    · simp

/-- C40 and the photometric equation: flux = integral of the spectrum over the band; signal = telescope area times the
integral of the detected photons; the signal in the aperture is the aperture correction if there is one, else the
encircled energy if there is one, else 1, times that; the brightest pixel gets the maximum of the response. -/
theorem photometer_target (ch : Chan α) (wl sed : List α) (sky : Option (Rebin.Signal α)) (old : Option (List (Option α)))
    (eff : Efficiency α) (he : getEfficiency ch wl sky old = .ok eff) (hs : sed.length = wl.length)
    (hq : eff.qe.length = wl.length) (ht : eff.tr.length = wl.length) (b : Bool) (hf : ch.force = some b) :
    ∃ o, photometerTarget ch ⟨wl, sed⟩ sky old = .ok o ∧
      o.foregroundTransmission = eff.skyTR ∧
      o.starFlux = [trapz wl (sampled wl.length (fun i => if ch.InBand (wl.getD i 0) then sed.getD i 0 else 0))] ∧
      o.starSignal = [ch.atel * trapz wl (sampled wl.length (ch.photons wl sed eff))] ∧
      (∀ c, ch.apertureCorrection = some c → o.inAperture = o.starSignal.map (fun s => s * c)) ∧
      (∀ c, ch.apertureCorrection = none → ch.enE = some c → o.inAperture = o.starSignal.map (fun s => s * c)) ∧
      (ch.apertureCorrection = none → ch.enE = none → o.inAperture = o.starSignal) ∧
      o.maxInPixel = o.starSignal.map (fun s => ch.prfMax * s) := by
  unfold photometerTarget
  simp only [he, forceEdge_spec ch wl eff.tr ht b hf]
  refine ⟨_, rfl, rfl, ?_, ?_, ?_, ?_, ?_, rfl⟩
  · simp only [List.cons.injEq, and_true]
    apply trapz_congr
    apply eq_sampled
    · simp [mulCol, sampled_length, hs]
    · intro i hi
      unfold mulCol
      rw [zipWith_getD_min _ _ _ _ (by rw [sampled_length]; exact hi) (by omega), sampled_getD _ _ _ hi]
      split <;> simp
  · rw [density_spec ch wl sed eff hs hq _ rfl]
  · intro c hc; simp [apertureFactor, hc]
  · intro c hc he; simp [apertureFactor, hc, he]
  · intro hc he; simp [apertureFactor, hc, he]

/-- Without the key `ForceChannelWlEdge` no target can be observed. -/
theorem force_missing (ch : Chan α) (hf : ch.force = none) (sed : Rebin.Signal α) (sky : Option (Rebin.Signal α))
    (old : Option (List (Option α))) :
    (∀ o, photometerTarget ch sed sky old ≠ .ok o) ∧ (∀ o, spectrometerTarget ch sed sky old ≠ .ok o) := by
  constructor
  · intro o h
    unfold photometerTarget at h
    simp only [forceEdge, hf] at h
    split at h <;> cases h
  · intro o h
    unfold spectrometerTarget at h
    simp only [forceEdge, hf] at h
    split at h <;> cases h

/-- The efficiency of a channel: rebinned quantum efficiency, and rebinned transmission of the optics times, if the
sky has one, its transmission. The `sky TR` column stays as it was when the target has no sky transmission. -/
theorem efficiency (ch : Chan α) (wl : List α) (q t : Rebin.Signal α) (old : Option (List (Option α)))
    (hq : ch.qe.spectralRebin wl = .ok q) (ht : ch.tr.spectralRebin wl = .ok t) :
    getEfficiency ch wl none old = .ok ⟨q.data, t.data, old⟩ ∧
    ∀ sky col s s', getTransmission ch sky.wl sky.data = .ok (col, s) → s.spectralRebin wl = .ok s' →
      getEfficiency ch wl (some sky) old = .ok ⟨q.data, mulCol t.data s'.data, some col⟩ := by
  constructor
  · simp [getEfficiency, hq, ht, withSky]
  · intro sky col s s' h1 h2
    simp [getEfficiency, hq, ht, withSky, h1, h2]

/-- C38 and the spectrometric equation: in every bin `[left, right)` the flux is the integral of the spectrum and the
signal the integral of the detected photons times the telescope area; all of it is in the aperture. -/
theorem spectrometer_target (ch : Chan α) (wl sed : List α) (sky : Option (Rebin.Signal α)) (old : Option (List (Option α)))
    (eff : Efficiency α) (he : getEfficiency ch wl sky old = .ok eff) (hs : sed.length = wl.length)
    (hq : eff.qe.length = wl.length) (ht : eff.tr.length = wl.length) (b : Bool) (hf : ch.force = some b)
    (o : TargetOut α) (h : spectrometerTarget ch ⟨wl, sed⟩ sky old = .ok o) :
    o.foregroundTransmission = eff.skyTR ∧
    o.starFlux = List.zipWith (fun lo hi => trapz wl (clip wl
      (sampled wl.length (fun i => if ch.InBand (wl.getD i 0) then sed.getD i 0 else 0)) lo hi)) ch.bins.left ch.bins.right ∧
    o.starSignal = List.zipWith (fun lo hi => trapz wl (clip wl
      (sampled wl.length (fun i => ch.atel * ch.photons wl sed eff i)) lo hi)) ch.bins.left ch.bins.right ∧
    o.inAperture = o.starSignal ∧
    spectrometerMaxima ch wl (sampled wl.length (fun i => ch.atel * ch.photons wl sed eff i)) = .ok o.maxInPixel := by
  have hd : (density ch wl eff.qe sed (sampled wl.length (fun i => if ch.InBand (wl.getD i 0) then eff.tr.getD i 0 else 0))).map
      (fun v => ch.atel * v) = sampled wl.length (fun i => ch.atel * ch.photons wl sed eff i) := by
    rw [density_spec ch wl sed eff hs hq _ rfl]
    simp [sampled, Function.comp_def]
  unfold spectrometerTarget at h
  simp only [he, forceEdge_spec ch wl eff.tr ht b hf, hd] at h
  split at h
  · cases h
  rename_i m hm
  simp only [Except.ok.injEq] at h
  subst h
  refine ⟨rfl, ?_, rfl, rfl, hm⟩
  have hfl : mulCol (sampled wl.length (fun i => if ch.InBand (wl.getD i 0) then 1 else 0)) sed =
      sampled wl.length (fun i => if ch.InBand (wl.getD i 0) then sed.getD i 0 else 0) := by
    apply eq_sampled
    · simp [mulCol, sampled_length, hs]
    · intro i hi
      unfold mulCol
      rw [zipWith_getD_min _ _ _ _ (by rw [sampled_length]; exact hi) (by omega), sampled_getD _ _ _ hi]
      split <;> simp
  simp only [binIntegrals, hfl]
  rfl

/-! ### The brightest pixel of a bin -/

theorem pixelMaxima_spec (wlPix v : List α) : ∀ (bs : List (α × α)) (m : List α), pixelMaxima wlPix v bs = .ok m →
    List.Forall₂ (fun b x => (∃ p ∈ wlPix.zip v, b.1 < p.1 ∧ p.1 < b.2 ∧ p.2 = x) ∧
      ∀ p ∈ wlPix.zip v, b.1 < p.1 → p.1 < b.2 → p.2 ≤ x) bs m
  | [], m, h => by simp only [pixelMaxima, Except.ok.injEq] at h; subst h; exact .nil
  | (lo, hi) :: bs, m, h => by
    rw [pixelMaxima] at h
    split at h
    · cases h
    rename_i x hx
    split at h
    · cases h
    rename_i ms hms
    simp only [Except.ok.injEq] at h
    subst h
    refine .cons ?_ (pixelMaxima_spec wlPix v bs ms hms)
    obtain ⟨h1, h2⟩ := Rebin.maxE_spec hx
    simp only [List.mem_map, List.mem_filter, Bool.and_eq_true, decide_eq_true_eq] at h1
    constructor
    · obtain ⟨p, ⟨hp, a, b⟩, e⟩ := h1
      exact ⟨p, hp, a, b, e⟩
    · intro p hp a b
      apply h2
      simp only [List.mem_map, List.mem_filter, Bool.and_eq_true, decide_eq_true_eq]
      exact ⟨p, ⟨hp, a, b⟩, rfl⟩

/-- A bin without a pixel strictly within it makes the propagation fail with ValueError; otherwise it succeeds. -/
theorem pixelMaxima_ok (wlPix v : List α) (bs : List (α × α)) :
    (∃ m, pixelMaxima wlPix v bs = .ok m) ∧ (∀ b ∈ bs, ∃ p ∈ wlPix.zip v, b.1 < p.1 ∧ p.1 < b.2) ∨
    pixelMaxima wlPix v bs = .error .valueError ∧ ∃ b ∈ bs, ∀ p ∈ wlPix.zip v, ¬ (b.1 < p.1 ∧ p.1 < b.2) := by
  induction bs with
  | nil => left; exact ⟨⟨[], rfl⟩, by simp⟩
  | cons b bs ih =>
    obtain ⟨lo, hi⟩ := b
    rw [pixelMaxima]
    cases hx : Rebin.maxE (((wlPix.zip v).filter (fun p => decide (lo < p.1) && decide (p.1 < hi))).map Prod.snd) with
    | error e =>
      right
      obtain ⟨h1, h2⟩ := Rebin.maxE_error hx
      refine ⟨by simp [h2], (lo, hi), by simp, ?_⟩
      rw [List.map_eq_nil_iff, List.filter_eq_nil_iff] at h1
      intro p hp hc
      exact h1 p hp (by simp [hc])
    | ok x =>
      have hw : ∃ p ∈ wlPix.zip v, lo < p.1 ∧ p.1 < hi := by
        obtain ⟨h1, -⟩ := Rebin.maxE_spec hx
        simp only [List.mem_map, List.mem_filter, Bool.and_eq_true, decide_eq_true_eq] at h1
        obtain ⟨p, ⟨hp, a, b⟩, -⟩ := h1
        exact ⟨p, hp, a, b⟩
      rcases ih with ⟨⟨m, hm⟩, h⟩ | ⟨hm, b, hb, h⟩
      · left
        refine ⟨⟨x :: m, by simp [hm]⟩, ?_⟩
        intro b hb
        rcases List.mem_cons.mp hb with rfl | hb
        · exact hw
        · exact h b hb
      · right
        exact ⟨by simp [hm], b, by simp [hb], h⟩

/-- The brightest pixel: the largest, over the pixels strictly within the bin, of the photon density at the pixel times
its width and the gain of the PSF. -/
theorem brightest_pixel (ch : Chan α) (wl d : List α) (r : Rebin.Signal α)
    (hr : (Rebin.Signal.mk wl d).spectralRebin ch.wlPix = .ok r) (hl : r.data.length = ch.wlPix.length)
    (hd : ch.dwlPix.length = ch.wlPix.length) (hb : ch.bins.left.length = ch.bins.right.length) (m : List α)
    (h : spectrometerMaxima ch wl d = .ok m) :
    m.length = ch.bins.left.length ∧ ∀ b < ch.bins.left.length,
      (∃ i < ch.wlPix.length, ch.bins.left.getD b 0 < ch.wlPix.getD i 0 ∧ ch.wlPix.getD i 0 < ch.bins.right.getD b 0 ∧
        m.getD b 0 = r.data.getD i 0 * ch.dwlPix.getD i 0 * ch.gain (ch.wlPix.getD i 0)) ∧
      (∀ i < ch.wlPix.length, ch.bins.left.getD b 0 < ch.wlPix.getD i 0 → ch.wlPix.getD i 0 < ch.bins.right.getD b 0 →
        r.data.getD i 0 * ch.dwlPix.getD i 0 * ch.gain (ch.wlPix.getD i 0) ≤ m.getD b 0) := by
  unfold spectrometerMaxima at h
  rw [hr] at h
  have hf := pixelMaxima_spec _ _ _ _ h
  have hlen : m.length = ch.bins.left.length := by rw [← hf.length_eq]; simp [hb]
  set v := mulCol (mulCol r.data ch.dwlPix) (ch.wlPix.map ch.gain) with hv
  have hvl : v.length = ch.wlPix.length := by simp [hv, mulCol, hl, hd]
  have hvi : ∀ i < ch.wlPix.length, v.getD i 0 = r.data.getD i 0 * ch.dwlPix.getD i 0 * ch.gain (ch.wlPix.getD i 0) := by
    intro i hi
    rw [hv]
    unfold mulCol
    rw [zipWith_getD_min _ _ _ _ (by simp [hl, hd]; exact hi) (by simpa using hi), zipWith_getD_min _ _ _ _ (by omega) (by omega)]
    congr 1
    simp [List.getD_eq_getElem?_getD, List.getElem?_eq_getElem hi]
  have hzip : ∀ i (hi : i < ch.wlPix.length), (ch.wlPix.getD i 0, v.getD i 0) ∈ ch.wlPix.zip v := by
    intro i hi
    rw [List.mem_iff_getElem]
    refine ⟨i, by simp [hvl]; exact hi, ?_⟩
    simp [List.getElem_zip, List.getD_eq_getElem?_getD, List.getElem?_eq_getElem hi, List.getElem?_eq_getElem (hvl ▸ hi : i < v.length)]
  refine ⟨hlen, fun b hbl => ?_⟩
  have hz : b < (ch.bins.left.zip ch.bins.right).length := by simp [← hb]; exact hbl
  have := (List.forall₂_iff_get.mp hf).2 b hz (by omega)
  simp only [List.get_eq_getElem, List.getElem_zip] at this
  have el : ch.bins.left.getD b 0 = ch.bins.left[b] := by
    simp [List.getD_eq_getElem?_getD, List.getElem?_eq_getElem hbl]
  have er : ch.bins.right.getD b 0 = ch.bins.right[b]'(by omega) := by
    simp [List.getD_eq_getElem?_getD, List.getElem?_eq_getElem (hb ▸ hbl : b < ch.bins.right.length)]
  have em : m.getD b 0 = m[b]'(by omega) := by
    simp [List.getD_eq_getElem?_getD, List.getElem?_eq_getElem (hlen ▸ hbl : b < m.length)]
  rw [el, er, em]
  constructor
  · obtain ⟨p, hp, h1, h2, h3⟩ := this.1
    obtain ⟨i, hi, e⟩ := List.mem_iff_getElem.mp hp
    have hi' : i < ch.wlPix.length := by simp at hi; omega
    have e1 : ch.wlPix.getD i 0 = p.1 := by
      rw [← e]; simp [List.getElem_zip, List.getD_eq_getElem?_getD, List.getElem?_eq_getElem hi']
    have e2 : v.getD i 0 = p.2 := by
      rw [← e]; simp [List.getElem_zip, List.getD_eq_getElem?_getD, List.getElem?_eq_getElem (hvl ▸ hi' : i < v.length)]
    refine ⟨i, hi', by rw [e1]; exact h1, by rw [e1]; exact h2, ?_⟩
    rw [← hvi i hi', e2, h3]
  · intro i hi h1 h2
    rw [← hvi i hi]
    exact this.2 _ (hzip i hi) h1 h2

end ExoRad.Instrument
