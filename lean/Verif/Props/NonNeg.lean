import Verif.Props.Propagate
import Verif.Props.Foreground
import Verif.Props.Source

/-!
# Light is never negative: C73
-/

set_option linter.unusedSectionVars false

namespace ExoRad.Light
open Diffuse Instrument Foreground

variable {α : Type} [Field α] [LinearOrder α] [IsStrictOrderedRing α]

/-! ## Specification -/

/-- No number of the list is negative. -/
def All0 (l : List α) : Prop := ∀ v ∈ l, 0 ≤ v

/-- A built channel as the payload describes a real instrument: no efficiency, area, width or gain is negative. -/
structure GoodChan (ch : Chan α) : Prop where
  atel : 0 ≤ ch.atel
  perPhoton : 0 ≤ ch.perPhoton
  qe : All0 ch.qe.data
  tr : All0 ch.tr.data
  correction : ∀ v, ch.apertureCorrection = some v → 0 ≤ v
  enE : ∀ v, ch.enE = some v → 0 ≤ v
  prfMax : 0 ≤ ch.prfMax
  dwlPix : All0 ch.dwlPix
  gain : ∀ w ∈ ch.wlPix, 0 ≤ ch.gain w

/-- The same for diffuse light. -/
structure GoodDiffuse (ch : Channel α) : Prop where
  wlPix : All0 ch.wlPix
  dwlPix : All0 ch.dwlPix
  spatialWidth : All0 ch.spatialWidth
  windowSize : All0 ch.windowSize
  area : 0 ≤ ch.area
  omega : 0 ≤ ch.omega
  perPhoton : 0 ≤ ch.perPhoton

/-! ## Lists -/

theorem all0_mulCol {a b : List α} (ha : All0 a) (hb : All0 b) : All0 (mulCol a b) := by
  intro v hv
  obtain ⟨i, hi, rfl⟩ := List.mem_iff_getElem.mp hv
  simp only [mulCol, List.getElem_zipWith]
  exact mul_nonneg (ha _ (List.getElem_mem _)) (hb _ (List.getElem_mem _))

theorem all0_map {β : Type} {l : List β} {f : β → α} (h : ∀ x ∈ l, 0 ≤ f x) : All0 (l.map f) := by
  intro v hv
  obtain ⟨x, hx, rfl⟩ := List.mem_map.mp hv
  exact h x hx

theorem all0_zeroOut {a b : α} {wl d : List α} (h : All0 d) : All0 (zeroOut a b wl d) := by
  intro v hv
  obtain ⟨i, hi, rfl⟩ := List.mem_iff_getElem.mp hv
  simp only [zeroOut, List.getElem_zipWith]
  split
  · exact le_refl _
  · exact h _ (List.getElem_mem _)

theorem all0_sum : ∀ {l : List α}, All0 l → 0 ≤ l.sum := fun h => List.sum_nonneg h

theorem le_sum : ∀ {l : List α}, All0 l → ∀ v ∈ l, v ≤ l.sum
  | a :: l, h, v, hv => by
    rw [List.sum_cons]
    have h0 : 0 ≤ l.sum := all0_sum (fun y hy => h y (by simp [hy]))
    have ha := h a (by simp)
    rcases List.mem_cons.mp hv with rfl | hv
    · linarith
    · have := le_sum (fun y hy => h y (by simp [hy])) v hv
      linarith

theorem rebin_nonneg {s s' : Rebin.Signal α} {wl : List α} (h : s.spectralRebin wl = .ok s') (h0 : All0 s.data) : All0 s'.data :=
  fun v hv => (Rebin.spectralRebin_bounds s s' wl 0 s.data.sum (le_refl _) (all0_sum h0) (fun v hv => ⟨h0 v hv, le_sum h0 v hv⟩) h v hv).1

theorem interp_nonneg {w d : List α} (h : All0 d) (x : α) : 0 ≤ Rebin.interp (w.zip d) x :=
  (Rebin.interp_bounds (w.zip d) 0 d.sum (le_refl _) (all0_sum h)
    (fun p hp => ⟨h _ (List.of_mem_zip hp).2, le_sum h _ (List.of_mem_zip hp).2⟩) x).1

theorem interpFill_nonneg {w d : List α} (h : All0 d) {fill : α} (hf : 0 ≤ fill) (x : α) : 0 ≤ interpFill fill (w.zip d) x := by
  have hm : ∀ p ∈ (w.zip d).insertionSort (fun p q => p.1 ≤ q.1), 0 ≤ p.2 ∧ p.2 ≤ d.sum := by
    intro p hp
    have := List.of_mem_zip ((List.mem_insertionSort _).mp hp)
    exact ⟨h _ this.2, le_sum h _ this.2⟩
  have hs := List.pairwise_insertionSort (fun p q : α × α => p.1 ≤ q.1) (w.zip d)
  unfold interpFill
  revert hm hs
  generalize (w.zip d).insertionSort (fun p q => p.1 ≤ q.1) = l
  intro hm hs
  cases l with
  | nil => exact hf
  | cons lo rest =>
    simp only
    split_ifs with h1 h2
    · exact hf
    · exact hf
    · exact (Rebin.segment_bounds 0 d.sum rest lo x hm hs (not_lt.mp h1)).1

theorem maxE_nonneg {l : List α} {m : α} (h : Rebin.maxE l = .ok m) (h0 : All0 l) : 0 ≤ m := by
  cases l with
  | nil => cases h
  | cons a l =>
    simp only [Rebin.maxE, Except.ok.injEq] at h
    subst h
    have : ∀ (l : List α) (a : α), 0 ≤ a → 0 ≤ l.foldl max a := by
      intro l
      induction l with
      | nil => intro a ha; exact ha
      | cons b l ih => intro a ha; exact ih _ (le_trans ha (le_max_left _ _))
    exact this l a (h0 a (by simp))

/-! ## Targets -/

theorem getTransmission_nonneg {ch : Chan α} {wl d : List α} {c : List (Option α)} {s : Rebin.Signal α}
    (h : getTransmission ch wl d = .ok (c, s)) (h0 : All0 d) : All0 s.data := by
  unfold getTransmission at h
  cases hm : Rebin.Signal.mk? wl d with
  | error e => simp [hm] at h
  | ok s' =>
    have hs : s' = ⟨wl, d⟩ := by
      unfold Rebin.Signal.mk? at hm
      split at hm
      · cases hm
      · cases hm; rfl
    subst hs
    simp only [hm] at h
    split at h
    · cases h
    · simp only [Except.ok.injEq, Prod.mk.injEq] at h
      rw [← h.2]
      exact h0
    · simp only [Except.ok.injEq, Prod.mk.injEq] at h
      rw [← h.2]
      exact all0_zeroOut h0

theorem efficiency_nonneg {ch : Chan α} (hg : GoodChan ch) {wl : List α} {sky : Option (Rebin.Signal α)} {old : Option (List (Option α))}
    {eff : Efficiency α} (h : getEfficiency ch wl sky old = .ok eff) (hsky : ∀ s, sky = some s → All0 s.data) :
    All0 eff.qe ∧ All0 eff.tr := by
  unfold getEfficiency at h
  cases hq : ch.qe.spectralRebin wl with
  | error e => simp [hq] at h
  | ok q =>
    cases ht : ch.tr.spectralRebin wl with
    | error e => simp [hq, ht] at h
    | ok t =>
      simp only [hq, ht] at h
      have q0 := rebin_nonneg hq hg.qe
      have t0 := rebin_nonneg ht hg.tr
      cases sky with
      | none =>
        simp only [withSky, Except.ok.injEq] at h
        subst h
        exact ⟨q0, t0⟩
      | some s =>
        unfold withSky at h
        cases hgt : getTransmission ch s.wl s.data with
        | error e => simp [hgt] at h
        | ok r =>
          obtain ⟨c, s'⟩ := r
          simp only [hgt] at h
          cases hr : s'.spectralRebin wl with
          | error e => simp [hr] at h
          | ok s'' =>
            simp only [hr, Except.ok.injEq] at h
            subst h
            exact ⟨q0, all0_mulCol t0 (rebin_nonneg hr (getTransmission_nonneg hgt (hsky s rfl)))⟩

theorem forceEdge_nonneg {ch : Chan α} {wl tr tr' win : List α} (h : forceEdge ch wl tr = .ok (tr', win)) (h0 : All0 tr) :
    All0 tr' ∧ All0 win := by
  have h1 : All0 (wl.map (fun _ => (1 : α))) := all0_map (fun _ _ => zero_le_one)
  unfold forceEdge at h
  split at h
  · cases h
  · cases h
    exact ⟨h0, h1⟩
  · cases h
    exact ⟨all0_zeroOut h0, all0_zeroOut h1⟩

theorem density_nonneg {ch : Chan α} (hg : GoodChan ch) {wl qe sed tr : List α} (hwl : All0 wl) (hq : All0 qe) (hs : All0 sed) (ht : All0 tr) :
    All0 (density ch wl qe sed tr) :=
  all0_mulCol (all0_mulCol (all0_mulCol hq hs) ht) (all0_map (fun w hw => mul_nonneg (hwl w hw) hg.perPhoton))

theorem apertureFactor_nonneg {ch : Chan α} (hg : GoodChan ch) : 0 ≤ apertureFactor ch := by
  unfold apertureFactor
  split
  · rename_i v hv; exact hg.correction v hv
  · split
    · rename_i v hv; exact hg.enE v hv
    · exact zero_le_one

/-- C73: a photometer gives one row; no signal in it is negative. -/
theorem photometer_nonneg {ch : Chan α} (hg : GoodChan ch) {sed : Rebin.Signal α} (hx : sed.wl.Pairwise (· ≤ ·)) (hwl : All0 sed.wl)
    (hs : All0 sed.data) {sky : Option (Rebin.Signal α)} (hsky : ∀ s, sky = some s → All0 s.data) {old : Option (List (Option α))}
    {o : TargetOut α} (h : photometerTarget ch sed sky old = .ok o) :
    (o.starFlux.length = 1 ∧ o.starSignal.length = 1 ∧ o.inAperture.length = 1 ∧ o.maxInPixel.length = 1) ∧
    All0 o.starFlux ∧ All0 o.starSignal ∧ All0 o.inAperture ∧ All0 o.maxInPixel := by
  unfold photometerTarget at h
  cases he : getEfficiency ch sed.wl sky old with
  | error e => simp [he] at h
  | ok eff =>
    simp only [he] at h
    cases hf : forceEdge ch sed.wl eff.tr with
    | error e => simp [hf] at h
    | ok r =>
      obtain ⟨tr, win⟩ := r
      simp only [hf, Except.ok.injEq] at h
      subst h
      obtain ⟨q0, t0⟩ := efficiency_nonneg hg he hsky
      obtain ⟨t1, w1⟩ := forceEdge_nonneg hf t0
      have hsig : 0 ≤ ch.atel * trapz sed.wl (density ch sed.wl eff.qe sed.data tr) :=
        mul_nonneg hg.atel (trapz_nonneg _ _ hx (density_nonneg hg hwl q0 hs t1))
      refine ⟨⟨rfl, rfl, rfl, rfl⟩, ?_, ?_, ?_, ?_⟩ <;> intro v hv <;> rw [List.mem_singleton] at hv <;> subst hv
      · exact trapz_nonneg _ _ hx (all0_mulCol w1 hs)
      · exact hsig
      · exact mul_nonneg hsig (apertureFactor_nonneg hg)
      · exact mul_nonneg hg.prfMax hsig

theorem binIntegrals_nonneg {b : Bins α} {wl y : List α} (hx : wl.Pairwise (· ≤ ·)) (hy : All0 y) : All0 (binIntegrals b wl y) := by
  intro v hv
  obtain ⟨i, hi, rfl⟩ := List.mem_iff_getElem.mp hv
  simp only [binIntegrals, List.getElem_zipWith]
  apply trapz_nonneg _ _ hx
  apply all0_mulCol hy
  apply all0_map
  intro w _
  split
  · exact zero_le_one
  · exact le_refl _

theorem pixelMaxima_nonneg {wlPix v : List α} (h0 : All0 v) : ∀ {bs : List (α × α)} {m : List α}, pixelMaxima wlPix v bs = .ok m →
    m.length = bs.length ∧ All0 m
  | [], m, h => by cases h; exact ⟨rfl, by simp [All0]⟩
  | (lo, hi) :: bs, m, h => by
    unfold pixelMaxima at h
    cases h1 : Rebin.maxE (((wlPix.zip v).filter (fun p => decide (lo < p.1) && decide (p.1 < hi))).map Prod.snd) with
    | error e => simp [h1] at h
    | ok a =>
      simp only [h1] at h
      cases h2 : pixelMaxima wlPix v bs with
      | error e => simp [h2] at h
      | ok as =>
        simp only [h2, Except.ok.injEq] at h
        subst h
        obtain ⟨i1, i2⟩ := pixelMaxima_nonneg h0 h2
        refine ⟨by simp [i1], ?_⟩
        intro x hx
        rcases List.mem_cons.mp hx with rfl | hx
        · refine maxE_nonneg h1 ?_
          intro y hy
          obtain ⟨p, hp, rfl⟩ := List.mem_map.mp hy
          exact h0 _ (List.of_mem_zip (List.mem_filter.mp hp).1).2
        · exact i2 x hx

/-- C73: a spectrometer gives one row per bin; no signal in it is negative. -/
theorem spectrometer_nonneg {ch : Chan α} (hg : GoodChan ch) {sed : Rebin.Signal α} (hx : sed.wl.Pairwise (· ≤ ·)) (hwl : All0 sed.wl)
    (hs : All0 sed.data) {sky : Option (Rebin.Signal α)} (hsky : ∀ s, sky = some s → All0 s.data) {old : Option (List (Option α))}
    {o : TargetOut α} (h : spectrometerTarget ch sed sky old = .ok o) {n : ℕ} (hl : ch.bins.left.length = n) (hr : ch.bins.right.length = n) :
    (o.starFlux.length = n ∧ o.starSignal.length = n ∧ o.inAperture.length = n ∧ o.maxInPixel.length = n) ∧
    All0 o.starFlux ∧ All0 o.starSignal ∧ All0 o.inAperture ∧ All0 o.maxInPixel := by
  unfold spectrometerTarget at h
  cases he : getEfficiency ch sed.wl sky old with
  | error e => simp [he] at h
  | ok eff =>
    simp only [he] at h
    cases hf : forceEdge ch sed.wl eff.tr with
    | error e => simp [hf] at h
    | ok r =>
      obtain ⟨tr, win⟩ := r
      simp only [hf] at h
      obtain ⟨q0, t0⟩ := efficiency_nonneg hg he hsky
      obtain ⟨t1, w1⟩ := forceEdge_nonneg hf t0
      have d0 : All0 ((density ch sed.wl eff.qe sed.data tr).map (fun v => ch.atel * v)) :=
        all0_map (fun v hv => mul_nonneg hg.atel (density_nonneg hg hwl q0 hs t1 v hv))
      revert h d0
      generalize (density ch sed.wl eff.qe sed.data tr).map (fun v => ch.atel * v) = d
      intro h d0
      cases hm : spectrometerMaxima ch sed.wl d with
      | error e => simp [hm] at h
      | ok m =>
        simp only [hm, Except.ok.injEq] at h
        subst h
        unfold spectrometerMaxima at hm
        cases hrb : (Rebin.Signal.mk sed.wl d).spectralRebin ch.wlPix with
        | error e => simp [hrb] at hm
        | ok r =>
          simp only [hrb] at hm
          obtain ⟨m1, m2⟩ := pixelMaxima_nonneg
            (all0_mulCol (all0_mulCol (rebin_nonneg hrb d0) hg.dwlPix) (all0_map hg.gain)) hm
          refine ⟨⟨?_, ?_, ?_, ?_⟩, binIntegrals_nonneg hx (all0_mulCol w1 hs), binIntegrals_nonneg hx d0, binIntegrals_nonneg hx d0, m2⟩
          · simp [binIntegrals, hl, hr]
          · simp [binIntegrals, hl, hr]
          · simp [binIntegrals, hl, hr]
          · simp [m1, hl, hr]

/-! ## Foregrounds -/

theorem convSame_nonneg {a : List α} {k : ℕ} (h : All0 a) : All0 (convSame a k) := by
  unfold convSame
  apply all0_map
  intro i _
  exact all0_sum (fun v hv => h v (List.mem_of_mem_take (List.mem_of_mem_drop hv)))

theorem inSlitBin_nonneg {lo hi : α} {wl v : List α} (h : All0 v) : All0 (inSlitBin lo hi wl v) := by
  intro x hx
  obtain ⟨p, hp, rfl⟩ := List.mem_map.mp hx
  exact h _ (List.of_mem_zip (List.mem_filter.mp hp).1).2

theorem maxPerBin_nonneg : ∀ {bs : List (List α)} {m : List α}, (∀ b ∈ bs, All0 b) → maxPerBin bs = .ok m → m.length = bs.length ∧ All0 m
  | [], m, _, h => by cases h; exact ⟨rfl, by simp [All0]⟩
  | b :: bs, m, h0, h => by
    unfold maxPerBin at h
    cases h1 : Rebin.maxE b with
    | error e => simp [h1] at h
    | ok a =>
      simp only [h1] at h
      cases h2 : maxPerBin bs with
      | error e => simp [h2] at h
      | ok as =>
        simp only [h2, Except.ok.injEq] at h
        subst h
        obtain ⟨i1, i2⟩ := maxPerBin_nonneg (fun c hc => h0 c (by simp [hc])) h2
        refine ⟨by simp [i1], ?_⟩
        intro x hx
        rcases List.mem_cons.mp hx with rfl | hx
        · exact maxE_nonneg h1 (h0 b (by simp))
        · exact i2 x hx

/-- The shape of a channel: `n` bins. -/
structure BinShape (ch : Channel α) (n : ℕ) : Prop where
  left : ch.left.length = n
  right : ch.right.length = n
  windowSize : ch.windowSize.length = n
  spatialWidth : ch.slitWidth.isSome = true → ch.spatialWidth.length = n

theorem slit_nonneg [FloorRing α] {ch : Channel α} (hg : GoodDiffuse ch) {n : ℕ} (hn : BinShape ch n) {w : α} (hw : ch.slitWidth = some w)
    {qe rad : Rebin.Signal α} (hq : All0 qe.data) (hr : All0 rad.data) {m sig : List α} (h : convolveWithSlit ch w qe rad = .ok (m, sig)) :
    m.length = n ∧ sig.length = n ∧ All0 m ∧ All0 sig := by
  unfold convolveWithSlit at h
  cases hl : pixelLight ch qe rad with
  | error e => simp [hl] at h
  | ok light =>
    simp only [hl] at h
    have l0 : All0 light := by
      unfold pixelLight at hl
      cases hrb : rad.spectralRebin ch.wlPix with
      | error e => simp [hrb] at hl
      | ok r =>
        simp only [hrb, Except.ok.injEq] at hl
        subst hl
        refine all0_mulCol (all0_mulCol (rebin_nonneg hrb hr) (all0_map ?_)) hg.dwlPix
        intro x hx
        exact mul_nonneg (mul_nonneg (mul_nonneg hg.omega hg.area) (interp_nonneg hq x)) (mul_nonneg (hg.wlPix x hx) hg.perPhoton)
    unfold throughSlit at h
    simp only at h
    split_ifs at h
    have b0 : ∀ b ∈ slitBins ch (convSame light (slitPixels w ch.deltaPix)), All0 b := by
      intro b hb
      obtain ⟨i, hi, rfl⟩ := List.mem_iff_getElem.mp hb
      simp only [slitBins, List.getElem_zipWith]
      exact inSlitBin_nonneg (convSame_nonneg l0)
    have bl : (slitBins ch (convSame light (slitPixels w ch.deltaPix))).length = n := by simp [slitBins, hn.left, hn.right]
    revert h b0 bl
    generalize slitBins ch (convSame light (slitPixels w ch.deltaPix)) = bs
    intro h b0 bl
    cases hm : maxPerBin bs with
    | error e => simp [hm] at h
    | ok m' =>
      simp only [hm, Except.ok.injEq, Prod.mk.injEq] at h
      obtain ⟨rfl, rfl⟩ := h
      obtain ⟨m1, m2⟩ := maxPerBin_nonneg b0 hm
      refine ⟨by omega, ?_, m2, all0_mulCol (all0_map (fun b hb => all0_sum (b0 b hb))) hg.spatialWidth⟩
      simp [mulCol, bl, hn.spatialWidth (by rw [hw]; rfl)]

theorem mulData_ok {a b c : List α} (h : mulData a b = .ok c) (ha : All0 a) (hb : All0 b) : All0 c := by
  unfold mulData at h
  split at h
  · cases h; exact all0_mulCol ha hb
  · cases h

theorem detect_nonneg [FloorRing α] {ch : Channel α} (hg : GoodDiffuse ch) {n : ℕ} (hn : BinShape ch n) {qe rad : Rebin.Signal α}
    (hq : All0 qe.data) (hx : rad.wl.Pairwise (· ≤ ·)) (hwl : All0 rad.wl) (hr : All0 rad.data) {qe' : Rebin.Signal α} {m sig : List α}
    (h : detect ch qe rad = .ok (qe', m, sig)) : All0 qe'.data ∧ m.length = n ∧ sig.length = n ∧ All0 m ∧ All0 sig := by
  unfold detect at h
  cases hw : ch.slitWidth with
  | some w =>
    simp only [hw] at h
    cases hc : convolveWithSlit ch w qe rad with
    | error e => simp [hc] at h
    | ok r =>
      obtain ⟨m', sig'⟩ := r
      simp only [hc, Except.ok.injEq, Prod.mk.injEq] at h
      obtain ⟨rfl, rfl, rfl⟩ := h
      exact ⟨hq, slit_nonneg hg hn hw hq hr hc⟩
  | none =>
    simp only [hw] at h
    unfold slitless at h
    cases hq' : qe.spectralRebin rad.wl with
    | error e => simp [hq'] at h
    | ok q =>
      simp only [hq'] at h
      have q0 := rebin_nonneg hq' hq
      have qwl : q.wl = rad.wl := by
        unfold Rebin.Signal.spectralRebin at hq'
        split at hq'
        · cases hq'
        · cases hq'; rfl
      cases hm : mulData rad.data (List.zipWith (fun w v => ch.omega * ch.area * v * (w * ch.perPhoton)) q.wl q.data) with
      | error e => simp [hm] at h
      | ok d =>
        simp only [hm, Except.ok.injEq, Prod.mk.injEq] at h
        obtain ⟨rfl, h⟩ := h
        have d0 : All0 d := by
          refine mulData_ok hm hr ?_
          intro v hv
          obtain ⟨i, hi, rfl⟩ := List.mem_iff_getElem.mp hv
          simp only [List.getElem_zipWith]
          refine mul_nonneg (mul_nonneg (mul_nonneg hg.omega hg.area) (q0 _ (List.getElem_mem _))) (mul_nonneg (hwl _ ?_) hg.perPhoton)
          rw [← qwl]
          exact List.getElem_mem _
        have t0 : 0 ≤ trapz rad.wl d := trapz_nonneg _ _ hx d0
        unfold integrateLight at h
        simp only [Prod.mk.injEq] at h
        obtain ⟨rfl, rfl⟩ := h
        refine ⟨q0, by simp [hn.windowSize], by simp [hn.windowSize], all0_map (fun _ _ => t0), all0_map (fun w hw => mul_nonneg t0 (hg.windowSize w hw))⟩

/-- A foreground: its samples are at increasing wavelengths, and neither they nor its radiance are negative. -/
structure GoodFilter (f : Foreground.Filter α) : Prop where
  sorted : f.rad.wl.Pairwise (· ≤ ·)
  wl : All0 f.rad.wl
  rad : All0 f.rad.data

theorem propagateLoop_nonneg [FloorRing α] {ch : Channel α} (hg : GoodDiffuse ch) {n : ℕ} (hn : BinShape ch n) :
    ∀ (fs : List (String × Foreground.Filter α)) (qe tr : Rebin.Signal α) (out out' : Dict String (List α)), (∀ kf ∈ fs, GoodFilter kf.2) →
    All0 qe.data → All0 tr.data → (∀ q ∈ out, q.2.length = n ∧ All0 q.2) → out.keys.Nodup → propagateLoop ch fs qe tr out = .ok out' →
    (∀ q ∈ out', q.2.length = n ∧ All0 q.2) ∧ out'.keys.Nodup
  | [], qe, tr, out, out', _, _, _, ho, hnd, h => by cases h; exact ⟨ho, hnd⟩
  | (k, f) :: fs, qe, tr, out, out', hfs, hq, ht, ho, hnd, h => by
    have hf := hfs (k, f) (by simp)
    unfold propagateLoop at h
    cases h1 : tr.spectralRebin f.rad.wl with
    | error e => simp [h1] at h
    | ok tr' =>
      simp only [h1] at h
      cases h2 : mulData f.rad.data tr'.data with
      | error e => simp [h2] at h
      | ok d =>
        simp only [h2] at h
        cases h3 : detect ch qe ⟨f.rad.wl, d⟩ with
        | error e => simp [h3] at h
        | ok r =>
          obtain ⟨qe', m, sig⟩ := r
          simp only [h3] at h
          have t0 := rebin_nonneg h1 ht
          obtain ⟨q0, l1, l2, p1, p2⟩ := detect_nonneg (rad := ⟨f.rad.wl, d⟩) hg hn hq hf.sorted hf.wl (mulData_ok h2 hf.rad t0) h3
          have hset : ∀ (o : Dict String (List α)) (k : String) (c : List α), (∀ q ∈ o, q.2.length = n ∧ All0 q.2) → o.keys.Nodup → c.length = n → All0 c →
              (∀ q ∈ Dict.set o k c, q.2.length = n ∧ All0 q.2) ∧ (Dict.set o k c).keys.Nodup := by
            intro o k c h1 h2 h3 h4
            have hnd' : (Dict.set o k c).keys.Nodup := by
              rw [Dict.keys_set]
              split
              · exact h2
              · rename_i hk
                exact List.nodup_append.mpr ⟨h2, by simp, fun a ha b hb e => hk (by rw [List.mem_singleton] at hb; rw [← hb, ← e]; exact ha)⟩
            refine ⟨?_, hnd'⟩
            intro q hq
            have hg' := Dict.get?_of_mem hnd' hq
            by_cases hk : q.1 = k
            · rw [hk, Dict.get?_set_self, Option.some.injEq] at hg'
              rw [← hg']
              exact ⟨h3, h4⟩
            · rw [Dict.get?_set_ne _ _ hk] at hg'
              exact h1 _ (Dict.mem_of_get? hg')
          obtain ⟨s1, s2⟩ := hset out (k ++ "_signal") sig ho hnd l2 p2
          obtain ⟨s3, s4⟩ := hset _ (k ++ "_MaxSignal_inPixel") m s1 s2 l1 p1
          exact propagateLoop_nonneg hg hn fs qe' tr' _ out' (fun kf hkf => hfs kf (by simp [hkf])) q0 t0 s3 s4 h

/-- C73: a channel of `n` bins gives for every foreground columns of `n` rows; no value in them is negative. -/
theorem foreground_nonneg [FloorRing α] {ch : Channel α} (hg : GoodDiffuse ch) {n : ℕ} (hn : BinShape ch n) {qe tr : Rebin.Signal α}
    (hq : All0 qe.data) (ht : All0 tr.data) {s : Sky α} {fs : Dict String (Foreground.Filter α)} (hs : s.foreground = some fs)
    (hf : ∀ kf ∈ fs, GoodFilter kf.2) {out : Dict String (List α)} (h : propagate ch qe tr s = .ok out) :
    (∀ q ∈ out, q.2.length = n ∧ All0 q.2) ∧ out.keys.Nodup := by
  unfold propagate at h
  simp only [hs] at h
  exact propagateLoop_nonneg hg hn fs.reverse qe tr [] out (fun kf hkf => hf kf (by simpa using hkf)) hq ht (by simp) (by simp [Dict.keys]) h

/-- A foreground section that describes something real: its table is not negative, its factor is not negative. -/
structure GoodDescr (d : Descr α) : Prop where
  radiance : ∀ t c, d.data = some t → t.get? "Radiance" = some c → All0 c
  transmission : ∀ t c, d.data = some t → t.get? "Transmission" = some c → All0 c
  factor : ∀ a, d.factor = some a → 0 ≤ a

/-- What a target knows about the sky is not negative. -/
structure GoodSky (s : Sky α) : Prop where
  fg : ∀ kf ∈ s.foreground.getD [], GoodFilter kf.2
  tr : ∀ t, s.transmission = some t → All0 t.data

theorem addForeground_good {s : Sky α} (h : GoodSky s) (k : String) {f : Foreground.Filter α} (hf : GoodFilter f) : GoodSky (addForeground s k f) := by
  refine ⟨?_, h.tr⟩
  intro kf hkf
  simp only [addForeground, Option.getD_some] at hkf
  have : ∀ (d : Dict String (Foreground.Filter α)), (∀ kf ∈ d, GoodFilter kf.2) → ∀ kf ∈ Dict.set d k f, GoodFilter kf.2 := by
    intro d
    induction d with
    | nil =>
      intro _ kf hkf
      simp only [Dict.set, List.mem_singleton] at hkf
      rw [hkf]; exact hf
    | cons q d ih =>
      intro hd kf hkf
      obtain ⟨a, b⟩ := q
      unfold Dict.set at hkf
      split at hkf
      · rcases List.mem_cons.mp hkf with rfl | hkf
        · exact hf
        · exact hd _ (by simp [hkf])
      · rcases List.mem_cons.mp hkf with rfl | hkf
        · exact hd _ (by simp)
        · exact ih (fun kf h => hd kf (by simp [h])) kf hkf
  exact this _ h.fg kf hkf

/-- C73: the foregrounds of a payload whose tables, map and black body are not negative are not negative. -/
theorem estimate_nonneg {B : α → α → α} {wl : List α} (hB : ∀ w ∈ wl, 0 ≤ B w 5500 ∧ 0 ≤ B w 270) {m : MapFiles α}
    (hm : ∀ p rows, m.file p = some (.ok rows) → ∀ r ∈ rows, 0 ≤ r.2.2) (hx : wl.Pairwise (· ≤ ·)) (hwl : All0 wl) :
    ∀ (ds : Dict String (Descr α)) (s s' : Sky α), (∀ kd ∈ ds, GoodDescr kd.2) → GoodSky s → estimateLoop B m wl ds s = (s', .ok ()) → GoodSky s'
  | [], s, s', _, hs, h => by cases h; exact hs
  | (k, d) :: ds, s, s', hd, hs, h => by
    have hd0 := hd (k, d) (by simp)
    unfold estimateLoop at h
    cases ho : estimateOne B m wl k d s with
    | mk s1 r =>
      rw [ho] at h
      cases r with
      | error e => simp at h
      | ok u =>
        simp only at h
        refine estimate_nonneg hB hm hx hwl ds s1 s' (fun kd hkd => hd kd (by simp [hkd])) ?_ h
        unfold estimateOne at ho
        split at ho
        · unfold estimateZodi at ho
          split at ho
          · simp at ho
          · split at ho
            · simp at ho
            · rename_i c hc a ha
              cases ho
              apply addForeground_good hs
              have a0 : 0 ≤ a := by
                unfold zodiCoefficient at ha
                split at ha
                · rename_i ra dec _
                  cases hfit : fitDirection m d.mapFile ra dec with
                  | error e => rw [hfit] at ha; cases e <;> cases ha
                  | ok a' =>
                    rw [hfit] at ha
                    cases ha
                    unfold fitDirection at hfit
                    split at hfit
                    · cases hfit
                    · rename_i rows hrows
                      unfold mapCoefficient at hfit
                      split at hfit
                      · cases hfit
                      · split at hfit
                        · cases hfit
                        · rename_i r hr
                          cases hfit
                          unfold readMap at hrows
                          simp only at hrows
                          revert hrows
                          generalize (if (m.file (match d.mapFile with | some f => if f = "" then m.packaged else f | none => m.packaged)).isNone = true then m.searched
                            else (match d.mapFile with | some f => if f = "" then m.packaged else f | none => m.packaged)) = p
                          intro hrows
                          split at hrows
                          · cases hrows
                          · rename_i q hq
                            subst hrows
                            exact hm p rows hq r (List.mem_of_getElem? hr)
                · split at ha
                  · rename_i a' ha'
                    cases ha
                    exact hd0.factor a ha'
                  · cases ha
                    exact le_refl _
              refine ⟨hx, hwl, ?_⟩
              apply all0_map
              intro w hw
              unfold zodiModel
              exact mul_nonneg a0 (add_nonneg (mul_nonneg (by positivity) (hB w hw).1) (mul_nonneg (by positivity) (hB w hw).2))
        · unfold estimateForeground at ho
          cases hsf : skyForeground wl d with
          | error e => simp [hsf] at ho
          | ok f =>
            simp only [hsf] at ho
            have hf : GoodFilter f ∧ All0 (f.transmission.getD []) := by
              unfold skyForeground at hsf
              split at hsf
              · cases hsf
              · rename_i t ht
                split at hsf
                · cases hsf
                · split at hsf
                  · cases hsf
                  · split at hsf
                    · cases hsf
                    · rename_i w _ r hr tr htr
                      cases hsf
                      refine ⟨⟨hx, hwl, all0_map (fun x _ => ?_)⟩, ?_⟩
                      · exact interpFill_nonneg (hd0.radiance t _ ht (getE_get? (by assumption))) (le_refl _) x
                      · exact all0_map (fun x _ => interpFill_nonneg (hd0.transmission t _ ht (getE_get? (by assumption))) zero_le_one x)
            have h1 := addForeground_good hs d.value hf.1
            unfold attenuate at ho
            split at ho
            · cases ho
              refine ⟨h1.fg, ?_⟩
              intro t ht
              simp only [Option.some.injEq] at ht
              rw [← ht]
              exact hf.2
            · rename_i t0 ht0
              split at ho
              · cases ho
                refine ⟨h1.fg, ?_⟩
                intro t ht
                simp only [Option.some.injEq] at ht
                rw [← ht]
                exact all0_mulCol (h1.tr t0 ht0) hf.2
              · simp at ho

/-! ## Sources -/

theorem planckStar_nonneg [FloorRing α] {c : Source.Consts α} (hpi : 0 ≤ c.pi) (hB : ∀ w T, 0 < w → 0 < T → 0 ≤ c.B w T) {D T R lo hi : α} (hT : 0 < T)
    (h1 : 0 < lo) (h2 : lo ≤ hi) {b : Source.Built α} (h : Source.planckStar c D T R lo hi = .ok b) : All0 b.sed.data := by
  unfold Source.planckStar at h
  simp only at h
  split at h
  · cases h
  · rename_i s hs
    cases h
    rw [((Rebin.mk?_ok _ _ _).mp hs).1]
    apply all0_map
    intro w hw
    exact mul_nonneg (mul_nonneg hpi (sq_nonneg _)) (hB w T (lt_of_lt_of_le h1 (Source.linspace_bounds lo hi 10000 (by norm_num) h2 w hw).1) hT)

theorem keepChanges_mem : ∀ {pts : List (α × α)} {q : α × α}, q ∈ Source.keepChanges pts → q ∈ pts
  | [], q, h => by simp [Source.keepChanges] at h
  | [p], q, h => by simp [Source.keepChanges] at h
  | p :: p' :: l, q, h => by
    unfold Source.keepChanges at h
    split at h
    · exact List.mem_cons_of_mem _ (keepChanges_mem h)
    · rcases List.mem_cons.mp h with rfl | h
      · simp
      · exact List.mem_cons_of_mem _ (keepChanges_mem h)

theorem phoenixStar_nonneg {c : Source.Consts α} {pts : List (α × α)} (hp : ∀ q ∈ pts, 0 ≤ q.2) {D R : α} {f : String} {b : Source.Built α}
    (h : Source.phoenixStar c pts D R f = .ok b) : All0 b.sed.data := by
  unfold Source.phoenixStar at h
  simp only at h
  split at h
  · cases h
  · rename_i s hs
    cases h
    rw [((Rebin.mk?_ok _ _ _).mp hs).1]
    apply all0_map
    intro v hv
    obtain ⟨q, hq, rfl⟩ := List.mem_map.mp hv
    exact mul_nonneg (hp q (keepChanges_mem hq)) (sq_nonneg _)

/-- Files whose spectra are not negative. -/
structure GoodFiles (env : Source.Env α) : Prop where
  phoenix : ∀ p f pts, env.phoenix p f = .ok pts → ∀ q ∈ pts, 0 ≤ q.2
  custom : ∀ f wl flux, env.custom f = .ok (wl, flux) → All0 flux

theorem buildStar_nonneg [FloorRing α] {c : Source.Consts α} (hpi : 0 ≤ c.pi) (hB : ∀ w T, 0 < w → 0 < T → 0 ≤ c.B w T) {env : Source.Env α}
    (henv : GoodFiles env) {d : Source.Descr} {s : Source.StarData α} (hT : ∀ T, s.Teff = some T → 0 < T) {lo hi : α} (h1 : 0 < lo) (h2 : lo ≤ hi)
    {b : Source.Built α} (h : Source.buildStar c env d s lo hi = .ok b) : All0 b.sed.data := by
  unfold Source.buildStar at h
  split at h
  · unfold Source.customSource at h
    split at h
    · split at h
      · cases h
      · split at h
        · cases h
        · rename_i wl flux hc
          unfold Source.customStar at h
          split at h
          · cases h
          · rename_i s hs
            cases h
            rw [((Rebin.mk?_ok _ _ _).mp hs).1]
            apply all0_map
            intro v hv
            exact mul_nonneg (henv.custom _ _ _ hc v hv) (sq_nonneg _)
    · cases h
  · split at h
    · rename_i D T M R _ hTT _ _
      have hT' := hT T (by assumption)
      split at h
      · exact planckStar_nonneg hpi hB hT' h1 h2 h
      · split at h
        · unfold Source.phoenixOrPlanck at h
          split at h
          · cases h
          · split at h
            · exact planckStar_nonneg hpi hB hT' h1 h2 h
            · unfold Source.libraryStar at h
              split at h
              · cases h
              · split at h
                · cases h
                · rename_i hp
                  exact phoenixStar_nonneg (henv.phoenix _ _ _ hp) h
        · exact planckStar_nonneg hpi hB hT' h1 h2 h
    · cases h

theorem sortRange_spec {a b a' b' : Source.Wl α} (ha : 0 < a.um) (hb : 0 < b.um) (h : Source.sortRange a b = .ok (a', b')) :
    0 < a'.um ∧ a'.um ≤ b'.um := by
  unfold Source.sortRange at h
  split at h
  · rename_i h1 h2
    split at h <;> rename_i hc <;> cases h
    · refine ⟨hb, ?_⟩
      simp only [Source.Wl.um, h1, h2, Option.getD_none, mul_one]
      exact hc.le
    · refine ⟨ha, ?_⟩
      simp only [Source.Wl.um, h1, h2, Option.getD_none, mul_one]
      exact not_lt.mp hc
  · split at h <;> rename_i hc <;> cases h
    · exact ⟨hb, hc.le⟩
    · exact ⟨ha, not_lt.mp hc⟩
  · cases h

/-- C73: the spectrum of a star is not negative; it is sampled on the working grid of the range, lower end first. -/
theorem source_nonneg [FloorRing α] {c : Source.Consts α} (hpi : 0 ≤ c.pi) (hB : ∀ w T, 0 < w → 0 < T → 0 ≤ c.B w T) {env : Source.Env α}
    (henv : GoodFiles env) {grid : α → α → List α} {d : Source.Descr} {s : Source.StarData α} (hT : ∀ T, s.Teff = some T → 0 < T)
    {a b : Source.Wl α} (ha : 0 < a.um) (hb : 0 < b.um) {st : Source.Built α} (h : Source.loadSource c env grid d s a b = .ok st) :
    All0 st.sed.data ∧ ∃ a' b', Source.sortRange a b = .ok (a', b') ∧ st.sed.wl = grid a'.v b'.v := by
  unfold Source.loadSource at h
  split at h
  · cases h
  · rename_i a' b' hs
    split at h
    · cases h
    · rename_i st' hst
      obtain ⟨p1, p2⟩ := sortRange_spec ha hb hs
      have h0 := buildStar_nonneg hpi hB henv hT p1 p2 hst
      unfold Source.toGrid at h
      split at h
      · cases h
      · split at h
        · cases h
        · rename_i r hr
          cases h
          refine ⟨rebin_nonneg hr h0, a', b', hs, ?_⟩
          unfold Rebin.Signal.spectralRebin at hr
          split at hr
          · cases hr
          · cases hr; rfl

end ExoRad.Light
