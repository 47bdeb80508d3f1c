import Verif.Props.Budget
import Verif.Props.Source
import Verif.Props.Options

/-!
# A brighter star: C97, C98

Two observations with the same payload of two targets that differ only in the amount of light: the spectral energy
distribution of the second is `c` times that of the first. A star at `k` times the distance is such a target, with
`c = 1 / k²`.
-/

set_option linter.unusedSectionVars false

namespace ExoRad.Instrument
open ExoRad.Diffuse ExoRad.Source

variable {α : Type} [Field α] [LinearOrder α] [IsStrictOrderedRing α] [FloorRing α]

/-! ## The columns of a channel -/

/-- The columns `propagate_target` returns, with the star columns scaled by `c`. -/
def TargetOut.scale (c : α) (o : TargetOut α) : TargetOut α :=
  ⟨o.foregroundTransmission, o.starFlux.map (fun v => c * v), o.starSignal.map (fun v => c * v), o.inAperture.map (fun v => c * v),
    o.maxInPixel.map (fun v => c * v)⟩

theorem mulCol_scale_right (c : α) : ∀ a b : List α, mulCol a (b.map (fun v => c * v)) = (mulCol a b).map (fun v => c * v)
  | [], _ => by simp [mulCol]
  | _ :: _, [] => by simp [mulCol]
  | x :: a, y :: b => by
    have ih := mulCol_scale_right c a b
    unfold mulCol at ih ⊢
    simp only [List.map_cons, List.zipWith_cons_cons, ih, List.cons.injEq, and_true]
    ring

theorem mulCol_scale_left (c : α) (a b : List α) : mulCol (a.map (fun v => c * v)) b = (mulCol a b).map (fun v => c * v) := by
  rw [mulCol_comm, mulCol_scale_right, mulCol_comm]

theorem density_scale (c : α) (ch : Chan α) (wl qe sed tr : List α) :
    density ch wl qe (sed.map (fun v => c * v)) tr = (density ch wl qe sed tr).map (fun v => c * v) := by
  unfold density
  rw [mulCol_scale_right, mulCol_scale_left, mulCol_scale_left]

theorem photometerTarget_scale (c : α) (ch : Chan α) (sed : Rebin.Signal α) (sky : Option (Rebin.Signal α)) (old : Option (List (Option α))) :
    photometerTarget ch (Source.scale c sed) sky old = (photometerTarget ch sed sky old).map (TargetOut.scale c) := by
  unfold photometerTarget
  have hw : (Source.scale c sed).wl = sed.wl := rfl
  have hd : (Source.scale c sed).data = sed.data.map (fun v => c * v) := rfl
  rw [hw, hd]
  cases getEfficiency ch sed.wl sky old with
  | error e => rfl
  | ok eff =>
    dsimp only
    cases forceEdge ch sed.wl eff.tr with
    | error e => rfl
    | ok p =>
      obtain ⟨tr, win⟩ := p
      simp only [Except.map, TargetOut.scale, density_scale, mulCol_scale_right, trapz_scale, List.map_cons, List.map_nil, Except.ok.injEq,
        TargetOut.mk.injEq, List.cons.injEq, and_true, true_and]
      refine ⟨?_, ?_, ?_⟩ <;> ring

theorem binIntegrals_scale (c : α) (b : Bins α) (wl y : List α) :
    binIntegrals b wl (y.map (fun v => c * v)) = (binIntegrals b wl y).map (fun v => c * v) := by
  unfold binIntegrals
  rw [List.map_zipWith]
  congr 1
  funext lo hi
  rw [mulCol_scale_left, trapz_scale]

theorem foldl_max_scale (c : α) (hc : 0 ≤ c) : ∀ (l : List α) (a : α), (l.map (fun v => c * v)).foldl max (c * a) = c * l.foldl max a
  | [], _ => rfl
  | x :: l, a => by
    simp only [List.map_cons, List.foldl_cons]
    rw [← mul_max_of_nonneg _ _ hc, foldl_max_scale c hc l]

theorem maxE_scale (c : α) (hc : 0 ≤ c) (l : List α) : Rebin.maxE (l.map (fun v => c * v)) = (Rebin.maxE l).map (fun v => c * v) := by
  cases l with
  | nil => rfl
  | cons a l =>
    simp only [List.map_cons, Rebin.maxE, Except.map, foldl_max_scale c hc]

theorem zip_filter_scale (c : α) (P : α → Bool) : ∀ wl v : List α,
    ((wl.zip (v.map (fun v => c * v))).filter (fun p => P p.1)).map Prod.snd =
      (((wl.zip v).filter (fun p => P p.1)).map Prod.snd).map (fun v => c * v)
  | [], _ => rfl
  | _ :: _, [] => rfl
  | w :: wl, x :: v => by
    have ih := zip_filter_scale c P wl v
    simp only [List.map_cons, List.zip_cons_cons, List.filter_cons]
    by_cases h : P w = true
    · simp only [h, if_true, List.map_cons, ih]
    · simp only [h, Bool.false_eq_true, if_false]
      exact ih

theorem pixelMaxima_scale (c : α) (hc : 0 ≤ c) (wlPix v : List α) : ∀ bs : List (α × α),
    pixelMaxima wlPix (v.map (fun v => c * v)) bs = (pixelMaxima wlPix v bs).map (fun l => l.map (fun v => c * v))
  | [] => rfl
  | (lo, hi) :: bs => by
    unfold pixelMaxima
    rw [zip_filter_scale c (fun w => decide (lo < w) && decide (w < hi)) wlPix v, maxE_scale c hc, pixelMaxima_scale c hc wlPix v bs]
    cases Rebin.maxE (((wlPix.zip v).filter (fun p => decide (lo < p.1) && decide (p.1 < hi))).map Prod.snd) with
    | error e => rfl
    | ok m => cases pixelMaxima wlPix v bs <;> rfl

theorem spectrometerMaxima_scale (c : α) (hc : 0 ≤ c) (ch : Chan α) (wl d : List α) :
    spectrometerMaxima ch wl (d.map (fun v => c * v)) = (spectrometerMaxima ch wl d).map (fun l => l.map (fun v => c * v)) := by
  unfold spectrometerMaxima
  have h := spectralRebin_scale c ⟨wl, d⟩ ch.wlPix
  unfold Source.scale at h
  dsimp only at h
  rw [h]
  cases (Rebin.Signal.mk wl d).spectralRebin ch.wlPix with
  | error e => rfl
  | ok r =>
    dsimp only [Except.map]
    rw [mulCol_scale_left, mulCol_scale_left, pixelMaxima_scale c hc]
    rfl

theorem spectrometerTarget_scale (c : α) (hc : 0 ≤ c) (ch : Chan α) (sed : Rebin.Signal α) (sky : Option (Rebin.Signal α))
    (old : Option (List (Option α))) :
    spectrometerTarget ch (Source.scale c sed) sky old = (spectrometerTarget ch sed sky old).map (TargetOut.scale c) := by
  unfold spectrometerTarget
  have hw : (Source.scale c sed).wl = sed.wl := rfl
  have hd : (Source.scale c sed).data = sed.data.map (fun v => c * v) := rfl
  rw [hw, hd]
  cases getEfficiency ch sed.wl sky old with
  | error e => rfl
  | ok eff =>
    dsimp only
    cases forceEdge ch sed.wl eff.tr with
    | error e => rfl
    | ok p =>
      obtain ⟨tr, win⟩ := p
      dsimp only
      have hm : ((density ch sed.wl eff.qe sed.data tr).map (fun v => c * v)).map (fun v => ch.atel * v) =
          ((density ch sed.wl eff.qe sed.data tr).map (fun v => ch.atel * v)).map (fun v => c * v) := by
        rw [List.map_map, List.map_map]
        apply List.map_congr_left
        intro x _
        simp only [Function.comp]
        ring
      rw [density_scale, hm, spectrometerMaxima_scale c hc]
      cases spectrometerMaxima ch sed.wl ((density ch sed.wl eff.qe sed.data tr).map (fun v => ch.atel * v)) with
      | error e => rfl
      | ok m => simp only [Except.map, TargetOut.scale, mulCol_scale_right, binIntegrals_scale]

end ExoRad.Instrument

namespace ExoRad.Pipeline
open Table

/-- The light of the target scales through every channel: photometers and spectrometers, with all their errors. -/
theorem channelTarget_scale (c : ℝ) (hc : 0 ≤ c) (ch : Channel) (sed : Rebin.Signal ℝ) (sky : Option (Rebin.Signal ℝ)) :
    channelTarget ch (Source.scale c sed) sky = (channelTarget ch sed sky).map (Instrument.TargetOut.scale c) := by
  unfold channelTarget
  split
  · exact Instrument.spectrometerTarget_scale c hc _ _ _ _
  · exact Instrument.photometerTarget_scale c _ _ _ _

/-- The same channel, observing a target with `c` times the light. -/
noncomputable def Obs.scale (c : ℝ) (it : Obs) : Obs := { it with out := it.out.scale c }

theorem Obs.Lit.scaled {c : ℝ} (hc : 0 < c) {sky : Foreground.Sky ℝ} {sed : Rebin.Signal ℝ} {it : Obs} (h : it.Lit sky sed) :
    (it.scale c).Lit sky (Source.scale c sed) := by
  refine ⟨h.fg, h.fgRect, h.fgPos, ?_, ?_, ?_, ⟨?_, ?_⟩, ⟨?_, ?_⟩, ?_⟩
  · show channelTarget it.ch (Source.scale c sed) sky.transmission = .ok (it.out.scale c)
    rw [channelTarget_scale c hc.le, h.out]
    rfl
  · show (it.out.starFlux.map _).length = it.n
    rw [List.length_map, h.flux]
  · show (it.out.starSignal.map _).length = it.n
    rw [List.length_map, h.signal]
  · show (it.out.inAperture.map _).length = it.n
    rw [List.length_map, h.aperture.1]
  · intro v hv
    obtain ⟨u, hu, rfl⟩ := List.mem_map.mp hv
    exact mul_nonneg hc.le (h.aperture.2 u hu)
  · show (it.out.maxInPixel.map _).length = it.n
    rw [List.length_map, h.maxPix.1]
  · intro v hv
    obtain ⟨u, hu, rfl⟩ := List.mem_map.mp hv
    exact mul_nonneg hc.le (h.maxPix.2 u hu)
  · obtain ⟨v, hv, h0⟩ := h.bright
    exact ⟨c * v, List.mem_map.mpr ⟨v, hv, rfl⟩, mul_pos hc h0⟩

theorem Obs.BuiltTable.scaled (c : ℝ) {it : Obs} (h : it.BuiltTable) : (it.scale c).BuiltTable :=
  ⟨h.pos, h.rect, h.clean, h.fresh, h.chName, h.win, h.wl, h.wlFin, h.winPos, h.signals, h.bins⟩

theorem substr_append_right (k q : String) : substr q (k ++ q) = true :=
  (Options.substr_iff q (k ++ q)).mpr ⟨k.toList, [], by simp [String.toList_append]⟩

/-- The columns of the star. -/
def lightNames : List String := ["starFlux", "starSignal", "star_signal_inAperture", "star_MaxSignal_inPixel"]

theorem flatMap_scale (c : ℝ) (items : List Obs) (f : Obs → List ℝ) (g : Obs → List ℝ) (h : ∀ it, g (it.scale c) = (f it).map (fun v => c * v)) :
    (items.map (Obs.scale c)).flatMap g = (items.flatMap f).map (fun v => c * v) := by
  induction items with
  | nil => rfl
  | cons it l ih => rw [List.map_cons, List.flatMap_cons, List.flatMap_cons, List.map_append, ih, h]

/-- The tables before the noise differ in the columns of the star only. -/
theorem merged_scale {c : ℝ} {items : List Obs} {sky : Foreground.Sky ℝ} {sed : Rebin.Signal ℝ} (hlit : ∀ it ∈ items, it.Lit sky sed)
    (hft : ∀ it ∈ items, "foreground_transmission" ∉ it.tab.keys) {M M' : Table ℝ} (hM : Merged items sky.transmission M)
    (hM' : Merged (items.map (Obs.scale c)) sky.transmission M') :
    (∀ k ∈ lightNames, ∃ l : List ℝ, M.get? k = some (col l) ∧ M'.get? k = some (col (l.map (fun v => c * v)))) ∧
    ∀ k ∉ lightNames, M'.get? k = M.get? k := by
  have mem' : ∀ {P : Obs → Prop}, (∀ it, P (it.scale c) ↔ P it) → ((∃ it ∈ items.map (Obs.scale c), P it) ↔ ∃ it ∈ items, P it) := by
    intro P hP
    constructor
    · rintro ⟨it', hit', h⟩
      obtain ⟨it, hit, rfl⟩ := List.mem_map.mp hit'
      exact ⟨it, hit, (hP it).mp h⟩
    · rintro ⟨it, hit, h⟩
      exact ⟨_, List.mem_map.mpr ⟨it, hit, rfl⟩, (hP it).mpr h⟩
  have all' : ∀ {P : Obs → Prop}, (∀ it, P (it.scale c) ↔ P it) → ((∀ it ∈ items.map (Obs.scale c), P it) ↔ ∀ it ∈ items, P it) := by
    intro P hP
    constructor
    · intro h it hit
      exact (hP it).mp (h _ (List.mem_map.mpr ⟨it, hit, rfl⟩))
    · intro h it' hit'
      obtain ⟨it, hit, rfl⟩ := List.mem_map.mp hit'
      exact (hP it).mpr (h it hit)
  have gone : ∀ {t : Table ℝ} {k : String}, k ∉ t.keys → t.get? k = none := fun h => (Dict.get?_eq_none_iff _ _).mpr h
  have efg : (items.map (Obs.scale c)).map Obs.fg = items.map Obs.fg := by rw [List.map_map]; rfl
  have etab : (items.map (Obs.scale c)).map Obs.tab = items.map Obs.tab := by rw [List.map_map]; rfl
  refine ⟨?_, ?_⟩
  · intro k hk
    simp only [lightNames, List.mem_cons, List.not_mem_nil, or_false] at hk
    rcases hk with rfl | rfl | rfl | rfl
    · refine ⟨_, hM.flux, ?_⟩
      rw [hM'.flux, flatMap_scale c items (fun it => it.out.starFlux) _ (fun it => rfl)]
    · refine ⟨_, hM.signal, ?_⟩
      rw [hM'.signal, flatMap_scale c items (fun it => it.out.starSignal) _ (fun it => rfl)]
    · refine ⟨_, hM.aperture, ?_⟩
      rw [hM'.aperture, flatMap_scale c items (fun it => it.out.inAperture) _ (fun it => rfl)]
    · refine ⟨_, hM.maxPix, ?_⟩
      rw [hM'.maxPix, flatMap_scale c items (fun it => it.out.maxInPixel) _ (fun it => rfl)]
  · intro k hk
    by_cases hfk : k = "foreground_transmission"
    · subst hfk
      cases hs : sky.transmission.isSome with
      | true =>
        rw [hM.trans hs, hM'.trans hs, List.flatMap_map]
        rfl
      | false =>
        have hfg : ∀ it ∈ items, "foreground_transmission" ∉ it.fg.keys := by
          intro it hit h
          obtain ⟨q, h1 | h1⟩ := channelForeground_shape (hlit it hit).fg _ h
          · have : substr "_signal" "foreground_transmission" = true := by rw [h1]; exact substr_append_right _ _
            exact absurd this (by decide)
          · have : substr "_MaxSignal_inPixel" "foreground_transmission" = true := by rw [h1]; exact substr_append_right _ _
            exact absurd this (by decide)
        rw [gone (hM.noTrans hs hfg hft), gone (hM'.noTrans hs ((all' (fun _ => Iff.rfl)).mpr hfg) ((all' (fun _ => Iff.rfl)).mpr hft))]
    · have hns : k ∉ starNames := by
        simp only [starNames, lightNames, List.mem_cons, List.not_mem_nil, or_false, not_or] at hk ⊢
        exact ⟨hfk, hk⟩
      by_cases h1 : ∃ it ∈ items, k ∈ it.fg.keys
      · rw [hM.fg k hns h1, hM'.fg k hns ((mem' (P := fun it => k ∈ it.fg.keys) (fun _ => Iff.rfl)).mpr h1), efg]
      · have h1' : ∀ it ∈ items, k ∉ it.fg.keys := fun it hit h => h1 ⟨it, hit, h⟩
        have h1'' := (all' (P := fun it => k ∉ it.fg.keys) (fun _ => Iff.rfl)).mpr h1'
        by_cases h2 : ∃ it ∈ items, k ∈ it.tab.keys
        · rw [hM.tab k hns h1' h2, hM'.tab k hns h1'' ((mem' (P := fun it => k ∈ it.tab.keys) (fun _ => Iff.rfl)).mpr h2), etab]
        · have h2' : ∀ it ∈ items, k ∉ it.tab.keys := fun it hit h => h2 ⟨it, hit, h⟩
          rw [gone (hM.none k hns h1' h2'), gone (hM'.none k hns h1'' ((all' (P := fun it => k ∉ it.tab.keys) (fun _ => Iff.rfl)).mpr h2'))]

/-- The table an observation returns and the table it had before the noise was estimated: the columns without noise are the
same, and only `MaxSignal_inPixel` and noise columns are added. -/
theorem observation_table (w : World) (p : Payload) (sec : Foreground.Section ℝ) (hsec : p.foreground = some sec)
    (d : Source.Descr) (hd : p.source = some d) (items : List Obs) (hne : items ≠ []) (hch : p.channels = items.map Obs.ch)
    (hnames : (items.map (fun it => it.ch.noise.value)).Nodup) (hfill : Fillable (items.map Obs.tab))
    (t : Target) (hf : Ready t) (sky : Foreground.Sky ℝ)
    (hsky : Foreground.estimateForegrounds w.consts.B w.maps w.skyGrid sec t.sky = (sky, .ok ())) (b : Source.Built ℝ)
    (hb : Source.loadSource w.consts w.env w.grid d t.star p.wlMin p.wlMax = .ok b)
    (hbuilt : ∀ it ∈ items, it.BuiltTable) (hlit : ∀ it ∈ items, it.Lit sky b.sed)
    (hnoise : ∀ it ∈ items, ∀ k, k ∈ it.tab.keys ∨ k ∈ it.fg.keys → ¬ NoiseName k)
    (well fw freq dark rn : NoiseChannel → ℝ)
    (hdet : ∀ it ∈ items, GoodDetector it.ch.noise.detector (well it.ch.noise) (fw it.ch.noise) (freq it.ch.noise) (dark it.ch.noise) (rn it.ch.noise))
    (hX : ∀ it ∈ items, -1 ≤ it.ch.noise.noiseX.getD 0)
    (hcust : ∀ it ∈ items, (∀ e ∈ entries it.ch.common, GoodEntry e) ∧ ∀ e ∈ entries it.ch.noise.customNoise, GoodEntry e) :
    ∃ (tabs' : List (Table ℝ)) (M r : Table ℝ),
      observe w p (items.map Obs.tab) t = (tabs', .ok { t with sky := sky, built := some b, table := some r }) ∧
      Merged items sky.transmission M ∧
      TargetTable M (items.map Obs.n).sum (fun i => (rowNames items).getD i "") (cellAt M) ∧ r.keys.Nodup ∧
      (∀ k ∈ M.keys, ¬ NoiseName k ∧ k ∈ r.keys ∧ r.get? k = M.get? k) ∧
      (∀ k ∈ r.keys, k ∈ M.keys ∨ k = "MaxSignal_inPixel" ∨ NoiseName k) := by
  obtain ⟨tabs', M, s1, s2, s3, s4, h1, h2, h3, h4, h5, hM⟩ := before_noise w p sec hsec d hd items hne hch hfill t hf sky hsky b hb hbuilt hlit
  obtain ⟨hchn, hTT, hgroup, hbright⟩ := merged_ready items hne p.channels hch hnames sky b.sed hbuilt hlit M hM
  have hmem : ∀ c ∈ p.channels.map (fun c => (c.noise, c.common)), ∃ it ∈ items, c = (it.ch.noise, it.ch.common) := by
    intro c hc
    rw [hch, List.map_map] at hc
    obtain ⟨it, hit, rfl⟩ := List.mem_map.mp hc
    exact ⟨it, hit, rfl⟩
  obtain ⟨r, ft, tot, hr, rnd, rkeep, -, -, -, -⟩ := estimate_noise_target M _ _ (cellAt M) hTT
    (p.channels.map (fun c => (c.noise, c.common))) (by rw [hch]; simpa using hne) hgroup hbright well fw freq dark rn
    (fun c hc => by obtain ⟨it, hit, rfl⟩ := hmem c hc; exact hdet it hit)
    (fun c hc => by obtain ⟨it, hit, rfl⟩ := hmem c hc; exact hX it hit)
    (fun c hc => by obtain ⟨it, hit, rfl⟩ := hmem c hc; exact hcust it hit)
  have h6 : noiseStep p.channels ⟨tabs', { t with sky := sky, built := some b, table := some M }⟩ =
      (⟨tabs', { t with sky := sky, built := some b, table := some r }⟩, .ok ()) := by
    unfold noiseStep
    simp only [hr]
  have hclean : ∀ k ∈ M.keys, ¬ NoiseName k := by
    intro k hk
    by_cases hs : k ∈ starNames
    · simp only [starNames, List.mem_cons, List.not_mem_nil, or_false] at hs
      unfold NoiseName
      rcases hs with rfl | rfl | rfl | rfl | rfl <;> decide
    · intro hn
      refine hM.none k hs ?_ ?_ hk
      · exact fun it hit h => hnoise it hit k (.inr h) hn
      · exact fun it hit h => hnoise it hit k (.inl h) hn
  obtain ⟨kin, kout⟩ := estimateNoise_keys _ _ _ hr
  refine ⟨tabs', M, r, (observe_ok_iff w p sec hsec _ _ _ _).mpr ⟨s1, s2, s3, s4, _, h1, h2, h3, h4, h5, h6⟩, hM, hTT, rnd, ?_, kout⟩
  intro k hk
  refine ⟨hclean k hk, kin k hk, ?_⟩
  have := hclean k hk
  unfold NoiseName at this
  push Not at this
  exact rkeep k hk (by simpa using this.1) this.2.1 this.2.2

/-- Sums of the same columns when one of them is `c` times the other. -/
theorem sum_columns_scaled {a b : Table ℝ} (ha : a.keys.Nodup) (hb : b.keys.Nodup) (P : String → Bool) (s : String) (hs : s ∈ a.keys)
    (hP : P s = true) (hk : ∀ k, P k = true → (k ∈ b.keys ↔ k ∈ a.keys)) (c : ℝ) (i : ℕ) (h0 : cellAt b s i = c * cellAt a s i)
    (h : ∀ k ∈ a.keys, P k = true → k ≠ s → cellAt b k i = cellAt a k i) :
    ((b.keys.filter P).map (fun k => cellAt b k i)).sum = ((a.keys.filter P).map (fun k => cellAt a k i)).sum + (c - 1) * cellAt a s i := by
  classical
  have hp : (b.keys.filter P).Perm (a.keys.filter P) := by
    rw [List.perm_ext_iff_of_nodup (hb.filter _) (ha.filter _)]
    intro k
    simp only [List.mem_filter]
    constructor
    · exact fun ⟨h1, h2⟩ => ⟨(hk k h2).mp h1, h2⟩
    · exact fun ⟨h1, h2⟩ => ⟨(hk k h2).mpr h1, h2⟩
  rw [(hp.map (fun k => cellAt b k i)).sum_eq]
  have hm : s ∈ (a.keys.filter P).toFinset := by simp [hs, hP]
  have e : ∀ k ∈ (a.keys.filter P).toFinset, cellAt b k i = cellAt a k i + (if k = s then (c - 1) * cellAt a s i else 0) := by
    intro k hk'
    rw [List.mem_toFinset, List.mem_filter] at hk'
    by_cases hks : k = s
    · subst hks
      rw [if_pos rfl, h0]
      ring
    · rw [if_neg hks, h k hk'.1 hk'.2 hks, add_zero]
  rw [← List.sum_toFinset _ (ha.filter _), ← List.sum_toFinset _ (ha.filter _), Finset.sum_congr rfl e, Finset.sum_add_distrib,
    Finset.sum_ite_eq' _ _ (fun _ => (c - 1) * cellAt a s i), if_pos hm]

theorem cellAt_col {t : Table ℝ} {k : String} {l : List ℝ} (h : t.get? k = some (col l)) (i : ℕ) : cellAt t k i = l.getD i 0 := by
  unfold cellAt
  rw [h]
  simp only [Option.getD_some, col, List.getD, List.getElem?_map]
  cases l[i]? with
  | none => rfl
  | some v => rfl

theorem cellAt_scaled {t t' : Table ℝ} {k : String} {l : List ℝ} {c : ℝ} (h : t.get? k = some (col l))
    (h' : t'.get? k = some (col (l.map (fun v => c * v)))) (i : ℕ) : cellAt t' k i = c * cellAt t k i := by
  rw [cellAt_col h, cellAt_col h']
  simp only [List.getD, List.getElem?_map]
  cases l[i]? with
  | none => simp
  | some v => rfl

/-- What two results have in common if the second star sends `c` times the light of the first: the columns of the star are
scaled by `c` and nothing else changes, except for the maximum signal and the noise. -/
structure Brighter (c : ℝ) (N : ℕ) (r r' : Table ℝ) : Prop where
  star : ∀ k ∈ lightNames, ∃ l : List ℝ, r.get? k = some (col l) ∧ r'.get? k = some (col (l.map (fun v => c * v)))
  other : ∀ k ∉ lightNames, k ≠ "MaxSignal_inPixel" → ¬ NoiseName k → r'.get? k = r.get? k
  signals : ∀ i, signalSum r' i = signalSum r i + (c - 1) * cellAt r "star_signal_inAperture" i
  maxima : ∀ i, maxSum r' i = maxSum r i + (c - 1) * cellAt r "star_MaxSignal_inPixel" i
  starSignal : ∀ i < N, 0 ≤ cellAt r "star_signal_inAperture" i ∧ cellAt r "star_signal_inAperture" i ≤ signalSum r i
  window : ∀ i < N, 0 ≤ cellAt r "WindowSize" i
  starMax : ∀ i < N, 0 ≤ cellAt r "star_MaxSignal_inPixel" i ∧ cellAt r "star_MaxSignal_inPixel" i ≤ maxSum r i

theorem brighter_of_tables {c : ℝ} {N : ℕ} {name name' : ℕ → String} {M M' r r' : Table ℝ}
    (hs : ∀ k ∈ lightNames, ∃ l : List ℝ, M.get? k = some (col l) ∧ M'.get? k = some (col (l.map (fun v => c * v))))
    (ho : ∀ k ∉ lightNames, M'.get? k = M.get? k)
    (hT : TargetTable M N name (cellAt M)) (hT' : TargetTable M' N name' (cellAt M')) (rnd : r.keys.Nodup) (rnd' : r'.keys.Nodup)
    (keep : ∀ k ∈ M.keys, ¬ NoiseName k ∧ k ∈ r.keys ∧ r.get? k = M.get? k)
    (keep' : ∀ k ∈ M'.keys, ¬ NoiseName k ∧ k ∈ r'.keys ∧ r'.get? k = M'.get? k)
    (out : ∀ k ∈ r.keys, k ∈ M.keys ∨ k = "MaxSignal_inPixel" ∨ NoiseName k)
    (out' : ∀ k ∈ r'.keys, k ∈ M'.keys ∨ k = "MaxSignal_inPixel" ∨ NoiseName k) : Brighter c N r r' := by
  have same : ∀ k, k ∈ M'.keys ↔ k ∈ M.keys := by
    intro k
    by_cases hk : k ∈ lightNames
    · obtain ⟨l, h1, h2⟩ := hs k hk
      exact ⟨fun _ => mem_keys_of_get h1, fun _ => mem_keys_of_get h2⟩
    · rw [← not_iff_not, ← Dict.get?_eq_none_iff, ← Dict.get?_eq_none_iff, ho k hk]
  have star : ∀ k ∈ lightNames, ∃ l : List ℝ, r.get? k = some (col l) ∧ r'.get? k = some (col (l.map (fun v => c * v))) := by
    intro k hk
    obtain ⟨l, h1, h2⟩ := hs k hk
    exact ⟨l, by rw [(keep k (mem_keys_of_get h1)).2.2, h1], by rw [(keep' k (mem_keys_of_get h2)).2.2, h2]⟩
  have other : ∀ k ∉ lightNames, k ≠ "MaxSignal_inPixel" → ¬ NoiseName k → r'.get? k = r.get? k := by
    intro k hk hm hn
    by_cases hkM : k ∈ M.keys
    · rw [(keep k hkM).2.2, (keep' k ((same k).mpr hkM)).2.2, ho k hk]
    · have h1 : k ∉ r.keys := fun h => (out k h).elim hkM (fun h => h.elim hm hn)
      have h2 : k ∉ r'.keys := fun h => (out' k h).elim (fun h => hkM ((same k).mp h)) (fun h => h.elim hm hn)
      rw [(Dict.get?_eq_none_iff _ _).mpr h1, (Dict.get?_eq_none_iff _ _).mpr h2]
  -- the columns that are summed
  have clean : ∀ (P : String → Bool), (∀ k, P k = true → k ≠ "MaxSignal_inPixel" ∧ ¬ NoiseName k) → ∀ k, P k = true → (k ∈ r.keys ↔ k ∈ M.keys) := by
    intro P hP k hk
    refine ⟨fun h => ?_, fun h => (keep k h).2.1⟩
    exact (out k h).elim id (fun e => e.elim (fun e => absurd e (hP k hk).1) (fun e => absurd e (hP k hk).2))
  have clean' : ∀ (P : String → Bool), (∀ k, P k = true → k ≠ "MaxSignal_inPixel" ∧ ¬ NoiseName k) → ∀ k, P k = true → (k ∈ r'.keys ↔ k ∈ r.keys) := by
    intro P hP k hk
    rw [clean P hP k hk, ← same k]
    refine ⟨fun h => ?_, fun h => (keep' k h).2.1⟩
    exact (out' k h).elim id (fun e => e.elim (fun e => absurd e (hP k hk).1) (fun e => absurd e (hP k hk).2))
  have hsig : ∀ k, (substr "signal" k && !substr "_noise" k) = true → k ≠ "MaxSignal_inPixel" ∧ ¬ NoiseName k := by
    intro k hk
    simp only [Bool.and_eq_true, Bool.not_eq_true'] at hk
    refine ⟨?_, ?_⟩
    · rintro rfl; exact absurd hk.1 (by decide)
    · rintro (h | rfl | rfl)
      · rw [hk.2] at h; cases h
      · exact absurd hk.1 (by decide)
      · exact absurd hk.1 (by decide)
  have hmax : ∀ k, (substr "Max" k && !substr "_noise" k && !decide (k = "MaxSignal_inPixel")) = true → k ≠ "MaxSignal_inPixel" ∧ ¬ NoiseName k := by
    intro k hk
    simp only [Bool.and_eq_true, Bool.not_eq_true', decide_eq_false_iff_not] at hk
    refine ⟨hk.2, ?_⟩
    rintro (h | rfl | rfl)
    · rw [hk.1.2] at h; cases h
    · exact absurd hk.1.1 (by decide)
    · exact absurd hk.1.1 (by decide)
  have scaled : ∀ k ∈ lightNames, ∀ i, cellAt r' k i = c * cellAt r k i := by
    intro k hk i
    obtain ⟨l, h1, h2⟩ := star k hk
    exact cellAt_scaled h1 h2 i
  have hstar : "star_signal_inAperture" ∈ M.keys := hT.star
  have hpix : "star_MaxSignal_inPixel" ∈ M.keys := by
    obtain ⟨l, h1, _⟩ := hs "star_MaxSignal_inPixel" (by decide)
    exact mem_keys_of_get h1
  have val : ∀ k ∈ M.keys, ∀ i, cellAt r k i = cellAt M k i := fun k hk i => cellAt_congr (keep k hk).2.2 i
  refine ⟨star, other, ?_, ?_, ?_, fun i hi => by rw [val _ hT.win]; exact hT.win0 i hi, ?_⟩
  · intro i
    refine sum_columns_scaled rnd rnd' _ "star_signal_inAperture" (keep _ hstar).2.1 (by decide) (clean' _ hsig) c i (scaled _ (by decide) i) ?_
    intro k _ hP hne
    refine cellAt_congr (other k ?_ (hsig k hP).1 (hsig k hP).2) i
    intro hk
    simp only [Bool.and_eq_true] at hP
    simp only [lightNames, List.mem_cons, List.not_mem_nil, or_false] at hk
    rcases hk with rfl | rfl | rfl | rfl
    · exact absurd hP.1 (by decide)
    · exact absurd hP.1 (by decide)
    · exact hne rfl
    · exact absurd hP.1 (by decide)
  · intro i
    refine sum_columns_scaled rnd rnd' _ "star_MaxSignal_inPixel" (keep _ hpix).2.1 (by decide) (clean' _ hmax) c i (scaled _ (by decide) i) ?_
    intro k _ hP hne
    refine cellAt_congr (other k ?_ (hmax k hP).1 (hmax k hP).2) i
    intro hk
    simp only [Bool.and_eq_true] at hP
    simp only [lightNames, List.mem_cons, List.not_mem_nil, or_false] at hk
    rcases hk with rfl | rfl | rfl | rfl
    · exact absurd hP.1.1 (by decide)
    · exact absurd hP.1.1 (by decide)
    · exact absurd hP.1.1 (by decide)
    · exact hne rfl
  · intro i hi
    refine ⟨by rw [val _ hstar]; exact hT.signal0 _ hstar (by decide) i hi, ?_⟩
    unfold signalSum
    refine le_sum_of_mem ?_ (List.mem_map.mpr ⟨"star_signal_inAperture", List.mem_filter.mpr ⟨(keep _ hstar).2.1, by decide⟩, rfl⟩)
    intro y hy
    obtain ⟨k, hk, rfl⟩ := List.mem_map.mp hy
    obtain ⟨h1, h2⟩ := List.mem_filter.mp hk
    have hkM := (clean _ hsig k h2).mp h1
    rw [val k hkM]
    simp only [Bool.and_eq_true] at h2
    exact hT.signal0 k hkM h2.1 i hi
  · intro i hi
    refine ⟨by rw [val _ hpix]; exact hT.max0 _ hpix (by decide) i hi, ?_⟩
    unfold maxSum
    refine le_sum_of_mem ?_ (List.mem_map.mpr ⟨"star_MaxSignal_inPixel", List.mem_filter.mpr ⟨(keep _ hpix).2.1, by decide⟩, rfl⟩)
    intro y hy
    obtain ⟨k, hk, rfl⟩ := List.mem_map.mp hy
    obtain ⟨h1, h2⟩ := List.mem_filter.mp hk
    have hkM := (clean _ hmax k h2).mp h1
    rw [val k hkM]
    simp only [Bool.and_eq_true] at h2
    exact hT.max0 k hkM h2.1.1 i hi

/-- C97: two targets observed with the same payload, the second star with `c` times the light of the first. Both
observations succeed, the columns of the star are scaled by `c`, and every other column is the same, except for the
maximum signal (which grows by what the star adds) and the noise. -/
theorem signal_proportional (w : World) (p : Payload) (sec : Foreground.Section ℝ) (hsec : p.foreground = some sec)
    (d : Source.Descr) (hd : p.source = some d) (items : List Obs) (hne : items ≠ []) (hch : p.channels = items.map Obs.ch)
    (hnames : (items.map (fun it => it.ch.noise.value)).Nodup) (hfill : Fillable (items.map Obs.tab))
    (t t' : Target) (hf : Ready t) (hf' : Ready t') (sky : Foreground.Sky ℝ)
    (hsky : Foreground.estimateForegrounds w.consts.B w.maps w.skyGrid sec t.sky = (sky, .ok ())) (hsame : t'.sky = t.sky)
    (b b' : Source.Built ℝ)
    (hb : Source.loadSource w.consts w.env w.grid d t.star p.wlMin p.wlMax = .ok b)
    (hb' : Source.loadSource w.consts w.env w.grid d t'.star p.wlMin p.wlMax = .ok b') (c : ℝ) (hc : 0 < c)
    (hwl : b'.sed.wl = b.sed.wl) (hdata : b'.sed.data = b.sed.data.map (fun v => c * v))
    (hbuilt : ∀ it ∈ items, it.BuiltTable) (hlit : ∀ it ∈ items, it.Lit sky b.sed)
    (hnoise : ∀ it ∈ items, ∀ k, k ∈ it.tab.keys ∨ k ∈ it.fg.keys → ¬ NoiseName k)
    (hft : ∀ it ∈ items, "foreground_transmission" ∉ it.tab.keys)
    (well fw freq dark rn : NoiseChannel → ℝ)
    (hdet : ∀ it ∈ items, GoodDetector it.ch.noise.detector (well it.ch.noise) (fw it.ch.noise) (freq it.ch.noise) (dark it.ch.noise) (rn it.ch.noise))
    (hX : ∀ it ∈ items, -1 ≤ it.ch.noise.noiseX.getD 0)
    (hcust : ∀ it ∈ items, (∀ e ∈ entries it.ch.common, GoodEntry e) ∧ ∀ e ∈ entries it.ch.noise.customNoise, GoodEntry e) :
    ∃ (tabs₁ tabs₂ : List (Table ℝ)) (r r' : Table ℝ),
      observe w p (items.map Obs.tab) t = (tabs₁, .ok { t with sky := sky, built := some b, table := some r }) ∧
      observe w p (items.map Obs.tab) t' = (tabs₂, .ok { t' with sky := sky, built := some b', table := some r' }) ∧
      Brighter c (rowNames items).length r r' := by
  have hsed : b'.sed = Source.scale c b.sed := by
    obtain ⟨⟨wl, data⟩, _, _⟩ := b'
    simp only at hwl hdata
    rw [hwl, hdata]
    rfl
  have hlen : (rowNames items).length = (items.map Obs.n).sum := length_flatMap_sum _ _ _ (fun it _ => by simp)
  have hmem : ∀ {P : Obs → Prop}, (∀ it ∈ items, P (it.scale c)) → ∀ it ∈ items.map (Obs.scale c), P it := by
    intro P h it' hit'
    obtain ⟨it, hit, rfl⟩ := List.mem_map.mp hit'
    exact h it hit
  obtain ⟨tabs₁, M, r, o1, hM, hT, rnd, keep, out⟩ := observation_table w p sec hsec d hd items hne hch hnames hfill t hf sky hsky b hb hbuilt hlit
    hnoise well fw freq dark rn hdet hX hcust
  have etab : (items.map (Obs.scale c)).map Obs.tab = items.map Obs.tab := by rw [List.map_map]; rfl
  have en : (items.map (Obs.scale c)).map Obs.n = items.map Obs.n := by rw [List.map_map]; rfl
  obtain ⟨tabs₂, M', r', o2, hM', hT', rnd', keep', out'⟩ := observation_table w p sec hsec d hd (items.map (Obs.scale c)) (by simpa using hne)
    (by rw [hch, List.map_map]; rfl) (by rw [List.map_map]; exact hnames) (by rw [etab]; exact hfill) t' hf' sky (by rw [hsame]; exact hsky) b' hb'
    (hmem (fun it hit => (hbuilt it hit).scaled c)) (by rw [hsed]; exact hmem (fun it hit => (hlit it hit).scaled hc))
    (hmem (fun it hit => hnoise it hit)) well fw freq dark rn (hmem (fun it hit => hdet it hit)) (hmem (fun it hit => hX it hit))
    (hmem (fun it hit => hcust it hit))
  obtain ⟨hs, ho⟩ := merged_scale hlit hft hM hM'
  rw [etab] at o2
  rw [en] at hT'
  rw [hlen]
  exact ⟨tabs₁, tabs₂, r, r', o1, o2, brighter_of_tables hs ho hT hT' rnd rnd' keep keep' out out'⟩

/-! ## A star further away -/

/-- A star moved to `k` times its distance sends `1 / k²` of its light, whatever its model. -/
theorem source_moved (c : Source.Consts ℝ) (env : Source.Env ℝ) (grid : ℝ → ℝ → List ℝ) (d : Source.Descr) (lo hi : Source.Wl ℝ) (D T M R k : ℝ)
    (hk : k ≠ 0) (b : Source.Built ℝ) (hb : Source.loadSource c env grid d ⟨some D, some T, some M, some R⟩ lo hi = .ok b) :
    ∃ b', Source.loadSource c env grid d ⟨some (k * D), some T, some M, some R⟩ lo hi = .ok b' ∧ b'.sed.wl = b.sed.wl ∧
      b'.sed.data = b.sed.data.map (fun v => 1 / k ^ 2 * v) := by
  obtain ⟨f, h⟩ := Source.sed_solid_angle c env grid d lo hi T (c.logg M R)
  have h1 := h D M R rfl
  have h2 := h (k * D) M R rfl
  unfold Source.Diluted Source.surface at h1 h2
  rw [hb] at h1
  cases hb' : Source.loadSource c env grid d ⟨some (k * D), some T, some M, some R⟩ lo hi with
  | error e =>
    rw [hb'] at h2
    cases f with
    | error e => simp [Except.map] at h1
    | ok q => simp [Except.map] at h2
  | ok b' =>
    rw [hb'] at h2
    cases f with
    | error e => simp [Except.map] at h1
    | ok q =>
      simp only [Except.map, Except.ok.injEq, Prod.mk.injEq] at h1 h2
      refine ⟨b', rfl, by rw [h1.1, h2.1]; rfl, ?_⟩
      rw [h1.1, h2.1]
      simp only [Source.scale, List.map_map]
      apply List.map_congr_left
      intro v _
      simp only [Function.comp]
      rw [div_pow, div_pow, mul_pow]
      by_cases hD : D = 0
      · simp [hD]
      · field_simp

/-- C97: the same star at `k` times the distance. The observation succeeds too, its star columns are `1 / k²` times those of
the nearer star, and every other column without noise is the same, except for the maximum signal. -/
theorem signal_distance (w : World) (p : Payload) (sec : Foreground.Section ℝ) (hsec : p.foreground = some sec)
    (d : Source.Descr) (hd : p.source = some d) (items : List Obs) (hne : items ≠ []) (hch : p.channels = items.map Obs.ch)
    (hnames : (items.map (fun it => it.ch.noise.value)).Nodup) (hfill : Fillable (items.map Obs.tab))
    (t : Target) (hf : Ready t) (D T M R k : ℝ) (hk : 0 < k) (hstar : t.star = ⟨some D, some T, some M, some R⟩) (sky : Foreground.Sky ℝ)
    (hsky : Foreground.estimateForegrounds w.consts.B w.maps w.skyGrid sec t.sky = (sky, .ok ())) (b : Source.Built ℝ)
    (hb : Source.loadSource w.consts w.env w.grid d t.star p.wlMin p.wlMax = .ok b)
    (hbuilt : ∀ it ∈ items, it.BuiltTable) (hlit : ∀ it ∈ items, it.Lit sky b.sed)
    (hnoise : ∀ it ∈ items, ∀ k, k ∈ it.tab.keys ∨ k ∈ it.fg.keys → ¬ NoiseName k)
    (hft : ∀ it ∈ items, "foreground_transmission" ∉ it.tab.keys)
    (well fw freq dark rn : NoiseChannel → ℝ)
    (hdet : ∀ it ∈ items, GoodDetector it.ch.noise.detector (well it.ch.noise) (fw it.ch.noise) (freq it.ch.noise) (dark it.ch.noise) (rn it.ch.noise))
    (hX : ∀ it ∈ items, -1 ≤ it.ch.noise.noiseX.getD 0)
    (hcust : ∀ it ∈ items, (∀ e ∈ entries it.ch.common, GoodEntry e) ∧ ∀ e ∈ entries it.ch.noise.customNoise, GoodEntry e) :
    ∃ (tabs₁ tabs₂ : List (Table ℝ)) (r r' : Table ℝ) (b' : Source.Built ℝ),
      observe w p (items.map Obs.tab) t = (tabs₁, .ok { t with sky := sky, built := some b, table := some r }) ∧
      observe w p (items.map Obs.tab) { t with star := ⟨some (k * D), some T, some M, some R⟩ } =
        (tabs₂, .ok { t with star := ⟨some (k * D), some T, some M, some R⟩, sky := sky, built := some b', table := some r' }) ∧
      Brighter (1 / k ^ 2) (rowNames items).length r r' := by
  have hb0 := hb
  rw [hstar] at hb0
  obtain ⟨b', hb', h1, h2⟩ := source_moved w.consts w.env w.grid d p.wlMin p.wlMax D T M R k hk.ne' b hb0
  obtain ⟨tabs₁, tabs₂, r, r', o1, o2, o3⟩ := signal_proportional w p sec hsec d hd items hne hch hnames hfill t
    { t with star := ⟨some (k * D), some T, some M, some R⟩ } hf ⟨hf.fresh, hf.catalogued⟩ sky hsky rfl b b' hb hb' (1 / k ^ 2) (by positivity) h1 h2 hbuilt hlit hnoise hft
    well fw freq dark rn hdet hX hcust
  exact ⟨tabs₁, tabs₂, r, r', b', o1, o2, o3⟩

/-! ## The noise -/

theorem shotGain_mono {n n' : ℝ} (h2 : 2 ≤ n') (h : n' = n ∨ n' + 1 ≤ n) : Spec.shotGain n' ≤ Spec.shotGain n := by
  rcases h with rfl | h
  · exact le_rfl
  · have h2' : 2 ≤ n := by linarith
    have hle : n' ≤ n := by linarith
    unfold Spec.shotGain
    rw [div_le_div_iff₀ (by positivity) (by positivity)]
    nlinarith [mul_nonneg (sub_nonneg.mpr h) (sub_nonneg.mpr h2), mul_nonneg (sub_nonneg.mpr h2') (sub_nonneg.mpr h2),
      mul_nonneg (mul_nonneg (sub_nonneg.mpr h2') (sub_nonneg.mpr h2)) (sub_nonneg.mpr hle), mul_nonneg (sub_nonneg.mpr hle) (sub_nonneg.mpr h2)]

theorem reads_step (t t' f : ℝ) (h : t' ≤ t) (hf : 0 ≤ f) : Spec.reads t' f = Spec.reads t f ∨ Spec.reads t' f + 1 ≤ Spec.reads t f := by
  have e : ∀ x, Spec.reads x f = ((max 2 ⌊x * f⌋ : ℤ) : ℝ) := by
    intro x; unfold Spec.reads; push_cast; rfl
  rw [e, e]
  have hle' : (max 2 ⌊t' * f⌋ : ℤ) ≤ max 2 ⌊t * f⌋ := max_le_max_left _ (Int.floor_le_floor (mul_le_mul_of_nonneg_right h hf))
  rcases hle'.eq_or_lt with h | h
  · left; exact_mod_cast h
  · right; exact_mod_cast h

theorem reads_two (t f : ℝ) : 2 ≤ Spec.reads t f := le_max_left _ _

theorem shotGain_pos {n : ℝ} (h : 2 ≤ n) : 0 < Spec.shotGain n := by
  unfold Spec.shotGain
  positivity

/-- The read gain of the shorter ramp of a brighter star, against its greater signal. -/
theorem readGain_brighter {t t' f c m : ℝ} (ht : 0 < t') (h1 : t' ≤ t) (h2 : t ≤ c * t') (hf : 0 ≤ f) (hm : 0 < m) (hc : 1 ≤ c) :
    Spec.readGain (Spec.reads t' f) m ≤ 5 / 4 * (c * Spec.readGain (Spec.reads t f) m) := by
  have hstep := reads_step t t' f h1 hf
  have hn' := reads_two t' f
  have hn := reads_two t f
  -- the reads of the longer ramp
  have hb : Spec.reads t f ≤ c * (Spec.reads t' f + 1) := by
    have hl : t' * f < Spec.reads t' f + 1 := by
      have := Int.lt_floor_add_one (t' * f)
      have h3 : ((⌊t' * f⌋ : ℤ) : ℝ) ≤ Spec.reads t' f := le_max_right _ _
      linarith
    unfold Spec.reads at hn ⊢
    apply max_le
    · have : (2 : ℝ) ≤ Spec.reads t' f + 1 := by linarith
      unfold Spec.reads at this
      nlinarith
    · have h3 := Int.floor_le (t * f)
      have h4 : t * f ≤ c * (t' * f) := by nlinarith [mul_le_mul_of_nonneg_right h2 hf]
      have h5 : c * (t' * f) ≤ c * (Spec.reads t' f + 1) := by nlinarith
      unfold Spec.reads at h5
      linarith
  have hint : Spec.reads t f = 2 ∨ Spec.reads t f = 3 ∨ 4 ≤ Spec.reads t f := by
    have e : Spec.reads t f = ((max 2 ⌊t * f⌋ : ℤ) : ℝ) := by unfold Spec.reads; push_cast; rfl
    rw [e]
    have : (max 2 ⌊t * f⌋ : ℤ) = 2 ∨ (max 2 ⌊t * f⌋ : ℤ) = 3 ∨ 4 ≤ (max 2 ⌊t * f⌋ : ℤ) := by omega
    rcases this with h | h | h
    · left; rw [h]; norm_num
    · right; left; rw [h]; norm_num
    · right; right; exact_mod_cast h
  generalize Spec.reads t f = n at hstep hb hint hn
  generalize Spec.reads t' f = n' at hstep hb hn'
  unfold Spec.readGain
  have hn0 : 0 < n := by linarith
  have hn0' : 0 < n' := by linarith
  have key : 12 * (n' - 1) / (n' * (n' + 1)) ≤ 5 / 4 * c * (12 * (n - 1) / (n * (n + 1))) := by
    rcases hstep with rfl | hstep
    · have : 0 ≤ 12 * (n' - 1) / (n' * (n' + 1)) := div_nonneg (by linarith) (by positivity)
      nlinarith
    · have hnn : n' ≤ n := by linarith
      rcases hint with rfl | rfl | h4
      · linarith
      · have : n' = 2 := by linarith
        subst this
        norm_num
        linarith
      · rw [mul_div_assoc', div_le_div_iff₀ (by positivity) (by positivity)]
        -- n ≤ c (n'+1), (n'-1) n ≤ n' (n-1), 4 (n+1) ≤ 5 n
        have e1 : (n' - 1) * n ≤ n' * (n - 1) := by nlinarith
        have e2 : 0 ≤ n' * (n - 1) := mul_nonneg hn0'.le (by linarith)
        have e3 : 4 * (n + 1) ≤ 5 * n := by linarith
        have e4 : 4 * ((n' - 1) * n * (n + 1)) ≤ n' * (n - 1) * (5 * n) := by
          calc 4 * ((n' - 1) * n * (n + 1)) = ((n' - 1) * n) * (4 * (n + 1)) := by ring
            _ ≤ (n' * (n - 1)) * (4 * (n + 1)) := mul_le_mul_of_nonneg_right e1 (by linarith)
            _ ≤ (n' * (n - 1)) * (5 * n) := mul_le_mul_of_nonneg_left e3 e2
        have e5 : n' * (n - 1) * (5 * n) ≤ n' * (n - 1) * (5 * (c * (n' + 1))) := mul_le_mul_of_nonneg_left (by linarith) e2
        nlinarith
  calc 12 * (n' - 1) / (n' * (n' + 1)) / m ≤ 5 / 4 * c * (12 * (n - 1) / (n * (n + 1))) / m := div_le_div_of_nonneg_right key hm.le
    _ = 5 / 4 * (c * (12 * (n - 1) / (n * (n + 1)) / m)) := by ring

theorem variance_bound {A A' B B' C c q star : ℝ} (hc : 1 ≤ c) (hs : 0 < star) (hA0 : 0 ≤ A) (hC0 : 0 ≤ C) (hAA : A' ≤ c * A) (hq : 1 ≤ q)
    (hB : 0 ≤ B) (hBB : B' ≤ q * (c ^ 2 * B)) :
    (A' + B') / 3600 / (c * star) ^ 2 + C ≤ q * ((A + B) / 3600 / star ^ 2 + C) := by
  have hc0 : 0 < c := by linarith
  have hcc : c ≤ c ^ 2 := by nlinarith
  have h1 : c * A ≤ c ^ 2 * A := mul_le_mul_of_nonneg_right hcc hA0
  have h2 : c ^ 2 * A ≤ q * (c ^ 2 * A) := le_mul_of_one_le_left (by positivity) hq
  have h3 : A' + B' ≤ q * (c ^ 2 * (A + B)) := by
    have : q * (c ^ 2 * (A + B)) = q * (c ^ 2 * A) + q * (c ^ 2 * B) := by ring
    linarith
  have h4 : (A' + B') / 3600 / (c * star) ^ 2 ≤ q * ((A + B) / 3600 / star ^ 2) := by
    have e : q * ((A + B) / 3600 / star ^ 2) = q * (c ^ 2 * (A + B)) / 3600 / (c * star) ^ 2 := by
      field_simp
    rw [e]
    exact div_le_div_of_nonneg_right (div_le_div_of_nonneg_right h3 (by norm_num)) (by positivity)
  have h5 : C ≤ q * C := le_mul_of_one_le_left hC0 hq
  rw [mul_add]
  linarith

/-- The relative variance of a bin whose star sends `c` times the light, read with a frame shorter by a factor of at most
`c`. -/
theorem relVariance_brighter {dark read X t t' f m star total win c : ℝ} (customs : List ℝ) (hd : 0 ≤ dark) (hX : -1 ≤ X) (ht : 0 < t') (h1 : t' ≤ t)
    (h2 : t ≤ c * t') (hf : 0 ≤ f) (hm : 0 < m) (hc : 1 ≤ c) (hs : 0 < star) (hst : star ≤ total) (hw : 0 ≤ win) :
    (read = 0 ∨ t' = t →
      Spec.relVariance ⟨dark, read, X, t', f, m⟩ ⟨c * star, total + (c - 1) * star, win⟩ customs ≤
        Spec.relVariance ⟨dark, read, X, t, f, m⟩ ⟨star, total, win⟩ customs) ∧
    Spec.relVariance ⟨dark, read, X, t', f, m⟩ ⟨c * star, total + (c - 1) * star, win⟩ customs ≤
      5 / 4 * Spec.relVariance ⟨dark, read, X, t, f, m⟩ ⟨star, total, win⟩ customs := by
  have hc0 : 0 < c := by linarith
  have ht0 : 0 < t := ht.trans_le h1
  obtain ⟨g, hg⟩ : ∃ g, g = Spec.shotGain (Spec.reads t f) := ⟨_, rfl⟩
  obtain ⟨g', hg'⟩ : ∃ g', g' = Spec.shotGain (Spec.reads t' f) := ⟨_, rfl⟩
  obtain ⟨ρ, hρ⟩ : ∃ ρ, ρ = Spec.readGain (Spec.reads t f) m := ⟨_, rfl⟩
  obtain ⟨ρ', hρ'⟩ : ∃ ρ', ρ' = Spec.readGain (Spec.reads t' f) m := ⟨_, rfl⟩
  have hgg : g' ≤ g := by rw [hg, hg']; exact shotGain_mono (reads_two _ _) (reads_step t t' f h1 hf)
  have hg0 : 0 < g' := by rw [hg']; exact shotGain_pos (reads_two _ _)
  have hρ0 : 0 ≤ ρ := by rw [hρ]; exact (readGain_pos (reads_two _ _) hm).le
  have hρ0' : 0 ≤ ρ' := by rw [hρ']; exact (readGain_pos (reads_two _ _) hm).le
  have hρρ : ρ' ≤ 5 / 4 * (c * ρ) := by rw [hρ, hρ']; exact readGain_brighter ht h1 h2 hf hm hc
  obtain ⟨A, hA⟩ : ∃ A, A = g * win * dark + (1 + X) * g * total := ⟨_, rfl⟩
  obtain ⟨A', hA'⟩ : ∃ A', A' = g' * win * dark + (1 + X) * g' * (total + (c - 1) * star) := ⟨_, rfl⟩
  obtain ⟨C, hC⟩ : ∃ C, C = (customs.map (fun v => (v / 1000000) ^ 2)).sum := ⟨_, rfl⟩
  have hC0 : 0 ≤ C := by
    rw [hC]
    apply List.sum_nonneg
    intro x hx
    obtain ⟨v, _, rfl⟩ := List.mem_map.mp hx
    positivity
  have e : Spec.relVariance ⟨dark, read, X, t, f, m⟩ ⟨star, total, win⟩ customs = (A + ρ * read ^ 2 * win / t) / 3600 / star ^ 2 + C := by
    rw [hA, hC, hg, hρ]; rfl
  have e' : Spec.relVariance ⟨dark, read, X, t', f, m⟩ ⟨c * star, total + (c - 1) * star, win⟩ customs =
      (A' + ρ' * read ^ 2 * win / t') / 3600 / (c * star) ^ 2 + C := by
    rw [hA', hC, hg', hρ']; rfl
  have hA0 : 0 ≤ A := by
    rw [hA]
    have : 0 ≤ g * win * dark := by have := hg0.le.trans hgg; positivity
    have : 0 ≤ (1 + X) * g * total := mul_nonneg (mul_nonneg (by linarith) (hg0.le.trans hgg)) (by linarith)
    linarith
  -- light: at most c times the variance
  have hAA : A' ≤ c * A := by
    have a1 : g' * win * dark ≤ c * (g * win * dark) := by
      have : g' * win * dark ≤ g * win * dark := by
        have := mul_nonneg hw hd
        nlinarith
      have h0 : 0 ≤ g * win * dark := by have := hg0.le.trans hgg; positivity
      nlinarith
    have a2 : total + (c - 1) * star ≤ c * total := by nlinarith
    have a3 : (1 + X) * g' * (total + (c - 1) * star) ≤ c * ((1 + X) * g * total) := by
      have x1 : 0 ≤ (1 + X) * g' := mul_nonneg (by linarith) hg0.le
      have x2 : (1 + X) * g' ≤ (1 + X) * g := mul_le_mul_of_nonneg_left hgg (by linarith)
      have x3 : 0 ≤ c * total := mul_nonneg hc0.le (by linarith)
      calc (1 + X) * g' * (total + (c - 1) * star) ≤ (1 + X) * g' * (c * total) := mul_le_mul_of_nonneg_left a2 x1
        _ ≤ (1 + X) * g * (c * total) := mul_le_mul_of_nonneg_right x2 x3
        _ = c * ((1 + X) * g * total) := by ring
    rw [hA, hA']
    linarith
  have final : ∀ {B B' q : ℝ}, 1 ≤ q → 0 ≤ B → B' ≤ q * (c ^ 2 * B) →
      (A' + B') / 3600 / (c * star) ^ 2 + C ≤ q * ((A + B) / 3600 / star ^ 2 + C) :=
    fun hq hB hBB => variance_bound hc hs hA0 hC0 hAA hq hB hBB
  have hB0 : 0 ≤ ρ * read ^ 2 * win / t := by positivity
  rw [e, e']
  refine ⟨?_, ?_⟩
  · rintro (h | h)
    · subst h
      have := final (B := ρ * 0 ^ 2 * win / t) (B' := ρ' * 0 ^ 2 * win / t') (q := 1) le_rfl hB0 (by simp)
      simpa using this
    · subst h
      have hrr : ρ' = ρ := by rw [hρ, hρ']
      have := final (B := ρ * read ^ 2 * win / t') (B' := ρ' * read ^ 2 * win / t') (q := 1) le_rfl hB0 (by
        rw [hrr, one_mul]
        exact le_mul_of_one_le_left hB0 (one_le_pow₀ hc))
      simpa using this
  · refine final (by norm_num) hB0 ?_
    have i1 : ρ' * read ^ 2 * win / t' ≤ 5 / 4 * (c * ρ) * read ^ 2 * win / t' := by
      apply div_le_div_of_nonneg_right _ ht.le
      rw [mul_assoc, mul_assoc _ (read ^ 2)]
      exact mul_le_mul_of_nonneg_right hρρ (by positivity)
    have i2 : 5 / 4 * (c * ρ) * read ^ 2 * win / t' ≤ 5 / 4 * (c * ρ) * read ^ 2 * win / (t / c) := by
      apply div_le_div_of_nonneg_left (by positivity) (by positivity)
      rw [div_le_iff₀ hc0]
      linarith
    have i3 : 5 / 4 * (c * ρ) * read ^ 2 * win / (t / c) = 5 / 4 * (c ^ 2 * (ρ * read ^ 2 * win / t)) := by
      field_simp
    linarith

/-- C98: two targets observed with the same payload, the second star with `c ≥ 1` times the light of the first. In every
channel the frame of the second is not longer, and shorter by a factor of at most `c`. In every row with signal the relative
noise of the second is at most √(5/4) times that of the first; and it is not greater where the channel has no read noise or
the frame time is given by the option. -/
theorem brighter_noise (w : World) (p : Payload) (sec : Foreground.Section ℝ) (hsec : p.foreground = some sec)
    (d : Source.Descr) (hd : p.source = some d) (items : List Obs) (hne : items ≠ []) (hch : p.channels = items.map Obs.ch)
    (hnames : (items.map (fun it => it.ch.noise.value)).Nodup) (hfill : Fillable (items.map Obs.tab))
    (t t' : Target) (hf : Ready t) (hf' : Ready t') (sky : Foreground.Sky ℝ)
    (hsky : Foreground.estimateForegrounds w.consts.B w.maps w.skyGrid sec t.sky = (sky, .ok ())) (hsame : t'.sky = t.sky)
    (b b' : Source.Built ℝ)
    (hb : Source.loadSource w.consts w.env w.grid d t.star p.wlMin p.wlMax = .ok b)
    (hb' : Source.loadSource w.consts w.env w.grid d t'.star p.wlMin p.wlMax = .ok b') (c : ℝ) (hc : 1 ≤ c)
    (hwl : b'.sed.wl = b.sed.wl) (hdata : b'.sed.data = b.sed.data.map (fun v => c * v))
    (hbuilt : ∀ it ∈ items, it.BuiltTable) (hlit : ∀ it ∈ items, it.Lit sky b.sed)
    (hnoise : ∀ it ∈ items, ∀ k, k ∈ it.tab.keys ∨ k ∈ it.fg.keys → ¬ NoiseName k)
    (hft : ∀ it ∈ items, "foreground_transmission" ∉ it.tab.keys)
    (well fw freq dark rn : NoiseChannel → ℝ)
    (hdet : ∀ it ∈ items, GoodDetector it.ch.noise.detector (well it.ch.noise) (fw it.ch.noise) (freq it.ch.noise) (dark it.ch.noise) (rn it.ch.noise))
    (hfreq : ∀ it ∈ items, 0 ≤ freq it.ch.noise)
    (hX : ∀ it ∈ items, -1 ≤ it.ch.noise.noiseX.getD 0)
    (hcust : ∀ it ∈ items, (∀ e ∈ entries it.ch.common, GoodEntry e) ∧ ∀ e ∈ entries it.ch.noise.customNoise, GoodEntry e) :
    ∃ (tabs₁ tabs₂ : List (Table ℝ)) (r r' : Table ℝ) (tot tot' : List (Num ℝ)),
      observe w p (items.map Obs.tab) t = (tabs₁, .ok { t with sky := sky, built := some b, table := some r }) ∧
      observe w p (items.map Obs.tab) t' = (tabs₂, .ok { t' with sky := sky, built := some b', table := some r' }) ∧
      r.get? "total_noise" = some (tot.map Cell.num) ∧ r'.get? "total_noise" = some (tot'.map Cell.num) ∧
      ∀ it ∈ items, ∀ i, (rowNames items)[i]? = some it.ch.noise.value →
        cellAt r' "frameTime" i ≤ cellAt r "frameTime" i ∧ cellAt r "frameTime" i ≤ c * cellAt r' "frameTime" i ∧
        (cellAt r "star_signal_inAperture" i ≠ 0 → ∃ T T' : ℝ, tot[i]? = some (Num.fin T) ∧ tot'[i]? = some (Num.fin T') ∧ 0 ≤ T ∧ 0 ≤ T' ∧
          T' ^ 2 ≤ 5 / 4 * T ^ 2 ∧ (rn it.ch.noise = 0 ∨ it.ch.noise.detector.frameTime.isSome = true → T' ≤ T)) := by
  have hc0 : 0 < c := by linarith
  have hsed : b'.sed = Source.scale c b.sed := by
    obtain ⟨⟨wl, data⟩, _, _⟩ := b'
    simp only at hwl hdata
    rw [hwl, hdata]
    rfl
  have hmem : ∀ {P : Obs → Prop}, (∀ it ∈ items, P (it.scale c)) → ∀ it ∈ items.map (Obs.scale c), P it := by
    intro P h it' hit'
    obtain ⟨it, hit, rfl⟩ := List.mem_map.mp hit'
    exact h it hit
  have etab : (items.map (Obs.scale c)).map Obs.tab = items.map Obs.tab := by rw [List.map_map]; rfl
  have ern : rowNames (items.map (Obs.scale c)) = rowNames items := by
    unfold rowNames
    rw [List.flatMap_map]
    rfl
  obtain ⟨tabs₁, tabs₂, r, r', o1, o2, hB⟩ := signal_proportional w p sec hsec d hd items hne hch hnames hfill t t' hf hf' sky hsky hsame b b' hb hb' c hc0
    hwl hdata hbuilt hlit hnoise hft well fw freq dark rn hdet hX hcust
  -- the budgets of both
  obtain ⟨_, r1, tot, q1, _, q3, _, q5⟩ := observation_budget w p sec hsec d hd items hne hch hnames hfill t hf sky hsky b hb hbuilt hlit hnoise
    well fw freq dark rn hdet hX hcust
  obtain ⟨_, r2, tot', q1', _, q3', _, q5'⟩ := observation_budget w p sec hsec d hd (items.map (Obs.scale c)) (by simpa using hne)
    (by rw [hch, List.map_map]; rfl) (by rw [List.map_map]; exact hnames) (by rw [etab]; exact hfill) t' hf' sky (by rw [hsame]; exact hsky) b' hb'
    (hmem (fun it hit => (hbuilt it hit).scaled c)) (by rw [hsed]; exact hmem (fun it hit => (hlit it hit).scaled hc0))
    (hmem (fun it hit => hnoise it hit)) well fw freq dark rn (hmem (fun it hit => hdet it hit)) (hmem (fun it hit => hX it hit))
    (hmem (fun it hit => hcust it hit))
  obtain ⟨_, r3, ft, _, u1, _, _, _, _, _, _, _, _, u2, _⟩ := observation_complete w p sec hsec d hd items hne hch hnames hfill t hf sky hsky b hb hbuilt hlit
    well fw freq dark rn hdet hX hcust
  obtain ⟨_, r4, ft', _, u1', _, _, _, _, _, _, _, _, u2', _⟩ := observation_complete w p sec hsec d hd (items.map (Obs.scale c)) (by simpa using hne)
    (by rw [hch, List.map_map]; rfl) (by rw [List.map_map]; exact hnames) (by rw [etab]; exact hfill) t' hf' sky (by rw [hsame]; exact hsky) b' hb'
    (hmem (fun it hit => (hbuilt it hit).scaled c)) (by rw [hsed]; exact hmem (fun it hit => (hlit it hit).scaled hc0))
    well fw freq dark rn (hmem (fun it hit => hdet it hit)) (hmem (fun it hit => hX it hit))
    (hmem (fun it hit => hcust it hit))
  rw [etab] at q1' u1'
  rw [ern] at q5' u2'
  have same : ∀ {x : Target} {s : Foreground.Sky ℝ} {z : Source.Built ℝ} {A B : List (Table ℝ)} {a a' : Table ℝ},
      observe w p (items.map Obs.tab) x = (A, .ok { x with sky := s, built := some z, table := some a }) →
      observe w p (items.map Obs.tab) x = (B, .ok { x with sky := s, built := some z, table := some a' }) → a' = a := by
    intro x s z A B a a' h1 h2
    rw [h1] at h2
    simp only [Prod.mk.injEq, Except.ok.injEq, Target.mk.injEq, Option.some.injEq, true_and] at h2
    exact h2.2.symm
  obtain rfl := same o1 q1
  obtain rfl := same o1 u1
  obtain rfl := same o2 q1'
  obtain rfl := same o2 u1'
  -- one frame time per channel
  have one : ∀ {a : Table ℝ} {f : String → ℝ}, a.get? "frameTime" = some ((rowNames items).map (fun nm => .num (.fin (f nm)))) →
      ∀ {i : ℕ} {v : String}, (rowNames items)[i]? = some v → cellAt a "frameTime" i = f v := by
    intro a f ha i v hv
    unfold cellAt
    rw [ha]
    simp [List.getD, hv, cellVal]
  refine ⟨tabs₁, tabs₂, _, _, tot, tot', o1, o2, q3, q3', ?_⟩
  intro it hit i hi
  have hit' : it.scale c ∈ items.map (Obs.scale c) := List.mem_map.mpr ⟨it, hit, rfl⟩
  obtain ⟨m0, m1⟩ := q5 it hit
  obtain ⟨m0', m1'⟩ := q5' (it.scale c) hit'
  have hg := hdet it hit
  have hK : 0 < fw it.ch.noise * well it.ch.noise := mul_pos hg.hfw0 hg.hwell0
  have row : ∀ {j}, (rowNames items)[j]? = some it.ch.noise.value → j < (rowNames items).length := fun h => (List.getElem?_eq_some_iff.mp h).1
  -- the maximum signals
  have hmaxr : ∀ {j}, (rowNames items)[j]? = some it.ch.noise.value →
      cellAt r4 "MaxSignal_inPixel" j = cellAt r3 "MaxSignal_inPixel" j + (c - 1) * cellAt r3 "star_MaxSignal_inPixel" j ∧
      0 ≤ cellAt r3 "star_MaxSignal_inPixel" j ∧ cellAt r3 "star_MaxSignal_inPixel" j ≤ cellAt r3 "MaxSignal_inPixel" j := by
    intro j hj
    rw [(m1 j hj).1, (m1' j hj).1, hB.maxima j]
    exact ⟨rfl, hB.starMax j (row hj)⟩
  obtain ⟨a1, a2, a3, a4, a5, a6⟩ := m1 i hi
  obtain ⟨a1', a2', a3', a4', a5', a6'⟩ := m1' i hi
  have hframe : cellAt r4 "frameTime" i ≤ cellAt r3 "frameTime" i ∧ cellAt r3 "frameTime" i ≤ c * cellAt r4 "frameTime" i := by
    cases hopt : it.ch.noise.detector.frameTime with
    | some f =>
      rw [a3 f hopt] at a2
      rw [a3 f hopt, a3' f hopt]
      exact ⟨le_refl _, by nlinarith⟩
    | none =>
      obtain ⟨j, hj, e⟩ := m0 hopt
      obtain ⟨j', hj', e'⟩ := m0' hopt
      have l1 := (m1' j hj).2.2.2.1 hopt
      have l2 := (m1 j' hj').2.2.2.1 hopt
      obtain ⟨x1, x2, x3⟩ := hmaxr hj
      obtain ⟨y1, y2, y3⟩ := hmaxr hj'
      rw [one u2 hj] at e
      rw [one u2' hj'] at e'
      rw [one u2' hj] at l1
      rw [one u2 hj'] at l2
      rw [one u2 hi, one u2' hi]
      rw [one u2 hi] at a2
      rw [one u2' hi] at a2'
      change ft' it.ch.noise.value * _ = fw it.ch.noise * well it.ch.noise at e'
      change ft it.ch.noise.value * _ ≤ fw it.ch.noise * well it.ch.noise at l2
      change ft' it.ch.noise.value * _ ≤ fw it.ch.noise * well it.ch.noise at l1
      generalize ft it.ch.noise.value = F at *
      generalize ft' it.ch.noise.value = F' at *
      generalize fw it.ch.noise * well it.ch.noise = K at *
      constructor
      · have hm : 0 < cellAt r3 "MaxSignal_inPixel" j := by
          by_contra hcon
          have : F * cellAt r3 "MaxSignal_inPixel" j ≤ 0 := mul_nonpos_of_nonneg_of_nonpos a2.le (by linarith)
          linarith
        have h3 : cellAt r3 "MaxSignal_inPixel" j ≤ cellAt r4 "MaxSignal_inPixel" j := by
          rw [x1]
          have := mul_nonneg (sub_nonneg.mpr hc) x2
          linarith
        have h4 : F' * cellAt r3 "MaxSignal_inPixel" j ≤ F * cellAt r3 "MaxSignal_inPixel" j :=
          calc F' * cellAt r3 "MaxSignal_inPixel" j ≤ F' * cellAt r4 "MaxSignal_inPixel" j := mul_le_mul_of_nonneg_left h3 a2'.le
            _ ≤ K := l1
            _ = F * cellAt r3 "MaxSignal_inPixel" j := e.symm
        exact le_of_mul_le_mul_right h4 hm
      · have h3 : cellAt r4 "MaxSignal_inPixel" j' ≤ c * cellAt r3 "MaxSignal_inPixel" j' := by
          rw [y1]
          have := mul_le_mul_of_nonneg_left y3 (sub_nonneg.mpr hc)
          linarith
        have hm : 0 < cellAt r3 "MaxSignal_inPixel" j' := by
          have h0 : 0 < cellAt r4 "MaxSignal_inPixel" j' := by
            by_contra hcon
            have : F' * cellAt r4 "MaxSignal_inPixel" j' ≤ 0 := mul_nonpos_of_nonneg_of_nonpos a2'.le (by linarith)
            linarith
          by_contra hcon
          have : c * cellAt r3 "MaxSignal_inPixel" j' ≤ 0 := mul_nonpos_of_nonneg_of_nonpos hc0.le (by linarith)
          linarith
        have h4 : F * cellAt r3 "MaxSignal_inPixel" j' ≤ c * F' * cellAt r3 "MaxSignal_inPixel" j' :=
          calc F * cellAt r3 "MaxSignal_inPixel" j' ≤ K := l2
            _ = F' * cellAt r4 "MaxSignal_inPixel" j' := e'.symm
            _ ≤ F' * (c * cellAt r3 "MaxSignal_inPixel" j') := mul_le_mul_of_nonneg_left h3 a2'.le
            _ = c * F' * cellAt r3 "MaxSignal_inPixel" j' := by ring
        exact le_of_mul_le_mul_right h4 hm
  refine ⟨hframe.1, hframe.2, ?_⟩
  intro hs0
  obtain ⟨s1, s2⟩ := hB.starSignal i (row hi)
  have hspos : 0 < cellAt r3 "star_signal_inAperture" i := lt_of_le_of_ne s1 (Ne.symm hs0)
  obtain ⟨l, g1, g2⟩ := hB.star "star_signal_inAperture" (by decide)
  have hsc := cellAt_scaled g1 g2 i
  obtain ⟨T, e1, e2, e3⟩ := a6 hs0
  obtain ⟨T', e1', e2', e3'⟩ := a6' (by rw [hsc]; positivity)
  have hwin : cellAt r4 "WindowSize" i = cellAt r3 "WindowSize" i :=
    cellAt_congr (hB.other "WindowSize" (by decide) (by decide) (by unfold NoiseName; decide)) i
  rw [hsc, hB.signals i, hwin] at e3'
  have hw0 := hB.window i (row hi)
  have hmul : 0 < it.ch.noise.detector.multiaccumM.getD 1 := by
    cases h : it.ch.noise.detector.multiaccumM with
    | none => simp
    | some m => simpa using hg.hm m h
  obtain ⟨v1, v2⟩ := relVariance_brighter (read := rn it.ch.noise) (values (entries it.ch.common) ++ values (entries it.ch.noise.customNoise)) hg.hdark0 (hX it hit) a2' hframe.1
    hframe.2 (hfreq it hit) hmul hc hspos s2 hw0
  refine ⟨T, T', e1, e1', e2, e2', ?_, ?_⟩
  · rw [e3, e3']
    exact v2
  · intro h
    refine (pow_le_pow_iff_left₀ e2' e2 two_ne_zero).mp ?_
    rw [e3, e3']
    apply v1
    rcases h with h | h
    · exact .inl h
    · obtain ⟨f, hf⟩ := Option.isSome_iff_exists.mp h
      right
      rw [a3 f hf, a3' f hf]

end ExoRad.Pipeline
