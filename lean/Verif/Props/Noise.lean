import Verif.Lemmas.Noise
import Mathlib.Tactic.IntervalCases

/-!
# C01–C07: noise estimate of one channel
-/

namespace ExoRad
open Num
noncomputable section

/-- The rows of channel `name` in the target table: `n ≥ 1` bins; every column whose name contains
`signal` holds non-negative finite numbers `sig k i`; window sizes are `win i ≥ 0`; the maximum
signals per pixel are `mx i ≥ 0`, not all zero. -/
structure ChannelRows (t : Table ℝ) (name : String) (n : ℕ) (sig : String → ℕ → ℝ)
    (win mx : ℕ → ℝ) : Prop where
  nodup : t.keys.Nodup
  npos : 0 < n
  hsig : ∀ k ∈ t.keys, substr "signal" k = true → t.selNum k name = .ok (bins n (sig k))
  hsig0 : ∀ k ∈ t.keys, substr "signal" k = true → ∀ i < n, 0 ≤ sig k i
  hstar : "star_signal_inAperture" ∈ t.keys
  hwin : t.selNum "WindowSize" name = .ok (bins n win)
  hwin0 : ∀ i < n, 0 ≤ win i
  hmx : t.selNum "MaxSignal_inPixel" name = .ok (bins n mx)
  hmx0 : ∀ i < n, 0 ≤ mx i
  hmxp : ∃ i < n, 0 < mx i
  hwl : ∃ w, t.selNum "Wavelength" name = .ok (bins n w)

/-- The detector section of a payload with every mandatory key and physical values. -/
structure GoodDetector (d : Detector) (well fw freq dark rn : ℝ) : Prop where
  hwell : d.wellDepth = some well
  hwell0 : 0 < well
  hfw : d.fWellDepth = some fw
  hfw0 : 0 < fw
  hfreq : d.freqNDR = some freq
  hdark : d.darkCurrent = some dark
  hdark0 : 0 ≤ dark
  hrn : d.readNoise = some rn
  hft : ∀ f, d.frameTime = some f → 0 < f
  hm : ∀ m, d.multiaccumM = some m → 0 < m

/-- Sum of all the signal columns in bin `i`. -/
def totalSignal (t : Table ℝ) (sig : String → ℕ → ℝ) (i : ℕ) : ℝ :=
  ((t.keys.filter (fun k => substr "signal" k)).map (fun k => sig k i)).sum

/-! ## C01 frame time -/

/-- C01: `frame_time` writes one frame time for all bins. Without a `frame_time` option no pixel
exceeds the allowed fraction of the well, and the brightest pixel reaches it exactly; with the
option the value is the option. `saturation_time` is well depth over maximum signal. Bins of zero
signal (infinite saturation time) are allowed. -/
theorem frame_time_safe (t : Table ℝ) (ch : NoiseChannel) (out : Out) (n : ℕ) (mx : ℕ → ℝ)
    (well fw : ℝ) (hmx : t.selNum "MaxSignal_inPixel" ch.value = .ok (bins n mx))
    (hmx0 : ∀ i < n, 0 ≤ mx i) (hmxp : ∃ i < n, 0 < mx i)
    (hwell : ch.detector.wellDepth = some well) (hwell0 : 0 < well)
    (hfw : ch.detector.fWellDepth = some fw) (hfw0 : 0 ≤ fw) :
    ∃ out' ft, frameTimeF t ch out = .ok out' ∧
      out'.get? "frameTime" = some (bins n (fun _ => ft)) ∧
      (∀ f, ch.detector.frameTime = some f → ft = f) ∧
      (ch.detector.frameTime = none →
        (∀ i < n, ft * mx i ≤ fw * well) ∧ (∃ i < n, ft * mx i = fw * well ∧ 0 < mx i)) ∧
      (∃ sat, out'.get? "saturation_time" = some sat ∧ sat.length = n ∧
        ∀ i < n, 0 < mx i → sat[i]? = some (fin (well / mx i))) ∧
      (∀ q, q ≠ "frameTime" → q ≠ "saturation_time" → out'.get? q = out.get? q) := by
  set sat := (bins n mx).map (fun s => fin well / s) with hsat
  have hlen : sat.length = n := by simp [hsat]
  have hsat' : sat = (List.range n).map (fun i => (fin well / fin (mx i) : Num ℝ)) := by
    rw [hsat, bins_map]
  have hall : ∀ b ∈ sat, finOrInf b := by
    intro b hb
    rw [hsat'] at hb
    obtain ⟨i, hi, rfl⟩ := List.mem_map.mp hb
    have h0 := hmx0 i (List.mem_range.mp hi)
    rcases h0.eq_or_lt with h0 | h0
    · left; rw [← h0, fin_div_zero]; simp [signedInf, hwell0, hwell0.ne']
    · right; exact ⟨_, fin_div _ _ h0.ne'⟩
  have hmem : ∀ i < n, 0 < mx i → fin (well / mx i) ∈ sat := by
    intro i hi h0
    rw [hsat']
    exact List.mem_map.mpr ⟨i, List.mem_range.mpr hi, fin_div _ _ h0.ne'⟩
  have hsatspec : ∀ i < n, 0 < mx i → sat[i]? = some (fin (well / mx i)) := by
    intro i hi h0
    rw [hsat']
    simp [hi, fin_div _ _ h0.ne']
  have hconst : ∀ c : Num ℝ, sat.map (fun _ => c) = (List.range n).map (fun _ => c) := by
    intro c; rw [List.map_const', List.map_const', hlen, List.length_range]
  cases hft : ch.detector.frameTime with
  | some f =>
    refine ⟨(out.set "saturation_time" sat).set "frameTime" (sat.map (fun _ => fin f * fin 1)), f,
      ?_, ?_, ?_, ?_, ?_, ?_⟩
    · simp only [frameTimeF, hmx, key, hwell, hft, bind, Except.bind, pure, Except.pure]; rfl
    · rw [Dict.get?_set_self, hconst]; simp [bins]
    · intro g hg; cases hg; rfl
    · intro h; cases h
    · refine ⟨sat, ?_, hlen, hsatspec⟩
      rw [Dict.get?_set_ne _ _ (by decide), Dict.get?_set_self]
    · intro q h1 h2
      rw [Dict.get?_set_ne _ _ h1, Dict.get?_set_ne _ _ h2]
  | none =>
    obtain ⟨j, hj, hj0⟩ := hmxp
    obtain ⟨μ, h1, h2, h3⟩ := minList_spec sat hall _ (hmem j hj hj0)
    refine ⟨(out.set "saturation_time" sat).set "frameTime"
      (sat.map (fun _ => fin fw * fin μ * fin 1)), fw * μ, ?_, ?_, ?_, ?_, ?_, ?_⟩
    · simp only [frameTimeF, hmx, key, hwell, hft, hfw, bind, Except.bind, pure, Except.pure,
        ← hsat, h1]
    · rw [Dict.get?_set_self, hconst]; simp [bins]
    · intro g hg; cases hg
    · intro _
      constructor
      · intro i hi
        rcases (hmx0 i hi).eq_or_lt with h0 | h0
        · rw [← h0, mul_zero]; positivity
        · have := h3 _ (hmem i hi h0)
          rw [le_div_iff₀ h0] at this
          calc fw * μ * mx i = fw * (μ * mx i) := by ring
            _ ≤ fw * well := mul_le_mul_of_nonneg_left this hfw0
      · rw [hsat'] at h2
        obtain ⟨i, hi, hie⟩ := List.mem_map.mp h2
        have hi' := List.mem_range.mp hi
        rcases (hmx0 i hi').eq_or_lt with h0 | h0
        · rw [← h0, fin_div_zero] at hie
          simp [signedInf, hwell0, hwell0.ne'] at hie
        · rw [fin_div _ _ h0.ne'] at hie
          cases hie
          refine ⟨i, hi', ?_, h0⟩
          field_simp
    · refine ⟨sat, ?_, hlen, hsatspec⟩
      rw [Dict.get?_set_ne _ _ (by decide), Dict.get?_set_self]
    · intro q h1 h2
      rw [Dict.get?_set_ne _ _ h1, Dict.get?_set_ne _ _ h2]

/-- C01, error branch: with no bins in the channel and no forced frame time, ValueError. -/
theorem frame_time_empty (t : Table ℝ) (ch : NoiseChannel) (out : Out) (well fw : ℝ)
    (hmx : t.selNum "MaxSignal_inPixel" ch.value = .ok [])
    (hwell : ch.detector.wellDepth = some well) (hfw : ch.detector.fWellDepth = some fw)
    (hft : ch.detector.frameTime = none) : frameTimeF t ch out = .error .valueError := by
  simp [frameTimeF, hmx, key, hwell, hft, hfw, bind, Except.bind, Num.minList]

/-! ## C02, C03 MULTIACCUM gains -/

/-- C02: closed form of the gains for every non-zero frame time, and the CDS values when fewer than
three reads fit. -/
theorem multiaccum_gains (d : Detector) (t f : ℝ) (ht : t ≠ 0) (hf : d.freqNDR = some f)
    (hm : ∀ m, d.multiaccumM = some m → m ≠ 0) :
    multiaccum d (fin t) = .ok (fin (Spec.readGain (Spec.reads t f) (d.multiaccumM.getD 1)),
      fin (Spec.shotGain (Spec.reads t f))) ∧
    (t * f < 3 → multiaccum d (fin t) = .ok (fin (2 / d.multiaccumM.getD 1), fin 1)) := by
  have h := multiaccum_fin d t f ht hf hm
  refine ⟨h, fun h3 => ?_⟩
  have : Spec.reads t f = 2 := by
    unfold Spec.reads
    apply max_eq_left
    have : ⌊t * f⌋ < 3 := Int.floor_lt.mpr (by exact_mod_cast h3)
    have : ⌊t * f⌋ ≤ 2 := by omega
    exact_mod_cast this
  rw [h, this]
  have h1 : Spec.readGain 2 (d.multiaccumM.getD 1) = 2 / d.multiaccumM.getD 1 := by
    unfold Spec.readGain; norm_num
  have h2 : Spec.shotGain 2 = 1 := by unfold Spec.shotGain; norm_num
  rw [h1, h2]

/-- C02: longer frames never increase the read gain and never decrease the shot gain, the read gain
is positive and the shot gain lies in `[1, 6/5)`. -/
theorem multiaccum_monotone (d : Detector) (t t' f : ℝ) (ht : 0 < t) (htt : t ≤ t') (hf0 : 0 ≤ f)
    (hf : d.freqNDR = some f) (hm : ∀ m, d.multiaccumM = some m → 0 < m) :
    ∃ r s r' s', multiaccum d (fin t) = .ok (fin r, fin s) ∧
      multiaccum d (fin t') = .ok (fin r', fin s') ∧
      0 < r' ∧ r' ≤ r ∧ 1 ≤ s ∧ s ≤ s' ∧ s' < 6 / 5 := by
  have hm' : ∀ m, d.multiaccumM = some m → m ≠ 0 := fun m h => (hm m h).ne'
  have hmp : 0 < d.multiaccumM.getD 1 := by
    cases h : d.multiaccumM with
    | none => simp
    | some m => simpa using hm m h
  refine ⟨_, _, _, _, multiaccum_fin d t f ht.ne' hf hm',
    multiaccum_fin d t' f (ht.trans_le htt).ne' hf hm', ?_⟩
  have h2 := reads_ge t f
  have h2' := reads_ge t' f
  have hle : Spec.reads t f ≤ Spec.reads t' f := by
    unfold Spec.reads
    apply max_le_max_left
    exact_mod_cast Int.floor_le_floor (mul_le_mul_of_nonneg_right htt hf0)
  -- reads are integers: either equal or at least one more
  have hint : Spec.reads t f = Spec.reads t' f ∨ Spec.reads t f + 1 ≤ Spec.reads t' f := by
    have e : ∀ x, Spec.reads x f = ((max 2 ⌊x * f⌋ : ℤ) : ℝ) := by
      intro x; unfold Spec.reads; push_cast; rfl
    rw [e, e] at hle ⊢
    have hle' : (max 2 ⌊t * f⌋ : ℤ) ≤ max 2 ⌊t' * f⌋ := by exact_mod_cast hle
    rcases hle'.eq_or_lt with h | h
    · left; exact_mod_cast h
    · right; exact_mod_cast h
  have hint2 : Spec.reads t f = 2 ∨ 3 ≤ Spec.reads t f := by
    have e : Spec.reads t f = ((max 2 ⌊t * f⌋ : ℤ) : ℝ) := by
      unfold Spec.reads; push_cast; rfl
    rw [e]
    rcases le_or_gt (3 : ℤ) (max 2 ⌊t * f⌋) with h | h
    · right; exact_mod_cast h
    · left
      have : (max 2 ⌊t * f⌋ : ℤ) = 2 := by omega
      rw [this]; norm_num
  generalize Spec.reads t f = a at h2 hle hint hint2
  generalize Spec.reads t' f = b at h2' hle hint
  generalize d.multiaccumM.getD 1 = m at hmp
  refine ⟨readGain_pos h2' hmp, ?_, ?_, ?_, ?_⟩
  · rcases hint with rfl | h
    · exact le_rfl
    · unfold Spec.readGain
      apply div_le_div_of_nonneg_right _ hmp.le
      rw [div_le_div_iff₀ (by positivity) (by positivity)]
      nlinarith [mul_nonneg (sub_nonneg.mpr h) (sub_nonneg.mpr h2), mul_nonneg (sub_nonneg.mpr h2') (sub_nonneg.mpr h2),
        mul_nonneg (mul_nonneg (sub_nonneg.mpr h2') (sub_nonneg.mpr h2)) (sub_nonneg.mpr hle), mul_nonneg (sub_nonneg.mpr hle) (sub_nonneg.mpr h2)]
  · unfold Spec.shotGain
    rw [le_div_iff₀ (by positivity)]
    rcases hint2 with rfl | h3
    · norm_num
    · nlinarith [mul_nonneg (sub_nonneg.mpr h2) (sub_nonneg.mpr h3)]
  · rcases hint with rfl | h
    · exact le_rfl
    · unfold Spec.shotGain
      rw [div_le_div_iff₀ (by positivity) (by positivity)]
      nlinarith [mul_nonneg (sub_nonneg.mpr h) (sub_nonneg.mpr h2), mul_nonneg (sub_nonneg.mpr h2') (sub_nonneg.mpr h2),
        mul_nonneg (mul_nonneg (sub_nonneg.mpr h2') (sub_nonneg.mpr h2)) (sub_nonneg.mpr hle), mul_nonneg (sub_nonneg.mpr hle) (sub_nonneg.mpr h2)]
  · unfold Spec.shotGain
    rw [div_lt_div_iff₀ (by positivity) (by norm_num)]
    nlinarith

/-- C03: averaging `m` reads divides the read gain by `m` and leaves the shot gain unchanged. -/
theorem multiaccumM_only_read (d : Detector) (t f m : ℝ) (ht : t ≠ 0) (hf : d.freqNDR = some f)
    (hm : m ≠ 0) :
    ∃ r s, multiaccum { d with multiaccumM := none } (fin t) = .ok (fin r, fin s) ∧
      multiaccum { d with multiaccumM := some m } (fin t) = .ok (fin (r / m), fin s) := by
  refine ⟨_, _, multiaccum_fin { d with multiaccumM := none } t f ht hf (by simp), ?_⟩
  rw [multiaccum_fin { d with multiaccumM := some m } t f ht hf (by simpa using hm)]
  simp [Spec.readGain]

/-- C02, excluded point: a zero frame time makes the shot gain NaN (0/0), so every noise column
becomes NaN instead of raising. -/
theorem multiaccum_zero_time (d : Detector) (f : ℝ) (hf : d.freqNDR = some f)
    (hm : ∀ m, d.multiaccumM = some m → m ≠ 0) :
    ∃ r, multiaccum d (fin 0) = .ok (r, nan) := by
  have hm' : d.multiaccumM.getD 1 ≠ 0 := by
    cases h : d.multiaccumM with
    | none => simp
    | some m => simpa using hm m h
  have hmm : multiaccumM d = fin (d.multiaccumM.getD 1) := by
    unfold multiaccumM; cases d.multiaccumM <;> rfl
  unfold multiaccum
  simp only [key, hf, bind, Except.bind, pure, Except.pure]
  rw [hmm]
  generalize d.multiaccumM.getD 1 = m at hm'
  have hn : (if lt (Num.floor (fin 0 * fin f)) (fin 2) then fin 2 else Num.floor (fin 0 * fin f) : Num ℝ)
      = fin 2 := by
    simp [Num.floor]
  rw [hn]
  have e : (fin 5 / fin 3 * (fin m * fin m - fin 1) / fin m / (fin 2 * fin 2 + fin 1) * fin 0
      / (fin 2 - fin 1) / fin 0 : Num ℝ) = nan := by
    simp only [fin_mul, fin_sub, fin_add, fin_div _ _ hm', fin_div _ (3 : ℝ) (by norm_num),
      fin_div _ ((2 : ℝ) * 2 + 1) (by norm_num), fin_div _ ((2 : ℝ) - 1) (by norm_num), fin_div_zero]
    simp [signedInf]
  rw [e]
  have e2 : (fin 1 - nan : Num ℝ) = nan := rfl
  rw [e2, mul_nan]
  exact ⟨_, rfl⟩

/-! ## C04, C05 photon noise -/

/-- C04: `photon_noise` adds exactly one `<key>_noise` column for each column whose name contains
`signal`, holding `sqrt(gain * signal / 3600)`, touches no other column, and the variance that
`photon_noise_variance` computes from it is `gain / 3600` times the sum of exactly those columns. -/
theorem photon_noise_columns (t : Table ℝ) (ch : NoiseChannel) (g : ℝ) (out : Out) (n : ℕ)
    (sig : String → ℕ → ℝ) (hg : 0 ≤ g) (ft : List (Num ℝ))
    (hft : out.get? "frameTime" = some ft) (hlen : ft.length = n)
    (hsig : ∀ k ∈ t.keys, substr "signal" k = true → t.selNum k ch.value = .ok (bins n (sig k)))
    (hsig0 : ∀ k ∈ t.keys, substr "signal" k = true → ∀ i < n, 0 ≤ sig k i) :
    ∃ out', photonNoise t ch (fin g) out = .ok out' ∧
      (∀ k ∈ t.keys, substr "signal" k = true →
        out'.get? (k ++ "_noise") = some (bins n (fun i => Real.sqrt (g * sig k i / 3600)))) ∧
      (∀ q, (∀ k ∈ t.keys, substr "signal" k = true → q ≠ k ++ "_noise") →
        out'.get? q = out.get? q) ∧
      photonNoiseVariance t out' = .ok (bins n (fun i => g * totalSignal t sig i / 3600)) := by
  obtain ⟨out', h1, h2, h3, -⟩ := photonNoiseLoop_spec t ch.value g n sig (signalKeys t)
    (by intro k hk; rw [signalKeys, List.mem_filter] at hk; exact hsig k hk.1 hk.2) out
  have hmem : ∀ k, k ∈ signalKeys t ↔ k ∈ t.keys ∧ substr "signal" k = true := by
    intro k; rw [signalKeys, List.mem_filter]
  refine ⟨out', h1, ?_, ?_, ?_⟩
  · intro k hk hks
    rw [h2 k ((hmem k).mpr ⟨hk, hks⟩)]
    unfold bins
    rw [List.map_map]
    congr 1
    apply List.map_congr_left
    intro i hi
    simp only [Function.comp]
    rw [photonNoise1_fin (mul_nonneg hg (hsig0 k hk hks i (List.mem_range.mp hi)))]
  · intro q hq
    apply h3
    intro k hk
    exact hq k ((hmem k).mp hk).1 ((hmem k).mp hk).2
  · have hft' : out'.get? "frameTime" = some ft := by
      rw [h3 _ _, hft]
      intro k _ e
      have : "_noise".toList <:+ "frameTime".toList := by rw [e]; simp
      exact absurd this (by decide)
    unfold photonNoiseVariance
    simp only [Dict.getE_ok hft', bind, Except.bind, hlen]
    have : List.replicate n (fin 0 : Num ℝ) = bins n (fun _ => 0) := by
      rw [replicate_eq_range]; rfl
    rw [this, photonVarianceLoop_spec out' n g sig _ h2 (by
      intro k hk i hi
      exact mul_nonneg hg (hsig0 k ((hmem k).mp hk).1 ((hmem k).mp hk).2 i hi))]
    congr 1
    apply bins_congr
    intro i _
    simp [totalSignal, signalKeys]

/-- C04: the names used by the code: star, instrument, zodiacal signals count, the derived columns
do not. -/
theorem signal_names : substr "signal" "star_signal_inAperture" = true ∧
    substr "signal" "instrument_signal" = true ∧ substr "signal" "zodi_signal" = true ∧
    substr "signal" "MaxSignal_inPixel" = false ∧ substr "signal" "starFlux" = false ∧
    substr "signal" "star_MaxSignal_inPixel" = false := by decide

/-- The photon variance column computed for a table: `photon_noise` into an output table holding the
frame times, then `photon_noise_variance`. -/
def photonVarianceOf (t : Table ℝ) (ch : NoiseChannel) (g : ℝ) (out : Out) :
    Except Exc (List (Num ℝ)) := do
  let o ← photonNoise t ch (fin g) out
  photonNoiseVariance t o

/-- C05: additivity. If the signal columns of `t` are (in any order) one column `k` and the columns
`rest`, and those of `t'` are the parts `ks` of `k` and the same `rest`, the parts summing to `k` in
every bin, then the photon variances are equal. With `ks = [k]` this is order independence; with
`k = instrument_signal` and `ks` its optical elements it is what `full_contrib` does. -/
theorem photon_variance_split (t t' : Table ℝ) (ch : NoiseChannel) (g : ℝ) (out : Out) (n : ℕ)
    (sig : String → ℕ → ℝ) (hg : 0 ≤ g) (ft : List (Num ℝ))
    (hft : out.get? "frameTime" = some ft) (hlen : ft.length = n)
    (hsig : ∀ k ∈ t.keys, substr "signal" k = true → t.selNum k ch.value = .ok (bins n (sig k)))
    (hsig' : ∀ k ∈ t'.keys, substr "signal" k = true → t'.selNum k ch.value = .ok (bins n (sig k)))
    (hpos : ∀ k ∈ t.keys ++ t'.keys, substr "signal" k = true → ∀ i < n, 0 ≤ sig k i)
    (k : String) (ks rest : List String)
    (hk : (t.keys.filter (fun q => substr "signal" q)).Perm (k :: rest))
    (hks : (t'.keys.filter (fun q => substr "signal" q)).Perm (ks ++ rest))
    (hsum : ∀ i < n, sig k i = (ks.map (fun q => sig q i)).sum) :
    ∃ v, photonVarianceOf t ch g out = .ok (bins n v) ∧
      photonVarianceOf t' ch g out = .ok (bins n v) ∧
      ∀ i < n, v i = g * ((k :: rest).map (fun q => sig q i)).sum / 3600 := by
  obtain ⟨o, a1, -, -, a2⟩ := photon_noise_columns t ch g out n sig hg ft hft hlen hsig
    (fun q hq => hpos q (List.mem_append_left _ hq))
  obtain ⟨o', b1, -, -, b2⟩ := photon_noise_columns t' ch g out n sig hg ft hft hlen hsig'
    (fun q hq => hpos q (List.mem_append_right _ hq))
  refine ⟨fun i => g * totalSignal t sig i / 3600,
    by simp only [photonVarianceOf, a1, bind, Except.bind, a2], ?_, ?_⟩
  · simp only [photonVarianceOf, b1, bind, Except.bind, b2]
    congr 1
    apply bins_congr
    intro i hi
    have e1 : totalSignal t sig i = sig k i + (rest.map (fun q => sig q i)).sum := by
      unfold totalSignal; rw [(hk.map _).sum_eq]; simp
    have e2 : totalSignal t' sig i = (ks.map (fun q => sig q i)).sum + (rest.map (fun q => sig q i)).sum := by
      unfold totalSignal; rw [(hks.map _).sum_eq]; simp
    rw [e1, e2, hsum i hi]
  · intro i _
    show g * totalSignal t sig i / 3600 = _
    unfold totalSignal
    rw [(hk.map (fun q => sig q i)).sum_eq]

/-! ## C06, C07 total noise -/

/-- Variances of a bin, in (ct/s)² hr: dark current, read noise, photon noise. -/
def darkVar (N win dark : ℝ) : ℝ := Spec.shotGain N * win * dark / 3600

/-- See `darkVar`. -/
def readVar (N m rn win ft : ℝ) : ℝ := Spec.readGain N m * rn ^ 2 * win / ft / 3600

/-- See `darkVar`. -/
def photVar (N s : ℝ) : ℝ := Spec.shotGain N * s / 3600

/-- C04, C06: every column the noise estimate of a channel writes before the custom noises: frame and saturation times as
`frame_time` gives them; for every signal column the root of its variance; dark current, read noise; the total noise. No other
column. -/
theorem estimate_explicit (t : Table ℝ) (ch : NoiseChannel) (common : Option CustomNoise)
    (n : ℕ) (sig : String → ℕ → ℝ) (win mx : ℕ → ℝ) (well fw freq dark rn : ℝ)
    (hr : ChannelRows t ch.value n sig win mx) (hd : GoodDetector ch.detector well fw freq dark rn) :
    ∃ (o1 : Out) (ft : ℝ) (o5 : Out), frameTimeF t ch [] = .ok o1 ∧ o1.get? "frameTime" = some (bins n (fun _ => ft)) ∧ 0 < ft ∧
      (∀ f, ch.detector.frameTime = some f → ft = f) ∧
      (ch.detector.frameTime = none →
        (∀ i < n, ft * mx i ≤ fw * well) ∧ (∃ i < n, ft * mx i = fw * well)) ∧
      estimateNoiseInChannel t ch common = .ok (tryCustom ch.customNoise n (tryCustom common n o5)) ∧
      (∀ k ∈ t.keys, substr "signal" k = true →
        o5.get? (k ++ "_noise") = some (bins n (fun i => Real.sqrt (photVar (Spec.reads ft freq) (sig k i))))) ∧
      o5.get? "darkcurrent_noise" = some (bins n (fun i => Real.sqrt (darkVar (Spec.reads ft freq) (win i) dark))) ∧
      o5.get? "read_noise" =
        some (bins n (fun i => Real.sqrt (readVar (Spec.reads ft freq) (ch.detector.multiaccumM.getD 1) rn (win i) ft))) ∧
      o5.get? "total_noise" = some ((List.range n).map (fun i => totalNoise1 (ch.noiseX.getD 0)
        (fin (Real.sqrt (darkVar (Spec.reads ft freq) (win i) dark))) (fin (photVar (Spec.reads ft freq) (totalSignal t sig i)))
        (fin (Real.sqrt (readVar (Spec.reads ft freq) (ch.detector.multiaccumM.getD 1) rn (win i) ft)))
        (fin (sig "star_signal_inAperture" i)))) ∧
      ∀ q, (∀ k ∈ t.keys, substr "signal" k = true → q ≠ k ++ "_noise") → q ≠ "darkcurrent_noise" → q ≠ "read_noise" →
        q ≠ "total_noise" → o5.get? q = o1.get? q := by
  obtain ⟨o1, ft, f1, f2, f3, f4, -, -⟩ := frame_time_safe t ch [] n mx well fw hr.hmx hr.hmx0 hr.hmxp
    hd.hwell hd.hwell0 hd.hfw hd.hfw0.le
  have hft0 : 0 < ft := by
    cases h : ch.detector.frameTime with
    | some f => rw [f3 f h]; exact hd.hft f h
    | none =>
      obtain ⟨-, j, hj, hje, hj0⟩ := f4 h
      have : 0 < ft * mx j := by rw [hje]; exact mul_pos hd.hfw0 hd.hwell0
      exact pos_of_mul_pos_left this hj0.le
  have hm : ∀ m, ch.detector.multiaccumM = some m → m ≠ 0 := fun m h => (hd.hm m h).ne'
  have hmp : 0 < ch.detector.multiaccumM.getD 1 := by
    cases h : ch.detector.multiaccumM with
    | none => simp
    | some m => simpa using hd.hm m h
  have hma := multiaccum_fin ch.detector ft freq hft0.ne' hd.hfreq hm
  have hN := reads_ge ft freq
  set N := Spec.reads ft freq with hNdef
  set m := ch.detector.multiaccumM.getD 1 with hmdef
  have hsg := shotGain_pos hN
  have hrg := readGain_pos hN hmp
  obtain ⟨o2, p1, p2, p3, p4⟩ := photon_noise_columns t ch (Spec.shotGain N) o1 n sig hsg.le _ f2
    (bins_length _ _) hr.hsig hr.hsig0
  have hnoise : ∀ (q nm : String), ¬ "_noise".toList <:+ q.toList → q ≠ nm ++ "_noise" := by
    intro q nm h e
    exact h (by rw [e]; simp)
  have hft2 : o2.get? "frameTime" = some (bins n (fun _ => ft)) := by
    rw [p3 _ (fun k _ _ => hnoise _ _ (by decide)), f2]
  obtain ⟨w, hwl⟩ := hr.hwl
  have hss : substr "signal" "star_signal_inAperture" = true := by decide
  have hst := hr.hsig _ hr.hstar hss
  -- the dark and read columns
  set darkCol := (bins n win).map (fun w => darkNoise1 (fin (Spec.shotGain N)) w (fin dark)) with hdark
  set readCol := List.zipWith (fun w f => readNoise1 (fin (Spec.readGain N m)) w f rn) (bins n win)
    (bins n (fun _ => ft)) with hread
  set o3 := o2.set "darkcurrent_noise" darkCol with ho3
  set o4 := o3.set "read_noise" readCol with ho4
  have hft3 : o3.get? "frameTime" = some (bins n (fun _ => ft)) := by
    rw [ho3, Dict.get?_set_ne _ _ (by decide), hft2]
  -- photon variance is read from o4: signal noise columns are not dark or read
  have hphot : photonNoiseVariance t o4 = .ok (bins n (fun i => Spec.shotGain N * totalSignal t sig i / 3600)) := by
    rw [← p4]
    have hne : ∀ k, substr "signal" k = true → k ++ "_noise" ≠ "darkcurrent_noise" ∧ k ++ "_noise" ≠ "read_noise" := by
      intro k hk
      constructor
      · intro e
        have : k = "darkcurrent" := append_noise_inj (by simpa using e)
        subst this; exact absurd hk (by decide)
      · intro e
        have : k = "read" := append_noise_inj (by simpa using e)
        subst this; exact absurd hk (by decide)
    have hgen : ∀ (ks : List String) (acc : List (Num ℝ)), (∀ k ∈ ks, substr "signal" k = true) →
        photonVarianceLoop o4 ks acc = photonVarianceLoop o2 ks acc := by
      intro ks
      induction ks with
      | nil => intro acc _; rfl
      | cons k ks ih =>
        intro acc hks
        have hk := hne k (hks k (by simp))
        have : o4.getE (k ++ "_noise") = o2.getE (k ++ "_noise") := by
          unfold Dict.getE
          rw [ho4, Dict.get?_set_ne _ _ hk.2, ho3, Dict.get?_set_ne _ _ hk.1]
        unfold photonVarianceLoop
        rw [this]
        cases o2.getE (k ++ "_noise") with
        | error e => rfl
        | ok c => simp only [bind, Except.bind]; exact ih _ (fun k' h' => hks k' (List.mem_cons_of_mem _ h'))
    unfold photonNoiseVariance
    have e4 : o4.getE "frameTime" = o2.getE "frameTime" := by
      unfold Dict.getE
      rw [ho4, Dict.get?_set_ne _ _ (by decide), hft3, hft2]
    rw [e4]
    cases o2.getE "frameTime" with
    | error e => rfl
    | ok c =>
      simp only [bind, Except.bind]
      apply hgen
      intro k hk
      rw [signalKeys, List.mem_filter] at hk
      exact hk.2
  set X := ch.noiseX.getD 0 with hXdef
  set D : ℕ → ℝ := fun i => Spec.shotGain N * win i * dark / 3600 with hDdef
  set R : ℕ → ℝ := fun i => Spec.readGain N m * rn ^ 2 * win i / ft / 3600 with hRdef
  set P : ℕ → ℝ := fun i => Spec.shotGain N * totalSignal t sig i / 3600 with hPdef
  set S : ℕ → ℝ := sig "star_signal_inAperture" with hSdef
  have hD0 : ∀ i < n, 0 ≤ D i := by
    intro i hi; have := hr.hwin0 i hi; have := hd.hdark0; simp only [hDdef]; positivity
  have hR0 : ∀ i < n, 0 ≤ R i := by
    intro i hi; have := hr.hwin0 i hi; simp only [hRdef]; positivity
  have hT0 : ∀ i < n, 0 ≤ totalSignal t sig i := by
    intro i hi
    apply List.sum_nonneg
    intro x hx
    obtain ⟨k, hk, rfl⟩ := List.mem_map.mp hx
    rw [List.mem_filter] at hk
    exact hr.hsig0 k hk.1 hk.2 i hi
  have hP0 : ∀ i < n, 0 ≤ P i := by
    intro i hi; have := hT0 i hi; simp only [hPdef]; positivity
  have hdarkE : darkCol = bins n (fun i => Real.sqrt (D i)) := by
    rw [hdark, bins_map]; unfold bins
    apply List.map_congr_left
    intro i hi
    have hD := hD0 i (List.mem_range.mp hi)
    simp only [darkNoise1, fin_mul]
    rw [fin_div _ _ (by norm_num), mul_one, sqrt_fin hD]
  have hreadE : readCol = bins n (fun i => Real.sqrt (R i)) := by
    rw [hread]; unfold bins; rw [zipWith_map_map]
    apply List.map_congr_left
    intro i hi
    have hR := hR0 i (List.mem_range.mp hi)
    simp only [readNoise1, fin_mul]
    rw [fin_div _ _ hft0.ne', fin_mul, fin_div _ _ (by norm_num), mul_one, sqrt_fin hR]
  set tot0 : ℕ → Num ℝ := fun i => totalNoise1 X (fin (Real.sqrt (D i))) (fin (P i))
    (fin (Real.sqrt (R i))) (fin (S i)) with htot0
  have hcol : totalNoiseCol X darkCol (bins n P) readCol (bins n S) = (List.range n).map tot0 := by
    rw [hdarkE, hreadE]; unfold bins; rw [totalNoiseCol_map]
  set o5 := o4.set "total_noise" ((List.range n).map tot0) with ho5
  have hkne : ∀ k, substr "signal" k = true → k ++ "_noise" ≠ "darkcurrent_noise" ∧ k ++ "_noise" ≠ "read_noise" ∧
      k ++ "_noise" ≠ "total_noise" := by
    intro k hk
    refine ⟨?_, ?_, ?_⟩
    · intro e
      have : k = "darkcurrent" := append_noise_inj (by simpa using e)
      subst this; exact absurd hk (by decide)
    · intro e
      have : k = "read" := append_noise_inj (by simpa using e)
      subst this; exact absurd hk (by decide)
    · intro e
      have : k = "total" := append_noise_inj (by simpa using e)
      subst this; exact absurd hk (by decide)
  refine ⟨o1, ft, o5, f1, f2, hft0, f3, ?_, ?_, ?_, ?_, ?_, ?_, ?_⟩
  · intro h
    obtain ⟨h1, j, hj, hje, -⟩ := f4 h
    exact ⟨h1, j, hj, hje⟩
  · have g1 : o4.getE "darkcurrent_noise" = .ok darkCol := by
      apply Dict.getE_ok
      rw [ho4, Dict.get?_set_ne _ _ (by decide), ho3, Dict.get?_set_self]
    have g2 : o4.getE "read_noise" = .ok readCol := by
      apply Dict.getE_ok; rw [ho4, Dict.get?_set_self]
    have hb : bins n (fun _ => ft) = fin ft :: (bins n (fun _ => ft)).tail := by
      obtain ⟨k, rfl⟩ : ∃ k, n = k + 1 := ⟨n - 1, by have := hr.npos; omega⟩
      simp [bins, List.range_succ_eq_map]
    unfold estimateNoiseInChannel
    simp only [f1, bind, Except.bind, Dict.getE_ok f2]
    rw [hb]
    simp only [hma, p1, hr.hwin, key, hd.hdark, hd.hrn]
    have hget : Dict.getE (Dict.set o2 "darkcurrent_noise"
        (List.map (fun w => darkNoise1 (fin (Spec.shotGain N)) w (fin dark)) (bins n win))) "frameTime"
        = .ok (bins n (fun _ => ft)) := Dict.getE_ok hft3
    rw [hget]
    simp only []
    rw [← hdark, ← ho3, ← hread, ← ho4, hphot]
    simp only [hst, g1, g2, hwl, pure, Except.pure, bins_length]
    rw [hcol]
  · intro k hk hs
    obtain ⟨n1, n2, n3⟩ := hkne k hs
    rw [ho5, Dict.get?_set_ne _ _ n3, ho4, Dict.get?_set_ne _ _ n2, ho3, Dict.get?_set_ne _ _ n1, p2 k hk hs]
    rfl
  · rw [ho5, Dict.get?_set_ne _ _ (by decide), ho4, Dict.get?_set_ne _ _ (by decide), ho3, Dict.get?_set_self, hdarkE]
    rfl
  · rw [ho5, Dict.get?_set_ne _ _ (by decide), ho4, Dict.get?_set_self, hreadE]
    rfl
  · rw [ho5, Dict.get?_set_self]
    rfl
  · intro q h1 h2 h3 h4
    rw [ho5, Dict.get?_set_ne _ _ h4, ho4, Dict.get?_set_ne _ _ h3, ho3, Dict.get?_set_ne _ _ h2, p3 q h1]

/-- C06 (end to end): for every channel whose rows and detector are physical and whose custom
noises (common and channel section) are well formed, the noise estimate succeeds, and in each bin
`total_noise` is NaN if the star signal is zero, and otherwise the non-negative number whose square
is the relative variance of the specification: dark current, photon noise with its excess factor and
read noise in quadrature over the star signal, plus the square of each custom noise. The frame time
used is the `frameTime` column of the same output. -/
theorem total_noise_quadrature (t : Table ℝ) (ch : NoiseChannel) (common : Option CustomNoise)
    (n : ℕ) (sig : String → ℕ → ℝ) (win mx : ℕ → ℝ) (well fw freq dark rn : ℝ)
    (hr : ChannelRows t ch.value n sig win mx) (hd : GoodDetector ch.detector well fw freq dark rn)
    (hX : -1 ≤ ch.noiseX.getD 0)
    (hc1 : ∀ e ∈ entries common, GoodEntry e) (hc2 : ∀ e ∈ entries ch.customNoise, GoodEntry e) :
    ∃ out ft tot, estimateNoiseInChannel t ch common = .ok out ∧
      out.get? "frameTime" = some (bins n (fun _ => ft)) ∧ 0 < ft ∧
      (∀ f, ch.detector.frameTime = some f → ft = f) ∧
      (ch.detector.frameTime = none →
        (∀ i < n, ft * mx i ≤ fw * well) ∧ (∃ i < n, ft * mx i = fw * well)) ∧
      out.get? "total_noise" = some tot ∧ tot.length = n ∧
      ∀ i < n,
        (sig "star_signal_inAperture" i = 0 → tot[i]? = some nan) ∧
        (sig "star_signal_inAperture" i ≠ 0 → ∃ T, tot[i]? = some (fin T) ∧ 0 ≤ T ∧
          T ^ 2 = Spec.relVariance
            { dark := dark, read := rn, excess := ch.noiseX.getD 0, frame := ft, freq := freq,
              avg := ch.detector.multiaccumM.getD 1 }
            { star := sig "star_signal_inAperture" i, total := totalSignal t sig i, window := win i }
            (values (entries common) ++ values (entries ch.customNoise))) := by
  obtain ⟨o1, ft, o5, e1, e2, hft0, f3, f4, e5, -, -, -, e9, e10⟩ := estimate_explicit t ch common n sig win mx well fw freq dark rn hr hd
  have hnoise : ∀ (q nm : String), ¬ "_noise".toList <:+ q.toList → q ≠ nm ++ "_noise" := by
    intro q nm h e
    exact h (by rw [e]; simp)
  have hmp : 0 < ch.detector.multiaccumM.getD 1 := by
    cases h : ch.detector.multiaccumM with
    | none => simp
    | some m => simpa using hd.hm m h
  have hN := reads_ge ft freq
  set N := Spec.reads ft freq with hNdef
  set m := ch.detector.multiaccumM.getD 1 with hmdef
  have hsg := shotGain_pos hN
  have hrg := readGain_pos hN hmp
  have hss : substr "signal" "star_signal_inAperture" = true := by decide
  set X := ch.noiseX.getD 0 with hXdef
  set D : ℕ → ℝ := fun i => Spec.shotGain N * win i * dark / 3600 with hDdef
  set R : ℕ → ℝ := fun i => Spec.readGain N m * rn ^ 2 * win i / ft / 3600 with hRdef
  set P : ℕ → ℝ := fun i => Spec.shotGain N * totalSignal t sig i / 3600 with hPdef
  set S : ℕ → ℝ := sig "star_signal_inAperture" with hSdef
  have hD0 : ∀ i < n, 0 ≤ D i := by
    intro i hi; have := hr.hwin0 i hi; have := hd.hdark0; simp only [hDdef]; positivity
  have hR0 : ∀ i < n, 0 ≤ R i := by
    intro i hi; have := hr.hwin0 i hi; simp only [hRdef]; positivity
  have hT0 : ∀ i < n, 0 ≤ totalSignal t sig i := by
    intro i hi
    apply List.sum_nonneg
    intro x hx
    obtain ⟨k, hk, rfl⟩ := List.mem_map.mp hx
    rw [List.mem_filter] at hk
    exact hr.hsig0 k hk.1 hk.2 i hi
  have hP0 : ∀ i < n, 0 ≤ P i := by
    intro i hi; have := hT0 i hi; simp only [hPdef]; positivity
  set tot0 : ℕ → Num ℝ := fun i => totalNoise1 X (fin (Real.sqrt (D i))) (fin (P i))
    (fin (Real.sqrt (R i))) (fin (S i)) with htot0
  obtain ⟨c1, c1'⟩ := tryCustom_good n common hc1 o5 tot0 e9
  obtain ⟨c2, c2'⟩ := tryCustom_good n ch.customNoise hc2 (tryCustom common n o5) _ c1
  refine ⟨tryCustom ch.customNoise n (tryCustom common n o5), ft, _, e5, ?_, hft0, f3, f4, c2,
    by simp, ?_⟩
  · rw [c2' _ (by decide) (fun e _ nm _ => hnoise _ _ (by decide)),
      c1' _ (by decide) (fun e _ nm _ => hnoise _ _ (by decide)),
      e10 _ (fun k _ _ => hnoise _ _ (by decide)) (by decide) (by decide) (by decide), e2]
  · intro i hi
    have hget : ∀ g : ℕ → Num ℝ, ((List.range n).map g)[i]? = some (g i) := by
      intro g; simp [hi]
    rw [hget]
    simp only [← quadAll_append]
    have hA0 : 0 ≤ D i + (1 + X) * P i + R i := by
      have := hD0 i hi; have := hP0 i hi; have := hR0 i hi
      have : 0 ≤ (1 + X) * P i := mul_nonneg (by linarith) (hP0 i hi)
      linarith
    have hval : tot0 i = fin (Real.sqrt (D i + (1 + X) * P i + R i)) / zeroToNan (fin (S i)) := by
      simp only [htot0, totalNoise1, fin_mul, fin_add]
      rw [Real.mul_self_sqrt (hD0 i hi), Real.mul_self_sqrt (hR0 i hi), sqrt_fin hA0]
    constructor
    · intro h0
      rw [hval]; simp [zeroToNan, h0, quadAll_nan]
    · intro h0
      have hS0 : 0 ≤ S i := hr.hsig0 _ hr.hstar hss i hi
      have hv2 : tot0 i = fin (Real.sqrt (D i + (1 + X) * P i + R i) / S i) := by
        rw [hval]; simp only [zeroToNan, if_neg h0]; rw [fin_div _ _ h0]
      obtain ⟨T, t1, t2, t3⟩ := quadAll_fin (values (entries common) ++ values (entries ch.customNoise))
        (Real.sqrt (D i + (1 + X) * P i + R i) / S i) (div_nonneg (Real.sqrt_nonneg _) hS0)
      refine ⟨T, by rw [hv2, t1], t2, ?_⟩
      rw [t3, div_pow, Real.sq_sqrt hA0]
      unfold Spec.relVariance Spec.rateVariance
      simp only [← hNdef]
      congr 2
      simp only [hDdef, hPdef, hRdef]
      ring

/-- `v'` makes at least the custom noises of `v`: possibly louder, possibly with more entries. -/
def LouderCustoms (v v' : List ℝ) : Prop :=
  ∃ l, l.Sublist v' ∧ List.Forall₂ (fun a b => |a| ≤ |b|) v l

theorem louder_sum {v v' : List ℝ} (h : LouderCustoms v v') :
    (v.map (fun a => (a / 1000000) ^ 2)).sum ≤ (v'.map (fun a => (a / 1000000) ^ 2)).sum := by
  obtain ⟨l, hl, hf⟩ := h
  have h1 : (v.map (fun a => (a / 1000000) ^ 2)).sum ≤ (l.map (fun a => (a / 1000000) ^ 2)).sum := by
    clear hl
    induction hf with
    | nil => simp
    | cons hab _ ih =>
      simp only [List.map_cons, List.sum_cons]
      refine add_le_add ?_ ih
      rw [div_pow, div_pow]
      exact div_le_div_of_nonneg_right (sq_le_sq.mpr hab) (by positivity)
  refine h1.trans ?_
  apply List.Sublist.sum_le_sum (hl.map _)
  intro a ha
  obtain ⟨b, -, rfl⟩ := List.mem_map.mp ha
  positivity

/-- C07: two estimates of the same channel at the same frame time (same maximum signals and well, or
the same forced frame time) and same star signal: more total signal, a larger window, more dark
current, more read noise, a larger excess noise factor and louder or additional custom noises never
decrease `total_noise` in any bin. -/
theorem total_noise_monotone (t t' : Table ℝ) (ch ch' : NoiseChannel)
    (common common' : Option CustomNoise)
    (n : ℕ) (sig sig' : String → ℕ → ℝ) (win win' mx : ℕ → ℝ)
    (well fw freq dark rn dark' rn' : ℝ)
    (hr : ChannelRows t ch.value n sig win mx) (hd : GoodDetector ch.detector well fw freq dark rn)
    (hr' : ChannelRows t' ch'.value n sig' win' mx)
    (hd' : GoodDetector ch'.detector well fw freq dark' rn')
    (hforced : ch.detector.frameTime = ch'.detector.frameTime)
    (hM : ch.detector.multiaccumM = ch'.detector.multiaccumM)
    (hX : -1 ≤ ch.noiseX.getD 0) (hXX : ch.noiseX.getD 0 ≤ ch'.noiseX.getD 0)
    (hdark : dark ≤ dark') (hrn : |rn| ≤ |rn'|) (hwin : ∀ i < n, win i ≤ win' i)
    (hstar : ∀ i < n, sig "star_signal_inAperture" i = sig' "star_signal_inAperture" i)
    (htot : ∀ i < n, totalSignal t sig i ≤ totalSignal t' sig' i)
    (hc1 : ∀ e ∈ entries common, GoodEntry e) (hc2 : ∀ e ∈ entries ch.customNoise, GoodEntry e)
    (hc1' : ∀ e ∈ entries common', GoodEntry e) (hc2' : ∀ e ∈ entries ch'.customNoise, GoodEntry e)
    (hcust : LouderCustoms (values (entries common) ++ values (entries ch.customNoise))
      (values (entries common') ++ values (entries ch'.customNoise))) :
    ∃ out out' tot tot', estimateNoiseInChannel t ch common = .ok out ∧
      estimateNoiseInChannel t' ch' common' = .ok out' ∧
      out.get? "total_noise" = some tot ∧ out'.get? "total_noise" = some tot' ∧
      ∀ i < n, sig "star_signal_inAperture" i ≠ 0 →
        ∃ T T', tot[i]? = some (fin T) ∧ tot'[i]? = some (fin T') ∧ T ≤ T' := by
  obtain ⟨out, ft, tot, a1, -, aft, a3, a4, a5, -, a6⟩ := total_noise_quadrature t ch common n sig win mx
    well fw freq dark rn hr hd hX hc1 hc2
  obtain ⟨out', ft', tot', b1, -, -, b3, b4, b5, -, b6⟩ := total_noise_quadrature t' ch' common' n sig' win' mx
    well fw freq dark' rn' hr' hd' (hX.trans hXX) hc1' hc2'
  have hfte : ft = ft' := by
    cases h : ch.detector.frameTime with
    | some f => rw [a3 f h, b3 f (hforced ▸ h)]
    | none =>
      obtain ⟨p1, j, hj, hj'⟩ := a4 h
      obtain ⟨q1, k, hk, hk'⟩ := b4 (hforced ▸ h)
      have hfp : 0 < fw * well := mul_pos hd.hfw0 hd.hwell0
      have hmj : 0 < mx j := pos_of_mul_pos_right (hj' ▸ hfp) aft.le
      have hmk : 0 < mx k := by
        rcases (hr.hmx0 k hk).eq_or_lt with h0 | h0
        · rw [← h0, mul_zero] at hk'; exact absurd hk' hfp.ne
        · exact h0
      have e1 : ft * mx k ≤ ft' * mx k := by rw [hk']; exact p1 k hk
      have e2 : ft' * mx j ≤ ft * mx j := by rw [hj']; exact q1 j hj
      exact le_antisymm (le_of_mul_le_mul_right e1 hmk) (le_of_mul_le_mul_right e2 hmj)
  refine ⟨out, out', tot, tot', a1, b1, a5, b5, ?_⟩
  intro i hi h0
  obtain ⟨T, c1, c2, c3⟩ := (a6 i hi).2 h0
  obtain ⟨T', d1, d2, d3⟩ := (b6 i hi).2 (hstar i hi ▸ h0)
  refine ⟨T, T', c1, d1, ?_⟩
  rw [← pow_le_pow_iff_left₀ c2 d2 two_ne_zero, c3, d3]
  unfold Spec.relVariance
  refine add_le_add ?_ (louder_sum hcust)
  simp only [hstar i hi]
  apply div_le_div_of_nonneg_right _ (sq_nonneg _)
  unfold Spec.rateVariance
  simp only [← hfte, ← hM]
  have hN := reads_ge ft freq
  have hsg := (shotGain_pos hN).le
  have hmp : 0 < ch.detector.multiaccumM.getD 1 := by
    cases h : ch.detector.multiaccumM with
    | none => simp
    | some m => simpa using hd.hm m h
  have hrg := (readGain_pos hN hmp).le
  apply div_le_div_of_nonneg_right _ (by norm_num)
  have hw0 := hr.hwin0 i hi
  have hw := hwin i hi
  have ht0 : 0 ≤ totalSignal t sig i := by
    apply List.sum_nonneg
    intro x hx
    obtain ⟨k, hk, rfl⟩ := List.mem_map.mp hx
    rw [List.mem_filter] at hk
    exact hr.hsig0 k hk.1 hk.2 i hi
  refine add_le_add (add_le_add ?_ ?_) ?_
  · exact mul_le_mul (mul_le_mul_of_nonneg_left hw hsg) hdark hd.hdark0 (mul_nonneg hsg (hw0.trans hw))
  · have h1 : (1 + ch.noiseX.getD 0) * Spec.shotGain (Spec.reads ft freq)
        ≤ (1 + ch'.noiseX.getD 0) * Spec.shotGain (Spec.reads ft freq) :=
      mul_le_mul_of_nonneg_right (by linarith) hsg
    exact mul_le_mul h1 (htot i hi) ht0 (mul_nonneg (by linarith) hsg)
  · apply div_le_div_of_nonneg_right _ aft.le
    exact mul_le_mul (mul_le_mul_of_nonneg_left (sq_le_sq.mpr hrn) hrg) hw hw0
      (mul_nonneg hrg (sq_nonneg _))

/-- C07: the order of the custom noises (and their split between common and channel section) does
not matter: only the multiset of values enters the total noise. -/
theorem custom_noise_order (t : Table ℝ) (ch ch' : NoiseChannel) (common common' : Option CustomNoise)
    (n : ℕ) (sig : String → ℕ → ℝ) (win mx : ℕ → ℝ) (well fw freq dark rn : ℝ)
    (hr : ChannelRows t ch.value n sig win mx) (hd : GoodDetector ch.detector well fw freq dark rn)
    (hX : -1 ≤ ch.noiseX.getD 0)
    (hch : ch' = { ch with customNoise := ch'.customNoise })
    (hc1 : ∀ e ∈ entries common, GoodEntry e) (hc2 : ∀ e ∈ entries ch.customNoise, GoodEntry e)
    (hc1' : ∀ e ∈ entries common', GoodEntry e) (hc2' : ∀ e ∈ entries ch'.customNoise, GoodEntry e)
    (hperm : (values (entries common) ++ values (entries ch.customNoise)).Perm
      (values (entries common') ++ values (entries ch'.customNoise))) :
    ∃ out out' tot, estimateNoiseInChannel t ch common = .ok out ∧
      estimateNoiseInChannel t ch' common' = .ok out' ∧
      out.get? "total_noise" = some tot ∧ out'.get? "total_noise" = some tot := by
  have e1 : ch'.value = ch.value := by rw [hch]
  have e2 : ch'.detector = ch.detector := by rw [hch]
  have e3 : ch'.noiseX = ch.noiseX := by rw [hch]
  have refl : ∀ l : List ℝ, List.Forall₂ (fun a b => |a| ≤ |b|) l l := by
    intro l; induction l with
    | nil => exact .nil
    | cons a l ih => exact .cons le_rfl ih
  obtain ⟨out, ft, tot, a1, -, aft, a3, a4, a5, al, a6⟩ := total_noise_quadrature t ch common n sig win mx
    well fw freq dark rn hr hd hX hc1 hc2
  obtain ⟨out', ft', tot', b1, -, -, b3, b4, b5, bl, b6⟩ := total_noise_quadrature t ch' common' n sig win mx
    well fw freq dark rn (e1 ▸ hr) (e2 ▸ hd) (e3 ▸ hX) hc1' hc2'
  have hfte : ft = ft' := by
    rw [e2] at b3 b4
    cases h : ch.detector.frameTime with
    | some f => rw [a3 f h, b3 f h]
    | none =>
      obtain ⟨p1, j, hj, hj'⟩ := a4 h
      obtain ⟨q1, k, hk, hk'⟩ := b4 h
      have hfp : 0 < fw * well := mul_pos hd.hfw0 hd.hwell0
      have hmj : 0 < mx j := pos_of_mul_pos_right (hj' ▸ hfp) aft.le
      have hmk : 0 < mx k := by
        rcases (hr.hmx0 k hk).eq_or_lt with h0 | h0
        · rw [← h0, mul_zero] at hk'; exact absurd hk' hfp.ne
        · exact h0
      have e1 : ft * mx k ≤ ft' * mx k := by rw [hk']; exact p1 k hk
      have e2 : ft' * mx j ≤ ft * mx j := by rw [hj']; exact q1 j hj
      exact le_antisymm (le_of_mul_le_mul_right e1 hmk) (le_of_mul_le_mul_right e2 hmj)
  have htt : tot = tot' := by
    apply List.ext_getElem?
    intro i
    by_cases hi : i < n
    · by_cases h0 : sig "star_signal_inAperture" i = 0
      · rw [(a6 i hi).1 h0, (b6 i hi).1 h0]
      · obtain ⟨T, c1, c2, c3⟩ := (a6 i hi).2 h0
        obtain ⟨T', d1, d2, d3⟩ := (b6 i hi).2 h0
        have : T ^ 2 = T' ^ 2 := by
          rw [c3, d3, e2, e3, hfte]
          unfold Spec.relVariance
          rw [(hperm.map _).sum_eq]
        rw [c1, d1, (pow_left_inj₀ c2 d2 two_ne_zero).mp this]
    · rw [List.getElem?_eq_none (by omega), List.getElem?_eq_none (by omega)]
  exact ⟨out, out', tot, a1, b1, a5, htt ▸ b5⟩

/-! ## C08 custom noises that are lost -/

/-- C08 fails: an entry without a name makes the code drop that entry and all the entries after it,
silently (the KeyError is swallowed by the caller). -/
theorem custom_missing_name_drops_rest (n : ℕ) (good bad : List CustomEntry) (v : ℝ) (out : Out)
    (hg : ∀ e ∈ good, GoodEntry e) (tot : ℕ → Num ℝ)
    (ht : out.get? "total_noise" = some ((List.range n).map tot)) :
    tryCustom (some (.many (good ++ ⟨some v, none⟩ :: bad))) n out
      = tryCustom (some (.many good)) n out := by
  simp only [tryCustom, addCustomNoise]
  induction good generalizing out tot with
  | nil => simp [applyCustoms, applyCustom]
  | cons e es ih =>
    obtain ⟨w, o', -, h1, h2, -⟩ := applyCustom_good n e (hg e (by simp)) out tot ht
    simp only [List.cons_append, applyCustoms, h1]
    exact ih o' (fun e' h' => hg e' (List.mem_cons_of_mem _ h')) _ h2

/-- C06 excluded point: a custom noise named `total` overwrites the physical noise: whatever the
total was, it becomes `sqrt 2` times the custom noise alone. -/
theorem custom_named_total_overwrites (v : ℝ) (hv : 0 ≤ v) (out : Out) (tot : List (Num ℝ))
    (ht : out.get? "total_noise" = some tot) :
    (tryCustom (some (.single ⟨some v, some "total"⟩)) 1 out).get? "total_noise"
      = some [fin (Real.sqrt 2 * (v / 1000000))] := by
  have e : ("total" ++ "_noise" : String) = "total_noise" := by decide
  simp only [tryCustom, addCustomNoise, applyCustom, e, Dict.get?_set_self]
  simp only [addQuad, List.replicate, List.zipWith, fin_mul, fin_add]
  rw [sqrt_fin (add_nonneg (mul_self_nonneg _) (mul_self_nonneg _))]
  congr 3
  have : v * (1 / 1000000) * 1 * (v * (1 / 1000000) * 1) + v * (1 / 1000000) * 1 * (v * (1 / 1000000) * 1)
      = 2 * (v / 1000000) ^ 2 := by ring
  rw [this, Real.sqrt_mul (by norm_num), Real.sqrt_sq (by positivity)]

/-! ## Non-vacuity -/

/-- A table of two channels: `P` has three bins (the last without star light), `S` has one. -/
def exTable : Table ℝ :=
  [("chName", [.str "P", .str "S", .str "P", .str "P"]),
   ("Wavelength", [.num (fin 1), .num (fin 2), .num (fin 3), .num (fin 4)]),
   ("star_signal_inAperture", [.num (fin 100), .num (fin 50), .num (fin 40), .num (fin 0)]),
   ("instrument_signal", [.num (fin 2), .num (fin 1), .num (fin 3), .num (fin 0)]),
   ("WindowSize", [.num (fin 4), .num (fin 1), .num (fin 4), .num (fin 4)]),
   ("MaxSignal_inPixel", [.num (fin 10), .num (fin 5), .num (fin 4), .num (fin 0)])]

def exSig (k : String) (i : ℕ) : ℝ :=
  if k = "star_signal_inAperture" then [100, 40, 0].getD i 0
  else if k = "instrument_signal" then [2, 3, 0].getD i 0 else 0

def exDet : Detector :=
  { wellDepth := some 1000, fWellDepth := some (1 / 2), freqNDR := some 10, darkCurrent := some 1,
    readNoise := some 20, multiaccumM := some 2 }

def exCh : NoiseChannel :=
  { value := "P", detector := exDet, noiseX := some (1 / 10),
    customNoise := some (.many [⟨some 30, some "jitter"⟩, ⟨some 50, some "gain"⟩]) }

theorem exTable_rows : ChannelRows exTable "P" 3 exSig (fun _ => 4) (fun i => [10, 4, 0].getD i 0) where
  nodup := by decide
  npos := by norm_num
  hsig := by
    intro k hk hs
    simp only [exTable, Dict.keys, List.map_cons, List.map_nil, List.mem_cons, List.not_mem_nil, or_false] at hk
    rcases hk with rfl | rfl | rfl | rfl | rfl | rfl <;> revert hs <;> first | (intro hs; exact absurd hs (by decide)) | skip
    all_goals
      intro _
      simp [Table.selNum, Table.sel, Dict.getE, Dict.get?, exTable, Table.numCol, bind, Except.bind, pure,
        Except.pure, bins, exSig, List.range_succ]
  hsig0 := by
    intro k _ _ i hi
    unfold exSig
    interval_cases i <;> split_ifs <;> norm_num
  hstar := by decide
  hwin := by
    simp [Table.selNum, Table.sel, Dict.getE, Dict.get?, exTable, Table.numCol, bind, Except.bind, pure,
        Except.pure, bins, List.range_succ]
  hwin0 := by intros; norm_num
  hmx := by
    simp [Table.selNum, Table.sel, Dict.getE, Dict.get?, exTable, Table.numCol, bind, Except.bind, pure,
        Except.pure, bins, List.range_succ]
  hmx0 := by intro i hi; interval_cases i <;> norm_num
  hmxp := ⟨0, by norm_num, by norm_num⟩
  hwl := ⟨fun i => [1, 3, 4].getD i 0, by
    simp [Table.selNum, Table.sel, Dict.getE, Dict.get?, exTable, Table.numCol, bind, Except.bind, pure,
        Except.pure, bins, List.range_succ]⟩

example : GoodDetector exDet 1000 (1 / 2) 10 1 20 := by
  constructor <;> simp [exDet]

example : (∀ e ∈ entries exCh.customNoise, GoodEntry e) ∧ -1 ≤ exCh.noiseX.getD 0 := by
  constructor
  · simp [exCh, entries, GoodEntry]
  · simp [exCh]; norm_num

/-- The read gain really decreases: 5 reads against 2. -/
example : Spec.readGain (Spec.reads (1 / 2) 10) 1 = 8 / 5 ∧ Spec.readGain (Spec.reads (1 / 10) 10) 1 = 2 := by
  have h1 : Spec.reads (1 / 2) 10 = 5 := by
    unfold Spec.reads
    have : ⌊(1 / 2 * 10 : ℝ)⌋ = 5 := by rw [Int.floor_eq_iff]; norm_num
    rw [this]; norm_num
  have h2 : Spec.reads (1 / 10) 10 = 2 := by
    unfold Spec.reads
    have : ⌊(1 / 10 * 10 : ℝ)⌋ = 1 := by rw [Int.floor_eq_iff]; norm_num
    rw [this]; norm_num
  rw [h1, h2]; unfold Spec.readGain; norm_num

example : LouderCustoms [30, 50] [10, 30, 60] :=
  ⟨[30, 60], by simp, by simp [List.forall₂_cons]; norm_num⟩

end
end ExoRad
