import Verif.Props.Noise

/-!
# The total noise and its parts: C07
-/

namespace ExoRad
open Num

noncomputable section

/-- C07: in every bin with star light the total noise is at least every one of its parts: dark current, the photon noise of each signal column, read noise, each custom noise. -/
theorem total_noise_at_least (t : Table ℝ) (ch : NoiseChannel) (common : Option CustomNoise)
    (n : ℕ) (sig : String → ℕ → ℝ) (win mx : ℕ → ℝ) (well fw freq dark rn : ℝ)
    (hr : ChannelRows t ch.value n sig win mx) (hd : GoodDetector ch.detector well fw freq dark rn)
    (hX : 0 ≤ ch.noiseX.getD 0)
    (hc1 : ∀ e ∈ entries common, GoodEntry e) (hc2 : ∀ e ∈ entries ch.customNoise, GoodEntry e) :
    ∃ out ft tot, estimateNoiseInChannel t ch common = .ok out ∧ out.get? "frameTime" = some (bins n (fun _ => ft)) ∧ 0 < ft ∧
      out.get? "total_noise" = some tot ∧
      ∀ i < n, 0 < sig "star_signal_inAperture" i → ∃ T, tot[i]? = some (fin T) ∧
        Real.sqrt (Spec.shotGain (Spec.reads ft freq) * (win i * dark) / 3600) / sig "star_signal_inAperture" i ≤ T ∧
        (∀ k ∈ t.keys, substr "signal" k = true → Real.sqrt (Spec.shotGain (Spec.reads ft freq) * sig k i / 3600) / sig "star_signal_inAperture" i ≤ T) ∧
        Real.sqrt (Spec.readGain (Spec.reads ft freq) (ch.detector.multiaccumM.getD 1) * rn ^ 2 * win i / ft / 3600) / sig "star_signal_inAperture" i ≤ T ∧
        ∀ v ∈ values (entries common) ++ values (entries ch.customNoise), |v| / 1000000 ≤ T := by
  obtain ⟨out, ft, tot, h1, h2, h3, -, -, h6, -, h8⟩ := total_noise_quadrature t ch common n sig win mx well fw freq dark rn hr hd (by linarith) hc1 hc2
  refine ⟨out, ft, tot, h1, h2, h3, h6, fun i hi hs => ?_⟩
  obtain ⟨T, hT, hT0, hsq⟩ := (h8 i hi).2 hs.ne'
  refine ⟨T, hT, ?_⟩
  set S := sig "star_signal_inAperture" i with hS
  set N := Spec.reads ft freq with hN
  have hN2 : 2 ≤ N := le_max_left _ _
  have hshot : 0 ≤ Spec.shotGain N := by unfold Spec.shotGain; positivity
  have hm : 0 < ch.detector.multiaccumM.getD 1 := by
    cases e : ch.detector.multiaccumM with
    | none => simp
    | some m => simpa using hd.hm m e
  have hread : 0 ≤ Spec.readGain N (ch.detector.multiaccumM.getD 1) := by
    unfold Spec.readGain
    have : 0 ≤ N - 1 := by linarith
    positivity
  have hw := hr.hwin0 i hi
  have hk : ∀ k ∈ t.keys, substr "signal" k = true → sig k i ≤ totalSignal t sig i := by
    intro k hk hsg
    refine List.single_le_sum ?_ _ (List.mem_map.mpr ⟨k, List.mem_filter.mpr ⟨hk, hsg⟩, rfl⟩)
    intro x hx
    obtain ⟨q, hq, rfl⟩ := List.mem_map.mp hx
    obtain ⟨hq1, hq2⟩ := List.mem_filter.mp hq
    exact hr.hsig0 q hq1 hq2 i hi
  have htot : 0 ≤ totalSignal t sig i := le_trans hs.le (hk _ hr.hstar (by decide))
  have hcs : ∀ v ∈ values (entries common) ++ values (entries ch.customNoise), (v / 1000000) ^ 2 ≤ ((values (entries common) ++ values (entries ch.customNoise)).map (fun v => (v / 1000000) ^ 2)).sum := by
    intro v hv
    refine List.single_le_sum ?_ _ (List.mem_map.mpr ⟨v, hv, rfl⟩)
    intro x hx
    obtain ⟨q, -, rfl⟩ := List.mem_map.mp hx
    positivity
  have hcs0 : 0 ≤ ((values (entries common) ++ values (entries ch.customNoise)).map (fun v => (v / 1000000) ^ 2)).sum := by
    refine List.sum_nonneg ?_
    intro x hx
    obtain ⟨q, -, rfl⟩ := List.mem_map.mp hx
    positivity
  simp only [Spec.relVariance, Spec.rateVariance, ← hN] at hsq
  generalize ((values (entries common) ++ values (entries ch.customNoise)).map (fun v => (v / 1000000) ^ 2)).sum = C at hcs hcs0 hsq
  have hsq' : T ^ 2 = (Spec.shotGain N * win i * dark + (1 + ch.noiseX.getD 0) * Spec.shotGain N * totalSignal t sig i +
      Spec.readGain N (ch.detector.multiaccumM.getD 1) * rn ^ 2 * win i / ft) / 3600 / S ^ 2 + C := by
    rw [hsq]
  have a1 : 0 ≤ Spec.shotGain N * win i * dark := by have := hd.hdark0; positivity
  have a2 : 0 ≤ (1 + ch.noiseX.getD 0) * Spec.shotGain N * totalSignal t sig i := by positivity
  have a3 : 0 ≤ Spec.readGain N (ch.detector.multiaccumM.getD 1) * rn ^ 2 * win i / ft := by positivity
  have key : ∀ q, 0 ≤ q → q ≤ Spec.shotGain N * win i * dark + (1 + ch.noiseX.getD 0) * Spec.shotGain N * totalSignal t sig i +
      Spec.readGain N (ch.detector.multiaccumM.getD 1) * rn ^ 2 * win i / ft → Real.sqrt (q / 3600) / S ≤ T := by
    intro q hq hle
    refine le_of_sq_le_sq ?_ hT0
    rw [div_pow, Real.sq_sqrt (by positivity), hsq']
    have : q / 3600 / S ^ 2 ≤ (Spec.shotGain N * win i * dark + (1 + ch.noiseX.getD 0) * Spec.shotGain N * totalSignal t sig i +
      Spec.readGain N (ch.detector.multiaccumM.getD 1) * rn ^ 2 * win i / ft) / 3600 / S ^ 2 := by gcongr
    linarith
  refine ⟨key _ (by rw [← mul_assoc]; exact a1) (by rw [← mul_assoc]; linarith), fun k hk' hsg => ?_, key _ a3 (by linarith), fun v hv => ?_⟩
  · refine key _ (mul_nonneg hshot (hr.hsig0 k hk' hsg i hi)) ?_
    have b1 : Spec.shotGain N * sig k i ≤ Spec.shotGain N * totalSignal t sig i := mul_le_mul_of_nonneg_left (hk k hk' hsg) hshot
    have b2 : 0 ≤ ch.noiseX.getD 0 * (Spec.shotGain N * totalSignal t sig i) := mul_nonneg hX (mul_nonneg hshot htot)
    nlinarith
  · refine le_of_sq_le_sq ?_ hT0
    have e : (|v| / 1000000) ^ 2 = (v / 1000000) ^ 2 := by rw [div_pow, sq_abs, div_pow]
    rw [e, hsq']
    have := hcs v hv
    have : 0 ≤ (Spec.shotGain N * win i * dark + (1 + ch.noiseX.getD 0) * Spec.shotGain N * totalSignal t sig i +
      Spec.readGain N (ch.detector.multiaccumM.getD 1) * rn ^ 2 * win i / ft) / 3600 / S ^ 2 := by positivity
    linarith

/-- A target with one bin: star signal `s`, another signal `b`, most filled pixel `m`. -/
def oneBin (s b m : ℝ) : Table ℝ :=
  [("chName", [.str "P"]), ("Wavelength", [.num (fin 1)]), ("star_signal_inAperture", [.num (fin s)]), ("zodi_signal", [.num (fin b)]),
   ("WindowSize", [.num (fin 1)]), ("MaxSignal_inPixel", [.num (fin m)])]

def oneSig (s b : ℝ) (k : String) (_ : ℕ) : ℝ := if k = "star_signal_inAperture" then s else if k = "zodi_signal" then b else 0

theorem oneBin_rows (s b m : ℝ) (hs : 0 ≤ s) (hb : 0 ≤ b) (hm : 0 < m) : ChannelRows (oneBin s b m) "P" 1 (oneSig s b) (fun _ => 1) (fun _ => m) where
  nodup := by simp [oneBin, Dict.keys]
  npos := by norm_num
  hsig := by
    intro k hk hsg
    simp only [oneBin, Dict.keys, List.map_cons, List.map_nil, List.mem_cons, List.not_mem_nil, or_false] at hk
    rcases hk with rfl | rfl | rfl | rfl | rfl | rfl <;> revert hsg <;> first | (intro hsg; exact absurd hsg (by decide)) | skip
    all_goals
      intro _
      simp [Table.selNum, Table.sel, Dict.getE, Dict.get?, oneBin, Table.numCol, bind, Except.bind, pure, Except.pure, bins, oneSig]
  hsig0 := by
    intro k _ _ i _
    unfold oneSig
    split_ifs <;> first | assumption | exact le_rfl
  hstar := by simp [oneBin, Dict.keys]
  hwin := by simp [Table.selNum, Table.sel, Dict.getE, Dict.get?, oneBin, Table.numCol, bind, Except.bind, pure, Except.pure, bins]
  hwin0 := by intros; norm_num
  hmx := by simp [Table.selNum, Table.sel, Dict.getE, Dict.get?, oneBin, Table.numCol, bind, Except.bind, pure, Except.pure, bins]
  hmx0 := by intro i _; exact hm.le
  hmxp := ⟨0, by norm_num, hm⟩
  hwl := ⟨fun _ => 1, by simp [Table.selNum, Table.sel, Dict.getE, Dict.get?, oneBin, Table.numCol, bind, Except.bind, pure, Except.pure, bins]⟩

theorem oneBin_total (s b m : ℝ) (i : ℕ) : totalSignal (oneBin s b m) (oneSig s b) i = s + b := by
  have e : ((oneBin s b m).keys.filter (fun k => substr "signal" k)) = ["star_signal_inAperture", "zodi_signal"] := by
    simp only [oneBin, Dict.keys, List.map_cons, List.map_nil]
    decide
  unfold totalSignal
  rw [e]
  simp [oneSig]

def quietDetector : Detector := { wellDepth := some 100, fWellDepth := some 1, freqNDR := some 1, darkCurrent := some 0, readNoise := some 0 }

def quietChannel : NoiseChannel := { value := "P", detector := quietDetector }

theorem quiet_good : GoodDetector quietDetector 100 1 1 0 0 := by
  constructor <;> simp [quietDetector]

/-- The total noise of `oneBin` in `quietChannel`, whose frame fills the brightest pixel. -/
theorem quiet_noise (s b m : ℝ) (hs : 0 < s) (hb : 0 ≤ b) (hm : 0 < m) :
    ∃ out tot T, estimateNoiseInChannel (oneBin s b m) quietChannel none = .ok out ∧ out.get? "total_noise" = some tot ∧ tot[0]? = some (fin T) ∧ 0 ≤ T ∧
      T ^ 2 = Spec.shotGain (Spec.reads (100 / m) 1) * (s + b) / 3600 / s ^ 2 := by
  obtain ⟨out, ft, tot, h1, -, -, -, h5, h6, -, h8⟩ := total_noise_quadrature (oneBin s b m) quietChannel none 1 (oneSig s b) (fun _ => 1) (fun _ => m) 100 1 1 0 0
    (oneBin_rows s b m hs.le hb hm) quiet_good (by simp [quietChannel]) (by simp [entries]) (by simp [entries, quietChannel])
  obtain ⟨_, i, -, hft⟩ := h5 rfl
  have hft' : ft = 100 / m := by field_simp; linarith
  obtain ⟨T, hT, hT0, hsq⟩ := (h8 0 (by norm_num)).2 (by simp [oneSig]; exact hs.ne')
  refine ⟨out, tot, T, h1, h6, hT, hT0, ?_⟩
  rw [hsq, hft']
  simp only [Spec.relVariance, Spec.rateVariance, oneBin_total]
  simp [quietChannel, entries, values, oneSig]

/-- C07: without a forced frame time a brighter background can lower the total noise: it shortens the frame, and the photon noise gain of a short ramp is smaller. -/
theorem brighter_background_less_noise : ∃ out out' tot tot' T T',
    estimateNoiseInChannel (oneBin 100 0 1) quietChannel none = .ok out ∧ out.get? "total_noise" = some tot ∧ tot[0]? = some (fin T) ∧
    estimateNoiseInChannel (oneBin 100 1 100) quietChannel none = .ok out' ∧ out'.get? "total_noise" = some tot' ∧ tot'[0]? = some (fin T') ∧ T' < T := by
  obtain ⟨out, tot, T, h1, h2, h3, h4, h5⟩ := quiet_noise 100 0 1 (by norm_num) (by norm_num) (by norm_num)
  obtain ⟨out', tot', T', k1, k2, k3, k4, k5⟩ := quiet_noise 100 1 100 (by norm_num) (by norm_num) (by norm_num)
  refine ⟨out, out', tot, tot', T, T', h1, h2, h3, k1, k2, k3, lt_of_pow_lt_pow_left₀ 2 h4 ?_⟩
  have r1 : Spec.reads (100 / 1) 1 = 100 := by
    unfold Spec.reads
    have : ⌊(100 / 1 * 1 : ℝ)⌋ = 100 := by rw [Int.floor_eq_iff]; norm_num
    rw [this]; norm_num
  have r2 : Spec.reads (100 / 100) 1 = 2 := by
    unfold Spec.reads
    have : ⌊(100 / 100 * 1 : ℝ)⌋ = 1 := by rw [Int.floor_eq_iff]; norm_num
    rw [this]; norm_num
  rw [h5, k5, r1, r2]
  unfold Spec.shotGain
  norm_num

/-- A concrete case of `total_noise_at_least`. -/
example : ∃ out ft tot, estimateNoiseInChannel exTable exCh none = .ok out ∧ out.get? "frameTime" = some (bins 3 (fun _ => ft)) ∧ 0 < ft ∧
      out.get? "total_noise" = some tot ∧ ∃ T, tot[0]? = some (fin T) ∧ 50 / 1000000 ≤ T := by
  obtain ⟨out, ft, tot, h1, h2, h3, h4, h5⟩ := total_noise_at_least exTable exCh none 3 exSig (fun _ => 4) (fun i => [10, 4, 0].getD i 0) 1000 (1 / 2) 10 1 20 exTable_rows
    (by constructor <;> simp [exCh, exDet]) (by simp [exCh]) (by simp [entries]) (by simp [exCh, entries, GoodEntry])
  obtain ⟨T, hT, _, _, _, hc⟩ := h5 0 (by norm_num) (by simp [exSig])
  refine ⟨out, ft, tot, h1, h2, h3, h4, T, hT, ?_⟩
  have := hc 50 (by simp [values, entries, exCh])
  norm_num at this
  linarith

end
end ExoRad
