import Verif.Props.Bright
import Verif.Model.UnitsNoise

/-!
# C99: the detector options may be written in any unit
-/

namespace ExoRad
open Num
noncomputable section

/-! ## Units whose product is 1/s times s -/

theorem floorIn_one (x : Num ℝ) : floorIn 1 x = Num.floor x := by
  have h0 : (1 : ℝ) ≠ 0 := one_ne_zero
  cases x with
  | fin x => unfold floorIn; rw [fin_div _ _ h0, div_one]; simp [Num.floor]
  | posInf => simp [floorIn, HDiv.hDiv, HMul.hMul, Div.div, Mul.mul, Num.div, Num.mul, Num.floor, signedInf]
  | negInf => simp [floorIn, HDiv.hDiv, HMul.hMul, Div.div, Mul.mul, Num.div, Num.mul, Num.floor, signedInf]
  | nan => rfl

theorem multiaccumIn_one (d : Detector) (t : Num ℝ) : multiaccumIn 1 d t = multiaccum d t := by
  unfold multiaccumIn multiaccum
  simp only [floorIn_one]

/-- C99: when the unit of the reads' rate is the inverse of the unit of the frame time the estimate is the one of a description
in seconds and 1/s, its errors included. -/
theorem noise_matched_units (u : NoiseUnits) (t : Table ℝ) (ch : NoiseChannel) (common : Option CustomNoise)
    (hu : readUnit u ch.detector = 1) : estimateNoiseInChannelIn u t ch common = estimateNoiseInChannel t ch common := by
  unfold estimateNoiseInChannelIn estimateNoiseInChannel
  rw [hu]
  simp only [multiaccumIn_one]
  rfl

theorem noiseTablesIn_matched (t : Table ℝ) : ∀ (chs : List (NoiseUnits × NoiseChannel × Option CustomNoise)),
    (∀ c ∈ chs, readUnit c.1 c.2.1.detector = 1) → noiseTablesIn t chs = noiseTables t (chs.map (·.2))
  | [], _ => rfl
  | (u, c, p) :: cs, h => by
    have h1 := noise_matched_units u t c p (h _ List.mem_cons_self)
    have h2 := noiseTablesIn_matched t cs (fun c hc => h c (List.mem_cons_of_mem _ hc))
    simp only [noiseTablesIn, noiseTables, List.map_cons, h1, h2]

/-- C99: the whole target table. -/
theorem target_matched_units (t : Table ℝ) (chs : List (NoiseUnits × NoiseChannel × Option CustomNoise))
    (hu : ∀ c ∈ chs, readUnit c.1 c.2.1.detector = 1) : estimateNoiseIn t chs = estimateNoise t (chs.map (·.2)) := by
  unfold estimateNoiseIn estimateNoise
  cases hm : t.estimateMaxSignal with
  | error e => rfl
  | ok t1 =>
    simp only [bind, Except.bind]
    rw [noiseTablesIn_matched t1 chs hu]
    rfl

/-- With a frame time of its own, the unit of the well depth does not matter; without, the unit of times does not. -/
theorem readUnit_reads (u : NoiseUnits) (d : Detector) :
    (∀ f, d.frameTime = some f → readUnit u d = u.time * u.freq) ∧ (d.frameTime = none → readUnit u d = u.frac * u.well * u.freq) := by
  unfold readUnit frameUnit
  constructor
  · intro f hf; rw [hf]
  · intro hf; rw [hf]

/-! ## Any units -/

theorem multiaccumIn_fin (k : ℝ) (hk : 0 < k) (d : Detector) (t f : ℝ) (ht : 0 < t) (hf : d.freqNDR = some f)
    (hm : ∀ m, d.multiaccumM = some m → m ≠ 0) :
    multiaccumIn k d (fin t) = .ok (fin (Spec.readGain (max 2 (k * ⌊t * f / k⌋)) (d.multiaccumM.getD 1)),
      fin (Spec.shotGain (max 2 (k * ⌊t * f / k⌋)))) := by
  have hm' : d.multiaccumM.getD 1 ≠ 0 := by
    cases h : d.multiaccumM with
    | none => simp
    | some m => simpa using hm m h
  have hmm : multiaccumM d = fin (d.multiaccumM.getD 1) := by
    unfold multiaccumM; cases d.multiaccumM <;> rfl
  have hn : (if lt (floorIn k (fin t * fin f)) (fin 2) then fin 2 else floorIn k (fin t * fin f) : Num ℝ)
      = fin (max 2 (k * ⌊t * f / k⌋)) := by
    unfold floorIn
    rw [fin_mul, fin_div _ _ hk.ne']
    simp only [Num.floor, fin_mul, lt_fin, decide_eq_true_eq]
    by_cases h : ((⌊t * f / k⌋ : ℤ) : ℝ) * k < 2
    · rw [if_pos h, max_eq_left (by linarith)]
    · rw [if_neg h, max_eq_right (by linarith), mul_comm]
  have h2 : (2 : ℝ) ≤ max 2 (k * ⌊t * f / k⌋) := le_max_left _ _
  unfold multiaccumIn
  simp only [key, hf, bind, Except.bind, pure, Except.pure]
  rw [hmm, hn]
  generalize max 2 (k * (⌊t * f / k⌋ : ℝ)) = n at h2 ⊢
  generalize d.multiaccumM.getD 1 = m at hm' ⊢
  have e1 : n * n + n ≠ 0 := by positivity
  have e2 : n * n + 1 ≠ 0 := by positivity
  have e3 : n - 1 ≠ 0 := by
    have : 0 < n - 1 := by linarith
    exact this.ne'
  simp only [fin_mul, fin_sub, fin_add, fin_div _ _ e1, fin_div _ _ hm', fin_div _ _ e2,
    fin_div _ _ e3, fin_div _ _ ht.ne', fin_div _ (5 : ℝ) (by norm_num), fin_div _ (3 : ℝ) (by norm_num)]
  have hn0 : n ≠ 0 := by positivity
  have hn1 : n + 1 ≠ 0 := by positivity
  congr 2
  · congr 1
    unfold Spec.readGain
    have : n * n + n = n * (n + 1) := by ring
    rw [this]
  · congr 1
    unfold Spec.shotGain
    have : n * n + n = n * (n + 1) := by ring
    rw [this]
    field_simp
    ring

/-- The rate of reads the code works with: the number of reads in a frame of `t` seconds is rounded down to a multiple of `k`. -/
def roundedFreq (k : ℕ) (t f : ℝ) : ℝ := k * ⌊t * f / k⌋ / t

theorem roundedFreq_le (k : ℕ) (hk : 0 < k) (t f : ℝ) (ht : 0 < t) :
    roundedFreq k t f ≤ f ∧ (f - k / t < roundedFreq k t f) := by
  have hk' : (0 : ℝ) < k := by exact_mod_cast hk
  have h1 := Int.floor_le (t * f / k)
  have h2 := Int.lt_floor_add_one (t * f / k)
  rw [le_div_iff₀ hk'] at h1
  rw [div_lt_iff₀ hk'] at h2
  unfold roundedFreq
  constructor
  · rw [div_le_iff₀ ht]; nlinarith
  · rw [lt_div_iff₀ ht, sub_mul, div_mul_cancel₀ _ ht.ne']; nlinarith

theorem reads_rounded (k : ℕ) (t f : ℝ) (ht : 0 < t) :
    Spec.reads t (roundedFreq k t f) = max 2 ((k : ℝ) * (⌊t * f / k⌋ : ℤ)) := by
  unfold Spec.reads roundedFreq
  rw [mul_div_cancel₀ _ ht.ne']
  have : ⌊((k : ℝ) * (⌊t * f / k⌋ : ℤ))⌋ = (k : ℤ) * ⌊t * f / k⌋ := by
    rw [Int.floor_eq_iff]
    push_cast
    constructor <;> linarith
  rw [this]
  push_cast
  rfl

theorem frameTimeF_freq (t : Table ℝ) (ch : NoiseChannel) (out : Out) (f : Option ℝ) :
    frameTimeF t { ch with detector := { ch.detector with freqNDR := f } } out = frameTimeF t ch out := rfl

theorem through_gains (u : NoiseUnits) (t : Table ℝ) (ch : NoiseChannel) (d : Detector) (common : Option CustomNoise)
    (o1 : Out) (ft : ℝ) (n : ℕ) (h1 : frameTimeF t ch [] = .ok o1)
    (h1' : frameTimeF t ⟨ch.value, d, ch.noiseX, ch.customNoise⟩ [] = .ok o1)
    (h2 : o1.get? "frameTime" = some (bins n (fun _ => ft)))
    (hg : multiaccumIn (readUnit u ch.detector) ch.detector (fin ft) = multiaccum d (fin ft))
    (hdk : d.darkCurrent = ch.detector.darkCurrent) (hrn : d.readNoise = ch.detector.readNoise) :
    estimateNoiseInChannelIn u t ch common = estimateNoiseInChannel t ⟨ch.value, d, ch.noiseX, ch.customNoise⟩ common := by
  unfold estimateNoiseInChannelIn estimateNoiseInChannel
  rw [h1', h1]
  simp only [bind, Except.bind, Dict.getE_ok h2]
  cases n with
  | zero =>
    have hb : bins 0 (fun _ => ft) = [] := rfl
    rw [hb]
  | succ n =>
    have hb : bins (n + 1) (fun _ => ft) = fin ft :: bins n (fun _ => ft) := by
      unfold bins
      rw [List.range_succ_eq_map, List.map_cons, List.map_map]
      rfl
    rw [hb]
    simp only
    rw [hg, hdk, hrn]
    rfl

/-- The estimate reads the rate of reads only through the two gains. -/
theorem estimate_through_gains (u : NoiseUnits) (t : Table ℝ) (ch : NoiseChannel) (common : Option CustomNoise) (f : ℝ)
    (o1 : Out) (ft : ℝ) (n : ℕ) (h1 : frameTimeF t ch [] = .ok o1) (h2 : o1.get? "frameTime" = some (bins n (fun _ => ft)))
    (hg : multiaccumIn (readUnit u ch.detector) ch.detector (fin ft) = multiaccum { ch.detector with freqNDR := some f } (fin ft)) :
    estimateNoiseInChannelIn u t ch common =
      estimateNoiseInChannel t { ch with detector := { ch.detector with freqNDR := some f } } common :=
  through_gains u t ch { ch.detector with freqNDR := some f } common o1 ft n h1 h1 h2 hg rfl rfl

/-- C99: whenever the units' product is a whole number `k` of seconds per second (minutes and Hz: 60; hours and kHz: 3 600 000), the
estimate is the one for reads at the rounded rate: the number of reads in the frame time is rounded down to a multiple of `k`. -/
theorem noise_other_units (u : NoiseUnits) (k : ℕ) (hk : 0 < k) (t : Table ℝ) (ch : NoiseChannel) (common : Option CustomNoise)
    (n : ℕ) (sig : String → ℕ → ℝ) (win mx : ℕ → ℝ) (well fw freq dark rn : ℝ)
    (hr : ChannelRows t ch.value n sig win mx) (hd : GoodDetector ch.detector well fw freq dark rn)
    (hu : readUnit u ch.detector = k) :
    ∃ ft, 0 < ft ∧ (∀ f, ch.detector.frameTime = some f → ft = f) ∧
      (ch.detector.frameTime = none → (∀ i < n, ft * mx i ≤ fw * well) ∧ (∃ i < n, ft * mx i = fw * well)) ∧
      estimateNoiseInChannelIn u t ch common = estimateNoiseInChannel t
        { ch with detector := { ch.detector with freqNDR := some (roundedFreq k ft freq) } } common := by
  obtain ⟨o1, ft, o5, e1, e2, hft0, f3, f4, -, -, -, -, -, -⟩ := estimate_explicit t ch common n sig win mx well fw freq dark rn hr hd
  refine ⟨ft, hft0, f3, f4, ?_⟩
  apply estimate_through_gains u t ch common _ o1 ft n e1 e2
  have hm : ∀ m, ch.detector.multiaccumM = some m → m ≠ 0 := fun m h => (hd.hm m h).ne'
  have hk' : (0 : ℝ) < k := by exact_mod_cast hk
  rw [hu, multiaccumIn_fin k hk' ch.detector ft freq hft0 hd.hfreq hm,
    multiaccum_fin { ch.detector with freqNDR := some (roundedFreq k ft freq) } ft (roundedFreq k ft freq) hft0.ne' rfl hm,
    reads_rounded k ft freq hft0]

/-! ## What it changes -/

theorem shotGain_bounds {N : ℝ} (h : N = 2 ∨ 3 ≤ N) : 1 ≤ Spec.shotGain N ∧ Spec.shotGain N < 6 / 5 := by
  have h2 : 2 ≤ N := by rcases h with rfl | h <;> linarith
  unfold Spec.shotGain
  constructor
  · rw [le_div_iff₀ (by positivity)]
    rcases h with rfl | h3
    · norm_num
    · nlinarith [mul_nonneg (sub_nonneg.mpr h2) (sub_nonneg.mpr h3)]
  · rw [div_lt_div_iff₀ (by positivity) (by norm_num)]
    nlinarith

theorem reads_whole (t f : ℝ) : Spec.reads t f = 2 ∨ 3 ≤ Spec.reads t f := by
  have e : Spec.reads t f = ((max 2 ⌊t * f⌋ : ℤ) : ℝ) := by
    unfold Spec.reads; push_cast; rfl
  rw [e]
  rcases le_or_gt (3 : ℤ) (max 2 ⌊t * f⌋) with h | h
  · right; exact_mod_cast h
  · left
    have : (max 2 ⌊t * f⌋ : ℤ) = 2 := by omega
    rw [this]; norm_num

theorem readGain_anti {a b m : ℝ} (hm : 0 < m) (h2 : 2 ≤ a) (h : a = b ∨ a + 1 ≤ b) : Spec.readGain b m ≤ Spec.readGain a m := by
  rcases h with rfl | h
  · exact le_rfl
  · have h2' : 2 ≤ b := by linarith
    have hle : a ≤ b := by linarith
    unfold Spec.readGain
    apply div_le_div_of_nonneg_right _ hm.le
    rw [div_le_div_iff₀ (by positivity) (by positivity)]
    nlinarith [mul_nonneg (sub_nonneg.mpr h) (sub_nonneg.mpr h2), mul_nonneg (sub_nonneg.mpr h2') (sub_nonneg.mpr h2),
      mul_nonneg (mul_nonneg (sub_nonneg.mpr h2') (sub_nonneg.mpr h2)) (sub_nonneg.mpr hle), mul_nonneg (sub_nonneg.mpr hle) (sub_nonneg.mpr h2)]

theorem reads_freq_step (t f f' : ℝ) (ht : 0 ≤ t) (h : f' ≤ f) :
    Spec.reads t f' = Spec.reads t f ∨ Spec.reads t f' + 1 ≤ Spec.reads t f := by
  have e : ∀ x, Spec.reads t x = ((max 2 ⌊t * x⌋ : ℤ) : ℝ) := by
    intro x; unfold Spec.reads; push_cast; rfl
  rw [e, e]
  have hle' : (max 2 ⌊t * f'⌋ : ℤ) ≤ max 2 ⌊t * f⌋ := max_le_max_left _ (Int.floor_le_floor (mul_le_mul_of_nonneg_left h ht))
  rcases hle'.eq_or_lt with h | h
  · left; exact_mod_cast h
  · right; exact_mod_cast h

/-- Fewer reads: the relative variance loses a sixth at most, and with no read noise it never grows. -/
theorem relVariance_fewer_reads (p : Spec.Params) (b : Spec.Bin) (customs : List ℝ) (f' : ℝ) (hf : f' ≤ p.freq) (hft : 0 < p.frame)
    (hdark : 0 ≤ p.dark) (hX : -1 ≤ p.excess) (havg : 0 < p.avg) (hwin : 0 ≤ b.window) (htot : 0 ≤ b.total) :
    5 / 6 * Spec.relVariance p b customs ≤ Spec.relVariance { p with freq := f' } b customs ∧
    (p.read = 0 → Spec.relVariance { p with freq := f' } b customs ≤ Spec.relVariance p b customs) := by
  have hC0 : 0 ≤ (customs.map (fun v => (v / 1000000) ^ 2)).sum := by
    apply List.sum_nonneg
    intro x hx
    obtain ⟨v, -, rfl⟩ := List.mem_map.mp hx
    positivity
  have hstep := reads_freq_step p.frame p.freq f' hft.le hf
  have hg := shotGain_bounds (reads_whole p.frame p.freq)
  have hg' := shotGain_bounds (reads_whole p.frame f')
  have hgg := Pipeline.shotGain_mono (reads_ge p.frame f') hstep
  have hrr := readGain_anti havg (reads_ge p.frame f') hstep
  have hr0 := readGain_pos (reads_ge p.frame p.freq) havg
  unfold Spec.relVariance Spec.rateVariance
  simp only
  generalize (customs.map (fun v => (v / 1000000) ^ 2)).sum = C at hC0 ⊢
  generalize Spec.shotGain (Spec.reads p.frame p.freq) = g at *
  generalize Spec.shotGain (Spec.reads p.frame f') = g' at *
  generalize Spec.readGain (Spec.reads p.frame p.freq) p.avg = r at *
  generalize Spec.readGain (Spec.reads p.frame f') p.avg = r' at *
  obtain ⟨A, hA⟩ : ∃ A, A = b.window * p.dark + (1 + p.excess) * b.total := ⟨_, rfl⟩
  obtain ⟨B, hB⟩ : ∃ B, B = p.read ^ 2 * b.window / p.frame := ⟨_, rfl⟩
  have hA0 : 0 ≤ A := by
    rw [hA]
    have : 0 ≤ (1 + p.excess) * b.total := mul_nonneg (by linarith) htot
    have : 0 ≤ b.window * p.dark := mul_nonneg hwin hdark
    linarith
  have hB0 : 0 ≤ B := by rw [hB]; positivity
  have e1 : (g * b.window * p.dark + (1 + p.excess) * g * b.total + r * p.read ^ 2 * b.window / p.frame) / 3600 = (g * A + r * B) / 3600 := by
    rw [hA, hB]; ring
  have e2 : (g' * b.window * p.dark + (1 + p.excess) * g' * b.total + r' * p.read ^ 2 * b.window / p.frame) / 3600 = (g' * A + r' * B) / 3600 := by
    rw [hA, hB]; ring
  rw [e1, e2]
  constructor
  · have h1 : 5 / 6 * (g * A + r * B) ≤ g' * A + r' * B := by
      have a1 : 5 / 6 * (g * A) ≤ g' * A := by nlinarith
      have a2 : 5 / 6 * (r * B) ≤ r' * B := by nlinarith [mul_nonneg hr0.le hB0]
      linarith
    have h2 : 5 / 6 * ((g * A + r * B) / 3600) ≤ (g' * A + r' * B) / 3600 := by linarith
    have h3 : 5 / 6 * ((g * A + r * B) / 3600 / b.star ^ 2) ≤ (g' * A + r' * B) / 3600 / b.star ^ 2 := by
      rw [← mul_div_assoc]
      exact div_le_div_of_nonneg_right h2 (sq_nonneg _)
    linarith
  · intro h0
    have hB' : B = 0 := by rw [hB, h0]; ring
    rw [hB', mul_zero, mul_zero, add_zero, add_zero]
    have h3 : g' * A / 3600 / b.star ^ 2 ≤ g * A / 3600 / b.star ^ 2 :=
      div_le_div_of_nonneg_right (div_le_div_of_nonneg_right (mul_le_mul_of_nonneg_right hgg hA0) (by norm_num)) (sq_nonneg _)
    linarith

/-- C99: units whose product is a whole number `k > 1` make the total noise of a bin lower by less than a tenth (its square by a
sixth) at most, and never higher when there is no read noise. -/
theorem noise_other_units_bound (u : NoiseUnits) (k : ℕ) (hk : 0 < k) (t : Table ℝ) (ch : NoiseChannel) (common : Option CustomNoise)
    (n : ℕ) (sig : String → ℕ → ℝ) (win mx : ℕ → ℝ) (well fw freq dark rn : ℝ)
    (hr : ChannelRows t ch.value n sig win mx) (hd : GoodDetector ch.detector well fw freq dark rn)
    (hX : -1 ≤ ch.noiseX.getD 0) (hc1 : ∀ e ∈ entries common, GoodEntry e) (hc2 : ∀ e ∈ entries ch.customNoise, GoodEntry e)
    (hu : readUnit u ch.detector = k) :
    ∃ out out' tot tot', estimateNoiseInChannel t ch common = .ok out ∧ estimateNoiseInChannelIn u t ch common = .ok out' ∧
      out'.get? "frameTime" = out.get? "frameTime" ∧ out.get? "total_noise" = some tot ∧ out'.get? "total_noise" = some tot' ∧
      tot.length = n ∧ tot'.length = n ∧
      ∀ i < n, (sig "star_signal_inAperture" i = 0 → tot[i]? = some nan ∧ tot'[i]? = some nan) ∧
        (sig "star_signal_inAperture" i ≠ 0 → ∃ T T', tot[i]? = some (fin T) ∧ tot'[i]? = some (fin T') ∧ 0 ≤ T ∧ 0 ≤ T' ∧
          9 / 10 * T ≤ T' ∧ (rn = 0 → T' ≤ T)) := by
  obtain ⟨ft, hft0, hf1, hf2, he⟩ := noise_other_units u k hk t ch common n sig win mx well fw freq dark rn hr hd hu
  obtain ⟨out, ft1, tot, a1, a2, a3, a4, a5, a6, a7, a8⟩ :=
    total_noise_quadrature t ch common n sig win mx well fw freq dark rn hr hd hX hc1 hc2
  have hd' : GoodDetector { ch.detector with freqNDR := some (roundedFreq k ft freq) } well fw (roundedFreq k ft freq) dark rn :=
    ⟨hd.hwell, hd.hwell0, hd.hfw, hd.hfw0, rfl, hd.hdark, hd.hdark0, hd.hrn, hd.hft, hd.hm⟩
  obtain ⟨out', ft2, tot', b1, b2, b3, b4, b5, b6, b7, b8⟩ :=
    total_noise_quadrature t { ch with detector := { ch.detector with freqNDR := some (roundedFreq k ft freq) } } common n sig win mx well fw
      (roundedFreq k ft freq) dark rn hr hd' hX hc1 hc2
  -- the three frame times agree
  have huniq : ∀ x y : ℝ, (∀ i < n, x * mx i ≤ fw * well) → (∃ i < n, y * mx i = fw * well) → x ≤ y := by
    intro x y h1 h2
    obtain ⟨i, hi, hy⟩ := h2
    have h3 := h1 i hi
    rw [← hy] at h3
    have hpos : 0 < mx i := by
      rcases (hr.hmx0 i hi).eq_or_lt with h | h
      · rw [← h, mul_zero] at hy
        exact absurd hy (mul_pos hd.hfw0 hd.hwell0).ne
      · exact h
    exact le_of_mul_le_mul_right h3 hpos
  have h12 : ft1 = ft ∧ ft2 = ft := by
    cases h : ch.detector.frameTime with
    | some f => exact ⟨(a4 f h).trans (hf1 f h).symm, (b4 f h).trans (hf1 f h).symm⟩
    | none =>
      obtain ⟨p1, p2⟩ := hf2 h
      obtain ⟨q1, q2⟩ := a5 h
      obtain ⟨r1, r2⟩ := b5 h
      exact ⟨le_antisymm (huniq _ _ q1 p2) (huniq _ _ p1 q2), le_antisymm (huniq _ _ r1 p2) (huniq _ _ p1 r2)⟩
  obtain ⟨rfl, rfl⟩ := h12
  have hmp : 0 < ch.detector.multiaccumM.getD 1 := by
    cases h : ch.detector.multiaccumM with
    | none => simp
    | some m => simpa using hd.hm m h
  refine ⟨out, out', tot, tot', a1, he.trans b1, by rw [a2, b2], a6, b6, a7, b7, ?_⟩
  intro i hi
  refine ⟨fun h => ⟨(a8 i hi).1 h, (b8 i hi).1 h⟩, ?_⟩
  intro h
  obtain ⟨T, c1, c2, c3⟩ := (a8 i hi).2 h
  obtain ⟨T', d1, d2, d3⟩ := (b8 i hi).2 h
  have htot : 0 ≤ totalSignal t sig i := by
    apply List.sum_nonneg
    intro x hx
    obtain ⟨q, hq, rfl⟩ := List.mem_map.mp hx
    rw [List.mem_filter] at hq
    exact hr.hsig0 q hq.1 hq.2 i hi
  have hb := relVariance_fewer_reads
    { dark := dark, read := rn, excess := ch.noiseX.getD 0, frame := ft2, freq := freq, avg := ch.detector.multiaccumM.getD 1 }
    { star := sig "star_signal_inAperture" i, total := totalSignal t sig i, window := win i }
    (values (entries common) ++ values (entries ch.customNoise)) (roundedFreq k ft2 freq) (roundedFreq_le k hk ft2 freq hft0).1 hft0
    hd.hdark0 hX hmp (hr.hwin0 i hi) htot
  rw [← c3] at hb
  simp only at hb
  rw [← d3] at hb
  refine ⟨T, T', c1, d1, c2, d2, ?_, ?_⟩
  · have h1 : (9 / 10 * T) ^ 2 ≤ T' ^ 2 := by nlinarith [hb.1, sq_nonneg T]
    exact (pow_le_pow_iff_left₀ (by positivity) d2 two_ne_zero).mp h1
  · intro h0
    exact (pow_le_pow_iff_left₀ d2 c2 two_ne_zero).mp (hb.2 h0)

/-! ## Not any unit: half a minute against 30 seconds -/

namespace UnitsDemo2

/-- A frame of 30 s, one read per second, no read noise. -/
def det : Detector :=
  { wellDepth := some 1000, fWellDepth := some (1 / 2), frameTime := some 30, freqNDR := some 1, darkCurrent := some 1,
    readNoise := some 0 }

def chan : NoiseChannel := { value := "P", detector := det }

/-- The frame time in minutes, the rate in Hz. -/
def minutes : NoiseUnits := { NoiseUnits.base with time := 60 }

/-- The frame time in minutes, the rate in reads per minute. -/
def perMinute : NoiseUnits := { NoiseUnits.base with time := 60, freq := 1 / 60 }

theorem det_good : GoodDetector det 1000 (1 / 2) 1 1 0 := by
  constructor <;> simp [det]

theorem minutes_unit : readUnit minutes chan.detector = (60 : ℕ) := by
  simp [readUnit, frameUnit, minutes, chan, det, NoiseUnits.base]

/-- Seconds and 1/s, or minutes and reads per minute: the same estimate. -/
example : readUnit NoiseUnits.base chan.detector = 1 ∧ readUnit perMinute chan.detector = 1 := by
  constructor <;> simp [readUnit, frameUnit, perMinute, chan, det, NoiseUnits.base]

/-- C99: a frame time of `30 s` and one of `0.5 min` describe the same detector; the total noise they give differs. -/
theorem minutes_differ : ∃ out out' tot tot' T T', estimateNoiseInChannel exTable chan none = .ok out ∧
    estimateNoiseInChannelIn minutes exTable chan none = .ok out' ∧ out'.get? "frameTime" = out.get? "frameTime" ∧
    out.get? "total_noise" = some tot ∧ out'.get? "total_noise" = some tot' ∧ tot[0]? = some (fin T) ∧ tot'[0]? = some (fin T') ∧ T' < T := by
  have hr : ChannelRows exTable chan.value 3 exSig (fun _ => 4) (fun i => [10, 4, 0].getD i 0) := exTable_rows
  have hX : -1 ≤ chan.noiseX.getD 0 := by simp [chan]
  have hc : ∀ e ∈ entries none, GoodEntry e := by simp [entries]
  have hc' : ∀ e ∈ entries chan.customNoise, GoodEntry e := by simp [chan, entries]
  obtain ⟨ft, hft0, hf1, -, he⟩ := noise_other_units minutes 60 (by norm_num) exTable chan none 3 exSig _ _ _ _ _ _ _ hr det_good minutes_unit
  obtain ⟨out, ft1, tot, a1, a2, a3, a4, -, a6, a7, a8⟩ :=
    total_noise_quadrature exTable chan none 3 exSig _ _ _ _ _ _ _ hr det_good hX hc hc'
  have hd' : GoodDetector { det with freqNDR := some (roundedFreq 60 ft 1) } 1000 (1 / 2) (roundedFreq 60 ft 1) 1 0 := by
    constructor <;> simp [det]
  obtain ⟨out', ft2, tot', b1, b2, b3, b4, -, b6, b7, b8⟩ :=
    total_noise_quadrature exTable { chan with detector := { chan.detector with freqNDR := some (roundedFreq 60 ft 1) } } none 3 exSig _ _ _ _
      (roundedFreq 60 ft 1) _ _ hr hd' hX hc hc'
  have e0 := hf1 30 rfl
  have e1 := a4 30 rfl
  have e2 := b4 30 rfl
  subst e0 e1 e2
  have hs : exSig "star_signal_inAperture" 0 ≠ 0 := by simp [exSig]
  obtain ⟨T, c1, c2, c3⟩ := (a8 0 (by norm_num)).2 hs
  obtain ⟨T', d1, d2, d3⟩ := (b8 0 (by norm_num)).2 hs
  refine ⟨out, out', tot, tot', T, T', a1, he.trans b1, by rw [a2, b2], a6, b6, c1, d1, ?_⟩
  have r1 : Spec.reads 30 1 = 30 := by
    unfold Spec.reads
    have : ⌊(30 * 1 : ℝ)⌋ = 30 := by rw [Int.floor_eq_iff]; norm_num
    rw [this]; norm_num
  have r2 : Spec.reads 30 (roundedFreq 60 30 1) = 2 := by
    have := reads_rounded 60 30 1 (by norm_num)
    rw [this]
    have : ⌊(30 * 1 / (60 : ℕ) : ℝ)⌋ = 0 := by rw [Int.floor_eq_iff]; norm_num
    rw [this]; norm_num
  have htot : totalSignal exTable exSig 0 = 102 := by
    have hk : exTable.keys.filter (fun k => substr "signal" k) = ["star_signal_inAperture", "instrument_signal"] := by decide
    unfold totalSignal
    rw [hk]
    simp [exSig]; norm_num
  have hlt : T' ^ 2 < T ^ 2 := by
    rw [c3, d3]
    unfold Spec.relVariance Spec.rateVariance
    simp only [r1, r2, htot, chan, entries, values]
    unfold Spec.shotGain Spec.readGain
    simp [exSig]
    norm_num
  exact lt_of_pow_lt_pow_left₀ 2 c2 hlt

end UnitsDemo2
end
end ExoRad
