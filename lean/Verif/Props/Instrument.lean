import Verif.Model.Instrument
import Verif.Props.Diffuse
import Mathlib.Data.Rat.Floor
import Mathlib.Algebra.Order.Archimedean.Real.Basic
import Mathlib.Tactic.NormNum

/-! # C37-C40: channels -/

set_option linter.unusedSectionVars false
set_option linter.unusedVariables false

namespace ExoRad.Instrument

open ExoRad.Diffuse

variable {α : Type} [Field α] [LinearOrder α] [IsStrictOrderedRing α]

/-! ## Wavelength tables -/

theorem centres_length : ∀ e : List α, (centres e).length = e.length - 1
  | [] => rfl
  | [_] => rfl
  | a :: b :: l => by simp [centres, centres_length (b :: l)]

theorem centres_getD : ∀ (e : List α) (i : Nat), i + 1 < e.length →
    (centres e).getD i 0 = 1 / 2 * (e.getD i 0 + e.getD (i + 1) 0)
  | [], i, h => by simp at h
  | [_], i, h => by simp at h
  | a :: b :: l, 0, h => by simp [centres]
  | a :: b :: l, i + 1, h => by
    have := centres_getD (b :: l) i (by simpa using h)
    simpa [centres] using this

theorem diffs_getD : ∀ (e : List α) (i : Nat), i + 1 < e.length →
    (Rebin.diffs e).getD i 0 = e.getD (i + 1) 0 - e.getD i 0
  | [], i, h => by simp at h
  | [_], i, h => by simp at h
  | a :: b :: l, 0, h => by simp [Rebin.diffs]
  | a :: b :: l, i + 1, h => by
    have := diffs_getD (b :: l) i (by simpa using h)
    simpa [Rebin.diffs] using this

theorem dropLast_getD (e : List α) (i : Nat) (h : i + 1 < e.length) : e.dropLast.getD i 0 = e.getD i 0 := by
  rw [List.getD_eq_getElem?_getD, List.getD_eq_getElem?_getD, List.getElem?_eq_getElem (by simp; omega),
    List.getElem?_eq_getElem (by omega), List.getElem_dropLast]

/-- A list of bins given by its edges: bin `i` goes from edge `i` to edge `i + 1`, so the right edge of a bin is the
left edge of the next; the wavelength is the middle. -/
theorem bins_of_edges (e : List α) :
    (binsOfEdges e).left = e.dropLast ∧ (binsOfEdges e).right = e.tail ∧
    (binsOfEdges e).wl.length = e.length - 1 ∧ (binsOfEdges e).width.length = e.length - 1 ∧
    ∀ i, i + 1 < e.length → (binsOfEdges e).wl.getD i 0 = 1 / 2 * (e.getD i 0 + e.getD (i + 1) 0) ∧
      (binsOfEdges e).width.getD i 0 = e.getD (i + 1) 0 - e.getD i 0 := by
  have hl : (centres e).length = (Rebin.diffs e).length := by rw [centres_length, Rebin.diffs_length]
  refine ⟨?_, ?_, centres_length e, Rebin.diffs_length e, fun i hi => ⟨centres_getD e i hi, diffs_getD e i hi⟩⟩
  · apply ext_getD
    · simp [binsOfEdges, mkBins, centres_length, Rebin.diffs_length]
    · intro i hi
      simp only [binsOfEdges, mkBins, List.length_zipWith, centres_length, Rebin.diffs_length] at hi
      have hi' : i + 1 < e.length := by omega
      simp only [binsOfEdges, mkBins]
      rw [getD_zipWith (fun c w => c - 1 / 2 * w) (by simp) _ _ hl, centres_getD e i hi', diffs_getD e i hi']
      rw [dropLast_getD e i hi']; ring
  · apply ext_getD
    · simp [binsOfEdges, mkBins, centres_length, Rebin.diffs_length]
    · intro i hi
      simp only [binsOfEdges, mkBins, List.length_zipWith, centres_length, Rebin.diffs_length] at hi
      have hi' : i + 1 < e.length := by omega
      simp only [binsOfEdges, mkBins]
      rw [getD_zipWith (fun c w => c + 1 / 2 * w) (by simp) _ _ hl, centres_getD e i hi', diffs_getD e i hi']
      have : e.tail.getD i 0 = e.getD (i + 1) 0 := by
        cases e <;> simp
      rw [this]; ring

/-- C37/C40: the single bin of a photometer is its band. -/
theorem photometer_bins (wlMin wlMax : α) : (photometerBins wlMin wlMax).left = [wlMin] ∧
    (photometerBins wlMin wlMax).right = [wlMax] ∧ (photometerBins wlMin wlMax).wl = [(wlMin + wlMax) / 2] ∧
    (photometerBins wlMin wlMax).width = [wlMax - wlMin] := by
  simp only [photometerBins, mkBins, List.zipWith_cons_cons, List.zipWith_nil_left, List.cons.injEq, and_true]
  exact ⟨by ring, by ring, by ring⟩

/-! ### Edges of increasing bins -/

/-- Wavelength `w` belongs to bin `i` of a table. -/
def InBin (b : Bins α) (i : Nat) (w : α) : Prop :=
  i < b.left.length ∧ i < b.right.length ∧ b.left.getD i 0 ≤ w ∧ w < b.right.getD i 0

theorem getD_mono {e : List α} (he : e.Pairwise (· < ·)) {i j : Nat} (hij : i < j) (hj : j < e.length) :
    e.getD i 0 < e.getD j 0 := by
  have hi : i < e.length := by omega
  have := List.pairwise_iff_getElem.mp he i j hi hj hij
  simpa [List.getD_eq_getElem?_getD, List.getElem?_eq_getElem hi, List.getElem?_eq_getElem hj] using this

theorem getD_mono_le {e : List α} (he : e.Pairwise (· < ·)) {i j : Nat} (hij : i ≤ j) (hj : j < e.length) :
    e.getD i 0 ≤ e.getD j 0 := by
  rcases Nat.eq_or_lt_of_le hij with rfl | h
  · exact le_refl _
  · exact (getD_mono he h hj).le

theorem inBin_edges (e : List α) (i : Nat) (w : α) :
    InBin (binsOfEdges e) i w ↔ i + 1 < e.length ∧ e.getD i 0 ≤ w ∧ w < e.getD (i + 1) 0 := by
  obtain ⟨h1, h2, -⟩ := bins_of_edges e
  unfold InBin
  rw [h1, h2]
  have ht : e.tail.getD i 0 = e.getD (i + 1) 0 := by cases e <;> simp
  simp only [List.length_dropLast, List.length_tail, ht]
  constructor
  · rintro ⟨a, _, b, c⟩
    rw [dropLast_getD e i (by omega)] at b
    exact ⟨by omega, b, c⟩
  · rintro ⟨a, b, c⟩
    rw [dropLast_getD e i a]
    exact ⟨by omega, by omega, b, c⟩

/-- C38: with increasing edges every wavelength from the first edge to the last belongs to exactly one bin, and no
other wavelength belongs to any. -/
theorem bins_partition (e : List α) (he : e.Pairwise (· < ·)) (hl : 2 ≤ e.length) (w : α) :
    (e.getD 0 0 ≤ w ∧ w < e.getD (e.length - 1) 0 → ∃! i, InBin (binsOfEdges e) i w) ∧
    (∀ i, InBin (binsOfEdges e) i w → e.getD 0 0 ≤ w ∧ w < e.getD (e.length - 1) 0) := by
  constructor
  · rintro ⟨h1, h2⟩
    have key : ∀ n, n < e.length → w < e.getD n 0 → ∃ i, i + 1 < e.length ∧ e.getD i 0 ≤ w ∧ w < e.getD (i + 1) 0 := by
      intro n
      induction n with
      | zero => intro _ h; exact absurd h1 (not_le.mpr h)
      | succ n ih =>
        intro hn h
        by_cases hc : w < e.getD n 0
        · exact ih (by omega) hc
        · exact ⟨n, hn, not_lt.mp hc, h⟩
    obtain ⟨i, hi, a, b⟩ := key (e.length - 1) (by omega) h2
    refine ⟨i, (inBin_edges e i w).mpr ⟨hi, a, b⟩, ?_⟩
    intro j hj
    obtain ⟨hj, c, d⟩ := (inBin_edges e j w).mp hj
    rcases Nat.lt_trichotomy j i with h | h | h
    · exact absurd (d.trans_le (getD_mono_le he (by omega : j + 1 ≤ i) (by omega))) (not_lt.mpr a)
    · exact h
    · exact absurd (b.trans_le (getD_mono_le he (by omega : i + 1 ≤ j) (by omega))) (not_lt.mpr c)
  · intro i hi
    obtain ⟨hi, a, b⟩ := (inBin_edges e i w).mp hi
    exact ⟨(getD_mono_le he (Nat.zero_le i) (by omega)).trans a,
      b.trans_le (getD_mono_le he (by omega : i + 1 ≤ e.length - 1) (by omega))⟩

/-! ### Fixed R -/

theorem fixedREdges_getD (wlMin wlMax R : ℝ) (i : Nat) (hi : i < (fixedREdges wlMin wlMax R).length) :
    (fixedREdges wlMin wlMax R).getD i 0 = wlMin * (1 + 1 / R) ^ i := by
  simp only [fixedREdges, List.length_map, List.length_range] at hi
  simp [fixedREdges, List.getD_eq_getElem?_getD, List.getElem?_range hi]

/-- C39: the edges of a fixed-R grid. They start at `wl_min`, go up by the factor `1 + 1/R`, and the last one is the
first that is not below `wl_max`: the band is covered, and the last bin starts within it. -/
theorem fixed_R_edges (wlMin wlMax R : ℝ) (h0 : 0 < wlMin) (h1 : wlMin < wlMax) (hR : 0 < R) :
    let e := fixedREdges wlMin wlMax R
    2 ≤ e.length ∧ e.getD 0 0 = wlMin ∧
    (∀ i, i + 1 < e.length → e.getD (i + 1) 0 = e.getD i 0 * (1 + 1 / R)) ∧ e.Pairwise (· < ·) ∧
    wlMax ≤ e.getD (e.length - 1) 0 ∧ e.getD (e.length - 2) 0 < wlMax := by
  intro e
  have hq : 1 < 1 + 1 / R := by have : 0 < 1 / R := by positivity
                                linarith
  have hlq : 0 < Real.log (1 + 1 / R) := Real.log_pos hq
  have hr : 1 < wlMax / wlMin := (one_lt_div h0).mpr h1
  have hlr : 0 < Real.log (wlMax / wlMin) := Real.log_pos hr
  set x := Real.log (wlMax / wlMin) / Real.log (1 + 1 / R) with hx
  have hxp : 0 < x := div_pos hlr hlq
  have hceil : 0 < ⌈x⌉ := Int.ceil_pos.mpr hxp
  obtain ⟨n, hn⟩ : ∃ n : Nat, ⌈x⌉ = (n : Int) + 1 := ⟨(⌈x⌉ - 1).toNat, by omega⟩
  have hlen : e.length = n + 2 := by
    simp only [e, fixedREdges, List.length_map, List.length_range, numberOfEdges, ← hx, hn]
    omega
  have hget : ∀ i, i < e.length → e.getD i 0 = wlMin * (1 + 1 / R) ^ i := fun i hi => fixedREdges_getD wlMin wlMax R i hi
  have hxq : wlMax = wlMin * (1 + 1 / R) ^ x := by
    rw [Real.rpow_def_of_pos (by linarith), hx, mul_div_cancel₀ _ hlq.ne', Real.exp_log (by linarith)]
    field_simp
  refine ⟨by omega, ?_, ?_, ?_, ?_, ?_⟩
  · rw [hget 0 (by omega)]; simp
  · intro i hi
    rw [hget _ hi, hget i (by omega), pow_succ]; ring
  · rw [List.pairwise_iff_getElem]
    intro i j hi hj hij
    have a := hget i hi
    have b := hget j hj
    rw [List.getD_eq_getElem?_getD, List.getElem?_eq_getElem hi, Option.getD_some] at a
    rw [List.getD_eq_getElem?_getD, List.getElem?_eq_getElem hj, Option.getD_some] at b
    rw [a, b]
    exact mul_lt_mul_of_pos_left (pow_lt_pow_right₀ hq hij) h0
  · rw [hget _ (by omega), hlen, hxq]
    apply mul_le_mul_of_nonneg_left _ h0.le
    rw [← Real.rpow_natCast]
    apply Real.rpow_le_rpow_of_exponent_le hq.le
    have := Int.le_ceil x
    rw [hn] at this
    push_cast at this
    show x ≤ ((n + 2 - 1 : Nat) : ℝ)
    have h2 : ((n + 2 - 1 : Nat) : ℝ) = (n : ℝ) + 1 := by
      have : n + 2 - 1 = n + 1 := by omega
      rw [this]; push_cast; ring
    rw [h2]; exact this
  · rw [hget _ (by omega), hlen, hxq]
    apply mul_lt_mul_of_pos_left _ h0
    rw [← Real.rpow_natCast]
    apply Real.rpow_lt_rpow_of_exponent_lt hq
    have := Int.ceil_lt_add_one x
    rw [hn] at this
    push_cast at this
    show ((n + 2 - 2 : Nat) : ℝ) < x
    have h2 : n + 2 - 2 = n := by omega
    rw [h2]; linarith

/-- C39: every bin of a fixed-R grid has wavelength / bandwidth = R + 1/2 (and left edge / bandwidth = R). -/
theorem fixed_R_resolving_power (wlMin wlMax R : ℝ) (h0 : 0 < wlMin) (h1 : wlMin < wlMax) (hR : 0 < R) (i : Nat)
    (hi : i < (binsOfEdges (fixedREdges wlMin wlMax R)).wl.length) :
    (binsOfEdges (fixedREdges wlMin wlMax R)).wl.getD i 0 / (binsOfEdges (fixedREdges wlMin wlMax R)).width.getD i 0 = R + 1 / 2 ∧
    (binsOfEdges (fixedREdges wlMin wlMax R)).left.getD i 0 / (binsOfEdges (fixedREdges wlMin wlMax R)).width.getD i 0 = R := by
  obtain ⟨h2, hs, hr, hp, -⟩ := fixed_R_edges wlMin wlMax R h0 h1 hR
  obtain ⟨hle, -, hl, -, hb⟩ := bins_of_edges (fixedREdges wlMin wlMax R)
  rw [hl] at hi
  have hi' : i + 1 < (fixedREdges wlMin wlMax R).length := by omega
  obtain ⟨e1, e2⟩ := hb i hi'
  have hd := dropLast_getD _ i hi'
  rw [e1, e2, hle, hd, hr i hi']
  have hpos : 0 < (fixedREdges wlMin wlMax R).getD i 0 := by
    rw [fixedREdges_getD _ _ _ _ (by omega)]; positivity
  constructor <;> field_simp <;> ring

/-! ## Columns of the channel table -/

theorem filter_unique {β : Type} (P : β → Bool) : ∀ (l : List β) (i : Nat) (h : i < l.length),
    (∀ j (hj : j < l.length), P l[j] = true ↔ j = i) → l.filter P = [l[i]]
  | [], i, h, _ => by simp at h
  | a :: l, 0, h, hP => by
    have h0 := (hP 0 (by simp)).mpr rfl
    simp only [List.getElem_cons_zero] at h0
    rw [List.filter_cons_of_pos h0]
    have : l.filter P = [] := by
      rw [List.filter_eq_nil_iff]
      intro x hx hpx
      obtain ⟨j, hj, rfl⟩ := List.mem_iff_getElem.mp hx
      have := (hP (j + 1) (by simpa using hj)).mp (by simpa using hpx)
      omega
    simp [this]
  | a :: l, i + 1, h, hP => by
    have h0 : ¬ P a = true := by
      intro hpa
      have := (hP 0 (by simp)).mp (by simpa using hpa)
      omega
    rw [List.filter_cons_of_neg h0, List.getElem_cons_succ]
    apply filter_unique P l i (by simpa using h)
    intro j hj
    have := hP (j + 1) (by simpa using hj)
    simpa using this

/-- A bin includes its left edge and not its right one: if exactly one point lies in it, the bin has the value of that point; if none does,
it has no value. -/
theorem bin_value {wl sig left right : List α} {i : ℕ} {lo hi : α} (hl : left[i]? = some lo) (hr : right[i]? = some hi) :
    ((∀ x ∈ wl, ¬ (lo ≤ x ∧ x < hi)) → (binSignal wl sig left right)[i]? = some none) ∧
    ∀ (j : ℕ) (w v : α), wl[j]? = some w → sig[j]? = some v → lo ≤ w → w < hi →
      (∀ (k : ℕ) (x : α), wl[k]? = some x → lo ≤ x → x < hi → k = j) → (binSignal wl sig left right)[i]? = some (some v) := by
  have e : (binSignal wl sig left right)[i]? =
      some (Rebin.mean (((wl.zip sig).filter (fun p => decide (lo ≤ p.1) && decide (p.1 < hi))).map Prod.snd)) := by
    unfold binSignal
    rw [List.getElem?_zipWith, hl, hr]
  refine ⟨?_, ?_⟩
  · intro h
    rw [e]
    have : (wl.zip sig).filter (fun p => decide (lo ≤ p.1) && decide (p.1 < hi)) = [] := by
      rw [List.filter_eq_nil_iff]
      rintro ⟨x, y⟩ hx hp
      simp only [Bool.and_eq_true, decide_eq_true_eq] at hp
      exact h x (List.of_mem_zip hx).1 hp
    rw [this]
    rfl
  · intro j w v hw hv h1 h2 hu
    obtain ⟨jw, ew⟩ := List.getElem?_eq_some_iff.mp hw
    obtain ⟨jv, ev⟩ := List.getElem?_eq_some_iff.mp hv
    rw [e, filter_unique _ _ j (by simp; omega)]
    · simp [Rebin.mean, List.getElem_zip, ev]
    · intro k hk
      simp only [List.length_zip, lt_min_iff] at hk
      simp only [List.getElem_zip, Bool.and_eq_true, decide_eq_true_eq]
      constructor
      · rintro ⟨a, b⟩
        exact hu k _ (List.getElem?_eq_getElem hk.1) a b
      · rintro rfl
        rw [ew]
        exact ⟨h1, h2⟩

example : (binSignal [(1 : ℚ), 2, 3] [5, 6, 7] [2] [3])[0]? = some (some 6) :=
  (bin_value rfl rfl).2 1 2 6 rfl rfl (by norm_num) (by norm_num) (by
    intro k x hk h1 h2
    match k, hk with
    | 0, hk => simp at hk; subst hk; norm_num at h1
    | 1, _ => rfl
    | 2, hk => simp at hk; subst hk; norm_num at h2
    | k + 3, hk => simp at hk)

/-- With increasing edges a binned column is the curve at the wavelength of the bin. -/
theorem binSignal_centre (e sig : List α) (he : e.Pairwise (· < ·)) (hs : sig.length = e.length - 1) :
    binSignal (binsOfEdges e).wl sig (binsOfEdges e).left (binsOfEdges e).right = sig.map some := by
  obtain ⟨h1, h2, h3, h4, h5⟩ := bins_of_edges e
  apply List.ext_getElem
  · simp [binSignal, h1, h2, hs]
  · intro i hi hi2
    simp only [List.length_map] at hi2
    have hie : i + 1 < e.length := by omega
    have hz : i < ((binsOfEdges e).wl.zip sig).length := by simp [h3, hs]; omega
    have hw : ∀ j (hj : j < (binsOfEdges e).wl.length), (binsOfEdges e).wl[j] = 1 / 2 * (e.getD j 0 + e.getD (j + 1) 0) := by
      intro j hj
      rw [h3] at hj
      rw [← (h5 j (by omega)).1]
      simp [List.getD_eq_getElem?_getD, List.getElem?_eq_getElem (show j < (binsOfEdges e).wl.length by omega)]
    have hl : (binsOfEdges e).left[i]'(by rw [h1]; simp; omega) = e.getD i 0 := by
      rw [← dropLast_getD e i hie, List.getElem_of_eq h1, List.getD_eq_getElem?_getD,
        List.getElem?_eq_getElem (by simp; omega), Option.getD_some]
    have hr : (binsOfEdges e).right[i]'(by rw [h2]; simp; omega) = e.getD (i + 1) 0 := by
      have : e.tail.getD i 0 = e.getD (i + 1) 0 := by cases e <;> simp
      rw [← this, List.getElem_of_eq h2, List.getD_eq_getElem?_getD,
        List.getElem?_eq_getElem (by simp; omega), Option.getD_some]
    simp only [binSignal, List.getElem_zipWith, List.getElem_map, hl, hr]
    rw [filter_unique _ _ i hz]
    · simp [Rebin.mean, List.getElem_zip]
    · intro j hj
      have hj' : j + 1 < e.length := by simp only [List.length_zip, h3, hs] at hj; omega
      simp only [List.getElem_zip, Bool.and_eq_true, decide_eq_true_eq]
      rw [hw j (by omega)]
      have hjj := getD_mono he (Nat.lt_succ_self j) hj'
      constructor
      · rintro ⟨a, b⟩
        rcases Nat.lt_trichotomy j i with h | h | h
        · have := getD_mono_le he (by omega : j + 1 ≤ i) (by omega)
          exfalso; simp only [Nat.succ_eq_add_one] at hjj; linarith
        · exact h
        · have := getD_mono_le he (by omega : i + 1 ≤ j) (by omega)
          exfalso; simp only [Nat.succ_eq_add_one] at hjj; linarith
      · rintro rfl
        simp only [Nat.succ_eq_add_one] at hjj
        constructor <;> linarith

/-- The `TR` column of a channel whose bins have increasing edges: the transmission at the wavelength of the bin, 0
for bins centred out of the band when the band edges are forced; KeyError if the payload does not say. -/
theorem transmission_column (ch : Chan α) (e : List α) (he : e.Pairwise (· < ·)) (hb : ch.bins = binsOfEdges e)
    (wl data : List α) (hl : wl.length = data.length) :
    (ch.force = none → getTransmission ch wl data = .error .keyError) ∧
    (ch.force = some false → getTransmission ch wl data =
      .ok ((binsOfEdges e).wl.map (fun c => some (Rebin.interp (wl.zip data) c)), ⟨wl, data⟩)) ∧
    (ch.force = some true → getTransmission ch wl data = .ok ((binsOfEdges e).wl.map (fun c =>
      some (if c < ch.wlMin ∨ ch.wlMax < c then 0 else Rebin.interp (wl.zip data) c)),
      ⟨wl, List.zipWith (fun w v => if w < ch.wlMin ∨ ch.wlMax < w then 0 else v) wl data⟩)) := by
  have hm : Rebin.Signal.mk? wl data = .ok ⟨wl, data⟩ := by
    simp [Rebin.Signal.mk?, Rebin.checkSizes, hl]
  have hc := binSignal_centre e ((binsOfEdges e).wl.map (Rebin.interp (wl.zip data))) he (by simp [(bins_of_edges e).2.2.1])
  unfold getTransmission
  rw [hm, hb, hc]
  refine ⟨fun h => by simp [h], fun h => by simp only [h, List.map_map]; rfl, fun h => ?_⟩
  simp only [h, zeroOutCol, List.zipWith_map_right, List.zipWith_self, Except.ok.injEq, Prod.mk.injEq]
  constructor
  · apply List.map_congr_left
    intro c _
    simp only [outOfBand, Bool.or_eq_true, decide_eq_true_eq, gt_iff_lt]
    split <;> rfl
  · simp only [zeroOut, outOfBand, Bool.or_eq_true, decide_eq_true_eq, gt_iff_lt]

/-- The `QE` column: the quantum efficiency at the wavelength of the bin. -/
theorem qe_column (e : List α) (he : e.Pairwise (· < ·)) (qe : Rebin.Signal α) :
    qeColumn (binsOfEdges e) qe = (binsOfEdges e).wl.map (fun c => some (Rebin.interp (qe.wl.zip qe.data) c)) := by
  unfold qeColumn
  rw [binSignal_centre e _ he (by simp [(bins_of_edges e).2.2.1]), List.map_map]
  rfl

/-! ### A constant quantum efficiency -/

theorem logspace_getElem (a b : ℝ) (n k : Nat) (h : k < (logspace a b n).length) :
    (logspace a b n)[k] = (10 : ℝ) ^ (Real.logb 10 a + k * ((Real.logb 10 b - Real.logb 10 a) / ((n : ℝ) - 1))) := by
  simp [logspace]

/-- `np.logspace` between two wavelengths is increasing, starts at the first and ends at the second. -/
theorem logspace_spec (a b : ℝ) (n : Nat) (ha : 0 < a) (hab : a < b) (hn : 2 ≤ n) :
    (logspace a b n).Pairwise (· < ·) ∧ a ∈ logspace a b n ∧ b ∈ logspace a b n ∧ (logspace a b n).length = n ∧
    ∀ w ∈ logspace a b n, a ≤ w ∧ w ≤ b := by
  have hlen : (logspace a b n).length = n := by simp [logspace]
  have hn1 : (0 : ℝ) < (n : ℝ) - 1 := by
    have : (2 : ℝ) ≤ n := by exact_mod_cast hn
    linarith
  have hl : Real.logb 10 a < Real.logb 10 b := Real.logb_lt_logb (by norm_num) ha hab
  have hstep : 0 < (Real.logb 10 b - Real.logb 10 a) / ((n : ℝ) - 1) := div_pos (by linarith) hn1
  have hp : (logspace a b n).Pairwise (· < ·) := by
    rw [List.pairwise_iff_getElem]
    intro i j hi hj hij
    rw [logspace_getElem, logspace_getElem]
    apply Real.rpow_lt_rpow_of_exponent_lt (by norm_num)
    have : (i : ℝ) < j := by exact_mod_cast hij
    have := mul_lt_mul_of_pos_right this hstep
    linarith
  have hfirst : (logspace a b n)[0]'(by omega) = a := by
    rw [logspace_getElem]; simp
    exact Real.rpow_logb (by norm_num) (by norm_num) ha
  have hlast : (logspace a b n)[n - 1]'(by omega) = b := by
    rw [logspace_getElem]
    have hc : ((n - 1 : Nat) : ℝ) = (n : ℝ) - 1 := by rw [Nat.cast_sub (by omega)]; simp
    rw [hc, mul_div_cancel₀ _ hn1.ne', add_sub_cancel]
    exact Real.rpow_logb (by norm_num) (by norm_num) (ha.trans hab)
  refine ⟨hp, List.mem_iff_getElem.mpr ⟨_, _, hfirst⟩, List.mem_iff_getElem.mpr ⟨_, _, hlast⟩, hlen, ?_⟩
  intro w hw
  obtain ⟨i, hi, rfl⟩ := List.mem_iff_getElem.mp hw
  constructor
  · rcases Nat.eq_zero_or_pos i with rfl | h
    · exact hfirst.ge
    · exact hfirst.ge.trans (List.pairwise_iff_getElem.mp hp 0 i (by omega) hi h).le
  · rcases Nat.eq_or_lt_of_le (show i ≤ n - 1 by omega) with rfl | h
    · exact hlast.le
    · exact (List.pairwise_iff_getElem.mp hp i (n - 1) hi (by omega) h).le.trans hlast.le

/-- A constant quantum efficiency is that constant in every bin centred between the detector's `wl_min` and `cut_off`,
and 0 in the others. -/
theorem constant_qe (e : List ℝ) (he : e.Pairwise (· < ·)) (v wlMin cutOff : ℝ) (n : Nat) (h0 : 0 < wlMin)
    (h1 : wlMin < cutOff) (hn : 2 ≤ n) :
    qeColumn (binsOfEdges e) (constantQe v wlMin cutOff n) =
      (binsOfEdges e).wl.map (fun c => some (if wlMin ≤ c ∧ c ≤ cutOff then v else 0)) := by
  obtain ⟨hp, ha, hb, -, hr⟩ := logspace_spec wlMin cutOff n h0 h1 hn
  rw [qe_column e he]
  apply List.map_congr_left
  intro c _
  congr 1
  have hz : (constantQe v wlMin cutOff n).wl.zip (constantQe v wlMin cutOff n).data =
      (logspace wlMin cutOff n).map (fun w => (w, v)) := by
    simp only [constantQe]
    rw [List.zip_map_right, List.zip_eq_zipWith, List.zipWith_self, List.map_map]
    rfl
  rw [hz]
  split
  · rename_i hc
    have hpp : ((logspace wlMin cutOff n).map (fun w => (w, v))).Pairwise (fun p q => p.1 < q.1) := by
      rw [List.pairwise_map]; exact hp
    have := Rebin.interp_line ((logspace wlMin cutOff n).map (fun w => (w, v))) hpp 0 v c
      (by intro p hp; obtain ⟨w, _, rfl⟩ := List.mem_map.mp hp; simp) (wlMin, v) (cutOff, v)
      (List.mem_map.mpr ⟨_, ha, rfl⟩) (List.mem_map.mpr ⟨_, hb, rfl⟩) hc.1 hc.2
    simpa using this
  · rename_i hc
    apply Rebin.interp_outside
    rcases not_and_or.mp hc with h | h
    · left
      intro p hp
      obtain ⟨w, hw, rfl⟩ := List.mem_map.mp hp
      exact (not_le.mp h).trans_le (hr w hw).1
    · right
      intro p hp
      obtain ⟨w, hw, rfl⟩ := List.mem_map.mp hp
      exact (hr w hw).2.trans_lt (not_le.mp h)

end ExoRad.Instrument
