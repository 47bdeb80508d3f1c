import Verif.Props.Propagate
import Mathlib.Algebra.Order.Archimedean.Basic

/-! # C38, C39: native and wavelength-dependent grids, pixels, windows -/

set_option linter.unusedSectionVars false
set_option linter.unusedVariables false

namespace ExoRad.Instrument

open ExoRad.Diffuse

variable {α : Type} [Field α] [LinearOrder α] [IsStrictOrderedRing α]

/-! ## Wavelength-dependent R -/

section variable_R
variable [FloorRing α]

/-- `np.round(x, 4)` is a multiple of 1e-4 at most half of 1e-4 away. -/
theorem round4_near (x : α) : x - 1 / 20000 ≤ round4 x ∧ round4 x ≤ x + 1 / 20000 := by
  have h1 := Int.floor_le (x * 10000)
  have h2 := Int.lt_floor_add_one (x * 10000)
  have h10 : (0 : α) < 10000 := by norm_num
  unfold round4
  simp only
  rw [le_div_iff₀ h10, div_le_iff₀ h10]
  split
  · rename_i h
    constructor <;> linarith
  · rename_i h
    have h := not_lt.mp h
    split
    · push_cast; constructor <;> linarith
    · rename_i h'
      have h' := not_lt.mp h'
      split
      · constructor <;> linarith
      · push_cast; constructor <;> linarith

/-- Numbers with four decimals stay as they are, and so does anything less than half of 1e-4 above. -/
theorem round4_stuck (k : Int) (t : α) (h0 : 0 ≤ t) (h1 : t < 1 / 20000) : round4 ((k : α) / 10000 + t) = (k : α) / 10000 := by
  have hy : ((k : α) / 10000 + t) * 10000 = k + t * 10000 := by ring
  have hf : ⌊((k : α) / 10000 + t) * 10000⌋ = k := by
    rw [hy, Int.floor_eq_iff]
    constructor
    · linarith
    · linarith
  unfold round4
  simp only [hf]
  rw [if_pos]
  rw [hy]; linarith

/-- C39, wavelength-dependent R: the loop never ends once a bin is narrower than half of 1e-4. -/
theorem variable_R_stuck (res : α → Except Exc α) (wlMax w r : α) (hw : w < wlMax) (hr : res w = .ok r)
    (hs : round4 (w + w / r) = w) : ∀ (fuel : Nat) (e : List α), variableLoop res wlMax fuel w e = none
  | 0, e => rfl
  | fuel + 1, e => by
    rw [variableLoop, if_pos hw, hr]
    simp only
    rw [hs]
    exact variable_R_stuck res wlMax w r hw hr hs fuel _

/-- A request with R = 30000 at 1 micron hangs. -/
theorem variable_R_hangs (fuel : Nat) : variableEdges (fun _ => .ok (30000 : ℚ)) 1 2 fuel = none := by
  have hs : round4 ((1 : ℚ) + 1 / 30000) = 1 := by
    have := round4_stuck (α := ℚ) 10000 (1 / 30000) (by norm_num) (by norm_num)
    norm_num at this ⊢
    exact this
  unfold variableEdges
  rw [variable_R_stuck _ 2 1 30000 (by norm_num) rfl hs]

theorem variableLoop_ok (res : α → Except Exc α) (wlMin wlMax : α)
    (hstep : ∀ w, wlMin ≤ w → w < wlMax → ∃ r, res w = .ok r ∧ 1 / 10000 ≤ w / r) :
    ∀ (n : Nat) (w : α) (e : List α), wlMin ≤ w → wlMax - w ≤ (n : α) * (1 / 20000) →
      e.Pairwise (· > ·) → e.head? = some w → (∀ v ∈ e.tail, v < wlMax) →
      ∃ e', variableLoop res wlMax (n + 1) w e = some (.ok e') ∧ e'.Pairwise (· > ·) ∧ e.Sublist e' ∧
        e'.getLast? = e.getLast? ∧ (∀ v ∈ e'.tail, v < wlMax) ∧ (∃ v, e'.head? = some v ∧ wlMax ≤ v) ∧
        (∀ i, i + e.length < e'.length → ∃ r, res (e'.getD (i + 1) 0) = .ok r ∧
          e'.getD i 0 = round4 (e'.getD (i + 1) 0 + e'.getD (i + 1) 0 / r)) := by
  intro n
  induction n with
  | zero =>
    intro w e hw hb hp hh ht
    have : ¬ w < wlMax := by simp at hb; exact not_lt.mpr hb
    refine ⟨e, ?_, hp, List.Sublist.refl e, rfl, ht, ⟨w, hh, not_lt.mp this⟩, fun i hi => by omega⟩
    rw [variableLoop, if_neg this]
  | succ n ih =>
    intro w e hw hb hp hh ht
    rw [variableLoop]
    by_cases hlt : w < wlMax
    · obtain ⟨r, hr, hge⟩ := hstep w hw hlt
      rw [if_pos hlt, hr]
      simp only
      have hn := (round4_near (w + w / r)).1
      have hinc : w + 1 / 20000 ≤ round4 (w + w / r) := by linarith
      have hgt : w < round4 (w + w / r) := by linarith
      obtain ⟨e', h1, h2, h3, h4, h5, h6, h7⟩ := ih (round4 (w + w / r)) (round4 (w + w / r) :: e) (by linarith)
        (by push_cast at hb; linarith)
        (by
          rw [List.pairwise_cons]
          refine ⟨fun v hv => ?_, hp⟩
          cases e with
          | nil => cases hv
          | cons a l =>
            simp only [List.head?_cons, Option.some.injEq] at hh
            subst hh
            rcases List.mem_cons.mp hv with rfl | hv
            · exact hgt
            · exact lt_trans ((List.pairwise_cons.mp hp).1 v hv) hgt)
        (by simp)
        (by
          intro v hv
          simp only [List.tail_cons] at hv
          cases e with
          | nil => cases hv
          | cons a l =>
            simp only [List.head?_cons, Option.some.injEq] at hh
            subst hh
            rcases List.mem_cons.mp hv with rfl | hv
            · exact hlt
            · exact ht v hv)
      refine ⟨e', h1, h2, (List.sublist_cons_self _ _).trans h3, ?_, h5, h6, ?_⟩
      · rw [h4]
        cases e with
        | nil => cases hh
        | cons a l => simp
      · intro i hi
        by_cases hc : i + (e.length + 1) < e'.length
        · exact h7 i (by simpa using hc)
        · -- the step just made
          have hl : e'.length = i + e.length + 1 := by omega
          -- e' ends with round4 .. :: e, as a sublist of the same tail length
          have hsuf : (round4 (w + w / r) :: e) <:+ e' := by
            exact variableLoop_suffix res wlMax _ _ _ _ h1
          obtain ⟨pre, hpre⟩ := hsuf
          have hpl : pre.length = i := by
            have := congrArg List.length hpre
            simp at this; omega
          have e0 : e'.getD i 0 = round4 (w + w / r) := by
            rw [← hpre, List.getD_eq_getElem?_getD, List.getElem?_append_right (by omega)]
            simp [hpl]
          have e1 : e'.getD (i + 1) 0 = w := by
            rw [← hpre, List.getD_eq_getElem?_getD, List.getElem?_append_right (by omega)]
            cases e with
            | nil => cases hh
            | cons a l =>
              simp only [List.head?_cons, Option.some.injEq] at hh
              simp [hpl, hh]
          exact ⟨r, by rw [e1]; exact hr, by rw [e0, e1]⟩
    · rw [if_neg hlt]
      exact ⟨e, rfl, hp, List.Sublist.refl e, rfl, ht, ⟨w, hh, not_lt.mp hlt⟩, fun i hi => by omega⟩
where
  variableLoop_suffix (res : α → Except Exc α) (wlMax : α) : ∀ (n : Nat) (w : α) (e e' : List α),
      variableLoop res wlMax n w e = some (.ok e') → e <:+ e'
    | 0, w, e, e', h => by simp [variableLoop] at h
    | n + 1, w, e, e', h => by
      rw [variableLoop] at h
      split at h
      · split at h
        · simp at h
        · exact (List.suffix_cons _ _).trans (variableLoop_suffix res wlMax n _ _ _ h)
      · simp only [Option.some.injEq, Except.ok.injEq] at h
        rw [h]

theorem getD_reverse (l : List α) (i : Nat) (h : i < l.length) : l.reverse.getD i 0 = l.getD (l.length - 1 - i) 0 := by
  simp [List.getD_eq_getElem?_getD, List.getElem?_reverse h]

/-- C39, wavelength-dependent R, when every bin is at least 1e-4 wide: the grid is found; it starts at `wl_min`, is
increasing, covers the band, and every bin but the last is `w / R(w)` wide at its left edge `w`, rounded to 1e-4. A band that fits in a single bin raises IndexError instead. -/
theorem variable_R_partial (res : α → Except Exc α) (wlMin wlMax : α) (hlt : wlMin < wlMax)
    (hstep : ∀ w, wlMin ≤ w → w < wlMax → ∃ r, res w = .ok r ∧ 1 / 10000 ≤ w / r) :
    ∃ fuel, (∃ e, variableEdges res wlMin wlMax fuel = some (.ok e) ∧ e.getD 0 0 = wlMin ∧ e.Pairwise (· < ·) ∧
        2 ≤ e.length ∧ wlMax ≤ e.getD (e.length - 1) 0 ∧
        ∀ i, i + 2 < e.length → ∃ r, res (e.getD i 0) = .ok r ∧ e.getD (i + 1) 0 = round4 (e.getD i 0 + e.getD i 0 / r)) ∨
      (variableEdges res wlMin wlMax fuel = some (.error .indexError) ∧
        ∃ r, res wlMin = .ok r ∧ wlMax ≤ round4 (wlMin + wlMin / r)) := by
  have harch : Archimedean α := FloorRing.archimedean α
  obtain ⟨n, hn⟩ := exists_nat_ge ((wlMax - wlMin) * 20000)
  obtain ⟨e', h1, h2, h3, h4, h5, ⟨v, h6, h6'⟩, h7⟩ := variableLoop_ok res wlMin wlMax hstep n wlMin [wlMin] (le_refl _) (by linarith)
    (by simp) rfl (by simp)
  refine ⟨n + 1, ?_⟩
  unfold variableEdges
  rw [h1]
  simp only
  rcases e' with _ | ⟨a, _ | ⟨b, _ | ⟨c, l⟩⟩⟩
  · simp at h6
  · simp only [List.head?_cons, Option.some.injEq] at h6
    simp at h4
    subst h4; subst h6
    exact absurd h6' (not_le.mpr hlt)
  · right
    simp only [trimLast]
    simp at h4 h6
    subst h4; subst h6
    obtain ⟨r, hr, e0⟩ := h7 0 (by simp)
    simp at hr e0
    exact ⟨trivial, r, hr, by rw [← e0]; exact h6'⟩
  · left
    simp only [List.head?_cons, Option.some.injEq] at h6
    subst h6
    have hb : b < wlMax := h5 b (by simp)
    have hc : c < wlMax := h5 c (by simp)
    have hlast : (c :: l).getLast? = some wlMin := by simpa using h4
    simp only [trimLast]
    have first : ∀ pre : List α, (pre ++ c :: l).reverse.getD 0 0 = wlMin := by
      intro pre
      rw [List.getD_eq_getElem?_getD, ← List.head?_eq_getElem?, List.head?_reverse, List.getLast?_append]
      simp [hlast]
    have hp := h2
    simp only [List.pairwise_cons] at hp
    by_cases hcond : wlMax - b < (b - c) / 2
    · rw [if_pos hcond]
      refine ⟨_, rfl, ?_, ?_, by simp, ?_, ?_⟩
      rotate_left 3
      · intro i hi
        simp only [List.length_reverse, List.length_cons] at hi
        obtain ⟨r, hr, e0⟩ := h7 (l.length - i + 1) (by simp)
        rw [getD_reverse _ _ (by simp; omega), getD_reverse _ _ (by simp; omega)]
        obtain ⟨k, hk⟩ : ∃ k, l.length - i = k + 1 := ⟨l.length - i - 1, by omega⟩
        have e1 : (wlMax :: c :: l).length - 1 - i = k + 2 := by simp; omega
        have e2 : (wlMax :: c :: l).length - 1 - (i + 1) = k + 1 := by simp; omega
        rw [hk] at hr e0
        rw [e1, e2]
        simp only [List.getD_cons_succ] at hr e0 ⊢
        exact ⟨r, hr, e0⟩
      · exact first [wlMax]
      · rw [List.pairwise_reverse, List.pairwise_cons]
        refine ⟨?_, by rw [List.pairwise_cons]; exact ⟨hp.2.2.1, hp.2.2.2⟩⟩
        intro v hv
        exact h5 v (by simp at hv ⊢; tauto)
      · rw [List.getD_eq_getElem?_getD]
        simp
    · rw [if_neg hcond]
      refine ⟨_, rfl, ?_, ?_, by simp, ?_, ?_⟩
      rotate_left 3
      · intro i hi
        simp only [List.length_reverse, List.length_cons] at hi
        obtain ⟨r, hr, e0⟩ := h7 (l.length + 1 - i) (by simp)
        rw [getD_reverse _ _ (by simp; omega), getD_reverse _ _ (by simp; omega)]
        have e1 : (a :: b :: c :: l).length - 1 - i = l.length + 1 - i + 1 := by simp; omega
        have e2 : (a :: b :: c :: l).length - 1 - (i + 1) = l.length + 1 - i := by simp
        rw [e1, e2]
        exact ⟨r, hr, e0⟩
      · exact first [a, b]
      · rw [List.pairwise_reverse]; exact h2
      · rw [List.getD_eq_getElem?_getD]
        simp
        exact h6'

/-- The hypotheses of `variable_R_partial` hold for R = 10 from 1 to 2 micron; the last bin is merged into the one before. -/
theorem demo_variable_R : variableEdges (fun _ => .ok (10 : ℚ)) 1 2 20 =
    some (.ok [1, 11/10, 121/100, 1331/1000, 14641/10000, 16105/10000, 17716/10000, 2]) := by
  decide +kernel

/-- A band that fits into one bin is an IndexError. -/
theorem demo_one_bin : variableEdges (fun _ => .ok (2 : ℚ)) 1 (3/2) 20 = some (.error .indexError) := by
  decide +kernel

end variable_R

/-! ## The wavelength solution and the pixels -/

theorem sorted_strict (pts : List (α × α)) (hn : (pts.map Prod.fst).Nodup) :
    (pts.insertionSort (fun p q => p.1 ≤ q.1)).Pairwise (fun p q => p.1 < q.1) := by
  have h1 := List.pairwise_insertionSort (fun p q : α × α => p.1 ≤ q.1) pts
  have hperm := List.perm_insertionSort (fun p q : α × α => p.1 ≤ q.1) pts
  have h2 : ((pts.insertionSort (fun p q => p.1 ≤ q.1)).map Prod.fst).Nodup := (hperm.map Prod.fst).nodup_iff.mpr hn
  have h3 : (pts.insertionSort (fun p q => p.1 ≤ q.1)).Pairwise (fun p q => p.1 ≠ q.1) := by
    rwa [List.Nodup, List.pairwise_map] at h2
  exact (h1.and h3).imp (fun h => lt_of_le_of_ne h.1 h.2)

theorem extendSorted_line (c d : α) : ∀ (l : List (α × α)) (lo : α × α) (x : α), l ≠ [] →
    (lo :: l).Pairwise (fun p q => p.1 < q.1) → (∀ p ∈ lo :: l, p.2 = c * p.1 + d) → extendSorted lo l x = c * x + d
  | [], _, _, h, _, _ => absurd rfl h
  | [hi], lo, x, _, hp, hl => by
    have hlt := (List.pairwise_cons.mp hp).1 hi (by simp)
    have h1 := hl lo (by simp)
    have h2 := hl hi (by simp)
    have hne : hi.1 - lo.1 ≠ 0 := by have := sub_pos.mpr hlt; exact this.ne'
    rw [extendSorted, h1, h2]
    field_simp
    ring
  | hi :: h2 :: rest, lo, x, _, hp, hl => by
    have hlt := (List.pairwise_cons.mp hp).1 hi (by simp)
    have e1 := hl lo (by simp)
    have e2 := hl hi (by simp)
    have hne : hi.1 - lo.1 ≠ 0 := by have := sub_pos.mpr hlt; exact this.ne'
    rw [extendSorted]
    split
    · rw [e1, e2]
      field_simp
      ring
    · exact extendSorted_line c d (h2 :: rest) hi x (by simp) (List.pairwise_cons.mp hp).2
        (fun p hp => hl p (List.mem_cons_of_mem _ hp))
    · intro h; cases h

/-- A linear wavelength solution is followed everywhere, also beyond its ends. -/
theorem extend_line (pts : List (α × α)) (hn : (pts.map Prod.fst).Nodup) (h2 : 2 ≤ pts.length) (c d : α)
    (hl : ∀ p ∈ pts, p.2 = c * p.1 + d) (x : α) : extend pts x = c * x + d := by
  unfold extend
  have hs := sorted_strict pts hn
  have hlen := List.length_insertionSort (fun p q : α × α => p.1 ≤ q.1) pts
  have hm : ∀ p ∈ pts.insertionSort (fun p q => p.1 ≤ q.1), p.2 = c * p.1 + d :=
    fun p hp => hl p ((List.mem_insertionSort _).mp hp)
  generalize pts.insertionSort (fun p q => p.1 ≤ q.1) = l at hs hlen hm
  rcases l with _ | ⟨lo, _ | ⟨hi, rest⟩⟩
  · simp at hlen; omega
  · simp at hlen; omega
  · exact extendSorted_line c d (hi :: rest) lo x (by simp) hs hm

theorem extendSorted_gt : ∀ (l : List (α × α)) (lo : α × α) (x : α), l ≠ [] →
    (lo :: l).Pairwise (fun p q => p.1 < q.1 ∧ p.2 < q.2) → lo.1 < x → lo.2 < extendSorted lo l x
  | [], _, _, h, _, _ => absurd rfl h
  | [hi], lo, x, _, hp, hx => by
    obtain ⟨h1, h2⟩ := (List.pairwise_cons.mp hp).1 hi (by simp)
    rw [extendSorted]
    have : 0 < (hi.2 - lo.2) / (hi.1 - lo.1) * (x - lo.1) :=
      mul_pos (div_pos (sub_pos.mpr h2) (sub_pos.mpr h1)) (sub_pos.mpr hx)
    linarith
  | hi :: h2 :: rest, lo, x, _, hp, hx => by
    obtain ⟨a, b⟩ := (List.pairwise_cons.mp hp).1 hi (by simp)
    rw [extendSorted]
    · split
      · have : 0 < (hi.2 - lo.2) / (hi.1 - lo.1) * (x - lo.1) :=
          mul_pos (div_pos (sub_pos.mpr b) (sub_pos.mpr a)) (sub_pos.mpr hx)
        linarith
      · rename_i hc
        exact b.trans (extendSorted_gt (h2 :: rest) hi x (by simp) (List.pairwise_cons.mp hp).2 (not_le.mp hc))
    · intro h; cases h

theorem extendSorted_strictMono : ∀ (l : List (α × α)) (lo : α × α), l ≠ [] →
    (lo :: l).Pairwise (fun p q => p.1 < q.1 ∧ p.2 < q.2) → StrictMono (extendSorted lo l)
  | [], _, h, _ => absurd rfl h
  | [hi], lo, _, hp => by
    obtain ⟨h1, h2⟩ := (List.pairwise_cons.mp hp).1 hi (by simp)
    intro x y hxy
    simp only [extendSorted]
    have := mul_lt_mul_of_pos_left (sub_lt_sub_right hxy lo.1) (div_pos (sub_pos.mpr h2) (sub_pos.mpr h1))
    linarith
  | hi :: h2 :: rest, lo, _, hp => by
    obtain ⟨a, b⟩ := (List.pairwise_cons.mp hp).1 hi (by simp)
    have ih := extendSorted_strictMono (h2 :: rest) hi (by simp) (List.pairwise_cons.mp hp).2
    have hpos := div_pos (sub_pos.mpr b) (sub_pos.mpr a)
    intro x y hxy
    have hx : ∀ t, extendSorted lo (hi :: h2 :: rest) t =
        if t ≤ hi.1 then (hi.2 - lo.2) / (hi.1 - lo.1) * (t - lo.1) + lo.2 else extendSorted hi (h2 :: rest) t := by
      intro t
      rw [extendSorted]
      intro h; cases h
    rw [hx, hx]
    by_cases hy : y ≤ hi.1
    · rw [if_pos hy, if_pos (hxy.le.trans hy)]
      have := mul_lt_mul_of_pos_left (sub_lt_sub_right hxy lo.1) hpos
      linarith
    · rw [if_neg hy]
      by_cases hc : x ≤ hi.1
      · rw [if_pos hc]
        have h1 := extendSorted_gt (h2 :: rest) hi y (by simp) (List.pairwise_cons.mp hp).2 (not_le.mp hy)
        have h3 : (hi.2 - lo.2) / (hi.1 - lo.1) * (x - lo.1) ≤ (hi.2 - lo.2) / (hi.1 - lo.1) * (hi.1 - lo.1) :=
          mul_le_mul_of_nonneg_left (sub_le_sub_right hc _) hpos.le
        rw [div_mul_cancel₀ _ (sub_pos.mpr a).ne'] at h3
        linarith
      · rw [if_neg hc]
        exact ih hxy

/-- An increasing wavelength solution gives wavelengths that increase with the position, also beyond its ends. -/
theorem extend_strictMono (pts : List (α × α)) (h2 : 2 ≤ pts.length)
    (hp : pts.Pairwise (fun p q => p.1 < q.1 ∧ p.2 < q.2)) : StrictMono (extend pts) := by
  have hs : pts.insertionSort (fun p q => p.1 ≤ q.1) = pts := by
    rw [List.Pairwise.insertionSort_eq]
    exact hp.imp (fun h => h.1.le)
  rcases pts with _ | ⟨lo, _ | ⟨hi, rest⟩⟩
  · simp at h2
  · simp at h2
  · intro x y hxy
    unfold extend
    rw [hs]
    exact extendSorted_strictMono (hi :: rest) lo (by simp) hp hxy

section pixels
variable [FloorRing α]

theorem arange_mem (a b d : α) (hd : 0 < d) (t : α) : t ∈ arange a b d ↔ ∃ k : Nat, t = a + k * d ∧ t < b := by
  unfold arange
  simp only [List.mem_map, List.mem_range]
  constructor
  · rintro ⟨k, hk, rfl⟩
    refine ⟨k, rfl, ?_⟩
    have h1 : (k : Int) < ⌈(b - a) / d⌉ := by omega
    have := Int.lt_ceil.mp h1
    rw [Int.cast_natCast, lt_div_iff₀ hd] at this
    linarith
  · rintro ⟨k, rfl, hb⟩
    refine ⟨k, ?_, rfl⟩
    have : ((k : Int) : α) < (b - a) / d := by
      rw [Int.cast_natCast, lt_div_iff₀ hd]; linarith
    have := Int.lt_ceil.mpr this
    omega

theorem arange_increasing (a b d : α) (hd : 0 < d) : (arange a b d).Pairwise (· < ·) := by
  unfold arange
  rw [List.pairwise_map]
  apply List.pairwise_lt_range.imp
  intro i j hij
  have : (i : α) < j := by exact_mod_cast hij
  have := mul_lt_mul_of_pos_right this hd
  linarith

/-- The pixels of a spectrometer: one pixel pitch apart, in decreasing order, from the position of one end of the band
to the position of the other, without a gap; each with the wavelength of the wavelength solution there. -/
theorem pixel_grid (sol : List (α × α)) (wlMin wlMax delta : α) (hd : 0 < delta) (a b : α)
    (hab : (a = extend (sol.map Prod.swap) wlMin ∧ b = extend (sol.map Prod.swap) wlMax ∨
      a = extend (sol.map Prod.swap) wlMax ∧ b = extend (sol.map Prod.swap) wlMin) ∧ a ≤ b) :
    let g := pixelGrid sol wlMin wlMax delta
    g.x.Pairwise (· > ·) ∧ (∀ t, t ∈ g.x ↔ ∃ k : Nat, t = a + k * delta ∧ t < b) ∧
    g.wl = g.x.map (extend sol) ∧
    g.bandwidth = g.x.map (fun t => |extend sol (t - delta / 2) - extend sol (t + delta / 2)|) := by
  intro g
  have hx : g.x = (arange a b delta).reverse := by
    show (if _ then _ else _ : List α).reverse = _
    congr 1
    rcases hab with ⟨⟨ha, hb⟩ | ⟨ha, hb⟩, hle⟩
    · rw [← ha, ← hb, if_neg (not_lt.mpr hle)]
    · rw [← ha, ← hb]
      rcases hle.lt_or_eq with h | h
      · rw [if_pos h]
      · rw [h, if_neg (lt_irrefl _)]
  refine ⟨?_, ?_, rfl, ?_⟩
  · rw [hx, List.pairwise_reverse]; exact arange_increasing a b delta hd
  · intro t
    rw [hx, List.mem_reverse]
    exact arange_mem a b delta hd t
  · show g.x.map _ = _
    apply List.map_congr_left
    intro t _
    have h1 : t - 1 / 2 * delta = t - delta / 2 := by ring
    have h2 : t + 1 / 2 * delta = t + delta / 2 := by ring
    rw [h1, h2]

end pixels

/-! ## Native resolution -/

theorem map_fst_zip (c w : List α) (h : c.length = w.length) : (c.zip w).map Prod.fst = c := by
  rw [List.map_fst_zip]; omega

/-- In native mode every bin contains the pixel it was made from, so no bin is without a pixel and the propagation of a
target never fails for that reason. -/
theorem native_bins_have_pixels (c w v : List α) (hl : c.length = w.length) (hv : c.length = v.length)
    (hw : ∀ t ∈ w, 0 < t) (c' w' e : List α) (h : nativeGrid c w = .ok (c', w', e)) :
    ∀ b ∈ (mkBins c' w').left.zip (mkBins c' w').right, ∃ p ∈ c.zip v, b.1 < p.1 ∧ p.1 < b.2 := by
  unfold nativeGrid at h
  simp only at h
  split at h
  · cases h
  simp only [Except.ok.injEq, Prod.mk.injEq] at h
  obtain ⟨rfl, rfl, rfl⟩ := h
  set s := (c.zip w).insertionSort (fun p q => p.1 ≤ q.1) with hs
  intro b hb
  simp only [mkBins, List.zipWith_map, List.zipWith_self] at hb
  rw [List.zip_map', List.mem_map] at hb
  obtain ⟨p, hp, rfl⟩ := hb
  have hp' : p ∈ c.zip w := (List.mem_insertionSort _).mp hp
  obtain ⟨i, hi, e⟩ := List.mem_iff_getElem.mp hp'
  simp only [List.length_zip] at hi
  have hpw : 0 < p.2 := hw _ (List.of_mem_zip (show (p.1, p.2) ∈ c.zip w from hp')).2
  have e1 : c[i]'(by omega) = p.1 := by rw [← e]; simp [List.getElem_zip]
  refine ⟨(c[i]'(by omega), v[i]'(by omega)), ?_, ?_, ?_⟩
  · rw [List.mem_iff_getElem]
    exact ⟨i, by simp; omega, by simp [List.getElem_zip]⟩
  · rw [e1]; linarith
  · rw [e1]; linarith

/-- Native mode: the bins are those of the pixels in the order of their wavelength, and the list of edges holds the left
edge of every bin and the right edge of the last. -/
theorem native_bins (c w c' w' e : List α) (hl : c.length = w.length) (h : nativeGrid c w = .ok (c', w', e)) :
    (c'.zip w').Perm (c.zip w) ∧ c'.Pairwise (· ≤ ·) ∧ c'.length = w'.length ∧
    ∃ last, (mkBins c' w').right.getLast? = some last ∧ e = (mkBins c' w').left ++ [last] := by
  unfold nativeGrid at h
  simp only at h
  split at h
  · cases h
  rename_i l hlast
  simp only [Except.ok.injEq, Prod.mk.injEq] at h
  obtain ⟨rfl, rfl, rfl⟩ := h
  have hperm := List.perm_insertionSort (fun p q : α × α => p.1 ≤ q.1) (c.zip w)
  have hsort := List.pairwise_insertionSort (fun p q : α × α => p.1 ≤ q.1) (c.zip w)
  refine ⟨?_, ?_, by simp, l.1 + 1 / 2 * l.2, ?_, ?_⟩
  · rw [List.zip_map']
    simpa using hperm
  · rw [List.pairwise_map]; exact hsort
  · simp only [mkBins, List.zipWith_map, List.zipWith_self]
    rw [List.getLast?_map, hlast]; rfl
  · simp only [mkBins, List.zipWith_map, List.zipWith_self]

/-- C38, native mode: the right edge of a bin is the left edge of the next exactly when the pixels are half their widths
apart. -/
theorem native_contiguous_iff (c w : List α) (h : c.length = w.length) (i : Nat) (hi : i + 1 < c.length) :
    (mkBins c w).right.getD i 0 = (mkBins c w).left.getD (i + 1) 0 ↔
      c.getD (i + 1) 0 - c.getD i 0 = (w.getD i 0 + w.getD (i + 1) 0) / 2 := by
  simp only [mkBins]
  rw [zipWith_getD_min _ _ _ _ (by omega) (by omega), zipWith_getD_min _ _ _ _ (by omega) (by omega)]
  constructor <;> intro h <;> linarith

/-- Sorting the pixels of an evenly dispersed spectrum. -/
theorem native_even (c0 s : α) (hs : 0 < s) (n : Nat) (c : List α)
    (hc : c.Perm ((List.range n).map (fun k : Nat => c0 + (k : α) * s))) (c' w' e : List α)
    (h : nativeGrid c (c.map (fun _ => s)) = .ok (c', w', e)) :
    c' = (List.range n).map (fun k : Nat => c0 + (k : α) * s) ∧ w' = (List.range n).map (fun _ => s) := by
  unfold nativeGrid at h
  simp only at h
  split at h
  · cases h
  simp only [Except.ok.injEq, Prod.mk.injEq] at h
  obtain ⟨rfl, rfl, rfl⟩ := h
  have hz : c.zip (c.map (fun _ => s)) = c.map (fun x => (x, s)) := by
    rw [List.zip_map_right, List.zip_eq_zipWith, List.zipWith_self, List.map_map]; rfl
  rw [hz]
  have hperm := List.perm_insertionSort (fun p q : α × α => p.1 ≤ q.1) (c.map (fun x => (x, s)))
  have hsort := List.pairwise_insertionSort (fun p q : α × α => p.1 ≤ q.1) (c.map (fun x => (x, s)))
  have hfst : ((c.map (fun x => (x, s))).insertionSort (fun p q => p.1 ≤ q.1)).map Prod.fst =
      (List.range n).map (fun k : Nat => c0 + (k : α) * s) := by
    apply List.Perm.eq_of_pairwise (le := (· ≤ ·)) (fun a b _ _ h1 h2 => le_antisymm h1 h2)
    · rw [List.pairwise_map]; exact hsort
    · rw [List.pairwise_map]
      apply List.pairwise_lt_range.imp
      intro i j hij
      have : (i : α) < j := by exact_mod_cast hij
      have := mul_lt_mul_of_pos_right this hs
      linarith
    · refine (hperm.map Prod.fst).trans ?_
      rw [List.map_map]
      simpa [Function.comp_def] using hc
  refine ⟨hfst, ?_⟩
  have hlen := congrArg List.length hfst
  simp only [List.length_map, List.length_range] at hlen
  apply List.ext_getElem
  · simpa using hlen
  · intro i h1 h2
    simp only [List.getElem_map]
    have : ∀ p ∈ (c.map (fun x => (x, s))).insertionSort (fun p q => p.1 ≤ q.1), p.2 = s := by
      intro p hp
      obtain ⟨x, _, rfl⟩ := List.mem_map.mp ((List.mem_insertionSort _).mp hp)
      rfl
    exact this _ (List.getElem_mem _)

/-- C38, native mode, for a linear wavelength solution: the bins are contiguous and increasing. -/
theorem native_linear_partial [FloorRing α] (sol : List (α × α)) (hn : (sol.map Prod.fst).Nodup) (h2 : 2 ≤ sol.length)
    (a d : α) (ha : a ≠ 0) (hl : ∀ p ∈ sol, p.2 = a * p.1 + d) (wlMin wlMax delta : α) (hd : 0 < delta) (c' w' e : List α)
    (h : nativeGrid (pixelGrid sol wlMin wlMax delta).wl (pixelGrid sol wlMin wlMax delta).bandwidth = .ok (c', w', e)) :
    ∀ i, i + 1 < c'.length → (mkBins c' w').right.getD i 0 = (mkBins c' w').left.getD (i + 1) 0 ∧
      c'.getD i 0 < c'.getD (i + 1) 0 := by
  have hext := extend_line sol hn h2 a d hl
  obtain ⟨x0, y, m, hx⟩ : ∃ x0 y : α, ∃ m, (pixelGrid sol wlMin wlMax delta).x = ((List.range m).map (fun k : Nat => x0 + (k : α) * delta)).reverse := by
    simp only [pixelGrid, arange]
    split
    · exact ⟨_, 0, _, rfl⟩
    · exact ⟨_, 0, _, rfl⟩
  have hwl : (pixelGrid sol wlMin wlMax delta).wl = (pixelGrid sol wlMin wlMax delta).x.map (fun x => a * x + d) := by
    show (pixelGrid sol wlMin wlMax delta).x.map _ = _
    exact List.map_congr_left (fun x _ => hext x)
  have hbw : (pixelGrid sol wlMin wlMax delta).bandwidth = (pixelGrid sol wlMin wlMax delta).wl.map (fun _ => |a| * delta) := by
    rw [hwl, List.map_map]
    show (pixelGrid sol wlMin wlMax delta).x.map _ = _
    apply List.map_congr_left
    intro x _
    rw [hext, hext]
    simp only [Function.comp_apply]
    have : a * (x - 1 / 2 * delta) + d - (a * (x + 1 / 2 * delta) + d) = -(a * delta) := by ring
    rw [this, abs_neg, abs_mul, abs_of_pos hd]
  rw [hbw] at h
  have hs : 0 < |a| * delta := mul_pos (abs_pos.mpr ha) hd
  obtain ⟨c0, hc0⟩ : ∃ c0, (pixelGrid sol wlMin wlMax delta).wl.Perm ((List.range m).map (fun k : Nat => c0 + (k : α) * (|a| * delta))) := by
    rw [hwl, hx]
    rcases lt_or_gt_of_ne ha with hneg | hpos
    · -- decreasing: reversing positions gives increasing wavelengths
      refine ⟨a * (x0 + ((m : α) - 1) * delta) + d, ?_⟩
      rw [abs_of_neg hneg]
      have : (((List.range m).map (fun k : Nat => x0 + (k : α) * delta)).reverse.map (fun x => a * x + d)) =
          (List.range m).map (fun k : Nat => a * (x0 + ((m : α) - 1) * delta) + d + (k : α) * (-a * delta)) := by
        apply List.ext_getElem
        · simp
        · intro i h1 h3
          simp only [List.length_map, List.length_reverse, List.length_range] at h1
          simp only [List.getElem_map, List.getElem_reverse, List.getElem_range, List.length_map, List.length_range]
          have : ((m - 1 - i : Nat) : α) = (m : α) - 1 - i := by
            rw [Nat.cast_sub (by omega), Nat.cast_sub (by omega)]; simp
          rw [this]; ring
      rw [this]
    · refine ⟨a * x0 + d, ?_⟩
      rw [abs_of_pos hpos, List.map_reverse]
      refine (List.reverse_perm _).trans ?_
      rw [List.map_map]
      apply List.Perm.of_eq
      apply List.map_congr_left
      intro k _
      simp only [Function.comp_apply]
      ring
  obtain ⟨e1, e2⟩ := native_even c0 _ hs m _ hc0 c' w' e h
  intro i hi
  have hil : i + 1 < m := by rw [e1] at hi; simpa using hi
  have gc : ∀ j < m, c'.getD j 0 = c0 + (j : α) * (|a| * delta) := by
    intro j hj; rw [e1]; simp [List.getD_eq_getElem?_getD, List.getElem?_range hj]
  have gw : ∀ j < m, w'.getD j 0 = |a| * delta := by
    intro j hj
    rw [e2, List.getD_eq_getElem?_getD, List.getElem?_map, List.getElem?_range hj]; rfl
  refine ⟨?_, ?_⟩
  · rw [native_contiguous_iff c' w' (by rw [e1, e2]; simp) i hi, gc _ hil, gc _ (by omega), gw _ hil, gw _ (by omega)]
    push_cast; ring
  · rw [gc _ hil, gc _ (by omega)]
    push_cast
    linarith

/-- The left and right edges of the native bins of a wavelength solution. -/
def nativeEdges (sol : List (ℚ × ℚ)) (wlMin wlMax delta : ℚ) : Option (List ℚ × List ℚ) :=
  match nativeGrid (pixelGrid sol wlMin wlMax delta).wl (pixelGrid sol wlMin wlMax delta).bandwidth with
  | .ok (c, w, _) => some ((mkBins c w).left, (mkBins c w).right)
  | .error _ => none

/-- C38 is false of native mode in general: where the dispersion changes, neighbouring bins overlap, here between 1/4
and 1/2. -/
theorem native_overlap : nativeEdges [(0, 0), (1, 1), (3, 5)] 0 5 1 =
    some ([-1 / 2, 1 / 4, 2], [1 / 2, 7 / 4, 4]) := by
  decide +kernel

/-- The hypotheses of `native_linear_partial`, on a solution that decreases with the position. -/
theorem demo_native : nativeEdges [(0, 5), (1, 4), (5, 0)] 1 4 1 =
    some ([3 / 2, 5 / 2, 7 / 2], [5 / 2, 7 / 2, 9 / 2]) := by
  decide +kernel

end ExoRad.Instrument
