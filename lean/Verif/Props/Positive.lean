import Verif.Props.Rebin
import Mathlib.Tactic.Linarith
import Mathlib.Tactic.Positivity
import Mathlib.Tactic.FieldSimp

/-!
# Positive spectra stay positive when they are rebinned
-/

set_option linter.unusedSectionVars false

namespace ExoRad.Rebin

variable {α : Type} [Field α] [LinearOrder α] [IsStrictOrderedRing α]

theorem sum_pos' : ∀ {l : List α}, l ≠ [] → (∀ v ∈ l, 0 < v) → 0 < l.sum
  | [], h, _ => absurd rfl h
  | [v], _, h => by simpa using h v (by simp)
  | v :: u :: l, _, h => by
    have := sum_pos' (l := u :: l) (by simp) (fun v hv => h v (by simp [hv]))
    rw [List.sum_cons]
    exact add_pos (h v (by simp)) this

theorem mean_pos {l : List α} (hne : l ≠ []) (h : ∀ v ∈ l, 0 < v) : ∃ m, mean l = some m ∧ 0 < m := by
  refine ⟨l.sum / (l.length : α), by simp [mean, hne], ?_⟩
  have h1 := sum_pos' hne h
  have h2 : (0 : α) < (l.length : α) := by exact_mod_cast List.length_pos_iff.mpr hne
  exact div_pos h1 h2

theorem segment_pos {L U : α} : ∀ (rest : List (α × α)) (lo : α × α) (x : α), (lo :: rest).Pairwise (fun p q => p.1 < q.1) → lo.1 ≤ x →
    (∀ p ∈ lo :: rest, L ≤ p.1 → p.1 ≤ U → 0 < p.2) → (∃ p ∈ lo :: rest, L ≤ p.1 ∧ p.1 ≤ x) → (∃ q ∈ lo :: rest, x ≤ q.1 ∧ q.1 ≤ U) → 0 < segment lo rest x
  | [], lo, x, _, _, hpos, ⟨p, hp, p1, p2⟩, ⟨q, hq, q1, q2⟩ => by
    simp only [List.mem_singleton] at hp hq
    subst hp; subst hq
    exact hpos q (by simp) p1 q2
  | hi :: rest, lo, x, hs, hlo, hpos, ⟨p, hp, p1, p2⟩, ⟨q, hq, q1, q2⟩ => by
    obtain ⟨hs1, hs2⟩ := List.pairwise_cons.mp hs
    have hlt : lo.1 < hi.1 := hs1 hi (by simp)
    unfold segment
    by_cases hx : x ≤ hi.1
    · rw [if_pos hx]
      have hcases : p = lo ∨ hi.1 = x := by
        rcases List.mem_cons.mp hp with rfl | hp
        · exact .inl rfl
        · rcases List.mem_cons.mp hp with rfl | hp
          · exact .inr (le_antisymm p2 hx)
          · have := (List.pairwise_cons.mp hs2).1 p hp
            exact absurd (this.trans_le p2) (not_lt.mpr hx)
      have hd : (0 : α) < hi.1 - lo.1 := sub_pos.mpr hlt
      have e : (hi.2 - lo.2) / (hi.1 - lo.1) * (x - lo.1) + lo.2 = (hi.2 * (x - lo.1) + lo.2 * (hi.1 - x)) / (hi.1 - lo.1) := by
        field_simp; ring
      rw [e]
      apply div_pos _ hd
      have hiU : lo.1 = x ∨ hi.1 ≤ U := by
        rcases List.mem_cons.mp hq with rfl | hq
        · exact .inl (le_antisymm hlo q1)
        · right
          rcases List.mem_cons.mp hq with rfl | hq
          · exact q2
          · exact ((List.pairwise_cons.mp hs2).1 q hq).le.trans q2
      rcases hcases with rfl | hxx
      · have l2 : 0 < p.2 := hpos p (by simp) p1 (hlo.trans (q1.trans q2))
        rcases hiU with hU | hU
        · rw [hU]; nlinarith
        · have h2 : 0 < hi.2 := hpos hi (by simp) (p1.trans hlt.le) hU
          rcases hlo.eq_or_lt with hh | hh
          · rw [hh]; nlinarith
          · have a1 := mul_pos h2 (sub_pos.mpr hh)
            have a2 := mul_nonneg l2.le (sub_nonneg.mpr hx)
            linarith
      · have hU' : hi.1 ≤ U := by rw [hxx]; exact q1.trans q2
        have hL' : L ≤ hi.1 := by rw [hxx]; exact p1.trans p2
        have h2 : 0 < hi.2 := hpos hi (by simp) hL' hU'
        rw [hxx] at hd ⊢
        have := mul_pos h2 hd
        linarith
    · rw [if_neg hx]
      have hx' := not_le.mp hx
      refine segment_pos rest hi x hs2 hx'.le (fun p hp => hpos p (by simp [hp])) ?_ ?_
      · rcases List.mem_cons.mp hp with rfl | hp
        · exact ⟨hi, by simp, p1.trans hlt.le, hx'.le⟩
        · exact ⟨p, hp, p1, p2⟩
      · rcases List.mem_cons.mp hq with rfl | hq
        · exact absurd (hlt.trans hx') (not_lt.mpr q1)
        · exact ⟨q, hq, q1, q2⟩

/-- Between two samples of a stretch of positive ones the interpolation is positive. -/
theorem interp_pos {pts : List (α × α)} (hs : pts.Pairwise (fun p q => p.1 < q.1)) {L U x : α} (hpos : ∀ p ∈ pts, L ≤ p.1 → p.1 ≤ U → 0 < p.2)
    (hl : ∃ p ∈ pts, L ≤ p.1 ∧ p.1 ≤ x) (hr : ∃ q ∈ pts, x ≤ q.1 ∧ q.1 ≤ U) : 0 < interp pts x := by
  rw [interp_sorted pts hs]
  cases pts with
  | nil => obtain ⟨p, hp, _⟩ := hl; cases hp
  | cons lo rest =>
    obtain ⟨p, hp, p1, p2⟩ := hl
    obtain ⟨q, hq, q1, q2⟩ := hr
    have hlo : lo.1 ≤ x := by
      rcases List.mem_cons.mp hp with rfl | hp
      · exact p2
      · exact ((List.pairwise_cons.mp hs).1 p hp).le.trans p2
    have hlast : x ≤ lastX lo rest := q1.trans (lastX_ge lo rest hs q hq)
    unfold interpSorted
    simp only [if_neg (not_lt.mpr hlo), if_neg (not_lt.mpr hlast)]
    exact segment_pos rest lo x hs hlo hpos ⟨p, hp, p1, p2⟩ ⟨q, hq, q1, q2⟩

/-- Rebinning onto an increasing grid: a point that is neither the first nor the last gets a positive value if the samples are positive on a stretch that
reaches beyond its two neighbours and has samples on both sides of it. -/
theorem rebin_pos {x x' : List α} {pts : List (α × α)} {f : List (Option α)} (hx : x.Pairwise (· < ·))
    (hp : pts.Pairwise (fun p q => p.1 < q.1)) (h : rebin x pts = .ok (x', f)) {i : Nat} (h0 : 0 < i) (h1 : i + 1 < x.length) {L U : α}
    (hL : L ≤ x[i - 1]) (hU : x[i + 1] ≤ U) (hpos : ∀ p ∈ kept x pts, L ≤ p.1 → p.1 ≤ U → 0 < p.2)
    (hl : ∃ p ∈ kept x pts, L ≤ p.1 ∧ p.1 ≤ x[i]) (hr : ∃ q ∈ kept x pts, x[i] ≤ q.1 ∧ q.1 ≤ U) : ∃ v, f[i]? = some (some v) ∧ 0 < v := by
  have hk : (kept x pts).Pairwise (fun p q => p.1 < q.1) := hp.sublist List.filter_sublist
  by_cases hb : Averages x pts
  · obtain ⟨_, _, hf⟩ := rebin_averaging x x' pts f hx hp h hb
    rw [hf i (by omega)]
    obtain ⟨b1, b2⟩ := bin_contains x hx i h0 h1
    have bl : L ≤ binLo x i ∧ binHi x i ≤ U := by
      obtain ⟨j, rfl⟩ : ∃ j, i = j + 1 := ⟨i - 1, by omega⟩
      have g0 : x.getD j 0 = x[j]'(by omega) := by simp [List.getD_eq_getElem?_getD, List.getElem?_eq_getElem (show j < x.length by omega)]
      have g1 : x.getD (j + 1) 0 = x[j + 1]'(by omega) := by simp [List.getD_eq_getElem?_getD, List.getElem?_eq_getElem (show j + 1 < x.length by omega)]
      have g2 : x.getD (j + 1 + 1) 0 = x[j + 1 + 1]'(by omega) := by simp [List.getD_eq_getElem?_getD, List.getElem?_eq_getElem (show j + 1 + 1 < x.length by omega)]
      have l1 := List.pairwise_iff_getElem.mp hx j (j + 1) (by omega) (by omega) (by omega)
      have l2 := List.pairwise_iff_getElem.mp hx (j + 1) (j + 1 + 1) (by omega) (by omega) (by omega)
      simp only [Nat.add_sub_cancel] at hL
      unfold binHi binLo
      rw [if_neg (by omega), if_neg (by omega), Nat.add_sub_cancel, g0, g1, g2]
      constructor <;> linarith
    obtain ⟨p, hpm, p1, p2⟩ := hl
    obtain ⟨q, hqm, q1, q2⟩ := hr
    obtain ⟨p0, hp0, hp0le⟩ := head_le _ hk p hpm
    obtain ⟨m, hm⟩ : ∃ m, minE (diffs x) = .ok m := by
      cases hd : diffs x with
      | nil => have := diffs_length x; rw [hd] at this; simp at this; omega
      | cons a l => exact ⟨_, rfl⟩
    obtain ⟨m1, m2⟩ := minE_spec hm
    obtain ⟨r, hr, r1, r2⟩ := exists_sample m (binLo x i) (binHi x i) (binWidth_interior x i h0 h1 m m2) (kept x pts)
      (fun d hd => hb d hd m m1) ⟨q, hqm, b1.trans q1⟩ ⟨p0, hp0, by linarith⟩
    obtain ⟨v, hv, hv0⟩ := mean_pos (l := (((kept x pts).filter (fun p : α × α => decide (binLo x i ≤ p.1) &&
        (decide (p.1 < binHi x i) || (decide (i + 1 = x.length) && decide (p.1 = binHi x i))))).map Prod.snd)) (by
          intro e
          have : r.2 ∈ ([] : List α) := by
            rw [← e]
            exact List.mem_map_of_mem (List.mem_filter.mpr ⟨hr, by simp [r1, r2]⟩)
          cases this) (by
          intro v hv
          obtain ⟨p, hpm, rfl⟩ := List.mem_map.mp hv
          obtain ⟨hpk, hc⟩ := List.mem_filter.mp hpm
          simp only [Bool.and_eq_true, decide_eq_true_eq, Bool.or_eq_true] at hc
          refine hpos p hpk (bl.1.trans hc.1) ?_
          rcases hc.2 with hc | hc
          · exact hc.le.trans bl.2
          · exact hc.2.le.trans bl.2)
    exact ⟨v, by rw [hv], hv0⟩
  · obtain ⟨_, _, _, hI⟩ := rebin_branches x x' pts f hx hp h
    have hfi : f[i]? = some (some (interp (kept x pts) x[i])) := by
      rw [hI hb, List.getElem?_map, List.getElem?_eq_getElem (by omega)]; rfl
    exact ⟨_, hfi, interp_pos hk hpos hl hr⟩

theorem diffs_neg : ∀ l : List α, l.Pairwise (fun a b => b < a) → ∀ d ∈ diffs l, d < 0
  | [], _, d, h => by cases h
  | [_], _, d, h => by cases h
  | a :: b :: l, hp, d, h => by
    simp only [diffs, List.mem_cons] at h
    rcases h with rfl | h
    · exact sub_neg.mpr ((List.pairwise_cons.mp hp).1 b (by simp))
    · exact diffs_neg (b :: l) (List.pairwise_cons.mp hp).2 d h

/-- Rebinning onto a decreasing grid always interpolates. -/
theorem rebin_falling {x x' : List α} {pts : List (α × α)} {f : List (Option α)} (hx : x.Pairwise (fun a b => b < a))
    (hp : pts.Pairwise (fun p q => p.1 < q.1)) (h : rebin x pts = .ok (x', f)) : f = x.map (fun t => some (interp (kept x pts) t)) := by
  obtain ⟨lo, hi, pts', h1, h2, h3, h4, h5⟩ := rebin_ok x x' pts f h
  have hlx : 2 ≤ x.length := by
    unfold dedupGrid at h4
    split at h4
    · cases h4
    rename_i l hl
    simpa using dedup_length _ _ _ hl
  have hx0 : (0 : α) ∉ diffs x := fun hm => lt_irrefl _ (diffs_neg x hx 0 hm)
  rw [dedupGrid_id x hx0 hlx] at h4
  simp only [Except.ok.injEq] at h4
  have hw : (window lo hi pts).Pairwise (fun p q => p.1 < q.1) := hp.sublist (window_sublist _ _ _)
  have hw0 : (0 : α) ∉ diffs ((window lo hi pts).map Prod.fst) := fun hm =>
    lt_irrefl _ (diffs_pos _ (List.pairwise_map.mpr hw) 0 hm)
  rw [dedup_id _ _ hw0 (dedup_length _ _ _ h3)] at h3
  simp only [Except.ok.injEq] at h3
  subst h3 h4
  rw [kept_eq h1 h2] at h5 hw
  unfold resample at h5
  split at h5
  · cases h5
  rename_i mp hmp
  split at h5
  · cases h5
  rename_i mx hmx
  obtain ⟨m1, _⟩ := maxE_spec hmp
  obtain ⟨n1, _⟩ := minE_spec hmx
  have a1 := diffs_pos _ (List.pairwise_map.mpr hw) mp m1
  have a2 := diffs_neg x hx mx n1
  rw [if_neg (not_lt.mpr (a2.trans a1).le)] at h5
  simp only [Except.ok.injEq] at h5
  exact h5.symm

end ExoRad.Rebin
