import Verif.Props.Rebin

/-! # C28: where exactly a constant is reproduced -/

namespace ExoRad.Rebin

variable {α : Type} [Field α] [LinearOrder α] [IsStrictOrderedRing α]

theorem mean_replicate {l : List α} {c : α} (h : ∀ v ∈ l, v = c) : mean l = some c ↔ l ≠ [] := by
  unfold mean
  by_cases hl : l = []
  · simp [hl]
  · rw [if_neg hl, List.eq_replicate_of_mem h]
    have : (l.length : α) ≠ 0 := by
      rw [Nat.cast_ne_zero]
      exact fun e => hl (List.length_eq_zero_iff.mp e)
    simp only [List.sum_replicate, nsmul_eq_mul, List.length_replicate, Option.some.injEq, ne_eq]
    rw [mul_comm, mul_div_assoc, div_self this, mul_one]
    simp [hl]

/-- C28, exactly: on increasing grids a constant (not 0) comes out at a point if and only if, when averaging, a sample that counts lies in its bin, and when
interpolating, the point lies between samples that count. -/
theorem rebin_constant_iff (x x' : List α) (pts : List (α × α)) (f : List (Option α)) (hx : x.Pairwise (· < ·))
    (hp : pts.Pairwise (fun p q => p.1 < q.1)) (h : rebin x pts = .ok (x', f)) (c : α) (h0 : c ≠ 0) (hc : ∀ p ∈ pts, p.2 = c) (i : ℕ) (hi : i < x.length) :
    f[i]? = some (some c) ↔
      (Averages x pts ∧ ∃ p ∈ kept x pts, binLo x i ≤ p.1 ∧ (p.1 < binHi x i ∨ (i + 1 = x.length ∧ p.1 = binHi x i))) ∨
      (¬ Averages x pts ∧ (∃ p ∈ kept x pts, p.1 ≤ x[i]) ∧ ∃ q ∈ kept x pts, x[i] ≤ q.1) := by
  have hck : ∀ p ∈ kept x pts, p.2 = c := by
    intro p hpk
    exact hc p (List.mem_of_mem_filter hpk)
  by_cases hb : Averages x pts
  · obtain ⟨-, -, hm⟩ := rebin_averaging x x' pts f hx hp h hb
    rw [hm i hi]
    simp only [hb, true_and, not_true, false_and, or_false, Option.some.injEq]
    rw [mean_replicate]
    · constructor
      · intro hne
        obtain ⟨v, hv⟩ := List.exists_mem_of_ne_nil _ hne
        rw [List.mem_map] at hv
        obtain ⟨p, hpm, -⟩ := hv
        rw [List.mem_filter] at hpm
        refine ⟨p, hpm.1, ?_⟩
        simpa using hpm.2
      · rintro ⟨p, hpm, hcond⟩ hnil
        rw [List.map_eq_nil_iff, List.filter_eq_nil_iff] at hnil
        exact hnil p hpm (by simpa using hcond)
    · intro v hv
      rw [List.mem_map] at hv
      obtain ⟨p, hpm, rfl⟩ := hv
      exact hck p (List.mem_of_mem_filter hpm)
  · obtain ⟨-, -, hm⟩ := rebin_interpolating x x' pts f hx hp h hb
    obtain ⟨h1, -, h3⟩ := hm i hi
    simp only [hb, false_and, false_or, not_false_eq_true, true_and]
    constructor
    · intro hf
      constructor
      · by_contra hno
        push Not at hno
        rw [h3 (.inl hno)] at hf
        simp only [Option.some.injEq] at hf
        exact h0 hf.symm
      · by_contra hno
        push Not at hno
        rw [h3 (.inr hno)] at hf
        simp only [Option.some.injEq] at hf
        exact h0 hf.symm
    · rintro ⟨hl, hr⟩
      have := h1 0 c (fun p hpk => by rw [hck p hpk]; ring) hl hr
      rw [this]
      simp

end ExoRad.Rebin
