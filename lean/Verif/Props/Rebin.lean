import Verif.Model.Rebin
import Mathlib.Tactic.Linarith
import Mathlib.Tactic.FieldSimp
import Mathlib.Tactic.Ring
import Mathlib.Tactic.Positivity
import Mathlib.Algebra.Order.BigOperators.Group.List
import Mathlib.Algebra.BigOperators.Ring.List

/-! # C26–C30: rebinning and signals -/

set_option linter.unusedSectionVars false

namespace ExoRad.Rebin

variable {α : Type} [Field α] [LinearOrder α] [IsStrictOrderedRing α] {β γ : Type}

/-! ## Basic facts -/

theorem window_sublist (lo hi : α) (pts : List (α × β)) : (window lo hi pts).Sublist pts :=
  List.filter_sublist

theorem dropFirstZero_sublist : ∀ l : List (α × β), (dropFirstZero l).Sublist l
  | [] => by simp [dropFirstZero]
  | [p] => by simp [dropFirstZero]
  | p :: q :: l => by
    rw [dropFirstZero]
    split
    · exact List.sublist_cons_self _ _
    · exact (dropFirstZero_sublist (q :: l)).cons_cons p

theorem dedup_sublist (n : Nat) : ∀ (l l' : List (α × β)), dedup n l = .ok l' → l'.Sublist l := by
  induction n with
  | zero => intro l l' h; simp only [dedup, Except.ok.injEq] at h; rw [h]
  | succ n ih =>
    intro l l' h
    rw [dedup] at h
    split at h
    · cases h
    · split at h
      · exact (ih _ _ h).trans (dropFirstZero_sublist l)
      · simp only [Except.ok.injEq] at h; rw [h]

/-- Everything `rebin` computes, in one statement. -/
theorem rebin_ok (x x' : List α) (pts : List (α × α)) (f : List (Option α)) (h : rebin x pts = .ok (x', f)) :
    ∃ lo hi pts', minE x = .ok lo ∧ maxE x = .ok hi ∧
      dedup ((window lo hi pts).length + 1) (window lo hi pts) = .ok pts' ∧ dedupGrid x = .ok x' ∧
      resample x' pts' = .ok f := by
  unfold rebin at h
  split at h
  · cases h
  rename_i lo hlo
  split at h
  · cases h
  rename_i hi hhi
  split at h
  · cases h
  rename_i pts' hp
  split at h
  · cases h
  rename_i x1 hx
  split at h
  · cases h
  rename_i f1 hf
  simp only [Except.ok.injEq, Prod.mk.injEq] at h
  obtain ⟨rfl, rfl⟩ := h
  exact ⟨lo, hi, pts', hlo, hhi, hp, hx, hf⟩

/-- Everything a dedup and window keeps comes from the input. -/
theorem kept_sublist {lo hi : α} {pts pts' : List (α × β)} {n : Nat}
    (h : dedup n (window lo hi pts) = .ok pts') : pts'.Sublist pts :=
  (dedup_sublist _ _ _ h).trans (window_sublist _ _ _)

/-! ## C26 bounds -/

theorem mean_bounds (l : List α) (L U m : α) (h : mean l = some m) (hl : ∀ v ∈ l, L ≤ v ∧ v ≤ U) :
    L ≤ m ∧ m ≤ U := by
  unfold mean at h
  split at h
  · cases h
  rename_i hne
  simp only [Option.some.injEq] at h
  have hlen : (0 : α) < (l.length : α) := by
    have : 0 < l.length := List.length_pos_iff.mpr hne
    exact_mod_cast this
  have h1 : (l.length : α) * L ≤ l.sum := by
    have := List.card_nsmul_le_sum l L (fun v hv => (hl v hv).1)
    simpa [nsmul_eq_mul] using this
  have h2 : l.sum ≤ (l.length : α) * U := by
    have := List.sum_le_card_nsmul l U (fun v hv => (hl v hv).2)
    simpa [nsmul_eq_mul] using this
  rw [← h]
  exact ⟨by rw [le_div_iff₀ hlen]; linarith, by rw [div_le_iff₀ hlen]; linarith⟩

theorem binMeans_bounds (pts : List (α × α)) (L U : α) (hp : ∀ p ∈ pts, L ≤ p.2 ∧ p.2 ≤ U) :
    ∀ e : List α, ∀ v, some v ∈ binMeans pts e → L ≤ v ∧ v ≤ U
  | [], v, h => by simp [binMeans] at h
  | [_], v, h => by simp [binMeans] at h
  | lo :: hi :: rest, v, h => by
    rw [binMeans, List.mem_cons] at h
    rcases h with h | h
    · refine mean_bounds _ L U v h.symm ?_
      intro w hw
      obtain ⟨p, hpm, rfl⟩ := List.mem_map.mp hw
      exact hp p (List.mem_of_mem_filter hpm)
    · exact binMeans_bounds pts L U hp (hi :: rest) v h

theorem segment_bounds (L U : α) : ∀ (rest : List (α × α)) (lo : α × α) (x : α),
    (∀ p ∈ lo :: rest, L ≤ p.2 ∧ p.2 ≤ U) → (lo :: rest).Pairwise (fun p q => p.1 ≤ q.1) → lo.1 ≤ x →
    L ≤ segment lo rest x ∧ segment lo rest x ≤ U := by
  intro rest
  induction rest with
  | nil => intro lo x h _ _; simpa [segment] using h lo (by simp)
  | cons hi rest ih =>
    intro lo x h hs hx
    rw [segment]
    have hlo := h lo (by simp)
    have hhi := h hi (by simp)
    have hle : lo.1 ≤ hi.1 := (List.pairwise_cons.mp hs).1 hi (by simp)
    split
    · rename_i hxi
      rcases eq_or_lt_of_le hle with heq | hlt
      · have : x - lo.1 = 0 := by linarith
        rw [this, mul_zero, zero_add]; exact hlo
      · have hd : 0 < hi.1 - lo.1 := by linarith
        set t := (x - lo.1) / (hi.1 - lo.1) with ht
        have ht0 : 0 ≤ t := div_nonneg (by linarith) hd.le
        have ht1 : t ≤ 1 := by rw [ht, div_le_one hd]; linarith
        have he : (hi.2 - lo.2) / (hi.1 - lo.1) * (x - lo.1) + lo.2 = (1 - t) * lo.2 + t * hi.2 := by
          rw [ht]; field_simp; ring
        rw [he]
        constructor
        · nlinarith [mul_le_mul_of_nonneg_left hlo.1 (by linarith : 0 ≤ 1 - t), mul_le_mul_of_nonneg_left hhi.1 ht0]
        · nlinarith [mul_le_mul_of_nonneg_left hlo.2 (by linarith : 0 ≤ 1 - t), mul_le_mul_of_nonneg_left hhi.2 ht0]
    · rename_i hxi
      exact ih hi x (fun p hp => h p (by simp only [List.mem_cons] at hp ⊢; tauto))
        (List.pairwise_cons.mp hs).2 (by linarith [not_le.mp hxi])

theorem interp_bounds (pts : List (α × α)) (L U : α) (hL : L ≤ 0) (hU : 0 ≤ U)
    (hp : ∀ p ∈ pts, L ≤ p.2 ∧ p.2 ≤ U) (x : α) : L ≤ interp pts x ∧ interp pts x ≤ U := by
  unfold interp interpSorted
  have hsorted := List.pairwise_insertionSort (fun p q : α × α => p.1 ≤ q.1) pts
  have hmem : ∀ p ∈ pts.insertionSort (fun p q => p.1 ≤ q.1), L ≤ p.2 ∧ p.2 ≤ U :=
    fun p h => hp p ((List.mem_insertionSort _).mp h)
  generalize pts.insertionSort (fun p q => p.1 ≤ q.1) = l at hsorted hmem
  cases l with
  | nil => exact ⟨hL, hU⟩
  | cons lo rest =>
    simp only
    split
    · exact ⟨hL, hU⟩
    · rename_i h1
      split
      · exact ⟨hL, hU⟩
      · exact segment_bounds L U rest lo x hmem hsorted (not_lt.mp h1)

/-- C26: whatever the grids, every sample `rebin` returns lies in any interval around 0 that contains
the input values; in particular non-negative spectra stay non-negative and transmissions within [0, 1]. -/
theorem rebin_bounds (x x' : List α) (pts : List (α × α)) (f : List (Option α)) (L U : α) (hL : L ≤ 0) (hU : 0 ≤ U)
    (hp : ∀ p ∈ pts, L ≤ p.2 ∧ p.2 ≤ U) (h : rebin x pts = .ok (x', f)) :
    ∀ v, some v ∈ f → L ≤ v ∧ v ≤ U := by
  obtain ⟨lo, hi, pts', _, _, hd, _, hr⟩ := rebin_ok x x' pts f h
  have hp' : ∀ p ∈ pts', L ≤ p.2 ∧ p.2 ≤ U := fun p hm => hp p ((kept_sublist hd).subset hm)
  intro v hv
  unfold resample at hr
  split at hr
  · cases hr
  split at hr
  · cases hr
  split at hr
  · simp only [Except.ok.injEq] at hr; subst hr
    exact binMeans_bounds pts' L U hp' _ v hv
  · simp only [Except.ok.injEq] at hr; subst hr
    obtain ⟨t, _, ht⟩ := List.mem_map.mp hv
    simp only [Option.some.injEq] at ht
    rw [← ht]
    exact interp_bounds pts' L U hL hU hp' t

/-- C26 for signals. -/
theorem spectralRebin_bounds (s s' : Signal α) (wl : List α) (L U : α) (hL : L ≤ 0) (hU : 0 ≤ U)
    (hp : ∀ v ∈ s.data, L ≤ v ∧ v ≤ U) (h : s.spectralRebin wl = .ok s') :
    ∀ v ∈ s'.data, L ≤ v ∧ v ≤ U := by
  unfold Signal.spectralRebin at h
  split at h
  · cases h
  rename_i x' f hr
  simp only [Except.ok.injEq] at h
  subst h
  intro v hv
  obtain ⟨o, ho, rfl⟩ := List.mem_map.mp hv
  cases o with
  | none => exact ⟨hL, hU⟩
  | some w =>
    refine rebin_bounds wl x' _ f L U hL hU ?_ hr w ho
    intro p hpm
    exact hp p.2 (List.of_mem_zip hpm).2

/-! ## The clean up -/

theorem minE_nil : minE ([] : List α) = .error .valueError := rfl

theorem dropFirstZero_length : ∀ l : List (α × β), (0 : α) ∈ diffs (l.map Prod.fst) →
    (dropFirstZero l).length + 1 = l.length
  | [], h => by simp [diffs] at h
  | [p], h => by simp [diffs] at h
  | p :: q :: l, h => by
    rw [dropFirstZero]
    split
    · simp
    · rename_i hne
      simp only [List.map_cons, diffs, List.mem_cons] at h
      rcases h with h | h
      · exact absurd h.symm hne
      · have := dropFirstZero_length (q :: l) (by simpa [diffs] using h)
        simp only [List.length_cons] at this ⊢
        omega

theorem foldl_min_mem (l : List α) : ∀ a : α, l.foldl min a ∈ a :: l := by
  induction l with
  | nil => intro a; simp
  | cons b l ih =>
    intro a
    have := ih (min a b)
    simp only [List.foldl_cons, List.mem_cons] at this ⊢
    rcases this with h | h
    · rcases min_choice a b with h' | h' <;> rw [h'] at h ⊢ <;> simp [h]
    · exact Or.inr (Or.inr h)

theorem foldl_max_mem (l : List α) : ∀ a : α, l.foldl max a ∈ a :: l := by
  induction l with
  | nil => intro a; simp
  | cons b l ih =>
    intro a
    have := ih (max a b)
    simp only [List.foldl_cons, List.mem_cons] at this ⊢
    rcases this with h | h
    · rcases max_choice a b with h' | h' <;> rw [h'] at h ⊢ <;> simp [h]
    · exact Or.inr (Or.inr h)

theorem foldl_min_le (l : List α) : ∀ a : α, ∀ v ∈ a :: l, l.foldl min a ≤ v := by
  induction l with
  | nil => intro a v hv; simp only [List.mem_singleton] at hv; simp [hv]
  | cons b l ih =>
    intro a v hv
    rw [List.foldl_cons]
    have hm := ih (min a b)
    simp only [List.mem_cons] at hv
    rcases hv with rfl | rfl | hv
    · exact (hm (min v b) (by simp)).trans (min_le_left _ _)
    · exact (hm (min a v) (by simp)).trans (min_le_right _ _)
    · exact hm _ (by simp [hv])

theorem le_foldl_max (l : List α) : ∀ a : α, ∀ v ∈ a :: l, v ≤ l.foldl max a := by
  induction l with
  | nil => intro a v hv; simp only [List.mem_singleton] at hv; simp [hv]
  | cons b l ih =>
    intro a v hv
    rw [List.foldl_cons]
    have hm := ih (max a b)
    simp only [List.mem_cons] at hv
    rcases hv with rfl | rfl | hv
    · exact (le_max_left _ _).trans (hm (max v b) (by simp))
    · exact (le_max_right _ _).trans (hm (max a v) (by simp))
    · exact hm _ (by simp [hv])

theorem minE_spec {l : List α} {m : α} (h : minE l = .ok m) : m ∈ l ∧ ∀ v ∈ l, m ≤ v := by
  cases l with
  | nil => cases h
  | cons a l =>
    simp only [minE, Except.ok.injEq] at h
    subst h
    exact ⟨foldl_min_mem l a, foldl_min_le l a⟩

theorem maxE_spec {l : List α} {m : α} (h : maxE l = .ok m) : m ∈ l ∧ ∀ v ∈ l, v ≤ m := by
  cases l with
  | nil => cases h
  | cons a l =>
    simp only [maxE, Except.ok.injEq] at h
    subst h
    exact ⟨foldl_max_mem l a, le_foldl_max l a⟩

theorem minE_error {l : List α} {e : Exc} (h : minE l = .error e) : l = [] ∧ e = .valueError := by
  cases l with
  | nil => simp only [minE, Except.error.injEq] at h; exact ⟨rfl, h.symm⟩
  | cons a l => cases h

theorem maxE_error {l : List α} {e : Exc} (h : maxE l = .error e) : l = [] ∧ e = .valueError := by
  cases l with
  | nil => simp only [maxE, Except.error.injEq] at h; exact ⟨rfl, h.symm⟩
  | cons a l => cases h

/-- The clean up loop ends because the smallest step is not 0 (never because its bound was reached). -/
theorem dedup_done (n : Nat) : ∀ (l l' : List (α × β)), l.length < n → dedup n l = .ok l' →
    ∃ m, minE (diffs (l'.map Prod.fst)) = .ok m ∧ m ≠ 0 := by
  induction n with
  | zero => intro l l' hl; omega
  | succ n ih =>
    intro l l' hl h
    rw [dedup] at h
    split at h
    · cases h
    rename_i m hm
    split at h
    · rename_i h0
      subst h0
      have := dropFirstZero_length l (minE_spec hm).1
      exact ih _ _ (by omega) h
    · rename_i h0
      simp only [Except.ok.injEq] at h
      subst h
      exact ⟨m, hm, h0⟩

theorem dedup_id (n : Nat) (l : List (α × β)) (h0 : (0 : α) ∉ diffs (l.map Prod.fst)) (hl : 2 ≤ l.length) :
    dedup n l = .ok l := by
  cases n with
  | zero => rfl
  | succ n =>
    rw [dedup]
    split
    · rename_i e he
      have := (minE_error he).1
      rcases l with _ | ⟨p, _ | ⟨q, l⟩⟩ <;> simp [diffs] at hl this
    · rename_i m hm
      rw [if_neg]
      intro h
      exact h0 (h ▸ (minE_spec hm).1)

/-! ## C27 linearity -/

/-- Replace the value carried by a point. -/
def onValue (φ : β → γ) (p : α × β) : α × γ := (p.1, φ p.2)

theorem map_onValue_fst (φ : β → γ) (l : List (α × β)) : (l.map (onValue φ)).map Prod.fst = l.map Prod.fst := by
  simp [onValue, Function.comp_def]

theorem window_onValue (φ : β → γ) (lo hi : α) (l : List (α × β)) :
    window lo hi (l.map (onValue φ)) = (window lo hi l).map (onValue φ) := by
  unfold window
  rw [List.filter_map]
  rfl

theorem dropFirstZero_onValue (φ : β → γ) : ∀ l : List (α × β),
    dropFirstZero (l.map (onValue φ)) = (dropFirstZero l).map (onValue φ)
  | [] => rfl
  | [_] => rfl
  | p :: q :: l => by
    have ih := dropFirstZero_onValue φ (q :: l)
    simp only [List.map_cons] at ih
    simp only [List.map_cons, dropFirstZero]
    by_cases h : q.1 - p.1 = 0
    · rw [if_pos h, if_pos (by simpa [onValue] using h)]; rfl
    · rw [if_neg h, if_neg (by simpa [onValue] using h), ih]; rfl

theorem dedup_onValue (φ : β → γ) (n : Nat) : ∀ l : List (α × β),
    dedup n (l.map (onValue φ)) = (dedup n l).map (List.map (onValue φ)) := by
  induction n with
  | zero => intro l; rfl
  | succ n ih =>
    intro l
    rw [dedup, dedup, map_onValue_fst]
    cases minE (diffs (l.map Prod.fst)) with
    | error e => rfl
    | ok m =>
      simp only
      split
      · rw [dropFirstZero_onValue, ih]
      · rfl

theorem insertionSort_onValue (φ : β → γ) (l : List (α × β)) :
    (l.map (onValue φ)).insertionSort (fun p q => p.1 ≤ q.1) =
      (l.insertionSort (fun p q => p.1 ≤ q.1)).map (onValue φ) := by
  symm
  apply List.map_insertionSort
  intro a _ b _
  simp [onValue]

/-- Pointwise linear combination of two samples; NaN (no sample) if one of them is. -/
def lin (a b : α) : Option α → Option α → Option α
  | some u, some v => some (a * u + b * v)
  | _, _ => none

theorem mean_linear (a b : α) (l : List (α × α)) :
    mean (l.map (fun p => a * p.1 + b * p.2)) = lin a b (mean (l.map Prod.fst)) (mean (l.map Prod.snd)) := by
  have hs : (l.map (fun p => a * p.1 + b * p.2)).sum = a * (l.map Prod.fst).sum + b * (l.map Prod.snd).sum := by
    induction l with
    | nil => simp
    | cons p l ih => simp only [List.map_cons, List.sum_cons, ih]; ring
  unfold mean
  by_cases h : l = []
  · simp [h, lin]
  · rw [if_neg (by simpa using h), if_neg (by simpa using h), if_neg (by simpa using h)]
    simp only [lin, List.length_map, hs]
    congr 1
    ring

/-- The points of a bin with whatever they carry. -/
def pointsInBin (lo hi : α) (isLast : Bool) (pts : List (α × β)) : List (α × β) :=
  pts.filter (fun p => decide (lo ≤ p.1) && (decide (p.1 < hi) || (isLast && decide (p.1 = hi))))

theorem inBin_onValue (φ : β → α) (lo hi : α) (b : Bool) (l : List (α × β)) :
    inBin lo hi b (l.map (onValue φ)) = (pointsInBin lo hi b l).map (fun p => φ p.2) := by
  unfold inBin pointsInBin
  rw [List.filter_map, List.map_map]
  rfl

theorem binMeans_linear (a b : α) (l : List (α × α × α)) : ∀ e : List α,
    binMeans (l.map (onValue (fun v => a * v.1 + b * v.2))) e =
      List.zipWith (lin a b) (binMeans (l.map (onValue Prod.fst)) e) (binMeans (l.map (onValue Prod.snd)) e)
  | [] => rfl
  | [_] => rfl
  | lo :: hi :: rest => by
    simp only [binMeans, List.zipWith_cons_cons]
    rw [binMeans_linear a b l (hi :: rest), inBin_onValue, inBin_onValue, inBin_onValue]
    congr 1
    have := mean_linear a b ((pointsInBin lo hi rest.isEmpty l).map Prod.snd)
    simpa [List.map_map, Function.comp_def] using this

theorem binMeans_isSome (φ ψ : β → α) (l : List (α × β)) : ∀ e : List α,
    (binMeans (l.map (onValue φ)) e).map Option.isSome = (binMeans (l.map (onValue ψ)) e).map Option.isSome
  | [] => rfl
  | [_] => rfl
  | lo :: hi :: rest => by
    simp only [binMeans, List.map_cons]
    rw [binMeans_isSome φ ψ l (hi :: rest), inBin_onValue, inBin_onValue]
    congr 1
    unfold mean
    by_cases h : pointsInBin lo hi rest.isEmpty l = []
    · simp [h]
    · rw [if_neg (by simpa using h), if_neg (by simpa using h)]; rfl

theorem segment_linear (a b x : α) : ∀ (l : List (α × α × α)) (lo : α × α × α),
    segment (onValue (fun v => a * v.1 + b * v.2) lo) (l.map (onValue (fun v => a * v.1 + b * v.2))) x =
      a * segment (onValue Prod.fst lo) (l.map (onValue Prod.fst)) x +
      b * segment (onValue Prod.snd lo) (l.map (onValue Prod.snd)) x
  | [], lo => by simp [segment, onValue]
  | hi :: l, lo => by
    have ih := segment_linear a b x l hi
    simp only [List.map_cons, segment]
    by_cases h : x ≤ hi.1
    · rw [if_pos (by simpa [onValue] using h), if_pos (by simpa [onValue] using h), if_pos (by simpa [onValue] using h)]
      simp only [onValue]; ring
    · rw [if_neg (by simpa [onValue] using h), if_neg (by simpa [onValue] using h), if_neg (by simpa [onValue] using h), ih]

theorem lastX_onValue (φ : β → α) (lo : α × β) (l : List (α × β)) :
    lastX (onValue φ lo) (l.map (onValue φ)) = ((lo :: l).getLast (by simp)).1 := by
  unfold lastX
  have : onValue φ lo :: l.map (onValue φ) = (lo :: l).map (onValue φ) := rfl
  simp only [this, List.getLast_map]
  rfl

theorem interpSorted_cons (φ : β → α) (lo : α × β) (l : List (α × β)) (x : α) :
    interpSorted ((lo :: l).map (onValue φ)) x =
      if x < lo.1 then 0 else if ((lo :: l).getLast (by simp)).1 < x then 0
      else segment (onValue φ lo) (l.map (onValue φ)) x := by
  simp only [List.map_cons, interpSorted, lastX_onValue]
  rfl

theorem interpSorted_linear (a b x : α) (l : List (α × α × α)) :
    interpSorted (l.map (onValue (fun v => a * v.1 + b * v.2))) x =
      a * interpSorted (l.map (onValue Prod.fst)) x + b * interpSorted (l.map (onValue Prod.snd)) x := by
  cases l with
  | nil => simp [interpSorted]
  | cons lo l =>
    rw [interpSorted_cons, interpSorted_cons, interpSorted_cons]
    split
    · ring
    · split
      · ring
      · exact segment_linear a b x l lo

theorem interp_linear (a b x : α) (l : List (α × α × α)) :
    interp (l.map (onValue (fun v => a * v.1 + b * v.2))) x =
      a * interp (l.map (onValue Prod.fst)) x + b * interp (l.map (onValue Prod.snd)) x := by
  unfold interp
  rw [insertionSort_onValue, insertionSort_onValue, insertionSort_onValue]
  exact interpSorted_linear a b x _

/-- Resampling decides the branch from the grids alone. -/
theorem resample_linear (a b : α) (x : List α) (l : List (α × α × α)) :
    (∃ e, ∀ φ : α × α → α, resample x (l.map (onValue φ)) = .error e) ∨
    (∃ f g, resample x (l.map (onValue Prod.fst)) = .ok f ∧ resample x (l.map (onValue Prod.snd)) = .ok g ∧
      f.map Option.isSome = g.map Option.isSome ∧
      resample x (l.map (onValue (fun v => a * v.1 + b * v.2))) = .ok (List.zipWith (lin a b) f g)) := by
  unfold resample
  simp only [map_onValue_fst]
  cases maxE (diffs (l.map Prod.fst)) with
  | error e => exact Or.inl ⟨e, fun _ => rfl⟩
  | ok mp =>
    cases minE (diffs x) with
    | error e => exact Or.inl ⟨e, fun _ => rfl⟩
    | ok mx =>
      right
      simp only
      split
      · exact ⟨_, _, rfl, rfl, binMeans_isSome _ _ _ _, by rw [binMeans_linear]⟩
      · refine ⟨_, _, rfl, rfl, by simp [Function.comp_def], ?_⟩
        simp only [interp_linear, List.zipWith_map, List.zipWith_self, lin]

/-- C27 on a list of points carrying two values. -/
theorem rebin_linear_points (a b : α) (x : List α) (l : List (α × α × α)) :
    (∃ e, ∀ φ : α × α → α, rebin x (l.map (onValue φ)) = .error e) ∨
    (∃ x' f g, rebin x (l.map (onValue Prod.fst)) = .ok (x', f) ∧ rebin x (l.map (onValue Prod.snd)) = .ok (x', g) ∧
      f.map Option.isSome = g.map Option.isSome ∧
      rebin x (l.map (onValue (fun v => a * v.1 + b * v.2))) = .ok (x', List.zipWith (lin a b) f g)) := by
  unfold rebin
  cases minE x with
  | error e => exact Or.inl ⟨e, fun _ => rfl⟩
  | ok lo =>
    cases maxE x with
    | error e => exact Or.inl ⟨e, fun _ => rfl⟩
    | ok hi =>
      simp only [window_onValue, dedup_onValue, List.length_map]
      cases dedup ((window lo hi l).length + 1) (window lo hi l) with
      | error e => exact Or.inl ⟨e, fun _ => rfl⟩
      | ok l' =>
        simp only [Except.map]
        cases dedupGrid x with
        | error e => exact Or.inl ⟨e, fun _ => rfl⟩
        | ok x' =>
          simp only
          rcases resample_linear a b x' l' with ⟨e, he⟩ | ⟨f, g, hf, hg, hs, hfg⟩
          · left
            exact ⟨e, fun φ => by rw [he φ]⟩
          · right
            exact ⟨x', f, g, by rw [hf], by rw [hg], hs, by rw [hfg]⟩

theorem zip_zip_onValue (φ : α × α → α) : ∀ (xp f g : List α),
    (xp.zip (f.zip g)).map (onValue φ) = xp.zip (List.zipWith (fun u v => φ (u, v)) f g)
  | [], f, g => by simp
  | _ :: _, [], g => by simp
  | _ :: _, _ :: _, [] => by simp
  | x :: xp, u :: f, v :: g => by
    simp only [List.zip_cons_cons, List.map_cons, List.zipWith_cons_cons]
    rw [zip_zip_onValue φ xp f g]
    rfl

theorem zipWith_left {f g : List α} (h : f.length = g.length) : List.zipWith (fun u _ => u) f g = f := by
  induction f generalizing g with
  | nil => simp
  | cons u f ih => cases g with
    | nil => simp at h
    | cons v g => simp only [List.zipWith_cons_cons]; rw [ih (by simpa using h)]

theorem zipWith_right {f g : List α} (h : f.length = g.length) : List.zipWith (fun _ v => v) f g = g := by
  induction f generalizing g with
  | nil => cases g <;> simp_all
  | cons u f ih => cases g with
    | nil => simp at h
    | cons v g => simp only [List.zipWith_cons_cons]; rw [ih (by simpa using h)]

/-- C27: on a fixed pair of grids, whether `rebin` succeeds and the grid it returns do not depend on the
values, and rebinning `a*f + b*g` gives `a*rebin f + b*rebin g`, point by point (with NaN where there is no
data, which is at the same points for all three). -/
theorem rebin_linear (x xp f g : List α) (a b : α) (hfg : f.length = g.length) :
    (∃ e, rebin x (xp.zip f) = .error e ∧ rebin x (xp.zip g) = .error e ∧
      rebin x (xp.zip (List.zipWith (fun u v => a * u + b * v) f g)) = .error e) ∨
    (∃ x' rf rg, rebin x (xp.zip f) = .ok (x', rf) ∧ rebin x (xp.zip g) = .ok (x', rg) ∧
      rf.map Option.isSome = rg.map Option.isSome ∧
      rebin x (xp.zip (List.zipWith (fun u v => a * u + b * v) f g)) = .ok (x', List.zipWith (lin a b) rf rg)) := by
  have h1 := zip_zip_onValue (Prod.fst) xp f g
  have h2 := zip_zip_onValue (Prod.snd) xp f g
  have h3 := zip_zip_onValue (fun v => a * v.1 + b * v.2) xp f g
  simp only [zipWith_left hfg] at h1
  simp only [zipWith_right hfg] at h2
  rw [← h1, ← h2, ← h3]
  rcases rebin_linear_points a b x (xp.zip (f.zip g)) with ⟨e, he⟩ | ⟨x', rf, rg, k1, k2, k3, k4⟩
  · exact Or.inl ⟨e, he _, he _, he _⟩
  · exact Or.inr ⟨x', rf, rg, k1, k2, k3, k4⟩

theorem getD_linear (a b : α) : ∀ f g : List (Option α), f.map Option.isSome = g.map Option.isSome →
    (List.zipWith (lin a b) f g).map (fun v => v.getD 0) =
      List.zipWith (fun u v => a * u + b * v) (f.map (fun v => v.getD 0)) (g.map (fun v => v.getD 0))
  | [], _, _ => by simp
  | _ :: _, [], _ => by simp
  | u :: f, v :: g, h => by
    simp only [List.map_cons, List.cons.injEq] at h
    simp only [List.zipWith_cons_cons, List.map_cons]
    rw [getD_linear a b f g h.2]
    congr 1
    cases u <;> cases v <;> simp_all [lin]

/-- C27 for signals: `spectral_rebin` is linear in the data. -/
theorem spectralRebin_linear (wl f g new : List α) (a b : α) (hfg : f.length = g.length)
    (sf sg : Signal α) (hf : (Signal.mk wl f).spectralRebin new = .ok sf) (hg : (Signal.mk wl g).spectralRebin new = .ok sg) :
    (Signal.mk wl (List.zipWith (fun u v => a * u + b * v) f g)).spectralRebin new =
      .ok ⟨new, List.zipWith (fun u v => a * u + b * v) sf.data sg.data⟩ := by
  unfold Signal.spectralRebin at hf hg ⊢
  simp only at hf hg ⊢
  rcases rebin_linear new wl f g a b hfg with ⟨e, he, _⟩ | ⟨x', rf, rg, k1, k2, k3, k4⟩
  · rw [he] at hf; cases hf
  · rw [k1] at hf
    rw [k2] at hg
    rw [k4]
    simp only [Except.ok.injEq] at hf hg ⊢
    subst hf hg
    simp only [getD_linear a b rf rg k3]

/-! ## Increasing grids -/

theorem diffs_pos : ∀ l : List α, l.Pairwise (· < ·) → ∀ d ∈ diffs l, 0 < d
  | [], _, d, h => by simp [diffs] at h
  | [_], _, d, h => by simp [diffs] at h
  | a :: b :: l, hp, d, h => by
    simp only [diffs, List.mem_cons] at h
    rcases h with rfl | h
    · have := (List.pairwise_cons.mp hp).1 b (by simp); linarith
    · exact diffs_pos (b :: l) (List.pairwise_cons.mp hp).2 d h

theorem diffs_length : ∀ l : List α, (diffs l).length = l.length - 1
  | [] => rfl
  | [_] => rfl
  | a :: b :: l => by simp [diffs, diffs_length (b :: l)]

theorem diffs_getElem : ∀ (l : List α) (i : Nat) (h : i + 1 < l.length),
    (diffs l)[i]'(by rw [diffs_length]; omega) = l[i + 1] - l[i]
  | [], i, h => by simp at h
  | [_], i, h => by simp at h
  | a :: b :: l, 0, h => by simp [diffs]
  | a :: b :: l, i + 1, h => by
    simp only [diffs, List.getElem_cons_succ]
    exact diffs_getElem (b :: l) i (by simpa using h)

/-- A grid without equal neighbours is returned unchanged. -/
theorem dedupGrid_id (x : List α) (h0 : (0 : α) ∉ diffs x) (hl : 2 ≤ x.length) : dedupGrid x = .ok x := by
  unfold dedupGrid
  have hm : (x.map (fun t => (t, ()))).map Prod.fst = x := by simp [Function.comp_def]
  rw [dedup_id _ _ (by rw [hm]; exact h0) (by simpa using hl)]
  simp only [hm]

theorem dedup_length (n : Nat) (l l' : List (α × β)) (h : dedup (n + 1) l = .ok l') : 2 ≤ l.length := by
  rw [dedup] at h
  split at h
  · cases h
  rename_i m hm
  have := (minE_spec hm).1
  have hd := diffs_length (l.map Prod.fst)
  have : 0 < (diffs (l.map Prod.fst)).length := List.length_pos_of_mem this
  simp only [List.length_map] at hd
  omega

theorem window_mem {lo hi : α} {pts : List (α × β)} {p : α × β} :
    p ∈ window lo hi pts ↔ p ∈ pts ∧ 9 / 10 * lo < p.1 ∧ p.1 < 11 / 10 * hi := by
  simp [window]

/-- What `rebin` does on increasing grids. -/
theorem rebin_increasing (x x' : List α) (pts : List (α × α)) (f : List (Option α)) (hx : x.Pairwise (· < ·))
    (hp : pts.Pairwise (fun p q => p.1 < q.1)) (h : rebin x pts = .ok (x', f)) :
    x' = x ∧ 2 ≤ x.length ∧ ∃ lo hi, minE x = .ok lo ∧ maxE x = .ok hi ∧
      resample x (window lo hi pts) = .ok f := by
  obtain ⟨lo, hi, pts', h1, h2, h3, h4, h5⟩ := rebin_ok x x' pts f h
  have hlx : 2 ≤ x.length := by
    unfold dedupGrid at h4
    split at h4
    · cases h4
    rename_i l hl
    simpa using dedup_length _ _ _ hl
  have hx0 : (0 : α) ∉ diffs x := fun hm => lt_irrefl _ (diffs_pos x hx 0 hm)
  rw [dedupGrid_id x hx0 hlx] at h4
  simp only [Except.ok.injEq] at h4
  have hw : (window lo hi pts).Pairwise (fun p q => p.1 < q.1) := hp.sublist (window_sublist _ _ _)
  have hw0 : (0 : α) ∉ diffs ((window lo hi pts).map Prod.fst) := fun hm =>
    lt_irrefl _ (diffs_pos _ (List.pairwise_map.mpr hw) 0 hm)
  rw [dedup_id _ _ hw0 (dedup_length _ _ _ h3)] at h3
  simp only [Except.ok.injEq] at h3
  subst h3 h4
  exact ⟨rfl, hlx, lo, hi, h1, h2, h5⟩

/-! ## C28, C29: interpolation -/

theorem interp_sorted (pts : List (α × α)) (hp : pts.Pairwise (fun p q => p.1 < q.1)) (x : α) :
    interp pts x = interpSorted pts x := by
  unfold interp
  rw [List.Pairwise.insertionSort_eq]
  exact hp.imp (fun h => h.le)

theorem segment_line (c d : α) : ∀ (l : List (α × α)) (lo : α × α) (x : α),
    (lo :: l).Pairwise (fun p q => p.1 < q.1) → (∀ p ∈ lo :: l, p.2 = c * p.1 + d) → lo.1 ≤ x → x ≤ lastX lo l →
    segment lo l x = c * x + d
  | [], lo, x, _, h, h1, h2 => by
    simp only [lastX, List.getLast_singleton] at h2
    have : x = lo.1 := le_antisymm h2 h1
    rw [segment, this]; exact h lo (by simp)
  | hi :: l, lo, x, hp, h, h1, h2 => by
    rw [segment]
    split
    · have hlt := (List.pairwise_cons.mp hp).1 hi (by simp)
      have hne : hi.1 - lo.1 ≠ 0 := by linarith [sub_pos.mpr hlt] |> fun (h : 0 < hi.1 - lo.1) => h.ne'
      rw [h lo (by simp), h hi (by simp)]
      field_simp
      ring
    · rename_i hx
      refine segment_line c d l hi x (List.pairwise_cons.mp hp).2
        (fun p hm => h p (by simp only [List.mem_cons] at hm ⊢; tauto)) (not_le.mp hx).le ?_
      simpa [lastX] using h2

theorem lastX_ge (lo : α × α) (l : List (α × α)) (hp : (lo :: l).Pairwise (fun p q => p.1 < q.1)) :
    ∀ p ∈ lo :: l, p.1 ≤ lastX lo l := by
  induction l generalizing lo with
  | nil => intro p hm; simp only [List.mem_singleton] at hm; simp [lastX, hm]
  | cons q l ih =>
    intro p hm
    have hq := ih q (List.pairwise_cons.mp hp).2
    have e : lastX lo (q :: l) = lastX q l := by simp [lastX]
    rw [e]
    rcases List.mem_cons.mp hm with rfl | hm
    · exact ((List.pairwise_cons.mp hp).1 q (by simp)).le.trans (hq q (by simp))
    · exact hq p hm

theorem lastX_mem (lo : α × α) (l : List (α × α)) : ∃ p ∈ lo :: l, lastX lo l = p.1 :=
  ⟨_, List.getLast_mem (by simp), rfl⟩

/-- Interpolation reproduces straight lines between two samples. -/
theorem interp_line (pts : List (α × α)) (hp : pts.Pairwise (fun p q => p.1 < q.1)) (c d x : α)
    (hline : ∀ p ∈ pts, p.2 = c * p.1 + d) (p q : α × α) (hpm : p ∈ pts) (hqm : q ∈ pts) (h1 : p.1 ≤ x) (h2 : x ≤ q.1) :
    interp pts x = c * x + d := by
  rw [interp_sorted pts hp]
  cases pts with
  | nil => cases hpm
  | cons lo l =>
    rw [interpSorted]
    have hlo : lo.1 ≤ p.1 := by
      rcases List.mem_cons.mp hpm with rfl | hm
      · exact le_refl _
      · exact ((List.pairwise_cons.mp hp).1 p hm).le
    have hlast := lastX_ge lo l hp q hqm
    rw [if_neg (not_lt.mpr (hlo.trans h1)), if_neg (not_lt.mpr (h2.trans hlast))]
    exact segment_line c d l lo x hp hline (hlo.trans h1) (h2.trans hlast)

theorem segment_node : ∀ (l : List (α × α)) (lo : α × α) (p : α × α),
    (lo :: l).Pairwise (fun p q => p.1 < q.1) → p ∈ lo :: l → segment lo l p.1 = p.2
  | [], lo, p, _, hm => by simp only [List.mem_singleton] at hm; simp [segment, hm]
  | hi :: l, lo, p, hp, hm => by
    rw [segment]
    have hlt := (List.pairwise_cons.mp hp).1 hi (by simp)
    rcases List.mem_cons.mp hm with rfl | hm
    · rw [if_pos hlt.le]; simp
    · rcases List.mem_cons.mp hm with rfl | hm'
      · rw [if_pos (le_refl _), div_mul_cancel₀]
        · ring
        · exact (sub_pos.mpr hlt).ne'
      · have := (List.pairwise_cons.mp (List.pairwise_cons.mp hp).2).1 p hm'
        rw [if_neg (not_le.mpr this)]
        exact segment_node l hi p (List.pairwise_cons.mp hp).2 hm

/-- Interpolation returns the input value at a node. -/
theorem interp_node (pts : List (α × α)) (hp : pts.Pairwise (fun p q => p.1 < q.1)) (p : α × α) (hm : p ∈ pts) :
    interp pts p.1 = p.2 := by
  rw [interp_sorted pts hp]
  cases pts with
  | nil => cases hm
  | cons lo l =>
    rw [interpSorted]
    have hlo : lo.1 ≤ p.1 := by
      rcases List.mem_cons.mp hm with rfl | hm
      · exact le_refl _
      · exact ((List.pairwise_cons.mp hp).1 p hm).le
    rw [if_neg (not_lt.mpr hlo), if_neg (not_lt.mpr (lastX_ge lo l hp p hm))]
    exact segment_node l lo p hp hm

/-- Interpolation gives 0 where all samples are on one side. -/
theorem interp_outside (pts : List (α × α)) (x : α) (h : (∀ p ∈ pts, x < p.1) ∨ (∀ p ∈ pts, p.1 < x)) :
    interp pts x = 0 := by
  unfold interp
  have hm : ∀ p, p ∈ pts.insertionSort (fun p q => p.1 ≤ q.1) ↔ p ∈ pts := fun p => List.mem_insertionSort _
  generalize pts.insertionSort (fun p q => p.1 ≤ q.1) = l at hm
  cases l with
  | nil => rfl
  | cons lo l =>
    rw [interpSorted]
    split
    · rfl
    · rename_i h1
      rcases h with h | h
      · exact absurd (h lo ((hm lo).mp (by simp))) h1
      · obtain ⟨p, hp, e⟩ := lastX_mem lo l
        rw [if_pos (by rw [e]; exact h p ((hm p).mp hp))]

/-! ## C28, C29: averaging -/

theorem binMeans_length (pts : List (α × α)) : ∀ e : List α, (binMeans pts e).length = e.length - 1
  | [] => rfl
  | [_] => rfl
  | lo :: hi :: rest => by simp [binMeans, binMeans_length pts (hi :: rest)]

theorem binMeans_getElem? (pts : List (α × α)) : ∀ (e : List α) (i : Nat) (h : i + 1 < e.length),
    (binMeans pts e)[i]? = some (mean (inBin e[i] e[i + 1] (decide (i + 2 = e.length)) pts))
  | [], i, h => by simp at h
  | [_], i, h => by simp at h
  | lo :: hi :: rest, 0, h => by
    have : rest.isEmpty = decide (0 + 2 = (lo :: hi :: rest).length) := by cases rest <;> simp
    simp [binMeans, this]
  | lo :: hi :: rest, i + 1, h => by
    rw [binMeans, List.getElem?_cons_succ, binMeans_getElem? pts (hi :: rest) i (by simpa using h)]
    simp

theorem mids_length : ∀ l : List α, (mids l).length = l.length - 1
  | [] => rfl
  | [_] => rfl
  | a :: b :: l => by simp [mids, mids_length (b :: l)]

theorem mids_getElem : ∀ (l : List α) (i : Nat) (h : i + 1 < l.length),
    (mids l)[i]'(by rw [mids_length]; omega) = (l[i + 1] + l[i]) / 2
  | [], i, h => by simp at h
  | [_], i, h => by simp at h
  | a :: b :: l, 0, h => by simp [mids]
  | a :: b :: l, i + 1, h => by
    simp only [mids, List.getElem_cons_succ]
    exact mids_getElem (b :: l) i (by simpa using h)

/-- Left end of the `i`-th output bin: half way to the previous grid point, or a quarter of the first
step below the first point. -/
def binLo (x : List α) (i : Nat) : α :=
  if i = 0 then x.getD 0 0 - (x.getD 1 0 - x.getD 0 0) / 4 else (x.getD (i - 1) 0 + x.getD i 0) / 2

/-- Right end of the `i`-th output bin. -/
def binHi (x : List α) (i : Nat) : α :=
  if i + 1 = x.length then x.getD i 0 + (x.getD i 0 - x.getD (i - 1) 0) / 4 else (x.getD i 0 + x.getD (i + 1) 0) / 2

theorem mids_ne (a b : α) (l : List α) : mids (a :: b :: l) ≠ [] := by
  intro h
  have := congrArg List.length h
  rw [mids_length] at this
  simp at this

theorem edges_eq (a b : α) (l : List α) : edges (a :: b :: l) =
    (a - ((b + a) / 2 - a) / 2) :: (mids (a :: b :: l) ++
      [(a :: b :: l).getLast (by simp) + ((a :: b :: l).getLast (by simp) - (mids (a :: b :: l)).getLast (mids_ne a b l)) / 2]) := by
  simp only [edges, mids]
  rfl

theorem edges_length (x : List α) (h : 2 ≤ x.length) : (edges x).length = x.length + 1 := by
  rcases x with _ | ⟨a, _ | ⟨b, l⟩⟩
  · simp at h
  · simp at h
  · rw [edges_eq]; simp [mids_length]

theorem edges_lo (x : List α) (h : 2 ≤ x.length) (i : Nat) (hi : i < x.length) :
    (edges x)[i]? = some (binLo x i) := by
  rcases x with _ | ⟨a, _ | ⟨b, l⟩⟩
  · simp at h
  · simp at h
  · rw [edges_eq]
    cases i with
    | zero => simp [binLo]; ring
    | succ i =>
      rw [List.getElem?_cons_succ, List.getElem?_append_left (by rw [mids_length]; simp at hi ⊢; omega),
        List.getElem?_eq_getElem (by rw [mids_length]; simp at hi ⊢; omega), mids_getElem _ _ hi]
      have h1 : (a :: b :: l)[i + 1]? = some ((a :: b :: l)[i + 1]) := List.getElem?_eq_getElem hi
      have h2 : (a :: b :: l)[i]? = some ((a :: b :: l)[i]'(by omega)) := List.getElem?_eq_getElem _
      simp only [binLo, Nat.add_sub_cancel, List.getD_eq_getElem?_getD, h1, h2, Option.getD_some]
      rw [if_neg (by omega), add_comm]

theorem edges_hi (x : List α) (h : 2 ≤ x.length) (i : Nat) (hi : i < x.length) :
    (edges x)[i + 1]? = some (binHi x i) := by
  by_cases hl : i + 1 = x.length
  · rcases x with _ | ⟨a, _ | ⟨b, l⟩⟩
    · simp at h
    · simp at h
    · rw [edges_eq, List.getElem?_cons_succ, List.getElem?_append_right (by rw [mids_length]; omega)]
      have e0 : i - (mids (a :: b :: l)).length = 0 := by rw [mids_length]; omega
      rw [e0]
      have hk : i = l.length + 1 := by simp at hl; omega
      subst hk
      have h1 : (a :: b :: l).getLast (by simp) = (a :: b :: l)[l.length + 1] := by
        rw [List.getLast_eq_getElem]; simp
      have h2 : (mids (a :: b :: l)).getLast (mids_ne a b l) = ((a :: b :: l)[l.length + 1] + (a :: b :: l)[l.length]'(by simp only [List.length_cons]; omega)) / 2 := by
        rw [List.getLast_eq_getElem, ← mids_getElem _ l.length (by simp)]
        congr 1
        rw [mids_length]; simp
      have h3 : (a :: b :: l)[l.length + 1]? = some ((a :: b :: l)[l.length + 1]) := List.getElem?_eq_getElem hi
      have h4 : (a :: b :: l)[l.length]? = some ((a :: b :: l)[l.length]'(by omega)) := List.getElem?_eq_getElem _
      rw [h1, h2]
      simp only [binHi, List.getD_eq_getElem?_getD, Nat.add_sub_cancel, h3, h4, Option.getD_some,
        List.length_cons, if_true, List.getElem?_cons_zero]
      congr 1
      ring
  · rw [edges_lo x h (i + 1) (by omega)]
    simp [binLo, binHi, hl]

/-- The samples that count: those above 0.9 times some output point and below 1.1 times some output point. -/
def kept (x : List α) (pts : List (α × α)) : List (α × α) :=
  pts.filter (fun p => x.any (fun y => decide (9 / 10 * y < p.1)) && x.any (fun y => decide (p.1 < 11 / 10 * y)))

theorem kept_eq {x : List α} {lo hi : α} (hlo : minE x = .ok lo) (hhi : maxE x = .ok hi) (pts : List (α × α)) :
    window lo hi pts = kept x pts := by
  obtain ⟨l1, l2⟩ := minE_spec hlo
  obtain ⟨h1, h2⟩ := maxE_spec hhi
  unfold window kept
  apply List.filter_congr
  intro p _
  congr 1
  · rw [Bool.eq_iff_iff, List.any_eq_true, decide_eq_true_iff]
    constructor
    · intro h; exact ⟨lo, l1, by simpa using h⟩
    · rintro ⟨y, hy, h⟩
      have := l2 y hy
      simp only [decide_eq_true_eq] at h
      linarith
  · rw [Bool.eq_iff_iff, List.any_eq_true, decide_eq_true_iff]
    constructor
    · intro h; exact ⟨hi, h1, by simpa using h⟩
    · rintro ⟨y, hy, h⟩
      have := h2 y hy
      simp only [decide_eq_true_eq] at h
      linarith

/-- All steps of the samples that count are smaller than all steps of the output grid: `rebin` averages. -/
def Averages (x : List α) (pts : List (α × α)) : Prop :=
  ∀ a ∈ diffs ((kept x pts).map Prod.fst), ∀ b ∈ diffs x, a < b

/-- On increasing grids `rebin` either averages over bins or interpolates, depending on the steps only. -/
theorem rebin_branches (x x' : List α) (pts : List (α × α)) (f : List (Option α)) (hx : x.Pairwise (· < ·))
    (hp : pts.Pairwise (fun p q => p.1 < q.1)) (h : rebin x pts = .ok (x', f)) :
    x' = x ∧ 2 ≤ x.length ∧ (Averages x pts → f = binMeans (kept x pts) (edges x)) ∧
    (¬ Averages x pts → f = x.map (fun t => some (interp (kept x pts) t))) := by
  obtain ⟨e, hl, lo, hi, h1, h2, h3⟩ := rebin_increasing x x' pts f hx hp h
  rw [kept_eq h1 h2] at h3
  refine ⟨e, hl, ?_⟩
  unfold resample at h3
  split at h3
  · cases h3
  rename_i mp hmp
  split at h3
  · cases h3
  rename_i mx hmx
  obtain ⟨m1, m2⟩ := maxE_spec hmp
  obtain ⟨n1, n2⟩ := minE_spec hmx
  split at h3
  · rename_i hlt
    simp only [Except.ok.injEq] at h3
    refine ⟨fun _ => h3.symm, fun hn => absurd ?_ hn⟩
    intro a ha b hb
    exact (m2 a ha).trans_lt (hlt.trans_le (n2 b hb))
  · rename_i hlt
    simp only [Except.ok.injEq] at h3
    exact ⟨fun ha => absurd (ha mp m1 mx n1) hlt, fun _ => h3.symm⟩

/-- Exact meaning of the averaging branch: every output sample is the mean of the input samples within its
bin (the last bin is closed on the right), NaN when there is none. -/
theorem rebin_averaging (x x' : List α) (pts : List (α × α)) (f : List (Option α)) (hx : x.Pairwise (· < ·))
    (hp : pts.Pairwise (fun p q => p.1 < q.1)) (h : rebin x pts = .ok (x', f)) (hb : Averages x pts) :
    x' = x ∧ f.length = x.length ∧ ∀ i < x.length,
      f[i]? = some (mean (((kept x pts).filter (fun p => decide (binLo x i ≤ p.1) &&
        (decide (p.1 < binHi x i) || (decide (i + 1 = x.length) && decide (p.1 = binHi x i))))).map Prod.snd)) := by
  obtain ⟨e, hl, hA, _⟩ := rebin_branches x x' pts f hx hp h
  have hf := hA hb
  refine ⟨e, ?_, ?_⟩
  · rw [hf, binMeans_length, edges_length x hl]; omega
  · intro i hi
    have he : i + 1 < (edges x).length := by rw [edges_length x hl]; omega
    have e1 := edges_lo x hl i hi
    have e2 := edges_hi x hl i hi
    rw [List.getElem?_eq_getElem (by omega), Option.some.injEq] at e1
    rw [List.getElem?_eq_getElem he, Option.some.injEq] at e2
    rw [hf, binMeans_getElem? _ _ _ he, e1, e2]
    have : decide (i + 2 = (edges x).length) = decide (i + 1 = x.length) := by
      rw [edges_length x hl]; congr 1; simp
    rw [this]
    rfl

/-- Exact meaning of the interpolating branch: straight lines are reproduced between two samples, samples at
grid points are returned, and points beyond the samples get 0. -/
theorem rebin_interpolating (x x' : List α) (pts : List (α × α)) (f : List (Option α)) (hx : x.Pairwise (· < ·))
    (hp : pts.Pairwise (fun p q => p.1 < q.1)) (h : rebin x pts = .ok (x', f)) (hb : ¬ Averages x pts) :
    x' = x ∧ f.length = x.length ∧ ∀ i (hi : i < x.length),
      (∀ c d, (∀ p ∈ kept x pts, p.2 = c * p.1 + d) → (∃ p ∈ kept x pts, p.1 ≤ x[i]) → (∃ q ∈ kept x pts, x[i] ≤ q.1) →
        f[i]? = some (some (c * x[i] + d))) ∧
      (∀ p ∈ kept x pts, p.1 = x[i] → f[i]? = some (some p.2)) ∧
      ((∀ p ∈ kept x pts, x[i] < p.1) ∨ (∀ p ∈ kept x pts, p.1 < x[i]) → f[i]? = some (some 0)) := by
  obtain ⟨e, hl, _, hI⟩ := rebin_branches x x' pts f hx hp h
  have hf := hI hb
  have hk : (kept x pts).Pairwise (fun p q => p.1 < q.1) := hp.sublist List.filter_sublist
  refine ⟨e, by rw [hf]; simp, ?_⟩
  intro i hi
  have hfi : f[i]? = some (some (interp (kept x pts) x[i])) := by
    rw [hf, List.getElem?_map, List.getElem?_eq_getElem hi]; rfl
  rw [hfi]
  refine ⟨?_, ?_, ?_⟩
  · rintro c d hline ⟨p, hpm, h1⟩ ⟨q, hqm, h2⟩
    rw [interp_line _ hk c d _ hline p q hpm hqm h1 h2]
  · intro p hpm e
    rw [← e, interp_node _ hk p hpm]
  · intro h
    rw [interp_outside _ _ h]

/-- Between two samples closer than the width of a bin there is a sample of the bin. -/
theorem exists_sample (w lo hi : α) (hw : w ≤ hi - lo) : ∀ (l : List (α × α)),
    (∀ d ∈ diffs (l.map Prod.fst), d < w) → (∃ q ∈ l, lo ≤ q.1) → (∃ p, l.head? = some p ∧ p.1 < hi) →
    ∃ r ∈ l, lo ≤ r.1 ∧ r.1 < hi
  | [], _, ⟨q, hq, _⟩, _ => by cases hq
  | p :: l, hd, ⟨q, hq, hql⟩, ⟨p', hp', hplt⟩ => by
    simp only [List.head?_cons, Option.some.injEq] at hp'
    subst hp'
    by_cases hple : lo ≤ p.1
    · exact ⟨p, by simp, hple, hplt⟩
    · have hqm : q ∈ l := by
        rcases List.mem_cons.mp hq with rfl | h
        · exact absurd hql hple
        · exact h
      cases l with
      | nil => cases hqm
      | cons p2 l =>
        have hstep : p2.1 - p.1 < w := hd _ (by simp [diffs])
        obtain ⟨r, hr, h1, h2⟩ := exists_sample w lo hi hw (p2 :: l)
          (fun d hm => hd d (by simp only [List.map_cons, diffs, List.mem_cons] at hm ⊢; exact Or.inr hm))
          ⟨q, hqm, hql⟩ ⟨p2, rfl, by linarith [not_le.mp hple]⟩
        exact ⟨r, List.mem_cons_of_mem _ hr, h1, h2⟩

theorem mean_const (l : List α) (c : α) (h : ∀ v ∈ l, v = c) (hne : l ≠ []) : mean l = some c := by
  cases hm : mean l with
  | none => simp [mean, hne] at hm
  | some m =>
    have := mean_bounds l c c m hm (fun v hv => by rw [h v hv]; exact ⟨le_refl _, le_refl _⟩)
    rw [le_antisymm this.2 this.1]

theorem binWidth_interior (x : List α) (i : Nat) (h0 : 0 < i) (h1 : i + 1 < x.length)
    (w : α) (hw : ∀ b ∈ diffs x, w ≤ b) : w ≤ binHi x i - binLo x i := by
  obtain ⟨j, rfl⟩ : ∃ j, i = j + 1 := ⟨i - 1, by omega⟩
  have d1 := hw _ (List.getElem_mem (l := diffs x) (n := j) (by rw [diffs_length]; omega))
  have d2 := hw _ (List.getElem_mem (l := diffs x) (n := j + 1) (by rw [diffs_length]; omega))
  rw [diffs_getElem _ _ (by omega)] at d1 d2
  have g0 : x.getD j 0 = x[j]'(by omega) := by simp [List.getD_eq_getElem?_getD, List.getElem?_eq_getElem (show j < x.length by omega)]
  have g1 : x.getD (j + 1) 0 = x[j + 1]'(by omega) := by simp [List.getD_eq_getElem?_getD, List.getElem?_eq_getElem (show j + 1 < x.length by omega)]
  have g2 : x.getD (j + 1 + 1) 0 = x[j + 1 + 1]'(by omega) := by simp [List.getD_eq_getElem?_getD, List.getElem?_eq_getElem (show j + 1 + 1 < x.length by omega)]
  unfold binHi binLo
  rw [if_neg (by omega), if_neg (by omega), Nat.add_sub_cancel, g0, g1, g2]
  linarith

theorem head_le (l : List (α × α)) (hp : l.Pairwise (fun p q => p.1 < q.1)) (p : α × α) (hm : p ∈ l) :
    ∃ p0, l.head? = some p0 ∧ p0.1 ≤ p.1 := by
  cases l with
  | nil => cases hm
  | cons p0 l =>
    refine ⟨p0, rfl, ?_⟩
    rcases List.mem_cons.mp hm with rfl | h
    · exact le_refl _
    · exact ((List.pairwise_cons.mp hp).1 p h).le

theorem bin_contains (x : List α) (hx : x.Pairwise (· < ·)) (i : Nat) (h0 : 0 < i) (h1 : i + 1 < x.length) :
    binLo x i ≤ x[i] ∧ x[i] < binHi x i := by
  obtain ⟨j, rfl⟩ : ∃ j, i = j + 1 := ⟨i - 1, by omega⟩
  have g0 : x.getD j 0 = x[j]'(by omega) := by simp [List.getD_eq_getElem?_getD, List.getElem?_eq_getElem (show j < x.length by omega)]
  have g1 : x.getD (j + 1) 0 = x[j + 1]'(by omega) := by simp [List.getD_eq_getElem?_getD, List.getElem?_eq_getElem (show j + 1 < x.length by omega)]
  have g2 : x.getD (j + 1 + 1) 0 = x[j + 1 + 1]'(by omega) := by simp [List.getD_eq_getElem?_getD, List.getElem?_eq_getElem (show j + 1 + 1 < x.length by omega)]
  have l1 := List.pairwise_iff_getElem.mp hx j (j + 1) (by omega) (by omega) (by omega)
  have l2 := List.pairwise_iff_getElem.mp hx (j + 1) (j + 1 + 1) (by omega) (by omega) (by omega)
  unfold binHi binLo
  rw [if_neg (by omega), if_neg (by omega), Nat.add_sub_cancel, g0, g1, g2]
  constructor <;> linarith

theorem binMean_const (x x' : List α) (pts : List (α × α)) (f : List (Option α)) (hx : x.Pairwise (· < ·))
    (hp : pts.Pairwise (fun p q => p.1 < q.1)) (h : rebin x pts = .ok (x', f)) (hb : Averages x pts) (c : α)
    (hc : ∀ p ∈ kept x pts, p.2 = c) (i : Nat) (hi : i < x.length)
    (r : α × α) (hr : r ∈ kept x pts) (h1 : binLo x i ≤ r.1) (h2 : r.1 < binHi x i) :
    f[i]? = some (some c) := by
  obtain ⟨_, _, hf⟩ := rebin_averaging x x' pts f hx hp h hb
  rw [hf i hi, mean_const _ c]
  · intro v hv
    obtain ⟨p, hpm, rfl⟩ := List.mem_map.mp hv
    exact hc p (List.mem_of_mem_filter hpm)
  · intro he
    have : r.2 ∈ ([] : List α) := by
      rw [← he]
      exact List.mem_map_of_mem (List.mem_filter.mpr ⟨hr, by simp [h1, h2]⟩)
    cases this

/-- C28, the part that holds: on increasing grids a constant spectrum is reproduced at every output point
that lies between two samples that count, in both branches, except that when averaging the first and the
last output point are not covered (their bins are only three quarters of a step wide). Missing: the end
points, and points between samples that `rebin` drops because they are below 0.9 times the smallest or above
1.1 times the largest output point; both fail, see `rebin_constant_lost` and `rebin_end_bin_lost`. -/
theorem rebin_constant_partial (x x' : List α) (pts : List (α × α)) (f : List (Option α)) (hx : x.Pairwise (· < ·))
    (hp : pts.Pairwise (fun p q => p.1 < q.1)) (h : rebin x pts = .ok (x', f)) (c : α)
    (hc : ∀ p ∈ pts, p.2 = c) (i : Nat) (hi : i < x.length) (hends : Averages x pts → 0 < i ∧ i + 1 < x.length)
    (hl : ∃ p ∈ kept x pts, p.1 ≤ x[i]) (hr : ∃ q ∈ kept x pts, x[i] ≤ q.1) :
    f[i]? = some (some c) := by
  have hc' : ∀ p ∈ kept x pts, p.2 = c := fun p hm => hc p (List.mem_of_mem_filter hm)
  by_cases hb : Averages x pts
  · obtain ⟨h0, h1⟩ := hends hb
    have hk : (kept x pts).Pairwise (fun p q => p.1 < q.1) := hp.sublist List.filter_sublist
    obtain ⟨b1, b2⟩ := bin_contains x hx i h0 h1
    obtain ⟨p, hpm, hple⟩ := hl
    obtain ⟨q, hqm, hqle⟩ := hr
    obtain ⟨p0, hp0, hp0le⟩ := head_le _ hk p hpm
    obtain ⟨m, hm⟩ : ∃ m, minE (diffs x) = .ok m := by
      cases hd : diffs x with
      | nil => have := diffs_length x; rw [hd] at this; simp at this; omega
      | cons a l => exact ⟨_, rfl⟩
    obtain ⟨m1, m2⟩ := minE_spec hm
    obtain ⟨r, hr, r1, r2⟩ := exists_sample m (binLo x i) (binHi x i) (binWidth_interior x i h0 h1 m m2) (kept x pts)
      (fun d hd => hb d hd m m1) ⟨q, hqm, b1.trans hqle⟩ ⟨p0, hp0, by linarith⟩
    exact binMean_const x x' pts f hx hp h hb c hc' i hi r hr r1 r2
  · obtain ⟨_, _, hf⟩ := rebin_interpolating x x' pts f hx hp h hb
    have := (hf i hi).1 0 c (fun p hm => by rw [hc' p hm]; ring) hl hr
    simpa using this

theorem zip_fst_prefix : ∀ (a : List α) (b : List α), (a.zip b).map Prod.fst <+: a
  | [], _ => by simp
  | _ :: _, [] => by simp
  | u :: a, v :: b => by simpa using zip_fst_prefix a b

/-- C29: with increasing grids, an output point beyond all samples that count (when interpolating) or whose
bin has none of them (when averaging) is exactly 0 after `spectral_rebin`. -/
theorem spectralRebin_outside (s s' : Signal α) (new : List α) (hx : new.Pairwise (· < ·))
    (hp : s.wl.Pairwise (· < ·)) (h : s.spectralRebin new = .ok s') (i : Nat) (hi : i < new.length)
    (ho : (¬ Averages new (s.wl.zip s.data) ∧ ((∀ p ∈ kept new (s.wl.zip s.data), new[i] < p.1) ∨ (∀ p ∈ kept new (s.wl.zip s.data), p.1 < new[i])))
      ∨ (Averages new (s.wl.zip s.data) ∧ ∀ p ∈ kept new (s.wl.zip s.data), p.1 < binLo new i ∨ binHi new i < p.1)) :
    s'.data[i]? = some 0 := by
  have hz : (s.wl.zip s.data).Pairwise (fun p q => p.1 < q.1) := by
    have : ((s.wl.zip s.data).map Prod.fst).Pairwise (· < ·) := by
      refine hp.sublist ?_
      have hpre : (s.wl.zip s.data).map Prod.fst <+: s.wl := by
        exact zip_fst_prefix _ _
      exact hpre.sublist
    exact List.pairwise_map.mp this
  unfold Signal.spectralRebin at h
  split at h
  · cases h
  rename_i x' f hr
  simp only [Except.ok.injEq] at h
  subst h
  rw [List.getElem?_map]
  rcases ho with ⟨hb, ho⟩ | ⟨hb, ho⟩
  · obtain ⟨_, _, hf⟩ := rebin_interpolating new x' _ f hx hz hr hb
    rw [(hf i hi).2.2 ho]; rfl
  · obtain ⟨_, _, hf⟩ := rebin_averaging new x' _ f hx hz hr hb
    rw [hf i hi]
    have he : (kept new (s.wl.zip s.data)).filter (fun p => decide (binLo new i ≤ p.1) &&
        (decide (p.1 < binHi new i) || (decide (i + 1 = new.length) && decide (p.1 = binHi new i)))) = [] := by
      rw [List.filter_eq_nil_iff]
      intro p hm
      rcases ho p hm with h | h
      · simp [not_le.mpr h]
      · simp [not_lt.mpr h.le, h.ne']
    rw [he]
    rfl

/-! ## C62: a signal already on the grid -/

theorem zip_map_fst : ∀ (a : List α) (b : List α), b.length = a.length → (a.zip b).map Prod.fst = a
  | [], _, _ => by simp
  | _ :: _, [], h => by simp at h
  | u :: a, v :: b, h => by simpa using zip_map_fst a b (by simpa using h)

/-- C62: rebinning a signal onto its own grid (strictly increasing, positive, at least two points) gives the
signal back, so repeating a rebinning changes nothing. -/
theorem spectralRebin_self (s : Signal α) (hw : s.data.length = s.wl.length) (hx : s.wl.Pairwise (· < ·))
    (hpos : ∀ w ∈ s.wl, 0 < w) (hlen : 2 ≤ s.wl.length) : s.spectralRebin s.wl = .ok s := by
  obtain ⟨wl, data⟩ := s
  simp only at hw hx hpos hlen ⊢
  have hfst := zip_map_fst wl data hw
  have hp : (wl.zip data).Pairwise (fun p q => p.1 < q.1) := by
    rw [← hfst] at hx; exact List.pairwise_map.mp hx
  obtain ⟨lo, hlo⟩ : ∃ lo, minE wl = .ok lo := by
    cases wl with
    | nil => simp at hlen
    | cons a l => exact ⟨_, rfl⟩
  obtain ⟨hi, hhi⟩ : ∃ hi, maxE wl = .ok hi := by
    cases wl with
    | nil => simp at hlen
    | cons a l => exact ⟨_, rfl⟩
  obtain ⟨l1, l2⟩ := minE_spec hlo
  obtain ⟨h1, h2⟩ := maxE_spec hhi
  have hwin : window lo hi (wl.zip data) = wl.zip data := by
    unfold window
    rw [List.filter_eq_self]
    intro p hm
    have hm' : p.1 ∈ wl := (List.of_mem_zip hm).1
    have := hpos lo l1
    have := hpos hi h1
    have := l2 _ hm'
    have := h2 _ hm'
    simp only [Bool.and_eq_true, decide_eq_true_eq]
    constructor <;> linarith
  have hx0 : (0 : α) ∉ diffs wl := fun hm => lt_irrefl _ (diffs_pos wl hx 0 hm)
  have hmd : ∃ m, minE (diffs wl) = .ok m := by
    cases hd : diffs wl with
    | nil => have := diffs_length wl; rw [hd] at this; simp at this; omega
    | cons a l => exact ⟨_, rfl⟩
  have hMd : ∃ m, maxE (diffs wl) = .ok m := by
    cases hd : diffs wl with
    | nil => have := diffs_length wl; rw [hd] at this; simp at this; omega
    | cons a l => exact ⟨_, rfl⟩
  obtain ⟨mn, hmn⟩ := hmd
  obtain ⟨mx, hmx⟩ := hMd
  have hge : ¬ mx < mn := not_lt.mpr ((minE_spec hmn).2 _ (maxE_spec hmx).1)
  have hres : resample wl (wl.zip data) = .ok (wl.map (fun t => some (interp (wl.zip data) t))) := by
    unfold resample
    rw [hfst, hmx]
    simp only [hmn, if_neg hge]
  have hre : rebin wl (wl.zip data) = .ok (wl, wl.map (fun t => some (interp (wl.zip data) t))) := by
    unfold rebin
    simp only [hlo, hhi, hwin]
    rw [dedup_id _ _ (by rw [hfst]; exact hx0) (by simp [hw, hlen])]
    simp only [dedupGrid_id wl hx0 hlen, hres]
  unfold Signal.spectralRebin
  simp only [hre]
  congr 2
  rw [List.map_map]
  apply List.ext_getElem (by simp [hw])
  intro i i1 i2
  simp only [List.length_map] at i1
  have hm : (wl[i], data[i]) ∈ wl.zip data := by
    have hz : i < (wl.zip data).length := by simp; omega
    have := List.getElem_mem hz
    rwa [List.getElem_zip] at this
  have := interp_node (wl.zip data) hp _ hm
  simpa using this

/-! ## C30 -/

/-- A signal whose data has one value per wavelength. -/
def Signal.WellFormed (s : Signal α) : Prop := s.data.length = s.wl.length

/-- Rebinning onto a grid without equal neighbours keeps the arrays of equal length. -/
theorem spectralRebin_wellFormed (s s' : Signal α) (new : List α) (hn : (0 : α) ∉ diffs new)
    (h : s.spectralRebin new = .ok s') : s'.WellFormed ∧ s'.wl = new := by
  unfold Signal.spectralRebin at h
  split at h
  · cases h
  rename_i x' f hr
  simp only [Except.ok.injEq] at h
  subst h
  refine ⟨?_, rfl⟩
  obtain ⟨lo, hi, pts', _, _, _, hx, hres⟩ := rebin_ok new x' _ f hr
  have hlx : 2 ≤ new.length := by
    unfold dedupGrid at hx
    split at hx
    · cases hx
    rename_i l hl
    simpa using dedup_length _ _ _ hl
  rw [dedupGrid_id new hn hlx] at hx
  simp only [Except.ok.injEq] at hx
  subst hx
  unfold Signal.WellFormed
  simp only [List.length_map]
  unfold resample at hres
  split at hres
  · cases hres
  split at hres
  · cases hres
  split at hres <;> simp only [Except.ok.injEq] at hres <;> subst hres
  · rw [binMeans_length, edges_length new hlx]; omega
  · simp

/-- Any sequence of rebinnings. -/
def rebinAll (s : Signal α) : List (List α) → Except Exc (Signal α)
  | [] => .ok s
  | g :: gs =>
    match s.spectralRebin g with
    | .error e => .error e
    | .ok s => rebinAll s gs

/-- C30: any sequence of rebinnings onto strictly increasing (or otherwise repetition free) grids keeps a
signal well formed. -/
theorem rebinAll_wellFormed (gs : List (List α)) : ∀ (s s' : Signal α), s.WellFormed →
    (∀ g ∈ gs, (0 : α) ∉ diffs g) → rebinAll s gs = .ok s' → s'.WellFormed := by
  induction gs with
  | nil => intro s s' hw _ h; simp only [rebinAll, Except.ok.injEq] at h; exact h ▸ hw
  | cons g gs ih =>
    intro s s' hw hg h
    rw [rebinAll] at h
    split at h
    · cases h
    rename_i s1 h1
    exact ih s1 s' (spectralRebin_wellFormed s s1 g (hg g (by simp)) h1).1 (fun g hm => hg g (by simp [hm])) h

/-- C30: which shapes the constructor accepts: one wavelength axis, one time axis, data of shape
(wavelength,) with one time, or (wavelength, time). -/
theorem checkSizes_iff (s : Shapes) : checkSizes s = .ok () ↔
    ∃ nw nt, s.wl = [nw] ∧ (s.time = [nt]) ∧ ((s.data = [nw] ∧ nt ≤ 1) ∨ s.data = [nw, nt]) := by
  obtain ⟨w, t, d⟩ := s
  unfold checkSizes
  rcases w with _ | ⟨nw, _ | ⟨_, w⟩⟩ <;> rcases t with _ | ⟨nt, _ | ⟨_, t⟩⟩ <;> rcases d with _ | ⟨d0, _ | ⟨d1, _ | ⟨d2, d⟩⟩⟩ <;>
    simp <;> split_ifs <;> simp_all

/-- A mismatch of the number of wavelengths raises ValueError (whatever the time axis). -/
theorem checkSizes_mismatch (nw nt d0 : Nat) (rest : List Nat) (hd : d0 ≠ nw) :
    checkSizes ⟨[nw], [nt], d0 :: rest⟩ = .error .valueError := by
  unfold checkSizes
  simp only [List.length_cons, List.length_nil]
  by_cases h : rest.length + 1 > 2
  · simp [h]
  · simp [h, hd]

/-- A time grid of more than one point with one-dimensional data raises IndexError, not ValueError. -/
theorem checkSizes_time_indexError (nw nt : Nat) (ht : 1 < nt) :
    checkSizes ⟨[nw], [nt], [nw]⟩ = .error .indexError := by
  simp [checkSizes, ht]

theorem mk?_ok (wl data : List α) (s : Signal α) : Signal.mk? wl data = .ok s ↔ s = ⟨wl, data⟩ ∧ s.WellFormed := by
  unfold Signal.mk?
  by_cases h : data.length = wl.length
  · have := (checkSizes_iff ⟨[wl.length], [1], [data.length]⟩).mpr ⟨wl.length, 1, by simp [h]⟩
    rw [this]
    simp only [Except.ok.injEq]
    constructor
    · rintro rfl; exact ⟨rfl, h⟩
    · rintro ⟨rfl, _⟩; rfl
  · rw [checkSizes_mismatch _ _ _ _ h]
    simp only [reduceCtorEq, false_iff, not_and]
    rintro rfl
    exact h

/-! ## Where the claims fail -/

/-- C28 fails: the input covers 1..3 with the constant 5, but the samples at 1 are dropped (below 0.9 times
1.2), so the first two output points become 0. -/
theorem rebin_constant_lost : rebin [6 / 5, 3 / 2, 29 / 10] [((1 : ℚ), 5), (2, 5), (3, 5)] =
    .ok ([6 / 5, 3 / 2, 29 / 10], [some 0, some 0, some 5]) := by
  decide +kernel

/-- C28 fails: with the window leaving fewer than two samples `rebin` raises although the input covers the
output grid. -/
theorem rebin_constant_raises : rebin [3 / 2, 5 / 2] [((1 : ℚ), 5), (2, 5), (3, 5)] = .error .valueError := by
  decide +kernel

/-- C28 fails: when averaging, the first bin can be empty although samples lie on both sides of the first
output point (value NaN, then 0). -/
theorem rebin_end_bin_lost :
    rebin [10, 11, 12] [((97 / 10 : ℚ), 5), (106 / 10, 5), (115 / 10, 5), (124 / 10, 5)] =
      .ok ([10, 11, 12], [none, some 5, some 5]) := by
  decide +kernel

/-- C28 fails: an input grid in decreasing order always counts as finer than the output grid, so bins are
averaged and those without a sample are lost. -/
theorem rebin_decreasing_lost :
    rebin [10, 21 / 2, 11, 23 / 2, 12] [((12 : ℚ), 5), (11, 5), (10, 5)] =
      .ok ([10, 21 / 2, 11, 23 / 2, 12], [some 5, none, some 5, none, some 5]) := by
  decide +kernel

/-- C30 fails for a grid with repeated points: the signal keeps the grid as given and one value less. -/
theorem spectralRebin_repeated_point :
    ∃ s' : Signal ℚ, (Signal.mk [10, 11, 12] [1, 2, 3]).spectralRebin [10, 10, 12] = .ok s' ∧
      s'.wl.length = 3 ∧ s'.data.length = 2 := by
  refine ⟨⟨[10, 10, 12], [1, 5 / 2]⟩, ?_, rfl, rfl⟩
  have : rebin [10, 10, 12] [((10 : ℚ), 1), (11, 2), (12, 3)] = .ok ([10, 12], [some 1, some (5 / 2)]) := by
    decide +kernel
  unfold Signal.spectralRebin
  simp only [List.zip_cons_cons, List.zip_nil_left]
  rw [this]
  rfl

/-! ## Cases that meet the hypotheses -/

/-- Averaging: the mean of the samples in each bin. -/
theorem averaging_demo :
    rebin [10, 12, 14] [((19 / 2 : ℚ), 1), (10, 2), (21 / 2, 3), (11, 4), (23 / 2, 6), (12, 8), (25 / 2, 1), (13, 1), (27 / 2, 1), (14, 5)] =
      .ok ([10, 12, 14], [some 2, some (19 / 4), some (7 / 3)]) ∧
    Averages [10, 12, 14] [((19 / 2 : ℚ), 1), (10, 2), (21 / 2, 3), (11, 4), (23 / 2, 6), (12, 8), (25 / 2, 1), (13, 1), (27 / 2, 1), (14, 5)] := by
  unfold Averages
  decide +kernel

/-- Interpolation: a line within the samples, 0 beyond them. -/
theorem interpolating_demo :
    rebin [10, 21 / 2, 11, 23 / 2, 13] [((10 : ℚ), 20), (11, 22), (12, 24)] =
      .ok ([10, 21 / 2, 11, 23 / 2, 13], [some 20, some 21, some 22, some 23, some 0]) ∧
    ¬ Averages [10, 21 / 2, 11, 23 / 2, 13] [((10 : ℚ), 20), (11, 22), (12, 24)] := by
  unfold Averages
  decide +kernel

end ExoRad.Rebin
