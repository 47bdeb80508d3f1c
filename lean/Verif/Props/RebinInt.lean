import Verif.Model.RebinInt
import Verif.Props.Rebin
import Verif.Lemmas.Dict
import Mathlib.Data.List.Chain
import Mathlib.Tactic.Ring
import Mathlib.Tactic.Linarith
import Mathlib.Tactic.FieldSimp
import Mathlib.Algebra.Order.Field.Basic

/-!
# C117: the integrating rebinning keeps the integral

Specification: `kept`, the samples that count (as in C28), `areaTo`, the area up to a point below the steps that have between two samples the mean of their values, and `End`, the last sample.
-/

namespace ExoRad.RebinInt

open Rebin

variable {α : Type} [Field α] [LinearOrder α] [IsStrictOrderedRing α]

/-- The area below the steps up to `y`: between neighbouring samples the mean of their values, nothing outside. -/
def areaTo : List (α × α) → α → α
  | p :: q :: l, y => (p.2 + q.2) / 2 * (min y q.1 - min y p.1) + areaTo (q :: l) y
  | _, _ => 0

/-- Samples in increasing order of their coordinate. -/
def Increasing (pts : List (α × α)) : Prop := pts.Pairwise (fun p q => p.1 < q.1)

/-- `e` is the coordinate of the last sample. -/
def End (pts : List (α × α)) (e : α) : Prop := ∃ p, pts.getLast? = some p ∧ p.1 = e

/-- A grid of constant step `d`. -/
def Uniform (d : α) (x : List α) : Prop := x.IsChain (fun a b => b = a + d)

/-- The width of the bin of a point: the distance to the neighbour at the ends of the grid, half the distance of the neighbours elsewhere. -/
def Width (x : List α) (i : ℕ) (g : α) : Prop :=
  (i = 0 ∧ ∃ a b, x[0]? = some a ∧ x[1]? = some b ∧ g = b - a) ∨
  (0 < i ∧ ∃ a b, x[i - 1]? = some a ∧ x[i + 1]? = some b ∧ g = (b - a) / 2) ∨
  (0 < i ∧ x[i + 1]? = none ∧ ∃ a b, x[i - 1]? = some a ∧ x[i]? = some b ∧ g = b - a)

/-- Every gap of the samples is smaller than every step of the grid. -/
def Coarser (x : List α) (pts : List (α × α)) : Prop := ∀ a b u w, [a, b] <:+: x → [u, w] <:+: pts → w.1 - u.1 < b - a

/-! ## Helper lemmas -/

theorem areaTo_before : ∀ (l : List (α × α)) (y : α), (∀ p ∈ l, y ≤ p.1) → areaTo l y = 0
  | [], _, _ => rfl
  | [_], _, _ => rfl
  | p :: q :: l, y, h => by
    rw [areaTo, areaTo_before (q :: l) y (fun r hr => h r (List.mem_cons_of_mem _ hr)), min_eq_left (h p (by simp)), min_eq_left (h q (by simp))]
    ring

theorem segment_cum : ∀ (l : List (α × α)) (acc : α) (p : α × α) (y : α), Increasing (p :: l) → p.1 ≤ y →
    segment (p.1, acc) (cumNodes acc p l) y = acc + areaTo (p :: l) y
  | [], acc, p, y, _, _ => by simp [cumNodes, segment, areaTo]
  | q :: l, acc, p, y, h, hy => by
    have hpq : p.1 < q.1 := (List.pairwise_cons.mp h).1 q (by simp)
    have hq : Increasing (q :: l) := (List.pairwise_cons.mp h).2
    rw [cumNodes, segment]
    simp only
    by_cases hle : y ≤ q.1
    · rw [if_pos hle, areaTo, areaTo_before (q :: l) y, min_eq_left hle, min_eq_right hy]
      · have : q.1 - p.1 ≠ 0 := sub_ne_zero.mpr hpq.ne'
        field_simp
        ring
      · intro r hr
        rcases List.mem_cons.mp hr with rfl | hr
        · exact hle
        · exact hle.trans ((List.pairwise_cons.mp hq).1 r hr).le
    · rw [if_neg hle, segment_cum l _ q y hq (not_le.mp hle).le, areaTo, min_eq_right (not_le.mp hle).le, min_eq_right hy]
      ring

theorem cumNodes_last : ∀ (l : List (α × α)) (acc : α) (p : α × α) (b : α),
    lastX (p.1, b) (cumNodes acc p l) = lastX p l
  | [], _, _, _ => rfl
  | q :: l, acc, p, b => by
    have := cumNodes_last l (acc + (p.2 + q.2) / 2 * (q.1 - p.1)) q (acc + (p.2 + q.2) / 2 * (q.1 - p.1))
    simpa [cumNodes, lastX] using this

theorem lastX_end {p : α × α} {l : List (α × α)} {e : α} (h : End (p :: l) e) : lastX p l = e := by
  obtain ⟨r, hr, rfl⟩ := h
  unfold lastX
  rw [List.getLast?_eq_getLast_of_ne_nil (by simp)] at hr
  simp only [Option.some.injEq] at hr
  rw [hr]

/-- The cumulative integral between the second and the last sample. -/
theorem interp_cum {p q : α × α} {l : List (α × α)} {e : α} (h : Increasing (p :: q :: l)) (he : End (p :: q :: l) e) {y : α} (h1 : q.1 ≤ y) (h2 : y ≤ e) :
    interpSorted (cumNodes 0 p (q :: l)) y = areaTo (p :: q :: l) y := by
  have hl : lastX q l = e := by
    apply lastX_end
    obtain ⟨r, hr, hre⟩ := he
    exact ⟨r, by simpa using hr, hre⟩
  have hpq : p.1 < q.1 := (List.pairwise_cons.mp h).1 q (by simp)
  rw [cumNodes, interpSorted]
  simp only
  rw [if_neg (not_lt.mpr h1), cumNodes_last, hl, if_neg (not_lt.mpr h2), segment_cum l _ q y (List.pairwise_cons.mp h).2 h1, areaTo, min_eq_right h1,
    min_eq_right (hpq.le.trans h1)]
  ring

theorem interp_out {p q : α × α} {l : List (α × α)} {e : α} (he : End (p :: q :: l) e) {y : α} (h : y < q.1 ∨ e < y) :
    interpSorted (cumNodes 0 p (q :: l)) y = 0 := by
  have hl : lastX q l = e := by
    apply lastX_end
    obtain ⟨r, hr, hre⟩ := he
    exact ⟨r, by simpa using hr, hre⟩
  rw [cumNodes, interpSorted]
  simp only
  rw [cumNodes_last, hl]
  rcases h with h | h
  · rw [if_pos h]
  · split
    · rfl
    · first | rfl | rw [if_pos h]

theorem foldl_max_mem : ∀ (l : List α) (a : α), l.foldl max a = a ∨ l.foldl max a ∈ l
  | [], _ => .inl rfl
  | b :: l, a => by
    rw [List.foldl_cons]
    rcases foldl_max_mem l (max a b) with h | h
    · rw [h]
      rcases max_choice a b with h' | h' <;> rw [h'] <;> simp
    · exact .inr (List.mem_cons_of_mem _ h)

theorem foldl_min_mem : ∀ (l : List α) (a : α), l.foldl min a = a ∨ l.foldl min a ∈ l
  | [], _ => .inl rfl
  | b :: l, a => by
    rw [List.foldl_cons]
    rcases foldl_min_mem l (min a b) with h | h
    · rw [h]
      rcases min_choice a b with h' | h' <;> rw [h'] <;> simp
    · exact .inr (List.mem_cons_of_mem _ h)

theorem maxE_mem {l : List α} {m : α} (h : maxE l = .ok m) : m ∈ l := by
  cases l with
  | nil => cases h
  | cons a l =>
    simp only [maxE, Except.ok.injEq] at h
    rcases foldl_max_mem l a with h' | h' <;> rw [← h]
    · rw [h']; simp
    · exact List.mem_cons_of_mem _ h'

theorem minE_mem {l : List α} {m : α} (h : minE l = .ok m) : m ∈ l := by
  cases l with
  | nil => cases h
  | cons a l =>
    simp only [minE, Except.ok.injEq] at h
    rcases foldl_min_mem l a with h' | h' <;> rw [← h]
    · rw [h']; simp
    · exact List.mem_cons_of_mem _ h'

theorem minE_le {l : List α} {m : α} (h : minE l = .ok m) : ∀ v ∈ l, m ≤ v := by
  have key : ∀ (l : List α) (a : α), l.foldl min a ≤ a ∧ ∀ v ∈ l, l.foldl min a ≤ v := by
    intro l
    induction l with
    | nil => simp
    | cons b l ih =>
      intro a
      rw [List.foldl_cons]
      obtain ⟨i1, i2⟩ := ih (min a b)
      refine ⟨i1.trans (min_le_left _ _), ?_⟩
      intro v hv
      rcases List.mem_cons.mp hv with rfl | hv
      · exact i1.trans (min_le_right _ _)
      · exact i2 v hv
  cases l with
  | nil => cases h
  | cons a l =>
    simp only [minE, Except.ok.injEq] at h
    subst h
    intro v hv
    rcases List.mem_cons.mp hv with rfl | hv
    · exact (key l v).1
    · exact (key l a).2 v hv

theorem le_maxE {l : List α} {m : α} (h : maxE l = .ok m) : ∀ v ∈ l, v ≤ m := by
  have key : ∀ (l : List α) (a : α), a ≤ l.foldl max a ∧ ∀ v ∈ l, v ≤ l.foldl max a := by
    intro l
    induction l with
    | nil => simp
    | cons b l ih =>
      intro a
      rw [List.foldl_cons]
      obtain ⟨i1, i2⟩ := ih (max a b)
      refine ⟨(le_max_left _ _).trans i1, ?_⟩
      intro v hv
      rcases List.mem_cons.mp hv with rfl | hv
      · exact (le_max_right _ _).trans i1
      · exact i2 v hv
  cases l with
  | nil => cases h
  | cons a l =>
    simp only [maxE, Except.ok.injEq] at h
    subst h
    intro v hv
    rcases List.mem_cons.mp hv with rfl | hv
    · exact (key l v).1
    · exact (key l a).2 v hv

theorem mem_diffs : ∀ {l : List α} {a b : α}, [a, b] <:+: l → b - a ∈ diffs l
  | [], a, b, h => by have := h.length_le; simp at this
  | [_], a, b, h => by have := h.length_le; simp at this
  | c :: d :: l, a, b, h => by
    obtain ⟨s, t, hst⟩ := h
    rw [diffs]
    cases s with
    | nil =>
      simp only [List.nil_append, List.cons_append, List.cons.injEq] at hst
      obtain ⟨rfl, rfl, -⟩ := hst
      simp
    | cons r s =>
      simp only [List.cons_append, List.cons.injEq] at hst
      exact List.mem_cons_of_mem _ (mem_diffs ⟨s, t, hst.2⟩)

theorem diffs_chain {R : α → Prop} : ∀ (l : List α), l.IsChain (fun a b => R (b - a)) → ∀ d ∈ diffs l, R d
  | [], _, d, hd => by simp [diffs] at hd
  | [_], _, d, hd => by simp [diffs] at hd
  | a :: b :: l, h, d, hd => by
    rw [List.isChain_cons_cons] at h
    rw [diffs] at hd
    rcases List.mem_cons.mp hd with rfl | hd
    · exact h.1
    · exact diffs_chain (b :: l) h.2 d hd

theorem gradTail_uniform {d : α} : ∀ (l : List α) (p c : α), Uniform d (p :: c :: l) → ∀ g ∈ gradTail p c l, g = d
  | [], p, c, h, g, hg => by
    unfold Uniform at h
    rw [List.isChain_cons_cons] at h
    simp only [gradTail, List.mem_singleton] at hg
    rw [hg, h.1]; ring
  | n :: l, p, c, h, g, hg => by
    unfold Uniform at h
    have h' := h
    rw [List.isChain_cons_cons, List.isChain_cons_cons] at h
    rw [gradTail] at hg
    rcases List.mem_cons.mp hg with rfl | hg
    · rw [h.2.1, h.1]; ring
    · refine gradTail_uniform l c n ?_ g hg
      rw [List.isChain_cons_cons] at h'
      exact h'.2

theorem gradTail_length : ∀ (l : List α) (p c : α), (gradTail p c l).length = l.length + 1
  | [], _, _ => rfl
  | n :: l, p, c => by rw [gradTail, List.length_cons, gradTail_length l c n, List.length_cons]

theorem gradient_uniform {d : α} {x g : List α} (h : Uniform d x) (hg : gradient x = .ok g) : g = List.replicate x.length d := by
  match x, hg with
  | a :: b :: l, hg =>
    simp only [gradient, Except.ok.injEq] at hg
    rw [List.eq_replicate_iff]
    subst hg
    refine ⟨by simp [gradTail_length], ?_⟩
    intro v hv
    rcases List.mem_cons.mp hv with rfl | hv
    · unfold Uniform at h
      rw [List.isChain_cons_cons] at h
      rw [h.1]; ring
    · exact gradTail_uniform l a b h v hv

theorem binned_replicate (nodes : List (α × α)) (d : α) : ∀ x : List α,
    binned nodes x (List.replicate x.length d) = x.map (fun c => (interpSorted nodes (c + d / 2) - interpSorted nodes (c - d / 2)) / d)
  | [] => rfl
  | c :: x => by rw [List.length_cons, List.replicate_succ, binned, binned_replicate nodes d x, List.map_cons]

theorem telescope (f : α → α) (d : α) (hd : d ≠ 0) : ∀ (a b : α) (x : List α), Uniform d (a :: x) → (a :: x).getLast? = some b →
    ((a :: x).map (fun c => (f (c + d / 2) - f (c - d / 2)) / d)).sum * d = f (b + d / 2) - f (a - d / 2)
  | a, b, [], _, hb => by
    simp only [List.getLast?_singleton, Option.some.injEq] at hb
    subst hb
    simp [hd]
  | a, b, c :: x, h, hb => by
    have h' := h
    unfold Uniform at h'
    rw [List.isChain_cons_cons] at h'
    have := telescope f d hd c b x h'.2 (by simpa using hb)
    rw [List.map_cons, List.sum_cons, add_mul, this, h'.1, div_mul_cancel₀ _ hd]
    have e : a + d - d / 2 = a + d / 2 := by ring
    rw [e]
    ring

theorem diffs_mem : ∀ {l : List α} {d : α}, d ∈ diffs l → ∃ a b, [a, b] <:+: l ∧ d = b - a
  | [], _, h => by simp [diffs] at h
  | [_], _, h => by simp [diffs] at h
  | a :: b :: l, d, h => by
    rw [diffs] at h
    rcases List.mem_cons.mp h with rfl | h
    · exact ⟨a, b, ⟨[], l, rfl⟩, rfl⟩
    · obtain ⟨u, w, ⟨s, t, hst⟩, hd⟩ := diffs_mem h
      exact ⟨u, w, ⟨a :: s, t, by rw [List.cons_append, List.cons_append, hst]⟩, hd⟩

theorem diffs_mem_fst : ∀ {l : List (α × α)} {d : α}, d ∈ diffs (l.map Prod.fst) → ∃ u w, [u, w] <:+: l ∧ d = w.1 - u.1
  | [], _, h => by simp [diffs] at h
  | [_], _, h => by simp [diffs] at h
  | a :: b :: l, d, h => by
    rw [List.map_cons, List.map_cons, diffs] at h
    rcases List.mem_cons.mp h with rfl | h
    · exact ⟨a, b, ⟨[], l, rfl⟩, rfl⟩
    · obtain ⟨u, w, ⟨s, t, hst⟩, hd⟩ := diffs_mem_fst (l := b :: l) h
      exact ⟨u, w, ⟨a :: s, t, by rw [List.cons_append, List.cons_append, hst]⟩, hd⟩

theorem gradTail_width {g : α} : ∀ (l : List α) (p c : α) (j : ℕ), Width (p :: c :: l) (j + 1) g → (gradTail p c l)[j]? = some g
  | [], p, c, j, h => by
    rcases h with ⟨h, -⟩ | ⟨-, a, b, h1, h2, rfl⟩ | ⟨-, -, a, b, h1, h2, rfl⟩
    · omega
    · simp at h2
    · cases j with
      | zero =>
        simp only [Nat.zero_add, Nat.sub_self, List.getElem?_cons_zero, Option.some.injEq, List.getElem?_cons_succ] at h1 h2
        rw [← h1, ← h2]
        rfl
      | succ j => simp at h2
  | n :: l, p, c, 0, h => by
    rcases h with ⟨h, -⟩ | ⟨-, a, b, h1, h2, rfl⟩ | ⟨-, h, -⟩
    · omega
    · simp only [Nat.zero_add, Nat.sub_self, List.getElem?_cons_zero, Option.some.injEq, List.getElem?_cons_succ] at h1 h2
      rw [← h1, ← h2]
      rfl
    · simp at h
  | n :: l, p, c, j + 1, h => by
    rw [gradTail, List.getElem?_cons_succ]
    refine gradTail_width l c n j ?_
    rcases h with ⟨h, -⟩ | ⟨-, a, b, h1, h2, rfl⟩ | ⟨-, h0, a, b, h1, h2, rfl⟩
    · omega
    · refine .inr (.inl ⟨by omega, a, b, ?_, ?_, rfl⟩)
      · simpa using h1
      · simpa using h2
    · refine .inr (.inr ⟨by omega, ?_, a, b, ?_, ?_, rfl⟩)
      · simpa using h0
      · simpa using h1
      · simpa using h2

theorem gradient_width {x ds : List α} {i : ℕ} {g : α} (h : gradient x = .ok ds) (hw : Width x i g) : ds[i]? = some g := by
  match x, h with
  | a :: b :: l, h =>
    simp only [gradient, Except.ok.injEq] at h
    subst h
    cases i with
    | zero =>
      rcases hw with ⟨-, a', b', h1, h2, rfl⟩ | ⟨h, -⟩ | ⟨h, -⟩
      · simp only [List.getElem?_cons_zero, Option.some.injEq, List.getElem?_cons_succ] at h1 h2 ⊢
        rw [h1, h2]
      · omega
      · omega
    | succ j => rw [List.getElem?_cons_succ]; exact gradTail_width l a b j hw

theorem binned_get (nodes : List (α × α)) : ∀ (x ds : List α) (i : ℕ) (c g : α), x[i]? = some c → ds[i]? = some g →
    (binned nodes x ds)[i]? = some ((interpSorted nodes (c + g / 2) - interpSorted nodes (c - g / 2)) / g)
  | [], _, i, c, g, h, _ => by simp at h
  | _ :: _, [], i, c, g, _, h => by simp at h
  | a :: x, b :: ds, 0, c, g, h1, h2 => by
    simp only [List.getElem?_cons_zero, Option.some.injEq] at h1 h2
    subst h1 h2
    rfl
  | a :: x, b :: ds, i + 1, c, g, h1, h2 => by
    rw [binned, List.getElem?_cons_succ]
    exact binned_get nodes x ds i c g (by simpa using h1) (by simpa using h2)

theorem minmax_of_ok {x f : List α} {pts : List (α × α)} (h : rebin x pts = .ok f) : ∃ lo hi, minE x = .ok lo ∧ maxE x = .ok hi := by
  cases x with
  | nil => simp [rebin, minE] at h
  | cons a x => exact ⟨_, _, rfl, rfl⟩

/-! ## C117 -/

/-- What the code does on a grid coarser than the samples. -/
theorem rebin_coarser {x f : List α} {pts : List (α × α)} {p q : α × α} {l : List (α × α)} (hw : kept x pts = p :: q :: l) (hfine : Coarser x (p :: q :: l)) (h : rebin x pts = .ok f) {i : ℕ} {c v g : α} (hc : x[i]? = some c)
    (hv : f[i]? = some v) (hg : Width x i g) :
    v = (interpSorted (cumNodes 0 p (q :: l)) (c + g / 2) - interpSorted (cumNodes 0 p (q :: l)) (c - g / 2)) / g := by
  obtain ⟨lo, hi, hlo, hhi⟩ := minmax_of_ok h
  rw [← kept_eq hlo hhi] at hw
  unfold rebin at h
  rw [hlo, hhi] at h
  simp only [hw] at h
  cases hm : maxE (diffs ((p :: q :: l).map Prod.fst)) with
  | error e => rw [hm] at h; cases h
  | ok mp =>
    rw [hm] at h
    simp only at h
    cases hn : minE (diffs x) with
    | error e => rw [hn] at h; cases h
    | ok mx =>
      rw [hn] at h
      simp only at h
      obtain ⟨u, w, h1, rfl⟩ := diffs_mem_fst (maxE_mem hm)
      obtain ⟨a, b, h2, rfl⟩ := diffs_mem (minE_mem hn)
      rw [if_pos (hfine a b u w h2 h1)] at h
      cases hgr : gradient x with
      | error e => rw [hgr] at h; cases h
      | ok ds =>
        rw [hgr] at h
        simp only [Except.ok.injEq] at h
        rw [← h, binned_get _ x ds i c g hc (gradient_width hgr hg)] at hv
        simp only [Option.some.injEq] at hv
        exact hv.symm

/-- What the code does on a uniform grid coarser than the samples. -/
theorem rebin_uniform {d : α} {x f : List α} {pts : List (α × α)} {p q : α × α} {l : List (α × α)} (hw : kept x pts = p :: q :: l) (hu : Uniform d x) (hfine : (p :: q :: l).IsChain (fun a b => b.1 - a.1 < d)) (h : rebin x pts = .ok f) :
    f = x.map (fun c => (interpSorted (cumNodes 0 p (q :: l)) (c + d / 2) - interpSorted (cumNodes 0 p (q :: l)) (c - d / 2)) / d) := by
  obtain ⟨lo, hi, hlo, hhi⟩ := minmax_of_ok h
  rw [← kept_eq hlo hhi] at hw
  unfold rebin at h
  rw [hlo, hhi] at h
  simp only [hw] at h
  cases hm : maxE (diffs ((p :: q :: l).map Prod.fst)) with
  | error e => rw [hm] at h; cases h
  | ok mp =>
    rw [hm] at h
    simp only at h
    cases hn : minE (diffs x) with
    | error e => rw [hn] at h; cases h
    | ok mx =>
      rw [hn] at h
      simp only at h
      have h1 : mp < d := by
        refine diffs_chain (R := fun t => t < d) _ ?_ mp (maxE_mem hm)
        exact List.isChain_map_of_isChain Prod.fst (fun a b hab => hab) hfine
      have h2 : mx = d := by
        refine diffs_chain (R := fun t => t = d) _ ?_ mx (minE_mem hn)
        refine hu.imp ?_
        intro a b hab
        rw [hab]; ring
      rw [if_pos (h2 ▸ h1)] at h
      cases hg : gradient x with
      | error e => rw [hg] at h; cases h
      | ok g =>
        rw [hg] at h
        simp only [Except.ok.injEq] at h
        rw [← h, gradient_uniform hu hg, binned_replicate]

section Main

variable {d : α} {x f : List α} {pts : List (α × α)} {e : α} {p q : α × α} {l : List (α × α)}

/-- C117, what holds: on a grid coarser than the samples, in every bin between the second and the last sample that count, the new value times
the width of the bin is the area below the samples in it. -/
theorem bin_area_partial (hw : kept x pts = p :: q :: l) (hfine : Coarser x (p :: q :: l))
    (hs : Increasing (p :: q :: l)) (he : End (p :: q :: l) e) (h : rebin x pts = .ok f)
    (i : ℕ) (c v : α) (hc : x[i]? = some c) (hv : f[i]? = some v) (hg : Width x i d) (hd : 0 < d)
    (h1 : q.1 ≤ c - d / 2) (h2 : c + d / 2 ≤ e) :
    v * d = areaTo (p :: q :: l) (c + d / 2) - areaTo (p :: q :: l) (c - d / 2) := by
  rw [rebin_coarser hw hfine h hc hv hg, div_mul_cancel₀ _ hd.ne', interp_cum hs he (h1.trans (by linarith)) h2, interp_cum hs he h1 (le_trans (by linarith) h2)]

/-- C117, what holds: if the grid has a constant step and lies between the second and the last sample that count, the sum of the new values times the step is the area below
the samples over the grid: nothing is lost or added. -/
theorem integral_kept_partial (hw : kept x pts = p :: q :: l) (hu : Uniform d x) (hd : 0 < d)
    (hfine : (p :: q :: l).IsChain (fun a b => b.1 - a.1 < d)) (hs : Increasing (p :: q :: l)) (he : End (p :: q :: l) e) (h : rebin x pts = .ok f)
    (a b : α) (ha : x.head? = some a) (hb : x.getLast? = some b) (h1 : q.1 ≤ a - d / 2) (h2 : b + d / 2 ≤ e) (hab : a ≤ b) :
    f.sum * d = areaTo (p :: q :: l) (b + d / 2) - areaTo (p :: q :: l) (a - d / 2) := by
  rw [rebin_uniform hw hu hfine h]
  cases x with
  | nil => cases ha
  | cons a' x =>
    simp only [List.head?_cons, Option.some.injEq] at ha
    subst ha
    rw [telescope _ d hd.ne' a' b x hu hb, interp_cum hs he (h1.trans (by linarith)) h2, interp_cum hs he h1 (le_trans (by linarith) h2)]

/-- C117, what is false: a bin that reaches beyond the last sample that counts gets minus the area of everything before it. -/
theorem last_bin_negative (hw : kept x pts = p :: q :: l) (hfine : Coarser x (p :: q :: l))
    (hs : Increasing (p :: q :: l)) (he : End (p :: q :: l) e) (h : rebin x pts = .ok f)
    (i : ℕ) (c v : α) (hc : x[i]? = some c) (hv : f[i]? = some v) (hg : Width x i d) (hd : 0 < d)
    (h1 : q.1 ≤ c - d / 2) (h2 : c - d / 2 ≤ e) (h3 : e < c + d / 2) :
    v * d = - areaTo (p :: q :: l) (c - d / 2) := by
  rw [rebin_coarser hw hfine h hc hv hg, div_mul_cancel₀ _ hd.ne', interp_out he (.inr h3), interp_cum hs he h1 h2]
  ring

/-- C117, what is false: a bin that begins before the second sample that counts gets the whole area from the first sample on. -/
theorem first_bin_whole (hw : kept x pts = p :: q :: l) (hfine : Coarser x (p :: q :: l))
    (hs : Increasing (p :: q :: l)) (he : End (p :: q :: l) e) (h : rebin x pts = .ok f)
    (i : ℕ) (c v : α) (hc : x[i]? = some c) (hv : f[i]? = some v) (hg : Width x i d) (hd : 0 < d)
    (h1 : c - d / 2 < q.1) (h2 : q.1 ≤ c + d / 2) (h3 : c + d / 2 ≤ e) :
    v * d = areaTo (p :: q :: l) (c + d / 2) := by
  rw [rebin_coarser hw hfine h hc hv hg, div_mul_cancel₀ _ hd.ne', interp_out he (.inl h1), interp_cum hs he h2 h3]
  ring

end Main

theorem segment_between : ∀ (l : List (α × α)) (lo u w : α × α) (c : α), Increasing (lo :: l) → [u, w] <:+: lo :: l → u.1 ≤ c → c ≤ w.1 →
    segment lo l c = (w.2 - u.2) / (w.1 - u.1) * (c - u.1) + u.2
  | [], lo, u, w, c, _, h, _, _ => by
    have := h.length_le
    simp at this
  | hi :: l, lo, u, w, c, hs, h, h1, h2 => by
    obtain ⟨s, t, hst⟩ := h
    have hhi : Increasing (hi :: l) := (List.pairwise_cons.mp hs).2
    rw [segment]
    cases s with
    | nil =>
      simp only [List.nil_append, List.cons_append, List.cons.injEq] at hst
      obtain ⟨rfl, rfl, -⟩ := hst
      rw [if_pos h2]
    | cons r s =>
      simp only [List.cons_append, List.cons.injEq] at hst
      obtain ⟨rfl, hst⟩ := hst
      have hin : [u, w] <:+: hi :: l := ⟨s, t, hst⟩
      by_cases hle : c ≤ hi.1
      · have hu : u ∈ hi :: l := hin.subset (by simp)
        have hw : w ∈ hi :: l := hin.subset (by simp)
        have hcu : u = hi := by
          rcases List.mem_cons.mp hu with e | hm
          · exact e
          · exact absurd (h1.trans hle) (not_le.mpr ((List.pairwise_cons.mp hhi).1 u hm))
        subst hcu
        have hc : c = u.1 := le_antisymm hle h1
        have hlt := (List.pairwise_cons.mp hs).1 u (by simp)
        rw [if_pos hle, hc, div_mul_cancel₀ _ (sub_ne_zero.mpr hlt.ne')]
        ring
      · rw [if_neg hle]
        exact segment_between l hi u w c hhi hin h1 h2

/-- C117: on a grid with a step that is not larger than every gap of the samples, the new value between two neighbouring samples that count is on the
line through them, and 0 outside the samples. -/
theorem line_between {x f : List α} {pts : List (α × α)} {p : α × α} {l : List (α × α)} (hw : kept x pts = p :: l) (hs : Increasing (p :: l)) (hcoarse : ∃ a b : α, [a, b] <:+: x ∧ ∃ u w, [u, w] <:+: p :: l ∧ b - a ≤ w.1 - u.1)
    (h : rebin x pts = .ok f) (i : ℕ) (c v : α) (hc : x[i]? = some c) (hv : f[i]? = some v) :
    (∀ u w, [u, w] <:+: p :: l → u.1 ≤ c → c ≤ w.1 → v = (w.2 - u.2) / (w.1 - u.1) * (c - u.1) + u.2) ∧
    ((∀ r ∈ p :: l, c < r.1) ∨ (∀ r ∈ p :: l, r.1 < c) → v = 0) := by
  have hf : f = x.map (interpSorted (p :: l)) := by
    obtain ⟨lo, hi, hlo, hhi⟩ := minmax_of_ok h
    rw [← kept_eq hlo hhi] at hw
    unfold rebin at h
    rw [hlo, hhi] at h
    simp only [hw] at h
    cases hm : maxE (diffs ((p :: l).map Prod.fst)) with
    | error e => rw [hm] at h; cases h
    | ok mp =>
      rw [hm] at h
      simp only at h
      cases hn : minE (diffs x) with
      | error e => rw [hn] at h; cases h
      | ok mx =>
        rw [hn] at h
        simp only at h
        obtain ⟨a, b, hab, u, w, huw, hg⟩ := hcoarse
        have h1 : mx ≤ b - a := minE_le hn _ (mem_diffs hab)
        have h2 : w.1 - u.1 ≤ mp := le_maxE hm _ (mem_diffs (by simpa using huw.map Prod.fst))
        rw [if_neg (not_lt.mpr (h1.trans (hg.trans h2)))] at h
        simp only [Except.ok.injEq] at h
        exact h.symm
  rw [hf, List.getElem?_map, hc] at hv
  simp only [Option.map_some, Option.some.injEq] at hv
  rw [← hv]
  have hlast : ∀ r ∈ p :: l, r.1 ≤ lastX p l := by
    intro r hr
    unfold lastX
    rcases List.mem_iff_getElem.mp hr with ⟨n, hn, rfl⟩
    rw [List.getLast_eq_getElem]
    rcases Nat.lt_or_ge n ((p :: l).length - 1) with hlt | hge
    · exact (List.pairwise_iff_getElem.mp hs n _ hn (by simp) hlt).le
    · have : n = (p :: l).length - 1 := by omega
      subst this
      exact le_rfl
  have hlastm : lastX p l = ((p :: l).getLast (by simp)).1 := rfl
  constructor
  · intro u w huw h1 h2
    have hu : p.1 ≤ u.1 := by
      rcases List.mem_cons.mp (huw.subset (show u ∈ [u, w] by simp)) with e | hm
      · rw [e]
      · exact ((List.pairwise_cons.mp hs).1 u hm).le
    have hw' : w.1 ≤ lastX p l := hlast w (huw.subset (by simp))
    rw [interpSorted, if_neg (not_lt.mpr (hu.trans h1)), if_neg (not_lt.mpr (h2.trans hw'))]
    exact segment_between l p u w c hs huw h1 h2
  · rintro (h1 | h1)
    · rw [interpSorted, if_pos (h1 p (by simp))]
    · have : lastX p l < c := by
        rw [hlastm]
        exact h1 _ (List.getLast_mem _)
      rw [interpSorted]
      split
      · rfl
      · rfl

/-! ## The area -/

theorem min_gap {a b s t : α} (hab : a ≤ b) (hst : s ≤ t) : min b s - min a s ≤ min b t - min a t := by
  rcases le_total b s with h1 | h1
  · have := h1.trans hst
    rw [min_eq_left h1, min_eq_left this, min_eq_left (hab.trans h1), min_eq_left (hab.trans this)]
  · rw [min_eq_right h1]
    rcases le_total a s with h2 | h2
    · rw [min_eq_left h2, min_eq_left (h2.trans hst)]
      have : s ≤ min b t := le_min h1 hst
      linarith
    · rw [min_eq_right h2]
      have : min a t ≤ min b t := min_le_min_right t hab
      linarith

theorem area_bounds {L U : α} {a b : α} (hab : a ≤ b) : ∀ (l : List (α × α)) (p : α × α), (p :: l).IsChain (fun p q => p.1 ≤ q.1) →
    (∀ r ∈ p :: l, L ≤ r.2 ∧ r.2 ≤ U) → ∀ e, End (p :: l) e →
    L * ((min b e - min a e) - (min b p.1 - min a p.1)) ≤ areaTo (p :: l) b - areaTo (p :: l) a ∧
    areaTo (p :: l) b - areaTo (p :: l) a ≤ U * ((min b e - min a e) - (min b p.1 - min a p.1))
  | [], p, _, _, e, he => by
    obtain ⟨r, hr, rfl⟩ := he
    simp only [List.getLast?_singleton, Option.some.injEq] at hr
    subst hr
    simp [areaTo]
  | q :: l, p, hs, hb, e, he => by
    rw [List.isChain_cons_cons] at hs
    have he' : End (q :: l) e := by
      obtain ⟨r, hr, hre⟩ := he
      exact ⟨r, by simpa using hr, hre⟩
    obtain ⟨i1, i2⟩ := area_bounds hab l q hs.2 (fun r hr => hb r (List.mem_cons_of_mem _ hr)) e he'
    have hg := min_gap hab hs.1
    have hp := hb p (by simp)
    have hq := hb q (by simp)
    have hg0 : 0 ≤ (min b q.1 - min a q.1) - (min b p.1 - min a p.1) := by linarith
    have hL : L * ((min b q.1 - min a q.1) - (min b p.1 - min a p.1)) ≤ (p.2 + q.2) / 2 * ((min b q.1 - min a q.1) - (min b p.1 - min a p.1)) :=
      mul_le_mul_of_nonneg_right (by linarith [hp.1, hq.1]) hg0
    have hU : (p.2 + q.2) / 2 * ((min b q.1 - min a q.1) - (min b p.1 - min a p.1)) ≤ U * ((min b q.1 - min a q.1) - (min b p.1 - min a p.1)) :=
      mul_le_mul_of_nonneg_right (by linarith [hp.2, hq.2]) hg0
    simp only [areaTo]
    constructor
    · nlinarith [i1, hL]
    · nlinarith [i2, hU]

section Bounds

variable {d : α} {x f : List α} {pts : List (α × α)} {e : α} {p q : α × α} {l : List (α × α)}

/-- C117, what holds: between the second and the last sample the new values stay between the smallest and the largest value that counts; a constant is reproduced. -/
theorem bin_bounds_partial {L U : α} (hw : kept x pts = p :: q :: l) (hfine : Coarser x (p :: q :: l))
    (hs : Increasing (p :: q :: l)) (he : End (p :: q :: l) e) (h : rebin x pts = .ok f)
    (hb : ∀ r ∈ p :: q :: l, L ≤ r.2 ∧ r.2 ≤ U)
    (i : ℕ) (c v : α) (hc : x[i]? = some c) (hv : f[i]? = some v) (hg : Width x i d) (hd : 0 < d)
    (h1 : q.1 ≤ c - d / 2) (h2 : c + d / 2 ≤ e) : L ≤ v ∧ v ≤ U := by
  have hv' := bin_area_partial hw hfine hs he h i c v hc hv hg hd h1 h2
  have hpq : p.1 < q.1 := (List.pairwise_cons.mp hs).1 q (by simp)
  have hs' : (p :: q :: l).IsChain (fun p q => p.1 ≤ q.1) := (hs.imp (fun h => le_of_lt h)).isChain
  obtain ⟨b1, b2⟩ := area_bounds (a := c - d / 2) (b := c + d / 2) (by linarith) (q :: l) p hs' hb e he
  have e1 : min (c + d / 2) e - min (c - d / 2) e - (min (c + d / 2) p.1 - min (c - d / 2) p.1) = d := by
    rw [min_eq_left h2, min_eq_left (le_trans (by linarith) h2), min_eq_right (by linarith), min_eq_right (by linarith)]
    ring
  rw [e1, ← hv'] at b1 b2
  exact ⟨le_of_mul_le_mul_right b1 hd, le_of_mul_le_mul_right b2 hd⟩

end Bounds

/-! ## Examples -/

namespace Demo

/-- Samples 30, 31, ..., 38, twice their coordinate less 60. -/
def pts : List (ℚ × ℚ) := [(30, 0), (31, 2), (32, 4), (33, 6), (34, 8), (35, 10), (36, 12), (37, 14), (38, 16)]
/-- A coarser grid within the samples. -/
def grid : List ℚ := [33, 35]

theorem demo_grid : rebin grid pts = .ok [6, 10] := by decide +kernel

/-- The sum of the new values times the step is the area from 32 to 36. -/
theorem demo_area : areaTo pts 36 - areaTo pts 32 = 32 ∧ ([6, 10] : List ℚ).sum * 2 = 32 := by decide +kernel

/-- The last bin, from 36 to 39, is negative although the samples are not; the first bin, from 30 to 33, is right as it begins with the first sample. -/
theorem demo_negative : rebin [63 / 2, 69 / 2, 75 / 2] pts = .ok [3, 9, -12] := by decide +kernel

theorem demo_line : rebin [33, 67 / 2] pts = .ok [6, 7] := by decide +kernel

/-- On a grid without constant step the bins overlap or leave gaps: the values times the widths do not add up to the area from 31 to 37.75. -/
theorem demo_uneven : rebin [32, 34, 73 / 2] pts = .ok [4, 8, 13] ∧ Width ([32, 34, 73 / 2] : List ℚ) 1 (9 / 4) ∧
    (4 * 2 + 8 * (9 / 4) + 13 * (5 / 2) : ℚ) ≠ areaTo pts (73 / 2 + 5 / 4) - areaTo pts (32 - 1) :=
  ⟨by decide +kernel, .inr (.inl ⟨by decide, 32, 73 / 2, rfl, rfl, by norm_num⟩), by decide +kernel⟩

/-- The hypothesis `Coarser` holds for the grid. -/
example : Coarser grid pts := by
  intro a b u w h1 h2
  have h3 : w.1 - u.1 ∈ diffs (pts.map Prod.fst) := mem_diffs (by simpa using h2.map Prod.fst)
  have h4 := mem_diffs h1
  have e1 : diffs (pts.map Prod.fst) = [1, 1, 1, 1, 1, 1, 1, 1] := by decide +kernel
  have e2 : diffs grid = [2] := by decide +kernel
  rw [e1] at h3
  rw [e2] at h4
  simp only [List.mem_cons, List.not_mem_nil, or_false, or_self] at h3 h4
  rw [h3, h4]
  norm_num

/-- The hypotheses of `bin_area_partial`, `integral_kept_partial` and `bin_bounds_partial` hold for the grid. -/
example : kept grid pts = pts ∧ Uniform 2 grid ∧
    pts.IsChain (fun a b => b.1 - a.1 < 2) ∧ Increasing pts ∧ End pts 38 ∧ rebin grid pts = .ok [6, 10] ∧ (31 : ℚ) ≤ 33 - 2 / 2 ∧ (35 : ℚ) + 2 / 2 ≤ 38 :=
  ⟨by decide +kernel, by simp [Uniform, grid]; norm_num, by simp [pts]; norm_num,
    by simp [Increasing, pts]; norm_num, ⟨_, rfl, rfl⟩, demo_grid, by norm_num, by norm_num⟩

/-- The hypotheses of `line_between` hold for a fine grid. -/
example : ∃ a b : ℚ, [a, b] <:+: [33, 67 / 2] ∧ ∃ u w, [u, w] <:+: pts ∧ b - a ≤ w.1 - u.1 :=
  ⟨33, 67 / 2, List.infix_refl _, (30, 0), (31, 2), ⟨[], _, rfl⟩, by norm_num⟩

end Demo

end ExoRad.RebinInt
