import Verif.Model.Psf
import Verif.Props.Rebin
import Verif.Lemmas.Dict
import Mathlib.Algebra.Order.Archimedean.Basic
import Mathlib.Tactic.FieldSimp
import Mathlib.Tactic.Linarith
import Mathlib.Tactic.Ring
import Mathlib.Tactic.NormNum
import Mathlib.Tactic.Positivity

/-!
# Which stored image is used, and the size of an aperture
-/

namespace ExoRad.Psf

open ExoRad.Rebin

variable {α : Type} [Field α] [LinearOrder α] [IsStrictOrderedRing α]

/-! ## `np.argmin` and the nearest file -/

theorem argmin_spec : ∀ (l : List α) (i : Nat), argmin l = .ok i → ∃ v, l[i]? = some v ∧ (∀ w ∈ l, v ≤ w) ∧
    ∀ j w, j < i → l[j]? = some w → v < w
  | [], i, h => by cases h
  | a :: l, i, h => by
    unfold argmin at h
    split at h
    · rename_i e he
      cases l with
      | nil => cases h; exact ⟨a, rfl, by simp, by intro j w hj; omega⟩
      | cons b l =>
        exfalso
        unfold argmin at he
        split at he
        · cases he
        · split at he
          · split at he <;> cases he
          · cases he
    · rename_i k hk
      obtain ⟨v, h1, h2, h3⟩ := argmin_spec l k hk
      rw [h1] at h
      simp only at h
      split at h
      · rename_i hav
        cases h
        refine ⟨a, rfl, ?_, by intro j w hj; omega⟩
        intro w hw
        rcases List.mem_cons.mp hw with rfl | hw
        · exact le_rfl
        · exact hav.trans (h2 w hw)
      · rename_i hav
        cases h
        refine ⟨v, by simpa using h1, ?_, ?_⟩
        · intro w hw
          rcases List.mem_cons.mp hw with rfl | hw
          · exact (not_le.mp hav).le
          · exact h2 w hw
        · intro j w hj hw
          cases j with
          | zero => simp only [List.getElem?_cons_zero, Option.some.injEq] at hw; rw [← hw]; exact not_le.mp hav
          | succ j => exact h3 j w (by omega) (by simpa using hw)

theorem argmin_error : ∀ (l : List α) (e : Exc), argmin l = .error e → l = [] ∧ e = .valueError
  | [], e, h => by cases h; exact ⟨rfl, rfl⟩
  | a :: l, e, h => by
    unfold argmin at h
    split at h
    · cases h
    · split at h
      · split at h <;> cases h
      · cases h

/-- The file used from a directory is one of those whose wavelength is nearest to the one asked for; without files
there is a ValueError. -/
theorem nearestFile_spec {β : Type} (files : List (α × β)) (wl : α) :
    (files = [] ∧ nearestFile files wl = .error .valueError) ∨
    ∃ f ∈ files, nearestFile files wl = .ok f.2 ∧ ∀ g ∈ files, |f.1 - wl| ≤ |g.1 - wl| := by
  unfold nearestFile
  cases h : argmin (files.map (fun f => |f.1 - wl|)) with
  | error e =>
    obtain ⟨h1, h2⟩ := argmin_error _ e h
    left
    exact ⟨by simpa using h1, by rw [h2]⟩
  | ok i =>
    right
    obtain ⟨v, h1, h2, _⟩ := argmin_spec _ i h
    rw [List.getElem?_map] at h1
    cases hf : files[i]? with
    | none => rw [hf] at h1; cases h1
    | some f =>
      rw [hf] at h1
      simp only [Option.map_some, Option.some.injEq] at h1
      refine ⟨f, List.mem_of_getElem? hf, by simp only [hf], ?_⟩
      intro g hg
      rw [h1]
      exact h2 _ (List.mem_map.mpr ⟨g, hg, rfl⟩)

theorem demo_nearest : nearestFile [((1 : ℚ), "a"), (2, "b"), (4, "c")] (29 / 10) = .ok "b" := by decide +kernel

/-! ## Interpolation between stored images -/

/-- Linear mixture: `(1 - s)` of the first and `s` of the second. -/
def mixture (s a b : α) : α := (1 - s) * a + s * b

/-- Mixture of two stored images and their geometry. -/
def Paos.mix (s : α) (p q : Paos α) : Paos α :=
  ⟨List.zipWith (mixture s) p.ima q.ima, mixture s p.dx q.dx, mixture s p.dy q.dy,
    List.zipWith (mixture s) p.extent q.extent, mixture s p.fratio q.fratio⟩

theorem line2_mix (x0 x1 y0 y1 x : α) (h : x0 ≠ x1) : line2 x0 x1 y0 y1 x = mixture ((x - x0) / (x1 - x0)) y0 y1 := by
  have h1 : x1 - x0 ≠ 0 := sub_ne_zero.mpr h.symm
  have h2 : x0 - x1 ≠ 0 := sub_ne_zero.mpr h
  unfold line2 mixture
  split
  · field_simp; ring
  · have : (x - x0) / (x1 - x0) = (x0 - x) / (x0 - x1) := by
      rw [← neg_sub x1 x0, ← neg_sub x x0, neg_div_neg_eq]
    rw [this]
    field_simp
    ring

theorem line2_mix_swap (x0 x1 y0 y1 x : α) (h : x0 ≠ x1) :
    line2 x0 x1 y0 y1 x = mixture ((x - x1) / (x0 - x1)) y1 y0 := by
  rw [line2_mix _ _ _ _ _ h]
  have h1 : x1 - x0 ≠ 0 := sub_ne_zero.mpr h.symm
  have h2 : x0 - x1 ≠ 0 := sub_ne_zero.mpr h
  unfold mixture
  have : (x - x1) / (x0 - x1) = 1 - (x - x0) / (x1 - x0) := by
    field_simp
    ring
  rw [this]; ring

theorem zipWith_comm_mix (s : α) (f : α → α → α) (a b : List α) (h : ∀ x y, f x y = mixture s y x) :
    List.zipWith f a b = List.zipWith (mixture s) b a := by
  induction a generalizing b with
  | nil => cases b <;> rfl
  | cons x a ih => cases b with
    | nil => rfl
    | cons y b => simp [h, ih]

/-- The two stored images are compatible. -/
def Paos.Same (p q : Paos α) : Prop := p.ima.length = q.ima.length ∧ p.extent.length = q.extent.length

theorem blend_mix (w0 w1 : α) (p0 p1 : Paos α) (wl : α) (h : w0 ≠ w1) (hs : p0.Same p1) :
    blend w0 w1 p0 p1 wl = .ok (Paos.mix ((wl - w0) / (w1 - w0)) p0 p1) ∧
    blend w0 w1 p0 p1 wl = .ok (Paos.mix ((wl - w1) / (w0 - w1)) p1 p0) := by
  have e1 : (fun a b => line2 w0 w1 a b wl) = mixture ((wl - w0) / (w1 - w0)) := by
    funext a b; exact line2_mix _ _ _ _ _ h
  unfold blend
  rw [if_pos (show p0.ima.length = p1.ima.length ∧ p0.extent.length = p1.extent.length from hs)]
  constructor
  · rw [e1]
    simp only [line2_mix _ _ _ _ _ h]
    rfl
  · rw [zipWith_comm_mix _ _ _ _ (fun x y => line2_mix_swap w0 w1 x y wl h),
      zipWith_comm_mix _ _ _ _ (fun x y => line2_mix_swap w0 w1 x y wl h)]
    simp only [line2_mix_swap _ _ _ _ _ h]
    rfl

theorem pyIndex_nat {β : Type} (l : List β) (i : Nat) (v : β) (h : l[i]? = some v) : pyIndex l (i : Int) = .ok v := by
  unfold pyIndex
  have h0 : ¬ ((i : Int) < 0) := by omega
  simp only [h0, if_false, Int.toNat_natCast, h]

/-- Position of the next wavelength and its neighbour in the strictly increasing list `s`. -/
theorem getElem_lt (s : List α) (hs : s.Pairwise (· < ·)) (i j : Nat) (a b : α) (ha : s[i]? = some a) (hb : s[j]? = some b)
    (h : i < j) : a < b := by
  obtain ⟨hi, rfl⟩ := List.getElem?_eq_some_iff.mp ha
  obtain ⟨hj, rfl⟩ := List.getElem?_eq_some_iff.mp hb
  exact List.pairwise_iff_getElem.mp hs i j hi hj h

theorem getElem_le_iff (s : List α) (hs : s.Pairwise (· < ·)) (i j : Nat) (a b : α) (ha : s[i]? = some a)
    (hb : s[j]? = some b) : a < b ↔ i < j := by
  constructor
  · intro h
    rcases lt_trichotomy i j with h1 | h1 | h1
    · exact h1
    · subst h1; rw [ha] at hb; cases hb; exact absurd h (lt_irrefl _)
    · exact absurd (getElem_lt s hs j i b a hb ha h1) (not_lt.mpr h.le)
  · exact getElem_lt s hs i j a b ha hb

theorem sorted_keys (ws : List α) (hn : ws.Nodup) : (ws.insertionSort (· ≤ ·)).Pairwise (· < ·) := by
  have h1 := List.pairwise_insertionSort (· ≤ ·) ws
  have h2 : (ws.insertionSort (· ≤ ·)).Nodup := (List.perm_insertionSort (· ≤ ·) ws).nodup_iff.mpr hn
  exact (h1.and h2).imp (fun ⟨a, b⟩ => lt_of_le_of_ne a b)

/-- What `interpolate_paos_psf` picks for a wavelength that is not stored. -/
theorem neighbours_spec (ws : List α) (wl : α) (hn : ws.Nodup) (h2 : 2 ≤ ws.length) (hw : wl ∉ ws) :
    ∃ w0 w1, neighbours ws wl = .ok (w0, w1) ∧ w0 ∈ ws ∧ w1 ∈ ws ∧ w0 ≠ w1 ∧ (∀ v ∈ ws, |w0 - wl| ≤ |v - wl|) ∧
    (((∃ v ∈ ws, v < wl) ∧ (∃ v ∈ ws, wl < v)) → min w0 w1 < wl ∧ wl < max w0 w1 ∧
      ∀ v ∈ ws, ¬ (min w0 w1 < v ∧ v < max w0 w1)) ∧
    ((∀ v ∈ ws, wl < v) → w0 < w1 ∧ ∀ v ∈ ws, v = w0 ∨ w1 ≤ v) ∧
    ((∀ v ∈ ws, v < wl) → w1 < w0 ∧ ∀ v ∈ ws, v = w0 ∨ v ≤ w1) := by
  have hs := sorted_keys ws hn
  have hmem : ∀ v, v ∈ ws.insertionSort (· ≤ ·) ↔ v ∈ ws := fun v => List.mem_insertionSort _
  have hlen : (ws.insertionSort (· ≤ ·)).length = ws.length := List.length_insertionSort _ _
  unfold neighbours
  simp only
  generalize hS : ws.insertionSort (· ≤ ·) = s at hs hmem hlen
  have hlen1 : ¬ s.length = 1 := by omega
  rw [if_neg hlen1]
  cases ha : argmin (s.map (fun w => |w - wl|)) with
  | error e =>
    have := (argmin_error _ e ha).1
    have : s = [] := by simpa using this
    rw [this] at hlen; simp at hlen; omega
  | ok i0 =>
    obtain ⟨v, h1, hmin, _⟩ := argmin_spec _ i0 ha
    rw [List.getElem?_map] at h1
    cases hw0 : s[i0]? with
    | none => rw [hw0] at h1; cases h1
    | some w0 =>
      rw [hw0] at h1
      simp only [Option.map_some, Option.some.injEq] at h1
      have hm0 : w0 ∈ s := List.mem_of_getElem? hw0
      have near : ∀ v ∈ s, |w0 - wl| ≤ |v - wl| := fun v hv => by
        rw [h1]; exact hmin _ (List.mem_map.mpr ⟨v, hv, rfl⟩)
      have hi0 : i0 < s.length := (List.getElem?_eq_some_iff.mp hw0).1
      cases hlo : minE s with
      | error e => have := (minE_error hlo).1; rw [this] at hlen; simp at hlen; omega
      | ok lo =>
        cases hhi : maxE s with
        | error e => have := (maxE_error hhi).1; rw [this] at hlen; simp at hlen; omega
        | ok hi =>
          obtain ⟨lom, lole⟩ := minE_spec hlo
          obtain ⟨him, hile⟩ := maxE_spec hhi
          have hne : w0 ≠ wl := fun h => hw (h ▸ (hmem w0).mp hm0)
          simp only [pyIndex_nat s i0 w0 hw0]
          -- the two possible second positions
          have up : i0 + 1 < s.length → ∃ w1, s[i0 + 1]? = some w1 ∧ w0 < w1 ∧ ∀ v ∈ s, v ≤ w0 ∨ w1 ≤ v := by
            intro h
            refine ⟨s[i0 + 1], List.getElem?_eq_getElem h, getElem_lt s hs i0 (i0 + 1) _ _ hw0 (List.getElem?_eq_getElem h) (by omega), ?_⟩
            intro v hv
            obtain ⟨j, hj⟩ := List.mem_iff_getElem?.mp hv
            rcases le_or_gt j i0 with c | c
            · left
              rcases c.eq_or_lt with c | c
              · rw [c, hw0] at hj; cases hj; exact le_rfl
              · exact (getElem_lt s hs j i0 _ _ hj hw0 c).le
            · right
              have hj1 : j < s.length := (List.getElem?_eq_some_iff.mp hj).1
              rcases (Nat.succ_le_of_lt c).eq_or_lt with c | c
              · have : s[i0 + 1]? = some v := by rw [show i0 + 1 = j from c]; exact hj
                rw [List.getElem?_eq_getElem h] at this; cases this; exact le_rfl
              · exact (getElem_lt s hs (i0 + 1) j _ _ (List.getElem?_eq_getElem h) hj c).le
          have down : 0 < i0 → ∃ w1, s[i0 - 1]? = some w1 ∧ w1 < w0 ∧ ∀ v ∈ s, v ≤ w1 ∨ w0 ≤ v := by
            intro h
            have hb : i0 - 1 < s.length := by omega
            refine ⟨s[i0 - 1], List.getElem?_eq_getElem hb, getElem_lt s hs (i0 - 1) i0 _ _ (List.getElem?_eq_getElem hb) hw0 (by omega), ?_⟩
            intro v hv
            obtain ⟨j, hj⟩ := List.mem_iff_getElem?.mp hv
            rcases le_or_gt i0 j with c | c
            · right
              rcases c.eq_or_lt with c | c
              · rw [← c, hw0] at hj; cases hj; exact le_rfl
              · exact (getElem_lt s hs i0 j _ _ hw0 hj c).le
            · left
              rcases (show j ≤ i0 - 1 by omega).eq_or_lt with c | c
              · rw [c, List.getElem?_eq_getElem hb] at hj; cases hj; exact le_rfl
              · exact (getElem_lt s hs j (i0 - 1) _ _ hj (List.getElem?_eq_getElem hb) c).le
          have goUp : ∀ w1, s[i0 + 1]? = some w1 → pyIndex s ((i0 : Int) + 1) = .ok w1 := by
            intro w1 h
            have : ((i0 : Int) + 1) = ((i0 + 1 : Nat) : Int) := by omega
            rw [this]; exact pyIndex_nat s _ w1 h
          have goDown : 0 < i0 → ∀ w1, s[i0 - 1]? = some w1 → pyIndex s ((i0 : Int) - 1) = .ok w1 := by
            intro hp w1 h
            have : ((i0 : Int) - 1) = ((i0 - 1 : Nat) : Int) := by omega
            rw [this]; exact pyIndex_nat s _ w1 h
          have first : (∀ v ∈ s, w0 ≤ v) → i0 = 0 := by
            intro h
            by_contra hc
            obtain ⟨w1, h1, h2, _⟩ := down (by omega)
            exact absurd (h w1 (List.mem_of_getElem? h1)) (not_le.mpr h2)
          have last : (∀ v ∈ s, v ≤ w0) → i0 + 1 = s.length := by
            intro h
            by_contra hc
            obtain ⟨w1, h1, h2, _⟩ := up (by omega)
            exact absurd (h w1 (List.mem_of_getElem? h1)) (not_le.mpr h2)
          have abs_up : ∀ v, wl < v → |v - wl| = v - wl := fun v h => abs_of_pos (sub_pos.mpr h)
          have abs_dn : ∀ v, v < wl → |v - wl| = wl - v := fun v h => by rw [abs_sub_comm]; exact abs_of_pos (sub_pos.mpr h)
          have snotin : ∀ v ∈ s, v ≠ wl := fun v hv h => hw (h ▸ (hmem v).mp hv)
          by_cases hin : lo ≤ wl ∧ wl ≤ hi
          · have loL : lo < wl := lt_of_le_of_ne hin.1 (snotin lo lom)
            have hiL : wl < hi := lt_of_le_of_ne hin.2 (Ne.symm (snotin hi him))
            rcases lt_or_gt_of_ne hne with hlt | hgt
            · -- the nearest is below
              have hidx : i0 + 1 < s.length := by
                by_contra hc
                obtain ⟨j, hj⟩ := List.mem_iff_getElem?.mp him
                have hj1 : j < s.length := (List.getElem?_eq_some_iff.mp hj).1
                have : ¬ (w0 < hi) := by rw [getElem_le_iff s hs i0 j _ _ hw0 hj]; omega
                exact this (hlt.trans hiL)
              obtain ⟨w1, e1, l1, b1⟩ := up hidx
              have hm1 := List.mem_of_getElem? e1
              have hup : wl < w1 := by
                rcases lt_or_gt_of_ne (snotin w1 hm1) with c | c
                · have := near w1 hm1
                  rw [abs_dn _ hlt, abs_dn _ c] at this
                  linarith
                · exact c
              have hsec : secondIndex lo hi w0 wl i0 = (i0 : Int) + 1 := by
                unfold secondIndex
                rw [if_pos hin, if_neg (by simp only [gt_iff_lt, sub_pos, not_lt]; exact hlt.le)]
              rw [hsec, goUp w1 e1]
              refine ⟨w0, w1, rfl, (hmem _).mp hm0, (hmem _).mp hm1, l1.ne, fun v hv => near v ((hmem v).mpr hv), ?_, ?_, ?_⟩
              · intro _
                rw [min_eq_left l1.le, max_eq_right l1.le]
                refine ⟨hlt, hup, ?_⟩
                intro v hv ⟨c1, c2⟩
                rcases b1 v ((hmem v).mpr hv) with c | c
                · exact absurd c1 (not_lt.mpr c)
                · exact absurd c2 (not_lt.mpr c)
              · intro h; exact absurd (h w0 ((hmem _).mp hm0)) (not_lt.mpr hlt.le)
              · intro h; exact absurd (h hi ((hmem _).mp him)) (not_lt.mpr hiL.le)
            · -- the nearest is above
              have hidx : 0 < i0 := by
                by_contra hc
                obtain ⟨j, hj⟩ := List.mem_iff_getElem?.mp lom
                have : ¬ (lo < w0) := by rw [getElem_le_iff s hs j i0 _ _ hj hw0]; omega
                exact this (loL.trans hgt)
              obtain ⟨w1, e1, l1, b1⟩ := down hidx
              have hm1 := List.mem_of_getElem? e1
              have hdn : w1 < wl := by
                rcases lt_or_gt_of_ne (snotin w1 hm1) with c | c
                · exact c
                · have := near w1 hm1
                  rw [abs_up _ hgt, abs_up _ c] at this
                  linarith
              have hsec : secondIndex lo hi w0 wl i0 = (i0 : Int) - 1 := by
                unfold secondIndex
                rw [if_pos hin, if_pos (sub_pos.mpr hgt)]
              rw [hsec, goDown hidx w1 e1]
              refine ⟨w0, w1, rfl, (hmem _).mp hm0, (hmem _).mp hm1, l1.ne', fun v hv => near v ((hmem v).mpr hv), ?_, ?_, ?_⟩
              · intro _
                rw [min_eq_right l1.le, max_eq_left l1.le]
                refine ⟨hdn, hgt, ?_⟩
                intro v hv ⟨c1, c2⟩
                rcases b1 v ((hmem v).mpr hv) with c | c
                · exact absurd c1 (not_lt.mpr c)
                · exact absurd c2 (not_lt.mpr c)
              · intro h; exact absurd (h lo ((hmem _).mp lom)) (not_lt.mpr loL.le)
              · intro h; exact absurd (h w0 ((hmem _).mp hm0)) (not_lt.mpr hgt.le)
          · rcases not_and_or.mp hin with c | c
            · have below : ∀ v ∈ s, wl < v := fun v hv => (not_le.mp c).trans_le (lole v hv)
              have hz : i0 = 0 := first (fun v hv => by
                have := near v hv
                rw [abs_up _ (below w0 hm0), abs_up _ (below v hv)] at this
                linarith)
              obtain ⟨w1, e1, l1, b1⟩ := up (by omega)
              have hm1 := List.mem_of_getElem? e1
              have hsec : secondIndex lo hi w0 wl i0 = (i0 : Int) + 1 := by
                unfold secondIndex
                rw [if_neg hin, if_pos (sub_pos.mpr (below w0 hm0))]
              rw [hsec, goUp w1 e1]
              refine ⟨w0, w1, rfl, (hmem _).mp hm0, (hmem _).mp hm1, l1.ne, fun v hv => near v ((hmem v).mpr hv), ?_, ?_, ?_⟩
              · intro ⟨⟨v, hv, hc⟩, _⟩; exact absurd (below v ((hmem v).mpr hv)) (not_lt.mpr hc.le)
              · intro _
                refine ⟨l1, fun v hv => ?_⟩
                rcases b1 v ((hmem v).mpr hv) with q | q
                · left
                  have := near v ((hmem v).mpr hv)
                  rw [abs_up _ (below w0 hm0), abs_up _ (below v ((hmem v).mpr hv))] at this
                  exact le_antisymm q (by linarith)
                · right; exact q
              · intro h; exact absurd (h w0 ((hmem _).mp hm0)) (not_lt.mpr (below w0 hm0).le)
            · have above : ∀ v ∈ s, v < wl := fun v hv => (hile v hv).trans_lt (not_le.mp c)
              have hz : i0 + 1 = s.length := last (fun v hv => by
                have := near v hv
                rw [abs_dn _ (above w0 hm0), abs_dn _ (above v hv)] at this
                linarith)
              obtain ⟨w1, e1, l1, b1⟩ := down (by omega)
              have hm1 := List.mem_of_getElem? e1
              have hsec : secondIndex lo hi w0 wl i0 = (i0 : Int) - 1 := by
                unfold secondIndex
                rw [if_neg hin, if_neg (by simp only [gt_iff_lt, sub_pos, not_lt]; exact (above w0 hm0).le)]
              rw [hsec, goDown (by omega) w1 e1]
              refine ⟨w0, w1, rfl, (hmem _).mp hm0, (hmem _).mp hm1, l1.ne', fun v hv => near v ((hmem v).mpr hv), ?_, ?_, ?_⟩
              · intro ⟨_, ⟨v, hv, hc⟩⟩; exact absurd (above v ((hmem v).mpr hv)) (not_lt.mpr hc.le)
              · intro h; exact absurd (h w0 ((hmem _).mp hm0)) (not_lt.mpr (above w0 hm0).le)
              · intro _
                refine ⟨l1, fun v hv => ?_⟩
                rcases b1 v ((hmem v).mpr hv) with q | q
                · right; exact q
                · left
                  have := near v ((hmem v).mpr hv)
                  rw [abs_dn _ (above w0 hm0), abs_dn _ (above v ((hmem v).mpr hv))] at this
                  exact le_antisymm (by linarith) q

/-- The stored images of a file: one per wavelength, all of the same size. -/
structure Stored (fd : Dict α (Paos α)) : Prop where
  nodup : (fd.map Prod.fst).Nodup
  same : ∀ p ∈ fd, ∀ q ∈ fd, p.2.Same q.2

/-- A stored wavelength gives the stored image. -/
theorem paos_stored (fd : Dict α (Paos α)) (h : Stored fd) (w : α) (p : Paos α) (hm : (w, p) ∈ fd) : paosAt fd w = .ok p := by
  unfold paosAt
  rw [Dict.get?_of_mem h.nodup hm]

theorem interpolate_two (fd : Dict α (Paos α)) (h : Stored fd) (wl : α) (h2 : 2 ≤ fd.length) (hw : wl ∉ fd.map Prod.fst) :
    ∃ w0 w1, neighbours (fd.map Prod.fst) wl = .ok (w0, w1) ∧ ∃ p0 p1, (w0, p0) ∈ fd ∧ (w1, p1) ∈ fd ∧
      paosAt fd wl = .ok (Paos.mix ((wl - w0) / (w1 - w0)) p0 p1) ∧
      paosAt fd wl = .ok (Paos.mix ((wl - w1) / (w0 - w1)) p1 p0) := by
  obtain ⟨w0, w1, hn, m0, m1, hne, _⟩ := neighbours_spec (fd.map Prod.fst) wl h.nodup (by simpa using h2) hw
  obtain ⟨⟨a0, p0⟩, q0, e0⟩ := List.mem_map.mp m0
  obtain ⟨⟨a1, p1⟩, q1, e1⟩ := List.mem_map.mp m1
  simp only at e0 e1
  subst e0 e1
  have hnone : fd.get? wl = none := by
    cases hg : fd.get? wl with
    | none => rfl
    | some p => exact absurd (List.mem_map.mpr ⟨_, Dict.mem_of_get? hg, rfl⟩) hw
  have key : paosAt fd wl = blend a0 a1 p0 p1 wl := by
    unfold paosAt
    rw [hnone]
    unfold interpolatePaos
    rw [hn]
    simp only [Dict.getE, Dict.get?_of_mem h.nodup q0, Dict.get?_of_mem h.nodup q1]
  have hb := blend_mix a0 a1 p0 p1 wl hne (h.same _ q0 _ q1)
  exact ⟨a0, a1, hn, p0, p1, q0, q1, by rw [key]; exact hb.1, by rw [key]; exact hb.2⟩

/-- Between stored wavelengths the image is the linear mixture of the two images next to the wavelength, with
weights between 0 and 1. -/
theorem paos_between (fd : Dict α (Paos α)) (h : Stored fd) (wl : α) (hw : wl ∉ fd.map Prod.fst)
    (hlo : ∃ v ∈ fd.map Prod.fst, v < wl) (hhi : ∃ v ∈ fd.map Prod.fst, wl < v) :
    ∃ lo hi p q, (lo, p) ∈ fd ∧ (hi, q) ∈ fd ∧ lo < wl ∧ wl < hi ∧
      (∀ v ∈ fd.map Prod.fst, ¬ (lo < v ∧ v < hi)) ∧
      paosAt fd wl = .ok (Paos.mix ((wl - lo) / (hi - lo)) p q) ∧
      0 ≤ (wl - lo) / (hi - lo) ∧ (wl - lo) / (hi - lo) ≤ 1 := by
  have h2 : 2 ≤ fd.length := by
    obtain ⟨v, hv, c⟩ := hlo
    obtain ⟨u, hu, d⟩ := hhi
    rcases fd with _ | ⟨a, _ | ⟨b, fd⟩⟩
    · simp at hv
    · simp at hv hu; subst hv hu; exact absurd (c.trans d) (lt_irrefl _)
    · simp
  obtain ⟨w0, w1, hn, p0, p1, q0, q1, e1, e2⟩ := interpolate_two fd h wl h2 hw
  obtain ⟨w0', w1', hn', _, _, hne, _, hb, _⟩ := neighbours_spec (fd.map Prod.fst) wl h.nodup (by simpa using h2) hw
  rw [hn] at hn'
  cases hn'
  obtain ⟨c1, c2, c3⟩ := hb ⟨hlo, hhi⟩
  have frac : ∀ lo hi : α, lo < wl → wl < hi → 0 ≤ (wl - lo) / (hi - lo) ∧ (wl - lo) / (hi - lo) ≤ 1 := by
    intro lo hi a b
    have : 0 < hi - lo := by linarith
    constructor
    · apply div_nonneg <;> linarith
    · rw [div_le_one this]; linarith
  rcases lt_or_gt_of_ne hne with c | c
  · rw [min_eq_left c.le] at c1 c3
    rw [max_eq_right c.le] at c2 c3
    exact ⟨w0, w1, p0, p1, q0, q1, c1, c2, c3, e1, frac _ _ c1 c2⟩
  · rw [min_eq_right c.le] at c1 c3
    rw [max_eq_left c.le] at c2 c3
    exact ⟨w1, w0, p1, p0, q1, q0, c1, c2, c3, e2, frac _ _ c1 c2⟩

/-- A mixture with weights between 0 and 1 lies between its two parts. -/
theorem mixture_between (s a b : α) (h0 : 0 ≤ s) (h1 : s ≤ 1) : min a b ≤ mixture s a b ∧ mixture s a b ≤ max a b := by
  unfold mixture
  constructor
  · have e1 := mul_le_mul_of_nonneg_left (min_le_left a b) (sub_nonneg.mpr h1)
    have e2 := mul_le_mul_of_nonneg_left (min_le_right a b) h0
    linarith
  · have e1 := mul_le_mul_of_nonneg_left (le_max_left a b) (sub_nonneg.mpr h1)
    have e2 := mul_le_mul_of_nonneg_left (le_max_right a b) h0
    linarith

/-- Beyond the stored wavelengths the image is extrapolated from the two stored wavelengths nearest to that end. -/
theorem paos_outside (fd : Dict α (Paos α)) (h : Stored fd) (wl : α) (h2 : 2 ≤ fd.length)
    (hout : (∀ v ∈ fd.map Prod.fst, wl < v) ∨ (∀ v ∈ fd.map Prod.fst, v < wl)) :
    ∃ w0 w1 p q, (w0, p) ∈ fd ∧ (w1, q) ∈ fd ∧ w0 ≠ w1 ∧
      (∀ v ∈ fd.map Prod.fst, |w0 - wl| ≤ |v - wl| ∧ (v = w0 ∨ |w1 - wl| ≤ |v - wl|)) ∧
      paosAt fd wl = .ok (Paos.mix ((wl - w0) / (w1 - w0)) p q) := by
  have hw : wl ∉ fd.map Prod.fst := by
    intro hm
    rcases hout with c | c
    · exact lt_irrefl _ (c wl hm)
    · exact lt_irrefl _ (c wl hm)
  obtain ⟨w0, w1, hn, p0, p1, q0, q1, e1, e2⟩ := interpolate_two fd h wl h2 hw
  obtain ⟨w0', w1', hn', _, m1, hne, near, _, lowEnd, highEnd⟩ := neighbours_spec (fd.map Prod.fst) wl h.nodup (by simpa using h2) hw
  rw [hn] at hn'
  cases hn'
  refine ⟨w0, w1, p0, p1, q0, q1, hne, ?_, e1⟩
  intro v hv
  refine ⟨near v hv, ?_⟩
  rcases hout with c | c
  · rcases (lowEnd c).2 v hv with d | d
    · exact .inl d
    · right
      rw [abs_of_pos (sub_pos.mpr (c w1 m1)), abs_of_pos (sub_pos.mpr (c v hv))]
      linarith
  · rcases (highEnd c).2 v hv with d | d
    · exact .inl d
    · right
      rw [abs_of_neg (sub_neg.mpr (c w1 m1)), abs_of_neg (sub_neg.mpr (c v hv))]
      linarith

/-- A file with one wavelength (or none) cannot be interpolated. -/
theorem paos_single (fd : Dict α (Paos α)) (wl : α) (h : fd.length ≤ 1) (hw : wl ∉ fd.map Prod.fst) :
    paosAt fd wl = .error .valueError := by
  have hnone : fd.get? wl = none := by
    cases hg : fd.get? wl with
    | none => rfl
    | some p => exact absurd (List.mem_map.mpr ⟨_, Dict.mem_of_get? hg, rfl⟩) hw
  unfold paosAt
  rw [hnone]
  unfold interpolatePaos
  rcases fd with _ | ⟨a, _ | ⟨b, fd⟩⟩
  · simp [neighbours, argmin]
  · simp [neighbours]
  · simp at h

/-- Three stored wavelengths, asked for one in between. -/
theorem demo_paos : ∃ p : Paos ℚ, paosAt [(1, ⟨[1, 0], 1, 1, [0], 1⟩), (3, ⟨[0, 1], 2, 1, [0], 1⟩), (2, ⟨[1, 1], 1, 1, [0], 1⟩)] (9 / 4) = .ok p ∧
    p.ima = [3 / 4, 1] ∧ p.dx = 5 / 4 := by
  refine ⟨⟨[3 / 4, 1], 5 / 4, 1, [0], 1⟩, ?_, rfl, rfl⟩
  decide +kernel

end ExoRad.Psf
