import Verif.Model.Psf
import Verif.Props.Rebin
import Verif.Props.Grid
import Mathlib.Tactic.FieldSimp
import Mathlib.Tactic.Linarith
import Mathlib.Tactic.Ring
import Mathlib.Tactic.NormNum
import Mathlib.Tactic.Positivity

/-!
# Apertures and extraction windows
-/

namespace ExoRad.Psf

open ExoRad.Rebin

variable {α : Type} [Field α] [LinearOrder α] [IsStrictOrderedRing α]

/-! ## The search for the radius that encircles a given energy -/

theorem searchLoop_hangs (enc : Nat → α) (eec : α) : ∀ (fuel i : Nat) (last : α) (acc : List (α × α)),
    last < eec + 1 / 50 → (∀ j, i < j → enc j < eec + 1 / 50) → searchLoop enc eec fuel i last acc = none
  | 0, _, _, _, _, _ => rfl
  | fuel + 1, i, last, acc, h, hj => by
    unfold searchLoop
    rw [if_pos h]
    exact searchLoop_hangs enc eec fuel (i + 1) _ _ (hj _ (by omega)) (fun j hj' => hj j (by omega))

/-- The points (energy, radius) for the radii `i + 1, …, i + m`. -/
def points (enc : Nat → α) (i m : Nat) : List (α × α) := (List.range m).map (fun k => (enc (i + k + 1), ((i + k + 1 : Nat) : α)))

theorem points_succ (enc : Nat → α) (i m : Nat) : points enc i (m + 1) = (enc (i + 1), ((i + 1 : Nat) : α)) :: points enc (i + 1) m := by
  unfold points
  rw [List.range_succ_eq_map]
  simp only [List.map_cons, List.map_map, Nat.add_zero, List.cons.injEq, true_and]
  apply List.map_congr_left
  intro k _
  simp only [Function.comp]
  have : i + (k + 1) + 1 = i + 1 + k + 1 := by omega
  rw [this]

theorem searchLoop_stops (enc : Nat → α) (eec : α) : ∀ (m fuel i : Nat) (last : α) (acc : List (α × α)), m < fuel →
    (m = 0 → eec + 1 / 50 ≤ last) → (0 < m → last < eec + 1 / 50 ∧ eec + 1 / 50 ≤ enc (i + m)) →
    (∀ j, i < j → j < i + m → enc j < eec + 1 / 50) →
    searchLoop enc eec fuel i last acc = some ((points enc i m).reverse ++ acc)
  | 0, fuel + 1, i, last, acc, _, h0, _, _ => by
    unfold searchLoop
    rw [if_neg (not_lt.mpr (h0 rfl))]
    simp [points]
  | m + 1, fuel + 1, i, last, acc, hf, _, h1, hj => by
    unfold searchLoop
    rw [if_pos (h1 (by omega)).1]
    have he : i + (m + 1) = i + 1 + m := by omega
    rw [searchLoop_stops enc eec m fuel (i + 1) _ _ (by omega), points_succ]
    · simp
    · intro hm; subst hm; exact (h1 (by omega)).2
    · intro hm; exact ⟨hj _ (by omega) (by omega), by rw [← he]; exact (h1 (by omega)).2⟩
    · intro j a b; exact hj j (by omega) (by omega)

theorem segment_points (enc : Nat → α) (x : α) : ∀ (m i : Nat), 0 < m → enc i < x → x ≤ enc (i + m) →
    ∃ k, i ≤ k ∧ k < i + m ∧ enc k < x ∧ x ≤ enc (k + 1) ∧
      Rebin.segment (enc i, ((i : Nat) : α)) (points enc i m) x = (k : α) + (x - enc k) / (enc (k + 1) - enc k)
  | 0, _, h, _, _ => by omega
  | m + 1, i, _, h1, h2 => by
    rw [points_succ]
    unfold Rebin.segment
    by_cases hx : x ≤ enc (i + 1)
    · refine ⟨i, le_rfl, by omega, h1, hx, ?_⟩
      rw [if_pos hx]
      push_cast
      have : ((i : α) + 1 - i) = 1 := by ring
      rw [this]; ring
    · rw [if_neg hx]
      have hm : 0 < m := by
        rcases Nat.eq_zero_or_pos m with h | h
        · subst h; exact absurd h2 hx
        · exact h
      have he : i + (m + 1) = i + 1 + m := by omega
      obtain ⟨k, a, b, c, d, e⟩ := segment_points enc x m (i + 1) hm (not_le.mp hx) (by rw [← he]; exact h2)
      exact ⟨k, by omega, by omega, c, d, e⟩

theorem points_mem (enc : Nat → α) (i m : Nat) (p : α × α) : p ∈ points enc i m ↔ ∃ j, i < j ∧ j ≤ i + m ∧ p = (enc j, (j : α)) := by
  unfold points
  simp only [List.mem_map, List.mem_range]
  constructor
  · rintro ⟨k, hk, rfl⟩; exact ⟨i + k + 1, by omega, by omega, rfl⟩
  · rintro ⟨j, h1, h2, rfl⟩
    refine ⟨j - i - 1, by omega, ?_⟩
    have : i + (j - i - 1) + 1 = j := by omega
    rw [this]

theorem points_sorted (enc : Nat → α) (hm : ∀ i j, 1 ≤ i → i ≤ j → enc i ≤ enc j) : ∀ m i,
    (points enc i m).Pairwise (fun p q => p.1 ≤ q.1)
  | 0, _ => List.Pairwise.nil
  | m + 1, i => by
    rw [points_succ, List.pairwise_cons]
    refine ⟨?_, points_sorted enc hm m (i + 1)⟩
    intro p hp
    obtain ⟨j, h1, _, rfl⟩ := (points_mem enc (i + 1) m p).mp hp
    exact hm _ _ (by omega) (by omega)

/-- The first radius whose energy is 0.02 above the request. -/
theorem first_radius (enc : Nat → α) (eec : α) (n : Nat) (hn : 1 ≤ n) (h : eec + 1 / 50 ≤ enc n) :
    ∃ m, 1 ≤ m ∧ m ≤ n ∧ eec + 1 / 50 ≤ enc m ∧ ∀ j, 0 < j → j < m → enc j < eec + 1 / 50 := by
  induction n using Nat.strong_induction_on with
  | _ n ih =>
    by_cases hc : ∃ j, 0 < j ∧ j < n ∧ eec + 1 / 50 ≤ enc j
    · obtain ⟨j, h0, h1, h2⟩ := hc
      obtain ⟨m, a, b, c, d⟩ := ih j h1 h0 h2
      exact ⟨m, a, by omega, c, d⟩
    · refine ⟨n, hn, le_rfl, h, ?_⟩
      intro j h0 h1
      by_contra hc2
      exact hc ⟨j, h0, h1, not_lt.mp hc2⟩

/-- After the search has ended: the interpolation over the radii tried. -/
theorem search_ends (enc : Nat → α) (eec : α) (h0 : 0 ≤ eec) (n : Nat) (hn : 1 ≤ n) (h : eec + 1 / 50 ≤ enc n) :
    ∃ m, 1 ≤ m ∧ m ≤ n ∧ eec + 1 / 50 ≤ enc m ∧ ∀ fuel, n < fuel →
      findApertureRadius enc eec fuel = some (interpStrict (points enc 0 m) eec) := by
  obtain ⟨m, a, b, c, d⟩ := first_radius enc eec n hn h
  refine ⟨m, a, b, c, ?_⟩
  intro fuel hf
  unfold findApertureRadius
  rw [searchLoop_stops enc eec m fuel 0 0 [] (by omega) (by omega) ?_ ?_]
  · simp
  · intro _
    refine ⟨?_, by rw [Nat.zero_add]; exact c⟩
    have : (0 : α) < 1 / 50 := by norm_num
    linarith
  · intro j h1 h2; exact d j h1 (by omega)

/-- With an energy that grows with the radius and reaches the request plus 0.02: the radius lies between the last
whole radius with less than the requested energy and the next one, where a linear energy would reach the request. The
hypothesis `enc 1 < eec` excludes requests below the energy within radius 1. -/
theorem aperture_found_partial (enc : Nat → α) (eec : α) (hm : ∀ i j, 1 ≤ i → i ≤ j → enc i ≤ enc j) (h0 : 0 ≤ eec)
    (h1 : enc 1 < eec) (n : Nat) (hn : 1 ≤ n) (h : eec + 1 / 50 ≤ enc n) :
    ∃ r k, (∀ fuel, n < fuel → findApertureRadius enc eec fuel = some (.ok r)) ∧ 1 ≤ k ∧ enc k < eec ∧ eec ≤ enc (k + 1) ∧
      (k : α) < r ∧ r ≤ (k : α) + 1 ∧ enc k + (r - k) * (enc (k + 1) - enc k) = eec := by
  obtain ⟨m, a, b, c, d⟩ := search_ends enc eec h0 n hn h
  have small : (0 : α) < 1 / 50 := by norm_num
  obtain ⟨m, rfl⟩ : ∃ m', m = m' + 1 := ⟨m - 1, by omega⟩
  have hmpos : 0 < m := by
    rcases Nat.eq_zero_or_pos m with z | z
    · subst z; simp only [Nat.zero_add] at c; linarith
    · exact z
  have hx : eec ≤ enc (1 + m) := by rw [Nat.add_comm]; linarith
  obtain ⟨k, k1, k2, k3, k4, k5⟩ := segment_points enc eec m 1 hmpos h1 hx
  have hd : 0 < enc (k + 1) - enc k := by linarith
  refine ⟨(k : α) + (eec - enc k) / (enc (k + 1) - enc k), k, ?_, k1, k3, k4, ?_, ?_, ?_⟩
  · intro fuel hf
    rw [d fuel hf]
    have hsort : (points enc 0 (m + 1)).insertionSort (fun p q => p.1 ≤ q.1) = points enc 0 (m + 1) := by
      rw [List.Pairwise.insertionSort_eq]
      exact points_sorted enc hm (m + 1) 0
    have hmin : ∃ lo, minE ((points enc 0 (m + 1)).map Prod.fst) = .ok lo ∧ lo < eec := by
      cases hl : minE ((points enc 0 (m + 1)).map Prod.fst) with
      | error e => have := (minE_error hl).1; rw [points_succ] at this; simp at this
      | ok lo =>
        refine ⟨lo, rfl, ((minE_spec hl).2 (enc 1) ?_).trans_lt h1⟩
        rw [points_succ]; simp
    have hmax : ∃ hi, maxE ((points enc 0 (m + 1)).map Prod.fst) = .ok hi ∧ eec ≤ hi := by
      cases hl : maxE ((points enc 0 (m + 1)).map Prod.fst) with
      | error e => have := (maxE_error hl).1; rw [points_succ] at this; simp at this
      | ok hi =>
        refine ⟨hi, rfl, hx.trans ((maxE_spec hl).2 _ ?_)⟩
        exact List.mem_map.mpr ⟨_, (points_mem enc 0 (m + 1) _).mpr ⟨1 + m, by omega, by omega, rfl⟩, rfl⟩
    obtain ⟨lo, e1, l1⟩ := hmin
    obtain ⟨hi, e2, l2⟩ := hmax
    unfold interpStrict
    rw [e1, e2]
    simp only
    rw [if_neg (by rintro (c | c) <;> linarith)]
    unfold interp interpSorted
    rw [hsort, points_succ]
    simp only [Nat.zero_add]
    rw [if_neg (not_lt.mpr h1.le), if_neg ?_, k5]
    rw [not_lt]
    have hlast : ∃ hi', lastX (enc 1, ((1 : Nat) : α)) (points enc 1 m) = hi' ∧ eec ≤ hi' := by
      obtain ⟨m', rfl⟩ : ∃ m', m = m' + 1 := ⟨m - 1, by omega⟩
      refine ⟨_, rfl, ?_⟩
      unfold lastX
      have : (points enc 1 (m' + 1)) = points enc 1 m' ++ [(enc (1 + m' + 1), ((1 + m' + 1 : Nat) : α))] := by
        unfold points
        rw [List.range_succ, List.map_append]; rfl
      have e : 1 + m' + 1 = 1 + (m' + 1) := by omega
      simp only [this, e]
      rw [List.getLast_cons (by simp), List.getLast_append_of_ne_nil _ (by simp)]
      exact hx
    obtain ⟨hi', e, l⟩ := hlast
    rw [e]; exact l
  · have : 0 < (eec - enc k) / (enc (k + 1) - enc k) := div_pos (by linarith) hd
    linarith
  · have : (eec - enc k) / (enc (k + 1) - enc k) ≤ 1 := by rw [div_le_one hd]; linarith
    linarith
  · rw [add_sub_cancel_left, div_mul_cancel₀ _ hd.ne']; ring

/-- A request below the energy within the smallest radius raises ValueError although radii below 1 would do. -/
theorem aperture_too_small (enc : Nat → α) (eec : α) (hm : ∀ i j, 1 ≤ i → i ≤ j → enc i ≤ enc j) (h0 : 0 ≤ eec)
    (h1 : eec < enc 1) (n : Nat) (hn : 1 ≤ n) (h : eec + 1 / 50 ≤ enc n) (fuel : Nat) (hf : n < fuel) :
    findApertureRadius enc eec fuel = some (.error .valueError) := by
  obtain ⟨m, a, b, c, d⟩ := search_ends enc eec h0 n hn h
  rw [d fuel hf]
  unfold interpStrict
  cases hl : minE ((points enc 0 m).map Prod.fst) with
  | error e => rfl
  | ok lo =>
    cases hl2 : maxE ((points enc 0 m).map Prod.fst) with
    | error e => rfl
    | ok hi =>
      simp only
      rw [if_pos]
      left
      obtain ⟨p, hp, e⟩ := List.mem_map.mp (minE_spec hl).1
      obtain ⟨j, h2, _, rfl⟩ := (points_mem enc 0 m p).mp hp
      rw [← e]
      exact h1.trans_le (hm 1 j le_rfl (by omega))

/-- The search never ends for a request above 0.98: the energy is a fraction and cannot reach the request plus 0.02. -/
theorem aperture_hangs (enc : Nat → α) (eec : α) (h1 : ∀ i, enc i ≤ 1) (h : 49 / 50 < eec) (fuel : Nat) :
    findApertureRadius enc eec fuel = none := by
  unfold findApertureRadius
  have hb : (1 : α) < eec + 1 / 50 := by linarith
  rw [searchLoop_hangs enc eec fuel 0 0 [] (by linarith) (fun j _ => (h1 j).trans_lt hb)]

/-- The search ends exactly when some radius has the requested energy plus 0.02. -/
theorem aperture_terminates_iff (enc : Nat → α) (eec : α) (h0 : 0 ≤ eec) :
    (∃ fuel, findApertureRadius enc eec fuel ≠ none) ↔ ∃ n, 1 ≤ n ∧ eec + 1 / 50 ≤ enc n := by
  constructor
  · rintro ⟨fuel, hf⟩
    by_contra hc
    apply hf
    unfold findApertureRadius
    have small : (0 : α) < 1 / 50 := by norm_num
    rw [searchLoop_hangs enc eec fuel 0 0 [] (by linarith) (fun j hj => by
      by_contra hc2
      exact hc ⟨j, hj, not_lt.mp hc2⟩)]
  · rintro ⟨n, hn, h⟩
    obtain ⟨m, _, _, _, d⟩ := search_ends enc eec h0 n hn h
    exact ⟨n + 1, by rw [d (n + 1) (by omega)]; simp⟩

/-- Energy `1 - 1 / 2^i` within the radius `i`, and 7/8 requested. -/
theorem demo_aperture : findApertureRadius (fun i => (1 : ℚ) - 1 / 2 ^ i) (7 / 8) 10 = some (.ok 3) ∧
    findApertureRadius (fun i => (1 : ℚ) - 1 / 2 ^ i) (13 / 16) 10 = some (.ok (5 / 2)) ∧
    findApertureRadius (fun i => (1 : ℚ) - 1 / 2 ^ i) (1 / 4) 10 = some (.error .valueError) := by
  refine ⟨?_, ?_, ?_⟩ <;> decide +kernel

/-! ## The window of a photometer -/

/-- Precedence of the two ways to give an aperture; without either there is an UnboundLocalError. -/
theorem photometerWindow_radius (pi r : α) (e : Option α) (f : Focal α) (enc : Nat → α) (fuel : Nat) :
    photometerWindow pi ⟨some r, e⟩ f enc fuel = some (.ok (inPixels f (r ^ 2))) := rfl

theorem photometerWindow_none (pi : α) (f : Focal α) (enc : Nat → α) (fuel : Nat) :
    photometerWindow pi ⟨none, none⟩ f enc fuel = some (.error .unboundLocalError) := rfl

theorem photometerWindow_energy (pi e r : α) (f : Focal α) (enc : Nat → α) (fuel : Nat)
    (h : findApertureRadius enc e fuel = some (.ok r)) :
    photometerWindow pi ⟨none, some e⟩ f enc fuel = some (.ok (inPixels f (pi * r ^ 2))) := by
  unfold photometerWindow
  simp only [h]

/-- Pixels in a rectangle of `r` times the diffraction scales `F λ` of the two directions. -/
theorem inPixels_scales (f : Focal α) (a b : α) (hp : f.pixelBased = false) (hd : f.deltaPix ≠ 0) :
    inPixels f (a * b) = (a * (f.fnumX * f.wl) / f.deltaPix) * (b * (f.fnumY * f.wl) / f.deltaPix) := by
  unfold inPixels
  rw [if_neg (by simp [hp])]
  field_simp

/-- For one and the same radius the window found from the energy is `pi` times the window of a given radius: a given
radius is taken as the side of a square and not as the radius of a circle. -/
theorem radius_is_not_a_circle (pi e r : α) (f : Focal α) (enc : Nat → α) (fuel : Nat)
    (h : findApertureRadius enc e fuel = some (.ok r)) (s1 s2 : α)
    (h1 : photometerWindow pi ⟨none, some e⟩ f enc fuel = some (.ok s1))
    (h2 : photometerWindow pi ⟨some r, none⟩ f enc fuel = some (.ok s2)) : s1 = pi * s2 := by
  rw [photometerWindow_energy pi e r f enc fuel h] at h1
  rw [photometerWindow_radius] at h2
  cases h1; cases h2
  unfold inPixels
  split
  · rfl
  · ring

/-- The window has a positive size. -/
theorem photometerWindow_pos (pi s : α) (ap : Aperture α) (f : Focal α) (enc : Nat → α) (fuel : Nat) (hpi : 0 < pi)
    (hx : 0 < f.fnumX) (hy : 0 < f.fnumY) (hw : 0 < f.wl) (hd : 0 < f.deltaPix)
    (hr : ∀ r, ap.radius = some r → r ≠ 0) (hm : ∀ i j, 1 ≤ i → i ≤ j → enc i ≤ enc j)
    (he : ∀ e, ap.enE = some e → 0 ≤ e ∧ enc 1 < e)
    (h : photometerWindow pi ap f enc fuel = some (.ok s)) : 0 < s := by
  have key : ∀ r2, 0 < r2 → 0 < inPixels f r2 := by
    intro r2 h2
    unfold inPixels
    split
    · exact h2
    · positivity
  unfold photometerWindow at h
  split at h
  · rename_i r hr'
    cases h
    exact key _ (sq_pos_of_ne_zero (hr r hr'))
  · split at h
    · cases h
    · rename_i e he'
      cases hfa : findApertureRadius enc e fuel with
      | none => rw [hfa] at h; cases h
      | some x =>
        cases x with
        | error _ => rw [hfa] at h; cases h
        | ok r =>
          rw [hfa] at h
          cases h
          obtain ⟨n, hn, hreach⟩ := (aperture_terminates_iff enc e (he e he').1).mp ⟨fuel, by rw [hfa]; simp⟩
          obtain ⟨r', k, hall, k1, _, _, k4, _⟩ := aperture_found_partial enc e hm (he e he').1 (he e he').2 n hn hreach
          obtain ⟨m, a, b, c, d⟩ := search_ends enc e (he e he').1 n hn hreach
          -- the result does not depend on the fuel
          have same : r = r' := by
            have hmore : ∀ (fu i : Nat) (last : α) (acc res : List (α × α)) (d : Nat),
                searchLoop enc e fu i last acc = some res → searchLoop enc e (fu + d) i last acc = some res := by
              intro fu
              induction fu with
              | zero => intro i last acc res d h; cases h
              | succ fu ih =>
                intro i last acc res d h
                rw [Nat.succ_add]
                unfold searchLoop at h ⊢
                split
                · rename_i c; rw [if_pos c] at h; exact ih _ _ _ _ d h
                · rename_i c; rw [if_neg c] at h; exact h
            have h1 : findApertureRadius enc e (fuel + (n + 1)) = some (.ok r) := by
              unfold findApertureRadius at hfa ⊢
              cases hs : searchLoop enc e fuel 0 0 [] with
              | none => rw [hs] at hfa; cases hfa
              | some pts =>
                rw [hmore fuel 0 0 [] pts (n + 1) hs]
                rw [hs] at hfa
                exact hfa
            rw [hall (fuel + (n + 1)) (by omega)] at h1
            cases h1; rfl
          subst same
          have : 0 < r := (Nat.cast_nonneg k).trans_lt k4
          exact key _ (by positivity)

theorem demo_photometerWindow : photometerWindow (22 / 7 : ℚ) ⟨some 2, none⟩ ⟨10, 20, 1, 5, false⟩ (fun _ => 0) 0 = some (.ok 32) ∧
    photometerWindow (22 / 7 : ℚ) ⟨none, some (13 / 16)⟩ ⟨10, 20, 1, 5, true⟩ (fun i => 1 - 1 / 2 ^ i) 10 = some (.ok (275 / 14)) := by
  constructor <;> decide +kernel

end ExoRad.Psf

namespace ExoRad.Instrument

open ExoRad.Diffuse

variable {α : Type} [Field α] [LinearOrder α] [IsStrictOrderedRing α]

/-! ## The windows of a spectrometer -/

/-- Precedence: a number of pixels, else the diffraction width, scaled if a scale is given. -/
theorem spatialWidth_spec (d : WindowDescr α) (delta w : α) : spatialWidth d delta w =
    (d.spatialPixel).getD (2 * ((d.encE.map (fun pts => extend pts w)).getD (61 / 50)) * d.fnumY * w / delta *
      d.spatialScale.getD 1) := by
  unfold spatialWidth windowRadius
  cases d.spatialPixel <;> cases d.encE <;> cases d.spatialScale <;> simp

theorem diffs_map_sum (f : α → α) : ∀ (a : α) (l : List α), (Rebin.diffs ((a :: l).map f)).sum = f ((a :: l).getLast (by simp)) - f a
  | a, [] => by simp [Rebin.diffs]
  | a, b :: l => by
    have ih := diffs_map_sum f b l
    simp only [List.map_cons, Rebin.diffs, List.sum_cons] at ih ⊢
    rw [ih]
    have : (a :: b :: l).getLast (by simp) = (b :: l).getLast (by simp) := List.getLast_cons (List.cons_ne_nil b l)
    rw [this]
    ring

theorem diffs_nonneg : ∀ l : List α, l.Pairwise (· ≤ ·) → ∀ d ∈ Rebin.diffs l, 0 ≤ d
  | [], _, d, h => by simp [Rebin.diffs] at h
  | [_], _, d, h => by simp [Rebin.diffs] at h
  | a :: b :: l, hp, d, h => by
    simp only [Rebin.diffs, List.mem_cons] at h
    rcases h with rfl | h
    · have := (List.pairwise_cons.mp hp).1 b (by simp); linarith
    · exact diffs_nonneg (b :: l) (List.pairwise_cons.mp hp).2 d h

/-- The spectral windows of the bins tile the detector: their widths in pixels add up to the distance in pixels
between the ends of the band, for every increasing grid of bin edges and every increasing wavelength solution. -/
theorem spectralWidth_total (d : WindowDescr α) (hd : d.spectralPixel = none) (sol : List (α × α)) (delta a : α) (edges : List α)
    (hm : Monotone (extend (sol.map Prod.swap))) (he : (a :: edges).Pairwise (· ≤ ·)) :
    (spectralWidth d sol delta (a :: edges)).sum =
      (extend (sol.map Prod.swap) ((a :: edges).getLast (by simp)) - extend (sol.map Prod.swap) a) / delta := by
  unfold spectralWidth
  rw [hd]
  simp only
  have hnn : ∀ t ∈ Rebin.diffs ((a :: edges).map (extend (sol.map Prod.swap))), 0 ≤ t := by
    apply diffs_nonneg
    rw [List.pairwise_map]
    exact he.imp (fun h => hm h)
  have : (Rebin.diffs ((a :: edges).map (extend (sol.map Prod.swap)))).map (fun t => |t| / delta) =
      (Rebin.diffs ((a :: edges).map (extend (sol.map Prod.swap)))).map (fun t => t / delta) := by
    apply List.map_congr_left
    intro t ht
    rw [abs_of_nonneg (hnn t ht)]
  rw [this, ← diffs_map_sum (extend (sol.map Prod.swap)) a edges]
  induction Rebin.diffs ((a :: edges).map (extend (sol.map Prod.swap))) with
  | nil => simp
  | cons t l ih => simp [ih, add_div]

/-- One window per bin; its size is the product of the widths and is not negative; a given number of pixels is used
as it is in both directions. -/
theorem window_spec (d : WindowDescr α) (sol : List (α × α)) (delta : α) (edges wl : List α)
    (hlen : edges.length = wl.length + 1) :
    (window d sol delta edges wl).size.length = wl.length ∧
    (∀ i, (window d sol delta edges wl).size.getD i 0 =
      (window d sol delta edges wl).spectral.getD i 0 * (window d sol delta edges wl).spatial.getD i 0) ∧
    (∀ v, d.spectralPixel = some v → (window d sol delta edges wl).spectral = List.replicate wl.length v) ∧
    (∀ v, d.spatialPixel = some v → (window d sol delta edges wl).spatial = List.replicate wl.length v) := by
  have hspec : (spectralWidth d sol delta edges).length = wl.length := by
    unfold spectralWidth
    cases d.spectralPixel with
    | some v => simp only; rw [List.length_map, Rebin.diffs_length]; omega
    | none => simp only; rw [List.length_map, Rebin.diffs_length, List.length_map]; omega
  refine ⟨?_, ?_, ?_, ?_⟩
  · simp only [window, mulCol, List.length_zipWith, hspec, List.length_map, min_self]
  · intro i
    simp only [window, mulCol]
    rcases lt_or_ge i wl.length with h | h
    · simp [List.getD_eq_getElem?_getD, List.getElem?_zipWith, List.getElem?_eq_getElem (show i < (spectralWidth d sol delta edges).length by omega),
        List.getElem?_eq_getElem h]
    · have e : (List.zipWith (· * ·) (spectralWidth d sol delta edges) (wl.map (spatialWidth d delta)))[i]? = none := by
        apply List.getElem?_eq_none; simp [hspec]; omega
      have e2 : (spectralWidth d sol delta edges)[i]? = none := by apply List.getElem?_eq_none; omega
      simp [List.getD_eq_getElem?_getD, e, e2]
  · intro v hv
    simp only [window, spectralWidth, hv]
    rw [List.map_const', Rebin.diffs_length, hlen]
    rfl
  · intro v hv
    simp only [window]
    have : spatialWidth d delta = fun _ => v := by
      funext w; unfold spatialWidth; rw [hv]
    rw [this, List.map_const']

theorem window_nonneg (d : WindowDescr α) (sol : List (α × α)) (delta : α) (edges wl : List α) (hdel : 0 < delta)
    (hf : 0 ≤ d.fnumY) (hw : ∀ w ∈ wl, 0 ≤ w ∧ (∀ pts, d.encE = some pts → 0 ≤ extend pts w))
    (h1 : ∀ v, d.spectralPixel = some v → 0 ≤ v) (h2 : ∀ v, d.spatialPixel = some v → 0 ≤ v)
    (h3 : ∀ v, d.spatialScale = some v → 0 ≤ v) : ∀ v ∈ (window d sol delta edges wl).size, 0 ≤ v := by
  have a : ∀ v ∈ spectralWidth d sol delta edges, 0 ≤ v := by
    intro v hv
    unfold spectralWidth at hv
    split at hv
    · rename_i u hu
      obtain ⟨_, _, rfl⟩ := List.mem_map.mp hv
      exact h1 _ hu
    · obtain ⟨t, _, rfl⟩ := List.mem_map.mp hv
      positivity
  have b : ∀ v ∈ wl.map (spatialWidth d delta), 0 ≤ v := by
    intro v hv
    obtain ⟨w, hw', rfl⟩ := List.mem_map.mp hv
    rw [spatialWidth_spec]
    obtain ⟨w0, hw1⟩ := hw w hw'
    cases hp : d.spatialPixel with
    | some u => exact h2 u hp
    | none =>
      have hr : 0 ≤ (d.encE.map (fun pts => extend pts w)).getD (61 / 50) := by
        cases he : d.encE with
        | some pts => exact hw1 pts he
        | none => simp only [Option.map_none, Option.getD_none]; norm_num
      have hs : 0 ≤ d.spatialScale.getD 1 := by
        cases hs : d.spatialScale with
        | some u => exact h3 u hs
        | none => simp
      simp only [Option.getD_none]
      positivity
  intro v hv
  simp only [window, mulCol] at hv
  obtain ⟨i, hi, e⟩ := List.mem_iff_getElem.mp hv
  rw [List.getElem_zipWith] at e
  rw [← e]
  exact mul_nonneg (a _ (List.getElem_mem _)) (b _ (List.getElem_mem _))

/-- Two bins of a detector with one pixel per unit of wavelength. -/
theorem demo_window : (window (⟨50, none, some 2, none, none⟩ : WindowDescr ℚ) [(0, 1), (1, 2), (3, 4)] (1 / 10) [1, 2, 4] [3 / 2, 3]).spectral =
    [10, 20] := by decide +kernel

end ExoRad.Instrument
