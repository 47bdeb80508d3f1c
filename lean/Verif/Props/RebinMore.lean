import Verif.Model.RebinMore
import Verif.Props.Rebin

/-!
# C113, C114: rebinning with NaN in the grids, and of signals that vary in time
-/

namespace ExoRad.Rebin

variable {α : Type} [Field α] [LinearOrder α]

/-! ## NaN -/

theorem all_some_map (x : List α) : (x.map some).all Option.isSome = true := by simp

theorem filterMap_id_some (x : List α) : (x.map some).filterMap id = x := by
  induction x with
  | nil => rfl
  | cons a l ih => simp [ih]

theorem minN_some (x : List α) : minN (x.map some) = (minE x).map some := by
  cases x with
  | nil => rfl
  | cons a l =>
    have h := filterMap_id_some (a :: l)
    simp only [List.map_cons] at h
    simp only [minN, List.map_cons, h, Except.map]
    have ha := all_some_map (a :: l)
    simp only [List.map_cons] at ha
    rw [if_pos ha]
    cases minE (a :: l) <;> rfl

theorem maxN_some (x : List α) : maxN (x.map some) = (maxE x).map some := by
  cases x with
  | nil => rfl
  | cons a l =>
    have h := filterMap_id_some (a :: l)
    simp only [List.map_cons] at h
    simp only [maxN, List.map_cons, h, Except.map]
    have ha := all_some_map (a :: l)
    simp only [List.map_cons] at ha
    rw [if_pos ha]
    cases maxE (a :: l) <;> rfl

theorem minN_nan {x : List (Option α)} (h : none ∈ x) : minN x = .ok none := by
  cases x with
  | nil => simp at h
  | cons a l =>
    have : ¬ ((a :: l).all Option.isSome = true) := by
      intro ha
      have := List.all_eq_true.mp ha none h
      simp at this
    simp only [minN]
    rw [if_neg this]

theorem maxN_nan {x : List (Option α)} (h : none ∈ x) : maxN x = .ok none := by
  cases x with
  | nil => simp at h
  | cons a l =>
    have : ¬ ((a :: l).all Option.isSome = true) := by
      intro ha
      have := List.all_eq_true.mp ha none h
      simp at this
    simp only [maxN]
    rw [if_neg this]

/-- The samples with a wavelength. -/
def known (pts : List (Option α × α)) : List (Option α × α) := pts.filter (fun p => p.1.isSome)

theorem windowN_known (lo hi : Option α) (pts : List (Option α × α)) : windowN lo hi pts = windowN lo hi (known pts) := by
  unfold windowN known
  rw [List.filter_filter]
  apply List.filter_congr
  intro p _
  cases hp : p.1 with
  | none => cases lo <;> simp [ltN]
  | some v => simp

theorem dropNan_window (lo hi : α) (pts : List (Option α × α)) :
    dropNan (windowN (some lo) (some hi) pts) = window lo hi (dropNan pts) := by
  unfold dropNan windowN window
  induction pts with
  | nil => rfl
  | cons p ps ih =>
    obtain ⟨w, v⟩ := p
    cases w with
    | none => simpa [ltN] using ih
    | some w =>
      simp only [Option.map_some, ltN] at ih
      simp only [List.filter_cons, Option.map_some, ltN, List.filterMap_cons]
      by_cases h1 : 9 / 10 * lo < w <;> by_cases h2 : w < 11 / 10 * hi <;> simp [h1, h2, ih]

/-- C113: a sample whose wavelength is NaN is dropped: the result is that of the samples that have a wavelength. -/
theorem nan_samples_dropped (x : List (Option α)) (pts : List (Option α × α)) : rebinN x pts = rebinN x (known pts) := by
  unfold rebinN
  cases minN x with
  | error e => rfl
  | ok lo =>
    cases maxN x with
    | error e => rfl
    | ok hi =>
      dsimp only
      rw [windowN_known lo hi pts]

/-- C113: with no NaN in the new grid, the result is that of `Model/Rebin` for the samples that have a wavelength. -/
theorem rebinN_eq (x : List α) (pts : List (Option α × α)) : rebinN (x.map some) pts = rebin x (dropNan pts) := by
  unfold rebinN rebin
  rw [minN_some, maxN_some]
  cases minE x with
  | error e => rfl
  | ok lo =>
    cases maxE x with
    | error e => rfl
    | ok hi =>
      simp only [Except.map]
      rw [dropNan_window, filterMap_id_some]
      cases dedup ((window lo hi (dropNan pts)).length + 1) (window lo hi (dropNan pts)) with
      | error e => rfl
      | ok q =>
        dsimp only
        cases dedupGrid x with
        | error e => rfl
        | ok x' =>
          dsimp only
          cases resample x' q <;> rfl

/-- C113 fails for the new grid: with one NaN in it nothing is left of the signal, and the call raises ValueError, whatever the other
points are. The lines of the code that remove NaN from the new grid (`exolib.py:60-63`) are never reached with an effect. -/
theorem nan_in_new_grid (x : List (Option α)) (pts : List (Option α × α)) (h : none ∈ x) : rebinN x pts = .error .valueError := by
  unfold rebinN
  rw [minN_nan h, maxN_nan h]
  dsimp only
  have : windowN none none pts = [] := by
    unfold windowN
    rw [List.filter_eq_nil_iff]
    intro p _
    simp [ltN]
  rw [this]
  rfl

/-- A NaN among the samples is dropped, a NaN in the new grid is an error. -/
theorem nan_demo : rebinN [some (1 : ℚ), some 2] [(some 1, 5), (none, 9), (some 2, 7)] = .ok ([1, 2], [some 5, some 7]) ∧
    rebinN [some (1 : ℚ), none, some 2] [(some 1, 5), (some 2, 7)] = .error .valueError := by
  refine ⟨?_, nan_in_new_grid _ _ (by simp)⟩
  rw [show [some (1 : ℚ), some 2] = [(1 : ℚ), 2].map some from rfl, rebinN_eq]
  decide +kernel

/-! ## Two axes -/

variable [IsStrictOrderedRing α]

theorem erase_length {l : List α} {i : Nat} (h : i < l.length) : (l.eraseIdx i).length = l.length - 1 := by
  rw [List.length_eraseIdx]; simp [h]

theorem firstZero_lt : ∀ {l : List α}, (0 : α) ∈ l → firstZero l < l.length
  | d :: ds, h => by
    unfold firstZero
    split
    · simp
    · rename_i hd
      have : (0 : α) ∈ ds := by
        rcases List.mem_cons.mp h with h | h
        · exact absurd h.symm hd
        · exact h
      have := firstZero_lt this
      simp; omega

theorem flatten_length {m : List (List α)} {nt : Nat} (h : ∀ r ∈ m, r.length = nt) : m.flatten.length = m.length * nt := by
  induction m with
  | nil => simp
  | cons r m ih =>
    have h1 := h r (by simp)
    have h2 := ih (fun r' hr => h r' (List.mem_cons_of_mem _ hr))
    simp [h1, h2, Nat.add_mul]
    omega

theorem dedup2_flat : ∀ (n : Nat) (xp : List α) (l : List α) (k : Nat) {xp' : List α} {fp' : Fp α}, l.length = xp.length + k →
    dedup2 n xp (.flat l) = .ok (xp', fp') → ∃ l', fp' = .flat l' ∧ l'.length = xp'.length + k := by
  intro n
  induction n with
  | zero => intro xp l k xp' fp' hl h; cases h; exact ⟨l, rfl, hl⟩
  | succ n ih =>
    intro xp l k xp' fp' hl h
    unfold dedup2 at h
    split at h
    · cases h
    rename_i m hm
    split at h
    · rename_i h0
      subst h0
      have hz := firstZero_lt (minE_spec hm).1
      rw [diffs_length] at hz
      refine ih _ _ k ?_ h
      rw [erase_length (by omega), erase_length (by omega)]
      omega
    · cases h; exact ⟨l, rfl, hl⟩

theorem dedup2_rows {n nt : Nat} {xp xp' : List α} {m : List (List α)} {fp' : Fp α} (hnt : 1 ≤ nt) (hm : ∀ r ∈ m, r.length = nt)
    (hl : m.length = xp.length) (h : dedup2 (n + 1) xp (.rows nt m) = .ok (xp', fp')) :
    2 ≤ xp.length ∧ (((0 : α) ∉ diffs xp ∧ xp' = xp ∧ fp' = .rows nt m) ∨ (minE (diffs xp) ≠ .ok 0 ∧ xp' = xp ∧ fp' = .rows nt m) ∨
      ((0 : α) ∈ diffs xp ∧ ∃ l, fp' = .flat l ∧ l.length = xp'.length + xp.length * (nt - 1))) := by
  unfold dedup2 at h
  split at h
  · cases h
  rename_i mn hmn
  have h1 : 1 ≤ (diffs xp).length := by
    have := List.length_pos_of_mem (minE_spec hmn).1
    omega
  rw [diffs_length] at h1
  refine ⟨by omega, ?_⟩
  split at h
  · rename_i h0
    subst h0
    right; right
    refine ⟨(minE_spec hmn).1, ?_⟩
    have hz := firstZero_lt (minE_spec hmn).1
    rw [diffs_length] at hz
    have hf := flatten_length hm
    have hmul : xp.length * nt = xp.length + xp.length * (nt - 1) := by
      obtain ⟨t, rfl⟩ : ∃ t, nt = t + 1 := ⟨nt - 1, by omega⟩
      simp [Nat.mul_add]; omega
    refine dedup2_flat n _ _ _ ?_ h
    rw [erase_length (by rw [hf, hl, hmul]; omega), erase_length (by omega), hf, hl, hmul]
    omega
  · rename_i h0
    cases h
    exact .inr (.inl ⟨fun h => h0 (by rw [hmn] at h; cases h; rfl), rfl, rfl⟩)

theorem resample2_shape {x xp : List α} {fp : Fp α} {r : List (List (Option α))} (h : resample2 x xp fp = .ok r) : fp.last = xp.length := by
  unfold resample2 at h
  split at h
  · cases h
  split at h
  · cases h
  split at h
  · split at h
    · assumption
    · cases h
  · split at h
    · assumption
    · cases h

/-- The samples `rebin` keeps: those strictly between 0.9 times the smallest and 1.1 times the largest new wavelength. -/
def keptOf {β : Type} (lo hi : α) (pts : List (α × β)) : List (α × β) := pts.filter (fun p => decide (9 / 10 * lo < p.1 ∧ p.1 < 11 / 10 * hi))

theorem window_keptOf {β : Type} (lo hi : α) (pts : List (α × β)) : window lo hi pts = keptOf lo hi pts := by
  unfold window keptOf
  apply List.filter_congr
  intro p _
  simp

/-- C114 fails: a signal of `nt` values per wavelength (two axes, as the class allows) can be rebinned only if `nt` happens to be the
number of samples that are kept, or if it is 1 and the grid has a repeated wavelength. -/
theorem rebin2_needs {nt : Nat} {x : List α} {pts : List (α × List α)} {r : List α × List (List (Option α))} (hnt : 1 ≤ nt)
    (hrows : ∀ p ∈ pts, p.2.length = nt) (h : rebin2 nt x pts = .ok r) :
    ∃ lo ∈ x, ∃ hi ∈ x, (∀ v ∈ x, lo ≤ v ∧ v ≤ hi) ∧ 2 ≤ (keptOf lo hi pts).length ∧
      (nt = (keptOf lo hi pts).length ∨ (nt = 1 ∧ (0 : α) ∈ diffs ((keptOf lo hi pts).map Prod.fst))) := by
  unfold rebin2 at h
  split at h
  · cases h
  rename_i lo hlo
  split at h
  · cases h
  rename_i hi hhi
  have slo := minE_spec hlo
  have shi := maxE_spec hhi
  refine ⟨lo, slo.1, hi, shi.1, fun v hv => ⟨slo.2 v hv, shi.2 v hv⟩, ?_⟩
  rw [window_keptOf] at h
  set K := keptOf lo hi pts with hK
  have hKrows : ∀ r ∈ K.map Prod.snd, r.length = nt := by
    intro r hr
    obtain ⟨p, hp, rfl⟩ := List.mem_map.mp hr
    exact hrows p (List.mem_of_mem_filter hp)
  split at h
  · cases h
  rename_i xp fp hd
  split at h
  · cases h
  rename_i x' hx'
  split at h
  · cases h
  rename_i f hf
  have hs := resample2_shape hf
  obtain ⟨h2, hc⟩ := dedup2_rows hnt hKrows (by simp) hd
  rw [List.length_map] at h2
  refine ⟨h2, ?_⟩
  rcases hc with ⟨-, rfl, rfl⟩ | ⟨-, rfl, rfl⟩ | ⟨h0, l, rfl, hlen⟩
  · left; simpa [Fp.last] using hs
  · left; simpa [Fp.last] using hs
  · right
    simp only [Fp.last] at hs
    rw [List.length_map] at hlen
    have hz : K.length * (nt - 1) = 0 := by omega
    rcases Nat.mul_eq_zero.mp hz with h | h
    · omega
    · exact ⟨by omega, h0⟩

theorem increasing_kept {β : Type} {lo hi : α} {pts : List (α × β)} (h : pts.Pairwise (fun p q => p.1 < q.1)) :
    (keptOf lo hi pts).Pairwise (fun p q => p.1 < q.1) := h.sublist List.filter_sublist

theorem zero_not_diffs {β : Type} {l : List (α × β)} (h : l.Pairwise (fun p q => p.1 < q.1)) : (0 : α) ∉ diffs (l.map Prod.fst) := by
  intro h0
  have : (l.map Prod.fst).Pairwise (· < ·) := List.pairwise_map.mpr h
  exact lt_irrefl _ (diffs_pos _ this 0 h0)

/-- C114 fails: a signal on an increasing grid with another number of times than of kept samples cannot be rebinned, to whatever grid. -/
theorem time_series_refused {nt : Nat} {x : List α} {pts : List (α × List α)} (hnt : 1 ≤ nt) (hrows : ∀ p ∈ pts, p.2.length = nt)
    (hinc : pts.Pairwise (fun p q => p.1 < q.1))
    (hne : ∀ lo ∈ x, ∀ hi ∈ x, (∀ v ∈ x, lo ≤ v ∧ v ≤ hi) → nt ≠ (keptOf lo hi pts).length) : ∃ e, rebin2 nt x pts = .error e := by
  cases hr : rebin2 nt x pts with
  | error e => exact ⟨e, rfl⟩
  | ok r =>
    exfalso
    obtain ⟨lo, hlo, hi, hhi, hb, -, h | ⟨-, h⟩⟩ := rebin2_needs hnt hrows hr
    · exact hne lo hlo hi hhi hb h
    · exact zero_not_diffs (increasing_kept hinc) h

/-- In particular a signal with more times than wavelengths, or with one time, is refused. -/
theorem more_times_refused {nt : Nat} {x : List α} {pts : List (α × List α)} (hnt : pts.length < nt ∨ nt = 1) (h1 : 1 ≤ nt)
    (hrows : ∀ p ∈ pts, p.2.length = nt) (hinc : pts.Pairwise (fun p q => p.1 < q.1)) : ∃ e, rebin2 nt x pts = .error e := by
  cases hr : rebin2 nt x pts with
  | error e => exact ⟨e, rfl⟩
  | ok r =>
    exfalso
    obtain ⟨lo, hlo, hi, hhi, hb, h2, h | ⟨-, h⟩⟩ := rebin2_needs h1 hrows hr
    · have : (keptOf lo hi pts).length ≤ pts.length := List.length_filter_le _ _
      omega
    · exact zero_not_diffs (increasing_kept hinc) h

/-- C114 fails: where the call succeeds (as many times as samples), the values are resampled along the wrong axis: line `i` of the result
is the rebinning of the values of wavelength `i`, with its times read as if they were the wavelengths. -/
theorem wrong_axis {nt : Nat} {x : List α} {pts : List (α × List α)} {x' : List α} {f : List (List (Option α))}
    (h1 : 1 ≤ nt) (hrows : ∀ p ∈ pts, p.2.length = nt) (hinc : pts.Pairwise (fun p q => p.1 < q.1)) (h : rebin2 nt x pts = .ok (x', f)) :
    ∃ lo ∈ x, ∃ hi ∈ x, (∀ v ∈ x, lo ≤ v ∧ v ≤ hi) ∧ f.length = (keptOf lo hi pts).length ∧
      ∀ (i : ℕ) (p : α × List α), (keptOf lo hi pts)[i]? = some p →
        ∃ g, f[i]? = some g ∧ rebin x (((keptOf lo hi pts).map Prod.fst).zip p.2) = .ok (x', g) := by
  have hneed := rebin2_needs h1 hrows h
  unfold rebin2 at h
  split at h
  · cases h
  rename_i lo hlo
  split at h
  · cases h
  rename_i hi hhi
  have slo := minE_spec hlo
  have shi := maxE_spec hhi
  refine ⟨lo, slo.1, hi, shi.1, fun v hv => ⟨slo.2 v hv, shi.2 v hv⟩, ?_⟩
  have hneed : 2 ≤ (keptOf lo hi pts).length ∧ nt = (keptOf lo hi pts).length := by
    obtain ⟨lo', hlo', hi', hhi', hb, h2, hc⟩ := hneed
    have e1 : lo' = lo := le_antisymm ((hb lo slo.1).1) (slo.2 lo' hlo')
    have e2 : hi' = hi := le_antisymm (shi.2 hi' hhi') ((hb hi shi.1).2)
    subst e1 e2
    rcases hc with hc | ⟨-, hc⟩
    · exact ⟨h2, hc⟩
    · exact absurd hc (zero_not_diffs (increasing_kept hinc))
  rw [window_keptOf] at h
  set K := keptOf lo hi pts with hK
  have hKrows : ∀ r ∈ K.map Prod.snd, r.length = nt := by
    intro r hr
    obtain ⟨p, hp, rfl⟩ := List.mem_map.mp hr
    exact hrows p (List.mem_of_mem_filter hp)
  split at h
  · cases h
  rename_i xp fp hd
  split at h
  · cases h
  rename_i x'' hx'
  split at h
  · cases h
  rename_i g hg
  cases h
  have hz : (0 : α) ∉ diffs (K.map Prod.fst) := zero_not_diffs (increasing_kept hinc)
  obtain ⟨-, hc⟩ := dedup2_rows h1 hKrows (by simp) hd
  have hfp : xp = K.map Prod.fst ∧ fp = .rows nt (K.map Prod.snd) := by
    rcases hc with ⟨-, h, h'⟩ | ⟨-, h, h'⟩ | ⟨h0, -⟩
    · exact ⟨h, h'⟩
    · exact ⟨h, h'⟩
    · exact absurd h0 hz
  obtain ⟨rfl, rfl⟩ := hfp
  -- the one dimensional call on a line
  have hline : ∀ row : List α, row.length = nt → ∀ g', resample x' ((K.map Prod.fst).zip row) = .ok g' →
      rebin x ((K.map Prod.fst).zip row) = .ok (x', g') := by
    intro row hrow g' hg'
    have hfst : ((K.map Prod.fst).zip row).map Prod.fst = K.map Prod.fst :=
      zip_map_fst _ _ (by rw [hrow, List.length_map, hneed.2])
    have hwin : window lo hi ((K.map Prod.fst).zip row) = (K.map Prod.fst).zip row := by
      unfold window
      rw [List.filter_eq_self]
      intro q hq
      have hq1 : q.1 ∈ K.map Prod.fst := by
        rw [← hfst]; exact List.mem_map_of_mem hq
      obtain ⟨p, hp, hpe⟩ := List.mem_map.mp hq1
      have := (List.mem_filter.mp hp).2
      simp only [decide_eq_true_eq] at this
      rw [← hpe]
      simp [this.1, this.2]
    unfold rebin
    rw [hlo]; dsimp only
    rw [hhi]; dsimp only
    rw [hwin, dedup_id _ _ (by rw [hfst]; exact hz) (by rw [List.length_zip, List.length_map, hrow, hneed.2]; simpa using hneed.1)]
    dsimp only
    rw [hx']
    dsimp only
    rw [hg']
  unfold resample2 at hg
  split at hg
  · cases hg
  rename_i mp hmp
  split at hg
  · cases hg
  rename_i mx hmx
  have hres : ∀ row : List α, row.length = nt → resample x' ((K.map Prod.fst).zip row) =
      if mp < mx then .ok (binMeans ((K.map Prod.fst).zip row) (edges x'))
      else .ok (x'.map (fun t => some (interp ((K.map Prod.fst).zip row) t))) := by
    intro row hrow
    unfold resample
    rw [zip_map_fst _ _ (by rw [hrow, List.length_map, hneed.2]), hmp]
    dsimp only
    rw [hmx]
  have hshape : (Fp.rows nt (K.map Prod.snd)).last = (K.map Prod.fst).length := by
    simp [Fp.last, hneed.2]
  by_cases hlt : mp < mx
  · rw [if_pos hlt, if_pos hshape] at hg
    cases hg
    simp only [Fp.lines]
    refine ⟨by simp, fun i p hp => ⟨binMeans ((K.map Prod.fst).zip p.2) (edges x'), by simp [hp], ?_⟩⟩
    have hrow : p.2.length = nt := hKrows _ (List.mem_map_of_mem (List.mem_of_getElem? hp))
    exact hline _ hrow _ (by rw [hres _ hrow, if_pos hlt])
  · rw [if_neg hlt, if_pos hshape] at hg
    cases hg
    simp only [Fp.lines]
    refine ⟨by simp, fun i p hp => ⟨x'.map (fun t => some (interp ((K.map Prod.fst).zip p.2) t)), by simp [hp], ?_⟩⟩
    have hrow : p.2.length = nt := hKrows _ (List.mem_map_of_mem (List.mem_of_getElem? hp))
    exact hline _ hrow _ (by rw [hres _ hrow, if_neg hlt])

/-- Three wavelengths and three times, the signal the same at every wavelength and growing in time: after rebinning to two wavelengths it
grows with wavelength and is the same at all times. With two times, or with the same three on a shorter grid, the call raises. -/
theorem two_axes_demo : rebin2 3 [(1 : ℚ), 2] [(1, [0, 10, 20]), (3 / 2, [0, 10, 20]), (2, [0, 10, 20])] =
      .ok ([1, 2], [[some 0, some 15], [some 0, some 15], [some 0, some 15]]) ∧
    rebin2 2 [(1 : ℚ), 2] [(1, [0, 10]), (3 / 2, [0, 10]), (2, [0, 10])] = .error .attributeError ∧
    rebin2 3 [(1 : ℚ), 3 / 2] [(1, [0, 10, 20]), (3 / 2, [0, 10, 20]), (2, [0, 10, 20])] = .error .valueError := by
  decide +kernel

end ExoRad.Rebin
