import Verif.Props.Grid

/-!
# The wavelength solution of a spectrometer and its inverse: C66

Positions and wavelengths are read from the same table in both directions (`spectrometer.py:126-140`).
-/

set_option linter.unusedSectionVars false

namespace ExoRad.Instrument

variable {α : Type} [Field α] [LinearOrder α] [IsStrictOrderedRing α]

/-! ## Specification -/

/-- A wavelength solution, in any order of its lines: at least two of them, the wavelength grows with the position. -/
structure Rising (sol : List (α × α)) : Prop where
  two : 2 ≤ sol.length
  nodup : (sol.map Prod.fst).Nodup
  mono : ∀ p ∈ sol, ∀ q ∈ sol, p.1 < q.1 → p.2 < q.2

/-- The same for a detector the other way round: the wavelength falls with the position. -/
structure Falling (sol : List (α × α)) : Prop where
  two : 2 ≤ sol.length
  nodup : (sol.map Prod.fst).Nodup
  anti : ∀ p ∈ sol, ∀ q ∈ sol, p.1 < q.1 → q.2 < p.2

/-! ## Segments -/

/-- The line through two points. -/
def line (p q : α × α) (x : α) : α := (q.2 - p.2) / (q.1 - p.1) * (x - p.1) + p.2

theorem line_comm {p q : α × α} (h : p.1 ≠ q.1) (x : α) : line p q x = line q p x := by
  have h1 : q.1 - p.1 ≠ 0 := sub_ne_zero.mpr (Ne.symm h)
  have h2 : p.1 - q.1 ≠ 0 := sub_ne_zero.mpr h
  unfold line
  have e : (p.2 - q.2) / (p.1 - q.1) = (q.2 - p.2) / (q.1 - p.1) := by rw [← neg_sub q.2, ← neg_sub q.1, neg_div_neg_eq]
  rw [e]
  have : (q.2 - p.2) / (q.1 - p.1) * (q.1 - p.1) = q.2 - p.2 := div_mul_cancel₀ _ h1
  linear_combination this

theorem line_swap {p q : α × α} (h1 : p.1 ≠ q.1) (h2 : p.2 ≠ q.2) (w : α) : line p q (line p.swap q.swap w) = w := by
  have h1 : q.1 - p.1 ≠ 0 := sub_ne_zero.mpr (Ne.symm h1)
  have h2 : q.2 - p.2 ≠ 0 := sub_ne_zero.mpr (Ne.symm h2)
  unfold line
  simp only [Prod.fst_swap, Prod.snd_swap]
  field_simp
  ring

/-- `x` belongs to the segment from `p` to `q` of the sorted points `pre ++ p :: q :: post`. -/
def Within (pre : List (α × α)) (p q : α × α) (post : List (α × α)) (x : α) : Prop :=
  (pre = [] ∨ p.1 ≤ x) ∧ (post = [] ∨ x ≤ q.1)

theorem extendSorted_at : ∀ (pre : List (α × α)) (lo : α × α) (l : List (α × α)) (p q : α × α) (post : List (α × α)) (x : α),
    (lo :: l).Pairwise (fun p q => p.1 < q.1) → lo :: l = pre ++ p :: q :: post → Within pre p q post x →
    extendSorted lo l x = line p q x
  | [], lo, l, p, q, post, x, hs, he, hw => by
    simp only [List.nil_append, List.cons.injEq] at he
    obtain ⟨rfl, rfl⟩ := he
    cases post with
    | nil => rfl
    | cons r rest =>
      rw [extendSorted]
      · rw [if_pos (hw.2.resolve_left (by simp))]; rfl
      · intro h; cases h
  | a :: pre, lo, l, p, q, post, x, hs, he, hw => by
    simp only [List.cons_append, List.cons.injEq] at he
    obtain ⟨rfl, rfl⟩ := he
    have hx := hw.1.resolve_left (by simp)
    have hs' := (List.pairwise_cons.mp hs).2
    cases pre with
    | nil =>
      have hlt := (List.pairwise_cons.mp hs).1 p (by simp)
      simp only [List.nil_append]
      rw [extendSorted]
      · split
        · rename_i hle
          have : x = p.1 := le_antisymm hle hx
          subst this
          have : p.1 - lo.1 ≠ 0 := (sub_pos.mpr hlt).ne'
          unfold line
          rw [div_mul_cancel₀ _ this]
          ring
        · exact extendSorted_at [] p (q :: post) p q post x hs' rfl ⟨.inl rfl, hw.2⟩
      · intro h; cases h
    | cons b pre =>
      simp only [List.cons_append]
      have hlt : b.1 < p.1 := (List.pairwise_cons.mp hs').1 p (by simp)
      rw [extendSorted]
      · rw [if_neg (not_le.mpr (hlt.trans_le hx))]
        exact extendSorted_at (b :: pre) b _ p q post x hs' rfl ⟨.inr hx, hw.2⟩
      · intro h; simp at h

theorem exists_segment : ∀ (l : List (α × α)) (lo : α × α) (x : α), l ≠ [] →
    ∃ pre p q post, lo :: l = pre ++ p :: q :: post ∧ Within pre p q post x
  | [], _, _, h => absurd rfl h
  | [hi], lo, x, _ => ⟨[], lo, hi, [], rfl, .inl rfl, .inl rfl⟩
  | hi :: h2 :: rest, lo, x, _ => by
    by_cases hx : x ≤ hi.1
    · exact ⟨[], lo, hi, h2 :: rest, rfl, .inl rfl, .inr hx⟩
    · obtain ⟨pre, p, q, post, he, hw1, hw2⟩ := exists_segment (h2 :: rest) hi x (by simp)
      refine ⟨lo :: pre, p, q, post, by rw [he]; rfl, .inr ?_, hw2⟩
      rcases hw1 with rfl | h
      · simp only [List.nil_append, List.cons.injEq] at he
        rw [← he.1]; exact (not_le.mp hx).le
      · exact h

theorem extend_of_sorted {pts l : List (α × α)} (hp : l.Perm pts) (hs : l.Pairwise (fun p q => p.1 < q.1)) {pre post : List (α × α)}
    {p q : α × α} (he : l = pre ++ p :: q :: post) {x : α} (hw : Within pre p q post x) : extend pts x = line p q x := by
  have hl : pts.insertionSort (fun p q => p.1 ≤ q.1) = l := by
    refine List.Perm.eq_of_pairwise (le := fun p q : α × α => p.1 ≤ q.1) ?_ (List.pairwise_insertionSort _ _) (hs.imp le_of_lt)
      ((List.perm_insertionSort _ _).trans hp.symm)
    intro a b ha hb h1 h2
    by_contra hne
    have ha : a ∈ l := hp.symm.subset (by simpa using ha)
    have hb : b ∈ l := by simpa using hb
    have := le_antisymm h1 h2
    have hnd : (l.map Prod.fst).Nodup := by
      rw [List.Nodup, List.pairwise_map]
      exact hs.imp (fun h => h.ne)
    exact hne (List.inj_on_of_nodup_map hnd ha hb this)
  unfold extend
  rw [hl]
  rcases l with _ | ⟨lo, l⟩
  · simp at he
  · exact extendSorted_at pre lo l p q post x hs he hw

/-! ## The inverse -/

theorem Rising.sorted {sol : List (α × α)} (h : Rising sol) :
    ∃ l : List (α × α), l.Perm sol ∧ l.Pairwise (fun p q => p.1 < q.1 ∧ p.2 < q.2) := by
  refine ⟨sol.insertionSort (fun p q => p.1 ≤ q.1), List.perm_insertionSort _ _, ?_⟩
  refine (sorted_strict sol h.nodup).imp_of_mem ?_
  intro a b ha hb hab
  exact ⟨hab, h.mono a (by simpa using ha) b (by simpa using hb) hab⟩

theorem Falling.sorted {sol : List (α × α)} (h : Falling sol) :
    ∃ l : List (α × α), l.Perm sol ∧ l.Pairwise (fun p q => p.1 < q.1 ∧ q.2 < p.2) := by
  refine ⟨sol.insertionSort (fun p q => p.1 ≤ q.1), List.perm_insertionSort _ _, ?_⟩
  refine (sorted_strict sol h.nodup).imp_of_mem ?_
  intro a b ha hb hab
  exact ⟨hab, h.anti a (by simpa using ha) b (by simpa using hb) hab⟩

theorem segment_of {l : List (α × α)} (h : 2 ≤ l.length) (x : α) : ∃ pre p q post, l = pre ++ p :: q :: post ∧ Within pre p q post x := by
  rcases l with _ | ⟨lo, _ | ⟨hi, rest⟩⟩
  · simp at h
  · simp at h
  · exact exists_segment (hi :: rest) lo x (by simp)

/-- The value of a rising line. -/
theorem line_mono {p q : α × α} (h1 : p.1 < q.1) (h2 : p.2 < q.2) {x : α} : (p.1 ≤ x → p.2 ≤ line p q x) ∧ (x ≤ q.1 → line p q x ≤ q.2) := by
  have hk := div_pos (sub_pos.mpr h2) (sub_pos.mpr h1)
  refine ⟨fun h => ?_, fun h => ?_⟩
  · have := mul_nonneg hk.le (sub_nonneg.mpr h)
    unfold line; linarith
  · have := mul_le_mul_of_nonneg_left (sub_le_sub_right h p.1) hk.le
    rw [div_mul_cancel₀ _ (sub_pos.mpr h1).ne'] at this
    unfold line; linarith

/-- C66: the solution read backwards is the inverse of the solution, between its ends and beyond: the position computed for a
wavelength is one at which the solution gives that wavelength. -/
theorem Rising.inverse {sol : List (α × α)} (h : Rising sol) (w : α) : extend sol (extend (sol.map Prod.swap) w) = w := by
  obtain ⟨l, hp, hs⟩ := h.sorted
  have hlen : 2 ≤ (l.map Prod.swap).length := by rw [List.length_map, hp.length_eq]; exact h.two
  obtain ⟨pre', p', q', post', he', hw'⟩ := segment_of hlen w
  have hs' : (l.map Prod.swap).Pairwise (fun p q => p.1 < q.1) := by
    rw [List.pairwise_map]; exact hs.imp (fun h => h.2)
  have e1 := extend_of_sorted (hp.map Prod.swap) hs' he' hw'
  have he : l = pre'.map Prod.swap ++ p'.swap :: q'.swap :: post'.map Prod.swap := by
    have := congrArg (List.map Prod.swap) he'
    simpa using this
  have hpq : p'.swap.1 < q'.swap.1 ∧ p'.swap.2 < q'.swap.2 := by
    rw [he] at hs
    exact (List.pairwise_cons.mp (List.pairwise_append.mp hs).2.1).1 _ (by simp)
  have hpq1 : p'.2 < q'.2 := hpq.1
  have hpq2 : p'.1 < q'.1 := hpq.2
  have hm := line_mono (p := p') (q := q') hpq2 hpq1 (x := w)
  rw [e1, extend_of_sorted hp (hs.imp (fun h => h.1)) he (x := line p' q' w) ?_]
  · have := line_swap (p := p'.swap) (q := q'.swap) hpq.1.ne hpq.2.ne w
    simpa using this
  · refine ⟨?_, ?_⟩
    · rcases hw'.1 with rfl | h
      · exact .inl rfl
      · exact .inr (hm.1 h)
    · rcases hw'.2 with rfl | h
      · exact .inl rfl
      · exact .inr (hm.2 h)

/-- The value of a falling line. -/
theorem line_anti {p q : α × α} (h1 : p.1 < q.1) (h2 : q.2 < p.2) {x : α} : (p.1 ≤ x → line p q x ≤ p.2) ∧ (x ≤ q.1 → q.2 ≤ line p q x) := by
  have hk : (q.2 - p.2) / (q.1 - p.1) ≤ 0 := (div_neg_of_neg_of_pos (sub_neg.mpr h2) (sub_pos.mpr h1)).le
  refine ⟨fun h => ?_, fun h => ?_⟩
  · have := mul_nonpos_of_nonpos_of_nonneg hk (sub_nonneg.mpr h)
    unfold line; linarith
  · have := mul_le_mul_of_nonpos_left (sub_le_sub_right h p.1) hk
    rw [div_mul_cancel₀ _ (sub_pos.mpr h1).ne'] at this
    unfold line; linarith

/-- C66: the same when the wavelength falls with the position. -/
theorem Falling.inverse {sol : List (α × α)} (h : Falling sol) (w : α) : extend sol (extend (sol.map Prod.swap) w) = w := by
  obtain ⟨l, hp, hs⟩ := h.sorted
  have hlen : 2 ≤ (l.map Prod.swap).reverse.length := by rw [List.length_reverse, List.length_map, hp.length_eq]; exact h.two
  obtain ⟨pre', p', q', post', he', hw'⟩ := segment_of hlen w
  have hs' : (l.map Prod.swap).reverse.Pairwise (fun p q => p.1 < q.1) := by
    rw [List.pairwise_reverse, List.pairwise_map]; exact hs.imp (fun h => h.2)
  have e1 := extend_of_sorted ((List.reverse_perm _).trans (hp.map Prod.swap)) hs' he' hw'
  have he : l = post'.reverse.map Prod.swap ++ q'.swap :: p'.swap :: pre'.reverse.map Prod.swap := by
    have := congrArg (fun m => (List.map Prod.swap m).reverse) he'
    simpa using this
  have hpq : q'.swap.1 < p'.swap.1 ∧ p'.swap.2 < q'.swap.2 := by
    rw [he] at hs
    exact (List.pairwise_cons.mp (List.pairwise_append.mp hs).2.1).1 _ (by simp)
  have hpq1 : q'.2 < p'.2 := hpq.1
  have hpq2 : p'.1 < q'.1 := hpq.2
  have hm := line_anti (p := p') (q := q') hpq2 hpq1 (x := w)
  rw [e1, extend_of_sorted hp (hs.imp (fun h => h.1)) he (x := line p' q' w) ?_]
  · rw [line_comm hpq.1.ne]
    have := line_swap (p := p'.swap) (q := q'.swap) hpq.1.ne' hpq.2.ne w
    simpa using this
  · refine ⟨?_, ?_⟩
    · rcases hw'.2 with rfl | h
      · exact .inl rfl
      · exact .inr (hm.2 h)
    · rcases hw'.1 with rfl | h
      · exact .inl rfl
      · exact .inr (hm.1 h)

/-! ## Monotone -/

theorem extend_perm {pts l : List (α × α)} (hp : l.Perm pts) (hs : l.Pairwise (fun p q => p.1 < q.1)) (h2 : 2 ≤ pts.length) (x : α) :
    extend pts x = extend l x := by
  obtain ⟨pre, p, q, post, he, hw⟩ := segment_of (by rw [hp.length_eq]; exact h2 : 2 ≤ l.length) x
  rw [extend_of_sorted hp hs he hw, extend_of_sorted (List.Perm.refl l) hs he hw]

theorem Rising.strictMono {sol : List (α × α)} (h : Rising sol) : StrictMono (extend sol) := by
  obtain ⟨l, hp, hs⟩ := h.sorted
  have := extend_strictMono l (by rw [hp.length_eq]; exact h.two) hs
  intro x y hxy
  rw [extend_perm hp (hs.imp (fun h => h.1)) h.two, extend_perm hp (hs.imp (fun h => h.1)) h.two]
  exact this hxy

theorem Falling.strictAnti {sol : List (α × α)} (h : Falling sol) : StrictAnti (extend sol) := by
  obtain ⟨l, hp, hs⟩ := h.sorted
  have hl : 2 ≤ l.length := by rw [hp.length_eq]; exact h.two
  have hs' : (l.map (fun p => (p.1, -p.2))).Pairwise (fun p q => p.1 < q.1 ∧ p.2 < q.2) := by
    rw [List.pairwise_map]; exact hs.imp (fun h => ⟨h.1, neg_lt_neg h.2⟩)
  have hneg : ∀ x, extend (l.map (fun p => (p.1, -p.2))) x = -extend l x := by
    intro x
    obtain ⟨pre, p, q, post, he, hw⟩ := segment_of hl x
    rw [extend_of_sorted (List.Perm.refl l) (hs.imp (fun h => h.1)) he hw,
      extend_of_sorted (List.Perm.refl _) (hs'.imp (fun h => h.1)) (pre := pre.map (fun p => (p.1, -p.2))) (p := (p.1, -p.2)) (q := (q.1, -q.2))
        (post := post.map (fun p => (p.1, -p.2))) (by rw [he]; simp) (x := x) ?_]
    · unfold line
      simp only
      ring
    · exact ⟨hw.1.imp (fun h => by rw [h]; rfl) id, hw.2.imp (fun h => by rw [h]; rfl) id⟩
  have hm := extend_strictMono (l.map (fun p => (p.1, -p.2))) (by rw [List.length_map]; exact hl) hs'
  intro x y hxy
  rw [extend_perm hp (hs.imp (fun h => h.1)) h.two, extend_perm hp (hs.imp (fun h => h.1)) h.two]
  have := hm hxy
  rw [hneg, hneg] at this
  exact neg_lt_neg_iff.mp this

/-! ## The pixels -/

section pixels
variable [FloorRing α]

/-- C66: every pixel of the grid sees a wavelength of the band, and one of the ends of the band is the wavelength of a pixel; there
is a pixel if the band is not empty. -/
theorem pixel_band {sol : List (α × α)} (h : Rising sol ∨ Falling sol) {wlMin wlMax delta : α} (hlt : wlMin < wlMax) (hd : 0 < delta) :
    (∀ w ∈ (pixelGrid sol wlMin wlMax delta).wl, wlMin ≤ w ∧ w ≤ wlMax) ∧
    (Rising sol → wlMin ∈ (pixelGrid sol wlMin wlMax delta).wl ∧ wlMax ∉ (pixelGrid sol wlMin wlMax delta).wl) ∧
    (Falling sol → wlMax ∈ (pixelGrid sol wlMin wlMax delta).wl ∧ wlMin ∉ (pixelGrid sol wlMin wlMax delta).wl) := by
  have up : Rising sol → (∀ w ∈ (pixelGrid sol wlMin wlMax delta).wl, wlMin ≤ w ∧ w < wlMax) ∧ wlMin ∈ (pixelGrid sol wlMin wlMax delta).wl := by
    intro h
    have hm := h.strictMono
    have hab : extend (sol.map Prod.swap) wlMin < extend (sol.map Prod.swap) wlMax := by
      rw [← hm.lt_iff_lt, h.inverse, h.inverse]; exact hlt
    obtain ⟨_, g2, g3, _⟩ := pixel_grid sol wlMin wlMax delta hd _ _ ⟨.inl ⟨rfl, rfl⟩, hab.le⟩
    rw [g3]
    refine ⟨?_, ?_⟩
    · intro w hw
      obtain ⟨t, ht, rfl⟩ := List.mem_map.mp hw
      obtain ⟨k, hk, hb⟩ := (g2 t).mp ht
      have h1 : extend (sol.map Prod.swap) wlMin ≤ t := by
        rw [hk]; have : 0 ≤ (k : α) * delta := by positivity
        linarith
      refine ⟨?_, ?_⟩
      · have := hm.monotone h1; rwa [h.inverse] at this
      · have := hm hb; rwa [h.inverse] at this
    · exact List.mem_map.mpr ⟨extend (sol.map Prod.swap) wlMin, (g2 _).mpr ⟨0, by simp, hab⟩, h.inverse _⟩
  have down : Falling sol → (∀ w ∈ (pixelGrid sol wlMin wlMax delta).wl, wlMin < w ∧ w ≤ wlMax) ∧ wlMax ∈ (pixelGrid sol wlMin wlMax delta).wl := by
    intro h
    have hm := h.strictAnti
    have hab : extend (sol.map Prod.swap) wlMax < extend (sol.map Prod.swap) wlMin := by
      rw [← hm.lt_iff_gt, h.inverse, h.inverse]; exact hlt
    obtain ⟨_, g2, g3, _⟩ := pixel_grid sol wlMin wlMax delta hd _ _ ⟨.inr ⟨rfl, rfl⟩, hab.le⟩
    rw [g3]
    refine ⟨?_, ?_⟩
    · intro w hw
      obtain ⟨t, ht, rfl⟩ := List.mem_map.mp hw
      obtain ⟨k, hk, hb⟩ := (g2 t).mp ht
      have h1 : extend (sol.map Prod.swap) wlMax ≤ t := by
        rw [hk]; have : 0 ≤ (k : α) * delta := by positivity
        linarith
      refine ⟨?_, ?_⟩
      · have := hm hb; rwa [h.inverse] at this
      · have := hm.antitone h1; rwa [h.inverse] at this
    · exact List.mem_map.mpr ⟨extend (sol.map Prod.swap) wlMax, (g2 _).mpr ⟨0, by simp, hab⟩, h.inverse _⟩
  refine ⟨?_, fun h => ⟨(up h).2, fun hm => lt_irrefl _ ((up h).1 _ hm).2⟩, fun h => ⟨(down h).2, fun hm => lt_irrefl _ ((down h).1 _ hm).1⟩⟩
  intro w hw
  rcases h with h | h
  · exact ⟨((up h).1 w hw).1, ((up h).1 w hw).2.le⟩
  · exact ⟨((down h).1 w hw).1.le, ((down h).1 w hw).2⟩

end pixels

/-- A falling solution that is neither sorted nor straight, and its pixels in a band that goes beyond it. -/
theorem demo_pixel_band : Falling [((2 : ℚ), (3 : ℚ)), (0, 8), (1, 4)] ∧
    (pixelGrid [((2 : ℚ), (3 : ℚ)), (0, 8), (1, 4)] 2 10 1).wl = [5 / 2, 7 / 2, 6, 10] := by
  refine ⟨⟨by simp, by decide, by decide⟩, by decide +kernel⟩

end ExoRad.Instrument
