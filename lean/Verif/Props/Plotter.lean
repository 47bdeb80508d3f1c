import Verif.Model.Plotter
import Verif.Lemmas.Dict
import Verif.Lemmas.Table
import Verif.Props.Options
import Verif.Props.Rebin
import Mathlib.Algebra.Order.Ring.Rat

/-! # What the figures show (C85, C87, C88) -/

set_option linter.unusedSectionVars false

namespace ExoRad.Plotter
variable {α : Type} [Field α] [LinearOrder α] [IsStrictOrderedRing α]

/-! ## Specification -/

/-- The text `q` occurs in `s`. -/
def Has (q s : String) : Prop := ∃ pre post : List Char, s.toList = pre ++ q.toList ++ post

theorem has_iff (q s : String) : substr q s = true ↔ Has q s := by
  rw [Options.substr_iff]
  constructor
  · rintro ⟨a, b, h⟩; exact ⟨a, b, h.symm⟩
  · rintro ⟨a, b, h⟩; exact ⟨a, b, h.symm⟩

/-- A column of numbers. -/
def Numbers (c : List (Cell α)) (v : List (Num α)) : Prop := c = v.map Cell.num

/-- `order` goes through the different names of a list, in whatever order. -/
def Enumerates (order : List (Cell α) → List (Cell α)) : Prop := ∀ l, (order l).Nodup ∧ ∀ x, x ∈ order l ↔ x ∈ l

/-! ## Helper lemmas -/

theorem numCol_numbers : ∀ (c : List (Cell α)) (v : List (Num α)), Table.numCol c = .ok v ↔ Numbers c v
  | [], v => by
    unfold Numbers Table.numCol
    constructor
    · intro h; cases h; rfl
    · intro h
      rw [eq_comm, List.map_eq_nil_iff] at h
      rw [h]
  | .num x :: c, v => by
    unfold Numbers
    simp only [Table.numCol, bind, Except.bind, pure, Except.pure]
    cases h : Table.numCol c with
    | error e =>
      simp only [reduceCtorEq, false_iff]
      intro e'
      cases v with
      | nil => cases e'
      | cons y v =>
        simp only [List.map_cons, List.cons.injEq] at e'
        rw [(numCol_numbers c v).mpr e'.2] at h
        cases h
    | ok w =>
      have hw := (numCol_numbers c w).mp h
      unfold Numbers at hw
      simp only [Except.ok.injEq]
      constructor
      · rintro rfl; rw [hw]; rfl
      · intro e'
        cases v with
        | nil => cases e'
        | cons y v =>
          simp only [List.map_cons, List.cons.injEq, Cell.num.injEq] at e'
          have h2 := (numCol_numbers c v).mpr e'.2
          rw [h, Except.ok.injEq] at h2
          rw [h2, e'.1]
  | .str x :: c, v => by
    unfold Numbers
    simp only [Table.numCol, reduceCtorEq, false_iff]
    intro e'
    cases v with
    | nil => cases e'
    | cons y v => simp at e'

theorem curves_ok (f : String → Except Exc (Curve α)) : ∀ (ks : List String) (cs : List (Curve α)), curves f ks = .ok cs →
    List.Forall₂ (fun k c => f k = .ok c) ks cs
  | [], cs, h => by cases h; exact .nil
  | k :: ks, cs, h => by
    unfold curves at h
    cases h1 : f k with
    | error e => simp [h1] at h
    | ok c =>
      simp only [h1] at h
      cases h2 : curves f ks with
      | error e => simp [h2] at h
      | ok r =>
        simp only [h2, Except.ok.injEq] at h
        subst h
        exact .cons h1 (curves_ok f ks r h2)

theorem curves_some (f : String → Except Exc (Curve α)) : ∀ (ks : List String), (∀ k ∈ ks, ∃ c, f k = .ok c) → ∃ cs, curves f ks = .ok cs
  | [], _ => ⟨[], rfl⟩
  | k :: ks, h => by
    obtain ⟨c, hc⟩ := h k (by simp)
    obtain ⟨cs, hcs⟩ := curves_some f ks (fun k hk => h k (by simp [hk]))
    exact ⟨c :: cs, by simp only [curves, hc, hcs]⟩

theorem withBands_ok {order : List (Cell α) → List (Cell α)} {ce : Bool} {t : Table α} {cs : Except Exc (List (Curve α))} {a : Axes α}
    (h : withBands order ce t cs = .ok a) : cs = .ok a.curves ∧ plotBands order ce t = .ok (a.bands, a.ticks) := by
  unfold withBands at h
  cases cs with
  | error e => simp at h
  | ok cs =>
    simp only at h
    cases h2 : plotBands order ce t with
    | error e => simp [h2] at h
    | ok q =>
      simp only [h2, Except.ok.injEq] at h
      subst h
      exact ⟨rfl, rfl⟩

theorem curve_ok {t : Table α} {k : String} {y : List (Cell α)} {c : Curve α} (h : curve t k y = .ok c) :
    t.get? "Wavelength" = some c.x ∧ c.label = k ∧ c.y = y := by
  unfold curve at h
  cases hx : t.getE "Wavelength" with
  | error e => simp [hx] at h
  | ok x =>
    simp only [hx, Except.ok.injEq] at h
    subst h
    exact ⟨Dict.getE_eq_ok_iff.mp hx, rfl, rfl⟩

theorem asStored_ok {t : Table α} {k : String} {c : Curve α} (h : asStored t k = .ok c) :
    c.label = k ∧ t.get? "Wavelength" = some c.x ∧ t.get? k = some c.y := by
  unfold asStored at h
  cases hy : t.getE k with
  | error e => simp [hy] at h
  | ok y =>
    simp only [hy] at h
    obtain ⟨h1, h2, h3⟩ := curve_ok h
    exact ⟨h2, h1, by rw [h3]; exact Dict.getE_eq_ok_iff.mp hy⟩

theorem forall₂_labels {f : String → Except Exc (Curve α)} (hf : ∀ k c, f k = .ok c → c.label = k) {ks : List String} {cs : List (Curve α)}
    (h : List.Forall₂ (fun k c => f k = .ok c) ks cs) : cs.map Curve.label = ks := by
  induction h with
  | nil => rfl
  | cons h _ ih => simp [hf _ _ h, ih]

theorem forall₂_curve {f : String → Except Exc (Curve α)} (hf : ∀ k c, f k = .ok c → c.label = k) {ks : List String} {cs : List (Curve α)}
    (h : List.Forall₂ (fun k c => f k = .ok c) ks cs) : ∀ c ∈ cs, f c.label = .ok c := by
  induction h with
  | nil => simp
  | cons h _ ih =>
    intro c hc
    rcases List.mem_cons.mp hc with rfl | hc
    · rw [hf _ _ h]; exact h
    · exact ih c hc

/-! ## C85 The curves -/

/-- C85: the figure of the signals has one curve for every column whose name contains "signal" and not "noise", in the order of
the table, and each shows its column over the column `Wavelength`. -/
theorem signal_curves (order : List (Cell α) → List (Cell α)) (ce : Bool) (i : Input α) (a : Axes α) (h : plotSignal order ce i = .ok a) :
    (a.curves.map Curve.label).Sublist i.table.keys ∧
    (∀ k, k ∈ a.curves.map Curve.label ↔ k ∈ i.table.keys ∧ Has "signal" k ∧ ¬ Has "noise" k) ∧
    (∀ k, (a.curves.map Curve.label).count k ≤ i.table.keys.count k) ∧
    ∀ c ∈ a.curves, i.table.get? "Wavelength" = some c.x ∧ i.table.get? c.label = some c.y := by
  obtain ⟨h1, _⟩ := withBands_ok h
  have h2 := curves_ok _ _ _ h1
  have hl : ∀ k c, asStored i.table k = .ok c → c.label = k := fun k c h => (asStored_ok h).1
  rw [forall₂_labels hl h2]
  unfold signalNames
  refine ⟨List.filter_sublist, ?_, ?_, ?_⟩
  · intro k
    rw [List.mem_filter]
    simp only [Bool.and_eq_true, Bool.not_eq_true', ← has_iff, Bool.not_eq_true]
  · intro k
    exact List.filter_sublist.count_le k
  · intro c hc
    exact (asStored_ok (forall₂_curve hl h2 c hc)).2

/-- The curve of a noise column, apart from the bands. -/
theorem noiseCurve_ok {i : Input α} {k : String} {c : Curve α} (h : noiseCurve i k = .ok c) :
    c.label = k ∧ i.table.get? "Wavelength" = some c.x ∧
    ((k = "total_noise" ∨ i.sqrtHour k = true) → i.table.get? k = some c.y) ∧
    (k ≠ "total_noise" → i.sqrtHour k = false → ∃ y s : List (Num α), i.table.get? k = some (y.map Cell.num) ∧
      i.table.get? "star_signal_inAperture" = some (s.map Cell.num) ∧ Numbers c.y (List.zipWith (· / ·) y s)) := by
  unfold noiseCurve at h
  by_cases hk : k = "total_noise"
  · rw [if_pos hk] at h
    obtain ⟨h1, h2, h3⟩ := asStored_ok h
    exact ⟨h1, h2, fun _ => h3, fun hn => absurd hk hn⟩
  · rw [if_neg hk] at h
    cases hy : i.table.getE k with
    | error e => simp [hy] at h
    | ok y =>
      simp only [hy] at h
      have hy' := Dict.getE_eq_ok_iff.mp hy
      cases hs : i.sqrtHour k with
      | true =>
        simp only [hs, if_true] at h
        obtain ⟨h1, h2, h3⟩ := curve_ok h
        exact ⟨h2, h1, fun _ => by rw [h3]; exact hy', by simp⟩
      | false =>
        simp only [hs, Bool.false_eq_true, if_false] at h
        cases ho : overStar i.table y with
        | error e => simp [ho] at h
        | ok z =>
          simp only [ho] at h
          obtain ⟨h1, h2, h3⟩ := curve_ok h
          refine ⟨h2, h1, by simp [hk], fun _ _ => ?_⟩
          unfold overStar at ho
          cases hstar : i.table.getE "star_signal_inAperture" with
          | error e => simp [hstar] at ho
          | ok s =>
            simp only [hstar] at ho
            cases hny : Table.numCol y with
            | error e => simp [hny] at ho
            | ok y' =>
              simp only [hny] at ho
              cases hns : Table.numCol s with
              | error e => simp [hns] at ho
              | ok s' =>
                simp only [hns, Except.ok.injEq] at ho
                have e1 : y = y'.map Cell.num := (numCol_numbers _ _).mp hny
                have e2 : s = s'.map Cell.num := (numCol_numbers _ _).mp hns
                refine ⟨y', s', by rw [hy', e1], by rw [Dict.getE_eq_ok_iff.mp hstar, e2], ?_⟩
                unfold Numbers
                rw [h3, ← ho, List.map_zipWith]

/-- C85: the figure of the noise has one curve for every column whose name contains "noise" or "custom", in the order of the table,
over the column `Wavelength`; `total_noise` and the columns in `hr**0.5` are shown as they are, the others divided by the signal
of the star row by row. -/
theorem noise_curves (order : List (Cell α) → List (Cell α)) (ce : Bool) (i : Input α) (a : Axes α) (h : plotNoise order ce i = .ok a) :
    (a.curves.map Curve.label).Sublist i.table.keys ∧
    (∀ k, k ∈ a.curves.map Curve.label ↔ k ∈ i.table.keys ∧ (Has "noise" k ∨ Has "custom" k)) ∧
    (∀ k, (a.curves.map Curve.label).count k ≤ i.table.keys.count k) ∧
    ∀ c ∈ a.curves, i.table.get? "Wavelength" = some c.x ∧
      ((c.label = "total_noise" ∨ i.sqrtHour c.label = true) → i.table.get? c.label = some c.y) ∧
      (c.label ≠ "total_noise" → i.sqrtHour c.label = false → ∃ y s : List (Num α), i.table.get? c.label = some (y.map Cell.num) ∧
        i.table.get? "star_signal_inAperture" = some (s.map Cell.num) ∧ Numbers c.y (List.zipWith (· / ·) y s)) := by
  obtain ⟨h1, _⟩ := withBands_ok h
  have h2 := curves_ok _ _ _ h1
  have hl : ∀ k c, noiseCurve i k = .ok c → c.label = k := fun k c h => (noiseCurve_ok h).1
  rw [forall₂_labels hl h2]
  unfold noiseNames
  refine ⟨List.filter_sublist, ?_, ?_, ?_⟩
  · intro k
    rw [List.mem_filter]
    simp only [Bool.or_eq_true, ← has_iff]
  · intro k
    exact List.filter_sublist.count_le k
  · intro c hc
    exact (noiseCurve_ok (forall₂_curve hl h2 c hc)).2

/-! ## C85 The bands -/

theorem bandLoop_ok (t : Table α) : ∀ (ns : List (Cell α)) (bs : List (Band α)), bandLoop t ns = .ok bs →
    List.Forall₂ (fun n b => bandOf t n = .ok b) ns bs
  | [], bs, h => by cases h; exact .nil
  | n :: ns, bs, h => by
    unfold bandLoop at h
    cases h1 : bandOf t n with
    | error e => simp [h1] at h
    | ok b =>
      simp only [h1] at h
      cases h2 : bandLoop t ns with
      | error e => simp [h2] at h
      | ok r =>
        simp only [h2, Except.ok.injEq] at h
        subst h
        exact .cons h1 (bandLoop_ok t ns r h2)

theorem bandLoop_some (t : Table α) : ∀ (ns : List (Cell α)), (∀ n ∈ ns, ∃ b, bandOf t n = .ok b) → ∃ bs, bandLoop t ns = .ok bs ∧ bs.length = ns.length
  | [], _ => ⟨[], rfl, rfl⟩
  | n :: ns, h => by
    obtain ⟨c, hc⟩ := h n (by simp)
    obtain ⟨cs, hcs, hl⟩ := bandLoop_some t ns (fun k hk => h k (by simp [hk]))
    exact ⟨c :: cs, by simp only [bandLoop, hc, hcs], by simp [hl]⟩

/-- Python's `min` and `max` of finite numbers. -/
theorem pyMin_fold : ∀ (l : List α) (a : α), ∃ m, (l.map Num.fin).foldl (fun m x => if Num.lt x m then x else m) (Num.fin a) = Num.fin m ∧
    m ∈ a :: l ∧ ∀ x ∈ a :: l, m ≤ x
  | [], a => ⟨a, rfl, by simp, by simp⟩
  | b :: l, a => by
    simp only [List.map_cons, List.foldl_cons, Num.lt]
    by_cases h : b < a
    · simp only [h, decide_true, if_true]
      obtain ⟨m, h1, h2, h3⟩ := pyMin_fold l b
      refine ⟨m, h1, by simp only [List.mem_cons] at h2 ⊢; tauto, ?_⟩
      intro x hx
      rcases List.mem_cons.mp hx with rfl | hx
      · exact (h3 b (by simp)).trans h.le
      · exact h3 x hx
    · simp only [h, decide_false, Bool.false_eq_true, if_false]
      obtain ⟨m, h1, h2, h3⟩ := pyMin_fold l a
      refine ⟨m, h1, by simp only [List.mem_cons] at h2 ⊢; tauto, ?_⟩
      intro x hx
      simp only [List.mem_cons] at hx
      rcases hx with rfl | rfl | hx
      · exact h3 _ (by simp)
      · exact (h3 a (by simp)).trans (not_lt.mp h)
      · exact h3 x (by simp [hx])

theorem pyMax_fold : ∀ (l : List α) (a : α), ∃ m, (l.map Num.fin).foldl (fun m x => if Num.lt m x then x else m) (Num.fin a) = Num.fin m ∧
    m ∈ a :: l ∧ ∀ x ∈ a :: l, x ≤ m
  | [], a => ⟨a, rfl, by simp, by simp⟩
  | b :: l, a => by
    simp only [List.map_cons, List.foldl_cons, Num.lt]
    by_cases h : a < b
    · simp only [h, decide_true, if_true]
      obtain ⟨m, h1, h2, h3⟩ := pyMax_fold l b
      refine ⟨m, h1, by simp only [List.mem_cons] at h2 ⊢; tauto, ?_⟩
      intro x hx
      rcases List.mem_cons.mp hx with rfl | hx
      · exact h.le.trans (h3 b (by simp))
      · exact h3 x hx
    · simp only [h, decide_false, Bool.false_eq_true, if_false]
      obtain ⟨m, h1, h2, h3⟩ := pyMax_fold l a
      refine ⟨m, h1, by simp only [List.mem_cons] at h2 ⊢; tauto, ?_⟩
      intro x hx
      simp only [List.mem_cons] at hx
      rcases hx with rfl | rfl | hx
      · exact h3 _ (by simp)
      · exact (not_lt.mp h).trans (h3 a (by simp))
      · exact h3 x (by simp [hx])

/-- A table whose rows are bins: row `r` belongs to the channel `ch r` and goes from `left r` to `right r`. -/
structure Bins (t : Table α) (n : ℕ) (ch : ℕ → Cell α) (left right : ℕ → α) : Prop where
  name : t.get? "chName" = some ((List.range n).map ch)
  lo : t.get? "LeftBinEdge" = some ((List.range n).map (fun r => Cell.num (.fin (left r))))
  hi : t.get? "RightBinEdge" = some ((List.range n).map (fun r => Cell.num (.fin (right r))))

theorem zip_map_range {β γ : Type} (n : ℕ) (f : ℕ → β) (g : ℕ → γ) :
    List.zip ((List.range n).map f) ((List.range n).map g) = (List.range n).map (fun r => (f r, g r)) := by
  rw [List.zip_map']

theorem edgesOf_eq {t : Table α} {n : ℕ} {ch : ℕ → Cell α} (hn : t.get? "chName" = some ((List.range n).map ch)) {key : String} {v : ℕ → α}
    (hv : t.get? key = some ((List.range n).map (fun r => Cell.num (.fin (v r))))) (name : Cell α) :
    edgesOf t key name = .ok ((((List.range n).filter (fun r => decide (ch r = name))).map v).map Num.fin) := by
  unfold edgesOf rowsOf
  rw [Dict.getE_ok hv, Dict.getE_ok hn]
  simp only
  rw [zip_map_range, numCol_numbers]
  unfold Numbers
  induction List.range n with
  | nil => rfl
  | cons r l ih =>
    by_cases hr : ch r = name
    · simp [hr, ih]
    · simp [hr, ih]

/-- The band of a channel of a table of bins. -/
theorem bandOf_bins {t : Table α} {n : ℕ} {ch : ℕ → Cell α} {left right : ℕ → α} (hb : Bins t n ch left right) (name : Cell α)
    (hmem : ∃ r < n, ch r = name) : ∃ lo hi : α, bandOf t name = .ok ⟨name, .fin lo, .fin hi⟩ ∧
      (∃ r < n, ch r = name ∧ left r = lo) ∧ (∃ r < n, ch r = name ∧ right r = hi) ∧
      ∀ r < n, ch r = name → lo ≤ left r ∧ right r ≤ hi := by
  obtain ⟨r0, hr0, hc0⟩ := hmem
  obtain ⟨x, xs, hx⟩ : ∃ x xs, (List.range n).filter (fun r => decide (ch r = name)) = x :: xs := by
    cases h : (List.range n).filter (fun r => decide (ch r = name)) with
    | nil =>
      have : r0 ∈ (List.range n).filter (fun r => decide (ch r = name)) := by simp [hr0, hc0]
      rw [h] at this
      cases this
    | cons x xs => exact ⟨x, xs, rfl⟩
  have hin : ∀ r, r ∈ x :: xs ↔ r < n ∧ ch r = name := by intro r; rw [← hx]; simp
  obtain ⟨lo, l1, l2, l3⟩ := pyMin_fold (xs.map left) (left x)
  obtain ⟨hi, u1, u2, u3⟩ := pyMax_fold (xs.map right) (right x)
  refine ⟨lo, hi, ?_, ?_, ?_, ?_⟩
  · unfold bandOf
    rw [edgesOf_eq hb.name hb.lo, edgesOf_eq hb.name hb.hi, hx]
    simp only [List.map_cons, pyMin, pyMax, l1, u1]
  · obtain ⟨r, hr, e⟩ := List.mem_map.mp (show lo ∈ (x :: xs).map left from l2)
    exact ⟨r, ((hin r).mp hr).1, ((hin r).mp hr).2, e⟩
  · obtain ⟨r, hr, e⟩ := List.mem_map.mp (show hi ∈ (x :: xs).map right from u2)
    exact ⟨r, ((hin r).mp hr).1, ((hin r).mp hr).2, e⟩
  · intro r hr hc
    have hm := (hin r).mpr ⟨hr, hc⟩
    exact ⟨l3 _ (List.mem_map_of_mem (f := left) hm), u3 _ (List.mem_map_of_mem (f := right) hm)⟩

/-- C85: the bands of a table of bins. There is one band for each channel; it holds all bins of the channel and ends where some of
them begin or end. The ticks are where the bands begin, and the end of the band drawn last. -/
theorem bands_spec (order : List (Cell α) → List (Cell α)) (ho : Enumerates order) (ce : Bool) (t : Table α) (n : ℕ) (hn : 0 < n)
    (ch : ℕ → Cell α) (left right : ℕ → α) (hb : Bins t n ch left right) :
    ∃ bs ticks, plotBands order ce t = .ok (bs, ticks) ∧ (bs.map Band.channel).Nodup ∧
      (∀ c, c ∈ bs.map Band.channel ↔ ∃ r < n, ch r = c) ∧
      (∀ b ∈ bs, ∃ lo hi : α, b.lo = .fin lo ∧ b.hi = .fin hi ∧ (∃ r < n, ch r = b.channel ∧ left r = lo) ∧ (∃ r < n, ch r = b.channel ∧ right r = hi) ∧
        ∀ r < n, ch r = b.channel → lo ≤ left r ∧ right r ≤ hi) ∧
      (ce = false → ticks = none) ∧
      (ce = true → ∃ b, bs.getLast? = some b ∧ ticks = some (bs.map Band.lo ++ [b.hi])) := by
  have hmem : ∀ c, c ∈ order ((List.range n).map ch) ↔ ∃ r < n, ch r = c := by
    intro c
    rw [(ho _).2, List.mem_map]
    simp
  obtain ⟨bs, h1, hlen⟩ := bandLoop_some t (order ((List.range n).map ch)) (fun c hc => by
    obtain ⟨lo, hi, h, _⟩ := bandOf_bins hb c ((hmem c).mp hc)
    exact ⟨_, h⟩)
  have h2 := bandLoop_ok t _ _ h1
  have hch : bs.map Band.channel = order ((List.range n).map ch) := by
    have : ∀ ns (bs : List (Band α)), (∀ c ∈ ns, ∃ r < n, ch r = c) → List.Forall₂ (fun n b => bandOf t n = .ok b) ns bs → bs.map Band.channel = ns := by
      intro ns bs hns h
      induction h with
      | nil => rfl
      | cons h _ ih =>
        rename_i c b _ _ _
        obtain ⟨lo, hi, hc, _⟩ := bandOf_bins hb c (hns c (by simp))
        rw [hc, Except.ok.injEq] at h
        rw [List.map_cons, ih (fun c hc => hns c (by simp [hc])), ← h]
    exact this _ _ (fun c hc => (hmem c).mp hc) h2
  obtain ⟨b, hlast⟩ : ∃ b, bs.getLast? = some b := by
    cases h : bs.getLast? with
    | some b => exact ⟨b, rfl⟩
    | none =>
      rw [List.getLast?_eq_none_iff] at h
      rw [h, List.length_nil, eq_comm, List.length_eq_zero_iff] at hlen
      have := (hmem (ch 0)).mpr ⟨0, hn, rfl⟩
      rw [hlen] at this
      cases this
  refine ⟨bs, if ce then some (bs.map Band.lo ++ [b.hi]) else none, ?_, ?_, ?_, ?_, ?_, ?_⟩
  · unfold plotBands
    simp only [Dict.getE_ok hb.name, h1, hlast]
  · rw [hch]; exact (ho _).1
  · intro c; rw [hch]; exact hmem c
  · intro d hd
    have hd' : bandOf t d.channel = .ok d ∧ ∃ r < n, ch r = d.channel := by
      have hm : d.channel ∈ bs.map Band.channel := List.mem_map_of_mem hd
      rw [hch] at hm
      have hc := (hmem _).mp hm
      refine ⟨?_, hc⟩
      have : ∀ ns (bs : List (Band α)), (∀ c ∈ ns, ∃ r < n, ch r = c) → List.Forall₂ (fun n b => bandOf t n = .ok b) ns bs → ∀ d ∈ bs, bandOf t d.channel = .ok d := by
        intro ns bs hns h
        induction h with
        | nil => simp
        | cons h _ ih =>
          rename_i c b _ _ _
          intro d hd
          rcases List.mem_cons.mp hd with rfl | hd
          · obtain ⟨lo, hi, hc, _⟩ := bandOf_bins hb c (hns c (by simp))
            have h' := h
            rw [hc, Except.ok.injEq] at h'
            rw [← h'] at h ⊢
            exact h
          · exact ih (fun c hc => hns c (by simp [hc])) d hd
      exact this _ _ (fun c hc => (hmem c).mp hc) h2 d hd
    obtain ⟨lo, hi, h, p1, p2, p3⟩ := bandOf_bins hb d.channel hd'.2
    have h' := hd'.1
    rw [h, Except.ok.injEq] at h'
    exact ⟨lo, hi, by rw [← h'], by rw [← h'], p1, p2, p3⟩
  · rintro rfl; rfl
  · rintro rfl; exact ⟨b, hlast, rfl⟩

/-- C85: a table without rows cannot be drawn. -/
theorem no_rows_no_bands (order : List (Cell α) → List (Cell α)) (ho : Enumerates order) (ce : Bool) (t : Table α) (h : t.get? "chName" = some []) :
    plotBands order ce t = .error .unboundLocalError := by
  have : order [] = [] := List.eq_nil_iff_forall_not_mem.mpr (fun x hx => by simpa using ((ho []).2 x).mp hx)
  simp only [plotBands, Dict.getE_ok h, this, bandLoop, List.getLast?_nil]

/-! ## C85 When a table can be drawn -/

/-- C85: a table of bins with a name, wavelengths, and numbers for the star and the noise can be drawn. -/
theorem can_be_drawn (order : List (Cell α) → List (Cell α)) (ho : Enumerates order) (ce : Bool) (i : Input α) (title : String) (hname : i.name = some title)
    (n : ℕ) (hn : 0 < n) (ch : ℕ → Cell α) (left right : ℕ → α) (hb : Bins i.table n ch left right) (hw : "Wavelength" ∈ i.table.keys)
    (hstar : ∃ s : List (Num α), i.table.get? "star_signal_inAperture" = some (s.map Cell.num))
    (hnoise : ∀ k ∈ i.table.keys, Has "noise" k ∨ Has "custom" k → ∃ y : List (Num α), i.table.get? k = some (y.map Cell.num)) :
    ∃ f, plotTable order ce i = .ok f ∧ f.title = title ∧ plotSignal order ce i = .ok f.signal ∧ plotNoise order ce i = .ok f.noise := by
  obtain ⟨bs, ticks, hbands, _⟩ := bands_spec order ho ce i.table n hn ch left right hb
  obtain ⟨x, hx⟩ := Dict.exists_get? hw
  have hcurve : ∀ k y, curve i.table k y = .ok ⟨k, x, y⟩ := fun k y => by simp only [curve, Dict.getE_ok hx]
  obtain ⟨cs, hcs⟩ := curves_some (asStored i.table) (signalNames i.table) (fun k hk => by
    obtain ⟨y, hy⟩ := Dict.exists_get? (List.mem_of_mem_filter hk)
    exact ⟨⟨k, x, y⟩, by simp only [asStored, Dict.getE_ok hy, hcurve]⟩)
  obtain ⟨s, hs⟩ := hstar
  obtain ⟨ds, hds⟩ := curves_some (noiseCurve i) (noiseNames i.table) (fun k hk => by
    unfold noiseNames at hk
    rw [List.mem_filter] at hk
    obtain ⟨y, hy⟩ := hnoise k hk.1 (by simpa [← has_iff] using hk.2)
    unfold noiseCurve
    by_cases hT : k = "total_noise"
    · rw [if_pos hT]
      exact ⟨⟨k, x, y.map Cell.num⟩, by simp only [asStored, Dict.getE_ok hy, hcurve]⟩
    · rw [if_neg hT]
      simp only [Dict.getE_ok hy, hcurve, overStar, Dict.getE_ok hs, (numCol_numbers _ y).mpr rfl, (numCol_numbers _ s).mpr rfl]
      cases i.sqrtHour k
      · exact ⟨_, rfl⟩
      · exact ⟨_, rfl⟩)
  refine ⟨⟨title, ⟨cs, bs, ticks⟩, ⟨ds, bs, ticks⟩⟩, ?_, rfl, ?_, ?_⟩
  · simp only [plotTable, hname, plotSignal, plotNoise, withBands, hcs, hds, hbands]
  · simp only [plotSignal, withBands, hcs, hbands]
  · simp only [plotNoise, withBands, hds, hbands]

/-! ## C87 The same table, the same figure -/

/-- C87: whatever the order in which the channels are taken, the curves are the same and so are the bands, up to their order. -/
theorem figure_determined_partial (o o' : List (Cell α) → List (Cell α)) (ho : Enumerates o) (ho' : Enumerates o') (ce : Bool) (i : Input α)
    (n : ℕ) (hn : 0 < n) (ch : ℕ → Cell α) (left right : ℕ → α) (hb : Bins i.table n ch left right) (f : Fig α)
    (h : plotTable o ce i = .ok f) : ∃ f', plotTable o' ce i = .ok f' ∧ f'.title = f.title ∧ f'.signal.curves = f.signal.curves ∧
      f'.noise.curves = f.noise.curves ∧ f'.signal.bands.Perm f.signal.bands ∧ f'.noise.bands.Perm f.noise.bands := by
  obtain ⟨bs, ticks, e1, c1, c2, c3, _⟩ := bands_spec o ho ce i.table n hn ch left right hb
  obtain ⟨bs', ticks', e1', c1', c2', c3', _⟩ := bands_spec o' ho' ce i.table n hn ch left right hb
  have hperm : bs'.Perm bs := by
    have key : ∀ (l l' : List (Band α)), (∀ c, c ∈ l.map Band.channel ↔ c ∈ l'.map Band.channel) →
        (∀ b ∈ l, ∃ lo hi : α, b.lo = .fin lo ∧ b.hi = .fin hi ∧ (∃ r < n, ch r = b.channel ∧ left r = lo) ∧ (∃ r < n, ch r = b.channel ∧ right r = hi) ∧
          ∀ r < n, ch r = b.channel → lo ≤ left r ∧ right r ≤ hi) →
        (∀ b ∈ l', ∃ lo hi : α, b.lo = .fin lo ∧ b.hi = .fin hi ∧ (∃ r < n, ch r = b.channel ∧ left r = lo) ∧ (∃ r < n, ch r = b.channel ∧ right r = hi) ∧
          ∀ r < n, ch r = b.channel → lo ≤ left r ∧ right r ≤ hi) → ∀ b ∈ l, b ∈ l' := by
      intro l l' hm h1 h2 b hbm
      obtain ⟨b', hb', e⟩ := List.mem_map.mp ((hm b.channel).mp (List.mem_map_of_mem hbm))
      obtain ⟨lo, hi, a1, a2, ⟨r, hr, cr, er⟩, ⟨q, hq, cq, eq⟩, a3⟩ := h1 b hbm
      obtain ⟨lo', hi', a1', a2', ⟨r', hr', cr', er'⟩, ⟨q', hq', cq', eq'⟩, a3'⟩ := h2 b' hb'
      have g1 : lo = lo' := by
        apply le_antisymm
        · rw [← er']; exact (a3 r' hr' (by rw [cr', e])).1
        · rw [← er]; exact (a3' r hr (by rw [cr, e])).1
      have g2 : hi = hi' := by
        apply le_antisymm
        · rw [← eq]; exact (a3' q hq (by rw [cq, e])).2
        · rw [← eq']; exact (a3 q' hq' (by rw [cq', e])).2
      have : b = b' := by
        cases b; cases b'
        simp only at e a1 a2 a1' a2'
        rw [a1, a2, a1', a2', e, g1, g2]
      rw [this]; exact hb'
    have hch : ∀ c, c ∈ bs.map Band.channel ↔ c ∈ bs'.map Band.channel := fun c => (c2 c).trans (c2' c).symm
    refine (List.perm_ext_iff_of_nodup (List.Nodup.of_map _ c1') (List.Nodup.of_map _ c1)).mpr ?_
    intro b
    exact ⟨key bs' bs (fun c => (hch c).symm) c3' c3 b, key bs bs' hch c3 c3' b⟩
  unfold plotTable at h
  cases hT : i.name with
  | none => simp [hT] at h
  | some title =>
    simp only [hT] at h
    cases hs : plotSignal o ce i with
    | error e => simp [hs] at h
    | ok s =>
      simp only [hs] at h
      cases hm : plotNoise o ce i with
      | error e => simp [hm] at h
      | ok m =>
        simp only [hm, Except.ok.injEq] at h
        subst h
        obtain ⟨s1, s2⟩ := withBands_ok hs
        obtain ⟨m1, m2⟩ := withBands_ok hm
        rw [e1, Except.ok.injEq, Prod.mk.injEq] at s2 m2
        refine ⟨⟨title, ⟨s.curves, bs', ticks'⟩, ⟨m.curves, bs', ticks'⟩⟩, ?_, rfl, rfl, rfl, ?_, ?_⟩
        · simp only [plotTable, hT, plotSignal, plotNoise, withBands, s1, m1, e1']
        · rw [← s2.1]; exact hperm
        · rw [← m2.1]; exact hperm

/-! ## C88 The efficiencies -/

/-- C88: what is drawn for a channel: the transmission and the quantum efficiency as they are, and on the grid of the transmission their
product, with the quantum efficiency resampled onto that grid. -/
theorem efficiency_curves (b : Built α) (x : Efficiency α) (h : efficiencyOf b = .ok x) :
    x.transmission.wl = b.tr.1 ∧ x.transmission.data = b.tr.2 ∧ x.qe.wl = b.qe.1 ∧ x.qe.data = b.qe.2 ∧
    x.pce.wl = b.tr.1 ∧ x.pce.data.length = b.tr.1.length ∧
    ∃ q, x.qe.spectralRebin b.tr.1 = .ok q ∧ q.data.length = b.tr.1.length ∧
      ∀ j, x.pce.data.getD j 0 = b.tr.2.getD j 0 * q.data.getD j 0 := by
  unfold efficiencyOf at h
  cases h1 : Rebin.Signal.mk? b.tr.1 b.tr.2 with
  | error e => simp [h1] at h
  | ok tr =>
    simp only [h1] at h
    cases h2 : Rebin.Signal.mk? b.qe.1 b.qe.2 with
    | error e => simp [h2] at h
    | ok qe =>
      simp only [h2] at h
      cases h3 : qe.spectralRebin tr.wl with
      | error e => simp [h3] at h
      | ok q =>
        simp only [h3] at h
        obtain ⟨e1, e2⟩ := (Rebin.mk?_ok _ _ _).mp h1
        obtain ⟨e3, e4⟩ := (Rebin.mk?_ok _ _ _).mp h2
        by_cases hl : q.data.length = tr.data.length
        · rw [if_pos hl, Except.ok.injEq] at h
          subst h
          have w1 : tr.wl = b.tr.1 := by rw [e1]
          have w2 : tr.data = b.tr.2 := by rw [e1]
          have w3 : tr.data.length = tr.wl.length := e2
          refine ⟨w1, w2, by rw [e3], by rw [e3], w1, ?_, q, ?_, ?_, ?_⟩
          · simp only [List.length_zipWith, hl, Nat.min_self, w3, w1]
          · rw [← w1]; exact h3
          · rw [hl, w3, w1]
          · intro j
            rw [← w2]
            by_cases hj : j < tr.data.length
            · have hq : j < q.data.length := by rw [hl]; exact hj
              simp [List.getD, hj, hq]
            · simp [List.getD, hj, hl]
        · rw [if_neg hl] at h; cases h

end ExoRad.Plotter
