import Verif.Lemmas.Table

/-! Helper lemmas: stacking tables twice, and stacking tables without some columns. -/

set_option linter.unusedSectionVars false

namespace ExoRad.Table
variable {α : Type} [Field α] [LinearOrder α]

/-- Nothing is missing. -/
theorem addMissing_noop : ∀ (other tab : Table α), (∀ c ∈ other.keys, c ∈ tab.keys) → addMissing other tab = .ok tab
  | [], _, _ => rfl
  | (c, col) :: rest, tab, h => by
    unfold addMissing
    rw [if_pos ((Dict.has_iff tab c).mpr (h c (by simp)))]
    exact addMissing_noop rest tab (fun c hc => h c (by simp [hc]))

/-- Columns are appended, and afterwards none is missing. -/
theorem addMissing_grows : ∀ (other tab tab' : Table α), addMissing other tab = .ok tab' →
    tab <+: tab' ∧ (∀ c ∈ other.keys, c ∈ tab'.keys) ∧ ∀ c ∈ tab'.keys, c ∈ tab.keys ∨ c ∈ other.keys
  | [], tab, tab', h => by
    cases h
    exact ⟨List.prefix_refl _, by simp, fun c hc => .inl hc⟩
  | (c, col) :: rest, tab, tab', h => by
    unfold addMissing at h
    by_cases hc : c ∈ tab.keys
    · rw [if_pos ((Dict.has_iff tab c).mpr hc)] at h
      obtain ⟨h1, h2, h3⟩ := addMissing_grows rest tab tab' h
      obtain ⟨z, hz⟩ := h1
      refine ⟨⟨z, hz⟩, ?_, ?_⟩
      · intro k hk
        rcases List.mem_cons.mp (by simpa using hk) with rfl | hk
        · rw [← hz, Dict.keys_append]; exact List.mem_append_left _ hc
        · exact h2 k hk
      · intro k hk
        rcases h3 k hk with h | h
        · exact .inl h
        · exact .inr (by simp [h])
    · rw [if_neg (by rw [(Dict.has_eq_false_iff tab c).mpr hc]; simp)] at h
      cases col with
      | nil => simp at h
      | cons x xs =>
        simp only [bind, Except.bind] at h
        cases hz : zerosTimes tab.rows x with
        | error e => simp [hz] at h
        | ok z =>
          simp only [hz] at h
          rw [set_append_of_not_mem tab c z hc] at h
          obtain ⟨h1, h2, h3⟩ := addMissing_grows rest _ tab' h
          refine ⟨(List.prefix_append _ _).trans h1, ?_, ?_⟩
          · intro k hk
            rcases List.mem_cons.mp (by simpa using hk) with rfl | hk
            · obtain ⟨y, hy⟩ := h1
              rw [← hy, Dict.keys_append, Dict.keys_append]; simp
            · exact h2 k hk
          · intro k hk
            rcases h3 k hk with h | h
            · rw [Dict.keys_append] at h
              rcases List.mem_append.mp h with h | h
              · exact .inl h
              · exact .inr (by simp at h; simp [h])
            · exact .inr (by simp [h])

theorem rows_prefix {t t' : Table α} (h : t <+: t') (h0 : t.rows ≠ 0) : t'.rows = t.rows := by
  obtain ⟨z, rfl⟩ := h
  cases t with
  | nil => simp [rows] at h0
  | cons p t => rfl

theorem mem_keys_prefix {t t' : Table α} (h : t <+: t') {c : String} (hc : c ∈ t.keys) : c ∈ t'.keys := by
  obtain ⟨z, rfl⟩ := h
  rw [Dict.keys_append]; exact List.mem_append_left _ hc

theorem vstackStep_parts {t u r t' u' : Table α} (h : vstackStep t u = .ok (r, t', u')) :
    addMissing t u = .ok u' ∧ addMissing u' t = .ok t' ∧ r = vstack2 t' u' := by
  unfold vstackStep at h
  simp only [bind, Except.bind, pure, Except.pure] at h
  cases h1 : addMissing t u with
  | error e => simp [h1] at h
  | ok a =>
    simp only [h1] at h
    cases h2 : addMissing a t with
    | error e => simp [h2] at h
    | ok b =>
      simp only [h2, Except.ok.injEq, Prod.mk.injEq] at h
      obtain ⟨h3, rfl, rfl⟩ := h
      exact ⟨rfl, h2, h3.symm⟩

theorem vstackStep_again {t u r t' u' : Table α} (h : vstackStep t u = .ok (r, t', u')) :
    vstackStep t' u' = .ok (r, t', u') := by
  obtain ⟨h1, h2, h3⟩ := vstackStep_parts h
  obtain ⟨a1, a2, a3⟩ := addMissing_grows _ _ _ h1
  obtain ⟨b1, b2, b3⟩ := addMissing_grows _ _ _ h2
  have e1 : addMissing t' u' = .ok u' := by
    apply addMissing_noop
    intro c hc
    rcases b3 c hc with h | h
    · exact a2 c h
    · exact h
  have e2 : addMissing u' t' = .ok t' := addMissing_noop _ _ b2
  simp only [vstackStep, bind, Except.bind, pure, Except.pure, e1, e2, h3]

/-- A second time with the same accumulator, the other table has all its columns already. -/
theorem vstackStep_acc {t u r t' u' : Table α} (h : vstackStep t u = .ok (r, t', u')) :
    vstackStep t u' = .ok (r, t', u') := by
  obtain ⟨h1, h2, h3⟩ := vstackStep_parts h
  obtain ⟨a1, a2, a3⟩ := addMissing_grows _ _ _ h1
  have e1 : addMissing t u' = .ok u' := addMissing_noop _ _ a2
  simp only [vstackStep, bind, Except.bind, pure, Except.pure, e1, h2, h3]

theorem vstackAcc_again : ∀ (ts : List (Table α)) (acc r : Table α) (ts' : List (Table α)),
    vstackAcc acc ts = .ok (r, ts') → vstackAcc acc ts' = .ok (r, ts')
  | [], acc, r, ts', h => by cases h; rfl
  | t :: ts, acc, r, ts', h => by
    simp only [vstackAcc, bind, Except.bind, pure, Except.pure] at h
    cases h1 : vstackStep acc t with
    | error e => simp [h1] at h
    | ok q =>
      obtain ⟨a, b, c⟩ := q
      simp only [h1] at h
      cases h2 : vstackAcc a ts with
      | error e => simp [h2] at h
      | ok q =>
        obtain ⟨r', us⟩ := q
        simp only [h2, Except.ok.injEq, Prod.mk.injEq] at h
        obtain ⟨rfl, rfl⟩ := h
        simp only [vstackAcc, bind, Except.bind, pure, Except.pure, vstackStep_acc h1, vstackAcc_again ts a r' us h2]

theorem vstackTables_two {t u : Table α} {us : List (Table α)} (h0 : t.rows ≠ 0) {r : Option (Table α)} {ts' : List (Table α)}
    (h : vstackTables (t :: u :: us) = .ok (r, ts')) : ∃ a t' u' r' us', vstackStep t u = .ok (a, t', u') ∧
      vstackAcc a us = .ok (r', us') ∧ r = some r' ∧ ts' = t' :: u' :: us' := by
  simp only [vstackTables, h0, if_false, bind, Except.bind, pure, Except.pure] at h
  cases h1 : vstackStep t u with
  | error e => simp [h1] at h
  | ok q =>
    obtain ⟨a, t', u'⟩ := q
    simp only [h1] at h
    cases h2 : vstackAcc a us with
    | error e => simp [h2] at h
    | ok q =>
      obtain ⟨r', us'⟩ := q
      simp only [h2, Except.ok.injEq, Prod.mk.injEq] at h
      exact ⟨a, t', u', r', us', rfl, h2, h.1.symm, h.2.symm⟩

theorem vstackTables_two_ok {t u : Table α} {us : List (Table α)} (h0 : t.rows ≠ 0) {a t' u' r' : Table α} {us' : List (Table α)}
    (h1 : vstackStep t u = .ok (a, t', u')) (h2 : vstackAcc a us = .ok (r', us')) :
    vstackTables (t :: u :: us) = .ok (some r', t' :: u' :: us') := by
  simp only [vstackTables, h0, if_false, bind, Except.bind, pure, Except.pure, h1, h2]

theorem vstackAcc_length : ∀ (ts : List (Table α)) (acc r : Table α) (ts' : List (Table α)),
    vstackAcc acc ts = .ok (r, ts') → ts'.length = ts.length
  | [], acc, r, ts', h => by cases h; rfl
  | t :: ts, acc, r, ts', h => by
    simp only [vstackAcc, bind, Except.bind, pure, Except.pure] at h
    cases h1 : vstackStep acc t with
    | error e => simp [h1] at h
    | ok q =>
      obtain ⟨a, b, c⟩ := q
      simp only [h1] at h
      cases h2 : vstackAcc a ts with
      | error e => simp [h2] at h
      | ok q =>
        obtain ⟨r', us⟩ := q
        simp only [h2, Except.ok.injEq, Prod.mk.injEq] at h
        obtain ⟨rfl, rfl⟩ := h
        simp [vstackAcc_length ts a r' us h2]

theorem vstackTables_length : ∀ (ts : List (Table α)) (r : Option (Table α)) (ts' : List (Table α)),
    vstackTables ts = .ok (r, ts') → ts'.length = ts.length
  | [], r, ts', h => by cases h; rfl
  | [t], r, ts', h => by
    by_cases h0 : t.rows = 0 <;> simp only [vstackTables, h0, if_true, if_false, Except.ok.injEq, Prod.mk.injEq] at h <;>
      obtain ⟨rfl, rfl⟩ := h <;> rfl
  | t :: u :: us, r, ts', h => by
    by_cases h0 : t.rows = 0
    · rw [vstackTables] at h
      simp only [h0, if_true, bind, Except.bind, pure, Except.pure] at h
      cases h1 : vstackTables (u :: us) with
      | error e => simp [h1] at h
      | ok q =>
        obtain ⟨r1, us'⟩ := q
        simp only [h1, Except.ok.injEq, Prod.mk.injEq] at h
        obtain ⟨rfl, rfl⟩ := h
        simpa using vstackTables_length (u :: us) r1 us' h1
    · obtain ⟨a, t', u', r', us', h1, h2, rfl, rfl⟩ := vstackTables_two h0 h
      simp [vstackAcc_length us a r' us' h2]

/-- Stacking the tables again, as stacking left them, gives the same and changes nothing more. -/
theorem vstackTables_again : ∀ (ts : List (Table α)) (r : Option (Table α)) (ts' : List (Table α)),
    vstackTables ts = .ok (r, ts') → vstackTables ts' = .ok (r, ts')
  | [], r, ts', h => by cases h; rfl
  | [t], r, ts', h => by
    by_cases h0 : t.rows = 0
    · simp only [vstackTables, h0, if_true, Except.ok.injEq, Prod.mk.injEq] at h
      obtain ⟨rfl, rfl⟩ := h
      simp [vstackTables, h0]
    · simp only [vstackTables, h0, if_false, Except.ok.injEq, Prod.mk.injEq] at h
      obtain ⟨rfl, rfl⟩ := h
      simp [vstackTables, h0]
  | t :: u :: us, r, ts', h => by
    by_cases h0 : t.rows = 0
    · rw [vstackTables] at h
      simp only [h0, if_true, bind, Except.bind, pure, Except.pure] at h
      cases h1 : vstackTables (u :: us) with
      | error e => simp [h1] at h
      | ok q =>
        obtain ⟨r1, us'⟩ := q
        simp only [h1, Except.ok.injEq, Prod.mk.injEq] at h
        obtain ⟨rfl, rfl⟩ := h
        have ih := vstackTables_again (u :: us) r1 us' h1
        cases us' with
        | nil => exact absurd (vstackTables_length _ _ _ h1) (by simp)
        | cons v vs =>
          rw [vstackTables]
          simp only [h0, if_true, bind, Except.bind, pure, Except.pure, ih]
    · obtain ⟨a, t', u', r', us', h1, h2, rfl, rfl⟩ := vstackTables_two h0 h
      obtain ⟨b1, _, _⟩ := addMissing_grows _ _ _ (vstackStep_parts h1).2.1
      have h0' : t'.rows ≠ 0 := by rw [rows_prefix b1 h0]; exact h0
      exact vstackTables_two_ok h0' (vstackStep_again h1) (vstackAcc_again us a r' us' h2)

/-! ## Without some columns -/

/-- The table has rows and its first column is not one of `D`. -/
def Head (D : List String) (t : Table α) : Prop := ∃ p l, t = p :: l ∧ p.1 ∉ D ∧ p.2 ≠ []

/-- The columns of `D` begin with a number. -/
def Soft (D : List String) (t : Table α) : Prop := ∀ p ∈ t, p.1 ∈ D → ∃ v l, p.2 = Cell.num v :: l

theorem Head.rows {D : List String} {t : Table α} (h : Head D t) : t.rows ≠ 0 := by
  obtain ⟨p, l, rfl, _, h⟩ := h
  simpa [Table.rows] using h

theorem Head.erase_rows {D : List String} {t : Table α} (h : Head D t) : Table.rows (t.removeAll D) = t.rows := by
  obtain ⟨p, l, rfl, h1, h2⟩ := h
  simp [Dict.removeAll, h1, Table.rows]

theorem Head.prefix {D : List String} {t t' : Table α} (h : Head D t) (hp : t <+: t') : Head D t' := by
  obtain ⟨p, l, rfl, h1, h2⟩ := h
  obtain ⟨z, rfl⟩ := hp
  exact ⟨p, l ++ z, rfl, h1, h2⟩

theorem Head.erase {D : List String} {t : Table α} (h : Head D t) : Head D (t.removeAll D) := by
  obtain ⟨p, l, rfl, h1, h2⟩ := h
  exact ⟨p, l.filter (fun p => !D.contains p.1), by simp [Dict.removeAll, h1], h1, h2⟩

theorem mem_keys_erase (D : List String) (t : Table α) (c : String) : c ∈ (t.removeAll D).keys ↔ c ∈ t.keys ∧ c ∉ D := by
  rw [Dict.keys_removeAll]; simp

theorem erase_append (D : List String) (t u : Table α) :
    Dict.removeAll (t ++ u : List (String × List (Cell α))) D = (t.removeAll D ++ u.removeAll D : List _) := by
  simp [Dict.removeAll]

theorem erase_one_in (D : List String) (c : String) (v : List (Cell α)) (h : c ∈ D) :
    Dict.removeAll [(c, v)] D = [] := by simp [Dict.removeAll, h]

theorem erase_one_out (D : List String) (c : String) (v : List (Cell α)) (h : c ∉ D) :
    Dict.removeAll [(c, v)] D = [(c, v)] := by simp [Dict.removeAll, h]

theorem addMissing_in (c : String) (cl : List (Cell α)) (rest tab : Table α) (h : c ∈ tab.keys) :
    addMissing ((c, cl) :: rest) tab = addMissing rest tab := by
  conv_lhs => unfold addMissing
  rw [if_pos ((Dict.has_iff tab c).mpr h)]

theorem addMissing_out_nil (c : String) (rest tab : Table α) (h : c ∉ tab.keys) :
    addMissing ((c, []) :: rest) tab = .error .indexError := by
  unfold addMissing
  rw [if_neg (by rw [(Dict.has_eq_false_iff tab c).mpr h]; simp)]

theorem addMissing_out (c : String) (x : Cell α) (xs : List (Cell α)) (rest tab : Table α) (h : c ∉ tab.keys) :
    addMissing ((c, x :: xs) :: rest) tab = match zerosTimes tab.rows x with
      | .error e => .error e
      | .ok z => addMissing rest (tab ++ [(c, z)] : List _) := by
  conv_lhs => unfold addMissing
  rw [if_neg (by rw [(Dict.has_eq_false_iff tab c).mpr h]; simp)]
  simp only [bind, Except.bind]
  cases zerosTimes tab.rows x with
  | error e => rfl
  | ok z => simp only; rw [set_append_of_not_mem tab c z h]

/-- Filling in the missing columns of `D` or not makes no difference to the others. -/
theorem addMissing_erase (D : List String) : ∀ (other tab : Table α), Head D tab → Soft D other →
    addMissing (other.removeAll D) (tab.removeAll D) = (addMissing other tab).map (fun t => t.removeAll D)
  | [], tab, _, _ => rfl
  | (c, cl) :: rest, tab, hh, hs => by
    have ih := fun tab' h => addMissing_erase D rest tab' h (fun p hp => hs p (by simp [hp]))
    by_cases hD : c ∈ D
    · obtain ⟨v, l, hv⟩ := hs (c, cl) (by simp) hD
      simp only at hv
      subst hv
      have e : Dict.removeAll ((c, Cell.num v :: l) :: rest) D = Dict.removeAll rest D := by simp [Dict.removeAll, hD]
      rw [e]
      by_cases hc : c ∈ tab.keys
      · rw [addMissing_in c _ _ _ hc]
        exact ih tab hh
      · rw [addMissing_out c _ _ _ _ hc]
        simp only [zerosTimes]
        rw [← ih _ (hh.prefix (List.prefix_append _ _)), erase_append, erase_one_in D c _ hD, List.append_nil]
    · have e : Dict.removeAll ((c, cl) :: rest) D = (c, cl) :: Dict.removeAll rest D := by simp [Dict.removeAll, hD]
      rw [e]
      by_cases hc : c ∈ tab.keys
      · rw [addMissing_in c _ _ _ hc, addMissing_in c _ _ _ ((mem_keys_erase D tab c).mpr ⟨hc, hD⟩)]
        exact ih tab hh
      · have hc' : c ∉ (tab.removeAll D).keys := fun h => hc ((mem_keys_erase D tab c).mp h).1
        cases cl with
        | nil => rw [addMissing_out_nil c _ _ hc, addMissing_out_nil c _ _ hc']; rfl
        | cons x xs =>
          rw [addMissing_out c _ _ _ _ hc, addMissing_out c _ _ _ _ hc', hh.erase_rows]
          cases hz : zerosTimes tab.rows x with
          | error e => rfl
          | ok z =>
            simp only
            rw [← ih _ (hh.prefix (List.prefix_append _ _)), erase_append, erase_one_out D c _ hD]

theorem get?_erase (D : List String) (t : Table α) (c : String) (h : c ∉ D) : (t.removeAll D).get? c = t.get? c := by
  rw [Dict.get?_removeAll, if_neg h]

theorem vstack2_erase (D : List String) (a b : Table α) :
    vstack2 (a.removeAll D) (b.removeAll D) = Dict.removeAll (vstack2 a b) D := by
  unfold vstack2
  induction a with
  | nil => rfl
  | cons p a ih =>
    by_cases h : p.1 ∈ D
    · have e : Dict.removeAll (p :: a) D = Dict.removeAll a D := by simp [Dict.removeAll, h]
      rw [e, ih]
      simp [Dict.removeAll, h]
    · have e : Dict.removeAll (p :: a) D = p :: Dict.removeAll a D := by simp [Dict.removeAll, h]
      rw [e, List.map_cons, ih, get?_erase D b p.1 h]
      simp [Dict.removeAll, h]

/-- Both. -/
def Good (D : List String) (t : Table α) : Prop := Head D t ∧ Soft D t

theorem addMissing_good {D : List String} : ∀ {other tab tab' : Table α}, Good D tab → addMissing other tab = .ok tab' → Good D tab'
  | [], tab, tab', h, e => by cases e; exact h
  | (c, cl) :: rest, tab, tab', h, e => by
    unfold addMissing at e
    by_cases hc : c ∈ tab.keys
    · rw [if_pos ((Dict.has_iff tab c).mpr hc)] at e
      exact addMissing_good h e
    · rw [if_neg (by rw [(Dict.has_eq_false_iff tab c).mpr hc]; simp)] at e
      cases cl with
      | nil => simp at e
      | cons x xs =>
        simp only [bind, Except.bind] at e
        cases x with
        | str s => simp [zerosTimes] at e
        | num v =>
          simp only [zerosTimes] at e
          rw [set_append_of_not_mem tab c _ hc] at e
          refine addMissing_good ⟨h.1.prefix (List.prefix_append _ _), ?_⟩ e
          intro p hp hD
          rcases List.mem_append.mp hp with hp | hp
          · exact h.2 p hp hD
          · rw [List.mem_singleton] at hp
            subst hp
            obtain ⟨n, hn⟩ := Nat.exists_eq_succ_of_ne_zero h.1.rows
            exact ⟨Num.fin 0 * v, List.replicate n (.num (Num.fin 0 * v)), by simp only [hn, List.replicate_succ]⟩

theorem vstack2_good {D : List String} {a b : Table α} (h : Good D a) : Good D (vstack2 a b) := by
  refine ⟨?_, ?_⟩
  · obtain ⟨p, l, rfl, h1, h2⟩ := h.1
    exact ⟨_, _, rfl, h1, by simp [h2]⟩
  · intro p hp hD
    obtain ⟨q, hq, rfl⟩ := List.mem_map.mp hp
    obtain ⟨v, l, hv⟩ := h.2 q hq hD
    exact ⟨v, l ++ _, by rw [hv]; rfl⟩

theorem vstackStep_erase {D : List String} {t u : Table α} (ht : Good D t) (hu : Good D u) :
    vstackStep (t.removeAll D) (u.removeAll D) =
      (vstackStep t u).map (fun q => (q.1.removeAll D, q.2.1.removeAll D, q.2.2.removeAll D)) := by
  unfold vstackStep
  simp only [bind, Except.bind, pure, Except.pure]
  rw [addMissing_erase D t u hu.1 ht.2]
  cases h1 : addMissing t u with
  | error e => rfl
  | ok u' =>
    simp only [Except.map]
    rw [addMissing_erase D u' t ht.1 (addMissing_good hu h1).2]
    cases h2 : addMissing u' t with
    | error e => rfl
    | ok t' => simp only [Except.map, vstack2_erase]

theorem vstackStep_good {D : List String} {t u r t' u' : Table α} (ht : Good D t) (hu : Good D u)
    (h : vstackStep t u = .ok (r, t', u')) : Good D r ∧ Good D t' ∧ Good D u' := by
  obtain ⟨h1, h2, rfl⟩ := vstackStep_parts h
  have g1 := addMissing_good hu h1
  have g2 := addMissing_good ht h2
  exact ⟨vstack2_good g2, g2, g1⟩

theorem vstackAcc_erase {D : List String} : ∀ (ts : List (Table α)) (acc : Table α), Good D acc → (∀ t ∈ ts, Good D t) →
    vstackAcc (acc.removeAll D) (ts.map (fun t => t.removeAll D)) =
      (vstackAcc acc ts).map (fun q => (q.1.removeAll D, q.2.map (fun t => t.removeAll D))) ∧
    ∀ r ts', vstackAcc acc ts = .ok (r, ts') → Good D r ∧ ∀ t ∈ ts', Good D t
  | [], acc, ha, _ => ⟨rfl, by intro r ts' h; cases h; exact ⟨ha, by simp⟩⟩
  | t :: ts, acc, ha, ht => by
    have h0 := ht t (by simp)
    simp only [vstackAcc, List.map_cons, bind, Except.bind, pure, Except.pure]
    rw [vstackStep_erase ha h0]
    cases h1 : vstackStep acc t with
    | error e => exact ⟨rfl, by simp⟩
    | ok q =>
      obtain ⟨a, b, c⟩ := q
      obtain ⟨g1, g2, g3⟩ := vstackStep_good ha h0 h1
      obtain ⟨e, g⟩ := vstackAcc_erase ts a g1 (fun t' h' => ht t' (by simp [h']))
      simp only [Except.map] at e ⊢
      rw [e]
      cases h2 : vstackAcc a ts with
      | error e => exact ⟨rfl, by simp⟩
      | ok q =>
        obtain ⟨r, us⟩ := q
        refine ⟨rfl, ?_⟩
        intro r' ts' h
        simp only [Except.ok.injEq, Prod.mk.injEq] at h
        obtain ⟨rfl, rfl⟩ := h
        obtain ⟨k1, k2⟩ := g r us h2
        exact ⟨k1, by
          intro x hx
          rcases List.mem_cons.mp hx with rfl | hx
          · exact g3
          · exact k2 x hx⟩

/-- Stacking tables without the columns of `D` gives what stacking them gives, without the columns of `D`. -/
theorem vstackTables_erase {D : List String} (ts : List (Table α)) (h : ∀ t ∈ ts, Good D t) :
    vstackTables (ts.map (fun t => t.removeAll D)) =
      (vstackTables ts).map (fun q => (q.1.map (fun t => t.removeAll D), q.2.map (fun t => t.removeAll D))) ∧
    ∀ r ts', vstackTables ts = .ok (r, ts') → ∀ t ∈ ts', Good D t := by
  cases ts with
  | nil => exact ⟨rfl, by intro r ts' h; cases h; simp⟩
  | cons t ts =>
    have ht := h t (by simp)
    have r0 := ht.1.rows
    have r1 : Table.rows (t.removeAll D) ≠ 0 := by rw [ht.1.erase_rows]; exact r0
    cases ts with
    | nil =>
      simp only [List.map_cons, List.map_nil, vstackTables, r0, r1, if_false]
      refine ⟨rfl, ?_⟩
      intro r ts' e
      simp only [Except.ok.injEq, Prod.mk.injEq] at e
      obtain ⟨_, rfl⟩ := e
      simpa using ht
    | cons u us =>
      have hu := h u (by simp)
      simp only [List.map_cons, vstackTables, r0, r1, if_false, bind, Except.bind, pure, Except.pure]
      rw [vstackStep_erase ht hu]
      cases h1 : vstackStep t u with
      | error e => exact ⟨rfl, by simp⟩
      | ok q =>
        obtain ⟨a, t', u'⟩ := q
        obtain ⟨g1, g2, g3⟩ := vstackStep_good ht hu h1
        obtain ⟨e, g⟩ := vstackAcc_erase us a g1 (fun t' h' => h t' (by simp [h']))
        simp only [Except.map] at e ⊢
        rw [e]
        cases h2 : vstackAcc a us with
        | error e => exact ⟨rfl, by simp⟩
        | ok q =>
          obtain ⟨r, us'⟩ := q
          refine ⟨rfl, ?_⟩
          intro r' ts' h
          simp only [Except.ok.injEq, Prod.mk.injEq] at h
          obtain ⟨rfl, rfl⟩ := h
          obtain ⟨k1, k2⟩ := g r us' h2
          intro x hx
          rcases List.mem_cons.mp hx with rfl | hx
          · exact g2
          rcases List.mem_cons.mp hx with rfl | hx
          · exact g3
          · exact k2 x hx

/-! ## Updating -/

theorem update_eq (old new : Table α) : update old new = old.filter (fun p => !new.has p.1) ++ new := by
  unfold update Dict.removeAll
  congr 1
  apply List.filter_congr
  intro p hp
  have : p.1 ∈ old.keys := List.mem_map.mpr ⟨p, hp, rfl⟩
  cases h : new.has p.1 <;> simp [h, this]

/-- Two tables that agree without the columns of `D`, updated with a table that has all of `D` but those of `E`, agree without
the columns of `E`. -/
theorem update_erase (D E : List String) (a b new : Table α) (h : a.removeAll D = b.removeAll D)
    (hD : ∀ c ∈ D, c ∈ E ∨ c ∈ new.keys) : (update a new).removeAll E = (update b new).removeAll E := by
  have key : ∀ t : Table α, t.filter (fun p => !new.has p.1 && !E.contains p.1)
      = (t.removeAll D).filter (fun p => !new.has p.1 && !E.contains p.1) := by
    intro t
    unfold Dict.removeAll
    rw [List.filter_filter]
    apply List.filter_congr
    intro p _
    by_cases hp : p.1 ∈ D
    · rcases hD _ hp with h | h
      · simp [h]
      · simp [(Dict.has_iff new p.1).mpr h]
    · simp [hp]
  rw [update_eq, update_eq, erase_append, erase_append]
  congr 1
  unfold Dict.removeAll
  rw [List.filter_filter, List.filter_filter]
  have c : ∀ t : Table α, t.filter (fun p => !E.contains p.1 && !new.has p.1) = t.filter (fun p => !new.has p.1 && !E.contains p.1) := by
    intro t; apply List.filter_congr; intro p _; rw [Bool.and_comm]
  rw [c, c, key, key b, h]

end ExoRad.Table
