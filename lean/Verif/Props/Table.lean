import Verif.Lemmas.Table

/-!
# C09–C12: table operations
-/

set_option linter.unusedSectionVars false

namespace ExoRad.Table
variable {α : Type} [Field α] [LinearOrder α]

/-! ## C10 stacking channel tables -/

/-- C10: stacking any non-empty list of rectangular, non-empty tables succeeds; the result is
rectangular with all the rows; its columns are exactly the columns of the inputs, each once, those
of the first table first; and each column is, table after table in order, the table's own column,
or zeros for a table without it (`stackedCol`). The input tables only gain columns. -/
theorem vstack_tables_complete (ts : List (Table α)) (hne : ts ≠ [])
    (hrect : ∀ t ∈ ts, ∃ n, 0 < n ∧ Rect t n) (hf : Fillable ts) :
    ∃ r ts', vstackTables ts = .ok (some r, ts') ∧ Rect r (totalRows ts) ∧
      (∀ c, c ∈ r.keys ↔ ∃ t ∈ ts, c ∈ t.keys) ∧
      (∀ t, ts.head? = some t → t.keys <+: r.keys) ∧
      (∀ c ∈ r.keys, r.get? c = some (stackedCol ts c)) ∧
      List.Forall₂ (· <+: ·) ts ts' := by
  cases ts with
  | nil => exact absurd rfl hne
  | cons t ts =>
    obtain ⟨m, hm, ht⟩ := hrect t (by simp)
    have hrows : ¬ t.rows = 0 := by rw [ht.rows]; omega
    cases ts with
    | nil =>
      refine ⟨t, [t], ?_, by simpa [totalRows, ht.rows] using ht, by simp, ?_, ?_, ?_⟩
      · simp [vstackTables, hrows]
      · rintro t' h
        simp at h; subst h; exact List.prefix_refl _
      · intro c hc
        obtain ⟨v, hv⟩ := Dict.exists_get? hc
        simp [stackedCol, hv]
      · exact .cons (List.prefix_refl _) .nil
    | cons u us =>
      obtain ⟨n, hn, hu⟩ := hrect u (by simp)
      have htm : t ∈ t :: u :: us := by simp
      have hum : u ∈ t :: u :: us := by simp
      obtain ⟨r, t', u', s1, s2, s3, s4, s5, s6, s7⟩ := vstackStep_spec t u m n hm hn ht hu
        (by
          intro p hp
          by_cases h : p.1 ∈ u.keys
          · exact Or.inl h
          · exact Or.inr (fill_fin hf htm hum h (Dict.get?_of_mem ht.nodup (k := p.1) (v := p.2) hp)))
        (by
          intro p hp
          by_cases h : p.1 ∈ t.keys
          · exact Or.inl h
          · exact Or.inr (fill_fin hf hum htm h (Dict.get?_of_mem hu.nodup (k := p.1) (v := p.2) hp)))
      have e : totalRows [t, u] = m + n := by simp [totalRows, ht.rows, hu.rows]
      obtain ⟨r', us', g1, g2, g3, g4, g5, g6⟩ := vstackAcc_spec us [t, u] r hrect hf
        (by rw [e]; omega) (by rw [e]; exact s2) (by intro c; rw [s5]; simp) s7
      refine ⟨r', t' :: u' :: us', ?_, g2, g5, ?_, g6, .cons s3 (.cons s4 g3)⟩
      · simp only [vstackTables, hrows, if_false, s1, g1, bind, Except.bind, pure, Except.pure]
      · intro t₀ h
        simp at h; subst h; exact s6.trans g4

/-- C10, error branch: a table with no rows after a non-empty one that brings a new column raises
IndexError instead of being skipped. -/
theorem vstack_empty_later (t : Table α) (c c' : String) (x : Num α) (hc : c ≠ c') :
    vstackTables [[(c, [.num x])], ([(c', [])] : Table α)] = .error .indexError := by
  have hc' : c' ≠ c := fun e => hc e.symm
  simp [vstackTables, rows, vstackStep, addMissing, Dict.has, zerosTimes, Dict.set, bind,
    Except.bind, hc, hc', pure, Except.pure]

/-- C10, non-vacuity: a photometer table and a spectrometer table with one extra column. -/
example : ∃ ts : List (Table ℚ), ts ≠ [] ∧ (∀ t ∈ ts, ∃ n, 0 < n ∧ Rect t n) ∧ Fillable ts ∧
    totalRows ts = 3 := by
  refine ⟨[[("chName", [.str "P"]), ("zodi_signal", [.num (.fin 3)])],
    [("chName", [.str "S", .str "S"]), ("R", [.num (.fin 7), .num (.fin 9)])]], by simp, ?_, ?_, rfl⟩
  · intro t ht
    simp only [List.mem_cons, List.not_mem_nil, or_false] at ht
    rcases ht with rfl | rfl
    · exact ⟨1, by norm_num, by simp, by decide, by simp⟩
    · exact ⟨2, by norm_num, by simp, by decide, by simp⟩
  · intro t ht p hp
    simp only [List.mem_cons, List.not_mem_nil, or_false] at ht
    rcases ht with rfl | rfl <;> simp only [List.mem_cons, List.not_mem_nil, or_false] at hp <;>
      rcases hp with rfl | rfl
    · left; simp [Dict.keys]
    · right; simp [isFin]
    · left; simp [Dict.keys]
    · right; simp [isFin]

/-! ## C11 updating the target table -/

/-- C11: after an update, a column of the update has the new data and any other column its old data;
columns not updated come first in their old order, then the new ones in theirs; no name occurs
twice. -/
theorem update_spec (old new : Table α) (ho : old.keys.Nodup) (hn : new.keys.Nodup) :
    (∀ c, (update old new).get? c = if c ∈ new.keys then new.get? c else old.get? c) ∧
    (∀ c, c ∈ (update old new).keys ↔ c ∈ old.keys ∨ c ∈ new.keys) ∧
    (update old new).keys.Nodup ∧
    (update old new).keys = old.keys.filter (fun k => !new.has k) ++ new.keys := by
  refine ⟨get?_update old new, ?_, ?_, keys_update old new⟩
  · intro c
    rw [keys_update, List.mem_append, List.mem_filter]
    by_cases h : c ∈ new.keys
    · simp [h]
    · simp [h, (Dict.has_eq_false_iff new c).mpr h]
  · rw [keys_update, List.nodup_append]
    refine ⟨ho.filter _, hn, ?_⟩
    intro a ha b hb e
    subst e
    rw [List.mem_filter] at ha
    simp [(Dict.has_iff new a).mpr hb] at ha

/-- C11: repeating an update changes nothing. -/
theorem update_idempotent (old new : Table α) (ho : old.keys.Nodup) (hn : new.keys.Nodup) :
    update (update old new) new = update old new := by
  have hfilter : ∀ (t : Table α), t.removeAll (t.keys.filter (fun k => new.has k))
      = t.filter (fun p => !new.has p.1) := by
    intro t
    unfold Dict.removeAll
    apply List.filter_congr
    intro p hp
    have : p.1 ∈ t.keys := List.mem_map.mpr ⟨p, hp, rfl⟩
    cases h : new.has p.1 <;> simp [h, this]
  unfold update
  rw [hfilter, hfilter, List.filter_append, List.filter_filter]
  congr 1
  have : new.filter (fun p => !new.has p.1) = [] := by
    rw [List.filter_eq_nil_iff]
    intro p hp
    have : p.1 ∈ new.keys := List.mem_map.mpr ⟨p, hp, rfl⟩
    simp [(Dict.has_iff new p.1).mpr this]
  rw [this, List.append_nil]
  simp

/-- A history of updates behaves like an overwriting map: each column holds the data of the last
update that has it, or the original data. -/
theorem update_history (t : Table α) (us : List (Table α)) (c : String) :
    (us.foldl update t).get? c =
      match us.reverse.find? (fun u => decide (c ∈ u.keys)) with
      | some u => u.get? c
      | none => t.get? c := by
  induction us generalizing t with
  | nil => rfl
  | cons u us ih =>
    rw [List.foldl_cons, ih, List.reverse_cons, List.find?_append]
    cases h : us.reverse.find? (fun u => decide (c ∈ u.keys)) with
    | some v => simp
    | none =>
      simp only [Option.none_or, List.find?_cons, List.find?_nil]
      rw [get?_update]
      by_cases hc : c ∈ u.keys <;> simp [hc]

/-- C11: updates with disjoint columns commute on contents. -/
theorem update_commute (t u v : Table α) (hd : ∀ c ∈ u.keys, c ∉ v.keys) (c : String) :
    (update (update t u) v).get? c = (update (update t v) u).get? c := by
  simp only [get?_update]
  by_cases h1 : c ∈ u.keys
  · simp [h1, hd c h1]
  · simp [h1]

example : update ([("a", [.num (.fin 1)]), ("b", [.num (.fin 2)])] : Table ℚ)
    [("a", [.num (.fin 5)]), ("c", [.num (.fin 6)])]
    = [("b", [.num (.fin 2)]), ("a", [.num (.fin 5)]), ("c", [.num (.fin 6)])] := by decide

/-! ## C12 maximum signal in pixel, C09 repeated estimates -/

/-- The `Max` columns of the table hold the finite numbers `f k i` in `n` rows. -/
structure MaxCols (t : Table α) (n : ℕ) (f : String → ℕ → α) : Prop where
  nodup : t.keys.Nodup
  wl : ∃ w, t.get? "Wavelength" = some w ∧ w.length = n
  col : ∀ k ∈ t.keys, substr "Max" k = true →
    t.get? k = some ((List.range n).map (fun i => .num (.fin (f k i))))

/-- Sum of the columns whose name contains `Max`, in row `i`. -/
def maxTotal (t : Table α) (f : String → ℕ → α) (i : ℕ) : α :=
  ((t.keys.filter (fun k => substr "Max" k)).map (fun k => f k i)).sum

/-- C12: `MaxSignal_inPixel` becomes the sum of all the columns whose name contains `Max`; every
other column is unchanged. -/
theorem estimate_max_signal (t : Table α) (n : ℕ) (f : String → ℕ → α) (h : MaxCols t n f) :
    ∃ t', estimateMaxSignal t = .ok t' ∧
      t'.get? "MaxSignal_inPixel" = some ((List.range n).map (fun i => .num (.fin (maxTotal t f i)))) ∧
      (∀ c, c ≠ "MaxSignal_inPixel" → t'.get? c = t.get? c) ∧
      (∀ c, c ∈ t'.keys ↔ c = "MaxSignal_inPixel" ∨ c ∈ t.keys) ∧ t'.keys.Nodup ∧
      t'.keys = t.keys.filter (fun k => !decide (k = "MaxSignal_inPixel")) ++ ["MaxSignal_inPixel"] := by
  obtain ⟨w, hw, hlen⟩ := h.wl
  have hrep : List.replicate n (Num.fin (0 : α)) = (List.range n).map (fun _ => Num.fin 0) := by
    rw [List.map_const', List.length_range]
  have hs := sumCols_spec t n f t.maxKeys (fun _ => 0) (by
    intro k hk
    rw [maxKeys, List.mem_filter] at hk
    exact h.col k hk.1 hk.2)
  set v := (List.range n).map (fun i => (Num.fin (0 + ((t.maxKeys).map (fun k => f k i)).sum) : Num α)) with hv
  refine ⟨t.update [("MaxSignal_inPixel", v.map .num)], ?_, ?_, ?_, ?_, ?_, ?_⟩
  · simp only [estimateMaxSignal, Dict.getE_ok hw, hlen, hrep, hs, bind, Except.bind, pure, Except.pure]
  · rw [get?_update, if_pos (by simp [Dict.keys])]
    simp [Dict.get?, hv, maxTotal, maxKeys]
  · intro c hc
    rw [get?_update, if_neg (by simpa [Dict.keys] using hc)]
  · intro c
    rw [(update_spec _ _ h.nodup (by simp [Dict.keys])).2.1]
    simp [Dict.keys, or_comm]
  · exact (update_spec _ _ h.nodup (by simp [Dict.keys])).2.2.1
  · rw [keys_update]
    congr 1
    apply List.filter_congr
    intro k _
    simp [Dict.has]

/-- C09 fails: the second estimate counts the first result as one more contribution, so it doubles
`MaxSignal_inPixel`, for every table that did not have the column before. (The frame time of
the second noise estimate is therefore half the first one.) -/
theorem estimate_max_signal_twice_doubles (t : Table α) (n : ℕ) (f : String → ℕ → α)
    (h : MaxCols t n f) (hfresh : "MaxSignal_inPixel" ∉ t.keys) :
    ∃ t' t'', estimateMaxSignal t = .ok t' ∧ estimateMaxSignal t' = .ok t'' ∧
      t'.get? "MaxSignal_inPixel" = some ((List.range n).map (fun i => .num (.fin (maxTotal t f i)))) ∧
      t''.get? "MaxSignal_inPixel"
        = some ((List.range n).map (fun i => .num (.fin (2 * maxTotal t f i)))) := by
  obtain ⟨t', a1, a2, a3, a4, a5, a6⟩ := estimate_max_signal t n f h
  let f' : String → ℕ → α := fun k i => if k = "MaxSignal_inPixel" then maxTotal t f i else f k i
  have h' : MaxCols t' n f' := by
    refine ⟨a5, ?_, ?_⟩
    · obtain ⟨w, hw, hl⟩ := h.wl
      exact ⟨w, by rw [a3 _ (by decide)]; exact hw, hl⟩
    · intro k hk hm
      by_cases hk' : k = "MaxSignal_inPixel"
      · subst hk'; rw [a2]; simp [f']
      · rw [a3 k hk']
        have hk2 : k ∈ t.keys := by
          rcases (a4 k).mp hk with h | h
          · exact absurd h hk'
          · exact h
        rw [h.col k hk2 hm]; simp [f', hk']
  obtain ⟨t'', b1, b2, -⟩ := estimate_max_signal t' n f' h'
  refine ⟨t', t'', a1, b1, a2, ?_⟩
  rw [b2]
  congr 2
  funext i
  congr 2
  have hkeys : t'.keys = t.keys ++ ["MaxSignal_inPixel"] := by
    rw [a6]
    congr 1
    rw [List.filter_eq_self]
    intro k hk
    have : k ≠ "MaxSignal_inPixel" := fun e => hfresh (e ▸ hk)
    simp [this]
  have hmax : substr "Max" "MaxSignal_inPixel" = true := by decide
  unfold maxTotal
  rw [hkeys, List.filter_append, List.map_append, List.sum_append]
  have e1 : (List.filter (fun k => substr "Max" k) ["MaxSignal_inPixel"]) = ["MaxSignal_inPixel"] := by
    simp [hmax]
  rw [e1]
  have e2 : ((t.keys.filter (fun k => substr "Max" k)).map (fun k => f' k i))
      = ((t.keys.filter (fun k => substr "Max" k)).map (fun k => f k i)) := by
    apply List.map_congr_left
    intro k hk
    have : k ≠ "MaxSignal_inPixel" := fun e => hfresh (e ▸ (List.mem_filter.mp hk).1)
    simp [f', this]
  rw [e2]
  simp [f', maxTotal]
  ring

/-- C09, partial: estimating on the same *input* table is deterministic in its `Max` columns only:
two tables with the same `Max` columns give the same maximum. Missing from C09: idempotence on the
output table, which is false. -/
theorem estimate_max_signal_partial (t u : Table α) (n : ℕ) (f : String → ℕ → α)
    (h : MaxCols t n f) (h' : MaxCols u n f)
    (hk : (t.keys.filter (fun k => substr "Max" k)).Perm (u.keys.filter (fun k => substr "Max" k))) :
    ∃ t' u', estimateMaxSignal t = .ok t' ∧ estimateMaxSignal u = .ok u' ∧
      t'.get? "MaxSignal_inPixel" = u'.get? "MaxSignal_inPixel" := by
  obtain ⟨t', a1, a2, -⟩ := estimate_max_signal t n f h
  obtain ⟨u', b1, b2, -⟩ := estimate_max_signal u n f h'
  refine ⟨t', u', a1, b1, ?_⟩
  rw [a2, b2]
  congr 2
  funext i
  congr 2
  exact (hk.map _).sum_eq

example : MaxCols ([("Wavelength", [.num (.fin 1), .num (.fin 2)]),
    ("star_MaxSignal_inPixel", [.num (.fin 10), .num (.fin 20)]),
    ("zodi_MaxSignal_inPixel", [.num (.fin 1), .num (.fin 2)])] : Table ℚ) 2
    (fun k i => if k = "star_MaxSignal_inPixel" then [10, 20].getD i 0 else [1, 2].getD i 0) where
  nodup := by decide
  wl := ⟨_, rfl, rfl⟩
  col := by
    intro k hk hs
    simp only [Dict.keys, List.map_cons, List.map_nil, List.mem_cons, List.not_mem_nil, or_false] at hk
    rcases hk with rfl | rfl | rfl
    · exact absurd hs (by decide)
    · decide
    · decide

end ExoRad.Table
