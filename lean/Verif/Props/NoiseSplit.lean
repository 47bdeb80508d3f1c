import Verif.Props.Budget

/-!
# What the noise estimate depends on: C05, C80

Two tables with the same columns, except for signal columns whose sum is the same in every row, get the same noise.
-/

set_option linter.unusedSectionVars false

namespace ExoRad
open Num Table Pipeline

/-- `tryCustom` on outputs that agree on the columns `Q`. -/
theorem applyCustom_agree {Q : String → Prop} (hT : Q "total_noise") (n : ℕ) (e : CustomEntry) {o o' : Out}
    (h : ∀ q, Q q → o.get? q = o'.get? q) :
    (∀ q, Q q → (applyCustom n e o).1.get? q = (applyCustom n e o').1.get? q) ∧ (applyCustom n e o).2 = (applyCustom n e o').2 := by
  unfold applyCustom
  cases e.value with
  | none => exact ⟨h, rfl⟩
  | some v =>
    cases e.name with
    | none => exact ⟨h, rfl⟩
    | some nm =>
      simp only
      have h1 : ∀ q, Q q → (o.set (nm ++ "_noise") (List.replicate n (Num.fin v * Num.fin (1 / 1000000) * Num.fin 1))).get? q =
          (o'.set (nm ++ "_noise") (List.replicate n (Num.fin v * Num.fin (1 / 1000000) * Num.fin 1))).get? q := by
        intro q hq
        rw [Dict.get?_set, Dict.get?_set, h q hq]
      have h2 := h1 _ hT
      revert h1 h2
      generalize o.set (nm ++ "_noise") (List.replicate n (Num.fin v * Num.fin (1 / 1000000) * Num.fin 1)) = a
      generalize o'.set (nm ++ "_noise") (List.replicate n (Num.fin v * Num.fin (1 / 1000000) * Num.fin 1)) = a'
      intro h1 h2
      rw [h2]
      cases a'.get? "total_noise" with
      | none => exact ⟨h1, rfl⟩
      | some tt =>
        refine ⟨?_, rfl⟩
        intro q hq
        simp only
        rw [Dict.get?_set, Dict.get?_set]
        split
        · rfl
        · exact h1 q hq

theorem applyCustoms_agree {Q : String → Prop} (hT : Q "total_noise") (n : ℕ) : ∀ (es : List CustomEntry) {o o' : Out},
    (∀ q, Q q → o.get? q = o'.get? q) → ∀ q, Q q → (applyCustoms n es o).1.get? q = (applyCustoms n es o').1.get? q
  | [], _, _, h => h
  | e :: es, o, o', h => by
    obtain ⟨h1, h2⟩ := applyCustom_agree hT n e h
    unfold applyCustoms
    revert h1 h2
    generalize applyCustom n e o = a
    generalize applyCustom n e o' = a'
    obtain ⟨a1, a2⟩ := a
    obtain ⟨b1, b2⟩ := a'
    intro h1 h2
    simp only at h2
    subst h2
    cases a2 with
    | some x => exact h1
    | none => exact applyCustoms_agree hT n es h1

theorem tryCustom_agree {Q : String → Prop} (hT : Q "total_noise") (n : ℕ) (c : Option CustomNoise) {o o' : Out}
    (h : ∀ q, Q q → o.get? q = o'.get? q) : ∀ q, Q q → (tryCustom c n o).get? q = (tryCustom c n o').get? q := by
  cases c with
  | none => exact h
  | some c =>
    cases c with
    | single e => exact (applyCustom_agree hT n e h).1
    | many es => exact applyCustoms_agree hT n es h

theorem bins_inj {n : ℕ} (hn : 0 < n) {a b : ℝ} (h : bins n (fun _ => a) = bins n (fun _ => b)) : a = b := by
  have := congrArg (fun l : List (Num ℝ) => l[0]?) h
  simpa [bins, hn] using this

/-- The columns outside `E`, and not the noise of one of `E`. -/
def Outside (E : String → Prop) (q : String) : Prop := ¬ E q ∧ ∀ k, E k → q ≠ k ++ "_noise"

/-- One channel: tables whose signal columns outside `E` are the same and whose signals have the same sums. -/
theorem channel_noise_split (E : String → Prop) (hE : ∀ k, E k → substr "signal" k = true ∧ k ≠ "star_signal_inAperture")
    (t t' : Table ℝ) (ch : NoiseChannel) (common : Option CustomNoise) (n : ℕ) (sig sig' : String → ℕ → ℝ) (win win' mx mx' : ℕ → ℝ)
    (well fw freq dark rn : ℝ) (hr : ChannelRows t ch.value n sig win mx) (hr' : ChannelRows t' ch.value n sig' win' mx')
    (hd : GoodDetector ch.detector well fw freq dark rn)
    (hk : ∀ k, ¬ E k → (k ∈ t.keys ↔ k ∈ t'.keys)) (hsig : ∀ k ∈ t.keys, ¬ E k → substr "signal" k = true → ∀ i < n, sig k i = sig' k i)
    (hwin : ∀ i < n, win i = win' i) (hmx : ∀ i < n, mx i = mx' i) (htot : ∀ i < n, totalSignal t sig i = totalSignal t' sig' i) :
    ∃ o o', estimateNoiseInChannel t ch common = .ok o ∧ estimateNoiseInChannel t' ch common = .ok o' ∧
      ∀ q, Outside E q → o.get? q = o'.get? q := by
  obtain ⟨o1, ft, o5, e1, e2, _, _, _, e6, e7, e8, e9, e10, e11⟩ := estimate_explicit t ch common n sig win mx well fw freq dark rn hr hd
  obtain ⟨o1', ft', o5', e1', e2', _, _, _, e6', e7', e8', e9', e10', e11'⟩ :=
    estimate_explicit t' ch common n sig' win' mx' well fw freq dark rn hr' hd
  have ho1 : o1 = o1' := by
    have : frameTimeF t ch [] = frameTimeF t' ch [] := by
      unfold frameTimeF
      rw [hr.hmx, hr'.hmx, bins_congr hmx]
    rw [e1, e1'] at this
    simpa using this
  subst ho1
  have hft : ft = ft' := by
    rw [e2] at e2'
    exact bins_inj hr.npos (by simpa using e2')
  subst hft
  have hQ : Outside E "total_noise" := by
    refine ⟨fun h => absurd (hE _ h).1 (by decide), fun k h e => ?_⟩
    have : k = "total" := append_noise_inj (by simpa using e.symm)
    subst this
    exact absurd (hE _ h).1 (by decide)
  refine ⟨_, _, e6, e6', ?_⟩
  apply tryCustom_agree hQ
  apply tryCustom_agree hQ
  intro q hq
  have hstar : ¬ E "star_signal_inAperture" := fun h => (hE _ h).2 rfl
  have hnk : ∀ k, ¬ E k → (k ∈ t.keys ↔ k ∈ t'.keys) := hk
  by_cases c1 : ∃ k, k ∈ t.keys ∧ substr "signal" k = true ∧ q = k ++ "_noise"
  · obtain ⟨k, hkt, hks, rfl⟩ := c1
    have hkE : ¬ E k := fun h => hq.2 k h rfl
    rw [e7 k hkt hks, e7' k ((hnk k hkE).mp hkt) hks]
    congr 1
    apply bins_congr
    intro i hi
    rw [hsig k hkt hkE hks i hi]
  · have c1' : ∀ k ∈ t.keys, substr "signal" k = true → q ≠ k ++ "_noise" := fun k a b e => c1 ⟨k, a, b, e⟩
    have c2' : ∀ k ∈ t'.keys, substr "signal" k = true → q ≠ k ++ "_noise" := by
      intro k a b e
      have hkE : ¬ E k := fun h => hq.2 k h e
      exact c1' k ((hnk k hkE).mpr a) b e
    by_cases d1 : q = "darkcurrent_noise"
    · subst d1
      rw [e8, e8']
      congr 1
      apply bins_congr
      intro i hi
      rw [hwin i hi]
    by_cases d2 : q = "read_noise"
    · subst d2
      rw [e9, e9']
      congr 1
      apply bins_congr
      intro i hi
      rw [hwin i hi]
    by_cases d3 : q = "total_noise"
    · subst d3
      rw [e10, e10']
      congr 1
      apply List.map_congr_left
      intro i hi
      rw [List.mem_range] at hi
      rw [hwin i hi, htot i hi, hsig _ hr.hstar hstar (by decide) i hi]
    rw [e11 q c1' d1 d2 d3, e11' q c2' d1 d2 d3]

/-- C05, C80: two tables of a target with the same rows and the same columns, except for signal columns (`E`) that have the same sum in
every row. The noise estimate succeeds for both, and gives the same columns, except for those columns and their noise. -/
theorem noise_split (E : String → Prop) (hE : ∀ k, E k → substr "signal" k = true ∧ k ≠ "star_signal_inAperture")
    (t t' : Table ℝ) (N : ℕ) (name : ℕ → String) (ht : TargetTable t N name (cellAt t)) (ht' : TargetTable t' N name (cellAt t'))
    (hsame : ∀ k, ¬ E k → t.get? k = t'.get? k) (hmax : ∀ k, E k → (k ∈ t.keys ∨ k ∈ t'.keys) → substr "Max" k = false)
    (htot : ∀ i < N, totalSignal t (cellAt t) i = totalSignal t' (cellAt t') i)
    (chs : List (NoiseChannel × Option CustomNoise)) (hne : chs ≠ [])
    (hbright : ∀ c ∈ chs, ∃ i < N, name i = c.1.value ∧ 0 < Table.maxTotal t (cellAt t) i)
    (well fw freq dark rn : NoiseChannel → ℝ)
    (hd : ∀ c ∈ chs, GoodDetector c.1.detector (well c.1) (fw c.1) (freq c.1) (dark c.1) (rn c.1)) :
    ∃ r r', estimateNoise t chs = .ok r ∧ estimateNoise t' chs = .ok r' ∧ r.keys.Nodup ∧ r'.keys.Nodup ∧
      ∀ q, Outside E q → r.get? q = r'.get? q := by
  have hkeys : ∀ k, ¬ E k → (k ∈ t.keys ↔ k ∈ t'.keys) := by
    intro k hk
    rw [← not_iff_not, ← Dict.get?_eq_none_iff, ← Dict.get?_eq_none_iff, hsame k hk]
  have hcell : ∀ k, ¬ E k → ∀ i, cellAt t k i = cellAt t' k i := fun k hk i => cellAt_congr (hsame k hk) i
  have hmaxE : ∀ i, Table.maxTotal t (cellAt t) i = Table.maxTotal t' (cellAt t') i := by
    intro i
    unfold Table.maxTotal
    refine sum_columns ht.nodup ht'.nodup _ _ ?_ i ?_
    · intro k
      constructor
      · rintro ⟨a, b⟩
        have hkE : ¬ E k := fun h => by rw [hmax k h (.inl a)] at b; cases b
        exact ⟨(hkeys k hkE).mp a, b⟩
      · rintro ⟨a, b⟩
        have hkE : ¬ E k := fun h => by rw [hmax k h (.inr a)] at b; cases b
        exact ⟨(hkeys k hkE).mpr a, b⟩
    · intro k a b
      have hkE : ¬ E k := fun h => by rw [hmax k h (.inl a)] at b; cases b
      exact hcell k hkE i
  obtain ⟨t1, r0, f, -, m2, m3, m5, hk1, htS, hrows, hfo, -, rnd, v3, v5, vrows, hest⟩ :=
    estimate_noise_stack t N name _ ht chs hne hbright well fw freq dark rn hd
  obtain ⟨t1', r0', f', -, m2', m3', m5', hk1', htS', hrows', hfo', -, rnd', v3', v5', vrows', hest'⟩ :=
    estimate_noise_stack t' N name _ ht' chs hne (fun c hc => by
      obtain ⟨i, a, b, c⟩ := hbright c hc
      exact ⟨i, a, b, by rw [← hmaxE]; exact c⟩) well fw freq dark rn hd
  refine ⟨_, _, hest, hest', (update_spec _ _ m5 rnd).2.2.1, (update_spec _ _ m5' rnd').2.2.1, ?_⟩
  have hgd : ∀ c j, j < (rowsOf N name c).length → (rowsOf N name c).getD j 0 < N := by
    intro c j hj
    rw [getD_lt hj]
    exact List.mem_range.mp (List.mem_filter.mp (List.getElem_mem hj)).1
  have hwinE : ¬ E "WindowSize" := fun h => absurd (hE _ h).1 (by decide)
  have hMaxE : ¬ E "MaxSignal_inPixel" := fun h => absurd (hE _ h).1 (by decide)
  have hone : ∀ k, ¬ E k → (k ∈ t1.keys ↔ k ∈ t1'.keys) := by
    intro k hk
    rw [hk1, hk1', List.mem_append, List.mem_append, hkeys k hk]
  have agree : ∀ c ∈ chs, ∀ q, Outside E q → (f c).get? q = (f' c).get? q := by
    intro c hc
    obtain ⟨o, o', a1, a2, a3⟩ := channel_noise_split E hE t1 t1' c.1 c.2 _ _ _ _ _ _ _ _ _ _ _ _ (hrows c hc) (hrows' c hc) (hd c hc)
      hone (fun k _ hk _ i _ => hcell k hk _) (fun i _ => hcell _ hwinE _) (fun i _ => hmaxE _) (by
        intro i hi
        have h1 := htS ((rowsOf N name c.1.value).getD i 0)
        have h2 := htS' ((rowsOf N name c.1.value).getD i 0)
        have h3 := htot _ (hgd _ i hi)
        unfold totalSignal at h1 h2 h3 ⊢
        rw [h1, h2, h3])
    rw [hfo c hc] at a1
    rw [hfo' c hc] at a2
    cases a1
    cases a2
    exact a3
  have hcolE : ∀ q, Outside E q → stackedCol (chs.map (fun c => (f c).toTable)) q = stackedCol (chs.map (fun c => (f' c).toTable)) q := by
    intro q hq
    unfold stackedCol
    rw [List.flatMap_map, List.flatMap_map]
    apply List.flatMap_congr
    intro c hc
    simp only [toTable_get?, agree c hc q hq, vrows c hc, vrows' c hc]
  have hkr : ∀ q, Outside E q → (q ∈ r0.keys ↔ q ∈ r0'.keys) := by
    intro q hq
    rw [v3, v3']
    have : ∀ c ∈ chs, (q ∈ (f c).keys ↔ q ∈ (f' c).keys) := by
      intro c hc
      rw [← not_iff_not, ← Dict.get?_eq_none_iff, ← Dict.get?_eq_none_iff, agree c hc q hq]
    constructor
    · rintro ⟨c, hc, h⟩; exact ⟨c, hc, (this c hc).mp h⟩
    · rintro ⟨c, hc, h⟩; exact ⟨c, hc, (this c hc).mpr h⟩
  intro q hq
  rw [get?_update, get?_update]
  by_cases h : q ∈ r0.keys
  · rw [if_pos h, if_pos ((hkr q hq).mp h), v5 q h, v5' q ((hkr q hq).mp h), hcolE q hq]
  · rw [if_neg h, if_neg (fun h' => h ((hkr q hq).mpr h'))]
    by_cases hm : q = "MaxSignal_inPixel"
    · subst hm
      rw [m2, m2']
      congr 1
      apply List.map_congr_left
      intro i _
      rw [hmaxE]
    · rw [m3 q hm, m3' q hm, hsame q hq.1]

end ExoRad
