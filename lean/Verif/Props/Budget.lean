import Verif.Props.CompleteDemo

/-!
# The noise budget of a whole observation: C06, C72

The columns of the table an observation returns are consistent: its frame times, total noises and maximum signals are
those the specification gives for the signals, windows and options of the same row.
-/

set_option linter.unusedSectionVars false

namespace ExoRad.Pipeline
open Table

/-- Sum of the signals in a row of a result: columns whose name contains `signal`, without the noise columns. -/
noncomputable def signalSum (r : Table ℝ) (i : ℕ) : ℝ :=
  ((r.keys.filter (fun k => substr "signal" k && !substr "_noise" k)).map (fun k => cellAt r k i)).sum

/-- Sum of the maximum signals in a row of a result: columns whose name contains `Max`, without `MaxSignal_inPixel` and the
noise columns. -/
noncomputable def maxSum (r : Table ℝ) (i : ℕ) : ℝ :=
  ((r.keys.filter (fun k => substr "Max" k && !substr "_noise" k && !decide (k = "MaxSignal_inPixel"))).map (fun k => cellAt r k i)).sum

theorem cellAt_congr {a b : Table ℝ} {k : String} (h : a.get? k = b.get? k) (i : ℕ) : cellAt a k i = cellAt b k i := by
  unfold cellAt
  rw [h]

theorem cellAt_range {t : Table ℝ} {k : String} {N : ℕ} {g : ℕ → ℝ} (h : t.get? k = some ((List.range N).map (fun i => .num (.fin (g i)))))
    {i : ℕ} (hi : i < N) : cellAt t k i = g i := by
  unfold cellAt
  rw [h]
  simp [List.getD, hi, cellVal]

/-- Columns with the same names and the same cells have the same sum, in any order. -/
theorem sum_columns {a b : Table ℝ} (ha : a.keys.Nodup) (hb : b.keys.Nodup) (P Q : String → Bool)
    (hk : ∀ k, (k ∈ a.keys ∧ P k = true) ↔ (k ∈ b.keys ∧ Q k = true)) (i : ℕ)
    (h : ∀ k ∈ a.keys, P k = true → cellAt a k i = cellAt b k i) :
    ((a.keys.filter P).map (fun k => cellAt a k i)).sum = ((b.keys.filter Q).map (fun k => cellAt b k i)).sum := by
  have hp : (a.keys.filter P).Perm (b.keys.filter Q) := by
    rw [List.perm_ext_iff_of_nodup (ha.filter _) (hb.filter _)]
    intro k
    simp only [List.mem_filter]
    exact hk k
  rw [← (hp.map (fun k => cellAt b k i)).sum_eq]
  congr 1
  apply List.map_congr_left
  intro k hk
  rw [List.mem_filter] at hk
  exact h k hk.1 hk.2

/-- C06, C72: the table a whole observation returns, row by row. `MaxSignal_inPixel` is the sum of the maximum signals of the
row. Each channel has one positive frame time: the option, or else the longest for which no pixel of the channel exceeds the
allowed fraction of the well. The total noise of a row without star signal is NaN; in every other row it is the root of the
relative variance of the specification for the signals, the window and the frame time of the same row of the same table and
the options of the row's channel. -/
theorem observation_budget (w : World) (p : Payload) (sec : Foreground.Section ℝ) (hsec : p.foreground = some sec)
    (d : Source.Descr) (hd : p.source = some d) (items : List Obs) (hne : items ≠ []) (hch : p.channels = items.map Obs.ch)
    (hnames : (items.map (fun it => it.ch.noise.value)).Nodup) (hfill : Fillable (items.map Obs.tab))
    (t : Target) (hf : Ready t) (sky : Foreground.Sky ℝ)
    (hsky : Foreground.estimateForegrounds w.consts.B w.maps w.skyGrid sec t.sky = (sky, .ok ())) (b : Source.Built ℝ)
    (hb : Source.loadSource w.consts w.env w.grid d t.star p.wlMin p.wlMax = .ok b)
    (hbuilt : ∀ it ∈ items, it.BuiltTable) (hlit : ∀ it ∈ items, it.Lit sky b.sed)
    (hnoise : ∀ it ∈ items, ∀ k, k ∈ it.tab.keys ∨ k ∈ it.fg.keys → ¬ NoiseName k)
    (well fw freq dark rn : NoiseChannel → ℝ)
    (hdet : ∀ it ∈ items, GoodDetector it.ch.noise.detector (well it.ch.noise) (fw it.ch.noise) (freq it.ch.noise) (dark it.ch.noise) (rn it.ch.noise))
    (hX : ∀ it ∈ items, -1 ≤ it.ch.noise.noiseX.getD 0)
    (hcust : ∀ it ∈ items, (∀ e ∈ entries it.ch.common, GoodEntry e) ∧ ∀ e ∈ entries it.ch.noise.customNoise, GoodEntry e) :
    ∃ (tabs' : List (Table ℝ)) (r : Table ℝ) (tot : List (Num ℝ)),
      observe w p (items.map Obs.tab) t = (tabs', .ok { t with sky := sky, built := some b, table := some r }) ∧
      r.get? "chName" = some ((rowNames items).map Cell.str) ∧ r.get? "total_noise" = some (tot.map Cell.num) ∧
      tot.length = (rowNames items).length ∧
      ∀ it ∈ items,
        (it.ch.noise.detector.frameTime = none → ∃ i, (rowNames items)[i]? = some it.ch.noise.value ∧
          cellAt r "frameTime" i * cellAt r "MaxSignal_inPixel" i = fw it.ch.noise * well it.ch.noise) ∧
        ∀ i, (rowNames items)[i]? = some it.ch.noise.value →
          cellAt r "MaxSignal_inPixel" i = maxSum r i ∧ 0 < cellAt r "frameTime" i ∧
          (∀ f, it.ch.noise.detector.frameTime = some f → cellAt r "frameTime" i = f) ∧
          (it.ch.noise.detector.frameTime = none → cellAt r "frameTime" i * cellAt r "MaxSignal_inPixel" i ≤ fw it.ch.noise * well it.ch.noise) ∧
          (cellAt r "star_signal_inAperture" i = 0 → tot[i]? = some Num.nan) ∧
          (cellAt r "star_signal_inAperture" i ≠ 0 → ∃ T : ℝ, tot[i]? = some (Num.fin T) ∧ 0 ≤ T ∧
            T ^ 2 = Spec.relVariance
              { dark := dark it.ch.noise, read := rn it.ch.noise, excess := it.ch.noise.noiseX.getD 0, frame := cellAt r "frameTime" i,
                freq := freq it.ch.noise, avg := it.ch.noise.detector.multiaccumM.getD 1 }
              { star := cellAt r "star_signal_inAperture" i, total := signalSum r i, window := cellAt r "WindowSize" i }
              (values (entries it.ch.common) ++ values (entries it.ch.noise.customNoise))) := by
  obtain ⟨tabs', M, s1, s2, s3, s4, h1, h2, h3, h4, h5, hM⟩ := before_noise w p sec hsec d hd items hne hch hfill t hf sky hsky b hb hbuilt hlit
  obtain ⟨hchn, hTT, hgroup, hbright⟩ := merged_ready items hne p.channels hch hnames sky b.sed hbuilt hlit M hM
  have hlen : (rowNames items).length = (items.map Obs.n).sum := length_flatMap_sum _ _ _ (fun it _ => by simp)
  have hmem : ∀ c ∈ p.channels.map (fun c => (c.noise, c.common)), ∃ it ∈ items, c = (it.ch.noise, it.ch.common) := by
    intro c hc
    rw [hch, List.map_map] at hc
    obtain ⟨it, hit, rfl⟩ := List.mem_map.mp hc
    exact ⟨it, hit, rfl⟩
  obtain ⟨r, ft, tot, hr, rnd, rkeep, rmax, rft, rtot, rch⟩ := estimate_noise_target M _ _ (cellAt M) hTT
    (p.channels.map (fun c => (c.noise, c.common))) (by rw [hch]; simpa using hne) hgroup hbright well fw freq dark rn
    (fun c hc => by obtain ⟨it, hit, rfl⟩ := hmem c hc; exact hdet it hit)
    (fun c hc => by obtain ⟨it, hit, rfl⟩ := hmem c hc; exact hX it hit)
    (fun c hc => by obtain ⟨it, hit, rfl⟩ := hmem c hc; exact hcust it hit)
  have h6 : noiseStep p.channels ⟨tabs', { t with sky := sky, built := some b, table := some M }⟩ =
      (⟨tabs', { t with sky := sky, built := some b, table := some r }⟩, .ok ()) := by
    unfold noiseStep
    simp only [hr]
  -- columns that are not noise
  have hclean : ∀ k ∈ M.keys, ¬ NoiseName k := by
    intro k hk
    by_cases hs : k ∈ starNames
    · simp only [starNames, List.mem_cons, List.not_mem_nil, or_false] at hs
      unfold NoiseName
      rcases hs with rfl | rfl | rfl | rfl | rfl <;> decide
    · intro hn
      refine hM.none k hs ?_ ?_ hk
      · exact fun it hit h => hnoise it hit k (.inr h) hn
      · exact fun it hit h => hnoise it hit k (.inl h) hn
  have keep : ∀ k ∈ M.keys, r.get? k = M.get? k := by
    intro k hk
    have := hclean k hk
    unfold NoiseName at this
    push Not at this
    exact rkeep k hk (by simpa using this.1) this.2.1 this.2.2
  obtain ⟨kin, kout⟩ := estimateNoise_keys _ _ _ hr
  have notNoise : ∀ k ∈ M.keys, substr "_noise" k = false := by
    intro k hk
    have := hclean k hk
    unfold NoiseName at this
    push Not at this
    simpa using this.1
  have hsum : ∀ i, signalSum r i = totalSignal M (cellAt M) i := by
    intro i
    unfold signalSum totalSignal
    refine (sum_columns hM.nodup rnd _ _ ?_ i (fun k hk _ => cellAt_congr (keep k hk).symm i)).symm
    intro k
    constructor
    · rintro ⟨h, h'⟩
      exact ⟨kin k h, by simp [h', notNoise k h]⟩
    · rintro ⟨h, h'⟩
      simp only [Bool.and_eq_true, Bool.not_eq_true'] at h'
      refine ⟨?_, h'.1⟩
      rcases kout k h with h | rfl | h | rfl | rfl
      · exact h
      · exact absurd h'.1 (by decide)
      · rw [h'.2] at h; cases h
      · exact absurd h'.1 (by decide)
      · exact absurd h'.1 (by decide)
  have hmaxs : ∀ i, maxSum r i = Table.maxTotal M (cellAt M) i := by
    intro i
    unfold maxSum Table.maxTotal
    refine (sum_columns hM.nodup rnd _ _ ?_ i (fun k hk _ => cellAt_congr (keep k hk).symm i)).symm
    intro k
    constructor
    · rintro ⟨h, h'⟩
      have : k ≠ "MaxSignal_inPixel" := fun e => hTT.fresh (e ▸ h)
      exact ⟨kin k h, by simp [h', notNoise k h, this]⟩
    · rintro ⟨h, h'⟩
      simp only [Bool.and_eq_true, Bool.not_eq_true', decide_eq_false_iff_not] at h'
      refine ⟨?_, h'.1.1⟩
      rcases kout k h with h | rfl | h | rfl | rfl
      · exact h
      · exact absurd rfl h'.2
      · rw [h'.1.2] at h; cases h
      · exact absurd h'.1.1 (by decide)
      · exact absurd h'.1.1 (by decide)
  refine ⟨tabs', r, (List.range (items.map Obs.n).sum).map tot,
    (observe_ok_iff w p sec hsec _ _ _ _).mpr ⟨s1, s2, s3, s4, _, h1, h2, h3, h4, h5, h6⟩, ?_, ?_, ?_, ?_⟩
  · rw [keep _ (mem_keys_of_get hchn), hchn]
  · rw [rtot, List.map_map]
    rfl
  · simp [hlen]
  · intro it hit
    have row : ∀ i v, (rowNames items)[i]? = some v → i < (items.map Obs.n).sum ∧ (rowNames items).getD i "" = v := by
      intro i v hv
      rw [← hlen]
      exact ⟨(List.getElem?_eq_some_iff.mp hv).1, by simp [List.getD, hv]⟩
    obtain ⟨c0, c1, c2, c3⟩ := rch (it.ch.noise, it.ch.common) (by rw [hch, List.map_map]; exact List.mem_map.mpr ⟨it, hit, rfl⟩)
    have hft : ∀ i, i < (items.map Obs.n).sum → (rowNames items).getD i "" = it.ch.noise.value → cellAt r "frameTime" i = ft it.ch.noise.value := by
      intro i hi hn
      rw [cellAt_range rft hi, hn]
    refine ⟨?_, ?_⟩
    · intro hn
      obtain ⟨i, hi, hni, he⟩ := c2 hn
      refine ⟨i, ?_, ?_⟩
      · have hil : i < (rowNames items).length := by omega
        rw [← hni]
        simp [List.getD, hil]
      · rw [hft i hi hni, cellAt_range rmax hi]
        exact he
    · intro i hv
      obtain ⟨hi, hn⟩ := row i _ hv
      obtain ⟨d1, d2, d3⟩ := c3 i hi hn
      have hget : ((List.range (items.map Obs.n).sum).map tot)[i]? = some (tot i) := by simp [hi]
      have hstar : cellAt r "star_signal_inAperture" i = cellAt M "star_signal_inAperture" i := cellAt_congr (keep _ hTT.star) i
      refine ⟨?_, ?_, ?_, ?_, ?_, ?_⟩
      · rw [cellAt_range rmax hi, hmaxs]
      · rw [hft i hi hn]; exact c0
      · intro f hf'
        rw [hft i hi hn]; exact c1 f hf'
      · intro hno
        rw [hft i hi hn, cellAt_range rmax hi]
        exact d1 hno
      · intro h0
        rw [hget, d2 (by rw [← hstar]; exact h0)]
      · intro h0
        obtain ⟨T, e1, e2, e3⟩ := d3 (by rw [← hstar]; exact h0)
        refine ⟨T, by rw [hget, e1], e2, ?_⟩
        rw [e3, hft i hi hn, hstar, hsum, cellAt_congr (keep _ hTT.win) i]

/-! ## A concrete observation -/

namespace Demo
open Light

theorem lit_ok (name : String) : (obs name).Lit sky built.sed := by
  refine ⟨fg_ok name, ⟨by simp [obs, fg], by simp [obs, fg, Dict.keys], ?_⟩, ?_, out_ok name, rfl, rfl, ⟨rfl, ?_⟩, ⟨rfl, ?_⟩, ?_⟩
  · intro q hq
    simp only [obs, fg, List.mem_cons, List.not_mem_nil, or_false] at hq
    rcases hq with rfl | rfl <;> rfl
  · intro q hq c hc
    simp only [obs, fg, List.mem_cons, List.not_mem_nil, or_false] at hq
    rcases hq with rfl | rfl <;> simp only [List.mem_cons, List.not_mem_nil, or_false] at hc <;> subst hc
    · exact ⟨30, rfl, by norm_num⟩
    · exact ⟨15 / 2, rfl, by norm_num⟩
  · intro v hv
    simp only [obs, out, List.mem_cons, List.not_mem_nil, or_false] at hv
    subst hv
    norm_num
  · intro v hv
    simp only [obs, out, List.mem_cons, List.not_mem_nil, or_false] at hv
    subst hv
    norm_num
  · exact ⟨15 / 8, by simp [obs, out], by norm_num⟩

theorem obs_mem : ∀ it ∈ [obs "P", obs "Q"], ∃ name, it = obs name := by
  intro it hit
  simp only [List.mem_cons, List.not_mem_nil, or_false] at hit
  rcases hit with rfl | rfl <;> exact ⟨_, rfl⟩

theorem fill_ok : Fillable ([obs "P", obs "Q"].map Obs.tab) := by
  intro u hu q hq
  left
  intro v hv
  simp only [List.map_cons, List.map_nil, List.mem_cons, List.not_mem_nil, or_false] at hu hv
  have : q.1 ∈ ["chName", "Wavelength", "WindowSize"] := by
    rcases hu with rfl | rfl <;> simp only [obs, tab, List.mem_cons, List.not_mem_nil, or_false] at hq <;> rcases hq with rfl | rfl | rfl <;> simp
  rcases hv with rfl | rfl <;> exact this

theorem det_ok (name : String) : GoodDetector (obs name).ch.noise.detector 100 1 1 0 0 :=
  ⟨rfl, by norm_num, rfl, by norm_num, rfl, rfl, le_refl _, rfl, by simp [obs, ch], by simp [obs, ch]⟩

/-- The hypotheses of `observation_budget` are met by a run with two channels, for a target of any name. -/
theorem demo_budget (n : String) : ∃ (tabs' : List (Table ℝ)) (r : Table ℝ) (tot : List (Num ℝ)),
    observe world payload [tab "P", tab "Q"] (target n) = (tabs', .ok { target n with sky := sky, built := some built, table := some r }) ∧
    tot.length = 2 ∧ ∀ i < 2, ∃ T : ℝ, tot[i]? = some (Num.fin T) ∧ 0 < cellAt r "frameTime" i ∧
      T ^ 2 = Spec.relVariance { dark := 0, read := 0, excess := 0, frame := cellAt r "frameTime" i, freq := 1, avg := 1 }
        { star := 15 / 4, total := signalSum r i, window := cellAt r "WindowSize" i } [] := by
  obtain ⟨tabs', r, tot, h1, h2, h3, h4, h5⟩ := observation_budget world payload (.many [("screen", screen)]) rfl
    { value := "custom", customSed := some "sed.csv" } rfl [obs "P", obs "Q"] (by simp) rfl (by simp [obs, ch]) fill_ok (target n) ⟨⟨rfl, rfl⟩, by simp [target]⟩
    sky (sky_ok n) built (source_ok n) (fun it hit => by obtain ⟨name, rfl⟩ := obs_mem it hit; exact (real_ok name).table)
    (fun it hit => by obtain ⟨name, rfl⟩ := obs_mem it hit; exact lit_ok name)
    (fun it hit k hk => by
      obtain ⟨name, rfl⟩ := obs_mem it hit
      have : k ∈ ["chName", "Wavelength", "WindowSize", "screen_signal", "screen_MaxSignal_inPixel"] := by
        simp only [obs, tab, fg, Dict.keys, List.map_cons, List.map_nil, List.mem_cons, List.not_mem_nil, or_false] at hk ⊢
        tauto
      simp only [List.mem_cons, List.not_mem_nil, or_false] at this
      unfold NoiseName
      rcases this with rfl | rfl | rfl | rfl | rfl <;> decide)
    (fun _ => 100) (fun _ => 1) (fun _ => 1) (fun _ => 0) (fun _ => 0)
    (fun it hit => by obtain ⟨name, rfl⟩ := obs_mem it hit; exact det_ok name)
    (fun it hit => by obtain ⟨name, rfl⟩ := obs_mem it hit; simp [obs, ch])
    (fun it hit => by obtain ⟨name, rfl⟩ := obs_mem it hit; simp [obs, ch, entries])
  have hstar : ∀ i < 2, cellAt r "star_signal_inAperture" i = 15 / 4 := by
    obtain ⟨_, r', _, g1, _, g3, _⟩ := demo_observed n
    have he : observe world payload ([obs "P", obs "Q"].map Obs.tab) (target n) = observe world payload [tab "P", tab "Q"] (target n) := rfl
    rw [he, g1] at h1
    simp only [Prod.mk.injEq, Except.ok.injEq, Target.mk.injEq, Option.some.injEq, true_and] at h1
    obtain ⟨_, rfl⟩ := h1
    intro i hi
    unfold cellAt
    rw [g3]
    rcases (by omega : i = 0 ∨ i = 1) with rfl | rfl <;> simp [cellVal]
  refine ⟨tabs', r, tot, h1, by simpa [rowNames, obs] using h4, ?_⟩
  intro i hi
  have hrow : ∃ name, obs name ∈ [obs "P", obs "Q"] ∧ (rowNames [obs "P", obs "Q"])[i]? = some (obs name).ch.noise.value := by
    rcases (by omega : i = 0 ∨ i = 1) with rfl | rfl
    · exact ⟨"P", by simp, rfl⟩
    · exact ⟨"Q", by simp, rfl⟩
  obtain ⟨name, hm, hn⟩ := hrow
  obtain ⟨_, f0, _, _, _, f5⟩ := (h5 (obs name) hm).2 i hn
  obtain ⟨T, e1, _, e3⟩ := f5 (by rw [hstar i hi]; norm_num)
  refine ⟨T, e1, f0, ?_⟩
  rw [e3, hstar i hi]
  rfl

end Demo
end ExoRad.Pipeline
