import Verif.Model.NoiseAgain
import Verif.Lemmas.PipelineKeys
import Verif.Props.NoiseTable

/-!
# Estimating the noise of a target again: C09
-/

namespace ExoRad.Again
open Num

noncomputable section

/-- Only a rate has the right unit. -/
theorem rootPerHour_rate (d : Dim) : rootPerHour d = rate ↔ d = rate := by
  obtain ⟨c, t⟩ := d
  simp only [rootPerHour, rate, Dim.mk.injEq]
  constructor <;> rintro ⟨h1, h2⟩ <;> constructor <;> linarith

theorem photonLoop_eq {dims : String → Dim} (t : Table ℝ) (name : String) (g : Num ℝ) : ∀ (ks : List String) (out : Out), (∀ k ∈ ks, dims k = rate) →
    photonLoop dims t name g ks out = photonNoiseLoop t name g ks out
  | [], _, _ => rfl
  | k :: ks, out, h => by
    simp only [photonLoop, photonNoiseLoop, bind, Except.bind]
    cases t.selNum k name with
    | error e => rfl
    | ok s =>
      simp only [(rootPerHour_rate (dims k)).mpr (h k (by simp)), if_true]
      exact photonLoop_eq t name g ks _ (fun q hq => h q (List.mem_cons_of_mem _ hq))

theorem photonLoop_rates {dims : String → Dim} (t : Table ℝ) (name : String) (g : Num ℝ) : ∀ (ks : List String) (out out' : Out),
    photonLoop dims t name g ks out = .ok out' → ∀ k ∈ ks, dims k = rate
  | [], _, _, _ => by simp
  | k :: ks, out, out', h => by
    simp only [photonLoop, bind, Except.bind] at h
    cases hs : t.selNum k name with
    | error e => simp [hs] at h
    | ok s =>
      simp only [hs] at h
      by_cases hd : rootPerHour (dims k) = rate
      · simp only [hd, if_true] at h
        intro q hq
        rcases List.mem_cons.mp hq with rfl | hq
        · exact (rootPerHour_rate _).mp hd
        · exact photonLoop_rates t name g ks _ _ h q hq
      · simp [hd] at h

theorem channel_eq {dims : String → Dim} {t : Table ℝ} (h : ∀ k ∈ signalKeys t, dims k = rate) (ch : NoiseChannel) (common : Option CustomNoise) :
    channel dims t ch common = estimateNoiseInChannel t ch common := by
  unfold channel photonPart estimateNoiseInChannel photonNoise
  simp only [bind, Except.bind]
  cases frameTimeF t ch [] with
  | error e => rfl
  | ok o1 =>
    simp only
    cases o1.getE "frameTime" with
    | error e => rfl
    | ok ft =>
      cases ft with
      | nil => rfl
      | cons f0 fs =>
        simp only
        cases multiaccum ch.detector f0 with
        | error e => rfl
        | ok g =>
          obtain ⟨a, b⟩ := g
          simp only
          rw [photonLoop_eq t ch.value b _ o1 h]
          cases photonNoiseLoop t ch.value b (signalKeys t) o1 with
          | error e => rfl
          | ok o2 => rfl

theorem channel_rates {dims : String → Dim} {t : Table ℝ} {ch : NoiseChannel} {common : Option CustomNoise} {out : Out} (h : channel dims t ch common = .ok out) :
    (∀ k ∈ signalKeys t, dims k = rate) ∧ estimateNoiseInChannel t ch common = .ok out := by
  have hr : ∀ k ∈ signalKeys t, dims k = rate := by
    unfold channel photonPart at h
    simp only [bind, Except.bind] at h
    split at h
    · cases h
    rename_i o ho
    split at ho
    · cases ho
    split at ho
    · cases ho
    split at ho
    · cases ho
    split at ho
    · cases ho
    exact photonLoop_rates _ _ _ _ _ _ ho
  exact ⟨hr, channel_eq hr ch common ▸ h⟩

theorem channels_eq {dims : String → Dim} {t : Table ℝ} (h : ∀ k ∈ signalKeys t, dims k = rate) : ∀ chs, channels dims t chs = noiseTables t chs
  | [] => rfl
  | (c, p) :: cs => by
    unfold channels noiseTables
    rw [channel_eq h, channels_eq h cs]

/-- The estimate of the largest signal adds no signal column. -/
theorem signal_after_max {t t' : Table ℝ} (h : t.estimateMaxSignal = .ok t') : ∀ k, k ∈ signalKeys t' ↔ k ∈ signalKeys t := by
  unfold Table.estimateMaxSignal at h
  simp only [bind, Except.bind, pure, Except.pure] at h
  split at h
  · cases h
  split at h
  · cases h
  cases h
  intro k
  unfold signalKeys
  rw [List.mem_filter, List.mem_filter, Table.mem_keys_update]
  constructor
  · rintro ⟨h1 | h1, h2⟩
    · exact ⟨h1, h2⟩
    · simp only [Dict.keys, List.map_cons, List.map_nil, List.mem_singleton] at h1
      subst h1
      exact absurd h2 (by decide)
  · rintro ⟨h1, h2⟩
    exact ⟨.inl h1, h2⟩

/-- C09, the first estimate: when every signal column is a rate, the units change nothing. -/
theorem estimate_rates {dims : String → Dim} {t : Table ℝ} (h : ∀ k ∈ t.keys, substr "signal" k = true → dims k = rate) (chs : List (NoiseChannel × Option CustomNoise)) :
    (estimate dims t chs).map Prod.fst = estimateNoise t chs := by
  unfold estimate estimateNoise
  simp only [bind, Except.bind]
  cases hm : t.estimateMaxSignal with
  | error e => rfl
  | ok t1 =>
    simp only
    have hr : ∀ k ∈ signalKeys t1, dims k = rate := by
      intro k hk
      obtain ⟨h1, h2⟩ := List.mem_filter.mp ((signal_after_max hm k).mp hk)
      exact h k h1 h2
    rw [channels_eq hr]
    cases noiseTables t1 chs with
    | error e => rfl
    | ok ts =>
      simp only
      cases Table.vstackTables ts with
      | error e => rfl
      | ok q =>
        obtain ⟨r, _⟩ := q
        cases r <;> rfl

theorem tryCustom_keys (n : ℕ) (c : Option CustomNoise) (out : Out) : ∀ q ∈ out.keys, q ∈ (tryCustom c n out).keys := by
  have one : ∀ (e : CustomEntry) (out : Out), ∀ q ∈ out.keys, q ∈ (applyCustom n e out).1.keys := by
    intro e out q hq
    unfold applyCustom
    split
    · exact hq
    · split
      · exact hq
      · dsimp only
        split
        · exact (Dict.mem_keys_set _ _ _ _).mpr (.inr hq)
        · exact (Dict.mem_keys_set _ _ _ _).mpr (.inr ((Dict.mem_keys_set _ _ _ _).mpr (.inr hq)))
  have many : ∀ (es : List CustomEntry) (out : Out), ∀ q ∈ out.keys, q ∈ (applyCustoms n es out).1.keys := by
    intro es
    induction es with
    | nil => intro out q hq; exact hq
    | cons e es ih =>
      intro out q hq
      unfold applyCustoms
      have := one e out q hq
      cases hx : applyCustom n e out with
      | mk o x =>
        rw [hx] at this
        cases x with
        | none => exact ih o q this
        | some x => exact this
  intro q hq
  unfold tryCustom
  split
  · exact hq
  · rename_i c
    cases c with
    | single e => exact one e out q hq
    | many es => exact many es out q hq

theorem photonNoiseLoop_keys (t : Table ℝ) (name : String) (g : Num ℝ) : ∀ (ks : List String) (out out' : Out), photonNoiseLoop t name g ks out = .ok out' →
    (∀ q ∈ out.keys, q ∈ out'.keys) ∧ ∀ k ∈ ks, k ++ "_noise" ∈ out'.keys
  | [], out, out', h => by cases h; simp
  | k :: ks, out, out', h => by
    simp only [photonNoiseLoop, bind, Except.bind] at h
    split at h
    · cases h
    obtain ⟨h1, h2⟩ := photonNoiseLoop_keys t name g ks _ _ h
    refine ⟨fun q hq => h1 q ((Dict.mem_keys_set _ _ _ _).mpr (.inr hq)), fun q hq => ?_⟩
    rcases List.mem_cons.mp hq with rfl | hq
    · exact h1 _ ((Dict.mem_keys_set _ _ _ _).mpr (.inl rfl))
    · exact h2 q hq

/-- A noise estimate reads the star's signal and stores its noise. -/
theorem estimate_star {t : Table ℝ} {ch : NoiseChannel} {common : Option CustomNoise} {out : Out} (h : estimateNoiseInChannel t ch common = .ok out) :
    "star_signal_inAperture" ∈ signalKeys t ∧ "star_signal_inAperture_noise" ∈ out.keys := by
  unfold estimateNoiseInChannel photonNoise at h
  simp only [bind, Except.bind] at h
  split at h
  · cases h
  split at h
  · cases h
  split at h
  · cases h
  split at h
  · cases h
  split at h
  · cases h
  rename_i o2 ho2
  obtain ⟨-, hk⟩ := photonNoiseLoop_keys _ _ _ _ _ _ ho2
  split at h
  · cases h
  split at h
  · cases h
  split at h
  · cases h
  split at h
  · cases h
  split at h
  · cases h
  split at h
  · cases h
  rename_i sgn hsgn
  have hs : "star_signal_inAperture" ∈ signalKeys t := by
    refine List.mem_filter.mpr ⟨?_, by decide⟩
    unfold Table.selNum Table.sel at hsgn
    simp only [bind, Except.bind] at hsgn
    split at hsgn
    · cases hsgn
    rename_i c hc
    split at hc
    · cases hc
    split at hc
    · cases hc
    rename_i hget
    exact Dict.mem_keys_of_get? (Dict.getE_eq_ok_iff.mp hget)
  split at h
  · cases h
  split at h
  · cases h
  split at h
  · cases h
  simp only [pure, Except.pure, Except.ok.injEq] at h
  subst h
  refine ⟨hs, tryCustom_keys _ _ _ _ (tryCustom_keys _ _ _ _ ?_)⟩
  refine (Dict.mem_keys_set _ _ _ _).mpr (.inr ((Dict.mem_keys_set _ _ _ _).mpr (.inr ((Dict.mem_keys_set _ _ _ _).mpr (.inr (hk _ hs))))))

theorem outDim_star {t : Table ℝ} (h : "star_signal_inAperture" ∈ signalKeys t) (ch : NoiseChannel) (common : Option CustomNoise) :
    ∃ d, outDim t ch common "star_signal_inAperture_noise" = some d ∧ d ≠ rate := by
  unfold outDim
  split
  · exact ⟨_, rfl, by decide⟩
  rw [if_neg (by decide), if_neg (by decide), if_pos (List.mem_map.mpr ⟨_, h, by decide⟩)]
  exact ⟨_, rfl, by simp [noise, rate]; norm_num⟩

/-- C09, what does not hold: a target whose noise was estimated can never be given a second estimate, with the same channels or with others: its columns `<signal>_noise` are taken
for signals, and their unit is not that of a signal. -/
theorem estimate_again_fails {dims dims' : String → Dim} {t r : Table ℝ} {chs : List (NoiseChannel × Option CustomNoise)} (h : estimate dims t chs = .ok (r, dims'))
    (chs' : List (NoiseChannel × Option CustomNoise)) : ∃ e, estimate dims' r chs' = .error e := by
  -- the first
  have h0 : "star_signal_inAperture_noise" ∈ r.keys ∧ dims' "star_signal_inAperture_noise" ≠ rate := by
    unfold estimate at h
    simp only [bind, Except.bind] at h
    split at h
    · cases h
    rename_i t1 ht1
    split at h
    · cases h
    rename_i ts hts
    split at h
    · cases h
    rename_i q hq
    obtain ⟨r1, us⟩ := q
    cases r1 with
    | none => cases h
    | some r1 =>
      simp only [pure, Except.pure, Except.ok.injEq, Prod.mk.injEq] at h
      obtain ⟨rfl, rfl⟩ := h
      have hall : ∀ (cs : List (NoiseChannel × Option CustomNoise)) (ts : List (Table ℝ)), channels dims t1 cs = .ok ts →
          (∀ u ∈ ts, "star_signal_inAperture_noise" ∈ u.keys) ∧ (cs ≠ [] → "star_signal_inAperture" ∈ signalKeys t1) ∧ (cs = [] → ts = []) := by
        intro cs
        induction cs with
        | nil => intro ts h; cases h; simp
        | cons c cs ih =>
          intro ts h
          obtain ⟨c, p⟩ := c
          simp only [channels, bind, Except.bind, pure, Except.pure] at h
          split at h
          · cases h
          rename_i o ho
          split at h
          · cases h
          rename_i us hus
          cases h
          obtain ⟨hs, hn⟩ := estimate_star (channel_rates ho).2
          refine ⟨fun u hu => ?_, fun _ => hs, by simp⟩
          rcases List.mem_cons.mp hu with rfl | hu
          · simpa [Out.toTable, Dict.keys] using hn
          · exact (ih us hus).1 u hu
      obtain ⟨a1, a2, a3⟩ := hall chs ts hts
      have hne : chs ≠ [] := by
        intro e
        rw [a3 e] at hq
        cases hq
      refine ⟨(Table.mem_keys_update _ _ _).mpr (.inr ((Table.vstackTables_keys ts r1 us hq _).2 a1)), ?_⟩
      obtain ⟨c, cs, rfl⟩ := List.exists_cons_of_ne_nil hne
      obtain ⟨d, hd, hdr⟩ := outDim_star (a2 hne) c.1 c.2
      unfold dimsAfter
      simp only [List.findSome?_cons, hd]
      exact hdr
  -- the second
  cases h2 : estimate dims' r chs' with
  | error e => exact ⟨e, rfl⟩
  | ok x =>
    exfalso
    unfold estimate at h2
    simp only [bind, Except.bind] at h2
    split at h2
    · cases h2
    rename_i t1 ht1
    split at h2
    · cases h2
    rename_i ts hts
    cases chs' with
    | nil => cases hts; cases h2
    | cons c cs =>
      obtain ⟨c, p⟩ := c
      simp only [channels, bind, Except.bind] at hts
      split at hts
      · cases hts
      rename_i o ho
      refine h0.2 ((channel_rates ho).1 _ ((signal_after_max ht1 _).mpr (List.mem_filter.mpr ⟨h0.1, by decide⟩)))

/-! ## The columns of custom noise, and the units after an estimate -/

theorem total_applyCustom {nwl : ℕ} {e : CustomEntry} {out : Out} (ht : "total_noise" ∈ out.keys) :
    "total_noise" ∈ (applyCustom nwl e out).1.keys := by
  unfold applyCustom
  split
  · exact ht
  split
  · exact ht
  dsimp only
  split
  · exact (Dict.mem_keys_set _ _ _ _).mpr (.inr ht)
  · exact (Dict.mem_keys_set _ _ _ _).mpr (.inl rfl)

theorem keys_applyCustom (nwl : ℕ) (e : CustomEntry) (out : Out) (ht : "total_noise" ∈ out.keys) (q : String) :
    q ∈ (applyCustom nwl e out).1.keys ↔ q ∈ out.keys ∨ ∃ n v, e.name = some n ∧ e.value = some v ∧ q = n ++ "_noise" := by
  unfold applyCustom
  cases hv : e.value with
  | none => simp
  | some v =>
    cases hn : e.name with
    | none => simp
    | some n =>
      dsimp only
      have ht' : "total_noise" ∈ (out.set (n ++ "_noise") (List.replicate nwl (Num.fin v * Num.fin (1 / 1000000) * Num.fin 1))).keys :=
        (Dict.mem_keys_set _ _ _ _).mpr (.inr ht)
      obtain ⟨c, hc⟩ := Dict.exists_get? ht'
      rw [hc]
      dsimp only
      rw [Dict.mem_keys_set, Dict.mem_keys_set]
      constructor
      · rintro (rfl | rfl | h)
        · exact .inl ht
        · exact .inr ⟨n, v, rfl, rfl, rfl⟩
        · exact .inl h
      · rintro (h | ⟨n', v', hn', _, rfl⟩)
        · exact .inr (.inr h)
        · cases hn'
          exact .inr (.inl rfl)

theorem applyCustom_stops (nwl : ℕ) (e : CustomEntry) (out : Out) (ht : "total_noise" ∈ out.keys) :
    (applyCustom nwl e out).2 = none ↔ (e.value.isSome && e.name.isSome) = true := by
  unfold applyCustom
  cases hv : e.value with
  | none => simp
  | some v =>
    cases hn : e.name with
    | none => simp
    | some n =>
      dsimp only
      have ht' : "total_noise" ∈ (out.set (n ++ "_noise") (List.replicate nwl (Num.fin v * Num.fin (1 / 1000000) * Num.fin 1))).keys :=
        (Dict.mem_keys_set _ _ _ _).mpr (.inr ht)
      obtain ⟨c, hc⟩ := Dict.exists_get? ht'
      rw [hc]
      simp

/-- C09, C08: the columns custom noise adds are those of the entries with a value and a name, up to the first
entry that lacks one of them; their unit after the estimate is that of those columns. -/
theorem stored_written (c : Option CustomNoise) (nwl : ℕ) (out : Out) (ht : "total_noise" ∈ out.keys) (q : String) :
    q ∈ (tryCustom c nwl out).keys ↔ q ∈ out.keys ∨ ∃ n ∈ stored c, q = n ++ "_noise" := by
  cases c with
  | none => simp [tryCustom, stored]
  | some c =>
    cases c with
    | single e =>
      simp only [tryCustom, addCustomNoise, keys_applyCustom nwl e out ht, stored]
      cases hv : e.value <;> cases hn : e.name <;> simp
    | many es =>
      simp only [tryCustom, addCustomNoise, stored]
      induction es generalizing out with
      | nil => simp [applyCustoms]
      | cons e es ih =>
        have hk := keys_applyCustom nwl e out ht q
        have hs := applyCustom_stops nwl e out ht
        have ht' := total_applyCustom (nwl := nwl) (e := e) ht
        unfold applyCustoms
        split
        · rename_i out' x hx
          rw [hx] at hk hs
          have : (e.value.isSome && e.name.isSome) = false := by
            rw [← Bool.not_eq_true, ← hs]; simp
          rw [List.takeWhile_cons, this]
          simp only [hk]
          cases hv : e.value <;> cases hn : e.name <;> simp_all
        · rename_i out' hx
          rw [hx] at hk hs ht'
          have hb : (e.value.isSome && e.name.isSome) = true := hs.mp rfl
          rw [List.takeWhile_cons, hb, ih out' ht', hk]
          cases hv : e.value <;> cases hn : e.name <;> simp_all
          constructor
          · rintro ((h | h) | h)
            · exact .inl h
            · exact .inr (.inl h)
            · exact .inr (.inr h)
          · rintro (h | h | h)
            · exact .inl (.inl h)
            · exact .inl (.inr h)
            · exact .inr h

theorem not_noise_suffix {n q : String} (h : ¬ "_noise".toList <:+ q.toList) : q ≠ n ++ "_noise" := by
  rintro rfl
  exact h (by simp [String.toList_append])

/-- C09: units after an estimate: the maximum is a rate, and a column that is neither noise nor a time of the
detector keeps its unit. -/
theorem units_after {dims dims' : String → Dim} {t r : Table ℝ} {chs : List (NoiseChannel × Option CustomNoise)}
    (h : estimate dims t chs = .ok (r, dims')) {q : String} (hq : ¬ "_noise".toList <:+ q.toList) (h1 : q ≠ "frameTime")
    (h2 : q ≠ "saturation_time") : dims' q = if q = "MaxSignal_inPixel" then rate else dims q := by
  unfold estimate at h
  simp only [bind, Except.bind] at h
  split at h
  · cases h
  split at h
  · cases h
  split at h
  · cases h
  split at h
  · cases h
  cases h
  have hnone : ∀ (t : Table ℝ), chs.findSome? (fun c => outDim t c.1 c.2 q) = none := by
    intro t
    rw [List.findSome?_eq_none_iff]
    intro c _
    unfold outDim
    rw [if_neg, if_neg, if_neg, if_neg, if_neg]
    · rintro (h | h) <;> contradiction
    · rw [List.mem_map]; rintro ⟨n, _, rfl⟩; exact not_noise_suffix hq rfl
    · rintro (rfl | rfl) <;> exact hq (by decide)
    · rintro rfl; exact hq (by decide)
    · rw [List.mem_map]; rintro ⟨n, _, rfl⟩; exact not_noise_suffix hq rfl
  unfold dimsAfter
  rw [hnone]

/-- A concrete case of `estimate_again_fails`: the target of `exTarget_ok`, all columns rates, two channels. -/
theorem demo_again : ∃ r dims', estimate (fun _ => rate) exTarget [(exCh, none), ({ exCh with value := "S" }, none)] = .ok (r, dims') ∧
    ∃ e, estimate dims' r [(exCh, none), ({ exCh with value := "S" }, none)] = .error e := by
  obtain ⟨h1, h2, h3⟩ := exTarget_ok
  have hd : GoodDetector exCh.detector 1000 (1 / 2) 10 1 20 := by constructor <;> simp [exCh, exDet]
  obtain ⟨r, _, _, hr, _⟩ := estimate_noise_target exTarget 3 exNames exCells h1 [(exCh, none), ({ exCh with value := "S" }, none)] (by simp) h2
    (by
      intro c hc
      simp only [List.mem_cons, List.not_mem_nil, or_false] at hc
      rcases hc with rfl | rfl
      · exact h3 _ (by simp)
      · exact h3 _ (by simp))
    (fun _ => 1000) (fun _ => 1 / 2) (fun _ => 10) (fun _ => 1) (fun _ => 20)
    (by
      intro c hc
      simp only [List.mem_cons, List.not_mem_nil, or_false] at hc
      rcases hc with rfl | rfl <;> exact hd)
    (by
      intro c hc
      simp only [List.mem_cons, List.not_mem_nil, or_false] at hc
      rcases hc with rfl | rfl <;> (simp [exCh]; norm_num))
    (by
      intro c hc
      simp only [List.mem_cons, List.not_mem_nil, or_false] at hc
      rcases hc with rfl | rfl <;> exact ⟨by simp [entries], by simp [exCh, entries, GoodEntry]⟩)
  have he := estimate_rates (dims := fun _ => rate) (t := exTarget) (fun _ _ _ => rfl) [(exCh, none), ({ exCh with value := "S" }, none)]
  rw [hr] at he
  cases hx : estimate (fun _ => rate) exTarget [(exCh, none), ({ exCh with value := "S" }, none)] with
  | error e => rw [hx] at he; cases he
  | ok x =>
    obtain ⟨r', d'⟩ := x
    exact ⟨r', d', rfl, estimate_again_fails hx _⟩

/-! ## Every complete custom noise has its column -/

theorem customs_append {n : ℕ} : ∀ (as bs : List CustomEntry) (out : Out) (tot : ℕ → Num ℝ), (∀ e ∈ as, GoodEntry e) →
    out.get? "total_noise" = some ((List.range n).map tot) →
    applyCustoms n (as ++ bs) out = applyCustoms n bs (applyCustoms n as out).1 := by
  intro as
  induction as with
  | nil => intros; rfl
  | cons e es ih =>
    intro bs out tot hg ht
    obtain ⟨w, o', -, h1, h2, -⟩ := applyCustom_good n e (hg e (by simp)) out tot ht
    simp only [List.cons_append, applyCustoms, h1]
    exact ih bs o' _ (fun e' h' => hg e' (List.mem_cons_of_mem _ h')) h2

theorem tryCustom_entries {n : ℕ} (c : Option CustomNoise) {out : Out} {tot : ℕ → Num ℝ} (hg : ∀ e ∈ entries c, GoodEntry e)
    (ht : out.get? "total_noise" = some ((List.range n).map tot)) :
    tryCustom c n out = (applyCustoms n (entries c) out).1 := by
  cases c with
  | none => rfl
  | some c =>
    cases c with
    | many es => rfl
    | single e =>
      obtain ⟨w, o', -, h1, -, -⟩ := applyCustom_good n e (hg e (by simp [entries])) out tot ht
      simp [tryCustom, addCustomNoise, entries, applyCustoms, h1]

theorem customs_total {n : ℕ} : ∀ (es : List CustomEntry) (out : Out) (tot : ℕ → Num ℝ), (∀ e ∈ es, GoodEntry e) →
    out.get? "total_noise" = some ((List.range n).map tot) →
    (∃ tot', (applyCustoms n es out).1.get? "total_noise" = some ((List.range n).map tot')) ∧
      ∀ q, q ≠ "total_noise" → (∀ e ∈ es, ∀ nm, e.name = some nm → q ≠ nm ++ "_noise") →
        (applyCustoms n es out).1.get? q = out.get? q := by
  intro es
  induction es with
  | nil => intro out tot _ ht; exact ⟨⟨tot, ht⟩, fun _ _ _ => rfl⟩
  | cons e es ih =>
    intro out tot hg ht
    obtain ⟨w, o', -, h1, h2, h3⟩ := applyCustom_good n e (hg e (by simp)) out tot ht
    obtain ⟨i1, i2⟩ := ih o' _ (fun e' h' => hg e' (List.mem_cons_of_mem _ h')) h2
    simp only [applyCustoms, h1]
    exact ⟨i1, fun q hq hn => by
      rw [i2 q hq (fun e' h' => hn e' (List.mem_cons_of_mem _ h')), h3 q hq (hn e (by simp))]⟩

/-- The column of an entry is its value in ppm, in every bin, unless a later entry has the same name. -/
theorem customs_column {n : ℕ} {pre post : List CustomEntry} {e : CustomEntry} {v : ℝ} {nm : String} {out : Out} {tot : ℕ → Num ℝ}
    (hg : ∀ e' ∈ pre ++ e :: post, GoodEntry e') (hv : e.value = some v) (hn : e.name = some nm)
    (hlast : ∀ e' ∈ post, e'.name ≠ some nm) (ht : out.get? "total_noise" = some ((List.range n).map tot)) :
    (applyCustoms n (pre ++ e :: post) out).1.get? (nm ++ "_noise") = some (List.replicate n (fin (v / 1000000))) := by
  have hgp : ∀ e' ∈ pre, GoodEntry e' := fun e' h => hg e' (by simp [h])
  have hge : GoodEntry e := hg e (by simp)
  have hgq : ∀ e' ∈ post, GoodEntry e' := fun e' h => hg e' (by simp [h])
  rw [customs_append pre _ out tot hgp ht]
  obtain ⟨⟨tot1, ht1⟩, -⟩ := customs_total pre out tot hgp ht
  obtain ⟨w, o', -, h1, h2, -⟩ := applyCustom_good n e hge _ tot1 ht1
  have hne : nm ++ "_noise" ≠ "total_noise" := by
    obtain ⟨-, nm', hn', hne⟩ := hge
    rw [hn] at hn'
    cases hn'
    exact (total_ne hne).symm
  have h3 : o'.get? (nm ++ "_noise") = some (List.replicate n (fin (v / 1000000))) := by
    have : (applyCustom n e (applyCustoms n pre out).1).1 = o' := by rw [h1]
    rw [← this]
    unfold applyCustom
    simp only [hv, hn]
    rw [Dict.get?_set_ne _ _ hne.symm, ht1]
    dsimp only
    rw [Dict.get?_set_ne _ _ hne, Dict.get?_set_self, fin_mul, fin_mul]
    congr 2
    ring_nf
  simp only [applyCustoms, h1]
  rw [(customs_total post o' _ hgq h2).2 _ hne (fun e' h' nm' hn' heq => hlast e' h' (by
    rw [hn', append_noise_inj heq])), h3]

/-- C08 (the part that holds): if every entry of the common section and of the channel has a value and a name, none named `total`,
and no two the same name, the estimate succeeds, every entry has its own column `<name>_noise` holding its value in ppm in every
bin, and the square of the total noise is the relative variance of the detector, the photons and the readings plus the square of
every one of those values. -/
theorem custom_columns_partial (t : Table ℝ) (ch : NoiseChannel) (common : Option CustomNoise)
    (n : ℕ) (sig : String → ℕ → ℝ) (win mx : ℕ → ℝ) (well fw freq dark rn : ℝ)
    (hr : ChannelRows t ch.value n sig win mx) (hd : GoodDetector ch.detector well fw freq dark rn) (hX : -1 ≤ ch.noiseX.getD 0)
    (hgood : ∀ e ∈ entries common ++ entries ch.customNoise, GoodEntry e)
    (hdist : ((entries common ++ entries ch.customNoise).map (·.name)).Nodup) :
    ∃ out ft, estimateNoiseInChannel t ch common = .ok out ∧ out.get? "frameTime" = some (bins n (fun _ => ft)) ∧
      (∀ e ∈ entries common ++ entries ch.customNoise, ∃ v nm, e.value = some v ∧ e.name = some nm ∧
        out.get? (nm ++ "_noise") = some (List.replicate n (fin (v / 1000000)))) ∧
      ∃ tot, out.get? "total_noise" = some tot ∧ ∀ i < n, sig "star_signal_inAperture" i ≠ 0 →
        ∃ T, tot[i]? = some (fin T) ∧ 0 ≤ T ∧ T ^ 2 = Spec.relVariance
          { dark := dark, read := rn, excess := ch.noiseX.getD 0, frame := ft, freq := freq,
            avg := ch.detector.multiaccumM.getD 1 }
          { star := sig "star_signal_inAperture" i, total := totalSignal t sig i, window := win i }
          (values (entries common) ++ values (entries ch.customNoise)) := by
  have hc1 : ∀ e ∈ entries common, GoodEntry e := fun e h => hgood e (by simp [h])
  have hc2 : ∀ e ∈ entries ch.customNoise, GoodEntry e := fun e h => hgood e (by simp [h])
  obtain ⟨out, ft, tot, q1, q2, -, -, -, q3, -, q4⟩ :=
    total_noise_quadrature t ch common n sig win mx well fw freq dark rn hr hd hX hc1 hc2
  refine ⟨out, ft, q1, q2, ?_, tot, q3, fun i hi hs => (q4 i hi).2 hs⟩
  obtain ⟨o1, ft', o5, -, -, -, -, -, e5, -, -, -, e9, -⟩ := estimate_explicit t ch common n sig win mx well fw freq dark rn hr hd
  have hout : out = (applyCustoms n (entries common ++ entries ch.customNoise) o5).1 := by
    rw [q1] at e5
    cases e5
    obtain ⟨⟨tot1, ht1⟩, -⟩ := customs_total (entries common) o5 _ hc1 e9
    rw [tryCustom_entries common hc1 e9, tryCustom_entries ch.customNoise hc2 ht1, customs_append _ _ o5 _ hc1 e9]
  intro e he
  obtain ⟨pre, post, hsplit⟩ := List.append_of_mem he
  obtain ⟨⟨v, hv⟩, nm, hn, -⟩ := hgood e he
  refine ⟨v, nm, hv, hn, ?_⟩
  rw [hout, hsplit]
  refine customs_column (tot := _) (fun e' h' => hgood e' (hsplit ▸ h')) hv hn ?_ e9
  intro e' h' hn'
  rw [hsplit, List.map_append, List.map_cons, List.nodup_append] at hdist
  exact (List.nodup_cons.mp hdist.2.1).1 (List.mem_map.mpr ⟨e', h', by rw [hn', hn]⟩)

/-- `custom_columns_partial` is not empty: a channel with two custom noises and one of the common section. -/
example : ∃ out, estimateNoiseInChannel exTable exCh (some (.single ⟨some 10, some "floor"⟩)) = .ok out ∧
    out.get? "jitter_noise" = some (List.replicate 3 (fin (30 / 1000000))) ∧
    out.get? "gain_noise" = some (List.replicate 3 (fin (50 / 1000000))) ∧
    out.get? "floor_noise" = some (List.replicate 3 (fin (10 / 1000000))) := by
  have hg : ∀ e ∈ entries (some (.single ⟨some 10, some "floor"⟩)) ++ entries exCh.customNoise, GoodEntry e := by
    intro e he
    simp only [entries, exCh, List.cons_append, List.nil_append, List.mem_cons, List.not_mem_nil, or_false] at he
    rcases he with rfl | rfl | rfl <;> exact ⟨⟨_, rfl⟩, _, rfl, by decide⟩
  have hdn : ((entries (some (.single ⟨some 10, some "floor"⟩)) ++ entries exCh.customNoise).map (·.name)).Nodup := by
    simp [entries, exCh]
  obtain ⟨out, ft, h1, -, h2, -⟩ := custom_columns_partial exTable exCh (some (.single ⟨some 10, some "floor"⟩)) 3 exSig
    (fun _ => 4) (fun i => [10, 4, 0].getD i 0) 1000 (1 / 2) 10 1 20 exTable_rows
    (by constructor <;> simp [exCh, exDet]) (by simp [exCh]; norm_num) hg hdn
  refine ⟨out, h1, ?_, ?_, ?_⟩
  · obtain ⟨v, nm, hv, hn, h⟩ := h2 ⟨some 30, some "jitter"⟩ (by simp [entries, exCh])
    cases hv; cases hn; exact h
  · obtain ⟨v, nm, hv, hn, h⟩ := h2 ⟨some 50, some "gain"⟩ (by simp [entries, exCh])
    cases hv; cases hn; exact h
  · obtain ⟨v, nm, hv, hn, h⟩ := h2 ⟨some 10, some "floor"⟩ (by simp [entries, exCh])
    cases hv; cases hn; exact h

end
end ExoRad.Again
