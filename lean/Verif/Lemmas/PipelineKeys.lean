import Verif.Lemmas.Pipeline
import Verif.Props.NoiseTable

/-! Helper lemmas: which columns the steps of an observation write. -/

set_option linter.unusedSectionVars false

namespace ExoRad

/-- The name of a column of noise, or of a time. -/
def NoiseName (q : String) : Prop := substr "_noise" q = true ∨ q = "frameTime" ∨ q = "saturation_time"

def NoiseNames (out : Out) : Prop := ∀ q ∈ out.keys, NoiseName q

theorem noiseName_app (nm : String) : NoiseName (nm ++ "_noise") := .inl (substr_noise nm)

theorem NoiseNames.set {out : Out} (h : NoiseNames out) {k : String} (hk : NoiseName k) (c : List (Num ℝ)) : NoiseNames (out.set k c) := by
  intro q hq
  rcases (Dict.mem_keys_set _ _ _ _).mp hq with rfl | hq
  · exact hk
  · exact h q hq

theorem photonNoiseLoop_names (t : Table ℝ) (name : String) (g : Num ℝ) : ∀ (ks : List String) (out out' : Out), NoiseNames out →
    photonNoiseLoop t name g ks out = .ok out' → NoiseNames out'
  | [], out, out', hs, h => by cases h; exact hs
  | k :: ks, out, out', hs, h => by
    unfold photonNoiseLoop at h
    cases hsel : t.selNum k name with
    | error e => simp [hsel, bind, Except.bind] at h
    | ok s =>
      simp only [hsel, bind, Except.bind] at h
      exact photonNoiseLoop_names t name g ks _ out' (hs.set (noiseName_app k) _) h

theorem applyCustom_names (n : ℕ) (e : CustomEntry) (out : Out) (hs : NoiseNames out) : NoiseNames (applyCustom n e out).1 := by
  unfold applyCustom
  split
  · exact hs
  split
  · exact hs
  simp only
  split
  · exact hs.set (noiseName_app _) _
  · exact (hs.set (noiseName_app _) _).set (.inl (by decide)) _

theorem applyCustoms_names (n : ℕ) : ∀ (es : List CustomEntry) (out : Out), NoiseNames out → NoiseNames (applyCustoms n es out).1
  | [], out, hs => hs
  | e :: es, out, hs => by
    have a1 := applyCustom_names n e out hs
    unfold applyCustoms
    cases h : applyCustom n e out with
    | mk o x =>
      rw [h] at a1
      cases x with
      | some x => exact a1
      | none => exact applyCustoms_names n es o a1

theorem tryCustom_names (n : ℕ) (c : Option CustomNoise) (out : Out) (hs : NoiseNames out) : NoiseNames (tryCustom c n out) := by
  cases c with
  | none => exact hs
  | some c =>
    cases c with
    | single e => exact applyCustom_names n e out hs
    | many es => exact applyCustoms_names n es out hs

theorem estimate_names (t : Table ℝ) (ch : NoiseChannel) (common : Option CustomNoise) (out : Out)
    (h : estimateNoiseInChannel t ch common = .ok out) : NoiseNames out := by
  unfold estimateNoiseInChannel at h
  simp only [bind, Except.bind] at h
  split at h
  · cases h
  rename_i o1 ho1
  have s1 : NoiseNames o1 := by
    unfold frameTimeF at ho1
    simp only [bind, Except.bind] at ho1
    split at ho1
    · cases ho1
    rename_i mx hmx
    split at ho1
    · cases ho1
    rename_i well hw
    have s0 : NoiseNames ([] : Out) := by intro q hq; simp at hq
    have s0' := s0.set (k := "saturation_time") (.inr (.inr rfl)) (mx.map (fun s => Num.fin well / s))
    split at ho1
    · simp only [pure, Except.pure, Except.ok.injEq] at ho1
      subst ho1
      exact s0'.set (.inr (.inl rfl)) _
    · split at ho1
      · cases ho1
      split at ho1
      · cases ho1
      · simp only [pure, Except.pure, Except.ok.injEq] at ho1
        subst ho1
        exact s0'.set (.inr (.inl rfl)) _
  split at h
  · cases h
  split at h
  · cases h
  split at h
  · cases h
  rename_i gains hg
  split at h
  · cases h
  rename_i o2 ho2
  have s2 := photonNoiseLoop_names t ch.value gains.2 (signalKeys t) o1 o2 s1 ho2
  split at h
  · cases h
  rename_i window hwin
  split at h
  · cases h
  rename_i dark hdark
  split at h
  · cases h
  rename_i rn hrn
  split at h
  · cases h
  split at h
  · cases h
  split at h
  · cases h
  split at h
  · cases h
  split at h
  · cases h
  split at h
  · cases h
  simp only [pure, Except.pure, Except.ok.injEq] at h
  subst h
  exact tryCustom_names _ _ _ (tryCustom_names _ _ _ (((s2.set (.inl (by decide)) _).set (.inl (by decide)) _).set (.inl (by decide)) _))

theorem noiseTables_names (t : Table ℝ) : ∀ (chs : List (NoiseChannel × Option CustomNoise)) (ts : List (Table ℝ)),
    noiseTables t chs = .ok ts → ∀ u ∈ ts, ∀ q ∈ u.keys, NoiseName q
  | [], ts, h => by cases h; simp
  | (c, p) :: cs, ts, h => by
    unfold noiseTables at h
    simp only [bind, Except.bind, pure, Except.pure] at h
    split at h
    · cases h
    rename_i o ho
    split at h
    · cases h
    rename_i us hus
    cases h
    intro u hu
    rcases List.mem_cons.mp hu with rfl | hu
    · rw [toTable_keys]
      exact estimate_names _ _ _ _ ho
    · exact noiseTables_names t cs us hus u hu

namespace Table
variable {α : Type} [Field α] [LinearOrder α]

theorem vstackStep_keys {t u r t' u' : Table α} (h : vstackStep t u = .ok (r, t', u')) (c : String) :
    c ∈ r.keys ↔ c ∈ t.keys ∨ c ∈ u.keys := by
  obtain ⟨h1, h2, rfl⟩ := vstackStep_parts h
  obtain ⟨a1, a2, a3⟩ := addMissing_grows _ _ _ h1
  obtain ⟨b1, b2, b3⟩ := addMissing_grows _ _ _ h2
  rw [keys_vstack2]
  constructor
  · intro hc
    rcases b3 c hc with h | h
    · exact .inl h
    · rcases a3 c h with h | h
      · exact .inr h
      · exact .inl h
  · rintro (hc | hc)
    · exact mem_keys_prefix b1 hc
    · exact b2 c (mem_keys_prefix a1 hc)

theorem vstackAcc_keys : ∀ (ts : List (Table α)) (acc r : Table α) (ts' : List (Table α)), vstackAcc acc ts = .ok (r, ts') →
    ∀ c, c ∈ r.keys ↔ c ∈ acc.keys ∨ ∃ t ∈ ts, c ∈ t.keys
  | [], acc, r, ts', h => by cases h; simp
  | t :: ts, acc, r, ts', h => by
    simp only [vstackAcc, bind, Except.bind, pure, Except.pure] at h
    cases h1 : vstackStep acc t with
    | error e => simp [h1] at h
    | ok q =>
      obtain ⟨a, b, d⟩ := q
      simp only [h1] at h
      cases h2 : vstackAcc a ts with
      | error e => simp [h2] at h
      | ok q =>
        obtain ⟨r', us⟩ := q
        simp only [h2, Except.ok.injEq, Prod.mk.injEq] at h
        obtain ⟨rfl, rfl⟩ := h
        intro c
        rw [vstackAcc_keys ts a r' us h2, vstackStep_keys h1]
        simp only [List.mem_cons, exists_eq_or_imp]
        tauto

/-- A column of the stack comes from one of the tables, and a column all the tables have is in the stack. -/
theorem vstackTables_keys : ∀ (ts : List (Table α)) (r : Table α) (ts' : List (Table α)), vstackTables ts = .ok (some r, ts') →
    ∀ c, (c ∈ r.keys → ∃ t ∈ ts, c ∈ t.keys) ∧ ((∀ t ∈ ts, c ∈ t.keys) → c ∈ r.keys)
  | [], r, ts', h => by cases h
  | [t], r, ts', h => by
    by_cases h0 : t.rows = 0 <;> simp only [vstackTables, h0, if_true, if_false, Except.ok.injEq, Prod.mk.injEq,
      Option.some.injEq] at h <;> obtain ⟨rfl, rfl⟩ := h <;> simp
  | t :: u :: us, r, ts', h => by
    by_cases h0 : t.rows = 0
    · rw [vstackTables] at h
      simp only [h0, if_true, bind, Except.bind, pure, Except.pure] at h
      cases h1 : vstackTables (u :: us) with
      | error e => simp [h1] at h
      | ok q =>
        obtain ⟨r1, us'⟩ := q
        simp only [h1, Except.ok.injEq, Prod.mk.injEq] at h
        obtain ⟨rfl, rfl⟩ := h
        intro c
        obtain ⟨a, b⟩ := vstackTables_keys (u :: us) r us' h1 c
        refine ⟨fun hc => ?_, fun hc => b (fun z hz => hc z (List.mem_cons_of_mem _ hz))⟩
        obtain ⟨z, hz, hcz⟩ := a hc
        exact ⟨z, List.mem_cons_of_mem _ hz, hcz⟩
    · obtain ⟨a, t', u', r', us', h1, h2, he, rfl⟩ := vstackTables_two h0 h
      simp only [Option.some.injEq] at he
      subst he
      intro c
      rw [vstackAcc_keys us a r us' h2, vstackStep_keys h1]
      simp only [List.mem_cons, exists_eq_or_imp, forall_eq_or_imp]
      tauto

theorem mem_keys_update (old new : Table α) (c : String) : c ∈ (update old new).keys ↔ c ∈ old.keys ∨ c ∈ new.keys := by
  rw [keys_update, List.mem_append, List.mem_filter]
  by_cases h : c ∈ new.keys
  · simp [h]
  · simp [h, (Dict.has_eq_false_iff _ _).mpr h]

end Table

/-- The columns of a table after the noise estimate. -/
theorem estimateNoise_keys (t : Table ℝ) (chs : List (NoiseChannel × Option CustomNoise)) (r : Table ℝ)
    (h : estimateNoise t chs = .ok r) : (∀ c ∈ t.keys, c ∈ r.keys) ∧ ∀ c ∈ r.keys, c ∈ t.keys ∨ c = "MaxSignal_inPixel" ∨ NoiseName c := by
  unfold estimateNoise Table.estimateMaxSignal at h
  simp only [bind, Except.bind, pure, Except.pure] at h
  split at h
  · cases h
  rename_i t1 ht1
  split at ht1
  · cases ht1
  split at ht1
  · cases ht1
  cases ht1
  split at h
  · cases h
  rename_i ts hts
  split at h
  · cases h
  rename_i q hq
  obtain ⟨r1, us⟩ := q
  simp only at h
  split at h
  · cases h
  rename_i r2
  cases h
  refine ⟨fun c hc => (Table.mem_keys_update _ _ _).mpr (.inl ((Table.mem_keys_update _ _ _).mpr (.inl hc))), ?_⟩
  intro c hc
  rcases (Table.mem_keys_update _ _ _).mp hc with hc | hc
  · rcases (Table.mem_keys_update _ _ _).mp hc with hc | hc
    · exact .inl hc
    · exact .inr (.inl (by simpa using hc))
  · obtain ⟨u, hu, hcu⟩ := (Table.vstackTables_keys ts r2 us hq c).1 hc
    exact .inr (.inr (noiseTables_names _ _ _ hts u hu c hcu))

end ExoRad

namespace ExoRad.Pipeline
open Table

theorem prepareTarget_ok {s s' : St} (h : prepareTarget s = (s', .ok ())) :
    ∃ r tabs, vstackTables s.tabs = .ok (some r, tabs) ∧ s' = ⟨tabs, { s.target with table := some r }⟩ := by
  unfold prepareTarget at h
  split at h
  · simp at h
  · simp at h
  · rename_i r tabs hr
    simp only [Prod.mk.injEq, and_true] at h
    exact ⟨r, tabs, hr, h.symm⟩

theorem propagateForeground_ok {chs : List Channel} {s s' : St} (h : propagateForeground chs s = (s', .ok ())) :
    ∃ ts n us old, Source.mapE (channelForeground s.target.sky) chs = .ok ts ∧ vstackTables ts = .ok (some n, us) ∧
      s.target.table = some old ∧ s' = ⟨removeShared s.tabs n, { s.target with table := some (update old n) }⟩ := by
  unfold propagateForeground at h
  split at h
  · simp at h
  rename_i ts hts
  split at h
  · simp at h
  rename_i new us hn
  split at h
  · simp at h
  rename_i t n hu
  unfold updateWith at hu
  split at hu
  · rename_i old n' ho
    cases hu
    simp only [Prod.mk.injEq, and_true] at h
    exact ⟨ts, n, us, old, hts, hn, ho, h.symm⟩
  · cases hu

theorem loadSource_ok {w : World} {p : Payload} {s s' : St} (h : loadSource w p s = (s', .ok ())) :
    ∃ b, s' = { s with target := { s.target with built := some b } } := by
  unfold loadSource at h
  split at h
  · simp at h
  split at h
  · simp at h
  · rename_i b _
    simp only [Prod.mk.injEq] at h
    exact ⟨b, h.1.symm⟩

theorem propagateTarget_ok {chs : List Channel} {s s' : St} (h : propagateTarget chs s = (s', .ok ())) :
    ∃ b tabs ts n us old, s.target.built = some b ∧ propagateAll b.sed s.target.sky.transmission chs s.tabs = (tabs, .ok ts) ∧
      vstackTables ts = .ok (some n, us) ∧ s.target.table = some old ∧
      s' = ⟨tabs, { s.target with table := some (update old n) }⟩ := by
  unfold propagateTarget at h
  split at h
  · simp at h
  rename_i b hb
  split at h
  · simp at h
  rename_i tabs ts hp
  split at h
  · simp at h
  rename_i new us hn
  split at h
  · simp at h
  rename_i t n hu
  unfold updateWith at hu
  split at hu
  · rename_i old n' ho
    cases hu
    simp only [Prod.mk.injEq, and_true] at h
    exact ⟨b, tabs, ts, n, us, old, hb, hp, hn, ho, h.symm⟩
  · cases hu

theorem noiseStep_ok {chs : List Channel} {s s' : St} (h : noiseStep chs s = (s', .ok ())) :
    ∃ old r, s.target.table = some old ∧ estimateNoise old (chs.map (fun c => (c.noise, c.common))) = .ok r ∧
      s' = { s with target := { s.target with table := some r } } := by
  unfold noiseStep at h
  split at h
  · simp at h
  rename_i t ht
  split at h
  · simp at h
  · rename_i r hr
    simp only [Prod.mk.injEq, and_true] at h
    exact ⟨t, r, ht, hr, h.symm⟩

theorem estimateForegrounds_ok {w : World} {sec : Foreground.Section ℝ} {s s' : St} (h : estimateForegrounds w sec s = (s', .ok ())) :
    ∃ sky, Foreground.estimateForegrounds w.consts.B w.maps w.skyGrid sec s.target.sky = (sky, .ok ()) ∧
      s' = { s with target := { s.target with sky := sky } } := by
  unfold estimateForegrounds at h
  revert h
  cases Foreground.estimateForegrounds w.consts.B w.maps w.skyGrid sec s.target.sky with
  | mk sky r =>
    intro h
    simp only [Prod.mk.injEq] at h
    exact ⟨sky, by rw [h.2], h.1.symm⟩

theorem removeShared_length (tabs : List (Table ℝ)) (n : Table ℝ) : (removeShared tabs n).length = tabs.length := by
  unfold removeShared
  split
  · split
    · rfl
    · rename_i t ht
      have : tabs ≠ [] := by rintro rfl; simp at ht
      have := List.length_pos_of_ne_nil this
      simp
      omega
  · rfl

theorem channelForeground_not_sky {sky : Foreground.Sky ℝ} {ch : Channel} {n : Table ℝ} (h : channelForeground sky ch = .ok n) :
    "sky TR" ∉ n.keys := by
  unfold channelForeground at h
  cases hp : Foreground.propagate ch.diffuse ch.inst.qe ch.inst.tr sky with
  | error e => simp [hp] at h
  | ok d =>
    simp only [hp, Except.ok.injEq] at h
    subst h
    unfold Foreground.propagate at hp
    split at hp
    · cases hp
    · rw [keys_foregroundTable, propagateLoop_keys _ _ _ _ _ _ hp]
      rintro (h | ⟨k, _, h | h⟩)
      · simp at h
      all_goals
        have := congrArg (fun s : String => s.toList.reverse.head?) h
        simp [String.toList_append] at this

theorem propagateAll_ok (sed : Rebin.Signal ℝ) (sky : Option (Rebin.Signal ℝ)) : ∀ (chs : List Channel) (tabs tabs' ts : List (Table ℝ)),
    propagateAll sed sky chs tabs = (tabs', .ok ts) →
    (∀ u ∈ ts, "sky TR" ∉ u.keys) ∧
    (sky.isSome = true → tabs.length = chs.length → ∀ u ∈ tabs', "sky TR" ∈ u.keys)
  | ch :: chs, tab :: tabs, tabs', ts, h => by
    unfold propagateAll at h
    cases hp : propagateIn ch sed sky tab with
    | mk tab' r =>
      simp only [hp] at h
      cases r with
      | error e => simp at h
      | ok t =>
        simp only at h
        cases hq : propagateAll sed sky chs tabs with
        | mk tabs1 r1 =>
          simp only [hq] at h
          cases r1 with
          | error e => simp at h
          | ok ts1 =>
            simp only [Prod.mk.injEq, Except.ok.injEq] at h
            obtain ⟨rfl, rfl⟩ := h
            obtain ⟨i1, i2⟩ := propagateAll_ok sed sky chs tabs tabs1 ts1 hq
            unfold propagateIn at hp
            simp only at hp
            cases hc : channelTarget ch sed sky with
            | error e => simp [hc] at hp
            | ok o =>
              simp only [hc, Prod.mk.injEq, Except.ok.injEq] at hp
              obtain ⟨rfl, rfl⟩ := hp
              constructor
              · intro u hu
                rcases List.mem_cons.mp hu with rfl | hu
                · unfold targetTable
                  split <;> simp
                · exact i1 u hu
              · intro hs hl u hu
                rcases List.mem_cons.mp hu with rfl | hu
                · cases sky with
                  | none => simp at hs
                  | some s =>
                    obtain ⟨c, s', _, hm⟩ := markSky_ok hc
                    rw [hm, Dict.mem_keys_set]
                    exact .inl rfl
                · exact i2 hs (by simpa using hl) u hu
  | [], tabs, tabs', ts, h => by
    unfold propagateAll at h
    simp only [Prod.mk.injEq, Except.ok.injEq] at h
    obtain ⟨rfl, rfl⟩ := h
    refine ⟨by simp, ?_⟩
    intro _ hl u hu
    rw [List.length_nil, List.length_eq_zero_iff] at hl
    subst hl
    simp at hu
  | ch :: chs, [], tabs', ts, h => by
    unfold propagateAll at h
    simp only [Prod.mk.injEq, Except.ok.injEq] at h
    obtain ⟨rfl, rfl⟩ := h
    simp

/-- The column `sky TR` of an observation: it is in the result if all the channel tables had it and not if none had it; after
an observation with a sky transmission all of them have it. -/
theorem observe_sky (w : World) (p : Payload) (sec : Foreground.Section ℝ) (hsec : p.foreground = some sec)
    {tabs tabs' : List (Table ℝ)} {t t' : Target} {s1 s2 s3 s4 s5 : St}
    (h1 : prepareTarget ⟨tabs, t⟩ = (s1, .ok ())) (h2 : estimateForegrounds w sec s1 = (s2, .ok ()))
    (h3 : propagateForeground p.channels s2 = (s3, .ok ())) (h4 : loadSource w p s3 = (s4, .ok ()))
    (h5 : propagateTarget p.channels s4 = (s5, .ok ())) (h6 : noiseStep p.channels s5 = (⟨tabs', t'⟩, .ok ())) :
    ∃ r, t'.table = some r ∧ ((∀ u ∈ tabs, "sky TR" ∉ u.keys) → "sky TR" ∉ r.keys) ∧
      ((∀ u ∈ tabs, "sky TR" ∈ u.keys) → "sky TR" ∈ r.keys) ∧
      (t'.sky.transmission.isSome = true → s4.tabs.length = p.channels.length → ∀ u ∈ tabs', "sky TR" ∈ u.keys) := by
  obtain ⟨r, tabs1, hr, rfl⟩ := prepareTarget_ok h1
  obtain ⟨sky, _, rfl⟩ := estimateForegrounds_ok h2
  obtain ⟨ts, n, us, old, hts, hn, ho, rfl⟩ := propagateForeground_ok h3
  simp only [Option.some.injEq] at ho
  subst ho
  obtain ⟨b, rfl⟩ := loadSource_ok h4
  obtain ⟨b', tabs2, ts2, n2, us2, old2, hb, hp, hn2, ho2, rfl⟩ := propagateTarget_ok h5
  simp only [Option.some.injEq] at ho2 hb
  subst ho2 hb
  obtain ⟨old3, r3, ho3, hr3, h7⟩ := noiseStep_ok h6
  simp only [Option.some.injEq] at ho3
  subst ho3
  simp only [St.mk.injEq] at h7
  obtain ⟨rfl, rfl⟩ := h7
  obtain ⟨q1, q2⟩ := propagateAll_ok _ _ _ _ _ _ hp
  obtain ⟨k1, k2⟩ := estimateNoise_keys _ _ _ hr3
  refine ⟨r3, rfl, ?_, ?_, fun hs hl => q2 hs hl⟩
  · intro hno hc
    rcases k2 _ hc with hc | hc | hc | hc
    · rcases (mem_keys_update _ _ _).mp hc with hc | hc
      · rcases (mem_keys_update _ _ _).mp hc with hc | hc
        · obtain ⟨u, hu, hcu⟩ := (vstackTables_keys _ _ _ hr _).1 hc
          exact hno u hu hcu
        · obtain ⟨u, hu, hcu⟩ := (vstackTables_keys _ _ _ hn _).1 hc
          obtain ⟨ch, _, hch⟩ := (mapE_mem hts).2 u hu
          exact channelForeground_not_sky hch hcu
      · obtain ⟨u, hu, hcu⟩ := (vstackTables_keys _ _ _ hn2 _).1 hc
        exact q1 u hu hcu
    · exact absurd hc (by decide)
    · exact absurd hc (by decide)
    · exact absurd hc (by decide)
  · intro hall
    exact k1 _ ((mem_keys_update _ _ _).mpr (.inl ((mem_keys_update _ _ _).mpr (.inl ((vstackTables_keys _ _ _ hr _).2 hall)))))

end ExoRad.Pipeline
