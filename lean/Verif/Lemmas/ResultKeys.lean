import Verif.Lemmas.PipelineKeys
import Verif.Props.Complete

/-! Helper lemmas: the names of the columns of a result, and that no name occurs twice, whatever was observed before. -/

set_option linter.unusedSectionVars false

namespace ExoRad
open Table

/-- No name twice, and all names as wanted. -/
structure Tidy {β : Type} (S : String → Prop) (d : Dict String β) : Prop where
  nodup : d.keys.Nodup
  names : ∀ k ∈ d.keys, S k

theorem Tidy.nil {β : Type} {S : String → Prop} : Tidy S ([] : Dict String β) := ⟨by simp [Dict.keys], by simp [Dict.keys]⟩

theorem Tidy.set {β : Type} {S : String → Prop} {d : Dict String β} (h : Tidy S d) {k : String} (hk : S k) (v : β) : Tidy S (d.set k v) := by
  refine ⟨Dict.nodup_set _ _ _ h.nodup, ?_⟩
  intro q hq
  rcases (Dict.mem_keys_set _ _ _ _).mp hq with rfl | hq
  · exact hk
  · exact h.names q hq

theorem Tidy.mono {β : Type} {S T : String → Prop} {d : Dict String β} (h : Tidy S d) (hST : ∀ k, S k → T k) : Tidy T d :=
  ⟨h.nodup, fun k hk => hST k (h.names k hk)⟩

theorem Tidy.of_keys {β γ : Type} {S : String → Prop} {d : Dict String β} {e : Dict String γ} (h : Tidy S d) (he : e.keys = d.keys) : Tidy S e :=
  ⟨he ▸ h.nodup, fun k hk => h.names k (he ▸ hk)⟩

theorem Tidy.removeAll {β : Type} {S : String → Prop} {d : Dict String β} (h : Tidy S d) (ks : List String) : Tidy S (d.removeAll ks) := by
  refine ⟨?_, ?_⟩
  · rw [Dict.keys_removeAll]
    exact h.nodup.filter _
  · intro k hk
    rw [Dict.keys_removeAll] at hk
    exact h.names k (List.mem_filter.mp hk).1

namespace Table
variable {α : Type} [Field α] [LinearOrder α] {S : String → Prop}

theorem addMissing_tidy : ∀ (other tab tab' : Table α), (∀ k ∈ other.keys, S k) → Tidy S tab → addMissing other tab = .ok tab' → Tidy S tab'
  | [], tab, tab', _, ht, h => by cases h; exact ht
  | (c, col) :: rest, tab, tab', ho, ht, h => by
    have ho' : ∀ k ∈ Dict.keys rest, S k := fun k hk => ho k (by rw [Dict.keys_cons]; exact List.mem_cons_of_mem _ hk)
    unfold addMissing at h
    split at h
    · exact addMissing_tidy rest tab tab' ho' ht h
    · cases col with
      | nil => cases h
      | cons x xs =>
        simp only [bind, Except.bind] at h
        split at h
        · cases h
        · exact addMissing_tidy rest _ tab' ho' (ht.set (ho c (by rw [Dict.keys_cons]; exact List.mem_cons_self)) _) h

theorem vstackStep_tidy {t u r t' u' : Table α} (h : vstackStep t u = .ok (r, t', u')) (ht : Tidy S t) (hu : Tidy S u) :
    Tidy S r ∧ Tidy S t' ∧ Tidy S u' := by
  obtain ⟨h1, h2, rfl⟩ := vstackStep_parts h
  have a := addMissing_tidy _ _ _ ht.names hu h1
  have b := addMissing_tidy _ _ _ a.names ht h2
  exact ⟨b.of_keys (keys_vstack2 _ _), b, a⟩

theorem vstackAcc_tidy : ∀ (ts : List (Table α)) (acc r : Table α) (ts' : List (Table α)), vstackAcc acc ts = .ok (r, ts') →
    Tidy S acc → (∀ t ∈ ts, Tidy S t) → Tidy S r ∧ ∀ t ∈ ts', Tidy S t
  | [], acc, r, ts', h, ha, _ => by cases h; exact ⟨ha, by simp⟩
  | t :: ts, acc, r, ts', h, ha, ht => by
    simp only [vstackAcc, bind, Except.bind, pure, Except.pure] at h
    cases h1 : vstackStep acc t with
    | error e => simp [h1] at h
    | ok q =>
      obtain ⟨a, b, d⟩ := q
      simp only [h1] at h
      cases h2 : vstackAcc a ts with
      | error e => simp [h2] at h
      | ok q =>
        obtain ⟨r', us⟩ := q
        simp only [h2, Except.ok.injEq, Prod.mk.injEq] at h
        obtain ⟨rfl, rfl⟩ := h
        obtain ⟨i1, _, i3⟩ := vstackStep_tidy h1 ha (ht t (by simp))
        obtain ⟨j1, j2⟩ := vstackAcc_tidy ts a r' us h2 i1 (fun x hx => ht x (by simp [hx]))
        refine ⟨j1, ?_⟩
        intro x hx
        rcases List.mem_cons.mp hx with rfl | hx
        · exact i3
        · exact j2 x hx

theorem vstackTables_tidy : ∀ (ts : List (Table α)) (r : Option (Table α)) (ts' : List (Table α)), vstackTables ts = .ok (r, ts') →
    (∀ t ∈ ts, Tidy S t) → (∀ x, r = some x → Tidy S x) ∧ ∀ t ∈ ts', Tidy S t
  | [], r, ts', h, _ => by cases h; simp
  | [t], r, ts', h, ht => by
    by_cases h0 : t.rows = 0 <;> simp only [vstackTables, h0, if_true, if_false, Except.ok.injEq, Prod.mk.injEq] at h <;>
      obtain ⟨rfl, rfl⟩ := h <;> exact ⟨by simpa using ht t (by simp), by simpa using ht t (by simp)⟩
  | t :: u :: us, r, ts', h, ht => by
    by_cases h0 : t.rows = 0
    · rw [vstackTables] at h
      simp only [h0, if_true, bind, Except.bind, pure, Except.pure] at h
      cases h1 : vstackTables (u :: us) with
      | error e => simp [h1] at h
      | ok q =>
        obtain ⟨r1, us'⟩ := q
        simp only [h1, Except.ok.injEq, Prod.mk.injEq] at h
        obtain ⟨rfl, rfl⟩ := h
        obtain ⟨a, b⟩ := vstackTables_tidy (u :: us) r1 us' h1 (fun x hx => ht x (by simp only [List.mem_cons] at hx ⊢; tauto))
        refine ⟨a, ?_⟩
        intro x hx
        rcases List.mem_cons.mp hx with rfl | hx
        · exact ht _ (by simp)
        · exact b x hx
    · obtain ⟨a, t', u', r', us', h1, h2, rfl, rfl⟩ := vstackTables_two h0 h
      obtain ⟨i1, i2, i3⟩ := vstackStep_tidy h1 (ht t (by simp)) (ht u (by simp))
      obtain ⟨j1, j2⟩ := vstackAcc_tidy us a r' us' h2 i1 (fun x hx => ht x (by simp [hx]))
      refine ⟨by simpa using j1, ?_⟩
      intro x hx
      rcases List.mem_cons.mp hx with rfl | hx
      · exact i2
      · rcases List.mem_cons.mp hx with rfl | hx
        · exact i3
        · exact j2 x hx

theorem update_tidy {old new : Table α} (ho : Tidy S old) (hn : Tidy S new) : Tidy S (update old new) := by
  obtain ⟨_, a, b, _⟩ := update_spec old new ho.nodup hn.nodup
  exact ⟨b, fun k hk => ((a k).mp hk).elim (ho.names k) (hn.names k)⟩

end Table

/-! ## The noise -/

/-- The names of custom noises. -/
def customNames (c : Option CustomNoise) : List String :=
  match c with
  | none => []
  | some (.single e) => e.name.toList
  | some (.many es) => es.filterMap CustomEntry.name

section
variable {T : String → Prop}

/-- The columns the noise estimate has in any case. -/
def fixedNoise : List String := ["saturation_time", "frameTime", "darkcurrent_noise", "read_noise", "total_noise", "MaxSignal_inPixel"]

theorem photonNoiseLoop_tidy (t : Table ℝ) (name : String) (g : Num ℝ) : ∀ (ks : List String) (out out' : Out), (∀ k ∈ ks, T (k ++ "_noise")) → Tidy T out →
    photonNoiseLoop t name g ks out = .ok out' → Tidy T out'
  | [], out, out', _, hs, h => by cases h; exact hs
  | k :: ks, out, out', hk, hs, h => by
    unfold photonNoiseLoop at h
    cases hsel : t.selNum k name with
    | error e => simp [hsel, bind, Except.bind] at h
    | ok s =>
      simp only [hsel, bind, Except.bind] at h
      exact photonNoiseLoop_tidy t name g ks _ out' (fun x hx => hk x (by simp [hx])) (hs.set (hk k (by simp)) _) h

theorem applyCustom_tidy (hT : T "total_noise") (n : ℕ) (e : CustomEntry) (he : ∀ nm, e.name = some nm → T (nm ++ "_noise")) (out : Out) (hs : Tidy T out) :
    Tidy T (applyCustom n e out).1 := by
  unfold applyCustom
  split
  · exact hs
  split
  · exact hs
  rename_i nm hnm
  simp only
  split
  · exact hs.set (he nm hnm) _
  · exact (hs.set (he nm hnm) _).set hT _

theorem applyCustoms_tidy (hT : T "total_noise") (n : ℕ) : ∀ (es : List CustomEntry) (out : Out), (∀ e ∈ es, ∀ nm, e.name = some nm → T (nm ++ "_noise")) → Tidy T out →
    Tidy T (applyCustoms n es out).1
  | [], out, _, hs => hs
  | e :: es, out, he, hs => by
    have a1 := applyCustom_tidy hT n e (he e (by simp)) out hs
    unfold applyCustoms
    cases h : applyCustom n e out with
    | mk o x =>
      rw [h] at a1
      cases x with
      | some x => exact a1
      | none => exact applyCustoms_tidy hT n es o (fun x hx => he x (by simp [hx])) a1

theorem tryCustom_tidy (hT : T "total_noise") (n : ℕ) (c : Option CustomNoise) (hc : ∀ nm ∈ customNames c, T (nm ++ "_noise")) (out : Out) (hs : Tidy T out) :
    Tidy T (tryCustom c n out) := by
  cases c with
  | none => exact hs
  | some c =>
    cases c with
    | single e => exact applyCustom_tidy hT n e (fun nm h => hc nm (by simp [customNames, h])) out hs
    | many es => exact applyCustoms_tidy hT n es out (fun e he nm h => hc nm (List.mem_filterMap.mpr ⟨e, he, h⟩)) hs

theorem estimate_tidy (hfix : ∀ k ∈ fixedNoise, T k) (t : Table ℝ) (hk : ∀ k ∈ signalKeys t, T (k ++ "_noise")) (ch : NoiseChannel) (common : Option CustomNoise)
    (hch : ∀ nm ∈ customNames ch.customNoise, T (nm ++ "_noise")) (hco : ∀ nm ∈ customNames common, T (nm ++ "_noise")) (out : Out)
    (h : estimateNoiseInChannel t ch common = .ok out) : Tidy T out := by
  have hf : ∀ k, fixedNoise.contains k = true → T k := fun k hk => hfix k (by simpa using hk)
  unfold estimateNoiseInChannel at h
  simp only [bind, Except.bind] at h
  split at h
  · cases h
  rename_i o1 ho1
  have s1 : Tidy T o1 := by
    unfold frameTimeF at ho1
    simp only [bind, Except.bind] at ho1
    split at ho1
    · cases ho1
    rename_i mx hmx
    split at ho1
    · cases ho1
    rename_i well hw
    have s0 : Tidy T ([] : Out) := Tidy.nil
    have s0' := s0.set (k := "saturation_time") (hf _ (by decide)) (mx.map (fun s => Num.fin well / s))
    split at ho1
    · simp only [pure, Except.pure, Except.ok.injEq] at ho1
      subst ho1
      exact s0'.set (hf _ (by decide)) _
    · split at ho1
      · cases ho1
      split at ho1
      · cases ho1
      · simp only [pure, Except.pure, Except.ok.injEq] at ho1
        subst ho1
        exact s0'.set (hf _ (by decide)) _
  split at h
  · cases h
  split at h
  · cases h
  split at h
  · cases h
  rename_i gains hg
  split at h
  · cases h
  rename_i o2 ho2
  have s2 := photonNoiseLoop_tidy t ch.value gains.2 (signalKeys t) o1 o2 hk s1 ho2
  split at h
  · cases h
  rename_i window hwin
  split at h
  · cases h
  rename_i dark hdark
  split at h
  · cases h
  rename_i rn hrn
  split at h
  · cases h
  split at h
  · cases h
  split at h
  · cases h
  split at h
  · cases h
  split at h
  · cases h
  split at h
  · cases h
  simp only [pure, Except.pure, Except.ok.injEq] at h
  subst h
  refine tryCustom_tidy (hf _ (by decide)) _ _ ?_ _ (tryCustom_tidy (hf _ (by decide)) _ _ ?_ _
    (((s2.set (hf _ (by decide)) _).set (hf _ (by decide)) _).set (hf _ (by decide)) _)) <;> assumption

theorem noiseTables_tidy (hfix : ∀ k ∈ fixedNoise, T k) (t : Table ℝ) (hk : ∀ k ∈ signalKeys t, T (k ++ "_noise")) : ∀ (chs : List (NoiseChannel × Option CustomNoise))
    (ts : List (Table ℝ)), (∀ c ∈ chs, ∀ nm ∈ customNames c.1.customNoise ++ customNames c.2, T (nm ++ "_noise")) → noiseTables t chs = .ok ts → ∀ u ∈ ts, Tidy T u
  | [], ts, _, h => by cases h; simp
  | (c, p) :: cs, ts, hc, h => by
    unfold noiseTables at h
    simp only [bind, Except.bind, pure, Except.pure] at h
    split at h
    · cases h
    rename_i o ho
    split at h
    · cases h
    rename_i us hus
    cases h
    intro u hu
    rcases List.mem_cons.mp hu with rfl | hu
    · exact (estimate_tidy hfix _ hk _ _ (fun nm h => hc _ List.mem_cons_self nm (List.mem_append_left _ h))
        (fun nm h => hc _ List.mem_cons_self nm (List.mem_append_right _ h)) _ ho).of_keys (toTable_keys _)
    · exact noiseTables_tidy hfix t hk cs us (fun x hx => hc x (by simp [hx])) hus u hu

theorem estimateNoise_tidy (hfix : ∀ k ∈ fixedNoise, T k) {t : Table ℝ} (ht : Tidy T t) (hk : ∀ k ∈ t.keys, T (k ++ "_noise")) (hm : T ("MaxSignal_inPixel" ++ "_noise"))
    {chs : List (NoiseChannel × Option CustomNoise)} (hc : ∀ c ∈ chs, ∀ nm ∈ customNames c.1.customNoise ++ customNames c.2, T (nm ++ "_noise")) {r : Table ℝ}
    (h : estimateNoise t chs = .ok r) : Tidy T r := by
  unfold estimateNoise Table.estimateMaxSignal at h
  simp only [bind, Except.bind, pure, Except.pure] at h
  split at h
  · cases h
  rename_i t1 ht1
  split at ht1
  · cases ht1
  split at ht1
  · cases ht1
  cases ht1
  split at h
  · cases h
  rename_i ts hts
  split at h
  · cases h
  rename_i q hq
  obtain ⟨r1, us⟩ := q
  simp only at h
  split at h
  · cases h
  rename_i r2
  cases h
  have h1 : Tidy T (update t [("MaxSignal_inPixel", ‹List (Num ℝ)›.map Cell.num)]) := update_tidy ht ⟨by simp [Dict.keys], by
    intro k hk
    simp only [Dict.keys, List.map_cons, List.map_nil, List.mem_singleton] at hk
    subst hk
    exact hfix _ (by simp [fixedNoise])⟩
  have h2 := noiseTables_tidy hfix _ (by
    intro k hk'
    have hk2 := (List.mem_filter.mp hk').1
    rcases (Table.mem_keys_update _ _ _).mp hk2 with h | h
    · exact hk k h
    · simp only [Dict.keys, List.map_cons, List.map_nil, List.mem_singleton] at h
      subst h
      exact hm) chs ts hc hts
  exact update_tidy h1 ((Table.vstackTables_tidy ts _ us hq h2).1 _ rfl)

end
end ExoRad

namespace ExoRad.Pipeline
open Table
variable {S : String → Prop}

/-! ## The steps before the noise -/

/-- All tables of a state. -/
structure TidySt (S : String → Prop) (s : St) : Prop where
  tabs : ∀ u ∈ s.tabs, Tidy S u
  target : ∀ r, s.target.table = some r → Tidy S r

/-- Columns named after the foregrounds that were estimated. -/
def SkyNames (S : String → Prop) (sky : Foreground.Sky ℝ) : Prop :=
  ∀ k ∈ (sky.foreground.getD []).keys, S (k ++ "_signal") ∧ S (k ++ "_MaxSignal_inPixel")

theorem SkyNames.add {sky : Foreground.Sky ℝ} (h : SkyNames S sky) {k : String} (hk : S (k ++ "_signal") ∧ S (k ++ "_MaxSignal_inPixel")) (f : Foreground.Filter ℝ) :
    SkyNames S (Foreground.addForeground sky k f) := by
  intro q hq
  have : q ∈ (Dict.set (sky.foreground.getD []) k f).keys := hq
  rcases (Dict.mem_keys_set _ _ _ _).mp this with rfl | h'
  · exact hk
  · exact h q h'

theorem estimateOne_skyNames {B : ℝ → ℝ → ℝ} {m : Foreground.MapFiles ℝ} {wl : List ℝ} {k : String} {d : Foreground.Descr ℝ} {sky : Foreground.Sky ℝ} (h : SkyNames S sky)
    (hk : S (Foreground.nameOf (k, d) ++ "_signal") ∧ S (Foreground.nameOf (k, d) ++ "_MaxSignal_inPixel")) :
    SkyNames S (Foreground.estimateOne B m wl k d sky).1 := by
  unfold Foreground.estimateOne
  unfold Foreground.nameOf at hk
  simp only at hk
  split
  · rename_i e
    rw [if_pos e] at hk
    unfold Foreground.estimateZodi
    split
    · exact h
    · split
      · exact h
      · exact h.add hk _
  · rename_i e
    rw [if_neg e] at hk
    unfold Foreground.estimateForeground
    split
    · exact h
    · rename_i f _
      have := h.add hk f
      unfold Foreground.attenuate
      split
      · exact this
      · split <;> exact this

theorem estimateLoop_skyNames {B : ℝ → ℝ → ℝ} {m : Foreground.MapFiles ℝ} {wl : List ℝ} : ∀ (ds : Dict String (Foreground.Descr ℝ)) (sky : Foreground.Sky ℝ), SkyNames S sky →
    (∀ kd ∈ ds, S (Foreground.nameOf kd ++ "_signal") ∧ S (Foreground.nameOf kd ++ "_MaxSignal_inPixel")) → SkyNames S (Foreground.estimateLoop B m wl ds sky).1
  | [], sky, h, _ => h
  | (k, d) :: ds, sky, h, hk => by
    have h1 := estimateOne_skyNames (B := B) (m := m) (wl := wl) h (hk (k, d) (by simp))
    unfold Foreground.estimateLoop
    revert h1
    generalize Foreground.estimateOne B m wl k d sky = o
    intro h1
    obtain ⟨s, r⟩ := o
    cases r with
    | error e => exact h1
    | ok u => exact estimateLoop_skyNames ds s h1 (fun x hx => hk x (by simp [hx]))

theorem propagateLoop_tidy {ch : Diffuse.Channel ℝ} : ∀ (fs : List (String × Foreground.Filter ℝ)) (qe tr : Rebin.Signal ℝ) (out out' : Dict String (List ℝ)),
    (∀ kf ∈ fs, S (kf.1 ++ "_signal") ∧ S (kf.1 ++ "_MaxSignal_inPixel")) → Tidy S out → Foreground.propagateLoop ch fs qe tr out = .ok out' → Tidy S out'
  | [], qe, tr, out, out', _, ho, h => by cases h; exact ho
  | (k, f) :: fs, qe, tr, out, out', hk, ho, h => by
    unfold Foreground.propagateLoop at h
    split at h
    · cases h
    split at h
    · cases h
    split at h
    · cases h
    · obtain ⟨a, b⟩ := hk (k, f) (by simp)
      exact propagateLoop_tidy fs _ _ _ out' (fun x hx => hk x (by simp [hx])) ((ho.set a _).set b _) h

theorem channelForeground_tidy {sky : Foreground.Sky ℝ} (h : SkyNames S sky) {ch : Channel} {n : Table ℝ} (hn : channelForeground sky ch = .ok n) : Tidy S n := by
  unfold channelForeground at hn
  split at hn
  · cases hn
  · rename_i d hd
    cases hn
    unfold Foreground.propagate at hd
    split at hd
    · cases hd
    · rename_i fs hfs
      refine (propagateLoop_tidy _ _ _ _ _ ?_ Tidy.nil hd).of_keys (keys_foregroundTable _)
      intro kf hkf
      refine h kf.1 ?_
      rw [hfs]
      exact List.mem_map.mpr ⟨kf, List.mem_reverse.mp hkf, rfl⟩

theorem removeShared_tidy {tabs : List (Table ℝ)} (h : ∀ u ∈ tabs, Tidy S u) (n : Table ℝ) : ∀ u ∈ removeShared tabs n, Tidy S u := by
  unfold removeShared
  split
  · split
    · exact h
    · rename_i t ht
      intro u hu
      rcases List.mem_append.mp hu with hu | hu
      · exact h u (List.dropLast_subset _ hu)
      · rw [List.mem_singleton.mp hu]
        exact (h t (List.mem_of_getLast? ht)).removeAll _
  · exact h

theorem markSky_tidy (hs : S "sky TR") (ch : Instrument.Chan ℝ) (wl : List ℝ) (sky : Option (Rebin.Signal ℝ)) {tab : Table ℝ} (h : Tidy S tab) : Tidy S (markSky ch wl sky tab) := by
  unfold markSky
  split
  · split
    · exact h.set hs _
    · exact h
  · exact h

theorem targetTable_tidy (hs : ∀ k ∈ starNames, S k) (fg : Option (List (Cell ℝ))) (o : Instrument.TargetOut ℝ) : Tidy S (targetTable fg o) := by
  have hk := targetTable_keys fg o
  refine ⟨?_, ?_⟩
  · rw [hk]; cases fg <;> simp
  · intro k h
    rw [hk] at h
    refine hs k ?_
    revert h
    cases fg <;> simp [starNames] <;> tauto

theorem propagateAll_tidy (hs : S "sky TR") (hn : ∀ k ∈ starNames, S k) (sed : Rebin.Signal ℝ) (sky : Option (Rebin.Signal ℝ)) : ∀ (chs : List Channel) (tabs : List (Table ℝ)),
    (∀ u ∈ tabs, Tidy S u) → (∀ u ∈ (propagateAll sed sky chs tabs).1, Tidy S u) ∧ ∀ ts, (propagateAll sed sky chs tabs).2 = .ok ts → ∀ u ∈ ts, Tidy S u
  | [], tabs, h => by
    unfold propagateAll
    exact ⟨h, by rintro ts e; cases e; simp⟩
  | ch :: chs, [], h => by
    unfold propagateAll
    exact ⟨h, by rintro ts e; cases e; simp⟩
  | ch :: chs, tab :: tabs, h => by
    have hp : Tidy S (propagateIn ch sed sky tab).1 ∧ ∀ t, (propagateIn ch sed sky tab).2 = .ok t → Tidy S t := by
      unfold propagateIn
      simp only
      split
      · exact ⟨markSky_tidy hs _ _ _ (h tab (by simp)), by rintro t e; cases e⟩
      · exact ⟨markSky_tidy hs _ _ _ (h tab (by simp)), by rintro t e; cases e; exact targetTable_tidy hn _ _⟩
    obtain ⟨i1, i2⟩ := propagateAll_tidy hs hn sed sky chs tabs (fun u hu => h u (by simp [hu]))
    unfold propagateAll
    revert hp i1 i2
    generalize propagateIn ch sed sky tab = o
    generalize propagateAll sed sky chs tabs = q
    intro hp i1 i2
    obtain ⟨tab', r⟩ := o
    obtain ⟨tabs1, r1⟩ := q
    cases r with
    | error e =>
      refine ⟨?_, by rintro ts e; cases e⟩
      intro u hu
      rcases List.mem_cons.mp hu with rfl | hu
      · exact hp.1
      · exact h u (by simp [hu])
    | ok t =>
      have hcons : ∀ u ∈ tab' :: tabs1, Tidy S u := by
        intro u hu
        rcases List.mem_cons.mp hu with rfl | hu
        · exact hp.1
        · exact i1 u hu
      cases r1 with
      | error e => exact ⟨hcons, by rintro ts e; cases e⟩
      | ok ts1 =>
        refine ⟨hcons, ?_⟩
        rintro ts e
        cases e
        intro u hu
        rcases List.mem_cons.mp hu with rfl | hu
        · exact hp.2 _ rfl
        · exact i2 ts1 rfl u hu

/-! ## An observation -/

/-- Names that all the columns of a payload's results have: `S` before, `T` after the noise was estimated. -/
structure ResultNames (p : Payload) (S T : String → Prop) : Prop where
  sky : S "sky TR"
  star : ∀ k ∈ starNames, S k
  foreground : ∀ k ∈ fgColumns p, S k
  weaker : ∀ k, S k → T k
  noise : ∀ k, S k → T (k ++ "_noise")
  max : T ("MaxSignal_inPixel" ++ "_noise")
  fixed : ∀ k ∈ fixedNoise, T k
  custom : ∀ ch ∈ p.channels, ∀ nm ∈ customNames ch.noise.customNoise ++ customNames ch.common, T (nm ++ "_noise")

/-- The tables of the channels stay tidy, and the result is tidy. -/
theorem observe_tidy {p : Payload} {S T : String → Prop} (hn : ResultNames p S T) (w : World) {tabs : List (Table ℝ)} (h : ∀ u ∈ tabs, Tidy S u) {t : Target} (hf : Fresh t) :
    (∀ u ∈ (observe w p tabs t).1, Tidy S u) ∧ ∀ t' r, (observe w p tabs t).2 = .ok t' → t'.table = some r → Tidy T r := by
  -- one step after the other
  have step : ∀ (P Q : St → Prop) (f : Step) (fs : List Step), (∀ s, P s → (∀ u ∈ (f s).1.tabs, Tidy S u) ∧ ((f s).2 = .ok () → Q (f s).1)) →
      (∀ s, Q s → (∀ u ∈ (runSteps fs s).1.tabs, Tidy S u) ∧ ∀ r, (runSteps fs s).2 = .ok () → (runSteps fs s).1.target.table = some r → Tidy T r) →
      ∀ s, P s → (∀ u ∈ (runSteps (f :: fs) s).1.tabs, Tidy S u) ∧ ∀ r, (runSteps (f :: fs) s).2 = .ok () → (runSteps (f :: fs) s).1.target.table = some r → Tidy T r := by
    intro P Q f fs h1 h2 s hs
    obtain ⟨a, b⟩ := h1 s hs
    unfold runSteps
    revert a b
    generalize f s = o
    intro a b
    obtain ⟨s', r⟩ := o
    cases r with
    | error e => exact ⟨a, by rintro r e; cases e⟩
    | ok u => exact h2 s' (b rfl)
  let Q : St → Prop := fun s => TidySt S s ∧ SkyNames S s.target.sky
  have noise : ∀ s, Q s → (∀ u ∈ (runSteps [noiseStep p.channels] s).1.tabs, Tidy S u) ∧
      ∀ r, (runSteps [noiseStep p.channels] s).2 = .ok () → (runSteps [noiseStep p.channels] s).1.target.table = some r → Tidy T r := by
    refine step Q (fun s => (∀ u ∈ s.tabs, Tidy S u) ∧ ∀ r, s.target.table = some r → Tidy T r) _ _ ?_ ?_
    · intro s hs
      unfold noiseStep
      split
      · exact ⟨hs.1.tabs, by simp⟩
      · rename_i t0 ht0
        split
        · exact ⟨hs.1.tabs, by simp⟩
        · rename_i r hr
          refine ⟨hs.1.tabs, fun _ => ⟨hs.1.tabs, ?_⟩⟩
          rintro r' e
          simp only [Option.some.injEq] at e
          subst e
          have ht := hs.1.target t0 ht0
          refine estimateNoise_tidy hn.fixed (ht.mono hn.weaker) (fun k hk => hn.noise k (ht.names k hk)) hn.max ?_ hr
          intro c hc
          obtain ⟨ch, hch, rfl⟩ := List.mem_map.mp hc
          exact hn.custom ch hch
    · intro s hs
      exact ⟨hs.1, fun r _ hr => hs.2 r hr⟩
  have target : ∀ s, Q s → _ := step Q Q (propagateTarget p.channels) _ (by
    intro s hs
    unfold propagateTarget
    split
    · exact ⟨hs.1.tabs, by simp⟩
    · rename_i b hb
      obtain ⟨i1, i2⟩ := propagateAll_tidy hn.sky hn.star b.sed s.target.sky.transmission p.channels s.tabs hs.1.tabs
      revert i1 i2
      generalize propagateAll b.sed s.target.sky.transmission p.channels s.tabs = o
      intro i1 i2
      obtain ⟨tabs', r⟩ := o
      cases r with
      | error e => exact ⟨i1, by simp⟩
      | ok ts =>
        simp only
        split
        · exact ⟨i1, by simp⟩
        · rename_i new us hv
          obtain ⟨v1, _⟩ := vstackTables_tidy ts new us hv (i2 ts rfl)
          unfold updateWith
          cases ht : s.target.table with
          | none => exact ⟨i1, by simp⟩
          | some old =>
            cases new with
            | none => exact ⟨i1, by simp⟩
            | some n =>
              refine ⟨i1, fun _ => ⟨⟨i1, ?_⟩, hs.2⟩⟩
              rintro r e
              simp only [Option.some.injEq] at e
              subst e
              exact update_tidy (hs.1.target old ht) (v1 n rfl)) noise
  have source : ∀ s, Q s → _ := step Q Q (loadSource w p) _ (by
    intro s hs
    unfold loadSource
    split
    · exact ⟨hs.1.tabs, by simp⟩
    · split
      · exact ⟨hs.1.tabs, by simp⟩
      · exact ⟨hs.1.tabs, fun _ => ⟨⟨hs.1.tabs, hs.1.target⟩, hs.2⟩⟩) target
  have fore : ∀ s, Q s → _ := step Q Q (propagateForeground p.channels) _ (by
    intro s hs
    unfold propagateForeground
    split
    · exact ⟨hs.1.tabs, by simp⟩
    · rename_i ts hts
      split
      · exact ⟨hs.1.tabs, by simp⟩
      · rename_i new us hv
        obtain ⟨v1, _⟩ := vstackTables_tidy ts new us hv (by
          intro u hu
          obtain ⟨ch, _, e⟩ := (mapE_mem hts).2 u hu
          exact channelForeground_tidy hs.2 e)
        unfold updateWith
        cases ht : s.target.table with
        | none => exact ⟨hs.1.tabs, by simp⟩
        | some old =>
          cases new with
          | none => exact ⟨hs.1.tabs, by simp⟩
          | some n =>
            have hr := removeShared_tidy hs.1.tabs n
            refine ⟨hr, fun _ => ⟨⟨hr, ?_⟩, hs.2⟩⟩
            rintro r e
            simp only [Option.some.injEq] at e
            subst e
            exact update_tidy (hs.1.target old ht) (v1 n rfl)) source
  let P0 : St → Prop := fun s => (∀ u ∈ s.tabs, Tidy S u) ∧ s.target.sky = t.sky
  have prep : ∀ (Q' : St → Prop) (fs : List Step), (∀ s, TidySt S s → s.target.sky = t.sky → Q' s) →
      (∀ s, Q' s → (∀ u ∈ (runSteps fs s).1.tabs, Tidy S u) ∧ ∀ r, (runSteps fs s).2 = .ok () → (runSteps fs s).1.target.table = some r → Tidy T r) →
      ∀ s, P0 s → (∀ u ∈ (runSteps (prepareTarget :: fs) s).1.tabs, Tidy S u) ∧
        ∀ r, (runSteps (prepareTarget :: fs) s).2 = .ok () → (runSteps (prepareTarget :: fs) s).1.target.table = some r → Tidy T r := by
    intro Q' fs hQ hrest
    refine step P0 Q' _ _ ?_ hrest
    intro s hs
    unfold prepareTarget
    split
    · exact ⟨hs.1, by simp⟩
    · rename_i tabs' hv
      exact ⟨(vstackTables_tidy _ _ _ hv hs.1).2, by simp⟩
    · rename_i r tabs' hv
      obtain ⟨v1, v2⟩ := vstackTables_tidy _ _ _ hv hs.1
      refine ⟨v2, fun _ => hQ _ ⟨v2, ?_⟩ hs.2⟩
      rintro r' e
      simp only [Option.some.injEq] at e
      subst e
      exact v1 r rfl
  have fresh : SkyNames S t.sky := by
    intro k hk
    rw [hf.1] at hk
    simp [Dict.keys] at hk
  have final : (∀ u ∈ (runSteps (steps w p) ⟨tabs, t⟩).1.tabs, Tidy S u) ∧
      ∀ r, (runSteps (steps w p) ⟨tabs, t⟩).2 = .ok () → (runSteps (steps w p) ⟨tabs, t⟩).1.target.table = some r → Tidy T r := by
    unfold steps
    cases hsec : p.foreground with
    | none =>
      exact prep Q _ (fun s hs e => ⟨hs, e ▸ fresh⟩) fore ⟨tabs, t⟩ ⟨h, rfl⟩
    | some sec =>
      refine prep (fun s => TidySt S s ∧ s.target.sky = t.sky) _ (fun s hs e => ⟨hs, e⟩) ?_ ⟨tabs, t⟩ ⟨h, rfl⟩
      refine step _ Q _ _ ?_ fore
      intro s hs
      have hsk : SkyNames S (Foreground.estimateForegrounds w.consts.B w.maps w.skyGrid sec s.target.sky).1 := by
        rw [hs.2, estimateForegrounds_loop]
        refine estimateLoop_skyNames _ _ fresh ?_
        intro kd hkd
        have : ∀ c ∈ [Foreground.nameOf kd ++ "_signal", Foreground.nameOf kd ++ "_MaxSignal_inPixel"], S c := by
          intro c hc
          refine hn.foreground c (List.mem_flatMap.mpr ⟨kd, ?_, hc⟩)
          unfold sections
          rw [hsec]
          exact hkd
        exact ⟨this _ (by simp), this _ (by simp)⟩
      unfold estimateForegrounds
      revert hsk
      generalize Foreground.estimateForegrounds w.consts.B w.maps w.skyGrid sec s.target.sky = o
      intro hsk
      obtain ⟨sky, r⟩ := o
      exact ⟨hs.1.tabs, fun _ => ⟨⟨hs.1.tabs, hs.1.target⟩, hsk⟩⟩
  unfold observe
  revert final
  generalize runSteps (steps w p) ⟨tabs, t⟩ = o
  intro final
  obtain ⟨s, r⟩ := o
  cases r with
  | error e => exact ⟨final.1, by rintro t' r e; cases e⟩
  | ok u =>
    refine ⟨final.1, ?_⟩
    rintro t' r e hr
    cases e
    exact final.2 r rfl hr

/-- The result of every target in a list is tidy. -/
theorem runList_tidy {p : Payload} {S T : String → Prop} (hn : ResultNames p S T) (w : World) (o : RunOpts) : ∀ (ts : List Target) (s : Shared), (∀ u ∈ s.tabs, Tidy S u) →
    (∀ t ∈ ts, Fresh t) → ∀ t' r, some t' ∈ (runList w p o s ts).2 → t'.table = some r → Tidy T r
  | [], s, _, _ => by simp [runList]
  | t :: ts, s, h, hf => by
    obtain ⟨a, b⟩ := observe_tidy hn w h (hf t (by simp))
    have hp : (∀ u ∈ (pipelineToDict w p o s t).1.tabs, Tidy S u) ∧ ∀ t' r, (pipelineToDict w p o s t).2 = some t' → t'.table = some r → Tidy T r := by
      unfold pipelineToDict
      revert a b
      generalize observe w p s.tabs t = q
      intro a b
      obtain ⟨tabs, r⟩ := q
      cases r with
      | error e => exact ⟨a, by simp⟩
      | ok t1 =>
        simp only
        split
        · exact ⟨a, by simp⟩
        · refine ⟨a, ?_⟩
          rintro t' r e hr
          simp only [Option.some.injEq] at e
          subst e
          exact b t1 r rfl hr
    have ih := runList_tidy hn w o ts (pipelineToDict w p o s t).1 hp.1 (fun u hu => hf u (by simp [hu]))
    unfold runList
    intro t' r hm hr
    rcases List.mem_cons.mp hm with e | hm
    · exact hp.2 t' r e.symm hr
    · exact ih t' r hm hr

theorem alone_tidy {p : Payload} {S T : String → Prop} (hn : ResultNames p S T) (w : World) (o : RunOpts) {s : Shared} (h : ∀ u ∈ s.tabs, Tidy S u) {t : Target} (hf : Fresh t)
    {t' : Target} {r : Table ℝ} (ht : (pipelineToDict w p o s t).2 = some t') (hr : t'.table = some r) : Tidy T r := by
  have := runList_tidy hn w o [t] s h (by simpa using hf) t' r
  refine this ?_ hr
  unfold runList
  simp [runList, ht]

end ExoRad.Pipeline
