import Verif.Lemmas.NoiseErase
import Verif.Model.Pipeline
import Verif.Props.Foreground

/-! Helper lemmas: two observations that start from channel tables which differ in left-over columns only. -/

set_option linter.unusedSectionVars false

namespace ExoRad.Pipeline
open Table

/-- The channels as they come out of the payload: a table per channel, with rows, nothing of a previous observation in them,
and a wavelength grid. -/
structure Built (p : Payload) (tabs : List (Table ℝ)) : Prop where
  count : tabs.length = p.channels.length
  rows : ∀ t ∈ tabs, t.rows ≠ 0
  clean : ∀ t ∈ tabs, "sky TR" ∉ t.keys
  bins : ∀ ch ∈ p.channels, ch.inst.bins.wl ≠ [] ∧ ch.inst.bins.left ≠ [] ∧ ch.inst.bins.right ≠ []

/-- A target that was not observed before. -/
def Fresh (t : Target) : Prop := t.sky.foreground = none ∧ t.sky.transmission = none

/-- A fresh target whose star has the attributes that the metadata of the result need. -/
structure Ready (t : Target) : Prop where
  fresh : Fresh t
  catalogued : ∀ k ∈ ["name", "M", "Teff", "R", "D"], k ∈ t.attrs

/-- The foregrounds of the payload. -/
def sections (p : Payload) : List (String × Foreground.Descr ℝ) :=
  match p.foreground with
  | some sec => sec.list
  | none => []

/-- Does an observation write `sky TR`? -/
def skySet (p : Payload) : Bool := (sections p).any (fun kd => decide (kd.1 ≠ "zodiacal"))

/-- The columns of the foregrounds. -/
def fgColumns (p : Payload) : List String :=
  (sections p).flatMap (fun kd => [Foreground.nameOf kd ++ "_signal", Foreground.nameOf kd ++ "_MaxSignal_inPixel"])

/-- The columns that may be left over or missing in the channel tables. -/
def drops (p : Payload) (n : Nat) : List String := if n = 1 then "sky TR" :: fgColumns p else ["sky TR"]

theorem sky_drops (p : Payload) (n : Nat) : "sky TR" ∈ drops p n := by unfold drops; split <;> simp

/-- What holds of the channel tables between observations. -/
structure Inv (p : Payload) (tabs0 tabs : List (Table ℝ)) : Prop where
  len : tabs.length = tabs0.length
  good : tabs.length = 1 ∨ ∀ t ∈ tabs, Good ["sky TR"] t
  same : ∃ base, (base = tabs0 ∨ ∃ r, vstackTables tabs0 = .ok (r, base)) ∧
    tabs.map (fun t => t.removeAll (drops p tabs0.length)) = base.map (fun t => t.removeAll (drops p tabs0.length))
  sky : skySet p = true ∨ ∀ t ∈ tabs, "sky TR" ∉ t.keys

theorem good_of_clean {t : Table ℝ} (h : t.rows ≠ 0) (hc : "sky TR" ∉ t.keys) : Good ["sky TR"] t := by
  refine ⟨?_, ?_⟩
  · cases t with
    | nil => simp [Table.rows] at h
    | cons q l =>
      refine ⟨q, l, rfl, ?_, ?_⟩
      · intro hm
        rw [List.mem_singleton] at hm
        exact hc (by simp [hm])
      · simpa [Table.rows] using h
  · intro q hq hD
    rw [List.mem_singleton] at hD
    exact absurd (List.mem_map.mpr ⟨q, hq, hD⟩) hc

theorem Built.inv {p : Payload} {tabs : List (Table ℝ)} (h : Built p tabs) : Inv p tabs tabs where
  len := rfl
  good := .inr (fun t ht => good_of_clean (h.rows t ht) (h.clean t ht))
  same := ⟨tabs, .inl rfl, rfl⟩
  sky := .inr h.clean

theorem vstack_single (t : Table ℝ) : vstackTables [t] = .ok (some t, [t]) := by
  by_cases h : t.rows = 0 <;> simp [vstackTables, h]

theorem erase_of_clean {t : Table ℝ} (h : "sky TR" ∉ t.keys) : t.removeAll ["sky TR"] = t := by
  unfold Dict.removeAll
  rw [List.filter_eq_self]
  intro q hq
  have : q.1 ≠ "sky TR" := fun e => h (List.mem_map.mpr ⟨q, hq, e⟩)
  simp [this]

theorem clean_of_erase {t : Table ℝ} (h : t.removeAll ["sky TR"] = t) : "sky TR" ∉ t.keys := by
  rw [← h, mem_keys_erase]
  simp

/-- Stacking the channel tables gives the same between any two observations, up to the left-over columns. -/
theorem Inv.stack {p : Payload} {tabs0 tabs : List (Table ℝ)} (h0 : Built p tabs0) (h : Inv p tabs0 tabs) :
    (vstackTables tabs).map (fun q => q.1.map (fun t => t.removeAll (drops p tabs0.length))) =
      (vstackTables tabs0).map (fun q => q.1.map (fun t => t.removeAll (drops p tabs0.length))) ∧
    ∀ r tabs', vstackTables tabs = .ok (r, tabs') → Inv p tabs0 tabs' := by
  by_cases h1 : tabs0.length = 1
  · obtain ⟨t0, rfl⟩ := List.length_eq_one_iff.mp h1
    obtain ⟨t, rfl⟩ := List.length_eq_one_iff.mp (h.len.trans h1)
    obtain ⟨base, hb, hs⟩ := h.same
    have hb : base = [t0] := by
      rcases hb with rfl | ⟨r, hr⟩
      · rfl
      · rw [vstack_single] at hr
        simp only [Except.ok.injEq, Prod.mk.injEq] at hr
        exact hr.2.symm
    subst hb
    simp only [List.map_cons, List.map_nil, List.cons.injEq, and_true] at hs
    rw [vstack_single, vstack_single]
    refine ⟨by simp only [Except.map, Option.map_some, hs], ?_⟩
    intro r tabs' e
    simp only [Except.ok.injEq, Prod.mk.injEq] at e
    obtain ⟨_, rfl⟩ := e
    exact h
  · have hD : drops p tabs0.length = ["sky TR"] := by unfold drops; rw [if_neg h1]
    have hg : ∀ t ∈ tabs, Good ["sky TR"] t := h.good.resolve_left (by rw [h.len]; exact h1)
    obtain ⟨base, hb, hs⟩ := h.same
    rw [hD] at hs ⊢
    obtain ⟨e1, e2⟩ := vstackTables_erase tabs hg
    have hg0 := h0.inv.good.resolve_left h1
    obtain ⟨f1, f2⟩ := vstackTables_erase tabs0 hg0
    have hbase : vstackTables (base.map (fun t => t.removeAll ["sky TR"])) =
        (vstackTables base).map (fun q => (q.1.map (fun t => t.removeAll ["sky TR"]), q.2.map (fun t => t.removeAll ["sky TR"]))) ∧
        (vstackTables base).map (fun q => q.1) = (vstackTables tabs0).map (fun q => q.1) := by
      rcases hb with rfl | ⟨r, hr⟩
      · exact ⟨f1, rfl⟩
      · exact ⟨(vstackTables_erase base (f2 r base hr)).1, by rw [vstackTables_again _ _ _ hr, hr]⟩
    have hall := e1
    rw [hs, hbase.1] at hall
    refine ⟨?_, ?_⟩
    · have a := congrArg (fun x => x.map Prod.fst) hall
      have b := congrArg (fun x => x.map (fun q : Option (Table ℝ) => q.map (fun t => t.removeAll ["sky TR"]))) hbase.2
      cases h1 : vstackTables tabs with
      | error e =>
        cases h2 : vstackTables base with
        | error e' =>
          cases h3 : vstackTables tabs0 with
          | error e'' => rw [h1, h2] at a; rw [h2, h3] at b; cases a; cases b; rfl
          | ok q => rw [h2, h3] at b; cases b
        | ok q => rw [h1, h2] at a; cases a
      | ok q =>
        cases h2 : vstackTables base with
        | error e' => rw [h1, h2] at a; cases a
        | ok q' =>
          cases h3 : vstackTables tabs0 with
          | error e'' => rw [h2, h3] at b; cases b
          | ok q'' =>
            rw [h1, h2] at a; rw [h2, h3] at b
            simp only [Except.map, Except.ok.injEq] at a b ⊢
            rw [← a, b]
    · intro r tabs' hr
      have hl := vstackTables_length _ _ _ hr
      refine ⟨hl.trans h.len, .inr (e2 r tabs' hr), ?_, ?_⟩
      · rw [hD]
        rw [hr] at hall
        cases h2 : vstackTables base with
        | error e => rw [h2] at hall; cases hall
        | ok q =>
          obtain ⟨r2, base'⟩ := q
          rw [h2] at hall
          simp only [Except.map, Except.ok.injEq, Prod.mk.injEq] at hall
          refine ⟨base', .inr ?_, hall.2.symm⟩
          rcases hb with rfl | ⟨r3, hr3⟩
          · exact ⟨r2, h2⟩
          · rw [vstackTables_again _ _ _ hr3] at h2
            simp only [Except.ok.injEq, Prod.mk.injEq] at h2
            exact ⟨r3, h2.2 ▸ hr3⟩
      · rcases h.sky with hk | hk
        · exact .inl hk
        · right
          have : tabs.map (fun t => t.removeAll ["sky TR"]) = tabs := by
            conv_rhs => rw [← List.map_id tabs]
            apply List.map_congr_left
            intro t ht
            exact erase_of_clean (hk t ht)
          rw [this, hr] at e1
          simp only [Except.map, Except.ok.injEq, Prod.mk.injEq] at e1
          intro t ht
          apply clean_of_erase
          have e := e1.2
          obtain ⟨i, hi, rfl⟩ := List.mem_iff_getElem.mp ht
          have := List.getElem_of_eq e hi
          simp only [List.getElem_map] at this
          exact this.symm

/-! ## Two runs -/

/-- The target of the second state is that of the first but for its table, which differs in the columns of `L` only. -/
def Sim (L : List String) (s1 s2 : St) : Prop :=
  ∃ a b, s1.target.table = some a ∧ a.removeAll L = b.removeAll L ∧ s2.target = { s1.target with table := some b }

/-- A step keeps the invariant, has the same outcome in both runs and leads to related states. -/
def StepRel (p : Payload) (tabs0 : List (Table ℝ)) (f : Step) (Pre Post : St → St → Prop) : Prop :=
  ∀ s1 s2, Inv p tabs0 s1.tabs → Inv p tabs0 s2.tabs → Pre s1 s2 →
    Inv p tabs0 (f s1).1.tabs ∧ Inv p tabs0 (f s2).1.tabs ∧ (f s1).2 = (f s2).2 ∧ ((f s1).2 = .ok () → Post (f s1).1 (f s2).1)

theorem StepRel.nil {p : Payload} {tabs0 : List (Table ℝ)} {P : St → St → Prop} : StepRel p tabs0 (runSteps []) P P :=
  fun _ _ h1 h2 h => ⟨h1, h2, rfl, fun _ => h⟩

theorem StepRel.cons {p : Payload} {tabs0 : List (Table ℝ)} {f : Step} {fs : List Step} {P Q R : St → St → Prop}
    (h1 : StepRel p tabs0 f P Q) (h2 : StepRel p tabs0 (runSteps fs) Q R) : StepRel p tabs0 (runSteps (f :: fs)) P R := by
  intro s1 s2 i1 i2 hP
  obtain ⟨j1, j2, e, hQ⟩ := h1 s1 s2 i1 i2 hP
  unfold runSteps
  revert j1 j2 e hQ
  generalize f s1 = o1
  generalize f s2 = o2
  intro j1 j2 e hQ
  obtain ⟨t1, r1⟩ := o1
  obtain ⟨t2, r2⟩ := o2
  simp only at e j1 j2 hQ
  subst e
  cases r1 with
  | error e => exact ⟨j1, j2, rfl, fun h => by cases h⟩
  | ok u => exact h2 t1 t2 j1 j2 (hQ rfl)

theorem prepare_rel {p : Payload} {tabs0 : List (Table ℝ)} (h0 : Built p tabs0) (P : Target → Prop)
    (hP : ∀ t r, P t → P { t with table := some r }) :
    StepRel p tabs0 prepareTarget (fun s1 s2 => s1.target = s2.target ∧ P s1.target)
      (fun s1 s2 => Sim (drops p tabs0.length) s1 s2 ∧ P s1.target) := by
  intro s1 s2 i1 i2 hP0
  obtain ⟨hP1, hP2⟩ := hP0
  obtain ⟨a1, b1⟩ := i1.stack h0
  obtain ⟨a2, b2⟩ := i2.stack h0
  unfold prepareTarget
  rw [← a2] at a1
  cases e1 : vstackTables s1.tabs with
  | error e =>
    cases e2 : vstackTables s2.tabs with
    | error e' =>
      rw [e1, e2] at a1; cases a1
      exact ⟨i1, i2, rfl, fun h => by cases h⟩
    | ok q => rw [e1, e2] at a1; cases a1
  | ok q =>
    cases e2 : vstackTables s2.tabs with
    | error e' => rw [e1, e2] at a1; cases a1
    | ok q' =>
      obtain ⟨r1, t1⟩ := q
      obtain ⟨r2, t2⟩ := q'
      rw [e1, e2] at a1
      simp only [Except.map, Except.ok.injEq] at a1
      cases r1 with
      | none =>
        cases r2 with
        | none => exact ⟨b1 _ _ e1, b2 _ _ e2, rfl, fun h => by cases h⟩
        | some r2 => simp at a1
      | some r1 =>
        cases r2 with
        | none => simp at a1
        | some r2 =>
          simp only [Option.map_some, Option.some.injEq] at a1
          exact ⟨b1 _ _ e1, b2 _ _ e2, rfl, fun _ => ⟨⟨r1, r2, rfl, a1, by simp [hP1]⟩, hP _ _ hP2⟩⟩

/-! ### Foregrounds -/

/-- What `EstimateForegrounds` leaves on a fresh target. -/
def SkyDone (p : Payload) (t : Target) : Prop :=
  t.sky.foreground = none ∨ ((∀ c, c ∈ (t.sky.foreground.getD []).keys ↔ c ∈ (sections p).map Foreground.nameOf) ∧
    t.sky.transmission.isSome = skySet p)

theorem estimateOne_sky (B : ℝ → ℝ → ℝ) (m : Foreground.MapFiles ℝ) (wl : List ℝ) (k : String) (d : Foreground.Descr ℝ)
    (s : Foreground.Sky ℝ) (hok : (Foreground.estimateOne B m wl k d s).2 = .ok ()) :
    (Foreground.estimateOne B m wl k d s).1.transmission.isSome = (s.transmission.isSome || decide (k ≠ "zodiacal")) := by
  unfold Foreground.estimateOne at *
  by_cases hk : k = "zodiacal"
  · simp only [hk, if_true, ne_eq, not_true_eq_false, decide_false, Bool.or_false]
    rw [Foreground.estimateZodi_transmission]
  · simp only [if_neg hk] at hok ⊢
    unfold Foreground.estimateForeground at *
    cases hf : Foreground.skyForeground wl d with
    | error e => simp [hf] at hok
    | ok f =>
      simp only [hf] at hok ⊢
      unfold Foreground.attenuate at *
      cases ht : (Foreground.addForeground s d.value f).transmission with
      | none => simp [hk]
      | some t =>
        simp only [ht] at hok ⊢
        split
        · simp [hk]
        · simp [ht, hk]

theorem estimateLoop_sky (B : ℝ → ℝ → ℝ) (m : Foreground.MapFiles ℝ) (wl : List ℝ) : ∀ (ds : Dict String (Foreground.Descr ℝ))
    (s : Foreground.Sky ℝ), (Foreground.estimateLoop B m wl ds s).2 = .ok () →
    (∀ c, c ∈ ((Foreground.estimateLoop B m wl ds s).1.foreground.getD []).keys ↔
      c ∈ (s.foreground.getD []).keys ∨ c ∈ ds.map Foreground.nameOf) ∧
    (Foreground.estimateLoop B m wl ds s).1.transmission.isSome =
      (s.transmission.isSome || ds.any (fun kd => decide (kd.1 ≠ "zodiacal")))
  | [], s, _ => by simp [Foreground.estimateLoop]
  | (k, d) :: ds, s, hok => by
    have h1 := Foreground.estimateOne_foreground B m wl k d s
    have h2 := estimateOne_sky B m wl k d s
    unfold Foreground.estimateLoop at hok ⊢
    revert h1 h2 hok
    generalize Foreground.estimateOne B m wl k d s = r
    obtain ⟨s1, u⟩ := r
    intro h1 h2 hok
    cases u with
    | error e => simp at hok
    | ok u =>
      simp only at hok ⊢
      obtain ⟨t, f1, _, _⟩ := h1 rfl
      have f2 := h2 rfl
      simp only at f1 f2
      obtain ⟨g1, g2⟩ := estimateLoop_sky B m wl ds s1 hok
      refine ⟨?_, ?_⟩
      · intro c
        rw [g1, f1, Option.getD_some, Dict.mem_keys_set, List.map_cons, List.mem_cons]
        tauto
      · rw [g2, f2, List.any_cons, Bool.or_assoc]

theorem estimateForegrounds_loop (B : ℝ → ℝ → ℝ) (m : Foreground.MapFiles ℝ) (wl : List ℝ) (sec : Foreground.Section ℝ)
    (s : Foreground.Sky ℝ) : Foreground.estimateForegrounds B m wl sec s = Foreground.estimateLoop B m wl sec.list s := by
  cases sec with
  | many ds => rfl
  | single d =>
    unfold Foreground.estimateForegrounds Foreground.Section.list Foreground.estimateLoop
    simp only
    generalize Foreground.estimateOne B m wl d.value d s = r
    obtain ⟨s1, u⟩ := r
    cases u <;> rfl

theorem estimate_rel {p : Payload} {tabs0 : List (Table ℝ)} (w : World) (sec : Foreground.Section ℝ) (hsec : p.foreground = some sec)
    (L : List String) : StepRel p tabs0 (estimateForegrounds w sec) (fun s1 s2 => Sim L s1 s2 ∧ Fresh s1.target)
      (fun s1 s2 => Sim L s1 s2 ∧ SkyDone p s1.target) := by
  intro s1 s2 i1 i2 hP0
  obtain ⟨⟨a, b, h1, h2, h3⟩, hf⟩ := hP0
  have hsky : s2.target.sky = s1.target.sky := by rw [h3]
  unfold estimateForegrounds
  rw [hsky, estimateForegrounds_loop]
  have hl := estimateLoop_sky w.consts.B w.maps w.skyGrid sec.list s1.target.sky
  revert hl
  generalize Foreground.estimateLoop w.consts.B w.maps w.skyGrid sec.list s1.target.sky = o
  intro hl
  obtain ⟨sky, r⟩ := o
  refine ⟨i1, i2, rfl, ?_⟩
  intro hok
  obtain ⟨k1, k2⟩ := hl hok
  refine ⟨⟨a, b, h1, h2, by simp [h3]⟩, .inr ⟨?_, ?_⟩⟩
  · intro c
    have := k1 c
    simp only [hf.1, Option.getD_none, Dict.keys_nil, List.not_mem_nil, false_or] at this
    simpa [sections, hsec] using this
  · simp only at k2
    simp only [k2, hf.2, skySet, sections, hsec, Option.isSome_none, Bool.false_or]

theorem fresh_done {p : Payload} {t : Target} (h : Fresh t) : SkyDone p t := .inl h.1

/-- The columns of `propagate`. -/
theorem propagateLoop_keys (ch : Diffuse.Channel ℝ) : ∀ (fs : List (String × Foreground.Filter ℝ)) (qe tr : Rebin.Signal ℝ)
    (out out' : Dict String (List ℝ)), Foreground.propagateLoop ch fs qe tr out = .ok out' →
    ∀ c, c ∈ out'.keys ↔ c ∈ out.keys ∨ ∃ k ∈ fs.map Prod.fst, c = k ++ "_signal" ∨ c = k ++ "_MaxSignal_inPixel"
  | [], qe, tr, out, out', h => by
    cases h
    simp
  | (k, f) :: fs, qe, tr, out, out', h => by
    unfold Foreground.propagateLoop at h
    split at h
    · cases h
    · split at h
      · cases h
      · split at h
        · cases h
        · intro c
          rw [propagateLoop_keys ch fs _ _ _ _ h, Dict.mem_keys_set, Dict.mem_keys_set, List.map_cons]
          simp only [List.mem_cons]
          constructor
          · rintro ((h | h | h) | ⟨k', hk, h⟩)
            · exact .inr ⟨k, .inl rfl, .inr h⟩
            · exact .inr ⟨k, .inl rfl, .inl h⟩
            · exact .inl h
            · exact .inr ⟨k', .inr hk, h⟩
          · rintro (h | ⟨k', hk | hk, hc⟩)
            · exact .inl (.inr (.inr h))
            · rw [hk] at hc
              rcases hc with h | h
              · exact .inl (.inr (.inl h))
              · exact .inl (.inl h)
            · exact .inr ⟨k', hk, hc⟩

theorem keys_foregroundTable (d : Dict String (List ℝ)) : (foregroundTable d).keys = d.keys := by
  simp [foregroundTable, Dict.keys, Function.comp_def]

theorem channelForeground_keys {p : Payload} {t : Target} (h : SkyDone p t) {ch : Channel} {n : Table ℝ}
    (hn : channelForeground t.sky ch = .ok n) : (∀ c, c ∈ n.keys ↔ c ∈ fgColumns p) ∧ t.sky.transmission.isSome = skySet p := by
  unfold channelForeground at hn
  cases hp : Foreground.propagate ch.diffuse ch.inst.qe ch.inst.tr t.sky with
  | error e => simp [hp] at hn
  | ok d =>
    simp only [hp, Except.ok.injEq] at hn
    subst hn
    unfold Foreground.propagate at hp
    rcases h with h | ⟨h1, h2⟩
    · simp [h] at hp
    · refine ⟨?_, h2⟩
      cases hf : t.sky.foreground with
      | none => simp [hf] at hp
      | some fs =>
        simp only [hf] at hp
        simp only [hf, Option.getD_some] at h1
        intro c
        rw [keys_foregroundTable, propagateLoop_keys _ _ _ _ _ _ hp]
        simp only [Dict.keys_nil, List.not_mem_nil, false_or, fgColumns, List.mem_flatMap, List.mem_cons, or_false,
          List.map_reverse, List.mem_reverse]
        constructor
        · rintro ⟨k, hk, h⟩
          obtain ⟨kd, hkd, rfl⟩ := List.mem_map.mp ((h1 k).mp hk)
          exact ⟨kd, hkd, h⟩
        · rintro ⟨kd, hkd, h⟩
          exact ⟨_, (h1 _).mpr (List.mem_map.mpr ⟨kd, hkd, rfl⟩), h⟩

theorem mapE_mem {β γ : Type} {f : β → Except Exc γ} : ∀ {l : List β} {r : List γ}, Source.mapE f l = .ok r →
    r.length = l.length ∧ ∀ y ∈ r, ∃ x ∈ l, f x = .ok y
  | [], r, h => by cases h; simp
  | b :: bs, r, h => by
    unfold Source.mapE at h
    cases hb : f b with
    | error e => simp [hb] at h
    | ok c =>
      simp only [hb] at h
      cases hr : Source.mapE f bs with
      | error e => simp [hr] at h
      | ok cs =>
        simp only [hr, Except.ok.injEq] at h
        subst h
        obtain ⟨h1, h2⟩ := mapE_mem hr
        refine ⟨by simp [h1], ?_⟩
        intro y hy
        rcases List.mem_cons.mp hy with rfl | hy
        · exact ⟨b, by simp, hb⟩
        · obtain ⟨x, hx, e⟩ := h2 y hy
          exact ⟨x, by simp [hx], e⟩

theorem removeShared_inv {p : Payload} {tabs0 tabs : List (Table ℝ)} (h : Inv p tabs0 tabs) (n : Table ℝ)
    (hn : tabs.length = 1 → ∀ c ∈ n.keys, c ∈ fgColumns p) : Inv p tabs0 (removeShared tabs n) := by
  by_cases h1 : tabs.length = 1
  · obtain ⟨t, rfl⟩ := List.length_eq_one_iff.mp h1
    have hlen : tabs0.length = 1 := h.len.symm
    have e : removeShared [t] n = [t.removeAll (t.keys.filter (fun k => n.has k))] := by simp [removeShared]
    rw [e]
    refine ⟨h.len, .inl rfl, ?_, ?_⟩
    · obtain ⟨base, hb, hs⟩ := h.same
      refine ⟨base, hb, ?_⟩
      rw [← hs]
      simp only [List.map_cons, List.map_nil, List.cons.injEq, and_true]
      unfold Dict.removeAll
      rw [List.filter_filter]
      apply List.filter_congr
      intro q hq
      by_cases hq1 : q.1 ∈ drops p tabs0.length
      · simp [hq1]
      · have : n.has q.1 = false := by
          rw [Dict.has_eq_false_iff]
          intro hc
          apply hq1
          have := hn h1 _ hc
          unfold drops
          rw [if_pos hlen]
          simp [this]
        simp [this]
    · rcases h.sky with hk | hk
      · exact .inl hk
      · right
        intro t' ht'
        rw [List.mem_singleton] at ht'
        subst ht'
        rw [mem_keys_erase]
        exact fun hc => hk t (by simp) hc.1
  · have hg := h.good.resolve_left h1
    have : removeShared tabs n = tabs := by
      unfold removeShared
      cases tabs with
      | nil => simp
      | cons t ts =>
        cases ts with
        | nil => simp at h1
        | cons u us =>
          rw [if_neg]
          intro hc
          rw [List.all_eq_true] at hc
          have := hc t (by simp)
          simp only [beq_iff_eq] at this
          exact (hg t (by simp)).1.rows this
    rw [this]; exact h

theorem propagateForeground_rel {p : Payload} {tabs0 : List (Table ℝ)} (h0 : Built p tabs0) :
    StepRel p tabs0 (propagateForeground p.channels) (fun s1 s2 => Sim (drops p tabs0.length) s1 s2 ∧ SkyDone p s1.target)
      (fun s1 s2 => Sim ["sky TR"] s1 s2 ∧ s1.target.sky.transmission.isSome = skySet p) := by
  intro s1 s2 i1 i2 hP0
  obtain ⟨⟨a, b, h1, h2, h3⟩, hf⟩ := hP0
  have hsky : s2.target.sky = s1.target.sky := by rw [h3]
  unfold propagateForeground
  rw [hsky]
  cases hm : Source.mapE (channelForeground s1.target.sky) p.channels with
  | error e => exact ⟨i1, i2, rfl, fun h => by cases h⟩
  | ok ts =>
    simp only
    obtain ⟨m1, m2⟩ := mapE_mem hm
    cases hv : vstackTables ts with
    | error e => exact ⟨i1, i2, rfl, fun h => by cases h⟩
    | ok q =>
      obtain ⟨new, us⟩ := q
      simp only
      cases new with
      | none =>
        have : ∀ t : Target, updateWith t none = .error .attributeError := by
          intro t; unfold updateWith; cases t.table <;> rfl
        simp only [this]
        exact ⟨i1, i2, trivial, by simp⟩
      | some n =>
        have hb : s2.target.table = some b := by rw [h3]
        simp only [updateWith, h1, hb]
        have hne : p.channels ≠ [] := by
          rintro hc
          rw [hc] at hm
          cases hm
          cases hv
        have hn1 : p.channels.length = 1 → ∀ c, c ∈ n.keys ↔ c ∈ fgColumns p := by
          intro hl
          rw [← m1] at hl
          obtain ⟨t, rfl⟩ := List.length_eq_one_iff.mp hl
          rw [vstack_single] at hv
          simp only [Except.ok.injEq, Prod.mk.injEq, Option.some.injEq] at hv
          obtain ⟨x, _, hx⟩ := m2 t (by simp)
          exact hv.1 ▸ (channelForeground_keys hf hx).1
        have hl1 : ∀ {tabs}, Inv p tabs0 tabs → tabs.length = 1 → ∀ c ∈ n.keys, c ∈ fgColumns p := by
          intro tabs ht hl c hc
          exact (hn1 (by rw [← h0.count, ← ht.len]; exact hl) c).mp hc
        refine ⟨removeShared_inv i1 n (hl1 i1), removeShared_inv i2 n (hl1 i2), trivial, ?_⟩
        intro _
        refine ⟨⟨update a n, update b n, rfl, ?_, by simp [h3]⟩, ?_⟩
        · refine update_erase (drops p tabs0.length) ["sky TR"] a b n h2 ?_
          intro c hc
          unfold drops at hc
          split at hc
          · rename_i hl
            rcases List.mem_cons.mp hc with rfl | hc
            · exact .inl (by simp)
            · exact .inr ((hn1 (by rw [← h0.count]; exact hl) c).mpr hc)
          · exact .inl hc
        · cases hts : ts with
          | nil => rw [hts] at m1; simp at m1; exact absurd m1.symm (by simpa using hne)
          | cons t ts' =>
            obtain ⟨x, _, hx⟩ := m2 t (by simp [hts])
            exact (channelForeground_keys hf hx).2

/-! ### The source -/

theorem loadSource_rel {p : Payload} {tabs0 : List (Table ℝ)} (w : World) (L : List String) (P : Target → Prop)
    (hP : ∀ t b, P t → P { t with built := some b }) :
    StepRel p tabs0 (loadSource w p) (fun s1 s2 => Sim L s1 s2 ∧ P s1.target) (fun s1 s2 => Sim L s1 s2 ∧ P s1.target) := by
  intro s1 s2 i1 i2 hP0
  obtain ⟨⟨a, b, h1, h2, h3⟩, hf⟩ := hP0
  have hstar : s2.target.star = s1.target.star := by rw [h3]
  unfold loadSource
  cases p.source with
  | none => exact ⟨i1, i2, rfl, fun h => by cases h⟩
  | some d =>
    simp only
    rw [hstar]
    cases Source.loadSource w.consts w.env w.grid d s1.target.star p.wlMin p.wlMax with
    | error e => exact ⟨i1, i2, rfl, fun h => by cases h⟩
    | ok st =>
      have hb : s2.target.table = some b := by rw [h3]
      have hat : s2.target.attrs = s1.target.attrs := by rw [h3]
      have hmeta : addStarMetadata s1.target = addStarMetadata s2.target := by
        unfold addStarMetadata
        rw [h1, hb, hat]
      exact ⟨i1, i2, hmeta, fun _ => ⟨⟨a, b, h1, h2, by simp [h3]⟩, hP _ _ hf⟩⟩

/-! ### The light of the target -/

theorem getTransmission_ne {ch : Instrument.Chan ℝ} (hb : ch.bins.wl ≠ [] ∧ ch.bins.left ≠ [] ∧ ch.bins.right ≠ []) {wl data : List ℝ}
    {c : List (Option ℝ)} {s : Rebin.Signal ℝ} (h : Instrument.getTransmission ch wl data = .ok (c, s)) : c ≠ [] := by
  obtain ⟨b0, b1, b2⟩ := hb
  obtain ⟨x0, l0, e0⟩ := List.exists_cons_of_ne_nil b0
  obtain ⟨x1, l1, e1⟩ := List.exists_cons_of_ne_nil b1
  obtain ⟨x2, l2, e2⟩ := List.exists_cons_of_ne_nil b2
  unfold Instrument.getTransmission at h
  split at h
  · cases h
  · simp only at h
    split at h
    · cases h
    · simp only [Except.ok.injEq, Prod.mk.injEq] at h
      rw [← h.1, Instrument.binSignal, e1, e2]
      simp
    · simp only [Except.ok.injEq, Prod.mk.injEq] at h
      rw [← h.1, Instrument.binSignal, Instrument.zeroOutCol, e1, e2]
      simp [e0]

/-- The channel's table after `_get_efficiency`. -/
theorem markSky_cases (ch : Instrument.Chan ℝ) (wl : List ℝ) (sky : Option (Rebin.Signal ℝ)) (tab : Table ℝ) :
    markSky ch wl sky tab = tab ∨ ∃ s c s', sky = some s ∧ Instrument.getTransmission ch s.wl s.data = .ok (c, s') ∧
      markSky ch wl sky tab = tab.set "sky TR" (colN c) := by
  unfold markSky
  split
  · split
    · rename_i s c s' h
      exact .inr ⟨_, _, _, rfl, h, rfl⟩
    · exact .inl rfl
  · exact .inl rfl

theorem erase_set (D : List String) (t : Table ℝ) (c : String) (v : List (Cell ℝ)) (h : c ∈ D) :
    (Dict.set t c v).removeAll D = t.removeAll D := by
  induction t with
  | nil => simp [Dict.set, Dict.removeAll, h]
  | cons q t ih =>
    obtain ⟨a, x⟩ := q
    unfold Dict.set
    by_cases ha : a = c
    · rw [if_pos ha]; subst ha; simp [Dict.removeAll, h]
    · rw [if_neg ha]
      unfold Dict.removeAll at ih ⊢
      rw [List.filter_cons, List.filter_cons, ih]

theorem good_set {t : Table ℝ} (h : Good ["sky TR"] t) {c : List (Option ℝ)} (hc : c ≠ []) :
    Good ["sky TR"] (Dict.set t "sky TR" (colN c)) := by
  obtain ⟨⟨q, l, rfl, h1, h2⟩, hs⟩ := h
  have hq : q.1 ≠ "sky TR" := by simpa using h1
  obtain ⟨x, xs, rfl⟩ := List.exists_cons_of_ne_nil hc
  refine ⟨⟨q, Dict.set l "sky TR" (colN (x :: xs)), ?_, h1, h2⟩, ?_⟩
  · obtain ⟨a, v⟩ := q
    simp only at hq
    simp [Dict.set, hq]
  · have : ∀ t : Table ℝ, Soft ["sky TR"] t → Soft ["sky TR"] (Dict.set t "sky TR" (colN (x :: xs))) := by
      intro t
      induction t with
      | nil =>
        intro _ r hr _
        simp only [Dict.set, List.mem_singleton] at hr
        subst hr
        exact ⟨_, _, rfl⟩
      | cons r t ih =>
        intro hsoft r' hr' hD
        obtain ⟨a, v⟩ := r
        unfold Dict.set at hr'
        by_cases ha : a = "sky TR"
        · rw [if_pos ha] at hr'
          rcases List.mem_cons.mp hr' with rfl | hr'
          · exact ⟨_, _, rfl⟩
          · exact hsoft r' (by simp [hr']) hD
        · rw [if_neg ha] at hr'
          rcases List.mem_cons.mp hr' with rfl | hr'
          · exact hsoft _ (by simp) hD
          · exact ih (fun z hz => hsoft z (by simp [hz])) r' hr' hD
    exact this _ hs

theorem propagateIn_fst (ch : Channel) (sed : Rebin.Signal ℝ) (sky : Option (Rebin.Signal ℝ)) (tab : Table ℝ) :
    (propagateIn ch sed sky tab).1 = markSky ch.inst sed.wl sky tab := by
  unfold propagateIn
  simp only
  split <;> rfl

/-- If `propagate_target` succeeds with a sky transmission, then the column is written. -/
theorem markSky_ok {ch : Channel} {sed s : Rebin.Signal ℝ} {o : Instrument.TargetOut ℝ}
    (h : channelTarget ch sed (some s) = .ok o) : ∃ c s', Instrument.getTransmission ch.inst s.wl s.data = .ok (c, s') ∧
      ∀ tab, markSky ch.inst sed.wl (some s) tab = tab.set "sky TR" (colN c) := by
  have key : ∀ eff, Instrument.getEfficiency ch.inst sed.wl (some s) none = .ok eff → ∃ c s',
      Instrument.getTransmission ch.inst s.wl s.data = .ok (c, s') ∧
      ∀ tab, markSky ch.inst sed.wl (some s) tab = tab.set "sky TR" (colN c) := by
    intro eff he
    unfold Instrument.getEfficiency at he
    cases h1 : ch.inst.qe.spectralRebin sed.wl with
    | error e => simp [h1] at he
    | ok q =>
      cases h2 : ch.inst.tr.spectralRebin sed.wl with
      | error e => simp [h1, h2] at he
      | ok t =>
        cases h3 : Instrument.getTransmission ch.inst s.wl s.data with
        | error e => simp [h1, h2, Instrument.withSky, h3] at he
        | ok g =>
          obtain ⟨c, s'⟩ := g
          refine ⟨c, s', rfl, ?_⟩
          intro tab
          simp only [markSky, h1, h2, h3]
  unfold channelTarget at h
  split at h
  · unfold Instrument.spectrometerTarget at h
    cases he : Instrument.getEfficiency ch.inst sed.wl (some s) none with
    | error e => simp [he] at h
    | ok eff => exact key eff he
  · unfold Instrument.photometerTarget at h
    cases he : Instrument.getEfficiency ch.inst sed.wl (some s) none with
    | error e => simp [he] at h
    | ok eff => exact key eff he

theorem propagateIn_snd (ch : Channel) (sed : Rebin.Signal ℝ) (sky : Option (Rebin.Signal ℝ)) (tab1 tab2 : Table ℝ)
    (h : sky.isSome = true ∨ ("sky TR" ∉ tab1.keys ∧ "sky TR" ∉ tab2.keys)) :
    (propagateIn ch sed sky tab1).2 = (propagateIn ch sed sky tab2).2 := by
  unfold propagateIn
  simp only
  cases hc : channelTarget ch sed sky with
  | error e => rfl
  | ok o =>
    simp only
    cases sky with
    | some s =>
      obtain ⟨c, s', _, hm⟩ := markSky_ok hc
      rw [hm, hm, Dict.get?_set_self, Dict.get?_set_self]
    | none =>
      have hn : ∀ tab, markSky ch.inst sed.wl none tab = tab := by intro tab; unfold markSky; split <;> simp_all
      rcases h with h | ⟨h1, h2⟩
      · simp at h
      · rw [hn, hn, (Dict.get?_eq_none_iff _ _).mpr h1, (Dict.get?_eq_none_iff _ _).mpr h2]

theorem propagateAll_fst (sed : Rebin.Signal ℝ) (sky : Option (Rebin.Signal ℝ)) : ∀ (chs : List Channel) (tabs : List (Table ℝ)),
    (∀ ch ∈ chs, ch.inst.bins.wl ≠ [] ∧ ch.inst.bins.left ≠ [] ∧ ch.inst.bins.right ≠ []) →
    List.Forall₂ (fun t t' => t' = t ∨ (sky.isSome = true ∧ ∃ c, c ≠ [] ∧ t' = Dict.set t "sky TR" (colN c))) tabs
      (propagateAll sed sky chs tabs).1
  | [], tabs, _ => by
    simp only [propagateAll]
    exact List.forall₂_same.mpr (fun t _ => .inl rfl)
  | ch :: chs, [], _ => by simp [propagateAll]
  | ch :: chs, tab :: tabs, hb => by
    have h1 : (propagateIn ch sed sky tab).1 = tab ∨ (sky.isSome = true ∧ ∃ c, c ≠ [] ∧
        (propagateIn ch sed sky tab).1 = Dict.set tab "sky TR" (colN c)) := by
      rw [propagateIn_fst]
      rcases markSky_cases ch.inst sed.wl sky tab with h | ⟨s, c, s', rfl, h2, h3⟩
      · exact .inl h
      · exact .inr ⟨rfl, c, getTransmission_ne (hb ch (by simp)) h2, h3⟩
    have ih := propagateAll_fst sed sky chs tabs (fun c hc => hb c (by simp [hc]))
    unfold propagateAll
    revert h1
    generalize propagateIn ch sed sky tab = o
    obtain ⟨tab', r⟩ := o
    intro h1
    cases r with
    | error e => exact .cons h1 (List.forall₂_same.mpr (fun t _ => .inl rfl))
    | ok t =>
      simp only
      revert ih
      generalize propagateAll sed sky chs tabs = o
      obtain ⟨tabs', r⟩ := o
      intro ih
      cases r with
      | error e => exact .cons h1 ih
      | ok ts => exact .cons h1 ih

theorem propagateAll_snd (sed : Rebin.Signal ℝ) (sky : Option (Rebin.Signal ℝ)) : ∀ (chs : List Channel) (tabs1 tabs2 : List (Table ℝ)),
    tabs1.length = tabs2.length → (sky.isSome = true ∨ ((∀ t ∈ tabs1, "sky TR" ∉ t.keys) ∧ ∀ t ∈ tabs2, "sky TR" ∉ t.keys)) →
    (propagateAll sed sky chs tabs1).2 = (propagateAll sed sky chs tabs2).2
  | [], tabs1, tabs2, _, _ => by simp [propagateAll]
  | ch :: chs, [], [], _, _ => rfl
  | ch :: chs, [], t :: ts, h, _ => by simp at h
  | ch :: chs, t :: ts, [], h, _ => by simp at h
  | ch :: chs, t1 :: ts1, t2 :: ts2, h, hs => by
    have h1 := propagateIn_snd ch sed sky t1 t2 (hs.imp id (fun ⟨a, b⟩ => ⟨a t1 (by simp), b t2 (by simp)⟩))
    have ih := propagateAll_snd sed sky chs ts1 ts2 (by simpa using h)
      (hs.imp id (fun ⟨a, b⟩ => ⟨fun t ht => a t (by simp [ht]), fun t ht => b t (by simp [ht])⟩))
    unfold propagateAll
    revert h1 ih
    generalize propagateIn ch sed sky t1 = o1
    generalize propagateIn ch sed sky t2 = o2
    generalize propagateAll sed sky chs ts1 = q1
    generalize propagateAll sed sky chs ts2 = q2
    obtain ⟨a1, r1⟩ := o1
    obtain ⟨a2, r2⟩ := o2
    obtain ⟨b1, u1⟩ := q1
    obtain ⟨b2, u2⟩ := q2
    intro h1 ih
    simp only at h1 ih
    subst h1
    subst ih
    cases r1 with
    | error e => rfl
    | ok t => cases u1 <;> rfl

theorem forall₂_map_eq {β γ : Type} {R : β → β → Prop} {f : β → γ} (h : ∀ a b, R a b → f b = f a) : ∀ {l l' : List β},
    List.Forall₂ R l l' → l'.map f = l.map f
  | _, _, .nil => rfl
  | _, _, .cons h1 h2 => by rw [List.map_cons, List.map_cons, h _ _ h1, forall₂_map_eq h h2]

theorem forall₂_exists {β : Type} {R : β → β → Prop} : ∀ {l l' : List β}, List.Forall₂ R l l' → ∀ b ∈ l', ∃ a ∈ l, R a b
  | _, _, .nil, b, hb => by simp at hb
  | _, _, .cons h1 h2, b, hb => by
    rcases List.mem_cons.mp hb with rfl | hb
    · exact ⟨_, by simp, h1⟩
    · obtain ⟨a, ha, hr⟩ := forall₂_exists h2 b hb
      exact ⟨a, by simp [ha], hr⟩

theorem propagateAll_inv {p : Payload} {tabs0 tabs : List (Table ℝ)} (h0 : Built p tabs0) (h : Inv p tabs0 tabs)
    (sed : Rebin.Signal ℝ) (sky : Option (Rebin.Signal ℝ)) (hk : sky.isSome = skySet p) :
    Inv p tabs0 (propagateAll sed sky p.channels tabs).1 := by
  have hf := propagateAll_fst sed sky p.channels tabs h0.bins
  have hl := hf.length_eq
  refine ⟨hl.symm.trans h.len, ?_, ?_, ?_⟩
  · rcases h.good with h1 | h1
    · exact .inl (hl.symm.trans h1)
    · right
      intro t' ht'
      obtain ⟨t, ht, hr⟩ := forall₂_exists hf t' ht'
      rcases hr with rfl | ⟨_, c, hc, rfl⟩
      · exact h1 _ ht
      · exact good_set (h1 t ht) hc
  · obtain ⟨base, hb, hs⟩ := h.same
    refine ⟨base, hb, ?_⟩
    rw [← hs]
    apply forall₂_map_eq _ hf
    rintro a b (rfl | ⟨_, c, _, rfl⟩)
    · rfl
    · exact erase_set _ _ _ _ (sky_drops p _)
  · rcases h.sky with h1 | h1
    · exact .inl h1
    · by_cases hp : skySet p = true
      · exact .inl hp
      · right
        intro t' ht'
        obtain ⟨t, ht, hr⟩ := forall₂_exists hf t' ht'
        rcases hr with rfl | ⟨hsome, _⟩
        · exact h1 _ ht
        · rw [hk] at hsome; exact absurd hsome hp

theorem propagateTarget_rel {p : Payload} {tabs0 : List (Table ℝ)} (h0 : Built p tabs0) :
    StepRel p tabs0 (propagateTarget p.channels)
      (fun s1 s2 => Sim ["sky TR"] s1 s2 ∧ s1.target.sky.transmission.isSome = skySet p) (fun s1 s2 => Sim ["sky TR"] s1 s2) := by
  intro s1 s2 i1 i2 hP0
  obtain ⟨⟨a, b, h1, h2, h3⟩, hf⟩ := hP0
  have hsky : s2.target.sky = s1.target.sky := by rw [h3]
  have hbuilt : s2.target.built = s1.target.built := by rw [h3]
  have hb : s2.target.table = some b := by rw [h3]
  unfold propagateTarget
  rw [hbuilt, hsky]
  cases s1.target.built with
  | none => exact ⟨i1, i2, rfl, fun h => by cases h⟩
  | some st =>
    simp only
    have j1 := propagateAll_inv h0 i1 st.sed _ hf
    have j2 := propagateAll_inv h0 i2 st.sed _ hf
    have e := propagateAll_snd st.sed s1.target.sky.transmission p.channels s1.tabs s2.tabs (i1.len.trans i2.len.symm) (by
      rw [hf]
      rcases i1.sky with k1 | k1
      · exact .inl k1
      · rcases i2.sky with k2 | k2
        · exact .inl k2
        · exact .inr ⟨k1, k2⟩)
    revert j1 j2 e
    generalize propagateAll st.sed s1.target.sky.transmission p.channels s1.tabs = q1
    generalize propagateAll st.sed s1.target.sky.transmission p.channels s2.tabs = q2
    obtain ⟨b1, u1⟩ := q1
    obtain ⟨b2, u2⟩ := q2
    intro j1 j2 e
    simp only at j1 j2 e
    subst e
    cases u1 with
    | error e => exact ⟨j1, j2, rfl, fun h => by cases h⟩
    | ok ts =>
      simp only
      cases vstackTables ts with
      | error e => exact ⟨j1, j2, rfl, fun h => by cases h⟩
      | ok q =>
        obtain ⟨new, us⟩ := q
        cases new with
        | none =>
          simp only [updateWith, h1, hb]
          exact ⟨j1, j2, trivial, by simp⟩
        | some n =>
          simp only [updateWith, h1, hb]
          exact ⟨j1, j2, trivial, fun _ => ⟨update a n, update b n, rfl, update_erase _ _ a b n h2 (fun c hc => .inl hc), by simp [h3]⟩⟩

theorem noise_rel {p : Payload} {tabs0 : List (Table ℝ)} :
    StepRel p tabs0 (noiseStep p.channels) (fun s1 s2 => Sim ["sky TR"] s1 s2) (fun s1 s2 => Sim ["sky TR"] s1 s2) := by
  intro s1 s2 i1 i2 hP0
  obtain ⟨a, b, h1, h2, h3⟩ := hP0
  have hb : s2.target.table = some b := by rw [h3]
  unfold noiseStep
  rw [h1, hb]
  simp only
  have e := estimateNoise_same ignored_sky h2 (p.channels.map (fun c => (c.noise, c.common)))
  cases ha : estimateNoise a (p.channels.map (fun c => (c.noise, c.common))) with
  | error e1 =>
    cases hbb : estimateNoise b (p.channels.map (fun c => (c.noise, c.common))) with
    | error e2 =>
      rw [ha, hbb] at e
      cases e
      exact ⟨i1, i2, rfl, fun h => by cases h⟩
    | ok y => rw [ha, hbb] at e; cases e
  | ok x =>
    cases hbb : estimateNoise b (p.channels.map (fun c => (c.noise, c.common))) with
    | error e2 => rw [ha, hbb] at e; cases e
    | ok y =>
      rw [ha, hbb] at e
      simp only [Except.map, Except.ok.injEq] at e
      exact ⟨i1, i2, rfl, fun _ => ⟨x, y, rfl, e, by simp [h3]⟩⟩

/-- The whole observation. -/
theorem steps_rel {p : Payload} {tabs0 : List (Table ℝ)} (h0 : Built p tabs0) (w : World) :
    StepRel p tabs0 (runSteps (steps w p)) (fun s1 s2 => s1.target = s2.target ∧ Fresh s1.target)
      (fun s1 s2 => Sim ["sky TR"] s1 s2) := by
  have tail : StepRel p tabs0 (runSteps [propagateForeground p.channels, loadSource w p, propagateTarget p.channels,
      noiseStep p.channels]) (fun s1 s2 => Sim (drops p tabs0.length) s1 s2 ∧ SkyDone p s1.target)
      (fun s1 s2 => Sim ["sky TR"] s1 s2) :=
    (propagateForeground_rel h0).cons ((loadSource_rel w _ (fun t => t.sky.transmission.isSome = skySet p) (fun _ _ h => h)).cons
      ((propagateTarget_rel h0).cons (noise_rel.cons .nil)))
  have pre := prepare_rel h0 Fresh (fun t r h => h)
  unfold steps
  cases hsec : p.foreground with
  | none =>
    refine pre.cons ?_
    intro s1 s2 i1 i2 hP
    exact tail s1 s2 i1 i2 ⟨hP.1, fresh_done hP.2⟩
  | some sec => exact pre.cons ((estimate_rel w sec hsec _).cons tail)

end ExoRad.Pipeline
