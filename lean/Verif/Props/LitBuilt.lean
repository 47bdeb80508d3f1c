import Verif.Props.Lit
import Verif.Props.ObserveAll

/-!
# Which built channels get light from a star: C103, and black bodies observed through them
-/

set_option linter.unusedSectionVars false

namespace ExoRad.Build
open Table Pipeline Light

/-! ## Specification -/

/-- From `L` to `U` the detector is sensitive and all the optics let light through: at the points of the detector's working grid, and of the table of the quantum efficiency. -/
structure Clear (env : Env) (c : Common) (d : Descr) (L U : ℝ) : Prop where
  band : c.force = some true → d.wlMin ≤ L ∧ U ≤ d.wlMax
  optics : ∀ e ∈ opticsOf c d, ∀ tr, Optics.getTransmission e (workGrid env d) = .ok tr → ∀ (j : ℕ) x, (workGrid env d)[j]? = some x → L ≤ x → x ≤ U → PosAt tr j
  constant : ∀ v, d.qe = .constant v → 0 < v
  table : ∀ t, d.qe = .data t → ∀ col wl v, (col = "wavelength" ∨ (col = "Wavelength" ∧ "wavelength" ∉ t.keys)) → t.get? col = some wl → t.get? d.noise.value = some v →
    ∀ p ∈ wl.zip v, L ≤ p.1 → p.1 ≤ U → 0 < p.2

/-- There are samples of the detector's working grid, and of the table of the quantum efficiency, between `L` and `t` and between `t` and `U`. -/
structure Sampled (env : Env) (d : Descr) (L t U : ℝ) : Prop where
  work : (∃ x ∈ workGrid env d, L ≤ x ∧ x ≤ t) ∧ ∃ y ∈ workGrid env d, t ≤ y ∧ y ≤ U
  table : ∀ q, d.qe = .data q → ∀ col wl, (col = "wavelength" ∨ (col = "Wavelength" ∧ "wavelength" ∉ q.keys)) → q.get? col = some wl →
    (∃ x ∈ wl, L ≤ x ∧ x ≤ t) ∧ ∃ y ∈ wl, t ≤ y ∧ y ≤ U

/-- A point of a grid with its neighbours between `L` and `U`. -/
structure Inner (g : List ℝ) (L U : ℝ) (i : ℕ) : Prop where
  first : 0 < i
  last : i + 1 < g.length
  low : ∀ x, g[i - 1]? = some x → L ≤ x
  high : ∀ x, g[i + 1]? = some x → x ≤ U

/-! ## Transmission -/

theorem buildMany_made {wl : List ℝ} : ∀ {es : Dict String (Optics.Descr ℝ)} {out els : Dict String (Optics.Element ℝ)} {P : Optics.Element ℝ → Prop},
    (∀ q ∈ es, ∀ el, Optics.mkElement q.2 wl = .ok el → P el) → (∀ q ∈ out, P q.2) → Optics.buildMany wl es out = .ok els → ∀ q ∈ els, P q.2
  | [], out, els, P, _, ho, h => by
    simp only [Optics.buildMany, Except.ok.injEq] at h
    subst h; exact ho
  | (k, e) :: es, out, els, P, he, ho, h => by
    rw [Optics.buildMany] at h
    cases hm : Optics.mkElement e wl with
    | error x => simp [hm] at h
    | ok el =>
      simp only [hm] at h
      refine buildMany_made (fun q hq => he q (by simp [hq])) ?_ h
      intro q hq
      rcases mem_set' hq with hq | rfl
      · exact ho q hq
      · exact he (k, e) (by simp) el hm

theorem prepareElements_made {wl : List ℝ} {o : Optics.Section ℝ} {els : Dict String (Optics.Element ℝ)} (h : Optics.prepareElements wl o = .ok els) :
    ∀ q ∈ els, ∃ e, (e = Optics.noElement ∨ e ∈ elements o) ∧ Optics.mkElement e wl = .ok q.2 := by
  cases o with
  | absent =>
    refine buildMany_made (P := fun el => ∃ e, (e = Optics.noElement ∨ e ∈ elements .absent) ∧ Optics.mkElement e wl = .ok el) ?_ (by simp) h
    intro q hq el hel
    rw [List.mem_singleton] at hq
    subst hq
    exact ⟨_, .inl rfl, hel⟩
  | one e =>
    refine buildMany_made (P := fun el => ∃ e', (e' = Optics.noElement ∨ e' ∈ elements (.one e)) ∧ Optics.mkElement e' wl = .ok el) ?_ (by simp) h
    intro q hq el hel
    rw [List.mem_singleton] at hq
    subst hq
    exact ⟨e, .inr (by simp [elements]), hel⟩
  | many es =>
    refine buildMany_made (P := fun el => ∃ e', (e' = Optics.noElement ∨ e' ∈ elements (.many es)) ∧ Optics.mkElement e' wl = .ok el) ?_ (by simp) h
    intro q hq el hel
    exact ⟨q.2, .inr (List.mem_map.mpr ⟨q, hq, rfl⟩), hel⟩

theorem pathElements_made {env : Env} {c : Common} {d : Descr} {els : Dict String (Optics.Element ℝ)} (h : pathElements env c d = .ok els) :
    ∀ q ∈ els, ∃ e, (e = Optics.noElement ∨ e ∈ opticsOf c d) ∧ Optics.mkElement e (workGrid env d) = .ok q.2 := by
  unfold pathElements at h
  split_ifs at h
  cases h1 : Optics.prepareElements (workGrid env d) c.optics with
  | error x => simp [h1] at h
  | ok shared =>
    simp only [h1] at h
    cases ho : d.optics with
    | none => simp [ho] at h
    | some o =>
      simp only [ho] at h
      cases h2 : Optics.prepareElements (workGrid env d) o with
      | error x => simp [h2] at h
      | ok own =>
        simp only [h2, Except.ok.injEq] at h
        subst h
        intro q hq
        have e0 : opticsOf c d = elements c.optics ++ elements o := by simp [opticsOf, ho]
        rw [e0]
        rcases prepend_mem hq with hq | hq
        · obtain ⟨e, he, hm⟩ := prepareElements_made h1 q hq
          exact ⟨e, he.imp id (fun h => by simp [h]), hm⟩
        · obtain ⟨e, he, hm⟩ := prepareElements_made h2 q hq
          exact ⟨e, he.imp id (fun h => by simp [h]), hm⟩

theorem prod_pos' : ∀ {l : List ℝ}, (∀ v ∈ l, 0 < v) → 0 < l.prod
  | [], _ => by simp
  | v :: l, h => by
    rw [List.prod_cons]
    exact mul_pos (h v (by simp)) (prod_pos' (fun v hv => h v (by simp [hv])))

theorem total_pos {env : Env} {c : Common} {d : Descr} {L U : ℝ} (hc : Clear env c d L U) {els : Dict String (Optics.Element ℝ)} (h : pathElements env c d = .ok els)
    {total : List ℝ} (ht : (Optics.transmissionTable (workGrid env d) els).get? "total" = some total) :
    ∀ (j : ℕ) x, (workGrid env d)[j]? = some x → L ≤ x → x ≤ U → PosAt total j := by
  intro j x hx h1 h2
  have hj : j < (workGrid env d).length := (List.getElem?_eq_some_iff.mp hx).1
  have hmade := pathElements_made h
  have hon : Optics.OnGrid (workGrid env d).length els := by
    intro p hp
    obtain ⟨e, _, hm⟩ := hmade p hp
    exact Optics.mkElement_length e _ _ hm
  obtain ⟨⟨tot, t1, t2, t3⟩, _⟩ := Optics.total_transmission (workGrid env d) els hon
  rw [ht, Option.some.injEq] at t1
  subst t1
  have hp : 0 < total.getD j 0 := by
    rw [t3 j hj]
    apply prod_pos'
    intro v hv
    obtain ⟨p, hpm, rfl⟩ := List.mem_map.mp hv
    obtain ⟨e, he, hm⟩ := hmade p hpm
    have htr : Optics.getTransmission e (workGrid env d) = .ok p.2.transmission := by
      unfold Optics.mkElement at hm
      cases g1 : Optics.getTransmission e (workGrid env d) with
      | error x => simp [g1] at hm
      | ok tr =>
        simp only [g1] at hm
        cases g2 : Optics.getEmissivity e (workGrid env d) with
        | error x => simp [g2] at hm
        | ok em =>
          simp only [g2, Except.ok.injEq] at hm
          rw [← hm]
    rcases he with rfl | he
    · have : Optics.getTransmission Optics.noElement (workGrid env d) = .ok ((workGrid env d).map (fun _ => (1 : ℝ))) := rfl
      rw [this, Except.ok.injEq] at htr
      rw [← htr]
      rw [List.getD_eq_getElem?_getD, List.getElem?_map, hx]; norm_num
    · obtain ⟨w, hw, hw0⟩ := hc.optics e he _ htr j x hx h1 h2
      simp [List.getD_eq_getElem?_getD, hw, hw0]
  rw [List.getD_eq_getElem?_getD] at hp
  cases hg : total[j]? with
  | none => simp [hg] at hp
  | some v =>
    simp only [hg, Option.getD_some] at hp
    exact ⟨v, hg, hp⟩

/-! ## Built channels -/

theorem getQe_clear {env : Env} (he : SoundEnv env) {c : Common} {d : Descr} (hd : SoundDescr env d) (hq : QeThere d) {L t U : ℝ} (hc : Clear env c d L U) (hs : Sampled env d L t U)
    {qe : Rebin.Signal ℝ} (h : getQe env d = .ok qe) : Sorted qe ∧ Shines qe L t U := by
  obtain ⟨g1, _, _⟩ := grid_sound he hd
  unfold getQe at h
  unfold QeThere at hq
  cases hqe : d.qe with
  | constant v =>
    simp only [hqe, Except.ok.injEq] at h
    subst h
    refine ⟨⟨by simp [Instrument.constantQe], g1⟩, ?_, hs.work.1, hs.work.2⟩
    intro p hp _ _
    obtain ⟨j, hj, e⟩ := List.mem_iff_getElem.mp hp
    rw [← e]
    simpa [Instrument.constantQe] using hc.constant v hqe
  | data q =>
    simp only [hqe] at hq h
    obtain ⟨col, wl, v, hcol, hw, hv, hl, hsd, _⟩ := hq
    have hname : Misc.getWlColName q.keys none = .ok (some col) := by
      simp only [Misc.getWlColName, List.foldl_cons, List.foldl_nil, Except.ok.injEq]
      have hck : col ∈ q.keys := Dict.mem_keys_of_get? hw
      rcases hcol with rfl | ⟨rfl, hn⟩
      · rw [if_pos hck]
      · rw [if_neg hn, if_pos hck]
    have e1 : q.getE col = .ok wl := by unfold Dict.getE; rw [hw]
    have e2 : q.getE d.noise.value = .ok v := by unfold Dict.getE; rw [hv]
    have e3 : Rebin.Signal.mk? wl v = .ok ⟨wl, v⟩ := (Rebin.mk?_ok wl v ⟨wl, v⟩).mpr ⟨rfl, hl⟩
    simp only [hname, e1, e2, e3, Except.ok.injEq] at h
    subst h
    obtain ⟨s1, s2⟩ := hs.table q hqe col wl hcol hw
    exact ⟨⟨hl, hsd⟩, hc.table q hqe col wl v hcol hw hv, s1, s2⟩

/-- C103: a built channel sees the points of a grid around which its description is clear and sampled. -/
theorem built_sees {fuel : ℕ} {env : Env} (he : SoundEnv env) {c : Common} {d : Descr} (hd : SoundDescr env d) (hq : QeThere d) {x : Built}
    (hb : build fuel env c false d = some (.ok x)) {L U : ℝ} (hc : Clear env c d L U) :
    (∀ g i t, Inner g L U i → g[i]? = some t → Sampled env d L t U → L ≤ t → t ≤ U → SeesAt x.ch.inst g L U i) ∧
    ((∃ t, Sampled env d L t U) → Sorted x.ch.inst.qe) ∧ Sorted x.ch.inst.tr := by
  obtain ⟨_, st, hst, hp⟩ := build_inv hb
  obtain ⟨m, hsound⟩ := builder_sound he hd hst
  obtain ⟨els, total, trCol, tr, rads, slit, hels, htot, htr, _, _, _, _, hch, _⟩ := buildPath_inv hsound hp
  obtain ⟨hqe, _⟩ := builder_inv hst
  obtain ⟨tr1, tr2⟩ := getTransmission_lengths htr
  obtain ⟨g1, _, _⟩ := grid_sound he hd
  have hpos := total_pos hc hels htot
  have htrpos : ∀ p ∈ tr.wl.zip tr.data, L ≤ p.1 → p.1 ≤ U → 0 < p.2 := by
    intro p hpm p1 p2
    obtain ⟨j, hj, e⟩ := List.mem_iff_getElem.mp hpm
    simp only [List.length_zip, lt_min_iff] at hj
    have hx : (workGrid env d)[j]? = some p.1 := by
      rw [← tr1, List.getElem?_eq_getElem hj.1, ← e]; simp
    have hpt := hpos j p.1 hx p1 p2
    have hd' : PosAt tr.data j := by
      unfold Instrument.getTransmission at htr
      cases hm : Rebin.Signal.mk? (workGrid env d) total with
      | error e => simp [hm] at htr
      | ok s =>
        obtain ⟨rfl, _⟩ := (Rebin.mk?_ok _ _ _).mp hm
        simp only [hm] at htr
        cases hf : (chanOf env c d st ⟨[], []⟩).force with
        | none => simp [hf] at htr
        | some f =>
          cases f with
          | false =>
            simp only [hf, Except.ok.injEq, Prod.mk.injEq] at htr
            rw [← htr.2]; exact hpt
          | true =>
            simp only [hf, Except.ok.injEq, Prod.mk.injEq] at htr
            rw [← htr.2]
            obtain ⟨b1, b2⟩ := hc.band hf
            exact hpt.zeroOut hx (b1.trans p1) (p2.trans b2)
    obtain ⟨v, hv, hv0⟩ := hd'
    rw [List.getElem?_eq_getElem hj.2, Option.some.injEq] at hv
    have : p.2 = v := by rw [← e, ← hv]; simp
    rw [this]; exact hv0
  have hinst : x.ch.inst = chanOf env c d st tr := by rw [hch]
  rw [hinst]
  refine ⟨?_, ?_, ⟨by rw [show (chanOf env c d st tr).tr = tr from rfl, tr1, tr2], by rw [show (chanOf env c d st tr).tr = tr from rfl, tr1]; exact g1⟩⟩
  · intro g i t hi ht hs hLt htU
    refine ⟨hi.first, hi.last, hi.low, hi.high, ?_, ?_, ?_⟩
    · intro y hy
      rw [ht, Option.some.injEq] at hy
      subst hy
      exact (getQe_clear he hd hq hc hs hqe).2
    · intro y hy
      rw [ht, Option.some.injEq] at hy
      subst hy
      refine ⟨htrpos, ?_, ?_⟩
      · show ∃ x ∈ tr.wl, _; rw [tr1]; exact hs.work.1
      · show ∃ x ∈ tr.wl, _; rw [tr1]; exact hs.work.2
    · intro hf y hy
      rw [ht, Option.some.injEq] at hy
      subst hy
      obtain ⟨b1, b2⟩ := hc.band hf
      exact ⟨b1.trans hLt, htU.trans b2⟩
  · rintro ⟨t, hs⟩
    exact (getQe_clear he hd hq hc hs hqe).1

/-- What makes a built channel detect a star whose light comes through this sky: a stretch of wavelengths from `L` to `U` where the channel is clear, and there
a point of the payload's grid (photometers) or a pixel (spectrometers), where the sky lets light through and the images of the star have light. -/
structure Aimed (env : Env) (c : Common) (d : Descr) (a b : ℝ) (g : List ℝ) (sky : Option (Rebin.Signal ℝ)) (x : Built) (L U : ℝ) : Prop where
  low : 9 / 10 * a < L
  high : U < 11 / 10 * b
  clear : Clear env c d L U
  photometer : isSpectrometer d.kind = false → 0 < x.ch.inst.prfMax ∧
    ∃ i t, Inner g L U i ∧ g[i]? = some t ∧ Sampled env d L t U ∧ ∀ s, sky = some s → PosAt s.data i
  spectrometer : isSpectrometer d.kind = true → ∃ P Q k, PixelAt x.ch.inst g P Q k ∧
    ∀ (i : ℕ) t, g[i]? = some t → P ≤ t → t ≤ Q → Inner g L U i ∧ Sampled env d L t U ∧ ∀ s, sky = some s → PosAt s.data i

theorem Inner.between {g : List ℝ} (hg : g.Pairwise (· < ·)) {L U : ℝ} {i : ℕ} (h : Inner g L U i) {t : ℝ} (ht : g[i]? = some t) : L ≤ t ∧ t ≤ U := by
  have hi := h.last
  have h0 := h.first
  have e : t = g[i]'(by omega) := by rw [List.getElem?_eq_getElem (by omega), Option.some.injEq] at ht; exact ht.symm
  have l1 := List.pairwise_iff_getElem.mp hg (i - 1) i (by omega) (by omega) (by omega)
  have l2 := List.pairwise_iff_getElem.mp hg i (i + 1) (by omega) (by omega) (by omega)
  have k1 := h.low _ (List.getElem?_eq_getElem (by omega))
  have k2 := h.high _ (List.getElem?_eq_getElem hi)
  rw [e]
  exact ⟨by linarith, by linarith⟩

/-- C103: a channel aimed at a star detects it, if the star shines at every inner point of the payload's grid. -/
theorem aimed_lit {fuel : ℕ} {env : Env} (he : SoundEnv env) (hpp : 0 < env.perPhoton) {c : Common} (hsc : SoundCommon c) (hat : 0 < c.atel) {d : Descr} (hd : SoundDescr env d)
    (hq : QeThere d) {x : Built} (hb : build fuel env c false d = some (.ok x)) {a b : ℝ} {g : List ℝ} (hg : IsGrid a b g) (hgpos : ∀ y ∈ g, 0 < y)
    {sky : Option (Rebin.Signal ℝ)} (hsky : ∀ s, sky = some s → s.wl = g ∧ s.data.length = g.length ∧ All0 s.data) {L U : ℝ} (hx : Aimed env c d a b g sky x L U)
    {sed : Rebin.Signal ℝ} (hs1 : sed.wl = g) (hs2 : sed.data.length = g.length) (hs0 : All0 sed.data) (hsed : ∀ i : ℕ, 0 < i → i + 1 < g.length → PosAt sed.data i)
    {out : Instrument.TargetOut ℝ} (h : channelTarget x.ch sed sky = .ok out) : ∃ v ∈ out.maxInPixel, 0 < v := by
  obtain ⟨b1, b2, b3⟩ := built_sees he hd hq hb hx.clear
  obtain ⟨_, _, _, n, hspec, hreal⟩ := build_sound he hsc hd hb
  obtain ⟨_, st, hst, hp⟩ := build_inv hb
  obtain ⟨m, hsound⟩ := builder_sound he hd hst
  obtain ⟨els, total, trCol, tr, rads, slit, _, _, _, _, _, _, _, hch, _⟩ := buildPath_inv hsound hp
  have hat' : 0 < x.ch.inst.atel := by rw [hch]; exact hat
  have hpp' : 0 < x.ch.inst.perPhoton := by rw [hch]; exact hpp
  have hk : x.ch.spectrometer = isSpectrometer d.kind := by rw [hch]
  unfold channelTarget at h
  cases hkind : isSpectrometer d.kind with
  | false =>
    rw [hk, hkind] at h
    simp only [Bool.false_eq_true, if_false] at h
    obtain ⟨hprf, i, t, hi, ht, hs, hsi⟩ := hx.photometer hkind
    obtain ⟨l1, l2⟩ := hi.between hg.sorted ht
    exact (photometer_lit hg hgpos (hreal [] ⟨none, [], [], [], []⟩).chan hat' hpp' hprf (b2 ⟨t, hs⟩) b3 hx.low hx.high (b1 g i t hi ht hs l1 l2)
      (fun s h => ⟨(hsky s h).1, (hsky s h).2.1, (hsky s h).2.2, hsi s h⟩) hs1 hs2 hs0 (hsed i hi.first hi.last) h).2
  | true =>
    rw [hk, hkind] at h
    simp only [if_true] at h
    obtain ⟨P, Q, k, hpix, hall⟩ := hx.spectrometer hkind
    have hsm : ∃ t, Sampled env d L t U := by
      obtain ⟨y, _, ⟨z, hz, z1, z2⟩, ⟨z', _, z3, z4⟩, _⟩ := hpix.wl
      obtain ⟨i, hi, rfl⟩ := List.mem_iff_getElem.mp hz
      exact ⟨_, (hall i _ (List.getElem?_eq_getElem hi) z1 (by linarith)).2.1⟩
    refine spectrometer_lit hg hgpos hat' hpp' (b2 hsm) b3 hx.low hx.high (P := P) (Q := Q) ?_ (fun s h => ⟨(hsky s h).1, (hsky s h).2.1, ?_⟩) hs1 hs2 ?_ hpix h
    · intro i t ht h1 h2
      obtain ⟨q1, q2, _⟩ := hall i t ht h1 h2
      obtain ⟨l1, l2⟩ := q1.between hg.sorted ht
      exact b1 g i t q1 ht q2 l1 l2
    · intro i t ht h1 h2
      exact (hall i t ht h1 h2).2.2 s h
    · intro i t ht h1 h2
      have := (hall i t ht h1 h2).1
      exact hsed i this.first this.last

/-! ## Black bodies -/

theorem linspace_ends (a b : ℝ) (n : ℕ) (hn : 2 ≤ n) : a ∈ Source.linspace a b n ∧ b ∈ Source.linspace a b n := by
  have hlin : ∀ k : ℕ, k < n → a + (k : ℝ) * ((b - a) / ((n : ℝ) - 1)) ∈ Source.linspace a b n := by
    intro k hk
    unfold Source.linspace
    exact List.mem_map.mpr ⟨k, List.mem_range.mpr hk, rfl⟩
  constructor
  · simpa using hlin 0 (by omega)
  · have := hlin (n - 1) (by omega)
    have hn' : (2 : ℝ) ≤ (n : ℝ) := by exact_mod_cast hn
    have hz : (n : ℝ) - 1 ≠ 0 := by linarith
    have e : a + ((n - 1 : ℕ) : ℝ) * ((b - a) / ((n : ℝ) - 1)) = b := by
      rw [Nat.cast_sub (by omega), Nat.cast_one, mul_div_cancel₀ _ hz]; ring
    rwa [e] at this

/-- A black body shines at every inner point of the working grid. -/
theorem planck_star {env : Source.Env ℝ} {d : Source.Descr} (hd : d.bytes = false) (h1 : Source.lower d.value ≠ "custom") (h2 : Source.lower d.value ≠ "phoenix")
    {D T M R a b : ℝ} {n : ℕ} (hn : 2 ≤ n) (ha : 0 < a) (hab : a < b) (hT : 0 < T) (hD : D ≠ 0) (hR : R ≠ 0) {grid : ℝ → ℝ → List ℝ} (hgrid : ∀ x y, grid x y = Instrument.logspace x y n) :
    ∃ st, Source.loadSource Source.code env grid d ⟨some D, some T, some M, some R⟩ ⟨a, some 1⟩ ⟨b, some 1⟩ = .ok st ∧
      ∀ i : ℕ, 0 < i → i + 1 < (Instrument.logspace a b n).length → PosAt st.sed.data i := by
  obtain ⟨st, hst, hm, hsed⟩ := Source.planckStar_sed Source.code D T R a b
  obtain ⟨hp, hma, hmb, hlen, hr⟩ := Instrument.logspace_spec a b n ha hab hn
  have hlb := Source.linspace_bounds a b 10000 (by norm_num) hab.le
  obtain ⟨s, hs, hw⟩ := Source.rebin_works (Instrument.logspace a b n) (Source.linspace a b 10000)
    ((Source.linspace a b 10000).map (fun w => Real.pi * (R / D) ^ 2 * planck w T)) hp (by omega) (Source.linspace_pairwise a b 10000 (by norm_num) hab)
    (by simp) (by simp [Source.linspace]) (fun w h => ha.trans_le (hr w h).1) (fun w h => ⟨⟨a, hma, (hlb w h).1⟩, ⟨b, hmb, (hlb w h).2⟩⟩)
  have hbuild := (Source.source_selection Source.code env d hd D T M R a b).2.2 h1 h2
  refine ⟨{ st with sed := s }, ?_, ?_⟩
  · unfold Source.loadSource Source.sortRange
    simp only [Source.Wl.um, Option.getD_some, mul_one, gt_iff_lt, if_neg (not_lt.mpr hab.le), hbuild, hst]
    unfold Source.toGrid
    simp only [Option.getD_some, ne_eq, not_true_eq_false, if_false]
    have : st.sed.spectralRebin (grid a b) = .ok s := by rw [hsed, hgrid]; exact hs
    simp only [this]
  · intro i h0 h1
    obtain ⟨hA, hB⟩ := linspace_ends a b 10000 (by norm_num)
    have hsort := Source.linspace_pairwise a b 10000 (by norm_num) hab
    clear hst hsed hbuild
    show PosAt s.data i
    revert hs hlb hA hB hsort
    generalize Source.linspace a b 10000 = W
    intro hlb hs hA hB hsort
    refine Shines.rebin hp (s := ⟨W, W.map (fun w => Real.pi * (R / D) ^ 2 * planck w T)⟩)
      ⟨by simp, hsort⟩ hs (L := a) (U := b) ⟨a, hma, by linarith⟩ ⟨b, hmb, by linarith⟩ h0 h1 ?_ ?_ ?_
    · intro x hx; exact (hr x (List.mem_of_getElem? hx)).1
    · intro x hx; exact (hr x (List.mem_of_getElem? hx)).2
    · intro x hx
      refine ⟨?_, ⟨a, hA, le_refl _, (hr x (List.mem_of_getElem? hx)).1⟩, ⟨b, hB, (hr x (List.mem_of_getElem? hx)).2, le_refl _⟩⟩
      intro p hp _ _
      obtain ⟨j, hj, e⟩ := List.mem_iff_getElem.mp hp
      rw [← e]
      simp only [List.getElem_zip, List.getElem_map]
      have hpos : 0 < (R / D) ^ 2 := by positivity
      exact mul_pos (mul_pos Real.pi_pos hpos) (planck_pos _ _ (ha.trans_le (hlb _ (List.getElem_mem _)).1) hT)

/-- A black body at a distance lights every channel that is aimed at some stretch of wavelengths through its sky. -/
theorem blackbody_lit {env : Env} (he : SoundEnv env) (hpp : 0 < env.perPhoton) {c : Common} (hc : SoundCommon c) (hat : 0 < c.atel) {ds : List Descr}
    (hd : ∀ d ∈ ds, SoundDescr env d) (hcp : ∀ d ∈ ds, Complete env c d) {w : World} {a b : ℝ} {n : ℕ} (hw : PayloadWorld w a b n)
    {sec : Foreground.Section ℝ} {src : Source.Descr} (hsrc : src.bytes = false) (h1 : Source.lower src.value ≠ "custom") (h2 : Source.lower src.value ≠ "phoenix")
    {fuel : ℕ} {bs : List Built} (hb : buildAll fuel env c ds = some (.ok bs)) {t : Target} {D T M R : ℝ} (hstar : t.star = ⟨some D, some T, some M, some R⟩) (hD : D ≠ 0) (hT : 0 < T)
    (hR : R ≠ 0) (hf : Ready t) (hsk : SkyThere w t sec)
    (haim : ∀ sky, Foreground.estimateForegrounds w.consts.B w.maps w.skyGrid sec t.sky = (sky, .ok ()) → ∀ d ∈ ds, ∀ x, build fuel env c false d = some (.ok x) →
        ∃ L U, Aimed env c d a b (Instrument.logspace a b n) sky.transmission x L U) :
    (∀ T', t.star.Teff = some T' → 0 < T') ∧ ∃ star, Source.loadSource w.consts w.env w.grid src t.star ⟨a, some 1⟩ ⟨b, some 1⟩ = .ok star ∧
      ∀ sky, Foreground.estimateForegrounds w.consts.B w.maps w.skyGrid sec t.sky = (sky, .ok ()) → ∀ x ∈ bs, ∀ out,
        channelTarget x.ch star.sed sky.transmission = .ok out → ∃ v ∈ out.maxInPixel, 0 < v := by
  obtain ⟨ha, hab, hn⟩ := hw.range
  have hTs : ∀ T', t.star.Teff = some T' → 0 < T' := by
    intro T' h; rw [hstar] at h; simp only [Option.some.injEq] at h; subst h; exact hT
  have hg := logspace_isGrid ha hab hn
  have hsane := logspace_sane n a b ha hab.le
  obtain ⟨st, hst, hpos⟩ := planck_star (env := w.env) (d := src) hsrc h1 h2 (M := M) hn ha hab hT hD hR hw.grid
  rw [← hstar, ← hw.consts] at hst
  refine ⟨hTs, st, hst, ?_⟩
  intro sky hsky x hx out hout
  have hf2 := buildAll_mem hb
  obtain ⟨i, hi, rfl⟩ := List.mem_iff_getElem.mp hx
  have hlen := hf2.length_eq
  have hbuild := (List.forall₂_iff_get.mp hf2).2 i (by omega) hi
  have hm : ds[i]'(by omega) ∈ ds := List.getElem_mem _
  obtain ⟨L, U, haim'⟩ := haim sky hsky _ hm _ hbuild
  have hgd : (0 : ℝ) ∉ Rebin.diffs (w.grid a b) := by rw [hw.grid]; exact diffs_ne hg.sorted
  obtain ⟨s1, s2⟩ := loadSource_sed hab.le hgd hst
  rw [hw.grid] at s1 s2
  have hB : ∀ w' T', 0 < w' → 0 < T' → 0 ≤ w.consts.B w' T' := by
    intro w' T' hw' hT'; rw [hw.consts]; exact (planck_pos w' T' hw' hT').le
  have hs0 : All0 st.sed.data := (source_nonneg (by rw [hw.consts]; exact Real.pi_pos.le) hB hw.files hTs (by simpa [Source.Wl.um] using ha)
    (by simpa [Source.Wl.um] using ha.trans hab) hst).1
  obtain ⟨sky', hsky', hon, _⟩ := estimate_ok (B := w.consts.B) (m := w.maps) (g := w.skyGrid) (s := t.sky) hsk.some hf.fresh.1 hf.fresh.2 hsk.there
  rw [hsky] at hsky'
  have e : sky = sky' := (Prod.mk.inj hsky').1
  subst e
  rw [hw.skyGrid] at hon
  have gsky : GoodSky sky := by
    have hsky2 := hsky
    rw [estimateForegrounds_loop, hw.skyGrid] at hsky2
    exact estimate_nonneg (fun x hx => ⟨hB _ _ (hsane.2 x hx) (by norm_num), hB _ _ (hsane.2 x hx) (by norm_num)⟩) hw.maps hsane.1
      (fun x hx => (hsane.2 x hx).le) _ _ _ hsk.good ⟨by simp [hf.fresh.1], by simp [hf.fresh.2]⟩ hsky2
  exact aimed_lit he hpp hc hat (hd _ hm) (hcp _ hm).qe hbuild hg hsane.2 (fun s h => ⟨(hon.tr s h).1, (hon.tr s h).2, gsky.tr s h⟩) haim' s1 s2 hs0 hpos hout

/-- C102 (black bodies): a payload of complete, sound descriptions can be built, and observes every star that is a black body at a distance, if its foregrounds can be estimated
and every channel is aimed at some stretch of wavelengths through this sky. -/
theorem blackbody_observation {env : Env} (he : SoundEnv env) (hpp : 0 < env.perPhoton) {c : Common} (hc : SoundCommon c) (hat : 0 < c.atel) {ds : List Descr} (hds : ds ≠ [])
    (hd : ∀ d ∈ ds, SoundDescr env d) (hcp : ∀ d ∈ ds, Complete env c d) (hnames : (ds.map (fun d => d.noise.value)).Nodup)
    {w : World} {a b : ℝ} {n : ℕ} (hw : PayloadWorld w a b n) (hin : ∀ d ∈ ds, Within a b n d)
    {well fw freq dark rn : NoiseChannel → ℝ} (hbud : Budgets c ds well fw freq dark rn)
    {sec : Foreground.Section ℝ} {src : Source.Descr} (hsrc : src.bytes = false) (h1 : Source.lower src.value ≠ "custom") (h2 : Source.lower src.value ≠ "phoenix") :
    ∃ fuel bs, (∀ m, fuel ≤ m → buildAll m env c ds = some (.ok bs)) ∧
      ∀ (t : Target) (D T M R : ℝ), t.star = ⟨some D, some T, some M, some R⟩ → D ≠ 0 → 0 < T → R ≠ 0 → Ready t → SkyThere w t sec →
      (∀ sky, Foreground.estimateForegrounds w.consts.B w.maps w.skyGrid sec t.sky = (sky, .ok ()) → ∀ d ∈ ds, ∀ x, build fuel env c false d = some (.ok x) →
        ∃ L U, Aimed env c d a b (Instrument.logspace a b n) sky.transmission x L U) →
      ∃ tabs' t' r, observe w ⟨bs.map Built.ch, some sec, some src, ⟨a, some 1⟩, ⟨b, some 1⟩⟩ (bs.map Built.table) t = (tabs', .ok t') ∧
        t'.name = t.name ∧ t'.table = some r ∧ HasBudget c ds well fw freq dark rn r := by
  obtain ⟨fuel, bs, hbs, hobs⟩ := complete_observation he hc hds hd hcp hnames hw hin hbud (sec := sec) (src := src)
  refine ⟨fuel, bs, hbs, ?_⟩
  intro t D T M R hstar hD hT hR hf hsk haim
  obtain ⟨hTs, st, hst, hlit⟩ := blackbody_lit he hpp hc hat hd hcp hw hsrc h1 h2 (hbs fuel (le_refl _)) hstar hD hT hR hf hsk haim
  exact hobs t hf hsk hTs st hst hlit

end ExoRad.Build
