import Verif.Props.ObserveOk
import Verif.Props.SourceSelect

/-!
# A complete target of a complete payload is observed: C102
-/

set_option linter.unusedSectionVars false

namespace ExoRad.Build
open Table Pipeline Light

/-! ## Specification -/

/-- The working grids of ExoRad for a payload with this range and resolution, its constants, and files without negative light. -/
structure PayloadWorld (w : World) (a b : ℝ) (n : ℕ) : Prop where
  range : 0 < a ∧ a < b ∧ 2 ≤ n
  consts : w.consts = Source.code
  skyGrid : w.skyGrid = Instrument.logspace a b n
  grid : ∀ x y, w.grid x y = Instrument.logspace x y n
  files : GoodFiles w.env
  maps : ∀ p rows, w.maps.file p = some (.ok rows) → ∀ r ∈ rows, 0 ≤ r.2.2

/-- Foregrounds that can be estimated for a star at these coordinates, without negative light, and not named like a noise. -/
structure SkyThere (w : World) (t : Target) (sec : Foreground.Section ℝ) : Prop where
  some : sec.list ≠ []
  there : ∀ kd ∈ sec.list, ForegroundThere w.maps t.sky.ra t.sky.dec kd
  good : ∀ kd ∈ sec.list, GoodDescr kd.2
  names : ∀ kd ∈ sec.list, substr "_noise" (Foreground.nameOf kd) = false

/-- What the noise estimate takes from a channel's description. -/
structure Budgets (c : Common) (ds : List Descr) (well fw freq dark rn : NoiseChannel → ℝ) : Prop where
  detector : ∀ d ∈ ds, GoodDetector d.noise.detector (well d.noise) (fw d.noise) (freq d.noise) (dark d.noise) (rn d.noise)
  excess : ∀ d ∈ ds, -1 ≤ d.noise.noiseX.getD 0
  common : ∀ e ∈ entries c.customNoise, GoodEntry e
  own : ∀ d ∈ ds, ∀ e ∈ entries d.noise.customNoise, GoodEntry e

/-- Row `i` of the result, of a channel with this description: a positive frame time (the given one, or short enough for the brightest pixel), and the total
noise the variances give, NaN without light from the star. -/
structure RowBudget (c : Common) (d : Descr) (well fw freq dark rn : NoiseChannel → ℝ) (r : Table ℝ) (tot : List (Num ℝ)) (i : ℕ) : Prop where
  frame : 0 < cellAt r "frameTime" i
  given : ∀ f, d.noise.detector.frameTime = some f → cellAt r "frameTime" i = f
  filled : d.noise.detector.frameTime = none → cellAt r "frameTime" i * cellAt r "MaxSignal_inPixel" i ≤ fw d.noise * well d.noise
  unlit : cellAt r "star_signal_inAperture" i = 0 → tot[i]? = some Num.nan
  total : cellAt r "star_signal_inAperture" i ≠ 0 → ∃ T : ℝ, tot[i]? = some (Num.fin T) ∧ 0 ≤ T ∧
    T ^ 2 = Spec.relVariance
      { dark := dark d.noise, read := rn d.noise, excess := d.noise.noiseX.getD 0, frame := cellAt r "frameTime" i,
        freq := freq d.noise, avg := d.noise.detector.multiaccumM.getD 1 }
      { star := cellAt r "star_signal_inAperture" i, total := signalSum r i, window := cellAt r "WindowSize" i }
      (values (entries c.customNoise) ++ values (entries d.noise.customNoise))

/-- The result of a target: the channels' names, at least one row for every channel, the noise budget in every row. -/
def HasBudget (c : Common) (ds : List Descr) (well fw freq dark rn : NoiseChannel → ℝ) (r : Table ℝ) : Prop :=
  ∃ (names : List String) (tot : List (Num ℝ)), r.get? "chName" = some (names.map Cell.str) ∧ r.get? "total_noise" = some (tot.map Cell.num) ∧
    tot.length = names.length ∧ (∀ x, x ∈ names ↔ ∃ d ∈ ds, d.noise.value = x) ∧
    ∀ d ∈ ds, ∀ i : ℕ, names[i]? = some d.noise.value → RowBudget c d well fw freq dark rn r tot i

/-! ## The star -/

theorem loadSource_sed {c : Source.Consts ℝ} {env : Source.Env ℝ} {grid : ℝ → ℝ → List ℝ} {d : Source.Descr} {s : Source.StarData ℝ} {a b : ℝ}
    {st : Source.Built ℝ} (hab : a ≤ b) (hg : (0 : ℝ) ∉ Rebin.diffs (grid a b))
    (h : Source.loadSource c env grid d s ⟨a, some 1⟩ ⟨b, some 1⟩ = .ok st) : st.sed.wl = grid a b ∧ st.sed.data.length = (grid a b).length := by
  unfold Source.loadSource Source.sortRange at h
  simp only [Source.Wl.um, Option.getD_some, mul_one, gt_iff_lt, if_neg (not_lt.mpr hab)] at h
  cases h1 : Source.buildStar c env d s a b with
  | error e => simp [h1] at h
  | ok x =>
    simp only [h1] at h
    unfold Source.toGrid at h
    simp only [Option.getD_some, ne_eq, not_true_eq_false, if_false] at h
    cases h2 : x.sed.spectralRebin (grid a b) with
    | error e => simp [h2] at h
    | ok y =>
      simp only [h2, Except.ok.injEq] at h
      subst h
      obtain ⟨w1, w2⟩ := Rebin.spectralRebin_wellFormed _ _ _ hg h2
      refine ⟨w2, ?_⟩
      show y.data.length = _
      rw [← w2]; exact w1

theorem diffs_ne {l : List ℝ} (h : l.Pairwise (· < ·)) : (0 : ℝ) ∉ Rebin.diffs l := by
  induction l with
  | nil => simp [Rebin.diffs]
  | cons x l ih =>
    cases l with
    | nil => simp [Rebin.diffs]
    | cons y l =>
      have hxy : x < y := (List.pairwise_cons.mp h).1 y (by simp)
      have := ih (List.pairwise_cons.mp h).2
      simp only [Rebin.diffs, List.mem_cons, not_or]
      exact ⟨by linarith [hxy], this⟩

theorem logspace_sane (R : ℕ) (a b : ℝ) (ha : 0 < a) (hab : a ≤ b) :
    (Instrument.logspace a b R).Pairwise (· ≤ ·) ∧ ∀ x ∈ Instrument.logspace a b R, 0 < x := by
  constructor
  · unfold Instrument.logspace
    rw [List.pairwise_map]
    rcases Nat.lt_or_ge R 2 with hR | hR
    · rcases (by omega : R = 0 ∨ R = 1) with rfl | rfl <;> simp [List.range_succ]
    · apply List.Pairwise.imp _ List.pairwise_lt_range
      intro i j hij
      have h1 : (0 : ℝ) < (R : ℝ) - 1 := by
        have : (2 : ℝ) ≤ (R : ℝ) := by exact_mod_cast hR
        linarith
      have h2 : Real.logb 10 a ≤ Real.logb 10 b := Real.logb_le_logb_of_le (by norm_num) ha hab
      have h3 : (i : ℝ) ≤ (j : ℝ) := by exact_mod_cast hij.le
      apply Real.rpow_le_rpow_of_exponent_le (by norm_num)
      have := mul_le_mul_of_nonneg_right h3 (div_nonneg (sub_nonneg.mpr h2) h1.le)
      linarith
  · intro x hx
    unfold Instrument.logspace at hx
    obtain ⟨k, _, rfl⟩ := List.mem_map.mp hx
    positivity

/-! ## C102 -/

/-- C102: a payload of complete, sound descriptions can be built, and every fresh target whose foregrounds can be estimated and whose star can be loaded is observed, if
some pixel of every channel gets light from the star. Its result has the noise budget of every channel. -/
theorem complete_observation {env : Env} (he : SoundEnv env) {c : Common} (hc : SoundCommon c) {ds : List Descr} (hds : ds ≠ [])
    (hd : ∀ d ∈ ds, SoundDescr env d) (hcp : ∀ d ∈ ds, Complete env c d) (hnames : (ds.map (fun d => d.noise.value)).Nodup)
    {w : World} {a b : ℝ} {n : ℕ} (hw : PayloadWorld w a b n) (hin : ∀ d ∈ ds, Within a b n d)
    {well fw freq dark rn : NoiseChannel → ℝ} (hbud : Budgets c ds well fw freq dark rn)
    {sec : Foreground.Section ℝ} {src : Source.Descr} :
    ∃ fuel bs, (∀ m, fuel ≤ m → buildAll m env c ds = some (.ok bs)) ∧
      ∀ (t : Target), Ready t → SkyThere w t sec → (∀ T, t.star.Teff = some T → 0 < T) →
      ∀ (star : Source.Built ℝ), Source.loadSource w.consts w.env w.grid src t.star ⟨a, some 1⟩ ⟨b, some 1⟩ = .ok star →
      (∀ sky, Foreground.estimateForegrounds w.consts.B w.maps w.skyGrid sec t.sky = (sky, .ok ()) → ∀ x ∈ bs, ∀ out,
        channelTarget x.ch star.sed sky.transmission = .ok out → ∃ v ∈ out.maxInPixel, 0 < v) →
      ∃ tabs' t' r, observe w ⟨bs.map Built.ch, some sec, some src, ⟨a, some 1⟩, ⟨b, some 1⟩⟩ (bs.map Built.table) t = (tabs', .ok t') ∧
        t'.name = t.name ∧ t'.table = some r ∧ HasBudget c ds well fw freq dark rn r := by
  obtain ⟨ha, hab, hn⟩ := hw.range
  obtain ⟨fuel, bs, hbs⟩ := buildAll_succeeds he hc hd hcp
  refine ⟨fuel, bs, hbs, ?_⟩
  intro t hf hsk hT star hstar hlit
  have hb := hbs fuel (le_refl _)
  have hg := logspace_isGrid ha hab hn
  obtain ⟨sky, hsky, hon, hsome⟩ := estimate_ok (B := w.consts.B) (m := w.maps) (g := w.skyGrid) (s := t.sky) hsk.some hf.fresh.1 hf.fresh.2 hsk.there
  have hon' := hon
  rw [hw.skyGrid] at hon'
  have hgd : (0 : ℝ) ∉ Rebin.diffs (w.grid a b) := by rw [hw.grid]; exact diffs_ne hg.sorted
  obtain ⟨s1, s2⟩ := loadSource_sed hab.le hgd hstar
  rw [hw.grid] at s1 s2
  have hf2 := buildAll_mem hb
  have hreach : ∀ x ∈ bs, Reached sky star.sed x.ch := by
    intro x hx
    obtain ⟨i, hi, rfl⟩ := List.mem_iff_getElem.mp hx
    have hlen := hf2.length_eq
    have h := (List.forall₂_iff_get.mp hf2).2 i (by omega) hi
    have hm : ds[i]'(by omega) ∈ ds := List.getElem_mem _
    obtain ⟨fg, out, e1, e2, e3⟩ := light_reaches he (hd _ hm) (hcp _ hm) ha hab hn (hin _ hm) h hon' hsome s1 s2
      (fun k hk => by obtain ⟨kd, hkd, rfl⟩ := List.mem_map.mp hk; exact hsk.names kd hkd)
    exact ⟨fg, out, e1, e2, hlit sky hsky _ hx out e2, e3⟩
  obtain ⟨items, tabs', r, tot, i1, i2, o1, o2, o3, o4, o5⟩ := built_observation he hc hds hd hnames hb w (by rw [hw.consts]; rfl) (by rw [hw.consts]; rfl) hw.files hw.maps
    (by rw [hw.skyGrid]; exact logspace_sane n a b ha hab.le) (by intro x y hx hxy; rw [hw.grid]; exact logspace_sane n x y hx hxy)
    ⟨bs.map Built.ch, some sec, some src, ⟨a, some 1⟩, ⟨b, some 1⟩⟩ rfl sec rfl hsk.some hsk.good src rfl ⟨ha, rfl⟩ ⟨ha.trans hab, rfl⟩ t hf hT sky hsky star hstar hreach
    well fw freq dark rn hbud.detector hbud.excess hbud.common hbud.own
  refine ⟨tabs', _, r, o1, rfl, rfl, rowNames items, tot, o2, o3, o4, ?_, ?_⟩
  · intro x
    constructor
    · intro hx
      obtain ⟨it, hit, hx⟩ := List.mem_flatMap.mp hx
      have e := List.eq_of_mem_replicate hx
      have hm : it.ch ∈ bs.map Built.ch := by rw [← i1]; exact List.mem_map.mpr ⟨it, hit, rfl⟩
      obtain ⟨y, hy, e2⟩ := List.mem_map.mp hm
      obtain ⟨_, hnoise, _⟩ := buildAll_fillable he hc hd hb
      have hm2 : y.ch.noise ∈ ds.map Descr.noise := by rw [← hnoise]; exact List.mem_map.mpr ⟨y, hy, rfl⟩
      obtain ⟨d, hdm, e3⟩ := List.mem_map.mp hm2
      exact ⟨d, hdm, by rw [e, e3, e2]⟩
    · rintro ⟨d, hdm, rfl⟩
      obtain ⟨i, hi⟩ := (o5 d hdm).1
      exact List.mem_of_getElem? hi
  · intro d hdm i hi
    obtain ⟨p1, p2, p3, p4, p5⟩ := (o5 d hdm).2 i hi
    exact ⟨p1, p2, p3, p4, p5⟩

end ExoRad.Build
