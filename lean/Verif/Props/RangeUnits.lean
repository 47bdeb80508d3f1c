import Verif.Props.SourceSelect
import Verif.Props.Instrument
import Verif.Props.Pipeline
import Verif.Props.Spawn

/-!
# C112: the unit of the wavelength range of the payload

`payload["common"]["wl_min"]` and `["wl_max"]` become the grid of the star's spectrum. Microns work; any
other unit of the upper end skips every target; another unit of the lower end only leaves a star without light.
-/

namespace ExoRad.RangeUnits

open Source

section
variable {α : Type} [Field α] [LinearOrder α] [IsStrictOrderedRing α]

theorem diffs_neg : ∀ l : List α, l.Pairwise (· > ·) → ∀ d ∈ Rebin.diffs l, d < 0
  | [], _, d, h => by simp [Rebin.diffs] at h
  | [_], _, d, h => by simp [Rebin.diffs] at h
  | a :: b :: l, hp, d, h => by
    simp only [Rebin.diffs, List.mem_cons] at h
    rcases h with rfl | h
    · have := (List.pairwise_cons.mp hp).1 b (by simp)
      linarith
    · exact diffs_neg (b :: l) (List.pairwise_cons.mp hp).2 d h

theorem fst_pairwise {wl data : List α} (hp : wl.Pairwise (· < ·)) : ((wl.zip data).map Prod.fst).Pairwise (· < ·) :=
  hp.sublist (Rebin.zip_fst_prefix wl data).sublist

/-- Onto a decreasing grid a spectrum is interpolated: it is 0 at every point beyond its wavelengths. -/
theorem rebin_decreasing {s : Rebin.Signal α} {new : List α} (hn : new.Pairwise (· > ·)) (hp : s.wl.Pairwise (· < ·))
    {s' : Rebin.Signal α} (h : s.spectralRebin new = .ok s') (i : ℕ) (hi : i < new.length) (ho : ∀ w ∈ s.wl, w < new[i]) :
    s'.wl = new ∧ s'.data[i]? = some 0 := by
  unfold Rebin.Signal.spectralRebin at h
  split at h
  · cases h
  rename_i x' f hr
  simp only [Except.ok.injEq] at h
  subst h
  obtain ⟨lo, hi', pts', _, _, hpts, hx, hres⟩ := Rebin.rebin_ok new x' _ f hr
  have hlx : 2 ≤ new.length := by
    unfold Rebin.dedupGrid at hx
    split at hx
    · cases hx
    rename_i l hl
    simpa using Rebin.dedup_length _ _ _ hl
  have h0 : (0 : α) ∉ Rebin.diffs new := fun hm => lt_irrefl _ (diffs_neg new hn 0 hm)
  rw [Rebin.dedupGrid_id new h0 hlx] at hx
  simp only [Except.ok.injEq] at hx
  subst hx
  have hsub : pts'.Sublist (s.wl.zip s.data) := (Rebin.dedup_sublist _ _ _ hpts).trans List.filter_sublist
  refine ⟨rfl, ?_⟩
  unfold Rebin.resample at hres
  split at hres
  · cases hres
  rename_i mp hmp
  split at hres
  · cases hres
  rename_i mx hmx
  have h1 : 0 < mp := Rebin.diffs_pos _ ((fst_pairwise hp).sublist (hsub.map Prod.fst)) _ (Rebin.maxE_spec hmp).1
  have h2 : mx < 0 := diffs_neg new hn _ (Rebin.minE_spec hmx).1
  rw [if_neg (not_lt.mpr (h2.trans h1).le)] at hres
  simp only [Except.ok.injEq] at hres
  subst hres
  simp only [List.getElem?_map, List.getElem?_eq_getElem hi, Option.map_some, Option.getD_some, Option.some.injEq]
  apply Rebin.interp_outside
  right
  intro p hpm
  exact ho _ (List.of_mem_zip (hsub.subset hpm)).1

/-- It works when two samples count. -/
theorem rebin_decreasing_works {wl data new : List α} (hn : new.Pairwise (· > ·)) (hn2 : 2 ≤ new.length) (hp : wl.Pairwise (· < ·))
    (hl : data.length = wl.length) (h2 : ∃ u ∈ wl, ∃ v ∈ wl, u ≠ v ∧ (∀ lo ∈ new, (∀ x ∈ new, lo ≤ x) → 9 / 10 * lo < u ∧ 9 / 10 * lo < v) ∧
      ∀ hi ∈ new, (∀ x ∈ new, x ≤ hi) → u < 11 / 10 * hi ∧ v < 11 / 10 * hi) :
    ∃ s, (Rebin.Signal.mk wl data).spectralRebin new = .ok s := by
  have h0 : (0 : α) ∉ Rebin.diffs new := fun hm => lt_irrefl _ (diffs_neg new hn 0 hm)
  unfold Rebin.Signal.spectralRebin Rebin.rebin
  cases hlo : Rebin.minE new with
  | error e => rw [(Rebin.minE_error hlo).1] at hn2; simp at hn2
  | ok lo =>
    cases hhi : Rebin.maxE new with
    | error e => rw [(Rebin.maxE_error hhi).1] at hn2; simp at hn2
    | ok hi =>
      obtain ⟨u, hu, v, hv, huv, hlow, hhigh⟩ := h2
      obtain ⟨lom, lob⟩ := Rebin.minE_spec hlo
      obtain ⟨him, hib⟩ := Rebin.maxE_spec hhi
      have hfst : (wl.zip data).map Prod.fst = wl := List.map_fst_zip (by omega)
      have hwin : ((Rebin.window lo hi (wl.zip data)).map Prod.fst).Pairwise (· < ·) :=
        (fst_pairwise hp).sublist (List.filter_sublist.map Prod.fst)
      have mem : ∀ x ∈ wl, 9 / 10 * lo < x → x < 11 / 10 * hi → x ∈ (Rebin.window lo hi (wl.zip data)).map Prod.fst := by
        intro x hx h1 h2
        rw [← hfst] at hx
        obtain ⟨p, hpm, rfl⟩ := List.mem_map.mp hx
        exact List.mem_map_of_mem (List.mem_filter.mpr ⟨hpm, by simp [h1, h2]⟩)
      have mu := mem u hu (hlow lo lom lob).1 (hhigh hi him hib).1
      have mv := mem v hv (hlow lo lom lob).2 (hhigh hi him hib).2
      have hlen : 2 ≤ (Rebin.window lo hi (wl.zip data)).length := by
        by_contra hc
        match hw : Rebin.window lo hi (wl.zip data) with
        | [] => rw [hw] at mu; simp at mu
        | [q] => rw [hw] at mu mv; simp at mu mv; exact huv (mu.trans mv.symm)
        | q :: r :: l => rw [hw] at hc; simp at hc
      have hz : (0 : α) ∉ Rebin.diffs ((Rebin.window lo hi (wl.zip data)).map Prod.fst) :=
        fun hm => lt_irrefl _ (Rebin.diffs_pos _ hwin 0 hm)
      dsimp only
      rw [Rebin.dedup_id _ _ hz hlen]
      dsimp only
      rw [Rebin.dedupGrid_id new h0 hn2]
      dsimp only
      unfold Rebin.resample
      have ne : ∀ l : List α, 2 ≤ l.length → Rebin.diffs l ≠ [] := by
        intro l h hm
        have := Rebin.diffs_length l
        rw [hm] at this
        simp at this
        omega
      cases hm1 : Rebin.maxE (Rebin.diffs ((Rebin.window lo hi (wl.zip data)).map Prod.fst)) with
      | error e => exact absurd (Rebin.maxE_error hm1).1 (ne _ (by simpa using hlen))
      | ok mp =>
        cases hm2 : Rebin.minE (Rebin.diffs new) with
        | error e => exact absurd (Rebin.minE_error hm2).1 (ne _ hn2)
        | ok mx =>
          dsimp only
          split_ifs
          · exact ⟨_, rfl⟩
          · exact ⟨_, rfl⟩

end

/-- `np.logspace` from a larger to a smaller number is decreasing and ends at the smaller. -/
theorem logspace_decreasing (a b : ℝ) (n : ℕ) (hb : 0 < b) (hab : b < a) (hn : 2 ≤ n) :
    (Instrument.logspace a b n).Pairwise (· > ·) ∧ (Instrument.logspace a b n).length = n ∧
    (∀ w ∈ Instrument.logspace a b n, b ≤ w ∧ w ≤ a) ∧ b ∈ Instrument.logspace a b n ∧ a ∈ Instrument.logspace a b n ∧
    ∀ i (h : i < (Instrument.logspace a b n).length), i + 1 < n → b < (Instrument.logspace a b n)[i] := by
  have hlen : (Instrument.logspace a b n).length = n := by simp [Instrument.logspace]
  have hn1 : (0 : ℝ) < (n : ℝ) - 1 := by
    have : (2 : ℝ) ≤ n := by exact_mod_cast hn
    linarith
  have hl : Real.logb 10 b < Real.logb 10 a := Real.logb_lt_logb (by norm_num) hb hab
  have hstep : (Real.logb 10 b - Real.logb 10 a) / ((n : ℝ) - 1) < 0 := div_neg_of_neg_of_pos (by linarith) hn1
  have hp : (Instrument.logspace a b n).Pairwise (· > ·) := by
    rw [List.pairwise_iff_getElem]
    intro i j hi hj hij
    rw [Instrument.logspace_getElem, Instrument.logspace_getElem]
    apply Real.rpow_lt_rpow_of_exponent_lt (by norm_num)
    have : (i : ℝ) < j := by exact_mod_cast hij
    have := mul_lt_mul_of_neg_right this hstep
    linarith
  have hfirst : (Instrument.logspace a b n)[0]'(by omega) = a := by
    rw [Instrument.logspace_getElem]; simp
    exact Real.rpow_logb (by norm_num) (by norm_num) (hb.trans hab)
  have hlast : (Instrument.logspace a b n)[n - 1]'(by omega) = b := by
    rw [Instrument.logspace_getElem]
    have hc : ((n - 1 : Nat) : ℝ) = (n : ℝ) - 1 := by rw [Nat.cast_sub (by omega)]; simp
    rw [hc, mul_div_cancel₀ _ hn1.ne', add_sub_cancel]
    exact Real.rpow_logb (by norm_num) (by norm_num) hb
  have hin : ∀ i (h : i < (Instrument.logspace a b n).length), i + 1 < n → b < (Instrument.logspace a b n)[i] := by
    intro i h hi
    have := List.pairwise_iff_getElem.mp hp i (n - 1) h (by omega) (by omega)
    rw [hlast] at this
    exact this
  refine ⟨hp, hlen, ?_, List.mem_iff_getElem.mpr ⟨_, _, hlast⟩, List.mem_iff_getElem.mpr ⟨_, _, hfirst⟩, hin⟩
  intro w hw
  obtain ⟨i, hi, rfl⟩ := List.mem_iff_getElem.mp hw
  constructor
  · rcases Nat.eq_or_lt_of_le (show i ≤ n - 1 by omega) with rfl | h
    · exact hlast.ge
    · exact (hin i hi (by omega)).le
  · rcases Nat.eq_zero_or_pos i with rfl | h
    · exact hfirst.le
    · exact ((List.pairwise_iff_getElem.mp hp 0 i (by omega) hi h).trans_eq hfirst).le

theorem logspace_at (a b : ℝ) (n : ℕ) : (Instrument.logspace a b n).length = n := by simp [Instrument.logspace]

/-- C112 fails as stated: with the lower end of the range in another unit (of size `k` microns) and the upper
end in microns, a black body is loaded without an exception, on a grid from the bare number of the lower end
down to the upper end in microns, and is 0 at all its points but the last. -/
theorem mixed_units_dark (c : Consts ℝ) (env : Env ℝ) {n : ℕ} (hn : 2 ≤ n) {d : Descr} (hd : d.is "planck" = true) (hc : d.is "custom" = false)
    {s : StarData ℝ} {D T M R : ℝ} (hD : s.D = some D) (hT : s.Teff = some T) (hM : s.M = some M) (hR : s.R = some R)
    {a b k : ℝ} (hk : 0 < k) (hb : 0 < b) (hlo : a * k < b) (hba : b < a) :
    ∃ st, loadSource c env (fun x y => Instrument.logspace x y n) d s ⟨a, some k⟩ ⟨b, some 1⟩ = .ok st ∧ st.model = .planck ∧
      st.sed.wl = Instrument.logspace a b n ∧ ∀ i, i + 1 < n → st.sed.data[i]? = some 0 := by
  obtain ⟨g1, g2, g3, g4, g5, g6⟩ := logspace_decreasing a b n hb hba hn
  have hak : 0 < a * k := mul_pos (hb.trans hba) hk
  have hsort : sortRange (⟨a, some k⟩ : Wl ℝ) ⟨b, some 1⟩ = .ok (⟨a, some k⟩, ⟨b, some 1⟩) := by
    simp only [sortRange, Wl.um, Option.getD_some, mul_one]
    rw [if_neg (not_lt.mpr hlo.le)]
  have hp := linspace_pairwise (a * k) b 10000 (by norm_num) hlo
  have hbd := linspace_bounds (a * k) b 10000 (by norm_num) hlo.le
  have hll : (linspace (a * k) b 10000).length = 10000 := by simp [linspace]
  have hmk : Rebin.Signal.mk? (linspace (a * k) b 10000) ((linspace (a * k) b 10000).map (fun w => c.pi * (R / D) ^ 2 * c.B w T)) =
      .ok ⟨linspace (a * k) b 10000, (linspace (a * k) b 10000).map (fun w => c.pi * (R / D) ^ 2 * c.B w T)⟩ := by
    rw [Rebin.mk?_ok]
    exact ⟨rfl, by simp [Rebin.Signal.WellFormed]⟩
  have hb9 : b ∈ linspace (a * k) b 10000 := by
    unfold linspace
    refine List.mem_map.mpr ⟨9999, by simp, ?_⟩
    norm_num
    ring
  have hb8 : a * k + 9998 * ((b - a * k) / 9999) ∈ linspace (a * k) b 10000 := by
    unfold linspace
    refine List.mem_map.mpr ⟨9998, by simp, ?_⟩
    norm_num
  generalize hL : linspace (a * k) b 10000 = L at hp hbd hll hmk hb9 hb8
  obtain ⟨r, hr⟩ := rebin_decreasing_works (data := L.map (fun w => c.pi * (R / D) ^ 2 * c.B w T)) g1 (by omega) hp (by simp)
    ⟨b, hb9, a * k + 9998 * ((b - a * k) / 9999), hb8, by intro he; linarith, by
      intro lo hlom hlob
      have := hlob b g4
      constructor
      · linarith
      · linarith, by
      intro hi him hib
      have := hib a g5
      constructor
      · linarith
      · linarith⟩
  have hst : planckStar c D T R (a * k) b =
      .ok ⟨⟨L, L.map (fun w => c.pi * (R / D) ^ 2 * c.B w T)⟩, 4 * c.pi * D ^ 2 * Diffuse.trapz L (L.map (fun w => c.pi * (R / D) ^ 2 * c.B w T)), .planck⟩ := by
    unfold planckStar
    simp only [hL, hmk]
  have hbs : buildStar c env d s (a * k) b = planckStar c D T R (a * k) b := by
    unfold buildStar
    simp only [hc, hD, hT, hM, hR, hd, if_true, Bool.false_eq_true, if_false]
  generalize planckStar c D T R (a * k) b = q at hst hbs
  subst hst
  refine ⟨⟨r, 4 * c.pi * D ^ 2 * Diffuse.trapz L (L.map (fun w => c.pi * (R / D) ^ 2 * c.B w T)), .planck⟩,
    ?_, rfl, ?_, ?_⟩
  · unfold loadSource
    rw [hsort]
    dsimp only
    rw [show (⟨a, some k⟩ : Wl ℝ).um = a * k from rfl, show (⟨b, some 1⟩ : Wl ℝ).um = b from mul_one b, hbs]
    simp only [toGrid, Option.getD_some, ne_eq, not_true_eq_false, if_false, hr]
  · exact (rebin_decreasing g1 hp hr 0 (by omega) (by
      intro w hw
      exact (hbd w hw).2.trans_lt (g6 0 (by omega) (by omega)))).1
  · intro i hi
    exact (rebin_decreasing g1 hp hr i (by omega) (by
      intro w hw
      exact (hbd w hw).2.trans_lt (g6 i (by omega) hi))).2

/-- C112: whatever the source, a range whose longer end is not in microns is refused. -/
theorem upper_unit_refused {α : Type} [Field α] [LinearOrder α] [IsStrictOrderedRing α] [FloorRing α] (c : Consts α) (env : Env α)
    (grid : α → α → List α) (d : Descr) (s : StarData α) {a b : Wl α} {u : α} (hu : u ≠ 1) (hb : b.unit = some u) (hab : a.um ≤ b.um) :
    ∃ e, loadSource c env grid d s a b = .error e := by
  unfold loadSource sortRange
  rw [hb]
  cases a.unit with
  | none => exact ⟨_, rfl⟩
  | some v =>
    dsimp only
    rw [if_neg (not_lt.mpr hab)]
    dsimp only
    split
    · exact ⟨_, rfl⟩
    · exact ⟨.valueError, by simp [toGrid, hb, hu]⟩

open Pipeline in
/-- C112: no target is observed with a payload whose range is in another unit, whatever its channels. -/
theorem upper_unit_observe (w : World) (p : Payload) {u : ℝ} (hu : u ≠ 1) (hb : p.wlMax.unit = some u) (hab : p.wlMin.um ≤ p.wlMax.um)
    (tabs : List (Table ℝ)) (t : Target) : ∃ e, (observe w p tabs t).2 = .error e := by
  match ho : observe w p tabs t with
  | (tabs', .error e) => exact ⟨e, rfl⟩
  | (tabs', .ok t') =>
    exfalso
    have hs : runSteps (steps w p) ⟨tabs, t⟩ = (⟨tabs', t'⟩, .ok ()) := by
      unfold observe at ho
      revert ho
      generalize runSteps (steps w p) ⟨tabs, t⟩ = q
      obtain ⟨⟨a, b⟩, r⟩ := q
      cases r <;> simp
    have never : ∀ s s', Pipeline.loadSource w p s ≠ (s', .ok ()) := by
      intro s s' h
      unfold Pipeline.loadSource at h
      split at h
      · cases h
      rename_i d _
      obtain ⟨e, he⟩ := upper_unit_refused w.consts w.env w.grid d s.target.star hu hb hab
      rw [he] at h
      cases h
    have stuck : ∀ (pre post : List Step) (s s' : St), runSteps (pre ++ Pipeline.loadSource w p :: post) s ≠ (s', .ok ()) := by
      intro pre
      induction pre with
      | nil =>
        intro post s s' h
        simp only [List.nil_append, runSteps] at h
        split at h
        · cases h
        rename_i s1 x hx
        exact never s s1 hx
      | cons f fs ih =>
        intro post s s' h
        simp only [List.cons_append, runSteps] at h
        split at h
        · cases h
        exact ih post _ s' h
    unfold steps at hs
    rw [show ∀ l : List Step, [prepareTarget] ++ l ++ [propagateForeground p.channels, Pipeline.loadSource w p, propagateTarget p.channels, noiseStep p.channels]
      = ([prepareTarget] ++ l ++ [propagateForeground p.channels]) ++ Pipeline.loadSource w p :: [propagateTarget p.channels, noiseStep p.channels] by
        intro l; simp] at hs
    exact stuck _ _ _ _ hs

open Pipeline in
/-- C112: every target of a list is skipped. -/
theorem upper_unit_skips_all (w : World) (p : Payload) (o : RunOpts) {u : ℝ} (hu : u ≠ 1) (hb : p.wlMax.unit = some u)
    (hab : p.wlMin.um ≤ p.wlMax.um) : ∀ (ts : List Target) (s : Shared), (runList w p o s ts).2 = ts.map (fun _ => none)
  | [], _ => rfl
  | t :: ts, s => by
    obtain ⟨e, he⟩ := upper_unit_observe w p hu hb hab s.tabs t
    have h1 : (pipelineToDict w p o s t).2 = none := by
      unfold pipelineToDict
      revert he
      generalize observe w p s.tabs t = q
      obtain ⟨a, r⟩ := q
      intro he
      simp only at he
      rw [he]
    unfold runList
    simp only [List.map_cons]
    rw [upper_unit_skips_all w p o hu hb hab ts, h1]

/-- A range from 500 nm to 2 μm, written in nanometres and in a mixture of units. -/
theorem demo_range : ∃ st, loadSource (⟨Real.pi, fun _ _ => 1, fun _ _ => 0⟩ : Consts ℝ) ⟨none, fun _ => false, fun _ => [], fun _ => none, fun _ _ => .error .osError, fun _ => .error .osError⟩
      (fun x y => Instrument.logspace x y 6000) ⟨"Planck", false, none, none⟩ ⟨some 1, some 5000, some 1, some 1⟩ ⟨500, some (1 / 1000)⟩ ⟨2, some 1⟩ = .ok st ∧
    (∀ i < 5999, st.sed.data[i]? = some 0) ∧
    ∃ e, loadSource (⟨Real.pi, fun _ _ => 1, fun _ _ => 0⟩ : Consts ℝ) ⟨none, fun _ => false, fun _ => [], fun _ => none, fun _ _ => .error .osError, fun _ => .error .osError⟩
      (fun x y => Instrument.logspace x y 6000) ⟨"Planck", false, none, none⟩ ⟨some 1, some 5000, some 1, some 1⟩ ⟨500, some (1 / 1000)⟩ ⟨2000, some (1 / 1000)⟩ = .error e := by
  obtain ⟨st, h1, _, _, h4⟩ := mixed_units_dark (⟨Real.pi, fun _ _ => 1, fun _ _ => 0⟩ : Consts ℝ)
    ⟨none, fun _ => false, fun _ => [], fun _ => none, fun _ _ => .error .osError, fun _ => .error .osError⟩ (n := 6000) (by norm_num)
    (d := ⟨"Planck", false, none, none⟩) (by decide) (by decide) (s := ⟨some 1, some 5000, some 1, some 1⟩) rfl rfl rfl rfl
    (a := 500) (b := 2) (k := 1 / 1000) (by norm_num) (by norm_num) (by norm_num) (by norm_num)
  refine ⟨st, h1, fun i hi => h4 i (by omega), ?_⟩
  exact upper_unit_refused _ _ _ _ _ (u := 1 / 1000) (by norm_num) rfl (by norm_num [Wl.um])

end ExoRad.RangeUnits
