import Verif.Props.BuildNeeds
import Verif.Props.Optics
import Verif.Props.Misc

/-!
# What the table of a built channel says: C84
-/

set_option linter.unusedSectionVars false

namespace ExoRad.Build
open Table Pipeline Light

/-! ## Specification -/

/-- The centres and the widths of the bins between edges. -/
noncomputable def mids (e : List ℝ) : List ℝ := (e.zip e.tail).map (fun p => (p.1 + p.2) / 2)
noncomputable def gaps (e : List ℝ) : List ℝ := (e.zip e.tail).map (fun p => p.2 - p.1)

/-- Bins of equal resolving power `R` from `lo` on, the last of them the first to reach `hi`. -/
def FixedEdges (lo hi R : ℝ) (e : List ℝ) : Prop :=
  2 ≤ e.length ∧ e.getD 0 0 = lo ∧ (∀ i, i + 1 < e.length → e.getD (i + 1) 0 = e.getD i 0 * (1 + 1 / R)) ∧
  hi ≤ e.getD (e.length - 1) 0 ∧ e.getD (e.length - 2) 0 < hi

/-- Bins of the resolving power of a curve at their left edge, rounded to 1e-4; the last one ends beyond `hi`. -/
def CurveEdges (lo hi : ℝ) (pts : List (ℝ × ℝ)) (e : List ℝ) : Prop :=
  2 ≤ e.length ∧ e.getD 0 0 = lo ∧ hi ≤ e.getD (e.length - 1) 0 ∧
  ∀ i, i + 2 < e.length → ∃ r, Psf.interpStrict pts (e.getD i 0) = .ok r ∧ e.getD (i + 1) 0 = Instrument.round4 (e.getD i 0 + e.getD i 0 / r)

/-- The edges of the bins a description asks for. -/
def EdgesFor (d : Descr) (e : List ℝ) : Prop :=
  match d.kind with
  | .photometer _ => e = [d.wlMin, d.wlMax]
  | .spectrometer s =>
    match s.targetR with
    | .fixed R => FixedEdges d.wlMin d.wlMax R e
    | .curve pts => CurveEdges d.wlMin d.wlMax pts e
    | _ => False

/-- Not one bin per pixel; no bin of a curve is narrower than 1e-4. -/
def Binned (d : Descr) : Prop :=
  match d.kind with
  | .photometer _ => True
  | .spectrometer s =>
    match s.targetR with
    | .fixed _ => True
    | .curve pts => ∀ w, d.wlMin ≤ w → w < d.wlMax → ∃ r, Psf.interpStrict pts w = .ok r ∧ 1 / 10000 ≤ w / r
    | _ => False

/-- The quantum efficiency at a wavelength: the constant within the range of the detector, or the interpolated column of the channel's name. -/
def QeAt (d : Descr) (c v : ℝ) : Prop :=
  match d.qe with
  | .constant q => v = if d.detWlMin ≤ c ∧ c ≤ d.cutOff then q else 0
  | .data t => ∃ wl y, (t.get? "wavelength" = some wl ∨ "wavelength" ∉ t.keys ∧ t.get? "Wavelength" = some wl) ∧
      t.get? d.noise.value = some y ∧ wl.length = y.length ∧ v = Rebin.interp (wl.zip y) c

/-- The transmission of the optical path at a wavelength; none outside the band if the payload says so. -/
noncomputable def trAt (env : Env) (c : Common) (d : Descr) (total : List ℝ) (w : ℝ) : ℝ :=
  if c.force = some true ∧ (w < d.wlMin ∨ d.wlMax < w) then 0 else Rebin.interp ((workGrid env d).zip total) w

/-! ## Inversion -/

theorem mids_eq (e : List ℝ) : Instrument.centres e = mids e := by
  induction e with
  | nil => rfl
  | cons a l ih =>
    cases l with
    | nil => rfl
    | cons b l =>
      rw [Instrument.centres, ih]
      simp only [mids, List.tail_cons, List.zip_cons_cons, List.map_cons, List.cons.injEq]
      exact ⟨by ring, trivial⟩

theorem gaps_eq (e : List ℝ) : Rebin.diffs e = gaps e := by
  induction e with
  | nil => rfl
  | cons a l ih =>
    cases l with
    | nil => rfl
    | cons b l =>
      rw [Rebin.diffs, ih]
      simp [gaps]

theorem photometerBins_eq (a b : ℝ) : Instrument.photometerBins a b = Instrument.binsOfEdges [a, b] := rfl

theorem photometer_inv {fuel : ℕ} {env : Env} {d : Descr} {ap : ApertureDescr} {st : Stage} (h : photometerStage fuel env d ap = some (.ok st)) :
    st.bins = Instrument.binsOfEdges [d.wlMin, d.wlMax] ∧ ∃ prf k s, psfImages env d ((d.wlMin + d.wlMax) / 2) = .ok (prf, k) ∧
      windowsSize fuel env d ap ((d.wlMin + d.wlMax) / 2) prf = some (.ok s) ∧ st.size = [s] ∧ prf.max = .ok st.prfMax := by
  have hm : (d.wlMin + d.wlMax) / 2 = 1 / 2 * (d.wlMin + d.wlMax) := by ring
  rw [hm]
  unfold photometerStage at h
  cases hq : getQe env d with
  | error x => simp [hq] at h
  | ok qe =>
    simp only [hq] at h
    cases hp : psfImages env d (1 / 2 * (d.wlMin + d.wlMax)) with
    | error x => simp only [hp] at h; cases h
    | ok r =>
      obtain ⟨prf, k⟩ := r
      simp only [hp] at h
      cases hw : windowsSize fuel env d ap (1 / 2 * (d.wlMin + d.wlMax)) prf with
      | none => simp only [hw] at h; cases h
      | some y =>
        cases y with
        | error x => simp only [hw] at h; cases h
        | ok s =>
          simp only [hw] at h
          cases hm : prf.max with
          | error x => simp only [hm] at h; cases h
          | ok m =>
            simp only [hm, Option.some.injEq, Except.ok.injEq] at h
            subst h
            exact ⟨photometerBins_eq _ _, prf, k, s, rfl, hw, rfl, hm⟩

theorem spectrometer_inv {fuel : ℕ} {env : Env} {d : Descr} {s : SpecDescr} {st : Stage} (h : spectrometerStage fuel env d s = some (.ok st)) :
    ∃ sol e g fy, s.solution = some sol ∧ d.fnumY = some fy ∧ st.px = Instrument.pixelGrid sol d.wlMin d.wlMax d.deltaPix ∧
      wavelengthTable fuel d s.targetR st.px = some (.ok (st.bins, e)) ∧ gainCurve env d s st.px = .ok g ∧ st.gain = env.spline g ∧
      st.spatial = (Instrument.window ⟨fy, s.encE, s.spatialScale, s.spatialPixel, s.spectralPixel⟩ sol d.deltaPix e st.bins.wl).spatial ∧
      st.size = (Instrument.window ⟨fy, s.encE, s.spatialScale, s.spatialPixel, s.spectralPixel⟩ sol d.deltaPix e st.bins.wl).size := by
  unfold spectrometerStage at h
  cases hsol : s.solution with
  | none => simp [hsol] at h
  | some sol =>
    simp only [hsol] at h
    cases ht : wavelengthTable fuel d s.targetR (Instrument.pixelGrid sol d.wlMin d.wlMax d.deltaPix) with
    | none => simp [ht] at h
    | some y =>
      cases y with
      | error x => simp [ht] at h
      | ok be =>
        obtain ⟨b, e⟩ := be
        simp only [ht] at h
        cases hq : getQe env d with
        | error x => simp [hq] at h
        | ok qe =>
          simp only [hq] at h
          cases hg : gainCurve env d s (Instrument.pixelGrid sol d.wlMin d.wlMax d.deltaPix) with
          | error x => simp [hg] at h
          | ok g =>
            simp only [hg] at h
            cases hy : d.fnumY with
            | none => simp [hy] at h
            | some fy =>
              simp only [hy, Option.some.injEq, Except.ok.injEq] at h
              subst h
              exact ⟨sol, e, g, fy, rfl, rfl, rfl, ht, hg, rfl, rfl, rfl⟩

theorem curve_edges {d : Descr} {pts : List (ℝ × ℝ)} (hlt : d.wlMin < d.wlMax)
    (hstep : ∀ w, d.wlMin ≤ w → w < d.wlMax → ∃ r, Psf.interpStrict pts w = .ok r ∧ 1 / 10000 ≤ w / r) {fuel : ℕ} {e : List ℝ}
    (h : Instrument.variableEdges (Psf.interpStrict pts) d.wlMin d.wlMax fuel = some (.ok e)) : CurveEdges d.wlMin d.wlMax pts e ∧ e.Pairwise (· < ·) := by
  have mono : ∀ {n m : ℕ}, n ≤ m → ∀ {x}, Instrument.variableEdges (Psf.interpStrict pts) d.wlMin d.wlMax n = some x →
      Instrument.variableEdges (Psf.interpStrict pts) d.wlMin d.wlMax m = some x := by
    intro n m hnm x hx
    unfold Instrument.variableEdges at hx ⊢
    cases hl : Instrument.variableLoop (Psf.interpStrict pts) d.wlMax n d.wlMin [d.wlMin] with
    | none => simp [hl] at hx
    | some y =>
      rw [variableLoop_mono hnm hl]
      rw [hl] at hx
      exact hx
  obtain ⟨f, h'⟩ := Instrument.variable_R_partial (Psf.interpStrict pts) d.wlMin d.wlMax hlt hstep
  rcases h' with ⟨e', h1, h2, h3, h4, h5, h6⟩ | ⟨h1, _⟩
  · have a := mono (Nat.le_max_left fuel f) h
    have b := mono (Nat.le_max_right fuel f) h1
    rw [a] at b
    simp only [Option.some.injEq, Except.ok.injEq] at b
    subst b
    exact ⟨⟨h4, h2, h5, h6⟩, h3⟩
  · have a := mono (Nat.le_max_left fuel f) h
    have b := mono (Nat.le_max_right fuel f) h1
    rw [a] at b
    cases b

/-- The bins of the stage are those between the edges asked for. -/
theorem stage_edges {fuel : ℕ} {env : Env} {d : Descr} (hd : SoundDescr env d) (hb : Binned d) {st : Stage} (h : builder fuel env d = some (.ok st)) :
    ∃ e, (EdgesFor d e ∧ e.Pairwise (· < ·) ∧ st.bins = Instrument.binsOfEdges e) ∧
      ∀ s, d.kind = .spectrometer s → wavelengthTable fuel d s.targetR st.px = some (.ok (st.bins, e)) := by
  have hkd := hd.kind
  unfold builder at h
  unfold EdgesFor
  unfold Binned at hb
  revert h hb hkd
  cases hk : d.kind with
  | photometer ap =>
    intro _ h _
    exact ⟨_, ⟨rfl, by simp [hd.band.2], (photometer_inv h).1⟩, fun s hs => by cases hs⟩
  | spectrometer s =>
    intro hb h hkd
    obtain ⟨sol, e, g, fy, _, _, _, ht, _⟩ := spectrometer_inv h
    have ht' := ht
    have hr := hkd.resolution
    simp only at hb ⊢
    revert ht hb hr
    cases hR : s.targetR with
    | native => intro hb _ _; exact hb.elim
    | unsupported => intro hb _ _; exact hb.elim
    | fixed R =>
      intro _ ht hr
      simp only [wavelengthTable, Option.some.injEq, Except.ok.injEq, Prod.mk.injEq] at ht
      obtain ⟨h1, h2, h3, h4, h5, h6⟩ := Instrument.fixed_R_edges d.wlMin d.wlMax R hd.band.1 hd.band.2 hr
      obtain ⟨hb1, he1⟩ := ht
      subst he1
      exact ⟨_, ⟨⟨h1, h2, h3, h5, h6⟩, h4, hb1.symm⟩, fun s' hs' => by cases hs'; exact ht'⟩
    | curve pts =>
      intro hb ht _
      unfold wavelengthTable at ht
      simp only at ht
      cases hv : Instrument.variableEdges (Psf.interpStrict pts) d.wlMin d.wlMax fuel with
      | none => simp [hv] at ht
      | some y =>
        cases y with
        | error x => simp [hv] at ht
        | ok e' =>
          simp only [hv, Option.some.injEq, Except.ok.injEq, Prod.mk.injEq] at ht
          obtain ⟨h1, h2⟩ := curve_edges hd.band.2 hb hv
          obtain ⟨hb1, he1⟩ := ht
          subst he1
          exact ⟨_, ⟨h1, h2, hb1.symm⟩, fun s' hs' => by cases hs'; exact ht'⟩

theorem qe_at {env : Env} (he : SoundEnv env) {d : Descr} (hd : SoundDescr env d) {q : Rebin.Signal ℝ} (h : getQe env d = .ok q) (c : ℝ) :
    QeAt d c (Rebin.interp (q.wl.zip q.data) c) := by
  unfold QeAt
  unfold getQe at h
  cases hq : d.qe with
  | constant v =>
    simp only [hq, Except.ok.injEq] at h
    subst h
    show _ = if _ then _ else _
    have := Instrument.constant_qe [c - 1, c + 1] (by simp; linarith) v d.detWlMin d.cutOff env.workingR hd.detector.1 hd.detector.2 he.workingR
    rw [Instrument.qe_column _ (by simp; linarith)] at this
    have hc : (Instrument.binsOfEdges [c - 1, c + 1]).wl = [c] := by
      simp only [Instrument.binsOfEdges, Instrument.mkBins, Instrument.centres]
      congr 1
      ring
    rw [hc] at this
    simpa using this
  | data t =>
    simp only [hq] at h
    show ∃ wl y, _
    by_cases h1 : "wavelength" ∈ t.keys
    · rw [(Misc.wl_col_name_partial t.keys none (.inl rfl)).1 h1] at h
      simp only at h
      cases hw : t.getE "wavelength" with
      | error x => simp [hw] at h
      | ok wl =>
        simp only [hw] at h
        cases hv : t.getE d.noise.value with
        | error x => simp [hv] at h
        | ok v =>
          simp only [hv] at h
          obtain ⟨rfl, hl⟩ := (Rebin.mk?_ok _ _ _).mp h
          exact ⟨wl, v, .inl (Foreground.getE_get? hw), Foreground.getE_get? hv, hl.symm, rfl⟩
    · by_cases h2 : "Wavelength" ∈ t.keys
      · rw [(Misc.wl_col_name_partial t.keys none (.inl rfl)).2 h1 h2] at h
        simp only at h
        cases hw : t.getE "Wavelength" with
        | error x => simp [hw] at h
        | ok wl =>
          simp only [hw] at h
          cases hv : t.getE d.noise.value with
          | error x => simp [hv] at h
          | ok v =>
            simp only [hv] at h
            obtain ⟨rfl, hl⟩ := (Rebin.mk?_ok _ _ _).mp h
            exact ⟨wl, v, .inr ⟨h1, Foreground.getE_get? hw⟩, Foreground.getE_get? hv, hl.symm, rfl⟩
      · rw [(Misc.wl_col_name_missing t.keys h2 h1).1] at h
        cases h

theorem colN_some (l : List ℝ) : colN (l.map some) = col l := by
  simp [colN, col]

/-- C84: name, bins, quantum efficiency and transmission in the table of a built channel. -/
theorem built_table {fuel : ℕ} {env : Env} (he : SoundEnv env) {c : Common} {loaded : Bool} {d : Descr} (hd : SoundDescr env d) (hbin : Binned d) {b : Built}
    (h : build fuel env c loaded d = some (.ok b)) :
    ∃ e total, EdgesFor d e ∧ e.Pairwise (· < ·) ∧ b.transmissions.get? "total" = some total ∧
      b.table.get? "chName" = some (List.replicate (e.length - 1) (.str d.noise.value)) ∧
      b.table.get? "Wavelength" = some (col (mids e)) ∧ b.table.get? "Bandwidth" = some (col (gaps e)) ∧
      b.table.get? "LeftBinEdge" = some (col e.dropLast) ∧ b.table.get? "RightBinEdge" = some (col e.tail) ∧
      (∃ q : ℝ → ℝ, (∀ w, QeAt d w (q w)) ∧ b.table.get? "QE" = some (col ((mids e).map q))) ∧
      b.table.get? "TR" = some (col ((mids e).map (trAt env c d total))) := by
  obtain ⟨_, st, hb, hp⟩ := build_inv h
  obtain ⟨n, hst⟩ := builder_sound he hd hb
  obtain ⟨els, total, trCol, tr, rads, slit, hels, htot, htr, hch, hsl, hsig, htab, hbch, htrs⟩ := buildPath_inv hst hp
  obtain ⟨e, ⟨he1, he2, he3⟩, _⟩ := stage_edges hd hbin hb
  obtain ⟨b1, b2, b3, b4, _⟩ := Instrument.bins_of_edges e
  have hq := (builder_inv hb).1
  have hwl : (Instrument.binsOfEdges e).wl = mids e := mids_eq e
  have hwd : (Instrument.binsOfEdges e).width = gaps e := gaps_eq e
  refine ⟨e, total, he1, he2, by rw [htrs, htot], ?_, ?_, ?_, ?_, ?_, ⟨fun w => Rebin.interp (st.qe.wl.zip st.qe.data) w, fun w => qe_at he hd hq w, ?_⟩, ?_⟩
  · rw [htab]; simp only [stageTable, List.cons_append, Dict.get?]; simp [he3, b3]
  · rw [htab]; simp only [stageTable, List.cons_append, Dict.get?]; simp [he3, hwl]
  · rw [htab]; simp only [stageTable, List.cons_append, Dict.get?]; simp [he3, hwd]
  · rw [htab]; simp only [stageTable, List.cons_append, Dict.get?]; simp [he3, b1]
  · rw [htab]; simp only [stageTable, List.cons_append, Dict.get?]; simp [he3, b2]
  · rw [htab]; simp only [stageTable, List.cons_append, Dict.get?]
    rw [he3, Instrument.qe_column e he2, hwl]
    simp only [String.reduceEq, if_false, if_true, Option.some.injEq]
    rw [← colN_some, List.map_map]
    rfl
  · have hT : b.table.get? "TR" = some (colN trCol) := by rw [htab]; simp [stageTable, Dict.get?]
    rw [hT]
    have hlen : (workGrid env d).length = total.length := by
      unfold Instrument.getTransmission at htr
      cases hm : Rebin.Signal.mk? (workGrid env d) total with
      | error x => simp [hm] at htr
      | ok s =>
        obtain ⟨rfl, hw⟩ := (Rebin.mk?_ok _ _ _).mp hm
        exact hw.symm
    obtain ⟨t1, t2, t3⟩ := Instrument.transmission_column (chanOf env c d st ⟨[], []⟩) e he2 he3 (workGrid env d) total hlen
    cases hf : c.force with
    | none => rw [t1 hf] at htr; cases htr
    | some f =>
      cases f with
      | false =>
        rw [t2 hf] at htr
        simp only [Except.ok.injEq, Prod.mk.injEq] at htr
        rw [← htr.1, ← colN_some, List.map_map, hwl]
        congr 2
        apply List.map_congr_left
        intro w _
        simp [trAt, hf]
      | true =>
        rw [t3 hf] at htr
        simp only [Except.ok.injEq, Prod.mk.injEq] at htr
        rw [← htr.1, ← colN_some, List.map_map, hwl]
        congr 2
        apply List.map_congr_left
        intro w _
        simp [trAt, hf, chanOf]

/-- C84, one bin per pixel: the bins are the pixels in the order of their wavelengths, each as wide as its pixel. -/
theorem native_table {fuel : ℕ} {env : Env} (he : SoundEnv env) {c : Common} {loaded : Bool} {d : Descr} (hd : SoundDescr env d) {b : Built}
    (h : build fuel env c loaded d = some (.ok b)) {s : SpecDescr} (hk : d.kind = .spectrometer s) (hr : s.targetR = .native) :
    ∃ wl width sol, s.solution = some sol ∧
      (wl.zip width).Perm ((Instrument.pixelGrid sol d.wlMin d.wlMax d.deltaPix).wl.zip (Instrument.pixelGrid sol d.wlMin d.wlMax d.deltaPix).bandwidth) ∧
      wl.Pairwise (· ≤ ·) ∧ wl.length = width.length ∧
      b.table.get? "chName" = some (List.replicate wl.length (.str d.noise.value)) ∧
      b.table.get? "Wavelength" = some (col wl) ∧ b.table.get? "Bandwidth" = some (col width) ∧
      b.table.get? "LeftBinEdge" = some (col (List.zipWith (fun w v => w - v / 2) wl width)) ∧
      b.table.get? "RightBinEdge" = some (col (List.zipWith (fun w v => w + v / 2) wl width)) := by
  obtain ⟨_, st, hb, hp⟩ := build_inv h
  obtain ⟨n, hst⟩ := builder_sound he hd hb
  obtain ⟨els, total, trCol, tr, rads, slit, hels, htot, htr, hch, hsl, hsig, htab, hbch, htrs⟩ := buildPath_inv hst hp
  obtain ⟨sol, e, h1, h2, h3⟩ := (builder_inv hb).2 s hk
  rw [hr] at h3
  unfold wavelengthTable at h3
  simp only at h3
  cases hn : Instrument.nativeGrid st.px.wl st.px.bandwidth with
  | error x => simp [hn] at h3
  | ok y =>
    obtain ⟨cs, ws, es⟩ := y
    simp only [hn, Option.some.injEq, Except.ok.injEq, Prod.mk.injEq] at h3
    obtain ⟨p1, p2, p3, _⟩ := Instrument.native_bins _ _ _ _ _ (by rw [h2]; simp [Instrument.pixelGrid]) hn
    rw [h2] at p1
    have e1 : (fun c w : ℝ => c - 1 / 2 * w) = fun w v => w - v / 2 := by funext a b; ring
    have e2 : (fun c w : ℝ => c + 1 / 2 * w) = fun w v => w + v / 2 := by funext a b; ring
    refine ⟨cs, ws, sol, h1, p1, p2, p3, ?_, ?_, ?_, ?_, ?_⟩
    · rw [htab]; simp only [stageTable, List.cons_append, Dict.get?]; simp [← h3.1, Instrument.mkBins]
    · rw [htab]; simp only [stageTable, List.cons_append, Dict.get?]; simp [← h3.1, Instrument.mkBins]
    · rw [htab]; simp only [stageTable, List.cons_append, Dict.get?]; simp [← h3.1, Instrument.mkBins]
    · rw [htab, ← e1]; simp only [stageTable, List.cons_append, Dict.get?]; simp [← h3.1, Instrument.mkBins]
    · rw [htab, ← e2]; simp only [stageTable, List.cons_append, Dict.get?]; simp [← h3.1, Instrument.mkBins]

/-! ## The optical path -/

theorem built_elements {wl : List ℝ} {ds : Dict String (Optics.Descr ℝ)} {els : Dict String (Optics.Element ℝ)}
    (h : List.Forall₂ (fun d e => e.1 = d.1 ∧ Optics.mkElement d.2 wl = .ok e.2) ds els) :
    els.keys = ds.keys ∧ List.Forall₂ (fun e p => p.1 = e.1 ∧ Optics.getTransmission e.2 wl = .ok p.2.transmission) ds els := by
  induction h with
  | nil => exact ⟨rfl, .nil⟩
  | @cons a b l l' hab _ ih =>
    refine ⟨?_, .cons ⟨hab.1, ?_⟩ ih.2⟩
    · have := ih.1
      simp only [Dict.keys, List.map_cons, List.cons.injEq] at this ⊢
      exact ⟨hab.1, this⟩
    · have := hab.2
      unfold Optics.mkElement at this
      cases ht : Optics.getTransmission a.2 wl with
      | error x => simp [ht] at this
      | ok tr =>
        simp only [ht] at this
        cases hem : Optics.getEmissivity a.2 wl with
        | error x => simp [hem] at this
        | ok em =>
          simp only [hem, Except.ok.injEq] at this
          rw [← this]

theorem forall₂_mem {β γ : Type} {R S : β → γ → Prop} {l : List β} {l' : List γ} (h : List.Forall₂ R l l') (hi : ∀ a, ∀ b ∈ l', R a b → S a b) :
    List.Forall₂ S l l' := by
  induction h with
  | nil => exact .nil
  | cons hab _ ih => exact .cons (hi _ _ (by simp) hab) (ih (fun a b hb => hi a b (by simp [hb])))

/-- C84: the total is the product of the transmissions of all the elements, those of the payload before those of the channel, each also
under its name. -/
theorem path_transmission {fuel : ℕ} {env : Env} (he : SoundEnv env) {c : Common} {loaded : Bool} {d : Descr} (hd : SoundDescr env d) {b : Built}
    (h : build fuel env c loaded d = some (.ok b)) {shared own : Dict String (Optics.Descr ℝ)} (hs : c.optics = .many shared) (ho : d.optics = some (.many own))
    (hn : (shared.keys ++ own.keys).Nodup) (ht : "total" ∉ shared.keys ++ own.keys) :
    ∃ trs total, List.Forall₂ (fun e tr => Optics.getTransmission e.2 (workGrid env d) = .ok tr ∧ b.transmissions.get? e.1 = some tr) (shared ++ own) trs ∧
      b.transmissions.get? "total" = some total ∧ total.length = env.workingR ∧
      ∀ i < env.workingR, total.getD i 0 = (trs.map (fun tr => tr.getD i 0)).prod := by
  obtain ⟨_, st, hb, hp⟩ := build_inv h
  obtain ⟨n, hst⟩ := builder_sound he hd hb
  obtain ⟨els, total, trCol, tr, rads, slit, hels, htot, _, _, _, _, _, _, htrs⟩ := buildPath_inv hst hp
  have hglen : (workGrid env d).length = env.workingR := (Instrument.logspace_spec d.detWlMin d.cutOff env.workingR hd.detector.1 hd.detector.2 he.workingR).2.2.2.1
  unfold pathElements at hels
  split_ifs at hels
  rw [hs] at hels
  cases h1 : Optics.prepareElements (workGrid env d) (.many shared) with
  | error x => simp [h1] at hels
  | ok es =>
    simp only [h1, ho] at hels
    cases h2 : Optics.prepareElements (workGrid env d) (.many own) with
    | error x => simp [h2] at hels
    | ok eo =>
      simp only [h2, Except.ok.injEq] at hels
      have f1 := Optics.prepareElements_spec _ _ _ (List.nodup_append.mp hn).1 h1
      have f2 := Optics.prepareElements_spec _ _ _ (List.nodup_append.mp hn).2.1 h2
      obtain ⟨k1, g1⟩ := built_elements f1
      obtain ⟨k2, g2⟩ := built_elements f2
      have hnd : (es.keys ++ eo.keys).Nodup := by rw [k1, k2]; exact hn
      rw [Optics.prepend_disjoint es eo hnd] at hels
      have hon : Optics.OnGrid (workGrid env d).length els := by
        rw [← hels]
        intro p hp
        rcases List.mem_append.mp hp with hp | hp
        · exact Optics.onGrid_of_prepare _ _ _ f1 p hp
        · exact Optics.onGrid_of_prepare _ _ _ f2 p hp
      obtain ⟨⟨tot, t1, t2, t3⟩, t4⟩ := Optics.total_transmission (workGrid env d) els hon
      have hkeys : els.keys = shared.keys ++ own.keys := by
        rw [← hels, ← k1, ← k2]; simp [Dict.keys]
      refine ⟨els.map (fun p => p.2.transmission), tot, ?_, by rw [htrs, t1], by rw [t2, hglen], ?_⟩
      · rw [List.forall₂_map_right_iff]
        have g : List.Forall₂ (fun e p => p.1 = e.1 ∧ Optics.getTransmission e.2 (workGrid env d) = .ok p.2.transmission) (shared ++ own) els := by
          rw [← hels]; exact List.rel_append g1 g2
        refine forall₂_mem g ?_
        intro e p hp hep
        refine ⟨hep.2, ?_⟩
        have hk : p.1 ∈ els.keys := List.mem_map.mpr ⟨p, hp, rfl⟩
        rw [htrs, ← hep.1]
        exact t4 (by rw [hkeys]; exact hn) p.1 p.2 hp (fun hh => ht (by rw [← hkeys, ← hh]; exact hk))
      · intro i hi
        rw [t3 i (by rw [hglen]; exact hi), List.map_map]
        rfl

/-- Linear interpolation of a constant on the working grid. -/
theorem interp_constant {env : Env} (he : SoundEnv env) {d : Descr} (hd : SoundDescr env d) (v c : ℝ) :
    Rebin.interp ((workGrid env d).zip ((workGrid env d).map (fun _ => v))) c = if d.detWlMin ≤ c ∧ c ≤ d.cutOff then v else 0 := by
  have := Instrument.constant_qe [c - 1, c + 1] (by simp; linarith) v d.detWlMin d.cutOff env.workingR hd.detector.1 hd.detector.2 he.workingR
  rw [Instrument.qe_column _ (by simp; linarith)] at this
  have hc : (Instrument.binsOfEdges [c - 1, c + 1]).wl = [c] := by
    simp only [Instrument.binsOfEdges, Instrument.mkBins, Instrument.centres]
    congr 1
    ring
  rw [hc] at this
  simp only [List.map_cons, List.map_nil, List.cons.injEq, Option.some.injEq, and_true] at this
  exact this

/-- An element described by one number for all wavelengths. -/
def Plain (e : Optics.Descr ℝ) (v : ℝ) : Prop :=
  e.data = none ∧ e.wlMin = none ∧ e.wlMax = none ∧ (e.transmission = some v ∧ e.reflectivity = none ∨ e.transmission = none ∧ e.reflectivity = some v)

theorem plain_transmission {e : Optics.Descr ℝ} {v : ℝ} (h : Plain e v) (wl : List ℝ) : Optics.getTransmission e wl = .ok (wl.map (fun _ => v)) := by
  obtain ⟨h1, h2, h3, h4⟩ := h
  obtain ⟨tr, t1, t2, t3⟩ := (Optics.transmission_from_constants e wl h1).1 v h4
  rw [t1]
  congr 1
  apply Diffuse.ext_getD
  · simp [t2]
  · intro i hi
    rw [t2] at hi
    rw [(t3 i hi).2 (by simp [h2]) (by simp [h3])]
    simp [List.getD_eq_getElem?_getD, hi]

/-- C84: the optics of a channel described by plain numbers transmit their product. -/
theorem plain_path {fuel : ℕ} {env : Env} (he : SoundEnv env) {c : Common} {loaded : Bool} {d : Descr} (hd : SoundDescr env d) (hbin : Binned d) {b : Built}
    (h : build fuel env c loaded d = some (.ok b)) {shared own : Dict String (Optics.Descr ℝ)} (hs : c.optics = .many shared) (ho : d.optics = some (.many own))
    (hn : (shared.keys ++ own.keys).Nodup) (ht : "total" ∉ shared.keys ++ own.keys) {vs : List ℝ}
    (hp : List.Forall₂ (fun e v => Plain e.2 v) (shared ++ own) vs) :
    ∃ e, EdgesFor d e ∧ b.table.get? "TR" = some (col ((mids e).map (fun w =>
      if c.force = some true ∧ (w < d.wlMin ∨ d.wlMax < w) then 0 else if d.detWlMin ≤ w ∧ w ≤ d.cutOff then vs.prod else 0))) := by
  obtain ⟨e, total, h1, _, h2, _, _, _, _, _, _, h3⟩ := built_table he hd hbin h
  obtain ⟨trs, total', p1, p2, p3, p4⟩ := path_transmission he hd h hs ho hn ht
  rw [h2, Option.some.injEq] at p2
  subst p2
  have hglen : (workGrid env d).length = env.workingR := (Instrument.logspace_spec d.detWlMin d.cutOff env.workingR hd.detector.1 hd.detector.2 he.workingR).2.2.2.1
  have htrs : trs = vs.map (fun v => (workGrid env d).map (fun _ => v)) := by
    clear p4 hn ht hs ho
    generalize shared ++ own = l at p1 hp
    induction p1 generalizing vs with
    | nil => cases hp; rfl
    | cons hab _ ih =>
      cases hp with
      | cons hv hp =>
        rw [List.map_cons, ← ih hp]
        have := plain_transmission hv (workGrid env d)
        rw [hab.1] at this
        simp only [Except.ok.injEq] at this
        rw [this]
  have htot : total = (workGrid env d).map (fun _ => vs.prod) := by
    apply Diffuse.ext_getD
    · simp [p3, hglen]
    · intro i hi
      rw [p3] at hi
      rw [p4 i hi, htrs, List.map_map]
      have hi' : i < (workGrid env d).length := by rw [hglen]; exact hi
      have : ((fun tr : List ℝ => tr.getD i 0) ∘ fun v => (workGrid env d).map (fun _ => v)) = id := by
        funext v
        simp [List.getD_eq_getElem?_getD, hi']
      rw [this, List.map_id]
      simp [List.getD_eq_getElem?_getD, hi']
  refine ⟨e, h1, ?_⟩
  rw [h3]
  congr 3
  funext w
  unfold trAt
  rw [htot, interp_constant he hd]

/-! ## Windows -/

/-- C84: the window of a photometer. A radius gives the square of it (without pi), in units of the diffraction scales unless the PSF is on the pixels;
an encircled energy gives the ellipse of the radius found for it. -/
theorem photometer_window {fuel : ℕ} {env : Env} (he : SoundEnv env) {c : Common} {loaded : Bool} {d : Descr} (hd : SoundDescr env d) {b : Built}
    (h : build fuel env c loaded d = some (.ok b)) {ap : ApertureDescr} (hk : d.kind = .photometer ap) :
    ∃ s prf k, psfImages env d ((d.wlMin + d.wlMax) / 2) = .ok (prf, k) ∧ prf.max = .ok b.ch.inst.prfMax ∧ b.table.get? "WindowSize" = some (col [s]) ∧
      (psfFormat d = some "pixel_based" → (∀ r, ap.radius = some r → s = r ^ 2) ∧
        ∀ f, ap.radius = none → ap.enE = some f → ∃ r, Psf.findApertureRadius (env.enc prf 1 1 1) f fuel = some (.ok r) ∧ s = Real.pi * r ^ 2) ∧
      (psfFormat d ≠ some "pixel_based" → ∃ fy, d.fnumY = some fy ∧
        (∀ r, ap.radius = some r → s = (r * (d.fnumX * ((d.wlMin + d.wlMax) / 2)) / d.deltaPix) * (r * (fy * ((d.wlMin + d.wlMax) / 2)) / d.deltaPix)) ∧
        ∀ f, ap.radius = none → ap.enE = some f → ∃ r, Psf.findApertureRadius (env.enc prf d.fnumX fy ((d.wlMin + d.wlMax) / 2)) f fuel = some (.ok r) ∧
          s = Real.pi * ((r * (d.fnumX * ((d.wlMin + d.wlMax) / 2)) / d.deltaPix) * (r * (fy * ((d.wlMin + d.wlMax) / 2)) / d.deltaPix))) := by
  obtain ⟨_, st, hb, hp⟩ := build_inv h
  obtain ⟨n, hst⟩ := builder_sound he hd hb
  obtain ⟨els, total, trCol, tr, rads, slit, hels, htot, htr, hch, hsl, hsig, htab, hbch, htrs⟩ := buildPath_inv hst hp
  unfold builder at hb
  rw [hk] at hb
  obtain ⟨_, prf, k, s, h1, h2, h3, h4⟩ := photometer_inv hb
  have hdel := hd.deltaPix.ne'
  refine ⟨s, prf, k, h1, ?_, ?_, ?_, ?_⟩
  · rw [hbch]; exact h4
  · have hT : b.table.get? "WindowSize" = some (col st.size) := by rw [htab]; simp [stageTable, Dict.get?]
    rw [hT, h3]
  · intro hpb
    unfold windowsSize at h2
    rw [if_pos hpb] at h2
    constructor
    · intro r hr
      rw [hr, Psf.photometerWindow_radius] at h2
      simp only [Option.some.injEq, Except.ok.injEq] at h2
      rw [← h2]; simp [Psf.inPixels]
    · intro f hr hf
      rw [hr, hf] at h2
      unfold Psf.photometerWindow at h2
      simp only at h2
      cases hfa : Psf.findApertureRadius (env.enc prf 1 1 1) f fuel with
      | none => simp [hfa] at h2
      | some y =>
        cases y with
        | error x => simp [hfa] at h2
        | ok r =>
          simp only [hfa, Option.some.injEq, Except.ok.injEq] at h2
          exact ⟨r, rfl, by rw [← h2]; simp [Psf.inPixels]⟩
  · intro hpb
    unfold windowsSize at h2
    rw [if_neg hpb] at h2
    cases hy : d.fnumY with
    | none =>
      simp only [hy] at h2
      split_ifs at h2 <;> cases h2
    | some fy =>
      simp only [hy] at h2
      refine ⟨fy, rfl, ?_, ?_⟩
      · intro r hr
        rw [hr, Psf.photometerWindow_radius] at h2
        simp only [Option.some.injEq, Except.ok.injEq] at h2
        rw [← h2, pow_two, Psf.inPixels_scales _ _ _ rfl hdel]
      · intro f hr hf
        rw [hr, hf] at h2
        unfold Psf.photometerWindow at h2
        simp only at h2
        cases hfa : Psf.findApertureRadius (env.enc prf d.fnumX fy ((d.wlMin + d.wlMax) / 2)) f fuel with
        | none => simp [hfa] at h2
        | some y =>
          cases y with
          | error x => simp [hfa] at h2
          | ok r =>
            simp only [hfa, Option.some.injEq, Except.ok.injEq] at h2
            refine ⟨r, rfl, ?_⟩
            have e1 : Real.pi * r ^ 2 = (Real.pi * r) * r := by ring
            rw [← h2, e1, Psf.inPixels_scales _ _ _ rfl hdel]
            ring

/-- Half the height of the extraction window of a spectrometer in diffraction scales (1.22 or the `EncE` curve), and the height in pixels. -/
noncomputable def heightAt (d : Descr) (s : SpecDescr) (fy w : ℝ) : ℝ :=
  match s.spatialPixel with
  | some v => v
  | none => 2 * (match s.encE with | some pts => Instrument.extend pts w | none => 61 / 50) * fy * w / d.deltaPix * s.spatialScale.getD 1

/-- The width in pixels of the bin from `a` to `b`. -/
noncomputable def widthOf (d : Descr) (s : SpecDescr) (sol : List (ℝ × ℝ)) (a b : ℝ) : ℝ :=
  match s.spectralPixel with
  | some v => v
  | none => |Instrument.extend (sol.map Prod.swap) b - Instrument.extend (sol.map Prod.swap) a| / d.deltaPix

/-- C84: the windows of a spectrometer, width times height in pixels, bin by bin. -/
theorem spectrometer_window {fuel : ℕ} {env : Env} (he : SoundEnv env) {c : Common} {loaded : Bool} {d : Descr} (hd : SoundDescr env d) (hbin : Binned d) {b : Built}
    (h : build fuel env c loaded d = some (.ok b)) {s : SpecDescr} (hk : d.kind = .spectrometer s) :
    ∃ e sol fy, EdgesFor d e ∧ s.solution = some sol ∧ d.fnumY = some fy ∧
      b.table.get? "WindowSize" = some (col ((e.zip e.tail).map (fun p => widthOf d s sol p.1 p.2 * heightAt d s fy ((p.1 + p.2) / 2)))) := by
  obtain ⟨_, st, hb, hp⟩ := build_inv h
  obtain ⟨n, hst⟩ := builder_sound he hd hb
  obtain ⟨els, total, trCol, tr, rads, slit, hels, htot, htr, hch, hsl, hsig, htab, hbch, htrs⟩ := buildPath_inv hst hp
  obtain ⟨e, ⟨he1, he2, he3⟩, he4⟩ := stage_edges hd hbin hb
  unfold builder at hb
  rw [hk] at hb
  obtain ⟨sol, e', g, fy, h1, h2, h3, h4, h5, h6, h7, h8⟩ := spectrometer_inv hb
  have := he4 s hk
  rw [h4] at this
  simp only [Option.some.injEq, Except.ok.injEq, Prod.mk.injEq, true_and] at this
  subst this
  refine ⟨e', sol, fy, he1, h1, h2, ?_⟩
  have hT : b.table.get? "WindowSize" = some (col st.size) := by rw [htab]; simp [stageTable, Dict.get?]
  rw [hT, h8, he3]
  congr 2
  have hwl : (Instrument.binsOfEdges e').wl = mids e' := mids_eq e'
  rw [hwl]
  have hsw : Instrument.spectralWidth ⟨fy, s.encE, s.spatialScale, s.spatialPixel, s.spectralPixel⟩ sol d.deltaPix e' =
      (e'.zip e'.tail).map (fun p => widthOf d s sol p.1 p.2) := by
    unfold Instrument.spectralWidth widthOf
    cases s.spectralPixel with
    | some v =>
      simp only
      rw [gaps_eq, gaps, List.map_map]; rfl
    | none =>
      simp only
      rw [gaps_eq, gaps, List.map_map, ← List.map_tail, List.zip_map, List.map_map]; rfl
  have hsp : ∀ w, Instrument.spatialWidth ⟨fy, s.encE, s.spatialScale, s.spatialPixel, s.spectralPixel⟩ d.deltaPix w = heightAt d s fy w := by
    intro w
    rw [Instrument.spatialWidth_spec]
    unfold heightAt
    cases s.spatialPixel <;> cases s.encE <;> rfl
  unfold Instrument.window Diffuse.mulCol
  simp only
  rw [hsw, mids, List.map_map, List.zipWith_map, List.zipWith_self]
  apply List.map_congr_left
  intro p _
  simp [hsp]

/-! ## Gain -/

/-- C84: the gain of a spectrometer: ten wavelengths, equally spaced over the pixels, each with the highest value of the PSF seen through the pixel
response, reduced by the Strehl ratio of the wavefront error; interpolated by the cubic. -/
theorem gain_samples {fuel : ℕ} {env : Env} (he : SoundEnv env) {c : Common} {loaded : Bool} {d : Descr} (hd : SoundDescr env d) {b : Built}
    (h : build fuel env c loaded d = some (.ok b)) {s : SpecDescr} (hk : d.kind = .spectrometer s) :
    ∃ g lo hi, b.ch.inst.gain = env.spline g ∧ g.length = 10 ∧ lo ∈ b.ch.inst.wlPix ∧ hi ∈ b.ch.inst.wlPix ∧ (∀ w ∈ b.ch.inst.wlPix, lo ≤ w ∧ w ≤ hi) ∧
      ∀ i < 10, (g.getD i (0, 0)).1 = lo + (hi - lo) * i / 9 ∧
        ∃ prf kernel v, psfImages env d (g.getD i (0, 0)).1 = .ok (prf, kernel) ∧ Psf.gainPrf prf kernel = .ok v ∧
          (s.wfe = none → (g.getD i (0, 0)).2 = v) ∧
          ∀ rms, s.wfe = some rms → (g.getD i (0, 0)).2 = v * Real.exp (-(2 * Real.pi * rms / (g.getD i (0, 0)).1) ^ 2) := by
  obtain ⟨_, st, hb, hp⟩ := build_inv h
  obtain ⟨n, hst⟩ := builder_sound he hd hb
  obtain ⟨els, total, trCol, tr, rads, slit, hels, htot, htr, hch, hsl, hsig, htab, hbch, htrs⟩ := buildPath_inv hst hp
  unfold builder at hb
  rw [hk] at hb
  obtain ⟨sol, e', g, fy, h1, h2, h3, h4, h5, h6, h7, h8⟩ := spectrometer_inv hb
  unfold gainCurve at h5
  cases hlo : Rebin.minE st.px.wl with
  | error x => simp [hlo] at h5
  | ok lo =>
    simp only [hlo] at h5
    cases hhi : Rebin.maxE st.px.wl with
    | error x => simp [hhi] at h5
    | ok hi =>
      simp only [hhi] at h5
      cases hm : Source.mapE (gainAt env d s) (linspace10 lo hi) with
      | error x => simp [hm] at h5
      | ok gs =>
        simp only [hm, Except.ok.injEq] at h5
        obtain ⟨l1, l2⟩ := Rebin.minE_spec hlo
        obtain ⟨u1, u2⟩ := Rebin.maxE_spec hhi
        have hf := Source.mapE_ok _ _ _ hm
        have hll : (linspace10 lo hi).length = 10 := by simp [linspace10]
        have hgl : gs.length = 10 := by rw [← hf.length_eq, hll]
        have hpx : b.ch.inst.wlPix = st.px.wl := by rw [hbch]; rfl
        refine ⟨g, lo, hi, by rw [hbch]; exact h6, by rw [← h5]; simp [hll, hgl], by rw [hpx]; exact l1, by rw [hpx]; exact u1,
          by rw [hpx]; exact fun w hw => ⟨l2 w hw, u2 w hw⟩, ?_⟩
        intro i hi10
        have hi1 : i < (linspace10 lo hi).length := by rw [hll]; exact hi10
        have hi2 : i < gs.length := by rw [hgl]; exact hi10
        have hgi : g.getD i (0, 0) = ((linspace10 lo hi)[i], gs[i]) := by
          rw [← h5, List.getD_eq_getElem?_getD, List.getElem?_eq_getElem (by simp [hll, hgl, hi10])]
          simp
        have hw : (linspace10 lo hi)[i] = lo + (hi - lo) * i / 9 := by
          simp only [linspace10, List.getElem_map, List.getElem_range]
          ring
        rw [hgi]
        refine ⟨hw, ?_⟩
        have hga := (List.forall₂_iff_get.mp hf).2 i hi1 hi2
        simp only [List.get_eq_getElem] at hga
        unfold gainAt at hga
        cases hpsf : psfImages env d (linspace10 lo hi)[i] with
        | error x => simp [hpsf] at hga
        | ok r =>
          obtain ⟨prf, kernel⟩ := r
          simp only [hpsf] at hga
          cases hv : Psf.gainPrf prf kernel with
          | error x => simp [hv] at hga
          | ok v =>
            simp only [hv, Except.ok.injEq] at hga
            refine ⟨prf, kernel, v, rfl, hv, ?_, ?_⟩
            · intro hn
              rw [← hga]; simp [strehl, hn]
            · intro rms hr
              rw [← hga]; simp [strehl, hr]

/-! ## What an observation reads -/

/-- C84: the numbers of the description an observation works with: area of the telescope, aperture, pixel area and solid angle, efficiency curves. -/
theorem channel_reads {fuel : ℕ} {env : Env} (he : SoundEnv env) {c : Common} {loaded : Bool} {d : Descr} (hd : SoundDescr env d) {b : Built}
    (h : build fuel env c loaded d = some (.ok b)) :
    (b.ch.spectrometer = true ↔ ∃ s, d.kind = .spectrometer s) ∧ b.ch.noise = d.noise ∧ b.ch.common = c.customNoise ∧
    b.ch.inst.atel = c.atel ∧ b.ch.inst.perPhoton = env.perPhoton ∧ b.ch.inst.wlMin = d.wlMin ∧ b.ch.inst.wlMax = d.wlMax ∧
    (∀ ap, d.kind = .photometer ap → b.ch.inst.apertureCorrection = ap.apertureCorrection ∧ b.ch.inst.enE = ap.enE) ∧
    getQe env d = .ok b.ch.inst.qe ∧
    (∃ total, b.transmissions.get? "total" = some total ∧ b.ch.inst.tr.wl = workGrid env d ∧
      b.ch.inst.tr.data = List.zipWith (fun w v => if c.force = some true ∧ (w < d.wlMin ∨ d.wlMax < w) then 0 else v) (workGrid env d) total) ∧
    b.ch.diffuse.area = d.deltaPix ^ 2 ∧ b.ch.diffuse.deltaPix = d.deltaPix ∧ b.ch.diffuse.perPhoton = env.perPhoton ∧ b.ch.diffuse.omega = Psf.omegaPix d.fnumX d.fnumY ∧
    b.table.get? "WindowSize" = some (col b.ch.diffuse.windowSize) ∧ b.table.get? "LeftBinEdge" = some (col b.ch.diffuse.left) ∧
    b.table.get? "RightBinEdge" = some (col b.ch.diffuse.right) ∧
    (∀ s sol, d.kind = .spectrometer s → s.solution = some sol →
      let px := Instrument.pixelGrid sol d.wlMin d.wlMax d.deltaPix
      b.ch.inst.wlPix = px.wl ∧ b.ch.inst.dwlPix = px.bandwidth ∧ b.ch.diffuse.wlPix = px.wl ∧ b.ch.diffuse.dwlPix = px.bandwidth) := by
  obtain ⟨_, st, hb, hp⟩ := build_inv h
  obtain ⟨n, hst⟩ := builder_sound he hd hb
  obtain ⟨els, total, trCol, tr, rads, slit, hels, htot, htr, hch, hsl, hsig, htab, hbch, htrs⟩ := buildPath_inv hst hp
  have hq := (builder_inv hb).1
  have hlen : (workGrid env d).length = total.length := by
    unfold Instrument.getTransmission at htr
    cases hm : Rebin.Signal.mk? (workGrid env d) total with
    | error x => simp [hm] at htr
    | ok s =>
      obtain ⟨rfl, hw⟩ := (Rebin.mk?_ok _ _ _).mp hm
      exact hw.symm
  refine ⟨?_, by rw [hbch], by rw [hbch], by rw [hbch]; rfl, by rw [hbch]; rfl, by rw [hbch]; rfl, by rw [hbch]; rfl, ?_, by rw [hbch]; exact hq, ?_,
    by rw [hbch]; exact (pow_two _).symm, by rw [hbch]; rfl, by rw [hbch]; rfl, by rw [hbch]; rfl, ?_, ?_, ?_, ?_⟩
  · rw [hbch]
    show isSpectrometer d.kind = true ↔ _
    cases d.kind <;> simp [isSpectrometer]
  · intro ap hk
    rw [hbch]
    simp [chanOf, apertureOf, hk]
  · refine ⟨total, by rw [htrs, htot], ?_⟩
    rw [hbch]
    show tr.wl = _ ∧ tr.data = _
    unfold Instrument.getTransmission at htr
    cases hm : Rebin.Signal.mk? (workGrid env d) total with
    | error x => simp [hm] at htr
    | ok s =>
      obtain ⟨rfl, hw⟩ := (Rebin.mk?_ok _ _ _).mp hm
      simp only [hm, chanOf] at htr
      cases hf : c.force with
      | none => simp [hf] at htr
      | some f =>
        cases f with
        | false =>
          simp only [hf, Except.ok.injEq, Prod.mk.injEq] at htr
          rw [← htr.2]
          refine ⟨rfl, ?_⟩
          apply List.ext_getElem
          · simp [hlen]
          · intro i hi hi'
            simp
        | true =>
          simp only [hf, Except.ok.injEq, Prod.mk.injEq] at htr
          rw [← htr.2]
          refine ⟨rfl, ?_⟩
          show Instrument.zeroOut _ _ _ _ = _
          unfold Instrument.zeroOut Instrument.outOfBand
          congr 1
          funext w v
          simp
  · rw [htab, hbch]; simp [stageTable, Dict.get?, diffuseOf]
  · rw [htab, hbch]; simp [stageTable, Dict.get?, diffuseOf]
  · rw [htab, hbch]; simp [stageTable, Dict.get?, diffuseOf]
  · intro s sol hk hsol
    obtain ⟨sol', e, h1, h2, _⟩ := (builder_inv hb).2 s hk
    rw [hsol, Option.some.injEq] at h1
    subst h1
    rw [hbch]
    simp only [chanOf, diffuseOf, h2]
    exact ⟨trivial, trivial, trivial, trivial⟩

end ExoRad.Build
