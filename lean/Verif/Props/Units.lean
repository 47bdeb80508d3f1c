import Verif.Model.Units
import Verif.Props.BuildDemo

/-!
# C89: the unit in which a length is written
-/

set_option linter.unusedSectionVars false
set_option linter.unusedVariables false

namespace ExoRad.Build
open Pipeline
noncomputable section

/-! ## The pixel grid does not depend on the unit of `x` -/

theorem extendSorted_scale {k : ℝ} (hk : 0 < k) (x : ℝ) : ∀ (rest : List (ℝ × ℝ)) (lo : ℝ × ℝ),
    Instrument.extendSorted (lo.1 / k, lo.2) (solutionIn k rest) (x / k) = Instrument.extendSorted lo rest x
  | [], lo => rfl
  | [hi], lo => by
    simp only [solutionIn, List.map_cons, List.map_nil, Instrument.extendSorted]
    by_cases h : hi.1 - lo.1 = 0
    · have : hi.1 / k - lo.1 / k = 0 := by rw [← sub_div, h, zero_div]
      rw [this, h]; simp
    · rw [← sub_div, ← sub_div]; field_simp
  | hi :: b :: rest, lo => by
    have ih := extendSorted_scale hk x (b :: rest) hi
    simp only [solutionIn, List.map_cons] at ih ⊢
    simp only [Instrument.extendSorted]
    rw [ih]
    have : x / k ≤ hi.1 / k ↔ x ≤ hi.1 := div_le_div_iff_of_pos_right hk
    by_cases hx : x ≤ hi.1
    · rw [if_pos hx, if_pos (this.mpr hx)]
      by_cases h : hi.1 - lo.1 = 0
      · have : hi.1 / k - lo.1 / k = 0 := by rw [← sub_div, h, zero_div]
        rw [this, h]; simp
      · rw [← sub_div, ← sub_div]; field_simp
    · rw [if_neg hx, if_neg (fun h => hx (this.mp h))]

theorem sort_scale {k : ℝ} (hk : 0 < k) (sol : List (ℝ × ℝ)) :
    (solutionIn k sol).insertionSort (fun p q => p.1 ≤ q.1) = solutionIn k (sol.insertionSort (fun p q => p.1 ≤ q.1)) := by
  unfold solutionIn
  rw [List.map_insertionSort (r := fun p q : ℝ × ℝ => p.1 ≤ q.1) (s := fun p q : ℝ × ℝ => p.1 ≤ q.1)]
  intro a _ b _
  exact (div_le_div_iff_of_pos_right hk).symm

/-- The wavelength at a coordinate. -/
theorem extend_scale {k : ℝ} (hk : 0 < k) (sol : List (ℝ × ℝ)) (x : ℝ) :
    Instrument.extend (solutionIn k sol) (x / k) = Instrument.extend sol x := by
  unfold Instrument.extend
  rw [sort_scale hk]
  cases sol.insertionSort (fun p q => p.1 ≤ q.1) with
  | nil => rfl
  | cons lo rest => exact extendSorted_scale hk x rest lo

theorem extendSorted_scale' {k : ℝ} (x : ℝ) : ∀ (rest : List (ℝ × ℝ)) (lo : ℝ × ℝ),
    Instrument.extendSorted (lo.1, lo.2 / k) (rest.map (fun p => (p.1, p.2 / k))) x = Instrument.extendSorted lo rest x / k
  | [], lo => rfl
  | [hi], lo => by
    simp only [List.map_cons, List.map_nil, Instrument.extendSorted]
    ring
  | hi :: b :: rest, lo => by
    have ih := extendSorted_scale' (k := k) x (b :: rest) hi
    simp only [List.map_cons] at ih ⊢
    simp only [Instrument.extendSorted]
    rw [ih]
    by_cases hx : x ≤ hi.1
    · rw [if_pos hx, if_pos hx]; ring
    · rw [if_neg hx, if_neg hx]

/-- The coordinate at a wavelength. -/
theorem extend_swap_scale (k : ℝ) (sol : List (ℝ × ℝ)) (w : ℝ) :
    Instrument.extend ((solutionIn k sol).map Prod.swap) w = Instrument.extend (sol.map Prod.swap) w / k := by
  have e : (solutionIn k sol).map Prod.swap = (sol.map Prod.swap).map (fun p => (p.1, p.2 / k)) := by
    simp [solutionIn, Function.comp_def]
  have hs : ((sol.map Prod.swap).map (fun p : ℝ × ℝ => (p.1, p.2 / k))).insertionSort (fun p q => p.1 ≤ q.1) =
      ((sol.map Prod.swap).insertionSort (fun p q => p.1 ≤ q.1)).map (fun p : ℝ × ℝ => (p.1, p.2 / k)) := by
    rw [List.map_insertionSort (r := fun p q : ℝ × ℝ => p.1 ≤ q.1) (s := fun p q : ℝ × ℝ => p.1 ≤ q.1)]
    intro a _ b _
    exact Iff.rfl
  unfold Instrument.extend
  rw [e, hs]
  cases (sol.map Prod.swap).insertionSort (fun p q => p.1 ≤ q.1) with
  | nil => simp
  | cons lo rest => exact extendSorted_scale' w rest lo

theorem arange_scale {k : ℝ} (hk : 0 < k) (a b d : ℝ) : Instrument.arange (a / k) (b / k) (d / k) = (Instrument.arange a b d).map (fun x => x / k) := by
  unfold Instrument.arange
  have : (b / k - a / k) / (d / k) = (b - a) / d := by
    rw [← sub_div, div_div_div_cancel_right₀ hk.ne']
  rw [this, List.map_map]
  apply List.map_congr_left
  intro i _
  simp only [Function.comp]
  ring

/-- Pixels are the same, their coordinates are in the unit of `x`. -/
theorem pixelGrid_scale {k : ℝ} (hk : 0 < k) (sol : List (ℝ × ℝ)) (lo hi delta : ℝ) :
    Instrument.pixelGrid (solutionIn k sol) lo hi (delta / k) =
      ⟨(Instrument.pixelGrid sol lo hi delta).x.map (fun x => x / k), (Instrument.pixelGrid sol lo hi delta).wl,
        (Instrument.pixelGrid sol lo hi delta).bandwidth⟩ := by
  unfold Instrument.pixelGrid
  simp only [extend_swap_scale, div_lt_div_iff_of_pos_right hk, arange_scale hk]
  have hx : ∀ l : List ℝ, (l.map (fun x => x / k)).map (Instrument.extend (solutionIn k sol)) = l.map (Instrument.extend sol) := by
    intro l
    rw [List.map_map]
    exact List.map_congr_left (fun x _ => extend_scale hk sol x)
  have hb : ∀ l : List ℝ, (l.map (fun x => x / k)).map
      (fun t => |Instrument.extend (solutionIn k sol) (t - 1 / 2 * (delta / k)) - Instrument.extend (solutionIn k sol) (t + 1 / 2 * (delta / k))|) =
      l.map (fun t => |Instrument.extend sol (t - 1 / 2 * delta) - Instrument.extend sol (t + 1 / 2 * delta)|) := by
    intro l
    rw [List.map_map]
    apply List.map_congr_left
    intro x _
    simp only [Function.comp]
    rw [show x / k - 1 / 2 * (delta / k) = (x - 1 / 2 * delta) / k by ring, show x / k + 1 / 2 * (delta / k) = (x + 1 / 2 * delta) / k by ring,
      extend_scale hk, extend_scale hk]
  split_ifs
  · rw [← List.map_reverse, hx, hb]
  · rw [← List.map_reverse, hx, hb]

theorem pixelGridIn_eq {k : ℝ} (hk : 0 < k) (sol : List (ℝ × ℝ)) (lo hi delta : ℝ) :
    (pixelGridIn k sol lo hi delta).wl = (Instrument.pixelGrid sol lo hi delta).wl ∧
    (pixelGridIn k sol lo hi delta).bandwidth = (Instrument.pixelGrid sol lo hi delta).bandwidth.map (fun b => b * k) ∧
    (pixelGridIn k sol lo hi delta).x = (Instrument.pixelGrid sol lo hi delta).x.map (fun x => x / k) := by
  unfold pixelGridIn
  rw [pixelGrid_scale hk]
  exact ⟨rfl, rfl, rfl⟩

/-- Windows are the same. -/
theorem windowIn_eq {k : ℝ} (hk : 0 < k) (w : Instrument.WindowDescr ℝ) (sol : List (ℝ × ℝ)) (delta : ℝ) (edges wl : List ℝ) :
    windowIn k w sol delta edges wl = Instrument.window w sol delta edges wl := by
  have h : Instrument.spectralWidth w (solutionIn k sol) (delta / k) edges = Instrument.spectralWidth w sol delta edges := by
    unfold Instrument.spectralWidth
    cases w.spectralPixel with
    | some v => rfl
    | none =>
      simp only
      have hd : ∀ l : List ℝ, Rebin.diffs (l.map (Instrument.extend ((solutionIn k sol).map Prod.swap))) =
          (Rebin.diffs (l.map (Instrument.extend (sol.map Prod.swap)))).map (fun t => t / k) := by
        intro l
        induction l with
        | nil => rfl
        | cons a l ih =>
          cases l with
          | nil => rfl
          | cons b l =>
            simp only [List.map_cons, Rebin.diffs] at ih ⊢
            rw [ih, extend_swap_scale, extend_swap_scale, sub_div]
      rw [hd, List.map_map]
      apply List.map_congr_left
      intro t _
      simp only [Function.comp]
      rw [abs_div, abs_of_pos hk, div_div_div_cancel_right₀ hk.ne']
  unfold windowIn Instrument.window
  rw [h]

/-! ## What is the same in any unit -/

theorem bareDetector_one {u : Units} (h : u.det = 1) (d : Descr) : bareDetector u d = d := by
  unfold bareDetector
  rw [h, div_one, div_one]

theorem solutionIn_one (sol : List (ℝ × ℝ)) : solutionIn 1 sol = sol := by
  unfold solutionIn
  simp

theorem pixelGridIn_one (sol : List (ℝ × ℝ)) (lo hi delta : ℝ) : pixelGridIn 1 sol lo hi delta = Instrument.pixelGrid sol lo hi delta := by
  unfold pixelGridIn
  rw [solutionIn_one, div_one]
  simp

theorem builderIn_eq (fuel : ℕ) (env : Env) {u : Units} {d : Descr} (hx : isSpectrometer d.kind = true → u.x = 1) :
    builderIn fuel env u d = builder fuel env d := by
  unfold builderIn builder
  cases hk : d.kind with
  | photometer ap => rfl
  | spectrometer s =>
    have h1 : u.x = 1 := hx (by rw [hk]; rfl)
    simp only
    unfold spectrometerStageIn spectrometerStage
    simp only [h1, pixelGridIn_one, windowIn_eq one_pos]
    rfl

/-- A photometer whose window has a unit. -/
def Unitful (d : Descr) : Prop := isSpectrometer d.kind = false ∧ psfFormat d ≠ some "pixel_based"

theorem bareSize_one {u : Units} {d : Descr} (h : Unitful d → u.pix = 1) (size : List ℝ) : bareSize u d size = size := by
  unfold bareSize
  by_cases hs : isSpectrometer d.kind = true ∨ psfFormat d = some "pixel_based"
  · rw [if_pos hs]
  · rw [if_neg hs]
    push Not at hs
    rw [h ⟨by simpa using hs.1, hs.2⟩]
    simp

theorem diffuseIn_eq (env : Env) {u : Units} {d : Descr} (h : Unitful d → u.pix = 1) (st : Stage) (slit : Option ℝ) :
    diffuseIn env u d st slit = diffuseOf env d st slit := by
  unfold diffuseIn
  rw [bareSize_one h]
  rfl

theorem buildPathIn_eq (env : Env) (c : Common) {u : Units} {d : Descr} (hd : u.det = 1) (hp : Unitful d → u.pix = 1) (st : Stage) :
    buildPathIn env c u d st = buildPath env c d st := by
  unfold buildPathIn buildPath pathSignalIn pathSignal
  simp only [bareDetector_one hd, diffuseIn_eq env hp]
  rfl

/-- C89, what holds: the pixel size of a spectrometer (and of a photometer with a pixel-based PSF) may be written in any unit of length, and so may
the coordinates of the wavelength solution of a channel that has none; the built channel is that of the description in microns. The full claim,
any unit for every length, is false: `photometer_pixel_unit`, `solution_unit`, `detector_unit_fails`. -/
theorem units_partial (fuel : ℕ) (env : Env) (c : Common) (loaded : Bool) {u : Units} {d : Descr} (hd : u.det = 1)
    (hp : Unitful d → u.pix = 1) (hx : isSpectrometer d.kind = true → u.x = 1) :
    buildIn fuel env c loaded u d = build fuel env c loaded d := by
  unfold buildIn build
  rw [builderIn_eq fuel env hx]
  simp only [buildPathIn_eq env c hd hp]
  rfl

/-- In microns nothing changes. -/
theorem units_microns (fuel : ℕ) (env : Env) (c : Common) (loaded : Bool) (d : Descr) :
    buildIn fuel env c loaded .microns d = build fuel env c loaded d :=
  units_partial fuel env c loaded rfl (fun _ => rfl) (fun _ => rfl)

/-! ## The pixel size of a photometer -/

theorem mulCol_one_side (k : ℝ) : ∀ a b : List ℝ, Diffuse.addCol (a.map (fun v => v * k)) (b.map (fun v => v * k)) = (Diffuse.addCol a b).map (fun v => v * k)
  | [], b => by simp [Diffuse.addCol]
  | a :: as, [] => by simp [Diffuse.addCol]
  | a :: as, b :: bs => by
    have := mulCol_one_side k as bs
    simp only [Diffuse.addCol] at this
    simp only [Diffuse.addCol, List.map_cons, List.zipWith_cons_cons, this, add_mul]

/-- The same signals but for a factor; the light in a pixel is the same. -/
structure Scaled (k : ℝ) (s s' : Optics.SigState ℝ) : Prop where
  qe : s'.qe = s.qe
  signals : s'.signals = s.signals.map (fun q => (q.1, q.2.map (fun v => v * k)))
  maxima : s'.maxima = s.maxima
  total : s'.total = s.total.map (fun v => v * k)
  totalMax : s'.totalMax = s.totalMax

theorem set_map {β γ : Type} (f : β → γ) (d : Dict String β) (n : String) (v : β) :
    Dict.set (d.map (fun q => (q.1, f q.2))) n (f v) = (Dict.set d n v).map (fun q => (q.1, f q.2)) := by
  induction d with
  | nil => rfl
  | cons q d ih =>
    obtain ⟨a, w⟩ := q
    simp only [List.map_cons, Dict.set] at ih ⊢
    split_ifs <;> simp [ih]

theorem signalLoop_scaled {pi k : ℝ} {ch ch' : Diffuse.Channel ℝ} (hch : ch' = { ch with windowSize := ch.windowSize.map (fun s => s * k) })
    (hs : ch.slitWidth = none) {wl : List ℝ} : ∀ {rads : Dict String (Optics.Rad ℝ)} {s s' t : Optics.SigState ℝ}, Scaled k s s' →
    Optics.signalLoop pi ch wl rads s = .ok t → ∃ t', Optics.signalLoop pi ch' wl rads s' = .ok t' ∧ Scaled k t t'
  | [], s, s', t, h, e => by
    rw [Optics.signalLoop] at e
    cases e
    exact ⟨s', rfl, h⟩
  | (n, r) :: rads, s, s', t, h, e => by
    rw [Optics.signalLoop] at e
    cases hq : s.qe.spectralRebin wl with
    | error x => simp [hq] at e
    | ok qe =>
      simp only [hq] at e
      have he : ∀ c : Diffuse.Channel ℝ, c.slitWidth = none → Optics.elementSignal pi c wl qe r = .ok (Diffuse.integrateLight c
          ⟨wl, (Diffuse.mulCol r.data (List.zipWith (fun q w => c.area * q * (w * c.perPhoton)) qe.data qe.wl)).map
            (fun v => v * Optics.solidAngle pi c.omega r.position)⟩) := by
        intro c hc
        unfold Optics.elementSignal
        rw [hc]
        cases r.slit <;> rfl
      rw [he ch hs] at e
      have hs' : ch'.slitWidth = none := by rw [hch]; exact hs
      generalize hr : Diffuse.mulCol r.data (List.zipWith (fun q w => ch.area * q * (w * ch.perPhoton)) qe.data qe.wl) = data at e
      have h' : Scaled k
          ⟨qe, s.signals.set (n ++ " signal") (Diffuse.integrateLight ch ⟨wl, data.map (fun v => v * Optics.solidAngle pi ch.omega r.position)⟩).2,
            s.maxima.set n (Diffuse.integrateLight ch ⟨wl, data.map (fun v => v * Optics.solidAngle pi ch.omega r.position)⟩).1,
            Diffuse.addCol s.total (Diffuse.integrateLight ch ⟨wl, data.map (fun v => v * Optics.solidAngle pi ch.omega r.position)⟩).2,
            Diffuse.addCol s.totalMax (Diffuse.integrateLight ch ⟨wl, data.map (fun v => v * Optics.solidAngle pi ch.omega r.position)⟩).1⟩
          ⟨qe, s'.signals.set (n ++ " signal") (Diffuse.integrateLight ch' ⟨wl, data.map (fun v => v * Optics.solidAngle pi ch.omega r.position)⟩).2,
            s'.maxima.set n (Diffuse.integrateLight ch' ⟨wl, data.map (fun v => v * Optics.solidAngle pi ch.omega r.position)⟩).1,
            Diffuse.addCol s'.total (Diffuse.integrateLight ch' ⟨wl, data.map (fun v => v * Optics.solidAngle pi ch.omega r.position)⟩).2,
            Diffuse.addCol s'.totalMax (Diffuse.integrateLight ch' ⟨wl, data.map (fun v => v * Optics.solidAngle pi ch.omega r.position)⟩).1⟩ := by
        have e1 : (Diffuse.integrateLight ch' ⟨wl, data.map (fun v => v * Optics.solidAngle pi ch.omega r.position)⟩).1 =
            (Diffuse.integrateLight ch ⟨wl, data.map (fun v => v * Optics.solidAngle pi ch.omega r.position)⟩).1 := by
          subst hch
          simp [Diffuse.integrateLight, Function.comp_def]
        have e2 : (Diffuse.integrateLight ch' ⟨wl, data.map (fun v => v * Optics.solidAngle pi ch.omega r.position)⟩).2 =
            (Diffuse.integrateLight ch ⟨wl, data.map (fun v => v * Optics.solidAngle pi ch.omega r.position)⟩).2.map (fun v => v * k) := by
          subst hch
          simp only [Diffuse.integrateLight, List.map_map]
          apply List.map_congr_left
          intro w _
          simp only [Function.comp]
          ring
        refine ⟨rfl, ?_, ?_, ?_, ?_⟩
        · simp only [h.signals, e2, set_map]
        · simp only [h.maxima, e1]
        · simp only [h.total, e2, mulCol_one_side]
        · simp only [h.totalMax, e1]
      obtain ⟨t', g1, g2⟩ := signalLoop_scaled hch hs (rads := rads) h' e
      refine ⟨t', ?_, g2⟩
      rw [Optics.signalLoop]
      have hq' : s'.qe.spectralRebin wl = .ok qe := by rw [h.qe]; exact hq
      rw [hq']
      simp only
      rw [he ch' hs']
      have ea : ch'.area = ch.area := by rw [hch]
      have eb : ch'.perPhoton = ch.perPhoton := by rw [hch]
      have ec : ch'.omega = ch.omega := by rw [hch]
      rw [ea, eb, ec, hr]
      exact g1

theorem chanTable_eq (name : String) (st : Stage) (trCol : List (Option ℝ)) (s : Optics.SigState ℝ) :
    Contrib.chanTable ((stageTable name st).set "TR" (colN trCol)) s = .ok ((stageTable name st ++ [("TR", colN trCol)]) ++
      [("instrument_signal", col s.total), ("instrument_MaxSignal_inPixel", col s.totalMax)]) := by
  have hset : (stageTable name st).set "TR" (colN trCol) = stageTable name st ++ [("TR", colN trCol)] :=
    Optics.set_new _ _ _ (by simp [stageTable, Dict.keys])
  unfold Contrib.chanTable
  rw [hset]
  refine Contrib.hstack_apart (by simp [stageTable, Dict.keys]) (by simp [Dict.keys]) ?_
  intro k hk hm
  simp only [Dict.keys, List.map_cons, List.map_nil, List.mem_cons, List.not_mem_nil, or_false] at hm
  rcases hm with rfl | rfl <;> simp [stageTable, Dict.keys] at hk

theorem get?_other (base : Table ℝ) (x y z : List (Cell ℝ)) {n : String} (hn : n ≠ "instrument_signal") :
    Dict.get? (base ++ [("instrument_signal", x), ("instrument_MaxSignal_inPixel", z)] : Table ℝ) n =
      Dict.get? (base ++ [("instrument_signal", y), ("instrument_MaxSignal_inPixel", z)] : Table ℝ) n := by
  rw [Dict.get?_append, Dict.get?_append]
  have e : ∀ w : List (Cell ℝ), Dict.get? ([("instrument_signal", w), ("instrument_MaxSignal_inPixel", z)] : Table ℝ) n =
      Dict.get? ([("instrument_MaxSignal_inPixel", z)] : Table ℝ) n := fun w => if_neg hn.symm
  rw [e, e]

theorem builder_photometer_slit {env : Env} {c : Common} {d : Descr} {st : Stage} {b : Built} (hk : isSpectrometer d.kind = false)
    (h : buildPath env c d st = .ok b) : ∃ els total trCol tr rads, pathElements env c d = .ok els ∧
      (Optics.transmissionTable (workGrid env d) els).getE "total" = .ok total ∧
      Instrument.getTransmission (chanOf env c d st ⟨[], []⟩) (workGrid env d) total = .ok (trCol, tr) ∧
      Optics.chain env.B (workGrid env d) els [] none = .ok (rads, none) ∧
      Optics.computeSignal Real.pi (diffuseOf env d st none) (workGrid env d) st.qe st.bins.wl.length rads = .ok b.signals ∧
      Contrib.chanTable ((stageTable d.noise.value st).set "TR" (colN trCol)) b.signals = .ok b.table ∧
      b = ⟨⟨isSpectrometer d.kind, chanOf env c d st tr, diffuseOf env d st none, d.noise, c.customNoise⟩, b.table,
                Optics.transmissionTable (workGrid env d) els, b.signals⟩ := by
  unfold buildPath at h
  cases hels : pathElements env c d with
  | error x => simp [hels] at h
  | ok els =>
    simp only [hels] at h
    cases ht : (Optics.transmissionTable (workGrid env d) els).getE "total" with
    | error x => simp [ht] at h
    | ok total =>
      simp only [ht] at h
      cases hg : Instrument.getTransmission (chanOf env c d st ⟨[], []⟩) (workGrid env d) total with
      | error x => simp [hg] at h
      | ok q =>
        obtain ⟨trCol, tr⟩ := q
        simp only [hg] at h
        cases hc : Optics.chain env.B (workGrid env d) els [] none with
        | error x => simp [hc] at h
        | ok q =>
          obtain ⟨rads, slit⟩ := q
          simp only [hc] at h
          cases slit with
          | some w =>
            exfalso
            unfold pathSignal at h
            rw [if_pos ⟨hk, rfl⟩] at h
            cases hq : st.qe.spectralRebin (workGrid env d) <;> simp [hq] at h
          | none =>
            have hp : pathSignal env d st rads none =
                Optics.computeSignal Real.pi (diffuseOf env d st none) (workGrid env d) st.qe st.bins.wl.length rads := by
              unfold pathSignal
              rw [if_neg (by simp)]
            rw [hp] at h
            cases hs : Optics.computeSignal Real.pi (diffuseOf env d st none) (workGrid env d) st.qe st.bins.wl.length rads with
            | error x => simp [hs] at h
            | ok s =>
              simp only [hs] at h
              cases htab : Contrib.chanTable ((stageTable d.noise.value st).set "TR" (colN trCol)) s with
              | error x => simp [htab] at h
              | ok t =>
                simp only [htab] at h
                cases h
                exact ⟨els, total, trCol, tr, rads, rfl, ht, hg, hc, hs, htab, rfl⟩

/-- C89, false for the pixel size of a photometer: written in a unit of `u.pix` microns, the emission of the optics is `u.pix ^ 2` times what it
should be (1e6 times for mm), in every element and in the column `instrument_signal`; everything else in the table, `WindowSize` among it, is the same,
and so is the largest signal in a pixel. Zodiacal light and other foregrounds go the same way: they read the same window. -/
theorem photometer_pixel_unit {fuel : ℕ} {env : Env} {c : Common} {loaded : Bool} {u : Units} {d : Descr} (hd : u.det = 1) (hu : Unitful d)
    {b : Built} (h : build fuel env c loaded d = some (.ok b)) :
    ∃ b', buildIn fuel env c loaded u d = some (.ok b') ∧
      b'.signals.total = b.signals.total.map (fun v => v * u.pix ^ 2) ∧
      b'.signals.signals = b.signals.signals.map (fun q => (q.1, q.2.map (fun v => v * u.pix ^ 2))) ∧
      b'.signals.maxima = b.signals.maxima ∧ b'.signals.totalMax = b.signals.totalMax ∧
      b'.table.get? "instrument_signal" = some (col (b.signals.total.map (fun v => v * u.pix ^ 2))) ∧
      (∀ n, n ≠ "instrument_signal" → b'.table.get? n = b.table.get? n) ∧
      b'.ch.inst = b.ch.inst ∧ b'.ch.diffuse.windowSize = b.ch.diffuse.windowSize.map (fun s => s * u.pix ^ 2) := by
  obtain ⟨hl, st, hst, hb⟩ := build_inv h
  obtain ⟨els, total, trCol, tr, rads, h1, h2, h3, h4, h5, h6, h7⟩ := builder_photometer_slit hu.1 hb
  have hdiff : diffuseIn env u d st none = { diffuseOf env d st none with
      windowSize := (diffuseOf env d st none).windowSize.map (fun s => s * u.pix ^ 2) } := by
    unfold diffuseIn bareSize
    rw [if_neg (by push Not; exact ⟨by rw [hu.1]; simp, hu.2⟩)]
    rfl
  obtain ⟨s', g1, g2⟩ := signalLoop_scaled hdiff rfl (s := ⟨st.qe, [], [], List.replicate st.bins.wl.length 0, List.replicate st.bins.wl.length 0⟩)
    (s' := ⟨st.qe, [], [], List.replicate st.bins.wl.length 0, List.replicate st.bins.wl.length 0⟩)
    ⟨rfl, rfl, rfl, by simp, rfl⟩ h5
  have g3 := chanTable_eq d.noise.value st trCol s'
  rw [chanTable_eq] at h6
  have h6' := (Except.ok.inj h6).symm
  have hx : builderIn fuel env u d = some (.ok st) := by
    rw [builderIn_eq fuel env (fun h => by rw [hu.1] at h; cases h)]
    exact hst
  refine ⟨⟨⟨isSpectrometer d.kind, chanOf env c d st tr, diffuseIn env u d st none, d.noise, c.customNoise⟩,
    (stageTable d.noise.value st ++ [("TR", colN trCol)]) ++ [("instrument_signal", col s'.total), ("instrument_MaxSignal_inPixel", col s'.totalMax)],
    Optics.transmissionTable (workGrid env d) els, s'⟩, ?_, g2.total, g2.signals, g2.maxima, g2.totalMax, ?_, ?_, ?_, ?_⟩
  · unfold buildIn
    rw [hl, hx]
    have hp : pathSignalIn env u d st rads none = .ok s' := by
      unfold pathSignalIn
      rw [if_neg (by simp), bareDetector_one hd]
      exact g1
    unfold buildPathIn
    simp only [bareDetector_one hd, h1, h2, h3, h4, hp, g3]
    rfl
  · rw [← g2.total]
    simp [stageTable, Dict.get?]
  · intro n hn
    rw [h6', g2.totalMax]
    exact get?_other _ _ _ _ hn
  · rw [h7]
  · rw [h7, hdiff]

/-! ## The coordinates of the wavelength solution -/

theorem gainCurve_wl (env : Env) (d : Descr) (s : SpecDescr) {px px' : Instrument.Pixels ℝ} (h : px'.wl = px.wl) :
    gainCurve env d s px' = gainCurve env d s px := by
  unfold gainCurve
  rw [h]

theorem wavelengthTable_px (fuel : ℕ) (d : Descr) {r : Resolution} (hr : r ≠ .native) (px px' : Instrument.Pixels ℝ) :
    wavelengthTable fuel d r px' = wavelengthTable fuel d r px := by
  unfold wavelengthTable
  cases r <;> first | rfl | exact absurd rfl hr

/-- Not native: bins, windows, quantum efficiency and gain are those in microns; the bandwidth of every pixel is `u.x` times too large. -/
theorem builderIn_binned {fuel : ℕ} {env : Env} {u : Units} {d : Descr} (hx : 0 < u.x) {s : SpecDescr} (hk : d.kind = .spectrometer s)
    (hr : s.targetR ≠ .native) {st : Stage} (h : builder fuel env d = some (.ok st)) :
    builderIn fuel env u d = some (.ok { st with px := ⟨st.px.x.map (fun x => x / u.x), st.px.wl, st.px.bandwidth.map (fun b => b * u.x)⟩ }) := by
  unfold builder at h
  simp only [hk] at h
  unfold spectrometerStage at h
  unfold builderIn
  simp only [hk]
  unfold spectrometerStageIn
  cases hsol : s.solution with
  | none => simp [hsol] at h
  | some sol =>
    simp only [hsol] at h ⊢
    obtain ⟨e1, e2, e3⟩ := pixelGridIn_eq hx sol d.wlMin d.wlMax d.deltaPix
    rw [wavelengthTable_px fuel d hr (Instrument.pixelGrid sol d.wlMin d.wlMax d.deltaPix)]
    cases hw : wavelengthTable fuel d s.targetR (Instrument.pixelGrid sol d.wlMin d.wlMax d.deltaPix) with
    | none => simp [hw] at h
    | some y =>
      cases y with
      | error x => simp [hw] at h
      | ok q =>
        obtain ⟨b, edges⟩ := q
        simp only [hw] at h ⊢
        cases hq : getQe env d with
        | error x => simp [hq] at h
        | ok qe =>
          simp only [hq] at h ⊢
          rw [gainCurve_wl env d s e1]
          cases hg : gainCurve env d s (Instrument.pixelGrid sol d.wlMin d.wlMax d.deltaPix) with
          | error x => simp [hg] at h
          | ok g =>
            simp only [hg] at h ⊢
            cases hy : d.fnumY with
            | none => simp [hy] at h
            | some fy =>
              simp only [hy, Option.some.injEq, Except.ok.injEq] at h ⊢
              rw [← h, windowIn_eq hx]
              congr 1
              simp only [← e1, ← e2, ← e3]

theorem signalLoop_integrates {pi : ℝ} {ch ch' : Diffuse.Channel ℝ} (hw : ch'.windowSize = ch.windowSize) (ha : ch'.area = ch.area)
    (ho : ch'.omega = ch.omega) (hp : ch'.perPhoton = ch.perPhoton) (hs : ch.slitWidth = none) (hs' : ch'.slitWidth = none) (wl : List ℝ) :
    ∀ (rads : Dict String (Optics.Rad ℝ)) (s : Optics.SigState ℝ), Optics.signalLoop pi ch' wl rads s = Optics.signalLoop pi ch wl rads s
  | [], s => rfl
  | (n, r) :: rads, s => by
    rw [Optics.signalLoop, Optics.signalLoop]
    cases s.qe.spectralRebin wl with
    | error x => rfl
    | ok qe =>
      have he : Optics.elementSignal pi ch' wl qe r = Optics.elementSignal pi ch wl qe r := by
        unfold Optics.elementSignal
        rw [hs, hs']
        unfold Diffuse.integrateLight
        cases r.slit <;> simp only [hw, ha, ho, hp]
      simp only [he]
      cases Optics.elementSignal pi ch wl qe r with
      | error x => rfl
      | ok q => exact signalLoop_integrates hw ha ho hp hs hs' wl rads _

theorem buildPath_slit {env : Env} {c : Common} {d : Descr} {st : Stage} {b : Built} (hk : isSpectrometer d.kind = true)
    (h : buildPath env c d st = .ok b) : ∃ els total trCol tr rads slit, pathElements env c d = .ok els ∧
      (Optics.transmissionTable (workGrid env d) els).getE "total" = .ok total ∧
      Instrument.getTransmission (chanOf env c d st ⟨[], []⟩) (workGrid env d) total = .ok (trCol, tr) ∧
      Optics.chain env.B (workGrid env d) els [] none = .ok (rads, slit) ∧
      Optics.computeSignal Real.pi (diffuseOf env d st slit) (workGrid env d) st.qe st.bins.wl.length rads = .ok b.signals ∧
      Contrib.chanTable ((stageTable d.noise.value st).set "TR" (colN trCol)) b.signals = .ok b.table ∧
      b = ⟨⟨isSpectrometer d.kind, chanOf env c d st tr, diffuseOf env d st slit, d.noise, c.customNoise⟩, b.table,
                Optics.transmissionTable (workGrid env d) els, b.signals⟩ := by
  unfold buildPath at h
  cases hels : pathElements env c d with
  | error x => simp [hels] at h
  | ok els =>
    simp only [hels] at h
    cases ht : (Optics.transmissionTable (workGrid env d) els).getE "total" with
    | error x => simp [ht] at h
    | ok total =>
      simp only [ht] at h
      cases hg : Instrument.getTransmission (chanOf env c d st ⟨[], []⟩) (workGrid env d) total with
      | error x => simp [hg] at h
      | ok q =>
        obtain ⟨trCol, tr⟩ := q
        simp only [hg] at h
        cases hc : Optics.chain env.B (workGrid env d) els [] none with
        | error x => simp [hc] at h
        | ok q =>
          obtain ⟨rads, slit⟩ := q
          simp only [hc] at h
          have hp : pathSignal env d st rads slit =
              Optics.computeSignal Real.pi (diffuseOf env d st slit) (workGrid env d) st.qe st.bins.wl.length rads := by
            unfold pathSignal
            rw [if_neg (by rw [hk]; simp)]
          rw [hp] at h
          cases hs : Optics.computeSignal Real.pi (diffuseOf env d st slit) (workGrid env d) st.qe st.bins.wl.length rads with
          | error x => simp [hs] at h
          | ok s =>
            simp only [hs] at h
            cases htab : Contrib.chanTable ((stageTable d.noise.value st).set "TR" (colN trCol)) s with
            | error x => simp [htab] at h
            | ok t =>
              simp only [htab] at h
              cases h
              exact ⟨els, total, trCol, tr, rads, slit, rfl, ht, hg, hc, hs, htab, rfl⟩

/-- C89, false for the coordinates of the wavelength solution: with `x` in a unit of `u.x` microns (and no slit, bins not native) the channel is the same,
table included, but for the bandwidth of its pixels, which is `u.x` times too large (1000 times for mm). -/
theorem solution_unit {fuel : ℕ} {env : Env} {c : Common} {loaded : Bool} {u : Units} {d : Descr} (hd : u.det = 1) (hx : 0 < u.x) {s : SpecDescr}
    (hk : d.kind = .spectrometer s) (hr : s.targetR ≠ .native) {b : Built} (h : build fuel env c loaded d = some (.ok b)) (hs : b.ch.diffuse.slitWidth = none) :
    buildIn fuel env c loaded u d = some (.ok { b with ch := { b.ch with
      inst := { b.ch.inst with dwlPix := b.ch.inst.dwlPix.map (fun v => v * u.x) },
      diffuse := { b.ch.diffuse with dwlPix := b.ch.diffuse.dwlPix.map (fun v => v * u.x) } } }) := by
  obtain ⟨hl, st, hst, hb⟩ := build_inv h
  have hsp : isSpectrometer d.kind = true := by rw [hk]; rfl
  obtain ⟨els, total, trCol, tr, rads, slit, h1, h2, h3, h4, h5, h6, h7⟩ := buildPath_slit hsp hb
  have hslit : slit = none := by rw [h7] at hs; exact hs
  subst hslit
  unfold buildIn
  rw [builderIn_binned hx hk hr hst, hl]
  simp only [Bool.false_eq_true, if_false]
  congr 1
  unfold buildPathIn
  have hdiff : ∀ st' : Stage, diffuseIn env u d st' none = diffuseOf env d st' none := fun st' =>
    diffuseIn_eq env (fun hu => by have := hu.1; rw [hsp] at this; cases this) st' none
  simp only [bareDetector_one hd, h1, h2]
  have hgt : ∀ px, Instrument.getTransmission (chanOf env c d { st with px := px } ⟨[], []⟩) (workGrid env d) total = .ok (trCol, tr) := fun px => h3
  simp only [hgt, h4]
  unfold pathSignalIn
  rw [if_neg (by rw [hsp]; simp)]
  simp only [hdiff, bareDetector_one hd]
  unfold Optics.computeSignal at h5 ⊢
  have hloop : ∀ px, Optics.signalLoop Real.pi (diffuseOf env d { st with px := px } none) (workGrid env d) rads
      ⟨st.qe, [], [], List.replicate st.bins.wl.length 0, List.replicate st.bins.wl.length 0⟩ = .ok b.signals := fun px =>
    (signalLoop_integrates (ch := diffuseOf env d st none) (ch' := diffuseOf env d { st with px := px } none) rfl rfl rfl rfl rfl rfl _ _ _).trans h5
  simp only [hloop]
  have hst' : ∀ px, stageTable d.noise.value { st with px := px } = stageTable d.noise.value st := fun px => rfl
  simp only [hst', h6]
  rw [h7]
  rfl

theorem maxE_scale {k : ℝ} (hk : 0 < k) (l : List ℝ) : Rebin.maxE (l.map (fun v => v * k)) = (Rebin.maxE l).map (fun v => v * k) := by
  have key : ∀ (l : List ℝ) (a : ℝ), (l.map (fun v => v * k)).foldl max (a * k) = l.foldl max a * k := by
    intro l
    induction l with
    | nil => intro a; rfl
    | cons b l ih =>
      intro a
      simp only [List.map_cons, List.foldl_cons]
      rw [← max_mul_of_nonneg _ _ hk.le, ih]
  cases l with
  | nil => rfl
  | cons a l =>
    show Except.ok _ = Except.ok _
    rw [key]

theorem pixelMaxima_scale {k : ℝ} (hk : 0 < k) (wl v : List ℝ) : ∀ bs : List (ℝ × ℝ),
    Instrument.pixelMaxima wl (v.map (fun x => x * k)) bs = (Instrument.pixelMaxima wl v bs).map (fun m => m.map (fun x => x * k))
  | [] => rfl
  | (lo, hi) :: bs => by
    have e : (((wl.zip (v.map (fun x => x * k))).filter (fun p => decide (lo < p.1) && decide (p.1 < hi))).map Prod.snd) =
        (((wl.zip v).filter (fun p => decide (lo < p.1) && decide (p.1 < hi))).map Prod.snd).map (fun x => x * k) := by
      rw [List.zip_map_right, List.filter_map, List.map_map, List.map_map]
      rfl
    rw [Instrument.pixelMaxima, Instrument.pixelMaxima, e, maxE_scale hk, pixelMaxima_scale hk wl v bs]
    cases Rebin.maxE (((wl.zip v).filter (fun p => decide (lo < p.1) && decide (p.1 < hi))).map Prod.snd) with
    | error x => rfl
    | ok m => cases Instrument.pixelMaxima wl v bs <;> rfl

theorem mulCol_scale_mid (k : ℝ) : ∀ a b c : List ℝ, Diffuse.mulCol (Diffuse.mulCol a (b.map (fun v => v * k))) c =
    (Diffuse.mulCol (Diffuse.mulCol a b) c).map (fun v => v * k)
  | [], b, c => by simp [Diffuse.mulCol]
  | a :: as, [], c => by simp [Diffuse.mulCol]
  | a :: as, b :: bs, [] => by simp [Diffuse.mulCol]
  | a :: as, b :: bs, c :: cs => by
    have := mulCol_scale_mid k as bs cs
    simp only [Diffuse.mulCol] at this
    simp only [Diffuse.mulCol, List.map_cons, List.zipWith_cons_cons, this]
    congr 1
    ring

/-- What that does to an observation: `star_MaxSignal_inPixel` is `u.x` times too large (and with it the frame time and the noise of the detector), the other
columns are right. -/
theorem solution_unit_star {k : ℝ} (hk : 0 < k) (ch : Instrument.Chan ℝ) (sed : Rebin.Signal ℝ) (sky : Option (Rebin.Signal ℝ)) (old : Option (List (Option ℝ))) :
    Instrument.spectrometerTarget { ch with dwlPix := ch.dwlPix.map (fun v => v * k) } sed sky old =
      (Instrument.spectrometerTarget ch sed sky old).map (fun o => { o with maxInPixel := o.maxInPixel.map (fun v => v * k) }) := by
  have he : ∀ dw, Instrument.getEfficiency { ch with dwlPix := dw } sed.wl sky old = Instrument.getEfficiency ch sed.wl sky old := by
    intro dw
    unfold Instrument.getEfficiency
    cases ch.qe.spectralRebin sed.wl with
    | error x => rfl
    | ok q =>
      cases ch.tr.spectralRebin sed.wl with
      | error x => rfl
      | ok t => cases sky <;> rfl
  have hf : ∀ dw tr, Instrument.forceEdge { ch with dwlPix := dw } sed.wl tr = Instrument.forceEdge ch sed.wl tr := fun dw tr => rfl
  have hm : ∀ d, Instrument.spectrometerMaxima { ch with dwlPix := ch.dwlPix.map (fun v => v * k) } sed.wl d =
      (Instrument.spectrometerMaxima ch sed.wl d).map (fun m => m.map (fun x => x * k)) := by
    intro d
    unfold Instrument.spectrometerMaxima
    cases (Rebin.Signal.mk sed.wl d).spectralRebin ch.wlPix with
    | error x => rfl
    | ok r =>
      simp only
      rw [mulCol_scale_mid, pixelMaxima_scale hk]
  unfold Instrument.spectrometerTarget
  rw [he]
  cases Instrument.getEfficiency ch sed.wl sky old with
  | error x => rfl
  | ok eff =>
    simp only [hf]
    cases Instrument.forceEdge ch sed.wl eff.tr with
    | error x => rfl
    | ok q =>
      obtain ⟨tr, win⟩ := q
      simp only [hm]
      have hden : ∀ dw, Instrument.density { ch with dwlPix := dw } sed.wl eff.qe sed.data tr = Instrument.density ch sed.wl eff.qe sed.data tr := fun _ => rfl
      simp only [hden]
      cases Instrument.spectrometerMaxima ch sed.wl ((Instrument.density ch sed.wl eff.qe sed.data tr).map (fun v => ch.atel * v)) <;> rfl

/-- The same of the native bins: their widths are `u.x` times too large. -/
theorem solution_unit_native {fuel : ℕ} {env : Env} {u : Units} {d : Descr} (hx : 0 < u.x) {s : SpecDescr} (hk : d.kind = .spectrometer s)
    (hr : s.targetR = .native) {st : Stage} (h : builder fuel env d = some (.ok st)) :
    ∃ st', builderIn fuel env u d = some (.ok st') ∧ st'.bins.wl = st.bins.wl ∧ st'.bins.width = st.bins.width.map (fun w => w * u.x) ∧
      st'.px.wl = st.px.wl ∧ st'.px.bandwidth = st.px.bandwidth.map (fun w => w * u.x) := by
  unfold builder at h
  simp only [hk] at h
  unfold spectrometerStage at h
  unfold builderIn
  simp only [hk]
  unfold spectrometerStageIn
  cases hsol : s.solution with
  | none => simp [hsol] at h
  | some sol =>
    simp only [hsol] at h ⊢
    obtain ⟨e1, e2, e3⟩ := pixelGridIn_eq hx sol d.wlMin d.wlMax d.deltaPix
    rw [hr] at h ⊢
    unfold wavelengthTable at h ⊢
    simp only [e1, e2] at h ⊢
    have hs : ((Instrument.pixelGrid sol d.wlMin d.wlMax d.deltaPix).wl.zip ((Instrument.pixelGrid sol d.wlMin d.wlMax d.deltaPix).bandwidth.map (fun b => b * u.x))).insertionSort
        (fun p q => p.1 ≤ q.1) = (((Instrument.pixelGrid sol d.wlMin d.wlMax d.deltaPix).wl.zip (Instrument.pixelGrid sol d.wlMin d.wlMax d.deltaPix).bandwidth).insertionSort
          (fun p q => p.1 ≤ q.1)).map (fun p => (p.1, p.2 * u.x)) := by
      rw [List.zip_map_right, List.map_insertionSort (r := fun p q : ℝ × ℝ => p.1 ≤ q.1) (s := fun p q : ℝ × ℝ => p.1 ≤ q.1)]
      · rfl
      · intro a _ b _; exact Iff.rfl
    unfold Instrument.nativeGrid at h ⊢
    simp only [hs] at h ⊢
    generalize ((Instrument.pixelGrid sol d.wlMin d.wlMax d.deltaPix).wl.zip (Instrument.pixelGrid sol d.wlMin d.wlMax d.deltaPix).bandwidth).insertionSort
          (fun p q => p.1 ≤ q.1) = l at h ⊢
    rw [List.getLast?_map]
    cases hlast : l.getLast? with
    | none => simp [hlast] at h
    | some z =>
      simp only [hlast, Option.map_some] at h ⊢
      cases hq : getQe env d with
      | error x => simp [hq] at h
      | ok qe =>
        simp only [hq] at h ⊢
        rw [gainCurve_wl env d s e1]
        cases hg : gainCurve env d s (Instrument.pixelGrid sol d.wlMin d.wlMax d.deltaPix) with
        | error x => simp [hg] at h
        | ok g =>
          simp only [hg] at h ⊢
          cases hy : d.fnumY with
          | none => simp [hy] at h
          | some fy =>
            simp only [hy, Option.some.injEq, Except.ok.injEq] at h ⊢
            refine ⟨_, rfl, ?_, ?_, ?_, ?_⟩
            · rw [← h]; simp [Instrument.mkBins, Function.comp_def]
            · rw [← h]; simp [Instrument.mkBins, Function.comp_def]
            · rw [← h]; exact e1
            · rw [← h]; exact e2

/-! ## The range of the detector -/

/-- A signal whose wavelengths are all too short for the new grid cannot be rebinned. -/
theorem spectralRebin_too_short {s : Rebin.Signal ℝ} {new : List ℝ} (h : ∀ w ∈ s.wl, ∀ a ∈ new, w ≤ 9 / 10 * a) :
    s.spectralRebin new = .error .valueError := by
  unfold Rebin.Signal.spectralRebin Rebin.rebin
  cases hlo : Rebin.minE new with
  | error x => rw [(Rebin.minE_error hlo).2]
  | ok lo =>
    cases hhi : Rebin.maxE new with
    | error x => rw [(Rebin.maxE_error hhi).2]
    | ok hi =>
      have hw : Rebin.window lo hi (s.wl.zip s.data) = [] := by
        unfold Rebin.window
        rw [List.filter_eq_nil_iff]
        intro p hp
        have := h p.1 (List.of_mem_zip hp).1 lo (Rebin.minE_spec hlo).1
        simp only [Bool.and_eq_true, decide_eq_true_eq, not_and]
        intro h'
        exact absurd h' (not_lt.mpr this)
      simp only [hw]
      rfl

/-- The column of a transmission none of whose points lies within the range of the bins. -/
theorem binSignal_zero {wl sig left right : List ℝ} (h : ∀ v ∈ sig, v = 0) : ∀ v ∈ Instrument.binSignal wl sig left right, v = none ∨ v = some 0 := by
  intro v hv
  unfold Instrument.binSignal at hv
  rw [List.mem_iff_getElem] at hv
  obtain ⟨i, hi, rfl⟩ := hv
  rw [List.getElem_zipWith]
  generalize hl : (((wl.zip sig).filter _).map Prod.snd) = l
  have hz : ∀ x ∈ l, x = 0 := by
    intro x hx
    rw [← hl, List.mem_map] at hx
    obtain ⟨p, hp, rfl⟩ := hx
    exact h p.2 (List.of_mem_zip (List.mem_filter.mp hp).1).2
  unfold Rebin.mean
  split_ifs with hn
  · exact .inl rfl
  · right
    have : l.sum = 0 := List.sum_eq_zero hz
    rw [this, zero_div]

theorem zeroOutCol_zero {lo hi : ℝ} {wl : List ℝ} {t : List (Option ℝ)} (h : ∀ v ∈ t, v = none ∨ v = some 0) :
    ∀ v ∈ Instrument.zeroOutCol lo hi wl t, v = none ∨ v = some 0 := by
  intro v hv
  unfold Instrument.zeroOutCol at hv
  rw [List.mem_iff_getElem] at hv
  obtain ⟨i, hi, rfl⟩ := hv
  rw [List.getElem_zipWith]
  split_ifs
  · exact .inr rfl
  · exact h _ (List.getElem_mem _)

theorem chain_empty (B : ℝ → ℝ → ℝ) (wl : List ℝ) : ∀ (els : Dict String (Optics.Element ℝ)) {rads : Dict String (Optics.Rad ℝ)} {w w' : Option ℝ},
    Optics.chain B wl els rads w = .ok ([], w') → rads = [] ∧ ∀ q ∈ els, q.2.temperature = none
  | [], rads, w, w', h => by
    rw [Optics.chain] at h
    simp only [Except.ok.injEq, Prod.mk.injEq] at h
    exact ⟨h.1, by simp⟩
  | (n, el) :: els, rads, w, w', h => by
    rw [Optics.chain] at h
    cases hT : el.temperature with
    | none =>
      simp only [hT] at h
      obtain ⟨h1, h2⟩ := chain_empty B wl els h
      refine ⟨h1, fun q hq => ?_⟩
      rcases List.mem_cons.mp hq with rfl | hq
      · exact hT
      · exact h2 q hq
    | some T =>
      simp only [hT] at h
      cases hp : Optics.passThrough els ⟨el.position, false, Optics.surfaceRadiance B wl T el.emissivity⟩ w with
      | error x => simp [hp] at h
      | ok q =>
        obtain ⟨r, w1⟩ := q
        simp only [hp] at h
        have h1 := (chain_empty B wl els h).1
        exfalso
        cases rads with
        | nil => simp [Dict.set] at h1
        | cons p rads =>
          simp only [Dict.set] at h1
          split_ifs at h1

/-- C89, false for the range of the detector: written in a unit so small (nm for instance) that its bare numbers, taken for microns, lie above the
wavelengths of the quantum efficiency curve and of the bins, the channel cannot be built at all if one of its optical elements emits light;
without one the transmission of the built channel is 0 in every bin, and no light of the optics is counted. -/
theorem detector_unit_fails {fuel : ℕ} {env : Env} (he : SoundEnv env) {c : Common} {loaded : Bool} {u : Units} {d : Descr} (hu : 0 < u.det)
    (hd : 0 < d.detWlMin ∧ d.detWlMin < d.cutOff) {b : Built} (h : buildIn fuel env c loaded u d = some (.ok b))
    (hq : ∀ w ∈ b.ch.inst.qe.wl, w ≤ 9 / 10 * (d.detWlMin / u.det)) (hb : ∀ w ∈ b.ch.inst.bins.wl, w < d.detWlMin / u.det) :
    (∃ els, pathElements env c (bareDetector u d) = .ok els ∧ ∀ q ∈ els, q.2.temperature = none) ∧
      b.signals.signals = [] ∧ (∀ v ∈ b.signals.total, v = 0) ∧
      ∃ trCol, b.table.get? "TR" = some (colN trCol) ∧ ∀ v ∈ trCol, v = none ∨ v = some 0 := by
  unfold buildIn at h
  cases loaded with
  | true => simp at h
  | false =>
    simp only [Bool.false_eq_true, if_false] at h
    cases hst : builderIn fuel env u d with
    | none => simp [hst] at h
    | some y =>
      cases y with
      | error x => simp [hst] at h
      | ok st =>
        simp only [hst, Option.some.injEq] at h
        have hgrid : ∀ a ∈ workGrid env (bareDetector u d), d.detWlMin / u.det ≤ a := by
          intro a ha
          exact ((Instrument.logspace_spec (d.detWlMin / u.det) (d.cutOff / u.det) env.workingR (div_pos hd.1 hu)
            ((div_lt_div_iff_of_pos_right hu).mpr hd.2) he.workingR).2.2.2.2 a ha).1
        unfold buildPathIn at h
        generalize hG : workGrid env (bareDetector u d) = grid at h hgrid
        cases hels : pathElements env c (bareDetector u d) with
        | error x => simp [hels] at h
        | ok els =>
          simp only [hels] at h
          cases ht : (Optics.transmissionTable grid els).getE "total" with
          | error x => simp [ht] at h
          | ok total =>
            simp only [ht] at h
            cases hg : Instrument.getTransmission (chanOf env c d st ⟨[], []⟩) grid total with
            | error x => simp [hg] at h
            | ok q =>
              obtain ⟨trCol, tr⟩ := q
              simp only [hg] at h
              cases hc : Optics.chain env.B grid els [] none with
              | error x => simp [hc] at h
              | ok q =>
                obtain ⟨rads, slit⟩ := q
                simp only [hc] at h
                cases hs : pathSignalIn env u d st rads slit with
                | error x => simp [hs] at h
                | ok s =>
                  simp only [hs] at h
                  rw [chanTable_eq] at h
                  simp only [Except.ok.injEq] at h
                  subst h
                  simp only [chanOf] at hq hb
                  have hre : st.qe.spectralRebin grid = .error .valueError :=
                    spectralRebin_too_short (fun w hw a ha => (hq w hw).trans (by have := hgrid a ha; linarith))
                  have hrads : rads = [] ∧ s = ⟨st.qe, [], [], List.replicate st.bins.wl.length 0, List.replicate st.bins.wl.length 0⟩ := by
                    unfold pathSignalIn at hs
                    rw [hG] at hs
                    split_ifs at hs with h1
                    · simp [hre] at hs
                    · unfold Optics.computeSignal at hs
                      cases rads with
                      | nil =>
                        rw [Optics.signalLoop] at hs
                        exact ⟨rfl, (Except.ok.inj hs).symm⟩
                      | cons q rads =>
                        obtain ⟨n, r⟩ := q
                        rw [Optics.signalLoop] at hs
                        simp [hre] at hs
                  rw [hrads.1] at hc
                  refine ⟨⟨els, rfl, (chain_empty env.B grid els hc).2⟩, by rw [hrads.2], ?_, trCol, by simp [stageTable, Dict.get?], ?_⟩
                  · rw [hrads.2]
                    intro v hv
                    exact List.eq_of_mem_replicate hv
                  · have hz : ∀ v ∈ Instrument.binSignal st.bins.wl (st.bins.wl.map (Rebin.interp (grid.zip total))) st.bins.left st.bins.right, v = none ∨ v = some 0 := by
                      apply binSignal_zero
                      intro v hv
                      rw [List.mem_map] at hv
                      obtain ⟨w, hw, rfl⟩ := hv
                      exact Rebin.interp_outside _ _ (.inl (fun p hp => (hb w hw).trans_le (hgrid p.1 (List.of_mem_zip hp).1)))
                    unfold Instrument.getTransmission at hg
                    cases hm : Rebin.Signal.mk? grid total with
                    | error x => simp [hm] at hg
                    | ok sig =>
                      simp only [hm, chanOf] at hg
                      cases hf : c.force with
                      | none => simp [hf] at hg
                      | some f =>
                        cases f with
                        | false =>
                          simp only [hf, Except.ok.injEq, Prod.mk.injEq] at hg
                          rw [← hg.1]
                          exact hz
                        | true =>
                          simp only [hf, Except.ok.injEq, Prod.mk.injEq] at hg
                          rw [← hg.1]
                          exact zeroOutCol_zero hz

end
end ExoRad.Build
