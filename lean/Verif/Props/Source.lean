import Verif.Model.Source
import Verif.Props.Planck
import Verif.Props.PsfSelect
import Verif.Props.Instrument
import Verif.Props.Propagate

/-!
# Stars (C50, C51, C52, C71)
-/

set_option linter.unusedSectionVars false

namespace ExoRad.Source

open ExoRad.Diffuse

variable {α : Type} [Field α] [LinearOrder α] [IsStrictOrderedRing α] [FloorRing α]

/-! ## The solid angle (C50) -/

/-- A signal scaled by `k`. -/
def scale (k : α) (s : Rebin.Signal α) : Rebin.Signal α := ⟨s.wl, s.data.map (fun v => k * v)⟩

theorem zipWith_scale (k : α) : ∀ l : List α, List.zipWith (fun u v => k * u + 0 * v) l l = l.map (fun v => k * v)
  | [] => rfl
  | a :: l => by simp [zipWith_scale k l]

/-- Rebinning commutes with scaling. -/
theorem spectralRebin_scale (k : α) (s : Rebin.Signal α) (wl : List α) :
    (scale k s).spectralRebin wl = (s.spectralRebin wl).map (scale k) := by
  obtain ⟨w, d⟩ := s
  unfold scale
  simp only
  cases h : (Rebin.Signal.mk w d).spectralRebin wl with
  | ok s' =>
    have := Rebin.spectralRebin_linear w d d wl k 0 rfl s' s' h h
    rw [zipWith_scale, zipWith_scale] at this
    rw [this]
    have hw : s'.wl = wl := by
      unfold Rebin.Signal.spectralRebin at h
      split at h
      · cases h
      · simp only [Except.ok.injEq] at h; rw [← h]
    simp only [Except.map, hw]
  | error e =>
    simp only [Except.map]
    rcases Rebin.rebin_linear wl w d d k 0 rfl with ⟨e', h1, _, h3⟩ | ⟨x', rf, rg, h1, _⟩
    · rw [zipWith_scale] at h3
      unfold Rebin.Signal.spectralRebin at h ⊢
      simp only [h1, h3] at h ⊢
      exact h
    · unfold Rebin.Signal.spectralRebin at h
      simp [h1] at h

theorem mk?_scale (k : α) (wl d : List α) : Rebin.Signal.mk? wl (d.map (fun v => k * v)) = (Rebin.Signal.mk? wl d).map (scale k) := by
  unfold Rebin.Signal.mk?
  simp only [List.length_map]
  split <;> rfl

/-- What of a built star does not depend on its distance and radius: the flux at its surface and the model. -/
def surface (r : Except Exc (Built α)) : Except Exc (Rebin.Signal α × Kind) := r.map (fun b => (b.sed, b.model))

/-- The source seen from `D` has the surface flux `f`, diluted. -/
def Diluted (f : Except Exc (Rebin.Signal α × Kind)) (k : α) (r : Except Exc (Built α)) : Prop :=
  surface r = f.map (fun p => (scale k p.1, p.2))

theorem map_mul_comm (k : α) (l : List α) : l.map (fun f => f * k) = l.map (fun f => k * f) := by
  apply List.map_congr_left; intro x _; ring

theorem planckStar_diluted (c : Consts α) (T lo hi : α) : ∃ f, ∀ D R, Diluted f ((R / D) ^ 2) (planckStar c D T R lo hi) := by
  refine ⟨(Rebin.Signal.mk? (linspace lo hi 10000) ((linspace lo hi 10000).map (fun w => c.pi * c.B w T))).map (fun s => (s, .planck)), fun D R => ?_⟩
  unfold Diluted surface planckStar
  have : (linspace lo hi 10000).map (fun w => c.pi * (R / D) ^ 2 * c.B w T) =
      ((linspace lo hi 10000).map (fun w => c.pi * c.B w T)).map (fun v => (R / D) ^ 2 * v) := by
    rw [List.map_map]; apply List.map_congr_left; intro w _; simp only [Function.comp]; ring
  simp only [this]
  rw [mk?_scale]
  cases Rebin.Signal.mk? (linspace lo hi 10000) ((linspace lo hi 10000).map (fun w => c.pi * c.B w T)) <;> rfl

theorem phoenixStar_diluted (c : Consts α) (pts : List (α × α)) (file : String) :
    ∃ f, ∀ D R, Diluted f ((R / D) ^ 2) (phoenixStar c pts D R file) := by
  refine ⟨(Rebin.Signal.mk? ((keepChanges pts).map Prod.fst) ((keepChanges pts).map Prod.snd)).map (fun s => (s, .phoenix file)), fun D R => ?_⟩
  unfold Diluted surface phoenixStar
  simp only [map_mul_comm, mk?_scale]
  cases Rebin.Signal.mk? ((keepChanges pts).map Prod.fst) ((keepChanges pts).map Prod.snd) <;> rfl

theorem customStar_diluted (c : Consts α) (wl flux : List α) : ∃ f, ∀ D R, Diluted f ((R / D) ^ 2) (customStar c wl flux D R) := by
  refine ⟨(Rebin.Signal.mk? wl flux).map (fun s => (s, .custom)), fun D R => ?_⟩
  unfold Diluted surface customStar
  simp only [map_mul_comm, mk?_scale]
  cases Rebin.Signal.mk? wl flux <;> rfl

theorem diluted_error {f : Except Exc (Rebin.Signal α × Kind)} {k k' : α} {r r' : Except Exc (Built α)} (h : Diluted f k r)
    (h' : Diluted f k' r') (e : Exc) : r = .error e ↔ r' = .error e := by
  unfold Diluted surface at h h'
  cases f <;> cases r <;> cases r' <;> simp_all [Except.map]

theorem libraryStar_diluted (c : Consts α) (env : Env α) (p : String) (T g : α) :
    ∃ f, ∀ D M R, c.logg M R = g → Diluted f ((R / D) ^ 2) (libraryStar c env p D T M R) := by
  unfold libraryStar
  cases hf : phoenixFile env.float (env.glob p) T g 0 with
  | error e => exact ⟨.error e, fun D M R h => by simp [h, hf, Diluted, surface, Except.map]⟩
  | ok file =>
    cases hp : env.phoenix p file with
    | error e => exact ⟨.error e, fun D M R h => by simp [h, hf, hp, Diluted, surface, Except.map]⟩
    | ok pts =>
      obtain ⟨f, h⟩ := phoenixStar_diluted c pts file
      exact ⟨f, fun D M R hg => by simp only [hg, hf, hp]; exact h D R⟩

theorem phoenixOrPlanck_diluted (c : Consts α) (env : Env α) (d : Descr) (T g lo hi : α) :
    ∃ f, ∀ D M R, c.logg M R = g → Diluted f ((R / D) ^ 2) (phoenixOrPlanck c env d D T M R lo hi) := by
  unfold phoenixOrPlanck
  cases hp : modelPath env d with
  | error e => exact ⟨.error e, fun D M R _ => by simp [Diluted, surface, Except.map]⟩
  | ok p =>
    obtain ⟨f, h⟩ := libraryStar_diluted c env p T g
    obtain ⟨f', h'⟩ := planckStar_diluted c T lo hi
    by_cases hv : f = .error .valueError
    · refine ⟨f', fun D M R hg => ?_⟩
      have := h D M R hg
      rw [hv] at this
      have hl : libraryStar c env p D T M R = .error .valueError := by
        unfold Diluted surface at this
        cases hx : libraryStar c env p D T M R <;> simp_all [Except.map]
      simp only [hl]
      exact h' D R
    · refine ⟨f, fun D M R hg => ?_⟩
      have := h D M R hg
      simp only
      split
      · rename_i hl
        rw [hl] at this
        unfold Diluted surface at this
        cases f <;> simp_all [Except.map]
      · exact this

/-- C50: for every source description, file library and wavelength range there is one spectrum at the surface of the star, depending on
its temperature and gravity only, such that the SED of a star of radius `R` at distance `D` is, at every wavelength of the working
grid, `(R / D)²` times it. -/
theorem sed_solid_angle (c : Consts α) (env : Env α) (grid : α → α → List α) (d : Descr) (a b : Wl α) (T g : α) :
    ∃ f, ∀ D M R, c.logg M R = g → Diluted f ((R / D) ^ 2)
      (loadSource c env grid d ⟨some D, some T, some M, some R⟩ a b) := by
  have rebinned : ∀ (lo hi : Wl α) (build : α → α → α → Except Exc (Built α)),
      (∃ f, ∀ D M R, c.logg M R = g → Diluted f ((R / D) ^ 2) (build D M R)) →
      ∃ f, ∀ D M R, c.logg M R = g → Diluted f ((R / D) ^ 2) (match build D M R with
        | .error e => .error e
        | .ok st => toGrid grid lo hi st) := by
    rintro lo hi build ⟨f, hf⟩
    refine ⟨(match f with
      | .error e => .error e
      | .ok p => if hi.unit.getD 1 ≠ 1 then .error .valueError else (p.1.spectralRebin (grid lo.v hi.v)).map (fun s => (s, p.2))), fun D M R hg => ?_⟩
    have h := hf D M R hg
    unfold Diluted surface at h ⊢
    cases hb : build D M R with
    | error e =>
      rw [hb] at h
      cases f with
      | error e' => simpa [Except.map] using h
      | ok p => simp [Except.map] at h
    | ok st =>
      rw [hb] at h
      cases f with
      | error e' => simp [Except.map] at h
      | ok p =>
        simp only [Except.map, Except.ok.injEq, Prod.mk.injEq] at h
        simp only
        unfold toGrid
        split
        · rfl
        · rw [h.1, spectralRebin_scale]
          cases p.1.spectralRebin (grid lo.v hi.v) with
          | error e => rfl
          | ok s => simp only [Except.map, h.2]
  unfold loadSource
  cases hr : sortRange a b with
  | error e => exact ⟨.error e, fun D M R _ => rfl⟩
  | ok ab =>
    obtain ⟨lo, hi⟩ := ab
    refine rebinned lo hi (fun D M R => buildStar c env d ⟨some D, some T, some M, some R⟩ lo.um hi.um) ?_
    unfold buildStar
    split
    · unfold customSource
      simp only
      split
      · exact ⟨.error .keyError, fun D M R _ => rfl⟩
      · rename_i f _
        split
        · rename_i e _; exact ⟨.error e, fun D M R _ => rfl⟩
        · rename_i wl flux _
          obtain ⟨f, h⟩ := customStar_diluted c wl flux
          exact ⟨f, fun D M R _ => h D R⟩
    · simp only
      split
      · obtain ⟨f, h⟩ := planckStar_diluted c T lo.um hi.um
        exact ⟨f, fun D M R _ => h D R⟩
      · split
        · exact phoenixOrPlanck_diluted c env d T g lo.um hi.um
        · obtain ⟨f, h⟩ := planckStar_diluted c T lo.um hi.um
          exact ⟨f, fun D M R _ => h D R⟩

/-- C50, doubling the distance: every sample of the SED becomes a quarter, for every source. -/
theorem sed_twice_as_far (c : Consts α) (env : Env α) (grid : α → α → List α) (d : Descr) (a b : Wl α) (D T M R : α)
    (near far : Built α) (hn : loadSource c env grid d ⟨some D, some T, some M, some R⟩ a b = .ok near)
    (hf : loadSource c env grid d ⟨some (2 * D), some T, some M, some R⟩ a b = .ok far) :
    far.sed.wl = near.sed.wl ∧ far.model = near.model ∧ far.sed.data = near.sed.data.map (fun v => v / 4) := by
  obtain ⟨f, h⟩ := sed_solid_angle c env grid d a b T (c.logg M R)
  have h1 := h D M R rfl
  have h2 := h (2 * D) M R rfl
  unfold Diluted surface at h1 h2
  rw [hn] at h1
  rw [hf] at h2
  cases f with
  | error e => simp [Except.map] at h1
  | ok p =>
    simp only [Except.map, Except.ok.injEq, Prod.mk.injEq] at h1 h2
    obtain ⟨h1, h1'⟩ := h1
    obtain ⟨h2, h2'⟩ := h2
    refine ⟨by rw [h1, h2]; rfl, by rw [h1', h2'], ?_⟩
    rw [h1, h2]
    simp only [scale, List.map_map]
    apply List.map_congr_left
    intro v _
    simp only [Function.comp]
    by_cases hD : D = 0
    · simp [hD]
    · field_simp; ring

/-- C50: if one distance works, so does the other; the error does not depend on radius or distance at equal gravity. -/
theorem sed_error (c : Consts α) (env : Env α) (grid : α → α → List α) (d : Descr) (a b : Wl α) (T D M R D' M' R' : α)
    (hg : c.logg M R = c.logg M' R') (e : Exc) :
    loadSource c env grid d ⟨some D, some T, some M, some R⟩ a b = .error e ↔
      loadSource c env grid d ⟨some D', some T, some M', some R'⟩ a b = .error e := by
  obtain ⟨f, h⟩ := sed_solid_angle c env grid d a b T (c.logg M R)
  exact diluted_error (h D M R rfl) (h D' M' R' hg.symm) e

/-! ## The luminosity (C50) -/

theorem trapz_scale (k : α) (x f : List α) : trapz x (f.map (fun v => k * v)) = k * trapz x f := by
  have := trapz_linear k 0 x f f rfl
  unfold linCol at this
  rw [zipWith_scale] at this
  rw [this]; ring

/-- C50: the luminosity does not depend on the distance: the black body gives 4πR² times the flux at its surface, as
do the other sources. -/
theorem luminosity (c : Consts α) (D T R lo hi : α) (hD : D ≠ 0) (b : Built α) (h : planckStar c D T R lo hi = .ok b) :
    b.luminosity = 4 * c.pi * R ^ 2 * trapz (linspace lo hi 10000) ((linspace lo hi 10000).map (fun w => c.pi * c.B w T)) := by
  unfold planckStar at h
  simp only at h
  split at h
  · cases h
  simp only [Except.ok.injEq] at h
  rw [← h]
  simp only
  have : (linspace lo hi 10000).map (fun w => c.pi * (R / D) ^ 2 * c.B w T) =
      ((linspace lo hi 10000).map (fun w => c.pi * c.B w T)).map (fun v => (R / D) ^ 2 * v) := by
    rw [List.map_map]; apply List.map_congr_left; intro w _; simp only [Function.comp]; ring
  rw [this, trapz_scale]
  field_simp

/-- C50: the luminosity of a custom source is 4πR² times the integral of its table. -/
theorem luminosity_custom (c : Consts α) (wl flux : List α) (D R : α) (b : Built α) (h : customStar c wl flux D R = .ok b) :
    b.luminosity = 4 * c.pi * R ^ 2 * trapz wl flux ∧ b.sed = scale ((R / D) ^ 2) ⟨wl, flux⟩ := by
  unfold customStar at h
  rw [map_mul_comm, mk?_scale] at h
  cases hm : Rebin.Signal.mk? wl flux with
  | error e => rw [hm] at h; simp [Except.map] at h
  | ok s =>
    rw [hm] at h
    simp only [Except.map, Except.ok.injEq] at h
    rw [← h]
    have : s = ⟨wl, flux⟩ := by
      unfold Rebin.Signal.mk? at hm
      split at hm
      · cases hm
      · simp only [Except.ok.injEq] at hm; exact hm.symm
    simp [this]

/-- C50: the luminosity of a library star is 4πR² times the integral of the samples kept of its file. -/
theorem luminosity_library (c : Consts α) (pts : List (α × α)) (D R : α) (file : String) (b : Built α)
    (h : phoenixStar c pts D R file = .ok b) : b.luminosity = 4 * c.pi * R ^ 2 * trapz ((keepChanges pts).map Prod.fst) ((keepChanges pts).map Prod.snd) ∧
    b.sed = scale ((R / D) ^ 2) ⟨(keepChanges pts).map Prod.fst, (keepChanges pts).map Prod.snd⟩ ∧ b.model = .phoenix file := by
  unfold phoenixStar at h
  have hm : Rebin.Signal.mk? ((keepChanges pts).map Prod.fst) (((keepChanges pts).map Prod.snd).map (fun f => f * (R / D) ^ 2)) =
      .ok ⟨(keepChanges pts).map Prod.fst, ((keepChanges pts).map Prod.snd).map (fun f => f * (R / D) ^ 2)⟩ := by
    rw [Rebin.mk?_ok]
    exact ⟨rfl, by simp [Rebin.Signal.WellFormed]⟩
  simp only [hm, Except.ok.injEq] at h
  rw [← h]
  refine ⟨rfl, ?_, rfl⟩
  simp only [scale, map_mul_comm]

/-! ## Monotone in temperature (C49, C50) -/

theorem forall₂_map {wl : List α} {f g : α → α} (h : ∀ w ∈ wl, f w ≤ g w) : List.Forall₂ (· ≤ ·) (wl.map f) (wl.map g) := by
  induction wl with
  | nil => exact .nil
  | cons w wl ih => exact .cons (h w (by simp)) (ih (fun w hm => h w (by simp [hm])))

theorem linspace_bounds (a b : α) (n : Nat) (hn : 2 ≤ n) (hab : a ≤ b) : ∀ w ∈ linspace a b n, a ≤ w ∧ w ≤ b := by
  intro w hw
  unfold linspace at hw
  obtain ⟨k, hk, rfl⟩ := List.mem_map.mp hw
  have hk : (k : α) ≤ (n : α) - 1 := by
    have : k + 1 ≤ n := List.mem_range.mp hk
    have : ((k + 1 : Nat) : α) ≤ (n : α) := by exact_mod_cast this
    push_cast at this
    linarith
  have hn1 : (0 : α) < (n : α) - 1 := by
    have : ((2 : Nat) : α) ≤ (n : α) := by exact_mod_cast hn
    push_cast at this
    linarith
  have hk0 : (0 : α) ≤ (k : α) := Nat.cast_nonneg k
  constructor
  · have := mul_nonneg hk0 (div_nonneg (sub_nonneg.mpr hab) hn1.le)
    linarith
  · have : (k : α) * ((b - a) / ((n : α) - 1)) ≤ ((n : α) - 1) * ((b - a) / ((n : α) - 1)) :=
      mul_le_mul_of_nonneg_right hk (div_nonneg (sub_nonneg.mpr hab) hn1.le)
    rw [mul_div_cancel₀ _ hn1.ne'] at this
    linarith

/-- Rebinning keeps the order of two signals on the same grid. -/
theorem spectralRebin_mono (wl new f g : List α) (hfg : List.Forall₂ (· ≤ ·) f g) (sf sg : Rebin.Signal α)
    (hf : (Rebin.Signal.mk wl f).spectralRebin new = .ok sf) (hg : (Rebin.Signal.mk wl g).spectralRebin new = .ok sg) (i : Nat) :
    sf.data.getD i 0 ≤ sg.data.getD i 0 := by
  have hlen := hfg.length_eq
  have hl := Rebin.spectralRebin_linear wl f g new (-1) 1 hlen sf sg hf hg
  have hnn : ∀ v ∈ List.zipWith (fun u v => (-1) * u + 1 * v) f g, (0 : α) ≤ v := by
    clear hl hf hg
    induction hfg with
    | nil => simp
    | cons h _ ih =>
      intro v hv
      simp only [List.zipWith_cons_cons, List.mem_cons] at hv
      rcases hv with rfl | hv
      · linarith
      · exact ih (by simp_all) v hv
  obtain ⟨U, hU0, hU⟩ : ∃ U : α, 0 ≤ U ∧ ∀ v ∈ List.zipWith (fun u v => (-1) * u + 1 * v) f g, v ≤ U := by
    generalize List.zipWith (fun u v => (-1) * u + 1 * v) f g = l
    induction l with
    | nil => exact ⟨0, le_rfl, by simp⟩
    | cons a l ih =>
      obtain ⟨U, h0, h⟩ := ih
      refine ⟨max U a, le_max_of_le_left h0, ?_⟩
      intro v hv
      rcases List.mem_cons.mp hv with rfl | hv
      · exact le_max_right _ _
      · exact (h v hv).trans (le_max_left _ _)
  have hb := Rebin.spectralRebin_bounds _ _ new 0 U le_rfl hU0 (fun v hv => ⟨hnn v hv, hU v hv⟩) hl
  have hlen' : sf.data.length = sg.data.length := by
    rcases Rebin.rebin_linear new wl f g 1 0 hlen with ⟨e, he, _⟩ | ⟨x', rf, rg, k1, k2, k3, _⟩
    · unfold Rebin.Signal.spectralRebin at hf; simp [he] at hf
    · unfold Rebin.Signal.spectralRebin at hf hg
      simp only [k1, k2, Except.ok.injEq] at hf hg
      rw [← hf, ← hg]
      simpa using congrArg List.length k3
  by_cases hi : i < sf.data.length
  · have hz := Instrument.zipWith_getD_min (fun u v : α => (-1) * u + 1 * v) sf.data sg.data i hi (by omega)
    have hm : (List.zipWith (fun u v : α => (-1) * u + 1 * v) sf.data sg.data).getD i 0 ∈
        List.zipWith (fun u v : α => (-1) * u + 1 * v) sf.data sg.data := by
      rw [List.getD_eq_getElem?_getD, List.getElem?_eq_getElem (by simp; omega), Option.getD_some]
      exact List.getElem_mem _
    have := (hb _ hm).1
    rw [hz] at this
    linarith
  · rw [getD_ge _ _ (by omega), getD_ge _ _ (by omega)]

theorem planckStar_sed (c : Consts α) (D T R lo hi : α) : ∃ b, planckStar c D T R lo hi = .ok b ∧ b.model = .planck ∧
    b.sed = ⟨linspace lo hi 10000, (linspace lo hi 10000).map (fun w => c.pi * (R / D) ^ 2 * c.B w T)⟩ := by
  unfold planckStar
  have : Rebin.Signal.mk? (linspace lo hi 10000) ((linspace lo hi 10000).map (fun w => c.pi * (R / D) ^ 2 * c.B w T)) =
      .ok ⟨linspace lo hi 10000, (linspace lo hi 10000).map (fun w => c.pi * (R / D) ^ 2 * c.B w T)⟩ := by
    rw [Rebin.mk?_ok]
    exact ⟨rfl, by simp [Rebin.Signal.WellFormed]⟩
  simp only [this]
  exact ⟨_, rfl, rfl, rfl⟩

end ExoRad.Source
