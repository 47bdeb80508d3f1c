import Verif.Model.SignalUnits
import Verif.Props.Rebin
import Mathlib.Tactic.FieldSimp
import Mathlib.Tactic.Ring

/-!
# C111: signals keep the quantities they are given

Specification: the physical content of an array in some unit is its values times the size of the unit.
-/

namespace ExoRad.SignalUnits

open Rebin

variable {α : Type} [Field α] [LinearOrder α] [IsStrictOrderedRing α]

/-- Values in base units. -/
def Arr.base (a : Arr α) (v : Unit α) : List α := a.vals.map (fun x => x * v.size)

/-- The unit of an argument; numbers without a unit are in the unit of the class. -/
def Arg.unitOr (x : Arg α) (v : Unit α) : Unit α :=
  match x with
  | .bare _ => v
  | .quantity _ w => w

/-- Two arguments describe the same array of physical quantities, when numbers are in units of `v`. -/
structure SameArg (v : Unit α) (x y : Arg α) : Prop where
  dim : (x.unitOr v).dim = (y.unitOr v).dim
  shape : x.arr.shape = y.arr.shape
  base : x.arr.base (x.unitOr v) = y.arr.base (y.unitOr v)

/-- The shapes of the three arrays agree: one wavelength axis, and data with one value per wavelength (and
per time, when there are several). -/
def Sizes (wl data time : List ℕ) : Prop :=
  ∃ nw nt, wl = [nw] ∧ time = [nt] ∧ ((data = [nw] ∧ nt ≤ 1) ∨ data = [nw, nt])

theorem um_pos : 0 < (um : Unit α).size := by unfold um; positivity
theorem hr_pos : 0 < (hr : Unit α).size := by unfold hr; positivity

/-- C111: the units of the classes in metres, kilograms, seconds, radians and counts. -/
theorem class_units :
    (um : Unit α) = ⟨⟨1, 0, 0, 0, 0, 0, 0⟩, 1 / 10 ^ 6⟩ ∧ (hr : Unit α) = ⟨⟨0, 0, 1, 0, 0, 0, 0⟩, 60 * 60⟩ ∧
    (Class.signal : Class α).unit = ⟨⟨0, 0, 0, 0, 0, 0, 0⟩, 1⟩ ∧
    (Class.sed : Class α).unit = ⟨⟨-1, 1, -3, 0, 0, 0, 0⟩, 10 ^ 6⟩ ∧
    (Class.radiance : Class α).unit = ⟨⟨-1, 1, -3, 0, -2, 0, 0⟩, 10 ^ 6⟩ ∧
    (Class.countsPerSeconds : Class α).unit = ⟨⟨0, 0, -1, 0, 0, 1, 0⟩, 1⟩ ∧
    (Class.noise : Class α).unit.dim = ⟨0, 0, 1 / 2, 0, 0, 0, 0⟩ ∧ (Class.noise : Class α).unit.size ^ 2 = (hr : Unit α).size := by
  simp only [um, hr, Class.unit, one, sedUnit, radianceUnit, countsUnit, noiseUnit, Unit.div, Dim.div, watt, metre, steradian]
  norm_num

theorem checkQuantities_ok_iff (x : Arg α) {v : Unit α} (hv : v.size ≠ 0) (a : Arr α) :
    checkQuantities x v = .ok a ↔ (x.unitOr v).dim = v.dim ∧ a.shape = x.arr.shape ∧ a.base v = x.arr.base (x.unitOr v) := by
  have inj : ∀ l l' : List α, l.map (fun z => z * v.size) = l'.map (fun z => z * v.size) → l = l' := by
    intro l l' h
    refine List.map_injective_iff.mpr ?_ h
    intro p q hpq
    exact mul_right_cancel₀ hv hpq
  cases x with
  | bare b =>
    simp only [checkQuantities, Arg.unitOr, Arg.arr, Except.ok.injEq, Arr.base, true_and]
    constructor
    · rintro rfl; exact ⟨rfl, rfl⟩
    · rintro ⟨h1, h2⟩
      have := inj _ _ h2
      cases a; cases b; simp_all
  | quantity b w =>
    simp only [checkQuantities, Arg.unitOr, Arg.arr, Arr.base]
    split
    · rename_i h
      subst h
      simp only [Except.ok.injEq, true_and]
      constructor
      · rintro rfl; exact ⟨rfl, rfl⟩
      · rintro ⟨h1, h2⟩
        have := inj _ _ h2
        cases a; cases b; simp_all
    · split
      · rename_i h
        simp only [Except.ok.injEq, h, true_and]
        have hb : b.vals.map (fun z => z * w.size) = (b.vals.map (fun z => z * (w.size / v.size))).map (fun z => z * v.size) := by
          rw [List.map_map]
          apply List.map_congr_left
          intro z _
          simp only [Function.comp_apply]
          field_simp
        rw [hb]
        constructor
        · rintro rfl; exact ⟨rfl, rfl⟩
        · rintro ⟨h1, h2⟩
          have := inj _ _ h2
          cases a; simp_all [convert]
      · rename_i h
        simp [h]

theorem checkQuantities_error {x : Arg α} {v : Unit α} {e : Exc} (h : checkQuantities x v = .error e) :
    e = .valueError ∧ (x.unitOr v).dim ≠ v.dim := by
  cases x with
  | bare b => simp [checkQuantities] at h
  | quantity b w =>
    simp only [checkQuantities] at h
    split at h
    · cases h
    · split at h
      · cases h
      · rename_i hd
        cases h
        exact ⟨rfl, hd⟩

theorem checkQuantities_refused {x : Arg α} {v : Unit α} (h : (x.unitOr v).dim ≠ v.dim) :
    checkQuantities x v = .error .valueError := by
  cases x with
  | bare b => exact absurd rfl h
  | quantity b w =>
    simp only [Arg.unitOr] at h
    simp only [checkQuantities]
    split
    · rename_i hw; subst hw; exact absurd rfl h
    · simp [h]

theorem checkQuantities_same {x y : Arg α} {v : Unit α} (hv : v.size ≠ 0) (h : SameArg v x y) :
    checkQuantities x v = checkQuantities y v := by
  by_cases hd : (x.unitOr v).dim = v.dim
  · have hy : (y.unitOr v).dim = v.dim := h.dim ▸ hd
    match hx : checkQuantities x v with
    | .error e => exact absurd hd (checkQuantities_error hx).2
    | .ok a =>
      symm
      obtain ⟨_, h2, h3⟩ := (checkQuantities_ok_iff x hv a).mp hx
      exact (checkQuantities_ok_iff y hv a).mpr ⟨hy, h2.trans h.shape, h3.trans h.base⟩
  · rw [checkQuantities_refused hd, checkQuantities_refused (h.dim ▸ hd)]

/-- C111: a constructor succeeds exactly when the units of its arguments measure lengths, what the class
holds, and times, and when the sizes agree; the signal then holds the same physical quantities, in microns,
the unit of the class and hours. -/
theorem construct_ok_iff (c : Class α) (hc : c.unit.size ≠ 0) (wl data time : Arg α) (s : Sig α) :
    construct c wl data time = .ok s ↔
      ((wl.unitOr um).dim = (um : Unit α).dim ∧ (data.unitOr c.unit).dim = c.unit.dim ∧ (time.unitOr hr).dim = (hr : Unit α).dim) ∧
      Sizes wl.arr.shape data.arr.shape time.arr.shape ∧
      (s.unit = c.unit ∧ s.wl.shape = wl.arr.shape ∧ s.data.shape = data.arr.shape ∧ s.time.shape = time.arr.shape ∧
       s.wl.base um = wl.arr.base (wl.unitOr um) ∧ s.data.base c.unit = data.arr.base (data.unitOr c.unit) ∧
       s.time.base hr = time.arr.base (time.unitOr hr)) := by
  have hu := (um_pos (α := α)).ne'
  have hh := (hr_pos (α := α)).ne'
  unfold construct
  constructor
  · intro h
    split at h
    · cases h
    rename_i w hw
    split at h
    · cases h
    rename_i d hd
    split at h
    · cases h
    rename_i t ht
    split at h
    · cases h
    rename_i x hz
    cases h
    obtain ⟨w1, w2, w3⟩ := (checkQuantities_ok_iff wl hu w).mp hw
    obtain ⟨d1, d2, d3⟩ := (checkQuantities_ok_iff data hc d).mp hd
    obtain ⟨t1, t2, t3⟩ := (checkQuantities_ok_iff time hh t).mp ht
    refine ⟨⟨w1, d1, t1⟩, ?_, rfl, w2, d2, t2, w3, d3, t3⟩
    obtain ⟨nw, nt, z1, z2, z3⟩ := (checkSizes_iff _).mp hz
    exact ⟨nw, nt, w2 ▸ z1, t2 ▸ z2, d2 ▸ z3⟩
  · rintro ⟨⟨w1, d1, t1⟩, ⟨nw, nt, z1, z2, z3⟩, h1, w2, d2, t2, w3, d3, t3⟩
    have hw := (checkQuantities_ok_iff wl hu s.wl).mpr ⟨w1, w2, w3⟩
    have hd := (checkQuantities_ok_iff data hc s.data).mpr ⟨d1, d2, d3⟩
    have ht := (checkQuantities_ok_iff time hh s.time).mpr ⟨t1, t2, t3⟩
    have hz : checkSizes ⟨s.wl.shape, s.time.shape, s.data.shape⟩ = .ok () := by
      refine (checkSizes_iff _).mpr ⟨nw, nt, ?_, ?_, ?_⟩
      · exact w2.trans z1
      · exact t2.trans z2
      · dsimp only; rw [d2]; exact z3
    simp only [hw, hd, ht, hz]
    cases s; simp_all

/-- C111: wherever the sizes agree and the units are right there is a signal. -/
theorem construct_succeeds (c : Class α) (hc : c.unit.size ≠ 0) (wl data time : Arg α)
    (hw : (wl.unitOr um).dim = (um : Unit α).dim) (hd : (data.unitOr c.unit).dim = c.unit.dim)
    (ht : (time.unitOr hr).dim = (hr : Unit α).dim) (hs : Sizes wl.arr.shape data.arr.shape time.arr.shape) :
    ∃ s, construct c wl data time = .ok s := by
  have conv : ∀ (x : Arg α) {v : Unit α}, v.size ≠ 0 → (x.unitOr v).dim = v.dim → ∃ a, checkQuantities x v = .ok a := by
    intro x v hv h
    match hx : checkQuantities x v with
    | .ok a => exact ⟨a, rfl⟩
    | .error e => exact absurd h (checkQuantities_error hx).2
  obtain ⟨w, hw'⟩ := conv wl (um_pos (α := α)).ne' hw
  obtain ⟨d, hd'⟩ := conv data hc hd
  obtain ⟨t, ht'⟩ := conv time (hr_pos (α := α)).ne' ht
  obtain ⟨w1, w2, w3⟩ := (checkQuantities_ok_iff wl (um_pos (α := α)).ne' w).mp hw'
  obtain ⟨d1, d2, d3⟩ := (checkQuantities_ok_iff data hc d).mp hd'
  obtain ⟨t1, t2, t3⟩ := (checkQuantities_ok_iff time (hr_pos (α := α)).ne' t).mp ht'
  exact ⟨⟨w, d, t, c.unit⟩, (construct_ok_iff c hc wl data time _).mpr
    ⟨⟨w1, d1, t1⟩, hs, rfl, w2, d2, t2, w3, d3, t3⟩⟩

/-- C111: a wavelength that is no length, data that are not what the class holds, or times that are no times
are refused with a ValueError, whatever the sizes. -/
theorem construct_refused (c : Class α) (wl data time : Arg α)
    (h : (wl.unitOr um).dim ≠ (um : Unit α).dim ∨ (data.unitOr c.unit).dim ≠ c.unit.dim ∨ (time.unitOr hr).dim ≠ (hr : Unit α).dim) :
    construct c wl data time = .error .valueError := by
  unfold construct
  split
  · rename_i e he; rw [(checkQuantities_error he).1]
  rename_i w hw
  split
  · rename_i e he; rw [(checkQuantities_error he).1]
  rename_i d hd
  split
  · rename_i e he; rw [(checkQuantities_error he).1]
  rename_i t ht
  rcases h with h | h | h
  · rw [checkQuantities_refused h] at hw; cases hw
  · rw [checkQuantities_refused h] at hd; cases hd
  · rw [checkQuantities_refused h] at ht; cases ht

/-- C111: the units in which the arguments are written do not matter. -/
theorem construct_same (c : Class α) (hc : c.unit.size ≠ 0) {wl wl' data data' time time' : Arg α}
    (hw : SameArg um wl wl') (hd : SameArg c.unit data data') (ht : SameArg hr time time') :
    construct c wl data time = construct c wl' data' time' := by
  unfold construct
  rw [checkQuantities_same (um_pos (α := α)).ne' hw, checkQuantities_same hc hd,
    checkQuantities_same (hr_pos (α := α)).ne' ht]

/-- C111: numbers without a unit are in microns, the unit of the class and hours. -/
theorem construct_bare (c : Class α) (wl data time : Arr α) :
    construct c (.bare wl) (.bare data) (.bare time) = construct c (.quantity wl um) (.quantity data c.unit) (.quantity time hr) := by
  simp [construct, checkQuantities]

/-- C111: what one class holds, another does not take: a flux is no radiance, a rate is no flux, … -/
theorem classes_apart (c c' : Class α) (hc : ∀ v, c ≠ .custom v) (hc' : ∀ v, c' ≠ .custom v) (wl a : Arr α) :
    (∃ s, construct c (.bare wl) (.quantity a c'.unit) = .ok s) → c = c' := by
  rintro ⟨s, h⟩
  by_contra hne
  obtain ⟨_, _, c1, c2, c3, c4, c5, _⟩ := class_units (α := α)
  have hd : (c'.unit).dim ≠ c.unit.dim := by
    cases c with
    | custom v => exact absurd rfl (hc v)
    | _ =>
      cases c' with
      | custom v => exact absurd rfl (hc' v)
      | _ => first | exact absurd rfl hne | (simp only [c1, c2, c3, c4, c5, ne_eq, Dim.mk.injEq]; norm_num)
  have := construct_refused c (.bare wl) (.quantity a c'.unit) noTimes (Or.inr (Or.inl hd))
  rw [this] at h
  cases h

/-- C111: the classes have units of positive size. -/
theorem class_unit_pos (c : Class α) (hc : ∀ v, c ≠ .custom v) : 0 < c.unit.size := by
  cases c with
  | custom v => exact absurd rfl (hc v)
  | _ => simp [Class.unit, one, sedUnit, radianceUnit, countsUnit, noiseUnit, Unit.div, watt, metre, steradian, um]

/-- The constructor used in the rest of the model is this one with numbers in the units of the class. -/
theorem construct_vec (c : Class α) (wl data : List α) :
    construct c (.bare (vec wl)) (.bare (vec data)) =
      match Signal.mk? wl data with
      | .error e => .error e
      | .ok s => .ok ⟨vec s.wl, vec s.data, ⟨[1], [0]⟩, c.unit⟩ := by
  simp only [construct, checkQuantities, noTimes, if_true, Signal.mk?, vec]
  cases checkSizes ⟨[wl.length], [1], [data.length]⟩ <;> rfl

/-- C111: a signal says it does not depend on time when all its times are 0; otherwise it does not answer. -/
theorem timeDependent_iff (s : Sig α) (b : Bool) :
    timeDependent s = .ok b ↔ b = false ∧ ∀ t ∈ s.time.vals, t = 0 := by
  unfold timeDependent
  split
  · rename_i h
    simp only [List.all_eq_true, decide_eq_true_eq] at h
    simp only [Except.ok.injEq]
    exact ⟨fun hb => ⟨hb.symm, h⟩, fun hb => hb.1.symm⟩
  · rename_i h
    simp only [List.all_eq_true, decide_eq_true_eq] at h
    simp [h]

theorem timeDependent_error (s : Sig α) (h : ∃ t ∈ s.time.vals, t ≠ 0) : timeDependent s = .error .notImplementedError := by
  unfold timeDependent
  rw [if_neg]
  obtain ⟨t, ht, h0⟩ := h
  simp only [List.all_eq_true, decide_eq_true_eq]
  exact fun hall => h0 (hall t ht)

/-- C111: without times a signal does not depend on time. -/
theorem timeDependent_default {c : Class α} {wl data : Arg α} {s : Sig α} (h : construct c wl data = .ok s) :
    timeDependent s = .ok false := by
  have : s.time.vals = [0] := by
    unfold construct at h
    split at h
    · cases h
    split at h
    · cases h
    split at h
    · cases h
    rename_i t ht
    split at h
    · cases h
    cases h
    simp only [noTimes, checkQuantities, if_true, Except.ok.injEq] at ht
    rw [← ht]
  rw [timeDependent_iff]
  simp [this]

/-- C111: a signal is rebinned only onto a grid in microns; a grid in another unit of length is refused, a
grid without a unit too. -/
theorem spectralRebin_unit {s s' : Sig α} {g : Arg α} (h : spectralRebin s g = .ok s') :
    ∃ a, g = .quantity a um ∧ s'.wl = vec a.vals ∧ s'.time = s.time ∧ s'.unit = s.unit ∧
      (Signal.mk s.wl.vals s.data.vals).spectralRebin a.vals = .ok ⟨s'.wl.vals, s'.data.vals⟩ := by
  unfold spectralRebin at h
  split at h
  · cases h
  rename_i a u
  split at h
  · cases h
  rename_i hu
  split at h
  · cases h
  rename_i r hr
  cases h
  have hu' : u = um := by simpa using hu
  subst hu'
  have hw : r.wl = a.vals := by
    unfold Signal.spectralRebin at hr
    split at hr
    · cases hr
    cases hr
    rfl
  refine ⟨a, rfl, by rw [hw], rfl, rfl, ?_⟩
  rw [hr]
  simp [vec]

theorem spectralRebin_other_unit (s : Sig α) (a : Arr α) {v : Unit α} (h : v ≠ um) :
    spectralRebin s (.quantity a v) = .error .valueError := by
  simp [spectralRebin, h]

/-- C111: after any sequence of rebinnings onto grids without repeated points the arrays of a
one-dimensional signal have the same length, and its unit and its times are those it was given. -/
theorem rebinAll_kept : ∀ (gs : List (Arg α)) {s s' : Sig α}, (∀ g ∈ gs, (0 : α) ∉ diffs g.arr.vals) →
    (∃ n, s.wl.shape = [n] ∧ s.data.shape = [n] ∧ s.wl.vals.length = n ∧ s.data.vals.length = n) → rebinAll gs s = .ok s' →
    (∃ n, s'.wl.shape = [n] ∧ s'.data.shape = [n] ∧ s'.wl.vals.length = n ∧ s'.data.vals.length = n) ∧ s'.time = s.time ∧ s'.unit = s.unit ∧
      ∀ g, gs.getLast? = some g → s'.wl.vals = g.arr.vals := by
  intro gs
  induction gs with
  | nil =>
    intro s s' _ hn h
    cases h
    exact ⟨hn, rfl, rfl, by simp⟩
  | cons g gs ih =>
    intro s s' hg hn h
    unfold rebinAll at h
    split at h
    · cases h
    rename_i s1 h1
    obtain ⟨a, rfl, hw, ht, hu, hr⟩ := spectralRebin_unit h1
    have hdat : s1.data = vec s1.data.vals := by
      unfold spectralRebin at h1
      dsimp only at h1
      split at h1
      · cases h1
      split at h1
      · cases h1
      cases h1
      rfl
    obtain ⟨wf, hwl⟩ := spectralRebin_wellFormed _ _ _ (hg _ (List.mem_cons_self)) hr
    have hlen : s1.data.vals.length = s1.wl.vals.length := wf
    have hn1 : ∃ n, s1.wl.shape = [n] ∧ s1.data.shape = [n] ∧ s1.wl.vals.length = n ∧ s1.data.vals.length = n := by
      refine ⟨s1.wl.vals.length, ?_, ?_, rfl, hlen⟩
      · rw [hw]; rfl
      · rw [hdat, ← hlen]; rfl
    obtain ⟨r1, r2, r3, r4⟩ := ih (fun g' hg' => hg g' (List.mem_cons_of_mem _ hg')) hn1 h
    refine ⟨r1, r2.trans ht, r3.trans hu, ?_⟩
    intro g' hlast
    cases gs with
    | nil =>
      simp only [List.getLast?_singleton, Option.some.injEq] at hlast
      subst hlast
      simp only [rebinAll, Except.ok.injEq] at h
      subst h
      rw [hw]
      rfl
    | cons g2 gs2 =>
      refine r4 g' ?_
      rw [← hlast]
      simp [List.getLast?_cons_cons]

/-- C111: rebinning in time is not there. -/
theorem temporalRebin_never (s : Sig α) (g : Arg α) : temporalRebin s g = .error .notImplementedError := rfl

/-! ## The spectrum of a star in a file -/

theorem trapz_scale (k l : α) : ∀ (x y : List α),
    Diffuse.trapz (x.map (fun v => v * k)) (y.map (fun v => v * l)) = Diffuse.trapz x y * (k * l)
  | [], _ => by simp [Diffuse.trapz]
  | [_], _ => by simp [Diffuse.trapz]
  | _ :: _ :: _, [] => by simp [Diffuse.trapz]
  | _ :: _ :: _, [_] => by simp [Diffuse.trapz]
  | x0 :: x1 :: xs, y0 :: y1 :: ys => by
    have ih := trapz_scale k l (x1 :: xs) (y1 :: ys)
    simp only [List.map_cons] at ih
    simp only [Diffuse.trapz, List.map_cons, ih]
    ring

/-- C111: a file with any units of length and of flux, a radius and a distance in any units of length give
the star of the same values in microns, W m⁻² μm⁻¹ and metres. -/
theorem customSed_units (c : Source.Consts α) (wl flux : List α) {wu fu : Unit α} {R D : Scalar α}
    (hw : wu.dim = (um : Unit α).dim) (hf : fu.dim = (sedUnit : Unit α).dim) (hR : R.unit.dim = (metre : Unit α).dim)
    (hD : D.unit.dim = (metre : Unit α).dim) :
    customSed c.pi wl wu flux fu R D =
      match Source.customStar c (wl.map (fun v => v * (wu.size / (um : Unit α).size))) (flux.map (fun v => v * (fu.size / (sedUnit : Unit α).size)))
        (D.value * D.unit.size) (R.value * R.unit.size) with
      | .error e => .error e
      | .ok b => .ok (⟨vec b.sed.wl, vec b.sed.data, ⟨[1], [0]⟩, sedUnit⟩, b.luminosity) := by
  have hmm : (metre : Unit α).size = 1 := rfl
  have hus : (um : Unit α).size * (sedUnit : Unit α).size = 1 := by simp [um, sedUnit, Unit.div, watt, metre]
  have hu0 := (um_pos (α := α)).ne'
  have hs0 : (sedUnit : Unit α).size ≠ 0 := (class_unit_pos (.sed : Class α) (fun v => by simp)).ne'
  unfold customSed toMetres
  rw [if_pos hR, if_pos hD]
  dsimp only
  rw [hmm, div_one, div_one]
  have hc : construct (.sed : Class α) (.quantity (vec wl) wu)
      (.quantity (vec (flux.map (fun f => f * (R.value * R.unit.size / (D.value * D.unit.size)) ^ 2))) fu) =
      construct (.sed : Class α) (.bare (vec (wl.map (fun v => v * (wu.size / (um : Unit α).size)))))
        (.bare (vec ((flux.map (fun v => v * (fu.size / (sedUnit : Unit α).size))).map
          (fun f => f * (R.value * R.unit.size / (D.value * D.unit.size)) ^ 2)))) := by
    apply construct_same
    · exact hs0
    · refine ⟨hw, by simp [Arg.arr, vec], ?_⟩
      simp only [Arr.base, Arg.arr, Arg.unitOr, vec, List.map_map]
      apply List.map_congr_left
      intro z _
      simp only [Function.comp_apply]
      field_simp
    · refine ⟨hf, by simp [Arg.arr, vec], ?_⟩
      simp only [Arr.base, Arg.arr, Arg.unitOr, vec, List.map_map, Class.unit]
      apply List.map_congr_left
      intro z _
      simp only [Function.comp_apply]
      rw [show z * (fu.size / (sedUnit : Unit α).size) * (R.value * R.unit.size / (D.value * D.unit.size)) ^ 2 * (sedUnit : Unit α).size
        = z * (fu.size / (sedUnit : Unit α).size * (sedUnit : Unit α).size) * (R.value * R.unit.size / (D.value * D.unit.size)) ^ 2 by ring,
        div_mul_cancel₀ _ hs0]
      ring
    · exact ⟨rfl, rfl, rfl⟩
  rw [hc, construct_vec]
  unfold Source.customStar
  cases Signal.mk? (wl.map (fun v => v * (wu.size / (um : Unit α).size)))
    ((flux.map (fun v => v * (fu.size / (sedUnit : Unit α).size))).map (fun f => f * (R.value * R.unit.size / (D.value * D.unit.size)) ^ 2)) with
  | error e => rfl
  | ok s =>
    dsimp only
    rw [trapz_scale]
    have : wu.size / (um : Unit α).size * (fu.size / (sedUnit : Unit α).size) = wu.size * fu.size := by
      rw [div_mul_div_comm, hus, div_one]
    rw [this]
    rfl

/-- C111: a file whose columns are no wavelength or no flux, or a radius or distance that is no length, is
refused with a ValueError. -/
theorem customSed_refused (pi : α) (wl flux : List α) {wu fu : Unit α} {R D : Scalar α}
    (h : wu.dim ≠ (um : Unit α).dim ∨ fu.dim ≠ (sedUnit : Unit α).dim ∨ R.unit.dim ≠ (metre : Unit α).dim ∨ D.unit.dim ≠ (metre : Unit α).dim) :
    customSed pi wl wu flux fu R D = .error .valueError := by
  unfold customSed toMetres
  by_cases hR : R.unit.dim = (metre : Unit α).dim
  · by_cases hD : D.unit.dim = (metre : Unit α).dim
    · rw [if_pos hR, if_pos hD]
      dsimp only
      rw [construct_refused (.sed : Class α) (.quantity (vec wl) wu) (.quantity (vec _) fu) noTimes]
      rcases h with h | h | h | h
      · exact Or.inl h
      · exact Or.inr (Or.inl h)
      · exact absurd hR h
      · exact absurd hD h
    · rw [if_pos hR, if_neg hD]
  · rw [if_neg hR]

namespace Demo

/-- Nanometres. -/
def nm : Unit ℚ := ⟨{ m := 1 }, 1 / 1000000000⟩
/-- erg s⁻¹ cm⁻² Å⁻¹. -/
def cgs : Unit ℚ := ⟨{ kg := 1, m := -1, s := -3 }, 10000000⟩

/-- Three wavelengths in nanometres and a flux in cgs units. -/
theorem sed_nm : construct .sed (.quantity (vec [1000, 1500, 2000]) nm) (.quantity (vec [1, 2, 3]) cgs) =
    .ok ⟨vec [1, 3 / 2, 2], vec [10, 20, 30], ⟨[1], [0]⟩, sedUnit⟩ := by
  have e1 : checkQuantities (.quantity (vec [1000, 1500, 2000]) nm) um = .ok (vec [1, 3 / 2, 2]) := by
    unfold checkQuantities nm um convert vec
    norm_num
  have e2 : checkQuantities (.quantity (vec [1, 2, 3]) cgs) (Class.sed : Class ℚ).unit = .ok (vec [10, 20, 30]) := by
    rw [(class_units (α := ℚ)).2.2.2.1]
    unfold checkQuantities cgs convert vec
    norm_num
  unfold construct
  rw [e1]
  dsimp only
  rw [e2]
  rfl

/-- The signal of `sed_nm` can be rebinned onto a grid in microns, not onto the same grid in nanometres. -/
theorem sed_nm_rebinned (s : Sig ℚ) (hs : s = ⟨vec [1, 3 / 2, 2], vec [10, 20, 30], ⟨[1], [0]⟩, sedUnit⟩) :
    ∃ s' : Sig ℚ, spectralRebin s (.quantity (vec [1, 2]) um) = .ok s' ∧ s'.data.vals = [10, 25] ∧
    spectralRebin s (.quantity (vec [1000, 2000]) nm) = .error .valueError := by
  subst hs
  refine ⟨⟨vec [1, 2], vec [10, 25], ⟨[1], [0]⟩, sedUnit⟩, ?_, rfl, ?_⟩
  · have : (Signal.mk [(1 : ℚ), 3 / 2, 2] [10, 20, 30]).spectralRebin [1, 2] = .ok ⟨[1, 2], [10, 25]⟩ := by
      have h : rebin [1, 2] [((1 : ℚ), (10 : ℚ)), (3 / 2, 20), (2, 30)] = .ok ([1, 2], [some 10, some 25]) := by decide +kernel
      unfold Signal.spectralRebin
      simp only [List.zip_cons_cons, List.zip_nil_left]
      rw [h]
      rfl
    unfold spectralRebin
    simp [vec, this]
  · apply spectralRebin_other_unit
    intro h
    have := congrArg Unit.size h
    unfold nm um at this
    norm_num at this

/-- Data of 3 wavelengths at 2 times; the signal depends on time, and does not say so. -/
theorem two_times : ∃ s, construct (.signal : Class ℚ) (.bare (vec [1, 2, 3])) (.bare ⟨[3, 2], [1, 2, 3, 4, 5, 6]⟩) (.bare (vec [0, 1])) = .ok s ∧
    timeDependent s = .error .notImplementedError := by
  refine ⟨_, rfl, ?_⟩
  apply timeDependent_error
  exact ⟨1, by simp [vec], by norm_num⟩

/-- Three wavelengths and four values. -/
example : construct (.signal : Class ℚ) (.bare (vec [1, 2, 3])) (.bare (vec [1, 2, 3, 4])) = .error .valueError := rfl

/-- A star of radius 1 at distance 2 kilometres. -/
example : ∃ r, customSed (3 : ℚ) [1000, 1500, 2000] nm [1, 2, 3] cgs ⟨1, ⟨{ m := 1 }, 1000⟩⟩ ⟨2, ⟨{ m := 1 }, 1000⟩⟩ = .ok r := by
  have h := customSed_units (⟨3, fun _ _ => 0, fun _ _ => 0⟩ : Source.Consts ℚ) [1000, 1500, 2000] [1, 2, 3] (wu := nm) (fu := cgs)
    (R := ⟨1, ⟨{ m := 1 }, 1000⟩⟩) (D := ⟨2, ⟨{ m := 1 }, 1000⟩⟩) rfl
    (by rw [show (sedUnit : Unit ℚ) = _ from (class_units (α := ℚ)).2.2.2.1]; rfl) rfl rfl
  exact ⟨_, h⟩

end Demo

end ExoRad.SignalUnits
