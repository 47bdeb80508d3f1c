import Verif.Model.TableUnits
import Verif.Props.SignalUnits
import Verif.Props.BuildValues

/-!
# C115: the units of the data tables of a payload

Specification: a column whose unit is `k` microns describes wavelengths `k` times its numbers. The
foregrounds read the wavelengths and radiances the table describes, in whatever units; the optical elements
read its numbers as microns; the quantum efficiency reads them as microns unless the column is a Quantity.
-/

namespace ExoRad.TableUnits

open SignalUnits

variable {α : Type} [Field α] [LinearOrder α] [IsStrictOrderedRing α]

/-! ## Specification -/

/-- The column is in a length unit of `k` microns. -/
def InUnit (c : Col α) (k : α) : Prop :=
  ∃ vals u, (c = .column vals u ∨ c = .quantity vals u) ∧ u.dim = (um : Unit α).dim ∧ u.size = k * (um : Unit α).size

/-- The column describes the values `v` in units of `u`. -/
def Says (c : Col α) (u : Unit α) (v : List α) : Prop :=
  ∃ vals old, (c = .column vals old ∨ c = .quantity vals old) ∧ old.dim = u.dim ∧
    List.Forall₂ (fun x y => x * old.size = y * u.size) vals v

/-- The column the wavelengths of a table are taken from. -/
def WlCol (t : Tab α) (c : Col α) : Prop :=
  t.get? "wavelength" = some c ∨ "wavelength" ∉ t.keys ∧ t.get? "Wavelength" = some c

/-- The column the transmission of an element is taken from. -/
def TrCol (d : Optics.Descr α) (t : Tab α) (c : Col α) : Prop :=
  (∃ n, d.use = some n ∧ t.get? n = some c) ∨
    d.use = none ∧ (t.get? "Transmission" = some c ∨ "Transmission" ∉ t.keys ∧ t.get? "Reflectivity" = some c)

/-- The column the emissivity of an element is taken from. -/
def EmCol (t : Tab α) (c : Col α) : Prop :=
  t.get? "Emissivity" = some c ∨ "Emissivity" ∉ t.keys ∧ t.get? "emissivity" = some c

/-! ## Lookup in the numbers of a table -/

omit [IsStrictOrderedRing α] in
theorem raw_keys (t : Tab α) : (raw t).keys = t.keys := by
  simp [raw, Dict.keys, Function.comp_def]

omit [IsStrictOrderedRing α] [Field α] [LinearOrder α] in
theorem raw_get? (t : Tab α) (k : String) : (raw t).get? k = (t.get? k).map Col.raw := by
  induction t with
  | nil => rfl
  | cons p t ih =>
    have ih' : Dict.get? (List.map (fun p : String × Col α => (p.1, p.2.raw)) t) k = (Dict.get? t k).map Col.raw := ih
    simp only [raw, List.map_cons, Dict.get?]
    split
    · rfl
    · exact ih'

omit [IsStrictOrderedRing α] in
theorem raw_getE {t : Tab α} {k : String} {v : List α} (h : (raw t).getE k = .ok v) : ∃ c, t.get? k = some c ∧ v = c.raw := by
  rw [Dict.getE_eq_ok_iff, raw_get?] at h
  cases hc : t.get? k with
  | none => rw [hc] at h; cases h
  | some c => rw [hc] at h; exact ⟨c, rfl, (by simpa using h.symm)⟩

omit [IsStrictOrderedRing α] in
theorem raw_wlColumn {d : Optics.Descr α} {t : Tab α} {w : List α} (h : Optics.wlColumn d (raw t) = .ok w) :
    ∃ c, WlCol t c ∧ w = c.raw := by
  unfold Optics.wlColumn Misc.getWlColName at h
  rw [raw_keys] at h
  cases hd : d.wlColName with
  | some n => simp [hd] at h
  | none =>
    simp only [hd, Option.map_none, List.foldl_cons, List.foldl_nil] at h
    by_cases h1 : "wavelength" ∈ t.keys
    · rw [if_pos h1] at h
      obtain ⟨c, hc, e⟩ := raw_getE h
      exact ⟨c, .inl hc, e⟩
    · rw [if_neg h1] at h
      by_cases h2 : "Wavelength" ∈ t.keys
      · rw [if_pos h2] at h
        obtain ⟨c, hc, e⟩ := raw_getE h
        exact ⟨c, .inr ⟨h1, hc⟩, e⟩
      · rw [if_neg h2] at h
        cases h

omit [IsStrictOrderedRing α] in
theorem has_raw (t : Tab α) (k : String) : (raw t).has k = t.has k := by
  have := raw_keys t
  simp only [Dict.keys] at this
  simp only [Dict.has, Dict.keys, this]

/-! ## Interpolation in another unit -/

theorem segment_scale (k : α) (hk : 0 < k) : ∀ (l : List (α × α)) (lo : α × α) (x : α),
    Rebin.segment (k * lo.1, lo.2) (l.map (fun p => (k * p.1, p.2))) (k * x) = Rebin.segment lo l x
  | [], _, _ => rfl
  | hi :: l, lo, x => by
    simp only [List.map_cons, Rebin.segment]
    by_cases h : x ≤ hi.1
    · rw [if_pos h, if_pos ((mul_le_mul_iff_right₀ hk).mpr h)]
      have : (hi.2 - lo.2) / (k * hi.1 - k * lo.1) * (k * x - k * lo.1) = (hi.2 - lo.2) / (hi.1 - lo.1) * (x - lo.1) := by
        rw [← mul_sub, ← mul_sub]
        by_cases h0 : hi.1 - lo.1 = 0
        · simp [h0]
        · field_simp
      rw [this]
    · rw [if_neg h, if_neg (fun h' => h ((mul_le_mul_iff_right₀ hk).mp h'))]
      exact segment_scale k hk l hi x

theorem interp_scale (k : α) (hk : 0 < k) (l : List (α × α)) (x : α) :
    Rebin.interp (l.map (fun p => (k * p.1, p.2))) (k * x) = Rebin.interp l x := by
  unfold Rebin.interp
  have hs : (l.map (fun p => (k * p.1, p.2))).insertionSort (fun p q => p.1 ≤ q.1) =
      (l.insertionSort (fun p q => p.1 ≤ q.1)).map (fun p => (k * p.1, p.2)) := by
    symm
    apply List.map_insertionSort
    intro a _ b _
    exact (mul_le_mul_iff_right₀ hk).symm
  rw [hs]
  generalize l.insertionSort (fun p q => p.1 ≤ q.1) = s
  cases s with
  | nil => rfl
  | cons lo s =>
    have hlast : Rebin.lastX (k * lo.1, lo.2) (s.map (fun p => (k * p.1, p.2))) = k * Rebin.lastX lo s := by
      unfold Rebin.lastX
      have : (k * lo.1, lo.2) :: s.map (fun p : α × α => (k * p.1, p.2)) = (lo :: s).map (fun p => (k * p.1, p.2)) := rfl
      simp only [this, List.getLast_map]
    simp only [List.map_cons, Rebin.interpSorted, hlast, mul_lt_mul_iff_right₀ hk, segment_scale k hk]

theorem interp_scale_zip (k : α) (hk : 0 < k) (w v : List α) (x : α) :
    Rebin.interp ((w.map (k * ·)).zip v) (k * x) = Rebin.interp (w.zip v) x := by
  rw [← interp_scale k hk (w.zip v)]
  congr 1
  rw [List.zip_map_left]
  rfl

theorem evalTable_outside {wl w v : List α} (h : (∀ x ∈ wl, ∀ y ∈ w, x < y) ∨ (∀ x ∈ wl, ∀ y ∈ w, y < x)) :
    Optics.evalTable wl w v = wl.map (fun _ => 0) := by
  unfold Optics.evalTable
  apply List.map_congr_left
  intro x hx
  apply Rebin.interp_outside
  have hm : ∀ p ∈ w.zip v, p.1 ∈ w := fun p hp => (List.of_mem_zip (a := p.1) (b := p.2) hp).1
  rcases h with h | h
  · exact .inl (fun p hp => h x hx _ (hm p hp))
  · exact .inr (fun p hp => h x hx _ (hm p hp))

/-! ## Optical elements -/

omit [IsStrictOrderedRing α] in
theorem transmission_inv {d : Optics.Descr α} {t : Tab α} {wl tr : List α} (h : transmission d t wl = .ok tr) :
    ∃ c v, WlCol t c ∧ TrCol d t v ∧ tr = Optics.evalTable wl c.raw v.raw := by
  unfold transmission Optics.getTransmission at h
  simp only at h
  cases hc : Optics.trColumn { d with data := some (raw t) } (raw t) with
  | error e => simp [hc] at h
  | ok n =>
    simp only [hc] at h
    cases hw : Optics.wlColumn { d with data := some (raw t) } (raw t) with
    | error e => simp [hw] at h
    | ok w =>
      simp only [hw] at h
      cases hv : (raw t).getE n with
      | error e => simp [hv] at h
      | ok v =>
        simp only [hv, Except.ok.injEq] at h
        obtain ⟨c, hc1, rfl⟩ := raw_wlColumn hw
        obtain ⟨v', hv1, rfl⟩ := raw_getE hv
        refine ⟨c, v', hc1, ?_, h.symm⟩
        unfold Optics.trColumn at hc
        simp only [has_raw] at hc
        cases hu : d.use with
        | some m =>
          simp only [hu, Except.ok.injEq] at hc
          subst hc
          exact .inl ⟨_, hu, hv1⟩
        | none =>
          simp only [hu] at hc
          refine .inr ⟨hu, ?_⟩
          by_cases h1 : t.has "Transmission" = true
          · rw [if_pos h1] at hc
            simp only [Except.ok.injEq] at hc
            subst hc
            exact .inl hv1
          · rw [if_neg h1] at hc
            by_cases h2 : t.has "Reflectivity" = true
            · rw [if_pos h2] at hc
              simp only [Except.ok.injEq] at hc
              subst hc
              refine .inr ⟨?_, hv1⟩
              simpa [Dict.has, Dict.keys] using h1
            · rw [if_neg h2] at hc
              cases hc

omit [IsStrictOrderedRing α] in
theorem emissivity_inv {d : Optics.Descr α} {t : Tab α} {wl em : List α} (h : emissivity d t wl = .ok em) :
    ∃ c v, WlCol t c ∧ EmCol t v ∧ em = Optics.evalTable wl c.raw v.raw := by
  unfold emissivity Optics.getEmissivity at h
  simp only at h
  cases hw : Optics.wlColumn { d with data := some (raw t) } (raw t) with
  | error e => simp [hw] at h
  | ok w =>
    simp only [hw] at h
    cases hc : Optics.emColumn (raw t) with
    | error e => simp [hc] at h
    | ok n =>
      simp only [hc] at h
      cases hv : (raw t).getE n with
      | error e => simp [hv] at h
      | ok v =>
        simp only [hv, Except.ok.injEq] at h
        obtain ⟨c, hc1, rfl⟩ := raw_wlColumn hw
        obtain ⟨v', hv1, rfl⟩ := raw_getE hv
        refine ⟨c, v', hc1, ?_, h.symm⟩
        unfold Optics.emColumn at hc
        simp only [has_raw] at hc
        by_cases h1 : t.has "Emissivity" = true
        · rw [if_pos h1] at hc
          simp only [Except.ok.injEq] at hc
          subst hc
          exact .inl hv1
        · rw [if_neg h1] at hc
          by_cases h2 : t.has "emissivity" = true
          · rw [if_pos h2] at hc
            simp only [Except.ok.injEq] at hc
            subst hc
            refine .inr ⟨?_, hv1⟩
            simpa [Dict.has, Dict.keys] using h1
          · rw [if_neg h2] at hc
            cases hc

/-- C115, what is false: with its wavelengths in a unit of `k` microns, a table gives an element at the
wavelength `w` the transmission it describes at `k * w`. -/
theorem transmission_scaled {d : Optics.Descr α} {t : Tab α} {wl tr : List α} (h : transmission d t wl = .ok tr) :
    ∃ c v, WlCol t c ∧ TrCol d t v ∧ ∀ k, 0 < k → InUnit c k →
      tr = wl.map (fun w => Rebin.interp ((c.raw.map (k * ·)).zip v.raw) (k * w)) := by
  obtain ⟨c, v, h1, h2, rfl⟩ := transmission_inv h
  refine ⟨c, v, h1, h2, fun k hk _ => ?_⟩
  simp only [Optics.evalTable, interp_scale_zip k hk]

/-- C115, what is false: the emissivity likewise. -/
theorem emissivity_scaled {d : Optics.Descr α} {t : Tab α} {wl em : List α} (h : emissivity d t wl = .ok em) :
    ∃ c v, WlCol t c ∧ EmCol t v ∧ ∀ k, 0 < k → InUnit c k →
      em = wl.map (fun w => Rebin.interp ((c.raw.map (k * ·)).zip v.raw) (k * w)) := by
  obtain ⟨c, v, h1, h2, rfl⟩ := emissivity_inv h
  refine ⟨c, v, h1, h2, fun k hk _ => ?_⟩
  simp only [Optics.evalTable, interp_scale_zip k hk]

/-- The numbers of a column in microns are the wavelengths it describes. -/
theorem says_microns {c : Col α} {x : List α} (h : Says c um x) (h1 : InUnit c 1) : x = c.raw := by
  obtain ⟨vals, old, hc, _, hf⟩ := h
  obtain ⟨vals', u, hc', _, hu⟩ := h1
  have hraw : c.raw = vals := by rcases hc with rfl | rfl <;> rfl
  have hou : old = u := by
    rcases hc with rfl | rfl <;> rcases hc' with h | h <;> simp at h <;> exact h.2
  rw [hraw]
  subst hou
  rw [one_mul] at hu
  clear hc hc' hraw
  induction hf with
  | nil => rfl
  | cons hxy _ ih =>
    rw [hu] at hxy
    rw [ih, mul_right_cancel₀ (ne_of_gt um_pos) hxy]

/-- C115, what holds: a table in microns gives an element the transmission and emissivity it describes. -/
theorem element_microns_partial {d : Optics.Descr α} {t : Tab α} {wl : List α} :
    (∀ tr, transmission d t wl = .ok tr → ∃ c v, WlCol t c ∧ TrCol d t v ∧ (InUnit c 1 → ∀ x, Says c um x →
      tr = wl.map (Rebin.interp (x.zip v.raw)))) ∧
    (∀ em, emissivity d t wl = .ok em → ∃ c v, WlCol t c ∧ EmCol t v ∧ (InUnit c 1 → ∀ x, Says c um x →
      em = wl.map (Rebin.interp (x.zip v.raw)))) := by
  constructor
  · intro tr h
    obtain ⟨c, v, h1, h2, rfl⟩ := transmission_inv h
    refine ⟨c, v, h1, h2, fun hi x hx => ?_⟩
    rw [says_microns hx hi]; rfl
  · intro em h
    obtain ⟨c, v, h1, h2, rfl⟩ := emissivity_inv h
    refine ⟨c, v, h1, h2, fun hi x hx => ?_⟩
    rw [says_microns hx hi]; rfl

/-- C115, what is false: an element whose table lies, as numbers, above (or below) the grid transmits
nothing and emits nothing, whatever wavelengths the table describes. -/
theorem element_blank {d : Optics.Descr α} {t : Tab α} {wl : List α}
    (hb : ∀ c, WlCol t c → (∀ x ∈ wl, ∀ y ∈ c.raw, x < y) ∨ (∀ x ∈ wl, ∀ y ∈ c.raw, y < x)) :
    (∀ tr, transmission d t wl = .ok tr → tr = wl.map (fun _ => 0)) ∧
      (∀ em, emissivity d t wl = .ok em → em = wl.map (fun _ => 0)) := by
  constructor
  · intro tr h
    obtain ⟨c, v, h1, _, rfl⟩ := transmission_inv h
    exact evalTable_outside (hb c h1)
  · intro em h
    obtain ⟨c, v, h1, _, rfl⟩ := emissivity_inv h
    exact evalTable_outside (hb c h1)

/-! ## Quantum efficiency -/

omit [IsStrictOrderedRing α] in
theorem qe_inv {name : String} {t : Tab α} {s : Sig α} (h : qe name t = .ok s) :
    ∃ c v, WlCol t c ∧ t.get? name = some v ∧ construct .signal c.arg v.arg = .ok s := by
  unfold qe Misc.getWlColName at h
  simp only [List.foldl_cons, List.foldl_nil] at h
  have go : ∀ n, (match t.getE n with
    | .error e => .error e
    | .ok w =>
      match t.getE name with
      | .error e => .error e
      | .ok v => construct .signal w.arg v.arg) = Except.ok s →
      ∃ c v, t.get? n = some c ∧ t.get? name = some v ∧ construct .signal c.arg v.arg = .ok s := by
    intro n h
    cases hw : t.getE n with
    | error e => simp [hw] at h
    | ok w =>
      simp only [hw] at h
      cases hv : t.getE name with
      | error e => simp [hv] at h
      | ok v =>
        simp only [hv] at h
        exact ⟨w, v, Dict.getE_eq_ok_iff.mp hw, Dict.getE_eq_ok_iff.mp hv, h⟩
  by_cases h1 : "wavelength" ∈ t.keys
  · rw [if_pos h1] at h
    obtain ⟨c, v, a, b, e⟩ := go _ h
    exact ⟨c, v, .inl a, b, e⟩
  · rw [if_neg h1] at h
    by_cases h2 : "Wavelength" ∈ t.keys
    · rw [if_pos h2] at h
      obtain ⟨c, v, a, b, e⟩ := go _ h
      exact ⟨c, v, .inr ⟨h1, a⟩, b, e⟩
    · rw [if_neg h2] at h
      cases h

omit [LinearOrder α] [IsStrictOrderedRing α] in
theorem checkQuantities_arg [LinearOrder α] {c : Col α} {u : Unit α} {a : Arr α} (h : checkQuantities c.arg u = .ok a) :
    ((∀ vals old, c ≠ .quantity vals old) → a.vals = c.raw) ∧
      (∀ vals old, c = .quantity vals old → old.dim = u.dim ∧ (u.size ≠ 0 → List.Forall₂ (fun x y => x * old.size = y * u.size) vals a.vals)) := by
  cases c with
  | bare v => simp only [Col.arg, checkQuantities, Except.ok.injEq] at h; subst h; simp [vec, Col.raw]
  | column v o => simp only [Col.arg, checkQuantities, Except.ok.injEq] at h; subst h; simp [vec, Col.raw]
  | quantity v o =>
    refine ⟨fun hn => absurd rfl (hn v o), ?_⟩
    rintro vals old he
    injection he with h1 h2
    subst h1 h2
    simp only [Col.arg, checkQuantities] at h
    by_cases hou : o = u
    · rw [if_pos hou] at h
      simp only [Except.ok.injEq] at h
      subst h hou
      refine ⟨rfl, fun _ => ?_⟩
      simp [vec, List.forall₂_same]
    · rw [if_neg hou] at h
      split at h
      · rename_i hdim
        simp only [Except.ok.injEq] at h
        subst h
        refine ⟨hdim, fun hu => ?_⟩
        simp only [convert, vec, List.forall₂_map_right_iff]
        rw [List.forall₂_same]
        intro x _
        field_simp
      · cases h

/-- C115: the curve of the quantum efficiency of a channel. The wavelengths are those the table describes when the
column is a Quantity, and its numbers (what is false) when it is a `Column` with a unit; so for the efficiency. -/
theorem qe_partial {name : String} {t : Tab α} {s : Sig α} (h : qe name t = .ok s) :
    ∃ c v, WlCol t c ∧ t.get? name = some v ∧
      ((∃ vals u, c = .quantity vals u) → Says c um s.wl.vals) ∧ ((∀ vals u, c ≠ .quantity vals u) → s.wl.vals = c.raw) ∧
      ((∃ vals u, v = .quantity vals u) → Says v one s.data.vals) ∧ ((∀ vals u, v ≠ .quantity vals u) → s.data.vals = v.raw) := by
  obtain ⟨c, v, h1, h2, h3⟩ := qe_inv h
  refine ⟨c, v, h1, h2, ?_⟩
  unfold construct at h3
  cases hw : checkQuantities c.arg um with
  | error e => simp [hw] at h3
  | ok w =>
    simp only [hw] at h3
    cases hv : checkQuantities v.arg (Class.signal : Class α).unit with
    | error e => simp [hv] at h3
    | ok x =>
      simp only [hv] at h3
      have hs : s.wl = w ∧ s.data = x := by
        split at h3
        · cases h3
        · split at h3
          · cases h3
          · simp only [Except.ok.injEq] at h3
            subst h3
            exact ⟨rfl, rfl⟩
      rw [hs.1, hs.2]
      obtain ⟨a1, a2⟩ := checkQuantities_arg hw
      obtain ⟨b1, b2⟩ := checkQuantities_arg hv
      refine ⟨?_, a1, ?_, b1⟩
      · rintro ⟨vals, u, rfl⟩
        obtain ⟨p, q⟩ := a2 vals u rfl
        exact ⟨vals, u, .inr rfl, p, q (ne_of_gt um_pos)⟩
      · rintro ⟨vals, u, rfl⟩
        obtain ⟨p, q⟩ := b2 vals u rfl
        exact ⟨vals, u, .inr rfl, p, q (by simp [Class.unit, one])⟩

/-! ## Foregrounds -/

theorem radiance_pos : 0 < (radianceUnit : Unit α).size := by
  simp only [radianceUnit, Unit.div, watt, metre, um, steradian]
  positivity

theorem to_says {c : Col α} {u : Unit α} {v : List α} (hu : u.size ≠ 0) (h : Says c u v) : c.to u = .ok v := by
  obtain ⟨vals, old, hc, hd, hf⟩ := h
  have : vals.map (fun x => x * (old.size / u.size)) = v := by
    clear hc
    induction hf with
    | nil => rfl
    | cons hxy _ ih =>
      rw [List.map_cons, ih]
      rw [← mul_div_assoc, hxy, mul_div_assoc, div_self hu, mul_one]
  rcases hc with rfl | rfl <;> simp only [Col.to, if_pos hd, this]

theorem interp_mul (k : α) (w r : List α) (x : α) :
    Rebin.interp (w.zip r) x * k = Rebin.interp (w.zip (r.map (· * k))) x := by
  have := Rebin.interp_linear k 0 x ((w.zip r).map (fun p => (p.1, p.2, p.2)))
  simp only [zero_mul, add_zero, List.map_map] at this
  have e1 : (w.zip r).map (Rebin.onValue (Prod.fst) ∘ fun p : α × α => (p.1, p.2, p.2)) = w.zip r := by
    conv_rhs => rw [← List.map_id (w.zip r)]
    rfl
  have e2 : (w.zip r).map (Rebin.onValue (fun v : α × α => k * v.1) ∘ fun p : α × α => (p.1, p.2, p.2)) = w.zip (r.map (· * k)) := by
    rw [List.zip_map_right]
    apply List.map_congr_left
    intro p _
    simp [Rebin.onValue, mul_comm, Prod.map]
  rw [e1, e2] at this
  rw [this, mul_comm]

omit [IsStrictOrderedRing α] in
theorem interpFill_zero (l : List (α × α)) (x : α) : Foreground.interpFill 0 l x = Rebin.interp l x := by
  unfold Foreground.interpFill Rebin.interp Rebin.interpSorted
  cases l.insertionSort (fun p q => p.1 ≤ q.1) <;> rfl

/-- C115, what holds: a foreground is the one its table describes, in whatever units wavelengths and radiances are
written. -/
theorem foreground_any_unit {wl : List α} {t : Tab α} {cw cr ct : Col α} {w r : List α}
    (h1 : t.get? "Wavelength" = some cw) (h2 : t.get? "Radiance" = some cr) (h3 : t.get? "Transmission" = some ct)
    (hw : Says cw um w) (hr : Says cr radianceUnit r) :
    foreground wl t = .ok ⟨⟨wl, wl.map (Foreground.interpFill 0 (w.zip r))⟩, some (wl.map (Foreground.interpFill 1 (w.zip ct.raw)))⟩ := by
  obtain ⟨vals, old, hc, hd, hf⟩ := hr
  have hraw : cr.raw = vals := by rcases hc with rfl | rfl <;> rfl
  have hun : cr.unit? = some old := by rcases hc with rfl | rfl <;> rfl
  have hu0 : (radianceUnit : Unit α).size ≠ 0 := ne_of_gt radiance_pos
  unfold foreground
  simp only [Dict.getE_ok h1, to_says (ne_of_gt um_pos) hw, Dict.getE_ok h2, hun, hraw, checkQuantities]
  by_cases ho : old = radianceUnit
  · have hv : vals = r := by
      subst ho
      clear hc hraw hun
      induction hf with
      | nil => rfl
      | cons hxy _ ih => rw [ih, mul_right_cancel₀ hu0 hxy]
    rw [if_pos ho]
    simp only [Dict.getE_ok h3, vec, hv]
  · rw [if_neg ho, if_pos hd]
    simp only [Dict.getE_ok h3, convert, vec, List.map_map]
    have hv : vals.map (· * (old.size / (radianceUnit : Unit α).size)) = r := by
      clear hc hraw hun
      induction hf with
      | nil => rfl
      | cons hxy _ ih =>
        rw [List.map_cons, ih]
        rw [← mul_div_assoc, hxy, mul_div_assoc, div_self hu0, mul_one]
    congr 4
    funext x
    simp only [Function.comp, interpFill_zero, interp_mul, hv]

/-- C115: and it is the foreground of the table of numbers in microns that describes the same. -/
theorem foreground_same {wl : List α} {t : Tab α} {cw cr ct : Col α} {w r : List α} (name : String)
    (h1 : t.get? "Wavelength" = some cw) (h2 : t.get? "Radiance" = some cr) (h3 : t.get? "Transmission" = some ct)
    (hw : Says cw um w) (hr : Says cr radianceUnit r) :
    foreground wl t = Foreground.skyForeground wl { value := name, data := some [("Wavelength", w), ("Radiance", r), ("Transmission", ct.raw)] } := by
  rw [foreground_any_unit h1 h2 h3 hw hr]
  rfl

/-! ## A channel -/

/-- C115, what is false, for a channel: if one element of its optical path has a table whose numbers lie above the cut-off
of the detector (a table in nanometres, say), the built channel transmits nothing in any bin. -/
theorem channel_blank {fuel : ℕ} {env : Build.Env} (he : Build.SoundEnv env) {c : Build.Common} {loaded : Bool} {d : Build.Descr}
    (hd : Build.SoundDescr env d) (hbin : Build.Binned d) {b : Build.Built} (h : Build.build fuel env c loaded d = some (.ok b))
    {shared own : Dict String (Optics.Descr ℝ)} (hs : c.optics = .many shared) (ho : d.optics = some (.many own))
    (hn : (shared.keys ++ own.keys).Nodup) (ht : "total" ∉ shared.keys ++ own.keys)
    {name : String} {e : Optics.Descr ℝ} {t : Tab ℝ} (hmem : (name, { e with data := some (raw t) }) ∈ shared ++ own)
    (habove : ∀ col, WlCol t col → ∀ y ∈ col.raw, d.cutOff < y) :
    ∃ es, Build.EdgesFor d es ∧ b.table.get? "TR" = some (Pipeline.col ((Build.mids es).map (fun _ => 0))) := by
  obtain ⟨es, total, h1, _, h2, _, _, _, _, _, _, h3⟩ := Build.built_table he hd hbin h
  obtain ⟨trs, total', p1, p2, p3, p4⟩ := Build.path_transmission he hd h hs ho hn ht
  rw [h2, Option.some.injEq] at p2
  subst p2
  obtain ⟨_, _, _, hglen, hgb⟩ := Instrument.logspace_spec d.detWlMin d.cutOff env.workingR hd.detector.1 hd.detector.2 he.workingR
  have hzero : (Build.workGrid env d).map (fun _ => (0 : ℝ)) ∈ trs := by
    obtain ⟨tr, htr, hok⟩ : ∃ tr ∈ trs, Optics.getTransmission { e with data := some (raw t) } (Build.workGrid env d) = .ok tr := by
      clear p4
      generalize shared ++ own = l at p1 hmem
      induction p1 with
      | nil => cases hmem
      | cons hab _ ih =>
        rcases List.mem_cons.mp hmem with hm | hm
        · subst hm
          exact ⟨_, List.mem_cons_self, hab.1⟩
        · obtain ⟨tr, h1, h2⟩ := ih hm
          exact ⟨tr, List.mem_cons_of_mem _ h1, h2⟩
    have := (element_blank (d := e) (t := t) (wl := Build.workGrid env d)
      (fun col hc => .inl (fun x hx y hy => lt_of_le_of_lt (hgb x hx).2 (habove col hc y hy)))).1 tr hok
    rw [← this]
    exact htr
  have htot : total = (Build.workGrid env d).map (fun _ => 0) := by
    apply Diffuse.ext_getD
    · simp [p3, Build.workGrid, hglen]
    · intro i hi
      rw [p3] at hi
      rw [p4 i hi]
      have hz : ((Build.workGrid env d).map (fun _ => (0 : ℝ))).getD i 0 = 0 := by
        simp only [List.getD_eq_getElem?_getD, List.getElem?_map]
        cases (Build.workGrid env d)[i]? <;> rfl
      rw [hz]
      exact List.prod_eq_zero (List.mem_map.mpr ⟨_, hzero, hz⟩)
  refine ⟨es, h1, ?_⟩
  rw [h3]
  congr 3
  funext w
  unfold Build.trAt
  rw [htot, Build.interp_constant he hd]
  split <;> simp

/-! ## Concrete cases -/

/-- The nanometre. -/
def nm : Unit ℚ := ⟨{ m := 1 }, 1 / 1000000000⟩

/-- A mirror measured at 1, 2 and 3 microns. -/
def mirror (q : Bool) (inNm : Bool) : Tab ℚ :=
  let w : List ℚ := if inNm then [1000, 2000, 3000] else [1, 2, 3]
  let u : Unit ℚ := if inNm then nm else um
  [("Wavelength", if q then .quantity w u else .column w u), ("Reflectivity", .bare [9 / 10, 8 / 10, 7 / 10]), ("Emissivity", .bare [1 / 10, 2 / 10, 3 / 10])]

def mirrorDescr : Optics.Descr ℚ := { value := "M1", type := "surface" }

/-- C115, what is false: written in nanometres, the mirror is opaque. -/
theorem mirror_nm :
    transmission mirrorDescr (mirror false false) [1, 3 / 2, 3] = .ok [9 / 10, 17 / 20, 7 / 10] ∧
    transmission mirrorDescr (mirror false true) [1, 3 / 2, 3] = .ok [0, 0, 0] ∧
    transmission mirrorDescr (mirror true true) [1, 3 / 2, 3] = .ok [0, 0, 0] ∧
    emissivity mirrorDescr (mirror false false) [1, 3 / 2, 3] = .ok [1 / 10, 3 / 20, 3 / 10] ∧
    emissivity mirrorDescr (mirror false true) [1, 3 / 2, 3] = .ok [0, 0, 0] := by
  refine ⟨?_, ?_, ?_, ?_, ?_⟩ <;> decide +kernel

example : InUnit (.column [1000, 2000, 3000] nm) (1 / 1000) ∧ Says (.column [1000, 2000, 3000] nm) um [1, 2, 3] := by
  refine ⟨⟨_, _, .inl rfl, rfl, by norm_num [nm, um]⟩, ⟨_, _, .inl rfl, rfl, ?_⟩⟩
  norm_num [nm, um]

/-- C115: the quantum efficiency keeps the wavelengths of a Quantity and not those of a column with a unit. -/
theorem qe_nm :
    (qe "Phot" [("Wavelength", .quantity [1000, 2000] nm), ("Phot", .bare [1 / 2, 1 / 2])]).map (fun s => s.wl.vals) = .ok [1, 2] ∧
    (qe "Phot" [("Wavelength", .column [1000, 2000] nm), ("Phot", .bare [1 / 2, 1 / 2])]).map (fun s => s.wl.vals) = .ok [1000, 2000] := by
  refine ⟨?_, ?_⟩ <;> decide +kernel

/-- A radiance per nanometre. -/
def perNm : Unit ℚ := (((watt.div metre).div metre).div nm).div steradian

/-- A foreground table in nanometres. -/
def skyNm : Tab ℚ :=
  [("Wavelength", .column [1000, 3000] nm), ("Radiance", .column [2, 4] perNm), ("Transmission", .bare [1 / 2, 1])]

/-- C115: a foreground table in nanometres, and radiance per nanometre, gives radiance per micron at wavelengths in microns. -/
theorem sky_nm : foreground [1, 2, 4] skyNm =
    .ok ⟨⟨[1, 2, 4], [2000, 3000, 0]⟩, some [1 / 2, 3 / 4, 1]⟩ := by
  have h := foreground_any_unit (wl := [1, 2, 4]) (t := skyNm) (w := [1, 3]) (r := [2000, 4000]) rfl rfl rfl
    ⟨_, _, .inl rfl, rfl, by norm_num [nm, um]⟩ ⟨_, _, .inl rfl, by decide +kernel, by norm_num [perNm, radianceUnit, Unit.div, watt, metre, um, nm, steradian]⟩
  rw [h]
  have e1 : [1, 2, 4].map (Foreground.interpFill 0 ([1, 3].zip [(2000 : ℚ), 4000])) = [2000, 3000, 0] := by decide +kernel
  have e2 : [1, 2, 4].map (Foreground.interpFill 1 ([1, 3].zip (Col.bare [(1 : ℚ) / 2, 1]).raw)) = [1 / 2, 3 / 4, 1] := by decide +kernel
  rw [e1, e2]

end ExoRad.TableUnits
