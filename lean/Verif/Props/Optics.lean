import Verif.Model.Optics
import Verif.Props.Diffuse
import Verif.Lemmas.Dict
import Mathlib.Algebra.BigOperators.Group.List.Basic

/-! # C31–C36: optical elements and optical paths -/

set_option linter.unusedSectionVars false

namespace ExoRad.Optics

open ExoRad.Diffuse

variable {α : Type} [Field α] [LinearOrder α] [IsStrictOrderedRing α]

/-- Every element of the path is evaluated on the wavelength grid of the path. -/
def OnGrid (n : Nat) (els : Dict String (Element α)) : Prop :=
  ∀ p ∈ els, p.2.transmission.length = n ∧ p.2.emissivity.length = n

theorem mkElement_length (d : Descr α) (wl : List α) (el : Element α) (h : mkElement d wl = .ok el) :
    el.transmission.length = wl.length ∧ el.emissivity.length = wl.length := by
  unfold mkElement at h
  split at h
  · cases h
  rename_i tr htr
  split at h
  · cases h
  rename_i em hem
  simp only [Except.ok.injEq] at h
  subst h
  constructor
  · unfold getTransmission at htr
    repeat' split at htr
    all_goals first
      | (simp only [Except.ok.injEq] at htr; subst htr; simp [evalTable]; done)
      | cases htr
  · unfold getEmissivity at hem
    repeat' split at hem
    all_goals first
      | (simp only [Except.ok.injEq] at hem; subst hem; simp [evalTable]; done)
      | cases hem

/-! ## C36 -/

/-- C36 for a data table: `use` names the column; otherwise `Transmission` is preferred to `Reflectivity`; the
values are interpolated on the grid and are 0 outside the table. Constants of the payload and its wavelength
limits play no role. -/
theorem transmission_from_data (d : Descr α) (wl : List α) (t : Dict String (List α)) (hd : d.data = some t)
    (hw : d.wlColName = none) (wc : String) (wcol vcol : List α) (c : String)
    (hwc : (wc = "wavelength" ∧ "wavelength" ∈ t.keys) ∨ (wc = "Wavelength" ∧ "wavelength" ∉ t.keys))
    (hwcol : t.get? wc = some wcol)
    (hc : (d.use = some c) ∨ (d.use = none ∧ c = "Transmission") ∨
      (d.use = none ∧ "Transmission" ∉ t.keys ∧ c = "Reflectivity"))
    (hv : t.get? c = some vcol) :
    getTransmission d wl = .ok (wl.map (Rebin.interp (wcol.zip vcol))) := by
  have hmem := Dict.mem_keys_of_get? hv
  have hwmem := Dict.mem_keys_of_get? hwcol
  have htr : trColumn d t = .ok c := by
    unfold trColumn
    rcases hc with h | ⟨h, rfl⟩ | ⟨h, hn, rfl⟩
    · simp [h]
    · simp [h, (Dict.has_iff t _).mpr hmem]
    · simp [h, (Dict.has_eq_false_iff t _).mpr hn, (Dict.has_iff t _).mpr hmem]
  have hwl : wlColumn d t = .ok wcol := by
    unfold wlColumn Misc.getWlColName
    rw [hw]
    rcases hwc with ⟨rfl, h⟩ | ⟨rfl, h⟩
    · simp [h, Dict.getE_ok hwcol]
    · simp [h, hwmem, Dict.getE_ok hwcol]
  unfold getTransmission
  simp only [hd, htr, hwl, Dict.getE_ok hv, evalTable]

/-- C36: a table with neither column and no `use` raises KeyError. -/
theorem transmission_no_column (d : Descr α) (wl : List α) (t : Dict String (List α)) (hd : d.data = some t)
    (hu : d.use = none) (h1 : "Transmission" ∉ t.keys) (h2 : "Reflectivity" ∉ t.keys) :
    getTransmission d wl = .error .keyError := by
  unfold getTransmission trColumn
  simp [hd, hu, (Dict.has_eq_false_iff t _).mpr h1, (Dict.has_eq_false_iff t _).mpr h2]

/-- C36 for constants: exactly one of transmission and reflectivity gives that constant inside
`[wl_min, wl_max]` (as far as given) and 0 outside; both need `use` (KeyError otherwise) and ignore the
limits; none gives 1. -/
theorem transmission_from_constants (d : Descr α) (wl : List α) (hd : d.data = none) :
    (∀ v, (d.transmission = some v ∧ d.reflectivity = none) ∨ (d.transmission = none ∧ d.reflectivity = some v) →
      ∃ tr, getTransmission d wl = .ok tr ∧ tr.length = wl.length ∧ ∀ i < wl.length,
        (((∃ m, d.wlMin = some m ∧ wl.getD i 0 < m) ∨ (∃ m, d.wlMax = some m ∧ m < wl.getD i 0)) → tr.getD i 0 = 0) ∧
        ((∀ m, d.wlMin = some m → m ≤ wl.getD i 0) → (∀ m, d.wlMax = some m → wl.getD i 0 ≤ m) → tr.getD i 0 = v)) ∧
    (∀ v u, d.transmission = some v → d.reflectivity = some u →
      (d.use = none → getTransmission d wl = .error .keyError) ∧
      (d.use = some "transmission" → getTransmission d wl = .ok (List.replicate wl.length v)) ∧
      (d.use = some "reflectivity" → getTransmission d wl = .ok (List.replicate wl.length u))) ∧
    (d.transmission = none → d.reflectivity = none → getTransmission d wl = .ok (List.replicate wl.length 1)) := by
  refine ⟨?_, ?_, ?_⟩
  · intro v hv
    refine ⟨wl.map (cut d v), ?_, by simp, ?_⟩
    · unfold getTransmission
      rcases hv with ⟨h1, h2⟩ | ⟨h1, h2⟩ <;> simp [hd, h1, h2]
    · intro i hi
      have e : (wl.map (cut d v)).getD i 0 = cut d v (wl.getD i 0) := by
        simp [List.getD_eq_getElem?_getD, List.getElem?_eq_getElem hi]
      rw [e]
      generalize wl.getD i 0 = w
      unfold cut
      constructor
      · rintro (⟨m, hm, h⟩ | ⟨m, hm, h⟩)
        · rw [hm]; simp only [if_pos h]
          cases d.wlMax <;> simp
        · rw [hm]; simp only [gt_iff_lt, if_pos h]
      · intro h1 h2
        cases hmin : d.wlMin with
        | none =>
          cases hmax : d.wlMax with
          | none => rfl
          | some M => simp [not_lt.mpr (h2 M hmax)]
        | some m =>
          cases hmax : d.wlMax with
          | none => simp [not_lt.mpr (h1 m hmin)]
          | some M => simp [not_lt.mpr (h1 m hmin), not_lt.mpr (h2 M hmax)]
  · intro v u h1 h2
    unfold getTransmission
    refine ⟨?_, ?_, ?_⟩ <;> intro hu <;> simp [hd, h1, h2, hu, Descr.num, List.map_const']
  · intro h1 h2
    unfold getTransmission
    simp [hd, h1, h2, List.map_const']

/-- C36: the emissivity is the constant given, else 1 for a detector box and 0 for everything else. -/
theorem emissivity_from_constants (d : Descr α) (wl : List α) (hd : d.data = none) :
    (∀ v, d.emissivity = some v → getEmissivity d wl = .ok (List.replicate wl.length v)) ∧
    (d.emissivity = none → d.type = "detector box" → getEmissivity d wl = .ok (List.replicate wl.length 1)) ∧
    (d.emissivity = none → d.type ≠ "detector box" → getEmissivity d wl = .ok (List.replicate wl.length 0)) := by
  unfold getEmissivity
  refine ⟨?_, ?_, ?_⟩
  · intro v h; simp [hd, h, List.map_const']
  · intro h ht; simp [hd, h, ht, List.map_const']
  · intro h ht; simp [hd, h, ht, List.map_const']

/-- C36: with a data table the emissivity comes from its `Emissivity` (or `emissivity`) column and from nowhere
else; without one of them KeyError. -/
theorem emissivity_from_data (d : Descr α) (wl : List α) (t : Dict String (List α)) (hd : d.data = some t)
    (hw : d.wlColName = none) (wc : String) (wcol : List α)
    (hwc : (wc = "wavelength" ∧ "wavelength" ∈ t.keys) ∨ (wc = "Wavelength" ∧ "wavelength" ∉ t.keys))
    (hwcol : t.get? wc = some wcol) :
    (∀ vcol, (t.get? "Emissivity" = some vcol ∨ (t.get? "Emissivity" = none ∧ t.get? "emissivity" = some vcol)) →
      getEmissivity d wl = .ok (wl.map (Rebin.interp (wcol.zip vcol)))) ∧
    (t.get? "Emissivity" = none → t.get? "emissivity" = none → getEmissivity d wl = .error .keyError) := by
  have hwmem := Dict.mem_keys_of_get? hwcol
  have hwl : wlColumn d t = .ok wcol := by
    unfold wlColumn Misc.getWlColName
    rw [hw]
    rcases hwc with ⟨rfl, h⟩ | ⟨rfl, h⟩
    · simp [h, Dict.getE_ok hwcol]
    · simp [h, hwmem, Dict.getE_ok hwcol]
  unfold getEmissivity
  simp only [hd, hwl]
  constructor
  · rintro vcol (h | ⟨h, h2⟩)
    · have := (Dict.has_iff t _).mpr (Dict.mem_keys_of_get? h)
      simp [emColumn, this, Dict.getE_ok h, evalTable]
    · have h1 := (Dict.has_eq_false_iff t _).mpr ((Dict.get?_eq_none_iff t _).mp h)
      have h3 := (Dict.has_iff t _).mpr (Dict.mem_keys_of_get? h2)
      simp [emColumn, h1, h3, Dict.getE_ok h2, evalTable]
  · intro h h2
    have h1 := (Dict.has_eq_false_iff t _).mpr ((Dict.get?_eq_none_iff t _).mp h)
    have h3 := (Dict.has_eq_false_iff t _).mpr ((Dict.get?_eq_none_iff t _).mp h2)
    simp [emColumn, h1, h3]

/-- C34: where an element sits, hence the solid angle its light comes from, is decided by its type alone; its
name, temperature, angle and width are those of the description. -/
theorem element_position (d : Descr α) (wl : List α) (el : Element α) (h : mkElement d wl = .ok el) :
    (d.type = "detector box" → el.position = .detector) ∧ (d.type = "optics box" → el.position = .opticsBox) ∧
    (d.type ≠ "detector box" → d.type ≠ "optics box" → el.position = .path) ∧
    el.name = d.value ∧ el.type = d.type ∧ el.temperature = d.temperature ∧ el.angle = d.solidAngle ∧ el.width = d.width := by
  unfold mkElement at h
  split at h
  · cases h
  split at h
  · cases h
  simp only [Except.ok.injEq] at h
  subst h
  refine ⟨?_, ?_, ?_, rfl, rfl, rfl, rfl, rfl⟩
  · intro e; simp [getPosition, e]
  · intro e; simp [getPosition, e]
  · intro e1 e2; simp [getPosition, e1, e2]

theorem cut_bounds (d : Descr α) (v w : α) (h : 0 ≤ v ∧ v ≤ 1) : 0 ≤ cut d v w ∧ cut d v w ≤ 1 := by
  unfold cut
  cases d.wlMin <;> cases d.wlMax <;> simp only <;> (repeat' split) <;> first | exact h | simp

/-- C31: elements described within [0, 1] have transmissions within [0, 1] at every wavelength. -/
theorem transmission_bounds (d : Descr α) (wl tr : List α) (hphys : ∀ t, d.data = some t → ∀ c vcol, trColumn d t = .ok c → t.get? c = some vcol → ∀ v ∈ vcol, 0 ≤ v ∧ v ≤ 1)
    (ht : ∀ v, d.transmission = some v → 0 ≤ v ∧ v ≤ 1) (hr : ∀ v, d.reflectivity = some v → 0 ≤ v ∧ v ≤ 1)
    (hu : ∀ k, d.data = none → d.use = some k → k = "transmission" ∨ k = "reflectivity")
    (h : getTransmission d wl = .ok tr) : ∀ v ∈ tr, 0 ≤ v ∧ v ≤ 1 := by
  unfold getTransmission at h
  cases hd : d.data with
  | some t =>
    simp only [hd] at h
    split at h
    · cases h
    rename_i c hc
    split at h
    · cases h
    rename_i wcol hwc
    split at h
    · cases h
    rename_i vcol hv
    simp only [Except.ok.injEq] at h
    subst h
    intro v hm
    obtain ⟨w, _, rfl⟩ := List.mem_map.mp hm
    apply Rebin.interp_bounds _ 0 1 (le_refl _) zero_le_one
    intro p hp
    exact hphys t hd c vcol hc (Dict.getE_eq_ok_iff.mp hv) _ (List.of_mem_zip hp).2
  | none =>
    simp only [hd] at h
    split at h
    · rename_i v u hv hu'
      split at h
      · cases h
      rename_i k hk
      split at h
      · cases h
      rename_i x hx
      simp only [Except.ok.injEq] at h
      subst h
      intro y hy
      obtain ⟨_, _, rfl⟩ := List.mem_map.mp hy
      rcases hu k hd hk with rfl | rfl
      · simp [Descr.num, hv] at hx; subst hx; exact ht _ hv
      · simp [Descr.num, hu'] at hx; subst hx; exact hr _ hu'
    · rename_i v hv _
      simp only [Except.ok.injEq] at h
      subst h
      intro y hy
      obtain ⟨_, _, rfl⟩ := List.mem_map.mp hy
      exact cut_bounds d v _ (ht _ hv)
    · rename_i v _ hv
      simp only [Except.ok.injEq] at h
      subst h
      intro y hy
      obtain ⟨_, _, rfl⟩ := List.mem_map.mp hy
      exact cut_bounds d v _ (hr _ hv)
    · simp only [Except.ok.injEq] at h
      subst h
      intro y hy
      obtain ⟨_, _, rfl⟩ := List.mem_map.mp hy
      simp

/-! ## C31 -/

theorem trLoop_spec : ∀ (els : Dict String (Element α)) (table : Dict String (List α)) (total : List α) (n : Nat),
    OnGrid n els → total.length = n →
    (trLoop els table total).2.length = n ∧
    (∀ i, (trLoop els table total).2.getD i 0 = total.getD i 0 * (els.map (fun p => p.2.transmission.getD i 0)).prod) ∧
    (∀ k, k ∉ els.keys → (trLoop els table total).1.get? k = table.get? k) ∧
    (els.keys.Nodup → ∀ k el, (k, el) ∈ els → (trLoop els table total).1.get? k = some el.transmission)
  | [], table, total, n, _, hl => by simp [trLoop, hl]
  | (k, el) :: els, table, total, n, hg, hl => by
    have hel := (hg (k, el) (by simp)).1
    obtain ⟨i1, i2, i3, i4⟩ := trLoop_spec els (table.set k el.transmission) (mulCol total el.transmission) n
      (fun p hp => hg p (by simp [hp])) (by simp [mulCol, hl, hel])
    rw [trLoop]
    refine ⟨i1, ?_, ?_, ?_⟩
    · intro i
      rw [i2 i]
      unfold mulCol
      rw [getD_zipWith _ (by simp) _ _ (by rw [hl, hel]), List.map_cons, List.prod_cons]
      ring
    · intro k' hk'
      simp only [Dict.keys_cons, List.mem_cons, not_or] at hk'
      rw [i3 k' hk'.2, Dict.get?_set_ne _ _ hk'.1]
    · intro hnd k' el' hm
      simp only [Dict.keys_cons, List.nodup_cons] at hnd
      rcases List.mem_cons.mp hm with h | h
      · simp only [Prod.mk.injEq] at h
        obtain ⟨rfl, rfl⟩ := h
        rw [i3 k' hnd.1, Dict.get?_set_self]
      · exact i4 hnd.2 k' el' h

/-- C31: the `total` column is, at every wavelength, the product of the transmissions of all elements; the
other columns hold the element transmissions. -/
theorem total_transmission (wl : List α) (els : Dict String (Element α)) (hg : OnGrid wl.length els) :
    (∃ tot, (transmissionTable wl els).get? "total" = some tot ∧ tot.length = wl.length ∧
      ∀ i < wl.length, tot.getD i 0 = (els.map (fun p => p.2.transmission.getD i 0)).prod) ∧
    (els.keys.Nodup → ∀ k el, (k, el) ∈ els → k ≠ "total" → (transmissionTable wl els).get? k = some el.transmission) := by
  obtain ⟨h1, h2, h3, h4⟩ := trLoop_spec els [("Wavelength", wl)] (wl.map (fun _ => (1 : α))) wl.length hg (by simp)
  unfold transmissionTable
  refine ⟨⟨_, Dict.get?_set_self _ _ _, h1, ?_⟩, ?_⟩
  · intro i hi
    rw [h2 i]
    have : (wl.map (fun _ => (1 : α))).getD i 0 = 1 := by
      rw [List.getD_eq_getElem?_getD, List.getElem?_map, List.getElem?_eq_getElem hi]; rfl
    rw [this, one_mul]
  · intro hnd k el hm hk
    rw [Dict.get?_set_ne _ _ hk, h4 hnd k el hm]

/-- The total transmission at wavelength number `i`. -/
def totalAt (wl : List α) (els : Dict String (Element α)) (i : Nat) : α :=
  (((transmissionTable wl els).get? "total").getD []).getD i 0

theorem totalAt_eq (wl : List α) (els : Dict String (Element α)) (hg : OnGrid wl.length els) (i : Nat) (hi : i < wl.length) :
    totalAt wl els i = (els.map (fun p => p.2.transmission.getD i 0)).prod := by
  obtain ⟨⟨tot, h1, _, h3⟩, _⟩ := total_transmission wl els hg
  simp only [totalAt, h1, Option.getD_some]
  exact h3 i hi

/-- C31: the order of the elements does not matter. -/
theorem total_transmission_perm (wl : List α) (els els' : Dict String (Element α)) (hp : els.Perm els')
    (hg : OnGrid wl.length els) (i : Nat) (hi : i < wl.length) : totalAt wl els i = totalAt wl els' i := by
  rw [totalAt_eq wl els hg i hi, totalAt_eq wl els' (fun p hm => hg p (hp.mem_iff.mpr hm)) i hi]
  exact (hp.map _).prod_eq

theorem prod_unit (l : List α) (h : ∀ v ∈ l, 0 ≤ v ∧ v ≤ 1) : 0 ≤ l.prod ∧ l.prod ≤ 1 := by
  induction l with
  | nil => simp
  | cons a l ih =>
    have ha := h a (by simp)
    have hl := ih (fun v hv => h v (by simp [hv]))
    rw [List.prod_cons]
    exact ⟨mul_nonneg ha.1 hl.1, mul_le_one₀ ha.2 hl.1 hl.2⟩

/-- C31: within [0, 1], and inserting an element anywhere never increases the transmission. -/
theorem total_transmission_bounds (wl : List α) (pre post : Dict String (Element α)) (k : String) (el : Element α)
    (hg : OnGrid wl.length (pre ++ (k, el) :: post)) (i : Nat) (hi : i < wl.length)
    (hb : ∀ p ∈ pre ++ (k, el) :: post, 0 ≤ p.2.transmission.getD i 0 ∧ p.2.transmission.getD i 0 ≤ 1) :
    0 ≤ totalAt wl (pre ++ (k, el) :: post) i ∧ totalAt wl (pre ++ (k, el) :: post) i ≤ 1 ∧
    totalAt wl (pre ++ (k, el) :: post) i ≤ totalAt wl (pre ++ post) i := by
  have hg' : OnGrid wl.length (pre ++ post) := fun p hm => hg p (by simp only [List.mem_append, List.mem_cons] at hm ⊢; tauto)
  have hb' : ∀ v ∈ (pre ++ (k, el) :: post).map (fun p => p.2.transmission.getD i 0), 0 ≤ v ∧ v ≤ 1 := by
    intro v hv
    obtain ⟨p, hp, rfl⟩ := List.mem_map.mp hv
    exact hb p hp
  rw [totalAt_eq wl _ hg i hi, totalAt_eq wl _ hg' i hi]
  refine ⟨(prod_unit _ hb').1, (prod_unit _ hb').2, ?_⟩
  have e : ((pre ++ (k, el) :: post).map (fun p => p.2.transmission.getD i 0)).prod =
      el.transmission.getD i 0 * ((pre ++ post).map (fun p => p.2.transmission.getD i 0)).prod := by
    simp only [List.map_append, List.map_cons, List.prod_append, List.prod_cons]; ring
  rw [e]
  have hx := hb (k, el) (by simp)
  have hnn : 0 ≤ ((pre ++ post).map (fun p => p.2.transmission.getD i 0)).prod := by
    apply (prod_unit _ _).1
    intro v hv
    obtain ⟨p, hp, rfl⟩ := List.mem_map.mp hv
    exact hb p (by simp only [List.mem_append, List.mem_cons] at hp ⊢; tauto)
  calc el.transmission.getD i 0 * _ ≤ 1 * _ := mul_le_mul_of_nonneg_right hx.2 hnn
    _ = _ := one_mul _

/-! ## C32 -/

theorem passThrough_spec : ∀ (els : Dict String (Element α)) (r r' : Rad α) (w w' : Option α) (n : Nat),
    OnGrid n els → r.data.length = n → passThrough els r w = .ok (r', w') →
    r'.position = r.position ∧ (r'.slit = true ↔ r.slit = true ∨ ∃ p ∈ els, p.2.type = "slit") ∧ r'.data.length = n ∧
    ∀ i, r'.data.getD i 0 = r.data.getD i 0 * (els.map (fun p => p.2.transmission.getD i 0)).prod
  | [], r, r', w, w', n, _, hl, h => by
    simp only [passThrough, Except.ok.injEq, Prod.mk.injEq] at h
    obtain ⟨rfl, rfl⟩ := h
    simp [hl]
  | (k, el) :: els, r, r', w, w', n, hg, hl, h => by
    have hel := (hg (k, el) (by simp)).1
    have hml : (mulCol r.data el.transmission).length = n := by simp [mulCol, hl, hel]
    have hget : ∀ i, (mulCol r.data el.transmission).getD i 0 = r.data.getD i 0 * el.transmission.getD i 0 := fun i =>
      getD_zipWith _ (by simp) _ _ (by rw [hl, hel]) i
    rw [passThrough] at h
    split at h
    · rename_i ht
      split at h
      · cases h
      · obtain ⟨h1, h2, h3, h4⟩ := passThrough_spec els _ r' _ w' n (fun p hp => hg p (by simp [hp])) hml h
        refine ⟨h1, ?_, h3, ?_⟩
        · rw [h2]; simp [ht]
        · intro i
          rw [h4 i, List.map_cons, List.prod_cons]
          simp only
          rw [hget i]; ring
    · rename_i ht
      obtain ⟨h1, h2, h3, h4⟩ := passThrough_spec els _ r' _ w' n (fun p hp => hg p (by simp [hp])) hml h
      refine ⟨h1, ?_, h3, ?_⟩
      · rw [h2]; simp [ht]
      · intro i
        rw [h4 i, List.map_cons, List.prod_cons]
        simp only
        rw [hget i]; ring

/-- The elements of a path that emit, by name. -/
def emitting (els : Dict String (Element α)) : List String :=
  (els.filter (fun p => p.2.temperature.isSome)).map (fun p => p.2.name)

theorem surfaceRadiance_get (B : α → α → α) (wl : List α) (T : α) (em : List α) (h : em.length = wl.length) :
    (surfaceRadiance B wl T em).length = wl.length ∧
    ∀ i < wl.length, (surfaceRadiance B wl T em).getD i 0 = em.getD i 0 * B (wl.getD i 0) T := by
  refine ⟨by simp [surfaceRadiance, mulCol, h], ?_⟩
  intro i hi
  unfold surfaceRadiance mulCol
  rw [getD_zipWith _ (by simp) _ _ (by simp [h])]
  congr 1
  rw [List.getD_eq_getElem?_getD, List.getElem?_map, List.getElem?_eq_getElem hi, List.getD_eq_getElem?_getD,
    List.getElem?_eq_getElem hi]
  rfl

/-- The light of `el` that reaches the detector when `post` are the elements after it. -/
structure Reaches (B : α → α → α) (wl : List α) (el : Element α) (T : α) (post : Dict String (Element α)) (r : Rad α) : Prop where
  position : r.position = el.position
  slit : r.slit = true ↔ ∃ p ∈ post, p.2.type = "slit"
  length : r.data.length = wl.length
  value : ∀ i < wl.length, r.data.getD i 0 =
    el.emissivity.getD i 0 * B (wl.getD i 0) T * (post.map (fun p => p.2.transmission.getD i 0)).prod

theorem chain_cons_some (B : α → α → α) (wl : List α) (k : String) (el : Element α) (els : Dict String (Element α))
    (rads rads' : Dict String (Rad α)) (w w' : Option α) (T : α) (hT : el.temperature = some T)
    (h : chain B wl ((k, el) :: els) rads w = .ok (rads', w')) :
    ∃ r w1, passThrough els ⟨el.position, false, surfaceRadiance B wl T el.emissivity⟩ w = .ok (r, w1) ∧
      chain B wl els (rads.set el.name r) w1 = .ok (rads', w') := by
  rw [chain, hT] at h
  simp only at h
  split at h
  · cases h
  · rename_i r w1 hp
    exact ⟨r, w1, hp, h⟩

theorem emitting_cons_some (k : String) (el : Element α) (els : Dict String (Element α)) (T : α) (hT : el.temperature = some T) :
    emitting ((k, el) :: els) = el.name :: emitting els := by simp [emitting, hT]

theorem emitting_cons_none (k : String) (el : Element α) (els : Dict String (Element α)) (hT : el.temperature = none) :
    emitting ((k, el) :: els) = emitting els := by simp [emitting, hT]

theorem chain_frame (B : α → α → α) (wl : List α) : ∀ (els : Dict String (Element α)) (rads rads' : Dict String (Rad α))
    (w w' : Option α), chain B wl els rads w = .ok (rads', w') →
    (∀ k, k ∉ emitting els → rads'.get? k = rads.get? k) ∧
    ((rads.keys ++ emitting els).Nodup → rads'.keys = rads.keys ++ emitting els)
  | [], rads, rads', w, w', h => by
    simp only [chain, Except.ok.injEq, Prod.mk.injEq] at h
    obtain ⟨rfl, rfl⟩ := h
    simp [emitting]
  | (k, el) :: els, rads, rads', w, w', h => by
    cases hT : el.temperature with
    | none =>
      rw [chain, hT] at h
      rw [emitting_cons_none k el els hT]
      exact chain_frame B wl els rads rads' w w' h
    | some T =>
      obtain ⟨r, w1, _, hc⟩ := chain_cons_some B wl k el els rads rads' w w' T hT h
      obtain ⟨h1, h2⟩ := chain_frame B wl els _ rads' w1 w' hc
      rw [emitting_cons_some k el els T hT]
      constructor
      · intro k' hk'
        simp only [List.mem_cons, not_or] at hk'
        rw [h1 k' hk'.2, Dict.get?_set_ne _ _ hk'.1]
      · intro hnd
        have hni : el.name ∉ rads.keys := by
          intro hm
          rw [List.nodup_append] at hnd
          exact hnd.2.2 _ hm _ (by simp) rfl
        have hk : (rads.set el.name r).keys = rads.keys ++ [el.name] := by rw [Dict.keys_set, if_neg hni]
        rw [h2 (by rw [hk]; simpa using hnd), hk]
        simp

/-- C32: what reaches the detector from an element is its own emission times the transmissions of exactly the
elements after it, and it is seen through a slit iff one of those is a slit. Elements without a temperature
emit nothing. -/
theorem chain_radiance (B : α → α → α) (wl : List α) : ∀ (els : Dict String (Element α)) (rads rads' : Dict String (Rad α))
    (w w' : Option α), OnGrid wl.length els → chain B wl els rads w = .ok (rads', w') →
    ∀ pre k el post T, els = pre ++ (k, el) :: post → el.temperature = some T → el.name ∉ emitting post →
    ∃ r, rads'.get? el.name = some r ∧ Reaches B wl el T post r
  | [], rads, rads', w, w', _, _, pre, k, el, post, T, he, _, _ => by simp at he
  | (k0, el0) :: els, rads, rads', w, w', hg, h, pre, k, el, post, T, he, hT, hn => by
    have hg' : OnGrid wl.length els := fun p hp => hg p (by simp [hp])
    cases pre with
    | nil =>
      simp only [List.nil_append, List.cons.injEq, Prod.mk.injEq] at he
      obtain ⟨⟨rfl, rfl⟩, rfl⟩ := he
      obtain ⟨r, w1, hp, hc⟩ := chain_cons_some B wl k0 el0 els rads rads' w w' T hT h
      have hem := (hg (k0, el0) (by simp)).2
      obtain ⟨s1, s2⟩ := surfaceRadiance_get B wl T el0.emissivity hem
      obtain ⟨p1, p2, p3, p4⟩ := passThrough_spec els _ r w w1 wl.length hg' s1 hp
      refine ⟨r, ?_, p1, ?_, p3, ?_⟩
      · rw [(chain_frame B wl els _ rads' w1 w' hc).1 _ hn, Dict.get?_set_self]
      · rw [p2]; simp
      · intro i hi
        rw [p4 i]
        simp only
        rw [s2 i hi]
    | cons q pre =>
      simp only [List.cons_append, List.cons.injEq] at he
      obtain ⟨_, he⟩ := he
      cases hT0 : el0.temperature with
      | none =>
        rw [chain, hT0] at h
        exact chain_radiance B wl els rads rads' w w' hg' h pre k el post T he hT hn
      | some T0 =>
        obtain ⟨r, w1, _, hc⟩ := chain_cons_some B wl k0 el0 els rads rads' w w' T0 hT0 h
        exact chain_radiance B wl els _ rads' w1 w' hg' hc pre k el post T he hT hn

/-- C32, whole path: the radiance table has exactly the emitting elements, in order. -/
theorem chain_names (B : α → α → α) (wl : List α) (els : Dict String (Element α)) (rads : Dict String (Rad α)) (w : Option α)
    (h : chain B wl els [] none = .ok (rads, w)) (hn : (emitting els).Nodup) : rads.keys = emitting els := by
  simpa using (chain_frame B wl els [] rads none w h).2 (by simpa using hn)

/-- C32: changing everything upstream of an element changes nothing for it. -/
theorem chain_upstream (B : α → α → α) (wl : List α) (pre pre' post : Dict String (Element α)) (k : String) (el : Element α)
    (T : α) (rads rads' : Dict String (Rad α)) (w w' : Option α)
    (hg : OnGrid wl.length (pre ++ (k, el) :: post)) (hg' : OnGrid wl.length (pre' ++ (k, el) :: post))
    (hT : el.temperature = some T) (hn : el.name ∉ emitting post)
    (h : chain B wl (pre ++ (k, el) :: post) [] none = .ok (rads, w))
    (h' : chain B wl (pre' ++ (k, el) :: post) [] none = .ok (rads', w')) :
    ∃ r r', rads.get? el.name = some r ∧ rads'.get? el.name = some r' ∧ r.position = r'.position ∧ r.slit = r'.slit ∧
      r.data = r'.data := by
  obtain ⟨r, hr, R⟩ := chain_radiance B wl _ _ _ _ _ hg h pre k el post T rfl hT hn
  obtain ⟨r', hr', R'⟩ := chain_radiance B wl _ _ _ _ _ hg' h' pre' k el post T rfl hT hn
  refine ⟨r, r', hr, hr', by rw [R.position, R'.position], ?_, ?_⟩
  · rw [Bool.eq_iff_iff, R.slit, R'.slit]
  · apply ext_getD (by rw [R.length, R'.length])
    intro i hi
    rw [R.length] at hi
    rw [R.value i hi, R'.value i hi]

/-- The radiance cannot fail unless a slit has no width. -/
theorem passThrough_total : ∀ (els : Dict String (Element α)) (r : Rad α) (w : Option α),
    (∀ p ∈ els, p.2.type = "slit" → p.2.width ≠ none) → ∃ x, passThrough els r w = .ok x
  | [], r, w, _ => ⟨_, rfl⟩
  | (k, el) :: els, r, w, h => by
    rw [passThrough]
    split
    · rename_i ht
      cases hw : el.width with
      | none => exact absurd hw (h (k, el) (by simp) ht)
      | some x => exact passThrough_total els _ _ (fun p hp => h p (by simp [hp]))
    · exact passThrough_total els _ _ (fun p hp => h p (by simp [hp]))

theorem chain_total (B : α → α → α) (wl : List α) : ∀ (els : Dict String (Element α)) (rads : Dict String (Rad α)) (w : Option α),
    (∀ p ∈ els, p.2.type = "slit" → p.2.width ≠ none) → ∃ x, chain B wl els rads w = .ok x
  | [], rads, w, _ => ⟨_, rfl⟩
  | (k, el) :: els, rads, w, h => by
    have h' : ∀ p ∈ els, p.2.type = "slit" → p.2.width ≠ none := fun p hp => h p (by simp [hp])
    rw [chain]
    cases hT : el.temperature with
    | none => exact chain_total B wl els rads w h'
    | some T =>
      obtain ⟨⟨r, w1⟩, hp⟩ := passThrough_total els ⟨el.position, false, surfaceRadiance B wl T el.emissivity⟩ w h'
      simp only [hp]
      exact chain_total B wl els _ w1 h'

/-! ### The slit width -/

theorem passThrough_width : ∀ (els : Dict String (Element α)) (r r' : Rad α) (w w' : Option α),
    passThrough els r w = .ok (r', w') →
    ((∀ p ∈ els, p.2.type ≠ "slit") → w' = w) ∧
    ((∃ p ∈ els, p.2.type = "slit") → ∃ p ∈ els, p.2.type = "slit" ∧ w' = p.2.width ∧ w' ≠ none)
  | [], r, r', w, w', h => by
    simp only [passThrough, Except.ok.injEq, Prod.mk.injEq] at h
    simp [h.2]
  | (k, el) :: els, r, r', w, w', h => by
    rw [passThrough] at h
    split at h
    · rename_i ht
      cases hw : el.width with
      | none => simp [hw] at h
      | some x =>
        simp only [hw] at h
        obtain ⟨h1, h2⟩ := passThrough_width els _ r' _ w' h
        refine ⟨fun hno => absurd ht (hno (k, el) (by simp)), fun _ => ?_⟩
        by_cases hs : ∃ p ∈ els, p.2.type = "slit"
        · obtain ⟨p, hp, e1, e2⟩ := h2 hs
          exact ⟨p, by simp [hp], e1, e2⟩
        · have := h1 (fun p hp ht' => hs ⟨p, hp, ht'⟩)
          exact ⟨(k, el), by simp, ht, by rw [this, hw], by rw [this]; simp⟩
    · rename_i ht
      obtain ⟨h1, h2⟩ := passThrough_width els _ r' _ w' h
      constructor
      · intro hno
        exact h1 (fun p hp => hno p (by simp [hp]))
      · rintro ⟨p, hp, hpt⟩
        rcases List.mem_cons.mp hp with rfl | hp
        · exact absurd hpt ht
        · obtain ⟨q, hq, e⟩ := h2 ⟨p, hp, hpt⟩
          exact ⟨q, by simp [hq], e⟩

/-- The channel is treated as having a slit iff some emitting element comes before a slit; a slit with only
non-emitting elements before it has no effect on foregrounds. -/
theorem chain_slit_width (B : α → α → α) (wl : List α) : ∀ (els : Dict String (Element α)) (rads rads' : Dict String (Rad α))
    (w w' : Option α), chain B wl els rads w = .ok (rads', w') →
    (w' ≠ none ↔ w ≠ none ∨ ∃ pre k el post, els = pre ++ (k, el) :: post ∧ el.temperature ≠ none ∧ ∃ p ∈ post, p.2.type = "slit") ∧
    (w' = w ∨ ∃ p ∈ els, p.2.type = "slit" ∧ w' = p.2.width)
  | [], rads, rads', w, w', h => by
    simp only [chain, Except.ok.injEq, Prod.mk.injEq] at h
    obtain ⟨rfl, rfl⟩ := h
    simp
  | (k, el) :: els, rads, rads', w, w', h => by
    have hsplit : ∀ P : Prop, (P ∨ ∃ pre k' el' post, (k, el) :: els = pre ++ (k', el') :: post ∧ el'.temperature ≠ none ∧ ∃ p ∈ post, p.2.type = "slit") ↔
        (P ∨ (el.temperature ≠ none ∧ ∃ p ∈ els, p.2.type = "slit")) ∨ ∃ pre k' el' post, els = pre ++ (k', el') :: post ∧ el'.temperature ≠ none ∧ ∃ p ∈ post, p.2.type = "slit" := by
      intro P
      constructor
      · rintro (hP | ⟨pre, k', el', post, he, h1, h2⟩)
        · exact Or.inl (Or.inl hP)
        · cases pre with
          | nil =>
            simp only [List.nil_append, List.cons.injEq, Prod.mk.injEq] at he
            obtain ⟨⟨rfl, rfl⟩, rfl⟩ := he
            exact Or.inl (Or.inr ⟨h1, h2⟩)
          | cons q pre =>
            simp only [List.cons_append, List.cons.injEq] at he
            exact Or.inr ⟨pre, k', el', post, he.2, h1, h2⟩
      · rintro ((hP | ⟨h1, h2⟩) | ⟨pre, k', el', post, he, h1, h2⟩)
        · exact Or.inl hP
        · exact Or.inr ⟨[], k, el, els, rfl, h1, h2⟩
        · exact Or.inr ⟨(k, el) :: pre, k', el', post, by simp [he], h1, h2⟩
    rw [hsplit]
    cases hT : el.temperature with
    | none =>
      rw [chain, hT] at h
      obtain ⟨h1, h2⟩ := chain_slit_width B wl els rads rads' w w' h
      constructor
      · rw [h1]; simp
      · rcases h2 with h2 | ⟨p, hp, e⟩
        · exact Or.inl h2
        · exact Or.inr ⟨p, by simp [hp], e⟩
    | some T =>
      obtain ⟨r, w1, hp, hc⟩ := chain_cons_some B wl k el els rads rads' w w' T hT h
      obtain ⟨p1, p2⟩ := passThrough_width els _ r w w1 hp
      obtain ⟨h1, h2⟩ := chain_slit_width B wl els _ rads' w1 w' hc
      constructor
      · rw [h1]
        have : w1 ≠ none ↔ (w ≠ none ∨ (some T ≠ none ∧ ∃ p ∈ els, p.2.type = "slit")) := by
          by_cases hs : ∃ p ∈ els, p.2.type = "slit"
          · obtain ⟨p, _, _, _, e3⟩ := p2 hs
            constructor
            · intro _; exact Or.inr ⟨by simp, hs⟩
            · intro _; exact e3
          · rw [p1 (fun p hp ht => hs ⟨p, hp, ht⟩)]
            simp [hs]
        rw [this]
      · rcases h2 with h2 | ⟨p, hp', e⟩
        · by_cases hs : ∃ p ∈ els, p.2.type = "slit"
          · obtain ⟨p, hp', e1, e2, _⟩ := p2 hs
            exact Or.inr ⟨p, by simp [hp'], e1, by rw [h2, e2]⟩
          · left; rw [h2, p1 (fun p hp ht => hs ⟨p, hp, ht⟩)]
        · exact Or.inr ⟨p, by simp [hp'], e⟩

/-! ## C35 -/

theorem foldl_set_append {β : Type} : ∀ (l d : Dict String β), (d.keys ++ l.keys).Nodup →
    l.foldl (fun d p => d.set p.1 p.2) d = d ++ l
  | [], d, _ => by simp
  | (k, v) :: l, d, h => by
    have hk : k ∉ d.keys := by
      intro hm
      rw [List.nodup_append] at h
      exact h.2.2 _ hm _ (by simp) rfl
    have hset : ∀ d : Dict String β, k ∉ d.keys → d.set k v = d ++ [(k, v)] := by
      intro d
      induction d with
      | nil => intro _; rfl
      | cons p d ih =>
        intro hn
        obtain ⟨k', v'⟩ := p
        simp only [Dict.keys_cons, List.mem_cons, not_or] at hn
        rw [Dict.set, if_neg (fun e => hn.1 e.symm), ih hn.2]
        rfl
    rw [List.foldl_cons, hset d hk, foldl_set_append l]
    · simp
    · simpa [Dict.keys] using h

/-- C35: common and channel elements with different names: the channel's path is the common optics followed by
its own, nothing lost, order kept. -/
theorem prepend_disjoint {β : Type} (common own : Dict String β) (h : (common.keys ++ own.keys).Nodup) :
    prepend common own = common ++ own := by
  unfold prepend
  rw [foldl_set_append]
  · simp
  · simpa using h

theorem foldl_set_get {β : Type} (k : String) : ∀ (l d : Dict String β), l.keys.Nodup →
    (l.foldl (fun d p => d.set p.1 p.2) d).get? k = if k ∈ l.keys then l.get? k else d.get? k
  | [], d, _ => by simp
  | (k', v) :: l, d, h => by
    simp only [Dict.keys_cons, List.nodup_cons] at h
    rw [List.foldl_cons, foldl_set_get k l _ h.2, Dict.get?_set, Dict.get?_cons]
    by_cases h1 : k' = k
    · subst h1
      simp [h.1]
    · simp [h1, Ne.symm h1, Dict.keys_cons]

/-- C35: a common and a channel element of the same name: only the channel's element is left, at the place of
the common one, so the common element is lost. -/
theorem prepend_same_name {β : Type} (common own : Dict String β) (hc : common.keys.Nodup) (ho : own.keys.Nodup) (k : String)
    (v : β) (hv : own.get? k = some v) : (prepend common own).get? k = some v := by
  unfold prepend
  rw [List.foldl_append, foldl_set_get k own _ ho, if_pos (Dict.mem_keys_of_get? hv), hv]

theorem buildMany_spec (wl : List α) : ∀ (ds : Dict String (Descr α)) (out els : Dict String (Element α)),
    buildMany wl ds out = .ok els → (out.keys ++ ds.keys).Nodup →
    ∃ own, els = out ++ own ∧ List.Forall₂ (fun d e => e.1 = d.1 ∧ mkElement d.2 wl = .ok e.2) ds own
  | [], out, els, h, _ => by
    simp only [buildMany, Except.ok.injEq] at h
    exact ⟨[], by simp [h], .nil⟩
  | (k, d) :: ds, out, els, h, hn => by
    rw [buildMany] at h
    split at h
    · cases h
    rename_i el hel
    have hk : out.set k el = out ++ [(k, el)] := by
      have := foldl_set_append [(k, el)] out (by
        refine hn.sublist ?_
        simp [Dict.keys])
      simpa using this
    rw [hk] at h
    obtain ⟨own, e1, e2⟩ := buildMany_spec wl ds _ els h (by simpa [Dict.keys] using hn)
    exact ⟨(k, el) :: own, by simp [e1], .cons ⟨rfl, hel⟩ e2⟩

/-- C35: the elements of a section, in payload order, one per description; an optics section without elements has
one transparent element. -/
theorem prepareElements_spec (wl : List α) (ds : Dict String (Descr α)) (els : Dict String (Element α)) (hn : ds.keys.Nodup)
    (h : prepareElements wl (.many ds) = .ok els) :
    List.Forall₂ (fun d e => e.1 = d.1 ∧ mkElement d.2 wl = .ok e.2) ds els := by
  obtain ⟨own, e1, e2⟩ := buildMany_spec wl ds [] els h (by simpa using hn)
  simpa [e1] using e2

theorem prepareElements_absent (wl : List α) : ∃ el, prepareElements wl (.absent : Section α) = .ok [("noElement", el)] ∧
    el.temperature = none ∧ el.transmission = List.replicate wl.length 1 := by
  have h1 := (transmission_from_constants (noElement : Descr α) wl rfl).2.2 rfl rfl
  have h2 := (emissivity_from_constants (noElement : Descr α) wl rfl).2.2 rfl (by simp [noElement])
  refine ⟨⟨"noElement", "surface", List.replicate wl.length 1, List.replicate wl.length 0, none, getPosition "surface", none, none⟩, ?_, rfl, rfl⟩
  simp only [prepareElements, buildMany, mkElement, h1, h2]
  rfl

/-- A whole channel path is on the grid. -/
theorem onGrid_of_prepare (wl : List α) (ds : Dict String (Descr α)) (els : Dict String (Element α))
    (h : List.Forall₂ (fun d e => e.1 = d.1 ∧ mkElement d.2 wl = .ok e.2) ds els) : OnGrid wl.length els := by
  induction h with
  | nil => intro p hp; cases hp
  | cons hd _ ih =>
    intro p hp
    rcases List.mem_cons.mp hp with rfl | hp
    · exact mkElement_length _ _ _ hd.2
    · exact ih p hp

/-! ## C33 -/

section Signal
variable [FloorRing α]

/-- Every per-bin array of the channel has one entry per bin (the spatial width is only there for spectrometers and only
read behind a slit). -/
def Bins (ch : Channel α) (n : Nat) : Prop :=
  ch.windowSize.length = n ∧ ch.left.length = n ∧ ch.right.length = n ∧ (ch.slitWidth.isSome = true → ch.spatialWidth.length = n)

theorem elementSignal_length (pi : α) (ch : Channel α) (wl : List α) (qe : Rebin.Signal α) (r : Rad α) (n : Nat)
    (hb : Bins ch n) (m sig : List α) (h : elementSignal pi ch wl qe r = .ok (m, sig)) : m.length = n ∧ sig.length = n := by
  obtain ⟨h1, h2, h3, h4⟩ := hb
  unfold elementSignal at h
  split at h
  · rename_i hsl
    replace h4 := h4 (by rw [hsl]; rfl)
    unfold convolveWithSlit at h
    split at h
    · cases h
    unfold throughSlit at h
    simp only at h
    split at h
    · cases h
    split at h
    · cases h
    split at h
    · cases h
    rename_i mm hm
    simp only [Except.ok.injEq, Prod.mk.injEq] at h
    obtain ⟨rfl, rfl⟩ := h
    have := (maxPerBin_ok _ _ hm).length_eq
    constructor
    · rw [← this]; simp [slitBins, h2, h3]
    · simp [mulCol, slitBins, h2, h3, h4]
  · simp only [integrateLight, Except.ok.injEq, Prod.mk.injEq] at h
    obtain ⟨rfl, rfl⟩ := h
    simp [h1]

/-- What the elements contribute one by one, with the quantum efficiency `qe'` on the grid of the path. -/
def Contributions (pi : α) (ch : Channel α) (wl : List α) (qe' : Rebin.Signal α) (rads : Dict String (Rad α))
    (signals maxima : Dict String (List α)) : Prop :=
  List.Forall₂ (fun r e => e.1.1 = r.1 ++ " signal" ∧ e.2.1 = r.1 ∧ elementSignal pi ch wl qe' r.2 = .ok (e.2.2, e.1.2))
    rads (signals.zip maxima) ∧ signals.length = maxima.length

theorem getD_addCol (a b : List α) (h : a.length = b.length) (i : Nat) : (addCol a b).getD i 0 = a.getD i 0 + b.getD i 0 :=
  getD_zipWith (· + ·) (by simp) a b h i

theorem set_new {β : Type} (d : Dict String β) (k : String) (v : β) (h : k ∉ d.keys) : d.set k v = d ++ [(k, v)] := by
  induction d with
  | nil => rfl
  | cons p d ih =>
    simp only [Dict.keys_cons, List.mem_cons, not_or] at h
    have : p.1 ≠ k := fun e => h.1 e.symm
    simp only [Dict.set, if_neg this, List.cons_append, ih h.2]

theorem append_signal_inj {a b : String} (h : a ++ " signal" = b ++ " signal") : a = b := by
  have := congrArg String.toList h
  simp only [String.toList_append, List.append_cancel_right_eq] at this
  exact String.toList_inj.mp this

theorem signalLoop_spec (pi : α) (ch : Channel α) (wl : List α) (n : Nat) (hb : Bins ch n) (hx : wl.Pairwise (· < ·))
    (hpos : ∀ w ∈ wl, 0 < w) (qe' : Rebin.Signal α) (hq : qe'.wl = wl) (hq' : qe'.data.length = wl.length)
    (hl : 2 ≤ wl.length) : ∀ (rads : Dict String (Rad α)) (s s' : SigState α),
    s.qe.spectralRebin wl = .ok qe' → s.total.length = n → s.totalMax.length = n →
    (s.maxima.keys ++ rads.keys).Nodup → s.signals.keys = s.maxima.keys.map (· ++ " signal") →
    signalLoop pi ch wl rads s = .ok s' →
    ∃ signals maxima, s'.signals = s.signals ++ signals ∧ s'.maxima = s.maxima ++ maxima ∧
      Contributions pi ch wl qe' rads signals maxima ∧ s'.total.length = n ∧ s'.totalMax.length = n ∧
      (∀ b, s'.total.getD b 0 = s.total.getD b 0 + (signals.map (fun e => e.2.getD b 0)).sum) ∧
      (∀ b, s'.totalMax.getD b 0 = s.totalMax.getD b 0 + (maxima.map (fun e => e.2.getD b 0)).sum)
  | [], s, s', _, ht, hm, _, _, h => by
    simp only [signalLoop, Except.ok.injEq] at h
    subst h
    exact ⟨[], [], by simp, by simp, ⟨.nil, rfl⟩, ht, hm, by simp, by simp⟩
  | (k, r) :: rs, s, s', hs, ht, hm, hn, hk, h => by
    simp only [signalLoop, hs] at h
    split at h
    · cases h
    rename_i m sig he
    obtain ⟨l1, l2⟩ := elementSignal_length pi ch wl qe' r n hb m sig he
    have hself : qe'.spectralRebin wl = .ok qe' := by
      have := Rebin.spectralRebin_self qe' (by rw [hq]; exact hq') (by rw [hq]; exact hx) (by rw [hq]; exact hpos) (by rw [hq]; exact hl)
      rwa [hq] at this
    have hnk : k ∉ s.maxima.keys := by
      intro hm
      have := (List.nodup_append.mp hn).2.2 k hm k (by simp)
      exact this rfl
    have hnk' : k ++ " signal" ∉ s.signals.keys := by
      rw [hk]
      intro hm
      obtain ⟨a, ha, e⟩ := List.mem_map.mp hm
      exact hnk (append_signal_inj e ▸ ha)
    rw [set_new _ _ _ hnk, set_new _ _ _ hnk'] at h
    obtain ⟨signals, maxima, e1, e2, e3, e4, e5, e6, e7⟩ := signalLoop_spec pi ch wl n hb hx hpos qe' hq hq' hl rs _ s' (by exact hself)
      (by simp [addCol, ht, l2]) (by simp [addCol, hm, l1])
      (by simpa [Dict.keys, List.append_assoc] using hn) (by simp [hk]) h
    refine ⟨(k ++ " signal", sig) :: signals, (k, m) :: maxima, by simp [e1], by simp [e2], ⟨.cons ⟨rfl, rfl, he⟩ e3.1, by simp [e3.2]⟩, e4, e5, ?_, ?_⟩
    · intro b
      rw [e6 b, getD_addCol _ _ (by rw [ht, l2])]
      simp [add_assoc]
    · intro b
      rw [e7 b, getD_addCol _ _ (by rw [hm, l1])]
      simp [add_assoc]

theorem spectralRebin_two (s s' : Rebin.Signal α) (new : List α) (h : s.spectralRebin new = .ok s') : 2 ≤ new.length := by
  unfold Rebin.Signal.spectralRebin at h
  split at h
  · cases h
  rename_i x' f hr
  obtain ⟨lo, hi, pts', _, _, _, hx, hres⟩ := Rebin.rebin_ok new x' _ f hr
  unfold Rebin.dedupGrid at hx
  split at hx
  · cases hx
  rename_i l hl
  simpa using Rebin.dedup_length _ _ _ hl

theorem contributions_keys (pi : α) (ch : Channel α) (wl : List α) (qe' : Rebin.Signal α) (rads : Dict String (Rad α))
    (z : List ((String × List α) × (String × List α)))
    (h : List.Forall₂ (fun r e => e.1.1 = r.1 ++ " signal" ∧ e.2.1 = r.1 ∧ elementSignal pi ch wl qe' r.2 = .ok (e.2.2, e.1.2)) rads z) :
    Dict.keys (z.map Prod.fst) = rads.keys.map (· ++ " signal") ∧ Dict.keys (z.map Prod.snd) = rads.keys := by
  induction h with
  | nil => exact ⟨rfl, rfl⟩
  | cons a _ ih => simp only [List.map_cons, Dict.keys_cons, a.1, a.2.1, ih.1, ih.2, and_self]

/-- C33: `instrument_signal` is in every bin the sum of the '<element> signal' columns, one per element that
emits, in the order of the path, `instrument_MaxSignal_inPixel` the sum of the maxima; each is computed with the
quantum efficiency rebinned once on the grid of the path. -/
theorem compute_signal (pi : α) (ch : Channel α) (wl : List α) (qe : Rebin.Signal α) (n : Nat) (rads : Dict String (Rad α))
    (s : SigState α) (hb : Bins ch n) (hx : wl.Pairwise (· < ·)) (hpos : ∀ w ∈ wl, 0 < w) (hn : rads.keys.Nodup)
    (h : computeSignal pi ch wl qe n rads = .ok s) :
    s.signals.keys = rads.keys.map (· ++ " signal") ∧ s.maxima.keys = rads.keys ∧
    (∀ k r, (k, r) ∈ rads → ∃ qe' m sig, qe.spectralRebin wl = .ok qe' ∧ elementSignal pi ch wl qe' r = .ok (m, sig) ∧
      s.signals.get? (k ++ " signal") = some sig ∧ s.maxima.get? k = some m) ∧
    s.total.length = n ∧ s.totalMax.length = n ∧
    (∀ b, s.total.getD b 0 = (s.signals.map (fun e => e.2.getD b 0)).sum) ∧
    (∀ b, s.totalMax.getD b 0 = (s.maxima.map (fun e => e.2.getD b 0)).sum) := by
  have hrep : ∀ b, (List.replicate n (0 : α)).getD b 0 = 0 := by
    intro b
    rw [List.getD_eq_getElem?_getD, List.getElem?_replicate]
    split <;> rfl
  cases rads with
  | nil =>
    simp only [computeSignal, signalLoop, Except.ok.injEq] at h
    subst h
    refine ⟨rfl, rfl, by simp, by simp, by simp, ?_, ?_⟩ <;> intro b <;> simpa using hrep b
  | cons p rs =>
    obtain ⟨k0, r0⟩ := p
    cases hq : qe.spectralRebin wl with
    | error e => simp [computeSignal, signalLoop, hq] at h
    | ok qe' =>
      have hl := spectralRebin_two _ _ _ hq
      obtain ⟨w1, w2⟩ := Rebin.spectralRebin_wellFormed qe qe' wl (fun hm => lt_irrefl _ (Rebin.diffs_pos wl hx 0 hm)) hq
      obtain ⟨signals, maxima, e1, e2, e3, e4, e5, e6, e7⟩ := signalLoop_spec pi ch wl n hb hx hpos qe' w2
        (by rw [← w2]; exact w1) hl ((k0, r0) :: rs) _ s hq (by simp) (by simp) (by simpa using hn) (by simp) h
      simp only [List.nil_append] at e1 e2
      subst e1 e2
      obtain ⟨c1, c2⟩ := e3
      generalize hz : s.signals.zip s.maxima = z at c1
      have hs : s.signals = z.map Prod.fst := by
        rw [← hz, List.map_fst_zip (by omega)]
      have hm : s.maxima = z.map Prod.snd := by
        rw [← hz, List.map_snd_zip (by omega)]
      have hk1 : s.signals.keys = (Dict.keys (ν := Rad α) ((k0, r0) :: rs)).map (· ++ " signal") := by
        rw [hs]; exact (contributions_keys pi ch wl qe' _ z c1).1
      have hk2 : s.maxima.keys = Dict.keys (ν := Rad α) ((k0, r0) :: rs) := by
        rw [hm]; exact (contributions_keys pi ch wl qe' _ z c1).2
      refine ⟨hk1, hk2, ?_, e4, e5, ?_, ?_⟩
      · intro k r hmem
        obtain ⟨i, hi, hie⟩ := List.mem_iff_getElem.mp hmem
        have hiz : i < z.length := by rw [← c1.length_eq]; exact hi
        have hh := List.Forall₂.get c1 hi hiz
        simp only [List.get_eq_getElem, hie] at hh
        refine ⟨qe', z[i].2.2, z[i].1.2, rfl, hh.2.2, ?_, ?_⟩
        · apply Dict.get?_of_mem
          · rw [hk1]; exact hn.map (fun a b e => append_signal_inj e)
          · rw [hs, ← hh.1]
            exact List.mem_map.mpr ⟨z[i], List.getElem_mem hiz, rfl⟩
        · apply Dict.get?_of_mem
          · rw [hk2]; exact hn
          · rw [hm, ← hh.2.1]
            exact List.mem_map.mpr ⟨z[i], List.getElem_mem hiz, rfl⟩
      · intro b; rw [e6 b, hrep b, zero_add]
      · intro b; rw [e7 b, hrep b, zero_add]

theorem signalLoop_ok (pi : α) (ch : Channel α) (wl : List α) (qe' : Rebin.Signal α) (hself : qe'.spectralRebin wl = .ok qe') :
    ∀ (rads : Dict String (Rad α)) (s : SigState α), s.qe.spectralRebin wl = .ok qe' →
    (∀ p ∈ rads, ∃ x, elementSignal pi ch wl qe' p.2 = .ok x) → ∃ s', signalLoop pi ch wl rads s = .ok s'
  | [], s, _, _ => ⟨s, rfl⟩
  | (k, r) :: rs, s, hs, h => by
    obtain ⟨⟨m, sig⟩, he⟩ := h (k, r) (by simp)
    simp only [signalLoop, hs, he]
    exact signalLoop_ok pi ch wl qe' hself rs _ hself (fun p hp => h p (List.mem_cons_of_mem _ hp))

/-- C33: the order of the elements does not matter for the totals (nor whether the computation succeeds). -/
theorem compute_signal_perm (pi : α) (ch : Channel α) (wl : List α) (qe : Rebin.Signal α) (n : Nat) (rads rads' : Dict String (Rad α))
    (s : SigState α) (hb : Bins ch n) (hx : wl.Pairwise (· < ·)) (hpos : ∀ w ∈ wl, 0 < w) (hn : rads.keys.Nodup)
    (hp : rads.Perm rads') (h : computeSignal pi ch wl qe n rads = .ok s) :
    ∃ s', computeSignal pi ch wl qe n rads' = .ok s' ∧ s'.total = s.total ∧ s'.totalMax = s.totalMax := by
  obtain ⟨k1, k2, hall, l1, l2, t1, t2⟩ := compute_signal pi ch wl qe n rads s hb hx hpos hn h
  have hn' : rads'.keys.Nodup := (hp.map Prod.fst).nodup_iff.mp hn
  obtain ⟨s', h'⟩ : ∃ s', computeSignal pi ch wl qe n rads' = .ok s' := by
    cases hr : rads' with
    | nil => exact ⟨_, rfl⟩
    | cons p rs =>
      have hmem : p ∈ rads := hp.mem_iff.mpr (by rw [hr]; simp)
      obtain ⟨qe', _, _, hq, _⟩ := hall p.1 p.2 hmem
      obtain ⟨w1, w2⟩ := Rebin.spectralRebin_wellFormed qe qe' wl (fun hm => lt_irrefl _ (Rebin.diffs_pos wl hx 0 hm)) hq
      have hl := spectralRebin_two _ _ _ hq
      have hself : qe'.spectralRebin wl = .ok qe' := by
        have := Rebin.spectralRebin_self qe' w1 (by rw [w2]; exact hx) (by rw [w2]; exact hpos) (by rw [w2]; exact hl)
        rwa [w2] at this
      apply signalLoop_ok pi ch wl qe' hself _ _ hq
      intro q hqm
      obtain ⟨qe2, m, sig, hq2, he, _⟩ := hall q.1 q.2 (hp.mem_iff.mpr (by rw [hr]; exact hqm))
      rw [hq] at hq2
      cases hq2
      exact ⟨_, he⟩
  obtain ⟨k1', k2', hall', l1', l2', t1', t2'⟩ := compute_signal pi ch wl qe n rads' s' hb hx hpos hn' h'
  have hsig : s'.signals.Perm s.signals := by
    apply (List.perm_ext_iff_of_nodup _ _).mpr
    · have key : ∀ (R R' : Dict String (Rad α)) (S S' : SigState α), R.keys.Nodup → R.Perm R' → S.signals.keys = R.keys.map (· ++ " signal") →
          S'.signals.keys = R'.keys.map (· ++ " signal") →
          (∀ k r, (k, r) ∈ R → ∃ qe' m sig, qe.spectralRebin wl = .ok qe' ∧ elementSignal pi ch wl qe' r = .ok (m, sig) ∧
            S.signals.get? (k ++ " signal") = some sig ∧ S.maxima.get? k = some m) →
          (∀ k r, (k, r) ∈ R' → ∃ qe' m sig, qe.spectralRebin wl = .ok qe' ∧ elementSignal pi ch wl qe' r = .ok (m, sig) ∧
            S'.signals.get? (k ++ " signal") = some sig ∧ S'.maxima.get? k = some m) → ∀ e ∈ S.signals, e ∈ S'.signals := by
        intro R R' S S' hN hP hK hK' hA hA' e he
        have hek : e.1 ∈ S.signals.keys := List.mem_map.mpr ⟨e, he, rfl⟩
        rw [hK] at hek
        obtain ⟨k, hk, hke⟩ := List.mem_map.mp hek
        obtain ⟨r, hr⟩ := Dict.exists_get? hk
        have hmem := Dict.mem_of_get? hr
        obtain ⟨q1, m1, s1, a1, a2, a3, _⟩ := hA k r hmem
        obtain ⟨q2, m2, s2, b1, b2, b3, _⟩ := hA' k r (hP.mem_iff.mp hmem)
        rw [a1] at b1; cases b1
        rw [a2] at b2; cases b2
        have hSn : S.signals.keys.Nodup := by rw [hK]; exact hN.map (fun a b e => append_signal_inj e)
        have : S.signals.get? e.1 = some e.2 := Dict.get?_of_mem hSn he
        rw [← hke, a3] at this
        cases this
        have := Dict.mem_of_get? b3
        rwa [hke] at this
      exact fun e => ⟨key rads' rads s' s hn' hp.symm k1' k1 hall' hall e, key rads rads' s s' hn hp k1 k1' hall hall' e⟩
    · apply List.Nodup.of_map Prod.fst
      change s'.signals.keys.Nodup
      rw [k1']; exact hn'.map (fun a b e => append_signal_inj e)
    · apply List.Nodup.of_map Prod.fst
      change s.signals.keys.Nodup
      rw [k1]; exact hn.map (fun a b e => append_signal_inj e)
  have hmax : s'.maxima.Perm s.maxima := by
    apply (List.perm_ext_iff_of_nodup _ _).mpr
    · have key : ∀ (R R' : Dict String (Rad α)) (S S' : SigState α), R.keys.Nodup → R.Perm R' → S.maxima.keys = R.keys →
          (∀ k r, (k, r) ∈ R → ∃ qe' m sig, qe.spectralRebin wl = .ok qe' ∧ elementSignal pi ch wl qe' r = .ok (m, sig) ∧
            S.signals.get? (k ++ " signal") = some sig ∧ S.maxima.get? k = some m) →
          (∀ k r, (k, r) ∈ R' → ∃ qe' m sig, qe.spectralRebin wl = .ok qe' ∧ elementSignal pi ch wl qe' r = .ok (m, sig) ∧
            S'.signals.get? (k ++ " signal") = some sig ∧ S'.maxima.get? k = some m) → ∀ e ∈ S.maxima, e ∈ S'.maxima := by
        intro R R' S S' hN hP hK hA hA' e he
        have hek : e.1 ∈ S.maxima.keys := List.mem_map.mpr ⟨e, he, rfl⟩
        rw [hK] at hek
        obtain ⟨r, hr⟩ := Dict.exists_get? hek
        have hmem := Dict.mem_of_get? hr
        obtain ⟨q1, m1, s1, a1, a2, _, a3⟩ := hA e.1 r hmem
        obtain ⟨q2, m2, s2, b1, b2, _, b3⟩ := hA' e.1 r (hP.mem_iff.mp hmem)
        rw [a1] at b1; cases b1
        rw [a2] at b2; cases b2
        have hSn : S.maxima.keys.Nodup := by rw [hK]; exact hN
        have : S.maxima.get? e.1 = some e.2 := Dict.get?_of_mem hSn he
        rw [a3] at this
        cases this
        exact Dict.mem_of_get? b3
      exact fun e => ⟨key rads' rads s' s hn' hp.symm k2' hall' hall e, key rads rads' s s' hn hp k2 hall hall' e⟩
    · apply List.Nodup.of_map Prod.fst
      change s'.maxima.keys.Nodup
      rw [k2']; exact hn'
    · apply List.Nodup.of_map Prod.fst
      change s.maxima.keys.Nodup
      rw [k2]; exact hn
  refine ⟨s', h', ?_, ?_⟩
  · apply ext_getD (by rw [l1, l1'])
    intro b _
    rw [t1 b, t1' b]
    exact (hsig.map _).sum_eq
  · apply ext_getD (by rw [l2, l2'])
    intro b _
    rw [t2 b, t2' b]
    exact (hmax.map _).sum_eq

/-! ## C34 -/

/-- C34 (without slit, or in a channel without slit): the light per pixel is the band integral of the radiance
that reaches the detector, weighted by pixel area, quantum efficiency and photon energy, times the solid angle
of the position; the signal is that times the window. -/
theorem solid_angle_partial (pi : α) (ch : Channel α) (wl : List α) (qe : Rebin.Signal α) (r : Rad α)
    (hs : r.slit = false ∨ ch.slitWidth = none) :
    ∃ I, I = trapz wl (List.zipWith (· * ·) r.data (List.zipWith (fun q w => ch.area * q * (w * ch.perPhoton)) qe.data qe.wl)) ∧
    (r.position = .detector → elementSignal pi ch wl qe r =
      .ok (ch.windowSize.map (fun _ => pi * I), ch.windowSize.map (fun w => pi * I * w))) ∧
    (r.position = .opticsBox → elementSignal pi ch wl qe r =
      .ok (ch.windowSize.map (fun _ => (pi - ch.omega) * I), ch.windowSize.map (fun w => (pi - ch.omega) * I * w))) ∧
    (r.position = .path → elementSignal pi ch wl qe r =
      .ok (ch.windowSize.map (fun _ => ch.omega * I), ch.windowSize.map (fun w => ch.omega * I * w))) := by
  refine ⟨_, rfl, ?_⟩
  have hgen : elementSignal pi ch wl qe r = .ok (integrateLight ch ⟨wl, (mulCol r.data (List.zipWith (fun q w => ch.area * q * (w * ch.perPhoton)) qe.data qe.wl)).map (fun v => v * solidAngle pi ch.omega r.position)⟩) := by
    unfold elementSignal
    split
    · rename_i h1 h2; rcases hs with h | h
      · rw [h] at h1; cases h1
      · rw [h] at h2; cases h2
    · rfl
  have hscale : ∀ (c : α) (x f : List α), trapz x (f.map (fun v => v * c)) = c * trapz x f := by
    intro c x f
    have := trapz_linear c 0 x f f rfl
    simp only [zero_mul, add_zero] at this
    rw [← this]
    congr 1
    rw [linCol, List.zipWith_self]
    exact List.map_congr_left (fun v _ => by simp [mul_comm])
  rw [hgen]
  simp only [integrateLight, hscale]
  refine ⟨fun h => ?_, fun h => ?_, fun h => ?_⟩ <;> rw [h] <;> rfl

/-- C34 fails: a custom solid angle declared for an element has no effect at all. -/
theorem custom_angle_ignored (B : α → α → α) (wl : List α) (f : Element α → Option α) (els : Dict String (Element α))
    (rads : Dict String (Rad α)) (w : Option α) :
    chain B wl (els.map (fun p => (p.1, { p.2 with angle := f p.2 }))) rads w = chain B wl els rads w := by
  have hp : ∀ (els : Dict String (Element α)) (r : Rad α) (w : Option α),
      passThrough (els.map (fun p => (p.1, { p.2 with angle := f p.2 }))) r w = passThrough els r w := by
    intro els
    induction els with
    | nil => intro r w; rfl
    | cons p els ih =>
      intro r w
      simp only [List.map_cons, passThrough, ih]
  induction els generalizing rads w with
  | nil => rfl
  | cons p els ih =>
    simp only [List.map_cons, chain, ih, hp]

/-- C34 fails: behind a slit the position of an element plays no role, so an optics box (or detector box) in
front of a slit is collected over the pixel solid angle. -/
theorem slit_position_ignored (pi : α) (ch : Channel α) (wl : List α) (qe : Rebin.Signal α) (r : Rad α) (p : Position) (w : α)
    (hs : r.slit = true) (hw : ch.slitWidth = some w) :
    elementSignal pi ch wl qe { r with position := p } = elementSignal pi ch wl qe r := by
  unfold elementSignal
  simp only [hs, hw]

end Signal

/-! ## Witnesses -/

/-- A mirror at 100 K, a cold slit and a detector box at 50 K. -/
def demoOptics : Dict String (Descr ℚ) :=
  [("M1", { value := "M1", type := "surface", reflectivity := some (1/2), emissivity := some (1/10), temperature := some 100 }),
   ("filter", { value := "filter", type := "surface", transmission := some (4/5), wlMin := some 2 }),
   ("box", { value := "box", type := "detector box", temperature := some 50 })]

def demoCh : Channel ℚ :=
  { wlPix := [1, 2, 3], dwlPix := [1, 1, 1], slitWidth := none, deltaPix := 1, spatialWidth := [1, 1], windowSize := [2, 3],
    left := [0, 2], right := [2, 4], area := 1, omega := 1/4, perPhoton := 1 }

/-- Build the elements, the path, and compute the signal; everything observable of the result, labelled. -/
def demoRun : List (String × List ℚ) :=
  match prepareElements [1, 2, 3] (.many demoOptics) with
  | .error _ => []
  | .ok els =>
    match chain (fun w T => T * w) [1, 2, 3] els [] none with
    | .error _ => []
    | .ok (rads, _) =>
      match computeSignal 3 demoCh [1, 2, 3] ⟨[1, 2, 3], [1, 1, 1]⟩ 2 rads with
      | .error _ => []
      | .ok s => transmissionTable [1, 2, 3] els ++ rads.map (fun p => (p.1, p.2.data)) ++ s.signals ++
          [("instrument_signal", s.total), ("instrument_MaxSignal_inPixel", s.totalMax)]

/-- The hypotheses of the theorems above hold of a concrete instrument, with a non-trivial result. -/
theorem demo_optics : demoRun =
    [("Wavelength", [1, 2, 3]), ("M1", [1/2, 1/2, 1/2]), ("filter", [0, 4/5, 4/5]), ("box", [1, 1, 1]), ("total", [0, 2/5, 2/5]),
      ("M1", [0, 16, 24]), ("box", [50, 100, 150]), ("M1 signal", [34, 51]), ("box signal", [2700, 4050]),
      ("instrument_signal", [2734, 4101]), ("instrument_MaxSignal_inPixel", [1367, 1367])] := by
  decide +kernel

end ExoRad.Optics
