import Verif.Props.Optics
import Verif.Props.NonNeg

/-!
# The instrument's own emission is never negative: C73
-/

set_option linter.unusedSectionVars false

namespace ExoRad.Light
open Diffuse Optics

variable {α : Type} [Field α] [LinearOrder α] [IsStrictOrderedRing α]

/-! ## Specification -/

/-- Optical elements of a real instrument: no transmission and no emissivity is negative. -/
def GoodElements (els : Dict String (Element α)) : Prop := ∀ q ∈ els, All0 q.2.transmission ∧ All0 q.2.emissivity

/-- The black body at the temperature of every element is not negative on the grid. -/
def Warm (B : α → α → α) (wl : List α) (els : Dict String (Element α)) : Prop :=
  ∀ q ∈ els, ∀ T, q.2.temperature = some T → ∀ w ∈ wl, 0 ≤ B w T

/-- Radiances that are not negative. -/
def GoodRads (rads : Dict String (Rad α)) : Prop := ∀ q ∈ rads, All0 q.2.data

/-! ## The light in the path -/

theorem mem_set {β : Type} {d : Dict String β} {k : String} {v : β} {q : String × β} (h : q ∈ d.set k v) : q ∈ d ∨ q.2 = v := by
  induction d with
  | nil => simp [Dict.set] at h; exact .inr (by rw [h])
  | cons a d ih =>
    obtain ⟨a1, a2⟩ := a
    unfold Dict.set at h
    split at h
    · rcases List.mem_cons.mp h with h | h
      · exact .inr (by rw [h])
      · exact .inl (List.mem_cons_of_mem _ h)
    · rcases List.mem_cons.mp h with h | h
      · exact .inl (by rw [h]; simp)
      · rcases ih h with h | h
        · exact .inl (List.mem_cons_of_mem _ h)
        · exact .inr h

theorem goodRads_set {rads : Dict String (Rad α)} (h : GoodRads rads) (k : String) {r : Rad α} (hr : All0 r.data) : GoodRads (rads.set k r) := by
  intro q hq
  rcases mem_set hq with h' | h'
  · exact h q h'
  · rw [h']; exact hr

theorem passThrough_nonneg : ∀ {els : Dict String (Element α)}, GoodElements els → ∀ {r r' : Rad α} {w w' : Option α}, All0 r.data →
    passThrough els r w = .ok (r', w') → All0 r'.data
  | [], _, r, r', w, w', h0, h => by
    simp only [passThrough, Except.ok.injEq, Prod.mk.injEq] at h
    rw [← h.1]; exact h0
  | (k, el) :: els, hg, r, r', w, w', h0, h => by
    have h1 : All0 (mulCol r.data el.transmission) := all0_mulCol h0 (hg (k, el) (by simp)).1
    have hg' : GoodElements els := fun q hq => hg q (List.mem_cons_of_mem _ hq)
    unfold passThrough at h
    simp only at h
    split at h
    · split at h
      · cases h
      · exact passThrough_nonneg hg' h1 h
    · exact passThrough_nonneg hg' h1 h

theorem chain_nonneg {B : α → α → α} {wl : List α} : ∀ {els : Dict String (Element α)}, GoodElements els → Warm B wl els →
    ∀ {rads rads' : Dict String (Rad α)} {w w' : Option α}, GoodRads rads → chain B wl els rads w = .ok (rads', w') → GoodRads rads'
  | [], _, _, rads, rads', w, w', h0, h => by
    simp only [chain, Except.ok.injEq, Prod.mk.injEq] at h
    rw [← h.1]; exact h0
  | (k, el) :: els, hg, hB, rads, rads', w, w', h0, h => by
    have hg' : GoodElements els := fun q hq => hg q (List.mem_cons_of_mem _ hq)
    have hB' : Warm B wl els := fun q hq => hB q (List.mem_cons_of_mem _ hq)
    unfold chain at h
    split at h
    · exact chain_nonneg hg' hB' h0 h
    · rename_i T hT
      split at h
      · cases h
      · rename_i r w1 hp
        refine chain_nonneg hg' hB' (goodRads_set h0 _ (passThrough_nonneg hg' ?_ hp)) h
        exact all0_mulCol (hg (k, el) (by simp)).2 (all0_map (fun w hw => hB (k, el) (by simp) T hT w hw))

/-! ## What the detector counts -/

section
variable [FloorRing α]

theorem elementSignal_nonneg {pi : α} {ch : Channel α} (hg : GoodDiffuse ch) (hpi : ch.omega ≤ pi) {n : ℕ} (hb : Bins ch n) {wl : List α}
    (hx : wl.Pairwise (· ≤ ·)) {qe : Rebin.Signal α} (hq : All0 qe.data) (hwl : All0 qe.wl) {r : Rad α} (hr : All0 r.data) {m sig : List α}
    (h : elementSignal pi ch wl qe r = .ok (m, sig)) : All0 m ∧ All0 sig := by
  have hs : 0 ≤ solidAngle pi ch.omega r.position := by
    unfold solidAngle
    split
    · exact le_trans hg.omega hpi
    · exact sub_nonneg.mpr hpi
    · exact hg.omega
  unfold elementSignal at h
  split at h
  · rename_i w hw
    obtain ⟨_, _, a, b⟩ := slit_nonneg hg (n := n) ⟨hb.2.1, hb.2.2.1, hb.1, hb.2.2.2⟩ hw hq hr h
    exact ⟨a, b⟩
  · simp only [integrateLight, Except.ok.injEq, Prod.mk.injEq] at h
    obtain ⟨rfl, rfl⟩ := h
    have t0 : 0 ≤ trapz wl ((mulCol r.data (List.zipWith (fun q w => ch.area * q * (w * ch.perPhoton)) qe.data qe.wl)).map
        (fun v => v * solidAngle pi ch.omega r.position)) := by
      refine trapz_nonneg _ _ hx (all0_map (fun v hv => mul_nonneg (all0_mulCol hr ?_ v hv) hs))
      intro v hv
      obtain ⟨i, hi, rfl⟩ := List.mem_iff_getElem.mp hv
      simp only [List.getElem_zipWith]
      exact mul_nonneg (mul_nonneg hg.area (hq _ (List.getElem_mem _))) (mul_nonneg (hwl _ (List.getElem_mem _)) hg.perPhoton)
    exact ⟨all0_map (fun _ _ => t0), all0_map (fun w hw => mul_nonneg t0 (hg.windowSize w hw))⟩

/-- C73: the signals of the elements of an optical path, their maxima and the two totals of the channel are never negative. The
pixel sees at most the solid angle of a half sphere (`omega ≤ pi`). -/
theorem emission_nonneg {pi : α} {B : α → α → α} {ch : Channel α} {wl : List α} {qe : Rebin.Signal α} {n : ℕ} {els : Dict String (Element α)}
    {rads : Dict String (Rad α)} {w : Option α} {s : SigState α} (hels : GoodElements els) (hB : Warm B wl els)
    (hg : GoodDiffuse ch) (hpi : ch.omega ≤ pi) (hb : Bins ch n) (hx : wl.Pairwise (· < ·)) (hpos : ∀ x ∈ wl, 0 < x) (hq : All0 qe.data)
    (hn : (emitting els).Nodup) (hc : chain B wl els [] none = .ok (rads, w)) (h : computeSignal pi ch wl qe n rads = .ok s) :
    s.signals.keys = (emitting els).map (· ++ " signal") ∧
    (∀ q ∈ s.signals, q.2.length = n ∧ All0 q.2) ∧ (∀ q ∈ s.maxima, q.2.length = n ∧ All0 q.2) ∧
    (s.total.length = n ∧ All0 s.total) ∧ (s.totalMax.length = n ∧ All0 s.totalMax) ∧
    ∀ b, s.total.getD b 0 = (s.signals.map (fun e => e.2.getD b 0)).sum := by
  have hk := chain_names B wl els rads w hc hn
  have hr0 : GoodRads rads := chain_nonneg hels hB (fun q hq => by cases hq) hc
  have hn' : rads.keys.Nodup := hk ▸ hn
  obtain ⟨k1, k2, hall, l1, l2, t1, t2⟩ := compute_signal pi ch wl qe n rads s hb hx hpos hn' h
  have one : ∀ k r, (k, r) ∈ rads → ∃ m sig, s.signals.get? (k ++ " signal") = some sig ∧ s.maxima.get? k = some m ∧
      m.length = n ∧ sig.length = n ∧ All0 m ∧ All0 sig := by
    intro k r hm
    obtain ⟨qe', m, sig, e1, e2, e3, e4⟩ := hall k r hm
    obtain ⟨_, w2⟩ := Rebin.spectralRebin_wellFormed qe qe' wl (fun hm => lt_irrefl _ (Rebin.diffs_pos wl hx 0 hm)) e1
    obtain ⟨a1, a2⟩ := elementSignal_length pi ch wl qe' r n hb m sig e2
    obtain ⟨b1, b2⟩ := elementSignal_nonneg hg hpi hb (hx.imp le_of_lt) (rebin_nonneg e1 hq)
      (by rw [w2]; exact fun x hx => le_of_lt (hpos x hx)) (hr0 _ hm) e2
    exact ⟨m, sig, e3, e4, a1, a2, b1, b2⟩
  have hsig : ∀ q ∈ s.signals, q.2.length = n ∧ All0 q.2 := by
    intro q hqm
    have hkn : s.signals.keys.Nodup := by
      rw [k1]
      exact hn'.map (fun a b e => append_signal_inj e)
    have : q.1 ∈ s.signals.keys := List.mem_map.mpr ⟨q, hqm, rfl⟩
    rw [k1] at this
    obtain ⟨k, hk', e⟩ := List.mem_map.mp this
    obtain ⟨p, hp, rfl⟩ := List.mem_map.mp hk'
    obtain ⟨m, sig, e3, _, _, a2, _, b2⟩ := one p.1 p.2 hp
    have hg' := Dict.get?_of_mem hkn (show (q.1, q.2) ∈ s.signals from hqm)
    rw [← e, e3] at hg'
    cases hg'
    exact ⟨a2, b2⟩
  have hmax : ∀ q ∈ s.maxima, q.2.length = n ∧ All0 q.2 := by
    intro q hqm
    have hkn : s.maxima.keys.Nodup := by rw [k2]; exact hn'
    have : q.1 ∈ s.maxima.keys := List.mem_map.mpr ⟨q, hqm, rfl⟩
    rw [k2] at this
    obtain ⟨p, hp, e⟩ := List.mem_map.mp this
    obtain ⟨m, sig, _, e4, a1, _, b1, _⟩ := one p.1 p.2 hp
    have hg' := Dict.get?_of_mem hkn (show (q.1, q.2) ∈ s.maxima from hqm)
    rw [← e, e4] at hg'
    cases hg'
    exact ⟨a1, b1⟩
  have hget : ∀ {l : List α}, All0 l → ∀ b, 0 ≤ l.getD b 0 := by
    intro l hl b
    rw [List.getD_eq_getElem?_getD]
    cases hb : l[b]? with
    | none => simp
    | some v => exact hl v (List.mem_of_getElem? hb)
  have tot : ∀ {d : Dict String (List α)} {l : List α}, (∀ q ∈ d, q.2.length = n ∧ All0 q.2) →
      (∀ b, l.getD b 0 = (d.map (fun e => e.2.getD b 0)).sum) → All0 l := by
    intro d l hd hl v hv
    obtain ⟨i, hi, rfl⟩ := List.mem_iff_getElem.mp hv
    have : l[i] = l.getD i 0 := by simp [List.getD, hi]
    rw [this, hl i]
    refine List.sum_nonneg ?_
    intro x hx
    obtain ⟨q, hqm, rfl⟩ := List.mem_map.mp hx
    exact hget (hd q hqm).2 i
  exact ⟨by rw [k1, hk], hsig, hmax, ⟨l1, tot hsig t1⟩, ⟨l2, tot hmax t2⟩, t1⟩

end
end ExoRad.Light
