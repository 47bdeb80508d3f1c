import Verif.Props.Positive
import Verif.Props.ObserveOk

/-!
# Which channels get light from a star: C103
-/

set_option linter.unusedSectionVars false

namespace ExoRad.Light
open Instrument Diffuse

/-! ## Specification -/

/-- Positive from `L` to `U`, with samples on both sides of `t`. -/
structure Shines (s : Rebin.Signal ℝ) (L t U : ℝ) : Prop where
  pos : ∀ p ∈ s.wl.zip s.data, L ≤ p.1 → p.1 ≤ U → 0 < p.2
  left : ∃ x ∈ s.wl, L ≤ x ∧ x ≤ t
  right : ∃ y ∈ s.wl, t ≤ y ∧ y ≤ U

/-- A spectrum as an array should be: as many values as wavelengths, wavelengths in increasing order. -/
structure Sorted (s : Rebin.Signal ℝ) : Prop where
  len : s.data.length = s.wl.length
  sorted : s.wl.Pairwise (· < ·)

/-- There is a positive number at this place. -/
def PosAt (l : List ℝ) (i : ℕ) : Prop := ∃ v, l[i]? = some v ∧ 0 < v

/-- Around the point `i` of the grid the efficiencies of a channel are positive, from `L` to `U`, which reach beyond its neighbours; the point is in the band if the
edges of the channel are forced. -/
structure SeesAt (ch : Chan ℝ) (g : List ℝ) (L U : ℝ) (i : ℕ) : Prop where
  first : 0 < i
  last : i + 1 < g.length
  low : ∀ x, g[i - 1]? = some x → L ≤ x
  high : ∀ x, g[i + 1]? = some x → x ≤ U
  qe : ∀ x, g[i]? = some x → Shines ch.qe L x U
  tr : ∀ x, g[i]? = some x → Shines ch.tr L x U
  band : ch.force = some true → ∀ x, g[i]? = some x → ch.wlMin ≤ x ∧ x ≤ ch.wlMax

/-! ## Lemmas -/

theorem PosAt.mul {a b : List ℝ} {i : ℕ} (ha : PosAt a i) (hb : PosAt b i) : PosAt (mulCol a b) i := by
  obtain ⟨v, h1, h2⟩ := ha
  obtain ⟨w, h3, h4⟩ := hb
  exact ⟨v * w, by simp [mulCol, List.getElem?_zipWith, h1, h3], mul_pos h2 h4⟩

theorem PosAt.map {a : List ℝ} {i : ℕ} {c : ℝ} (hc : 0 < c) (ha : PosAt a i) : PosAt (a.map (fun v => c * v)) i := by
  obtain ⟨v, h1, h2⟩ := ha
  exact ⟨c * v, by simp [h1], mul_pos hc h2⟩

theorem PosAt.zeroOut {lo hi : ℝ} {wl d : List ℝ} {i : ℕ} {x : ℝ} (hx : wl[i]? = some x) (h1 : lo ≤ x) (h2 : x ≤ hi) (hd : PosAt d i) :
    PosAt (zeroOut lo hi wl d) i := by
  obtain ⟨v, e, hv⟩ := hd
  refine ⟨v, ?_, hv⟩
  simp [Instrument.zeroOut, List.getElem?_zipWith, hx, e, outOfBand, not_lt.mpr h1, not_lt.mpr h2]

theorem zip_sorted {s : Rebin.Signal ℝ} (h : Sorted s) : (s.wl.zip s.data).Pairwise (fun p q => p.1 < q.1) := by
  have := h.sorted
  rw [← Rebin.zip_map_fst s.wl s.data h.len] at this
  exact List.pairwise_map.mp this

theorem mem_zip_of_mem {s : Rebin.Signal ℝ} (h : s.data.length = s.wl.length) {x : ℝ} (hx : x ∈ s.wl) : ∃ v, (x, v) ∈ s.wl.zip s.data := by
  obtain ⟨i, hi, rfl⟩ := List.mem_iff_getElem.mp hx
  exact ⟨s.data[i]'(by omega), List.mem_iff_getElem.mpr ⟨i, by simp; omega, by simp⟩⟩

theorem mem_kept {x : List ℝ} {pts : List (ℝ × ℝ)} {p : ℝ × ℝ} : p ∈ Rebin.kept x pts ↔ p ∈ pts ∧ (∃ y ∈ x, 9 / 10 * y < p.1) ∧ ∃ y ∈ x, p.1 < 11 / 10 * y := by
  simp [Rebin.kept]

/-- A shining spectrum shines at the inner points of a grid it is rebinned to. -/
theorem Shines.rebin {g : List ℝ} (hg : g.Pairwise (· < ·)) {s r : Rebin.Signal ℝ} (hs : Sorted s) (h : s.spectralRebin g = .ok r) {L U : ℝ}
    (hL : ∃ y ∈ g, 9 / 10 * y < L) (hU : ∃ y ∈ g, U < 11 / 10 * y) {i : ℕ} (h0 : 0 < i) (h1 : i + 1 < g.length) (hl : ∀ x, g[i - 1]? = some x → L ≤ x)
    (hh : ∀ x, g[i + 1]? = some x → x ≤ U) (hb : ∀ x, g[i]? = some x → Shines s L x U) : PosAt r.data i := by
  unfold Rebin.Signal.spectralRebin at h
  cases hr : Rebin.rebin g (s.wl.zip s.data) with
  | error e => simp [hr] at h
  | ok f =>
    obtain ⟨x', f⟩ := f
    simp only [hr, Except.ok.injEq] at h
    have hsh := hb _ (List.getElem?_eq_getElem (by omega : i < g.length))
    have keep : ∀ p ∈ s.wl.zip s.data, L ≤ p.1 → p.1 ≤ U → p ∈ Rebin.kept g (s.wl.zip s.data) := by
      intro p hp h1 h2
      obtain ⟨y, hy, hy2⟩ := hL
      obtain ⟨z, hz, hz2⟩ := hU
      exact mem_kept.mpr ⟨hp, ⟨y, hy, hy2.trans_le h1⟩, ⟨z, hz, h2.trans_lt hz2⟩⟩
    obtain ⟨a, ha, a1, a2⟩ := hsh.left
    obtain ⟨b, hb, b1, b2⟩ := hsh.right
    obtain ⟨av, hav⟩ := mem_zip_of_mem hs.len ha
    obtain ⟨bv, hbv⟩ := mem_zip_of_mem hs.len hb
    obtain ⟨v, hv, hv0⟩ := Rebin.rebin_pos hg (zip_sorted hs) hr h0 h1 (hl _ (List.getElem?_eq_getElem (by omega : i - 1 < g.length)))
      (hh _ (List.getElem?_eq_getElem h1)) (fun p hp => hsh.pos p (mem_kept.mp hp).1)
      ⟨_, keep _ hav a1 (a2.trans (b1.trans b2)), a1, a2⟩ ⟨_, keep _ hbv (a1.trans (a2.trans b1)) b2, b1, b2⟩
    rw [← h]
    exact ⟨v, by simp [hv], hv0⟩

/-- The same for a decreasing grid: any point. -/
theorem Shines.rebin_falling {g : List ℝ} (hg : g.Pairwise (fun a b => b < a)) {s r : Rebin.Signal ℝ} (hs : Sorted s) (h : s.spectralRebin g = .ok r) {L U : ℝ}
    (hL : ∃ y ∈ g, 9 / 10 * y < L) (hU : ∃ y ∈ g, U < 11 / 10 * y) {i : ℕ} {x : ℝ} (hx : g[i]? = some x) (hsh : Shines s L x U) : PosAt r.data i := by
  unfold Rebin.Signal.spectralRebin at h
  cases hr : Rebin.rebin g (s.wl.zip s.data) with
  | error e => simp [hr] at h
  | ok f =>
    obtain ⟨x', f⟩ := f
    simp only [hr, Except.ok.injEq] at h
    have keep : ∀ p ∈ s.wl.zip s.data, L ≤ p.1 → p.1 ≤ U → p ∈ Rebin.kept g (s.wl.zip s.data) := by
      intro p hp h1 h2
      obtain ⟨y, hy, hy2⟩ := hL
      obtain ⟨z, hz, hz2⟩ := hU
      exact mem_kept.mpr ⟨hp, ⟨y, hy, hy2.trans_le h1⟩, ⟨z, hz, h2.trans_lt hz2⟩⟩
    obtain ⟨a, ha, a1, a2⟩ := hsh.left
    obtain ⟨b, hb, b1, b2⟩ := hsh.right
    obtain ⟨av, hav⟩ := mem_zip_of_mem hs.len ha
    obtain ⟨bv, hbv⟩ := mem_zip_of_mem hs.len hb
    have hpos := Rebin.interp_pos (pts := Rebin.kept g (s.wl.zip s.data)) (x := x) ((zip_sorted hs).sublist List.filter_sublist)
      (fun p hp => hsh.pos p (mem_kept.mp hp).1)
      ⟨_, keep _ hav a1 (a2.trans (b1.trans b2)), a1, a2⟩ ⟨_, keep _ hbv (a1.trans (a2.trans b1)) b2, b1, b2⟩
    rw [← h, Rebin.rebin_falling hg (zip_sorted hs) hr]
    exact ⟨_, by simp [hx], hpos⟩

theorem trapz_pos : ∀ {x f : List ℝ}, x.Pairwise (· < ·) → 2 ≤ x.length → f.length = x.length → All0 f → ∀ {i : ℕ}, PosAt f i → 0 < trapz x f
  | [], _, _, h, _, _, _, _ => by simp at h
  | [_], _, _, h, _, _, _, _ => by simp at h
  | _ :: _ :: _, [], _, _, h, _, _, _ => by simp at h
  | _ :: _ :: _, [_], _, _, h, _, _, _ => by simp at h
  | x0 :: x1 :: xs, u :: v :: f, hx, _, hl, h0, i, hi => by
    obtain ⟨hx1, hx2⟩ := List.pairwise_cons.mp hx
    have hlt : x0 < x1 := hx1 x1 (by simp)
    have n1 := trapz_nonneg (x1 :: xs) (v :: f) (hx2.imp le_of_lt) (fun w hw => h0 w (by simp [hw]))
    have hu : 0 ≤ u := h0 u (by simp)
    have hv : 0 ≤ v := h0 v (by simp)
    have hd : 0 < x1 - x0 := sub_pos.mpr hlt
    have e : trapz (x0 :: x1 :: xs) (u :: v :: f) = (x1 - x0) * (u + v) / 2 + trapz (x1 :: xs) (v :: f) := by
      simp only [trapz]; ring
    rw [e]
    rcases i with _ | _ | i
    · obtain ⟨w, hw, hw0⟩ := hi
      simp at hw; subst hw
      have := mul_pos hd (by linarith : 0 < u + v)
      linarith
    · obtain ⟨w, hw, hw0⟩ := hi
      simp at hw; subst hw
      have := mul_pos hd (by linarith : 0 < u + v)
      linarith
    · have hm := mul_nonneg hd.le (add_nonneg hu hv)
      cases xs with
      | nil =>
        exfalso
        obtain ⟨w, hw, _⟩ := hi
        have : f = [] := by simpa using hl
        subst this; simp at hw
      | cons x2 xs =>
        have := trapz_pos (x := x1 :: x2 :: xs) (f := v :: f) hx2 (by simp) (by simpa using hl) (fun w hw => h0 w (by simp [hw])) (i := i + 1)
          (by obtain ⟨w, hw, hw0⟩ := hi; exact ⟨w, by simpa using hw, hw0⟩)
        linarith

theorem efficiency_lengths {a b : ℝ} {g : List ℝ} (hg : Build.IsGrid a b g) {ch : Chan ℝ} {sky : Option (Rebin.Signal ℝ)} {old : Option (List (Option ℝ))} {eff : Efficiency ℝ}
    (h : getEfficiency ch g sky old = .ok eff) : eff.qe.length = g.length ∧ eff.tr.length = g.length := by
  unfold getEfficiency at h
  cases e1 : ch.qe.spectralRebin g with
  | error e => simp [e1] at h
  | ok q =>
    cases e2 : ch.tr.spectralRebin g with
    | error e => simp [e1, e2] at h
    | ok t =>
      simp only [e1, e2] at h
      obtain ⟨q1, q2⟩ := Rebin.spectralRebin_wellFormed _ _ _ hg.nz e1
      obtain ⟨t1, t2⟩ := Rebin.spectralRebin_wellFormed _ _ _ hg.nz e2
      have q3 : q.data.length = g.length := by rw [q1, q2]
      have t3 : t.data.length = g.length := by rw [t1, t2]
      cases sky with
      | none =>
        simp only [withSky, Except.ok.injEq] at h
        subst h
        exact ⟨q3, t3⟩
      | some s =>
        unfold withSky at h
        cases e3 : getTransmission ch s.wl s.data with
        | error e => simp [e3] at h
        | ok r =>
          obtain ⟨c, s'⟩ := r
          simp only [e3] at h
          cases e4 : s'.spectralRebin g with
          | error e => simp [e4] at h
          | ok s'' =>
            simp only [e4, Except.ok.injEq] at h
            subst h
            obtain ⟨u1, u2⟩ := Rebin.spectralRebin_wellFormed _ _ _ hg.nz e4
            have u3 : s''.data.length = g.length := by rw [u1, u2]
            exact ⟨q3, by simp [mulCol, t3, u3]⟩

theorem forceEdge_length {ch : Chan ℝ} {g tr tr' win : List ℝ} (h : forceEdge ch g tr = .ok (tr', win)) (hl : tr.length = g.length) : tr'.length = g.length := by
  unfold forceEdge at h
  split at h
  · cases h
  · cases h; exact hl
  · cases h; simp [Instrument.zeroOut, hl]

/-- Where a channel is efficient and the star and the sky in front of it shine, photons are detected. -/
theorem density_pos {a b : ℝ} {g : List ℝ} (hg : Build.IsGrid a b g) (hgpos : ∀ x ∈ g, 0 < x) {ch : Chan ℝ} (hpp : 0 < ch.perPhoton) (hq : Sorted ch.qe) (ht : Sorted ch.tr) {L U : ℝ}
    (hL : 9 / 10 * a < L) (hU : U < 11 / 10 * b) {i : ℕ} (hi : SeesAt ch g L U i) {sky : Option (Rebin.Signal ℝ)}
    (hsky : ∀ s, sky = some s → s.wl = g ∧ s.data.length = g.length ∧ PosAt s.data i) {sed : List ℝ} (hsed : PosAt sed i) {old : Option (List (Option ℝ))} {eff : Efficiency ℝ}
    (h : getEfficiency ch g sky old = .ok eff) {tr win : List ℝ} (hf : forceEdge ch g eff.tr = .ok (tr, win)) : PosAt (density ch g eff.qe sed tr) i := by
  have hlen := hi.last
  have hxi : g[i]? = some (g[i]'(by omega)) := List.getElem?_eq_getElem (by omega)
  unfold getEfficiency at h
  cases e1 : ch.qe.spectralRebin g with
  | error e => simp [e1] at h
  | ok q =>
    cases e2 : ch.tr.spectralRebin g with
    | error e => simp [e1, e2] at h
    | ok t =>
      simp only [e1, e2] at h
      have pq : PosAt q.data i := Shines.rebin hg.sorted hq e1 ⟨a, hg.low, hL⟩ ⟨b, hg.high, hU⟩ hi.first hi.last hi.low hi.high hi.qe
      have pt : PosAt t.data i := Shines.rebin hg.sorted ht e2 ⟨a, hg.low, hL⟩ ⟨b, hg.high, hU⟩ hi.first hi.last hi.low hi.high hi.tr
      have heff : PosAt eff.qe i ∧ PosAt eff.tr i := by
        cases hs : sky with
        | none =>
          simp only [hs, withSky, Except.ok.injEq] at h
          subst h
          exact ⟨pq, pt⟩
        | some s =>
          obtain ⟨s1, s2, s3⟩ := hsky s hs
          simp only [hs] at h
          unfold withSky at h
          cases e3 : getTransmission ch s.wl s.data with
          | error e => simp [e3] at h
          | ok r =>
            obtain ⟨c, s'⟩ := r
            simp only [e3] at h
            cases e4 : s'.spectralRebin g with
            | error e => simp [e4] at h
            | ok s'' =>
              simp only [e4, Except.ok.injEq] at h
              subst h
              refine ⟨pq, pt.mul ?_⟩
              have hs' : s'.wl = g ∧ s'.data.length = g.length ∧ PosAt s'.data i := by
                unfold getTransmission at e3
                have : Rebin.Signal.mk? s.wl s.data = .ok ⟨s.wl, s.data⟩ := (Rebin.mk?_ok _ _ _).mpr ⟨rfl, by show s.data.length = s.wl.length; rw [s1, s2]⟩
                simp only [this] at e3
                cases hfo : ch.force with
                | none => simp [hfo] at e3
                | some f =>
                  cases f with
                  | false =>
                    simp only [hfo, Except.ok.injEq, Prod.mk.injEq] at e3
                    rw [← e3.2]; exact ⟨s1, s2, s3⟩
                  | true =>
                    simp only [hfo, Except.ok.injEq, Prod.mk.injEq] at e3
                    rw [← e3.2]
                    obtain ⟨b1, b2⟩ := hi.band hfo _ hxi
                    exact ⟨s1, by simp [Instrument.zeroOut, s1, s2], s3.zeroOut (by rw [s1]; exact hxi) b1 b2⟩
              obtain ⟨w1, w2, w3⟩ := hs'
              have hself := Rebin.spectralRebin_self s' (by rw [w1, w2]) (by rw [w1]; exact hg.sorted) (by rw [w1]; exact hgpos) (by rw [w1]; exact hg.two)
              rw [w1, e4] at hself
              simp only [Except.ok.injEq] at hself
              rw [hself]; exact w3
      have htr : PosAt tr i := by
        unfold forceEdge at hf
        cases hfo : ch.force with
        | none => simp [hfo] at hf
        | some f =>
          cases f with
          | false =>
            simp only [hfo, Except.ok.injEq, Prod.mk.injEq] at hf
            rw [← hf.1]; exact heff.2
          | true =>
            simp only [hfo, Except.ok.injEq, Prod.mk.injEq] at hf
            obtain ⟨b1, b2⟩ := hi.band hfo _ hxi
            rw [← hf.1]; exact heff.2.zeroOut hxi b1 b2
      refine ((heff.1.mul hsed).mul htr).mul ?_
      exact ⟨g[i] * ch.perPhoton, by simp [hxi], mul_pos (hgpos _ (List.getElem_mem _)) hpp⟩

/-! ## C103 -/

/-- C103 (photometers): a photometer with light collecting area, some light in its brightest pixel and positive efficiencies around a point of the star's grid
detects a star that shines there through a sky that lets light through there. -/
theorem photometer_lit {a b : ℝ} {g : List ℝ} (hg : Build.IsGrid a b g) (hgpos : ∀ x ∈ g, 0 < x) {ch : Chan ℝ} (hgood : GoodChan ch) (hat : 0 < ch.atel) (hpp : 0 < ch.perPhoton)
    (hprf : 0 < ch.prfMax) (hq : Sorted ch.qe) (ht : Sorted ch.tr) {L U : ℝ} (hL : 9 / 10 * a < L) (hU : U < 11 / 10 * b) {i : ℕ} (hi : SeesAt ch g L U i)
    {sky : Option (Rebin.Signal ℝ)} (hsky : ∀ s, sky = some s → s.wl = g ∧ s.data.length = g.length ∧ All0 s.data ∧ PosAt s.data i) {sed : Rebin.Signal ℝ}
    (hs1 : sed.wl = g) (hs2 : sed.data.length = g.length) (hs0 : All0 sed.data) (hsed : PosAt sed.data i) {old : Option (List (Option ℝ))} {out : TargetOut ℝ}
    (h : photometerTarget ch sed sky old = .ok out) : (∃ v ∈ out.starSignal, 0 < v) ∧ ∃ v ∈ out.maxInPixel, 0 < v := by
  unfold photometerTarget at h
  rw [hs1] at h
  cases e1 : getEfficiency ch g sky old with
  | error e => simp [e1] at h
  | ok eff =>
    simp only [e1] at h
    cases e2 : forceEdge ch g eff.tr with
    | error e => simp [e2] at h
    | ok tw =>
      obtain ⟨tr, win⟩ := tw
      simp only [e2, Except.ok.injEq] at h
      have hp := density_pos hg hgpos hpp hq ht hL hU hi (fun s hs => ⟨(hsky s hs).1, (hsky s hs).2.1, (hsky s hs).2.2.2⟩) hsed e1 e2
      obtain ⟨n1, n2⟩ := efficiency_nonneg hgood e1 (fun s hs => (hsky s hs).2.2.1)
      obtain ⟨n3, _⟩ := forceEdge_nonneg e2 n2
      have n4 := density_nonneg hgood (fun x hx => (hgpos x hx).le) n1 hs0 n3
      have hsig : 0 < ch.atel * trapz g (density ch g eff.qe sed.data tr) := mul_pos hat (trapz_pos hg.sorted hg.two (by
        obtain ⟨l1, l2⟩ := efficiency_lengths hg e1
        simp [density, mulCol, l1, hs2, forceEdge_length e2 l2]) n4 hp)
      subst h
      exact ⟨⟨_, by simp, hsig⟩, ⟨_, by simp, mul_pos hprf hsig⟩⟩

theorem maxE_pos {l : List ℝ} {m : ℝ} (h : Rebin.maxE l = .ok m) {v : ℝ} (hv : v ∈ l) (h0 : 0 < v) : 0 < m :=
  h0.trans_le ((Rebin.maxE_spec h).2 v hv)

theorem pixelMaxima_pos {wlPix v : List ℝ} {k : ℕ} {x : ℝ} (hx : wlPix[k]? = some x) (hv : PosAt v k) : ∀ {bs : List (ℝ × ℝ)} {m : List ℝ},
    pixelMaxima wlPix v bs = .ok m → (∃ r ∈ bs, r.1 < x ∧ x < r.2) → ∃ y ∈ m, 0 < y
  | [], m, _, ⟨r, hr, _⟩ => by cases hr
  | (lo, hi) :: bs, m, h, ⟨r, hr, h1, h2⟩ => by
    rw [pixelMaxima] at h
    cases e1 : Rebin.maxE (((wlPix.zip v).filter (fun p => decide (lo < p.1) && decide (p.1 < hi))).map Prod.snd) with
    | error e => simp [e1] at h
    | ok y =>
      simp only [e1] at h
      cases e2 : pixelMaxima wlPix v bs with
      | error e => simp [e2] at h
      | ok ys =>
        simp only [e2, Except.ok.injEq] at h
        subst h
        rcases List.mem_cons.mp hr with rfl | hr
        · obtain ⟨w, hw, hw0⟩ := hv
          refine ⟨y, by simp, maxE_pos e1 (v := w) ?_ hw0⟩
          refine List.mem_map.mpr ⟨(x, w), List.mem_filter.mpr ⟨?_, by simp [h1, h2]⟩, rfl⟩
          exact List.mem_of_getElem? (i := k) (by simp [List.getElem?_zip_eq_some, hx, hw])
        · obtain ⟨z, hz, hz0⟩ := pixelMaxima_pos hx hv e2 ⟨r, hr, h1, h2⟩
          exact ⟨z, by simp [hz], hz0⟩

/-- The pixel `k` of a spectrometer is inside a bin, has width and gain, and the star's grid has points on both sides of it from `P` to `Q`; if wavelengths increase with the
pixels its neighbours are in there as well. -/
structure PixelAt (ch : Chan ℝ) (g : List ℝ) (P Q : ℝ) (k : ℕ) : Prop where
  wl : ∃ x, ch.wlPix[k]? = some x ∧ (∃ y ∈ g, P ≤ y ∧ y ≤ x) ∧ (∃ y ∈ g, x ≤ y ∧ y ≤ Q) ∧ 0 < ch.gain x ∧ ∃ r ∈ ch.bins.left.zip ch.bins.right, r.1 < x ∧ x < r.2
  width : PosAt ch.dwlPix k
  below : ∃ y ∈ ch.wlPix, 9 / 10 * y < P
  above : ∃ y ∈ ch.wlPix, Q < 11 / 10 * y
  order : ch.wlPix.Pairwise (fun a b => b < a) ∨ ch.wlPix.Pairwise (· < ·) ∧ 0 < k ∧ k + 1 < ch.wlPix.length ∧
    (∀ x, ch.wlPix[k - 1]? = some x → P ≤ x) ∧ ∀ x, ch.wlPix[k + 1]? = some x → x ≤ Q

/-- C103 (spectrometers): the same for a spectrometer, if its efficiencies are positive around all the points of the star's grid from `P` to `Q` and a pixel is there. -/
theorem spectrometer_lit {a b : ℝ} {g : List ℝ} (hg : Build.IsGrid a b g) (hgpos : ∀ x ∈ g, 0 < x) {ch : Chan ℝ} (hat : 0 < ch.atel) (hpp : 0 < ch.perPhoton)
    (hq : Sorted ch.qe) (ht : Sorted ch.tr) {L U P Q : ℝ} (hL : 9 / 10 * a < L) (hU : U < 11 / 10 * b)
    (hi : ∀ (i : ℕ) x, g[i]? = some x → P ≤ x → x ≤ Q → SeesAt ch g L U i)
    {sky : Option (Rebin.Signal ℝ)} (hsky : ∀ s, sky = some s → s.wl = g ∧ s.data.length = g.length ∧ ∀ (i : ℕ) x, g[i]? = some x → P ≤ x → x ≤ Q → PosAt s.data i)
    {sed : Rebin.Signal ℝ} (hs1 : sed.wl = g) (hs2 : sed.data.length = g.length) (hsed : ∀ (i : ℕ) x, g[i]? = some x → P ≤ x → x ≤ Q → PosAt sed.data i)
    {k : ℕ} (hk : PixelAt ch g P Q k) {old : Option (List (Option ℝ))} {out : TargetOut ℝ}
    (h : spectrometerTarget ch sed sky old = .ok out) : ∃ v ∈ out.maxInPixel, 0 < v := by
  unfold spectrometerTarget at h
  rw [hs1] at h
  cases e1 : getEfficiency ch g sky old with
  | error e => simp [e1] at h
  | ok eff =>
    simp only [e1] at h
    cases e2 : forceEdge ch g eff.tr with
    | error e => simp [e2] at h
    | ok tw =>
      obtain ⟨tr, win⟩ := tw
      simp only [e2] at h
      cases e3 : spectrometerMaxima ch g ((density ch g eff.qe sed.data tr).map (fun v => ch.atel * v)) with
      | error e => simp [e3] at h
      | ok m =>
        simp only [e3, Except.ok.injEq] at h
        subst h
        show ∃ v ∈ m, 0 < v
        have hp : ∀ (i : ℕ) x, g[i]? = some x → P ≤ x → x ≤ Q → PosAt ((density ch g eff.qe sed.data tr).map (fun v => ch.atel * v)) i := fun i x hx h1 h2 =>
          (density_pos hg hgpos hpp hq ht hL hU (hi i x hx h1 h2) (fun s hs => ⟨(hsky s hs).1, (hsky s hs).2.1, (hsky s hs).2.2 i x hx h1 h2⟩) (hsed i x hx h1 h2) e1 e2).map hat
        unfold spectrometerMaxima at e3
        obtain ⟨x, hx, hl, hr, hgain, hbin⟩ := hk.wl
        cases e4 : (Rebin.Signal.mk g ((density ch g eff.qe sed.data tr).map (fun v => ch.atel * v))).spectralRebin ch.wlPix with
        | error e => simp [e4] at e3
        | ok r =>
          simp only [e4] at e3
          have hlen : ((density ch g eff.qe sed.data tr).map (fun v => ch.atel * v)).length = g.length := by
            obtain ⟨l1, l2⟩ := efficiency_lengths hg e1
            have l3 := forceEdge_length e2 l2
            simp [density, mulCol, l1, hs2, l3]
          have hsorted : Sorted (Rebin.Signal.mk g ((density ch g eff.qe sed.data tr).map (fun v => ch.atel * v))) := ⟨hlen, hg.sorted⟩
          have hsh : ∀ t, (∃ y ∈ g, P ≤ y ∧ y ≤ t) → (∃ y ∈ g, t ≤ y ∧ y ≤ Q) → Shines (Rebin.Signal.mk g ((density ch g eff.qe sed.data tr).map (fun v => ch.atel * v))) P t Q := by
            intro t h1 h2
            refine ⟨?_, h1, h2⟩
            intro p hpm p1 p2
            obtain ⟨j, hj, e⟩ := List.mem_iff_getElem.mp hpm
            obtain ⟨v, hv, hv0⟩ := hp j p.1 (by rw [← e]; simp) p1 p2
            rw [← e]
            have : v = p.2 := by
              rw [← e]
              simp only [List.length_zip, lt_min_iff] at hj
              rw [List.getElem?_eq_getElem hj.2, Option.some.injEq] at hv
              rw [← hv]; simp
            rw [e, ← this]; exact hv0
          have hr : PosAt r.data k := by
            rcases hk.order with ho | ⟨ho, k1, k2, k3, k4⟩
            · exact Shines.rebin_falling ho hsorted e4 hk.below hk.above hx (hsh x hl hr)
            · refine Shines.rebin ho hsorted e4 hk.below hk.above k1 k2 k3 k4 (fun y hy => ?_)
              rw [hx, Option.some.injEq] at hy
              subst hy
              exact hsh x hl hr
          exact pixelMaxima_pos hx ((hr.mul hk.width).mul ⟨ch.gain x, by simp [hx], hgain⟩) e3 hbin

end ExoRad.Light
