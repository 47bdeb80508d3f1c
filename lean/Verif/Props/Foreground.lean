import Verif.Model.Foreground
import Verif.Props.Planck
import Verif.Props.PsfSelect
import Verif.Props.Propagate
import Verif.Props.Optics
import Verif.Lemmas.Dict

/-!
# Foregrounds (C47, C48)
-/

set_option linter.unusedSectionVars false

namespace ExoRad.Foreground

open ExoRad.Diffuse

variable {α : Type} [Field α] [LinearOrder α] [IsStrictOrderedRing α]

/-! ## What a custom foreground contributes -/

/-- The transmission a foreground table has at one wavelength: linear between its points, 1 outside them. -/
theorem interpFill_spec (fill : α) (pts : List (α × α)) (x : α) :
    ((∃ p ∈ pts, p.1 ≤ x) ∧ (∃ p ∈ pts, x ≤ p.1) → interpFill fill pts x = Rebin.interp pts x) ∧
      ((∀ p ∈ pts, x < p.1) ∨ (∀ p ∈ pts, p.1 < x) → interpFill fill pts x = fill) := by
  have hm : ∀ p, p ∈ pts.insertionSort (fun p q => p.1 ≤ q.1) ↔ p ∈ pts := fun p => List.mem_insertionSort _
  have hs : (pts.insertionSort (fun p q : α × α => p.1 ≤ q.1)).Pairwise (fun p q => p.1 ≤ q.1) :=
    List.pairwise_insertionSort _ _
  unfold interpFill Rebin.interp Rebin.interpSorted
  generalize pts.insertionSort (fun p q => p.1 ≤ q.1) = l at hm hs
  cases l with
  | nil =>
    have he : pts = [] := List.eq_nil_iff_forall_not_mem.mpr (fun p hp => by simpa using (hm p).mpr hp)
    subst he
    simp
  | cons lo rest =>
    have hlo : ∀ p ∈ pts, lo.1 ≤ p.1 := by
      intro p hp
      rcases List.mem_cons.mp ((hm p).mpr hp) with rfl | h
      · exact le_rfl
      · exact (List.pairwise_cons.mp hs).1 p h
    have hla : ∀ p ∈ pts, p.1 ≤ Rebin.lastX lo rest := by
      intro p hp
      have hp' := (hm p).mpr hp
      unfold Rebin.lastX
      have hsplit := List.dropLast_concat_getLast (List.cons_ne_nil lo rest)
      rw [← hsplit] at hp' hs
      rcases List.mem_append.mp hp' with h | h
      · exact (List.pairwise_append.mp hs).2.2 p h _ (by simp)
      · simp at h; rw [h]
    refine ⟨fun ⟨⟨p, hp, h1⟩, ⟨q, hq, h2⟩⟩ => ?_, fun h => ?_⟩
    · have a1 : ¬ x < lo.1 := not_lt.mpr ((hlo p hp).trans h1)
      have a2 : ¬ Rebin.lastX lo rest < x := not_lt.mpr (h2.trans (hla q hq))
      simp only [if_neg a1, if_neg a2]
    · rcases h with h | h
      · have := h lo ((hm lo).mp (by simp))
        simp only [if_pos this]
      · obtain ⟨p, hp, e⟩ := Rebin.lastX_mem lo rest
        have h2 := h p ((hm p).mp hp)
        have h1 := h lo ((hm lo).mp (by simp))
        rw [← e] at h2
        simp only [if_neg (not_lt.mpr h1.le), if_pos h2]

/-- The table of a custom foreground has the three columns. -/
structure HasColumns (d : Descr α) (w r t : List α) : Prop where
  ex : ∃ tab, d.data = some tab ∧ tab.getE "Wavelength" = .ok w ∧ tab.getE "Radiance" = .ok r ∧ tab.getE "Transmission" = .ok t

theorem skyForeground_iff (wl : List α) (d : Descr α) (f : Filter α) : skyForeground wl d = .ok f ↔
    ∃ w r t, HasColumns d w r t ∧
      f = ⟨⟨wl, wl.map (interpFill 0 (w.zip r))⟩, some (wl.map (interpFill 1 (w.zip t)))⟩ := by
  unfold skyForeground
  constructor
  · intro h
    split at h
    · cases h
    rename_i tab ht
    split at h
    · cases h
    rename_i w hw
    split at h
    · cases h
    rename_i r hr
    split at h
    · cases h
    rename_i t ht'
    simp only [Except.ok.injEq] at h
    exact ⟨w, r, t, ⟨tab, ht, hw, hr, ht'⟩, h.symm⟩
  · rintro ⟨w, r, t, ⟨tab, h1, h2, h3, h4⟩, rfl⟩
    simp only [h1, h2, h3, h4]

/-! ## The sky transmission -/

/-- The transmission of the sky in front of a target, at one wavelength, for a list of foregrounds: the product over the
custom ones. -/
def skyAt (ds : Dict String (Descr α)) (x : α) : α :=
  (ds.map (fun kd => if kd.1 = "zodiacal" then 1
    else match kd.2.data with
      | none => 1
      | some t => interpFill 1 (((t.get? "Wavelength").getD []).zip ((t.get? "Transmission").getD [])) x)).prod

theorem getE_get? {d : Dict String (List α)} {k : String} {v : List α} (h : d.getE k = .ok v) : d.get? k = some v := by
  unfold Dict.getE at h
  split at h
  · rename_i v' hv; simp only [Except.ok.injEq] at h; rw [hv, h]
  · cases h

theorem skyAt_cons (k : String) (d : Descr α) (ds : Dict String (Descr α)) (x : α) :
    skyAt ((k, d) :: ds) x = skyAt [(k, d)] x * skyAt ds x := by simp [skyAt]

theorem skyAt_zodi (d : Descr α) (x : α) : skyAt [("zodiacal", d)] x = 1 := by simp [skyAt]

theorem skyAt_custom (k : String) (hk : k ≠ "zodiacal") (d : Descr α) (w r t : List α) (h : HasColumns d w r t) (x : α) :
    skyAt [(k, d)] x = interpFill 1 (w.zip t) x := by
  obtain ⟨tab, h1, h2, h3, h4⟩ := h.ex
  simp [skyAt, hk, h1, getE_get? h2, getE_get? h4]

theorem estimateZodi_transmission (B : α → α → α) (m : MapFiles α) (wl : List α) (d : Descr α) (s : Sky α) :
    (estimateZodi B m wl d s).1.transmission = s.transmission := by
  unfold estimateZodi
  split
  · rfl
  · split <;> rfl

theorem mulCol_map (wl : List α) (f g : α → α) : mulCol (wl.map f) (wl.map g) = wl.map (fun x => f x * g x) := by
  simp [mulCol, List.zipWith_map_left, List.zipWith_map_right, List.zipWith_self]

/-- Only custom foregrounds count. -/
def custom (ds : Dict String (Descr α)) : Dict String (Descr α) := ds.filter (fun kd => decide (kd.1 ≠ "zodiacal"))

/-- The sky transmission as one sees it on the grid: 1 everywhere when none is set. -/
def TransmissionIs (wl : List α) (s : Sky α) (f : α → α) : Prop :=
  match s.transmission with
  | none => ∀ x ∈ wl, f x = 1
  | some t => t = ⟨wl, wl.map f⟩

theorem estimateOne_transmission (B : α → α → α) (m : MapFiles α) (wl : List α) (k : String) (d : Descr α) (s : Sky α)
    (f : α → α) (hs : TransmissionIs wl s f) (hok : (estimateOne B m wl k d s).2 = .ok ()) :
    TransmissionIs wl (estimateOne B m wl k d s).1 (fun x => f x * skyAt [(k, d)] x) := by
  unfold estimateOne at hok ⊢
  split
  · rename_i hk
    subst hk
    rw [if_pos rfl] at hok
    unfold TransmissionIs at hs ⊢
    rw [estimateZodi_transmission]
    cases h : s.transmission with
    | none => rw [h] at hs; intro x hx; simp [skyAt_zodi, hs x hx]
    | some t => rw [h] at hs; simpa [skyAt_zodi] using hs
  · rename_i hk
    rw [if_neg hk] at hok
    unfold estimateForeground at hok ⊢
    cases hf : skyForeground wl d with
    | error e => simp [hf] at hok
    | ok flt =>
      obtain ⟨w, r, t, hc, rfl⟩ := (skyForeground_iff wl d flt).mp hf
      simp only [hf, Option.getD_some] at hok ⊢
      unfold TransmissionIs at hs ⊢
      unfold attenuate addForeground at hok ⊢
      simp only at hok ⊢
      cases ht : s.transmission with
      | none =>
        rw [ht] at hs
        simp only
        congr 1
        apply List.map_congr_left
        intro x hx
        rw [hs x hx, skyAt_custom k hk d w r t hc, one_mul]
      | some t0 =>
        rw [ht] at hs
        subst hs
        simp only [List.length_map, if_true, mulCol_map]
        congr 1
        apply List.map_congr_left
        intro x _
        rw [skyAt_custom k hk d w r t hc]

theorem estimateLoop_transmission (B : α → α → α) (m : MapFiles α) (wl : List α) : ∀ (ds : Dict String (Descr α)) (s : Sky α)
    (f : α → α), TransmissionIs wl s f → (estimateLoop B m wl ds s).2 = .ok () →
    TransmissionIs wl (estimateLoop B m wl ds s).1 (fun x => f x * skyAt ds x) := by
  intro ds
  induction ds with
  | nil => intro s f hs _; simpa [estimateLoop, skyAt] using hs
  | cons kd ds ih =>
    obtain ⟨k, d⟩ := kd
    intro s f hs hok
    have hone := estimateOne_transmission B m wl k d s f hs
    unfold estimateLoop at hok ⊢
    revert hone hok
    generalize estimateOne B m wl k d s = r
    intro hone hok
    obtain ⟨s1, u⟩ := r
    cases u with
    | error e => simp at hok
    | ok u =>
      simp only at hok ⊢
      have := ih s1 _ (hone rfl) hok
      simpa [skyAt_cons k d ds, mul_assoc] using this

/-- The foregrounds of a section, with the key that decides what they are. -/
def Section.list : Section α → Dict String (Descr α)
  | .many ds => ds
  | .single d => [(d.value, d)]

/-- C47: when a target that has no sky transmission yet is observed, its sky transmission is, at every wavelength of the
working grid, the product over the custom foregrounds of their transmission there (1 outside their tables); zodiacal light
does not attenuate. -/
theorem sky_transmission_partial (B : α → α → α) (m : MapFiles α) (wl : List α) (sec : Section α) (s : Sky α)
    (h0 : s.transmission = none) (hok : (estimateForegrounds B m wl sec s).2 = .ok ()) :
    TransmissionIs wl (estimateForegrounds B m wl sec s).1 (skyAt sec.list) := by
  have hs : TransmissionIs wl s (fun _ => 1) := by unfold TransmissionIs; rw [h0]; simp
  cases sec with
  | many ds => simpa [estimateForegrounds, Section.list] using estimateLoop_transmission B m wl ds s _ hs hok
  | single d => simpa [estimateForegrounds, Section.list] using estimateOne_transmission B m wl d.value d s _ hs hok

/-- `n` observations of the same target. -/
def observeTimes (B : α → α → α) (m : MapFiles α) (wl : List α) (sec : Section α) : Nat → Sky α → Sky α × Except Exc Unit
  | 0, s => (s, .ok ())
  | n + 1, s =>
    match observeTimes B m wl sec n s with
    | (s, .error e) => (s, .error e)
    | (s, .ok _) => estimateForegrounds B m wl sec s

/-- C47, the defect: after `n` observations of the same target the sky transmission is the `n`-th power of the true
one. -/
theorem observed_again (B : α → α → α) (m : MapFiles α) (wl : List α) (sec : Section α) (s : Sky α)
    (h0 : s.transmission = none) (n : Nat) (hok : (observeTimes B m wl sec n s).2 = .ok ()) :
    TransmissionIs wl (observeTimes B m wl sec n s).1 (fun x => skyAt sec.list x ^ n) := by
  induction n with
  | zero => unfold TransmissionIs observeTimes; rw [h0]; simp
  | succ n ih =>
    unfold observeTimes at hok ⊢
    revert ih hok
    generalize observeTimes B m wl sec n s = r
    intro ih hok
    obtain ⟨s1, u⟩ := r
    cases u with
    | error e => simp at hok
    | ok u =>
      simp only at hok ⊢
      have hs := ih rfl
      cases sec with
      | many ds => simpa [estimateForegrounds, Section.list, pow_succ] using estimateLoop_transmission B m wl ds s1 _ hs hok
      | single d => simpa [estimateForegrounds, Section.list, pow_succ] using estimateOne_transmission B m wl d.value d s1 _ hs hok

/-! ## Propagation through a channel -/

/-- C47, the defect: the light of the foregrounds never depends on any foreground's transmission. -/
theorem diffuse_ignores_transmission [FloorRing α] (ch : Channel α) (qe tr : Rebin.Signal α) (s s' : Sky α)
    (h : s.foreground.map (List.map (fun kf => (kf.1, kf.2.rad))) = s'.foreground.map (List.map (fun kf => (kf.1, kf.2.rad)))) :
    propagate ch qe tr s = propagate ch qe tr s' := by
  have loop : ∀ (a b : List (String × Filter α)), a.map (fun kf => (kf.1, kf.2.rad)) = b.map (fun kf => (kf.1, kf.2.rad)) →
      ∀ qe tr out, propagateLoop ch a qe tr out = propagateLoop ch b qe tr out := by
    intro a
    induction a with
    | nil => intro b hb; cases b with
      | nil => intros; rfl
      | cons => simp at hb
    | cons x a ih =>
      intro b hb
      cases b with
      | nil => simp at hb
      | cons y b =>
        obtain ⟨k, rad, t⟩ := x
        obtain ⟨k', rad', t'⟩ := y
        simp only [List.map_cons, List.cons.injEq, Prod.mk.injEq] at hb
        obtain ⟨⟨rfl, rfl⟩, hb⟩ := hb
        intro qe tr out
        simp only [propagateLoop, ih b hb]
  unfold propagate
  cases hf : s.foreground with
  | none =>
    rw [hf] at h
    cases hf' : s'.foreground with
    | none => rfl
    | some => rw [hf'] at h; simp at h
  | some fs =>
    rw [hf] at h
    cases hf' : s'.foreground with
    | none => rw [hf'] at h; simp at h
    | some fs' =>
      rw [hf'] at h
      simp only [Option.map_some, Option.some.injEq] at h
      simp only
      apply loop
      simpa [List.map_reverse] using congrArg List.reverse h

/-- The light of one foreground through the channel, on its own: attenuated by the optics only. -/
def alone [FloorRing α] (ch : Channel α) (qe tr : Rebin.Signal α) (rad : Rebin.Signal α) : Except Exc (List α × List α) :=
  match tr.spectralRebin rad.wl with
  | .error e => .error e
  | .ok t =>
    match mulData rad.data t.data with
    | .error e => .error e
    | .ok data =>
      match detect ch qe ⟨rad.wl, data⟩ with
      | .error e => .error e
      | .ok (_, m, sig) => .ok (m, sig)

theorem rebin_twice (s s' : Rebin.Signal α) (wl : List α) (hx : wl.Pairwise (· < ·)) (hpos : ∀ w ∈ wl, 0 < w) (hlen : 2 ≤ wl.length)
    (h : s.spectralRebin wl = .ok s') : s'.spectralRebin wl = .ok s' := by
  have h0 : (0 : α) ∉ Rebin.diffs wl := fun hm => lt_irrefl _ (Rebin.diffs_pos wl hx 0 hm)
  obtain ⟨hw, he⟩ := Rebin.spectralRebin_wellFormed s s' wl h0 h
  have := Rebin.spectralRebin_self s' hw (by rwa [he]) (by rwa [he]) (by rwa [he])
  rwa [he] at this

theorem detect_again [FloorRing α] (ch : Channel α) (qe qe1 rad : Rebin.Signal α) (r : List α × List α)
    (hx : rad.wl.Pairwise (· < ·)) (hpos : ∀ w ∈ rad.wl, 0 < w) (hlen : 2 ≤ rad.wl.length)
    (h : detect ch qe rad = .ok (qe1, r)) (data : List α) :
    (detect ch qe1 ⟨rad.wl, data⟩).map Prod.snd = (detect ch qe ⟨rad.wl, data⟩).map Prod.snd := by
  unfold detect at h ⊢
  cases hs : ch.slitWidth with
  | some w =>
    simp only [hs] at h
    split at h
    · cases h
    simp only [Except.ok.injEq, Prod.mk.injEq] at h
    rw [h.1]
  | none =>
    simp only [hs] at h ⊢
    unfold slitless at h ⊢
    cases hq : qe.spectralRebin rad.wl with
    | error e => simp [hq] at h
    | ok q =>
      simp only [hq] at h
      split at h
      · cases h
      simp only [Except.ok.injEq, Prod.mk.injEq] at h
      rw [← h.1]
      simp only [rebin_twice qe q rad.wl hx hpos hlen hq]

theorem detect_error_again [FloorRing α] (ch : Channel α) (qe qe1 rad : Rebin.Signal α)
    (h : (detect ch qe1 rad).map Prod.snd = (detect ch qe rad).map Prod.snd) :
    (∃ e, detect ch qe1 rad = .error e ∧ detect ch qe rad = .error e) ∨
      ∃ q q' r, detect ch qe1 rad = .ok (q, r) ∧ detect ch qe rad = .ok (q', r) := by
  cases h1 : detect ch qe1 rad with
  | error e =>
    cases h2 : detect ch qe rad with
    | error e' => rw [h1, h2] at h; simp only [Except.map] at h; cases h; exact .inl ⟨e, rfl, rfl⟩
    | ok r => rw [h1, h2] at h; simp [Except.map] at h
  | ok r =>
    cases h2 : detect ch qe rad with
    | error e' => rw [h1, h2] at h; simp [Except.map] at h
    | ok r' =>
      rw [h1, h2] at h
      simp only [Except.map, Except.ok.injEq] at h
      exact .inr ⟨r.1, r'.1, r.2, rfl, by rw [h]⟩

/-- Every foreground handled on its own, in the given order. -/
def eachAlone [FloorRing α] (ch : Channel α) (qe tr : Rebin.Signal α) : List (String × Filter α) → Dict String (List α) →
    Except Exc (Dict String (List α))
  | [], out => .ok out
  | (k, f) :: fs, out =>
    match alone ch qe tr f.rad with
    | .error e => .error e
    | .ok (m, sig) => eachAlone ch qe tr fs (Dict.set (Dict.set out (k ++ "_signal") sig) (k ++ "_MaxSignal_inPixel") m)

theorem propagateLoop_eachAlone [FloorRing α] (ch : Channel α) (qe tr : Rebin.Signal α) (wl : List α)
    (hx : wl.Pairwise (· < ·)) (hpos : ∀ w ∈ wl, 0 < w) (hlen : 2 ≤ wl.length) :
    ∀ (fs : List (String × Filter α)) (qe1 tr1 : Rebin.Signal α) (out : Dict String (List α)),
    (∀ kf ∈ fs, kf.2.rad.wl = wl) → tr1.spectralRebin wl = tr.spectralRebin wl →
    (∀ data, (detect ch qe1 ⟨wl, data⟩).map Prod.snd = (detect ch qe ⟨wl, data⟩).map Prod.snd) →
    propagateLoop ch fs qe1 tr1 out = eachAlone ch qe tr fs out := by
  intro fs
  induction fs with
  | nil => intros; rfl
  | cons kf fs ih =>
    obtain ⟨k, f⟩ := kf
    intro qe1 tr1 out hw htr hqe
    have hf : f.rad.wl = wl := hw (k, f) (by simp)
    unfold propagateLoop eachAlone alone
    rw [hf, htr]
    cases ht : tr.spectralRebin wl with
    | error e => rfl
    | ok t =>
      simp only
      cases hd : mulData f.rad.data t.data with
      | error e => rfl
      | ok data =>
        simp only
        rcases detect_error_again ch qe qe1 ⟨wl, data⟩ (hqe data) with ⟨e, h1, h2⟩ | ⟨q, q', r, h1, h2⟩
        · simp only [h1, h2]
        · obtain ⟨m, sig⟩ := r
          simp only [h1, h2]
          apply ih _ _ _ (fun kf h => hw kf (by simp [h]))
          · rw [ht]; exact rebin_twice tr t wl hx hpos hlen ht
          · intro data'
            rw [detect_again ch qe1 q ⟨wl, data⟩ (m, sig) hx hpos hlen h1 data']
            exact hqe data'

theorem append_right_inj {a b : String} (c : String) (h : a ++ c = b ++ c) : a = b := by
  have := congrArg String.toList h
  simp only [String.toList_append, List.append_cancel_right_eq] at this
  exact String.toList_inj.mp this

theorem signal_ne_max (a b : String) : a ++ "_signal" ≠ b ++ "_MaxSignal_inPixel" := by
  intro h
  have := congrArg (fun s : String => s.toList.reverse) h
  simp [String.toList_append] at this

/-- The columns of a list of foregrounds: `<name>_signal`, `<name>_MaxSignal_inPixel`. -/
def columns : List (String × Filter α) → List String
  | [] => []
  | kf :: fs => (kf.1 ++ "_signal") :: (kf.1 ++ "_MaxSignal_inPixel") :: columns fs

theorem eachAlone_spec [FloorRing α] (ch : Channel α) (qe tr : Rebin.Signal α) : ∀ (fs : List (String × Filter α))
    (out out' : Dict String (List α)), (fs.map Prod.fst).Nodup →
    (∀ kf ∈ fs, kf.1 ++ "_signal" ∉ out.keys ∧ kf.1 ++ "_MaxSignal_inPixel" ∉ out.keys) →
    eachAlone ch qe tr fs out = .ok out' → out'.keys = out.keys ++ columns fs ∧
      (∀ c ∈ out.keys, out'.get? c = out.get? c) ∧
      ∀ kf ∈ fs, ∃ m sig, alone ch qe tr kf.2.rad = .ok (m, sig) ∧ out'.get? (kf.1 ++ "_signal") = some sig ∧
        out'.get? (kf.1 ++ "_MaxSignal_inPixel") = some m := by
  intro fs
  induction fs with
  | nil => intro out out' _ _ h; cases h; simp [columns]
  | cons kf fs ih =>
    obtain ⟨k, f⟩ := kf
    intro out out' hn hnew h
    unfold eachAlone at h
    split at h
    · cases h
    rename_i m sig ha
    obtain ⟨hn1, hn2⟩ := List.nodup_cons.mp (by simpa using hn : (k :: fs.map Prod.fst).Nodup)
    have hk := hnew (k, f) (by simp)
    have k1 : (Dict.set out (k ++ "_signal") sig).keys = out.keys ++ [k ++ "_signal"] := by rw [Dict.keys_set, if_neg hk.1]
    have hne : k ++ "_MaxSignal_inPixel" ∉ (Dict.set out (k ++ "_signal") sig).keys := by
      rw [k1]
      simp only [List.mem_append, List.mem_singleton, not_or]
      exact ⟨hk.2, fun e => signal_ne_max k k e.symm⟩
    have k2 : (Dict.set (Dict.set out (k ++ "_signal") sig) (k ++ "_MaxSignal_inPixel") m).keys =
        out.keys ++ [k ++ "_signal", k ++ "_MaxSignal_inPixel"] := by rw [Dict.keys_set, if_neg hne, k1]; simp
    obtain ⟨h1, h2, h3⟩ := ih _ out' hn2 (by
      intro kf hm
      rw [k2]
      have := hnew kf (by simp [hm])
      have hkk : kf.1 ≠ k := fun e => hn1 (e ▸ List.mem_map.mpr ⟨kf, hm, rfl⟩)
      simp only [List.mem_append, List.mem_cons, List.not_mem_nil, or_false, not_or]
      exact ⟨⟨this.1, fun e => hkk (append_right_inj _ e), signal_ne_max _ _⟩,
        ⟨this.2, fun e => signal_ne_max _ _ e.symm, fun e => hkk (append_right_inj _ e)⟩⟩) h
    refine ⟨by rw [h1, k2]; simp [columns], ?_, ?_⟩
    · intro c hc
      rw [h2 c (by rw [k2]; simp [hc]), Dict.get?_set_ne, Dict.get?_set_ne]
      · rintro rfl; exact hk.1 hc
      · rintro rfl; exact hk.2 hc
    · intro kf hm
      rcases List.mem_cons.mp hm with rfl | hm
      · refine ⟨m, sig, ha, ?_, ?_⟩
        · rw [h2 _ (by rw [k2]; simp), Dict.get?_set_ne _ _ (signal_ne_max k k), Dict.get?_set_self]
        · rw [h2 _ (by rw [k2]; simp), Dict.get?_set_self]
      · exact h3 kf hm

/-- C47: for every target whose foregrounds are sampled on one grid, the table gets for every foreground, in the reversed order,
the two columns that this foreground gives on its own: they depend on its own radiance and on the channel only, not on
the other foregrounds. (So no foreground attenuates another one; see `diffuse_ignores_transmission`.) -/
theorem foreground_columns [FloorRing α] (ch : Channel α) (qe tr : Rebin.Signal α) (s : Sky α)
    (fs : Dict String (Filter α)) (hs : s.foreground = some fs) (hn : fs.keys.Nodup) (wl : List α)
    (hx : wl.Pairwise (· < ·)) (hpos : ∀ w ∈ wl, 0 < w) (hlen : 2 ≤ wl.length) (hw : ∀ kf ∈ fs, kf.2.rad.wl = wl)
    (out : Dict String (List α)) (h : propagate ch qe tr s = .ok out) :
    out.keys = columns fs.reverse ∧ ∀ kf ∈ fs, ∃ m sig, alone ch qe tr kf.2.rad = .ok (m, sig) ∧
      out.get? (kf.1 ++ "_signal") = some sig ∧ out.get? (kf.1 ++ "_MaxSignal_inPixel") = some m := by
  unfold propagate at h
  simp only [hs] at h
  rw [propagateLoop_eachAlone ch qe tr wl hx hpos hlen _ _ _ _ (by simpa using hw) rfl (fun _ => rfl)] at h
  obtain ⟨h1, _, h3⟩ := eachAlone_spec ch qe tr fs.reverse [] out (by
    rw [List.map_reverse, List.nodup_reverse]; exact hn) (by simp) h
  exact ⟨by simpa using h1, fun kf hm => h3 kf (by simpa using hm)⟩

/-- C22/C47: a target without foregrounds cannot be propagated: AttributeError. -/
theorem no_foreground [FloorRing α] (ch : Channel α) (qe tr : Rebin.Signal α) (s : Sky α) (h : s.foreground = none) :
    propagate ch qe tr s = .error .attributeError := by
  unfold propagate; simp only [h]

/-! ## What `EstimateForegrounds` leaves on a target -/

/-- The name under which a foreground is stored. -/
def nameOf (kd : String × Descr α) : String := if kd.1 = "zodiacal" then "zodi" else kd.2.value

/-- The radiance of a foreground at a wavelength: the zodiacal model with the coefficient `A`, or the table of
a custom one, 0 outside it. -/
def radianceOf (B : α → α → α) (m : MapFiles α) (coord : Option (α × α)) (kd : String × Descr α) (x : α) : α :=
  if kd.1 = "zodiacal" then
    match zodiCoefficient m kd.2 coord with
    | .ok a => zodiModel B a x
    | .error _ => 0
  else match kd.2.data with
    | none => 0
    | some t => interpFill 0 (((t.get? "Wavelength").getD []).zip ((t.get? "Radiance").getD [])) x

/-- The coordinates of the star, if it has them. -/
def starCoordinates (s : Sky α) : Option (α × α) :=
  match s.ra, s.dec with
  | some ra, some dec => some (ra, dec)
  | _, _ => none

theorem coordinates_ok {s : Sky α} {c : Option (α × α)} (h : coordinates s = .ok c) : c = starCoordinates s := by
  unfold coordinates at h
  unfold starCoordinates
  split at h <;> simp_all

theorem attenuate_foreground (s : Sky α) (wl tr : List α) : (attenuate s wl tr).1.foreground = s.foreground ∧
    (attenuate s wl tr).1.ra = s.ra ∧ (attenuate s wl tr).1.dec = s.dec := by
  unfold attenuate
  split
  · exact ⟨rfl, rfl, rfl⟩
  · split <;> exact ⟨rfl, rfl, rfl⟩

theorem estimateOne_foreground (B : α → α → α) (m : MapFiles α) (wl : List α) (k : String) (d : Descr α) (s : Sky α)
    (hok : (estimateOne B m wl k d s).2 = .ok ()) : ∃ t, (estimateOne B m wl k d s).1.foreground =
      some (Dict.set (s.foreground.getD []) (nameOf (k, d)) ⟨⟨wl, wl.map (radianceOf B m (starCoordinates s) (k, d))⟩, t⟩) ∧
      (estimateOne B m wl k d s).1.ra = s.ra ∧ (estimateOne B m wl k d s).1.dec = s.dec := by
  unfold estimateOne nameOf radianceOf at *
  by_cases hk : k = "zodiacal"
  · simp only [hk, if_true] at hok ⊢
    unfold estimateZodi at hok ⊢
    cases hc : coordinates s with
    | error e => simp [hc] at hok
    | ok c =>
      cases coordinates_ok hc
      simp only [hc] at hok ⊢
      cases hz : zodiCoefficient m d (starCoordinates s) with
      | error e => simp [hz] at hok
      | ok a => exact ⟨none, rfl, rfl, rfl⟩
  · simp only [if_neg hk] at hok ⊢
    unfold estimateForeground at hok ⊢
    cases hf : skyForeground wl d with
    | error e => simp [hf] at hok
    | ok flt =>
      obtain ⟨w, r, t, ⟨tab, h1, h2, h3, h4⟩, rfl⟩ := (skyForeground_iff wl d flt).mp hf
      simp only
      obtain ⟨a1, a2, a3⟩ := attenuate_foreground (addForeground s d.value
        ⟨⟨wl, wl.map (interpFill 0 (w.zip r))⟩, some (wl.map (interpFill 1 (w.zip t)))⟩) wl
          ((some (wl.map (interpFill 1 (w.zip t)))).getD [])
      refine ⟨some (wl.map (interpFill 1 (w.zip t))), ?_, a2, a3⟩
      rw [a1]
      simp only [addForeground, h1, getE_get? h2, getE_get? h3, Option.getD_some]

/-- The stored foregrounds are those of the list. -/
def Stored (B : α → α → α) (m : MapFiles α) (wl : List α) (coord : Option (α × α)) (ds : Dict String (Descr α))
    (fs : Dict String (Filter α)) : Prop :=
  fs.map (fun kf => (kf.1, kf.2.rad.wl, kf.2.rad.data)) = ds.map (fun kd => (nameOf kd, wl, wl.map (radianceOf B m coord kd)))

theorem estimateLoop_foreground (B : α → α → α) (m : MapFiles α) (wl : List α) : ∀ (ds : Dict String (Descr α)) (s : Sky α)
    (fs : Dict String (Filter α)), s.foreground.getD [] = fs → (ds ≠ [] ∨ s.foreground.isSome) → (ds.map nameOf).Nodup →
    (∀ kd ∈ ds, nameOf kd ∉ fs.keys) →
    (estimateLoop B m wl ds s).2 = .ok () → ∃ fs', (estimateLoop B m wl ds s).1.foreground = some (fs ++ fs') ∧
      Stored B m wl (starCoordinates s) ds fs' := by
  intro ds
  induction ds with
  | nil =>
    intro s fs hfs hne _ _ _
    rcases hne with h | h
    · exact absurd rfl h
    · obtain ⟨g, hg⟩ := Option.isSome_iff_exists.mp h
      rw [hg] at hfs
      simp only [Option.getD_some] at hfs
      exact ⟨[], by simp [estimateLoop, hg, hfs], rfl⟩
  | cons kd ds ih =>
    obtain ⟨k, d⟩ := kd
    intro s fs hfs _ hn hnew hok
    have hone := estimateOne_foreground B m wl k d s
    unfold estimateLoop at hok ⊢
    revert hone hok
    generalize estimateOne B m wl k d s = r
    intro hone hok
    obtain ⟨s1, u⟩ := r
    cases u with
    | error e => simp at hok
    | ok u =>
      simp only at hok ⊢
      obtain ⟨t, h1, h2, h3⟩ := hone rfl
      have hk := hnew (k, d) (by simp)
      obtain ⟨hn1, hn2⟩ := List.nodup_cons.mp (by simpa using hn : (nameOf (k, d) :: ds.map nameOf).Nodup)
      rw [hfs, Optics.set_new _ _ _ hk] at h1
      have hc : starCoordinates s1 = starCoordinates s := by
        unfold starCoordinates; simp only at h2 h3; rw [h2, h3]
      obtain ⟨fs', e1, e2⟩ := ih s1 (fs ++ [(nameOf (k, d), ⟨⟨wl, wl.map (radianceOf B m (starCoordinates s) (k, d))⟩, t⟩)])
        (by simp only at h1; rw [h1]; rfl) (.inr (by simp only at h1; rw [h1]; rfl)) hn2 (by
          intro kd hm
          rw [Dict.keys_append]
          simp only [Dict.keys_cons, Dict.keys_nil, List.mem_append, List.mem_singleton, not_or]
          exact ⟨hnew kd (by simp [hm]), fun e => hn1 (e ▸ List.mem_map.mpr ⟨kd, hm, rfl⟩)⟩) hok
      refine ⟨_ :: fs', by rw [e1, List.append_assoc]; rfl, ?_⟩
      unfold Stored at e2 ⊢
      rw [hc] at e2
      simp only [List.map_cons, e2]

/-- C47: estimating the foregrounds of a fresh target (distinct names) stores every foreground of the payload, in order,
under its name, with its own radiance sampled on the working grid. -/
theorem foregrounds_stored (B : α → α → α) (m : MapFiles α) (wl : List α) (sec : Section α) (s : Sky α)
    (h0 : s.foreground = none) (hne : sec.list ≠ []) (hn : (sec.list.map nameOf).Nodup)
    (hok : (estimateForegrounds B m wl sec s).2 = .ok ()) : ∃ fs, (estimateForegrounds B m wl sec s).1.foreground = some fs ∧
      Stored B m wl (starCoordinates s) sec.list fs := by
  have key : ∀ ds, ds ≠ [] → (ds.map nameOf).Nodup → (estimateLoop B m wl ds s).2 = .ok () →
      ∃ fs, (estimateLoop B m wl ds s).1.foreground = some fs ∧ Stored B m wl (starCoordinates s) ds fs := by
    intro ds a b c
    simpa using estimateLoop_foreground B m wl ds s [] (by rw [h0]; rfl) (.inl a) b (by simp) c
  cases sec with
  | many ds => exact key ds hne hn hok
  | single d =>
    have e : estimateForegrounds B m wl (.single d) s = estimateLoop B m wl [(d.value, d)] s := by
      unfold estimateForegrounds estimateLoop
      simp only
      generalize estimateOne B m wl d.value d s = r
      obtain ⟨s1, u⟩ := r
      cases u <;> rfl
    rw [e] at hok ⊢
    exact key _ hne hn hok

/-- C47, both together: the columns a fresh target gets from its foregrounds are those of each foreground's own radiance
through the channel. -/
theorem observed_columns [FloorRing α] (B : α → α → α) (m : MapFiles α) (ch : Channel α) (qe tr : Rebin.Signal α) (wl : List α)
    (hx : wl.Pairwise (· < ·)) (hpos : ∀ w ∈ wl, 0 < w) (hlen : 2 ≤ wl.length) (sec : Section α) (s : Sky α)
    (h0 : s.foreground = none) (hne : sec.list ≠ []) (hn : (sec.list.map nameOf).Nodup)
    (hok : (estimateForegrounds B m wl sec s).2 = .ok ()) (out : Dict String (List α))
    (h : propagate ch qe tr (estimateForegrounds B m wl sec s).1 = .ok out) :
    out.keys = (sec.list.reverse).flatMap (fun kd => [nameOf kd ++ "_signal", nameOf kd ++ "_MaxSignal_inPixel"]) ∧
    ∀ kd ∈ sec.list, ∃ mx sig, alone ch qe tr ⟨wl, wl.map (radianceOf B m (starCoordinates s) kd)⟩ = .ok (mx, sig) ∧
      out.get? (nameOf kd ++ "_signal") = some sig ∧ out.get? (nameOf kd ++ "_MaxSignal_inPixel") = some mx := by
  obtain ⟨fs, hfs, hst⟩ := foregrounds_stored B m wl sec s h0 hne hn hok
  unfold Stored at hst
  have hkeys : fs.keys = sec.list.map nameOf := by
    have := congrArg (List.map Prod.fst) hst
    simpa [Dict.keys, List.map_map, Function.comp_def] using this
  obtain ⟨c1, c2⟩ := foreground_columns ch qe tr _ fs hfs (by rw [hkeys]; exact hn) wl hx hpos hlen (by
    intro kf hm
    have : (kf.1, kf.2.rad.wl, kf.2.rad.data) ∈ sec.list.map (fun kd => (nameOf kd, wl, wl.map (radianceOf B m (starCoordinates s) kd))) := by
      rw [← hst]; exact List.mem_map.mpr ⟨kf, hm, rfl⟩
    obtain ⟨kd, _, e⟩ := List.mem_map.mp this
    simp only [Prod.mk.injEq] at e
    exact e.2.1.symm) out h
  refine ⟨?_, ?_⟩
  · have hcol : ∀ l : List (String × Filter α), columns l = (l.map Prod.fst).flatMap (fun k => [k ++ "_signal", k ++ "_MaxSignal_inPixel"]) := by
      intro l; induction l with
      | nil => rfl
      | cons a l ih => simp [columns, ih]
    rw [c1, hcol, List.map_reverse]
    change (fs.keys.reverse).flatMap _ = _
    rw [hkeys, ← List.map_reverse, List.flatMap_map]
  · intro kd hm
    have : (nameOf kd, wl, wl.map (radianceOf B m (starCoordinates s) kd)) ∈ fs.map (fun kf => (kf.1, kf.2.rad.wl, kf.2.rad.data)) := by
      rw [hst]; exact List.mem_map.mpr ⟨kd, hm, rfl⟩
    obtain ⟨kf, hkf, e⟩ := List.mem_map.mp this
    simp only [Prod.mk.injEq] at e
    obtain ⟨mx, sig, a1, a2, a3⟩ := c2 kf hkf
    rw [e.1] at a2 a3
    refine ⟨mx, sig, ?_, a2, a3⟩
    rw [← a1]
    obtain ⟨kn, ⟨wl', dat'⟩, tt⟩ := kf
    simp only at e
    rw [← e.2.2, ← e.2.1]

/-- C47: without a slit, the signal of a foreground is the same number of counts in every pixel, the integral over the
working grid of radiance times optics transmission times quantum efficiency times étendue per photon energy. -/
theorem alone_slitless [FloorRing α] (ch : Channel α) (hs : ch.slitWidth = none) (qe tr : Rebin.Signal α) (wl data : List α)
    (hd : data.length = wl.length) (q t : Rebin.Signal α) (hq : qe.spectralRebin wl = .ok q) (ht : tr.spectralRebin wl = .ok t)
    (hql : q.data.length = wl.length) (htl : t.data.length = wl.length) :
    alone ch qe tr ⟨wl, data⟩ =
      let light := trapz wl (Instrument.sampled wl.length (fun i => data.getD i 0 * t.data.getD i 0 *
        (ch.omega * ch.area * q.data.getD i 0 * (wl.getD i 0 * ch.perPhoton))))
      .ok (ch.windowSize.map (fun _ => light), ch.windowSize.map (fun w => light * w)) := by
  have hqw : q.wl = wl := by
    unfold Rebin.Signal.spectralRebin at hq
    split at hq
    · cases hq
    · simp only [Except.ok.injEq] at hq; rw [← hq]
  unfold alone detect slitless
  simp only [ht, mulData, hd, htl, if_true, hs, hq]
  rw [if_pos (by simp [mulCol, hd, htl, hqw, hql])]
  simp only [integrateLight]
  have : mulCol (mulCol data t.data) (List.zipWith (fun w v => ch.omega * ch.area * v * (w * ch.perPhoton)) q.wl q.data) =
      Instrument.sampled wl.length (fun i => data.getD i 0 * t.data.getD i 0 *
        (ch.omega * ch.area * q.data.getD i 0 * (wl.getD i 0 * ch.perPhoton))) := by
    apply Instrument.eq_sampled
    · simp [mulCol, hd, htl, hqw, hql]
    · intro i hi
      rw [mulCol, Instrument.zipWith_getD_min _ _ _ _ (by simp [mulCol, hd, htl, hi]) (by simp [hqw, hql, hi]),
        mulCol, Instrument.zipWith_getD_min _ _ _ _ (by omega) (by omega),
        Instrument.zipWith_getD_min _ _ _ _ (by rw [hqw]; exact hi) (by omega), hqw]
  rw [this]

/-! ## Zodiacal light (C48) -/

/-- C48: the zodiacal radiance is linear in the coefficient. -/
theorem zodi_linear (B : α → α → α) (a b c d w : α) :
    zodiModel B (c * a + d * b) w = c * zodiModel B a w + d * zodiModel B b w := by
  unfold zodiModel; ring

/-- C48: with the black body of the code it is positive for a positive coefficient and strictly increasing in it. -/
theorem zodi_scales (a b w : ℝ) (hw : 0 < w) : (0 < a → 0 < zodiModel planck a w) ∧
    (a < b → zodiModel planck a w < zodiModel planck b w) ∧ zodiModel planck 0 w = 0 := by
  have h : 0 < (35 / 10 ^ 15 * planck w 5500 + 358 / 10 ^ 10 * planck w 270 : ℝ) := by
    have h1 := planck_pos w 5500 hw (by norm_num)
    have h2 := planck_pos w 270 hw (by norm_num)
    positivity
  unfold zodiModel
  exact ⟨fun ha => mul_pos ha h, fun hab => mul_lt_mul_of_pos_right hab h, zero_mul _⟩

/-- C48: at unit coefficient it is the Glasse et al. (2010) sum of two black bodies. -/
theorem zodi_unit (B : α → α → α) (w : α) : zodiModel B 1 w = 35 / 10 ^ 15 * B w 5500 + 358 / 10 ^ 10 * B w 270 := by
  unfold zodiModel; ring

/-- C48: the coefficient taken from a map is that of an entry no other entry is nearer than, in the (ra, dec) plane; an empty
map is a ValueError. -/
theorem map_nearest (rows : List (α × α × α)) (ra dec : α) :
    (rows = [] ∧ mapCoefficient rows ra dec = .error .valueError) ∨
    ∃ r ∈ rows, mapCoefficient rows ra dec = .ok r.2.2 ∧
      ∀ q ∈ rows, (r.1 - ra) ^ 2 + (r.2.1 - dec) ^ 2 ≤ (q.1 - ra) ^ 2 + (q.2.1 - dec) ^ 2 := by
  unfold mapCoefficient
  cases h : Psf.argmin (rows.map (fun r => (r.1 - ra) ^ 2 + (r.2.1 - dec) ^ 2)) with
  | error e =>
    obtain ⟨h1, rfl⟩ := Psf.argmin_error _ e h
    exact .inl ⟨by simpa using h1, rfl⟩
  | ok i =>
    right
    obtain ⟨v, hv, hmin, _⟩ := Psf.argmin_spec _ i h
    rw [List.getElem?_map] at hv
    cases hr : rows[i]? with
    | none => rw [hr] at hv; simp at hv
    | some r =>
      rw [hr] at hv
      simp only [Option.map_some, Option.some.injEq] at hv
      subst hv
      refine ⟨r, List.mem_of_getElem? hr, by simp [hr], ?_⟩
      intro q hq
      exact hmin _ (List.mem_map.mpr ⟨q, hq, rfl⟩)

/-- C48: the map used is the custom one if that file exists, otherwise the packaged one. -/
theorem map_used (m : MapFiles α) (hs : m.searched = m.packaged) (rows : List (α × α × α)) :
    (∀ f, f ≠ "" → m.file f = some (.ok rows) → readMap m (some f) = .ok rows) ∧
    (m.file m.packaged = some (.ok rows) → readMap m none = .ok rows ∧ ∀ f, m.file f = none → readMap m (some f) = .ok rows) := by
  refine ⟨fun f hf h => ?_, fun h => ⟨?_, fun f hf => ?_⟩⟩
  · unfold readMap; simp [hf, h]
  · unfold readMap; simp [h]
  · unfold readMap
    by_cases he : f = ""
    · simp [he, h]
    · simp [he, hf, hs, h]

/-- C48: with coordinates and a usable map the coefficient is that of the nearest entry; without coordinates or without the map
option it is the payload's factor (0 if there is none). -/
theorem zodi_coefficient_partial (m : MapFiles α) (d : Descr α) :
    (∀ ra dec rows, d.zodiacalMap = some true → readMap m d.mapFile = .ok rows → rows ≠ [] →
      ∃ r ∈ rows, zodiCoefficient m d (some (ra, dec)) = .ok r.2.2 ∧
        ∀ q ∈ rows, (r.1 - ra) ^ 2 + (r.2.1 - dec) ^ 2 ≤ (q.1 - ra) ^ 2 + (q.2.1 - dec) ^ 2) ∧
    (∀ c, (d.zodiacalMap ≠ some true ∨ c = none) → zodiCoefficient m d c = .ok (d.factor.getD 0)) := by
  refine ⟨fun ra dec rows h1 h2 h3 => ?_, fun c h => ?_⟩
  · rcases map_nearest rows ra dec with ⟨h, _⟩ | ⟨r, hr, h, hmin⟩
    · exact absurd h h3
    · exact ⟨r, hr, by simp [zodiCoefficient, fitDirection, h1, h2, h], hmin⟩
  · unfold zodiCoefficient
    split
    · rename_i h1; rcases h with h | h
      · exact absurd h1 h
      · cases h
    · cases d.factor <;> rfl

/-- C48: what a target gets. With both coordinates and a usable map, the zodiacal light scaled by the coefficient of the
nearest entry; without right ascension (or without the map option, with both coordinates) the light scaled by the
payload's factor. A star with a right ascension but no declination is a KeyError and leaves the target as it was. -/
theorem zodi_estimated_partial (B : α → α → α) (m : MapFiles α) (wl : List α) (d : Descr α) (s : Sky α) :
    (∀ ra dec rows, s.ra = some ra → s.dec = some dec → d.zodiacalMap = some true → readMap m d.mapFile = .ok rows → rows ≠ [] →
      ∃ r ∈ rows, (∀ q ∈ rows, (r.1 - ra) ^ 2 + (r.2.1 - dec) ^ 2 ≤ (q.1 - ra) ^ 2 + (q.2.1 - dec) ^ 2) ∧
        estimateZodi B m wl d s = ({ s with foreground := some ((s.foreground.getD []).set "zodi" ⟨⟨wl, wl.map (fun w =>
          r.2.2 * (35 / 10 ^ 15 * B w 5500 + 358 / 10 ^ 10 * B w 270))⟩, none⟩) }, .ok ())) ∧
    (s.ra = none ∨ s.dec.isSome ∧ d.zodiacalMap ≠ some true →
      estimateZodi B m wl d s = ({ s with foreground := some ((s.foreground.getD []).set "zodi" ⟨⟨wl, wl.map (fun w =>
        d.factor.getD 0 * (35 / 10 ^ 15 * B w 5500 + 358 / 10 ^ 10 * B w 270))⟩, none⟩) }, .ok ())) ∧
    (s.ra.isSome → s.dec = none → estimateZodi B m wl d s = (s, .error .keyError)) := by
  obtain ⟨z1, z2⟩ := zodi_coefficient_partial m d
  refine ⟨fun ra dec rows h1 h2 h3 h4 h5 => ?_, fun h => ?_, fun h1 h2 => ?_⟩
  · obtain ⟨r, hr, hc, hmin⟩ := z1 ra dec rows h3 h4 h5
    refine ⟨r, hr, hmin, ?_⟩
    have hco : coordinates s = .ok (some (ra, dec)) := by simp [coordinates, h1, h2]
    unfold estimateZodi
    rw [hco]
    dsimp only
    rw [hc]
    rfl
  · have hc : ∃ c, coordinates s = .ok c ∧ (d.zodiacalMap ≠ some true ∨ c = none) := by
      rcases h with h | ⟨h, hm⟩
      · exact ⟨none, by simp [coordinates, h], .inr rfl⟩
      · obtain ⟨dec, hd⟩ := Option.isSome_iff_exists.mp h
        cases hra : s.ra with
        | none => exact ⟨none, by simp [coordinates, hra], .inr rfl⟩
        | some ra => exact ⟨some (ra, dec), by simp [coordinates, hra, hd], .inl hm⟩
    obtain ⟨c, hc, hm⟩ := hc
    simp only [estimateZodi, hc, z2 c hm]
    rfl
  · obtain ⟨ra, hra⟩ := Option.isSome_iff_exists.mp h1
    simp only [estimateZodi, coordinates, hra, h2]

/-- The hypotheses of `zodi_estimated_partial` are met: a star at (10, 0) and a map of two entries. -/
example : (estimateZodi (fun _ _ => (1 : ℚ)) ⟨fun _ => some (.ok [((0 : ℚ), 0, 7), (9, 1, 8)]), "map", "map"⟩ [1]
      { value := "zodi", zodiacalMap := some true } { ra := some 10, dec := some 0 }).1.foreground.map (·.map (·.1)) = some ["zodi"] ∧
    (estimateZodi (fun _ _ => (1 : ℚ)) ⟨fun _ => some (.ok [((0 : ℚ), 0, 7), (9, 1, 8)]), "map", "map"⟩ [1]
      { value := "zodi", zodiacalMap := some true } { ra := some 10, dec := some 0 }).1.foreground.map (·.map (·.2.rad.data)) =
        some [[8 * (35 / 10 ^ 15 + 358 / 10 ^ 10)]] := by decide +kernel

/-- C48, the defect: if the map cannot be read, the default is not used: UnboundLocalError, whatever the factor. -/
theorem zodi_no_fallback (m : MapFiles α) (d : Descr α) (ra dec : α) (h1 : d.zodiacalMap = some true)
    (h2 : readMap m d.mapFile = .error .osError ∨ readMap m d.mapFile = .error .keyError) :
    zodiCoefficient m d (some (ra, dec)) = .error .unboundLocalError := by
  rcases h2 with h2 | h2 <;> simp [zodiCoefficient, fitDirection, h1, h2]

/-- C48, the defect: distances in right ascension do not wrap. A star at 359° gets the entry at 300°, not the one at 0°, one
degree away. -/
theorem zodi_no_wrap : mapCoefficient [((0 : ℚ), 0, 7), (300, 0, 9)] 359 0 = .ok 9 := by decide +kernel

/-! ## Concrete cases -/

/-- Two foregrounds, one custom table with transmission 1/2, and zodiacal light. -/
def demoSection : Section ℚ := .many [
  ("zodiacal", { value := "zodiacal", factor := some 2 }),
  ("sky", { value := "sky", data := some [("Wavelength", [1, 3]), ("Radiance", [4, 4]), ("Transmission", [1 / 2, 1 / 2])] })]

def demoMaps : MapFiles ℚ := ⟨fun _ => none, "", ""⟩

def demoChannel : Channel ℚ := ⟨[], [], none, 1, [], [1, 3], [], [], 1, 1, 1⟩

def demoWl : List ℚ := [1, 2, 3, 4]

def demoQe : Rebin.Signal ℚ := ⟨[1 / 2, 1, 2, 3, 4, 17 / 4], [1, 1, 1, 1, 1, 1]⟩

def demoRun (n : Nat) : Option (List ℚ) := ((observeTimes (fun _ _ => 0) demoMaps demoWl demoSection n {}).1.transmission).map (·.data)

theorem demo_once : demoRun 1 = some [1 / 2, 1 / 2, 1 / 2, 1] := by decide +kernel

/-- C47, the defect on a concrete case: observing the target again squares the transmission of its sky. -/
theorem demo_twice : demoRun 2 = some [1 / 4, 1 / 4, 1 / 4, 1] := by decide +kernel

def demoColumns (tr : ℚ) : Except Exc (Dict String (List ℚ)) :=
  propagate demoChannel demoQe demoQe
    { foreground := some [("near", ⟨⟨demoWl, [1, 1, 1, 1]⟩, some [tr, tr, tr, tr]⟩), ("far", ⟨⟨demoWl, [2, 2, 2, 2]⟩, none⟩)] }

/-- C47, the defect on a concrete case: an opaque foreground does not dim the one behind it. -/
theorem demo_opaque : demoColumns 0 = .ok [("far_signal", [15, 45]), ("far_MaxSignal_inPixel", [15, 15]),
    ("near_signal", [15 / 2, 45 / 2]), ("near_MaxSignal_inPixel", [15 / 2, 15 / 2])] ∧ demoColumns 0 = demoColumns 1 := by
  constructor
  · decide +kernel
  · decide +kernel

/-- The hypotheses of `observed_columns` on a concrete case. -/
example : (estimateForegrounds (fun _ _ => 0) demoMaps demoWl demoSection {}).2 = .ok () ∧ demoWl.Pairwise (· < ·) ∧
    (∀ w ∈ demoWl, 0 < w) ∧ 2 ≤ demoWl.length ∧ demoSection.list ≠ [] ∧ (demoSection.list.map nameOf).Nodup ∧
    (propagate demoChannel demoQe demoQe (estimateForegrounds (fun _ _ => 0) demoMaps demoWl demoSection {}).1).isOk = true := by
  decide +kernel

end ExoRad.Foreground
