import Verif.Props.Noise
import Verif.Props.Table
import Verif.Props.Options

/-!
# The noise estimate of a whole target: all channels, all rows

`total_noise_quadrature` is about one channel's own rows. Here the statement is about the rows of the target table
that `EstimateNoise` leaves behind.
-/

namespace ExoRad
open Num
noncomputable section

/-! ## Row selection -/

/-- The cells of a column in the rows of one channel, in row order: the code's mask `table["chName"] == name`. -/
theorem sel_rows (t : Table ℝ) (N : ℕ) (name : ℕ → String) (k c : String) (x : ℕ → Cell ℝ)
    (hch : t.get? "chName" = some ((List.range N).map (fun i => .str (name i))))
    (hk : t.get? k = some ((List.range N).map x)) :
    t.sel k c = .ok (((List.range N).filter (fun i => decide (name i = c))).map x) := by
  unfold Table.sel
  simp only [Dict.getE_ok hch, Dict.getE_ok hk, bind, Except.bind, pure, Except.pure]
  congr 1
  generalize List.range N = l
  induction l with
  | nil => rfl
  | cons i l ih =>
    by_cases h : name i = c
    · simp [h, ih]
    · simp [h, ih]

theorem numCol_fin (l : List ℕ) (x : ℕ → ℝ) :
    Table.numCol (l.map (fun i => Cell.num (fin (x i)))) = .ok (l.map (fun i => fin (x i))) := by
  induction l with
  | nil => rfl
  | cons i l ih => simp [Table.numCol, ih, bind, Except.bind, pure, Except.pure]

/-- The rows of a channel. -/
def rowsOf (N : ℕ) (name : ℕ → String) (c : String) : List ℕ := (List.range N).filter (fun i => decide (name i = c))

theorem getD_lt {β : Type} {l : List β} {d : β} {i : ℕ} (h : i < l.length) : l.getD i d = l[i] := by
  simp [List.getD, h]

theorem map_eq_bins (l : List ℕ) (x : ℕ → ℝ) : l.map (fun i => fin (x i)) = bins l.length (fun j => x (l.getD j 0)) := by
  unfold bins
  apply List.ext_getElem (by simp)
  intro i h1 h2
  simp only [List.length_map] at h1
  simp [List.getD, h1]

theorem selNum_rows (t : Table ℝ) (N : ℕ) (name : ℕ → String) (k c : String) (x : ℕ → ℝ)
    (hch : t.get? "chName" = some ((List.range N).map (fun i => .str (name i))))
    (hk : t.get? k = some ((List.range N).map (fun i => Cell.num (fin (x i))))) :
    t.selNum k c = .ok (bins (rowsOf N name c).length (fun j => x ((rowsOf N name c).getD j 0))) := by
  unfold Table.selNum
  rw [sel_rows t N name k c _ hch hk]
  simp only [bind, Except.bind]
  rw [numCol_fin, ← map_eq_bins]
  rfl

/-! ## Shape of a channel's noise table -/

/-- The columns every channel gets. -/
def baseCols (t : Table ℝ) : List String :=
  ["saturation_time", "frameTime", "darkcurrent_noise", "read_noise", "total_noise"] ++ (signalKeys t).map (· ++ "_noise")

/-- Columns of `n` values; those not in `base` are finite. -/
structure Shape (base : List String) (n : ℕ) (out : Out) : Prop where
  nodup : out.keys.Nodup
  col : ∀ q c, out.get? q = some c → c.length = n ∧ (q ∈ base ∨ ((∃ nm, q = nm ++ "_noise") ∧ ∀ x ∈ c, ∃ r, x = fin r))

theorem Shape.set {base : List String} {n : ℕ} {out : Out} (h : Shape base n out) (q : String) (c : List (Num ℝ))
    (hl : c.length = n) (hc : q ∈ base ∨ ((∃ nm, q = nm ++ "_noise") ∧ ∀ x ∈ c, ∃ r, x = fin r)) : Shape base n (out.set q c) := by
  refine ⟨Dict.nodup_set _ _ _ h.nodup, ?_⟩
  intro q' c' hq
  rw [Dict.get?_set] at hq
  split at hq
  · rename_i e; cases hq; rw [e]; exact ⟨hl, hc⟩
  · exact h.col q' c' hq

theorem mem_set_of_mem (out : Out) (q k : String) (c : List (Num ℝ)) (h : q ∈ out.keys) : q ∈ (out.set k c).keys :=
  (Dict.mem_keys_set _ _ _ _).mpr (.inr h)

theorem mem_set_self (out : Out) (k : String) (c : List (Num ℝ)) : k ∈ (out.set k c).keys :=
  (Dict.mem_keys_set _ _ _ _).mpr (.inl rfl)

theorem photonNoiseLoop_shape (t : Table ℝ) (name : String) (g : Num ℝ) (base : List String) (n : ℕ)
    (hlen : ∀ k l, t.selNum k name = .ok l → l.length = n) :
    ∀ (ks : List String) (out out' : Out), (∀ k ∈ ks, k ++ "_noise" ∈ base) → Shape base n out →
    photonNoiseLoop t name g ks out = .ok out' →
    Shape base n out' ∧ (∀ q ∈ out.keys, q ∈ out'.keys) ∧ ∀ k ∈ ks, k ++ "_noise" ∈ out'.keys
  | [], out, out', _, hs, h => by
    simp only [photonNoiseLoop, Except.ok.injEq] at h
    subst h
    exact ⟨hs, fun q hq => hq, by simp⟩
  | k :: ks, out, out', hb, hs, h => by
    unfold photonNoiseLoop at h
    cases hsel : t.selNum k name with
    | error e => simp [hsel, bind, Except.bind] at h
    | ok s =>
      simp only [hsel, bind, Except.bind] at h
      obtain ⟨a1, a2, a3⟩ := photonNoiseLoop_shape t name g base n hlen ks _ out'
        (fun k' hk' => hb k' (List.mem_cons_of_mem _ hk'))
        (hs.set _ _ (by simp [hlen k s hsel]) (.inl (hb k (by simp)))) h
      refine ⟨a1, fun q hq => a2 q (mem_set_of_mem _ _ _ _ hq), ?_⟩
      intro q hq
      rcases List.mem_cons.mp hq with rfl | hq
      · exact a2 _ (mem_set_self _ _ _)
      · exact a3 q hq

theorem applyCustom_shape (base : List String) (n : ℕ) (e : CustomEntry) (out : Out) (hb : "total_noise" ∈ base)
    (hs : Shape base n out) : Shape base n (applyCustom n e out).1 ∧ ∀ q ∈ out.keys, q ∈ (applyCustom n e out).1.keys := by
  unfold applyCustom
  split
  · exact ⟨hs, fun q hq => hq⟩
  rename_i v _
  split
  · exact ⟨hs, fun q hq => hq⟩
  rename_i nm _
  have h1 : Shape base n (out.set (nm ++ "_noise") (List.replicate n (fin v * fin (1 / 1000000) * fin 1))) := by
    apply hs.set _ _ (by simp)
    right
    refine ⟨⟨nm, rfl⟩, ?_⟩
    intro x hx
    rw [List.eq_of_mem_replicate hx]
    exact ⟨v * (1 / 1000000) * 1, by simp⟩
  simp only
  split
  · exact ⟨h1, fun q hq => mem_set_of_mem _ _ _ _ hq⟩
  rename_i tot ht
  refine ⟨h1.set _ _ ?_ (.inl hb), fun q hq => mem_set_of_mem _ _ _ _ (mem_set_of_mem _ _ _ _ hq)⟩
  simp [addQuad, (h1.col _ _ ht).1]

theorem applyCustoms_shape (base : List String) (n : ℕ) (hb : "total_noise" ∈ base) : ∀ (es : List CustomEntry) (out : Out),
    Shape base n out → Shape base n (applyCustoms n es out).1 ∧ ∀ q ∈ out.keys, q ∈ (applyCustoms n es out).1.keys
  | [], out, hs => ⟨hs, fun q hq => hq⟩
  | e :: es, out, hs => by
    obtain ⟨a1, a2⟩ := applyCustom_shape base n e out hb hs
    unfold applyCustoms
    cases h : applyCustom n e out with
    | mk o x =>
      rw [h] at a1 a2
      cases x with
      | some x => exact ⟨a1, a2⟩
      | none =>
        obtain ⟨b1, b2⟩ := applyCustoms_shape base n hb es o a1
        exact ⟨b1, fun q hq => b2 q (a2 q hq)⟩

theorem tryCustom_shape (base : List String) (n : ℕ) (hb : "total_noise" ∈ base) (c : Option CustomNoise) (out : Out)
    (hs : Shape base n out) : Shape base n (tryCustom c n out) ∧ ∀ q ∈ out.keys, q ∈ (tryCustom c n out).keys := by
  cases c with
  | none => exact ⟨hs, fun q hq => hq⟩
  | some c =>
    cases c with
    | single e => exact applyCustom_shape base n e out hb hs
    | many es => exact applyCustoms_shape base n hb es out hs

theorem totalNoiseCol_length (X : ℝ) : ∀ (a b c d : List (Num ℝ)) (n : ℕ), a.length = n → b.length = n → c.length = n →
    d.length = n → (totalNoiseCol X a b c d).length = n
  | [], [], [], [], n, h, _, _, _ => by simpa [totalNoiseCol] using h
  | a :: as, b :: bs, c :: cs, d :: ds, n, h1, h2, h3, h4 => by
    cases n with
    | zero => simp at h1
    | succ n => simp [totalNoiseCol, totalNoiseCol_length X as bs cs ds n (by simpa using h1) (by simpa using h2) (by simpa using h3) (by simpa using h4)]
  | [], _ :: _, _, _, n, h1, h2, _, _ => by simp at h1 h2; omega
  | _ :: _, [], _, _, n, h1, h2, _, _ => by simp at h1 h2; omega
  | [], [], _ :: _, _, n, h1, _, h3, _ => by simp at h1 h3; omega
  | _ :: _, _ :: _, [], _, n, h1, _, h3, _ => by simp at h1 h3; omega
  | [], [], [], _ :: _, n, h1, _, _, h4 => by simp at h1 h4; omega
  | _ :: _, _ :: _, _ :: _, [], n, h1, _, _, h4 => by simp at h1 h4; omega

theorem photonVarianceLoop_length (out : Out) (n : ℕ) (hc : ∀ q c, out.get? q = some c → c.length = n) :
    ∀ (ks : List String) (acc r : List (Num ℝ)), acc.length = n → photonVarianceLoop out ks acc = .ok r → r.length = n
  | [], acc, r, ha, h => by simp only [photonVarianceLoop, Except.ok.injEq] at h; rw [← h, ha]
  | k :: ks, acc, r, ha, h => by
    unfold photonVarianceLoop at h
    cases hg : out.getE (k ++ "_noise") with
    | error e => simp [hg, bind, Except.bind] at h
    | ok c =>
      simp only [hg, bind, Except.bind] at h
      exact photonVarianceLoop_length out n hc ks _ r (by simp [ha, hc _ _ (Dict.getE_eq_ok_iff.mp hg)]) h

/-- The table written for a channel: one value per row of the channel in every column, with all the base columns. -/
theorem estimate_shape (t : Table ℝ) (ch : NoiseChannel) (common : Option CustomNoise) (out : Out) (n : ℕ)
    (hlen : ∀ k l, t.selNum k ch.value = .ok l → l.length = n) (h : estimateNoiseInChannel t ch common = .ok out) :
    Shape (baseCols t) n out ∧ ∀ q ∈ baseCols t, q ∈ out.keys := by
  have hbm : ∀ q ∈ ["saturation_time", "frameTime", "darkcurrent_noise", "read_noise", "total_noise"], q ∈ baseCols t :=
    fun q hq => List.mem_append_left _ hq
  unfold estimateNoiseInChannel at h
  simp only [bind, Except.bind] at h
  split at h
  · cases h
  rename_i o1 ho1
  have s1 : Shape (baseCols t) n o1 ∧ "saturation_time" ∈ o1.keys ∧ "frameTime" ∈ o1.keys := by
    unfold frameTimeF at ho1
    simp only [bind, Except.bind] at ho1
    split at ho1
    · cases ho1
    rename_i mx hmx
    split at ho1
    · cases ho1
    rename_i well hw
    have s0 : Shape (baseCols t) n ([] : Out) := ⟨by simp, by simp⟩
    have s0' := s0.set "saturation_time" (mx.map (fun s => fin well / s)) (by simp [hlen _ _ hmx]) (.inl (hbm _ (by simp)))
    split at ho1
    · simp only [pure, Except.pure, Except.ok.injEq] at ho1
      subst ho1
      exact ⟨s0'.set _ _ (by simp [hlen _ _ hmx]) (.inl (hbm _ (by simp))), mem_set_of_mem _ _ _ _ (mem_set_self _ _ _), mem_set_self _ _ _⟩
    · split at ho1
      · cases ho1
      split at ho1
      · cases ho1
      · simp only [pure, Except.pure, Except.ok.injEq] at ho1
        subst ho1
        exact ⟨s0'.set _ _ (by simp [hlen _ _ hmx]) (.inl (hbm _ (by simp))), mem_set_of_mem _ _ _ _ (mem_set_self _ _ _), mem_set_self _ _ _⟩
  split at h
  · cases h
  rename_i ft hft
  split at h
  · cases h
  rename_i ft0 fts
  split at h
  · cases h
  rename_i gains hg
  split at h
  · cases h
  rename_i o2 ho2
  have s2 := photonNoiseLoop_shape t ch.value gains.2 (baseCols t) n hlen (signalKeys t) o1 o2
    (fun k hk => List.mem_append_right _ (List.mem_map.mpr ⟨k, hk, rfl⟩)) s1.1 ho2
  split at h
  · cases h
  rename_i window hwin
  split at h
  · cases h
  rename_i dark hdark
  split at h
  · cases h
  rename_i rn hrn
  have s3 := s2.1.set "darkcurrent_noise" (window.map (fun w => darkNoise1 gains.2 w (fin dark))) (by simp [hlen _ _ hwin]) (.inl (hbm _ (by simp)))
  split at h
  · cases h
  rename_i ft3 hft3
  have hl3 := (s3.col _ _ (Dict.getE_eq_ok_iff.mp hft3)).1
  have s4 := s3.set "read_noise" (List.zipWith (fun w f => readNoise1 gains.1 w f rn) window ft3) (by simp [hlen _ _ hwin, hl3]) (.inl (hbm _ (by simp)))
  split at h
  · cases h
  rename_i phot hphot
  have hlp : phot.length = n := by
    unfold photonNoiseVariance at hphot
    simp only [bind, Except.bind] at hphot
    split at hphot
    · cases hphot
    rename_i f hf
    exact photonVarianceLoop_length _ n (fun q c hq => (s4.col q c hq).1) _ _ _ (by simp [(s4.col _ _ (Dict.getE_eq_ok_iff.mp hf)).1]) hphot
  split at h
  · cases h
  rename_i signal hsig
  split at h
  · cases h
  rename_i dc hdc
  split at h
  · cases h
  rename_i rc hrc
  split at h
  · cases h
  rename_i wl hwl
  simp only [pure, Except.pure, Except.ok.injEq] at h
  have hlw := hlen _ _ hwl
  rw [hlw] at h
  have s5 := s4.set "total_noise" (totalNoiseCol (ch.noiseX.getD 0) dc phot rc signal)
    (totalNoiseCol_length _ _ _ _ _ n (s4.col _ _ (Dict.getE_eq_ok_iff.mp hdc)).1 hlp (s4.col _ _ (Dict.getE_eq_ok_iff.mp hrc)).1 (hlen _ _ hsig))
    (.inl (hbm _ (by simp)))
  have s6 := tryCustom_shape _ n (hbm "total_noise" (by simp)) common _ s5
  have s7 := tryCustom_shape _ n (hbm "total_noise" (by simp)) ch.customNoise _ s6.1
  subst h
  refine ⟨s7.1, ?_⟩
  intro q hq
  apply s7.2
  apply s6.2
  rcases List.mem_append.mp hq with hq | hq
  · simp only [List.mem_cons, List.not_mem_nil, or_false] at hq
    rcases hq with rfl | rfl | rfl | rfl | rfl
    · exact mem_set_of_mem _ _ _ _ (mem_set_of_mem _ _ _ _ (mem_set_of_mem _ _ _ _ (s2.2.1 _ s1.2.1)))
    · exact mem_set_of_mem _ _ _ _ (mem_set_of_mem _ _ _ _ (mem_set_of_mem _ _ _ _ (s2.2.1 _ s1.2.2)))
    · exact mem_set_of_mem _ _ _ _ (mem_set_of_mem _ _ _ _ (mem_set_self _ _ _))
    · exact mem_set_of_mem _ _ _ _ (mem_set_self _ _ _)
    · exact mem_set_self _ _ _
  · obtain ⟨k, hk, rfl⟩ := List.mem_map.mp hq
    exact mem_set_of_mem _ _ _ _ (mem_set_of_mem _ _ _ _ (mem_set_of_mem _ _ _ _ (s2.2.2 k hk)))

theorem substr_noise (nm : String) : substr "_noise" (nm ++ "_noise") = true := by
  unfold substr
  rw [Options.isInfixOfChars_iff]
  exact ⟨nm.toList, [], by simp⟩

/-- Every column a channel writes is a noise column, the frame time or the saturation time. -/
theorem noise_keys (t : Table ℝ) (n : ℕ) (out : Out) (h : Shape (baseCols t) n out) (q : String) (hq : q ∈ out.keys)
    (h1 : substr "_noise" q = false) (h2 : q ≠ "frameTime") (h3 : q ≠ "saturation_time") : False := by
  obtain ⟨c, hc⟩ := Dict.exists_get? hq
  rcases (h.col q c hc).2 with hb | ⟨⟨nm, rfl⟩, _⟩
  · rcases List.mem_append.mp hb with hb | hb
    · simp only [List.mem_cons, List.not_mem_nil, or_false] at hb
      rcases hb with rfl | rfl | rfl | rfl | rfl
      · exact h3 rfl
      · exact h2 rfl
      all_goals exact absurd h1 (by decide)
    · obtain ⟨k, _, rfl⟩ := List.mem_map.mp hb
      rw [substr_noise] at h1; cases h1
  · rw [substr_noise] at h1; cases h1

/-! ## The whole target -/

/-- A target table as it arrives at the noise estimate: `N` rows, row `i` belongs to channel `name i`; the columns that
matter hold the finite numbers `x column row`; signals, window sizes and maxima are not negative. -/
structure TargetTable (t : Table ℝ) (N : ℕ) (name : ℕ → String) (x : String → ℕ → ℝ) : Prop where
  nodup : t.keys.Nodup
  rect : ∀ k col, t.get? k = some col → col.length = N
  chName : t.get? "chName" = some ((List.range N).map (fun i => .str (name i)))
  cells : ∀ k ∈ t.keys, (substr "signal" k = true ∨ substr "Max" k = true ∨ k = "WindowSize" ∨ k = "Wavelength") →
    t.get? k = some ((List.range N).map (fun i => .num (fin (x k i))))
  star : "star_signal_inAperture" ∈ t.keys
  win : "WindowSize" ∈ t.keys
  wl : "Wavelength" ∈ t.keys
  signal0 : ∀ k ∈ t.keys, substr "signal" k = true → ∀ i < N, 0 ≤ x k i
  max0 : ∀ k ∈ t.keys, substr "Max" k = true → ∀ i < N, 0 ≤ x k i
  win0 : ∀ i < N, 0 ≤ x "WindowSize" i
  fresh : "MaxSignal_inPixel" ∉ t.keys

theorem numCol_length : ∀ (l : List (Cell ℝ)) (r : List (Num ℝ)), Table.numCol l = .ok r → r.length = l.length
  | [], r, h => by simp only [Table.numCol, Except.ok.injEq] at h; rw [← h]; rfl
  | .num v :: l, r, h => by
    unfold Table.numCol at h
    cases hl : Table.numCol l with
    | error e => simp [hl, bind, Except.bind] at h
    | ok r' =>
      simp only [hl, bind, Except.bind, pure, Except.pure, Except.ok.injEq] at h
      rw [← h]; simp [numCol_length l r' hl]
  | .str _ :: l, r, h => by simp [Table.numCol] at h

theorem selNum_length (t : Table ℝ) (N : ℕ) (name : ℕ → String) (c : String)
    (rect : ∀ k col, t.get? k = some col → col.length = N)
    (hch : t.get? "chName" = some ((List.range N).map (fun i => .str (name i)))) (k : String) (l : List (Num ℝ))
    (h : t.selNum k c = .ok l) : l.length = (rowsOf N name c).length := by
  unfold Table.selNum at h
  cases hg : t.get? k with
  | none =>
    have : t.sel k c = .error .keyError := by
      unfold Table.sel
      simp only [Dict.getE_ok hch, bind, Except.bind, Dict.getE_error ((Dict.get?_eq_none_iff t k).mp hg)]
    simp [this, bind, Except.bind] at h
  | some col =>
    have hcol : col = (List.range N).map (fun i => col.getD i (.str "")) := by
      have hl := rect k col hg
      apply List.ext_getElem (by simp [hl])
      intro i h1 h2
      simp [List.getD, h1]
    rw [hcol] at hg
    rw [sel_rows t N name k c _ hch hg] at h
    simp only [bind, Except.bind] at h
    rw [numCol_length _ _ h]
    simp [rowsOf]

theorem noiseTables_spec (t : Table ℝ) : ∀ (chs : List (NoiseChannel × Option CustomNoise)) (f : NoiseChannel × Option CustomNoise → Out),
    (∀ c ∈ chs, estimateNoiseInChannel t c.1 c.2 = .ok (f c)) → noiseTables t chs = .ok (chs.map (fun c => (f c).toTable))
  | [], _, _ => rfl
  | c :: cs, f, h => by
    have h1 := h c (by simp)
    have h2 := noiseTables_spec t cs f (fun d hd => h d (List.mem_cons_of_mem _ hd))
    obtain ⟨c1, c2⟩ := c
    simp only at h1
    simp [noiseTables, h1, h2, bind, Except.bind, pure, Except.pure]

theorem toTable_get? (o : Out) (q : String) : o.toTable.get? q = (o.get? q).map (fun c => c.map Cell.num) := by
  induction o with
  | nil => rfl
  | cons p o ih =>
    obtain ⟨k, c⟩ := p
    simp only [Out.toTable, List.map_cons, Dict.get?_cons] at ih ⊢
    split
    · rfl
    · exact ih

theorem toTable_keys (o : Out) : o.toTable.keys = o.keys := by
  simp [Out.toTable, Dict.keys, Function.comp_def]

/-- Per-channel columns put one after another are a column over the rows, when the rows are grouped by channel in
channel order. -/
theorem grouped {ι β : Type} (chs : List ι) (rows : ι → List ℕ) (cols : ι → List β) (P : ι → ℕ → β → Prop)
    (hl : ∀ c ∈ chs, List.Forall₂ (P c) (rows c) (cols c)) :
    List.Forall₂ (fun i y => ∃ c ∈ chs, i ∈ rows c ∧ P c i y) (chs.flatMap rows) (chs.flatMap cols) := by
  induction chs with
  | nil => exact .nil
  | cons c cs ih =>
    simp only [List.flatMap_cons]
    apply List.rel_append
    · have := hl c (by simp)
      have hm : ∀ (a : List ℕ) (b : List β), List.Forall₂ (P c) a b → (∀ i ∈ a, i ∈ rows c) →
          List.Forall₂ (fun i y => ∃ d ∈ c :: cs, i ∈ rows d ∧ P d i y) a b := by
        intro a b hab
        induction hab with
        | nil => intro _; exact .nil
        | cons h _ ih2 =>
          intro hi
          exact .cons ⟨c, by simp, hi _ (by simp), h⟩ (ih2 (fun i hii => hi i (List.mem_cons_of_mem _ hii)))
      exact hm _ _ this (fun i hi => hi)
    · exact (ih (fun d hd => hl d (List.mem_cons_of_mem _ hd))).imp (fun i y ⟨d, hd, h⟩ => ⟨d, List.mem_cons_of_mem _ hd, h⟩)

/-- The noise estimate of a whole target, before looking at any number: it succeeds, and the new columns are the stack of the
noise tables of the channels. -/
theorem estimate_noise_stack (t : Table ℝ) (N : ℕ) (name : ℕ → String) (x : String → ℕ → ℝ) (ht : TargetTable t N name x)
    (chs : List (NoiseChannel × Option CustomNoise)) (hne : chs ≠ [])
    (hbright : ∀ c ∈ chs, ∃ i < N, name i = c.1.value ∧ 0 < Table.maxTotal t x i)
    (well fw freq dark rn : NoiseChannel → ℝ)
    (hd : ∀ c ∈ chs, GoodDetector c.1.detector (well c.1) (fw c.1) (freq c.1) (dark c.1) (rn c.1)) :
    ∃ (t1 r0 : Table ℝ) (f : NoiseChannel × Option CustomNoise → Out), t.estimateMaxSignal = .ok t1 ∧
      t1.get? "MaxSignal_inPixel" = some ((List.range N).map (fun i => .num (fin (Table.maxTotal t x i)))) ∧
      (∀ c, c ≠ "MaxSignal_inPixel" → t1.get? c = t.get? c) ∧ t1.keys.Nodup ∧ t1.keys = t.keys ++ ["MaxSignal_inPixel"] ∧
      (∀ i, totalSignal t1 x i = totalSignal t x i) ∧
      (∀ c ∈ chs, ChannelRows t1 c.1.value (rowsOf N name c.1.value).length
        (fun k j => x k ((rowsOf N name c.1.value).getD j 0)) (fun j => x "WindowSize" ((rowsOf N name c.1.value).getD j 0))
        (fun j => Table.maxTotal t x ((rowsOf N name c.1.value).getD j 0))) ∧
      (∀ c ∈ chs, estimateNoiseInChannel t1 c.1 c.2 = .ok (f c)) ∧
      (∀ c ∈ chs, Shape (baseCols t1) (rowsOf N name c.1.value).length (f c) ∧ ∀ q ∈ baseCols t1, q ∈ (f c).keys) ∧
      r0.keys.Nodup ∧ (∀ q, q ∈ r0.keys ↔ ∃ c ∈ chs, q ∈ (f c).keys) ∧
      (∀ q ∈ r0.keys, r0.get? q = some (Table.stackedCol (chs.map (fun c => (f c).toTable)) q)) ∧
      (∀ c ∈ chs, (f c).toTable.rows = (rowsOf N name c.1.value).length) ∧
      estimateNoise t chs = .ok (t1.update r0) := by
  classical
  have hmaxcols : Table.MaxCols t N x := by
    refine ⟨ht.nodup, ?_, fun k hk hm => ht.cells k hk (.inr (.inl hm))⟩
    exact ⟨_, ht.cells _ ht.wl (.inr (.inr (.inr rfl))), by simp⟩
  obtain ⟨t1, m1, m2, m3, m4, m5, m6⟩ := Table.estimate_max_signal t N x hmaxcols
  have hk1 : t1.keys = t.keys ++ ["MaxSignal_inPixel"] := by
    rw [m6]
    congr 1
    rw [List.filter_eq_self]
    intro k hk
    have : k ≠ "MaxSignal_inPixel" := fun e => ht.fresh (e ▸ hk)
    simp [this]
  have hnm : substr "signal" "MaxSignal_inPixel" = false := by decide
  have hne1 : ∀ k ∈ t.keys, k ≠ "MaxSignal_inPixel" := fun k hk e => ht.fresh (e ▸ hk)
  have hmem1 : ∀ k ∈ t1.keys, substr "signal" k = true → k ∈ t.keys := by
    intro k hk hs
    rw [hk1] at hk
    rcases List.mem_append.mp hk with h | h
    · exact h
    · simp only [List.mem_cons, List.not_mem_nil, or_false] at h
      rw [h, hnm] at hs; cases hs
  have hch1 : t1.get? "chName" = some ((List.range N).map (fun i => .str (name i))) := by
    rw [m3 _ (by decide), ht.chName]
  have hrect1 : ∀ k col, t1.get? k = some col → col.length = N := by
    intro k col hg
    by_cases h : k = "MaxSignal_inPixel"
    · rw [h, m2] at hg; cases hg; simp
    · rw [m3 k h] at hg; exact ht.rect k col hg
  have htotS : ∀ i, totalSignal t1 x i = totalSignal t x i := by
    intro i
    unfold totalSignal
    rw [hk1, List.filter_append]
    simp [hnm]
  have hrowlt : ∀ c, ∀ i ∈ rowsOf N name c, i < N ∧ name i = c := by
    intro c i hi
    have := List.mem_filter.mp hi
    exact ⟨List.mem_range.mp this.1, by simpa using this.2⟩
  have hmemrow : ∀ c i, i < N → name i = c → i ∈ rowsOf N name c := by
    intro c i hi hn
    exact List.mem_filter.mpr ⟨List.mem_range.mpr hi, by simpa using hn⟩
  have hgd : ∀ c j, j < (rowsOf N name c).length → (rowsOf N name c).getD j 0 < N ∧ name ((rowsOf N name c).getD j 0) = c := by
    intro c j hj
    apply hrowlt
    rw [getD_lt hj]
    exact List.getElem_mem hj
  have hrows : ∀ c ∈ chs, ChannelRows t1 c.1.value (rowsOf N name c.1.value).length
      (fun k j => x k ((rowsOf N name c.1.value).getD j 0)) (fun j => x "WindowSize" ((rowsOf N name c.1.value).getD j 0))
      (fun j => Table.maxTotal t x ((rowsOf N name c.1.value).getD j 0)) := by
    intro c hcm
    obtain ⟨i0, hi0, hin0, hpos0⟩ := hbright c hcm
    have hi0m := hmemrow _ _ hi0 hin0
    obtain ⟨j0, hj0, hj0e⟩ := List.mem_iff_getElem.mp hi0m
    refine ⟨m5, List.length_pos_of_mem hi0m, ?_, ?_, ?_, ?_, ?_, ?_, ?_, ?_, ?_⟩
    · intro k hk hs
      have hk' := hmem1 k hk hs
      exact selNum_rows t1 N name k _ _ hch1 (by rw [m3 k (hne1 k hk')]; exact ht.cells k hk' (.inl hs))
    · intro k hk hs j hj
      exact ht.signal0 k (hmem1 k hk hs) hs _ (hgd _ j hj).1
    · rw [m4]; exact .inr ht.star
    · exact selNum_rows t1 N name _ _ _ hch1 (by rw [m3 _ (by decide)]; exact ht.cells _ ht.win (.inr (.inr (.inl rfl))))
    · intro j hj; exact ht.win0 _ (hgd _ j hj).1
    · exact selNum_rows t1 N name _ _ _ hch1 m2
    · intro j hj
      apply List.sum_nonneg
      intro y hy
      obtain ⟨k, hk, rfl⟩ := List.mem_map.mp hy
      rw [List.mem_filter] at hk
      exact ht.max0 k hk.1 hk.2 _ (hgd _ j hj).1
    · exact ⟨j0, hj0, by rw [getD_lt hj0, hj0e]; exact hpos0⟩
    · exact ⟨_, selNum_rows t1 N name _ _ _ hch1 (by rw [m3 _ (by decide)]; exact ht.cells _ ht.wl (.inr (.inr (.inr rfl))))⟩
  have hq : ∀ c : {c // c ∈ chs}, ∃ out, estimateNoiseInChannel t1 c.1.1 c.1.2 = .ok out := fun c => by
    obtain ⟨_, _, _, _, _, _, _, _, h, _⟩ := estimate_explicit t1 c.1.1 c.1.2 _ _ _ _ _ _ _ _ _ (hrows c.1 c.2) (hd c.1 c.2)
    exact ⟨_, h⟩
  choose out0 q1 using hq
  let f : NoiseChannel × Option CustomNoise → Out := fun c => if h : c ∈ chs then out0 ⟨c, h⟩ else []
  have hf : ∀ c (h : c ∈ chs), f c = out0 ⟨c, h⟩ := fun c h => by simp [f, h]
  have hsh : ∀ c (h : c ∈ chs), Shape (baseCols t1) (rowsOf N name c.1.value).length (f c) ∧ ∀ q ∈ baseCols t1, q ∈ (f c).keys := by
    intro c h
    apply estimate_shape t1 c.1 c.2 (f c) _ (selNum_length t1 N name c.1.value hrect1 hch1)
    rw [hf c h]; exact q1 ⟨c, h⟩
  have hnt := noiseTables_spec t1 chs f (fun c h => by rw [hf c h]; exact q1 ⟨c, h⟩)
  have hRect : ∀ c (h : c ∈ chs), Table.Rect (f c).toTable (rowsOf N name c.1.value).length := by
    intro c h
    refine ⟨?_, ?_, ?_⟩
    · intro e
      have : "frameTime" ∈ (f c).toTable.keys := by
        rw [toTable_keys]; exact (hsh c h).2 _ (List.mem_append_left _ (by simp))
      rw [e] at this; simp at this
    · rw [toTable_keys]; exact (hsh c h).1.nodup
    · intro p hp
      obtain ⟨p', hp', rfl⟩ := List.mem_map.mp hp
      have := Dict.get?_of_mem (hsh c h).1.nodup hp'
      simpa using ((hsh c h).1.col _ _ this).1
  have hfill : Table.Fillable (chs.map (fun c => (f c).toTable)) := by
    intro u hu p hp
    obtain ⟨c, hcm, rfl⟩ := List.mem_map.mp hu
    obtain ⟨p', hp', rfl⟩ := List.mem_map.mp hp
    have := Dict.get?_of_mem (hsh c hcm).1.nodup hp'
    rcases ((hsh c hcm).1.col _ _ this).2 with h | ⟨_, h⟩
    · left
      intro v hv
      obtain ⟨d, hdm, rfl⟩ := List.mem_map.mp hv
      rw [toTable_keys]
      exact (hsh d hdm).2 _ h
    · right
      intro y hy
      obtain ⟨z, hz, rfl⟩ := List.mem_map.mp hy
      obtain ⟨w, rfl⟩ := h z hz
      exact ⟨w, rfl⟩
  obtain ⟨r0, ts', v1, v2, v3, v4, v5, v6⟩ := Table.vstack_tables_complete (chs.map (fun c => (f c).toTable)) (by simpa using hne)
    (by
      intro u hu
      obtain ⟨c, hcm, rfl⟩ := List.mem_map.mp hu
      exact ⟨_, (hrows c hcm).npos, hRect c hcm⟩) hfill
  have hest : estimateNoise t chs = .ok (t1.update r0) := by
    simp [estimateNoise, m1, hnt, v1, bind, Except.bind, pure, Except.pure]
  refine ⟨t1, r0, f, m1, m2, m3, m5, hk1, htotS, hrows, fun c h => by rw [hf c h]; exact q1 ⟨c, h⟩, hsh, v2.nodup, ?_, v5,
    fun c h => (hRect c h).rows, hest⟩
  intro q
  rw [v3]
  constructor
  · rintro ⟨u, hu, hq⟩
    obtain ⟨c, hc, rfl⟩ := List.mem_map.mp hu
    exact ⟨c, hc, by rwa [toTable_keys] at hq⟩
  · rintro ⟨c, hc, hq⟩
    exact ⟨_, List.mem_map.mpr ⟨c, hc, rfl⟩, by rwa [toTable_keys]⟩

/-- C01, C04, C06 end to end: `EstimateNoise` on a whole target. The rows of the table are grouped by channel, in
channel order (as the channel merge leaves them); every channel has at least one row with a positive maximum signal. Then
the estimate succeeds, keeps every column it does not compute, sets `MaxSignal_inPixel` to the sum of the maxima, writes
one frame time per channel that never overfills a pixel, and in each row `total_noise` is NaN if the star signal of
that row is zero and otherwise the root of the relative variance of the specification, evaluated with the numbers of
exactly that row and the options of the channel of that row. -/
theorem estimate_noise_target (t : Table ℝ) (N : ℕ) (name : ℕ → String) (x : String → ℕ → ℝ) (ht : TargetTable t N name x)
    (chs : List (NoiseChannel × Option CustomNoise)) (hne : chs ≠ [])
    (hgroup : chs.flatMap (fun c => rowsOf N name c.1.value) = List.range N)
    (hbright : ∀ c ∈ chs, ∃ i < N, name i = c.1.value ∧ 0 < Table.maxTotal t x i)
    (well fw freq dark rn : NoiseChannel → ℝ)
    (hd : ∀ c ∈ chs, GoodDetector c.1.detector (well c.1) (fw c.1) (freq c.1) (dark c.1) (rn c.1))
    (hX : ∀ c ∈ chs, -1 ≤ c.1.noiseX.getD 0)
    (hc : ∀ c ∈ chs, (∀ e ∈ entries c.2, GoodEntry e) ∧ ∀ e ∈ entries c.1.customNoise, GoodEntry e) :
    ∃ (r : Table ℝ) (ft : String → ℝ) (tot : ℕ → Num ℝ), estimateNoise t chs = .ok r ∧ r.keys.Nodup ∧
      (∀ q ∈ t.keys, substr "_noise" q = false → q ≠ "frameTime" → q ≠ "saturation_time" → r.get? q = t.get? q) ∧
      r.get? "MaxSignal_inPixel" = some ((List.range N).map (fun i => .num (fin (Table.maxTotal t x i)))) ∧
      r.get? "frameTime" = some ((List.range N).map (fun i => .num (fin (ft (name i))))) ∧
      r.get? "total_noise" = some ((List.range N).map (fun i => .num (tot i))) ∧
      ∀ c ∈ chs, 0 < ft c.1.value ∧ (∀ f, c.1.detector.frameTime = some f → ft c.1.value = f) ∧
        (c.1.detector.frameTime = none → ∃ i < N, name i = c.1.value ∧ ft c.1.value * Table.maxTotal t x i = fw c.1 * well c.1) ∧
        ∀ i < N, name i = c.1.value →
          (c.1.detector.frameTime = none → ft c.1.value * Table.maxTotal t x i ≤ fw c.1 * well c.1) ∧
          (x "star_signal_inAperture" i = 0 → tot i = nan) ∧
          (x "star_signal_inAperture" i ≠ 0 → ∃ T, tot i = fin T ∧ 0 ≤ T ∧
            T ^ 2 = Spec.relVariance
              { dark := dark c.1, read := rn c.1, excess := c.1.noiseX.getD 0, frame := ft c.1.value, freq := freq c.1,
                avg := c.1.detector.multiaccumM.getD 1 }
              { star := x "star_signal_inAperture" i, total := totalSignal t x i, window := x "WindowSize" i }
              (values (entries c.2) ++ values (entries c.1.customNoise))) := by
  classical
  obtain ⟨t1, r0, f, -, m2, m3, m5, hk1, htotS, hrows, hfo, hsh, v2, v3, v5, -, hest⟩ :=
    estimate_noise_stack t N name x ht chs hne hbright well fw freq dark rn hd
  have hne1 : ∀ k ∈ t.keys, k ≠ "MaxSignal_inPixel" := fun k hk e => ht.fresh (e ▸ hk)
  have hrowlt : ∀ c, ∀ i ∈ rowsOf N name c, i < N ∧ name i = c := by
    intro c i hi
    have := List.mem_filter.mp hi
    exact ⟨List.mem_range.mp this.1, by simpa using this.2⟩
  have hmemrow : ∀ c i, i < N → name i = c → i ∈ rowsOf N name c := by
    intro c i hi hn
    exact List.mem_filter.mpr ⟨List.mem_range.mpr hi, by simpa using hn⟩
  have hgd : ∀ c j, j < (rowsOf N name c).length → (rowsOf N name c).getD j 0 < N ∧ name ((rowsOf N name c).getD j 0) = c := by
    intro c j hj
    apply hrowlt
    rw [getD_lt hj]
    exact List.getElem_mem hj
  have hq : ∀ c : {c // c ∈ chs}, _ := fun c => total_noise_quadrature t1 c.1.1 c.1.2 _ _ _ _ _ _ _ _ _
    (hrows c.1 c.2) (hd c.1 c.2) (hX c.1 c.2) (hc c.1 c.2).1 (hc c.1 c.2).2
  choose out0 ft0 tot0 q1 q2 q3 q4 q5 q6 q7 q8 using hq
  have hf : ∀ c (h : c ∈ chs), f c = out0 ⟨c, h⟩ := fun c h => by
    have := (hfo c h).symm.trans (q1 ⟨c, h⟩)
    simpa using this
  obtain ⟨u1, u2, u3, u4⟩ := Table.update_spec t1 r0 m5 v2
  -- columns computed by every channel
  have hstack : ∀ (q : String) (col : NoiseChannel × Option CustomNoise → List (Num ℝ)), chs.flatMap (fun c => (col c).map Cell.num) =
      Table.stackedCol (chs.map (fun c => (f c).toTable)) q ∨ ¬ (∀ c (h : c ∈ chs), (f c).get? q = some (col c)) := by
    intro q col
    by_cases h : ∀ c (h : c ∈ chs), (f c).get? q = some (col c)
    · left
      unfold Table.stackedCol
      rw [List.flatMap_map]
      apply List.flatMap_congr
      intro c hcm
      simp only [ toTable_get?, h c hcm, Option.map_some]
    · exact .inr h
  have hcolr : ∀ q ∈ baseCols t1, (t1.update r0).get? q = some (Table.stackedCol (chs.map (fun c => (f c).toTable)) q) := by
    intro q hqm
    obtain ⟨c, hcm⟩ := List.exists_mem_of_ne_nil _ hne
    have hk : q ∈ r0.keys := (v3 q).mpr ⟨c, hcm, (hsh c hcm).2 q hqm⟩
    rw [u1, if_pos hk, v5 q hk]
  -- frame time as a function of the channel name
  have hft : ∀ c ∈ chs, ∀ d ∈ chs, c.1.value = d.1.value → c = d := by
    intro c hcm d hdm hv
    by_contra hcd
    obtain ⟨l1, l2, hl⟩ := List.append_of_mem hcm
    obtain ⟨i, hi, hin, _⟩ := hbright c hcm
    have hi1 := hmemrow _ _ hi hin
    have hi2 : i ∈ rowsOf N name d.1.value := hv ▸ hi1
    have hnd := hgroup ▸ List.nodup_range (n := N)
    rw [hl, List.flatMap_append, List.flatMap_cons] at hnd
    have hd' : d ∈ l1 ∨ d ∈ l2 := by
      rw [hl] at hdm
      rcases List.mem_append.mp hdm with h | h
      · exact .inl h
      · rcases List.mem_cons.mp h with h | h
        · exact absurd h.symm hcd
        · exact .inr h
    rcases hd' with h | h
    · have h1 : i ∈ l1.flatMap (fun c => rowsOf N name c.1.value) := List.mem_flatMap.mpr ⟨d, h, hi2⟩
      exact (List.nodup_append.mp hnd).2.2 i h1 i (List.mem_append_left _ hi1) rfl
    · have h1 : i ∈ l2.flatMap (fun c => rowsOf N name c.1.value) := List.mem_flatMap.mpr ⟨d, h, hi2⟩
      exact (List.nodup_append.mp (List.nodup_append.mp hnd).2.1).2.2 i hi1 i h1 rfl
  let ft : String → ℝ := fun s => if h : ∃ c, ∃ hm : c ∈ chs, c.1.value = s then ft0 ⟨h.choose, h.choose_spec.choose⟩ else 0
  have hftc : ∀ c (hm : c ∈ chs), ft c.1.value = ft0 ⟨c, hm⟩ := by
    intro c hm
    have hex : ∃ d, ∃ hm : d ∈ chs, d.1.value = c.1.value := ⟨c, hm, rfl⟩
    simp only [ft, dif_pos hex]
    congr 1
    apply Subtype.ext
    exact hft _ hex.choose_spec.choose _ hm hex.choose_spec.choose_spec
  -- the total noise, row by row
  let totc : NoiseChannel × Option CustomNoise → List (Num ℝ) := fun c => if h : c ∈ chs then tot0 ⟨c, h⟩ else []
  have htotc : ∀ c (h : c ∈ chs), totc c = tot0 ⟨c, h⟩ := fun c h => by simp [totc, h]
  have hrow : ∀ c ∈ chs, List.Forall₂ (fun i y => (x "star_signal_inAperture" i = 0 → y = nan) ∧
      (x "star_signal_inAperture" i ≠ 0 → ∃ T, y = fin T ∧ 0 ≤ T ∧
        T ^ 2 = Spec.relVariance
          { dark := dark c.1, read := rn c.1, excess := c.1.noiseX.getD 0, frame := ft c.1.value, freq := freq c.1,
            avg := c.1.detector.multiaccumM.getD 1 }
          { star := x "star_signal_inAperture" i, total := totalSignal t x i, window := x "WindowSize" i }
          (values (entries c.2) ++ values (entries c.1.customNoise)))) (rowsOf N name c.1.value) (totc c) := by
    intro c hcm
    rw [htotc c hcm, List.forall₂_iff_get]
    refine ⟨(q7 ⟨c, hcm⟩).symm, ?_⟩
    intro j h1 h2
    have := q8 ⟨c, hcm⟩ j h1
    simp only [getD_lt h1] at this
    simp only [List.get_eq_getElem]
    have he : (tot0 ⟨c, hcm⟩)[j]? = some (tot0 ⟨c, hcm⟩)[j] := List.getElem?_eq_getElem h2
    rw [he] at this
    simp only [Option.some.injEq] at this
    refine ⟨this.1, ?_⟩
    intro hs
    obtain ⟨T, e1, e2, e3⟩ := this.2 hs
    refine ⟨T, e1, e2, ?_⟩
    rw [e3, hftc c hcm]
    congr 2
    rw [← htotS]
    unfold totalSignal
    rw [List.getElem_eq_getD 0]
  have hall := grouped chs (fun c => rowsOf N name c.1.value) totc _ hrow
  rw [hgroup] at hall
  have hlen := hall.length_eq
  simp only [List.length_range] at hlen
  refine ⟨t1.update r0, ft, fun i => (chs.flatMap totc).getD i nan, hest, u3, ?_, ?_, ?_, ?_, ?_⟩
  · intro q hqm hq1 hq2 hq3
    rw [u1, if_neg, m3 q (hne1 q hqm)]
    intro hk
    obtain ⟨c, hcm, hqu⟩ := (v3 q).mp hk
    exact noise_keys t1 _ (f c) (hsh c hcm).1 q hqu hq1 hq2 hq3
  · rw [u1, if_neg, m2]
    intro hk
    obtain ⟨c, hcm, hqu⟩ := (v3 _).mp hk
    exact noise_keys t1 _ (f c) (hsh c hcm).1 _ hqu (by decide) (by decide) (by decide)
  · rw [hcolr _ (List.mem_append_left _ (by simp))]
    rcases hstack "frameTime" (fun c => (rowsOf N name c.1.value).map (fun i => fin (ft (name i)))) with h | h
    · rw [← h, ← hgroup, List.map_flatMap]
      congr 2
      funext c
      rw [List.map_map]
      rfl
    · exfalso
      apply h
      intro c hcm
      rw [hf c hcm, q2 ⟨c, hcm⟩]
      congr 1
      unfold bins
      rw [← hftc c hcm]
      apply List.ext_getElem (by simp)
      intro j h1 h2
      simp only [List.length_map] at h2
      have := (hrowlt c.1.value _ (List.getElem_mem h2)).2
      simp [this]
  · rw [hcolr _ (List.mem_append_left _ (by simp))]
    rcases hstack "total_noise" totc with h | h
    · rw [← h]
      congr 1
      rw [← List.map_flatMap]
      apply List.ext_getElem (by rw [List.length_map, ← hlen]; simp)
      intro j h1 h2
      rw [List.length_map] at h1
      rw [List.getElem_map, List.getElem_map, List.getElem_range]
      simp only [getD_lt h1]
    · exfalso
      apply h
      intro c hcm
      rw [hf c hcm, q6 ⟨c, hcm⟩, htotc c hcm]
  · intro c hcm
    refine ⟨by rw [hftc c hcm]; exact q3 ⟨c, hcm⟩, fun g hg => by rw [hftc c hcm]; exact q4 ⟨c, hcm⟩ g hg, ?_, ?_⟩
    · intro hn
      obtain ⟨_, j, hj, hje⟩ := q5 ⟨c, hcm⟩ hn
      exact ⟨_, (hgd _ j hj).1, (hgd _ j hj).2, by rw [hftc c hcm]; exact hje⟩
    · intro i hi hin
      have him := hmemrow _ _ hi hin
      obtain ⟨j, hj, hje⟩ := List.mem_iff_getElem.mp him
      refine ⟨?_, ?_⟩
      · intro hn
        have := (q5 ⟨c, hcm⟩ hn).1 j hj
        rw [getD_lt hj, hje] at this
        rw [hftc c hcm]; exact this
      · have hfi := List.Forall₂.get hall (by simpa using hi : i < (List.range N).length) (by rw [← hlen]; exact hi)
        simp only [List.get_eq_getElem, List.getElem_range] at hfi
        obtain ⟨d, hdm, hid, hP⟩ := hfi
        have : d = c := hft d hdm c hcm (by rw [← (hrowlt _ _ hid).2, hin])
        subst this
        have hil : i < (chs.flatMap totc).length := by rw [← hlen]; exact hi
        simp only [getD_lt hil]
        exact hP

/-! ## Non-vacuity -/

def exNames (i : ℕ) : String := ["P", "P", "S"].getD i ""

def exCells (k : String) (i : ℕ) : ℝ :=
  if k = "Wavelength" then [1, 2, 3].getD i 0 else if k = "star_signal_inAperture" then [100, 0, 50].getD i 0
  else if k = "zodi_signal" then [3, 4, 5].getD i 0 else if k = "WindowSize" then [4, 4, 9].getD i 0
  else if k = "star_MaxSignal_inPixel" then [10, 0, 5].getD i 0 else 0

/-- A target with two channels. -/
def exTarget : Table ℝ :=
  ("chName", (List.range 3).map (fun i => .str (exNames i))) ::
    ["Wavelength", "star_signal_inAperture", "zodi_signal", "WindowSize", "star_MaxSignal_inPixel"].map
      (fun k => (k, (List.range 3).map (fun i => .num (fin (exCells k i)))))

theorem exTarget_ok : TargetTable exTarget 3 exNames exCells ∧
    [exCh, { exCh with value := "S" }].flatMap (fun c => rowsOf 3 exNames c.value) = List.range 3 ∧
    (∀ c ∈ [exCh, { exCh with value := "S" }], ∃ i < 3, exNames i = c.value ∧ 0 < Table.maxTotal exTarget exCells i) := by
  have hkeys : exTarget.keys = ["chName", "Wavelength", "star_signal_inAperture", "zodi_signal", "WindowSize", "star_MaxSignal_inPixel"] := rfl
  have hget : ∀ k ∈ exTarget.keys, k ≠ "chName" → exTarget.get? k = some ((List.range 3).map (fun i => .num (fin (exCells k i)))) := by
    intro k hk hne
    rw [hkeys] at hk
    simp only [List.mem_cons, List.not_mem_nil, or_false] at hk
    rcases hk with rfl | rfl | rfl | rfl | rfl | rfl
    · exact absurd rfl hne
    all_goals rfl
  have hnn : ∀ k i, 0 ≤ exCells k i := by
    intro k i
    unfold exCells
    split_ifs <;> rcases i with _ | _ | _ | i <;> norm_num
  have hmax : ∀ i, Table.maxTotal exTarget exCells i = [10, 0, 5].getD i 0 := by
    intro i
    have : exTarget.keys.filter (fun k => substr "Max" k) = ["star_MaxSignal_inPixel"] := by rw [hkeys]; decide
    unfold Table.maxTotal
    rw [this]
    simp [exCells]
  refine ⟨⟨?_, ?_, rfl, ?_, ?_, ?_, ?_, fun k _ _ i _ => hnn k i, fun k _ _ i _ => hnn k i, fun i _ => hnn _ i, ?_⟩, ?_, ?_⟩
  · rw [hkeys]; decide
  · intro k col hg
    by_cases hc : k = "chName"
    · subst hc
      have : exTarget.get? "chName" = some ((List.range 3).map (fun i => .str (exNames i))) := rfl
      rw [this] at hg; cases hg; rfl
    · rw [hget k (Dict.mem_keys_of_get? hg) hc] at hg; cases hg; simp
  · intro k hk h
    apply hget k hk
    rintro rfl
    revert h; decide
  · rw [hkeys]; decide
  · rw [hkeys]; decide
  · rw [hkeys]; decide
  · rw [hkeys]; decide
  · decide
  · intro c hc
    simp only [List.mem_cons, List.not_mem_nil, or_false] at hc
    rcases hc with rfl | rfl
    · exact ⟨0, by norm_num, rfl, by rw [hmax]; norm_num⟩
    · exact ⟨2, by norm_num, rfl, by rw [hmax]; norm_num⟩

end
end ExoRad
