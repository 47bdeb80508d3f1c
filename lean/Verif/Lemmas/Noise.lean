import Verif.Model.Noise
import Verif.Lemmas.Dict
import Verif.Spec.Noise
import Mathlib.Tactic.FieldSimp
import Mathlib.Tactic.Positivity
import Mathlib.Tactic.Linarith
import Mathlib.Tactic.Ring
import Mathlib.Algebra.BigOperators.Group.List.Basic

/-! Helper lemmas for the noise model. -/

namespace ExoRad
open Num
noncomputable section

/-- A column of `n` finite values. -/
def bins (n : ℕ) (f : ℕ → ℝ) : List (Num ℝ) := (List.range n).map (fun i => fin (f i))

@[simp] theorem bins_length (n f) : (bins n f).length = n := by simp [bins]

theorem bins_map (n f) (g : Num ℝ → Num ℝ) :
    (bins n f).map g = (List.range n).map (fun i => g (fin (f i))) := by simp [bins]

theorem zipWith_map_map {ι β γ δ : Type} (l : List ι) (a : ι → β) (b : ι → γ) (f : β → γ → δ) :
    List.zipWith f (l.map a) (l.map b) = l.map (fun i => f (a i) (b i)) := by
  induction l with
  | nil => rfl
  | cons x l ih => simp [ih]

theorem zipWith_bins (n a b) : List.zipWith (· + ·) (bins n a) (bins n b)
    = bins n (fun i => a i + b i) := by
  unfold bins; rw [zipWith_map_map]; rfl

theorem replicate_eq_range (n : ℕ) {β : Type} (c : β) :
    List.replicate n c = (List.range n).map (fun _ => c) := by
  rw [List.map_const']; simp

theorem bins_congr {n : ℕ} {f g : ℕ → ℝ} (h : ∀ i < n, f i = g i) : bins n f = bins n g := by
  unfold bins
  apply List.map_congr_left
  intro i hi
  rw [h i (List.mem_range.mp hi)]

/-! ### minimum -/

/-- Values `np.min` can treat without producing NaN or `-inf`. -/
def finOrInf (a : Num ℝ) : Prop := a = posInf ∨ ∃ x, a = fin x

theorem foldl_min2 (l : List (Num ℝ)) (a : Num ℝ) (ha : finOrInf a) (hl : ∀ b ∈ l, finOrInf b) :
    finOrInf (l.foldl min2 a) ∧ (l.foldl min2 a = a ∨ l.foldl min2 a ∈ l) ∧
    (∀ x, (a = fin x ∨ fin x ∈ l) → ∃ y, l.foldl min2 a = fin y ∧ y ≤ x) := by
  induction l generalizing a with
  | nil =>
    refine ⟨ha, Or.inl rfl, ?_⟩
    rintro x (rfl | h)
    · exact ⟨x, rfl, le_rfl⟩
    · simp at h
  | cons b l ih =>
    have hb := hl b (by simp)
    have hm : finOrInf (min2 a b) ∧ (min2 a b = a ∨ min2 a b = b) ∧
        (∀ x, (a = fin x ∨ b = fin x) → ∃ y, min2 a b = fin y ∧ y ≤ x) := by
      rcases ha with rfl | ⟨x, rfl⟩ <;> rcases hb with rfl | ⟨y, rfl⟩
      · refine ⟨Or.inl rfl, Or.inl rfl, by simp⟩
      · refine ⟨Or.inr ⟨y, rfl⟩, Or.inr rfl, ?_⟩
        rintro z (h | h)
        · simp at h
        · simp at h; subst h; exact ⟨y, rfl, le_rfl⟩
      · refine ⟨Or.inr ⟨x, rfl⟩, Or.inl rfl, ?_⟩
        rintro z (h | h)
        · simp at h; subst h; exact ⟨x, rfl, le_rfl⟩
        · simp at h
      · have he : min2 (fin x) (fin y) = if y < x then fin y else fin x := by
          simp [min2]
        rw [he]
        by_cases h : y < x
        · rw [if_pos h]
          refine ⟨Or.inr ⟨y, rfl⟩, Or.inr rfl, ?_⟩
          rintro z (hz | hz) <;> simp at hz <;> subst hz
          · exact ⟨y, rfl, h.le⟩
          · exact ⟨y, rfl, le_rfl⟩
        · rw [if_neg h]
          refine ⟨Or.inr ⟨x, rfl⟩, Or.inl rfl, ?_⟩
          rintro z (hz | hz) <;> simp at hz <;> subst hz
          · exact ⟨x, rfl, le_rfl⟩
          · exact ⟨x, rfl, not_lt.mp h⟩
    obtain ⟨h1, h2, h3⟩ := hm
    have := ih (min2 a b) h1 (fun c hc => hl c (List.mem_cons_of_mem _ hc))
    obtain ⟨i1, i2, i3⟩ := this
    rw [List.foldl_cons]
    refine ⟨i1, ?_, ?_⟩
    · rcases i2 with i2 | i2
      · rcases h2 with h2 | h2
        · left; rw [i2, h2]
        · right; rw [i2, h2]; simp
      · right; exact List.mem_cons_of_mem _ i2
    · intro x hx
      have : (a = fin x ∨ b = fin x) ∨ fin x ∈ l := by
        rcases hx with hx | hx
        · exact Or.inl (Or.inl hx)
        · rcases List.mem_cons.mp hx with hx | hx
          · exact Or.inl (Or.inr hx.symm)
          · exact Or.inr hx
      rcases this with hx | hx
      · obtain ⟨y, hy, hyx⟩ := h3 x hx
        obtain ⟨z, hz, hzy⟩ := i3 y (Or.inl hy)
        exact ⟨z, hz, hzy.trans hyx⟩
      · exact i3 x (Or.inr hx)

/-- `np.min` over finite values and `+inf`, at least one finite. -/
theorem minList_spec (l : List (Num ℝ)) (hl : ∀ b ∈ l, finOrInf b) (x₀ : ℝ) (hx₀ : fin x₀ ∈ l) :
    ∃ μ, minList l = some (fin μ) ∧ fin μ ∈ l ∧ ∀ x, fin x ∈ l → μ ≤ x := by
  cases l with
  | nil => simp at hx₀
  | cons a l =>
    obtain ⟨-, h2, h3⟩ := foldl_min2 l a (hl a (by simp)) (fun b hb => hl b (List.mem_cons_of_mem _ hb))
    have key : ∀ x, fin x ∈ a :: l → ∃ y, l.foldl min2 a = fin y ∧ y ≤ x := by
      intro x hx
      apply h3
      rcases List.mem_cons.mp hx with hx | hx
      · exact Or.inl hx.symm
      · exact Or.inr hx
    obtain ⟨μ, hμ, -⟩ := key x₀ hx₀
    refine ⟨μ, by simp [minList, hμ], ?_, ?_⟩
    · rcases h2 with h2 | h2
      · rw [← hμ, h2]; simp
      · rw [← hμ]; exact List.mem_cons_of_mem _ h2
    · intro x hx
      obtain ⟨y, hy, hyx⟩ := key x hx
      rw [hμ] at hy; cases hy; exact hyx

/-! ### multiaccum -/

theorem reads_ge (t f : ℝ) : 2 ≤ Spec.reads t f := le_max_left _ _

theorem shotGain_pos {n : ℝ} (h : 2 ≤ n) : 0 < Spec.shotGain n := by
  unfold Spec.shotGain; positivity

theorem readGain_pos {n m : ℝ} (h : 2 ≤ n) (hm : 0 < m) : 0 < Spec.readGain n m := by
  unfold Spec.readGain
  have : 0 < n - 1 := by linarith
  positivity

theorem multiaccum_fin (d : Detector) (t f : ℝ) (ht : t ≠ 0) (hf : d.freqNDR = some f)
    (hm : ∀ m, d.multiaccumM = some m → m ≠ 0) :
    multiaccum d (fin t) = .ok (fin (Spec.readGain (Spec.reads t f) (d.multiaccumM.getD 1)),
      fin (Spec.shotGain (Spec.reads t f))) := by
  have hm' : d.multiaccumM.getD 1 ≠ 0 := by
    cases h : d.multiaccumM with
    | none => simp
    | some m => simpa using hm m h
  have hmm : multiaccumM d = fin (d.multiaccumM.getD 1) := by
    unfold multiaccumM; cases d.multiaccumM <;> rfl
  have hn : (if lt (Num.floor (fin t * fin f)) (fin 2) then fin 2 else Num.floor (fin t * fin f) : Num ℝ)
      = fin (Spec.reads t f) := by
    simp only [fin_mul, Num.floor, lt_fin, decide_eq_true_eq, Spec.reads]
    by_cases h : ((⌊t * f⌋ : ℤ) : ℝ) < 2
    · rw [if_pos h, max_eq_left h.le]
    · rw [if_neg h, max_eq_right (not_lt.mp h)]
  have h2 := reads_ge t f
  unfold multiaccum
  simp only [key, hf, bind, Except.bind, pure, Except.pure]
  rw [hmm, hn]
  generalize Spec.reads t f = n at h2 ⊢
  generalize d.multiaccumM.getD 1 = m at hm' ⊢
  have e1 : n * n + n ≠ 0 := by positivity
  have e2 : n * n + 1 ≠ 0 := by positivity
  have e3 : n - 1 ≠ 0 := by
    have : 0 < n - 1 := by linarith
    exact this.ne'
  simp only [fin_mul, fin_sub, fin_add, fin_div _ _ e1, fin_div _ _ hm', fin_div _ _ e2,
    fin_div _ _ e3, fin_div _ _ ht, fin_div _ (5 : ℝ) (by norm_num), fin_div _ (3 : ℝ) (by norm_num)]
  have hn0 : n ≠ 0 := by positivity
  have hn1 : n + 1 ≠ 0 := by positivity
  congr 2
  · congr 1
    unfold Spec.readGain
    have : n * n + n = n * (n + 1) := by ring
    rw [this]
  · congr 1
    unfold Spec.shotGain
    have : n * n + n = n * (n + 1) := by ring
    rw [this]
    field_simp
    ring

/-! ### photon noise -/

theorem photonNoise1_fin {g s : ℝ} (h : 0 ≤ g * s) :
    photonNoise1 (fin g) (fin s) = fin (Real.sqrt (g * s / 3600)) := by
  unfold photonNoise1
  rw [fin_mul, fin_mul, fin_div _ _ (by norm_num), sqrt_fin (by simpa using div_nonneg h (by norm_num))]
  simp

theorem append_noise_inj {a b : String} (h : a ++ "_noise" = b ++ "_noise") : a = b := by
  simpa using h

theorem photonNoiseLoop_spec (t : Table ℝ) (name : String) (g : ℝ) (n : ℕ) (sig : String → ℕ → ℝ)
    (ks : List String)
    (h : ∀ k ∈ ks, t.selNum k name = .ok (bins n (sig k))) (out : Out) :
    ∃ out', photonNoiseLoop t name (fin g) ks out = .ok out' ∧
      (∀ k ∈ ks, out'.get? (k ++ "_noise") = some ((bins n (sig k)).map (photonNoise1 (fin g)))) ∧
      (∀ q, (∀ k ∈ ks, q ≠ k ++ "_noise") → out'.get? q = out.get? q) ∧
      (∀ q, q ∈ out'.keys ↔ q ∈ out.keys ∨ ∃ k ∈ ks, q = k ++ "_noise") := by
  induction ks generalizing out with
  | nil => exact ⟨out, rfl, by simp, by simp, by simp⟩
  | cons k ks ih =>
    have hk := h k (by simp)
    obtain ⟨out', h1, h2, h3, h4⟩ := ih (fun k' hk' => h k' (List.mem_cons_of_mem _ hk'))
      (out.set (k ++ "_noise") ((bins n (sig k)).map (photonNoise1 (fin g))))
    refine ⟨out', ?_, ?_, ?_, ?_⟩
    · simp only [photonNoiseLoop, hk, bind, Except.bind]; exact h1
    · intro q hq
      by_cases hqk : q ∈ ks
      · exact h2 q hqk
      · rcases List.mem_cons.mp hq with rfl | hq
        · rw [h3]
          · simp
          · intro k' hk' e
            exact hqk (append_noise_inj e ▸ hk')
        · exact absurd hq hqk
    · intro q hq
      rw [h3 q (fun k' hk' => hq k' (List.mem_cons_of_mem _ hk')), Dict.get?_set_ne _ _ (hq k (by simp))]
    · intro q
      rw [h4, Dict.mem_keys_set]
      simp only [List.mem_cons, exists_eq_or_imp]
      tauto

theorem photonVarianceLoop_spec (out : Out) (n : ℕ) (g : ℝ) (sig : String → ℕ → ℝ)
    (ks : List String)
    (h : ∀ k ∈ ks, out.get? (k ++ "_noise") = some ((bins n (sig k)).map (photonNoise1 (fin g))))
    (hn : ∀ k ∈ ks, ∀ i < n, 0 ≤ g * sig k i) (a : ℕ → ℝ) :
    photonVarianceLoop out ks (bins n a) =
      .ok (bins n (fun i => a i + g * (ks.map (fun k => sig k i)).sum / 3600)) := by
  induction ks generalizing a with
  | nil => simp [photonVarianceLoop]
  | cons k ks ih =>
    have hk := h k (by simp)
    unfold photonVarianceLoop
    simp only [Dict.getE_ok hk, bind, Except.bind]
    have : List.map (fun x : Num ℝ => x * x) ((bins n (sig k)).map (photonNoise1 (fin g)))
        = bins n (fun i => g * sig k i / 3600) := by
      unfold bins
      rw [List.map_map, List.map_map]
      apply List.map_congr_left
      intro i hi
      have h0 := hn k (by simp) i (List.mem_range.mp hi)
      simp only [Function.comp]
      rw [photonNoise1_fin h0, fin_mul, Real.mul_self_sqrt (div_nonneg h0 (by norm_num))]
    rw [this, zipWith_bins, ih (fun k' hk' => h k' (List.mem_cons_of_mem _ hk'))
      (fun k' hk' => hn k' (List.mem_cons_of_mem _ hk'))]
    congr 1
    apply bins_congr
    intro i _
    simp only [List.map_cons, List.sum_cons]
    ring

/-! ### total noise and custom noise -/

theorem totalNoiseCol_map {ι : Type} (X : ℝ) (l : List ι) (a b c d : ι → Num ℝ) :
    totalNoiseCol X (l.map a) (l.map b) (l.map c) (l.map d)
      = l.map (fun i => totalNoise1 X (a i) (b i) (c i) (d i)) := by
  induction l with
  | nil => rfl
  | cons x l ih => simp [totalNoiseCol, ih]

/-- A well formed custom noise entry, not named `total`. -/
def GoodEntry (e : CustomEntry) : Prop :=
  (∃ v, e.value = some v) ∧ ∃ nm, e.name = some nm ∧ nm ≠ "total"

/-- The entries of a custom noise option. -/
def entries : Option CustomNoise → List CustomEntry
  | none => []
  | some (.single e) => [e]
  | some (.many es) => es

/-- The values of the entries (absent ones are dropped; a `GoodEntry` always has one). -/
def values (es : List CustomEntry) : List ℝ := es.filterMap CustomEntry.value

/-- Total noise after a list of custom noises, one bin. -/
def quadAll (t : Num ℝ) (vs : List ℝ) : Num ℝ :=
  vs.foldl (fun t v => sqrt (t * t + fin (v / 1000000) * fin (v / 1000000))) t

theorem total_ne {nm : String} (h : nm ≠ "total") : "total_noise" ≠ nm ++ "_noise" := by
  intro e
  have : ("total" ++ "_noise" : String) = nm ++ "_noise" := by simpa using e
  exact h (append_noise_inj this).symm

theorem applyCustom_good (n : ℕ) (e : CustomEntry) (he : GoodEntry e) (out : Out)
    (tot : ℕ → Num ℝ) (ht : out.get? "total_noise" = some ((List.range n).map tot)) :
    ∃ v out', e.value = some v ∧ applyCustom n e out = (out', none) ∧
      out'.get? "total_noise" = some ((List.range n).map (fun i => quadAll (tot i) [v])) ∧
      (∀ q, q ≠ "total_noise" → (∀ nm, e.name = some nm → q ≠ nm ++ "_noise") →
        out'.get? q = out.get? q) := by
  obtain ⟨⟨v, hv⟩, nm, hnm, hne⟩ := he
  refine ⟨v, (out.set (nm ++ "_noise") (List.replicate n (fin v * fin (1 / 1000000) * fin 1))).set
    "total_noise" (addQuad ((List.range n).map tot)
      (List.replicate n (fin v * fin (1 / 1000000) * fin 1))), hv, ?_, ?_, ?_⟩
  · unfold applyCustom
    simp only [hv, hnm]
    rw [Dict.get?_set_ne _ _ (total_ne hne), ht]
  · simp only [Dict.get?_set_self]
    congr 1
    unfold addQuad
    rw [replicate_eq_range, zipWith_map_map]
    apply List.map_congr_left
    intro i _
    simp only [quadAll, List.foldl_cons, List.foldl_nil]
    have : (fin v * fin (1 / 1000000) * fin 1 : Num ℝ) = fin (v / 1000000) := by
      rw [fin_mul, fin_mul]; congr 1; ring
    rw [this]
  · intro q hq1 hq2
    rw [Dict.get?_set_ne _ _ hq1, Dict.get?_set_ne _ _ (hq2 nm hnm)]

theorem quadAll_append (t : Num ℝ) (a b : List ℝ) : quadAll t (a ++ b) = quadAll (quadAll t a) b := by
  simp [quadAll, List.foldl_append]

theorem applyCustoms_good (n : ℕ) (es : List CustomEntry) (he : ∀ e ∈ es, GoodEntry e) (out : Out)
    (tot : ℕ → Num ℝ) (ht : out.get? "total_noise" = some ((List.range n).map tot)) :
    ∃ out', applyCustoms n es out = (out', none) ∧
      out'.get? "total_noise" = some ((List.range n).map (fun i => quadAll (tot i) (values es))) ∧
      (∀ q, q ≠ "total_noise" → (∀ e ∈ es, ∀ nm, e.name = some nm → q ≠ nm ++ "_noise") →
        out'.get? q = out.get? q) := by
  induction es generalizing out tot with
  | nil => exact ⟨out, rfl, by simpa [values, quadAll] using ht, by simp⟩
  | cons e es ih =>
    obtain ⟨v, out₁, hv, h1, h2, h3⟩ := applyCustom_good n e (he e (by simp)) out tot ht
    obtain ⟨out₂, g1, g2, g3⟩ := ih (fun e' h' => he e' (List.mem_cons_of_mem _ h')) out₁ _ h2
    refine ⟨out₂, ?_, ?_, ?_⟩
    · simp only [applyCustoms, h1]; exact g1
    · rw [g2]
      have : values (e :: es) = [v] ++ values es := by simp [values, hv]
      simp only [this, quadAll_append]
    · intro q hq1 hq2
      rw [g3 q hq1 (fun e' h' => hq2 e' (List.mem_cons_of_mem _ h')), h3 q hq1 (hq2 e (by simp))]

theorem tryCustom_good (n : ℕ) (c : Option CustomNoise) (he : ∀ e ∈ entries c, GoodEntry e)
    (out : Out) (tot : ℕ → Num ℝ) (ht : out.get? "total_noise" = some ((List.range n).map tot)) :
    (tryCustom c n out).get? "total_noise"
      = some ((List.range n).map (fun i => quadAll (tot i) (values (entries c)))) ∧
    (∀ q, q ≠ "total_noise" → (∀ e ∈ entries c, ∀ nm, e.name = some nm → q ≠ nm ++ "_noise") →
        (tryCustom c n out).get? q = out.get? q) := by
  cases c with
  | none => simpa [tryCustom, entries, values, quadAll] using ht
  | some c =>
    cases c with
    | single e =>
      obtain ⟨out', h1, h2, h3⟩ := applyCustoms_good n [e] he out tot ht
      have : applyCustom n e out = (out', none) := by
        simp only [applyCustoms] at h1
        split at h1
        · simp at h1
        · rename_i o' heq; rw [heq]; exact h1
      simp only [tryCustom, addCustomNoise, this]
      exact ⟨h2, h3⟩
    | many es =>
      obtain ⟨out', h1, h2, h3⟩ := applyCustoms_good n es he out tot ht
      simp only [tryCustom, addCustomNoise, h1]
      exact ⟨h2, h3⟩

theorem quadAll_nan (vs : List ℝ) : quadAll nan vs = nan := by
  induction vs with
  | nil => rfl
  | cons v vs ih =>
    simp only [quadAll, List.foldl_cons] at ih ⊢
    simpa using ih

theorem quadAll_fin (vs : List ℝ) (t : ℝ) (ht : 0 ≤ t) :
    ∃ T, quadAll (fin t) vs = fin T ∧ 0 ≤ T ∧
      T ^ 2 = t ^ 2 + (vs.map (fun v => (v / 1000000) ^ 2)).sum := by
  induction vs generalizing t with
  | nil => exact ⟨t, rfl, ht, by simp⟩
  | cons v vs ih =>
    have h0 : 0 ≤ t * t + v / 1000000 * (v / 1000000) :=
      add_nonneg (mul_self_nonneg _) (mul_self_nonneg _)
    obtain ⟨T, h1, h2, h3⟩ := ih (Real.sqrt (t * t + v / 1000000 * (v / 1000000))) (Real.sqrt_nonneg _)
    refine ⟨T, ?_, h2, ?_⟩
    · simp only [quadAll, List.foldl_cons] at h1 ⊢
      rw [fin_mul, fin_mul, fin_add, sqrt_fin h0]; exact h1
    · rw [h3, Real.sq_sqrt h0]
      simp only [List.map_cons, List.sum_cons]; ring

end
end ExoRad
