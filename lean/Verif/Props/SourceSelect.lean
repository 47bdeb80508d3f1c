import Verif.Props.Source

/-!
# Which star is built (C51, C52), and the black body of a hotter star (C49, C50)
-/

set_option linter.unusedSectionVars false

namespace ExoRad.Source

open ExoRad.Diffuse

variable {α : Type} [Field α] [LinearOrder α] [IsStrictOrderedRing α] [FloorRing α]

/-! ## Rounding and ranges -/

/-- `np.round` is at most one half away. -/
theorem roundEven_near (x : α) : |roundEven x - x| ≤ 1 / 2 := by
  have h1 := Int.floor_le x
  have h2 := Int.lt_floor_add_one x
  unfold roundEven
  simp only
  rw [abs_le]
  split_ifs <;> push_cast <;> constructor <;> linarith

/-- Whole numbers are not changed by `np.round`. -/
theorem roundEven_int (n : Int) : roundEven (n : α) = n := by
  unfold roundEven
  simp

/-! ## The library (C52) -/

theorem mapE_ok {β γ : Type} (f : β → Except Exc γ) : ∀ (l : List β) (cs : List γ), mapE f l = .ok cs →
    List.Forall₂ (fun b c => f b = .ok c) l cs
  | [], cs, h => by simp only [mapE, Except.ok.injEq] at h; rw [← h]; exact .nil
  | b :: l, cs, h => by
    unfold mapE at h
    split at h
    · cases h
    · rename_i c hc
      split at h
      · cases h
      · rename_i cs' hcs
        simp only [Except.ok.injEq] at h
        rw [← h]
        exact .cons hc (mapE_ok f l cs' hcs)

theorem mapE_error {β γ : Type} (f : β → Except Exc γ) : ∀ (l : List β) (e : Exc), mapE f l = .error e → ∃ b ∈ l, f b = .error e
  | [], e, h => by simp [mapE] at h
  | b :: l, e, h => by
    unfold mapE at h
    split at h
    · rename_i e' he
      cases h; exact ⟨b, by simp, he⟩
    · split at h
      · rename_i e' he
        obtain ⟨b', hb, h'⟩ := mapE_error f l e' he
        cases h; exact ⟨b', by simp [hb], h'⟩
      · cases h

/-- What a file name says: temperature (in 100 K), gravity, metallicity. -/
def Says (float : List Char → Option α) (name : String) (t g z : α) : Prop :=
  ∃ s0 s1 s2 : List Char, (∃ rest, Misc.splitOn '-' name.toList = s0 :: s1 :: s2 :: rest) ∧
    float (s0.drop 3) = some t ∧ float s1 = some g ∧ float (s2.take 3) = some z

theorem piece_ok (name : String) (i : Nat) (s : List Char) (h : piece name i = .ok s) : (Misc.splitOn '-' name.toList)[i]? = some s := by
  unfold piece at h
  split at h
  · rename_i s' hs; simp only [Except.ok.injEq] at h; rw [← h, hs]
  · cases h

theorem toFloat_ok (float : List Char → Option α) (s : List Char) (v : α) (h : toFloat float s = .ok v) : float s = some v := by
  unfold toFloat at h
  split at h
  · rename_i v' hv; simp only [Except.ok.injEq] at h; rw [← h, hv]
  · cases h

theorem says_iff (float : List Char → Option α) (name : String) (t g z : α) : Says float name t g z ↔
    fileT float name = .ok t ∧ fileG float name = .ok g ∧ fileZ float name = .ok z := by
  constructor
  · rintro ⟨s0, s1, s2, ⟨rest, h⟩, h0, h1, h2⟩
    simp [fileT, fileG, fileZ, piece, h, toFloat, h0, h1, h2]
  · rintro ⟨ht, hg, hz⟩
    unfold fileT at ht
    unfold fileG at hg
    unfold fileZ at hz
    cases hp0 : piece name 0 with
    | error e => rw [hp0] at ht; simp at ht
    | ok s0 =>
      cases hp1 : piece name 1 with
      | error e => rw [hp1] at hg; simp at hg
      | ok s1 =>
        cases hp2 : piece name 2 with
        | error e => rw [hp2] at hz; simp at hz
        | ok s2 =>
          rw [hp0] at ht
          rw [hp1] at hg
          rw [hp2] at hz
          simp only at ht hg hz
          have k0 := piece_ok _ _ _ hp0
          have k1 := piece_ok _ _ _ hp1
          have k2 := piece_ok _ _ _ hp2
          refine ⟨s0, s1, s2, ?_, toFloat_ok _ _ _ ht, toFloat_ok _ _ _ hg, toFloat_ok _ _ _ hz⟩
          match hs : Misc.splitOn '-' name.toList with
          | [] => rw [hs] at k0; simp at k0
          | [a] => rw [hs] at k1; simp at k1
          | [a, b] => rw [hs] at k2; simp at k2
          | a :: b :: c :: rest =>
            rw [hs] at k0 k1 k2
            simp only [List.getElem?_cons_zero, List.getElem?_cons_succ, Option.some.injEq] at k0 k1 k2
            exact ⟨rest, by rw [k0, k1, k2]⟩

/-- The distance of a library entry from the star. -/
def dist (t g z t' g' z' : α) : α := |t - t'| + |g - g'| + |z - z'|

theorem forall₂_get {β γ : Type} {P : β → γ → Prop} : ∀ {l : List β} {m : List γ}, List.Forall₂ P l m → ∀ (i : Nat) b, l[i]? = some b →
    ∃ c, m[i]? = some c ∧ P b c
  | _, _, .nil, i, b, h => by simp at h
  | _, _, .cons (a := x) (b := y) hp hs, 0, b, h => by
    simp only [List.getElem?_cons_zero, Option.some.injEq] at h
    exact ⟨y, rfl, h ▸ hp⟩
  | _, _, .cons hp hs, i + 1, b, h => by
    simp only [List.getElem?_cons_succ] at h ⊢
    exact forall₂_get hs i b h

theorem distances_get (ts gs zs : List α) (t g z : α) (i : Nat) (a b c : α) (ha : ts[i]? = some a) (hb : gs[i]? = some b)
    (hc : zs[i]? = some c) : (distances ts gs zs t g z)[i]? = some (dist a b c t g z) := by
  unfold distances dist
  simp [List.getElem?_zipWith, ha, hb, hc]

theorem parseFiles_ok (float : List Char → Option α) (files : List String) (ts gs zs : List α)
    (h : parseFiles float files = .ok (ts, gs, zs)) : ts.length = files.length ∧ ∀ (i : Nat) f, files[i]? = some f →
      ∃ t g z, ts[i]? = some t ∧ gs[i]? = some g ∧ zs[i]? = some z ∧ Says float f t g z := by
  unfold parseFiles at h
  cases ht : mapE (fileT float) files with
  | error e => rw [ht] at h; simp at h
  | ok ts' =>
    cases hg : mapE (fileG float) files with
    | error e => rw [ht, hg] at h; simp at h
    | ok gs' =>
      cases hz : mapE (fileZ float) files with
      | error e => rw [ht, hg, hz] at h; simp at h
      | ok zs' =>
        rw [ht, hg, hz] at h
        simp only [Except.ok.injEq, Prod.mk.injEq] at h
        obtain ⟨rfl, rfl, rfl⟩ := h
        refine ⟨(mapE_ok _ _ _ ht).length_eq.symm, fun i f hf => ?_⟩
        obtain ⟨t, h1, h2⟩ := forall₂_get (mapE_ok _ _ _ ht) i f hf
        obtain ⟨g, h3, h4⟩ := forall₂_get (mapE_ok _ _ _ hg) i f hf
        obtain ⟨z, h5, h6⟩ := forall₂_get (mapE_ok _ _ _ hz) i f hf
        exact ⟨t, g, z, h1, h3, h5, (says_iff _ _ _ _ _).mpr ⟨h2, h4, h6⟩⟩

theorem parseFiles_says (float : List Char → Option α) (files : List String)
    (h : ∀ f ∈ files, ∃ t g z, Says float f t g z) : ∃ r, parseFiles float files = .ok r := by
  unfold parseFiles
  cases ht : mapE (fileT float) files with
  | error e =>
    obtain ⟨f, hf, he⟩ := mapE_error _ _ _ ht
    obtain ⟨t, g, z, hs⟩ := h f hf
    rw [((says_iff _ _ _ _ _).mp hs).1] at he; cases he
  | ok ts =>
    cases hg : mapE (fileG float) files with
    | error e =>
      obtain ⟨f, hf, he⟩ := mapE_error _ _ _ hg
      obtain ⟨t, g, z, hs⟩ := h f hf
      rw [((says_iff _ _ _ _ _).mp hs).2.1] at he; cases he
    | ok gs =>
      cases hz : mapE (fileZ float) files with
      | error e =>
        obtain ⟨f, hf, he⟩ := mapE_error _ _ _ hz
        obtain ⟨t, g, z, hs⟩ := h f hf
        rw [((says_iff _ _ _ _ _).mp hs).2.2] at he; cases he
      | ok zs => exact ⟨_, rfl⟩

theorem says_unique {float : List Char → Option α} {f : String} {t g z t' g' z' : α} (h : Says float f t g z)
    (h' : Says float f t' g' z') : t = t' ∧ g = g' ∧ z = z' := by
  rw [says_iff] at h h'
  obtain ⟨h1, h2, h3⟩ := h
  obtain ⟨k1, k2, k3⟩ := h'
  rw [h1] at k1; rw [h2] at k2; rw [h3] at k3
  simp only [Except.ok.injEq] at k1 k2 k3
  exact ⟨k1, k2, k3⟩

/-- The temperature, rounded to 100 K, lies between those of two files. -/
def Covers (float : List Char → Option α) (files : List String) (T : α) : Prop :=
  (∃ f ∈ files, ∃ t g z, Says float f t g z ∧ t ≤ roundEven (T / 100)) ∧
  (∃ f ∈ files, ∃ t g z, Says float f t g z ∧ roundEven (T / 100) ≤ t)

/-- C52, for a library all of whose file names can be read: if the library covers the (rounded) temperature, a file of the library is
chosen, and no other is nearer in temperature, gravity and metallicity; of equally near ones the first is taken. If it does not,
ValueError. -/
theorem nearest_model (float : List Char → Option α) (files : List String) (T g z : α) (hne : files ≠ [])
    (hr : ∀ f ∈ files, ∃ t g z, Says float f t g z) :
    (Covers float files T ∧ ∃ (i : Nat) (f : String) (t' g' z' : α), files[i]? = some f ∧ phoenixFile float files T g z = .ok f ∧ Says float f t' g' z' ∧
      ∀ (j : Nat) (f₂ : String) (t₂ g₂ z₂ : α), files[j]? = some f₂ → Says float f₂ t₂ g₂ z₂ →
        dist t' g' z' (roundEven (T / 100)) g z ≤ dist t₂ g₂ z₂ (roundEven (T / 100)) g z ∧
        (j < i → dist t' g' z' (roundEven (T / 100)) g z < dist t₂ g₂ z₂ (roundEven (T / 100)) g z)) ∨
    (¬ Covers float files T ∧ phoenixFile float files T g z = .error .valueError) := by
  obtain ⟨⟨ts, gs, zs⟩, hp⟩ := parseFiles_says float files hr
  obtain ⟨hlen, hget⟩ := parseFiles_ok _ _ _ _ _ hp
  have hts : ts ≠ [] := by
    intro h
    rw [h] at hlen
    exact hne (List.length_eq_zero_iff.mp hlen.symm)
  unfold phoenixFile
  rw [if_neg hne, hp]
  simp only
  generalize hx : roundEven (T / 100) = x
  unfold chooseFile
  cases hlo : Rebin.minE ts with
  | error e => exact absurd (Rebin.minE_error hlo).1 hts
  | ok lo =>
    cases hhi : Rebin.maxE ts with
    | error e => exact absurd (Rebin.maxE_error hhi).1 hts
    | ok hi =>
      obtain ⟨lom, lob⟩ := Rebin.minE_spec hlo
      obtain ⟨him, hib⟩ := Rebin.maxE_spec hhi
      have back : ∀ t ∈ ts, ∃ f ∈ files, ∃ g z, Says float f t g z := by
        intro t ht
        obtain ⟨i, hi, rfl⟩ := List.mem_iff_getElem.mp ht
        obtain ⟨t, g, z, h1, _, _, h4⟩ := hget i files[i] (List.getElem?_eq_getElem (by omega))
        rw [List.getElem?_eq_getElem hi, Option.some.injEq] at h1
        exact ⟨files[i], List.getElem_mem _, g, z, h1 ▸ h4⟩
      have fwd : ∀ f ∈ files, ∀ t g z, Says float f t g z → t ∈ ts := by
        intro f hf t g z hs
        obtain ⟨i, hi, rfl⟩ := List.mem_iff_getElem.mp hf
        obtain ⟨t', g', z', h1, _, _, h4⟩ := hget i files[i] (List.getElem?_eq_getElem hi)
        rw [(says_unique hs h4).1]
        exact List.mem_of_getElem? h1
      have hcov : Covers float files T ↔ ¬ (x < lo ∨ x > hi) := by
        unfold Covers
        rw [hx]
        push Not
        constructor
        · rintro ⟨⟨f, hf, t, g, z, hs, h1⟩, ⟨f', hf', t', g', z', hs', h1'⟩⟩
          exact ⟨(lob t (fwd f hf t g z hs)).trans h1, h1'.trans (hib t' (fwd f' hf' t' g' z' hs'))⟩
        · rintro ⟨h1, h2⟩
          obtain ⟨f, hf, g, z, hs⟩ := back lo lom
          obtain ⟨f', hf', g', z', hs'⟩ := back hi him
          exact ⟨⟨f, hf, lo, g, z, hs, h1⟩, ⟨f', hf', hi, g', z', hs', h2⟩⟩
      simp only
      by_cases hc : x < lo ∨ x > hi
      · right
        exact ⟨fun h => hcov.mp h hc, by simp [hc]⟩
      · left
        refine ⟨hcov.mpr hc, ?_⟩
        rw [if_neg hc]
        have hdne : distances ts gs zs x g z ≠ [] := by
          obtain ⟨f, hf⟩ := List.exists_mem_of_ne_nil _ hne
          obtain ⟨i, hi, rfl⟩ := List.mem_iff_getElem.mp hf
          obtain ⟨t, g', z', h1, h2, h3, _⟩ := hget i files[i] (List.getElem?_eq_getElem hi)
          intro h
          have := distances_get ts gs zs x g z i t g' z' h1 h2 h3
          rw [h] at this
          simp at this
        cases ha : Psf.argmin (distances ts gs zs x g z) with
        | error e => exact absurd (Psf.argmin_error _ e ha).1 hdne
        | ok i =>
          obtain ⟨v, hv, hmin, hfirst⟩ := Psf.argmin_spec _ i ha
          have hi : i < files.length := by
            have := (List.getElem?_eq_some_iff.mp hv).1
            unfold distances at this
            simp only [List.length_zipWith, List.length_map] at this
            omega
          obtain ⟨t', g', z', h1, h2, h3, hs⟩ := hget i files[i] (List.getElem?_eq_getElem hi)
          have hd := distances_get ts gs zs x g z i t' g' z' h1 h2 h3
          have hvd : v = dist t' g' z' x g z := by rw [hd] at hv; exact (Option.some.inj hv).symm
          refine ⟨i, files[i], t', g', z', List.getElem?_eq_getElem hi, by simp [List.getElem?_eq_getElem hi], hs, ?_⟩
          intro j f₂ t₂ g₂ z₂ hf₂ hs₂
          obtain ⟨t₃, g₃, z₃, k1, k2, k3, ks⟩ := hget j f₂ hf₂
          obtain ⟨e1, e2, e3⟩ := says_unique hs₂ ks
          rw [← e1] at k1; rw [← e2] at k2; rw [← e3] at k3
          have hd₂ := distances_get ts gs zs x g z j t₂ g₂ z₂ k1 k2 k3
          rw [← hvd]
          exact ⟨hmin _ (List.mem_of_getElem? hd₂), fun hj => hfirst j _ hj hd₂⟩

/-- C52: a temperature more than 50 K beyond the library raises ValueError, one within it never does. -/
theorem temperature_beyond (float : List Char → Option α) (files : List String) (T g z : α) (hne : files ≠ [])
    (hr : ∀ f ∈ files, ∃ t g z, Says float f t g z) :
    ((∀ f ∈ files, ∀ t g z, Says float f t g z → T + 50 < 100 * t) → phoenixFile float files T g z = .error .valueError) ∧
    ((∀ f ∈ files, ∀ t g z, Says float f t g z → 100 * t + 50 < T) → phoenixFile float files T g z = .error .valueError) ∧
    ∀ f₁ ∈ files, ∀ f₂ ∈ files, ∀ t₁ g₁ z₁ t₂ g₂ z₂, Says float f₁ t₁ g₁ z₁ → Says float f₂ t₂ g₂ z₂ →
      100 * t₁ + 50 ≤ T → T + 50 ≤ 100 * t₂ → ∃ f ∈ files, phoenixFile float files T g z = .ok f := by
  have hn := abs_le.mp (roundEven_near (T / 100))
  rcases nearest_model float files T g z hne hr with ⟨hc, i, f, t', g', z', hf, hok, hs, hmin⟩ | ⟨hc, he⟩
  · refine ⟨fun h => ?_, fun h => ?_, fun f₁ hf₁ f₂ hf₂ t₁ g₁ z₁ t₂ g₂ z₂ _ _ _ _ => ⟨f, List.mem_of_getElem? hf, hok⟩⟩
    · obtain ⟨⟨f, hf, t, g, z, hs, hle⟩, _⟩ := hc
      have := h f hf t g z hs
      linarith
    · obtain ⟨_, ⟨f, hf, t, g, z, hs, hle⟩⟩ := hc
      have := h f hf t g z hs
      linarith
  · refine ⟨fun _ => he, fun _ => he, fun f₁ hf₁ f₂ hf₂ t₁ g₁ z₁ t₂ g₂ z₂ h1 h2 k1 k2 => ?_⟩
    exact absurd ⟨⟨f₁, hf₁, t₁, g₁, z₁, h1, by linarith⟩, ⟨f₂, hf₂, t₂, g₂, z₂, h2, by linarith⟩⟩ hc

/-- C52: an empty directory is an OSError; one file name that cannot be read spoils the whole library (ValueError or IndexError). -/
theorem library_errors (float : List Char → Option α) (T g z : α) : phoenixFile float [] T g z = .error .osError ∧
    ∀ files : List String, (∃ f ∈ files, ¬ ∃ t g z, Says float f t g z) →
      phoenixFile float files T g z = .error .valueError ∨ phoenixFile float files T g z = .error .indexError := by
  refine ⟨rfl, fun files ⟨f, hf, hbad⟩ => ?_⟩
  have hne : files ≠ [] := by rintro rfl; simp at hf
  unfold phoenixFile
  rw [if_neg hne]
  have pe : ∀ name i e, piece name i = .error e → e = .indexError := by
    intro name i e h
    unfold piece at h
    split at h <;> simp_all
  have fe : ∀ s e, toFloat float s = .error e → e = .valueError := by
    intro s e h
    unfold toFloat at h
    split at h <;> simp_all
  have te : ∀ name e, fileT float name = .error e → e = .valueError ∨ e = .indexError := by
    intro name e h
    unfold fileT at h
    split at h
    · rename_i e' he; simp only [Except.error.injEq] at h; exact .inr (h ▸ pe _ _ _ he)
    · exact .inl (fe _ _ h)
  have ge : ∀ name e, fileG float name = .error e → e = .valueError ∨ e = .indexError := by
    intro name e h
    unfold fileG at h
    split at h
    · rename_i e' he; simp only [Except.error.injEq] at h; exact .inr (h ▸ pe _ _ _ he)
    · exact .inl (fe _ _ h)
  have ze : ∀ name e, fileZ float name = .error e → e = .valueError ∨ e = .indexError := by
    intro name e h
    unfold fileZ at h
    split at h
    · rename_i e' he; simp only [Except.error.injEq] at h; exact .inr (h ▸ pe _ _ _ he)
    · exact .inl (fe _ _ h)
  have main : ∀ e, parseFiles float files = .error e → e = .valueError ∨ e = .indexError := by
    intro e h
    unfold parseFiles at h
    cases ht : mapE (fileT float) files with
    | error e' =>
      rw [ht] at h; simp only [Except.error.injEq] at h
      obtain ⟨b, _, hb⟩ := mapE_error _ _ _ ht
      exact h ▸ te b e' hb
    | ok ts =>
      cases hg : mapE (fileG float) files with
      | error e' =>
        rw [ht, hg] at h; simp only [Except.error.injEq] at h
        obtain ⟨b, _, hb⟩ := mapE_error _ _ _ hg
        exact h ▸ ge b e' hb
      | ok gs =>
        cases hz : mapE (fileZ float) files with
        | error e' =>
          rw [ht, hg, hz] at h; simp only [Except.error.injEq] at h
          obtain ⟨b, _, hb⟩ := mapE_error _ _ _ hz
          exact h ▸ ze b e' hb
        | ok zs => rw [ht, hg, hz] at h; simp at h
  cases hp : parseFiles float files with
  | error e => rcases main e hp with rfl | rfl <;> simp
  | ok r =>
    obtain ⟨ts, gs, zs⟩ := r
    obtain ⟨i, hi, rfl⟩ := List.mem_iff_getElem.mp hf
    obtain ⟨t, g, z, _, _, _, hs⟩ := (parseFiles_ok _ _ _ _ _ hp).2 i _ (List.getElem?_eq_getElem hi)
    exact absurd ⟨t, g, z, hs⟩ hbad

/-! ## Selection and fallback (C51) -/

/-- C51: upper and lower case of the source type do not matter. -/
theorem source_case_insensitive (c : Consts α) (env : Env α) (grid : α → α → List α) (v v' : String) (bytes : Bool)
    (models sed : Option String) (s : StarData α) (a b : Wl α) (h : lower v = lower v') :
    loadSource c env grid ⟨v, bytes, models, sed⟩ s a b = loadSource c env grid ⟨v', bytes, models, sed⟩ s a b := by
  have hb : ∀ lo hi, buildStar c env ⟨v, bytes, models, sed⟩ s lo hi = buildStar c env ⟨v', bytes, models, sed⟩ s lo hi := by
    intro lo hi
    simp only [buildStar, Descr.is, h]
    rfl
  simp only [loadSource, hb]

/-- C51, the decision table for the texts of an XML payload (`bytes = false`) and a star whose data are complete. -/
theorem source_selection (c : Consts α) (env : Env α) (d : Descr) (hd : d.bytes = false) (D T M R lo hi : α) :
    (lower d.value = "custom" → buildStar c env d ⟨some D, some T, some M, some R⟩ lo hi = customSource c env d ⟨some D, none, none, some R⟩) ∧
    (lower d.value = "phoenix" → buildStar c env d ⟨some D, some T, some M, some R⟩ lo hi = phoenixOrPlanck c env d D T M R lo hi) ∧
    (lower d.value ≠ "custom" → lower d.value ≠ "phoenix" →
      buildStar c env d ⟨some D, some T, some M, some R⟩ lo hi = planckStar c D T R lo hi) := by
  refine ⟨fun h => ?_, fun h => ?_, fun h h' => ?_⟩
  · simp [buildStar, Descr.is, hd, h, customSource]
  · simp [buildStar, Descr.is, hd, h]
  · simp [buildStar, Descr.is, hd, h, h']

/-- C51, refuted for payloads read back from HDF5: their texts are bytes, so every source type is taken as unrecognised and a black body is
used in place of the stellar model or of the user's own spectrum. -/
theorem bytes_always_planck (c : Consts α) (env : Env α) (v : String) (models sed : Option String) (D T M R lo hi : α) :
    buildStar c env ⟨v, true, models, sed⟩ ⟨some D, some T, some M, some R⟩ lo hi = planckStar c D T R lo hi := by
  simp [buildStar, Descr.is]

/-- C51: which data of the star are needed. A custom source needs distance and radius, the others also temperature and mass;
if one is missing, AttributeError. -/
theorem source_data (c : Consts α) (env : Env α) (d : Descr) (s : StarData α) (lo hi : α) :
    (d.is "custom" = true → (s.D = none ∨ s.R = none) → buildStar c env d s lo hi = .error .attributeError) ∧
    (d.is "custom" = false → (s.D = none ∨ s.Teff = none ∨ s.M = none ∨ s.R = none) →
      buildStar c env d s lo hi = .error .attributeError) ∧
    (d.is "custom" = true → ∀ T M, buildStar c env d ⟨s.D, T, M, s.R⟩ lo hi = buildStar c env d s lo hi) := by
  obtain ⟨D, T, M, R⟩ := s
  refine ⟨fun h hm => ?_, fun h hm => ?_, fun h T' M' => ?_⟩
  · unfold buildStar customSource
    rw [if_pos h]
    rcases hm with hm | hm <;> simp only at hm <;> rw [hm] <;> cases D <;> rfl
  · unfold buildStar
    rw [if_neg (by simp [h])]
    rcases hm with hm | hm | hm | hm <;> simp only at hm <;> rw [hm] <;> cases D <;> (try rfl) <;> cases T <;> (try rfl) <;>
      cases M <;> rfl
  · unfold buildStar customSource
    rw [if_pos h, if_pos h]

/-- C51: the library star or, exactly when it raises ValueError, the black body; all other errors are passed on. A directory that is
not given or does not exist is an OSError. -/
theorem phoenix_fallback (c : Consts α) (env : Env α) (d : Descr) (D T M R lo hi : α) :
    (∀ e, modelPath env d = .error e → e = .osError ∧ phoenixOrPlanck c env d D T M R lo hi = .error .osError) ∧
    ∀ p, modelPath env d = .ok p →
      (libraryStar c env p D T M R = .error .valueError ∧ phoenixOrPlanck c env d D T M R lo hi = planckStar c D T R lo hi) ∨
      (libraryStar c env p D T M R ≠ .error .valueError ∧
        phoenixOrPlanck c env d D T M R lo hi = libraryStar c env p D T M R) := by
  constructor
  · intro e h
    have : e = .osError := by
      unfold modelPath at h
      split at h
      · simp_all
      · split at h <;> simp_all
    refine ⟨this, ?_⟩
    rw [this] at h
    simp [phoenixOrPlanck, h]
  · intro p h
    unfold phoenixOrPlanck
    simp only [h]
    split
    · rename_i hl
      exact .inl ⟨hl, rfl⟩
    · rename_i hl
      exact .inr ⟨fun h => hl h, rfl⟩

/-- C51: the directory: the one of the payload, else `PHOENIX_PATH`. -/
theorem model_directory (env : Env α) (d : Descr) (p : String) : modelPath env d = .ok p ↔
    env.pathExists p = true ∧ (d.stellarModels = some p ∨ d.stellarModels = none ∧ env.phoenixPath = some p) := by
  unfold modelPath
  cases d.stellarModels <;> cases env.phoenixPath <;> simp only [reduceCtorEq, false_and, and_false, or_self, Option.some.injEq, true_and, false_or, or_false]
  all_goals
    split
    · constructor
      · intro h; simp only [Except.ok.injEq] at h; exact h ▸ ⟨by assumption, rfl⟩
      · rintro ⟨_, h⟩; rw [h]
    · constructor
      · intro h; cases h
      · rintro ⟨h, rfl⟩; contradiction

/-- C51, C52 together: a star whose temperature is more than 50 K beyond a readable library gets the black body, the name of no model
file is recorded; within the library the recorded file belongs to it. -/
theorem phoenix_result (c : Consts α) (env : Env α) (d : Descr) (p : String) (D T M R lo hi : α) (hp : modelPath env d = .ok p)
    (hne : env.glob p ≠ []) (hr : ∀ f ∈ env.glob p, ∃ t g z, Says env.float f t g z) :
    (¬ Covers env.float (env.glob p) T → phoenixOrPlanck c env d D T M R lo hi = planckStar c D T R lo hi) ∧
    (Covers env.float (env.glob p) T → ∃ f ∈ env.glob p, (∃ e, env.phoenix p f = .error e) ∨
      ∃ b, phoenixOrPlanck c env d D T M R lo hi = .ok b ∧ b.model = .phoenix f) := by
  rcases nearest_model env.float (env.glob p) T (c.logg M R) 0 hne hr with ⟨hc, i, f, _, _, _, hf, hok, _, _⟩ | ⟨hc, he⟩
  · refine ⟨fun h => absurd hc h, fun _ => ⟨f, List.mem_of_getElem? hf, ?_⟩⟩
    cases hx : env.phoenix p f with
    | error e => exact .inl ⟨e, rfl⟩
    | ok pts =>
      right
      have : ∃ b, libraryStar c env p D T M R = .ok b ∧ b.model = .phoenix f := by
        unfold libraryStar phoenixStar
        simp only [hok, hx]
        have hm : Rebin.Signal.mk? ((keepChanges pts).map Prod.fst) (((keepChanges pts).map Prod.snd).map (fun f => f * (R / D) ^ 2)) =
            .ok ⟨(keepChanges pts).map Prod.fst, ((keepChanges pts).map Prod.snd).map (fun f => f * (R / D) ^ 2)⟩ := by
          rw [Rebin.mk?_ok]
          exact ⟨rfl, by simp [Rebin.Signal.WellFormed]⟩
        rw [hm]
        exact ⟨_, rfl, rfl⟩
      obtain ⟨b, hb, hm⟩ := this
      refine ⟨b, ?_, hm⟩
      unfold phoenixOrPlanck
      simp only [hp, hb]
  · refine ⟨fun _ => ?_, fun h => absurd h hc⟩
    unfold phoenixOrPlanck libraryStar
    simp only [hp, he]

/-! ## Duplicate wavelengths of a model file -/

/-- Of a table sorted by wavelength every wavelength but the last one is kept, once, with its last sample; the last is lost. -/
theorem keepChanges_spec (pts : List (α × α)) : (keepChanges pts).Sublist pts ∧
    (pts.Pairwise (fun p q => p.1 ≤ q.1) → (keepChanges pts).Pairwise (fun p q => p.1 < q.1) ∧
      ∀ p ∈ keepChanges pts, ∀ q ∈ pts.getLast?, p.1 < q.1) := by
  constructor
  · induction pts with
    | nil => exact List.Sublist.slnil
    | cons p l ih =>
      cases l with
      | nil => simp [keepChanges]
      | cons q l =>
        unfold keepChanges
        split
        · exact ih.trans (List.sublist_cons_self _ _)
        · exact ih.cons_cons _
  · have sub : ∀ pts : List (α × α), ∀ p ∈ keepChanges pts, p ∈ pts := by
      intro pts
      induction pts with
      | nil => simp [keepChanges]
      | cons p l ih =>
        cases l with
        | nil => simp [keepChanges]
        | cons q l =>
          unfold keepChanges
          split
          · intro r hr; exact List.mem_cons_of_mem _ (ih r hr)
          · intro r hr
            rcases List.mem_cons.mp hr with rfl | hr
            · simp
            · exact List.mem_cons_of_mem _ (ih r hr)
    induction pts with
    | nil => intro _; simp [keepChanges]
    | cons p l ih =>
      cases l with
      | nil => intro _; simp [keepChanges]
      | cons q l =>
        intro hp
        obtain ⟨h1, h2⟩ := List.pairwise_cons.mp hp
        obtain ⟨ih1, ih2⟩ := ih h2
        unfold keepChanges
        split
        · exact ⟨ih1, by simpa [List.getLast?_cons_cons] using ih2⟩
        · rename_i hne
          have hlt : p.1 < q.1 := lt_of_le_of_ne (h1 q (by simp)) (fun h => hne (by rw [h]; ring))
          have hle : ∀ r ∈ q :: l, q.1 ≤ r.1 := by
            intro r hr
            rcases List.mem_cons.mp hr with rfl | hr
            · exact le_rfl
            · exact (List.pairwise_cons.mp h2).1 r hr
          refine ⟨List.pairwise_cons.mpr ⟨fun r hr => hlt.trans_le (hle r (sub _ r hr)), ih1⟩, ?_⟩
          intro r hr s hs
          rw [List.getLast?_cons_cons] at hs
          rcases List.mem_cons.mp hr with rfl | hr
          · exact hlt.trans_le (hle s (List.mem_of_getLast? hs))
          · exact ih2 r hr s hs

/-! ## The range -/

/-- The order in which the two ends of the range are given does not matter. -/
theorem range_order (c : Consts α) (env : Env α) (grid : α → α → List α) (d : Descr) (s : StarData α) (a b : α) :
    loadSource c env grid d s ⟨a, none⟩ ⟨b, none⟩ = loadSource c env grid d s ⟨b, none⟩ ⟨a, none⟩ := by
  have : sortRange (⟨a, none⟩ : Wl α) ⟨b, none⟩ = sortRange ⟨b, none⟩ ⟨a, none⟩ := by
    unfold sortRange
    simp only
    rcases lt_trichotomy a b with h | h | h
    · rw [if_neg (not_lt.mpr h.le), if_pos h]
    · rw [h]
    · rw [if_pos h, if_neg (not_lt.mpr h.le)]
  simp only [loadSource, this]

/-- Plain numbers mean micrometres. -/
theorem range_micron (c : Consts α) (env : Env α) (grid : α → α → List α) (d : Descr) (s : StarData α) (a b : α) :
    surface (loadSource c env grid d s ⟨a, some 1⟩ ⟨b, some 1⟩) = surface (loadSource c env grid d s ⟨a, none⟩ ⟨b, none⟩) := by
  unfold loadSource sortRange
  simp only [Wl.um, Option.getD_some, Option.getD_none, mul_one]
  split_ifs <;> simp [toGrid]

/-- A range whose longer end is not in µm never works: ValueError, if the star can be built. -/
theorem range_other_unit (c : Consts α) (env : Env α) (grid : α → α → List α) (d : Descr) (s : StarData α) (a b u : α) (hu : u ≠ 1) :
    ∃ e, loadSource c env grid d s ⟨a, some u⟩ ⟨b, some u⟩ = .error e := by
  unfold loadSource sortRange
  simp only
  split_ifs
  all_goals
    simp only
    split
    · exact ⟨_, rfl⟩
    · exact ⟨.valueError, by simp [toGrid, hu]⟩

/-! ## The black body: it always works, and a hotter star is brighter (C49, C50) -/

/-- Rebinning works for strictly increasing grids of at least two points, if two of the old ones lie between the ends of the new. -/
theorem rebin_works (x xp f : List α) (hx : x.Pairwise (· < ·)) (hx2 : 2 ≤ x.length) (hxp : xp.Pairwise (· < ·)) (hl : f.length = xp.length)
    (h2 : 2 ≤ xp.length) (hpos : ∀ w ∈ x, 0 < w) (hin : ∀ w ∈ xp, (∃ a ∈ x, a ≤ w) ∧ ∃ b ∈ x, w ≤ b) :
    ∃ s, (Rebin.Signal.mk xp f).spectralRebin x = .ok s ∧ s.wl = x := by
  have nz : ∀ l : List α, l.Pairwise (· < ·) → (0 : α) ∉ Rebin.diffs l := fun l h hm => lt_irrefl _ (Rebin.diffs_pos l h 0 hm)
  have hd : ∀ l : List α, 2 ≤ l.length → Rebin.diffs l ≠ [] := by
    intro l h hm
    have := Rebin.diffs_length l
    rw [hm] at this
    simp at this
    omega
  unfold Rebin.Signal.spectralRebin Rebin.rebin
  cases hlo : Rebin.minE x with
  | error e => have := (Rebin.minE_error hlo).1; rw [this] at hx2; simp at hx2
  | ok lo =>
    cases hhi : Rebin.maxE x with
    | error e => have := (Rebin.maxE_error hhi).1; rw [this] at hx2; simp at hx2
    | ok hi =>
      obtain ⟨lom, lob⟩ := Rebin.minE_spec hlo
      obtain ⟨him, hib⟩ := Rebin.maxE_spec hhi
      have hfst : (xp.zip f).map Prod.fst = xp := List.map_fst_zip (by omega)
      have hw : Rebin.window lo hi (xp.zip f) = xp.zip f := by
        unfold Rebin.window
        rw [List.filter_eq_self]
        intro p hp
        have : p.1 ∈ xp := by rw [← hfst]; exact List.mem_map_of_mem hp
        obtain ⟨⟨a, ha, hap⟩, ⟨b, hb, hbp⟩⟩ := hin _ this
        have h1 := lob a ha
        have h2 := hib b hb
        have h3 := hpos lo lom
        have h4 := hpos hi him
        simp only [Bool.and_eq_true, decide_eq_true_eq]
        constructor <;> linarith
      simp only [hw]
      rw [Rebin.dedup_id _ _ (by rw [hfst]; exact nz _ hxp) (by rw [List.length_zip]; omega), Rebin.dedupGrid_id _ (nz _ hx) hx2]
      simp only
      unfold Rebin.resample
      rw [hfst]
      cases hm : Rebin.maxE (Rebin.diffs xp) with
      | error e => exact absurd (Rebin.maxE_error hm).1 (hd _ h2)
      | ok mp =>
        cases hm' : Rebin.minE (Rebin.diffs x) with
        | error e => exact absurd (Rebin.minE_error hm').1 (hd _ hx2)
        | ok mx =>
          simp only
          by_cases hlt : mp < mx
          · simp only [if_pos hlt]; exact ⟨_, rfl, rfl⟩
          · simp only [if_neg hlt]; exact ⟨_, rfl, rfl⟩

theorem linspace_pairwise (a b : α) (n : Nat) (hn : 2 ≤ n) (hab : a < b) : (linspace a b n).Pairwise (· < ·) := by
  have hn1 : (0 : α) < (n : α) - 1 := by
    have : ((2 : Nat) : α) ≤ (n : α) := by exact_mod_cast hn
    push_cast at this
    linarith
  unfold linspace
  rw [List.pairwise_map]
  apply List.Pairwise.imp _ List.pairwise_lt_range
  intro i j hij
  have : (i : α) < (j : α) := by exact_mod_cast hij
  have := mul_lt_mul_of_pos_right this (div_pos (sub_pos.mpr hab) hn1)
  linarith

/-- The constants of the code. -/
noncomputable def code : Consts ℝ := ⟨Real.pi, planck, calcLogg⟩

/-- The working grid of the code, `n` being `PassVal.working_R`. -/
noncomputable def workingGrid (n : Nat) (a b : ℝ) : List ℝ := Instrument.logspace a b n

/-- C50, C51: for a black-body source (named so, or by a name that is none of the known ones) and a range of positive wavelengths in µm
given in increasing order, a star with complete data always gets an SED on the working grid. -/
theorem planck_works (env : Env ℝ) (d : Descr) (hd : d.bytes = false) (h1 : lower d.value ≠ "custom") (h2 : lower d.value ≠ "phoenix")
    (D T M R a b : ℝ) (n : Nat) (hn : 2 ≤ n) (ha : 0 < a) (hab : a < b) :
    ∃ st, loadSource code env (workingGrid n) d ⟨some D, some T, some M, some R⟩ ⟨a, none⟩ ⟨b, none⟩ = .ok st ∧
      st.sed.wl = Instrument.logspace a b n ∧ st.model = .planck ∧
      (Rebin.Signal.mk (linspace a b 10000) ((linspace a b 10000).map (fun w => Real.pi * (R / D) ^ 2 * planck w T))).spectralRebin
        (Instrument.logspace a b n) = .ok st.sed := by
  obtain ⟨st, hst, hm, hsed⟩ := planckStar_sed code D T R a b
  obtain ⟨hp, hma, hmb, hlen, hr⟩ := Instrument.logspace_spec a b n ha hab hn
  have hlb := linspace_bounds a b 10000 (by norm_num) hab.le
  obtain ⟨s, hs, hw⟩ := rebin_works (Instrument.logspace a b n) (linspace a b 10000)
    ((linspace a b 10000).map (fun w => Real.pi * (R / D) ^ 2 * planck w T)) hp (by omega) (linspace_pairwise a b 10000 (by norm_num) hab)
    (by simp) (by simp [linspace]) (fun w h => ha.trans_le (hr w h).1) (fun w h => ⟨⟨a, hma, (hlb w h).1⟩, ⟨b, hmb, (hlb w h).2⟩⟩)
  have hbuild := (source_selection code env d hd D T M R a b).2.2 h1 h2
  refine ⟨{ st with sed := s }, ?_, hw, hm, hs⟩
  unfold loadSource sortRange
  simp only [gt_iff_lt, if_neg (not_lt.mpr hab.le), Wl.um, Option.getD_none, mul_one, hbuild, hst]
  unfold toGrid
  simp only [Option.getD_none, ne_eq, not_true_eq_false, if_false]
  have : st.sed.spectralRebin (workingGrid n a b) = .ok s := by rw [hsed]; exact hs
  simp only [this]

/-- C49, C50: of two black-body stars of equal size and distance the hotter one is at least as bright at every wavelength of the working grid, and no
sample is negative. -/
theorem hotter_is_brighter (env : Env ℝ) (d : Descr) (hd : d.bytes = false) (h1 : lower d.value ≠ "custom") (h2 : lower d.value ≠ "phoenix")
    (D T T' M M' R a b : ℝ) (n : Nat) (hn : 2 ≤ n) (ha : 0 < a) (hab : a < b) (hT : 0 < T) (hTT : T ≤ T') :
    ∃ cool hot, loadSource code env (workingGrid n) d ⟨some D, some T, some M, some R⟩ ⟨a, none⟩ ⟨b, none⟩ = .ok cool ∧
      loadSource code env (workingGrid n) d ⟨some D, some T', some M', some R⟩ ⟨a, none⟩ ⟨b, none⟩ = .ok hot ∧
      ∀ i, 0 ≤ cool.sed.data.getD i 0 ∧ cool.sed.data.getD i 0 ≤ hot.sed.data.getD i 0 := by
  obtain ⟨cool, hc, _, _, hcs⟩ := planck_works env d hd h1 h2 D T M R a b n hn ha hab
  obtain ⟨hot, hh, _, _, hhs⟩ := planck_works env d hd h1 h2 D T' M' R a b n hn ha hab
  have hlb := linspace_bounds a b 10000 (by norm_num) hab.le
  have hk : 0 ≤ Real.pi * (R / D) ^ 2 := mul_nonneg Real.pi_pos.le (sq_nonneg _)
  refine ⟨cool, hot, hc, hh, fun i => ⟨?_, ?_⟩⟩
  · have hz : ∃ z, (Rebin.Signal.mk (linspace a b 10000) ((linspace a b 10000).map (fun _ => (0 : ℝ)))).spectralRebin
        (Instrument.logspace a b n) = .ok z ∧ ∀ i, z.data.getD i 0 = 0 := by
      have := spectralRebin_scale 0 (Rebin.Signal.mk (linspace a b 10000) ((linspace a b 10000).map (fun w => Real.pi * (R / D) ^ 2 * planck w T)))
        (Instrument.logspace a b n)
      rw [hcs] at this
      refine ⟨scale 0 cool.sed, ?_, ?_⟩
      · simpa [scale, Except.map, List.map_map, Function.comp_def] using this
      · intro i
        simp only [scale, zero_mul, List.getD_eq_getElem?_getD, List.getElem?_map]
        cases cool.sed.data[i]? <;> rfl
    obtain ⟨z, hz, hz0⟩ := hz
    refine (hz0 i).symm.le.trans (spectralRebin_mono _ _ _ _ (forall₂_map fun w hw => ?_) z cool.sed hz hcs i)
    exact mul_nonneg hk (planck_pos w T (ha.trans_le (hlb w hw).1) hT).le
  · refine spectralRebin_mono _ _ _ _ (forall₂_map fun w hw => ?_) cool.sed hot.sed hcs hhs i
    rcases hTT.eq_or_lt with h | h
    · rw [h]
    · exact mul_le_mul_of_nonneg_left (planck_strictMono w T T' (ha.trans_le (hlb w hw).1) hT h).le hk

/-- The gravity: heavier at equal radius is higher, larger at equal mass is lower. -/
theorem logg_mono (M M' R R' : ℝ) (hM : 0 < M) (hR : 0 < R) (hMM : M ≤ M') (hRR : R' ≤ R) (hR' : 0 < R') :
    calcLogg M R ≤ calcLogg M' R' := by
  unfold calcLogg
  apply Real.logb_le_logb_of_le (by norm_num) (by positivity)
  apply mul_le_mul_of_nonneg_right _ (by norm_num)
  apply div_le_div₀ (by nlinarith) (mul_le_mul_of_nonneg_left hMM (by norm_num)) (by positivity)
  exact pow_le_pow_left₀ hR'.le hRR 2

/-! ## Examples -/

/-- Numbers as they appear in the names below. -/
def demoFloat (s : List Char) : Option ℚ :=
  if s = "26.0".toList then some 26 else if s = "60.0".toList then some 60 else if s = "61.0".toList then some 61
  else if s = "4.5".toList then some (9 / 2) else if s = "5.0".toList then some 5 else if s = "0.0".toList then some 0 else none

def demoFiles : List String :=
  ["lte60.0-5.0-0.0.BT-Settl.spec.fits.gz", "lte60.0-4.5-0.0.BT-Settl.spec.fits.gz", "lte26.0-4.5-0.0.BT-Settl.spec.fits.gz"]

/-- The hypotheses of `nearest_model` hold for `demoFiles`. -/
example : ∀ f ∈ demoFiles, ∃ t g z, Says demoFloat f t g z := by
  have h : ∀ f ∈ demoFiles, ∃ t ∈ [(26 : ℚ), 60], ∃ g ∈ [(9 / 2 : ℚ), 5],
      fileT demoFloat f = .ok t ∧ fileG demoFloat f = .ok g ∧ fileZ demoFloat f = .ok 0 := by
    intro f hf
    simp only [demoFiles, List.mem_cons, List.not_mem_nil, or_false] at hf
    rcases hf with rfl | rfl | rfl
    · exact ⟨60, by simp, 5, by simp, by decide +kernel, by decide +kernel, by decide +kernel⟩
    · exact ⟨60, by simp, 9 / 2, by simp, by decide +kernel, by decide +kernel, by decide +kernel⟩
    · exact ⟨26, by simp, 9 / 2, by simp, by decide +kernel, by decide +kernel, by decide +kernel⟩
  intro f hf
  obtain ⟨t, _, g, _, h⟩ := h f hf
  exact ⟨t, g, 0, (says_iff _ _ _ _ _).mpr h⟩

/-- A star of 5990 K and log g 4.4 gets the second file; one of 2600 K the third; one of 6049 K still the library, one of 6051 K not; a half goes to the
even hundred. -/
theorem demo_nearest : phoenixFile demoFloat demoFiles 5990 (22 / 5) 0 = .ok "lte60.0-4.5-0.0.BT-Settl.spec.fits.gz" ∧
    phoenixFile demoFloat demoFiles 2600 (22 / 5) 0 = .ok "lte26.0-4.5-0.0.BT-Settl.spec.fits.gz" ∧
    phoenixFile demoFloat demoFiles 6049 (22 / 5) 0 = .ok "lte60.0-4.5-0.0.BT-Settl.spec.fits.gz" ∧
    phoenixFile demoFloat demoFiles 6051 (22 / 5) 0 = .error .valueError ∧
    phoenixFile demoFloat demoFiles 2550 (22 / 5) 0 = .ok "lte26.0-4.5-0.0.BT-Settl.spec.fits.gz" := by
  decide +kernel

/-- C51, refuted beyond temperature: one misnamed file makes every star of the library a black body. -/
theorem demo_misnamed : phoenixFile demoFloat ("notes.BT-Settl.spec.fits.gz" :: demoFiles) 5990 (22 / 5) 0 = .error .valueError := by
  decide +kernel

/-- The example source descriptions. -/
example : lower "PLANCK" = "planck" ∧ lower "Phoenix" = "phoenix" ∧ lower "kurucz" ≠ "custom" := by decide +kernel

/-- Duplicates: the second of two equal wavelengths stays, the last sample goes. -/
example : keepChanges [((1 : ℚ), (10 : ℚ)), (2, 20), (2, 21), (3, 30)] = [(1, 10), (2, 21)] := by decide +kernel

end ExoRad.Source
