import Verif.Lemmas.Stack
import Verif.Model.Noise

/-! Helper lemmas: columns the noise estimate does not read. -/

namespace ExoRad
open Table

/-- Columns the noise model neither reads nor sums. -/
structure Ignored (D : List String) : Prop where
  notMax : ∀ c ∈ D, substr "Max" c = false
  notSignal : ∀ c ∈ D, substr "signal" c = false
  notRead : ∀ c ∈ D, c ≠ "Wavelength" ∧ c ≠ "chName" ∧ c ≠ "WindowSize"

theorem ignored_sky : Ignored ["sky TR"] where
  notMax := by intro c hc; rw [List.mem_singleton] at hc; subst hc; decide
  notSignal := by intro c hc; rw [List.mem_singleton] at hc; subst hc; decide
  notRead := by intro c hc; rw [List.mem_singleton] at hc; subst hc; decide

variable {D : List String} {a b : Table ℝ}

theorem get?_same (h : a.removeAll D = b.removeAll D) {c : String} (hc : c ∉ D) : a.get? c = b.get? c := by
  rw [← get?_erase D a c hc, h, get?_erase D b c hc]

theorem getE_same (h : a.removeAll D = b.removeAll D) {c : String} (hc : c ∉ D) : a.getE c = b.getE c := by
  unfold Dict.getE; rw [get?_same h hc]

theorem keys_filter_same (h : a.removeAll D = b.removeAll D) (P : String → Bool) (hP : ∀ c ∈ D, P c = false) :
    a.keys.filter P = b.keys.filter P := by
  have key : ∀ t : Table ℝ, t.keys.filter P = (t.removeAll D).keys.filter P := by
    intro t
    rw [Dict.keys_removeAll, List.filter_filter]
    apply List.filter_congr
    intro c _
    by_cases hc : c ∈ D
    · simp [hP c hc]
    · simp [hc]
  rw [key, h, ← key]

theorem selNum_same (hi : Ignored D) (h : a.removeAll D = b.removeAll D) {c : String} (hc : c ∉ D) (name : String) :
    a.selNum c name = b.selNum c name := by
  unfold Table.selNum Table.sel
  rw [getE_same h hc, getE_same h (fun hm => (hi.notRead _ hm).2.1 rfl)]

theorem sumCols_same (h : a.removeAll D = b.removeAll D) : ∀ (ks : List String) (acc : List (Num ℝ)), (∀ k ∈ ks, k ∉ D) →
    sumCols a ks acc = sumCols b ks acc
  | [], _, _ => rfl
  | k :: ks, acc, hk => by
    unfold sumCols
    rw [getE_same h (hk k (by simp))]
    simp only [bind, Except.bind]
    cases b.getE k with
    | error e => rfl
    | ok c =>
      simp only
      cases numCol c with
      | error e => rfl
      | ok v => exact sumCols_same h ks _ (fun k' h' => hk k' (by simp [h']))

theorem maxSignal_same (hi : Ignored D) (h : a.removeAll D = b.removeAll D) :
    (estimateMaxSignal a).map (fun t => t.removeAll D) = (estimateMaxSignal b).map (fun t => t.removeAll D) := by
  have hm : a.maxKeys = b.maxKeys := keys_filter_same h _ hi.notMax
  unfold estimateMaxSignal
  rw [getE_same h (fun hm => (hi.notRead _ hm).1 rfl), hm]
  simp only [bind, Except.bind, pure, Except.pure]
  cases b.getE "Wavelength" with
  | error e => rfl
  | ok wl =>
    simp only
    rw [sumCols_same h _ _ (by
      intro k hk hD
      unfold Table.maxKeys at hk
      rw [List.mem_filter, hi.notMax k hD] at hk
      exact absurd hk.2 (by simp))]
    cases sumCols b b.maxKeys (List.replicate wl.length (Num.fin 0)) with
    | error e => rfl
    | ok s =>
      simp only [Except.map, Except.ok.injEq]
      exact update_erase D D a b _ h (fun c hc => .inl hc)

theorem photonNoiseLoop_same (hi : Ignored D) (h : a.removeAll D = b.removeAll D) (name : String) (g : Num ℝ) :
    ∀ (ks : List String) (out : Out), (∀ k ∈ ks, k ∉ D) → photonNoiseLoop a name g ks out = photonNoiseLoop b name g ks out
  | [], _, _ => rfl
  | k :: ks, out, hk => by
    unfold photonNoiseLoop
    rw [selNum_same hi h (hk k (by simp))]
    simp only [bind, Except.bind]
    cases b.selNum k name with
    | error e => rfl
    | ok s => exact photonNoiseLoop_same hi h name g ks _ (fun k' h' => hk k' (by simp [h']))

theorem signalKeys_same (hi : Ignored D) (h : a.removeAll D = b.removeAll D) : signalKeys a = signalKeys b :=
  keys_filter_same h _ hi.notSignal

theorem signalKeys_out (hi : Ignored D) : ∀ k ∈ signalKeys a, k ∉ D := by
  intro k hk hD
  unfold signalKeys at hk
  rw [List.mem_filter, hi.notSignal k hD] at hk
  exact absurd hk.2 (by simp)

theorem noiseInChannel_same (hi : Ignored D) (h : a.removeAll D = b.removeAll D) (ch : NoiseChannel) (common : Option CustomNoise) :
    estimateNoiseInChannel a ch common = estimateNoiseInChannel b ch common := by
  have h1 : frameTimeF a ch [] = frameTimeF b ch [] := by
    unfold frameTimeF
    rw [selNum_same hi h (fun hm => absurd (hi.notMax _ hm) (by decide))]
  have h2 : ∀ g out, photonNoise a ch g out = photonNoise b ch g out := by
    intro g out
    unfold photonNoise
    rw [signalKeys_same hi h]
    exact photonNoiseLoop_same hi h _ _ _ _ (signalKeys_out hi)
  have h3 : ∀ out, photonNoiseVariance a out = photonNoiseVariance b out := by
    intro out; unfold photonNoiseVariance; rw [signalKeys_same hi h]
  unfold estimateNoiseInChannel
  rw [h1, selNum_same hi h (fun hm => (hi.notRead _ hm).2.2 rfl),
    selNum_same hi h (c := "star_signal_inAperture") (fun hm => absurd (hi.notSignal _ hm) (by decide)),
    selNum_same hi h (c := "Wavelength") (fun hm => (hi.notRead _ hm).1 rfl)]
  simp only [h2, h3]

theorem noiseTables_same (hi : Ignored D) (h : a.removeAll D = b.removeAll D) :
    ∀ chs : List (NoiseChannel × Option CustomNoise), noiseTables a chs = noiseTables b chs
  | [] => rfl
  | (c, p) :: cs => by
    unfold noiseTables
    rw [noiseInChannel_same hi h, noiseTables_same hi h cs]

/-- The noise of two tables that differ in ignored columns only is the same. -/
theorem estimateNoise_same (hi : Ignored D) (h : a.removeAll D = b.removeAll D) (chs : List (NoiseChannel × Option CustomNoise)) :
    (estimateNoise a chs).map (fun t => t.removeAll D) = (estimateNoise b chs).map (fun t => t.removeAll D) := by
  have hm := maxSignal_same hi h
  unfold estimateNoise
  simp only [bind, Except.bind, pure, Except.pure]
  cases ha : a.estimateMaxSignal with
  | error e =>
    cases hb : b.estimateMaxSignal with
    | error e' => rw [ha, hb] at hm; cases hm; rfl
    | ok b' => rw [ha, hb] at hm; cases hm
  | ok a' =>
    cases hb : b.estimateMaxSignal with
    | error e' => rw [ha, hb] at hm; cases hm
    | ok b' =>
      rw [ha, hb] at hm
      simp only [Except.map, Except.ok.injEq] at hm
      simp only
      rw [noiseTables_same hi hm]
      cases noiseTables b' chs with
      | error e => rfl
      | ok ts =>
        simp only
        cases vstackTables ts with
        | error e => rfl
        | ok q =>
          obtain ⟨r, us⟩ := q
          simp only
          cases r with
          | none => rfl
          | some r =>
            simp only [Except.map, Except.ok.injEq]
            exact update_erase D D a' b' _ hm (fun c hc => .inl hc)

end ExoRad
