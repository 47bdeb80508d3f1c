import Verif.Model.Spawn
import Verif.Props.PipelineExact

/-!
# C94: the number of processes and the platform
-/

set_option linter.unusedSectionVars false

namespace ExoRad.Pipeline
open Table

variable {k : Setting} {p : Payload} {o : RunOpts} {s : Shared}

theorem on_fork (R : ℕ) (n : ℕ) (sched : List ℕ) (ts : List Target) :
    observeTargetlistOn .fork k R p o n sched s ts = observeTargetlist (worldAt k p R) p o n sched s ts := rfl

theorem on_fresh (R : ℕ) (n : ℕ) (hn : 1 < n) (sched : List ℕ) (ts : List Target) :
    observeTargetlistOn .fresh k R p o n sched s ts = observeTargetlist (worldAt k p 6000) p o n sched s ts := by
  unfold observeTargetlistOn observeTargetlist
  rw [if_pos hn, if_pos hn]
  rfl

theorem on_one (m : Start) (R : ℕ) (n : ℕ) (hn : n ≤ 1) (sched : List ℕ) (ts : List Target) :
    observeTargetlistOn m k R p o n sched s ts = observeTargetlist (worldAt k p R) p o n sched s ts := by
  unfold observeTargetlistOn observeTargetlist
  rw [if_neg (by omega), if_neg (by omega)]

/-! ## The grid of the star -/

theorem loadSource_grid {w : World} {d : Source.Descr} {a b : Source.Wl ℝ} {t : Source.StarData ℝ} {st : Source.Built ℝ}
    (h : Source.loadSource w.consts w.env w.grid d t a b = .ok st) : ∃ lo hi, st.sed.wl = w.grid lo hi := by
  unfold Source.loadSource at h
  split at h
  · cases h
  · split at h
    · cases h
    · unfold Source.toGrid at h
      split at h
      · cases h
      · split at h
        · cases h
        · rename_i a' b' _ _ st' _ _ r hr
          unfold Rebin.Signal.spectralRebin at hr
          split at hr
          · cases hr
          · simp only [Except.ok.injEq] at hr h
            subst h
            subst hr
            exact ⟨_, _, rfl⟩

theorem observe_grid {w : World} {tabs tabs' : List (Table ℝ)} {t t' : Target} (h : observe w p tabs t = (tabs', .ok t')) :
    ∃ b lo hi, t'.built = some b ∧ b.sed.wl = w.grid lo hi := by
  have keep3 : ∀ {s s' : St}, noiseStep p.channels s = (s', .ok ()) → s'.target.built = s.target.built := by
    intro s s' h
    unfold noiseStep at h
    split at h
    · cases h
    · split at h
      · cases h
      · cases h
        rfl
  have keep2 : ∀ {s s' : St}, propagateTarget p.channels s = (s', .ok ()) → s'.target.built = s.target.built := by
    intro s s' h
    unfold propagateTarget at h
    split at h
    · cases h
    · split at h
      · cases h
      · split at h
        · cases h
        · split at h
          · cases h
          · rename_i t _ hu
            cases h
            unfold updateWith at hu
            split at hu
            · cases hu
              rfl
            · cases hu
  have key : ∀ {s s' : St}, loadSource w p s = (s', .ok ()) → ∃ b lo hi, s'.target.built = some b ∧ b.sed.wl = w.grid lo hi := by
    intro s s' h
    unfold loadSource at h
    split at h
    · cases h
    · split at h
      · cases h
      · rename_i b hb
        simp only [Prod.mk.injEq] at h
        obtain ⟨rfl, _⟩ := h
        obtain ⟨lo, hi, e⟩ := loadSource_grid hb
        exact ⟨b, lo, hi, rfl, e⟩
  unfold observe at h
  split at h
  · cases h
  · rename_i s _ hs
    cases h
    have hst := (runSteps_ok _ _ _).mp hs
    unfold steps at hst
    have last : ∀ {s0 : St}, Steps [propagateForeground p.channels, loadSource w p, propagateTarget p.channels, noiseStep p.channels] s0 s →
        ∃ b lo hi, s.target.built = some b ∧ b.sed.wl = w.grid lo hi := by
      intro s0 h
      cases h with
      | cons h1 h => cases h with
        | cons h2 h => cases h with
          | cons h3 h => cases h with
            | cons h4 h =>
              cases h
              obtain ⟨b, lo, hi, e1, e2⟩ := key h2
              exact ⟨b, lo, hi, by rw [keep3 h4, keep2 h3, e1], e2⟩
    cases hf : p.foreground with
    | none =>
      rw [hf] at hst
      cases hst with
      | cons h1 h => exact last h
    | some sec =>
      rw [hf] at hst
      cases hst with
      | cons h1 h => cases h with
        | cons h2 h => exact last h

theorem pipelineToDict_grid {w : World} {s : Shared} {t r : Target} (h : (pipelineToDict w p o s t).2 = some r) :
    ∃ b lo hi, r.built = some b ∧ b.sed.wl = w.grid lo hi := by
  unfold pipelineToDict at h
  split at h
  · cases h
  · rename_i tabs t' hobs
    split at h
    · cases h
    · simp only [Option.some.injEq] at h
      subst h
      exact observe_grid hobs

theorem runList_grid {w : World} : ∀ (ts : List Target) (s : Shared), ∀ r, some r ∈ (runList w p o s ts).2 →
    ∃ b lo hi, r.built = some b ∧ b.sed.wl = w.grid lo hi
  | [], s, r, h => by simp [runList] at h
  | t :: ts, s, r, h => by
    unfold runList at h
    simp only [List.mem_cons] at h
    rcases h with h | h
    · exact pipelineToDict_grid h.symm
    · exact runList_grid ts _ r h

theorem collect_mem : ∀ (rs : List (Option Target)) (d : Dict (Option String) (Option Target)) (q : Option String × Option Target),
    q ∈ rs.foldl (fun d r => Dict.set d (r.map Target.name) r) d → q ∈ d ∨ q.2 ∈ rs
  | [], d, q, h => Or.inl h
  | r :: rs, d, q, h => by
    rw [List.foldl_cons] at h
    rcases collect_mem rs _ q h with h | h
    · have key : ∀ (d : Dict (Option String) (Option Target)) (x : Option String) (v : Option Target), q ∈ Dict.set d x v → q ∈ d ∨ q.2 = v := by
        intro d x v
        induction d with
        | nil =>
          intro h
          simp only [Dict.set, List.mem_singleton] at h
          subst h
          exact Or.inr rfl
        | cons e d ih =>
          obtain ⟨ek, ev⟩ := e
          intro h
          unfold Dict.set at h
          split at h
          · rcases List.mem_cons.mp h with rfl | h
            · exact Or.inr rfl
            · exact Or.inl (List.mem_cons_of_mem _ h)
          · rcases List.mem_cons.mp h with rfl | h
            · exact Or.inl (by simp)
            · rcases ih h with h | h
              · exact Or.inl (List.mem_cons_of_mem _ h)
              · exact Or.inr h
      rcases key _ _ _ h with h | h
      · exact Or.inl h
      · exact Or.inr (by rw [h]; simp)
    · exact Or.inr (List.mem_cons_of_mem _ h)

/-- C94: the spectrum of every star that is observed has as many samples as the working resolution of the process that observes it:
`R` in a single process or in workers that are copies of it, 6000 in workers that start afresh, whatever the payload declares. -/
theorem observed_resolution (m : Start) (R n : ℕ) (sched : List ℕ) (ts : List Target) (hs : ∀ i < ts.length, i ∈ sched)
    (name : Option String) (t : Target) (h : (name, some t) ∈ (observeTargetlistOn m k R p o n sched s ts).2) :
    ∃ b, t.built = some b ∧ b.sed.wl.length = if m = .fresh ∧ 1 < n then 6000 else R := by
  have key : ∀ R', (name, some t) ∈ (observeTargetlist (worldAt k p R') p o n sched s ts).2 → ∃ b, t.built = some b ∧ b.sed.wl.length = R' := by
    intro R' h
    have hm : ∃ b lo hi, t.built = some b ∧ b.sed.wl = (worldAt k p R').grid lo hi := by
      unfold observeTargetlist at h
      split at h
      · rcases collect_mem _ _ _ h with h | h
        · cases h
        · rw [pool_results _ _ _ _ _ _ hs] at h
          obtain ⟨u, _, hu⟩ := List.mem_map.mp h
          exact pipelineToDict_grid hu
      · rcases collect_mem _ _ _ h with h | h
        · cases h
        · exact runList_grid _ _ _ h
    obtain ⟨b, lo, hi, e1, e2⟩ := hm
    exact ⟨b, e1, by rw [e2]; simp [worldAt, Instrument.logspace]⟩
  by_cases hn : 1 < n
  · cases m with
    | fork =>
      rw [if_neg (by simp)]
      exact key R h
    | fresh =>
      rw [if_pos ⟨rfl, hn⟩]
      rw [on_fresh R n hn] at h
      exact key 6000 h
  · rw [if_neg (fun h => hn h.2)]
    rw [on_one m R n (by omega)] at h
    exact key R h

/-- C94: with workers that are copies of the parent, or with the default working resolution, the number of processes and the order
in which they finish do not matter (but for the column `sky TR`, see `threads_differ`). -/
theorem platform_partial (h0 : Built p s.tabs) (hd : PlotIgnoresSky o) (ts : List Target) (hf : ∀ t ∈ ts, Fresh t) (m : Start) (R : ℕ)
    (hm : m = .fork ∨ R = 6000) (n n' : ℕ) (sched sched' : List ℕ) (hs : ∀ i < ts.length, i ∈ sched) (hs' : ∀ i < ts.length, i ∈ sched') :
    SameDict (observeTargetlistOn m k R p o n sched s ts).2 (observeTargetlistOn m k R p o n' sched' s ts).2 := by
  have key : ∀ n sched, observeTargetlistOn m k R p o n sched s ts = observeTargetlist (worldAt k p R) p o n sched s ts := by
    intro n sched
    rcases hm with rfl | rfl
    · rfl
    · by_cases hn : 1 < n
      · cases m with
        | fork => rfl
        | fresh => exact on_fresh 6000 n hn sched ts
      · exact on_one m 6000 n (by omega) sched ts
  rw [key, key]
  exact threads_partial h0 hd ts hf n n' sched sched' hs hs'

/-- C94: with zodiacal light only, exactly. -/
theorem platform_exact_partial (h0 : Built p s.tabs) (sec : Foreground.Section ℝ) (hsec : p.foreground = some sec)
    (hz : ∀ kd ∈ sec.list, kd.1 = "zodiacal") (ts : List Target) (hf : ∀ t ∈ ts, Fresh t) (m : Start) (R : ℕ) (hm : m = .fork ∨ R = 6000)
    (n n' : ℕ) (sched sched' : List ℕ) (hs : ∀ i < ts.length, i ∈ sched) (hs' : ∀ i < ts.length, i ∈ sched') :
    (observeTargetlistOn m k R p o n sched s ts).2 = (observeTargetlistOn m k R p o n' sched' s ts).2 := by
  have key : ∀ n sched, observeTargetlistOn m k R p o n sched s ts = observeTargetlist (worldAt k p R) p o n sched s ts := by
    intro n sched
    rcases hm with rfl | rfl
    · rfl
    · by_cases hn : 1 < n
      · cases m with
        | fork => rfl
        | fresh => exact on_fresh 6000 n hn sched ts
      · exact on_one m 6000 n (by omega) sched ts
  rw [key, key]
  exact threads_exact h0 sec hsec hz ts hf n n' sched sched' hs hs'

/-- C94: workers that start afresh observe as if the payload had declared `working_R` 6000: the dictionary is that of a single process
with that resolution. -/
theorem fresh_as_default (h0 : Built p s.tabs) (hd : PlotIgnoresSky o) (ts : List Target) (hf : ∀ t ∈ ts, Fresh t) (R : ℕ) (m : Start)
    (n n' : ℕ) (hn : 1 < n) (hn' : n' ≤ 1) (sched sched' : List ℕ) (hs : ∀ i < ts.length, i ∈ sched) (hs' : ∀ i < ts.length, i ∈ sched') :
    SameDict (observeTargetlistOn .fresh k R p o n sched s ts).2 (observeTargetlistOn m k 6000 p o n' sched' s ts).2 := by
  rw [on_fresh R n hn, on_one m 6000 n' hn']
  exact threads_partial h0 hd ts hf n n' sched sched' hs hs'

theorem SameDict.mem {d d' : Dict (Option String) (Option Target)} (h : SameDict d d') : ∀ q ∈ d', ∃ r ∈ d, r.1 = q.1 ∧ SameResult r.2 q.2 := by
  unfold SameDict at h
  induction h with
  | nil => intro q hq; cases hq
  | @cons x y l l' hxy _ ih =>
    intro q hq
    rcases List.mem_cons.mp hq with hq | hq
    · subst hq
      exact ⟨x, by simp, hxy.1, hxy.2⟩
    · obtain ⟨r, hr, e⟩ := ih q hq
      exact ⟨r, List.mem_cons_of_mem _ hr, e⟩

/-- C94, what does not hold: if one target can be observed in a single process, then workers that start afresh give the
same dictionary exactly when the working resolution is the default. -/
theorem fresh_same_iff (h0 : Built p s.tabs) (hd : PlotIgnoresSky o) (ts : List Target) (hf : ∀ t ∈ ts, Fresh t) (R : ℕ) (m : Start)
    (n n' : ℕ) (hn : 1 < n) (hn' : n' ≤ 1) (sched sched' : List ℕ) (hs : ∀ i < ts.length, i ∈ sched) (hs' : ∀ i < ts.length, i ∈ sched')
    (name : Option String) (t : Target) (ht : (name, some t) ∈ (observeTargetlistOn m k R p o n' sched' s ts).2) :
    SameDict (observeTargetlistOn .fresh k R p o n sched s ts).2 (observeTargetlistOn m k R p o n' sched' s ts).2 ↔ R = 6000 := by
  constructor
  · intro h
    obtain ⟨b, hb, hlen⟩ := observed_resolution m R n' sched' ts hs' name t ht
    rw [if_neg (by omega)] at hlen
    obtain ⟨q, hq, hk, hr⟩ : ∃ q ∈ (observeTargetlistOn .fresh k R p o n sched s ts).2, q.1 = name ∧ SameResult q.2 (some t) := by
      obtain ⟨q, hq, h1, h2⟩ := SameDict.mem h _ ht
      exact ⟨q, hq, h1, h2⟩
    obtain ⟨qk, qv⟩ := q
    simp only at hk hr
    cases hr with
    | @observed a _ hsame =>
      obtain ⟨b', hb', hlen'⟩ := observed_resolution .fresh R n sched ts hs qk a hq
      rw [if_pos ⟨rfl, hn⟩] at hlen'
      have := hsame.built
      rw [hb', hb, Option.some.injEq] at this
      rw [← hlen, ← hlen', this]
  · rintro rfl
    rw [on_fresh 6000 n hn, on_one m 6000 n' hn']
    exact threads_partial h0 hd ts hf n n' sched sched' hs hs'

end ExoRad.Pipeline
