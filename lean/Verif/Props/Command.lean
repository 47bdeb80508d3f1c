import Verif.Model.Command
import Mathlib.Data.List.Basic
import Mathlib.Tactic.Common

/-!
# C93: the command lines
-/

namespace ExoRad.Command

/-- The options of a parser can be told apart: different letters and names, no `-` or `=` as a letter, no `=` in a name. -/
structure Good (p : List Opt) : Prop where
  nodup : p.Nodup
  shorts : ∀ o ∈ p, ∀ o' ∈ p, o.short = o'.short → o = o'
  longs : ∀ o ∈ p, ∀ o' ∈ p, o.long = o'.long → o = o'
  dash : ∀ o ∈ p, o.short ≠ '-'
  eqShort : ∀ o ∈ p, o.short ≠ '='
  eqLong : ∀ o ∈ p, '=' ∉ o.long

theorem exorad_good : Good exoradOpts := by
  constructor <;> decide

theorem plot_good : Good plotOpts := by
  constructor <;> decide

/-- What a word stands for: `-o`, `--long`, `-o=v`, `-ov`, `--long=v`, or a beginning of `--long` that no other option has, alone or with `=v`. -/
inductive Means (p : List Opt) : Word → Opt → Bool → Option Word → Prop
  | short (o : Opt) : o ∈ p → Means p ['-', o.short] o true none
  | long (o : Opt) : o ∈ p → Means p ('-' :: '-' :: o.long) o false none
  | shortEq (o : Opt) (v : Word) : o ∈ p → Means p ('-' :: o.short :: '=' :: v) o true (some v)
  | glued (o : Opt) (c : Char) (v : Word) : o ∈ p → c ≠ '=' → Means p ('-' :: o.short :: c :: v) o true (some (c :: v))
  | longEq (o : Opt) (v : Word) : o ∈ p → Means p ('-' :: '-' :: (o.long ++ '=' :: v)) o false (some v)
  | pre (o : Opt) (w : Word) : o ∈ p → w <+: o.long → (∀ o' ∈ p, w <+: o'.long → o' = o) → Means p ('-' :: '-' :: w) o false none
  | preEq (o : Opt) (w v : Word) : o ∈ p → w <+: o.long → (∀ o' ∈ p, w <+: o'.long → o' = o) →
      Means p ('-' :: '-' :: (w ++ '=' :: v)) o false (some v)

/-! ## Words -/

theorem cut_none (w : Word) (h : '=' ∉ w) : cut w = (w, none) := by
  induction w with
  | nil => rfl
  | cons c w ih =>
    have hc : c ≠ '=' := fun e => h (by rw [e]; exact List.mem_cons_self ..)
    rw [cut, if_neg hc, ih (fun hm => h (List.mem_cons_of_mem _ hm))]

theorem cut_some (a v : Word) (h : '=' ∉ a) : cut (a ++ '=' :: v) = (a, some v) := by
  induction a with
  | nil => rfl
  | cons c w ih =>
    have hc : c ≠ '=' := fun e => h (by rw [e]; exact List.mem_cons_self ..)
    rw [List.cons_append, cut, if_neg hc, ih (fun hm => h (List.mem_cons_of_mem _ hm))]

theorem cut_cases (w : Word) : ('=' ∉ w ∧ cut w = (w, none)) ∨ ∃ a v, w = a ++ '=' :: v ∧ '=' ∉ a ∧ cut w = (a, some v) := by
  by_cases h : '=' ∈ w
  · obtain ⟨a, v, e, ha⟩ := List.append_of_mem h |>.elim (fun s hs => by
      obtain ⟨t, ht⟩ := hs
      exact (List.eq_append_cons_of_mem h))
    exact Or.inr ⟨a, v, e, ha, by rw [e]; exact cut_some a v ha⟩
  · exact Or.inl ⟨h, cut_none w h⟩

theorem exact_short {p : List Opt} (hp : Good p) {o : Opt} (ho : o ∈ p) : exact p ['-', o.short] = some (o, true) := by
  unfold exact
  have : p.find? (fun o' => o'.shortWord = ['-', o.short]) = some o := by
    cases hf : p.find? (fun o' => o'.shortWord = ['-', o.short]) with
    | none =>
      rw [List.find?_eq_none] at hf
      exact absurd (by simp [Opt.shortWord]) (hf o ho)
    | some o' =>
      have h1 := List.find?_some hf
      have h2 := List.mem_of_find?_eq_some hf
      have : o'.short = o.short := by simpa [Opt.shortWord] using h1
      rw [hp.shorts o' h2 o ho this]
  rw [this]

theorem exact_long {p : List Opt} (hp : Good p) {o : Opt} (ho : o ∈ p) : exact p ('-' :: '-' :: o.long) = some (o, false) := by
  unfold exact
  have h0 : p.find? (fun o' => o'.shortWord = '-' :: '-' :: o.long) = none := by
    rw [List.find?_eq_none]
    intro o' ho' h
    have : o'.short = '-' := by
      have := of_decide_eq_true h
      simp only [Opt.shortWord, List.cons.injEq] at this
      exact this.2.1
    exact hp.dash o' ho' this
  have : p.find? (fun o' => o'.longWord = '-' :: '-' :: o.long) = some o := by
    cases hf : p.find? (fun o' => o'.longWord = '-' :: '-' :: o.long) with
    | none =>
      rw [List.find?_eq_none] at hf
      exact absurd (by simp [Opt.longWord]) (hf o ho)
    | some o' =>
      have h1 := List.find?_some hf
      have h2 := List.mem_of_find?_eq_some hf
      have : o'.long = o.long := by simpa [Opt.longWord] using h1
      rw [hp.longs o' h2 o ho this]
  rw [h0, this]

theorem exact_some {p : List Opt} {w : Word} {o : Opt} {b : Bool} (h : exact p w = some (o, b)) :
    o ∈ p ∧ ((b = true ∧ w = ['-', o.short]) ∨ (b = false ∧ w = '-' :: '-' :: o.long)) := by
  unfold exact at h
  split at h
  · next o' hf =>
    cases h
    exact ⟨List.mem_of_find?_eq_some hf, Or.inl ⟨rfl, by have h := List.find?_some hf; simp only [decide_eq_true_eq] at h; exact h.symm⟩⟩
  · split at h
    · next o' hf =>
      cases h
      exact ⟨List.mem_of_find?_eq_some hf, Or.inr ⟨rfl, by have h := List.find?_some hf; simp only [decide_eq_true_eq] at h; exact h.symm⟩⟩
    · cases h

theorem exact_none {p : List Opt} {w : Word} (h1 : ∀ o ∈ p, w ≠ ['-', o.short]) (h2 : ∀ o ∈ p, w ≠ '-' :: '-' :: o.long) : exact p w = none := by
  cases h : exact p w with
  | none => rfl
  | some r =>
    obtain ⟨o, b⟩ := r
    obtain ⟨ho, h3 | h3⟩ := exact_some h
    · exact absurd h3.2 (h1 o ho)
    · exact absurd h3.2 (h2 o ho)

theorem filter_singleton_of_unique {α : Type} (p : α → Bool) (l : List α) (hn : l.Nodup) (o : α) (ho : o ∈ l) (hpo : p o = true)
    (hu : ∀ o' ∈ l, p o' = true → o' = o) : l.filter p = [o] := by
  have h1 : (l.filter p).Nodup := hn.filter _
  have h2 : o ∈ l.filter p := List.mem_filter.mpr ⟨ho, hpo⟩
  have h3 : ∀ x ∈ l.filter p, x = o := fun x hx => hu x (List.mem_filter.mp hx).1 (List.mem_filter.mp hx).2
  match hl : l.filter p with
  | [] => rw [hl] at h2; cases h2
  | [a] => rw [hl] at h3; rw [h3 a (List.mem_singleton_self _)]
  | a :: b :: t =>
    rw [hl] at h3 h1
    have ha := h3 a (List.mem_cons_self ..)
    have hb := h3 b (List.mem_cons_of_mem _ (List.mem_cons_self ..))
    rw [ha, hb] at h1
    exact absurd (List.mem_cons_self ..) (List.nodup_cons.mp h1).1

theorem prefix_long (w : Word) (o : Opt) : (('-' :: '-' :: w).isPrefixOf o.longWord = true) ↔ w <+: o.long := by
  rw [List.isPrefixOf_iff_prefix]
  unfold Opt.longWord
  constructor
  · intro h
    exact (List.cons_prefix_cons.mp (List.cons_prefix_cons.mp h).2).2
  · intro h
    exact List.cons_prefix_cons.mpr ⟨rfl, List.cons_prefix_cons.mpr ⟨rfl, h⟩⟩

theorem not_mem_prefix {w l : Word} (h : w <+: l) (hl : '=' ∉ l) : '=' ∉ w := fun hm => hl (h.subset hm)

theorem guess_eq {p : List Opt} {c : Char} (hcd : c ≠ '-') (t : Word) :
    guess p ('-' :: c :: t) = (p.filter (fun o => o.short = c)).map (fun o => Class.opt o true (some t)) := by
  unfold guess
  split
  · next h => exact absurd (List.cons.inj (List.cons.inj h).2).1 hcd
  · next x y z h1 h2 =>
    simp only [List.cons.injEq] at h2
    obtain ⟨_, h3, h4⟩ := h2
    subst h3; subst h4
    rfl
  · next h1 h2 => exact absurd rfl (h2 _ _)

/-- A single-dash word that is not `-o` itself and has no `=` after its letter. -/
theorem classify_glued {p : List Opt} (hp : Good p) {o : Opt} (ho : o ∈ p) (c : Char) (v : Word) (hc : c ≠ '=') :
    classify p ('-' :: o.short :: c :: v) = .opt o true (some (c :: v)) := by
  have he : exact p ('-' :: o.short :: c :: v) = none := by
    apply exact_none
    · intro o' _ h; simp at h
    · intro o' ho' h
      simp only [List.cons.injEq] at h
      exact hp.dash o ho h.2.1
  have hcut : withEq p ('-' :: o.short :: c :: v) = none := by
    unfold withEq
    rcases cut_cases ('-' :: o.short :: c :: v) with ⟨_, h⟩ | ⟨a, u, e, ha, h⟩
    · rw [h]
    · rw [h]
      dsimp only
      have : exact p a = none := by
        match a, e with
        | [], e => simp at e
        | [x], e =>
          apply exact_none <;> intro o' _ h <;> simp at h
        | [x, y], e =>
          simp only [List.cons_append, List.nil_append, List.cons.injEq] at e
          exact absurd e.2.2.1 hc
        | x :: y :: z :: t, e =>
          simp only [List.cons_append, List.cons.injEq] at e
          apply exact_none
          · intro o' _ h; simp at h
          · intro o' _ h
            simp only [List.cons.injEq] at h
            exact hp.dash o ho (e.2.1.trans h.2.1)
      simp only [this]
  have hg : guess p ('-' :: o.short :: c :: v) = [.opt o true (some (c :: v))] := by
    have hf : p.filter (fun o' => o'.short = o.short) = [o] :=
      filter_singleton_of_unique _ p hp.nodup o ho (by simp) (fun o' ho' h => hp.shorts o' ho' o ho (of_decide_eq_true h))
    rw [guess_eq (hp.dash o ho), hf]
    rfl
  unfold classify
  simp only [he, reduceCtorEq, if_false, hcut, hg]

theorem classify_pre {p : List Opt} (hp : Good p) {o : Opt} (ho : o ∈ p) (w : Word) (hw : w <+: o.long)
    (hu : ∀ o' ∈ p, w <+: o'.long → o' = o) : classify p ('-' :: '-' :: w) = .opt o false none := by
  by_cases hx : w = o.long
  · subst hx
    unfold classify
    simp only [exact_long hp ho]
  · have he : exact p ('-' :: '-' :: w) = none := by
      apply exact_none
      · intro o' ho' h
        simp only [List.cons.injEq] at h
        exact hp.dash o' ho' h.2.1.symm
      · intro o' ho' h
        simp only [List.cons.injEq, true_and] at h
        have := hu o' ho' (h ▸ List.prefix_refl _)
        exact hx (h.trans (by rw [this]))
    have hn : '=' ∉ ('-' :: '-' :: w) := by
      simp only [List.mem_cons, not_or]
      exact ⟨by decide, by decide, not_mem_prefix hw (hp.eqLong o ho)⟩
    have hc := cut_none _ hn
    have hg : guess p ('-' :: '-' :: w) = [.opt o false none] := by
      have hf : p.filter (fun o' => ('-' :: '-' :: w).isPrefixOf o'.longWord) = [o] :=
        filter_singleton_of_unique _ p hp.nodup o ho ((prefix_long w o).mpr hw) (fun o' ho' h => hu o' ho' ((prefix_long w o').mp h))
      unfold guess
      simp only [hc, hf, List.map_cons, List.map_nil]
    unfold classify
    simp only [he, reduceCtorEq, if_false, withEq, hc, hg]

theorem classify_preEq {p : List Opt} (hp : Good p) {o : Opt} (ho : o ∈ p) (w v : Word) (hw : w <+: o.long)
    (hu : (∀ o' ∈ p, w <+: o'.long → o' = o) ∨ w = o.long) : classify p ('-' :: '-' :: (w ++ '=' :: v)) = .opt o false (some v) := by
  have hmem : '=' ∈ ('-' :: '-' :: (w ++ '=' :: v)) := by simp
  have he : exact p ('-' :: '-' :: (w ++ '=' :: v)) = none := by
    apply exact_none
    · intro o' ho' h
      simp only [List.cons.injEq] at h
      exact hp.dash o' ho' h.2.1.symm
    · intro o' ho' h
      simp only [List.cons.injEq, true_and] at h
      exact hp.eqLong o' ho' (h ▸ by simp)
  have hnw : '=' ∉ w := not_mem_prefix hw (hp.eqLong o ho)
  have hc : cut ('-' :: '-' :: (w ++ '=' :: v)) = ('-' :: '-' :: w, some v) :=
    cut_some ('-' :: '-' :: w) v (by
      simp only [List.mem_cons, not_or]
      exact ⟨by decide, by decide, hnw⟩)
  by_cases hx : w = o.long
  · subst hx
    unfold classify
    simp only [he, reduceCtorEq, if_false, hc, withEq, exact_long hp ho]
  · have hu := hu.resolve_right hx
    have he2 : exact p ('-' :: '-' :: w) = none := by
      apply exact_none
      · intro o' ho' h
        simp only [List.cons.injEq] at h
        exact hp.dash o' ho' h.2.1.symm
      · intro o' ho' h
        simp only [List.cons.injEq, true_and] at h
        have := hu o' ho' (h ▸ List.prefix_refl _)
        exact hx (h.trans (by rw [this]))
    have hg : guess p ('-' :: '-' :: (w ++ '=' :: v)) = [.opt o false (some v)] := by
      have hf : p.filter (fun o' => ('-' :: '-' :: w).isPrefixOf o'.longWord) = [o] :=
        filter_singleton_of_unique _ p hp.nodup o ho ((prefix_long w o).mpr hw) (fun o' ho' h => hu o' ho' ((prefix_long w o').mp h))
      unfold guess
      simp only [hc, hf, List.map_cons, List.map_nil]
    unfold classify
    simp only [he, reduceCtorEq, if_false, hc, withEq, he2, hg]

theorem map_singleton {α β : Type} {f : α → β} {l : List α} {c : β} (h : l.map f = [c]) : ∃ a, l = [a] ∧ f a = c := by
  match l, h with
  | [a], h => exact ⟨a, rfl, by simpa using h⟩
  | [], h => cases h
  | _ :: _ :: _, h => simp at h

theorem means_double {p : List Opt} {t : Word} {o : Opt} {b : Bool} {v : Option Word} (hg : guess p ('-' :: '-' :: t) = [.opt o b v]) :
    Means p ('-' :: '-' :: t) o b v := by
  have hg : (p.filter (fun o => (cut ('-' :: '-' :: t)).1.isPrefixOf o.longWord)).map (fun o => Class.opt o false (cut ('-' :: '-' :: t)).2) =
      [.opt o b v] := hg
  obtain ⟨o', hl, ho'⟩ := map_singleton hg
  have hm : o' ∈ p.filter (fun o => (cut ('-' :: '-' :: t)).1.isPrefixOf o.longWord) := by rw [hl]; exact List.mem_singleton_self _
  have hmem : o' ∈ p := (List.mem_filter.mp hm).1
  have hpre := (List.mem_filter.mp hm).2
  have huniq : ∀ o'' ∈ p, (cut ('-' :: '-' :: t)).1.isPrefixOf o''.longWord = true → o'' = o' := by
    intro o'' h1 h2
    have : o'' ∈ p.filter (fun o => (cut ('-' :: '-' :: t)).1.isPrefixOf o.longWord) := List.mem_filter.mpr ⟨h1, h2⟩
    rw [hl] at this
    exact List.mem_singleton.mp this
  rcases cut_cases ('-' :: '-' :: t) with ⟨_, hc⟩ | ⟨a, u, e, ha, hc⟩
  · rw [hc] at hpre huniq ho'
    cases ho'
    exact .pre _ _ hmem ((prefix_long t _).mp hpre) (fun o'' h1 h2 => huniq o'' h1 ((prefix_long t _).mpr h2))
  · rw [hc] at hpre huniq ho'
    cases ho'
    match a, e with
    | [], e => simp at e
    | [x], e =>
      simp only [List.cons_append, List.nil_append, List.cons.injEq] at e
      exact absurd e.2.1 (by decide)
    | x :: y :: a, e =>
      simp only [List.cons_append, List.cons.injEq] at e
      obtain ⟨e1, e2, e3⟩ := e
      subst e1; subst e2; subst e3
      exact .preEq _ _ _ hmem ((prefix_long a _).mp hpre) (fun o'' h1 h2 => huniq o'' h1 ((prefix_long a _).mpr h2))

theorem guess_single {p : List Opt} {c : Char} (hcd : c ≠ '-') {t : Word} {o : Opt} {b : Bool} {v : Option Word}
    (hg : guess p ('-' :: c :: t) = [.opt o b v]) : b = true ∧ v = some t ∧ c = o.short ∧ o ∈ p := by
  rw [guess_eq hcd] at hg
  obtain ⟨o', hl, ho'⟩ := map_singleton hg
  have hm0 : o' ∈ p.filter (fun o => o.short = c) := by rw [hl]; exact List.mem_singleton_self _
  have hm := List.mem_filter.mp hm0
  cases ho'
  exact ⟨rfl, rfl, (of_decide_eq_true hm.2).symm, hm.1⟩

/-- C93: the words that stand for an option are exactly the spellings. -/
theorem classify_opt_iff {p : List Opt} (hp : Good p) (w : Word) (o : Opt) (b : Bool) (v : Option Word) :
    classify p w = .opt o b v ↔ Means p w o b v := by
  constructor
  · intro h
    unfold classify at h
    split at h
    · next rest =>
      cases he : exact p ('-' :: rest) with
      | some r =>
        obtain ⟨o', b'⟩ := r
        simp only [he] at h
        cases h
        obtain ⟨ho, ⟨h1, h2⟩ | ⟨h1, h2⟩⟩ := exact_some he
        · subst h1; rw [h2]; exact .short _ ho
        · subst h1; rw [h2]; exact .long _ ho
      | none =>
        simp only [he] at h
        by_cases hr : rest = []
        · rw [if_pos hr] at h; cases h
        rw [if_neg hr] at h
        have hguess : guess p ('-' :: rest) = [.opt o b v] →
            (∀ a u, '-' :: rest = a ++ '=' :: u → '=' ∉ a → exact p a = none) → Means p ('-' :: rest) o b v := by
          intro hg hnoeq
          match rest, hr with
          | c :: t, _ =>
            by_cases hcd : c = '-'
            · subst hcd
              exact means_double hg
            · obtain ⟨hb, hv, hs, hm⟩ := guess_single hcd hg
              subst hb; subst hv; subst hs
              match t with
              | [] => rw [exact_short hp hm] at he; cases he
              | x :: t =>
                by_cases hx : x = '='
                · subst hx
                  have := hnoeq ['-', o.short] t rfl (by
                    simp only [List.mem_cons, List.not_mem_nil, or_false, not_or]
                    exact ⟨by decide, fun h => hp.eqShort o hm h.symm⟩)
                  rw [exact_short hp hm] at this
                  cases this
                · exact .glued _ _ _ hm hx
        rcases cut_cases ('-' :: rest) with ⟨hno, hc⟩ | ⟨a, u, e, ha, hc⟩
        · have hw : withEq p ('-' :: rest) = none := by unfold withEq; rw [hc]
          simp only [hw] at h
          split at h
          · next c hg =>
            subst h
            exact hguess hg (fun a u ee _ => absurd (by rw [ee]; simp) hno)
          · cases h
          · split_ifs at h
        · cases hea : exact p a with
          | some r =>
            obtain ⟨o', b'⟩ := r
            have hw : withEq p ('-' :: rest) = some (.opt o' b' (some u)) := by unfold withEq; rw [hc]; simp only [hea]
            simp only [hw] at h
            cases h
            rw [e]
            obtain ⟨ho, ⟨h1, h2⟩ | ⟨h1, h2⟩⟩ := exact_some hea
            · subst h1; rw [h2]; exact .shortEq _ _ ho
            · subst h1; rw [h2]; exact .longEq _ _ ho
          | none =>
            have hw : withEq p ('-' :: rest) = none := by unfold withEq; rw [hc]; simp only [hea]
            simp only [hw] at h
            split at h
            · next c hg =>
              subst h
              refine hguess hg (fun a' u' ee ha' => ?_)
              have h3 := cut_some a' u' ha'
              rw [← ee, hc] at h3
              cases h3
              exact hea
            · cases h
            · split_ifs at h
    · cases h
  · intro h
    cases h with
    | short o ho => unfold classify; simp only [exact_short hp ho]
    | long o ho => unfold classify; simp only [exact_long hp ho]
    | shortEq o v ho =>
      have he : exact p ('-' :: o.short :: '=' :: v) = none := by
        apply exact_none
        · intro o' _ h; simp at h
        · intro o' ho' h
          simp only [List.cons.injEq] at h
          exact hp.dash o ho h.2.1
      have hc : cut ('-' :: o.short :: '=' :: v) = (['-', o.short], some v) := cut_some ['-', o.short] v (by
        simp only [List.mem_cons, List.not_mem_nil, or_false, not_or]
        exact ⟨by decide, fun h => hp.eqShort o ho h.symm⟩)
      unfold classify
      simp only [he, reduceCtorEq, if_false, hc, withEq, exact_short hp ho]
    | glued o c v ho hc => exact classify_glued hp ho c v hc
    | longEq o v ho => exact classify_preEq hp ho o.long v (List.prefix_refl _) (Or.inr rfl)
    | pre o w ho hw hu => exact classify_pre hp ho w hw hu
    | preEq o w v ho hw hu => exact classify_preEq hp ho w v hw (Or.inl hu)

end ExoRad.Command
