import Verif.Props.Command
import Mathlib.Data.List.Nodup
import Mathlib.Data.List.Perm.Basic

/-!
# C93: the command lines that are accepted, and the calls they make
-/

namespace ExoRad.Command

/-- A word with a dash in front that no option begins. -/
def NoOption (p : List Opt) (w : Word) : Prop :=
  (∀ o ∈ p, ¬ ['-', o.short] <+: w) ∧
  (∀ o ∈ p, ∀ r, w = '-' :: '-' :: r → ¬ r.takeWhile (fun c => c ≠ '=') <+: o.long)

/-- The digits of a number, or digits (or none), a point and digits: what argparse takes for a negative number after a dash. -/
def NumberWord (w : Word) : Prop :=
  (w ≠ [] ∧ ∀ c ∈ w, '0' ≤ c ∧ c ≤ '9') ∨
  ∃ a b : Word, w = a ++ '.' :: b ∧ b ≠ [] ∧ (∀ c ∈ a, '0' ≤ c ∧ c ≤ '9') ∧ ∀ c ∈ b, '0' ≤ c ∧ c ≤ '9'

theorem isDigit_iff (c : Char) : isDigit c = true ↔ '0' ≤ c ∧ c ≤ '9' := by simp [isDigit]

theorem negative_iff (w : Word) : negative w = true ↔ NumberWord w := by
  unfold negative NumberWord
  rw [Bool.or_eq_true]
  refine or_congr ?_ ?_
  · simp [isDigit_iff]
  · constructor
    · intro h
      split at h
      · rename_i t e
        simp only [Bool.and_eq_true, Bool.not_eq_true', List.all_eq_true, isDigit_iff] at h
        refine ⟨w.takeWhile isDigit, t, ?_, by simpa using h.1, fun c hc => (isDigit_iff c).mp (List.all_eq_true.mp List.all_takeWhile c hc), h.2⟩
        rw [← e]
        exact List.takeWhile_append_dropWhile.symm
      · cases h
    · rintro ⟨a, b, rfl, hb, h1, h2⟩
      have e : (a ++ '.' :: b).dropWhile isDigit = '.' :: b := by
        rw [List.dropWhile_append_of_pos (fun c hc => (isDigit_iff c).mpr (h1 c hc)), List.dropWhile_cons_of_neg (by decide)]
      rw [e]
      simpa [isDigit_iff] using ⟨hb, h2⟩

/-- A word that can be a value: it does not begin with a dash, or it is a dash alone, or it begins no option and is a negative number or
has a blank in it. -/
def IsValue (p : List Opt) (w : Word) : Prop :=
  w.head? ≠ some '-' ∨ w = ['-'] ∨ (NoOption p w ∧ (NumberWord w.tail ∨ ' ' ∈ w))

/-- The option takes `v` and makes `x` of it. -/
def Takes (int : Word → Option Int) (o : Opt) (v : Word) (x : Val) : Prop :=
  (o.kind = .str ∧ x = .str v) ∨ (o.kind = .int ∧ ∃ n, int v = some n ∧ x = .int n)

/-- The command lines of a parser and what they set. -/
inductive Line (p : List Opt) (int : Word → Option Int) : List Word → Sets → Prop
  | nil : Line p int [] []
  /-- A flag -/
  | flag (w : Word) (o : Opt) (b : Bool) (ws : List Word) (r : Sets) : Means p w o b none → o.kind = .flag → Line p int ws r →
      Line p int (w :: ws) ((o.dest, .bool true) :: r)
  /-- An option and its value in the next word -/
  | next (w : Word) (o : Opt) (b : Bool) (v : Word) (x : Val) (ws : List Word) (r : Sets) : Means p w o b none → Takes int o v x →
      IsValue p v → Line p int ws r → Line p int (w :: v :: ws) ((o.dest, x) :: r)
  /-- An option and its value in one word -/
  | glued (w : Word) (o : Opt) (b : Bool) (v : Word) (x : Val) (ws : List Word) (r : Sets) : Means p w o b (some v) → Takes int o v x →
      Line p int ws r → Line p int (w :: ws) ((o.dest, x) :: r)
  /-- `-dc…` is `-d -c…` for a flag `d` (and so is `-d=c…`) -/
  | cluster (w : Word) (o : Opt) (c : Char) (cs : Word) (ws : List Word) (r : Sets) : Means p w o true (some (c :: cs)) → o.kind = .flag →
      c ≠ '-' → cs.head? ≠ some '=' → Line p int (('-' :: c :: cs) :: ws) r → Line p int (w :: ws) ((o.dest, .bool true) :: r)
  /-- except that in `-do=v` the `=` belongs to the value -/
  | clusterEq (w : Word) (o o' : Opt) (v : Word) (x : Val) (ws : List Word) (r : Sets) : Means p w o true (some (o'.short :: '=' :: v)) → o.kind = .flag →
      o' ∈ p → Takes int o' ('=' :: v) x → Line p int ws r → Line p int (w :: ws) ((o.dest, .bool true) :: (o'.dest, x) :: r)

/-! ## Values -/

theorem cut_fst (w : Word) : (cut w).1 = w.takeWhile (fun c => c ≠ '=') := by
  induction w with
  | nil => rfl
  | cons c w ih =>
    by_cases h : c = '='
    · subst h; simp [cut]
    · rw [cut, if_neg h, List.takeWhile_cons_of_pos (by simpa using h), ← ih]

theorem guess_nil {p : List Opt} (hp : Good p) (rest : Word) (hr : rest ≠ []) : guess p ('-' :: rest) = [] ↔ NoOption p ('-' :: rest) := by
  match rest, hr with
  | c :: t, _ =>
    by_cases hc : c = '-'
    · subst hc
      have hg : guess p ('-' :: '-' :: t) = (p.filter (fun o => (cut ('-' :: '-' :: t)).1.isPrefixOf o.longWord)).map
          (fun o => Class.opt o false (cut ('-' :: '-' :: t)).2) := rfl
      have hcut : (cut ('-' :: '-' :: t)).1 = '-' :: '-' :: t.takeWhile (fun c => c ≠ '=') := by
        rw [cut_fst]
        rw [List.takeWhile_cons_of_pos (by decide), List.takeWhile_cons_of_pos (by decide)]
      rw [hg, List.map_eq_nil_iff, List.filter_eq_nil_iff, hcut]
      constructor
      · intro h
        refine ⟨fun o ho hpre => ?_, fun o ho r hrr hpre => ?_⟩
        · have := (List.cons_prefix_cons.mp (List.cons_prefix_cons.mp hpre).2).1
          exact hp.dash o ho this
        · simp only [List.cons.injEq, true_and] at hrr
          subst hrr
          exact h o ho ((prefix_long _ o).mpr hpre)
      · intro h o ho hpre
        exact h.2 o ho t rfl ((prefix_long _ o).mp hpre)
    · rw [guess_eq hc, List.map_eq_nil_iff, List.filter_eq_nil_iff]
      constructor
      · intro h
        refine ⟨fun o ho hpre => ?_, fun o ho r hrr _ => ?_⟩
        · have := (List.cons_prefix_cons.mp (List.cons_prefix_cons.mp hpre).2).1
          exact h o ho (by simpa using this)
        · simp only [List.cons.injEq, true_and] at hrr
          exact hc hrr.1
      · intro h o ho hs
        have : o.short = c := by simpa using hs
        exact h.1 o ho (by rw [this]; exact ⟨t, rfl⟩)

theorem noOption_not_means {p : List Opt} (hp : Good p) {w : Word} (h : NoOption p w) {o : Opt} {b : Bool} {v : Option Word} : ¬ Means p w o b v := by
  intro hm
  have hcut : ∀ (a u : Word), '=' ∉ a → (a ++ '=' :: u).takeWhile (fun c => c ≠ '=') = a := by
    intro a u ha
    rw [← cut_fst, cut_some a u ha]
  have hcut0 : ∀ a : Word, '=' ∉ a → a.takeWhile (fun c => c ≠ '=') = a := by
    intro a ha
    rw [← cut_fst, cut_none a ha]
  cases hm with
  | short o ho => exact h.1 o ho (List.prefix_refl _)
  | long o ho => exact h.2 o ho _ rfl (by rw [hcut0 _ (hp.eqLong o ho)]; exact List.prefix_refl _)
  | shortEq o v ho => exact h.1 o ho ⟨'=' :: v, rfl⟩
  | glued o c v ho hc => exact h.1 o ho ⟨c :: v, rfl⟩
  | longEq o v ho => exact h.2 o ho _ rfl (by rw [hcut _ _ (hp.eqLong o ho)]; exact List.prefix_refl _)
  | pre o w ho hw hu => exact h.2 o ho _ rfl (by rw [hcut0 _ (not_mem_prefix hw (hp.eqLong o ho))]; exact hw)
  | preEq o w v ho hw hu => exact h.2 o ho _ rfl (by rw [hcut _ _ (not_mem_prefix hw (hp.eqLong o ho))]; exact hw)

/-- The words that can be values are exactly those described. -/
theorem classify_arg_iff {p : List Opt} (hp : Good p) (w : Word) : classify p w = .arg ↔ IsValue p w := by
  match w with
  | [] => simp [classify, IsValue]
  | c :: rest =>
    by_cases hc : c = '-'
    · subst hc
      by_cases hr : rest = []
      · subst hr
        have : exact p ['-'] = none := by
          apply exact_none <;> intro o _ h <;> simp at h
        simp [classify, this, IsValue]
      · have hv : IsValue p ('-' :: rest) ↔ (NoOption p ('-' :: rest) ∧ (negative rest = true ∨ ' ' ∈ '-' :: rest)) := by
          unfold IsValue
          simp [hr, negative_iff]
        rw [hv]
        constructor
        · intro h
          have hno : ∀ o b v, ¬ Means p ('-' :: rest) o b v := by
            intro o b v hm
            rw [(classify_opt_iff hp _ _ _ _).mpr hm] at h
            cases h
          unfold classify at h
          cases he : exact p ('-' :: rest) with
          | some r => simp only [he] at h; cases h
          | none =>
            simp only [he, hr, if_false] at h
            cases hw : withEq p ('-' :: rest) with
            | some c =>
              simp only [hw] at h
              subst h
              unfold withEq at hw
              split at hw
              · cases hw
              · split at hw <;> cases hw
            | none =>
              simp only [hw] at h
              split at h
              · next c hg =>
                subst h
                have : Class.arg ∈ guess p ('-' :: rest) := by rw [hg]; exact List.mem_singleton_self _
                unfold guess at this
                split at this
                · obtain ⟨_, _, hh⟩ := List.mem_map.mp this; cases hh
                · obtain ⟨_, _, hh⟩ := List.mem_map.mp this; cases hh
                · cases this
              · cases h
              · next hg =>
                refine ⟨(guess_nil hp rest hr).mp hg, ?_⟩
                by_cases hn : negative rest = true
                · exact Or.inl hn
                · rw [if_neg hn] at h
                  by_cases hb : ('-' :: rest).contains ' ' = true
                  · exact Or.inr (by simpa using hb)
                  · rw [if_neg hb] at h; cases h
        · rintro ⟨hn, hx⟩
          have hg := (guess_nil hp rest hr).mpr hn
          have he : exact p ('-' :: rest) = none := by
            cases he : exact p ('-' :: rest) with
            | none => rfl
            | some r =>
              obtain ⟨o, b⟩ := r
              obtain ⟨ho, ⟨h1, h2⟩ | ⟨h1, h2⟩⟩ := exact_some he
              · exact absurd (h2 ▸ Means.short o ho) (noOption_not_means hp hn)
              · exact absurd (h2 ▸ Means.long o ho) (noOption_not_means hp hn)
          have hw : withEq p ('-' :: rest) = none := by
            rcases cut_cases ('-' :: rest) with ⟨hno, hc⟩ | ⟨a, u, e, ha, hc⟩
            · unfold withEq; rw [hc]
            · cases hea : exact p a with
              | none => unfold withEq; rw [hc]; simp only [hea]
              | some r =>
                obtain ⟨o, b⟩ := r
                exfalso
                obtain ⟨ho, ⟨h1, h2⟩ | ⟨h1, h2⟩⟩ := exact_some hea
                · subst h2; rw [e] at hn; exact noOption_not_means hp hn (Means.shortEq o u ho)
                · subst h2; rw [e] at hn; exact noOption_not_means hp hn (Means.longEq o u ho)
          unfold classify
          simp only [he, hr, if_false, hw, hg]
          by_cases hneg : negative rest = true
          · rw [if_pos hneg]
          · rw [if_neg hneg, if_pos]
            simpa using hx.resolve_left hneg
    · have h1 : classify p (c :: rest) = .arg := by
        unfold classify
        split
        · next h => exact absurd (List.cons.inj h).1 hc
        · rfl
      rw [h1]
      simp [IsValue, hc]

/-! ## Lines -/

theorem convert_ok {int : Word → Option Int} {o : Opt} (hk : o.kind = .str ∨ o.kind = .int) {v : Word} {x : Val} :
    convert int o v = .ok x ↔ Takes int o v x := by
  unfold convert Takes
  rcases hk with hk | hk
  · rw [hk]
    simp [eq_comm]
  · rw [hk]
    cases hi : int v with
    | none => simp [hi]
    | some n => simp [hi, eq_comm]

theorem takes_kind {int : Word → Option Int} {o : Opt} {v : Word} {x : Val} (h : Takes int o v x) : o.kind = .str ∨ o.kind = .int :=
  h.elim (fun h => Or.inl h.1) (fun h => Or.inr h.1)

/-- The rest of a cluster. -/
def rem : Word → Option Word
  | [] => none
  | c :: cs => some (c :: cs)

theorem cluster_step (p : List Opt) (int : Word → Option Int) (o : Opt) (ho : o.kind = .flag) (c : Char) (cs : Word) :
    optWord p int o true (some (c :: cs)) =
      match p.find? (fun o => o.short = c) with
      | none => .error .systemExit
      | some o' =>
        match optWord p int o' true (rem cs) with
        | .error e => .error e
        | .ok (s, wants) => .ok (setFlag o :: s, wants) := by
  conv_lhs => unfold optWord cluster
  rw [ho]
  simp only [if_true]
  cases hf : p.find? (fun o => o.short = c) with
  | none => rfl
  | some o' =>
    dsimp only
    cases hk : o'.kind with
    | help => simp only [optWord, hk]
    | flag =>
      cases cs with
      | nil => simp only [optWord, hk, rem]; rfl
      | cons d ds =>
        simp only [optWord, hk, rem, if_true]
        cases hcl : cluster p o' (d :: ds) with
        | error e => rfl
        | ok r =>
          obtain ⟨os, q⟩ := r
          cases q with
          | none => rfl
          | some q =>
            obtain ⟨o2, q⟩ := q
            cases q with
            | none => rfl
            | some v =>
              dsimp only
              cases convert int o2 v <;> rfl
    | str =>
      cases cs with
      | nil => simp only [optWord, hk, rem]; rfl
      | cons d ds =>
        simp only [optWord, hk, rem]
        cases convert int o' (d :: ds) <;> rfl
    | int =>
      cases cs with
      | nil => simp only [optWord, hk, rem]; rfl
      | cons d ds =>
        simp only [optWord, hk, rem]
        cases convert int o' (d :: ds) <;> rfl

theorem find_short {p : List Opt} (hp : Good p) {o : Opt} (ho : o ∈ p) : p.find? (fun o' => o'.short = o.short) = some o := by
  cases hf : p.find? (fun o' => o'.short = o.short) with
  | none =>
    rw [List.find?_eq_none] at hf
    exact absurd (by simp) (hf o ho)
  | some o' =>
    have h1 := List.find?_some hf
    have h2 := List.mem_of_find?_eq_some hf
    rw [hp.shorts o' h2 o ho (by simpa using h1)]

theorem means_short {p : List Opt} {o : Opt} (ho : o ∈ p) {cs : Word} (hcs : cs.head? ≠ some '=') : Means p ('-' :: o.short :: cs) o true (rem cs) := by
  match cs, hcs with
  | [], _ => exact .short o ho
  | d :: ds, hcs => exact .glued o d ds ho (fun h => hcs (by rw [h]; rfl))

/-- The value of an option written with one dash, in a cluster too, is shorter than the word. -/
theorem means_length {p : List Opt} {w : Word} {o : Opt} {b : Bool} {v : Word} (h : Means p w o b (some v)) : v.length + 2 ≤ w.length := by
  cases h <;> simp <;> omega

theorem consume_cons (p : List Opt) (int : Word → Option Int) (w : Word) (ws : List Word) (o : Opt) (b : Bool) (v : Option Word)
    (h : classify p w = .opt o b v) : consume p int none (w :: ws) =
      match optWord p int o b v with
      | .error e => .error e
      | .ok (s, wants) =>
        match consume p int wants ws with
        | .error e => .error e
        | .ok r => .ok (s ++ r) := by
  conv_lhs => unfold consume
  simp only [h]
  cases optWord p int o b v with
  | error e => rfl
  | ok q => rfl

theorem consume_wants {p : List Opt} (hp : Good p) (int : Word → Option Int) (o : Opt) (hk : o.kind = .str ∨ o.kind = .int) (ws : List Word) (r : Sets)
    (h : consume p int (some o) ws = .ok r) :
    ∃ v x ws' r', ws = v :: ws' ∧ IsValue p v ∧ Takes int o v x ∧ r = (o.dest, x) :: r' ∧ consume p int none ws' = .ok r' := by
  match ws with
  | [] => unfold consume at h; cases h
  | v :: ws' =>
    unfold consume at h
    cases hc : classify p v with
    | arg =>
      simp only [hc] at h
      cases hx : convert int o v with
      | error e => simp only [hx] at h; cases h
      | ok x =>
        simp only [hx] at h
        cases hr : consume p int none ws' with
        | error e => simp only [hr] at h; cases h
        | ok r' =>
          simp only [hr] at h
          cases h
          exact ⟨v, x, ws', r', rfl, (classify_arg_iff hp v).mp hc, (convert_ok hk).mp hx, rfl, hr⟩
    | opt o' b' v' => simp only [hc] at h; cases h
    | bad => simp only [hc] at h; cases h

theorem line_of_consume {p : List Opt} (hp : Good p) (int : Word → Option Int) : ∀ (n : Nat) (ws : List Word) (s : Sets),
    (ws.map (fun w => w.length + 1)).sum ≤ n → consume p int none ws = .ok s → Line p int ws s := by
  intro n
  induction n with
  | zero =>
    intro ws s hn h
    match ws with
    | [] => unfold consume at h; cases h; exact .nil
    | w :: ws => simp at hn
  | succ n ih =>
    intro ws s hn h
    match ws with
    | [] => unfold consume at h; cases h; exact .nil
    | w :: ws =>
      have hlen : (ws.map (fun w => w.length + 1)).sum ≤ n := by
        simp only [List.map_cons, List.sum_cons] at hn
        omega
      cases hc : classify p w with
      | arg => unfold consume at h; simp only [hc] at h; cases h
      | bad => unfold consume at h; simp only [hc] at h; cases h
      | opt o b v =>
        have hm := (classify_opt_iff hp w o b v).mp hc
        rw [consume_cons p int w ws o b v hc] at h
        cases hk : o.kind with
        | help => simp only [optWord, hk] at h; cases h
        | flag =>
          cases v with
          | none =>
            simp only [optWord, hk] at h
            cases hr : consume p int none ws with
            | error e => simp only [hr] at h; cases h
            | ok r =>
              simp only [hr] at h
              cases h
              exact .flag w o b ws r hm hk (ih ws r hlen hr)
          | some v =>
            cases b with
            | false => simp only [optWord, hk] at h; cases h
            | true =>
              match v with
              | [] => simp only [optWord, hk, cluster] at h; cases h
              | c :: cs =>
                rw [cluster_step p int o hk c cs] at h
                cases hf : p.find? (fun o => o.short = c) with
                | none => simp only [hf] at h; cases h
                | some o' =>
                  simp only [hf] at h
                  have hmem := List.mem_of_find?_eq_some hf
                  have hs : o'.short = c := by simpa using List.find?_some hf
                  subst hs
                  cases hw : optWord p int o' true (rem cs) with
                  | error e => simp only [hw] at h; cases h
                  | ok q =>
                    obtain ⟨s', wants⟩ := q
                    simp only [hw] at h
                    cases hr : consume p int wants ws with
                    | error e => simp only [hr] at h; cases h
                    | ok r =>
                      simp only [hr] at h
                      cases h
                      by_cases hcs : cs.head? = some '='
                      · obtain ⟨v', hv'⟩ : ∃ v', cs = '=' :: v' := by
                          cases cs with
                          | nil => cases hcs
                          | cons a t => exact ⟨t, by rw [List.head?_cons] at hcs; cases hcs; rfl⟩
                        subst hv'
                        · 
                          cases hk' : o'.kind with
                          | help => simp only [optWord, hk', rem] at hw; cases hw
                          | flag =>
                            have hfe : p.find? (fun o => o.short = '=') = none := by
                              rw [List.find?_eq_none]
                              intro q hq
                              simpa using hp.eqShort q hq
                            have hw' := cluster_step p int o' hk' '=' v'
                            rw [show rem ('=' :: v') = some ('=' :: v') from rfl, hw'] at hw
                            simp only [hfe] at hw
                            cases hw
                          | str =>
                            simp only [optWord, hk', rem] at hw
                            cases hx : convert int o' ('=' :: v') with
                            | error e => simp only [hx] at hw; cases hw
                            | ok x =>
                              simp only [hx] at hw
                              cases hw
                              exact .clusterEq w o o' v' x ws r hm hk hmem ((convert_ok (Or.inl hk')).mp hx) (ih ws r hlen hr)
                          | int =>
                            simp only [optWord, hk', rem] at hw
                            cases hx : convert int o' ('=' :: v') with
                            | error e => simp only [hx] at hw; cases hw
                            | ok x =>
                              simp only [hx] at hw
                              cases hw
                              exact .clusterEq w o o' v' x ws r hm hk hmem ((convert_ok (Or.inr hk')).mp hx) (ih ws r hlen hr)
                      · have hm' := means_short hmem hcs
                        have hc' := (classify_opt_iff hp _ _ _ _).mpr hm'
                        refine .cluster w o o'.short cs ws (s' ++ r) hm hk (hp.dash o' hmem) hcs (ih _ _ ?_ ?_)
                        · have hl := means_length hm
                          simp only [List.length_cons] at hl
                          simp only [List.map_cons, List.sum_cons, List.length_cons] at hn ⊢
                          omega
                        · rw [consume_cons p int _ ws o' true (rem cs) hc', hw]
                          simp only [hr]
        | str =>
          cases v with
          | none =>
            simp only [optWord, hk] at h
            cases hr : consume p int (some o) ws with
            | error e => simp only [hr] at h; cases h
            | ok r =>
              simp only [hr] at h
              cases h
              obtain ⟨v, x, ws', r', h1, h2, h3, h4, h5⟩ := consume_wants hp int o (Or.inl hk) ws r hr
              subst h1; subst h4
              exact .next w o b v x ws' r' hm h3 h2 (ih ws' r' (by simp only [List.map_cons, List.sum_cons] at hlen; omega) h5)
          | some v =>
            simp only [optWord, hk] at h
            cases hx : convert int o v with
            | error e => simp only [hx] at h; cases h
            | ok x =>
              simp only [hx] at h
              cases hr : consume p int none ws with
              | error e => simp only [hr] at h; cases h
              | ok r =>
                simp only [hr] at h
                cases h
                exact .glued w o b v x ws r hm ((convert_ok (Or.inl hk)).mp hx) (ih ws r hlen hr)
        | int =>
          cases v with
          | none =>
            simp only [optWord, hk] at h
            cases hr : consume p int (some o) ws with
            | error e => simp only [hr] at h; cases h
            | ok r =>
              simp only [hr] at h
              cases h
              obtain ⟨v, x, ws', r', h1, h2, h3, h4, h5⟩ := consume_wants hp int o (Or.inr hk) ws r hr
              subst h1; subst h4
              exact .next w o b v x ws' r' hm h3 h2 (ih ws' r' (by simp only [List.map_cons, List.sum_cons] at hlen; omega) h5)
          | some v =>
            simp only [optWord, hk] at h
            cases hx : convert int o v with
            | error e => simp only [hx] at h; cases h
            | ok x =>
              simp only [hx] at h
              cases hr : consume p int none ws with
              | error e => simp only [hr] at h; cases h
              | ok r =>
                simp only [hr] at h
                cases h
                exact .glued w o b v x ws r hm ((convert_ok (Or.inr hk)).mp hx) (ih ws r hlen hr)

theorem consume_of_line {p : List Opt} (hp : Good p) (int : Word → Option Int) (ws : List Word) (s : Sets) (h : Line p int ws s) :
    consume p int none ws = .ok s := by
  induction h with
  | nil => unfold consume; rfl
  | flag w o b ws r hm hk _ ih =>
    rw [consume_cons p int w ws o b none ((classify_opt_iff hp _ _ _ _).mpr hm)]
    simp only [optWord, hk, ih]
    rfl
  | next w o b v x ws r hm ht hv _ ih =>
    rw [consume_cons p int w (v :: ws) o b none ((classify_opt_iff hp _ _ _ _).mpr hm)]
    have h1 : optWord p int o b none = .ok ([], some o) := by
      rcases takes_kind ht with hk | hk <;> simp only [optWord, hk]
    have h2 : consume p int (some o) (v :: ws) = .ok ((o.dest, x) :: r) := by
      unfold consume
      simp only [(classify_arg_iff hp v).mpr hv, (convert_ok (takes_kind ht)).mpr ht, ih]
    rw [h1]
    simp only [h2]
    rfl
  | glued w o b v x ws r hm ht _ ih =>
    rw [consume_cons p int w ws o b (some v) ((classify_opt_iff hp _ _ _ _).mpr hm)]
    have h1 : optWord p int o b (some v) = .ok ([(o.dest, x)], none) := by
      rcases takes_kind ht with hk | hk <;> simp only [optWord, hk, (convert_ok (takes_kind ht)).mpr ht]
    rw [h1]
    simp only [ih]
    rfl
  | cluster w o c cs ws r hm hk hc hcs _ ih =>
    rw [consume_cons p int w ws o true (some (c :: cs)) ((classify_opt_iff hp _ _ _ _).mpr hm), cluster_step p int o hk c cs]
    cases hcl : classify p ('-' :: c :: cs) with
    | arg => unfold consume at ih; simp only [hcl] at ih; cases ih
    | bad => unfold consume at ih; simp only [hcl] at ih; cases ih
    | opt o' b v =>
      rw [consume_cons p int _ ws o' b v hcl] at ih
      have hm' := (classify_opt_iff hp _ _ _ _).mp hcl
      have hb : b = true ∧ v = rem cs ∧ c = o'.short ∧ o' ∈ p := by
        generalize hw : '-' :: c :: cs = w' at hm'
        cases hm' with
        | short o ho => cases hw; exact ⟨rfl, rfl, rfl, ho⟩
        | long o ho => cases hw; exact absurd rfl hc
        | shortEq o v ho => cases hw; exact absurd rfl hcs
        | glued o d v ho hd => cases hw; exact ⟨rfl, rfl, rfl, ho⟩
        | longEq o v ho => cases hw; exact absurd rfl hc
        | pre o w ho hw' hu => cases hw; exact absurd rfl hc
        | preEq o w v ho hw' hu => cases hw; exact absurd rfl hc
      obtain ⟨hb1, hb2, hb3, hb4⟩ := hb
      subst hb1; subst hb2; subst hb3
      simp only [find_short hp hb4]
      cases hw : optWord p int o' true (rem cs) with
      | error e => simp only [hw] at ih; cases ih
      | ok q =>
        obtain ⟨s', wants⟩ := q
        simp only [hw] at ih
        cases hr : consume p int wants ws with
        | error e => simp only [hr] at ih; cases ih
        | ok r' =>
          simp only [hr] at ih
          cases ih
          simp only [hr]
          rfl
  | clusterEq w o o' v x ws r hm hk ho' ht _ ih =>
    rw [consume_cons p int w ws o true _ ((classify_opt_iff hp _ _ _ _).mpr hm), cluster_step p int o hk]
    simp only [find_short hp ho']
    have h1 : optWord p int o' true (rem ('=' :: v)) = .ok ([(o'.dest, x)], none) := by
      rcases takes_kind ht with hk | hk <;> simp only [optWord, hk, rem, (convert_ok (takes_kind ht)).mpr ht]
    simp only [h1, ih]
    rfl

/-- C93: a parser accepts exactly the command lines described. -/
theorem consume_iff {p : List Opt} (hp : Good p) (int : Word → Option Int) (ws : List Word) (s : Sets) :
    consume p int none ws = .ok s ↔ Line p int ws s :=
  ⟨line_of_consume hp int _ ws s (Nat.le_refl _), consume_of_line hp int ws s⟩

end ExoRad.Command
