import Verif.Props.CommandLine
import Verif.Model.Log
import Mathlib.Data.List.Induction

/-!
# C93: the calls the command lines make
-/

namespace ExoRad.Command

/-- The last value set for a destination is `x`. -/
def Last (s : Sets) (d : String) (x : Val) : Prop := ∃ a b, s = a ++ (d, x) :: b ∧ d ∉ b.map Prod.fst

/-- `v` is what was set last for `d`, or the default if nothing was. -/
def IsValueOf (s : Sets) (d : String) (default v : Val) : Prop := Last s d v ∨ (d ∉ s.map Prod.fst ∧ v = default)

theorem value_isValueOf (s : Sets) (d : String) (default : Val) : IsValueOf s d default (value s d default) := by
  induction s using List.reverseRecOn with
  | nil => exact Or.inr ⟨by simp, rfl⟩
  | append_singleton s q ih =>
    obtain ⟨k, x⟩ := q
    have hv : value (s ++ [(k, x)]) d default = if k = d then x else value s d default := by
      unfold value
      rw [List.reverse_append, List.reverse_singleton, List.singleton_append, List.find?_cons]
      by_cases h : k = d
      · simp [h]
      · simp [h]
    rw [hv]
    by_cases h : k = d
    · subst h
      rw [if_pos rfl]
      exact Or.inl ⟨s, [], rfl, by simp⟩
    · rw [if_neg h]
      rcases ih with ⟨a, b, e, hb⟩ | ⟨h1, h2⟩
      · refine Or.inl ⟨a, b ++ [(k, x)], ?_, ?_⟩
        · conv_lhs => rw [e]
          simp
        · rw [List.map_append, List.mem_append, not_or]
          exact ⟨hb, by simp [Ne.symm h]⟩
      · refine Or.inr ⟨?_, h2⟩
        rw [List.map_append, List.mem_append, not_or]
        exact ⟨h1, by simp [Ne.symm h]⟩

theorem last_unique {s : Sets} {d : String} {x y : Val} (hx : Last s d x) (hy : Last s d y) : x = y := by
  obtain ⟨a, b, e, hb⟩ := hx
  obtain ⟨a', b', e', hb'⟩ := hy
  rw [e] at e'
  rcases List.append_eq_append_iff.mp e' with ⟨t, h1, h2⟩ | ⟨t, h1, h2⟩
  · cases t with
    | nil => simp only [List.nil_append, List.cons.injEq, Prod.mk.injEq] at h2; exact h2.1.2
    | cons q t =>
      simp only [List.cons_append, List.cons.injEq] at h2
      exfalso
      apply hb
      rw [h2.2, List.map_append, List.mem_append]
      exact Or.inr (by simp)
  · cases t with
    | nil => simp only [List.nil_append, List.cons.injEq, Prod.mk.injEq] at h2; exact h2.1.2.symm
    | cons q t =>
      simp only [List.cons_append, List.cons.injEq] at h2
      exfalso
      apply hb'
      rw [h2.2, List.map_append, List.mem_append]
      exact Or.inr (by simp)

theorem last_mem {s : Sets} {d : String} {x : Val} (h : Last s d x) : (d, x) ∈ s := by
  obtain ⟨a, b, e, _⟩ := h
  rw [e]
  simp

theorem hlast (s : Sets) (d : String) (v : Val) (h : d ∈ s.map Prod.fst) : Last s d (value s d v) :=
  (value_isValueOf s d v).resolve_right (fun h' => h'.1 h)

theorem hval (s : Sets) (d : String) (v x : Val) (h : IsValueOf s d v x) : x = value s d v := by
  rcases h with h | ⟨h1, h2⟩
  · rcases value_isValueOf s d v with h' | h'
    · exact last_unique h h'
    · exact absurd (List.mem_map.mpr ⟨_, last_mem h, rfl⟩) h'.1
  · rcases value_isValueOf s d v with h' | h'
    · exact absurd (List.mem_map.mpr ⟨_, last_mem h', rfl⟩) h1
    · rw [h2, h'.2]

/-- C93: a parser succeeds exactly on the command lines described that set every required option; anything else ends the process. -/
theorem parse_iff {p : List Opt} (hp : Good p) (int : Word → Option Int) (ws : List Word) (s : Sets) :
    parse p int ws = .ok s ↔ Line p int ws s ∧ ∀ o ∈ p, o.required = true → o.dest ∈ s.map Prod.fst := by
  rw [← consume_iff hp]
  unfold parse
  cases hc : consume p int none ws with
  | error e => simp
  | ok s' =>
    dsimp only
    have hall : (p.all (fun o => !o.required || (s'.map Prod.fst).contains o.dest)) = true ↔
        ∀ o ∈ p, o.required = true → o.dest ∈ s'.map Prod.fst := by
      rw [List.all_eq_true]
      constructor
      · intro h o ho hr
        have := h o ho
        rw [hr] at this
        simpa using this
      · intro h o ho
        cases hr : o.required with
        | false => rfl
        | true => simpa using h o ho hr
    by_cases h : (p.all (fun o => !o.required || (s'.map Prod.fst).contains o.dest)) = true
    · rw [if_pos h]
      constructor
      · intro e; cases e; exact ⟨rfl, hall.mp h⟩
      · rintro ⟨e, _⟩; cases e; rfl
    · rw [if_neg h]
      constructor
      · intro e; cases e
      · rintro ⟨e, h2⟩; cases e; exact absurd (hall.mpr h2) h

theorem optWord_exit (p : List Opt) (int : Word → Option Int) (o : Opt) (b : Bool) (v : Option Word) (e : Exc)
    (h : optWord p int o b v = .error e) : e = .systemExit := by
  have hconv : ∀ (o : Opt) (v : Word) (e : Exc), convert int o v = .error e → e = .systemExit := by
    intro o v e h
    unfold convert at h
    split at h
    · split at h
      · cases h
      · cases h; rfl
    · cases h
  have hcl : ∀ (v : Word) (o : Opt) (e : Exc), cluster p o v = .error e → e = .systemExit := by
    intro v
    induction v with
    | nil => intro o e h; unfold cluster at h; cases h; rfl
    | cons c cs ih =>
      intro o e h
      unfold cluster at h
      split at h
      · cases h; rfl
      · next o' _ =>
        split at h
        · cases h; rfl
        · split at h
          · cases h
          · split at h
            · next hh => cases h; exact ih _ _ hh
            · cases h
        · cases h
  unfold optWord at h
  split at h
  · cases h; rfl
  · cases h
  · split at h
    · split at h
      · next hh => cases h; exact hcl _ _ _ hh
      · cases h
      · cases h
      · split at h
        · next hh => cases h; exact hconv _ _ _ hh
        · cases h
    · cases h; rfl
  · cases h
  · split at h
    · next hh => cases h; exact hconv _ _ _ hh
    · cases h

theorem consume_exit (p : List Opt) (int : Word → Option Int) : ∀ (ws : List Word) (w : Option Opt) (e : Exc),
    consume p int w ws = .error e → e = .systemExit
  | [], none, e, h => by unfold consume at h; cases h
  | [], some _, e, h => by unfold consume at h; cases h; rfl
  | w :: ws, some o, e, h => by
    unfold consume at h
    split at h
    · split at h
      · next hh =>
        cases h
        unfold convert at hh
        split at hh
        · split at hh
          · cases hh
          · cases hh; rfl
        · cases hh
      · split at h
        · next hh => cases h; exact consume_exit p int ws none _ hh
        · cases h
    · cases h; rfl
  | w :: ws, none, e, h => by
    unfold consume at h
    split at h
    · split at h
      · next hh => cases h; exact optWord_exit p int _ _ _ _ hh
      · split at h
        · next hh => cases h; exact consume_exit p int ws _ _ hh
        · cases h
    · cases h; rfl

/-- A command line that is not accepted ends the process, and does nothing else. -/
theorem parse_exit (p : List Opt) (int : Word → Option Int) (ws : List Word) (e : Exc) (h : parse p int ws = .error e) : e = .systemExit := by
  unfold parse at h
  split at h
  · next hh => cases h; exact consume_exit p int ws none _ hh
  · split_ifs at h
    cases h; rfl

/-- C93: the call `exorad` makes. It is made exactly for the command lines of its options that name a payload and a target list; every argument is
what was set last, or its default; an output is passed only if one is named; old output is always replaced. -/
theorem exorad_call (int : Word → Option Int) (ws : List Word) (c : Call) :
    main int ws = .ok c ↔ ∃ s, Line exoradOpts int ws s ∧ Last s "opt" c.options ∧ Last s "targetList" c.targetList ∧
      (match c.output with | some v => Last s "output" v | none => "output" ∉ s.map Prod.fst) ∧
      IsValueOf s "plot" (.bool false) c.plot ∧ IsValueOf s "contrib" (.bool false) c.fullContrib ∧ IsValueOf s "debug" (.bool false) c.debug ∧
      IsValueOf s "numberOfThreads" (.int 1) c.nThread ∧ IsValueOf s "log" (.bool false) c.log ∧ c.replace = true := by
  have hreq : ∀ s : Sets, (∀ o ∈ exoradOpts, o.required = true → o.dest ∈ s.map Prod.fst) ↔
      ("opt" ∈ s.map Prod.fst ∧ "targetList" ∈ s.map Prod.fst) := by
    intro s
    simp only [exoradOpts, helpOpt, List.forall_mem_cons, List.not_mem_nil, false_implies, implies_true, and_true, Bool.false_eq_true, true_implies,
      true_and]
  unfold main
  constructor
  · intro h
    cases hp : parse exoradOpts int ws with
    | error e => simp only [hp] at h; cases h
    | ok s =>
      simp only [hp] at h
      cases h
      obtain ⟨hl, hr⟩ := (parse_iff exorad_good int ws s).mp hp
      obtain ⟨h1, h2⟩ := (hreq s).mp hr
      refine ⟨s, hl, hlast s _ _ h1, hlast s _ _ h2, ?_, value_isValueOf .., value_isValueOf .., value_isValueOf .., value_isValueOf ..,
        value_isValueOf .., rfl⟩
      by_cases ho : "output" ∈ s.map Prod.fst
      · have : (callOf s).output = some (value s "output" (.str [])) := if_pos (by simpa using ho)
        rw [this]
        exact hlast s _ _ ho
      · have : (callOf s).output = none := if_neg (by simpa using ho)
        rw [this]
        exact ho
  · rintro ⟨s, hl, h1, h2, h3, h4, h5, h6, h7, h8, h9⟩
    have hm : ∀ {d : String} {x : Val}, Last s d x → d ∈ s.map Prod.fst := fun h => List.mem_map.mpr ⟨_, last_mem h, rfl⟩
    have hp := (parse_iff exorad_good int ws s).mpr ⟨hl, (hreq s).mpr ⟨hm h1, hm h2⟩⟩
    simp only [hp]
    congr 1
    have e1 := last_unique (hlast s "opt" (.str []) (hm h1)) h1
    have e2 := last_unique (hlast s "targetList" (.str []) (hm h2)) h2
    have e3 : (callOf s).output = c.output := by
      cases ho : c.output with
      | none =>
        rw [ho] at h3
        exact if_neg (by simpa using h3)
      | some v =>
        rw [ho] at h3
        have : (callOf s).output = some (value s "output" (.str [])) := if_pos (by simpa using hm h3)
        rw [this, last_unique (hlast s "output" (.str []) (hm h3)) h3]
    obtain ⟨c1, c2, c3, c4, c5, c6, c7, c8, c9⟩ := c
    dsimp only at *
    unfold callOf at e3 ⊢
    dsimp only at e3 ⊢
    rw [e1, e2, e3, ← hval s _ _ _ h4, ← hval s _ _ _ h5, ← hval s _ _ _ h6, ← hval s _ _ _ h7, ← hval s _ _ _ h8, h9]

/-- C93: what `exorad-plot` works on, for exactly the command lines of its options that name an input and an output. -/
theorem plot_call (int : Word → Option Int) (ws : List Word) (c : PlotCall) :
    plotMain int ws = .ok c ↔ ∃ s, Line plotOpts int ws s ∧ Last s "input" c.input ∧ Last s "out" c.out ∧
      IsValueOf s "target_number" (.str "all".toList) c.targetNumber ∧ IsValueOf s "target_name" (.str "None".toList) c.targetName ∧
      IsValueOf s "debug" (.bool false) c.debug := by
  have hreq : ∀ s : Sets, (∀ o ∈ plotOpts, o.required = true → o.dest ∈ s.map Prod.fst) ↔
      ("input" ∈ s.map Prod.fst ∧ "out" ∈ s.map Prod.fst) := by
    intro s
    simp only [plotOpts, helpOpt, List.forall_mem_cons, List.not_mem_nil, false_implies, implies_true, and_true, Bool.false_eq_true, true_implies,
      true_and]
  unfold plotMain
  constructor
  · intro h
    cases hp : parse plotOpts int ws with
    | error e => simp only [hp] at h; cases h
    | ok s =>
      simp only [hp] at h
      cases h
      obtain ⟨hl, hr⟩ := (parse_iff plot_good int ws s).mp hp
      obtain ⟨h1, h2⟩ := (hreq s).mp hr
      exact ⟨s, hl, hlast s _ _ h1, hlast s _ _ h2, value_isValueOf .., value_isValueOf .., value_isValueOf ..⟩
  · rintro ⟨s, hl, h1, h2, h3, h4, h5⟩
    have hm : ∀ {d : String} {x : Val}, Last s d x → d ∈ s.map Prod.fst := fun h => List.mem_map.mpr ⟨_, last_mem h, rfl⟩
    have hp := (parse_iff plot_good int ws s).mpr ⟨hl, (hreq s).mpr ⟨hm h1, hm h2⟩⟩
    simp only [hp]
    congr 1
    have e1 := last_unique (hlast s "input" (.str []) (hm h1)) h1
    have e2 := last_unique (hlast s "out" (.str "None".toList) (hm h2)) h2
    obtain ⟨c1, c2, c3, c4, c5⟩ := c
    dsimp only at *
    rw [e1, e2, ← hval s _ _ _ h3, ← hval s _ _ _ h4, ← hval s _ _ _ h5]

/-- C93: the two full command lines, with any values: short options, and long ones in another order. -/
theorem exorad_usual (int : Word → Option Int) (p t o nw : Word) (n : Int) (hn : int nw = some n) (hp : IsValue exoradOpts p)
    (ht : IsValue exoradOpts t) (ho : IsValue exoradOpts o) (hnw : IsValue exoradOpts nw) :
    main int ["-p".toList, p, "-t".toList, t, "-o".toList, o, "-c".toList, "-n".toList, nw, "-d".toList, "-l".toList, "-P".toList] =
      .ok ⟨.str p, .str t, some (.str o), .bool true, .bool true, .bool true, .int n, .bool true, true⟩ ∧
    main int ["--plot".toList, "--log".toList, "--nThreads".toList, nw, "--debug".toList, "--full_contrib".toList, "--output".toList, o,
      "--targetList".toList, t, "--payload".toList, p] =
      .ok ⟨.str p, .str t, some (.str o), .bool true, .bool true, .bool true, .int n, .bool true, true⟩ ∧
    main int ["-p".toList, p, "-t".toList, t] =
      .ok ⟨.str p, .str t, none, .bool false, .bool false, .bool false, .int 1, .bool false, true⟩ := by
  have h1 : classify exoradOpts p = .arg := (classify_arg_iff exorad_good p).mpr hp
  have h2 : classify exoradOpts t = .arg := (classify_arg_iff exorad_good t).mpr ht
  have h3 : classify exoradOpts o = .arg := (classify_arg_iff exorad_good o).mpr ho
  have h4 : classify exoradOpts nw = .arg := (classify_arg_iff exorad_good nw).mpr hnw
  have s1 : classify exoradOpts "-p".toList = .opt ⟨'p', "payload".toList, "opt", .str, true⟩ true none := by decide +kernel
  have s2 : classify exoradOpts "-t".toList = .opt ⟨'t', "targetList".toList, "targetList", .str, true⟩ true none := by decide +kernel
  have s3 : classify exoradOpts "-o".toList = .opt ⟨'o', "output".toList, "output", .str, false⟩ true none := by decide +kernel
  have s4 : classify exoradOpts "-c".toList = .opt ⟨'c', "full_contrib".toList, "contrib", .flag, false⟩ true none := by decide +kernel
  have s5 : classify exoradOpts "-n".toList = .opt ⟨'n', "nThreads".toList, "numberOfThreads", .int, false⟩ true none := by decide +kernel
  have s6 : classify exoradOpts "-d".toList = .opt ⟨'d', "debug".toList, "debug", .flag, false⟩ true none := by decide +kernel
  have s7 : classify exoradOpts "-l".toList = .opt ⟨'l', "log".toList, "log", .flag, false⟩ true none := by decide +kernel
  have s8 : classify exoradOpts "-P".toList = .opt ⟨'P', "plot".toList, "plot", .flag, false⟩ true none := by decide +kernel
  have l1 : classify exoradOpts "--payload".toList = .opt ⟨'p', "payload".toList, "opt", .str, true⟩ false none := by decide +kernel
  have l2 : classify exoradOpts "--targetList".toList = .opt ⟨'t', "targetList".toList, "targetList", .str, true⟩ false none := by decide +kernel
  have l3 : classify exoradOpts "--output".toList = .opt ⟨'o', "output".toList, "output", .str, false⟩ false none := by decide +kernel
  have l4 : classify exoradOpts "--full_contrib".toList = .opt ⟨'c', "full_contrib".toList, "contrib", .flag, false⟩ false none := by decide +kernel
  have l5 : classify exoradOpts "--nThreads".toList = .opt ⟨'n', "nThreads".toList, "numberOfThreads", .int, false⟩ false none := by decide +kernel
  have l6 : classify exoradOpts "--debug".toList = .opt ⟨'d', "debug".toList, "debug", .flag, false⟩ false none := by decide +kernel
  have l7 : classify exoradOpts "--log".toList = .opt ⟨'l', "log".toList, "log", .flag, false⟩ false none := by decide +kernel
  have l8 : classify exoradOpts "--plot".toList = .opt ⟨'P', "plot".toList, "plot", .flag, false⟩ false none := by decide +kernel
  refine ⟨?_, ?_, ?_⟩
  · have hc : consume exoradOpts int none ["-p".toList, p, "-t".toList, t, "-o".toList, o, "-c".toList, "-n".toList, nw, "-d".toList, "-l".toList, "-P".toList] =
        .ok [("opt", .str p), ("targetList", .str t), ("output", .str o), ("contrib", .bool true), ("numberOfThreads", .int n), ("debug", .bool true),
          ("log", .bool true), ("plot", .bool true)] := by
      simp only [consume, s1, s2, s3, s4, s5, s6, s7, s8, h1, h2, h3, h4, optWord, convert, hn, setFlag]
      rfl
    unfold main parse
    rw [hc]
    rfl
  · have hc : consume exoradOpts int none ["--plot".toList, "--log".toList, "--nThreads".toList, nw, "--debug".toList, "--full_contrib".toList, "--output".toList, o,
        "--targetList".toList, t, "--payload".toList, p] =
        .ok [("plot", .bool true), ("log", .bool true), ("numberOfThreads", .int n), ("debug", .bool true), ("contrib", .bool true), ("output", .str o),
          ("targetList", .str t), ("opt", .str p)] := by
      simp only [consume, l1, l2, l3, l4, l5, l6, l7, l8, h1, h2, h3, h4, optWord, convert, hn, setFlag]
      rfl
    unfold main parse
    rw [hc]
    rfl
  · have hc : consume exoradOpts int none ["-p".toList, p, "-t".toList, t] = .ok [("opt", .str p), ("targetList", .str t)] := by
      simp only [consume, s1, s2, h1, h2, optWord, convert]
      rfl
    unfold main parse
    rw [hc]
    rfl

/-- What every option sets is of its kind. -/
theorem line_kinds {p : List Opt} (int : Word → Option Int) {ws : List Word} {s : Sets} (h : Line p int ws s) :
    ∀ q ∈ s, ∃ o ∈ p, o.dest = q.1 ∧ ((o.kind = .flag ∧ q.2 = .bool true) ∨ (o.kind = .str ∧ ∃ w, q.2 = .str w) ∨ (o.kind = .int ∧ ∃ n, q.2 = .int n)) := by
  have hmem : ∀ {w : Word} {o : Opt} {b : Bool} {v : Option Word}, Means p w o b v → o ∈ p := by
    intro w o b v h
    cases h <;> assumption
  have htk : ∀ {o : Opt} {v : Word} {x : Val}, Takes int o v x →
      ((o.kind = .flag ∧ x = .bool true) ∨ (o.kind = .str ∧ ∃ w, x = .str w) ∨ (o.kind = .int ∧ ∃ n, x = .int n)) := by
    intro o v x h
    rcases h with ⟨h1, h2⟩ | ⟨h1, n, _, h2⟩
    · exact Or.inr (Or.inl ⟨h1, v, h2⟩)
    · exact Or.inr (Or.inr ⟨h1, n, h2⟩)
  induction h with
  | nil => intro q hq; cases hq
  | flag w o b ws r hm hk _ ih =>
    intro q hq
    rcases List.mem_cons.mp hq with h | h
    · subst h; exact ⟨o, hmem hm, rfl, Or.inl ⟨hk, rfl⟩⟩
    · exact ih q h
  | next w o b v x ws r hm ht hv _ ih =>
    intro q hq
    rcases List.mem_cons.mp hq with h | h
    · subst h; exact ⟨o, hmem hm, rfl, htk ht⟩
    · exact ih q h
  | glued w o b v x ws r hm ht _ ih =>
    intro q hq
    rcases List.mem_cons.mp hq with h | h
    · subst h; exact ⟨o, hmem hm, rfl, htk ht⟩
    · exact ih q h
  | cluster w o c cs ws r hm hk hc hcs _ ih =>
    intro q hq
    rcases List.mem_cons.mp hq with h | h
    · subst h; exact ⟨o, hmem hm, rfl, Or.inl ⟨hk, rfl⟩⟩
    · exact ih q h
  | clusterEq w o o' v x ws r hm hk ho' ht _ ih =>
    intro q hq
    rcases List.mem_cons.mp hq with h | h
    · subst h; exact ⟨o, hmem hm, rfl, Or.inl ⟨hk, rfl⟩⟩
    · rcases List.mem_cons.mp h with h | h
      · subst h; exact ⟨o', ho', rfl, htk ht⟩
      · exact ih q h

/-- C93: the types of the arguments: texts, truth values, one integer. In particular `-l` cannot name a log file: it is always `exorad.log`. -/
theorem exorad_types (int : Word → Option Int) (ws : List Word) (c : Call) (h : main int ws = .ok c) :
    (∃ w, c.options = .str w) ∧ (∃ w, c.targetList = .str w) ∧ (∀ v, c.output = some v → ∃ w, v = .str w) ∧ (∃ b, c.plot = .bool b) ∧
    (∃ b, c.fullContrib = .bool b) ∧ (∃ b, c.debug = .bool b) ∧ (∃ n, c.nThread = .int n) ∧ (∃ b, c.log = .bool b) := by
  obtain ⟨s, hl, h1, h2, h3, h4, h5, h6, h7, h8, _⟩ := (exorad_call int ws c).mp h
  have hk := line_kinds int hl
  have hstr : ∀ (d : String) (x : Val), (∀ o ∈ exoradOpts, o.dest = d → o.kind = .str) → (d, x) ∈ s → ∃ w, x = .str w := by
    intro d x ho hm
    obtain ⟨o, hp, hd, hh⟩ := hk _ hm
    have := ho o hp hd
    rcases hh with hh | hh | hh
    · rw [this] at hh; cases hh.1
    · exact hh.2
    · rw [this] at hh; cases hh.1
  have hbool : ∀ (d : String) (x : Val), (∀ o ∈ exoradOpts, o.dest = d → o.kind = .flag) → IsValueOf s d (.bool false) x → ∃ b, x = .bool b := by
    intro d x ho hv
    rcases hv with hv | hv
    · obtain ⟨o, hp, hd, hh⟩ := hk _ (last_mem hv)
      have := ho o hp hd
      rcases hh with hh | hh | hh
      · exact ⟨true, hh.2⟩
      · rw [this] at hh; cases hh.1
      · rw [this] at hh; cases hh.1
    · exact ⟨false, hv.2⟩
  refine ⟨hstr "opt" _ (by decide) (last_mem h1), hstr "targetList" _ (by decide) (last_mem h2), ?_, hbool "plot" _ (by decide) h4,
    hbool "contrib" _ (by decide) h5, hbool "debug" _ (by decide) h6, ?_, hbool "log" _ (by decide) h8⟩
  · intro v hv
    rw [hv] at h3
    exact hstr "output" v (by decide) (last_mem h3)
  · rcases h7 with hv | hv
    · obtain ⟨o, hp, hd, hh⟩ := hk _ (last_mem hv)
      have : o.kind = .int := (by decide : ∀ o ∈ exoradOpts, o.dest = "numberOfThreads" → o.kind = .int) o hp hd
      rcases hh with hh | hh | hh
      · rw [this] at hh; cases hh.1
      · rw [this] at hh; cases hh.1
      · exact hh.2
    · exact ⟨1, hv.2⟩

theorem value_perm {s s' : Sets} (hp : s.Perm s') (hn : (s.map Prod.fst).Nodup) (d : String) (v : Val) : value s d v = value s' d v := by
  have hn' : (s'.map Prod.fst).Nodup := (hp.map Prod.fst).nodup_iff.mp hn
  have key : ∀ (t : Sets) (x : Val), (t.map Prod.fst).Nodup → (d, x) ∈ t → value t d v = x := by
    intro t x ht hm
    obtain ⟨a, b, e⟩ := List.append_of_mem hm
    have hl : Last t d x := by
      refine ⟨a, b, e, ?_⟩
      rw [e, List.map_append, List.map_cons] at ht
      exact (List.nodup_cons.mp (List.nodup_append.mp ht).2.1).1
    rcases value_isValueOf t d v with h | h
    · exact last_unique h hl
    · exact absurd (List.mem_map.mpr ⟨_, hm, rfl⟩) h.1
  rcases value_isValueOf s' d v with h | ⟨h1, h2⟩
  · exact (key s _ hn (hp.mem_iff.mpr (last_mem h))).trans rfl
  · rcases value_isValueOf s d v with h | ⟨_, h4⟩
    · exact absurd (List.mem_map.mpr ⟨_, hp.mem_iff.mp (last_mem h), rfl⟩) h1
    · rw [h2, h4]

/-- C93: the order of the options does not matter, as long as none is given twice. -/
theorem order_irrelevant (int : Word → Option Int) (ws ws' : List Word) (s s' : Sets) (h : Line exoradOpts int ws s) (h' : Line exoradOpts int ws' s')
    (hp : s.Perm s') (hn : (s.map Prod.fst).Nodup) : main int ws = main int ws' := by
  have hc : callOf s = callOf s' := by
    unfold callOf
    have hk : (s.map Prod.fst).contains "output" = (s'.map Prod.fst).contains "output" := by
      rw [Bool.eq_iff_iff]
      simp only [List.contains_iff_mem]
      exact (hp.map Prod.fst).mem_iff
    simp only [fun d v => value_perm hp hn d v, hk]
  unfold main parse
  rw [(consume_iff exorad_good int ws s).mpr h, (consume_iff exorad_good int ws' s').mpr h']
  dsimp only
  have hall : (exoradOpts.all (fun o => !o.required || (s.map Prod.fst).contains o.dest)) =
      (exoradOpts.all (fun o => !o.required || (s'.map Prod.fst).contains o.dest)) := by
    congr 1
    funext o
    congr 1
    rw [Bool.eq_iff_iff]
    simp only [List.contains_iff_mem]
    exact (hp.map Prod.fst).mem_iff
  rw [hall]
  split_ifs
  · simp only [hc]
  · rfl

/-- C93: a word that begins no option and cannot be a value, or an ambiguous one, anywhere, ends the process. -/
theorem bad_word (p : List Opt) (int : Word → Option Int) (w : Word) (hw : classify p w = .bad) : ∀ (ws : List Word) (o : Option Opt), w ∈ ws →
    consume p int o ws = .error .systemExit
  | u :: ws, none, h => by
    cases hc : consume p int none (u :: ws) with
    | error e => rw [consume_exit p int _ _ e hc]
    | ok s =>
      exfalso
      unfold consume at hc
      split at hc
      · next o b v hcl =>
        split at hc
        · cases hc
        · split at hc
          · cases hc
          · next r hr =>
            rcases List.mem_cons.mp h with h | h
            · subst h; rw [hw] at hcl; cases hcl
            · rw [bad_word p int w hw ws _ h] at hr; cases hr
      · cases hc
  | u :: ws, some o, h => by
    cases hc : consume p int (some o) (u :: ws) with
    | error e => rw [consume_exit p int _ _ e hc]
    | ok s =>
      exfalso
      unfold consume at hc
      split at hc
      · next hcl =>
        split at hc
        · cases hc
        · split at hc
          · cases hc
          · next r hr =>
            rcases List.mem_cons.mp h with h | h
            · subst h; rw [hw] at hcl; cases hcl
            · rw [bad_word p int w hw ws none h] at hr; cases hr
      · cases hc

/-- The call of the pipeline hands `log` to the log: a file is asked for exactly with `-l`, and it is `exorad.log`. -/
theorem exorad_log (int : Word → Option Int) (ws : List Word) (c : Call) (h : main int ws = .ok c) :
    ∃ b, c.log = .bool b ∧ (Log.LogArg.flag b).file = if b then some "exorad.log" else none := by
  obtain ⟨_, _, _, _, _, _, _, b, hb⟩ := exorad_types int ws c h
  exact ⟨b, hb, by cases b <;> rfl⟩

namespace Demo

/-- Decimal digits to a number. -/
def digits (w : Word) : Option Int :=
  if w = [] then none
  else if w.all isDigit then some (w.foldl (fun n c => 10 * n + ((c.toNat : Int) - 48)) 0)
  else none

def W (l : List String) : List Word := l.map String.toList

/-- Flags in a cluster that ends with a value in the next word; a unique beginning of a long option; the last value counts. -/
theorem accepted : main digits (W ["-p", "ariel.xml", "--targetList=list.csv", "-dlo", "out.h5", "--nT", "2", "-n4", "--pl"]) =
    .ok { options := .str "ariel.xml".toList, targetList := .str "list.csv".toList, output := some (.str "out.h5".toList), plot := .bool true,
          fullContrib := .bool false, debug := .bool true, nThread := .int 4, log := .bool true, replace := true } := by
  decide +kernel

/-- No target list; an ambiguous beginning (`--p` is payload or plot); a number that is none; a value left over; help; a missing value. -/
theorem refused : ∀ ws ∈ [["-p", "a.xml"], ["-p", "a", "-t", "b", "--p"], ["-p", "a", "-t", "b", "-n", "two"], ["-p", "a", "-t", "b", "c"],
    ["-p", "a", "-t", "b", "-h"], ["-p", "a", "-t"], ["-p", "-t", "b"], ["-p", "a", "-t", "b", "--log=run.log"]],
    main digits (W ws) = .error .systemExit := by
  decide +kernel

/-- `exorad-plot`: the defaults; `--target` is ambiguous. -/
theorem plot_accepted : plotMain digits (W ["-i", "in.h5", "--out", "figs"]) =
      .ok { input := .str "in.h5".toList, out := .str "figs".toList, targetNumber := .str "all".toList, targetName := .str "None".toList, debug := .bool false } ∧
    plotMain digits (W ["-i", "in.h5", "-o", "figs", "--target", "1"]) = .error .systemExit := by
  decide +kernel

end Demo
end ExoRad.Command
