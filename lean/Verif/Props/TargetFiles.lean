import Verif.Props.TargetList

/-!
# C53, C76: the other formats of a target list, and what every list has
-/

namespace ExoRad.TargetList

set_option linter.unusedSectionVars false

variable {α : Type} {env : Env α} {n : Nat}

/-! ## What every list of targets has -/

theorem mapE_length {β γ : Type} {f : β → Except Exc γ} : ∀ {l : List β} {r : List γ}, Source.mapE f l = .ok r →
    r.length = l.length
  | [], r, h => by cases h; rfl
  | b :: l, r, h => by
    unfold Source.mapE at h
    cases hb : f b with
    | error e => simp [hb] at h
    | ok c =>
      cases hl : Source.mapE f l with
      | error e => simp [hb, hl] at h
      | ok cs =>
        simp only [hb, hl] at h
        cases h
        simp [mapE_length hl]

theorem mapE_get {β γ : Type} {f : β → Except Exc γ} : ∀ {l : List β} {r : List γ}, Source.mapE f l = .ok r →
    ∀ i (hi : i < l.length) (hr : i < r.length), f l[i] = .ok r[i]
  | b :: l, r, h, i, hi, hr => by
    unfold Source.mapE at h
    cases hb : f b with
    | error e => simp [hb] at h
    | ok c =>
      cases hl : Source.mapE f l with
      | error e => simp [hb, hl] at h
      | ok cs =>
        simp only [hb, hl] at h
        cases h
        cases i with
        | zero => simpa using hb
        | succ i => simpa using mapE_get hl i (by simpa using hi) (by simpa using hr)

theorem starsOnly_inv {sk : List Text} : ∀ {rows : List (List (Cell α))} {j : Nat} {ts : List (Target α)},
    starsOnly sk j rows = .ok ts → ts.length = rows.length ∧
      ∀ i (hi : i < ts.length) (hr : i < rows.length), ts[i].id = j + i ∧ ts[i].star = attrs sk rows[i] ∧ ts[i].planet = none ∧
        (ts[i].star).get? nameKey = some ts[i].name
  | [], j, ts, h => by cases h; simp
  | r :: rows, j, ts, h => by
    unfold starsOnly at h
    cases hn : nameOf (attrs sk r) with
    | error e => simp [hn] at h
    | ok nm =>
      cases hl : starsOnly sk (j + 1) rows with
      | error e => simp [hn, hl] at h
      | ok cs =>
        simp only [hn, hl] at h
        cases h
        obtain ⟨h1, h2⟩ := starsOnly_inv hl
        refine ⟨by simp [h1], ?_⟩
        intro i hi hr
        cases i with
        | zero =>
          refine ⟨rfl, rfl, rfl, ?_⟩
          unfold nameOf at hn
          cases hg : (attrs sk r).get? nameKey with
          | none => simp [hg] at hn
          | some c => simp only [hg] at hn; cases hn; exact hg
        | succ i =>
          have := h2 i (by simpa using hi) (by simpa using hr)
          simp only [List.getElem_cons_succ]
          refine ⟨by omega, this.2⟩

theorem withPlanets_inv {sk pk : List Text} : ∀ {rows : List (List (Cell α) × List (Cell α))} {j : Nat} {ts : List (Target α)},
    withPlanets sk pk j rows = .ok ts → ts.length = rows.length ∧
      ∀ i (hi : i < ts.length) (hr : i < rows.length), ts[i].id = j + i ∧ ts[i].star = attrs sk rows[i].1 ∧
        ∃ p, ts[i].planet = some p ∧ p = attrs pk rows[i].2 ∧ p.get? nameKey = some ts[i].name
  | [], j, ts, h => by cases h; simp
  | r :: rows, j, ts, h => by
    obtain ⟨rs, rp⟩ := r
    unfold withPlanets at h
    cases hn : nameOf (attrs pk rp) with
    | error e => simp [hn] at h
    | ok nm =>
      cases hl : withPlanets sk pk (j + 1) rows with
      | error e => simp [hn, hl] at h
      | ok cs =>
        simp only [hn, hl] at h
        cases h
        obtain ⟨h1, h2⟩ := withPlanets_inv hl
        refine ⟨by simp [h1], ?_⟩
        intro i hi hr
        cases i with
        | zero =>
          refine ⟨rfl, rfl, _, rfl, rfl, ?_⟩
          unfold nameOf at hn
          cases hg : (attrs pk rp).get? nameKey with
          | none => simp [hg] at hn
          | some c => simp only [hg] at hn; cases hn; rfl
        | succ i =>
          have := h2 i (by simpa using hi) (by simpa using hr)
          simp only [List.getElem_cons_succ]
          refine ⟨by omega, this.2⟩

theorem targetsOf_inv {sk : List Text} {sd : List (List (Cell α))} {p : Option (List Text × List (List (Cell α)))}
    {ts : List (Target α)} (h : targetsOf sk sd p = .ok ts)
    (hlen : ∀ pk pd, p = some (pk, pd) → pd = [] ∨ pd.length = sd.length ∨ sd = []) :
    ts.length = sd.length ∧ ∀ i (hi : i < ts.length) (hr : i < sd.length), ts[i].id = i ∧ ts[i].star = attrs sk sd[i] ∧
      ((ts[i].planet).getD ts[i].star).get? nameKey = some ts[i].name := by
  have star : ∀ {ts : List (Target α)}, starsOnly sk 0 sd = .ok ts → ts.length = sd.length ∧
      ∀ i (hi : i < ts.length) (hr : i < sd.length), ts[i].id = i ∧ ts[i].star = attrs sk sd[i] ∧
        ((ts[i].planet).getD ts[i].star).get? nameKey = some ts[i].name := by
    intro ts h
    obtain ⟨h1, h2⟩ := starsOnly_inv h
    refine ⟨h1, fun i hi hr => ?_⟩
    obtain ⟨a, b, c, d⟩ := h2 i hi hr
    refine ⟨by omega, b, ?_⟩
    rw [c]
    exact d
  cases p with
  | none => exact star h
  | some q =>
    obtain ⟨pk, pd⟩ := q
    cases pd with
    | nil => exact star h
    | cons p ps =>
      unfold targetsOf at h
      obtain ⟨h1, h2⟩ := withPlanets_inv h
      have hz : (sd.zip (p :: ps)).length = sd.length := by
        rcases hlen pk (p :: ps) rfl with h | h | h
        · cases h
        · rw [List.length_zip, h]; simp
        · subst h; rfl
      refine ⟨h1.trans hz, fun i hi hr => ?_⟩
      obtain ⟨a, b, q, c, d, e⟩ := h2 i hi (by omega)
      refine ⟨by omega, by rw [b]; simp, ?_⟩
      rw [c]
      exact e

theorem rowsOf_length (cols : List (Text × (Nat → Cell α))) (n : Nat) :
    (rowsOf cols n).length = if cols = [] then 0 else n := by
  cases cols with
  | nil => rfl
  | cons c cs => simp [rowsOf]

theorem rowsOf_get (cols : List (Text × (Nat → Cell α))) (n i : Nat) (h : i < (rowsOf cols n).length) :
    (rowsOf cols n)[i] = cols.map (fun c => c.2 i) := by
  cases cols with
  | nil => simp [rowsOf] at h
  | cons c cs => simp [rowsOf]

theorem rowUnits_get : ∀ {us : List (Option Text)} {cs r : List (Cell α)}, rowUnits env us cs = .ok r →
    r.length = min us.length cs.length ∧ ∀ j (h1 : j < us.length) (h2 : j < cs.length) (h3 : j < r.length),
      withUnit env cs[j] us[j] = .ok r[j]
  | [], cs, r, h => by unfold rowUnits at h; cases h; simp
  | u :: us, [], r, h => by unfold rowUnits at h; cases h; simp
  | u :: us, c :: cs, r, h => by
    unfold rowUnits at h
    cases hc : withUnit env c u with
    | error e => simp [hc] at h
    | ok c' =>
      cases hl : rowUnits env us cs with
      | error e => simp [hc, hl] at h
      | ok cs' =>
        simp only [hc, hl] at h
        cases h
        obtain ⟨a, b⟩ := rowUnits_get hl
        refine ⟨by simp [a], ?_⟩
        intro j h1 h2 h3
        cases j with
        | zero => simpa using hc
        | succ j => simpa using b j (by simpa using h1) (by simpa using h2) (by simpa using h3)

theorem csvData_length {word : Text} {t : Table α} {d : List (List (Cell α))} (h : csvData env word t = .ok d) :
    d.length = if columns word t = [] then 0 else t.nrows := by
  unfold csvData at h
  cases hu : Source.mapE (fun c => csvUnit env c.1) (columns word t) with
  | error e => simp [hu] at h
  | ok us =>
    simp only [hu] at h
    rw [mapE_length h, rowsOf_length]

theorem csvList_cases {t : Table α} {ts : List (Target α)} (h : csvList env t = .ok ts) :
    ∃ sk sd, csvKeys starWord t = .ok sk ∧ csvData env starWord t = .ok sd ∧ ts.length = sd.length ∧
      ∀ i (hi : i < ts.length) (hr : i < sd.length), ts[i].id = i ∧ ts[i].star = attrs sk sd[i] ∧
        ((ts[i].planet).getD ts[i].star).get? nameKey = some ts[i].name := by
  unfold csvList create at h
  cases hk : csvKeys starWord t with
  | error e => simp [hk] at h
  | ok sk =>
    cases hd : csvData env starWord t with
    | error e => simp [hk, hd] at h
    | ok sd =>
      simp only [hk, hd] at h
      refine ⟨sk, sd, rfl, rfl, ?_⟩
      refine targetsOf_inv h ?_
      intro pk pd hp
      unfold planetsOf at hp
      cases hpk : csvKeys planetWord t with
      | error e => simp [hpk] at hp
      | ok pk' =>
        cases hpd : csvData env planetWord t with
        | error e => simp [hpk, hpd] at hp
        | ok pd' =>
          simp only [hpk, hpd, Option.some.injEq, Prod.mk.injEq] at hp
          obtain ⟨rfl, rfl⟩ := hp
          have l1 := csvData_length hd
          have l2 := csvData_length hpd
          by_cases c1 : columns starWord t = []
          · right; right
            rw [if_pos c1] at l1
            exact List.length_eq_zero_iff.1 l1
          · by_cases c2 : columns planetWord t = []
            · left
              rw [if_pos c2] at l2
              exact List.length_eq_zero_iff.1 l2
            · right; left
              rw [if_neg c1] at l1
              rw [if_neg c2] at l2
              omega

/-- **C53**, whatever the headers and the cells: a csv file that is loaded and has a column with the word "star" gives as many
targets as rows, numbered from 0 in the order of the rows, each named after its planet, or its star if it has no planet. -/
theorem csv_every_row {t : Table α} {ts : List (Target α)} (h : csvList env t = .ok ts) :
    ((∃ c ∈ t.cols, starWord <:+: c.1) → ts.length = t.nrows) ∧ ((¬ ∃ c ∈ t.cols, starWord <:+: c.1) → ts = []) ∧
      ∀ i (hi : i < ts.length), ts[i].id = i ∧ ((ts[i].planet).getD ts[i].star).get? nameKey = some ts[i].name := by
  obtain ⟨sk, sd, hk, hd, hl, hi⟩ := csvList_cases h
  have hlen := csvData_length hd
  have hcol : columns starWord t = [] ↔ ¬ ∃ c ∈ t.cols, starWord <:+: c.1 := by
    unfold columns
    rw [List.filter_eq_nil_iff]
    constructor
    · rintro h ⟨c, hc, hw⟩
      exact h c hc ((Options.isInfixOfChars_iff _ _).2 hw)
    · intro h c hc hw
      exact h ⟨c, hc, (Options.isInfixOfChars_iff _ _).1 hw⟩
  refine ⟨fun hw => ?_, fun hw => ?_, fun i hh => ?_⟩
  · rw [if_neg (fun e => (hcol.1 e) hw)] at hlen
    omega
  · rw [if_pos (hcol.2 hw)] at hlen
    exact List.length_eq_zero_iff.1 (by omega)
  · obtain ⟨a, _, b⟩ := hi i hh (by omega)
    exact ⟨a, b⟩

theorem zip_split {β γ : Type} : ∀ {pre post : List β} {c : β} {l : List γ}, l.length = (pre ++ c :: post).length →
    ∃ l1 x l2, l = l1 ++ x :: l2 ∧ l1.length = pre.length ∧ l2.length = post.length
  | pre, post, c, l, h => by
    have hl : pre.length < l.length := by rw [h]; simp
    refine ⟨l.take pre.length, l[pre.length], l.drop (pre.length + 1), ?_, ?_, ?_⟩
    · rw [← List.drop_eq_getElem_cons hl, List.take_append_drop]
    · rw [List.length_take]; omega
    · rw [List.length_drop, h]; simp only [List.length_append, List.length_cons]; omega

/-- **C76**: of several star columns with the same quantity, such as `star T [K]` and `star T error [K]`, the last one gives the
value: each star of the list has, for the quantity of a column that no later column repeats, the cell of that column and of its
own row, with the unit in the header. -/
theorem csv_last_column {t : Table α} {ts : List (Target α)} (h : csvList env t = .ok ts)
    {pre post : List (Text × (Nat → Cell α))} {c : Text × (Nat → Cell α)} {k : Text}
    (hc : t.cols.filter (fun c => isInfixOfChars starWord c.1) = pre ++ c :: post) (hk : secondToken c.1 = .ok k)
    (hlast : ∀ d ∈ post, secondToken d.1 ≠ .ok k) (i : Nat) (hi : i < ts.length) :
    ∃ u v, csvUnit env c.1 = .ok u ∧ withUnit env (c.2 i) u = .ok v ∧ (ts[i].star).get? k = some v := by
  obtain ⟨sk, sd, hks, hds, hl, hall⟩ := csvList_cases h
  obtain ⟨_, hstar, _⟩ := hall i hi (by omega)
  have hcol : columns starWord t = pre ++ c :: post := hc
  unfold csvKeys at hks
  rw [hcol] at hks
  unfold csvData at hds
  cases hu : Source.mapE (fun c => csvUnit env c.1) (columns starWord t) with
  | error e => simp [hu] at hds
  | ok us =>
    simp only [hu] at hds
    rw [hcol] at hu hds
    have hrl : i < (rowsOf (pre ++ c :: post) t.nrows).length := by rw [← mapE_length hds]; omega
    have hrow := mapE_get hds i hrl (by omega)
    rw [rowsOf_get] at hrow
    obtain ⟨hlen, hget⟩ := rowUnits_get hrow
    have lk := mapE_length hks
    have lu := mapE_length hu
    have lr : sd[i].length = (pre ++ c :: post).length := by rw [hlen, lu]; simp
    have hp : pre.length < (pre ++ c :: post).length := by simp
    have e1 := mapE_get hks pre.length hp (by omega)
    have e2 := mapE_get hu pre.length hp (by omega)
    have e3 := hget pre.length (by omega) (by simpa using hp) (by omega)
    have hcc : (pre ++ c :: post)[pre.length] = c := by simp
    rw [hcc] at e1 e2
    refine ⟨us[pre.length], (sd[i])[pre.length], e2, ?_, ?_⟩
    · simpa using e3
    · rw [hstar]
      unfold attrs
      rw [foldl_set_last]
      have hkk : sk[pre.length] = k := by
        rw [hk] at e1
        injection e1 with e1
        exact e1.symm
      obtain ⟨k1, x, k2, rfl, hk1, hk2⟩ := zip_split lk
      obtain ⟨r1, y, r2, hr, hr1, hr2⟩ := zip_split lr
      have hx : x = k := by rw [← hkk]; simp [← hk1]
      have hy : (sd[i])[pre.length] = y := by simp [hr, ← hr1]
      rw [hy, hr, List.zip_append (by omega), List.zip_cons_cons, List.reverse_append, List.reverse_cons, List.append_assoc,
        List.find?_append]
      have hno : (k2.zip r2).reverse.find? (fun p => decide (p.1 = k)) = none := by
        rw [List.find?_eq_none]
        intro p hp
        have hpk : p.1 ∈ k2 := by
          have := List.mem_reverse.1 hp
          exact (List.of_mem_zip (by exact this : (p.1, p.2) ∈ k2.zip r2)).1
        obtain ⟨j, hj, hpj⟩ := List.getElem_of_mem hpk
        have hjp : j < post.length := by omega
        have := mapE_get hks (pre.length + 1 + j) (by simp; omega) (by simp; omega)
        have a1 : (pre ++ c :: post)[pre.length + 1 + j]'(by simp; omega) = post[j] := by
          rw [List.getElem_append_right (by omega)]
          simp [show pre.length + 1 + j - pre.length = j + 1 by omega]
        have a2 : (k1 ++ x :: k2)[pre.length + 1 + j]'(by simp; omega) = k2[j] := by
          rw [List.getElem_append_right (by omega)]
          simp [show pre.length + 1 + j - k1.length = j + 1 by omega]
        rw [a1, a2, hpj] at this
        intro he
        simp only [decide_eq_true_eq] at he
        rw [he] at this
        exact hlast _ (List.getElem_mem _) this
      rw [hno]
      simp [hx]

end ExoRad.TargetList
