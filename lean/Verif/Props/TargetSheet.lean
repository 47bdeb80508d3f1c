import Verif.Props.TargetFormats

/-!
# C53 for workbooks; examples for the target lists
-/

namespace ExoRad.TargetList

set_option linter.unusedSectionVars false

variable {α : Type} {env : Env α} {n : Nat}

/-! ## Workbooks -/

/-- The column `c` of the block of columns that starts with `a`: the first is the name, the others have the header of row 2 and
the unit of row 3 if it is known; the targets start with row 4. -/
def sheetCol (env : Env α) (s : Sheet α) (a c : Nat) : Column α :=
  { key := if c = a then nameKey else s.header c
    unit := match s.cell 3 c with
      | .text u => if u ≠ [] ∧ env.isUnit (u.filter (fun x => x ≠ '[' && x ≠ ']')) = true
          then some (u.filter (fun x => x ≠ '[' && x ≠ ']')) else none
      | _ => none
    cell := fun i => s.cell (i + 4) c }

/-- A readable column: the unit is a text and, when it is known, the rows are numbers. -/
structure GoodSheetCol (env : Env α) (s : Sheet α) (c : Nat) : Prop where
  unit : ∃ u, s.cell 3 c = .text u
  cells : (sheetCol env s 0 c).unit ≠ none → ∀ i < s.nrows - 4, ∃ v, s.cell (i + 4) c = .num v

theorem sheetUnit_eq {s : Sheet α} {c : Nat} (a : Nat) (h : ∃ u, s.cell 3 c = .text u) :
    sheetUnit env (s.cell 3 c) = .ok (sheetCol env s a c).unit := by
  obtain ⟨u, hu⟩ := h
  unfold sheetCol
  rw [hu]
  cases u with
  | nil => rfl
  | cons x u => simp [sheetUnit, stripUnit]

theorem listTimes_eq {u : Text} {f : Nat → Cell α} : ∀ {l : List Nat}, (∀ i ∈ l, ∃ v, f i = .num v) →
    listTimes u (l.map f) = .ok (l.map (fun i => match f i with | .num v => .qty v u | x => x))
  | [], _ => rfl
  | i :: l, h => by
    obtain ⟨v, hv⟩ := h i (by simp)
    have ih := listTimes_eq (u := u) (fun i hi => h i (List.mem_cons_of_mem _ hi))
    simp only [List.map_cons, hv]
    unfold listTimes
    rw [ih]

theorem sheetValues_eq {s : Sheet α} {c : Nat} (a : Nat) (hr : 4 ≤ s.nrows) (h : GoodSheetCol env s c) :
    sheetValues env s c = .ok ((List.range (s.nrows - 4)).map (fun i => (sheetCol env s a c).value i)) := by
  unfold sheetValues
  rw [if_neg (by omega), sheetUnit_eq a h.unit]
  cases hu : (sheetCol env s a c).unit with
  | none =>
    simp only []
    unfold sheetColumn
    congr 1
    apply List.map_congr_left
    intro i _
    unfold Column.value
    rw [hu]
    rfl
  | some u =>
    simp only []
    unfold sheetColumn
    rw [listTimes_eq (f := fun i => s.cell (i + 4) c)]
    · congr 1
      apply List.map_congr_left
      intro i hi
      have hu0 : (sheetCol env s 0 c).unit ≠ none := by
        have : (sheetCol env s 0 c).unit = (sheetCol env s a c).unit := rfl
        rw [this, hu]; simp
      obtain ⟨v, hv⟩ := h.cells hu0 i (List.mem_range.1 hi)
      have hc : (sheetCol env s a c).cell i = .num v := hv
      unfold Column.value
      rw [hu, hc]
      simp only [hv]
    · intro i hi
      have hu0 : (sheetCol env s 0 c).unit ≠ none := by
        have : (sheetCol env s 0 c).unit = (sheetCol env s a c).unit := rfl
        rw [this, hu]; simp
      exact h.cells hu0 i (List.mem_range.1 hi)

/-- The values of a column. -/
def vals (n : Nat) (c : Column α) : List (Cell α) := (List.range n).map c.value

theorem set_fresh' {β : Type} (d : Dict Text β) (k : Text) (v : β) (h : k ∉ d.keys) : d.set k v = d ++ [(k, v)] := by
  induction d with
  | nil => rfl
  | cons p d ih =>
    obtain ⟨a, b⟩ := p
    simp only [Dict.keys, List.map_cons, List.mem_cons, not_or] at h
    rw [Dict.set, if_neg (fun e => h.1 e.symm), ih h.2]
    rfl

theorem sheetLoop_eq {s : Sheet α} {a : Nat} (hr : 4 ≤ s.nrows) : ∀ (cs : List Nat) (d : Dict Text (List (Cell α))),
    (∀ c ∈ cs, GoodSheetCol env s c) → ((cs.map (sheetCol env s a)).map Column.key).Nodup →
    (∀ c ∈ cs, (sheetCol env s a c).key ∉ d.keys) →
    sheetLoop env s a cs d = .ok (d ++ cs.map (fun c => ((sheetCol env s a c).key, vals (s.nrows - 4) (sheetCol env s a c))))
  | [], d, _, _, _ => by simp [sheetLoop]
  | c :: cs, d, hg, hn, hd => by
    unfold sheetLoop
    rw [sheetValues_eq a hr (hg c (by simp))]
    simp only []
    rw [show (if c = a then nameKey else s.header c) = (sheetCol env s a c).key from rfl, set_fresh' _ _ _ (hd c (by simp))]
    simp only [List.map_cons, List.nodup_cons] at hn
    rw [sheetLoop_eq hr cs _ (fun c hc => hg c (by simp [hc])) hn.2]
    · simp [vals]
    · intro c' hc'
      simp only [Dict.keys, List.map_append, List.map_cons, List.map_nil, List.mem_append, List.mem_singleton, not_or]
      refine ⟨hd c' (by simp [hc']), fun e => hn.1 ?_⟩
      rw [← e]
      exact List.mem_map.2 ⟨_, List.mem_map.2 ⟨c', hc', rfl⟩, rfl⟩

theorem filter_range {m a b : Nat} (h : b < m) :
    (List.range m).filter (fun c => decide (a ≤ c) && decide (c ≤ b)) =
      (List.range (b + 1)).filter (fun c => decide (a ≤ c) && decide (c ≤ b)) := by
  obtain ⟨k, rfl⟩ := Nat.exists_eq_add_of_lt h
  rw [show b + k + 1 = (b + 1) + k by omega, List.range_add, List.filter_append]
  have : ((List.range k).map ((b + 1) + ·)).filter (fun c => decide (a ≤ c) && decide (c ≤ b)) = [] := by
    rw [List.filter_eq_nil_iff]
    intro c hc
    obtain ⟨x, _, rfl⟩ := List.mem_map.1 hc
    simp
    omega
  rw [this, List.append_nil]

theorem transpose_eq {n : Nat} {cs : List (Column α)} (hne : cs ≠ []) :
    transpose n (cs.map (vals n)) = data cs n := by
  unfold transpose data
  rw [if_neg hne]
  apply List.map_congr_left
  intro i hi
  have hi := List.mem_range.1 hi
  rw [List.map_map]
  apply List.map_congr_left
  intro c _
  simp [vals, hi]

/-- The columns of the star and of the planet in the workbook. -/
def sheetStars (env : Env α) (s : Sheet α) : List (Column α) := [1, 2, 3, 4, 5, 6].map (sheetCol env s 1)
def sheetPlanets (env : Env α) (s : Sheet α) : List (Column α) :=
  [8, 9, 10, 11, 12, 13, 14, 15, 16, 17, 18].map (sheetCol env s 8) ++ [⟨nobsKey, none, fun i => s.cell (i + 4) 20⟩]

/-- A sheet without a row of units (fewer than four rows) is refused. -/
theorem short_sheet_refused (s : Sheet α) (h : s.nrows ≤ 3) : xlsxList env s = .error .indexError := by
  unfold xlsxList sheetPart
  by_cases h' : s.nrows ≤ 2 ∨ s.ncols ≤ 8
  · rw [if_pos h']
  · rw [if_neg h']
    have hm : 8 ∈ (List.range s.ncols).filter (fun c => 8 ≤ c && c ≤ 18) := by
      simp only [not_or, not_le] at h'
      simp [h'.2]
    revert hm
    generalize (List.range s.ncols).filter (fun c => 8 ≤ c && c ≤ 18) = l
    intro hm
    cases l with
    | nil => cases hm
    | cons c l => simp [sheetLoop, sheetValues, h]

/-- **C53** for workbooks: each row from the fifth on gives a target, with the star of the columns B to G and the planet of the
columns I to S and U. -/
theorem xlsx_targets {s : Sheet α} (hr : 4 ≤ s.nrows) (hcol : 21 ≤ s.ncols)
    (hg : ∀ c ∈ [1, 2, 3, 4, 5, 6], GoodSheetCol env s c)
    (hg' : ∀ c ∈ [8, 9, 10, 11, 12, 13, 14, 15, 16, 17, 18], GoodSheetCol env s c)
    (hd : Distinct (sheetStars env s)) (hd' : Distinct (sheetPlanets env s)) :
    xlsxList env s = .ok (planetTargets (sheetStars env s) (sheetPlanets env s) (sheetCol env s 8 8) (s.nrows - 4)) := by
  have f1 : (List.range s.ncols).filter (fun c => decide (1 ≤ c) && decide (c ≤ 6)) = [1, 2, 3, 4, 5, 6] := by
    rw [filter_range (by omega)]; decide
  have f2 : (List.range s.ncols).filter (fun c => decide (8 ≤ c) && decide (c ≤ 18)) =
      [8, 9, 10, 11, 12, 13, 14, 15, 16, 17, 18] := by
    rw [filter_range (by omega)]; decide
  unfold Distinct sheetPlanets at hd'
  rw [List.map_append, List.nodup_append] at hd'
  obtain ⟨hd1, _, hd2⟩ := hd'
  have p1 : sheetPart env s 1 6 = .ok ([1, 2, 3, 4, 5, 6].map
      (fun c => ((sheetCol env s 1 c).key, vals (s.nrows - 4) (sheetCol env s 1 c)))) := by
    unfold sheetPart
    rw [if_neg (by omega), f1, sheetLoop_eq hr _ [] hg hd (by simp [Dict.keys])]
    rfl
  have p2 : sheetPart env s 8 18 = .ok ([8, 9, 10, 11, 12, 13, 14, 15, 16, 17, 18].map
      (fun c => ((sheetCol env s 8 c).key, vals (s.nrows - 4) (sheetCol env s 8 c)))) := by
    unfold sheetPart
    rw [if_neg (by omega), f2, sheetLoop_eq hr _ [] hg' hd1 (by simp [Dict.keys])]
    rfl
  have hset : Dict.set ([8, 9, 10, 11, 12, 13, 14, 15, 16, 17, 18].map
        (fun c => ((sheetCol env s 8 c).key, vals (s.nrows - 4) (sheetCol env s 8 c)))) nobsKey (sheetColumn s 20) =
      (sheetPlanets env s).map (fun c => (c.key, vals (s.nrows - 4) c)) := by
    rw [set_fresh']
    · unfold sheetPlanets
      rw [List.map_append, List.map_map]
      congr 1
    · intro hm
      unfold Dict.keys at hm
      rw [List.map_map] at hm
      obtain ⟨c, hc, he⟩ := List.mem_map.1 hm
      exact hd2 nobsKey (List.mem_map.2 ⟨_, List.mem_map.2 ⟨c, hc, rfl⟩, he⟩) nobsKey (by simp) rfl
  have hstar : ([1, 2, 3, 4, 5, 6].map (fun c => ((sheetCol env s 1 c).key, vals (s.nrows - 4) (sheetCol env s 1 c)))) =
      (sheetStars env s).map (fun c => (c.key, vals (s.nrows - 4) c)) := rfl
  have hk : ∀ cs : List (Column α), Dict.keys (cs.map (fun c => (c.key, vals (s.nrows - 4) c))) = cs.map Column.key := by
    intro cs; unfold Dict.keys; rw [List.map_map]; rfl
  have hv : ∀ cs : List (Column α), (cs.map (fun c => (c.key, vals (s.nrows - 4) c))).map Prod.snd = cs.map (vals (s.nrows - 4)) := by
    intro cs; rw [List.map_map]; rfl
  unfold xlsxList
  rw [p2]
  simp only []
  rw [if_neg (by omega), p1]
  simp only []
  rw [hset, hstar, hk, hk, hv, hv, transpose_eq (by simp [sheetStars]), transpose_eq (by simp [sheetPlanets])]
  unfold create planetsOf
  simp only []
  refine targetsOf_some hd ?_ (by simp [sheetStars]) ?_ (by simp [sheetCol])
  · unfold Distinct sheetPlanets
    rw [List.map_append, List.nodup_append]
    exact ⟨hd1, by simp, hd2⟩
  · simp [sheetPlanets]

/-! ## Examples -/

namespace Demo

def txt (s : String) : Text := s.toList

def world : Env ℕ :=
  { isUnit := fun u => u = ['K'] || u = ['p', 'c'] || u = ['M', '_', 's', 'u', 'n']
    times := fun _ _ => .error .typeError
    search := fun p s => .ok (isInfixOfChars p s)
    str := fun c => match c with | .text s => s | _ => []
    csv := fun _ => .error .osError
    xlsx := fun _ => .error .osError }

/-- Names of two targets. -/
def nameCol (a b : Text) : Column ℕ := ⟨nameKey, none, fun i => if i = 0 then .text a else .text b⟩
def teff : Column ℕ := ⟨['T', 'e', 'f', 'f'], some ['K'], fun i => .num (5000 + 1000 * i)⟩
def magk : Column ℕ := ⟨['m', 'a', 'g', 'k'], none, fun _ => .num 0⟩
def mass : Column ℕ := ⟨['M'], some ['M', '_', 's', 'u', 'n'], fun i => .num (i + 1)⟩
def badMass : Column ℕ := ⟨['M'], some ['M', 'x'], fun i => .num (i + 1)⟩

/-- A list like `examples/test_target.csv`. -/
def items : List (Item ℕ) :=
  [.star (nameCol ['a', '1'] ['b', '2']), .star mass, .star teff, .other ['n', 'o', 't', 'e'] (fun _ => .masked), .star magk]

theorem good_name (a b : Text) : (nameCol a b).Good world 2 := ⟨by show ' ' ∉ nameKey; decide, by simp [nameCol], by simp [nameCol]⟩
theorem good_teff : teff.Good world 2 :=
  ⟨by decide, fun u hu => by cases hu; decide, fun u _ i _ => ⟨_, rfl⟩⟩
theorem good_mass : mass.Good world 2 :=
  ⟨by decide, fun u hu => by cases hu; decide, fun u _ i _ => ⟨_, rfl⟩⟩
theorem good_magk : magk.Good world 2 := ⟨by decide, by simp [magk], by simp [magk]⟩

theorem notInfix {w s : Text} (h : isInfixOfChars w s = false) : ¬ w <:+: s := by
  rw [← Options.isInfixOfChars_iff, h]; simp

theorem clear_items : ∀ it ∈ items, it.Clear := by
  intro it hit
  simp only [items, List.mem_cons, List.not_mem_nil, or_false] at hit
  rcases hit with rfl | rfl | rfl | rfl | rfl
  · exact notInfix (by decide)
  · exact notInfix (by decide)
  · exact notInfix (by decide)
  · exact ⟨notInfix (by decide), notInfix (by decide)⟩
  · exact notInfix (by decide)

/-- The list is read: two targets, with the temperatures in kelvin. -/
theorem read_stars : ∃ ts, csvList world ⟨items.map Item.render, 2⟩ = .ok ts ∧ ts.length = 2 ∧
    (ts.map (fun t => t.star.get? ['T', 'e', 'f', 'f'])) = [some (.qty 5000 ['K']), some (.qty 6000 ['K'])] := by
  have h := csv_stars (env := world) (n := 2) (items := items) (name := nameCol ['a', '1'] ['b', '2']) clear_items (by
      intro c hc
      have hc' : c ∈ [nameCol ['a', '1'] ['b', '2'], mass, teff, magk] := hc
      simp only [List.mem_cons, List.not_mem_nil, or_false] at hc'
      rcases hc' with rfl | rfl | rfl | rfl
      exacts [good_name _ _, good_mass, good_teff, good_magk])
    (by show ([nameCol ['a', '1'] ['b', '2'], mass, teff, magk].map Column.key).Nodup; decide) rfl
    (by show _ ∈ [nameCol ['a', '1'] ['b', '2'], mass, teff, magk]; simp) rfl
  exact ⟨_, h, rfl, rfl⟩

/-- A list with planets. -/
def planetItems (m : Column ℕ) : List (Item ℕ) :=
  [.star (nameCol ['a', '1'] ['b', '2']), .planet (nameCol ['a', '1', 'c'] ['b', '2', 'c']), .planet m, .star teff]

theorem clear_planetItems (m : Column ℕ) (h : isInfixOfChars starWord (m.header planetWord) = false) :
    ∀ it ∈ planetItems m, it.Clear := by
  intro it hit
  simp only [planetItems, List.mem_cons, List.not_mem_nil, or_false] at hit
  rcases hit with rfl | rfl | rfl | rfl
  · exact notInfix (by decide)
  · exact notInfix (by decide)
  · exact notInfix h
  · exact notInfix (by decide)

theorem read_planets : ∃ ts, csvList world ⟨(planetItems mass).map Item.render, 2⟩ = .ok ts ∧
    ts.map (fun t => (t.planet.getD []).get? ['M']) =
      [some (.qty 1 ['M', '_', 's', 'u', 'n']), some (.qty 2 ['M', '_', 's', 'u', 'n'])] ∧
    ts.map Target.name = [.text ['a', '1', 'c'], .text ['b', '2', 'c']] := by
  have h := csv_planets (env := world) (n := 2) (items := planetItems mass) (name := nameCol ['a', '1', 'c'] ['b', '2', 'c'])
    (clear_planetItems mass (by decide))
    (by
      intro c hc
      have hc' : c ∈ [nameCol ['a', '1'] ['b', '2'], teff] := hc
      simp only [List.mem_cons, List.not_mem_nil, or_false] at hc'
      rcases hc' with rfl | rfl
      exacts [good_name _ _, good_teff])
    (by
      intro c hc
      have hc' : c ∈ [nameCol ['a', '1', 'c'] ['b', '2', 'c'], mass] := hc
      simp only [List.mem_cons, List.not_mem_nil, or_false] at hc'
      rcases hc' with rfl | rfl
      exacts [good_name _ _, good_mass])
    (by show ([nameCol ['a', '1'] ['b', '2'], teff].map Column.key).Nodup; decide)
    (by show ([nameCol ['a', '1', 'c'] ['b', '2', 'c'], mass].map Column.key).Nodup; decide)
    (by show [nameCol ['a', '1'] ['b', '2'], teff] ≠ []; simp)
    (by show _ ∈ [nameCol ['a', '1', 'c'] ['b', '2', 'c'], mass]; simp) rfl
  exact ⟨_, h, rfl, rfl⟩

/-- An unknown unit in a planet column: all the planets are gone. -/
theorem planets_lost : ∃ ts, csvList world ⟨(planetItems badMass).map Item.render, 2⟩ = .ok ts ∧
    ts.map Target.planet = [none, none] ∧ ts.map Target.name = [.text ['a', '1'], .text ['b', '2']] := by
  have h := csv_planet_mistake (env := world) (n := 2) (items := planetItems badMass) (name := nameCol ['a', '1'] ['b', '2'])
    (clear_planetItems badMass (by decide))
    (by
      intro c hc
      have hc' : c ∈ [nameCol ['a', '1'] ['b', '2'], teff] := hc
      simp only [List.mem_cons, List.not_mem_nil, or_false] at hc'
      rcases hc' with rfl | rfl
      exacts [good_name _ _, good_teff])
    (by show ([nameCol ['a', '1'] ['b', '2'], teff].map Column.key).Nodup; decide)
    (by show _ ∈ [nameCol ['a', '1'] ['b', '2'], teff]; simp) rfl
    (c := badMass) (by show _ ∈ [nameCol ['a', '1', 'c'] ['b', '2', 'c'], badMass]; simp) (by decide) rfl
    (by decide) (by decide)
  exact ⟨_, h, rfl, rfl⟩

/-- `star name, star T [K], star T error [K]`: the temperature is the error. -/
def errorTable : Table ℕ :=
  ⟨[("star name".toList, fun _ => .text ['a']), ("star T [K]".toList, fun _ => .num 5000),
    (starWord ++ ' ' :: ['T'] ++ ' ' :: errorWord ++ ' ' :: ['[', 'K', ']'], fun _ => .num 20)], 1⟩

theorem error_taken : ∃ ts, csvList world errorTable = .ok ts ∧ ts.length = 1 ∧
    ∀ i (hi : i < ts.length), (ts[i].star).get? ['T'] = some (.num 20) := by
  have h : ∃ ts, csvList world errorTable = .ok ts := ⟨_, rfl⟩
  obtain ⟨ts, h⟩ := h
  refine ⟨ts, h, (csv_every_row h).1 ⟨_, List.mem_cons_self, (Options.isInfixOfChars_iff _ _).1 (by decide)⟩, fun i hi => ?_⟩
  exact csv_error_column (post := []) (pre := [("star name".toList, fun _ => .text ['a']), ("star T [K]".toList, fun _ => .num 5000)])
    (e := errorWord) (u := ['[', 'K', ']']) (cell := fun _ => .num 20) h (by decide) (by decide) (by decide) rfl (by simp) i hi

/-! ### The second format -/

def mname : MColumn ℕ := ⟨"Star".toList, "Name".toList, none, fun _ => .text ['a', ',']⟩
def mmass : MColumn ℕ := ⟨"Star".toList, "Mass".toList, some "Ms".toList, fun i => .num (i + 1)⟩
def merror : MItem ℕ := .other "Star Mass Error [Ms]".toList (fun _ => .num 9)
def mitems : List (MItem ℕ) := [.star mname, merror, .star mmass, merror]

theorem notSays {w s : Text} (h : isInfixOfChars w (s.map Char.toLower) = false) : ¬ Says w s := notInfix h
theorem isSaid {w s : Text} (h : isInfixOfChars w (s.map Char.toLower) = true) : Says w s := (Options.isInfixOfChars_iff _ _).1 h

theorem read_second : ∃ ts, mrsList world ⟨mitems.map MItem.render, 3⟩ = .ok ts ∧
    ts.map (fun t => t.star.get? ['M']) = [some (.qty 1 "M_sun".toList), some (.qty 2 "M_sun".toList), some (.qty 3 "M_sun".toList)] ∧
    ts.map Target.name = [.text ['a', '.'], .text ['a', '.'], .text ['a', '.']] := by
  have h := mrs_stars (env := world) (n := 3) (items := mitems) (name := mname)
    (by
      intro it hit
      simp only [mitems, List.mem_cons, List.not_mem_nil, or_false] at hit
      have he : merror.Clear := Or.inl (isSaid (by decide))
      rcases hit with rfl | rfl | rfl | rfl
      · exact ⟨isSaid (by decide), notSays (by decide), notSays (by decide)⟩
      · exact he
      · exact ⟨isSaid (by decide), notSays (by decide), notSays (by decide)⟩
      · exact he)
    (by
      intro c hc
      have hc' : c ∈ [mname, mmass] := hc
      simp only [List.mem_cons, List.not_mem_nil, or_false] at hc'
      rcases hc' with rfl | rfl
      · exact ⟨by decide, by decide, by simp [mname], by simp [mname]⟩
      · exact ⟨by decide, by decide, fun u hu => by cases hu; decide, fun u _ i _ => ⟨_, rfl⟩⟩)
    (by show ([mname.plain, mmass.plain].map Column.key).Nodup; decide) rfl
    (by show _ ∈ [mname, mmass]; simp) (by decide)
  exact ⟨_, h, rfl, rfl⟩

/-! ### Tables, workbooks, searching -/

def tteff : Column ℕ := ⟨['T'], none, fun i => .qty (5000 + i) ['K']⟩

theorem read_table : ∃ ts, load world (.table ⟨[Item.star (nameCol ['a'] ['b']), .star tteff].map Item.render, 2⟩) = .ok ts ∧
    ts.map (fun t => t.star.get? ['T']) = [some (.qty 5000 ['K']), some (.qty 5001 ['K'])] := by
  have h := table_stars (env := world) (n := 2) (items := [Item.star (nameCol ['a'] ['b']), .star tteff]) (name := nameCol ['a'] ['b'])
    (by
      intro it hit
      simp only [List.mem_cons, List.not_mem_nil, or_false] at hit
      rcases hit with rfl | rfl <;> exact notInfix (by decide))
    (by
      intro c hc
      have hc' : c ∈ [nameCol ['a'] ['b'], tteff] := hc
      simp only [List.mem_cons, List.not_mem_nil, or_false] at hc'
      rcases hc' with rfl | rfl
      · exact ⟨by decide, rfl, fun i _ => by
          by_cases h : i = 0
          · exact .inl ⟨['a'], by simp [nameCol, h]⟩
          · exact .inl ⟨['b'], by simp [nameCol, h]⟩⟩
      · exact ⟨by decide, rfl, fun i _ => .inr ⟨_, _, rfl⟩⟩)
    (by show ([nameCol ['a'] ['b'], tteff].map Column.key).Nodup; decide) rfl
    (by show _ ∈ [nameCol ['a'] ['b'], tteff]; simp) rfl
  exact ⟨_, h, rfl⟩

/-- A sheet of two targets whose columns are named by their position, in kelvin where the position is even. -/
def sheet : Sheet ℕ :=
  { header := fun c => [Char.ofNat (97 + c)]
    cell := fun r c => if r = 3 then (if c % 2 = 0 then .text ['[', 'K', ']'] else .text []) else .num (100 * r + c)
    nrows := 6
    ncols := 21 }

theorem read_sheet : ∃ ts, xlsxList world sheet = .ok ts ∧ ts.map Target.id = [0, 1] ∧
    ts.map (fun t => t.star.get? ['e']) = [some (.qty 404 ['K']), some (.qty 504 ['K'])] ∧
    ts.map (fun t => (t.planet.getD []).get? nobsKey) = [some (.num 420), some (.num 520)] := by
  have hgood : ∀ c, GoodSheetCol world sheet c := by
    intro c
    constructor
    · by_cases h : c % 2 = 0
      · exact ⟨['[', 'K', ']'], by simp [sheet, h]⟩
      · exact ⟨[], by simp [sheet, h]⟩
    · intro _ i _
      exact ⟨100 * (i + 4) + c, by simp [sheet]⟩
  have h := xlsx_targets (env := world) (s := sheet) (by decide) (by decide) (fun c _ => hgood c) (fun c _ => hgood c)
    (by unfold Distinct; decide) (by unfold Distinct; decide)
  exact ⟨_, h, rfl, rfl, rfl⟩

/-- Two targets with planets, and a search for one of them. -/
def targets : List (Target ℕ) :=
  [⟨0, .text "K2-18 b".toList, [(nameKey, .text "K2-18".toList)], some [(nameKey, .text "K2-18 b".toList)]⟩,
   ⟨1, .text "WASP-43 b".toList, [(nameKey, .text "WASP-43".toList)], some [(nameKey, .text "WASP-43 b".toList)]⟩]

theorem search_finds : searchTarget world "wasp 43".toList targets = .ok (targets.drop 1) := by
  have h := search_spec (env := world) (name := "wasp 43".toList) (ts := targets) (match? := isInfixOfChars (compact "wasp 43".toList))
    (fun s => rfl) (by simp [targets, Dict.get?]) (by simp [targets, Dict.get?])
  rw [h]
  rfl

/-- The same stars without planets cannot be searched. -/
theorem search_fails :
    searchTarget world "wasp 43".toList (targets.map (fun t => { t with planet := none })) = .error .attributeError := by
  have h := search_stars (env := world) (name := "wasp 43".toList) (ts := targets.map (fun t => { t with planet := none }))
    (match? := isInfixOfChars (compact "wasp 43".toList)) (fun s => rfl) (by simp [targets, Dict.get?]) (by simp [targets])
  rw [h, if_neg (by decide)]

theorem same_search : sameName "wasp 43".toList "WASP-43".toList := by unfold sameName; decide

end Demo

end ExoRad.TargetList
