import Verif.Props.TargetFiles

/-!
# C53, C76, C77, C78: the second csv format, tables, workbooks, and searching a target
-/

namespace ExoRad.TargetList

set_option linter.unusedSectionVars false

variable {α : Type} {env : Env α} {n : Nat}

/-- **C76**: with the columns `star T [K]` and, later, `star T error [K]`, the temperature of every star is the number in the
column of the errors, without unit. -/
theorem csv_error_column {t : Table α} {ts : List (Target α)} (h : csvList env t = .ok ts)
    {pre post : List (Text × (Nat → Cell α))} {k e u : Text} {cell : Nat → Cell α} (hk : ' ' ∉ k) (he : ' ' ∉ e) (hu : ' ' ∉ u)
    (hc : t.cols.filter (fun c => isInfixOfChars starWord c.1) =
      pre ++ (starWord ++ ' ' :: k ++ ' ' :: e ++ ' ' :: u, cell) :: post)
    (hlast : ∀ d ∈ post, secondToken d.1 ≠ .ok k) (i : Nat) (hi : i < ts.length) :
    (ts[i].star).get? k = some (cell i) := by
  have hs : Misc.splitOn ' ' (starWord ++ ' ' :: k ++ ' ' :: e ++ ' ' :: u) = [starWord, k, e, u] := by
    simp only [List.append_assoc, List.cons_append]
    rw [Misc.splitOn_append space_star, Misc.splitOn_append hk, Misc.splitOn_append he, Misc.splitOn_of_not_mem hu]
  have h2 : secondToken (starWord ++ ' ' :: k ++ ' ' :: e ++ ' ' :: u) = .ok k := by
    unfold secondToken; rw [hs]
  have h3 : csvUnit env (starWord ++ ' ' :: k ++ ' ' :: e ++ ' ' :: u) = .ok none := by
    unfold csvUnit; rw [hs]
  obtain ⟨un, v, a, b, c⟩ := csv_last_column h hc h2 hlast i hi
  simp only [h3, Except.ok.injEq] at a
  subst a
  simp only [withUnit, Except.ok.injEq] at b
  rw [c, b]

/-! ## The second csv format -/

/-- A column of the second format: `Star Molecular Weight [u]`. -/
structure MColumn (α : Type) where
  head : Text
  label : Text
  unit : Option Text
  cell : Nat → Cell α

def MColumn.header (c : MColumn α) : Text :=
  c.head ++ ' ' :: c.label ++ (match c.unit with | none => [] | some u => ' ' :: '[' :: u ++ [']'])

/-- The names of the quantities. -/
def names : List (String × String) :=
  [("mass", "M"), ("radius", "R"), ("temperature", "Teff"), ("distance", "D"), ("period", "P"), ("molecular weight", "mmw"),
    ("semi-major axis", "a"), ("impact parameter", "b"), ("heat redistribution factor", "Gamma"), ("transit duration", "T14")]

/-- The names of the units. -/
def unitNames : List (String × String) :=
  [("Rs", "R_sun"), ("Ms", "M_sun"), ("Re", "R_earth"), ("Me", "M_earth"), ("Rj", "R_jupiter"), ("Mj", "M_jupiter"),
    ("days", "day")]

/-- A text and what it stands for in a table of names. -/
def standsFor (table : List (String × String)) (s : Text) : Text :=
  ((table.find? (fun p => p.1.toList = s)).map (fun p => p.2.toList)).getD s

/-- The quantity of a column. -/
def MColumn.key (c : MColumn α) : Text := standsFor names (c.label.map Char.toLower)

/-- The value of a row: a number with the unit of the column, or the text with dots for commas. -/
def MColumn.value (c : MColumn α) (i : Nat) : Cell α :=
  match c.unit, c.cell i with
  | some u, .num v => .qty v (standsFor unitNames u)
  | none, .text s => .text (s.map (fun x => if x = ',' then '.' else x))
  | _, x => x

structure MColumn.Good (env : Env α) (n : Nat) (c : MColumn α) : Prop where
  head : ' ' ∉ c.head ∧ '[' ∉ c.head ∧ ']' ∉ c.head
  label : '[' ∉ c.label ∧ ']' ∉ c.label
  unit : ∀ u, c.unit = some u → ']' ∉ u ∧ env.isUnit (standsFor unitNames u) = true
  cells : ∀ u, c.unit = some u → ∀ i < n, ∃ v, c.cell i = .num v

/-- The header contains the word, in any case. -/
def Says (word header : Text) : Prop := word <:+: header.map Char.toLower

inductive MItem (α : Type) where
  | star (c : MColumn α)
  | planet (c : MColumn α)
  | other (name : Text) (cell : Nat → Cell α)

def MItem.render : MItem α → Text × (Nat → Cell α)
  | .star c => (c.header, c.cell)
  | .planet c => (c.header, c.cell)
  | .other name cell => (name, cell)

/-- The words are where they should be; the columns of errors and those that name neither star nor planet are the others. -/
def MItem.Clear : MItem α → Prop
  | .star c => Says starWord c.header ∧ ¬ Says planetWord c.header ∧ ¬ Says errorWord c.header
  | .planet c => Says planetWord c.header ∧ ¬ Says starWord c.header ∧ ¬ Says errorWord c.header
  | .other name _ => Says errorWord name ∨ (¬ Says starWord name ∧ ¬ Says planetWord name)

def MItem.star? : MItem α → Option (MColumn α)
  | .star c => some c
  | _ => none
def MItem.planet? : MItem α → Option (MColumn α)
  | .planet c => some c
  | _ => none

/-- The column as read: the values have their units. -/
def MColumn.plain (c : MColumn α) : Column α := ⟨c.key, none, c.value⟩

def mstars (items : List (MItem α)) : List (MColumn α) := items.filterMap MItem.star?
def mplanets (items : List (MItem α)) : List (MColumn α) := items.filterMap MItem.planet?

theorem standsFor_cons (a b : String) (t : List (String × String)) (s : Text) :
    standsFor ((a, b) :: t) s = if s = a.toList then b.toList else standsFor t s := by
  unfold standsFor
  by_cases h : a.toList = s
  · simp [List.find?_cons, h]
  · simp [List.find?_cons, h, Ne.symm h]

theorem checkKeys_eq (s : Text) : checkKeys s = standsFor names s := by
  unfold checkKeys names
  simp only [standsFor_cons]
  rfl

theorem checkUnits_eq (s : Text) : checkUnits s = standsFor unitNames s := by
  unfold checkUnits unitNames
  simp only [standsFor_cons]
  rfl

theorem findChar_append {c : Char} : ∀ {x s : Text}, c ∉ x → Misc.findChar c (x ++ c :: s) = some x.length
  | [], s, _ => by simp [Misc.findChar]
  | a :: x, s, h => by
    simp only [List.mem_cons, not_or] at h
    simp only [List.cons_append, Misc.findChar, if_neg (Ne.symm h.1), findChar_append h.2]
    rfl

theorem findChar_none {c : Char} : ∀ {x : Text}, c ∉ x → Misc.findChar c x = none
  | [], _ => rfl
  | a :: x, h => by
    simp only [List.mem_cons, not_or] at h
    simp [Misc.findChar, Ne.symm h.1, findChar_none h.2]

theorem toLower_bracket {c : Char} (h : c.toLower = '[') : c = '[' := by
  unfold Char.toLower at h
  split at h
  · rename_i hu
    have := congrArg (fun c : Char => c.val.toNat) h
    obtain ⟨h1, h2⟩ := hu
    have h1' : (65 : Nat) ≤ c.val.toNat := h1
    have h2' : c.val.toNat ≤ 90 := h2
    have h3 : (c.val + 32).toNat = 91 := this
    rw [UInt32.toNat_add] at h3
    have h4 : (32 : UInt32).toNat = 32 := rfl
    rw [h4] at h3
    omega
  · exact h

theorem low_bracket {s : Text} (h : '[' ∉ s) : '[' ∉ low s := by
  unfold low
  intro hm
  obtain ⟨c, hc, he⟩ := List.mem_map.1 hm
  exact h (toLower_bracket he ▸ hc)

theorem low_append (a b : Text) : low (a ++ b) = low a ++ low b := List.map_append
theorem low_length (a : Text) : (low a).length = a.length := List.length_map _

theorem mrsKey_header {c : MColumn α} (h : c.Good env n) : mrsKey c.header = .ok c.key := by
  have h1 : afterSpace c.header = .ok (c.label ++ (match c.unit with | none => [] | some u => ' ' :: '[' :: u ++ [']'])) := by
    unfold afterSpace MColumn.header
    rw [List.append_assoc, List.cons_append, findChar_append h.head.1]
    simp
  unfold mrsKey
  rw [h1]
  simp only []
  unfold MColumn.key
  rw [← checkKeys_eq]
  congr 2
  unfold cutBracket
  cases hu : c.unit with
  | none =>
    simp only [List.append_nil]
    rw [findChar_none (low_bracket h.label.1)]
    rfl
  | some u =>
    have e : low (c.label ++ (' ' :: '[' :: u ++ [']'])) = (low c.label ++ [' ']) ++ '[' :: low (u ++ [']']) := by
      rw [low_append]
      simp [low]
    simp only []
    rw [e, findChar_append (by have := low_bracket h.label.1; simp [this])]
    simp only [List.length_append, List.length_cons, List.length_nil]
    rw [List.append_assoc, List.take_left' rfl]
    rfl

theorem mrsUnit_header {c : MColumn α} (h : c.Good env n) :
    mrsUnit env c.header = .ok (c.unit.map (standsFor unitNames)) := by
  unfold mrsUnit
  have hsp : '[' ≠ ' ' := by decide
  have hsp' : ']' ≠ ' ' := by decide
  cases hu : c.unit with
  | none =>
    have : '[' ∉ c.header := by
      unfold MColumn.header
      rw [hu]
      simp [h.head.2.1, h.label.1]
    rw [findChar_none this]
    rfl
  | some u =>
    obtain ⟨u1, u2⟩ := h.unit u hu
    have e : c.header = (c.head ++ ' ' :: c.label ++ [' ']) ++ '[' :: (u ++ [']']) := by
      unfold MColumn.header
      rw [hu]
      simp
    have e2 : c.header = (c.head ++ ' ' :: c.label ++ [' '] ++ '[' :: u) ++ ']' :: [] := by rw [e]; simp
    have f1 : Misc.findChar '[' c.header = some (c.head ++ ' ' :: c.label ++ [' ']).length := by
      rw [e]
      exact findChar_append (by simp [h.head.2.1, h.label.1])
    have f2 : Misc.findChar ']' c.header = some (c.head ++ ' ' :: c.label ++ [' '] ++ '[' :: u).length := by
      rw [e2]
      exact findChar_append (by simp [h.head.2.2, h.label.2, u1])
    have hb : Misc.bracketed c.header = u := by
      unfold Misc.bracketed
      simp only [f1, f2]
      rw [e2, List.take_left]
      rw [show (c.head ++ ' ' :: c.label ++ [' '] ++ '[' :: u) = (c.head ++ ' ' :: c.label ++ [' '] ++ ['[']) ++ u by simp]
      rw [List.drop_left' (by simp [Nat.add_assoc])]
    rw [f1]
    simp only []
    rw [hb, checkUnits_eq]
    simp [parseUnit, u2]

theorem mrs_value {c : MColumn α} (h : c.Good env n) {i : Nat} (hi : i < n) :
    withUnit env (commaToDot (c.cell i)) (c.unit.map (standsFor unitNames)) = .ok (c.value i) := by
  unfold withUnit MColumn.value commaToDot
  cases hu : c.unit with
  | none => cases c.cell i <;> rfl
  | some u =>
    obtain ⟨v, hv⟩ := h.cells u hu i hi
    simp [hv]

theorem mrs_row {i : Nat} (hi : i < n) : ∀ {cs : List (MColumn α)}, (∀ c ∈ cs, c.Good env n) →
    rowUnits env (cs.map (fun c => c.unit.map (standsFor unitNames))) (cs.map (fun c => commaToDot (c.cell i))) =
      .ok (cs.map (fun c => c.value i))
  | [], _ => rfl
  | c :: cs, h => by
    simp only [List.map_cons]
    unfold rowUnits
    rw [mrs_value (h c (by simp)) hi]
    simp only []
    rw [mrs_row hi (fun c hc => h c (by simp [hc]))]

theorem mrsKeys_eq {word : Text} {t : Table α} {cs : List (MColumn α)}
    (hc : columnsMRS word t = cs.map (fun c => (c.header, c.cell))) (h : ∀ c ∈ cs, c.Good env n) :
    mrsKeys word t = .ok ((cs.map MColumn.plain).map Column.key) := by
  unfold mrsKeys
  rw [hc, mapE_comp, mapE_map (fun c hcm => mrsKey_header (h c hcm)), List.map_map]
  rfl

theorem mrsData_eq {word : Text} {t : Table α} {cs : List (MColumn α)}
    (hc : columnsMRS word t = cs.map (fun c => (c.header, c.cell))) (h : ∀ c ∈ cs, c.Good env t.nrows) :
    mrsData env word t = .ok (data (cs.map MColumn.plain) t.nrows) := by
  unfold mrsData
  rw [hc, mapE_comp, mapE_map (fun c hcm => mrsUnit_header (h c hcm))]
  simp only []
  cases cs with
  | nil => rfl
  | cons c cs =>
    unfold data rowsOf
    rw [if_neg (by simp)]
    simp only [List.map_cons]
    rw [mapE_comp, mapE_map (g := fun i => ((c :: cs).map MColumn.plain).map (fun c => c.value i))]
    · simp
    · intro i hi
      have := mrs_row (List.mem_range.1 hi) h
      simpa [Function.comp_def, MColumn.plain, Column.value] using this

theorem mrs_pick (w s : Text) :
    (isInfixOfChars w (low s) && !isInfixOfChars errorWord (low s)) = true ↔ Says w s ∧ ¬ Says errorWord s := by
  have iff : ∀ w s, (isInfixOfChars w (low s) = true) ↔ Says w s := fun w s => Options.isInfixOfChars_iff _ _
  rw [Bool.and_eq_true, Bool.not_eq_true', ← Bool.not_eq_true, iff, iff]

theorem columnsMRS_star : ∀ {items : List (MItem α)}, (∀ it ∈ items, it.Clear) →
    columnsMRS starWord ⟨items.map MItem.render, n⟩ = (mstars items).map (fun c => (c.header, c.cell))
  | [], _ => rfl
  | it :: items, h => by
    have ih := columnsMRS_star (fun it hit => h it (List.mem_cons_of_mem _ hit))
    have h0 := h it (by simp)
    unfold columnsMRS at ih ⊢
    simp only [List.map_cons, List.filter_cons]
    cases it with
    | star c => rw [if_pos ((mrs_pick _ (MItem.render (.star c)).1).2 ⟨h0.1, h0.2.2⟩), ih]; rfl
    | planet c => rw [if_neg (fun e => h0.2.1 ((mrs_pick _ (MItem.render (.planet c)).1).1 e).1), ih]; rfl
    | other nm c =>
      rw [if_neg, ih]
      · rfl
      · intro e
        obtain ⟨e1, e2⟩ := (mrs_pick _ _).1 e
        rcases h0 with h | h
        · exact e2 h
        · exact h.1 e1

theorem columnsMRS_planet : ∀ {items : List (MItem α)}, (∀ it ∈ items, it.Clear) →
    columnsMRS planetWord ⟨items.map MItem.render, n⟩ = (mplanets items).map (fun c => (c.header, c.cell))
  | [], _ => rfl
  | it :: items, h => by
    have ih := columnsMRS_planet (fun it hit => h it (List.mem_cons_of_mem _ hit))
    have h0 := h it (by simp)
    unfold columnsMRS at ih ⊢
    simp only [List.map_cons, List.filter_cons]
    cases it with
    | planet c => rw [if_pos ((mrs_pick _ (MItem.render (.planet c)).1).2 ⟨h0.1, h0.2.2⟩), ih]; rfl
    | star c => rw [if_neg (fun e => h0.2.1 ((mrs_pick _ (MItem.render (.star c)).1).1 e).1), ih]; rfl
    | other nm c =>
      rw [if_neg, ih]
      · rfl
      · intro e
        obtain ⟨e1, e2⟩ := (mrs_pick _ _).1 e
        rcases h0 with h | h
        · exact e2 h
        · exact h.2 e1

/-- The targets of the second format, for stars alone: the columns of errors are ignored. -/
theorem mrs_stars {items : List (MItem α)} {name : MColumn α} (hc : ∀ it ∈ items, it.Clear)
    (hg : ∀ c ∈ mstars items, c.Good env n) (hd : Distinct ((mstars items).map MColumn.plain)) (hp : mplanets items = [])
    (hn : name ∈ mstars items) (hk : name.key = nameKey) :
    mrsList env ⟨items.map MItem.render, n⟩ = .ok (starTargets ((mstars items).map MColumn.plain) name.plain n) := by
  unfold mrsList create
  rw [mrsKeys_eq (columnsMRS_star hc) hg, mrsData_eq (columnsMRS_star hc) hg]
  simp only []
  rw [show mrsKeys planetWord ⟨items.map MItem.render, n⟩ = .ok [] by
      rw [mrsKeys_eq (env := env) (n := n) (columnsMRS_planet hc) (by simp [hp]), hp]; rfl,
    show mrsData env planetWord ⟨items.map MItem.render, n⟩ = .ok [] by
      rw [mrsData_eq (columnsMRS_planet hc) (by simp [hp]), hp]; rfl]
  exact targetsOf_nil [] hd (List.mem_map_of_mem hn) hk

/-- The targets of the second format, with planets. -/
theorem mrs_planets {items : List (MItem α)} {name : MColumn α} (hc : ∀ it ∈ items, it.Clear)
    (hg : ∀ c ∈ mstars items, c.Good env n) (hg' : ∀ c ∈ mplanets items, c.Good env n)
    (hd : Distinct ((mstars items).map MColumn.plain)) (hd' : Distinct ((mplanets items).map MColumn.plain))
    (hs : mstars items ≠ []) (hn : name ∈ mplanets items) (hk : name.key = nameKey) :
    mrsList env ⟨items.map MItem.render, n⟩ =
      .ok (planetTargets ((mstars items).map MColumn.plain) ((mplanets items).map MColumn.plain) name.plain n) := by
  unfold mrsList create
  rw [mrsKeys_eq (columnsMRS_star hc) hg, mrsData_eq (columnsMRS_star hc) hg,
    mrsKeys_eq (columnsMRS_planet hc) hg', mrsData_eq (columnsMRS_planet hc) hg']
  exact targetsOf_some hd hd' (by simpa using hs) (List.mem_map_of_mem hn) hk

/-! ## `LoadTargetList` -/

/-- **C77**: a csv file none of whose headers contains "star" in lower case is read in the second format. -/
theorem load_second_format {file : String} {t : Table α} (hf : env.csv file = .ok t) (h : ∀ c ∈ t.cols, ¬ starWord <:+: c.1)
    {ts : List (Target α)} (hm : mrsList env t = .ok ts) : load env (.file file ".csv") = .ok ts := by
  have hcol : columns starWord t = [] := by
    unfold columns
    rw [List.filter_eq_nil_iff]
    intro c hc hw
    exact h c hc ((Options.isInfixOfChars_iff _ _).1 hw)
  have hk : csvKeys starWord t = .ok [] := by unfold csvKeys; rw [hcol]; rfl
  have hd : csvData env starWord t = .ok [] := by unfold csvData; rw [hcol]; rfl
  have hl : csvList env t = .ok [] := by
    unfold csvList create
    rw [hk, hd]
    simp only []
    unfold targetsOf
    split
    · rfl
    · rfl
  unfold load loadFile csvEither
  simp only [if_true, hf, hl, hm]

/-- **C77**: a csv file with targets of the first format is read in that format. -/
theorem load_first_format {file : String} {t : Table α} (hf : env.csv file = .ok t) {ts : List (Target α)}
    (hts : csvList env t = .ok ts) (hne : ts ≠ []) : load env (.file file ".csv") = .ok ts := by
  unfold load loadFile csvEither
  simp only [if_true, hf, hts]

/-- Files of another extension are refused. -/
theorem load_other {file ext : String} (h1 : ext ≠ ".csv") (h2 : ext ≠ ".xlsx") :
    load env (.file file ext) = .error .osError := by
  simp [load, loadFile, h1, h2]

/-- A mistake of type in a file is reported as a text without `keys`, never as the type error that it is. -/
theorem load_file_errors {file ext : String} {e : Exc} (h : load env (.file file ext) = .error e) :
    e ≠ .keyError ∧ e ≠ .typeError := by
  unfold load at h
  cases hl : loadFile env file ext with
  | ok ts => simp [hl] at h
  | error e' =>
    cases e' <;> simp only [hl] at h <;> cases h <;> exact ⟨by decide, by decide⟩

/-! ## Tables -/

theorem tableData_length {word : Text} {t : Table α} {d : List (List (Cell α))} (h : tableData word t = .ok d) :
    d.length = if columns word t = [] then 0 else t.nrows := by
  unfold tableData at h
  rw [mapE_length h, rowsOf_length]

/-- Cells that a table may have. -/
def HasUnit (c : Cell α) : Prop := (∃ s, c = .text s) ∨ ∃ v u, c = .qty v u

theorem checkQty_ok {c d : Cell α} (h : checkQty c = .ok d) : d = c ∧ HasUnit c := by
  cases c with
  | num v => cases h
  | masked => cases h
  | text s => cases h; exact ⟨rfl, .inl ⟨_, rfl⟩⟩
  | qty v u => cases h; exact ⟨rfl, .inr ⟨_, _, rfl⟩⟩

/-- **C77**: a table is accepted only if every cell of its star columns, in every row, is a text or a quantity. -/
theorem table_needs_units {t : Table α} {ts : List (Target α)} (h : load env (.table t) = .ok ts)
    {c : Text × (Nat → Cell α)} (hc : c ∈ t.cols) (hw : starWord <:+: c.1) (i : Nat) (hi : i < t.nrows) : HasUnit (c.2 i) := by
  unfold load tableList create at h
  cases hk : csvKeys starWord t with
  | error e => simp [hk] at h
  | ok sk =>
    cases hd : tableData starWord t with
    | error e => simp [hk, hd] at h
    | ok sd =>
      have hcm : c ∈ columns starWord t := List.mem_filter.2 ⟨hc, (Options.isInfixOfChars_iff _ _).2 hw⟩
      have hlen : (rowsOf (columns starWord t) t.nrows).length = t.nrows := by
        rw [rowsOf_length, if_neg (List.ne_nil_of_mem hcm)]
      have hsl := tableData_length hd
      rw [if_neg (List.ne_nil_of_mem hcm)] at hsl
      have hrow := mapE_get hd i (by omega) (by omega)
      rw [rowsOf_get] at hrow
      obtain ⟨j, hj, he⟩ := List.getElem_of_mem hcm
      have := mapE_get hrow j (by simpa using hj) (by rw [mapE_length hrow]; simpa using hj)
      have h2 := (checkQty_ok this).2
      simpa [he] using h2

/-- A column of a table: no unit in the header, and each row is a text or a quantity. -/
structure Column.GoodCell (n : Nat) (c : Column α) : Prop where
  key : ' ' ∉ c.key
  unit : c.unit = none
  cells : ∀ i < n, HasUnit (c.cell i)

theorem tableKeys_eq {word : Text} (hw : ' ' ∉ word) {t : Table α} {cs : List (Column α)}
    (hc : columns word t = cs.map (fun c => (c.header word, c.cell))) (h : ∀ c ∈ cs, c.GoodCell n) :
    csvKeys word t = .ok (cs.map Column.key) := by
  unfold csvKeys
  rw [hc, mapE_comp]
  refine mapE_map (fun c hcm => ?_)
  unfold secondToken
  rw [splitOn_header hw (h c hcm).key (fun u hu => by rw [(h c hcm).unit] at hu; cases hu)]

theorem checkQty_has {c : Cell α} (h : HasUnit c) : checkQty c = .ok c := by
  rcases h with ⟨s, rfl⟩ | ⟨v, u, rfl⟩ <;> rfl

theorem tableData_eq {word : Text} {t : Table α} {cs : List (Column α)}
    (hc : columns word t = cs.map (fun c => (c.header word, c.cell))) (h : ∀ c ∈ cs, c.GoodCell t.nrows) :
    tableData word t = .ok (data cs t.nrows) := by
  unfold tableData
  rw [hc, rowsOf_map]
  unfold data
  split
  · rfl
  · rw [mapE_comp]
    refine mapE_map (fun i hi => ?_)
    rw [mapE_comp]
    refine mapE_map (fun c hcm => ?_)
    rw [checkQty_has ((h c hcm).cells i (List.mem_range.1 hi))]
    simp [Column.value, (h c hcm).unit]

/-- **C53** for tables of stars. -/
theorem table_stars {items : List (Item α)} {name : Column α} (hc : ∀ it ∈ items, it.Clear)
    (hg : ∀ c ∈ stars items, c.GoodCell n) (hd : Distinct (stars items)) (hp : planets items = [])
    (hn : name ∈ stars items) (hk : name.key = nameKey) :
    load env (.table ⟨items.map Item.render, n⟩) = .ok (starTargets (stars items) name n) := by
  simp only [load]
  unfold tableList create
  rw [tableKeys_eq space_star (columns_star hc) hg, tableData_eq (columns_star hc) hg]
  simp only []
  rw [show csvKeys planetWord ⟨items.map Item.render, n⟩ = .ok [] by
      rw [tableKeys_eq (n := n) space_planet (columns_planet hc) (by simp [hp]), hp]; rfl,
    show tableData planetWord ⟨items.map Item.render, n⟩ = .ok [] by
      rw [tableData_eq (columns_planet hc) (by simp [hp]), hp]; rfl]
  exact targetsOf_nil [] hd hn hk

/-- **C53** for tables with planets. -/
theorem table_planets {items : List (Item α)} {name : Column α} (hc : ∀ it ∈ items, it.Clear)
    (hg : ∀ c ∈ stars items, c.GoodCell n) (hg' : ∀ c ∈ planets items, c.GoodCell n)
    (hd : Distinct (stars items)) (hd' : Distinct (planets items)) (hs : stars items ≠ [])
    (hn : name ∈ planets items) (hk : name.key = nameKey) :
    load env (.table ⟨items.map Item.render, n⟩) = .ok (planetTargets (stars items) (planets items) name n) := by
  simp only [load]
  unfold tableList create
  rw [tableKeys_eq space_star (columns_star hc) hg, tableData_eq (columns_star hc) hg,
    tableKeys_eq space_planet (columns_planet hc) hg', tableData_eq (columns_planet hc) hg']
  exact targetsOf_some hd hd' hs hn hk

/-- A planet column with a plain number drops all the planets of the table, without an error. -/
theorem table_planet_mistake {items : List (Item α)} {name : Column α} (hc : ∀ it ∈ items, it.Clear)
    (hg : ∀ c ∈ stars items, c.GoodCell n) (hd : Distinct (stars items)) (hn : name ∈ stars items) (hk : name.key = nameKey)
    {c : Column α} (hcm : c ∈ planets items) {i : Nat} (hi : i < n) {v : α} (hv : c.cell i = .num v) :
    load env (.table ⟨items.map Item.render, n⟩) = .ok (starTargets (stars items) name n) := by
  have herr : ∃ e, tableData planetWord ⟨items.map Item.render, n⟩ = .error e := by
    unfold tableData
    rw [columns_planet hc, rowsOf_map, if_neg (List.ne_nil_of_mem hcm), mapE_comp]
    refine mapE_fails (List.mem_range.2 hi) ?_
    rw [mapE_comp]
    refine mapE_fails hcm ⟨.typeError, ?_⟩
    rw [hv]
    rfl
  obtain ⟨e, he⟩ := herr
  simp only [load]
  unfold tableList create
  rw [tableKeys_eq space_star (columns_star hc) hg, tableData_eq (columns_star hc) hg, he]
  simp only []
  have : planetsOf (csvKeys planetWord ⟨items.map Item.render, n⟩) (.error e : Except Exc (List (List (Cell α)))) = none := by
    unfold planetsOf
    cases csvKeys planetWord ⟨items.map Item.render, n⟩ <;> rfl
  rw [this]
  exact targetsOf_none hd hn hk

/-! ## Searching -/

/-- What a search compares: the text without spaces and dashes, in lower case. -/
def sameName (a b : Text) : Prop :=
  (a.filter (fun c => c ≠ ' ' && c ≠ '-')).map Char.toLower = (b.filter (fun c => c ≠ ' ' && c ≠ '-')).map Char.toLower

/-- **C78**: spaces, dashes and case do not matter in a search. -/
theorem search_insensitive {a b : Text} (h : sameName a b) (ts : List (Target α)) :
    searchTarget env a ts = searchTarget env b ts := by
  have hc : compact a = compact b := h
  induction ts with
  | nil => rfl
  | cons t ts ih =>
    unfold searchTarget
    rw [hc, ih]

/-- The name of a star or planet, as searched. -/
def nameText (env : Env α) (d : Dict Text (Cell α)) : Text := compact (((d.get? nameKey).map env.str).getD [])

/-- **C78**: in a list whose stars and planets have names, a search gives, in the order of the list, exactly the targets whose
star or planet matches. -/
theorem search_spec {name : Text} {ts : List (Target α)} {match? : Text → Bool}
    (hre : ∀ s, env.search (compact name) s = .ok (match? s))
    (hs : ∀ t ∈ ts, (t.star.get? nameKey).isSome) (hp : ∀ t ∈ ts, ∃ p, t.planet = some p ∧ (p.get? nameKey).isSome) :
    searchTarget env name ts =
      .ok (ts.filter (fun t => match? (nameText env t.star) || match? (nameText env (t.planet.getD [])))) := by
  induction ts with
  | nil => rfl
  | cons t ts ih =>
    obtain ⟨sn, hsn⟩ := Option.isSome_iff_exists.1 (hs t (by simp))
    obtain ⟨p, hpl, hpn⟩ := hp t (by simp)
    obtain ⟨pn, hpn⟩ := Option.isSome_iff_exists.1 hpn
    have ih := ih (fun t ht => hs t (by simp [ht])) (fun t ht => hp t (by simp [ht]))
    have hf : found env (compact name) t =
        .ok (match? (nameText env t.star) || match? (nameText env (t.planet.getD []))) := by
      unfold found nameText nameOf
      simp only [hsn, hpl, hpn, hre, Option.getD_some, Option.map_some]
      cases match? (compact (env.str sn)) <;> rfl
    unfold searchTarget
    rw [hf, ih]
    simp only [List.filter_cons]

/-- **C78**: in a list without planets a search either gives the whole list or raises AttributeError: it never tells the
targets apart. -/
theorem search_stars {name : Text} {ts : List (Target α)} {match? : Text → Bool}
    (hre : ∀ s, env.search (compact name) s = .ok (match? s))
    (hs : ∀ t ∈ ts, (t.star.get? nameKey).isSome) (hp : ∀ t ∈ ts, t.planet = none) :
    searchTarget env name ts =
      if ts.all (fun t => match? (nameText env t.star)) then .ok ts else .error .attributeError := by
  induction ts with
  | nil => rfl
  | cons t ts ih =>
    obtain ⟨sn, hsn⟩ := Option.isSome_iff_exists.1 (hs t (by simp))
    have ih := ih (fun t ht => hs t (by simp [ht])) (fun t ht => hp t (by simp [ht]))
    have hf : found env (compact name) t =
        if match? (nameText env t.star) then .ok true else .error .attributeError := by
      unfold found nameText nameOf
      simp only [hsn, hp t (by simp), hre, Option.getD_some, Option.map_some]
      cases match? (compact (env.str sn)) <;> rfl
    unfold searchTarget
    rw [hf, ih]
    simp only [List.all_cons]
    by_cases hm : match? (nameText env t.star) = true
    · simp only [hm, if_true, Bool.true_and]
      by_cases hall : (ts.all fun t => match? (nameText env t.star)) = true
      · simp only [hall, if_true]
      · simp only [hall]; rfl
    · simp only [hm]; simp

end ExoRad.TargetList
