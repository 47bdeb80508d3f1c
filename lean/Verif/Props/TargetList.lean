import Verif.Model.TargetList
import Verif.Lemmas.Dict
import Verif.Props.Misc
import Verif.Props.Options

/-!
# C53: a list of N rows gives N targets, each with the values of its own row
-/

namespace ExoRad.TargetList

set_option linter.unusedSectionVars false

variable {α : Type}

/-! ## Specification -/

/-- A column of a target list as its author writes it: a quantity name, a unit or none, and a cell per row. -/
structure Column (α : Type) where
  key : Text
  unit : Option Text
  cell : Nat → Cell α

/-- The header of the column of a star (`word = "star"`) or planet: `star Teff [K]`. -/
def Column.header (word : Text) (c : Column α) : Text :=
  word ++ ' ' :: c.key ++ (match c.unit with | none => [] | some u => ' ' :: '[' :: u ++ [']'])

/-- The value of a row: the number with the unit of its column. -/
def Column.value (c : Column α) (i : Nat) : Cell α :=
  match c.unit, c.cell i with
  | some u, .num v => .qty v u
  | _, x => x

/-- A column that can be read: the name and the unit have no space, the unit is known, and the rows of a column with a unit
are numbers. -/
structure Column.Good (env : Env α) (n : Nat) (c : Column α) : Prop where
  key : ' ' ∉ c.key
  unit : ∀ u, c.unit = some u → ' ' ∉ u ∧ '[' ∉ u ∧ ']' ∉ u ∧ env.isUnit u = true
  cells : ∀ u, c.unit = some u → ∀ i < n, ∃ v, c.cell i = .num v

/-- A column of a table. -/
inductive Item (α : Type) where
  | star (c : Column α)
  | planet (c : Column α)
  | other (name : Text) (cell : Nat → Cell α)

/-- The column in the file. -/
def Item.render : Item α → Text × (Nat → Cell α)
  | .star c => (c.header starWord, c.cell)
  | .planet c => (c.header planetWord, c.cell)
  | .other name cell => (name, cell)

/-- The words "star" and "planet" are found only where they should. -/
def Item.Clear : Item α → Prop
  | .star c => ¬ planetWord <:+: c.header starWord
  | .planet c => ¬ starWord <:+: c.header planetWord
  | .other name _ => ¬ starWord <:+: name ∧ ¬ planetWord <:+: name

def Item.star? : Item α → Option (Column α)
  | .star c => some c
  | _ => none
def Item.planet? : Item α → Option (Column α)
  | .planet c => some c
  | _ => none

/-- The columns of the stars and of the planets, in the order of the file. -/
def stars (items : List (Item α)) : List (Column α) := items.filterMap Item.star?
def planets (items : List (Item α)) : List (Column α) := items.filterMap Item.planet?

/-- What a row says: each quantity with its value. -/
def row (cs : List (Column α)) (i : Nat) : Dict Text (Cell α) := cs.map (fun c => (c.key, c.value i))

/-- The columns have different quantities. -/
def Distinct (cs : List (Column α)) : Prop := (cs.map Column.key).Nodup

/-! ## The rows of a table -/

theorem mapE_map {β γ : Type} {f : β → Except Exc γ} {g : β → γ} : ∀ {l : List β}, (∀ x ∈ l, f x = .ok (g x)) →
    Source.mapE f l = .ok (l.map g)
  | [], _ => rfl
  | b :: l, h => by
    have ih := mapE_map (l := l) (fun x hx => h x (List.mem_cons_of_mem _ hx))
    unfold Source.mapE
    simp only [h b (by simp), ih, List.map_cons]

theorem mapE_comp {β γ δ : Type} (f : γ → Except Exc δ) (g : β → γ) : ∀ l : List β,
    Source.mapE f (l.map g) = Source.mapE (fun x => f (g x)) l
  | [] => rfl
  | b :: l => by
    simp only [List.map_cons]
    unfold Source.mapE
    rw [mapE_comp f g l]

theorem mapE_fails {β γ : Type} {f : β → Except Exc γ} : ∀ {l : List β} {x : β}, x ∈ l → (∃ e, f x = .error e) →
    ∃ e, Source.mapE f l = .error e
  | b :: l, x, hx, he => by
    unfold Source.mapE
    cases hb : f b with
    | error e => exact ⟨e, rfl⟩
    | ok c =>
      rcases List.mem_cons.1 hx with rfl | hx
      · obtain ⟨e, he⟩ := he; rw [hb] at he; cases he
      · obtain ⟨e, h⟩ := mapE_fails hx he
        exact ⟨e, by simp [h]⟩

theorem set_fresh (d : Dict Text (Cell α)) (k : Text) (v : Cell α) (h : k ∉ d.keys) : d.set k v = d ++ [(k, v)] := by
  induction d with
  | nil => rfl
  | cons p d ih =>
    obtain ⟨a, b⟩ := p
    simp only [Dict.keys, List.map_cons, List.mem_cons, not_or] at h
    rw [Dict.set, if_neg (fun e => h.1 e.symm), ih h.2]
    rfl

theorem foldl_set_fresh : ∀ (l : List (Text × Cell α)) (d : Dict Text (Cell α)), (l.map Prod.fst).Nodup →
    (∀ k ∈ l.map Prod.fst, k ∉ d.keys) → l.foldl (fun d p => d.set p.1 p.2) d = d ++ l
  | [], d, _, _ => by simp
  | (k, v) :: l, d, hn, hd => by
    simp only [List.map_cons, List.nodup_cons] at hn
    simp only [List.foldl_cons]
    rw [set_fresh d k v (hd k (by simp)), foldl_set_fresh l _ hn.2]
    · simp
    · intro k' hk'
      simp only [Dict.keys, List.map_append, List.map_cons, List.map_nil, List.mem_append, List.mem_singleton, not_or]
      refine ⟨hd k' (by simp [hk']), ?_⟩
      rintro rfl
      exact hn.1 hk'

/-- The attributes of an object are the given ones, when their names differ. -/
theorem attrs_distinct {keys : List Text} {vals : List (Cell α)} (h : keys.Nodup) (hl : keys.length = vals.length) :
    attrs keys vals = keys.zip vals := by
  unfold attrs
  rw [foldl_set_fresh]
  · rfl
  · rwa [List.map_fst_zip (by omega)]
  · intro k _; simp [Dict.keys]

/-- Whatever the names, the last of the columns with the same name wins. -/
theorem foldl_set_last : ∀ (l : List (Text × Cell α)) (d : Dict Text (Cell α)) (k : Text),
    (l.foldl (fun d p => d.set p.1 p.2) d).get? k =
      match l.reverse.find? (fun p => p.1 = k) with
      | some p => some p.2
      | none => d.get? k
  | [], d, k => rfl
  | (k', v) :: l, d, k => by
    simp only [List.foldl_cons]
    rw [foldl_set_last l, List.reverse_cons, List.find?_append]
    cases h : l.reverse.find? (fun p => decide (p.1 = k)) with
    | some p => simp
    | none =>
      rw [Dict.get?_set]
      by_cases e : k' = k
      · simp [e]
      · simp [e, Ne.symm e]

theorem map_zip_self {β : Type} (cs : List β) (f : β → Text) (g : β → Cell α) :
    (cs.map f).zip (cs.map g) = cs.map (fun c => (f c, g c)) := by
  induction cs with
  | nil => rfl
  | cons c cs ih => simp [ih]

theorem attrs_row {cs : List (Column α)} (h : Distinct cs) (i : Nat) :
    attrs (cs.map Column.key) (cs.map (fun c => c.value i)) = row cs i := by
  rw [attrs_distinct h (by simp)]
  exact map_zip_self cs Column.key (fun c => c.value i)

theorem get_row {cs : List (Column α)} (h : Distinct cs) {c : Column α} (hc : c ∈ cs) (i : Nat) :
    (row cs i).get? c.key = some (c.value i) := by
  refine Dict.get?_of_mem ?_ (List.mem_map.2 ⟨c, hc, rfl⟩)
  unfold Dict.keys row
  rw [List.map_map]
  exact h

theorem nameOf_row {cs : List (Column α)} (h : Distinct cs) {c : Column α} (hc : c ∈ cs) (hk : c.key = nameKey) (i : Nat) :
    nameOf (row cs i) = .ok (c.value i) := by
  unfold nameOf
  rw [← hk, get_row h hc]

/-- The data of the columns, row by row. -/
def data (cs : List (Column α)) (n : Nat) : List (List (Cell α)) :=
  if cs = [] then [] else (List.range n).map (fun i => cs.map (fun c => c.value i))

theorem starsOnly_eq {cs : List (Column α)} (h : Distinct cs) {c : Column α} (hc : c ∈ cs) (hk : c.key = nameKey) :
    ∀ (l : List Nat) (j : Nat), (∀ m (hm : m < l.length), l[m] = j + m) →
      starsOnly (cs.map Column.key) j (l.map (fun i => cs.map (fun c => c.value i))) =
        .ok (l.map (fun i => ⟨i, c.value i, row cs i, none⟩))
  | [], _, _ => rfl
  | i :: l, j, hj => by
    have h0 : i = j := hj 0 (by simp)
    simp only [List.map_cons]
    unfold starsOnly
    rw [attrs_row h, nameOf_row h hc hk]
    simp only []
    rw [starsOnly_eq h hc hk l (j + 1) (fun m hm => by have := hj (m + 1) (by simpa using hm); simp at this; omega)]
    simp [h0]

theorem withPlanets_eq {ss ps : List (Column α)} (hs : Distinct ss) (hp : Distinct ps) {c : Column α} (hc : c ∈ ps)
    (hk : c.key = nameKey) :
    ∀ (l : List Nat) (j : Nat), (∀ m (hm : m < l.length), l[m] = j + m) →
      withPlanets (ss.map Column.key) (ps.map Column.key) j
          (l.map (fun i => (ss.map (fun c => c.value i), ps.map (fun c => c.value i)))) =
        .ok (l.map (fun i => ⟨i, c.value i, row ss i, some (row ps i)⟩))
  | [], _, _ => rfl
  | i :: l, j, hj => by
    have h0 : i = j := hj 0 (by simp)
    simp only [List.map_cons]
    unfold withPlanets
    rw [attrs_row hs, attrs_row hp, nameOf_row hp hc hk]
    simp only []
    rw [withPlanets_eq hs hp hc hk l (j + 1) (fun m hm => by have := hj (m + 1) (by simpa using hm); simp at this; omega)]
    simp [h0]

/-- The targets of a table without planets. -/
def starTargets (ss : List (Column α)) (name : Column α) (n : Nat) : List (Target α) :=
  (List.range n).map (fun i => ⟨i, name.value i, row ss i, none⟩)

/-- The targets of a table with planets. -/
def planetTargets (ss ps : List (Column α)) (name : Column α) (n : Nat) : List (Target α) :=
  (List.range n).map (fun i => ⟨i, name.value i, row ss i, some (row ps i)⟩)

theorem targetsOf_none {ss : List (Column α)} {n : Nat} {name : Column α} (hs : Distinct ss) (hn : name ∈ ss)
    (hk : name.key = nameKey) :
    targetsOf (ss.map Column.key) (data ss n) none = .ok (starTargets ss name n) := by
  unfold targetsOf data starTargets
  rw [if_neg (List.ne_nil_of_mem hn)]
  exact starsOnly_eq hs hn hk _ 0 (fun m hm => by simp)

theorem targetsOf_nil {ss : List (Column α)} {n : Nat} {name : Column α} (pk : List Text) (hs : Distinct ss) (hn : name ∈ ss)
    (hk : name.key = nameKey) :
    targetsOf (ss.map Column.key) (data ss n) (some (pk, [])) = .ok (starTargets ss name n) :=
  targetsOf_none hs hn hk

theorem targetsOf_some {ss ps : List (Column α)} {n : Nat} {name : Column α} (hs : Distinct ss) (hp : Distinct ps)
    (hne : ss ≠ []) (hn : name ∈ ps) (hk : name.key = nameKey) :
    targetsOf (ss.map Column.key) (data ss n) (some (ps.map Column.key, data ps n)) = .ok (planetTargets ss ps name n) := by
  have hpn := List.ne_nil_of_mem hn
  unfold planetTargets
  cases n with
  | zero => simp [data, targetsOf, starsOnly, hne]
  | succ n =>
    have e : data ps (n + 1) = (List.range (n + 1)).map (fun i => ps.map (fun c => c.value i)) := by
      unfold data; rw [if_neg hpn]
    have e' : data ss (n + 1) = (List.range (n + 1)).map (fun i => ss.map (fun c => c.value i)) := by
      unfold data; rw [if_neg hne]
    have h := withPlanets_eq hs hp hn hk (List.range (n + 1)) 0 (fun m hm => by simp)
    rw [← h]
    cases hd : data ps (n + 1) with
    | nil => rw [e] at hd; simp at hd
    | cons p q =>
      simp only [targetsOf]
      rw [← hd, e, e', List.zip_map']

/-! ## csv files -/

theorem stripUnit_brackets {u : Text} (h1 : '[' ∉ u) (h2 : ']' ∉ u) : stripUnit ('[' :: u ++ [']']) = u := by
  unfold stripUnit
  simp only [List.cons_append, List.filter_cons, List.filter_append]
  have : u.filter (fun c => decide (c ≠ '[') && decide (c ≠ ']')) = u := by
    rw [List.filter_eq_self]
    intro c hc
    have a : c ≠ '[' := by rintro rfl; exact h1 hc
    have b : c ≠ ']' := by rintro rfl; exact h2 hc
    simp [a, b]
  rw [this]
  simp

theorem splitOn_header {word : Text} (hw : ' ' ∉ word) {c : Column α} (hk : ' ' ∉ c.key)
    (hu : ∀ u, c.unit = some u → ' ' ∉ u) :
    Misc.splitOn ' ' (c.header word) = word :: c.key :: (match c.unit with | none => [] | some u => ['[' :: u ++ [']']]) := by
  unfold Column.header
  cases h : c.unit with
  | none =>
    simp only [List.append_nil]
    rw [Misc.splitOn_append hw, Misc.splitOn_of_not_mem hk]
  | some u =>
    simp only [List.cons_append, List.append_assoc]
    rw [Misc.splitOn_append hw, Misc.splitOn_append hk, Misc.splitOn_of_not_mem]
    have := hu u h
    simp [this]

variable {env : Env α} {n : Nat}

theorem secondToken_header {word : Text} (hw : ' ' ∉ word) {c : Column α} (h : c.Good env n) :
    secondToken (c.header word) = .ok c.key := by
  unfold secondToken
  rw [splitOn_header hw h.key (fun u hu => (h.unit u hu).1)]

theorem csvUnit_header {word : Text} (hw : ' ' ∉ word) {c : Column α} (h : c.Good env n) :
    csvUnit env (c.header word) = .ok c.unit := by
  unfold csvUnit
  rw [splitOn_header hw h.key (fun u hu => (h.unit u hu).1)]
  cases hu : c.unit with
  | none => rfl
  | some u =>
    obtain ⟨_, h1, h2, h3⟩ := h.unit u hu
    simp only []
    rw [stripUnit_brackets h1 h2]
    simp [parseUnit, h3]

theorem withUnit_good {c : Column α} (h : c.Good env n) {i : Nat} (hi : i < n) :
    withUnit env (c.cell i) c.unit = .ok (c.value i) := by
  unfold withUnit Column.value
  cases hu : c.unit with
  | none => rfl
  | some u =>
    obtain ⟨v, hv⟩ := h.cells u hu i hi
    simp [hv]

theorem rowUnits_good {i : Nat} (hi : i < n) : ∀ {cs : List (Column α)}, (∀ c ∈ cs, c.Good env n) →
    rowUnits env (cs.map Column.unit) (cs.map (fun c => c.cell i)) = .ok (cs.map (fun c => c.value i))
  | [], _ => rfl
  | c :: cs, h => by
    simp only [List.map_cons]
    unfold rowUnits
    rw [withUnit_good (h c (by simp)) hi]
    simp only []
    rw [rowUnits_good hi (fun c hc => h c (by simp [hc]))]

theorem csvKeys_eq {word : Text} (hw : ' ' ∉ word) {t : Table α} {cs : List (Column α)}
    (hc : columns word t = cs.map (fun c => (c.header word, c.cell))) (h : ∀ c ∈ cs, c.Good env n) :
    csvKeys word t = .ok (cs.map Column.key) := by
  unfold csvKeys
  rw [hc, mapE_comp]
  exact mapE_map (fun c hcm => secondToken_header hw (h c hcm))

theorem rowsOf_map (cs : List (Column α)) (f : Column α → Text) (n : Nat) :
    rowsOf (cs.map (fun c => (f c, c.cell))) n = if cs = [] then [] else (List.range n).map (fun i => cs.map (fun c => c.cell i)) := by
  cases cs with
  | nil => rfl
  | cons c cs =>
    rw [if_neg (by simp)]
    simp [rowsOf, Function.comp_def]

theorem csvData_eq {word : Text} (hw : ' ' ∉ word) {t : Table α} {cs : List (Column α)}
    (hc : columns word t = cs.map (fun c => (c.header word, c.cell))) (h : ∀ c ∈ cs, c.Good env t.nrows) :
    csvData env word t = .ok (data cs t.nrows) := by
  unfold csvData
  rw [hc, mapE_comp, mapE_map (g := Column.unit) (fun c hcm => csvUnit_header hw (h c hcm))]
  simp only []
  rw [rowsOf_map]
  unfold data
  split
  · rfl
  · rw [mapE_comp, mapE_map (g := fun i => cs.map (fun c => c.value i))]
    intro i hi
    exact rowUnits_good (List.mem_range.1 hi) h

/-! ## The columns of a table of the specification -/

theorem starWord_header (c : Column α) : starWord <:+: c.header starWord := by
  unfold Column.header
  rw [List.append_assoc]
  exact (List.prefix_append _ _).isInfix

theorem planetWord_header (c : Column α) : planetWord <:+: c.header planetWord := by
  unfold Column.header
  rw [List.append_assoc]
  exact (List.prefix_append _ _).isInfix

theorem columns_star : ∀ {items : List (Item α)}, (∀ it ∈ items, it.Clear) →
    columns starWord ⟨items.map Item.render, n⟩ = (stars items).map (fun c => (c.header starWord, c.cell))
  | [], _ => rfl
  | it :: items, h => by
    have ih := columns_star (fun it hit => h it (List.mem_cons_of_mem _ hit))
    have h0 := h it (by simp)
    unfold columns at ih ⊢
    simp only [List.map_cons, List.filter_cons]
    cases it with
    | star c =>
      have e : isInfixOfChars starWord (Item.render (.star c)).1 = true := (Options.isInfixOfChars_iff _ _).2 (starWord_header c)
      rw [if_pos e, ih]
      rfl
    | planet c =>
      have e : ¬ isInfixOfChars starWord (Item.render (.planet c)).1 = true := fun e => h0 ((Options.isInfixOfChars_iff _ _).1 e)
      rw [if_neg e, ih]
      rfl
    | other nm c =>
      have e : ¬ isInfixOfChars starWord (Item.render (.other nm c)).1 = true := fun e => h0.1 ((Options.isInfixOfChars_iff _ _).1 e)
      rw [if_neg e, ih]
      rfl

theorem columns_planet : ∀ {items : List (Item α)}, (∀ it ∈ items, it.Clear) →
    columns planetWord ⟨items.map Item.render, n⟩ = (planets items).map (fun c => (c.header planetWord, c.cell))
  | [], _ => rfl
  | it :: items, h => by
    have ih := columns_planet (fun it hit => h it (List.mem_cons_of_mem _ hit))
    have h0 := h it (by simp)
    unfold columns at ih ⊢
    simp only [List.map_cons, List.filter_cons]
    cases it with
    | planet c =>
      have e : isInfixOfChars planetWord (Item.render (.planet c)).1 = true := (Options.isInfixOfChars_iff _ _).2 (planetWord_header c)
      rw [if_pos e, ih]
      rfl
    | star c =>
      have e : ¬ isInfixOfChars planetWord (Item.render (.star c)).1 = true := fun e => h0 ((Options.isInfixOfChars_iff _ _).1 e)
      rw [if_neg e, ih]
      rfl
    | other nm c =>
      have e : ¬ isInfixOfChars planetWord (Item.render (.other nm c)).1 = true := fun e => h0.2 ((Options.isInfixOfChars_iff _ _).1 e)
      rw [if_neg e, ih]
      rfl

theorem space_star : ' ' ∉ starWord := by decide
theorem space_planet : ' ' ∉ planetWord := by decide

/-- **C53**: a csv list of stars, of any number of rows, gives one target per row, numbered and ordered like the rows, whose
star has exactly the quantities of the columns, each with the value of that row and the unit of its column, and whose name is
that of the row. Columns with other headers change nothing. -/
theorem csv_stars {items : List (Item α)} {name : Column α} (hc : ∀ it ∈ items, it.Clear)
    (hg : ∀ c ∈ stars items, c.Good env n) (hd : Distinct (stars items)) (hp : planets items = [])
    (hn : name ∈ stars items) (hk : name.key = nameKey) :
    csvList env ⟨items.map Item.render, n⟩ = .ok (starTargets (stars items) name n) := by
  unfold csvList create
  rw [csvKeys_eq space_star (columns_star hc) hg, csvData_eq space_star (columns_star hc) hg]
  simp only []
  rw [show csvKeys planetWord ⟨items.map Item.render, n⟩ = .ok [] by
      rw [csvKeys_eq (env := env) (n := n) space_planet (columns_planet hc) (by simp [hp]), hp]; rfl,
    show csvData env planetWord ⟨items.map Item.render, n⟩ = .ok [] by
      rw [csvData_eq space_planet (columns_planet hc) (by simp [hp]), hp]; rfl]
  exact targetsOf_nil [] hd hn hk

/-- **C53**: the same with planets: the planet has the planet columns and the target has the name of the planet. -/
theorem csv_planets {items : List (Item α)} {name : Column α} (hc : ∀ it ∈ items, it.Clear)
    (hg : ∀ c ∈ stars items, c.Good env n) (hg' : ∀ c ∈ planets items, c.Good env n)
    (hd : Distinct (stars items)) (hd' : Distinct (planets items)) (hs : stars items ≠ [])
    (hn : name ∈ planets items) (hk : name.key = nameKey) :
    csvList env ⟨items.map Item.render, n⟩ = .ok (planetTargets (stars items) (planets items) name n) := by
  unfold csvList create
  rw [csvKeys_eq space_star (columns_star hc) hg, csvData_eq space_star (columns_star hc) hg,
    csvKeys_eq space_planet (columns_planet hc) hg', csvData_eq space_planet (columns_planet hc) hg']
  exact targetsOf_some hd hd' hs hn hk

/-- A mistake in the header or in the rows of a single planet column silently drops all the planets: the targets are those of
the stars alone. -/
theorem csv_planet_mistake {items : List (Item α)} {name : Column α} (hc : ∀ it ∈ items, it.Clear)
    (hg : ∀ c ∈ stars items, c.Good env n) (hd : Distinct (stars items)) (hn : name ∈ stars items) (hk : name.key = nameKey)
    {c : Column α} (hcm : c ∈ planets items) (hck : ' ' ∉ c.key) {u : Text} (hu : c.unit = some u)
    (hus : ' ' ∉ u ∧ '[' ∉ u ∧ ']' ∉ u) (hbad : env.isUnit u = false) :
    csvList env ⟨items.map Item.render, n⟩ = .ok (starTargets (stars items) name n) := by
  have hbadc : csvUnit env (c.header planetWord) = .error .valueError := by
    unfold csvUnit
    rw [splitOn_header space_planet hck (fun v hv => by rw [hu] at hv; cases hv; exact hus.1), hu]
    simp only []
    rw [stripUnit_brackets hus.2.1 hus.2.2]
    simp [parseUnit, hbad]
  have herr : ∃ e, csvData env planetWord ⟨items.map Item.render, n⟩ = .error e := by
    unfold csvData
    rw [columns_planet hc, mapE_comp]
    obtain ⟨e, he⟩ := mapE_fails (f := fun c : Column α => csvUnit env (c.header planetWord)) hcm ⟨_, hbadc⟩
    refine ⟨e, ?_⟩
    rw [he]
  obtain ⟨e, he⟩ := herr
  unfold csvList create
  rw [csvKeys_eq space_star (columns_star hc) hg, csvData_eq space_star (columns_star hc) hg, he]
  simp only []
  have : planetsOf (csvKeys planetWord ⟨items.map Item.render, n⟩) (.error e : Except Exc (List (List (Cell α)))) = none := by
    unfold planetsOf
    cases csvKeys planetWord ⟨items.map Item.render, n⟩ <;> rfl
  rw [this]
  exact targetsOf_none hd hn hk

end ExoRad.TargetList
