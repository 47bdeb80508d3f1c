import Verif.Model.Misc
import Verif.Model.Source

/-!
# `exorad/models/targetlist.py` and `LoadTargetList` (`exorad/tasks/targetHandler.py:38-64`): the lists of targets

A file is what astropy's csv reader or xlrd gives: a table of named columns, or a sheet of cells. Texts are lists of letters.
Parameters (`Env`): which texts are units, the product of a unit with something that is not a number (a text, a missing cell, a
quantity), and regular expression search. Texts are lowered for ASCII letters only. `OldExcelTargetList` (used by no code) is
not modelled. The attributes of a target other than the star, the planet, the name and the id are not set by these functions.
-/

namespace ExoRad.TargetList

/-- A Python `str` of `exorad/models/targetlist.py`. -/
abbrev Text := List Char

/-- A cell of a table: a number, a text, a quantity or a missing cell of a csv file (`numpy.ma.masked`).
`exorad/models/targetlist.py:184-201`, `:253-286`, `:467-474`. -/
inductive Cell (α : Type) where
  | num (v : α)
  | text (s : Text)
  | qty (v : α) (unit : Text)
  | masked

/-- An astropy table: the columns (name, and the cell of each row) and the number of rows. `exorad/models/targetlist.py:177-224`, `:236-335`, `:460-487`. -/
structure Table (α : Type) where
  cols : List (Text × (Nat → Cell α))
  nrows : Nat

/-- The first sheet of a workbook (`Sheet1`), by row and column; the header row (row 2) has texts only. `exorad/models/targetlist.py:121-165`. -/
structure Sheet (α : Type) where
  header : Nat → Text
  cell : Nat → Nat → Cell α
  nrows : Nat
  ncols : Nat

/-- What `astropy.units` knows, for `exorad/models/targetlist.py:131`, `:184-201`, `:253-286`. -/
structure Env (α : Type) where
  /-- `u.Unit(text)` does not raise ValueError -/
  isUnit : Text → Bool
  /-- `x * (1 * unit)` when `x` is not a number -/
  times : Cell α → Text → Except Exc (Cell α)
  /-- `re.search(pattern, text)` -/
  search : Text → Text → Except Exc Bool
  /-- `str(x)` -/
  str : Cell α → Text
  /-- what astropy reads from a csv file -/
  csv : String → Except Exc (Table α)
  /-- what xlrd reads from an xlsx file -/
  xlsx : String → Except Exc (Sheet α)

variable {α : Type}

/-- `value * unit`. `exorad/models/targetlist.py:184-201`, `:253-286`. -/
def withUnit (env : Env α) (c : Cell α) : Option Text → Except Exc (Cell α)
  | none => .ok c
  | some u =>
    match c with
    | .num v => .ok (.qty v u)
    | c => env.times c u

/-- A star with its planets: what the loaders make of a row. `exorad/models/targetlist.py:39-86`. -/
structure Target (α : Type) where
  id : Nat
  name : Cell α
  star : Dict Text (Cell α)
  planet : Option (Dict Text (Cell α))

/-- Lines 63,67,78: `__dict__.update(dict(zip(keys, row)))` on a new object. `exorad/models/targetlist.py:39-86`. -/
def attrs (keys : List Text) (row : List (Cell α)) : Dict Text (Cell α) :=
  (keys.zip row).foldl (fun d p => d.set p.1 p.2) []

/-- `"name"`, `"star"`, `"planet"`, `"error"`. In `exorad/models/targetlist.py:124`, `:180-224`. -/
def nameKey : Text := ['n', 'a', 'm', 'e']
/-- In `exorad/models/targetlist.py:180-201`, `:464-468`. -/
def starWord : Text := ['s', 't', 'a', 'r']
/-- In `exorad/models/targetlist.py:203-224`, `:477-481`. -/
def planetWord : Text := ['p', 'l', 'a', 'n', 'e', 't']
/-- In `exorad/models/targetlist.py:239-335`. -/
def errorWord : Text := ['e', 'r', 'r', 'o', 'r']

/-- `obj.name` of an object with these attributes. `exorad/models/targetlist.py:39-102`. -/
def nameOf (d : Dict Text (Cell α)) : Except Exc (Cell α) :=
  match d.get? nameKey with
  | some c => .ok c
  | none => .error .attributeError

/-- Lines 57-72: the targets with a planet, from the given index on. -/
def withPlanets (sk pk : List Text) : Nat → List (List (Cell α) × List (Cell α)) → Except Exc (List (Target α))
  | _, [] => .ok []
  | i, (star, planet) :: rows =>
    match nameOf (attrs pk planet) with
    | .error e => .error e
    | .ok name =>
      match withPlanets sk pk (i + 1) rows with
      | .error e => .error e
      | .ok ts => .ok (⟨i, name, attrs sk star, some (attrs pk planet)⟩ :: ts)

/-- Lines 73-84: the targets without planet, from the given index on. -/
def starsOnly (sk : List Text) : Nat → List (List (Cell α)) → Except Exc (List (Target α))
  | _, [] => .ok []
  | i, star :: rows =>
    match nameOf (attrs sk star) with
    | .error e => .error e
    | .ok name =>
      match starsOnly sk (i + 1) rows with
      | .error e => .error e
      | .ok ts => .ok (⟨i, name, attrs sk star, none⟩ :: ts)

/-- Lines 46-53: the planets; every exception is swallowed. -/
def planetsOf (pk : Except Exc (List Text)) (pd : Except Exc (List (List (Cell α)))) :
    Option (List Text × List (List (Cell α))) :=
  match pk, pd with
  | .ok k, .ok d => some (k, d)
  | _, _ => none

/-- Lines 55-84, once the keys and the data are known. -/
def targetsOf (sk : List Text) (sd : List (List (Cell α))) :
    Option (List Text × List (List (Cell α))) → Except Exc (List (Target α))
  | some (pk, p :: ps) => withPlanets sk pk 0 (sd.zip (p :: ps))
  | _ => starsOnly sk 0 sd

/-- Lines 39-85 `create_target_list`. -/
def create (sk : Except Exc (List Text)) (sd : Except Exc (List (List (Cell α))))
    (pk : Except Exc (List Text)) (pd : Except Exc (List (List (Cell α)))) : Except Exc (List (Target α)) :=
  match sk with
  | .error e => .error e
  | .ok sk =>
    match sd with
    | .error e => .error e
    | .ok sd => targetsOf sk sd (planetsOf pk pd)

/-! ## csv files (lines 166-224) -/

/-- Lines 183,187: the columns with the word in their name. `exorad/models/targetlist.py:180-224`. -/
def columns (word : Text) (t : Table α) : List (Text × (Nat → Cell α)) := t.cols.filter (fun c => isInfixOfChars word c.1)

/-- `k.split(" ")[1]` (line 184). -/
def secondToken (k : Text) : Except Exc Text :=
  match Misc.splitOn ' ' k with
  | _ :: x :: _ => .ok x
  | _ => .error .indexError

/-- Line 15 `stripUnitString`. `exorad/models/targetlist.py:15`. -/
def stripUnit (s : Text) : Text := s.filter (fun c => c ≠ '[' && c ≠ ']')

/-- `u.Unit(text)`. `exorad/models/targetlist.py:131`, `:184-201`, `:253-286`. -/
def parseUnit (env : Env α) (s : Text) : Except Exc Text := if env.isUnit s then .ok s else .error .valueError

/-- Lines 190-194: the unit of a column is its third word, if there are exactly three. -/
def csvUnit (env : Env α) (k : Text) : Except Exc (Option Text) :=
  match Misc.splitOn ' ' k with
  | [_, _, un] =>
    match parseUnit env (stripUnit un) with
    | .error e => .error e
    | .ok u => .ok (some u)
  | _ => .ok none

/-- A row times the units of the columns (lines 199-201). -/
def rowUnits (env : Env α) : List (Option Text) → List (Cell α) → Except Exc (List (Cell α))
  | u :: us, c :: cs =>
    match withUnit env c u with
    | .error e => .error e
    | .ok c' =>
      match rowUnits env us cs with
      | .error e => .error e
      | .ok cs' => .ok (c' :: cs')
  | _, _ => .ok []

/-- `self.tmpTab[cols][i]` for all `i` (lines 196-197); astropy selects no row when there is no column. -/
def rowsOf (cols : List (Text × (Nat → Cell α))) (nrows : Nat) : List (List (Cell α)) :=
  match cols with
  | [] => []
  | cols => (List.range nrows).map (fun i => cols.map (fun c => c.2 i))

/-- Lines 182-184, 205-207: the attribute names. -/
def csvKeys (word : Text) (t : Table α) : Except Exc (List Text) :=
  Source.mapE (fun c => secondToken c.1) (columns word t)

/-- Lines 186-203, 209-224: the rows. -/
def csvData (env : Env α) (word : Text) (t : Table α) : Except Exc (List (List (Cell α))) :=
  match Source.mapE (fun c => csvUnit env c.1) (columns word t) with
  | .error e => .error e
  | .ok units => Source.mapE (rowUnits env units) (rowsOf (columns word t) t.nrows)

/-- Lines 166-224 `CSVTargetList`. -/
def csvList (env : Env α) (t : Table α) : Except Exc (List (Target α)) :=
  create (csvKeys starWord t) (csvData env starWord t) (csvKeys planetWord t) (csvData env planetWord t)

/-! ## csv files of the other format (lines 227-379) -/

/-- `s.lower()`. `exorad/models/targetlist.py:239-335`. -/
def low (s : Text) : Text := s.map Char.toLower

/-- Lines 240-246, 255-259: columns with the word, in any case, and without "error". -/
def columnsMRS (word : Text) (t : Table α) : List (Text × (Nat → Cell α)) :=
  t.cols.filter (fun c => isInfixOfChars word (low c.1) && !isInfixOfChars errorWord (low c.1))

/-- `k.split(" ", 1)[1]`. `exorad/models/targetlist.py:239-251`, `:288-300`. -/
def afterSpace (k : Text) : Except Exc Text :=
  match Misc.findChar ' ' k with
  | some i => .ok (k.drop (i + 1))
  | none => .error .indexError

/-- Lines 356-379 `check_keys`. -/
def checkKeys (k : Text) : Text :=
  if k = "mass".toList then "M".toList
  else if k = "radius".toList then "R".toList
  else if k = "temperature".toList then "Teff".toList
  else if k = "distance".toList then "D".toList
  else if k = "period".toList then "P".toList
  else if k = "molecular weight".toList then "mmw".toList
  else if k = "semi-major axis".toList then "a".toList
  else if k = "impact parameter".toList then "b".toList
  else if k = "heat redistribution factor".toList then "Gamma".toList
  else if k = "transit duration".toList then "T14".toList
  else k

/-- Lines 335-353 `check_units`. -/
def checkUnits (k : Text) : Text :=
  if k = "Rs".toList then "R_sun".toList
  else if k = "Ms".toList then "M_sun".toList
  else if k = "Re".toList then "R_earth".toList
  else if k = "Me".toList then "M_earth".toList
  else if k = "Rj".toList then "R_jupiter".toList
  else if k = "Mj".toList then "M_jupiter".toList
  else if k = "days".toList then "day".toList
  else k

/-- Lines 247-252: the text before the bracket, without its last letter. -/
def cutBracket (k : Text) : Text :=
  match Misc.findChar '[' k with
  | none => k
  | some 0 => k.dropLast
  | some (i + 1) => k.take i

/-- Lines 239-252, 291-304: the attribute name of a column. -/
def mrsKey (k : Text) : Except Exc Text :=
  match afterSpace k with
  | .error e => .error e
  | .ok r => .ok (checkKeys (cutBracket (low r)))

/-- Lines 261-270: the unit between the brackets. -/
def mrsUnit (env : Env α) (k : Text) : Except Exc (Option Text) :=
  match Misc.findChar '[' k with
  | none => .ok none
  | some _ =>
    match parseUnit env (checkUnits (Misc.bracketed k)) with
    | .error e => .error e
    | .ok u => .ok (some u)

/-- Lines 275-283: the comma of a text becomes a dot; the number it may stand for is computed and dropped. -/
def commaToDot : Cell α → Cell α
  | .text s => .text (s.map (fun c => if c = ',' then '.' else c))
  | c => c

/-- The attribute names. `exorad/models/targetlist.py:239-251`, `:288-300`. -/
def mrsKeys (word : Text) (t : Table α) : Except Exc (List Text) :=
  Source.mapE (fun c => mrsKey c.1) (columnsMRS word t)

/-- The rows. `exorad/models/targetlist.py:253-286`, `:302-335`. -/
def mrsData (env : Env α) (word : Text) (t : Table α) : Except Exc (List (List (Cell α))) :=
  match Source.mapE (fun c => mrsUnit env c.1) (columnsMRS word t) with
  | .error e => .error e
  | .ok units =>
    Source.mapE (fun row => rowUnits env units (row.map commaToDot)) (rowsOf (columnsMRS word t) t.nrows)

/-- Lines 227-379 `CSVTargetListMRS`. -/
def mrsList (env : Env α) (t : Table α) : Except Exc (List (Target α)) :=
  create (mrsKeys starWord t) (mrsData env starWord t) (mrsKeys planetWord t) (mrsData env planetWord t)

/-! ## tables (lines 450-498) -/

/-- Lines 487-498 `_check_quantities`: a cell is a text or has a unit. -/
def checkQty : Cell α → Except Exc (Cell α)
  | .num _ => .error .typeError
  | .masked => .error .typeError
  | c => .ok c

/-- Lines 467-474, 480-485. -/
def tableData (word : Text) (t : Table α) : Except Exc (List (List (Cell α))) :=
  Source.mapE (Source.mapE checkQty) (rowsOf (columns word t) t.nrows)

/-- Lines 450-498 `QTableTargetList`. -/
def tableList (t : Table α) : Except Exc (List (Target α)) :=
  create (csvKeys starWord t) (tableData starWord t) (csvKeys planetWord t) (tableData planetWord t)

/-! ## workbooks (lines 105-163) -/

/-- `list * dim`: a list of numbers times a unit; a list with something else raises TypeError. `exorad/models/targetlist.py:138`. -/
def listTimes (u : Text) : List (Cell α) → Except Exc (List (Cell α))
  | [] => .ok []
  | .num v :: cs =>
    match listTimes u cs with
    | .error e => .error e
    | .ok l => .ok (.qty v u :: l)
  | _ :: _ => .error .typeError

/-- Lines 128-136: the unit of a column; an unknown one is no unit. `len` of a number raises TypeError. -/
def sheetUnit (env : Env α) : Cell α → Except Exc (Option Text)
  | .text [] => .ok none
  | .text s => .ok (if env.isUnit (stripUnit s) then some (stripUnit s) else none)
  | _ => .error .typeError

/-- `Sheet.col_values(col)[4:]`. `exorad/models/targetlist.py:138`, `:161-163`. -/
def sheetColumn (s : Sheet α) (c : Nat) : List (Cell α) := (List.range (s.nrows - 4)).map (fun i => s.cell (i + 4) c)

/-- Lines 127-138: one column. -/
def sheetValues (env : Env α) (s : Sheet α) (c : Nat) : Except Exc (List (Cell α)) :=
  if s.nrows ≤ 3 then .error .indexError
  else
    match sheetUnit env (s.cell 3 c) with
    | .error e => .error e
    | .ok none => .ok (sheetColumn s c)
    | .ok (some u) => listTimes u (sheetColumn s c)

/-- Lines 127-140: the loop over the columns. -/
def sheetLoop (env : Env α) (s : Sheet α) (a : Nat) :
    List Nat → Dict Text (List (Cell α)) → Except Exc (Dict Text (List (Cell α)))
  | [], d => .ok d
  | c :: cs, d =>
    match sheetValues env s c with
    | .error e => .error e
    | .ok v => sheetLoop env s a cs (d.set (if c = a then nameKey else s.header c) v)

/-- Lines 121-140 `__parseData__`: the columns `a..b` of the sheet. -/
def sheetPart (env : Env α) (s : Sheet α) (a b : Nat) : Except Exc (Dict Text (List (Cell α))) :=
  if s.nrows ≤ 2 ∨ s.ncols ≤ a then .error .indexError
  else sheetLoop env s a ((List.range s.ncols).filter (fun c => a ≤ c && c ≤ b)) []

/-- `list(map(list, zip(*columns)))` (lines 148-154), all columns having `n` cells. -/
def transpose (n : Nat) (cols : List (List (Cell α))) : List (List (Cell α)) :=
  (List.range n).map (fun i => cols.map (fun c => c.getD i .masked))

/-- The attribute number of observations (line 161). -/
def nobsKey : Text := ['N', 'o', 'b', 's']

/-- Lines 105-163 `XLXSTargetList`. -/
def xlsxList (env : Env α) (s : Sheet α) : Except Exc (List (Target α)) :=
  match sheetPart env s 8 18 with
  | .error e => .error e
  | .ok planet =>
    if s.ncols ≤ 20 then .error .indexError
    else
      match sheetPart env s 1 6 with
      | .error e => .error e
      | .ok star =>
        let planet := planet.set nobsKey (sheetColumn s 20)
        create (.ok star.keys) (.ok (transpose (s.nrows - 4) (star.map Prod.snd)))
          (.ok planet.keys) (.ok (transpose (s.nrows - 4) (planet.map Prod.snd)))

/-! ## `LoadTargetList` and `searchTarget` -/

/-- The argument of `LoadTargetList`: a file (with the extension of its name) or a table. `exorad/tasks/targetHandler.py:38-64`. -/
inductive Input (α : Type) where
  | file (name ext : String)
  | table (t : Table α)

/-- `exorad/tasks/targetHandler.py:53-57` after the file is read: another csv format is tried when there is no target. -/
def csvEither (env : Env α) (t : Table α) : Except Exc (List (Target α)) :=
  match csvList env t with
  | .error e => .error e
  | .ok [] => mrsList env t
  | .ok ts => .ok ts

/-- `exorad/tasks/targetHandler.py:50-57`: a file. -/
def loadFile (env : Env α) (name ext : String) : Except Exc (List (Target α)) :=
  if ext = ".csv" then
    match env.csv name with
    | .error e => .error e
    | .ok t => csvEither env t
  else if ext = ".xlsx" then
    match env.xlsx name with
    | .error e => .error e
    | .ok s => xlsxList env s
  else .error .keyError

/-- `exorad/tasks/targetHandler.py:38-64` `LoadTargetList.execute`. A KeyError becomes an OSError; after a TypeError the
argument is taken for a table, and a text has no `keys` (AttributeError). -/
def load (env : Env α) : Input α → Except Exc (List (Target α))
  | .table t => tableList t
  | .file name ext =>
    match loadFile env name ext with
    | .error .keyError => .error .osError
    | .error .typeError => .error .attributeError
    | r => r

/-- Line 14 `compactString`. `exorad/models/targetlist.py:14`. -/
def compact (s : Text) : Text := (s.filter (fun c => c ≠ ' ' && c ≠ '-')).map Char.toLower

/-- Lines 97-99: the test of one target. -/
def found (env : Env α) (pat : Text) (t : Target α) : Except Exc Bool :=
  match nameOf t.star with
  | .error e => .error e
  | .ok n =>
    match env.search pat (compact (env.str n)) with
    | .error e => .error e
    | .ok true => .ok true
    | .ok false =>
      match t.planet with
      | none => .error .attributeError
      | some p =>
        match nameOf p with
        | .error e => .error e
        | .ok n => env.search pat (compact (env.str n))

/-- Lines 91-102 `searchTarget`. -/
def searchTarget (env : Env α) (name : Text) : List (Target α) → Except Exc (List (Target α))
  | [] => .ok []
  | t :: ts =>
    match found env (compact name) t with
    | .error e => .error e
    | .ok b =>
      match searchTarget env name ts with
      | .error e => .error e
      | .ok l => .ok (if b then t :: l else l)

end ExoRad.TargetList
