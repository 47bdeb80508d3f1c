import Verif.Model.Num
import Verif.Model.Py

/-!
# astropy tables and the table utilities

A table is an insertion-ordered list of named columns; a cell is a number or a string.
Simplifications: units are not carried (every column is stored in one unit), table metadata is not
carried, masked cells do not exist (astropy creates them only when stacking columns of different
lengths, which a rectangular table never does).
-/

set_option linter.unusedSectionVars false

namespace ExoRad

/-- A cell of a table column. In the tables of `exorad/tasks/*.py` and `exorad/models/instruments/*.py`. -/
inductive Cell (α : Type) where
  | num (v : Num α)
  | str (s : String)
deriving DecidableEq, Repr

/-- `astropy.table.QTable`: ordered columns. In the tables of `exorad/tasks/*.py` and `exorad/models/instruments/*.py`. -/
abbrev Table (α : Type) := Dict String (List (Cell α))

namespace Table
variable {α : Type} [Field α] [LinearOrder α]

/-- `len(tab)`: number of rows (0 for a table without columns). `exorad/utils/util.py:87`, `:91`. -/
def rows : Table α → Nat
  | [] => 0
  | (_, c) :: _ => c.length

/-- `np.zeros(n) * v`: numbers only, TypeError for a string. `exorad/utils/util.py:87`, `:91`. -/
def zerosTimes (n : Nat) : Cell α → Except Exc (List (Cell α))
  | .num v => .ok (List.replicate n (.num (Num.fin 0 * v)))
  | .str _ => .error .typeError

/-- `exorad/utils/util.py:85-88` (and 89-92 with the roles exchanged): give `tab` a zero column
for every column of `other` it does not have; `np.zeros(len(tab)) * other[c][0]`.
`other[c][0]` raises IndexError on an empty column. `len(tab)` is re-read at each assignment. -/
def addMissing : (other tab : Table α) → Except Exc (Table α)
  | [], tab => .ok tab
  | (c, col) :: rest, tab =>
    if tab.has c then addMissing rest tab
    else match col with
      | [] => .error .indexError
      | x :: _ => do
        let z ← zerosTimes tab.rows x
        addMissing rest (tab.set c z)

/-- `astropy.table.vstack([a, b], join_type="outer")` for tables with the same column names:
columns in the order of `a`, rows of `a` followed by rows of `b`. (After `addMissing` in both
directions the names agree; a name missing in `b` would give masked cells, here no cells.). `exorad/utils/util.py:92`. -/
def vstack2 (a b : Table α) : Table α :=
  a.map (fun p => (p.1, p.2 ++ (b.get? p.1).getD []))

/-- `exorad/utils/util.py:84-93`, one iteration of the loop when `table` is truthy. Returns the
new `table` and the two input objects as mutated (`table[c] = ..`, `tab[c] = ..`). -/
def vstackStep (table tab : Table α) : Except Exc (Table α × Table α × Table α) := do
  let tab' ← addMissing table tab
  let table' ← addMissing tab' table
  return (vstack2 table' tab', table', tab')

/-- The rest of the loop once `table` is the result of a `vstack` (not aliased to an input).
Second component: the remaining input tables as mutated. `exorad/utils/util.py:79-94`. -/
def vstackAcc (table : Table α) : List (Table α) → Except Exc (Table α × List (Table α))
  | [] => .ok (table, [])
  | tab :: ts => do
    let (r, _, tab') ← vstackStep table tab
    let (r', ts') ← vstackAcc r ts
    return (r', tab' :: ts')

/-- `exorad/utils/util.py:79-94` `vstack_tables`. `none` is the initial `False`; a table with no
rows is falsy so it is replaced by the next one. Second component: the caller's tables after the
call (the function assigns columns into them; the first non-empty one is aliased by `table` until
the first `vstack`). -/
def vstackTables : List (Table α) → Except Exc (Option (Table α) × List (Table α))
  | [] => .ok (none, [])
  | t :: ts =>
    if t.rows = 0 then
      match ts with
      | [] => .ok (some t, [t])
      | u :: us => do
        let (r, us') ← vstackTables (u :: us)
        return (r, t :: us')
    else
      match ts with
      | [] => .ok (some t, [t])
      | u :: us => do
        let (r, t', u') ← vstackStep t u
        let (r', us') ← vstackAcc r us
        return (some r', t' :: u' :: us')

/-- `exorad/tasks/targetHandler.py:127-147` `UpdateTargetTable.execute`, on the table: columns
present in both are removed from the old table, then the new columns are appended (`hstack`). -/
def update (old new : Table α) : Table α :=
  old.removeAll (old.keys.filter (fun k => new.has k)) ++ new

/-- Numeric view of a column; arithmetic on a string column raises TypeError. `exorad/tasks/targetHandler.py:168-186`, `exorad/models/noise.py:33-38`. -/
def numCol : List (Cell α) → Except Exc (List (Num α))
  | [] => .ok []
  | .num v :: l => do return v :: (← numCol l)
  | .str _ :: _ => .error .typeError

/-- `acc += table[key]` for each listed key, in order. `exorad/tasks/targetHandler.py:168-186`. -/
def sumCols (t : Table α) : List String → List (Num α) → Except Exc (List (Num α))
  | [], acc => .ok acc
  | k :: ks, acc => do
    let c ← t.getE k
    let v ← numCol c
    sumCols t ks (List.zipWith (· + ·) acc v)

/-- `exorad/tasks/targetHandler.py:178`: the columns summed by `EstimateMaxSignal`. -/
def maxKeys (t : Table α) : List String := t.keys.filter (fun k => substr "Max" k)

/-- `exorad/tasks/targetHandler.py:168-185` `EstimateMaxSignal.execute`, on the table. -/
def estimateMaxSignal (t : Table α) : Except Exc (Table α) := do
  let wl ← t.getE "Wavelength"
  let s ← sumCols t t.maxKeys (List.replicate wl.length (Num.fin 0))
  return t.update [("MaxSignal_inPixel", s.map .num)]

/-- `table[key][table["chName"] == name]`: the cells of a column in the rows of one channel. `exorad/models/noise.py:33-35`, `:136`. -/
def sel (t : Table α) (key name : String) : Except Exc (List (Cell α)) := do
  let ch ← t.getE "chName"
  let c ← t.getE key
  return (List.zip ch c).filterMap (fun p => if p.1 = Cell.str name then some p.2 else none)

/-- Numeric version of `sel`. `exorad/models/noise.py:33-35`, `:136`. -/
def selNum (t : Table α) (key name : String) : Except Exc (List (Num α)) := do
  numCol (← t.sel key name)

end Table
end ExoRad
