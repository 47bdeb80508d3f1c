import Verif.Model.Py
import Mathlib.Data.Int.Range
import Mathlib.Tactic.NormNum

/-!
# Small utilities: `exorad/utils/util.py`, `exorad/models/utils.py`, `exorad/utils/version_control.py`
-/

namespace ExoRad.Misc

/-! ## `parse_range` and `chunks` -/

/-- `s.split(c)` for a one-character separator. `exorad/utils/util.py:102`, `:110`. -/
def splitOn (c : Char) : List Char → List (List Char)
  | [] => [[]]
  | x :: s =>
    match splitOn c s with
    | [] => [[]]
    | t :: ts => if x = c then [] :: t :: ts else (x :: t) :: ts

/-- `range(a, b)` as a list. `exorad/utils/util.py:99`, `:120`. -/
def pyRange (a b : Int) : List Int := (List.range (b - a).toNat).map (fun i : Nat => a + (i : Int))

/-- `exorad/utils/util.py:106-121`: the loop body for one item; `none` is the early `return None`.
`int` is Python's `int()` on strings (`none` for ValueError). -/
def parseItem (int : List Char → Option Int) (a : List Char) : Option (List Int) :=
  match splitOn '-' a with
  | [] => none
  | [s0] =>
    -- `s[1]` raises IndexError after `int(s[0])` succeeded; lines 114-116
    match int s0 with
    | none => none
    | some _ =>
      match int a with
      | none => none
      | some n => some (pyRange n (n + 1))
  | s0 :: s1 :: _ =>
    match int s0, int s1 with
    | some x, some y => some (pyRange x (y + 1))
    | _, _ => none

/-- `exorad/utils/util.py:106-122`. -/
def parseItems (int : List Char → Option Int) : List (List Char) → List Int → Option (List Int)
  | [], acc => some acc
  | a :: as, acc =>
    match parseItem int a with
    | none => none
    | some l => parseItems int as (acc ++ l)

/-- ASCII blanks removed by `strip`. `exorad/utils/util.py:98`, `:100`. -/
def isBlank (c : Char) : Bool := c = ' ' || c = '\t' || c = '\n' || c = '\r' || c = '\x0b' || c = '\x0c'

/-- `s.strip()` (ASCII blanks only). `exorad/utils/util.py:98`, `:100`. -/
def strip (l : List Char) : List Char :=
  ((l.dropWhile isBlank).reverse.dropWhile isBlank).reverse

/-- `exorad/utils/util.py:97-122` `parse_range`; `none` is Python's `None`. The printed message of
line 118 is dropped. -/
def parseRange (int : List Char → Option Int) (inp : List Char) (avail : Nat) : Option (List Int) :=
  if strip inp = "all".toList then some (pyRange 0 avail)
  else if strip inp = "none".toList then some []
  else parseItems int (splitOn ',' inp) []

/-- `exorad/utils/util.py:125-127` `chunks`, all yielded pieces: `range(0, len(l), n)` is empty for
a negative step and raises ValueError for a zero one. -/
def chunks {β : Type} (l : List β) (n : Int) : Except Exc (List (List β)) :=
  if n = 0 then .error .valueError
  else if n < 0 then .ok []
  else
    let k := n.toNat
    .ok ((List.range ((l.length + k - 1) / k)).map (fun i => (l.drop (i * k)).take k))

/-! ## `to_dict` -/

/-- Python objects as seen by `to_dict`. `column` stands for any value without `__dict__` that is kept
as it is (numbers, strings, arrays, table columns). `inst` is any other instance: its `callable` flag,
its optional `_ast()` result and its attributes. `exorad/utils/util.py:30-76`. -/
inductive Obj where
  | leaf (id : String)
  | dict (d : List (String × Obj))
  | quantity (value unit : String)
  | qtable (id : String)
  | table (cols : List (String × String))
  | inst (callable : Bool) (attrs : List (String × Obj))
  | ast (of : Obj)

/-- `callable(value)`. `exorad/utils/util.py:30-76`. -/
def Obj.callable : Obj → Bool
  | .inst c _ => c
  | _ => false

/-- Lines 68-70: which attributes are kept. -/
def keepAttr (k : String) (o : Obj) : Bool :=
  !o.callable && !(("_".toList).isPrefixOf k.toList) && !(k == "name")

mutual
/-- `exorad/utils/util.py:30-76` `to_dict(obj)` with `classkey=None` (the only use in the repository). -/
def toDict : Obj → Obj
  | .leaf x => .leaf x
  | .dict d => .dict (toDictAll d)
  | .quantity v u => .dict [("value", .leaf v), ("unit", .leaf u)]
  | .ast o => toDict o
  | .qtable t => .dict [("table", .qtable t)]
  | .table cols => .dict (cols.map (fun c => (c.1, .dict [("value", .leaf c.2)])))
  | .inst _ attrs => .dict (toDictAttrs attrs)
/-- Lines 33-34. -/
def toDictAll : List (String × Obj) → List (String × Obj)
  | [] => []
  | (k, o) :: r => (k, toDict o) :: toDictAll r
/-- Lines 65-71. -/
def toDictAttrs : List (String × Obj) → List (String × Obj)
  | [] => []
  | (k, o) :: r => if keepAttr k o then (k, toDict o) :: toDictAttrs r else toDictAttrs r
end

/-! ## `get_wl_col_name` -/

/-- `exorad/models/utils.py:1-11`. `keys` are the table columns; `descr` is the description: `none`
for `None`, else whether it has a `wl_col_name` entry and, if so, its value (`none` when malformed,
KeyError). `some none` as a result is Python's `None`. -/
def getWlColName (keys : List String) (descr : Option (Option (Option String))) :
    Except Exc (Option String) :=
  match descr with
  | some (some none) => .error .keyError
  -- the loop variable `wl_key` of line 6 is never bound on this branch, line 9 reads it
  | some (some (some _)) => .error .unboundLocalError
  | _ =>
    -- `wl_key` is "wavelength" after the loop, so line 9 is never true
    .ok (["Wavelength", "wavelength"].foldl (fun r k => if k ∈ keys then some k else r) none)

/-! ## `VersionControl.get_message` -/

/-- `"## ["` etc. in `line`. -/
def isHeader (line : List Char) : Bool :=
  isInfixOfChars "## [".toList line && !(isInfixOfChars "## [Unreleased]".toList line)

/-- Index of the first occurrence (`line.find(c)`, -1 replaced by `none`). -/
def findChar (c : Char) : List Char → Option Nat
  | [] => none
  | x :: s => if x = c then some 0 else (findChar c s).map (· + 1)

/-- `line[line.find("[") + 1 : line.find("]")]` (line 76); `find` gives -1 when absent, which as a
slice end drops the last character. -/
def bracketed (line : List Char) : List Char :=
  let i := match findChar '[' line with | some i => i + 1 | none => 0
  let j := match findChar ']' line with | some j => j | none => line.length - 1
  (line.take j).drop i

/-- Lines 77-81: the rest of the message. -/
def messageBody (cur : List Char) : List (List Char) → List Char
  | [] => []
  | l :: ls =>
    if isInfixOfChars cur l then []
    else if l ≠ [] then l ++ '\n' :: messageBody cur ls
    else messageBody cur ls

/-- `exorad/utils/version_control.py:62-83`: (message, new version). -/
def getMessage (cur : List Char) : List (List Char) → List Char × List Char
  | [] => ([], [])
  | line :: rest =>
    if isHeader line then
      if isInfixOfChars ('[' :: cur ++ [']']) line then ([], [])
      else (line ++ '\n' :: messageBody cur rest, bracketed line)
    else getMessage cur rest

end ExoRad.Misc
