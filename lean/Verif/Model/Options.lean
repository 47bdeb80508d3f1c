import Verif.Model.Py
import Mathlib.Data.Rat.Defs

/-!
# `exorad/tasks/loadOptions.py`: the payload parser

The XML document is a tree of elements (tag, attributes, text, children). The text recognisers of
Python and astropy (`int`, `float`, `u.Unit`) and the data file readers are parameters (`Py`).
Simplifications: floats are exact rationals (no `inf`/`nan` texts); log output is dropped; the
`print` of the working resolution (line 109) is dropped; `str.strip` removes the ASCII blanks.
-/

namespace ExoRad.Options

/-- `xml.etree.ElementTree.Element`: `text` is `None` for `<a/>` and for an element that starts
directly with a child. Read in `exorad/tasks/loadOptions.py:70-115`. -/
inductive Xml where
  | node (tag : String) (attrib : List (String × String)) (text : Option String) (children : List Xml)

/-- `ch.tag` (`exorad/tasks/loadOptions.py:70-128`). -/
def Xml.tag : Xml → String
  | .node t _ _ _ => t
/-- `ch.attrib` (`exorad/tasks/loadOptions.py:76-77`). -/
def Xml.attrib : Xml → List (String × String)
  | .node _ a _ _ => a
/-- `ch.text` (`exorad/tasks/loadOptions.py:79`). -/
def Xml.text : Xml → Option String
  | .node _ _ t _ => t
/-- `list(ch)` (`exorad/tasks/loadOptions.py:73`). -/
def Xml.children : Xml → List Xml
  | .node _ _ _ c => c

/-- A parsed value: Python `int`, `float`, `str`, `bool`, an astropy quantity or a bare unit. `exorad/tasks/loadOptions.py:79-112`. -/
inductive Scalar where
  | int (n : Int)
  | float (q : Rat)
  | str (s : String)
  | bool (b : Bool)
  | qty (isInt : Bool) (q : Rat) (unit : String)
  | unit (u : String)
deriving DecidableEq

/-- The dictionary key a value stands for: Python identifies `1`, `1.0` and `True`. `exorad/tasks/loadOptions.py:115-128`. -/
inductive Key where
  | num (q : Rat)
  | str (s : String)
  | qty (q : Rat) (unit : String)
  | unit (u : String)
deriving DecidableEq

/-- The key of a section with this value (`exorad/tasks/loadOptions.py:115-128`). -/
def Scalar.key : Scalar → Key
  | .int n => .num n
  | .float q => .num q
  | .str s => .str s
  | .bool b => .num (if b then 1 else 0)
  | .qty _ q u => .qty q u
  | .unit u => .unit u

/-- The nested dictionaries of a parsed payload. `odict` is an `OrderedDict` keyed by value. `exorad/tasks/loadOptions.py:70-181`. -/
inductive Opt where
  | scalar (s : Scalar)
  | table (id : String)
  | dict (d : List (String × Opt))
  | odict (d : List (Key × Opt))

/-- The outside world used by the parser. `float`, `int`, `u.Unit`, `ascii.read` and files, as called in `exorad/tasks/loadOptions.py:62-223`. -/
structure Py where
  /-- `int(s)` -/
  int : String → Option Int
  /-- `float(s)` -/
  float : String → Option Rat
  /-- `u.Unit(s)`: canonical name, or `none` for ValueError -/
  unit : String → Option String
  /-- `ascii.read(os.path.expanduser(f), format="ecsv", ...)`; `none` for InconsistentTableError -/
  readEcsv : String → Option (Except Exc Opt)
  /-- `ascii.read(os.path.expanduser(f), format="csv", ...)` -/
  readCsv : String → Except Exc Opt
  /-- `exorad.output.hdf5.load` -/
  loadH5 : String → Except Exc (Dict String Opt)
  /-- `open`, `pickle.load` -/
  loadPickle : String → Except Exc (Dict String Opt)

/-- State that outlives a call: `self.configPath` (line 55) and the process-global
`PassVal.working_R` (`exorad/utils/passVal.py:24-41`). -/
structure St where
  configPath : Option Scalar
  workingR : Scalar

/-- Initial process state: `configPath = None`, `_working_R = 6000`
(`exorad/utils/passVal.py:30`). -/
def St.init : St := { configPath := none, workingR := .int 6000 }

/-- The parser: exceptions keep the state changes made before them. `exorad/tasks/loadOptions.py:70-181`. -/
abbrev P (β : Type) := St → St × Except Exc β

namespace P
/-- A result (`exorad/tasks/loadOptions.py:70-181`). -/
def pure {β : Type} (x : β) : P β := fun s => (s, .ok x)
/-- One statement after the other (`exorad/tasks/loadOptions.py:70-181`). -/
def bind {β γ : Type} (m : P β) (f : β → P γ) : P γ := fun s =>
  match m s with
  | (s', .ok x) => f x s'
  | (s', .error e) => (s', .error e)
/-- An exception (`exorad/tasks/loadOptions.py:70-181`). -/
def raise {β : Type} (e : Exc) : P β := fun s => (s, .error e)
/-- A call without effect on the state (`exorad/tasks/loadOptions.py:70-181`). -/
def ofExcept {β : Type} (e : Except Exc β) : P β := fun s => (s, e)
end P

instance : Monad P where
  pure := P.pure
  bind := P.bind

/-- ASCII blanks removed by `strip`. `exorad/tasks/loadOptions.py:12`. -/
def blank (c : Char) : Bool := c = ' ' || c = '\t' || c = '\n' || c = '\r' || c = '\x0b' || c = '\x0c'

/-- `compactString` (line 12): remove newlines, then strip. -/
def compactString (s : String) : String :=
  let l := s.toList.filter (fun c => c != '\n')
  let l := l.dropWhile blank
  String.ofList ((l.reverse.dropWhile blank).reverse)

/-- `pat in s` / `s.replace(pat, rep)`: leftmost, non overlapping occurrences. `skip` counts the
characters of the current occurrence still to be dropped. `exorad/tasks/loadOptions.py:98-103`, `:139-143`, `:155`, `:167`. -/
def replaceFrom (pat rep : List Char) : Nat → List Char → List Char
  | _, [] => []
  | k + 1, _ :: s => replaceFrom pat rep k s
  | 0, c :: s =>
    if pat.isPrefixOf (c :: s) then rep ++ replaceFrom pat rep (pat.length - 1) s
    else c :: replaceFrom pat rep 0 s

/-- `exorad/tasks/loadOptions.py:98-103`, `:139-143`. -/
def placeholder : String := "__ConfigPath__"

/-- `value.replace("__ConfigPath__", self.configPath)`; TypeError unless the path is a string. `exorad/tasks/loadOptions.py:98-103`, `:139-143`, `:155`, `:167`. -/
def replaceConfig (v : String) (path : Option Scalar) : Except Exc String :=
  match path with
  | some (.str p) => .ok (String.ofList (replaceFrom placeholder.toList p.toList 0 v.toList))
  | _ => .error .typeError

/-- Lines 81-88: `int`, else `float` unless the text is only dots, else the text itself. -/
def typeNumber (py : Py) (v : String) : Scalar :=
  match py.int v with
  | some n => .int n
  | none =>
    if v.toList.filter (fun c => c != '.') ≠ [] then
      match py.float v with
      | some q => .float q
      | none => .str v
    else .str v

/-- Lines 89-93: `value * u.Unit(unitName)`. A string times a unit is parsed as a unit by astropy
(`Unit(value) * unit`); the product of two units is only named. -/
def applyUnit (py : Py) (v : Scalar) (unitName : String) : Except Exc Scalar :=
  match py.unit (if unitName = "dimensionless" then "" else unitName) with
  | none => .error .valueError
  | some u =>
    match v with
    | .int n => .ok (.qty true n u)
    | .float q => .ok (.qty false q u)
    | .str s =>
      match py.unit s with
      | some u' => .ok (.unit (u' ++ " " ++ u))
      | none => .error .valueError
    | v => .ok v

/-- Lines 94-97: the texts `True` and `False`. -/
def typeBool : Scalar → Scalar
  | .str s => if s = "True" then .bool true else if s = "False" then .bool false else .str s
  | v => v

/-- Lines 76-77: attributes overwrite entries of the same name. -/
def addAttribs (d : Dict String Opt) (attrib : List (String × String)) : Dict String Opt :=
  attrib.foldl (fun d p => d.set p.1 (.scalar (.str p.2))) d

/-- Lines 98-102. -/
def substConfig (v : Scalar) : P Scalar := fun s =>
  match v with
  | .str t =>
    if substr placeholder t then
      match replaceConfig t s.configPath with
      | .ok t' => (s, .ok (.str t'))
      | .error e => (s, .error e)
    else (s, .ok v)
  | v => (s, .ok v)

/-- Lines 103-109: effects of a value on the state. `cfg` is the `config_path` parameter
(`None` and the empty string are falsy). -/
def effects (cfg : Option String) (tag : String) (v : Scalar) : P Unit := fun s =>
  let s := if tag = "ConfigPath" then { s with configPath := some v } else s
  let s := match cfg with
    | some c => if c ≠ "" then { s with configPath := some (.str c) } else s
    | none => s
  let s := if tag = "working_R" then { s with workingR := v } else s
  (s, .ok ())

/-- The `unit` entry of an element as used on line 90 (an attribute, or a child element's dict,
which `u.Unit` rejects with TypeError). -/
def unitName (d : Dict String Opt) : Option (Except Exc String) :=
  match d.get? "unit" with
  | none => none
  | some (.scalar (.str s)) => some (.ok s)
  | some _ => some (.error .typeError)

/-- Lines 89-93. -/
def withUnit (py : Py) (d : Dict String Opt) (v : Scalar) : Except Exc Scalar :=
  match unitName d with
  | none => .ok v
  | some (.error e) => .error e
  | some (.ok u) => applyUnit py v u

/-- Lines 79-113: type the text of an element. Returns the value used as dictionary key (the empty
string if there is no text) and the element's dictionary. -/
def elementValue (py : Py) (cfg : Option String) (tag : String) (text : Option String)
    (retval : Dict String Opt) : P (Scalar × Dict String Opt) :=
  match text with
  | none => P.raise .attributeError
  | some t =>
    let v := compactString t
    if v = "" then P.pure (.str "", retval)
    else
      P.bind (P.ofExcept (withUnit py retval (typeNumber py v))) fun v =>
      P.bind (substConfig (typeBool v)) fun v =>
      P.bind (effects cfg tag v) fun _ =>
      P.pure (v, retval.set "value" (.scalar v))

/-- Lines 115-128: store an element under its tag; a repeated tag becomes an `OrderedDict` keyed by
value. -/
def addEntry (root : Dict String Opt) (tag : String) (value : Scalar) (retval : Dict String Opt) :
    Except Exc (Dict String Opt) :=
  match root.get? tag with
  | none => .ok (root.set tag (.dict retval))
  | some (.odict d) => .ok (root.set tag (.odict (Dict.set d value.key (.dict retval))))
  | some (.dict d) =>
    match Dict.get? d "value" with
    | some (.scalar v) =>
      .ok (root.set tag (.odict (Dict.set [(v.key, .dict d)] value.key (.dict retval))))
    | some _ => .error .typeError
    | none => .error .keyError
  | some _ => .error .typeError

/-- The string under `d["value"]` of a `datafile`, `datadict` or `config_dict` entry. Another value than a text has no `in` (`datafile`,
TypeError) or no `replace` (AttributeError): `wrong`. `exorad/tasks/loadOptions.py:137-144`, `:155`, `:167`. -/
def fileValue (wrong : Exc) (o : Opt) : Except Exc String :=
  match o with
  | .dict d =>
    match Dict.get? d "value" with
    | some (.scalar (.str s)) => .ok s
    | some _ => .error wrong
    | none => .error .keyError
  | .odict d =>
    match Dict.get? d (.str "value") with
    | some _ => .error wrong
    | none => .error .keyError
  | _ => .error .keyError

/-- Lines 131-135: the section's `datatype` is `ecsv`, which it is if there is none or it has no text. -/
def isEcsv (root : Dict String Opt) : Bool :=
  match root.get? "datatype" with
  | some (.dict d) =>
    match Dict.get? d "value" with
    | some (.scalar (.str s)) => s = "ecsv"
    | some _ => false
    | none => true
  | some (.odict d) =>
    match Dict.get? d (.str "value") with
    | some _ => false
    | none => true
  | _ => true

/-- Lines 186-205 `__read_datatable__`. -/
def readTable (py : Py) (ecsv : Bool) (f : String) : Except Exc Opt :=
  if ecsv then
    match py.readEcsv f with
    | some r => r
    | none => py.readCsv f
  else .error .osError

/-- Lines 207-223 `__read_datadict__`. -/
def readDict (py : Py) (f : String) : Except Exc (Dict String Opt) :=
  if pathExt f = ".h5" ∨ pathExt f = ".hdf5" then py.loadH5 f
  else if pathExt f = ".pickle" then py.loadPickle f
  else .error .osError

/-- Lines 130-150: `datafile`. -/
def loadDatafile (py : Py) (root : Dict String Opt) : P (Dict String Opt) := fun s =>
  match root.get? "datafile" with
  | none => (s, .ok root)
  | some o =>
    match fileValue .typeError o with
    | .error e => (s, .error e)
    | .ok f =>
      match (if substr placeholder f then replaceConfig f s.configPath else .ok f) with
      | .error e => (s, .error e)
      | .ok f =>
        match readTable py (isEcsv root) f with
        | .ok t => (s, .ok (root.set "data" t))
        | .error e => (s, .error e)

/-- Lines 152-163: `datadict` (the placeholder is replaced unconditionally, so a missing
`configPath` is a TypeError). -/
def loadDatadict (py : Py) (root : Dict String Opt) : P (Dict String Opt) := fun s =>
  match root.get? "datadict" with
  | none => (s, .ok root)
  | some o =>
    match fileValue .attributeError o with
    | .error e => (s, .error e)
    | .ok f =>
      match replaceConfig f s.configPath with
      | .error e => (s, .error e)
      | .ok f =>
        match readDict py f with
        | .ok d => (s, .ok (root.set "data" (.dict d)))
        | .error e => (s, .error e)

/-- Lines 164-179: `config_dict` replaces the whole dictionary. -/
def loadConfigDict (py : Py) (root : Dict String Opt) : P (Dict String Opt) := fun s =>
  match root.get? "config_dict" with
  | none => (s, .ok root)
  | some o =>
    match fileValue .attributeError o with
    | .error e => (s, .error e)
    | .ok f =>
      match replaceConfig f s.configPath with
      | .error e => (s, .error e)
      | .ok f =>
        match readDict py f with
        | .ok d => (s, .ok (d.set "config_dict" (.scalar (.str f))))
        | .error e => (s, .error e)

/-- Lines 130-181. -/
def finish (py : Py) (root : Dict String Opt) : P (Dict String Opt) :=
  P.bind (loadDatafile py root) fun r => P.bind (loadDatadict py r) fun r => loadConfigDict py r

mutual
/-- Lines 70-181 `__parser__`. -/
def parser (py : Py) (cfg : Option String) : Xml → P (Dict String Opt)
  | .node _ _ _ chs => P.bind (parseChildren py cfg chs []) fun root => finish py root
/-- Lines 73-128: the loop over the children. -/
def parseChildren (py : Py) (cfg : Option String) : List Xml → Dict String Opt →
    P (Dict String Opt)
  | [], root => P.pure root
  | .node tag attrib text chs :: rest, root =>
    P.bind (P.bind (parseChildren py cfg chs []) fun r => finish py r) fun sub =>
    P.bind (elementValue py cfg tag text (addAttribs sub attrib)) fun p =>
    P.bind (P.ofExcept (addEntry root tag p.1 p.2)) fun root' =>
    parseChildren py cfg rest root'
end

/-- Lines 46-68 `execute`: extension check, file lookup (`files` is the file system: `none` for a
missing file), parse. -/
def loadOptions (py : Py) (files : String → Option Xml) (filename : String) (cfg : Option String) :
    P (Dict String Opt) := fun s =>
  if ".xml".toList.isSuffixOf filename.toList then
    match files filename with
    | none => (s, .error .osError)
    | some root => parser py cfg root s
  else (s, .error .osError)

end ExoRad.Options
