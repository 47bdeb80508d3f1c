/-!
# Python values shared by the model: exceptions, dictionaries, substring tests
-/

namespace ExoRad

/-- The Python exception classes that the modelled code raises.
Raised or caught in `exorad/tasks/*.py`, `exorad/models/*.py`, `exorad/output/hdf5/*.py` (each use is cited where it occurs). -/
inductive Exc where
  | valueError | keyError | typeError | indexError | attributeError | osError
  | unboundLocalError | notImplementedError | systemExit
deriving DecidableEq, Repr

/-- Python `dict` / `OrderedDict` / astropy column list: insertion-ordered association list.
As in `exorad/tasks/loadOptions.py:71`, `:122`, `exorad/tasks/targetHandler.py:386-401`, and the tables of all tasks. -/
abbrev Dict (κ ν : Type) := List (κ × ν)

namespace Dict
variable {κ ν : Type} [DecidableEq κ]

/-- `d.get(k)`. For the dictionaries of `exorad/tasks/loadOptions.py:70-181` and everything that reads them. -/
def get? : Dict κ ν → κ → Option ν
  | [], _ => none
  | (k', v) :: d, k => if k' = k then some v else get? d k

/-- `k in d`. As in `exorad/tasks/loadOptions.py:115`, `exorad/tasks/targetHandler.py:247`. -/
def has (d : Dict κ ν) (k : κ) : Bool := (d.map Prod.fst).contains k

/-- `list(d.keys())`. As in `exorad/tasks/instrumentHandler.py:124`, `exorad/models/noise.py:130`. -/
def keys (d : Dict κ ν) : List κ := d.map Prod.fst

/-- `d[k] = v`: an existing key keeps its position and gets the new value; a new key goes last.
As in `exorad/tasks/loadOptions.py:77`, `:113`, `exorad/models/noise.py:133`. -/
def set : Dict κ ν → κ → ν → Dict κ ν
  | [], k, v => [(k, v)]
  | (k', v') :: d, k, v => if k' = k then (k', v) :: d else (k', v') :: set d k v

/-- `d[k]`, raising KeyError. As in `exorad/models/noise.py:32-52`, `exorad/tasks/instrumentHandler.py:125`. -/
def getE (d : Dict κ ν) (k : κ) : Except Exc ν :=
  match d.get? k with
  | some v => .ok v
  | none => .error .keyError

/-- `del d[k]` for all given keys (astropy `remove_columns`). As in `exorad/exorad.py:97`, `exorad/tasks/targetHandler.py:127-147`. -/
def removeAll (d : Dict κ ν) (ks : List κ) : Dict κ ν := d.filter (fun p => !ks.contains p.1)

end Dict

/-- Python `pre == s[:len(pre)]` on character lists. For `substr`, as in `exorad/models/noise.py:130`. -/
def isPrefixOfChars (p s : List Char) : Bool := p.isPrefixOf s

/-- Python `sub in s` on character lists. For `substr`, as in `exorad/models/noise.py:130`. -/
def isInfixOfChars (sub : List Char) : List Char → Bool
  | [] => sub.isEmpty
  | c :: s => sub.isPrefixOf (c :: s) || isInfixOfChars sub s

/-- Python `sub in s` for strings. As in `exorad/models/noise.py:130`, `exorad/tasks/loadOptions.py:99`, `exorad/output/hdf5/util.py:37`. -/
def substr (sub s : String) : Bool := isInfixOfChars sub.toList s.toList

/-- The characters before the last dot, and from it on. For `ext`: `exorad/tasks/loadOptions.py:208`, `exorad/tasks/targetHandler.py:48`. -/
def splitLast : List Char → Option (List Char × List Char)
  | [] => none
  | c :: s =>
    match splitLast s with
    | some (a, b) => some (c :: a, b)
    | none => if c = '.' then some ([], c :: s) else none

/-- `os.path.splitext(name)[1]` of a name without `/`: from the last dot on, unless only dots come before it.
`exorad/tasks/loadOptions.py:208`, `exorad/tasks/targetHandler.py:48`. -/
def ext (name : String) : String :=
  match splitLast name.toList with
  | some (a, b) => if a.any (· != '.') then String.ofList b else ""
  | none => ""

/-- `os.path.basename`: the characters after the last `/`. For `pathExt`: `exorad/tasks/loadOptions.py:208`, `exorad/tasks/targetHandler.py:48`. -/
def baseChars : List Char → List Char
  | [] => []
  | c :: s => if (c :: s).contains '/' then baseChars s else c :: s

/-- `os.path.splitext(path)[1]`. `exorad/tasks/loadOptions.py:208`, `exorad/tasks/targetHandler.py:48`. -/
def pathExt (path : String) : String := ext (String.ofList (baseChars path.toList))

end ExoRad
