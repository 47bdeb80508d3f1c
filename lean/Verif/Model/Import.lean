import Verif.Model.Misc
import Verif.Model.Log

/-!
# Importing the package: `exorad/__init__.py`, `exorad/utils/version_control.py`

`import exorad` reads the git directory next to the package, if there is one, and then looks for a newer version on the network. The
network is a parameter: whether 8.8.8.8:53 can be reached, and what the request gives. A text is a list of characters. Not modelled:
the metadata of the installed package (only its `Project-URL` and version enter), importing the other modules, and how long
a request takes (`requests.get` is called without a timeout of its own).
-/

namespace ExoRad.Import

/-- What a path of the git directory is. Opened in `exorad/__init__.py:24-32`. -/
inductive File where
  | missing
  | directory
  | text (t : List Char)
deriving DecidableEq, Repr

/-- `.git` next to the package. `exorad/__init__.py:20-23`. -/
inductive GitDir where
  /-- There is none -/
  | absent
  /-- It is a file (a worktree or a submodule) -/
  | file
  /-- It is a directory with these entries -/
  | dir (entry : List Char → File)

/-- `str.strip()` with the blanks of ASCII. `exorad/__init__.py:25`, `:30`. -/
def isBlank (c : Char) : Bool := c = ' ' || c = '\n' || c = '\t' || c = '\r' || c.toNat = 11 || c.toNat = 12

/-- `str.strip()` (`exorad/__init__.py:25`, `:30`). -/
def strip (s : List Char) : List Char := ((s.dropWhile isBlank).reverse.dropWhile isBlank).reverse

/-- `HEAD`. `exorad/__init__.py:24`. -/
def headName : List Char := "HEAD".toList

/-- `__branch__` and `__commit__`. `exorad/__init__.py:18-32`. -/
structure Provenance where
  branch : Option (List Char)
  commit : Option (List Char)
deriving DecidableEq, Repr

/-- `exorad/__init__.py:30-34`: only a missing file is caught. -/
def commitOf (f : File) : Except Exc (Option (List Char)) :=
  match f with
  | .missing => .ok none
  | .directory => .error .osError
  | .text t => .ok (some (strip t))

/-- `exorad/__init__.py:18-34`. An entry with an empty name is the git directory itself. -/
def provenance (g : GitDir) : Except Exc Provenance :=
  match g with
  | .absent => .ok ⟨none, none⟩
  | .file => .error .osError
  | .dir entry =>
    match entry headName with
    | .missing => .error .osError
    | .directory => .error .osError
    | .text t =>
      let ref := strip t
      match commitOf (if ref.drop 5 = [] then .directory else entry (ref.drop 5)) with
      | .error e => .error e
      | .ok c => .ok ⟨some (ref.drop 16), c⟩

/-- The body of an answer with status 200. `exorad/utils/version_control.py:53-54`. -/
inductive Body where
  | notJson
  | noContent
  /-- `req["content"]`, decoded: `none` if it is not base 64 -/
  | content (bytes : Option (List Nat))
deriving DecidableEq, Repr

/-- An answer: the status, and the body. `exorad/utils/version_control.py:50-59`. -/
structure Answer where
  status : Nat
  body : Body
deriving DecidableEq, Repr

/-- The network. `exorad/utils/version_control.py:22-23`, `:50`, `:85-110`. -/
structure Net where
  /-- Whether a connection to 8.8.8.8:53 opens within 3 seconds; if not it is an `OSError` (refused, unreachable, timeout) -/
  reachable : Bool
  /-- `requests.get(url)`: `none` if it raises (`requests.ConnectionError` and the like are `OSError`s) -/
  get : List Char → Option Answer

/-- `bytes.decode("ascii")`. `exorad/utils/version_control.py:55`. -/
def ascii (bs : List Nat) : Except Exc (List Char) :=
  if bs.all (fun b => b < 128) then .ok (bs.map Char.ofNat) else .error .valueError

/-- The ends of lines of `str.splitlines()` among the ASCII characters, apart from `\r\n`. -/
def isLineEnd (c : Char) : Bool := c.toNat = 10 || c.toNat = 11 || c.toNat = 12 || c.toNat = 13 || c.toNat = 28 || c.toNat = 29 || c.toNat = 30

/-- `str.splitlines()`: `cur` is the line read so far, reversed; `cr` says that the last line ended with `\r`. -/
def splitLoop (cur : List Char) (cr : Bool) : List Char → List (List Char)
  | [] => if cur = [] then [] else [cur.reverse]
  | c :: cs =>
    if cr && c = '\n' then splitLoop cur false cs
    else if isLineEnd c then cur.reverse :: splitLoop [] (c = '\r') cs
    else splitLoop (c :: cur) false cs

/-- `str.splitlines()` (`exorad/utils/version_control.py:56`). -/
def splitlines (t : List Char) : List (List Char) := splitLoop [] false t

/-- `str.split("/")`. `exorad/utils/version_control.py:43`. -/
def splitSlash : List Char → List (List Char)
  | [] => [[]]
  | c :: cs =>
    match splitSlash cs with
    | [] => [[c]]
    | w :: ws => if c = '/' then [] :: w :: ws else (c :: w) :: ws

/-- `exorad/utils/version_control.py:43-48`: the address that is asked; `package_url` may be missing (`None`). -/
def address (url : Option (List Char)) : Except Exc (List Char) :=
  match url with
  | none => .error .attributeError
  | some u =>
    match (splitSlash u).reverse with
    | b :: a :: _ => .ok ("https://api.github.com/repos/".toList ++ a ++ '/' :: b ++ "/contents/CHANGELOG.md".toList)
    | _ => .error .indexError

/-- `exorad/utils/version_control.py:51-60`: the lines of an answer. -/
def linesOf (a : Answer) : Except Exc (Option (List (List Char))) :=
  if a.status = 200 then
    match a.body with
    | .notJson => .error .valueError
    | .noContent => .error .keyError
    | .content none => .error .valueError
    | .content (some bs) =>
      match ascii bs with
      | .error e => .error e
      | .ok t => .ok (some (splitlines t))
  else .ok none

/-- `exorad/utils/version_control.py:42-60` `get_content`. -/
def getContent (n : Net) (url : Option (List Char)) : Except Exc (Option (List (List Char))) :=
  match address url with
  | .error e => .error e
  | .ok u =>
    match n.get u with
    | none => .error .osError
    | some a => linesOf a

/-- What a process keeps of the check: the default timeout of its sockets in seconds (`none`: no timeout), the lines printed, and the log. -/
structure Proc where
  timeout : Option Nat
  printed : Nat
  log : Log.State

/-- The three warnings of `exorad/utils/version_control.py:26-33`. -/
def warnings (cur new msg : List Char) : List Log.Msg :=
  [⟨Log.WARNING, "### NEW CODE VERSION ONLINE ###"⟩,
    ⟨Log.WARNING, "your version: " ++ String.ofList cur ++ "  - online version:" ++ String.ofList new⟩,
    ⟨Log.WARNING, "changelog: \n " ++ String.ofList msg⟩]

/-- `exorad/utils/version_control.py:85-101` `_check_internet`: the timeout is that of the whole process. -/
def checkInternet (n : Net) (p : Proc) : Proc × Bool :=
  if n.reachable then ({ p with timeout := some 3 }, true) else ({ p with timeout := some 3, printed := p.printed + 1 }, false)

/-- `exorad/utils/version_control.py:21-33`: what follows from the lines. (Lines 34-40 raise with `force`, which is False in the only
call.) -/
def report (cur : List Char) (p : Proc) (ls : List (List Char)) : Proc :=
  match Misc.getMessage cur ls with
  | (msg, new) => if msg = [] then p else { p with log := Log.logAll p.log (warnings cur new msg) }

/-- `exorad/utils/version_control.py:16-40` `VersionControl()`. -/
def versionControl (n : Net) (url : Option (List Char)) (cur : List Char) (p : Proc) : Proc × Except Exc Unit :=
  match checkInternet n p with
  | (p', false) => (p', .ok ())
  | (p', true) =>
    match getContent n url with
    | .error e => (p', .error e)
    | .ok none => (p', .ok ())
    | .ok (some []) => (p', .ok ())
    | .ok (some (l :: ls)) => (report cur p' (l :: ls), .ok ())

/-- `exorad/__init__.py`: importing the package. -/
def importPackage (g : GitDir) (n : Net) (url : Option (List Char)) (cur : List Char) (p : Proc) : Proc × Except Exc Provenance :=
  match provenance g with
  | .error e => (p, .error e)
  | .ok v =>
    match versionControl n url cur p with
    | (p', .error e) => (p', .error e)
    | (p', .ok _) => (p', .ok v)

end ExoRad.Import
