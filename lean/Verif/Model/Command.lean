import Verif.Model.Py

/-!
# The command lines: `exorad/exorad.py` `main` and `exorad/utils/plotter.py` `main`

Both build an `argparse.ArgumentParser` of options without positional arguments and call the pipeline, or plot, with the
result. `argparse` of the standard library is modelled as far as these parsers use it (Python 3.8 to 3.11): exact spellings, unique
prefixes of long options, values in the next word or after `=` or glued to a short option, clusters of short flags. Every
usage error, and `-h`, ends the process (`SystemExit`) before anything else is done; what is printed is not modelled, nor
is the word `--`, which is taken here for a usage error. A word is a list of characters.
-/

namespace ExoRad.Command

/-- A word of the command line (`sys.argv`, read by `exorad/exorad.py:199` and `exorad/utils/plotter.py:473`). -/
abbrev Word := List Char

/-- What an option takes: nothing (`store_true`), a string, an integer, or it prints the help.
The arguments of `add_argument` in `exorad/exorad.py:128-197` and `exorad/utils/plotter.py:428-471`. -/
inductive Kind where
  | flag | str | int | help
deriving DecidableEq, Repr

/-- An option: `-c`, `--long`, where its value goes, whether it is required. `add_argument` in `exorad/exorad.py:128-197` and `exorad/utils/plotter.py:428-471`. -/
structure Opt where
  short : Char
  long : Word
  dest : String
  kind : Kind
  required : Bool := false
deriving DecidableEq, Repr

/-- A value in the namespace. What `exorad/exorad.py:199-210` and `exorad/utils/plotter.py:473-513` get as `args.<dest>`. -/
inductive Val where
  | str (w : Word)
  | int (n : Int)
  | bool (b : Bool)
deriving DecidableEq, Repr

/-- The first argument of `add_argument`, as `-p` in `exorad/exorad.py:129`. -/
def Opt.shortWord (o : Opt) : Word := ['-', o.short]
/-- The second argument of `add_argument`, as `--payload` in `exorad/exorad.py:130`. -/
def Opt.longWord (o : Opt) : Word := '-' :: '-' :: o.long

/-- What a word of the command line is. -/
inductive Class where
  /-- A value -/
  | arg
  /-- An option, whether written with one dash, and the value glued to it -/
  | opt (o : Opt) (single : Bool) (value : Option Word)
  /-- An unknown or ambiguous option -/
  | bad
deriving DecidableEq, Repr

/-- `w in option_string_actions`. Part of `argparse` as called by `exorad/exorad.py:199` and `exorad/utils/plotter.py:473`. -/
def exact (p : List Opt) (w : Word) : Option (Opt × Bool) :=
  match p.find? (fun o => o.shortWord = w) with
  | some o => some (o, true)
  | none =>
    match p.find? (fun o => o.longWord = w) with
    | some o => some (o, false)
    | none => none

/-- `s.split('=', 1)`: what is before the first `=` and what is after it, if there is one.
Part of `argparse` as called by `exorad/exorad.py:199` and `exorad/utils/plotter.py:473`. -/
def cut : Word → Word × Option Word
  | [] => ([], none)
  | c :: w => if c = '=' then ([], some w) else ((c :: (cut w).1), (cut w).2)

/-- An ASCII digit, for `negative`: part of `argparse` as called by `exorad/exorad.py:199` and `exorad/utils/plotter.py:473`. -/
def isDigit (c : Char) : Bool := '0' ≤ c && c ≤ '9'

/-- `^-\d+$|^-\d*\.\d+$` after the dash (ASCII digits). Part of `argparse` as called by `exorad/exorad.py:199` and `exorad/utils/plotter.py:473`. -/
def negative (w : Word) : Bool :=
  (!w.isEmpty && w.all isDigit) ||
    (match w.dropWhile isDigit with
     | '.' :: t => !t.isEmpty && t.all isDigit
     | _ => false)

/-- The options a prefix may stand for (`_get_option_tuples`). Part of `argparse` as called by `exorad/exorad.py:199` and `exorad/utils/plotter.py:473`. -/
def guess (p : List Opt) (w : Word) : List Class :=
  match w with
  | '-' :: '-' :: _ => (p.filter (fun o => (cut w).1.isPrefixOf o.longWord)).map (fun o => .opt o false (cut w).2)
  | '-' :: c :: v => (p.filter (fun o => o.short = c)).map (fun o => .opt o true (some v))
  | _ => []

/-- An option, a `=` and a value in one word (`_parse_optional`). Part of `argparse` as called by `exorad/exorad.py:199` and `exorad/utils/plotter.py:473`. -/
def withEq (p : List Opt) (w : Word) : Option Class :=
  match (cut w).2 with
  | none => none
  | some v =>
    match exact p (cut w).1 with
    | none => none
    | some (o, single) => some (.opt o single (some v))

/-- `_parse_optional`: what a word is, for the parser with the options `p`. Part of `argparse` as called by `exorad/exorad.py:199` and `exorad/utils/plotter.py:473`. -/
def classify (p : List Opt) (w : Word) : Class :=
  match w with
  | '-' :: rest =>
    match exact p w with
    | some (o, single) => .opt o single none
    | none =>
      if rest = [] then .arg else
      match withEq p w with
      | some c => c
      | none =>
        match guess p w with
        | [c] => c
        | _ :: _ :: _ => .bad
        | [] => if negative rest then .arg else if w.contains ' ' then .arg else .bad
  | _ => .arg

/-- The namespace: what was set, in order. `args` in `exorad/exorad.py:199` and `exorad/utils/plotter.py:473`. -/
abbrev Sets := List (String × Val)

/-- The value of an option, converted (`type=int`).
`exorad/exorad.py:162-170`; part of `argparse` as called by `exorad/exorad.py:199` and `exorad/utils/plotter.py:473`. -/
def convert (int : Word → Option Int) (o : Opt) (v : Word) : Except Exc Val :=
  match o.kind with
  | .int => match int v with | some n => .ok (.int n) | none => .error .systemExit
  | _ => .ok (.str v)

/-- `consume_optional`, the loop over a cluster: `o` is a flag written with one dash, `v` is what follows it in the word. The flags of the cluster, and
the option taking a value it ends with, if any, with what follows that. Part of `argparse` as called by `exorad/exorad.py:199` and `exorad/utils/plotter.py:473`. -/
def cluster (p : List Opt) (o : Opt) : Word → Except Exc (List Opt × Option (Opt × Option Word))
  | [] => .error .systemExit
  | c :: cs =>
    match p.find? (fun o => o.short = c) with
    | none => .error .systemExit
    | some o' =>
      match o'.kind with
      | .help => .error .systemExit
      | .flag =>
        match cs with
        | [] => .ok ([o, o'], none)
        | _ :: _ =>
          match cluster p o' cs with
          | .error e => .error e
          | .ok (os, r) => .ok (o :: os, r)
      | _ => .ok ([o], some (o', match cs with | [] => none | _ :: _ => some cs))

/-- `action="store_true"`, as in `exorad/exorad.py:153-161`. -/
def setFlag (o : Opt) : String × Val := (o.dest, .bool true)

/-- What one word sets, and the option that still wants a value from the next word.
Part of `argparse` as called by `exorad/exorad.py:199` and `exorad/utils/plotter.py:473`. -/
def optWord (p : List Opt) (int : Word → Option Int) (o : Opt) (single : Bool) (v : Option Word) : Except Exc (Sets × Option Opt) :=
  match o.kind, v with
  | .help, _ => .error .systemExit
  | .flag, none => .ok ([setFlag o], none)
  | .flag, some v =>
    if single then
      match cluster p o v with
      | .error e => .error e
      | .ok (os, none) => .ok (os.map setFlag, none)
      | .ok (os, some (o', none)) => .ok (os.map setFlag, some o')
      | .ok (os, some (o', some v')) =>
        match convert int o' v' with
        | .error e => .error e
        | .ok x => .ok (os.map setFlag ++ [(o'.dest, x)], none)
    else .error .systemExit
  | _, none => .ok ([], some o)
  | _, some v =>
    match convert int o v with
    | .error e => .error e
    | .ok x => .ok ([(o.dest, x)], none)

/-- The words of the command line, from the left; `wants` is the option whose value is due. A value nobody wants and an unknown option are
usage errors (there are no positional arguments). -/
def consume (p : List Opt) (int : Word → Option Int) : Option Opt → List Word → Except Exc Sets
  | none, [] => .ok []
  | some _, [] => .error .systemExit
  | some o, w :: ws =>
    match classify p w with
    | .arg =>
      match convert int o w with
      | .error e => .error e
      | .ok x =>
        match consume p int none ws with
        | .error e => .error e
        | .ok r => .ok ((o.dest, x) :: r)
    | _ => .error .systemExit
  | none, w :: ws =>
    match classify p w with
    | .opt o single v =>
      match optWord p int o single v with
      | .error e => .error e
      | .ok (s, wants) =>
        match consume p int wants ws with
        | .error e => .error e
        | .ok r => .ok (s ++ r)
    | _ => .error .systemExit

/-- `parser.parse_args()`: all required options must be set. `exorad/exorad.py:199`, `exorad/utils/plotter.py:473`. -/
def parse (p : List Opt) (int : Word → Option Int) (ws : List Word) : Except Exc Sets :=
  match consume p int none ws with
  | .error e => .error e
  | .ok s => if p.all (fun o => !o.required || (s.map Prod.fst).contains o.dest) then .ok s else .error .systemExit

/-- `args.<dest>`: the last value set, or the default. `exorad/exorad.py:201-210`, `exorad/utils/plotter.py:481-513`. -/
def value (s : Sets) (dest : String) (default : Val) : Val :=
  match (s.reverse.find? (fun q => q.1 = dest)) with
  | some q => q.2
  | none => default

/-! ## `exorad` -/

/-- `-h` of `ArgumentParser` (`exorad/exorad.py:127`, `exorad/utils/plotter.py:425-427`). -/
def helpOpt : Opt := ⟨'h', "help".toList, "help", .help, false⟩

/-- `exorad/exorad.py:127-196`: the options of `exorad`. -/
def exoradOpts : List Opt :=
  [ helpOpt,
    ⟨'p', "payload".toList, "opt", .str, true⟩,
    ⟨'t', "targetList".toList, "targetList", .str, true⟩,
    ⟨'o', "output".toList, "output", .str, false⟩,
    ⟨'c', "full_contrib".toList, "contrib", .flag, false⟩,
    ⟨'n', "nThreads".toList, "numberOfThreads", .int, false⟩,
    ⟨'d', "debug".toList, "debug", .flag, false⟩,
    ⟨'l', "log".toList, "log", .flag, false⟩,
    ⟨'P', "plot".toList, "plot", .flag, false⟩ ]

/-- The arguments of the call of `standard_pipeline`. -/
structure Call where
  options : Val
  targetList : Val
  /-- `None` if not given -/
  output : Option Val
  plot : Val
  fullContrib : Val
  debug : Val
  nThread : Val
  log : Val
  replace : Bool
deriving DecidableEq, Repr

/-- `exorad/exorad.py:198-209`: the call. `replace` is not passed, so it is True. -/
def callOf (s : Sets) : Call where
  options := value s "opt" (.str [])
  targetList := value s "targetList" (.str [])
  output := if (s.map Prod.fst).contains "output" then some (value s "output" (.str [])) else none
  plot := value s "plot" (.bool false)
  fullContrib := value s "contrib" (.bool false)
  debug := value s "debug" (.bool false)
  nThread := value s "numberOfThreads" (.int 1)
  log := value s "log" (.bool false)
  replace := true

/-- `exorad/exorad.py:124-209` `main`. -/
def main (int : Word → Option Int) (ws : List Word) : Except Exc Call :=
  match parse exoradOpts int ws with
  | .error e => .error e
  | .ok s => .ok (callOf s)

/-! ## `exorad-plot` -/

/-- `exorad/utils/plotter.py:425-471`: the options of `exorad-plot`. -/
def plotOpts : List Opt :=
  [ helpOpt,
    ⟨'i', "input".toList, "input", .str, true⟩,
    ⟨'o', "out".toList, "out", .str, true⟩,
    ⟨'n', "target-number".toList, "target_number", .str, false⟩,
    ⟨'t', "target-name".toList, "target_name", .str, false⟩,
    ⟨'d', "debug".toList, "debug", .flag, false⟩ ]

/-- What `exorad-plot` works on: the input file, the output directory, the selections, `debug`. `exorad/utils/plotter.py:481-513`. -/
structure PlotCall where
  input : Val
  out : Val
  targetNumber : Val
  targetName : Val
  debug : Val
deriving DecidableEq, Repr

/-- `exorad/utils/plotter.py:420-473`: the arguments of the command. -/
def plotMain (int : Word → Option Int) (ws : List Word) : Except Exc PlotCall :=
  match parse plotOpts int ws with
  | .error e => .error e
  | .ok s => .ok
    { input := value s "input" (.str [])
      out := value s "out" (.str "None".toList)
      targetNumber := value s "target_number" (.str "all".toList)
      targetName := value s "target_name" (.str "None".toList)
      debug := value s "debug" (.bool false) }

end ExoRad.Command
