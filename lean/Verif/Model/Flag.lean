import Verif.Model.Cli

/-! Model of how `flag.Parse()` (main.go:50) reads the arguments, for the flags main.go:35-48 declares.
The package is github.com/clipperhouse/flag, which is not in /repo; it is taken to parse as the standard
library's `flag` package of which it is a fork, following the documentation and source of
`FlagSet.parseOne`. -/

namespace Jargon

/-- Boolean flags need no argument. -/
inductive FlagKind where
  | bool | string
deriving DecidableEq, Repr

/-- main.go:35-48: the declared flags. -/
def declaredFlags : List (Bytes × FlagKind) :=
  [(str "stack", .bool), (str "contractions", .bool), (str "ascii", .bool), (str "stem", .bool),
   (str "lang", .string), (str "html", .bool), (str "file", .string), (str "out", .string),
   (str "lemmas", .bool), (str "count", .bool), (str "lines", .bool), (str "distinct", .bool),
   (str "version", .bool)]

/-- The value a flag is set to. -/
inductive FlagValue where
  | bool (b : Bool)
  | string (s : Bytes)
deriving DecidableEq, Repr

/-- Why parsing fails (the program then prints it and exits with code 2). -/
inductive FlagErr where
  | badSyntax | help | notDefined | badBool | needsArgument
deriving DecidableEq, Repr

/-- `strconv.ParseBool`. -/
def parseBool (s : Bytes) : Option Bool :=
  if s ∈ ["1", "t", "T", "true", "TRUE", "True"].map str then some true
  else if s ∈ ["0", "f", "F", "false", "FALSE", "False"].map str then some false
  else none

/-- The loop of `parseOne` that looks for an equals sign, not at the first place. -/
def splitEquals : Bytes → Bytes × Option Bytes
  | [] => ([], none)
  | c :: cs =>
    match cs.findIdx? (· == 0x3D) with
    | none => (c :: cs, none)
    | some i => (c :: cs.take i, some (cs.drop (i + 1)))

/-- `FlagSet.Parse`: the settings made, in order. -/
def parseFlags : List Bytes → Except FlagErr (List (Bytes × FlagValue))
  | [] => .ok []
  | s :: rest =>
    if s.length < 2 ∨ s.head? ≠ some 0x2D then .ok []
    else if s = str "--" then .ok []
    else
      let name := if s.drop 1 |>.head? |> (· = some 0x2D) then s.drop 2 else s.drop 1
      if name = [] ∨ name.head? = some 0x2D ∨ name.head? = some 0x3D then .error .badSyntax
      else
        let (name, value) := splitEquals name
        match declaredFlags.lookup name with
        | none => if name = str "help" ∨ name = str "h" then .error .help else .error .notDefined
        | some .bool =>
          match value with
          | none => (parseFlags rest).map ((name, .bool true) :: ·)
          | some v =>
            match parseBool v with
            | none => .error .badBool
            | some b => (parseFlags rest).map ((name, .bool b) :: ·)
        | some .string =>
          match value with
          | some v => (parseFlags rest).map ((name, .string v) :: ·)
          | none =>
            match rest with
            | [] => .error .needsArgument
            | v :: rest => (parseFlags rest).map ((name, .string v) :: ·)
termination_by args => args.length

/-- main.go:35-48: what setting a flag does to the values `main` uses. The flags that ask for filters are
set too, but their values are not looked at. -/
def setFlag (f : Flags) : Bytes × FlagValue → Flags
  | (name, .bool b) =>
    if name = str "html" then { f with html := b }
    else if name = str "count" then { f with count := b }
    else if name = str "lines" then { f with lines := b }
    else if name = str "version" then { f with version := b }
    else f
  | (name, .string s) =>
    if name = str "lang" then { f with lang := s }
    else if name = str "file" then { f with filein := s }
    else if name = str "out" then { f with fileout := s }
    else f

/-- main.go:35-50: the values after `flag.Parse()`; of several settings of a flag the last one counts. -/
def flagValues (settings : List (Bytes × FlagValue)) : Flags := settings.foldl setFlag {}

/-- main.go:21-115: the whole program, given its arguments `os.Args[1:]`. If they cannot be parsed, it
prints why and exits with code 2. -/
def jargonMain {ω : Type} (W : World ω) (args : List Bytes) :
    Go (Except FlagErr (Exit × Option (Place × BufWriter ω))) :=
  match parseFlags args with
  | .error e => Go.ret (.error e)
  | .ok settings => do
    let r ← cliMain W (flagValues settings) args
    pure (.ok r)

end Jargon
