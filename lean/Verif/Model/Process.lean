import Verif.Model.Flag
import Verif.Model.Strings
import Verif.Model.GenerateSource

/-! Model of what the program of cmd/jargon/main.go leaves behind: its exit code, what it printed, and what is in the
file it wrote. -/

namespace Jargon

/-- What is outside the program and not in `World`: the texts of errors, what the linker and the `flag` package put in,
and what closing a file does. -/
structure System where
  /-- `err.Error()` of the errors from elsewhere -/
  errorText : Err → Bytes
  /-- `strconv.IsPrint`, for `%q` -/
  isPrint : Rune → Bool
  /-- `flag.CommandLine.Name()` -/
  name : Bytes
  /-- what `flag.PrintDefaults()` writes to stderr -/
  defaults : Bytes
  /-- main.go:19, set when linking -/
  version : Bytes
  commit : Bytes
  date : Bytes
  /-- the exit code of `flag.Parse()` if the arguments cannot be parsed, and what it writes to stderr -/
  flagExit : FlagErr → Nat × Bytes
  /-- `Close()` of a file to which bytes were written: its error, and what is then in the file. What was written may be
  lost only now, if the system has kept it back. -/
  close : FileId → Bytes → Option Err × Bytes

/-- main.go:179 `langs`. -/
def langs : List Bytes := ["english", "french", "norwegian", "russian", "spanish", "swedish"].map str

/-- `err.Error()` of the errors of main.go:132, 133, 200, 262, 278, 281. -/
def CliErr.text (X : System) : CliErr → Bytes
  | .noInput => str "no input"
  | .twoInput => str "choose *either* an input -file argument *or* piped input"
  | .unknownLang lang =>
    str "lang " ++ quote X.isPrint lang ++ str " is not known by " ++ X.name ++ str "; options are " ++ join (str ", ") langs
  | .readerRequired => str "reader is required"
  | .writerRequired => str "writer is required"
  | .other e => X.errorText e

/-- main.go:135-141 `printUsage`: what it writes to stderr. -/
def usageText (X : System) : Bytes :=
  X.name ++ str " takes text from std input and processes it with one or more filters.\n\n"
    ++ str "Example:\n\n  curl -s https://en.wikipedia.org/wiki/Computer_programming | jargon -html -stack -lemmas -lines\n\n"
    ++ str "Flags:\n\n" ++ X.defaults

/-- main.go:53-55: three calls of `fmt.Println`, which writes once; the errors are not looked at. -/
def printVersion {ω : Type} (X : System) (w : Writer ω) (s : ω) : ω :=
  let s := (w.write s (str "Version: " ++ X.version ++ [0x0A])).2
  let s := (w.write s (str "Commit: " ++ X.commit ++ [0x0A])).2
  (w.write s (str "Build date: " ++ X.date ++ [0x0A])).2

/-- What the program leaves behind. -/
structure Process (ω : Type) where
  /-- the exit code -/
  code : Nat
  /-- the states of the writers -/
  under : Place → ω
  /-- what was written to stderr; writing there is taken not to fail -/
  stderr : Bytes

/-- The states of the writers once the program has used this one. -/
def World.after {ω : Type} (W : World ω) : Option (Place × BufWriter ω) → Place → ω
  | none => W.under
  | some (place, b) => fun p => if p = place then b.under else W.under p

/-- main.go:21-115 `main` with `check` (main.go:23-29): the exit code and what is written. -/
def runProcess {ω : Type} (X : System) (W : World ω) (args : List Bytes) : Go (Process ω) := do
  let r ← jargonMain W args
  match r with
  | .error e => pure { code := (X.flagExit e).1, under := W.under, stderr := (X.flagExit e).2 }
  | .ok (.version, _) =>
    pure { code := 0, under := fun p => if p = .std then printVersion X (W.writer .std) (W.under .std) else W.under p, stderr := [] }
  | .ok (.usage, _) => pure { code := 0, under := W.under, stderr := usageText X }
  | .ok (.failure e, w) => pure { code := 1, under := W.after w, stderr := e.text X ++ [0x0A] }
  | .ok (.success, w) => pure { code := 0, under := W.after w, stderr := [] }

/-- main.go:95-97: the file written is closed when `main` returns, and the error is not looked at. After a failure
`os.Exit` leaves the closing to the system, which does the same. `log` is what was written to the place. Standard output
is not closed. -/
def leftAt (X : System) (log : Bytes) : Place → Bytes
  | .std => log
  | .file i => (X.close i log).2

end Jargon
