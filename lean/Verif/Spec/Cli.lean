import Verif.Spec.Builtin
import Verif.Model.Cli

/-! What the command line program should do. -/

namespace Jargon

/-! ### Writers -/

/-- `Write` takes at most all bytes, and if none of them, returns an error. This is weaker than the contract
of `io.Writer`: a writer may take just some of the bytes and return no error. -/
def Writer.Lawful {ω : Type} (w : Writer ω) : Prop :=
  ∀ ws p, (w.write ws p).1.1 ≤ p.length ∧
    ((w.write ws p).1.1 = 0 → p ≠ [] → (w.write ws p).1.2 ≠ none)

/-- Every write succeeds. -/
def Writer.NeverFails {ω : Type} (w : Writer ω) : Prop :=
  ∀ ws p, (w.write ws p).1 = (p.length, none)

/-- The writer `w` with a record of all bytes it has taken. -/
def logged {ω : Type} (w : Writer ω) : Writer (ω × Bytes) where
  write s p :=
    let r := w.write s.1 p
    (r.1, (r.2, s.2 ++ p.take r.1.1))

/-- The text the program should write: the tokens, each followed by a newline if asked for. -/
def cliText (lines : Bool) (toks : List Token) : Bytes :=
  toks.flatMap fun t => t.value ++ (if lines then [0x0A] else [])

/-- The number a string of digits stands for. -/
def decimalValue (ds : Bytes) : Nat := ds.foldl (fun v d => 10 * v + (d.toNat - 48)) 0

/-- `ds` is the decimal notation of `n`. -/
structure Decimal (n : Nat) (ds : Bytes) : Prop where
  digits : ∀ d ∈ ds, 48 ≤ d.toNat ∧ d.toNat ≤ 57
  nonempty : ds ≠ []
  value : decimalValue ds = n
  noLeadingZero : ds.head? = some 48 → ds = [48]

/-- What the program should write for a stream of tokens: their number, or their text. -/
def IsOutput (count lines : Bool) (toks : List Token) (out : Bytes) : Prop :=
  if count then ∃ ds, Decimal toks.length ds ∧ out = ds ++ [0x0A] else out = cliText lines toks

/-! ### Input and output -/

/-- Is stdin a terminal (a character device), by its mode bits? -/
def isTerminal (mode : Nat) : Bool := mode.testBit 21

/-- Where the input should come from. `file` is the outcome of opening the file named on the command
line, if one is named. -/
def inputChoice (terminal : Bool) (file : Option (Except Err FileId)) : Except CliErr Place :=
  match terminal, file with
  | _, some (.error e) => .error (.other e)
  | true, none => .error .noInput
  | false, some (.ok _) => .error .twoInput
  | true, some (.ok i) => .ok (.file i)
  | false, none => .ok .std

/-- Opening the file of this name, if it is not empty. -/
def named {α : Type} (openIt : Bytes → α) (name : Bytes) : Option α :=
  if name = [] then none else some (openIt name)

/-! ### Filter flags -/

/-- The filters one can choose on the command line. -/
inductive FilterFlag where
  | ascii | contractions | lemmas | distinct | stack | stem
deriving DecidableEq, Repr

/-- The languages of the stemmer. -/
inductive Language where
  | english | french | norwegian | russian | spanish | swedish
deriving DecidableEq, Repr

/-- The name of a language. -/
def Language.name : Language → Bytes
  | .english => str "english"
  | .french => str "french"
  | .norwegian => str "norwegian"
  | .russian => str "russian"
  | .spanish => str "spanish"
  | .swedish => str "swedish"

/-- The name of a filter flag, without the dash. -/
def FilterFlag.name : FilterFlag → Bytes
  | .ascii => str "ascii"
  | .contractions => str "contractions"
  | .lemmas => str "lemmas"
  | .distinct => str "distinct"
  | .stack => str "stack"
  | .stem => str "stem"

def allFlags : List FilterFlag := [.ascii, .contractions, .lemmas, .distinct, .stack, .stem]

def allLanguages : List Language := [.english, .french, .norwegian, .russian, .spanish, .swedish]

/-- The filter flag an argument is, with one dash before its name. -/
def flagOf (arg : Bytes) : Option FilterFlag := allFlags.find? fun f => str "-" ++ f.name = arg

/-- The language meant by the value of -lang; none given means English. -/
def langOf (lang : Bytes) : Option Language :=
  if lang = [] then some .english else allLanguages.find? fun l => l.name = lang

/-- The stemmer of a language. -/
def Snowball.of (sb : Snowball) : Language → Bytes → Bytes
  | .english => sb.english
  | .french => sb.french
  | .norwegian => sb.norwegian
  | .russian => sb.russian
  | .spanish => sb.spanish
  | .swedish => sb.swedish

/-- The filter a flag asks for. -/
def FilterFlag.filter (sb : Snowball) (l : Language) : FilterFlag → Builtin
  | .ascii => .asciiFold
  | .contractions => .contractions contractionMappings
  | .lemmas => .lemmas
  | .distinct => .distinct
  | .stack => .synonyms stackOverflowMappings true stackOverflowIgnore
  | .stem => .stemmer (sb.of l)

end Jargon
