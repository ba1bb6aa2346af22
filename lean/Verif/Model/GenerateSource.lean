import Verif.Model.Generate
import Verif.Model.Contractions

/-! Writing the tables as Go source: the second half of the three generators, filters/nba/generate,
filters/stackoverflow/generate and filters/contractions/generate. -/

namespace Jargon

/-! ### `strconv.Quote` and `%#v` -/

/-- A character of `lowerhex` (Go standard library, strconv/quote.go). -/
def hexDigit (n : Nat) : UInt8 := UInt8.ofNat (if n < 10 then 0x30 + n else 0x57 + n)

/-- A number in `width` hexadecimal digits. -/
def hexDigits : Nat → Nat → Bytes
  | 0, _ => []
  | width + 1, n => hexDigits width (n / 16) ++ [hexDigit (n % 16)]

/-- `appendEscapedRune` (Go standard library, strconv/quote.go) with a double quote and neither
`ASCIIonly` nor `graphicOnly`. `strconv.IsPrint` is a parameter. -/
def escapeRune (isPrint : Rune → Bool) (r : Rune) : Bytes :=
  if r = 0x22 ∨ r = 0x5C then [0x5C, UInt8.ofNat r]
  else if isPrint r then encodeRune r
  else if r = 0x07 then [0x5C, 0x61]
  else if r = 0x08 then [0x5C, 0x62]
  else if r = 0x0C then [0x5C, 0x66]
  else if r = 0x0A then [0x5C, 0x6E]
  else if r = 0x0D then [0x5C, 0x72]
  else if r = 0x09 then [0x5C, 0x74]
  else if r = 0x0B then [0x5C, 0x76]
  else if r < 0x20 ∨ r = 0x7F then [0x5C, 0x78] ++ hexDigits 2 r
  else if r < 0x10000 then [0x5C, 0x75] ++ hexDigits 4 r
  else [0x5C, 0x55] ++ hexDigits 8 r

/-- The loop of `appendQuotedWith` (Go standard library, strconv/quote.go); `fuel` is the length of the
string. -/
def quoteAux (isPrint : Rune → Bool) : Nat → Bytes → Bytes
  | 0, _ => []
  | _ + 1, [] => []
  | n + 1, b :: t =>
    let (r, width) := decodeRune (b :: t)
    (if width = 1 ∧ r = runeError then [0x5C, 0x78] ++ hexDigits 2 b.toNat else escapeRune isPrint r)
      ++ quoteAux isPrint n ((b :: t).drop width)

/-- `strconv.Quote` (Go standard library). -/
def quote (isPrint : Rune → Bool) (s : Bytes) : Bytes :=
  [0x22] ++ quoteAux isPrint s.length s ++ [0x22]

/-- `a <= b` for Go strings. -/
def bytesLe : Bytes → Bytes → Bool
  | [], _ => true
  | _ :: _, [] => false
  | a :: s, b :: t => a < b || (a == b && bytesLe s t)

/-- Put an entry at its place among sorted entries. -/
def insertByKey (x : Bytes × Bytes) : StringMap → StringMap
  | [] => [x]
  | y :: m => if bytesLe x.1 y.1 then x :: y :: m else y :: insertByKey x m

/-- The entries of a map in the order of its keys, as package `fmt` prints maps (internal/fmtsort). -/
def sortByKey (m : StringMap) : StringMap := m.foldr insertByKey []

/-- `fmt.Sprintf("%#v", m)` for a `map[string]string` that is not nil. -/
def goSyntax (isPrint : Rune → Bool) (m : StringMap) : Bytes :=
  str "map[string]string" ++ [0x7B] ++
    join [0x2C, 0x20] ((sortByKey m).map fun e => quote isPrint e.1 ++ [0x3A] ++ quote isPrint e.2) ++ [0x7D]

/-! ### The source text -/

/-- filters/nba/generate/main.go:114-119: `tmpl`, up to the map. -/
def nbaHeader : Bytes := str "
package nba

// This file is generated. Best not to modify it, as it will likely be overwritten.

var mappings = "

/-- filters/stackoverflow/generate/main.go:169-174: `tmpl`, up to the map. -/
def soHeader : Bytes := str "
package stackoverflow

// This file is generated. Best not to modify it, as it will likely be overwritten.

var mappings = "

/-- filters/contractions/generate/main.go:101-107: `tmpl`, up to the map. -/
def contractionHeader : Bytes := str "
package contractions

// This file is generated. Best not to modify it, as it will likely be overwritten.

// maps do not guarantee order, so this will look random
var mappings = "

/-- `tmpl.Execute`, e.g. filters/nba/generate/main.go:82-85. Executing this template, into a buffer,
cannot fail, so the check of `err` is left out. -/
def sourceText (isPrint : Rune → Bool) (header : Bytes) (m : StringMap) : Bytes :=
  header ++ goSyntax isPrint m ++ [0x0A]

/-- filters/nba/generate/main.go:87-93 (there `indent` is two tabs),
filters/stackoverflow/generate/main.go:142-148 and filters/contractions/generate/main.go:57-63 (there it
is empty): break up some lines. -/
def breakLines (indent source : Bytes) : Bytes :=
  let split := replaceAll [0x22, 0x2C, 0x20, 0x22] ([0x22, 0x2C, 0x0A] ++ indent ++ [0x22]) source
  let split := replaceAll [0x7B, 0x22] ([0x7B, 0x0A] ++ indent ++ [0x22]) split
  replaceAll [0x22, 0x7D] ([0x22, 0x2C, 0x0A] ++ indent ++ [0x7D]) split

/-! ### Writing it -/

/-- What the generators need of the outside when they write. -/
structure Outside where
  /-- `strconv.IsPrint` -/
  isPrint : Rune → Bool
  /-- `format.Source`; `none` is an error -/
  format : Bytes → Option Bytes
  /-- does `os.Create("generated.go")` succeed -/
  creates : Bool
  /-- if `f.Write` fails: after how many bytes -/
  writeFails : Option Nat

/-- What can go wrong in writing. -/
inductive WriteError where
  | format
  | create
  | write
deriving DecidableEq

/-- filters/nba/generate/main.go:79-112 `write`, filters/stackoverflow/generate/main.go:135-166 and
filters/contractions/generate/main.go:50-81. The file `generated.go` before and after; `none` if there is
none. `Create` empties it. `Close` is not modelled: its error is ignored by the code too. -/
def writeSource (O : Outside) (header indent : Bytes) (m : StringMap) (file : Option Bytes) :
    Except WriteError Unit × Option Bytes :=
  match O.format (breakLines indent (sourceText O.isPrint header m)) with
  | none => (.error .format, file)
  | some formatted =>
    if !O.creates then (.error .create, file)
    else match O.writeFails with
      | some n => (.error .write, some (formatted.take n))
      | none => (.ok (), some formatted)

/-! ### The programs -/

/-- How a generator ends: normally, or reporting an error (by `os.Exit(1)` or `panic(err)`). -/
inductive Ending (ε : Type) where
  | fine
  | fails (e : ε ⊕ WriteError)

/-- filters/nba/generate/main.go:16-25 `main`; `names` is what `fetchNames` gives. The errors are
represented by the name reported by `getMappings`, `none` for an error of `fetchNames`. -/
def nbaMain (O : Outside) (names : Option (List Bytes)) (file : Option Bytes) :
    Ending (Option Bytes) × Option Bytes :=
  match names with
  | none => (.fails (.inl none), file)
  | some names =>
    match nbaGenerate names with
    | .error e => (.fails (.inl (some e)), file)
    | .ok m =>
      match writeSource O nbaHeader [0x09, 0x09] m file with
      | (.error e, file) => (.fails (.inr e), file)
      | (.ok (), file) => (.fine, file)

/-- filters/stackoverflow/generate/main.go:17-23 `main` with 34-167 `writeDictionary`. -/
def soMain (O : Outside) (get : Nat → Option SoWrapper) (file : Option Bytes) :
    Ending SoError × Option Bytes :=
  match soGenerate get with
  | .error e => (.fails (.inl e), file)
  | .ok m =>
    match writeSource O soHeader [] m file with
    | (.error e, file) => (.fails (.inr e), file)
    | (.ok (), file) => (.fine, file)

/-- filters/contractions/generate/main.go:12-17 `main` with 44-82 `write`; `order` is an iteration order
of the map `contractions`. -/
def contractionMain (M : CaseMaps) (order : StringMap) (O : Outside) (file : Option Bytes) :
    Go (Ending Bytes × Option Bytes) := do
  let (m, err) ← getMappings M order
  match err with
  | some e => pure (.fails (.inl e), file)
  | none =>
    match writeSource O contractionHeader [] m file with
    | (.error e, file) => pure (.fails (.inr e), file)
    | (.ok (), file) => pure (.fine, file)

end Jargon
