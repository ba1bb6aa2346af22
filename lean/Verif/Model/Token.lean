import Verif.Model.Prelude

/-! Model of `token.go` and `punct.go`. -/

namespace Jargon

/-- The parts of Go's `unicode` package that depend on the Unicode tables of the Go release.
They are parameters: theorems hold for every choice, or state what they need. -/
structure Unicode where
  /-- `unicode.IsPunct` -/
  isPunct : Rune → Bool
  /-- `unicode.IsLetter` -/
  isLetter : Rune → Bool
  /-- `unicode.IsNumber` -/
  isNumber : Rune → Bool
  /-- `unicode.ToLower` -/
  toLower : Rune → Rune

/-- `unicode.IsSpace`: the White_Space property, which Go documents rune by rune for Latin-1 and
which has been stable in every Unicode version Go has shipped. -/
def isSpaceRune (r : Rune) : Bool :=
  (0x09 ≤ r && r ≤ 0x0D) || r == 0x20 || r == 0x85 || r == 0xA0 || r == 0x1680 ||
  (0x2000 ≤ r && r ≤ 0x200A) || r == 0x2028 || r == 0x2029 || r == 0x202F || r == 0x205F ||
  r == 0x3000

/-- punct.go:9-18 `spaceIsPunct`: `\n`, `\r`, `\t`. -/
def spaceIsPunct (r : Rune) : Bool := r == 0x0A || r == 0x0D || r == 0x09

/-- punct.go:5-7 `isPunct`. -/
def Unicode.punctRune (U : Unicode) (r : Rune) : Bool := U.isPunct r || spaceIsPunct r

/-- `strings.ToLower` (Go standard library): every rune is lower-cased and re-encoded; bytes that
are not valid UTF-8 are replaced by U+FFFD. -/
def Unicode.lowerString (U : Unicode) (s : Bytes) : Bytes := encodeRunes ((runes s).map U.toLower)

/-- token.go:8-11 `Token`. -/
structure Token where
  value : Bytes
  punct : Bool
  space : Bool
  lemma : Bool
deriving DecidableEq, Repr

/-- token.go:14-16 `String`. The accessors of a nil token panic; they are only modelled on
non-nil tokens, callers model the nil check. -/
def Token.string (t : Token) : Bytes := t.value

/-- token.go:20-22 `IsPunct`. -/
def Token.isPunct (t : Token) : Bool := t.punct

/-- token.go:27-29 `IsSpace`. -/
def Token.isSpace (t : Token) : Bool := t.space

/-- token.go:32-34 `IsLemma`. -/
def Token.isLemma (t : Token) : Bool := t.lemma

/-- `"\r\n"`. -/
def crlf : Bytes := [0x0D, 0x0A]

/-- The map `common` of token.go:80: for a string, its token with `lemma = true` and with
`lemma = false`. -/
abbrev Cache := List (Bytes × (Option Token × Option Token))

/-- token.go:37-78 `NewToken`, relative to the current content of `common`. `none` is nil. -/
def newTokenWith (U : Unicode) (common : Cache) (s : Bytes) (isLemma : Bool) : Option Token :=
  match common.lookup s with
  | some (t, f) => if isLemma then t else f
  | none =>
    if s.length = 0 then none
    else if s = crlf then some { value := s, punct := true, space := true, lemma := isLemma }
    else some {
      value := s
      punct := (runes s).all U.punctRune
      space := (runes s).all isSpaceRune
      lemma := isLemma }

/-- token.go:83-102 the strings pre-computed by `init`. -/
def commonStrings : List Bytes :=
  [" ", "\r", "\n", "\t", ".", ",",
   "A", "a", "An", "an", "The", "the", "And", "and", "Or", "or", "Not", "not", "Of", "of",
   "In", "in", "On", "on", "To", "to", "Be", "be", "Is", "is", "Are", "are", "Has", "has",
   "Have", "have", "It", "it", "Do", "do"].map str

/-- token.go:104-109: one iteration of the loop in `init`, writing `common[s]`. -/
def addCommon (U : Unicode) (common : Cache) (s : Bytes) : Cache :=
  (s, (newTokenWith U common s true, newTokenWith U common s false)) :: common

/-- token.go:80-110: the content of `common` after `init`. -/
def common (U : Unicode) : Cache := commonStrings.foldl (addCommon U) []

/-- token.go:37-78 `NewToken`, as called by the rest of the program after `init`. -/
def newToken (U : Unicode) (s : Bytes) (isLemma : Bool) : Option Token :=
  newTokenWith U (common U) s isLemma

end Jargon
