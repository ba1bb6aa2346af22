import Verif.Spec.Synonyms
import Verif.Spec.Latin
import Verif.Model.Tables

/-! Vocabulary for the shipped tables: case in ASCII and Latin, case styles, apostrophes. -/

namespace Jargon

/-- Lower case of an ASCII character; others stay. -/
def asciiLower (r : Rune) : Rune := if 0x41 ≤ r ∧ r ≤ 0x5A then r + 0x20 else r

/-- Upper case of an ASCII character; others stay. -/
def asciiUpper (r : Rune) : Rune := if 0x61 ≤ r ∧ r ≤ 0x7A then r - 0x20 else r

/-- The case maps are right on ASCII and leave the typographic apostrophe alone. -/
structure CaseMaps.Right (M : CaseMaps) : Prop where
  lower : ∀ r, r < 0x80 ∨ r = 0x2019 → M.lower r = asciiLower r
  upper : ∀ r, r < 0x80 ∨ r = 0x2019 → M.upper r = asciiUpper r

/-- Lower-casing is right on ASCII, leaves the typographic apostrophe alone and never gives an ASCII
capital. -/
structure Unicode.LowersAscii (U : Unicode) : Prop where
  same : ∀ r, r < 0x80 ∨ r = 0x2019 → U.toLower r = asciiLower r
  never : ∀ r, ¬ (0x41 ≤ U.toLower r ∧ U.toLower r ≤ 0x5A)

/-- The three ways of writing a word. -/
inductive Style where
  | lower | title | upper
deriving DecidableEq, Repr

/-- An ASCII capital. -/
def isCapital (b : UInt8) : Bool := 0x41 ≤ b && b ≤ 0x5A

/-- A small ASCII letter. -/
def isSmall (b : UInt8) : Bool := 0x61 ≤ b && b ≤ 0x7A

/-- `s` is written in a style: no capitals; only the first is a capital; no small letters. -/
def Style.Has : Style → Bytes → Prop
  | .lower, s => ∀ b ∈ s, isCapital b = false
  | .title, [] => False
  | .title, b :: t => isCapital b = true ∧ (∃ c ∈ t, isSmall c = true) ∧ ∀ c ∈ t, isCapital c = false
  | .upper, s => (∃ b ∈ s, isCapital b = true) ∧ ∀ b ∈ s, isSmall b = false

/-- An apostrophe, typewriter or typographic. -/
def isApostrophe (r : Rune) : Prop := r = 0x27 ∨ r = 0x2019

/-! ### Synonyms -/

/-- Lower-casing is right on Latin letters. -/
def Unicode.LowersLatin (U : Unicode) : Prop := ∀ r, r < 0x180 → U.toLower r = latinLower r

/-- ASCII letters and digits are not punctuation. -/
def Unicode.PlainNotPunct (U : Unicode) : Prop := ∀ r, isPlain r = true → U.isPunct r = false

/-- The segmenter gets through `s`, does not cut within a rune, and sets commas apart. By the rules of
UAX #29 a comma is only kept together with digits on both sides. -/
structure Env.CutsCommas (E : Env) (s : Bytes) : Prop where
  scans : (E.scan { data := s }).2 = none
  whole : (E.scan { data := s }).1.flatMap runes = runes s
  comma : ∀ seg ∈ (E.scan { data := s }).1, 0x2C ∈ runes seg → seg = [0x2C]

end Jargon
