import Verif.Model.Prelude

/-! Vocabulary for the runes of the shipped tables. -/

namespace Jargon

/-- Simple lower case in Basic Latin, Latin-1 and Latin Extended-A; others stay. -/
def latinLower (r : Rune) : Rune :=
  if 0x41 ≤ r ∧ r ≤ 0x5A then r + 0x20
  else if 0xC0 ≤ r ∧ r ≤ 0xDE ∧ r ≠ 0xD7 then r + 0x20
  else if r = 0x130 then 0x69
  else if r = 0x178 then 0xFF
  else if (0x100 ≤ r ∧ r ≤ 0x137) ∨ (0x14A ≤ r ∧ r ≤ 0x177) then r + (1 - r % 2)
  else if (0x139 ≤ r ∧ r ≤ 0x148) ∨ (0x179 ≤ r ∧ r ≤ 0x17E) then r + r % 2
  else r

/-- An ASCII letter or digit. -/
def isPlain (r : Rune) : Bool :=
  (0x30 ≤ r && r ≤ 0x39) || (0x41 ≤ r && r ≤ 0x5A) || (0x61 ≤ r && r ≤ 0x7A)

/-- The runes between commas. -/
def cutRunes : List Rune → List (List Rune)
  | [] => [[]]
  | r :: rs =>
    if r = 0x2C then [] :: cutRunes rs
    else match cutRunes rs with
      | p :: ps => (r :: p) :: ps
      | [] => [[r]]

end Jargon
