import Verif.Spec.WordBreak

/-! Checks of the model of word boundaries on lines of the kind found in WordBreakTest.txt of the Unicode Character
Database, which is not in /repo. These are checks of the model, not properties. -/

namespace Jargon

/-- The characters of the lines below, as in the Unicode Character Database. -/
private def testWB (r : Rune) : WB × Bool :=
  if r = 0x3A then (.midLetter, false)
  else if r = 0x308 ∨ r = 0x1F3FF then (.extend, false)
  else if r = 0x5D0 then (.hebrew, false)
  else if r = 0x646 then (.letter, false)
  else if r = 0x200D then (.zwj, false)
  else if r = 0x3031 then (.katakana, false)
  else if r = 0x2701 ∨ r = 0x1F476 ∨ r = 0x1F6D1 then (.other, true)
  else if 0x1F1E6 ≤ r ∧ r ≤ 0x1F1FF then (.regional, false)
  else latinWB r

/-- Each line as the words it is cut into. -/
private def wordBreakTest : List (List (List Rune)) :=
  [[[0x000D, 0x000A], [0x0061], [0x000A], [0x0308]], [[0x0061, 0x0308]], [[0x0020, 0x200D], [0x0646]],
   [[0x0646, 0x200D], [0x0020]], [[0x0041, 0x0041, 0x0041]], [[0x0041, 0x003A, 0x0041]],
   [[0x0041], [0x003A], [0x003A], [0x0041]], [[0x05D0, 0x0027]], [[0x05D0, 0x0022, 0x05D0]],
   [[0x0041, 0x0030, 0x0030, 0x0041]], [[0x0030, 0x002C, 0x0030]], [[0x0030], [0x002C], [0x002C], [0x0030]],
   [[0x3031, 0x3031]], [[0x0041, 0x005F, 0x0030, 0x005F, 0x3031, 0x005F]], [[0x0041, 0x005F, 0x005F, 0x0041]],
   [[0x1F1E6, 0x1F1E7], [0x1F1E8], [0x0062]], [[0x0061], [0x1F1E6, 0x1F1E7], [0x1F1E8], [0x0062]],
   [[0x0061], [0x1F1E6, 0x1F1E7, 0x200D], [0x1F1E8], [0x0062]],
   [[0x0061], [0x1F1E6, 0x200D, 0x1F1E7], [0x1F1E8], [0x0062]],
   [[0x0061], [0x1F1E6, 0x1F1E7], [0x1F1E8, 0x1F1E9], [0x0062]], [[0x1F476, 0x1F3FF], [0x1F476]],
   [[0x1F6D1, 0x200D, 0x1F6D1]], [[0x0061, 0x200D, 0x1F6D1]], [[0x2701, 0x200D, 0x2701]], [[0x0061, 0x200D, 0x2701]],
   [[0x1F476, 0x1F3FF, 0x0308, 0x200D, 0x1F476, 0x1F3FF]], [[0x1F6D1, 0x1F3FF]], [[0x200D, 0x1F6D1, 0x1F3FF]],
   [[0x200D, 0x1F6D1]], [[0x200D, 0x2701]], [[0x1F6D1], [0x1F6D1]], [[0x0061, 0x0308, 0x200D, 0x0308, 0x0062]],
   [[0x0061], [0x0020, 0x0020], [0x0062]], [[0x0031], [0x003A], [0x0031]],
   [[0x0031, 0x005F, 0x0031], [0x003A], [0x003A], [0x0031]],
   [[0x0031, 0x005F, 0x0061], [0x003A], [0x003A], [0x0031]], [[0x0061, 0x0031], [0x003A], [0x0031]],
   [[0x0031, 0x002E, 0x0031]], [[0x0061, 0x002E, 0x0061]], [[0x0061], [0x002C], [0x0061]],
   [[0x0061], [0x002E], [0x0031]], [[0x0020, 0x0308], [0x0020]], [[0x000D], [0x0308], [0x000A]],
   [[0x000A], [0x0308], [0x0041]], [[0x0041, 0x0308, 0x0041]], [[0x0022, 0x0308], [0x05D0]],
   [[0x05D0, 0x0308, 0x0027]], [[0x05D0], [0x0022], [0x0041]], [[0x0041], [0x0027]], [[0x3031, 0x0308, 0x005F]],
   [[0x3031], [0x0041]], [[0x005F, 0x3031]], [[0x0000], [0x0001]], [[0x000B], [0x0020]], [[0x00AD], [0x0041]],
   [[0x0041, 0x00AD, 0x0041]]]

example : ∀ line ∈ wordBreakTest, cutWords testWB [] line.flatten = line := by decide +kernel

-- and of strings, with the characters in UTF-8
example : ∀ line ∈ wordBreakTest,
    wordSegs testWB (line.flatten.flatMap encodeRune) = line.map (·.flatMap encodeRune) := by decide +kernel

end Jargon
