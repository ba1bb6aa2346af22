import Verif.Model.Tokenizer

/-! The word boundaries of Unicode Standard Annex #29, which tokenizer.go says the scanner follows
(tokenizer.go:10-19, 28-36: `words.NewScanner` of github.com/clipperhouse/uax29). The property tables
are a parameter; what is used of them is their content for Latin letters and a few characters more. -/

namespace Jargon

/-- The values of the property Word_Break. -/
inductive WB where
  | cr | lf | newline | extend | zwj | format | regional | katakana | hebrew | letter
  | singleQuote | doubleQuote | midNumLet | midLetter | midNum | numeric | extendNumLet | space | other
deriving DecidableEq, Repr

/-- Of each rune: Word_Break, and whether it is Extended_Pictographic. -/
abbrev WordTable := Rune → WB × Bool

namespace WB

/-- The characters rule WB4 attaches to what precedes them. -/
def attached : WB → Bool
  | extend | format | zwj => true
  | _ => false

/-- Line breaks: always boundaries around them, WB3a and WB3b. -/
def lineBreak : WB → Bool
  | cr | lf | newline => true
  | _ => false

/-- AHLetter -/
def ahLetter : WB → Bool
  | letter | hebrew => true
  | _ => false

/-- MidLetter or MidNumLetQ -/
def inLetters : WB → Bool
  | midLetter | midNumLet | singleQuote => true
  | _ => false

/-- MidNum or MidNumLetQ -/
def inNumbers : WB → Bool
  | midNum | midNumLet | singleQuote => true
  | _ => false

/-- AHLetter, Numeric or Katakana -/
def wordly : WB → Bool
  | letter | hebrew | numeric | katakana => true
  | _ => false

end WB

/-- Rules WB5 to WB13b: is there no boundary between `p` and `q`, when `pp` precedes `p` and `n` follows
`q`? -/
def ruleJoins (pp p q n : WB) : Bool :=
  -- WB5
  p.ahLetter && q.ahLetter ||
  -- WB6, WB7
  p.ahLetter && q.inLetters && n.ahLetter || pp.ahLetter && p.inLetters && q.ahLetter ||
  -- WB7a
  p == .hebrew && q == .singleQuote ||
  -- WB7b, WB7c
  p == .hebrew && q == .doubleQuote && n == .hebrew || pp == .hebrew && p == .doubleQuote && q == .hebrew ||
  -- WB8, WB9, WB10
  p == .numeric && q == .numeric || p.ahLetter && q == .numeric || p == .numeric && q.ahLetter ||
  -- WB11, WB12
  pp == .numeric && p.inNumbers && q == .numeric || p == .numeric && q.inNumbers && n == .numeric ||
  -- WB13
  p == .katakana && q == .katakana ||
  -- WB13a, WB13b
  (p.wordly || p == .extendNumLet) && q == .extendNumLet || p == .extendNumLet && q.wordly

/-- Is there no boundary, with the given characters before it, the nearest first, and after it? -/
def joins : List (WB × Bool) → List (WB × Bool) → Bool
  | l :: before, r :: after =>
    -- WB3
    if l.1 == .cr && r.1 == .lf then true
    -- WB3a, WB3b
    else if l.1.lineBreak || r.1.lineBreak then false
    -- WB3c
    else if l.1 == .zwj && r.2 then true
    -- WB3d
    else if l.1 == .space && r.1 == .space then true
    -- WB4
    else if r.1.attached then true
    else
      let before := ((l :: before).map (·.1)).filter (fun c => !c.attached)
      let after := (after.map (·.1)).filter (fun c => !c.attached)
      ruleJoins (before.tail.headD .other) (before.headD .other) r.1 (after.headD .other) ||
      -- WB15, WB16
      r.1 == .regional && (before.takeWhile (· == .regional)).length % 2 == 1
  | _, _ => false

/-- Cut a text at its word boundaries; `before` are the characters before it, the nearest first. -/
def cutWords {α : Type} (cls : α → WB × Bool) : List (WB × Bool) → List α → List (List α)
  | _, [] => []
  | before, a :: rest =>
    match cutWords cls (cls a :: before) rest with
    | [] => [[a]]
    | g :: gs =>
      if joins (cls a :: before) (rest.map cls) then (a :: g) :: gs else [a] :: g :: gs

/-- The runes of a string, each with its bytes, as far as the fuel reaches. -/
def runeBytesAux : Nat → Bytes → List (Rune × Bytes)
  | _, [] => []
  | 0, _ => []
  | n + 1, b :: t =>
    let d := decodeRune (b :: t)
    (d.1, (b :: t).take d.2) :: runeBytesAux n ((b :: t).drop d.2)

/-- The runes of a string, each with its bytes. -/
def runeBytes (s : Bytes) : List (Rune × Bytes) := runeBytesAux s.length s

/-- The words of a string. -/
def wordSegs (cls : WordTable) (s : Bytes) : List Bytes :=
  (cutWords (fun p : Rune × Bytes => cls p.1) [] (runeBytes s)).map fun g => g.flatMap (·.2)

/-- Words of which each, with the next one, fits into the scanner's buffer. -/
def ShortWords (ws : List Bytes) : Prop := (∀ w ∈ ws, w.length < 65536) ∧
  ∀ pre w1 w2 post, ws = pre ++ w1 :: w2 :: post → w1.length + w2.length + 4 ≤ 65536

/-- Texts that have no word too long for the scanner's buffer: all of less than 64 KiB, and all others
with short words. -/
def Fits (cls : WordTable) (s : Bytes) : Prop := s.length < 0x10000 ∨ ShortWords (wordSegs cls s)

/-- The scanner follows the annex, with the given tables. -/
def Env.FollowsUax29 (E : Env) (cls : WordTable) : Prop :=
  ∀ s : Bytes, Fits cls s → E.scan { data := s } = (wordSegs cls s, none)

/-- Word_Break of the characters of Latin-1 and Latin Extended-A. -/
def latinWB (r : Rune) : WB × Bool :=
  if r = 0x0D then (.cr, false)
  else if r = 0x0A then (.lf, false)
  else if r = 0x0B ∨ r = 0x0C ∨ r = 0x85 then (.newline, false)
  else if r = 0x20 then (.space, false)
  else if r = 0x22 then (.doubleQuote, false)
  else if r = 0x27 then (.singleQuote, false)
  else if r = 0x2C ∨ r = 0x3B then (.midNum, false)
  else if r = 0x2E then (.midNumLet, false)
  else if 0x30 ≤ r ∧ r ≤ 0x39 then (.numeric, false)
  else if r = 0x5F then (.extendNumLet, false)
  else if (0x41 ≤ r ∧ r ≤ 0x5A) ∨ (0x61 ≤ r ∧ r ≤ 0x7A) then (.letter, false)
  else if r = 0xAA ∨ r = 0xB5 ∨ r = 0xBA then (.letter, false)
  else if r = 0xAD then (.format, false)
  else if r = 0xB7 then (.midLetter, false)
  else if r = 0xA9 ∨ r = 0xAE then (.other, true)
  else if 0xC0 ≤ r ∧ r ≠ 0xD7 ∧ r ≠ 0xF7 then (.letter, false)
  else (.other, false)

/-- What is used of the tables: they are right for Latin letters, the typographic apostrophe,
ideographs and the carriage return. The colon is left open, as it is treated differently by different versions of Unicode. -/
structure WordTable.Right (cls : WordTable) : Prop where
  latin : ∀ r, r < 0x180 → r ≠ 0x3A → cls r = latinWB r
  apostrophe : cls 0x2019 = (.midNumLet, false)
  ideograph : ∀ r, 0x4E00 ≤ r → r ≤ 0x9FFF → cls r = (.other, false)
  cr : ∀ r, (cls r).1 = .cr → r = 0x0D

/-- The punctuation of ASCII and Latin-1. -/
def latinPunct : List Rune := (str "!\"#%&'()*,-./:;?@[\\]_{}").map UInt8.toNat ++
  [0xA1, 0xA7, 0xAB, 0xB6, 0xB7, 0xBB, 0xBF]

/-- `unicode.IsPunct` is right for Latin characters. -/
def Unicode.PunctLatin (U : Unicode) : Prop := ∀ r, r < 0x180 → U.isPunct r = decide (r ∈ latinPunct)

/-- `s` is one of the texts listed in the key `k`: between commas or the ends of the key, without the
spaces before it. -/
def ListedText (s k : Bytes) : Prop := ∃ pre spaces post, k = pre ++ spaces ++ s ++ post ∧
  (pre = [] ∨ ∃ x, pre = x ++ [0x2C]) ∧ (post = [] ∨ ∃ x, post = 0x2C :: x) ∧
  (∀ b ∈ spaces, b = 0x20) ∧ s.head? ≠ some 0x20 ∧ 0x2C ∉ s

/-- White space, brackets and symbols. -/
def separators : Bytes := str "\t\n\r !#$%&()*+-/<=>?@[\\]^`{|}~"

/-- Quotation marks, comma, full stop, semicolon. -/
def stopMarks : Bytes := str "'\",.;"

/-- What may be before a word in a text: a separator and then perhaps marks, or at the start just marks. -/
def SetOffBefore (a : Bytes) : Prop := ∃ x marks, a = x ++ marks ∧ (∀ c ∈ marks, c ∈ stopMarks) ∧
  (x = [] ∨ ∃ z c, x = z ++ [c] ∧ c ∈ separators)

/-- What may be after a word in a text: perhaps marks, and then a separator or the end. -/
def SetOffAfter (b : Bytes) : Prop := ∃ marks x, b = marks ++ x ∧ (∀ c ∈ marks, c ∈ stopMarks) ∧
  (x = [] ∨ ∃ c z, x = c :: z ∧ c ∈ separators)

/-- Punctuation at which no synonym goes on; the program takes a tab for punctuation. -/
def breakMarks : Bytes := str "!\"#%&'()*,-./;?@[\\]{}\t"

/-- Punctuation or a line feed before a place in a text, or it is the start. -/
def BrokenBefore (a : Bytes) : Prop := a = [] ∨ ∃ z c, a = z ++ [c] ∧
  (c ∈ breakMarks ∨ c = 0x0A ∧ (runes z).getLast? ≠ some 0x0D)

/-- Punctuation or a line feed after a place in a text, or it is the end. (What follows the punctuation is
ASCII, so not a combining character.) -/
def BrokenAfter (b : Bytes) : Prop := b = [] ∨ ∃ c z, b = c :: z ∧
  (c ∈ breakMarks ∧ (z = [] ∨ ∃ d y, z = d :: y ∧ d.toNat < 0x80 ∧ d ≠ 0x3A) ∨ c = 0x0A)

end Jargon
