import Verif.Model.Tokenizer

/-! Independent description of what a token should be, and sample parameters for examples. -/

namespace Jargon

/-- The code points with the Unicode property White_Space. -/
def whiteSpace : List Nat :=
  [0x09, 0x0A, 0x0B, 0x0C, 0x0D, 0x20, 0x85, 0xA0, 0x1680,
   0x2000, 0x2001, 0x2002, 0x2003, 0x2004, 0x2005, 0x2006, 0x2007, 0x2008, 0x2009, 0x200A,
   0x2028, 0x2029, 0x202F, 0x205F, 0x3000]

/-- `t` is the token NewToken documents for the non-empty text `s`. -/
structure TokenFor (U : Unicode) (s : Bytes) (isLemma : Bool) (t : Token) : Prop where
  value : t.value = s
  lemma_ : t.lemma = isLemma
  space : t.space = true ↔ ∀ r ∈ runes s, r ∈ whiteSpace
  punct : t.punct = true ↔ ∀ r ∈ runes s, U.isPunct r = true ∨ r = 0x0A ∨ r = 0x0D ∨ r = 0x09

/-- A sample of Go's tables, right on ASCII. -/
def asciiUnicode : Unicode where
  isPunct r := (str "!\"#%&'()*,-./:;?@[\\]_{}").contains (UInt8.ofNat r) && r < 0x80
  isLetter r := (0x41 ≤ r && r ≤ 0x5A) || (0x61 ≤ r && r ≤ 0x7A)
  isNumber r := 0x30 ≤ r && r ≤ 0x39
  toLower r := if 0x41 ≤ r && r ≤ 0x5A then r + 0x20 else r

/-- ASCII letters and digits, and the bytes of non-ASCII characters. -/
def alnum (b : UInt8) : Bool :=
  (0x41 ≤ b && b ≤ 0x5A) || (0x61 ≤ b && b ≤ 0x7A) || (0x30 ≤ b && b ≤ 0x39) || 0x80 ≤ b

/-- A sample segmenter: maximal runs of letters and digits; every other byte alone. -/
def sampleSegs : Bytes → List Bytes
  | [] => []
  | b :: t =>
    match sampleSegs t with
    | (c :: cs) :: rest => if alnum b && alnum c then (b :: c :: cs) :: rest else [b] :: (c :: cs) :: rest
    | other => [b] :: other

/-- A sample environment. -/
def sampleEnv : Env where
  U := asciiUnicode
  scan r := (sampleSegs r.data, r.err)

theorem sampleSegs_flatten (s : Bytes) : (sampleSegs s).flatten = s := by
  induction s with
  | nil => rfl
  | cons b t ih =>
    unfold sampleSegs
    split
    · rename_i c cs rest h
      rw [h] at ih
      split <;> simp_all
    · simp [ih]

theorem sampleSegs_nonempty (s : Bytes) : ∀ seg ∈ sampleSegs s, seg ≠ [] := by
  induction s with
  | nil => simp [sampleSegs]
  | cons b t ih =>
    unfold sampleSegs
    split
    · rename_i c cs rest h
      rw [h] at ih
      split
      · simp at *; exact ih
      · simp at *; exact ih
    · simpa using ih

theorem sampleEnv_lawful : sampleEnv.Lawful where
  nonempty r := sampleSegs_nonempty r.data
  complete r h := ⟨h, sampleSegs_flatten r.data⟩
  sound r := by simp [sampleEnv, sampleSegs_flatten]

end Jargon
