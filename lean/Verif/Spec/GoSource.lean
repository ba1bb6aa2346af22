import Verif.Model.Prelude
import Verif.Model.Simple

/-! A small part of the Go language: how source text is cut into tokens, and which tokens are a file that
declares a table. From the Go specification ("Lexical elements", "Composite literals"); nothing here
looks at how the generators produce a file. -/

namespace Jargon

/-- Tokens. A string literal is represented by its value. -/
inductive GoTok where
  | word (s : Bytes)
  | text (s : Bytes)
  | punct (b : UInt8)
  | semi
deriving DecidableEq

inductive LexError where
  /-- a line break in an interpreted string literal -/
  | newline
  /-- anything else that is wrong, or that is outside of this part of the language -/
  | other
deriving DecidableEq

/-- Where the scanner is: between tokens, in an identifier or keyword, after a slash, in a comment, in a
string literal, after a backslash there, or in the hexadecimal digits of an escape (with `left` of them
left, and if they give a rune or a byte). -/
inductive LexMode where
  | code
  | word (s : Bytes)
  | slash
  | comment
  | text (s : Bytes)
  | escape (s : Bytes)
  | digits (s : Bytes) (left value : Nat) (rune : Bool)
deriving DecidableEq

structure LexState where
  mode : LexMode
  toks : List GoTok
deriving DecidableEq

/-- The keywords that do not end a statement at the end of a line. -/
def goKeywords : List Bytes :=
  [str "case", str "chan", str "const", str "default", str "defer", str "else", str "for", str "func",
   str "go", str "goto", str "if", str "import", str "interface", str "map", str "package", str "range",
   str "select", str "struct", str "switch", str "type", str "var"]

/-- After this token a line break is a semicolon. -/
def GoTok.endsLine : GoTok → Bool
  | .word s => s ∉ goKeywords
  | .text _ => true
  | .punct b => b = 0x29 ∨ b = 0x5D ∨ b = 0x7D
  | .semi => false

/-- A line break, or the end of the file: a semicolon, where one is inserted automatically. -/
def lineEnd (toks : List GoTok) : List GoTok :=
  match toks.getLast? with
  | some t => if t.endsLine then toks ++ [.semi] else toks
  | none => toks

def isLetterByte (b : UInt8) : Bool :=
  (0x61 ≤ b && b ≤ 0x7A) || (0x41 ≤ b && b ≤ 0x5A) || b = 0x5F

def isDigitByte (b : UInt8) : Bool := 0x30 ≤ b && b ≤ 0x39

/-- The value of a hexadecimal digit. -/
def hexValue (b : UInt8) : Option Nat :=
  if 0x30 ≤ b ∧ b ≤ 0x39 then some (b.toNat - 0x30)
  else if 0x61 ≤ b ∧ b ≤ 0x66 then some (b.toNat - 0x57)
  else if 0x41 ≤ b ∧ b ≤ 0x46 then some (b.toNat - 0x37)
  else none

/-- The escapes of one letter. -/
def escapeValue (b : UInt8) : Option UInt8 :=
  if b = 0x61 then some 0x07
  else if b = 0x62 then some 0x08
  else if b = 0x66 then some 0x0C
  else if b = 0x6E then some 0x0A
  else if b = 0x72 then some 0x0D
  else if b = 0x74 then some 0x09
  else if b = 0x76 then some 0x0B
  else if b = 0x5C then some 0x5C
  else if b = 0x22 then some 0x22
  else none

/-- The next byte, between tokens. -/
def lexCode (toks : List GoTok) (b : UInt8) : Except LexError LexState :=
  if b = 0x22 then .ok ⟨.text [], toks⟩
  else if b = 0x0A then .ok ⟨.code, lineEnd toks⟩
  else if b = 0x20 ∨ b = 0x09 ∨ b = 0x0D then .ok ⟨.code, toks⟩
  else if b = 0x2F then .ok ⟨.slash, toks⟩
  else if isLetterByte b then .ok ⟨.word [b], toks⟩
  else if b ∈ [0x3D, 0x5B, 0x5D, 0x7B, 0x7D, 0x28, 0x29, 0x3A, 0x2C] then .ok ⟨.code, toks ++ [.punct b]⟩
  else if b = 0x3B then .ok ⟨.code, toks ++ [.semi]⟩
  else .error .other

/-- The next byte. -/
def lexStep (st : LexState) (b : UInt8) : Except LexError LexState :=
  match st.mode with
  | .code => lexCode st.toks b
  | .word s =>
    if isLetterByte b || isDigitByte b then .ok ⟨.word (s ++ [b]), st.toks⟩
    else lexCode (st.toks ++ [.word s]) b
  | .slash => if b = 0x2F then .ok ⟨.comment, st.toks⟩ else .error .other
  | .comment => if b = 0x0A then .ok ⟨.code, lineEnd st.toks⟩ else .ok st
  | .text s =>
    if b = 0x22 then .ok ⟨.code, st.toks ++ [.text s]⟩
    else if b = 0x0A then .error .newline
    else if b = 0x5C then .ok ⟨.escape s, st.toks⟩
    else .ok ⟨.text (s ++ [b]), st.toks⟩
  | .escape s =>
    if b = 0x78 then .ok ⟨.digits s 2 0 false, st.toks⟩
    else if b = 0x75 then .ok ⟨.digits s 4 0 true, st.toks⟩
    else if b = 0x55 then .ok ⟨.digits s 8 0 true, st.toks⟩
    else match escapeValue b with
      | some c => .ok ⟨.text (s ++ [c]), st.toks⟩
      | none => .error .other
  | .digits s left value rune =>
    match hexValue b with
    | none => .error .other
    | some d =>
      let value := value * 16 + d
      if left ≠ 1 then .ok ⟨.digits s (left - 1) value rune, st.toks⟩
      else if !rune then .ok ⟨.text (s ++ [UInt8.ofNat value]), st.toks⟩
      else if ValidRune value then .ok ⟨.text (s ++ encodeRune value), st.toks⟩
      else .error .other

/-- The bytes one after the other. -/
def lexFrom (st : LexState) : Bytes → Except LexError LexState
  | [] => .ok st
  | b :: t =>
    match lexStep st b with
    | .error e => .error e
    | .ok st => lexFrom st t

/-- The tokens of a file. -/
def lex (src : Bytes) : Except LexError (List GoTok) :=
  match lexFrom ⟨.code, []⟩ src with
  | .error e => .error e
  | .ok st =>
    match st.mode with
    | .code | .comment => .ok (lineEnd st.toks)
    | .word s => .ok (lineEnd (st.toks ++ [.word s]))
    | _ => .error .other

/-- Source text is UTF-8 without NUL and without byte order marks. -/
def PlainText (src : Bytes) : Prop :=
  ∃ rs : List Rune, (∀ r ∈ rs, ValidRune r ∧ r ≠ 0 ∧ r ≠ 0xFEFF) ∧ src = encodeRunes rs

/-- `"k": "v", "k": "v"`, with or without a comma at the end. -/
def pairToks (comma : Bool) : List (Bytes × Bytes) → List GoTok
  | [] => []
  | [e] => [.text e.1, .punct 0x3A, .text e.2] ++ if comma then [.punct 0x2C] else []
  | e :: e' :: l => [.text e.1, .punct 0x3A, .text e.2, .punct 0x2C] ++ pairToks comma (e' :: l)

/-- `package name; var mappings = map[string]string{ ... };`. -/
def fileToks (name : Bytes) (comma : Bool) (table : List (Bytes × Bytes)) : List GoTok :=
  [.word (str "package"), .word name, .semi, .word (str "var"), .word (str "mappings"), .punct 0x3D,
   .word (str "map"), .punct 0x5B, .word (str "string"), .punct 0x5D, .word (str "string"), .punct 0x7B]
    ++ pairToks comma table ++ [.punct 0x7D, .semi]

/-- The file belongs to package `name` and declares `mappings` to be the map with these entries. No key
may occur twice in a composite literal. -/
def Declares (src name : Bytes) (table : List (Bytes × Bytes)) : Prop :=
  PlainText src ∧ (table.map Prod.fst).Nodup ∧ ∃ comma, lex src = .ok (fileToks name comma table)

/-- What is known about `format.Source`: it keeps the meaning of what it accepts, accepts files like
these, and does not accept a line break in a string literal. -/
structure FormatLaws (format : Bytes → Option Bytes) : Prop where
  keeps : ∀ src name table, Declares src name table → ∃ out, format src = some out ∧ Declares out name table
  rejects : ∀ src, lex src = .error .newline → format src = none

/-- What is known about `strconv.IsPrint`: control characters and the byte order mark are not printable. -/
structure PrintLaws (isPrint : Rune → Bool) : Prop where
  control : ∀ r, r < 0x20 → isPrint r = false
  mark : isPrint 0xFEFF = false

/-- What the breaking of lines is not made for: `, `, what ends in `", ` or `{`, what begins with `}` and
what has `"}` in it. -/
def Unlucky (s : Bytes) : Prop :=
  s = str ", " ∨ str "\", " <:+ s ∨ str "{" <:+ s ∨ str "}" <+: s ∨ str "\"}" <:+: s

end Jargon
