import Verif.Spec.GoSource

/-! Another small part of the Go language: composite literals of pointers to structs and of maps whose keys
are runes. From the Go specification ("Lexical elements", "Composite literals"); nothing here looks at
how a declaration is printed. -/

namespace Jargon

/-! ### Tokens -/

/-- Tokens. Literals are represented by their values. -/
inductive DeclTok where
  | word (s : Bytes)
  | text (s : Bytes)
  | rune (r : Rune)
  | num (n : Nat)
  | punct (b : UInt8)
  | semi
deriving DecidableEq

/-- Where the scanner is: between tokens, in an identifier or keyword, in a number, in a string literal
(there, `Verif.Spec.GoSource` says how to go on), in a rune literal, or after a backslash there. -/
inductive DeclMode where
  | code
  | word (s : Bytes)
  | num (n : Nat)
  | text (m : LexMode)
  | rune (s : Bytes)
  | runeEscape
deriving DecidableEq

/-- `ends`: a line break here is a semicolon, because of the last token. -/
structure DeclState where
  mode : DeclMode
  ends : Bool
deriving DecidableEq

/-- What comes of one byte: tokens and a state. -/
abbrev DeclStep := Except LexError (List DeclTok × DeclState)

/-- A line break, or the end of the file. -/
def declEnd (ends : Bool) : List DeclTok := if ends then [.semi] else []

/-- The next byte, between tokens. Operators of more than one character are not in this part of the
language, and neither are comments. -/
def declCode (ends : Bool) (b : UInt8) : DeclStep :=
  if b = 0x22 then .ok ([], ⟨.text (.text []), false⟩)
  else if b = 0x27 then .ok ([], ⟨.rune [], false⟩)
  else if b = 0x0A then .ok (declEnd ends, ⟨.code, false⟩)
  else if b = 0x20 ∨ b = 0x09 ∨ b = 0x0D then .ok ([], ⟨.code, ends⟩)
  else if isLetterByte b then .ok ([], ⟨.word [b], false⟩)
  else if isDigitByte b then .ok ([], ⟨.num (b.toNat - 0x30), false⟩)
  else if b ∈ [0x26, 0x2A, 0x2E, 0x5B, 0x7B, 0x28, 0x3A, 0x2C] then .ok ([.punct b], ⟨.code, false⟩)
  else if b ∈ [0x5D, 0x7D, 0x29] then .ok ([.punct b], ⟨.code, true⟩)
  else if b = 0x3B then .ok ([.semi], ⟨.code, false⟩)
  else .error .other

/-- With these tokens before. -/
def declAfter (toks : List DeclTok) : DeclStep → DeclStep
  | .error e => .error e
  | .ok r => .ok (toks ++ r.1, r.2)

/-- The end of a rune literal: it has to be one character. -/
def runeLit (s : Bytes) : DeclStep :=
  match runes s with
  | [r] => if encodeRune r = s then .ok ([.rune r], ⟨.code, true⟩) else .error .other
  | _ => .error .other

/-- The next byte. Escapes with digits in rune literals are not in this part of the language. -/
def declStep (st : DeclState) (b : UInt8) : DeclStep :=
  match st.mode with
  | .code => declCode st.ends b
  | .word s =>
    if isLetterByte b || isDigitByte b then .ok ([], ⟨.word (s ++ [b]), false⟩)
    else declAfter [.word s] (declCode (s ∉ goKeywords) b)
  | .num n =>
    if isDigitByte b then
      if n = 0 then .error .other else .ok ([], ⟨.num (n * 10 + (b.toNat - 0x30)), false⟩)
    else if isLetterByte b || b = 0x2E then .error .other
    else declAfter [.num n] (declCode true b)
  | .text m =>
    match lexStep ⟨m, []⟩ b with
    | .error e => .error e
    | .ok ⟨m, []⟩ => .ok ([], ⟨.text m, false⟩)
    | .ok ⟨_, .text s :: _⟩ => .ok ([.text s], ⟨.code, true⟩)
    | .ok _ => .error .other
  | .rune s =>
    if b = 0x27 then runeLit s
    else if b = 0x0A then .error .newline
    else if b = 0x5C then if s = [] then .ok ([], ⟨.runeEscape, false⟩) else .error .other
    else .ok ([], ⟨.rune (s ++ [b]), false⟩)
  | .runeEscape =>
    if b = 0x27 then .ok ([], ⟨.rune [0x27], false⟩)
    else if b = 0x22 then .error .other
    else match escapeValue b with
      | some c => .ok ([], ⟨.rune [c], false⟩)
      | none => .error .other

/-- The bytes one after the other. -/
def declRun (st : DeclState) : Bytes → DeclStep
  | [] => .ok ([], st)
  | b :: t =>
    match declStep st b with
    | .error e => .error e
    | .ok r => declAfter r.1 (declRun r.2 t)

/-- The tokens of a text, with the semicolon at its end. -/
def declLex (src : Bytes) : Except LexError (List DeclTok) :=
  match declRun ⟨.code, false⟩ src with
  | .error e => .error e
  | .ok (toks, st) =>
    match st.mode with
    | .code => .ok (toks ++ declEnd st.ends)
    | .word s => .ok (toks ++ .word s :: declEnd (s ∉ goKeywords))
    | .num n => .ok (toks ++ [.num n, .semi])
    | _ => .error .other

/-! ### Types and literals -/

/-- `string`, `bool`, `int`, `*pkg.name` and `map[rune]t`. -/
inductive GoType where
  | string | bool | int
  | ptr (pkg name : Bytes)
  | map (t : GoType)
deriving DecidableEq

def GoType.toks : GoType → List DeclTok
  | .string => [.word (str "string")]
  | .bool => [.word (str "bool")]
  | .int => [.word (str "int")]
  | .ptr pkg name => [.punct 0x2A, .word pkg, .punct 0x2E, .word name]
  | .map t => [.word (str "map"), .punct 0x5B, .word (str "rune"), .punct 0x5D] ++ t.toks

/-- `"..."`, `true` or `false`, a number, `&pkg.name{field: ..., }` and `map[rune]t{'r': ..., }`. -/
inductive GoLit where
  | text (s : Bytes)
  | bool (b : Bool)
  | num (n : Nat)
  | ptr (pkg name : Bytes) (fields : List (Bytes × GoLit))
  | map (t : GoType) (entries : List (Rune × GoLit))

mutual
/-- A literal as tokens. There is a comma after each field and after each entry. -/
def GoLit.toks : GoLit → List DeclTok
  | .text s => [.text s]
  | .bool b => [.word (if b then str "true" else str "false")]
  | .num n => [.num n]
  | .ptr pkg name fields =>
    [.punct 0x26, .word pkg, .punct 0x2E, .word name, .punct 0x7B] ++ fieldToks fields ++ [.punct 0x7D]
  | .map t entries => (GoType.map t).toks ++ [.punct 0x7B] ++ entryToks entries ++ [.punct 0x7D]
def fieldToks : List (Bytes × GoLit) → List DeclTok
  | [] => []
  | (k, v) :: l => [.word k, .punct 0x3A] ++ v.toks ++ [.punct 0x2C] ++ fieldToks l
def entryToks : List (Rune × GoLit) → List DeclTok
  | [] => []
  | (r, v) :: l => [.rune r, .punct 0x3A] ++ v.toks ++ [.punct 0x2C] ++ entryToks l
end

/-- The text is this expression. -/
def Expresses (src : Bytes) (v : GoLit) : Prop :=
  PlainText src ∧ declLex src = .ok (v.toks ++ [.semi])

/-- Declarations of structs: package, name, and the fields with their types. -/
abbrev GoStructs := List ((Bytes × Bytes) × List (Bytes × GoType))

/-- The literal is of the type, with these declarations. No field and no key may be given twice. -/
inductive HasType (D : GoStructs) : GoLit → GoType → Prop
  | text (s) : HasType D (.text s) .string
  | bool (b) : HasType D (.bool b) .bool
  | num (n) : HasType D (.num n) .int
  | ptr {pkg name fields types} (ty : Bytes → GoType) : ((pkg, name), types) ∈ D →
      (fields.map Prod.fst).Nodup → (∀ e ∈ fields, (e.1, ty e.1) ∈ types) →
      (∀ e ∈ fields, HasType D e.2 (ty e.1)) →
      HasType D (.ptr pkg name fields) (.ptr pkg name)
  | map {t entries} : (entries.map Prod.fst).Nodup → (∀ e ∈ entries, HasType D e.2 t) →
      HasType D (.map t entries) (.map t)

/-! ### Values -/

/-- The value given to a field, if one is. -/
def GoLit.field? (v : GoLit) (k : Bytes) : Option GoLit :=
  match v with
  | .ptr _ _ fields => fields.lookup k
  | _ => none

/-- A boolean field; by default `false`. -/
def GoLit.flag (v : GoLit) (k : Bytes) : Bool :=
  match v.field? k with
  | some (.bool b) => b
  | _ => false

/-- A text field; by default empty. -/
def GoLit.txt (v : GoLit) (k : Bytes) : Bytes :=
  match v.field? k with
  | some (.text s) => s
  | _ => []

/-- A number field; by default 0. -/
def GoLit.int (v : GoLit) (k : Bytes) : Nat :=
  match v.field? k with
  | some (.num n) => n
  | _ => 0

/-- What a map field has for a rune; by default it is a nil map. -/
def GoLit.at? (v : GoLit) (k : Bytes) (r : Rune) : Option GoLit :=
  match v.field? k with
  | some (.map _ entries) => entries.lookup r
  | _ => none

end Jargon
