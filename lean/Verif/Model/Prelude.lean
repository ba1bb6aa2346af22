/-
  Shared vocabulary of the model: outcomes of Go calls, Go strings, runes and UTF-8.
  None of this is in /repo itself: it is the part of the Go language and of `unicode/utf8`
  that every file in /repo uses.
-/

namespace Jargon

/-- Run-time panics the modelled code could raise. -/
inductive Panic where
  /-- slice index or slice bound out of range, e.g. `q.Tokens[0]` on an empty queue -/
  | indexOutOfRange
  /-- method call or field access through a nil pointer -/
  | nilDeref
deriving DecidableEq, Repr

/-- The outcome of running Go code: `none` never returns, `some (error p)` panics,
`some (ok a)` returns `a`. -/
abbrev Go (α : Type) := ExceptT Panic Option α

/-- A Go call that returns `a`. -/
def Go.ret {α : Type} (a : α) : Go α := some (Except.ok a)

/-- A Go call that panics. -/
def Go.panic {α : Type} (p : Panic) : Go α := some (Except.error p)

/-- A Go call that never returns. -/
def Go.diverge {α : Type} : Go α := none

/-- A Go string: any sequence of bytes. -/
abbrev Bytes := List UInt8

/-- A rune (code point) is written as a natural number. -/
macro "Rune" : term => `(Nat)

/-- `utf8.RuneError`, U+FFFD. -/
def runeError : Rune := 0xFFFD

/-- Is `b` a UTF-8 continuation byte between `lo` and `hi`. -/
def contIn (lo hi : Nat) (b : UInt8) : Bool := lo ≤ b.toNat && b.toNat ≤ hi

/-- `utf8.DecodeRuneInString` (Go standard library): the first rune of a non-empty string and
its width in bytes; a malformed first byte yields U+FFFD and width 1. On `[]` Go returns width 0. -/
def decodeRune : Bytes → Rune × Nat
  | [] => (runeError, 0)
  | b0 :: t =>
    let n0 := b0.toNat
    if n0 < 0x80 then (n0, 1)
    else if n0 < 0xC2 then (runeError, 1)
    else if n0 < 0xE0 then
      match t with
      | b1 :: _ =>
        if contIn 0x80 0xBF b1 then ((n0 - 0xC0) * 0x40 + (b1.toNat - 0x80), 2) else (runeError, 1)
      | _ => (runeError, 1)
    else if n0 < 0xF0 then
      match t with
      | b1 :: b2 :: _ =>
        let lo := if n0 = 0xE0 then 0xA0 else 0x80
        let hi := if n0 = 0xED then 0x9F else 0xBF
        if contIn lo hi b1 && contIn 0x80 0xBF b2 then
          ((n0 - 0xE0) * 0x1000 + (b1.toNat - 0x80) * 0x40 + (b2.toNat - 0x80), 3)
        else (runeError, 1)
      | _ => (runeError, 1)
    else if n0 < 0xF5 then
      match t with
      | b1 :: b2 :: b3 :: _ =>
        let lo := if n0 = 0xF0 then 0x90 else 0x80
        let hi := if n0 = 0xF4 then 0x8F else 0xBF
        if contIn lo hi b1 && contIn 0x80 0xBF b2 && contIn 0x80 0xBF b3 then
          ((n0 - 0xF0) * 0x40000 + (b1.toNat - 0x80) * 0x1000 + (b2.toNat - 0x80) * 0x40
            + (b3.toNat - 0x80), 4)
        else (runeError, 1)
      | _ => (runeError, 1)
    else (runeError, 1)

/-- Decoding loop; `fuel` is the length of the string, which always suffices. -/
def runesAux : Nat → Bytes → List Rune
  | 0, _ => []
  | _ + 1, [] => []
  | n + 1, b :: t => (decodeRune (b :: t)).1 :: runesAux n ((b :: t).drop (decodeRune (b :: t)).2)

/-- The runes visited by `for _, r := range s`. -/
def runes (s : Bytes) : List Rune := runesAux s.length s

/-- A Unicode scalar value, i.e. what `utf8.ValidRune` accepts. -/
def ValidRune (r : Rune) : Prop := r < 0xD800 ∨ (0xDFFF < r ∧ r ≤ 0x10FFFF)

instance (r : Rune) : Decidable (ValidRune r) := by unfold ValidRune; infer_instance

/-- UTF-8 encoding of a valid rune. -/
def encodeValid (r : Rune) : Bytes :=
  if r < 0x80 then [UInt8.ofNat r]
  else if r < 0x800 then [UInt8.ofNat (0xC0 + r / 0x40), UInt8.ofNat (0x80 + r % 0x40)]
  else if r < 0x10000 then
    [UInt8.ofNat (0xE0 + r / 0x1000), UInt8.ofNat (0x80 + r / 0x40 % 0x40),
     UInt8.ofNat (0x80 + r % 0x40)]
  else
    [UInt8.ofNat (0xF0 + r / 0x40000), UInt8.ofNat (0x80 + r / 0x1000 % 0x40),
     UInt8.ofNat (0x80 + r / 0x40 % 0x40), UInt8.ofNat (0x80 + r % 0x40)]

/-- `utf8.EncodeRune` / `Buffer.WriteRune`: an invalid rune is written as U+FFFD. -/
def encodeRune (r : Rune) : Bytes :=
  if ValidRune r then encodeValid r else encodeValid runeError

/-- Writing several runes one after the other. -/
def encodeRunes (rs : List Rune) : Bytes := rs.flatMap encodeRune

/-- The bytes of a Lean string literal, used to write Go string literals in the model. -/
def str (s : String) : Bytes := s.toUTF8.toList

end Jargon
