import Verif.Model.Token
import Verif.Model.Simple

/-! The functions of Go's package `strings`, and of its maps, that the generators use. -/

namespace Jargon

/-- `strings.Split(s, ",")` (Go standard library), for any separator of one byte. -/
def splitByte (sep : UInt8) : Bytes → List Bytes
  | [] => [[]]
  | b :: t =>
    if b = sep then [] :: splitByte sep t
    else match splitByte sep t with
      | p :: ps => (b :: p) :: ps
      | [] => [[b]]

/-- `strings.Join` (Go standard library). -/
def join (sep : Bytes) : List Bytes → Bytes
  | [] => []
  | [s] => s
  | s :: t :: rest => s ++ sep ++ join sep (t :: rest)

/-- `strings.ReplaceAll` (Go standard library) with a non-empty `old`: leftmost occurrences first, none
overlapping. `fuel` is the length of the string. -/
def replaceAux (old new : Bytes) : Nat → Bytes → Bytes
  | 0, s => s
  | _ + 1, [] => []
  | n + 1, b :: t =>
    if old.isPrefixOf (b :: t) then new ++ replaceAux old new n ((b :: t).drop old.length)
    else b :: replaceAux old new n t

/-- `strings.ReplaceAll` (Go standard library) with a non-empty `old`. -/
def replaceAll (old new s : Bytes) : Bytes := replaceAux old new s.length s

/-- `utf8.RuneStart` (Go standard library). -/
def runeStart (b : UInt8) : Bool := !(contIn 0x80 0xBF b)

/-- The loop of `utf8.DecodeLastRuneInString`: how many bytes before the end the last rune starts, looking
at no more than `n` bytes further back than `seen`. The argument is the reversed string. -/
def lastStart : Nat → Nat → Bytes → Nat
  | 0, seen, _ => seen
  | _ + 1, seen, [] => seen
  | n + 1, seen, b :: t => if runeStart b then seen + 1 else lastStart n (seen + 1) t

/-- `utf8.DecodeLastRuneInString` (Go standard library): look back for the start of a rune, over at
most four bytes, and decode there; if that does not take the string to its end, U+FFFD and width 1. (If
no start is found Go decodes one byte further back, with the same result.) -/
def decodeLastRune (s : Bytes) : Rune × Nat :=
  match s.reverse with
  | [] => (runeError, 0)
  | b :: t =>
    if b.toNat < 0x80 then (b.toNat, 1)
    else
      let n := lastStart 3 1 t
      let (r, size) := decodeRune (s.drop (s.length - n))
      if size = n then (r, size) else (runeError, 1)

/-- `strings.TrimLeftFunc(s, unicode.IsSpace)` (Go standard library); `fuel` is the length. -/
def trimLeftAux : Nat → Bytes → Bytes
  | 0, s => s
  | n + 1, s =>
    if s = [] then []
    else if isSpaceRune (decodeRune s).1 then trimLeftAux n (s.drop (decodeRune s).2) else s

/-- `strings.TrimRightFunc(s, unicode.IsSpace)` (Go standard library); `fuel` is the length. -/
def trimRightAux : Nat → Bytes → Bytes
  | 0, s => s
  | n + 1, s =>
    if s = [] then []
    else if isSpaceRune (decodeLastRune s).1 then trimRightAux n (s.take (s.length - (decodeLastRune s).2))
    else s

/-- `strings.TrimSpace` (Go standard library). Its short way for ASCII is left out. -/
def trimSpace (s : Bytes) : Bytes :=
  trimRightAux (trimLeftAux s.length s).length (trimLeftAux s.length s)

/-- `m[k] = v` for a Go map. -/
def StringMap.set (m : StringMap) (k v : Bytes) : StringMap := (k, v) :: m.filter (·.1 ≠ k)

end Jargon
