import Verif.Model.AsciiTable
import Verif.Model.Simple

/-! Model of `filters/ascii`. -/

namespace Jargon

/-- filters/ascii/fold.go:15-2153: the `switch` on a rune that is not ASCII: the case taken, or
`none` for `default`. -/
def foldSwitch (r : Rune) : Option FoldCase := foldCases.find? fun c => c.keys.contains r

/-- filters/ascii/fold.go:10-2155: the loop over the runes, with the buffer and `folded`. -/
def foldLoop : List Rune → Bytes → Bool → Bytes × Bool
  | [], b, folded => (b, folded)
  | r :: rs, b, folded =>
    if r < 0x80 then foldLoop rs (b ++ encodeRune r) folded
    else match foldSwitch r with
      | some c => foldLoop rs (b ++ encodeRunes c.out) (if c.sets then true else folded)
      | none => foldLoop rs (b ++ encodeRune r) folded

/-- filters/ascii/fold.go:6-2163 `FoldString`. -/
def foldString (s : Bytes) : Bytes × Bool :=
  let (b, folded) := foldLoop (runes s) [] false
  if folded then (b, true) else (s, false)

/-- filters/ascii/filter.go:33-39 `folder`. -/
def asciiFolder (U : Unicode) : TokenFunc
  | none => Go.panic .nilDeref
  | some token =>
    let (fold, folded) := foldString token.string
    if folded then Go.ret (newToken U fold true) else Go.ret (some token)

/-- filters/ascii/filter.go:31 `Fold`. -/
def asciiFold (U : Unicode) : Filter := mapper [asciiFolder U]

end Jargon
