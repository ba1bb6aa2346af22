import Verif.Model.Prelude

/-! A notation for long texts that the kernel can compute with: `n!"..."` is the UTF-8 encoding of the
literal read as a number in base 256, after a leading digit 1; `textOf` gives the bytes back. -/

namespace Jargon

/-- The bytes of an encoded text, most significant first, before `acc`. -/
def textAux : Nat → Nat → List Nat → List Nat
  | 0, _, acc => acc
  | fuel + 1, n, acc => bif Nat.ble 256 n then textAux fuel (n / 256) (n % 256 :: acc) else acc

/-- The bytes of an encoded text. -/
def textOf (n : Nat) : Bytes := (textAux (Nat.log2 n) n []).map UInt8.ofNat

/-- `n!"..."`: a text as a number, for `textOf`. -/
syntax:max "n!" noWs str : term

macro_rules
  | `(n!$s:str) => do
    let n := s.getString.toUTF8.foldl (fun n b => n * 256 + b.toNat) 1
    return Lean.Syntax.mkNumLit (toString n)

example : textOf n!"" = [] := by decide +kernel
example : textOf n!"don’t, Élie" = str "don’t, Élie" := by decide +kernel

end Jargon
