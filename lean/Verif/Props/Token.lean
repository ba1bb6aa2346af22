import Verif.Proofs.Token

/-! C01: NewToken. -/

namespace Jargon

/-- **C01.** NewToken gives nil exactly for the empty string, and otherwise exactly the token
documented for the string — cached, special-cased or not. -/
theorem C01_newToken_exact (U : Unicode) (s : Bytes) (l : Bool) :
    (newToken U s l = none ↔ s = []) ∧ ∀ t, newToken U s l = some t ↔ s ≠ [] ∧ TokenFor U s l t := by
  refine ⟨newToken_none_iff U s l, fun t => ?_⟩
  rw [newToken_eq_some]
  constructor
  · rintro ⟨h, rfl⟩; exact ⟨h, mkToken_for U s l⟩
  · rintro ⟨h, ht⟩; exact ⟨h, ht.eq⟩

/-- The token documented for a string is unique, so C01 determines NewToken completely. -/
theorem C01_token_unique {U : Unicode} {s : Bytes} {l : Bool} {t t' : Token}
    (h : TokenFor U s l t) (h' : TokenFor U s l t') : t = t' := h.eq.trans h'.eq.symm

/-- CRLF: both space and punctuation, as a single token. -/
example : newToken asciiUnicode crlf false = some ⟨crlf, true, true, false⟩ := by decide +kernel
/-- A cached word. -/
example : newToken asciiUnicode (str "The") true = some ⟨str "The", false, false, true⟩ := by
  decide +kernel
/-- A tab is space and punctuation; a blank is only space. -/
example : newToken asciiUnicode [9] false = some ⟨[9], true, true, false⟩ ∧
    newToken asciiUnicode [32] false = some ⟨[32], false, true, false⟩ := by decide +kernel

end Jargon
