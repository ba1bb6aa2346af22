import Verif.Spec.Filters
import Verif.Proofs.Utf8

/-! NewToken and its cache. -/

namespace Jargon

theorem isSpaceRune_iff (r : Nat) : isSpaceRune r = true ↔ r ∈ whiteSpace := by
  simp [isSpaceRune, whiteSpace]; omega

theorem punctRune_iff (U : Unicode) (r : Nat) :
    U.punctRune r = true ↔ U.isPunct r = true ∨ r = 0x0A ∨ r = 0x0D ∨ r = 0x09 := by
  simp [Unicode.punctRune, spaceIsPunct, or_assoc]

/-- What NewToken computes without its cache and special case. -/
def plainToken (U : Unicode) (s : Bytes) (isLemma : Bool) : Option Token :=
  if s = [] then none
  else some { value := s, punct := (runes s).all U.punctRune, space := (runes s).all isSpaceRune,
              lemma := isLemma }

theorem runes_crlf : runes crlf = [13, 10] := by decide

theorem newTokenWith_of_ok {U : Unicode} {c : Cache}
    (hc : ∀ s p, c.lookup s = some p → p = (plainToken U s true, plainToken U s false))
    (s : Bytes) (l : Bool) : newTokenWith U c s l = plainToken U s l := by
  unfold newTokenWith
  split
  · rename_i t f h
    have := hc _ _ h
    simp only [Prod.mk.injEq] at this
    cases l <;> simp [this]
  · unfold plainToken
    by_cases h : s = []
    · simp [h]
    · rw [if_neg (by simpa using h), if_neg h]
      split
      · rename_i h'
        subst h'
        simp [runes_crlf, Unicode.punctRune, spaceIsPunct, isSpaceRune]
      · rfl

theorem common_ok (U : Unicode) (s : Bytes) (p : Option Token × Option Token)
    (h : (common U).lookup s = some p) : p = (plainToken U s true, plainToken U s false) := by
  unfold common at h
  have key : ∀ (l : List Bytes) (c : Cache),
      (∀ s p, c.lookup s = some p → p = (plainToken U s true, plainToken U s false)) →
      ∀ s p, (l.foldl (addCommon U) c).lookup s = some p →
        p = (plainToken U s true, plainToken U s false) := by
    intro l
    induction l with
    | nil => intro c hc; exact hc
    | cons x l ih =>
      intro c hc
      apply ih
      intro s p hsp
      unfold addCommon at hsp
      rw [List.lookup_cons] at hsp
      split at hsp
      · rename_i hx
        have hx : s = x := by simpa using hx
        subst hx
        simp only [Option.some.injEq] at hsp
        rw [← hsp, newTokenWith_of_ok hc, newTokenWith_of_ok hc]
      · exact hc _ _ hsp
  exact key _ [] (by simp) _ _ h

theorem newToken_eq (U : Unicode) (s : Bytes) (l : Bool) : newToken U s l = plainToken U s l :=
  newTokenWith_of_ok (common_ok U) s l

theorem newToken_none_iff (U : Unicode) (s : Bytes) (l : Bool) : newToken U s l = none ↔ s = [] := by
  rw [newToken_eq]; unfold plainToken; split <;> simp_all

theorem newToken_some {U : Unicode} {s : Bytes} {l : Bool} (h : s ≠ []) :
    newToken U s l = some (mkToken U s l) := by
  rw [newToken_eq]; simp [plainToken, h, mkToken]

theorem newToken_eq_some {U : Unicode} {s : Bytes} {l : Bool} {t : Token} :
    newToken U s l = some t ↔ s ≠ [] ∧ t = mkToken U s l := by
  by_cases h : s = []
  · simp [newToken_eq, plainToken, h]
  · simp [newToken_some h, h, eq_comm]

theorem mkToken_for (U : Unicode) (s : Bytes) (l : Bool) : TokenFor U s l (mkToken U s l) where
  value := rfl
  lemma_ := rfl
  space := by simp [mkToken, isSpaceRune_iff]
  punct := by simp [mkToken, punctRune_iff]

theorem TokenFor.eq {U : Unicode} {s : Bytes} {l : Bool} {t : Token} (h : TokenFor U s l t) :
    t = mkToken U s l := by
  obtain ⟨h1, h2, h3, h4⟩ := h
  obtain ⟨g1, g2, g3, g4⟩ := mkToken_for U s l
  cases t
  simp only at h1 h2 h3 h4
  simp only [mkToken, Token.mk.injEq]
  refine ⟨h1, ?_, ?_, h2⟩
  · exact Bool.eq_iff_iff.2 (h4.trans g4.symm)
  · exact Bool.eq_iff_iff.2 (h3.trans g3.symm)

end Jargon
