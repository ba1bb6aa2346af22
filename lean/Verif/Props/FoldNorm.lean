import Verif.Props.Simple
import Verif.Props.FoldExpand

/-! C127: letters with accents, written as one character or as several, and folding and normalization in either
order. -/

namespace Jargon

/-! ### The specification -/

/-- The combining diacritical marks of Unicode. -/
def Combining (r : Rune) : Prop := 0x300 ≤ r ∧ r ≤ 0x36F

/-- A letter of ASCII. -/
def AsciiLetter (r : Rune) : Prop := (0x41 ≤ r ∧ r ≤ 0x5A) ∨ (0x61 ≤ r ∧ r ≤ 0x7A)

/-- **C127 (full).** A letter with accents folds to the letter, whether it is written as one character or as the letter
with the accents after it. -/
def C127_full : Prop :=
  (∀ p ∈ accented, (foldString (encodeRunes [p.1])).1 = encodeRunes [p.2]) ∧
  ∀ (c : Rune) (marks : List Rune), AsciiLetter c → (∀ m ∈ marks, Combining m) →
    (foldString (encodeRunes (c :: marks))).1 = encodeRunes [c]

/-- **C127 (full, of filters).** Folding may come before or after normalization. -/
def C127_full_order (U : Unicode) : Prop :=
  ∀ N : NormForm, N.Lawful → ∀ (ts : TokenStream) (toks : List Token) (e : End), ts.Yields toks e →
    ∃ out, (normFilter U N (asciiFold U ts)).Yields out e ∧ (asciiFold U (normFilter U N ts)).Yields out e

/-! ### Lemmas -/

theorem combining_checked : (List.range 0x70).all (fun i => (findB foldCases (0x300 + i)).isNone) = true := by
  decide +kernel

/-- No combining mark is in the table. -/
theorem equivalent_combining {r : Rune} (h : Combining r) : equivalent r = none := by
  have := List.all_eq_true.1 combining_checked (r - 0x300) (by simp [Combining] at *; omega)
  rw [show 0x300 + (r - 0x300) = r by simp [Combining] at h; omega] at this
  rw [equivalent_eq]
  simpa using this

theorem flags_none {r : Rune} (h : equivalent r = none) : flags r = false := by
  rw [← foldSwitch_eq, Option.map_eq_none_iff] at h
  rw [flags, h]; rfl

/-! ### C127 -/

/-- **C127 (accents by themselves).** A text of ASCII characters and combining marks, as normalization form D makes of
most Latin texts, is not changed at all. -/
theorem C127_marks_kept (s : Bytes) (h : ∀ r ∈ runes s, r < 0x80 ∨ Combining r) : foldString s = (s, false) := by
  rw [foldString_eq, if_neg]
  simp only [List.any_eq_true, not_exists, not_and, Bool.not_eq_true]
  intro r hr
  rcases h r hr with h | h
  · exact flags_ascii h
  · exact flags_none (equivalent_combining h)

theorem accented_checked : accented.all (fun p => Nat.blt p.1 0x2053 || Nat.blt 0x2053 p.1) = true ∧
    accented.all (fun p => Nat.blt p.1 0xD800) = true := by decide +kernel

/-- **C127 (partial).** Texts of letters with accents that are written as one character each, but for "ǧ" and the
Ångström sign, fold to the letters. Missing: those two, and accents that are characters of their own
(`C127_violated`). -/
theorem C127_composed_partial (l : List (Rune × Rune))
    (h : ∀ p ∈ l, p ∈ accented ∧ p.1 ≠ 0x01E7 ∧ p.1 ≠ 0x212B) :
    (foldString (encodeRunes (l.map Prod.fst))).1 = encodeRunes (l.map Prod.snd) := by
  have hv : ∀ p ∈ l, p.1 < 0xD800 ∧ p.1 ≠ 0x2053 ∧ equivalent p.1 = some [p.2] := by
    intro p hp
    obtain ⟨h1, h2, h3⟩ := h p hp
    have a := List.all_eq_true.1 accented_checked.1 p h1
    have b := List.all_eq_true.1 accented_checked.2 p h1
    simp only [Bool.or_eq_true, Nat.blt_eq] at a b
    exact ⟨b, by omega, C55_diacritics_partial p h1 h2 h3⟩
  have hr : runes (encodeRunes (l.map Prod.fst)) = l.map Prod.fst := by
    refine runes_encodeRunes fun r hr => ?_
    obtain ⟨p, hp, rfl⟩ := List.mem_map.1 hr
    have := (hv p hp).1
    unfold ValidRune
    omega
  rw [foldString_eq, hr]
  split
  · show encodeRunes _ = _
    congr 1
    rename_i hf
    clear hr h hf
    induction l with
    | nil => rfl
    | cons p ps ih =>
      simp only [List.map_cons, List.flatMap_cons]
      rw [ih fun q hq => hv q (by simp [hq])]
      rw [folded, (hv p (by simp)).2.2]
      rfl
  · rename_i hf
    cases l with
    | nil => rfl
    | cons p ps =>
      refine absurd ?_ hf
      have := hv p (by simp)
      simp only [List.map_cons, List.any_cons, Bool.or_eq_true]
      exact Or.inl ((flags_iff _).2 ⟨by simp [this.2.2], this.2.1, by omega⟩)

/-- **C127 (violated).** "é" folds to "e" if it is one character; if it is "e" with an accent after it, it stays as it
is, as does every letter of ASCII with accents after it. -/
theorem C127_violated : ¬ C127_full ∧ foldString (str "\u00e9") = (str "e", true) ∧
    foldString (str "e\u0301") = (str "e\u0301", false) := by
  have h1 : foldString (str "e\u0301") = (str "e\u0301", false) := by decide +kernel
  refine ⟨fun h => ?_, by decide +kernel, h1⟩
  have := h.2 0x65 [0x301] (by simp [AsciiLetter]) (by simp [Combining])
  rw [show encodeRunes [0x65, 0x301] = str "e\u0301" by decide +kernel, h1] at this
  revert this
  decide +kernel

/-- **C127 (filters, partial).** Folding may come before or after normalization if the tokens are normalized already
and folding leaves them so, as it does if it makes ASCII of them. Missing: texts that are not normalized
(`C127_violated_order`). -/
theorem C127_order_partial {U : Unicode} {N : NormForm} (hN : N.Lawful) {toks : List Token}
    (h1 : ∀ t ∈ toks, N.isNormalString t.value = true) (h2 : ∀ t ∈ toks, N.isNormalString (foldString t.value).1 = true)
    {ts : TokenStream} {e : End} (h : ts.Yields toks e) :
    ∃ out, (normFilter U N (asciiFold U ts)).Yields out e ∧ (asciiFold U (normFilter U N ts)).Yields out e := by
  have y1 := norm_yields (U := U) hN (asciiFold_yields U h)
  have y2 := asciiFold_yields U (norm_yields (U := U) hN h)
  have e1 : (toks.map (foldToken U)).map (normToken U N) = toks.map (foldToken U) := by
    rw [List.map_map]
    refine List.map_congr_left fun t ht => ?_
    simp [normToken, foldToken_value, h2 t ht]
  have e2 : toks.map (normToken U N) = toks := by
    conv => rhs; rw [← List.map_id toks]
    refine List.map_congr_left fun t ht => ?_
    simp [normToken, h1 t ht]
  rw [e1] at y1
  rw [e2] at y2
  exact ⟨_, y1, y2⟩

/-- What normalization form D does with the text "é", and nothing else. -/
def formD : NormForm where
  isNormalString s := s != str "\u00e9"
  string s := if s = str "\u00e9" then str "e\u0301" else s

theorem formD_lawful : formD.Lawful where
  normal s := by
    have h : str "e\u0301" ≠ str "\u00e9" := by decide +kernel
    by_cases hs : s = str "\u00e9" <;> simp [formD, hs, h]
  empty := by decide +kernel
  nonempty s h := by
    by_cases hs : s = str "\u00e9"
    · rw [show formD.string s = str "e\u0301" by simp [formD, hs]] at h
      exact absurd h (by decide +kernel)
    · simpa [formD, hs] using h

/-- **C127 (filters, violated).** "é" becomes "e" if it is folded before it is decomposed; if after, it keeps its
accent. -/
theorem C127_violated_order (U : Unicode) : ¬ C127_full_order U ∧
    (normFilter U formD (asciiFold U (listStream [mkToken U (str "\u00e9") false] .eof))).Yields
      [mkToken U (str "e") true] .eof ∧
    (asciiFold U (normFilter U formD (listStream [mkToken U (str "\u00e9") false] .eof))).Yields
      [mkToken U (str "e\u0301") true] .eof := by
  have f1 : foldString (str "\u00e9") = (str "e", true) := by decide +kernel
  have f2 : foldString (str "e\u0301") = (str "e\u0301", false) := by decide +kernel
  have n1 : formD.isNormalString (str "e") = true := by decide +kernel
  have n2 : formD.isNormalString (str "\u00e9") = false := by decide +kernel
  have n3 : formD.string (str "\u00e9") = str "e\u0301" := by decide +kernel
  have h0 := listStream_yields [mkToken U (str "\u00e9") false] .eof
  have y1 := norm_yields (U := U) formD_lawful (asciiFold_yields U h0)
  have y2 := asciiFold_yields U (norm_yields (U := U) formD_lawful h0)
  rw [show ([mkToken U (str "\u00e9") false].map (foldToken U)).map (normToken U formD) = [mkToken U (str "e") true] by
    simp [foldToken, normToken, mkToken, f1, n1]] at y1
  rw [show ([mkToken U (str "\u00e9") false].map (normToken U formD)).map (foldToken U) =
    [mkToken U (str "e\u0301") true] by simp [foldToken, normToken, mkToken, f2, n2, n3]] at y2
  refine ⟨fun h => ?_, y1, y2⟩
  obtain ⟨out, a, b⟩ := h _ formD_lawful _ _ _ h0
  have := congrArg (List.map Token.value) ((a.unique y1).1.symm.trans (b.unique y2).1)
  simp only [List.map_cons, List.map_nil, mkToken] at this
  revert this
  decide +kernel

-- what the partial versions are about
example : [(0xE9, 0x65), (0xE8, 0x65)].all (fun p => decide (p ∈ accented ∧ p.1 ≠ 0x01E7 ∧ p.1 ≠ 0x212B)) = true := by
  decide +kernel

example : formD.isNormalString (str "\u00e8") = true ∧ formD.isNormalString (foldString (str "\u00e8")).1 = true ∧
    (foldString (str "\u00e8")).2 = true := by decide +kernel

end Jargon
