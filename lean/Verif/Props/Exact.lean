import Verif.Props.Lucene
import Verif.Props.Html

/-! C18, C45, C53–C55, C63: exactly which strings, characters and texts the partial theorems miss. -/

namespace Jargon

/-! ### C18 -/

/-- If nothing of a string sets the flag, it is left as it is. -/
theorem foldString_unflagged {s : Bytes}
    (h : ¬ ((∀ r ∈ runes s, r ≠ 0x2053 ∧ r ≠ 0xFF5E) ∨
      ∃ r ∈ runes s, equivalent r ≠ none ∧ r ≠ 0x2053 ∧ r ≠ 0xFF5E)) :
    foldString s = (s, false) ∧ ∃ r ∈ runes s, r = 0x2053 ∨ r = 0xFF5E := by
  rw [not_or] at h
  obtain ⟨h1, h2⟩ := h
  constructor
  · rw [foldString_eq, if_neg]
    intro hf
    obtain ⟨r, hr, hfl⟩ := List.any_eq_true.mp hf
    exact h2 ⟨r, hr, (flags_iff r).mp hfl⟩
  · refine Classical.byContradiction fun hc => ?_
    refine h1 fun r hr => ⟨fun e => hc ⟨r, hr, .inl e⟩, fun e => hc ⟨r, hr, .inr e⟩⟩

theorem equivalent_tilde {r : Rune} (h : r = 0x2053 ∨ r = 0xFF5E) : equivalent r = some [0x7E] := by
  have h1 : equivalent 0x2053 = some [0x7E] := by decide +kernel
  have h2 : equivalent 0xFF5E = some [0x7E] := by decide +kernel
  rcases h with rfl | rfl
  · exact h1
  · exact h2

/-- **C18 (exactly).** A string is folded completely if and only if it contains neither U+2053 nor
U+FF5E, or some other character with an equivalent. -/
theorem C18_exact (s : Bytes) :
    (∀ r ∈ runes (foldString s).1, equivalent r = none) ↔
      ((∀ r ∈ runes s, r ≠ 0x2053 ∧ r ≠ 0xFF5E) ∨
        ∃ r ∈ runes s, equivalent r ≠ none ∧ r ≠ 0x2053 ∧ r ≠ 0xFF5E) := by
  refine ⟨fun h => ?_, fun h => (C18_complete_partial s h).1⟩
  refine Classical.byContradiction fun hc => ?_
  obtain ⟨h1, r, hr, h2⟩ := foldString_unflagged hc
  have := h r (by rw [h1]; exact hr)
  rw [equivalent_tilde h2] at this
  cases this

/-- Not vacuous: a string on either side. -/
example : (¬ ∀ r ∈ runes (foldString (str "a～b")).1, equivalent r = none) ∧
    ∀ r ∈ runes (foldString (str "à～b")).1, equivalent r = none := by
  constructor
  · rw [C18_exact]
    simp only [equivalent_eq]
    decide +kernel
  · simp only [equivalent_eq]
    decide +kernel

/-! ### C45 -/

theorem htmlEscapeByte_length (b : UInt8) :
    1 ≤ (htmlEscapeByte b).length ∧ (b ∈ str "&'<>\"\r" → 1 < (htmlEscapeByte b).length) := by
  have h : ∀ n : Fin 256, 1 ≤ (htmlEscapeByte ⟨⟨n⟩⟩).length ∧
      ((⟨⟨n⟩⟩ : UInt8) ∈ str "&'<>\"\r" → 1 < (htmlEscapeByte ⟨⟨n⟩⟩).length) := by decide +kernel
  exact h b.toBitVec.toFin

theorem htmlEscape_length (d : Bytes) :
    d.length ≤ (htmlEscape d).length ∧
      ((∃ b ∈ d, b ∈ str "&'<>\"\r") → d.length < (htmlEscape d).length) := by
  unfold htmlEscape
  induction d with
  | nil => simp
  | cons b d ih =>
    have hb := htmlEscapeByte_length b
    simp only [List.flatMap_cons, List.length_append, List.length_cons]
    refine ⟨by omega, ?_⟩
    rintro ⟨x, hx, hx2⟩
    rcases List.mem_cons.mp hx with rfl | hx
    · have := hb.2 hx2; omega
    · have := ih.2 ⟨x, hx, hx2⟩; omega

/-- **C45 (exactly).** A text node is rendered as its text if and only if it has none of & ' < > " and
carriage return. -/
theorem C45_exact (h : HTok) (ht : h.type = .text) :
    h.string = h.data ↔ ∀ b ∈ h.data, b ∉ str "&'<>\"\r" := by
  refine ⟨fun heq b hb hm => ?_, fun hd => C45_html_text_verbatim_partial h hd ht⟩
  have h1 : h.string = htmlEscape h.data := by simp only [HTok.string, ht]
  have := (htmlEscape_length h.data).2 ⟨b, hb, hm⟩
  rw [← h1, heq] at this
  exact Nat.lt_irrefl _ this

example : (⟨.text, .zero, str "Q&A", []⟩ : HTok).string = str "Q&amp;A" ∧
    (⟨.text, .zero, str "Q and A", []⟩ : HTok).string = str "Q and A" := by decide +kernel

/-! ### C53–C55 -/

/-- **C53 (exactly).** Of all pairs of an upper-case and a lower-case letter, three do not fold
consistently. -/
theorem C53_exact (p : Rune × Rune) (hp : p ∈ casePairs) :
    CaseOK p ↔ p ∉ [(0x01E4, 0x01E5), (0x01E6, 0x01E7), (0xA784, 0xA785)] := by
  constructor
  · intro h hm
    have hno : ∀ q ∈ [((0x01E4, 0x01E5) : Rune × Rune), (0x01E6, 0x01E7), (0xA784, 0xA785)],
        ¬ CaseOK q := by decide +kernel
    exact hno p hm h
  · intro h
    simp only [List.mem_cons, List.not_mem_nil, or_false, not_or] at h
    exact C53_case_partial p hp h.1 h.2.1 h.2.2

example : ([(0x01E4, 0x01E5), (0x01E6, 0x01E7), (0xA784, 0xA785), (0xC9, 0xE9)] :
    List (Rune × Rune)).all (casePairs.contains ·) = true := by decide +kernel

/-- **C54 (exactly).** Of the full-width forms, two do not fold to what they are forms of. -/
theorem C54_exact (r : Rune) (h1 : 0xFF01 ≤ r) (h2 : r ≤ 0xFF5E) :
    equivalent r = some [r - 0xFEE0] ↔ r ≠ 0xFF40 ∧ r ≠ 0xFF5C := by
  constructor
  · intro h
    constructor
    · rintro rfl
      rw [C54_violated_fullwidth.2.1] at h
      cases h
    · rintro rfl
      rw [C54_violated_fullwidth.2.2] at h
      cases h
  · exact fun h => C54_ranges_partial.1 r h1 h2 h.1 h.2

example : equivalent 0xFF41 = some [0x61] := by decide +kernel

/-- **C55 (exactly).** Of the accented letters, two do not fold to the letter without accents. -/
theorem C55_exact (p : Rune × Rune) (hp : p ∈ accented) :
    equivalent p.1 = some [p.2] ↔ p ≠ (0x01E7, 0x67) ∧ p ≠ (0x212B, 0x41) := by
  constructor
  · intro h
    constructor
    · rintro rfl
      rw [C55_violated_diacritics.2.2.1] at h
      exact absurd h (by decide)
    · rintro rfl
      rw [C55_violated_diacritics.2.2.2.2] at h
      cases h
  · intro h
    have hall : accented.all (fun p => (!Nat.beq p.1 0x01E7 || Nat.beq p.2 0x67) &&
        (!Nat.beq p.1 0x212B || Nat.beq p.2 0x41)) = true := by decide +kernel
    have hp2 := List.all_eq_true.mp hall p hp
    obtain ⟨a, b⟩ := p
    simp only [Bool.and_eq_true, Bool.or_eq_true, Bool.not_eq_true'] at hp2
    refine C55_diacritics_partial (a, b) hp ?_ ?_
    · rintro h1
      simp only at h1
      subst h1
      rcases hp2.1 with h3 | h3
      · simp at h3
      · simp [Nat.eq_of_beq_eq_true h3] at h
    · rintro h1
      simp only at h1
      subst h1
      rcases hp2.2 with h3 | h3
      · simp at h3
      · simp [Nat.eq_of_beq_eq_true h3] at h

/-! ### C63 -/

/-- Two lists made piece by piece, of the same lengths, differ if a piece differs. -/
theorem flatMap_ne {f g : Rune → List Nat} {rs : List Rune}
    (hl : ∀ r ∈ rs, (f r).length = (g r).length) (hd : ∃ r ∈ rs, f r ≠ g r) :
    rs.flatMap f ≠ rs.flatMap g := by
  induction rs with
  | nil => simp at hd
  | cons r rs ih =>
    intro heq
    simp only [List.flatMap_cons] at heq
    obtain ⟨h1, h2⟩ := List.append_inj heq (hl r (by simp))
    obtain ⟨x, hx, hne⟩ := hd
    rcases List.mem_cons.mp hx with rfl | hx
    · exact hne h1
    · exact ih (fun y hy => hl y (by simp [hy])) ⟨x, hx, hne⟩ h2

theorem luceneFold_flatMap (rs : List Rune) :
    luceneFold (rs.flatMap utf16) = rs.flatMap fun r => luceneFold (utf16 r) := by
  induction rs with
  | nil => rfl
  | cons r rs ih => rw [List.flatMap_cons, luceneFold_append, ih, List.flatMap_cons]

theorem tc_lucene : luceneFold (utf16 0x2A8) = [0x74, 0x63] ∧
    (folded 0x2A8).flatMap utf16 = [0x74, 0x72] ∧ flags 0x2A8 = true := by
  refine ⟨by decide +kernel, by decide +kernel, by decide +kernel⟩

/-- **C63 (exactly).** `FoldString` gives what Lucene gives if and only if U+02A8 is not in the string,
and neither of the two tildes is, or some other character that is folded. -/
theorem C63_exact (rs : List Rune) (hv : ∀ r ∈ rs, ValidRune r) :
    (runes (foldString (encodeRunes rs)).1).flatMap utf16 = luceneFold (rs.flatMap utf16) ↔
      0x2A8 ∉ rs ∧ ((∀ r ∈ rs, r ≠ 0x2053 ∧ r ≠ 0xFF5E) ∨
        ∃ r ∈ rs, equivalent r ≠ none ∧ r ≠ 0x2053 ∧ r ≠ 0xFF5E) := by
  refine ⟨fun h => ?_, fun h => C63_port_partial rs hv h.1 h.2⟩
  have htc : 0x2A8 ∉ rs := by
    intro hm
    have hf : (runes (encodeRunes rs)).any flags = true := by
      rw [runes_encodeRunes hv]
      exact List.any_eq_true.mpr ⟨_, hm, tc_lucene.2.2⟩
    rw [foldString_eq, if_pos hf, runes_encodeRunes hv, runes_encodeRunes (folded_valid hv),
      luceneFold_flatMap, List.flatMap_assoc] at h
    refine flatMap_ne ?_ ⟨0x2A8, hm, ?_⟩ h
    · intro r hr
      by_cases hr2 : r = 0x2A8
      · rw [hr2, tc_lucene.1, tc_lucene.2.1]; rfl
      · rw [luceneFold_rune (hv r hr) hr2]
    · rw [tc_lucene.1, tc_lucene.2.1]; decide
  refine ⟨htc, ?_⟩
  refine Classical.byContradiction fun hc => ?_
  have hr := runes_encodeRunes hv
  obtain ⟨h1, r, hr2, h2⟩ := foldString_unflagged (s := encodeRunes rs) (by rw [hr]; exact hc)
  rw [hr] at hr2
  rw [h1, hr, luceneFold_flatMap] at h
  have hnone : ∀ x ∈ rs, (x = 0x2053 ∨ x = 0xFF5E) ∨ equivalent x = none := by
    intro x hx
    refine Classical.byContradiction fun hx2 => ?_
    rw [not_or, not_or] at hx2
    exact hc (.inr ⟨x, hx, hx2.2, hx2.1.1, hx2.1.2⟩)
  have htl : ∀ x, x = 0x2053 ∨ x = 0xFF5E → luceneFold (utf16 x) = [0x7E] ∧ utf16 x = [x] := by
    rintro x (rfl | rfl)
    · exact ⟨by decide +kernel, by decide +kernel⟩
    · exact ⟨by decide +kernel, by decide +kernel⟩
  refine flatMap_ne ?_ ⟨r, hr2, ?_⟩ h
  · intro x hx
    rcases hnone x hx with hx2 | hx2
    · rw [(htl x hx2).1, (htl x hx2).2]; rfl
    · rw [luceneFold_rune (hv x hx) (fun e => htc (e ▸ hx)), folded, hx2]
      simp
  · rw [(htl r h2).1, (htl r h2).2]
    rcases h2 with rfl | rfl <;> decide

/-- Not vacuous: a string that `FoldString` folds as Lucene does, and two that it does not. -/
example : (runes (foldString (encodeRunes [0xE9, 0xFF5E])).1).flatMap utf16 = [0x65, 0x7E] ∧
    (runes (foldString (encodeRunes [0x61, 0xFF5E])).1).flatMap utf16 = [0x61, 0xFF5E] ∧
    (runes (foldString (encodeRunes [0x61, 0x2A8])).1).flatMap utf16 = [0x61, 0x74, 0x72] := by
  decide +kernel

end Jargon
