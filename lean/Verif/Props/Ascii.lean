import Verif.Model.Ascii
import Verif.Spec.UnicodeData
import Verif.Proofs.Filters

/-! C17–C19, C53–C55: ASCII folding. -/

namespace Jargon

/-- The ASCII equivalent the table has for a rune. -/
def equivalent (r : Rune) : Option (List Rune) :=
  (foldCases.find? fun c => r ∈ c.keys).map (·.out)

/-- A rune with its equivalent put in its place. -/
def folded (r : Rune) : List Rune := (equivalent r).getD [r]

/-- Membership, in a form the kernel computes quickly. -/
noncomputable def elemB (l : List Rune) (r : Rune) : Bool :=
  List.rec (motive := fun _ => Bool) false
    (fun a _ ih => Bool.rec (motive := fun _ => Bool) ih true (Nat.beq a r)) l

theorem elemB_iff (l : List Rune) (r : Rune) : elemB l r = true ↔ r ∈ l := by
  induction l with
  | nil => simp [elemB]
  | cons a l ih =>
    simp only [elemB, List.mem_cons] at ih ⊢
    cases h : Nat.beq a r
    · have : ¬ r = a := by
        rintro rfl
        rw [Nat.beq_refl] at h; cases h
      simp [ih, this]
    · simp [Nat.eq_of_beq_eq_true h]

/-- Lookup, in a form the kernel computes quickly. -/
noncomputable def findB (cs : List FoldCase) (r : Rune) : Option (List Rune) :=
  List.rec (motive := fun _ => Option (List Rune)) none
    (fun c _ ih => Bool.rec (motive := fun _ => Option (List Rune)) ih (some c.out) (elemB c.keys r)) cs

theorem findB_eq (cs : List FoldCase) (r : Rune) :
    findB cs r = (cs.find? fun c => r ∈ c.keys).map (·.out) := by
  induction cs with
  | nil => rfl
  | cons c cs ih =>
    simp only [findB, List.find?_cons] at ih ⊢
    by_cases h : r ∈ c.keys
    · simp [h, (elemB_iff c.keys r).mpr h]
    · have : elemB c.keys r = false := by
        rw [← Bool.not_eq_true, elemB_iff]; exact h
      simp [h, this, ih]

theorem equivalent_eq (r : Rune) : equivalent r = findB foldCases r := (findB_eq foldCases r).symm

/-! ### The table, checked by the kernel entry by entry -/

/-- Every case lists only non-ASCII runes, writes something, and writes only ASCII. -/
theorem foldCases_sound : ∀ c ∈ foldCases, (∀ k ∈ c.keys, 0x80 ≤ k) ∧ c.out ≠ [] ∧
    ∀ r ∈ c.out, r < 0x80 := by decide +kernel

/-- Every case but that of the swung dash and the full-width tilde sets the flag. -/
theorem foldCases_sets : ∀ c ∈ foldCases, c.sets = false → ∀ k ∈ c.keys, k = 0x2053 ∨ k = 0xFF5E := by
  decide +kernel

/-- No rune is listed in a case that sets the flag and in one that does not. -/
theorem foldCases_tilde : (foldSwitch 0x2053).map (·.sets) = some false ∧
    (foldSwitch 0xFF5E).map (·.sets) = some false := by decide +kernel

theorem foldSwitch_eq (r : Rune) : (foldSwitch r).map (·.out) = equivalent r := by
  simp only [foldSwitch, equivalent, List.contains_eq_mem]

theorem foldSwitch_mem {r : Rune} {c : FoldCase} (h : foldSwitch r = some c) :
    c ∈ foldCases ∧ r ∈ c.keys := by
  refine ⟨List.mem_of_find?_eq_some h, ?_⟩
  simpa using List.find?_some h

theorem equivalent_sound {r : Rune} {o : List Rune} (h : equivalent r = some o) :
    0x80 ≤ r ∧ o ≠ [] ∧ ∀ x ∈ o, x < 0x80 := by
  rw [← foldSwitch_eq, Option.map_eq_some_iff] at h
  obtain ⟨c, hc, rfl⟩ := h
  obtain ⟨h1, h2⟩ := foldSwitch_mem hc
  obtain ⟨h3, h4, h5⟩ := foldCases_sound c h1
  exact ⟨h3 r h2, h4, h5⟩

theorem equivalent_ascii {r : Rune} (h : r < 0x80) : equivalent r = none := by
  cases he : equivalent r with
  | none => rfl
  | some o => have := (equivalent_sound he).1; omega

/-- Does meeting this rune set the flag? -/
def flags (r : Rune) : Bool := (foldSwitch r).any (·.sets)

theorem flags_ascii {r : Rune} (h : r < 0x80) : flags r = false := by
  have := equivalent_ascii h
  rw [← foldSwitch_eq, Option.map_eq_none_iff] at this
  rw [flags, this]; rfl

theorem flags_iff (r : Rune) : flags r = true ↔ equivalent r ≠ none ∧ r ≠ 0x2053 ∧ r ≠ 0xFF5E := by
  rw [← foldSwitch_eq]
  unfold flags
  cases h : foldSwitch r with
  | none => simp
  | some c =>
    obtain ⟨h1, h2⟩ := foldSwitch_mem h
    simp only [Option.any_some, Option.map_some, ne_eq, reduceCtorEq, not_false_eq_true, true_and]
    constructor
    · intro hs
      constructor
      · rintro rfl
        have := foldCases_tilde.1
        rw [h] at this
        simp [hs] at this
      · rintro rfl
        have := foldCases_tilde.2
        rw [h] at this
        simp [hs] at this
    · intro hne
      cases hs : c.sets with
      | true => rfl
      | false =>
        rcases foldCases_sets c h1 hs r h2 with h3 | h3
        · exact absurd h3 hne.1
        · exact absurd h3 hne.2

theorem foldLoop_eq (rs : List Rune) (b : Bytes) (f : Bool) :
    foldLoop rs b f = (b ++ encodeRunes (rs.flatMap folded), f || rs.any flags) := by
  induction rs generalizing b f with
  | nil => simp [foldLoop]
  | cons r rs ih =>
    rw [foldLoop]
    by_cases h : r < 0x80
    · rw [if_pos h, ih]
      simp [folded, equivalent_ascii h, flags_ascii h, encodeRunes]
    · rw [if_neg h]
      cases hc : foldSwitch r with
      | none =>
        have he : equivalent r = none := by rw [← foldSwitch_eq, hc]; rfl
        simp only [ih]
        simp [folded, he, flags, hc, encodeRunes]
      | some c =>
        have he : equivalent r = some c.out := by rw [← foldSwitch_eq, hc]; rfl
        simp only [ih]
        simp only [folded, he, flags, hc, Option.any_some, List.flatMap_cons, Option.getD_some,
          encodeRunes_append, List.append_assoc, List.any_cons]
        cases c.sets <;> simp

theorem foldString_eq (s : Bytes) : foldString s =
    if (runes s).any flags then (encodeRunes ((runes s).flatMap folded), true) else (s, false) := by
  unfold foldString
  rw [foldLoop_eq]
  simp

theorem folded_ne_nil (r : Rune) : folded r ≠ [] := by
  unfold folded
  cases h : equivalent r with
  | none => simp
  | some o => simpa using (equivalent_sound h).2.1

theorem valid_of_ascii {r : Rune} (h : r < 0x80) : ValidRune r := Or.inl (by omega)

theorem folded_valid {rs : List Rune} (h : ∀ r ∈ rs, ValidRune r) :
    ∀ r ∈ rs.flatMap folded, ValidRune r := by
  intro r hr
  obtain ⟨x, hx, hr⟩ := List.mem_flatMap.mp hr
  unfold folded at hr
  cases he : equivalent x with
  | none => rw [he] at hr; simp at hr; rw [hr]; exact h x hx
  | some o => rw [he] at hr; exact valid_of_ascii ((equivalent_sound he).2.2 r hr)

/-- What is folded cannot be folded again. -/
theorem equivalent_folded {rs : List Rune} {r : Rune} (h : r ∈ rs.flatMap folded) :
    equivalent r = none := by
  obtain ⟨x, hx, hr⟩ := List.mem_flatMap.mp h
  unfold folded at hr
  cases he : equivalent x with
  | none => rw [he] at hr; simp at hr; rw [hr]; exact he
  | some o => rw [he] at hr; exact equivalent_ascii ((equivalent_sound he).2.2 r hr)

/-! ### C17 -/

/-- **C17 (ASCII).** A string of ASCII bytes is returned unchanged and not flagged. -/
theorem C17_ascii_unchanged (s : Bytes) (h : ∀ b ∈ s, b.toNat < 0x80) : foldString s = (s, false) := by
  rw [foldString_eq, if_neg]
  simp only [List.any_eq_true, not_exists, not_and, Bool.not_eq_true]
  intro r hr
  rw [runes_ascii h] at hr
  obtain ⟨b, hb, rfl⟩ := List.mem_map.mp hr
  exact flags_ascii (h b hb)

/-- **C17 (never empty).** -/
theorem C17_nonempty (s : Bytes) (h : s ≠ []) : (foldString s).1 ≠ [] := by
  rw [foldString_eq]
  split
  · simp only [ne_eq, encodeRunes_eq_nil]
    intro h0
    cases hr : runes s with
    | nil => exact h (runes_eq_nil.mp hr)
    | cons r rs =>
      rw [hr, List.flatMap_cons, List.append_eq_nil_iff] at h0
      exact folded_ne_nil r h0.1
  · exact h

/-- **C17 (the result).** Whenever the result is flagged, it is the argument with each character that
has an equivalent replaced by it and every other character kept; the equivalents are non-empty and
ASCII. If it is not flagged it is the argument itself. -/
theorem C17_result (s : Bytes) :
    ((foldString s).2 = true →
      runes (foldString s).1 = (runes s).flatMap fun r => (equivalent r).getD [r]) ∧
    ((foldString s).2 = false → (foldString s).1 = s) ∧
    (∀ r o, equivalent r = some o → o ≠ [] ∧ ∀ x ∈ o, x < 0x80) := by
  refine ⟨?_, ?_, fun r o h => (equivalent_sound h).2⟩
  · intro h
    rw [foldString_eq] at h ⊢
    split at h
    · rename_i hf
      rw [if_pos hf]
      exact runes_encodeRunes (folded_valid (runes_valid s))
    · cases h
  · intro h
    rw [foldString_eq] at h ⊢
    split at h
    · cases h
    · rename_i hf
      rw [if_neg hf]

example : foldString (str "Æsop's café") = (str "AEsop's cafe", true) := by decide +kernel
example : foldString (str "plain") = (str "plain", false) := by decide +kernel

/-! ### C18 -/

/-- **C18 (idempotent, flag).** For every string: the flag tells whether the string changed, and
folding a folded string changes nothing. -/
theorem C18_flag_and_idempotent (s : Bytes) :
    ((foldString s).2 = true ↔ (foldString s).1 ≠ s) ∧
    foldString (foldString s).1 = ((foldString s).1, false) := by
  by_cases hf : (runes s).any flags = true
  · have h1 : foldString s = (encodeRunes ((runes s).flatMap folded), true) := by
      rw [foldString_eq, if_pos hf]
    have h2 : runes (encodeRunes ((runes s).flatMap folded)) = (runes s).flatMap folded :=
      runes_encodeRunes (folded_valid (runes_valid s))
    have h3 : ¬ (runes (foldString s).1).any flags = true := by
      rw [h1, h2]
      simp only [List.any_eq_true, not_exists, not_and]
      intro r hr hfl
      exact ((flags_iff r).mp hfl).1 (equivalent_folded hr)
    refine ⟨⟨fun _ heq => ?_, fun _ => by rw [h1]⟩, ?_⟩
    · rw [heq] at h3; exact h3 hf
    · rw [foldString_eq, if_neg h3]
  · have h1 : foldString s = (s, false) := by rw [foldString_eq, if_neg hf]
    rw [h1]
    exact ⟨by simp, h1⟩

/-- **C18 as it was meant:** no character with an ASCII equivalent is left. -/
def C18_full : Prop := ∀ s, ∀ r ∈ runes (foldString s).1, equivalent r = none

/-- **C18 is violated.** `case '⁓', '～'` writes `~` but does not set `folded`, so a
full-width tilde (or a swung dash) is left as it is, unless some other character of the same string
is folded. -/
theorem C18_violated_tilde : ¬ C18_full ∧
    equivalent 0xFF5E = some [0x7E] ∧ foldString (str "～") = (str "～", false) ∧
    equivalent 0x2053 = some [0x7E] ∧ foldString (str "⁓") = (str "⁓", false) ∧
    foldString (str "é～") = (str "e~", true) := by
  have h1 : equivalent 0xFF5E = some [0x7E] := by decide +kernel
  have h2 : foldString (str "～") = (str "～", false) := by decide +kernel
  refine ⟨?_, h1, h2, by decide +kernel, by decide +kernel, by decide +kernel⟩
  intro h
  have := h (str "～") 0xFF5E (by rw [h2]; decide +kernel)
  rw [h1] at this
  cases this

/-- **C18, for all strings** that contain neither U+2053 nor U+FF5E, or some other character with an
equivalent: no character with an equivalent is left, and the string is flagged exactly if it
contained one. What is missing to `C18_full` are strings whose only foldable characters are these
two, for which it is false. -/
theorem C18_complete_partial (s : Bytes)
    (h : (∀ r ∈ runes s, r ≠ 0x2053 ∧ r ≠ 0xFF5E) ∨
      ∃ r ∈ runes s, equivalent r ≠ none ∧ r ≠ 0x2053 ∧ r ≠ 0xFF5E) :
    (∀ r ∈ runes (foldString s).1, equivalent r = none) ∧
    ((foldString s).2 = true ↔ ∃ r ∈ runes s, equivalent r ≠ none) := by
  by_cases hf : (runes s).any flags = true
  · have h1 : foldString s = (encodeRunes ((runes s).flatMap folded), true) := by
      rw [foldString_eq, if_pos hf]
    rw [h1]
    refine ⟨?_, ?_⟩
    · rw [runes_encodeRunes (folded_valid (runes_valid s))]
      exact fun r hr => equivalent_folded hr
    · simp only [true_iff]
      obtain ⟨r, hr, hfl⟩ := List.any_eq_true.mp hf
      exact ⟨r, hr, ((flags_iff r).mp hfl).1⟩
  · have h1 : foldString s = (s, false) := by rw [foldString_eq, if_neg hf]
    have hno : ∀ r ∈ runes s, equivalent r = none := by
      intro r hr
      rcases h with h | ⟨x, hx, hx2⟩
      · cases he : equivalent r with
        | none => rfl
        | some o =>
          refine absurd (List.any_eq_true.mpr ⟨r, hr, (flags_iff r).mpr ⟨by simp [he], h r hr⟩⟩) hf
      · exact absurd (List.any_eq_true.mpr ⟨x, hx, (flags_iff x).mpr hx2⟩) hf
    rw [h1]
    refine ⟨hno, ?_⟩
    simp only [Bool.false_eq_true, ne_eq, false_iff, not_exists, not_and, Classical.not_not]
    exact hno

example : ∃ r ∈ runes (str "é～"), equivalent r ≠ none ∧ r ≠ 0x2053 ∧ r ≠ 0xFF5E :=
  ⟨0xE9, by decide +kernel, by decide +kernel, by decide, by decide⟩

/-! ### C19 -/

/-- What the filter should make of a token. -/
def foldToken (U : Unicode) (t : Token) : Token :=
  if (foldString t.value).2 then mkToken U (foldString t.value).1 true else t

theorem asciiFolder_eq (U : Unicode) {t : Token} :
    asciiFolder U (some t) = Go.ret (some (foldToken U t)) := by
  unfold asciiFolder foldToken
  cases hf : (foldString t.value).2
  · have hf' : (foldString t.string).2 = false := hf
    simp [hf']
  · have hf' : (foldString t.string).2 = true := hf
    have hne : (foldString t.string).1 ≠ [] := by
      by_cases ht : t.string = []
      · rw [ht] at hf'
        exact absurd hf' (by decide +kernel)
      · exact C17_nonempty _ ht
    simp only [hf', newToken_some hne, ↓reduceIte]
    rfl

theorem asciiFold_yields (U : Unicode) {ts : TokenStream} {toks : List Token} {e : End}
    (h : ts.Yields toks e) : (asciiFold U ts).Yields (toks.map (foldToken U)) e :=
  mapper_yields (fun t _ => by rw [applyFuncs_one, asciiFolder_eq U]) h

/-- **C19.** `ascii.Fold` delivers one token per incoming token and ends as the incoming stream does:
the identical token if `FoldString` reports no change, otherwise a lemma token with the folded
text. -/
theorem C19_ascii_fold (U : Unicode) {ts : TokenStream} {toks : List Token} {e : End}
    (h : ts.Yields toks e) :
    ∃ f : Token → Token, (asciiFold U ts).Yields (toks.map f) e ∧
      (∀ t, (foldString t.value).2 = false → f t = t) ∧
      (∀ t, (foldString t.value).2 = true → TokenFor U (foldString t.value).1 true (f t)) := by
  refine ⟨foldToken U, asciiFold_yields U h, ?_, ?_⟩
  · intro t ht; simp [foldToken, ht]
  · intro t ht
    simp only [foldToken, ht, ↓reduceIte]
    exact mkToken_for _ _ _

example : foldToken asciiUnicode ⟨str "café", false, false, false⟩ = ⟨str "cafe", false, false, true⟩ := by
  decide +kernel

/-! ### C53: letter case -/

/-- The lower case of an ASCII letter. -/
def letterLower (r : Rune) : Rune := if 0x41 ≤ r ∧ r ≤ 0x5A then r + 0x20 else r

/-- A pair of an upper-case letter and its lower case fold consistently. -/
def CaseOK (p : Rune × Rune) : Prop := equivalent p.2 = (equivalent p.1).map (·.map letterLower)

instance (p : Rune × Rune) : Decidable (CaseOK p) := by unfold CaseOK; infer_instance

/-- **C53 as it was meant:** folding commutes with Unicode's lower-casing. -/
def C53_full : Prop := ∀ p ∈ casePairs, CaseOK p

/-- **C53 is violated** by three pairs of letters: `ǥ` (U+01E5) and `ǧ` (U+01E7) fold to a capital
`G`, and the insular `Ꞅ`/`ꞅ` (U+A784/U+A785) are interchanged: the capital folds to `s` and the small
letter to `S`. -/
theorem C53_violated_case : ¬ C53_full ∧
    (0x01E4, 0x01E5) ∈ casePairs ∧ equivalent 0x01E5 = some [0x47] ∧
    (0x01E6, 0x01E7) ∈ casePairs ∧ equivalent 0x01E7 = some [0x47] ∧
    (0xA784, 0xA785) ∈ casePairs ∧ equivalent 0xA784 = some [0x73] ∧ equivalent 0xA785 = some [0x53] := by
  refine ⟨?_, by decide +kernel, by decide +kernel, by decide +kernel, by decide +kernel,
    by decide +kernel, by decide +kernel, by decide +kernel⟩
  intro h
  exact absurd (h (0x01E4, 0x01E5) (by decide +kernel)) (by decide +kernel)

/-- **C53, for every pair but those three**: the whole table is checked by the kernel. -/
theorem C53_case_partial : ∀ p ∈ casePairs,
    p ≠ (0x01E4, 0x01E5) → p ≠ (0x01E6, 0x01E7) → p ≠ (0xA784, 0xA785) → CaseOK p := by
  have h : casePairs.all (fun p =>
      decide (p = (0x01E4, 0x01E5)) || decide (p = (0x01E6, 0x01E7)) || decide (p = (0xA784, 0xA785)) ||
      (findB foldCases p.2 == (findB foldCases p.1).map (·.map letterLower))) = true := by
    decide +kernel
  intro p hp h1 h2 h3
  have := List.all_eq_true.mp h p hp
  simpa [h1, h2, h3, CaseOK, equivalent_eq] using this

/-- **C53, lifted to strings**: for any string of such upper-case letters, folding its lower case
gives the lower case of its folding. -/
theorem C53_case_strings_partial (ps : List (Rune × Rune))
    (h : ∀ p ∈ ps, p ∈ casePairs ∧ p ≠ (0x01E4, 0x01E5) ∧ p ≠ (0x01E6, 0x01E7) ∧ p ≠ (0xA784, 0xA785)) :
    (ps.map (·.2)).flatMap folded = ((ps.map (·.1)).flatMap folded).map letterLower := by
  have hsome : ∀ p ∈ casePairs, equivalent p.1 ≠ none := by
    have hall : casePairs.all (fun p => (findB foldCases p.1).isSome) = true := by decide +kernel
    intro p hp
    have := List.all_eq_true.mp hall p hp
    rw [equivalent_eq]
    exact Option.isSome_iff_ne_none.mp this
  induction ps with
  | nil => rfl
  | cons p ps ih =>
    obtain ⟨h1, h2, h3, h4⟩ := h p (by simp)
    simp only [List.map_cons, List.flatMap_cons, List.map_append]
    rw [ih (fun q hq => h q (by simp [hq]))]
    congr 1
    have hok := C53_case_partial p h1 h2 h3 h4
    unfold CaseOK at hok
    obtain ⟨o, ho⟩ := Option.ne_none_iff_exists'.mp (hsome p h1)
    unfold folded
    rw [hok, ho]
    rfl

example : (0x00C9, 0x00E9) ∈ casePairs ∧ equivalent 0x00C9 = some [0x45] := by decide +kernel

/-! ### C54: compatibility ranges -/

/-- **C54 as it was meant:** every full-width form U+FF01–U+FF5E folds to the ASCII character it is a
form of, U+FEE0 below it. -/
def C54_full : Prop := ∀ r, 0xFF01 ≤ r → r ≤ 0xFF5E → equivalent r = some [r - 0xFEE0]

/-- **C54 is violated** by the full-width grave accent and vertical bar, which the table lacks. -/
theorem C54_violated_fullwidth : ¬ C54_full ∧ equivalent 0xFF40 = none ∧ equivalent 0xFF5C = none := by
  have h : equivalent 0xFF40 = none := by decide +kernel
  refine ⟨fun hf => ?_, h, by decide +kernel⟩
  have := hf 0xFF40 (by decide) (by decide)
  rw [h] at this
  cases this

/-- **C54, for all other full-width forms**, and for the circled letters. -/
theorem C54_ranges_partial :
    (∀ r, 0xFF01 ≤ r → r ≤ 0xFF5E → r ≠ 0xFF40 → r ≠ 0xFF5C → equivalent r = some [r - 0xFEE0]) ∧
    (∀ i, i < 26 → equivalent (0x24B6 + i) = some [0x41 + i]) ∧
    (∀ i, i < 26 → equivalent (0x24D0 + i) = some [0x61 + i]) := by
  have h1 : ∀ i ∈ List.range 94, 0xFF01 + i ≠ 0xFF40 → 0xFF01 + i ≠ 0xFF5C →
      equivalent (0xFF01 + i) = some [0xFF01 + i - 0xFEE0] := by
    simp only [equivalent_eq]; decide +kernel
  have h2 : ∀ i ∈ List.range 26, equivalent (0x24B6 + i) = some [0x41 + i] := by
    simp only [equivalent_eq]; decide +kernel
  have h3 : ∀ i ∈ List.range 26, equivalent (0x24D0 + i) = some [0x61 + i] := by
    simp only [equivalent_eq]; decide +kernel
  refine ⟨fun r ha hb hc hd => ?_, fun i hi => h2 i (by simpa using hi), fun i hi => h3 i (by simpa using hi)⟩
  have := h1 (r - 0xFF01) (by simp; omega)
  rw [show 0xFF01 + (r - 0xFF01) = r by omega] at this
  exact this hc hd

/-! ### C55: diacritics -/

/-- **C55 as it was meant:** an accented letter folds to the letter without its accents. -/
def C55_full : Prop := ∀ p ∈ accented, equivalent p.1 = some [p.2]

/-- **C55 is violated** by `ǧ` (U+01E7), which folds to a capital, and by the Ångström sign (U+212B),
which is canonically equivalent to `Å` but is not in the table. -/
theorem C55_violated_diacritics : ¬ C55_full ∧
    (0x01E7, 0x67) ∈ accented ∧ equivalent 0x01E7 = some [0x47] ∧
    (0x212B, 0x41) ∈ accented ∧ equivalent 0x212B = none := by
  have h1 : (0x01E7, 0x67) ∈ accented := by decide +kernel
  have h2 : equivalent 0x01E7 = some [0x47] := by decide +kernel
  refine ⟨fun h => ?_, h1, h2, by decide +kernel, by decide +kernel⟩
  have := h _ h1
  rw [h2] at this
  exact absurd this (by decide)

/-- **C55, for every accented letter but those two**: the whole table is checked by the kernel. -/
theorem C55_diacritics_partial : ∀ p ∈ accented, p.1 ≠ 0x01E7 → p.1 ≠ 0x212B →
    equivalent p.1 = some [p.2] := by
  have h : accented.all (fun p => Nat.beq p.1 0x01E7 || Nat.beq p.1 0x212B ||
      (findB foldCases p.1 == some [p.2])) = true := by decide +kernel
  intro p hp h1 h2
  have := List.all_eq_true.mp h p hp
  simpa [h1, h2, equivalent_eq] using this

end Jargon
