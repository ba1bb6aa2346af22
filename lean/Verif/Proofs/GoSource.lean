import Verif.Spec.GoSource
import Verif.Model.GenerateSource
import Verif.Proofs.Strings

/-! Lemmas about the scanner of `Verif.Spec.GoSource`, and about breaking up lines. -/

namespace Jargon

theorem lexFrom_append (st : LexState) (a b : Bytes) :
    lexFrom st (a ++ b) = match lexFrom st a with | .error e => .error e | .ok st => lexFrom st b := by
  induction a generalizing st with
  | nil => rfl
  | cons x t ih =>
    simp only [List.cons_append, lexFrom]
    cases lexStep st x with
    | error e => rfl
    | ok st1 => exact ih st1

theorem lexFrom_ok {st st1 : LexState} {a : Bytes} (h : lexFrom st a = .ok st1) (b : Bytes) :
    lexFrom st (a ++ b) = lexFrom st1 b := by rw [lexFrom_append, h]

theorem lexFrom_error {st : LexState} {a : Bytes} {e : LexError} (h : lexFrom st a = .error e) (b : Bytes) :
    lexFrom st (a ++ b) = .error e := by rw [lexFrom_append, h]

/-! ### A scanner without comments -/

/-- In a string literal. -/
def LexMode.inText : LexMode → Bool
  | .text _ | .escape _ | .digits _ _ _ _ => true
  | _ => false

/-- `lexStep`, but a slash between tokens is an error. -/
def tabStep (st : LexState) (b : UInt8) : Except LexError LexState :=
  if b = 0x2F ∧ st.mode.inText = false then .error .other else lexStep st b

/-- `lexFrom` for `tabStep`. -/
def tabFrom (st : LexState) : Bytes → Except LexError LexState
  | [] => .ok st
  | b :: t =>
    match tabStep st b with
    | .error e => .error e
    | .ok st => tabFrom st t

theorem tabFrom_append (st : LexState) (a b : Bytes) :
    tabFrom st (a ++ b) = match tabFrom st a with | .error e => .error e | .ok st => tabFrom st b := by
  induction a generalizing st with
  | nil => rfl
  | cons x t ih =>
    simp only [List.cons_append, tabFrom]
    cases tabStep st x with
    | error e => rfl
    | ok st1 => exact ih st1

theorem tabFrom_ok {st st1 : LexState} {a : Bytes} (h : tabFrom st a = .ok st1) (b : Bytes) :
    tabFrom st (a ++ b) = tabFrom st1 b := by rw [tabFrom_append, h]

theorem tabFrom_lex {st : LexState} {s : Bytes} :
    (∀ st1, tabFrom st s = .ok st1 → lexFrom st s = .ok st1) ∧
    (tabFrom st s = .error .newline → lexFrom st s = .error .newline) := by
  induction s generalizing st with
  | nil => exact ⟨fun _ h => h, fun h => h⟩
  | cons b t ih =>
    simp only [tabFrom, lexFrom]
    unfold tabStep
    split
    · rename_i h
      split at h
      · cases h
        exact ⟨fun _ h => (nomatch h), fun h => (nomatch h)⟩
      · rw [h]
        exact ⟨fun _ h => h, fun h => h⟩
    · rename_i h
      split at h
      · cases h
      · rw [h]
        exact ih

/-- Neither after a slash nor in a comment. -/
def LexMode.Tab : LexMode → Prop
  | .slash | .comment => False
  | _ => True

theorem lexCode_tab {toks : List GoTok} {b : UInt8} {st : LexState} (h : lexCode toks b = .ok st)
    (hb : b ≠ 0x2F) : st.mode.Tab := by
  unfold lexCode at h
  split at h
  · cases h; trivial
  split at h
  · cases h; trivial
  split at h
  · cases h; trivial
  split at h
  · cases h; trivial
  split at h
  · cases h; trivial
  split at h
  · cases h; trivial
  · cases h

theorem tabStep_tab {st st1 : LexState} {b : UInt8} (h : tabStep st b = .ok st1) (ht : st.mode.Tab) :
    st1.mode.Tab := by
  unfold tabStep at h
  split at h
  · cases h
  rename_i hb
  obtain ⟨mode, toks⟩ := st
  unfold lexStep at h
  cases mode with
  | code => exact lexCode_tab h (fun hc => hb ⟨hc, rfl⟩)
  | word s =>
    simp only at h
    split at h
    · cases h; trivial
    · exact lexCode_tab h (fun hc => hb ⟨hc, rfl⟩)
  | slash => exact ht.elim
  | comment => exact ht.elim
  | text s =>
    simp only at h
    split at h
    · cases h; trivial
    split at h
    · cases h
    split at h
    · cases h; trivial
    · cases h; trivial
  | escape s =>
    simp only at h
    split at h
    · cases h; trivial
    split at h
    · cases h; trivial
    split at h
    · cases h; trivial
    split at h
    · cases h; trivial
    · cases h
  | digits s left value rune =>
    simp only at h
    split at h
    · cases h
    split at h
    · cases h; trivial
    split at h
    · cases h; trivial
    split at h
    · cases h; trivial
    · cases h

theorem tabFrom_tab {st st1 : LexState} {s : Bytes} (h : tabFrom st s = .ok st1) (ht : st.mode.Tab) :
    st1.mode.Tab := by
  induction s generalizing st with
  | nil => cases h; exact ht
  | cons b t ih =>
    simp only [tabFrom] at h
    split at h
    · cases h
    · rename_i st2 h2
      exact ih h (tabStep_tab h2 ht)

/-! ### Literals keep what has been read of them -/

/-- What has been read of the literal the scanner is in. -/
def LexMode.value? : LexMode → Option Bytes
  | .text s | .escape s | .digits s _ _ _ => some s
  | _ => none

/-- The literal beginning with `p` is being read, or has been. -/
def Holds (p : Bytes) (st : LexState) : Prop :=
  (∃ w, st.mode.value? = some (p ++ w)) ∨ ∃ w, GoTok.text (p ++ w) ∈ st.toks

theorem mem_lineEnd {t : GoTok} {toks : List GoTok} (h : t ∈ toks) : t ∈ lineEnd toks := by
  unfold lineEnd
  split
  · split
    · exact List.mem_append_left _ h
    · exact h
  · exact h

theorem lexCode_mem {toks : List GoTok} {b : UInt8} {st : LexState} (h : lexCode toks b = .ok st)
    {t : GoTok} (ht : t ∈ toks) : t ∈ st.toks := by
  unfold lexCode at h
  split at h
  · cases h; exact ht
  split at h
  · cases h; exact mem_lineEnd ht
  split at h
  · cases h; exact ht
  split at h
  · cases h; exact ht
  split at h
  · cases h; exact ht
  split at h
  · cases h; exact List.mem_append_left _ ht
  split at h
  · cases h; exact List.mem_append_left _ ht
  · cases h

theorem lexStep_mem {st st1 : LexState} {b : UInt8} (h : lexStep st b = .ok st1)
    {t : GoTok} (ht : t ∈ st.toks) : t ∈ st1.toks := by
  obtain ⟨mode, toks⟩ := st
  unfold lexStep at h
  cases mode with
  | code => exact lexCode_mem h ht
  | word s =>
    simp only at h
    split at h
    · cases h; exact ht
    · exact lexCode_mem h (List.mem_append_left _ ht)
  | slash =>
    simp only at h
    split at h
    · cases h; exact ht
    · cases h
  | comment =>
    simp only at h
    split at h
    · cases h; exact mem_lineEnd ht
    · cases h; exact ht
  | text s =>
    simp only at h
    split at h
    · cases h; exact List.mem_append_left _ ht
    split at h
    · cases h
    split at h
    · cases h; exact ht
    · cases h; exact ht
  | escape s =>
    simp only at h
    split at h
    · cases h; exact ht
    split at h
    · cases h; exact ht
    split at h
    · cases h; exact ht
    split at h
    · cases h; exact ht
    · cases h
  | digits s left value rune =>
    simp only at h
    split at h
    · cases h
    split at h
    · cases h; exact ht
    split at h
    · cases h; exact ht
    split at h
    · cases h; exact ht
    · cases h

theorem lexStep_holds {p : Bytes} {st st1 : LexState} {b : UInt8} (h : lexStep st b = .ok st1)
    (hp : Holds p st) : Holds p st1 := by
  rcases hp with ⟨w, hw⟩ | ⟨w, hw⟩
  · obtain ⟨mode, toks⟩ := st
    unfold lexStep at h
    cases mode with
    | code => cases hw
    | word s => cases hw
    | slash => cases hw
    | comment => cases hw
    | text s =>
      cases hw
      simp only at h
      split at h
      · cases h; exact .inr ⟨w, by simp⟩
      split at h
      · cases h
      split at h
      · cases h; exact .inl ⟨w, rfl⟩
      · cases h; exact .inl ⟨w ++ [b], by simp [LexMode.value?]⟩
    | escape s =>
      cases hw
      simp only at h
      split at h
      · cases h; exact .inl ⟨w, rfl⟩
      split at h
      · cases h; exact .inl ⟨w, rfl⟩
      split at h
      · cases h; exact .inl ⟨w, rfl⟩
      split at h
      · rename_i c _
        cases h; exact .inl ⟨w ++ [c], by simp [LexMode.value?]⟩
      · cases h
    | digits s left value rune =>
      cases hw
      simp only at h
      split at h
      · cases h
      rename_i d _
      split at h
      · cases h; exact .inl ⟨w, rfl⟩
      split at h
      · cases h; exact .inl ⟨w ++ [UInt8.ofNat (value * 16 + d)], by simp [LexMode.value?]⟩
      split at h
      · cases h; exact .inl ⟨w ++ encodeRune (value * 16 + d), by simp [LexMode.value?]⟩
      · cases h
  · exact .inr ⟨w, lexStep_mem h hw⟩

theorem tabStep_lexStep {st st1 : LexState} {b : UInt8} (h : tabStep st b = .ok st1) :
    lexStep st b = .ok st1 := by
  unfold tabStep at h
  split at h
  · cases h
  · exact h

theorem tabFrom_holds {p : Bytes} {st st1 : LexState} {s : Bytes} (h : tabFrom st s = .ok st1)
    (hp : Holds p st) : Holds p st1 := by
  induction s generalizing st with
  | nil => cases h; exact hp
  | cons b t ih =>
    simp only [tabFrom] at h
    split at h
    · cases h
    · rename_i st2 h2
      exact ih h (lexStep_holds (tabStep_lexStep h2) hp)

theorem tabFrom_mem {st st1 : LexState} {s : Bytes} (h : tabFrom st s = .ok st1)
    {t : GoTok} (ht : t ∈ st.toks) : t ∈ st1.toks := by
  induction s generalizing st with
  | nil => cases h; exact ht
  | cons b r ih =>
    simp only [tabFrom] at h
    split at h
    · cases h
    · rename_i st2 h2
      exact ih h (lexStep_mem (tabStep_lexStep h2) ht)

/-! ### Replacing -/

/-- The tokens are the same, except for commas between literals and closing braces. -/
inductive Commas : List GoTok → List GoTok → Prop
  | nil : Commas [] []
  | same {a b} (t) : Commas a b → Commas (a ++ [t]) (b ++ [t])
  | comma {a b} (s) : Commas a b →
      Commas (a ++ [.text s, .punct 0x7D]) (b ++ [.text s, .punct 0x2C, .punct 0x7D])

theorem Commas.refl (a : List GoTok) : Commas a a := by
  rw [← List.reverse_reverse a]
  induction a.reverse with
  | nil => exact .nil
  | cons x t ih => rw [List.reverse_cons]; exact .same x ih

theorem Commas.last {a b : List GoTok} (h : Commas a b) : a.getLast? = b.getLast? := by
  cases h with
  | nil => rfl
  | same t h => simp
  | comma s h => simp [List.getLast?_append]

theorem Commas.lineEnd {a b : List GoTok} (h : Commas a b) : Commas (lineEnd a) (lineEnd b) := by
  unfold Jargon.lineEnd
  rw [h.last]
  split
  · split
    · exact .same _ h
    · exact h
  · exact h

/-- States that differ only by such commas. -/
def Near (st st1 : LexState) : Prop := st.mode = st1.mode ∧ Commas st.toks st1.toks

theorem Near.refl (st : LexState) : Near st st := ⟨rfl, .refl _⟩

theorem lexCode_near {a b : List GoTok} (h : Commas a b) {x : UInt8} {st : LexState}
    (hs : lexCode a x = .ok st) : ∃ st1, lexCode b x = .ok st1 ∧ Near st st1 := by
  unfold lexCode at hs ⊢
  split at hs
  · cases hs; rename_i hx; exact ⟨_, if_pos hx, rfl, h⟩
  rename_i h1; rw [if_neg h1]
  split at hs
  · cases hs; rename_i hx; exact ⟨_, if_pos hx, rfl, h.lineEnd⟩
  rename_i h1; rw [if_neg h1]
  split at hs
  · cases hs; rename_i hx; exact ⟨_, if_pos hx, rfl, h⟩
  rename_i h1; rw [if_neg h1]
  split at hs
  · cases hs; rename_i hx; exact ⟨_, if_pos hx, rfl, h⟩
  rename_i h1; rw [if_neg h1]
  split at hs
  · cases hs; rename_i hx; exact ⟨_, if_pos hx, rfl, h⟩
  rename_i h1; rw [if_neg h1]
  split at hs
  · cases hs; rename_i hx; exact ⟨_, if_pos hx, rfl, .same _ h⟩
  rename_i h1; rw [if_neg h1]
  split at hs
  · cases hs; rename_i hx; exact ⟨_, if_pos hx, rfl, .same _ h⟩
  · cases hs

theorem lexStep_near {a b : LexState} (h : Near a b) {x : UInt8} {st : LexState}
    (hs : lexStep a x = .ok st) : ∃ st1, lexStep b x = .ok st1 ∧ Near st st1 := by
  obtain ⟨mode, toks⟩ := a
  obtain ⟨mode', toks'⟩ := b
  obtain ⟨hm, ht⟩ := h
  cases hm
  unfold lexStep at hs ⊢
  cases mode with
  | code => exact lexCode_near ht hs
  | word s =>
    simp only at hs ⊢
    split at hs
    · cases hs; rename_i hx; exact ⟨_, if_pos hx, rfl, ht⟩
    · rename_i hx
      rw [if_neg hx]
      exact lexCode_near (.same _ ht) hs
  | slash =>
    simp only at hs ⊢
    split at hs
    · cases hs; rename_i hx; exact ⟨_, if_pos hx, rfl, ht⟩
    · cases hs
  | comment =>
    simp only at hs ⊢
    split at hs
    · cases hs; rename_i hx; exact ⟨_, if_pos hx, rfl, ht.lineEnd⟩
    · cases hs; rename_i hx; exact ⟨_, if_neg hx, rfl, ht⟩
  | text s =>
    simp only at hs ⊢
    split at hs
    · cases hs; rename_i hx; exact ⟨_, if_pos hx, rfl, .same _ ht⟩
    rename_i h1; rw [if_neg h1]
    split at hs
    · cases hs
    rename_i h1; rw [if_neg h1]
    split at hs
    · cases hs; rename_i hx; exact ⟨_, if_pos hx, rfl, ht⟩
    · cases hs; rename_i hx; exact ⟨_, if_neg hx, rfl, ht⟩
  | escape s =>
    simp only at hs ⊢
    split at hs
    · cases hs; rename_i hx; exact ⟨_, if_pos hx, rfl, ht⟩
    rename_i h1; rw [if_neg h1]
    split at hs
    · cases hs; rename_i hx; exact ⟨_, if_pos hx, rfl, ht⟩
    rename_i h1; rw [if_neg h1]
    split at hs
    · cases hs; rename_i hx; exact ⟨_, if_pos hx, rfl, ht⟩
    rename_i h1; rw [if_neg h1]
    split at hs
    · cases hs; exact ⟨_, rfl, rfl, ht⟩
    · cases hs
  | digits s left value rune =>
    simp only at hs ⊢
    split at hs
    · cases hs
    rename_i d hd
    split at hs
    · cases hs; rename_i hx; exact ⟨_, if_pos hx, rfl, ht⟩
    rename_i h1; rw [if_neg h1]
    split at hs
    · cases hs; rename_i hx; exact ⟨_, if_pos hx, rfl, ht⟩
    rename_i h1; rw [if_neg h1]
    split at hs
    · cases hs; rename_i hx; exact ⟨_, if_pos hx, rfl, ht⟩
    · cases hs

theorem tabStep_near {a b : LexState} (h : Near a b) {x : UInt8} {st : LexState}
    (hs : tabStep a x = .ok st) : ∃ st1, tabStep b x = .ok st1 ∧ Near st st1 := by
  unfold tabStep at hs ⊢
  rw [← h.1]
  split at hs
  · cases hs
  · rename_i hx
    rw [if_neg hx]
    exact lexStep_near h hs

/-- Replacing `old` by `new` changes nothing but commas before closing braces, unless it puts a line break
into a literal, which then is an unlucky one. -/
def Breakable (old new : Bytes) : Prop :=
  ∀ a b st, Near a b → a.mode.Tab → tabFrom a old = .ok st →
    (∃ st1, tabFrom b new = .ok st1 ∧ Near st st1) ∨
    (tabFrom b new = .error .newline ∧
      ∃ p, (∀ w, Unlucky (p ++ w)) ∧ Holds p st ∨ ∃ u, Unlucky u ∧ GoTok.text u ∈ st.toks)

theorem replace_near_holds {old new : Bytes} (hb : Breakable old new) (n : Nat) (s : Bytes)
    {a b st : LexState} (h : Near a b) (ht : a.mode.Tab) (hs : tabFrom a s = .ok st) :
    (∃ st1, tabFrom b (replaceAux old new n s) = .ok st1 ∧ Near st st1) ∨
    (tabFrom b (replaceAux old new n s) = .error .newline ∧
      ((∃ p, (∀ w, Unlucky (p ++ w)) ∧ Holds p st) ∨ ∃ u, Unlucky u ∧ GoTok.text u ∈ st.toks)) := by
  induction n generalizing s a b with
  | zero =>
    left
    simp only [replaceAux]
    induction s generalizing a b with
    | nil => cases hs; exact ⟨b, rfl, h⟩
    | cons x t ih =>
      simp only [tabFrom] at hs ⊢
      split at hs
      · cases hs
      · rename_i st2 h2
        obtain ⟨st3, h3, h4⟩ := tabStep_near h h2
        rw [h3]
        exact ih h4 (tabStep_tab h2 ht) hs
  | succ n ih =>
    cases s with
    | nil => left; cases hs; exact ⟨b, rfl, h⟩
    | cons x t =>
      simp only [replaceAux]
      by_cases hp : old.isPrefixOf (x :: t) = true
      · rw [if_pos hp]
        obtain ⟨rest, hrest⟩ := List.isPrefixOf_iff_prefix.mp hp
        rw [← hrest] at hs ⊢
        rw [List.drop_left]
        rw [tabFrom_append] at hs
        split at hs
        · cases hs
        rename_i st2 h2
        rcases hb a b st2 h ht h2 with ⟨st3, h3, h4⟩ | ⟨h3, h4⟩
        · rw [tabFrom_ok h3]
          exact ih rest h4 (tabFrom_tab h2 ht) hs
        · right
          refine ⟨by rw [tabFrom_append, h3], ?_⟩
          obtain ⟨p, ⟨hu, hp⟩ | ⟨u, hu, hm⟩⟩ := h4
          · exact .inl ⟨p, hu, tabFrom_holds hs hp⟩
          · exact .inr ⟨u, hu, tabFrom_mem hs hm⟩
      · rw [if_neg hp]
        simp only [tabFrom] at hs ⊢
        split at hs
        · cases hs
        · rename_i st2 h2
          obtain ⟨st3, h3, h4⟩ := tabStep_near h h2
          rw [h3]
          exact ih t h4 (tabStep_tab h2 ht) hs

theorem replace_near {old new : Bytes} (hb : Breakable old new) (n : Nat) (s : Bytes)
    {a b st : LexState} (h : Near a b) (ht : a.mode.Tab) (hs : tabFrom a s = .ok st)
    (hv : st.mode.value? = none) :
    (∃ st1, tabFrom b (replaceAux old new n s) = .ok st1 ∧ Near st st1) ∨
    (tabFrom b (replaceAux old new n s) = .error .newline ∧ ∃ u, Unlucky u ∧ GoTok.text u ∈ st.toks) := by
  rcases replace_near_holds hb n s h ht hs with h | ⟨h, ⟨p, hu, ⟨w, hw⟩ | ⟨w, hw⟩⟩ | h2⟩
  · exact .inl h
  · rw [hv] at hw; cases hw
  · exact .inr ⟨h, _, hu w, hw⟩
  · exact .inr ⟨h, h2⟩

theorem lineEnd_punct {toks : List GoTok} {b : UInt8} (h : (GoTok.punct b).endsLine = false) :
    lineEnd (toks ++ [.punct b]) = toks ++ [.punct b] := by
  unfold lineEnd
  simp [h]

theorem lineEnd_semi (toks : List GoTok) : lineEnd (toks ++ [.semi]) = toks ++ [.semi] := by
  unfold lineEnd
  simp [GoTok.endsLine]

theorem tab_indent {indent : Bytes} (h : ∀ b ∈ indent, b = 0x09) (toks : List GoTok) (s : Bytes) :
    tabFrom ⟨.code, toks⟩ (indent ++ s) = tabFrom ⟨.code, toks⟩ s := by
  induction indent with
  | nil => rfl
  | cons b t ih =>
    have hb : b = 0x09 := h b (by simp)
    subst hb
    rw [List.cons_append]
    simp only [tabFrom, tabStep, LexMode.inText, lexStep, lexCode]
    exact ih fun b hb => h b (List.mem_cons_of_mem _ hb)

/-- Break before the second of two literals separated by a comma. -/
theorem breakable_comma {indent : Bytes} (hi : ∀ b ∈ indent, b = 0x09) :
    Breakable [0x22, 0x2C, 0x20, 0x22] ([0x22, 0x2C, 0x0A] ++ indent ++ [0x22]) := by
  rintro ⟨mode, toks⟩ ⟨mode', toks'⟩ st ⟨hm, hn⟩ ht h
  cases hm
  have hu : Unlucky (str ", ") := .inl rfl
  have hcomma : str ", " = [0x2C, 0x20] := by decide +kernel
  cases mode with
  | code =>
    right
    simp [tabFrom, tabStep, LexMode.inText, lexStep, lexCode] at h ⊢
    subst h
    exact ⟨[], .inr ⟨_, hu, by simp [hcomma]⟩⟩
  | word s =>
    right
    simp [tabFrom, tabStep, LexMode.inText, lexStep, lexCode, isLetterByte, isDigitByte] at h ⊢
    subst h
    exact ⟨[], .inr ⟨_, hu, by simp [hcomma]⟩⟩
  | slash => exact ht.elim
  | comment => exact ht.elim
  | text s =>
    left
    simp [tabFrom, tabStep, LexMode.inText, lexStep, lexCode, isLetterByte] at h ⊢
    subst h
    rw [show toks' ++ [GoTok.text s, .punct 44] = (toks' ++ [.text s]) ++ [.punct 44] by simp,
      lineEnd_punct rfl, tab_indent hi]
    refine ⟨_, rfl, rfl, ?_⟩
    simpa using (hn.same (.text s)).same (.punct 44)
  | escape s =>
    right
    simp [tabFrom, tabStep, LexMode.inText, lexStep, lexCode, escapeValue] at h ⊢
    subst h
    refine ⟨[], .inr ⟨_, .inr (.inl ⟨s, rfl⟩), ?_⟩⟩
    have : str "\", " = [0x22, 0x2C, 0x20] := by decide +kernel
    simp [this]
  | digits s left value rune =>
    simp [tabFrom, tabStep, LexMode.inText, lexStep, hexValue] at h

/-- Break before the first literal. -/
theorem breakable_open {indent : Bytes} (hi : ∀ b ∈ indent, b = 0x09) :
    Breakable [0x7B, 0x22] ([0x7B, 0x0A] ++ indent ++ [0x22]) := by
  rintro ⟨mode, toks⟩ ⟨mode', toks'⟩ st ⟨hm, hn⟩ ht h
  cases hm
  cases mode with
  | code =>
    left
    simp [tabFrom, tabStep, LexMode.inText, lexStep, lexCode, isLetterByte] at h ⊢
    subst h
    rw [lineEnd_punct rfl, tab_indent hi]
    exact ⟨_, rfl, rfl, hn.same (.punct 123)⟩
  | word s =>
    left
    simp [tabFrom, tabStep, LexMode.inText, lexStep, lexCode, isLetterByte, isDigitByte] at h ⊢
    subst h
    rw [show toks' ++ [GoTok.word s, .punct 123] = (toks' ++ [.word s]) ++ [.punct 123] by simp,
      lineEnd_punct rfl, tab_indent hi]
    refine ⟨_, rfl, rfl, ?_⟩
    simpa using (hn.same (.word s)).same (.punct 123)
  | slash => exact ht.elim
  | comment => exact ht.elim
  | text s =>
    right
    simp [tabFrom, tabStep, LexMode.inText, lexStep] at h ⊢
    subst h
    refine ⟨[], .inr ⟨_, .inr (.inr (.inl ⟨s, rfl⟩)), ?_⟩⟩
    have : str "{" = [0x7B] := by decide +kernel
    simp [this]
  | escape s => simp [tabFrom, tabStep, LexMode.inText, lexStep, escapeValue] at h
  | digits s left value rune =>
    simp [tabFrom, tabStep, LexMode.inText, lexStep, hexValue] at h

/-- Break after the last literal, with a comma. -/
theorem breakable_close {indent : Bytes} (hi : ∀ b ∈ indent, b = 0x09) :
    Breakable [0x22, 0x7D] ([0x22, 0x2C, 0x0A] ++ indent ++ [0x7D]) := by
  rintro ⟨mode, toks⟩ ⟨mode', toks'⟩ st ⟨hm, hn⟩ ht h
  cases hm
  have hbrace : str "}" = [0x7D] := by decide +kernel
  have hbraces : str "\"}" = [0x22, 0x7D] := by decide +kernel
  have hu : ∀ w, Unlucky ([0x7D] ++ w) := fun w => .inr (.inr (.inr (.inl ⟨w, by rw [hbrace]⟩)))
  cases mode with
  | code =>
    right
    simp [tabFrom, tabStep, LexMode.inText, lexStep, lexCode, isLetterByte] at h ⊢
    subst h
    exact ⟨[0x7D], .inl ⟨hu, .inl ⟨[], rfl⟩⟩⟩
  | word s =>
    right
    simp [tabFrom, tabStep, LexMode.inText, lexStep, lexCode, isLetterByte, isDigitByte] at h ⊢
    subst h
    exact ⟨[0x7D], .inl ⟨hu, .inl ⟨[], rfl⟩⟩⟩
  | slash => exact ht.elim
  | comment => exact ht.elim
  | text s =>
    left
    simp [tabFrom, tabStep, LexMode.inText, lexStep, lexCode, isLetterByte] at h ⊢
    subst h
    rw [show toks' ++ [GoTok.text s, .punct 44] = (toks' ++ [.text s]) ++ [.punct 44] by simp,
      lineEnd_punct rfl, tab_indent hi]
    refine ⟨_, rfl, rfl, ?_⟩
    simpa using hn.comma s
  | escape s =>
    right
    simp [tabFrom, tabStep, LexMode.inText, lexStep, lexCode, escapeValue] at h ⊢
    subst h
    refine ⟨s ++ [0x22, 0x7D], .inl ⟨fun w => ?_, .inl ⟨[], by simp [LexMode.value?]⟩⟩⟩
    exact .inr (.inr (.inr (.inr ⟨s, w, by rw [hbraces]⟩)))
  | digits s left value rune =>
    simp [tabFrom, tabStep, LexMode.inText, lexStep, hexValue] at h

/-! ### Errors stay -/

theorem tabStep_newline {st : LexState} {b : UInt8} (h : tabStep st b = .error .newline) :
    b = 0x0A ∧ ∃ s, st.mode = .text s := by
  have hc : ∀ toks, lexCode toks b ≠ .error .newline := by
    intro toks hc
    unfold lexCode at hc
    repeat' split at hc
    all_goals cases hc
  obtain ⟨mode, toks⟩ := st
  unfold tabStep at h
  split at h
  · cases h
  unfold lexStep at h
  cases mode with
  | code => exact absurd h (hc _)
  | word s =>
    simp only at h
    split at h
    · cases h
    · exact absurd h (hc _)
  | slash => simp only at h; split at h <;> cases h
  | comment => simp only at h; split at h <;> cases h
  | text s =>
    simp only at h
    split at h
    · cases h
    split at h
    · rename_i h1; exact ⟨h1, s, rfl⟩
    split at h <;> cases h
  | escape s =>
    simp only at h
    repeat' split at h
    all_goals cases h
  | digits s left value rune =>
    simp only at h
    repeat' split at h
    all_goals cases h

theorem tabFrom_newline {st : LexState} {s : Bytes} (h : tabFrom st s = .error .newline) : 0x0A ∈ s := by
  induction s generalizing st with
  | nil => cases h
  | cons b t ih =>
    simp only [tabFrom] at h
    split at h
    · rename_i e he
      cases h
      rw [(tabStep_newline he).1]
      exact List.mem_cons_self
    · exact List.mem_cons_of_mem _ (ih h)

theorem replace_error {old new : Bytes} (hb : Breakable old new) (ho : 0x0A ∉ old) (n : Nat) (s : Bytes)
    {a b : LexState} (h : Near a b) (ht : a.mode.Tab) (hs : tabFrom a s = .error .newline) :
    tabFrom b (replaceAux old new n s) = .error .newline := by
  have step : ∀ {x} {a b : LexState}, Near a b → tabStep a x = .error .newline →
      tabStep b x = .error .newline := by
    rintro x ⟨m, ta⟩ ⟨m', tb⟩ ⟨hm, -⟩ hx
    cases hm
    obtain ⟨rfl, w, hw⟩ := tabStep_newline hx
    cases hw
    rfl
  induction n generalizing s a b with
  | zero =>
    simp only [replaceAux]
    induction s generalizing a b with
    | nil => cases hs
    | cons x t ih =>
      simp only [tabFrom] at hs ⊢
      split at hs
      · rename_i e he
        cases hs
        rw [step h he]
      · rename_i st2 h2
        obtain ⟨st3, h3, h4⟩ := tabStep_near h h2
        rw [h3]
        exact ih h4 (tabStep_tab h2 ht) hs
  | succ n ih =>
    cases s with
    | nil => cases hs
    | cons x t =>
      simp only [replaceAux]
      by_cases hp : old.isPrefixOf (x :: t) = true
      · rw [if_pos hp]
        obtain ⟨rest, hrest⟩ := List.isPrefixOf_iff_prefix.mp hp
        rw [← hrest] at hs ⊢
        rw [List.drop_left]
        rw [tabFrom_append] at hs
        split at hs
        · rename_i e he
          cases hs
          exact absurd (tabFrom_newline he) ho
        rename_i st2 h2
        rcases hb a b st2 h ht h2 with ⟨st3, h3, h4⟩ | ⟨h3, -⟩
        · rw [tabFrom_ok h3]
          exact ih rest h4 (tabFrom_tab h2 ht) hs
        · rw [tabFrom_append, h3]
      · rw [if_neg hp]
        simp only [tabFrom] at hs ⊢
        split at hs
        · rename_i e he
          cases hs
          rw [step h he]
        · rename_i st2 h2
          obtain ⟨st3, h3, h4⟩ := tabStep_near h h2
          rw [h3]
          exact ih t h4 (tabStep_tab h2 ht) hs

/-! ### Quoted strings -/

theorem text_copy {s : Bytes} (h : ∀ b ∈ s, b ≠ 0x22 ∧ b ≠ 0x0A ∧ b ≠ 0x5C) (a : Bytes) (toks : List GoTok) :
    tabFrom ⟨.text a, toks⟩ s = .ok ⟨.text (a ++ s), toks⟩ := by
  induction s generalizing a with
  | nil => simp [tabFrom]
  | cons b t ih =>
    obtain ⟨h1, h2, h3⟩ := h b List.mem_cons_self
    simp only [tabFrom, tabStep, LexMode.inText, lexStep, if_neg h1, if_neg h2, if_neg h3]
    simp only [reduceCtorEq, and_false, ↓reduceIte]
    rw [ih (fun b hb => h b (List.mem_cons_of_mem _ hb))]
    simp

theorem encode_high {r : Rune} (h : ValidRune r) (hr : 0x80 ≤ r) : ∀ b ∈ encodeRune r, 0x80 ≤ b.toNat := by
  rw [encodeRune_valid h]
  unfold ValidRune at h
  unfold encodeValid
  rw [if_neg (by omega)]
  intro b hb
  split at hb
  · simp only [List.mem_cons, List.not_mem_nil, or_false] at hb
    rcases hb with rfl | rfl <;> rw [toNat_ofNat (by omega)] <;> omega
  split at hb
  · simp only [List.mem_cons, List.not_mem_nil, or_false] at hb
    rcases hb with rfl | rfl | rfl <;> rw [toNat_ofNat (by omega)] <;> omega
  · simp only [List.mem_cons, List.not_mem_nil, or_false] at hb
    rcases hb with rfl | rfl | rfl | rfl <;> rw [toNat_ofNat (by omega)] <;> omega

theorem hexValue_digit {d : Nat} (h : d < 16) : hexValue (hexDigit d) = some d := by
  have : ∀ d : Fin 16, hexValue (hexDigit d.1) = some d.1 := by decide
  exact this ⟨d, h⟩

theorem digits_run (w k n v : Nat) (a : Bytes) (rune : Bool) (toks : List GoTok) (hk : 1 ≤ k) :
    tabFrom ⟨.digits a (w + k) v rune, toks⟩ (hexDigits w n) =
      .ok ⟨.digits a k (v * 16 ^ w + n % 16 ^ w) rune, toks⟩ := by
  induction w generalizing n k with
  | zero => simp [hexDigits, tabFrom, Nat.mod_one]
  | succ w ih =>
    rw [hexDigits, show w + 1 + k = w + (k + 1) by omega, tabFrom_ok (ih (k + 1) (n / 16) (by omega))]
    have hd : n % 16 < 16 := Nat.mod_lt _ (by omega)
    simp only [tabFrom, tabStep, LexMode.inText, lexStep, hexValue_digit hd]
    simp only [reduceCtorEq, and_false, ↓reduceIte, ne_eq]
    rw [if_pos (by omega)]
    simp only [Nat.add_sub_cancel, Except.ok.injEq, LexState.mk.injEq, LexMode.digits.injEq, true_and, and_true]
    rw [Nat.add_mul, Nat.mul_assoc, ← Nat.pow_succ, Nat.add_assoc]
    congr 1
    have h1 := Nat.mod_mul (x := n) (a := 16) (b := 16 ^ w)
    rw [Nat.pow_succ, Nat.mul_comm (16 ^ w) 16, h1]
    omega

/-- All the digits of a byte. -/
theorem hex_byte {n : Nat} (h : n < 256) (a : Bytes) (toks : List GoTok) :
    tabFrom ⟨.text a, toks⟩ ([0x5C, 0x78] ++ hexDigits 2 n) = .ok ⟨.text (a ++ [UInt8.ofNat n]), toks⟩ := by
  have h0 : tabFrom ⟨.text a, toks⟩ [0x5C, 0x78] = .ok ⟨.digits a 2 0 false, toks⟩ := rfl
  rw [tabFrom_ok h0, hexDigits, tabFrom_ok (digits_run 1 1 (n / 16) 0 a false toks (by omega))]
  have hd : n % 16 < 16 := Nat.mod_lt _ (by omega)
  have hq : (0 * 16 ^ 1 + n / 16 % 16 ^ 1) * 16 + n % 16 = n := by omega
  simp only [tabFrom, tabStep, LexMode.inText, lexStep, hexValue_digit hd, hq]
  simp only [reduceCtorEq, and_false, ↓reduceIte, ne_eq, not_true_eq_false, Bool.not_false]

/-- All the digits of a rune. -/
theorem hex_rune {w : Nat} {b : UInt8} {n : Nat} (hv : ValidRune n) (hn : n < 16 ^ (w + 1))
    (a : Bytes) (toks : List GoTok)
    (h0 : tabFrom ⟨.text a, toks⟩ [0x5C, b] = .ok ⟨.digits a (w + 1) 0 true, toks⟩) :
    tabFrom ⟨.text a, toks⟩ ([0x5C, b] ++ hexDigits (w + 1) n) = .ok ⟨.text (a ++ encodeRune n), toks⟩ := by
  rw [tabFrom_ok h0, hexDigits, tabFrom_ok (digits_run w 1 (n / 16) 0 a true toks (by omega))]
  have hd : n % 16 < 16 := Nat.mod_lt _ (by omega)
  have hq : (0 * 16 ^ w + n / 16 % 16 ^ w) * 16 + n % 16 = n := by
    rw [Nat.mod_eq_of_lt (a := n / 16) (by rw [Nat.pow_succ] at hn; omega)]
    omega
  simp only [tabFrom, tabStep, LexMode.inText, lexStep, hexValue_digit hd, hq]
  simp only [reduceCtorEq, and_false, ↓reduceIte, ne_eq, not_true_eq_false, Bool.not_true, if_pos hv,
    Bool.false_eq_true]

/-- An escaped rune is read as the rune. -/
theorem escape_run {isPrint : Rune → Bool} (hl : PrintLaws isPrint) {r : Rune} (hv : ValidRune r)
    (a : Bytes) (toks : List GoTok) :
    tabFrom ⟨.text a, toks⟩ (escapeRune isPrint r) = .ok ⟨.text (a ++ encodeRune r), toks⟩ := by
  unfold escapeRune
  split
  · rename_i h
    rcases h with rfl | rfl <;> rfl
  rename_i hq
  split
  · rename_i hp
    apply text_copy
    have hc : 0x20 ≤ r := by
      apply Decidable.byContradiction
      intro hc
      rw [hl.control r (by omega)] at hp
      cases hp
    intro b hb
    by_cases h80 : r < 0x80
    · rw [encodeRune_ascii h80] at hb
      have e : b.toNat = r := by rw [List.mem_singleton.mp hb, toNat_ofNat (by omega)]
      refine ⟨?_, ?_, ?_⟩ <;> intro hb <;> rw [hb] at e <;> simp at e <;> omega
    · have := encode_high hv (by omega) b hb
      refine ⟨?_, ?_, ?_⟩ <;> intro hb <;> rw [hb] at this <;> simp at this
  split
  · rename_i h; subst h; rfl
  split
  · rename_i h; subst h; rfl
  split
  · rename_i h; subst h; rfl
  split
  · rename_i h; subst h; rfl
  split
  · rename_i h; subst h; rfl
  split
  · rename_i h; subst h; rfl
  split
  · rename_i h; subst h; rfl
  split
  · rename_i h
    rw [hex_byte (by omega), encodeRune_ascii (by omega)]
  split
  · rename_i h
    exact hex_rune (w := 3) hv (by omega) a toks rfl
  · exact hex_rune (w := 7) hv (by unfold ValidRune at hv; omega) a toks rfl

theorem quoteAux_run {isPrint : Rune → Bool} (hl : PrintLaws isPrint) (n : Nat) (s : Bytes)
    (hn : s.length ≤ n) (a : Bytes) (toks : List GoTok) :
    tabFrom ⟨.text a, toks⟩ (quoteAux isPrint n s) = .ok ⟨.text (a ++ s), toks⟩ := by
  induction n generalizing s a with
  | zero =>
    have : s = [] := List.length_eq_zero_iff.mp (by omega)
    subst this
    simp [quoteAux, tabFrom]
  | succ n ih =>
    cases s with
    | nil => simp [quoteAux, tabFrom]
    | cons b t =>
      simp only [quoteAux]
      have hw := decodeRune_width_pos b t
      have hlen : ((b :: t).drop (decodeRune (b :: t)).2).length ≤ n := by
        simp only [List.length_drop, List.length_cons] at hn ⊢
        omega
      rcases decodeRune_encoded b t with h1 | ⟨⟨rest, h1⟩, h2⟩
      · rw [h1] at hlen ⊢
        simp only [and_self, ↓reduceIte]
        rw [tabFrom_ok (hex_byte (UInt8.toNat_lt b) a toks), ih _ hlen]
        simp
      · have he : ∀ toks, tabFrom ⟨.text a, toks⟩
            (if (decodeRune (b :: t)).2 = 1 ∧ (decodeRune (b :: t)).1 = runeError
              then [0x5C, 0x78] ++ hexDigits 2 b.toNat else escapeRune isPrint (decodeRune (b :: t)).1)
            = .ok ⟨.text (a ++ encodeRune (decodeRune (b :: t)).1), toks⟩ := by
          intro toks
          split
          · rename_i h
            rw [h.2] at h2
            rw [h.1] at h2
            exact absurd h2 (by decide +kernel)
          · exact escape_run hl (decodeRune_valid _) a toks
        rw [tabFrom_ok (he toks), ih _ hlen, encodeRune_valid (decodeRune_valid _), h2]
        generalize encodeValid (decodeRune (b :: t)).1 = e at h1
        rw [← h1, List.drop_left, List.append_assoc]

/-- A quoted string is read as the string. -/
theorem quote_run {isPrint : Rune → Bool} (hl : PrintLaws isPrint) (s : Bytes) (toks : List GoTok) :
    tabFrom ⟨.code, toks⟩ (quote isPrint s) = .ok ⟨.code, toks ++ [.text s]⟩ := by
  have h0 : tabFrom ⟨.code, toks⟩ [0x22] = .ok ⟨.text [], toks⟩ := rfl
  unfold quote
  rw [List.append_assoc, tabFrom_ok h0, tabFrom_ok (quoteAux_run hl _ s (Nat.le_refl _) [] toks)]
  rfl

theorem pairs_run {isPrint : Rune → Bool} (hl : PrintLaws isPrint) (rows : StringMap) (toks : List GoTok) :
    tabFrom ⟨.code, toks⟩
      (join [0x2C, 0x20] (rows.map fun e => quote isPrint e.1 ++ [0x3A] ++ quote isPrint e.2)) =
      .ok ⟨.code, toks ++ pairToks false rows⟩ := by
  have one : ∀ (e : Bytes × Bytes) (toks : List GoTok),
      tabFrom ⟨.code, toks⟩ (quote isPrint e.1 ++ [0x3A] ++ quote isPrint e.2) =
        .ok ⟨.code, toks ++ [.text e.1, .punct 0x3A, .text e.2]⟩ := by
    intro e toks
    have h1 : ∀ toks, tabFrom ⟨.code, toks⟩ [0x3A] = .ok ⟨.code, toks ++ [.punct 0x3A]⟩ := fun _ => rfl
    rw [List.append_assoc, tabFrom_ok (quote_run hl _ _), tabFrom_ok (h1 _), quote_run hl]
    simp
  induction rows generalizing toks with
  | nil => simp [join, tabFrom, pairToks]
  | cons e l ih =>
    cases l with
    | nil =>
      simp only [List.map_cons, List.map_nil, join, one, pairToks]
      simp
    | cons e' l =>
      have h1 : ∀ toks, tabFrom ⟨.code, toks⟩ [0x2C, 0x20] = .ok ⟨.code, toks ++ [.punct 0x2C]⟩ := fun _ => rfl
      have ih' := ih (toks ++ [.text e.1, .punct 0x3A, .text e.2] ++ [.punct 0x2C])
      simp only [List.map_cons] at ih' ⊢
      rw [join, List.append_assoc, tabFrom_ok (one _ _), tabFrom_ok (h1 _), ih']
      simp [pairToks]

/-! ### Sorting -/

theorem insertByKey_perm (x : Bytes × Bytes) (m : StringMap) : List.Perm (insertByKey x m) (x :: m) := by
  induction m with
  | nil => exact .refl _
  | cons y m ih =>
    unfold insertByKey
    split
    · exact .refl _
    · exact (List.Perm.cons y ih).trans (.swap x y m)

theorem sortByKey_perm (m : StringMap) : List.Perm (sortByKey m) m := by
  induction m with
  | nil => exact .refl _
  | cons x m ih => exact (insertByKey_perm x _).trans (.cons x ih)

/-! ### The tokens of the file -/

theorem Commas.eq {a x : List GoTok} (h : Commas a x) (ha : GoTok.punct 0x7D ∉ a) : x = a := by
  induction h with
  | nil => rfl
  | same t h ih =>
    rw [ih (fun hc => ha (List.mem_append_left _ hc))]
  | comma s h ih => exact absurd (by simp) ha

theorem Commas.close {a x : List GoTok} (h : Commas (a ++ [.punct 0x7D, .semi]) x)
    (ha : GoTok.punct 0x7D ∉ a) :
    x = a ++ [.punct 0x7D, .semi] ∨
    (∃ b s, a = b ++ [.text s]) ∧ x = a ++ [.punct 0x2C, .punct 0x7D, .semi] := by
  rw [show a ++ [GoTok.punct 0x7D, .semi] = (a ++ [.punct 0x7D]) ++ [.semi] by simp] at h
  generalize hc : (a ++ [GoTok.punct 0x7D]) ++ [.semi] = c at h
  cases h with
  | nil => simp at hc
  | @same c d t h =>
    obtain ⟨h1, h2⟩ := List.append_inj' hc rfl
    subst h1
    cases h2
    generalize he : a ++ [GoTok.punct 0x7D] = e at h
    cases h with
    | nil => simp at he
    | @same e f t h =>
      obtain ⟨h1, h2⟩ := List.append_inj' he rfl
      subst h1
      cases h2
      rw [h.eq ha]
      simp
    | @comma e f s h =>
      rw [show e ++ [GoTok.text s, .punct 0x7D] = (e ++ [.text s]) ++ [.punct 0x7D] by simp] at he
      obtain ⟨h1, -⟩ := List.append_inj' he rfl
      subst h1
      rw [h.eq (fun hc => ha (List.mem_append_left _ hc))]
      exact .inr ⟨⟨_, _, rfl⟩, by simp⟩
  | @comma c d s h =>
    rw [show c ++ [GoTok.text s, .punct 0x7D] = (c ++ [.text s]) ++ [.punct 0x7D] by simp] at hc
    obtain ⟨-, h2⟩ := List.append_inj' hc rfl
    cases h2

theorem pairToks_true {rows : StringMap} (h : rows ≠ []) :
    pairToks true rows = pairToks false rows ++ [.punct 0x2C] := by
  induction rows with
  | nil => exact absurd rfl h
  | cons e l ih =>
    cases l with
    | nil => rfl
    | cons e' l =>
      simp only [pairToks, ih (by simp)]
      simp

theorem pairToks_brace (rows : StringMap) : GoTok.punct 0x7D ∉ pairToks false rows := by
  induction rows with
  | nil => simp [pairToks]
  | cons e l ih =>
    cases l with
    | nil => simp [pairToks]
    | cons e' l =>
      rw [pairToks]
      simp only [List.mem_append, not_or]
      exact ⟨by simp, ih⟩

theorem mem_pairToks {rows : StringMap} {u : Bytes} (h : GoTok.text u ∈ pairToks false rows) :
    ∃ e ∈ rows, u = e.1 ∨ u = e.2 := by
  induction rows with
  | nil => simp [pairToks] at h
  | cons e l ih =>
    cases l with
    | nil =>
      simp [pairToks] at h
      exact ⟨e, by simp, h⟩
    | cons e' l =>
      rw [pairToks] at h
      rcases List.mem_append.mp h with h | h
      · simp at h
        exact ⟨e, by simp, h⟩
      · obtain ⟨e2, h2, h3⟩ := ih h
        exact ⟨e2, List.mem_cons_of_mem _ h2, h3⟩

/-- The tokens before the map. -/
def headToks (name : Bytes) : List GoTok :=
  [.word (str "package"), .word name, .semi, .word (str "var"), .word (str "mappings"), .punct 0x3D,
   .word (str "map"), .punct 0x5B, .word (str "string"), .punct 0x5D]

/-- The header of a generator's template is one for package `name`. -/
structure HeaderFor (name header : Bytes) : Prop where
  tokens : lexFrom ⟨.code, []⟩ (header ++ str "map[string]string") = .ok ⟨.word (str "string"), headToks name⟩
  clear : ∀ b ∈ header ++ str "map[string]string", b ≠ 0x22 ∧ b ≠ 0x7B
  ascii : ∀ b ∈ header ++ str "map[string]string", b ≠ 0 ∧ b.toNat < 0x80

theorem fileToks_eq (name : Bytes) (comma : Bool) (rows : StringMap) :
    fileToks name comma rows =
      headToks name ++ [.word (str "string"), .punct 0x7B] ++ pairToks comma rows ++ [.punct 0x7D, .semi] := by
  simp [fileToks, headToks]

/-- The map, from the brace on, and the end of the line. -/
def bodyText (isPrint : Rune → Bool) (m : StringMap) : Bytes :=
  [0x7B] ++
    (join [0x2C, 0x20] ((sortByKey m).map fun e => quote isPrint e.1 ++ [0x3A] ++ quote isPrint e.2) ++ [0x7D, 0x0A])

theorem sourceText_eq (isPrint : Rune → Bool) (header : Bytes) (m : StringMap) :
    sourceText isPrint header m = header ++ str "map[string]string" ++ bodyText isPrint m := by
  simp [sourceText, goSyntax, bodyText]

theorem body_run {isPrint : Rune → Bool} (hl : PrintLaws isPrint) (name : Bytes) (m : StringMap) :
    tabFrom ⟨.word (str "string"), headToks name⟩ (bodyText isPrint m) =
      .ok ⟨.code, fileToks name false (sortByKey m)⟩ := by
  have h0 : ∀ toks, tabFrom ⟨.word (str "string"), toks⟩ [0x7B] =
      .ok ⟨.code, toks ++ [.word (str "string"), .punct 0x7B]⟩ := by
    intro toks
    simp [tabFrom, tabStep, lexStep, lexCode, isLetterByte, isDigitByte]
  have h1 : ∀ toks, tabFrom ⟨.code, toks⟩ [0x7D, 0x0A] = .ok ⟨.code, toks ++ [.punct 0x7D, .semi]⟩ := by
    intro toks
    have h : tabFrom ⟨.code, toks⟩ [0x7D, 0x0A] = .ok ⟨.code, lineEnd (toks ++ [.punct 0x7D])⟩ := rfl
    rw [h, lineEnd]
    simp [GoTok.endsLine]
  rw [bodyText, tabFrom_ok (h0 _), tabFrom_ok (pairs_run hl _ _), h1, fileToks_eq]

theorem fileToks_commas {name : Bytes} {comma : Bool} {rows : StringMap} {x : List GoTok}
    (h : Commas (fileToks name comma rows) x) : ∃ comma', x = fileToks name comma' rows := by
  by_cases hr : rows = []
  · subst hr
    refine ⟨comma, ?_⟩
    rw [fileToks_eq] at h ⊢
    rcases h.close (by cases comma <;> simp [headToks, pairToks]) with h | ⟨⟨b, s, h⟩, -⟩
    · exact h
    · have := congrArg List.getLast? h
      simp [pairToks] at this
  have hnot : GoTok.punct 0x7D ∉ headToks name ++ [.word (str "string"), .punct 0x7B] ++ pairToks false rows := by
    simp [headToks, pairToks_brace]
  cases comma with
  | false =>
    rw [fileToks_eq] at h
    rcases h.close hnot with h | ⟨-, h⟩
    · exact ⟨false, by rw [h, fileToks_eq]⟩
    · refine ⟨true, ?_⟩
      rw [h, fileToks_eq, pairToks_true hr]
      simp
  | true =>
    refine ⟨true, ?_⟩
    rw [fileToks_eq, pairToks_true hr, ← List.append_assoc] at h ⊢
    rcases h.close (by simp only [List.mem_append, not_or] at hnot ⊢; exact ⟨hnot, by simp⟩) with h | ⟨⟨b, s, h⟩, -⟩
    · exact h
    · cases (List.append_inj' h rfl).2

theorem mem_fileToks {name u : Bytes} {comma : Bool} {rows : StringMap}
    (h : GoTok.text u ∈ fileToks name comma rows) : ∃ e ∈ rows, u = e.1 ∨ u = e.2 := by
  rw [fileToks_eq] at h
  simp only [headToks, List.mem_append, List.mem_cons, reduceCtorEq, List.not_mem_nil, or_false, false_or] at h
  by_cases hr : rows = []
  · subst hr; simp [pairToks] at h
  cases comma with
  | false => exact mem_pairToks h
  | true =>
    rw [pairToks_true hr] at h
    simp only [List.mem_append, List.mem_singleton, reduceCtorEq, or_false] at h
    exact mem_pairToks h

theorem replaceAux_copy {o : UInt8} {old new p : Bytes} (h : ∀ b ∈ p, b ≠ o) (n : Nat) (s : Bytes)
    (hn : p.length ≤ n) :
    replaceAux (o :: old) new n (p ++ s) = p ++ replaceAux (o :: old) new (n - p.length) s := by
  induction p generalizing n with
  | nil => rfl
  | cons b t ih =>
    cases n with
    | zero => simp at hn
    | succ n =>
      rw [List.cons_append, replaceAux, if_neg, ih (fun b hb => h b (List.mem_cons_of_mem _ hb))]
      · simp
      · simpa using hn
      · simp only [List.isPrefixOf, Bool.and_eq_true, beq_iff_eq, not_and]
        intro hc
        exact absurd hc.symm (h b List.mem_cons_self)

theorem replaceAll_header {o : UInt8} {old new p : Bytes} (h : ∀ b ∈ p, b ≠ o) (s : Bytes) :
    replaceAll (o :: old) new (p ++ s) = p ++ replaceAll (o :: old) new s := by
  unfold replaceAll
  rw [replaceAux_copy h _ _ (by simp)]
  simp

/-- Either a file with a line break in a literal, or one that declares the table. -/
theorem breakLines_lex {isPrint : Rune → Bool} (hl : PrintLaws isPrint) {name header indent : Bytes}
    (hh : HeaderFor name header) (hi : ∀ b ∈ indent, b = 0x09) (m : StringMap) :
    (∃ comma, lex (breakLines indent (sourceText isPrint header m)) =
      .ok (fileToks name comma (sortByKey m))) ∨
    (lex (breakLines indent (sourceText isPrint header m)) = .error .newline ∧
      ∃ e ∈ m, Unlucky e.1 ∨ Unlucky e.2) := by
  have hq : ∀ b ∈ header ++ str "map[string]string", b ≠ 0x22 := fun b hb => (hh.clear b hb).1
  have hc : ∀ b ∈ header ++ str "map[string]string", b ≠ 0x7B := fun b hb => (hh.clear b hb).2
  have unlucky : ∀ comma, (∃ u, Unlucky u ∧ GoTok.text u ∈ fileToks name comma (sortByKey m)) →
      ∃ e ∈ m, Unlucky e.1 ∨ Unlucky e.2 := by
    rintro comma ⟨u, hu, hm⟩
    obtain ⟨e, he, h⟩ := mem_fileToks hm
    refine ⟨e, (sortByKey_perm m).mem_iff.mp he, ?_⟩
    rcases h with rfl | rfl
    · exact .inl hu
    · exact .inr hu
  -- one replacement
  have one : ∀ {old new : Bytes}, Breakable old new → 0x0A ∉ old → ∀ s,
      ((∃ comma, tabFrom ⟨.word (str "string"), headToks name⟩ s =
          .ok ⟨.code, fileToks name comma (sortByKey m)⟩) ∨
        (tabFrom ⟨.word (str "string"), headToks name⟩ s = .error .newline ∧
          ∃ e ∈ m, Unlucky e.1 ∨ Unlucky e.2)) →
      ((∃ comma, tabFrom ⟨.word (str "string"), headToks name⟩ (replaceAll old new s) =
          .ok ⟨.code, fileToks name comma (sortByKey m)⟩) ∨
        (tabFrom ⟨.word (str "string"), headToks name⟩ (replaceAll old new s) = .error .newline ∧
          ∃ e ∈ m, Unlucky e.1 ∨ Unlucky e.2)) := by
    intro old new hb ho s h
    rcases h with ⟨comma, h⟩ | ⟨h, hu⟩
    · rcases replace_near hb s.length s (.refl ⟨.word (str "string"), headToks name⟩) trivial h rfl with ⟨⟨mode, toks⟩, h1, h2, h3⟩ | ⟨h1, h2⟩
      · obtain ⟨comma', h4⟩ := fileToks_commas h3
        simp only at h2 h4
        subst h2 h4
        exact .inl ⟨comma', h1⟩
      · exact .inr ⟨h1, unlucky comma h2⟩
    · exact .inr ⟨replace_error hb ho s.length s (.refl ⟨.word (str "string"), headToks name⟩) trivial h, hu⟩
  rw [sourceText_eq]
  simp only [breakLines]
  rw [replaceAll_header hq, replaceAll_header hc, replaceAll_header hq]
  unfold lex
  rw [lexFrom_ok hh.tokens]
  have h := one (breakable_close hi) (by decide) _ (one (breakable_open hi) (by decide) _
    (one (breakable_comma hi) (by decide) _ (.inl ⟨false, body_run hl name m⟩)))
  rcases h with ⟨comma, h⟩ | ⟨h, hu⟩
  · left
    refine ⟨comma, ?_⟩
    rw [tabFrom_lex.1 _ h]
    have hf : fileToks name comma (sortByKey m) = (headToks name ++ [.word (str "string"), .punct 0x7B] ++
        pairToks comma (sortByKey m) ++ [.punct 0x7D]) ++ [.semi] := by rw [fileToks_eq]; simp
    simp only [hf, lineEnd_semi]
  · right
    rw [tabFrom_lex.2 h]
    exact ⟨rfl, hu⟩

/-! ### The text is UTF-8 -/

def Nice (rs : List Rune) : Prop := ∀ r ∈ rs, ValidRune r ∧ r ≠ 0 ∧ r ≠ 0xFEFF

theorem plain_iff {s : Bytes} : PlainText s ↔ ∃ rs, Nice rs ∧ s = encodeRunes rs := .rfl

theorem PlainText.append {a b : Bytes} (ha : PlainText a) (hb : PlainText b) : PlainText (a ++ b) := by
  obtain ⟨x, hx, rfl⟩ := ha
  obtain ⟨y, hy, rfl⟩ := hb
  refine ⟨x ++ y, fun r hr => ?_, (encodeRunes_append x y).symm⟩
  rcases List.mem_append.mp hr with h | h
  · exact hx r h
  · exact hy r h

theorem plain_nil : PlainText [] := ⟨[], by simp, rfl⟩

theorem plain_ascii {s : Bytes} (h : ∀ b ∈ s, b ≠ 0 ∧ b.toNat < 0x80) : PlainText s := by
  induction s with
  | nil => exact plain_nil
  | cons b t ih =>
    obtain ⟨h0, h80⟩ := h b List.mem_cons_self
    have hb : PlainText [b] := by
      refine ⟨[b.toNat], ?_, ?_⟩
      · intro r hr
        rw [List.mem_singleton.mp hr]
        refine ⟨by unfold ValidRune; omega, ?_, by omega⟩
        intro hc
        exact h0 (by rw [← UInt8.toNat_inj]; exact hc)
      · simp [encodeRunes, encodeRune_ascii h80]
    exact hb.append (ih fun b hb => h b (List.mem_cons_of_mem _ hb))

theorem plain_hex (w n : Nat) : ∀ b ∈ hexDigits w n, b ≠ 0 ∧ b.toNat < 0x80 := by
  induction w generalizing n with
  | zero => simp [hexDigits]
  | succ w ih =>
    intro b hb
    rw [hexDigits] at hb
    rcases List.mem_append.mp hb with hb | hb
    · exact ih _ b hb
    · rw [List.mem_singleton.mp hb]
      have : ∀ d : Fin 16, hexDigit d.1 ≠ 0 ∧ (hexDigit d.1).toNat < 0x80 := by decide
      exact this ⟨n % 16, Nat.mod_lt _ (by omega)⟩

theorem plain_escape {isPrint : Rune → Bool} (hl : PrintLaws isPrint) {r : Rune} (hv : ValidRune r) :
    PlainText (escapeRune isPrint r) := by
  unfold escapeRune
  split
  · rename_i h
    rcases h with rfl | rfl <;> exact plain_ascii (by decide)
  split
  · rename_i hp
    refine ⟨[r], ?_, by simp [encodeRunes]⟩
    intro x hx
    rw [List.mem_singleton.mp hx]
    refine ⟨hv, ?_, ?_⟩
    · rintro rfl
      rw [hl.control 0 (by omega)] at hp
      cases hp
    · rintro rfl
      rw [hl.mark] at hp
      cases hp
  iterate 7
    split
    · exact plain_ascii (by decide)
  split
  · exact (plain_ascii (s := [0x5C, 0x78]) (by decide)).append (plain_ascii (plain_hex _ _))
  split
  · exact (plain_ascii (s := [0x5C, 0x75]) (by decide)).append (plain_ascii (plain_hex _ _))
  · exact (plain_ascii (s := [0x5C, 0x55]) (by decide)).append (plain_ascii (plain_hex _ _))

theorem plain_quote {isPrint : Rune → Bool} (hl : PrintLaws isPrint) (s : Bytes) :
    PlainText (quote isPrint s) := by
  have h : ∀ n s, PlainText (quoteAux isPrint n s) := by
    intro n
    induction n with
    | zero => exact fun _ => plain_nil
    | succ n ih =>
      intro s
      cases s with
      | nil => exact plain_nil
      | cons b t =>
        have hv := decodeRune_valid (b :: t)
        simp only [quoteAux]
        generalize decodeRune (b :: t) = d at hv ⊢
        refine PlainText.append ?_ (ih _)
        split
        · exact (plain_ascii (s := [0x5C, 0x78]) (by decide)).append (plain_ascii (plain_hex _ _))
        · exact plain_escape hl hv
  exact ((plain_ascii (by decide)).append (h _ _)).append (plain_ascii (by decide))

theorem plain_join {sep : Bytes} (hs : PlainText sep) {l : List Bytes} (h : ∀ x ∈ l, PlainText x) :
    PlainText (join sep l) := by
  induction l with
  | nil => exact plain_nil
  | cons a t ih =>
    cases t with
    | nil => exact h a (by simp)
    | cons b t =>
      exact ((h a (by simp)).append hs).append (ih fun x hx => h x (List.mem_cons_of_mem _ hx))

theorem plain_body {isPrint : Rune → Bool} (hl : PrintLaws isPrint) (m : StringMap) :
    PlainText (bodyText isPrint m) := by
  refine (plain_ascii (by decide)).append ((plain_join (plain_ascii (by decide)) ?_).append (plain_ascii (by decide)))
  intro x hx
  obtain ⟨e, -, rfl⟩ := List.mem_map.mp hx
  exact ((plain_quote hl _).append (plain_ascii (by decide))).append (plain_quote hl _)

/-- An ASCII beginning of encoded runes ends at a rune. -/
theorem ascii_prefix {old s : Bytes} {rs : List Rune} (ha : ∀ b ∈ old, b.toNat < 0x80)
    (hr : Nice rs) (h : encodeRunes rs = old ++ s) : ∃ rs1, Nice rs1 ∧ s = encodeRunes rs1 ∧
      rs1.length + old.length = rs.length := by
  induction old generalizing rs with
  | nil => exact ⟨rs, hr, h.symm, rfl⟩
  | cons b t ih =>
    cases rs with
    | nil => simp at h
    | cons r rs =>
      have hb := ha b List.mem_cons_self
      by_cases h80 : r < 0x80
      · have he : encodeRunes (r :: rs) = UInt8.ofNat r :: encodeRunes rs := by
          simp [encodeRunes, encodeRune_ascii h80]
        rw [he, List.cons_append] at h
        obtain ⟨rs1, h1, h2, h3⟩ := ih (fun b hb => ha b (List.mem_cons_of_mem _ hb))
          (fun r hr' => hr r (List.mem_cons_of_mem _ hr')) (List.cons.inj h).2
        exact ⟨rs1, h1, h2, by simp; omega⟩
      · have hh := encode_high (hr r List.mem_cons_self).1 (by omega)
        obtain ⟨c, cs, hc⟩ := List.exists_cons_of_ne_nil (encodeRune_ne_nil r)
        have he : encodeRunes (r :: rs) = c :: (cs ++ encodeRunes rs) := by
          simp [encodeRunes, hc]
        rw [he, List.cons_append] at h
        have := hh c (by rw [hc]; exact List.mem_cons_self)
        rw [(List.cons.inj h).1] at this
        omega

theorem plain_replace {o : UInt8} {old new : Bytes} (ha : ∀ b ∈ o :: old, b.toNat < 0x80)
    (hn : PlainText new) {s : Bytes} (hs : PlainText s) : PlainText (replaceAll (o :: old) new s) := by
  obtain ⟨rs, hr, rfl⟩ := hs
  have h : ∀ k rs, rs.length ≤ k → Nice rs → ∀ n, (encodeRunes rs).length ≤ n →
      PlainText (replaceAux (o :: old) new n (encodeRunes rs)) := by
    intro k
    induction k with
    | zero =>
      intro rs hk _ n _
      have : rs = [] := List.length_eq_zero_iff.mp (by omega)
      subst this
      cases n <;> exact plain_nil
    | succ k ih =>
      intro rs hk hr n hlen
      cases rs with
      | nil => cases n <;> exact plain_nil
      | cons r rs =>
        have hr' : Nice rs := fun r h => hr r (List.mem_cons_of_mem _ h)
        have hk' : rs.length ≤ k := by simpa using hk
        have hp : PlainText (encodeRune r) :=
          ⟨[r], fun x hx => by rw [List.mem_singleton.mp hx]; exact hr r List.mem_cons_self, by simp [encodeRunes]⟩
        have hcons : encodeRunes (r :: rs) = encodeRune r ++ encodeRunes rs := by simp [encodeRunes]
        by_cases h80 : r < 0x80
        · have he : encodeRunes (r :: rs) = UInt8.ofNat r :: encodeRunes rs := by
            rw [hcons, encodeRune_ascii h80]; rfl
          rw [he] at hlen ⊢
          cases n with
          | zero => simp at hlen
          | succ n =>
            rw [replaceAux]
            split
            · rename_i hm
              obtain ⟨rest, hrest⟩ := List.isPrefixOf_iff_prefix.mp hm
              rw [← he] at hrest
              obtain ⟨rs1, h1, h2, h3⟩ := ascii_prefix ha hr hrest.symm
              have h4 : (encodeRunes rs1).length ≤ n := by
                have := congrArg List.length hrest
                rw [he, h2] at this
                simp only [List.length_append, List.length_cons] at this hlen
                omega
              rw [← he, ← hrest, List.drop_left, h2]
              refine hn.append ?_
              exact ih rs1 (by simp only [List.length_cons] at h3 hk; omega) h1 n h4
            · refine PlainText.append (a := [UInt8.ofNat r]) ?_ (ih rs hk' hr' n (by simpa using hlen))
              rw [← encodeRune_ascii h80]
              exact hp
        · rw [hcons] at hlen ⊢
          rw [replaceAux_copy _ _ _ (by simp at hlen; omega)]
          · exact hp.append (ih rs hk' hr' _ (by simp at hlen; omega))
          · intro b hb hc
            have := encode_high (hr r List.mem_cons_self).1 (by omega) b hb
            have h2 := ha o List.mem_cons_self
            rw [hc] at this
            omega
  exact h rs.length rs (Nat.le_refl _) hr _ (Nat.le_refl _)

end Jargon
