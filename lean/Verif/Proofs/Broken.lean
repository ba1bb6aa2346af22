import Verif.Proofs.GoSource
import Verif.Proofs.WordReplace

/-! Which tables cannot be written: where the breaking of lines finds something to replace, and what that does. -/

namespace Jargon

/-! ### Replacing -/

theorem replaceAux_fuel {old new : Bytes} (ho : old ≠ []) (n m : Nat) (s : Bytes) (hn : s.length ≤ n)
    (hm : s.length ≤ m) : replaceAux old new n s = replaceAux old new m s := by
  induction n generalizing m s with
  | zero =>
    have : s = [] := List.length_eq_zero_iff.mp (by omega)
    subst this
    cases m <;> rfl
  | succ n ih =>
    cases s with
    | nil => cases m <;> rfl
    | cons b t =>
      cases m with
      | zero => simp at hm
      | succ m =>
        have hp : 0 < old.length := List.length_pos_iff.mpr ho
        simp only [List.length_cons] at hn hm
        simp only [replaceAux]
        split
        · rw [ih m _ (by simp; omega) (by simp; omega)]
        · rw [ih m _ (by omega) (by omega)]

theorem replaceAll_nil (old new : Bytes) : replaceAll old new [] = [] := rfl

theorem replaceAll_here {old new : Bytes} (ho : old ≠ []) (y : Bytes) :
    replaceAll old new (old ++ y) = new ++ replaceAll old new y := by
  unfold replaceAll
  obtain ⟨b, t, rfl⟩ := List.exists_cons_of_ne_nil ho
  simp only [List.cons_append, List.length_cons, replaceAux]
  rw [if_pos (List.isPrefixOf_iff_prefix.mpr (show b :: t <+: b :: (t ++ y) from ⟨y, rfl⟩))]
  rw [show (b :: (t ++ y)).drop (t.length + 1) = y by simp]
  rw [replaceAux_fuel ho _ y.length y (by simp) (Nat.le_refl _)]

theorem replaceAll_next {old new : Bytes} {b : UInt8} {t : Bytes} (h : ¬ old <+: b :: t) :
    replaceAll old new (b :: t) = b :: replaceAll old new t := by
  unfold replaceAll
  simp only [List.length_cons, replaceAux]
  rw [if_neg (fun hc => h (List.isPrefixOf_iff_prefix.mp hc))]

/-- Nothing that is replaced reaches from `x` into what follows. -/
theorem replaceAll_cut {old new : Bytes} (ho : old ≠ []) (x z : Bytes)
    (hx : ∀ u v, u ≠ [] → v ≠ [] → old = u ++ v → u <:+ x → ¬ v <+: z) :
    replaceAll old new (x ++ z) = replaceAll old new x ++ replaceAll old new z := by
  induction hn : x.length using Nat.strongRecOn generalizing x with
  | _ n ih =>
    cases x with
    | nil => rfl
    | cons b t =>
      by_cases hp : old <+: (b :: t) ++ z
      · have hp' : old <+: b :: t := by
          rcases List.prefix_or_prefix_of_prefix hp (List.prefix_append (b :: t) z) with h | ⟨v, h⟩
          · exact h
          · by_cases hv : v = []
            · subst hv
              rw [List.append_nil] at h
              exact h ▸ List.prefix_refl _
            · obtain ⟨r, hr⟩ := hp
              rw [← h, List.append_assoc] at hr
              exact absurd ⟨r, List.append_cancel_left hr⟩
                (hx (b :: t) v (by simp) hv h.symm (List.suffix_refl _))
        obtain ⟨x', h⟩ := hp'
        rw [← h, List.append_assoc, replaceAll_here ho, replaceAll_here ho, List.append_assoc]
        congr 1
        have hl : 0 < old.length := List.length_pos_iff.mpr ho
        refine ih x'.length ?_ x' ?_ rfl
        · rw [← hn, ← h]; simp; omega
        · intro u v hu hv he hs
          exact hx u v hu hv he (by rw [← h]; exact hs.trans (List.suffix_append _ _))
      · have hp' : ¬ old <+: b :: t := fun hc => hp (hc.trans (List.prefix_append _ _))
        rw [replaceAll_next hp', List.cons_append, replaceAll_next (by simpa using hp), List.cons_append]
        congr 1
        refine ih t.length (by rw [← hn]; simp) t ?_ rfl
        intro u v hu hv he hs
        exact hx u v hu hv he (hs.trans (List.suffix_cons _ _))

/-- A byte that is not in what is replaced stays where it is. -/
theorem replaceAll_split {old new : Bytes} (ho : old ≠ []) {c : UInt8} (hc : c ∉ old) (x y : Bytes) :
    replaceAll old new (x ++ c :: y) = replaceAll old new x ++ c :: replaceAll old new y := by
  rw [replaceAll_cut ho, replaceAll_next]
  · rintro ⟨r, h⟩
    obtain ⟨b, t, rfl⟩ := List.exists_cons_of_ne_nil ho
    cases h
    exact hc List.mem_cons_self
  · rintro u v - hv rfl - ⟨r, h⟩
    obtain ⟨b, t, rfl⟩ := List.exists_cons_of_ne_nil hv
    cases h
    exact hc (by simp)

/-- The last byte stays, if what is put in ends in the same byte as what it replaces. -/
theorem replaceAll_last {o n : Bytes} {c : UInt8} (x : Bytes) (b : UInt8) :
    ∃ z, replaceAll (o ++ [c]) (n ++ [c]) (x ++ [b]) = z ++ [b] := by
  have ho : o ++ [c] ≠ [] := by simp
  induction hn : x.length using Nat.strongRecOn generalizing x with
  | _ k ih =>
    by_cases hp : o ++ [c] <+: x ++ [b]
    · obtain ⟨r, h⟩ := hp
      rw [← h, replaceAll_here ho]
      rcases List.eq_nil_or_concat r with rfl | ⟨r', b', rfl⟩
      · rw [List.append_nil] at h
        obtain ⟨-, h2⟩ := List.append_inj' h rfl
        cases h2
        exact ⟨n, by simp [replaceAll_nil]⟩
      · rw [List.concat_eq_append] at h ⊢
        rw [← List.append_assoc] at h
        obtain ⟨h1, h2⟩ := List.append_inj' h rfl
        cases h2
        obtain ⟨z, hz⟩ := ih r'.length (by rw [← hn, ← h1]; simp; omega) r' rfl
        exact ⟨n ++ [c] ++ z, by rw [hz]; simp⟩
    · cases x with
      | nil => exact ⟨[], by rw [List.nil_append] at hp ⊢; rw [replaceAll_next hp]; rfl⟩
      | cons a t =>
        rw [List.cons_append] at hp ⊢
        rw [replaceAll_next hp]
        obtain ⟨z, hz⟩ := ih t.length (by rw [← hn]; simp) t rfl
        exact ⟨a :: z, by rw [hz]; rfl⟩

/-- So does the first. -/
theorem replaceAll_first {o n : Bytes} {c : UInt8} (b : UInt8) (y : Bytes) :
    ∃ z, replaceAll (c :: o) (c :: n) (b :: y) = b :: z := by
  by_cases hp : c :: o <+: b :: y
  · obtain ⟨r, h⟩ := hp
    rw [← h, replaceAll_here (by simp)]
    cases h
    exact ⟨_, rfl⟩
  · exact ⟨_, replaceAll_next hp⟩

/-! ### What is replaced, and by what -/

/-- The comma between two entries. -/
def brk1 (indent : Bytes) (s : Bytes) : Bytes :=
  replaceAll [0x22, 0x2C, 0x20, 0x22] ([0x22, 0x2C, 0x0A] ++ indent ++ [0x22]) s

/-- The opening brace. -/
def brk2 (indent : Bytes) (s : Bytes) : Bytes := replaceAll [0x7B, 0x22] ([0x7B, 0x0A] ++ indent ++ [0x22]) s

/-- The closing brace. -/
def brk3 (indent : Bytes) (s : Bytes) : Bytes := replaceAll [0x22, 0x7D] ([0x22, 0x2C, 0x0A] ++ indent ++ [0x7D]) s

variable {indent : Bytes} (hi : ∀ b ∈ indent, b = 0x09)
include hi

theorem brk1_fails {s : Bytes} {a : LexState} (ht : a.mode.Tab) (h : tabFrom a s = .error .newline) :
    tabFrom a (brk1 indent s) = .error .newline :=
  replace_error (breakable_comma hi) (by decide) _ s (.refl a) ht h

theorem brk2_fails {s : Bytes} {a : LexState} (ht : a.mode.Tab) (h : tabFrom a s = .error .newline) :
    tabFrom a (brk2 indent s) = .error .newline :=
  replace_error (breakable_open hi) (by decide) _ s (.refl a) ht h

theorem brk3_fails {s : Bytes} {a : LexState} (ht : a.mode.Tab) (h : tabFrom a s = .error .newline) :
    tabFrom a (brk3 indent s) = .error .newline :=
  replace_error (breakable_close hi) (by decide) _ s (.refl a) ht h

theorem brk1_near {s : Bytes} {a st : LexState} (ht : a.mode.Tab) (h : tabFrom a s = .ok st) :
    (∃ st1, tabFrom a (brk1 indent s) = .ok st1 ∧ Near st st1) ∨
      tabFrom a (brk1 indent s) = .error .newline :=
  (replace_near_holds (breakable_comma hi) _ s (.refl a) ht h).imp_right And.left

theorem brk2_near {s : Bytes} {a st : LexState} (ht : a.mode.Tab) (h : tabFrom a s = .ok st) :
    (∃ st1, tabFrom a (brk2 indent s) = .ok st1 ∧ Near st st1) ∨
      tabFrom a (brk2 indent s) = .error .newline :=
  (replace_near_holds (breakable_open hi) _ s (.refl a) ht h).imp_right And.left

theorem brk3_near {s : Bytes} {a st : LexState} (ht : a.mode.Tab) (h : tabFrom a s = .ok st) :
    (∃ st1, tabFrom a (brk3 indent s) = .ok st1 ∧ Near st st1) ∨
      tabFrom a (brk3 indent s) = .error .newline :=
  (replace_near_holds (breakable_close hi) _ s (.refl a) ht h).imp_right And.left

omit hi

theorem tabFrom_error {st : LexState} {s : Bytes} {e : LexError} (h : tabFrom st s = .error e) (t : Bytes) :
    tabFrom st (s ++ t) = .error e := by rw [tabFrom_append, h]

/-- A line break in a literal. -/
theorem text_breaks {w : Bytes} {toks : List GoTok} {b : UInt8} (h1 : b ≠ 0x22) (h2 : b ≠ 0x5C) (t : Bytes) :
    tabFrom ⟨.text w, toks⟩ (b :: 0x0A :: t) = .error .newline := by
  by_cases h3 : b = 0x0A
  · subst h3; rfl
  · simp [tabFrom, tabStep, LexMode.inText, lexStep, h1, h2, h3]

/-- After these bytes the scanner is in a literal. -/
def InText (a : LexState) (x : Bytes) : Prop := ∃ w toks, tabFrom a x = .ok ⟨.text w, toks⟩

theorem InText.near {a st : LexState} {x y : Bytes} (h : InText a x) (hx : tabFrom a x = .ok st)
    (hy : (∃ st1, tabFrom a y = .ok st1 ∧ Near st st1) ∨ tabFrom a y = .error .newline) :
    InText a y ∨ tabFrom a y = .error .newline := by
  obtain ⟨w, toks, h⟩ := h
  rw [h] at hx
  cases hx
  rcases hy with ⟨⟨mode, toks1⟩, hy, hm, -⟩ | hy
  · cases hm
    exact .inl ⟨_, _, hy⟩
  · exact .inr hy

include hi

theorem InText.brk1 {a : LexState} {x : Bytes} (h : InText a x) (ht : a.mode.Tab) :
    InText a (brk1 indent x) ∨ tabFrom a (brk1 indent x) = .error .newline := by
  obtain ⟨w, toks, h1⟩ := id h
  exact h.near h1 (brk1_near hi ht h1)

theorem InText.brk2 {a : LexState} {x : Bytes} (h : InText a x) (ht : a.mode.Tab) :
    InText a (brk2 indent x) ∨ tabFrom a (brk2 indent x) = .error .newline := by
  obtain ⟨w, toks, h1⟩ := id h
  exact h.near h1 (brk2_near hi ht h1)

theorem InText.brk3 {a : LexState} {x : Bytes} (h : InText a x) (ht : a.mode.Tab) :
    InText a (brk3 indent x) ∨ tabFrom a (brk3 indent x) = .error .newline := by
  obtain ⟨w, toks, h1⟩ := id h
  exact h.near h1 (brk3_near hi ht h1)

/-- `", "` with the first quote not the end of a literal. -/
theorem site1 {a : LexState} (ht : a.mode.Tab) {x : Bytes} (y : Bytes) (h : InText a (x ++ [0x22]))
    (hx : ¬ [0x22, 0x2C, 0x20] <:+ x) :
    tabFrom a (brk3 indent (brk2 indent (brk1 indent (x ++ ([0x22, 0x2C, 0x20, 0x22] ++ y))))) = .error .newline := by
  apply brk3_fails hi ht
  apply brk2_fails hi ht
  unfold Jargon.brk1
  rw [replaceAll_cut (by simp), replaceAll_here (by simp)]
  · obtain ⟨w, toks, h⟩ := h
    rw [tabFrom_append] at h
    split at h
    · cases h
    rename_i st h1
    rcases brk1_near hi ht h1 with ⟨st1, h2, h3⟩ | h2
    · unfold Jargon.brk1 at h2
      rw [tabFrom_ok h2]
      simp only [tabFrom] at h
      split at h
      · cases h
      rename_i st2 h4
      cases h
      obtain ⟨⟨mode, toks'⟩, h5, h6, -⟩ := tabStep_near h3 h4
      cases h6
      simp only [List.cons_append, List.nil_append]
      rw [tabFrom, h5]
      exact text_breaks (by decide) (by decide) _
    · exact tabFrom_error h2 _
  · rintro u v hu hv he hs ⟨r, hr⟩
    rcases u with _ | ⟨u1, _ | ⟨u2, _ | ⟨u3, _ | ⟨u4, u⟩⟩⟩⟩
    · exact hu rfl
    · cases he; simp at hr
    · cases he; simp at hr
    · cases he; exact hx hs
    · simp at he
      exact hv he.2.2.2.2.2

/-- `{"` in a literal. -/
theorem site2 {a : LexState} (ht : a.mode.Tab) {x : Bytes} (y : Bytes) (h : InText a x) :
    tabFrom a (brk3 indent (brk2 indent (brk1 indent (x ++ ([0x7B, 0x22] ++ y))))) = .error .newline := by
  apply brk3_fails hi ht
  have h1 : ∃ y', brk1 indent (x ++ ([0x7B, 0x22] ++ y)) = brk1 indent x ++ ([0x7B, 0x22] ++ y') := by
    unfold Jargon.brk1
    simp only [List.cons_append, List.nil_append]
    rw [replaceAll_split (by simp) (by decide)]
    obtain ⟨z, hz⟩ := replaceAll_first (o := [0x2C, 0x20, 0x22]) (n := 0x2C :: 0x0A :: (indent ++ [0x22])) (c := 0x22) 0x22 y
    exact ⟨z, by rw [hz]⟩
  obtain ⟨y', h1⟩ := h1
  rw [h1]
  rcases h.brk1 hi ht with h | h
  · unfold Jargon.brk2
    rw [replaceAll_cut (by simp), replaceAll_here (by simp)]
    · rcases h.brk2 hi ht with ⟨w, toks, h⟩ | h
      · unfold Jargon.brk2 at h
        rw [tabFrom_ok h]
        exact text_breaks (by decide) (by decide) _
      · exact tabFrom_error h _
    · rintro u v hu hv he hs ⟨r, hr⟩
      rcases u with _ | ⟨u1, _ | ⟨u2, u⟩⟩
      · exact hu rfl
      · cases he; simp at hr
      · simp at he
        exact hv he.2.2.2
  · exact brk2_fails hi ht (tabFrom_error h _)

/-- `"}` with the quote not the end of a literal. -/
theorem site3 {a : LexState} (ht : a.mode.Tab) {x : Bytes} (y : Bytes) (h : InText a (x ++ [0x22])) :
    tabFrom a (brk3 indent (brk2 indent (brk1 indent (x ++ ([0x22, 0x7D] ++ y))))) = .error .newline := by
  have h1 : ∃ x' y', brk1 indent (x ++ ([0x22, 0x7D] ++ y)) = x' ++ ([0x22, 0x7D] ++ y') ∧
      (InText a (x' ++ [0x22]) ∨ tabFrom a (x' ++ [0x22]) = .error .newline) := by
    have h2 := h.brk1 hi ht
    unfold Jargon.brk1 at h2 ⊢
    obtain ⟨z, hz⟩ := replaceAll_last (o := [0x22, 0x2C, 0x20]) (n := [0x22, 0x2C, 0x0A] ++ indent) (c := 0x22) x 0x22
    have hz' : replaceAll [0x22, 0x2C, 0x20, 0x22] ([0x22, 0x2C, 0x0A] ++ indent ++ [0x22]) (x ++ [0x22]) = z ++ [0x22] := hz
    rw [hz'] at h2
    refine ⟨z, Jargon.brk1 indent y, ?_, h2⟩
    rw [show x ++ ([0x22, 0x7D] ++ y) = (x ++ [0x22]) ++ 0x7D :: y by simp, replaceAll_split (by simp) (by decide), hz']
    simp [Jargon.brk1]
  obtain ⟨x', y', h1, h⟩ := h1
  rw [h1]
  clear h1
  have h1 : ∃ x1 y1, brk2 indent (x' ++ ([0x22, 0x7D] ++ y')) = x1 ++ ([0x22, 0x7D] ++ y1) ∧
      (InText a (x1 ++ [0x22]) ∨ tabFrom a (x1 ++ [0x22]) = .error .newline) := by
    have h2 : InText a (brk2 indent (x' ++ [0x22])) ∨ tabFrom a (brk2 indent (x' ++ [0x22])) = .error .newline := by
      rcases h with h | h
      · exact h.brk2 hi ht
      · exact .inr (brk2_fails hi ht h)
    unfold Jargon.brk2 at h2 ⊢
    obtain ⟨z, hz⟩ := replaceAll_last (o := [0x7B]) (n := [0x7B, 0x0A] ++ indent) (c := 0x22) x' 0x22
    have hz' : replaceAll [0x7B, 0x22] ([0x7B, 0x0A] ++ indent ++ [0x22]) (x' ++ [0x22]) = z ++ [0x22] := hz
    rw [hz'] at h2
    refine ⟨z, Jargon.brk2 indent y', ?_, h2⟩
    rw [show x' ++ ([0x22, 0x7D] ++ y') = (x' ++ [0x22]) ++ 0x7D :: y' by simp, replaceAll_split (by simp) (by decide), hz']
    simp [Jargon.brk2]
  obtain ⟨x1, y1, h1, h⟩ := h1
  rw [h1]
  rcases h with h | h
  · unfold Jargon.brk3
    rw [replaceAll_cut (by simp), replaceAll_here (by simp)]
    · obtain ⟨w, toks, h⟩ := h
      rw [tabFrom_append] at h
      split at h
      · cases h
      rename_i st h1
      rcases brk3_near hi ht h1 with ⟨st1, h2, h3⟩ | h2
      · unfold Jargon.brk3 at h2
        rw [tabFrom_ok h2]
        simp only [tabFrom] at h
        split at h
        · cases h
        rename_i st2 h4
        cases h
        obtain ⟨⟨mode, toks'⟩, h5, h6, -⟩ := tabStep_near h3 h4
        cases h6
        simp only [List.cons_append, List.nil_append]
        rw [tabFrom, h5]
        exact text_breaks (by decide) (by decide) _
      · exact tabFrom_error h2 _
    · rintro u v hu hv he hs ⟨r, hr⟩
      rcases u with _ | ⟨u1, _ | ⟨u2, u⟩⟩
      · exact hu rfl
      · cases he; simp at hr
      · simp at he
        exact hv he.2.2.2
  · apply brk3_fails hi ht
    rw [show x1 ++ ([0x22, 0x7D] ++ y1) = (x1 ++ [0x22]) ++ 0x7D :: y1 by simp]
    exact tabFrom_error h _

omit hi

/-! ### Literals -/

theorem quoteAux_fuel (isPrint : Rune → Bool) (n m : Nat) (s : Bytes) (hn : s.length ≤ n) (hm : s.length ≤ m) :
    quoteAux isPrint n s = quoteAux isPrint m s := by
  induction n generalizing m s with
  | zero =>
    have : s = [] := List.length_eq_zero_iff.mp (by omega)
    subst this
    cases m <;> rfl
  | succ n ih =>
    cases s with
    | nil => cases m <;> rfl
    | cons b t =>
      cases m with
      | zero => simp at hm
      | succ m =>
        have hw := decodeRune_width_pos b t
        simp only [List.length_cons] at hn hm
        simp only [quoteAux]
        rw [ih m _ (by simp; omega) (by simp; omega)]

/-- What is between the quotes. -/
def escaped (isPrint : Rune → Bool) (s : Bytes) : Bytes := quoteAux isPrint s.length s

theorem quote_eq (isPrint : Rune → Bool) (s : Bytes) : quote isPrint s = [0x22] ++ (escaped isPrint s ++ [0x22]) := by
  simp [quote, escaped]

theorem escaped_ascii (isPrint : Rune → Bool) {c : UInt8} (hc : c.toNat < 0x80) (y : Bytes) :
    escaped isPrint (c :: y) = escapeRune isPrint c.toNat ++ escaped isPrint y := by
  have hd : decodeRune (c :: y) = (c.toNat, 1) := by
    unfold decodeRune
    simp [hc]
  unfold escaped
  simp only [List.length_cons, quoteAux, hd]
  rw [if_neg (by simp [runeError]; omega)]
  simp

theorem escaped_append (isPrint : Rune → Bool) (p : Bytes) {c : UInt8} (hc : c.toNat < 0x80) (y : Bytes) :
    escaped isPrint (p ++ c :: y) = escaped isPrint p ++ escaped isPrint (c :: y) := by
  have hs : runeStart c = true := by
    rw [runeStart, Bool.not_eq_true', Bool.eq_false_iff, ne_eq, contIn_iff]
    omega
  induction hn : p.length using Nat.strongRecOn generalizing p with
  | _ n ih =>
    cases p with
    | nil => rfl
    | cons b t =>
      have hd := decodeRune_append_start (a := b :: t) (by simp) hs y
      have hw := decodeRune_width_pos b t
      have hle := decodeRune_width_le (b :: t)
      have step : ∀ b t, escaped isPrint (b :: t) =
          (if (decodeRune (b :: t)).2 = 1 ∧ (decodeRune (b :: t)).1 = runeError
            then [0x5C, 0x78] ++ hexDigits 2 b.toNat else escapeRune isPrint (decodeRune (b :: t)).1)
            ++ escaped isPrint ((b :: t).drop (decodeRune (b :: t)).2) := by
        intro b t
        unfold escaped
        simp only [List.length_cons, quoteAux]
        congr 1
        apply quoteAux_fuel
        · have := decodeRune_width_pos b t
          simp
          omega
        · exact Nat.le_refl _
      rw [List.cons_append, step, step, ← List.cons_append, hd, List.append_assoc]
      congr 1
      rw [List.drop_append_of_le_length hle]
      refine ih _ ?_ _ rfl
      rw [← hn]
      simp only [List.length_drop, List.length_cons]
      omega

theorem escaped_nil (isPrint : Rune → Bool) : escaped isPrint [] = [] := rfl

/-- `strconv.IsPrint` of ASCII. -/
def PrintsAscii (isPrint : Rune → Bool) : Prop := ∀ r, 0x20 ≤ r → r < 0x7F → isPrint r = true

theorem escaped_plain {isPrint : Rune → Bool} (ha : PrintsAscii isPrint) {c : UInt8} (h1 : 0x20 ≤ c.toNat)
    (h2 : c.toNat < 0x7F) (h3 : c ≠ 0x22) (h4 : c ≠ 0x5C) (y : Bytes) :
    escaped isPrint (c :: y) = c :: escaped isPrint y := by
  rw [escaped_ascii isPrint (by omega)]
  have hne : ¬ (c.toNat = 0x22 ∨ c.toNat = 0x5C) := by
    rintro (h | h)
    · exact h3 (UInt8.toNat_inj.mp h)
    · exact h4 (UInt8.toNat_inj.mp h)
  unfold escapeRune
  rw [if_neg hne, if_pos (ha _ h1 h2), encodeRune_ascii (by omega)]
  simp

theorem escaped_quote (isPrint : Rune → Bool) (y : Bytes) :
    escaped isPrint (0x22 :: y) = 0x5C :: 0x22 :: escaped isPrint y := by
  rw [escaped_ascii isPrint (by decide)]
  rfl

theorem escaped_run {isPrint : Rune → Bool} (hl : PrintLaws isPrint) (s a : Bytes) (toks : List GoTok) :
    tabFrom ⟨.text a, toks⟩ (escaped isPrint s) = .ok ⟨.text (a ++ s), toks⟩ :=
  quoteAux_run hl _ s (Nat.le_refl _) a toks

/-- An unlucky literal is broken up. -/
theorem literal_fails {isPrint : Rune → Bool} (hl : PrintLaws isPrint) (hp : PrintsAscii isPrint)
    {indent : Bytes} (hi : ∀ b ∈ indent, b = 0x09) {a : LexState} (ht : a.mode.Tab) {A : Bytes} (B : Bytes)
    {toks : List GoTok} (hA : tabFrom a A = .ok ⟨.code, toks⟩) {s : Bytes} (hu : Unlucky s)
    (hs : s = str ", " → ¬ [0x22, 0x2C, 0x20] <:+ A) :
    tabFrom a (brk3 indent (brk2 indent (brk1 indent (A ++ (quote isPrint s ++ B))))) = .error .newline := by
  have e1 : str ", " = [0x2C, 0x20] := by decide +kernel
  have e2 : str "\", " = [0x22, 0x2C, 0x20] := by decide +kernel
  have e3 : str "{" = [0x7B] := by decide +kernel
  have e4 : str "}" = [0x7D] := by decide +kernel
  have e5 : str "\"}" = [0x22, 0x7D] := by decide +kernel
  have hopen : tabFrom a (A ++ [0x22]) = .ok ⟨.text [], toks⟩ := by rw [tabFrom_ok hA]; rfl
  have hin : ∀ p, tabFrom a (A ++ ([0x22] ++ escaped isPrint p)) = .ok ⟨.text p, toks⟩ := by
    intro p
    rw [← List.append_assoc, tabFrom_ok hopen, escaped_run hl]
    rfl
  have hesc : ∀ p, InText a ((A ++ ([0x22] ++ (escaped isPrint p ++ [0x5C]))) ++ [0x22]) := by
    intro p
    refine ⟨p ++ [0x22], toks, ?_⟩
    rw [show (A ++ ([0x22] ++ (escaped isPrint p ++ [0x5C]))) ++ [0x22] =
      (A ++ ([0x22] ++ escaped isPrint p)) ++ [0x5C, 0x22] by simp, tabFrom_ok (hin p)]
    rfl
  rw [quote_eq]
  rcases hu with h | ⟨p, h⟩ | ⟨p, h⟩ | ⟨w, h⟩ | ⟨p, w, h⟩
  · have hq : [0x22] ++ (escaped isPrint s ++ [0x22]) = [0x22, 0x2C, 0x20, 0x22] := by
      rw [h, e1, escaped_plain hp (by decide) (by decide) (by decide) (by decide),
        escaped_plain hp (by decide) (by decide) (by decide) (by decide), escaped_nil]
      rfl
    rw [hq]
    exact site1 hi ht B ⟨_, _, hopen⟩ (hs h)
  · rw [e2] at h
    have hq : A ++ ([0x22] ++ (escaped isPrint s ++ [0x22]) ++ B) =
        (A ++ ([0x22] ++ (escaped isPrint p ++ [0x5C]))) ++ ([0x22, 0x2C, 0x20, 0x22] ++ B) := by
      rw [← h, escaped_append _ _ (by decide), escaped_quote,
        escaped_plain hp (by decide) (by decide) (by decide) (by decide),
        escaped_plain hp (by decide) (by decide) (by decide) (by decide), escaped_nil]
      simp
    rw [hq]
    refine site1 hi ht B (hesc p) ?_
    rintro ⟨z, hz⟩
    rw [show A ++ ([0x22] ++ (escaped isPrint p ++ [0x5C])) = (A ++ ([0x22] ++ escaped isPrint p)) ++ [0x5C] by simp,
      show z ++ [0x22, 0x2C, 0x20] = (z ++ [0x22, 0x2C]) ++ [0x20] by simp] at hz
    have := (List.append_inj' hz rfl).2
    simp at this
  · rw [e3] at h
    have hq : A ++ ([0x22] ++ (escaped isPrint s ++ [0x22]) ++ B) =
        (A ++ ([0x22] ++ escaped isPrint p)) ++ ([0x7B, 0x22] ++ B) := by
      rw [← h, escaped_append _ _ (by decide),
        escaped_plain hp (by decide) (by decide) (by decide) (by decide), escaped_nil]
      simp
    rw [hq]
    exact site2 hi ht B ⟨_, _, hin p⟩
  · rw [e4, List.cons_append, List.nil_append] at h
    have hq : A ++ ([0x22] ++ (escaped isPrint s ++ [0x22]) ++ B) =
        A ++ ([0x22, 0x7D] ++ (escaped isPrint w ++ ([0x22] ++ B))) := by
      rw [← h,
        escaped_plain hp (by decide) (by decide) (by decide) (by decide)]
      simp
    rw [hq]
    exact site3 hi ht _ ⟨_, _, hopen⟩
  · rw [e5, List.append_assoc, List.cons_append, List.cons_append, List.nil_append] at h
    have hq : A ++ ([0x22] ++ (escaped isPrint s ++ [0x22]) ++ B) =
        (A ++ ([0x22] ++ (escaped isPrint p ++ [0x5C]))) ++ ([0x22, 0x7D] ++ (escaped isPrint w ++ ([0x22] ++ B))) := by
      rw [← h, escaped_append _ _ (by decide), escaped_quote,
        escaped_plain hp (by decide) (by decide) (by decide) (by decide)]
      simp
    rw [hq]
    exact site3 hi ht _ (hesc p)

/-! ### The entries -/

theorem join_split (sep : Bytes) (l1 l2 : List Bytes) (x : Bytes) :
    join sep (l1 ++ x :: l2) =
      (if l1 = [] then [] else join sep l1 ++ sep) ++ (x ++ if l2 = [] then [] else sep ++ join sep l2) := by
  induction l1 with
  | nil => cases l2 <;> simp [join]
  | cons y l ih =>
    cases l with
    | nil => cases l2 <;> simp [join]
    | cons z l =>
      simp only [List.cons_append] at ih ⊢
      rw [join, ih]
      simp [join]

/-- An entry, as written. -/
def pairText (isPrint : Rune → Bool) (e : Bytes × Bytes) : Bytes := quote isPrint e.1 ++ [0x3A] ++ quote isPrint e.2

/-- What is written from the brace on. -/
def rowsText (isPrint : Rune → Bool) (rows : StringMap) : Bytes :=
  [0x7B] ++ (join [0x2C, 0x20] (rows.map (pairText isPrint)) ++ [0x7D, 0x0A])

theorem bodyText_rows (isPrint : Rune → Bool) (m : StringMap) :
    bodyText isPrint m = rowsText isPrint (sortByKey m) := rfl

/-- What precedes an entry. -/
def beforeText (isPrint : Rune → Bool) (l1 : StringMap) : Bytes :=
  [0x7B] ++ if l1 = [] then [] else join [0x2C, 0x20] (l1.map (pairText isPrint)) ++ [0x2C, 0x20]

/-- What follows it. -/
def afterText (isPrint : Rune → Bool) (l2 : StringMap) : Bytes :=
  (if l2 = [] then [] else [0x2C, 0x20] ++ join [0x2C, 0x20] (l2.map (pairText isPrint))) ++ [0x7D, 0x0A]

theorem rowsText_split (isPrint : Rune → Bool) (l1 l2 : StringMap) (e : Bytes × Bytes) :
    rowsText isPrint (l1 ++ e :: l2) = beforeText isPrint l1 ++ (pairText isPrint e ++ afterText isPrint l2) := by
  simp [rowsText, beforeText, afterText, join_split]

/-- The start of the entries. -/
def atMap (name : Bytes) : LexState := ⟨.word (str "string"), headToks name⟩

/-- The tokens before an entry. -/
def beforeToks (name : Bytes) (l1 : StringMap) : List GoTok :=
  headToks name ++ [.word (str "string"), .punct 0x7B] ++ if l1 = [] then [] else pairToks false l1 ++ [.punct 0x2C]

theorem before_run {isPrint : Rune → Bool} (hl : PrintLaws isPrint) (name : Bytes) (l1 : StringMap) :
    tabFrom (atMap name) (beforeText isPrint l1) = .ok ⟨.code, beforeToks name l1⟩ := by
  have h0 : tabFrom (atMap name) [0x7B] = .ok ⟨.code, headToks name ++ [.word (str "string"), .punct 0x7B]⟩ := by
    simp [atMap, tabFrom, tabStep, lexStep, lexCode, isLetterByte, isDigitByte]
  have h1 : ∀ toks, tabFrom ⟨.code, toks⟩ [0x2C, 0x20] = .ok ⟨.code, toks ++ [.punct 0x2C]⟩ := fun _ => rfl
  rw [beforeText, tabFrom_ok h0, beforeToks]
  split
  · simp [tabFrom]
  · rw [show (l1.map (pairText isPrint)) = l1.map fun e => quote isPrint e.1 ++ [0x3A] ++ quote isPrint e.2 from rfl,
      tabFrom_ok (pairs_run hl l1 _), h1]
    simp

/-- A table with an unlucky value, an unlucky key that is not `, `, or this key at the beginning. -/
theorem rows_fail {isPrint : Rune → Bool} (hl : PrintLaws isPrint) (hp : PrintsAscii isPrint)
    {indent : Bytes} (hi : ∀ b ∈ indent, b = 0x09) (name : Bytes) {rows : StringMap}
    (h : (∃ e ∈ rows, Unlucky e.2 ∨ (Unlucky e.1 ∧ e.1 ≠ str ", ")) ∨ ∃ v l, rows = (str ", ", v) :: l) :
    tabFrom (atMap name) (brk3 indent (brk2 indent (brk1 indent (rowsText isPrint rows)))) = .error .newline := by
  have ht : (atMap name).mode.Tab := trivial
  rcases h with ⟨e, he, h⟩ | ⟨v, l, rfl⟩
  · obtain ⟨l1, l2, rfl⟩ := List.append_of_mem he
    rw [rowsText_split]
    rcases h with h | ⟨h, hne⟩
    · have hA : tabFrom (atMap name) (beforeText isPrint l1 ++ (quote isPrint e.1 ++ [0x3A])) =
          .ok ⟨.code, beforeToks name l1 ++ [.text e.1, .punct 0x3A]⟩ := by
        rw [tabFrom_ok (before_run hl name l1), tabFrom_ok (quote_run hl _ _)]
        have : ∀ toks, tabFrom ⟨.code, toks⟩ [0x3A] = .ok ⟨.code, toks ++ [.punct 0x3A]⟩ := fun _ => rfl
        rw [this]
        simp
      have := literal_fails hl hp hi ht (afterText isPrint l2) hA h (fun _ => by
        rintro ⟨z, hz⟩
        rw [← List.append_assoc, show z ++ [0x22, 0x2C, 0x20] = (z ++ [0x22, 0x2C]) ++ [0x20] by simp] at hz
        have := (List.append_inj' hz rfl).2
        simp at this)
      rw [← this]
      simp [pairText]
    · have := literal_fails hl hp hi ht ([0x3A] ++ quote isPrint e.2 ++ afterText isPrint l2)
        (before_run hl name l1) h (fun hc => absurd hc hne)
      rw [← this]
      simp [pairText]
  · rw [show (str ", ", v) :: l = [] ++ (str ", ", v) :: l from rfl, rowsText_split]
    have := literal_fails hl hp hi ht ([0x3A] ++ quote isPrint v ++ afterText isPrint l)
      (before_run hl name []) (s := str ", ") (.inl rfl) (fun _ => by
        rintro ⟨z, hz⟩
        have := congrArg List.length hz
        simp [beforeText] at this)
    rw [← this]
    simp [pairText]

/-! ### A comma as a key, but not as the first -/

theorem lineEnd_under {P X : List GoTok} (h : X ≠ []) : lineEnd (P ++ X) = P ++ lineEnd X := by
  obtain ⟨Y, t, rfl⟩ := List.eq_nil_or_concat X |>.resolve_left h
  unfold lineEnd
  rw [List.concat_eq_append, ← List.append_assoc, List.getLast?_concat, List.getLast?_concat]
  simp only
  split <;> simp

theorem lexCode_under {P X : List GoTok} (h : X ≠ []) {b : UInt8} {st : LexState} (hs : lexCode X b = .ok st) :
    lexCode (P ++ X) b = .ok ⟨st.mode, P ++ st.toks⟩ := by
  unfold lexCode at hs ⊢
  repeat' split at hs
  all_goals first
    | (cases hs; simp_all [lineEnd_under h])
    | cases hs

theorem tabStep_under {P X : List GoTok} (h : X ≠ []) {m : LexMode} {b : UInt8} {st : LexState}
    (hs : tabStep ⟨m, X⟩ b = .ok st) : tabStep ⟨m, P ++ X⟩ b = .ok ⟨st.mode, P ++ st.toks⟩ := by
  unfold tabStep at hs ⊢
  split at hs
  · cases hs
  rename_i hb
  rw [if_neg hb]
  unfold lexStep at hs ⊢
  cases m with
  | code => exact lexCode_under h hs
  | word s =>
    simp only at hs ⊢
    split at hs
    · rename_i hx; cases hs; rw [if_pos hx]
    · rename_i hx
      rw [if_neg hx, List.append_assoc]
      exact lexCode_under (by simp) hs
  | slash =>
    simp only at hs ⊢
    split at hs
    · rename_i hx; cases hs; rw [if_pos hx]
    · cases hs
  | comment =>
    simp only at hs ⊢
    split at hs
    · rename_i hx; cases hs; rw [if_pos hx, lineEnd_under h]
    · rename_i hx; cases hs; rw [if_neg hx]
  | text s =>
    simp only at hs ⊢
    repeat' split at hs
    all_goals first
      | (cases hs; simp_all)
      | cases hs
  | escape s =>
    simp only at hs ⊢
    repeat' split at hs
    all_goals first
      | (cases hs; simp_all)
      | cases hs
  | digits s left value rune =>
    simp only at hs ⊢
    repeat' split at hs
    all_goals first
      | (cases hs; simp_all)
      | cases hs

/-- Tokens that have been read do not matter, but for the last. -/
theorem tabFrom_under {P X : List GoTok} (h : X ≠ []) {m : LexMode} {s : Bytes} {st : LexState}
    (hs : tabFrom ⟨m, X⟩ s = .ok st) : tabFrom ⟨m, P ++ X⟩ s = .ok ⟨st.mode, P ++ st.toks⟩ := by
  induction s generalizing m X with
  | nil => cases hs; rfl
  | cons b t ih =>
    simp only [tabFrom] at hs ⊢
    split at hs
    · cases hs
    rename_i st2 h2
    rw [tabStep_under h h2]
    obtain ⟨x, hx⟩ := List.exists_mem_of_ne_nil X h
    exact ih (List.ne_nil_of_mem (lexStep_mem (tabStep_lexStep h2) hx)) hs

/-- The comma after the last entry. -/
def lastComma (c : Bool) : List GoTok := if c then [.punct 0x2C] else []

/-- The end of the table, with lines broken. -/
theorem end_kept {old new : Bytes} (hb : Breakable old new) {st : LexState} (ht : st.mode.Tab) {a : List GoTok}
    {c : Bool} {s : Bytes} (hs : tabFrom st s = .ok ⟨.code, a ++ lastComma c ++ [.punct 0x7D, .semi]⟩)
    (ha : GoTok.punct 0x7D ∉ a) (hu : ∀ u, GoTok.text u ∈ a → ¬ Unlucky u) :
    ∃ c', tabFrom st (replaceAll old new s) = .ok ⟨.code, a ++ lastComma c' ++ [.punct 0x7D, .semi]⟩ := by
  rcases replace_near hb s.length s (.refl st) ht hs rfl with ⟨⟨mode, toks⟩, h1, h2, h3⟩ | ⟨-, u, h2, h3⟩
  · simp only at h2 h3
    subst h2
    have hn : GoTok.punct 0x7D ∉ a ++ lastComma c := by
      cases c <;> simp [lastComma, ha]
    rcases h3.close hn with h | ⟨⟨b, w, hw⟩, h⟩
    · exact ⟨c, by unfold replaceAll; rw [h1, h]⟩
    · cases c with
      | false => exact ⟨true, by unfold replaceAll; rw [h1, h]; simp [lastComma]⟩
      | true =>
        cases (List.append_inj' hw rfl).2
  · have : GoTok.text u ∈ a := by
      cases c <;> simpa [lastComma] using h3
    exact absurd h2 (hu u this)

/-- The beginning of the table, up to a literal. -/
theorem begin_kept {old new : Bytes} (hb : Breakable old new) {st : LexState} (ht : st.mode.Tab) {a : List GoTok}
    {s : Bytes} (hs : tabFrom st s = .ok ⟨.text [], a⟩) (ha : GoTok.punct 0x7D ∉ a)
    (hu : ∀ u, GoTok.text u ∈ a → ¬ Unlucky u) :
    tabFrom st (replaceAll old new s) = .ok ⟨.text [], a⟩ := by
  rcases replace_near_holds hb s.length s (.refl st) ht hs with
    ⟨⟨mode, toks⟩, h1, h2, h3⟩ | ⟨-, ⟨p, hp, ⟨w, hw⟩ | ⟨w, hw⟩⟩ | ⟨u, h2, h3⟩⟩
  · simp only at h2 h3
    subst h2
    unfold replaceAll
    rw [h1, h3.eq ha]
  · simp only [LexMode.value?, Option.some.injEq] at hw
    have hn : ¬ Unlucky [] := by
      unfold Unlucky
      decide +kernel
    have := hp w
    rw [← hw] at this
    exact absurd this hn
  · exact absurd (hp w) (hu _ hw)
  · exact absurd h2 (hu u h3)

theorem pairToks_split (c : Bool) {l1 : StringMap} (h : l1 ≠ []) (e : Bytes × Bytes) (l2 : StringMap) :
    pairToks c (l1 ++ e :: l2) = pairToks false l1 ++ [.punct 0x2C] ++ pairToks c (e :: l2) := by
  induction l1 with
  | nil => exact absurd rfl h
  | cons x l ih =>
    cases l with
    | nil => simp [pairToks]
    | cons y l =>
      simp only [List.cons_append] at ih ⊢
      rw [pairToks, ih (by simp)]
      simp [pairToks]

/-- The tokens after a key. -/
def afterKey (v : Bytes) (l2 : StringMap) : List GoTok :=
  [.punct 0x3A, .text v] ++ if l2 = [] then [] else .punct 0x2C :: pairToks false l2

theorem pairToks_cons (c : Bool) (k v : Bytes) (l2 : StringMap) :
    pairToks c ((k, v) :: l2) = .text k :: (afterKey v l2 ++ lastComma c) := by
  cases l2 with
  | nil => cases c <;> simp [pairToks, afterKey, lastComma]
  | cons e l =>
    cases c with
    | false => simp [pairToks, afterKey, lastComma]
    | true =>
      rw [pairToks, pairToks_true (by simp)]
      simp [afterKey, lastComma]

/-- A literal that ends in `", ` as written. -/
theorem ends_unlucky {a : LexState} (ht : a.mode.Tab) {z v : Bytes} {toks : List GoTok}
    (h : tabFrom a (z ++ [0x22, 0x2C, 0x20]) = .ok ⟨.text v, toks⟩) : Unlucky v := by
  have e1 : str ", " = [0x2C, 0x20] := by decide +kernel
  have e2 : str "\", " = [0x22, 0x2C, 0x20] := by decide +kernel
  rw [tabFrom_append] at h
  split at h
  · cases h
  rename_i st hz
  have ht1 := tabFrom_tab hz ht
  obtain ⟨mode, toks1⟩ := st
  cases mode with
  | code =>
    simp [tabFrom, tabStep, LexMode.inText, lexStep, lexCode] at h
    exact .inl (by rw [e1, h.1])
  | word s =>
    simp [tabFrom, tabStep, LexMode.inText, lexStep, lexCode, isLetterByte, isDigitByte] at h
    exact .inl (by rw [e1, h.1])
  | slash => exact ht1.elim
  | comment => exact ht1.elim
  | text s => simp [tabFrom, tabStep, LexMode.inText, lexStep, lexCode, isLetterByte] at h
  | escape s =>
    simp [tabFrom, tabStep, LexMode.inText, lexStep, escapeValue] at h
    exact .inr (.inl ⟨s, by rw [e2, h.1]⟩)
  | digits s left value rune => simp [tabFrom, tabStep, LexMode.inText, lexStep, hexValue] at h

theorem after_run {isPrint : Rune → Bool} (hl : PrintLaws isPrint) (v : Bytes) (l2 : StringMap) :
    tabFrom ⟨.code, [.punct 0x3A]⟩ (quote isPrint v ++ afterText isPrint l2) =
      .ok ⟨.code, afterKey v l2 ++ lastComma false ++ [.punct 0x7D, .semi]⟩ := by
  have h1 : ∀ toks, tabFrom ⟨.code, toks⟩ [0x7D, 0x0A] = .ok ⟨.code, toks ++ [.punct 0x7D, .semi]⟩ := by
    intro toks
    have h : tabFrom ⟨.code, toks⟩ [0x7D, 0x0A] = .ok ⟨.code, lineEnd (toks ++ [.punct 0x7D])⟩ := rfl
    rw [h, lineEnd]
    simp [GoTok.endsLine]
  have h2 : ∀ toks, tabFrom ⟨.code, toks⟩ [0x2C, 0x20] = .ok ⟨.code, toks ++ [.punct 0x2C]⟩ := fun _ => rfl
  rw [tabFrom_ok (quote_run hl _ _), afterText]
  split
  · rename_i h
    rw [List.nil_append, h1]
    simp [afterKey, h, lastComma]
  · rename_i h
    rw [List.append_assoc, tabFrom_ok (h2 _),
      show (l2.map (pairText isPrint)) = l2.map fun e => quote isPrint e.1 ++ [0x3A] ++ quote isPrint e.2 from rfl,
      tabFrom_ok (pairs_run hl l2 _), h1]
    simp [afterKey, h, lastComma]

theorem beforeText_snoc (isPrint : Rune → Bool) (l : StringMap) (e : Bytes × Bytes) :
    beforeText isPrint (l ++ [e]) = beforeText isPrint l ++ (pairText isPrint e ++ [0x2C, 0x20]) := by
  unfold beforeText
  rw [if_neg (by simp), List.map_append, List.map_cons, List.map_nil, join_split]
  simp

/-- The key `, ` after others does no harm. -/
theorem rows_pass {isPrint : Rune → Bool} (hl : PrintLaws isPrint) (hp : PrintsAscii isPrint) {indent : Bytes}
    (hi : ∀ b ∈ indent, b = 0x09) (name : Bytes) {l1 l2 : StringMap} {v : Bytes} (hne : l1 ≠ [])
    (h1 : ∀ e ∈ l1, ¬ Unlucky e.1 ∧ ¬ Unlucky e.2) (hv : ¬ Unlucky v)
    (h2 : ∀ e ∈ l2, ¬ Unlucky e.1 ∧ ¬ Unlucky e.2) :
    ∃ c, tabFrom (atMap name) (brk3 indent (brk2 indent (brk1 indent
        (rowsText isPrint (l1 ++ (str ", ", v) :: l2))))) =
      .ok ⟨.code, fileToks name c (l1 ++ (str ", ", v) :: l2)⟩ := by
  have e1 : str ", " = [0x2C, 0x20] := by decide +kernel
  have ht : (atMap name).mode.Tab := trivial
  -- the text
  obtain ⟨l, e, rfl⟩ := List.eq_nil_or_concat l1 |>.resolve_left hne
  rw [List.concat_eq_append] at *
  obtain ⟨k', v'⟩ := e
  have hx : ∃ x, beforeText isPrint (l ++ [(k', v')]) = x ++ [0x22, 0x2C, 0x20] ∧ ¬ [0x22, 0x2C, 0x20] <:+ x := by
    refine ⟨beforeText isPrint l ++ (quote isPrint k' ++ ([0x3A] ++ ([0x22] ++ escaped isPrint v'))), ?_, ?_⟩
    · rw [beforeText_snoc]
      simp [pairText, quote_eq]
    · rintro ⟨z, hz⟩
      have hr : tabFrom (atMap name) (z ++ [0x22, 0x2C, 0x20]) =
          .ok ⟨.text v', beforeToks name l ++ [.text k'] ++ [.punct 0x3A]⟩ := by
        have hcolon : ∀ toks, tabFrom ⟨.code, toks⟩ [0x3A] = .ok ⟨.code, toks ++ [.punct 0x3A]⟩ := fun _ => rfl
        have hopen : ∀ toks, tabFrom ⟨.code, toks⟩ [0x22] = .ok ⟨.text [], toks⟩ := fun _ => rfl
        rw [hz, tabFrom_ok (before_run hl name l), tabFrom_ok (quote_run hl _ _), tabFrom_ok (hcolon _),
          tabFrom_ok (hopen _), escaped_run hl]
        rfl
      exact absurd (ends_unlucky ht hr) (h1 (k', v') (by simp)).2
  obtain ⟨x, hx, hnx⟩ := hx
  generalize hl1 : l ++ [(k', v')] = l1 at *
  let Y := quote isPrint v ++ afterText isPrint l2
  have htext : rowsText isPrint (l1 ++ (str ", ", v) :: l2) =
      (x ++ ([0x22, 0x2C, 0x20, 0x22] ++ [0x2C, 0x20, 0x22])) ++ 0x3A :: Y := by
    have hq : quote isPrint (str ", ") = [0x22, 0x2C, 0x20, 0x22] := by
      rw [quote_eq, e1, escaped_plain hp (by decide) (by decide) (by decide) (by decide),
        escaped_plain hp (by decide) (by decide) (by decide) (by decide), escaped_nil]
      rfl
    rw [rowsText_split, hx]
    simp [pairText, hq, Y]
  have hS : tabFrom (atMap name) (x ++ [0x22, 0x2C, 0x20, 0x22]) = .ok ⟨.text [], beforeToks name l1⟩ := by
    rw [show x ++ [0x22, 0x2C, 0x20, 0x22] = (x ++ [0x22, 0x2C, 0x20]) ++ [0x22] by simp, ← hx,
      tabFrom_ok (before_run hl name l1)]
    rfl
  have hY := after_run hl v l2
  -- what the replacements make of it
  have hcut : ∀ y, brk1 indent (x ++ ([0x22, 0x2C, 0x20, 0x22] ++ y)) =
      brk1 indent x ++ (([0x22, 0x2C, 0x0A] ++ indent ++ [0x22]) ++ brk1 indent y) := by
    intro y
    unfold brk1
    rw [replaceAll_cut (by simp), replaceAll_here (by simp)]
    rintro u v hu hv he hs ⟨r, hr⟩
    rcases u with _ | ⟨u1, _ | ⟨u2, _ | ⟨u3, _ | ⟨u4, u⟩⟩⟩⟩
    · exact hu rfl
    · cases he; simp at hr
    · cases he; simp at hr
    · cases he; exact hnx hs
    · simp at he
      exact hv he.2.2.2.2.2
  have hb1 : brk1 indent (rowsText isPrint (l1 ++ (str ", ", v) :: l2)) =
      brk1 indent (x ++ [0x22, 0x2C, 0x20, 0x22]) ++ 0x2C :: ([0x20, 0x22] ++ 0x3A :: brk1 indent Y) := by
    have hsp : ∀ a b, brk1 indent (a ++ 0x3A :: b) = brk1 indent a ++ 0x3A :: brk1 indent b := fun a b =>
      replaceAll_split (by simp) (by decide) a b
    have := hcut []
    rw [List.append_nil] at this
    rw [htext, hsp, hcut, this, show brk1 indent [0x2C, 0x20, 0x22] = [0x2C, 0x20, 0x22] from rfl,
      show brk1 indent [] = [] from rfl]
    simp
  have hb2 : ∀ S Y, brk2 indent (S ++ 0x2C :: ([0x20, 0x22] ++ 0x3A :: Y)) =
      brk2 indent S ++ 0x2C :: ([0x20, 0x22] ++ 0x3A :: brk2 indent Y) := by
    intro S Y
    unfold brk2
    rw [replaceAll_split (by simp) (by decide), replaceAll_split (by simp) (by decide)]
    rfl
  have hb3 : ∀ S Y, brk3 indent (S ++ 0x2C :: ([0x20, 0x22] ++ 0x3A :: Y)) =
      brk3 indent S ++ 0x2C :: ([0x20, 0x22] ++ 0x3A :: brk3 indent Y) := by
    intro S Y
    unfold brk3
    rw [replaceAll_split (by simp) (by decide), replaceAll_split (by simp) (by decide)]
    rfl
  rw [hb1, hb2, hb3]
  -- the beginning
  have hn1 : GoTok.punct 0x7D ∉ beforeToks name l1 := by
    unfold beforeToks
    simp [headToks, pairToks_brace, hne]
  have hu1 : ∀ u, GoTok.text u ∈ beforeToks name l1 → ¬ Unlucky u := by
    intro u hu
    unfold beforeToks at hu
    rw [if_neg hne] at hu
    simp [headToks] at hu
    obtain ⟨e, he, h⟩ := mem_pairToks hu
    rcases h with rfl | rfl
    · exact (h1 e he).1
    · exact (h1 e he).2
  have hS1 := begin_kept (breakable_comma hi) ht hS hn1 hu1
  have hS2 := begin_kept (breakable_open hi) ht hS1 hn1 hu1
  have hS3 := begin_kept (breakable_close hi) ht hS2 hn1 hu1
  -- the end
  have hn2 : GoTok.punct 0x7D ∉ afterKey v l2 := by
    unfold afterKey
    split <;> simp [pairToks_brace]
  have hu2 : ∀ u, GoTok.text u ∈ afterKey v l2 → ¬ Unlucky u := by
    intro u hu
    unfold afterKey at hu
    split at hu
    · simp at hu
      exact hu ▸ hv
    · simp at hu
      rcases hu with rfl | hu
      · exact hv
      obtain ⟨e, he, h⟩ := mem_pairToks hu
      rcases h with rfl | rfl
      · exact (h2 e he).1
      · exact (h2 e he).2
  have ht2 : (⟨.code, [.punct 0x3A]⟩ : LexState).mode.Tab := trivial
  obtain ⟨c1, hY1⟩ := end_kept (breakable_comma hi) ht2 hY hn2 hu2
  obtain ⟨c2, hY2⟩ := end_kept (breakable_open hi) ht2 hY1 hn2 hu2
  obtain ⟨c3, hY3⟩ := end_kept (breakable_close hi) ht2 hY2 hn2 hu2
  refine ⟨c3, ?_⟩
  have hmid : ∀ toks, tabFrom ⟨.text [], toks⟩ [0x2C, 0x20, 0x22, 0x3A] =
      .ok ⟨.code, (toks ++ [.text [0x2C, 0x20]]) ++ [.punct 0x3A]⟩ := fun _ => rfl
  have hall : ∀ S Y : Bytes, S ++ 0x2C :: ([0x20, 0x22] ++ 0x3A :: Y) = S ++ ([0x2C, 0x20, 0x22, 0x3A] ++ Y) := by
    simp
  rw [hall]
  unfold brk1 brk2 brk3
  rw [tabFrom_ok hS3, tabFrom_ok (hmid _), tabFrom_under (by simp) hY3, fileToks_eq, pairToks_split _ hne,
    pairToks_cons, e1]
  simp [beforeToks, hne]

/-- From the map to the file. -/
theorem lex_broken {isPrint : Rune → Bool} {name header indent : Bytes} (hh : HeaderFor name header) (m : StringMap) :
    (∀ c rows, tabFrom (atMap name) (brk3 indent (brk2 indent (brk1 indent (bodyText isPrint m)))) =
        .ok ⟨.code, fileToks name c rows⟩ →
      lex (breakLines indent (sourceText isPrint header m)) = .ok (fileToks name c rows)) ∧
    (tabFrom (atMap name) (brk3 indent (brk2 indent (brk1 indent (bodyText isPrint m)))) = .error .newline →
      lex (breakLines indent (sourceText isPrint header m)) = .error .newline) := by
  have hq : ∀ b ∈ header ++ str "map[string]string", b ≠ 0x22 := fun b hb => (hh.clear b hb).1
  have hc : ∀ b ∈ header ++ str "map[string]string", b ≠ 0x7B := fun b hb => (hh.clear b hb).2
  have he : breakLines indent (sourceText isPrint header m) =
      header ++ str "map[string]string" ++ brk3 indent (brk2 indent (brk1 indent (bodyText isPrint m))) := by
    rw [sourceText_eq]
    simp only [breakLines, brk1, brk2, brk3]
    rw [replaceAll_header hq, replaceAll_header hc, replaceAll_header hq]
  unfold lex
  rw [he, lexFrom_ok hh.tokens]
  refine ⟨fun c rows h => ?_, fun h => ?_⟩
  · have hl := tabFrom_lex.1 _ h
    unfold atMap at hl
    rw [hl]
    have hf : fileToks name c rows = (headToks name ++ [.word (str "string"), .punct 0x7B] ++
        pairToks c rows ++ [.punct 0x7D]) ++ [.semi] := by rw [fileToks_eq]; simp
    simp only [hf, lineEnd_semi]
  · have hl := tabFrom_lex.2 h
    unfold atMap at hl
    rw [hl]

end Jargon
