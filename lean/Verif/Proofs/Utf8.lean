import Verif.Model.Prelude

/-! Facts about Go's UTF-8 decoding and encoding. -/

namespace Jargon

theorem decodeRune_width_pos (b : UInt8) (t : Bytes) : 1 ≤ (decodeRune (b :: t)).2 := by
  unfold decodeRune
  simp only
  repeat' split
  all_goals simp

theorem decodeRune_width_le (s : Bytes) : (decodeRune s).2 ≤ s.length := by
  rcases s with _ | ⟨b0, _ | ⟨b1, _ | ⟨b2, _ | ⟨b3, t⟩⟩⟩⟩ <;> unfold decodeRune <;>
    simp only [List.length_cons, List.length_nil] <;> repeat' split
  all_goals simp

theorem runesAux_fuel (n m : Nat) (s : Bytes) (hn : s.length ≤ n) (hm : s.length ≤ m) :
    runesAux n s = runesAux m s := by
  induction n generalizing m s with
  | zero =>
    have : s = [] := by simpa using hn
    subst this
    cases m <;> rfl
  | succ n ih =>
    cases s with
    | nil => cases m <;> rfl
    | cons b t =>
      cases m with
      | zero => simp at hm
      | succ m =>
        simp only [runesAux]
        congr 1
        have hp := decodeRune_width_pos b t
        apply ih
        · simp at *; omega
        · simp at *; omega

@[simp] theorem runes_nil : runes [] = [] := rfl

theorem runes_cons (b : UInt8) (t : Bytes) :
    runes (b :: t) =
      (decodeRune (b :: t)).1 :: runes ((b :: t).drop (decodeRune (b :: t)).2) := by
  have hp := decodeRune_width_pos b t
  show runesAux (t.length + 1) (b :: t) = _
  simp only [runesAux]
  congr 1
  apply runesAux_fuel
  · simp; omega
  · simp

@[simp] theorem runes_eq_nil {s : Bytes} : runes s = [] ↔ s = [] := by
  cases s with
  | nil => simp
  | cons b t => simp [runes_cons]

theorem validRune_runeError : ValidRune runeError := by decide

theorem contIn_iff {lo hi : Nat} {b : UInt8} : contIn lo hi b = true ↔ lo ≤ b.toNat ∧ b.toNat ≤ hi := by
  simp [contIn]

theorem decodeRune_valid (s : Bytes) : ValidRune (decodeRune s).1 := by
  unfold decodeRune
  simp only
  repeat' split
  all_goals try (dsimp only; with_reducible exact validRune_runeError)
  · unfold ValidRune; simp only; omega
  all_goals
    rename_i h
    simp only [Bool.and_eq_true, contIn_iff] at h
    unfold ValidRune; simp only; omega

theorem runesAux_valid (n : Nat) (s : Bytes) : ∀ r ∈ runesAux n s, ValidRune r := by
  induction n generalizing s with
  | zero => simp [runesAux]
  | succ n ih =>
    cases s with
    | nil => simp [runesAux]
    | cons b t =>
      intro r hr
      simp only [runesAux, List.mem_cons] at hr
      rcases hr with rfl | hr
      · exact decodeRune_valid _
      · exact ih _ r hr

theorem runes_valid (s : Bytes) : ∀ r ∈ runes s, ValidRune r := runesAux_valid _ _

theorem toNat_ofNat {n : Nat} (h : n < 256) : (UInt8.ofNat n).toNat = n := by
  simp [UInt8.toNat_ofNat']; omega

theorem decode_encodeValid (r : Rune) (h : ValidRune r) (rest : Bytes) :
    decodeRune (encodeValid r ++ rest) = (r, (encodeValid r).length) := by
  unfold ValidRune at h
  unfold encodeValid
  split
  · rename_i h1
    simp [decodeRune, toNat_ofNat (show r < 256 by omega), h1]
  · split
    · rename_i h1 h2
      have e0 : (UInt8.ofNat (0xC0 + r / 0x40)).toNat = 0xC0 + r / 0x40 := toNat_ofNat (by omega)
      have e1 : (UInt8.ofNat (0x80 + r % 0x40)).toNat = 0x80 + r % 0x40 := toNat_ofNat (by omega)
      simp only [decodeRune, List.cons_append, List.nil_append, contIn, e0, e1]
      rw [if_neg (by omega), if_neg (by omega), if_pos (by omega), if_pos (by simp; omega)]
      simp; omega
    · split
      · rename_i h1 h2 h3
        have e0 : (UInt8.ofNat (0xE0 + r / 0x1000)).toNat = 0xE0 + r / 0x1000 := toNat_ofNat (by omega)
        have e1 : (UInt8.ofNat (0x80 + r / 0x40 % 0x40)).toNat = 0x80 + r / 0x40 % 0x40 :=
          toNat_ofNat (by omega)
        have e2 : (UInt8.ofNat (0x80 + r % 0x40)).toNat = 0x80 + r % 0x40 := toNat_ofNat (by omega)
        simp only [decodeRune, List.cons_append, List.nil_append, contIn, e0, e1, e2]
        rw [if_neg (by omega), if_neg (by omega), if_neg (by omega), if_pos (by omega), if_pos]
        · simp; omega
        · simp
          split <;> split <;> omega
      · rename_i h1 h2 h3
        have e0 : (UInt8.ofNat (0xF0 + r / 0x40000)).toNat = 0xF0 + r / 0x40000 :=
          toNat_ofNat (by omega)
        have e1 : (UInt8.ofNat (0x80 + r / 0x1000 % 0x40)).toNat = 0x80 + r / 0x1000 % 0x40 :=
          toNat_ofNat (by omega)
        have e2 : (UInt8.ofNat (0x80 + r / 0x40 % 0x40)).toNat = 0x80 + r / 0x40 % 0x40 :=
          toNat_ofNat (by omega)
        have e3 : (UInt8.ofNat (0x80 + r % 0x40)).toNat = 0x80 + r % 0x40 := toNat_ofNat (by omega)
        simp only [decodeRune, List.cons_append, List.nil_append, contIn, e0, e1, e2, e3]
        rw [if_neg (by omega), if_neg (by omega), if_neg (by omega), if_neg (by omega),
          if_pos (by omega), if_pos]
        · simp; omega
        · simp
          split <;> split <;> omega

theorem encodeValid_ne_nil (r : Rune) : encodeValid r ≠ [] := by
  unfold encodeValid; repeat' split
  all_goals simp

theorem encodeRune_ne_nil (r : Rune) : encodeRune r ≠ [] := by
  unfold encodeRune; split <;> exact encodeValid_ne_nil _

theorem encodeRune_valid {r : Rune} (h : ValidRune r) : encodeRune r = encodeValid r := by
  simp [encodeRune, h]

/-- Decoding text that starts with an encoded rune. -/
theorem runes_encode_append {r : Rune} (h : ValidRune r) (rest : Bytes) :
    runes (encodeRune r ++ rest) = r :: runes rest := by
  rw [encodeRune_valid h]
  cases he : encodeValid r with
  | nil => exact absurd he (encodeValid_ne_nil r)
  | cons b t =>
    have hd := decode_encodeValid r h rest
    rw [he, List.cons_append] at hd
    rw [List.cons_append, runes_cons, hd]
    simp

/-- Decoding is left inverse to encoding. -/
theorem runes_encodeRunes {rs : List Rune} (h : ∀ r ∈ rs, ValidRune r) :
    runes (encodeRunes rs) = rs := by
  induction rs with
  | nil => rfl
  | cons r rs ih =>
    simp only [encodeRunes, List.flatMap_cons]
    rw [runes_encode_append (h r (by simp))]
    congr 1
    exact ih fun x hx => h x (by simp [hx])

theorem encodeRunes_append (a b : List Rune) : encodeRunes (a ++ b) = encodeRunes a ++ encodeRunes b := by
  simp [encodeRunes]

@[simp] theorem encodeRunes_nil : encodeRunes [] = [] := rfl

@[simp] theorem encodeRunes_eq_nil {rs : List Rune} : encodeRunes rs = [] ↔ rs = [] := by
  cases rs with
  | nil => simp
  | cons r rs => simp [encodeRunes, encodeRune_ne_nil]

/-- A string all of whose bytes are ASCII. -/
def IsAscii (s : Bytes) : Prop := ∀ b ∈ s, b.toNat < 0x80

instance (s : Bytes) : Decidable (IsAscii s) := by unfold IsAscii; infer_instance

theorem runes_ascii_cons {b : UInt8} (h : b.toNat < 0x80) (t : Bytes) :
    runes (b :: t) = b.toNat :: runes t := by
  rw [runes_cons]; simp [decodeRune, h]

theorem runes_ascii {s : Bytes} (h : IsAscii s) : runes s = s.map UInt8.toNat := by
  induction s with
  | nil => rfl
  | cons b t ih =>
    rw [runes_ascii_cons (h b (by simp)), ih fun x hx => h x (by simp [hx])]
    rfl

theorem encodeRune_ascii {r : Rune} (h : r < 0x80) : encodeRune r = [UInt8.ofNat r] := by
  rw [encodeRune_valid (by unfold ValidRune; omega)]; simp [encodeValid, h]

theorem encodeRunes_runes_ascii {s : Bytes} (h : IsAscii s) : encodeRunes (runes s) = s := by
  rw [runes_ascii h]
  induction s with
  | nil => rfl
  | cons b t ih =>
    have hb := h b (by simp)
    simp only [List.map_cons, encodeRunes, List.flatMap_cons, encodeRune_ascii hb]
    rw [show List.flatMap encodeRune (List.map UInt8.toNat t) = encodeRunes (t.map UInt8.toNat) from rfl,
      ih fun x hx => h x (by simp [hx])]
    simp

end Jargon
