import Verif.Proofs.Utf8

/-! C62: the model's (Go's) reading and writing of runes against Lean's own definition of UTF-8,
`String.utf8EncodeChar` and `String.toUTF8`. -/

namespace Jargon

theorem char_valid (c : Char) : ValidRune c.toNat := by
  have h : c.toNat < 0xD800 ∨ (0xDFFF < c.toNat ∧ c.toNat < 0x110000) := c.valid
  unfold ValidRune
  omega

theorem valid_char {r : Rune} (h : ValidRune r) : ∃ c : Char, c.toNat = r := by
  have hv : r.isValidChar := by
    unfold ValidRune at h
    unfold Nat.isValidChar
    omega
  exact ⟨Char.ofNatAux r hv, by simp [Char.toNat, Char.ofNatAux]⟩

theorem encodeValid_char (c : Char) : encodeValid c.toNat = String.utf8EncodeChar c := by
  have h := char_valid c
  unfold ValidRune at h
  unfold encodeValid String.utf8EncodeChar
  change _ = ite (c.toNat ≤ 0x7f) _ _
  have e (a b : Nat) (hab : a = b) : UInt8.ofNat a = UInt8.ofNat b := by rw [hab]
  have hv : c.val.toNat = c.toNat := rfl
  simp only [hv]
  generalize c.toNat = r at h
  by_cases h1 : r < 0x80
  · simp only [if_pos h1, if_pos (show r ≤ 0x7f by omega)]
  by_cases h2 : r < 0x800
  · simp only [if_neg h1, if_neg (show ¬ r ≤ 0x7f by omega), if_pos h2, if_pos (show r ≤ 0x7ff by omega)]
    rw [e (0xC0 + r / 0x40) (r / 64 % 32 + 0xc0) (by omega), e (0x80 + r % 0x40) (r % 64 + 0x80) (by omega)]
  by_cases h3 : r < 0x10000
  · simp only [if_neg h1, if_neg (show ¬ r ≤ 0x7f by omega), if_neg h2, if_neg (show ¬ r ≤ 0x7ff by omega),
      if_pos h3, if_pos (show r ≤ 0xffff by omega)]
    rw [e (0xE0 + r / 0x1000) (r / 4096 % 16 + 0xe0) (by omega),
      e (0x80 + r / 0x40 % 0x40) (r / 64 % 64 + 0x80) (by omega), e (0x80 + r % 0x40) (r % 64 + 0x80) (by omega)]
  simp only [if_neg h1, if_neg (show ¬ r ≤ 0x7f by omega), if_neg h2, if_neg (show ¬ r ≤ 0x7ff by omega),
    if_neg h3, if_neg (show ¬ r ≤ 0xffff by omega)]
  rw [e (0xF0 + r / 0x40000) (r / 262144 % 8 + 0xf0) (by omega),
    e (0x80 + r / 0x1000 % 0x40) (r / 4096 % 64 + 0x80) (by omega),
    e (0x80 + r / 0x40 % 0x40) (r / 64 % 64 + 0x80) (by omega), e (0x80 + r % 0x40) (r % 64 + 0x80) (by omega)]

theorem ofNat_eq {x : UInt8} {n : Nat} (h : n = x.toNat) : UInt8.ofNat n = x := by subst h; simp

theorem encode_two {b b1 : UInt8} (h : 0xC2 ≤ b.toNat) (h' : b.toNat < 0xE0) (h1 : contIn 0x80 0xBF b1 = true) :
    encodeValid ((b.toNat - 0xC0) * 0x40 + (b1.toNat - 0x80)) = [b, b1] := by
  rw [contIn_iff] at h1
  unfold encodeValid
  rw [if_neg (by omega), if_pos (by omega), ofNat_eq (x := b) (by omega), ofNat_eq (x := b1) (by omega)]

theorem encode_three {b b1 b2 : UInt8} (h : 0xE0 ≤ b.toNat) (h' : b.toNat < 0xF0)
    (h1 : 0x80 ≤ b1.toNat ∧ b1.toNat ≤ 0xBF) (h2 : 0x80 ≤ b2.toNat ∧ b2.toNat ≤ 0xBF)
    (hlo : b.toNat = 0xE0 → 0xA0 ≤ b1.toNat) :
    encodeValid ((b.toNat - 0xE0) * 0x1000 + (b1.toNat - 0x80) * 0x40 + (b2.toNat - 0x80)) = [b, b1, b2] := by
  unfold encodeValid
  rw [if_neg (by omega), if_neg (by omega), if_pos (by omega), ofNat_eq (x := b) (by omega),
    ofNat_eq (x := b1) (by omega), ofNat_eq (x := b2) (by omega)]

theorem encode_four {b b1 b2 b3 : UInt8} (h : 0xF0 ≤ b.toNat) (h' : b.toNat < 0xF5)
    (h1 : 0x80 ≤ b1.toNat ∧ b1.toNat ≤ 0xBF) (h2 : 0x80 ≤ b2.toNat ∧ b2.toNat ≤ 0xBF)
    (h3 : 0x80 ≤ b3.toNat ∧ b3.toNat ≤ 0xBF) (hlo : b.toNat = 0xF0 → 0x90 ≤ b1.toNat) :
    encodeValid ((b.toNat - 0xF0) * 0x40000 + (b1.toNat - 0x80) * 0x1000 + (b2.toNat - 0x80) * 0x40
      + (b3.toNat - 0x80)) = [b, b1, b2, b3] := by
  unfold encodeValid
  rw [if_neg (by omega), if_neg (by omega), if_neg (by omega), ofNat_eq (x := b) (by omega),
    ofNat_eq (x := b1) (by omega), ofNat_eq (x := b2) (by omega), ofNat_eq (x := b3) (by omega)]

/-- What is decoded is either an error of width 1 or an encoded rune. -/
theorem decodeRune_encoded (b : UInt8) (t : Bytes) :
    decodeRune (b :: t) = (runeError, 1) ∨
      (encodeValid (decodeRune (b :: t)).1 <+: b :: t ∧
        (decodeRune (b :: t)).2 = (encodeValid (decodeRune (b :: t)).1).length) := by
  by_cases h1 : b.toNat < 0x80
  · right
    have : decodeRune (b :: t) = (b.toNat, 1) := by simp [decodeRune, h1]
    rw [this]
    simp [encodeValid, h1]
  by_cases h2 : b.toNat < 0xC2
  · left; simp only [decodeRune, if_neg h1, if_pos h2]
  by_cases h3 : b.toNat < 0xE0
  · cases t with
    | nil => left; simp only [decodeRune, if_neg h1, if_neg h2, if_pos h3]
    | cons b1 t =>
      by_cases hc : contIn 0x80 0xBF b1 = true
      · right
        simp only [decodeRune, if_neg h1, if_neg h2, if_pos h3, if_pos hc,
          encode_two (show 0xC2 ≤ b.toNat by omega) h3 hc]
        simp
      · left; simp only [decodeRune, if_neg h1, if_neg h2, if_pos h3, if_neg hc]
  by_cases h4 : b.toNat < 0xF0
  · match t with
    | [] | [_] => left; simp only [decodeRune, if_neg h1, if_neg h2, if_neg h3, if_pos h4]
    | b1 :: b2 :: t =>
      by_cases hc : (contIn (if b.toNat = 0xE0 then 0xA0 else 0x80) (if b.toNat = 0xED then 0x9F else 0xBF) b1
        && contIn 0x80 0xBF b2) = true
      · right
        have hc' := hc
        simp only [Bool.and_eq_true, contIn_iff] at hc'
        have hlo : (b.toNat = 0xE0 → 0xA0 ≤ b1.toNat) ∧ 0x80 ≤ b1.toNat ∧ b1.toNat ≤ 0xBF := by
          obtain ⟨⟨ha, hb⟩, -⟩ := hc'
          split at ha <;> split at hb <;> omega
        simp only [decodeRune, if_neg h1, if_neg h2, if_neg h3, if_pos h4, if_pos hc,
          encode_three (show 0xE0 ≤ b.toNat by omega) h4 hlo.2 hc'.2 hlo.1]
        simp
      · left; simp only [decodeRune, if_neg h1, if_neg h2, if_neg h3, if_pos h4, if_neg hc]
  by_cases h5 : b.toNat < 0xF5
  · match t with
    | [] | [_] | [_, _] => left; simp only [decodeRune, if_neg h1, if_neg h2, if_neg h3, if_neg h4, if_pos h5]
    | b1 :: b2 :: b3 :: t =>
      by_cases hc : (contIn (if b.toNat = 0xF0 then 0x90 else 0x80) (if b.toNat = 0xF4 then 0x8F else 0xBF) b1
        && contIn 0x80 0xBF b2 && contIn 0x80 0xBF b3) = true
      · right
        have hc' := hc
        simp only [Bool.and_eq_true, contIn_iff] at hc'
        have hlo : (b.toNat = 0xF0 → 0x90 ≤ b1.toNat) ∧ 0x80 ≤ b1.toNat ∧ b1.toNat ≤ 0xBF := by
          obtain ⟨⟨⟨ha, hb⟩, -⟩, -⟩ := hc'
          split at ha <;> split at hb <;> omega
        simp only [decodeRune, if_neg h1, if_neg h2, if_neg h3, if_neg h4, if_pos h5, if_pos hc,
          encode_four (show 0xF0 ≤ b.toNat by omega) h5 hlo.2 hc'.1.2 hc'.2 hlo.1]
        simp
      · left; simp only [decodeRune, if_neg h1, if_neg h2, if_neg h3, if_neg h4, if_pos h5, if_neg hc]
  · left; simp only [decodeRune, if_neg h1, if_neg h2, if_neg h3, if_neg h4, if_neg h5]

theorem byteArray_toList_loop (bs : ByteArray) (n i : Nat) (r : List UInt8) (h : bs.size - i = n) :
    ByteArray.toList.loop bs i r = r.reverse ++ bs.data.toList.drop i := by
  induction n generalizing i r with
  | zero =>
    rw [ByteArray.toList.loop, if_neg (by omega)]
    have : bs.data.toList.length ≤ i := by
      have : bs.size = bs.data.toList.length := by simp
      omega
    simp [List.drop_eq_nil_of_le this]
  | succ n ih =>
    have hlt : i < bs.data.toList.length := by
      have : bs.size = bs.data.toList.length := by simp
      omega
    rw [ByteArray.toList.loop, if_pos (by omega), ih _ _ (by omega), List.drop_eq_getElem_cons hlt]
    have : bs.get! i = bs.data.toList[i] := by
      have : i < bs.data.size := by simpa using hlt
      simp only [ByteArray.get!, getElem!_pos bs.data i this, Array.getElem_toList]
    simp [this]

theorem byteArray_toList (bs : ByteArray) : bs.toList = bs.data.toList := by
  rw [ByteArray.toList, byteArray_toList_loop bs _ 0 [] rfl]
  simp

/-- **C62 (decoding).** The first rune read from a non-empty string: if the string begins with the
UTF-8 encoding of a character, that character and the length of its encoding, and otherwise U+FFFD and
one byte. -/
theorem C62_decode (s : Bytes) (hs : s ≠ []) :
    (∀ c : Char, String.utf8EncodeChar c <+: s → decodeRune s = (c.toNat, (String.utf8EncodeChar c).length)) ∧
    ((¬ ∃ c : Char, String.utf8EncodeChar c <+: s) → decodeRune s = (0xFFFD, 1)) := by
  constructor
  · rintro c ⟨rest, rfl⟩
    rw [← encodeValid_char]
    exact decode_encodeValid _ (char_valid c) rest
  · intro h
    cases s with
    | nil => exact absurd rfl hs
    | cons b t =>
      rcases decodeRune_encoded b t with h1 | ⟨h1, -⟩
      · exact h1
      · exfalso
        obtain ⟨c, hc⟩ := valid_char (decodeRune_valid (b :: t))
        rw [← hc, encodeValid_char] at h1
        exact h ⟨c, h1⟩

/-- **C62 (strings).** A valid string is read as its characters, and writing them gives the string
back. -/
theorem C62_strings (s : String) :
    runes s.toUTF8.toList = s.toList.map Char.toNat ∧ encodeRunes (s.toList.map Char.toNat) = s.toUTF8.toList := by
  have h : encodeRunes (s.toList.map Char.toNat) = s.toUTF8.toList := by
    have h1 : s.toUTF8 = s.toList.utf8Encode := by rw [String.utf8Encode_toList]; rfl
    rw [h1, List.utf8Encode]
    have h2 : (s.toList.flatMap String.utf8EncodeChar).toByteArray.toList = s.toList.flatMap String.utf8EncodeChar := by
      rw [byteArray_toList, List.toList_data_toByteArray]
    rw [h2, encodeRunes, List.flatMap_map]
    congr 1
    funext c
    rw [encodeRune_valid (char_valid c), encodeValid_char]
  refine ⟨?_, h⟩
  rw [← h]
  apply runes_encodeRunes
  intro r hr
  obtain ⟨c, -, rfl⟩ := List.mem_map.mp hr
  exact char_valid c

/-- **C62 (loop).** The loop over a string visits the runes one after the other, each where the one before
it ended. -/
theorem C62_loop (s : Bytes) (hs : s ≠ []) :
    runes s = (decodeRune s).1 :: runes (s.drop (decodeRune s).2) := by
  cases s with
  | nil => exact absurd rfl hs
  | cons b t => exact runes_cons b t

/-- **C62 (encoding).** Writing a rune writes the encoding of the character, or of U+FFFD if there is no
such character. -/
theorem C62_encode (r : Rune) :
    (∀ c : Char, c.toNat = r → encodeRune r = String.utf8EncodeChar c) ∧
    ((¬ ∃ c : Char, c.toNat = r) → encodeRune r = [0xEF, 0xBF, 0xBD]) := by
  constructor
  · rintro c rfl
    rw [encodeRune_valid (char_valid c), encodeValid_char]
  · intro h
    unfold encodeRune
    rw [if_neg (fun hv => h (valid_char hv))]
    decide +kernel

-- a truncated euro sign, a surrogate, an overlong slash
example : runes [0xE2, 0x82, 0x41] = [0xFFFD, 0xFFFD, 0x41] := by decide +kernel
example : runes [0xED, 0xA0, 0x80] = [0xFFFD, 0xFFFD, 0xFFFD] := by decide +kernel
example : runes [0xC0, 0xAF] = [0xFFFD, 0xFFFD] := by decide +kernel
example : runes "aé€😀".toUTF8.toList = [0x61, 0xE9, 0x20AC, 0x1F600] := by decide +kernel

end Jargon
