import Verif.Model.Strings
import Verif.Spec.Generate
import Verif.Props.Utf8

/-! The functions of package `strings`. -/

namespace Jargon

theorem isSpaceRune_valid {r : Rune} (h : isSpaceRune r = true) : ValidRune r ∧ r ≠ runeError := by
  simp only [isSpaceRune, Bool.or_eq_true, Bool.and_eq_true, decide_eq_true_eq, beq_iff_eq] at h
  unfold ValidRune runeError
  omega

/-- The first byte of an encoded rune, and the others. -/
theorem encodeValid_shape (r : Rune) (h : ValidRune r) : ∃ b t, encodeValid r = b :: t ∧
    runeStart b = true ∧ (∀ x ∈ t, runeStart x = false) ∧ t.length ≤ 3 ∧ (b.toNat < 0x80 → t = []) ∧
    (t = [] → b.toNat < 0x80) := by
  unfold ValidRune at h
  have hs : ∀ n, n < 256 → (n < 0x80 ∨ 0xBF < n) → runeStart (UInt8.ofNat n) = true := by
    intro n h1 h2
    have e := toNat_ofNat h1
    rw [runeStart, Bool.not_eq_true', Bool.eq_false_iff, ne_eq, contIn_iff, e]
    omega
  have hc : ∀ n, n < 0x40 → runeStart (UInt8.ofNat (0x80 + n)) = false := by
    intro n h1
    have e := toNat_ofNat (show 0x80 + n < 256 by omega)
    rw [runeStart, Bool.not_eq_false', contIn_iff, e]
    omega
  unfold encodeValid
  split
  · refine ⟨_, _, rfl, hs _ (by omega) (by omega), by simp, by simp, by simp, fun _ => ?_⟩
    rw [toNat_ofNat (by omega)]; omega
  · split
    · refine ⟨_, _, rfl, hs _ (by omega) (by omega), ?_, by simp, ?_, by simp⟩
      · intro x hx; rw [List.mem_singleton.mp hx]; exact hc _ (by omega)
      · rw [toNat_ofNat (by omega)]; omega
    · split
      · refine ⟨_, _, rfl, hs _ (by omega) (by omega), ?_, by simp, ?_, by simp⟩
        · intro x hx; simp only [List.mem_cons, List.not_mem_nil, or_false] at hx; rcases hx with rfl | rfl <;> exact hc _ (by omega)
        · rw [toNat_ofNat (by omega)]; omega
      · refine ⟨_, _, rfl, hs _ (by omega) (by omega), ?_, by simp, ?_, by simp⟩
        · intro x hx; simp only [List.mem_cons, List.not_mem_nil, or_false] at hx; rcases hx with rfl | rfl | rfl <;> exact hc _ (by omega)
        · rw [toNat_ofNat (by omega)]; omega

theorem lastStart_append {t : Bytes} (b : UInt8) (rest : Bytes) (ht : ∀ x ∈ t, runeStart x = false)
    (hb : runeStart b = true) (n seen : Nat) (hn : t.length < n) :
    lastStart n seen (t ++ b :: rest) = seen + t.length + 1 := by
  induction t generalizing n seen with
  | nil =>
    cases n with
    | zero => simp at hn
    | succ n => simp [lastStart, hb]
  | cons x t ih =>
    cases n with
    | zero => simp at hn
    | succ n =>
      simp only [List.length_cons] at hn
      rw [List.cons_append, lastStart, ht x (by simp), if_neg (by simp),
        ih (fun y hy => ht y (by simp [hy])) n (seen + 1) (by omega)]
      simp; omega

/-- The last rune of a string that ends with an encoded rune. -/
theorem decodeLast_encode {r : Rune} (h : ValidRune r) (s : Bytes) :
    decodeLastRune (s ++ encodeRune r) = (r, (encodeRune r).length) := by
  rw [encodeRune_valid h]
  obtain ⟨b, t, he, hb, ht, hl, h1, h2⟩ := encodeValid_shape r h
  have hd := decode_encodeValid r h []
  rw [List.append_nil] at hd
  by_cases htn : t = []
  · rw [he, htn] at hd ⊢
    have hb' := h2 htn
    have : decodeRune [b] = (b.toNat, 1) := by simp [decodeRune, hb']
    rw [this] at hd
    simp only [decodeLastRune, List.reverse_append, List.reverse_cons, List.reverse_nil,
      List.nil_append, List.cons_append, hb', ↓reduceIte]
    exact hd
  · obtain ⟨t', x, rfl⟩ : ∃ t' x, t = t' ++ [x] := ⟨t.dropLast, t.getLast htn, (List.dropLast_concat_getLast htn).symm⟩
    have hx : ¬ x.toNat < 0x80 := by
      intro hlt
      have := ht x (by simp)
      rw [runeStart, Bool.not_eq_false', contIn_iff] at this
      omega
    have hrev : (s ++ encodeValid r).reverse = x :: (t'.reverse ++ b :: s.reverse) := by
      rw [he]; simp
    have hls := lastStart_append (t := t'.reverse) b s.reverse
      (fun y hy => ht y (by simp at hy; simp [hy])) hb 3 1 (by simp at hl ⊢; omega)
    simp only [List.length_append, List.length_cons, List.length_nil, List.length_reverse] at hl hls
    have hlen : (encodeValid r).length = 1 + t'.length + 1 := by rw [he]; simp; omega
    unfold decodeLastRune
    rw [hrev]
    simp only [if_neg hx, hls]
    rw [List.length_append, hlen, Nat.add_sub_cancel, List.drop_left, hd]
    simp only [hlen, ↓reduceIte]

/-- A last rune that is not an error is encoded at the end. -/
theorem decodeLast_encoded {s : Bytes} (hs : s ≠ []) (h : (decodeLastRune s).1 ≠ runeError) :
    s = s.take (s.length - (decodeLastRune s).2) ++ encodeRune (decodeLastRune s).1 ∧
      1 ≤ (decodeLastRune s).2 := by
  unfold decodeLastRune at h ⊢
  cases hr : s.reverse with
  | nil => exact absurd (List.reverse_eq_nil_iff.mp hr) hs
  | cons b t =>
    rw [hr] at h
    have hsr : s = t.reverse ++ [b] := by
      have := congrArg List.reverse hr
      simpa using this
    simp only at h ⊢
    by_cases hb : b.toNat < 0x80
    · simp only [if_pos hb] at h ⊢
      rw [encodeRune_ascii hb, hsr]
      simp
    · simp only [if_neg hb] at h ⊢
      generalize hn : lastStart 3 1 t = n at h ⊢
      by_cases hsz : (decodeRune (s.drop (s.length - n))).2 = n
      · simp only [hsz, ↓reduceIte] at h ⊢
        have hpos : s.drop (s.length - n) ≠ [] := by
          intro h0
          rw [h0] at h
          exact h rfl
        obtain ⟨c, cs, hc⟩ := List.exists_cons_of_ne_nil hpos
        rw [hc] at h hsz ⊢
        rcases decodeRune_encoded c cs with h1 | ⟨⟨rest, h1⟩, h2⟩
        · rw [h1] at h; exact absurd rfl h
        · have hlen : (c :: cs).length ≤ n := by
            rw [← hc, List.length_drop]; omega
          have hr0 : rest = [] := by
            have := congrArg List.length h1
            rw [List.length_append] at this
            rw [hsz] at h2
            apply List.length_eq_zero_iff.mp
            omega
          rw [hr0, List.append_nil] at h1
          rw [encodeRune_valid (decodeRune_valid _), h1, ← hc, List.take_append_drop]
          refine ⟨rfl, ?_⟩
          have := decodeRune_width_pos c cs
          omega
      · simp only [if_neg hsz] at h
        exact absurd rfl h

/-- A first rune that is not an error is encoded at the beginning. -/
theorem decode_encoded {s : Bytes} (hs : s ≠ []) (h : (decodeRune s).1 ≠ runeError) :
    s = encodeRune (decodeRune s).1 ++ s.drop (decodeRune s).2 ∧ 1 ≤ (decodeRune s).2 := by
  obtain ⟨c, cs, rfl⟩ := List.exists_cons_of_ne_nil hs
  refine ⟨?_, decodeRune_width_pos c cs⟩
  rcases decodeRune_encoded c cs with h1 | ⟨⟨rest, h1⟩, h2⟩
  · rw [h1] at h; exact absurd rfl h
  · rw [encodeRune_valid (decodeRune_valid _), h2]
    generalize encodeValid (decodeRune (c :: cs)).1 = e at h1 ⊢
    rw [← h1, List.drop_left]

theorem decode_encode {r : Rune} (h : ValidRune r) (rest : Bytes) :
    decodeRune (encodeRune r ++ rest) = (r, (encodeRune r).length) := by
  rw [encodeRune_valid h, decode_encodeValid r h rest]

/-! ### `TrimSpace` -/

theorem trimLeft_spec (n : Nat) (s : Bytes) (hn : s.length ≤ n) :
    ∃ a : List Rune, (∀ r ∈ a, isSpaceRune r = true) ∧ s = encodeRunes a ++ trimLeftAux n s ∧
      ∀ r rest, isSpaceRune r = true → trimLeftAux n s ≠ encodeRune r ++ rest := by
  induction n generalizing s with
  | zero =>
    have hs : s = [] := List.length_eq_zero_iff.mp (by omega)
    refine ⟨[], by simp, by simp [trimLeftAux], fun r rest _ h => ?_⟩
    rw [hs, trimLeftAux] at h
    exact encodeRune_ne_nil r (List.append_eq_nil_iff.mp h.symm).1
  | succ n ih =>
    rw [trimLeftAux]
    by_cases hs : s = []
    · refine ⟨[], by simp, by simp [hs], fun r rest _ h => ?_⟩
      rw [if_pos hs] at h
      exact encodeRune_ne_nil r (List.append_eq_nil_iff.mp h.symm).1
    · rw [if_neg hs]
      by_cases hsp : isSpaceRune (decodeRune s).1 = true
      · rw [if_pos hsp]
        obtain ⟨he, hp⟩ := decode_encoded hs (isSpaceRune_valid hsp).2
        obtain ⟨a, ha, h1, h2⟩ := ih (s.drop (decodeRune s).2) (by rw [List.length_drop]; omega)
        refine ⟨(decodeRune s).1 :: a, ?_, ?_, h2⟩
        · intro r hr
          rcases List.mem_cons.mp hr with rfl | hr
          · exact hsp
          · exact ha r hr
        · exact he.trans ((congrArg (encodeRune (decodeRune s).1 ++ ·) h1).trans (by simp [encodeRunes]))
      · rw [if_neg hsp]
        refine ⟨[], by simp, by simp, fun r rest hr h => ?_⟩
        rw [h, decode_encode (isSpaceRune_valid hr).1] at hsp
        exact hsp hr

theorem trimRight_spec (n : Nat) (s : Bytes) (hn : s.length ≤ n) :
    ∃ b : List Rune, (∀ r ∈ b, isSpaceRune r = true) ∧ s = trimRightAux n s ++ encodeRunes b ∧
      ∀ r rest, isSpaceRune r = true → trimRightAux n s ≠ rest ++ encodeRune r := by
  induction n generalizing s with
  | zero =>
    have hs : s = [] := List.length_eq_zero_iff.mp (by omega)
    refine ⟨[], by simp, by simp [trimRightAux], fun r rest _ h => ?_⟩
    rw [hs, trimRightAux] at h
    exact encodeRune_ne_nil r (List.append_eq_nil_iff.mp h.symm).2
  | succ n ih =>
    rw [trimRightAux]
    by_cases hs : s = []
    · refine ⟨[], by simp, by simp [hs], fun r rest _ h => ?_⟩
      rw [if_pos hs] at h
      exact encodeRune_ne_nil r (List.append_eq_nil_iff.mp h.symm).2
    · rw [if_neg hs]
      by_cases hsp : isSpaceRune (decodeLastRune s).1 = true
      · rw [if_pos hsp]
        obtain ⟨he, hp⟩ := decodeLast_encoded hs (isSpaceRune_valid hsp).2
        have hl := List.length_pos_iff.mpr hs
        obtain ⟨b, hb, h1, h2⟩ := ih (s.take (s.length - (decodeLastRune s).2))
          (by rw [List.length_take]; omega)
        refine ⟨b ++ [(decodeLastRune s).1], ?_, ?_, h2⟩
        · intro r hr
          rcases List.mem_append.mp hr with hr | hr
          · exact hb r hr
          · simp at hr; rw [hr]; exact hsp
        · exact he.trans ((congrArg (· ++ encodeRune (decodeLastRune s).1) h1).trans (by simp [encodeRunes]))
      · rw [if_neg hsp]
        refine ⟨[], by simp, by simp, fun r rest hr h => ?_⟩
        rw [h, decodeLast_encode (isSpaceRune_valid hr).1] at hsp
        exact hsp hr

theorem trimSpace_trimmed (s : Bytes) : Trimmed s (trimSpace s) := by
  obtain ⟨a, ha, h1, h2⟩ := trimLeft_spec s.length s (Nat.le_refl _)
  obtain ⟨b, hb, h3, h4⟩ := trimRight_spec _ (trimLeftAux s.length s) (Nat.le_refl _)
  refine ⟨⟨a, b, ha, hb, ?_⟩, ?_, h4⟩
  · refine h1.trans ((congrArg (encodeRunes a ++ ·) h3).trans ?_)
    simp only [trimSpace, List.append_assoc]
  · intro r rest hr h
    apply h2 r (rest ++ encodeRunes b) hr
    rw [h3]
    show trimSpace s ++ _ = _
    rw [h, List.append_assoc]

theorem runeStart_encodeRunes {b : List Rune} (hb : ∀ r ∈ b, ValidRune r) :
    encodeRunes b = [] ∨ ∃ x t, encodeRunes b = x :: t ∧ runeStart x = true := by
  cases b with
  | nil => exact Or.inl rfl
  | cons r b =>
    right
    obtain ⟨x, t, he, hx, -⟩ := encodeValid_shape r (hb r (by simp))
    refine ⟨x, t ++ encodeRunes b, ?_, hx⟩
    rw [encodeRunes, List.flatMap_cons, encodeRune_valid (hb r (by simp)), he]
    rfl

theorem trimLeft_spaces (a : List Rune) (ha : ∀ r ∈ a, isSpaceRune r = true) (n : Nat) (s : Bytes)
    (hn : (encodeRunes a ++ s).length ≤ n) :
    ∃ n', s.length ≤ n' ∧ trimLeftAux n (encodeRunes a ++ s) = trimLeftAux n' s := by
  induction a generalizing n with
  | nil => exact ⟨n, by simpa using hn, rfl⟩
  | cons r a ih =>
    have hne := encodeRune_ne_nil r
    have hpos := List.length_pos_iff.mpr hne
    have hr := ha r (by simp)
    simp only [encodeRunes, List.flatMap_cons, List.length_append] at hn
    cases n with
    | zero => omega
    | succ n =>
      obtain ⟨n', h1, h2⟩ := ih (fun x hx => ha x (by simp [hx])) n (by
        simp only [encodeRunes, List.length_append]; omega)
      refine ⟨n', h1, ?_⟩
      have e : encodeRunes (r :: a) ++ s = encodeRune r ++ (encodeRunes a ++ s) := by simp [encodeRunes]
      rw [e, trimLeftAux, if_neg (by simp [hne]), decode_encode (isSpaceRune_valid hr).1, if_pos hr,
        List.drop_left, h2]

theorem trimRight_spaces (b : List Rune) (hb : ∀ r ∈ b, isSpaceRune r = true) (n : Nat) (s : Bytes)
    (hn : (s ++ encodeRunes b).length ≤ n) (hs : ∀ r rest, isSpaceRune r = true → s ≠ rest ++ encodeRune r) :
    trimRightAux n (s ++ encodeRunes b) = s := by
  induction n generalizing b with
  | zero =>
    have := List.length_eq_zero_iff.mp (Nat.le_zero.mp hn)
    rw [this, (List.append_eq_nil_iff.mp this).1]
    rfl
  | succ n ih =>
    rcases List.eq_nil_or_concat b with rfl | ⟨b', r, rfl⟩
    · rw [encodeRunes_nil, List.append_nil, trimRightAux]
      by_cases h0 : s = []
      · rw [if_pos h0, h0]
      · rw [if_neg h0, if_neg]
        intro hsp
        obtain ⟨he, -⟩ := decodeLast_encoded h0 (isSpaceRune_valid hsp).2
        exact hs _ _ hsp he
    · have hr := hb r (by simp)
      have hne := encodeRune_ne_nil r
      have e : s ++ encodeRunes (b' ++ [r]) = (s ++ encodeRunes b') ++ encodeRune r := by
        simp [encodeRunes]
      have hpos := List.length_pos_iff.mpr hne
      rw [List.concat_eq_append, e] at hn ⊢
      rw [trimRightAux, if_neg (by simp [hne]), decodeLast_encode (isSpaceRune_valid hr).1, if_pos hr,
        List.length_append, Nat.add_sub_cancel, List.take_left]
      rw [List.length_append] at hn
      exact ih b' (fun x hx => hb x (by simp [hx])) (by omega)

/-- There is only one way to trim. -/
theorem trimSpace_eq {s m : Bytes} (h : Trimmed s m) : trimSpace s = m := by
  obtain ⟨⟨a, b, ha, hb, rfl⟩, hl, hr⟩ := h
  have hleft : trimLeftAux (encodeRunes a ++ m ++ encodeRunes b).length (encodeRunes a ++ m ++ encodeRunes b) =
      if m = [] then [] else m ++ encodeRunes b := by
    rw [List.append_assoc]
    obtain ⟨n', h1, h2⟩ := trimLeft_spaces a ha _ (m ++ encodeRunes b) (Nat.le_refl _)
    rw [h2]
    split
    · rename_i h0
      rw [h0, List.nil_append] at h1 ⊢
      obtain ⟨n'', h3, h4⟩ := trimLeft_spaces b hb n' [] (by simpa using h1)
      rw [List.append_nil] at h4
      rw [h4]
      cases n'' <;> simp [trimLeftAux]
    · rename_i h0
      cases n' with
      | zero =>
        rw [List.length_append] at h1
        exact absurd (List.length_eq_zero_iff.mp (by omega)) h0
      | succ n' =>
        rw [trimLeftAux, if_neg (by simp [h0]), if_neg]
        intro hsp
        obtain ⟨he, -⟩ := decode_encoded (by simp [h0]) (isSpaceRune_valid hsp).2
        generalize hdec : decodeRune (m ++ encodeRunes b) = d at he hsp
        obtain ⟨hv, -⟩ := isSpaceRune_valid hsp
        rcases List.append_eq_append_iff.mp he with ⟨x, hx1, hx2⟩ | ⟨x, hx1, -⟩
        · -- `m` is a part of the encoded rune
          by_cases hx : x = []
          · rw [hx, List.append_nil] at hx1
            exact hl d.1 [] hsp (by rw [List.append_nil, hx1])
          · obtain ⟨y, ys, rfl⟩ := List.exists_cons_of_ne_nil hx
            obtain ⟨c, t, hc, -, ht, -⟩ := encodeValid_shape d.1 hv
            rw [encodeRune_valid hv, hc] at hx1
            obtain ⟨c', m', rfl⟩ := List.exists_cons_of_ne_nil h0
            rw [List.cons_append, List.cons.injEq] at hx1
            have hy := ht y (by rw [hx1.2]; simp)
            rcases runeStart_encodeRunes fun r hr => (isSpaceRune_valid (hb r hr)).1 with h | ⟨z, zs, h, hz⟩
            · rw [h] at hx2; simp at hx2
            · rw [h, List.cons_append, List.cons.injEq] at hx2
              rw [← hx2.1, hz] at hy
              exact Bool.noConfusion hy
        · exact hl d.1 x hsp hx1
  rw [trimSpace, hleft]
  split
  · rename_i h0; rw [h0]; rfl
  · exact trimRight_spaces b hb _ m (Nat.le_refl _) hr

/-! ### The map -/

theorem mem_set {m : StringMap} {k v : Bytes} {x : Bytes × Bytes} :
    x ∈ m.set k v ↔ x = (k, v) ∨ (x ∈ m ∧ x.1 ≠ k) := by
  simp [StringMap.set, List.mem_filter]

theorem nodup_set {m : StringMap} (h : (m.map Prod.fst).Nodup) (k v : Bytes) :
    ((m.set k v).map Prod.fst).Nodup := by
  rw [StringMap.set, List.map_cons, List.nodup_cons]
  refine ⟨?_, ?_⟩
  · simp
  · exact h.sublist (List.Sublist.map _ List.filter_sublist)

end Jargon
