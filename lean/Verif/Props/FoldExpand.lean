import Verif.Props.Ascii
import Verif.Props.Contractions
import Verif.Props.Pipeline

/-! C120: folding to ASCII and expanding contractions, in either order. -/

namespace Jargon

/-! ### The specification -/

/-- The text of a token has no characters but those of ASCII and the typographic apostrophe. -/
def Token.Typed (t : Token) : Prop :=
  (∀ r ∈ runes t.value, r < 0x80 ∨ r = 0x2019) ∧ encodeRunes (runes t.value) = t.value

/-- The token is expanded. -/
def Contracted (U : Unicode) (s : Bytes) : Prop :=
  contractionMappings.lookup s ≠ none ∨ contractionMappings.lookup (U.lowerString s) ≠ none

/-- In the order "fold, then expand", and in the order "expand, then fold". -/
def foldThenExpand (E : Env) (ts : TokenStream) : TokenStream := expand E (asciiFold E.U ts)
def expandThenFold (E : Env) (ts : TokenStream) : TokenStream := asciiFold E.U (expand E ts)

/-! ### The apostrophes in the table -/

/-- A typewriter apostrophe for a typographic one. -/
def typeR (r : Rune) : Rune := if r = 0x2019 then 0x27 else r

/-- A typographic apostrophe for a typewriter one. -/
def smartR (r : Rune) : Rune := if r = 0x27 then 0x2019 else r

def typed (s : Bytes) : Bytes := encodeRunes ((runes s).map typeR)

/-- What is checked of each entry: it is there with either apostrophe. -/
noncomputable def bothB (r : Nat × Nat) : Bool :=
  let rs := (runes (textOf r.1)).map typeR
  Nat.ble (rs.count 0x27) 1 && pairB (codeOf (encodeRunes rs)) r.2 contractionRows &&
    pairB (codeOf (encodeRunes (rs.map smartR))) r.2 contractionRows

theorem both_checked : contractionRows.all bothB = true := by decide +kernel

theorem mem_codes {k : Bytes} {c : Nat} (h : (codeOf k, c) ∈ contractionRows) : (k, textOf c) ∈ contractionMappings :=
  mem_mappings.mpr ⟨_, h, textOf_codeOf _, rfl⟩

theorem entry_both {k x : Bytes} (h : (k, x) ∈ contractionMappings) :
    ((runes k).map typeR).count 0x27 ≤ 1 ∧ (typed k, x) ∈ contractionMappings ∧
      (encodeRunes (((runes k).map typeR).map smartR), x) ∈ contractionMappings := by
  obtain ⟨r, hr, h1, h2⟩ := mem_mappings.mp h
  have hb := List.all_eq_true.mp both_checked r hr
  simp only [bothB, Bool.and_eq_true, Nat.ble_eq] at hb
  simp only at h1 h2
  rw [h1] at hb
  obtain ⟨⟨h3, h4⟩, h5⟩ := hb
  rw [← h2]
  exact ⟨h3, mem_codes (pairB_mem h4), mem_codes (pairB_mem h5)⟩

/-- With one apostrophe at most, there are only two ways of writing it. -/
theorem two_ways : ∀ {l m : List Rune}, l.map typeR = m → m.count 0x27 ≤ 1 → l = m ∨ l = m.map smartR
  | [], m, h, _ => by subst h; exact .inl rfl
  | r :: l, m, h, hc => by
    subst h
    by_cases hr : typeR r = 0x27
    · have h0 : (l.map typeR).count 0x27 = 0 := by
        rw [List.map_cons, hr, List.count_cons_self] at hc; omega
      have hl : l.map typeR = l := by
        conv_rhs => rw [← List.map_id l]
        refine List.map_congr_left fun a ha => ?_
        have : typeR a ≠ 0x27 := by
          intro e
          exact List.count_eq_zero.1 h0 (List.mem_map.2 ⟨a, ha, e⟩)
        unfold typeR at this ⊢
        split at this
        · exact absurd rfl this
        · rename_i h; simp [h]
      have hs : l.map smartR = l := by
        conv_rhs => rw [← List.map_id l]
        refine List.map_congr_left fun a ha => ?_
        have : a ≠ 0x27 := by
          rintro rfl
          exact List.count_eq_zero.1 h0 (by rw [hl]; exact ha)
        simp [smartR, this]
      rw [List.map_cons, hl, List.map_cons, hs, hr]
      unfold typeR at hr
      split at hr
      · rename_i h; right; rw [h]; rfl
      · left; rw [hr]
    · have hr' : typeR r = r := by
        unfold typeR at hr ⊢; split
        · rename_i h; simp [h] at hr
        · rfl
      have hs : smartR r = r := by
        rw [hr'] at hr
        simp [smartR, hr]
      have hc' : (l.map typeR).count 0x27 ≤ 1 := by
        refine Nat.le_trans ?_ hc
        rw [List.map_cons]
        exact List.count_le_count_cons
      rcases two_ways (l := l) rfl hc' with h | h
      · left; rw [List.map_cons, hr', ← h]
      · right; rw [List.map_cons, List.map_cons, hr', hs, ← h]

theorem typed_valid {r : Rune} (h : r < 0x80 ∨ r = 0x2019) : ValidRune r := by
  rcases h with h | rfl
  · exact .inl (by omega)
  · decide

theorem typeR_ascii {r : Rune} (h : r < 0x80 ∨ r = 0x2019) : typeR r < 0x80 := by
  unfold typeR; split <;> omega

theorem lookup_typed {v : Bytes} (hv : ∀ r ∈ runes v, r < 0x80 ∨ r = 0x2019) (he : encodeRunes (runes v) = v) :
    contractionMappings.lookup (typed v) = contractionMappings.lookup v := by
  cases h : contractionMappings.lookup v with
  | some x => exact lookup_of_mem mappings_nodup (entry_both (lookup_mem h)).2.1
  | none =>
    cases h' : contractionMappings.lookup (typed v) with
    | none => rfl
    | some x =>
      exfalso
      have hrs : runes (typed v) = (runes v).map typeR := by
        refine runes_encodeRunes fun r hr => ?_
        obtain ⟨a, ha, rfl⟩ := List.mem_map.1 hr
        exact typed_valid (.inl (typeR_ascii (hv a ha)))
      have hid : ((runes v).map typeR).map typeR = (runes v).map typeR := by
        rw [List.map_map]
        refine List.map_congr_left fun a ha => ?_
        have := typeR_ascii (hv a ha)
        show typeR (typeR a) = typeR a
        generalize typeR a = b at this
        unfold typeR
        split <;> omega
      obtain ⟨h1, h2, h3⟩ := entry_both (lookup_mem h')
      rw [hrs, hid] at h1 h3
      have key : (v, x) ∈ contractionMappings := by
        rcases two_ways rfl h1 with h4 | h4
        · have : typed v = v := by unfold typed; rw [← h4, he]
          rw [this] at h'
          exact lookup_mem h'
        · rw [← h4, he] at h3
          exact h3
      rw [lookup_of_mem mappings_nodup key] at h
      cases h

/-! ### Lemmas -/

theorem fold_typed {v : Bytes} (hv : ∀ r ∈ runes v, r < 0x80 ∨ r = 0x2019) (he : encodeRunes (runes v) = v) :
    (foldString v).1 = typed v := by
  have hf : (runes v).flatMap folded = (runes v).map typeR := by
    rw [← List.flatMap_pure_eq_map]
    refine List.flatMap_congr fun r hr => ?_
    rcases hv r hr with h | rfl
    · have : r ≠ 0x2019 := by omega
      simp [folded, equivalent_ascii h, typeR, this]
    · decide +kernel
  rw [foldString_eq]
  split
  · rw [hf]; rfl
  · rename_i h
    have : (runes v).map typeR = runes v := by
      conv_rhs => rw [← List.map_id (runes v)]
      refine List.map_congr_left fun r hr => ?_
      have : r ≠ 0x2019 := by
        rintro rfl
        exact h (List.any_eq_true.2 ⟨_, hr, by decide +kernel⟩)
      simp [typeR, this]
    show v = typed v
    unfold typed
    rw [this, he]

theorem foldToken_value (U : Unicode) (t : Token) : (foldToken U t).value = (foldString t.value).1 := by
  unfold foldToken
  split
  · rfl
  · rename_i h
    have : (foldString t.value).2 = false := by simpa using h
    rw [((C17_result t.value).2.1 this)]

theorem lower_typed {U : Unicode} (hU : U.LowersAscii) {v : Bytes} (hv : ∀ r ∈ runes v, r < 0x80 ∨ r = 0x2019) :
    U.lowerString (typed v) = typed (U.lowerString v) ∧
      (∀ r ∈ runes (U.lowerString v), r < 0x80 ∨ r = 0x2019) ∧
      encodeRunes (runes (U.lowerString v)) = U.lowerString v := by
  have low : ∀ r, r < 0x80 ∨ r = 0x2019 → U.toLower r < 0x80 ∨ U.toLower r = 0x2019 := by
    intro r hr
    rw [hU.same r hr]
    unfold asciiLower
    split <;> omega
  have hl : runes (U.lowerString v) = (runes v).map U.toLower := by
    refine runes_encodeRunes fun r hr => ?_
    obtain ⟨a, ha, rfl⟩ := List.mem_map.1 hr
    exact typed_valid (low a (hv a ha))
  have ht : runes (typed v) = (runes v).map typeR := by
    refine runes_encodeRunes fun r hr => ?_
    obtain ⟨a, ha, rfl⟩ := List.mem_map.1 hr
    exact typed_valid (.inl (typeR_ascii (hv a ha)))
  refine ⟨?_, ?_, ?_⟩
  · unfold typed
    rw [hl]
    show encodeRunes ((runes (typed v)).map U.toLower) = _
    rw [ht, List.map_map, List.map_map]
    congr 1
    refine List.map_congr_left fun r hr => ?_
    show U.toLower (typeR r) = typeR (U.toLower r)
    rw [hU.same r (hv r hr), hU.same (typeR r) (.inl (typeR_ascii (hv r hr)))]
    rcases hv r hr with h | rfl
    · have h1 : typeR r = r := by unfold typeR; split <;> omega
      have h2 : typeR (asciiLower r) = asciiLower r := by
        unfold typeR asciiLower
        split <;> split <;> omega
      rw [h1, h2]
    · decide
  · intro r hr
    rw [hl] at hr
    obtain ⟨a, ha, rfl⟩ := List.mem_map.1 hr
    exact low a (hv a ha)
  · exact encodeRunes_runes_encodeRunes _

/-- A token with no characters but those of ASCII and the typographic apostrophe has the same expansion folded. -/
theorem expansion_typed {U : Unicode} (hU : U.LowersAscii) {t : Token} (ht : t.Typed) :
    expansion? U contractionMappings (foldToken U t) = expansion? U contractionMappings t := by
  obtain ⟨h1, h2, h3⟩ := lower_typed hU ht.1
  unfold expansion?
  rw [foldToken_value, fold_typed ht.1 ht.2, lookup_typed ht.1 ht.2, h1, lookup_typed h2 h3]

theorem expansion_mem {U : Unicode} {t : Token} {x : Bytes} (h : expansion? U contractionMappings t = some x) :
    ∃ k, (k, x) ∈ contractionMappings := by
  unfold expansion? at h
  cases h0 : contractionMappings.lookup t.value with
  | some y => rw [h0] at h; cases h; exact ⟨_, lookup_mem h0⟩
  | none => rw [h0] at h; exact ⟨_, lookup_mem h⟩

theorem entry_ascii {k x : Bytes} (h : (k, x) ∈ contractionMappings) : IsAscii x := by
  have h := List.all_eq_true.mp entries_checked _ h
  simp only [entryB, Bool.and_eq_true, List.any_eq_true, decide_eq_true_eq, beq_iff_eq] at h
  obtain ⟨⟨⟨⟨-, h3⟩, -⟩, -⟩, -⟩ := h
  intro b hb
  have := List.all_eq_true.mp h3 b hb
  simp only [Bool.and_eq_true, Nat.blt_eq] at this
  exact this.1

/-- Folding leaves an expansion as it is. -/
theorem fold_expansion {E : Env} (hE : E.Lawful)
    (hs : ∀ k x, (k, x) ∈ contractionMappings → (E.scan { data := x }).2 = none) {k x : Bytes}
    (h : (k, x) ∈ contractionMappings) : (stringTokens E x).map (foldToken E.U) = stringTokens E x := by
  conv_rhs => rw [← List.map_id (stringTokens E x)]
  refine List.map_congr_left fun t ht => ?_
  obtain ⟨a, b, hab⟩ := List.append_of_mem ht
  have htx := text_stringTokens hE (hs k x h)
  have hasc : ∀ b ∈ t.value, b.toNat < 0x80 := by
    intro c hc
    refine entry_ascii h c ?_
    rw [← htx, hab]
    simp [text, hc]
  simp [foldToken, C17_ascii_unchanged _ hasc]

theorem not_contracted {U : Unicode} {t : Token} (h : ¬ Contracted U t.value) :
    expansion? U contractionMappings t = none := by
  simp only [Contracted, not_or, Classical.not_not] at h
  simp [expansion?, h]

/-! ### C120 -/

/-- **C120, in full.** The order of folding and expanding does not matter. -/
def C120_full : Prop :=
  ∀ (E : Env), E.Lawful → E.U.LowersAscii →
    (∀ k x, (k, x) ∈ contractionMappings → (E.scan { data := x }).2 = none) →
    ∀ (ts : TokenStream) (toks : List Token) (e : End), ts.Yields toks e →
    ∃ out, (foldThenExpand E ts).Yields out e ∧ (expandThenFold E ts).Yields out e

/-- **C120 (partial).** It does not for a text each of whose tokens has no characters but those of ASCII and the
typographic apostrophe, or is no contraction, folded or not. Missing: contractions written with other characters,
which are recognised only if they are folded first. -/
theorem C120_partial {E : Env} (hE : E.Lawful) (hU : E.U.LowersAscii)
    (hs : ∀ k x, (k, x) ∈ contractionMappings → (E.scan { data := x }).2 = none)
    {ts : TokenStream} {toks : List Token} {e : End} (h : ts.Yields toks e)
    (hn : ∀ t ∈ toks, t.Typed ∨ (¬ Contracted E.U t.value ∧ ¬ Contracted E.U (foldString t.value).1)) :
    ∃ out, (foldThenExpand E ts).Yields out e ∧ (expandThenFold E ts).Yields out e := by
  have hm : GoodTable E contractionMappings := ⟨hs, fun k x hx => (C24_well_formed k x hx).1⟩
  refine ⟨_, expandWith_yields hE hm (asciiFold_yields E.U h), ?_⟩
  have h2 := asciiFold_yields E.U (expandWith_yields hE hm h)
  have heq : (toks.flatMap (expandToken E contractionMappings)).map (foldToken E.U) =
      (toks.map (foldToken E.U)).flatMap (expandToken E contractionMappings) := by
    rw [List.map_flatMap, List.flatMap_map]
    refine List.flatMap_congr fun t ht => ?_
    have hx : expansion? E.U contractionMappings (foldToken E.U t) = expansion? E.U contractionMappings t := by
      rcases hn t ht with h | ⟨h3, h4⟩
      · exact expansion_typed hU h
      · rw [not_contracted h3, not_contracted (by rw [foldToken_value]; exact h4)]
    unfold expandToken
    rw [hx]
    cases hxt : expansion? E.U contractionMappings t with
    | none => rfl
    | some x =>
      obtain ⟨k, hk⟩ := expansion_mem hxt
      exact fold_expansion hE hs hk
  rw [heq] at h2
  exact h2

/-! ### Folding first -/

/-- Lower-casing gives ASCII, or the typographic apostrophe, only of these themselves, of the capital i with a dot
and of the sign for kelvin. Go's `unicode.ToLower` is so. -/
def Unicode.LowersLikeGo (U : Unicode) : Prop :=
  ∀ r, U.toLower r < 0x80 ∨ U.toLower r = 0x2019 →
    r < 0x80 ∨ r = 0x2019 ∨ (r = 0x130 ∧ U.toLower r = 0x69) ∨ (r = 0x212A ∧ U.toLower r = 0x6B)

theorem base_typed : (contractionBase.all fun p => (apostrophes p.1).all fun a =>
    typed a == p.1 && (runes a).all fun r => r.blt 0x80 || r == 0x2019) = true := by decide +kernel

theorem longer_checked : (contractionMappings.all fun p => (runes p.1).length.blt p.2.length) = true := by
  decide +kernel

/-- Decoding what was encoded, with the replacement character for what is no character. -/
theorem runes_encodeRunes_any (rs : List Rune) :
    runes (encodeRunes rs) = rs.map fun r => if ValidRune r then r else runeError := by
  have he : encodeRunes rs = encodeRunes (rs.map fun r => if ValidRune r then r else runeError) := by
    simp only [encodeRunes, List.flatMap_map]
    congr 1
    funext r
    unfold encodeRune
    by_cases hv : ValidRune r
    · simp [hv]
    · simp [hv, validRune_runeError]
  rw [he, runes_encodeRunes]
  intro r hr
  obtain ⟨a, -, rfl⟩ := List.mem_map.mp hr
  split
  · assumption
  · exact validRune_runeError

theorem lower_fold {U : Unicode} (hU : U.LowersAscii) (hG : U.LowersLikeGo) {v : Bytes}
    (hv : ∀ r ∈ runes (U.lowerString v), r < 0x80 ∨ r = 0x2019) :
    U.lowerString (foldString v).1 = U.lowerString v ∨
      U.lowerString (foldString v).1 = typed (U.lowerString v) := by
  have hl : ∀ r ∈ runes v, U.toLower r < 0x80 ∨ U.toLower r = 0x2019 := by
    intro r hr
    have h1 : (if ValidRune (U.toLower r) then U.toLower r else runeError) ∈ runes (U.lowerString v) := by
      show _ ∈ runes (encodeRunes ((runes v).map U.toLower))
      rw [runes_encodeRunes_any, List.map_map]
      exact List.mem_map.2 ⟨r, hr, rfl⟩
    have h2 := hv _ h1
    split at h2
    · exact h2
    · exact absurd h2 (by decide)
  have hrl : runes (U.lowerString v) = (runes v).map U.toLower := by
    refine runes_encodeRunes fun r hr => ?_
    obtain ⟨a, ha, rfl⟩ := List.mem_map.1 hr
    exact typed_valid (hl a ha)
  rw [foldString_eq]
  split
  · right
    have hone : ∀ r ∈ runes v, ∃ q, folded r = [q] ∧ ValidRune q ∧ U.toLower q = typeR (U.toLower r) := by
      intro r hr
      have h1 := hl r hr
      rcases hG r h1 with h | rfl | ⟨rfl, h⟩ | ⟨rfl, h⟩
      · refine ⟨r, by simp [folded, equivalent_ascii h], typed_valid (.inl h), ?_⟩
        rw [hU.same r (.inl h)]
        unfold typeR asciiLower
        split <;> split <;> omega
      · refine ⟨0x27, by decide +kernel, by decide, ?_⟩
        rw [hU.same _ (.inr rfl), hU.same 0x27 (.inl (by decide))]
        decide
      · refine ⟨0x49, by decide +kernel, by decide, ?_⟩
        rw [h, hU.same 0x49 (.inl (by decide))]
        decide
      · exact ⟨0x212A, by decide +kernel, by decide, by rw [h]; decide⟩
    have hf : ∀ l : List Rune, (∀ r ∈ l, r ∈ runes v) →
        (∀ q ∈ l.flatMap folded, ValidRune q) ∧ (l.flatMap folded).map U.toLower = (l.map U.toLower).map typeR := by
      intro l
      induction l with
      | nil => exact fun _ => ⟨nofun, rfl⟩
      | cons r l ih =>
        intro h
        obtain ⟨q, h1, h2, h3⟩ := hone r (h r (by simp))
        obtain ⟨h4, h5⟩ := ih fun r hr => h r (by simp [hr])
        rw [List.flatMap_cons, h1]
        refine ⟨?_, by simp [h3, ← h5]⟩
        intro q' hq
        rcases List.mem_append.1 hq with hq | hq
        · rw [List.mem_singleton.1 hq]; exact h2
        · exact h4 q' hq
    obtain ⟨h1, h2⟩ := hf (runes v) fun _ h => h
    show encodeRunes ((runes (encodeRunes ((runes v).flatMap folded))).map U.toLower) = _
    rw [runes_encodeRunes h1, h2]
    unfold typed
    rw [hrl]
  · exact .inl rfl

/-- A token that is expanded is expanded when it is folded first, to the same but for capitals. -/
theorem fold_keeps {U : Unicode} (hU : U.LowersAscii) (hG : U.LowersLikeGo) {t : Token} {x : Bytes}
    (h : expansion? U contractionMappings t = some x) :
    ∃ y, expansion? U contractionMappings (foldToken U t) = some y ∧ U.lowerString y = U.lowerString x := by
  have hb : ∃ k z, (k, z) ∈ contractionBase ∧ U.lowerString t.value ∈ apostrophes k := by
    refine Classical.byContradiction fun hno => ?_
    have := (C24_any_case U hU t).2 fun k z hkz ha => hno ⟨k, z, hkz, ha⟩
    rw [this] at h
    cases h
  obtain ⟨k, z, hkz, ha⟩ := hb
  obtain ⟨x', hx', hz⟩ := (C24_any_case U hU t).1 k z hkz ha
  rw [h] at hx'
  cases hx'
  have hc := List.all_eq_true.1 (List.all_eq_true.1 base_typed _ hkz) _ ha
  simp only [Bool.and_eq_true, beq_iff_eq, List.all_eq_true, Bool.or_eq_true, Nat.blt_eq] at hc
  have hmem : U.lowerString (foldToken U t).value ∈ apostrophes k := by
    rw [foldToken_value]
    rcases lower_fold hU hG hc.2 with h1 | h1
    · rw [h1]; exact ha
    · rw [h1, hc.1]
      unfold apostrophes
      split <;> simp
  obtain ⟨y, hy, hz'⟩ := (C24_any_case U hU (foldToken U t)).1 k z hkz hmem
  exact ⟨y, hy, hz'.trans hz.symm⟩

/-- The number of characters of the tokens. -/
def characters (toks : List Token) : Nat := (toks.map fun t => (runes t.value).length).sum

theorem runes_lower_length (U : Unicode) (s : Bytes) : (runes (U.lowerString s)).length = (runes s).length := by
  show (runes (encodeRunes ((runes s).map U.toLower))).length = _
  rw [runes_encodeRunes_any]
  simp

theorem ascii_length {s : Bytes} (h : IsAscii s) : (runes s).length = s.length := by
  rw [runes_ascii h, List.length_map]

theorem characters_text {toks : List Token} (h : IsAscii (text toks)) : characters toks = (text toks).length := by
  induction toks with
  | nil => rfl
  | cons t ts ih =>
    rw [text_cons] at h
    rw [text_cons, List.length_append, ← ih fun b hb => h b (List.mem_append_right _ hb),
      ← ascii_length fun b hb => h b (List.mem_append_left _ hb)]
    simp [characters]

theorem expansion_longer {U : Unicode} {t : Token} {x : Bytes} (h : expansion? U contractionMappings t = some x) :
    (runes t.value).length < x.length := by
  have key : ∀ {k}, (k, x) ∈ contractionMappings → (runes k).length < x.length := fun hk => by
    have := List.all_eq_true.1 longer_checked _ hk
    simpa [Nat.blt_eq] using this
  unfold expansion? at h
  cases h0 : contractionMappings.lookup t.value with
  | some y => rw [h0] at h; cases h; exact key (lookup_mem h0)
  | none =>
    rw [h0] at h
    rw [← runes_lower_length U]
    exact key (lookup_mem h)

/-- Lists of non-empty tokens with as many characters, one the beginning of the other, are the same. -/
theorem same_front {a b c d : List Token} (h : a ++ c = b ++ d) (hm : characters a = characters b)
    (ha : ∀ t ∈ a, t.value ≠ []) (hb : ∀ t ∈ b, t.value ≠ []) : a = b ∧ c = d := by
  have pos : ∀ {t : Token}, t.value ≠ [] → 0 < (runes t.value).length := fun h =>
    List.length_pos_iff.2 fun h0 => h (runes_eq_nil.1 h0)
  induction a generalizing b with
  | nil =>
    cases b with
    | nil => exact ⟨rfl, h⟩
    | cons t b =>
      have := pos (hb t (by simp))
      simp only [characters, List.map_nil, List.sum_nil, List.map_cons, List.sum_cons] at hm
      omega
  | cons t a ih =>
    cases b with
    | nil =>
      have := pos (ha t (by simp))
      simp only [characters, List.map_nil, List.sum_nil, List.map_cons, List.sum_cons] at hm
      omega
    | cons u b =>
      simp only [List.cons_append, List.cons.injEq] at h
      obtain ⟨rfl, h⟩ := h
      simp only [characters, List.map_cons, List.sum_cons, Nat.add_left_cancel_iff] at hm
      obtain ⟨rfl, rfl⟩ := ih h hm (fun x hx => ha x (by simp [hx])) fun x hx => hb x (by simp [hx])
      exact ⟨rfl, rfl⟩

/-- **C120 (folding first).** No contraction is lost by folding first: what is expanded of a text is expanded of the
folded text too, to the same but for capitals. -/
theorem C120_folding_first {U : Unicode} (hU : U.LowersAscii) (hG : U.LowersLikeGo) {t : Token} {x : Bytes}
    (h : expansion? U contractionMappings t = some x) :
    ∃ y, expansion? U contractionMappings (foldToken U t) = some y ∧ U.lowerString y = U.lowerString x :=
  fold_keeps hU hG h

/-- **C120 (exactly).** The order makes no difference to a text exactly if every token of it has the same expansion,
or none, whether it is folded or not. -/
theorem C120_exact_partial {E : Env} (hE : E.Lawful) (hU : E.U.LowersAscii) (hG : E.U.LowersLikeGo)
    (hs : ∀ k x, (k, x) ∈ contractionMappings → (E.scan { data := x }).2 = none)
    {ts : TokenStream} {toks : List Token} {e : End} (h : ts.Yields toks e) :
    (∃ out, (foldThenExpand E ts).Yields out e ∧ (expandThenFold E ts).Yields out e) ↔
      ∀ t ∈ toks, expansion? E.U contractionMappings (foldToken E.U t) = expansion? E.U contractionMappings t := by
  have hm : GoodTable E contractionMappings := ⟨hs, fun k x hx => (C24_well_formed k x hx).1⟩
  have y1 := expandWith_yields hE hm (asciiFold_yields E.U h)
  have y2 := asciiFold_yields E.U (expandWith_yields hE hm h)
  rw [List.flatMap_map] at y1
  rw [List.map_flatMap] at y2
  have same : ∀ t, expansion? E.U contractionMappings (foldToken E.U t) = expansion? E.U contractionMappings t →
      expandToken E contractionMappings (foldToken E.U t) =
        (expandToken E contractionMappings t).map (foldToken E.U) := by
    intro t hx
    unfold expandToken
    rw [hx]
    cases hxt : expansion? E.U contractionMappings t with
    | none => rfl
    | some x =>
      obtain ⟨k, hk⟩ := expansion_mem hxt
      exact (fold_expansion hE hs hk).symm
  constructor
  · rintro ⟨out, h1, h2⟩
    have heq := (h1.unique y1).1.symm.trans (h2.unique y2).1
    clear h1 h2 y1 y2 h
    have chars : ∀ {t : Token} {x : Bytes}, expansion? E.U contractionMappings t = some x →
        characters (stringTokens E x) = x.length ∧ IsAscii x ∧ text (stringTokens E x) = x := by
      intro t x hx
      obtain ⟨k, hk⟩ := expansion_mem hx
      have ht := text_stringTokens hE (hs k x hk)
      refine ⟨?_, entry_ascii hk, ht⟩
      rw [characters_text (by rw [ht]; exact entry_ascii hk), ht]
    have le : ∀ t, characters ((expandToken E contractionMappings t).map (foldToken E.U)) ≤
        characters (expandToken E contractionMappings (foldToken E.U t)) ∧
        (characters ((expandToken E contractionMappings t).map (foldToken E.U)) =
          characters (expandToken E contractionMappings (foldToken E.U t)) →
          (expansion? E.U contractionMappings (foldToken E.U t) = none ↔
            expansion? E.U contractionMappings t = none)) := by
      intro t
      cases hxt : expansion? E.U contractionMappings t with
      | some x =>
        obtain ⟨y, hy, hyx⟩ := fold_keeps hU hG hxt
        obtain ⟨k, hk⟩ := expansion_mem hxt
        obtain ⟨c1, c2, -⟩ := chars hxt
        obtain ⟨c3, c4, -⟩ := chars hy
        have hlen : y.length = x.length := by
          rw [← ascii_length c2, ← ascii_length c4, ← runes_lower_length E.U y, hyx, runes_lower_length]
        have e1 : expandToken E contractionMappings t = stringTokens E x := by simp [expandToken, hxt]
        have e2 : expandToken E contractionMappings (foldToken E.U t) = stringTokens E y := by simp [expandToken, hy]
        rw [e1, e2, fold_expansion hE hs hk, c1, c3, hlen, hy]
        simp
      | none =>
        have e1 : expandToken E contractionMappings t = [t] := by simp [expandToken, hxt]
        cases hy : expansion? E.U contractionMappings (foldToken E.U t) with
        | none =>
          have e2 : expandToken E contractionMappings (foldToken E.U t) = [foldToken E.U t] := by simp [expandToken, hy]
          rw [e1, e2]
          simp
        | some y =>
          have e2 : expandToken E contractionMappings (foldToken E.U t) = stringTokens E y := by
            simp [expandToken, hy]
          have := expansion_longer hy
          rw [e1, e2, (chars hy).1]
          simp only [characters, List.map_cons, List.map_nil, List.sum_cons, List.sum_nil, Nat.add_zero]
          refine ⟨by omega, fun h => by omega⟩
    have app : ∀ a b : List Token, characters (a ++ b) = characters a + characters b := by
      intro a b; simp [characters]
    have sum_le : ∀ l : List Token,
        characters (l.flatMap fun t => (expandToken E contractionMappings t).map (foldToken E.U)) ≤
          characters (l.flatMap fun t => expandToken E contractionMappings (foldToken E.U t)) := by
      intro l
      induction l with
      | nil => exact Nat.le_refl _
      | cons t l ih =>
        rw [List.flatMap_cons, List.flatMap_cons, app, app]
        exact Nat.add_le_add (le t).1 ih
    induction toks with
    | nil => nofun
    | cons t l ih =>
      rw [List.flatMap_cons, List.flatMap_cons] at heq
      have hc := congrArg characters heq
      rw [app, app] at hc
      have h1 := (le t).1
      have h2 := sum_le l
      have hn := (le t).2 (by omega)
      have front : expandToken E contractionMappings (foldToken E.U t) =
          (expandToken E contractionMappings t).map (foldToken E.U) ∧
          (l.flatMap fun t => expandToken E contractionMappings (foldToken E.U t)) =
            l.flatMap fun t => (expandToken E contractionMappings t).map (foldToken E.U) := by
        cases hxt : expansion? E.U contractionMappings t with
        | none =>
          have hf := same t (by rw [hxt]; exact hn.2 hxt)
          rw [hf] at heq
          exact ⟨hf, List.append_cancel_left heq⟩
        | some x =>
          obtain ⟨y, hy, -⟩ := fold_keeps hU hG hxt
          obtain ⟨k, hk⟩ := expansion_mem hxt
          have e1 : expandToken E contractionMappings t = stringTokens E x := by simp [expandToken, hxt]
          have e2 : expandToken E contractionMappings (foldToken E.U t) = stringTokens E y := by simp [expandToken, hy]
          refine same_front heq (by omega) ?_ ?_
          · rw [e2]; exact stringTokens_nonempty hE y
          · rw [e1, fold_expansion hE hs hk]; exact stringTokens_nonempty hE x
      intro u hu
      rcases List.mem_cons.1 hu with rfl | hu
      · cases hxt : expansion? E.U contractionMappings u with
        | none => exact hn.2 hxt
        | some x =>
          obtain ⟨y, hy, -⟩ := fold_keeps hU hG hxt
          obtain ⟨k, hk⟩ := expansion_mem hxt
          have e1 : expandToken E contractionMappings u = stringTokens E x := by simp [expandToken, hxt]
          have e2 : expandToken E contractionMappings (foldToken E.U u) = stringTokens E y := by simp [expandToken, hy]
          have hf := front.1
          rw [e1, e2, fold_expansion hE hs hk] at hf
          rw [hy, ← (chars hy).2.2, hf, (chars hxt).2.2]
      · exact ih front.2 u hu
  · intro hall
    refine ⟨_, y1, ?_⟩
    rw [List.flatMap_congr fun t ht => same t (hall t ht)]
    exact y2

/-! ### The witness -/

private def w (s : String) : Token := mkToken asciiUnicode (str s) false

theorem asciiUnicode_lowersAscii : asciiUnicode.LowersAscii := by
  constructor
  · intro r hr
    show (if (decide (65 ≤ r) && decide (r ≤ 90)) = true then r + 32 else r) = _
    simp [asciiLower]
  · intro r
    show ¬ (65 ≤ (if (decide (65 ≤ r) && decide (r ≤ 90)) = true then r + 32 else r) ∧
      (if (decide (65 ≤ r) && decide (r ≤ 90)) = true then r + 32 else r) ≤ 90)
    split
    · simp_all; omega
    · simp_all

theorem asciiUnicode_likeGo : asciiUnicode.LowersLikeGo := by
  intro r h
  simp only [asciiUnicode] at h
  split at h
  · rename_i h1
    simp only [Bool.and_eq_true, decide_eq_true_eq] at h1
    exact .inl (by omega)
  · omega

/-- **C120 is violated.** "can‘t" with an opening quote is a contraction only when it is folded first. -/
theorem C120_violated : ¬ C120_full := by
  intro h
  obtain ⟨out, h1, h2⟩ := h sampleEnv sampleEnv_lawful asciiUnicode_lowersAscii (fun _ _ _ => rfl) _ _ _
    (listStream_yields [w "can‘t"] .eof)
  have := (C120_exact_partial sampleEnv_lawful asciiUnicode_lowersAscii asciiUnicode_likeGo (fun _ _ _ => rfl)
    (listStream_yields [w "can‘t"] .eof)).1 ⟨out, h1, h2⟩ (w "can‘t") (by simp)
  revert this
  decide +kernel

-- "don’t" is what the partial version asks for, and so is "café"
example : (w "don’t").Typed ∧ ¬ Contracted asciiUnicode (w "café").value ∧
    ¬ Contracted asciiUnicode (foldString (w "café").value).1 := by
  unfold Token.Typed Contracted
  decide +kernel

-- and "don’t" is expanded either way
example : expansion? asciiUnicode contractionMappings (w "Don’t") = some (str "Do not") ∧
    expansion? asciiUnicode contractionMappings (foldToken asciiUnicode (w "Don’t")) = some (str "Do not") := by
  decide +kernel

end Jargon
