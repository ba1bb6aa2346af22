import Verif.Proofs.Contractions

/-! C24, C25: the table of contractions. -/

namespace Jargon

/-! ### C24 -/

theorem mem_mappings {p : Bytes × Bytes} : p ∈ contractionMappings ↔
    ∃ r ∈ contractionRows, textOf r.1 = p.1 ∧ textOf r.2 = p.2 := by
  simp only [contractionMappings, tableOf, List.mem_map]
  constructor
  · rintro ⟨r, hr, rfl⟩; exact ⟨r, hr, rfl, rfl⟩
  · rintro ⟨r, hr, h1, h2⟩; exact ⟨r, hr, Prod.ext h1 h2⟩

theorem variants_perm : (contractionBase.flatMap variants).Perm contractionMappings := by
  refine (List.subperm_of_subset ?_ ?_).perm_of_length_le ?_
  · exact List.Nodup.of_map _ (nodup_of_codes variants_nodup)
  · intro p hp
    have := pairB_mem (List.all_eq_true.mp variants_shipped p hp)
    exact mem_mappings.mpr ⟨_, this, textOf_codeOf _, textOf_codeOf _⟩
  · rw [Nat.eq_of_beq_eq_true variants_length]
    simp [contractionMappings, tableOf]

theorem mappings_nodup : (contractionMappings.map (·.1)).Nodup :=
  (variants_perm.map _).nodup_iff.mp (nodup_of_codes variants_nodup)

theorem lookup_of_mem {m : StringMap} (hm : (m.map (·.1)).Nodup) {k x : Bytes} (h : (k, x) ∈ m) :
    m.lookup k = some x := by
  induction m with
  | nil => simp at h
  | cons p ps ih =>
    obtain ⟨a, b⟩ := p
    rw [List.map_cons, List.nodup_cons] at hm
    rw [List.lookup_cons]
    rcases List.mem_cons.mp h with h | hps
    · cases h; simp
    · have : k ≠ a := by
        rintro rfl
        exact hm.1 (List.mem_map.mpr ⟨_, hps, rfl⟩)
      simp only [beq_eq_false_iff_ne.mpr this]
      exact ih hm.2 hps

theorem lookup_perm {m m' : StringMap} (hm : (m.map (·.1)).Nodup) (h : m.Perm m') (k : Bytes) :
    m.lookup k = m'.lookup k := by
  have hm' := (h.map (·.1)).nodup_iff.mp hm
  cases h1 : m.lookup k with
  | some x => exact (lookup_of_mem hm' (h.subset (lookup_mem h1))).symm
  | none =>
    cases h2 : m'.lookup k with
    | none => rfl
    | some x => rw [lookup_of_mem hm (h.symm.subset (lookup_mem h2))] at h1; cases h1

/-- **C24 (the table is what the generator makes).** Whatever order Go iterates the base list in, the
generator reports no error and makes the shipped table: the same entries, each key once, so that every
lookup gives the same. -/
theorem C24_generated (M : CaseMaps) (hM : M.Right) (order : StringMap)
    (ho : order.Perm contractionBase) :
    ∃ m, getMappings M order = Go.ret (m, none) ∧ m.Perm contractionMappings ∧
      (m.map (·.1)).Nodup ∧ ∀ k, m.lookup k = contractionMappings.lookup k := by
  have hp : (order.flatMap variants).Perm contractionMappings :=
    (ho.flatMap_right _).trans variants_perm
  have hn : ((order.flatMap variants).map (·.1)).Nodup := (hp.map _).nodup_iff.mpr mappings_nodup
  have hr : ((order.flatMap variants).reverse).Perm contractionMappings := (List.reverse_perm _).trans hp
  have hrn : ((order.flatMap variants).reverse.map (·.1)).Nodup := (hr.map _).nodup_iff.mpr mappings_nodup
  refine ⟨(order.flatMap variants).reverse, ?_, hr, hrn, fun k => lookup_perm hrn hr k⟩
  have := addContractions_ok hM order ?_ [] (by simpa using hn)
  · simpa [getMappings] using this
  · intro p hpo
    have := List.all_eq_true.mp base_checked p (ho.subset hpo)
    simp only [baseB, Bool.and_eq_true, List.all_eq_true] at this
    exact ⟨fun a ha => (this.1 a ha).1, this.2.1⟩

/-- Case maps that are right. -/
def asciiMaps : CaseMaps := ⟨asciiLower, asciiUpper⟩

example : asciiMaps.Right := ⟨fun _ _ => rfl, fun _ _ => rfl⟩

instance {α : Type} [DecidableEq α] : DecidableEq (Go α) :=
  inferInstanceAs (DecidableEq (Option (Except Panic α)))

-- the generator does report a contraction that is listed twice, with its capital
example : getMappings asciiMaps [(str "it's", str "it is"), (str "It's", str "it has")] =
    Go.ret ([(str "IT’S", str "IT IS"), (str "It’s", str "It is"), (str "it’s", str "it is"),
      (str "IT'S", str "IT IS"), (str "It's", str "It is"), (str "it's", str "it is")],
      some (str "it's")) := by
  decide +kernel

/-- **C24 (every entry).** Key and expansion are written in the same style and start with the same
letter; the expansion is not empty and has no apostrophe. -/
theorem C24_well_formed : ∀ k x, (k, x) ∈ contractionMappings →
    x ≠ [] ∧ (∀ r ∈ runes x, ¬ isApostrophe r) ∧ k.head? = x.head? ∧
    ∃ st : Style, st.Has k ∧ st.Has x := by
  intro k x h
  have h := List.all_eq_true.mp entries_checked _ h
  simp only [entryB, Bool.and_eq_true, List.any_eq_true, decide_eq_true_eq, beq_iff_eq] at h
  obtain ⟨⟨⟨⟨⟨h1, h2⟩, h3⟩, h4⟩, st, -, hk, hx⟩, h6⟩ := h
  have hasc : IsAscii x := by
    intro b hb
    have := List.all_eq_true.mp h3 b hb
    simp only [Bool.and_eq_true, Nat.blt_eq] at this
    exact this.1
  refine ⟨?_, ?_, h4, st, hk, hx⟩
  · rintro rfl; simp [simpleText] at h2
  · intro r hr hap
    rw [runes_ascii hasc, List.mem_map] at hr
    obtain ⟨b, hb, rfl⟩ := hr
    have := List.all_eq_true.mp h3 b hb
    simp only [Bool.and_eq_true, Nat.blt_eq, bne_iff_ne, ne_eq] at this
    rcases hap with h | h
    · exact this.2 (UInt8.toNat_inj.mp h)
    · omega

example : (str "SHE’D", str "SHE WOULD") ∈ contractionMappings ∧
    (str "can't", str "can not") ∈ contractionMappings := by
  refine ⟨mem_mappings.mpr ⟨(n!"SHE’D", n!"SHE WOULD"), pairB_mem ?_, ?_, ?_⟩,
    mem_mappings.mpr ⟨(n!"can't", n!"can not"), pairB_mem ?_, ?_, ?_⟩⟩ <;> decide +kernel

theorem lowerString_simple {U : Unicode} (hU : ∀ r, r < 0x80 ∨ r = 0x2019 → U.toLower r = asciiLower r)
    {s : Bytes} (h : simpleText s = true) : U.lowerString s = mapString asciiLower s :=
  mapString_congr fun r hr => hU r (simpleText_runes h r hr)

theorem runes_encodeRunes_mem {rs : List Nat} {r : Nat} (h : r ∈ runes (encodeRunes rs)) :
    r ∈ rs ∨ r = runeError := by
  have he : encodeRunes rs = encodeRunes (rs.map fun r => if ValidRune r then r else runeError) := by
    simp only [encodeRunes, List.flatMap_map]
    congr 1
    funext r
    unfold encodeRune
    by_cases hv : ValidRune r
    · simp [hv]
    · simp [hv, validRune_runeError]
  rw [he, runes_encodeRunes, List.mem_map] at h
  · obtain ⟨a, ha, rfl⟩ := h
    by_cases hv : ValidRune a
    · exact Or.inl (by simpa [hv] using ha)
    · exact Or.inr (by simp [hv])
  · intro r hr
    obtain ⟨a, -, rfl⟩ := List.mem_map.mp hr
    split
    · assumption
    · exact validRune_runeError

theorem mapString_self {s : Bytes}
    (hc : ∀ r ∈ runes s, ¬ (0x41 ≤ r ∧ r ≤ 0x5A)) (he : encodeRunes (runes s) = s) :
    mapString asciiLower s = s := by
  unfold mapString
  have : (runes s).map asciiLower = runes s := by
    conv_rhs => rw [← List.map_id (runes s)]
    exact List.map_congr_left fun r hr => by simp [asciiLower, hc r hr]
  rw [this, he]

theorem mem_baseCodes {c : Nat × Nat} : c ∈ baseCodes ↔
    ∃ k x, (k, x) ∈ contractionBase ∧ ∃ a ∈ apostrophes k, c = (codeOf a, codeOf x) := by
  simp only [baseCodes, List.mem_flatMap, List.mem_map, Prod.exists]
  constructor
  · rintro ⟨k, x, h, a, ha, rfl⟩; exact ⟨k, x, h, a, ha, rfl⟩
  · rintro ⟨k, x, h, a, ha, rfl⟩; exact ⟨k, x, h, a, ha, rfl⟩

theorem base_unique {k x k' x' a : Bytes} (h : (k, x) ∈ contractionBase) (ha : a ∈ apostrophes k)
    (h' : (k', x') ∈ contractionBase) (ha' : a ∈ apostrophes k') : x = x' := by
  have h1 := mem_baseCodes.mpr ⟨k, x, h, a, ha, rfl⟩
  have h2 := mem_baseCodes.mpr ⟨k', x', h', a, ha', rfl⟩
  have := List.inj_on_of_nodup_map (nodupB_nodup baseCodes_nodup) h1 h2 rfl
  have h3 := congrArg (fun c : Nat × Nat => textOf c.2) this
  simpa [textOf_codeOf] using h3

/-- An entry of the shipped table, in lower case, is an entry of the base list. -/
theorem entry_base {k x : Bytes} (h : (k, x) ∈ contractionMappings) :
    ∃ k' x', (k', x') ∈ contractionBase ∧ mapString asciiLower k ∈ apostrophes k' ∧
      mapString asciiLower x = x' := by
  have h := List.all_eq_true.mp entries_checked _ h
  simp only [entryB, Bool.and_eq_true] at h
  obtain ⟨k', x', hb, a, ha, hc⟩ := mem_baseCodes.mp (pairB_mem h.2)
  have h1 := congrArg (fun c : Nat × Nat => textOf c.1) hc
  have h2 := congrArg (fun c : Nat × Nat => textOf c.2) hc
  simp only [textOf_codeOf] at h1 h2
  exact ⟨k', x', hb, h1 ▸ ha, h2⟩

theorem entry_simple {k x : Bytes} (h : (k, x) ∈ contractionMappings) :
    simpleText k = true ∧ simpleText x = true := by
  have h := List.all_eq_true.mp entries_checked _ h
  simp only [entryB, Bool.and_eq_true] at h
  exact ⟨h.1.1.1.1.1, h.1.1.1.1.2⟩

theorem lowerString_no_capital {U : Unicode} (hU : U.LowersAscii) (s : Bytes) :
    ∀ r ∈ runes (U.lowerString s), ¬ (0x41 ≤ r ∧ r ≤ 0x5A) := by
  intro r hr
  rcases runes_encodeRunes_mem hr with h | rfl
  · obtain ⟨a, -, rfl⟩ := List.mem_map.mp h
    exact hU.never a
  · decide

theorem encodeRunes_runes_encodeRunes (rs : List Nat) :
    encodeRunes (runes (encodeRunes rs)) = encodeRunes rs := by
  have he : encodeRunes rs = encodeRunes (rs.map fun r => if ValidRune r then r else runeError) := by
    simp only [encodeRunes, List.flatMap_map]
    congr 1
    funext r
    unfold encodeRune
    by_cases hv : ValidRune r
    · simp [hv]
    · simp [hv, validRune_runeError]
  rw [he, runes_encodeRunes]
  intro r hr
  obtain ⟨a, -, rfl⟩ := List.mem_map.mp hr
  split
  · assumption
  · exact validRune_runeError

/-- **C24 (every way of writing it).** A token is expanded exactly if its lower case is one of the base
contractions, with either apostrophe — however its letters are capitalised — and then the lower case
of what it becomes is the expansion in the base list. -/
theorem C24_any_case (U : Unicode) (hU : U.LowersAscii) (t : Token) :
    (∀ k x, (k, x) ∈ contractionBase → U.lowerString t.value ∈ apostrophes k →
      ∃ y, expansion? U contractionMappings t = some y ∧ U.lowerString y = x) ∧
    ((∀ k x, (k, x) ∈ contractionBase → U.lowerString t.value ∉ apostrophes k) →
      expansion? U contractionMappings t = none) := by
  have hexact : ∀ v y, contractionMappings.lookup v = some y → ∃ k x, (k, x) ∈ contractionBase ∧
      U.lowerString v ∈ apostrophes k ∧ U.lowerString y = x := by
    intro v y h
    have hm := lookup_mem h
    obtain ⟨hv, hy⟩ := entry_simple hm
    obtain ⟨k, x, hb, ha, hx⟩ := entry_base hm
    exact ⟨k, x, hb, by rwa [lowerString_simple hU.same hv], by rwa [lowerString_simple hU.same hy]⟩
  constructor
  · intro k x hb ha
    unfold expansion?
    cases h : contractionMappings.lookup t.value with
    | some y =>
      obtain ⟨k', x', hb', ha', hx'⟩ := hexact _ _ h
      exact ⟨y, rfl, by rw [hx']; exact base_unique hb' ha' hb ha⟩
    | none =>
      simp only
      have hs := List.all_eq_true.mp base_checked _ hb
      simp only [baseB, Bool.and_eq_true, List.all_eq_true, beq_iff_eq] at hs
      have hv : (mapString asciiLower (U.lowerString t.value), mapString asciiLower x) ∈
          contractionBase.flatMap variants :=
        List.mem_flatMap.mpr ⟨(k, x), hb, List.mem_flatMap.mpr ⟨_, ha, by simp⟩⟩
      rw [(hs.1 _ ha).2, hs.2.2] at hv
      refine ⟨x, lookup_of_mem mappings_nodup (variants_perm.subset hv), ?_⟩
      rw [lowerString_simple hU.same hs.2.1, hs.2.2]
  · intro hno
    unfold expansion?
    cases h : contractionMappings.lookup t.value with
    | some y =>
      obtain ⟨k, x, hb, ha, -⟩ := hexact _ _ h
      exact absurd ha (hno k x hb)
    | none =>
      simp only
      cases h' : contractionMappings.lookup (U.lowerString t.value) with
      | none => rfl
      | some y =>
        obtain ⟨k, x, hb, ha, -⟩ := hexact _ _ h'
        have hsim := (entry_simple (lookup_mem h')).1
        rw [lowerString_simple hU.same hsim, mapString_self (lowerString_no_capital hU _)
          (encodeRunes_runes_encodeRunes _)] at ha
        exact absurd ha (hno k x hb)

example : asciiUnicode.LowersAscii := by
  constructor
  · intro r hr
    show (if (decide (65 ≤ r) && decide (r ≤ 90)) = true then r + 32 else r) = _
    simp [asciiLower]
  · intro r
    show ¬ (65 ≤ (if (decide (65 ≤ r) && decide (r ≤ 90)) = true then r + 32 else r) ∧
      (if (decide (65 ≤ r) && decide (r ≤ 90)) = true then r + 32 else r) ≤ 90)
    split
    · simp_all; omega
    · simp_all

-- "dOn’T" is expanded, "dont" is not
example : expansion? asciiUnicode contractionMappings ⟨str "dOn’T", false, false, false⟩ =
      some (str "do not") ∧
    expansion? asciiUnicode contractionMappings ⟨str "dont", false, false, false⟩ = none := by
  decide +kernel

/-! ### C25 -/

/-- No part of an expansion is a contraction. -/
theorem part_not_expanded {U : Unicode} (hU : ∀ r, r < 0x80 ∨ r = 0x2019 → U.toLower r = asciiLower r)
    {k x : Bytes} (h : (k, x) ∈ contractionMappings) {t : Token} (ht : t.value <:+: x) :
    expansion? U contractionMappings t = none := by
  have he := List.all_eq_true.mp entries_checked _ h
  simp only [entryB, Bool.and_eq_true] at he
  have h3 := he.1.1.1.2
  have hx : ∀ b ∈ x, b.toNat < 0x80 ∧ b ≠ 0x27 := by
    intro b hb
    have := List.all_eq_true.mp h3 b hb
    simpa [Nat.blt_eq] using this
  have hasc : IsAscii t.value := fun b hb => (hx b (ht.subset hb)).1
  have hascx : IsAscii x := fun b hb => (hx b hb).1
  obtain ⟨r, hr, -, rfl⟩ := mem_mappings.mp h
  -- a key that is part of `x` or of its lower case cannot be
  have hno : ∀ v : Bytes, (∀ b ∈ v, b.toNat < 0x80 ∧ b ≠ 0x27) →
      (v.map UInt8.toNat <:+: natsOf r.2 ∨ v.map UInt8.toNat <:+: (natsOf r.2).map asciiLower) →
      contractionMappings.lookup v = none := by
    intro v hv hin
    cases hl : contractionMappings.lookup v with
    | none => rfl
    | some y =>
      exfalso
      obtain ⟨r', hr', rfl, -⟩ := mem_mappings.mp (lookup_mem hl)
      have := List.all_eq_true.mp absent_checked r' hr'
      simp only [absentB, Bool.or_eq_true, List.all_eq_true, Bool.and_eq_true, Bool.not_eq_true'] at this
      rw [textOf_toNat] at hin
      rcases this with (h27 | hE2) | hall
      · rw [memB_iff, ← textOf_toNat, List.mem_map] at h27
        obtain ⟨b, hb, he⟩ := h27
        exact (hv b hb).2 (UInt8.toNat_inj.mp he)
      · rw [memB_iff, ← textOf_toNat, List.mem_map] at hE2
        obtain ⟨b, hb, he⟩ := hE2
        have := (hv b hb).1
        omega
      · obtain ⟨h1, h2⟩ := hall r hr
        rcases hin with hin | hin
        · rw [infixN_of hin] at h1; cases h1
        · rw [infixN_of hin] at h2; cases h2
  have hlow : U.lowerString t.value = t.value.map fun b => UInt8.ofNat (asciiLower b.toNat) := by
    unfold Unicode.lowerString
    rw [runes_ascii hasc, List.map_map, encodeRunes, List.flatMap_map, List.map_eq_flatMap]
    refine List.flatMap_congr fun b hb => ?_
    have hb := hasc b hb
    have : asciiLower b.toNat < 0x80 := by unfold asciiLower; split <;> omega
    simp only [Function.comp]
    rw [hU _ (Or.inl hb), encodeRune_ascii this]
  unfold expansion?
  rw [hno t.value (fun b hb => hx b (ht.subset hb)) (Or.inl ?_)]
  · simp only
    rw [hlow]
    apply hno
    · intro b hb
      obtain ⟨a, ha, rfl⟩ := List.mem_map.mp hb
      obtain ⟨h1, h2⟩ := hx a (ht.subset ha)
      have h2' : a.toNat ≠ 0x27 := fun h => h2 (UInt8.toNat_inj.mp h)
      have hlt : asciiLower a.toNat < 0x80 := by unfold asciiLower; split <;> omega
      have hne : asciiLower a.toNat ≠ 0x27 := by unfold asciiLower; split <;> omega
      rw [toNat_ofNat (by omega)]
      refine ⟨hlt, fun h => hne ?_⟩
      have := congrArg UInt8.toNat h
      rwa [toNat_ofNat (by omega)] at this
    · right
      rw [← textOf_toNat, List.map_map, List.map_map]
      have : t.value.map (UInt8.toNat ∘ fun b => UInt8.ofNat (asciiLower b.toNat)) =
          t.value.map (asciiLower ∘ UInt8.toNat) := by
        refine List.map_congr_left fun b hb => ?_
        have hb := hasc b hb
        have hlt : asciiLower b.toNat < 0x80 := by unfold asciiLower; split <;> omega
        simp only [Function.comp]
        rw [toNat_ofNat (by omega)]
      rw [this]
      exact ht.map _
  · rw [← textOf_toNat]
    exact ht.map _

/-- **C25.** Expanding contractions twice is expanding once. -/
theorem C25_expand_idempotent {ts : TokenStream} {toks : List Token} {e : End} (E : Env)
    (hE : E.Lawful) (hU : ∀ r, r < 0x80 ∨ r = 0x2019 → E.U.toLower r = asciiLower r)
    (hs : ∀ k x, (k, x) ∈ contractionMappings → (E.scan { data := x }).2 = none)
    (h : ts.Yields toks e) :
    ∃ out, (expand E ts).Yields out e ∧ (expand E (expand E ts)).Yields out e := by
  have hm : GoodTable E contractionMappings :=
    ⟨hs, fun k x hx => (C24_well_formed k x hx).1⟩
  refine ⟨_, expandWith_yields hE hm h, ?_⟩
  have h2 := expandWith_yields hE hm (expandWith_yields hE hm h)
  have heq : (toks.flatMap (expandToken E contractionMappings)).flatMap
      (expandToken E contractionMappings) = toks.flatMap (expandToken E contractionMappings) := by
    rw [List.flatMap_assoc]
    refine List.flatMap_congr fun t _ => ?_
    cases hx : expansion? E.U contractionMappings t with
    | none =>
      have : expandToken E contractionMappings t = [t] := by simp [expandToken, hx]
      rw [this]; simp [this]
    | some x =>
      have hxt : expandToken E contractionMappings t = stringTokens E x := by simp [expandToken, hx]
      rw [hxt]
      obtain ⟨k, hk⟩ : ∃ k, (k, x) ∈ contractionMappings := by
        unfold expansion? at hx
        cases h0 : contractionMappings.lookup t.value with
        | some y => rw [h0] at hx; cases hx; exact ⟨_, lookup_mem h0⟩
        | none => rw [h0] at hx; exact ⟨_, lookup_mem hx⟩
      have hpart : ∀ t' ∈ stringTokens E x, expandToken E contractionMappings t' = [t'] := by
        intro t' ht'
        have hin : t'.value <:+: x := by
          obtain ⟨a, b, hab⟩ := List.append_of_mem ht'
          refine ⟨text a, text b, ?_⟩
          have := text_stringTokens hE (hs k x hk)
          rw [hab] at this
          simpa [text] using this
        simp [expandToken, part_not_expanded hU hk hin]
      rw [List.flatMap_congr hpart]
      simp
  rw [heq] at h2
  exact h2

example : ∀ k x, (k, x) ∈ contractionMappings → (sampleEnv.scan { data := x }).2 = none :=
  fun _ _ _ => rfl

end Jargon
