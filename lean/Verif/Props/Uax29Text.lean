import Verif.Props.Uax29
import Verif.Proofs.WordLocal
import Verif.Props.Simple
import Verif.Props.Sigil

/-! C77: contractions in running text. C78: handles and hashtags in running text. -/

namespace Jargon

section
variable {E : Env} {cls : WordTable}

/-- The tokens of a text with a word that is set off. -/
theorem stringTokens_between (hF : E.FollowsUax29 cls) (hR : cls.Right) {a k b : Bytes} (ha : SetOffBefore a)
    (hb : SetOffAfter b) (hlen : Fits cls (a ++ k ++ b)) {k0 k1 : Rune}
    (h0 : (runes k).head? = some k0) (h0' : (cls k0).1.plain = true) (h1 : (runes k).getLast? = some k1)
    (h1' : (cls k1).1.plain = true ∨ (cls k1).1 = .other) :
    stringTokens E (a ++ k ++ b) = stringTokens E a ++ stringTokens E k ++ stringTokens E b := by
  obtain ⟨fa, fk, fb⟩ := hlen.between hR ha hb h0 h0' h1 h1'
  simp only [stringTokens, segTokens]
  rw [hF _ hlen, hF a fa, hF k fk, hF b fb,
    wordSegs_between hR ha hb h0 h0' h1 h1']
  simp

/-- A text whose runes are one word is one token. -/
theorem stringTokens_one (hF : E.FollowsUax29 cls) {k : Bytes} (hlen : Fits cls k)
    (hk : cutWords cls [] (runes k) = [runes k]) : stringTokens E k = [mkToken E.U k false] := by
  have h1 := wordSegs_runes cls k
  have h2 := wordSegs_flatten cls k
  rw [hk] at h1
  obtain ⟨g, hg⟩ : ∃ g, wordSegs cls k = [g] := by
    cases hw : wordSegs cls k with
    | nil => rw [hw] at h1; cases h1
    | cons g gs =>
      cases gs with
      | nil => exact ⟨g, rfl⟩
      | cons => rw [hw] at h1; simp at h1
  rw [hg] at h2
  simp only [List.flatten_cons, List.flatten_nil, List.append_nil] at h2
  rw [stringTokens, hF k hlen, hg, h2]
  rfl

end

/-! ### C77 -/

/-- What is checked of a contraction: known characters, starting and ending with a letter, and one word. -/
def keyB (k : List Nat) : Bool :=
  k.all (fun r => r < 0x180 && r != 0x3A || r == 0x2019) && decide (cutWords uaxTable [] k = [k]) &&
    (k.head?.any fun r => r < 0x180 && r != 0x3A && (uaxTable r).1.plain) &&
    (k.getLast?.any fun r => r < 0x180 && r != 0x3A && (uaxTable r).1.plain)

theorem contractions_words :
    contractionRows.all (fun row => keyB (runesB row.1) && Nat.ble (natsOf row.1).length 100) = true := by
  decide +kernel

theorem uax_agrees {cls : WordTable} (hR : cls.Right) {r : Rune}
    (h : (r < 0x180 && r != 0x3A || r == 0x2019) = true) : cls r = uaxTable r := by
  simp only [Bool.or_eq_true, Bool.and_eq_true, decide_eq_true_eq, bne_iff_ne, ne_eq, beq_iff_eq] at h
  rcases h with ⟨h1, h2⟩ | rfl
  · rw [hR.latin r h1 h2]; exact (if_pos h1).symm
  · rw [hR.apostrophe]; decide

theorem contraction_word {cls : WordTable} (hR : cls.Right) {k x : Bytes} (hm : (k, x) ∈ contractionMappings) :
    k.length < 0x10000 ∧ cutWords cls [] (runes k) = [runes k] ∧
    (∃ r, (runes k).head? = some r ∧ (cls r).1.plain = true) ∧
    ∃ r, (runes k).getLast? = some r ∧ (cls r).1.plain = true := by
  obtain ⟨row, hrow, rfl, rfl⟩ := mem_mappings.mp hm
  have := List.all_eq_true.mp contractions_words row hrow
  simp only [keyB, runesB_eq, Bool.and_eq_true, Nat.ble_eq, List.all_eq_true, Option.any_eq_true] at this
  obtain ⟨⟨⟨⟨h1, h2⟩, r, hr, h3⟩, r', hr', h4⟩, h5⟩ := this
  refine ⟨?_, ?_, ⟨r, hr, ?_⟩, r', hr', ?_⟩
  · rw [← textOf_toNat, List.length_map] at h5; omega
  · rw [cutWords_congr fun a ha => uax_agrees hR (h1 a ha)]
    exact of_decide_eq_true h2
  · rw [uax_agrees hR (by rw [Bool.or_eq_true, Bool.and_eq_true]; exact Or.inl h3.1)]; exact h3.2
  · rw [uax_agrees hR (by rw [Bool.or_eq_true, Bool.and_eq_true]; exact Or.inl h4.1)]; exact h4.2

/-- **C77.** With the word rules of UAX #29, every contraction of the table is expanded wherever it stands
in a text, set off by separators, quotation marks or stops: the text before it and the text after it become
what they would become on their own, and the contraction becomes the tokens of its expansion. -/
theorem C77_in_text {E : Env} {cls : WordTable} (hE : E.Lawful) (hF : E.FollowsUax29 cls) (hR : cls.Right)
    {k x a b : Bytes} (hm : (k, x) ∈ contractionMappings) (ha : SetOffBefore a) (hb : SetOffAfter b)
    (hlen : Fits cls (a ++ k ++ b)) {A X B : List Token}
    (hA : (expand E (tokenizeString E a)).Yields A .eof) (hX : (tokenizeString E x).Yields X .eof)
    (hB : (expand E (tokenizeString E b)).Yields B .eof) :
    (expand E (tokenizeString E (a ++ k ++ b))).Yields (A ++ X ++ B) .eof := by
  obtain ⟨h1, h2, ⟨r, hr, h3⟩, r', hr', h4⟩ := contraction_word hR hm
  have hg := (C76_scanner_laws hF hR).2.2.2
  have scan : ∀ s : Bytes, Fits cls s → (E.scan { data := s }).2 = none :=
    fun s hs => by rw [hF s hs]
  have run : ∀ s : Bytes, Fits cls s → (expand E (tokenizeString E s)).Yields
      ((stringTokens E s).flatMap (expandToken E contractionMappings)) .eof :=
    fun s hs => expandWith_yields hE hg (stringTokens_yields hE (scan s hs))
  obtain ⟨fa, -, fb⟩ := hlen.between hR ha hb hr h3 hr' (.inl h4)
  have eA := (hA.unique (run a fa)).1
  have eB := (hB.unique (run b fb)).1
  have eX := (hX.unique (stringTokens_yields hE (hg.scans k x hm))).1
  have := run (a ++ k ++ b) hlen
  rw [stringTokens_between hF hR ha hb hlen hr h3 hr' (.inl h4), stringTokens_one hF (.inl h1) h2, List.flatMap_append,
    List.flatMap_append, ← eA, ← eB, List.flatMap_singleton] at this
  have he : expandToken E contractionMappings (mkToken E.U k false) = X := by
    have hl : contractionMappings.lookup k = some x := lookup_of_mem mappings_nodup hm
    rw [expandToken, expansion?]
    show (match (match contractionMappings.lookup k with
      | some x => some x
      | none => contractionMappings.lookup (E.U.lowerString k)) with
      | some x => stringTokens E x
      | none => [mkToken E.U k false]) = X
    rw [hl, eX]
  rwa [he] at this

/-- Non-vacuity: such places in a text. -/
example : SetOffBefore (str "He said: \"") ∧ SetOffAfter (str ".\" and left") ∧ SetOffBefore [] ∧
    SetOffAfter (str ", ") ∧ SetOffBefore (str "(") := by
  refine ⟨⟨str "He said: ", str "\"", by decide +kernel, by decide +kernel,
      Or.inr ⟨str "He said:", 0x20, by decide +kernel, by decide +kernel⟩⟩,
    ⟨str ".\"", str " and left", by decide +kernel, by decide +kernel,
      Or.inr ⟨0x20, str "and left", by decide +kernel, by decide +kernel⟩⟩,
    ⟨[], [], rfl, by simp, Or.inl rfl⟩,
    ⟨str ",", str " ", by decide +kernel, by decide +kernel, Or.inr ⟨0x20, [], by decide +kernel, by decide +kernel⟩⟩,
    ⟨str "(", [], by simp, by simp, Or.inr ⟨[], 0x28, by decide +kernel, by decide +kernel⟩⟩⟩

/-! ### C78 -/

section
variable {E : Env} {cls : WordTable}

/-- Cut before a character that no rule mentions. -/
theorem wordSegs_before_sigil (a : Bytes) {c : UInt8} (hc : c.toNat < 0x80)
    (hi : cls c.toNat = (.other, false)) (t : Bytes) :
    wordSegs cls (a ++ c :: t) = wordSegs cls a ++ wordSegs cls (c :: t) := by
  have hr : runeBytes (a ++ c :: t) = runeBytes a ++ runeBytes (c :: t) := by
    rw [runeBytes_append_ascii a hc, runeBytes_ascii_cons hc]
  rcases last_cases (runes a) with h | ⟨z, l, h⟩
  · have : a = [] := by
      cases a with
      | nil => rfl
      | cons x y => rw [runes_cons] at h; cases h
    rw [this]; simp [wordSegs, cutWords]
  · refine wordSegs_apart hr (a := l) (b := c.toNat) (by rw [h]; simp) (by rw [runes_ascii_cons hc]; rfl) ?_
    rw [hi]
    exact .right rfl rfl (by simp) (by simp)

/-- Cut between such a character and a word. -/
theorem wordSegs_after_sigil {c : UInt8} (hc : c.toNat < 0x80)
    (hi : cls c.toNat = (.other, false)) {t : Bytes} {r : Rune} (hr : (runes t).head? = some r)
    (hp : (cls r).1.plain = true) : wordSegs cls (c :: t) = [c] :: wordSegs cls t := by
  have h := wordSegs_apart (cls := cls) (s := [c]) (t := t) (a := c.toNat) (b := r)
    (by rw [List.singleton_append, runeBytes_ascii_cons hc, runeBytes_ascii_cons hc]; rfl)
    (by rw [runes_ascii_cons hc]; rfl) hr (.left (by rw [hi]; rfl) (.inl hp))
  have h1 : wordSegs cls [c] = [[c]] := by
    rw [wordSegs, runeBytes_ascii_cons hc]; rfl
  rw [List.singleton_append, h1, List.singleton_append] at h
  exact h

/-- The tokens of a text with a sigil and a word of letters, digits and low lines. -/
theorem stringTokens_sigil (hF : E.FollowsUax29 cls) (hR : cls.Right) {a h b : Bytes} {c : UInt8}
    (hc : c.toNat < 0x80) (hi : cls c.toNat = (.other, false)) (hne : h ≠ [])
    (hh : ∀ r ∈ runes h, (cls r).1.plain = true) (hb : SetOffAfter b)
    (hlen : Fits cls (a ++ c :: (h ++ b))) :
    Fits cls a ∧ stringTokens E (a ++ c :: (h ++ b)) =
      stringTokens E a ++ mkToken E.U [c] false :: mkToken E.U h false :: stringTokens E b := by
  have hrne : runes h ≠ [] := by
    cases h with
    | nil => exact absurd rfl hne
    | cons x y => rw [runes_cons]; simp
  obtain ⟨k0, K0, hk0⟩ := List.exists_cons_of_ne_nil hrne
  obtain ⟨K1, k1, hk1⟩ := (last_cases (runes h)).resolve_left hrne
  have h0 := hh k0 (by rw [hk0]; simp)
  have h1 := hh k1 (by rw [hk1]; simp)
  have hbet := wordSegs_between hR (a := []) (k := h) ⟨[], [], rfl, by simp, Or.inl rfl⟩ hb
    (by rw [hk0]; rfl) h0 (by rw [hk1]; simp) (.inl h1)
  have hnil : wordSegs cls [] = [] := rfl
  rw [hnil, List.nil_append, List.nil_append] at hbet
  have hhead : (runes (h ++ b)).head? = some k0 := by
    have e : runeBytes (h ++ b) = runeBytes h ++ runeBytes b := by
      obtain ⟨Q, B, rfl, hQ, hB⟩ := hb
      refine runeBytes_before ?_ h
      cases hq : Q with
      | nil =>
        rcases hB with h' | ⟨x, z, h', hx⟩
        · exact Or.inl (by simp [h'])
        · exact Or.inr ⟨x, z, by simp [h'], (Right.inert hR hx).1⟩
      | cons x q => exact Or.inr ⟨x, q ++ B, rfl, (Right.mark hR (hQ x (by rw [hq]; simp))).1⟩
    rw [← runeBytes_fst, e, List.map_append, runeBytes_fst, hk0]
    rfl
  have hseg : wordSegs cls (a ++ c :: (h ++ b)) = wordSegs cls a ++ [c] :: (wordSegs cls h ++ wordSegs cls b) := by
    rw [wordSegs_before_sigil a hc hi, wordSegs_after_sigil hc hi hhead h0, hbet]
  have fa : Fits cls a := hlen.part (by simp) (by rw [hseg]; exact (List.prefix_append _ _).isInfix)
  have fh : Fits cls h := hlen.part (by simp only [List.length_append, List.length_cons]; omega) (by
    rw [hseg]; exact ⟨wordSegs cls a ++ [[c]], wordSegs cls b, by simp⟩)
  have fb : Fits cls b := hlen.part (by simp only [List.length_append, List.length_cons]; omega) (by
    rw [hseg]; exact ⟨wordSegs cls a ++ [c] :: wordSegs cls h, [], by simp⟩)
  have hone := stringTokens_one hF (k := h) fh (cutWords_plain hrne hh [])
  refine ⟨fa, ?_⟩
  simp only [stringTokens, segTokens] at hone ⊢
  rw [hF h fh] at hone
  rw [hF _ hlen, hF a fa, hF b fb, hseg]
  simp only [List.map_append, List.map_cons]
  simp only at hone
  rw [hone]
  rfl

end

theorem handleChars_plain : ∀ r ∈ handleChars, r < 0x80 ∧ r ≠ 0x3A ∧ (latinWB r).1.plain = true := by
  decide +kernel

/-- The claim for handles in full: in a text whose words are the ones of UAX #29, a handle at the start or
after a space, followed by anything that cannot be part of it, is one token. -/
def C78_full (E : Env) (cls : WordTable) (a h b : Bytes) : Prop :=
  (∀ c ∈ a, c ≠ 0x40) → (a = [] ∨ ∃ x, a = x ++ [0x20]) → h ≠ [] → IsHandle h →
  (∀ r, (runes b).head? = some r → r ∉ handleChars) → Fits cls (a ++ 0x40 :: (h ++ b)) →
  ∃ out, (handles E.U (tokenizeString E (a ++ 0x40 :: (h ++ b)))).Yields out .eof ∧
    mkToken E.U (0x40 :: h) true ∈ out

/-- **C78 is violated:** the possessive "@bob's" is not a handle and "'s", but the two tokens "@"
and "bob's", whatever the tables. -/
theorem C78_violated {E : Env} {cls : WordTable} (hE : E.Lawful) (hF : E.FollowsUax29 cls) (hR : cls.Right) :
    ¬ C78_full E cls [] (str "bob") (str "'s") := by
  intro h
  have hs : ([] : Bytes) ++ 0x40 :: (str "bob" ++ str "'s") = str "@bob's" := by decide +kernel
  have hq : ∀ r, (runes (str "'s")).head? = some r → r ∉ handleChars := by
    have e : (runes (str "'s")).head? = some 0x27 := by decide +kernel
    intro r hr
    rw [e, Option.some.injEq] at hr
    rw [← hr]; decide +kernel
  obtain ⟨out, hy, hmem⟩ := h (by simp) (Or.inl rfl) (by decide +kernel)
    ⟨by decide +kernel, by decide +kernel⟩ hq (.inl (by decide +kernel))
  rw [hs] at hy
  have hk : knownB (runes (str "@bob's")) = true := by decide +kernel
  have htok := tokensOf_string hF hR (s := str "@bob's") (.inl (by decide +kernel)) hk
  have hw : (wordsB (runes (str "@bob's")) 0).2.2 = [[0x40], runes (str "bob's")] := by decide +kernel
  have hin := stringTokens_yields hE (s := str "@bob's") (by rw [hF _ (.inl (by decide +kernel))])
  obtain ⟨⟨out', hy', hmade, -⟩, -⟩ := C29_filters E.U hin
  have := (hy.unique hy').1
  subst this
  rw [hw] at htok
  have hvals : ∀ t ∈ stringTokens E (str "@bob's"), runes t.value = [0x40] ∨ runes t.value = runes (str "bob's") := by
    intro t ht
    have : runes t.value ∈ [[0x40], runes (str "bob's")] := by
      rw [← htok.1]; exact List.mem_map_of_mem (f := fun t : Token => runes t.value) ht
    simpa using this
  rcases hmade _ hmem with ht | ⟨m, l, hml, hm, hl, he⟩
  · rcases hvals _ ht with h | h
    · revert h; show runes (0x40 :: str "bob") = _ → _; decide +kernel
    · revert h; show runes (0x40 :: str "bob") = _ → _; decide +kernel
  · have hv : (0x40 :: str "bob" : Bytes) = str "@" ++ l.value := congrArg Token.value he
    have hv' : l.value = str "bob" := by
      have e : str "@" = [0x40] := by decide +kernel
      rw [e, List.singleton_append, List.cons.injEq] at hv
      exact hv.2.symm
    have hlm : l ∈ stringTokens E (str "@bob's") := by
      obtain ⟨s, t, hst⟩ := hml
      rw [← hst]; simp
    rcases hvals _ hlm with h | h
    · rw [hv'] at h; revert h; decide +kernel
    · rw [hv'] at h; revert h; decide +kernel

/-- **C78, what holds.** With the word rules of UAX #29, a handle in a text, where the token before it is
no word, and set off after by separators, quotation marks or stops (what is missing: a quotation mark or
stop with a letter or digit after it, and other scripts), is one token; what is before it is left alone. -/
theorem C78_handles_partial {E : Env} {cls : WordTable} (hE : E.Lawful) (hF : E.FollowsUax29 cls)
    (hR : cls.Right) {a h b : Bytes} (ha : ∀ c ∈ a, c ≠ 0x40)
    (hw : ∀ t, (stringTokens E a).getLast? = some t → ¬ t.IsWord) (hne : h ≠ []) (hh : IsHandle h)
    (hb : SetOffAfter b) (hlen : Fits cls (a ++ 0x40 :: (h ++ b))) :
    ∃ more, (handles E.U (tokenizeString E (a ++ 0x40 :: (h ++ b)))).Yields
      (stringTokens E a ++ mkToken E.U (0x40 :: h) true :: more) .eof := by
  have hi : cls 0x40 = (.other, false) := by rw [hR.latin 0x40 (by omega) (by omega)]; decide
  have hp : ∀ r ∈ runes h, (cls r).1.plain = true := by
    intro r hr
    obtain ⟨h1, h2, h3⟩ := handleChars_plain r (hh.2 r hr)
    rw [hR.latin r (by omega) h2]; exact h3
  have hin := stringTokens_yields hE (s := a ++ 0x40 :: (h ++ b)) (by rw [hF _ hlen])
  obtain ⟨hal, htoks⟩ := stringTokens_sigil hF hR (a := a) (c := 0x40) (by decide) hi hne hp hb hlen
  obtain ⟨⟨out, hy, -, hfirst⟩, -⟩ := C29_filters E.U hin
  have e : str "@" = [0x40] := by decide +kernel
  have hno : ∀ t ∈ stringTokens E a, t.value ≠ str "@" := by
    intro t ht hv
    rw [e] at hv
    simp only [stringTokens, segTokens, List.mem_map] at ht
    obtain ⟨seg, hseg, rfl⟩ := ht
    rw [hF a hal] at hseg
    have : (0x40 : UInt8) ∈ a := by
      rw [← wordSegs_flatten cls a]
      refine List.mem_flatten.mpr ⟨seg, hseg, ?_⟩
      have hv : seg = [0x40] := hv
      rw [hv]; simp
    exact ha _ this rfl
  obtain ⟨more, rfl⟩ := hfirst (stringTokens E a) (mkToken E.U [0x40] false) (mkToken E.U h false)
    (stringTokens E b) htoks hno hw e.symm hh
  refine ⟨more, ?_⟩
  rw [e] at hy
  exact hy

/-- White space in the sense of the annex is white space to the program. -/
def SpacesRight (cls : WordTable) : Prop :=
  ∀ r, (cls r).1 = .space → isSpaceRune r = true ∧ (cls r).2 = false

/-- The last word of a text that ends with a space is nothing but spaces. -/
theorem cutWords_last_space {α : Type} {cls : α → WB × Bool} (hS : ∀ a, (cls a).1 = .space → (cls a).2 = false)
    {s : α} (hs : (cls s).1 = .space) (l : List α) (before : List (WB × Bool)) :
    ∃ gs g, cutWords cls before (l ++ [s]) = gs ++ [g] ∧ ∀ c ∈ g, (cls c).1 = .space := by
  induction l generalizing before with
  | nil => exact ⟨[], [s], rfl, by simpa using hs⟩
  | cons a l ih =>
    obtain ⟨gs, g, he, hg⟩ := ih (cls a :: before)
    rw [List.cons_append, cutWords, he]
    cases gs with
    | cons x gs =>
      simp only [List.cons_append]
      split
      · exact ⟨(a :: x) :: gs, g, rfl, hg⟩
      · exact ⟨[a] :: x :: gs, g, rfl, hg⟩
    | nil =>
      simp only [List.nil_append]
      split
      · rename_i hj
        refine ⟨[], a :: g, rfl, ?_⟩
        have hfl := cutWords_flatten (cls := cls) (cls a :: before) (l ++ [s])
        rw [he] at hfl
        have hgl : g = l ++ [s] := by simpa using hfl
        rw [← hgl] at hj
        cases hgc : g with
        | nil => rw [hgc] at hgl; simp at hgl
        | cons c t =>
          rw [hgc] at hj hg
          have hc := hg c (by simp)
          have hc2 := hS c hc
          rw [List.map_cons, joins_cons, ruleJoins_inert _ _ _ _ (.inr (by rw [hc]; rfl)), hc, hc2] at hj
          intro d hd
          rcases List.mem_cons.mp hd with rfl | hd
          · generalize (cls d).1 = w at hj ⊢
            revert hj
            cases w <;> simp [WB.lineBreak, WB.attached]
          · exact hg d hd
      · exact ⟨[[a]], g, rfl, hg⟩

/-- After a space there is no word just before. -/
theorem last_space {E : Env} {cls : WordTable} (hF : E.FollowsUax29 cls) (hR : cls.Right)
    (hS : SpacesRight cls) {a : Bytes} (ha : a = [] ∨ ∃ x, a = x ++ [0x20]) (hlen : Fits cls a) :
    ∀ t, (stringTokens E a).getLast? = some t → ¬ t.IsWord := by
  intro t ht
  rcases ha with rfl | ⟨x, rfl⟩
  · simp only [stringTokens, segTokens] at ht
    rw [hF [] .nil] at ht
    cases ht
  · have hsp : cls 0x20 = (.space, false) := by rw [hR.latin 0x20 (by omega) (by omega)]; decide
    have hr : runes (x ++ [0x20]) = runes x ++ [0x20] := by
      rw [runes_append_ascii x (by decide)]; rfl
    obtain ⟨gs, g, he, hg⟩ := cutWords_last_space (cls := cls) (fun a ha => (hS a ha).2)
      (s := 0x20) (by rw [hsp]) (runes x) []
    rw [← hr, ← wordSegs_runes] at he
    rw [stringTokens, segTokens, hF _ hlen, List.getLast?_map] at ht
    obtain ⟨seg, hseg, rfl⟩ := Option.map_eq_some_iff.mp ht
    have hlast : ((wordSegs cls (x ++ [0x20])).map runes).getLast? = some (runes seg) := by
      rw [List.getLast?_map, hseg]; rfl
    rw [he, List.getLast?_concat, Option.some.injEq] at hlast
    have hspace : (mkToken E.U seg false).space = true := by
      show (runes seg).all isSpaceRune = true
      rw [List.all_eq_true]
      intro r hr
      exact (hS r (hg r (hlast ▸ hr))).1
    intro hw
    rw [Token.IsWord, hspace] at hw
    simp at hw

theorem uaxTable_spaces : SpacesRight uaxTable := by
  intro r hr
  by_cases h : r < 0x180
  · have : ∀ r < 0x180, (uaxTable r).1 = .space → isSpaceRune r = true ∧ (uaxTable r).2 = false := by
      decide +kernel
    exact this r h hr
  · have : (uaxTable r).1 ≠ .space := by
      rw [uaxTable, if_neg h]
      split <;> simp
    exact absurd hr this

/-- Non-vacuity: "cc @go_lang." -/
example : ∃ more, (handles uaxEnv.U (tokenizeString uaxEnv (str "cc " ++ 0x40 :: (str "go_lang" ++ str ".")))).Yields
    (stringTokens uaxEnv (str "cc ") ++ mkToken uaxEnv.U (0x40 :: str "go_lang") true :: more) .eof :=
  C78_handles_partial uaxEnv_lawful uaxEnv_follows uaxTable_right (by decide +kernel)
    (last_space uaxEnv_follows uaxTable_right uaxTable_spaces
      (Or.inr ⟨str "cc", by decide +kernel⟩) (.inl (by decide +kernel)))
    (by decide +kernel) ⟨by decide +kernel, by decide +kernel⟩
    ⟨str ".", [], by simp, by decide +kernel, Or.inl rfl⟩ (.inl (by decide +kernel))

/-! Hashtags -/

/-- The claim for hashtags in full: a tag after the sign, at the start of a text, is one token. -/
def C78_full_hashtags (E : Env) (cls : WordTable) (h b : Bytes) : Prop :=
  h ≠ [] → IsTag E.U h → SetOffAfter b → Fits cls (0x23 :: (h ++ b)) →
  ∃ more, (hashtags E.U (tokenizeString E (0x23 :: (h ++ b)))).Yields
    (mkToken E.U (0x23 :: h) true :: more) .eof

/-- **C78 is violated for hashtags:** the words of UAX #29 are single ideographs, so that "#日本" becomes
"#日" and "本". -/
theorem C78_violated_hashtags {E : Env} {cls : WordTable} (hE : E.Lawful) (hF : E.FollowsUax29 cls)
    (hR : cls.Right) (h1 : E.U.isLetter 0x65E5 = true) (h2 : E.U.isLetter 0x672C = true) :
    ¬ C78_full_hashtags E cls (str "日本") [] := by
  intro h
  have hrs : runes (str "日本") = [0x65E5, 0x672C] := by decide +kernel
  obtain ⟨more, hy⟩ := h (by decide +kernel)
    ⟨by rw [hrs]; intro r hr; simp only [List.mem_cons, List.not_mem_nil, or_false] at hr
        rcases hr with rfl | rfl
        · exact Or.inl h1
        · exact Or.inl h2,
      by rw [hrs]; simp⟩
    ⟨[], [], rfl, by simp, Or.inl rfl⟩ (.inl (by decide +kernel))
  rw [List.append_nil] at hy
  have hs : 0x23 :: str "日本" = str "#日本" := by decide +kernel
  rw [hs] at hy
  have hin := stringTokens_yields hE (s := str "#日本") (by rw [hF _ (.inl (by decide +kernel))])
  obtain ⟨-, out, hy', hmade, -⟩ := C29_filters E.U hin
  have := (hy.unique hy').1
  subst this
  have hw : ∀ seg ∈ wordSegs cls (str "#日本"), (runes seg).length = 1 := by
    have hruns := wordSegs_runes cls (str "#日本")
    have e : runes (str "#日本") = [0x23, 0x65E5, 0x672C] := by decide +kernel
    have c0 : cls 0x23 = (.other, false) := by rw [hR.latin 0x23 (by omega) (by omega)]; decide
    have c1 := hR.ideograph 0x65E5 (by omega) (by omega)
    have c2 := hR.ideograph 0x672C (by omega) (by omega)
    have hcut : cutWords cls [] [0x23, 0x65E5, 0x672C] = [[0x23], [0x65E5], [0x672C]] := by
      simp only [cutWords, c0, c1, c2, List.map_cons, List.map_nil]
      decide
    rw [e, hcut] at hruns
    intro seg hseg
    have : runes seg ∈ ([[0x23], [0x65E5], [0x672C]] : List (List Rune)) := by
      rw [← hruns]; exact List.mem_map_of_mem hseg
    simp only [List.mem_cons, List.not_mem_nil, or_false] at this
    rcases this with h | h | h <;> rw [h] <;> rfl
  have hvals : ∀ t ∈ stringTokens E (str "#日本"), (runes t.value).length = 1 := by
    intro t ht
    simp only [stringTokens, segTokens, List.mem_map] at ht
    obtain ⟨seg, hseg, rfl⟩ := ht
    rw [hF _ (.inl (by decide +kernel))] at hseg
    exact hw seg hseg
  rcases hmade (mkToken E.U (str "#日本") true) (by simp) with ht | ⟨m, l, hml, hm, hl, he⟩
  · have := hvals _ ht
    revert this; show (runes (str "#日本")).length = _ → _; decide +kernel
  · have hv : (0x23 :: str "日本" : Bytes) = str "#" ++ l.value := hs.trans (congrArg Token.value he)
    have hv' : l.value = str "日本" := by
      have e : str "#" = [0x23] := by decide +kernel
      rw [e, List.singleton_append, List.cons.injEq] at hv
      exact hv.2.symm
    have hlm : l ∈ stringTokens E (str "#日本") := by
      obtain ⟨s, t, hst⟩ := hml
      rw [← hst]; simp
    have := hvals _ hlm
    rw [hv'] at this; revert this; decide +kernel

/-- **C78, what holds for hashtags.** With the word rules of UAX #29, a hashtag of letters, digits and low
lines that the rules keep together (what is missing: scripts they cut apart), in a text where the token
before it is no word, is one token, if it is set off after by separators, quotation marks or stops. -/
theorem C78_hashtags_partial {E : Env} {cls : WordTable} (hE : E.Lawful) (hF : E.FollowsUax29 cls)
    (hR : cls.Right) {a h b : Bytes} (ha : ∀ c ∈ a, c ≠ 0x23)
    (hw : ∀ t, (stringTokens E a).getLast? = some t → ¬ t.IsWord) (hne : h ≠ []) (hh : IsTag E.U h)
    (hp : ∀ r ∈ runes h, (cls r).1 = .letter ∨ (cls r).1 = .numeric ∨ (cls r).1 = .extendNumLet)
    (hb : SetOffAfter b) (hlen : Fits cls (a ++ 0x23 :: (h ++ b))) :
    ∃ more, (hashtags E.U (tokenizeString E (a ++ 0x23 :: (h ++ b)))).Yields
      (stringTokens E a ++ mkToken E.U (0x23 :: h) true :: more) .eof := by
  have hi : cls 0x23 = (.other, false) := by rw [hR.latin 0x23 (by omega) (by omega)]; decide
  have hp : ∀ r ∈ runes h, (cls r).1.plain = true := by
    intro r hr
    rcases hp r hr with h | h | h <;> rw [h] <;> rfl
  have hin := stringTokens_yields hE (s := a ++ 0x23 :: (h ++ b)) (by rw [hF _ hlen])
  obtain ⟨hal, htoks⟩ := stringTokens_sigil hF hR (a := a) (c := 0x23) (by decide) hi hne hp hb hlen
  obtain ⟨-, out, hy, -, hfirst⟩ := C29_filters E.U hin
  have e : str "#" = [0x23] := by decide +kernel
  have hno : ∀ t ∈ stringTokens E a, t.value ≠ str "#" := by
    intro t ht hv
    rw [e] at hv
    simp only [stringTokens, segTokens, List.mem_map] at ht
    obtain ⟨seg, hseg, rfl⟩ := ht
    rw [hF a hal] at hseg
    have : (0x23 : UInt8) ∈ a := by
      rw [← wordSegs_flatten cls a]
      refine List.mem_flatten.mpr ⟨seg, hseg, ?_⟩
      have hv : seg = [0x23] := hv
      rw [hv]; simp
    exact ha _ this rfl
  obtain ⟨more, rfl⟩ := hfirst (stringTokens E a) (mkToken E.U [0x23] false) (mkToken E.U h false)
    (stringTokens E b) htoks hno hw e.symm hh
  refine ⟨more, ?_⟩
  rw [e] at hy
  exact hy

/-- Non-vacuity: Latin letters and digits are of the classes the theorem names. -/
example : ∀ r ∈ runes (str "café_2020"), (uaxTable r).1 = .letter ∨ (uaxTable r).1 = .numeric ∨
    (uaxTable r).1 = .extendNumLet := by
  have e : runes (str "café_2020") = [0x63, 0x61, 0x66, 0xE9, 0x5F, 0x32, 0x30, 0x32, 0x30] := by decide +kernel
  rw [e]
  decide +kernel

end Jargon
