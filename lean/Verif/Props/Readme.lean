import Mathlib.Data.List.Infix
import Verif.Props.Uax29Synonyms
import Verif.Props.Flag

/-! C79 and C80 for any way of writing a synonym, and C84: the examples of the documentation. -/

namespace Jargon

section
variable {E : Env} {cls : WordTable}

/-- **C79 (any text set apart).** With the word rules of UAX #29, a text between punctuation or line ends,
which starts with a letter, digit or low line and ends with one or with a symbol, is filtered on its own:
so are what precedes it and what follows it. For any mappings. -/
theorem C79_apart (hE : E.Lawful) (hF : E.FollowsUax29 cls) (hR : cls.Right) (hP : E.U.PunctLatin)
    {mappings : StringMap} {ic : Bool} {ign : List Rune}
    (hsc : ∀ m ∈ mappings, (E.scan { data := m.1 }).2 = none) {a s b : Bytes}
    (ha : SetOffBefore a) (hb : SetOffAfter b) (ha' : BrokenBefore a) (hb' : BrokenAfter b)
    (hlen : Fits cls (a ++ s ++ b)) {r0 r1 : Rune}
    (hr0 : (runes s).head? = some r0) (p0 : (cls r0).1.plain = true)
    (hr1 : (runes s).getLast? = some r1) (p1 : (cls r1).1.plain = true ∨ (cls r1).1 = .other)
    {A S B : List Token} (hA : (synonyms E mappings ic ign (tokenizeString E a)).Yields A .eof)
    (hS : (synonyms E mappings ic ign (tokenizeString E s)).Yields S .eof)
    (hB : (synonyms E mappings ic ign (tokenizeString E b)).Yields B .eof) :
    (synonyms E mappings ic ign (tokenizeString E (a ++ s ++ b))).Yields (A ++ S ++ B) .eof := by
  obtain ⟨fa, fs, fb⟩ := hlen.between hR ha hb hr0 p0 hr1 p1
  have htok := stringTokens_between hF hR ha hb hlen hr0 p0 hr1 p1
  have run : ∀ t : Bytes, Fits cls t → (tokenizeString E t).Yields (stringTokens E t) .eof :=
    fun t ht => stringTokens_yields hE (by rw [hF t ht])
  obtain ⟨A', gA, -, yA⟩ := C31_synonyms_greedy hE mappings ic ign hsc (run a fa)
  obtain ⟨S', gS, -, yS⟩ := C31_synonyms_greedy hE mappings ic ign hsc (run s fs)
  obtain ⟨B', gB, -, yB⟩ := C31_synonyms_greedy hE mappings ic ign hsc (run b fb)
  rw [(hA.unique yA).1, (hS.unique yS).1, (hB.unique yB).1]
  have hnil : stringTokens E [] = [] := by rw [stringTokens, hF [] .nil]; rfl
  have hpa : ∀ ys, PunctBetween (stringTokens E a) ys := by
    intro ys
    rcases last_punct hF hR hP ha ha' fa with rfl | h
    · exact Or.inl hnil
    · exact Or.inr (.inr (.inl h))
  have hpb : ∀ xs, PunctBetween xs (stringTokens E b) := by
    intro xs
    rcases first_punct hF hR hP hb hb' fb with rfl | h
    · exact Or.inr (.inl hnil)
    · exact Or.inr (.inr (.inr h))
  have key := gA.append (gS.append gB (hpb _).noCross) (hpa _).noCross
  rw [← List.append_assoc, ← List.append_assoc, ← htok] at key
  have := synonyms_yields hE hsc (run _ hlen) key
  simpa using this

/-- **C79 (between spaces).** The same for a text between spaces, or whatever sets it off as words, if no
synonym reaches from a word before it into it, or from one in it to what follows. -/
theorem C79_between_words (hE : E.Lawful) (hF : E.FollowsUax29 cls) (hR : cls.Right)
    {mappings : StringMap} {ic : Bool} {ign : List Rune}
    (hsc : ∀ m ∈ mappings, (E.scan { data := m.1 }).2 = none) {a s b : Bytes}
    (ha : SetOffBefore a) (hb : SetOffAfter b)
    (hlen : Fits cls (a ++ s ++ b)) {r0 r1 : Rune}
    (hr0 : (runes s).head? = some r0) (p0 : (cls r0).1.plain = true)
    (hr1 : (runes s).getLast? = some r1) (p1 : (cls r1).1.plain = true ∨ (cls r1).1 = .other)
    (hc : NoCross ⟨E.U, ic, ign⟩ ((Compare.mk E.U ic ign).dict (entries E mappings)) (stringTokens E a)
      (stringTokens E s ++ stringTokens E b))
    (hc' : NoCross ⟨E.U, ic, ign⟩ ((Compare.mk E.U ic ign).dict (entries E mappings)) (stringTokens E s)
      (stringTokens E b))
    {A S B : List Token} (hA : (synonyms E mappings ic ign (tokenizeString E a)).Yields A .eof)
    (hS : (synonyms E mappings ic ign (tokenizeString E s)).Yields S .eof)
    (hB : (synonyms E mappings ic ign (tokenizeString E b)).Yields B .eof) :
    (synonyms E mappings ic ign (tokenizeString E (a ++ s ++ b))).Yields (A ++ S ++ B) .eof := by
  obtain ⟨fa, fs, fb⟩ := hlen.between hR ha hb hr0 p0 hr1 p1
  have htok := stringTokens_between hF hR ha hb hlen hr0 p0 hr1 p1
  have run : ∀ t : Bytes, Fits cls t → (tokenizeString E t).Yields (stringTokens E t) .eof :=
    fun t ht => stringTokens_yields hE (by rw [hF t ht])
  obtain ⟨A', gA, -, yA⟩ := C31_synonyms_greedy hE mappings ic ign hsc (run a fa)
  obtain ⟨S', gS, -, yS⟩ := C31_synonyms_greedy hE mappings ic ign hsc (run s fs)
  obtain ⟨B', gB, -, yB⟩ := C31_synonyms_greedy hE mappings ic ign hsc (run b fb)
  rw [(hA.unique yA).1, (hS.unique yS).1, (hB.unique yB).1]
  have key := gA.append (gS.append gB hc') hc
  rw [← List.append_assoc, ← List.append_assoc, ← htok] at key
  have := synonyms_yields hE hsc (run _ hlen) key
  simpa using this

/-- No synonym of the table reaches from one sequence of words into the next, as looked up in the tree. -/
noncomputable def noCrossB (ign : List Nat) (tree : Tree) (xs ys : List (List Nat)) : Bool :=
  xs.tails.all fun u => !(u.head?.any isWordB) || ys.inits.all fun w => w.isEmpty || badB (u ++ w) ||
    (tree.find (hash (normalB ign (u ++ w).flatten))).isNone ||
    decide (normalB ign (u ++ w).flatten = normalB ign u.flatten)

theorem noCrossB_spec (hU : E.U.LowersLatin) (hP : E.U.PunctLatin) {ign : List Nat} {tree : Tree}
    {rows : List (Nat × Nat)} (hc : ∀ row ∈ rows, rowB ign tree row = true)
    (hk : ∀ m ∈ tableOf rows, E.CutsCommas m.1) {xs ys : List Token} {gx gy : List (List Nat)}
    (hx : TokensOf E.U xs gx) (hy : TokensOf E.U ys gy) (hgx : ∀ g ∈ gx, ∀ r ∈ g, codeB r ≠ 9)
    (hgy : ∀ g ∈ gy, ∀ r ∈ g, codeB r ≠ 9) (h : noCrossB ign tree gx gy = true) :
    NoCross ⟨E.U, true, ign⟩ ((Compare.mk E.U true ign).dict (entries E (tableOf rows))) xs ys := by
  rintro p t u w z rfl rfl ht hw hp
  have hspell : ∀ ts : List Token, (∀ t ∈ ts, ∀ r ∈ runes t.value, codeB r ≠ 9) →
      (Compare.mk E.U true ign).spell ts = normalB ign (ts.map fun t => runes t.value).flatten := by
    intro ts hts
    rw [Compare.spell, normalB_eq hU, List.flatMap_def]
    intro r hr
    obtain ⟨g, hg, hrg⟩ := List.mem_flatten.mp hr
    obtain ⟨t, ht, rfl⟩ := List.mem_map.mp hg
    exact codeB_lt (hts t ht r hrg)
  have kx := hx.known hgx
  have ky := hy.known hgy
  have kw : ∀ x ∈ t :: u ++ w, ∀ r ∈ runes x.value, codeB r ≠ 9 := by
    intro x hx r hr
    rcases List.mem_append.mp hx with hx | hx
    · exact kx x (List.mem_append_right _ hx) r hr
    · exact ky x (List.mem_append_left _ hx) r hr
  have hword := (hx.word hP hgx (t := t) (by simp)).mp ht
  rw [noCrossB, List.all_eq_true] at h
  have h1 := h ((t :: u).map fun t => runes t.value) (by
    rw [List.mem_tails, ← hx.1, List.map_append]; exact List.suffix_append _ _)
  rw [List.map_cons, List.head?_cons, Option.any_some, hword, Bool.not_true, Bool.false_or, List.all_eq_true] at h1
  have h2 := h1 (w.map fun t => runes t.value) (by
    rw [List.mem_inits, ← hy.1, List.map_append]; exact List.prefix_append _ _)
  rw [← List.map_cons (f := fun t : Token => runes t.value), ← List.map_append] at h2
  have hne : (w.map fun t => runes t.value).isEmpty = false := by
    cases w with
    | nil => exact absurd rfl hw
    | cons => rfl
  have hbad : badB ((t :: u ++ w).map fun t => runes t.value) = false := by
    rw [badB, List.any_eq_false]
    intro g hg hpg
    obtain ⟨x, hxm, rfl⟩ := List.mem_map.mp hg
    have := hp x hxm
    have hpx : x.punct = allPunB (runes x.value) := by
      rcases List.mem_append.mp hxm with hm | hm
      · exact hx.punct hP hgx (List.mem_append_right _ hm)
      · exact hy.punct hP hgy (List.mem_append_left _ hm)
    rw [hpx] at this
    rw [this] at hpg; cases hpg
  rw [hne, hbad, Bool.false_or, Bool.false_or, Bool.or_eq_true, Option.isNone_iff_eq_none, decide_eq_true_eq] at h2
  rw [hspell _ kw, hspell _ (fun x hx => kw x (List.mem_append_left _ hx))]
  exact h2.imp (fun h => dict_absent hU hc hk h) id

/-- **C80, partial, in a text.** The same wherever the text stands, set apart by punctuation or line ends:
what is before it and after it becomes what it becomes on its own. -/
theorem C80_in_text_partial (hE : E.Lawful) (hF : E.FollowsUax29 cls) (hR : cls.Right)
    (hU : E.U.LowersLatin) (hP : E.U.PunctLatin) {k v s s' : Bytes} (hm : (k, v) ∈ stackOverflowMappings)
    (hs : ListedText s k) (hlat : ∀ r ∈ runes s', r < 0x180)
    (h : tagLoose (runes s') = tagLoose (runes s)) (hp : ∀ t ∈ stringTokens E s', t.punct = false)
    (hfirst : ∀ t, (stringTokens E s').head? = some t → t.IsWord)
    (hlast : ∀ t, (stringTokens E s').getLast? = some t → t.IsWord ∧ tagLoose (runes t.value) ≠ [])
    (hwords : (stringTokens E s').countP (fun t => decide t.IsWord) ≤ 5)
    {a b : Bytes} (ha : SetOffBefore a) (hb : SetOffAfter b) (ha' : BrokenBefore a) (hb' : BrokenAfter b)
    (hlen : Fits cls (a ++ s' ++ b)) {r0 r1 : Rune}
    (hr0 : (runes s').head? = some r0) (p0 : (cls r0).1.plain = true)
    (hr1 : (runes s').getLast? = some r1) (p1 : (cls r1).1.plain = true ∨ (cls r1).1 = .other)
    {A B : List Token}
    (hA : (tags E (tokenizeString E a)).Yields A .eof) (hB : (tags E (tokenizeString E b)).Yields B .eof) :
    (tags E (tokenizeString E (a ++ s' ++ b))).Yields (A ++ mkToken E.U v true :: B) .eof := by
  have hcut := (C76_scanner_laws hF hR).2.1
  have hS := C80_tags_partial hE hF hR hU hP hm hs
    (hlen.between hR ha hb hr0 p0 hr1 p1).2.1 hlat h hp hfirst hlast hwords
    (by rintro rfl; cases hr0)
  have := C79_apart hE hF hR hP (fun m hm => (hcut m hm).scans) ha hb ha' hb' hlen hr0 p0 hr1 p1 hA hS hB
  simpa [tags] using this

/-- What is checked of a way of writing a synonym: its letters are Latin, none of its words is punctuation,
it starts and ends with a word, has at most five words, and its ends are set off by punctuation. -/
noncomputable def writtenB (s : Bytes) : Bool :=
  knownB (runes s) && goodB stackOverflowIgnore 5 (wordsB (runes s) 0).2.2 && edgeB (runes s) &&
    Nat.blt s.length 0x10000

/-- A way of writing a synonym, on its own. -/
theorem written_tags (hE : E.Lawful) (hF : E.FollowsUax29 cls) (hR : cls.Right)
    (hU : E.U.LowersLatin) (hP : E.U.PunctLatin) {k v s s' : Bytes} (hm : (k, v) ∈ stackOverflowMappings)
    (hs : ListedText s k) (hw : writtenB s' = true)
    (h : normalB stackOverflowIgnore (runes s') = normalB stackOverflowIgnore (runes s)) :
    (tags E (tokenizeString E s')).Yields [mkToken E.U v true] .eof := by
  simp only [writtenB, Bool.and_eq_true, Nat.blt_eq] at hw
  obtain ⟨⟨⟨h1, h2⟩, -⟩, h4⟩ := hw
  have hcut := (C76_scanner_laws hF hR).2.1
  have hy := stringTokens_yields (s := s') hE (by rw [hF s' (.inl h4)])
  rw [tags]
  rw [stackOverflow_rows] at hm hcut ⊢
  have hv := (mkToken_word (PunctLatin.plain hP) true (row_plain soRows_plain hm)).2
  simp only [tableOf, List.mem_map] at hm
  obtain ⟨row, hrow, hrv⟩ := hm
  obtain ⟨rfl, rfl⟩ := Prod.mk.inj hrv
  have hd := listed_dict hF hR hU so_words so_all hrow hs
  have htok := tokensOf_string hF hR (.inl h4) h1
  have hkn := wordsB_known hR h1
  have hsp : (Compare.mk E.U true stackOverflowIgnore).spell (stringTokens E s') =
      normalB stackOverflowIgnore (runes s') := by
    rw [Compare.spell]
    have : (stringTokens E s').flatMap (fun t => runes t.value) = runes s' := by
      rw [List.flatMap_def, htok.1, ← cutWords_known hR h1, cutWords_flatten]
    rw [this, normalB_eq hU]
    exact fun r hr => codeB_lt (knownB_spec h1 r hr)
  have hg := good_greedy (D := (Compare.mk E.U true stackOverflowIgnore).dict
      (entries E (tableOf soRows.flatten))) hU hP htok hkn (so_limit hF hR hP) h2
    (by rw [hsp, h]; exact hd)
  simp only [canonTokens, hv, ↓reduceIte] at hg
  have := synonyms_yields hE (fun m hm => (hcut m hm).scans) hy hg
  simpa using this

/-- A way of writing a synonym, in a text. -/
theorem written_in_text (hE : E.Lawful) (hF : E.FollowsUax29 cls) (hR : cls.Right)
    (hU : E.U.LowersLatin) (hP : E.U.PunctLatin) {k v s s' a b : Bytes}
    (hm : (k, v) ∈ stackOverflowMappings) (hs : ListedText s k) (hw : writtenB s' = true)
    (h : normalB stackOverflowIgnore (runes s') = normalB stackOverflowIgnore (runes s))
    (ha : SetOffBefore a) (hb : SetOffAfter b) (ha' : BrokenBefore a) (hb' : BrokenAfter b)
    (hlen : Fits cls (a ++ s' ++ b)) {A B : List Token}
    (hA : (tags E (tokenizeString E a)).Yields A .eof) (hB : (tags E (tokenizeString E b)).Yields B .eof) :
    (tags E (tokenizeString E (a ++ s' ++ b))).Yields (A ++ mkToken E.U v true :: B) .eof := by
  have hS := written_tags hE hF hR hU hP hm hs hw h
  simp only [writtenB, Bool.and_eq_true, Nat.blt_eq] at hw
  obtain ⟨⟨⟨h1, -⟩, h3⟩, -⟩ := hw
  obtain ⟨⟨r0, hr0, p0⟩, r1, hr1, p1⟩ := edgeB_spec hR h1 h3
  have hcut := (C76_scanner_laws hF hR).2.1
  have := C79_apart hE hF hR hP (fun m hm => (hcut m hm).scans) ha hb ha' hb' hlen hr0 p0 hr1 p1 hA hS hB
  simpa [tags] using this

end

/-! ### C84 -/

/-- README.md:5, 74-75: the examples for Stack Overflow tags. -/
def docTags : List (String × String) := [("react", "reactjs"), ("React.js", "reactjs"),
  ("React JS", "reactjs"), ("REACTJS", "reactjs"), ("Ruby on Rails", "ruby-on-rails"),
  ("ObjC", "objective-c")]

/-- README.md:78, cmd/jargon/main.go:36, filters/contractions/README.md:8-9: examples for contractions. -/
def docContractions : List (String × List String) := [("Couldn’t", ["Could", " ", "not"]),
  ("Would've", ["Would", " ", "have"]), ("We’ve", ["We", " ", "have"]), ("SHE'S", ["SHE", " ", "IS"])]

/-- filters/contractions/README.md:7: one more example. -/
def docDont : String × List String := ("don't", ["does", " ", "not"])

/-- README.md:81: the example for folding. -/
def docFolds : List (String × String) := [("café", "cafe")]

/-- A filter makes `result` of `written` wherever it stands in a text, set apart by punctuation or line
ends; what is before it and after it becomes what it becomes on its own. -/
def MakesOf (E : Env) (cls : WordTable) (f : Filter) (written : Bytes) (result : List Token) : Prop :=
  ∀ a b : Bytes, SetOffBefore a → SetOffAfter b → BrokenBefore a → BrokenAfter b →
    Fits cls (a ++ written ++ b) → ∀ A B, (f (tokenizeString E a)).Yields A .eof →
    (f (tokenizeString E b)).Yields B .eof →
    (f (tokenizeString E (a ++ written ++ b))).Yields (A ++ result ++ B) .eof

/-- **C84, as documented.** Every example of the documentation holds, wherever it stands in a text. -/
def C84_full (E : Env) (cls : WordTable) : Prop :=
  (∀ x ∈ docTags, MakesOf E cls (tags E) (str x.1) [mkToken E.U (str x.2) true]) ∧
  (∀ x ∈ docDont :: docContractions, MakesOf E cls (expand E) (str x.1) (x.2.map fun w => mkToken E.U (str w) false)) ∧
  (∀ x ∈ docFolds, MakesOf E cls (asciiFold E.U) (str x.1) [mkToken E.U (str x.2) true])

section
variable {E : Env} {cls : WordTable}

theorem docTag (hE : E.Lawful) (hF : E.FollowsUax29 cls) (hR : cls.Right)
    (hU : E.U.LowersLatin) (hP : E.U.PunctLatin) {k v s s' : Bytes} {row : Nat × Nat} (i : Nat)
    {rows : List (Nat × Nat)} (hi : soRows[i]? = some rows) (hrow : pairB row.1 row.2 rows = true)
    (hk : textOf row.1 = k) (hv : textOf row.2 = v) (hs : ListedText s k) (hw : writtenB s' = true)
    (h : normalB stackOverflowIgnore (runes s') = normalB stackOverflowIgnore (runes s)) :
    MakesOf E cls (tags E) s' [mkToken E.U v true] := by
  intro a b ha hb ha' hb' hlen A B hA hB
  have hm : (k, v) ∈ stackOverflowMappings := by
    rw [stackOverflow_rows]
    exact List.mem_map.mpr ⟨row, mem_so i hi hrow, by rw [hk, hv]⟩
  have := written_in_text hE hF hR hU hP hm hs hw h ha hb ha' hb' hlen hA hB
  simpa using this

/-- The words of a text of Latin letters, computed. -/
theorem stringTokens_latin (hF : E.FollowsUax29 cls) (hR : cls.Right) {s : Bytes} (hlen : Fits cls s)
    (h : (runeBytes s).all (fun p => p.1 < 0x180 && p.1 != 0x3A || p.1 == 0x2019) = true) {ws : List Bytes}
    (hw : wordSegs uaxTable s = ws) : stringTokens E s = ws.map fun w => mkToken E.U w false := by
  rw [stringTokens, hF s hlen, segTokens, ← hw]
  congr 1
  show wordSegs cls s = wordSegs uaxTable s
  rw [wordSegs, wordSegs]
  congr 1
  exact cutWords_congr fun p hp => uax_agrees hR (List.all_eq_true.mp h p hp)

theorem docContraction (hE : E.Lawful) (hF : E.FollowsUax29 cls) (hR : cls.Right) {k x : Bytes} {ws : List Bytes}
    (hm : (k, x) ∈ contractionMappings) (hlen : x.length < 0x10000)
    (h : (runeBytes x).all (fun p => p.1 < 0x180 && p.1 != 0x3A || p.1 == 0x2019) = true)
    (hw : wordSegs uaxTable x = ws) : MakesOf E cls (expand E) k (ws.map fun w => mkToken E.U w false) := by
  intro a b ha hb _ _ hl A B hA hB
  have hy := stringTokens_yields (s := x) hE (by rw [hF x (.inl hlen)])
  rw [stringTokens_latin hF hR (.inl hlen) h hw] at hy
  exact C77_in_text hE hF hR hm ha hb hl hA hy hB

theorem docTags_hold (hE : E.Lawful) (hF : E.FollowsUax29 cls) (hR : cls.Right) (hU : E.U.LowersLatin)
    (hP : E.U.PunctLatin) : ∀ x ∈ docTags, MakesOf E cls (tags E) (str x.1) [mkToken E.U (str x.2) true] := by
  have whole : ∀ k : Bytes, k.head? ≠ some 0x20 → 0x2C ∉ k → ListedText k k :=
    fun k h1 h2 => ⟨[], [], [], by simp, Or.inl rfl, Or.inl rfl, by simp, h1, h2⟩
  intro x hx
  simp only [docTags, List.mem_cons, List.not_mem_nil, or_false] at hx
  rcases hx with rfl | rfl | rfl | rfl | rfl | rfl
  · exact docTag hE hF hR hU hP (row := (n!"react, react jsx", n!"reactjs")) (k := str "react, react jsx")
      (s := str "react") 7 rfl (by decide +kernel) (by decide +kernel) (by decide +kernel)
      ⟨[], [], str ", react jsx", by decide +kernel, Or.inl rfl, Or.inr ⟨str " react jsx", by decide +kernel⟩,
        by simp, by decide +kernel, by decide +kernel⟩ (by decide +kernel) (by decide +kernel)
  · exact docTag hE hF hR hU hP (row := (n!"reactjs", n!"reactjs")) (k := str "reactjs") (s := str "reactjs")
      7 rfl (by decide +kernel) (by decide +kernel) (by decide +kernel)
      (whole _ (by decide +kernel) (by decide +kernel)) (by decide +kernel) (by decide +kernel)
  · exact docTag hE hF hR hU hP (row := (n!"reactjs", n!"reactjs")) (k := str "reactjs") (s := str "reactjs")
      7 rfl (by decide +kernel) (by decide +kernel) (by decide +kernel)
      (whole _ (by decide +kernel) (by decide +kernel)) (by decide +kernel) (by decide +kernel)
  · exact docTag hE hF hR hU hP (row := (n!"reactjs", n!"reactjs")) (k := str "reactjs") (s := str "reactjs")
      7 rfl (by decide +kernel) (by decide +kernel) (by decide +kernel)
      (whole _ (by decide +kernel) (by decide +kernel)) (by decide +kernel) (by decide +kernel)
  · exact docTag hE hF hR hU hP (row := (n!"ruby on rails", n!"ruby-on-rails")) (k := str "ruby on rails")
      (s := str "ruby on rails") 7 rfl (by decide +kernel) (by decide +kernel) (by decide +kernel)
      (whole _ (by decide +kernel) (by decide +kernel)) (by decide +kernel) (by decide +kernel)
  · exact docTag hE hF hR hU hP (row := (n!"objc", n!"objective-c")) (k := str "objc") (s := str "objc")
      6 rfl (by decide +kernel) (by decide +kernel) (by decide +kernel)
      (whole _ (by decide +kernel) (by decide +kernel)) (by decide +kernel) (by decide +kernel)

/-- A contraction of the table and its expansion. -/
def expandsB (k x : Nat) : Bool := contractionRows.any fun r => Nat.beq r.1 k && Nat.beq r.2 x

theorem expandsB_mem {k x : Nat} (h : expandsB k x = true) : (textOf k, textOf x) ∈ contractionMappings := by
  obtain ⟨r, hr, h⟩ := List.any_eq_true.mp h
  rw [Bool.and_eq_true, Nat.beq_eq, Nat.beq_eq] at h
  exact mem_mappings.mpr ⟨r, hr, by rw [h.1], by rw [h.2]⟩

theorem docContractions_hold (hE : E.Lawful) (hF : E.FollowsUax29 cls) (hR : cls.Right) :
    (∀ x ∈ docContractions, MakesOf E cls (expand E) (str x.1) (x.2.map fun w => mkToken E.U (str w) false)) ∧
    MakesOf E cls (expand E) (str "don't") (["do", " ", "not"].map fun w => mkToken E.U (str w) false) := by
  have key : ∀ {k x : Bytes} {ws : List String} (nk nx : Nat), expandsB nk nx = true → textOf nk = k → textOf nx = x →
      x.length < 0x10000 →
      (runeBytes x).all (fun p => p.1 < 0x180 && p.1 != 0x3A || p.1 == 0x2019) = true →
      wordSegs uaxTable x = ws.map str →
      MakesOf E cls (expand E) k (ws.map fun w => mkToken E.U (str w) false) := by
    intro k x ws nk nx h1 h2 h3 h4 h5 h6
    have hm : (k, x) ∈ contractionMappings := by rw [← h2, ← h3]; exact expandsB_mem h1
    have := docContraction hE hF hR hm h4 h5 h6
    rwa [List.map_map] at this
  refine ⟨?_, key n!"don't" n!"do not" (by decide +kernel) (by decide +kernel) rfl (by decide +kernel)
    (by decide +kernel) (by decide +kernel)⟩
  intro x hx
  simp only [docContractions, List.mem_cons, List.not_mem_nil, or_false] at hx
  rcases hx with rfl | rfl | rfl | rfl
  · exact key n!"Couldn’t" n!"Could not" (by decide +kernel) (by decide +kernel) rfl (by decide +kernel)
      (by decide +kernel) (by decide +kernel)
  · exact key n!"Would've" n!"Would have" (by decide +kernel) (by decide +kernel) rfl (by decide +kernel)
      (by decide +kernel) (by decide +kernel)
  · exact key n!"We’ve" n!"We have" (by decide +kernel) (by decide +kernel) rfl (by decide +kernel)
      (by decide +kernel) (by decide +kernel)
  · exact key n!"SHE'S" n!"SHE IS" (by decide +kernel) (by decide +kernel) rfl (by decide +kernel)
      (by decide +kernel) (by decide +kernel)

theorem docFolds_hold (hE : E.Lawful) (hF : E.FollowsUax29 cls) (hR : cls.Right) :
    ∀ x ∈ docFolds, MakesOf E cls (asciiFold E.U) (str x.1) [mkToken E.U (str x.2) true] := by
  intro x hx
  simp only [docFolds, List.mem_singleton] at hx
  subst hx
  intro a b ha hb _ _ hlen A B hA hB
  have run : ∀ s : Bytes, Fits cls s → (asciiFold E.U (tokenizeString E s)).Yields
      ((stringTokens E s).map (foldToken E.U)) .eof :=
    fun s hs => asciiFold_yields E.U (stringTokens_yields hE (by rw [hF s hs]))
  have plain : ∀ r : Rune, r < 0x180 → r ≠ 0x3A → (uaxTable r).1.plain = true → (cls r).1.plain = true := by
    intro r h1 h2 h3
    rw [uax_agrees hR (by simp [h1, h2])]; exact h3
  obtain ⟨fa, -, fb⟩ := hlen.between hR ha hb (k0 := 0x63) (by decide +kernel)
    (plain 0x63 (by decide) (by decide) (by decide)) (k1 := 0xE9) (by decide +kernel)
    (.inl (plain 0xE9 (by decide) (by decide) (by decide)))
  have := run _ hlen
  rw [stringTokens_between hF hR ha hb hlen (k0 := 0x63) (by decide +kernel)
      (plain 0x63 (by decide) (by decide) (by decide)) (k1 := 0xE9) (by decide +kernel)
      (.inl (plain 0xE9 (by decide) (by decide) (by decide))), List.map_append, List.map_append,
    (hA.unique (run a fa)).1.symm, (hB.unique (run b fb)).1.symm,
    stringTokens_latin hF hR (s := str "café") (ws := [str "café"]) (.inl (by decide +kernel)) (by decide +kernel)
      (by decide +kernel)] at this
  have hf : foldString (str "café") = (str "cafe", true) := by decide +kernel
  have ht : foldToken E.U (mkToken E.U (str "café") false) = mkToken E.U (str "cafe") true := by
    rw [foldToken]
    show (if (foldString (str "café")).2 then mkToken E.U (foldString (str "café")).1 true else _) = _
    rw [hf]; rfl
  simpa [ht] using this

end

/-- **C84 is violated.** The first example of filters/contractions/README.md does not hold: "don't" becomes
"do not", not "does not". And the flag `-cont` of the same page (lines 15-18) is refused: it is declared as
`-contractions`. -/
theorem C84_violated {E : Env} {cls : WordTable} (hE : E.Lawful) (hF : E.FollowsUax29 cls) (hR : cls.Right) :
    ¬ C84_full E cls ∧ MakesOf E cls (expand E) (str "don't") (["do", " ", "not"].map fun w => mkToken E.U (str w) false) ∧
    ∀ rest, parseFlags (str "-cont" :: rest) = .error .notDefined := by
  have hd := (docContractions_hold hE hF hR).2
  refine ⟨fun h => ?_, hd, fun rest => ?_⟩
  · have hdoc := h.2.1 docDont (by simp)
    have hoff : SetOffBefore [] ∧ SetOffAfter [] ∧ BrokenBefore [] ∧ BrokenAfter [] :=
      ⟨⟨[], [], rfl, by simp, Or.inl rfl⟩, ⟨[], [], rfl, by simp, Or.inl rfl⟩, Or.inl rfl, Or.inl rfl⟩
    obtain ⟨h1, h2, h3, h4⟩ := hoff
    have hnil : (expand E (tokenizeString E [])).Yields [] .eof := by
      have hg := (C76_scanner_laws hF hR).2.2.2
      have := expandWith_yields hE hg (stringTokens_yields (s := []) hE (by rw [hF [] .nil]))
      rwa [show stringTokens E [] = [] by rw [stringTokens, hF [] .nil]; rfl] at this
    have e1 := hdoc [] [] h1 h2 h3 h4 (.inl (by decide +kernel)) _ _ hnil hnil
    have e2 := hd [] [] h1 h2 h3 h4 (.inl (by decide +kernel)) _ _ hnil hnil
    have e := congrArg (List.map Token.value) (e1.unique e2).1
    revert e
    simp only [docDont, List.nil_append, List.append_nil, List.map_map]
    show ["does", " ", "not"].map str = ["do", " ", "not"].map str → False
    decide +kernel
  · rw [parseFlags]
    rw [if_neg (by decide +kernel), if_neg (by decide +kernel)]
    simp only [show (str "-cont").drop 1 = str "cont" by decide +kernel,
      show (str "cont").head? ≠ some 0x2D by decide +kernel, ↓reduceIte]
    rw [if_neg (by decide +kernel), show splitEquals (str "cont") = (str "cont", none) by decide +kernel]
    simp only [show declaredFlags.lookup (str "cont") = none by decide +kernel]
    rw [if_neg (by decide +kernel)]

/-- **C84, partial.** All other examples hold wherever they stand in a text. What is missing for `C84_full`:
"don't". (The examples for the stemmer depend on the snowball library, which is not modelled; those for
hashtags and handles are in C78.) -/
theorem C84_partial {E : Env} {cls : WordTable} (hE : E.Lawful) (hF : E.FollowsUax29 cls) (hR : cls.Right)
    (hU : E.U.LowersLatin) (hP : E.U.PunctLatin) :
    (∀ x ∈ docTags, MakesOf E cls (tags E) (str x.1) [mkToken E.U (str x.2) true]) ∧
    (∀ x ∈ docContractions, MakesOf E cls (expand E) (str x.1) (x.2.map fun w => mkToken E.U (str w) false)) ∧
    (∀ x ∈ docFolds, MakesOf E cls (asciiFold E.U) (str x.1) [mkToken E.U (str x.2) true]) :=
  ⟨docTags_hold hE hF hR hU hP, (docContractions_hold hE hF hR).1, docFolds_hold hE hF hR⟩

/-- Non-vacuity: "React JS" in "Learn (React JS), now". -/
example : ∃ A B, (tags uaxEnv (tokenizeString uaxEnv (str "Learn (" ++ str "React JS" ++ str "), now"))).Yields
    (A ++ [mkToken uaxEnv.U (str "reactjs") true] ++ B) .eof := by
  have hlaw := C76_scanner_laws uaxEnv_follows uaxTable_right
  have hsc : ∀ m ∈ stackOverflowMappings, (uaxEnv.scan { data := m.1 }).2 = none := fun m hm => (hlaw.2.1 m hm).scans
  have out : ∀ t : Bytes, Fits uaxTable t → ∃ A, (tags uaxEnv (tokenizeString uaxEnv t)).Yields A .eof := by
    intro t ht
    obtain ⟨A, -, -, h⟩ := C31_synonyms_greedy uaxEnv_lawful stackOverflowMappings true stackOverflowIgnore hsc
      (stringTokens_yields (s := t) uaxEnv_lawful (by rw [uaxEnv_follows t ht]))
    exact ⟨A, h⟩
  obtain ⟨A, hA⟩ := out (str "Learn (") (.inl (by decide +kernel))
  obtain ⟨B, hB⟩ := out (str "), now") (.inl (by decide +kernel))
  exact ⟨A, B, (C84_partial uaxEnv_lawful uaxEnv_follows uaxTable_right uaxEnv_lowers uaxEnv_punct).1
    ("React JS", "reactjs") (by simp [docTags]) (str "Learn (") (str "), now")
    ⟨str "Learn (", [], by simp, by simp, Or.inr ⟨str "Learn ", 0x28, by decide +kernel, by decide +kernel⟩⟩
    ⟨[], str "), now", by simp, by simp, Or.inr ⟨0x29, str ", now", by decide +kernel, by decide +kernel⟩⟩
    (Or.inr ⟨str "Learn ", 0x28, by decide +kernel, Or.inl (by decide +kernel)⟩)
    (Or.inr ⟨0x29, str ", now", by decide +kernel, Or.inl ⟨by decide +kernel,
      Or.inr ⟨0x2C, str " now", by decide +kernel, by decide, by decide⟩⟩⟩)
    (.inl (by decide +kernel)) A B hA hB⟩

/-- Non-vacuity of `C79_between_words`: "We use Ruby on Rails daily". -/
example : ∃ A B, (tags uaxEnv (tokenizeString uaxEnv (str "We use " ++ str "Ruby on Rails" ++ str " daily"))).Yields
    (A ++ [mkToken uaxEnv.U (str "ruby-on-rails") true] ++ B) .eof := by
  have hlaw := C76_scanner_laws uaxEnv_follows uaxTable_right
  have hsc : ∀ m ∈ stackOverflowMappings, (uaxEnv.scan { data := m.1 }).2 = none := fun m hm => (hlaw.2.1 m hm).scans
  have out : ∀ t : Bytes, Fits uaxTable t → ∃ A, (tags uaxEnv (tokenizeString uaxEnv t)).Yields A .eof := by
    intro t ht
    obtain ⟨A, -, -, h⟩ := C31_synonyms_greedy uaxEnv_lawful stackOverflowMappings true stackOverflowIgnore hsc
      (stringTokens_yields (s := t) uaxEnv_lawful (by rw [uaxEnv_follows t ht]))
    exact ⟨A, h⟩
  obtain ⟨A, hA⟩ := out (str "We use ") (.inl (by decide +kernel))
  obtain ⟨B, hB⟩ := out (str " daily") (.inl (by decide +kernel))
  have hmem : (str "ruby on rails", str "ruby-on-rails") ∈ stackOverflowMappings := by
    rw [stackOverflow_rows]
    refine List.mem_map.mpr ⟨(n!"ruby on rails", n!"ruby-on-rails"), mem_so 7 rfl ?_, ?_⟩ <;> decide +kernel
  have hS := written_tags uaxEnv_lawful uaxEnv_follows uaxTable_right uaxEnv_lowers uaxEnv_punct hmem
    (s := str "ruby on rails") (s' := str "Ruby on Rails")
    ⟨[], [], [], by simp, Or.inl rfl, Or.inl rfl, by simp, by decide +kernel, by decide +kernel⟩
    (by decide +kernel) (by decide +kernel)
  have toks := fun (s : Bytes) h1 h2 => tokensOf_string (s := s) uaxEnv_follows uaxTable_right h1 h2
  have known := fun (s : Bytes) h => wordsB_known (l := runes s) uaxTable_right h
  have cross := fun (xs ys : List Token) (gx gy : List (List Nat)) h1 h2 h3 h4 h5 =>
    noCrossB_spec (E := uaxEnv) uaxEnv_lowers uaxEnv_punct so_all (table_cuts uaxEnv_follows uaxTable_right so_words)
      (xs := xs) (ys := ys) (gx := gx) (gy := gy) h1 h2 h3 h4 h5
  refine ⟨A, B, C79_between_words uaxEnv_lawful uaxEnv_follows uaxTable_right hsc
    ⟨str "We use ", [], by simp, by simp, Or.inr ⟨str "We use", 0x20, by decide +kernel, by decide +kernel⟩⟩
    ⟨[], str " daily", by simp, by simp, Or.inr ⟨0x20, str "daily", by decide +kernel, by decide +kernel⟩⟩
    (.inl (by decide +kernel)) (r0 := 0x52) (r1 := 0x73) (by decide +kernel) (by decide +kernel) (by decide +kernel)
    (.inl (by decide +kernel)) ?_ ?_ hA hS hB⟩
  · rw [stackOverflow_rows]
    have h1 := toks (str "Ruby on Rails") (.inl (by decide +kernel)) (by decide +kernel)
    have h2 := toks (str " daily") (.inl (by decide +kernel)) (by decide +kernel)
    refine cross _ _ _ _ (toks _ (.inl (by decide +kernel)) (by decide +kernel))
      ⟨by rw [List.map_append, h1.1, h2.1], ?_⟩ (known _ (by decide +kernel)) ?_ (by decide +kernel)
    · intro t ht
      exact (List.mem_append.mp ht).elim (h1.2 t) (h2.2 t)
    · intro g hg
      exact (List.mem_append.mp hg).elim (known _ (by decide +kernel) g) (known _ (by decide +kernel) g)
  · rw [stackOverflow_rows]
    exact cross _ _ _ _ (toks _ (.inl (by decide +kernel)) (by decide +kernel))
      (toks _ (.inl (by decide +kernel)) (by decide +kernel)) (known _ (by decide +kernel)) (known _ (by decide +kernel))
      (by decide +kernel)

end Jargon
