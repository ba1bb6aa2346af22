import Verif.Proofs.Listed
import Verif.Proofs.LostTexts
import Verif.Props.Contractions

/-! C76: the word rules of UAX #29 give what is assumed of the scanner. C58, C65: with them, exactly which
listed synonyms and names are recognised. -/

namespace Jargon

/-! ### C76 -/

section
variable {E : Env} {cls : WordTable}

/-- What is checked of a row, in terms of the words of its texts. -/
theorem wordRowB_spec {ign : List Nat} {maxW : Nat} {lost : List Nat} {row : Nat × Nat}
    (h : wordRowB ign maxW lost row = true) :
    knownB (runes (textOf row.1)) = true ∧ (textOf row.1).length < 0x10000 ∧
    (∀ g ∈ (wordsB (runes (textOf row.1)) 0).2.2, 0x2C ∈ g → g = [0x2C]) ∧
    ∀ p ∈ cutRunes (runes (textOf row.1)),
      textB ign maxW lost (dropB p) (wordsB (dropB p) 0).2.2 = true := by
  simp only [wordRowB, Bool.and_eq_true, runesB_eq, cutB_eq, List.all_eq_true, Nat.ble_eq] at h
  obtain ⟨⟨⟨h1, h2⟩, h3⟩, h4⟩ := h
  refine ⟨h1, ?_, ?_, h4⟩
  · rw [← textOf_toNat, List.length_map] at h2; omega
  · intro g hg hc
    have := h3 g hg
    rw [(memB_iff _ _).mpr hc] at this
    exact eqB_eq this

theorem runes_comma {s : Bytes} (h : runes s = [0x2C]) : s = [0x2C] :=
  (runes_inj (by rw [h]; decide) h : s = [0x2C])

theorem table_cuts (hF : E.FollowsUax29 cls) (hR : cls.Right) {ign : List Nat} {maxW : Nat}
    {lost : List Nat} {rows : List (Nat × Nat)} (h : ∀ row ∈ rows, wordRowB ign maxW lost row = true) :
    ∀ m ∈ tableOf rows, E.CutsCommas m.1 := by
  intro m hm
  simp only [tableOf, List.mem_map] at hm
  obtain ⟨row, hrow, rfl⟩ := hm
  obtain ⟨h1, h2, h3, -⟩ := wordRowB_spec (h row hrow)
  have hs := hF _ (.inl h2)
  refine ⟨by rw [hs], by rw [hs]; exact wordSegs_whole _ _, ?_⟩
  intro seg hseg hc
  rw [hs] at hseg
  have hmem : runes seg ∈ (wordSegs cls (textOf row.1)).map runes := List.mem_map_of_mem hseg
  rw [wordSegs_runes, cutWords_known hR h1] at hmem
  exact runes_comma (h3 _ hmem hc)

theorem so_words : ∀ row ∈ soRows.flatten, wordRowB stackOverflowIgnore 5 soLost row = true := by
  intro row hrow
  obtain ⟨rows, hr, hm⟩ := List.mem_flatten.mp hrow
  exact List.all_eq_true.mp (soRows_words rows hr) row hm

theorem nba_words : ∀ row ∈ nbaRows.flatten, wordRowB nbaIgnore 2 nbaLost row = true := by
  intro row hrow
  obtain ⟨rows, hr, hm⟩ := List.mem_flatten.mp hrow
  exact List.all_eq_true.mp (nbaRows_words rows hr) row hm

/-- The expansions of contractions are short. -/
theorem expansions_short : contractionMappings.all (fun m => m.2.length < 0x10000 && m.2 ≠ []) = true := by
  decide +kernel

/-- **C76.** A scanner that follows the word rules of UAX #29 never cuts within a character, delivers the
whole of every text of less than 64 KiB, or of any size with short words, in non-empty words, sets the commas of the shipped tables apart,
and gets through the expansions of contractions: all that is assumed of it elsewhere. -/
theorem C76_scanner_laws (hF : E.FollowsUax29 cls) (hR : cls.Right) :
    (∀ s : Bytes, Fits cls s → (E.scan { data := s }).2 = none ∧
      (E.scan { data := s }).1.flatten = s ∧ (∀ seg ∈ (E.scan { data := s }).1, seg ≠ []) ∧
      (E.scan { data := s }).1.flatMap runes = runes s) ∧
    (∀ m ∈ stackOverflowMappings, E.CutsCommas m.1) ∧ (∀ m ∈ nbaMappings, E.CutsCommas m.1) ∧
    GoodTable E contractionMappings := by
  refine ⟨?_, ?_, ?_, ?_, ?_⟩
  · intro s hs
    rw [hF s hs]
    exact ⟨rfl, wordSegs_flatten _ _, wordSegs_nonempty _ _, wordSegs_whole _ _⟩
  · rw [stackOverflow_rows]; exact table_cuts hF hR so_words
  · rw [nba_rows]; exact table_cuts hF hR nba_words
  · intro k x hm
    have := List.all_eq_true.mp expansions_short _ hm
    simp only [Bool.and_eq_true, decide_eq_true_eq] at this
    rw [hF x (.inl this.1)]
  · intro k x hm
    have := List.all_eq_true.mp expansions_short _ hm
    simp only [Bool.and_eq_true, decide_eq_true_eq] at this
    exact this.2

end

/-- A table of word classes. -/
def uaxTable : WordTable := fun r =>
  if r < 0x180 then latinWB r else if r = 0x2019 then (.midNumLet, false) else (.other, false)

theorem uaxTable_right : uaxTable.Right where
  latin r hr _ := if_pos hr
  apostrophe := by decide
  ideograph r h1 h2 := by
    rw [uaxTable, if_neg (by omega), if_neg (by omega)]
  cr r hr := by
    by_cases h : r < 0x180
    · have : ∀ r < 0x180, (uaxTable r).1 = .cr → r = 0x0D := by decide +kernel
      exact this r h hr
    · rw [uaxTable, if_neg h] at hr
      split at hr <;> cases hr

/-- An environment that follows UAX #29. -/
def uaxEnv : Env where
  U := { latinEnv.U with isPunct := fun r => decide (r ∈ latinPunct) }
  scan r := (wordSegs uaxTable r.data, r.err)

theorem uaxEnv_follows : uaxEnv.FollowsUax29 uaxTable := fun _ _ => rfl

theorem uaxEnv_lawful : uaxEnv.Lawful where
  nonempty r := wordSegs_nonempty uaxTable r.data
  complete r h := ⟨h, wordSegs_flatten uaxTable r.data⟩
  sound r := ⟨[], by rw [List.append_nil]; exact wordSegs_flatten uaxTable r.data⟩

theorem uaxEnv_lowers : uaxEnv.U.LowersLatin := latinEnv_lowers

theorem uaxEnv_punct : uaxEnv.U.PunctLatin := fun _ _ => rfl

/-- Non-vacuity: there is such an environment; "node.js 1,000 can't" is cut into five words. -/
example : (uaxEnv.scan { data := str "node.js 1,000 can't" }).1 =
    ["node.js", " ", "1,000", " ", "can't"].map str := by decide +kernel

/-- Latin letters and digits are not punctuation. -/
theorem PunctLatin.plain {U : Unicode} (h : U.PunctLatin) : U.PlainNotPunct := by
  intro r hr
  have hlt : r < 0x180 := by
    simp only [isPlain, Bool.or_eq_true, Bool.and_eq_true, decide_eq_true_eq] at hr
    omega
  rw [h r hlt, decide_eq_false_iff_not]
  intro hm
  have : ∀ r ∈ latinPunct, isPlain r = false := by decide +kernel
  rw [this r hm] at hr
  cases hr

/-! ### C58, C65 -/

section
variable {E : Env} {cls : WordTable}

theorem lostB_spec {lost : List Nat} (h : lostB lost = true) {n : Nat} (hn : n ∈ lost) :
    knownB (runes (textOf n)) = true ∧ badB (wordsB (runes (textOf n)) 0).2.2 = true := by
  have := List.all_eq_true.mp h n hn
  simpa only [runesB_eq, Bool.and_eq_true] using this

theorem known_no_error {l : List Nat} (h : knownB l = true) : runeError ∉ l :=
  fun hm => knownB_spec h _ hm (by decide)

theorem wordsB_known (hR : cls.Right) {l : List Nat} (h : knownB l = true) :
    ∀ g ∈ (wordsB l 0).2.2, ∀ r ∈ g, codeB r ≠ 9 := by
  rw [← cutWords_known hR h]
  intro g hg r hr
  refine knownB_spec h r ?_
  rw [← cutWords_flatten (cls := cls) [] l]
  exact List.mem_flatten.mpr ⟨g, hg, hr⟩

theorem knownB_of {l : List Nat} (h : ∀ r ∈ l, codeB r ≠ 9) : knownB l = true := by
  induction l with
  | nil => rfl
  | cons r rs ih =>
    have e : knownB (r :: rs) = bif Nat.beq (codeB r) 9 then false else knownB rs := rfl
    have hb : Nat.beq (codeB r) 9 = false := by
      rw [Bool.eq_false_iff]
      exact fun hb => h r (by simp) (Nat.eq_of_beq_eq_true hb)
    rw [e, hb]
    exact ih fun x hx => h x (by simp [hx])

/-- The words of a listed text, and whether it is one of the lost ones. -/
theorem listed_text {ign : List Nat} {maxW : Nat} {lost : List Nat}
    (hl : lostB lost = true) {row : Nat × Nat} (h : wordRowB ign maxW lost row = true) {s : Bytes}
    (hs : ListedText s (textOf row.1)) :
    knownB (runes s) = true ∧ s.length < 0x10000 ∧
    (s ∈ lost.map textOf → badB (wordsB (runes s) 0).2.2 = true) ∧
    (s ∉ lost.map textOf → goodB ign maxW (wordsB (runes s) 0).2.2 = true ∧ edgeB (runes s) = true) := by
  obtain ⟨h1, h2, -, h4⟩ := wordRowB_spec h
  obtain ⟨p, hp, hps⟩ := hs.piece
  have hk : knownB (runes s) = true := by
    refine knownB_of fun r hr => knownB_spec h1 r (cutRunes_subset hp r ?_)
    rw [← hps] at hr
    clear * - hr
    induction p with
    | nil => exact hr
    | cons a p ih =>
      have e : dropB (a :: p) = bif Nat.beq a 0x20 then dropB p else a :: p := rfl
      rw [e] at hr
      cases hb : Nat.beq a 0x20
      · rw [hb] at hr; exact hr
      · rw [hb] at hr; exact List.mem_cons_of_mem _ (ih hr)
  have ht := h4 p hp
  rw [hps, textB] at ht
  refine ⟨hk, ?_, ?_, ?_⟩
  · obtain ⟨pre, sp, post, he, -⟩ := hs
    rw [he] at h2
    simp only [List.length_append] at h2
    omega
  · intro hm
    obtain ⟨n, hn, rfl⟩ := List.mem_map.mp hm
    exact (lostB_spec hl hn).2
  · intro hm
    cases hb : badB (wordsB (runes s) 0).2.2
    · rw [hb, cond_false, Bool.and_eq_true] at ht; exact ht
    · rw [hb, cond_true, List.any_eq_true] at ht
      obtain ⟨n, hn, he⟩ := ht
      rw [runesB_eq] at he
      exact absurd (List.mem_map.mpr ⟨n, hn, (runes_inj (known_no_error hk) (eqB_eq he)).symm⟩) hm

/-- The dictionary has every listed text. -/
theorem listed_dict (hF : E.FollowsUax29 cls) (hR : cls.Right) (hU : E.U.LowersLatin) {ign : List Nat}
    {maxW : Nat} {lost : List Nat} {tree : Tree} {rows : List (Nat × Nat)}
    (hw : ∀ row ∈ rows, wordRowB ign maxW lost row = true)
    (hc : ∀ row ∈ rows, rowB ign tree row = true) {row : Nat × Nat} (hrow : row ∈ rows) {s : Bytes}
    (hs : ListedText s (textOf row.1)) :
    (Compare.mk E.U true ign).dict (entries E (tableOf rows)) (normalB ign (runes s)) =
      some (textOf row.2) := by
  have hk := table_cuts hF hR hw
  obtain ⟨p, hp, hps⟩ := hs.piece
  have := dict_of_piece hU hc hk hrow hp
  have hnorm : normalB ign p = normalB ign (dropB p) := by
    obtain ⟨hsub, -, -⟩ := rowB_spec (hc row hrow)
    have hsub : ∀ r ∈ p, isSpaceRune r = true → latinLower r ∈ ign :=
      fun r hr => (hsub r (cutRunes_subset hp r hr)).2
    clear * - hsub
    induction p with
    | nil => rfl
    | cons a p ih =>
      have e : dropB (a :: p) = bif Nat.beq a 0x20 then dropB p else a :: p := rfl
      rw [e]
      cases hb : Nat.beq a 0x20
      · rfl
      · have ha := Nat.eq_of_beq_eq_true hb
        have e2 : normalB ign (a :: p) =
          bif memB (lowerB a) ign then normalB ign p else lowerB a :: normalB ign p := rfl
        rw [e2, lowerB_eq, (memB_iff _ _).mpr (hsub a (by simp) (by rw [ha]; decide))]
        exact ih fun r hr => hsub r (by simp [hr])
  rw [hnorm, hps] at this
  exact this

/-- With the words of the annex, a listed text is replaced exactly if it is not one of the lost ones. -/
theorem listed_greedy (hF : E.FollowsUax29 cls) (hR : cls.Right) (hU : E.U.LowersLatin)
    (hP : E.U.PunctLatin) {ign : List Nat} {maxW : Nat} {lost : List Nat} {tree : Tree}
    {rows : List (Nat × Nat)} (hl : lostB lost = true)
    (hw : ∀ row ∈ rows, wordRowB ign maxW lost row = true)
    (hc : ∀ row ∈ rows, rowB ign tree row = true)
    (hp : rows.all (fun r => plainB (runesB r.2)) = true)
    (hmax : maxW ≤ wordLimit (entries E (tableOf rows)))
    {k v s : Bytes} (hm : (k, v) ∈ tableOf rows) (hs : ListedText s k) :
    Greedy ⟨E.U, true, ign⟩ ((Compare.mk E.U true ign).dict (entries E (tableOf rows)))
      (wordLimit (entries E (tableOf rows))) (stringTokens E s) [mkToken E.U v true] ↔
      s ∉ lost.map textOf := by
  have hk := table_cuts hF hR hw
  have hv := (mkToken_word (PunctLatin.plain hP) true (row_plain hp hm)).2
  have hm' := hm
  simp only [tableOf, List.mem_map] at hm'
  obtain ⟨row, hrow, hrv⟩ := hm'
  obtain ⟨rfl, rfl⟩ := Prod.mk.inj hrv
  obtain ⟨h1, h2, h3, h4⟩ := listed_text hl (hw row hrow) hs
  have htok := tokensOf_string hF hR (.inl h2) h1
  have hkn := wordsB_known hR h1
  have hsp : (Compare.mk E.U true ign).spell (stringTokens E s) = normalB ign (runes s) := by
    rw [Compare.spell]
    have : (stringTokens E s).flatMap (fun t => runes t.value) = runes s := by
      rw [List.flatMap_def, htok.1, ← cutWords_known hR h1, cutWords_flatten]
    rw [this, normalB_eq hU]
    exact fun r hr => codeB_lt (knownB_spec h1 r hr)
  have hd := listed_dict hF hR hU hw hc hrow hs
  constructor
  · intro hg hlost
    obtain ⟨t, ht, htp, htl⟩ := bad_punct hP htok hkn (h3 hlost)
    have hmem := hg.punct_mem ht htp
    rw [List.mem_singleton] at hmem
    rw [hmem] at htl
    cases htl
  · intro hlost
    have hg := good_greedy (D := (Compare.mk E.U true ign).dict (entries E (tableOf rows))) hU hP htok hkn
      hmax (h4 hlost).1 (by rw [hsp]; exact hd)
    simp only [canonTokens, hv, ↓reduceIte] at hg
    exact hg

/-- With the words of the annex, a listed text is recognised exactly if it is not one of the lost ones. -/
theorem listed_exact (hE : E.Lawful) (hF : E.FollowsUax29 cls) (hR : cls.Right) (hU : E.U.LowersLatin)
    (hP : E.U.PunctLatin) {ign : List Nat} {maxW : Nat} {lost : List Nat} {tree : Tree}
    {rows : List (Nat × Nat)} (hl : lostB lost = true)
    (hw : ∀ row ∈ rows, wordRowB ign maxW lost row = true)
    (hc : ∀ row ∈ rows, rowB ign tree row = true)
    (hp : rows.all (fun r => plainB (runesB r.2)) = true)
    (hmax : maxW ≤ wordLimit (entries E (tableOf rows)))
    {k v s : Bytes} (hm : (k, v) ∈ tableOf rows) (hs : ListedText s k) :
    (synonyms E (tableOf rows) true ign (tokenizeString E s)).Yields [mkToken E.U v true] .eof ↔
      s ∉ lost.map textOf := by
  rw [← listed_greedy hF hR hU hP hl hw hc hp hmax hm hs]
  have hk := table_cuts hF hR hw
  have hm' := hm
  simp only [tableOf, List.mem_map] at hm'
  obtain ⟨row, hrow, hrv⟩ := hm'
  obtain ⟨rfl, rfl⟩ := Prod.mk.inj hrv
  have h2 := (listed_text hl (hw row hrow) hs).2.1
  have hy := stringTokens_yields (s := s) hE (by rw [hF s (.inl h2)])
  constructor
  · intro hyields
    obtain ⟨out, hg⟩ := Greedy.total (Compare.mk E.U true ign)
      ((Compare.mk E.U true ign).dict (entries E (tableOf rows))) (wordLimit (entries E (tableOf rows)))
      (stringTokens E s)
    have hout := synonyms_yields hE (fun m hm => (hk m hm).scans) hy hg
    simp only [↓reduceIte] at hout
    rwa [(hyields.unique hout).1]
  · intro hg
    have hout := synonyms_yields hE (fun m hm => (hk m hm).scans) hy hg
    simpa using hout

/-- A row that lists one text has as many words as it. -/
theorem wordLimit_row (hF : E.FollowsUax29 cls) (hR : cls.Right) (hP : E.U.PunctLatin)
    {rows : List (Nat × Nat)} {row : Nat × Nat} (hrow : row ∈ rows)
    (hk : knownB (runesB row.1) = true) (hlen : (natsOf row.1).length < 0x10000)
    (hc : memB 0x2C (runesB row.1) = false)
    (hsp : List.rec (motive := fun _ => Bool) false (fun g _ _ => !allSpaceB g) (wordsB (runesB row.1) 0).2.2 = true) :
    countB (wordsB (runesB row.1) 0).2.2 ≤ wordLimit (entries E (tableOf rows)) := by
  rw [runesB_eq] at hk hc hsp ⊢
  rw [← textOf_toNat, List.length_map] at hlen
  have htok := tokensOf_string hF hR (.inl hlen) hk
  have hkn := wordsB_known hR hk
  rw [← htok.words hP hkn]
  have hno : ∀ t ∈ stringTokens E (textOf row.1), t.value ≠ [0x2C] := by
    intro t ht he
    have hm := htok.1
    have hg : runes t.value ∈ (wordsB (runes (textOf row.1)) 0).2.2 := by
      rw [← hm]; exact List.mem_map_of_mem (f := fun t : Token => runes t.value) ht
    rw [← cutWords_known hR hk] at hg
    have : 0x2C ∈ runes (textOf row.1) := by
      rw [← cutWords_flatten (cls := cls) [] (runes (textOf row.1))]
      exact List.mem_flatten.mpr ⟨_, hg, by rw [he]; decide⟩
    rw [Bool.eq_false_iff] at hc
    exact hc ((memB_iff _ _).mpr this)
  have hpieces : ∀ toks : List Token, (∀ t ∈ toks, t.value ≠ [0x2C]) → pieces toks = [toks] := by
    intro toks h
    induction toks with
    | nil => rfl
    | cons t ts ih =>
      rw [pieces, if_neg (h t (by simp)), ih fun x hx => h x (by simp [hx])]
  have hmem : (stringTokens E (textOf row.1), textOf row.2) ∈ entries E (tableOf rows) := by
    simp only [entries, List.mem_flatMap, List.mem_map]
    refine ⟨(textOf row.1, textOf row.2), List.mem_map_of_mem (f := fun r : Nat × Nat => (textOf r.1, textOf r.2)) hrow,
      stringTokens E (textOf row.1), ?_, rfl⟩
    rw [listed, hpieces _ hno, List.map_singleton, List.mem_singleton]
    cases hl : stringTokens E (textOf row.1) with
    | nil => rfl
    | cons t ts =>
      have hts := htok.1
      rw [hl, List.map_cons] at hts
      rw [← hts] at hsp
      have hspace := htok.space (t := t) (by rw [hl]; simp)
      have : allSpaceB (runes t.value) = false := by simpa using hsp
      rw [List.dropWhile_cons, hspace, this]
      rfl
  exact wordLimit_ge hmem

end

/-- The longest synonym of the Stack Overflow table has at least five words. -/
theorem so_limit {E : Env} {cls : WordTable} (hF : E.FollowsUax29 cls) (hR : cls.Right) (hP : E.U.PunctLatin) :
    5 ≤ wordLimit (entries E (tableOf soRows.flatten)) := by
  have hrow : ((n!"google maps android api 2", n!"google-maps-android-api-2") : Nat × Nat) ∈ soRows.flatten :=
    mem_so 3 rfl (by decide +kernel)
  have := wordLimit_row (E := E) hF hR hP hrow (by decide +kernel) (by decide +kernel) (by decide +kernel)
    (by decide +kernel)
  refine Nat.le_trans ?_ this
  decide +kernel

/-- The longest name of the NBA table has at least two words. -/
theorem nba_limit {E : Env} {cls : WordTable} (hF : E.FollowsUax29 cls) (hR : cls.Right) (hP : E.U.PunctLatin) :
    2 ≤ wordLimit (entries E (tableOf nbaRows.flatten)) := by
  have hrow : ((n!"Aaron Gordon", n!"Aaron Gordon") : Nat × Nat) ∈ nbaRows.flatten :=
    List.mem_flatten.mpr ⟨_, List.mem_of_getElem? (i := 0) rfl, pairB_mem (by decide +kernel)⟩
  have := wordLimit_row (E := E) hF hR hP hrow (by decide +kernel) (by decide +kernel) (by decide +kernel)
    (by decide +kernel)
  refine Nat.le_trans ?_ this
  decide +kernel

/-- **C58, exactly.** With the word rules of UAX #29, a text that is one of the 4,079 synonyms listed in
the Stack Overflow table is replaced by its canonical, unless it is one of 45. -/
theorem C58_uax29 {E : Env} {cls : WordTable} (hE : E.Lawful) (hF : E.FollowsUax29 cls) (hR : cls.Right)
    (hU : E.U.LowersLatin) (hP : E.U.PunctLatin) {k v s : Bytes} (hm : (k, v) ∈ stackOverflowMappings)
    (hs : ListedText s k) :
    (tags E (tokenizeString E s)).Yields [mkToken E.U v true] .eof ↔ s ∉ soLost.map textOf := by
  rw [tags]
  rw [stackOverflow_rows] at hm ⊢
  exact listed_exact hE hF hR hU hP soLost_checked so_words so_all soRows_plain (so_limit hF hR hP) hm hs

/-- **C65, exactly for the names as listed.** With the word rules of UAX #29, a text that is one of the 530
names listed in the NBA table is replaced by the player's name, unless it is one of 30. -/
theorem C65_uax29 {E : Env} {cls : WordTable} (hE : E.Lawful) (hF : E.FollowsUax29 cls) (hR : cls.Right)
    (hU : E.U.LowersLatin) (hP : E.U.PunctLatin) {k v s : Bytes} (hm : (k, v) ∈ nbaMappings)
    (hs : ListedText s k) :
    (currentPlayers E (tokenizeString E s)).Yields [mkToken E.U v true] .eof ↔ s ∉ nbaLost.map textOf := by
  rw [currentPlayers]
  rw [nba_rows] at hm ⊢
  exact listed_exact hE hF hR hU hP nbaLost_checked nba_words nba_all nbaRows_plain (nba_limit hF hR hP) hm hs

/-- Non-vacuity: "ror" is listed and not lost; "c#" is listed and lost. -/
example : soLost.length = 45 ∧ nbaLost.length = 30 ∧ str "java applet" ∉ soLost.map textOf ∧
    str "c#" ∈ soLost.map textOf ∧ ListedText (str "applets") (str "java applet, applets") :=
  ⟨rfl, rfl, by decide +kernel, by decide +kernel,
    str "java applet,", str " ", [], by decide +kernel, Or.inr ⟨str "java applet", by decide +kernel⟩,
    Or.inl rfl, by decide +kernel, by decide +kernel, by decide +kernel⟩

/-- "node.js" and "c++" are recognised, ".net" and "c#" are not. -/
example : (∀ s ∈ ["node.js", "c++"], (tags uaxEnv (tokenizeString uaxEnv (str s))).Yields
      [mkToken uaxEnv.U (str s) true] .eof) ∧
    ∀ s ∈ [".net", "c#"], ¬ (tags uaxEnv (tokenizeString uaxEnv (str s))).Yields
      [mkToken uaxEnv.U (str s) true] .eof := by
  have listed : ∀ s : Bytes, s.head? ≠ some 0x20 → 0x2C ∉ s → ListedText s s := fun s h1 h2 =>
    ⟨[], [], [], by simp, Or.inl rfl, Or.inl rfl, by simp, h1, h2⟩
  have mem : ∀ {n v : Nat} (i : Nat) {rows}, soRows[i]? = some rows → pairB n v rows = true →
      (textOf n, textOf v) ∈ stackOverflowMappings := by
    intro n v i rows hi h
    rw [stackOverflow_rows]
    exact List.mem_map_of_mem (f := fun r : Nat × Nat => (textOf r.1, textOf r.2)) (mem_so (row := (n, v)) i hi h)
  have key : ∀ {k s}, (k, s) ∈ stackOverflowMappings → ListedText s k → _ := fun hm hl =>
    C58_uax29 uaxEnv_lawful uaxEnv_follows uaxTable_right uaxEnv_lowers uaxEnv_punct hm hl
  refine ⟨?_, ?_⟩
  · intro s hs
    simp only [List.mem_cons, List.not_mem_nil, or_false] at hs
    rcases hs with rfl | rfl
    · refine (key (k := str "node.js") ?_ (listed _ (by decide +kernel) (by decide +kernel))).mpr (by decide +kernel)
      have := mem (n := n!"node.js") (v := n!"node.js") 5 rfl (by decide +kernel)
      rwa [show textOf n!"node.js" = str "node.js" by decide +kernel] at this
    · refine (key (k := str "c++") ?_ (listed _ (by decide +kernel) (by decide +kernel))).mpr (by decide +kernel)
      have := mem (n := n!"c++") (v := n!"c++") 1 rfl (by decide +kernel)
      rwa [show textOf n!"c++" = str "c++" by decide +kernel] at this
  · intro s hs
    simp only [List.mem_cons, List.not_mem_nil, or_false] at hs
    rcases hs with rfl | rfl
    · refine fun h => (key (k := str ".net") ?_ (listed _ (by decide +kernel) (by decide +kernel))).mp h (by decide +kernel)
      have := mem (n := n!".net") (v := n!".net") 0 rfl (by decide +kernel)
      rwa [show textOf n!".net" = str ".net" by decide +kernel] at this
    · refine fun h => (key (k := str "c#") ?_ (listed _ (by decide +kernel) (by decide +kernel))).mp h (by decide +kernel)
      have := mem (n := n!"c#") (v := n!"c#") 1 rfl (by decide +kernel)
      rwa [show textOf n!"c#" = str "c#" by decide +kernel] at this

end Jargon
