import Verif.Props.GenerateNba
import Verif.Props.Tags

/-! C65: how names of players may be written. -/

namespace Jargon

/-- A run of tokens that spells a synonym as a whole, and only as a whole, is replaced. -/
theorem greedy_whole {C : Compare} {D : Dict} {m : Nat} {first last : Token} {mid l : List Token}
    {canonical : Bytes} (hl : first :: mid = l ++ [last]) (hp : ∀ t ∈ first :: mid, t.punct = false)
    (hfirst : first.IsWord) (hlast : last.IsWord) (hspell : C.spell [last] ≠ [])
    (hw : words (first :: mid) ≤ m) (hd : D (C.spell (first :: mid)) = some canonical) :
    Greedy C D m (first :: mid) (canonTokens C.U canonical) := by
  have hlen : (first :: mid).length = l.length + 1 := by rw [hl]; simp
  have hg : Greedy C D m (first :: mid) (canonTokens C.U canonical ++ []) := by
    refine .replace (k := (first :: mid).length) hfirst ⟨⟨by simp, Nat.le_refl _, ?_, ?_⟩, ?_, ?_, ?_⟩ ?_
    · rw [List.take_length]; exact hp
    · have : words (first :: mid) = words l + 1 := by
        rw [hl]; simp [words, hlast]
      have htake : (first :: mid).take ((first :: mid).length - 1) = l := by
        rw [hlen, hl]; simp
      rw [htake]
      omega
    · rw [List.take_length]; exact hd
    · intro j hj hlt; have := hj.le; omega
    · intro j hj hlt heq
      rw [List.take_length] at heq
      have hjl : j ≤ l.length := by omega
      have h1 : (first :: mid).take j = l.take j := by rw [hl, List.take_append_of_le_length hjl]
      have h2 : C.spell (first :: mid) = C.spell (l.take j) ++ (C.spell (l.drop j) ++ C.spell [last]) := by
        rw [hl]
        conv_lhs => rw [← List.take_append_drop j l]
        simp only [Compare.spell, List.flatMap_append, normal_append, List.append_assoc]
      rw [h1, h2] at heq
      have := congrArg List.length heq
      rw [List.length_append, List.length_append] at this
      have hpos := List.length_pos_iff.mpr hspell
      omega
    · rw [List.drop_length]; exact .nil
  simpa using hg

/-- The letters of a name, without regard to case, diacritics, spaces, periods, apostrophes and dashes. -/
def loose (rs : List Rune) : List Rune :=
  ((rs.flatMap folded).map latinLower).filter fun r => r ∉ [0x20, 0x2E, 0x27, 0x2D, 0x2013]

/-- **C65, as filters/nba/filter.go:9-10 says.** The filter "is insensitive to spaces, dashes, apostrophes,
periods and diacritics in players' names": text that is a player's name up to these is replaced by it. -/
def C65_full : Prop := ∀ E : Env, E.Lawful → E.U.LowersLatin → E.U.PlainNotPunct →
  (∀ m ∈ nbaMappings, E.CutsCommas m.1) → ∀ k v, (k, v) ∈ nbaMappings → ∀ s, E.CutsCommas s →
  loose (runes s) = loose (runes v) → ∀ ts : TokenStream, ts.Yields (stringTokens E s) .eof →
  (currentPlayers E ts).Yields [mkToken E.U v true] .eof

/-- The rules by which `CurrentPlayers` compares. -/
def nbaCompare (E : Env) : Compare := ⟨E.U, true, nbaIgnore⟩

/-- The synonyms of `CurrentPlayers`. -/
def nbaDict (E : Env) : Dict := (nbaCompare E).dict (entries E nbaMappings)

theorem nbaDict_none {E : Env} (hU : E.U.LowersLatin) (hk : ∀ m ∈ nbaMappings, E.CutsCommas m.1)
    {q : List Nat} (hq : nbaTree.find (hash q) = none) : nbaDict E q = none := by
  rw [nbaDict]
  rw [nba_rows] at hk ⊢
  exact dict_absent hU nba_all hk hq

theorem players_yields {E : Env} (hE : E.Lawful) (hk : ∀ m ∈ nbaMappings, E.CutsCommas m.1)
    {ts : TokenStream} {toks out : List Token} (h : ts.Yields toks .eof)
    (hg : Greedy (nbaCompare E) (nbaDict E) (wordLimit (entries E nbaMappings)) toks out) :
    (currentPlayers E ts).Yields out .eof := by
  have := synonyms_yields hE (fun m hm => (hk m hm).scans) h hg
  simp only [↓reduceIte] at this
  exact this

theorem latinEnv_nba : ∀ m ∈ nbaMappings, latinEnv.CutsCommas m.1 := fun m _ => latinEnv_cuts m.1

/-- The runs of tokens without punctuation that start a list. -/
def runsAt : List Token → List (List Token)
  | [] => []
  | t :: ts => if t.punct then [] else [t] :: (runsAt ts).map (t :: ·)

/-- All runs of tokens without punctuation in a list that start with a word. -/
def runsOf : List Token → List (List Token)
  | [] => []
  | t :: ts => (if t.IsWord then runsAt (t :: ts) else []) ++ runsOf ts

theorem runsAt_mem {toks : List Token} {k : Nat} (h1 : 1 ≤ k) (h2 : k ≤ toks.length)
    (hp : ∀ t ∈ toks.take k, t.punct = false) : toks.take k ∈ runsAt toks := by
  induction toks generalizing k with
  | nil => simp at h2; omega
  | cons t ts ih =>
    obtain ⟨j, rfl⟩ : ∃ j, k = j + 1 := ⟨k - 1, by omega⟩
    rw [List.take_succ_cons] at hp ⊢
    rw [runsAt, hp t (by simp), if_neg (by simp)]
    by_cases hj : j = 0
    · simp [hj]
    · refine List.mem_cons_of_mem _ (List.mem_map_of_mem (ih (by omega) (by simp at h2; omega) ?_))
      exact fun x hx => hp x (by simp [hx])

/-- A text with none of the synonyms is left alone. -/
theorem greedy_none {C : Compare} {D : Dict} {m : Nat} (toks : List Token)
    (h : ∀ run ∈ runsOf toks, D (C.spell run) = none) : Greedy C D m toks toks := by
  induction toks with
  | nil => exact .nil
  | cons t ts ih =>
    have ih := ih fun run hr => h run (by rw [runsOf]; exact List.mem_append_right _ hr)
    by_cases hw : t.IsWord
    · refine .word hw (fun k hk => ?_) ih
      refine h _ (List.mem_append_left _ ?_)
      rw [if_pos hw]
      exact runsAt_mem hk.pos hk.le hk.noPunct
    · exact .separator hw ih

/-- Are no runs of the text in the table? -/
noncomputable def strangersB (toks : List Token) : Bool :=
  (runsOf toks).all fun run => (nbaTree.find (hash ((nbaCompare latinEnv).spell run))).isNone

theorem strangers {toks : List Token} (h : strangersB toks = true) {ts : TokenStream}
    (hy : ts.Yields toks .eof) : (currentPlayers latinEnv ts).Yields toks .eof := by
  refine players_yields latinEnv_lawful latinEnv_nba hy (greedy_none toks fun run hr => ?_)
  have := List.all_eq_true.mp h run hr
  rw [Option.isNone_iff_eq_none] at this
  exact nbaDict_none latinEnv_lowers latinEnv_nba this

theorem mem_nba {row : Nat × Nat} (i : Nat) {rows : List (Nat × Nat)} (hi : nbaRows[i]? = some rows)
    (h : pairB row.1 row.2 rows = true) : (textOf row.1, textOf row.2) ∈ nbaMappings := by
  rw [nba_rows]
  exact List.mem_map_of_mem (f := fun r : Nat × Nat => (textOf r.1, textOf r.2))
    (List.mem_flatten.mpr ⟨rows, List.mem_of_getElem? hi, pairB_mem h⟩)

/-- **C65 is violated (dashes).** "Al-Farouq Aminu" is listed, but not recognised, even as it is listed:
the dash is punctuation, and no run of tokens goes across punctuation. -/
theorem C65_violated_dash : ¬ C65_full ∧
    (str "Al-Farouq Aminu", str "Al-Farouq Aminu") ∈ nbaMappings ∧
    stringTokens latinEnv (str "Al-Farouq Aminu") = [lw "Al", lw "-", lw "Farouq", lw " ", lw "Aminu"] ∧
    (currentPlayers latinEnv (listStream (stringTokens latinEnv (str "Al-Farouq Aminu")) .eof)).Yields
      [lw "Al", lw "-", lw "Farouq", lw " ", lw "Aminu"] .eof := by
  have ht : stringTokens latinEnv (str "Al-Farouq Aminu") =
      [lw "Al", lw "-", lw "Farouq", lw " ", lw "Aminu"] := by decide +kernel
  have hm := mem_nba (row := (n!"Al-Farouq Aminu", n!"Al-Farouq Aminu")) 0 rfl (by decide +kernel)
  have htx : textOf n!"Al-Farouq Aminu" = str "Al-Farouq Aminu" := by decide +kernel
  simp only [htx] at hm
  have hy := listStream_yields [lw "Al", lw "-", lw "Farouq", lw " ", lw "Aminu"] .eof
  have hout := strangers (by decide +kernel) hy
  refine ⟨fun h => ?_, hm, ht, ht ▸ hout⟩
  have := h latinEnv latinEnv_lawful latinEnv_lowers latinEnv_plain latinEnv_nba _ _ hm
    (str "Al-Farouq Aminu") (latinEnv_cuts _) rfl (listStream _ .eof) (listStream_yields _ _)
  rw [ht] at this
  exact absurd (this.unique hout).1 (by decide +kernel)

/-- **C65 is violated (diacritics).** "Ante Žižić" is recognised with all of its diacritics or with none,
but not with some of them. -/
theorem C65_violated_diacritics : ¬ C65_full ∧
    (str "Ante Žižić, Ante Zizic", str "Ante Žižić") ∈ nbaMappings ∧
    loose (runes (str "Ante Žižic")) = loose (runes (str "Ante Žižić")) ∧
    (currentPlayers latinEnv (listStream [lw "Ante", lw " ", lw "Žižic"] .eof)).Yields
      [lw "Ante", lw " ", lw "Žižic"] .eof := by
  have ht : stringTokens latinEnv (str "Ante Žižic") = [lw "Ante", lw " ", lw "Žižic"] := by decide +kernel
  have hm := mem_nba (row := (n!"Ante Žižić, Ante Zizic", n!"Ante Žižić")) 0 rfl (by decide +kernel)
  have htx : textOf n!"Ante Žižić, Ante Zizic" = str "Ante Žižić, Ante Zizic" := by decide +kernel
  have htx' : textOf n!"Ante Žižić" = str "Ante Žižić" := by decide +kernel
  simp only [htx, htx'] at hm
  have hl : loose (runes (str "Ante Žižic")) = loose (runes (str "Ante Žižić")) := by decide +kernel
  have hy := listStream_yields [lw "Ante", lw " ", lw "Žižic"] .eof
  have hout := strangers (by decide +kernel) hy
  refine ⟨fun h => ?_, hm, hl, hout⟩
  have := h latinEnv latinEnv_lawful latinEnv_lowers latinEnv_plain latinEnv_nba _ _ hm
    (str "Ante Žižic") (latinEnv_cuts _) hl (listStream _ .eof) (listStream_yields _ _)
  rw [ht] at this
  exact absurd (this.unique hout).1 (by decide +kernel)

/-- The keys of the table have no more than one comma. -/
theorem nbaRows_commas : nbaRows.flatten.all (fun r => (natsOf r.1).count 0x2C ≤ 1) = true := by
  decide +kernel

/-- The two ways of writing a name that the table has. -/
theorem nba_folded {E : Env} (hU : E.U.LowersLatin) (hk : ∀ m ∈ nbaMappings, E.CutsCommas m.1)
    {k v : Bytes} (hm : (k, v) ∈ nbaMappings) :
    nbaDict E ((nbaCompare E).normal (runes v)) = some v ∧
    nbaDict E ((nbaCompare E).normal (runes (foldString v).1)) = some v := by
  have hself : nbaDict E ((nbaCompare E).normal (runes v)) = some v := by
    rw [nbaDict]
    rw [nba_rows] at hk hm ⊢
    exact dict_self hU nba_all hk nbaRows_self hm
  refine ⟨hself, ?_⟩
  cases hf : (foldString v).2 with
  | false =>
    have : (foldString v).1 = v := by
      rw [foldString_eq] at hf ⊢
      split at hf
      · cases hf
      · rename_i h; rw [if_neg h]
    rw [this]
    exact hself
  | true =>
    rw [nbaDict]
    rw [nba_rows] at hk hm ⊢
    obtain ⟨row, hrow, he⟩ := List.mem_map.mp hm
    cases he
    obtain ⟨last, first, last', first', -, hl, hfi, tl, tf, hv, hkey⟩ := (nba_row_entry hrow).1
    rw [hf, if_pos rfl] at hkey
    have hc : (natsOf row.1).count 0x2C ≤ 1 := by
      simpa using List.all_eq_true.mp nbaRows_commas row hrow
    have hcv : (0x2C : UInt8) ∉ textOf row.2 := by
      rw [hv]
      intro hm
      rcases List.mem_append.mp hm with hm | hm
      · exact hfi (trimmed_sub tf hm)
      · rcases List.mem_cons.mp hm with hm | hm
        · exact absurd hm (by decide)
        · exact hl (trimmed_sub tl hm)
    generalize hfold : (foldString (textOf row.2)).1 = f at hkey ⊢
    have hcf : (0x2C : UInt8) ∉ f := by
      intro hm
      have h1 : (textOf row.1).count 0x2C ≤ 1 := by
        have : (textOf row.1).count 0x2C ≤ ((textOf row.1).map UInt8.toNat).count (UInt8.toNat 0x2C) :=
          List.count_le_count_map
        rw [textOf_toNat] at this
        exact Nat.le_trans this hc
      rw [hkey, List.count_append, List.count_cons_self, List.count_cons_of_ne (by decide)] at h1
      have := List.count_pos_iff.mpr hm
      omega
    have hrunes : runes (textOf row.1) = runes (textOf row.2) ++ 0x2C :: 0x20 :: runes f := by
      rw [hkey, runes_append_ascii _ (by decide), runes_ascii_cons (by decide),
        runes_ascii_cons (by decide)]
      rfl
    have hcut : cutRunes (runes (textOf row.1)) = [runes (textOf row.2), 0x20 :: runes f] := by
      have h2 : cutRunes (0x20 :: runes f) = [0x20 :: runes f] := by
        have := cutRunes_append (a := 0x20 :: runes f) (rs := []) (p := []) (ps := [])
          (by
            simp only [List.mem_cons, not_or]
            exact ⟨by decide, fun h => hcf (comma_mem h)⟩) rfl
        simpa using this
      have h3 := cutRunes_append (a := runes (textOf row.2)) (rs := 0x2C :: 0x20 :: runes f) (p := [])
        (ps := [0x20 :: runes f]) (fun h => hcv (comma_mem h)) (by rw [cutRunes, if_pos rfl, h2])
      rw [hrunes, h3, List.append_nil]
    have hd := dict_of_piece hU nba_all hk hrow (p := 0x20 :: runes f) (by rw [hcut]; simp)
    have hlat := (rowB_spec (nba_all row hrow)).1
    rw [← normalB_eq hU nbaIgnore fun r hr => (hlat r (cutRunes_subset (by rw [hcut]; simp) r hr)).1] at hd
    have h20 : (nbaCompare E).normal (0x20 :: runes f) = (nbaCompare E).normal (runes f) := by
      have h20 : (nbaCompare E).fold 0x20 ∈ nbaIgnore := by
        show E.U.toLower 0x20 ∈ nbaIgnore
        rw [hU 0x20 (by decide)]
        decide
      simp only [Compare.normal, List.map_cons, List.filter_cons]
      rw [if_neg]
      intro hd
      exact of_decide_eq_true hd h20
    rw [← h20]
    exact hd

/-- **C65, partial.** Text is replaced by a player's name if it is spelled like it, or like it without any
diacritics, up to case, spaces, periods, apostrophes and dashes; provided it has no punctuation tokens,
starts and ends with words, and has no more words than the longest name. What is missing for `C65_full`:
names some of whose diacritics are left out, and dashes, apostrophes and periods that are tokens of their
own, as these are punctuation. -/
theorem C65_players_partial {E : Env} (hE : E.Lawful) (hU : E.U.LowersLatin) (hP : E.U.PlainNotPunct)
    (hk : ∀ m ∈ nbaMappings, E.CutsCommas m.1) {k v : Bytes} (hm : (k, v) ∈ nbaMappings)
    {first last : Token} {mid l : List Token} (hl : first :: mid = l ++ [last])
    (hp : ∀ t ∈ first :: mid, t.punct = false) (hfirst : first.IsWord) (hlast : last.IsWord)
    (hspell : (nbaCompare E).spell [last] ≠ [])
    (hw : words (first :: mid) ≤ wordLimit (entries E nbaMappings))
    (h : (nbaCompare E).spell (first :: mid) = (nbaCompare E).normal (runes v) ∨
      (nbaCompare E).spell (first :: mid) = (nbaCompare E).normal (runes (foldString v).1))
    {ts : TokenStream} (hy : ts.Yields (first :: mid) .eof) :
    (currentPlayers E ts).Yields [mkToken E.U v true] .eof := by
  obtain ⟨h1, h2⟩ := nba_folded hU hk hm
  have hd : nbaDict E ((nbaCompare E).spell (first :: mid)) = some v := by
    rcases h with h | h <;> rw [h]
    · exact h1
    · exact h2
  have hg := greedy_whole (m := wordLimit (entries E nbaMappings)) hl hp hfirst hlast hspell hw hd
  have hv := (mkToken_word hP true (row_plain nbaRows_plain (nba_rows ▸ hm))).2
  simp only [canonTokens, hv, ↓reduceIte] at hg
  exact players_yields hE hk hy hg

/-- Non-vacuity: "ANTE ZIZIC", and "Ante Žižić" itself. -/
example : (∀ toks ∈ [[lw "ANTE", lw " ", lw "ZIZIC"], [lw "Ante", lw " ", lw "Žižić"]],
      (currentPlayers latinEnv (listStream toks .eof)).Yields [lc "Ante Žižić"] .eof) := by
  have hm := mem_nba (row := (n!"Ante Žižić, Ante Zizic", n!"Ante Žižić")) 0 rfl (by decide +kernel)
  have htx : textOf n!"Ante Žižić, Ante Zizic" = str "Ante Žižić, Ante Zizic" := by decide +kernel
  have htx' : textOf n!"Ante Žižić" = str "Ante Žižić" := by decide +kernel
  simp only [htx, htx'] at hm
  have hw : 2 ≤ wordLimit (entries latinEnv nbaMappings) := by
    have he : ([lw "Ante", lw " ", lw "Zizic"], str "Ante Žižić") ∈ entries latinEnv nbaMappings := by
      simp only [entries, List.mem_flatMap, List.mem_map]
      exact ⟨_, hm, _, by decide +kernel, rfl⟩
    have := wordLimit_ge he
    have hw : words [lw "Ante", lw " ", lw "Zizic"] = 2 := by decide +kernel
    simp only [hw] at this
    exact this
  have h2 : ∀ toks ∈ [[lw "ANTE", lw " ", lw "ZIZIC"], [lw "Ante", lw " ", lw "Žižić"]], words toks = 2 := by
    decide +kernel
  intro toks ht
  have := h2 toks ht
  simp only [List.mem_cons, List.not_mem_nil, or_false] at ht
  rcases ht with rfl | rfl
  · exact C65_players_partial latinEnv_lawful latinEnv_lowers latinEnv_plain latinEnv_nba hm
      (first := lw "ANTE") (mid := [lw " ", lw "ZIZIC"]) (last := lw "ZIZIC") (l := [lw "ANTE", lw " "]) rfl
      (by decide +kernel) (by decide +kernel) (by decide +kernel) (by decide +kernel) (by omega)
      (Or.inr (by decide +kernel)) (listStream_yields _ _)
  · exact C65_players_partial latinEnv_lawful latinEnv_lowers latinEnv_plain latinEnv_nba hm
      (first := lw "Ante") (mid := [lw " ", lw "Žižić"]) (last := lw "Žižić") (l := [lw "Ante", lw " "]) rfl
      (by decide +kernel) (by decide +kernel) (by decide +kernel) (by decide +kernel) (by omega)
      (Or.inl (by decide +kernel)) (listStream_yields _ _)

end Jargon
