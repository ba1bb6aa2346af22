import Verif.Props.TwoTables
import Verif.Props.Pipeline
import Verif.Proofs.Signs

/-! C117: what becomes of handles and hashtags when tags and players are looked for afterwards. -/

namespace Jargon

/-- Does the token begin with a sign, and is there more to it than characters that are ignored? -/
def signed (U : Unicode) (ignore : List Rune) (sign : UInt8) (t : Token) : Bool :=
  match t.value with
  | b :: x => b == sign && (runes x).any fun r => U.toLower r ∉ ignore
  | [] => false

/-- The text ends with the word "c" (or "C"), possibly followed by characters that Tags ignores. -/
def EndsInC (U : Unicode) (toks : List Token) : Prop :=
  ∃ q, q <:+ toks ∧ (Compare.mk U true stackOverflowIgnore).spell q = [0x63]

/-! ### Barriers -/

/-- A token that is part of no synonym is left as it is, and the texts before and after it are treated by
themselves. -/
theorem Greedy.barrier {C : Compare} {D : Dict} {m : Nat} {a b A B : List Token} {t : Token}
    (ha : Greedy C D m a A) (hb : Greedy C D m b B)
    (h : ∀ u v, u <:+ a → D (C.spell (u ++ t :: v)) = none) : Greedy C D m (a ++ t :: b) (A ++ t :: B) := by
  have hb' : Greedy C D m (t :: b) (t :: B) := by
    by_cases hw : t.IsWord
    · refine .word hw (fun k hk => ?_) hb
      obtain ⟨j, rfl⟩ : ∃ j, k = j + 1 := ⟨k - 1, by have := hk.pos; omega⟩
      exact h [] _ (List.nil_suffix ..)
    · exact .separator hw hb
  refine ha.append hb' ?_
  rintro p s u w z rfl hw - hne -
  left
  obtain ⟨y, w, rfl⟩ := List.exists_cons_of_ne_nil hne
  obtain ⟨rfl, -⟩ := List.cons.inj hw
  exact h _ _ (List.suffix_append ..)

/-- C117 for any mapping: a token with a character that is in no synonym, and not ignored, is left as it is,
and the texts before and after it are treated by themselves. -/
theorem C117_barrier {E : Env} (hE : E.Lawful) (F : SynArgs) (hF : F.Scans E) {a b : List Token} {t : Token}
    {r : Rune} (hr : r ∈ runes t.value)
    (hi : (Compare.mk E.U F.ignoreCase F.ignore).fold r ∉ F.ignore)
    (hn : ∀ x ∈ entries E F.mappings, (Compare.mk E.U F.ignoreCase F.ignore).fold r ∉
      (Compare.mk E.U F.ignoreCase F.ignore).spell x.1) :
    ∃ A B, F.Makes E a A ∧ F.Makes E b B ∧ F.Makes E (a ++ t :: b) (A ++ t :: B) := by
  obtain ⟨A, hA⟩ := Greedy.total ⟨E.U, F.ignoreCase, F.ignore⟩
    ((Compare.mk E.U F.ignoreCase F.ignore).dict (entries E F.mappings)) (wordLimit (entries E F.mappings)) a
  obtain ⟨B, hB⟩ := Greedy.total ⟨E.U, F.ignoreCase, F.ignore⟩
    ((Compare.mk E.U F.ignoreCase F.ignore).dict (entries E F.mappings)) (wordLimit (entries E F.mappings)) b
  refine ⟨A, B, SynArgs.Greedy.makes hE hF hA, SynArgs.Greedy.makes hE hF hB,
    SynArgs.Greedy.makes hE hF (hA.barrier hB fun u v _ => ?_)⟩
  cases hd : (Compare.mk E.U F.ignoreCase F.ignore).dict (entries E F.mappings)
      ((Compare.mk E.U F.ignoreCase F.ignore).spell (u ++ t :: v)) with
  | none => rfl
  | some c =>
    obtain ⟨x, hx, he, -⟩ := dict_some hd
    refine absurd ?_ (hn x hx)
    rw [he]
    simp only [Compare.spell, Compare.normal, List.mem_filter, List.mem_map, List.mem_flatMap, List.mem_append,
      List.mem_cons, decide_eq_true_eq]
    exact ⟨⟨r, ⟨t, .inr (.inl rfl), hr⟩, rfl⟩, hi⟩

/-! ### The tables -/

theorem normalB_sign {ign p : List Nat} {x : Nat} (hx : x = 0x40 ∨ x = 0x23) (h : x ∈ normalB ign p) :
    x ∈ p := by
  induction p with
  | nil => exact h
  | cons r rs ih =>
    have e : normalB ign (r :: rs) =
      bif memB (lowerB r) ign then normalB ign rs else lowerB r :: normalB ign rs := rfl
    rw [e] at h
    cases hm : memB (lowerB r) ign
    · rw [hm] at h
      rcases List.mem_cons.mp h with h | h
      · have : r = x := by
          rw [lowerB_eq] at h
          unfold latinLower at h
          repeat' split at h
          all_goals omega
        simp [this]
      · exact List.mem_cons_of_mem _ (ih h)
    · rw [hm] at h
      exact List.mem_cons_of_mem _ (ih h)

section
variable {E : Env} {ign : List Nat} {tree : Tree} {rows : List (Nat × Nat)}

/-- Every synonym is spelled as a piece of a key. -/
theorem piece_of_entry (hU : E.U.LowersLatin) (hc : ∀ row ∈ rows, rowB ign tree row = true)
    (hk : ∀ m ∈ tableOf rows, E.CutsCommas m.1) {a : List Token × Bytes}
    (ha : a ∈ entries E (tableOf rows)) :
    ∃ row ∈ rows, ∃ p ∈ cutRunes (runes (textOf row.1)),
      (Compare.mk E.U true ign).spell a.1 = normalB ign p := by
  simp only [entries, List.mem_flatMap, List.mem_map] at ha
  obtain ⟨kv, hkv, s, hs, rfl⟩ := ha
  obtain ⟨row, hrow, rfl⟩ := List.mem_map.mp hkv
  obtain ⟨h1, -, -⟩ := rowB_spec (hc row hrow)
  have hsp := listed_spells (C := Compare.mk E.U true ign) (hk _ hkv) (fun r hr hsp => by
    have := h1 r hr
    show E.U.toLower r ∈ ign
    rw [hU r this.1]
    exact this.2 hsp)
  have hmem : (Compare.mk E.U true ign).spell s ∈
      (listed (stringTokens E (textOf row.1))).map (Compare.mk E.U true ign).spell := List.mem_map_of_mem hs
  rw [hsp, List.mem_map] at hmem
  obtain ⟨p, hp, he⟩ := hmem
  refine ⟨row, hrow, p, hp, ?_⟩
  rw [← he, normalB_eq hU ign fun r hr => (h1 r (cutRunes_subset hp r hr)).1]

end

theorem tagDict_signs {E : Env} (hU : E.U.LowersLatin) (hk : ∀ m ∈ stackOverflowMappings, E.CutsCommas m.1)
    {q : List Rune} {c : Bytes} (h : tagDict E q = some c) :
    0x40 ∉ q ∧ ∀ a b, q = a ++ 0x23 :: b → b = [] ∨ a = [0x63] := by
  obtain ⟨x, hx, rfl, -⟩ := dict_some h
  rw [stackOverflow_rows] at hk hx
  obtain ⟨row, hrow, p, hp, he⟩ := piece_of_entry hU so_all hk hx
  rw [he]
  obtain ⟨rs, hrs, hr⟩ := List.mem_flatten.mp hrow
  have := List.all_eq_true.mp (List.all_eq_true.mp so_signs rs hrs) row hr
  simp only [cutB_eq, runesB_eq, Bool.or_eq_true] at this
  rcases this with h1 | h1
  · obtain ⟨h2, h3⟩ := unsignedB_spec h1
    refine ⟨fun hx => h2 (cutRunes_subset hp _ (normalB_sign (.inl rfl) hx)), fun a b hq => ?_⟩
    exact absurd (cutRunes_subset hp _ (normalB_sign (.inr rfl) (by rw [hq]; simp))) h3
  · exact signsB_spec (List.all_eq_true.mp h1 p hp)

theorem nbaDict_signs {E : Env} (hU : E.U.LowersLatin) (hk : ∀ m ∈ nbaMappings, E.CutsCommas m.1)
    {q : List Rune} {c : Bytes} (h : nbaDict E q = some c) : 0x40 ∉ q ∧ 0x23 ∉ q := by
  obtain ⟨x, hx, rfl, -⟩ := dict_some h
  rw [nba_rows] at hk hx
  obtain ⟨row, hrow, p, hp, he⟩ := piece_of_entry hU nba_all hk hx
  rw [nbaCompare, he]
  obtain ⟨rs, hrs, hr⟩ := List.mem_flatten.mp hrow
  have := List.all_eq_true.mp (List.all_eq_true.mp nba_signs rs hrs) row hr
  rw [runesB_eq] at this
  obtain ⟨h2, h3⟩ := unsignedB_spec this
  exact ⟨fun hx => h2 (cutRunes_subset hp _ (normalB_sign (.inl rfl) hx)),
    fun hx => h3 (cutRunes_subset hp _ (normalB_sign (.inr rfl) hx))⟩

/-! ### Spelling -/

theorem spell_cons (C : Compare) (t : Token) (b : List Token) :
    C.spell (t :: b) = C.normal (runes t.value) ++ C.spell b := by
  simp [Compare.spell, Compare.normal]

/-- How a token with a sign is spelled. -/
theorem signed_spell {U : Unicode} (hU : U.LowersLatin) {ign : List Rune} {sign : UInt8} {t : Token}
    (h : signed U ign sign t = true) (hs : sign.toNat < 0x41) (hi : sign.toNat ∉ ign) :
    ∃ y ys, (Compare.mk U true ign).normal (runes t.value) = sign.toNat :: y :: ys := by
  unfold signed at h
  split at h
  · rename_i b x hv
    simp only [Bool.and_eq_true, beq_iff_eq, List.any_eq_true, decide_eq_true_eq] at h
    obtain ⟨rfl, r, hr, hn⟩ := h
    rw [hv, runes_ascii_cons (by omega)]
    have e : U.toLower b.toNat = b.toNat := by
      rw [hU _ (by omega)]
      unfold latinLower
      rw [if_neg (by omega)]
      repeat rw [if_neg (by omega)]
    have hmem : U.toLower r ∈ (Compare.mk U true ign).normal (runes x) := by
      simp only [Compare.normal, List.mem_filter, List.mem_map, decide_eq_true_eq]
      exact ⟨⟨r, hr, rfl⟩, hn⟩
    obtain ⟨y, ys, hy⟩ := List.exists_cons_of_ne_nil (List.ne_nil_of_mem hmem)
    refine ⟨y, ys, ?_⟩
    rw [← hy]
    simp [Compare.normal, Compare.fold, e, hi]
  · cases h

/-- A token that is part of no synonym is delivered. -/
theorem greedy_keeps {C : Compare} {D : Dict} {m : Nat} {P : Token → Bool} {toks out : List Token}
    (hg : Greedy C D m toks out)
    (h : ∀ p u t v z, toks = p ++ u ++ t :: v ++ z → P t = true → D (C.spell (u ++ t :: v)) = none) :
    (toks.filter P).Sublist out := by
  induction hg with
  | nil => simp
  | @separator t ts out _ _ ih | @word t ts out _ _ _ ih =>
    have ih := ih fun p u x v z he => h (t :: p) u x v z (by rw [he]; simp)
    rw [List.filter_cons]
    split
    · exact ih.cons_cons _
    · exact ih.cons _
  | @replace t ts out k c _ hl _ ih =>
    have ih := ih fun p u x v z he => h ((t :: ts).take k ++ p) u x v z (by
      conv => lhs; rw [← List.take_append_drop k (t :: ts), he]
      simp)
    have hn : ((t :: ts).take k).filter P = [] := by
      rw [List.filter_eq_nil_iff]
      intro x hx hP
      obtain ⟨u, v, he⟩ := List.append_of_mem hx
      have := h [] u x v ((t :: ts).drop k) (by
        rw [List.nil_append, ← he, List.take_append_drop]) hP
      rw [← he, hl.isSyn] at this
      cases this
    rw [← List.take_append_drop k (t :: ts), List.filter_append, hn, List.nil_append]
    exact ih.trans (List.sublist_append_right ..)

/-! ### C117 -/

/-- C117 in full: hashtags that have been recognised are left alone by Tags. -/
def C117_full (E : Env) : Prop :=
  ∀ (ts : TokenStream) (toks out : List Token), (hashtags E.U ts).Yields toks .eof →
    (tags E (hashtags E.U ts)).Yields out .eof →
    (toks.filter (signed E.U stackOverflowIgnore 0x23)).Sublist out

theorem tags_greedy {E : Env} (hE : E.Lawful) (hk : ∀ m ∈ stackOverflowMappings, E.CutsCommas m.1)
    {ts : TokenStream} {toks out : List Token} (h : ts.Yields toks .eof) (ho : (tags E ts).Yields out .eof) :
    Greedy (tagCompare E) (tagDict E) (wordLimit (entries E stackOverflowMappings)) toks out := by
  obtain ⟨out', hg⟩ := Greedy.total (tagCompare E) (tagDict E) (wordLimit (entries E stackOverflowMappings)) toks
  rw [(ho.unique (tags_yields hE hk h hg)).1]
  exact hg

theorem players_greedy {E : Env} (hE : E.Lawful) (hk : ∀ m ∈ nbaMappings, E.CutsCommas m.1)
    {ts : TokenStream} {toks out : List Token} (h : ts.Yields toks .eof)
    (ho : (currentPlayers E ts).Yields out .eof) :
    Greedy (nbaCompare E) (nbaDict E) (wordLimit (entries E nbaMappings)) toks out := by
  obtain ⟨out', hg⟩ := Greedy.total (nbaCompare E) (nbaDict E) (wordLimit (entries E nbaMappings)) toks
  rw [(ho.unique (players_yields hE hk h hg)).1]
  exact hg

/-- **C117 (handles).** Tags and CurrentPlayers leave every handle alone, wherever it stands. -/
theorem C117_handles {E : Env} (hE : E.Lawful) (hU : E.U.LowersLatin)
    (hso : ∀ m ∈ stackOverflowMappings, E.CutsCommas m.1) (hnba : ∀ m ∈ nbaMappings, E.CutsCommas m.1)
    {ts : TokenStream} {toks out : List Token} (h : ts.Yields toks .eof) :
    ((tags E ts).Yields out .eof → (toks.filter (signed E.U stackOverflowIgnore 0x40)).Sublist out) ∧
    ((currentPlayers E ts).Yields out .eof → (toks.filter (signed E.U nbaIgnore 0x40)).Sublist out) := by
  refine ⟨fun ho => greedy_keeps (tags_greedy hE hso h ho) ?_,
    fun ho => greedy_keeps (players_greedy hE hnba h ho) ?_⟩
  · intro p u t v z _ ht
    obtain ⟨y, ys, hy⟩ := signed_spell hU ht (by decide) (by decide)
    cases hd : tagDict E ((tagCompare E).spell (u ++ t :: v)) with
    | none => rfl
    | some c =>
      refine absurd ?_ (tagDict_signs hU hso hd).1
      rw [spell_append, spell_cons, tagCompare, hy]
      simp
  · intro p u t v z _ ht
    obtain ⟨y, ys, hy⟩ := signed_spell hU ht (by decide) (by decide)
    cases hd : nbaDict E ((nbaCompare E).spell (u ++ t :: v)) with
    | none => rfl
    | some c =>
      refine absurd ?_ (nbaDict_signs hU hnba hd).1
      rw [spell_append, spell_cons, nbaCompare, hy]
      simp

/-- **C117 (hashtags and players).** CurrentPlayers leaves every hashtag alone. -/
theorem C117_players {E : Env} (hE : E.Lawful) (hU : E.U.LowersLatin)
    (hnba : ∀ m ∈ nbaMappings, E.CutsCommas m.1)
    {ts : TokenStream} {toks out : List Token} (h : ts.Yields toks .eof)
    (ho : (currentPlayers E ts).Yields out .eof) :
    (toks.filter (signed E.U nbaIgnore 0x23)).Sublist out := by
  refine greedy_keeps (players_greedy hE hnba h ho) ?_
  intro p u t v z _ ht
  obtain ⟨y, ys, hy⟩ := signed_spell hU ht (by decide) (by decide)
  cases hd : nbaDict E ((nbaCompare E).spell (u ++ t :: v)) with
  | none => rfl
  | some c =>
    refine absurd ?_ (nbaDict_signs hU hnba hd).2
    rw [spell_append, spell_cons, nbaCompare, hy]
    simp

theorem tagDict_hashtag {E : Env} (hU : E.U.LowersLatin) (hso : ∀ m ∈ stackOverflowMappings, E.CutsCommas m.1)
    {u v : List Token} {t : Token} (ht : signed E.U stackOverflowIgnore 0x23 t = true)
    (hc : (tagCompare E).spell u ≠ [0x63]) : tagDict E ((tagCompare E).spell (u ++ t :: v)) = none := by
  obtain ⟨y, ys, hy⟩ := signed_spell hU ht (by decide) (by decide)
  cases hd : tagDict E ((tagCompare E).spell (u ++ t :: v)) with
  | none => rfl
  | some c =>
    rcases (tagDict_signs hU hso hd).2 ((tagCompare E).spell u) (y :: ys ++ (tagCompare E).spell v) (by
      rw [spell_append, spell_cons]
      conv => lhs; rw [show (tagCompare E).normal (runes t.value) = _ from hy]
      rfl) with h | h
    · cases h
    · exact absurd h hc

/-- **C117 (hashtags and tags), partial.** Tags leaves alone every hashtag that does not come after the word
"c", and treats the texts before and after it by themselves. -/
theorem C117_partial {E : Env} (hE : E.Lawful) (hU : E.U.LowersLatin)
    (hso : ∀ m ∈ stackOverflowMappings, E.CutsCommas m.1) :
    (∀ (ts : TokenStream) (toks out : List Token), ts.Yields toks .eof → (tags E ts).Yields out .eof →
      (∀ a t b, toks = a ++ t :: b → signed E.U stackOverflowIgnore 0x23 t = true → ¬ EndsInC E.U a) →
      (toks.filter (signed E.U stackOverflowIgnore 0x23)).Sublist out) ∧
    (∀ (a b : List Token) (t : Token), signed E.U stackOverflowIgnore 0x23 t = true → ¬ EndsInC E.U a →
      ∃ A B, tagsArgs.Makes E a A ∧ tagsArgs.Makes E b B ∧ tagsArgs.Makes E (a ++ t :: b) (A ++ t :: B)) := by
  refine ⟨fun ts toks out h ho hc => greedy_keeps (tags_greedy hE hso h ho) ?_, fun a b t ht hc => ?_⟩
  · rintro p u t v z rfl ht
    refine tagDict_hashtag hU hso ht fun he => ?_
    exact hc (p ++ u) t (v ++ z) (by simp) ht ⟨u, List.suffix_append .., he⟩
  · obtain ⟨A, hA⟩ := Greedy.total (tagCompare E) (tagDict E) (wordLimit (entries E stackOverflowMappings)) a
    obtain ⟨B, hB⟩ := Greedy.total (tagCompare E) (tagDict E) (wordLimit (entries E stackOverflowMappings)) b
    have hF : tagsArgs.Scans E := fun m hm => (hso m hm).scans
    exact ⟨A, B, SynArgs.Greedy.makes hE hF hA, SynArgs.Greedy.makes hE hF hB, SynArgs.Greedy.makes hE hF
      (hA.barrier hB fun u v hu => tagDict_hashtag hU hso ht fun he => hc ⟨u, hu, he⟩)⟩

/-- The hashtag in "c #net". -/
theorem net_hashtag : (hashtags latinEnv.U (tokenizeString latinEnv (str "c #net"))).Yields
    [lw "c", lw " ", lc "#net"] .eof := by
  have h0 := stringTokens_yields latinEnv_lawful (s := str "c #net") rfl
  have h1 := sigil_yields (U := latinEnv.U) (f := ⟨[0x23], legalHashtag latinEnv.U⟩) (by decide) h0
  rw [sigilActual_end] at h1
  rw [show [lw "c", lw " ", lc "#net"] = (sigilActual latinEnv.U ⟨[0x23], legalHashtag latinEnv.U⟩ none
    (stringTokens latinEnv (str "c #net")) .eof).1 by decide +kernel]
  exact h1

/-- **C117 (violated).** In "c #net" the hashtag is recognised, but if Tags follows it is taken for a part of
"c#.net", and the text becomes "c#". -/
theorem C117_violated : ¬ C117_full latinEnv := by
  intro h
  have hd : tagDict latinEnv ((str "c#net").map UInt8.toNat) = some (str "c#") := by
    have := tagDict_some latinEnv_lowers latinEnv_so
      (row := (n!"csharp, c# language, c sharp, c#.net, visual c#, .cs file", n!"c#"))
      (p := (str " c#.net").map UInt8.toNat) (mem_so 2 rfl (by decide +kernel)) (by decide +kernel)
    rwa [show normalB stackOverflowIgnore ((str " c#.net").map UInt8.toNat) =
      (str "c#net").map UInt8.toNat by decide +kernel, show textOf
      (n!"csharp, c# language, c sharp, c#.net, visual c#, .cs file", n!"c#").2 = str "c#" by decide +kernel] at this
  have hg := Greedy.replace (C := tagCompare latinEnv) (D := tagDict latinEnv)
    (maxWords := wordLimit (entries latinEnv stackOverflowMappings)) (t := lw "c") (ts := [lw " ", lc "#net"])
    (out := []) (k := 3) (canonical := str "c#") (by decide +kernel)
    ⟨⟨by simp, by simp, by decide +kernel, Nat.lt_of_lt_of_le (by decide +kernel) tags_limit⟩,
      ?_, ?_, ?_⟩ .nil
  · rw [show canonTokens (tagCompare latinEnv).U (str "c#") = [lc "c#"] by decide +kernel] at hg
    have := h _ _ _ net_hashtag (tags_yields latinEnv_lawful latinEnv_so net_hashtag hg)
    revert this
    decide +kernel
  · rw [show (tagCompare latinEnv).spell ([lw "c", lw " ", lc "#net"].take 3) = (str "c#net").map UInt8.toNat
      by decide +kernel]
    exact hd
  · intro j hj hlt
    have : j ≤ 3 := hj.le
    omega
  · intro j hj hlt
    have := hj.pos
    rcases (by omega : j = 1 ∨ j = 2) with rfl | rfl <;> decide +kernel

-- what the partial version asks for can be had: "a #net" and "@bob"
example : signed latinEnv.U stackOverflowIgnore 0x23 (lc "#net") = true ∧
    signed latinEnv.U stackOverflowIgnore 0x40 (lc "@bob") = true ∧ ¬ EndsInC latinEnv.U [lw "a", lw " "] := by
  refine ⟨by decide +kernel, by decide +kernel, ?_⟩
  rintro ⟨q, hq, hs⟩
  simp only [List.suffix_cons_iff, List.suffix_nil] at hq
  rcases hq with rfl | rfl | rfl <;> revert hs <;> decide +kernel

end Jargon
