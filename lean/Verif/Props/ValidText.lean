import Verif.Props.SigilSynonyms
import Verif.Props.Html
import Verif.Proofs.LineFeeds

/-! C134: what comes out is valid UTF-8 if what went in is. -/

namespace Jargon

/-! ### The specification -/

/-- The bytes are the UTF-8 encoding of a string of characters. -/
def ValidText (s : Bytes) : Prop := ∃ t : String, t.toUTF8.toList = s

/-- The scanner cuts no character. -/
def Env.CutsBetween (E : Env) : Prop := ∀ r : Reader, ValidText r.data → ∀ seg ∈ (E.scan r).1, ValidText seg

/-- What a filter puts into the text is valid UTF-8: its tables and its sigil are, and the stemmer and the normalization
make valid text of valid text. -/
def Builtin.Valid : Builtin → Prop
  | .stemmer stem => ∀ s, ValidText s → ValidText (stem s)
  | .norm form => ∀ s, ValidText s → ValidText (form.string s)
  | .contractions m => ∀ x ∈ m, ValidText x.2
  | .sigil f => ValidText f.sigil
  | .synonyms m _ _ => ∀ x ∈ m, ValidText x.2
  | _ => True

/-- The data and the attributes of an HTML token are valid UTF-8. -/
def HTok.Valid (h : HTok) : Prop := ValidText h.data ∧ ∀ a ∈ h.attr, ValidText a.1 ∧ ValidText a.2

/-! ### Lemmas -/

theorem validText_iff {s : Bytes} : ValidText s ↔ encodeRunes (runes s) = s := by
  constructor
  · rintro ⟨t, rfl⟩
    rw [(C62_strings t).1, (C62_strings t).2]
  · intro h
    have : ∀ rs : List Rune, (∀ r ∈ rs, ValidRune r) → ∃ cs : List Char, cs.map Char.toNat = rs := by
      intro rs hr
      induction rs with
      | nil => exact ⟨[], rfl⟩
      | cons r rs ih =>
        obtain ⟨c, hc⟩ := valid_char (hr r (by simp))
        obtain ⟨cs, hcs⟩ := ih fun r h => hr r (.tail _ h)
        exact ⟨c :: cs, by rw [List.map_cons, hc, hcs]⟩
    obtain ⟨cs, hcs⟩ := this _ (runes_valid s)
    refine ⟨String.ofList cs, ?_⟩
    rw [← (C62_strings (String.ofList cs)).2, String.toList_ofList, hcs, h]

theorem validText_encode {rs : List Rune} (h : ∀ r ∈ rs, ValidRune r) : ValidText (encodeRunes rs) :=
  validText_iff.2 (by rw [runes_encodeRunes h])

theorem ValidText.runes {s : Bytes} (h : ValidText s) : ∃ rs, (∀ r ∈ rs, ValidRune r) ∧ encodeRunes rs = s :=
  ⟨_, runes_valid s, validText_iff.1 h⟩

theorem validText_nil : ValidText [] := validText_encode (rs := []) (by simp)

theorem ValidText.append {a b : Bytes} (ha : ValidText a) (hb : ValidText b) : ValidText (a ++ b) := by
  obtain ⟨x, hx, rfl⟩ := ha.runes
  obtain ⟨y, hy, rfl⟩ := hb.runes
  rw [← encodeRunes_append]
  exact validText_encode fun r hr => (List.mem_append.1 hr).elim (hx r) (hy r)

theorem validText_flatten {l : List Bytes} (h : ∀ s ∈ l, ValidText s) : ValidText l.flatten := by
  induction l with
  | nil => exact validText_nil
  | cons s l ih => exact (h s (by simp)).append (ih fun s hs => h s (.tail _ hs))

theorem validText_ascii {s : Bytes} (h : ∀ b ∈ s, b.toNat < 0x80) : ValidText s :=
  validText_iff.2 (encodeRunes_runes_ascii h)

theorem runeBytes_encode {rs : List Rune} (h : ∀ r ∈ rs, ValidRune r) :
    runeBytes (encodeRunes rs) = rs.map fun r => (r, encodeRune r) := by
  induction rs with
  | nil => rfl
  | cons r rs ih =>
    have hv := h r (by simp)
    have e : encodeRunes (r :: rs) = encodeRune r ++ encodeRunes rs := rfl
    have hd := decode_encodeValid r hv (encodeRunes rs)
    rw [← encodeRune_valid hv] at hd
    have hne := encodeRune_ne_nil r
    rw [e, List.map_cons, ← ih fun r h' => h r (.tail _ h')]
    generalize encodeRune r = x at *
    cases x with
    | nil => exact absurd rfl hne
    | cons b t =>
      rw [List.cons_append] at hd ⊢
      rw [runeBytes_cons, hd]
      simp only [List.length_cons, List.take_succ_cons, List.drop_succ_cons, List.take_left, List.drop_left]

/-- The words of a valid text are valid. -/
theorem wordSegs_valid (cls : WordTable) {s : Bytes} (h : ValidText s) : ∀ seg ∈ wordSegs cls s, ValidText seg := by
  obtain ⟨rs, hv, rfl⟩ := h.runes
  intro seg hs
  simp only [wordSegs, List.mem_map] at hs
  obtain ⟨g, hg, rfl⟩ := hs
  have hm : ∀ p ∈ g, ValidRune p.1 ∧ p.2 = encodeRune p.1 := by
    intro p hp
    have : p ∈ runeBytes (encodeRunes rs) := by
      rw [← cutWords_flatten (cls := fun p : Rune × Bytes => cls p.1) [] (runeBytes (encodeRunes rs))]
      exact List.mem_flatten.2 ⟨g, hg, hp⟩
    rw [runeBytes_encode hv] at this
    obtain ⟨r, hr, rfl⟩ := List.mem_map.1 this
    exact ⟨hv r hr, rfl⟩
  have e : g.flatMap (·.2) = encodeRunes (g.map (·.1)) := by
    rw [encodeRunes, List.flatMap_map]
    exact List.flatMap_congr fun p hp => (hm p hp).2
  rw [e]
  refine validText_encode fun r hr => ?_
  obtain ⟨p, hp, rfl⟩ := List.mem_map.1 hr
  exact (hm p hp).1

theorem segTokens_valid {U : Unicode} {segs : List Bytes} (h : ∀ s ∈ segs, ValidText s) :
    ∀ t ∈ segTokens U segs, ValidText t.value := by
  intro t ht
  simp only [segTokens, List.mem_map] at ht
  obtain ⟨s, hs, rfl⟩ := ht
  exact h s hs

theorem lookup_pair {m : StringMap} {k x : Bytes} (h : m.lookup k = some x) : ∃ p ∈ m, p.2 = x := by
  induction m with
  | nil => cases h
  | cons p m ih =>
    obtain ⟨a, b⟩ := p
    rw [List.lookup_cons] at h
    split at h
    · cases h
      exact ⟨(a, x), by simp, rfl⟩
    · obtain ⟨p, hp, e⟩ := ih h
      exact ⟨p, .tail _ hp, e⟩

theorem fold_valid {s : Bytes} (h : ValidText s) : ValidText (foldString s).1 := by
  rw [foldString_eq]
  split
  · exact validText_encode (folded_valid (runes_valid s))
  · exact h

theorem sigil_valid {U : Unicode} {f : SigilFilter} (hf : ValidText f.sigil) (p : Option Token)
    (toks : List Token) (e : End) (h : ∀ t ∈ toks, ValidText t.value) :
    ∀ t ∈ (sigilActual U f p toks e).1, ValidText t.value := by
  fun_induction sigilActual U f p toks e with
  | case5 p c l rest e _ _ ih =>
    intro t ht
    rw [emit] at ht
    rcases List.mem_cons.1 ht with rfl | ht
    · exact hf.append (h l (by simp))
    · exact ih (fun t ht => h t (by simp [ht])) t ht
  | _ => simp_all [emit]

theorem greedy_valid {C : Compare} {D : Dict} {m : Nat} {toks out : List Token} (hg : Greedy C D m toks out)
    (hD : ∀ q c, D q = some c → ValidText c) (h : ∀ t ∈ toks, ValidText t.value) : ∀ t ∈ out, ValidText t.value := by
  induction hg with
  | nil => simp
  | separator _ _ ih | word _ _ _ ih =>
    simp only [List.mem_cons, forall_eq_or_imp] at h ⊢
    exact ⟨h.1, ih h.2⟩
  | @replace t ts out k c hw hl hr ih =>
    intro x hx
    rcases List.mem_append.mp hx with hx | hx
    · unfold canonTokens at hx
      split at hx
      · simp at hx
      · simp only [List.mem_singleton] at hx
        subst hx
        exact hD _ _ hl.isSyn
    · exact ih (fun t ht => h t (List.mem_of_mem_drop ht)) x hx

theorem Builtin.valid {E : Env} (hE : E.Lawful) (hc : E.CutsBetween) (b : Builtin) (hb : b.OK E) (hv : b.Valid)
    (toks : List Token) (e : End) :
    ∃ out, Makes (b.apply E) toks e out e ∧ ((∀ t ∈ toks, ValidText t.value) → ∀ t ∈ out, ValidText t.value) := by
  cases b with
  | stemmer stem =>
    refine ⟨toks.map (stemToken E.U stem), fun ts h => stemmer_yields (fun t _ => hb _) h, fun h t ht => ?_⟩
    obtain ⟨u, hu, rfl⟩ := List.mem_map.mp ht
    unfold stemToken
    split
    · exact hv _ (h u hu)
    · exact h u hu
  | norm N =>
    have hb : N.Lawful := hb
    refine ⟨toks.map (normToken E.U N), fun ts h => norm_yields hb h, fun h t ht => ?_⟩
    obtain ⟨u, hu, rfl⟩ := List.mem_map.mp ht
    unfold normToken
    split
    · exact h u hu
    · exact hv _ (h u hu)
  | asciiFold =>
    refine ⟨toks.map (foldToken E.U), fun ts h => asciiFold_yields E.U h, fun h t ht => ?_⟩
    obtain ⟨u, hu, rfl⟩ := List.mem_map.mp ht
    unfold foldToken
    split
    · exact fold_valid (h u hu)
    · exact h u hu
  | stopwords ws ic => exact ⟨_, fun ts h => stop_yields h, fun h t ht => h t (List.mem_filter.mp ht).1⟩
  | contractions m =>
    have hb : GoodTable E m := hb
    refine ⟨_, fun ts h => expandWith_yields hE hb h, fun h t ht => ?_⟩
    obtain ⟨u, hu, ht⟩ := List.mem_flatMap.mp ht
    unfold expandToken at ht
    split at ht
    · rename_i x hx
      refine segTokens_valid (hc { data := x } ?_) t ht
      unfold expansion? at hx
      split at hx
      · rename_i y hy
        cases hx
        obtain ⟨p, hp, rfl⟩ := lookup_pair hy
        exact hv p hp
      · obtain ⟨p, hp, rfl⟩ := lookup_pair hx
        exact hv p hp
    · simp only [List.mem_singleton] at ht
      subst ht; exact h _ hu
  | sigil f =>
    refine ⟨(sigilActual E.U f none toks e).1, fun ts h => ?_, sigil_valid hv none toks e⟩
    have := sigil_yields (U := E.U) hb h
    rwa [sigilActual_end] at this
  | synonyms m ic ign =>
    obtain ⟨out, hg⟩ := Greedy.total ⟨E.U, ic, ign⟩ ((Compare.mk E.U ic ign).dict (entries E m))
      (wordLimit (entries E m)) toks
    refine ⟨if e = .eof then out else [], fun ts h => synonyms_yields hE hb h hg, ?_⟩
    split
    · refine greedy_valid hg fun q c hq => ?_
      obtain ⟨a, ha, -, rfl⟩ := dict_some hq
      obtain ⟨k, hk⟩ := entries_canonical ha
      exact hv _ hk
    · simp
  | where_ p => exact ⟨_, fun ts h => where_yields p h, fun h t ht => h t (List.mem_filter.mp ht).1⟩
  | words => exact ⟨_, fun ts h => where_yields _ h, fun h t ht => h t (List.mem_filter.mp ht).1⟩
  | lemmas => exact ⟨_, fun ts h => where_yields _ h, fun h t ht => h t (List.mem_filter.mp ht).1⟩
  | distinct => exact ⟨_, fun ts h => distinct_yields h, fun h t ht => h t ((firsts_sublist toks).subset ht)⟩

/-! ### C134 -/

/-- **C134 (filters).** If every incoming token is valid UTF-8, every token a pipeline of filters delivers is, and so
is the text they make up. -/
theorem C134_filters {E : Env} (hE : E.Lawful) (hc : E.CutsBetween) (bs : List Builtin) (hb : ∀ b ∈ bs, b.OK E ∧ b.Valid)
    {ts : TokenStream} {toks : List Token} {e : End} (h : ts.Yields toks e) (ht : ∀ t ∈ toks, ValidText t.value) :
    ∃ out, (ts.filter (bs.map (Builtin.apply E))).Yields out e ∧ (∀ t ∈ out, ValidText t.value) ∧
      ValidText (out.map (·.value)).flatten := by
  induction bs generalizing ts toks with
  | nil =>
    refine ⟨toks, h, ht, validText_flatten fun s hs => ?_⟩
    obtain ⟨t, hm, rfl⟩ := List.mem_map.1 hs
    exact ht t hm
  | cons b bs ih =>
    obtain ⟨mid, h1, h2⟩ := b.valid hE hc (hb b (by simp)).1 (hb b (by simp)).2 toks e
    exact ih (fun b h => hb b (by simp [h])) (h1 ts h) (h2 ht)

/-- **C134 (text).** From the text on: the tokens of a valid text are valid UTF-8 after any pipeline of filters. -/
theorem C134_tokenize {E : Env} (hE : E.Lawful) (hc : E.CutsBetween) (bs : List Builtin) (hb : ∀ b ∈ bs, b.OK E ∧ b.Valid)
    {r : Reader} (hr : ValidText r.data) :
    ∃ out, ((tokenize E r).filter (bs.map (Builtin.apply E))).Yields out (endOf (E.scan r).2) ∧
      (∀ t ∈ out, ValidText t.value) ∧ ValidText (out.map (·.value)).flatten :=
  C134_filters hE hc bs hb (tokenize_yields E hE r) (segTokens_valid (hc r hr))

/-- **C134 (scanner).** The words of UAX #29 of a valid text are valid. -/
theorem C134_words {E : Env} {cls : WordTable} (hF : E.FollowsUax29 cls) {s : Bytes} (hs : Fits cls s) (h : ValidText s) :
    ∀ seg ∈ (E.scan { data := s }).1, ValidText seg := by
  rw [hF s hs]
  exact wordSegs_valid cls h

theorem escape_valid {s : Bytes} (h : ValidText s) : ValidText (htmlEscape s) := by
  obtain ⟨rs, hv, rfl⟩ := h.runes
  induction rs with
  | nil => exact validText_nil
  | cons r rs ih =>
    have e : htmlEscape (encodeRunes (r :: rs)) = htmlEscape (encodeRune r) ++ htmlEscape (encodeRunes rs) := by
      simp [htmlEscape, encodeRunes]
    have hr := hv r (by simp)
    rw [e]
    refine .append ?_ (ih (fun r h => hv r (.tail _ h)) (validText_encode fun r h => hv r (.tail _ h)))
    by_cases h8 : r < 0x80
    · rw [encodeRune_ascii h8]
      have key : ∀ n < 0x80, ∀ b ∈ htmlEscape [UInt8.ofNat n], b.toNat < 0x80 := by decide +kernel
      exact validText_ascii (key r h8)
    · have hb := encodeValid_high hr (by omega)
      rw [encodeRune_valid hr]
      have e : htmlEscape (encodeValid r) = encodeValid r := by
        have : ∀ l : Bytes, (∀ b ∈ l, 0x80 ≤ b.toNat) → htmlEscape l = l := by
          intro l hl
          induction l with
          | nil => rfl
          | cons b l ih =>
            have hb := hl b (by simp)
            have e : htmlEscape (b :: l) = htmlEscapeByte b ++ htmlEscape l := by simp [htmlEscape]
            rw [e, ih fun b h => hl b (.tail _ h)]
            unfold htmlEscapeByte
            repeat rw [if_neg (by rintro rfl; revert hb; decide)]
            rfl
        exact this _ hb
      rw [e, ← encodeRune_valid hr]
      have := validText_encode (rs := [r]) (by simpa using hr)
      simpa [encodeRunes] using this

theorem str_valid {s : Bytes} (h : s.all (fun b => b < 0x80) = true) : ValidText s :=
  validText_ascii fun b hb => by
    have := List.all_eq_true.1 h b hb
    simpa [UInt8.lt_iff_toNat_lt] using this

theorem HTok.string_valid {h : HTok} (hv : h.Valid) : ValidText h.string := by
  have ha : ValidText h.tagString := by
    unfold HTok.tagString
    refine hv.1.append ?_
    rw [List.flatMap_def]
    refine validText_flatten fun s hs => ?_
    obtain ⟨a, ha, rfl⟩ := List.mem_map.1 hs
    exact ((((str_valid (by decide +kernel)).append (hv.2 a ha).1).append (str_valid (by decide +kernel))).append
      (escape_valid (hv.2 a ha).2)).append (str_valid (by decide +kernel))
  unfold HTok.string
  split
  · exact escape_valid hv.1
  · exact ((str_valid (by decide +kernel)).append ha).append (str_valid (by decide +kernel))
  · exact ((str_valid (by decide +kernel)).append ha).append (str_valid (by decide +kernel))
  · exact ((str_valid (by decide +kernel)).append ha).append (str_valid (by decide +kernel))
  · exact ((str_valid (by decide +kernel)).append hv.1).append (str_valid (by decide +kernel))
  · exact ((str_valid (by decide +kernel)).append hv.1).append (str_valid (by decide +kernel))

theorem htmlActual_valid {E : Env} (hc : E.CutsBetween) (events : List HTok) (final : Option Err) :
    ∀ raw, (∀ h ∈ events, h.Valid) → ∀ t ∈ (htmlActual E raw events final).1, ValidText t.value := by
  induction events with
  | nil => intro raw _ t ht; simp [htmlActual] at ht
  | cons h hs ih =>
    intro raw hv t ht
    have h1 := HTok.string_valid (hv h (by simp))
    have h2 := fun raw => ih raw fun h m => hv h (.tail _ m)
    have h3 := hc { data := h.string } h1
    rw [htmlActual] at ht
    split at ht
    · split at ht
      · rcases List.mem_cons.1 ht with rfl | ht
        · exact h1
        · exact h2 _ t ht
      · split at ht
        · rename_i segs he
          rw [he] at h3
          rcases List.mem_append.1 ht with ht | ht
          · exact segTokens_valid h3 t ht
          · exact h2 _ t ht
        · rename_i segs e he
          rw [he] at h3
          exact segTokens_valid h3 t ht
    · rcases List.mem_cons.1 ht with rfl | ht
      · exact h1
      · exact h2 _ t ht

/-- **C134 (HTML).** The same for a page of which the data and attributes are valid UTF-8. -/
theorem C134_html {E : Env} (hE : E.Lawful) (hc : E.CutsBetween) (bs : List Builtin) (hb : ∀ b ∈ bs, b.OK E ∧ b.Valid)
    {events : List HTok} {final : Option Err} (ht : TextNonempty events) (hv : ∀ h ∈ events, h.Valid) :
    ∃ out e, ((tokenizeHTML E events final).filter (bs.map (Builtin.apply E))).Yields out e ∧
      (∀ t ∈ out, ValidText t.value) ∧ ValidText (out.map (·.value)).flatten := by
  obtain ⟨out, h⟩ := C134_filters hE hc bs hb (html_yields hE events final ht) (htmlActual_valid hc events final false hv)
  exact ⟨out, _, h⟩

theorem names_valid : soRows.flatten.all (fun r => (textOf r.2).all (fun b => b < 0x80)) = true ∧
    nbaRows.flatten.all (fun r => decide (encodeRunes (runes (textOf r.2)) = textOf r.2)) = true := by
  constructor <;> decide +kernel

theorem validText_dec {s : Bytes} (h : decide (encodeRunes (runes s) = s) = true) : ValidText s :=
  validText_iff.2 (of_decide_eq_true h)

theorem tableOf_valid {rows : List (Nat × Nat)} {m : StringMap} (hm : m = tableOf rows) {P : Bytes → Bool}
    (h : rows.all (fun r => P (textOf r.2)) = true) : ∀ x ∈ m, P x.2 = true := by
  intro x hx
  rw [hm] at hx
  simp only [tableOf, List.mem_map] at hx
  obtain ⟨row, hrow, rfl⟩ := hx
  exact List.all_eq_true.1 h row hrow

/-- **C134 (tables).** Everything the shipped filters put into a text is valid UTF-8. -/
theorem C134_tables (U : Unicode) :
    (Builtin.synonyms stackOverflowMappings tagsArgs.ignoreCase tagsArgs.ignore).Valid ∧
    (Builtin.synonyms nbaMappings playersArgs.ignoreCase playersArgs.ignore).Valid ∧
    (Builtin.contractions contractionMappings).Valid ∧
    (Builtin.sigil ⟨[0x40], legalHandle⟩).Valid ∧ (Builtin.sigil ⟨[0x23], legalHashtag U⟩).Valid := by
  refine ⟨fun x hx => str_valid (tableOf_valid stackOverflow_rows (P := fun s => s.all fun b => b < 0x80) names_valid.1 x hx),
    fun x hx => validText_dec (tableOf_valid nba_rows (P := fun s => decide (encodeRunes (runes s) = s)) names_valid.2 x hx), fun x hx => ?_,
    str_valid (by decide), str_valid (s := [0x23]) (by decide)⟩
  have key : contractionMappings.all (fun x => decide (encodeRunes (runes x.2) = x.2)) = true := by decide +kernel
  exact validText_dec (List.all_eq_true.1 key x hx)

-- there is a scanner as assumed
example : uaxEnv.CutsBetween := fun _ h => wordSegs_valid uaxTable h

-- not every string is valid, so there is something to prove; a cut character is not
example : ¬ ValidText [0xC3] := by
  rw [validText_iff]
  decide +kernel
example : ValidText [0xC3, 0xA9] := ⟨"é", by decide +kernel⟩

end Jargon
