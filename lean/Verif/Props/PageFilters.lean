import Verif.Props.Wrapped

/-! C143: a page may be filtered in parts, cut after a tag. -/

namespace Jargon

variable {E : Env} {cls : WordTable}

/-- What is required of a filter's configuration: that it leaves the tag by itself alone; that it is not a sigil or legal
after one; and that a sigil is never a word. Every synonyms filter is like that. -/
def Builtin.PassesTag (E : Env) (s : Bytes) : Builtin → Prop
  | .sigil f => f.sigil ≠ s ∧ f.legal s = false ∧ ∀ t, TrueFlags E.U t → t.value = f.sigil → ¬ t.IsWord
  | .synonyms .. => True
  | .distinct => False
  | b => Makes (b.apply E) [markupToken s] .eof [markupToken s] .eof

/-- The flags are right, or the token is punctuation. -/
def RightOrPunct (U : Unicode) (t : Token) : Prop := TrueFlags U t ∨ t.punct = true

theorem Builtin.splitsTag (hE : E.Lawful) {b : Builtin} (hok : b.OK E) {s : Bytes} (hp : b.PassesTag E s) {z : List Token}
    (hz : ∀ t ∈ z, RightOrPunct E.U t) (B : List Token) : ∃ w y,
      Splits (b.apply E) (z ++ [markupToken s]) B (w ++ [markupToken s]) y ∧ ∀ t ∈ w, RightOrPunct E.U t := by
  have flags : ∀ {w : List Token}, Makes (b.apply E) (z ++ [markupToken s]) .eof (w ++ [markupToken s]) .eof →
      ∀ t ∈ w, RightOrPunct E.U t := by
    intro w hw t ht
    obtain ⟨x', h1, h2⟩ := b.each (P := RightOrPunct E.U) (fun s l => .inl (mkToken_flags E.U s l)) hE hok
      (z ++ [markupToken s]) .eof (by
        intro t ht
        rcases List.mem_append.1 ht with ht | ht
        · exact hz t ht
        · rw [List.mem_singleton.1 ht]; exact .inr rfl)
    have := ((hw _ (listStream_yields _ .eof)).unique (h1 _ (listStream_yields _ .eof))).1
    exact h2 t (by rw [← this]; simp [ht])
  have hw : ¬ (markupToken s).IsWord := fun h => by simp [Token.IsWord, markupToken] at h
  by_cases hb : b.OneByOne
  · obtain ⟨g, h1, -⟩ := b.oneByOne hE hok hb
    have hp : Makes (b.apply E) [markupToken s] .eof [markupToken s] .eof := by
      cases b <;> first | exact hp | exact hb.elim
    have e := hp.unique (h1 _)
    rw [List.flatMap_singleton] at e
    have k := h1 (z ++ [markupToken s])
    have k' := h1 (z ++ [markupToken s] ++ B)
    rw [List.flatMap_append, List.flatMap_singleton, ← e] at k
    rw [List.flatMap_append, List.flatMap_append, List.flatMap_singleton, ← e] at k'
    exact ⟨_, _, ⟨k, h1 B, k'⟩, flags k⟩
  · cases b with
    | sigil f =>
      obtain ⟨k1, k2, k3⟩ := hp
      obtain ⟨h1, w, h2⟩ := sigil_stop (U := E.U) (f := f) (nl := markupToken s) (fun h => k1 h.symm) k2 hw B .eof z none
        (fun t ht hv => (hz t ht).elim (fun h => k3 t h hv) (fun h hw => by simp [Token.IsWord, h] at hw))
      have m1 := sigil_makes (E := E) hok (z ++ [markupToken s])
      have m2 := sigil_makes (E := E) hok (z ++ [markupToken s] ++ B)
      rw [h2] at m1
      rw [List.append_assoc, List.singleton_append, h1, h2] at m2
      refine ⟨w, _, ⟨m1, sigil_makes hok B, ?_⟩, flags m1⟩
      rw [List.append_assoc, List.singleton_append]
      exact m2
    | synonyms m ic ign =>
      have make : ∀ {T out : List Token}, Greedy ⟨E.U, ic, ign⟩ ((Compare.mk E.U ic ign).dict (entries E m))
          (wordLimit (entries E m)) T out → Makes (Builtin.apply E (.synonyms m ic ign)) T .eof out .eof := by
        intro T out hg ts hy
        have := synonyms_yields hE hok hy hg
        rwa [if_pos rfl] at this
      obtain ⟨oa, ha⟩ := Greedy.total ⟨E.U, ic, ign⟩ ((Compare.mk E.U ic ign).dict (entries E m))
        (wordLimit (entries E m)) (z ++ [markupToken s])
      obtain ⟨ob, hb⟩ := Greedy.total ⟨E.U, ic, ign⟩ ((Compare.mk E.U ic ign).dict (entries E m))
        (wordLimit (entries E m)) B
      obtain ⟨h1, w, rfl⟩ := greedy_stop (l := markupToken s) rfl ha hb rfl
      exact ⟨w, ob, ⟨make ha, make hb, make h1⟩, flags (make ha)⟩
    | distinct => exact hp.elim
    | _ => exact absurd trivial hb

theorem builtins_splitTag (hE : E.Lawful) {after : List Builtin} (haok : ∀ b ∈ after, b.OK E)
    (ha : ∀ b ∈ after, b.OneByOne) {s : Bytes} : ∀ (bs : List Builtin), (∀ b ∈ bs, b.OK E) → (∀ b ∈ bs, b.PassesTag E s) →
    ∀ z B, (∀ t ∈ z, RightOrPunct E.U t) →
    ∃ x y, Splits (fun ts => ts.filter ((bs ++ after).map (Builtin.apply E))) (z ++ [markupToken s]) B x y
  | [], _, _, z, B, _ => onebyone_split hE after haok ha _ B
  | b :: bs, hok, h1, z, B, hz => by
    obtain ⟨w, y, ⟨k1, k2, k3⟩, k4⟩ := b.splitsTag hE (hok b (by simp)) (h1 b (by simp)) hz B
    obtain ⟨x', y', j1, j2, j3⟩ := builtins_splitTag hE haok ha bs (fun b h => hok b (by simp [h]))
      (fun b h => h1 b (by simp [h])) w y k4
    exact ⟨x', y', fun ts hy => j1 _ (k1 ts hy), fun ts hy => j2 _ (k2 ts hy), fun ts hy => j3 _ (k3 ts hy)⟩

/-- The tokens of a page without script and style elements. -/
theorem html_rightOrPunct (page : List HTok) :
    ∀ t ∈ page.flatMap (htmlToken E), RightOrPunct E.U t := by
  intro t ht
  obtain ⟨h, hh, ht⟩ := List.mem_flatMap.1 ht
  unfold htmlToken at ht
  split at ht
  · exact .inl (by
      simp only [stringTokens] at ht
      exact segTokens_each (mkToken_flags E.U) _ t ht)
  · rw [List.mem_singleton.1 ht]; exact .inr rfl

/-- **C143.** A page may be filtered in parts, cut after a tag, if there is no script or style element before the cut: for
filters that the tag passes, and after them filters that look at one token at a time, the tokens of the page are those of
its parts, one after the other. -/
theorem C143_tokens (hE : E.Lawful) {bs after : List Builtin} (hok : ∀ b ∈ bs, b.OK E) (haok : ∀ b ∈ after, b.OK E)
    (ha : ∀ b ∈ after, b.OneByOne) {page rest : List HTok} {tag : HTok} (ht : tag.type ≠ .text)
    (hbs : ∀ b ∈ bs, b.PassesTag E tag.string) (hraw : ∀ h ∈ page ++ [tag], h.opensRaw = false)
    (htext : TextNonempty (page ++ tag :: rest)) (hscan : TextScans E (page ++ tag :: rest)) : ∃ x y,
      ((tokenizeHTML E (page ++ [tag]) none).filter ((bs ++ after).map (Builtin.apply E))).Yields x .eof ∧
      ((tokenizeHTML E rest none).filter ((bs ++ after).map (Builtin.apply E))).Yields y .eof ∧
      ((tokenizeHTML E (page ++ tag :: rest) none).filter ((bs ++ after).map (Builtin.apply E))).Yields (x ++ y) .eof := by
  have n1 : TextNonempty (page ++ [tag]) := fun h hh => htext h (by simp at hh ⊢; tauto)
  have n2 : TextNonempty rest := fun h hh => htext h (by simp [hh])
  have s1 : TextScans E (page ++ [tag]) := fun h hh => hscan h (by simp at hh ⊢; tauto)
  have s2 : TextScans E rest := fun h hh => hscan h (by simp [hh])
  have y1 := html_yields hE (page ++ [tag]) none n1
  have y2 := html_yields hE rest none n2
  have y3 := html_yields hE (page ++ tag :: rest) none htext
  have e0 : page ++ tag :: rest = (page ++ [tag]) ++ rest := by simp
  have e1 := htmlActual_plain (page ++ [tag]) [] none hraw s1
  simp only [List.append_nil, htmlActual] at e1
  have e2 := htmlActual_plain (page ++ [tag]) rest none hraw s1
  have et : (page ++ [tag]).flatMap (htmlToken E) = page.flatMap (htmlToken E) ++ [markupToken tag.string] := by
    rw [List.flatMap_append, List.flatMap_singleton, htmlToken, if_neg ht]
    rfl
  rw [html_eof false s2] at y2
  rw [e1, et] at y1
  rw [e0, e2, html_eof false s2, et] at y3
  obtain ⟨x, y, k1, k2, k3⟩ := builtins_splitTag hE haok ha bs hok hbs (page.flatMap (htmlToken E)) (htmlActual E false rest none).1
    (html_rightOrPunct page)
  rw [e0]
  exact ⟨x, y, k1 _ y1, k2 _ y2, k3 _ y3⟩

/-- **C143 (ready).** Tags in ASCII pass all filters that come ready for use, and the stemmers. -/
theorem C143_ready (hE : E.Lawful) (hF : E.FollowsUax29 cls) (hR : cls.Right) (hU : E.U.LowersLatin) (hP : E.U.PunctLatin)
    (hL : E.U.isLetter 0x3C = false) (hN : E.U.isNumber 0x3C = false) {s : Bytes} (hs : PlainMarkup s) :
    (∀ b ∈ readyFilters E, b.OK E ∧ b.PassesTag E s) ∧
      ∀ stem, (Builtin.stemmer stem).OK E → (Builtin.stemmer stem).PassesTag E s := by
  obtain ⟨rd, rs⟩ := C141_ready hE hF hR hU hL hN hs hs
  have punct : ∀ {s : Bytes} {r : Rune}, runes s = [r] → E.U.isPunct r = true → ∀ t, TrueFlags E.U t → t.value = s → ¬ t.IsWord := by
    intro s r hs hr t hf hv hw
    have := hf.punct.2 (by rw [hv, hs]; simp [hr])
    simp [Token.IsWord, this] at hw
  refine ⟨fun b hb => ?_, fun stem hok => (rs stem hok).1⟩
  obtain ⟨h1, h2⟩ := rd b hb
  refine ⟨h1, ?_⟩
  simp only [readyFilters, List.mem_cons, List.not_mem_nil, or_false] at hb
  rcases hb with rfl | rfl | rfl | rfl | rfl | rfl
  · exact h2.1
  · exact h2.1
  · trivial
  · trivial
  · exact ⟨h2.1, h2.2.2, punct (s := [0x40]) (r := 0x40) (by decide +kernel) (by rw [hP _ (by decide)]; decide +kernel)⟩
  · exact ⟨h2.1, h2.2.2, punct (s := [0x23]) (r := 0x23) (by decide +kernel) (by rw [hP _ (by decide)]; decide +kernel)⟩

/-- **C143 (program).** With `-html` and filters other than `-distinct`, among them `-lemmas` only at the end, the program
writes for a page what it writes for the part up to and including a tag, and then what it writes for the rest. -/
theorem C143_program [HtmlReader] (hE : E.Lawful) (hF : E.FollowsUax29 cls) (hR : cls.Right) (hU : E.U.LowersLatin)
    (hP : E.U.PunctLatin) (hL : E.U.isLetter 0x3C = false) (hN : E.U.isNumber 0x3C = false) {ω : Type}
    {w : Place → Writer ω} {W : World (ω × Bytes)} {input : Bytes} (hW : Piped w W input) (hWE : W.E = E)
    (hst : GoodStem (W.snowball.of .english)) {fl fl' : List FilterFlag} (hd : .distinct ∉ fl) (hm : .lemmas ∉ fl)
    (hl : fl' = [] ∨ fl' = [.lemmas]) {a c : Bytes} {page : List HTok} {tag : HTok} (ha : EndsWithTag a) (hra : ¬ EndsInRaw a)
    (hat : htmlTokens a = page ++ [tag]) (ht : tag.type ≠ .text) (htp : PlainMarkup tag.string)
    (hraw : ∀ h ∈ htmlTokens a, h.opensRaw = false)
    (hfit : ∀ h ∈ htmlTokens a ++ htmlTokens c, h.type = .text → Fits cls h.string) :
    ∃ x y, RewritesPage W (fl ++ fl') a x ∧ RewritesPage W (fl ++ fl') c y ∧ RewritesPage W (fl ++ fl') (a ++ c) (x ++ y) := by
  obtain ⟨rd, rs⟩ := C143_ready hE hF hR hU hP hL hN htp
  have hok : ∀ f : FilterFlag, (f.filter W.snowball .english).OK E := flag_ok hF hR hst
  have hall : ∀ f ∈ fl, (f.filter W.snowball .english).PassesTag E tag.string := by
    intro f hf
    cases f with
    | distinct => exact absurd hf hd
    | lemmas => exact absurd hf hm
    | ascii => exact (rd .asciiFold (by simp [readyFilters])).2
    | contractions => exact (rd (.contractions contractionMappings) (by simp [readyFilters])).2
    | stack => exact (rd (.synonyms stackOverflowMappings true stackOverflowIgnore) (by simp [readyFilters])).2
    | stem => exact rs _ (hok .stem)
  have e : htmlTokens (a ++ c) = page ++ tag :: htmlTokens c := by
    rw [C114_reader a c ha hra, hat]
    simp
  obtain ⟨x, y, h1, h2, h3⟩ := C143_tokens hE (bs := fl.map fun f => f.filter W.snowball .english)
    (after := fl'.map fun f => f.filter W.snowball .english) (rest := htmlTokens c)
    (fun b hb => by obtain ⟨f, -, rfl⟩ := List.mem_map.1 hb; exact hok f)
    (fun b hb => by obtain ⟨f, -, rfl⟩ := List.mem_map.1 hb; exact hok f)
    (fun b hb => by
      obtain ⟨f, hf, rfl⟩ := List.mem_map.1 hb
      rcases hl with rfl | rfl
      · cases hf
      · rw [List.mem_singleton.1 hf]; trivial) ht
    (fun b hb => by obtain ⟨f, hf, rfl⟩ := List.mem_map.1 hb; exact hall f hf)
    (by rw [← hat]; exact hraw) (by rw [← e]; exact textNonempty_tokens (a ++ c))
    (fun h hh hx => by
      rw [hF _ (hfit h (by rw [hat]; simpa using hh) hx)])
  rw [← hat] at h1
  rw [← e] at h3
  rw [← List.map_append, List.map_map] at h1 h2 h3
  subst hWE
  refine ⟨_, _, rewritesPage_tokens hW h1, rewritesPage_tokens hW h2, ?_⟩
  have := rewritesPage_tokens hW h3
  rw [show text (x ++ y) = text x ++ text y by simp [text]] at this
  exact this

/-- Non-vacuity: `<p>a b</p>` twice, with all filters that come ready for use, and then `Words`. -/
example : ∃ x y,
    ((tokenizeHTML uaxEnv paragraph none).filter ((readyFilters uaxEnv ++ [Builtin.words]).map (Builtin.apply uaxEnv))).Yields x .eof ∧
    ((tokenizeHTML uaxEnv paragraph none).filter ((readyFilters uaxEnv ++ [Builtin.words]).map (Builtin.apply uaxEnv))).Yields y .eof ∧
    ((tokenizeHTML uaxEnv (paragraph ++ paragraph) none).filter
      ((readyFilters uaxEnv ++ [Builtin.words]).map (Builtin.apply uaxEnv))).Yields (x ++ y) .eof := by
  have p2 : PlainMarkup (str "</p>") := ⟨⟨str "/p>", by decide +kernel⟩, by decide +kernel⟩
  have rd := (C143_ready uaxEnv_lawful uaxEnv_follows uaxTable_right uaxEnv_lowers uaxEnv_punct (by decide +kernel)
    (by decide +kernel) p2).1
  have e2 : (⟨.endTag, .other 1, str "p", []⟩ : HTok).string = str "</p>" := by decide +kernel
  exact C143_tokens uaxEnv_lawful (page := paragraph.dropLast) (tag := ⟨.endTag, .other 1, str "p", []⟩) (rest := paragraph)
    (fun b hb => (rd b hb).1) (by simp [Builtin.OK]) (by simp [Builtin.OneByOne]) (by decide)
    (fun b hb => by rw [e2]; exact (rd b hb).2) (by decide +kernel) (by unfold TextNonempty; decide +kernel) (by
      intro h hh ht
      have : h.string = str "a b" := by
        revert h
        decide +kernel
      rw [this, uaxEnv_follows _ (.inl (by decide +kernel))])

/-- Non-vacuity: what the program writes for `<p>a b</p>` twice, with `-html -stack -lemmas`. -/
example : letI := sampleReader
    ∃ x y, RewritesPage (pipeWorld uaxEnv []) ([.stack] ++ [.lemmas]) (str "<p>a b</p>") x ∧
      RewritesPage (pipeWorld uaxEnv []) ([.stack] ++ [.lemmas]) (str "<p>a b</p>") y ∧
      RewritesPage (pipeWorld uaxEnv []) ([.stack] ++ [.lemmas]) (str "<p>a b</p>" ++ str "<p>a b</p>") (x ++ y) := by
  let _ := sampleReader
  have h1 : htmlTokens (str "<p>a b</p>") ≠ [] ∧ (∀ x ∈ (htmlTokens (str "<p>a b</p>")).getLast?,
      x.opensRawText = false ∧ x.type ≠ .text ∧ x.string = str "</p>") ∧
      ∀ h ∈ htmlTokens (str "<p>a b</p>"), h.opensRaw = false ∧ (h.type = .text → h.string = str "a b") := by decide +kernel
  obtain ⟨n, ht, hr⟩ := h1
  obtain ⟨a1, a2, a3⟩ := ht _ (List.getLast?_eq_getLast_of_ne_nil n)
  refine C143_program (E := uaxEnv) uaxEnv_lawful uaxEnv_follows uaxTable_right uaxEnv_lowers uaxEnv_punct (by decide +kernel)
    (by decide +kernel) (pipeWorld_piped uaxEnv []) rfl (fun _ => ⟨id, id⟩) (by simp) (by simp) (.inr rfl)
    (hat := (List.dropLast_append_getLast n).symm) (ha := ⟨str "<p>a b</p", 0x3E, by decide +kernel, by decide +kernel⟩)
    (hra := ?_) (ht := a2) (htp := ?_) (hraw := fun h hh => (hr h hh).1) (hfit := fun h hh hx => ?_)
  · rintro ⟨x, hx, hraw⟩
    rw [(ht x hx).1] at hraw
    cases hraw
  · rw [a3]; exact ⟨⟨str "/p>", by decide +kernel⟩, by decide +kernel⟩
  · rw [(hr h ((List.mem_append.1 hh).elim id id)).2 hx]
    exact .inl (by decide +kernel)

end Jargon
