import Verif.Props.PageFilters

/-! C144: a comment after a tag makes no difference. -/

namespace Jargon

variable {E : Env} {cls : WordTable}

/-- A filter that the tag passes leaves it alone if nothing else is there. -/
theorem Builtin.alone (hE : E.Lawful) {b : Builtin} (hok : b.OK E) {s : Bytes} (hp : b.PassesTag E s) :
    Makes (b.apply E) [markupToken s] .eof [markupToken s] .eof := by
  cases b with
  | sigil f =>
    have := sigil_makes (E := E) hok [markupToken s]
    simp only [sigilActual, ite_self] at this
    exact this
  | synonyms m ic ign =>
    intro ts hy
    have := synonyms_yields (ic := ic) (ign := ign) hE hok hy
      (.separator (fun h => by simp [Token.IsWord, markupToken] at h) .nil)
    rwa [if_pos rfl] at this
  | distinct => exact hp.elim
  | _ => exact hp

theorem builtins_alone (hE : E.Lawful) {s : Bytes} : ∀ (bs : List Builtin), (∀ b ∈ bs, b.OK E) → (∀ b ∈ bs, b.PassesTag E s) →
    ∀ ts : TokenStream, ts.Yields [markupToken s] .eof → (ts.filter (bs.map (Builtin.apply E))).Yields [markupToken s] .eof
  | [], _, _, _, hy => hy
  | b :: bs, hok, hp, ts, hy => builtins_alone hE bs (fun b h => hok b (by simp [h])) (fun b h => hp b (by simp [h])) _
      (b.alone hE (hok b (by simp)) (hp b (by simp)) ts hy)

/-- **C144.** A comment (or a declaration, or a tag that does not begin a script or style element) put into a page after a
tag is one more token, and changes no other: for filters that both pass. -/
theorem C144_tokens (hE : E.Lawful) {bs : List Builtin} (hok : ∀ b ∈ bs, b.OK E) {page rest : List HTok} {tag c : HTok}
    (ht : tag.type ≠ .text) (hc : c.type ≠ .text) (hbs : ∀ b ∈ bs, b.PassesTag E tag.string ∧ b.PassesTag E c.string)
    (hraw : ∀ h ∈ page ++ [tag, c], h.opensRaw = false) (htext : TextNonempty (page ++ tag :: rest))
    (hscan : TextScans E (page ++ tag :: rest)) : ∃ x y,
      ((tokenizeHTML E (page ++ tag :: rest) none).filter (bs.map (Builtin.apply E))).Yields (x ++ y) .eof ∧
      ((tokenizeHTML E (page ++ tag :: c :: rest) none).filter (bs.map (Builtin.apply E))).Yields
        (x ++ ⟨c.string, true, false, false⟩ :: y) .eof := by
  have tn : ∀ {p : List HTok}, (∀ h ∈ p, h = c ∨ h ∈ page ++ tag :: rest) → TextNonempty p ∧ TextScans E p := by
    intro p hp
    refine ⟨fun h hh hx => ?_, fun h hh hx => ?_⟩
    · rcases hp h hh with rfl | h'
      · exact absurd hx hc
      · exact htext h h' hx
    · rcases hp h hh with rfl | h'
      · exact absurd hx hc
      · exact hscan h h' hx
  have hr1 : ∀ h ∈ page ++ [tag], h.opensRaw = false := fun h hh => hraw h (by simp at hh ⊢; tauto)
  obtain ⟨x, y, h1, h2, h3⟩ := C143_tokens hE (after := []) hok (by simp) (by simp) ht (fun b hb => (hbs b hb).1) hr1 htext hscan
  obtain ⟨x', y', k1, k2, k3⟩ := C143_tokens hE (after := []) (rest := c :: rest) hok (by simp) (by simp) ht
    (fun b hb => (hbs b hb).1) hr1 (tn (by simp; tauto)).1 (tn (by simp; tauto)).2
  obtain ⟨u, v, j1, j2, j3⟩ := C143_tokens hE (after := []) (page := []) (tag := c) (rest := rest) hok (by simp) (by simp) hc
    (fun b hb => (hbs b hb).2) (fun h hh => hraw h (by simp at hh; simp [hh])) (tn (by simp; tauto)).1 (tn (by simp; tauto)).2
  have j0 : (tokenizeHTML E [c] none).Yields [markupToken c.string] .eof := by
    have y0 := html_yields hE [c] none (tn (by simp)).1
    have e := htmlActual_plain [c] [] none (fun h hh => hraw h (by simp at hh; simp [hh])) (tn (by simp)).2
    rw [List.append_nil, List.flatMap_singleton, htmlToken, if_neg hc] at e
    rw [e] at y0
    exact y0
  simp only [List.append_nil, List.nil_append] at h1 h2 h3 k1 k2 k3 j1 j2 j3
  obtain rfl := (h1.unique k1).1
  obtain rfl := (h2.unique j2).1
  obtain rfl := (k2.unique j3).1
  obtain rfl := (j1.unique (builtins_alone hE bs hok (fun b hb => (hbs b hb).2) _ j0)).1
  exact ⟨x, y, h3, k3⟩

/-- **C144 (words).** Once only the words are left, or the lemmas, there is no difference at all, whatever filters come
afterwards. -/
theorem C144_words (hE : E.Lawful) {bs after : List Builtin} {sel : Builtin} (hsel : sel = .words ∨ sel = .lemmas)
    (hok : ∀ b ∈ bs, b.OK E) (haok : ∀ b ∈ after, b.OK E) {page rest : List HTok} {tag c : HTok}
    (ht : tag.type ≠ .text) (hc : c.type ≠ .text) (hbs : ∀ b ∈ bs, b.PassesTag E tag.string ∧ b.PassesTag E c.string)
    (hraw : ∀ h ∈ page ++ [tag, c], h.opensRaw = false) (htext : TextNonempty (page ++ tag :: rest))
    (hscan : TextScans E (page ++ tag :: rest)) : ∃ out,
      ((tokenizeHTML E (page ++ tag :: rest) none).filter ((bs ++ sel :: after).map (Builtin.apply E))).Yields out .eof ∧
      ((tokenizeHTML E (page ++ tag :: c :: rest) none).filter ((bs ++ sel :: after).map (Builtin.apply E))).Yields out .eof := by
  obtain ⟨x, y, h1, h2⟩ := C144_tokens hE hok ht hc hbs hraw htext hscan
  obtain ⟨p, hp, hmk⟩ : ∃ p : Token → Bool, p ⟨c.string, true, false, false⟩ = false ∧
      ∀ T, Makes (sel.apply E) T .eof (T.filter p) .eof := by
    rcases hsel with rfl | rfl
    · exact ⟨fun t => !t.isPunct && !t.isSpace, rfl, fun T ts hy => where_yields _ hy⟩
    · exact ⟨Token.isLemma, rfl, fun T ts hy => where_yields _ hy⟩
  obtain ⟨out, -, ho⟩ := C10_pipeline hE after haok ((x ++ y).filter p) .eof
  have hf : ∀ ts : TokenStream, ts.filter ((bs ++ sel :: after).map (Builtin.apply E)) =
      (sel.apply E (ts.filter (bs.map (Builtin.apply E)))).filter (after.map (Builtin.apply E)) := by
    intro ts
    simp [TokenStream.filter]
  rw [hf, hf]
  refine ⟨out, ho _ (hmk _ _ h1), ?_⟩
  have := hmk _ _ h2
  rw [List.filter_append, List.filter_cons, hp, if_neg (by simp), ← List.filter_append] at this
  exact ho _ this

/-- **C144 (program).** With `-html` and filters other than `-distinct`, the program writes the same for a page with and
without a comment after some tag, but for the comment itself; and with `-lemmas`, whatever flags come after it, just the
same. -/
theorem C144_program [HtmlReader] (hE : E.Lawful) (hF : E.FollowsUax29 cls) (hR : cls.Right) (hU : E.U.LowersLatin)
    (hP : E.U.PunctLatin) (hL : E.U.isLetter 0x3C = false) (hN : E.U.isNumber 0x3C = false) {ω : Type}
    {w : Place → Writer ω} {W : World (ω × Bytes)} {input : Bytes} (hW : Piped w W input) (hWE : W.E = E)
    (hst : GoodStem (W.snowball.of .english)) {fl : List FilterFlag} (hd : .distinct ∉ fl) (hm : .lemmas ∉ fl)
    {a d r : Bytes} {page : List HTok} {tag : HTok} (ha : EndsWithTag a) (hra : ¬ EndsInRaw a)
    (hat : htmlTokens a = page ++ [tag]) (ht : tag.type ≠ .text) (htp : PlainMarkup tag.string)
    (hd1 : CommentKept d) (hd2 : PlainMarkup (str "<!--" ++ d ++ str "-->"))
    (hraw : ∀ h ∈ htmlTokens a, h.opensRaw = false)
    (hfit : ∀ h ∈ htmlTokens a ++ htmlTokens r, h.type = .text → Fits cls h.string) :
    (∃ x y, RewritesPage W fl (a ++ r) (x ++ y) ∧
        RewritesPage W fl (a ++ ((str "<!--" ++ d ++ str "-->") ++ r)) (x ++ (str "<!--" ++ d ++ str "-->") ++ y)) ∧
      ∀ fl', ∃ out, RewritesPage W (fl ++ .lemmas :: fl') (a ++ r) out ∧
        RewritesPage W (fl ++ .lemmas :: fl') (a ++ ((str "<!--" ++ d ++ str "-->") ++ r)) out := by
  obtain ⟨k, hk, hks, hkread⟩ : ∃ k : HTok, k.type = .comment ∧ k.string = str "<!--" ++ d ++ str "-->" ∧
      ∀ r, htmlTokens (k.string ++ r) = k :: htmlTokens r := by
    refine ⟨⟨.comment, .zero, d, []⟩, rfl, rfl, fun r => ?_⟩
    rw [htmlTokens, run_token ⟨.comment, .zero, d, []⟩ (show Readable _ from ⟨rfl, rfl⟩) hd1 (by simp)]
    simp [textEvent, HTok.opensRawText, htmlTokens]
  rw [← hks] at hd2 ⊢
  obtain ⟨rd, rs⟩ := C143_ready hE hF hR hU hP hL hN htp
  obtain ⟨rd', rs'⟩ := C143_ready hE hF hR hU hP hL hN hd2
  have hok : ∀ f : FilterFlag, (f.filter W.snowball .english).OK E := flag_ok hF hR hst
  have hall : ∀ f ∈ fl, (f.filter W.snowball .english).PassesTag E tag.string ∧
      (f.filter W.snowball .english).PassesTag E k.string := by
    intro f hf
    cases f with
    | distinct => exact absurd hf hd
    | lemmas => exact absurd hf hm
    | ascii => exact ⟨(rd .asciiFold (by simp [readyFilters])).2, (rd' .asciiFold (by simp [readyFilters])).2⟩
    | contractions =>
      exact ⟨(rd (.contractions contractionMappings) (by simp [readyFilters])).2,
        (rd' (.contractions contractionMappings) (by simp [readyFilters])).2⟩
    | stack =>
      exact ⟨(rd (.synonyms stackOverflowMappings true stackOverflowIgnore) (by simp [readyFilters])).2,
        (rd' (.synonyms stackOverflowMappings true stackOverflowIgnore) (by simp [readyFilters])).2⟩
    | stem => exact ⟨rs _ (hok .stem), rs' _ (hok .stem)⟩
  have e1 : htmlTokens (a ++ r) = page ++ tag :: htmlTokens r := by
    rw [C114_reader a r ha hra, hat]
    simp
  have e2 : htmlTokens (a ++ (k.string ++ r)) = page ++ tag :: k :: htmlTokens r := by
    rw [C114_reader a _ ha hra, hkread, hat]
    simp
  have hkt : k.type ≠ .text := by rw [hk]; decide
  have hkr : ∀ h ∈ page ++ [tag, k], h.opensRaw = false := by
    intro h hh
    rw [show page ++ [tag, k] = htmlTokens a ++ [k] by rw [hat]; simp] at hh
    rcases List.mem_append.1 hh with hh | hh
    · exact hraw h hh
    · rw [List.mem_singleton.1 hh]; simp [HTok.opensRaw, hk]
  have htext : TextNonempty (page ++ tag :: htmlTokens r) := by rw [← e1]; exact textNonempty_tokens (a ++ r)
  have hscan : TextScans E (page ++ tag :: htmlTokens r) := fun h hh hx => by
    rw [hF _ (hfit h (by rw [hat]; simpa using hh) hx)]
  have hoks : ∀ l : List FilterFlag, ∀ b ∈ l.map (fun f => f.filter W.snowball .english), b.OK E := by
    intro l b hb; obtain ⟨f, -, rfl⟩ := List.mem_map.1 hb; exact hok f
  have hps : ∀ b ∈ fl.map (fun f => f.filter W.snowball .english), b.PassesTag E tag.string ∧ b.PassesTag E k.string := by
    intro b hb; obtain ⟨f, hf, rfl⟩ := List.mem_map.1 hb; exact hall f hf
  subst hWE
  constructor
  · obtain ⟨x, y, h1, h2⟩ := C144_tokens hE (hoks fl) ht hkt hps hkr htext hscan
    rw [← e1, List.map_map] at h1
    rw [← e2, List.map_map] at h2
    refine ⟨text x, text y, ?_, ?_⟩
    · have := rewritesPage_tokens hW h1
      rwa [show text (x ++ y) = text x ++ text y by simp [text]] at this
    · have := rewritesPage_tokens hW h2
      rwa [show text (x ++ ⟨k.string, true, false, false⟩ :: y) = text x ++ k.string ++ text y by simp [text]] at this
  · intro fl'
    obtain ⟨o, h1, h2⟩ := C144_words hE (sel := .lemmas) (.inr rfl) (hoks fl) (hoks fl') ht hkt hps hkr htext hscan
    have hmap : ((fl.map fun f => f.filter W.snowball .english) ++ .lemmas :: (fl'.map fun f => f.filter W.snowball .english)).map
        (Builtin.apply W.E) = (fl ++ .lemmas :: fl').map fun f => (f.filter W.snowball .english).apply W.E := by
      rw [List.map_append, List.map_cons, List.map_append, List.map_cons, List.map_map, List.map_map]
      rfl
    rw [hmap] at h1 h2
    rw [← e1] at h1
    rw [← e2] at h2
    exact ⟨_, rewritesPage_tokens hW h1, rewritesPage_tokens hW h2⟩

/-- Non-vacuity: `<!--c-->` between `<p>a b</p>` and `<p>a b</p>`, with all filters that come ready for use. -/
example : ∃ x y,
    ((tokenizeHTML uaxEnv (paragraph ++ paragraph) none).filter ((readyFilters uaxEnv).map (Builtin.apply uaxEnv))).Yields
      (x ++ y) .eof ∧
    ((tokenizeHTML uaxEnv (paragraph ++ ⟨.comment, .zero, str "c", []⟩ :: paragraph) none).filter
      ((readyFilters uaxEnv).map (Builtin.apply uaxEnv))).Yields (x ++ ⟨str "<!--c-->", true, false, false⟩ :: y) .eof := by
  have p1 : PlainMarkup (str "</p>") := ⟨⟨str "/p>", by decide +kernel⟩, by decide +kernel⟩
  have p2 : PlainMarkup (str "<!--c-->") := ⟨⟨str "!--c-->", by decide +kernel⟩, by decide +kernel⟩
  have rd := fun {s : Bytes} (p : PlainMarkup s) => (C143_ready uaxEnv_lawful uaxEnv_follows uaxTable_right uaxEnv_lowers
    uaxEnv_punct (by decide +kernel) (by decide +kernel) p).1
  have e1 : (⟨.endTag, .other 1, str "p", []⟩ : HTok).string = str "</p>" := by decide +kernel
  have e2 : (⟨.comment, .zero, str "c", []⟩ : HTok).string = str "<!--c-->" := by decide +kernel
  have := C144_tokens uaxEnv_lawful (page := paragraph.dropLast) (tag := ⟨.endTag, .other 1, str "p", []⟩)
    (c := ⟨.comment, .zero, str "c", []⟩) (rest := paragraph)
    (fun b hb => (rd p1 b hb).1) (by decide) (by decide)
    (fun b hb => by rw [e1, e2]; exact ⟨(rd p1 b hb).2, (rd p2 b hb).2⟩) (by decide +kernel)
    (by unfold TextNonempty; decide +kernel) (by
      intro h hh ht
      have : h.string = str "a b" := by
        revert h
        decide +kernel
      rw [this, uaxEnv_follows _ (.inl (by decide +kernel))])
  rw [e2] at this
  exact this

/-- Non-vacuity: what the program writes for `<p>a b</p>` twice, with `<!--c-->` between them and without it. -/
example : letI := sampleReader
    (∃ x y, RewritesPage (pipeWorld uaxEnv []) [.stack] (str "<p>a b</p>" ++ str "<p>a b</p>") (x ++ y) ∧
      RewritesPage (pipeWorld uaxEnv []) [.stack] (str "<p>a b</p>" ++ ((str "<!--" ++ str "c" ++ str "-->") ++ str "<p>a b</p>"))
        (x ++ (str "<!--" ++ str "c" ++ str "-->") ++ y)) ∧
    ∀ fl', ∃ out, RewritesPage (pipeWorld uaxEnv []) ([.stack] ++ .lemmas :: fl') (str "<p>a b</p>" ++ str "<p>a b</p>") out ∧
      RewritesPage (pipeWorld uaxEnv []) ([.stack] ++ .lemmas :: fl')
        (str "<p>a b</p>" ++ ((str "<!--" ++ str "c" ++ str "-->") ++ str "<p>a b</p>")) out := by
  let _ := sampleReader
  have h1 : htmlTokens (str "<p>a b</p>") ≠ [] ∧ (∀ x ∈ (htmlTokens (str "<p>a b</p>")).getLast?,
      x.opensRawText = false ∧ x.type ≠ .text ∧ x.string = str "</p>") ∧
      ∀ h ∈ htmlTokens (str "<p>a b</p>"), h.opensRaw = false ∧ (h.type = .text → h.string = str "a b") := by decide +kernel
  obtain ⟨n, ht, hr⟩ := h1
  obtain ⟨a1, a2, a3⟩ := ht _ (List.getLast?_eq_getLast_of_ne_nil n)
  refine C144_program (E := uaxEnv) uaxEnv_lawful uaxEnv_follows uaxTable_right uaxEnv_lowers uaxEnv_punct (by decide +kernel)
    (by decide +kernel) (pipeWorld_piped uaxEnv []) rfl (fun _ => ⟨id, id⟩) (by simp) (by simp)
    (hat := (List.dropLast_append_getLast n).symm) (ha := ⟨str "<p>a b</p", 0x3E, by decide +kernel, by decide +kernel⟩)
    (hra := ?_) (ht := a2) (htp := ?_) (hraw := fun h hh => (hr h hh).1) (hfit := fun h hh hx => ?_) (hd1 := ?_)
    (hd2 := ⟨⟨str "!--c-->", by decide +kernel⟩, by decide +kernel⟩)
  · rintro ⟨x, hx, hraw⟩
    rw [(ht x hx).1] at hraw
    cases hraw
  · rw [a3]; exact ⟨⟨str "/p>", by decide +kernel⟩, by decide +kernel⟩
  · unfold CommentKept
    decide +kernel
  · rw [(hr h ((List.mem_append.1 hh).elim id id)).2 hx]
    exact .inl (by decide +kernel)

end Jargon
