import Verif.Props.Brackets
import Verif.Props.PageParts
import Verif.Props.Markup

/-! C141: an element around a page makes no difference. -/

namespace Jargon

variable {E : Env} {cls : WordTable}

/-- The token of a tag, a comment or a doctype. -/
def markupToken (s : Bytes) : Token := ⟨s, true, false, false⟩

/-- What is required of a filter's configuration: that it leaves the two by themselves alone, and that they are not a
sigil or legal after one. Every synonyms filter is like that. -/
def Builtin.PassesMarkup (E : Env) (l r : Bytes) : Builtin → Prop
  | .sigil f => f.sigil ≠ l ∧ f.sigil ≠ r ∧ f.legal r = false
  | .synonyms .. => True
  | .distinct => False
  | b => Makes (b.apply E) [markupToken l] .eof [markupToken l] .eof ∧
      Makes (b.apply E) [markupToken r] .eof [markupToken r] .eof

theorem Builtin.wrapped (hE : E.Lawful) {l r : Bytes} {b : Builtin} (hok : b.OK E) (hp : b.PassesMarkup E l r)
    {T out : List Token} (h : Makes (b.apply E) T .eof out .eof) :
    Makes (b.apply E) (markupToken l :: (T ++ [markupToken r])) .eof (markupToken l :: (out ++ [markupToken r])) .eof := by
  have hw : ¬ (markupToken l).IsWord := fun h => by simp [Token.IsWord, markupToken] at h
  by_cases hb : b.OneByOne
  · obtain ⟨g, hg, -⟩ := Builtin.oneByOne hE hok hb
    have hp : Makes (b.apply E) [markupToken l] .eof [markupToken l] .eof ∧
        Makes (b.apply E) [markupToken r] .eof [markupToken r] .eof := by
      cases b <;> first | exact hp | exact hb.elim
    have e1 := hp.1.unique (hg _)
    have e2 := hp.2.unique (hg _)
    have e3 := h.unique (hg _)
    have := hg (markupToken l :: (T ++ [markupToken r]))
    rw [List.flatMap_singleton] at e1 e2
    rwa [List.flatMap_cons, List.flatMap_append, List.flatMap_singleton, ← e1, ← e2, ← e3] at this
  · cases b with
    | sigil f =>
      obtain ⟨h1, h2, h3⟩ := hp
      have hv : (markupToken l).value ≠ f.sigil := fun h => h1 h.symm
      have e := (sigil_makes (E := E) hok T).unique h
      have key : (sigilActual E.U f none (markupToken l :: (T ++ [markupToken r])) .eof).1 =
          markupToken l :: ((sigilActual E.U f none T .eof).1 ++ [markupToken r]) := by
        rw [← sigil_lineEnd (nl := markupToken r) (fun h => h2 h.symm) h3]
        cases hT : T ++ [markupToken r] with
        | nil => simp at hT
        | cons d ds =>
          rw [sigilActual, if_neg (by simp [hv]), sigil_boundary (boundary_some hw)]
          rfl
      have := sigil_makes (E := E) hok (markupToken l :: (T ++ [markupToken r]))
      rwa [key, e] at this
    | distinct => exact hp.elim
    | synonyms m ic ign =>
      have make : ∀ {T out : List Token}, Greedy ⟨E.U, ic, ign⟩ ((Compare.mk E.U ic ign).dict (entries E m))
          (wordLimit (entries E m)) T out → Makes (Builtin.apply E (.synonyms m ic ign)) T .eof out .eof := by
        intro T out hg ts hy
        have := synonyms_yields hE hok hy hg
        rwa [if_pos rfl] at this
      obtain ⟨o, g⟩ := Greedy.total ⟨E.U, ic, ign⟩ ((Compare.mk E.U ic ign).dict (entries E m))
        (wordLimit (entries E m)) T
      obtain rfl := (make g).unique h
      exact make (.separator hw (greedy_lineEnd rfl g))
    | _ => exact absurd trivial hb

theorem builtins_wrapped (hE : E.Lawful) {l r : Bytes} :
    ∀ (bs : List Builtin), (∀ b ∈ bs, b.OK E) → (∀ b ∈ bs, b.PassesMarkup E l r) → ∀ T : List Token, ∃ out,
      Makes (fun ts => ts.filter (bs.map (Builtin.apply E))) T .eof out .eof ∧
      Makes (fun ts => ts.filter (bs.map (Builtin.apply E))) (markupToken l :: (T ++ [markupToken r])) .eof
        (markupToken l :: (out ++ [markupToken r])) .eof
  | [], _, _, T => ⟨T, fun _ h => h, fun _ h => h⟩
  | b :: bs, hok, hp, T => by
    obtain ⟨mid, -, h1⟩ := C10_pipeline hE [b] (fun c hc => hok c (by simp at hc ⊢; exact .inl hc)) T .eof
    have h1 : Makes (b.apply E) T .eof mid .eof := h1
    have h2 := Builtin.wrapped hE (hok b (by simp)) (hp b (by simp)) h1
    obtain ⟨out, h3, h4⟩ := builtins_wrapped hE bs (fun b h => hok b (by simp [h])) (fun b h => hp b (by simp [h])) mid
    exact ⟨out, fun ts h => h3 _ (h1 ts h), fun ts h => h4 _ (h2 ts h)⟩

/-- **C141.** A start tag before a page, other than of a script or style element, and an end tag after it are a token
more before it and one after it, and otherwise make no difference, not even to filters that they pass. -/
theorem C141_tokens (hE : E.Lawful) {l r : HTok} (hl : l.type ≠ .text) (hr : r.type ≠ .text) (hraw : l.opensRaw = false)
    {bs : List Builtin} (hok : ∀ b ∈ bs, b.OK E) (hbs : ∀ b ∈ bs, b.PassesMarkup E l.string r.string) {page : List HTok}
    (htext : TextNonempty page) {toks : List Token} (hy : (tokenizeHTML E page none).Yields toks .eof) {out : List Token}
    (h : ((tokenizeHTML E page none).filter (bs.map (Builtin.apply E))).Yields out .eof) :
    ((tokenizeHTML E (l :: (page ++ [r])) none).filter (bs.map (Builtin.apply E))).Yields
      (⟨l.string, true, false, false⟩ :: (out ++ [⟨r.string, true, false, false⟩])) .eof := by
  have y1 := html_yields hE page none htext
  have y2 := html_yields hE (l :: (page ++ [r])) none (by
    intro x hx ht
    simp only [List.mem_cons, List.mem_append, List.not_mem_nil, or_false] at hx
    rcases hx with rfl | hx | rfl
    · exact absurd ht hl
    · exact htext x hx ht
    · exact absurd ht hr)
  obtain ⟨e1, e2⟩ := hy.unique y1
  have e : htmlActual E false (l :: (page ++ [r])) none = (markupToken l.string :: (toks ++ [markupToken r.string]), .eof) := by
    rw [htmlActual, if_neg hl, hraw, Bool.or_false, htmlActual_append _ _ _ _ e2.symm, ← e1, htmlActual, if_neg hr, htmlActual]
    rfl
  rw [e] at y2
  obtain ⟨o, h3, h4⟩ := builtins_wrapped hE bs hok hbs toks
  obtain rfl := ((h3 _ hy).unique h).1
  exact h4 _ y2

/-- Markup begins with `<`, and is ASCII here. -/
structure PlainMarkup (s : Bytes) : Prop where
  opens : ∃ z, s = 0x3C :: z
  ascii : ∀ b ∈ s, b.toNat < 0x80

/-- **C141 (ready).** All filters that come ready for use are like that, and so are the stemmers. -/
theorem C141_ready (hE : E.Lawful) (hF : E.FollowsUax29 cls) (hR : cls.Right) (hU : E.U.LowersLatin)
    (hL : E.U.isLetter 0x3C = false) (hN : E.U.isNumber 0x3C = false) {l r : Bytes} (hl : PlainMarkup l) (hr : PlainMarkup r) :
    (∀ b ∈ readyFilters E, b.OK E ∧ b.PassesMarkup E l r) ∧
      ∀ stem, (Builtin.stemmer stem).OK E → (Builtin.stemmer stem).PassesMarkup E l r := by
  obtain ⟨-, k1, k2, k3⟩ := C76_scanner_laws hF hR
  obtain ⟨zl, rfl⟩ := hl.opens
  obtain ⟨zr, rfl⟩ := hr.opens
  refine ⟨fun b hb => ?_, fun stem hok => ?_⟩
  · simp only [readyFilters, List.mem_cons, List.not_mem_nil, or_false] at hb
    rcases hb with rfl | rfl | rfl | rfl | rfl | rfl
    · have : ∀ s, PlainMarkup s → Makes (asciiFold E.U) [markupToken s] .eof [markupToken s] .eof := by
        intro s hs ts hy
        have := asciiFold_yields E.U hy
        have hf : foldString s = (s, false) := C17_ascii_unchanged s hs.ascii
        simpa [foldToken, markupToken, hf] using this
      exact ⟨trivial, this _ hl, this _ hr⟩
    · have : ∀ z, Makes (expandWith E contractionMappings) [markupToken (0x3C :: z)] .eof [markupToken (0x3C :: z)] .eof := by
        intro z ts hy
        have := expandWith_yields hE k3 hy
        simpa [expandToken, contraction_markup hU z (markupToken (0x3C :: z)) rfl] using this
      exact ⟨k3, this zl, this zr⟩
    · exact ⟨fun x hx => (k1 x hx).scans, trivial⟩
    · exact ⟨fun x hx => (k2 x hx).scans, trivial⟩
    · refine ⟨by simp [Builtin.OK], by simp, by simp, ?_⟩
      have h := runes_ascii_cons (b := 0x3C) (by decide) zr
      show legalHandleLoop 0 (runes (0x3C :: zr)) = false
      rw [h]
      rfl
    · refine ⟨by simp [Builtin.OK], by simp, by simp, ?_⟩
      simp only [legalHashtag]
      split
      · have hd : decodeRune (0x3C :: zr) = (0x3C, 1) := rfl
        rw [hd, hL]
      · have h := runes_ascii_cons (b := 0x3C) (by decide) zr
        rw [h]
        simp [legalHashtagLoop, hL, hN]
  · have : ∀ s, Makes (stemmer E.U stem) [markupToken s] .eof [markupToken s] .eof := by
      intro s ts hy
      have := stemmer_yields (U := E.U) (stem := stem) (fun t _ => hok _) hy
      have hw : ¬ (markupToken s).IsWord := fun h => by simp [Token.IsWord, markupToken] at h
      simpa [stemToken, hw] using this
    exact ⟨this _, this _⟩

theorem html_eof (hraw : Bool) : ∀ {page : List HTok}, TextScans E page → (htmlActual E hraw page none).2 = .eof := by
  intro page
  induction page generalizing hraw with
  | nil => intro _; rfl
  | cons h page ih =>
    intro hs
    have ih' := fun raw => ih raw (fun x hx => hs x (by simp [hx]))
    rw [htmlActual]
    split
    · rename_i ht
      split
      · exact ih' _
      · have := hs h (by simp) ht
        cases hsc : E.scan { data := h.string } with
        | mk segs e =>
          rw [hsc] at this
          simp only at this
          subst this
          exact ih' _
    · exact ih' _

/-- **C141 (program).** With filters other than `-distinct` and `-lemmas`, the program writes for a page in an element
the start tag, what it writes for the page, and the end tag. -/
theorem C141_program [HtmlReader] (hE : E.Lawful) (hF : E.FollowsUax29 cls) (hR : cls.Right) (hU : E.U.LowersLatin)
    (hL : E.U.isLetter 0x3C = false) (hN : E.U.isNumber 0x3C = false) {ω : Type}
    {w : Place → Writer ω} {W : World (ω × Bytes)} {input : Bytes} (hW : Piped w W input) (hWE : W.E = E)
    (hst : GoodStem (W.snowball.of .english)) {fl : List FilterFlag} (hd : .distinct ∉ fl) (hm : .lemmas ∉ fl)
    {a page c : Bytes} {l r : HTok} (ha : EndsWithTag a) (hra : ¬ EndsInRaw a) (hal : htmlTokens a = [l])
    (hl : l.type ≠ .text) (hraw : l.opensRaw = false) (hlp : PlainMarkup l.string)
    (hp : EndsWithTag page) (hrp : ¬ EndsInRaw page) (hfit : ∀ h ∈ htmlTokens page, h.type = .text → Fits cls h.string)
    (hcr : htmlTokens c = [r]) (hr : r.type ≠ .text) (hrpl : PlainMarkup r.string) :
    ∃ out, RewritesPage W fl page out ∧ RewritesPage W fl (a ++ (page ++ c)) (l.string ++ out ++ r.string) := by
  obtain ⟨rd, rs⟩ := C141_ready hE hF hR hU hL hN hlp hrpl
  have hall : ∀ f ∈ fl, (f.filter W.snowball .english).OK E ∧ (f.filter W.snowball .english).PassesMarkup E l.string r.string := by
    intro f hf
    cases f with
    | distinct => exact absurd hf hd
    | lemmas => exact absurd hf hm
    | ascii => exact rd .asciiFold (by simp [readyFilters])
    | contractions => exact rd (.contractions contractionMappings) (by simp [readyFilters])
    | stack => exact rd (.synonyms stackOverflowMappings true stackOverflowIgnore) (by simp [readyFilters])
    | stem =>
      have hok : (Builtin.stemmer (W.snowball.of .english)).OK E := fun s h => (hst s).1 h
      exact ⟨hok, rs _ hok⟩
  have hok : ∀ b ∈ fl.map (fun f => f.filter W.snowball .english), b.OK E := by
    intro b hb; obtain ⟨f, hf, rfl⟩ := List.mem_map.1 hb; exact (hall f hf).1
  have hscan : TextScans E (htmlTokens page) := fun h hh ht => by rw [hF _ (hfit h hh ht)]
  have y := html_yields hE (htmlTokens page) none (textNonempty_tokens page)
  rw [html_eof false hscan] at y
  obtain ⟨o, -, ho⟩ := C10_pipeline hE (fl.map fun f => f.filter W.snowball .english) hok _ .eof
  have h3 := ho _ y
  have h4 := C141_tokens hE hl hr hraw hok (fun b hb => by
    obtain ⟨f, hf, rfl⟩ := List.mem_map.1 hb; exact (hall f hf).2) (textNonempty_tokens page) y h3
  have e : htmlTokens (a ++ (page ++ c)) = l :: (htmlTokens page ++ [r]) := by
    rw [C114_reader a _ ha hra, C114_reader page c hp hrp, hal, hcr]
    rfl
  rw [← e] at h4
  rw [List.map_map] at h3 h4
  subst hWE
  refine ⟨_, rewritesPage_tokens hW h3, ?_⟩
  have := rewritesPage_tokens hW h4
  simpa [text, List.flatMap_append] using this

/-- Non-vacuity: `<div>` and `</div>` around `<p>a b</p>`, with all filters that come ready for use. -/
example : ∃ out, ((tokenizeHTML uaxEnv paragraph none).filter ((readyFilters uaxEnv).map (Builtin.apply uaxEnv))).Yields out .eof ∧
    ((tokenizeHTML uaxEnv (⟨.startTag, .other 2, str "div", []⟩ :: (paragraph ++ [⟨.endTag, .other 2, str "div", []⟩])) none).filter
      ((readyFilters uaxEnv).map (Builtin.apply uaxEnv))).Yields
      (⟨str "<div>", true, false, false⟩ :: (out ++ [⟨str "</div>", true, false, false⟩])) .eof := by
  have p1 : PlainMarkup (str "<div>") := ⟨⟨str "div>", by decide +kernel⟩, by decide +kernel⟩
  have p2 : PlainMarkup (str "</div>") := ⟨⟨str "/div>", by decide +kernel⟩, by decide +kernel⟩
  have rd := (C141_ready uaxEnv_lawful uaxEnv_follows uaxTable_right uaxEnv_lowers (by decide +kernel) (by decide +kernel) p1 p2).1
  have ht : TextNonempty paragraph := by unfold TextNonempty; decide +kernel
  have hs : TextScans uaxEnv paragraph := by
    intro h hh ht
    have : h.string = str "a b" := by
      revert h
      decide +kernel
    rw [this, uaxEnv_follows _ (.inl (by decide +kernel))]
  have y := html_yields uaxEnv_lawful paragraph none ht
  rw [html_eof false hs] at y
  obtain ⟨o, -, ho⟩ := C10_pipeline uaxEnv_lawful (readyFilters uaxEnv) (fun b hb => (rd b hb).1) _ .eof
  have e1 : (⟨.startTag, .other 2, str "div", []⟩ : HTok).string = str "<div>" := by decide +kernel
  have e2 : (⟨.endTag, .other 2, str "div", []⟩ : HTok).string = str "</div>" := by decide +kernel
  have := C141_tokens (l := ⟨.startTag, .other 2, str "div", []⟩) (r := ⟨.endTag, .other 2, str "div", []⟩)
    uaxEnv_lawful (by decide) (by decide) (by decide) (fun b hb => (rd b hb).1)
    (fun b hb => by rw [e1, e2]; exact (rd b hb).2) ht y (ho _ y)
  rw [e1, e2] at this
  exact ⟨o, ho _ y, this⟩

/-- Non-vacuity: what the program writes for `<p>a b</p>` and `<div><p>a b</p></div>` with `-html -stack`. -/
example : letI := sampleReader
    ∃ out, RewritesPage (pipeWorld uaxEnv []) [.stack] (str "<p>a b</p>") out ∧
      RewritesPage (pipeWorld uaxEnv []) [.stack] (str "<div>" ++ (str "<p>a b</p>" ++ str "</div>"))
        (str "<div>" ++ out ++ str "</div>") := by
  let _ := sampleReader
  have h1 : (htmlTokens (str "<div>")).length = 1 ∧ ∀ l ∈ htmlTokens (str "<div>"),
      l.type ≠ .text ∧ l.opensRaw = false ∧ l.opensRawText = false ∧ l.string = str "<div>" := by decide +kernel
  have h2 : (htmlTokens (str "</div>")).length = 1 ∧ ∀ l ∈ htmlTokens (str "</div>"),
      l.type ≠ .text ∧ l.string = str "</div>" := by decide +kernel
  have h3 : (∀ x ∈ (htmlTokens (str "<p>a b</p>")).getLast?, x.opensRawText = false) ∧
      ∀ h ∈ htmlTokens (str "<p>a b</p>"), h.type = .text → h.string = str "a b" := by decide +kernel
  obtain ⟨l, hl⟩ := List.length_eq_one_iff.1 h1.1
  obtain ⟨r, hr⟩ := List.length_eq_one_iff.1 h2.1
  obtain ⟨a1, a2, a3, a4⟩ := h1.2 l (by rw [hl]; simp)
  obtain ⟨b1, b2⟩ := h2.2 r (by rw [hr]; simp)
  have := C141_program (E := uaxEnv) uaxEnv_lawful uaxEnv_follows uaxTable_right uaxEnv_lowers (by decide +kernel)
    (by decide +kernel) (pipeWorld_piped uaxEnv []) rfl (fun _ => ⟨id, id⟩) (fl := [.stack]) (by simp) (by simp)
    (a := str "<div>") (page := str "<p>a b</p>") (c := str "</div>")
    ⟨str "<div", 0x3E, by decide +kernel, by decide +kernel⟩ (by
      rintro ⟨x, hx, hraw⟩
      rw [hl] at hx
      simp only [List.getLast?_singleton, Option.some.injEq] at hx
      rw [← hx, a3] at hraw
      cases hraw) hl a1 a2 (by rw [a4]; exact ⟨⟨str "div>", by decide +kernel⟩, by decide +kernel⟩)
    ⟨str "<p>a b</p", 0x3E, by decide +kernel, by decide +kernel⟩ (by
      rintro ⟨x, hx, hraw⟩
      rw [h3.1 x hx] at hraw
      cases hraw) (fun h hh hx => by
        rw [h3.2 h hh hx]
        exact .inl (by decide +kernel)) hr b1 (by rw [b2]; exact ⟨⟨str "/div>", by decide +kernel⟩, by decide +kernel⟩)
  rwa [a4, b2] at this

end Jargon
