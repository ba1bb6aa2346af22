import Verif.Props.FoldExpand
import Verif.Props.MapFirst
import Verif.Props.SigilLaws

/-! C125: whether a filter that changes single tokens comes before or after Handles and Hashtags. -/

namespace Jargon

/-! ### The specification -/

/-- The change makes and breaks no marked word in the text: words stay words, the mark stays the mark, what follows a
mark may be marked just if it might before, and a marked word is changed as the word by itself. -/
structure SameMarks (U : Unicode) (f : SigilFilter) (g : Token → Token) (toks : List Token) : Prop where
  kind : ∀ t ∈ toks, ((g t).IsWord ↔ t.IsWord)
  mark : ∀ t ∈ toks, ((g t).value = f.sigil ↔ t.value = f.sigil)
  legal : ∀ c l, [c, l] <:+: toks → c.value = f.sigil → f.legal (g l).value = f.legal l.value
  merged : ∀ c l, [c, l] <:+: toks → c.value = f.sigil → f.legal l.value = true →
    g (mkToken U (f.sigil ++ l.value) true) = mkToken U (f.sigil ++ (g l).value) true ∧
    ((mkToken U (f.sigil ++ (g l).value) true).IsWord ↔ (mkToken U (f.sigil ++ l.value) true).IsWord)

/-- **C125 (full).** Folding may come before or after Handles and Hashtags. -/
def C125_full (U : Unicode) : Prop :=
  ∀ F ∈ [handles U, hashtags U], ∀ (ts : TokenStream) (toks : List Token) (e : End), ts.Yields toks e →
    ∃ out, (asciiFold U (F ts)).Yields out e ∧ (F (asciiFold U ts)).Yields out e

/-! ### Lemmas -/

theorem SameMarks.tail {U : Unicode} {f : SigilFilter} {g : Token → Token} {t : Token} {ts : List Token}
    (h : SameMarks U f g (t :: ts)) : SameMarks U f g ts :=
  ⟨fun t ht => h.kind t (.tail _ ht), fun t ht => h.mark t (.tail _ ht), fun c l hi => h.legal c l (hi.trans (List.suffix_cons _ _).isInfix),
    fun c l hi => h.merged c l (hi.trans (List.suffix_cons _ _).isInfix)⟩

theorem pair_infix (c l : Token) (rest : List Token) : [c, l] <:+: c :: l :: rest := ⟨[], rest, rfl⟩

theorem boundary_congr {t t' : Token} (h : t'.IsWord ↔ t.IsWord) : boundary (some t') = boundary (some t) := by
  simp [boundary, h]

/-- What the filter does, with the change made first. -/
theorem sigilActual_map {U : Unicode} {f : SigilFilter} {g : Token → Token} (toks : List Token) (e : End) :
    ∀ p p' : Option Token, boundary p' = boundary p → SameMarks U f g toks →
      (sigilActual U f p' (toks.map g) e).1 = (sigilActual U f p toks e).1.map g := by
  intro p p' hp hs
  fun_induction sigilActual U f p toks e generalizing p' with
  | case1 p e => simp [sigilActual]
  | case2 p c h => simp_all [sigilActual, hs.mark c (by simp)]
  | case3 p c err h => simp_all [sigilActual, hs.mark c (by simp)]
  | case4 p c e h =>
    have hm := hs.mark c (by simp)
    simp only [List.map_cons, List.map_nil, sigilActual]
    rw [hp, if_neg (by simpa [hm] using h)]
  | case5 p c l rest e h hl ih =>
    have hm := hs.mark c (by simp)
    simp only [List.map_cons, sigilActual]
    have hc : c.value = f.sigil := by simp_all
    obtain ⟨hmg, hmk⟩ := hs.merged c l (pair_infix ..) hc hl
    rw [hp, if_pos (by simpa [hm] using h), hs.legal c l (pair_infix ..) hc, if_pos hl]
    have := ih (some (mkToken U (f.sigil ++ (g l).value) true)) (boundary_congr hmk) hs.tail.tail
    simp only [emit, List.map_cons, this, hmg]
  | case6 p c l rest e h hl ih =>
    have hm := hs.mark c (by simp)
    simp only [List.map_cons, sigilActual]
    have hc : c.value = f.sigil := by simp_all
    rw [hp, if_pos (by simpa [hm] using h), hs.legal c l (pair_infix ..) hc, if_neg hl]
    have := ih (some (g c)) (boundary_congr (hs.kind c (by simp))) hs.tail.tail
    simp only [emit, List.map_cons, this]
  | case7 p c l rest e h ih =>
    have hm := hs.mark c (by simp)
    have := ih (some (g c)) (boundary_congr (hs.kind c (by simp))) hs.tail
    simp only [List.map_cons, sigilActual] at this ⊢
    rw [hp, if_neg (by simpa [hm] using h)]
    simp only [emit, List.map_cons, this]

/-! ### C125 -/

/-- **C125 (partial).** A filter that changes each token by itself may come before or after a sigil filter if it makes
and breaks no marked word in the text. Missing: texts in which it does, where the order matters (`C125_violated`). -/
theorem C125_partial {U : Unicode} {f : SigilFilter} (hf : f.sigil ≠ []) {G : Filter} {g : Token → Token}
    (hG : EachToken G g) {toks : List Token} (hs : SameMarks U f g toks) {ts : TokenStream} {e : End}
    (h : ts.Yields toks e) : ∃ out, (G (sigil U f ts)).Yields out e ∧ (sigil U f (G ts)).Yields out e := by
  have h1 := hG _ _ _ (sigil_yields (U := U) hf h)
  have h2 := sigil_yields (U := U) hf (hG _ _ _ h)
  rw [sigilActual_end] at h1 h2
  rw [sigilActual_map toks e none none rfl hs] at h2
  exact ⟨_, h1, h2⟩

/-- A mark before a text is not in the way of folding it. -/
theorem fold_mark {b : UInt8} (hb : b.toNat < 0x80) (s : Bytes) :
    foldString ([b] ++ s) = ([b] ++ (foldString s).1, (foldString s).2) := by
  have h1 : flags b.toNat = false := flags_ascii hb
  have h2 : folded b.toNat = [b.toNat] := by
    have := equivalent_ascii hb
    rw [folded, this]
    rfl
  rw [foldString_eq, foldString_eq, runes_mark hb, List.any_cons, h1, Bool.false_or]
  split
  · rw [List.flatMap_cons, h2, encodeRunes_append]
    congr 1
    simp [encodeRunes, encodeRune_ascii hb]
  · rfl

theorem foldToken_marked (U : Unicode) {b : UInt8} (hb : b.toNat < 0x80) (t : Token) :
    foldToken U (mkToken U ([b] ++ t.value) true) = mkToken U ([b] ++ (foldToken U t).value) true := by
  rw [foldToken_value]
  unfold foldToken
  rw [show (mkToken U ([b] ++ t.value) true).value = [b] ++ t.value from rfl, fold_mark hb]
  split
  · rfl
  · rename_i h
    rw [((C17_result t.value).2.1 (by simpa using h))]

theorem foldToken_for {U : Unicode} {t : Token} (h : ∃ lem, TokenFor U t.value lem t) :
    ∃ lem, TokenFor U (foldToken U t).value lem (foldToken U t) := by
  unfold foldToken
  split
  · exact ⟨true, mkToken_for U _ true⟩
  · exact h

/-- Folding and the mark `b`: what has to be looked at. -/
theorem fold_marks {U : Unicode} {b : UInt8} {legal : Bytes → Bool} (hb : b.toNat < 0x80)
    (hp : U.isPunct b.toNat = true) (hs : b.toNat ∉ whiteSpace)
    (hl : ∀ s, legal s = true → ∀ r ∈ runes s, r ∉ whiteSpace) {toks : List Token}
    (ht : ∀ t ∈ toks, t.value ≠ [] ∧ ∃ lem, TokenFor U t.value lem t)
    (h1 : ∀ t ∈ toks, ((foldToken U t).IsWord ↔ t.IsWord))
    (h2 : ∀ t ∈ toks, (foldString t.value).1 = [b] → t.value = [b])
    (h3 : ∀ c l, [c, l] <:+: toks → c.value = [b] → legal (foldString l.value).1 = legal l.value) :
    SameMarks U { sigil := [b], legal } (foldToken U) toks where
  kind := h1
  mark t hm := by
    rw [foldToken_value]
    refine ⟨h2 t hm, fun h => ?_⟩
    show (foldString t.value).1 = [b]
    rw [show t.value = [b] from h, C17_ascii_unchanged _ (by simpa using hb)]
  legal c l hi hc := by
    rw [foldToken_value]
    exact h3 c l hi hc
  merged c l hi hc hg := by
    have hm : l ∈ toks := hi.subset (by simp)
    refine ⟨foldToken_marked U hb l, ?_⟩
    obtain ⟨hne, lem, hf⟩ := ht l hm
    obtain ⟨lem', hf'⟩ := foldToken_for (ht l hm).2
    have a := word_mark hb hp hs hf hne (hl _ hg)
    have hg' : legal (foldToken U l).value = true := by
      rw [foldToken_value, h3 c l hi hc]
      exact hg
    have b := word_mark hb hp hs hf' (by rw [foldToken_value]; exact C17_nonempty _ hne) (hl _ hg')
    exact (b.trans (h1 l hm)).trans a.symm

theorem handle_spaceless (s : Bytes) (h : legalHandle s = true) : ∀ r ∈ runes s, r ∉ whiteSpace := by
  intro r hr hw
  have h1 := ((C29_legalHandle _).mp h).2 r hr
  have : ∀ r ∈ handleChars, r ∉ whiteSpace := by decide +kernel
  exact this r h1 hw

theorem hashtag_spaceless {U : Unicode} (hU : TwitterLaws U) (s : Bytes) (h : legalHashtag U s = true) :
    ∀ r ∈ runes s, r ∉ whiteSpace := by
  intro r hr hw
  have := ((C29_legalHashtag U _).mp h).1 r hr
  rw [(hU.space r hw).1, (hU.space r hw).2] at this
  have h5 : '_'.toNat ∉ whiteSpace := by decide +kernel
  simp only [Bool.false_eq_true, false_or] at this
  exact h5 (this ▸ hw)

/-- A legal handle is not changed by folding. -/
theorem handle_unfolded {s : Bytes} (h : legalHandle s = true) : foldString s = (s, false) := by
  have h1 := ((C29_legalHandle _).mp h).2
  have : ∀ r ∈ handleChars, r < 0x80 ∧ flags r = false := by decide +kernel
  rw [foldString_eq, if_neg]
  simp only [List.any_eq_true, not_exists, not_and, Bool.not_eq_true]
  exact fun r hr => (this r (h1 r hr)).2

/-- **C125 for handles (partial).** Folding may come before or after Handles if, by folding, no token becomes "@", no
word becomes something else or the other way round, and nothing after an "@" becomes a legal name. -/
theorem C125_handles_partial {U : Unicode} (hU : TwitterLaws U) {toks : List Token}
    (ht : ∀ t ∈ toks, t.value ≠ [] ∧ ∃ lem, TokenFor U t.value lem t)
    (h1 : ∀ t ∈ toks, ((foldToken U t).IsWord ↔ t.IsWord))
    (h2 : ∀ t ∈ toks, (foldString t.value).1 = str "@" → t.value = str "@")
    (h3 : ∀ c l, [c, l] <:+: toks → c.value = str "@" →
      legalHandle (foldString l.value).1 = true → legalHandle l.value = true)
    {ts : TokenStream} {e : End} (h : ts.Yields toks e) :
    ∃ out, (asciiFold U (handles U ts)).Yields out e ∧ (handles U (asciiFold U ts)).Yields out e := by
  rw [show str "@" = [0x40] by decide +kernel] at h2 h3
  refine C125_partial (by simp) (C123_filters U).1
    (fold_marks (by decide) hU.at_ (by decide +kernel) handle_spaceless ht h1 h2 fun c l hi hc => ?_) h
  rw [Bool.eq_iff_iff]
  exact ⟨h3 c l hi hc, fun hl => by rw [handle_unfolded hl]; exact hl⟩

/-- **C125 for hashtags (partial).** Folding may come before or after Hashtags if, by folding, no token becomes "#", no
word becomes something else or the other way round, and what follows a "#" becomes or ceases to be legal nowhere. -/
theorem C125_hashtags_partial {U : Unicode} (hU : TwitterLaws U) {toks : List Token}
    (ht : ∀ t ∈ toks, t.value ≠ [] ∧ ∃ lem, TokenFor U t.value lem t)
    (h1 : ∀ t ∈ toks, ((foldToken U t).IsWord ↔ t.IsWord))
    (h2 : ∀ t ∈ toks, (foldString t.value).1 = str "#" → t.value = str "#")
    (h3 : ∀ c l, [c, l] <:+: toks → c.value = str "#" →
      legalHashtag U (foldString l.value).1 = legalHashtag U l.value)
    {ts : TokenStream} {e : End} (h : ts.Yields toks e) :
    ∃ out, (asciiFold U (hashtags U ts)).Yields out e ∧ (hashtags U (asciiFold U ts)).Yields out e := by
  rw [show str "#" = [0x23] by decide +kernel] at h2 h3
  exact C125_partial (by simp) (C123_filters U).1
    (fold_marks (by decide) hU.hash (by decide +kernel) (hashtag_spaceless hU) ht h1 h2 h3) h

theorem sigilActual_fold_text (U : Unicode) {b : UInt8} (hb : b.toNat < 0x80) (legal : Bytes → Bool) (p : Option Token)
    (toks : List Token) :
    text ((sigilActual U { sigil := [b], legal } p toks .eof).1.map (foldToken U)) = text (toks.map (foldToken U)) := by
  generalize he : End.eof = e
  generalize hf : (SigilFilter.mk [b] legal) = f
  fun_induction sigilActual U f p toks e with
  | case5 p c l rest e h hl ih =>
    subst hf
    simp only [Bool.and_eq_true, decide_eq_true_eq] at h
    have hc : (foldToken U c).value = [b] := by
      rw [foldToken_value, h.2, C17_ascii_unchanged _ (by simpa using hb)]
    have := ih he
    simp only [emit, List.map_cons, foldToken_marked U hb, text_cons, this, hc]
    simp [mkToken]
  | _ => simp_all

/-- **C125 for the text.** In either order, the text that comes out is the same. -/
theorem C125_text (U : Unicode) {ts : TokenStream} {toks : List Token} (h : ts.Yields toks .eof) :
    ∀ F ∈ [handles U, hashtags U], ∃ a b, (asciiFold U (F ts)).Yields a .eof ∧ (F (asciiFold U ts)).Yields b .eof ∧
      a.flatMap Token.value = b.flatMap Token.value := by
  have key : ∀ (c : UInt8) (_ : c.toNat < 0x80) (legal : Bytes → Bool),
      ∃ a b, (asciiFold U (sigil U ⟨[c], legal⟩ ts)).Yields a .eof ∧
        (sigil U ⟨[c], legal⟩ (asciiFold U ts)).Yields b .eof ∧ a.flatMap Token.value = b.flatMap Token.value := by
    intro c hc legal
    have h1 := asciiFold_yields U (sigil_yields (U := U) (f := ⟨[c], legal⟩) (by simp) h)
    have h2 := sigil_yields (U := U) (f := ⟨[c], legal⟩) (by simp) (asciiFold_yields U h)
    rw [sigilActual_end] at h1 h2
    refine ⟨_, _, h1, h2, ?_⟩
    have a := sigilActual_fold_text U hc legal none toks
    have b := sigilActual_text_eof U ⟨[c], legal⟩ none (toks.map (foldToken U))
    exact a.trans b.symm
  intro F hF
  simp only [List.mem_cons, List.not_mem_nil, or_false] at hF
  rcases hF with rfl | rfl
  · exact key 0x40 (by decide) _
  · exact key 0x23 (by decide) _

private def w (s : String) : Token := mkToken asciiUnicode (str s) false
private def m (s : String) : Token := mkToken asciiUnicode (str s) true

/-- **C125 (violated).** "@joão" is the handle "@joao" if it is folded before Handles, "@" and "joao" if after. -/
theorem C125_violated : ¬ C125_full asciiUnicode ∧
    (asciiFold asciiUnicode (handles asciiUnicode (listStream [w "@", w "joão"] .eof))).Yields
      [w "@", m "joao"] .eof ∧
    (handles asciiUnicode (asciiFold asciiUnicode (listStream [w "@", w "joão"] .eof))).Yields [m "@joao"] .eof := by
  have h0 := listStream_yields [w "@", w "joão"] .eof
  have h1 := asciiFold_yields asciiUnicode
    (sigil_yields (U := asciiUnicode) (f := { sigil := [0x40], legal := legalHandle }) (by simp) h0)
  have h2 := sigil_yields (U := asciiUnicode) (f := { sigil := [0x40], legal := legalHandle }) (by simp)
    (asciiFold_yields asciiUnicode h0)
  rw [show sigilActual asciiUnicode { sigil := [0x40], legal := legalHandle } none [w "@", w "joão"] .eof =
    ([w "@", w "joão"], .eof) by decide +kernel] at h1
  rw [show [w "@", w "joão"].map (foldToken asciiUnicode) = [w "@", m "joao"] by decide +kernel] at h1 h2
  rw [show sigilActual asciiUnicode { sigil := [0x40], legal := legalHandle } none [w "@", m "joao"] .eof =
    ([m "@joao"], .eof) by decide +kernel] at h2
  refine ⟨fun h => ?_, h1, h2⟩
  obtain ⟨out, a, b⟩ := h (handles asciiUnicode) (by simp) _ _ _ h0
  have := (a.unique h1).1.symm.trans (b.unique h2).1
  revert this
  decide +kernel

/-- **C125 (violated, hashtags).** "#ⓖⓞ" is the hashtag "#go" if it is folded before Hashtags, "#" and "go" if after. -/
theorem C125_violated_hashtags :
    (asciiFold asciiUnicode (hashtags asciiUnicode (listStream [w "#", w "ⓖⓞ"] .eof))).Yields [w "#", m "go"] .eof ∧
    (hashtags asciiUnicode (asciiFold asciiUnicode (listStream [w "#", w "ⓖⓞ"] .eof))).Yields [m "#go"] .eof := by
  have h0 := listStream_yields [w "#", w "ⓖⓞ"] .eof
  have h1 := asciiFold_yields asciiUnicode
    (sigil_yields (U := asciiUnicode) (f := { sigil := [0x23], legal := legalHashtag asciiUnicode }) (by simp) h0)
  have h2 := sigil_yields (U := asciiUnicode) (f := { sigil := [0x23], legal := legalHashtag asciiUnicode }) (by simp)
    (asciiFold_yields asciiUnicode h0)
  rw [show sigilActual asciiUnicode { sigil := [0x23], legal := legalHashtag asciiUnicode } none [w "#", w "ⓖⓞ"] .eof =
    ([w "#", w "ⓖⓞ"], .eof) by decide +kernel] at h1
  rw [show [w "#", w "ⓖⓞ"].map (foldToken asciiUnicode) = [w "#", m "go"] by decide +kernel] at h1 h2
  rw [show sigilActual asciiUnicode { sigil := [0x23], legal := legalHashtag asciiUnicode } none [w "#", m "go"] .eof =
    ([m "#go"], .eof) by decide +kernel] at h2
  exact ⟨h1, h2⟩

theorem infix_zip {c l : Token} {toks : List Token} (h : [c, l] <:+: toks) : (c, l) ∈ toks.zip toks.tail := by
  induction toks with
  | nil => simp at h
  | cons t ts ih =>
    rcases List.infix_cons_iff.1 h with hp | hi
    · obtain ⟨r, hr⟩ := hp
      simp only [List.cons_append, List.nil_append, List.cons.injEq] at hr
      obtain ⟨rfl, rfl⟩ := hr
      simp
    · have := ih hi
      cases ts with
      | nil => simp at this
      | cons u us => exact .tail _ this

-- what the partial versions ask for can be had: "@bob café #go"
example : ∃ out,
    (asciiFold asciiUnicode (handles asciiUnicode
      (listStream [w "@", w "bob", w " ", w "café"] .eof))).Yields out .eof ∧
    (handles asciiUnicode (asciiFold asciiUnicode
      (listStream [w "@", w "bob", w " ", w "café"] .eof))).Yields out .eof := by
  refine C125_handles_partial asciiUnicode_twitter ?_ (by decide +kernel) (by decide +kernel) (fun c l hi => ?_)
    (listStream_yields _ _)
  · intro t ht
    have hv : ∀ t ∈ [w "@", w "bob", w " ", w "café"], t.value ≠ [] ∧ t = mkToken asciiUnicode t.value false := by
      decide +kernel
    refine ⟨(hv t ht).1, false, ?_⟩
    have := mkToken_for asciiUnicode t.value false
    rwa [← (hv t ht).2] at this
  · have key : ∀ p ∈ [w "@", w "bob", w " ", w "café"].zip [w "bob", w " ", w "café"], p.1.value = str "@" →
        legalHandle (foldString p.2.value).1 = true → legalHandle p.2.value = true := by decide +kernel
    exact key _ (infix_zip hi)

example : ∃ out,
    (asciiFold asciiUnicode (hashtags asciiUnicode
      (listStream [w "#", w "go", w " ", w "café"] .eof))).Yields out .eof ∧
    (hashtags asciiUnicode (asciiFold asciiUnicode
      (listStream [w "#", w "go", w " ", w "café"] .eof))).Yields out .eof := by
  refine C125_hashtags_partial asciiUnicode_twitter ?_ (by decide +kernel) (by decide +kernel) (fun c l hi => ?_)
    (listStream_yields _ _)
  · intro t ht
    have hv : ∀ t ∈ [w "#", w "go", w " ", w "café"], t.value ≠ [] ∧ t = mkToken asciiUnicode t.value false := by
      decide +kernel
    refine ⟨(hv t ht).1, false, ?_⟩
    have := mkToken_for asciiUnicode t.value false
    rwa [← (hv t ht).2] at this
  · have key : ∀ p ∈ [w "#", w "go", w " ", w "café"].zip [w "go", w " ", w "café"], p.1.value = str "#" →
        legalHashtag asciiUnicode (foldString p.2.value).1 = legalHashtag asciiUnicode p.2.value := by decide +kernel
    exact key _ (infix_zip hi)

end Jargon
