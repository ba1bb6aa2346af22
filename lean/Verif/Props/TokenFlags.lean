import Verif.Props.Pipeline
import Verif.Props.Html
import Verif.Proofs.Token

/-! C107: the flags of a token say what its text is, wherever it comes from. -/

namespace Jargon

/-- The flags of a token say what its text is: IsSpace that it consists of white space, IsPunct that it consists of
punctuation, line ends and tabs. -/
def TrueFlags (U : Unicode) (t : Token) : Prop := TokenFor U t.value t.lemma t

/-- **C107, as one would like it.** Whatever is given to a pipeline of filters of the library, by Tokenize or by
TokenizeHTML, no token comes out with flags that do not say what its text is. -/
def C107_full (E : Env) : Prop :=
  (∀ (r : Reader) (bs : List Builtin), (∀ b ∈ bs, b.OK E) → ∃ out,
    ((tokenize E r).filter (bs.map (Builtin.apply E))).Yields out (endOf (E.scan r).2) ∧ ∀ t ∈ out, TrueFlags E.U t) ∧
  ∀ (events : List HTok) (out : List Token) (e : End), (tokenizeHTML E events none).Yields out e →
    ∀ t ∈ out, TrueFlags E.U t

theorem mkToken_flags (U : Unicode) (s : Bytes) (l : Bool) : TrueFlags U (mkToken U s l) := mkToken_for U s l

/-- There is one token with such flags for a text. -/
theorem TrueFlags.eq {U : Unicode} {t : Token} (h : TrueFlags U t) : t = mkToken U t.value t.lemma := TokenFor.eq h

theorem segTokens_each {U : Unicode} {P : Token → Prop} (hP : ∀ s l, P (mkToken U s l)) (segs : List Bytes) :
    ∀ t ∈ segTokens U segs, P t := by
  intro t ht
  obtain ⟨seg, -, rfl⟩ := List.mem_map.1 ht
  exact hP seg false

theorem sigil_each {U : Unicode} {P : Token → Prop} (hP : ∀ s l, P (mkToken U s l)) (f : SigilFilter) (p : Option Token)
    (toks : List Token) (e : End) (h : ∀ t ∈ toks, P t) : ∀ t ∈ (sigilActual U f p toks e).1, P t := by
  fun_induction sigilActual U f p toks e with
  | case1 => exact h
  | case2 => exact h
  | case3 => simp
  | case4 => exact h
  | case5 p c l rest e _ _ ih =>
    simp only [List.mem_cons, forall_eq_or_imp] at h
    simp only [emit, List.mem_cons, forall_eq_or_imp]
    exact ⟨hP _ _, ih h.2.2⟩
  | case6 p c l rest e _ _ ih =>
    simp only [List.mem_cons, forall_eq_or_imp] at h
    simp only [emit, List.mem_cons, forall_eq_or_imp]
    exact ⟨h.1, h.2.1, ih h.2.2⟩
  | case7 p c l rest e _ ih =>
    simp only [emit, List.mem_cons, forall_eq_or_imp] at h ⊢
    exact ⟨h.1, ih (by simpa using h.2)⟩

theorem greedy_each {C : Compare} {P : Token → Prop} (hP : ∀ s l, P (mkToken C.U s l)) {D : Dict} {m : Nat}
    {toks out : List Token} (hg : Greedy C D m toks out) (h : ∀ t ∈ toks, P t) : ∀ t ∈ out, P t := by
  induction hg with
  | nil => simp
  | separator _ _ ih | word _ _ _ ih =>
    simp only [List.mem_cons, forall_eq_or_imp] at h ⊢
    exact ⟨h.1, ih h.2⟩
  | replace _ _ _ ih =>
    intro x hx
    rcases List.mem_append.1 hx with hx | hx
    · unfold canonTokens at hx
      split at hx
      · simp at hx
      · rw [List.mem_singleton.1 hx]
        exact hP _ _
    · exact ih (fun t ht => h t (List.mem_of_mem_drop ht)) x hx

/-- What is so of every token that NewToken makes, and of every token a filter is given, is so of every token that it
delivers. -/
theorem Builtin.each {E : Env} {P : Token → Prop} (hP : ∀ s l, P (mkToken E.U s l)) (hE : E.Lawful) (b : Builtin)
    (hb : b.OK E) (toks : List Token) (e : End) (hin : ∀ t ∈ toks, P t) :
    ∃ out, Makes (b.apply E) toks e out e ∧ ∀ t ∈ out, P t := by
  have sub : ∀ {out : List Token}, out.Sublist toks → ∀ t ∈ out, P t := fun h t ht => hin t (h.subset ht)
  have each : ∀ {g : Token → Token}, (∀ t, P t → P (g t)) → ∀ t ∈ toks.map g, P t := by
    intro g h t ht
    obtain ⟨u, hu, rfl⟩ := List.mem_map.1 ht
    exact h u (hin u hu)
  cases b with
  | stemmer stem =>
    refine ⟨toks.map (stemToken E.U stem), fun ts h => stemmer_yields (fun t _ => hb _) h, each fun t ht => ?_⟩
    unfold stemToken
    split
    · exact hP _ _
    · exact ht
  | norm N =>
    refine ⟨toks.map (normToken E.U N), fun ts h => norm_yields hb h, each fun t ht => ?_⟩
    unfold normToken
    split
    · exact ht
    · exact hP _ _
  | asciiFold =>
    refine ⟨toks.map (foldToken E.U), fun ts h => asciiFold_yields E.U h, each fun t ht => ?_⟩
    unfold foldToken
    split
    · exact hP _ _
    · exact ht
  | stopwords ws ic => exact ⟨_, fun ts h => stop_yields h, sub List.filter_sublist⟩
  | contractions m =>
    refine ⟨_, fun ts h => expandWith_yields hE hb h, fun t ht => ?_⟩
    obtain ⟨u, hu, ht⟩ := List.mem_flatMap.1 ht
    unfold expandToken at ht
    split at ht
    · exact segTokens_each hP _ t ht
    · rw [List.mem_singleton.1 ht]
      exact hin u hu
  | sigil f =>
    refine ⟨(sigilActual E.U f none toks e).1, fun ts h => ?_, sigil_each hP f none toks e hin⟩
    have := sigil_yields (U := E.U) hb h
    rwa [sigilActual_end] at this
  | synonyms m ic ign =>
    obtain ⟨out, hg⟩ := Greedy.total ⟨E.U, ic, ign⟩ ((Compare.mk E.U ic ign).dict (entries E m))
      (wordLimit (entries E m)) toks
    refine ⟨if e = .eof then out else [], fun ts h => synonyms_yields hE hb h hg, ?_⟩
    split
    · exact greedy_each hP hg hin
    · simp
  | where_ p => exact ⟨_, fun ts h => where_yields p h, sub List.filter_sublist⟩
  | words => exact ⟨_, fun ts h => where_yields _ h, sub List.filter_sublist⟩
  | lemmas => exact ⟨_, fun ts h => where_yields _ h, sub List.filter_sublist⟩
  | distinct => exact ⟨_, fun ts h => distinct_yields h, sub (firsts_sublist toks)⟩

theorem pipeline_each {E : Env} {P : Token → Prop} (hP : ∀ s l, P (mkToken E.U s l)) (hE : E.Lawful) (bs : List Builtin)
    (hb : ∀ b ∈ bs, b.OK E) {ts : TokenStream} {toks : List Token} {e : End} (h : ts.Yields toks e)
    (hin : ∀ t ∈ toks, P t) : ∃ out, (ts.filter (bs.map (Builtin.apply E))).Yields out e ∧ ∀ t ∈ out, P t := by
  induction bs generalizing ts toks with
  | nil => exact ⟨toks, h, hin⟩
  | cons b bs ih =>
    obtain ⟨mid, h1, h2⟩ := b.each hP hE (hb b (by simp)) toks e hin
    exact ih (fun b h => hb b (by simp [h])) (h1 ts h) h2

/-- **C107 (filters).** Whatever stream the filters of the library are given and however they follow one another: a
token that comes out has flags that say what its text is, unless it went in as it is. -/
theorem C107_filters {E : Env} (hE : E.Lawful) (bs : List Builtin) (hb : ∀ b ∈ bs, b.OK E) {ts : TokenStream}
    {toks : List Token} {e : End} (h : ts.Yields toks e) :
    ∃ out, (ts.filter (bs.map (Builtin.apply E))).Yields out e ∧ ∀ t ∈ out, TrueFlags E.U t ∨ t ∈ toks :=
  pipeline_each (fun s l => .inl (mkToken_flags E.U s l)) hE bs hb h fun _ ht => .inr ht

/-- **C107, partial (Tokenize).** From Tokenize on: however the filters follow one another, the flags of every token
that comes out say what its text is, and its text and IsLemma determine the token. -/
theorem C107_text_partial {E : Env} (hE : E.Lawful) (bs : List Builtin) (hb : ∀ b ∈ bs, b.OK E) (r : Reader) :
    ∃ out, ((tokenize E r).filter (bs.map (Builtin.apply E))).Yields out (endOf (E.scan r).2) ∧
      (∀ t ∈ out, TrueFlags E.U t) ∧
      ∀ t ∈ out, ∀ u ∈ out, t.value = u.value → t.lemma = u.lemma → t = u := by
  obtain ⟨out, h1, h2⟩ := pipeline_each (mkToken_flags E.U) hE bs hb (tokenize_yields E hE r)
    (segTokens_each (mkToken_flags E.U) _)
  refine ⟨out, h1, h2, fun t ht u hu hv hl => ?_⟩
  rw [(h2 t ht).eq, (h2 u hu).eq, hv, hl]

/-! ### HTML -/

/-- The token for markup: always punctuation. -/
def IsMarkup (events : List HTok) (t : Token) : Prop :=
  ∃ h ∈ events, h.type ≠ .text ∧ t = ⟨h.string, true, false, false⟩

/-- The token for a text once a script or style element has begun: never punctuation, never white space. -/
def IsRawText (events : List HTok) (t : Token) : Prop :=
  ∃ a h b, events = a ++ h :: b ∧ h.type = .text ∧ (∃ s ∈ a, s.opensRaw = true) ∧ t = ⟨h.string, false, false, false⟩

theorem html_each {E : Env} : ∀ (events pre : List HTok) (raw : Bool) (final : Option Err),
    (raw = true → ∃ s ∈ pre, s.opensRaw = true) →
    ∀ t ∈ (htmlActual E raw events final).1, TrueFlags E.U t ∨ IsMarkup (pre ++ events) t ∨ IsRawText (pre ++ events) t
  | [], _, _, _, _, t, ht => by simp [htmlActual] at ht
  | h :: hs, pre, raw, final, hraw, t, ht => by
    have ih := fun raw hr => html_each (E := E) hs (pre ++ [h]) raw final hr
    simp only [List.append_assoc, List.singleton_append] at ih
    have hpre : ∀ {raw : Bool}, (raw = true → ∃ s ∈ pre, s.opensRaw = true) →
        raw = true → ∃ s ∈ pre ++ [h], s.opensRaw = true :=
      fun hr he => (hr he).imp fun s hs => ⟨by simp [hs.1], hs.2⟩
    rw [htmlActual] at ht
    split at ht
    · rename_i hty
      split at ht
      · rename_i hr
        rw [emit] at ht
        rcases List.mem_cons.1 ht with rfl | ht
        · exact .inr (.inr ⟨pre, h, hs, rfl, hty, hraw hr, rfl⟩)
        · exact ih raw (hpre hraw) t ht
      · split at ht
        · rcases List.mem_append.1 ht with ht | ht
          · exact .inl (segTokens_each (mkToken_flags E.U) _ t ht)
          · exact ih raw (hpre hraw) t ht
        · exact .inl (segTokens_each (mkToken_flags E.U) _ t ht)
    · rename_i hty
      rw [emit] at ht
      rcases List.mem_cons.1 ht with rfl | ht
      · exact .inr (.inl ⟨h, by simp, hty, rfl⟩)
      · refine ih _ (fun he => ?_) t ht
        rcases Bool.or_eq_true_iff.1 he with he | he
        · exact hpre hraw he
        · exact ⟨h, by simp, he⟩

/-- **C107, partial (TokenizeHTML).** After TokenizeHTML, and any filters, a token has flags that say what its text is,
unless it is a tag (or comment, or doctype), which is punctuation, or a text in or after a script or style element, which
is neither punctuation nor white space. Missing: those two, for which it is false. -/
theorem C107_html_partial {E : Env} (hE : E.Lawful) (bs : List Builtin) (hb : ∀ b ∈ bs, b.OK E) (events : List HTok)
    (final : Option Err) (htext : TextNonempty events) :
    ∃ out e, ((tokenizeHTML E events final).filter (bs.map (Builtin.apply E))).Yields out e ∧
      ∀ t ∈ out, TrueFlags E.U t ∨ IsMarkup events t ∨ IsRawText events t := by
  obtain ⟨out, h1, h2⟩ := pipeline_each (P := fun t => TrueFlags E.U t ∨ IsMarkup events t ∨ IsRawText events t)
    (fun s l => .inl (mkToken_flags E.U s l)) hE bs hb (html_yields hE events final htext)
    (html_each events [] false final (by simp))
  exact ⟨out, _, h1, h2⟩

/-- **C107 is violated by TokenizeHTML.** The tags `<b>` and `<script>` are called punctuation, though b and s are
letters; and a blank in a script is called neither punctuation nor white space. -/
theorem C107_violated_html (E : Env) (hE : E.Lawful) (hb : E.U.isPunct 0x62 = false) (hs : E.U.isPunct 0x73 = false) :
    ¬ C107_full E ∧
    ∃ out, (tokenizeHTML E [⟨.startTag, .zero, str "b", []⟩, ⟨.startTag, .script, str "script", []⟩, ⟨.text, .zero, [0x20], []⟩]
      none).Yields out .eof ∧ out.map Token.value = [str "<b>", str "<script>", [0x20]] ∧ ∀ t ∈ out, ¬ TrueFlags E.U t := by
  have hy := html_yields hE [⟨.startTag, .zero, str "b", []⟩, ⟨.startTag, .script, str "script", []⟩, ⟨.text, .zero, [0x20], []⟩]
    none (by simp [TextNonempty])
  have e : htmlActual E false [⟨.startTag, .zero, str "b", []⟩, ⟨.startTag, .script, str "script", []⟩,
      ⟨.text, .zero, [0x20], []⟩] none = ([⟨str "<b>", true, false, false⟩, ⟨str "<script>", true, false, false⟩,
        ⟨[0x20], false, false, false⟩], .eof) := by
    have s1 : HTok.string ⟨.startTag, .zero, str "b", []⟩ = str "<b>" := by decide +kernel
    have s2 : HTok.string ⟨.startTag, .script, str "script", []⟩ = str "<script>" := by decide +kernel
    have s3 : HTok.string ⟨.text, .zero, [0x20], []⟩ = [0x20] := by decide +kernel
    simp [htmlActual, HTok.opensRaw, endOf, s1, s2, s3]
  rw [e] at hy
  have hlie : ∀ t ∈ ([⟨str "<b>", true, false, false⟩, ⟨str "<script>", true, false, false⟩,
        ⟨[0x20], false, false, false⟩] : List Token), ¬ TrueFlags E.U t := by
    intro t ht hf
    simp only [List.mem_cons, List.not_mem_nil, or_false] at ht
    rcases ht with rfl | rfl | rfl
    · have := hf.punct.1 rfl 0x62 (by decide +kernel)
      simp [hb] at this
    · have := hf.punct.1 rfl 0x73 (by decide +kernel)
      simp [hs] at this
    · exact absurd (hf.space.2 (by decide +kernel)) (by simp)
  exact ⟨fun h => hlie _ (List.mem_cons_self ..) (h.2 _ _ _ hy _ (List.mem_cons_self ..)), _, hy, by decide +kernel, hlie⟩

/-- Non-vacuity: the violation, with the tables of ASCII. -/
example := C107_violated_html sampleEnv sampleEnv_lawful (by decide +kernel) (by decide +kernel)

/-- Non-vacuity: a pipeline, on a text of which a token is white space, one punctuation and one neither. -/
example : (∃ out, ((tokenize sampleEnv { data := str "é, b" }).filter
      ([.asciiFold, .words].map (Builtin.apply sampleEnv))).Yields out .eof ∧ ∀ t ∈ out, TrueFlags sampleEnv.U t) ∧
    mkToken sampleEnv.U (str ",") false = ⟨str ",", true, false, false⟩ ∧
    mkToken sampleEnv.U (str " ") false = ⟨str " ", false, true, false⟩ ∧
    mkToken sampleEnv.U (str "e") true = ⟨str "e", false, false, true⟩ := by
  refine ⟨?_, by decide +kernel, by decide +kernel, by decide +kernel⟩
  obtain ⟨out, h1, h2, -⟩ := C107_text_partial sampleEnv_lawful [.asciiFold, .words]
    (by simp [Builtin.OK]) { data := str "é, b" }
  exact ⟨out, h1, h2⟩

end Jargon
