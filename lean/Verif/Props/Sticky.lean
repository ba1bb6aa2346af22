import Verif.Props.Pipeline
import Verif.Proofs.Sticky

/-! C93: an error is final. -/

namespace Jargon

/-- The full statement of C93. -/
def C93_full : Prop := ∀ (E : Env), E.Lawful → ∀ b : Builtin, b.OK E → KeepsFailing (b.apply E)

/-- **C93 (tokenizer).** If the scanner ends with an error, every `Next` after the last token reports it. (This
is about readers whose errors the scanner keeps; see C92 for the one it does not.) -/
theorem C93_tokenize {E : Env} (hE : E.Lawful) {r : Reader} {e : Err} (h : (E.scan r).2 = some e) :
    ∃ out : List Token, out.map Token.value = (E.scan r).1 ∧ ∀ n, ∃ s,
      Answers (tokenize E r).nextFn (tokenize E r).st
        (out.map (fun t => ⟨some t, none⟩) ++ List.replicate n ⟨none, some e⟩) s := by
  obtain ⟨s, h1, h2⟩ := tokenize_failsForGood hE h
  refine ⟨segTokens E.U (E.scan r).1, ?_, fun n => ?_⟩
  · rw [segTokens, List.map_map]
    exact List.map_id _
  · obtain ⟨s', h3, -⟩ := h2.answers n
    exact ⟨s', h1.answers.append h3⟩

/-- **C93 (HTML).** If the HTML tokenizer ends with an error, be it of its reader or of the scanner of a text,
every further `Next` reports it. -/
theorem C93_html (E : Env) (events : List HTok) (final : Option Err) {toks : List Token} {e : Err}
    (h : (tokenizeHTML E events final).Yields toks (.fail e)) :
    (tokenizeHTML E events final).FailsForGood toks e := by
  refine BreaksAfter.of_emits ?_ h
  rintro s r s' e h1 he
  simp only [TokenStream.nextFn, tokenizeHTML, newTokenStream, TS.next, Go.bind_eq_ret] at h1 ⊢
  obtain ⟨⟨a, b⟩, h2, h3⟩ := h1
  simp at h3
  obtain ⟨rfl, rfl⟩ := h3
  obtain ⟨h4, h5⟩ := htmlNext_stays E h2 he
  refine ⟨h4, ?_⟩
  exact ⟨_, h5, by simp only at he; simp [h4, he]⟩

/-- All filters but the synonyms filters. -/
def Builtin.NotSynonyms : Builtin → Prop
  | .synonyms _ _ _ => False
  | _ => True

theorem Builtin.keepsFailing {E : Env} (hE : E.Lawful) (b : Builtin) (hb : b.OK E) (hp : b.NotSynonyms) :
    KeepsFailing (b.apply E) := by
  intro ts toks e h
  cases b with
  | stemmer stem =>
    exact ⟨_, mapper_failsForGood (fun t _ => by rw [applyFuncs_one, stemFunc_eq E.U stem t (hb _)]) h⟩
  | norm N => exact ⟨_, mapper_failsForGood (fun t _ => by rw [applyFuncs_one, normFunc_eq E.U hb t]) h⟩
  | asciiFold => exact ⟨_, mapper_failsForGood (fun t _ => by rw [applyFuncs_one, asciiFolder_eq E.U]) h⟩
  | stopwords ws ic => exact ⟨_, failsForGood_new (stop_breaks h)⟩
  | contractions m => exact ⟨_, failsForGood_new (con_breaks hE hb h)⟩
  | sigil f => exact ⟨_, failsForGood_new (sigil_breaks hb none toks h)⟩
  | synonyms m ic ign => exact hp.elim
  | where_ p => exact ⟨_, whereStream_failsForGood _ _ h⟩
  | words => exact ⟨_, whereStream_failsForGood _ _ h⟩
  | lemmas => exact ⟨_, whereStream_failsForGood _ _ h⟩
  | distinct => exact ⟨_, whereStream_failsForGood _ _ h⟩

/-- **C93 (partial).** Every pipeline of filters other than synonyms filters: if the input fails for good after
some tokens, so does the pipeline, with the same error: whatever number of times `Next` is called after the
error, it answers no token and that error. Missing: the synonyms filters, for which it is false; see
`C93_synonyms_partial` for what they do. -/
theorem C93_pipeline_partial {E : Env} (hE : E.Lawful) (bs : List Builtin)
    (hb : ∀ b ∈ bs, b.OK E ∧ b.NotSynonyms) {ts : TokenStream} {toks : List Token} {e : Err}
    (h : ts.FailsForGood toks e) :
    let p := ts.filter (bs.map (Builtin.apply E))
    ∃ out : List Token, p.Yields out (.fail e) ∧ ∀ n, ∃ s, Answers p.nextFn p.st
      (out.map (fun t => ⟨some t, none⟩) ++ List.replicate n ⟨none, some e⟩) s := by
  intro p
  have key : ∀ (bs : List Builtin), (∀ b ∈ bs, b.OK E ∧ b.NotSynonyms) → ∀ (ts : TokenStream) (toks : List Token),
      ts.FailsForGood toks e → ∃ out, (ts.filter (bs.map (Builtin.apply E))).FailsForGood out e := by
    intro bs
    induction bs with
    | nil => exact fun _ ts toks h => ⟨toks, h⟩
    | cons b bs ih =>
      intro hb ts toks h
      obtain ⟨mid, hm⟩ := b.keepsFailing hE (hb b (by simp)).1 (hb b (by simp)).2 ts toks e h
      exact ih (fun b h => hb b (by simp [h])) _ mid hm
  obtain ⟨out, ho⟩ := key bs hb ts toks h
  refine ⟨out, ho.emits, fun n => ?_⟩
  obtain ⟨s, h1, h2⟩ := ho
  obtain ⟨s', h3, -⟩ := h2.answers n
  exact ⟨s', h1.answers.append h3⟩

theorem synonyms_step {E : Env} (hE : E.Lawful) {mappings : StringMap} {ic : Bool} {ign : List Rune}
    (hs : ∀ m ∈ mappings, (E.scan { data := m.1 }).2 = none) (ts : TokenStream) {r : Res}
    {t' : SynState ts.σ}
    (h : synNext E.U ts.call (builtFilter E mappings ic ign) { incoming := ts.st, buffer := [], outgoing := [] } =
      Go.ret (r, t')) :
    ∃ s : TS (SynState ts.σ), s.inner = t' ∧
      ∀ rs s', Answers (TS.next (synNext E.U ts.call (builtFilter E mappings ic ign))) s rs s' →
      ∃ s'', Answers (synonyms E mappings ic ign ts).nextFn (synonyms E mappings ic ign ts).st (r :: rs) s'' := by
  have heq : synonyms E mappings ic ign ts = newTokenStream (synNext E.U ts.call (builtFilter E mappings ic ign))
      { incoming := ts.st, buffer := [], outgoing := [] } := by
    unfold synonyms
    rw [build_ok hE mappings ic ign hs]
    have : synClosure E.U (Go.ret (.ok (builtFilter E mappings ic ign))) ts.call =
        synNext E.U ts.call (builtFilter E mappings ic ign) := by
      funext t; simp [synClosure]
    rw [this]
    rfl
  rw [heq]
  refine ⟨_, rfl, fun rs s' hs' => ⟨s', _, TS.next_of h, hs'⟩⟩

/-- **C93 (synonyms, partial).** What a synonyms filter does if its input fails for good after some tokens. The
first `Next` answers the error. From then on one of two things happens, for any number of further calls: every
call answers the filter's own error "expected buffer to be empty"; or the calls deliver, after the error, all
that the filter would have made of the tokens had the input ended there, and then the error again, for ever. If
no synonym has two words, it is the second. -/
theorem C93_synonyms_partial {E : Env} (hE : E.Lawful) (mappings : StringMap) (ignoreCase : Bool)
    (ignore : List Rune) (hs : ∀ m ∈ mappings, (E.scan { data := m.1 }).2 = none)
    {ts : TokenStream} {toks : List Token} {e : Err} (h : ts.FailsForGood toks e) :
    let p := synonyms E mappings ignoreCase ignore ts
    ∃ out : List Token, Makes (synonyms E mappings ignoreCase ignore) toks .eof out .eof ∧
      ((2 ≤ wordLimit (entries E mappings) ∧ ∀ n, ∃ s, Answers p.nextFn p.st
          (⟨none, some e⟩ :: List.replicate n ⟨none, some .synBufferNotEmpty⟩) s) ∨
       ∀ n, ∃ s, Answers p.nextFn p.st
          (⟨none, some e⟩ :: (out.map (fun t => ⟨some t, none⟩) ++ List.replicate n ⟨none, some e⟩)) s) := by
  intro p
  obtain ⟨out, hg⟩ := Greedy.total ⟨E.U, ignoreCase, ignore⟩
    ((Compare.mk E.U ignoreCase ignore).dict (entries E mappings)) (wordLimit (entries E mappings)) toks
  refine ⟨out, fun ts' h' => synonyms_yields hE hs h' hg, ?_⟩
  rw [← builtFilter_maxWords E mappings ignoreCase ignore] at hg ⊢
  have hm : 0 < (builtFilter E mappings ignoreCase ignore).maxWords := by
    rw [builtFilter_maxWords]; exact wordLimit_pos _
  obtain ⟨t', h1, h2⟩ := synNext_breaks hm (builtFilter_compare E mappings ignoreCase ignore)
    (builtFilter_get E mappings ignoreCase ignore) h hg
  obtain ⟨s, rfl, hstep⟩ := synonyms_step hE hs ts h1
  rcases h2 with ⟨hb, w, ws, hw, -, hlt⟩ | hb
  · refine .inl ⟨?_, fun n => ?_⟩
    · have : 1 ≤ words (w :: ws) := by
        unfold words
        exact List.countP_pos_iff.2 ⟨w, by simp, by simpa using hw⟩
      omega
    · obtain ⟨s', h3, -⟩ := hb.wrap.answers n
      exact hstep _ _ h3
  · refine .inr fun n => ?_
    obtain ⟨s1, h3, h4⟩ := hb.wrap
    obtain ⟨s2, h5, -⟩ := h4.answers n
    exact hstep _ _ (h3.answers.append h5)

/-- **C93 (synonyms, stuck).** If the input has a word but fewer words than the longest synonym, and no
punctuation, it is the first: after the error of the input comes the filter's own, for ever. -/
theorem C93_violated_stuck {E : Env} (hE : E.Lawful) (mappings : StringMap) (ignoreCase : Bool)
    (ignore : List Rune) (hs : ∀ m ∈ mappings, (E.scan { data := m.1 }).2 = none)
    {ts : TokenStream} {toks : List Token} {e : Err} (h : ts.FailsForGood toks e)
    (hw : ∃ t ∈ toks, t.IsWord) (hlt : words toks < wordLimit (entries E mappings))
    (hp : ∀ t ∈ toks, t.punct = false) :
    let p := synonyms E mappings ignoreCase ignore ts
    ∀ n, ∃ s, Answers p.nextFn p.st (⟨none, some e⟩ :: List.replicate n ⟨none, some .synBufferNotEmpty⟩) s := by
  intro p n
  rw [← builtFilter_maxWords E mappings ignoreCase ignore] at hlt
  obtain ⟨t', h1, h2⟩ := synNext_stuck (U := E.U) h hw hlt hp
  obtain ⟨s, rfl, hstep⟩ := synonyms_step hE hs ts h1
  obtain ⟨s', h3, -⟩ := h2.wrap.answers n
  exact hstep _ _ h3

theorem Answers.unique {σ : Type} {next : NextFn σ} {s a b : σ} {rs rs' : List Res}
    (h : Answers next s rs a) (h' : Answers next s rs' b) (hl : rs.length = rs'.length) : rs = rs' := by
  induction rs generalizing s rs' with
  | nil => cases rs' <;> simp_all
  | cons r rs ih =>
    cases rs' with
    | nil => simp at hl
    | cons r' rs' =>
      obtain ⟨x, h1, h2⟩ := h
      obtain ⟨y, h3, h4⟩ := h'
      rw [h1] at h3
      simp at h3
      obtain ⟨rfl, rfl⟩ := h3
      rw [ih h2 h4 (by simpa using hl)]

/-- A stream that reports an error and then answers anything else does not fail for good. -/
theorem not_failsForGood {ts : TokenStream} {e e' : Err} {r : Res} {s : TS ts.σ} {out : List Token}
    (h : Answers ts.nextFn ts.st [⟨none, some e⟩, r] s) (hr : r ≠ ⟨none, some e⟩) : ¬ ts.FailsForGood out e' := by
  rintro ⟨s', h1, h2⟩
  cases out with
  | nil =>
    cases h1
    obtain ⟨s2, h3, -⟩ := h2.answers 2
    have := h.unique h3 rfl
    simp only [List.replicate, List.cons.injEq, Res.mk.injEq, Option.some.injEq, true_and, and_true] at this
    rw [this.2] at hr
    exact hr (by rw [this.1])
  | cons t ts =>
    obtain ⟨x, h3, -⟩ := h1
    obtain ⟨y, h4, -⟩ := h
    rw [h3] at h4
    simp at h4

/-- The one-word stream of the witnesses: "a", then an error for ever. -/
def failingA : TokenStream := listStream [⟨str "a", false, false, false⟩] (.fail (.ext 1))

/-- **C93 is false: tokens after the error.** A synonyms filter with no synonyms over "a" and then an error:
the first call reports the error, the second delivers "a" as if nothing had happened. -/
theorem C93_violated_tokens :
    (∃ s, Answers (synonyms sampleEnv [] true [] failingA).nextFn (synonyms sampleEnv [] true [] failingA).st
      [⟨none, some (.ext 1)⟩, ⟨some ⟨str "a", false, false, false⟩, none⟩] s) ∧
    ¬ KeepsFailing (Builtin.apply sampleEnv (.synonyms [] true [])) := by
  have hf : failingA.FailsForGood [⟨str "a", false, false, false⟩] (.ext 1) := listStream_failsForGood _ _
  obtain ⟨out, ho, h⟩ := C93_synonyms_partial sampleEnv_lawful [] true [] (by simp) hf
  have hg : Greedy ⟨sampleEnv.U, true, []⟩
      ((Compare.mk sampleEnv.U true []).dict (entries sampleEnv [])) (wordLimit (entries sampleEnv []))
      [⟨str "a", false, false, false⟩] [⟨str "a", false, false, false⟩] :=
    .word (by decide +kernel) (fun k hk => by simp [Compare.dict, entries]) .nil
  have hy := synonyms_yields sampleEnv_lawful (mappings := []) (by simp)
    (listStream_yields [⟨str "a", false, false, false⟩] .eof) hg
  obtain ⟨rfl, -⟩ := (ho _ (listStream_yields _ .eof)).unique hy
  rcases h with ⟨h, -⟩ | h
  · exact absurd h (by decide +kernel)
  · obtain ⟨s, h⟩ := h 0
    refine ⟨⟨s, by simpa using h⟩, fun hk => ?_⟩
    obtain ⟨out, hk⟩ := hk _ _ _ hf
    exact not_failsForGood (ts := synonyms sampleEnv [] true [] failingA) (by simpa using h) (by simp) hk

/-- **C93 is false: another error after the error.** A synonyms filter with the synonym "a b" over "a" and then
an error: the first call reports the error, every further one "expected buffer to be empty". -/
theorem C93_violated_error :
    (∀ n, ∃ s, Answers (synonyms sampleEnv [(str "a b", str "c")] true [] failingA).nextFn
      (synonyms sampleEnv [(str "a b", str "c")] true [] failingA).st
      (⟨none, some (.ext 1)⟩ :: List.replicate n ⟨none, some .synBufferNotEmpty⟩) s) ∧
    ¬ KeepsFailing (Builtin.apply sampleEnv (.synonyms [(str "a b", str "c")] true [])) := by
  have hf : failingA.FailsForGood [⟨str "a", false, false, false⟩] (.ext 1) := listStream_failsForGood _ _
  have h := C93_violated_stuck sampleEnv_lawful [(str "a b", str "c")] true [] (by decide +kernel) hf
    (by decide +kernel) (by decide +kernel) (by decide +kernel)
  refine ⟨h, fun hk => ?_⟩
  obtain ⟨out, hk⟩ := hk _ _ _ hf
  obtain ⟨s, h⟩ := h 1
  exact not_failsForGood h (by simp) hk

theorem C93_violated : ¬ C93_full := fun h =>
  C93_violated_tokens.2 (h sampleEnv sampleEnv_lawful _ (by simp [Builtin.OK]))

/-- Non-vacuity: streams that fail for good, and a pipeline. -/
example : failingA.FailsForGood [⟨str "a", false, false, false⟩] (.ext 1) ∧
    ∃ bs : List Builtin, bs.length = 4 ∧ ∀ b ∈ bs, b.OK sampleEnv ∧ b.NotSynonyms :=
  ⟨listStream_failsForGood _ _, [.asciiFold, .stopwords [str "the"] true, .distinct, .sigil ⟨[0x40], legalHandle⟩],
    rfl, by simp [Builtin.OK, Builtin.NotSynonyms]⟩

/-- Non-vacuity: a reader and an HTML reader that fail. -/
example : (sampleEnv.scan { data := str "a b", err := some (.ext 1) }).2 = some (.ext 1) ∧
    (tokenizeHTML sampleEnv [] (some (.ext 1))).Yields [] (.fail (.ext 1)) :=
  ⟨by decide +kernel, none, _, rfl⟩

end Jargon
