import Verif.Proofs.Filters

/-! C03, C04: the tokenizer. -/

namespace Jargon

/-- **C03.** If the scanner gets through the input, the tokens concatenate to exactly the input,
`String` returns it, and every token is non-empty, not a lemma, and the token documented for its
text. -/
theorem C03_tokenize_round_trip (E : Env) (hE : E.Lawful) (r : Reader) (hr : (E.scan r).2 = none) :
    (∃ toks, (tokenize E r).Yields toks .eof ∧ toks.flatMap Token.value = r.data ∧
      ∀ t ∈ toks, t.value ≠ [] ∧ t.lemma = false ∧ TokenFor E.U t.value false t) ∧
    (tokenize E r).string = Go.ret (r.data, none) := by
  have h := tokenize_yields E hE r
  rw [hr] at h
  have ht : text (segTokens E.U (E.scan r).1) = r.data := by
    rw [text_segTokens, (hE.complete r hr).2]
  refine ⟨⟨_, h, ht, ?_⟩, ?_⟩
  · intro t htm
    simp only [segTokens, List.mem_map] at htm
    obtain ⟨s, hs, rfl⟩ := htm
    exact ⟨hE.nonempty r s hs, rfl, mkToken_for E.U s false⟩
  · have := string_yields h
    simpa [endOf, ht] using this

/-- C03 for `TokenizeString`. -/
theorem C03_tokenizeString_round_trip (E : Env) (hE : E.Lawful) (s : Bytes)
    (hs : (E.scan { data := s }).2 = none) : (tokenizeString E s).string = Go.ret (s, none) :=
  (C03_tokenize_round_trip E hE { data := s } hs).2

example : sampleEnv.Lawful ∧ (sampleEnv.scan { data := str "Hi, you." }).2 = none ∧
    (sampleEnv.scan { data := str "Hi, you." }).1 = ["Hi", ",", " ", "you", "."].map str :=
  ⟨sampleEnv_lawful, rfl, by decide +kernel⟩

/-- **C04 (tokenizer).** If the reader fails, the scanner reports an error; then the tokens found so
far are delivered first, they are a prefix of the input, and the error follows. The stream does
not end normally. -/
theorem C04_tokenize_error (E : Env) (hE : E.Lawful) (r : Reader) :
    (∀ e, (E.scan r).2 = some e → ∃ toks, (tokenize E r).Yields toks (.fail e) ∧
      toks.flatMap Token.value <+: r.data) ∧
    (r.err ≠ none → (E.scan r).2 ≠ none ∧ ∀ toks, ¬ (tokenize E r).Yields toks .eof) := by
  have h := tokenize_yields E hE r
  constructor
  · intro e he
    rw [he] at h
    refine ⟨_, h, ?_⟩
    have := text_segTokens E.U (E.scan r).1
    rw [text] at this
    rw [this]
    exact hE.sound r
  · intro hr
    have hne : (E.scan r).2 ≠ none := fun h' => hr (hE.complete r h').1
    refine ⟨hne, fun toks h' => ?_⟩
    obtain ⟨_, h2⟩ := h.unique h'
    cases hs : (E.scan r).2 with
    | none => exact hne hs
    | some e => rw [hs] at h2; cases h2

example : (sampleEnv.scan { data := str "ab c", err := some (.ext 3) }).2 = some (.ext 3) ∧
    (sampleEnv.scan { data := str "ab c", err := some (.ext 3) }).1 ≠ [] :=
  ⟨rfl, by decide +kernel⟩

end Jargon
