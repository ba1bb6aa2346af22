import Verif.Props.HtmlVerbatim

/-! C114: a page tokenized in parts. -/

namespace Jargon

/-- A start tag, an end tag or a tag that closes itself. -/
def HTok.isTag (h : HTok) : Bool := h.type == .startTag || h.type == .endTag || h.type == .selfClosing

section
variable [HtmlReader]

/-- How many tags a page has. -/
def markupTags (s : Bytes) : Nat := (htmlTokens s).countP HTok.isTag

/-- The page ends with a tag: its last byte makes one more. -/
def EndsWithTag (s : Bytes) : Prop := ∃ s' b, s = s' ++ [b] ∧ markupTags s' < markupTags s

/-- The content of the element that the last tag opens is not read as HTML (scripts, styles, titles...). -/
def EndsInRaw (s : Bytes) : Prop := ∃ h, (htmlTokens s).getLast? = some h ∧ h.opensRawText = true

/-! ### Lemmas -/

/-- The tokens complete after some bytes, and what follows. -/
def DocReading.steps : DocReading → Bytes → List HTok × DocReading
  | r, [] => ([], r)
  | r, b :: s => ((r.step b).1 ++ ((r.step b).2.steps s).1, ((r.step b).2.steps s).2)

theorem DocReading.run_append (a c : Bytes) (r : DocReading) :
    r.run (a ++ c) = (r.steps a).1 ++ (r.steps a).2.run c := by
  induction a generalizing r with
  | nil => rfl
  | cons b a ih => simp only [List.cons_append, DocReading.run, DocReading.steps, ih, List.append_assoc]

theorem textEvent_tag (raw : Bytes) : (textEvent raw).countP HTok.isTag = 0 := by
  unfold textEvent
  split <;> rfl

theorem rawEvent_tag (name raw : Bytes) : (rawEvent name raw).countP HTok.isTag = 0 := by
  unfold rawEvent
  split <;> rfl

theorem finish_tag (r : DocReading) : r.finish.countP HTok.isTag = 0 := by
  cases r with
  | raw name acc => exact rawEvent_tag name acc
  | html r => cases r <;> first | rfl | exact textEvent_tag _

/-- A byte that completes a tag leaves the reader with nothing. -/
theorem Reading.step_tag (r : Reading) (b : UInt8) (h : 0 < (r.step b).1.countP HTok.isTag) :
    (r.step b).2 = .text [] := by
  cases r with
  | value type tag old k q acc =>
    cases q <;> (simp only [Reading.step] at h ⊢; repeat' split at h) <;>
      first
      | (simp only [List.countP_nil] at h; omega)
      | simp_all
  | _ =>
    simp only [Reading.step] at h ⊢
    repeat' split at h
    all_goals
      first
      | (simp only [List.countP_nil] at h; omega)
      | (rw [textEvent_tag] at h; omega)
      | simp_all [textEvent_tag, commentEvent, doctypeEvent, HTok.isTag]

theorem DocReading.steps_append (a c : Bytes) (r : DocReading) :
    r.steps (a ++ c) = ((r.steps a).1 ++ ((r.steps a).2.steps c).1, ((r.steps a).2.steps c).2) := by
  induction a generalizing r with
  | nil => rfl
  | cons b a ih => simp only [List.cons_append, DocReading.steps, ih, List.append_assoc]

theorem DocReading.step_tag (r : DocReading) (b : UInt8) (h : 0 < (r.step b).1.countP HTok.isTag) :
    (r.step b).2 = .html (.text []) ∨
      ∃ x, (r.step b).1.getLast? = some x ∧ x.opensRawText = true ∧ (r.step b).2 = .raw x.data [] := by
  cases r with
  | html r =>
    have h1 : (r.step b).2 = .text [] := r.step_tag b h
    simp only [DocReading.step, h1, DocReading.after]
    split
    · rename_i x hx
      split
      · exact .inr ⟨x, hx, by assumption, rfl⟩
      · exact .inl rfl
    · exact .inl rfl
  | raw name acc =>
    simp only [DocReading.step] at h ⊢
    split at h
    · rename_i hc
      rw [if_pos hc]
      rw [List.countP_append, rawEvent_tag, Nat.zero_add] at h
      exact .inl (congrArg DocReading.html (Reading.step_tag _ b h))
    · simp at h

/-- After a page that ends with a tag, the reader is where it was at the beginning. -/
theorem EndsWithTag.state {s : Bytes} (h : EndsWithTag s) (hr : ¬ EndsInRaw s) :
    (DocReading.steps (.html (.text [])) s).2 = .html (.text []) := by
  obtain ⟨s', b, rfl, hlt⟩ := h
  have e : htmlTokens (s' ++ [b]) = (DocReading.steps (.html (.text [])) s').1 ++
      (((DocReading.steps (.html (.text [])) s').2.step b).1 ++
        ((DocReading.steps (.html (.text [])) s').2.step b).2.finish) := by
    rw [htmlTokens, DocReading.run_append]
    rfl
  have e' : htmlTokens s' = (DocReading.steps (.html (.text [])) s').1 ++
      (DocReading.steps (.html (.text [])) s').2.finish := by
    have := DocReading.run_append s' [] (.html (.text []))
    rwa [List.append_nil] at this
  rw [DocReading.steps_append]
  generalize DocReading.steps (.html (.text [])) s' = st at e e'
  have hpos : 0 < (st.2.step b).1.countP HTok.isTag := by
    simp only [markupTags, e, e', List.countP_append, finish_tag] at hlt
    omega
  rcases DocReading.step_tag st.2 b hpos with h1 | ⟨x, h1, h2, h3⟩
  · exact h1
  · refine absurd ⟨x, ?_, h2⟩ hr
    rw [e, h3]
    simp only [DocReading.finish, rawEvent, if_true, List.append_nil, List.getLast?_append, h1,
      Option.some_or]

omit [HtmlReader] in
/-- Tokens that are delivered before those of a further part. -/
theorem htmlActual_append {E : Env} (a c : List HTok) (final : Option Err) (raw : Bool)
    (h : (htmlActual E raw a none).2 = .eof) :
    htmlActual E raw (a ++ c) final =
      ((htmlActual E raw a none).1 ++ (htmlActual E (raw || a.any HTok.opensRaw) c final).1,
        (htmlActual E (raw || a.any HTok.opensRaw) c final).2) := by
  induction a generalizing raw with
  | nil => simp [htmlActual]
  | cons x xs ih =>
    simp only [List.cons_append, htmlActual] at h ⊢
    by_cases ht : x.type = .text
    · have hx : x.opensRaw = false := by simp [HTok.opensRaw, ht]
      simp only [ht, if_true, List.any_cons, hx, Bool.false_or] at h ⊢
      cases raw with
      | true =>
        simp only [if_true, emit] at h ⊢
        rw [ih true h]
        rfl
      | false =>
        simp only [Bool.false_eq_true, if_false] at h ⊢
        split at h
        · rename_i segs hs
          rw [ih false h]
          simp only [List.append_assoc]
        · cases h
    · simp only [ht, if_false, emit, List.any_cons] at h ⊢
      rw [ih _ h, Bool.or_assoc]
      rfl

/-! ### C114 -/

/-- **C114 (reader).** What follows a tag does not depend on what precedes it: the tokens of the HTML tokenizer are
those of the page up to and including a tag, and those of the rest. -/
theorem C114_reader (a c : Bytes) (ha : EndsWithTag a) (hr : ¬ EndsInRaw a) :
    htmlTokens (a ++ c) = htmlTokens a ++ htmlTokens c := by
  have h1 := ha.state hr
  have h2 := DocReading.run_append a [] (.html (.text []))
  rw [List.append_nil] at h2
  rw [htmlTokens, DocReading.run_append, htmlTokens, h2, h1, htmlTokens]
  simp [DocReading.run, DocReading.finish, Reading.finish, textEvent]

/-- **C114, in full.** The tokens of a page are those of its parts, if it is cut after a tag (of an element whose
content is read as HTML). -/
def C114_full (E : Env) (a : Bytes) : Prop :=
  ∀ (c : Bytes) (ta tc : List Token) (e : End), EndsWithTag a → ¬ EndsInRaw a →
    (tokenizeHTML E (htmlTokens a) none).Yields ta .eof →
    (tokenizeHTML E (htmlTokens c) none).Yields tc e →
    (tokenizeHTML E (htmlTokens (a ++ c)) none).Yields (ta ++ tc) e

/-- **C114 (exactly).** The rest is tokenized as a page of its own if there is no script or style element before;
otherwise each of its texts is one token. -/
theorem C114_exact {E : Env} (hE : E.Lawful) (a c : Bytes) (ha : EndsWithTag a) (hr : ¬ EndsInRaw a)
    {ta : List Token} (h : (tokenizeHTML E (htmlTokens a) none).Yields ta .eof) :
    ((∀ x ∈ htmlTokens a, x.opensRaw = false) →
      ∀ tc e, (tokenizeHTML E (htmlTokens c) none).Yields tc e →
        (tokenizeHTML E (htmlTokens (a ++ c)) none).Yields (ta ++ tc) e) ∧
    ((∃ x ∈ htmlTokens a, x.opensRaw = true) →
      (tokenizeHTML E (htmlTokens (a ++ c)) none).Yields
        (ta ++ (htmlTokens c).map fun x => ⟨x.string, x.type ≠ .text, false, false⟩) .eof) := by
  have h0 := html_yields hE _ none (textNonempty_tokens a)
  obtain ⟨e1, e2⟩ := h.unique h0
  have h1 := html_yields hE _ none (textNonempty_tokens (a ++ c))
  rw [C114_reader a c ha hr] at h1 ⊢
  rw [htmlActual_append _ _ _ _ e2.symm, ← e1] at h1
  refine ⟨fun hno tc e hc => ?_, fun ⟨x, hx, hraw⟩ => ?_⟩
  · have hany : (htmlTokens a).any HTok.opensRaw = false := by
      rw [List.any_eq_false]
      intro x hx
      simp [hno x hx]
    obtain ⟨rfl, rfl⟩ := hc.unique (html_yields hE _ none (textNonempty_tokens c))
    rw [hany] at h1
    exact h1
  · have hany : (htmlTokens a).any HTok.opensRaw = true := List.any_eq_true.mpr ⟨x, hx, hraw⟩
    rw [hany, Bool.or_true, htmlActual_raw] at h1
    exact h1

/-- **C114 (partial).** So it is for pages without script and style elements before the cut. -/
theorem C114_partial {E : Env} (hE : E.Lawful) (a : Bytes) (hno : ∀ x ∈ htmlTokens a, x.opensRaw = false) :
    C114_full E a :=
  fun c _ _ _ ha hr h hc => (C114_exact hE a c ha hr h).1 hno _ _ hc

end

/-- **C114 (violated).** After `<style></style>`, the text `a b` is one token; by itself it is three. -/
theorem C114_violated : ¬ @C114_full sampleReader sampleEnv (str "<style></style>") := by
  letI := sampleReader
  intro h
  have hw : EndsWithTag (str "<style></style>") :=
    ⟨str "<style></style", 0x3E, by decide +kernel, by decide +kernel⟩
  have hr : ¬ EndsInRaw (str "<style></style>") := by
    rintro ⟨x, hx, hraw⟩
    have : ∀ x, (htmlTokens (str "<style></style>")).getLast? = some x → x.opensRawText = false := by
      have e : (htmlTokens (str "<style></style>")).getLast? =
        some ⟨.endTag, .style, str "style", []⟩ := by decide +kernel
      rw [e]
      rintro x ⟨⟩
      decide +kernel
    rw [this x hx] at hraw
    cases hraw
  have h1 := html_yields sampleEnv_lawful (htmlTokens (str "<style></style>")) none (textNonempty_tokens _)
  have h2 := html_yields sampleEnv_lawful (htmlTokens (str "a b")) none (textNonempty_tokens _)
  have h3 := html_yields sampleEnv_lawful (htmlTokens (str "<style></style>" ++ str "a b")) none
    (textNonempty_tokens _)
  have e1 : (htmlActual sampleEnv false (htmlTokens (str "<style></style>")) none).2 = .eof := by decide +kernel
  rw [e1] at h1
  have := ((h _ _ _ _ hw hr h1 h2).unique h3).1
  revert this
  decide +kernel

-- a page that may be cut, and one that may not: `<title>` opens an element that is not read as HTML
example : @EndsWithTag sampleReader (str "<p class='x'>a<br/>") ∧ ¬ @EndsWithTag sampleReader (str "<p title='>") := by
  letI := sampleReader
  refine ⟨⟨str "<p class='x'>a<br/", 0x3E, by decide +kernel, by decide +kernel⟩, ?_⟩
  rintro ⟨s', b, hs, hlt⟩
  have e : str "<p title='>" = str "<p title='" ++ [0x3E] := by decide +kernel
  rw [e] at hs
  obtain ⟨rfl, -⟩ := List.append_inj' hs rfl
  revert hlt
  decide +kernel

example : @EndsInRaw sampleReader (str "<title>") ∧
    @htmlTokens sampleReader (str "<title>" ++ str "<b>") ≠
      @htmlTokens sampleReader (str "<title>") ++ @htmlTokens sampleReader (str "<b>") := by
  refine ⟨⟨⟨.startTag, .other 0, str "title", []⟩, by decide +kernel, by decide +kernel⟩, by decide +kernel⟩

end Jargon
