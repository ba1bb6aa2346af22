import Verif.Props.HtmlVerbatim
import Verif.Spec.WordBreak

/-! C124: what TokenizeHTML makes of a text that is not HTML. -/

namespace Jargon

/-! ### The specification -/

/-- Tokenize and TokenizeHTML deliver the same tokens of a text. -/
def SameAsHtml [HtmlReader] (E : Env) (doc : Bytes) : Prop :=
  ∃ toks, (tokenizeString E doc).Yields toks .eof ∧ (tokenizeHTML E (htmlTokens doc) none).Yields toks .eof

/-- **C124 (full).** A text without tags has the same tokens, tokenized as HTML or as a text. -/
def C124_full [HtmlReader] (E : Env) : Prop :=
  ∀ doc, 0x3C ∉ doc → (E.scan { data := doc }).2 = none → TextScans E (htmlTokens doc) → SameAsHtml E doc

/-! ### Lemmas -/

theorem string_markup {h : HTok} (ht : h.type ≠ .text) : ∃ s, h.string = 0x3C :: s := by
  unfold HTok.string
  have e1 : str "<" = [0x3C] := by decide +kernel
  have e2 : str "</" = [0x3C, 0x2F] := by decide +kernel
  have e3 : str "<!--" = [0x3C, 0x21, 0x2D, 0x2D] := by decide +kernel
  have e4 : str "<!DOCTYPE " = 0x3C :: (str "<!DOCTYPE ").tail := by decide +kernel
  cases h' : h.type with
  | text => exact absurd h' ht
  | startTag => rw [e1]; exact ⟨_, rfl⟩
  | endTag => rw [e2]; exact ⟨_, rfl⟩
  | selfClosing => rw [e1]; exact ⟨_, rfl⟩
  | comment => rw [e3]; exact ⟨_, rfl⟩
  | doctype => rw [e4]; exact ⟨_, rfl⟩

/-- Anything but text becomes a token that begins with `<` and counts as punctuation. -/
theorem htmlActual_markup {E : Env} {events : List HTok} (hscan : TextScans E events) {h : HTok} (hm : h ∈ events)
    (ht : h.type ≠ .text) (raw : Bool) :
    ∃ x ∈ (htmlActual E raw events none).1, x.punct = true ∧ ∃ s, x.value = 0x3C :: s := by
  induction events generalizing raw with
  | nil => simp at hm
  | cons y ys ih =>
    have ih' := ih (fun z hz => hscan z (by simp [hz]))
    unfold htmlActual
    by_cases hy : y.type = .text
    · have hm' : h ∈ ys := by
        rcases List.mem_cons.1 hm with rfl | hm
        · exact absurd hy ht
        · exact hm
      rw [if_pos hy]
      split
      · obtain ⟨x, hx, hp⟩ := ih' hm' raw
        exact ⟨x, by simp [emit, hx], hp⟩
      · have hs := hscan y (by simp) hy
        split
        · obtain ⟨x, hx, hp⟩ := ih' hm' raw
          exact ⟨x, by simp [hx], hp⟩
        · next he => rw [he] at hs; cases hs
    · rw [if_neg hy]
      rcases List.mem_cons.1 hm with rfl | hm
      · exact ⟨_, by simp only [emit]; exact List.mem_cons_self, rfl, string_markup ht⟩
      · obtain ⟨x, hx, hp⟩ := ih' hm (raw || y.opensRaw)
        exact ⟨x, by simp [emit, hx], hp⟩

theorem flatMap_escape : ∀ {hs : List HTok}, (∀ h ∈ hs, h.type = .text) →
    hs.flatMap HTok.string = htmlEscape (hs.flatMap HTok.data)
  | [], _ => rfl
  | h :: hs, ht => by
    rw [List.flatMap_cons, List.flatMap_cons, flatMap_escape fun x hx => ht x (by simp [hx])]
    have : h.string = htmlEscape h.data := by simp only [HTok.string, ht h (by simp)]
    rw [this, htmlEscape, htmlEscape, htmlEscape, List.flatMap_append]

variable [HtmlReader]

/-- An escaped text is one text. -/
theorem htmlTokens_escape (d : Bytes) :
    htmlTokens (htmlEscape d) = if d = [] then [] else [⟨.text, .zero, d, []⟩] := by
  have h1 := run_steps (.text []) (htmlEscape d) [] (by
    rw [Reading.steps_text [] _ (escape_free d).1]; simp)
  rw [Reading.steps_text [] _ (escape_free d).1, List.append_nil] at h1
  rw [htmlTokens, h1]
  simp only [List.nil_append, DocReading.run, DocReading.finish, Reading.finish, textEvent]
  by_cases hd : d = []
  · subst hd; rfl
  · have : htmlEscape d ≠ [] := by
      intro h0
      apply hd
      have := cookText_escape d
      rw [h0] at this
      rw [← this]
      rfl
    rw [if_neg this, if_neg hd, cookText_escape]

/-! ### C124 -/

/-- **C124 (partial, exactly).** Tokenize and TokenizeHTML deliver the same tokens of a text, if and only if it is
the escaped form of some text: there is no tag, apostrophe, quotation mark or carriage return in it, and ampersands are
escaped. Missing: the texts with such characters, where it is false (`C124_violated`). -/
theorem C124_exact_partial {E : Env} (hE : E.Lawful) (hP : E.U.isPunct 0x3C = false) {doc : Bytes}
    (hs : (E.scan { data := doc }).2 = none) (hscan : TextScans E (htmlTokens doc)) :
    SameAsHtml E doc ↔ ∃ d, doc = htmlEscape d := by
  have y1 := tokenize_yields E hE { data := doc }
  rw [hs] at y1
  have y2 := html_yields hE (htmlTokens doc) none (textNonempty_tokens doc)
  constructor
  · rintro ⟨toks, h1, h2⟩
    obtain rfl := (h1.unique y1).1
    have e2 := (h2.unique y2).1
    have htext : ∀ h ∈ htmlTokens doc, h.type = .text := by
      intro h hh
      by_cases ht : h.type = .text
      · exact ht
      · exfalso
        obtain ⟨x, hx, hp, s, hv⟩ := htmlActual_markup hscan hh ht false
        rw [← e2] at hx
        simp only [segTokens, List.mem_map] at hx
        obtain ⟨seg, -, rfl⟩ := hx
        have hv' : seg = 0x3C :: s := hv
        subst hv'
        simp only [mkToken] at hp
        rw [runes_ascii_cons (by decide), List.all_cons, Unicode.punctRune] at hp
        have : E.U.isPunct (UInt8.toNat 0x3C) = false := hP
        rw [this] at hp
        simp [spaceIsPunct] at hp
    refine ⟨(htmlTokens doc).flatMap HTok.data, ?_⟩
    have h3 := html_text_eq E hE doc hscan h2
    rw [text_segTokens, (hE.complete _ hs).2, flatMap_escape htext] at h3
    exact h3
  · rintro ⟨d, rfl⟩
    refine ⟨_, y1, ?_⟩
    by_cases hd : d = []
    · subst hd
      have : (E.scan { data := [] }).1 = [] := by
        have h := (hE.complete _ hs).2
        have hn := hE.nonempty { data := [] }
        cases hc : (E.scan { data := [] }).1 with
        | nil => rfl
        | cons a l =>
          have h' : (E.scan { data := [] }).1.flatten = [] := h
          rw [hc] at h' hn
          simp only [List.flatten_cons, List.append_eq_nil_iff] at h'
          exact absurd h'.1 (hn a (by simp))
      rw [htmlTokens_escape, if_pos rfl] at y2 ⊢
      rw [show htmlEscape [] = [] from rfl, this]
      exact y2
    · rw [htmlTokens_escape, if_neg hd] at y2 ⊢
      have hstr : (⟨.text, .zero, d, []⟩ : HTok).string = htmlEscape d := rfl
      have e : htmlActual E false [⟨.text, .zero, d, []⟩] none = (segTokens E.U (E.scan { data := htmlEscape d }).1, .eof) := by
        rw [htmlActual, if_pos rfl, if_neg (by simp), hstr]
        split
        · next heq => rw [heq]; simp [htmlActual, endOf]
        · next heq => rw [heq] at hs; cases hs
      rw [e] at y2
      exact y2

/-- **C124 (partial).** So it is for texts without any of the six characters that are escaped. -/
theorem C124_plain_partial {E : Env} (hE : E.Lawful) (hP : E.U.isPunct 0x3C = false) {doc : Bytes}
    (hs : (E.scan { data := doc }).2 = none) (hd : ∀ b ∈ doc, b ∉ escapedBytes) : SameAsHtml E doc := by
  have he : htmlEscape doc = doc := htmlEscape_self.2 hd
  refine (C124_exact_partial hE hP hs fun h hh ht => ?_).2 ⟨doc, he.symm⟩
  rw [← he, htmlTokens_escape] at hh
  split at hh
  · simp at hh
  · rw [List.mem_singleton.1 hh]
    show (E.scan { data := htmlEscape doc }).2 = none
    rw [he]
    exact hs

omit [HtmlReader] in
/-- **C124 (violated).** "don't" as HTML is not the token "don't": the apostrophe becomes `&#39;` before the text is
cut into words. -/
theorem C124_violated : letI := sampleReader
    ¬ C124_full sampleEnv ∧ (htmlTokens (str "don't")).flatMap HTok.string = str "don&#39;t" := by
  letI := sampleReader
  refine ⟨fun h => ?_, by decide +kernel⟩
  obtain ⟨toks, h1, h2⟩ := h (str "don't") (by decide +kernel) rfl (fun _ _ _ => rfl)
  have h3 := html_text_eq sampleEnv sampleEnv_lawful _ (fun _ _ _ => rfl) h2
  have h4 := tokenize_yields sampleEnv sampleEnv_lawful { data := str "don't" }
  rw [(h1.unique h4).1] at h3
  revert h3
  decide +kernel

omit [HtmlReader] in
example : letI := sampleReader
    SameAsHtml sampleEnv (str "Q&amp;A") ∧ SameAsHtml sampleEnv (str "no markup") := by
  letI := sampleReader
  exact ⟨(C124_exact_partial sampleEnv_lawful (by decide +kernel) rfl fun _ _ _ => rfl).2
      ⟨str "Q&A", by decide +kernel⟩,
    C124_plain_partial sampleEnv_lawful (by decide +kernel) rfl (by decide +kernel)⟩

end Jargon
