import Verif.Proofs.Filters

/-! C43–C46: TokenizeHTML. -/

namespace Jargon

/-- What is assumed of golang.org/x/net/html: it never produces an empty text token. -/
def TextNonempty (events : List HTok) : Prop := ∀ h ∈ events, h.type = .text → h.data ≠ []

/-- The scanner gets through every text node. -/
def TextScans (E : Env) (events : List HTok) : Prop :=
  ∀ h ∈ events, h.type = .text → (E.scan { data := h.string }).2 = none

theorem html_yields {E : Env} (hE : E.Lawful) (events : List HTok) (final : Option Err)
    (htext : TextNonempty events) :
    (tokenizeHTML E events final).Yields (htmlActual E false events final).1
      (htmlActual E false events final).2 :=
  yields_new (html_emits hE events final .zero htext)

/-! ### C43 -/

/-- What one HTML token outside script and style elements should become. -/
def htmlToken (E : Env) (h : HTok) : List Token :=
  if h.type = .text then stringTokens E h.string else [⟨h.string, true, false, false⟩]

theorem htmlActual_plain {E : Env} (a b : List HTok) (final : Option Err)
    (hraw : ∀ h ∈ a, h.opensRaw = false) (hs : TextScans E a) :
    htmlActual E false (a ++ b) final =
      (a.flatMap (htmlToken E) ++ (htmlActual E false b final).1, (htmlActual E false b final).2) := by
  induction a with
  | nil => simp
  | cons h a ih =>
    have ih' := ih (fun x hx => hraw x (by simp [hx])) (fun x hx => hs x (by simp [hx]))
    simp only [List.cons_append, htmlActual, htmlToken, List.flatMap_cons]
    by_cases ht : h.type = .text
    · have := hs h (by simp) ht
      rw [if_pos ht, if_pos ht, ih']
      cases hsc : E.scan { data := h.string } with
      | mk segs e =>
        rw [hsc] at this
        simp only at this
        subst this
        simp [stringTokens, hsc]
    · rw [if_neg ht, if_neg ht, hraw h (by simp)]
      simp [ih']

/-- **C43.** In a document without script or style elements, each tag, comment and doctype is one
punctuation token with its rendered text, and each text node is the tokens of its text. -/
theorem C43_html_tokens (E : Env) (hE : E.Lawful) (events : List HTok) (final : Option Err)
    (htext : TextNonempty events) (hscan : TextScans E events)
    (hraw : ∀ h ∈ events, h.opensRaw = false) :
    ∃ f : HTok → List Token,
      (tokenizeHTML E events final).Yields (events.flatMap f) (endOf final) ∧
      ∀ h ∈ events,
        (h.type ≠ .text → f h = [⟨h.string, true, false, false⟩]) ∧
        (h.type = .text → (tokenizeString E h.string).Yields (f h) .eof) := by
  have h1 := html_yields hE events final htext
  have h2 := htmlActual_plain events [] final hraw hscan
  simp only [List.append_nil, htmlActual] at h2
  rw [h2] at h1
  refine ⟨htmlToken E, h1, fun h hh => ⟨?_, ?_⟩⟩
  · intro ht; simp [htmlToken, ht]
  · intro ht
    simp only [htmlToken, ht, ↓reduceIte]
    exact stringTokens_yields hE (hscan h hh ht)

/-- **C43 (tags everywhere).** Whatever the document, every HTML token that is not text gives exactly
one punctuation, non-space, non-lemma token with its rendered text: those tokens are, in order, the
output tokens that come from tags. Stated for a document without text. -/
theorem C43_html_tags_only (E : Env) (hE : E.Lawful) (events : List HTok) (final : Option Err)
    (h : ∀ h ∈ events, h.type ≠ .text) :
    (tokenizeHTML E events final).Yields
      (events.map fun h => ⟨h.string, true, false, false⟩) (endOf final) := by
  have h1 := html_yields hE events final (fun x hx ht => absurd ht (h x hx))
  have : ∀ raw, htmlActual E raw events final =
      (events.map fun h => ⟨h.string, true, false, false⟩, endOf final) := by
    clear h1
    induction events with
    | nil => simp [htmlActual]
    | cons x xs ih =>
      intro raw
      have := ih fun y hy => h y (by simp [hy])
      simp [htmlActual, h x (by simp), this]
  rwa [this] at h1

/-- `<p>`, `a b`, `</p>`. -/
def paragraph : List HTok :=
  [⟨.startTag, .other 1, str "p", []⟩, ⟨.text, .zero, str "a b", []⟩,
   ⟨.endTag, .other 1, str "p", []⟩]

example : TextNonempty paragraph ∧ TextScans sampleEnv paragraph ∧
    (∀ h ∈ paragraph, h.opensRaw = false) ∧
    paragraph.flatMap (htmlToken sampleEnv) =
      [⟨str "<p>", true, false, false⟩, ⟨str "a", false, false, false⟩,
       ⟨str " ", false, true, false⟩, ⟨str "b", false, false, false⟩,
       ⟨str "</p>", true, false, false⟩] :=
  ⟨by unfold TextNonempty; decide +kernel, fun _ _ _ => rfl, by decide, by decide +kernel⟩

/-! ### C44 -/

/-- What TokenizeHTML is documented to do: text inside a script or style element is one token, and
the element ends at its end tag. -/
def htmlIdeal (E : Env) : Atom → List HTok → List Token
  | _, [] => []
  | inside, h :: hs =>
    match h.type with
    | .text =>
      if inside = .script ∨ inside = .style then
        ⟨h.string, false, false, false⟩ :: htmlIdeal E inside hs
      else stringTokens E h.string ++ htmlIdeal E inside hs
    | .startTag =>
      ⟨h.string, true, false, false⟩ ::
        htmlIdeal E (if h.dataAtom = .script ∨ h.dataAtom = .style then h.dataAtom else inside) hs
    | .endTag =>
      ⟨h.string, true, false, false⟩ ::
        htmlIdeal E (if h.dataAtom = inside then .zero else inside) hs
    | _ => ⟨h.string, true, false, false⟩ :: htmlIdeal E inside hs

/-- The full statement of C44. -/
def C44_full (E : Env) (events : List HTok) : Prop :=
  (tokenizeHTML E events none).Yields (htmlIdeal E .zero events) .eof

/-- `<script>`, `</script>`, `a b`. -/
def afterScript : List HTok :=
  [⟨.startTag, .script, str "script", []⟩, ⟨.endTag, .script, str "script", []⟩,
   ⟨.text, .zero, str "a b", []⟩]

/-- **C44 is false.** After `<script></script>`, the text `a b` is one token: the end tag does not
reset `parent`. -/
theorem C44_violated : ¬ C44_full sampleEnv afterScript := by
  intro h
  have h2 := html_yields sampleEnv_lawful afterScript none (by unfold TextNonempty; decide +kernel)
  have := (h.unique h2).1
  revert this
  decide +kernel

/-- The script state of the code: once entered, never left. -/
theorem htmlActual_raw {E : Env} (hs : List HTok) (final : Option Err) :
    htmlActual E true hs final =
      (hs.map fun h => ⟨h.string, h.type ≠ .text, false, false⟩, endOf final) := by
  induction hs with
  | nil => rfl
  | cons h hs ih =>
    simp only [htmlActual]
    by_cases ht : h.type = .text
    · simp [ht, ih]
    · simp [ht, ih]

/-- **C44 (what happens instead).** From the first script or style start tag on, every text node of
the document is one token. -/
theorem C44_raw_for_ever (E : Env) (hE : E.Lawful) (a b : List HTok) (s : HTok) (final : Option Err)
    (htext : TextNonempty (a ++ s :: b)) (hscan : TextScans E a)
    (ha : ∀ h ∈ a, h.opensRaw = false) (hs : s.opensRaw = true) :
    (tokenizeHTML E (a ++ s :: b) final).Yields
      (a.flatMap (htmlToken E) ++ ⟨s.string, true, false, false⟩ ::
        b.map fun h => ⟨h.string, h.type ≠ .text, false, false⟩) (endOf final) := by
  have h1 := html_yields hE _ final htext
  rw [htmlActual_plain a (s :: b) final ha hscan] at h1
  have hst : s.type ≠ .text := by
    intro h; simp [HTok.opensRaw, h] at hs
  have : htmlActual E false (s :: b) final =
      (⟨s.string, true, false, false⟩ ::
        b.map fun h => ⟨h.string, h.type ≠ .text, false, false⟩, endOf final) := by
    rw [htmlActual, if_neg hst, hs]
    simp [htmlActual_raw]
  rwa [this] at h1

theorem htmlIdeal_plain {E : Env} (a b : List HTok) (hraw : ∀ h ∈ a, h.opensRaw = false) :
    htmlIdeal E .zero (a ++ b) = a.flatMap (htmlToken E) ++ htmlIdeal E .zero b := by
  induction a with
  | nil => rfl
  | cons h a ih =>
    have ih' := ih fun x hx => hraw x (by simp [hx])
    have hr := hraw h (by simp)
    simp only [List.cons_append, List.flatMap_cons, htmlIdeal, htmlToken]
    cases ht : h.type with
    | text => simp [ih']
    | startTag =>
      have : ¬ (h.dataAtom = .script ∨ h.dataAtom = .style) := by
        simpa [HTok.opensRaw, ht] using hr
      simp [ih', this]
    | endTag => simp [ih']
    | selfClosing => simp [ih']
    | comment => simp [ih']
    | doctype => simp [ih']

/-- Text after a closing tag of a script or style element. -/
def HTok.closesRaw (h : HTok) : Bool :=
  h.type == .endTag && (h.dataAtom == .script || h.dataAtom == .style)

theorem htmlIdeal_raw {E : Env} (hs : List HTok) (inside : Atom)
    (hin : inside = .script ∨ inside = .style)
    (hno : ∀ a c b, hs = a ++ c :: b → c.closesRaw = true → ∀ h ∈ b, h.type ≠ .text) :
    htmlIdeal E inside hs = hs.map fun h => ⟨h.string, h.type ≠ .text, false, false⟩ := by
  have notext : ∀ (l : List HTok) (x : Atom), (∀ h ∈ l, h.type ≠ .text) →
      htmlIdeal E x l = l.map fun h => ⟨h.string, h.type ≠ .text, false, false⟩ := by
    intro l
    induction l with
    | nil => intro x _; rfl
    | cons h l ih =>
      intro x hl
      have ih' := fun x => ih x fun y hy => hl y (by simp [hy])
      have := hl h (by simp)
      simp only [htmlIdeal, List.map_cons]
      cases ht : h.type with
      | text => exact absurd ht this
      | startTag => simp [ih']
      | endTag => simp [ih']
      | selfClosing => simp [ih']
      | comment => simp [ih']
      | doctype => simp [ih']
  induction hs generalizing inside with
  | nil => rfl
  | cons h hs ih =>
    have hno' : ∀ a c b, hs = a ++ c :: b → c.closesRaw = true → ∀ h ∈ b, h.type ≠ .text :=
      fun a c b hab => hno (h :: a) c b (by simp [hab])
    simp only [htmlIdeal, List.map_cons]
    cases ht : h.type with
    | text => simp [hin, ih inside hin hno']
    | startTag =>
      by_cases hd : h.dataAtom = .script ∨ h.dataAtom = .style
      · simp [hd, ih _ hd hno']
      · simp [hd, ih _ hin hno']
    | endTag =>
      by_cases hd : h.dataAtom = inside
      · have hc : h.closesRaw = true := by
          rcases hin with hin | hin <;> simp [HTok.closesRaw, ht, hd, hin]
        simp [notext hs _ (hno [] h hs rfl hc)]
      · simp [hd, ih _ hin hno']
    | selfClosing => simp [ih _ hin hno']
    | comment => simp [ih _ hin hno']
    | doctype => simp [ih _ hin hno']

/-- **C44 (what happens in every case).** Also if a text cannot be scanned. -/
theorem C44_exact {E : Env} (hE : E.Lawful) (events : List HTok) (final : Option Err)
    (htext : TextNonempty events) : (tokenizeHTML E events final).Yields (htmlActual E false events final).1
      (htmlActual E false events final).2 :=
  html_yields hE events final htext

example : (htmlActual sampleEnv false afterScript none).1 =
    [⟨str "<script>", true, false, false⟩, ⟨str "</script>", true, false, false⟩,
     ⟨str "a b", false, false, false⟩] := by decide +kernel

/-- **C44 (partial).** If no text node follows the end tag of a script or style element, the tokens
are the documented ones. Missing: documents with such text, where they are not (`C44_violated`). -/
theorem C44_html_script_partial (E : Env) (hE : E.Lawful) (events : List HTok)
    (htext : TextNonempty events) (hscan : TextScans E events)
    (hno : ∀ a c b, events = a ++ c :: b → c.closesRaw = true → ∀ h ∈ b, h.type ≠ .text) :
    C44_full E events := by
  have h1 := html_yields hE events none htext
  by_cases hraw : ∀ h ∈ events, h.opensRaw = false
  · have h2 := htmlActual_plain events [] none hraw hscan
    have h3 := htmlIdeal_plain (E := E) events [] hraw
    simp only [List.append_nil, htmlActual, htmlIdeal, endOf] at h2 h3
    rw [C44_full, h3]
    rwa [h2] at h1
  · have : ∃ a s b, events = a ++ s :: b ∧ (∀ h ∈ a, h.opensRaw = false) ∧ s.opensRaw = true := by
      clear hscan hno h1 htext
      induction events with
      | nil => simp at hraw
      | cons h hs ih =>
        by_cases ho : h.opensRaw = true
        · exact ⟨[], h, hs, rfl, by simp, ho⟩
        · have : ¬ ∀ x ∈ hs, x.opensRaw = false := by
            intro hall
            apply hraw
            intro x hx
            rcases List.mem_cons.1 hx with rfl | hx
            · simpa using ho
            · exact hall x hx
          obtain ⟨a, s, b, rfl, h1, h2⟩ := ih this
          refine ⟨h :: a, s, b, rfl, ?_, h2⟩
          intro x hx
          rcases List.mem_cons.1 hx with rfl | hx
          · simpa using ho
          · exact h1 x hx
    obtain ⟨a, s, b, rfl, ha, hs⟩ := this
    have h2 := C44_raw_for_ever E hE a b s none htext (fun h hh => hscan h (by simp [hh])) ha hs
    rw [C44_full, htmlIdeal_plain a _ ha]
    have hs' : s.type = .startTag ∧ (s.dataAtom = .script ∨ s.dataAtom = .style) := by
      simpa [HTok.opensRaw] using hs
    have h3 := htmlIdeal_raw (E := E) b s.dataAtom hs'.2
      (fun a' c b' hab => hno (a ++ s :: a') c b' (by simp [hab]))
    have h4 : htmlIdeal E .zero (s :: b) = ⟨s.string, true, false, false⟩ :: htmlIdeal E s.dataAtom b := by
      simp [htmlIdeal, hs'.1, hs'.2]
    rw [h4, h3]
    exact h2

/-- The hypotheses hold for `<p>a b</p><script>x y</script>`. -/
example :
    let events := paragraph ++ [⟨.startTag, .script, str "script", []⟩,
      ⟨.text, .zero, str "x y", []⟩, ⟨.endTag, .script, str "script", []⟩]
    TextNonempty events ∧ TextScans sampleEnv events ∧
    (∀ a c b, events = a ++ c :: b → c.closesRaw = true → ∀ h ∈ b, h.type ≠ .text) ∧
    htmlIdeal sampleEnv .zero events =
      [⟨str "<p>", true, false, false⟩, ⟨str "a", false, false, false⟩,
       ⟨str " ", false, true, false⟩, ⟨str "b", false, false, false⟩,
       ⟨str "</p>", true, false, false⟩, ⟨str "<script>", true, false, false⟩,
       ⟨str "x y", false, false, false⟩, ⟨str "</script>", true, false, false⟩] := by
  refine ⟨by unfold TextNonempty; decide +kernel, fun _ _ _ => rfl, ?_, by decide +kernel⟩
  intro a c b hab hc
  match a, hab with
  | [], hab | [_], hab | [_, _], hab | [_, _, _], hab | [_, _, _, _], hab =>
    simp only [paragraph, List.cons_append, List.nil_append, List.cons.injEq] at hab
    simp only [← hab, HTok.closesRaw] at hc
    exact absurd hc (by decide)
  | [_, _, _, _, _], hab =>
    simp only [paragraph, List.cons_append, List.nil_append, List.cons.injEq] at hab
    have hb : b = [] := hab.2.2.2.2.2.2.symm
    simp [hb]
  | _ :: _ :: _ :: _ :: _ :: _ :: as, hab =>
    simp only [paragraph, List.cons_append, List.nil_append, List.cons.injEq] at hab
    have h0 := hab.2.2.2.2.2.2
    simp at h0

/-! ### C45 -/

/-- **C45 (rendered text).** The text of the tokens is the concatenation of the rendered HTML
tokens, script and style or not. -/
theorem C45_html_text (E : Env) (hE : E.Lawful) (events : List HTok) (final : Option Err)
    (htext : TextNonempty events) (hscan : TextScans E events) :
    ∃ toks, (tokenizeHTML E events final).Yields toks (endOf final) ∧
      toks.flatMap Token.value = events.flatMap HTok.string := by
  have h1 := html_yields hE events final htext
  have : ∀ raw, (htmlActual E raw events final).2 = endOf final ∧
      text (htmlActual E raw events final).1 = events.flatMap HTok.string := by
    clear h1 htext
    induction events with
    | nil => intro raw; exact ⟨rfl, rfl⟩
    | cons h hs ih =>
      intro raw
      have ih' := fun r => ih (fun x hx => hscan x (by simp [hx])) r
      simp only [htmlActual, List.flatMap_cons]
      by_cases ht : h.type = .text
      · have hsc := hscan h (by simp) ht
        cases raw
        · simp only [ht, ↓reduceIte, Bool.false_eq_true]
          cases hs' : E.scan { data := h.string } with
          | mk segs e =>
            rw [hs'] at hsc
            simp only at hsc
            subst hsc
            have hc := (hE.complete { data := h.string } (by rw [hs'])).2
            rw [hs'] at hc
            simp only at hc
            simp [ih', text_append, text_segTokens, hc]
        · simp [ht, ih']
      · simp [ht, ih']
  refine ⟨_, ?_, (this false).2⟩
  rw [← (this false).1]
  exact h1

/-- The full statement of C45's second half: a text node is rendered as its text. In a script or
style element the text of the node is the source text. -/
def C45_full (h : HTok) : Prop := h.type = .text → h.string = h.data

/-- **C45 is false.** `Token.String` escapes: the script text `a<b` is rendered `a&lt;b`. -/
theorem C45_violated : ¬ C45_full ⟨.text, .zero, str "a<b", []⟩ := by
  unfold C45_full; decide +kernel

/-- **C45 (partial).** Text without any of & ' < > " and carriage return is rendered as it is.
Missing: text with one of them, which changes (`C45_violated`). -/
theorem C45_html_text_verbatim_partial (h : HTok)
    (hd : ∀ b ∈ h.data, b ∉ str "&'<>\"\r") : C45_full h := by
  intro ht
  simp only [HTok.string, ht, htmlEscape]
  have hstr : str "&'<>\"\r" = [0x26, 0x27, 0x3C, 0x3E, 0x22, 0x0D] := by decide +kernel
  generalize h.data = d at hd
  induction d with
  | nil => rfl
  | cons b d ih =>
    rw [List.flatMap_cons, ih fun x hx => hd x (by simp [hx])]
    have := hd b (by simp)
    rw [hstr] at this
    simp only [List.mem_cons, List.not_mem_nil, or_false, not_or] at this
    simp [htmlEscapeByte, this]

example : (∀ b ∈ (str "plain text"), b ∉ str "&'<>\"\r") := by decide +kernel

/-- Escaping loses nothing: every change is at one of the six characters, and what any other byte
becomes is itself. -/
theorem C45_escape_bytewise (d : Bytes) :
    htmlEscape d = d.flatMap fun b =>
      ((List.lookup b [(0x26, str "&amp;"), (0x27, str "&#39;"), (0x3C, str "&lt;"),
        (0x3E, str "&gt;"), (0x22, str "&#34;"), (0x0D, str "&#13;")]).getD [b]) := by
  unfold htmlEscape
  congr 1
  funext b
  unfold htmlEscapeByte
  simp only [List.lookup_cons, List.lookup_nil]
  by_cases h1 : b = 0x26
  · simp [h1]
  by_cases h2 : b = 0x27
  · simp [h2]
  by_cases h3 : b = 0x3C
  · simp [h3]
  by_cases h4 : b = 0x3E
  · simp [h4]
  by_cases h5 : b = 0x22
  · simp [h5]
  by_cases h6 : b = 0x0D
  · simp [h6]
  simp [h1, h2, h3, h4, h5, h6, beq_eq_false_iff_ne.2]

/-! ### C46 -/

/-- **C46.** A document that ends normally ends the stream with nil for ever; any other tokenizer
error is returned after all tokens. -/
theorem C46_html_end (E : Env) (hE : E.Lawful) (events : List HTok) (final : Option Err)
    (htext : TextNonempty events) (hscan : TextScans E events) :
    ∃ toks, (final = none → (tokenizeHTML E events final).Yields toks .eof) ∧
      ∀ e, final = some e → (tokenizeHTML E events final).Yields toks (.fail e) := by
  obtain ⟨toks, h1, _⟩ := C45_html_text E hE events final htext hscan
  refine ⟨toks, ?_, ?_⟩
  · rintro rfl; exact h1
  · rintro e rfl; exact h1

/-- C46 also when the scanner fails in a text node: the first failing text node ends the stream with
its error; what precedes it is delivered. -/
theorem C46_html_scan_error (E : Env) (hE : E.Lawful) (a b : List HTok) (h : HTok) (e : Err)
    (final : Option Err) (htext : TextNonempty (a ++ h :: b)) (hscan : TextScans E a)
    (ha : ∀ h ∈ a, h.opensRaw = false) (ht : h.type = .text)
    (he : (E.scan { data := h.string }).2 = some e) :
    (tokenizeHTML E (a ++ h :: b) final).Yields
      (a.flatMap (htmlToken E) ++ segTokens E.U (E.scan { data := h.string }).1) (.fail e) := by
  have h1 := html_yields hE _ final htext
  rw [htmlActual_plain a _ final ha hscan] at h1
  have : htmlActual E false (h :: b) final =
      (segTokens E.U (E.scan { data := h.string }).1, .fail e) := by
    rw [htmlActual, if_pos ht]
    cases hs : E.scan { data := h.string } with
    | mk segs e' =>
      rw [hs] at he
      simp only at he
      subst he
      simp
  rwa [this] at h1

end Jargon
