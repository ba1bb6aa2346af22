import Verif.Props.Html
import Verif.Proofs.HtmlReadable

/-! C81, C85, C99: what TokenizeHTML does to the text of a document. -/

namespace Jargon

variable [HtmlReader]

theorem ReadableFrom.mem {ctx : Option Bytes} {d : Bool} {hs : List HTok} (h : ReadableFrom ctx d hs) :
    ∀ x ∈ hs, Readable x := by
  induction hs generalizing ctx d with
  | nil => simp
  | cons y ys ih =>
    intro x hx
    rcases List.mem_cons.mp hx with rfl | hx
    · exact h.1
    · exact ih h.2.2.2 x hx

theorem textNonempty_readable {hs : List HTok} (h : ReadableDoc hs) : TextNonempty hs := by
  intro x hx ht
  have := h.mem x hx
  simp only [Readable, ht] at this
  exact this.1

theorem textNonempty_tokens (s : Bytes) : TextNonempty (htmlTokens s) :=
  textNonempty_readable (htmlTokens_readable s)

omit [HtmlReader] in
theorem escapeRaw_none {hs : List HTok} (h : NoRawText hs) : escapeRaw none hs = hs := by
  induction hs with
  | nil => rfl
  | cons x xs ih =>
    have e : rawAfter none x = none := by simp [rawAfter, h x (by simp)]
    rw [escapeRaw, e, if_neg (by simp), ih fun y hy => h y (by simp [hy])]

omit [HtmlReader] in
/-- The six bytes that `html.EscapeString` replaces. -/
def escapedBytes : List UInt8 := [0x26, 0x27, 0x3C, 0x3E, 0x22, 0x0D]

omit [HtmlReader] in
theorem htmlEscape_self {d : Bytes} : htmlEscape d = d ↔ ∀ b ∈ d, b ∉ escapedBytes := by
  have len : ∀ d : Bytes, d.length ≤ (htmlEscape d).length := by
    intro d
    induction d with
    | nil => simp
    | cons b d ih =>
      have : htmlEscape (b :: d) = htmlEscapeByte b ++ htmlEscape d := by simp [htmlEscape]
      rw [this]
      rcases htmlEscapeByte_eq b with ⟨e, he, h⟩ | ⟨-, -, -, -, h⟩ <;> rw [h] <;> simp <;> omega
  induction d with
  | nil => simp [htmlEscape]
  | cons b d ih =>
    have hc : htmlEscape (b :: d) = htmlEscapeByte b ++ htmlEscape d := by simp [htmlEscape]
    rw [hc]
    by_cases hb : b ∈ escapedBytes
    · have : 1 < (htmlEscapeByte b).length := by
        have key : ∀ b ∈ escapedBytes, 1 < (htmlEscapeByte b).length := by decide +kernel
        exact key b hb
      constructor
      · intro h
        have := congrArg List.length h
        have := len d
        simp at *
        omega
      · intro h
        exact absurd hb (h b (by simp))
    · have : htmlEscapeByte b = [b] := by
        simp only [escapedBytes, List.mem_cons, List.not_mem_nil, or_false, not_or] at hb
        obtain ⟨h1, h2, h3, h4, h5, h6⟩ := hb
        simp [htmlEscapeByte, h1, h2, h3, h4, h5, h6]
      rw [this]
      simp [ih, hb]

omit [HtmlReader] in
theorem rawContents_escape (hs : List HTok) (ctx : Option Bytes) :
    rawContents ctx (escapeRaw ctx hs) = (rawContents ctx hs).map htmlEscape := by
  induction hs generalizing ctx with
  | nil => rfl
  | cons h hs ih =>
    rw [escapeRaw, rawContents, rawContents]
    by_cases hc : h.type = .text ∧ ∃ name ∈ ctx, rcdataNames.contains name = false
    · have e : rawAfter ctx { h with data := htmlEscape h.data } = rawAfter ctx h := by
        simp [rawAfter, hc.1]
      rw [if_pos hc, e, ih, if_pos hc, if_pos ⟨hc.1, hc.2⟩]
      simp
    · rw [if_neg hc, ih, if_neg hc]
      simp

/-- The full statement of C81: the text of the tokens is the document. -/
def C81_full (E : Env) (doc : Bytes) : Prop :=
  ∃ toks, (tokenizeHTML E (htmlTokens doc) none).Yields toks .eof ∧ text toks = doc

omit [HtmlReader] in
/-- **C81 is false.** Of the document `<P>` the only token is `<p>`: tags are written anew. -/
theorem C81_violated : ¬ @C81_full sampleReader sampleEnv (str "<P>") := by
  letI := sampleReader
  rintro ⟨toks, h1, h2⟩
  have h3 := C43_html_tags_only sampleEnv sampleEnv_lawful (htmlTokens (str "<P>")) none (by decide +kernel)
  have := (h1.unique h3).1
  subst this
  revert h2
  decide +kernel

omit [HtmlReader] in
/-- **C81 is false for attributes and character references too**: `<a href=x>` becomes `<a href="x">`, and
the text `"` becomes `&#34;`. -/
theorem C81_violated_attribute :
    letI := sampleReader
    (htmlTokens (str "<a href=x>")).flatMap HTok.string = str "<a href=\"x\">" ∧
    (htmlTokens (str "\"")).flatMap HTok.string = str "&#34;" := by
  decide +kernel

theorem kept_of_type {h : HTok} (h1 : h.type ≠ .comment) (h2 : h.type ≠ .doctype) : Kept h := by
  unfold Kept
  split
  · exact absurd ‹_› h1
  · exact absurd ‹_› h2
  · trivial

theorem html_reads_back (E : Env) (hE : E.Lawful) (hs : List HTok) (h : ReadableDoc hs)
    (hk : ∀ h ∈ hs, Kept h) (hscan : TextScans E hs) :
    ∃ toks, (tokenizeHTML E hs none).Yields toks .eof ∧ text toks = hs.flatMap HTok.string ∧
      htmlTokens (text toks) = escapeRaw none hs := by
  obtain ⟨toks, h1, h2⟩ := C45_html_text E hE hs none (textNonempty_readable h) hscan
  have h3 : text toks = hs.flatMap HTok.string := h2
  exact ⟨toks, h1, h3, by rw [h3]; exact htmlTokens_render _ h hk⟩

/-- **C81 (the document is the same).** For every text of a document whose comments and doctypes can be written as
they are: read as HTML, the text of its tokens is the same sequence of tags with the same attributes, comments,
doctypes and texts as the document. In particular nothing in an attribute value or a text can become a tag. For
other comments see `C99_violated`, for elements with raw text `C85_escaped`. -/
theorem C81_reads_back (E : Env) (hE : E.Lawful) (doc : Bytes) (hscan : TextScans E (htmlTokens doc))
    (hkept : ∀ h ∈ htmlTokens doc, Kept h) (hraw : NoRawText (htmlTokens doc)) :
    ∃ toks, (tokenizeHTML E (htmlTokens doc) none).Yields toks .eof ∧
      htmlTokens (text toks) = htmlTokens doc := by
  obtain ⟨toks, h1, -, h3⟩ := html_reads_back E hE _ (htmlTokens_readable doc) hkept hscan
  exact ⟨toks, h1, by rw [h3, escapeRaw_none hraw]⟩

/-- **C81 (any tokens).** The same for any sequence of HTML tokens as a reader of HTML delivers it. -/
theorem C81_reads_back_tokens (E : Env) (hE : E.Lawful) (hs : List HTok) (h : ReadableDoc hs)
    (hkept : ∀ h ∈ hs, Kept h) (hscan : TextScans E hs) (hraw : NoRawText hs) :
    ∃ toks, (tokenizeHTML E hs none).Yields toks .eof ∧ htmlTokens (text toks) = hs := by
  obtain ⟨toks, h1, -, h3⟩ := html_reads_back E hE _ h hkept hscan
  exact ⟨toks, h1, by rw [h3, escapeRaw_none hraw]⟩

/-- **C81 (partial).** A document that is written the way TokenizeHTML writes is left verbatim: the text of
the tokens of any document, tokenized again, stays as it is. Missing: other ways of writing tags and
characters, which are not kept (`C81_violated`), and raw text and some comments, where it is false too
(`C85_violated`, `C99_violated`). -/
theorem C81_verbatim_partial (E : Env) (hE : E.Lawful) (doc : Bytes) (hs : List HTok) (h : ReadableDoc hs)
    (hkept : ∀ h ∈ hs, Kept h) (hdoc : doc = hs.flatMap HTok.string) (hscan : TextScans E hs) (hraw : NoRawText hs) :
    C81_full E doc := by
  have hd : htmlTokens doc = hs := by rw [hdoc, htmlTokens_render _ h hkept, escapeRaw_none hraw]
  obtain ⟨toks, h1, h2, -⟩ := html_reads_back E hE _ h hkept hscan
  refine ⟨toks, ?_, by rw [h2, hdoc]⟩
  rw [hd]
  exact h1

/-! ### C85 -/

/-- The full statement of C85: the scripts and style sheets of the output are those of the document. -/
def C85_full (E : Env) (doc : Bytes) : Prop :=
  ∃ toks, (tokenizeHTML E (htmlTokens doc) none).Yields toks .eof ∧ scripts (text toks) = scripts doc

/-- **C85 (what happens instead).** For every document whose comments can be written as they are: read as HTML, the text of the tokens of TokenizeHTML
is the document, with every script, style sheet and other raw text escaped as if it were HTML, and nothing
else changed. -/
theorem C85_escaped (E : Env) (hE : E.Lawful) (doc : Bytes) (hscan : TextScans E (htmlTokens doc))
    (hkept : ∀ h ∈ htmlTokens doc, Kept h) :
    ∃ toks, (tokenizeHTML E (htmlTokens doc) none).Yields toks .eof ∧
      htmlTokens (text toks) = escapeRaw none (htmlTokens doc) ∧
      scripts (text toks) = (scripts doc).map htmlEscape := by
  obtain ⟨toks, h1, -, h3⟩ := html_reads_back E hE _ (htmlTokens_readable doc) hkept hscan
  exact ⟨toks, h1, h3, by rw [scripts, h3, rawContents_escape]; rfl⟩

/-- **C85 (partial, exactly).** The scripts and style sheets of a document are kept if and only if there is no
ampersand, quotation mark, apostrophe, `<`, `>` or carriage return in them. -/
theorem C85_kept_partial (E : Env) (hE : E.Lawful) (doc : Bytes) (hscan : TextScans E (htmlTokens doc))
    (hkept : ∀ h ∈ htmlTokens doc, Kept h) :
    C85_full E doc ↔ ∀ d ∈ scripts doc, ∀ b ∈ d, b ∉ escapedBytes := by
  obtain ⟨toks, h1, -, h3⟩ := C85_escaped E hE doc hscan hkept
  have key : C85_full E doc ↔ (scripts doc).map htmlEscape = scripts doc := by
    constructor
    · rintro ⟨toks', g1, g2⟩
      have := (h1.unique g1).1
      subst this
      rw [← h3, g2]
    · intro h
      exact ⟨toks, h1, by rw [h3, h]⟩
  rw [key]
  generalize scripts doc = l
  induction l with
  | nil => simp
  | cons d l ih => simp [htmlEscape_self, ih]

omit [HtmlReader]

/-- A script with a comparison. -/
def scriptDoc : Bytes := str "<SCRIPT>if (a<b) f();</Script ><p>1&lt;2</p>"

/-- **C85 is false.** The script `if (a<b) f();` becomes `if (a&lt;b) f();`, another program. -/
theorem C85_violated : letI := sampleReader
    scripts scriptDoc = [str "if (a<b) f();"] ∧ ¬ C85_full sampleEnv scriptDoc ∧
    ∃ toks, (tokenizeHTML sampleEnv (htmlTokens scriptDoc) none).Yields toks .eof ∧
      text toks = str "<script>if (a&lt;b) f();</script><p>1&lt;2</p>" := by
  letI := sampleReader
  have hk : ∀ h ∈ htmlTokens scriptDoc, Kept h := by
    have : ∀ h ∈ htmlTokens scriptDoc, h.type ≠ .comment ∧ h.type ≠ .doctype := by decide +kernel
    exact fun h hh => kept_of_type (this h hh).1 (this h hh).2
  refine ⟨by decide +kernel, ?_, ?_⟩
  · rw [C85_kept_partial _ sampleEnv_lawful _ (fun _ _ _ => rfl) hk]
    decide +kernel
  · obtain ⟨toks, h1, h2, -⟩ := html_reads_back _ sampleEnv_lawful _ (htmlTokens_readable scriptDoc) hk
      (fun _ _ _ => rfl)
    exact ⟨toks, h1, by rw [h2]; decide +kernel⟩

/-- A script and a style sheet that are kept; a title is read with its character references. -/
example : letI := sampleReader
    scripts (str "<title>a &amp; b</title><style>p{a:b}</style><script>x=1</script>") =
      [str "p{a:b}", str "x=1"] ∧
    htmlTokens (str "<title>a &amp; b</title>") =
      [⟨.startTag, .other 0, str "title", []⟩, ⟨.text, .zero, str "a & b", []⟩,
       ⟨.endTag, .other 0, str "title", []⟩] ∧
    (∀ d ∈ scripts (str "<style>p{a:b}</style><script>x=1</script>"), ∀ b ∈ d, b ∉ escapedBytes) := by
  decide +kernel

/-- An end tag in a comment in a script, and one that is written otherwise. -/
example : letI := sampleReader
    scripts (str "<script><!--<script></script>--></script>") = [str "<!--<script></script>-->"] ∧
    scripts (str "<script></scripts></script/>") = [str "</scripts>"] ∧
    scripts (str "<plaintext></plaintext>") = [str "</plaintext>"] := by
  decide +kernel

/-- A document with an attribute value that tries to end its tag. -/
def trickyDoc : Bytes := str "<p title='\"><b>'>1 &lt; 2<br/></p><!-- a -- b -->"

example : letI := sampleReader
    NoRawText (htmlTokens trickyDoc) ∧ TextScans sampleEnv (htmlTokens trickyDoc) ∧
    htmlTokens trickyDoc =
      [⟨.startTag, .other 0, str "p", [(str "title", str "\"><b>")]⟩, ⟨.text, .zero, str "1 < 2", []⟩,
       ⟨.selfClosing, .other 0, str "br", []⟩, ⟨.endTag, .other 0, str "p", []⟩,
       ⟨.comment, .zero, str " a -- b ", []⟩] ∧
    (htmlTokens trickyDoc).flatMap HTok.string =
      str "<p title=\"&#34;&gt;&lt;b&gt;\">1 &lt; 2<br/></p><!-- a -- b -->" :=
  ⟨by unfold NoRawText; decide +kernel, fun _ _ _ => rfl, by decide +kernel, by decide +kernel⟩

example [HtmlReader] : ReadableDoc (htmlTokens trickyDoc) := htmlTokens_readable _

theorem trickyDoc_kept : letI := sampleReader; ∀ h ∈ htmlTokens trickyDoc, Kept h := by
  letI := sampleReader
  have : ∀ h ∈ htmlTokens trickyDoc, (h.type = .comment → h.data = str " a -- b ") ∧ h.type ≠ .doctype := by
    decide +kernel
  intro h hh
  by_cases ht : h.type = .comment
  · simp only [Kept, ht, (this h hh).1 ht, CommentKept]
    decide +kernel
  · exact kept_of_type ht (this h hh).2

/-! ### C99 -/

/-- The tags of a document, with their attributes. -/
def tagsOf (hs : List HTok) : List HTok :=
  hs.filter fun h => h.type == .startTag || h.type == .selfClosing || h.type == .endTag

theorem tagsOf_escapeRaw (hs : List HTok) (ctx : Option Bytes) : tagsOf (escapeRaw ctx hs) = tagsOf hs := by
  induction hs generalizing ctx with
  | nil => rfl
  | cons h hs ih =>
    have ih := ih (rawAfter ctx h)
    unfold tagsOf at ih ⊢
    rw [escapeRaw, List.filter_cons, List.filter_cons, ih]
    by_cases hc : h.type = .text ∧ ∃ name ∈ ctx, rcdataNames.contains name = false
    · rw [if_pos hc]
      simp [hc.1]
    · rw [if_neg hc]

/-- The full statement of C99: what TokenizeHTML makes of a document has, read as HTML, the tags of the document. -/
def C99_full [HtmlReader] (E : Env) (doc : Bytes) : Prop :=
  ∃ toks, (tokenizeHTML E (htmlTokens doc) none).Yields toks .eof ∧
    tagsOf (htmlTokens (text toks)) = tagsOf (htmlTokens doc)

/-- **C99 (partial).** It has, for every document whose comments and doctypes can be written as they are. Missing:
other comments and doctypes, where it is false (`C99_violated`). -/
theorem C99_tags_partial [HtmlReader] (E : Env) (hE : E.Lawful) (doc : Bytes) (hscan : TextScans E (htmlTokens doc))
    (hkept : ∀ h ∈ htmlTokens doc, Kept h) : C99_full E doc := by
  obtain ⟨toks, h1, h2, -⟩ := C85_escaped E hE doc hscan hkept
  exact ⟨toks, h1, by rw [h2, tagsOf_escapeRaw]⟩

/-- Non-vacuity: a document with a comment that can be written as it is. -/
example : letI := sampleReader; C99_full sampleEnv trickyDoc := by
  letI := sampleReader
  exact C99_tags_partial _ sampleEnv_lawful _ (fun _ _ _ => rfl) trickyDoc_kept

/-- A comment with a character reference. -/
def commentDoc : Bytes := str "<!--&gt;<b>-->"

theorem html_text_eq [HtmlReader] (E : Env) (hE : E.Lawful) (doc : Bytes) (hscan : TextScans E (htmlTokens doc)) {toks}
    (h : (tokenizeHTML E (htmlTokens doc) none).Yields toks .eof) :
    text toks = (htmlTokens doc).flatMap HTok.string := by
  obtain ⟨toks', h1, h2⟩ := C45_html_text E hE _ none (textNonempty_tokens doc) hscan
  rw [(h.unique h1).1]
  exact h2

/-- **C99 is false: a comment becomes a tag.** In `<!--&gt;<b>-->` there is nothing but a comment; what TokenizeHTML
makes of it is `<!--><b>-->`, where the comment is empty, and a tag follows it. -/
theorem C99_violated : letI := sampleReader
    tagsOf (htmlTokens commentDoc) = [] ∧ ¬ C99_full sampleEnv commentDoc ∧
    (htmlTokens commentDoc).flatMap HTok.string = str "<!--><b>-->" ∧
    htmlTokens (str "<!--><b>-->") =
      [⟨.comment, .zero, [], []⟩, ⟨.startTag, .other 0, str "b", []⟩, ⟨.text, .zero, str "-->", []⟩] := by
  letI := sampleReader
  refine ⟨by decide +kernel, ?_, by decide +kernel, by decide +kernel⟩
  rintro ⟨toks, h1, h2⟩
  rw [html_text_eq _ sampleEnv_lawful _ (fun _ _ _ => rfl) h1] at h2
  revert h2
  decide +kernel

/-- **C99 is false for doctypes too**, and a tag can get lost: `<!DOCTYPE a&gt;<b>` becomes `<!DOCTYPE a><b>`, and what
follows `<?--!>` becomes a part of the comment. -/
theorem C99_violated_doctype : letI := sampleReader
    ¬ C99_full sampleEnv (str "<!DOCTYPE a&gt;<b>") ∧ ¬ C99_full sampleEnv (str "<?--!><b>") := by
  letI := sampleReader
  refine ⟨?_, ?_⟩
  · rintro ⟨toks, h1, h2⟩
    rw [html_text_eq _ sampleEnv_lawful _ (fun _ _ _ => rfl) h1] at h2
    revert h2
    decide +kernel
  · rintro ⟨toks, h1, h2⟩
    rw [html_text_eq _ sampleEnv_lawful _ (fun _ _ _ => rfl) h1] at h2
    revert h2
    decide +kernel

end Jargon
