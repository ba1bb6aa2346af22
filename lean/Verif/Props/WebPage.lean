import Verif.Props.Web
import Verif.Props.CliTags
import Verif.Props.Lines
import Verif.Proofs.HtmlFill

/-! C103: the page the web demo answers with, read as a browser reads it. -/

namespace Jargon

/-! ### What it should be -/

/-- A tag named in a text: the text before it (from the last one on), how it is written, and the tag. -/
structure Mention where
  before : Bytes
  written : Bytes
  tag : Bytes

/-- No synonym starts with the first of these tokens. -/
def StartsNone (C : Compare) (D : Dict) (maxWords : Nat) (toks : List Token) : Prop :=
  ∀ t ∈ toks.head?, t.IsWord → ∀ k, Admissible maxWords toks k → D (C.spell (toks.take k)) = none

/-- The synonyms in some tokens, reading from left to right and taking the longest at each word, and the text after
the last of them. -/
inductive Mentions (C : Compare) (D : Dict) (maxWords : Nat) : List Token → List Mention → Bytes → Prop
  /-- no synonym starts anywhere -/
  | done {toks : List Token} : (∀ i < toks.length, StartsNone C D maxWords (toks.drop i)) →
      Mentions C D maxWords toks [] (text toks)
  /-- the first synonym starts at `t`, and is `k` tokens long -/
  | next {pre ts : List Token} {t : Token} {k : Nat} {c rest : Bytes} {ms : List Mention} :
      (∀ i < pre.length, StartsNone C D maxWords ((pre ++ t :: ts).drop i)) → t.IsWord →
      Longest C D (Admissible maxWords (t :: ts)) (t :: ts) k c →
      Mentions C D maxWords ((t :: ts).drop k) ms rest →
      Mentions C D maxWords (pre ++ t :: ts) (⟨text pre, text ((t :: ts).take k), c⟩ :: ms) rest

/-- What HTML shows of a text: line ends are line feeds, and NUL is shown as U+FFFD. -/
def asShown (s : Bytes) : Bytes := showNul (convertNewlines s)

/-- The text token for a text, if it is not empty. -/
def shownText (s : Bytes) : List HTok :=
  if s = [] then [] else [{ type := .text, dataAtom := .zero, data := asShown s }]

/-- `<span class="lemma">` -/
def spanTag : HTok :=
  { type := .startTag, dataAtom := .other 0, data := str "span", attr := [(str "class", str "lemma")] }

/-- `</span>` -/
def spanEnd : HTok := { type := .endTag, dataAtom := .other 0, data := str "span" }

/-- A page that shows a text with each tag named in it replaced by the tag, in a `span`. -/
def shownPage (ms : List Mention) (rest : Bytes) : List HTok :=
  ms.flatMap (fun m => shownText m.before ++ spanTag :: shownText m.tag ++ [spanEnd]) ++ shownText rest

/-! ### Reading what the templates write -/

section
variable [HtmlReader]

omit [HtmlReader] in
theorem templateEscape_cons (b : UInt8) (d : Bytes) :
    templateEscape (b :: d) = templateEscapeByte b ++ templateEscape d := by simp [templateEscape]

omit [HtmlReader] in
theorem templateEscape_append (a b : Bytes) : templateEscape (a ++ b) = templateEscape a ++ templateEscape b := by
  simp [templateEscape]

theorem charRef_plus (f : Bool) (s : Bytes) : charRef f (0x23 :: 0x34 :: 0x33 :: 0x3B :: s) = ([0x2B], 4) := by
  have h1 : (digitOf false 0x34).isSome := by decide
  have h2 : (digitOf false 0x33).isSome := by decide
  have h6 : (digitOf false 0x3B).isSome = false := by decide
  have h5 : encodeRune (numericRune false [0x34, 0x33]) = [0x2B] := by decide +kernel
  simp [charRef, numericRef, h1, h2, h5, h6]

theorem templateEscapeByte_eq (b : UInt8) :
    (b = 0 ∧ templateEscapeByte b = [0xEF, 0xBF, 0xBD]) ∨
    (b ≠ 0 ∧ b ≠ 0x0D ∧ b ≠ 0x0A ∧ ∃ e, templateEscapeByte b = 0x26 :: e ∧ 0x0D ∉ e ∧ 0x3C ∉ e ∧
      ∀ s, charRef false (e ++ s) = ([b], e.length)) ∨
    (b ≠ 0 ∧ b ≠ 0x26 ∧ b ≠ 0x3C ∧ templateEscapeByte b = [b]) := by
  have e1 : str "&#34;" = 0x26 :: [0x23, 0x33, 0x34, 0x3B] := by decide +kernel
  have e2 : str "&amp;" = 0x26 :: [0x61, 0x6D, 0x70, 0x3B] := by decide +kernel
  have e3 : str "&#39;" = 0x26 :: [0x23, 0x33, 0x39, 0x3B] := by decide +kernel
  have e4 : str "&#43;" = 0x26 :: [0x23, 0x34, 0x33, 0x3B] := by decide +kernel
  have e5 : str "&lt;" = 0x26 :: [0x6C, 0x74, 0x3B] := by decide +kernel
  have e6 : str "&gt;" = 0x26 :: [0x67, 0x74, 0x3B] := by decide +kernel
  unfold templateEscapeByte
  rw [e1, e2, e3, e4, e5, e6]
  by_cases h0 : b = 0
  · left; simp [h0]
  right
  by_cases h1 : b = 0x22
  · subst h1; left; exact ⟨by decide, by decide, by decide, _, rfl, by decide, by decide,
      charRef_ref false (by simp [references_eq])⟩
  by_cases h2 : b = 0x26
  · subst h2; left; exact ⟨by decide, by decide, by decide, _, rfl, by decide, by decide,
      charRef_ref false (by simp [references_eq])⟩
  by_cases h3 : b = 0x27
  · subst h3; left; exact ⟨by decide, by decide, by decide, _, rfl, by decide, by decide,
      charRef_ref false (by simp [references_eq])⟩
  by_cases h4 : b = 0x2B
  · subst h4; left; exact ⟨by decide, by decide, by decide, _, rfl, by decide, by decide,
      charRef_plus false⟩
  by_cases h5 : b = 0x3C
  · subst h5; left; exact ⟨by decide, by decide, by decide, _, rfl, by decide, by decide,
      charRef_ref false (by simp [references_eq])⟩
  by_cases h6 : b = 0x3E
  · subst h6; left; exact ⟨by decide, by decide, by decide, _, rfl, by decide, by decide,
      charRef_ref false (by simp [references_eq])⟩
  right
  simp [h0, h1, h2, h3, h4, h5, h6]

theorem templateEscape_free (d : Bytes) : 0x3C ∉ templateEscape d := by
  intro h
  obtain ⟨b, -, hb⟩ := List.mem_flatMap.mp h
  rcases templateEscapeByte_eq b with ⟨-, h⟩ | ⟨-, -, -, e, h, -, h3, -⟩ | ⟨-, -, h3, h⟩
  · rw [h] at hb; revert hb; decide
  · rw [h] at hb
    simp only [List.mem_cons] at hb
    rcases hb with hb | hb
    · revert hb; decide
    · exact h3 hb
  · rw [h, List.mem_singleton] at hb
    exact h3 hb.symm

omit [HtmlReader] in
theorem convertNewlines_prefix {a : Bytes} (h : 0x0D ∉ a) (s : Bytes) :
    convertNewlines (a ++ s) = a ++ convertNewlines s := by
  induction a with
  | nil => rfl
  | cons b a ih =>
    simp only [List.mem_cons, not_or] at h
    rw [List.cons_append]
    cases hs : a ++ s with
    | nil =>
      obtain ⟨rfl, rfl⟩ := List.append_eq_nil_iff.mp hs
      simp [convertNewlines, Ne.symm h.1]
    | cons c t =>
      rw [convertNewlines, if_neg (Ne.symm h.1), ← hs, ih h.2]
      rfl

theorem convertNewlines_escape (d : Bytes) :
    convertNewlines (templateEscape d) = templateEscape (convertNewlines d) := by
  induction d with
  | nil => rfl
  | cons b d ih =>
    by_cases hb : b = 0x0D
    · subst hb
      have hcr : templateEscapeByte 0x0D = [0x0D] := by decide +kernel
      have hlf : templateEscapeByte 0x0A = [0x0A] := by decide +kernel
      rw [templateEscape_cons, hcr, List.singleton_append]
      cases d with
      | nil => decide +kernel
      | cons c d =>
        by_cases hc : c = 0x0A
        · subst hc
          rw [templateEscape_cons, hlf, List.singleton_append, convertNewlines, if_pos rfl, if_pos rfl,
            convertNewlines, if_pos rfl, if_pos rfl, ← ih, templateEscape_cons, hlf, List.singleton_append]
        · have : ∃ x t, templateEscape (c :: d) = x :: t ∧ x ≠ 0x0A := by
            rw [templateEscape_cons]
            rcases templateEscapeByte_eq c with ⟨-, h⟩ | ⟨-, -, -, e, h, -⟩ | ⟨-, -, -, h⟩ <;> rw [h]
            · exact ⟨_, _, rfl, by decide⟩
            · exact ⟨_, _, rfl, by decide⟩
            · exact ⟨_, _, rfl, hc⟩
          obtain ⟨x, t, hx, hne⟩ := this
          rw [hx, convertNewlines, if_pos rfl, if_neg hne, convertNewlines, if_pos rfl, if_neg hc, ← hx, ih,
            templateEscape_cons, hlf]
          rfl
    · have h1 : 0x0D ∉ templateEscapeByte b := by
        rcases templateEscapeByte_eq b with ⟨-, h⟩ | ⟨-, -, -, e, h, h3, -⟩ | ⟨-, -, -, h⟩ <;> rw [h]
        · decide
        · simp [h3]
        · simpa using Ne.symm hb
      have h2 : convertNewlines (b :: d) = b :: convertNewlines d :=
        convertNewlines_prefix (a := [b]) (by simpa using Ne.symm hb) d
      rw [templateEscape_cons, convertNewlines_prefix h1, ih, h2, templateEscape_cons]

theorem resolve_templateEscape (d : Bytes) : resolve false 0 (templateEscape d) = showNul d := by
  suffices H : ∀ s, resolve false 0 (templateEscape d ++ s) = showNul d ++ resolve false 0 s by
    have := H []
    simpa [resolve] using this
  intro s
  induction d with
  | nil => rfl
  | cons b d ih =>
    have hs : showNul (b :: d) = (if b = 0 then [0xEF, 0xBF, 0xBD] else [b]) ++ showNul d := by simp [showNul]
    rw [templateEscape_cons, List.append_assoc, hs]
    rcases templateEscapeByte_eq b with ⟨h0, h⟩ | ⟨h0, -, -, e, h, -, -, h4⟩ | ⟨h0, h1, -, h⟩
    · rw [h, if_pos h0]
      simp [resolve, ih]
    · rw [h, if_neg h0, List.cons_append, resolve, if_pos rfl, h4]
      simp [resolve_skip, ih]
    · rw [h, if_neg h0, List.singleton_append, resolve, if_neg h1, ih]
      rfl

theorem cookText_templateEscape (d : Bytes) : cookText (templateEscape d) = asShown d := by
  rw [cookText, convertNewlines_escape, resolve_templateEscape, asShown]

theorem templateEscape_nil {d : Bytes} : templateEscape d = [] ↔ d = [] := by
  cases d with
  | nil => simp [templateEscape]
  | cons b d =>
    rw [templateEscape_cons]
    rcases templateEscapeByte_eq b with ⟨-, h⟩ | ⟨-, -, -, e, h, -⟩ | ⟨-, -, -, h⟩ <;> rw [h] <;> simp

theorem textEvent_templateEscape (d : Bytes) : textEvent (templateEscape d) = shownText d := by
  rw [textEvent, shownText, cookText_templateEscape]
  simp only [templateEscape_nil]

/-- What the demo writes for mentions and a rest. -/
def writtenPage (ms : List Mention) (rest : Bytes) : Bytes :=
  ms.flatMap (fun m => templateEscape m.before ++ (str "<span class=\"lemma\">" ++ templateEscape m.tag ++
    str "</span>")) ++ templateEscape rest

omit [HtmlReader] in
theorem spanTag_string : spanTag.string = str "<span class=\"lemma\">" ∧ spanEnd.string = str "</span>" := by
  decide +kernel

theorem span_readable : Readable spanTag ∧ Readable spanEnd := by
  have hn : NameLike (str "span") := by unfold NameLike; decide +kernel
  have hl : ∃ b ∈ (str "span").head?, isTagLetter b := ⟨0x73, by decide +kernel, by decide⟩
  have ha : AttrName (str "class") := by
    refine ⟨by decide +kernel, ?_, by decide +kernel, fun _ => by decide +kernel⟩
    unfold NameLike; decide +kernel
  have hat : Atom.other 0 = atomOf (str "span") := by decide +kernel
  exact ⟨⟨hat, hn, hl, by simpa [spanTag] using ha⟩, ⟨rfl, hat, hn, hl⟩⟩

theorem run_templateEscape (raw s rest : Bytes) :
    DocReading.run (.html (.text raw)) (templateEscape s ++ rest) =
      DocReading.run (.html (.text (raw ++ templateEscape s))) rest := by
  have h := Reading.steps_text raw _ (templateEscape_free s)
  rw [run_steps _ _ _ (by rw [h]; simp), h]
  rfl

/-- A page of mentions is read as such. -/
theorem htmlTokens_written (ms : List Mention) (rest : Bytes) :
    htmlTokens (writtenPage ms rest) = shownPage ms rest := by
  induction ms with
  | nil =>
    rw [htmlTokens, writtenPage, shownPage, List.flatMap_nil, List.flatMap_nil, List.nil_append, List.nil_append,
      ← List.append_nil (templateEscape rest), run_templateEscape, DocReading.run, DocReading.finish, Reading.finish,
      List.nil_append, textEvent_templateEscape]
  | cons m ms ih =>
    have e : writtenPage (m :: ms) rest = templateEscape m.before ++ (spanTag.string ++ (templateEscape m.tag ++
        (spanEnd.string ++ writtenPage ms rest))) := by
      simp [writtenPage, spanTag_string.1, spanTag_string.2]
    have o1 : spanTag.opensRawText = false := by decide +kernel
    have o2 : spanEnd.opensRawText = false := by decide +kernel
    rw [htmlTokens, e, run_templateEscape, run_token _ span_readable.1 trivial (by decide), o1]
    simp only [Bool.false_eq_true, ↓reduceIte]
    rw [run_templateEscape, run_token _ span_readable.2 trivial (by decide), o2]
    simp only [Bool.false_eq_true, ↓reduceIte]
    rw [List.nil_append, List.nil_append, textEvent_templateEscape, textEvent_templateEscape]
    have := ih
    rw [htmlTokens] at this
    rw [this]
    simp [shownPage]

end

/-! ### The mentions -/

theorem Mentions.cons {C : Compare} {D : Dict} {m : Nat} {t : Token} {ts : List Token} {ms : List Mention}
    {rest : Bytes} (h0 : StartsNone C D m (t :: ts)) (h : Mentions C D m ts ms rest) :
    ∃ ms' rest', Mentions C D m (t :: ts) ms' rest' ∧
      writtenPage ms' rest' = templateEscape t.value ++ writtenPage ms rest ∧ ms'.map (·.tag) = ms.map (·.tag) ∧
      (ms'.flatMap fun x => x.before ++ x.written) ++ rest' =
        t.value ++ ((ms.flatMap fun x => x.before ++ x.written) ++ rest) := by
  cases h with
  | done h =>
    refine ⟨[], _, .done ?_, ?_, rfl, by simp [text]⟩
    · rintro (_ | i) hi
      · exact h0
      · exact h i (by simpa using hi)
    · simp [writtenPage, text, templateEscape]
  | @next pre ts u k c _ ms h hw hl h2 =>
    refine ⟨_, _, .next (pre := t :: pre) ?_ hw hl h2, ?_, rfl, by simp [text]⟩
    · rintro (_ | i) hi
      · exact h0
      · exact h i (by simpa using hi)
    · simp [writtenPage, text, templateEscape]

/-- The mentions are unique. -/
theorem Mentions.unique {C : Compare} {D : Dict} {m : Nat} {toks : List Token} {ms ms' : List Mention}
    {rest rest' : Bytes} (h : Mentions C D m toks ms rest) (h' : Mentions C D m toks ms' rest') :
    ms = ms' ∧ rest = rest' := by
  have clash : ∀ {toks pre ts : List Token} {t : Token} {k : Nat} {c : Bytes}, toks = pre ++ t :: ts →
      StartsNone C D m (toks.drop pre.length) → t.IsWord →
      Longest C D (Admissible m (t :: ts)) (t :: ts) k c → False := by
    rintro toks pre ts t k c rfl h hw hl
    rw [List.drop_left] at h
    have := h t (by simp) hw k hl.mem
    rw [hl.isSyn] at this
    cases this
  induction h generalizing ms' rest' with
  | done h =>
    generalize ht : ‹List Token› = toks at *
    cases h' with
    | done _ => exact ⟨rfl, rfl⟩
    | next _ hw hl _ => exact (clash rfl (h _ (by simp)) hw hl).elim
  | @next pre ts t k c rest ms h hw hl _ ih =>
    generalize ht : pre ++ t :: ts = toks at h' h
    cases h' with
    | done h' =>
      subst ht
      exact (clash rfl (h' _ (by simp)) hw hl).elim
    | @next pre' ts' t' k' c' _ ms' g gw gl g2 =>
      have hlen : pre.length = pre'.length := by
        rcases Nat.lt_trichotomy pre.length pre'.length with hlt | heq | hgt
        · exact (clash ht.symm (g _ hlt) hw hl).elim
        · exact heq
        · exact (clash rfl (h _ hgt) gw gl).elim
      obtain ⟨rfl, h3⟩ := List.append_inj ht hlen
      obtain ⟨rfl, rfl⟩ := List.cons.inj h3
      obtain ⟨rfl, rfl⟩ := hl.unique gl
      obtain ⟨rfl, rfl⟩ := ih g2
      exact ⟨rfl, rfl⟩

/-- Greedy replacement shows the mentions. -/
theorem Greedy.mentions {C : Compare} {D : Dict} {m : Nat} {toks out : List Token}
    (hD : ∀ q c, D q = some c → c ≠ []) (hin : ∀ t ∈ toks, t.lemma = false) (h : Greedy C D m toks out) :
    ∃ ms rest, Mentions C D m toks ms rest ∧ out.flatMap rendered = writtenPage ms rest ∧
      out.filter (fun t => decide (t.lemma = true)) = (ms.map (·.tag)).map (fun c => mkToken C.U c true) ∧
      text toks = (ms.flatMap fun x => x.before ++ x.written) ++ rest := by
  have step : ∀ {t : Token} {ts out : List Token} {ms : List Mention} {rest : Bytes}, t.lemma = false →
      StartsNone C D m (t :: ts) → Mentions C D m ts ms rest → out.flatMap rendered = writtenPage ms rest →
      out.filter (fun t => decide (t.lemma = true)) = (ms.map (·.tag)).map (fun c => mkToken C.U c true) →
      text ts = (ms.flatMap fun x => x.before ++ x.written) ++ rest →
      ∃ ms rest, Mentions C D m (t :: ts) ms rest ∧ (t :: out).flatMap rendered = writtenPage ms rest ∧
        (t :: out).filter (fun t => decide (t.lemma = true)) = (ms.map (·.tag)).map (fun c => mkToken C.U c true) ∧
        text (t :: ts) = (ms.flatMap fun x => x.before ++ x.written) ++ rest := by
    intro t ts out ms rest hl h0 h1 h2 h3 h4
    obtain ⟨ms', rest', g1, g2, g3, g4⟩ := h1.cons h0
    refine ⟨ms', rest', g1, ?_, ?_, ?_⟩
    · rw [List.flatMap_cons, h2, g2]
      simp [rendered, hl, plainTemplate, Token.string]
    · rw [List.filter_cons_of_neg (by simp [hl]), h3, g3]
    · rw [g4, ← h4]
      simp [text]
  induction h with
  | nil => exact ⟨[], [], .done (toks := []) (by simp), rfl, rfl, rfl⟩
  | separator hw _ ih =>
    obtain ⟨ms, rest, h1, h2, h3, h4⟩ := ih fun t ht => hin t (by simp [ht])
    exact step (hin _ (by simp)) (by
      intro x hx hxw
      simp only [List.head?_cons, Option.mem_some_iff] at hx
      exact absurd (hx ▸ hxw) hw) h1 h2 h3 h4
  | @replace t ts out k c hw hl _ ih =>
    obtain ⟨ms, rest, h1, h2, h3, h4⟩ := ih fun x hx => hin x (List.mem_of_mem_drop hx)
    have hc := hD _ _ hl.isSyn
    refine ⟨_, rest, .next (pre := []) (by simp) hw hl h1, ?_, ?_, ?_⟩
    · simp only [canonTokens, hc, ↓reduceIte, List.singleton_append, List.flatMap_cons, h2]
      simp [rendered, mkToken, lemmaTemplate, Token.string, writtenPage, text, templateEscape]
    · simp only [canonTokens, hc, ↓reduceIte, List.singleton_append, List.map_cons]
      rw [List.filter_cons_of_pos (by simp [mkToken]), h3]
    · rw [List.flatMap_cons]
      have : text (t :: ts) = text ((t :: ts).take k) ++ text ((t :: ts).drop k) := by
        rw [← text_append, List.take_append_drop]
      rw [this, h4]
      simp [text]
  | word hw hn _ ih =>
    obtain ⟨ms, rest, h1, h2, h3, h4⟩ := ih fun t ht => hin t (by simp [ht])
    exact step (hin _ (by simp)) (fun x _ _ k hk => hn k hk) h1 h2 h3 h4

/-! ### The answer -/

/-- The demo's answer to a request whose body gives tokens and no error. -/
theorem web_answer {E : Env} (hE : E.Lawful)
    (hs : ∀ m ∈ stackOverflowMappings, (E.scan { data := m.1 }).2 = none)
    {parse : HtmlParse} {r : Request} (hp : TextNonempty (parse r.body).1) (hm : r.method ≠ str "OPTIONS")
    {route : Bytes} {toks out : List Token} (hroute : IsRoute r.path route)
    (hr : routeStream E parse r.body route = some (toks, .eof))
    (hg : Greedy (tagCompare E) (tagDict E) (wordLimit (entries E stackOverflowMappings)) toks out) :
    mainHandler E parse r = Go.ret ⟨some 200, true, out.flatMap rendered⟩ := by
  obtain ⟨a, rest, hsp⟩ := (splitSlash_route _ _).mp hroute
  have key : ∃ x, jargonHandler E parse (cors {}) r = Go.ret x ∧
      x.finish = { (cors {}).writeHeader 200 with body := (cors {}).body ++ out.flatMap rendered } := by
    unfold jargonHandler
    rw [hsp]
    simp only
    unfold routeStream at hr
    split at hr
    · rename_i h1
      rw [if_pos h1]
      simp only [Option.some.injEq, Prod.mk.injEq] at hr
      have := webRespond_spec hE hs (tokenize_yields E hE r.body) (by rw [hr.1]; exact hg) (cors {})
      rw [hr.2] at this
      simpa using this
    · rename_i h1
      split at hr
      · rename_i h2
        rw [if_neg h1, if_pos h2]
        simp only [Option.some.injEq] at hr
        have hy := html_yields hE (parse r.body).1 (parse r.body).2 hp
        rw [hr] at hy
        simpa using webRespond_spec hE hs hy hg (cors {})
      · cases hr
  obtain ⟨x, hx, hf⟩ := key
  unfold mainHandler
  rw [if_neg hm, hx]
  simp only [Go.ret_bind, Go.pure_eq, hf]
  rfl

section
variable {E : Env} {cls : WordTable}

/-- A parser of HTML that reads the whole body. -/
def pageParse [HtmlReader] : HtmlParse := fun r => (htmlTokens r.data, r.err)

/-- **C103 (text).** For every request that sends a text without overlong words to the route `text`: the answer has
status 200, and a browser reads it as the text, with each tag named in it replaced by the tag in a
`<span class="lemma">`, and no other markup. `written` says that nothing of the text is left out; the tags are those
that `jargon -stack -lemmas -lines` prints. -/
theorem C103_text [HtmlReader] (hE : E.Lawful) (hF : E.FollowsUax29 cls) (hR : cls.Right) (hP : E.U.PunctLatin)
    {r : Request} {source : Bytes} (hm : r.method ≠ str "OPTIONS") (hroute : IsRoute r.path (str "text"))
    (hbody : r.body = { data := source }) (hlen : Fits cls source) :
    ∃ ms rest body, Mentions (tagCompare E) (tagDict E) 5 (stringTokens E source) ms rest ∧
      source = (ms.flatMap fun m => m.before ++ m.written) ++ rest ∧
      mainHandler E pageParse r = Go.ret ⟨some 200, true, body⟩ ∧ htmlTokens body = shownPage ms rest ∧
      TagsIn E source (ms.map (·.tag)) ∧
      Prints E (["-stack", "-lemmas", "-lines"].map str) source (asLines (ms.map (·.tag))) := by
  have hsc := hF source hlen
  obtain ⟨out, hg⟩ := Greedy.total (tagCompare E) (tagDict E) 5 (stringTokens E source)
  obtain ⟨ms, rest, h1, h2, h3, h4⟩ := hg.mentions (tagDict_ne_nil hP) (stringTokens_lemma source)
  obtain ⟨cs, h5, h6⟩ := hg.finds (tagDict_ne_nil hP) (stringTokens_lemma source)
  obtain ⟨cs', h7, h8, h9⟩ := C86_text hE hF hR hP hlen
  have e : cs = ms.map (·.tag) := mkToken_map_inj (h6.symm.trans h3)
  obtain rfl := h8 cs h5
  subst e
  have hlim : wordLimit (entries E stackOverflowMappings) = 5 := by
    rw [stackOverflow_rows]; exact so_limit_eq hF hR hP
  refine ⟨ms, rest, _, h1, ?_, web_answer hE (fun m hm => ((C76_scanner_laws hF hR).2.1 m hm).scans) (parse := pageParse) ?_ hm hroute
    (toks := stringTokens E source) ?_ (by rw [hlim]; exact hg), ?_, h5, h9⟩
  · rw [← h4, text_stringTokens hE (by rw [hsc])]
  · exact fun h hh ht => (readable_data (htmlTokens_readable _) h hh).text_ne ht
  · simp [routeStream, hbody, stringTokens, hsc, endOf]
  · rw [h2, htmlTokens_written]

/-- **C103 (pages).** For every request that sends a page whose texts have no overlong words to the route `html`: the
answer has status 200, and a browser shows the *source* of the page, as the tokenizer writes it, with the tags found
in it each in a `<span class="lemma">`, and no markup of the page itself. The tags are those that
`jargon -html -stack -lemmas -lines` prints. -/
theorem C103_html [HtmlReader] (hE : E.Lawful) (hF : E.FollowsUax29 cls) (hR : cls.Right) (hP : E.U.PunctLatin)
    {r : Request} {doc : Bytes} (hm : r.method ≠ str "OPTIONS") (hroute : IsRoute r.path (str "html"))
    (hbody : r.body = { data := doc }) (hlen : ∀ h ∈ htmlTokens doc, h.type = .text → Fits cls h.string) :
    ∃ ms rest body, (htmlTokens doc).flatMap HTok.string = (ms.flatMap fun m => m.before ++ m.written) ++ rest ∧
      mainHandler E pageParse r = Go.ret ⟨some 200, true, body⟩ ∧ htmlTokens body = shownPage ms rest ∧
      Prints E readmeArgs doc (asLines (ms.map (·.tag))) := by
  have hread := htmlTokens_readable doc
  have hne : TextNonempty (htmlTokens doc) := fun h hh ht => (readable_data hread h hh).text_ne ht
  obtain ⟨he, out, css, hg, hcs, hout⟩ := page_greedy hF hP (htmlTokens doc) false none false hread hlen
  obtain ⟨ms, rest, h1, h2, h3, h4⟩ := hg.mentions (tagDict_ne_nil hP) (htmlActual_unchanged E none _ _)
  have hy := html_yields hE (htmlTokens doc) none hne
  rw [he] at hy
  have hlim : wordLimit (entries E stackOverflowMappings) = 5 := by
    rw [stackOverflow_rows]; exact so_limit_eq hF hR hP
  refine ⟨ms, rest, _, ?_, web_answer hE (fun m hm => ((C76_scanner_laws hF hR).2.1 m hm).scans) (parse := pageParse) ?_ hm hroute
    (toks := (htmlActual E false (htmlTokens doc) none).1) ?_ (by rw [hlim]; exact hg), ?_, ?_⟩
  · obtain ⟨toks, g1, g2⟩ := C45_html_text E hE (htmlTokens doc) none hne
      (fun h hh ht => by rw [hF _ (hlen h hh ht)])
    obtain ⟨rfl, -⟩ := hy.unique g1
    rw [← g2, ← h4]
    rfl
  · exact fun h hh ht => (readable_data (htmlTokens_readable _) h hh).text_ne ht
  · rw [routeStream, if_neg (by decide +kernel), if_pos rfl, hbody]
    simp only [pageParse]
    rw [Option.some.injEq, Prod.ext_iff]
    exact ⟨rfl, he⟩
  · rw [h2, htmlTokens_written]
  · have h5 := fun sb => stack_lemmas hE hF hR hP hy hg sb
    simp only [h3] at h5
    have := prints_yields (E := E) (input := doc) (args := readmeArgs)
      (settings := [(str "html", .bool true), (str "stack", .bool true), (str "lemmas", .bool true),
        (str "lines", .bool true)])
      (fl := [.stack, .lemmas]) (html := true) (by decide +kernel) (by decide +kernel) (by decide +kernel) h5
    rw [List.map_map] at this
    simpa [Function.comp_def, mkToken] using this

/-! Non-vacuity: the hypotheses hold, and a page with all there is to escape. -/

example [HtmlReader] : ∃ ms rest body, str "<b>ObjC</b> & more" = (ms.flatMap fun m : Mention => m.before ++ m.written) ++ rest ∧
    mainHandler uaxEnv pageParse ⟨str "POST", str "/text", { data := str "<b>ObjC</b> & more" }⟩ =
      Go.ret ⟨some 200, true, body⟩ ∧ htmlTokens body = shownPage ms rest := by
  obtain ⟨ms, rest, body, -, h1, h2, h3, -⟩ := C103_text uaxEnv_lawful uaxEnv_follows uaxTable_right uaxEnv_punct
    (r := ⟨str "POST", str "/text", { data := str "<b>ObjC</b> & more" }⟩) (by decide +kernel)
    ⟨[], [], by decide +kernel, by decide, by decide +kernel, .inl rfl⟩ rfl (.inl (by decide +kernel))
  exact ⟨ms, rest, body, h1, h2, h3⟩

section

attribute [local instance] sampleReader

example : htmlTokens (str "I &lt;3 <span class=\"lemma\">c&#43;&#43;</span>&amp;\r\n") =
    shownPage [⟨str "I <3 ", str "cpp", str "c++"⟩] (str "&\r\n") ∧
    shownPage [⟨str "I <3 ", str "cpp", str "c++"⟩] (str "&\r\n") =
      [{ type := .text, dataAtom := .zero, data := str "I <3 " }, spanTag,
       { type := .text, dataAtom := .zero, data := str "c++" }, spanEnd,
       { type := .text, dataAtom := .zero, data := str "&\n" }] := by decide +kernel

end

end

end Jargon
