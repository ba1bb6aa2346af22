import Verif.Props.Flag
import Verif.Props.Html
import Verif.Props.TagsExact
import Verif.Props.HtmlVerbatim

/-! C86: the program, with the arguments of the README, from the bytes of a text or a page to the bytes
written. -/

namespace Jargon

/-! ### What it should write -/

/-- The canonicals of the synonyms found in tokens, in order, reading from left to right and taking the
longest synonym at each word. -/
inductive Finds (C : Compare) (D : Dict) (maxWords : Nat) : List Token → List Bytes → Prop
  /-- the end -/
  | nil : Finds C D maxWords [] []
  /-- no synonym starts here -/
  | skip {t : Token} {ts : List Token} {cs : List Bytes} :
      (t.IsWord → ∀ k, Admissible maxWords (t :: ts) k → D (C.spell ((t :: ts).take k)) = none) →
      Finds C D maxWords ts cs → Finds C D maxWords (t :: ts) cs
  /-- the longest that starts here is `c` -/
  | found {t : Token} {ts : List Token} {k : Nat} {c : Bytes} {cs : List Bytes} : t.IsWord →
      Longest C D (Admissible maxWords (t :: ts)) (t :: ts) k c →
      Finds C D maxWords ((t :: ts).drop k) cs → Finds C D maxWords (t :: ts) (c :: cs)

/-- The tags named in a text: synonyms of at most five words. -/
def TagsIn (E : Env) (text : Bytes) (cs : List Bytes) : Prop :=
  Finds (tagCompare E) (tagDict E) 5 (stringTokens E text) cs

/-- One line for each. -/
def asLines (cs : List Bytes) : Bytes := cs.flatMap fun c => c ++ [0x0A]

/-- Whatever is outside the program, as long as it has this library, reads HTML, gets `input` from a pipe,
and can write: the program with the arguments `args` ends with success and has written `out` to its
output. -/
def Prints [HtmlReader] (E : Env) (args : List Bytes) (input out : Bytes) : Prop :=
  ∀ (ω : Type) (w : Place → Writer ω), (∀ p, (w p).NeverFails) → ∀ W : World (ω × Bytes), W.E = E →
    (∀ p, W.writer p = logged (w p)) → (∀ doc, W.parse { data := doc } = (htmlTokens doc, none)) →
    ∀ mode, W.mode = .ok mode → isTerminal mode = false → W.stdin = { data := input } →
    ∃ b, jargonMain W args = Go.ret (.ok (.success, some (.std, b))) ∧ b.under.2 = (W.under .std).2 ++ out

/-- The texts of a page outside script and style elements; `ctx` is the element whose content follows, if
that is not read as HTML. -/
def pageTexts : Option Bytes → List HTok → List Bytes
  | _, [] => []
  | ctx, h :: hs =>
    (if h.type = .text ∧ ctx ≠ some (str "script") ∧ ctx ≠ some (str "style") then [h.data] else []) ++
      pageTexts (rawAfter ctx h) hs

/-- The tags named in a page: in each of its texts, in order. -/
def PageTags [HtmlReader] (E : Env) (doc : Bytes) (cs : List Bytes) : Prop :=
  ∃ css, List.Forall₂ (TagsIn E) (pageTexts none (htmlTokens doc)) css ∧ cs = css.flatten

/-- `-html -stack -lemmas -lines`, README.md:30. -/
def readmeArgs : List Bytes := ["-html", "-stack", "-lemmas", "-lines"].map str

/-- **C86, as one would like it.** The command of the README lists the tags named in a page. -/
def C86_full [HtmlReader] (E : Env) (cls : WordTable) : Prop := ∀ doc : Bytes,
  (∀ h ∈ htmlTokens doc, h.type = .text → Fits cls h.string) → ∀ cs, PageTags E doc cs →
  Prints E readmeArgs doc (asLines cs)

/-! ### Proofs -/

/-- Of tokens that are no lemmas, the lemmas that come out are the canonicals found. -/
theorem Greedy.finds {C : Compare} {D : Dict} {m : Nat} {toks out : List Token}
    (hD : ∀ q c, D q = some c → c ≠ []) (hin : ∀ t ∈ toks, t.lemma = false) (h : Greedy C D m toks out) :
    ∃ cs, Finds C D m toks cs ∧ out.filter (fun t => decide (t.lemma = true)) = cs.map fun c => mkToken C.U c true := by
  induction h with
  | nil => exact ⟨[], .nil, rfl⟩
  | separator hw _ ih =>
    obtain ⟨cs, h1, h2⟩ := ih fun t ht => hin t (by simp [ht])
    refine ⟨cs, .skip (fun h => absurd h hw) h1, ?_⟩
    rw [List.filter_cons_of_neg (by simp [hin]), h2]
  | @replace t ts out k c hw hl _ ih =>
    obtain ⟨cs, h1, h2⟩ := ih fun x hx => hin x (List.mem_of_mem_drop hx)
    refine ⟨c :: cs, .found hw hl h1, ?_⟩
    have hc := hD _ _ hl.isSyn
    simp only [canonTokens, hc, ↓reduceIte, List.singleton_append, List.map_cons]
    rw [List.filter_cons_of_pos (by simp [mkToken]), h2]
  | word hw hn _ ih =>
    obtain ⟨cs, h1, h2⟩ := ih fun t ht => hin t (by simp [ht])
    refine ⟨cs, .skip (fun _ => hn) h1, ?_⟩
    rw [List.filter_cons_of_neg (by simp [hin]), h2]

theorem Finds.unique {C : Compare} {D : Dict} {m : Nat} {toks : List Token} {cs cs' : List Bytes}
    (h : Finds C D m toks cs) (h' : Finds C D m toks cs') : cs = cs' := by
  induction h generalizing cs' with
  | nil => cases h'; rfl
  | skip hn _ ih =>
    cases h' with
    | skip _ h2 => exact ih h2
    | found hw hl _ =>
      have := hn hw _ hl.mem
      rw [hl.isSyn] at this
      cases this
  | found hw hl _ ih =>
    cases h' with
    | skip hn _ =>
      have := hn hw _ hl.mem
      rw [hl.isSyn] at this
      cases this
    | found _ hl' h2 =>
      obtain ⟨rfl, rfl⟩ := hl.unique hl'
      rw [ih h2]

theorem tagDict_ne_nil {E : Env} (hP : E.U.PunctLatin) : ∀ q c, tagDict E q = some c → c ≠ [] := by
  intro q c hq
  rw [tagDict, stackOverflow_rows] at hq
  obtain ⟨b, hb, -, rfl⟩ := dict_some hq
  simp only [entries, List.mem_flatMap, List.mem_map] at hb
  obtain ⟨m, hm, -, -, rfl⟩ := hb
  exact (mkToken_word (U := E.U) (PunctLatin.plain hP) true (row_plain soRows_plain hm)).2

/-- What the program writes for a stream of tokens. -/
theorem prints_yields [HtmlReader] {E : Env} {args : List Bytes} {input : Bytes} {settings : List (Bytes × FlagValue)}
    {fl : List FilterFlag} {html : Bool} {toks : List Token} (hargs : parseFlags args = .ok settings)
    (hfl : args.filterMap flagOf = fl) (hf : flagValues settings = { html := html, lines := true })
    (h : ∀ sb, (TokenStream.filter (if html then tokenizeHTML E (htmlTokens input) none
      else tokenize E { data := input }) (fl.map fun f => (f.filter sb .english).apply E)).Yields toks .eof) :
    Prints E args input (asLines (toks.map Token.value)) := by
  intro ω w hw W hWE hW hparse mode hmode hterm hin
  have hy : (programStream W { html := html, lines := true } args .english (W.source W.fs .std)).Yields toks .eof := by
    simp only [programStream, World.source, hin, hparse, hfl, hWE]
    exact h W.snowball
  obtain ⟨out, exit, b, h1, h2, -, -, h5, h6⟩ := C49_program (fun p => (hw p).lawful) W hW
    { html := html, lines := true } rfl args hmode (src := .std) (dst := .std) (fs := W.fs) (l := .english)
    (by simp [inputChoice, named, hterm]) (by simp [outputChoice, named])
    (show langOf (str "english") = _ by decide +kernel)
    (by intro i hi; cases hi) hy
  have hx : exit = .success := h6 (hw .std)
  subst hx
  refine ⟨b, ?_, ?_⟩
  · rw [jargonMain, hargs]
    simp only [hf, h2, Go.ret_bind, Go.pure_eq]
  · rw [(h5 rfl).2]
    simp only [IsOutput, Bool.false_eq_true, ↓reduceIte] at h1
    rw [h1, cliText, asLines, List.flatMap_map]
    simp

section
variable {E : Env} {cls : WordTable}

/-- The two filters. -/
theorem stack_lemmas {ts : TokenStream} {toks : List Token} (hE : E.Lawful) (hF : E.FollowsUax29 cls)
    (hR : cls.Right) (hP : E.U.PunctLatin) (h : ts.Yields toks .eof)
    {out : List Token} (hg : Greedy (tagCompare E) (tagDict E) 5 toks out) (sb : Snowball) :
    ((ts.filter ([FilterFlag.stack, .lemmas].map fun f => (f.filter sb .english).apply E))).Yields
      (out.filter fun t => decide (t.lemma = true)) .eof := by
  have hlim : wordLimit (entries E stackOverflowMappings) = 5 := by
    rw [stackOverflow_rows]; exact so_limit_eq hF hR hP
  have := tags_yields hE (C76_scanner_laws hF hR).2.1 h (by rw [hlim]; exact hg)
  exact C06_lemmas this

/-- The tokens of a text are no lemmas. -/
theorem stringTokens_lemma (s : Bytes) : ∀ t ∈ stringTokens E s, t.lemma = false := by
  intro t ht
  simp only [stringTokens, segTokens, List.mem_map] at ht
  obtain ⟨x, -, rfl⟩ := ht
  rfl

/-- **C86 (text).** For every text without overlong words, `jargon -stack -lemmas -lines` writes the tags named in
it, one per line, in order. -/
theorem C86_text [HtmlReader] (hE : E.Lawful) (hF : E.FollowsUax29 cls) (hR : cls.Right) (hP : E.U.PunctLatin) {text : Bytes}
    (hlen : Fits cls text) :
    ∃ cs, TagsIn E text cs ∧ (∀ cs', TagsIn E text cs' → cs' = cs) ∧
      Prints E (["-stack", "-lemmas", "-lines"].map str) text (asLines cs) := by
  obtain ⟨out, hg⟩ := Greedy.total (tagCompare E) (tagDict E) 5 (stringTokens E text)
  obtain ⟨cs, h1, h2⟩ := hg.finds (tagDict_ne_nil hP) (stringTokens_lemma text)
  refine ⟨cs, h1, fun cs' h => h.unique h1, ?_⟩
  have hy := stringTokens_yields (s := text) hE (by rw [hF text hlen])
  have h3 := fun sb => stack_lemmas hE hF hR hP hy hg sb
  simp only [h2] at h3
  have := prints_yields (E := E) (input := text) (args := ["-stack", "-lemmas", "-lines"].map str)
    (settings := [(str "stack", .bool true), (str "lemmas", .bool true), (str "lines", .bool true)])
    (fl := [.stack, .lemmas]) (html := false) (by decide +kernel) (by decide +kernel)
    (by decide +kernel) h3
  rw [List.map_map] at this
  simpa [Function.comp_def, mkToken] using this

/-- A world with nothing but a pipe at stdin and at stdout. -/
def pipeWorld [HtmlReader] (E : Env) (input : Bytes) : World (Unit × Bytes) where
  E := E
  parse r := (htmlTokens r.data, r.err)
  snowball := ⟨id, id, id, id, id, id⟩
  fs := sampleFs
  stdin := { data := input }
  mode := .ok 0
  direct := true
  writer _ := logged goodWriter
  under _ := ((), [])

/-- The program writes one thing. -/
theorem Prints.unique [HtmlReader] {args : List Bytes} {input out out' : Bytes} (h : Prints E args input out)
    (h' : Prints E args input out') : out = out' := by
  obtain ⟨b, h1, h2⟩ := h Unit (fun _ => goodWriter) (fun _ => goodWriter_neverFails) (pipeWorld E input) rfl
    (fun _ => rfl) (fun _ => rfl) 0 rfl (by decide) rfl
  obtain ⟨b', h1', h2'⟩ := h' Unit (fun _ => goodWriter) (fun _ => goodWriter_neverFails) (pipeWorld E input) rfl
    (fun _ => rfl) (fun _ => rfl) 0 rfl (by decide) rfl
  rw [h1] at h1'
  have := Go.ret_inj.mp h1'
  simp only [Except.ok.injEq, Prod.mk.injEq, Option.some.injEq, true_and] at this
  subst this
  rw [h2] at h2'
  exact List.append_cancel_left h2'

/-- The tags named in a text are the lemmas the filter makes of it. -/
theorem tagsIn_yields (hE : E.Lawful) (hF : E.FollowsUax29 cls) (hR : cls.Right) (hP : E.U.PunctLatin) {s : Bytes}
    (hlen : Fits cls s) : ∃ out cs, (tags E (tokenizeString E s)).Yields out .eof ∧ TagsIn E s cs ∧
      out.filter (fun t => decide (t.lemma = true)) = cs.map fun c => mkToken E.U c true := by
  obtain ⟨out, hg⟩ := Greedy.total (tagCompare E) (tagDict E) 5 (stringTokens E s)
  obtain ⟨cs, h1, h2⟩ := hg.finds (tagDict_ne_nil hP) (stringTokens_lemma s)
  have hlim : wordLimit (entries E stackOverflowMappings) = 5 := by
    rw [stackOverflow_rows]; exact so_limit_eq hF hR hP
  exact ⟨out, cs, tags_yields hE (C76_scanner_laws hF hR).2.1 (stringTokens_yields hE (by rw [hF s hlen]))
    (by rw [hlim]; exact hg), h1, h2⟩

theorem mkToken_map_inj {U : Unicode} {cs cs' : List Bytes}
    (h : (cs.map fun c => mkToken U c true) = cs'.map fun c => mkToken U c true) : cs = cs' := by
  have := congrArg (List.map Token.value) h
  simpa [Function.comp_def, mkToken] using this

/-- What is around a listed synonym fits if the text does. -/
theorem fits_around (hR : cls.Right) {k v s a b : Bytes} (hm : (k, v) ∈ stackOverflowMappings)
    (hs : ListedText s k) (hlost : s ∉ soLost.map textOf) (ha : SetOffBefore a) (hb : SetOffAfter b)
    (hlen : Fits cls (a ++ s ++ b)) : Fits cls a ∧ Fits cls s ∧ Fits cls b := by
  rw [stackOverflow_rows, tableOf] at hm
  obtain ⟨row, hrow, hrv⟩ := List.mem_map.mp hm
  obtain ⟨rfl, rfl⟩ := Prod.mk.inj hrv
  obtain ⟨h1, -, -, h4⟩ := listed_text soLost_checked (so_words row hrow) hs
  obtain ⟨⟨r0, hr0, p0⟩, r1, hr1, p1⟩ := edgeB_spec hR h1 (h4 hlost).2
  exact hlen.between hR ha hb hr0 p0 hr1 p1

/-- **C86 (a tag in a text).** If a listed synonym stands in a text between punctuation or line ends, its tag has
its line in the output, between the lines for what precedes and what follows it. Left out: the synonyms that
are not recognised even on their own (C58). -/
theorem C86_tag_in_text [HtmlReader] (hE : E.Lawful) (hF : E.FollowsUax29 cls) (hR : cls.Right) (hU : E.U.LowersLatin)
    (hP : E.U.PunctLatin) {k v s a b : Bytes} (hm : (k, v) ∈ stackOverflowMappings)
    (hs : ListedText s k) (hlost : s ∉ soLost.map textOf) (ha : SetOffBefore a) (hb : SetOffAfter b)
    (ha' : BrokenBefore a) (hb' : BrokenAfter b) (hlen : Fits cls (a ++ s ++ b)) {outA outB : Bytes}
    (hA : Prints E (["-stack", "-lemmas", "-lines"].map str) a outA)
    (hB : Prints E (["-stack", "-lemmas", "-lines"].map str) b outB) :
    Prints E (["-stack", "-lemmas", "-lines"].map str) (a ++ s ++ b) (outA ++ v ++ [0x0A] ++ outB) := by
  obtain ⟨fa, -, fb⟩ := fits_around hR hm hs hlost ha hb hlen
  obtain ⟨A, ca, yA, tA, fA⟩ := tagsIn_yields hE hF hR hP (s := a) fa
  obtain ⟨B, cb, yB, tB, fB⟩ := tagsIn_yields hE hF hR hP (s := b) fb
  obtain ⟨T, ct, yT, tT, fT⟩ := tagsIn_yields hE hF hR hP hlen
  obtain rfl := (yT.unique (C79_tags_in_text hE hF hR hU hP hm hs hlost ha hb ha' hb' hlen yA yB)).1
  have hct : ct = ca ++ v :: cb := by
    apply mkToken_map_inj (U := E.U)
    rw [← fT, List.filter_append, List.filter_cons_of_pos (by simp [mkToken]), fA, fB, List.map_append,
      List.map_cons]
  have out : ∀ {t : Bytes} {cs : List Bytes}, Fits cls t → TagsIn E t cs →
      Prints E (["-stack", "-lemmas", "-lines"].map str) t (asLines cs) := by
    intro t cs ht hc
    obtain ⟨cs', h1, h2, h3⟩ := C86_text hE hF hR hP ht
    rw [h2 cs hc]
    exact h3
  have := out hlen tT
  rw [hA.unique (out fa tA), hB.unique (out fb tB)]
  rw [hct] at this
  simpa [asLines] using this

/-! ### Pages -/

/-- The texts of a page as the code takes them: escaped, and whether the start of a script or style element
precedes. -/
def textsSeen : Bool → List HTok → List (Bool × Bytes)
  | _, [] => []
  | raw, h :: hs =>
    if h.type = .text then (raw, h.string) :: textsSeen raw hs else textsSeen (raw || h.opensRaw) hs

/-- The tags the code finds in a text. After the start of a script or style element: at most one, if the text
is nothing but the tag. -/
def SeenTags (E : Env) (text : Bool × Bytes) (cs : List Bytes) : Prop :=
  if text.1 then cs = (tagDict E ((tagCompare E).normal (runes text.2))).toList else TagsIn E text.2 cs

theorem htmlActual_head [HtmlReader] (raw : Bool) {ctx : Option Bytes} {hs : List HTok} (h : ReadableFrom ctx true hs) :
    (htmlActual E raw hs none).1 = [] ∨ ∃ t, (htmlActual E raw hs none).1.head? = some t ∧ t.punct = true := by
  cases hs with
  | nil => exact Or.inl rfl
  | cons x hs =>
    have : x.type ≠ .text := fun ht => by simpa using h.2.1 ht
    exact Or.inr ⟨⟨x.string, true, false, false⟩, by simp [htmlActual, this, emit], rfl⟩

/-- A text as one token. -/
theorem finds_whole {s : Bytes} {cs : List Bytes}
    (h : Finds (tagCompare E) (tagDict E) 5 [⟨s, false, false, false⟩] cs) : SeenTags E (true, s) cs := by
  have hw : Token.IsWord ⟨s, false, false, false⟩ := ⟨rfl, rfl⟩
  have hsp : (tagCompare E).spell [⟨s, false, false, false⟩] = (tagCompare E).normal (runes s) := by
    simp [Compare.spell]
  have h1 : Admissible 5 [(⟨s, false, false, false⟩ : Token)] 1 :=
    ⟨Nat.le_refl _, by simp, by simp, by simp [words]⟩
  simp only [SeenTags, ↓reduceIte]
  cases h with
  | skip hn h2 =>
    cases h2
    have := hn hw 1 h1
    simp only [List.take_succ_cons, List.take_zero, hsp] at this
    rw [this]; rfl
  | @found _ _ k c cs _ hl h2 =>
    have hk : k = 1 := by
      have := hl.mem.pos
      have := hl.mem.le
      simp at this
      omega
    subst hk
    cases h2
    have := hl.isSyn
    simp only [List.take_succ_cons, List.take_zero, hsp] at this
    rw [this]; rfl

theorem readable_data [HtmlReader] {hs : List HTok} : ∀ {ctx : Option Bytes} {afterText : Bool}, ReadableFrom ctx afterText hs →
    ∀ h ∈ hs, Readable h := by
  induction hs with
  | nil => simp
  | cons x hs ih =>
    intro ctx afterText hr h hh
    rcases List.mem_cons.1 hh with rfl | hh
    · exact hr.1
    · exact ih hr.2.2.2 h hh

theorem Readable.text_ne [HtmlReader] {h : HTok} (hr : Readable h) (ht : h.type = .text) : h.data ≠ [] := by
  simp only [Readable, ht] at hr
  exact hr.1

/-- Greedy replacement in the tokens of a page. -/
theorem page_greedy [HtmlReader] (hF : E.FollowsUax29 cls) (hP : E.U.PunctLatin) (hs : List HTok) :
    ∀ (raw : Bool) (ctx : Option Bytes) (afterText : Bool), ReadableFrom ctx afterText hs →
    (∀ h ∈ hs, h.type = .text → Fits cls h.string) →
    (htmlActual E raw hs none).2 = .eof ∧ ∃ out css, Greedy (tagCompare E) (tagDict E) 5 (htmlActual E raw hs none).1 out ∧
      List.Forall₂ (SeenTags E) (textsSeen raw hs) css ∧
      out.filter (fun t => decide (t.lemma = true)) = css.flatten.map fun c => mkToken E.U c true := by
  induction hs with
  | nil => intro raw _ _ _ _; exact ⟨rfl, [], [], .nil, .nil, rfl⟩
  | cons h hs ih =>
    intro raw ctx afterText hr hlen
    have hlen' := fun x (hx : x ∈ hs) => hlen x (by simp [hx])
    by_cases ht : h.type = .text
    · have hr2 := hr.2.2.2
      rw [ht] at hr2
      obtain ⟨he, out, css, hg, hcs, hout⟩ := ih raw _ _ hr2 hlen'
      have hhead := htmlActual_head (E := E) raw hr2
      -- the tokens of this text
      obtain ⟨toks, htoks, hlem, hseen⟩ : ∃ toks, htmlActual E raw (h :: hs) none =
          (toks ++ (htmlActual E raw hs none).1, (htmlActual E raw hs none).2) ∧ (∀ t ∈ toks, t.lemma = false) ∧
          ∀ cs, Finds (tagCompare E) (tagDict E) 5 toks cs → SeenTags E (raw, h.string) cs := by
        cases raw with
        | true =>
          refine ⟨[⟨h.string, false, false, false⟩], by simp [htmlActual, ht, emit], by simp, fun cs => finds_whole⟩
        | false =>
          have hsc := hF h.string (hlen h (by simp) ht)
          refine ⟨stringTokens E h.string, ?_, stringTokens_lemma _, fun cs hc => hc⟩
          simp [htmlActual, ht, hsc, stringTokens]
      obtain ⟨o, ho⟩ := Greedy.total (tagCompare E) (tagDict E) 5 toks
      obtain ⟨cs, hf, hl⟩ := ho.finds (tagDict_ne_nil hP) hlem
      refine ⟨by rw [htoks]; exact he, o ++ out, cs :: css, ?_, ?_, ?_⟩
      · rw [htoks]
        refine ho.append hg (PunctBetween.noCross ?_)
        rcases hhead with h1 | h1
        · exact Or.inr (.inl h1)
        · exact Or.inr (.inr (.inr h1))
      · rw [textsSeen, if_pos ht]
        exact .cons (hseen cs hf) hcs
      · rw [List.filter_append, hl, hout, List.flatten_cons, List.map_append]
        rfl
    · obtain ⟨he, out, css, hg, hcs, hout⟩ := ih (raw || h.opensRaw) _ _ hr.2.2.2 hlen'
      have e : htmlActual E raw (h :: hs) none = emit ⟨h.string, true, false, false⟩
          (htmlActual E (raw || h.opensRaw) hs none) := by rw [htmlActual, if_neg ht]
      refine ⟨by rw [e]; exact he, ⟨h.string, true, false, false⟩ :: out, css, ?_, ?_, ?_⟩
      · rw [e]
        exact .separator (by rintro ⟨h, -⟩; cases h) hg
      · rw [textsSeen, if_neg ht]
        exact hcs
      · rw [List.filter_cons_of_neg (by simp), hout]

/-- **C86 (pages, as it is).** For every page whose texts have no overlong words: the command of the README writes
the tags named in the texts, escaped, up to the start of a script or style element; after that it writes a tag
for each text, also of a script, that is nothing but this tag. -/
theorem C86_page [HtmlReader] (hE : E.Lawful) (hF : E.FollowsUax29 cls) (hR : cls.Right) (hP : E.U.PunctLatin) {doc : Bytes}
    (hlen : ∀ h ∈ htmlTokens doc, h.type = .text → Fits cls h.string) :
    ∃ css, List.Forall₂ (SeenTags E) (textsSeen false (htmlTokens doc)) css ∧
      Prints E readmeArgs doc (asLines css.flatten) := by
  have hread := htmlTokens_readable doc
  obtain ⟨he, out, css, hg, hcs, hout⟩ := page_greedy hF hP (htmlTokens doc) false none false hread hlen
  refine ⟨css, hcs, ?_⟩
  have hy := html_yields hE (htmlTokens doc) none (fun h hh ht => (readable_data hread h hh).text_ne ht)
  rw [he] at hy
  have h3 := fun sb => stack_lemmas hE hF hR hP hy hg sb
  simp only [hout] at h3
  have := prints_yields (E := E) (input := doc) (args := readmeArgs)
    (settings := [(str "html", .bool true), (str "stack", .bool true), (str "lemmas", .bool true),
      (str "lines", .bool true)])
    (fl := [.stack, .lemmas]) (html := true) (by decide +kernel) (by decide +kernel) (by decide +kernel) h3
  rw [List.map_map] at this
  simpa [Function.comp_def, mkToken] using this

theorem TagsIn.unique {text : Bytes} {cs cs' : List Bytes} (h : TagsIn E text cs) (h' : TagsIn E text cs') : cs = cs' :=
  Finds.unique h h'

theorem forall₂_unique {α β : Type} {R : α → β → Prop} (hR : ∀ a b b', R a b → R a b' → b = b') {as : List α}
    {bs bs' : List β} (h : List.Forall₂ R as bs) (h' : List.Forall₂ R as bs') : bs = bs' := by
  induction h generalizing bs' with
  | nil => cases h'; rfl
  | cons h1 _ ih =>
    cases h' with
    | cons h1' h2' => rw [hR _ _ _ h1 h1', ih h2']

/-- Without script and style elements the code takes the texts of the page. -/
theorem textsSeen_plain [HtmlReader] {hs : List HTok} : ∀ {ctx : Option Bytes}, (∀ h ∈ hs, Readable h) →
    (∀ h ∈ hs, h.type = .startTag ∨ h.type = .selfClosing → h.data ≠ str "script" ∧ h.data ≠ str "style") →
    ctx ≠ some (str "script") → ctx ≠ some (str "style") →
    (∀ text ∈ pageTexts ctx hs, ∀ b ∈ text, b ∉ escapedBytes) →
    textsSeen false hs = (pageTexts ctx hs).map fun text => (false, text) := by
  induction hs with
  | nil => intros; rfl
  | cons h hs ih =>
    intro ctx hr hno h1 h2 he
    have hr' := fun x (hx : x ∈ hs) => hr x (by simp [hx])
    have hno' := fun x (hx : x ∈ hs) => hno x (by simp [hx])
    by_cases ht : h.type = .text
    · simp only [pageTexts, ht, h1, h2, rawAfter, ne_eq, not_false_eq_true, and_self, ↓reduceIte, List.singleton_append,
        List.map_cons, textsSeen, List.cons.injEq, Prod.mk.injEq, true_and, List.mem_cons, forall_eq_or_imp] at he ⊢
      refine ⟨?_, ih hr' hno' h1 h2 he.2⟩
      rw [show h.string = htmlEscape h.data by simp [HTok.string, ht]]
      exact htmlEscape_self.mpr he.1
    · have hraw : h.opensRaw = false := by
        by_cases hty : h.type = .startTag
        case neg => simp [HTok.opensRaw, hty]
        have hd := hno h (by simp) (.inl hty)
        have := hr h (by simp)
        simp only [Readable, hty] at this
        simp [HTok.opensRaw, this.1, atomOf, hd.1, hd.2]
      have hctx : rawAfter ctx h ≠ some (str "script") ∧ rawAfter ctx h ≠ some (str "style") := by
        rw [rawAfter, if_neg ht]
        split
        · rename_i ho
          have : h.type = .startTag ∨ h.type = .selfClosing := by
            simp only [HTok.opensRawText, Bool.and_eq_true, Bool.or_eq_true, beq_iff_eq] at ho
            exact ho.1
          have := hno h (by simp) this
          simpa using this
        · simp
      simp only [pageTexts, ht, false_and, ↓reduceIte, List.nil_append, textsSeen, hraw, Bool.or_false] at he ⊢
      exact ih hr' hno' hctx.1 hctx.2 he

/-- **C86, partial.** For pages without script and style elements, in whose texts there is nothing to be escaped
(`&`, `<`, `>`, quotation marks, carriage returns), the command of the README lists the tags named in the page.
Missing: pages with such elements, after which it finds hardly any tag (`C86_violated`, `C86_page`), and texts
with such characters, in which it looks at the escaped text. -/
theorem C86_page_partial [HtmlReader] (hE : E.Lawful) (hF : E.FollowsUax29 cls) (hR : cls.Right) (hP : E.U.PunctLatin)
    {doc : Bytes} (hlen : ∀ text ∈ pageTexts none (htmlTokens doc), Fits cls text)
    (hraw : ∀ h ∈ htmlTokens doc, h.type = .startTag ∨ h.type = .selfClosing →
      h.data ≠ str "script" ∧ h.data ≠ str "style")
    (hesc : ∀ text ∈ pageTexts none (htmlTokens doc), ∀ b ∈ text, b ∉ escapedBytes) {cs : List Bytes}
    (hcs : PageTags E doc cs) : Prints E readmeArgs doc (asLines cs) := by
  have hread := readable_data (htmlTokens_readable doc)
  have hseen := textsSeen_plain hread hraw (by simp) (by simp) hesc
  obtain ⟨css, h1, h2⟩ := C86_page hE hF hR hP (doc := doc) (by
    intro h hh ht
    have key : ∀ (hs : List HTok) (raw : Bool), h ∈ hs → ∃ r, (r, h.string) ∈ textsSeen raw hs := by
      intro hs
      induction hs with
      | nil => simp
      | cons x hs ih =>
        intro raw hx
        rcases List.mem_cons.1 hx with rfl | hx
        · exact ⟨raw, by simp [textsSeen, ht]⟩
        · by_cases hxt : x.type = .text
          · obtain ⟨r, hr⟩ := ih raw hx
            exact ⟨r, by simp [textsSeen, hxt, hr]⟩
          · obtain ⟨r, hr⟩ := ih (raw || x.opensRaw) hx
            exact ⟨r, by simp [textsSeen, hxt, hr]⟩
    obtain ⟨r, hr⟩ := key _ false hh
    rw [hseen] at hr
    obtain ⟨text, htext, he⟩ := List.mem_map.mp hr
    rw [← (Prod.mk.inj he).2]
    exact hlen text htext)
  obtain ⟨css', h3, rfl⟩ := hcs
  rw [hseen] at h1
  have : List.Forall₂ (TagsIn E) (pageTexts none (htmlTokens doc)) css := by
    have := List.forall₂_map_left_iff.mp h1
    exact this
  obtain rfl := forall₂_unique (R := TagsIn E) (fun _ _ _ h h' => TagsIn.unique h h') h3 this
  exact h2

/-- A script, then a paragraph that names a tag. -/
def scriptPage : Bytes := str "<script></script><p>We use (Ruby on Rails).</p>"

section

-- The readings below are computed with one concrete reader of HTML.
attribute [local instance] sampleReader

/-- **C86 is violated.** After a script, tags are not found. -/
theorem C86_violated (hE : E.Lawful) (hF : E.FollowsUax29 cls) (hR : cls.Right) (hU : E.U.LowersLatin)
    (hP : E.U.PunctLatin) : ¬ C86_full E cls ∧ Prints E readmeArgs scriptPage [] ∧
      ∃ cs, PageTags E scriptPage cs ∧ str "ruby-on-rails" ∈ cs := by
  have hread : htmlTokens scriptPage = [⟨.startTag, .script, str "script", []⟩, ⟨.endTag, .script, str "script", []⟩,
      ⟨.startTag, .other 0, str "p", []⟩, ⟨.text, .zero, str "We use (Ruby on Rails).", []⟩,
      ⟨.endTag, .other 0, str "p", []⟩] := by decide +kernel
  have hcut := (C76_scanner_laws hF hR).2.1
  have hfit : ∀ h ∈ htmlTokens scriptPage, h.type = .text → Fits cls h.string := by
    have : ∀ h ∈ htmlTokens scriptPage, h.type = .text → h.string.length < 0x10000 := by rw [hread]; decide +kernel
    exact fun h hh ht => .inl (this h hh ht)
  -- what it writes
  have hp : Prints E readmeArgs scriptPage [] := by
    obtain ⟨css, h1, h2⟩ := C86_page hE hF hR hP (doc := scriptPage) hfit
    have hs : textsSeen false (htmlTokens scriptPage) = [(true, str "We use (Ruby on Rails).")] := by
      decide +kernel
    rw [hs] at h1
    cases h1 with
    | cons h1 h3 =>
      cases h3
      have hno : tagDict E ((tagCompare E).normal (runes (str "We use (Ruby on Rails)."))) = none := by
        have hn : (tagCompare E).normal (runes (str "We use (Ruby on Rails).")) =
            normalB stackOverflowIgnore (runes (str "We use (Ruby on Rails).")) :=
          normalB_eq hU _ (by decide +kernel)
        rw [hn]
        exact tagDict_none hU hcut (by decide +kernel)
      simp only [SeenTags, ↓reduceIte, hno, Option.toList_none] at h1
      subst h1
      exact h2
  -- what it should write
  have htags : ∃ cs, TagsIn E (str "We use (Ruby on Rails).") cs ∧ str "ruby-on-rails" ∈ cs := by
    have hhold := docTags_hold hE hF hR hU hP ("Ruby on Rails", "ruby-on-rails") (by simp [docTags])
    have sub : ∀ t : Bytes, Fits cls t → ∃ out, Greedy (tagCompare E) (tagDict E) 5 (stringTokens E t) out ∧
        (tags E (tokenizeString E t)).Yields out .eof := by
      intro t ht
      obtain ⟨out, hg⟩ := Greedy.total (tagCompare E) (tagDict E) 5 (stringTokens E t)
      have hlim : wordLimit (entries E stackOverflowMappings) = 5 := by
        rw [stackOverflow_rows]; exact so_limit_eq hF hR hP
      exact ⟨out, hg, tags_yields hE hcut (stringTokens_yields hE (by rw [hF t ht])) (by rw [hlim]; exact hg)⟩
    obtain ⟨A, -, hA⟩ := sub (str "We use (") (.inl (by decide +kernel))
    obtain ⟨B, -, hB⟩ := sub (str ").") (.inl (by decide +kernel))
    obtain ⟨out, hg, hout⟩ := sub (str "We use (Ruby on Rails).") (.inl (by decide +kernel))
    have := hhold (str "We use (") (str ").") 
      ⟨str "We use (", [], by simp, by simp, Or.inr ⟨str "We use ", 0x28, by decide +kernel, by decide +kernel⟩⟩
      ⟨[], str ").", by simp, by simp, Or.inr ⟨0x29, str ".", by decide +kernel, by decide +kernel⟩⟩
      (Or.inr ⟨str "We use ", 0x28, by decide +kernel, Or.inl (by decide +kernel)⟩)
      (Or.inr ⟨0x29, str ".", by decide +kernel, Or.inl ⟨by decide +kernel,
        Or.inr ⟨0x2E, [], by decide +kernel, by decide, by decide⟩⟩⟩)
      (.inl (by decide +kernel)) A B hA hB
    rw [show str "We use (" ++ str "Ruby on Rails" ++ str ")." = str "We use (Ruby on Rails)." by decide +kernel] at this
    obtain rfl := (this.unique hout).1
    obtain ⟨cs, h1, h2⟩ := hg.finds (tagDict_ne_nil hP) (stringTokens_lemma _)
    refine ⟨cs, h1, ?_⟩
    have hm : mkToken E.U (str "ruby-on-rails") true ∈ cs.map fun c => mkToken E.U c true := by
      have h2' : _ = cs.map fun c => mkToken E.U c true := h2
      rw [← h2']
      simp [mkToken]
    obtain ⟨c, hc, he⟩ := List.mem_map.mp hm
    have := congrArg Token.value he
    simp only [mkToken] at this
    exact this ▸ hc
  obtain ⟨cs, h1, h2⟩ := htags
  have hpage : PageTags E scriptPage cs :=
    ⟨[cs], by
      rw [show pageTexts none (htmlTokens scriptPage) = [str "We use (Ruby on Rails)."] by decide +kernel]
      exact .cons h1 .nil, by simp⟩
  refine ⟨fun h => ?_, hp, cs, hpage, h2⟩
  have := (h scriptPage hfit cs hpage).unique hp
  cases cs with
  | nil => cases h2
  | cons c cs => simp [asLines] at this

/-- Non-vacuity: "ObjC, ..." in a page without scripts, and its tags. -/
example : ∃ cs, PageTags uaxEnv (str "<p>Learn (Ruby on Rails), now</p><P>ObjC</P>") cs ∧
    Prints uaxEnv readmeArgs (str "<p>Learn (Ruby on Rails), now</p><P>ObjC</P>") (asLines cs) := by
  have htexts : pageTexts none (htmlTokens (str "<p>Learn (Ruby on Rails), now</p><P>ObjC</P>")) =
      [str "Learn (Ruby on Rails), now", str "ObjC"] := by decide +kernel
  obtain ⟨-, c1, -, h1, -⟩ := tagsIn_yields uaxEnv_lawful uaxEnv_follows uaxTable_right uaxEnv_punct
    (s := str "Learn (Ruby on Rails), now") (.inl (by decide +kernel))
  obtain ⟨-, c2, -, h2, -⟩ := tagsIn_yields uaxEnv_lawful uaxEnv_follows uaxTable_right uaxEnv_punct
    (s := str "ObjC") (.inl (by decide +kernel))
  have hp : PageTags uaxEnv (str "<p>Learn (Ruby on Rails), now</p><P>ObjC</P>") (c1 ++ c2) :=
    ⟨[c1, c2], by rw [htexts]; exact .cons h1 (.cons h2 .nil), by simp⟩
  exact ⟨_, hp, C86_page_partial uaxEnv_lawful uaxEnv_follows uaxTable_right uaxEnv_punct
    (by
      rw [htexts]
      intro text ht
      have : ∀ text ∈ [str "Learn (Ruby on Rails), now", str "ObjC"], text.length < 0x10000 := by decide +kernel
      exact .inl (this text ht)) (by decide +kernel) (by rw [htexts]; decide +kernel) hp⟩

/-- Non-vacuity: the output for "(c++)" is that for "(", the tag and that for ")". -/
example : ∃ outA outB, Prints uaxEnv (["-stack", "-lemmas", "-lines"].map str) (str "Learn (" ++ str "c++" ++ str "), now")
    (outA ++ str "c++" ++ [0x0A] ++ outB) := by
  obtain ⟨ca, -, -, hA⟩ := C86_text uaxEnv_lawful uaxEnv_follows uaxTable_right uaxEnv_punct
    (text := str "Learn (") (.inl (by decide +kernel))
  obtain ⟨cb, -, -, hB⟩ := C86_text uaxEnv_lawful uaxEnv_follows uaxTable_right uaxEnv_punct
    (text := str "), now") (.inl (by decide +kernel))
  exact ⟨_, _, C86_tag_in_text uaxEnv_lawful uaxEnv_follows uaxTable_right uaxEnv_lowers uaxEnv_punct
    (k := str "c++") (v := str "c++") (s := str "c++")
    (by
      rw [stackOverflow_rows]
      exact List.mem_map.mpr ⟨(n!"c++", n!"c++"), mem_so 1 rfl (by decide +kernel), by decide +kernel⟩)
    ⟨[], [], [], by simp, Or.inl rfl, Or.inl rfl, by simp, by decide +kernel, by decide +kernel⟩ (by decide +kernel)
    ⟨str "Learn (", [], by simp, by simp, Or.inr ⟨str "Learn ", 0x28, by decide +kernel, by decide +kernel⟩⟩
    ⟨[], str "), now", by simp, by simp, Or.inr ⟨0x29, str ", now", by decide +kernel, by decide +kernel⟩⟩
    (Or.inr ⟨str "Learn ", 0x28, by decide +kernel, Or.inl (by decide +kernel)⟩)
    (Or.inr ⟨0x29, str ", now", by decide +kernel, Or.inl ⟨by decide +kernel,
      Or.inr ⟨0x2C, str " now", by decide +kernel, by decide, by decide⟩⟩⟩) (.inl (by decide +kernel)) hA hB⟩

end

end

end Jargon
