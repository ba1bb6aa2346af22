import Verif.Model.Web
import Verif.Spec.Web
import Verif.Props.Tags
import Verif.Props.Pipeline
import Verif.Props.Html

/-! C51: the web demo. -/

namespace Jargon

theorem splitSlash_ne (s : Bytes) : splitSlash s ≠ [] := by
  induction s with
  | nil => simp [splitSlash]
  | cons b s ih =>
    unfold splitSlash
    split
    · simp
    · split <;> simp

/-- Splitting at the first slash. -/
theorem splitSlash_first (p : Bytes) (hp : 0x2F ∉ p) (s : Bytes) :
    splitSlash (p ++ 0x2F :: s) = p :: splitSlash s := by
  induction p with
  | nil =>
    rw [List.nil_append, splitSlash]
    split
    · rename_i h; exact absurd h (splitSlash_ne s)
    · rename_i h; simp [h]
  | cons b p ih =>
    simp only [List.mem_cons, not_or] at hp
    rw [List.cons_append, splitSlash, ih hp.2]
    simp [Ne.symm hp.1]

theorem splitSlash_none (p : Bytes) (hp : 0x2F ∉ p) : splitSlash p = [p] := by
  induction p with
  | nil => rfl
  | cons b p ih =>
    simp only [List.mem_cons, not_or] at hp
    rw [splitSlash, ih hp.2]
    simp [Ne.symm hp.1]

theorem slash_cases (s : Bytes) : 0x2F ∉ s ∨ ∃ p r, s = p ++ 0x2F :: r ∧ 0x2F ∉ p := by
  induction s with
  | nil => left; simp
  | cons b s ih =>
    by_cases hb : b = 0x2F
    · right; exact ⟨[], s, by simp [hb], by simp⟩
    · rcases ih with h | ⟨p, r, rfl, h⟩
      · left; simp [h, Ne.symm hb]
      · right; exact ⟨b :: p, r, rfl, by simp [h, Ne.symm hb]⟩

/-- The second part is the route. -/
theorem splitSlash_route (path route : Bytes) :
    IsRoute path route ↔ ∃ a rest, splitSlash path = a :: route :: rest := by
  constructor
  · rintro ⟨pre, rest, rfl, h1, h2, h3⟩
    rw [List.append_assoc, List.cons_append, splitSlash_first _ h1]
    rcases h3 with rfl | h3
    · rw [List.append_nil, splitSlash_none _ h2]; exact ⟨_, _, rfl⟩
    · cases rest with
      | nil => simp at h3
      | cons b rest =>
        simp only [List.head?_cons, Option.some.injEq] at h3
        subst h3
        rw [splitSlash_first _ h2]; exact ⟨_, _, rfl⟩
  · rintro ⟨a, rest, h⟩
    rcases slash_cases path with hp | ⟨p, r, rfl, hp⟩
    · rw [splitSlash_none _ hp] at h; simp at h
    · rw [splitSlash_first _ hp] at h
      simp only [List.cons.injEq] at h
      obtain ⟨rfl, h⟩ := h
      rcases slash_cases r with hr | ⟨q, r', rfl, hq⟩
      · rw [splitSlash_none _ hr] at h
        simp only [List.cons.injEq] at h
        obtain ⟨rfl, -⟩ := h
        exact ⟨p, [], by simp, hp, hr, .inl rfl⟩
      · rw [splitSlash_first _ hq] at h
        simp only [List.cons.injEq] at h
        obtain ⟨rfl, -⟩ := h
        exact ⟨p, 0x2F :: r', by simp, hp, hq, .inr rfl⟩

/-- What the page shows for a token. -/
def shown (t : Token) : List HtmlPart :=
  let chars := (showNul t.value).map HtmlPart.char
  if t.lemma then .tag (str "span class=\"lemma\"") :: chars ++ [.tag (str "/span")] else chars

theorem readHtml_escape (v : Bytes) (rest : Bytes) :
    readHtml (templateEscape v ++ rest) = (showNul v).map HtmlPart.char ++ readHtml rest := by
  induction v with
  | nil => rfl
  | cons b v ih =>
    have hstep : templateEscape (b :: v) ++ rest = templateEscapeByte b ++ (templateEscape v ++ rest) := by
      simp [templateEscape]
    rw [hstep]
    generalize templateEscape v ++ rest = r at ih ⊢
    have hshow : showNul (b :: v) = (if b = 0 then [0xEF, 0xBF, 0xBD] else [b]) ++ showNul v := by
      simp [showNul]
    rw [hshow, List.map_append, List.append_assoc, ← ih]
    have hent : ∀ (e : Bytes) (x : UInt8), (0x26 :: e, x) ∈
        ([(str "&#34;", 0x22), (str "&amp;", 0x26), (str "&#39;", 0x27), (str "&#43;", 0x2B),
          (str "&lt;", 0x3C), (str "&gt;", 0x3E)] : List (Bytes × UInt8)) →
        readHtml (0x26 :: (e ++ r)) = .char x :: readHtml r := by
      intro e x he
      rw [readHtml, if_neg (by decide), if_pos rfl]
      have hf : entities.find? (fun y => y.1.isPrefixOf (e ++ r)) = some (e, x) := by
        simp only [List.mem_cons, Prod.mk.injEq, List.not_mem_nil, or_false] at he
        have e1 : str "&#34;" = 0x26 :: [0x23, 0x33, 0x34, 0x3B] := by decide +kernel
        have e2 : str "&amp;" = 0x26 :: [0x61, 0x6D, 0x70, 0x3B] := by decide +kernel
        have e3 : str "&#39;" = 0x26 :: [0x23, 0x33, 0x39, 0x3B] := by decide +kernel
        have e4 : str "&#43;" = 0x26 :: [0x23, 0x34, 0x33, 0x3B] := by decide +kernel
        have e5 : str "&lt;" = 0x26 :: [0x6C, 0x74, 0x3B] := by decide +kernel
        have e6 : str "&gt;" = 0x26 :: [0x67, 0x74, 0x3B] := by decide +kernel
        have hents : entities = [([0x23, 0x33, 0x34, 0x3B], 0x22), ([0x61, 0x6D, 0x70, 0x3B], 0x26),
          ([0x23, 0x33, 0x39, 0x3B], 0x27), ([0x23, 0x34, 0x33, 0x3B], 0x2B), ([0x6C, 0x74, 0x3B], 0x3C),
          ([0x67, 0x74, 0x3B], 0x3E)] := by decide +kernel
        rw [hents]
        rw [e1, e2, e3, e4, e5, e6] at he
        simp only [List.cons.injEq, true_and] at he
        rcases he with ⟨rfl, rfl⟩ | ⟨rfl, rfl⟩ | ⟨rfl, rfl⟩ | ⟨rfl, rfl⟩ | ⟨rfl, rfl⟩ | ⟨rfl, rfl⟩ <;>
          simp [List.find?, List.isPrefixOf]
      rw [hf]
      simp
    have hs : ∀ s : String, ∀ x, (str s, x) ∈
        ([(str "&#34;", 0x22), (str "&amp;", 0x26), (str "&#39;", 0x27), (str "&#43;", 0x2B),
          (str "&lt;", 0x3C), (str "&gt;", 0x3E)] : List (Bytes × UInt8)) →
        (str s).head? = some 0x26 → readHtml (str s ++ r) = .char x :: readHtml r := by
      intro s x hx hh
      cases hc : str s with
      | nil => rw [hc] at hh; simp at hh
      | cons a l =>
        rw [hc] at hh hx
        simp only [List.head?_cons, Option.some.injEq] at hh
        subst hh
        exact hent l x hx
    unfold templateEscapeByte
    by_cases h0 : b = 0
    · rw [if_pos h0, if_pos h0]
      simp [readHtml]
    rw [if_neg h0, if_neg h0, List.map_singleton, List.singleton_append]
    by_cases h1 : b = 0x22
    · rw [if_pos h1, h1]; exact hs _ _ (by simp) (by decide +kernel)
    rw [if_neg h1]
    by_cases h2 : b = 0x26
    · rw [if_pos h2, h2]; exact hs _ _ (by simp) (by decide +kernel)
    rw [if_neg h2]
    by_cases h3 : b = 0x27
    · rw [if_pos h3, h3]; exact hs _ _ (by simp) (by decide +kernel)
    rw [if_neg h3]
    by_cases h4 : b = 0x2B
    · rw [if_pos h4, h4]; exact hs _ _ (by simp) (by decide +kernel)
    rw [if_neg h4]
    by_cases h5 : b = 0x3C
    · rw [if_pos h5, h5]; exact hs _ _ (by simp) (by decide +kernel)
    rw [if_neg h5]
    by_cases h6 : b = 0x3E
    · rw [if_pos h6, h6]; exact hs _ _ (by simp) (by decide +kernel)
    rw [if_neg h6, List.singleton_append]
    conv_lhs => rw [readHtml]
    rw [if_neg h5, if_neg h2]

theorem readHtml_tag (inner rest : Bytes) (h : 0x3E ∉ inner) :
    readHtml (0x3C :: (inner ++ 0x3E :: rest)) = .tag inner :: readHtml rest := by
  have : untilGt (inner ++ 0x3E :: rest) = (inner, rest) := by
    induction inner with
    | nil => simp [untilGt]
    | cons b inner ih =>
      simp only [List.mem_cons, not_or] at h
      rw [List.cons_append, untilGt, ih h.2]
      simp [Ne.symm h.1]
  rw [readHtml, if_pos rfl, this]

/-- The rendering of a token. -/
def rendered (t : Token) : Bytes := if t.lemma then lemmaTemplate t else plainTemplate t

theorem readHtml_rendered (t : Token) (rest : Bytes) :
    readHtml (rendered t ++ rest) = shown t ++ readHtml rest := by
  unfold rendered shown
  split
  · have e1 : str "<span class=\"lemma\">" = 0x3C :: (str "span class=\"lemma\"" ++ [0x3E]) := by
      decide +kernel
    have e2 : str "</span>" = 0x3C :: (str "/span" ++ [0x3E]) := by decide +kernel
    have : lemmaTemplate t ++ rest = 0x3C :: (str "span class=\"lemma\"" ++ 0x3E ::
        (templateEscape t.value ++ (0x3C :: (str "/span" ++ 0x3E :: rest)))) := by
      simp [lemmaTemplate, Token.string, e1, e2]
    rw [this, readHtml_tag _ _ (by decide +kernel), readHtml_escape _,
      readHtml_tag _ _ (by decide +kernel)]
    simp
  · rw [plainTemplate, Token.string, readHtml_escape _]

theorem readHtml_page (toks : List Token) : readHtml (toks.flatMap rendered) = toks.flatMap shown := by
  induction toks with
  | nil => simp [readHtml]
  | cons t ts ih => rw [List.flatMap_cons, List.flatMap_cons, readHtml_rendered, ih]

/-- The stream never returns a token together with an error. -/
def NoTokenWithError {σ : Type} (next : NextFn σ) : Prop :=
  ∀ s r s', next s = Go.ret (r, s') → r.err ≠ none → r.tok = none

theorem TS.next_noToken {σ : Type} {call : NextFn σ} (h : NoTokenWithError call) :
    NoTokenWithError (TS.next call) := by
  intro s r s' h1 h2
  simp only [TS.next, Go.bind_eq_ret] at h1
  obtain ⟨⟨r1, i⟩, h3, h4⟩ := h1
  simp only [Go.pure_eq, Go.ret_inj, Prod.mk.injEq] at h4
  obtain ⟨rfl, -⟩ := h4
  exact h _ _ _ h3 h2

theorem synNext_noToken {σ : Type} (U : Unicode) (call : NextFn σ) (f : SynFilter) :
    NoTokenWithError (synNext U call f) := by
  intro s r s' h1 h2
  unfold synNext at h1
  split at h1
  · simp only [Go.ret_inj, Prod.mk.injEq] at h1
    rw [← h1.1]
  · split at h1
    · obtain ⟨⟨t, q⟩, -, h3⟩ := Go.bind_eq_ret.mp h1
      simp only [Go.pure_eq, Go.ret_inj, Prod.mk.injEq] at h3
      rw [← h3.1] at h2
      exact absurd rfl h2
    · obtain ⟨⟨err, t⟩, -, h3⟩ := Go.bind_eq_ret.mp h1
      simp only at h3
      split at h3
      · simp only [Go.pure_eq, Go.ret_inj, Prod.mk.injEq] at h3
        rw [← h3.1]
      · split at h3
        · obtain ⟨⟨t, q⟩, -, h4⟩ := Go.bind_eq_ret.mp h3
          simp only [Go.pure_eq, Go.ret_inj, Prod.mk.injEq] at h4
          rw [← h4.1] at h2
          exact absurd rfl h2
        · simp only [Go.pure_eq, Go.ret_inj, Prod.mk.injEq] at h3
          rw [← h3.1]

theorem synClosure_noToken {σ : Type} (U : Unicode) (built : Go (Except Err SynFilter)) (call : NextFn σ) :
    NoTokenWithError (synClosure U built call) := by
  intro s r s' h1 h2
  obtain ⟨b, -, h3⟩ := Go.bind_eq_ret.mp h1
  cases b with
  | error e =>
    simp only [Go.pure_eq, Go.ret_inj, Prod.mk.injEq] at h3
    rw [← h3.1]
  | ok f => exact synNext_noToken U call f _ _ _ h3 h2

theorem webLoop_spec {σ : Type} {call : NextFn σ} (hne : NoTokenWithError (TS.next call))
    (toks : List Token) (e : End) : ∀ (s : TS σ) (w : Response) (b : Bytes),
      Emits (TS.next call) toks e s →
      webLoop call s w b = Go.ret (if e = .eof then w else w.writeHeader 500, b ++ toks.flatMap rendered) := by
  induction toks with
  | nil =>
    intro s w b h
    cases e with
    | eof =>
      obtain ⟨x, h1, _⟩ := Quiet.step h
      rw [webLoop, h1]
      simp
    | fail err =>
      obtain ⟨tok, x, h1⟩ := h
      have := hne _ _ _ h1 (by simp)
      simp only at this
      subst this
      rw [webLoop, h1]
      simp
  | cons t ts ih =>
    intro s w b h
    rw [Emits.cons] at h
    obtain ⟨x, h1, h2⟩ := h
    rw [webLoop, h1]
    simp only [Go.ret_bind, Option.isSome_none, Bool.false_eq_true, ↓reduceIte, Token.isLemma]
    cases hl : t.lemma
    · simp only [Bool.false_eq_true, ↓reduceIte]
      rw [ih _ _ _ h2]
      simp [rendered, hl]
    · simp only [↓reduceIte]
      rw [ih _ _ _ h2]
      simp [rendered, hl]

/-- What the demo does with a stream: on an error in it, status 500 and nothing else; otherwise the
tagged tokens. -/
theorem webRespond_spec {E : Env} (hE : E.Lawful)
    (hs : ∀ m ∈ stackOverflowMappings, (E.scan { data := m.1 }).2 = none)
    {ts : TokenStream} {toks out : List Token} {e : End} (h : ts.Yields toks e)
    (hg : Greedy (tagCompare E) (tagDict E) (wordLimit (entries E stackOverflowMappings)) toks out)
    (w : Response) :
    ∃ r, webRespond E ts w = Go.ret r ∧
      r.finish = if e = .eof then { w.writeHeader 200 with body := w.body ++ out.flatMap rendered }
        else w.writeHeader 500 := by
  have hy : (tags E ts).Yields (if e = .eof then out else []) e := synonyms_yields hE hs h hg
  have hl := webLoop_spec (call := (tags E ts).call)
    (TS.next_noToken (synClosure_noToken E.U (build E stackOverflowMappings true stackOverflowIgnore) ts.call))
    _ e (tags E ts).st w [] hy
  have hf : ts.filter [tags E] = tags E ts := rfl
  unfold webRespond
  rw [hf]
  simp only [hl, List.nil_append, Go.ret_bind]
  by_cases he : e = .eof
  · simp only [he, ↓reduceIte]
    by_cases hb : out.flatMap rendered = []
    · rw [if_pos hb]
      refine ⟨_, rfl, ?_⟩
      rw [hb]
      simp [Response.finish, Response.writeHeader]
    · rw [if_neg hb]
      refine ⟨_, rfl, ?_⟩
      simp only [Response.write, Response.finish, Response.writeHeader]
      cases w.status <;> rfl
  · simp only [he, ↓reduceIte, List.flatMap_nil]
    refine ⟨_, rfl, ?_⟩
    simp only [Response.finish, Response.writeHeader]
    cases w.status <;> rfl

/-- The stream the demo tags, by route: none for a route it does not know. -/
def routeStream (E : Env) (parse : HtmlParse) (body : Reader) (route : Bytes) : Option (List Token × End) :=
  if route = str "text" then some (segTokens E.U (E.scan body).1, endOf (E.scan body).2)
  else if route = str "html" then some (htmlActual E false (parse body).1 (parse body).2)
  else none

/-- **C51.** For every request other than OPTIONS:
* if the path has no route, or one other than text and html, the answer is the 404 page;
* if the tokens of the body end without error, the answer has status 200 and, read as HTML, consists of
  the characters of the tagged tokens, in order, with lemmas in a span, and no other tags;
* if there is an error, the answer has status 500 and no body.
An OPTIONS request gets status 200 and no body. All answers have the CORS headers. -/
theorem C51_web {E : Env} (hE : E.Lawful)
    (hs : ∀ m ∈ stackOverflowMappings, (E.scan { data := m.1 }).2 = none)
    (parse : HtmlParse) (r : Request) (hp : TextNonempty (parse r.body).1) :
    (r.method = str "OPTIONS" → mainHandler E parse r = Go.ret ⟨some 200, true, []⟩) ∧
    (r.method ≠ str "OPTIONS" →
      ((∀ route, IsRoute r.path route → routeStream E parse r.body route = none) →
        mainHandler E parse r = Go.ret ⟨some 404, true, str "404 page not found\n"⟩) ∧
      (∀ route toks, IsRoute r.path route → routeStream E parse r.body route = some (toks, .eof) →
        ∀ out, Greedy (tagCompare E) (tagDict E) (wordLimit (entries E stackOverflowMappings)) toks out →
        ∃ body, mainHandler E parse r = Go.ret ⟨some 200, true, body⟩ ∧ readHtml body = out.flatMap shown) ∧
      (∀ route toks e, IsRoute r.path route → routeStream E parse r.body route = some (toks, .fail e) →
        mainHandler E parse r = Go.ret ⟨some 500, true, []⟩)) := by
  have hresp : ∀ route toks e, routeStream E parse r.body route = some (toks, e) →
      ∀ out, Greedy (tagCompare E) (tagDict E) (wordLimit (entries E stackOverflowMappings)) toks out →
      ∀ w a rest, splitSlash r.path = a :: route :: rest →
      ∃ x, jargonHandler E parse w r = Go.ret x ∧
        x.finish = if e = .eof then { w.writeHeader 200 with body := w.body ++ out.flatMap rendered }
          else w.writeHeader 500 := by
    intro route toks e hr out hg w a rest hsp
    unfold jargonHandler
    rw [hsp]
    simp only
    unfold routeStream at hr
    split at hr
    · rename_i h1
      rw [if_pos h1]
      simp only [Option.some.injEq, Prod.mk.injEq] at hr
      obtain ⟨rfl, rfl⟩ := hr
      exact webRespond_spec hE hs (tokenize_yields E hE r.body) hg w
    · rename_i h1
      split at hr
      · rename_i h2
        rw [if_neg h1, if_pos h2]
        simp only [Option.some.injEq] at hr
        have hy := html_yields hE (parse r.body).1 (parse r.body).2 hp
        rw [hr] at hy
        exact webRespond_spec hE hs hy hg w
      · cases hr
  refine ⟨fun h => ?_, fun h => ⟨fun hno => ?_, fun route toks hroute hr out hg => ?_,
    fun route toks e hroute hr => ?_⟩⟩
  · unfold mainHandler
    rw [if_pos h]
    rfl
  · unfold mainHandler
    rw [if_neg h]
    have : jargonHandler E parse (cors {}) r = Go.ret (cors {}).notFound := by
      unfold jargonHandler
      split
      · rename_i a route rest hsp
        have := hno route ((splitSlash_route _ _).mpr ⟨a, rest, hsp⟩)
        unfold routeStream at this
        split at this
        · cases this
        · split at this
          · cases this
          · rename_i h1 h2
            rw [if_neg h1, if_neg h2]
      · rfl
    rw [this]
    rfl
  · obtain ⟨a, rest, hsp⟩ := (splitSlash_route _ _).mp hroute
    obtain ⟨x, hx, hf⟩ := hresp route toks .eof hr out hg (cors {}) a rest hsp
    refine ⟨out.flatMap rendered, ?_, readHtml_page out⟩
    unfold mainHandler
    rw [if_neg h, hx]
    simp only [↓reduceIte] at hf
    simp only [Go.ret_bind, Go.pure_eq, hf]
    rfl
  · obtain ⟨a, rest, hsp⟩ := (splitSlash_route _ _).mp hroute
    obtain ⟨out, hg⟩ := Greedy.total (tagCompare E) (tagDict E) (wordLimit (entries E stackOverflowMappings)) toks
    obtain ⟨x, hx, hf⟩ := hresp route toks (.fail e) hr out hg (cors {}) a rest hsp
    unfold mainHandler
    rw [if_neg h, hx]
    simp only [reduceCtorEq, ↓reduceIte] at hf
    simp only [Go.ret_bind, Go.pure_eq, hf]
    rfl

/-- **C51 (no injection).** Whatever the request, every tag in the answer is one of the two the demo
writes itself. -/
theorem C51_no_injection {E : Env} (hE : E.Lawful)
    (hs : ∀ m ∈ stackOverflowMappings, (E.scan { data := m.1 }).2 = none)
    (parse : HtmlParse) (r : Request) (hp : TextNonempty (parse r.body).1) :
    ∃ w, mainHandler E parse r = Go.ret w ∧
      ∀ t ∈ tagsIn w.body, t = str "span class=\"lemma\"" ∨ t = str "/span" := by
  have hshown : ∀ out : List Token, ∀ b : Bytes, readHtml b = out.flatMap shown →
      ∀ t ∈ tagsIn b, t = str "span class=\"lemma\"" ∨ t = str "/span" := by
    intro out b hb t ht
    rw [tagsIn, hb, List.mem_filterMap] at ht
    obtain ⟨p, hp, hpt⟩ := ht
    obtain ⟨tok, -, hp⟩ := List.mem_flatMap.mp hp
    cases p with
    | char c => simp at hpt
    | tag i =>
      simp only [Option.some.injEq] at hpt
      subst hpt
      unfold shown at hp
      split at hp <;> simp at hp
      exact hp
  have hnil : ∀ t ∈ tagsIn [], t = str "span class=\"lemma\"" ∨ t = str "/span" := by
    simp [tagsIn, readHtml]
  obtain ⟨h1, h2⟩ := C51_web hE hs parse r hp
  by_cases hm : r.method = str "OPTIONS"
  · exact ⟨_, h1 hm, hnil⟩
  · obtain ⟨h3, h4, h5⟩ := h2 hm
    by_cases hno : ∀ route, IsRoute r.path route → routeStream E parse r.body route = none
    · refine ⟨_, h3 hno, ?_⟩
      have : tagsIn (str "404 page not found\n") = [] := by
        have hx : ∀ s : Bytes, 0x3C ∉ s → 0x26 ∉ s → readHtml s = s.map HtmlPart.char := by
          intro s
          induction s with
          | nil => intros; simp [readHtml]
          | cons b s ih =>
            intro ha hb
            simp only [List.mem_cons, not_or] at ha hb
            rw [readHtml, if_neg (Ne.symm ha.1), if_neg (Ne.symm hb.1), ih ha.2 hb.2]
            rfl
        rw [tagsIn, hx _ (by decide +kernel) (by decide +kernel)]
        simp
      simp only [this]
      simp
    · simp only [not_forall] at hno
      obtain ⟨route, hroute, hr⟩ := hno
      cases hrs : routeStream E parse r.body route with
      | none => exact absurd hrs hr
      | some p =>
        obtain ⟨toks, e⟩ := p
        cases e with
        | eof =>
          obtain ⟨out, hg⟩ := Greedy.total (tagCompare E) (tagDict E)
            (wordLimit (entries E stackOverflowMappings)) toks
          obtain ⟨body, hb, hx⟩ := h4 route toks hroute hrs out hg
          exact ⟨_, hb, hshown out body hx⟩
        | fail e => exact ⟨_, h5 route toks e hroute hrs, hnil⟩

/-- **C51 (displayed text).** The text the answer displays is the text of the tagged tokens. -/
theorem C51_displayed (out : List Token) (body : Bytes) (h : readHtml body = out.flatMap shown) :
    displayed body = showNul (text out) := by
  rw [displayed, h]
  clear h
  induction out with
  | nil => rfl
  | cons t ts ih =>
    have : showNul (text (t :: ts)) = showNul t.value ++ showNul (text ts) := by
      simp [showNul, text]
    rw [List.flatMap_cons, List.filterMap_append, ih, this]
    congr 1
    unfold shown
    split
    · simp [List.filterMap_map, Function.comp_def]
    · simp [List.filterMap_map, Function.comp_def]

theorem C51_health (r : Request) : healthCheckHandler r = ⟨some 200, true, str "ok"⟩ := rfl

/-! The hypotheses hold of the sample environment, and a page with an attempt at injection. -/

example : ∀ m ∈ stackOverflowMappings, (latinEnv.scan { data := m.1 }).2 = none :=
  fun m _ => (latinEnv_cuts m.1).scans

example : IsRoute (str "/text/") (str "text") := ⟨[], str "/", by decide +kernel, by decide, by decide +kernel,
  .inr (by decide +kernel)⟩

example : rendered (lw "<b>") = str "&lt;b&gt;" ∧ rendered (lc "a&b") =
    str "<span class=\"lemma\">a&amp;b</span>" := by decide +kernel

example : shown (lc "<") = [.tag (str "span class=\"lemma\""), .char 0x3C, .tag (str "/span")] := by
  decide +kernel

end Jargon
