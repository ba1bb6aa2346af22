import Verif.Props.CliTags
import Verif.Props.Pipeline
import Verif.Proofs.LineFeeds

/-! C95: the flags `-lines` and `-count`: one line for each token, and the number of the lines. -/

namespace Jargon

/-- The program gets `input` from a pipe, can write, and reads HTML. -/
structure Piped [HtmlReader] {ω : Type} (w : Place → Writer ω) (W : World (ω × Bytes)) (input : Bytes) : Prop where
  writes : ∀ p, (w p).NeverFails
  writer : ∀ p, W.writer p = logged (w p)
  html : ∀ doc, W.parse { data := doc } = (htmlTokens doc, none)
  pipe : ∃ mode, W.mode = .ok mode ∧ isTerminal mode = false
  stdin : W.stdin = { data := input }

/-- The program with these arguments ends with success and has written `out` to its output. -/
def Writes {ω : Type} (W : World (ω × Bytes)) (args : List Bytes) (out : Bytes) : Prop :=
  ∃ b, jargonMain W args = Go.ret (.ok (.success, some (.std, b))) ∧ b.under.2 = (W.under .std).2 ++ out

/-- `-html`, or not, the filters, and one more flag. -/
def commandLine (html : Bool) (fl : List FilterFlag) (last : String) : List Bytes :=
  (if html then [str "-" ++ str "html"] else []) ++ (fl.map fun f => str "-" ++ f.name) ++ [str "-" ++ str last]

/-- The program with `-count` writes the number of the lines that it writes with `-lines`. -/
def CountsLines {ω : Type} (W : World (ω × Bytes)) (html : Bool) (fl : List FilterFlag) : Prop :=
  ∃ out ds, Writes W (commandLine html fl "lines") out ∧ Writes W (commandLine html fl "count") (ds ++ [0x0A]) ∧
    Decimal (out.count 0x0A) ds

/-- What the filters deliver for a text or a page. -/
def CliTokens [HtmlReader] {ω : Type} (W : World ω) (input : Bytes) (html : Bool) (fl : List FilterFlag) (toks : List Token) : Prop :=
  ((if html then tokenizeHTML W.E (htmlTokens input) none else tokenize W.E { data := input }).filter
    (fl.map fun f => (f.filter W.snowball .english).apply W.E)).Yields toks .eof

/-- **C95, as one would like it.** `-count` is the number of lines of `-lines`. -/
def C95_full [HtmlReader] (E : Env) : Prop := ∀ (ω : Type) (w : Place → Writer ω) (W : World (ω × Bytes)) (input : Bytes), Piped w W input →
  W.E = E → ∀ html fl toks, CliTokens W input html fl toks → CountsLines W html fl

/-! ### proofs -/

theorem setFlag_filter (v : Flags) (f : FilterFlag) : setFlag v (f.name, .bool true) = v := by
  have h : ∀ f : FilterFlag, f.name ≠ str "html" ∧ f.name ≠ str "count" ∧ f.name ≠ str "lines" ∧ f.name ≠ str "version" := by
    intro f; cases f <;> decide +kernel
  obtain ⟨h1, h2, h3, h4⟩ := h f
  simp [setFlag, h1, h2, h3, h4]

theorem parse_last {last : String} (hl : last = "lines" ∨ last = "count") (fl : List FilterFlag) :
    parseFlags ((fl.map fun f => str "-" ++ f.name) ++ [str "-" ++ str last]) =
      .ok ((fl.map fun f => (f.name, FlagValue.bool true)) ++ [(str last, .bool true)]) := by
  induction fl with
  | nil =>
    simp only [List.map_nil, List.nil_append]
    rw [parse_bool _ (by rcases hl with rfl | rfl <;> decide +kernel), parseFlags]
    rfl
  | cons f fl ih =>
    simp only [List.map_cons, List.cons_append]
    rw [parse_bool _ (by cases f <;> decide +kernel), ih]
    rfl

theorem parse_line {last : String} (hl : last = "lines" ∨ last = "count") (html : Bool) (fl : List FilterFlag) :
    ∃ st, parseFlags (commandLine html fl last) = .ok st ∧
      flagValues st = { html := html, lines := last == "lines", count := last == "count" } ∧
      (commandLine html fl last).filterMap flagOf = fl := by
  have hv : ∀ v : Flags, (fl.map fun f => (f.name, FlagValue.bool true)).foldl setFlag v = v := by
    intro v
    induction fl with
    | nil => rfl
    | cons f fl ih => rw [List.map_cons, List.foldl_cons, setFlag_filter, ih]
  have hf : ((fl.map fun f => str "-" ++ f.name) ++ [str "-" ++ str last]).filterMap flagOf = fl := by
    rw [List.filterMap_append, List.filterMap_map,
      show ([str "-" ++ str last].filterMap flagOf : List FilterFlag) = [] by
        rcases hl with rfl | rfl <;> decide +kernel, List.append_nil]
    have : flagOf ∘ (fun f : FilterFlag => str "-" ++ f.name) = some := by
      funext f
      cases f <;> decide +kernel
    rw [this, List.filterMap_some]
  have e1 : setFlag {} (str "lines", .bool true) = { lines := true } := by decide +kernel
  have e2 : setFlag {} (str "count", .bool true) = { count := true } := by decide +kernel
  have e3 : setFlag {} (str "html", .bool true) = { html := true } := by decide +kernel
  have e4 : setFlag { html := true } (str "lines", .bool true) = { html := true, lines := true } := by decide +kernel
  have e5 : setFlag { html := true } (str "count", .bool true) = { html := true, count := true } := by decide +kernel
  cases html with
  | false =>
    refine ⟨_, parse_last hl fl, ?_, hf⟩
    · rw [flagValues, List.foldl_append, hv]
      rcases hl with rfl | rfl
      · exact e1
      · exact e2
  | true =>
    have hh : flagOf (str "-" ++ str "html") = none := by decide +kernel
    refine ⟨(str "html", .bool true) :: ((fl.map fun f => (f.name, FlagValue.bool true)) ++ [(str last, .bool true)]),
      ?_, ?_, ?_⟩
    · rw [commandLine, if_pos rfl, List.append_assoc, List.singleton_append, parse_bool _ (by decide +kernel), parse_last hl]
      rfl
    · rw [flagValues, List.foldl_cons, e3, List.foldl_append, hv]
      rcases hl with rfl | rfl
      · exact e4
      · exact e5
    · rw [commandLine, if_pos rfl, List.append_assoc, List.singleton_append, List.filterMap_cons, hh]
      exact hf

theorem Writes.unique {ω : Type} {W : World (ω × Bytes)} {args : List Bytes} {out out' : Bytes}
    (h : Writes W args out) (h' : Writes W args out') : out = out' := by
  obtain ⟨b, h1, h2⟩ := h
  obtain ⟨b', h1', h2'⟩ := h'
  rw [h1] at h1'
  have hb : b = b' := by
    have := Go.ret_inj.1 h1'
    simpa using this
  subst hb
  rw [h2] at h2'
  exact List.append_cancel_left h2'

theorem writes_output [HtmlReader] {ω : Type} {w : Place → Writer ω} {W : World (ω × Bytes)} {input : Bytes} (hW : Piped w W input)
    {html : Bool} {fl : List FilterFlag} {toks : List Token} (h : CliTokens W input html fl toks) {last : String}
    (hl : last = "lines" ∨ last = "count") :
    ∃ out, IsOutput (last == "count") (last == "lines") toks out ∧ Writes W (commandLine html fl last) out := by
  obtain ⟨st, h1, h2, h3⟩ := parse_line hl html fl
  obtain ⟨mode, hm, ht⟩ := hW.pipe
  have hy : (programStream W { html := html, lines := last == "lines", count := last == "count" } (commandLine html fl last)
      .english (W.source W.fs .std)).Yields toks .eof := by
    simp only [programStream, World.source, hW.stdin, hW.html, h3]
    exact h
  obtain ⟨out, exit, b, k1, k2, -, -, k5, k6⟩ := C49_program (fun p => (hW.writes p).lawful) W hW.writer
    { html := html, lines := last == "lines", count := last == "count" } rfl (commandLine html fl last) hm
    (src := .std) (dst := .std) (fs := W.fs) (l := .english)
    (by simp [inputChoice, named, ht]) (by simp [outputChoice, named])
    (show langOf (str "english") = _ by decide +kernel) (by intro i hi; cases hi) hy
  have hx : exit = .success := k6 (hW.writes .std)
  subst hx
  refine ⟨out, k1, b, ?_, (k5 rfl).2⟩
  rw [jargonMain, h1]
  simp only [h2, k2, Go.ret_bind, Go.pure_eq]

theorem decimalValue_concat (ds : Bytes) (d : UInt8) : decimalValue (ds ++ [d]) = 10 * decimalValue ds + (d.toNat - 48) := by
  simp [decimalValue]

theorem decimalValue_pos : ∀ {ds : Bytes}, (∀ d ∈ ds, 48 ≤ d.toNat ∧ d.toNat ≤ 57) → ds ≠ [] → ds.head? ≠ some 48 →
    0 < decimalValue ds := by
  intro ds
  induction ds using List.reverseRecOn with
  | nil => simp
  | append_singleton xs x ih =>
    intro h1 _ h3
    rw [decimalValue_concat]
    cases xs with
    | nil =>
      have := h1 x (by simp)
      have hx : x.toNat ≠ 48 := fun h => h3 (by simp; exact UInt8.toNat_inj.1 h)
      omega
    | cons y ys =>
      have := ih (fun d hd => h1 d (by simp at hd ⊢; tauto)) (by simp) (by simpa using h3)
      omega

theorem decimal_unique : ∀ {ds ds' : Bytes}, (∀ d ∈ ds, 48 ≤ d.toNat ∧ d.toNat ≤ 57) →
    (∀ d ∈ ds', 48 ≤ d.toNat ∧ d.toNat ≤ 57) → ds.head? ≠ some 48 → ds'.head? ≠ some 48 →
    decimalValue ds = decimalValue ds' → ds = ds' := by
  intro ds
  induction ds using List.reverseRecOn with
  | nil =>
    intro ds' _ h2 _ h4 h
    by_contra hne
    have := decimalValue_pos h2 (fun h' => hne h'.symm) h4
    rw [← h] at this
    simp [decimalValue] at this
  | append_singleton xs x ih =>
    intro ds' h1 h2 h3 h4 h
    rcases ds'.eq_nil_or_concat with rfl | ⟨ys, y, rfl⟩
    · have := decimalValue_pos h1 (by simp) h3
      rw [h] at this
      simp [decimalValue] at this
    · simp only [List.concat_eq_append] at *
      rw [decimalValue_concat, decimalValue_concat] at h
      have hx := h1 x (by simp)
      have hy := h2 y (by simp)
      have hxy : x = y := UInt8.toNat_inj.1 (by omega)
      have hv : decimalValue xs = decimalValue ys := by omega
      have hh : ∀ (l : Bytes) (z : UInt8), (l ++ [z]).head? ≠ some 48 → l.head? ≠ some 48 := by
        intro l z hl
        cases l <;> simp_all
      rw [hxy, ih (fun d hd => h1 d (by simp [hd])) (fun d hd => h2 d (by simp [hd])) (hh _ _ h3) (hh _ _ h4) hv]

/-- A number has one decimal notation. -/
theorem Decimal.unique {n : Nat} {ds ds' : Bytes} (h : Decimal n ds) (h' : Decimal n ds') : ds = ds' := by
  have hv := h.value.trans h'.value.symm
  by_cases h1 : ds.head? = some 48 <;> by_cases h2 : ds'.head? = some 48
  · rw [h.noLeadingZero h1, h'.noLeadingZero h2]
  · have := decimalValue_pos h'.digits h'.nonempty h2
    rw [← hv, h.noLeadingZero h1] at this
    exact absurd this (by decide)
  · have := decimalValue_pos h.digits h.nonempty h1
    rw [hv, h'.noLeadingZero h2] at this
    exact absurd this (by decide)
  · exact decimal_unique h.digits h'.digits h1 h2 hv

theorem asLines_count (cs : List Bytes) : (asLines cs).count 0x0A = cs.length + (cs.map (List.count 0x0A)).sum := by
  induction cs with
  | nil => rfl
  | cons c cs ih =>
    have : asLines (c :: cs) = c ++ [0x0A] ++ asLines cs := rfl
    rw [this, List.count_append, List.count_append, ih]
    simp only [List.length_cons, List.map_cons, List.sum_cons, List.count_singleton_self]
    omega

/-! ### statements -/

/-- **C95 (outputs).** Whatever the filters deliver: `-lines` writes each token and a line feed after it, the last one
too, and `-count` their number, in a line. -/
theorem C95_outputs [HtmlReader] {ω : Type} {w : Place → Writer ω} {W : World (ω × Bytes)} {input : Bytes} (hW : Piped w W input)
    {html : Bool} {fl : List FilterFlag} {toks : List Token} (h : CliTokens W input html fl toks) :
    Writes W (commandLine html fl "lines") (toks.flatMap fun t => t.value ++ [0x0A]) ∧
      ∃ ds, Decimal toks.length ds ∧ Writes W (commandLine html fl "count") (ds ++ [0x0A]) := by
  obtain ⟨out, h1, h2⟩ := writes_output hW h (.inl rfl)
  obtain ⟨out', h1', h2'⟩ := writes_output hW h (.inr rfl)
  have e1 : ("lines" == "count") = false := by decide
  simp only [IsOutput, e1, beq_self_eq_true, ↓reduceIte, Bool.false_eq_true, cliText] at h1 h1'
  subst h1
  obtain ⟨ds, hd, rfl⟩ := h1'
  exact ⟨h2, ds, hd, h2'⟩

/-- **C95 (exactly).** `-count` is the number of lines of `-lines` if and only if no token has a line feed in it. -/
theorem C95_exact [HtmlReader] {ω : Type} {w : Place → Writer ω} {W : World (ω × Bytes)} {input : Bytes} (hW : Piped w W input)
    {html : Bool} {fl : List FilterFlag} {toks : List Token} (h : CliTokens W input html fl toks) :
    CountsLines W html fl ↔ ∀ t ∈ toks, 0x0A ∉ t.value := by
  obtain ⟨h1, ds, hd, h2⟩ := C95_outputs hW h
  have hc : (toks.flatMap fun t => t.value ++ [0x0A]) = asLines (toks.map Token.value) := by
    rw [asLines, List.flatMap_map]
  have hn := asLines_count (toks.map Token.value)
  rw [← hc, List.length_map, List.map_map] at hn
  constructor
  · rintro ⟨out, ds', k1, k2, k3⟩ t ht hlf
    have e1 := k1.unique h1
    have e2 := List.append_cancel_right (k2.unique h2)
    subst e1 e2
    have hv := k3.value.symm.trans hd.value
    rw [hn] at hv
    have hs : ((toks.map (List.count 0x0A ∘ Token.value))).sum = 0 := by omega
    rw [List.sum_eq_zero_iff_forall_eq_nat] at hs
    have := hs _ (List.mem_map.2 ⟨t, ht, rfl⟩)
    exact List.count_eq_zero.1 this hlf
  · intro hall
    refine ⟨_, ds, h1, h2, ?_⟩
    have hs : ((toks.map (List.count 0x0A ∘ Token.value))).sum = 0 := by
      rw [List.sum_eq_zero_iff_forall_eq_nat]
      intro n hn
      obtain ⟨t, ht, rfl⟩ := List.mem_map.1 hn
      exact List.count_eq_zero.2 (hall t ht)
    rw [hn, hs]
    exact hd

/-- **C95 (reading back).** Without line feeds in them, the tokens can be read back from the lines. -/
theorem C95_read_back : ∀ {cs cs' : List Bytes}, (∀ c ∈ cs, 0x0A ∉ c) → (∀ c ∈ cs', 0x0A ∉ c) →
    (cs.flatMap fun c => c ++ [0x0A]) = (cs'.flatMap fun c => c ++ [0x0A]) → cs = cs'
  | [], [], _, _, _ => rfl
  | [], c :: cs, _, _, h => by simp at h
  | c :: cs, [], _, _, h => by simp at h
  | c :: cs, c' :: cs', h1, h2, h => by
    simp only [List.flatMap_cons, List.append_assoc, List.singleton_append] at h
    have key : ∀ {a b x y : Bytes}, 0x0A ∉ a → 0x0A ∉ b → a ++ 0x0A :: x = b ++ 0x0A :: y → a = b ∧ x = y := by
      intro a
      induction a with
      | nil =>
        intro b x y _ hb h
        cases b with
        | nil => simpa using h
        | cons z b =>
          simp only [List.nil_append, List.cons_append, List.cons.injEq] at h
          exact absurd (by simp [h.1]) hb
      | cons z a ih =>
        intro b x y ha hb h
        cases b with
        | nil =>
          simp only [List.nil_append, List.cons_append, List.cons.injEq] at h
          exact absurd (by simp [h.1]) ha
        | cons z' b =>
          simp only [List.cons_append, List.cons.injEq] at h
          have := ih (fun hm => ha (by simp [hm])) (fun hm => hb (by simp [hm])) h.2
          exact ⟨by rw [h.1, this.1], this.2⟩
    obtain ⟨e1, e2⟩ := key (h1 c (by simp)) (h2 c' (by simp)) h
    rw [e1, C95_read_back (fun c hc => h1 c (by simp [hc])) (fun c hc => h2 c (by simp [hc])) e2]

/-! ### where there are no line feeds -/

theorem soRows_lf : soRows.flatten.all (fun r => (runesB r.2).all fun x => Nat.blt 10 x) = true := by decide +kernel

theorem contraction_lf : ∀ m ∈ contractionMappings, 0x0A ∉ m.2 := by decide +kernel

theorem tagDict_lf {E : Env} : ∀ q c, tagDict E q = some c → 0x0A ∉ c := by
  intro q c hq hc
  rw [tagDict, stackOverflow_rows] at hq
  obtain ⟨b, hb, -, rfl⟩ := dict_some hq
  simp only [entries, List.mem_flatMap, List.mem_map] at hb
  obtain ⟨m, hm, p, hp, rfl⟩ := hb
  simp only [tableOf, List.mem_map] at hm
  obtain ⟨row, hrow, rfl⟩ := hm
  have h1 := List.all_eq_true.1 (List.all_eq_true.1 soRows_lf row hrow) 10
    (by rw [runesB_eq]; exact (mem_runes_iff (b := 0x0A) (by decide)).2 hc)
  exact absurd h1 (by decide)

/-- Every token of the result is one of the tokens, or one of a canonical. -/
theorem greedy_mem {C : Compare} {D : Dict} {m : Nat} {toks out : List Token} (h : Greedy C D m toks out) :
    ∀ t ∈ out, t ∈ toks ∨ ∃ q c, D q = some c ∧ t = mkToken C.U c true := by
  induction h with
  | nil => simp
  | separator _ _ ih | word _ _ _ ih =>
    intro t ht
    rcases List.mem_cons.1 ht with rfl | ht
    · exact .inl (by simp)
    · exact (ih t ht).imp_left (List.mem_cons_of_mem _)
  | @replace t ts out k c _ hl _ ih =>
    intro x hx
    rcases List.mem_append.1 hx with hx | hx
    · unfold canonTokens at hx
      split at hx
      · simp at hx
      · exact .inr ⟨_, c, hl.isSyn, by simpa using hx⟩
    · exact (ih x hx).imp_left List.mem_of_mem_drop

/-- No line feed. -/
def Token.Clean (t : Token) : Prop := 0x0A ∉ t.value

/-- If there is a line feed in it, it has not been changed, and is not a word. -/
def Token.LineEnd (t : Token) : Prop := 0x0A ∈ t.value → t.lemma = false ∧ ¬ t.IsWord ∧ IsAscii t.value

/-- If there is a line feed in it, it has not been changed. -/
def Token.Unchanged (t : Token) : Prop := 0x0A ∈ t.value → t.lemma = false

/-- What a filter flag does to tokens with line feeds. -/
theorem flag_makes {E : Env} (hE : E.Lawful) {sb : Snowball} (f : FilterFlag) (hok : (f.filter sb .english).OK E)
    (hstem : ∀ s, 0x0A ∈ sb.of .english s → 0x0A ∈ s) (toks : List Token) :
    ∃ out, Makes ((f.filter sb .english).apply E) toks .eof out .eof ∧
      ((∀ t ∈ toks, t.Clean) → ∀ t ∈ out, t.Clean) ∧ ((∀ t ∈ toks, t.LineEnd) → ∀ t ∈ out, t.LineEnd) ∧
      (f ≠ .ascii → f ≠ .stem → (∀ t ∈ toks, t.Unchanged) → ∀ t ∈ out, t.Unchanged) ∧
      (f = .lemmas → (∀ t ∈ toks, t.Unchanged) → ∀ t ∈ out, t.Clean) := by
  cases f with
  | ascii =>
    refine ⟨toks.map (foldToken E.U), fun ts h => asciiFold_yields E.U h, ?_, ?_, by simp, by simp⟩
    · intro hc t ht
      obtain ⟨u, hu, rfl⟩ := List.mem_map.1 ht
      unfold foldToken
      split
      · exact fun hlf => hc u hu (foldString_lf hlf)
      · exact hc u hu
    · intro hc t ht
      obtain ⟨u, hu, rfl⟩ := List.mem_map.1 ht
      unfold foldToken
      split
      · rename_i hf
        intro hlf
        have h3 := (hc u hu (foldString_lf hlf)).2.2
        rw [C17_ascii_unchanged _ h3] at hf
        cases hf
      · exact hc u hu
  | contractions =>
    have hb : GoodTable E contractionMappings := hok
    have key : ∀ t ∈ toks.flatMap (expandToken E contractionMappings), t ∈ toks ∨ (t.Clean ∧ t.lemma = false) := by
      intro t ht
      obtain ⟨u, hu, ht⟩ := List.mem_flatMap.1 ht
      unfold expandToken at ht
      split at ht
      · rename_i x hx
        have hm : ∃ k, (k, x) ∈ contractionMappings := by
          unfold expansion? at hx
          split at hx
          · cases hx
            exact ⟨_, lookup_mem ‹_›⟩
          · exact ⟨_, lookup_mem hx⟩
        obtain ⟨k, hm⟩ := hm
        refine .inr ⟨fun hlf => contraction_lf _ hm ?_, stringTokens_lemma _ t ht⟩
        have hsc := hb.scans k x hm
        have hfl := (hE.complete { data := x } hsc).2
        simp only [stringTokens, segTokens, List.mem_map] at ht
        obtain ⟨seg, hs, rfl⟩ := ht
        show 0x0A ∈ Reader.data { data := x }
        rw [← hfl]
        exact List.mem_flatten.2 ⟨seg, hs, hlf⟩
      · simp only [List.mem_singleton] at ht
        exact .inl (ht ▸ hu)
    refine ⟨_, fun ts h => expandWith_yields hE hb h, ?_, ?_, ?_, by simp⟩
    · exact fun hc t ht => (key t ht).elim (hc t) And.left
    · exact fun hc t ht => (key t ht).elim (hc t) fun h hlf => absurd hlf h.1
    · exact fun _ _ hc t ht => (key t ht).elim (hc t) fun h hlf => absurd hlf h.1
  | lemmas =>
    refine ⟨_, fun ts h => where_yields Token.isLemma h, ?_, ?_, ?_, ?_⟩
    · exact fun hc t ht => hc t (List.mem_filter.1 ht).1
    · exact fun hc t ht => hc t (List.mem_filter.1 ht).1
    · exact fun _ _ hc t ht => hc t (List.mem_filter.1 ht).1
    · intro _ hc t ht hlf
      have h1 := List.mem_filter.1 ht
      have := hc t h1.1 hlf
      rw [Token.isLemma, this] at h1
      cases h1.2
  | distinct =>
    refine ⟨_, fun ts h => distinct_yields h, ?_, ?_, ?_, by simp⟩
    · exact fun hc t ht => hc t ((firsts_sublist toks).subset ht)
    · exact fun hc t ht => hc t ((firsts_sublist toks).subset ht)
    · exact fun _ _ hc t ht => hc t ((firsts_sublist toks).subset ht)
  | stack =>
    obtain ⟨out, hg⟩ := Greedy.total (tagCompare E) (tagDict E) (wordLimit (entries E stackOverflowMappings)) toks
    have key : ∀ t ∈ out, t ∈ toks ∨ t.Clean := fun t ht =>
      (greedy_mem hg t ht).imp_right fun ⟨q, c, hq, he⟩ => by rw [he]; exact tagDict_lf q c hq
    refine ⟨out, fun ts h => ?_, ?_, ?_, ?_, by simp⟩
    · have := synonyms_yields hE hok h hg
      rw [if_pos rfl] at this
      exact this
    · exact fun hc t ht => (key t ht).elim (hc t) id
    · exact fun hc t ht => (key t ht).elim (hc t) fun h hlf => absurd hlf h
    · exact fun _ _ hc t ht => (key t ht).elim (hc t) fun h hlf => absurd hlf h
  | stem =>
    refine ⟨toks.map (stemToken E.U (sb.of .english)), fun ts h => stemmer_yields (fun t _ => hok _) h, ?_, ?_,
      by simp, by simp⟩
    · intro hc t ht
      obtain ⟨u, hu, rfl⟩ := List.mem_map.1 ht
      unfold stemToken
      split
      · exact fun hlf => hc u hu (hstem _ hlf)
      · exact hc u hu
    · intro hc t ht
      obtain ⟨u, hu, rfl⟩ := List.mem_map.1 ht
      unfold stemToken
      split
      · rename_i hw
        exact fun hlf => absurd hw.1 (hc u hu (hstem _ hlf)).2.1
      · exact hc u hu

theorem flags_clean {E : Env} (hE : E.Lawful) {sb : Snowball} (hstem : ∀ s, 0x0A ∈ sb.of .english s → 0x0A ∈ s) :
    ∀ (fl : List FilterFlag), (∀ f ∈ fl, (f.filter sb .english).OK E) → ∀ (toks : List Token) (ts : TokenStream),
      ts.Yields toks .eof → ∃ out, (ts.filter (fl.map fun f => (f.filter sb .english).apply E)).Yields out .eof ∧
        ((∀ t ∈ toks, t.Clean) → ∀ t ∈ out, t.Clean) ∧
        (.lemmas ∈ fl → (∀ t ∈ toks, t.LineEnd) → ∀ t ∈ out, t.Clean) ∧
        (∀ pre post, fl = pre ++ .lemmas :: post → .ascii ∉ pre → .stem ∉ pre → (∀ t ∈ toks, t.Unchanged) →
          ∀ t ∈ out, t.Clean)
  | [], _, toks, ts, h => ⟨toks, h, id, by simp, by simp⟩
  | f :: fl, hok, toks, ts, h => by
    obtain ⟨mid, hm, m1, m2, m3, m4⟩ := flag_makes hE f (hok f (by simp)) hstem toks
    obtain ⟨out, ho, o1, o2, o3⟩ := flags_clean hE hstem fl (fun g hg => hok g (by simp [hg])) mid _ (hm ts h)
    refine ⟨out, ho, fun hc => o1 (m1 hc), fun hl hc => ?_, fun pre post he ha hs hc => ?_⟩
    · by_cases hf : f = .lemmas
      · exact o1 (m4 hf fun t ht hlf => (hc t ht hlf).1)
      · exact o2 (by simpa [Ne.symm hf] using hl) (m2 hc)
    · cases pre with
      | nil =>
        simp only [List.nil_append, List.cons.injEq] at he
        exact o1 (m4 he.1 hc)
      | cons g pre =>
        simp only [List.cons_append, List.cons.injEq] at he
        obtain ⟨rfl, he⟩ := he
        simp only [List.mem_cons, not_or] at ha hs
        exact o3 pre post he ha.2 hs.2 (m3 (Ne.symm ha.1) (Ne.symm hs.1) hc)

/-- The stemmer makes no line feeds, and of a word something. -/
def GoodStem (stem : Bytes → Bytes) : Prop := ∀ s, (stem s = [] → s = []) ∧ (0x0A ∈ stem s → 0x0A ∈ s)

theorem flag_ok {E : Env} {cls : WordTable} (hF : E.FollowsUax29 cls) (hR : cls.Right) {sb : Snowball}
    (hs : GoodStem (sb.of .english)) (f : FilterFlag) : (f.filter sb .english).OK E := by
  have hlaw := C76_scanner_laws hF hR
  cases f with
  | contractions => exact hlaw.2.2.2
  | stack => exact fun m hm => (hlaw.2.1 m hm).scans
  | stem => exact fun s => (hs s).1
  | ascii | lemmas | distinct => exact trivial

/-- **C95, partial (texts).** For a text without overlong words, and filters of which one is `-lemmas`, `-count` is the
number of lines of `-lines`. -/
theorem C95_text_partial [HtmlReader] {ω : Type} {w : Place → Writer ω} {W : World (ω × Bytes)} {text : Bytes} {cls : WordTable}
    (hW : Piped w W text) (hE : W.E.Lawful) (hF : W.E.FollowsUax29 cls) (hR : cls.Right) (hlen : Fits cls text)
    {fl : List FilterFlag} (hstem : GoodStem (W.snowball.of .english)) (hl : .lemmas ∈ fl) : CountsLines W false fl := by
  have h0 := tokenize_yields W.E hE { data := text }
  rw [hF text hlen] at h0
  obtain ⟨out, ho, -, h2, -⟩ := flags_clean hE (fun s => (hstem s).2) fl (fun f _ => flag_ok hF hR hstem f) _ _ h0
  refine (C95_exact hW (html := false) ho).2 (h2 hl fun t ht hlf => ?_)
  simp only [segTokens, List.mem_map] at ht
  obtain ⟨seg, hs, rfl⟩ := ht
  rcases wordSegs_lf hR seg hs hlf with rfl | rfl
  · exact ⟨rfl, fun hw => absurd hw.2 (by simp [mkToken]; decide +kernel), by simp [mkToken, IsAscii]⟩
  · exact ⟨rfl, fun hw => absurd hw.2 (by simp [mkToken]; decide +kernel), by simp [mkToken, IsAscii]⟩

theorem htmlActual_unchanged (E : Env) (final : Option Err) :
    ∀ (hs : List HTok) (raw : Bool), ∀ t ∈ (htmlActual E raw hs final).1, t.lemma = false
  | [], _, t, ht => by simp [htmlActual] at ht
  | h :: hs, raw, t, ht => by
    have ih := htmlActual_unchanged E final hs
    rw [htmlActual] at ht
    have hseg : ∀ segs, t ∈ segTokens E.U segs → t.lemma = false := by
      intro segs hm
      simp only [segTokens, List.mem_map] at hm
      obtain ⟨seg, -, rfl⟩ := hm
      rfl
    split at ht
    · split at ht
      · rcases List.mem_cons.1 ht with rfl | ht
        · rfl
        · exact ih _ t ht
      · split at ht
        · rcases List.mem_append.1 ht with ht | ht
          · exact hseg _ ht
          · exact ih _ t ht
        · exact hseg _ ht
    · rcases List.mem_cons.1 ht with rfl | ht
      · rfl
      · exact ih _ t ht

/-- **C95, partial (pages).** For a page whose texts can be scanned, and filters of which one is `-lemmas`, with neither
`-ascii` nor `-stem` before it, `-count` is the number of lines of `-lines`. -/
theorem C95_html_partial [HtmlReader] {ω : Type} {w : Place → Writer ω} {W : World (ω × Bytes)} {doc : Bytes} {cls : WordTable}
    (hW : Piped w W doc) (hE : W.E.Lawful) (hF : W.E.FollowsUax29 cls) (hR : cls.Right)
    (hscan : TextScans W.E (htmlTokens doc)) {pre post : List FilterFlag} (hstem : GoodStem (W.snowball.of .english)) (ha : .ascii ∉ pre) (hs : .stem ∉ pre) :
    CountsLines W true (pre ++ .lemmas :: post) := by
  have hne := textNonempty_readable (htmlTokens_readable doc)
  have h0 := html_yields hE (htmlTokens doc) none hne
  obtain ⟨toks, h1, -⟩ := C45_html_text W.E hE (htmlTokens doc) none hne hscan
  rw [(h0.unique h1).2] at h0
  obtain ⟨out, ho, -, -, h3⟩ := flags_clean hE (fun s => (hstem s).2) _ (fun f _ => flag_ok hF hR hstem f) _ _ h0
  exact (C95_exact hW (html := true) ho).2
    (h3 pre post rfl ha hs fun t ht _ => htmlActual_unchanged W.E none _ _ t ht)

/-! ### where there are line feeds -/

theorem pipeWorld_piped [HtmlReader] (E : Env) (input : Bytes) : Piped (fun _ => goodWriter) (pipeWorld E input) input where
  writes _ := goodWriter_neverFails
  writer _ := rfl
  html _ := rfl
  pipe := ⟨0, rfl, by decide⟩
  stdin := rfl

/-- **C95 is false, for texts.** For a line feed `-lines` writes two lines, and `-count` writes 1. -/
theorem C95_violated [HtmlReader] {E : Env} (hE : E.Lawful) (hs : (E.scan { data := [0x0A] }).2 = none) :
    ¬ C95_full E ∧ ∃ W : World (Unit × Bytes), W.E = E ∧ W.stdin = { data := [0x0A] } ∧
      Writes W [str "-lines"] [0x0A, 0x0A] ∧ Writes W [str "-count"] (str "1\n") := by
  have h0 := tokenize_yields E hE { data := [0x0A] }
  have hseg : (E.scan { data := [0x0A] }).1 = [[0x0A]] := by
    have h1 := hE.nonempty { data := [0x0A] }
    have h2 := (hE.complete { data := [0x0A] } hs).2
    generalize (E.scan { data := [0x0A] }).1 = segs at h1 h2
    match segs, h1, h2 with
    | [], _, h2 => simp at h2
    | [] :: _, h1, _ => exact absurd rfl (h1 [] (by simp))
    | (b :: bs) :: rest, h1, h2 =>
      simp only [List.flatten_cons, List.cons_append, List.cons.injEq, List.append_eq_nil_iff] at h2
      obtain ⟨rfl, rfl, h3⟩ := h2
      match rest, h1, h3 with
      | [], _, _ => rfl
      | r :: rest, h1, h3 =>
        simp only [List.flatten_cons, List.append_eq_nil_iff] at h3
        exact absurd h3.1 (h1 r (by simp))
  rw [hs, hseg] at h0
  have ht : CliTokens (pipeWorld E [0x0A]) [0x0A] false [] [mkToken E.U [0x0A] false] := h0
  refine ⟨fun h => ?_, pipeWorld E [0x0A], rfl, rfl, ?_⟩
  · have := (C95_exact (pipeWorld_piped E [0x0A]) ht).1 (h _ _ _ _ (pipeWorld_piped E [0x0A]) rfl _ _ _ ht)
    exact this _ (List.mem_singleton.2 rfl) (by simp [mkToken])
  · obtain ⟨h1, ds, hd, h2⟩ := C95_outputs (pipeWorld_piped E [0x0A]) ht
    have e1 : commandLine false [] "lines" = [str "-lines"] := by decide +kernel
    have e2 : commandLine false [] "count" = [str "-count"] := by decide +kernel
    rw [e1] at h1
    rw [e2] at h2
    refine ⟨h1, ?_⟩
    have : ds = [0x31] := hd.unique (show Decimal 1 [0x31] from ⟨by decide, by decide, by decide, by decide⟩)
    subst this
    rw [show str "1\n" = [0x31] ++ [0x0A] by decide +kernel]
    exact h2

-- The readings below are computed with one concrete reader of HTML.
attribute [local instance] sampleReader

/-- A page with a tag that has a line feed in it. -/
def linePage : Bytes := str "<a title=\"é\n\">"

/-- **C95 is false, for pages, with -lemmas too.** With `-ascii` before `-lemmas`, the tag of this page is a lemma with
a line feed in it: `-lines` writes two lines, and `-count` 1. -/
theorem C95_violated_html {E : Env} (hE : E.Lawful) :
    ∃ W : World (Unit × Bytes), W.E = E ∧ W.stdin = { data := linePage } ∧
      ¬ CountsLines W true [.ascii, .lemmas] ∧
      Writes W (commandLine true [.ascii, .lemmas] "lines") (str "<a title=\"e\n\">\n") := by
  have hh : htmlTokens linePage = [⟨.startTag, .other 0, str "a", [(str "title", str "é\n")]⟩] := by decide +kernel
  have h0 := html_yields hE (htmlTokens linePage) none (textNonempty_readable (htmlTokens_readable _))
  have e0 : htmlActual E false (htmlTokens linePage) none = ([⟨linePage, true, false, false⟩], .eof) := by
    rw [hh]
    have : HTok.string ⟨.startTag, .other 0, str "a", [(str "title", str "é\n")]⟩ = linePage := by decide +kernel
    simp [htmlActual, emit, endOf, this]
  rw [e0] at h0
  have h1 := where_yields Token.isLemma (asciiFold_yields E.U h0)
  have e1 : foldString linePage = (str "<a title=\"e\n\">", true) := by decide +kernel
  simp only [List.map_cons, List.map_nil, foldToken, e1, ↓reduceIte] at h1
  have ht : CliTokens (pipeWorld E linePage) linePage true [.ascii, .lemmas]
      [mkToken E.U (str "<a title=\"e\n\">") true] := h1
  refine ⟨pipeWorld E linePage, rfl, rfl, fun h => ?_, ?_⟩
  · have := (C95_exact (pipeWorld_piped E linePage) ht).1 h _ (List.mem_singleton.2 rfl)
    exact this (by simp only [mkToken]; decide +kernel)
  · have := (C95_outputs (pipeWorld_piped E linePage) ht).1
    rw [show str "<a title=\"e\n\">\n" = str "<a title=\"e\n\">" ++ [0x0A] by decide +kernel]
    simpa [mkToken] using this

example := C95_violated uaxEnv_lawful (by decide +kernel)

/-- A text with a line feed, and the filters of the README. -/
example : CountsLines (pipeWorld uaxEnv (str "Ruby on Rails\nC#")) false [.stack, .lemmas] ∧ 0x0A ∈ str "Ruby on Rails\nC#" :=
  ⟨C95_text_partial (pipeWorld_piped _ _) uaxEnv_lawful uaxEnv_follows uaxTable_right (.inl (by decide +kernel))
    (fun _ => ⟨id, id⟩) (by simp), by decide +kernel⟩


/-- A page with a line feed in a tag. -/
example : CountsLines (pipeWorld uaxEnv (str "<a title=\"\n\">Ruby on Rails</a>")) true [.stack, .lemmas, .ascii] :=
  C95_html_partial (pre := [.stack]) (pipeWorld_piped _ _) uaxEnv_lawful uaxEnv_follows uaxTable_right
    (by
      intro h hh ht
      have : ∀ h ∈ htmlTokens (str "<a title=\"\n\">Ruby on Rails</a>"), h.type = .text → h.string.length < 0x10000 := by
        decide +kernel
      exact ((C76_scanner_laws uaxEnv_follows uaxTable_right).1 _ (.inl (this h hh ht))).1)
    (fun _ => ⟨id, id⟩) (by simp) (by simp)

end Jargon
