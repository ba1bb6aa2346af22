import Verif.Props.LineEnds
import Verif.Props.DistinctFirst
import Verif.Props.Lines

/-! C138: a line end at the end of a text makes no difference. -/

namespace Jargon

/-- The filters that only select tokens. -/
def Builtin.OnlySelects : Builtin → Prop
  | .stopwords .. | .where_ _ | .words | .lemmas | .distinct => True
  | _ => False

/-- A line end, or nothing. -/
def FinalOr (nl : Token) (x : List Token) : Prop := x = [nl] ∨ x = []

/-- A line end after other tokens makes no difference to what a filter does to them; it passes the filter, or is left
out. -/
theorem Builtin.final {E : Env} (hE : E.Lawful) {b : Builtin} (hok : b.OK E) (hk : b.KeepsLines E ∨ b.OnlySelects)
    {seg : Bytes} (hseg : LineEnd seg) {T out : List Token} (h : Makes (b.apply E) T .eof out .eof) :
    ∃ x, FinalOr (mkToken E.U seg false) x ∧ (b.KeepsLines E → x = [mkToken E.U seg false]) ∧ (b = .lemmas ∨ b = .words → x = []) ∧
      Makes (b.apply E) (T ++ [mkToken E.U seg false]) .eof (out ++ x) .eof := by
  have uniq : ∀ {T x y : List Token}, Makes (b.apply E) T .eof x .eof → Makes (b.apply E) T .eof y .eof → x = y :=
    fun {T _ _} h h' => ((h _ (listStream_yields T .eof)).unique (h' _ (listStream_yields T .eof))).1
  by_cases hkeep : b.KeepsLines E
  · obtain ⟨o, h1, h2⟩ := Builtin.lineEnd hE hok hkeep T
    obtain rfl := uniq h h1
    refine ⟨_, .inl rfl, fun _ => rfl, ?_, h2 seg hseg⟩
    rintro (rfl | rfl) <;> exact hkeep.elim
  · have hk := hk.resolve_left hkeep
    have one : ∀ p : Token → Bool, (∀ T, Makes (b.apply E) T .eof (T.filter p) .eof) → (b = .lemmas ∨ b = .words → p (mkToken E.U seg false) = false) →
        ∃ x, FinalOr (mkToken E.U seg false) x ∧ (b.KeepsLines E → x = [mkToken E.U seg false]) ∧ (b = .lemmas ∨ b = .words → x = []) ∧
          Makes (b.apply E) (T ++ [mkToken E.U seg false]) .eof (out ++ x) .eof := by
      intro p hp hw
      obtain rfl := uniq h (hp T)
      have := hp (T ++ [mkToken E.U seg false])
      rw [List.filter_append] at this
      refine ⟨_, ?_, fun h => absurd h hkeep, fun h => by simp [hw h], this⟩
      cases hx : p (mkToken E.U seg false)
      · right; simp [hx]
      · left; simp [hx]
    cases b with
    | stopwords ws ic => exact one _ (fun T ts hy => stop_yields hy) (by simp)
    | where_ p => exact one _ (fun T ts hy => where_yields p hy) (by simp)
    | words => exact one (fun t => !t.isPunct && !t.isSpace) (fun T ts hy => where_yields _ hy) (fun _ => by
        have := lineEndToken_punct E.U hseg
        simp [Token.isPunct, this])
    | lemmas => exact one Token.isLemma (fun T ts hy => where_yields _ hy) (fun _ => rfl)
    | distinct =>
      have hd : ∀ T, Makes (Builtin.apply E .distinct) T .eof (firsts T) .eof := fun T ts hy => distinct_yields hy
      obtain rfl := uniq h (hd T)
      have := hd (T ++ [mkToken E.U seg false])
      rw [firsts_append] at this
      refine ⟨_, ?_, fun h => absurd h hkeep, by simp, this⟩
      simp only [firsts, List.filter_nil, List.filter_cons]
      split
      · exact .inl rfl
      · exact .inr rfl
    | _ => exact hk.elim

theorem builtins_final {E : Env} (hE : E.Lawful) {seg : Bytes} (hseg : LineEnd seg) : ∀ (bs : List Builtin), (∀ b ∈ bs, b.OK E) →
    (∀ b ∈ bs, b.KeepsLines E ∨ b.OnlySelects) → ∀ x, FinalOr (mkToken E.U seg false) x → ∀ T : List Token, ∃ x' out,
      FinalOr (mkToken E.U seg false) x' ∧ ((∀ b ∈ bs, b.KeepsLines E) → x' = x) ∧
      ((∃ b ∈ bs, b = .lemmas ∨ b = .words) ∨ x = [] → x' = []) ∧
      Makes (fun ts => ts.filter (bs.map (Builtin.apply E))) T .eof out .eof ∧
      Makes (fun ts => ts.filter (bs.map (Builtin.apply E))) (T ++ x) .eof (out ++ x') .eof
  | [], _, _, x, hx, T => ⟨x, T, hx, fun _ => rfl, by simp, fun _ h => h, fun _ h => h⟩
  | b :: bs, hok, hk, x, hx, T => by
    obtain ⟨mid, -, h1⟩ := C10_pipeline hE [b] (fun c hc => hok c (by simp at hc ⊢; exact .inl hc)) T .eof
    have h1 : Makes (b.apply E) T .eof mid .eof := h1
    obtain ⟨x1, hx1, e1, e2, h2⟩ : ∃ x1, FinalOr (mkToken E.U seg false) x1 ∧ (b.KeepsLines E → x1 = x) ∧
        ((b = .lemmas ∨ b = .words) ∨ x = [] → x1 = []) ∧ Makes (b.apply E) (T ++ x) .eof (mid ++ x1) .eof := by
      rcases hx with rfl | rfl
      · obtain ⟨x1, a, c, d, e⟩ := Builtin.final hE (hok b (by simp)) (hk b (by simp)) hseg h1
        exact ⟨x1, a, c, fun h => d (by simpa using h), e⟩
      · exact ⟨[], .inr rfl, fun _ => rfl, fun _ => rfl, by simpa using h1⟩
    obtain ⟨x', out, hx', e3, e4, h3, h4⟩ := builtins_final hE hseg bs (fun b h => hok b (by simp [h]))
      (fun b h => hk b (by simp [h])) x1 hx1 mid
    refine ⟨x', out, hx', fun h => ?_, fun h => ?_, fun ts h => h3 _ (h1 ts h), fun ts h => h4 _ (h2 ts h)⟩
    · rw [e3 fun b hb => h b (by simp [hb]), e1 (h b (by simp))]
    · apply e4
      rcases h with ⟨c, hc, hc'⟩ | h
      · rcases List.mem_cons.1 hc with rfl | hc
        · exact .inr (e2 (.inl hc'))
        · exact .inl ⟨c, hc, hc'⟩
      · exact .inr (e2 (.inr h))

variable {E : Env} {cls : WordTable}

/-- **C138.** A line end at the end of a text makes no difference to the tokens of what comes before it: it is one more
token, or none if a filter leaves it out. It is one more token if line ends pass all filters, and none after `Words` or
`Lemmas`. -/
theorem C138_tokens (hE : E.Lawful) (hF : E.FollowsUax29 cls) (hR : cls.Right) {bs : List Builtin} (hok : ∀ b ∈ bs, b.OK E)
    (hk : ∀ b ∈ bs, b.KeepsLines E ∨ b.OnlySelects) {seg t : Bytes} (hseg : LineEnd seg) (ht : t.getLast? ≠ some 0x0D)
    (h1 : Fits cls t) (h2 : Fits cls (t ++ seg)) : ∃ out x,
      ((tokenize E { data := t }).filter (bs.map (Builtin.apply E))).Yields out .eof ∧
      ((tokenize E { data := t ++ seg }).filter (bs.map (Builtin.apply E))).Yields (out ++ x) .eof ∧
      (x = [mkToken E.U seg false] ∨ x = []) ∧ ((∀ b ∈ bs, b.KeepsLines E) → x = [mkToken E.U seg false]) ∧
      ((∃ b ∈ bs, b = .lemmas ∨ b = .words) → x = []) := by
  have y1 := tokenize_yields E hE { data := t }
  have y2 := tokenize_yields E hE { data := t ++ seg }
  rw [hF _ h1] at y1
  rw [hF _ h2, wordSegs_lineEnd hR hseg ht, segTokens, List.map_append] at y2
  obtain ⟨x, out, hx, e1, e2, h3, h4⟩ := builtins_final hE hseg bs hok hk _ (.inl rfl) (segTokens E.U (wordSegs cls t))
  exact ⟨out, x, h3 _ y1, h4 _ y2, hx, e1, fun h => e2 (.inl h)⟩

theorem contractions_keepLines (hU : E.U.LowersLatin) : (Builtin.contractions contractionMappings).KeepsLines E := by
  intro seg hseg k x hk
  have hlow : E.U.lowerString seg = seg := by
    rcases hseg with rfl | rfl
    · have : runes [0x0A] = [0x0A] := by decide +kernel
      rw [Unicode.lowerString, this]
      simp only [List.map_cons, List.map_nil, hU 0x0A (by decide)]
      decide +kernel
    · have : runes [0x0D, 0x0A] = [0x0D, 0x0A] := by decide +kernel
      rw [Unicode.lowerString, this]
      simp only [List.map_cons, List.map_nil, hU 0x0A (by decide), hU 0x0D (by decide)]
      decide +kernel
  rw [hlow]
  have : ∀ p ∈ contractionMappings, p.1 ≠ [0x0A] ∧ p.1 ≠ [0x0D, 0x0A] := by decide +kernel
  rcases hseg with rfl | rfl
  · exact ⟨(this _ hk).1, (this _ hk).1⟩
  · exact ⟨(this _ hk).2, (this _ hk).2⟩

/-- **C138 (program).** For a text with a line feed at its end the program writes, with whatever filters, what it writes
for the text without it, and at the end possibly a line with the line feed: certainly if neither `-lemmas` nor `-distinct`
is given, and certainly not if `-lemmas` is. So `echo` and `printf` may both be used. -/
theorem C138_program [HtmlReader] (hE : E.Lawful) (hF : E.FollowsUax29 cls) (hR : cls.Right) (hU : E.U.LowersLatin)
    {ω : Type} {w : Place → Writer ω} {W : World (ω × Bytes)} {input : Bytes} (hW : Piped w W input) (hWE : W.E = E)
    (hst : GoodStem (W.snowball.of .english)) (fl : List FilterFlag) {t : Bytes} (ht : t.getLast? ≠ some 0x0D)
    (h1 : Fits cls t) (h2 : Fits cls (t ++ [0x0A])) : ∃ out x, WritesFor W fl t out ∧ WritesFor W fl (t ++ [0x0A]) (out ++ x) ∧
      (x = [0x0A, 0x0A] ∨ x = []) ∧ (.lemmas ∉ fl → .distinct ∉ fl → x = [0x0A, 0x0A]) ∧ (.lemmas ∈ fl → x = []) := by
  obtain ⟨-, k1, -, k3⟩ := C76_scanner_laws hF hR
  have hok : ∀ f : FilterFlag, (f.filter W.snowball .english).OK E := by
    intro f
    cases f with
    | contractions => exact k3
    | stack => exact fun x hx => (k1 x hx).scans
    | stem => exact fun s h => (hst s).1 h
    | _ => trivial
  have hkeep : ∀ f : FilterFlag, f = .lemmas ∨ f = .distinct ∨ (f.filter W.snowball .english).KeepsLines E := by
    intro f
    cases f with
    | lemmas => exact .inl rfl
    | distinct => exact .inr (.inl rfl)
    | contractions => exact .inr (.inr (contractions_keepLines hU))
    | _ => exact .inr (.inr trivial)
  obtain ⟨out, x, y1, y2, hx, e1, e2⟩ := C138_tokens hE hF hR (bs := fl.map fun f => f.filter W.snowball .english)
    (by intro b hb; obtain ⟨f, -, rfl⟩ := List.mem_map.1 hb; exact hok f)
    (by
      intro b hb
      obtain ⟨f, -, rfl⟩ := List.mem_map.1 hb
      rcases hkeep f with rfl | rfl | h
      · exact .inr trivial
      · exact .inr trivial
      · exact .inl h) (.inl rfl) ht h1 h2
  rw [List.map_map] at y1 y2
  have hP : ∀ text, Piped w { W with stdin := { data := text } } text := fun text =>
    ⟨hW.writes, hW.writer, hW.html, hW.pipe, rfl⟩
  have hout : ∀ {text : Bytes} {o : List Token}, ((tokenize E { data := text }).filter
      (fl.map fun f => (f.filter W.snowball .english).apply E)).Yields o .eof →
      WritesFor W fl text (o.flatMap fun t => t.value ++ [0x0A]) := by
    intro text o h
    subst hWE
    exact (C95_outputs (hP text) (html := false) (fl := fl) (toks := o) h).1
  refine ⟨_, x.flatMap fun t => t.value ++ [0x0A], hout y1, ?_, ?_, fun hl hd => ?_, fun hl => ?_⟩
  · have := hout y2
    rwa [List.flatMap_append] at this
  · rcases hx with rfl | rfl
    · exact .inl rfl
    · exact .inr rfl
  · rw [e1 fun b hb => ?_]
    · rfl
    · obtain ⟨f, hf, rfl⟩ := List.mem_map.1 hb
      rcases hkeep f with rfl | rfl | h
      · exact absurd hf hl
      · exact absurd hf hd
      · exact h
  · rw [e2 ⟨_, List.mem_map.2 ⟨_, hl, rfl⟩, .inl rfl⟩]
    rfl

/-- Non-vacuity: "a" with a line feed, through `-stack`. -/
example [HtmlReader] : ∃ out x, WritesFor (pipeWorld uaxEnv []) [.stack] (str "a") out ∧
    WritesFor (pipeWorld uaxEnv []) [.stack] (str "a" ++ [0x0A]) (out ++ x) ∧ x = [0x0A, 0x0A] := by
  obtain ⟨out, x, h1, h2, -, h3, -⟩ := C138_program (E := uaxEnv) uaxEnv_lawful uaxEnv_follows uaxTable_right uaxEnv_lowers
    (pipeWorld_piped uaxEnv []) rfl (fun _ => ⟨id, id⟩) [.stack] (t := str "a") (by decide +kernel) (.inl (by decide +kernel))
    (.inl (by decide +kernel))
  exact ⟨out, x, h1, h2, h3 (by simp) (by simp)⟩

/-- Both may happen with `Distinct`: of two line feeds it leaves one. -/
example : firsts [mkToken uaxEnv.U [0x0A] false, mkToken uaxEnv.U [0x0A] false] = [mkToken uaxEnv.U [0x0A] false] ∧
    firsts [mkToken uaxEnv.U [0x61] false, mkToken uaxEnv.U [0x0A] false] =
      [mkToken uaxEnv.U [0x61] false, mkToken uaxEnv.U [0x0A] false] := by decide +kernel

/-- Why the text must not end with CR: CR LF is one token. -/
example : wordSegs uaxTable (str "a\r") = [str "a", str "\r"] ∧ wordSegs uaxTable (str "a\r" ++ [0x0A]) = [str "a", str "\r\n"] := by
  decide +kernel

end Jargon
