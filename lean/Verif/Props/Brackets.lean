import Verif.Props.FinalLine
import Verif.Props.Bom

/-! C139: brackets around a text make no difference. -/

namespace Jargon

variable {E : Env} {cls : WordTable}

/-- A pair of brackets. -/
def IsBrackets (l r : UInt8) : Prop := (l, r) ∈ [((0x28, 0x29) : UInt8 × UInt8), (0x5B, 0x5D), (0x7B, 0x7D)]

/-- The token of one of them. -/
def signToken (U : Unicode) (c : UInt8) : Token := mkToken U [c] false

/-- Cut after a bracket. -/
theorem wordSegs_after_bracket {c : UInt8} (hc : c.toNat < 0x80) (hi : cls c.toNat = (.other, false)) {t : Bytes}
    (ht : BeginsPlain cls t) : wordSegs cls (c :: t) = [c] :: wordSegs cls t := by
  have hj : joins [cls c.toNat] ((runeBytes t).map fun p => cls p.1) = false := by
    cases hr : runeBytes t with
    | nil => rfl
    | cons q z =>
      have hq : (cls q.1).1.attached = false := ht _ (by rw [← runeBytes_fst, hr]; rfl)
      simp only [List.map_cons, joins, hi, hq]
      have h1 : (WB.other == WB.cr) = false := rfl
      have h2 : (WB.other == WB.zwj) = false := rfl
      have h3 : (WB.other == WB.space) = false := rfl
      have h4 : WB.other.attached = false := rfl
      have h6 : (WB.other == WB.regional) = false := rfl
      have h5 : ∀ q n : WB, ruleJoins .other .other q n = false := by
        intro q n; cases q <;> cases n <;> rfl
      simp [h1, h2, h3, h4, h5, h6]
  rw [wordSegs, runeBytes_ascii_cons hc, cutWords, cutWords_restart hj]
  cases hk : cutWords (fun p : Rune × Bytes => cls p.1) [] (runeBytes t) with
  | nil => simp [wordSegs, hk]
  | cons g gs => simp [hj, wordSegs, hk]

theorem wordSegs_around {l r : UInt8} (hl : l.toNat < 0x80) (hr : r.toNat < 0x80) (cl : cls l.toNat = (.other, false))
    (cr : cls r.toNat = (.other, false)) {t : Bytes} (ht : BeginsPlain cls t) :
    wordSegs cls (l :: (t ++ [r])) = [l] :: (wordSegs cls t ++ [[r]]) := by
  have h := wordSegs_before_sigil (cls := cls) (l :: t) hr cr []
  rw [List.cons_append, wordSegs_after_bracket hl cl ht, wordSegs_after_bracket hr cr (t := []) (by intro r h; cases h)] at h
  exact h

/-- What is required of a filter's configuration: that it leaves the brackets by themselves alone, and that they are
not a sigil or legal after one. Every synonyms filter is like that. -/
def Builtin.PassesAround (E : Env) (l r : UInt8) : Builtin → Prop
  | .sigil f => f.sigil ≠ [l] ∧ f.sigil ≠ [r] ∧ f.legal [r] = false
  | .synonyms .. => True
  | .distinct => False
  | b => Makes (b.apply E) [signToken E.U l] .eof [signToken E.U l] .eof ∧
      Makes (b.apply E) [signToken E.U r] .eof [signToken E.U r] .eof

theorem Builtin.around (hE : E.Lawful) {l r : UInt8} (hl : (signToken E.U l).punct = true) (hr : (signToken E.U r).punct = true)
    {b : Builtin} (hok : b.OK E) (hp : b.PassesAround E l r) {T out : List Token} (h : Makes (b.apply E) T .eof out .eof) :
    Makes (b.apply E) (signToken E.U l :: (T ++ [signToken E.U r])) .eof
      (signToken E.U l :: (out ++ [signToken E.U r])) .eof := by
  have hw : ¬ (signToken E.U l).IsWord := fun h => by simp [Token.IsWord, hl] at h
  by_cases hb : b.OneByOne
  · obtain ⟨g, hg, -⟩ := Builtin.oneByOne hE hok hb
    have hp : Makes (b.apply E) [signToken E.U l] .eof [signToken E.U l] .eof ∧
        Makes (b.apply E) [signToken E.U r] .eof [signToken E.U r] .eof := by
      cases b <;> first | exact hp | exact hb.elim
    have e1 := hp.1.unique (hg _)
    have e2 := hp.2.unique (hg _)
    have e3 := h.unique (hg _)
    have := hg (signToken E.U l :: (T ++ [signToken E.U r]))
    rw [List.flatMap_singleton] at e1 e2
    rwa [List.flatMap_cons, List.flatMap_append, List.flatMap_singleton, ← e1, ← e2, ← e3] at this
  · cases b with
    | sigil f =>
      obtain ⟨h1, h2, h3⟩ := hp
      have hv : (signToken E.U l).value ≠ f.sigil := fun h => h1 h.symm
      have e := (sigil_makes (E := E) hok T).unique h
      have key : (sigilActual E.U f none (signToken E.U l :: (T ++ [signToken E.U r])) .eof).1 =
          signToken E.U l :: ((sigilActual E.U f none T .eof).1 ++ [signToken E.U r]) := by
        rw [← sigil_lineEnd (nl := signToken E.U r) (fun h => h2 h.symm) h3]
        cases hT : T ++ [signToken E.U r] with
        | nil => simp at hT
        | cons d ds =>
          rw [sigilActual, if_neg (by simp [hv]), sigil_boundary (boundary_some hw)]
          rfl
      have := sigil_makes (E := E) hok (signToken E.U l :: (T ++ [signToken E.U r]))
      rwa [key, e] at this
    | distinct => exact hp.elim
    | synonyms m ic ign =>
      have make : ∀ {T out : List Token}, Greedy ⟨E.U, ic, ign⟩ ((Compare.mk E.U ic ign).dict (entries E m))
          (wordLimit (entries E m)) T out → Makes (Builtin.apply E (.synonyms m ic ign)) T .eof out .eof := by
        intro T out hg ts hy
        have := synonyms_yields hE hok hy hg
        rwa [if_pos rfl] at this
      obtain ⟨o, g⟩ := Greedy.total ⟨E.U, ic, ign⟩ ((Compare.mk E.U ic ign).dict (entries E m))
        (wordLimit (entries E m)) T
      obtain rfl := (make g).unique h
      exact make (.separator hw (greedy_lineEnd hr g))
    | _ => exact absurd trivial hb

theorem builtins_around (hE : E.Lawful) {l r : UInt8} (hl : (signToken E.U l).punct = true) (hr : (signToken E.U r).punct = true) :
    ∀ (bs : List Builtin), (∀ b ∈ bs, b.OK E) → (∀ b ∈ bs, b.PassesAround E l r) → ∀ T : List Token, ∃ out,
      Makes (fun ts => ts.filter (bs.map (Builtin.apply E))) T .eof out .eof ∧
      Makes (fun ts => ts.filter (bs.map (Builtin.apply E))) (signToken E.U l :: (T ++ [signToken E.U r])) .eof
        (signToken E.U l :: (out ++ [signToken E.U r])) .eof
  | [], _, _, T => ⟨T, fun _ h => h, fun _ h => h⟩
  | b :: bs, hok, hp, T => by
    obtain ⟨mid, -, h1⟩ := C10_pipeline hE [b] (fun c hc => hok c (by simp at hc ⊢; exact .inl hc)) T .eof
    have h1 : Makes (b.apply E) T .eof mid .eof := h1
    have h2 := Builtin.around hE hl hr (hok b (by simp)) (hp b (by simp)) h1
    obtain ⟨out, h3, h4⟩ := builtins_around hE hl hr bs (fun b h => hok b (by simp [h])) (fun b h => hp b (by simp [h])) mid
    exact ⟨out, fun ts h => h3 _ (h1 ts h), fun ts h => h4 _ (h2 ts h)⟩

theorem IsBrackets.facts {l r : UInt8} (h : IsBrackets l r) : ∀ c, c = l ∨ c = r → c.toNat < 0x80 ∧ c.toNat ≠ 0x3A ∧
    latinWB c.toNat = (.other, false) ∧ c.toNat ∈ latinPunct ∧ runes [c] = [c.toNat] ∧ latinLower c.toNat = c.toNat ∧
    contractionMappings.lookup [c] = none ∧ foldString [c] = ([c], false) ∧ encodeRunes [c.toNat] = [c] ∧ c ≠ 0x40 ∧ c ≠ 0x23 ∧
    legalHandle [c] = false := by
  simp only [IsBrackets, List.mem_cons, List.not_mem_nil, or_false, Prod.mk.injEq] at h
  rintro c (rfl | rfl)
  · rcases h with h | h | h <;> rw [h.1] <;> decide +kernel
  · rcases h with h | h | h <;> rw [h.2] <;> decide +kernel

theorem IsBrackets.punct (hP : E.U.PunctLatin) {l r : UInt8} (h : IsBrackets l r) {c : UInt8} (hc : c = l ∨ c = r) :
    (signToken E.U c).punct = true := by
  obtain ⟨h1, -, -, h2, h3, -⟩ := h.facts c hc
  exact (mkToken_for E.U [c] false).punct.2 (by
    rw [h3]
    intro x hx
    rw [List.mem_singleton.1 hx]
    left
    rw [hP _ (by omega)]
    exact decide_eq_true h2)

/-- **C139.** Brackets around a text are a token more before it and one after it, and otherwise make no difference to
filters that they pass. -/
theorem C139_tokens (hE : E.Lawful) (hF : E.FollowsUax29 cls) (hR : cls.Right) (hP : E.U.PunctLatin) {l r : UInt8}
    (hlr : IsBrackets l r) {bs : List Builtin} (hok : ∀ b ∈ bs, b.OK E) (hbs : ∀ b ∈ bs, b.PassesAround E l r) {t : Bytes}
    (ht : BeginsPlain cls t) (h1 : Fits cls t) (h2 : Fits cls (l :: (t ++ [r]))) {out : List Token}
    (h : ((tokenize E { data := t }).filter (bs.map (Builtin.apply E))).Yields out .eof) :
    ((tokenize E { data := l :: (t ++ [r]) }).filter (bs.map (Builtin.apply E))).Yields
      (mkToken E.U [l] false :: (out ++ [mkToken E.U [r] false])) .eof := by
  have y1 := tokenize_yields E hE { data := t }
  have y2 := tokenize_yields E hE { data := l :: (t ++ [r]) }
  obtain ⟨l1, l2, l3, -⟩ := hlr.facts l (.inl rfl)
  obtain ⟨r1, r2, r3, -⟩ := hlr.facts r (.inr rfl)
  rw [hF _ h1] at y1
  rw [hF _ h2, wordSegs_around l1 r1 (by rw [hR.latin _ (by omega) l2, l3]) (by rw [hR.latin _ (by omega) r2, r3]) ht,
    segTokens, List.map_cons, List.map_append] at y2
  obtain ⟨o, h3, h4⟩ := builtins_around hE (hlr.punct hP (.inl rfl)) (hlr.punct hP (.inr rfl)) bs hok hbs
    (segTokens E.U (wordSegs cls t))
  obtain rfl := ((h3 _ y1).unique h).1
  exact h4 _ y2

/-- **C139 (ready).** All filters that come ready for use are like that, and so are the stemmers. -/
theorem C139_ready (hE : E.Lawful) (hF : E.FollowsUax29 cls) (hR : cls.Right) (hU : E.U.LowersLatin) (hP : E.U.PunctLatin)
    {l r : UInt8} (hlr : IsBrackets l r) (hL : E.U.isLetter r.toNat = false) :
    (∀ b ∈ readyFilters E, b.OK E ∧ b.PassesAround E l r) ∧
      ∀ stem, (Builtin.stemmer stem).OK E → (Builtin.stemmer stem).PassesAround E l r := by
  obtain ⟨-, k1, k2, k3⟩ := C76_scanner_laws hF hR
  have fact := hlr.facts
  have punct := fun c (hc : c = l ∨ c = r) => hlr.punct hP hc
  refine ⟨fun b hb => ?_, fun stem hok => ?_⟩
  · simp only [readyFilters, List.mem_cons, List.not_mem_nil, or_false] at hb
    rcases hb with rfl | rfl | rfl | rfl | rfl | rfl
    · have : ∀ c, c = l ∨ c = r → Makes (asciiFold E.U) [signToken E.U c] .eof [signToken E.U c] .eof := by
        intro c hc ts hy
        have := asciiFold_yields E.U hy
        obtain ⟨-, -, -, -, -, -, -, hf, -⟩ := fact c hc
        simpa [foldToken, signToken, mkToken, hf] using this
      exact ⟨trivial, this l (.inl rfl), this r (.inr rfl)⟩
    · have : ∀ c, c = l ∨ c = r → Makes (expandWith E contractionMappings) [signToken E.U c] .eof [signToken E.U c] .eof := by
        intro c hc ts hy
        have := expandWith_yields hE k3 hy
        obtain ⟨h1, -, -, -, h5, h6, h7, -, h9, -⟩ := fact c hc
        have hlow : E.U.lowerString [c] = [c] := by
          rw [Unicode.lowerString, h5, List.map_cons, List.map_nil, hU _ (by omega), h6, h9]
        simpa [expandToken, expansion?, signToken, mkToken, hlow, h7] using this
      exact ⟨k3, this l (.inl rfl), this r (.inr rfl)⟩
    · exact ⟨fun x hx => (k1 x hx).scans, trivial⟩
    · exact ⟨fun x hx => (k2 x hx).scans, trivial⟩
    · obtain ⟨-, -, -, -, -, -, -, -, -, a, -⟩ := fact l (.inl rfl)
      obtain ⟨-, -, -, -, -, -, -, -, -, b, -, c⟩ := fact r (.inr rfl)
      exact ⟨by simp [Builtin.OK], by simpa [eq_comm] using a, by simpa [eq_comm] using b, c⟩
    · obtain ⟨-, -, -, -, -, -, -, -, -, -, a, -⟩ := fact l (.inl rfl)
      obtain ⟨h1, -, -, -, h5, -, -, -, -, -, b, -⟩ := fact r (.inr rfl)
      refine ⟨by simp [Builtin.OK], by simpa [eq_comm] using a, by simpa [eq_comm] using b, ?_⟩
      simp only [legalHashtag, h5, List.length_singleton, ↓reduceIte, decodeRune_of_runes h5, hL]
  · have : ∀ c, c = l ∨ c = r → Makes (stemmer E.U stem) [signToken E.U c] .eof [signToken E.U c] .eof := by
      intro c hc ts hy
      have := stemmer_yields (U := E.U) (stem := stem) (fun t _ => hok _) hy
      have hw : ¬ (signToken E.U c).IsWord := fun h => by simp [Token.IsWord, punct c hc] at h
      simpa [stemToken, hw] using this
    exact ⟨this l (.inl rfl), this r (.inr rfl)⟩

/-- **C139 (program).** With filters other than `-distinct` and `-lemmas`, the program writes for a text in brackets a
line with the one bracket, what it writes for the text, and a line with the other. -/
theorem C139_program [HtmlReader] (hE : E.Lawful) (hF : E.FollowsUax29 cls) (hR : cls.Right) (hU : E.U.LowersLatin)
    (hP : E.U.PunctLatin) {l r : UInt8} (hlr : IsBrackets l r) (hL : E.U.isLetter r.toNat = false) {ω : Type}
    {w : Place → Writer ω} {W : World (ω × Bytes)} {input : Bytes} (hW : Piped w W input) (hWE : W.E = E)
    (hst : GoodStem (W.snowball.of .english)) {fl : List FilterFlag} (hd : .distinct ∉ fl) (hm : .lemmas ∉ fl) {t : Bytes}
    (ht : BeginsPlain cls t) (h1 : Fits cls t) (h2 : Fits cls (l :: (t ++ [r]))) :
    ∃ out, WritesFor W fl t out ∧ WritesFor W fl (l :: (t ++ [r])) ([l, 0x0A] ++ out ++ [r, 0x0A]) := by
  obtain ⟨rd, rs⟩ := C139_ready hE hF hR hU hP hlr hL
  have hall : ∀ f ∈ fl, (f.filter W.snowball .english).OK E ∧ (f.filter W.snowball .english).PassesAround E l r := by
    intro f hf
    cases f with
    | distinct => exact absurd hf hd
    | lemmas => exact absurd hf hm
    | ascii => exact rd .asciiFold (by simp [readyFilters])
    | contractions => exact rd (.contractions contractionMappings) (by simp [readyFilters])
    | stack => exact rd (.synonyms stackOverflowMappings true stackOverflowIgnore) (by simp [readyFilters])
    | stem =>
      have hok : (Builtin.stemmer (W.snowball.of .english)).OK E := fun s h => (hst s).1 h
      exact ⟨hok, rs _ hok⟩
  have hok : ∀ b ∈ fl.map (fun f => f.filter W.snowball .english), b.OK E := by
    intro b hb; obtain ⟨f, hf, rfl⟩ := List.mem_map.1 hb; exact (hall f hf).1
  have y1 := tokenize_yields E hE { data := t }
  rw [hF _ h1] at y1
  obtain ⟨o, -, ho⟩ := C10_pipeline hE (fl.map fun f => f.filter W.snowball .english) hok (segTokens E.U (wordSegs cls t)) .eof
  have h4 := C139_tokens hE hF hR hP hlr hok (fun b hb => by
    obtain ⟨f, hf, rfl⟩ := List.mem_map.1 hb; exact (hall f hf).2) ht h1 h2 (ho _ y1)
  have h3 := ho _ y1
  rw [List.map_map] at h3 h4
  have hPi : ∀ text, Piped w { W with stdin := { data := text } } text := fun text =>
    ⟨hW.writes, hW.writer, hW.html, hW.pipe, rfl⟩
  have hout : ∀ {text : Bytes} {o : List Token}, ((tokenize E { data := text }).filter
      (fl.map fun f => (f.filter W.snowball .english).apply E)).Yields o .eof →
      WritesFor W fl text (o.flatMap fun t => t.value ++ [0x0A]) := by
    intro text o h
    subst hWE
    exact (C95_outputs (hPi text) (html := false) (fl := fl) (toks := o) h).1
  refine ⟨_, hout h3, ?_⟩
  have := hout h4
  simpa [mkToken] using this

/-- Non-vacuity: "(Ruby on Rails)" and "[@ann]" with all filters that come ready for use. -/
example : ∀ t ∈ [str "Ruby on Rails", str "@ann"], ∃ out,
    ((tokenize uaxEnv { data := t }).filter ((readyFilters uaxEnv).map (Builtin.apply uaxEnv))).Yields out .eof ∧
    ((tokenize uaxEnv { data := 0x28 :: (t ++ [0x29]) }).filter ((readyFilters uaxEnv).map (Builtin.apply uaxEnv))).Yields
      (mkToken uaxEnv.U [0x28] false :: (out ++ [mkToken uaxEnv.U [0x29] false])) .eof := by
  intro t ht
  have hlr : IsBrackets 0x28 0x29 := by simp [IsBrackets]
  have rd := (C139_ready uaxEnv_lawful uaxEnv_follows uaxTable_right uaxEnv_lowers uaxEnv_punct hlr (by decide +kernel)).1
  have fit : Fits uaxTable t ∧ Fits uaxTable (0x28 :: (t ++ [0x29])) ∧ BeginsPlain uaxTable t := by
    simp only [List.mem_cons, List.not_mem_nil, or_false] at ht
    have hb : ∀ {t : Bytes} {x : Rune}, (runes t).head? = some x → (uaxTable x).1.attached = false → BeginsPlain uaxTable t := by
      intro t x h h' r hr
      rw [h] at hr
      cases hr
      exact h'
    rcases ht with rfl | rfl
    · exact ⟨.inl (by decide +kernel), .inl (by decide +kernel), hb (x := 0x52) (by decide +kernel) (by decide)⟩
    · exact ⟨.inl (by decide +kernel), .inl (by decide +kernel), hb (x := 0x40) (by decide +kernel) (by decide)⟩
  have y1 := tokenize_yields uaxEnv uaxEnv_lawful { data := t }
  rw [uaxEnv_follows _ fit.1] at y1
  obtain ⟨o, -, ho⟩ := C10_pipeline uaxEnv_lawful (readyFilters uaxEnv) (fun b hb => (rd b hb).1) _ .eof
  exact ⟨o, ho _ y1, C139_tokens uaxEnv_lawful uaxEnv_follows uaxTable_right uaxEnv_punct hlr (fun b hb => (rd b hb).1)
    (fun b hb => (rd b hb).2) fit.2.2 fit.1 fit.2.1 (ho _ y1)⟩

/-- Non-vacuity: what the program writes for "Ruby on Rails" and "(Ruby on Rails)" with `-stack`. -/
example [HtmlReader] : ∃ out, WritesFor (pipeWorld uaxEnv []) [.stack] (str "Ruby on Rails") out ∧
    WritesFor (pipeWorld uaxEnv []) [.stack] (0x28 :: (str "Ruby on Rails" ++ [0x29])) ([0x28, 0x0A] ++ out ++ [0x29, 0x0A]) := by
  refine C139_program (E := uaxEnv) uaxEnv_lawful uaxEnv_follows uaxTable_right uaxEnv_lowers uaxEnv_punct (by simp [IsBrackets])
    (by decide +kernel) (pipeWorld_piped uaxEnv []) rfl (fun _ => ⟨id, id⟩) (by simp) (by simp) ?_ (.inl (by decide +kernel))
    (.inl (by decide +kernel))
  intro r hr
  have h : (runes (str "Ruby on Rails")).head? = some 0x52 := by decide +kernel
  rw [h] at hr
  cases hr
  decide

end Jargon
