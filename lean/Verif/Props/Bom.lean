import Verif.Props.LineEnds
import Verif.Props.Barrier
import Verif.Props.Lines

/-! C137: a byte-order mark at the start of a text. -/

namespace Jargon

/-- The byte-order mark, U+FEFF, in UTF-8. -/
def bom : Bytes := [0xEF, 0xBB, 0xBF]

/-- The text does not begin with a character that Unicode attaches to the one before it. -/
def BeginsPlain (cls : WordTable) (t : Bytes) : Prop := ∀ r, (runes t).head? = some r → (cls r).1.attached = false

variable {E : Env} {cls : WordTable}

theorem bom_runes (t : Bytes) : runeBytes (bom ++ t) = (0xFEFF, bom) :: runeBytes t := by
  have h : decodeRune (bom ++ t) = (0xFEFF, 3) := by
    simp [bom, decodeRune]
    decide
  show runeBytes (0xEF :: (0xBB :: 0xBF :: t)) = _
  rw [runeBytes_cons]
  change decodeRune (0xEF :: 0xBB :: 0xBF :: t) = _ at h
  rw [h]
  rfl

/-- The mark is a word of its own. -/
theorem wordSegs_bom (hb : (cls 0xFEFF).1 = .format) {t : Bytes} (ht : BeginsPlain cls t) :
    wordSegs cls (bom ++ t) = bom :: wordSegs cls t := by
  have hj : joins [cls 0xFEFF] ((runeBytes t).map fun p => cls p.1) = false := by
    cases hr : runeBytes t with
    | nil => rfl
    | cons q z =>
      have hq : (cls q.1).1.attached = false := ht _ (by rw [← runeBytes_fst, hr]; rfl)
      simp only [List.map_cons, joins, hb, hq]
      have h1 : (WB.format == WB.cr) = false := rfl
      have h2 : (WB.format == WB.zwj) = false := rfl
      have h3 : (WB.format == WB.space) = false := rfl
      have h4 : WB.format.attached = true := rfl
      have h5 : ∀ q n : WB, ruleJoins .other .other q n = false := by
        intro q n; cases q <;> cases n <;> rfl
      simp [h1, h2, h3, h4, h5]
  rw [wordSegs, bom_runes, cutWords, cutWords_restart hj]
  cases hc : cutWords (fun p : Rune × Bytes => cls p.1) [] (runeBytes t) with
  | nil => simp [wordSegs, hc]
  | cons g gs => simp [hj, wordSegs, hc]

/-- The token of the mark. -/
def bomToken (U : Unicode) : Token := mkToken U bom false

/-- What is required of a filter: by itself the mark passes, and if the filter looks at several tokens at a time, it is
one of synonyms of which none has the mark in its spelling. -/
def Builtin.PassesBom (E : Env) (b : Builtin) : Prop :=
  Makes (b.apply E) [bomToken E.U] .eof [bomToken E.U] .eof ∧
  match b with
  | .synonyms m ic ign => (Compare.mk E.U ic ign).fold 0xFEFF ∉ ign ∧
      ∀ q, (Compare.mk E.U ic ign).fold 0xFEFF ∈ q → (Compare.mk E.U ic ign).dict (entries E m) q = none
  | .sigil _ | .distinct => False
  | _ => True

theorem bom_spell {C : Compare} (h : C.fold 0xFEFF ∉ C.ignore) : C.fold 0xFEFF ∈ C.spell [bomToken C.U] := by
  have : runes bom = [0xFEFF] := by decide +kernel
  simp [Compare.spell, Compare.normal, bomToken, mkToken, this, h]

theorem Makes.unique {F : Filter} {T x y : List Token} (h : Makes F T .eof x .eof) (h' : Makes F T .eof y .eof) : x = y :=
  ((h _ (listStream_yields T .eof)).unique (h' _ (listStream_yields T .eof))).1

theorem Builtin.bom (hE : E.Lawful) {b : Builtin} (hok : b.OK E) (hp : b.PassesBom E) {T out : List Token}
    (h : Makes (b.apply E) T .eof out .eof) : Makes (b.apply E) (bomToken E.U :: T) .eof (bomToken E.U :: out) .eof := by
  obtain ⟨h1, h2⟩ := hp
  by_cases hb : b.OneByOne
  · obtain ⟨g, hg, -⟩ := Builtin.oneByOne hE hok hb
    have e1 := h1.unique (hg _)
    have e2 := h.unique (hg _)
    have := hg (bomToken E.U :: T)
    rw [List.flatMap_singleton] at e1
    rwa [List.flatMap_cons, ← e1, ← e2] at this
  · cases b with
    | sigil f => exact h2.elim
    | distinct => exact h2.elim
    | synonyms m ic ign =>
      obtain ⟨h2, h3⟩ := h2
      have make : ∀ {T out : List Token}, Greedy ⟨E.U, ic, ign⟩ ((Compare.mk E.U ic ign).dict (entries E m))
          (wordLimit (entries E m)) T out → Makes (Builtin.apply E (.synonyms m ic ign)) T .eof out .eof := by
        intro T out hg ts hy
        have := synonyms_yields hE hok hy hg
        rwa [if_pos rfl] at this
      obtain ⟨o1, g1⟩ := Greedy.total ⟨E.U, ic, ign⟩ ((Compare.mk E.U ic ign).dict (entries E m))
        (wordLimit (entries E m)) [bomToken E.U]
      obtain ⟨o2, g2⟩ := Greedy.total ⟨E.U, ic, ign⟩ ((Compare.mk E.U ic ign).dict (entries E m))
        (wordLimit (entries E m)) T
      obtain rfl := (make g1).unique h1
      obtain rfl := (make g2).unique h
      exact make (greedy_append h3 (bom_spell (C := ⟨E.U, ic, ign⟩) h2) g1 g2 (by simp [eq_comm]))
    | _ => exact absurd trivial hb

theorem builtins_bom (hE : E.Lawful) : ∀ (bs : List Builtin), (∀ b ∈ bs, b.OK E) → (∀ b ∈ bs, b.PassesBom E) →
    ∀ T : List Token, ∃ out, Makes (fun ts => ts.filter (bs.map (Builtin.apply E))) T .eof out .eof ∧
      Makes (fun ts => ts.filter (bs.map (Builtin.apply E))) (bomToken E.U :: T) .eof (bomToken E.U :: out) .eof
  | [], _, _, T => ⟨T, fun _ h => h, fun _ h => h⟩
  | b :: bs, hok, hp, T => by
    obtain ⟨mid, -, h1⟩ := C10_pipeline hE [b] (fun c hc => hok c (by simp at hc ⊢; exact .inl hc)) T .eof
    have h1 : Makes (b.apply E) T .eof mid .eof := h1
    have h2 := Builtin.bom hE (hok b (by simp)) (hp b (by simp)) h1
    obtain ⟨out, h3, h4⟩ := builtins_bom hE bs (fun b h => hok b (by simp [h])) (fun b h => hp b (by simp [h])) mid
    exact ⟨out, fun ts h => h3 _ (h1 ts h), fun ts h => h4 _ (h2 ts h)⟩

/-! ### C137 -/

/-- The filters that come ready for use. -/
def readyFilters (E : Env) : List Builtin :=
  [.asciiFold, .contractions contractionMappings, .synonyms stackOverflowMappings true stackOverflowIgnore,
    .synonyms nbaMappings true nbaIgnore, .sigil ⟨[0x40], legalHandle⟩, .sigil ⟨[0x23], legalHashtag E.U⟩]

/-- **C137, as one would like it.** A byte-order mark at the start of a text is a token more, and otherwise makes no
difference to the filters that come ready for use. -/
def C137_full (E : Env) (cls : WordTable) : Prop := ∀ (bs : List Builtin) (t : Bytes) (out : List Token),
  (∀ b ∈ bs, b ∈ readyFilters E) → BeginsPlain cls t → Fits cls t → Fits cls (bom ++ t) →
  ((tokenize E { data := t }).filter (bs.map (Builtin.apply E))).Yields out .eof →
  ((tokenize E { data := bom ++ t }).filter (bs.map (Builtin.apply E))).Yields (bomToken E.U :: out) .eof

/-- **C137, partial.** For filters that the mark passes and that are not `sigil` or `Distinct`. Missing: `sigil`, where it is
false, and `Distinct`, which drops a mark further on in the text. -/
theorem C137_partial (hE : E.Lawful) (hF : E.FollowsUax29 cls) (hb : (cls 0xFEFF).1 = .format) {bs : List Builtin}
    (hok : ∀ b ∈ bs, b.OK E) (hbs : ∀ b ∈ bs, b.PassesBom E) {t : Bytes} (ht : BeginsPlain cls t) (h1 : Fits cls t)
    (h2 : Fits cls (bom ++ t)) {out : List Token}
    (h : ((tokenize E { data := t }).filter (bs.map (Builtin.apply E))).Yields out .eof) :
    ((tokenize E { data := bom ++ t }).filter (bs.map (Builtin.apply E))).Yields (bomToken E.U :: out) .eof := by
  have y1 := tokenize_yields E hE { data := t }
  have y2 := tokenize_yields E hE { data := bom ++ t }
  rw [hF _ h1] at y1
  rw [hF _ h2, wordSegs_bom hb ht] at y2
  obtain ⟨o, h3, h4⟩ := builtins_bom hE bs hok hbs (segTokens E.U (wordSegs cls t))
  obtain rfl := ((h3 _ y1).unique h).1
  exact h4 _ y2

/-! ### the filters that come ready for use -/

/-- What is used of the tables of Unicode: the mark is its own lower case. -/
def Unicode.LowersBom (U : Unicode) : Prop := U.toLower 0xFEFF = 0xFEFF

theorem normalB_latin {ign p : List Nat} (hp : ∀ r ∈ p, r < 0x180) : ∀ x ∈ normalB ign p, x < 0x180 := by
  induction p with
  | nil => intro x hx; cases hx
  | cons r rs ih =>
    have ih := ih fun r hr => hp r (by simp [hr])
    have e : normalB ign (r :: rs) =
      bif memB (lowerB r) ign then normalB ign rs else lowerB r :: normalB ign rs := rfl
    intro x hx
    rw [e] at hx
    cases hm : memB (lowerB r) ign
    · rw [hm] at hx
      rcases List.mem_cons.mp hx with h | h
      · have hr := hp r (by simp)
        have : ∀ r < 0x180, latinLower r < 0x180 := by decide +kernel
        rw [h, lowerB_eq]
        exact this r hr
      · exact ih x h
    · rw [hm] at hx
      exact ih x hx

theorem table_bom {ign : List Nat} {tree : Tree} {rows : List (Nat × Nat)} (hU : E.U.LowersLatin)
    (hc : ∀ row ∈ rows, rowB ign tree row = true) (hk : ∀ m ∈ tableOf rows, E.CutsCommas m.1) (q : List Rune) (hq : 0xFEFF ∈ q) :
    (Compare.mk E.U true ign).dict (entries E (tableOf rows)) q = none := by
  cases h : (Compare.mk E.U true ign).dict (entries E (tableOf rows)) q with
  | none => rfl
  | some c =>
    obtain ⟨x, hx, rfl, -⟩ := dict_some h
    obtain ⟨row, hrow, p, hp, he⟩ := piece_of_entry hU hc hk hx
    rw [he] at hq
    have := normalB_latin (fun r hr => ((rowB_spec (hc row hrow)).1 r (cutRunes_subset hp r hr)).1) _ hq
    omega

theorem synonyms_bom (hE : E.Lawful) {m : StringMap} {ic : Bool} {ign : List Rune} (hok : (Builtin.synonyms m ic ign).OK E)
    (h1 : (Compare.mk E.U ic ign).fold 0xFEFF ∉ ign)
    (h2 : ∀ q, (Compare.mk E.U ic ign).fold 0xFEFF ∈ q → (Compare.mk E.U ic ign).dict (entries E m) q = none) :
    (Builtin.synonyms m ic ign).PassesBom E := by
  refine ⟨fun ts hy => ?_, h1, h2⟩
  have hn : ∀ k, Admissible (wordLimit (entries E m)) [bomToken E.U] k →
      (Compare.mk E.U ic ign).dict (entries E m) ((Compare.mk E.U ic ign).spell ([bomToken E.U].take k)) = none := by
    intro k hk
    rw [List.take_of_length_le (by have := hk.pos; simp; omega)]
    exact h2 _ (bom_spell (C := ⟨E.U, ic, ign⟩) h1)
  have hg : Greedy ⟨E.U, ic, ign⟩ ((Compare.mk E.U ic ign).dict (entries E m)) (wordLimit (entries E m))
      [bomToken E.U] [bomToken E.U] := by
    by_cases hw : (bomToken E.U).IsWord
    · exact .word hw hn .nil
    · exact .separator hw .nil
  have := synonyms_yields hE hok hy hg
  rwa [if_pos rfl] at this

/-- **C137 (ready).** So it is for all of those filters but Handles and Hashtags. -/
theorem C137_ready (hE : E.Lawful) (hF : E.FollowsUax29 cls) (hR : cls.Right) (hU : E.U.LowersLatin) (hB : E.U.LowersBom) :
    ∀ b ∈ (readyFilters E).take 4, b.OK E ∧ b.PassesBom E := by
  obtain ⟨-, k1, k2, k3⟩ := C76_scanner_laws hF hR
  have ok1 : (Builtin.synonyms stackOverflowMappings true stackOverflowIgnore).OK E := fun x hx => (k1 x hx).scans
  have ok2 : (Builtin.synonyms nbaMappings true nbaIgnore).OK E := fun x hx => (k2 x hx).scans
  have hfold : ∀ ign, (Compare.mk E.U true ign).fold 0xFEFF = 0xFEFF := fun _ => hB
  intro b hb
  simp only [readyFilters, List.take_succ_cons, List.take_zero, List.mem_cons, List.not_mem_nil, or_false] at hb
  rcases hb with rfl | rfl | rfl | rfl
  · refine ⟨trivial, fun ts hy => ?_, trivial⟩
    have := asciiFold_yields E.U hy
    have hf : foldString bom = (bom, false) := by decide +kernel
    simpa [Builtin.apply, foldToken, bomToken, mkToken, hf] using this
  · refine ⟨k3, fun ts hy => ?_, trivial⟩
    have := expandWith_yields hE k3 hy
    have hlow : E.U.lowerString bom = bom := by
      have : runes bom = [0xFEFF] := by decide +kernel
      have hB : E.U.toLower 0xFEFF = 0xFEFF := hB
      rw [Unicode.lowerString, this, List.map_cons, List.map_nil, hB]
      decide +kernel
    have hn : contractionMappings.lookup bom = none := by decide +kernel
    simpa [Builtin.apply, expandToken, expansion?, bomToken, mkToken, hlow, hn] using this
  · refine ⟨ok1, synonyms_bom hE ok1 ?_ ?_⟩
    · rw [hfold]; decide
    · rw [hfold]
      rw [stackOverflow_rows] at k1 ⊢
      exact table_bom hU so_all k1
  · refine ⟨ok2, synonyms_bom hE ok2 ?_ ?_⟩
    · rw [hfold]; decide
    · rw [hfold]
      rw [nba_rows] at k2 ⊢
      exact table_bom hU nba_all k2

/-! ### Handles and Hashtags -/

theorem bom_word (hP : E.U.isPunct 0xFEFF = false) : (bomToken E.U).IsWord := by
  have h : runes bom = [0xFEFF] := by decide +kernel
  have hs : isSpaceRune 0xFEFF = false := by decide
  have hsp : spaceIsPunct 0xFEFF = false := by decide
  simp [Token.IsWord, bomToken, mkToken, h, hs, Unicode.punctRune, hP, hsp]

theorem sigil_makes {f : SigilFilter} (hf : f.sigil ≠ []) (T : List Token) :
    Makes (sigil E.U f) T .eof (sigilActual E.U f none T .eof).1 .eof := by
  intro ts hy
  have := sigil_yields (U := E.U) hf hy
  rwa [sigilActual_end] at this

/-- **C137 (sigils).** If the text does not begin with the sigil, the mark makes no difference to them either. -/
theorem C137_sigil {f : SigilFilter} (hf : f.sigil ≠ []) (hs : f.sigil ≠ bom) {toks out : List Token}
    (hfirst : ∀ c, toks.head? = some c → c.value ≠ f.sigil) (h : Makes (sigil E.U f) toks .eof out .eof) :
    Makes (sigil E.U f) (bomToken E.U :: toks) .eof (bomToken E.U :: out) .eof := by
  obtain rfl := (sigil_makes hf toks).unique h
  have h1 : (bomToken E.U).value ≠ f.sigil := fun h => hs h.symm
  have key : (sigilActual E.U f none (bomToken E.U :: toks) .eof).1 = bomToken E.U :: (sigilActual E.U f none toks .eof).1 := by
    match toks, hfirst with
    | [], _ => simp [sigilActual, h1]
    | [c], hc =>
      have hc := hc c rfl
      simp [sigilActual, h1, hc, emit]
    | c :: l :: rest, hc =>
      have hc := hc c rfl
      rw [sigilActual, sigilActual, sigilActual]
      simp [h1, hc, emit]
  have := sigil_makes (E := E) hf (bomToken E.U :: toks)
  rwa [key] at this

/-- **C137 (sigils lost).** If the text does begin with a handle or a hashtag, that is recognised without the mark,
and not recognised after it. -/
theorem C137_lost (hP : E.U.isPunct 0xFEFF = false) {f : SigilFilter} (hf : f.sigil ≠ []) (hs : f.sigil ≠ bom) {c l : Token}
    (rest : List Token) (hc : c.value = f.sigil) (hl : f.legal l.value = true) : ∃ out out',
    Makes (sigil E.U f) (c :: l :: rest) .eof (mkToken E.U (f.sigil ++ l.value) true :: out) .eof ∧
    Makes (sigil E.U f) (bomToken E.U :: c :: l :: rest) .eof (bomToken E.U :: c :: out') .eof := by
  have h1 : (bomToken E.U).value ≠ f.sigil := fun h => hs h.symm
  have hb : boundary (some (bomToken E.U)) = false := by
    have := bom_word hP
    simp [boundary, this]
  refine ⟨(sigilActual E.U f (some (mkToken E.U (f.sigil ++ l.value) true)) rest .eof).1,
    (sigilActual E.U f (some c) (l :: rest) .eof).1, ?_, ?_⟩
  · have := sigil_makes (E := E) hf (c :: l :: rest)
    rw [sigilActual, if_pos (by simp [boundary, hc]), if_pos hl] at this
    exact this
  · have := sigil_makes (E := E) hf (bomToken E.U :: c :: l :: rest)
    rw [sigilActual, if_neg (by simp [h1]), sigilActual, if_neg (by simp [hb])] at this
    exact this

/-! ### the program -/

/-- The mark, or nothing. -/
def BomOr (U : Unicode) (x : List Token) : Prop := x = [bomToken U] ∨ x = []

theorem flags_bom (hE : E.Lawful) (hF : E.FollowsUax29 cls) (hR : cls.Right) (hU : E.U.LowersLatin) (hB : E.U.LowersBom)
    {sb : Snowball} (hst : GoodStem (sb.of .english)) (hsb : sb.of .english bom = bom) :
    ∀ (fl : List FilterFlag), .distinct ∉ fl → ∀ x, BomOr E.U x → ∀ T : List Token, ∃ x' out,
      x' = (if FilterFlag.lemmas ∈ fl then [] else x) ∧
      Makes (fun ts => ts.filter (fl.map fun f => (f.filter sb .english).apply E)) T .eof out .eof ∧
      Makes (fun ts => ts.filter (fl.map fun f => (f.filter sb .english).apply E)) (x ++ T) .eof (x' ++ out) .eof
  | [], _, x, _, T => ⟨x, T, by simp, fun _ h => h, fun _ h => h⟩
  | f :: fl, hd, x, hx, T => by
    have ready := C137_ready hE hF hR hU hB
    have hfok : (f.filter sb .english).OK E := by
      cases f with
      | contractions => exact (ready (.contractions contractionMappings) (by simp [readyFilters])).1
      | stack => exact (ready (.synonyms stackOverflowMappings true stackOverflowIgnore) (by simp [readyFilters])).1
      | stem => exact fun s h => (hst s).1 h
      | _ => trivial
    obtain ⟨mid, -, h1⟩ := C10_pipeline hE [f.filter sb .english] (by simpa using hfok) T .eof
    have h1 : Makes ((f.filter sb .english).apply E) T .eof mid .eof := h1
    obtain ⟨x1, e1, h2⟩ : ∃ x1, x1 = (if f = .lemmas then [] else x) ∧
        Makes ((f.filter sb .english).apply E) (x ++ T) .eof (x1 ++ mid) .eof := by
      rcases hx with rfl | rfl
      · by_cases hl : f = .lemmas
        · subst hl
          refine ⟨[], by simp, fun ts hy => ?_⟩
          have e := h1.unique (fun ts hy => where_yields Token.isLemma hy)
          have := where_yields Token.isLemma hy
          rw [List.filter_append, ← e, show [bomToken E.U].filter Token.isLemma = [] by
            simp [bomToken, mkToken, Token.isLemma]] at this
          exact this
        · refine ⟨[bomToken E.U], by simp [hl], Builtin.bom hE hfok ?_ h1⟩
          cases f with
          | lemmas => exact absurd rfl hl
          | distinct => exact absurd (by simp) hd
          | ascii => exact (ready .asciiFold (by simp [readyFilters])).2
          | contractions => exact (ready (.contractions contractionMappings) (by simp [readyFilters])).2
          | stack => exact (ready (.synonyms stackOverflowMappings true stackOverflowIgnore) (by simp [readyFilters])).2
          | stem =>
            refine ⟨fun ts hy => ?_, trivial⟩
            have := stemmer_yields (U := E.U) (stem := sb.of .english) (fun t _ => hfok _) hy
            have hv : sb.of .english (bomToken E.U).value = (bomToken E.U).value := hsb
            simpa [FilterFlag.filter, Builtin.apply, stemToken, hv] using this
      · exact ⟨[], by simp, h1⟩
    have hx1 : BomOr E.U x1 := by
      rw [e1]
      split
      · exact .inr rfl
      · exact hx
    obtain ⟨x', out, e2, h3, h4⟩ := flags_bom hE hF hR hU hB hst hsb fl (fun h => hd (by simp [h])) x1 hx1 mid
    refine ⟨x', out, ?_, fun ts h => h3 _ (h1 ts h), fun ts h => h4 _ (h2 ts h)⟩
    rw [e2, e1]
    by_cases hl : f = .lemmas
    · simp [hl]
    · by_cases hm : FilterFlag.lemmas ∈ fl <;> simp [hl, hm, Ne.symm hl]

/-- **C137 (program).** With whatever filters but `-distinct`, the program writes, for a text that begins with the mark,
a line with the mark and what it writes for the text without it. With `-lemmas` the line with the mark is missing. -/
theorem C137_program [HtmlReader] (hE : E.Lawful) (hF : E.FollowsUax29 cls) (hR : cls.Right) (hU : E.U.LowersLatin)
    (hB : E.U.LowersBom) (hb : (cls 0xFEFF).1 = .format) {ω : Type}
    {w : Place → Writer ω} {W : World (ω × Bytes)} {input : Bytes} (hW : Piped w W input) (hWE : W.E = E)
    (hst : GoodStem (W.snowball.of .english)) (hsb : W.snowball.of .english bom = bom) {fl : List FilterFlag}
    (hd : .distinct ∉ fl) {t : Bytes} (ht : BeginsPlain cls t) (h1 : Fits cls t) (h2 : Fits cls (bom ++ t)) :
    ∃ out, WritesFor W fl t out ∧
      WritesFor W fl (bom ++ t) (if FilterFlag.lemmas ∈ fl then out else bom ++ [0x0A] ++ out) := by
  have y1 := tokenize_yields E hE { data := t }
  have y2 := tokenize_yields E hE { data := bom ++ t }
  rw [hF _ h1] at y1
  rw [hF _ h2, wordSegs_bom hb ht] at y2
  obtain ⟨x, o, e, h3, h4⟩ := flags_bom hE hF hR hU hB hst hsb fl hd [bomToken E.U] (.inl rfl) (segTokens E.U (wordSegs cls t))
  have hP : ∀ text, Piped w { W with stdin := { data := text } } text := fun text =>
    ⟨hW.writes, hW.writer, hW.html, hW.pipe, rfl⟩
  have hout : ∀ {text : Bytes} {o : List Token}, ((tokenize E { data := text }).filter
      (fl.map fun f => (f.filter W.snowball .english).apply E)).Yields o .eof →
      WritesFor W fl text (o.flatMap fun t => t.value ++ [0x0A]) := by
    intro text o h
    subst hWE
    exact (C95_outputs (hP text) (html := false) (fl := fl) (toks := o) h).1
  refine ⟨_, hout (h3 _ y1), ?_⟩
  have := hout (h4 _ y2)
  rw [List.flatMap_append, e] at this
  by_cases hm : FilterFlag.lemmas ∈ fl
  · rw [if_pos hm] at this ⊢
    exact this
  · rw [if_neg hm] at this ⊢
    simpa [bomToken, mkToken] using this

/-! ### where it is false, and that the rest is not vacuous -/

/-- A table in which the mark is a format character. -/
def bomTable : WordTable := fun r => if r = 0xFEFF then (.format, false) else uaxTable r

theorem bomTable_right : bomTable.Right where
  latin r hr h := by rw [bomTable, if_neg (by omega)]; exact uaxTable_right.latin r hr h
  apostrophe := by decide
  ideograph r h1 h2 := by rw [bomTable, if_neg (by omega)]; exact uaxTable_right.ideograph r h1 h2
  cr r hr := by
    rw [bomTable] at hr
    split at hr
    · cases hr
    · exact uaxTable_right.cr r hr

/-- An environment with this table. -/
def bomEnv : Env where
  U := uaxEnv.U
  scan r := (wordSegs bomTable r.data, r.err)

theorem bomEnv_lawful : bomEnv.Lawful where
  nonempty r := wordSegs_nonempty bomTable r.data
  complete r h := ⟨h, wordSegs_flatten bomTable r.data⟩
  sound r := ⟨[], by rw [List.append_nil]; exact wordSegs_flatten bomTable r.data⟩

theorem bomEnv_bom : bomEnv.U.LowersBom := by
  show bomEnv.U.toLower 0xFEFF = 0xFEFF
  decide +kernel

theorem bomEnv_follows : bomEnv.FollowsUax29 bomTable := fun _ _ => rfl

/-- **C137 is violated, by Handles.** "@ann" is a handle; after the mark it is not. -/
theorem C137_violated : ¬ C137_full bomEnv bomTable := by
  intro h
  have ht : BeginsPlain bomTable (str "@ann") := by
    intro r hr
    have : runes (str "@ann") = [0x40, 0x61, 0x6E, 0x6E] := by decide +kernel
    rw [this] at hr
    cases hr
    decide
  have y1 := tokenize_yields bomEnv bomEnv_lawful { data := str "@ann" }
  have y2 := tokenize_yields bomEnv bomEnv_lawful { data := bom ++ str "@ann" }
  have w1 : wordSegs bomTable (str "@ann") = [str "@", str "ann"] := by decide +kernel
  rw [bomEnv_follows _ (.inl (by decide +kernel))] at y1
  rw [bomEnv_follows _ (.inl (by decide +kernel)), wordSegs_bom rfl ht] at y2
  rw [w1] at y1 y2
  obtain ⟨o1, o2, h1, h2⟩ := C137_lost (E := bomEnv) (by decide +kernel) (f := ⟨[0x40], legalHandle⟩) (by simp) (by simp [bom])
    (c := mkToken bomEnv.U (str "@") false) (l := mkToken bomEnv.U (str "ann") false) [] (by decide +kernel) (by decide +kernel)
  have := h [.sigil ⟨[0x40], legalHandle⟩] (str "@ann") _ (by simp [readyFilters]) ht (.inl (by decide +kernel))
    (.inl (by decide +kernel)) (h1 _ y1)
  have e := (this.unique (h2 _ y2)).1
  simp only [List.cons.injEq, true_and] at e
  have := congrArg Token.lemma e.1
  simp [mkToken] at this

/-- Non-vacuity: the mark and "I'm" through the contractions. -/
example : ∃ out, ((tokenize bomEnv { data := str "I'm" }).filter
      ([Builtin.contractions contractionMappings].map (Builtin.apply bomEnv))).Yields out .eof ∧
    ((tokenize bomEnv { data := bom ++ str "I'm" }).filter
      ([Builtin.contractions contractionMappings].map (Builtin.apply bomEnv))).Yields (bomToken bomEnv.U :: out) .eof := by
  have ready := C137_ready bomEnv_lawful bomEnv_follows bomTable_right uaxEnv_lowers bomEnv_bom
    (.contractions contractionMappings) (by simp [readyFilters])
  have y1 := tokenize_yields bomEnv bomEnv_lawful { data := str "I'm" }
  rw [bomEnv_follows _ (.inl (by decide +kernel))] at y1
  obtain ⟨o, -, ho⟩ := C10_pipeline bomEnv_lawful [Builtin.contractions contractionMappings] (by simpa using ready.1) _ .eof
  refine ⟨o, ho _ y1, C137_partial bomEnv_lawful bomEnv_follows rfl (by simpa using ready.1) (by simpa using ready.2) ?_
    (.inl (by decide +kernel)) (.inl (by decide +kernel)) (ho _ y1)⟩
  intro r hr
  have : runes (str "I'm") = [0x49, 0x27, 0x6D] := by decide +kernel
  rw [this] at hr
  cases hr
  decide

/-- Non-vacuity: what the program writes for "a" with the mark before it. -/
example [HtmlReader] : ∃ out, WritesFor (pipeWorld bomEnv []) [.stack] (str "a") out ∧ WritesFor (pipeWorld bomEnv []) [.stack]
    (bom ++ str "a") (if FilterFlag.lemmas ∈ [FilterFlag.stack] then out else bom ++ [0x0A] ++ out) :=
  C137_program (E := bomEnv) (cls := bomTable) bomEnv_lawful bomEnv_follows bomTable_right uaxEnv_lowers bomEnv_bom rfl
    (pipeWorld_piped bomEnv []) rfl (fun _ => ⟨id, id⟩) rfl (by simp) (by
      intro r hr
      have : runes (str "a") = [0x61] := by decide +kernel
      rw [this] at hr
      cases hr
      decide) (.inl (by decide +kernel)) (.inl (by decide +kernel))

end Jargon
