import Verif.Props.LinewiseFilters

/-! C136: it makes no difference how lines are ended. -/

namespace Jargon

/-! ### the filters -/

theorem sigil_lineEnd {U : Unicode} {f : SigilFilter} {nl : Token} (h1 : nl.value ≠ f.sigil) (h2 : f.legal nl.value = false) :
    ∀ (T : List Token) (p : Option Token),
      (sigilActual U f p (T ++ [nl]) .eof).1 = (sigilActual U f p T .eof).1 ++ [nl]
  | [], p => by simp [sigilActual, h1]
  | [c], p => by
    simp only [List.cons_append, List.nil_append]
    rw [sigilActual, sigilActual]
    split
    · simp [h2, emit, sigilActual]
    · simp [emit, sigilActual, h1]
  | c :: d :: T, p => by
    simp only [List.cons_append]
    rw [sigilActual, sigilActual]
    split
    · split
      · simp only [emit, sigil_lineEnd h1 h2 T, List.cons_append]
      · simp only [emit, sigil_lineEnd h1 h2 T, List.cons_append]
    · have := sigil_lineEnd (U := U) h1 h2 (d :: T) (some c)
      simp only [List.cons_append] at this
      simp only [emit, this, List.cons_append]

theorem greedy_lineEnd {C : Compare} {D : Dict} {m : Nat} {nl : Token} (hl : nl.punct = true) {T out : List Token}
    (h : Greedy C D m T out) : Greedy C D m (T ++ [nl]) (out ++ [nl]) := by
  have hw : ¬ nl.IsWord := fun h => by simp [Token.IsWord, hl] at h
  have near : ∀ {T : List Token} {k : Nat}, Admissible m (T ++ [nl]) k → k ≤ T.length := by
    intro T k hk
    refine Nat.le_of_not_lt fun hlt => ?_
    have h1 := hk.le
    rw [List.length_append, List.length_singleton] at h1
    have := hk.noPunct nl (by rw [List.take_of_length_le (by simp; omega)]; simp)
    rw [hl] at this
    cases this
  induction h with
  | nil => exact .separator hw .nil
  | separator ht _ ih => exact .separator ht ih
  | @word t ts out ht hnone _ ih =>
    refine .word (t := t) (ts := ts ++ [nl]) ht (fun k hk => ?_) ih
    have hk' := near (T := t :: ts) hk
    rw [← List.cons_append, List.take_append_of_le_length hk']
    exact hnone k ((admissible_append hk').1 hk)
  | @replace t ts out k c ht hlong _ ih =>
    have hk := hlong.mem.le
    have nr : ∀ j, j ≤ (t :: ts).length → (t :: (ts ++ [nl])).take j = (t :: ts).take j := fun j hj => by
      rw [← List.cons_append, List.take_append_of_le_length hj]
    have adm : ∀ j, Admissible m (t :: (ts ++ [nl])) j → j ≤ (t :: ts).length ∧ Admissible m (t :: ts) j := fun j hj => by
      have := near (T := t :: ts) hj
      exact ⟨this, (admissible_append this).1 hj⟩
    rw [List.append_assoc]
    refine .replace (t := t) (ts := ts ++ [nl]) (k := k) ht ⟨?_, ?_, ?_, ?_⟩ ?_
    · rw [← List.cons_append, admissible_append hk]; exact hlong.mem
    · rw [nr k hk]; exact hlong.isSyn
    · intro j hj hlt hne
      obtain ⟨hjl, hj⟩ := adm j hj
      rw [nr j hjl] at hne
      rw [nr j hjl, nr k hk]
      exact hlong.longest j hj hlt hne
    · intro j hj hlt
      obtain ⟨hjl, hj⟩ := adm j hj
      rw [nr j hjl, nr k hk]
      exact hlong.fewest j hj hlt
    · rw [← List.cons_append, List.drop_append_of_le_length hk]
      exact ih

theorem lineEndToken_punct (U : Unicode) {seg : Bytes} (h : LineEnd seg) : (mkToken U seg false).punct = true := by
  rcases h with rfl | rfl
  · exact (mkToken_for U [0x0A] false).punct.2 (by rw [show runes [0x0A] = [0x0A] by decide +kernel]; simp)
  · exact (mkToken_for U [0x0D, 0x0A] false).punct.2 (by
      rw [show runes [0x0D, 0x0A] = [0x0D, 0x0A] by decide +kernel]; simp)

/-- A line end after other tokens passes a filter, and makes no difference to them. -/
theorem Builtin.lineEnd {E : Env} (hE : E.Lawful) {b : Builtin} (hok : b.OK E) (hk : b.KeepsLines E) (T : List Token) :
    ∃ out, Makes (b.apply E) T .eof out .eof ∧ ∀ seg, LineEnd seg →
      Makes (b.apply E) (T ++ [mkToken E.U seg false]) .eof (out ++ [mkToken E.U seg false]) .eof := by
  by_cases hb : b.OneByOne
  · obtain ⟨g, h1, h2⟩ := Builtin.oneByOne hE hok hb
    refine ⟨_, h1 T, fun seg hseg => ?_⟩
    have := h1 (T ++ [mkToken E.U seg false])
    rwa [List.flatMap_append, List.flatMap_singleton, h2 hk seg hseg] at this
  · cases b with
    | sigil f =>
      obtain ⟨k1, k2, k3⟩ := hk
      have make : ∀ T, Makes (Builtin.apply E (.sigil f)) T .eof (sigilActual E.U f none T .eof).1 .eof := by
        intro T ts hy
        have := sigil_yields (U := E.U) hok hy
        rwa [sigilActual_end] at this
      refine ⟨_, make T, fun seg hseg => ?_⟩
      have := make (T ++ [mkToken E.U seg false])
      rwa [sigil_lineEnd (fun h => k1 (h ▸ hseg)) (k2 seg hseg)] at this
    | synonyms m ic ign =>
      have make : ∀ {T out : List Token}, Greedy ⟨E.U, ic, ign⟩ ((Compare.mk E.U ic ign).dict (entries E m))
          (wordLimit (entries E m)) T out → Makes (Builtin.apply E (.synonyms m ic ign)) T .eof out .eof := by
        intro T out hg ts hy
        have := synonyms_yields hE hok hy hg
        rwa [if_pos rfl] at this
      obtain ⟨out, hg⟩ := Greedy.total ⟨E.U, ic, ign⟩ ((Compare.mk E.U ic ign).dict (entries E m))
        (wordLimit (entries E m)) T
      exact ⟨out, make hg, fun seg hseg => make (greedy_lineEnd (lineEndToken_punct E.U hseg) hg)⟩
    | distinct => exact hk.elim
    | _ => exact absurd trivial hb

theorem builtins_lineEnd {E : Env} (hE : E.Lawful) : ∀ (bs : List Builtin), (∀ b ∈ bs, b.OK E) → (∀ b ∈ bs, b.KeepsLines E) →
    ∀ T : List Token, ∃ out, Makes (fun ts => ts.filter (bs.map (Builtin.apply E))) T .eof out .eof ∧ ∀ seg, LineEnd seg →
      Makes (fun ts => ts.filter (bs.map (Builtin.apply E))) (T ++ [mkToken E.U seg false]) .eof
        (out ++ [mkToken E.U seg false]) .eof
  | [], _, _, T => ⟨T, fun _ h => h, fun _ _ _ h => h⟩
  | b :: bs, hok, hk, T => by
    obtain ⟨mid, h1, h2⟩ := Builtin.lineEnd hE (hok b (by simp)) (hk b (by simp)) T
    obtain ⟨out, h3, h4⟩ := builtins_lineEnd hE bs (fun b h => hok b (by simp [h])) (fun b h => hk b (by simp [h])) mid
    exact ⟨out, fun ts h => h3 _ (h1 ts h), fun seg hs ts h => h4 seg hs _ (h2 seg hs ts h)⟩

/-! ### words -/

variable {E : Env} {cls : WordTable}

theorem last_cr {p : Bytes} {z : List (Rune × Bytes)} {q : Rune × Bytes} (h : runeBytes p = z ++ [q]) (hq : q.1 = 0x0D) :
    p.getLast? = some 0x0D := by
  have hs := runeBytes_snd p
  rw [h, List.flatMap_append, List.flatMap_singleton] at hs
  rcases runeBytes_kind _ (s := p) rfl q (by rw [h]; simp) with ⟨b, -, rfl⟩ | ⟨h1, -⟩
  · have : b = 0x0D := UInt8.toNat.inj hq
    subst this
    rw [← hs]
    simp
  · omega

theorem wordSegs_before_line (hR : cls.Right) {p : Bytes} {c : UInt8} (t : Bytes)
    (hc : c = 0x0A ∧ p.getLast? ≠ some 0x0D ∨ c = 0x0D) :
    wordSegs cls (p ++ c :: t) = wordSegs cls p ++ wordSegs cls (c :: t) := by
  have h8 : c.toNat < 0x80 := by rcases hc with ⟨rfl, -⟩ | rfl <;> decide
  have h1 : runeBytes (c :: t) = (c.toNat, [c]) :: runeBytes t := runeBytes_append_ascii [] h8 t
  have hcls : (cls c.toNat).1 = if c = 0x0A then .lf else .cr := by
    rcases hc with ⟨rfl, -⟩ | rfl
    · rw [hR.latin _ (by decide) (by decide)]; rfl
    · rw [hR.latin _ (by decide) (by decide)]; rfl
  have hbr : (cls c.toNat).1.lineBreak = true ∧ (cls c.toNat).1.inert = true := by
    rw [hcls]; split <;> decide
  have hj : joins (((runeBytes p).map fun p => cls p.1).reverse ++ []) ((runeBytes (c :: t)).map fun p => cls p.1) = false := by
    rw [h1, List.append_nil, List.map_cons]
    rcases (runeBytes p).eq_nil_or_concat with h | ⟨z, q, h⟩
    · rw [h]; rfl
    · rw [List.concat_eq_append] at h
      have hcr : ((cls q.1).1 == WB.cr && (cls c.toNat).1 == WB.lf) = false := by
        rw [Bool.and_eq_false_iff]
        rcases hc with ⟨rfl, hp⟩ | rfl
        · left
          rw [beq_eq_false_iff_ne]
          exact fun hq => hp (last_cr h (hR.cr _ hq))
        · right; rw [hcls]; rfl
      rw [h, List.map_append, List.map_singleton, List.reverse_append, List.reverse_singleton, List.singleton_append, joins, hcr]
      simp [hbr.1]
  rw [wordSegs, runeBytes_append_ascii p h8, ← h1, cutWords_append (before := []) ?_ hj, List.map_append,
    cutWords_restart hj, wordSegs, wordSegs]
  rw [h1]
  exact .inr (.inl ⟨_, _, rfl, hbr.2⟩)

theorem wordSegs_lineEnd (hR : cls.Right) {p seg : Bytes} (hseg : LineEnd seg) (hp : p.getLast? ≠ some 0x0D) :
    wordSegs cls (p ++ seg) = wordSegs cls p ++ [seg] := by
  have h1 : cls 0x0A = latinWB 0x0A := hR.latin _ (by decide) (by decide)
  have h2 : cls 0x0D = latinWB 0x0D := hR.latin _ (by decide) (by decide)
  rcases hseg with rfl | rfl
  · rw [wordSegs_before_line hR [] (.inl ⟨rfl, hp⟩), wordSegs_lf_line]
  · rw [wordSegs_before_line hR [0x0A] (.inr rfl)]
    congr 1
    have : runeBytes [0x0D, 0x0A] = [(0x0D, [0x0D]), (0x0A, [0x0A])] := by decide +kernel
    rw [wordSegs, this]
    simp [cutWords, h1, h2, joins, latinWB]

/-! ### C136 -/

/-- Lines, with this text at the end of each, and a last line. -/
def endedBy (lines : List Bytes) (last seg : Bytes) : Bytes := (lines.map (· ++ seg)).flatten ++ last

/-- **C136.** For filters that line ends pass: a text whose lines end with CR LF has the tokens of the text whose lines
end with LF, but for the line ends. -/
theorem C136_tokens (hE : E.Lawful) (hF : E.FollowsUax29 cls) (hR : cls.Right) {bs : List Builtin}
    (hok : ∀ b ∈ bs, b.OK E) (hbs : ∀ b ∈ bs, b.KeepsLines E) (last : Bytes) : ∀ {lines : List Bytes},
    (∀ p ∈ lines, p.getLast? ≠ some 0x0D) → (∀ seg, LineEnd seg → Fits cls (endedBy lines last seg)) →
    ∃ (outs : List (List Token)) (outLast : List Token), outs.length = lines.length ∧ ∀ seg, LineEnd seg →
      ((tokenize E { data := endedBy lines last seg }).filter (bs.map (Builtin.apply E))).Yields
        ((outs.map (· ++ [mkToken E.U seg false])).flatten ++ outLast) .eof
  | [], _, hfit => by
    have y := tokenize_yields E hE { data := last }
    rw [hF last (by simpa [endedBy] using hfit [0x0A] (.inl rfl))] at y
    obtain ⟨out, -, h⟩ := C10_pipeline hE bs hok (segTokens E.U (wordSegs cls last)) .eof
    exact ⟨[], out, rfl, fun seg _ => h _ y⟩
  | p :: lines, hl, hfit => by
    have hsplit : ∀ seg, endedBy (p :: lines) last seg = p ++ seg ++ endedBy lines last seg := by simp [endedBy]
    have hline : ∀ seg, LineEnd seg → IsLine (p ++ seg) := by
      rintro seg (rfl | rfl)
      · exact ⟨p, rfl⟩
      · exact ⟨p ++ [0x0D], by simp⟩
    have hfits : ∀ seg, LineEnd seg → Fits cls (p ++ seg) ∧ Fits cls (endedBy lines last seg) := by
      intro seg hseg
      have h := hfit seg hseg
      rw [hsplit] at h
      have hw := wordSegs_line hR (hline seg hseg) (endedBy lines last seg)
      exact (Fits.parts (a := []) (k := p ++ seg) (b := endedBy lines last seg) h (by rw [List.nil_append, hw]; rfl)).2
    obtain ⟨o, -, ho⟩ := builtins_lineEnd hE bs hok hbs (segTokens E.U (wordSegs cls p))
    obtain ⟨outs, outLast, hlen, hy⟩ := C136_tokens hE hF hR hok hbs last (lines := lines) (fun q hq => hl q (by simp [hq]))
      (fun seg hseg => (hfits seg hseg).2)
    refine ⟨o :: outs, outLast, by simp [hlen], fun seg hseg => ?_⟩
    have h := hfit seg hseg
    rw [hsplit] at h ⊢
    obtain ⟨x, y, h1, h2, h3⟩ := filters_split hE hF hR hok hbs (after := []) (by simp) (by simp) (hline seg hseg) h
    rw [List.append_nil] at h1 h2 h3
    have yl := tokenize_yields E hE { data := p ++ seg }
    rw [hF _ (hfits seg hseg).1, wordSegs_lineEnd hR hseg (hl p (by simp)), segTokens, List.map_append] at yl
    obtain rfl := (h1.unique (ho seg hseg _ yl)).1
    obtain rfl := (h2.unique (hy seg hseg)).1
    rw [List.map_cons, List.flatten_cons, List.append_assoc (o ++ _)]
    exact h3

/-- **C136 (text).** So what comes out is a text whose lines end as those of the text that went in, and but for that
the same text. -/
theorem C136_text (hE : E.Lawful) (hF : E.FollowsUax29 cls) (hR : cls.Right) {bs : List Builtin}
    (hok : ∀ b ∈ bs, b.OK E) (hbs : ∀ b ∈ bs, b.KeepsLines E) (last : Bytes) {lines : List Bytes}
    (hl : ∀ p ∈ lines, p.getLast? ≠ some 0x0D) (hfit : ∀ seg, LineEnd seg → Fits cls (endedBy lines last seg)) :
    ∃ (lines' : List Bytes) (last' : Bytes), lines'.length = lines.length ∧ ∀ seg, LineEnd seg → ∃ out,
      ((tokenize E { data := endedBy lines last seg }).filter (bs.map (Builtin.apply E))).Yields out .eof ∧
      (out.map (·.value)).flatten = endedBy lines' last' seg := by
  obtain ⟨outs, outLast, hlen, h⟩ := C136_tokens hE hF hR hok hbs last hl hfit
  refine ⟨outs.map fun o => (o.map (·.value)).flatten, (outLast.map (·.value)).flatten, by simp [hlen],
    fun seg hseg => ⟨_, h seg hseg, ?_⟩⟩
  clear h hlen
  unfold endedBy
  rw [List.map_append, List.flatten_append]
  congr 1
  induction outs with
  | nil => rfl
  | cons o outs ih =>
    simp only [List.map_cons, List.flatten_cons, List.map_append, List.flatten_append, ih]
    simp [mkToken]

/-- **C136 (words).** Once only the words are left there is no difference at all, whatever filters come afterwards. -/
theorem C136_words (hE : E.Lawful) (hF : E.FollowsUax29 cls) (hR : cls.Right) {bs after : List Builtin}
    (hok : ∀ b ∈ bs, b.OK E) (hbs : ∀ b ∈ bs, b.KeepsLines E) (haok : ∀ b ∈ after, b.OK E) (last : Bytes) {lines : List Bytes}
    (hl : ∀ p ∈ lines, p.getLast? ≠ some 0x0D) (hfit : ∀ seg, LineEnd seg → Fits cls (endedBy lines last seg)) :
    ∃ out, ∀ seg, LineEnd seg →
      ((tokenize E { data := endedBy lines last seg }).filter ((bs ++ .words :: after).map (Builtin.apply E))).Yields out .eof := by
  obtain ⟨outs, outLast, -, h⟩ := C136_tokens hE hF hR hok hbs last hl hfit
  let W := fun l : List Token => l.filter fun t => !t.isPunct && !t.isSpace
  obtain ⟨out, -, ho⟩ := C10_pipeline hE after haok ((outs.map W).flatten ++ W outLast) .eof
  refine ⟨out, fun seg hseg => ?_⟩
  have hf : ∀ ts : TokenStream, ts.filter ((bs ++ .words :: after).map (Builtin.apply E)) =
      (TokenStream.words (ts.filter (bs.map (Builtin.apply E)))).filter (after.map (Builtin.apply E)) := by
    intro ts
    simp [TokenStream.filter, Builtin.apply]
  rw [hf]
  refine ho _ ?_
  have hw := where_yields (fun t => !t.isPunct && !t.isSpace) (h seg hseg)
  have e : ((outs.map (· ++ [mkToken E.U seg false])).flatten ++ outLast).filter (fun t => !t.isPunct && !t.isSpace) =
      (outs.map W).flatten ++ W outLast := by
    rw [List.filter_append]
    congr 1
    have hp : (mkToken E.U seg false).isPunct = true := lineEndToken_punct E.U hseg
    clear h hw ho
    induction outs with
    | nil => rfl
    | cons o outs ih =>
      rw [List.map_cons, List.flatten_cons, List.filter_append, ih, List.map_cons, List.flatten_cons, List.filter_append]
      simp [W, hp]
  rw [e] at hw
  exact hw

/-- The filters of the examples: tags, handles and hashtags, folding and contractions. -/
private def bs0 : List Builtin := [.synonyms stackOverflowMappings true stackOverflowIgnore, .sigil ⟨[0x40], legalHandle⟩,
  .sigil ⟨[0x23], legalHashtag uaxEnv.U⟩, .asciiFold, .contractions contractionMappings]

private theorem bs0_ok : (∀ b ∈ bs0, b.OK uaxEnv) ∧ ∀ b ∈ bs0, b.KeepsLines uaxEnv := by
  have h := C76_scanner_laws uaxEnv_follows uaxTable_right
  have k := C108_ready (E := uaxEnv) uaxEnv_lowers uaxEnv_punct (by rintro r (rfl | rfl) <;> decide +kernel)
  refine ⟨fun b hb => ?_, fun b hb => ?_⟩
  · simp only [bs0, List.mem_cons, List.not_mem_nil, or_false] at hb
    rcases hb with rfl | rfl | rfl | rfl | rfl
    · exact fun m hm => (h.2.1 m hm).scans
    · exact (by decide : ([0x40] : Bytes) ≠ [])
    · exact (by decide : ([0x23] : Bytes) ≠ [])
    · trivial
    · exact ⟨fun _ _ _ => rfl, fun k x hx => (C24_well_formed k x hx).1⟩
  · simp only [bs0, List.mem_cons, List.not_mem_nil, or_false] at hb
    rcases hb with rfl | rfl | rfl | rfl | rfl
    · exact k.2.2.2.1
    · exact k.1
    · exact k.2.1
    · trivial
    · exact k.2.2.1

/-- Non-vacuity: two lines and a rest, with LF and with CR LF. -/
example : ∃ (lines' : List Bytes) (last' : Bytes), lines'.length = 2 ∧ ∀ seg, LineEnd seg → ∃ out,
    ((tokenize uaxEnv { data := endedBy [str "Ruby on Rails", str "can't @ann"] (str "#go") seg }).filter
      (bs0.map (Builtin.apply uaxEnv))).Yields out .eof ∧ (out.map (·.value)).flatten = endedBy lines' last' seg :=
  C136_text uaxEnv_lawful uaxEnv_follows uaxTable_right bs0_ok.1 bs0_ok.2 (str "#go") (lines := [str "Ruby on Rails", str "can't @ann"]) (by decide +kernel)
    (by rintro seg (rfl | rfl) <;> exact .inl (by decide +kernel))

/-- The words of the same lines, each once. -/
example : ∃ out, ∀ seg, LineEnd seg →
    ((tokenize uaxEnv { data := endedBy [str "Ruby on Rails", str "can't @ann"] (str "#go") seg }).filter
      ((bs0 ++ Builtin.words :: [Builtin.distinct]).map (Builtin.apply uaxEnv))).Yields out .eof :=
  C136_words uaxEnv_lawful uaxEnv_follows uaxTable_right bs0_ok.1 bs0_ok.2
    (by intro b hb; rw [List.mem_singleton.1 hb]; trivial) (after := [.distinct]) (str "#go")
    (lines := [str "Ruby on Rails", str "can't @ann"]) (by decide +kernel) (by rintro seg (rfl | rfl) <;> exact .inl (by decide +kernel))

/-- Why a line must not have a CR before its end: with LF that is one line end, with CR LF there are two tokens. -/
example : wordSegs uaxTable (endedBy [str "a\r"] [] [0x0A]) = [str "a", str "\r\n"] ∧
    wordSegs uaxTable (endedBy [str "a\r"] [] [0x0D, 0x0A]) = [str "a", str "\r", str "\r\n"] := by
  decide +kernel

end Jargon
