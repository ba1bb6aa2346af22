import Verif.Props.SigilMap
import Verif.Props.ExpandFirst
import Verif.Props.Markup

/-! C129: whether contractions are expanded before or after Handles and Hashtags. -/

namespace Jargon

/-! ### The specification -/

/-- Expanding makes and breaks no marked word: what follows a mark is not expanded; what is expanded is a word and no
mark, no mark comes of it, and the last that comes of it is a word; a marked word is not expanded. -/
structure MarksAside (U : Unicode) (f : SigilFilter) (h : Token → List Token) (toks : List Token) : Prop where
  next : ∀ c l, [c, l] <:+: toks → c.value = f.sigil → h l = [l]
  expanded : ∀ t ∈ toks, h t ≠ [t] → t.IsWord ∧ t.value ≠ f.sigil ∧ (∀ u ∈ h t, u.value ≠ f.sigil) ∧
    ∃ u ∈ (h t).getLast?, u.IsWord
  merged : ∀ t ∈ toks, h (mkToken U (f.sigil ++ t.value) true) = [mkToken U (f.sigil ++ t.value) true]

/-- **C129 (full).** Contractions may be expanded before or after Handles and Hashtags. -/
def C129_full (E : Env) : Prop :=
  ∀ F ∈ [handles E.U, hashtags E.U], ∀ (ts : TokenStream) (toks : List Token) (e : End), ts.Yields toks e →
    ∃ out, (expand E (F ts)).Yields out e ∧ (F (expand E ts)).Yields out e

/-! ### Lemmas -/

theorem MarksAside.tail {U : Unicode} {f : SigilFilter} {h : Token → List Token} {t : Token} {ts : List Token}
    (hs : MarksAside U f h (t :: ts)) : MarksAside U f h ts :=
  ⟨fun c l hi => hs.next c l (hi.trans (List.suffix_cons _ _).isInfix), fun t ht => hs.expanded t (.tail _ ht),
    fun t ht => hs.merged t (.tail _ ht)⟩

/-- What is no mark is passed on. -/
theorem sigilActual_plain (U : Unicode) (f : SigilFilter) (p : Option Token) {c : Token} (hc : c.value ≠ f.sigil)
    (rest : List Token) (e : End) :
    (sigilActual U f p (c :: rest) e).1 = c :: (sigilActual U f (some c) rest e).1 := by
  cases rest with
  | nil => simp [sigilActual, hc]
  | cons l rest => simp [sigilActual, hc, emit]

theorem sigilActual_plains (U : Unicode) (f : SigilFilter) (rest : List Token) (e : End) : ∀ (l : List Token)
    (p : Option Token) (u : Token), (∀ t ∈ l, t.value ≠ f.sigil) → l.getLast? = some u →
    (sigilActual U f p (l ++ rest) e).1 = l ++ (sigilActual U f (some u) rest e).1
  | [], _, _, _, hu => by simp at hu
  | [t], p, u, hl, hu => by
    simp only [List.getLast?_singleton, Option.some.injEq] at hu
    subst hu
    exact sigilActual_plain U f p (hl t (by simp)) rest e
  | t :: t' :: l, p, u, hl, hu => by
    rw [List.cons_append, sigilActual_plain U f p (hl t (by simp)),
      sigilActual_plains U f rest e (t' :: l) (some t) u (fun x hx => hl x (.tail _ hx)) (by simpa using hu)]
    rfl

/-- Only whether the last token was a word matters. -/
theorem sigilActual_boundary (U : Unicode) (f : SigilFilter) {p p' : Option Token} (hp : boundary p' = boundary p)
    (toks : List Token) (e : End) : sigilActual U f p' toks e = sigilActual U f p toks e := by
  match toks with
  | [] => simp [sigilActual]
  | [c] => simp [sigilActual, hp]
  | c :: l :: rest => simp [sigilActual, hp]

/-- What the filter does, with the expansion first. -/
theorem sigilActual_expand {U : Unicode} {f : SigilFilter} {h : Token → List Token} (toks : List Token) (e : End) :
    ∀ p : Option Token, MarksAside U f h toks →
      (sigilActual U f p (toks.flatMap h) e).1 = (sigilActual U f p toks e).1.flatMap h := by
  intro p hs
  have hmark : ∀ c ∈ toks, c.value = f.sigil → h c = [c] := by
    intro c hc hv
    by_contra hne
    exact (hs.expanded c hc hne).2.1 hv
  fun_induction sigilActual U f p toks e with
  | case1 p e => simp [sigilActual]
  | case2 p c hb =>
    have := hmark c (by simp) (by simp_all)
    simp_all [sigilActual]
  | case3 p c err hb =>
    have := hmark c (by simp) (by simp_all)
    simp_all [sigilActual]
  | case4 p c e hb =>
    by_cases hc : h c = [c]
    · simp [hc, sigilActual, hb]
    · obtain ⟨h1, h2, h3, u, hu, -⟩ := hs.expanded c (by simp) hc
      have := sigilActual_plains U f [] e (h c) p u h3 (by simpa using hu)
      simpa [sigilActual] using this
  | case5 p c l rest e hb hl ih =>
    have hc : c.value = f.sigil := by simp_all
    have e1 := hmark c (by simp) hc
    have e2 := hs.next c l (pair_infix ..) hc
    have := ih hs.tail.tail fun c hm => hmark c (by simp [hm])
    simp only [List.flatMap_cons, e1, e2, List.singleton_append, sigilActual]
    rw [if_pos hb, if_pos hl]
    simp only [emit, List.flatMap_cons, this, hs.merged l (by simp), List.singleton_append]
  | case6 p c l rest e hb hl ih =>
    have hc : c.value = f.sigil := by simp_all
    have e1 := hmark c (by simp) hc
    have e2 := hs.next c l (pair_infix ..) hc
    have := ih hs.tail.tail fun c hm => hmark c (by simp [hm])
    simp only [List.flatMap_cons, e1, e2, List.singleton_append, sigilActual]
    rw [if_pos hb, if_neg hl]
    simp only [emit, List.flatMap_cons, this, e1, e2, List.singleton_append]
  | case7 p c l rest e hb ih =>
    have := ih hs.tail fun c hm => hmark c (.tail _ hm)
    have hfl : (c :: l :: rest).flatMap h = h c ++ (l :: rest).flatMap h := List.flatMap_cons
    have hfr : ∀ L : List Token, (c :: L).flatMap h = h c ++ L.flatMap h := fun _ => List.flatMap_cons
    simp only [emit]
    rw [hfl, hfr, ← this]
    by_cases hc : h c = [c]
    · rw [hc, List.singleton_append]
      generalize hL : (l :: rest).flatMap h = L
      cases L with
      | nil =>
        by_cases hv : c.value = f.sigil
        · have e2 := hs.next c l (pair_infix ..) hv
          simp [e2] at hL
        · simp [sigilActual, hv]
      | cons x L =>
        simp only [sigilActual]
        rw [if_neg hb]
        simp [emit]
    · obtain ⟨h1, h2, h3, u, hu, h4⟩ := hs.expanded c (by simp) hc
      rw [sigilActual_plains U f _ e (h c) p u h3 (by simpa using hu),
        sigilActual_boundary U f (boundary_congr (t := c) (t' := u) (iff_of_true h4 h1))]

/-! ### C129 -/

/-- **C129 (partial).** A filter that expands tokens, each by itself, may come before or after a sigil filter if it makes
and breaks no marked word. Missing: texts in which it does, where the order matters (`C129_violated`). -/
theorem C129_partial {U : Unicode} {f : SigilFilter} (hf : f.sigil ≠ []) {G : Filter} {g : Token → List Token}
    (hG : EachExpands G g) {toks : List Token} (hs : MarksAside U f g toks) {ts : TokenStream} {e : End}
    (h : ts.Yields toks e) : ∃ out, (G (sigil U f ts)).Yields out e ∧ (sigil U f (G ts)).Yields out e := by
  have h1 := hG _ _ _ (sigil_yields (U := U) hf h)
  have h2 := sigil_yields (U := U) hf (hG _ _ _ h)
  rw [sigilActual_end] at h1 h2
  rw [sigilActual_expand toks e none hs] at h2
  exact ⟨_, h1, h2⟩

theorem contractions_unmarked : contractionRows.all (fun r =>
    !(textOf r.1).contains 0x40 && !(textOf r.1).contains 0x23 && !(textOf r.2).contains 0x40 &&
    !(textOf r.2).contains 0x23 && (textOf r.2).getLast?.any (fun b => isPlain b.toNat && b.toNat.blt 0x80)) = true := by
  decide +kernel

/-- No contraction and no expansion contains a mark, and every expansion ends in a letter. -/
theorem entry_unmarked {b : UInt8} (hb : b = 0x40 ∨ b = 0x23) {k x : Bytes} (h : (k, x) ∈ contractionMappings) :
    b ∉ k ∧ b ∉ x ∧ ∃ c ∈ x.getLast?, isPlain c.toNat = true := by
  obtain ⟨r, hr, h1, h2⟩ := mem_mappings.1 h
  have := List.all_eq_true.1 contractions_unmarked r hr
  simp only at h1 h2
  rw [h1, h2] at this
  simp only [Bool.and_eq_true, Bool.not_eq_true', List.contains_eq_mem, decide_eq_false_iff_not] at this
  obtain ⟨⟨⟨⟨a1, a2⟩, a3⟩, a4⟩, a5⟩ := this
  refine ⟨by rcases hb with rfl | rfl <;> assumption, by rcases hb with rfl | rfl <;> assumption, ?_⟩
  cases hl : x.getLast? with
  | none => simp [hl] at a5
  | some c =>
    rw [hl] at a5
    exact ⟨c, rfl, by simp at a5; exact a5.1⟩

/-- What contains a mark is no contraction. -/
theorem marked_unexpanded {E : Env} (hU : E.U.LowersAscii) {b : UInt8} (hb : b = 0x40 ∨ b = 0x23) {t : Token} {s : Bytes}
    (ht : t.value = b :: s) : expansion? E.U contractionMappings t = none := by
  have hb8 : b.toNat < 0x80 := by rcases hb with rfl | rfl <;> decide
  have none_of : ∀ v : Bytes, b ∈ v → contractionMappings.lookup v = none := by
    intro v hv
    cases hl : contractionMappings.lookup v with
    | none => rfl
    | some x => exact absurd hv (entry_unmarked hb (lookup_mem hl)).1
  have hlow : E.U.lowerString t.value = b :: E.U.lowerString s := by
    rw [ht]
    unfold Unicode.lowerString
    rw [runes_ascii_cons hb8, List.map_cons, hU.same _ (.inl hb8), show asciiLower b.toNat = b.toNat by
      rcases hb with rfl | rfl <;> decide]
    simp [encodeRunes, encodeRune_ascii hb8]
  unfold expansion?
  rw [none_of t.value (by rw [ht]; simp), hlow]
  exact none_of _ (by simp)

/-- What comes of a contraction. -/
theorem expansion_unmarked {E : Env} (hE : E.Lawful) (hP : E.U.PlainNotPunct) {b : UInt8} (hb : b = 0x40 ∨ b = 0x23)
    {k x : Bytes} (h : (k, x) ∈ contractionMappings) (hs : (E.scan { data := x }).2 = none) :
    (∀ u ∈ stringTokens E x, u.value ≠ [b]) ∧ ∃ u ∈ (stringTokens E x).getLast?, u.IsWord := by
  obtain ⟨-, hx, c, hc, hp⟩ := entry_unmarked hb h
  have hv := stringTokens_value hE hs
  refine ⟨fun u hu he => hx (hv u hu b (by rw [he]; simp)), ?_⟩
  have htx := text_stringTokens hE hs
  cases hl : (stringTokens E x).getLast? with
  | none =>
    rw [List.getLast?_eq_none_iff] at hl
    rw [hl] at htx
    rw [← htx] at hc
    simp at hc
  | some u =>
    refine ⟨u, rfl, ?_⟩
    obtain ⟨l, hlu⟩ := List.getLast?_eq_some_iff.1 hl
    have hu : u ∈ stringTokens E x := by rw [hlu]; simp
    have hne : u.value ≠ [] := stringTokens_nonempty hE x u hu
    have hcu : c ∈ u.value := by
      rw [hlu, text_append, text_cons, text_nil, List.append_nil] at htx
      rw [← htx, List.getLast?_append_of_ne_nil _ hne] at hc
      exact List.mem_of_getLast? hc
    have hasc : IsAscii u.value := fun a ha => entry_ascii h a (hv u hu a ha)
    have hrc : c.toNat ∈ runes u.value := by rw [runes_ascii hasc]; exact List.mem_map_of_mem hcu
    simp only [stringTokens, segTokens, List.mem_map] at hu
    obtain ⟨seg, -, rfl⟩ := hu
    have hf := mkToken_for E.U seg false
    constructor
    · rw [Bool.eq_false_iff]
      intro hpu
      rcases hf.punct.1 hpu _ hrc with h1 | h1 | h1 | h1
      · rw [hP _ hp] at h1; cases h1
      all_goals (rw [h1] at hp; revert hp; decide)
    · rw [Bool.eq_false_iff]
      intro hsp
      have h1 := hf.space.1 hsp _ hrc
      have : ∀ r ∈ whiteSpace, isPlain r = false := by decide +kernel
      rw [this _ h1] at hp
      cases hp

theorem contractions_marks {E : Env} (hE : E.Lawful) (hU : E.U.LowersAscii) (hP : E.U.PlainNotPunct)
    (hm : GoodTable E contractionMappings) {b : UInt8} (hb : b = 0x40 ∨ b = 0x23) (legal : Bytes → Bool)
    {toks : List Token} (hw : ∀ t ∈ toks, Contracted E.U t.value → t.IsWord)
    (hn : ∀ c l, [c, l] <:+: toks → c.value = [b] → ¬ Contracted E.U l.value) :
    MarksAside E.U { sigil := [b], legal } (expandToken E contractionMappings) toks where
  next c l hi hc := by simp only [expandToken, not_contracted (hn c l hi hc)]
  expanded t ht hne := by
    have hct : Contracted E.U t.value := by
      by_contra hct
      exact hne (by simp only [expandToken, not_contracted hct])
    refine ⟨hw t ht hct, fun hv => hne ?_, ?_⟩
    · simp only [expandToken, marked_unexpanded hU hb hv]
    · unfold expandToken at hne ⊢
      cases hx : expansion? E.U contractionMappings t with
      | none => simp [hx] at hne
      | some x =>
        obtain ⟨k, hk⟩ := expansion_mem hx
        exact expansion_unmarked hE hP hb hk (hm.scans k x hk)
  merged t _ := by
    have := marked_unexpanded (E := E) hU hb (t := mkToken E.U ([b] ++ t.value) true) (s := t.value) rfl
    simp only [expandToken, this]

/-- **C129 for contractions (partial).** If every contraction of the text is a word, as the tokenizer makes them, and
none follows an "@" or "#" immediately, contractions may be expanded before or after Handles and Hashtags. -/
theorem C129_contractions_partial {E : Env} (hE : E.Lawful) (hU : E.U.LowersAscii) (hP : E.U.PlainNotPunct)
    (hs : ∀ k x, (k, x) ∈ contractionMappings → (E.scan { data := x }).2 = none)
    {toks : List Token} (hw : ∀ t ∈ toks, Contracted E.U t.value → t.IsWord)
    (hn : ∀ c l, [c, l] <:+: toks → c.value = str "@" ∨ c.value = str "#" → ¬ Contracted E.U l.value)
    {ts : TokenStream} {e : End} (h : ts.Yields toks e) : ∀ F ∈ [handles E.U, hashtags E.U],
    ∃ out, (expand E (F ts)).Yields out e ∧ (F (expand E ts)).Yields out e := by
  rw [show str "@" = [0x40] by decide +kernel, show str "#" = [0x23] by decide +kernel] at hn
  have hm : GoodTable E contractionMappings := ⟨hs, fun k x hx => (C24_well_formed k x hx).1⟩
  intro F hF
  simp only [List.mem_cons, List.not_mem_nil, or_false] at hF
  rcases hF with rfl | rfl
  · exact C129_partial (by simp) (fun _ _ _ h => expandWith_yields hE hm h)
      (contractions_marks hE hU hP hm (.inl rfl) _ hw fun c l hi hc => hn c l hi (.inl hc)) h
  · exact C129_partial (by simp) (fun _ _ _ h => expandWith_yields hE hm h)
      (contractions_marks hE hU hP hm (.inr rfl) _ hw fun c l hi hc => hn c l hi (.inr hc)) h

/-! ### Where the order matters -/

/-- **C129 (violated).** "#gonna" is a hashtag if contractions are expanded after Hashtags, and "#going to" if before;
"@he's" is the handle "@he" only if they are expanded before Handles. -/
theorem C129_violated : ¬ C129_full latinEnv ∧
    (expand latinEnv (hashtags latinEnv.U (listStream [lw "#", lw "gonna"] .eof))).Yields [lc "#gonna"] .eof ∧
    (hashtags latinEnv.U (expand latinEnv (listStream [lw "#", lw "gonna"] .eof))).Yields
      [lc "#going", lw " ", lw "to"] .eof ∧
    (expand latinEnv (handles latinEnv.U (listStream [lw "@", lw "he's"] .eof))).Yields
      [lw "@", lw "he", lw " ", lw "is"] .eof ∧
    (handles latinEnv.U (expand latinEnv (listStream [lw "@", lw "he's"] .eof))).Yields
      [lc "@he", lw " ", lw "is"] .eof := by
  have key : ∀ (f : SigilFilter) (toks : List Token), f.sigil ≠ [] →
      (expand latinEnv (sigil latinEnv.U f (listStream toks .eof))).Yields
        ((sigilActual latinEnv.U f none toks .eof).1.flatMap (expandToken latinEnv contractionMappings)) .eof ∧
      (sigil latinEnv.U f (expand latinEnv (listStream toks .eof))).Yields
        (sigilActual latinEnv.U f none (toks.flatMap (expandToken latinEnv contractionMappings)) .eof).1 .eof := by
    intro f toks hf
    have h0 := listStream_yields toks .eof
    have h1 := expandWith_yields latinEnv_lawful sampleEnv_good (sigil_yields (U := latinEnv.U) hf h0)
    have h2 := sigil_yields (U := latinEnv.U) hf (expandWith_yields latinEnv_lawful sampleEnv_good h0)
    rw [sigilActual_end] at h1 h2
    exact ⟨h1, h2⟩
  obtain ⟨a1, a2⟩ := key { sigil := [0x23], legal := legalHashtag latinEnv.U } [lw "#", lw "gonna"] (by simp)
  obtain ⟨b1, b2⟩ := key { sigil := [0x40], legal := legalHandle } [lw "@", lw "he's"] (by simp)
  rw [show (sigilActual latinEnv.U { sigil := [0x23], legal := legalHashtag latinEnv.U } none [lw "#", lw "gonna"]
    .eof).1.flatMap (expandToken latinEnv contractionMappings) = [lc "#gonna"] by decide +kernel] at a1
  rw [show (sigilActual latinEnv.U { sigil := [0x23], legal := legalHashtag latinEnv.U } none
    ([lw "#", lw "gonna"].flatMap (expandToken latinEnv contractionMappings)) .eof).1 =
      [lc "#going", lw " ", lw "to"] by decide +kernel] at a2
  rw [show (sigilActual latinEnv.U { sigil := [0x40], legal := legalHandle } none [lw "@", lw "he's"]
    .eof).1.flatMap (expandToken latinEnv contractionMappings) = [lw "@", lw "he", lw " ", lw "is"] by
      decide +kernel] at b1
  rw [show (sigilActual latinEnv.U { sigil := [0x40], legal := legalHandle } none
    ([lw "@", lw "he's"].flatMap (expandToken latinEnv contractionMappings)) .eof).1 =
      [lc "@he", lw " ", lw "is"] by decide +kernel] at b2
  refine ⟨fun h => ?_, a1, a2, b1, b2⟩
  obtain ⟨out, h1, h2⟩ := h (hashtags latinEnv.U) (by simp) _ _ _ (listStream_yields [lw "#", lw "gonna"] .eof)
  have := (h1.unique a1).1.symm.trans (h2.unique a2).1
  revert this
  decide +kernel

private def w (s : String) : Token := mkToken sampleEnv.U (str s) false

theorem asciiUnicode_lowers : asciiUnicode.LowersAscii := by
  constructor
  · intro r hr
    show (if (decide (65 ≤ r) && decide (r ≤ 90)) = true then r + 32 else r) = _
    simp [asciiLower]
  · intro r
    show ¬ (65 ≤ (if (decide (65 ≤ r) && decide (r ≤ 90)) = true then r + 32 else r) ∧
      (if (decide (65 ≤ r) && decide (r ≤ 90)) = true then r + 32 else r) ≤ 90)
    split
    · simp_all; omega
    · simp_all

instance (U : Unicode) (s : Bytes) : Decidable (Contracted U s) := by unfold Contracted; infer_instance

-- what the partial version asks for can be had: "#go he's"
example : ∃ out,
    (expand sampleEnv (hashtags sampleEnv.U (listStream [w "#", w "go", w " ", w "he's"] .eof))).Yields out .eof ∧
    (hashtags sampleEnv.U (expand sampleEnv (listStream [w "#", w "go", w " ", w "he's"] .eof))).Yields out .eof := by
  refine C129_contractions_partial sampleEnv_lawful asciiUnicode_lowers latinEnv_plain (fun _ _ _ => rfl) (by decide +kernel)
    (fun c l hi => ?_) (listStream_yields _ _) _ (by simp)
  have key : ∀ p ∈ [w "#", w "go", w " ", w "he's"].zip [w "go", w " ", w "he's"],
      p.1.value = str "@" ∨ p.1.value = str "#" →
        ¬ Contracted sampleEnv.U p.2.value := by decide +kernel
  exact key _ (infix_zip hi)

end Jargon
