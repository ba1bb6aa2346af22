import Verif.Props.SigilExpand
import Verif.Props.StopFirst

/-! C132: whether tokens are selected before or after Handles and Hashtags. -/

namespace Jargon

/-! ### The specification -/

/-- Selecting makes and breaks no marked word: marks are kept, and so are the tokens before and after them, and the marked
words. -/
structure SelectsAside (U : Unicode) (f : SigilFilter) (keep : Token → Bool) (toks : List Token) : Prop where
  mark : ∀ t ∈ toks, t.value = f.sigil → keep t = true
  before : ∀ d c, [d, c] <:+: toks → c.value = f.sigil → keep d = true
  after : ∀ c l, [c, l] <:+: toks → c.value = f.sigil → keep l = true
  merged : ∀ c l, [c, l] <:+: toks → c.value = f.sigil → f.legal l.value = true →
    keep (mkToken U (f.sigil ++ l.value) true) = true

/-- **C132 (full).** Stop words may be removed before or after Handles and Hashtags. -/
def C132_full (U : Unicode) (stop : List Bytes) (ignoreCase : Bool) : Prop :=
  ∀ F ∈ [handles U, hashtags U], ∀ (ts : TokenStream) (toks : List Token) (e : End), ts.Yields toks e →
    ∃ out, (stopwords U stop ignoreCase (F ts)).Yields out e ∧ (F (stopwords U stop ignoreCase ts)).Yields out e

/-! ### Lemmas -/

theorem SelectsAside.tail {U : Unicode} {f : SigilFilter} {keep : Token → Bool} {t : Token} {ts : List Token}
    (h : SelectsAside U f keep (t :: ts)) : SelectsAside U f keep ts :=
  have up {a b : Token} (hi : [a, b] <:+: ts) : [a, b] <:+: t :: ts := hi.trans (List.suffix_cons _ _).isInfix
  ⟨fun t ht => h.mark t (.tail _ ht), fun d c hi => h.before d c (up hi), fun c l hi => h.after c l (up hi),
    fun c l hi => h.merged c l (up hi)⟩

/-- The first token that is kept after one that is not is no mark. -/
theorem SelectsAside.first {U : Unicode} {f : SigilFilter} {keep : Token → Bool} : ∀ {d : Token} {ts : List Token},
    SelectsAside U f keep (d :: ts) → keep d = false → ∀ c ∈ (ts.filter keep).head?, c.value ≠ f.sigil
  | _, [], _, _ => by simp
  | d, c :: ts, h, hd => by
    have hc : c.value ≠ f.sigil := fun hv => by
      rw [h.before d c (pair_infix ..) hv] at hd
      cases hd
    by_cases hk : keep c = true
    · simpa [List.filter_cons, hk] using hc
    · rw [List.filter_cons, if_neg hk]
      exact h.tail.first (by simpa using hk)

/-- Before a token that is no mark, the last token makes no difference. -/
theorem sigilActual_any (U : Unicode) (f : SigilFilter) (p p' : Option Token) {toks : List Token}
    (h : ∀ c ∈ toks.head?, c.value ≠ f.sigil) (e : End) :
    (sigilActual U f p toks e).1 = (sigilActual U f p' toks e).1 := by
  cases toks with
  | nil => simp [sigilActual]
  | cons c rest => rw [sigilActual_plain U f p (h c rfl), sigilActual_plain U f p' (h c rfl)]

/-- What the filter does, with the selection first. -/
theorem sigilActual_select {U : Unicode} {f : SigilFilter} {keep : Token → Bool} (toks : List Token) (e : End) :
    ∀ p : Option Token, SelectsAside U f keep toks →
      (sigilActual U f p (toks.filter keep) e).1 = (sigilActual U f p toks e).1.filter keep := by
  intro p hs
  fun_induction sigilActual U f p toks e with
  | case1 p e => simp [sigilActual]
  | case2 p c hb =>
    have := hs.mark c (by simp) (by simp_all)
    simp_all [sigilActual]
  | case3 p c err hb =>
    have := hs.mark c (by simp) (by simp_all)
    simp_all [sigilActual]
  | case4 p c e hb =>
    by_cases hc : keep c = true
    · simp [hc, sigilActual, hb]
    · simp [hc, sigilActual]
  | case5 p c l rest e hb hl ih =>
    have hc : c.value = f.sigil := by simp_all
    have e1 := hs.mark c (by simp) hc
    have e2 := hs.after c l (pair_infix ..) hc
    have e3 := hs.merged c l (pair_infix ..) hc hl
    have := ih hs.tail.tail
    simp only [List.filter_cons, e1, e2, if_true, sigilActual]
    rw [if_pos hb, if_pos hl]
    simp only [emit, List.filter_cons, this, e3, if_true]
  | case6 p c l rest e hb hl ih =>
    have hc : c.value = f.sigil := by simp_all
    have e1 := hs.mark c (by simp) hc
    have e2 := hs.after c l (pair_infix ..) hc
    have := ih hs.tail.tail
    simp only [List.filter_cons, e1, e2, if_true, sigilActual]
    rw [if_pos hb, if_neg hl]
    simp only [emit, List.filter_cons, this, e1, e2, if_true]
  | case7 p c l rest e hb ih =>
    have := ih hs.tail
    have hfl : ∀ L : List Token, (c :: L).filter keep = if keep c then c :: L.filter keep else L.filter keep :=
      fun _ => List.filter_cons
    simp only [emit]
    rw [hfl, hfl, ← this]
    by_cases hc : keep c = true
    · rw [if_pos hc, if_pos hc]
      generalize hL : (l :: rest).filter keep = L
      cases L with
      | nil =>
        by_cases hv : c.value = f.sigil
        · have e2 := hs.after c l (pair_infix ..) hv
          simp [e2] at hL
        · simp [sigilActual, hv]
      | cons x L =>
        simp only [sigilActual]
        rw [if_neg hb]
        simp [emit]
    · rw [if_neg hc, if_neg hc]
      exact sigilActual_any U f _ _ (hs.first (by simpa using hc)) e

/-! ### C132 -/

/-- **C132 (partial).** Tokens may be selected before or after a sigil filter if no mark, no neighbour of a mark and no
marked word is left out. Missing: texts in which one is, where the order matters (`C132_violated`). -/
theorem C132_partial {U : Unicode} {f : SigilFilter} (hf : f.sigil ≠ []) {keep : Token → Bool} {toks : List Token}
    (hs : SelectsAside U f keep toks) {ts : TokenStream} {e : End} (h : ts.Yields toks e) :
    ∃ out, ((sigil U f ts).where keep).Yields out e ∧ (sigil U f (ts.where keep)).Yields out e := by
  have h1 := where_yields keep (sigil_yields (U := U) hf h)
  have h2 := sigil_yields (U := U) hf (where_yields keep h)
  rw [sigilActual_end] at h1 h2
  rw [sigilActual_select toks e none hs] at h2
  exact ⟨_, h1, h2⟩

/-- **C132 for stop words (partial).** Stop words may be removed before or after Handles and Hashtags if none of them
begins with a mark and none stands next to one. -/
theorem C132_stop_partial {U : Unicode} (hU : U.LowersAscii) {b : UInt8} (hb : b = 0x40 ∨ b = 0x23) {legal : Bytes → Bool}
    {stop : List Bytes} {ic : Bool} (hw : ∀ w ∈ stop, w.head? ≠ some b ∧ (U.lowerString w).head? ≠ some b)
    {toks : List Token} (hn : ∀ d c, [d, c] <:+: toks → (c.value = [b] → stopped U stop ic d = false) ∧
      (d.value = [b] → stopped U stop ic c = false)) {ts : TokenStream} {e : End} (h : ts.Yields toks e) :
    ∃ out, (stopwords U stop ic (sigil U { sigil := [b], legal } ts)).Yields out e ∧
      (sigil U { sigil := [b], legal } (stopwords U stop ic ts)).Yields out e := by
  have marked : ∀ (t : Token) (x : Bytes), t.value = b :: x → stopped U stop ic t = false := by
    intro t x ht
    have hlow : U.lowerString t.value = b :: U.lowerString x := by
      have hb8 : b.toNat < 0x80 := by rcases hb with rfl | rfl <;> decide
      rw [ht]
      unfold Unicode.lowerString
      rw [runes_ascii_cons hb8, List.map_cons, hU.same _ (.inl hb8), show asciiLower b.toNat = b.toNat by
        rcases hb with rfl | rfl <;> decide]
      simp [encodeRunes, encodeRune_ascii hb8]
    rw [Bool.eq_false_iff]
    intro hst
    unfold stopped at hst
    split at hst
    · simp only [List.contains_eq_mem, List.mem_map, decide_eq_true_eq] at hst
      obtain ⟨w, h1, h2⟩ := hst
      exact (hw w h1).2 (by rw [h2, hlow]; rfl)
    · simp only [List.contains_eq_mem, decide_eq_true_eq] at hst
      exact (hw _ hst).1 (by rw [ht]; rfl)
  have hs : SelectsAside U { sigil := [b], legal } (fun t => !isStop U stop ic t) toks := by
    simp only [← stopped_eq]
    refine ⟨fun t _ ht => ?_, fun d c hi hc => ?_, fun c l hi hc => ?_, fun c l _ _ _ => ?_⟩
    · rw [marked t [] ht]; rfl
    · rw [(hn d c hi).1 hc]; rfl
    · rw [(hn c l hi).2 hc]; rfl
    · rw [marked _ l.value rfl]; rfl
  have h1 := stop_yields (U := U) (words := stop) (ic := ic) (sigil_yields (U := U) (f := { sigil := [b], legal }) (by simp) h)
  have h2 := sigil_yields (U := U) (f := { sigil := [b], legal }) (by simp) (stop_yields (U := U) (words := stop) (ic := ic) h)
  rw [sigilActual_end] at h1 h2
  rw [sigilActual_select toks e none hs] at h2
  exact ⟨_, h1, h2⟩

private def w (s : String) : Token := mkToken sampleEnv.U (str s) false
private def m (s : String) : Token := mkToken sampleEnv.U (str s) true

/-- **C132 (violated).** The handle "@the" is lost if "the" is removed first, and "the@bob" becomes a handle. Words, put
before Handles, leaves no handle at all. -/
theorem C132_violated : ¬ C132_full sampleEnv.U [str "the"] true ∧
    (stopwords sampleEnv.U [str "the"] true (handles sampleEnv.U (listStream [w "@", w "the"] .eof))).Yields
      [m "@the"] .eof ∧
    (handles sampleEnv.U (stopwords sampleEnv.U [str "the"] true (listStream [w "@", w "the"] .eof))).Yields
      [w "@"] .eof ∧
    (stopwords sampleEnv.U [str "the"] true (handles sampleEnv.U (listStream [w "the", w "@", w "bob"] .eof))).Yields
      [w "@", w "bob"] .eof ∧
    (handles sampleEnv.U (stopwords sampleEnv.U [str "the"] true (listStream [w "the", w "@", w "bob"] .eof))).Yields
      [m "@bob"] .eof ∧
    (handles sampleEnv.U (listStream [w "@", w "bob"] .eof)).words.Yields [m "@bob"] .eof ∧
    (handles sampleEnv.U (listStream [w "@", w "bob"] .eof).words).Yields [w "bob"] .eof := by
  have y : ∀ {ts : TokenStream} {toks : List Token}, ts.Yields toks .eof → (handles sampleEnv.U ts).Yields
      (sigilActual sampleEnv.U { sigil := [0x40], legal := legalHandle } none toks .eof).1 .eof := by
    intro ts toks h
    have := sigil_yields (U := sampleEnv.U) (f := { sigil := [0x40], legal := legalHandle }) (by simp) h
    rw [sigilActual_end] at this
    exact this
  have of : ∀ {ts : TokenStream} {a b : List Token}, ts.Yields a .eof → a = b → ts.Yields b .eof := fun h e => e ▸ h
  have l1 := listStream_yields [w "@", w "the"] .eof
  have l2 := listStream_yields [w "the", w "@", w "bob"] .eof
  have l3 := listStream_yields [w "@", w "bob"] .eof
  have a1 := of (stop_yields (U := sampleEnv.U) (words := [str "the"]) (ic := true) (y l1)) (b := [m "@the"]) (by decide +kernel)
  have a2 := of (y (stop_yields (U := sampleEnv.U) (words := [str "the"]) (ic := true) l1)) (b := [w "@"]) (by decide +kernel)
  refine ⟨fun h => ?_, a1, a2, of (stop_yields (y l2)) (by decide +kernel), of (y (stop_yields l2)) (by decide +kernel),
    of (C06_words (y l3)) (by decide +kernel), of (y (C06_words l3)) (by decide +kernel)⟩
  obtain ⟨out, h1, h2⟩ := h (handles sampleEnv.U) (by simp) _ _ _ l1
  have := (h1.unique a1).1.symm.trans (h2.unique a2).1
  revert this
  decide +kernel

-- what the partial versions ask for can be had: "the" may be removed from "the @bob" before or after Handles
example : ∃ out, (stopwords sampleEnv.U [str "the"] true (handles sampleEnv.U
      (listStream [w "the", w " ", w "@", w "bob"] .eof))).Yields out .eof ∧
    (handles sampleEnv.U (stopwords sampleEnv.U [str "the"] true
      (listStream [w "the", w " ", w "@", w "bob"] .eof))).Yields out .eof := by
  refine C132_stop_partial asciiUnicode_lowers (.inl rfl) (by decide +kernel) ?_ (listStream_yields ..)
  have key : ∀ i < 3, ∀ d ∈ ([w "the", w " ", w "@", w "bob"].drop i).head?.toList,
      ∀ c ∈ ([w "the", w " ", w "@", w "bob"].drop (i + 1)).head?.toList,
      (c.value = [0x40] → stopped sampleEnv.U [str "the"] true d = false) ∧
      (d.value = [0x40] → stopped sampleEnv.U [str "the"] true c = false) := by decide +kernel
  rintro d c ⟨a, z, he⟩
  have hl := congrArg List.length he
  simp only [List.length_append, List.length_cons, List.length_nil] at hl
  refine key a.length (by omega) d ?_ c ?_
  · rw [← he]; simp
  · rw [← he]; simp

end Jargon
