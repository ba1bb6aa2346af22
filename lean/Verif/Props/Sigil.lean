import Verif.Proofs.Filters

/-! C27–C29: sigil and twitter filters. -/

namespace Jargon

/-! ### C27 -/

theorem sigilActual_end (U : Unicode) (f : SigilFilter) (p : Option Token) (toks : List Token)
    (e : End) : (sigilActual U f p toks e).2 = e := by
  fun_induction sigilActual U f p toks e <;> simp_all

theorem sigilActual_text_eof (U : Unicode) (f : SigilFilter) (p : Option Token)
    (toks : List Token) : text (sigilActual U f p toks .eof).1 = text toks := by
  generalize he : End.eof = e
  fun_induction sigilActual U f p toks e <;> simp_all [mkToken]

theorem sigilActual_text_fail (U : Unicode) (f : SigilFilter) (p : Option Token)
    (toks : List Token) (err : Err) :
    text (sigilActual U f p toks (.fail err)).1 <+: text toks ∧
      (text (sigilActual U f p toks (.fail err)).1 = text toks ∨
        text toks = text (sigilActual U f p toks (.fail err)).1 ++ f.sigil) := by
  generalize he : End.fail err = e
  fun_induction sigilActual U f p toks e
  case case5 => simp_all [mkToken, List.append_assoc]
  all_goals simp_all

/-- **C27.** If the stream ends normally, the text of the output is the text of the input. If it
fails, the error is forwarded, and the text is that of the tokens before the failure, short of at
most one sigil at the very end. -/
theorem C27_sigil_text {ts : TokenStream} {toks : List Token} {e : End} (U : Unicode)
    (f : SigilFilter) (hf : f.sigil ≠ []) (h : ts.Yields toks e) :
    ∃ out, (sigil U f ts).Yields out e ∧
      (e = .eof → out.flatMap Token.value = toks.flatMap Token.value) ∧
      (out.flatMap Token.value = toks.flatMap Token.value ∨
        toks.flatMap Token.value = out.flatMap Token.value ++ f.sigil) := by
  have h1 := sigil_yields (U := U) hf h
  rw [sigilActual_end] at h1
  refine ⟨_, h1, ?_, ?_⟩
  · rintro rfl; exact sigilActual_text_eof U f none toks
  · cases e with
    | eof => exact .inl (sigilActual_text_eof U f none toks)
    | fail err => exact (sigilActual_text_fail U f none toks err).2

example : (sigil asciiUnicode { sigil := [0x40], legal := legalHandle }
    (listStream [⟨str "@", true, false, false⟩, ⟨str "bob", false, false, false⟩] .eof)).Yields
      [⟨str "@bob", false, false, true⟩] .eof := by
  have := sigil_yields (U := asciiUnicode) (f := { sigil := [0x40], legal := legalHandle })
    (by decide) (listStream_yields [⟨str "@", true, false, false⟩, ⟨str "bob", false, false, false⟩] .eof)
  rwa [show sigilActual asciiUnicode { sigil := [0x40], legal := legalHandle } none
    [⟨str "@", true, false, false⟩, ⟨str "bob", false, false, false⟩] .eof =
    ([⟨str "@bob", false, false, true⟩], .eof) by decide +kernel] at this

/-! ### C28 -/

/-- The full statement of C28: the filter does what `sigilIdeal` says. -/
def C28_full (U : Unicode) (f : SigilFilter) (toks : List Token) : Prop :=
  ∀ ts : TokenStream, ts.Yields toks .eof → (sigil U f ts).Yields (sigilIdeal U f none toks) .eof

/-- The tokens "@", "日本", "@", "bob". -/
def handleWitness : List Token :=
  [⟨str "@", true, false, false⟩, ⟨str "日本", false, false, false⟩, ⟨str "@", true, false, false⟩,
   ⟨str "bob", false, false, false⟩]

/-- **C28 is false for Handles.** After an illegal look-ahead word the filter still remembers the
sigil as the previous token, so "@日本@bob" merges "@bob" although a word precedes the sigil. -/
theorem C28_violated_word_before : ¬ C28_full asciiUnicode { sigil := [0x40], legal := legalHandle }
    handleWitness := by
  intro h
  have h1 := h _ (listStream_yields handleWitness .eof)
  have h2 := sigil_yields (U := asciiUnicode) (f := { sigil := [0x40], legal := legalHandle })
    (by decide) (listStream_yields handleWitness .eof)
  have := (h1.unique h2).1
  revert this
  decide +kernel

/-- **C28 is false for Handles, second way.** A look-ahead token that is itself a sigil is never
tried: "@@bob" is not merged although the second "@" is preceded by punctuation. -/
theorem C28_violated_double_sigil :
    ¬ C28_full asciiUnicode { sigil := [0x40], legal := legalHandle }
      [⟨str "@", true, false, false⟩, ⟨str "@", true, false, false⟩,
       ⟨str "bob", false, false, false⟩] := by
  intro h
  have h1 := h _ (listStream_yields _ .eof)
  have h2 := sigil_yields (U := asciiUnicode) (f := { sigil := [0x40], legal := legalHandle })
    (by decide) (listStream_yields [⟨str "@", true, false, false⟩, ⟨str "@", true, false, false⟩,
       ⟨str "bob", false, false, false⟩] .eof)
  have := (h1.unique h2).1
  revert this
  decide +kernel

theorem sigilIdeal_congr (U : Unicode) (f : SigilFilter) {p q : Option Token} {toks : List Token}
    (h : boundary p = boundary q ∨ ∀ t, toks.head? = some t → t.value ≠ f.sigil) :
    sigilIdeal U f p toks = sigilIdeal U f q toks := by
  match toks with
  | [] => simp [sigilIdeal]
  | [c] => simp [sigilIdeal]
  | c :: l :: rest =>
    rcases h with h | h
    · simp [sigilIdeal, h]
    · simp [sigilIdeal, h c rfl]

/-- Where the filter is right: an illegal token right after a sigil is not itself a sigil with a legal
token after it, and if a sigil follows then it is a word only if the first sigil is. -/
def Calm (f : SigilFilter) (toks : List Token) : Prop :=
  ∀ a c l n b, toks = a ++ c :: l :: n :: b → c.value = f.sigil → f.legal l.value = false →
    (l.value = f.sigil → f.legal n.value = false) ∧ (n.value = f.sigil → (l.IsWord ↔ c.IsWord))

theorem Calm.tail {f : SigilFilter} {t : Token} {ts : List Token} (h : Calm f (t :: ts)) : Calm f ts :=
  fun a c l n b hab => h (t :: a) c l n b (by simp [hab])

theorem sigilActual_eq_ideal {U : Unicode} {f : SigilFilter} (p : Option Token) (toks : List Token)
    (e : End) (hc : Calm f toks) (he : e = .eof ∨ ∀ t, toks.getLast? = some t → t.value ≠ f.sigil) :
    sigilActual U f p toks e = (sigilIdeal U f p toks, e) := by
  fun_induction sigilActual U f p toks e with
  | case1 p e => simp [sigilIdeal]
  | case2 p c h => simp [sigilIdeal]
  | case3 p c h err => simp_all
  | case4 p c e h => simp [sigilIdeal]
  | case5 p c l rest e h hl ih =>
    have he' : e = .eof ∨ ∀ t, rest.getLast? = some t → t.value ≠ f.sigil := by
      refine he.imp_right fun hx t ht => hx t ?_
      cases rest with
      | nil => simp at ht
      | cons a as => simpa using ht
    have := ih hc.tail.tail he'
    simp only [emit, this, sigilIdeal, h, hl, Bool.and_self, ↓reduceIte]
  | case6 p c l rest e h hl ih =>
    have he' : e = .eof ∨ ∀ t, rest.getLast? = some t → t.value ≠ f.sigil := by
      refine he.imp_right fun hx t ht => hx t ?_
      cases rest with
      | nil => simp at ht
      | cons a as => simpa using ht
    have hl' : f.legal l.value = false := by simpa using hl
    simp only [Bool.and_eq_true, decide_eq_true_eq] at h
    have := ih hc.tail.tail he'
    simp only [emit, this, sigilIdeal, hl', Bool.and_false, Bool.false_eq_true, ↓reduceIte]
    cases rest with
    | nil => simp [sigilIdeal]
    | cons x xs =>
      obtain ⟨h1, h2⟩ := hc [] c l x xs rfl h.2 hl'
      have : sigilIdeal U f (some c) (l :: x :: xs) = l :: sigilIdeal U f (some l) (x :: xs) := by
        by_cases hs : l.value = f.sigil
        · simp [sigilIdeal, h1 hs]
        · simp [sigilIdeal, hs]
      rw [this, sigilIdeal_congr U f (p := some l) (q := some c)]
      by_cases hx : x.value = f.sigil
      · left
        simp only [boundary]; congr 1; exact decide_eq_decide.2 (h2 hx)
      · right
        simpa using hx
  | case7 p c l rest e h ih =>
    have he' : e = .eof ∨ ∀ t, (l :: rest).getLast? = some t → t.value ≠ f.sigil := by
      refine he.imp_right fun hx t ht => hx t ?_
      simpa using ht
    have := ih hc.tail he'
    have h' : (boundary p && decide (c.value = f.sigil)) = false := by simpa using h
    simp only [emit, this, sigilIdeal, h', Bool.false_and, Bool.false_eq_true, ↓reduceIte]

/-- **C28 (what happens in every case).** Whatever the tokens, and however the stream ends: the token
remembered as the previous one is the last that was not a look-ahead, and a sigil directly before an error
is lost. -/
theorem C28_exact {ts : TokenStream} {toks : List Token} {e : End} (U : Unicode) (f : SigilFilter)
    (hf : f.sigil ≠ []) (h : ts.Yields toks e) : (sigil U f ts).Yields (sigilActual U f none toks e).1 e := by
  have h1 := sigil_yields (U := U) hf h
  rwa [sigilActual_end] at h1

example : (sigilActual asciiUnicode { sigil := [0x40], legal := legalHandle } none handleWitness .eof).1 =
    [⟨str "@", true, false, false⟩, ⟨str "日本", false, false, false⟩, ⟨str "@bob", false, false, true⟩] := by
  decide +kernel

/-- **C28 (partial).** On `Calm` input — neither two sigils and a legal token follow each other, nor a
sigil, an illegal word and another sigil — the filter merges exactly as documented. Missing: the other
inputs, where it does not (`C28_violated_*`). -/
theorem C28_sigil_merges_partial {ts : TokenStream} {toks : List Token} {e : End} (U : Unicode)
    (f : SigilFilter) (hf : f.sigil ≠ []) (hc : Calm f toks)
    (he : e = .eof ∨ ∀ t, toks.getLast? = some t → t.value ≠ f.sigil) (h : ts.Yields toks e) :
    (sigil U f ts).Yields (sigilIdeal U f none toks) e := by
  have := sigil_yields (U := U) hf h
  rwa [sigilActual_eq_ideal none toks e hc he] at this

example :
    let toks : List Token := [⟨str "x", false, false, false⟩, ⟨str "@", true, false, false⟩,
      ⟨str "y", false, false, false⟩, ⟨str " ", false, true, false⟩, ⟨str "@", true, false, false⟩,
      ⟨str "bob", false, false, false⟩, ⟨str "@", true, false, false⟩, ⟨str " ", false, true, false⟩]
    sigilIdeal asciiUnicode { sigil := [0x40], legal := legalHandle } none toks =
      [⟨str "x", false, false, false⟩, ⟨str "@", true, false, false⟩,
       ⟨str "y", false, false, false⟩, ⟨str " ", false, true, false⟩,
       ⟨str "@bob", false, false, true⟩, ⟨str "@", true, false, false⟩,
       ⟨str " ", false, true, false⟩] := by
  decide +kernel

/-! ### C29 -/

/-- The characters of a handle: ASCII letters, digits and underscore. -/
def handleChars : List Nat :=
  "ABCDEFGHIJKLMNOPQRSTUVWXYZabcdefghijklmnopqrstuvwxyz0123456789_".toList.map Char.toNat

theorem handleRune_iff (r : Nat) : handleRune r = true ↔ r ∈ handleChars := by
  by_cases h : r < 128
  · have : ∀ r < 128, handleRune r = true ↔ r ∈ handleChars := by decide +kernel
    exact this r h
  · have h2 : ∀ r ∈ handleChars, r < 128 := by decide +kernel
    constructor
    · intro h'
      simp only [handleRune, Bool.or_eq_true, Bool.and_eq_true, decide_eq_true_eq, beq_iff_eq] at h'
      omega
    · exact fun h' => absurd (h2 r h') h

theorem legalHandleLoop_iff (n : Nat) (rs : List Nat) :
    legalHandleLoop n rs = true ↔ (rs ≠ [] → n + rs.length ≤ 15) ∧ ∀ r ∈ rs, handleRune r = true := by
  induction rs generalizing n with
  | nil => simp [legalHandleLoop]
  | cons r rs ih =>
    simp only [legalHandleLoop, List.length_cons, List.mem_cons, forall_eq_or_imp, ne_eq,
      reduceCtorEq, not_false_eq_true, forall_const]
    split
    · simp; omega
    · split
      · rename_i h1 h2
        rw [ih]
        constructor
        · rintro ⟨h3, h4⟩
          refine ⟨?_, h2, h4⟩
          cases rs with
          | nil => simp; omega
          | cons x xs => have := h3 (by simp); simp at *; omega
        · rintro ⟨h3, h4, h5⟩
          exact ⟨fun _ => by omega, h5⟩
      · simp_all

/-- **C29 (handles).** -/
theorem C29_legalHandle (s : Bytes) :
    legalHandle s = true ↔ (runes s).length ≤ 15 ∧ ∀ r ∈ runes s, r ∈ handleChars := by
  unfold legalHandle
  rw [legalHandleLoop_iff]
  simp only [handleRune_iff]
  constructor
  · rintro ⟨h1, h2⟩
    refine ⟨?_, h2⟩
    by_cases h : runes s = []
    · simp [h]
    · have := h1 h; omega
  · rintro ⟨h1, h2⟩
    exact ⟨fun _ => by omega, h2⟩

theorem legalHashtagLoop_iff (U : Unicode) (rs : List Nat) :
    legalHashtagLoop U rs = true ↔
      ∀ r ∈ rs, U.isLetter r = true ∨ U.isNumber r = true ∨ r = 0x5F := by
  induction rs with
  | nil => simp [legalHashtagLoop]
  | cons r rs ih =>
    simp only [legalHashtagLoop, List.mem_cons, forall_eq_or_imp]
    split
    · rename_i h
      simp only [Bool.or_eq_true, beq_iff_eq] at h
      rw [ih]; simp [← or_assoc, h]
    · rename_i h
      simp only [Bool.or_eq_true, beq_iff_eq] at h
      simp [← or_assoc, h]

theorem decodeRune_of_runes {s : Bytes} {r : Nat} (h : runes s = [r]) : (decodeRune s).1 = r := by
  cases s with
  | nil => simp at h
  | cons b t => rw [runes_cons] at h; simp at h; exact h.1

/-- **C29 (hashtags).** -/
theorem C29_legalHashtag (U : Unicode) (s : Bytes) :
    legalHashtag U s = true ↔
      (∀ r ∈ runes s, U.isLetter r = true ∨ U.isNumber r = true ∨ r = '_'.toNat) ∧
      ∀ r, runes s = [r] → U.isLetter r = true := by
  unfold legalHashtag
  split
  · rename_i h
    obtain ⟨r, hr⟩ := List.length_eq_one_iff.1 h
    rw [decodeRune_of_runes hr, hr]
    simp
    exact fun h => .inl h
  · rename_i h
    rw [legalHashtagLoop_iff]
    constructor
    · intro h1
      exact ⟨h1, fun r hr => absurd (by rw [hr]; rfl) h⟩
    · exact fun h1 => h1.1

example : legalHandle (str "jack_99") = true ∧ legalHandle (str "a-b") = false ∧
    legalHandle (str "abcdefghijklmnop") = false ∧
    legalHashtag asciiUnicode (str "1") = false ∧ legalHashtag asciiUnicode (str "12") = true := by
  decide +kernel

/-! ### The two filters -/

/-- The name of a handle: at most 15 of the characters. -/
def IsHandle (s : Bytes) : Prop := (runes s).length ≤ 15 ∧ ∀ r ∈ runes s, r ∈ handleChars

/-- A tag: letters, numbers and underscores; not just one of them that is not a letter. -/
def IsTag (U : Unicode) (s : Bytes) : Prop :=
  (∀ r ∈ runes s, U.isLetter r = true ∨ U.isNumber r = true ∨ r = '_'.toNat) ∧
    ∀ r, runes s = [r] → U.isLetter r = true

/-- `out` has tokens of `toks`, and tokens made of a `mark` and what follows it, if it is `good`. A mark is
merged at any rate if it is the first one in `toks`, and there is no word just before it. -/
structure Merges (U : Unicode) (mark : Bytes) (good : Bytes → Prop) (toks out : List Token) : Prop where
  made : ∀ t ∈ out, t ∈ toks ∨
    ∃ a l, [a, l] <:+: toks ∧ a.value = mark ∧ good l.value ∧ t = mkToken U (mark ++ l.value) true
  first : ∀ pre a l post, toks = pre ++ a :: l :: post → (∀ t ∈ pre, t.value ≠ mark) →
    (∀ t, pre.getLast? = some t → ¬ t.IsWord) → a.value = mark → good l.value →
    ∃ more, out = pre ++ mkToken U (mark ++ l.value) true :: more

theorem sigilActual_made (U : Unicode) (f : SigilFilter) (p : Option Token) (toks : List Token) (e : End) :
    ∀ t ∈ (sigilActual U f p toks e).1, t ∈ toks ∨
      ∃ a l, [a, l] <:+: toks ∧ a.value = f.sigil ∧ f.legal l.value = true ∧
        t = mkToken U (f.sigil ++ l.value) true := by
  have more : ∀ {x : Token} {l : List Token} {t : Token}, (t ∈ l ∨
      ∃ a b, [a, b] <:+: l ∧ a.value = f.sigil ∧ f.legal b.value = true ∧ t = mkToken U (f.sigil ++ b.value) true) →
      (t ∈ x :: l ∨
      ∃ a b, [a, b] <:+: x :: l ∧ a.value = f.sigil ∧ f.legal b.value = true ∧
        t = mkToken U (f.sigil ++ b.value) true) := by
    rintro x l t (h | ⟨a, b, h, h'⟩)
    · exact .inl (List.mem_cons_of_mem _ h)
    · exact .inr ⟨a, b, List.infix_cons h, h'⟩
  fun_induction sigilActual U f p toks e with
  | case1 => simp
  | case2 => simp
  | case3 => simp
  | case4 => simp
  | case5 p c l rest e h1 h2 ih =>
    intro t ht
    simp only [Bool.and_eq_true, decide_eq_true_eq] at h1
    rcases List.mem_cons.mp ht with rfl | ht
    · exact .inr ⟨c, l, ⟨[], rest, rfl⟩, h1.2, h2, rfl⟩
    · exact more (more (ih t ht))
  | case6 p c l rest e h1 h2 ih =>
    intro t ht
    rcases List.mem_cons.mp ht with rfl | ht
    · exact .inl List.mem_cons_self
    · rcases List.mem_cons.mp ht with rfl | ht
      · exact .inl (by simp)
      · exact more (more (ih t ht))
  | case7 p c l rest e h1 ih =>
    intro t ht
    rcases List.mem_cons.mp ht with rfl | ht
    · exact .inl List.mem_cons_self
    · exact more (ih t ht)

theorem sigilActual_first (U : Unicode) (f : SigilFilter) (e : End) {a l : Token} {post : List Token}
    (ha : a.value = f.sigil) (hl : f.legal l.value = true) (p : Option Token) (pre : List Token)
    (hp : ∀ t ∈ pre, t.value ≠ f.sigil) (hb : boundary (pre.getLast?.or p) = true) :
    ∃ more, (sigilActual U f p (pre ++ a :: l :: post) e).1 =
      pre ++ mkToken U (f.sigil ++ l.value) true :: more := by
  induction pre generalizing p with
  | nil =>
    have hb' : boundary p = true := by simpa using hb
    refine ⟨(sigilActual U f (some (mkToken U (f.sigil ++ l.value) true)) post e).1, ?_⟩
    simp [sigilActual, hb', ha, hl]
  | cons c pre ih =>
    have hc : c.value ≠ f.sigil := hp c List.mem_cons_self
    have hb' : boundary (pre.getLast?.or (some c)) = true := by
      cases hg : pre.getLast? with
      | none =>
        have : pre = [] := List.getLast?_eq_none_iff.mp hg
        subst this
        simpa using hb
      | some x => simpa [List.getLast?_cons, hg] using hb
    obtain ⟨more, hm⟩ := ih (some c) (fun t ht => hp t (List.mem_cons_of_mem _ ht)) hb'
    refine ⟨more, ?_⟩
    cases pre with
    | nil =>
      simp only [List.cons_append, List.nil_append, sigilActual, hc, decide_false, Bool.and_false] at hm ⊢
      simpa using hm
    | cons d pre =>
      simp only [List.cons_append, sigilActual, hc, decide_false, Bool.and_false] at hm ⊢
      simpa using hm

theorem sigil_merges {ts : TokenStream} {toks : List Token} {e : End} (U : Unicode) (f : SigilFilter)
    (hf : f.sigil ≠ []) (h : ts.Yields toks e) {good : Bytes → Prop}
    (hg : ∀ s, f.legal s = true ↔ good s) :
    ∃ out, (sigil U f ts).Yields out e ∧ Merges U f.sigil good toks out := by
  have h1 := sigil_yields (U := U) hf h
  rw [sigilActual_end] at h1
  refine ⟨_, h1, ⟨?_, ?_⟩⟩
  · intro t ht
    rcases sigilActual_made U f none toks e t ht with h | ⟨a, l, h1, h2, h3, h4⟩
    · exact .inl h
    · exact .inr ⟨a, l, h1, h2, (hg _).mp h3, h4⟩
  · rintro pre a l post rfl hp hw ha hl
    refine sigilActual_first U f e ha ((hg _).mpr hl) none pre hp ?_
    cases hx : pre.getLast? with
    | none => rfl
    | some x => simp [boundary, hw x hx]

/-- **C29 (filters).** `Handles` makes tokens of an "@" and a handle, and `Hashtags` of a "#" and a tag; and
of nothing else. -/
theorem C29_filters {ts : TokenStream} {toks : List Token} {e : End} (U : Unicode) (h : ts.Yields toks e) :
    (∃ out, (handles U ts).Yields out e ∧ Merges U (str "@") IsHandle toks out) ∧
    (∃ out, (hashtags U ts).Yields out e ∧ Merges U (str "#") (IsTag U) toks out) := by
  have h1 : str "@" = [0x40] := by decide +kernel
  have h2 : str "#" = [0x23] := by decide +kernel
  rw [h1, h2]
  exact ⟨sigil_merges U { sigil := [0x40], legal := legalHandle } (by simp) h C29_legalHandle,
    sigil_merges U { sigil := [0x23], legal := legalHashtag U } (by simp) h (C29_legalHashtag U)⟩

example : ∃ out, (handles asciiUnicode (listStream [⟨str "@", true, false, false⟩, ⟨str "bob", false, false, false⟩]
    .eof)).Yields (mkToken asciiUnicode (str "@bob") true :: out) .eof := by
  obtain ⟨⟨out, h1, h2⟩, -⟩ := C29_filters asciiUnicode
    (listStream_yields [⟨str "@", true, false, false⟩, ⟨str "bob", false, false, false⟩] .eof)
  obtain ⟨more, rfl⟩ := h2.first [] _ _ [] rfl (by simp) (by simp) rfl (by unfold IsHandle; decide +kernel)
  have e : str "@" ++ str "bob" = str "@bob" := by decide +kernel
  simp only [List.nil_append, e] at h1
  exact ⟨more, h1⟩

end Jargon
