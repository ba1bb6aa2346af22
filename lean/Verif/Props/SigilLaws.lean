import Verif.Props.Sigil
import Verif.Proofs.Text

/-! C74 and C75: applying sigil filters twice, and in either order. -/

namespace Jargon

/-! ### C74 -/

theorem sigilActual_idem (U : Unicode) (f : SigilFilter) (p : Option Token) (toks : List Token) (e : End)
    (ht : ∀ t ∈ toks, t.value ≠ []) :
    sigilActual U f p (sigilActual U f p toks e).1 e = sigilActual U f p toks e := by
  have pass : ∀ (p : Option Token) (c : Token) (r : List Token × End), r.2 = e →
      (boundary p && decide (c.value = f.sigil)) = false →
      sigilActual U f (some c) r.1 e = r →
      sigilActual U f p (emit c r).1 e = emit c r := by
    rintro p c ⟨out, e'⟩ rfl hc h
    cases out with
    | nil => simp [sigilActual, hc]
    | cons a as =>
      simp only [emit] at h ⊢
      rw [sigilActual, hc]
      simp [h]
  fun_induction sigilActual U f p toks e with
  | case1 p e => simp [sigilActual]
  | case2 p c h => simp [sigilActual, h]
  | case3 p c h err => simp [sigilActual]
  | case4 p c e h =>
    have h' : (boundary p && decide (c.value = f.sigil)) = false := by simpa using h
    simp [sigilActual, h']
  | case5 p c l rest e h hl ih =>
    refine pass _ _ _ (sigilActual_end ..) ?_ (ih ?_ pass)
    · have : l.value ≠ [] := ht l (by simp)
      simp [mkToken, this]
    · exact fun t h => ht t (by simp [h])
  | case6 p c l rest e h hl ih =>
    have hl' : f.legal l.value = false := by simpa using hl
    have := ih (fun t h => ht t (by simp [h])) pass
    simp only [emit]
    rw [sigilActual, h, hl']
    simp [this]
  | case7 p c l rest e h ih =>
    have h' : (boundary p && decide (c.value = f.sigil)) = false := by simpa using h
    exact pass _ _ _ (sigilActual_end ..) h' (ih (fun t h => ht t (by simp_all)) pass)

/-- **C74.** Applying a sigil filter a second time changes nothing: what was not merged the first time is
not merged the second time either. Tokens are never empty (C52). -/
theorem C74_sigil_idempotent {ts : TokenStream} {toks : List Token} {e : End} (U : Unicode)
    (f : SigilFilter) (hf : f.sigil ≠ []) (ht : ∀ t ∈ toks, t.value ≠ []) (h : ts.Yields toks e) :
    ∃ out, (sigil U f ts).Yields out e ∧ (sigil U f (sigil U f ts)).Yields out e := by
  have h1 := sigil_yields (U := U) hf h
  rw [sigilActual_end] at h1
  have h2 := sigil_yields (U := U) hf h1
  rw [sigilActual_idem U f none toks e ht, sigilActual_end] at h2
  exact ⟨_, h1, h2⟩

/-- **C74 (twitter).** -/
theorem C74_twitter_idempotent {ts : TokenStream} {toks : List Token} {e : End} (U : Unicode)
    (ht : ∀ t ∈ toks, t.value ≠ []) (h : ts.Yields toks e) :
    (∃ out, (handles U ts).Yields out e ∧ (handles U (handles U ts)).Yields out e) ∧
      ∃ out, (hashtags U ts).Yields out e ∧ (hashtags U (hashtags U ts)).Yields out e :=
  ⟨C74_sigil_idempotent U _ (by simp) ht h, C74_sigil_idempotent U _ (by simp) ht h⟩

/-- Without the condition on empty tokens it fails: "@" and an empty token are merged to "@", which is then
merged with what follows. -/
example : sigilActual asciiUnicode { sigil := [0x40], legal := legalHandle } none
    (sigilActual asciiUnicode { sigil := [0x40], legal := legalHandle } none
      [⟨str "@", true, false, false⟩, ⟨[], true, true, false⟩, ⟨str "bob", false, false, false⟩] .eof).1 .eof
    ≠ sigilActual asciiUnicode { sigil := [0x40], legal := legalHandle } none
      [⟨str "@", true, false, false⟩, ⟨[], true, true, false⟩, ⟨str "bob", false, false, false⟩] .eof := by
  decide +kernel

/-! ### C75 -/

/-- The full statement of C75: the order of two filters does not matter for these tokens. -/
def Commute (F G : Filter) (toks : List Token) : Prop :=
  ∀ ts : TokenStream, ts.Yields toks .eof → ∀ out, (F (G ts)).Yields out .eof ↔ (G (F ts)).Yields out .eof

/-- The tokens of "#@x#y". -/
def mixedWitness : List Token :=
  [⟨str "#", true, false, false⟩, ⟨str "@", true, false, false⟩, ⟨str "x", false, false, false⟩,
   ⟨str "#", true, false, false⟩, ⟨str "y", false, false, false⟩]

theorem mixed_twice :
    (sigilActual asciiUnicode { sigil := [0x23], legal := legalHashtag asciiUnicode } none
      (sigilActual asciiUnicode { sigil := [0x40], legal := legalHandle } none mixedWitness .eof).1 .eof).1 ≠
    (sigilActual asciiUnicode { sigil := [0x40], legal := legalHandle } none
      (sigilActual asciiUnicode { sigil := [0x23], legal := legalHashtag asciiUnicode } none
        mixedWitness .eof).1 .eof).1 := by
  decide +kernel

/-- **C75 (full).** The order of `Handles` and `Hashtags` does not matter. -/
def C75_full (U : Unicode) : Prop := ∀ toks : List Token, Commute (handles U) (hashtags U) toks

/-- **C75 is false.** In "#@x#y", Handles and then Hashtags make a hashtag of "#y"; Hashtags and then
Handles do not, as it follows a word. -/
theorem C75_violated : ¬ C75_full asciiUnicode := by
  intro hf
  have h := hf mixedWitness
  have h0 := listStream_yields mixedWitness .eof
  have a1 := sigil_yields (U := asciiUnicode) (f := { sigil := [0x23], legal := legalHashtag asciiUnicode })
    (by decide) h0
  rw [sigilActual_end] at a1
  have a2 := sigil_yields (U := asciiUnicode) (f := { sigil := [0x40], legal := legalHandle })
    (by decide) a1
  rw [sigilActual_end] at a2
  have b1 := sigil_yields (U := asciiUnicode) (f := { sigil := [0x40], legal := legalHandle })
    (by decide) h0
  rw [sigilActual_end] at b1
  have b2 := sigil_yields (U := asciiUnicode) (f := { sigil := [0x23], legal := legalHashtag asciiUnicode })
    (by decide) b1
  rw [sigilActual_end] at b2
  exact mixed_twice ((b2.unique ((h _ h0 _).mp a2)).1)

/-- Two sigil filters that keep out of each other's way. -/
structure Apart (U : Unicode) (f g : SigilFilter) (toks : List Token) : Prop where
  ne : f.sigil ≠ g.sigil
  /-- neither the other's sigil nor anything it merges is legal -/
  legal_left : ∀ s, f.legal (g.sigil ++ s) = false
  legal_right : ∀ s, g.legal (f.sigil ++ s) = false
  /-- the sigils are not parts of each other -/
  start_left : ∀ s, f.sigil ++ s ≠ g.sigil
  start_right : ∀ s, g.sigil ++ s ≠ f.sigil
  /-- merging does not change what is a word -/
  word_left : ∀ t ∈ toks, f.legal t.value = true → ((mkToken U (f.sigil ++ t.value) true).IsWord ↔ t.IsWord)
  word_right : ∀ t ∈ toks, g.legal t.value = true → ((mkToken U (g.sigil ++ t.value) true).IsWord ↔ t.IsWord)

theorem Apart.symm {U : Unicode} {f g : SigilFilter} {toks : List Token} (h : Apart U f g toks) :
    Apart U g f toks :=
  ⟨h.ne.symm, h.legal_right, h.legal_left, h.start_right, h.start_left, h.word_right, h.word_left⟩

theorem Apart.sub {U : Unicode} {f g : SigilFilter} {toks toks' : List Token} (h : Apart U f g toks)
    (hs : ∀ t ∈ toks', t ∈ toks) : Apart U f g toks' :=
  ⟨h.ne, h.legal_left, h.legal_right, h.start_left, h.start_right, fun t ht => h.word_left t (hs t ht),
    fun t ht => h.word_right t (hs t ht)⟩

/-- Both filters at once, as documented. -/
def bothIdeal (U : Unicode) (f g : SigilFilter) : Option Token → List Token → List Token
  | _, [] => []
  | _, [c] => [c]
  | previous, c :: l :: rest =>
    if boundary previous && c.value = f.sigil && f.legal l.value then
      mkToken U (f.sigil ++ l.value) true ::
        bothIdeal U f g (some (mkToken U (f.sigil ++ l.value) true)) rest
    else if boundary previous && c.value = g.sigil && g.legal l.value then
      mkToken U (g.sigil ++ l.value) true ::
        bothIdeal U f g (some (mkToken U (g.sigil ++ l.value) true)) rest
    else c :: bothIdeal U f g (some c) (l :: rest)

theorem bothIdeal_comm {U : Unicode} {f g : SigilFilter} (h : f.sigil ≠ g.sigil) (p : Option Token)
    (toks : List Token) : bothIdeal U f g p toks = bothIdeal U g f p toks := by
  fun_induction bothIdeal U f g p toks with
  | case1 p => simp [bothIdeal]
  | case2 p c => simp [bothIdeal]
  | case3 p c l rest hc ih =>
    simp only [Bool.and_eq_true, decide_eq_true_eq] at hc
    simp [bothIdeal, hc, h, ih]
  | case4 p c l rest hc hd ih =>
    simp only [Bool.and_eq_true, decide_eq_true_eq] at hd
    simp [bothIdeal, hd, ih]
  | case5 p c l rest hc hd ih =>
    rw [bothIdeal, if_neg hd, if_neg hc, ih]

/-- A token that is not a sigil is passed on. -/
theorem sigilIdeal_pass {U : Unicode} {f : SigilFilter} {p : Option Token} {c : Token}
    (h : (boundary p && decide (c.value = f.sigil)) = false) (X : List Token) :
    sigilIdeal U f p (c :: X) = c :: sigilIdeal U f (some c) X := by
  cases X with
  | nil => simp [sigilIdeal]
  | cons a as => rw [sigilIdeal, h]; simp

/-- What the first token becomes. -/
theorem sigilIdeal_head (U : Unicode) (f : SigilFilter) (p : Option Token) (l : Token) (rest : List Token) :
    sigilIdeal U f p (l :: rest) = l :: sigilIdeal U f (some l) rest ∨
    l.value = f.sigil ∧ ∃ x rest', rest = x :: rest' ∧ sigilIdeal U f p (l :: rest) =
      mkToken U (f.sigil ++ x.value) true ::
        sigilIdeal U f (some (mkToken U (f.sigil ++ x.value) true)) rest' := by
  cases rest with
  | nil => simp [sigilIdeal]
  | cons a as =>
    rw [sigilIdeal]
    split
    · rename_i h
      simp only [Bool.and_eq_true, decide_eq_true_eq] at h
      exact .inr ⟨h.1.2, _, _, rfl, rfl⟩
    · exact .inl rfl

theorem ideal_twice {U : Unicode} {f g : SigilFilter} {p q r : Option Token} {toks : List Token}
    (h : Apart U f g toks) (hpq : boundary p = boundary r) (hqr : boundary q = boundary r) :
    sigilIdeal U g q (sigilIdeal U f p toks) = bothIdeal U f g r toks := by
  fun_induction bothIdeal U f g r toks generalizing p q with
  | case1 r => simp [sigilIdeal]
  | case2 r c => simp [sigilIdeal]
  | case3 r c l rest hc ih =>
    rw [sigilIdeal, hpq, if_pos hc, sigilIdeal_pass (by simp [mkToken, h.start_left]), ih (h.sub (by simp_all))
      rfl rfl]
  | case4 r c l rest hc hd ih =>
    simp only [Bool.and_eq_true, decide_eq_true_eq] at hd
    have hl : l.value ≠ f.sigil := by
      intro hl
      have := h.legal_right []
      rw [List.append_nil, ← hl, hd.2] at this
      cases this
    rw [sigilIdeal, hpq, if_neg hc]
    have hpass : sigilIdeal U f (some c) (l :: rest) = l :: sigilIdeal U f (some l) rest :=
      sigilIdeal_pass (by simp [hl]) rest
    rw [hpass, sigilIdeal, hqr, if_pos (by simp [hd])]
    rw [ih (h.sub (by simp_all)) ?_ rfl]
    have := h.word_right l (by simp) hd.2
    simp only [boundary]
    congr 1
    exact decide_eq_decide.2 this.symm
  | case5 r c l rest hc hd ih =>
    have := ih (h.sub (fun t ht => by simp_all)) (p := some c) (q := some c) rfl rfl
    rw [sigilIdeal, hpq, if_neg hc]
    by_cases hb : (boundary r && decide (c.value = g.sigil)) = true
    · have hl : g.legal l.value = false := by
        simp only [Bool.and_eq_true, decide_eq_true_eq] at hb hd
        simpa [hb] using hd
      have hX : ∃ a X, sigilIdeal U f (some c) (l :: rest) = a :: X ∧ g.legal a.value = false := by
        rcases sigilIdeal_head U f (some c) l rest with h1 | ⟨_, x, X, _, h1⟩
        · exact ⟨_, _, h1, hl⟩
        · exact ⟨_, _, h1, by simp [mkToken, h.legal_right]⟩
      obtain ⟨a, X, h1, h2⟩ := hX
      rw [h1] at this ⊢
      rw [sigilIdeal]
      simp [h2, this]
    · rw [sigilIdeal_pass (by rw [hqr]; simpa using hb), this]

/-- Nowhere a sigil of `g`, one of `f`, a token and again a sigil of `g`. -/
def Unmixed (f g : SigilFilter) (toks : List Token) : Prop :=
  ∀ a c l x n b, toks = a ++ c :: l :: x :: n :: b → c.value = g.sigil → l.value = f.sigil →
    n.value ≠ g.sigil

theorem Unmixed.tail {f g : SigilFilter} {t : Token} {ts : List Token} (h : Unmixed f g (t :: ts)) :
    Unmixed f g ts :=
  fun a c l x n b hab => h (t :: a) c l x n b (by simp [hab])

theorem Calm.cons {g : SigilFilter} {c : Token} {X : List Token} (h : Calm g X)
    (hc : ∀ l n b, X = l :: n :: b → c.value = g.sigil → g.legal l.value = false →
      (l.value = g.sigil → g.legal n.value = false) ∧ (n.value = g.sigil → (l.IsWord ↔ c.IsWord))) :
    Calm g (c :: X) := by
  intro a c' l n b hab
  cases a with
  | nil =>
    simp only [List.nil_append, List.cons.injEq] at hab
    obtain ⟨rfl, hX⟩ := hab
    exact hc l n b hX
  | cons a as =>
    simp only [List.cons_append, List.cons.injEq] at hab
    exact h as c' l n b hab.2

/-- The first filter leaves it calm for the second. -/
theorem Calm.ideal {U : Unicode} {f g : SigilFilter} {p : Option Token} {toks : List Token}
    (h : Apart U f g toks) (hc : Calm g toks) (hm : Unmixed f g toks) :
    Calm g (sigilIdeal U f p toks) := by
  fun_induction sigilIdeal U f p toks with
  | case1 p => exact hc
  | case2 p c => exact hc
  | case3 p c l rest hd ih =>
    refine (ih (h.sub (by simp_all)) hc.tail.tail hm.tail.tail).cons ?_
    intro l' n b _ hv
    exact absurd hv (by simp [mkToken, h.start_left])
  | case4 p c l rest hd ih =>
    refine (ih (h.sub (fun t ht => by simp_all)) hc.tail hm.tail).cons ?_
    intro x1 x2 b hX hcv hx1
    rcases sigilIdeal_head U f (some c) l rest with h1 | ⟨hl, x, rest', rfl, h1⟩
    · rw [hX] at h1
      simp only [List.cons.injEq] at h1
      obtain ⟨rfl, h2⟩ := h1
      cases rest with
      | nil => simp [sigilIdeal] at h2
      | cons n rest' =>
        rcases sigilIdeal_head U f (some x1) n rest' with h3 | ⟨_, x, _, _, h3⟩
        · rw [← h2] at h3
          simp only [List.cons.injEq] at h3
          obtain ⟨rfl, _⟩ := h3
          exact hc [] c x1 x2 rest' rfl hcv hx1
        · rw [← h2] at h3
          simp only [List.cons.injEq] at h3
          obtain ⟨rfl, _⟩ := h3
          exact ⟨fun _ => h.legal_right _, fun hv => absurd hv (h.start_left _)⟩
    · rw [hX] at h1
      simp only [List.cons.injEq] at h1
      obtain ⟨rfl, h2⟩ := h1
      refine ⟨fun hv => absurd hv (h.start_left _), fun hv => absurd hv ?_⟩
      cases rest' with
      | nil => simp [sigilIdeal] at h2
      | cons n rest' =>
        rcases sigilIdeal_head U f (some (mkToken U (f.sigil ++ x.value) true)) n rest' with
          h3 | ⟨_, y, _, _, h3⟩
        · rw [← h2] at h3
          simp only [List.cons.injEq] at h3
          obtain ⟨rfl, _⟩ := h3
          exact hm [] c l x x2 rest' rfl hcv hl
        · rw [← h2] at h3
          simp only [List.cons.injEq] at h3
          obtain ⟨rfl, _⟩ := h3
          exact h.start_left _

/-- **C75 for two sigil filters (partial).** -/
theorem sigil_both {U : Unicode} {f g : SigilFilter} {ts : TokenStream} {toks : List Token}
    (hf : f.sigil ≠ []) (hg : g.sigil ≠ []) (h : Apart U f g toks) (hcf : Calm f toks) (hcg : Calm g toks)
    (hm : Unmixed f g toks) (hy : ts.Yields toks .eof) :
    (sigil U g (sigil U f ts)).Yields (bothIdeal U f g none toks) .eof := by
  have h1 := C28_sigil_merges_partial U f hf hcf (.inl rfl) hy
  have h2 := C28_sigil_merges_partial U g hg (hcg.ideal (p := none) h hm) (.inl rfl) h1
  rwa [ideal_twice h rfl rfl] at h2

/-- What the theorem needs of Go's tables: "@" and "#" are punctuation, and "@" and white space are neither
letters nor numbers. -/
structure TwitterLaws (U : Unicode) : Prop where
  at_ : U.isPunct 0x40 = true
  hash : U.isPunct 0x23 = true
  at_letter : U.isLetter 0x40 = false
  at_number : U.isNumber 0x40 = false
  space : ∀ r ∈ whiteSpace, U.isLetter r = false ∧ U.isNumber r = false

theorem runes_mark {b : UInt8} (hb : b.toNat < 0x80) (s : Bytes) : runes ([b] ++ s) = b.toNat :: runes s :=
  runes_ascii_cons hb s

/-- Whether a word is a word does not change if a punctuation mark is put before it. -/
theorem word_mark {U : Unicode} {b : UInt8} (hb : b.toNat < 0x80) (hp : U.isPunct b.toNat = true)
    (hs : b.toNat ∉ whiteSpace) {t : Token} {lem : Bool} (ht : TokenFor U t.value lem t)
    (hne : t.value ≠ []) (hl : ∀ r ∈ runes t.value, r ∉ whiteSpace) :
    (mkToken U ([b] ++ t.value) true).IsWord ↔ t.IsWord := by
  have h1 := mkToken_for U ([b] ++ t.value) true
  have h2 := h1.space
  have h3 := h1.punct
  rw [runes_mark hb] at h2 h3
  have hsp : (mkToken U ([b] ++ t.value) true).space = false := by
    rw [Bool.eq_false_iff]
    intro h
    exact hs (h2.mp h _ (by simp))
  have hsp' : t.space = false := by
    rw [Bool.eq_false_iff]
    intro h
    obtain ⟨r, rs, hr⟩ := List.exists_cons_of_ne_nil (fun h0 => hne (runes_eq_nil.mp h0))
    have hr : r ∈ runes t.value := by rw [hr]; simp
    exact hl r hr (ht.space.mp h r hr)
  have hpu : (mkToken U ([b] ++ t.value) true).punct = true ↔ t.punct = true := by
    rw [h3, ht.punct]
    simp [hp]
  unfold Token.IsWord
  rw [hsp, hsp', Bool.eq_iff_iff.mpr hpu]

theorem twitter_apart {U : Unicode} (hU : TwitterLaws U) {toks : List Token}
    (ht : ∀ t ∈ toks, t.value ≠ [] ∧ ∃ lem, TokenFor U t.value lem t) :
    Apart U { sigil := [0x40], legal := legalHandle } { sigil := [0x23], legal := legalHashtag U } toks where
  ne := by simp
  legal_left s := by
    rw [Bool.eq_false_iff]
    intro h
    have := ((C29_legalHandle _).mp h).2 0x23 (by rw [runes_mark (by decide)]; simp)
    revert this
    decide +kernel
  legal_right s := by
    rw [Bool.eq_false_iff]
    intro h
    have := ((C29_legalHashtag U _).mp h).1 0x40 (by rw [runes_mark (by decide)]; simp)
    simp [hU.at_letter, hU.at_number] at this
  start_left s := by simp
  start_right s := by simp
  word_left t hm hl := by
    obtain ⟨hne, lem, hf⟩ := ht t hm
    refine word_mark (by decide) hU.at_ (by decide +kernel) hf hne fun r hr hw => ?_
    have := ((C29_legalHandle _).mp hl).2 r hr
    revert r
    have : ∀ r ∈ handleChars, r ∉ whiteSpace := by decide +kernel
    exact fun r _ hw h => this r h hw
  word_right t hm hl := by
    obtain ⟨hne, lem, hf⟩ := ht t hm
    refine word_mark (by decide) hU.hash (by decide +kernel) hf hne fun r hr hw => ?_
    have := ((C29_legalHashtag U _).mp hl).1 r hr
    rw [(hU.space r hw).1, (hU.space r hw).2] at this
    have h5 : '_'.toNat ∉ whiteSpace := by decide +kernel
    simp only [Bool.false_eq_true, false_or] at this
    exact h5 (this ▸ hw)

/-- **C75 (partial).** If no two "@" and a handle follow each other, nor an "@", another word and an "@"
(`Calm`), likewise for "#", and nowhere "#@x#" or "@#x@" (`Unmixed`), the order of `Handles` and `Hashtags`
does not matter. Missing: the other inputs, where it may (`C75_violated`). -/
theorem C75_order_partial {toks : List Token} {U : Unicode} (hU : TwitterLaws U)
    (ht : ∀ t ∈ toks, t.value ≠ [] ∧ ∃ lem, TokenFor U t.value lem t)
    (h1 : Calm { sigil := [0x40], legal := legalHandle } toks)
    (h2 : Calm { sigil := [0x23], legal := legalHashtag U } toks)
    (h3 : Unmixed { sigil := [0x40], legal := legalHandle } { sigil := [0x23], legal := legalHashtag U } toks)
    (h4 : Unmixed { sigil := [0x23], legal := legalHashtag U } { sigil := [0x40], legal := legalHandle } toks) :
    Commute (handles U) (hashtags U) toks := by
  intro ts hy out
  have ha := twitter_apart hU ht
  have a := sigil_both (by simp) (by simp) ha h1 h2 h3 hy
  have b := sigil_both (by simp) (by simp) ha.symm h2 h1 h4 hy
  rw [bothIdeal_comm ha.ne.symm] at b
  constructor
  · intro h
    rw [(h.unique b).1]
    exact a
  · intro h
    rw [(h.unique a).1]
    exact b

theorem asciiUnicode_twitter : TwitterLaws asciiUnicode where
  at_ := by decide +kernel
  hash := by decide +kernel
  at_letter := by decide +kernel
  at_number := by decide +kernel
  space := by decide +kernel

/-- "@a #b @日 #c": the conditions hold, and three of them are merged. -/
example :
    let toks := ["@", "a", " ", "#", "b", " ", "@", "日", " ", "#", "c"].map fun w =>
      mkToken asciiUnicode (str w) false
    (∀ t ∈ toks, t.value ≠ [] ∧ ∃ lem, TokenFor asciiUnicode t.value lem t) ∧
    bothIdeal asciiUnicode { sigil := [0x40], legal := legalHandle }
      { sigil := [0x23], legal := legalHashtag asciiUnicode } none toks =
      [mkToken asciiUnicode (str "@a") true, mkToken asciiUnicode (str " ") false,
       mkToken asciiUnicode (str "#b") true, mkToken asciiUnicode (str " ") false,
       mkToken asciiUnicode (str "@") false, mkToken asciiUnicode (str "日") false,
       mkToken asciiUnicode (str " ") false, mkToken asciiUnicode (str "#c") true] := by
  intro toks
  refine ⟨fun t ht => ⟨?_, false, ?_⟩, by decide +kernel⟩
  · revert t
    decide +kernel
  · simp only [toks, List.mem_map] at ht
    obtain ⟨w, -, rfl⟩ := ht
    exact mkToken_for _ _ _

/-- No sigil follows a sigil within three tokens: then the conditions on the order of tokens hold. -/
theorem calm_of_sparse {f g : SigilFilter} {toks : List Token}
    (h : ∀ a c l n b, toks = a ++ c :: l :: n :: b → c.value = f.sigil →
      l.value ≠ f.sigil ∧ n.value ≠ f.sigil)
    (h' : ∀ a c l n m b, toks = a ++ c :: l :: n :: m :: b → c.value = g.sigil → l.value ≠ f.sigil) :
    Calm f toks ∧ Unmixed f g toks :=
  ⟨fun a c l n b hab hc _ => ⟨fun hl => absurd hl (h a c l n b hab hc).1,
      fun hn => absurd hn (h a c l n b hab hc).2⟩,
    fun a c l x n b hab hc hl => absurd hl (h' a c l x n b hab hc)⟩

end Jargon
