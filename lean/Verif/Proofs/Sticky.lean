import Verif.Spec.Sticky
import Verif.Proofs.Filters
import Verif.Proofs.Synonyms

/-! Streams that fail for good, and what filters make of them. -/

namespace Jargon

variable {σ : Type}

theorem Broken.step {next : NextFn σ} {e : Err} {s : σ} (h : Broken next e s) :
    ∃ s', next s = Go.ret ({ tok := none, err := some e }, s') ∧ Broken next e s' := by
  obtain ⟨P, hs, hP⟩ := h
  obtain ⟨s', h1, h2⟩ := hP s hs
  exact ⟨s', h1, P, h2, hP⟩

theorem Broken.of_step {next : NextFn σ} {e : Err} {s s' : σ}
    (h : next s = Go.ret ({ tok := none, err := some e }, s')) (h' : Broken next e s') : Broken next e s := by
  obtain ⟨P, hs, hP⟩ := h'
  refine ⟨fun x => P x ∨ x = s, .inr rfl, ?_⟩
  rintro x (hx | rfl)
  · obtain ⟨y, h1, h2⟩ := hP x hx; exact ⟨y, h1, .inl h2⟩
  · exact ⟨s', h, .inl hs⟩

/-- Coinduction for `Broken` across two state spaces. -/
theorem Broken.map {τ : Type} {next : NextFn σ} {next' : NextFn τ} {e : Err} (R : σ → τ → Prop)
    (step : ∀ s t s', R s t → next s = Go.ret ({ tok := none, err := some e }, s') →
      ∃ t', next' t = Go.ret ({ tok := none, err := some e }, t') ∧ R s' t')
    {s : σ} {t : τ} (hR : R s t) (h : Broken next e s) : Broken next' e t := by
  refine ⟨fun t => ∃ s, R s t ∧ Broken next e s, ⟨s, hR, h⟩, ?_⟩
  rintro t ⟨s, hR, hq⟩
  obtain ⟨s', h4, h5⟩ := hq.step
  obtain ⟨t', h2, h3⟩ := step s t s' hR h4
  exact ⟨t', h2, s', h3, h5⟩

theorem BreaksAfter.nil {next : NextFn σ} {e : Err} {s : σ} : BreaksAfter next [] e s ↔ Broken next e s := by
  constructor
  · rintro ⟨s', h, hb⟩
    cases h
    exact hb
  · exact fun h => ⟨s, rfl, h⟩

theorem BreaksAfter.cons {next : NextFn σ} {e : Err} {s : σ} {t : Token} {ts : List Token} :
    BreaksAfter next (t :: ts) e s ↔
      ∃ s', next s = Go.ret ({ tok := some t, err := none }, s') ∧ BreaksAfter next ts e s' := by
  constructor
  · rintro ⟨s', ⟨x, h1, h2⟩, hb⟩
    exact ⟨x, h1, s', h2, hb⟩
  · rintro ⟨x, h1, s', h2, hb⟩
    exact ⟨s', ⟨x, h1, h2⟩, hb⟩

theorem BreaksAfter.of_steps {next : NextFn σ} {e : Err} {s s' : σ} {a b : List Token}
    (h : Steps next s a s') (h' : BreaksAfter next b e s') : BreaksAfter next (a ++ b) e s := by
  obtain ⟨s'', h1, h2⟩ := h'
  exact ⟨s'', h.append h1, h2⟩

theorem BreaksAfter.congr {next : NextFn σ} {s s' : σ} (h : next s = next s') {toks : List Token} {e : Err}
    (hs : BreaksAfter next toks e s') : BreaksAfter next toks e s := by
  cases toks with
  | nil =>
    rw [BreaksAfter.nil] at *
    obtain ⟨x, h1, h2⟩ := hs.step
    exact Broken.of_step (h.trans h1) h2
  | cons t ts =>
    rw [BreaksAfter.cons] at *
    obtain ⟨x, h1, h2⟩ := hs
    exact ⟨x, h.trans h1, h2⟩

theorem BreaksAfter.emits {next : NextFn σ} {s : σ} {toks : List Token} {e : Err}
    (h : BreaksAfter next toks e s) : Emits next toks (.fail e) s := by
  obtain ⟨s', h1, h2⟩ := h
  obtain ⟨s'', h3, -⟩ := h2.step
  have := Emits.of_steps (b := []) (e := .fail e) h1 ⟨none, s'', h3⟩
  simpa using this

theorem Broken.answers {next : NextFn σ} {e : Err} {s : σ} (h : Broken next e s) (n : Nat) :
    ∃ s', Answers next s (List.replicate n ⟨none, some e⟩) s' ∧ Broken next e s' := by
  induction n generalizing s with
  | zero => exact ⟨s, rfl, h⟩
  | succ n ih =>
    obtain ⟨s1, h1, h2⟩ := h.step
    obtain ⟨s', h3, h4⟩ := ih h2
    exact ⟨s', ⟨s1, h1, h3⟩, h4⟩

/-! ### The wrapper made by NewTokenStream -/

theorem Broken.wrap {call : NextFn σ} {e : Err} {s : TS σ} (h : Broken call e s.inner) :
    Broken (TS.next call) e s := by
  refine Broken.map (fun x (t : TS σ) => t.inner = x) ?_ rfl h
  rintro x t x' rfl h1
  exact ⟨_, TS.next_of h1, rfl⟩

theorem BreaksAfter.wrap {call : NextFn σ} {e : Err} {toks : List Token} {s : TS σ}
    (h : BreaksAfter call toks e s.inner) : BreaksAfter (TS.next call) toks e s := by
  induction toks generalizing s with
  | nil => rw [BreaksAfter.nil] at *; exact h.wrap
  | cons t ts ih =>
    rw [BreaksAfter.cons] at *
    obtain ⟨x, h1, h2⟩ := h
    exact ⟨_, TS.next_of h1, ih h2⟩

theorem failsForGood_new {call : NextFn σ} {x : σ} {toks : List Token} {e : Err}
    (h : BreaksAfter call toks e x) : (newTokenStream call x).FailsForGood toks e := BreaksAfter.wrap h

theorem listStream_failsForGood (toks : List Token) (e : Err) :
    (listStream toks (.fail e)).FailsForGood toks e := by
  refine failsForGood_new ?_
  induction toks with
  | nil => exact BreaksAfter.nil.2 ⟨fun s => s = [], rfl, by rintro s rfl; exact ⟨[], rfl, rfl⟩⟩
  | cons t ts ih => exact BreaksAfter.cons.2 ⟨ts, rfl, ih⟩

/-! ### Tokenizers -/

theorem tokenizer_breaks (E : Env) (segs : List Bytes) (e : Err) (h : ∀ s ∈ segs, s ≠ []) :
    BreaksAfter (tokenizerNext E) (segTokens E.U segs) e (segs, some e) := by
  induction segs with
  | nil => exact BreaksAfter.nil.2 ⟨fun s => s = ([], some e), rfl, by rintro s rfl; exact ⟨_, rfl, rfl⟩⟩
  | cons s segs ih =>
    refine BreaksAfter.cons.2 ⟨(segs, some e), ?_, ih fun x hx => h x (by simp [hx])⟩
    simp [tokenizerNext, newToken_some (h s (by simp))]

theorem tokenize_failsForGood {E : Env} (hE : E.Lawful) {r : Reader} {e : Err} (h : (E.scan r).2 = some e) :
    (tokenize E r).FailsForGood (segTokens E.U (E.scan r).1) e := by
  refine failsForGood_new ?_
  have := tokenizer_breaks E (E.scan r).1 e (hE.nonempty r)
  rw [← h] at this
  exact this

/-- If an error leaves `next` in a state where it repeats itself, errors are for good. -/
theorem BreaksAfter.of_emits {next : NextFn σ}
    (hstay : ∀ s r s' e, next s = Go.ret (r, s') → r.err = some e →
      r.tok = none ∧ next s' = Go.ret ({ tok := none, err := some e }, s'))
    {s : σ} {toks : List Token} {e : Err} (h : Emits next toks (.fail e) s) : BreaksAfter next toks e s := by
  induction toks generalizing s with
  | nil =>
    obtain ⟨tok, s', h1⟩ := h
    obtain ⟨h2, h3⟩ := hstay _ _ _ e h1 rfl
    cases h2
    refine BreaksAfter.nil.2 (Broken.of_step h1 ⟨fun x => x = s', rfl, ?_⟩)
    rintro x rfl
    exact ⟨_, h3, rfl⟩
  | cons t ts ih =>
    rw [Emits.cons] at h
    obtain ⟨x, h1, h2⟩ := h
    exact BreaksAfter.cons.2 ⟨x, h1, ih h2⟩

theorem tokenizerNext_stays (E : Env) {s s' : TokState} {r : Res} {e : Err}
    (h : tokenizerNext E s = Go.ret (r, s')) (he : r.err = some e) :
    s = ([], some e) ∧ s' = ([], some e) ∧ r = { tok := none, err := some e } := by
  rcases s with ⟨_ | ⟨seg, segs⟩, _ | x⟩ <;> simp only [tokenizerNext, Go.ret_inj, Prod.mk.injEq] at h <;>
    obtain ⟨rfl, rfl⟩ := h <;> simp_all

theorem tsTokenizer_stays (E : Env) {s s' : TS TokState} {r : Res} {e : Err}
    (h : TS.next (tokenizerNext E) s = Go.ret (r, s')) (he : r.err = some e) :
    r = { tok := none, err := some e } ∧ s' = { inner := ([], some e), token := none, err := some e } ∧
      TS.next (tokenizerNext E) s' = Go.ret ({ tok := none, err := some e }, s') := by
  simp only [TS.next, Go.bind_eq_ret] at h
  obtain ⟨⟨a, b⟩, h1, h2⟩ := h
  simp at h2
  obtain ⟨rfl, rfl⟩ := h2
  obtain ⟨-, rfl, h3⟩ := tokenizerNext_stays E h1 he
  refine ⟨h3, ?_, ?_⟩
  · simp [h3]
  · rw [h3]; rfl

theorem htmlAdvance_stays (E : Env) {s s' : HState} {r : Res} {e : Err} (hs : s.ttokens = none)
    (h : htmlAdvance E s = Go.ret (r, s')) (he : r.err = some e) :
    r.tok = none ∧ htmlNext E s' = Go.ret ({ tok := none, err := some e }, s') := by
  obtain ⟨events, final, ttokens, parent⟩ := s
  cases hs
  unfold htmlAdvance at h
  cases events with
  | nil =>
    simp only [Go.ret_inj, Prod.mk.injEq] at h
    obtain ⟨rfl, rfl⟩ := h
    simp only at he
    subst he
    exact ⟨rfl, rfl⟩
  | cons x xs =>
    simp only at h
    have hother : ∀ {v : Token} {t : HState},
        (Go.ret ({ tok := some v, err := none }, t) : Go (Res × HState)) = Go.ret (r, s') → False := by
      intro v t h
      simp only [Go.ret_inj, Prod.mk.injEq] at h
      rw [← h.1] at he
      cases he
    split at h
    · split at h <;> exact (hother h).elim
    · split at h
      · exact (hother h).elim
      · simp only [Go.bind_eq_ret] at h
        obtain ⟨⟨a, b⟩, h1, h2⟩ := h
        simp only [Go.pure_eq, Go.ret_inj, Prod.mk.injEq] at h2
        obtain ⟨rfl, rfl⟩ := h2
        obtain ⟨h3, h4, h5⟩ := tsTokenizer_stays E h1 he
        refine ⟨by rw [h3], ?_⟩
        simp [htmlNext, h5]
    all_goals exact (hother h).elim

theorem htmlNext_stays (E : Env) {s s' : HState} {r : Res} {e : Err}
    (h : htmlNext E s = Go.ret (r, s')) (he : r.err = some e) :
    r.tok = none ∧ htmlNext E s' = Go.ret ({ tok := none, err := some e }, s') := by
  unfold htmlNext at h
  split at h
  · simp only [Go.bind_eq_ret] at h
    obtain ⟨⟨a, b⟩, h1, h2⟩ := h
    simp only at h2
    split at h2
    · simp only [Go.pure_eq, Go.ret_inj, Prod.mk.injEq] at h2
      obtain ⟨rfl, rfl⟩ := h2
      obtain ⟨h3, h4, h5⟩ := tsTokenizer_stays E h1 he
      exact ⟨rfl, by simp [htmlNext, h5]⟩
    · split at h2
      · simp only [Go.pure_eq, Go.ret_inj, Prod.mk.injEq] at h2
        obtain ⟨rfl, rfl⟩ := h2
        cases he
      · exact htmlAdvance_stays E rfl h2 he
  · exact htmlAdvance_stays E ‹_› h he

/-! ### Filters -/

theorem mapper_breaks {call : NextFn σ} {funcs : List TokenFunc} {f : Token → Token}
    {toks : List Token} {e : Err} {s : TS σ}
    (hf : ∀ t ∈ toks, applyFuncs funcs (some t) = Go.ret (some (f t)))
    (h : BreaksAfter (TS.next call) toks e s) : BreaksAfter (mapperNext call funcs) (toks.map f) e s := by
  obtain ⟨s', h1, h2⟩ := h
  refine ⟨s', mapper_steps hf h1, Broken.map (fun x t => t = x) ?_ rfl h2⟩
  rintro x t x' rfl h3
  exact ⟨x', by simp [mapperNext, h3], rfl⟩

theorem mapper_failsForGood {funcs : List TokenFunc} {f : Token → Token} {ts : TokenStream}
    {toks : List Token} {e : Err}
    (hf : ∀ t ∈ toks, applyFuncs funcs (some t) = Go.ret (some (f t))) (h : ts.FailsForGood toks e) :
    (mapper funcs ts).FailsForGood (toks.map f) e := failsForGood_new (mapper_breaks hf h)

theorem whereNext_breaks {ρ : Type} {call : NextFn σ} (pred : ρ → Token → Bool × ρ)
    {toks : List Token} {e : Err} {s : TS σ} (p : ρ) (h : BreaksAfter (TS.next call) toks e s) :
    BreaksAfter (whereNext call pred) (sfilter pred p toks) e (s, p) := by
  induction toks generalizing s p with
  | nil =>
    rw [BreaksAfter.nil] at h
    refine BreaksAfter.nil.2 (Broken.map (fun x (t : TS σ × ρ) => t.1 = x) ?_ rfl h)
    rintro x t x' rfl h1
    refine ⟨(x', t.2), ?_, rfl⟩
    rw [whereNext]; simp [h1]
  | cons t ts ih =>
    rw [BreaksAfter.cons] at h
    obtain ⟨x, h1, h2⟩ := h
    unfold sfilter
    cases hp : (pred p t).1
    · refine BreaksAfter.congr (s' := (x, (pred p t).2)) ?_ (by simpa using ih _ h2)
      rw [whereNext]; simp [h1, hp]
    · rw [if_pos rfl, BreaksAfter.cons]
      refine ⟨(x, (pred p t).2), ?_, ih _ h2⟩
      rw [whereNext]; simp [h1, hp]

theorem whereStream_failsForGood {ρ : Type} (pred : ρ → Token → Bool × ρ) (p : ρ) {ts : TokenStream}
    {toks : List Token} {e : Err} (h : ts.FailsForGood toks e) :
    (whereStream pred p ts).FailsForGood (sfilter pred p toks) e := failsForGood_new (whereNext_breaks pred p h)

theorem stop_breaks {U : Unicode} {call : NextFn σ} {words : List Bytes} {ic : Bool}
    {toks : List Token} {e : Err} {s : TS σ} (h : BreaksAfter (TS.next call) toks e s) :
    BreaksAfter (stopNext U call (stopIncludes U words ic) ic)
      (toks.filter fun t => !isStop U words ic t) e s := by
  induction toks generalizing s with
  | nil =>
    rw [BreaksAfter.nil] at h
    refine BreaksAfter.nil.2 (Broken.map (fun x t => t = x) ?_ rfl h)
    rintro x t x' rfl h1
    exact ⟨x', by rw [stopNext]; simp [h1], rfl⟩
  | cons t ts ih =>
    rw [BreaksAfter.cons] at h
    obtain ⟨x, h1, h2⟩ := h
    have hk := stop_key U words ic t
    rw [List.filter_cons]
    cases hs : isStop U words ic t
    · rw [hs] at hk
      refine BreaksAfter.cons.2 ⟨x, ?_, ih h2⟩
      rw [stopNext, h1]
      simp only [Go.ret_bind, Option.isSome_none, Bool.false_eq_true, ↓reduceIte, hk]; rfl
    · rw [hs] at hk
      refine BreaksAfter.congr (s' := x) ?_ (by simpa using ih h2)
      rw [stopNext, h1]
      simp only [Go.ret_bind, Option.isSome_none, Bool.false_eq_true, ↓reduceIte, hk]

theorem con_breaks {E : Env} (hE : E.Lawful) {m : StringMap} (hm : GoodTable E m) {call : NextFn σ}
    {toks : List Token} {e : Err} {s : TS σ} (h : BreaksAfter (TS.next call) toks e s) :
    BreaksAfter (conNext E m call) (toks.flatMap (expandToken E m)) e { incoming := s, outgoing := [] } := by
  obtain ⟨s', h1, h2⟩ := h
  refine ⟨_, con_steps hE (fun t _ => hm.expansion t) h1,
    Broken.map (fun x (t : ConState σ) => t = { incoming := x, outgoing := [] }) ?_ rfl h2⟩
  rintro x t x' rfl h3
  exact ⟨_, by simp [conNext, h3], rfl⟩

theorem sigil_broken {U : Unicode} {f : SigilFilter} {call : NextFn σ} {s : TS σ} {p : Option Token} {e : Err}
    (h : Broken (TS.next call) e s) :
    Broken (sigilNext U f call) e { incoming := s, previous := p, outgoing := [] } := by
  refine Broken.map (fun x (t : SigilState σ) => t = { incoming := x, previous := p, outgoing := [] }) ?_ rfl h
  rintro x t x' rfl h1
  exact ⟨_, by simp [sigilNext, h1], rfl⟩

theorem sigil_breaks {U : Unicode} {f : SigilFilter} (hf : f.sigil ≠ []) {call : NextFn σ}
    {e : Err} (p : Option Token) (toks : List Token) {s : TS σ} (h : BreaksAfter (TS.next call) toks e s) :
    BreaksAfter (sigilNext U f call) (sigilActual U f p toks (.fail e)).1 e
      { incoming := s, previous := p, outgoing := [] } := by
  generalize he : End.fail e = en
  fun_induction sigilActual U f p toks en generalizing s with
  | case1 p en => exact BreaksAfter.nil.2 (sigil_broken (BreaksAfter.nil.1 h))
  | case2 p c hc => cases he
  | case3 p c hc err =>
    cases he
    rw [BreaksAfter.cons] at h
    obtain ⟨x, h1, h2⟩ := h
    obtain ⟨y, h3, h4⟩ := (BreaksAfter.nil.1 h2).step
    simp only [Bool.and_eq_true, decide_eq_true_eq] at hc
    exact BreaksAfter.nil.2 (Broken.of_step (sigilNext_fail h1 h3 hc.1 hc.2) (sigil_broken h4))
  | case4 p c en hc =>
    rw [BreaksAfter.cons] at h
    obtain ⟨x, h1, h2⟩ := h
    exact BreaksAfter.cons.2 ⟨_, sigilNext_pass h1 (by simpa using hc),
      BreaksAfter.nil.2 (sigil_broken (BreaksAfter.nil.1 h2))⟩
  | case5 p c l rest en hc hl ih =>
    rw [BreaksAfter.cons] at h
    obtain ⟨x, h1, h2⟩ := h
    rw [BreaksAfter.cons] at h2
    obtain ⟨y, h3, h4⟩ := h2
    simp only [Bool.and_eq_true, decide_eq_true_eq] at hc
    have := sigilNext_two hf (U := U) h1 h3 hc.1 hc.2
    rw [if_pos hl] at this
    exact BreaksAfter.cons.2 ⟨_, this, ih h4 he⟩
  | case6 p c l rest en hc hl ih =>
    rw [BreaksAfter.cons] at h
    obtain ⟨x, h1, h2⟩ := h
    rw [BreaksAfter.cons] at h2
    obtain ⟨y, h3, h4⟩ := h2
    simp only [Bool.and_eq_true, decide_eq_true_eq] at hc
    have := sigilNext_two hf (U := U) h1 h3 hc.1 hc.2
    rw [if_neg hl] at this
    refine BreaksAfter.cons.2 ⟨_, this, BreaksAfter.cons.2 ⟨_, ?_, ih h4 he⟩⟩
    simp [sigilNext]
  | case7 p c l rest en hc ih =>
    rw [BreaksAfter.cons] at h
    obtain ⟨x, h1, h2⟩ := h
    exact BreaksAfter.cons.2 ⟨_, sigilNext_pass h1 (by simpa using hc), ih h2 he⟩

/-! ### Synonyms -/

theorem fillNext_breaks {call : NextFn σ} {rem : List Token} {e : Err} {s : TS σ} {m : Nat}
    (h : BreaksAfter (TS.next call) rem e s) (b : Queue Token) (q : Queue (Option Token)) :
    (∃ s', Broken (TS.next call) e s' ∧ words (b ++ rem) < m ∧
      fillNext call m (words b) { incoming := s, buffer := b, outgoing := q } =
        Go.ret (some e, { incoming := s', buffer := b ++ rem, outgoing := q })) ∨
    ∃ s' got rest, rem = got ++ rest ∧ BreaksAfter (TS.next call) rest e s' ∧
      (m ≤ words (b ++ got) ∨ ∃ t ∈ got, t.punct = true) ∧
      fillNext call m (words b) { incoming := s, buffer := b, outgoing := q } =
        Go.ret (none, { incoming := s', buffer := b ++ got, outgoing := q }) := by
  induction rem generalizing s b with
  | nil =>
    by_cases hm : words b < m
    · obtain ⟨s', h3, h4⟩ := (BreaksAfter.nil.1 h).step
      refine .inl ⟨s', h4, by simpa using hm, ?_⟩
      rw [fillNext]
      simp [hm, h3]
    · refine .inr ⟨s, [], [], rfl, h, .inl (by simp; omega), ?_⟩
      rw [fillNext]
      simp [hm]
  | cons t ts ih =>
    by_cases hm : words b < m
    · rw [BreaksAfter.cons] at h
      obtain ⟨x, h1, h2⟩ := h
      by_cases hp : t.punct = true
      · refine .inr ⟨x, [t], ts, rfl, h2, .inr ⟨t, by simp, hp⟩, ?_⟩
        rw [fillNext]
        simp [hm, h1, Token.isPunct, hp, Queue.push]
      · have hp' : t.punct = false := by simpa using hp
        have hrec : fillNext call m (words b) { incoming := s, buffer := b, outgoing := q } =
            fillNext call m (words (b ++ [t])) { incoming := x, buffer := b ++ [t], outgoing := q } := by
          rw [fillNext]
          simp only [hm, ↓reduceIte, h1, Go.ret_bind, Option.isSome_none, Bool.false_eq_true,
            Token.isPunct, hp', Queue.push, Token.isSpace]
          rw [words_append]
          rcases Bool.eq_false_or_eq_true t.space with hsp | hsp
          · have : words [t] = 0 := by simp [words, Token.IsWord, hsp]
            simp [this, hsp]
          · have : words [t] = 1 := by simp [words, Token.IsWord, hp', hsp]
            simp [this, hsp]
        rw [hrec]
        rcases ih h2 (b ++ [t]) with ⟨s', hb, hlt, hy⟩ | ⟨s', got, rest, hts, h3, h4, h5⟩
        · exact .inl ⟨s', hb, by simpa using hlt, by rw [hy]; simp⟩
        · refine .inr ⟨s', t :: got, rest, by rw [hts]; rfl, h3, ?_, ?_⟩
          · rcases h4 with h4 | ⟨u, hu, hup⟩
            · exact .inl (by simpa using h4)
            · exact .inr ⟨u, by simp [hu], hup⟩
          · rw [h5]; simp
    · refine .inr ⟨s, [], t :: ts, rfl, h, .inl (by simp; omega), ?_⟩
      rw [fillNext]
      simp [hm]

theorem fillScan_breaks {call : NextFn σ} {seps rest : List Token} {e : Err} {s : TS σ}
    (hs : ∀ t ∈ seps, ¬ t.IsWord) (hr : rest = [] ∨ ∃ w ts, rest = w :: ts ∧ w.IsWord)
    (h : BreaksAfter (TS.next call) (seps ++ rest) e s) (b : Queue Token) (q : Queue (Option Token)) :
    ∃ s', fillScan call { incoming := s, buffer := b, outgoing := q } =
        Go.ret { incoming := s', buffer := b ++ rest.take 1, outgoing := q ++ seps.map some } ∧
      BreaksAfter (TS.next call) rest.tail e s' ∧ s'.err = if rest = [] then some e else none := by
  induction seps generalizing s q with
  | nil =>
    rcases hr with rfl | ⟨w, ts, rfl, hw⟩
    · obtain ⟨s', h3, h4⟩ := (BreaksAfter.nil.1 h).step
      refine ⟨s', ?_, BreaksAfter.nil.2 h4, by simp [(TS.next_fields h3).2]⟩
      rw [fillScan, TS.scan_of h3]
      simp
    · rw [List.nil_append, BreaksAfter.cons] at h
      obtain ⟨s', h3, h4⟩ := h
      refine ⟨s', ?_, h4, by simp [(TS.next_fields h3).2]⟩
      rw [fillScan, TS.scan_of h3]
      have hw' := isWord_iff.mp hw
      simp only [Option.isSome_some, Option.isNone_none, Bool.and_self, Go.ret_bind, ↓reduceIte,
        (TS.next_fields h3).1, hw', Bool.false_eq_true, Queue.push, Go.pure_eq, List.take_succ_cons,
        List.take_zero, List.map_nil, List.append_nil]
  | cons t ts ih =>
    rw [List.cons_append, BreaksAfter.cons] at h
    obtain ⟨x, h1, h2⟩ := h
    obtain ⟨s', h3, h4, h5⟩ := ih (fun y hy => hs y (by simp [hy])) h2 (q ++ [some t])
    refine ⟨s', ?_, h4, h5⟩
    have ht := not_isWord_iff.mp (hs t (by simp))
    rw [fillScan, TS.scan_of h1]
    simp only [Option.isSome_some, Option.isNone_none, Bool.and_self, Go.ret_bind, ↓reduceIte,
      (TS.next_fields h1).1, ht, Queue.push]
    rw [h3]
    simp

/-- What `fill` does if upstream fails for good: it reports the error, with an empty buffer after all the
rest were separators, or with a word in the buffer; or it buffers enough. -/
theorem fill_breaks {call : NextFn σ} {f : SynFilter} {b rem : List Token} {e : Err} {s : TS σ}
    (h : BreaksAfter (TS.next call) rem e s) (q : Queue (Option Token)) :
    (∃ s', Broken (TS.next call) e s' ∧ (∀ t ∈ b ++ rem, ¬ t.IsWord) ∧
      fill call f { incoming := s, buffer := b, outgoing := q } =
        Go.ret (some e, { incoming := s', buffer := [], outgoing := q ++ (b ++ rem).map some })) ∨
    (∃ s' w ts q', w.IsWord ∧ w :: ts <:+ b ++ rem ∧ words (w :: ts) < f.maxWords ∧ fill call f { incoming := s, buffer := b, outgoing := q } =
        Go.ret (some e, { incoming := s', buffer := w :: ts, outgoing := q' })) ∨
    ∃ s' seps w ts rest, b ++ rem = seps ++ (w :: ts ++ rest) ∧ (∀ t ∈ seps, ¬ t.IsWord) ∧
      BreaksAfter (TS.next call) rest e s' ∧
      (f.maxWords ≤ words (w :: ts) ∨ ∃ t ∈ w :: ts, t.punct = true) ∧ w.IsWord ∧
      fill call f { incoming := s, buffer := b, outgoing := q } =
        Go.ret (none, { incoming := s', buffer := w :: ts, outgoing := q ++ seps.map some }) := by
  obtain ⟨bseps, brest, rfl, hbs, hbr⟩ := separators_split b
  have hdrop : Queue.drop (bseps ++ brest) bseps.length = Go.ret brest := by
    simp [Queue.drop]
  have hstart : fill call f { incoming := s, buffer := bseps ++ brest, outgoing := q } =
      (if brest.length = 0 then do
        let t ← fillScan call { incoming := s, buffer := brest, outgoing := q ++ bseps.map some }
        if t.incoming.err.isSome then pure (t.incoming.err, t)
        else fillNext call f.maxWords (wordCount t.buffer) t
      else fillNext call f.maxWords (wordCount brest)
        { incoming := s, buffer := brest, outgoing := q ++ bseps.map some }) := by
    unfold fill
    simp only [fillLeading_eq hbs hbr, Nat.zero_add, hdrop, Go.ret_bind]
    rfl
  rw [hstart]
  rcases hbr with rfl | ⟨w, ts, rfl, hw⟩
  · simp only [List.length_nil, ↓reduceIte, List.append_nil]
    obtain ⟨seps, rest, rfl, hs, hr⟩ := separators_split rem
    obtain ⟨s', h1, h2, h3⟩ := fillScan_breaks hs hr h [] (q ++ bseps.map some)
    rw [h1]
    simp only [Go.ret_bind, List.nil_append, h3]
    have hsep : ∀ t ∈ bseps ++ seps, ¬ t.IsWord := by
      intro t ht
      rcases List.mem_append.mp ht with h | h
      · exact hbs t h
      · exact hs t h
    rcases hr with rfl | ⟨w, ts, rfl, hw⟩
    · refine .inl ⟨s', BreaksAfter.nil.1 h2, by simpa using hsep, ?_⟩
      simp
    · simp only [reduceCtorEq, ↓reduceIte, Option.isSome_none, Bool.false_eq_true, wordCount_eq]
      rcases fillNext_breaks (m := f.maxWords) h2 (List.take 1 (w :: ts))
          (q ++ bseps.map some ++ seps.map some)
        with ⟨s'', hb, hlt, hx⟩ | ⟨s'', got, rest, hgot, h6, h7, h8⟩
      · exact .inr (.inl ⟨s'', w, ts, _, hw, ⟨bseps ++ seps, by simp⟩, by simpa using hlt, hx⟩)
      · simp only [List.tail_cons] at hgot
        subst hgot
        refine .inr (.inr ⟨s'', bseps ++ seps, w, got, rest, by simp, hsep, h6, ?_, hw, ?_⟩)
        · rcases h7 with h7 | ⟨u, hu, hup⟩
          · exact .inl (by simpa using h7)
          · exact .inr ⟨u, by simp [hu], hup⟩
        · rw [h8]; simp
  · rw [if_neg (by simp), wordCount_eq]
    rcases fillNext_breaks (m := f.maxWords) h (w :: ts) (q ++ bseps.map some)
      with ⟨s'', hb, hlt, hx⟩ | ⟨s'', got, rest, hgot, h6, h7, h8⟩
    · exact .inr (.inl ⟨s'', w, ts ++ rem, _, hw, ⟨bseps, by simp⟩, by simpa using hlt, hx⟩)
    · subst hgot
      refine .inr (.inr ⟨s'', bseps, w, ts ++ got, rest, by simp, hbs, h6, ?_, hw, ?_⟩)
      · rcases h7 with h7 | ⟨u, hu, hup⟩
        · exact .inl h7
        · exact .inr ⟨u, by simp [hu], hup⟩
      · rw [h8]; rfl

/-- The loop of `next` if upstream fails for good. -/
theorem synLoop_breaks {U : Unicode} {call : NextFn σ} {f : SynFilter} {C : Compare} {D : Dict}
    (hm : 0 < f.maxWords) (hC : f.trie.compare U = C) (hD : f.trie.root.get = D)
    (b rem : List Token) {e : Err} {s : TS σ} {out : List Token}
    (h : BreaksAfter (TS.next call) rem e s) (hg : Greedy C D f.maxWords (b ++ rem) out)
    (q : Queue (Option Token)) :
    (∃ s', Broken (TS.next call) e s' ∧
      synLoop U call f { incoming := s, buffer := b, outgoing := q } =
        Go.ret (some e, { incoming := s', buffer := [], outgoing := q ++ out.map some })) ∨
    ∃ s' w ts q', w.IsWord ∧ w :: ts <:+ b ++ rem ∧ words (w :: ts) < f.maxWords ∧
      synLoop U call f { incoming := s, buffer := b, outgoing := q } =
        Go.ret (some e, { incoming := s', buffer := w :: ts, outgoing := q' }) := by
  induction hn : (b ++ rem).length using Nat.strongRecOn generalizing b rem s out q with
  | ind n ih =>
    rcases fill_breaks (b := b) (f := f) h q with ⟨s', hb, hs, hx⟩ | ⟨s', w, ts, q', hw, hsuf, hlt, hx⟩ |
      ⟨s', seps, w, ts, rest, happ, hs, h1, h2, h4, h5⟩
    · refine .inl ⟨s', hb, ?_⟩
      have hg2 : Greedy C D f.maxWords ((b ++ rem) ++ []) out := by simpa using hg
      obtain ⟨out', rfl, hg'⟩ := hg2.separators hs
      cases hg'
      rw [synLoop, hx]
      simp
    · refine .inr ⟨s', w, ts, q', hw, hsuf, hlt, ?_⟩
      rw [synLoop, hx]
      simp
    · rw [happ] at hg hn
      obtain ⟨out', rfl, hg'⟩ := hg.separators hs
      obtain ⟨b'', now, later, hle, hsuf, rfl, hl, hstep⟩ := synLoop_step hm hC hD h5 h4
        (h2.elim .inl fun h => .inr (.inl h)) hg'
      rw [hstep]
      rcases ih (b'' ++ rest).length (by rw [← hn]; simp; omega) b'' rest h1 hl
        (q ++ seps.map some ++ now.map some) rfl with ⟨x, hb, hx⟩ | ⟨x, w', ts', q', hw', hs', hlt, hx⟩
      · exact .inl ⟨x, hb, by rw [hx]; simp⟩
      · refine .inr ⟨x, w', ts', q', hw', ?_, hlt, hx⟩
        rw [happ]
        obtain ⟨pre, hpre⟩ := hsuf
        exact hs'.trans ⟨seps ++ pre, by rw [← hpre]; simp⟩

/-- What comes after the error, if the buffer is empty: everything that was held back, then the error. -/
theorem synNext_late {U : Unicode} {call : NextFn σ} {f : SynFilter} {e : Err} {s : TS σ}
    (h : Broken (TS.next call) e s) (out : List Token) :
    BreaksAfter (synNext U call f) out e { incoming := s, buffer := [], outgoing := out.map some } := by
  induction out with
  | nil =>
    refine BreaksAfter.nil.2 ⟨fun t => ∃ s, Broken (TS.next call) e s ∧
      t = { incoming := s, buffer := [], outgoing := [] }, ⟨s, h, rfl⟩, ?_⟩
    rintro t ⟨s, hs, rfl⟩
    rcases fill_breaks (f := f) (b := []) (BreaksAfter.nil.2 hs) [] with
      ⟨s', hb, -, hx⟩ | ⟨s', w, ts, q', -, hsuf, -⟩ | ⟨s', seps, w, ts, rest, happ, -⟩
    · refine ⟨_, ?_, s', hb, rfl⟩
      unfold synNext
      rw [synLoop, hx]
      simp [Queue.len]
    · simp at hsuf
    · simp at happ
  | cons t ts ih =>
    rw [BreaksAfter.cons]
    refine ⟨_, ?_, ih⟩
    unfold synNext
    simp [Queue.len]

/-- A synonyms filter over a stream that fails for good: its first answer is the error. After that it either
reports that its buffer is not empty, for ever, or it delivers all it had held back and then the error for
ever. The first needs a synonym of more words than there are in some last part of the input. -/
theorem synNext_breaks {U : Unicode} {call : NextFn σ} {f : SynFilter} {C : Compare} {D : Dict}
    (hm : 0 < f.maxWords) (hC : f.trie.compare U = C) (hD : f.trie.root.get = D)
    {toks : List Token} {e : Err} {s : TS σ} {out : List Token}
    (h : BreaksAfter (TS.next call) toks e s) (hg : Greedy C D f.maxWords toks out) :
    ∃ t', synNext U call f { incoming := s, buffer := [], outgoing := [] } =
        Go.ret ({ tok := none, err := some e }, t') ∧
      ((Broken (synNext U call f) .synBufferNotEmpty t' ∧
        ∃ w ts, w.IsWord ∧ w :: ts <:+ toks ∧ words (w :: ts) < f.maxWords) ∨
      BreaksAfter (synNext U call f) out e t') := by
  rcases synLoop_breaks (U := U) hm hC hD [] toks h hg [] with ⟨s', hb, hx⟩ | ⟨s', w, ts, q', hw, hsuf, hlt, hx⟩
  · refine ⟨_, ?_, .inr (by simpa using synNext_late (U := U) hb out)⟩
    unfold synNext
    simp [Queue.len, hx]
  · refine ⟨⟨s', w :: ts, q'⟩, ?_, .inl ⟨⟨fun t => t = ⟨s', w :: ts, q'⟩, rfl, ?_⟩, w, ts, hw, hsuf, hlt⟩⟩
    · unfold synNext
      simp [Queue.len, hx]
    · rintro t rfl
      refine ⟨_, ?_, rfl⟩
      unfold synNext
      simp [Queue.len]

/-- If there is a word, but fewer than a synonym may have, and no punctuation, the filter gets stuck. -/
theorem synNext_stuck {U : Unicode} {call : NextFn σ} {f : SynFilter} {toks : List Token} {e : Err} {s : TS σ}
    (h : BreaksAfter (TS.next call) toks e s) (hw : ∃ t ∈ toks, t.IsWord) (hlt : words toks < f.maxWords)
    (hp : ∀ t ∈ toks, t.punct = false) :
    ∃ t', synNext U call f { incoming := s, buffer := [], outgoing := [] } =
        Go.ret ({ tok := none, err := some e }, t') ∧ Broken (synNext U call f) .synBufferNotEmpty t' := by
  rcases fill_breaks (b := []) (f := f) h [] with ⟨s', -, hs, -⟩ | ⟨s', w, ts, q', -, -, -, hx⟩ |
      ⟨s', seps, w, ts, rest, happ, -, -, h2, -⟩
  · obtain ⟨t, ht, hw⟩ := hw
    exact absurd hw (hs t (by simpa using ht))
  · refine ⟨⟨s', w :: ts, q'⟩, ?_, ⟨fun t => t = ⟨s', w :: ts, q'⟩, rfl, ?_⟩⟩
    · unfold synNext
      rw [synLoop, hx]
      simp [Queue.len]
    · rintro t rfl
      refine ⟨_, ?_, rfl⟩
      unfold synNext
      simp [Queue.len]
  · exfalso
    rw [List.nil_append] at happ
    rcases h2 with h2 | ⟨t, ht, hpt⟩
    · rw [happ, words_append, words_append] at hlt
      omega
    · have := hp t (by rw [happ]; simp only [List.mem_append]; exact .inr (.inl ht))
      rw [hpt] at this
      cases this

end Jargon
