import Verif.Spec.Filters
import Verif.Proofs.Token
import Verif.Proofs.Consumers

/-! Tokenizer, HTML tokenizer and the simple filters as functions on sequences of tokens. -/

namespace Jargon

variable {σ : Type}

/-! ### Tokenizer -/

theorem tokenizer_emits (E : Env) (segs : List Bytes) (e : Option Err) (h : ∀ s ∈ segs, s ≠ []) :
    Emits (tokenizerNext E) (segTokens E.U segs) (endOf e) (segs, e) := by
  induction segs with
  | nil =>
    cases e with
    | none => exact ⟨fun s => s = ([], none), rfl, by rintro s rfl; exact ⟨_, rfl, rfl⟩⟩
    | some e => exact ⟨_, _, rfl⟩
  | cons s segs ih =>
    refine Emits.cons.2 ⟨(segs, e), ?_, ih fun x hx => h x (by simp [hx])⟩
    simp [tokenizerNext, newToken_some (h s (by simp))]

theorem tokenize_yields (E : Env) (hE : E.Lawful) (r : Reader) :
    (tokenize E r).Yields (segTokens E.U (E.scan r).1) (endOf (E.scan r).2) :=
  yields_new (tokenizer_emits E _ _ (hE.nonempty r))

theorem text_segTokens (U : Unicode) (segs : List Bytes) : text (segTokens U segs) = segs.flatten := by
  induction segs with
  | nil => rfl
  | cons s segs ih =>
    have : text (segTokens U (s :: segs)) = s ++ text (segTokens U segs) := rfl
    rw [this, ih]; rfl

theorem stringTokens_yields {E : Env} (hE : E.Lawful) {s : Bytes}
    (hs : (E.scan { data := s }).2 = none) :
    (tokenizeString E s).Yields (stringTokens E s) .eof := by
  have := tokenize_yields E hE { data := s }
  rw [hs] at this
  exact this

theorem text_stringTokens {E : Env} (hE : E.Lawful) {s : Bytes}
    (hs : (E.scan { data := s }).2 = none) : text (stringTokens E s) = s := by
  rw [stringTokens, text_segTokens, (hE.complete _ hs).2]

theorem text_append (a b : List Token) : text (a ++ b) = text a ++ text b := by simp [text]

@[simp] theorem text_nil : text [] = [] := rfl

@[simp] theorem text_cons (t : Token) (ts : List Token) : text (t :: ts) = t.value ++ text ts := rfl

/-! ### mapper -/

theorem mapper_emits {call : NextFn σ} {funcs : List TokenFunc} {f : Token → Token}
    {toks : List Token} {e : End} {s : TS σ}
    (hf : ∀ t ∈ toks, applyFuncs funcs (some t) = Go.ret (some (f t)))
    (h : Emits (TS.next call) toks e s) :
    Emits (mapperNext call funcs) (toks.map f) e s := by
  induction toks generalizing s with
  | nil =>
    cases e with
    | eof =>
      refine Quiet.map (fun x t => t = x) ?_ rfl h
      rintro x t rfl hq
      obtain ⟨x', h1, _⟩ := hq.step
      exact ⟨x', x', h1, by simp [mapperNext, h1], rfl⟩
    | fail e =>
      obtain ⟨tok, x, h1⟩ := h
      exact ⟨none, x, by simp [mapperNext, h1]⟩
  | cons t ts ih =>
    rw [Emits.cons] at h
    obtain ⟨x, h1, h2⟩ := h
    refine Emits.cons.2 ⟨x, ?_, ih (fun t ht => hf t (by simp [ht])) h2⟩
    simp [mapperNext, h1, hf t (by simp)]

theorem mapper_yields {funcs : List TokenFunc} {f : Token → Token} {ts : TokenStream}
    {toks : List Token} {e : End}
    (hf : ∀ t ∈ toks, applyFuncs funcs (some t) = Go.ret (some (f t))) (h : ts.Yields toks e) :
    (mapper funcs ts).Yields (toks.map f) e := yields_new (mapper_emits hf h)

theorem mapper_steps {call : NextFn σ} {funcs : List TokenFunc} {f : Token → Token}
    {toks : List Token} {s s' : TS σ}
    (hf : ∀ t ∈ toks, applyFuncs funcs (some t) = Go.ret (some (f t)))
    (h : Steps (TS.next call) s toks s') : Steps (mapperNext call funcs) s (toks.map f) s' := by
  induction toks generalizing s with
  | nil => exact h
  | cons t ts ih =>
    obtain ⟨x, h1, h2⟩ := h
    exact ⟨x, by simp [mapperNext, h1, hf t (by simp)], ih (fun t ht => hf t (by simp [ht])) h2⟩

@[simp] theorem applyFuncs_one (f : TokenFunc) (t : Option Token) : applyFuncs [f] t = f t := by
  simp only [applyFuncs]
  rcases Go.cases (f t) with ⟨x, h⟩ | ⟨p, h⟩ | h <;> simp [h]

/-! ### stopwords -/

/-- Is this token a stop word? -/
def isStop (U : Unicode) (words : List Bytes) (ignoreCase : Bool) (t : Token) : Bool :=
  if ignoreCase then decide (∃ w ∈ words, U.lowerString w = U.lowerString t.value)
  else decide (t.value ∈ words)

theorem stop_key (U : Unicode) (words : List Bytes) (ic : Bool) (t : Token) :
    (stopIncludes U words ic).contains (if ic then U.lowerString t.string else t.string) =
      isStop U words ic t := by
  cases ic <;> simp [stopIncludes, isStop, Token.string] <;>
    by_cases h : t.value ∈ words <;> simp [h]

theorem stop_emits {U : Unicode} {call : NextFn σ} {words : List Bytes} {ic : Bool}
    {toks : List Token} {e : End} {s : TS σ} (h : Emits (TS.next call) toks e s) :
    Emits (stopNext U call (stopIncludes U words ic) ic)
      (toks.filter fun t => !isStop U words ic t) e s := by
  induction toks generalizing s with
  | nil =>
    cases e with
    | eof =>
      refine Quiet.map (fun x t => t = x) ?_ rfl h
      rintro x t rfl hq
      obtain ⟨x', h1, _⟩ := hq.step
      exact ⟨x', x', h1, by rw [stopNext]; simp [h1], rfl⟩
    | fail e =>
      obtain ⟨tok, x, h1⟩ := h
      exact ⟨none, x, by rw [stopNext]; simp [h1]⟩
  | cons t ts ih =>
    rw [Emits.cons] at h
    obtain ⟨x, h1, h2⟩ := h
    have hk := stop_key U words ic t
    rw [List.filter_cons]
    cases hs : isStop U words ic t
    · rw [hs] at hk
      refine Emits.cons.2 ⟨x, ?_, ih h2⟩
      rw [stopNext, h1]
      simp only [Go.ret_bind, Option.isSome_none, Bool.false_eq_true, ↓reduceIte, hk]; rfl
    · rw [hs] at hk
      refine Emits.congr (s' := x) ?_ (by simpa using ih h2)
      rw [stopNext, h1]
      simp only [Go.ret_bind, Option.isSome_none, Bool.false_eq_true, ↓reduceIte, hk]

theorem stop_yields {U : Unicode} {words : List Bytes} {ic : Bool} {ts : TokenStream}
    {toks : List Token} {e : End} (h : ts.Yields toks e) :
    (stopwords U words ic ts).Yields (toks.filter fun t => !isStop U words ic t) e :=
  yields_new (stop_emits h)

/-! ### queue -/

@[simp] theorem Queue.any_nil {α : Type} : Queue.any ([] : Queue α) = false := rfl
@[simp] theorem Queue.any_cons {α : Type} (a : α) (q : List α) : Queue.any (a :: q : Queue α) = true := by
  simp [Queue.any, Queue.len]
@[simp] theorem Queue.pop_cons {α : Type} (a : α) (q : List α) :
    Queue.pop (a :: q : Queue α) = Go.ret (a, q) := by
  simp [Queue.pop, Queue.drop]
@[simp] theorem Queue.push_nil {α : Type} (ts : List α) : Queue.push ([] : Queue α) ts = ts := rfl
@[simp] theorem Queue.new_eq {α : Type} : (Queue.new : Queue α) = [] := rfl

/-! ### contractions -/

theorem lookup_mem {m : StringMap} {k x : Bytes} (h : m.lookup k = some x) : (k, x) ∈ m := by
  obtain ⟨a, b, hab, _⟩ := List.lookup_eq_some_iff.1 h
  rw [hab]; simp

theorem tryExpansion_none {E : Env} {m : StringMap} {q : Queue Token} {t : Token} {ic : Bool}
    (h : m.lookup (if ic then E.U.lowerString t.value else t.value) = none) :
    tryExpansion E m q t ic = Go.ret ((false, none), q) := by
  unfold tryExpansion
  simp only [Token.string, h]

theorem tryExpansion_some {E : Env} (hE : E.Lawful) {m : StringMap}
    {q : Queue Token} {t : Token} {ic : Bool} {x : Bytes} (hs : (E.scan { data := x }).2 = none)
    (h : m.lookup (if ic then E.U.lowerString t.value else t.value) = some x) :
    tryExpansion E m q t ic = Go.ret ((true, none), q.push (stringTokens E x)) := by
  unfold tryExpansion
  simp only [Token.string, h]
  rw [toSlice_yields (stringTokens_yields hE hs)]
  simp

theorem tryExpansion_fail {E : Env} {m : StringMap} {q : Queue Token} {t : Token} {ic : Bool}
    {x : Bytes} {out : List Token} {e : Err} (hs : (tokenizeString E x).Yields out (.fail e))
    (h : m.lookup (if ic then E.U.lowerString t.value else t.value) = some x) :
    tryExpansion E m q t ic = Go.ret ((true, some e), q) := by
  unfold tryExpansion
  simp only [Token.string, h]
  rw [toSlice_yields hs]
  simp [End.err]

theorem stringTokens_ne_nil {E : Env} (hE : E.Lawful) {s : Bytes}
    (hs : (E.scan { data := s }).2 = none) (h : s ≠ []) : stringTokens E s ≠ [] := by
  intro h'
  have := text_stringTokens hE hs
  rw [h'] at this
  exact h this.symm

/-- One token in, its expansion queued, the first token of it out. -/
theorem conNext_good {E : Env} (hE : E.Lawful) {m : StringMap}
    {call : NextFn σ} {s s' : TS σ} {t : Token}
    (hm : ∀ x, expansion? E.U m t = some x → (E.scan { data := x }).2 = none ∧ x ≠ [])
    (h : TS.next call s = Go.ret ({ tok := some t, err := none }, s')) :
    ∃ a q, expandToken E m t = a :: q ∧
      conNext E m call { incoming := s, outgoing := [] } =
        Go.ret ({ tok := some a, err := none }, { incoming := s', outgoing := q }) := by
  have hne : ∀ x, expansion? E.U m t = some x → ∃ a q, stringTokens E x = a :: q := fun x hx =>
    List.exists_cons_of_ne_nil (stringTokens_ne_nil hE (hm x hx).1 (hm x hx).2)
  unfold expansion? at hm hne
  unfold expandToken expansion?
  cases h1 : m.lookup t.value with
  | some x =>
    simp only [h1, Option.some.injEq, forall_eq'] at hm hne
    obtain ⟨a, q, ha⟩ := hne
    refine ⟨a, q, ha, ?_⟩
    unfold conNext
    simp [h, tryExpansion_some hE (ic := false) hm.1 h1, conFinish, ha]
  | none =>
    cases h2 : m.lookup (E.U.lowerString t.value) with
    | some x =>
      simp only [h1, h2, Option.some.injEq, forall_eq'] at hm hne
      obtain ⟨a, q, ha⟩ := hne
      refine ⟨a, q, ha, ?_⟩
      unfold conNext
      simp [h, tryExpansion_none (ic := false) h1, tryExpansion_some hE (ic := true) hm.1 h2,
        conFinish, ha]
    | none =>
      refine ⟨t, [], rfl, ?_⟩
      unfold conNext
      simp [h, tryExpansion_none (ic := false) h1, tryExpansion_none (ic := true) h2, conFinish]

theorem GoodTable.expansion {E : Env} {m : StringMap} (hm : GoodTable E m) (t : Token) :
    ∀ x, expansion? E.U m t = some x → (E.scan { data := x }).2 = none ∧ x ≠ [] := by
  intro x hx
  unfold expansion? at hx
  split at hx
  · cases hx
    rename_i h
    exact ⟨hm.scans _ _ (lookup_mem h), hm.nonempty _ _ (lookup_mem h)⟩
  · exact ⟨hm.scans _ _ (lookup_mem hx), hm.nonempty _ _ (lookup_mem hx)⟩

theorem conNext_token {E : Env} (hE : E.Lawful) {m : StringMap} (hm : GoodTable E m)
    {call : NextFn σ} {s s' : TS σ} {t : Token}
    (h : TS.next call s = Go.ret ({ tok := some t, err := none }, s')) :
    ∃ a q, expandToken E m t = a :: q ∧
      conNext E m call { incoming := s, outgoing := [] } =
        Go.ret ({ tok := some a, err := none }, { incoming := s', outgoing := q }) :=
  conNext_good hE (hm.expansion t) h

/-- An expansion that does not scan. -/
theorem conNext_fail {E : Env} {m : StringMap} {call : NextFn σ} {s s' : TS σ} {t : Token} {x : Bytes}
    {out : List Token} {e : Err} (hx : expansion? E.U m t = some x)
    (hs : (tokenizeString E x).Yields out (.fail e))
    (h : TS.next call s = Go.ret ({ tok := some t, err := none }, s')) :
    conNext E m call { incoming := s, outgoing := [] } =
      Go.ret ({ tok := none, err := some e }, { incoming := s', outgoing := [] }) := by
  unfold expansion? at hx
  unfold conNext
  split at hx
  · cases hx
    rename_i h1
    simp [h, tryExpansion_fail (ic := false) hs h1]
  · rename_i h1
    simp [h, tryExpansion_none (ic := false) h1, tryExpansion_fail (ic := true) hs hx]

theorem conNext_queue {E : Env} {m : StringMap} {call : NextFn σ} {s : TS σ} (q : List Token) :
    Steps (conNext E m call) { incoming := s, outgoing := q } q { incoming := s, outgoing := [] } := by
  induction q with
  | nil => rfl
  | cons a q ih => exact ⟨_, by simp [conNext], ih⟩

theorem con_steps {E : Env} (hE : E.Lawful) {m : StringMap} {call : NextFn σ}
    {toks : List Token} {s s' : TS σ}
    (hm : ∀ t ∈ toks, ∀ x, expansion? E.U m t = some x → (E.scan { data := x }).2 = none ∧ x ≠ [])
    (h : Steps (TS.next call) s toks s') :
    Steps (conNext E m call) { incoming := s, outgoing := [] } (toks.flatMap (expandToken E m))
      { incoming := s', outgoing := [] } := by
  induction toks generalizing s with
  | nil => cases h; rfl
  | cons t ts ih =>
    obtain ⟨x, h1, h2⟩ := h
    obtain ⟨a, q, ha, hn⟩ := conNext_good hE (hm t (by simp)) h1
    rw [List.flatMap_cons, ha]
    exact ⟨_, hn, (conNext_queue q).append (ih (fun t ht => hm t (by simp [ht])) h2)⟩

theorem con_emits {E : Env} (hE : E.Lawful) {m : StringMap} (hm : GoodTable E m) {call : NextFn σ}
    {toks : List Token} {e : End} {s : TS σ} (h : Emits (TS.next call) toks e s) :
    Emits (conNext E m call) (toks.flatMap (expandToken E m)) e { incoming := s, outgoing := [] } := by
  have h0 : Emits (TS.next call) (toks ++ []) e s := by simpa using h
  obtain ⟨s', h1, h2⟩ := Emits.split h0
  have := Emits.of_steps (b := []) (e := e) (con_steps hE (fun t _ => hm.expansion t) h1) ?_
  · simpa using this
  · cases e with
    | eof =>
      refine Quiet.map (fun x (t : ConState σ) => t = { incoming := x, outgoing := [] }) ?_ rfl h2
      rintro x t rfl hq
      obtain ⟨x', h1, _⟩ := hq.step
      exact ⟨x', _, h1, by simp [conNext, h1], rfl⟩
    | fail e =>
      obtain ⟨tok, x, h3⟩ := h2
      exact ⟨none, _, by simp [conNext, h3]; rfl⟩

theorem expandWith_yields {E : Env} (hE : E.Lawful) {m : StringMap} (hm : GoodTable E m)
    {ts : TokenStream} {toks : List Token} {e : End} (h : ts.Yields toks e) :
    (expandWith E m ts).Yields (toks.flatMap (expandToken E m)) e := yields_new (con_emits hE hm h)

theorem expandWith_fails {E : Env} (hE : E.Lawful) {m : StringMap} {ts : TokenStream}
    {pre post : List Token} {t : Token} {e : End} {x : Bytes} {out : List Token} {err : Err}
    (hm : ∀ t ∈ pre, ∀ x, expansion? E.U m t = some x → (E.scan { data := x }).2 = none ∧ x ≠ [])
    (hx : expansion? E.U m t = some x) (hs : (tokenizeString E x).Yields out (.fail err))
    (h : ts.Yields (pre ++ t :: post) e) :
    (expandWith E m ts).Yields (pre.flatMap (expandToken E m)) (.fail err) := by
  obtain ⟨s', h1, s'', h2, -⟩ := Emits.split h
  refine yields_new ?_
  have := Emits.of_steps (b := []) (e := .fail err) (con_steps (call := ts.call) hE hm h1)
    ⟨none, _, conNext_fail hx hs h2⟩
  simpa using this

/-! ### sigil -/

theorem boundary_eq (p : Option Token) : boundaryOK p = boundary p := by
  cases p with
  | none => rfl
  | some p =>
    cases h1 : p.punct <;> cases h2 : p.space <;>
      simp [boundaryOK, boundary, Token.isSpace, Token.isPunct, Token.IsWord, h1, h2]

theorem sigil_quiet {U : Unicode} {f : SigilFilter} {call : NextFn σ} {s : TS σ} {p : Option Token}
    (h : Quiet (TS.next call) s) :
    Quiet (sigilNext U f call) { incoming := s, previous := p, outgoing := [] } := by
  refine Quiet.map (fun x (t : SigilState σ) => t = { incoming := x, previous := p, outgoing := [] })
    ?_ rfl h
  rintro x t rfl hq
  obtain ⟨x', h1, _⟩ := hq.step
  exact ⟨x', _, h1, by simp [sigilNext, h1], rfl⟩

/-- A token that is not a sigil at a boundary is passed on. -/
theorem sigilNext_pass {U : Unicode} {f : SigilFilter} {call : NextFn σ} {s s' : TS σ}
    {p : Option Token} {c : Token}
    (h : TS.next call s = Go.ret ({ tok := some c, err := none }, s'))
    (hc : (boundary p && decide (c.value = f.sigil)) = false) :
    sigilNext U f call { incoming := s, previous := p, outgoing := [] } =
      Go.ret ({ tok := some c, err := none },
        { incoming := s', previous := some c, outgoing := [] }) := by
  simp only [sigilNext, Queue.any_nil, h, Go.ret_bind, boundary_eq]
  cases hb : boundary p
  · simp
  · have hv : c.value ≠ f.sigil := by simpa [hb] using hc
    simp [sigilTry, Token.string, hv]

/-- A sigil at a boundary with a token after it. -/
theorem sigilNext_two {U : Unicode} {f : SigilFilter} (hf : f.sigil ≠ []) {call : NextFn σ}
    {s s' s'' : TS σ} {p : Option Token} {c l : Token}
    (h : TS.next call s = Go.ret ({ tok := some c, err := none }, s'))
    (h' : TS.next call s' = Go.ret ({ tok := some l, err := none }, s''))
    (hb : boundary p = true) (hc : c.value = f.sigil) :
    sigilNext U f call { incoming := s, previous := p, outgoing := [] } =
      if f.legal l.value then
        Go.ret ({ tok := some (mkToken U (f.sigil ++ l.value) true), err := none },
          { incoming := s'', previous := some (mkToken U (f.sigil ++ l.value) true), outgoing := [] })
      else
        Go.ret ({ tok := some c, err := none },
          { incoming := s'', previous := some c, outgoing := [l] }) := by
  have hne : f.sigil ++ l.value ≠ [] := by simp [hf]
  simp only [sigilNext, Queue.any_nil, h, Go.ret_bind, boundary_eq, hb]
  cases hl : f.legal l.value <;>
    simp [sigilTry, Token.string, hc, h', hl, newToken_some hne]

/-- A sigil at a boundary at the end. -/
theorem sigilNext_end {U : Unicode} {f : SigilFilter} {call : NextFn σ}
    {s s' s'' : TS σ} {p : Option Token} {c : Token}
    (h : TS.next call s = Go.ret ({ tok := some c, err := none }, s'))
    (h' : TS.next call s' = Go.ret ({ tok := none, err := none }, s'')) :
    sigilNext U f call { incoming := s, previous := p, outgoing := [] } =
      Go.ret ({ tok := some c, err := none },
        { incoming := if boundary p && c.value = f.sigil then s'' else s',
          previous := some c, outgoing := [] }) := by
  simp only [sigilNext, Queue.any_nil, h, Go.ret_bind, boundary_eq]
  cases hb : boundary p
  · simp
  · by_cases hc : c.value = f.sigil <;> simp [sigilTry, Token.string, hc, h']

theorem sigilNext_fail {U : Unicode} {f : SigilFilter} {call : NextFn σ}
    {s s' s'' : TS σ} {p : Option Token} {c : Token} {tok : Option Token} {e : Err}
    (h : TS.next call s = Go.ret ({ tok := some c, err := none }, s'))
    (h' : TS.next call s' = Go.ret ({ tok := tok, err := some e }, s''))
    (hb : boundary p = true) (hc : c.value = f.sigil) :
    sigilNext U f call { incoming := s, previous := p, outgoing := [] } =
      Go.ret ({ tok := none, err := some e },
        { incoming := s'', previous := p, outgoing := [] }) := by
  simp [sigilNext, Queue.any_nil, h, Go.ret_bind, boundary_eq, hb, sigilTry, Token.string, hc, h']

theorem sigil_emits {U : Unicode} {f : SigilFilter} (hf : f.sigil ≠ []) {call : NextFn σ}
    {e : End} (p : Option Token) (toks : List Token) {s : TS σ} (h : Emits (TS.next call) toks e s) :
    Emits (sigilNext U f call) (sigilActual U f p toks e).1 (sigilActual U f p toks e).2
      { incoming := s, previous := p, outgoing := [] } := by
  fun_induction sigilActual U f p toks e generalizing s with
  | case1 p e =>
    cases e with
    | eof => exact sigil_quiet h
    | fail e =>
      obtain ⟨tok, x, h1⟩ := h
      exact ⟨none, _, by simp [sigilNext, h1]; rfl⟩
  | case2 p c hc =>
    rw [Emits.cons] at h
    obtain ⟨x, h1, h2⟩ := h
    obtain ⟨y, h3, h4⟩ := Quiet.step h2
    refine Emits.cons.2 ⟨_, sigilNext_end h1 h3, ?_⟩
    rw [if_pos (by simpa using hc)]
    exact sigil_quiet h4
  | case3 p c hc err =>
    rw [Emits.cons] at h
    obtain ⟨x, h1, h2⟩ := h
    obtain ⟨tok, y, h3⟩ := h2
    simp only [Bool.and_eq_true, decide_eq_true_eq] at hc
    exact ⟨_, _, sigilNext_fail h1 h3 hc.1 hc.2⟩
  | case4 p c e hc =>
    rw [Emits.cons] at h
    obtain ⟨x, h1, h2⟩ := h
    refine Emits.cons.2 ⟨_, sigilNext_pass h1 (by simpa using hc), ?_⟩
    cases e with
    | eof => exact sigil_quiet h2
    | fail e =>
      obtain ⟨tok, x, h3⟩ := h2
      exact ⟨none, _, by simp [sigilNext, h3]; rfl⟩
  | case5 p c l rest e hc hl ih =>
    rw [Emits.cons] at h
    obtain ⟨x, h1, h2⟩ := h
    rw [Emits.cons] at h2
    obtain ⟨y, h3, h4⟩ := h2
    simp only [Bool.and_eq_true, decide_eq_true_eq] at hc
    have := sigilNext_two hf (U := U) h1 h3 hc.1 hc.2
    rw [if_pos hl] at this
    exact Emits.cons.2 ⟨_, this, ih h4⟩
  | case6 p c l rest e hc hl ih =>
    rw [Emits.cons] at h
    obtain ⟨x, h1, h2⟩ := h
    rw [Emits.cons] at h2
    obtain ⟨y, h3, h4⟩ := h2
    simp only [Bool.and_eq_true, decide_eq_true_eq] at hc
    have := sigilNext_two hf (U := U) h1 h3 hc.1 hc.2
    rw [if_neg hl] at this
    refine Emits.cons.2 ⟨_, this, Emits.cons.2 ⟨_, ?_, ih h4⟩⟩
    simp [sigilNext]
  | case7 p c l rest e hc ih =>
    rw [Emits.cons] at h
    obtain ⟨x, h1, h2⟩ := h
    exact Emits.cons.2 ⟨_, sigilNext_pass h1 (by simpa using hc), ih h2⟩

theorem sigil_yields {U : Unicode} {f : SigilFilter} (hf : f.sigil ≠ []) {ts : TokenStream}
    {toks : List Token} {e : End} (h : ts.Yields toks e) :
    (sigil U f ts).Yields (sigilActual U f none toks e).1 (sigilActual U f none toks e).2 :=
  yields_new (sigil_emits hf none toks h)

/-! ### HTML -/

/-- `parent` is script or style. -/
def Atom.raw (a : Atom) : Bool := a == .script || a == .style

theorem html_drain {E : Env} {segs : List Bytes} {e : Option Err} (hs : ∀ s ∈ segs, s ≠ [])
    {hst : HState} {tt : TS TokState} (htt : tt.inner = (segs, e))
    {toks : List Token} {en : End}
    (hnone : e = none → Emits (htmlNext E) toks en { hst with ttokens := none })
    (hsome : ∀ err, e = some err → toks = [] ∧ en = .fail err) :
    Emits (htmlNext E) (segTokens E.U segs ++ toks) en { hst with ttokens := some tt } := by
  induction segs generalizing tt with
  | nil =>
    cases e with
    | none =>
      refine Emits.congr ?_ (hnone rfl)
      simp [htmlNext, TS.next, htt, tokenizerNext]
    | some err =>
      obtain ⟨rfl, rfl⟩ := hsome err rfl
      exact ⟨none, _, by simp [htmlNext, TS.next, htt, tokenizerNext]; rfl⟩
  | cons s segs ih =>
    refine Emits.cons.2 ⟨{ hst with ttokens := some ⟨(segs, e), newToken E.U s false, none⟩ }, ?_,
      ih (fun x hx => hs x (by simp [hx])) rfl⟩
    simp [htmlNext, TS.next, htt, tokenizerNext, newToken_some (hs s (by simp))]

theorem html_emits {E : Env} (hE : E.Lawful) (events : List HTok) (final : Option Err)
    (parent : Atom) (htext : ∀ h ∈ events, h.type = .text → h.data ≠ []) :
    Emits (htmlNext E) (htmlActual E parent.raw events final).1
      (htmlActual E parent.raw events final).2
      { events, final, ttokens := none, parent } := by
  induction events generalizing parent with
  | nil =>
    unfold htmlActual
    cases final with
    | none =>
      refine ⟨fun s => s = { events := [], final := none, ttokens := none, parent }, rfl, ?_⟩
      rintro s rfl
      exact ⟨_, by simp [htmlNext, htmlAdvance], rfl⟩
    | some e => exact ⟨none, _, by simp [htmlNext, htmlAdvance]; rfl⟩
  | cons h hs ih =>
    have ih' := fun p => ih p fun x hx => htext x (by simp [hx])
    unfold htmlActual
    by_cases ht : h.type = .text
    · rw [if_pos ht]
      cases hr : parent.raw
      · have hp : ¬ (parent = .script ∨ parent = .style) := by simpa [Atom.raw] using hr
        have hne : h.string ≠ [] := by
          have hd := htext h (by simp) ht
          obtain ⟨b, t, hbt⟩ := List.exists_cons_of_ne_nil hd
          simp only [HTok.string, ht, hbt, htmlEscape, List.flatMap_cons, ne_eq, List.append_eq_nil_iff,
            not_and]
          intro h0
          exfalso
          revert h0
          unfold htmlEscapeByte
          repeat' split
          all_goals first | (intro h0; exact absurd h0 (by decide +kernel)) | simp
        simp only [Bool.false_eq_true, ↓reduceIte]
        have hfirst : htmlNext E { events := h :: hs, final, ttokens := none, parent } =
            htmlNext E { events := hs, final, ttokens := some (tokenizeString E h.string).st, parent } := by
          have hs0 : (tokenizeString E h.string).st.inner = E.scan { data := h.string } := rfl
          cases hsc : E.scan { data := h.string } with
          | mk segs e =>
            cases segs with
            | cons s segs =>
              have hsne : s ≠ [] := hE.nonempty { data := h.string } s (by rw [hsc]; simp)
              simp [htmlNext, htmlAdvance, ht, hp, TS.next, hs0, hsc, tokenizerNext,
                newToken_some hsne]
            | nil =>
              cases e with
              | some e =>
                simp [htmlNext, htmlAdvance, ht, hp, TS.next, hs0, hsc, tokenizerNext]
              | none =>
                have := (hE.complete { data := h.string } (by rw [hsc])).2
                rw [hsc] at this
                exact absurd this.symm hne
        cases hsc : E.scan { data := h.string } with
        | mk segs e =>
          have hsne : ∀ s ∈ segs, s ≠ [] := by
            have := hE.nonempty { data := h.string }
            rw [hsc] at this
            exact this
          have hinner : (tokenizeString E h.string).st.inner = (segs, e) := hsc
          cases e with
          | none =>
            refine Emits.congr hfirst ?_
            have h2 := ih' parent
            rw [hr] at h2
            exact html_drain (hst := { events := hs, final, ttokens := none, parent }) hsne hinner
              (fun _ => h2) (by simp)
          | some err =>
            refine Emits.congr hfirst ?_
            have := html_drain (E := E) (hst := { events := hs, final, ttokens := none, parent })
              (toks := []) (en := .fail err) hsne hinner (by simp) (by simp)
            simpa using this
      · have hp : parent = .script ∨ parent = .style := by simpa [Atom.raw] using hr
        refine Emits.cons.2 ⟨{ events := hs, final, ttokens := none, parent }, ?_, ?_⟩
        · simp [htmlNext, htmlAdvance, ht, hp]
        · have h2 := ih' parent
          rw [hr] at h2
          exact h2
    · rw [if_neg ht]
      by_cases ho : h.opensRaw = true
      · have ho' : h.type = .startTag ∧ (h.dataAtom = .script ∨ h.dataAtom = .style) := by
          simpa [HTok.opensRaw] using ho
        refine Emits.cons.2 ⟨{ events := hs, final, ttokens := none, parent := h.dataAtom }, ?_, ?_⟩
        · simp [htmlNext, htmlAdvance, ho'.1, ho'.2]
        · have h2 := ih' h.dataAtom
          have hr : h.dataAtom.raw = (parent.raw || h.opensRaw) := by
            rw [ho]; simp [Atom.raw]; exact ho'.2
          rw [hr] at h2
          exact h2
      · refine Emits.cons.2 ⟨{ events := hs, final, ttokens := none, parent }, ?_, ?_⟩
        · cases hty : h.type with
          | text => exact absurd hty ht
          | startTag =>
            have hno : ¬ (h.dataAtom = .script ∨ h.dataAtom = .style) := by
              simpa [HTok.opensRaw, hty] using ho
            simp [htmlNext, htmlAdvance, hty, hno]
          | endTag => simp [htmlNext, htmlAdvance, hty]
          | selfClosing => simp [htmlNext, htmlAdvance, hty]
          | comment => simp [htmlNext, htmlAdvance, hty]
          | doctype => simp [htmlNext, htmlAdvance, hty]
        · have h2 := ih' parent
          have : (parent.raw || h.opensRaw) = parent.raw := by simp [ho]
          rw [this]
          exact h2

end Jargon
