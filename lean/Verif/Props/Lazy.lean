import Verif.Spec.Lazy
import Verif.Props.Synonyms
import Verif.Props.Pipeline

/-! C40: how much of the incoming stream a filter reads. -/

namespace Jargon
variable {σ : Type}

/-! ### Counting -/

theorem counting_next {call : NextFn σ} {s s' : TS (σ × Nat)} {r : Res}
    (h : TS.next (counting call) s = Go.ret (r, s')) : s'.reads = s.reads + 1 := by
  simp only [TS.next, counting] at h
  rcases Go.cases (call s.inner.1) with ⟨x, hx⟩ | ⟨p, hx⟩ | hx
  · rw [hx] at h
    simp only [Go.ret_bind, Go.pure_eq, Go.ret_inj, Prod.mk.injEq] at h
    rw [← h.2]; rfl
  · rw [hx] at h; simp at h
  · rw [hx] at h; simp at h

/-- Counting changes nothing else. -/
theorem counted_yields {ts : TokenStream} {toks : List Token} {e : End} (h : ts.Yields toks e) :
    ts.counted.Yields toks e := by
  suffices H : ∀ (toks : List Token) (s : TS ts.σ) (n : Nat), Emits ts.nextFn toks e s →
      Emits ts.counted.nextFn toks e ⟨(s.inner, n), s.token, s.err⟩ from H toks ts.st 0 h
  have step : ∀ (s s' : TS ts.σ) (n : Nat) (r : Res), ts.nextFn s = Go.ret (r, s') →
      ts.counted.nextFn ⟨(s.inner, n), s.token, s.err⟩ =
        Go.ret (r, ⟨(s'.inner, n + 1), s'.token, s'.err⟩) := by
    intro s s' n r h
    simp only [TokenStream.nextFn, TS.next, TokenStream.counted, counting] at h ⊢
    rcases Go.cases (ts.call s.inner) with ⟨x, hx⟩ | ⟨p, hx⟩ | hx
    · rw [hx] at h ⊢
      simp only [Go.ret_bind, Go.pure_eq, Go.ret_inj, Prod.mk.injEq] at h ⊢
      obtain ⟨h1, h2⟩ := h
      subst h2
      exact ⟨h1, rfl⟩
    · rw [hx] at h; simp at h
    · rw [hx] at h; simp at h
  intro toks
  induction toks with
  | nil =>
    intro s n h
    cases e with
    | eof =>
      obtain ⟨P, hP, hq⟩ := h
      refine ⟨fun x => ∃ s n, P s ∧ x = ⟨(s.inner, n), s.token, s.err⟩, ⟨s, n, hP, rfl⟩, ?_⟩
      rintro x ⟨s, n, hs, rfl⟩
      obtain ⟨s', h1, h2⟩ := hq s hs
      exact ⟨_, step _ _ _ _ h1, s', n + 1, h2, rfl⟩
    | fail e =>
      obtain ⟨tok, s', h1⟩ := h
      exact ⟨tok, _, step _ _ _ _ h1⟩
  | cons t ts ih =>
    intro s n h
    rw [Emits.cons] at h
    obtain ⟨s', h1, h2⟩ := h
    exact Emits.cons.2 ⟨_, step _ _ _ _ h1, ih _ _ h2⟩

/-! ### How many tokens one `Next` reads -/

/-- **C40 (mapper filters: stemmers, norm, ASCII folding).** Each `Next` makes exactly one call of the
incoming stream's `Next`, whatever that stream is. -/
theorem C40_mapper_reads_one {call : NextFn σ} {funcs : List TokenFunc} {s s' : TS (σ × Nat)} {r : Res}
    (h : mapperNext (counting call) funcs s = Go.ret (r, s')) : s'.reads = s.reads + 1 := by
  unfold mapperNext at h
  obtain ⟨⟨r1, s1⟩, h1, h2⟩ := Go.bind_eq_ret.mp h
  have := counting_next h1
  simp only at h2
  split at h2
  · simp only [Go.pure_eq, Go.ret_inj, Prod.mk.injEq] at h2
    rw [← h2.2]; exact this
  · split at h2
    · simp only [Go.pure_eq, Go.ret_inj, Prod.mk.injEq] at h2
      rw [← h2.2]; exact this
    · obtain ⟨t, -, h3⟩ := Go.bind_eq_ret.mp h2
      simp only [Go.pure_eq, Go.ret_inj, Prod.mk.injEq] at h3
      rw [← h3.2]; exact this

theorem conFinish_incoming {s : TS σ} {q : Queue Token} {t : Token} {r : Res} {s' : ConState σ}
    (h : conFinish s q t = Go.ret (r, s')) : s'.incoming = s := by
  unfold conFinish at h
  split at h
  · obtain ⟨⟨t, q⟩, -, h3⟩ := Go.bind_eq_ret.mp h
    simp only [Go.pure_eq, Go.ret_inj, Prod.mk.injEq] at h3
    rw [← h3.2]
  · simp only [Go.ret_inj, Prod.mk.injEq] at h
    rw [← h.2]

/-- **C40 (contractions).** Each `Next` reads one token, and none while tokens are queued. -/
theorem C40_contractions_reads_one {E : Env} {m : StringMap} {call : NextFn σ}
    {s s' : ConState (σ × Nat)} {r : Res} (h : conNext E m (counting call) s = Go.ret (r, s')) :
    s'.incoming.reads = s.incoming.reads + (if s.outgoing = [] then 1 else 0) := by
  unfold conNext at h
  rcases hq : s.outgoing with _ | ⟨a, q⟩
  · rw [hq] at h
    simp only [Queue.any_nil, Bool.false_eq_true, ↓reduceIte] at h ⊢
    obtain ⟨⟨r1, s1⟩, h1, h2⟩ := Go.bind_eq_ret.mp h
    have := counting_next h1
    rw [← this]
    simp only at h2
    split at h2
    · simp only [Go.pure_eq, Go.ret_inj, Prod.mk.injEq] at h2
      rw [← h2.2]
    · split at h2
      · simp only [Go.pure_eq, Go.ret_inj, Prod.mk.injEq] at h2
        rw [← h2.2]
      · obtain ⟨⟨⟨found, err⟩, q1⟩, -, h3⟩ := Go.bind_eq_ret.mp h2
        simp only at h3
        split at h3
        · simp only [Go.pure_eq, Go.ret_inj, Prod.mk.injEq] at h3
          rw [← h3.2]
        · split at h3
          · rw [conFinish_incoming h3]
          · obtain ⟨⟨⟨found, err⟩, q2⟩, -, h4⟩ := Go.bind_eq_ret.mp h3
            simp only at h4
            split at h4
            · simp only [Go.pure_eq, Go.ret_inj, Prod.mk.injEq] at h4
              rw [← h4.2]
            · rw [conFinish_incoming h4]
  · rw [hq] at h
    simp only [Queue.any_cons, ↓reduceIte, Queue.pop_cons, Go.ret_bind, Go.pure_eq, Go.ret_inj,
      Prod.mk.injEq] at h
    rw [← h.2]
    simp

theorem sigilTry_reads {U : Unicode} {f : SigilFilter} {call : NextFn σ}
    {s s' : SigilState (σ × Nat)} {c : Token} {x : Bool × Option Token × Option Err}
    (h : sigilTry U f (counting call) s c = Go.ret (x, s')) :
    s'.incoming.reads = s.incoming.reads + (if c.value = f.sigil then 1 else 0) := by
  unfold sigilTry at h
  split at h
  · rename_i hc
    simp only [Go.ret_inj, Prod.mk.injEq] at h
    rw [← h.2]
    have : ¬ c.value = f.sigil := hc
    simp [this]
  · rename_i hc
    have : c.value = f.sigil := Classical.not_not.mp hc
    simp only [this, ↓reduceIte]
    obtain ⟨⟨r1, s1⟩, h1, h2⟩ := Go.bind_eq_ret.mp h
    rw [← counting_next h1]
    simp only at h2
    split at h2
    · simp only [Go.pure_eq, Go.ret_inj, Prod.mk.injEq] at h2
      rw [← h2.2]
    · split at h2
      · simp only [Go.pure_eq, Go.ret_inj, Prod.mk.injEq] at h2
        rw [← h2.2]
      · split at h2
        · simp only [Go.pure_eq, Go.ret_inj, Prod.mk.injEq] at h2
          rw [← h2.2]
        · simp only [Go.pure_eq, Go.ret_inj, Prod.mk.injEq] at h2
          rw [← h2.2]

/-- **C40 (sigils: handles, hashtags).** Each `Next` reads at most two tokens: one, and one of
look-ahead. It keeps at most one. -/
theorem C40_sigil_reads_two {U : Unicode} {f : SigilFilter} {call : NextFn σ}
    {s s' : SigilState (σ × Nat)} {r : Res} (h : sigilNext U f (counting call) s = Go.ret (r, s')) :
    s'.incoming.reads ≤ s.incoming.reads + 2 := by
  unfold sigilNext at h
  split at h
  · obtain ⟨⟨t, q⟩, -, h3⟩ := Go.bind_eq_ret.mp h
    simp only [Go.pure_eq, Go.ret_inj, Prod.mk.injEq] at h3
    rw [← h3.2]
    simp
  · obtain ⟨⟨r1, s1⟩, h1, h2⟩ := Go.bind_eq_ret.mp h
    have hr := counting_next h1
    simp only at h2
    split at h2
    · simp only [Go.pure_eq, Go.ret_inj, Prod.mk.injEq] at h2
      rw [← h2.2]; simp only; omega
    · split at h2
      · simp only [Go.pure_eq, Go.ret_inj, Prod.mk.injEq] at h2
        rw [← h2.2]; simp only; omega
      · split at h2
        · simp only [Go.pure_eq, Go.ret_inj, Prod.mk.injEq] at h2
          rw [← h2.2]; simp only; omega
        · obtain ⟨⟨⟨b, hd, er⟩, s2⟩, h3, h4⟩ := Go.bind_eq_ret.mp h2
          have hr2 := sigilTry_reads h3
          have hle : s2.incoming.reads ≤ s.incoming.reads + 2 := by
            rw [hr2]
            simp only
            split <;> omega
          simp only at h4
          split at h4
          · simp only [Go.pure_eq, Go.ret_inj, Prod.mk.injEq] at h4
            rw [← h4.2]; exact hle
          · split at h4
            · split at h4
              · simp only [Go.pure_eq, Go.ret_inj, Prod.mk.injEq] at h4
                rw [← h4.2]; exact hle
              · simp only [Go.pure_eq, Go.ret_inj, Prod.mk.injEq] at h4
                rw [← h4.2]; exact hle
            · simp only [Go.pure_eq, Go.ret_inj, Prod.mk.injEq] at h4
              rw [← h4.2]; exact hle

/-- Every partial-correctness predicate can be proved by fixpoint induction. -/
theorem go_admissible {α : Type} (P : Go α → Prop) (h : P Go.diverge) : Lean.Order.admissible P :=
  Lean.Order.admissible_flatOrder (b := (none : Option (Except Panic α))) P h

/-- **C40 (Where, Words, Lemmas, Distinct).** If `Next` delivers a token, it has read the incoming
stream up to that token and not further, and the predicate refused all tokens before. -/
theorem C40_where_reads {ρ : Type} {call : NextFn σ} {pred : ρ → Token → Bool × ρ} :
    ∀ {s s' : TS σ} {p p' : ρ} {t : Token},
    whereNext call pred (s, p) = Go.ret ({ tok := some t, err := none }, (s', p')) →
    ∃ skipped, Steps (TS.next call) s (skipped ++ [t]) s' ∧
      (∀ x ∈ skipped, ∃ q, (pred q x).1 = false) ∧ ∃ q, (pred q t).1 = true := by
  suffices H : ∀ x : TS σ × ρ, ∀ s' p' t,
      whereNext call pred x = Go.ret ({ tok := some t, err := none }, (s', p')) →
      ∃ skipped, Steps (TS.next call) x.1 (skipped ++ [t]) s' ∧
        (∀ x ∈ skipped, ∃ q, (pred q x).1 = false) ∧ ∃ q, (pred q t).1 = true by
    intro s s' p p' t h; exact H _ _ _ _ h
  refine whereNext.fixpoint_induct call pred (fun f => ∀ x : TS σ × ρ, ∀ s' p' t,
      f x = Go.ret ({ tok := some t, err := none }, (s', p')) →
      ∃ skipped, Steps (TS.next call) x.1 (skipped ++ [t]) s' ∧
        (∀ x ∈ skipped, ∃ q, (pred q x).1 = false) ∧ ∃ q, (pred q t).1 = true) ?_ ?_
  · refine Lean.Order.admissible_pi_apply (P := fun (x : TS σ × ρ) (y : Go (Res × (TS σ × ρ))) => ∀ s' p' t,
      y = Go.ret ({ tok := some t, err := none }, (s', p')) →
      ∃ skipped, Steps (TS.next call) x.1 (skipped ++ [t]) s' ∧
        (∀ x ∈ skipped, ∃ q, (pred q x).1 = false) ∧ ∃ q, (pred q t).1 = true) fun x => ?_
    exact go_admissible _ (fun s' p' t h => by simp at h)
  · intro f ih x s' p' t h
    obtain ⟨⟨r1, s1⟩, h1, h2⟩ := Go.bind_eq_ret.mp h
    obtain ⟨tok, err⟩ := r1
    simp only at h2
    cases err with
    | some e =>
      simp only [Option.isSome_some, ↓reduceIte, Go.pure_eq, Go.ret_inj, Prod.mk.injEq,
        Res.mk.injEq, reduceCtorEq, false_and] at h2
    | none =>
      simp only [Option.isSome_none, Bool.false_eq_true, ↓reduceIte] at h2
      cases tok with
      | none =>
        simp only [Go.pure_eq, Go.ret_inj, Prod.mk.injEq, Res.mk.injEq, reduceCtorEq, false_and] at h2
      | some u =>
        simp only at h2
        cases hb : (pred x.2 u).1 with
        | true =>
          rw [if_pos hb] at h2
          simp only [Go.pure_eq, Go.ret_inj, Prod.mk.injEq, Res.mk.injEq, Option.some.injEq,
            and_true] at h2
          obtain ⟨rfl, rfl, rfl⟩ := h2
          exact ⟨[], ⟨_, h1, rfl⟩, by simp, _, hb⟩
        | false =>
          rw [if_neg (by simp [hb])] at h2
          obtain ⟨sk, h3, h4, h5⟩ := ih _ _ _ _ h2
          refine ⟨u :: sk, ⟨_, h1, h3⟩, ?_, h5⟩
          intro y hy
          rcases List.mem_cons.mp hy with rfl | hy
          · exact ⟨_, hb⟩
          · exact h4 y hy

/-- The same for stop words. -/
theorem C40_stopwords_reads {U : Unicode} {call : NextFn σ} {ws : List Bytes} {ic : Bool} :
    ∀ {s s' : TS σ} {t : Token},
    stopNext U call (stopIncludes U ws ic) ic s = Go.ret ({ tok := some t, err := none }, s') →
    ∃ skipped, Steps (TS.next call) s (skipped ++ [t]) s' ∧
      (∀ x ∈ skipped, isStop U ws ic x = true) ∧ isStop U ws ic t = false := by
  suffices H : ∀ s s' t,
      stopNext U call (stopIncludes U ws ic) ic s = Go.ret ({ tok := some t, err := none }, s') →
      ∃ skipped, Steps (TS.next call) s (skipped ++ [t]) s' ∧
      (∀ x ∈ skipped, isStop U ws ic x = true) ∧ isStop U ws ic t = false by
    intro s s' t h; exact H _ _ _ h
  refine stopNext.fixpoint_induct U call (stopIncludes U ws ic) ic (fun f => ∀ s s' t,
      f s = Go.ret ({ tok := some t, err := none }, s') →
      ∃ skipped, Steps (TS.next call) s (skipped ++ [t]) s' ∧
      (∀ x ∈ skipped, isStop U ws ic x = true) ∧ isStop U ws ic t = false) ?_ ?_
  · refine Lean.Order.admissible_pi_apply (P := fun s (y : Go (Res × TS σ)) => ∀ s' t,
      y = Go.ret ({ tok := some t, err := none }, s') →
      ∃ skipped, Steps (TS.next call) s (skipped ++ [t]) s' ∧
      (∀ x ∈ skipped, isStop U ws ic x = true) ∧ isStop U ws ic t = false) fun x => ?_
    exact go_admissible _ (fun s' t h => by simp at h)
  · intro f ih x s' t h
    obtain ⟨⟨r1, s1⟩, h1, h2⟩ := Go.bind_eq_ret.mp h
    obtain ⟨tok, err⟩ := r1
    simp only at h2
    cases err with
    | some e =>
      simp only [Option.isSome_some, ↓reduceIte, Go.pure_eq, Go.ret_inj, Prod.mk.injEq,
        Res.mk.injEq, reduceCtorEq, false_and] at h2
    | none =>
      simp only [Option.isSome_none, Bool.false_eq_true, ↓reduceIte] at h2
      cases tok with
      | none =>
        simp only [Go.pure_eq, Go.ret_inj, Prod.mk.injEq, Res.mk.injEq, reduceCtorEq, false_and] at h2
      | some u =>
        simp only [stop_key] at h2
        cases hb : isStop U ws ic u with
        | false =>
          rw [hb, if_neg (by simp)] at h2
          simp only [Go.pure_eq, Go.ret_inj, Prod.mk.injEq, Res.mk.injEq, Option.some.injEq,
            and_true] at h2
          obtain ⟨rfl, rfl⟩ := h2
          exact ⟨[], ⟨_, h1, rfl⟩, by simp, hb⟩
        | true =>
          rw [hb, if_pos rfl] at h2
          obtain ⟨sk, h3, h4, h5⟩ := ih _ _ _ h2
          refine ⟨u :: sk, ⟨_, h1, h3⟩, ?_, h5⟩
          intro y hy
          rcases List.mem_cons.mp hy with rfl | hy
          · exact hb
          · exact h4 y hy

/-! ### Endless streams -/

/-- **C40 (mapper filters).** An endless stream stays endless. -/
theorem C40_mapper_endless {ts : TokenStream} (h : Endless ts.nextFn ts.st) {funcs : List TokenFunc}
    (hf : ∀ t, ∃ t', applyFuncs funcs (some t) = Go.ret (some t')) :
    Endless (mapper funcs ts).nextFn (mapper funcs ts).st := by
  obtain ⟨P, h0, hP⟩ := h
  refine ⟨fun s => P s.inner, h0, ?_⟩
  intro s hs
  obtain ⟨t, s1, h1, h2⟩ := hP _ hs
  obtain ⟨t', ht⟩ := hf t
  refine ⟨t', ⟨s1, some t', none⟩, ?_, h2⟩
  have h1' : TS.next ts.call s.inner = Go.ret ({ tok := some t, err := none }, s1) := h1
  have : mapperNext ts.call funcs s.inner = Go.ret ({ tok := some t', err := none }, s1) := by
    simp [mapperNext, h1', ht]
  show TS.next (mapperNext ts.call funcs) s = _
  simp only [TS.next, this, Go.ret_bind, Go.pure_eq]
  rfl

/-- **C40 (contractions).** An endless stream stays endless. -/
theorem C40_contractions_endless {E : Env} (hE : E.Lawful) {m : StringMap} (hm : GoodTable E m)
    {ts : TokenStream} (h : Endless ts.nextFn ts.st) :
    Endless (expandWith E m ts).nextFn (expandWith E m ts).st := by
  obtain ⟨P, h0, hP⟩ := h
  refine ⟨fun s => P s.inner.incoming, h0, ?_⟩
  intro s hs
  suffices H : ∃ t s', conNext E m ts.call s.inner = Go.ret ({ tok := some t, err := none }, s') ∧
      P s'.incoming by
    obtain ⟨t, s', h1, h2⟩ := H
    refine ⟨t, ⟨s', some t, none⟩, ?_, h2⟩
    show TS.next (conNext E m ts.call) s = _
    simp only [TS.next, h1, Go.ret_bind, Go.pure_eq]
    rfl
  obtain ⟨⟨inc, out⟩, tk, er⟩ := s
  cases out with
  | cons a q => exact ⟨a, ⟨inc, q⟩, by simp [conNext], hs⟩
  | nil =>
    obtain ⟨t, s1, h1, h2⟩ := hP _ hs
    obtain ⟨a, q, -, h3⟩ := conNext_token hE hm (show TS.next ts.call inc = _ from h1)
    exact ⟨a, _, h3, h2⟩

/-- **C40 (sigils).** An endless stream stays endless. -/
theorem C40_sigil_endless {U : Unicode} {f : SigilFilter} (hf : f.sigil ≠ []) {ts : TokenStream}
    (h : Endless ts.nextFn ts.st) : Endless (sigil U f ts).nextFn (sigil U f ts).st := by
  obtain ⟨P, h0, hP⟩ := h
  refine ⟨fun s => P s.inner.incoming, h0, ?_⟩
  intro s hs
  suffices H : ∃ t s', sigilNext U f ts.call s.inner = Go.ret ({ tok := some t, err := none }, s') ∧
      P s'.incoming by
    obtain ⟨t, s', h1, h2⟩ := H
    refine ⟨t, ⟨s', some t, none⟩, ?_, h2⟩
    show TS.next (sigilNext U f ts.call) s = _
    simp only [TS.next, h1, Go.ret_bind, Go.pure_eq]
    rfl
  obtain ⟨⟨inc, p, out⟩, tk, er⟩ := s
  cases out with
  | cons a q => exact ⟨a, ⟨inc, p, q⟩, by simp [sigilNext], hs⟩
  | nil =>
    obtain ⟨c, s1, h1, h2⟩ := hP _ hs
    obtain ⟨l, s2, h3, h4⟩ := hP _ h2
    cases hc : boundary p && decide (c.value = f.sigil) with
    | false => exact ⟨c, _, sigilNext_pass (show TS.next ts.call inc = _ from h1) hc, h2⟩
    | true =>
      simp only [Bool.and_eq_true, decide_eq_true_eq] at hc
      have := sigilNext_two hf (U := U) (show TS.next ts.call inc = _ from h1)
        (show TS.next ts.call s1 = _ from h3) hc.1 hc.2
      cases hl : f.legal l.value with
      | true => rw [hl, if_pos rfl] at this; exact ⟨_, _, this, h4⟩
      | false => rw [hl, if_neg (by simp)] at this; exact ⟨_, _, this, h4⟩

/-! ### Synonyms -/

section
variable {call : NextFn σ} {P : TS σ → Prop}
  (hP : ∀ s, P s → ∃ t s', TS.next call s = Go.ret ({ tok := some t, err := none }, s') ∧ P s')
include hP

theorem fillScan_endless (t : SynState σ) (ht : P t.incoming) (hb : t.buffer = []) :
    fillScan call t = Go.diverge ∨ ∃ t' w, fillScan call t = Go.ret t' ∧ P t'.incoming ∧
      t'.incoming.err = none ∧ t'.buffer = [w] ∧ w.IsWord := by
  revert t
  refine fillScan.fixpoint_induct call (fun f => ∀ t : SynState σ, P t.incoming → t.buffer = [] →
    f t = Go.diverge ∨ ∃ t' w, f t = Go.ret t' ∧ P t'.incoming ∧
      t'.incoming.err = none ∧ t'.buffer = [w] ∧ w.IsWord) ?_ ?_
  · refine Lean.Order.admissible_pi_apply (P := fun (t : SynState σ) (y : Go (SynState σ)) =>
      P t.incoming → t.buffer = [] → y = Go.diverge ∨ ∃ t' w, y = Go.ret t' ∧ P t'.incoming ∧
        t'.incoming.err = none ∧ t'.buffer = [w] ∧ w.IsWord) fun x => ?_
    exact go_admissible _ fun _ _ => .inl rfl
  · intro f ih t ht hb
    obtain ⟨w, s', h1, h2⟩ := hP _ ht
    simp only [TS.scan_of h1, Option.isSome_some, Option.isNone_none, Bool.and_self, Go.ret_bind,
      ↓reduceIte, (TS.next_fields h1).1]
    cases hw : w.isSpace || w.isPunct with
    | true =>
      simp only [↓reduceIte]
      exact ih _ h2 hb
    | false =>
      right
      refine ⟨_, w, rfl, h2, (TS.next_fields h1).2, ?_, isWord_iff.mpr hw⟩
      simp [hb]

theorem fillNext_endless (m wc : Nat) (t : SynState σ) (ht : P t.incoming) :
    fillNext call m wc t = Go.diverge ∨ ∃ t' more, fillNext call m wc t = Go.ret (none, t') ∧
      P t'.incoming ∧ t'.buffer = t.buffer ++ more := by
  revert wc t
  refine fillNext.fixpoint_induct call m (fun f => ∀ wc (t : SynState σ), P t.incoming →
    f wc t = Go.diverge ∨ ∃ t' more, f wc t = Go.ret (none, t') ∧ P t'.incoming ∧
      t'.buffer = t.buffer ++ more) ?_ ?_
  · refine Lean.Order.admissible_pi_apply
      (P := fun (wc : Nat) (g : SynState σ → Go (Option Err × SynState σ)) => ∀ t : SynState σ,
        P t.incoming → g t = Go.diverge ∨ ∃ t' more, g t = Go.ret (none, t') ∧ P t'.incoming ∧
          t'.buffer = t.buffer ++ more) fun wc => ?_
    refine Lean.Order.admissible_pi_apply
      (P := fun (t : SynState σ) (y : Go (Option Err × SynState σ)) =>
        P t.incoming → y = Go.diverge ∨ ∃ t' more, y = Go.ret (none, t') ∧ P t'.incoming ∧
          t'.buffer = t.buffer ++ more) fun t => ?_
    exact go_admissible _ fun _ => .inl rfl
  · intro f ih wc t ht
    obtain ⟨w, s', h1, h2⟩ := hP _ ht
    by_cases hwc : wc < m
    · simp only [hwc, ↓reduceIte, h1, Go.ret_bind, Option.isSome_none, Bool.false_eq_true]
      split
      · exact .inr ⟨_, [w], rfl, h2, rfl⟩
      · have hrec : ∀ wc', f wc' ⟨s', t.buffer.push [w], t.outgoing⟩ = Go.diverge ∨
            ∃ t' more, f wc' ⟨s', t.buffer.push [w], t.outgoing⟩ = Go.ret (none, t') ∧
              P t'.incoming ∧ t'.buffer = t.buffer ++ more := by
          intro wc'
          rcases ih wc' ⟨s', t.buffer.push [w], t.outgoing⟩ h2 with h | ⟨t', more, h3, h4, h5⟩
          · exact .inl h
          · exact .inr ⟨t', w :: more, h3, h4, by rw [h5]; simp [Queue.push]⟩
        split
        · exact hrec _
        · exact hrec _
    · simp only [hwc, ↓reduceIte]
      exact .inr ⟨t, [], rfl, ht, by simp⟩

theorem fill_endless (f : SynFilter) (t : SynState σ) (ht : P t.incoming) :
    fill call f t = Go.diverge ∨ ∃ t' w ts, fill call f t = Go.ret (none, t') ∧ P t'.incoming ∧
      t'.buffer = w :: ts ∧ w.IsWord := by
  obtain ⟨inc, b, q⟩ := t
  obtain ⟨bseps, brest, rfl, hbs, hbr⟩ := separators_split b
  have hdrop : Queue.drop (bseps ++ brest) bseps.length = Go.ret brest := by
    simp [Queue.drop]
  have hstart : fill call f { incoming := inc, buffer := bseps ++ brest, outgoing := q } =
      (if brest.length = 0 then do
        let t ← fillScan call { incoming := inc, buffer := brest, outgoing := q ++ bseps.map some }
        if t.incoming.err.isSome then pure (t.incoming.err, t)
        else fillNext call f.maxWords (wordCount t.buffer) t
      else fillNext call f.maxWords (wordCount brest)
        { incoming := inc, buffer := brest, outgoing := q ++ bseps.map some }) := by
    unfold fill
    simp only [fillLeading_eq hbs hbr, Nat.zero_add, hdrop, Go.ret_bind]
    rfl
  rw [hstart]
  rcases hbr with rfl | ⟨w, ts, rfl, hw⟩
  · simp only [List.length_nil, ↓reduceIte]
    rcases fillScan_endless hP ⟨inc, [], q ++ bseps.map some⟩ ht rfl with h | ⟨t', w, h1, h2, h3, h4, h5⟩
    · left; rw [h]; simp
    · rw [h1]
      simp only [Go.ret_bind, h3, Option.isSome_none, Bool.false_eq_true, ↓reduceIte]
      rcases fillNext_endless hP f.maxWords (wordCount t'.buffer) t' h2 with h | ⟨t'', more, h6, h7, h8⟩
      · exact .inl h
      · exact .inr ⟨t'', w, more, h6, h7, by rw [h8, h4]; rfl, h5⟩
  · rw [if_neg (by simp)]
    rcases fillNext_endless hP f.maxWords (wordCount (w :: ts)) ⟨inc, w :: ts, q ++ bseps.map some⟩ ht
      with h | ⟨t'', more, h6, h7, h8⟩
    · exact .inl h
    · exact .inr ⟨t'', w, ts ++ more, h6, h7, by rw [h8]; rfl, hw⟩

theorem synLoop_endless (U : Unicode) (f : SynFilter) (hm : 0 < f.maxWords) (t : SynState σ)
    (ht : P t.incoming) : synLoop U call f t = Go.diverge := by
  revert t
  refine synLoop.fixpoint_induct U call f (fun g => ∀ t : SynState σ, P t.incoming →
    g t = Go.diverge) ?_ ?_
  · refine Lean.Order.admissible_pi_apply
      (P := fun (t : SynState σ) (y : Go (Option Err × SynState σ)) =>
        P t.incoming → y = Go.diverge) fun t => ?_
    exact go_admissible _ fun _ => rfl
  · intro g ih t ht
    show (_ >>= _ : Go _) = _
    rcases fill_endless hP f t ht with h | ⟨t', w, ts, h1, h2, h3, h4⟩
    · rw [h]; simp
    · rw [h1]
      have hw : (w.isSpace || w.isPunct) = false := isWord_iff.mp h4
      obtain ⟨-, e1, e2⟩ := wordrunLoop_spec f.maxWords (w :: ts) 0 0 hm
      have e3 := (e2 1 (by omega)).mpr ⟨by simp, by simpa using h4.1, by simpa [words] using hm⟩
      simp only [Nat.zero_add, Nat.sub_zero] at e1 e3
      have hrun : wordrun f (w :: ts) =
          Go.ret ((w :: ts).take (wordrunLoop f.maxWords (w :: ts) 0 0 0), none) := by
        simp only [wordrun, hw, Bool.false_eq_true, ↓reduceIte, goSlice, Nat.zero_le, true_and, e1,
          Go.ret_bind, Go.pure_eq, List.drop_zero]
      have hlen : ((w :: ts).take (wordrunLoop f.maxWords (w :: ts) 0 0 0)).length =
          wordrunLoop f.maxWords (w :: ts) 0 0 0 := by
        rw [List.length_take]; omega
      simp only [Go.ret_bind, Option.isSome_none, Bool.false_eq_true, ↓reduceIte, h3, Queue.len,
        List.length_cons, Nat.add_eq_zero_iff, Nat.one_ne_zero, and_false, hrun]
      rw [if_neg (by omega)]
      have hspec := search_spec U f.trie ((w :: ts).take (wordrunLoop f.maxWords (w :: ts) 0 0 0))
      cases hf : (f.trie.searchCanonical U
          ((w :: ts).take (wordrunLoop f.maxWords (w :: ts) 0 0 0))).found with
      | true =>
        simp only [SearchSpec, hf, ↓reduceIte] at hspec
        have hc := hspec.mem
        rw [hlen] at hc
        have hdrop : Queue.drop (w :: ts) (f.trie.searchCanonical U
          ((w :: ts).take (wordrunLoop f.maxWords (w :: ts) 0 0 0))).consumed = Go.ret
            ((w :: ts).drop (f.trie.searchCanonical U
          ((w :: ts).take (wordrunLoop f.maxWords (w :: ts) 0 0 0))).consumed) := by
          unfold Queue.drop
          rw [if_pos (by omega)]
        simp only [↓reduceIte, hdrop, Go.ret_bind]
        exact ih _ h2
      | false =>
        simp only [Bool.false_eq_true, ↓reduceIte, Queue.pop_cons, Go.ret_bind]
        exact ih _ h2

end

/-- **C40 fails for synonyms**: on a stream that does not end, the first `Next` of a synonyms filter
never returns, whatever the mappings: it reads the whole stream before it delivers anything. -/
theorem C40_synonyms_never_answers {E : Env} (hE : E.Lawful) (mappings : StringMap) (ic : Bool)
    (ign : List Rune) (hs : ∀ m ∈ mappings, (E.scan { data := m.1 }).2 = none)
    {ts : TokenStream} (h : Endless ts.nextFn ts.st) :
    (synonyms E mappings ic ign ts).nextFn (synonyms E mappings ic ign ts).st = Go.diverge := by
  obtain ⟨P, h0, hP⟩ := h
  have hm : 0 < (builtFilter E mappings ic ign).maxWords := by
    rw [builtFilter_maxWords]; exact wordLimit_pos _
  have hl := synLoop_endless (call := ts.call) hP E.U (builtFilter E mappings ic ign) hm
    ⟨ts.st, [], []⟩ h0
  have : synClosure E.U (build E mappings ic ign) ts.call ⟨ts.st, [], []⟩ = Go.diverge := by
    rw [build_ok hE mappings ic ign hs]
    simp only [synClosure, Go.ret_bind, synNext, Queue.len, List.length_nil, ne_eq,
      not_true_eq_false, ↓reduceIte, Queue.any_nil, Bool.false_eq_true, hl, Go.diverge_bind]
  show TS.next (synClosure E.U (build E mappings ic ign) ts.call) (TS.new ⟨ts.st, [], []⟩) = _
  simp only [TS.next, TS.new, this, Go.diverge_bind]
  rfl

theorem repeat_endless (t : Token) : Endless (repeatStream t).nextFn (repeatStream t).st :=
  ⟨fun _ => True, trivial, fun _ _ => ⟨t, ⟨(), some t, none⟩, rfl, trivial⟩⟩

/-- **C40 (partial).** Behind mapper filters, contractions and sigil filters an endless stream stays endless, so each
`Next` returns. Missing: synonyms, of which it is false (`C40_violated`), and filters that select tokens, which may
find none. -/
theorem C40_partial {E : Env} (hE : E.Lawful) {ts : TokenStream} (h : Endless ts.nextFn ts.st) :
    (∀ funcs : List TokenFunc, (∀ t, ∃ t', applyFuncs funcs (some t) = Go.ret (some t')) →
      Endless (mapper funcs ts).nextFn (mapper funcs ts).st) ∧
    (∀ m : StringMap, GoodTable E m → Endless (expandWith E m ts).nextFn (expandWith E m ts).st) ∧
    ∀ f : SigilFilter, f.sigil ≠ [] → Endless (sigil E.U f ts).nextFn (sigil E.U f ts).st :=
  ⟨fun _ hf => C40_mapper_endless h hf, fun _ hm => C40_contractions_endless hE hm h, fun _ hf => C40_sigil_endless hf h⟩

/-- C40 in full, for synonyms: on an endless stream the filter answers. -/
def C40_full : Prop :=
  ∀ (E : Env), E.Lawful → ∀ (mappings : StringMap) (ic : Bool) (ign : List Rune),
    (∀ m ∈ mappings, (E.scan { data := m.1 }).2 = none) → ∀ ts : TokenStream,
    Endless ts.nextFn ts.st → ∃ r st,
      (synonyms E mappings ic ign ts).nextFn (synonyms E mappings ic ign ts).st = Go.ret (r, st)

theorem C40_violated : ¬ C40_full := by
  intro h
  have he := repeat_endless ⟨str "x", false, false, false⟩
  obtain ⟨r, st, h1⟩ := h sampleEnv sampleEnv_lawful [] false [] (by simp) _ he
  rw [C40_synonyms_never_answers sampleEnv_lawful [] false [] (by simp) he] at h1
  simp at h1

/-- Endless streams exist and the filters above answer on them. -/
example : Endless (handles asciiUnicode (repeatStream ⟨str "@", true, false, false⟩)).nextFn
    (handles asciiUnicode (repeatStream ⟨str "@", true, false, false⟩)).st :=
  C40_sigil_endless (by simp) (repeat_endless _)

/-- What one call reads, on a counted stream. -/
example : ∃ s', sigilNext asciiUnicode { sigil := [0x40], legal := legalHandle }
    (counting (repeatStream ⟨str "@", true, false, false⟩).call)
    { incoming := TS.new ((), 0), previous := none, outgoing := [] } =
      Go.ret ({ tok := some ⟨str "@", true, false, false⟩, err := none }, s') ∧
    s'.incoming.reads = 2 := by
  refine ⟨⟨⟨((), 2), some ⟨str "@", true, false, false⟩, none⟩, some ⟨str "@", true, false, false⟩,
    [⟨str "@", true, false, false⟩]⟩, ?_, rfl⟩
  have h := sigilNext_two (U := asciiUnicode) (f := { sigil := [0x40], legal := legalHandle }) (by simp)
    (call := counting (repeatStream ⟨str "@", true, false, false⟩).call) (s := TS.new ((), 0))
    (p := none) rfl rfl rfl (by decide +kernel)
  rw [h, if_neg (by decide +kernel)]
  rfl

end Jargon
