import Verif.Proofs.GoLemmas
import Verif.Spec.Stream

/-! Lemmas about `Emits`, streams and the loops of tokenstream.go. -/

namespace Jargon

variable {σ : Type}

theorem Quiet.step {next : NextFn σ} {s : σ} (h : Quiet next s) :
    ∃ s', next s = Go.ret ({ tok := none, err := none }, s') ∧ Quiet next s' := by
  obtain ⟨P, hs, hP⟩ := h
  obtain ⟨s', h1, h2⟩ := hP s hs
  exact ⟨s', h1, P, h2, hP⟩

theorem Quiet.of_step {next : NextFn σ} {s s' : σ}
    (h : next s = Go.ret ({ tok := none, err := none }, s')) (h' : Quiet next s') :
    Quiet next s := by
  obtain ⟨P, hs, hP⟩ := h'
  refine ⟨fun x => P x ∨ x = s, .inr rfl, ?_⟩
  rintro x (hx | rfl)
  · obtain ⟨y, h1, h2⟩ := hP x hx; exact ⟨y, h1, .inl h2⟩
  · exact ⟨s', h, .inl hs⟩

/-- Coinduction for `Quiet` across two state spaces. -/
theorem Quiet.map {τ : Type} {next : NextFn σ} {next' : NextFn τ} (R : σ → τ → Prop)
    (step : ∀ s t, R s t → Quiet next s →
      ∃ s' t', next s = Go.ret ({ tok := none, err := none }, s') ∧
        next' t = Go.ret ({ tok := none, err := none }, t') ∧ R s' t')
    {s : σ} {t : τ} (hR : R s t) (h : Quiet next s) : Quiet next' t := by
  refine ⟨fun t => ∃ s, R s t ∧ Quiet next s, ⟨s, hR, h⟩, ?_⟩
  rintro t ⟨s, hR, hq⟩
  obtain ⟨s', t', h1, h2, h3⟩ := step s t hR hq
  obtain ⟨s'', h4, h5⟩ := hq.step
  rw [h1] at h4
  simp at h4
  subst h4
  exact ⟨t', h2, s', h3, h5⟩

theorem Emits.nil_eof {next : NextFn σ} {s : σ} : Emits next [] .eof s ↔ Quiet next s := Iff.rfl

theorem Emits.nil_fail {next : NextFn σ} {s : σ} {e : Err} :
    Emits next [] (.fail e) s ↔ ∃ tok s', next s = Go.ret ({ tok, err := some e }, s') := Iff.rfl

theorem Emits.cons {next : NextFn σ} {s : σ} {t : Token} {ts : List Token} {e : End} :
    Emits next (t :: ts) e s ↔
      ∃ s', next s = Go.ret ({ tok := some t, err := none }, s') ∧ Emits next ts e s' := by
  cases e <;> exact Iff.rfl

/-- What a state emits depends only on the answer of the next call. -/
theorem Emits.congr {next : NextFn σ} {s s' : σ} (h : next s = next s') {toks : List Token} {e : End}
    (hs : Emits next toks e s') : Emits next toks e s := by
  cases toks with
  | nil =>
    cases e with
    | eof =>
      obtain ⟨x, h1, h2⟩ := Quiet.step hs
      exact Quiet.of_step (h.trans h1) h2
    | fail e =>
      obtain ⟨tok, x, h1⟩ := hs
      exact ⟨tok, x, h.trans h1⟩
  | cons t ts =>
    rw [Emits.cons] at *
    obtain ⟨x, h1, h2⟩ := hs
    exact ⟨x, h.trans h1, h2⟩

/-- What a state emits is determined. -/
theorem Emits.unique {next : NextFn σ} {s : σ} {toks toks' : List Token} {e e' : End}
    (h : Emits next toks e s) (h' : Emits next toks' e' s) : toks = toks' ∧ e = e' := by
  induction toks generalizing s toks' with
  | nil =>
    cases toks' with
    | nil =>
      cases e <;> cases e'
      · simp
      · obtain ⟨x, h1, _⟩ := Quiet.step h
        obtain ⟨a, b, h2⟩ := h'
        rw [h1] at h2; simp at h2
      · obtain ⟨x, h1, _⟩ := Quiet.step h'
        obtain ⟨a, b, h2⟩ := h
        rw [h1] at h2; simp at h2
      · obtain ⟨a, b, h1⟩ := h
        obtain ⟨a', b', h2⟩ := h'
        rw [h1] at h2; simp at h2; simp [h2]
    | cons t ts =>
      rw [Emits.cons] at h'
      obtain ⟨x, h1, _⟩ := h'
      cases e with
      | eof => obtain ⟨y, h2, _⟩ := Quiet.step h; rw [h1] at h2; simp at h2
      | fail e => obtain ⟨a, b, h2⟩ := h; rw [h1] at h2; simp at h2
  | cons t ts ih =>
    rw [Emits.cons] at h
    obtain ⟨x, h1, h2⟩ := h
    cases toks' with
    | nil =>
      cases e' with
      | eof => obtain ⟨y, h3, _⟩ := Quiet.step h'; rw [h1] at h3; simp at h3
      | fail e => obtain ⟨a, b, h3⟩ := h'; rw [h1] at h3; simp at h3
    | cons t' ts' =>
      rw [Emits.cons] at h'
      obtain ⟨y, h3, h4⟩ := h'
      rw [h1] at h3; simp at h3
      obtain ⟨rfl, rfl⟩ := h3
      obtain ⟨rfl, rfl⟩ := ih h2 h4
      simp

/-! ### The wrapper made by NewTokenStream -/

theorem TS.next_of {call : NextFn σ} {s : TS σ} {r : Res} {x : σ} (h : call s.inner = Go.ret (r, x)) :
    TS.next call s = Go.ret (r, { inner := x, token := r.tok, err := r.err }) := by
  simp [TS.next, h]

theorem TS.next_fields {call : NextFn σ} {s s' : TS σ} {r : Res}
    (h : TS.next call s = Go.ret (r, s')) : s'.token = r.tok ∧ s'.err = r.err := by
  simp only [TS.next, Go.bind_eq_ret] at h
  obtain ⟨⟨a, b⟩, h1, h2⟩ := h
  simp at h2
  obtain ⟨rfl, rfl⟩ := h2
  simp

theorem TS.scan_of {call : NextFn σ} {s s' : TS σ} {r : Res}
    (h : TS.next call s = Go.ret (r, s')) :
    TS.scan call s = Go.ret (r.tok.isSome && r.err.isNone, s') := by
  have hf := TS.next_fields h
  simp only [TS.scan, h, Go.ret_bind, Go.pure_eq]
  rw [← hf.1, ← hf.2]

theorem Emits.wrap {call : NextFn σ} {toks : List Token} {e : End} {s : TS σ}
    (h : Emits call toks e s.inner) : Emits (TS.next call) toks e s := by
  induction toks generalizing s with
  | nil =>
    cases e with
    | eof =>
      refine Quiet.map (fun x (t : TS σ) => t.inner = x) ?_ rfl h
      rintro x t rfl hq
      obtain ⟨x', h1, _⟩ := hq.step
      exact ⟨x', _, h1, TS.next_of h1, rfl⟩
    | fail e =>
      obtain ⟨tok, x, h1⟩ := h
      exact ⟨_, _, TS.next_of h1⟩
  | cons t ts ih =>
    rw [Emits.cons] at *
    obtain ⟨x, h1, h2⟩ := h
    exact ⟨_, TS.next_of h1, ih h2⟩

theorem yields_new {call : NextFn σ} {x : σ} {toks : List Token} {e : End}
    (h : Emits call toks e x) : (newTokenStream call x).Yields toks e := Emits.wrap h

theorem TokenStream.Yields.unique {ts : TokenStream} {toks toks' : List Token} {e e' : End}
    (h : ts.Yields toks e) (h' : ts.Yields toks' e') : toks = toks' ∧ e = e' := Emits.unique h h'

theorem emits_listNext (toks : List Token) (e : End) : Emits (listNext e) toks e toks := by
  induction toks with
  | nil =>
    cases e with
    | eof => exact ⟨fun s => s = [], rfl, by rintro s rfl; exact ⟨[], rfl, rfl⟩⟩
    | fail e => exact ⟨none, [], rfl⟩
  | cons t ts ih => rw [Emits.cons]; exact ⟨ts, rfl, ih⟩

theorem listStream_yields (toks : List Token) (e : End) : (listStream toks e).Yields toks e :=
  yields_new (emits_listNext toks e)

/-! ### Steps -/

theorem Steps.append {next : NextFn σ} {s s' s'' : σ} {a b : List Token}
    (h : Steps next s a s') (h' : Steps next s' b s'') : Steps next s (a ++ b) s'' := by
  induction a generalizing s with
  | nil => cases h; exact h'
  | cons t ts ih => obtain ⟨x, h1, h2⟩ := h; exact ⟨x, h1, ih h2⟩

theorem Emits.of_steps {next : NextFn σ} {s s' : σ} {a b : List Token} {e : End}
    (h : Steps next s a s') (h' : Emits next b e s') : Emits next (a ++ b) e s := by
  induction a generalizing s with
  | nil => cases h; exact h'
  | cons t ts ih =>
    obtain ⟨x, h1, h2⟩ := h
    rw [List.cons_append, Emits.cons]
    exact ⟨x, h1, ih h2⟩

theorem Emits.split {next : NextFn σ} {s : σ} {a b : List Token} {e : End}
    (h : Emits next (a ++ b) e s) : ∃ s', Steps next s a s' ∧ Emits next b e s' := by
  induction a generalizing s with
  | nil => exact ⟨s, rfl, h⟩
  | cons t ts ih =>
    rw [List.cons_append, Emits.cons] at h
    obtain ⟨x, h1, h2⟩ := h
    obtain ⟨s', h3, h4⟩ := ih h2
    exact ⟨s', ⟨x, h1, h3⟩, h4⟩

/-! ### where -/

/-- Filtering with a predicate that carries state. -/
def sfilter {ρ : Type} (pred : ρ → Token → Bool × ρ) : ρ → List Token → List Token
  | _, [] => []
  | p, t :: ts => if (pred p t).1 then t :: sfilter pred (pred p t).2 ts else sfilter pred (pred p t).2 ts

theorem whereNext_emits {ρ : Type} {call : NextFn σ} (pred : ρ → Token → Bool × ρ)
    {toks : List Token} {e : End} {s : TS σ} (p : ρ) (h : Emits (TS.next call) toks e s) :
    Emits (whereNext call pred) (sfilter pred p toks) e (s, p) := by
  induction toks generalizing s p with
  | nil =>
    cases e with
    | eof =>
      refine Quiet.map (fun x (t : TS σ × ρ) => t.1 = x) ?_ rfl h
      rintro x t rfl hq
      obtain ⟨x', h1, _⟩ := hq.step
      refine ⟨x', (x', t.2), h1, ?_, rfl⟩
      rw [whereNext]; simp [h1]
    | fail e =>
      obtain ⟨tok, x, h1⟩ := h
      refine ⟨none, (x, p), ?_⟩
      rw [whereNext]; simp [h1]
  | cons t ts ih =>
    rw [Emits.cons] at h
    obtain ⟨x, h1, h2⟩ := h
    unfold sfilter
    cases hp : (pred p t).1
    · refine Emits.congr (s' := (x, (pred p t).2)) ?_ (by simpa using ih _ h2)
      rw [whereNext]; simp [h1, hp]
    · rw [if_pos rfl, Emits.cons]
      refine ⟨(x, (pred p t).2), ?_, ih _ h2⟩
      rw [whereNext]; simp [h1, hp]

theorem sfilter_pure (pred : Token → Bool) (toks : List Token) :
    sfilter (fun (_ : Unit) t => (pred t, ())) () toks = toks.filter pred := by
  induction toks with
  | nil => rfl
  | cons t ts ih => simp [sfilter, ih, List.filter_cons]

theorem where_yields {ts : TokenStream} {toks : List Token} {e : End} (pred : Token → Bool)
    (h : ts.Yields toks e) : (ts.where pred).Yields (toks.filter pred) e := by
  rw [← sfilter_pure]
  exact yields_new (whereNext_emits _ () h)

/-! ### consumers -/

theorem toSliceLoop_emits {call : NextFn σ} {toks : List Token} {e : End} {s : TS σ}
    (acc : List Token) (h : Emits (TS.next call) toks e s) :
    ∃ s', toSliceLoop call s acc = Go.ret
      ((if e = .eof then acc ++ toks else [], e.err), s') := by
  induction toks generalizing s acc with
  | nil =>
    cases e with
    | eof =>
      obtain ⟨x, h1, _⟩ := Quiet.step h
      refine ⟨x, ?_⟩
      rw [toSliceLoop, TS.scan_of h1]; simp [TS.next_fields h1, End.err]
    | fail e =>
      obtain ⟨tok, x, h1⟩ := h
      refine ⟨x, ?_⟩
      rw [toSliceLoop, TS.scan_of h1]; simp [TS.next_fields h1, End.err]
  | cons t ts ih =>
    rw [Emits.cons] at h
    obtain ⟨x, h1, h2⟩ := h
    obtain ⟨s', h3⟩ := ih (acc ++ [t]) h2
    refine ⟨s', ?_⟩
    rw [toSliceLoop, TS.scan_of h1]; simp [TS.next_fields h1, h3]

theorem stringLoop_emits {call : NextFn σ} {toks : List Token} {e : End} {s : TS σ}
    (acc : Bytes) (h : Emits (TS.next call) toks e s) :
    ∃ s', stringLoop call s acc = Go.ret
      ((if e = .eof then acc ++ text toks else [], e.err), s') := by
  induction toks generalizing s acc with
  | nil =>
    cases e with
    | eof =>
      obtain ⟨x, h1, _⟩ := Quiet.step h
      refine ⟨x, ?_⟩
      rw [stringLoop, TS.scan_of h1]; simp [TS.next_fields h1, text, End.err]
    | fail e =>
      obtain ⟨tok, x, h1⟩ := h
      refine ⟨x, ?_⟩
      rw [stringLoop, TS.scan_of h1]; simp [TS.next_fields h1, End.err]
  | cons t ts ih =>
    rw [Emits.cons] at h
    obtain ⟨x, h1, h2⟩ := h
    obtain ⟨s', h3⟩ := ih (acc ++ t.string) h2
    refine ⟨s', ?_⟩
    rw [stringLoop, TS.scan_of h1]; simp [TS.next_fields h1, h3, text]; simp [Token.string]

theorem countLoop_emits {call : NextFn σ} {toks : List Token} {e : End} {s : TS σ}
    (n : Nat) (h : Emits (TS.next call) toks e s) :
    ∃ s', countLoop call s n = Go.ret
      ((n + toks.length, e.err), s') := by
  induction toks generalizing s n with
  | nil =>
    cases e with
    | eof =>
      obtain ⟨x, h1, _⟩ := Quiet.step h
      refine ⟨x, ?_⟩
      rw [countLoop, TS.scan_of h1]; simp [TS.next_fields h1, End.err]
    | fail e =>
      obtain ⟨tok, x, h1⟩ := h
      refine ⟨x, ?_⟩
      rw [countLoop, TS.scan_of h1]; simp [TS.next_fields h1, End.err]
  | cons t ts ih =>
    rw [Emits.cons] at h
    obtain ⟨x, h1, h2⟩ := h
    obtain ⟨s', h3⟩ := ih (n + 1) h2
    refine ⟨s', ?_⟩
    rw [countLoop, TS.scan_of h1]; simp [h3, Nat.add_comm, Nat.add_left_comm]

end Jargon
