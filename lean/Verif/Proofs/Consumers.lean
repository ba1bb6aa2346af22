import Verif.Proofs.Stream

/-! The consumers of tokenstream.go on streams described by `Yields`; `Distinct`. -/

namespace Jargon

theorem toSlice_yields {ts : TokenStream} {toks : List Token} {e : End} (h : ts.Yields toks e) :
    ts.toSlice = Go.ret (if e = .eof then toks else [], e.err) := by
  obtain ⟨s', h1⟩ := toSliceLoop_emits [] h
  simp [TokenStream.toSlice, h1]

theorem string_yields {ts : TokenStream} {toks : List Token} {e : End} (h : ts.Yields toks e) :
    ts.string = Go.ret (if e = .eof then text toks else [], e.err) := by
  obtain ⟨s', h1⟩ := stringLoop_emits [] h
  simp [TokenStream.string, h1]

theorem count_yields {ts : TokenStream} {toks : List Token} {e : End} (h : ts.Yields toks e) :
    ts.count = Go.ret (toks.length, e.err) := by
  obtain ⟨s', h1⟩ := countLoop_emits 0 h
  simp [TokenStream.count, h1]

theorem writeToLoop_ok {σ ω : Type} {call : NextFn σ} {w : Writer ω} {toks : List Token} {e : End}
    {s : TS σ} {ws ws' : ω} {n : Nat} (acc : Nat) (h : Emits (TS.next call) toks e s)
    (hw : WritesOK w ws toks n ws') :
    writeToLoop call w s ws acc = Go.ret ((acc + n, e.err), ws') := by
  induction hw generalizing s acc with
  | nil ws =>
    cases e with
    | eof =>
      obtain ⟨x, h1, _⟩ := Quiet.step h
      rw [writeToLoop, TS.scan_of h1]; simp [TS.next_fields h1, End.err]
    | fail e =>
      obtain ⟨tok, x, h1⟩ := h
      rw [writeToLoop, TS.scan_of h1]; simp [TS.next_fields h1, End.err]
  | cons hk _ ih =>
    rw [Emits.cons] at h
    obtain ⟨x, h1, h2⟩ := h
    rw [writeToLoop, TS.scan_of h1]
    simp [TS.next_fields h1, Token.string, hk, ih _ h2, Nat.add_assoc]

theorem writeToLoop_fail {σ ω : Type} {call : NextFn σ} {w : Writer ω} {a b : List Token}
    {t : Token} {e : End} {s : TS σ} {ws ws' ws'' : ω} {n k : Nat} {err : Err} (acc : Nat)
    (h : Emits (TS.next call) (a ++ t :: b) e s) (hw : WritesOK w ws a n ws')
    (hf : w.write ws' t.value = ((k, some err), ws'')) :
    writeToLoop call w s ws acc = Go.ret ((acc + n + k, some err), ws'') := by
  induction hw generalizing s acc with
  | nil ws =>
    rw [List.nil_append, Emits.cons] at h
    obtain ⟨x, h1, h2⟩ := h
    rw [writeToLoop, TS.scan_of h1]
    simp [TS.next_fields h1, Token.string, hf]
  | cons hk _ ih =>
    rw [List.cons_append, Emits.cons] at h
    obtain ⟨x, h1, h2⟩ := h
    rw [writeToLoop, TS.scan_of h1]
    simp [TS.next_fields h1, Token.string, hk, ih _ h2 hf, Nat.add_assoc]

/-- Either all writes succeed, or there is a first one that fails. -/
theorem writes_cases {ω : Type} (w : Writer ω) (ws : ω) (toks : List Token) :
    (∃ n ws', WritesOK w ws toks n ws') ∨
    ∃ a t b n k err ws' ws'', toks = a ++ t :: b ∧ WritesOK w ws a n ws' ∧
      w.write ws' t.value = ((k, some err), ws'') := by
  induction toks generalizing ws with
  | nil => exact .inl ⟨0, ws, .nil ws⟩
  | cons t ts ih =>
    rcases hw : w.write ws t.value with ⟨⟨k, _ | err⟩, ws1⟩
    · rcases ih ws1 with ⟨n, ws', h⟩ | ⟨a, t', b, n, k', err, ws', ws'', rfl, h1, h2⟩
      · exact .inl ⟨_, _, .cons hw h⟩
      · exact .inr ⟨t :: a, t', b, _, k', err, ws', ws'', rfl, .cons hw h1, h2⟩
    · exact .inr ⟨[], t, ts, 0, k, err, ws, ws1, rfl, .nil ws, hw⟩

/-! ### Distinct -/

/-- The first token of each value, in order. -/
def firsts : List Token → List Token
  | [] => []
  | t :: ts => t :: (firsts ts).filter (fun u => u.value ≠ t.value)

theorem sfilter_isDistinct (seen : List Bytes) (toks : List Token) :
    sfilter isDistinct seen toks = (firsts toks).filter (fun u => !seen.contains u.value) := by
  induction toks generalizing seen with
  | nil => rfl
  | cons t ts ih =>
    unfold sfilter firsts
    have e1 : isDistinct seen t =
        (!seen.contains t.value, if seen.contains t.value then seen else t.value :: seen) := rfl
    rw [e1]
    by_cases hc : seen.contains t.value
    · simp only [hc, Bool.not_true, Bool.false_eq_true, ↓reduceIte, ih, List.filter_cons,
        List.filter_filter]
      apply List.filter_congr
      intro u _
      by_cases hu : u.value = t.value
      · rw [hu]; simp only [hc]; simp
      · simp [hu]
    · simp only [hc, Bool.not_false, ↓reduceIte, ih, List.filter_cons, List.filter_filter]
      congr 1
      apply List.filter_congr
      intro u _
      by_cases hu : u.value = t.value <;> simp [hu, Bool.and_comm]

theorem distinct_yields {ts : TokenStream} {toks : List Token} {e : End} (h : ts.Yields toks e) :
    ts.distinct.Yields (firsts toks) e := by
  have := whereNext_emits isDistinct [] h
  rw [sfilter_isDistinct] at this
  have h2 : (firsts toks).filter (fun u => !([] : List Bytes).contains u.value) = firsts toks := by
    simp
  rw [h2] at this
  exact yields_new this

theorem firsts_sublist (toks : List Token) : (firsts toks).Sublist toks := by
  induction toks with
  | nil => exact .slnil
  | cons t ts ih => exact .cons_cons _ (List.filter_sublist.trans ih)

theorem firsts_nodup (toks : List Token) : (firsts toks).Pairwise (fun a b => a.value ≠ b.value) := by
  induction toks with
  | nil => exact .nil
  | cons t ts ih =>
    refine .cons ?_ (ih.sublist List.filter_sublist)
    intro u hu
    simp only [List.mem_filter, decide_eq_true_eq] at hu
    exact fun h => hu.2 h.symm

/-- A token is kept exactly if it is the first with its value. -/
theorem mem_firsts (toks : List Token) (t : Token) :
    t ∈ firsts toks ↔ toks.find? (fun u => u.value = t.value) = some t := by
  induction toks with
  | nil => simp [firsts]
  | cons x ts ih =>
    simp only [firsts, List.mem_cons, List.mem_filter, decide_eq_true_eq, List.find?_cons]
    by_cases hx : x.value = t.value
    · simp only [hx, decide_true]
      constructor
      · rintro (rfl | ⟨_, h⟩)
        · rfl
        · exact absurd rfl h
      · intro h; left; simpa using h.symm
    · simp only [hx, decide_false]
      rw [← ih]
      constructor
      · rintro (rfl | ⟨h, _⟩)
        · exact absurd rfl hx
        · exact h
      · exact fun h => .inr ⟨h, fun h' => hx h'.symm⟩

theorem firsts_covers (toks : List Token) : ∀ t ∈ toks, ∃ u ∈ firsts toks, u.value = t.value := by
  intro t ht
  cases h : toks.find? (fun u => u.value = t.value) with
  | none =>
    have := List.find?_eq_none.1 h t ht
    simp at this
  | some u =>
    have hu : u.value = t.value := by simpa using List.find?_some h
    exact ⟨u, (mem_firsts toks u).2 (by rw [hu]; exact h), hu⟩

end Jargon
