import Verif.Proofs.Consumers

/-! C02, C04 (consumers), C05–C09: the token stream. -/

namespace Jargon

/-! ### C02 -/

/-- What a caller can do with a stream. -/
inductive Op where
  | next | scan | token | err
deriving DecidableEq, Repr

/-- What the caller sees. -/
inductive Obs where
  | res (r : Res)
  | bool (b : Bool)
  | tok (t : Option Token)
  | error (e : Option Err)
deriving DecidableEq, Repr

/-- Drive a stream by a sequence of calls: `Next` (tokenstream.go:20-22), `Scan` (:47-50),
`Token` (:53-55) and `Err` (:58-60), the last two of which read the fields. -/
def drive {σ : Type} (call : NextFn σ) : TS σ → List Op → Go (List Obs × TS σ)
  | s, [] => Go.ret ([], s)
  | s, .next :: ops => do
    let (r, s) ← TS.next call s
    let (os, s) ← drive call s ops
    pure (.res r :: os, s)
  | s, .scan :: ops => do
    let (b, s) ← TS.scan call s
    let (os, s) ← drive call s ops
    pure (.bool b :: os, s)
  | s, .token :: ops => do
    let (os, s') ← drive call s ops
    pure (.tok s.token :: os, s')
  | s, .err :: ops => do
    let (os, s') ← drive call s ops
    pure (.error s.err :: os, s')

/-- Number of calls that advance the stream. -/
def advances : List Op → Nat
  | [] => 0
  | .next :: ops | .scan :: ops => advances ops + 1
  | .token :: ops | .err :: ops => advances ops

/-- What the caller should see, given the successive results `rs` of the source and the result
`latest` of the latest advance (nil, nil if there was none). -/
def expected (latest : Res) : List Op → List Res → List Obs
  | [], _ => []
  | .next :: ops, r :: rs => .res r :: expected r ops rs
  | .scan :: ops, r :: rs => .bool (r.tok.isSome && r.err.isNone) :: expected r ops rs
  | .next :: _, [] | .scan :: _, [] => []
  | .token :: ops, rs => .tok latest.tok :: expected latest ops rs
  | .err :: ops, rs => .error latest.err :: expected latest ops rs

theorem drive_spec {σ : Type} (call : NextFn σ) (ops : List Op) (rs : List Res) (s : TS σ) (x : σ)
    (h : Answers call s.inner rs x) (hn : rs.length = advances ops) :
    ∃ s', drive call s ops = Go.ret (expected ⟨s.token, s.err⟩ ops rs, s') ∧ s'.inner = x := by
  induction ops generalizing rs s with
  | nil =>
    have : rs = [] := by simpa [advances] using hn
    subst this
    cases h
    exact ⟨s, rfl, rfl⟩
  | cons op ops ih =>
    cases op with
    | next =>
      cases rs with
      | nil => simp [advances] at hn
      | cons r rs =>
        obtain ⟨y, h1, h2⟩ := h
        obtain ⟨s', h3, h4⟩ := ih rs ⟨y, r.tok, r.err⟩ h2 (by simpa [advances] using hn)
        exact ⟨s', by simp [drive, TS.next_of h1, h3, expected], h4⟩
    | scan =>
      cases rs with
      | nil => simp [advances] at hn
      | cons r rs =>
        obtain ⟨y, h1, h2⟩ := h
        obtain ⟨s', h3, h4⟩ := ih rs ⟨y, r.tok, r.err⟩ h2 (by simpa [advances] using hn)
        exact ⟨s', by simp [drive, TS.scan_of (TS.next_of h1), h3, expected], h4⟩
    | token =>
      obtain ⟨s', h3, h4⟩ := ih rs s h (by simpa [advances] using hn)
      exact ⟨s', by simp [drive, h3, expected], h4⟩
    | err =>
      obtain ⟨s', h3, h4⟩ := ih rs s h (by simpa [advances] using hn)
      exact ⟨s', by simp [drive, h3, expected], h4⟩

/-- **C02.** However Next, Scan, Token and Err are interleaved on a new stream, the caller sees the
results of the source in order, one per advance, and Token/Err report the latest. -/
theorem C02_one_iterator {σ : Type} (call : NextFn σ) (x x' : σ) (ops : List Op) (rs : List Res)
    (h : Answers call x rs x') (hn : rs.length = advances ops) :
    ∃ s', drive call (TS.new x) ops = Go.ret (expected ⟨none, none⟩ ops rs, s') ∧ s'.inner = x' :=
  drive_spec call ops rs (TS.new x) x' h hn

example :
    let t : Token := ⟨[0x61], false, false, false⟩
    let u : Token := ⟨[0x62], false, false, false⟩
    Answers (listNext .eof) [t, u] [⟨some t, none⟩, ⟨some u, none⟩, ⟨none, none⟩] [] ∧
    expected ⟨none, none⟩ [.token, .scan, .token, .next, .token, .scan, .err]
        [⟨some t, none⟩, ⟨some u, none⟩, ⟨none, none⟩] =
      [.tok none, .bool true, .tok (some t), .res ⟨some u, none⟩, .tok (some u), .bool false,
       .error none] := by
  refine ⟨⟨_, rfl, _, rfl, _, rfl, rfl⟩, by decide⟩

/-! ### C04: consumers -/

/-- **C04 (consumers).** On a stream that fails, `ToSlice` and `String` return the error and nothing
else; `Count` and (with a writer that succeeds) `WriteTo` return the error and the count so far. -/
theorem C04_consumers_report_error {ts : TokenStream} {toks : List Token} {e : Err}
    (h : ts.Yields toks (.fail e)) :
    ts.toSlice = Go.ret ([], some e) ∧
    ts.string = Go.ret ([], some e) ∧
    ts.count = Go.ret (toks.length, some e) ∧
    ∀ {ω : Type} (w : Writer ω) (ws ws' : ω) (n : Nat), WritesOK w ws toks n ws' →
      ts.writeTo w ws = Go.ret ((n, some e), ws') := by
  refine ⟨by simpa using toSlice_yields h, by simpa using string_yields h,
    by simpa using count_yields h, fun w ws ws' n hw => ?_⟩
  simpa [TokenStream.writeTo] using writeToLoop_ok 0 h hw

example : (listStream [⟨[0x61], false, false, false⟩] (.fail (.ext 7))).Yields
    [⟨[0x61], false, false, false⟩] (.fail (.ext 7)) := listStream_yields _ _

/-! ### C05, C06 -/

/-- **C05.** -/
theorem C05_where_keeps_matching {ts : TokenStream} {toks : List Token} {e : End}
    (p : Token → Bool) (h : ts.Yields toks e) : (ts.where p).Yields (toks.filter p) e :=
  where_yields p h

example : ∃ toks e, (listStream toks e).Yields toks e ∧ toks.filter (fun t => t.space) ≠ toks ∧
    toks.filter (fun t => t.space) ≠ [] :=
  ⟨[⟨[0x61], false, false, false⟩, ⟨[0x20], false, true, false⟩], .eof, listStream_yields _ _,
    by decide, by decide⟩

/-- **C06 (Words).** -/
theorem C06_words {ts : TokenStream} {toks : List Token} {e : End} (h : ts.Yields toks e) :
    ts.words.Yields (toks.filter (fun t => decide (t.punct = false ∧ t.space = false))) e := by
  have := where_yields (fun t => !t.isPunct && !t.isSpace) h
  have heq : (fun t : Token => decide (t.punct = false ∧ t.space = false)) =
      fun t => !t.isPunct && !t.isSpace := by
    funext t
    cases h1 : t.punct <;> cases h2 : t.space <;> simp [Token.isPunct, Token.isSpace, h1, h2]
  rw [heq]; exact this

/-- **C06 (Lemmas).** -/
theorem C06_lemmas {ts : TokenStream} {toks : List Token} {e : End} (h : ts.Yields toks e) :
    ts.lemmas.Yields (toks.filter (fun t => decide (t.lemma = true))) e := by
  have := where_yields Token.isLemma h
  have heq : (fun t : Token => decide (t.lemma = true)) = Token.isLemma := by
    funext t; simp [Token.isLemma]
  rw [heq]; exact this

example :
    let w : Token := ⟨[0x61], false, false, true⟩
    let p : Token := ⟨[0x2E], true, false, false⟩
    (listStream [w, p, w] .eof).words.Yields [w, w] .eof ∧
    (listStream [w, p, w] .eof).lemmas.Yields [w, w] .eof :=
  ⟨C06_words (listStream_yields _ _), C06_lemmas (listStream_yields _ _)⟩

/-! ### C07 -/

/-- **C07.** -/
theorem C07_distinct {ts : TokenStream} {toks : List Token} {e : End} (h : ts.Yields toks e) :
    ∃ out, ts.distinct.Yields out e ∧
      out.Sublist toks ∧
      out.Pairwise (fun a b => a.value ≠ b.value) ∧
      (∀ t ∈ toks, ∃ u ∈ out, u.value = t.value) ∧
      ∀ t, t ∈ out ↔ toks.find? (fun u => u.value = t.value) = some t :=
  ⟨firsts toks, distinct_yields h, firsts_sublist toks, firsts_nodup toks, firsts_covers toks,
    mem_firsts toks⟩

example :
    let w : Token := ⟨[0x61], false, false, true⟩
    let w' : Token := ⟨[0x61], false, false, false⟩
    let p : Token := ⟨[0x2E], true, false, false⟩
    (listStream [w, p, w', p] .eof).distinct.Yields [w, p] .eof :=
  distinct_yields (listStream_yields _ _)

/-! ### C08, C09 -/

/-- **C08.** -/
theorem C08_consumers_agree {ts : TokenStream} {toks : List Token} (h : ts.Yields toks .eof) :
    ts.toSlice = Go.ret (toks, none) ∧
    ts.string = Go.ret (toks.flatMap Token.value, none) ∧
    ts.count = Go.ret (toks.length, none) :=
  ⟨by simpa using toSlice_yields h, by simpa [text] using string_yields h,
    by simpa using count_yields h⟩

example : (listStream [⟨[0x61], false, false, false⟩, ⟨[0x62], false, false, false⟩] .eof).string =
    Go.ret ([0x61, 0x62], none) := (C08_consumers_agree (listStream_yields _ _)).2.1

/-- **C09 (writer accepts everything).** The state of the writer is what it has received so far. -/
theorem C09_writeTo_all {ts : TokenStream} {toks : List Token} {e : End} (h : ts.Yields toks e)
    (w : Writer Bytes) (hw : ∀ ws p, w.write ws p = ((p.length, none), ws ++ p)) (ws : Bytes) :
    ts.writeTo w ws =
      Go.ret (((toks.flatMap Token.value).length, e.err), ws ++ toks.flatMap Token.value) := by
  have : ∀ toks ws, WritesOK w ws toks (toks.flatMap Token.value).length
      (ws ++ toks.flatMap Token.value) := by
    intro toks
    induction toks with
    | nil => intro ws; simpa using WritesOK.nil ws
    | cons t ts ih =>
      intro ws
      have := WritesOK.cons (hw ws t.value) (ih (ws ++ t.value))
      simpa using this
  simpa [TokenStream.writeTo] using writeToLoop_ok 0 h (this toks ws)

/-- **C09 (a write fails).** If the writes of `a` succeed and the write of `t` fails, WriteTo returns
the writer's error and the sum of the reported counts, and the writer sees nothing after `t`. -/
theorem C09_writeTo_fails {ω : Type} {ts : TokenStream} {a b : List Token} {t : Token} {e : End}
    (h : ts.Yields (a ++ t :: b) e) (w : Writer ω) {ws ws' ws'' : ω} {n k : Nat} {err : Err}
    (ha : WritesOK w ws a n ws') (ht : w.write ws' t.value = ((k, some err), ws'')) :
    ts.writeTo w ws = Go.ret ((n + k, some err), ws'') := by
  simpa [TokenStream.writeTo] using writeToLoop_fail 0 h ha ht

/-- The two cases of C09 are all there is. -/
theorem C09_cases {ω : Type} (w : Writer ω) (ws : ω) (toks : List Token) :
    (∃ n ws', WritesOK w ws toks n ws') ∨
    ∃ a t b n k err ws' ws'', toks = a ++ t :: b ∧ WritesOK w ws a n ws' ∧
      w.write ws' t.value = ((k, some err), ws'') := writes_cases w ws toks

/-- A writer that accepts two bytes and then fails. -/
example :
    let w : Writer Nat := ⟨fun s p => if p.length ≤ s then ((p.length, none), s - p.length)
      else ((s, some (.ext 1)), 0)⟩
    let t (b : UInt8) : Token := ⟨[b, b], false, false, false⟩
    (listStream [t 1, t 2, t 3] .eof).writeTo w 3 = Go.ret ((3, some (.ext 1)), 0) := by
  intro w t
  exact C09_writeTo_fails (a := [t 1]) (b := [t 3]) (t := t 2) (n := 2) (k := 1)
    (listStream_yields _ _) w (.cons (n := 0) (k := 2) rfl (.nil 1)) rfl

end Jargon
