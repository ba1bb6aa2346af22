import Verif.Props.Cli
import Verif.Props.Causal

/-! C112: the program writes while it reads. -/

namespace Jargon

/-- A writer with room: it takes no more than `room` bytes from now on. -/
def Writer.Room {ω : Type} (w : Writer ω) (room : ω → Nat) : Prop :=
  ∀ ws p, (w.write ws p).1.1 + room (w.write ws p).2 ≤ room ws

/-- What holds of the writer underneath whatever is written holds after flushing. -/
theorem flush_keeps {ω : Type} {w : Writer ω} {P : ω → Prop} (hP : ∀ s p, P s → P (w.write s p).2)
    {b : BufWriter ω} (h : P b.under) : P (b.flush w).2.under := by
  unfold BufWriter.flush
  split
  · exact h
  · split
    · exact h
    · dsimp only
      split
      · exact hP _ _ h
      · exact hP _ _ h

theorem bufWriteByte_keeps {ω : Type} {w : Writer ω} {P : ω → Prop} (hP : ∀ s p, P s → P (w.write s p).2)
    {b : BufWriter ω} (c : UInt8) (h : P b.under) : P (bufWriteByte w b c).2.under := by
  unfold bufWriteByte
  split
  · exact h
  · split
    · have := flush_keeps hP h
      dsimp only
      split
      · exact this
      · exact this
    · exact h

theorem bufWriteString_keeps {ω : Type} (direct : Bool) {w : Writer ω} {P : ω → Prop}
    (hP : ∀ s p, P s → P (w.write s p).2) : ∀ (b : BufWriter ω) (s : Bytes) (nn : Nat), P b.under →
    ∀ r, bufWriteString direct w b s nn = Go.ret r → P r.2.under := by
  refine bufWriteString.fixpoint_induct direct w (motive := fun f => ∀ (b : BufWriter ω) (s : Bytes) (nn : Nat),
    P b.under → ∀ r, f b s nn = Go.ret r → P r.2.under) ?_ ?_
  · refine Lean.Order.admissible_pi_apply (P := fun (b : BufWriter ω)
      (y : Bytes → Nat → Go ((Nat × Option Err) × BufWriter ω)) => ∀ (s : Bytes) (nn : Nat), P b.under →
      ∀ r, y s nn = Go.ret r → P r.2.under) fun b => ?_
    refine Lean.Order.admissible_pi_apply (P := fun (s : Bytes)
      (y : Nat → Go ((Nat × Option Err) × BufWriter ω)) => ∀ (nn : Nat), P b.under →
      ∀ r, y nn = Go.ret r → P r.2.under) fun s => ?_
    refine Lean.Order.admissible_pi_apply (P := fun (nn : Nat)
      (y : Go ((Nat × Option Err) × BufWriter ω)) => P b.under → ∀ r, y = Go.ret r → P r.2.under) fun nn => ?_
    exact go_admissible _ fun _ r h => by cases h
  · intro f ih b s nn hb r h
    simp only at h
    split at h
    · split at h
      · split at h
        · cases h
        · exact ih _ _ _ (hP _ _ hb) _ h
      · exact ih _ _ _ (flush_keeps hP (b := { b with buf := b.buf ++ s.take (min (b.size - b.buf.length) s.length) }) hb) _ h
    · split at h
      · cases h; exact hb
      · cases h; exact hb

/-- The loop of `execute`, over the first tokens of a stream: either a write fails, and it ends, whatever follows; or it
goes on with what follows, and has written the tokens but for what is in the buffer. -/
theorem executeLoop_steps {ω : Type} (direct : Bool) {w : Writer ω} (hw : w.Lawful) (lines : Bool)
    {P : ω × Bytes → Prop} (hP : ∀ s p, P s → P ((logged w).write s p).2) (toks : List Token) :
    ∀ (b : BufWriter (ω × Bytes)) (T : Bytes), 0 < b.size → BufInv b T → b.err = none → P b.under →
      (¬ w.NeverFails ∧ ∃ err b', BufInv b' (T ++ cliText lines toks) ∧ P b'.under ∧
        ∀ {σ : Type} (call : NextFn σ) (s s' : TS σ), Steps (TS.next call) s toks s' →
          executeLoop direct (logged w) lines call s b = Go.ret (some err, b')) ∨
      ∃ b', BufInv b' (T ++ cliText lines toks) ∧ b'.err = none ∧ b'.size = b.size ∧ P b'.under ∧
        ∀ {σ : Type} (call : NextFn σ) (s s' : TS σ), Steps (TS.next call) s toks s' →
          executeLoop direct (logged w) lines call s b = executeLoop direct (logged w) lines call s' b' := by
  induction toks with
  | nil =>
    intro b T hsz h hb hp
    refine .inr ⟨b, by simpa [cliText] using h, hb, rfl, hp, fun call s s' hs => ?_⟩
    cases hs
    rfl
  | cons t ts ih =>
    intro b T hsz h hb hp
    obtain ⟨n, b1, e1, e2, e3, e4⟩ := bufWriteString_spec direct hw _ b t.value T 0 hsz (Nat.le_refl _) h
    have hp1 := bufWriteString_keeps direct hP b t.value 0 hp _ e1
    have htext : cliText lines (t :: ts) = t.value ++ ((if lines then [0x0A] else []) ++ cliText lines ts) := by
      simp [cliText]
    -- one turn of the loop
    have turn : ∀ {σ : Type} (call : NextFn σ) (s s' : TS σ), Steps (TS.next call) s (t :: ts) s' →
        ∃ x, Steps (TS.next call) x ts s' ∧ executeLoop direct (logged w) lines call s b =
          match b1.err with
          | some e => Go.ret (some e, b1)
          | none =>
            if lines then
              match (bufWriteByte (logged w) b1 0x0A).1 with
              | some e => Go.ret (some e, (bufWriteByte (logged w) b1 0x0A).2)
              | none => executeLoop direct (logged w) lines call x (bufWriteByte (logged w) b1 0x0A).2
            else executeLoop direct (logged w) lines call x b1 := by
      intro σ call s s' hs
      obtain ⟨x, h1, h2⟩ := hs
      refine ⟨x, h2, ?_⟩
      rw [executeLoop, TS.scan_of h1]
      simp only [Go.ret_bind, TS.next_fields h1, Option.isSome_some, Option.isNone_none, Bool.and_self,
        ↓reduceIte, Token.string, e1]
      cases b1.err with
      | some e => rfl
      | none => rfl
    cases he : b1.err with
    | some e' =>
      refine .inl ⟨(fun hn => by have := e4 hn hb; rw [he] at this; cases this), e', b1,
        ⟨e3.fits, e3.pre.trans ?_, fun h => by rw [he] at h; cases h⟩, hp1, fun call s s' hs => ?_⟩
      · rw [htext, ← List.append_assoc]; exact List.prefix_append _ _
      · obtain ⟨x, -, hx⟩ := turn call s s' hs
        rw [hx, he]
    | none =>
      cases lines with
      | true =>
        obtain ⟨f1, f2, f3, f4⟩ := bufWriteByte_spec hw (by omega) e3 0x0A
        have hp2 := bufWriteByte_keeps hP 0x0A hp1
        simp only [he, ↓reduceIte] at turn
        generalize bufWriteByte (logged w) b1 0x0A = r at f1 f2 f3 f4 hp2 turn
        obtain ⟨err, b2⟩ := r
        simp only at f1 f2 f3 f4 hp2 turn
        cases err with
        | some e' =>
          refine .inl ⟨(fun hn => by have := f4 hn he; rw [this] at f1; cases f1), e', b2,
            ⟨f3.fits, f3.pre.trans ?_, fun h => by rw [h] at f1; cases f1⟩, hp2, fun call s s' hs => ?_⟩
          · rw [htext]; simp only [↓reduceIte, List.append_assoc]
            exact (List.prefix_append_right_inj _).mpr
              ((List.prefix_append_right_inj _).mpr (List.prefix_append _ _))
          · obtain ⟨x, -, hx⟩ := turn call s s' hs
            rw [hx]
        | none =>
          rcases ih b2 _ (by omega) f3 f1.symm hp2 with ⟨hn, err, b', g1, g2, g3⟩ | ⟨b', g1, g2, g3, g4, g5⟩
          · refine .inl ⟨hn, err, b', ?_, g2, fun call s s' hs => ?_⟩
            · rw [htext]; simpa using g1
            · obtain ⟨x, h2, hx⟩ := turn call s s' hs
              rw [hx]; exact g3 call x s' h2
          · refine .inr ⟨b', ?_, g2, by omega, g4, fun call s s' hs => ?_⟩
            · rw [htext]; simpa using g1
            · obtain ⟨x, h2, hx⟩ := turn call s s' hs
              rw [hx]; exact g5 call x s' h2
      | false =>
        simp only [he, Bool.false_eq_true, ↓reduceIte] at turn
        rcases ih b1 _ (by omega) e3 he hp1 with ⟨hn, err, b', g1, g2, g3⟩ | ⟨b', g1, g2, g3, g4, g5⟩
        · refine .inl ⟨hn, err, b', ?_, g2, fun call s s' hs => ?_⟩
          · rw [htext]; simpa using g1
          · obtain ⟨x, h2, hx⟩ := turn call s s' hs
            rw [hx]; exact g3 call x s' h2
        · refine .inr ⟨b', ?_, g2, by omega, g4, fun call s s' hs => ?_⟩
          · rw [htext]; simpa using g1
          · obtain ⟨x, h2, hx⟩ := turn call s s' hs
            rw [hx]; exact g5 call x s' h2

/-- **C112.** The program writes while it reads: when it has read some tokens and comes to read the next, it has written
all of these but what is in its buffer, whatever follows: more tokens, for ever or not, an error, or nothing for a long
time. -/
theorem C112_writes {ω : Type} (direct : Bool) {w : Writer ω} (hw : w.NeverFails) (lines : Bool) (toks : List Token)
    {size : Nat} (hsz : 0 < size) (u : ω) (log : Bytes) :
    ∃ b, b.under.2 ++ b.buf = log ++ cliText lines toks ∧ b.buf.length ≤ size ∧
      ∀ (ts : TokenStream) (s : TS ts.σ), Steps ts.nextFn ts.st toks s →
        executeStream direct (logged w) false lines ts (BufWriter.new size (u, log)) =
          executeLoop direct (logged w) lines ts.call s b := by
  rcases executeLoop_steps direct hw.lawful lines (P := fun _ => True) (fun _ _ _ => trivial) toks
    (BufWriter.new size (u, log)) log hsz (BufInv.new size u log) rfl trivial with ⟨hn, -⟩ | ⟨b, h1, h2, h3, -, h4⟩
  · exact absurd hw hn
  · refine ⟨b, h1.all h2, ?_, fun ts s hs => h4 ts.call ts.st s hs⟩
    have := h1.fits
    rw [h3] at this
    exact this

/-- **C112 (the end of writing).** If the writer has no room for some tokens and what fits into the buffer, the program ends
with an error when it has read these, whatever follows: also if the input never ends. -/
theorem C112_ends {ω : Type} (direct : Bool) {w : Writer ω} (hw : w.Lawful) {room : ω → Nat} (hr : w.Room room)
    (lines : Bool) {toks : List Token} {size : Nat} (hsz : 0 < size) (u : ω) (log : Bytes)
    (h : room u + size < (cliText lines toks).length) :
    ∃ err b, b.under.2 <+: log ++ cliText lines toks ∧ ∀ ts : TokenStream, ts.Begins toks →
      executeStream direct (logged w) false lines ts (BufWriter.new size (u, log)) = Go.ret (some err, b) := by
  have hP : ∀ (s : ω × Bytes) (p : Bytes), s.2.length + room s.1 ≤ log.length + room u →
      ((logged w).write s p).2.2.length + room ((logged w).write s p).2.1 ≤ log.length + room u := by
    intro s p hs
    have h1 := hr s.1 p
    simp only [logged, List.length_append, List.length_take]
    omega
  rcases executeLoop_steps direct hw lines (P := fun x => x.2.length + room x.1 ≤ log.length + room u) hP toks
    (BufWriter.new size (u, log)) log hsz (BufInv.new size u log) rfl (Nat.le_refl _) with
    ⟨-, err, b, h1, -, h2⟩ | ⟨b, h1, h2, h3, h4, -⟩
  · exact ⟨err, b, (List.prefix_append _ _).trans h1.pre, fun ts hts => by
      obtain ⟨s, hs⟩ := hts
      exact h2 ts.call ts.st s hs⟩
  · exfalso
    have h5 := congrArg List.length (h1.all h2)
    have h6 := h1.fits
    rw [h3] at h6
    have h7 : (BufWriter.new size (u, log)).size = size := rfl
    simp only [List.length_append] at h5
    omega

/-- **C112 (the program).** The same of the whole program: having read some tokens of what is to be written, it has
written all but at most 1 MiB of them. -/
theorem C112_program {ω : Type} {w : Place → Writer ω} (hw : ∀ p, (w p).NeverFails)
    (W : World (ω × Bytes)) (hW : ∀ p, W.writer p = logged (w p)) (flags : Flags)
    (hv : flags.version = false) (hcount : flags.count = false) (args : List Bytes) {mode : Nat}
    (hmode : W.mode = .ok mode) {src dst : Place} {fs : Fs} {l : Language}
    (hin : inputChoice (isTerminal mode) (named W.fs.openFile flags.filein) = .ok src)
    (hout : outputChoice W.fs (named W.fs.create flags.fileout) = .ok (dst, fs))
    (hl : langOf flags.lang = some l)
    (hstat : ∀ i, src = .file i → ∃ n, fs.stat i = .ok n) (toks : List Token) :
    ∃ b, b.under.2 ++ b.buf = (W.under dst).2 ++ cliText flags.lines toks ∧ b.buf.length ≤ 1024 * 1024 ∧
      ∀ s, Steps (programStream W flags args l (W.source fs src)).nextFn
          (programStream W flags args l (W.source fs src)).st toks s →
        cliMain W flags args = (do
          let r ← executeLoop W.direct (W.writer dst) flags.lines
            (programStream W flags args l (W.source fs src)).call s b
          pure (exitOf r.1, some (dst, r.2))) := by
  obtain ⟨size, g1, g2, hrun⟩ := cliMain_runs W flags hv args hmode hin hout hl hstat
  obtain ⟨b, h1, h2, h3⟩ := C112_writes W.direct (hw dst) flags.lines toks (size := size) (by omega)
    (W.under dst).1 (W.under dst).2
  refine ⟨b, h1, by omega, fun s hs => ?_⟩
  rw [hrun, hcount, hW]
  exact congrArg (· >>= fun r => pure (exitOf r.1, some (dst, r.2))) (h3 _ s hs)

/-- A disk with room for some bytes. -/
def disk : Writer Nat where
  write room p := if p.length ≤ room then ((p.length, none), room - p.length) else ((room, some (.ext 28)), 0)

theorem disk_lawful : disk.Lawful := by
  intro ws p
  simp only [disk]
  split
  · rename_i h
    refine ⟨Nat.le_refl _, fun h1 h2 => ?_⟩
    exact absurd (List.length_eq_zero_iff.1 h1) h2
  · exact ⟨by show ws ≤ _; omega, fun _ _ => by simp⟩

theorem disk_room : disk.Room id := by
  intro ws p
  simp only [disk, id]
  split <;> simp <;> omega

/-- Not vacuous: the stream of `C110` that never ends, on a disk that is full at some time. -/
example : ∃ err b, executeStream true (logged disk) false false (newTokenStream foreverNext true)
    (BufWriter.new 16 (3, [])) = Go.ret (some err, b) := by
  have hb : ∀ n, ∃ toks, (cliText false toks).length = 2 * n ∧
      ∀ s : TS Bool, s.inner = true → ∃ s', Steps (TS.next foreverNext) s toks s' := by
    intro n
    induction n with
    | zero => exact ⟨[], rfl, fun s _ => ⟨s, rfl⟩⟩
    | succ n ih =>
      obtain ⟨toks, h1, h2⟩ := ih
      refine ⟨⟨[0x61], false, false, false⟩ :: ⟨[0x20], false, true, false⟩ :: toks, ?_, fun s hs => ?_⟩
      · simp only [cliText, List.flatMap_cons, List.length_append] at h1 ⊢
        simp only [Bool.false_eq_true, ↓reduceIte, List.append_nil, List.length_cons, List.length_nil] at h1 ⊢
        omega
      · obtain ⟨s', h3⟩ := h2 ⟨true, some ⟨[0x20], false, true, false⟩, none⟩ rfl
        refine ⟨s', ⟨false, some ⟨[0x61], false, false, false⟩, none⟩, ?_, _, rfl, h3⟩
        obtain ⟨inner, _, _⟩ := s
        subst hs
        rfl
  obtain ⟨toks, h1, h2⟩ := hb 10
  obtain ⟨err, b, -, h3⟩ := C112_ends true disk_lawful disk_room false (toks := toks) (size := 16) (by omega) 3 []
    (by simp only [id]; omega)
  exact ⟨err, b, h3 _ (h2 _ rfl)⟩

end Jargon
