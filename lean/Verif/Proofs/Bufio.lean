import Verif.Proofs.Consumers
import Verif.Spec.Cli

/-! `bufio.Writer` in front of a writer that records what it takes. -/

namespace Jargon

/-- What has been taken by the writer underneath and what is still in the buffer is, together, an
initial part of the text `T` that was to be written; all of it, as long as there was no error. -/
structure BufInv {ω : Type} (b : BufWriter (ω × Bytes)) (T : Bytes) : Prop where
  fits : b.buf.length ≤ b.size
  pre : b.under.2 ++ b.buf <+: T
  all : b.err = none → b.under.2 ++ b.buf = T

theorem BufInv.new {ω : Type} (size : Nat) (u : ω) (log : Bytes) :
    BufInv (BufWriter.new size (u, log)) log :=
  ⟨by simp [BufWriter.new], by simp [BufWriter.new], by simp [BufWriter.new]⟩

theorem BufWriter.flush_err {ω : Type} (w : Writer ω) (b : BufWriter ω) :
    (b.flush w).1 = (b.flush w).2.err ∧ (b.flush w).2.size = b.size := by
  unfold BufWriter.flush
  split
  · simp_all
  · split
    · simp_all
    · simp only
      split <;> simp_all

theorem BufWriter.flush_err_some {ω : Type} (w : Writer ω) {b : BufWriter ω} (h : b.err ≠ none) :
    b.flush w = (b.err, b) := by
  unfold BufWriter.flush
  cases he : b.err with
  | none => exact absurd he h
  | some e => rfl

theorem BufInv.flush {ω : Type} {w : Writer ω} (hw : w.Lawful) {b : BufWriter (ω × Bytes)} {T : Bytes}
    (h : BufInv b T) : BufInv (b.flush (logged w)).2 T ∧
      ((b.flush (logged w)).2.err = none → (b.flush (logged w)).2.buf = []) := by
  unfold BufWriter.flush
  split
  · rename_i e he
    exact ⟨h, fun hn => absurd hn (by simp [he])⟩
  · rename_i he
    split
    · rename_i hb
      exact ⟨h, fun _ => hb⟩
    · obtain ⟨h1, h2⟩ := hw b.under.1 b.buf
      have hall := h.all he
      simp only [logged]
      split
      · rename_i e hee
        refine ⟨⟨?_, ?_, ?_⟩, ?_⟩
        · simp only [List.length_drop]
          have := h.fits
          omega
        · simp only [List.append_assoc, List.take_append_drop]
          exact h.pre
        · simp
        · simp
      · rename_i hee
        have hlen : (w.write b.under.1 b.buf).1.1 = b.buf.length := by
          by_cases hlt : (w.write b.under.1 b.buf).1.1 < b.buf.length
          · exfalso
            by_cases hn : (w.write b.under.1 b.buf).1.2 = none
            · simp [hlt, hn] at hee
            · simp [hn] at hee
          · omega
        refine ⟨⟨?_, ?_, ?_⟩, fun _ => rfl⟩
        · simp
        · simp [hlen, hall]
        · intro _; simp [hlen, hall]

theorem flush_ok {ω : Type} {w : Writer ω} (hw : w.NeverFails) {b : BufWriter (ω × Bytes)}
    (h : b.err = none) : (b.flush (logged w)).2.err = none := by
  unfold BufWriter.flush
  rw [h]
  simp only
  split
  · exact h
  · have h1 := congrArg Prod.fst (hw b.under.1 b.buf)
    have h2 := congrArg Prod.snd (hw b.under.1 b.buf)
    simp only at h1 h2
    simp [logged, h1, h2]

theorem bufWriteString_spec {ω : Type} (direct : Bool) {w : Writer ω} (hw : w.Lawful) :
    ∀ (m : Nat) (b : BufWriter (ω × Bytes)) (s T : Bytes) (nn : Nat), 0 < b.size →
      2 * s.length + (if b.buf.length = b.size then 1 else 0) ≤ m → BufInv b T →
      ∃ n b', bufWriteString direct (logged w) b s nn = Go.ret ((n, b'.err), b') ∧
        b'.size = b.size ∧ BufInv b' (T ++ s) ∧ (w.NeverFails → b.err = none → b'.err = none) := by
  intro m
  induction m with
  | zero =>
    intro b s T nn hsz hm h
    have hs : s = [] := List.length_eq_zero_iff.mp (by omega)
    subst hs
    rw [bufWriteString]
    simp only [List.length_nil, gt_iff_lt, Nat.not_lt_zero, false_and, ↓reduceIte, List.append_nil]
    cases he : b.err with
    | none => exact ⟨nn, b, by obtain ⟨size, buf, err, under⟩ := b; simp at he; simp [he], rfl, h,
        fun _ _ => he⟩
    | some e => exact ⟨_, _, by rw [he], rfl, h, fun _ h => absurd h (by simp)⟩
  | succ m ih =>
    intro b s T nn hsz hm h
    rw [bufWriteString]
    by_cases hc : s.length > b.size - b.buf.length ∧ b.err = none
    · obtain ⟨hlen, herr⟩ := hc
      have hall := h.all herr
      have hfits := h.fits
      rw [if_pos ⟨hlen, herr⟩]
      split
      · rename_i hd
        obtain ⟨hw1, hw2⟩ := hw b.under.1 s
        have hnot : ¬ ((logged w).write b.under s).1.1 > s.length := by simp [logged]; omega
        simp only [if_neg hnot]
        simp only [logged]
        by_cases hall' : (w.write b.under.1 s).1.1 = s.length
        · -- everything was taken
          rw [hall']
          have hs0 : s.drop s.length = [] := List.drop_length
          rw [hs0, List.take_length]
          have hinv : BufInv { b with
              err := (w.write b.under.1 s).1.2
              under := ((w.write b.under.1 s).2, b.under.2 ++ s) } (T ++ s) := by
            rw [hd.1, List.append_nil] at hall
            refine ⟨hfits, ?_, fun _ => ?_⟩
            · simp only [hd.1, List.append_nil, hall]; exact List.prefix_rfl
            · simp only [hd.1, List.append_nil, hall]
          obtain ⟨n, b', e1, e2, e3, e4⟩ := ih { b with
              err := (w.write b.under.1 s).1.2
              under := ((w.write b.under.1 s).2, b.under.2 ++ s) } [] (T ++ s) (nn + s.length) hsz (by
              have : b.buf.length ≠ b.size := by rw [hd.1]; simp; omega
              simp [this]) hinv
          rw [List.append_nil] at e3
          refine ⟨n, b', e1, e2, e3, fun hn hb => e4 hn ?_⟩
          have := congrArg Prod.snd (hn b.under.1 s)
          simpa using this
        · -- just a part
          have hlt : (w.write b.under.1 s).1.1 < s.length := by omega
          cases hee : (w.write b.under.1 s).1.2 with
          | none =>
            have hpos : 0 < (w.write b.under.1 s).1.1 := by
              rcases Nat.eq_zero_or_pos (w.write b.under.1 s).1.1 with h0 | h0
              · exact absurd hee (hw2 h0 (by rintro rfl; simp at hlt))
              · exact h0
            have hinv : BufInv { b with
                err := none
                under := ((w.write b.under.1 s).2, b.under.2 ++ s.take (w.write b.under.1 s).1.1) }
                (T ++ s.take (w.write b.under.1 s).1.1) := by
              rw [hd.1, List.append_nil] at hall
              refine ⟨hfits, ?_, fun _ => ?_⟩
              · simp only [hd.1, List.append_nil, hall]; exact List.prefix_rfl
              · simp only [hd.1, List.append_nil, hall]
            obtain ⟨n, b', e1, e2, e3, e4⟩ := ih { b with
                err := none
                under := ((w.write b.under.1 s).2, b.under.2 ++ s.take (w.write b.under.1 s).1.1) }
                (s.drop (w.write b.under.1 s).1.1) _ (nn + (w.write b.under.1 s).1.1) hsz (by
                have : b.buf.length ≠ b.size := by rw [hd.1]; simp; omega
                simp only [this, ↓reduceIte, List.length_drop] at hm ⊢
                omega) hinv
            rw [List.append_assoc, List.take_append_drop] at e3
            exact ⟨n, b', e1, e2, e3, fun hn _ => e4 hn rfl⟩
          | some e =>
            rw [bufWriteString]
            rw [if_neg (by simp)]
            refine ⟨nn + (w.write b.under.1 s).1.1, { b with
              err := some e
              under := ((w.write b.under.1 s).2, b.under.2 ++ s.take (w.write b.under.1 s).1.1) },
              rfl, rfl, ⟨hfits, ?_, fun h => by cases h⟩, ?_⟩
            · rw [hd.1] at hall ⊢
              simp only [List.append_nil] at hall ⊢
              rw [← hall]
              exact (List.prefix_append_right_inj _).mpr (List.take_prefix _ _)
            · intro hn _
              have := congrArg Prod.fst (hn b.under.1 s)
              exact absurd this hall'
      · -- copy and flush
        have hmin : min (b.size - b.buf.length) s.length = b.size - b.buf.length := by omega
        simp only [hmin]
        have hinv : BufInv { b with buf := b.buf ++ s.take (b.size - b.buf.length) }
            (T ++ s.take (b.size - b.buf.length)) := by
          refine ⟨?_, ?_, ?_⟩
          · simp; omega
          · simp only [← List.append_assoc, hall]; exact List.prefix_rfl
          · intro _; simp only [← List.append_assoc, hall]
        obtain ⟨hf, hempty⟩ := hinv.flush hw
        have hsize := (BufWriter.flush_err (logged w)
          { b with buf := b.buf ++ s.take (b.size - b.buf.length) }).2
        have hok := flush_ok (w := w) (b := { b with buf := b.buf ++ s.take (b.size - b.buf.length) })
        generalize (BufWriter.flush (logged w)
          { b with buf := b.buf ++ s.take (b.size - b.buf.length) }).2 = b1 at hf hempty hsize hok
        simp only at hsize hok
        by_cases he1 : b1.err = none
        · have hb1 := hempty he1
          obtain ⟨n, b', e1, e2, e3, e4⟩ := ih b1 (s.drop (b.size - b.buf.length)) _
            (nn + (b.size - b.buf.length)) (by omega) (by
              have : b1.buf.length ≠ b1.size := by rw [hb1]; simp; omega
              simp only [this, ↓reduceIte, List.length_drop]
              split at hm <;> omega) hf
          rw [List.append_assoc, List.take_append_drop] at e3
          exact ⟨n, b', e1, by omega, e3, fun hn _ => e4 hn he1⟩
        · rw [bufWriteString, if_neg (fun h => he1 h.2)]
          cases hee : b1.err with
          | none => exact absurd hee he1
          | some e =>
            simp only
            refine ⟨_, b1, by rw [hee], hsize, ⟨hf.fits, hf.pre.trans ?_, fun h => absurd h he1⟩, ?_⟩
            · exact (List.prefix_append_right_inj _).mpr (List.take_prefix _ _)
            · intro hn _
              exact absurd (hok hn herr) he1
    · rw [if_neg hc]
      cases he : b.err with
      | some e =>
        simp only
        refine ⟨_, b, by rw [he], rfl, ⟨h.fits, h.pre.trans (List.prefix_append _ _), ?_⟩, ?_⟩
        · intro h; rw [he] at h; cases h
        · intro _ h; cases h
      | none =>
        simp only
        have hall := h.all he
        have hfits := h.fits
        have : ¬ s.length > b.size - b.buf.length := fun h => hc ⟨h, he⟩
        refine ⟨nn + s.length, { b with buf := b.buf ++ s }, by simp [he], rfl, ⟨?_, ?_, ?_⟩, fun _ _ => he⟩
        · simp; omega
        · simp only [← List.append_assoc, hall]; exact List.prefix_rfl
        · intro _; simp only [← List.append_assoc, hall]

theorem bufWriteByte_spec {ω : Type} {w : Writer ω} (hw : w.Lawful) {b : BufWriter (ω × Bytes)}
    {T : Bytes} (hsz : 0 < b.size) (h : BufInv b T) (c : UInt8) :
    (bufWriteByte (logged w) b c).1 = (bufWriteByte (logged w) b c).2.err ∧
      (bufWriteByte (logged w) b c).2.size = b.size ∧
      BufInv (bufWriteByte (logged w) b c).2 (T ++ [c]) ∧
      (w.NeverFails → b.err = none → (bufWriteByte (logged w) b c).2.err = none) := by
  unfold bufWriteByte
  cases he : b.err with
  | some e =>
    exact ⟨he.symm, rfl, ⟨h.fits, h.pre.trans (List.prefix_append _ _), fun h => by simp [he] at h⟩,
      fun _ h => by cases h⟩
  | none =>
    simp only
    split
    · rename_i hfull
      obtain ⟨hf, hempty⟩ := h.flush hw
      obtain ⟨herr, hsize⟩ := BufWriter.flush_err (logged w) b
      have hok := flush_ok (w := w) (b := b)
      generalize b.flush (logged w) = r at hf hempty herr hsize hok
      obtain ⟨e, b1⟩ := r
      simp only at hf hempty herr hsize hok
      cases e with
      | some e =>
        refine ⟨rfl, hsize, ⟨hf.fits, hf.pre.trans (List.prefix_append _ _), fun h => ?_⟩, fun hn _ => ?_⟩
        · simp only at h; rw [h] at herr; cases herr
        · have := hok hn he; rw [this] at herr; cases herr
      | none =>
        have hb1 := hempty herr.symm
        have hall := hf.all herr.symm
        refine ⟨herr, hsize, ⟨?_, ?_, fun _ => ?_⟩, fun _ _ => herr.symm⟩
        · simp only [hb1]; simp; omega
        · simp only [← List.append_assoc, hall]; exact List.prefix_rfl
        · simp only [← List.append_assoc, hall]
    · have hall := h.all he
      refine ⟨rfl, rfl, ⟨?_, ?_, fun _ => ?_⟩, fun _ _ => rfl⟩
      · simp; omega
      · simp only [← List.append_assoc, hall]; exact List.prefix_rfl
      · simp only [← List.append_assoc, hall]

theorem itoa_decimal (n : Nat) : Decimal n (itoa n) ∧ (0 < n → (itoa n).head? ≠ some 48) := by
  induction n using Nat.strongRecOn with
  | _ n ih =>
    rw [itoa]
    split
    · rename_i h
      have hn : (UInt8.ofNat (48 + n)).toNat = 48 + n := by
        simp only [UInt8.toNat_ofNat']; omega
      refine ⟨⟨?_, by simp, ?_, ?_⟩, ?_⟩
      · simp only [List.mem_singleton, forall_eq, hn]; omega
      · simp only [decimalValue, List.foldl_cons, List.foldl_nil, hn]; omega
      · simp only [List.head?_cons, Option.some.injEq]; intro h; rw [h]
      · simp only [List.head?_cons, ne_eq, Option.some.injEq]
        intro h0 h
        have := congrArg UInt8.toNat h
        rw [hn] at this
        simp at this
        omega
    · rename_i h
      obtain ⟨h1, h2⟩ := ih (n / 10) (by omega)
      have hn : (UInt8.ofNat (48 + n % 10)).toNat = 48 + n % 10 := by
        simp only [UInt8.toNat_ofNat']; omega
      have hhead : (itoa (n / 10) ++ [UInt8.ofNat (48 + n % 10)]).head? = (itoa (n / 10)).head? := by
        cases hi : itoa (n / 10) with
        | nil => exact absurd hi h1.nonempty
        | cons a l => rfl
      refine ⟨⟨?_, by simp, ?_, ?_⟩, ?_⟩
      · intro d hd
        rcases List.mem_append.mp hd with hd | hd
        · exact h1.digits d hd
        · simp only [List.mem_singleton] at hd; rw [hd, hn]; omega
      · have := h1.value
        unfold decimalValue at this ⊢
        rw [List.foldl_append, this]
        simp only [List.foldl_cons, List.foldl_nil, hn]
        omega
      · rw [hhead]; intro h'; exact absurd h' (h2 (by omega))
      · rw [hhead]; intro _; exact h2 (by omega)

theorem executeLoop_spec {σ ω : Type} (direct : Bool) {w : Writer ω} (hw : w.Lawful) (lines : Bool)
    {call : NextFn σ} (toks : List Token) (e : End) : ∀ (s : TS σ) (b : BufWriter (ω × Bytes)) (T : Bytes),
      0 < b.size → BufInv b T → b.err = none → Emits (TS.next call) toks e s →
      ∃ err b', executeLoop direct (logged w) lines call s b = Go.ret (err, b') ∧
        BufInv b' (T ++ cliText lines toks) ∧
        (err = none → e = .eof ∧ b'.buf = [] ∧ b'.err = none) ∧
        (w.NeverFails → err = e.err ∧ b'.err = none) ∧ b'.size = b.size := by
  induction toks with
  | nil =>
    intro s b T hsz h hb hem
    simp only [cliText, List.flatMap_nil, List.append_nil]
    cases e with
    | eof =>
      obtain ⟨x, h1, _⟩ := Quiet.step hem
      rw [executeLoop, TS.scan_of h1]
      simp only [Go.ret_bind, TS.next_fields h1, Option.isSome_none, Bool.false_and, Bool.false_eq_true,
        ↓reduceIte, Go.pure_eq]
      obtain ⟨hf, hempty⟩ := h.flush hw
      obtain ⟨herr, hs⟩ := BufWriter.flush_err (logged w) b
      refine ⟨(b.flush (logged w)).1, (b.flush (logged w)).2, rfl, hf, fun hn => ?_, fun hn => ?_, hs⟩
      · rw [hn] at herr; exact ⟨trivial, hempty herr.symm, herr.symm⟩
      · have := flush_ok hn hb; rw [herr]; exact ⟨this, this⟩
    | fail e =>
      obtain ⟨tok, x, h1⟩ := hem
      rw [executeLoop, TS.scan_of h1]
      simp only [Go.ret_bind, TS.next_fields h1, Option.isNone_some, Bool.and_false, Bool.false_eq_true,
        ↓reduceIte, Go.pure_eq]
      exact ⟨_, _, rfl, h, (fun h => nomatch h), fun _ => ⟨rfl, hb⟩, rfl⟩
  | cons t ts ih =>
    intro s b T hsz h hb hem
    rw [Emits.cons] at hem
    obtain ⟨x, h1, h2⟩ := hem
    rw [executeLoop, TS.scan_of h1]
    simp only [Go.ret_bind, TS.next_fields h1, Option.isSome_some, Option.isNone_none, Bool.and_self,
      ↓reduceIte, Token.string]
    obtain ⟨n, b1, e1, e2, e3, e4⟩ := bufWriteString_spec direct hw _ b t.value T 0 hsz (Nat.le_refl _) h
    rw [e1]
    simp only [Go.ret_bind]
    have htext : cliText lines (t :: ts) = t.value ++ ((if lines then [0x0A] else []) ++ cliText lines ts) := by
      simp [cliText]
    cases he : b1.err with
    | some e' =>
      simp only [Go.pure_eq]
      refine ⟨_, b1, rfl, ⟨e3.fits, e3.pre.trans ?_, fun h => by rw [he] at h; cases h⟩,
        fun h => by (cases h), fun hn => ?_, e2⟩
      · rw [htext, ← List.append_assoc]; exact List.prefix_append _ _
      · have := e4 hn hb; rw [he] at this; cases this
    | none =>
      simp only
      cases lines with
      | true =>
        simp only [↓reduceIte]
        obtain ⟨f1, f2, f3, f4⟩ := bufWriteByte_spec hw (by omega) e3 0x0A
        generalize bufWriteByte (logged w) b1 0x0A = r at f1 f2 f3 f4
        obtain ⟨err, b2⟩ := r
        simp only at f1 f2 f3 f4
        cases err with
        | some e' =>
          simp only [Go.pure_eq]
          refine ⟨_, b2, rfl, ⟨f3.fits, f3.pre.trans ?_, fun h => by rw [h] at f1; cases f1⟩,
            fun h => by (cases h), fun hn => ?_, by omega⟩
          · rw [htext]; simp only [↓reduceIte, List.append_assoc]
            exact (List.prefix_append_right_inj _).mpr
              ((List.prefix_append_right_inj _).mpr (List.prefix_append _ _))
          · have := f4 hn he; rw [this] at f1; cases f1
        | none =>
          simp only
          obtain ⟨err, b3, g1, g2, g3, g4, g5⟩ := ih x b2 _ (by omega) f3 f1.symm h2
          refine ⟨err, b3, g1, ?_, g3, g4, by omega⟩
          rw [htext]; simpa using g2
      | false =>
        simp only [Bool.false_eq_true, ↓reduceIte]
        obtain ⟨err, b3, g1, g2, g3, g4, g5⟩ := ih x b1 _ (by omega) e3 he h2
        refine ⟨err, b3, g1, ?_, g3, g4, by omega⟩
        rw [htext]; simpa using g2

/-- What the program should write. -/
def cliOutput (count lines : Bool) (toks : List Token) : Bytes :=
  if count then itoa toks.length ++ [0x0A] else cliText lines toks

theorem executeStream_spec {ω : Type} (direct : Bool) {w : Writer ω} (hw : w.Lawful)
    (count lines : Bool) {ts : TokenStream} {toks : List Token} {e : End} (h : ts.Yields toks e)
    {size : Nat} (hsz : 0 < size) (u : ω) (log : Bytes) :
    ∃ err b', executeStream direct (logged w) count lines ts (BufWriter.new size (u, log)) =
        Go.ret (err, b') ∧ b'.under.2 <+: log ++ cliOutput count lines toks ∧
        (err = none → e = .eof ∧ b'.under.2 = log ++ cliOutput count lines toks) ∧
        (w.NeverFails → err = e.err) := by
  unfold executeStream
  have hnew := BufInv.new size u log
  cases count with
  | true =>
    simp only [↓reduceIte, cliOutput]
    rw [count_yields h]
    simp only [Go.ret_bind]
    cases e with
    | fail e =>
      simp only [End.err, Go.pure_eq]
      exact ⟨_, _, rfl, List.prefix_append _ _, (fun h => nomatch h), fun _ => rfl⟩
    | eof =>
      simp only [End.err]
      obtain ⟨n, b1, e1, e2, e3, e4⟩ := bufWriteString_spec direct hw _ _ (itoa toks.length ++ [0x0A])
        log 0 (show 0 < (BufWriter.new size (u, log)).size from hsz) (Nat.le_refl _) hnew
      rw [e1]
      simp only [Go.ret_bind, Go.pure_eq]
      obtain ⟨hf, hempty⟩ := e3.flush hw
      obtain ⟨herr, -⟩ := BufWriter.flush_err (logged w) b1
      refine ⟨(b1.flush (logged w)).1, (b1.flush (logged w)).2, rfl, (List.prefix_append _ _).trans hf.pre, fun hn => ?_, fun hn => ?_⟩
      · rw [hn] at herr
        have := hf.all herr.symm
        rw [hempty herr.symm, List.append_nil] at this
        exact ⟨trivial, this⟩
      · rw [herr]; exact flush_ok hn (e4 hn rfl)
  | false =>
    simp only [Bool.false_eq_true, ↓reduceIte, cliOutput]
    obtain ⟨err, b', h1, h2, h3, h4, -⟩ := executeLoop_spec direct hw lines toks e _ _ _
      (show 0 < (BufWriter.new size (u, log)).size from hsz) hnew rfl h
    refine ⟨err, b', h1, (List.prefix_append _ _).trans h2.pre, fun hn => ?_, fun hn => (h4 hn).1⟩
    obtain ⟨g1, g2, g3⟩ := h3 hn
    have := h2.all g3
    rw [g2, List.append_nil] at this
    exact ⟨g1, this⟩

end Jargon
