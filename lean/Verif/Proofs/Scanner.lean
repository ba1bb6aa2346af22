import Verif.Spec.Scanner
import Verif.Proofs.Filters

/-! The scanner: one `Scan`, for any reader; and all of them, for a reader that delivers a text. -/

namespace Jargon

/-- The content is within the buffer, and the buffer is not larger than allowed. -/
def BufScanner.Bounded {σ : Type} (s : BufScanner σ) : Prop :=
  s.start + s.buf.length ≤ s.size ∧ s.size ≤ 65536

theorem new_bounded (R : IoReader) : (BufScanner.new R).Bounded := ⟨Nat.le_refl _, Nat.zero_le _⟩

theorem shift_facts {σ : Type} (s : BufScanner σ) : s.shift.buf = s.buf ∧ s.shift.size = s.size ∧
    s.shift.err = s.err ∧ s.shift.src = s.src ∧ s.shift.start ≤ s.start ∧
    (s.shift.start + s.buf.length = s.size → s.shift.start = 0) := by
  unfold BufScanner.shift
  split
  · exact ⟨rfl, rfl, rfl, rfl, Nat.zero_le _, fun _ => rfl⟩
  · rename_i h
    refine ⟨rfl, rfl, rfl, rfl, Nat.le_refl _, fun h' => ?_⟩
    by_cases h0 : s.start > 0
    · exact absurd ⟨h0, Or.inl h'⟩ h
    · omega

/-- Before the read: the buffer, if it is not full for good. -/
def BufScanner.ready {σ : Type} (s : BufScanner σ) : BufScanner σ :=
  if s.shift.start + s.shift.buf.length = s.shift.size then s.shift.grow else s.shift

theorem ready_facts {σ : Type} {s : BufScanner σ} (hb : s.Bounded)
    (h : ¬ (s.shift.start + s.shift.buf.length = s.shift.size ∧ s.shift.size ≥ maxTokenSize)) :
    s.ready.buf = s.buf ∧ s.ready.err = s.err ∧ s.ready.src = s.src ∧ s.ready.Bounded ∧
    s.ready.start + s.buf.length < s.ready.size := by
  obtain ⟨h1, h2, h3, h4, h5, h6⟩ := shift_facts s
  obtain ⟨hb1, hb2⟩ := hb
  rw [h1, h2] at h
  unfold BufScanner.ready
  rw [h1, h2]
  by_cases hf : s.shift.start + s.buf.length = s.size
  · have h0 := h6 hf
    have hlt : s.size < 65536 := by
      have : ¬ s.size ≥ maxTokenSize := fun h' => h ⟨hf, h'⟩
      simp only [maxTokenSize] at this
      omega
    rw [if_pos hf]
    refine ⟨h1, h3, h4, ?_, ?_⟩
    · refine ⟨?_, ?_⟩
      · simp only [BufScanner.grow, h1, h2, startBufSize, maxTokenSize]
        split <;> omega
      · simp only [BufScanner.grow, maxTokenSize]; omega
    · simp only [BufScanner.grow, h2, startBufSize, maxTokenSize]
      split <;> omega
  · rw [if_neg hf]
    refine ⟨h1, h3, h4, ⟨?_, ?_⟩, ?_⟩
    · rw [h1, h2]; omega
    · rw [h2]; omega
    · rw [h2]; omega

/-- One step of `Scan`. -/
theorem scan_eq (R : IoReader) (split : SplitFunc) (s : BufScanner R.σ) :
    BufScanner.scan R split s =
      match s.ask split with
      | some n =>
        if s.buf.length < n then
          Go.ret (none, { s with err := some (.other (match s.err with
            | some (.other e) => e
            | _ => errAdvanceTooFar)) })
        else Go.ret (some (s.buf.take n), { s with start := s.start + n, buf := s.buf.drop n })
      | none =>
        if s.err.isSome = true then Go.ret (none, { s with start := 0, buf := [] })
        else if s.shift.start + s.shift.buf.length = s.shift.size ∧ s.shift.size ≥ maxTokenSize then
          Go.ret (none, { s.shift with err := some (.other errTooLong) })
        else BufScanner.scan R split (BufScanner.fill R maxEmptyReads s.ready) := by
  rw [BufScanner.scan]
  cases s.ask split with
  | some n => rfl
  | none =>
    simp only [BufScanner.ready]
    by_cases h1 : s.err.isSome = true
    · rw [if_pos h1, if_pos h1]
    · rw [if_neg h1, if_neg h1]
      by_cases h2 : s.shift.start + s.shift.buf.length = s.shift.size
      · by_cases h3 : s.shift.size ≥ maxTokenSize
        · rw [if_pos h2, if_pos h3, if_pos ⟨h2, h3⟩]
        · rw [if_pos h2, if_neg h3, if_neg (fun h => h3 h.2), if_pos h2]
      · rw [if_neg h2, if_neg (fun h => h2 h.1), if_neg h2]

/-! ### Any reader -/

section
variable {R : IoReader} {split : SplitFunc}

theorem Fetches.trans {a b c : Bytes} {s t u : R.σ}
    (h1 : Fetches R split a s b t) (h2 : Fetches R split b t c u) : Fetches R split a s c u := by
  induction h1 with
  | refl => exact h2
  | step h3 h4 h5 h6 _ ih => exact .step h3 h4 h5 h6 (ih h2)
  | bad h3 h4 h5 h6 _ ih => exact .bad h3 h4 h5 h6 (ih h2)

theorem fill_fetches (left : Nat) {s : BufScanner R.σ} (hb : s.Bounded)
    (hroom : s.start + s.buf.length < s.size) (he : s.err = none)
    (hask : s.buf = [] ∨ split s.buf false = none) :
    (BufScanner.fill R left s).Bounded ∧
    Fetches R split s.buf s.src (BufScanner.fill R left s).buf (BufScanner.fill R left s).src ∧
    ((BufScanner.fill R left s).err = none → s.buf.length < (BufScanner.fill R left s).buf.length) := by
  induction left generalizing s with
  | zero =>
    rw [BufScanner.fill]
    simp only
    split
    · rename_i hbad
      exact ⟨hb, .bad hask (by omega) (by have := hb.2; omega) hbad .refl, by simp⟩
    · rename_i hok
      have hstep : Fetches R split s.buf s.src
          (s.buf ++ (R.read s.src (s.size - (s.start + s.buf.length))).1.1)
          (R.read s.src (s.size - (s.start + s.buf.length))).2 :=
        .step hask (by omega) (by have := hb.2; omega) (by omega) .refl
      have hbd : s.start + (s.buf ++ (R.read s.src (s.size - (s.start + s.buf.length))).1.1).length ≤ s.size ∧
          s.size ≤ 65536 := ⟨by rw [List.length_append]; omega, hb.2⟩
      split
      · exact ⟨hbd, hstep, by simp⟩
      · split
        · rename_i hne
          refine ⟨hbd, hstep, fun _ => ?_⟩
          have := List.length_pos_iff.mpr hne
          simp only [List.length_append]
          omega
        · exact ⟨hbd, hstep, by simp⟩
  | succ left ih =>
    rw [BufScanner.fill]
    simp only
    split
    · rename_i hbad
      exact ⟨hb, .bad hask (by omega) (by have := hb.2; omega) hbad .refl, by simp⟩
    · rename_i hok
      have hstep : Fetches R split s.buf s.src
          (s.buf ++ (R.read s.src (s.size - (s.start + s.buf.length))).1.1)
          (R.read s.src (s.size - (s.start + s.buf.length))).2 :=
        .step hask (by omega) (by have := hb.2; omega) (by omega) .refl
      have hbd : s.start + (s.buf ++ (R.read s.src (s.size - (s.start + s.buf.length))).1.1).length ≤ s.size ∧
          s.size ≤ 65536 := ⟨by rw [List.length_append]; omega, hb.2⟩
      split
      · exact ⟨hbd, hstep, by simp⟩
      · split
        · rename_i hne
          refine ⟨hbd, hstep, fun _ => ?_⟩
          have := List.length_pos_iff.mpr hne
          simp only [List.length_append]
          omega
        · rename_i hne
          have hnil : (R.read s.src (s.size - (s.start + s.buf.length))).1.1 = [] := by
            simpa using hne
          have hi := ih (s := { s with
              buf := s.buf ++ (R.read s.src (s.size - (s.start + s.buf.length))).1.1,
              src := (R.read s.src (s.size - (s.start + s.buf.length))).2 }) hbd
            (by simp only [hnil, List.append_nil]; exact hroom) he
            (by simp only [hnil, List.append_nil]; exact hask)
          refine ⟨hi.1, hstep.trans hi.2.1, fun h => ?_⟩
          have := hi.2.2 h
          simp only [hnil, List.append_nil] at this ⊢
          exact this

/-- One `Scan` always returns. It stays within its buffer, reads only while it must, and has either
delivered or still holds what it has read. -/
theorem scan_fetches {s : BufScanner R.σ} (hb : s.Bounded) :
    ∃ seg s' held, BufScanner.scan R split s = Go.ret (seg, s') ∧ s'.Bounded ∧
      Fetches R split s.buf s.src held s'.src ∧ (∀ t, seg = some t → held = t ++ s'.buf) := by
  generalize hm : 65536 - s.buf.length = m
  induction m using Nat.strongRecOn generalizing s with
  | ind m ih =>
    rw [scan_eq]
    cases hask : s.ask split with
    | some n =>
      simp only
      by_cases hn : s.buf.length < n
      · rw [if_pos hn]
        exact ⟨_, _, _, rfl, hb, .refl, by simp⟩
      · rw [if_neg hn]
        refine ⟨_, _, _, rfl, ⟨?_, hb.2⟩, .refl, ?_⟩
        · have := hb.1
          simp only [List.length_drop]
          omega
        · intro t ht
          cases ht
          exact (List.take_append_drop n s.buf).symm
    | none =>
      simp only
      by_cases he : s.err.isSome = true
      · rw [if_pos he]
        exact ⟨_, _, _, rfl, ⟨Nat.zero_le _, hb.2⟩, .refl, by simp⟩
      · rw [if_neg he]
        obtain ⟨h1, h2, h3, h4, h5, h6⟩ := shift_facts s
        by_cases hfull : s.shift.start + s.shift.buf.length = s.shift.size ∧ s.shift.size ≥ maxTokenSize
        · rw [if_pos hfull]
          refine ⟨_, _, s.buf, rfl, ⟨?_, ?_⟩, ?_, by simp⟩
          · simp only; omega
          · simp only; rw [h2]; exact hb.2
          · simp only; rw [h4]; exact .refl
        · rw [if_neg hfull]
          have hnone : s.err = none := by simpa using he
          obtain ⟨r1, r2, r3, r4, r5⟩ := ready_facts hb hfull
          have hask' : s.buf = [] ∨ split s.buf false = none := by
            by_cases hnil : s.buf = []
            · exact Or.inl hnil
            · right
              rw [BufScanner.ask, if_pos (Or.inl hnil), hnone] at hask
              exact hask
          have hf := fill_fetches (split := split) maxEmptyReads r4 (by rw [r1]; exact r5)
            (by rw [r2]; exact hnone) (by rw [r1]; exact hask')
          rw [r1, r3] at hf
          obtain ⟨f1, f2, f3⟩ := hf
          have hl : (BufScanner.fill R maxEmptyReads s.ready).buf.length ≤ 65536 := by
            have := f1.1; have := f1.2; omega
          by_cases hfe : (BufScanner.fill R maxEmptyReads s.ready).err = none
          · have hlt := f3 hfe
            obtain ⟨seg, s', held, g1, g2, g3, g4⟩ := ih _ (by omega) f1 rfl
            exact ⟨seg, s', held, g1, g2, f2.trans g3, g4⟩
          · -- the reader has ended: no further read
            generalize hu : BufScanner.fill R maxEmptyReads s.ready = u at *
            have hue : u.err.isSome = true := by
              cases h : u.err with
              | none => exact absurd h hfe
              | some e => rfl
            rw [scan_eq]
            cases u.ask split with
            | some n =>
              simp only
              by_cases hn : u.buf.length < n
              · rw [if_pos hn]
                exact ⟨_, _, _, rfl, f1, f2, by simp⟩
              · rw [if_neg hn]
                refine ⟨_, _, _, rfl, ⟨?_, f1.2⟩, f2, ?_⟩
                · have := f1.1
                  simp only [List.length_drop]
                  omega
                · intro t ht
                  cases ht
                  exact (List.take_append_drop n u.buf).symm
            | none =>
              simp only
              rw [if_pos hue]
              exact ⟨_, _, _, rfl, ⟨Nat.zero_le _, f1.2⟩, f2, by simp⟩

end

/-! ### A reader that delivers a text -/

section
variable {R : IoReader} {split : SplitFunc} {alone : Bool}

theorem fill_gives (n idle left : Nat) {s : BufScanner R.σ} {d : Bytes} {e : ReadErr}
    (hi : idle ≤ left) (hroom : s.start + s.buf.length < s.size) (he : s.err = none)
    (h : Supplies alone R.read n idle s.src d e) :
    ∃ d1 d2, d = d1 ++ d2 ∧ (BufScanner.fill R left s).buf = s.buf ++ d1 ∧
      (BufScanner.fill R left s).start = s.start ∧ (BufScanner.fill R left s).size = s.size ∧
      s.start + (s.buf ++ d1).length ≤ s.size ∧
      (((BufScanner.fill R left s).err = none ∧
        ∃ n', n' < n ∧ Supplies alone R.read n' 100 (BufScanner.fill R left s).src d2 e) ∨
       ((BufScanner.fill R left s).err = some e ∧ d2 = [] ∧ (alone = true → d1 = []))) := by
  induction n generalizing idle left s d with
  | zero => exact absurd h (by simp [Supplies])
  | succ n ih =>
    rw [Supplies] at h
    obtain ⟨h1, h2⟩ := h (s.size - (s.start + s.buf.length)) (by omega)
    rw [BufScanner.fill.eq_def]
    simp only
    rw [if_neg (by omega)]
    have hbd : s.start + (s.buf ++ (R.read s.src (s.size - (s.start + s.buf.length))).1.1).length ≤ s.size := by
      rw [List.length_append]; omega
    cases hr : (R.read s.src (s.size - (s.start + s.buf.length))).1.2 with
    | some e' =>
      rw [hr] at h2
      obtain ⟨rfl, rfl, h4⟩ := h2
      exact ⟨_, [], (List.append_nil _).symm, rfl, rfl, rfl, hbd, Or.inr ⟨rfl, rfl, h4⟩⟩
    | none =>
      rw [hr] at h2
      obtain ⟨d', rfl, h3⟩ := h2
      by_cases hnil : (R.read s.src (s.size - (s.start + s.buf.length))).1.1 = []
      · rw [if_pos hnil] at h3
        cases left with
        | zero => omega
        | succ left =>
          simp only [hnil, ne_eq, not_true_eq_false, if_false, List.append_nil, List.nil_append]
          obtain ⟨d1, d2, g1, g2, g3, g4, g5, g6⟩ := ih (idle - 1) left
            (s := { s with src := (R.read s.src (s.size - (s.start + s.buf.length))).2 })
            (by omega) hroom he h3.2
          refine ⟨d1, d2, g1, g2, g3, g4, g5, ?_⟩
          rcases g6 with ⟨g6, n', g7, g8⟩ | g6
          · exact Or.inl ⟨g6, n', by omega, g8⟩
          · exact Or.inr g6
      · rw [if_neg hnil] at h3
        simp only [ne_eq, hnil, not_false_eq_true, if_true]
        refine ⟨_, d', rfl, ?_⟩
        simp only [true_and]
        exact ⟨hbd, Or.inl ⟨he, n, Nat.lt_succ_self n, h3⟩⟩

/-- The scanner still reads, and `d` is to come. -/
def StillReading (alone : Bool) (R : IoReader) (n : Nat) (s : BufScanner R.σ) (d : Bytes) (e : ReadErr) : Prop :=
  s.err = none ∧ s.Bounded ∧ ∃ d', d = s.buf ++ d' ∧ Supplies alone R.read n 100 s.src d' e

/-- The reader has ended, and `d` is in the buffer. -/
def Ended {σ : Type} (alone : Bool) (s : BufScanner σ) (d : Bytes) (e : ReadErr) : Prop :=
  s.err = some e ∧ s.buf = d ∧ (alone = true → d.length < 65536)

/-- `d` is to come. -/
def Ready (alone : Bool) (R : IoReader) (s : BufScanner R.σ) (d : Bytes) (e : ReadErr) : Prop :=
  (∃ n, StillReading alone R n s d e) ∨ Ended alone s d e

/-- What a `Scan` does with `d` to come. -/
def Scans (alone : Bool) (R : IoReader) (split : SplitFunc) (s : BufScanner R.σ) (d : Bytes) (e : ReadErr) : Prop :=
  (∀ n, d ≠ [] → firstToken split 65536 d = some n →
    ∃ s', BufScanner.scan R split s = Go.ret (some (d.take n), s') ∧ Ready alone R s' (d.drop n) e) ∧
  (d = [] → ∃ s', BufScanner.scan R split s = Go.ret (none, s') ∧ Ended alone s' [] e) ∧
  (d ≠ [] → alone = true → firstToken split 65536 d = none →
    ∃ s', BufScanner.scan R split s = Go.ret (none, s') ∧ s'.err = some (.other errTooLong) ∧
      d.take 65536 = s'.buf)

theorem firstToken_true (hS : split.Lawful) {d : Bytes} {n : Nat} (h : firstToken split 65536 d = some n) :
    split d true = some n := by
  unfold firstToken at h
  split at h
  · exact h
  · have := hS.steady h (d.drop 65536) true
    rwa [List.take_append_drop] at this

theorem firstToken_of (hS : split.Lawful) {p x : Bytes} {n : Nat} (hp : p.length ≤ 65536)
    (h : split p false = some n) : firstToken split 65536 (p ++ x) = some n := by
  unfold firstToken
  split
  · exact hS.steady h x true
  · have : (p ++ x).take 65536 = p ++ x.take (65536 - p.length) := by
      rw [List.take_append, List.take_of_length_le hp]
    rw [this]
    exact hS.steady h _ false

theorem scans_ended (hS : split.Lawful) {s : BufScanner R.σ} {d : Bytes} {e : ReadErr} (h : Ended alone s d e) :
    Scans alone R split s d e := by
  obtain ⟨h1, rfl, h3⟩ := h
  have hask : s.ask split = split s.buf true := by
    rw [BufScanner.ask, if_pos (Or.inr (by rw [h1]; rfl)), h1]; rfl
  refine ⟨?_, ?_, ?_⟩
  · intro n hne hn
    have ht := firstToken_true hS hn
    have hfit := hS.fits ht
    rw [scan_eq, hask, ht]
    simp only
    rw [if_neg (by omega)]
    refine ⟨_, rfl, Or.inr ⟨h1, rfl, fun ha => ?_⟩⟩
    have := h3 ha
    rw [List.length_drop]; omega
  · intro hnil
    have hnone : split s.buf true = none := by
      cases hn : split s.buf true with
      | none => rfl
      | some n =>
        have := hS.fits hn
        rw [hnil] at this
        simp only [List.length_nil] at this
        omega
    rw [scan_eq, hask, hnone]
    simp only
    rw [if_pos (by rw [h1]; rfl)]
    exact ⟨_, rfl, h1, rfl, fun _ => by simp⟩
  · intro hne ha hn
    have hlt := h3 ha
    rw [firstToken, if_pos hlt] at hn
    have := hS.ends hne
    rw [hn] at this
    cases this

theorem scans_reading (hS : split.Lawful) (n : Nat) {s : BufScanner R.σ} {d : Bytes} {e : ReadErr}
    (h : StillReading alone R n s d e) : Scans alone R split s d e := by
  induction n using Nat.strongRecOn generalizing s with
  | ind n ih =>
    obtain ⟨he, hb, d', rfl, hD⟩ := h
    have hlen : s.buf.length ≤ 65536 := by have := hb.1; have := hb.2; omega
    cases hask : s.ask split with
    | some m =>
      have hne : s.buf ≠ [] := by
        intro h0
        rw [BufScanner.ask, if_neg (by rw [h0, he]; simp)] at hask
        cases hask
      have hm : split s.buf false = some m := by
        rw [BufScanner.ask, if_pos (Or.inl hne), he] at hask
        exact hask
      have hfit := hS.fits hm
      have hft := firstToken_of hS (x := d') hlen hm
      refine ⟨?_, ?_, ?_⟩
      · intro m' _ hm'
        rw [hft] at hm'
        cases hm'
        rw [scan_eq, hask]
        simp only
        rw [if_neg (by omega), List.take_append_of_le_length hfit.2, List.drop_append_of_le_length hfit.2]
        refine ⟨_, rfl, Or.inl ⟨n, he, ⟨?_, hb.2⟩, d', rfl, hD⟩⟩
        have := hb.1
        simp only [List.length_drop]
        omega
      · intro h0
        exact absurd (List.append_eq_nil_iff.mp h0).1 hne
      · intro _ _ h0
        rw [hft] at h0
        cases h0
    | none =>
      obtain ⟨h1, h2, h3, h4, h5, h6⟩ := shift_facts s
      by_cases hfull : s.shift.start + s.shift.buf.length = s.shift.size ∧ s.shift.size ≥ maxTokenSize
      · -- the buffer is full
        have hsz : s.buf.length = 65536 := by
          have hx := hfull.1
          rw [h1, h2] at hx
          have := h6 hx
          have hy := hfull.2
          rw [h2] at hy
          simp only [maxTokenSize] at hy
          have := hb.2
          omega
        have hne : s.buf ≠ [] := by
          intro h0
          rw [h0] at hsz
          simp at hsz
        have hm : split s.buf false = none := by
          rw [BufScanner.ask, if_pos (Or.inl hne), he] at hask
          exact hask
        have htake : (s.buf ++ d').take 65536 = s.buf := by
          rw [← hsz, List.take_left]
        have hft : firstToken split 65536 (s.buf ++ d') = none := by
          rw [firstToken, if_neg (by rw [List.length_append]; omega), htake]
          exact hm
        refine ⟨?_, ?_, ?_⟩
        · intro m' _ hm'
          rw [hft] at hm'
          cases hm'
        · intro h0
          exact absurd (List.append_eq_nil_iff.mp h0).1 hne
        · intro _ _ _
          rw [scan_eq, hask]
          simp only
          rw [if_neg (by rw [he]; simp), if_pos hfull]
          exact ⟨_, rfl, rfl, by rw [htake]; exact h1.symm⟩
      · obtain ⟨r1, r2, r3, r4, r5⟩ := ready_facts hb hfull
        rw [← r3] at hD
        obtain ⟨d1, d2, rfl, f2, f3, f4, f5, f6⟩ := fill_gives n 100 maxEmptyReads (Nat.le_refl _)
          (by rw [r1]; exact r5) (by rw [r2]; exact he) hD
        have heq : BufScanner.scan R split s =
            BufScanner.scan R split (BufScanner.fill R maxEmptyReads s.ready) := by
          rw [scan_eq R split s, hask]
          simp only
          rw [if_neg (by rw [he]; simp), if_neg hfull]
        rw [r1] at f2 f5
        have hbd : (BufScanner.fill R maxEmptyReads s.ready).Bounded := by
          refine ⟨?_, by rw [f4]; exact r4.2⟩
          rw [f2, f3, f4]; exact f5
        unfold Scans
        rw [heq]
        rcases f6 with ⟨g1, n', g2, g3⟩ | ⟨g1, g2, g3⟩
        · exact ih n' g2 ⟨g1, hbd, d2, by rw [f2, List.append_assoc], g3⟩
        · refine scans_ended hS ⟨g1, by rw [f2, g2, List.append_nil], fun ha => ?_⟩
          rw [g2, List.append_nil, g3 ha, List.append_nil]
          have := r4.2
          omega

theorem scans_ready (hS : split.Lawful) {s : BufScanner R.σ} {d : Bytes} {e : ReadErr} (h : Ready alone R s d e) :
    Scans alone R split s d e := by
  rcases h with ⟨n, h⟩ | h
  · exact scans_reading hS n h
  · exact scans_ended hS h

theorem Gives.ready {d : Bytes} {e : ReadErr} (h : R.Gives alone d e) : Ready alone R (BufScanner.new R) d e := by
  obtain ⟨n, h⟩ := h
  exact Or.inl ⟨n, rfl, new_bounded R, d, rfl, h⟩

theorem scanner_ends (U : Unicode) (hS : split.Lawful) {s : BufScanner R.σ} {e : ReadErr}
    (h : Ready alone R s [] e) : Emits (scannerNext U R split) [] e.toEnd s := by
  cases e with
  | eof =>
    refine ⟨fun s => Ready alone R s [] .eof, h, ?_⟩
    intro s hs
    obtain ⟨s', h1, h2⟩ := (scans_ready hS hs).2.1 rfl
    refine ⟨s', ?_, Or.inr h2⟩
    simp [scannerNext, h1, BufScanner.error, h2.1]
  | other e =>
    obtain ⟨s', h1, h2⟩ := (scans_ready hS h).2.1 rfl
    refine ⟨none, s', ?_⟩
    simp [scannerNext, h1, BufScanner.error, h2.1]

theorem scanner_emits (U : Unicode) (hS : split.Lawful) (fuel : Nat) {s : BufScanner R.σ} {d : Bytes} {e : ReadErr}
    (hl : d.length ≤ fuel) (h : Ready alone R s d e)
    (ha : alone = true ∨ (cutTokensAux split 65536 fuel d).2 = false) :
    Emits (scannerNext U R split) ((cutTokensAux split 65536 fuel d).1.map fun s => mkToken U s false)
      (scanEnd (cutTokensAux split 65536 fuel d).2 e) s := by
  induction fuel generalizing s d with
  | zero =>
    have : d = [] := List.length_eq_zero_iff.mp (by omega)
    subst this
    exact scanner_ends U hS h
  | succ fuel ih =>
    cases d with
    | nil => exact scanner_ends U hS h
    | cons b t =>
      rw [cutTokensAux] at ha ⊢
      have hsc := scans_ready hS h
      cases hf : firstToken split 65536 (b :: t) with
      | none =>
        rw [hf] at ha
        simp only [Bool.true_eq_false, or_false] at ha
        obtain ⟨s', h1, h2, _⟩ := hsc.2.2 (by simp) ha hf
        refine ⟨none, s', ?_⟩
        simp [scannerNext, h1, BufScanner.error, h2]
      | some k =>
        rw [hf] at ha
        simp only at ha ⊢
        obtain ⟨s', h1, h2⟩ := hsc.1 k (by simp) hf
        have hfit := hS.fits (firstToken_true hS hf)
        refine Emits.cons.2 ⟨s', ?_, ih (by rw [List.length_drop]; simp only [List.length_cons] at hl ⊢; omega) h2 ha⟩
        have hne : (b :: t).take k ≠ [] := by
          intro h0
          have := congrArg List.length h0
          rw [List.length_take] at this
          simp only [List.length_nil] at this
          omega
        simp [scannerNext, h1, newToken_some hne]

end

end Jargon
