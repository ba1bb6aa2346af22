import Verif.Proofs.ScannerWords
import Verif.Props.Uax29

/-! C89: how a reader delivers its data does not matter. C90: texts of any size. C91: how far the tokenizer reads
ahead. C92: what comes after an error. C76: the scanner is one as assumed elsewhere. -/

namespace Jargon

/-! ### Readers -/

section
variable {σ : Type} {read : σ → Nat → (Bytes × Option ReadErr) × σ}

theorem Supplies.weaken {alone : Bool} {n idle : Nat} {s : σ} {d : Bytes} {e : ReadErr}
    (h : Supplies true read n idle s d e) : Supplies alone read n idle s d e := by
  induction n generalizing idle s d with
  | zero => exact h
  | succ n ih =>
    rw [Supplies] at h ⊢
    intro k hk
    obtain ⟨h1, h2⟩ := h k hk
    refine ⟨h1, ?_⟩
    cases hr : (read s k).1.2 with
    | some e' =>
      rw [hr] at h2
      exact ⟨h2.1, h2.2.1, fun _ => h2.2.2 rfl⟩
    | none =>
      rw [hr] at h2
      obtain ⟨d', h3, h4⟩ := h2
      refine ⟨d', h3, ?_⟩
      split at h4
      · rename_i hnil
        rw [if_pos hnil]
        exact ⟨h4.1, ih h4.2⟩
      · rename_i hnil
        rw [if_neg hnil]
        exact ih h4

theorem IoReader.Gives.weaken {R : IoReader} {alone : Bool} {d : Bytes} {e : ReadErr} (h : R.Gives true d e) :
    R.Gives alone d e := by
  obtain ⟨n, h⟩ := h
  exact ⟨n, h.weaken⟩

theorem supplies_step {alone : Bool} {n idle : Nat} {s : σ} {d : Bytes} {e : ReadErr}
    (h : ∀ k, 0 < k →
      (∃ s', read s k = ((d, some e), s') ∧ d.length ≤ k ∧ (alone = true → d = [])) ∨
      (∃ bs d' s', read s k = ((bs, none), s') ∧ bs.length ≤ k ∧ d = bs ++ d' ∧ bs ≠ [] ∧
        Supplies alone read n 100 s' d' e) ∨
      (∃ s', read s k = (([], none), s') ∧ 0 < idle ∧ Supplies alone read n (idle - 1) s' d e)) :
    Supplies alone read (n + 1) idle s d e := by
  intro k hk
  rcases h k hk with ⟨s', h1, h2, h3⟩ | ⟨bs, d', s', h1, h2, h3, h4, h5⟩ | ⟨s', h1, h2, h3⟩
  · rw [h1]; exact ⟨h2, rfl, rfl, h3⟩
  · rw [h1]
    refine ⟨h2, d', h3, ?_⟩
    rw [if_neg h4]; exact h5
  · rw [h1]
    refine ⟨Nat.zero_le _, d, rfl, ?_⟩
    rw [if_pos rfl]; exact ⟨h2, h3⟩

end

theorem take_ne_nil {s : Bytes} {k : Nat} (hs : s ≠ []) (hk : 0 < k) : s.take k ≠ [] := by
  obtain ⟨b, t, rfl⟩ := List.exists_cons_of_ne_nil hs
  obtain ⟨k, rfl⟩ := Nat.exists_eq_succ_of_ne_zero (Nat.pos_iff_ne_zero.mp hk)
  simp

theorem stringReader_gives (alone : Bool) (s : Bytes) : (stringReader s).Gives alone s .eof := by
  have key : ∀ (n : Nat) (t : Bytes), t.length ≤ n → Supplies alone stringRead (n + 1) 100 t t .eof := by
    intro n
    induction n with
    | zero =>
      intro t ht
      have : t = [] := List.length_eq_zero_iff.mp (by omega)
      subst this
      exact supplies_step fun k _ => Or.inl ⟨[], rfl, Nat.zero_le _, fun _ => rfl⟩
    | succ n ih =>
      intro t ht
      refine supplies_step fun k hk => ?_
      by_cases hnil : t = []
      · subst hnil
        exact Or.inl ⟨[], rfl, Nat.zero_le _, fun _ => rfl⟩
      · have := List.length_pos_iff.mpr hnil
        exact Or.inr (Or.inl ⟨t.take k, t.drop k, t.drop k, if_neg hnil, by rw [List.length_take]; omega,
          (List.take_append_drop k t).symm, take_ne_nil hnil hk, ih _ (by rw [List.length_drop]; omega)⟩)
  exact ⟨_, key s.length s (Nat.le_refl _)⟩

theorem eagerReader_gives (s : Bytes) (e : ReadErr) : (eagerReader s e).Gives false s e := by
  have key : ∀ (n : Nat) (t : Bytes), t.length ≤ n → Supplies false (eagerRead e) (n + 1) 100 t t e := by
    intro n
    induction n with
    | zero =>
      intro t ht
      have : t = [] := List.length_eq_zero_iff.mp (by omega)
      subst this
      exact supplies_step fun k _ => Or.inl ⟨[], by simp [eagerRead], Nat.zero_le _, by simp⟩
    | succ n ih =>
      intro t ht
      refine supplies_step fun k hk => ?_
      by_cases hle : t.length ≤ k
      · exact Or.inl ⟨t.drop k, by simp [eagerRead, hle, List.take_of_length_le hle], hle, by simp⟩
      · have hnil : t ≠ [] := by rintro rfl; simp at hle
        exact Or.inr (Or.inl ⟨t.take k, t.drop k, t.drop k, by simp [eagerRead, hle], by rw [List.length_take]; omega,
          (List.take_append_drop k t).symm, take_ne_nil hnil hk, ih _ (by rw [List.length_drop]; omega)⟩)
  exact ⟨_, key s.length s (Nat.le_refl _)⟩

theorem slowReader_gives (s : Bytes) (e : ReadErr) : (slowReader s e).Gives true s e := by
  have key : ∀ (t : Bytes), Supplies true (slowRead e) (2 * t.length + 2) 100 (t, false) t e := by
    intro t
    induction t with
    | nil =>
      refine supplies_step fun k hk => Or.inr (Or.inr ⟨([], true), rfl, by decide, ?_⟩)
      exact supplies_step fun k hk => Or.inl ⟨([], true), rfl, Nat.zero_le _, fun _ => rfl⟩
    | cons b t ih =>
      show Supplies true _ (2 * t.length + 2 + 1 + 1) 100 _ _ _
      refine supplies_step fun k hk => Or.inr (Or.inr ⟨(b :: t, true), rfl, by decide, ?_⟩)
      refine supplies_step fun k hk => Or.inr (Or.inl ⟨[b], t, (t, false), ?_, hk, rfl, by simp, ih⟩)
      have : k ≠ 0 := by omega
      simp [slowRead, this]
  exact ⟨_, key s⟩

/-! ### C89 -/

/-- **C89.** Whatever the sizes of the pieces in which a reader hands out a text, even if it hands out
nothing at times, the tokens are those of the text, cut as a whole, and the stream ends as the reader
does: unless a token does not fit into 64 KiB, which ends it with an error. (This is for readers whose end,
or error, comes without data.) -/
theorem C89_any_reads (U : Unicode) {split : SplitFunc} (hS : split.Lawful) {R : IoReader} {d : Bytes} {e : ReadErr}
    (h : R.Gives true d e) :
    (tokenizeReader U split R).Yields (cutStream U split d e).1 (cutStream U split d e).2 :=
  yields_new (scanner_emits U hS d.length (Nat.le_refl _) (Gives.ready h) (Or.inl rfl))

/-- Full statement, of any readers. -/
def C89_full : Prop := ∀ (U : Unicode) (cls : WordTable) (split : SplitFunc), split.SplitsWords cls →
  ∀ (R R' : IoReader) (d : Bytes) (e : ReadErr), R.Gives false d e → R'.Gives false d e →
  ∀ toks en, (tokenizeReader U split R).Yields toks en → (tokenizeReader U split R').Yields toks en

/-- **C89 (partial).** If every token fits, then for any readers, also those whose end comes with the last
data. What is missing for `C89_full`: a last token of exactly 64 KiB (`C89_violated`). -/
theorem C89_partial (U : Unicode) {split : SplitFunc} (hS : split.Lawful) {R : IoReader} {d : Bytes} {e : ReadErr}
    (h : R.Gives false d e) (hfit : (cutTokens split 65536 d).2 = false) :
    (tokenizeReader U split R).Yields (cutStream U split d e).1 e.toEnd ∧
    (cutStream U split d e).1.flatMap Token.value = d := by
  have hy : (tokenizeReader U split R).Yields (cutStream U split d e).1 (cutStream U split d e).2 :=
    yields_new (scanner_emits U hS d.length (Nat.le_refl _) (Gives.ready h) (Or.inr hfit))
  refine ⟨?_, ?_⟩
  · have : (cutStream U split d e).2 = e.toEnd := by simp [cutStream, scanEnd, hfit]
    rw [← this]; exact hy
  · have := text_segTokens U (cutTokens split 65536 d).1
    rw [(cutTokens_facts hS d).2.2 hfit] at this
    exact this

theorem letters_word {cls : WordTable} (hR : cls.Right) {n : Nat} (hn : 0 < n) :
    wordSegs cls (List.replicate n 0x61) = [List.replicate n 0x61] := by
  have ha : IsAscii (List.replicate n 0x61) := by
    intro b hb
    rw [List.eq_of_mem_replicate hb]; decide
  have hrb := runeBytes_ascii ha
  unfold wordSegs
  rw [cutWords_plain]
  · rw [List.map_cons, List.map_nil, runeBytes_snd]
  · rw [hrb]
    intro h0
    have := congrArg List.length h0
    simp at this
    omega
  · intro p hp
    rw [hrb, List.mem_map] at hp
    obtain ⟨b, hb, rfl⟩ := hp
    rw [List.eq_of_mem_replicate hb]
    show (cls 0x61).1.plain = true
    rw [hR.latin 0x61 (by decide) (by decide)]
    rfl

/-- No number of letters makes a word before the end is known. -/
theorem letters_wait {cls : WordTable} (hR : cls.Right) {split : SplitFunc} (hW : split.SplitsWords cls) (n : Nat) :
    split (List.replicate n 0x61) false = none := by
  cases h : split (List.replicate n 0x61) false with
  | none => rfl
  | some m =>
    have h1 := hW.steady h [0x61] true
    have h2 := (hW.fits h).2
    rw [← List.replicate_succ', hW.first, letters_word hR (by omega)] at h1
    simp only [List.head?_cons, Option.map_some, List.length_replicate, Option.some.injEq] at h1 h2
    omega

theorem letters_long {cls : WordTable} (hR : cls.Right) {split : SplitFunc} (hW : split.SplitsWords cls) {n : Nat}
    (hn : 65536 ≤ n) : firstToken split 65536 (List.replicate n 0x61) = none := by
  rw [firstToken, if_neg (by rw [List.length_replicate]; omega), List.take_replicate]
  exact letters_wait hR hW _

theorem letters_cut {cls : WordTable} (hR : cls.Right) {split : SplitFunc} (hW : split.SplitsWords cls) {n : Nat}
    (hn : 65536 ≤ n) : cutTokens split 65536 (List.replicate n 0x61) = ([], true) := by
  obtain ⟨m, rfl⟩ : ∃ m, n = m + 1 := ⟨n - 1, by omega⟩
  have := letters_long hR hW hn
  rw [List.replicate_succ] at this ⊢
  rw [cutTokens, List.length_cons, cutTokensAux, this]

/-- A word of exactly 64 KiB whose end comes with the last data. -/
theorem eager_scan {split : SplitFunc} {d0 : Bytes} {e : ReadErr}
    {s : BufScanner (eagerReader d0 e).σ} (src : Bytes) (hsrc : s.src = src) (he : s.err = none) (hb : s.Bounded)
    (hwait : ∀ x y, s.buf ++ src = x ++ y → split x false = none) (hlen : (s.buf ++ src).length ≤ 65536)
    (hne : src ≠ []) :
    ∃ s', Ended false s' (s.buf ++ src) e ∧
      BufScanner.scan (eagerReader d0 e) split s = BufScanner.scan (eagerReader d0 e) split s' := by
  generalize hm : src.length = m
  induction m using Nat.strongRecOn generalizing s src with
  | ind m ih =>
    have hpos := List.length_pos_iff.mpr hne
    rw [List.length_append] at hlen
    have hask : s.ask split = none := by
      unfold BufScanner.ask
      split
      · rw [he]; exact hwait s.buf src rfl
      · rfl
    obtain ⟨h1, h2, h3, h4, h5, h6⟩ := shift_facts s
    have hfull : ¬ (s.shift.start + s.shift.buf.length = s.shift.size ∧ s.shift.size ≥ maxTokenSize) := by
      rintro ⟨hx, hy⟩
      rw [h1, h2] at hx
      have := h6 hx
      rw [h2] at hy
      simp only [maxTokenSize] at hy
      omega
    obtain ⟨r1, r2, r3, r4, r5⟩ := ready_facts hb hfull
    have heq : BufScanner.scan (eagerReader d0 e) split s =
        BufScanner.scan (eagerReader d0 e) split (BufScanner.fill (eagerReader d0 e) maxEmptyReads s.ready) := by
      rw [scan_eq _ split s, hask]
      simp only
      rw [if_neg (by rw [he]; simp), if_neg hfull]
    rw [heq]
    generalize hroom : s.ready.size - (s.ready.start + s.ready.buf.length) = room
    have hroom0 : 0 < room := by rw [← hroom, r1]; omega
    have hread : (eagerReader d0 e).read s.ready.src room =
        ((src.take room, if src.length ≤ room then some e else none), src.drop room) := by
      rw [r3, hsrc]; rfl
    by_cases hle : src.length ≤ room
    · have hfill : BufScanner.fill (eagerReader d0 e) maxEmptyReads s.ready =
          { s.ready with buf := s.buf ++ src, src := src.drop room, err := some e } := by
        rw [BufScanner.fill.eq_def]
        simp only [hroom]
        rw [hread, List.take_of_length_le hle, if_neg (Nat.not_lt.mpr hle), if_pos hle, r1]
      rw [hfill]
      exact ⟨_, ⟨rfl, rfl, by simp⟩, rfl⟩
    · have htk := take_ne_nil hne hroom0
      have hfill : BufScanner.fill (eagerReader d0 e) maxEmptyReads s.ready =
          { s.ready with buf := s.buf ++ src.take room, src := src.drop room } := by
        rw [BufScanner.fill.eq_def]
        simp only [hroom]
        rw [hread, if_neg hle, if_neg (by rw [List.length_take]; omega), r1]
        simp only [ne_eq, htk, not_false_eq_true, if_true]
      rw [hfill]
      have hcat : s.buf ++ src.take room ++ src.drop room = s.buf ++ src := by
        rw [List.append_assoc, List.take_append_drop]
      obtain ⟨s', g1, g2⟩ := ih (src.drop room).length (by rw [List.length_drop]; omega)
        (s := { s.ready with buf := s.buf ++ src.take room, src := src.drop room }) (src.drop room) rfl
        (by rw [← he]; exact r2)
        ⟨by
          have := r4.1
          rw [r1] at this
          simp only [List.length_append, List.length_take]
          rw [r1] at hroom
          omega, r4.2⟩
        (by
          intro x y hxy
          exact hwait x y (by rw [← hxy]; exact hcat.symm))
        (by
          show (s.buf ++ src.take room ++ src.drop room).length ≤ 65536
          rw [hcat, List.length_append]; omega)
        (by
          intro h0
          have := congrArg List.length h0
          rw [List.length_drop] at this
          simp only [List.length_nil] at this
          omega) rfl
      exact ⟨s', by rw [← hcat]; exact g1, g2⟩

theorem letters_64KiB (U : Unicode) {cls : WordTable} (hR : cls.Right) {split : SplitFunc}
    (hW : split.SplitsWords cls) {n : Nat} (hn : n = 65536) :
    (tokenizeReader U split (stringReader (List.replicate n 0x61))).Yields [] (.fail errTooLong) ∧
    ∃ t, (tokenizeReader U split (eagerReader (List.replicate n 0x61) .eof)).Yields [t] .eof := by
  constructor
  · have := C89_any_reads U hW.toLawful (stringReader_gives true (List.replicate n 0x61))
    rw [cutStream, letters_cut hR hW (by omega)] at this
    exact this
  · have hne : List.replicate n (0x61 : UInt8) ≠ [] := by
      intro h0
      have := congrArg List.length h0
      rw [List.length_replicate, List.length_nil] at this
      omega
    obtain ⟨s', h1, h2⟩ := eager_scan (d0 := List.replicate n 0x61) (e := .eof)
      (s := BufScanner.new (eagerReader (List.replicate n 0x61) .eof)) (List.replicate n 0x61) rfl rfl
      (new_bounded _)
      (by
        intro x y hxy
        have hx : x = List.replicate x.length 0x61 := by
          apply List.eq_replicate_of_mem
          intro b hb
          have hb' : b ∈ List.replicate n (0x61 : UInt8) := by
            have : b ∈ x ++ y := List.mem_append_left _ hb
            rw [← hxy] at this
            exact this
          exact List.eq_of_mem_replicate hb'
        rw [hx]
        exact letters_wait hR hW _)
      (by show (List.replicate n (0x61 : UInt8)).length ≤ 65536; rw [List.length_replicate]; omega) hne
    have h1' : Ended false s' (List.replicate n 0x61) .eof := h1
    have hfirst : split (List.replicate n 0x61) true = some n := by
      rw [hW.first, letters_word hR (by omega), List.head?_cons, Option.map_some, List.length_replicate]
    refine ⟨mkToken U (List.replicate n 0x61) false, yields_new (Emits.cons.2
      ⟨{ s' with start := s'.start + n, buf := s'.buf.drop n }, ?_, ?_⟩)⟩
    · have hsc : BufScanner.scan (eagerReader (List.replicate n 0x61) .eof) split
          (BufScanner.new (eagerReader (List.replicate n 0x61) .eof)) =
          Go.ret (some (List.replicate n 0x61), { s' with start := s'.start + n, buf := s'.buf.drop n }) := by
        rw [h2, scan_eq]
        have hask : s'.ask split = some n := by
          rw [BufScanner.ask, if_pos (Or.inr (by rw [h1'.1]; rfl)), h1'.1, h1'.2.1]
          exact hfirst
        rw [hask]
        simp only
        rw [if_neg (by rw [h1'.2.1, List.length_replicate]; omega), h1'.2.1, List.take_replicate, Nat.min_self]
      simp [scannerNext, hsc, newToken_some hne]
    · refine scanner_ends (alone := false) U hW.toLawful (e := .eof) (Or.inr ⟨h1'.1, ?_, by simp⟩)
      show s'.buf.drop n = []
      rw [h1'.2.1, List.drop_replicate, Nat.sub_self]
      rfl

/-- **C89 (violated).** A text of 65536 letters `a` is a token if its end comes with the last data, and an error
if it comes after it, as it does for `strings.Reader`. -/
theorem C89_violated_at_64KiB (U : Unicode) {cls : WordTable} (hR : cls.Right) {split : SplitFunc}
    (hW : split.SplitsWords cls) :
    (tokenizeReader U split (stringReader (List.replicate 65536 0x61))).Yields [] (.fail errTooLong) ∧
    ∃ t, (tokenizeReader U split (eagerReader (List.replicate 65536 0x61) .eof)).Yields [t] .eof :=
  letters_64KiB U hR hW rfl

theorem C89_violated : ¬ C89_full := by
  intro h
  obtain ⟨h1, t, h2⟩ := C89_violated_at_64KiB uaxEnv.U uaxTable_right (uaxSplit_words uaxTable)
  have := h uaxEnv.U uaxTable (uaxSplit uaxTable) (uaxSplit_words uaxTable) _ _ (List.replicate 65536 0x61) .eof
    (stringReader_gives false _) (eagerReader_gives _ _) _ _ h1
  obtain ⟨h3, -⟩ := this.unique h2
  cases h3

/-- Non-vacuity: there is a function that splits words; and of readers, one that hands out a byte at a time, one
that hands out all it has with its end, and that of a string, the first and the last give the end alone. -/
example : (uaxSplit uaxTable).SplitsWords uaxTable ∧ uaxTable.Right ∧
    (slowReader (str "Hi you") .eof).Gives true (str "Hi you") .eof ∧
    (stringReader (str "Hi you")).Gives true (str "Hi you") .eof ∧
    (eagerReader (str "Hi you") (.other (.ext 7))).Gives false (str "Hi you") (.other (.ext 7)) :=
  ⟨uaxSplit_words _, uaxTable_right, slowReader_gives _ _, stringReader_gives _ _, eagerReader_gives _ _⟩

/-! ### C76 -/

/-- **C76.** A buffered scanner with a function that splits words is a scanner as assumed elsewhere: it has the
laws, it follows UAX #29, and `Tokenize` of any reader with it gives what `Tokenize` gives with such a scanner. -/
theorem C76_buffered (U : Unicode) {cls : WordTable} {split : SplitFunc} (hW : split.SplitsWords cls) :
    (bufEnv U split).Lawful ∧ (bufEnv U split).FollowsUax29 cls ∧
    (∀ (R : IoReader) (d : Bytes) (e : ReadErr), R.Gives true d e → ∀ toks en,
      (tokenizeReader U split R).Yields toks en ↔ (tokenize (bufEnv U split) { data := d, err := e.toEnd.err }).Yields toks en) ∧
    ∀ (s : Bytes) toks en, (tokenizeReader U split (stringReader s)).Yields toks en ↔
      (tokenizeString (bufEnv U split) s).Yields toks en := by
  have hL := bufEnv_lawful U hW.toLawful
  have key : ∀ (R : IoReader) (d : Bytes) (e : ReadErr), R.Gives true d e → ∀ toks en,
      (tokenizeReader U split R).Yields toks en ↔ (tokenize (bufEnv U split) { data := d, err := e.toEnd.err }).Yields toks en := by
    intro R d e h toks en
    have h1 := C89_any_reads U hW.toLawful h
    have h2 := tokenize_yields (bufEnv U split) hL { data := d, err := e.toEnd.err }
    have he : endOf ((bufEnv U split).scan { data := d, err := e.toEnd.err }).2 = (cutStream U split d e).2 := by
      simp only [bufEnv, cutStream, scanEnd]
      cases (cutTokens split 65536 d).2 with
      | true => rfl
      | false => cases e <;> rfl
    rw [he] at h2
    constructor
    · intro h3
      obtain ⟨rfl, rfl⟩ := h3.unique h1
      exact h2
    · intro h3
      obtain ⟨rfl, rfl⟩ := h3.unique h2
      exact h1
  refine ⟨hL, ?_, key, ?_⟩
  · intro s hs
    simp only [bufEnv]
    rw [cutTokens_words hW hs.symm]
    rfl
  · intro s toks en
    exact key (stringReader s) s .eof (stringReader_gives true s) toks en

/-! ### C90 -/

/-- Full statement: a text of any size is tokenized. -/
def C90_full : Prop := ∀ (U : Unicode) (cls : WordTable) (split : SplitFunc), split.SplitsWords cls → cls.Right →
  ∀ s : Bytes, ∃ toks, (tokenizeReader U split (stringReader s)).Yields toks .eof ∧ toks.flatMap Token.value = s

/-- **C90 (violated).** If a text has a word of more than 64 KiB, then at most what is before the word is delivered,
and then the error "token too long". So for any reader. -/
theorem C90_violated_long (U : Unicode) {cls : WordTable} {split : SplitFunc} (hW : split.SplitsWords cls)
    {R : IoReader} {s : Bytes} {e : ReadErr} (h : R.Gives true s e) {pre post : List Bytes} {w : Bytes}
    (hw : wordSegs cls s = pre ++ w :: post) (hlong : 65536 < w.length) :
    ∃ segs, segs <+: pre ∧
      (tokenizeReader U split R).Yields (segs.map fun s => mkToken U s false) (.fail errTooLong) := by
  obtain ⟨h1, h2⟩ := cutTokensAux_long hW s.length (Nat.le_refl _) hw hlong
  have hy := C89_any_reads U hW.toLawful h
  refine ⟨(cutTokens split 65536 s).1, h2, ?_⟩
  have : (cutStream U split s e).2 = .fail errTooLong := by
    have h1' : (cutTokens split 65536 s).2 = true := h1
    simp [cutStream, scanEnd, h1']
  rw [← this]
  exact hy

theorem C90_violated : ¬ C90_full := by
  intro h
  obtain ⟨n, hn⟩ : ∃ n, n = 65537 := ⟨_, rfl⟩
  obtain ⟨toks, h1, -⟩ := h uaxEnv.U uaxTable (uaxSplit uaxTable) (uaxSplit_words uaxTable) uaxTable_right
    (List.replicate n 0x61)
  obtain ⟨segs, -, h3⟩ := C90_violated_long uaxEnv.U (uaxSplit_words uaxTable)
    (stringReader_gives true (List.replicate n 0x61)) (pre := []) (post := [])
    (letters_word uaxTable_right (by omega)) (by rw [List.length_replicate]; omega)
  obtain ⟨-, h4⟩ := h1.unique h3
  cases h4

/-- **C90 (partial).** A text of any size, from any reader, is cut into its words, if each word fits into 64 KiB together
with the next one. What is missing for `C90_full`: texts with longer words (`C90_violated_long`). -/
theorem C90_partial (U : Unicode) {cls : WordTable} {split : SplitFunc} (hW : split.SplitsWords cls)
    {R : IoReader} {s : Bytes} {e : ReadErr} (h : R.Gives false s e) (hs : ShortWords (wordSegs cls s)) :
    (tokenizeReader U split R).Yields ((wordSegs cls s).map fun w => mkToken U w false) e.toEnd := by
  have hc := cutTokens_words hW (Or.inl hs)
  have := (C89_partial U hW.toLawful h (by rw [hc])).1
  rw [cutStream, hc] at this
  exact this

/-- In particular if no word is longer than 32766 bytes. -/
theorem C90_short_words_partial (U : Unicode) {cls : WordTable} {split : SplitFunc} (hW : split.SplitsWords cls)
    {R : IoReader} {s : Bytes} {e : ReadErr} (h : R.Gives false s e) (hs : ∀ w ∈ wordSegs cls s, w.length ≤ 32766) :
    (tokenizeReader U split R).Yields ((wordSegs cls s).map fun w => mkToken U w false) e.toEnd := by
  refine C90_partial U hW h ⟨fun w hw => by have := hs w hw; omega, fun pre w1 w2 post hp => ?_⟩
  have h1 := hs w1 (by rw [hp]; simp)
  have h2 := hs w2 (by rw [hp]; simp)
  omega

/-- Non-vacuity: there are such texts of any size. -/
example (n : Nat) : ∃ s : Bytes, n ≤ s.length ∧ ∀ w ∈ wordSegs uaxTable s, w.length ≤ 32766 := by
  refine ⟨List.replicate n 0x0A, by rw [List.length_replicate], ?_⟩
  have ha : IsAscii (List.replicate n 0x0A) := by
    intro b hb
    rw [List.eq_of_mem_replicate hb]; decide
  have hcut : ∀ (m : Nat) before, cutWords (fun p : Rune × Bytes => uaxTable p.1) before
      (List.replicate m (0x0A, [0x0A])) = List.replicate m [(0x0A, [0x0A])] := by
    intro m
    induction m with
    | zero => intro before; rfl
    | succ m ih =>
      intro before
      rw [List.replicate_succ, cutWords, ih]
      cases m with
      | zero => rfl
      | succ m =>
        rw [List.replicate_succ, List.replicate_succ]
        simp only [List.map_cons]
        have hj : joins ((uaxTable 0x0A) :: before) (uaxTable 0x0A :: (List.replicate m (0x0A, [0x0A])).map
            fun p : Rune × Bytes => uaxTable p.1) = false := by
          rw [joins_cons]
          have : (uaxTable 0x0A) = (.lf, false) := by decide
          simp [this, WB.lineBreak]
        rw [if_neg (by rw [hj]; simp)]
        rfl
  intro w hw
  unfold wordSegs at hw
  rw [runeBytes_ascii ha, List.map_replicate] at hw
  rw [show (UInt8.toNat 0x0A, [(0x0A : UInt8)]) = (0x0A, [0x0A]) from rfl, hcut, List.map_replicate] at hw
  rw [List.eq_of_mem_replicate hw]
  decide

/-! ### C91 -/

theorem Fetches.took {R : IoReader} {split : SplitFunc} {held held' : Bytes} {s s' : R.σ}
    (h : Fetches R split held s held' s') : ∃ bs, held' = held ++ bs ∧ Took R s bs s' := by
  induction h with
  | refl => exact ⟨[], (List.append_nil _).symm, .refl⟩
  | step h1 h2 h3 h4 h5 ih =>
    obtain ⟨bs, rfl, h6⟩ := ih
    refine ⟨_, List.append_assoc _ _ _, ?_⟩
    have := Took.step h6
    rwa [if_pos h4] at this
  | bad h1 h2 h3 h4 h5 ih =>
    obtain ⟨bs, rfl, h6⟩ := ih
    refine ⟨bs, rfl, ?_⟩
    have := Took.step h6
    rwa [if_neg (by omega), List.nil_append] at this

theorem Took.trans {R : IoReader} {s t u : R.σ} {a b : Bytes} (h1 : Took R s a t) (h2 : Took R t b u) :
    Took R s (a ++ b) u := by
  induction h1 with
  | refl => exact h2
  | step _ ih =>
    rw [List.append_assoc]
    exact .step (ih h2)

/-- **C91 (one call).** Whatever the reader, even one that breaks its contract or never ends, `Scan` returns. It reads only while
what it holds makes no token, it holds at most 64 KiB, and it has delivered or still holds what it has read. -/
theorem C91_scan (R : IoReader) (split : SplitFunc) {s : BufScanner R.σ} (hs : s.start + s.buf.length ≤ s.size)
    (hmax : s.size ≤ 65536) :
    ∃ seg s' held, BufScanner.scan R split s = Go.ret (seg, s') ∧ s'.start + s'.buf.length ≤ s'.size ∧
      s'.size ≤ 65536 ∧ Fetches R split s.buf s.src held s'.src ∧ (∀ t, seg = some t → held = t ++ s'.buf) := by
  obtain ⟨seg, s', held, h1, h2, h3, h4⟩ := scan_fetches (R := R) (split := split) (s := s) ⟨hs, hmax⟩
  exact ⟨seg, s', held, h1, h2.1, h2.2, h3, h4⟩

/-- **C91.** Of any reader, one that never ends included: any number of calls of `Next` return, and the buffer is then at most
64 KiB. While they return tokens, what has been read is what has been delivered and what is in the buffer: the tokenizer
is never more than 64 KiB ahead. -/
theorem C91_read_ahead (U : Unicode) (R : IoReader) (split : SplitFunc) (n : Nat) :
    ∃ rs s', rs.length = n ∧ Answers (scannerNext U R split) (BufScanner.new R) rs s' ∧ s'.size ≤ 65536 ∧
      s'.buf.length ≤ s'.size ∧
      ∀ toks : List Token, rs = toks.map (fun t => { tok := some t, err := none }) →
        ∃ read, Took R R.st read s'.src ∧ read = toks.flatMap Token.value ++ s'.buf ∧
          read.length ≤ (toks.flatMap Token.value).length + 65536 := by
  have key : ∀ (n : Nat) (s : BufScanner R.σ), s.Bounded →
      ∃ rs s', rs.length = n ∧ Answers (scannerNext U R split) s rs s' ∧ s'.Bounded ∧
        ∀ toks : List Token, rs = toks.map (fun t => { tok := some t, err := none }) →
          ∃ read, Took R s.src read s'.src ∧ s.buf ++ read = toks.flatMap Token.value ++ s'.buf := by
    intro n
    induction n with
    | zero =>
      intro s hs
      refine ⟨[], s, rfl, rfl, hs, fun toks ht => ⟨[], .refl, ?_⟩⟩
      have : toks = [] := by simpa using ht.symm
      subst this
      simp
    | succ n ih =>
      intro s hs
      obtain ⟨seg, s1, held, h1, h2, h3, h4⟩ := scan_fetches (R := R) (split := split) hs
      obtain ⟨rs, s2, g1, g2, g3, g4⟩ := ih s1 h2
      cases seg with
      | none =>
        refine ⟨{ tok := none, err := s1.error } :: rs, s2, by simp [g1], ⟨s1, ?_, g2⟩, g3, ?_⟩
        · simp [scannerNext, h1]
        · intro toks ht
          cases toks with
          | nil => cases ht
          | cons t toks =>
            simp only [List.map_cons, List.cons.injEq, Res.mk.injEq] at ht
            cases ht.1.1
      | some t =>
        have hheld := h4 t rfl
        refine ⟨{ tok := newToken U t false, err := none } :: rs, s2, by simp [g1], ⟨s1, ?_, g2⟩, g3, ?_⟩
        · simp [scannerNext, h1]
        · intro toks ht
          cases toks with
          | nil => cases ht
          | cons t' toks =>
            simp only [List.map_cons, List.cons.injEq, Res.mk.injEq, and_true] at ht
            obtain ⟨ht1, ht2⟩ := ht
            obtain ⟨read2, k1, k2⟩ := g4 toks ht2
            obtain ⟨read1, k3, k4⟩ := h3.took
            have hval : t'.value = t := by
              by_cases h0 : t = []
              · rw [(newToken_none_iff U t false).2 h0] at ht1
                cases ht1
              · rw [newToken_some h0] at ht1
                cases ht1; rfl
            refine ⟨read1 ++ read2, k4.trans k1, ?_⟩
            rw [← List.append_assoc, ← k3, hheld, List.append_assoc, k2, List.flatMap_cons, hval, List.append_assoc]
  obtain ⟨rs, s', h1, h2, h3, h4⟩ := key n (BufScanner.new R) (new_bounded R)
  refine ⟨rs, s', h1, h2, h3.2, by have := h3.1; omega, ?_⟩
  intro toks ht
  obtain ⟨read, h5, h6⟩ := h4 toks ht
  have h6' : read = toks.flatMap Token.value ++ s'.buf := h6
  refine ⟨read, h5, h6', ?_⟩
  rw [h6', List.length_append]
  have := h3.1; have := h3.2
  omega

/-- Non-vacuity: a reader without end, of which any number of tokens can be had. -/
def endlessReader : IoReader where
  σ := Unit
  st := ()
  read _ k := (((str "a ").take k, none), ())

example (k : Nat) (hk : 2 ≤ k) : (endlessReader.read () k).1 = (str "a ", none) := by
  have : (str "a ").length = 2 := by decide +kernel
  show ((str "a ").take k, none) = _
  rw [List.take_of_length_le (by omega)]

/-! ### C92 -/

/-- Full statement: after an error there are no tokens. -/
def C92_full : Prop := ∀ (U : Unicode) (cls : WordTable) (split : SplitFunc), split.SplitsWords cls →
  ∀ (R : IoReader) (d : Bytes) (e : ReadErr), R.Gives true d e →
  ∀ rs s' pre r post, Answers (scannerNext U R split) (BufScanner.new R) rs s' → rs = pre ++ r :: post →
    r.err ≠ none → ∀ r' ∈ post, r' = { tok := none, err := r.err }

theorem answers_ended {U : Unicode} {R : IoReader} {split : SplitFunc} (hS : split.Lawful) {alone : Bool} {e : ReadErr}
    {rs : List Res} {s s' : BufScanner R.σ} (h : Ready alone R s [] e) (ha : Answers (scannerNext U R split) s rs s') :
    ∀ r ∈ rs, r = { tok := none, err := e.toEnd.err } := by
  induction rs generalizing s with
  | nil => simp
  | cons r rs ih =>
    obtain ⟨s1, h1, h2⟩ := ha
    obtain ⟨s2, h3, h4⟩ := (scans_ready hS h).2.1 rfl
    have h5 : scannerNext U R split s = Go.ret ({ tok := none, err := e.toEnd.err }, s2) := by
      simp only [scannerNext, h3]
      have : s2.error = e.toEnd.err := by
        rw [BufScanner.error, h4.1]
        cases e <;> rfl
      rw [← this]
      rfl
    rw [h1] at h5
    have h6 := Except.ok.inj (Option.some.inj h5)
    cases h6
    intro r' hr'
    rcases List.mem_cons.mp hr' with rfl | hr'
    · rfl
    · exact ih (Or.inr h4) h2 r' hr'

/-- **C92 (partial).** If the tokens fit into the buffer, then after the error of the reader every call of `Next` reports it, and there is no
token. What is missing for `C92_full`: the error "token too long" (`C92_violated_tokens`). -/
theorem C92_partial (U : Unicode) {split : SplitFunc} (hS : split.Lawful) {R : IoReader} {d : Bytes} {e : ReadErr}
    (h : R.Gives false d e) (hfit : (cutTokens split 65536 d).2 = false) {rs pre post : List Res} {r : Res}
    {s' : BufScanner R.σ} (ha : Answers (scannerNext U R split) (BufScanner.new R) rs s')
    (hrs : rs = pre ++ r :: post) (hr : r.err ≠ none) :
    r.err = e.toEnd.err ∧ ∀ r' ∈ post, r' = { tok := none, err := r.err } := by
  have key : ∀ (fuel : Nat) (d : Bytes) (s : BufScanner R.σ) (rs pre : List Res), d.length ≤ fuel → Ready false R s d e →
      (cutTokensAux split 65536 fuel d).2 = false → Answers (scannerNext U R split) s rs s' → rs = pre ++ r :: post →
      r.err = e.toEnd.err ∧ ∀ r' ∈ post, r' = { tok := none, err := r.err } := by
    intro fuel
    induction fuel with
    | zero =>
      intro d s rs pre hl hR _ ha hrs
      have : d = [] := List.length_eq_zero_iff.mp (by omega)
      subst this
      have hall := answers_ended hS hR ha
      have h1 := hall r (by rw [hrs]; simp)
      have h1' : r.err = e.toEnd.err := by rw [h1]
      refine ⟨h1', fun r' hr' => ?_⟩
      rw [h1']
      exact hall r' (by rw [hrs]; simp [hr'])
    | succ fuel ih =>
      intro d s rs pre hl hR hc ha hrs
      cases d with
      | nil =>
        have hall := answers_ended hS hR ha
        have h1 := hall r (by rw [hrs]; simp)
        have h1' : r.err = e.toEnd.err := by rw [h1]
        refine ⟨h1', fun r' hr' => ?_⟩
        rw [h1']
        exact hall r' (by rw [hrs]; simp [hr'])
      | cons b t =>
        rw [cutTokensAux] at hc
        cases hf : firstToken split 65536 (b :: t) with
        | none => rw [hf] at hc; cases hc
        | some k =>
          rw [hf] at hc
          simp only at hc
          obtain ⟨s1, h1, h2⟩ := (scans_ready hS hR).1 k (by simp) hf
          have hfit := hS.fits (firstToken_true hS hf)
          cases pre with
          | nil =>
            subst hrs
            obtain ⟨s2, h3, -⟩ := ha
            have h4 : scannerNext U R split s =
                Go.ret ({ tok := newToken U ((b :: t).take k) false, err := none }, s1) := by
              simp only [scannerNext, h1]
              rfl
            rw [h3] at h4
            have h5 := Except.ok.inj (Option.some.inj h4)
            cases h5
            exact absurd rfl hr
          | cons p pre =>
            subst hrs
            obtain ⟨s2, h3, h3'⟩ := ha
            have h4 : scannerNext U R split s =
                Go.ret ({ tok := newToken U ((b :: t).take k) false, err := none }, s1) := by
              simp only [scannerNext, h1]
              rfl
            rw [h3] at h4
            have h5 := Except.ok.inj (Option.some.inj h4)
            cases h5
            exact ih ((b :: t).drop k) s1 (pre ++ r :: post) pre
              (by rw [List.length_drop]; simp only [List.length_cons] at hl ⊢; omega) h2 hc h3' rfl
  exact key d.length d _ rs pre (Nat.le_refl _) (Gives.ready h) hfit ha hrs

/-- **C92 (violated).** After the error "token too long", `Next` returns a token: it begins the text that was in the buffer. -/
theorem C92_violated_tokens (U : Unicode) {split : SplitFunc} (hS : split.Lawful) {R : IoReader} {d : Bytes}
    {e : ReadErr} (h : R.Gives true d e) (hlong : firstToken split 65536 d = none) (hd : d ≠ []) :
    ∃ t s', t.value ≠ [] ∧ t.value <+: d ∧ Answers (scannerNext U R split) (BufScanner.new R)
      [{ tok := none, err := some errTooLong }, { tok := some t, err := none }] s' := by
  obtain ⟨s1, h1, h2, h3⟩ := (scans_ready hS (Gives.ready h)).2.2 hd rfl hlong
  have hne : s1.buf ≠ [] := by
    rw [← h3]; exact take_ne_nil hd (by decide)
  have hsome := hS.ends hne
  cases hn : split s1.buf true with
  | none => rw [hn] at hsome; cases hsome
  | some n =>
    have hfit := hS.fits hn
    have hask : s1.ask split = some n := by
      rw [BufScanner.ask, if_pos (Or.inl hne), h2]
      exact hn
    have hsc : BufScanner.scan R split s1 =
        Go.ret (some (s1.buf.take n), { s1 with start := s1.start + n, buf := s1.buf.drop n }) := by
      rw [scan_eq, hask]
      simp only
      rw [if_neg (by omega)]
    have htk := take_ne_nil hne hfit.1
    refine ⟨mkToken U (s1.buf.take n) false, { s1 with start := s1.start + n, buf := s1.buf.drop n }, htk, ?_,
      s1, ?_, _, ?_, rfl⟩
    · show s1.buf.take n <+: d
      exact (List.take_prefix n _).trans (h3 ▸ List.take_prefix 65536 d)
    · simp [scannerNext, h1, BufScanner.error, h2]
    · simp [scannerNext, hsc, newToken_some htk]

theorem C92_violated : ¬ C92_full := by
  intro h
  obtain ⟨n, hn⟩ : ∃ n, n = 65537 := ⟨_, rfl⟩
  have hne : List.replicate n (0x61 : UInt8) ≠ [] := by
    intro h0
    have := congrArg List.length h0
    rw [List.length_replicate, List.length_nil] at this
    omega
  obtain ⟨t, s', -, -, h2⟩ := C92_violated_tokens uaxEnv.U (uaxSplit_words uaxTable).toLawful
    (stringReader_gives true (List.replicate n 0x61))
    (letters_long uaxTable_right (uaxSplit_words uaxTable) (by omega)) hne
  have := h uaxEnv.U uaxTable (uaxSplit uaxTable) (uaxSplit_words uaxTable) _ _ _
    (stringReader_gives true (List.replicate n 0x61)) _ _ [] _ _ h2 rfl (by simp) _ (List.mem_singleton.mpr rfl)
  cases this

end Jargon
