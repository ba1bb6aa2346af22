import Verif.Proofs.Trie
import Verif.Proofs.Consumers
import Mathlib.Data.Nat.Find
import Mathlib.Tactic.ByContra

/-! The synonyms filter is leftmost greedy replacement. -/

namespace Jargon

variable {σ : Type}

theorem isWord_iff {t : Token} : t.IsWord ↔ (t.isSpace || t.isPunct) = false := by
  simp [Token.IsWord, Token.isSpace, Token.isPunct, and_comm]

theorem not_isWord_iff {t : Token} : ¬ t.IsWord ↔ (t.isSpace || t.isPunct) = true := by
  rw [isWord_iff, Bool.not_eq_false]

theorem words_append (a b : List Token) : words (a ++ b) = words a + words b := by
  simp [words]

theorem wordCount_eq (l : List Token) : wordCount l = words l := by
  unfold wordCount words
  rw [List.countP_eq_length_filter]
  congr 1
  apply List.filter_congr
  intro t _
  simp only [Token.IsWord, Token.isSpace, Token.isPunct]
  rcases Bool.eq_false_or_eq_true t.space with h | h <;>
    rcases Bool.eq_false_or_eq_true t.punct with h' | h' <;> simp [h, h']

/-! ### Greedy is total and deterministic -/

theorem Longest.unique {C : Compare} {D : Dict} {A : Nat → Prop} {toks : List Token} {k k' : Nat}
    {c c' : Bytes} (h : Longest C D A toks k c) (h' : Longest C D A toks k' c') : k = k' ∧ c = c' := by
  have hk : k = k' := by
    rcases Nat.lt_trichotomy k k' with hlt | heq | hlt
    · exact absurd (h.longest k' h'.mem hlt (by simp [h'.isSyn])).symm (h'.fewest k h.mem hlt)
    · exact heq
    · exact absurd (h'.longest k h.mem hlt (by simp [h.isSyn])).symm (h.fewest k' h'.mem hlt)
  subst hk
  have := h.isSyn
  rw [h'.isSyn] at this
  exact ⟨rfl, (Option.some.inj this).symm⟩

theorem Longest.exists {C : Compare} {D : Dict} {A : Nat → Prop} {toks : List Token}
    (hA : ∀ k, A k → k ≤ toks.length) (h : ∃ k, A k ∧ D (C.spell (toks.take k)) ≠ none) :
    ∃ k c, Longest C D A toks k c := by
  classical
  -- the last matching prefix
  have hmax : ∃ k, (A k ∧ D (C.spell (toks.take k)) ≠ none) ∧
      ∀ j, A j → D (C.spell (toks.take j)) ≠ none → j ≤ k := by
    obtain ⟨k0, hk0⟩ := h
    let p : Nat → Prop := fun n => ∃ j, j = toks.length - n ∧ A j ∧ D (C.spell (toks.take j)) ≠ none
    have hp : ∃ n, p n := ⟨toks.length - k0, k0, by have := hA k0 hk0.1; omega, hk0⟩
    obtain ⟨j, hj, hj2⟩ := Nat.find_spec hp
    refine ⟨j, hj2, fun i hi hD => ?_⟩
    have hle : Nat.find hp ≤ toks.length - i :=
      Nat.find_min' hp ⟨i, by have := hA i hi; omega, hi, hD⟩
    have := hA i hi
    have := hA j hj2.1
    omega
  obtain ⟨k, ⟨hk, hD⟩, hlast⟩ := hmax
  -- the first prefix with the same spelling
  have hq : ∃ j, A j ∧ C.spell (toks.take j) = C.spell (toks.take k) := ⟨k, hk, rfl⟩
  have hs := Nat.find_spec hq
  obtain ⟨c, hc⟩ := Option.ne_none_iff_exists'.mp hD
  refine ⟨Nat.find hq, c, hs.1, by rw [hs.2, hc], ?_, ?_⟩
  · intro j hj hlt hDj
    -- spellings grow
    have hjk := hlast j hj hDj
    have e1 : toks.take j = toks.take (Nat.find hq) ++ (toks.take j).drop (Nat.find hq) := by
      have := List.take_append_drop (Nat.find hq) (toks.take j)
      rw [List.take_take, Nat.min_eq_left (by omega)] at this
      exact this.symm
    have e2 : toks.take k = toks.take j ++ (toks.take k).drop j := by
      have := List.take_append_drop j (toks.take k)
      rw [List.take_take, Nat.min_eq_left (by omega)] at this
      exact this.symm
    have l1 := congrArg C.spell e1
    have l2 := congrArg C.spell e2
    rw [spell_append] at l1 l2
    have l3 := congrArg List.length l1
    have l4 := congrArg List.length l2
    rw [← hs.2] at l4
    simp only [List.length_append] at l3 l4
    have z : C.spell ((toks.take j).drop (Nat.find hq)) = [] :=
      List.eq_nil_of_length_eq_zero (by omega)
    rw [l1, z, List.append_nil]
  · intro j hj hlt heq
    exact Nat.find_min hq hlt ⟨hj, heq.trans hs.2⟩

theorem Greedy.total (C : Compare) (D : Dict) (m : Nat) (toks : List Token) :
    ∃ out, Greedy C D m toks out := by
  classical
  induction hn : toks.length using Nat.strongRecOn generalizing toks with
  | ind n ih =>
    cases toks with
    | nil => exact ⟨[], .nil⟩
    | cons t ts =>
      simp only [List.length_cons] at hn
      by_cases hw : t.IsWord
      · by_cases hm : ∃ k, Admissible m (t :: ts) k ∧ D (C.spell ((t :: ts).take k)) ≠ none
        · obtain ⟨k, c, hl⟩ := Longest.exists (fun k h => Admissible.le h) hm
          have := hl.mem.pos
          obtain ⟨out, ho⟩ := ih ((t :: ts).drop k).length (by simp; omega) _ rfl
          exact ⟨_, .replace hw hl ho⟩
        · obtain ⟨out, ho⟩ := ih ts.length (by omega) _ rfl
          refine ⟨_, .word hw (fun k hk => ?_) ho⟩
          by_contra hD
          exact hm ⟨k, hk, hD⟩
      · obtain ⟨out, ho⟩ := ih ts.length (by omega) _ rfl
        exact ⟨_, .separator hw ho⟩

theorem Greedy.unique {C : Compare} {D : Dict} {m : Nat} {toks out out' : List Token}
    (h : Greedy C D m toks out) (h' : Greedy C D m toks out') : out = out' := by
  induction h generalizing out' with
  | nil => cases h'; rfl
  | separator hw _ ih =>
    cases h' with
    | separator _ h2 => rw [ih h2]
    | replace hw' _ _ => exact absurd hw' hw
    | word hw' _ _ => exact absurd hw' hw
  | replace hw hl _ ih =>
    cases h' with
    | separator hw' _ => exact absurd hw hw'
    | replace _ hl' h2 =>
      obtain ⟨rfl, rfl⟩ := hl.unique hl'
      rw [ih h2]
    | word _ hno _ =>
      have := hno _ hl.mem
      rw [hl.isSyn] at this
      cases this
  | word hw hno _ ih =>
    cases h' with
    | separator hw' _ => exact absurd hw hw'
    | replace _ hl' _ =>
      have := hno _ hl'.mem
      rw [hl'.isSyn] at this
      cases this
    | word _ _ h2 => rw [ih h2]

theorem Greedy.separators {C : Compare} {D : Dict} {m : Nat} {seps rest out : List Token}
    (hs : ∀ t ∈ seps, ¬ t.IsWord) (h : Greedy C D m (seps ++ rest) out) :
    ∃ out', out = seps ++ out' ∧ Greedy C D m rest out' := by
  induction seps generalizing out with
  | nil => exact ⟨out, rfl, h⟩
  | cons t ts ih =>
    have ht := hs t (by simp)
    cases h with
    | separator _ h2 =>
      obtain ⟨out', rfl, h3⟩ := ih (fun x hx => hs x (by simp [hx])) h2
      exact ⟨out', rfl, h3⟩
    | replace hw _ _ => exact absurd hw ht
    | word hw _ _ => exact absurd hw ht

/-! ### The run of words -/

theorem wordrunLoop_spec (m : Nat) (toks : List Token) (i w : Nat) (hw : w < m) :
    i ≤ wordrunLoop m toks i i w ∧ wordrunLoop m toks i i w ≤ i + toks.length ∧
    ∀ k, 1 ≤ k → (k ≤ wordrunLoop m toks i i w - i ↔
      k ≤ toks.length ∧ (∀ t ∈ toks.take k, t.punct = false) ∧ w + words (toks.take (k - 1)) < m) := by
  induction toks generalizing i w with
  | nil =>
    refine ⟨Nat.le_refl _, by simp [wordrunLoop], fun k hk => ?_⟩
    simp only [wordrunLoop, List.length_nil]
    constructor
    · intro h; omega
    · intro h; omega
  | cons t ts ih =>
    simp only [wordrunLoop]
    cases hp : t.punct
    · simp only [Token.isPunct, hp, Bool.false_eq_true, ↓reduceIte]
      generalize hw' : (if (!t.isSpace) = true then w + 1 else w) = w'
      have hww : ∀ l, w' + words l = w + words (t :: l) := by
        intro l
        rw [← hw']
        simp only [words, List.countP_cons, Token.isSpace]
        rcases Bool.eq_false_or_eq_true t.space with h | h
        · simp [h, Token.IsWord]
        · simp [h, Token.IsWord, hp]; omega
      split
      · rename_i hge
        refine ⟨by omega, by simp, fun k hk => ?_⟩
        constructor
        · intro h
          have : k = 1 := by omega
          subst this
          simp [hp, words, hw]
        · rintro ⟨h1, h2, h3⟩
          by_contra hcon
          obtain ⟨j, rfl⟩ : ∃ j, k = j + 2 := ⟨k - 2, by omega⟩
          simp only [Nat.add_one_sub_one, List.take_succ_cons] at h3
          rw [← hww] at h3
          omega
      · rename_i hlt
        obtain ⟨h1, h2, h3⟩ := ih (i + 1) w' (by omega)
        refine ⟨by omega, by simp; omega, fun k hk => ?_⟩
        by_cases hk1 : k = 1
        · subst hk1
          simp [hp, words, hw]
          omega
        · obtain ⟨j, rfl⟩ : ∃ j, k = j + 2 := ⟨k - 2, by omega⟩
          have h4 := h3 (j + 1) (by omega)
          simp only [Nat.add_one_sub_one, List.take_succ_cons, List.length_cons,
            List.mem_cons, forall_eq_or_imp, hp, true_and] at h4 ⊢
          rw [← hww]
          constructor
          · intro h; have := h4.mp (by omega); exact ⟨by omega, this.2⟩
          · intro h; have := h4.mpr ⟨by omega, h.2⟩; omega
    · simp only [Token.isPunct, hp, ↓reduceIte]
      refine ⟨Nat.le_refl _, by simp, fun k hk => ?_⟩
      constructor
      · intro h; omega
      · rintro ⟨-, h2, -⟩
        obtain ⟨j, rfl⟩ : ∃ j, k = j + 1 := ⟨k - 1, by omega⟩
        have := h2 t (by simp)
        rw [hp] at this
        cases this

/-- Enough tokens are buffered to determine the run at the head. -/
def Enough (m : Nat) (buffer rest : List Token) : Prop :=
  m ≤ words buffer ∨ (∃ t ∈ buffer, t.punct = true) ∨ rest = []

theorem admissible_iff {m : Nat} {buffer rest : List Token} (hm : 0 < m) (h : Enough m buffer rest)
    (k : Nat) :
    Admissible m (buffer ++ rest) k ↔ 1 ≤ k ∧ k ≤ wordrunLoop m buffer 0 0 0 := by
  obtain ⟨-, hlen, hspec⟩ := wordrunLoop_spec m buffer 0 0 hm
  simp only [Nat.zero_add, Nat.sub_zero] at hlen hspec
  constructor
  · rintro ⟨h1, h2, h3, h4⟩
    refine ⟨h1, (hspec k h1).mpr ?_⟩
    have hk : k ≤ buffer.length := by
      rcases h with h | ⟨t, ht, hp⟩ | rfl
      · by_contra hcon
        rw [List.take_append, List.take_of_length_le (by omega), words_append] at h4
        omega
      · by_contra hcon
        rw [List.take_append, List.take_of_length_le (by omega)] at h3
        have := h3 t (by simp [ht])
        rw [hp] at this; cases this
      · simpa using h2
    rw [List.take_append_of_le_length hk] at h3
    rw [List.take_append_of_le_length (by omega)] at h4
    exact ⟨hk, h3, h4⟩
  · rintro ⟨h1, h2⟩
    obtain ⟨hk, h3, h4⟩ := (hspec k h1).mp h2
    refine ⟨h1, by simp; omega, ?_, ?_⟩
    · rwa [List.take_append_of_le_length hk]
    · rwa [List.take_append_of_le_length (by omega)]

/-! ### fill -/

theorem separators_split (l : List Token) : ∃ seps rest, l = seps ++ rest ∧
    (∀ t ∈ seps, ¬ t.IsWord) ∧ (rest = [] ∨ ∃ w ts, rest = w :: ts ∧ w.IsWord) := by
  induction l with
  | nil => exact ⟨[], [], rfl, by simp, .inl rfl⟩
  | cons t ts ih =>
    by_cases hw : t.IsWord
    · exact ⟨[], t :: ts, rfl, by simp, .inr ⟨t, ts, rfl, hw⟩⟩
    · obtain ⟨seps, rest, rfl, h1, h2⟩ := ih
      exact ⟨t :: seps, rest, rfl, by simpa [hw] using h1, h2⟩

theorem fillLeading_eq {seps rest : List Token} (hs : ∀ t ∈ seps, ¬ t.IsWord)
    (hr : rest = [] ∨ ∃ w ts, rest = w :: ts ∧ w.IsWord) (out : Queue (Option Token)) (d : Nat) :
    fillLeading (seps ++ rest) out d = (out ++ seps.map some, d + seps.length) := by
  induction seps generalizing out d with
  | nil =>
    rcases hr with rfl | ⟨w, ts, rfl, hw⟩
    · simp [fillLeading]
    · simp [fillLeading, isWord_iff.mp hw]
  | cons t ts ih =>
    have ht := not_isWord_iff.mp (hs t (by simp))
    simp only [List.cons_append, fillLeading, ht, ↓reduceIte]
    rw [ih (fun x hx => hs x (by simp [hx]))]
    simp [Queue.push]
    omega

theorem fillScan_seps {call : NextFn σ} {seps rest : List Token} {e : End} {s : TS σ}
    (hs : ∀ t ∈ seps, ¬ t.IsWord) (h : Emits (TS.next call) (seps ++ rest) e s)
    (b : Queue Token) (q : Queue (Option Token)) :
    ∃ s', Emits (TS.next call) rest e s' ∧
      fillScan call { incoming := s, buffer := b, outgoing := q } =
      fillScan call { incoming := s', buffer := b, outgoing := q ++ seps.map some } := by
  induction seps generalizing s q with
  | nil => exact ⟨s, h, by simp⟩
  | cons t ts ih =>
    rw [List.cons_append, Emits.cons] at h
    obtain ⟨x, h1, h2⟩ := h
    obtain ⟨s', h3, h4⟩ := ih (fun y hy => hs y (by simp [hy])) h2 (q ++ [some t])
    refine ⟨s', h3, ?_⟩
    have ht := not_isWord_iff.mp (hs t (by simp))
    rw [fillScan, TS.scan_of h1]
    simp only [Option.isSome_some, Option.isNone_none, Bool.and_self, Go.ret_bind, ↓reduceIte,
      (TS.next_fields h1).1, ht, Queue.push]
    rw [h4]
    simp

/-- What the scanning loop of `fill` does. -/
theorem fillScan_spec {call : NextFn σ} {seps rest : List Token} {e : End} {s : TS σ}
    (hs : ∀ t ∈ seps, ¬ t.IsWord) (hr : rest = [] ∨ ∃ w ts, rest = w :: ts ∧ w.IsWord)
    (h : Emits (TS.next call) (seps ++ rest) e s) (b : Queue Token) (q : Queue (Option Token)) :
    ∃ s', fillScan call { incoming := s, buffer := b, outgoing := q } =
        Go.ret { incoming := s', buffer := b ++ rest.take 1, outgoing := q ++ seps.map some } ∧
      (rest ≠ [] ∨ e = .eof → s'.err = none ∧ Emits (TS.next call) rest.tail e s') ∧
      (∀ x, rest = [] → e = .fail x → s'.err = some x) := by
  obtain ⟨s1, h1, h2⟩ := fillScan_seps hs h b q
  rw [h2]
  rcases hr with rfl | ⟨w, ts, rfl, hw⟩
  · cases e with
    | eof =>
      obtain ⟨s', h3, h4⟩ := Quiet.step h1
      refine ⟨s', ?_, fun _ => ⟨(TS.next_fields h3).2, h4⟩, by simp⟩
      rw [fillScan, TS.scan_of h3]
      simp
    | fail x =>
      obtain ⟨tok, s', h3⟩ := h1
      refine ⟨s', ?_, by simp, ?_⟩
      · rw [fillScan, TS.scan_of h3]
        simp
      · rintro y - hy
        cases hy
        exact (TS.next_fields h3).2
  · rw [Emits.cons] at h1
    obtain ⟨s', h3, h4⟩ := h1
    refine ⟨s', ?_, fun _ => ⟨(TS.next_fields h3).2, h4⟩, by simp⟩
    rw [fillScan, TS.scan_of h3]
    have hw' := isWord_iff.mp hw
    simp only [Option.isSome_some, Option.isNone_none, Bool.and_self, Go.ret_bind, ↓reduceIte,
      (TS.next_fields h3).1, hw', Bool.false_eq_true, Queue.push, Go.pure_eq, List.take_succ_cons,
      List.take_zero]

/-- What the look-ahead loop of `fill` does. -/
theorem fillNext_spec {call : NextFn σ} {rem : List Token} {e : End} {s : TS σ} {m : Nat}
    (h : Emits (TS.next call) rem e s) (b : Queue Token) (q : Queue (Option Token)) :
    (∃ x t', e = .fail x ∧
      fillNext call m (words b) { incoming := s, buffer := b, outgoing := q } = Go.ret (some x, t')) ∨
    ∃ s' got rest, rem = got ++ rest ∧ Emits (TS.next call) rest e s' ∧ Enough m (b ++ got) rest ∧
      fillNext call m (words b) { incoming := s, buffer := b, outgoing := q } =
        Go.ret (none, { incoming := s', buffer := b ++ got, outgoing := q }) := by
  induction rem generalizing s b with
  | nil =>
    by_cases hm : words b < m
    · cases e with
      | eof =>
        obtain ⟨s', h3, h4⟩ := Quiet.step h
        refine .inr ⟨s', [], [], rfl, h4, .inr (.inr rfl), ?_⟩
        rw [fillNext]
        simp [hm, h3]
      | fail x =>
        obtain ⟨tok, s', h3⟩ := h
        refine .inl ⟨x, { incoming := s', buffer := b, outgoing := q }, rfl, ?_⟩
        rw [fillNext]
        simp only [hm, ↓reduceIte, h3, Go.ret_bind, Option.isSome_some, Go.pure_eq]
    · refine .inr ⟨s, [], [], rfl, h, .inr (.inr rfl), ?_⟩
      rw [fillNext]
      simp [hm]
  | cons t ts ih =>
    by_cases hm : words b < m
    · rw [Emits.cons] at h
      obtain ⟨x, h1, h2⟩ := h
      by_cases hp : t.punct = true
      · refine .inr ⟨x, [t], ts, rfl, h2, .inr (.inl ⟨t, by simp, hp⟩), ?_⟩
        rw [fillNext]
        simp [hm, h1, Token.isPunct, hp, Queue.push]
      · have hp' : t.punct = false := by simpa using hp
        have hrec : fillNext call m (words b) { incoming := s, buffer := b, outgoing := q } =
            fillNext call m (words (b ++ [t])) { incoming := x, buffer := b ++ [t], outgoing := q } := by
          rw [fillNext]
          simp only [hm, ↓reduceIte, h1, Go.ret_bind, Option.isSome_none, Bool.false_eq_true,
            Token.isPunct, hp', Queue.push, Token.isSpace]
          rw [words_append]
          rcases Bool.eq_false_or_eq_true t.space with hsp | hsp
          · have : words [t] = 0 := by simp [words, Token.IsWord, hsp]
            simp [this, hsp]
          · have : words [t] = 1 := by simp [words, Token.IsWord, hp', hsp]
            simp [this, hsp]
        rw [hrec]
        rcases ih h2 (b ++ [t]) with ⟨y, t', he, hy⟩ | ⟨s', got, rest, hts, h3, h4, h5⟩
        · exact .inl ⟨y, t', he, hy⟩
        · refine .inr ⟨s', t :: got, rest, by rw [hts]; rfl, h3, by simpa using h4, ?_⟩
          rw [h5]; simp
    · refine .inr ⟨s, [], t :: ts, rfl, h, .inl (by simp; omega), ?_⟩
      rw [fillNext]
      simp [hm]

/-- What `fill` does: it reports the upstream error, or sends leading separators out and buffers
enough of the rest. -/
theorem fill_spec {call : NextFn σ} {f : SynFilter} {b rem : List Token} {e : End} {s : TS σ}
    (h : Emits (TS.next call) rem e s) (q : Queue (Option Token)) :
    (∃ x t', e = .fail x ∧
      fill call f { incoming := s, buffer := b, outgoing := q } = Go.ret (some x, t')) ∨
    ∃ s' seps b' rest, b ++ rem = seps ++ (b' ++ rest) ∧ (∀ t ∈ seps, ¬ t.IsWord) ∧
      Emits (TS.next call) rest e s' ∧ Enough f.maxWords b' rest ∧
      (b' = [] → rest = [] ∧ e = .eof) ∧ (∀ w ts, b' = w :: ts → w.IsWord) ∧
      fill call f { incoming := s, buffer := b, outgoing := q } =
        Go.ret (none, { incoming := s', buffer := b', outgoing := q ++ seps.map some }) := by
  obtain ⟨bseps, brest, rfl, hbs, hbr⟩ := separators_split b
  have hdrop : Queue.drop (bseps ++ brest) bseps.length = Go.ret brest := by
    simp [Queue.drop]
  have hstart : fill call f { incoming := s, buffer := bseps ++ brest, outgoing := q } =
      (if brest.length = 0 then do
        let t ← fillScan call { incoming := s, buffer := brest, outgoing := q ++ bseps.map some }
        if t.incoming.err.isSome then pure (t.incoming.err, t)
        else fillNext call f.maxWords (wordCount t.buffer) t
      else fillNext call f.maxWords (wordCount brest)
        { incoming := s, buffer := brest, outgoing := q ++ bseps.map some }) := by
    unfold fill
    simp only [fillLeading_eq hbs hbr, Nat.zero_add, hdrop, Go.ret_bind]
    rfl
  rw [hstart]
  rcases hbr with rfl | ⟨w, ts, rfl, hw⟩
  · simp only [List.length_nil, ↓reduceIte, List.append_nil]
    obtain ⟨seps, rest, rfl, hs, hr⟩ := separators_split rem
    obtain ⟨s', h1, h2, h3⟩ := fillScan_spec hs hr h [] (q ++ bseps.map some)
    rw [h1]
    simp only [Go.ret_bind, List.nil_append]
    have hsep : ∀ t ∈ bseps ++ seps, ¬ t.IsWord := by
      intro t ht
      rcases List.mem_append.mp ht with h | h
      · exact hbs t h
      · exact hs t h
    rcases hr with rfl | ⟨w, ts, rfl, hw⟩
    · cases e with
      | fail x =>
        refine .inl ⟨x, ⟨s', [], q ++ bseps.map some ++ seps.map some⟩, rfl, ?_⟩
        simp only [h3 x rfl rfl, Option.isSome_some, ↓reduceIte, Go.pure_eq, List.take_nil]
      | eof =>
        obtain ⟨h4, h5⟩ := h2 (.inr rfl)
        simp only [h4, Option.isSome_none, Bool.false_eq_true, ↓reduceIte, wordCount_eq]
        rcases fillNext_spec (m := f.maxWords) h5 (List.take 1 []) (q ++ bseps.map some ++ seps.map some)
          with ⟨x, t', he, -⟩ | ⟨s'', got, rest, hgot, h6, h7, h8⟩
        · cases he
        · obtain ⟨rfl, rfl⟩ : got = [] ∧ rest = [] := by simpa using hgot.symm
          refine .inr ⟨s'', bseps ++ seps, [], [], by simp, hsep, h6, h7, by simp, by simp, ?_⟩
          rw [h8]; simp
    · obtain ⟨h4, h5⟩ := h2 (.inl (by simp))
      simp only [h4, Option.isSome_none, Bool.false_eq_true, ↓reduceIte, wordCount_eq]
      rcases fillNext_spec (m := f.maxWords) h5 (List.take 1 (w :: ts))
          (q ++ bseps.map some ++ seps.map some)
        with ⟨x, t', he, hx⟩ | ⟨s'', got, rest, hgot, h6, h7, h8⟩
      · exact .inl ⟨x, t', he, hx⟩
      · simp only [List.tail_cons] at hgot
        subst hgot
        refine .inr ⟨s'', bseps ++ seps, w :: got, rest, by simp, hsep, h6, by simpa using h7,
          by simp, ?_, ?_⟩
        · rintro w' ts' heq
          cases heq; exact hw
        · rw [h8]; simp
  · rw [if_neg (by simp), wordCount_eq]
    rcases fillNext_spec (m := f.maxWords) h (w :: ts) (q ++ bseps.map some)
      with ⟨x, t', he, hx⟩ | ⟨s'', got, rest, hgot, h6, h7, h8⟩
    · exact .inl ⟨x, t', he, hx⟩
    · subst hgot
      refine .inr ⟨s'', bseps, w :: ts ++ got, rest, by simp, hbs, h6, h7, by simp, ?_, ?_⟩
      · rintro w' ts' heq
        cases heq; exact hw
      · rw [h8]

/-! ### next -/

theorem newToken_canon (U : Unicode) (c : Bytes) (q : Queue (Option Token)) :
    (if c ≠ [] then q.push [newToken U c true] else q) = q ++ (canonTokens U c).map some := by
  unfold canonTokens
  by_cases hc : c = []
  · simp [hc]
  · simp [hc, Queue.push, newToken_eq_some]

/-- One round of the loop of `next`, once `fill` has put a word at the head of the buffer: part of the
greedy replacement goes out. -/
theorem synLoop_step {U : Unicode} {call : NextFn σ} {f : SynFilter} {C : Compare} {D : Dict}
    (hm : 0 < f.maxWords) (hC : f.trie.compare U = C) (hD : f.trie.root.get = D)
    {t : SynState σ} {s' : TS σ} {w : Token} {ts rest out' : List Token} {q : Queue (Option Token)}
    (h5 : fill call f t = Go.ret (none, { incoming := s', buffer := w :: ts, outgoing := q }))
    (hw : w.IsWord) (h2 : Enough f.maxWords (w :: ts) rest)
    (hg' : Greedy C D f.maxWords (w :: ts ++ rest) out') :
    ∃ b'' now later, b''.length ≤ ts.length ∧ b'' <:+ w :: ts ∧ out' = now ++ later ∧
      Greedy C D f.maxWords (b'' ++ rest) later ∧
      synLoop U call f t =
        synLoop U call f { incoming := s', buffer := b'', outgoing := q ++ now.map some } := by
  obtain ⟨b', hb'⟩ : ∃ b', b' = w :: ts := ⟨_, rfl⟩
  rw [← hb'] at h5 h2 hg'
  have hadm := admissible_iff hm h2
  obtain ⟨-, hlen, -⟩ := wordrunLoop_spec f.maxWords b' 0 0 hm
  simp only [Nat.zero_add] at hlen
  generalize hN : wordrunLoop f.maxWords b' 0 0 0 = N at *
  have hN1 : 1 ≤ N := by
    refine ((hadm 1).mp ⟨Nat.le_refl _, by simp [hb'], ?_, by simpa [words] using hm⟩).2
    simp [hb', hw.1]
  have hrun : wordrun f b' = Go.ret (b'.take N, none) := by
    rw [hb'] at hN hlen ⊢
    simp only [wordrun, isWord_iff.mp hw, Bool.false_eq_true, ↓reduceIte, hN]
    rw [goSlice, if_pos ⟨Nat.zero_le _, hlen⟩]
    simp
  have hrunlen : (b'.take N).length = N := by simp [hlen]
  have htake : ∀ k, k ≤ N → (b'.take N).take k = (b' ++ rest).take k := by
    intro k hk
    rw [List.take_take, Nat.min_eq_left hk, List.take_append_of_le_length (by omega)]
  have hsearch := search_spec U f.trie (b'.take N)
  rw [hC, hD] at hsearch
  unfold SearchSpec at hsearch
  rw [hrunlen] at hsearch
  have hb'ne : ¬ b'.length = 0 := by simp [hb']
  have hstep : synLoop U call f t =
      (if (f.trie.searchCanonical U (b'.take N)).found then do
        let buffer ← Queue.drop b' (f.trie.searchCanonical U (b'.take N)).consumed
        synLoop U call f
          { incoming := s'
            outgoing := q ++
              (canonTokens U (f.trie.searchCanonical U (b'.take N)).canonical).map some
            buffer }
      else synLoop U call f
        { incoming := s', buffer := ts, outgoing := q ++ [some w] }) := by
    rw [synLoop, h5]
    simp only [Go.ret_bind, Option.isSome_none, Bool.false_eq_true, ↓reduceIte, Queue.len,
      hb'ne, hrun, hrunlen, show ¬ N = 0 by omega, newToken_canon]
    cases (f.trie.searchCanonical U (b'.take N)).found
    · simp only [Bool.false_eq_true, ↓reduceIte]
      rw [hb']
      simp [Queue.pop, Queue.drop, Queue.push]
    · rfl
  cases hf : (f.trie.searchCanonical U (b'.take N)).found
  · -- the word passes
    simp only [hf, Bool.false_eq_true, ↓reduceIte] at hsearch hstep
    have hno : ∀ k, Admissible f.maxWords (b' ++ rest) k →
        D (C.spell ((b' ++ rest).take k)) = none := by
      intro k hk
      obtain ⟨hk1, hk2⟩ := (hadm k).mp hk
      rw [← htake k hk2]
      exact hsearch.2 k hk1 hk2
    subst hb'
    rw [List.cons_append] at hg' hno
    cases hg' with
    | separator hnw _ => exact absurd hw hnw
    | replace _ hl _ =>
      have := hno _ hl.mem
      rw [hl.isSyn] at this; cases this
    | word _ _ hg'' => exact ⟨ts, [w], _, Nat.le_refl _, List.suffix_cons _ _, rfl, hg'', hstep⟩
  · -- a synonym
    simp only [hf, ↓reduceIte] at hsearch hstep
    generalize f.trie.searchCanonical U (b'.take N) = r at *
    obtain ⟨⟨g1, g2⟩, g3, g4, g5⟩ := hsearch
    have hl : Longest C D (Admissible f.maxWords (b' ++ rest)) (b' ++ rest) r.consumed
        r.canonical := by
      refine ⟨(hadm _).mpr ⟨g1, g2⟩, ?_, ?_, ?_⟩
      · rw [← htake _ g2]; exact g3
      · intro j hj hlt hDj
        have hj' := (hadm j).mp hj
        rw [← htake _ hj'.2] at hDj ⊢
        rw [← htake _ g2]
        exact g4 j hj' hlt hDj
      · intro j hj hlt
        have hj' := (hadm j).mp hj
        rw [← htake _ hj'.2, ← htake _ g2]
        exact g5 j hj' hlt
    have hdrop : Queue.drop b' r.consumed = Go.ret (b'.drop r.consumed) := by
      rw [Queue.drop, if_pos (by omega)]
    rw [hdrop, Go.ret_bind] at hstep
    have hdr : (b' ++ rest).drop r.consumed = b'.drop r.consumed ++ rest := by
      rw [List.drop_append_of_le_length (by omega)]
    have hU : C.U = U := by rw [← hC]; rfl
    have hgr : ∃ out'', out' = canonTokens U r.canonical ++ out'' ∧
        Greedy C D f.maxWords (b'.drop r.consumed ++ rest) out'' := by
      subst hb'
      rw [List.cons_append] at hg' hl
      cases hg' with
      | separator hnw _ => exact absurd hw hnw
      | replace _ hl' hg'' =>
        obtain ⟨rfl, rfl⟩ := hl.unique hl'
        refine ⟨_, by rw [hU], ?_⟩
        rw [← hdr]; exact hg''
      | word _ hno _ =>
        have := hno _ hl.mem
        rw [hl.isSyn] at this; cases this
    obtain ⟨out'', rfl, hg''⟩ := hgr
    exact ⟨b'.drop r.consumed, _, out'', by rw [hb']; simp; omega, hb' ▸ List.drop_suffix _ _, rfl,
      hg'', hstep⟩

theorem synLoop_spec {U : Unicode} {call : NextFn σ} {f : SynFilter} {C : Compare} {D : Dict}
    (hm : 0 < f.maxWords) (hC : f.trie.compare U = C) (hD : f.trie.root.get = D)
    (b rem : List Token) {e : End} {s : TS σ} {out : List Token}
    (h : Emits (TS.next call) rem e s) (hg : Greedy C D f.maxWords (b ++ rem) out)
    (q : Queue (Option Token)) :
    (e = .eof → ∃ s', Emits (TS.next call) [] .eof s' ∧
      synLoop U call f { incoming := s, buffer := b, outgoing := q } =
        Go.ret (none, { incoming := s', buffer := [], outgoing := q ++ out.map some })) ∧
    (∀ x, e = .fail x → ∃ t',
      synLoop U call f { incoming := s, buffer := b, outgoing := q } = Go.ret (some x, t')) := by
  induction hn : (b ++ rem).length using Nat.strongRecOn generalizing b rem s out q with
  | ind n ih =>
    rcases fill_spec (b := b) (f := f) h q with ⟨x, t', he, hx⟩ |
      ⟨s', seps, b', rest, happ, hs, h1, h2, h3, h4, h5⟩
    · subst he
      refine ⟨by simp, ?_⟩
      intro y hy
      cases hy
      refine ⟨t', ?_⟩
      rw [synLoop, hx]
      simp
    · rw [happ] at hg hn
      obtain ⟨out', rfl, hg'⟩ := hg.separators hs
      cases hb' : b' with
      | nil =>
        obtain ⟨rfl, rfl⟩ := h3 hb'
        subst hb'
        refine ⟨fun _ => ⟨s', h1, ?_⟩, by simp⟩
        cases hg'
        rw [synLoop, h5]
        simp [Queue.len]
      | cons w ts =>
        subst hb'
        obtain ⟨b'', now, later, hle, -, rfl, hl, hstep⟩ := synLoop_step hm hC hD h5 (h4 w ts rfl) h2 hg'
        have := ih (b'' ++ rest).length (by rw [← hn]; simp; omega) b'' rest h1 hl
          (q ++ seps.map some ++ now.map some) rfl
        rw [hstep]
        simpa using this

/-- Delivering what is queued. -/
theorem synNext_queue {U : Unicode} {call : NextFn σ} {f : SynFilter}
    {s : TS σ} (hq : Emits (TS.next call) [] .eof s) (hm : 0 < f.maxWords) (out : List Token) :
    Emits (synNext U call f) out .eof { incoming := s, buffer := [], outgoing := out.map some } := by
  induction out with
  | nil =>
    refine ⟨fun t => ∃ s, Emits (TS.next call) [] .eof s ∧
      t = { incoming := s, buffer := [], outgoing := [] }, ⟨s, hq, rfl⟩, ?_⟩
    rintro t ⟨s, hs, rfl⟩
    obtain ⟨s', h1, h2⟩ := (synLoop_spec (U := U) hm rfl rfl [] [] hs .nil []).1 rfl
    refine ⟨_, ?_, s', h1, rfl⟩
    unfold synNext
    simp only [Queue.len, List.length_nil, ne_eq, not_true_eq_false, ↓reduceIte, Queue.any_nil,
      Bool.false_eq_true, h2, Go.ret_bind, Option.isSome_none]
    simp [Queue.clear]
  | cons t ts ih =>
    rw [Emits.cons]
    refine ⟨_, ?_, ih⟩
    unfold synNext
    simp [Queue.len]

/-- The synonyms filter delivers the greedy replacement; if upstream fails, nothing but the error. -/
theorem synNext_emits {U : Unicode} {call : NextFn σ} {f : SynFilter} {C : Compare} {D : Dict}
    (hm : 0 < f.maxWords) (hC : f.trie.compare U = C) (hD : f.trie.root.get = D)
    {rem : List Token} {e : End} {s : TS σ} {out : List Token}
    (h : Emits (TS.next call) rem e s) (hg : Greedy C D f.maxWords rem out) :
    Emits (synNext U call f) (if e = .eof then out else []) e
      { incoming := s, buffer := [], outgoing := [] } := by
  obtain ⟨hok, herr⟩ := synLoop_spec (U := U) hm hC hD [] rem h hg []
  cases e with
  | eof =>
    obtain ⟨s', h1, h2⟩ := hok rfl
    rw [if_pos rfl]
    have hq := synNext_queue (U := U) h1 hm out
    cases out with
    | nil =>
      refine Quiet.of_step ?_ hq
      unfold synNext
      simp [Queue.len, h2, Queue.push, Queue.clear]
    | cons t ts =>
      refine Emits.congr ?_ hq
      unfold synNext
      simp [Queue.len, h2, Queue.push, Queue.clear]
  | fail x =>
    obtain ⟨t', h1⟩ := herr x rfl
    refine ⟨none, t', ?_⟩
    unfold synNext
    simp [Queue.len, h1]

end Jargon
