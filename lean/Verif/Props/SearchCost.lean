import Verif.Props.Cost
import Verif.Props.Uax29
import Verif.Proofs.WordLimit

/-! C106: apart from the moving of tokens in the outgoing queue (C83), the synonyms filter takes time linear in
its input (README.md:88-92). -/

namespace Jargon
variable {σ : Type}

/-! ### What is counted -/

/-- What one round of the loop of `next` (filters/synonyms/filter.go:151-185) looks at: the tokens in the
buffer once it is filled, which `fill` counts (231-236), `wordrun` goes over (283-301) and `Drop` or `PopTo`
moves (179, 184), and the run of tokens given to `SearchCanonical` (173), which goes over its runes at most
once (trie.go:100-114). -/
structure Round where
  buffer : List Token
  run : List Token

/-- One round of the loop: filters/synonyms/filter.go:151-185. `.inl` if the loop is left. -/
def synRound (U : Unicode) (call : NextFn σ) (f : SynFilter) (t : SynState σ) :
    Go ((Option Err × SynState σ) ⊕ (Round × SynState σ)) := do
  let (err, t) ← fill call f t
  if err.isSome then pure (.inl (err, t))
  else if t.buffer.len = 0 then pure (.inl (none, t))
  else
    let (run, err) ← wordrun f t.buffer
    if err.isSome then pure (.inl (err, t))
    else if run.length = 0 then pure (.inl (none, t))
    else
      let r := f.trie.searchCanonical U run
      if r.found then
        let outgoing :=
          if r.canonical ≠ [] then t.outgoing.push [newToken U r.canonical true] else t.outgoing
        let buffer ← t.buffer.drop r.consumed
        pure (.inr (⟨t.buffer, run⟩, { t with outgoing, buffer }))
      else
        let (token, buffer) ← t.buffer.pop
        pure (.inr (⟨t.buffer, run⟩, { t with buffer, outgoing := t.outgoing.push [some token] }))

/-- The loop entered with `t` makes these rounds, and then stops. -/
inductive Rounds (U : Unicode) (call : NextFn σ) (f : SynFilter) : SynState σ → List Round → Prop
  | stop {t t' : SynState σ} {err : Option Err} : synRound U call f t = Go.ret (.inl (err, t')) →
      Rounds U call f t []
  | round {t t' : SynState σ} {r : Round} {rs : List Round} :
      synRound U call f t = Go.ret (.inr (r, t')) → Rounds U call f t' rs → Rounds U call f t (r :: rs)

/-- The runes of tokens. -/
def runeCount (toks : List Token) : Nat := (toks.map fun t => (runes t.value).length).sum

/-- The loop of `next` is the repetition of such rounds. -/
theorem C106_rounds (U : Unicode) (call : NextFn σ) (f : SynFilter) (t : SynState σ) :
    synLoop U call f t = (do
      match ← synRound U call f t with
      | .inl r => pure r
      | .inr r => synLoop U call f r.2) := by
  rw [synLoop]
  unfold synRound
  rw [bind_assoc]
  refine bind_congr fun x => ?_
  obtain ⟨err, t⟩ := x
  simp only
  split
  · simp
  · split
    · simp
    · rw [bind_assoc]
      refine bind_congr fun y => ?_
      obtain ⟨run, err⟩ := y
      simp only
      split
      · simp
      · split
        · simp
        · split
          · simp only [bind_assoc, Go.pure_eq, Go.ret_bind]
          · simp only [bind_assoc, Go.pure_eq, Go.ret_bind]

theorem Rounds.unique {U : Unicode} {call : NextFn σ} {f : SynFilter} {t : SynState σ} {rs rs' : List Round}
    (h : Rounds U call f t rs) (h' : Rounds U call f t rs') : rs = rs' := by
  induction h generalizing rs' with
  | stop h1 =>
    cases h' with
    | stop _ => rfl
    | round h2 _ => rw [h1] at h2; simp at h2
  | round h1 _ ih =>
    cases h' with
    | stop h2 => rw [h1] at h2; simp at h2
    | round h2 h3 =>
      rw [h1] at h2
      simp only [Go.ret_inj, Sum.inr.injEq, Prod.mk.injEq] at h2
      obtain ⟨rfl, rfl⟩ := h2
      rw [ih h3]

/-! ### Words in the buffer -/

theorem fillNext_words {call : NextFn σ} {m : Nat} : ∀ {n : Nat} {t t' : SynState σ} {e : Option Err},
    words t.buffer = n → n ≤ m → fillNext call m n t = Go.ret (e, t') → (words t'.buffer ≤ m ∧ t.buffer <+: t'.buffer) := by
  suffices H : ∀ (n : Nat) (t : SynState σ), words t.buffer = n → n ≤ m →
      ∀ e t', fillNext call m n t = Go.ret (e, t') → (words t'.buffer ≤ m ∧ t.buffer <+: t'.buffer) by
    intro n t t' e h1 h2 h3; exact H _ _ h1 h2 _ _ h3
  refine fillNext.fixpoint_induct call m (fun f => ∀ (n : Nat) (t : SynState σ), words t.buffer = n → n ≤ m →
      ∀ e t', f n t = Go.ret (e, t') → (words t'.buffer ≤ m ∧ t.buffer <+: t'.buffer)) ?_ ?_
  · refine Lean.Order.admissible_pi_apply (P := fun (n : Nat)
      (y : SynState σ → Go (Option Err × SynState σ)) => ∀ (t : SynState σ), words t.buffer = n → n ≤ m →
      ∀ e t', y t = Go.ret (e, t') → (words t'.buffer ≤ m ∧ t.buffer <+: t'.buffer)) fun n => ?_
    refine Lean.Order.admissible_pi_apply (P := fun (t : SynState σ)
      (y : Go (Option Err × SynState σ)) => words t.buffer = n → n ≤ m →
      ∀ e t', y = Go.ret (e, t') → (words t'.buffer ≤ m ∧ t.buffer <+: t'.buffer)) fun t => ?_
    exact go_admissible _ (fun _ _ e t' h => by simp at h)
  · intro f ih n t hn hm e t' h
    simp only at h
    split at h
    · rename_i hlt
      obtain ⟨⟨r1, s1⟩, h1, h2⟩ := Go.bind_eq_ret.mp h
      simp only at h2
      split at h2
      · simp only [Go.pure_eq, Go.ret_inj, Prod.mk.injEq] at h2
        rw [← h2.2]; exact ⟨by simp only; omega, List.prefix_refl _⟩
      · split at h2
        · simp only [Go.pure_eq, Go.ret_inj, Prod.mk.injEq] at h2
          rw [← h2.2]; exact ⟨by simp only; omega, List.prefix_refl _⟩
        · rename_i u _
          have hw : words (t.buffer ++ [u]) ≤ words t.buffer + 1 := by
            rw [words_append]
            have : words [u] ≤ 1 := by
              simpa [words] using List.countP_le_length (p := fun t : Token => decide t.IsWord) (l := [u])
            omega
          split at h2
          · simp only [Go.pure_eq, Go.ret_inj, Prod.mk.injEq] at h2
            rw [← h2.2]; exact ⟨by simp only [Queue.push]; omega, List.prefix_append _ _⟩
          · rename_i hp
            split at h2
            · rename_i hsp
              suffices hk : _ from (ih _ _ hk hm _ _ h2).imp_right (List.prefix_append _ _).trans
              simp only [Queue.push, words_append, hn]
              have : words [u] = 0 := by
                simp only [Token.isSpace] at hsp
                simp [words, Token.IsWord, hsp]
              omega
            · rename_i hsp
              suffices hk : _ from (ih _ _ hk (by omega) _ _ h2).imp_right (List.prefix_append _ _).trans
              simp only [Queue.push, words_append, hn]
              have : words [u] = 1 := by
                simp only [Token.isSpace, Token.isPunct] at hsp hp
                simp [words, Token.IsWord, hsp, hp]
              omega
    · simp only [Go.pure_eq, Go.ret_inj, Prod.mk.injEq] at h
      rw [← h.2]; exact ⟨by omega, List.prefix_refl _⟩

theorem fillScan_words {call : NextFn σ} : ∀ {t t' : SynState σ},
    fillScan call t = Go.ret t' → words t'.buffer ≤ words t.buffer + 1 := by
  suffices H : ∀ (t : SynState σ), ∀ t', fillScan call t = Go.ret t' →
      words t'.buffer ≤ words t.buffer + 1 by
    intro t t' h; exact H _ _ h
  refine fillScan.fixpoint_induct call (fun f => ∀ (t : SynState σ), ∀ t', f t = Go.ret t' →
      words t'.buffer ≤ words t.buffer + 1) ?_ ?_
  · refine Lean.Order.admissible_pi_apply (P := fun (t : SynState σ)
      (y : Go (SynState σ)) => ∀ t', y = Go.ret t' → words t'.buffer ≤ words t.buffer + 1) fun t => ?_
    exact go_admissible _ (fun t' h => by simp at h)
  · intro f ih t t' h
    obtain ⟨⟨ok, s1⟩, h1, h2⟩ := Go.bind_eq_ret.mp h
    simp only at h2
    split at h2
    · split at h2
      · simp at h2
      · rename_i u _
        split at h2
        · simpa using ih _ _ h2
        · simp only [Go.pure_eq, Go.ret_inj] at h2
          rw [← h2]
          simp only [Queue.push, words_append]
          have : words [u] ≤ 1 := by
            simpa [words] using List.countP_le_length (p := fun t : Token => decide t.IsWord) (l := [u])
          omega
    · simp only [Go.pure_eq, Go.ret_inj] at h2
      rw [← h2]; simp

theorem words_suffix {a b : List Token} (h : a <:+ b) : words a ≤ words b := by
  obtain ⟨c, rfl⟩ := h
  rw [words_append]; omega

/-- `fill` puts no more words into the buffer than the limit. -/
theorem fill_words {call : NextFn σ} {f : SynFilter} (hm : 0 < f.maxWords) {t t' : SynState σ}
    {e : Option Err} (hw : words t.buffer ≤ f.maxWords) (h : fill call f t = Go.ret (e, t')) :
    words t'.buffer ≤ f.maxWords ∧ ∀ seps u ts, t.buffer = seps ++ u :: ts → (∀ x ∈ seps, ¬ x.IsWord) →
      u.IsWord → u :: ts <+: t'.buffer := by
  unfold fill at h
  generalize hx : fillLeading t.buffer t.outgoing 0 = x at h
  obtain ⟨out, d⟩ := x
  simp only at h
  obtain ⟨b, h1, h2⟩ := Go.bind_eq_ret.mp h
  have hb : words b ≤ f.maxWords := by
    have : b <:+ t.buffer := by
      unfold Queue.drop at h1
      split at h1
      · simp only [Go.ret_inj] at h1
        rw [← h1]; exact List.drop_suffix _ _
      · simp at h1
    have := words_suffix this
    omega
  have hrest : ∀ seps u ts, t.buffer = seps ++ u :: ts → (∀ x ∈ seps, ¬ x.IsWord) → u.IsWord →
      b = u :: ts := by
    intro seps u ts e1 e2 e3
    rw [e1, fillLeading_eq e2 (.inr ⟨u, ts, rfl, e3⟩)] at hx
    simp only [Nat.zero_add, Prod.mk.injEq] at hx
    rw [← hx.2, e1] at h1
    simpa [Queue.drop] using h1.symm
  by_cases h0 : b.len = 0
  · rw [if_pos h0] at h2
    have hb0 : b = [] := List.length_eq_zero_iff.mp h0
    subst hb0
    obtain ⟨t1, h3, h4⟩ := Go.bind_eq_ret.mp h2
    have h5 := fillScan_words h3
    simp only [words, List.countP_nil, Nat.zero_add] at h5
    split at h4
    · simp only [Go.pure_eq, Go.ret_inj, Prod.mk.injEq] at h4
      rw [← h4.2]
      exact ⟨by simp only [words]; omega, fun seps u ts e1 e2 e3 => by cases hrest seps u ts e1 e2 e3⟩
    · exact ⟨(fillNext_words (wordCount_eq _).symm (by rw [wordCount_eq]; simp only [words]; omega) h4).1,
        fun seps u ts e1 e2 e3 => by cases hrest seps u ts e1 e2 e3⟩
  · rw [if_neg h0] at h2
    have := fillNext_words (by simp only [wordCount_eq]) (by rw [wordCount_eq]; exact hb) h2
    exact ⟨this.1, fun seps u ts e1 e2 e3 => hrest seps u ts e1 e2 e3 ▸ this.2⟩

/-! ### The work -/

/-- The weight of tokens. -/
def weigh (w : Token → Nat) (toks : List Token) : Nat := (toks.map w).sum

/-- Each token of the buffer, weighed as often as there are words up to it, itself included. `n` words are
before it. -/
def stays (w : Token → Nat) : Nat → List Token → Nat
  | _, [] => 0
  | n, t :: ts =>
    let n' := if t.IsWord then n + 1 else n
    w t * n' + stays w n' ts

theorem weigh_append (w : Token → Nat) (a b : List Token) : weigh w (a ++ b) = weigh w a + weigh w b := by
  simp [weigh]

theorem words_cons (t : Token) (ts : List Token) :
    words (t :: ts) = (if t.IsWord then 1 else 0) + words ts := by
  simp only [words, List.countP_cons, decide_eq_true_eq]
  omega

theorem stays_append (w : Token → Nat) (n : Nat) (a b : List Token) :
    stays w n (a ++ b) = stays w n a + stays w (n + words a) b := by
  induction a generalizing n with
  | nil => simp [stays, words]
  | cons t ts ih =>
    simp only [List.cons_append, stays, ih, words_cons]
    split <;> simp only [Nat.add_assoc, Nat.zero_add]

theorem stays_le (w : Token → Nat) (n : Nat) (a : List Token) : stays w n a ≤ (n + words a) * weigh w a := by
  induction a generalizing n with
  | nil => simp [stays]
  | cons t ts ih =>
    simp only [stays, words_cons]
    have h := ih (if t.IsWord then n + 1 else n)
    have e : (if t.IsWord then n + 1 else n) + words ts = n + ((if t.IsWord then 1 else 0) + words ts) := by
      split <;> omega
    rw [e] at h
    have e2 : (if t.IsWord then n + 1 else n) ≤ n + ((if t.IsWord then 1 else 0) + words ts) := by
      split <;> omega
    have h2 := Nat.mul_le_mul_left (w t) e2
    simp only [weigh, List.map_cons, List.sum_cons] at h ⊢
    rw [Nat.mul_add, Nat.mul_comm _ (w t)]
    omega

theorem stays_succ (w : Token → Nat) (n : Nat) (a : List Token) :
    stays w (n + 1) a = stays w n a + weigh w a := by
  induction a generalizing n with
  | nil => simp [stays, weigh]
  | cons t ts ih =>
    simp only [stays, weigh, List.map_cons, List.sum_cons] at ih ⊢
    split
    · rw [ih, Nat.mul_add _ _ 1]; omega
    · rw [ih, Nat.mul_add _ _ 1]; omega

theorem stays_mono (w : Token → Nat) {n m : Nat} (h : n ≤ m) (a : List Token) :
    stays w n a ≤ stays w m a := by
  induction m with
  | zero => have : n = 0 := by omega
            subst this; omega
  | succ m ih =>
    rcases Nat.lt_or_ge m n with h1 | h1
    · have : n = m + 1 := by omega
      subst this; omega
    · have := ih h1
      have := stays_succ w m a
      omega

theorem stays_separators (w : Token → Nat) {a : List Token} (h : ∀ t ∈ a, ¬ t.IsWord) : stays w 0 a = 0 := by
  induction a with
  | nil => rfl
  | cons t ts ih =>
    simp only [stays]
    rw [if_neg (h t (by simp)), ih fun x hx => h x (by simp [hx])]
    simp

theorem words_separators {a : List Token} (h : ∀ t ∈ a, ¬ t.IsWord) : words a = 0 := by
  simp only [words, List.countP_eq_zero, decide_eq_true_eq]
  exact h

/-- A round takes at least the word at the head out of the buffer. -/
theorem stays_round (w : Token → Nat) {t : Token} {ts b : List Token} (ht : t.IsWord) (hb : b <:+ ts) :
    weigh w (t :: ts) + stays w 0 b ≤ stays w 0 (t :: ts) := by
  obtain ⟨c, rfl⟩ := hb
  simp only [stays, if_pos ht, Nat.zero_add]
  rw [stays_succ, stays_append]
  have := stays_mono w (Nat.zero_le (0 + words c)) b
  simp only [weigh, List.map_cons, List.sum_cons]
  omega

/-- One round, once `fill` has put a word at the head of the buffer. -/
theorem synRound_step {U : Unicode} {call : NextFn σ} {f : SynFilter} (hm : 0 < f.maxWords)
    {t : SynState σ} {s' : TS σ} {w : Token} {ts : List Token} {q : Queue (Option Token)}
    (h5 : fill call f t = Go.ret (none, { incoming := s', buffer := w :: ts, outgoing := q }))
    (hw : w.IsWord) :
    ∃ run b' q', run <+: w :: ts ∧ b' <:+ ts ∧
      synRound U call f t = Go.ret (.inr (⟨w :: ts, run⟩, { incoming := s', buffer := b', outgoing := q' })) := by
  obtain ⟨-, hlen, hspec⟩ := wordrunLoop_spec f.maxWords (w :: ts) 0 0 hm
  simp only [Nat.zero_add, Nat.sub_zero] at hlen hspec
  have hN1 : 1 ≤ wordrunLoop f.maxWords (w :: ts) 0 0 0 :=
    (hspec 1 (Nat.le_refl _)).mpr ⟨by simp, by simp [hw.1], by simpa [words] using hm⟩
  generalize hN : wordrunLoop f.maxWords (w :: ts) 0 0 0 = N at *
  have hrun : wordrun f (w :: ts) = Go.ret ((w :: ts).take N, none) := by
    simp only [wordrun, isWord_iff.mp hw, Bool.false_eq_true, ↓reduceIte, hN]
    rw [goSlice, if_pos ⟨Nat.zero_le _, hlen⟩]
    simp
  have hrunlen : ((w :: ts).take N).length = N := by rw [List.length_take]; omega
  have hsearch := search_spec U f.trie ((w :: ts).take N)
  unfold SearchSpec at hsearch
  rw [hrunlen] at hsearch
  have hne : ¬ (w :: ts).length = 0 := by simp
  unfold synRound
  rw [h5]
  simp only [Go.ret_bind, Option.isSome_none, Bool.false_eq_true, ↓reduceIte, Queue.len, hne, hrun, hrunlen,
    show ¬ N = 0 by omega]
  cases hf : (f.trie.searchCanonical U ((w :: ts).take N)).found
  · refine ⟨(w :: ts).take N, ts, q.push [some w], List.take_prefix _ _, List.suffix_refl _, ?_⟩
    simp only [Bool.false_eq_true, ↓reduceIte, Queue.pop_cons, Go.ret_bind, Go.pure_eq]
  · simp only [hf, ↓reduceIte] at hsearch
    generalize f.trie.searchCanonical U ((w :: ts).take N) = r at *
    obtain ⟨⟨g1, g2⟩, -⟩ := hsearch
    refine ⟨(w :: ts).take N, (w :: ts).drop r.consumed,
      (if r.canonical ≠ [] then q.push [newToken U r.canonical true] else q), List.take_prefix _ _, ?_, ?_⟩
    · obtain ⟨k, hk⟩ : ∃ k, r.consumed = k + 1 := ⟨r.consumed - 1, by omega⟩
      rw [hk, List.drop_succ_cons]
      exact List.drop_suffix _ _
    · rw [show Queue.drop (w :: ts) r.consumed = Go.ret ((w :: ts).drop r.consumed) by
        rw [Queue.drop, if_pos (by omega)]]
      simp only [↓reduceIte, Go.ret_bind, Go.pure_eq]

/-- The rounds of the loop from a buffer `b` on, and what they weigh. -/
theorem rounds_weigh (U : Unicode) {call : NextFn σ} {f : SynFilter} (hm : 0 < f.maxWords)
    (w : Token → Nat) (b rem : List Token) (hb : words b ≤ f.maxWords) {e : End} {s : TS σ}
    (h : Emits (TS.next call) rem e s) (q : Queue (Option Token)) :
    ∃ rs, Rounds U call f { incoming := s, buffer := b, outgoing := q } rs ∧
      rs.length ≤ words (b ++ rem) ∧ (∀ r ∈ rs, r.run <+: r.buffer) ∧
      (rs.map fun r => weigh w r.buffer).sum ≤ stays w 0 b + f.maxWords * weigh w rem := by
  induction hn : (b ++ rem).length using Nat.strongRecOn generalizing b rem s q with
  | ind n ih =>
    rcases fill_spec (b := b) (f := f) h q with ⟨x, t', he, hx⟩ |
      ⟨s', seps, b', rest, happ, hs, h1, h2, h3, h4, h5⟩
    · exact ⟨[], .stop (err := some x) (t' := t') (by simp [synRound, hx]), by simp, by simp, by simp⟩
    · cases hb' : b' with
      | nil =>
        subst hb'
        exact ⟨[], .stop (err := none) (by simp only [synRound, h5]; simp [Queue.len]; rfl), by simp, by simp,
          by simp⟩
      | cons u ts =>
        subst hb'
        have hw : u.IsWord := h4 u ts rfl
        obtain ⟨hbw, hext⟩ := fill_words hm (t := ⟨s, b, q⟩) hb h5
        simp only at hbw hext
        obtain ⟨run, b'', q', g1, g2, g3⟩ := synRound_step (U := U) hm h5 hw
        have hle := g2.length_le
        have hwb : words b'' ≤ f.maxWords := by
          have := words_suffix (g2.trans (List.suffix_cons u ts))
          omega
        have hlen : (b'' ++ rest).length < n := by
          rw [← hn, happ]; simp; omega
        obtain ⟨rs, k1, k2, k3, k4⟩ := ih _ hlen b'' rest hwb h1 q' rfl
        refine ⟨_ :: rs, .round g3 k1, ?_, ?_, ?_⟩
        · rw [happ]
          have := words_suffix g2
          simp only [words_append, words_cons, if_pos hw, List.length_cons] at k2 ⊢
          omega
        · intro r hr
          rcases List.mem_cons.mp hr with rfl | hr
          · exact g1
          · exact k3 r hr
        · simp only [List.map_cons, List.sum_cons]
          have hr := stays_round w hw g2
          have hkey : stays w 0 (u :: ts) + f.maxWords * weigh w rest ≤
              stays w 0 b + f.maxWords * weigh w rem := by
            have hall : stays w 0 (u :: ts) ≤ f.maxWords * weigh w (u :: ts) :=
              Nat.le_trans (stays_le w 0 _) (Nat.mul_le_mul_right _ (by omega))
            rcases List.append_eq_append_iff.mp happ with ⟨c, e1, e2⟩ | ⟨c, e1, e2⟩
            · rw [e2, weigh_append, weigh_append, Nat.mul_add, Nat.mul_add]
              omega
            · cases c with
              | nil =>
                rw [List.nil_append] at e2
                rw [← e2, weigh_append, Nat.mul_add]
                omega
              | cons v c =>
                have hv : v = u ∧ ts ++ rest = c ++ rem := by simpa [eq_comm] using e2
                obtain ⟨rfl, e3⟩ := hv
                obtain ⟨got, e4⟩ := hext seps v c e1 hs hw
                have e5 : rem = got ++ rest := by
                  have : ts = c ++ got := by simpa [eq_comm] using e4
                  rw [this, List.append_assoc] at e3
                  exact (List.append_cancel_left e3).symm
                have e6 : stays w 0 b = stays w 0 (v :: c) := by
                  rw [e1, stays_append, stays_separators w hs, words_separators hs, Nat.zero_add]
                rw [e6, ← e4, stays_append, e5, weigh_append, Nat.mul_add]
                have h7 := stays_le w (0 + words (v :: c)) got
                have h8 : (0 + words (v :: c) + words got) * weigh w got ≤ f.maxWords * weigh w got :=
                  Nat.mul_le_mul_right _ (by rw [← e4, words_append] at hbw; omega)
                omega
          omega

/-- **C106 (searching is linear).** At the first `Next` the loop makes at most one round for each word of the
input. In all the rounds together it goes over at most `m` times as many buffered tokens as there are tokens,
and looks up at most `m` times as many runes as there are runes in the input, where `m` is the number of words
of the longest synonym. That holds whether the input ends or fails. -/
theorem C106_synonyms {E : Env} (hE : E.Lawful) (mappings : StringMap) (ic : Bool) (ign : List Rune)
    (hs : ∀ m ∈ mappings, (E.scan { data := m.1 }).2 = none) {ts : TokenStream} {toks : List Token} {e : End}
    (h : ts.Yields toks e) :
    ∃ f rs, build E mappings ic ign = Go.ret (.ok f) ∧
      Rounds E.U ts.call f (synonyms E mappings ic ign ts).st.inner rs ∧ rs.length ≤ words toks ∧
      (rs.map fun r => r.buffer.length).sum ≤ wordLimit (entries E mappings) * toks.length ∧
      (rs.map fun r => runeCount r.run).sum ≤ wordLimit (entries E mappings) * runeCount toks := by
  have hm : 0 < (builtFilter E mappings ic ign).maxWords := by
    rw [builtFilter_maxWords]; exact wordLimit_pos _
  obtain ⟨rs, h1, h2, h3, h4⟩ := rounds_weigh E.U hm (fun _ => 1) [] toks (Nat.zero_le _) h []
  obtain ⟨rs', k1, -, -, k4⟩ := rounds_weigh E.U hm (fun t => (runes t.value).length) [] toks (Nat.zero_le _) h []
  obtain rfl := h1.unique k1
  refine ⟨_, rs, build_ok hE mappings ic ign hs, h1, h2, ?_, ?_⟩
  · rw [builtFilter_maxWords] at h4
    simpa [weigh, stays] using h4
  · rw [builtFilter_maxWords] at k4
    show _ ≤ _ * weigh (fun t => (runes t.value).length) toks
    refine Nat.le_trans ?_ (by simpa [stays] using k4)
    clear k4 h4 h1 h2 k1
    induction rs with
    | nil => simp
    | cons r rs ih =>
      simp only [List.map_cons, List.sum_cons]
      have := ih fun x hx => h3 x (by simp [hx])
      obtain ⟨c, hc⟩ := h3 r (by simp)
      have hle : runeCount r.run ≤ weigh (fun t => (runes t.value).length) r.buffer := by
        rw [← hc, weigh_append]; exact Nat.le_add_right _ _
      omega

/-- **C106 (tags).** For the shipped table of tags the factor is 5. -/
theorem C106_tags {E : Env} {cls : WordTable} (hE : E.Lawful) (hF : E.FollowsUax29 cls) (hR : cls.Right)
    (hP : E.U.PunctLatin) {ts : TokenStream} {toks : List Token} {e : End} (h : ts.Yields toks e) :
    ∃ f rs, build E stackOverflowMappings true stackOverflowIgnore = Go.ret (.ok f) ∧
      Rounds E.U ts.call f (tags E ts).st.inner rs ∧ rs.length ≤ words toks ∧
      (rs.map fun r => r.buffer.length).sum ≤ 5 * toks.length ∧
      (rs.map fun r => runeCount r.run).sum ≤ 5 * runeCount toks := by
  have hlim : wordLimit (entries E stackOverflowMappings) = 5 := by
    rw [stackOverflow_rows]; exact so_limit_eq hF hR hP
  have := C106_synonyms hE stackOverflowMappings true stackOverflowIgnore
    (fun m hm => ((C76_scanner_laws hF hR).2.1 m hm).scans) h
  rwa [hlim] at this

/-- What is assumed in `C106_tags` can be met. -/
example : uaxEnv.Lawful ∧ uaxEnv.FollowsUax29 uaxTable ∧ uaxTable.Right ∧ uaxEnv.U.PunctLatin :=
  ⟨uaxEnv_lawful, uaxEnv_follows, uaxTable_right, uaxEnv_punct⟩

/-- What is assumed in `C106_synonyms` can be met: four tokens through a filter with a synonym of two words. -/
example : ∃ f rs, build sampleEnv [(str "big data", str "bigdata")] false [] = Go.ret (.ok f) ∧
    Rounds sampleEnv.U (listStream (stringTokens sampleEnv (str "big data big")) .eof).call f
      (synonyms sampleEnv [(str "big data", str "bigdata")] false []
        (listStream (stringTokens sampleEnv (str "big data big")) .eof)).st.inner rs ∧ rs.length ≤ 3 := by
  obtain ⟨f, rs, h1, h2, h3, -, -⟩ := C106_synonyms sampleEnv_lawful [(str "big data", str "bigdata")] false []
    (fun _ _ => rfl) (listStream_yields (stringTokens sampleEnv (str "big data big")) .eof)
  exact ⟨f, rs, h1, h2, Nat.le_trans h3 (by decide +kernel)⟩

end Jargon
