import Verif.Spec.Cost
import Verif.Props.Lazy
import Verif.Props.Tables

/-! C82, C83: memory and time (README.md:88-92). -/

namespace Jargon
variable {σ : Type}

/-- A bound that each call keeps is kept. -/
theorem keepsAtMost_of {next : NextFn σ} {kept : σ → Nat} {K : Nat}
    (h : ∀ s r s', kept s ≤ K → next s = Go.ret (r, s') → kept s' ≤ K) {s : σ} (hs : kept s ≤ K) :
    KeepsAtMost next kept s K := by
  rintro s' ⟨rs, ha⟩
  induction rs generalizing s with
  | nil => cases ha; exact hs
  | cons r rs ih =>
    obtain ⟨s1, h1, h2⟩ := ha
    exact ih (h _ _ _ hs h1) h2

theorem Drains.le {next : NextFn σ} {left : σ → Nat} {K : Nat}
    (h : ∀ s r s', left s ≤ K → next s = Go.ret (r, s') → left s' ≤ K)
    {s s' : σ} {toks : List Token} {n : Nat} (hs : left s ≤ K) (hd : Drains next left s toks n s') :
    n ≤ K * toks.length := by
  induction hd with
  | nil => simp
  | cons h1 _ ih =>
    have := h _ _ _ hs h1
    have := ih this
    simp only [List.length_cons, Nat.mul_add, Nat.mul_one]
    omega

/-! ### Contractions -/

theorem segments_le {segs : List Bytes} (h : ∀ s ∈ segs, s ≠ []) : segs.length ≤ segs.flatten.length := by
  induction segs with
  | nil => simp
  | cons a as ih =>
    have := ih fun s hs => h s (by simp [hs])
    have ha := List.length_pos_iff.mpr (h a (by simp))
    simp only [List.length_cons, List.flatten_cons, List.length_append]
    omega

theorem tokenizeString_length {E : Env} (hE : E.Lawful) {s : Bytes} {toks : List Token} {e : Option Err}
    (h : (tokenizeString E s).toSlice = Go.ret (toks, e)) : toks.length ≤ s.length := by
  have h1 := tokenize_yields E hE { data := s }
  have h2 := toSlice_yields h1
  rw [show (tokenizeString E s).toSlice = (tokenize E { data := s }).toSlice from rfl, h2] at h
  simp only [Go.ret_inj, Prod.mk.injEq] at h
  rw [← h.1]
  split
  · have h3 := segments_le (hE.nonempty { data := s })
    have h4 := (hE.sound { data := s }).length_le
    have h5 : (segTokens E.U (E.scan { data := s }).1).length = (E.scan { data := s }).1.length := by
      simp [segTokens]
    simp only at h4
    omega
  · simp

theorem tryExpansion_length {E : Env} (hE : E.Lawful) {m : StringMap} {K : Nat}
    (hK : ∀ kv ∈ m, kv.2.length ≤ K) {t : Token} {ic : Bool} {x : Bool × Option Err} {q : Queue Token}
    (h : tryExpansion E m [] t ic = Go.ret (x, q)) :
    q.length ≤ K ∧ (x.1 = false → q = []) := by
  unfold tryExpansion at h
  simp only at h
  split at h
  · simp only [Go.ret_inj, Prod.mk.injEq] at h
    rw [← h.2]; simp
  · rename_i ex hl
    obtain ⟨⟨toks, err⟩, h1, h2⟩ := Go.bind_eq_ret.mp h
    have hlen := tokenizeString_length hE h1
    have hmem : ∃ k, (k, ex) ∈ m := ⟨_, lookup_mem hl⟩
    obtain ⟨k, hk⟩ := hmem
    have := hK _ hk
    simp only at h2 this
    split at h2
    · simp only [Go.pure_eq, Go.ret_inj, Prod.mk.injEq] at h2
      rw [← h2.2, ← h2.1]; simp
    · simp only [Go.pure_eq, Go.ret_inj, Prod.mk.injEq] at h2
      rw [← h2.2, ← h2.1]
      simp [Queue.push]
      omega

theorem conFinish_length {s : TS σ} {q : Queue Token} {t : Token} {r : Res} {s' : ConState σ} {K : Nat}
    (hq : q.length ≤ K) (h : conFinish s q t = Go.ret (r, s')) : s'.outgoing.length ≤ K := by
  unfold conFinish at h
  split at h
  · cases q with
    | nil => rename_i h0; simp at h0
    | cons a q =>
      simp only [Queue.pop_cons, Go.ret_bind, Go.pure_eq, Go.ret_inj, Prod.mk.injEq] at h
      rw [← h.2]
      simp only [List.length_cons] at hq ⊢
      omega
  · simp only [Go.ret_inj, Prod.mk.injEq] at h
    rw [← h.2]; exact hq

theorem conNext_length {E : Env} (hE : E.Lawful) {m : StringMap} {K : Nat}
    (hK : ∀ kv ∈ m, kv.2.length ≤ K) {call : NextFn σ} {s s' : ConState σ} {r : Res}
    (hs : s.outgoing.length ≤ K) (h : conNext E m call s = Go.ret (r, s')) : s'.outgoing.length ≤ K := by
  unfold conNext at h
  rcases hq : s.outgoing with _ | ⟨a, q⟩
  · rw [hq] at h
    simp only [Queue.any_nil, Bool.false_eq_true, ↓reduceIte] at h
    obtain ⟨⟨r1, s1⟩, -, h2⟩ := Go.bind_eq_ret.mp h
    simp only at h2
    split at h2
    · simp only [Go.pure_eq, Go.ret_inj, Prod.mk.injEq] at h2
      rw [← h2.2]; simp
    · split at h2
      · simp only [Go.pure_eq, Go.ret_inj, Prod.mk.injEq] at h2
        rw [← h2.2]; simp
      · obtain ⟨⟨⟨found, err⟩, q1⟩, h0, h3⟩ := Go.bind_eq_ret.mp h2
        obtain ⟨hl, hn⟩ := tryExpansion_length hE hK h0
        simp only at h3 hn
        split at h3
        · simp only [Go.pure_eq, Go.ret_inj, Prod.mk.injEq] at h3
          rw [← h3.2]; exact hl
        · split at h3
          · exact conFinish_length hl h3
          · rename_i hf
            rw [hn (by simpa using hf)] at h3
            obtain ⟨⟨⟨found, err⟩, q2⟩, h5, h4⟩ := Go.bind_eq_ret.mp h3
            obtain ⟨hl, -⟩ := tryExpansion_length hE hK h5
            simp only at h4
            split at h4
            · simp only [Go.pure_eq, Go.ret_inj, Prod.mk.injEq] at h4
              rw [← h4.2]; exact hl
            · exact conFinish_length hl h4
  · rw [hq] at h hs
    simp only [Queue.any_cons, ↓reduceIte, Queue.pop_cons, Go.ret_bind, Go.pure_eq, Go.ret_inj,
      Prod.mk.injEq] at h
    rw [← h.2]
    simp only [List.length_cons] at hs ⊢
    omega

/-- **C82 (contractions).** Between calls the filter keeps at most as many tokens as the longest expansion
of the table has bytes, on every stream, failing and endless ones included. -/
theorem C82_contractions {E : Env} (hE : E.Lawful) {m : StringMap} {K : Nat}
    (hK : ∀ kv ∈ m, kv.2.length ≤ K) (ts : TokenStream) :
    KeepsAtMost (expandWith E m ts).call (fun s => s.outgoing.length) (expandWith E m ts).st.inner K :=
  keepsAtMost_of (fun _ _ _ hs h => conNext_length hE hK hs h) (Nat.zero_le _)

/-! ### Sigils -/

theorem sigilNext_length {U : Unicode} {f : SigilFilter} {call : NextFn σ} {s s' : SigilState σ} {r : Res}
    (hs : s.outgoing.length ≤ 1) (h : sigilNext U f call s = Go.ret (r, s')) : s'.outgoing.length ≤ 1 := by
  unfold sigilNext at h
  rcases hq : s.outgoing with _ | ⟨a, q⟩
  · rw [hq] at h
    simp only [Queue.any_nil, Bool.false_eq_true, ↓reduceIte] at h
    obtain ⟨⟨r1, s1⟩, h1, h2⟩ := Go.bind_eq_ret.mp h
    simp only at h2
    split at h2
    · simp only [Go.pure_eq, Go.ret_inj, Prod.mk.injEq] at h2
      rw [← h2.2]; exact Nat.zero_le _
    · split at h2
      · simp only [Go.pure_eq, Go.ret_inj, Prod.mk.injEq] at h2
        rw [← h2.2]; exact Nat.zero_le _
      · split at h2
        · simp only [Go.pure_eq, Go.ret_inj, Prod.mk.injEq] at h2
          rw [← h2.2]; exact Nat.zero_le _
        · obtain ⟨⟨⟨b, hd, er⟩, s2⟩, h3, h4⟩ := Go.bind_eq_ret.mp h2
          have hle : s2.outgoing.length ≤ 1 := by
            unfold sigilTry at h3
            split at h3
            · simp only [Go.ret_inj, Prod.mk.injEq] at h3
              rw [← h3.2]; exact Nat.zero_le _
            · obtain ⟨⟨r3, s3⟩, -, h5⟩ := Go.bind_eq_ret.mp h3
              simp only at h5
              split at h5
              · simp only [Go.pure_eq, Go.ret_inj, Prod.mk.injEq] at h5
                rw [← h5.2]; exact Nat.zero_le _
              · split at h5
                · simp only [Go.pure_eq, Go.ret_inj, Prod.mk.injEq] at h5
                  rw [← h5.2]; exact Nat.zero_le _
                · split at h5
                  · simp only [Go.pure_eq, Go.ret_inj, Prod.mk.injEq] at h5
                    rw [← h5.2]; exact Nat.zero_le _
                  · simp only [Go.pure_eq, Go.ret_inj, Prod.mk.injEq] at h5
                    rw [← h5.2]; simp [Queue.push]
          simp only at h4
          split at h4
          · simp only [Go.pure_eq, Go.ret_inj, Prod.mk.injEq] at h4
            rw [← h4.2]; exact hle
          · split at h4
            · split at h4
              · simp only [Go.pure_eq, Go.ret_inj, Prod.mk.injEq] at h4
                rw [← h4.2]; exact hle
              · simp only [Go.pure_eq, Go.ret_inj, Prod.mk.injEq] at h4
                rw [← h4.2]; exact hle
            · simp only [Go.pure_eq, Go.ret_inj, Prod.mk.injEq] at h4
              rw [← h4.2]; exact hle
  · rw [hq] at h hs
    simp only [Queue.any_cons, ↓reduceIte, Queue.pop_cons, Go.ret_bind, Go.pure_eq, Go.ret_inj,
      Prod.mk.injEq] at h
    rw [← h.2]
    simp only [List.length_cons] at hs ⊢
    omega

/-- **C82 (handles, hashtags).** Between calls the filter keeps at most one token in its queue (besides
the one before). -/
theorem C82_sigil (U : Unicode) (f : SigilFilter) (ts : TokenStream) :
    KeepsAtMost (sigil U f ts).call (fun s => s.outgoing.length) (sigil U f ts).st.inner 1 :=
  keepsAtMost_of (fun _ _ _ hs h => sigilNext_length hs h) (Nat.zero_le _)

/-! ### Distinct -/

theorem distinct_step {call : NextFn σ} : ∀ {s s' : TS σ} {p p' : List Bytes} {t : Token},
    whereNext call isDistinct (s, p) = Go.ret ({ tok := some t, err := none }, (s', p')) →
    p' = t.value :: p := by
  suffices H : ∀ x : TS σ × List Bytes, ∀ s' p' t,
      whereNext call isDistinct x = Go.ret ({ tok := some t, err := none }, (s', p')) →
      p' = t.value :: x.2 by
    intro s s' p p' t h; exact H _ _ _ _ h
  refine whereNext.fixpoint_induct call isDistinct (fun f => ∀ x : TS σ × List Bytes, ∀ s' p' t,
      f x = Go.ret ({ tok := some t, err := none }, (s', p')) → p' = t.value :: x.2) ?_ ?_
  · refine Lean.Order.admissible_pi_apply (P := fun (x : TS σ × List Bytes)
      (y : Go (Res × (TS σ × List Bytes))) => ∀ s' p' t,
      y = Go.ret ({ tok := some t, err := none }, (s', p')) → p' = t.value :: x.2) fun x => ?_
    exact go_admissible _ (fun s' p' t h => by simp at h)
  · intro f ih x s' p' t h
    obtain ⟨⟨r1, s1⟩, h1, h2⟩ := Go.bind_eq_ret.mp h
    obtain ⟨tok, err⟩ := r1
    simp only at h2
    cases err with
    | some e =>
      simp only [Option.isSome_some, ↓reduceIte, Go.pure_eq, Go.ret_inj, Prod.mk.injEq,
        Res.mk.injEq, reduceCtorEq, false_and] at h2
    | none =>
      simp only [Option.isSome_none, Bool.false_eq_true, ↓reduceIte] at h2
      cases tok with
      | none =>
        simp only [Go.pure_eq, Go.ret_inj, Prod.mk.injEq, Res.mk.injEq, reduceCtorEq, false_and] at h2
      | some u =>
        simp only at h2
        cases hb : (isDistinct x.2 u).1 with
        | true =>
          rw [if_pos hb] at h2
          simp only [Go.pure_eq, Go.ret_inj, Prod.mk.injEq, Res.mk.injEq, Option.some.injEq,
            and_true] at h2
          obtain ⟨rfl, rfl, rfl⟩ := h2
          simp only [isDistinct, Bool.not_eq_true'] at hb ⊢
          rw [hb]
          rfl
        | false =>
          rw [if_neg (by simp [hb])] at h2
          have := ih _ _ _ _ h2
          rw [this]
          simp only [isDistinct, Bool.not_eq_false'] at hb ⊢
          rw [hb]
          rfl

/-- **C82 (Distinct).** Having delivered some tokens, `Distinct` remembers the text of each of them, and
nothing else. -/
theorem C82_distinct (ts : TokenStream) {toks : List Token} {s' : TS ts.σ} {seen : List Bytes}
    (h : Steps ts.distinct.call ts.distinct.st.inner toks (s', seen)) :
    seen = (toks.map Token.value).reverse := by
  suffices H : ∀ (toks : List Token) (s : TS ts.σ) (p : List Bytes),
      Steps (whereNext ts.call isDistinct) (s, p) toks (s', seen) →
      seen = (toks.map Token.value).reverse ++ p by
    simpa using H toks _ _ h
  intro toks
  induction toks with
  | nil =>
    intro s p h
    have : (s, p) = (s', seen) := h
    simp only [Prod.mk.injEq] at this
    simp [this.2]
  | cons t toks ih =>
    intro s p h
    obtain ⟨⟨s1, p1⟩, h1, h2⟩ := h
    have := distinct_step h1
    rw [ih _ _ h2, this]
    simp

/-! ### Synonyms -/

/-- **C82 (synonyms keep everything).** After the first `Next` the whole rest of the output is kept in the
queue, whatever the mappings. -/
theorem C82_synonyms_keep_all {E : Env} (hE : E.Lawful) {mappings : StringMap} {ic : Bool}
    {ign : List Rune} (hs : ∀ m ∈ mappings, (E.scan { data := m.1 }).2 = none)
    {ts : TokenStream} {toks out : List Token} {t : Token} (h : ts.Yields toks .eof)
    (hg : Greedy ⟨E.U, ic, ign⟩ ((Compare.mk E.U ic ign).dict (entries E mappings))
      (wordLimit (entries E mappings)) toks (t :: out)) :
    ∃ s', (synonyms E mappings ic ign ts).call (synonyms E mappings ic ign ts).st.inner =
        Go.ret ({ tok := some t, err := none }, s') ∧ s'.outgoing = out.map some ∧ s'.buffer = [] ∧
      Emits (TS.next ts.call) [] .eof s'.incoming := by
  have hm : 0 < (builtFilter E mappings ic ign).maxWords := by
    rw [builtFilter_maxWords]; exact wordLimit_pos _
  obtain ⟨s', h1, h2⟩ := (synLoop_spec (U := E.U) hm (builtFilter_compare E mappings ic ign)
    (builtFilter_get E mappings ic ign) [] toks h (by rw [builtFilter_maxWords]; exact hg) []).1 rfl
  refine ⟨{ incoming := s', buffer := [], outgoing := out.map some }, ?_, rfl, rfl, h1⟩
  show synClosure E.U (build E mappings ic ign) ts.call ⟨ts.st, [], []⟩ = _
  rw [build_ok hE mappings ic ign hs]
  simp only [synClosure, Go.ret_bind]
  unfold synNext
  simp [Queue.len, h2, Queue.push, Queue.clear]
  rfl

theorem greedy_separators {C : Compare} {D : Dict} {m : Nat} {toks : List Token}
    (h : ∀ t ∈ toks, ¬ t.IsWord) : Greedy C D m toks toks := by
  induction toks with
  | nil => exact .nil
  | cons t ts ih => exact .separator (h t (by simp)) (ih fun x hx => h x (by simp [hx]))

/-- A token of white space. -/
def spaceToken : Token := ⟨str " ", false, true, false⟩

/-- C82 in full, for synonyms: there is a bound, which may depend on the mappings, on what is kept. -/
def C82_full (E : Env) (mappings : StringMap) (ic : Bool) (ign : List Rune) : Prop :=
  ∃ K, ∀ ts : TokenStream, KeepsAtMost (synonyms E mappings ic ign ts).call
    (fun s => s.buffer.length + s.outgoing.length) (synonyms E mappings ic ign ts).st.inner K

/-- **C82 is false for synonyms**, whatever the mappings: there is no bound on what is kept. -/
theorem C82_violated {E : Env} (hE : E.Lawful) (mappings : StringMap) (ic : Bool) (ign : List Rune)
    (hs : ∀ m ∈ mappings, (E.scan { data := m.1 }).2 = none) : ¬ C82_full E mappings ic ign := by
  rintro ⟨K, h⟩
  obtain ⟨s', h1, h2, -, -⟩ := C82_synonyms_keep_all hE (ic := ic) (ign := ign) hs
    (toks := spaceToken :: List.replicate (K + 1) spaceToken) (out := List.replicate (K + 1) spaceToken)
    (t := spaceToken) (listStream_yields _ _) (greedy_separators (by
      intro t ht
      have : t = spaceToken := by
        rcases List.mem_cons.mp ht with h | h
        · exact h
        · exact (List.mem_replicate.mp h).2
      subst this
      decide +kernel))
  have := h _ s' ⟨[_], s', h1, rfl⟩
  simp only [h2, List.length_map, List.length_replicate] at this
  omega

/-- What is assumed in `C82_violated` can be met. -/
example : sampleEnv.Lawful ∧
    ∀ m ∈ [(str "react, reactjs", str "reactjs")], (sampleEnv.scan { data := m.1 }).2 = none :=
  ⟨sampleEnv_lawful, fun _ _ => rfl⟩

/-- **C82 (the shipped contractions).** At most 16 tokens are kept. -/
theorem C82_expand {E : Env} (hE : E.Lawful) (ts : TokenStream) :
    KeepsAtMost (expand E ts).call (fun s => s.outgoing.length) (expand E ts).st.inner 16 :=
  C82_contractions hE (by decide +kernel) ts

/-- **C82 (partial).** What contractions, handles and hashtags keep is bounded, whatever the stream. Missing: synonyms, of
which it is false (`C82_violated`), and Distinct, which has to remember what it delivered (`C82_distinct`). -/
theorem C82_partial {E : Env} (hE : E.Lawful) :
    (∀ m : StringMap, ∃ K, ∀ ts : TokenStream,
      KeepsAtMost (expandWith E m ts).call (fun s => s.outgoing.length) (expandWith E m ts).st.inner K) ∧
    ∃ K, ∀ (f : SigilFilter) (ts : TokenStream),
      KeepsAtMost (sigil E.U f ts).call (fun s => s.outgoing.length) (sigil E.U f ts).st.inner K := by
  have bound : ∀ m : StringMap, ∃ K, ∀ kv ∈ m, kv.2.length ≤ K := by
    intro m
    induction m with
    | nil => exact ⟨0, by simp⟩
    | cons a m ih =>
      obtain ⟨K, hK⟩ := ih
      refine ⟨a.2.length + K, fun kv hkv => ?_⟩
      rcases List.mem_cons.mp hkv with rfl | h
      · omega
      · have := hK kv h
        omega
  refine ⟨fun m => ?_, 1, fun f ts => C82_sigil E.U f ts⟩
  obtain ⟨K, hK⟩ := bound m
  exact ⟨K, fun ts => C82_contractions hE hK ts⟩

/-! ### Time -/

/-- **C83 (what `Drop` and `Pop` move).** `Drop(n)` copies all but `n` of the tokens in the queue; `Pop`
all but one, which are the tokens left. -/
theorem C83_pop_moves {h h' : Heap} {q q' : Slice} {n : Nat}
    (hd : HQueue.drop h q n = Go.ret (h', q')) :
    ∃ src, q.from n = Go.ret src ∧ copied q src = q'.len ∧ q'.len = q.len - n := by
  unfold HQueue.drop at hd
  obtain ⟨src, h1, h2⟩ := Go.bind_eq_ret.mp hd
  refine ⟨src, h1, ?_⟩
  unfold Slice.from at h1
  split at h1
  · simp only [Go.ret_inj] at h1
    obtain ⟨q1, h3, h4⟩ := Go.bind_eq_ret.mp h2
    simp only [Go.pure_eq, Go.ret_inj, Prod.mk.injEq] at h4
    unfold Slice.to at h3
    split at h3
    · simp only [Go.ret_inj] at h3
      rw [← h4.2, ← h3, ← h1]
      exact ⟨Nat.min_eq_right (Nat.sub_le _ _), rfl⟩
    · simp at h3
  · simp at h1

/-- A call of the synonyms filter that delivers a token ends with a `Pop` from the queue. -/
theorem C83_synonyms_pop {U : Unicode} {call : NextFn σ} {f : SynFilter} {s s' : SynState σ} {t : Token}
    (h : synNext U call f s = Go.ret ({ tok := some t, err := none }, s')) :
    ∃ q : Queue (Option Token), q.pop = Go.ret (some t, s'.outgoing) := by
  unfold synNext at h
  split at h
  · simp at h
  · split at h
    · obtain ⟨⟨t, q⟩, h2, h3⟩ := Go.bind_eq_ret.mp h
      simp only [Go.pure_eq, Go.ret_inj, Prod.mk.injEq, Res.mk.injEq, and_true] at h3
      obtain ⟨rfl, rfl⟩ := h3
      exact ⟨_, h2⟩
    · obtain ⟨⟨err, t⟩, -, h3⟩ := Go.bind_eq_ret.mp h
      simp only at h3
      split at h3
      · simp at h3
      · split at h3
        · obtain ⟨⟨t, q⟩, h2, h4⟩ := Go.bind_eq_ret.mp h3
          simp only [Go.pure_eq, Go.ret_inj, Prod.mk.injEq, Res.mk.injEq, and_true] at h4
          obtain ⟨rfl, rfl⟩ := h4
          exact ⟨_, h2⟩
        · simp at h3

theorem triangle (t : Token) (out : List Token) : (t :: out).length * ((t :: out).length - 1) / 2 =
    (out.map some).length + out.length * (out.length - 1) / 2 := by
  simp only [List.length_cons, Nat.add_sub_cancel, List.length_map]
  cases out.length with
  | zero => rfl
  | succ n =>
    simp only [Nat.add_sub_cancel]
    have : (n + 1 + 1) * (n + 1) = 2 * (n + 1) + (n + 1) * n := by
      simp only [Nat.add_mul, Nat.mul_add]; omega
    rw [this]
    omega

theorem delivers_queue {E : Env} (hE : E.Lawful) {mappings : StringMap} {ic : Bool}
    {ign : List Rune} (hs : ∀ m ∈ mappings, (E.scan { data := m.1 }).2 = none) {call : NextFn σ}
    (out : List Token) (inc : TS σ) :
    Drains (synClosure E.U (build E mappings ic ign) call) (fun s => s.outgoing.length)
      { incoming := inc, buffer := [], outgoing := out.map some } out (out.length * (out.length - 1) / 2)
      { incoming := inc, buffer := [], outgoing := [] } := by
  induction out with
  | nil => exact .nil _
  | cons t out ih =>
    rw [triangle t out]
    refine Drains.cons ?_ ih
    rw [build_ok hE mappings ic ign hs]
    simp only [synClosure, Go.ret_bind]
    unfold synNext
    simp [Queue.len]

/-- **C83 (synonyms).** To deliver `n` tokens the synonyms filter moves `n (n - 1) / 2` tokens within its
queue, whatever the mappings. -/
theorem C83_synonyms_quadratic {E : Env} (hE : E.Lawful) {mappings : StringMap} {ic : Bool}
    {ign : List Rune} (hs : ∀ m ∈ mappings, (E.scan { data := m.1 }).2 = none)
    {ts : TokenStream} {toks out : List Token} (h : ts.Yields toks .eof)
    (hg : Greedy ⟨E.U, ic, ign⟩ ((Compare.mk E.U ic ign).dict (entries E mappings))
      (wordLimit (entries E mappings)) toks out) :
    ∃ s', Drains (synonyms E mappings ic ign ts).call (fun s => s.outgoing.length)
      (synonyms E mappings ic ign ts).st.inner out (out.length * (out.length - 1) / 2) s' := by
  cases out with
  | nil => exact ⟨_, .nil _⟩
  | cons t out =>
    obtain ⟨⟨inc, b, q⟩, h1, h2, h3, -⟩ := C82_synonyms_keep_all hE (ic := ic) (ign := ign) hs h hg
    simp only at h2 h3
    subst h2 h3
    rw [triangle t out]
    exact ⟨_, .cons h1 (delivers_queue hE (ic := ic) (ign := ign) hs (call := ts.call) out inc)⟩

/-- C83 in full, for synonyms: the number of tokens moved is at most proportional to the number of tokens
of the stream. -/
def C83_full (E : Env) (mappings : StringMap) (ic : Bool) (ign : List Rune) : Prop :=
  ∃ c, ∀ (ts : TokenStream) (toks : List Token), ts.Yields toks .eof → ∀ out n s',
    Drains (synonyms E mappings ic ign ts).call (fun s => s.outgoing.length)
      (synonyms E mappings ic ign ts).st.inner out n s' → n ≤ c * (toks.length + 1)

/-- **C83 is false for synonyms**, whatever the mappings. -/
theorem C83_violated {E : Env} (hE : E.Lawful) (mappings : StringMap) (ic : Bool) (ign : List Rune)
    (hs : ∀ m ∈ mappings, (E.scan { data := m.1 }).2 = none) : ¬ C83_full E mappings ic ign := by
  rintro ⟨c, h⟩
  have hy := listStream_yields (List.replicate (2 * c + 3) spaceToken) .eof
  obtain ⟨s', h1⟩ := C83_synonyms_quadratic hE (ic := ic) (ign := ign) hs hy (greedy_separators (by
      intro t ht
      have : t = spaceToken := (List.mem_replicate.mp ht).2
      subst this
      decide +kernel))
  have := h _ _ hy _ _ _ h1
  simp only [List.length_replicate] at this
  have e : (2 * c + 3) * (2 * c + 3 - 1) / 2 = (2 * c + 3) * (c + 1) := by
    rw [show 2 * c + 3 - 1 = (c + 1) * 2 by omega, ← Nat.mul_assoc]
    exact Nat.mul_div_cancel _ (by omega)
  rw [e] at this
  have e2 : (2 * c + 3) * (c + 1) = c * (2 * c + 3 + 1) + (c + 3) := by
    simp only [Nat.add_mul, Nat.mul_add]
    have : c * (2 * c) = 2 * c * c := Nat.mul_comm _ _
    omega
  omega

/-- **C83 (contractions, partial).** To deliver `n` tokens at most `16 n` tokens are moved. Missing: the
time that scanning and looking up takes, which the model does not count. -/
theorem C83_expand_partial {E : Env} (hE : E.Lawful) (ts : TokenStream) {toks : List Token} {n : Nat}
    {s' : ConState ts.σ}
    (h : Drains (expand E ts).call (fun s => s.outgoing.length) (expand E ts).st.inner toks n s') :
    n ≤ 16 * toks.length :=
  Drains.le (fun _ _ _ hs h => conNext_length hE (by decide +kernel) hs h) (Nat.zero_le _) h

/-- **C83 (handles, hashtags, partial).** To deliver `n` tokens at most `n` tokens are moved. -/
theorem C83_sigil_partial (U : Unicode) (f : SigilFilter) (ts : TokenStream) {toks : List Token} {n : Nat}
    {s' : SigilState ts.σ}
    (h : Drains (sigil U f ts).call (fun s => s.outgoing.length) (sigil U f ts).st.inner toks n s') :
    n ≤ toks.length := by
  simpa using Drains.le (fun _ _ _ hs h => sigilNext_length hs h) (Nat.zero_le _) h

/-- Three tokens through a filter without mappings: 2 + 1 tokens are moved. -/
example : ∃ s', Drains (synonyms sampleEnv [] false [] (listStream (List.replicate 3 spaceToken) .eof)).call
    (fun s => s.outgoing.length)
    (synonyms sampleEnv [] false [] (listStream (List.replicate 3 spaceToken) .eof)).st.inner
    (List.replicate 3 spaceToken) 3 s' :=
  C83_synonyms_quadratic sampleEnv_lawful (by simp) (listStream_yields _ _) (greedy_separators (by
    intro t ht
    have : t = spaceToken := (List.mem_replicate.mp ht).2
    subst this
    decide +kernel))

end Jargon
