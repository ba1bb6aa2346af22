import Verif.Spec.Builtin
import Verif.Props.Simple
import Verif.Props.Stream
import Verif.Props.Sigil
import Verif.Props.Ascii
import Verif.Props.Synonyms

/-! C10–C13, C26, C52: all filters, and pipelines of them. -/

namespace Jargon

theorem nonlemma_map {f : Token → Token} (h : ∀ t, f t = t ∨ (f t).lemma = true) (toks : List Token) :
    ((toks.map f).filter fun t => !t.lemma).Sublist toks := by
  induction toks with
  | nil => exact .slnil
  | cons t ts ih =>
    rw [List.map_cons, List.filter_cons]
    rcases h t with h | h
    · rw [h]
      split
      · exact ih.cons_cons _
      · exact ih.cons _
    · simp only [h, Bool.not_true, Bool.false_eq_true, ↓reduceIte]
      exact ih.cons _

theorem sigil_nonlemma (U : Unicode) (f : SigilFilter) (p : Option Token) (toks : List Token) (e : End) :
    ((sigilActual U f p toks e).1.filter fun t => !t.lemma).Sublist toks := by
  have one : ∀ (t : Token) (l l' : List Token), (l.filter fun t => !t.lemma).Sublist l' →
      ((t :: l).filter fun t => !t.lemma).Sublist (t :: l') := by
    intro t l l' h
    rw [List.filter_cons]
    split
    · exact h.cons_cons _
    · exact h.cons _
  fun_induction sigilActual U f p toks e with
  | case1 => simp
  | case2 => exact one _ _ _ (by simp)
  | case3 => simp
  | case4 => exact one _ _ _ (by simp)
  | case5 p c l rest e _ _ ih =>
    rw [emit, List.filter_cons]
    simp only [mkToken, Bool.not_true, Bool.false_eq_true, ↓reduceIte]
    exact (ih.cons _).cons _
  | case6 p c l rest e _ _ ih => exact one _ _ _ (one _ _ _ ih)
  | case7 p c l rest e _ ih => exact one _ _ _ ih

theorem sigil_nonempty (U : Unicode) (f : SigilFilter) (hf : f.sigil ≠ []) (p : Option Token)
    (toks : List Token) (e : End) (h : ∀ t ∈ toks, t.value ≠ []) :
    ∀ t ∈ (sigilActual U f p toks e).1, t.value ≠ [] := by
  fun_induction sigilActual U f p toks e <;> simp_all [mkToken]

theorem greedy_nonlemma {C : Compare} {D : Dict} {m : Nat} {toks out : List Token}
    (h : Greedy C D m toks out) : (out.filter fun t => !t.lemma).Sublist toks := by
  induction h with
  | nil => simp
  | separator _ _ ih =>
    rw [List.filter_cons]
    split
    · exact ih.cons_cons _
    · exact ih.cons _
  | @replace t ts out k c _ _ _ ih =>
    have : ((canonTokens C.U c).filter fun t => !t.lemma) = [] := by
      unfold canonTokens
      split <;> simp [mkToken]
    rw [List.filter_append, this, List.nil_append]
    exact ih.trans (List.drop_sublist _ _)
  | word _ _ _ ih =>
    rw [List.filter_cons]
    split
    · exact ih.cons_cons _
    · exact ih.cons _

theorem greedy_nonempty {C : Compare} {D : Dict} {m : Nat} {toks out : List Token}
    (h : Greedy C D m toks out) (hne : ∀ t ∈ toks, t.value ≠ []) : ∀ t ∈ out, t.value ≠ [] := by
  induction h with
  | nil => simp
  | separator _ _ ih | word _ _ _ ih =>
    simp only [List.mem_cons, forall_eq_or_imp] at hne ⊢
    exact ⟨hne.1, ih hne.2⟩
  | @replace t ts out k c _ _ _ ih =>
    intro x hx
    rcases List.mem_append.mp hx with hx | hx
    · unfold canonTokens at hx
      split at hx
      · simp at hx
      · simp only [List.mem_singleton] at hx
        subst hx
        simpa [mkToken] using ‹¬ c = []›
    · exact ih (fun t ht => hne t (List.mem_of_mem_drop ht)) x hx

theorem stringTokens_nonempty {E : Env} (hE : E.Lawful) (s : Bytes) :
    ∀ t ∈ stringTokens E s, t.value ≠ [] := by
  intro t ht
  simp only [stringTokens, segTokens, List.mem_map] at ht
  obtain ⟨seg, hs, rfl⟩ := ht
  exact hE.nonempty _ seg hs

/-- What any filter of the library does with a sequence of tokens depends on nothing but that
sequence and its end. -/
theorem Builtin.makes {E : Env} (hE : E.Lawful) (b : Builtin) (hb : b.OK E) (toks : List Token)
    (e : End) :
    ∃ out, Makes (b.apply E) toks e out e ∧
      ((∀ t ∈ toks, t.value ≠ []) → ∀ t ∈ out, t.value ≠ []) ∧
      ((∀ m, b ≠ .contractions m) → (out.filter fun t => !t.lemma).Sublist toks) := by
  cases b with
  | stemmer stem =>
    refine ⟨toks.map (stemToken E.U stem), fun ts h => stemmer_yields (fun t _ => hb _) h, ?_, ?_⟩
    · intro hne t ht
      obtain ⟨u, hu, rfl⟩ := List.mem_map.mp ht
      unfold stemToken
      split
      · exact fun h0 => hne u hu (hb _ h0)
      · exact hne u hu
    · intro _
      refine nonlemma_map (fun t => ?_) toks
      unfold stemToken
      split
      · exact .inr rfl
      · exact .inl rfl
  | norm N =>
    have hb : N.Lawful := hb
    refine ⟨toks.map (normToken E.U N), fun ts h => norm_yields hb h, ?_, ?_⟩
    · intro hne t ht
      obtain ⟨u, hu, rfl⟩ := List.mem_map.mp ht
      unfold normToken
      split
      · exact hne u hu
      · exact fun h0 => hne u hu (hb.nonempty _ h0)
    · intro _
      refine nonlemma_map (fun t => ?_) toks
      unfold normToken
      split
      · exact .inl rfl
      · exact .inr rfl
  | asciiFold =>
    refine ⟨toks.map (foldToken E.U), fun ts h => asciiFold_yields E.U h, ?_, ?_⟩
    · intro hne t ht
      obtain ⟨u, hu, rfl⟩ := List.mem_map.mp ht
      unfold foldToken
      split
      · exact C17_nonempty _ (hne u hu)
      · exact hne u hu
    · intro _
      refine nonlemma_map (fun t => ?_) toks
      unfold foldToken
      split
      · exact .inr rfl
      · exact .inl rfl
  | stopwords ws ic =>
    refine ⟨_, fun ts h => stop_yields h, ?_, ?_⟩
    · intro hne t ht; exact hne t (List.mem_filter.mp ht).1
    · intro _; exact List.filter_sublist.trans List.filter_sublist
  | contractions m =>
    have hb : GoodTable E m := hb
    refine ⟨_, fun ts h => expandWith_yields hE hb h, ?_, fun h => absurd rfl (h m)⟩
    intro hne t ht
    obtain ⟨u, hu, ht⟩ := List.mem_flatMap.mp ht
    unfold expandToken at ht
    split at ht
    · exact stringTokens_nonempty hE _ t ht
    · simp only [List.mem_singleton] at ht
      subst ht; exact hne _ hu
  | sigil f =>
    refine ⟨(sigilActual E.U f none toks e).1, fun ts h => ?_, sigil_nonempty E.U f hb none toks e,
      fun _ => sigil_nonlemma E.U f none toks e⟩
    have := sigil_yields (U := E.U) hb h
    rwa [sigilActual_end] at this
  | synonyms m ic ign =>
    obtain ⟨out, hg⟩ := Greedy.total ⟨E.U, ic, ign⟩ ((Compare.mk E.U ic ign).dict (entries E m))
      (wordLimit (entries E m)) toks
    refine ⟨if e = .eof then out else [], fun ts h => synonyms_yields hE hb h hg, ?_, ?_⟩
    · split
      · exact greedy_nonempty hg
      · simp
    · intro _
      split
      · exact greedy_nonlemma hg
      · simp
  | where_ p =>
    refine ⟨_, fun ts h => where_yields p h, ?_, ?_⟩
    · intro hne t ht; exact hne t (List.mem_filter.mp ht).1
    · intro _; exact List.filter_sublist.trans List.filter_sublist
  | words =>
    refine ⟨_, fun ts h => where_yields _ h, ?_, ?_⟩
    · intro hne t ht; exact hne t (List.mem_filter.mp ht).1
    · intro _; exact List.filter_sublist.trans List.filter_sublist
  | lemmas =>
    refine ⟨_, fun ts h => where_yields _ h, ?_, ?_⟩
    · intro hne t ht; exact hne t (List.mem_filter.mp ht).1
    · intro _; exact List.filter_sublist.trans List.filter_sublist
  | distinct =>
    refine ⟨_, fun ts h => distinct_yields h, ?_, ?_⟩
    · intro hne t ht; exact hne t ((firsts_sublist toks).subset ht)
    · intro _; exact List.filter_sublist.trans (firsts_sublist toks)

/-! ### C10 -/

/-- **C10 (order).** -/
theorem C10_filter_order (ts : TokenStream) (f : Filter) (fs : List Filter) :
    ts.filter [] = ts ∧ ts.filter [f] = f ts ∧ ts.filter (fs ++ [f]) = f (ts.filter fs) := by
  simp [TokenStream.filter]

/-- C10 for any filters whose outcome is known: the outcome of the pipeline is the composition, the
first filter first. -/
theorem C10_chain {fs : List Filter} {toks out : List Token} {e e' : End}
    (hc : Chain fs toks e out e') {ts : TokenStream} (h : ts.Yields toks e) :
    (ts.filter fs).Yields out e' := by
  induction hc generalizing ts with
  | nil => exact h
  | cons hm _ ih => exact ih (hm _ h)

/-- **C10 (outcome).** For filters of the library: each of them makes something definite of any
finished sequence of tokens, and a pipeline delivers the composition in argument order. -/
theorem C10_pipeline {E : Env} (hE : E.Lawful) (bs : List Builtin) (hb : ∀ b ∈ bs, b.OK E)
    (toks : List Token) (e : End) :
    ∃ out, Chain (bs.map (Builtin.apply E)) toks e out e ∧
      ∀ ts : TokenStream, ts.Yields toks e → (ts.filter (bs.map (Builtin.apply E))).Yields out e := by
  have : ∃ out, Chain (bs.map (Builtin.apply E)) toks e out e := by
    induction bs generalizing toks with
    | nil => exact ⟨toks, .nil⟩
    | cons b bs ih =>
      obtain ⟨mid, hm, _⟩ := b.makes hE (hb b (by simp)) toks e
      obtain ⟨out, ho⟩ := ih (fun b h => hb b (by simp [h])) mid
      exact ⟨out, .cons hm ho⟩
  obtain ⟨out, hc⟩ := this
  exact ⟨out, hc, fun ts h => C10_chain hc h⟩

/-! ### C11, C12, C13 -/

/-- **C11.** A pipeline of filters of the library ends exactly as its input does: with the same error,
or normally. -/
theorem C11_errors_forwarded {E : Env} (hE : E.Lawful) (bs : List Builtin) (hb : ∀ b ∈ bs, b.OK E)
    {ts : TokenStream} {toks : List Token} {e : End} (h : ts.Yields toks e) :
    (∃ out, (ts.filter (bs.map (Builtin.apply E))).Yields out e) ∧
    ∀ out e', (ts.filter (bs.map (Builtin.apply E))).Yields out e' → e' = e := by
  obtain ⟨out, -, ho⟩ := C10_pipeline hE bs hb toks e
  exact ⟨⟨out, ho ts h⟩, fun out' e' h' => ((ho ts h).unique h').2.symm⟩

theorem Quiet.answers {σ : Type} {next : NextFn σ} {s : σ} (h : Quiet next s) (n : Nat) :
    ∃ s', Answers next s (List.replicate n ⟨none, none⟩) s' ∧ Quiet next s' := by
  induction n generalizing s with
  | zero => exact ⟨s, rfl, h⟩
  | succ n ih =>
    obtain ⟨s1, h1, h2⟩ := h.step
    obtain ⟨s', h3, h4⟩ := ih h2
    exact ⟨s', ⟨s1, h1, h3⟩, h4⟩

theorem Steps.answers {σ : Type} {next : NextFn σ} {s s' : σ} {toks : List Token}
    (h : Steps next s toks s') : Answers next s (toks.map fun t => ⟨some t, none⟩) s' := by
  induction toks generalizing s with
  | nil => exact h
  | cons t ts ih =>
    obtain ⟨s1, h1, h2⟩ := h
    exact ⟨s1, h1, ih h2⟩

theorem Answers.append {σ : Type} {next : NextFn σ} {s s' s'' : σ} {a b : List Res}
    (h : Answers next s a s') (h' : Answers next s' b s'') : Answers next s (a ++ b) s'' := by
  induction a generalizing s with
  | nil => cases h; exact h'
  | cons r rs ih =>
    obtain ⟨s1, h1, h2⟩ := h
    exact ⟨s1, h1, ih h2⟩

/-- **C12.** After its first nil, a pipeline over a stream that ends normally answers nil without
error to any number `n` of further calls. -/
theorem C12_sticky_end {E : Env} (hE : E.Lawful) (bs : List Builtin) (hb : ∀ b ∈ bs, b.OK E)
    {ts : TokenStream} {toks : List Token} (h : ts.Yields toks .eof) :
    let p := ts.filter (bs.map (Builtin.apply E))
    ∃ out : List Token, ∀ n, ∃ s, Answers p.nextFn p.st
      (out.map (fun t => ⟨some t, none⟩) ++ List.replicate n ⟨none, none⟩) s := by
  intro p
  obtain ⟨out, -, ho⟩ := C10_pipeline hE bs hb toks .eof
  have h1 : Emits p.nextFn (out ++ []) .eof p.st := by rw [List.append_nil]; exact ho ts h
  obtain ⟨s, h2, h3⟩ := Emits.split h1
  refine ⟨out, fun n => ?_⟩
  obtain ⟨s', h4, _⟩ := Quiet.answers h3 n
  exact ⟨s', h2.answers.append h4⟩

/-- **C13.** Driven to its end, a pipeline never panics (every call returns), and reports no error but
that of its input — none, if the input ends normally. -/
theorem C13_no_panic {E : Env} (hE : E.Lawful) (bs : List Builtin) (hb : ∀ b ∈ bs, b.OK E)
    {ts : TokenStream} {toks : List Token} {e : End} (h : ts.Yields toks e)
    (he : ∀ err, e = .fail err → ¬ err.Internal) :
    let p := ts.filter (bs.map (Builtin.apply E))
    ∃ (out : List Token) (last : Res) (s : TS p.σ),
      Answers p.nextFn p.st (out.map (fun t => ⟨some t, none⟩) ++ [last]) s ∧
      last.err = e.err ∧ (e = .eof → last.tok = none) ∧
      ∀ err, last.err = some err → ¬ err.Internal := by
  intro p
  obtain ⟨out, -, ho⟩ := C10_pipeline hE bs hb toks e
  have h1 : Emits p.nextFn (out ++ []) e p.st := by rw [List.append_nil]; exact ho ts h
  obtain ⟨s, h2, h3⟩ := Emits.split h1
  cases e with
  | eof =>
    obtain ⟨s', h4, _⟩ := Quiet.step h3
    exact ⟨out, ⟨none, none⟩, s', h2.answers.append ⟨s', h4, rfl⟩, rfl, fun _ => rfl, by simp⟩
  | fail err =>
    obtain ⟨tok, s', h4⟩ := h3
    refine ⟨out, ⟨tok, some err⟩, s', h2.answers.append ⟨s', h4, rfl⟩, rfl, by simp, ?_⟩
    intro err' h5
    cases h5
    exact he err rfl

/-! ### C26 -/

/-- The full statement of C26 for one filter: every token it delivers is a lemma or one of the tokens
it received; more exactly, the tokens it delivers that are not lemmas are, in order, among those it
received. -/
def C26_full (E : Env) (b : Builtin) : Prop :=
  ∀ toks e out, Makes (b.apply E) toks e out e → (out.filter fun t => !t.lemma).Sublist toks

/-- **C26 is violated by contractions.** The tokens of an expansion are not lemmas, so `Lemmas()` after
`contractions.Expand` does not return them. -/
theorem C26_violated_contractions :
    ∃ E m, E.Lawful ∧ Builtin.OK E (.contractions m) ∧ ¬ C26_full E (.contractions m) ∧
      ∃ toks out, (∀ t ∈ toks, t ∉ out) ∧ out ≠ [] ∧
        Makes (Builtin.apply E (.contractions m)) toks .eof out .eof ∧
        ∀ ts : TokenStream, ts.Yields toks .eof →
          (Builtin.apply E (.contractions m) ts).lemmas.Yields [] .eof := by
  have hm : GoodTable sampleEnv [(str "can't", str "can not")] :=
    ⟨fun _ _ _ => rfl, fun k x h => by
      simp only [List.mem_singleton, Prod.mk.injEq] at h
      rw [h.2]; decide +kernel⟩
  let toks : List Token := [⟨str "can't", false, false, false⟩]
  let out := toks.flatMap (expandToken sampleEnv [(str "can't", str "can not")])
  have hmk : ∀ ts : TokenStream, ts.Yields toks .eof →
      (Builtin.apply sampleEnv (.contractions [(str "can't", str "can not")]) ts).Yields out .eof :=
    fun ts h => expandWith_yields sampleEnv_lawful hm h
  refine ⟨sampleEnv, [(str "can't", str "can not")], sampleEnv_lawful, hm, ?_, toks, out, ?_, ?_,
    hmk, ?_⟩
  · intro h
    have := h toks .eof out hmk
    revert this
    decide +kernel
  · decide +kernel
  · decide +kernel
  · intro ts h
    have := C06_lemmas (hmk ts h)
    rwa [show (out.filter fun t => decide (t.lemma = true)) = [] by decide +kernel] at this

/-- **C26 (partial).** Every filter of the library but contractions. -/
theorem C26_lemmas_partial {E : Env} (hE : E.Lawful) (b : Builtin) (hb : b.OK E)
    (hc : ∀ m, b ≠ .contractions m) : C26_full E b := by
  intro toks e out h
  obtain ⟨out', h1, -, h3⟩ := b.makes hE hb toks e
  rw [((h _ (listStream_yields toks e)).unique (h1 _ (listStream_yields toks e))).1]
  exact h3 hc

/-- C26 (partial) for pipelines without contractions. -/
theorem C26_pipeline_partial {E : Env} (hE : E.Lawful) (bs : List Builtin) (hb : ∀ b ∈ bs, b.OK E)
    (hc : ∀ b ∈ bs, ∀ m, b ≠ .contractions m) {ts : TokenStream} {toks : List Token} {e : End}
    (h : ts.Yields toks e) :
    ∃ out, (ts.filter (bs.map (Builtin.apply E))).Yields out e ∧
      (out.filter fun t => !t.lemma).Sublist toks := by
  induction bs generalizing ts toks with
  | nil => exact ⟨toks, h, List.filter_sublist⟩
  | cons b bs ih =>
    obtain ⟨mid, h1, -, h3⟩ := b.makes hE (hb b (by simp)) toks e
    obtain ⟨out, h4, h5⟩ := ih (fun b h => hb b (by simp [h])) (fun b h => hc b (by simp [h])) (h1 ts h)
    refine ⟨out, h4, ?_⟩
    have h6 := h5.filter (fun t : Token => !t.lemma)
    rw [List.filter_filter] at h6
    simp only [Bool.and_self] at h6
    exact h6.trans (h3 (hc b (by simp)))

/-! ### C52 -/

/-- **C52.** -/
theorem C52_nonempty {E : Env} (hE : E.Lawful) (bs : List Builtin) (hb : ∀ b ∈ bs, b.OK E)
    {ts : TokenStream} {toks : List Token} {e : End} (h : ts.Yields toks e)
    (hne : ∀ t ∈ toks, t.value ≠ []) :
    ∃ out, (ts.filter (bs.map (Builtin.apply E))).Yields out e ∧ ∀ t ∈ out, t.value ≠ [] := by
  induction bs generalizing ts toks with
  | nil => exact ⟨toks, h, hne⟩
  | cons b bs ih =>
    obtain ⟨mid, h1, h2, -⟩ := b.makes hE (hb b (by simp)) toks e
    exact ih (fun b h => hb b (by simp [h])) (h1 ts h) (h2 hne)

/-- C52 from the text on: whatever is read, tokenized and filtered, no token is empty. -/
theorem C52_tokenize_nonempty {E : Env} (hE : E.Lawful) (bs : List Builtin) (hb : ∀ b ∈ bs, b.OK E)
    (r : Reader) :
    ∃ out, ((tokenize E r).filter (bs.map (Builtin.apply E))).Yields out (endOf (E.scan r).2) ∧
      ∀ t ∈ out, t.value ≠ [] := by
  refine C52_nonempty hE bs hb (tokenize_yields E hE r) ?_
  intro t ht
  simp only [segTokens, List.mem_map] at ht
  obtain ⟨seg, hs, rfl⟩ := ht
  exact hE.nonempty r seg hs

/-- A pipeline that meets the hypotheses of the theorems above, on a text on which every filter has an
effect. -/
example :
    let bs : List Builtin := [.asciiFold, .contractions [(str "cannot", str "can not")],
      .sigil ⟨[0x40], legalHandle⟩, .stopwords [str "can"] true, .words, .distinct]
    (∀ b ∈ bs, b.OK sampleEnv) ∧
    ((tokenizeString sampleEnv (str "é é cannot @bob")).filter (bs.map (Builtin.apply sampleEnv))).Yields
      [⟨str "e", false, false, true⟩, ⟨str "not", false, false, false⟩,
       ⟨str "@bob", false, false, true⟩] .eof := by
  have hm : GoodTable sampleEnv [(str "cannot", str "can not")] :=
    ⟨fun _ _ _ => rfl, fun k x h => by
      simp only [List.mem_singleton, Prod.mk.injEq] at h
      rw [h.2]; decide +kernel⟩
  refine ⟨?_, ?_⟩
  · intro b hb
    simp only [List.mem_cons, List.not_mem_nil, or_false] at hb
    rcases hb with rfl | rfl | rfl | rfl | rfl | rfl
    · trivial
    · exact hm
    · show ([0x40] : Bytes) ≠ []; decide
    · trivial
    · trivial
    · trivial
  · have h0 := stringTokens_yields sampleEnv_lawful (s := str "é é cannot @bob") rfl
    have h1 := asciiFold_yields sampleEnv.U h0
    have h2 := expandWith_yields sampleEnv_lawful hm h1
    have h3 := sigil_yields (U := sampleEnv.U) (f := ⟨[0x40], legalHandle⟩) (by decide) h2
    rw [sigilActual_end] at h3
    have h4 := stop_yields (U := sampleEnv.U) (words := [str "can"]) (ic := true) h3
    have h5 := distinct_yields (where_yields (fun t => !t.isPunct && !t.isSpace) h4)
    refine (congrArg (fun l => TokenStream.Yields _ l End.eof) ?_).mp h5
    decide +kernel

end Jargon
