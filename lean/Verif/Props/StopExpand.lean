import Verif.Props.Alone
import Verif.Props.StopFirst

/-! C133: whether tokens are selected before or after contractions are expanded. -/

namespace Jargon

/-! ### The specification -/

/-- A token is a contraction: the table lists it, or its lower case. -/
def IsContraction (U : Unicode) (table : StringMap) (t : Token) : Prop :=
  ∃ k ∈ table, k.1 = t.value ∨ k.1 = U.lowerString t.value

/-- **C133 (full).** Stop words may be removed before or after contractions are expanded, if no contraction is a stop
word. -/
def C133_full (E : Env) (stop : List Bytes) (ignoreCase : Bool) : Prop :=
  (∀ t, IsContraction E.U contractionMappings t → stopped E.U stop ignoreCase t = false) →
  ∀ (ts : TokenStream) (toks : List Token) (e : End), ts.Yields toks e →
    ∃ out, (stopwords E.U stop ignoreCase (expand E ts)).Yields out e ∧
      (expand E (stopwords E.U stop ignoreCase ts)).Yields out e

/-! ### C133 -/

theorem select_expand {keep : Token → Bool} {g : Token → List Token} {toks : List Token}
    (h : ∀ t ∈ toks, (g t).filter keep = if keep t then g t else []) :
    (toks.flatMap g).filter keep = (toks.filter keep).flatMap g := by
  induction toks with
  | nil => rfl
  | cons t ts ih =>
    rw [List.flatMap_cons, List.filter_append, ih fun t ht => h t (.tail _ ht), h t (by simp), List.filter_cons]
    split <;> simp

/-- What a token expands to is kept if the token is, and removed if it is not. -/
def KeptAlike (keep : Token → Bool) (g : Token → List Token) (t : Token) : Prop :=
  ∀ u ∈ g t, keep u = keep t

instance (keep : Token → Bool) (g : Token → List Token) (t : Token) : Decidable (KeptAlike keep g t) := by
  unfold KeptAlike
  infer_instance

theorem KeptAlike.filter {keep : Token → Bool} {g : Token → List Token} {t : Token} (h : KeptAlike keep g t) :
    (g t).filter keep = if keep t then g t else [] := by
  split
  · rename_i hk
    exact List.filter_eq_self.2 fun u hu => (h u hu).trans hk
  · rename_i hk
    exact List.filter_eq_nil_iff.2 fun u hu => by rw [h u hu]; exact hk

/-- **C133 (exact).** Tokens may be selected before or after they are expanded, each by itself, exactly if every token
of the text is kept and all it expands to is, or neither it nor any of that. -/
theorem C133_exact {G : Filter} {g : Token → List Token} (hG : EachExpands G g)
    (keep : Token → Bool) (toks : List Token) :
    (∀ t ∈ toks, KeptAlike keep g t) ↔
    ∀ (as : List Token) (ts : TokenStream) (e : End), as <:+: toks → ts.Yields as e →
      ∃ out, ((G ts).where keep).Yields out e ∧ (G (ts.where keep)).Yields out e := by
  constructor
  · intro h as ts e hi hy
    have h1 := where_yields keep (hG _ _ _ hy)
    have h2 := hG _ _ _ (where_yields keep hy)
    rw [← select_expand fun t ht => (h t (hi.subset ht)).filter] at h2
    exact ⟨_, h1, h2⟩
  · intro h t ht u hu
    have hi : [t] <:+: toks := by
      obtain ⟨a, b, rfl⟩ := List.append_of_mem ht
      exact ⟨a, b, by simp⟩
    obtain ⟨out, o1, o2⟩ := h [t] _ .eof hi (listStream_yields [t] .eof)
    have e1 := (o1.unique (where_yields keep (hG _ _ _ (listStream_yields [t] .eof)))).1
    have e2 := (o2.unique (hG _ _ _ (where_yields keep (listStream_yields [t] .eof)))).1
    rw [e1] at e2
    simp only [List.flatMap_cons, List.flatMap_nil, List.append_nil, List.filter_cons, List.filter_nil] at e2
    cases hk : keep t with
    | true =>
      rw [if_pos hk] at e2
      simp only [List.flatMap_cons, List.flatMap_nil, List.append_nil] at e2
      exact List.filter_eq_self.1 e2 u hu
    | false =>
      rw [if_neg (by simp [hk])] at e2
      exact Bool.eq_false_iff.2 (List.filter_eq_nil_iff.1 e2 u hu)

/-- **C133 (partial).** Stop words may be removed before or after contractions are expanded if no contraction in the text
expands to one. Missing: texts with such contractions, of which it is false (`C133_violated`). -/
theorem C133_stop_partial {E : Env} (hE : E.Lawful) (hm : GoodTable E contractionMappings) {stop : List Bytes} {ic : Bool}
    {toks : List Token}
    (h : ∀ t ∈ toks, KeptAlike (fun t => !stopped E.U stop ic t) (expandToken E contractionMappings) t)
    {ts : TokenStream} {e : End} (hy : ts.Yields toks e) :
    ∃ out, (stopwords E.U stop ic (expand E ts)).Yields out e ∧ (expand E (stopwords E.U stop ic ts)).Yields out e := by
  simp only [stopped_eq] at h
  have h1 := stop_yields (U := E.U) (words := stop) (ic := ic) (expandWith_yields hE hm hy)
  have h2 := expandWith_yields hE hm (stop_yields (U := E.U) (words := stop) (ic := ic) hy)
  rw [← select_expand fun t ht => (h t ht).filter] at h2
  exact ⟨_, h1, h2⟩

private def w (s : String) : Token := mkToken sampleEnv.U (str s) false

/-- **C133 (violated).** With the stop word "not", what is left of "can't" depends on the order. If the words are selected
first, a space comes out between those of "can't". -/
theorem C133_violated : ¬ C133_full sampleEnv [str "not"] false ∧
    (stopwords sampleEnv.U [str "not"] false (expand sampleEnv (listStream [w "can't"] .eof))).Yields
      [w "can", w " "] .eof ∧
    (expand sampleEnv (stopwords sampleEnv.U [str "not"] false (listStream [w "can't"] .eof))).Yields
      [w "can", w " ", w "not"] .eof ∧
    (expand sampleEnv (listStream [w "can't"] .eof)).words.Yields [w "can", w "not"] .eof ∧
    (expand sampleEnv (listStream [w "can't"] .eof).words).Yields [w "can", w " ", w "not"] .eof := by
  have of : ∀ {ts : TokenStream} {a b : List Token}, ts.Yields a .eof → a = b → ts.Yields b .eof := fun h e => e ▸ h
  have hg : GoodTable sampleEnv contractionMappings := ⟨fun _ _ _ => rfl, fun k x hx => (C24_well_formed k x hx).1⟩
  have l := listStream_yields [w "can't"] .eof
  have a1 := of (stop_yields (U := sampleEnv.U) (words := [str "not"]) (ic := false)
    (expandWith_yields sampleEnv_lawful hg l)) (b := [w "can", w " "]) (by decide +kernel)
  have a2 := of (expandWith_yields sampleEnv_lawful hg (stop_yields (U := sampleEnv.U) (words := [str "not"]) (ic := false) l))
    (b := [w "can", w " ", w "not"]) (by decide +kernel)
  refine ⟨fun h => ?_, a1, a2, of (C06_words (expandWith_yields sampleEnv_lawful hg l)) (by decide +kernel),
    of (expandWith_yields sampleEnv_lawful hg (C06_words l)) (by decide +kernel)⟩
  have hs : ∀ t, IsContraction sampleEnv.U contractionMappings t →
      stopped sampleEnv.U [str "not"] false t = false := by
    rintro t ⟨k, hk, hkt⟩
    have key : ∀ k ∈ contractionMappings, k.1 ≠ str "not" := by decide +kernel
    simp only [stopped, Bool.false_eq_true, if_false, List.contains_eq_mem, List.mem_singleton, decide_eq_false_iff_not]
    intro hv
    rcases hkt with h | h
    · exact key k hk (h.trans hv)
    · rw [hv, show sampleEnv.U.lowerString (str "not") = str "not" by decide +kernel] at h
      exact key k hk h
  obtain ⟨out, h1, h2⟩ := h hs _ _ _ l
  have := (h1.unique a1).1.symm.trans (h2.unique a2).1
  revert this
  decide +kernel

-- what the partial version asks for can be had: "the" may be removed from "the dog can't" before or after
example : ∀ t ∈ [w "the", w " ", w "dog", w " ", w "can't"],
    KeptAlike (fun t => !stopped sampleEnv.U [str "the"] true t) (expandToken sampleEnv contractionMappings) t := by
  decide +kernel

-- and so can what the exact version does: contractions are expanded each by itself
example : EachExpands (expand sampleEnv) (expandToken sampleEnv contractionMappings) := fun _ _ _ h =>
  expandWith_yields sampleEnv_lawful ⟨fun _ _ _ => rfl, fun k x hx => (C24_well_formed k x hx).1⟩ h

end Jargon
