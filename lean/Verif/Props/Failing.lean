import Verif.Props.Pipeline

/-! C73: what filters deliver of the tokens before an error. -/

namespace Jargon

/-- If the input fails, the filter delivers what it would have delivered had it ended there, and then the
error. -/
def KeepsBefore (F : Filter) : Prop :=
  ∀ toks err out, Makes F toks .eof out .eof → Makes F toks (.fail err) out (.fail err)

/-- The full statement of C73. -/
def C73_full : Prop := ∀ (E : Env), E.Lawful → ∀ b : Builtin, b.OK E → KeepsBefore (b.apply E)

theorem keepsBefore_of {F : Filter} {g : List Token → List Token}
    (h : ∀ toks e, Makes F toks e (g toks) e) : KeepsBefore F := by
  intro toks err out ho
  have h0 := listStream_yields toks .eof
  rw [((ho _ h0).unique (h toks .eof _ h0)).1]
  exact h toks _

/-- **C73 is false for synonyms.** If the input fails, all the tokens before are lost. -/
theorem C73_violated_synonyms : ¬ KeepsBefore (Builtin.apply sampleEnv (.synonyms [] true [])) := by
  intro h
  let t : Token := ⟨str "a", false, false, false⟩
  have hg : Greedy ⟨sampleEnv.U, true, []⟩
      ((Compare.mk sampleEnv.U true []).dict (entries sampleEnv [])) (wordLimit (entries sampleEnv [])) [t] [t] :=
    .word (by decide +kernel) (fun k hk => by simp [Compare.dict, entries]) .nil
  have h1 : Makes (Builtin.apply sampleEnv (.synonyms [] true [])) [t] .eof [t] .eof := fun ts hy =>
    synonyms_yields sampleEnv_lawful (by simp) hy hg
  have h2 := h _ (.ext 1) _ h1 _ (listStream_yields [t] (.fail (.ext 1)))
  have h3 := C31_synonyms_error sampleEnv_lawful [] true [] (by simp) (listStream_yields [t] (.fail (.ext 1)))
  have := (h2.unique h3).1
  cases this

/-- **C73 is false for sigil filters.** An "@" just before the error is lost. -/
theorem C73_violated_sigil :
    ¬ KeepsBefore (Builtin.apply sampleEnv (.sigil { sigil := [0x40], legal := legalHandle })) := by
  intro h
  let t : Token := ⟨str "@", true, false, false⟩
  have h1 : Makes (Builtin.apply sampleEnv (.sigil { sigil := [0x40], legal := legalHandle })) [t] .eof [t]
      .eof := fun ts hy => by
    have := sigil_yields (U := sampleEnv.U) (f := { sigil := [0x40], legal := legalHandle }) (by simp) hy
    rwa [show sigilActual sampleEnv.U { sigil := [0x40], legal := legalHandle } none [t] .eof = ([t], .eof) by
      decide +kernel] at this
  have h2 := h _ (.ext 1) _ h1 _ (listStream_yields [t] (.fail (.ext 1)))
  have h3 := sigil_yields (U := sampleEnv.U) (f := { sigil := [0x40], legal := legalHandle }) (by simp)
    (listStream_yields [t] (.fail (.ext 1)))
  rw [show sigilActual sampleEnv.U { sigil := [0x40], legal := legalHandle } none [t] (.fail (.ext 1)) =
    ([], .fail (.ext 1)) by decide +kernel] at h3
  have := (h2.unique h3).1
  cases this

theorem C73_full_false : ¬ C73_full := fun h =>
  C73_violated_sigil (h sampleEnv sampleEnv_lawful _ (by simp [Builtin.OK]))

/-- The filters that hold nothing back. -/
def Builtin.Prompt : Builtin → Prop
  | .sigil _ => False
  | .synonyms _ _ _ => False
  | _ => True

theorem Builtin.keepsBefore {E : Env} (hE : E.Lawful) (b : Builtin) (hb : b.OK E) (hp : b.Prompt) :
    KeepsBefore (b.apply E) := by
  cases b with
  | stemmer stem => exact keepsBefore_of fun toks e ts h => stemmer_yields (fun t _ => hb _) h
  | norm N => exact keepsBefore_of fun toks e ts h => norm_yields hb h
  | asciiFold => exact keepsBefore_of fun toks e ts h => asciiFold_yields E.U h
  | stopwords ws ic => exact keepsBefore_of fun toks e ts h => stop_yields h
  | contractions m => exact keepsBefore_of fun toks e ts h => expandWith_yields hE hb h
  | sigil f => exact hp.elim
  | synonyms m ic ign => exact hp.elim
  | where_ p => exact keepsBefore_of fun toks e ts h => where_yields p h
  | words => exact keepsBefore_of fun toks e ts h => where_yields _ h
  | lemmas => exact keepsBefore_of fun toks e ts h => where_yields _ h
  | distinct => exact keepsBefore_of fun toks e ts h => distinct_yields h

/-- **C73 (partial).** Every pipeline of filters other than sigil and synonyms filters: if the input fails
after some tokens, it delivers just what it would have delivered had the input ended there, and then the
error. Missing: the sigil filters (but see `C73_sigil_partial`) and the synonyms filters. -/
theorem C73_pipeline_partial {E : Env} (hE : E.Lawful) (bs : List Builtin) (hb : ∀ b ∈ bs, b.OK E ∧ b.Prompt) :
    KeepsBefore fun ts => ts.filter (bs.map (Builtin.apply E)) := by
  induction bs with
  | nil => exact keepsBefore_of (g := id) fun toks e ts h => h
  | cons b bs ih =>
    intro toks err out ho ts hy
    have hb0 := hb b (by simp)
    obtain ⟨mid, hm, -⟩ := b.makes hE hb0.1 toks .eof
    have ih := ih fun b h => hb b (by simp [h])
    have hm' := b.keepsBefore hE hb0.1 hb0.2 toks err mid hm
    refine ih mid err out ?_ _ (hm' ts hy)
    intro ts' hy'
    obtain ⟨out', ho', -⟩ := C10_pipeline hE bs (fun b h => (hb b (by simp [h])).1) mid .eof
    have h1 := C10_chain (Chain.cons hm ho') (listStream_yields toks .eof)
    have h2 := ho _ (listStream_yields toks .eof)
    simp only [List.map_cons] at h2
    rw [(h2.unique h1).1]
    exact C10_chain ho' hy'

/-- **C73 (sigil, partial).** A sigil filter does so too if the last token before the error is not the
sigil. -/
theorem C73_sigil_partial (U : Unicode) (f : SigilFilter) (hf : f.sigil ≠ []) {toks out : List Token}
    {err : Err} (hl : ∀ t, toks.getLast? = some t → t.value ≠ f.sigil)
    (h : Makes (sigil U f) toks .eof out .eof) : Makes (sigil U f) toks (.fail err) out (.fail err) := by
  have key : ∀ (p : Option Token) (toks : List Token) (e : End),
      (∀ t, toks.getLast? = some t → t.value ≠ f.sigil) →
      (sigilActual U f p toks e).1 = (sigilActual U f p toks .eof).1 := by
    intro p toks e hl
    fun_induction sigilActual U f p toks e with
    | case1 p e => simp [sigilActual]
    | case2 p c h => simp [sigilActual]
    | case3 p c h err =>
      simp only [Bool.and_eq_true, decide_eq_true_eq] at h
      exact absurd h.2 (hl c rfl)
    | case4 p c e h =>
      have h' : (boundary p && decide (c.value = f.sigil)) = false := by simpa using h
      simp [sigilActual, h']
    | case5 p c l rest e h hl' ih =>
      rw [sigilActual, h, hl']
      simp only [↓reduceIte, emit]
      rw [ih]
      intro t ht
      cases rest with
      | nil => simp at ht
      | cons a as => exact hl t (by simpa using ht)
    | case6 p c l rest e h hl' ih =>
      rw [sigilActual, h, Bool.eq_false_iff.mpr hl']
      simp only [↓reduceIte, emit, Bool.false_eq_true]
      rw [ih]
      intro t ht
      cases rest with
      | nil => simp at ht
      | cons a as => exact hl t (by simpa using ht)
    | case7 p c l rest e h ih =>
      have h' : (boundary p && decide (c.value = f.sigil)) = false := by simpa using h
      rw [sigilActual, h']
      simp only [↓reduceIte, emit, Bool.false_eq_true]
      rw [ih]
      intro t ht
      exact hl t (by simpa using ht)
  intro ts hy
  have h1 := sigil_yields (U := U) hf hy
  rw [sigilActual_end, key none toks _ hl] at h1
  have h2 := sigil_yields (U := U) hf (listStream_yields toks .eof)
  rw [sigilActual_end] at h2
  rw [((h _ (listStream_yields toks .eof)).unique h2).1]
  exact h1

example : ∃ bs : List Builtin, bs.length = 3 ∧ ∀ b ∈ bs, b.OK sampleEnv ∧ b.Prompt :=
  ⟨[.asciiFold, .stopwords [str "the"] true, .distinct], rfl, by simp [Builtin.OK, Builtin.Prompt]⟩

end Jargon
