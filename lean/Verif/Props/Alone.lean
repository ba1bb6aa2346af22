import Verif.Props.ExpandFirst
import Verif.Props.Pipeline

/-! C130: filters that look at one token at a time. -/

namespace Jargon

/-! ### The specification -/

/-- The filters of the library that look at one token at a time: all but sigil filters, synonyms and Distinct. -/
def Builtin.LooksAtOne : Builtin → Prop
  | .sigil _ => False
  | .synonyms _ _ _ => False
  | .distinct => False
  | _ => True

/-- Of a text, the filters make what they make of its tokens, each of them by itself, one after the other. -/
def TreatsAlone (fs : List Filter) : Prop :=
  ∃ out : Token → List Token,
    (∀ t, ((listStream [t] .eof).filter fs).Yields (out t) .eof) ∧
    ∀ (ts : TokenStream) (toks : List Token) (e : End), ts.Yields toks e → (ts.filter fs).Yields (toks.flatMap out) e

/-- Two pipelines make the same of the tokens `toks`. -/
def SameOf (fs gs : List Filter) (toks : List Token) : Prop :=
  ∀ (ts : TokenStream) (e : End), ts.Yields toks e → ∃ out, (ts.filter fs).Yields out e ∧ (ts.filter gs).Yields out e

/-! ### Lemmas -/

theorem EachExpands.of_filter {G : Filter} {p : Token → Bool}
    (h : ∀ (ts : TokenStream) (toks : List Token) (e : End), ts.Yields toks e → (G ts).Yields (toks.filter p) e) :
    EachExpands G (fun t => if p t then [t] else []) := by
  intro ts toks e ht
  have : (toks.flatMap fun t => if p t then [t] else []) = toks.filter p := by
    induction toks generalizing ts with
    | nil => rfl
    | cons t ts' ih =>
      rw [List.flatMap_cons, List.filter_cons, ih (listStream ts' e) (listStream_yields ts' e)]
      split <;> simp
  rw [this]
  exact h ts toks e ht

theorem EachExpands.of_map {G : Filter} {g : Token → Token} (h : EachToken G g) : EachExpands G (fun t => [g t]) := by
  intro ts toks e ht
  rw [show (toks.flatMap fun t => [g t]) = toks.map g from List.flatMap_pure_eq_map ..]
  exact h ts toks e ht

theorem Builtin.LooksAtOne.expands {E : Env} (hE : E.Lawful) {b : Builtin} (ho : b.LooksAtOne) (hb : b.OK E) :
    ∃ g, EachExpands (b.apply E) g := by
  cases b with
  | stemmer stem => exact ⟨_, .of_map ((C123_filters E.U).2.2 stem hb)⟩
  | norm form => exact ⟨_, .of_map ((C123_filters E.U).2.1 form hb)⟩
  | asciiFold => exact ⟨_, .of_map (C123_filters E.U).1⟩
  | stopwords ws ic => exact ⟨_, .of_filter fun _ _ _ h => stop_yields h⟩
  | contractions m => exact ⟨_, fun _ _ _ h => expandWith_yields hE hb h⟩
  | sigil f => exact ho.elim
  | synonyms m ic ign => exact ho.elim
  | where_ p => exact ⟨_, .of_filter fun _ _ _ h => where_yields p h⟩
  | words => exact ⟨_, .of_filter fun _ _ _ h => C06_words h⟩
  | lemmas => exact ⟨_, .of_filter fun _ _ _ h => C06_lemmas h⟩
  | distinct => exact ho.elim

theorem chain_expands {E : Env} (hE : E.Lawful) : ∀ (bs : List Builtin), (∀ b ∈ bs, b.LooksAtOne ∧ b.OK E) →
    ∃ g, EachExpands (fun ts => ts.filter (bs.map (Builtin.apply E))) g
  | [], _ => ⟨fun t => [t], fun ts toks e h => by
      rw [flatMap_self fun _ _ => rfl]
      exact h⟩
  | b :: bs, hb => by
    obtain ⟨g, hg⟩ := (hb b (by simp)).1.expands hE (hb b (by simp)).2
    obtain ⟨k, hk⟩ := chain_expands hE bs fun b h => hb b (by simp [h])
    refine ⟨fun t => (g t).flatMap k, fun ts toks e h => ?_⟩
    have := hk _ _ _ (hg _ _ _ h)
    rw [List.flatMap_assoc] at this
    exact this

/-! ### C130 -/

/-- **C130.** Any pipeline of filters that look at one token at a time makes of a text what it makes of its tokens, each
by itself. -/
theorem C130_alone {E : Env} (hE : E.Lawful) {bs : List Builtin} (hb : ∀ b ∈ bs, b.LooksAtOne ∧ b.OK E) :
    TreatsAlone (bs.map (Builtin.apply E)) := by
  obtain ⟨g, hg⟩ := chain_expands hE bs hb
  refine ⟨g, fun t => ?_, fun ts toks e h => hg ts toks e h⟩
  have := hg _ _ _ (listStream_yields [t] .eof)
  simpa using this

/-- **C130 (order).** Whether two such pipelines make the same of every text, for example whether two filters may be
swapped, can be seen from texts of one token. -/
theorem C130_order {E : Env} (hE : E.Lawful) {bs cs : List Builtin} (hb : ∀ b ∈ bs, b.LooksAtOne ∧ b.OK E)
    (hc : ∀ b ∈ cs, b.LooksAtOne ∧ b.OK E) (toks : List Token) :
    (∀ t ∈ toks, SameOf (bs.map (Builtin.apply E)) (cs.map (Builtin.apply E)) [t]) →
      SameOf (bs.map (Builtin.apply E)) (cs.map (Builtin.apply E)) toks := by
  obtain ⟨g, g1, g2⟩ := C130_alone hE hb
  obtain ⟨k, k1, k2⟩ := C130_alone hE hc
  intro h ts e ht
  have hgk : toks.flatMap g = toks.flatMap k := by
    refine List.flatMap_congr fun t hm => ?_
    obtain ⟨out, o1, o2⟩ := h t hm _ _ (listStream_yields [t] .eof)
    exact (o1.unique (g1 t)).1.symm.trans (o2.unique (k1 t)).1
  exact ⟨_, g2 _ _ _ ht, by rw [hgk]; exact k2 _ _ _ ht⟩

private def w (s : String) : Token := mkToken sampleEnv.U (str s) false
private def m (s : String) : Token := mkToken sampleEnv.U (str s) true

/-- **C130 (the others).** Handles, a synonyms filter and Distinct look at more than one token. -/
theorem C130_others : ¬ TreatsAlone [handles sampleEnv.U] ∧ ¬ TreatsAlone [TokenStream.distinct] ∧
    ¬ TreatsAlone [synonyms sampleEnv [(str "java script", str "js")] true [0x20]] := by
  have key : ∀ (F : Filter) (a b : Token) (oa ob oab : List Token),
      (F (listStream [a] .eof)).Yields oa .eof → (F (listStream [b] .eof)).Yields ob .eof →
      (F (listStream [a, b] .eof)).Yields oab .eof → oab ≠ oa ++ ob → ¬ TreatsAlone [F] := by
    rintro F a b oa ob oab h1 h2 h3 hne ⟨out, o1, o2⟩
    have e1 := ((o1 a).unique h1).1
    have e2 := ((o1 b).unique h2).1
    have e3 := ((o2 _ _ _ (listStream_yields [a, b] .eof)).unique h3).1
    apply hne
    rw [← e3, ← e1, ← e2]
    simp
  refine ⟨?_, ?_, ?_⟩
  · have y : ∀ toks, (handles sampleEnv.U (listStream toks .eof)).Yields
        (sigilActual sampleEnv.U { sigil := [0x40], legal := legalHandle } none toks .eof).1 .eof := by
      intro toks
      have := sigil_yields (U := sampleEnv.U) (f := { sigil := [0x40], legal := legalHandle }) (by simp)
        (listStream_yields toks .eof)
      rw [sigilActual_end] at this
      exact this
    exact key _ (w "@") (w "bob") _ _ _ (y _) (y _) (y _) (by decide +kernel)
  · exact key _ (w "a") (w "a") _ _ _ (distinct_yields (listStream_yields _ _)) (distinct_yields (listStream_yields _ _))
      (distinct_yields (listStream_yields _ _)) (by decide +kernel)
  · rintro ⟨out, o1, o2⟩
    let F : SynArgs := ⟨[(str "java script", str "js")], true, [0x20]⟩
    have hF : F.Scans sampleEnv := fun _ _ => rfl
    have y : ∀ {toks outs}, F.Greedy sampleEnv toks outs →
        (synonyms sampleEnv [(str "java script", str "js")] true [0x20] (listStream toks .eof)).Yields outs .eof :=
      fun hg => hg.yields sampleEnv_lawful hF (listStream_yields _ _)
    have e1 : entries sampleEnv F.mappings = [([w "java", w " ", w "script"], str "js")] := by decide +kernel
    have one : ∀ t, (Compare.mk sampleEnv.U true [0x20]).dict [([w "java", w " ", w "script"], str "js")]
        ((Compare.mk sampleEnv.U true [0x20]).spell [t]) = none → F.Greedy sampleEnv [t] [t] := by
      intro t ht
      refine greedy_free _ fun run hr hne => ?_
      rw [e1]
      obtain ⟨a, b, hab⟩ := hr
      have : run = [t] := by
        have hl := congrArg List.length hab
        have : 0 < run.length := List.length_pos_iff.2 hne
        simp at hl
        have ha : a = [] := List.length_eq_zero_iff.1 (by omega)
        have hb : b = [] := List.length_eq_zero_iff.1 (by omega)
        subst ha hb
        simpa using hab
      rw [this]
      exact ht
    have all : F.Greedy sampleEnv [w "java", w " ", w "script"] [m "js"] := by
      have := greedy_whole (m := wordLimit (entries sampleEnv F.mappings)) (C := ⟨sampleEnv.U, true, [0x20]⟩)
        (D := (Compare.mk sampleEnv.U true [0x20]).dict (entries sampleEnv F.mappings)) (first := w "java")
        (mid := [w " ", w "script"]) (last := w "script") (l := [w "java", w " "]) (canonical := str "js") rfl (by decide +kernel)
        (by decide +kernel) (by decide +kernel) (by decide +kernel) (by rw [e1]; decide +kernel)
        (by rw [e1]; decide +kernel)
      rw [show canonTokens sampleEnv.U (str "js") = [m "js"] by decide +kernel] at this
      exact this
    have a1 := ((o1 (w "java")).unique (y (one _ (by decide +kernel)))).1
    have a2 := ((o1 (w " ")).unique (y (one _ (by decide +kernel)))).1
    have a3 := ((o1 (w "script")).unique (y (one _ (by decide +kernel)))).1
    have a4 := ((o2 _ _ _ (listStream_yields [w "java", w " ", w "script"] .eof)).unique (y all)).1
    simp only [List.flatMap_cons, List.flatMap_nil, a1, a2, a3] at a4
    revert a4
    decide +kernel

-- folding, contractions and stop words look at one token at a time
example : ∀ b ∈ [Builtin.asciiFold, .stopwords [str "the"] true, .contractions contractionMappings, .words],
    b.LooksAtOne ∧ b.OK sampleEnv := by
  simp only [List.mem_cons, List.not_mem_nil, or_false, forall_eq_or_imp, forall_eq]
  exact ⟨⟨trivial, trivial⟩, ⟨trivial, trivial⟩, ⟨trivial, fun _ _ _ => rfl, fun k x hx => (C24_well_formed k x hx).1⟩,
    trivial, trivial⟩

end Jargon
