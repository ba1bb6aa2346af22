import Verif.Props.Order
import Verif.Props.Contractions
import Verif.Props.Pipeline
import Verif.Props.Sigil
import Verif.Props.Players

/-! C126: whether repeated tokens may be left out before a filter, if they are left out after it. -/

namespace Jargon

/-! ### The specification -/

/-- A filter that works on each token by itself, and makes tokens of the same texts of tokens of the same text. -/
def EachText (U : Unicode) (G : Filter) : Prop :=
  ∃ h : Token → List Token, (∀ (ts : TokenStream) (toks : List Token) (e : End), (∀ t ∈ toks, t.Made U) →
      ts.Yields toks e → (G ts).Yields (toks.flatMap h) e) ∧
    ∀ t u : Token, t.Made U → u.Made U → t.value = u.value → (h t).map Token.value = (h u).map Token.value

/-- **C126 (full).** If repeated tokens are left out of what a filter delivers, they may as well be left out of what it
gets. -/
def C126_full (E : Env) : Prop :=
  ∀ F : Builtin, F.OK E → ∀ (ts : TokenStream) (toks : List Token) (e : End), (∀ t ∈ toks, t.Made E.U) → ts.Yields toks e →
    ∀ out e', ((F.apply E ts).distinct).Yields out e' → ((F.apply E ts.distinct).distinct).Yields out e'

/-! ### Lemmas -/

theorem firsts_value {q : Bytes → Bool} (toks : List Token) :
    (firsts toks).filter (fun t => q t.value) = firsts (toks.filter fun t => q t.value) :=
  (firsts_filter fun _ _ _ _ h => by rw [h]).symm

theorem firsts_append (a b : List Token) :
    firsts (a ++ b) = firsts a ++ (firsts b).filter (fun t => !(a.map Token.value).contains t.value) := by
  induction a with
  | nil => simp [firsts]
  | cons t ts ih =>
    simp only [List.cons_append, firsts, ih, List.filter_append, List.filter_filter]
    congr 2
    refine List.filter_congr fun u _ => ?_
    by_cases h : u.value = t.value <;> simp [h]

theorem firsts_flatMap {h : Token → List Token} : ∀ {toks : List Token},
    (∀ t ∈ toks, ∀ u ∈ toks, t.value = u.value → (h t).map Token.value = (h u).map Token.value) →
    firsts ((firsts toks).flatMap h) = firsts (toks.flatMap h)
  | [], _ => rfl
  | t :: ts, hh => by
    have ih := firsts_flatMap (toks := ts) fun a ha b hb => hh a (by simp [ha]) b (by simp [hb])
    simp only [firsts, List.flatMap_cons, firsts_append, ← ih]
    congr 1
    rw [firsts_value (q := fun v => !((h t).map Token.value).contains v),
      firsts_value (q := fun v => !((h t).map Token.value).contains v)]
    congr 1
    have hsub := (firsts_sublist ts).subset
    revert hsub
    generalize firsts ts = l
    intro hsub
    induction l with
    | nil => rfl
    | cons u us ihu =>
      have ihu := ihu fun x hx => hsub (by simp [hx])
      by_cases hv : u.value = t.value
      · rw [List.filter_cons_of_neg (by simp [hv]), List.flatMap_cons, List.filter_append, ihu]
        conv => lhs; rw [← List.nil_append (List.filter _ _)]
        congr 1
        refine (List.filter_eq_nil_iff.2 fun x hx => ?_).symm
        have := hh u (by simp [hsub (show u ∈ u :: us by simp)]) t (by simp) hv
        simp only [Bool.not_eq_true', Bool.not_eq_false, List.contains_iff_mem]
        rw [← this]
        simpa using ⟨x, hx, rfl⟩
      · rw [List.filter_cons_of_pos (by simp [hv]), List.flatMap_cons, List.flatMap_cons, List.filter_append,
          List.filter_append, ihu]

theorem flatMap_one (g : Token → Token) (toks : List Token) : toks.flatMap (fun t => [g t]) = toks.map g := by
  induction toks with
  | nil => rfl
  | cons t ts ih => rw [List.flatMap_cons, ih]; rfl

theorem flatMap_some (p : Token → Bool) (toks : List Token) :
    toks.flatMap (fun t => if p t then [t] else []) = toks.filter p := by
  induction toks with
  | nil => rfl
  | cons t ts ih =>
    rw [List.flatMap_cons, List.filter_cons, ih]
    split <;> rfl

/-! ### C126 -/

/-- **C126 (partial).** Repeated tokens may be left out before a filter that works on each token by itself, and goes by
their texts. Missing: filters that look at several tokens or at whether a token is a lemma (`C126_violated`,
`C126_violated_lemmas`). -/
theorem C126_partial {U : Unicode} {G : Filter} (hG : EachText U G) {ts : TokenStream} {toks : List Token} {e : End}
    (hm : ∀ t ∈ toks, t.Made U) (h : ts.Yields toks e) :
    ∃ out, ((G ts).distinct).Yields out e ∧ ((G ts.distinct).distinct).Yields out e := by
  obtain ⟨g, hy, hv⟩ := hG
  have h1 := distinct_yields (hy _ _ _ hm h)
  have h2 := distinct_yields (hy _ _ _ (fun t ht => hm t ((firsts_sublist toks).subset ht)) (distinct_yields h))
  rw [firsts_flatMap fun t ht u hu => hv t u (hm t ht) (hm u hu)] at h2
  exact ⟨_, h1, h2⟩

/-- The filters of the library that go by the text of each token: all but the sigil filters, the synonyms filters,
Lemmas, Distinct itself and what is selected by something else. -/
theorem C126_filters {E : Env} (hE : E.Lawful) :
    EachText E.U (asciiFold E.U) ∧ EachText E.U TokenStream.words ∧
    (∀ N : NormForm, N.Lawful → EachText E.U (normFilter E.U N)) ∧
    (∀ stem : Bytes → Bytes, (∀ s, stem s = [] → s = []) → EachText E.U (stemmer E.U stem)) ∧
    (∀ stop ic, EachText E.U (stopwords E.U stop ic)) ∧
    (∀ m, GoodTable E m → EachText E.U (expandWith E m)) ∧
    (∀ p : Bytes → Bool, EachText E.U fun ts => ts.where fun t => p t.value) := by
  have one : ∀ (G : Filter) (g : Token → Token),
      (∀ (ts : TokenStream) (toks : List Token) (e : End), ts.Yields toks e → (G ts).Yields (toks.map g) e) →
      (∀ t u : Token, t.Made E.U → u.Made E.U → t.value = u.value → (g t).value = (g u).value) → EachText E.U G := by
    intro G g h1 h2
    refine ⟨fun t => [g t], fun ts toks e _ h => ?_, fun t u ht hu hv => by simp [h2 t u ht hu hv]⟩
    rw [flatMap_one]
    exact h1 _ _ _ h
  have some_ : ∀ (G : Filter) (p : Token → Bool),
      (∀ (ts : TokenStream) (toks : List Token) (e : End), ts.Yields toks e → (G ts).Yields (toks.filter p) e) →
      (∀ t u : Token, t.Made E.U → u.Made E.U → t.value = u.value → p t = p u) → EachText E.U G := by
    intro G p h1 h2
    refine ⟨fun t => if p t then [t] else [], fun ts toks e _ h => ?_, fun t u ht hu hv => ?_⟩
    · rw [flatMap_some]
      exact h1 _ _ _ h
    · simp only [h2 t u ht hu hv]
      split <;> simp [hv]
  refine ⟨one _ _ (fun _ _ _ h => asciiFold_yields E.U h) fun t u _ _ hv => ?_,
    some_ _ _ (fun _ _ _ h => where_yields _ h) fun t u ht hu hv => ?_,
    fun N hN => one _ _ (fun _ _ _ h => norm_yields hN h) fun t u _ _ hv => ?_,
    fun stem hs => one _ _ (fun _ _ _ h => stemmer_yields (fun _ _ => hs _) h) fun t u ht hu hv => ?_,
    fun stop ic => some_ _ _ (fun _ _ _ h => stop_yields h) fun t u _ _ hv => ?_,
    fun m hm => ⟨expandToken E m, fun _ _ _ _ h => expandWith_yields hE hm h, fun t u _ _ hv => ?_⟩,
    fun p => some_ _ _ (fun _ _ _ h => where_yields _ h) fun t u _ _ hv => by rw [hv]⟩
  · unfold foldToken
    rw [hv]
    split <;> simp [mkToken, hv]
  · rw [Token.Made] at ht hu
    rw [ht, hu, hv]
    rfl
  · unfold normToken
    rw [hv]
    split <;> simp [mkToken, hv]
  · have hw : t.IsWord ↔ u.IsWord := by
      rw [Token.Made] at ht hu
      rw [ht, hu, hv]
      rfl
    unfold stemToken
    simp only [hw, hv]
    split <;> simp [mkToken, hv]
  · simp only [isStop, hv]
  · unfold expandToken expansion?
    rw [hv]
    split <;> simp [hv]

private def w (s : String) : Token := mkToken asciiUnicode (str s) false
private def m (s : String) : Token := mkToken asciiUnicode (str s) true

/-- **C126 (violated).** In "@ann @bob" the second handle is found only if the second "@" is not left out. -/
theorem C126_violated : ¬ C126_full sampleEnv ∧
    (handles asciiUnicode (listStream [w "@", w "ann", w " ", w "@", w "bob"] .eof)).distinct.Yields
      [m "@ann", w " ", m "@bob"] .eof ∧
    (handles asciiUnicode (listStream [w "@", w "ann", w " ", w "@", w "bob"] .eof).distinct).distinct.Yields
      [m "@ann", w " ", w "bob"] .eof := by
  have h0 := listStream_yields [w "@", w "ann", w " ", w "@", w "bob"] .eof
  have h1 := distinct_yields
    (sigil_yields (U := asciiUnicode) (f := { sigil := [0x40], legal := legalHandle }) (by simp) h0)
  have h2 := distinct_yields (sigil_yields (U := asciiUnicode) (f := { sigil := [0x40], legal := legalHandle }) (by simp)
    (distinct_yields h0))
  rw [sigilActual_end] at h1 h2
  rw [show firsts (sigilActual asciiUnicode { sigil := [0x40], legal := legalHandle } none
    [w "@", w "ann", w " ", w "@", w "bob"] .eof).1 = [m "@ann", w " ", m "@bob"] by decide +kernel] at h1
  rw [show firsts (sigilActual asciiUnicode { sigil := [0x40], legal := legalHandle } none
    (firsts [w "@", w "ann", w " ", w "@", w "bob"]) .eof).1 = [m "@ann", w " ", w "bob"] by decide +kernel] at h2
  refine ⟨fun h => ?_, h1, h2⟩
  have hm : ∀ t ∈ [w "@", w "ann", w " ", w "@", w "bob"], t.Made asciiUnicode := by
    unfold Token.Made
    decide +kernel
  have a := h (.sigil { sigil := [0x40], legal := legalHandle }) (by simp [Builtin.OK]) _ _ _ hm h0 _ _ h1
  have := (a.unique h2).1
  revert this
  decide +kernel

/-- **C126 (violated, lemmas).** Of "cafe", "café", folded, only the second is a lemma; it is left out as a repetition
of the first. -/
theorem C126_violated_lemmas :
    (listStream [w "cafe", m "cafe"] .eof).lemmas.distinct.Yields [m "cafe"] .eof ∧
    (listStream [w "cafe", m "cafe"] .eof).distinct.lemmas.distinct.Yields [] .eof := by
  have h0 := listStream_yields [w "cafe", m "cafe"] .eof
  have h1 := distinct_yields (where_yields Token.isLemma h0)
  have h2 := distinct_yields (where_yields Token.isLemma (distinct_yields h0))
  rw [show firsts ([w "cafe", m "cafe"].filter Token.isLemma) = [m "cafe"] by decide +kernel] at h1
  rw [show firsts ((firsts [w "cafe", m "cafe"]).filter Token.isLemma) = [] by decide +kernel] at h2
  exact ⟨h1, h2⟩

/-- A player's name by itself. -/
theorem player_found {a b v : String} (hm : (str v, str v) ∈ nbaMappings)
    (he : ([lw a, lw " ", lw b], str v) ∈ entries latinEnv nbaMappings)
    (hp : ∀ t ∈ [lw a, lw " ", lw b], t.punct = false) (h1 : (lw a).IsWord) (h2 : (lw b).IsWord)
    (h3 : (nbaCompare latinEnv).spell [lw b] ≠ [])
    (h4 : (nbaCompare latinEnv).spell [lw a, lw " ", lw b] = (nbaCompare latinEnv).normal (runes (str v))) :
    (currentPlayers latinEnv (listStream [lw a, lw " ", lw b] .eof)).Yields [lc v] .eof :=
  C65_players_partial latinEnv_lawful latinEnv_lowers latinEnv_plain latinEnv_nba hm
    (first := lw a) (mid := [lw " ", lw b]) (last := lw b) (l := [lw a, lw " "]) rfl hp h1 h2 h3 (wordLimit_ge he)
    (Or.inl h4) (listStream_yields _ .eof)

/-- What comes before a punctuation mark, and what comes from there on. -/
theorem players_cut {xs ys A B : List Token} (hp : PunctBetween xs ys)
    (hA : (currentPlayers latinEnv (listStream xs .eof)).Yields A .eof)
    (hB : (currentPlayers latinEnv (listStream ys .eof)).Yields B .eof) {ts : TokenStream} (h : ts.Yields (xs ++ ys) .eof) :
    (currentPlayers latinEnv ts).Yields (A ++ B) .eof :=
  C32_split latinEnv_lawful nbaMappings true nbaIgnore (fun m hm => (latinEnv_nba m hm).scans) h
    (listStream_yields xs .eof) (listStream_yields ys .eof) (Or.inl hp) hA hB

/-- **C126 (violated, players).** Of "James Harden" and "James Ennis" on two lines, the second is found only if the second
"James" is not left out. -/
theorem C126_violated_players :
    (currentPlayers latinEnv (listStream [lw "James", lw " ", lw "Harden", lw "\n", lw "James", lw " ", lw "Ennis"]
      .eof)).distinct.Yields [lc "James Harden", lw "\n", lc "James Ennis"] .eof ∧
    (currentPlayers latinEnv (listStream [lw "James", lw " ", lw "Harden", lw "\n", lw "James", lw " ", lw "Ennis"]
      .eof).distinct).distinct.Yields [lc "James Harden", lw "\n", lw "Ennis"] .eof := by
  have m1 := mem_nba (row := (n!"James Harden", n!"James Harden")) 0 rfl (by decide +kernel)
  have t1 : textOf n!"James Harden" = str "James Harden" := by decide +kernel
  simp only [t1] at m1
  have e1 : ([lw "James", lw " ", lw "Harden"], str "James Harden") ∈ entries latinEnv nbaMappings := by
    simp only [entries, List.mem_flatMap, List.mem_map]
    exact ⟨_, m1, _, by decide +kernel, rfl⟩
  have m2 := mem_nba (row := (n!"James Ennis", n!"James Ennis")) 0 rfl (by decide +kernel)
  have t2 : textOf n!"James Ennis" = str "James Ennis" := by decide +kernel
  simp only [t2] at m2
  have e2 : ([lw "James", lw " ", lw "Ennis"], str "James Ennis") ∈ entries latinEnv nbaMappings := by
    simp only [entries, List.mem_flatMap, List.mem_map]
    exact ⟨_, m2, _, by decide +kernel, rfl⟩
  have y1 := player_found m1 e1 (by decide +kernel) (by decide +kernel) (by decide +kernel) (by decide +kernel)
    (by decide +kernel)
  have y2 := player_found m2 e2 (by decide +kernel) (by decide +kernel) (by decide +kernel) (by decide +kernel)
    (by decide +kernel)
  have hn := strangers (toks := [lw "\n"]) (by decide +kernel) (listStream_yields _ .eof)
  have hl := strangers (toks := [lw "\n", lw "Ennis"]) (by decide +kernel) (listStream_yields _ .eof)
  have hb : ∀ xs, PunctBetween xs [lw "\n", lw "James", lw " ", lw "Ennis"] :=
    fun xs => Or.inr (.inr (.inr ⟨_, rfl, by decide +kernel⟩))
  have z0 := players_cut (ys := [lw "James", lw " ", lw "Ennis"]) (Or.inr (.inr (.inl ⟨lw "\n", rfl, by decide +kernel⟩)))
    hn y2 (listStream_yields [lw "\n", lw "James", lw " ", lw "Ennis"] .eof)
  have z1 := players_cut (hb _) y1 z0
    (listStream_yields [lw "James", lw " ", lw "Harden", lw "\n", lw "James", lw " ", lw "Ennis"] .eof)
  have d := distinct_yields
    (listStream_yields [lw "James", lw " ", lw "Harden", lw "\n", lw "James", lw " ", lw "Ennis"] .eof)
  rw [show firsts [lw "James", lw " ", lw "Harden", lw "\n", lw "James", lw " ", lw "Ennis"] =
    [lw "James", lw " ", lw "Harden"] ++ [lw "\n", lw "Ennis"] by decide +kernel] at d
  have z2 := players_cut (Or.inr (.inr (.inr ⟨lw "\n", rfl, by decide +kernel⟩))) y1 hl d
  have z1 := distinct_yields z1
  have z2 := distinct_yields z2
  rw [show firsts ([lc "James Harden"] ++ ([lw "\n"] ++ [lc "James Ennis"])) =
    [lc "James Harden", lw "\n", lc "James Ennis"] by decide +kernel] at z1
  rw [show firsts ([lc "James Harden"] ++ [lw "\n", lw "Ennis"]) =
    [lc "James Harden", lw "\n", lw "Ennis"] by decide +kernel] at z2
  exact ⟨z1, z2⟩

-- a filter that makes tokens the same: "cafe café" has two tokens of different texts, folded they have the same
example : (asciiFold asciiUnicode (listStream [w "cafe", w "café"] .eof).distinct).distinct.Yields [w "cafe"] .eof ∧
    (asciiFold asciiUnicode (listStream [w "cafe", w "café"] .eof).distinct).Yields [w "cafe", m "cafe"] .eof := by
  have h0 := distinct_yields (listStream_yields [w "cafe", w "café"] .eof)
  have h1 := asciiFold_yields asciiUnicode h0
  rw [show (firsts [w "cafe", w "café"]).map (foldToken asciiUnicode) = [w "cafe", m "cafe"] by decide +kernel] at h1
  have h2 := distinct_yields h1
  rw [show firsts [w "cafe", m "cafe"] = [w "cafe"] by decide +kernel] at h2
  exact ⟨h2, h1⟩

end Jargon
