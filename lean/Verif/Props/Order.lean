import Verif.Props.Simple
import Verif.Props.Ascii
import Verif.Props.Tokenizer
import Verif.Props.Uax29

/-! C94: the filters that only select (Words, Lemmas, Distinct, stopwords and the like) in any order, and
more than once. -/

namespace Jargon

/-- The filters that deliver some of their tokens, as they are. -/
inductive Selection where
  | words
  | lemmas
  | distinct
  | stopwords (ws : List Bytes) (ignoreCase : Bool)
  /-- any choice by the text of a token -/
  | text (p : Bytes → Bool)

def Selection.apply (U : Unicode) : Selection → Filter
  | .words => TokenStream.words
  | .lemmas => TokenStream.lemmas
  | .distinct => TokenStream.distinct
  | .stopwords ws ignoreCase => Jargon.stopwords U ws ignoreCase
  | .text p => fun ts => ts.where fun t => p t.value

/-- Tokens as `NewToken` makes them: all there are, as the fields are not exported. -/
def Token.Made (U : Unicode) (t : Token) : Prop := t = mkToken U t.value t.lemma

/-- Whatever delivers these tokens, both orders give the same. -/
def SameInBothOrders (F G : Filter) (toks : List Token) : Prop := ∀ (ts : TokenStream) (e : End), ts.Yields toks e →
  ∃ out, (F (G ts)).Yields out e ∧ (G (F ts)).Yields out e

/-- **C94, as one would like it.** The order of two selections does not matter. -/
def C94_full (U : Unicode) : Prop := ∀ (F G : Selection) (toks : List Token), (∀ t ∈ toks, t.Made U) →
  SameInBothOrders (F.apply U) (G.apply U) toks

/-! ### proofs -/

theorem firsts_filter {p : Token → Bool} : ∀ {toks : List Token},
    (∀ t ∈ toks, ∀ u ∈ toks, t.value = u.value → p t = p u) → firsts (toks.filter p) = (firsts toks).filter p
  | [], _ => rfl
  | t :: ts, h => by
    have ih := firsts_filter (toks := ts) fun a ha b hb => h a (by simp [ha]) b (by simp [hb])
    cases hp : p t with
    | true =>
      rw [List.filter_cons_of_pos hp]
      simp only [firsts]
      rw [List.filter_cons_of_pos hp, ih, List.filter_filter, List.filter_filter]
      simp [Bool.and_comm]
    | false =>
      rw [List.filter_cons_of_neg (by simp [hp])]
      simp only [firsts]
      rw [List.filter_cons_of_neg (by simp [hp]), ih, List.filter_filter]
      refine List.filter_congr fun u hu => ?_
      by_cases hv : u.value = t.value
      · have := h u (List.mem_cons_of_mem _ ((firsts_sublist ts).subset hu)) t (by simp) hv
        simp [this, hp]
      · simp [hv]

theorem firsts_filter_of {p : Token → Bool} : ∀ (n : Nat) {toks : List Token}, toks.length = n →
    (∀ t ∈ toks, p t = true → ∀ u, toks.find? (fun u => u.value = t.value) = some u → p u = true) →
    firsts (toks.filter p) = (firsts toks).filter p := by
  intro n
  induction n using Nat.strongRecOn with
  | ind n ih =>
    intro toks hn h
    cases toks with
    | nil => rfl
    | cons t ts =>
      have hrest : ∀ l : List Token, (firsts l).filter (fun u => u.value ≠ t.value) =
          firsts (l.filter fun u => u.value ≠ t.value) := fun l =>
        (firsts_filter fun a _ b _ hab => by simp [hab]).symm
      have hlt : (ts.filter fun u => u.value ≠ t.value).length < n := by
        have := List.length_filter_le (fun u : Token => decide (u.value ≠ t.value)) ts
        simp only [List.length_cons] at hn
        omega
      have ih := ih _ hlt (toks := ts.filter fun u => u.value ≠ t.value) rfl fun a ha hpa u hu => by
        obtain ⟨ha, hat⟩ := List.mem_filter.1 ha
        simp only [ne_eq, decide_not, Bool.not_eq_eq_eq_not, Bool.not_true, decide_eq_false_iff_not] at hat
        refine h a (List.mem_cons_of_mem _ ha) hpa u ?_
        rw [List.find?_cons_of_neg (by simpa using fun hx => hat hx.symm)]
        rw [List.find?_filter] at hu
        rw [← hu]
        congr 1
        funext v
        by_cases hv : v.value = a.value
        · simp [hv, hat]
        · simp [hv]
      simp only [firsts]
      cases hp : p t with
      | true =>
        rw [List.filter_cons_of_pos hp, List.filter_cons_of_pos hp]
        simp only [firsts]
        rw [hrest, hrest, ← ih, List.filter_filter, List.filter_filter]
        simp [Bool.and_comm]
      | false =>
        rw [List.filter_cons_of_neg (by simp [hp]), List.filter_cons_of_neg (by simp [hp]), hrest, ← ih,
          List.filter_filter]
        congr 1
        refine List.filter_congr fun u hu => ?_
        by_cases hv : u.value = t.value
        · cases hpu : p u with
          | false => simp
          | true =>
            have := h u (List.mem_cons_of_mem _ hu) hpu t (by simp [hv])
            rw [hp] at this; cases this
        · simp [hv]

theorem firsts_of_nodup : ∀ {toks : List Token}, toks.Pairwise (fun a b => a.value ≠ b.value) → firsts toks = toks
  | [], _ => rfl
  | t :: ts, h => by
    obtain ⟨h1, h2⟩ := List.pairwise_cons.1 h
    rw [firsts, firsts_of_nodup h2, List.filter_eq_self.2]
    intro u hu
    simpa using fun hx => h1 u hu hx.symm

/-- What a selection other than Distinct keeps. -/
def Selection.keeps (U : Unicode) : Selection → Token → Bool
  | .words => fun t => !t.isPunct && !t.isSpace
  | .lemmas => Token.isLemma
  | .distinct => fun _ => true
  | .stopwords ws ic => fun t => !isStop U ws ic t
  | .text p => fun t => p t.value

theorem Selection.yields {U : Unicode} {F : Selection} (hF : F ≠ .distinct) {ts : TokenStream} {toks : List Token}
    {e : End} (h : ts.Yields toks e) : (F.apply U ts).Yields (toks.filter (F.keeps U)) e := by
  cases F with
  | words => exact where_yields _ h
  | lemmas => exact where_yields _ h
  | distinct => exact absurd rfl hF
  | stopwords ws ic => exact stop_yields h
  | text p => exact where_yields _ h

theorem Selection.keeps_text {U : Unicode} {F : Selection} (hF : F ≠ .lemmas) {t u : Token} (ht : t.Made U)
    (hu : u.Made U) (h : t.value = u.value) : F.keeps U t = F.keeps U u := by
  rw [Token.Made] at ht hu
  rw [ht, hu, h]
  cases F with
  | lemmas => exact absurd rfl hF
  | words => rfl
  | distinct => rfl
  | stopwords ws ic => rfl
  | text p => rfl

theorem SameInBothOrders.symm {F G : Filter} {toks : List Token} (h : SameInBothOrders F G toks) :
    SameInBothOrders G F toks := fun ts e hy =>
  have ⟨out, a, b⟩ := h ts e hy
  ⟨out, b, a⟩

theorem distinct_orders {U : Unicode} {G : Selection} {toks : List Token} (hG : G ≠ .distinct)
    (h : firsts (toks.filter (G.keeps U)) = (firsts toks).filter (G.keeps U)) :
    SameInBothOrders (Selection.distinct.apply U) (G.apply U) toks := fun _ _ hy =>
  ⟨_, distinct_yields (Selection.yields hG hy), h ▸ Selection.yields hG (distinct_yields hy)⟩

/-! ### statements -/

/-- **C94 (partial).** Two selections may be swapped, unless one is Distinct and the other Lemmas. -/
theorem C94_partial (U : Unicode) (F G : Selection) (hFG : ¬ (F = .distinct ∧ G = .lemmas))
    (hGF : ¬ (F = .lemmas ∧ G = .distinct)) (toks : List Token) (hm : ∀ t ∈ toks, t.Made U) :
    SameInBothOrders (F.apply U) (G.apply U) toks := by
  by_cases hF : F = .distinct
  · by_cases hG : G = .distinct
    · subst hF hG
      exact fun ts e hy => ⟨_, distinct_yields (distinct_yields hy), distinct_yields (distinct_yields hy)⟩
    · subst hF
      exact distinct_orders hG (firsts_filter fun t ht u hu hv =>
        Selection.keeps_text (fun h => hFG ⟨rfl, h⟩) (hm t ht) (hm u hu) hv)
  · by_cases hG : G = .distinct
    · subst hG
      exact (distinct_orders hF (firsts_filter fun t ht u hu hv =>
        Selection.keeps_text (fun h => hGF ⟨h, rfl⟩) (hm t ht) (hm u hu) hv)).symm
    · intro ts e hy
      refine ⟨_, Selection.yields hF (Selection.yields hG hy), ?_⟩
      have := Selection.yields (U := U) hG (Selection.yields (U := U) hF hy)
      rw [List.filter_filter] at this ⊢
      rwa [show (fun a => F.keeps U a && G.keeps U a) = fun a => G.keeps U a && F.keeps U a from
        funext fun a => Bool.and_comm _ _]

/-- **C94 (Distinct and Lemmas).** These may be swapped if and only if every text that is a lemma somewhere
is one where it stands first. -/
theorem C94_distinct_lemmas (toks : List Token) :
    SameInBothOrders TokenStream.distinct TokenStream.lemmas toks ↔
      ∀ t ∈ toks, t.lemma = true → ∀ u, toks.find? (fun u => u.value = t.value) = some u → u.lemma = true := by
  constructor
  · intro h t ht hl u hu
    obtain ⟨out, h1, h2⟩ := h _ .eof (listStream_yields toks .eof)
    have e1 := (h1.unique (distinct_yields (where_yields Token.isLemma (listStream_yields toks .eof)))).1
    have e2 := (h2.unique (where_yields Token.isLemma (distinct_yields (listStream_yields toks .eof)))).1
    obtain ⟨v, hv, hvt⟩ := firsts_covers (toks.filter Token.isLemma) t (List.mem_filter.2 ⟨ht, hl⟩)
    rw [← e1, e2] at hv
    have h3 := List.mem_filter.1 hv
    have h4 := (mem_firsts toks v).1 h3.1
    rw [hvt, hu] at h4
    cases h4
    exact h3.2
  · intro h
    exact distinct_orders (U := asciiUnicode) (G := .lemmas) (by simp) (firsts_filter_of _ rfl h)

/-- **C94 (repeated).** A selection twice is the selection once. -/
theorem C94_repeated (U : Unicode) (F : Selection) {ts : TokenStream} {toks : List Token} {e : End}
    (h : ts.Yields toks e) : ∃ out, (F.apply U ts).Yields out e ∧ (F.apply U (F.apply U ts)).Yields out e := by
  by_cases hF : F = .distinct
  · subst hF
    have h1 := distinct_yields h
    refine ⟨_, h1, ?_⟩
    have h2 := distinct_yields h1
    rwa [firsts_of_nodup (firsts_nodup toks)] at h2
  · have h1 := Selection.yields (U := U) hF h
    refine ⟨_, h1, ?_⟩
    have h2 := Selection.yields (U := U) hF h1
    rwa [List.filter_filter, show (fun a => F.keeps U a && F.keeps U a) = F.keeps U from
      funext fun a => Bool.and_self _] at h2

/-- **C94 (stop words).** Removing some stop words and then others is removing all of them. -/
theorem C94_stopwords (U : Unicode) (ws ws' : List Bytes) (ic : Bool) {ts : TokenStream} {toks : List Token} {e : End}
    (h : ts.Yields toks e) : ∃ out, (stopwords U ws' ic (stopwords U ws ic ts)).Yields out e ∧
      (stopwords U (ws ++ ws') ic ts).Yields out e := by
  refine ⟨_, stop_yields (stop_yields h), ?_⟩
  have := stop_yields (U := U) (words := ws ++ ws') (ic := ic) h
  rw [List.filter_filter]
  rwa [show (fun t => !isStop U (ws ++ ws') ic t) = fun t => !isStop U ws' ic t && !isStop U ws ic t from ?_] at this
  funext t
  cases ic with
  | false => simp [isStop, Bool.and_comm]
  | true =>
    simp only [isStop, ↓reduceIte, ← Bool.not_or, ← Bool.decide_or, List.mem_append]
    congr 1
    refine decide_eq_decide.2 ⟨?_, ?_⟩
    · rintro ⟨w, hw, h⟩
      exact (List.mem_append.1 hw).elim (fun hw => .inr ⟨w, hw, h⟩) fun hw => .inl ⟨w, hw, h⟩
    · rintro (⟨w, hw, h⟩ | ⟨w, hw, h⟩)
      · exact ⟨w, List.mem_append_right _ hw, h⟩
      · exact ⟨w, List.mem_append_left _ hw, h⟩

/-- **C94 is false.** -/
theorem C94_violated (U : Unicode) : ¬ C94_full U := by
  intro h
  have h1 := h .distinct .lemmas [mkToken U (str "cafe") false, mkToken U (str "cafe") true]
    (by simp [Token.Made, mkToken])
  have h2 := (C94_distinct_lemmas _).1 h1 (mkToken U (str "cafe") true) (by simp) rfl
    (mkToken U (str "cafe") false) (by simp [mkToken])
  simp [mkToken] at h2

/-- **C94 is false, for a text.** In "cafe café", folded, Distinct and then Lemmas find nothing, Lemmas and then
Distinct find "cafe". -/
theorem C94_violated_text {E : Env} (hE : E.Lawful)
    (hs : E.scan { data := str "cafe café" } = ([str "cafe", str " ", str "café"], none)) :
    ((asciiFold E.U (tokenizeString E (str "cafe café"))).distinct.lemmas.Yields [] .eof) ∧
    ((asciiFold E.U (tokenizeString E (str "cafe café"))).lemmas.distinct.Yields [mkToken E.U (str "cafe") true] .eof) := by
  have h0 := tokenize_yields E hE { data := str "cafe café" }
  rw [hs] at h0
  have f1 : foldString (str "cafe") = (str "cafe", false) := by decide +kernel
  have f2 : foldString (str " ") = (str " ", false) := by decide +kernel
  have f3 : foldString (str "café") = (str "cafe", true) := by decide +kernel
  have h1 := asciiFold_yields E.U h0
  have e : (segTokens E.U [str "cafe", str " ", str "café"]).map (foldToken E.U) =
      [mkToken E.U (str "cafe") false, mkToken E.U (str " ") false, mkToken E.U (str "cafe") true] := by
    simp [segTokens, foldToken, mkToken, f1, f2, f3]
  simp only [e, endOf] at h1
  have ne : str " " ≠ str "cafe" := by decide +kernel
  constructor
  · have := where_yields Token.isLemma (distinct_yields h1)
    simp [firsts, mkToken, Token.isLemma, ne] at this
    exact this
  · exact distinct_yields (where_yields Token.isLemma h1)

example : uaxEnv.scan { data := str "cafe café" } = ([str "cafe", str " ", str "café"], none) := by decide +kernel

/-- There are tokens for which the order of Distinct and Lemmas does not matter, and such that both select. -/
example : SameInBothOrders TokenStream.distinct TokenStream.lemmas
    [⟨str "cafe", false, false, true⟩, ⟨str " ", false, true, false⟩, ⟨str "cafe", false, false, false⟩,
      ⟨str "cafe", false, false, true⟩] :=
  (C94_distinct_lemmas _).2 (by decide +kernel)

example := C94_partial asciiUnicode .distinct (.stopwords [str "the"] true) (by simp) (by simp)
  [mkToken asciiUnicode (str "The") false, mkToken asciiUnicode (str "cat") false, mkToken asciiUnicode (str "cat") true]
  (by simp [Token.Made, mkToken])

end Jargon
