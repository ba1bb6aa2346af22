import Verif.Props.Settle
import Verif.Proofs.TableWords

/-! C121: whether a synonyms filter comes before or after the selection of the words. -/

namespace Jargon

/-! ### The specification -/

/-- The words among tokens. -/
def onlyWords (toks : List Token) : List Token := toks.filter fun t => decide t.IsWord

/-- All space in the text that is not punctuation is ignored when texts are compared. -/
def SpaceIgnored (C : Compare) (toks : List Token) : Prop :=
  ∀ t ∈ toks, t.punct = false → t.space = true → C.spell [t] = []

/-- No synonym is broken up by punctuation: where the words of a part of the text, from a word to a word, spell a
synonym, there is no punctuation among them. -/
def Unbroken (C : Compare) (D : Dict) (toks : List Token) : Prop :=
  ∀ pre run post, toks = pre ++ run ++ post → (∃ t, run.head? = some t ∧ t.IsWord) →
    (∃ t, run.getLast? = some t ∧ t.IsWord) → D (C.spell (onlyWords run)) ≠ none → ∀ t ∈ run, t.punct = false

/-- The same about a synonyms filter. -/
def SynArgs.Unbroken (F : SynArgs) (E : Env) (toks : List Token) : Prop :=
  Jargon.Unbroken ⟨E.U, F.ignoreCase, F.ignore⟩
    ((Compare.mk E.U F.ignoreCase F.ignore).dict (entries E F.mappings)) toks

/-- The canonicals are words, or empty. -/
def SynArgs.Wordy (F : SynArgs) (E : Env) : Prop :=
  ∀ a ∈ entries E F.mappings, a.2 = [] ∨ (mkToken E.U a.2 true).IsWord

/-- Selecting the words first or last makes no difference. -/
def SynArgs.WordsFirst (F : SynArgs) (E : Env) (toks : List Token) : Prop :=
  ∀ (ts : TokenStream) (e : End), ts.Yields toks e →
    ∃ out, (F.filter E ts).words.Yields out e ∧ (F.filter E ts.words).Yields out e

/-- **C121 (full).** Selecting the words of a text before or after a synonyms filter makes no difference. -/
def C121_full (F : SynArgs) (E : Env) : Prop := ∀ toks, F.WordsFirst E toks

/-! ### Lemmas -/

theorem words_onlyWords (l : List Token) : words l = (onlyWords l).length := by
  unfold words onlyWords
  rw [List.countP_eq_length_filter]

theorem onlyWords_append (a b : List Token) : onlyWords (a ++ b) = onlyWords a ++ onlyWords b := List.filter_append ..

theorem spell_append' (C : Compare) (a b : List Token) : C.spell (a ++ b) = C.spell a ++ C.spell b := by
  simp [Compare.spell, Compare.normal]

/-- Without punctuation, ignored space does not matter to the spelling. -/
theorem spell_onlyWords {C : Compare} {l : List Token} (hs : SpaceIgnored C l) (hp : ∀ t ∈ l, t.punct = false) :
    C.spell (onlyWords l) = C.spell l := by
  induction l with
  | nil => rfl
  | cons t ts ih =>
    have ih' := ih (fun x hx => hs x (by simp [hx])) (fun x hx => hp x (by simp [hx]))
    rw [show t :: ts = [t] ++ ts from rfl, onlyWords_append, spell_append', spell_append', ih']
    congr 1
    by_cases hw : t.IsWord
    · simp [onlyWords, hw]
    · rw [show onlyWords [t] = [] by simp [onlyWords, hw]]
      have h1 := hp t (by simp)
      have h2 : t.space = true := by
        cases h : t.space with
        | true => rfl
        | false => exact absurd ⟨h1, h⟩ hw
      rw [hs t (by simp) h1 h2]
      rfl

theorem onlyWords_take (l : List Token) (k : Nat) :
    onlyWords (l.take k) = (onlyWords l).take (words (l.take k)) ∧
      onlyWords (l.drop k) = (onlyWords l).drop (words (l.take k)) := by
  have h : onlyWords l = onlyWords (l.take k) ++ onlyWords (l.drop k) := by
    rw [← onlyWords_append, List.take_append_drop]
  rw [h, words_onlyWords]
  simp

/-- The part of a text that ends with its `j`th word. -/
theorem prefix_of_words {l : List Token} {j : Nat} (h1 : 1 ≤ j) (h2 : j ≤ (onlyWords l).length) :
    ∃ k, 1 ≤ k ∧ k ≤ l.length ∧ (∃ t, (l.take k).getLast? = some t ∧ t.IsWord) ∧
      onlyWords (l.take k) = (onlyWords l).take j ∧ words (l.take (k - 1)) = j - 1 := by
  induction l generalizing j with
  | nil => simp [onlyWords] at h2; omega
  | cons t ts ih =>
    by_cases hw : t.IsWord
    · have hc : onlyWords (t :: ts) = t :: onlyWords ts := by simp [onlyWords, hw]
      by_cases hj : j = 1
      · subst hj
        exact ⟨1, by omega, by simp, ⟨t, by simp, hw⟩, by rw [hc]; simp [onlyWords, hw], by simp [words]⟩
      · rw [hc] at h2
        obtain ⟨k, a, b, ⟨x, hx, hxw⟩, d, f⟩ := ih (j := j - 1) (by omega) (by simpa using by omega)
        obtain ⟨j, rfl⟩ : ∃ i, j = i + 1 := ⟨j - 1, by omega⟩
        obtain ⟨k, rfl⟩ : ∃ i, k = i + 1 := ⟨k - 1, by omega⟩
        refine ⟨k + 1 + 1, by omega, by simpa using b, ⟨x, ?_, hxw⟩, ?_, ?_⟩
        · rw [List.take_succ_cons, List.getLast?_cons, hx]; rfl
        · rw [hc, List.take_succ_cons, List.take_succ_cons]
          rw [Nat.add_sub_cancel] at d
          rw [← d]; simp [onlyWords, hw]
        · simp only [Nat.add_sub_cancel] at f ⊢
          rw [List.take_succ_cons, words, List.countP_cons, ← words, f]
          simp [hw]; omega
    · have hc : onlyWords (t :: ts) = onlyWords ts := by simp [onlyWords, hw]
      rw [hc] at h2
      obtain ⟨k, a, b, ⟨x, hx, hxw⟩, d, f⟩ := ih h1 h2
      obtain ⟨k, rfl⟩ : ∃ i, k = i + 1 := ⟨k - 1, by omega⟩
      refine ⟨k + 1 + 1, by omega, by simpa using b, ⟨x, ?_, hxw⟩, ?_, ?_⟩
      · rw [List.take_succ_cons, List.getLast?_cons, hx]; rfl
      · rw [hc, List.take_succ_cons, ← d]; simp [onlyWords, hw]
      · simp only [Nat.add_sub_cancel] at f ⊢
        rw [List.take_succ_cons, words, List.countP_cons, ← words, f]
        simp [hw]

theorem onlyWords_isWord {l : List Token} {t : Token} (h : t ∈ onlyWords l) : t.IsWord := by
  simpa [onlyWords] using (List.mem_filter.1 h).2

theorem Unbroken.drop {C : Compare} {D : Dict} {toks : List Token} (h : Unbroken C D toks) (k : Nat) :
    Unbroken C D (toks.drop k) := by
  intro pre run post he
  refine h (toks.take k ++ pre) run post ?_
  rw [List.append_assoc, List.append_assoc, ← List.append_assoc pre, ← he, List.take_append_drop]

/-- What is admissible among the words and spells a synonym is so in the text. -/
theorem Unbroken.admissible {C : Compare} {D : Dict} {m : Nat} {t : Token} {ts : List Token} (ht : t.IsWord)
    (hb : Unbroken C D (t :: ts)) (hs : SpaceIgnored C (t :: ts)) {j : Nat}
    (hj : Admissible m (onlyWords (t :: ts)) j)
    (hD : D (C.spell ((onlyWords (t :: ts)).take j)) ≠ none) :
    ∃ k, Admissible m (t :: ts) k ∧ C.spell ((t :: ts).take k) = C.spell ((onlyWords (t :: ts)).take j) ∧
      words ((t :: ts).take k) = j := by
  obtain ⟨k, h1, h2, h3, h4, h5⟩ := prefix_of_words hj.pos hj.le
  have hp : ∀ x ∈ (t :: ts).take k, x.punct = false := by
    refine hb [] _ ((t :: ts).drop k) (by simp) ⟨t, ?_, ht⟩ h3 (by rw [h4]; exact hD)
    obtain ⟨k, rfl⟩ : ∃ i, k = i + 1 := ⟨k - 1, by omega⟩
    rfl
  refine ⟨k, ⟨h1, h2, hp, ?_⟩, ?_, ?_⟩
  · have := hj.limit
    rw [words_onlyWords, show onlyWords (List.take (j - 1) (onlyWords (t :: ts))) =
      List.take (j - 1) (onlyWords (t :: ts)) from
        List.filter_eq_self.2 fun x hx => by simpa using onlyWords_isWord (List.mem_of_mem_take hx)] at this
    have hle := hj.le
    rw [List.length_take] at this
    omega
  · rw [← h4, spell_onlyWords (fun x hx => hs x (List.mem_of_mem_take hx)) hp]
  · rw [words_onlyWords, h4, List.length_take]
    have := hj.le
    omega

/-- The specification, with the words selected first. -/
theorem Greedy.onlyWords {C : Compare} {D : Dict} {m : Nat}
    (hD : ∀ q c, D q = some c → c = [] ∨ (mkToken C.U c true).IsWord)
    {toks out : List Token} (h : Greedy C D m toks out) (hs : SpaceIgnored C toks) (hb : Unbroken C D toks) :
    Greedy C D m (onlyWords toks) (onlyWords out) := by
  induction h with
  | nil => exact .nil
  | @separator t ts out ht _ ih =>
    have ih' := ih (fun x hx => hs x (by simp [hx])) (hb.drop 1)
    simpa [Jargon.onlyWords, ht] using ih'
  | @word t ts out ht hn _ ih =>
    have ih' := ih (fun x hx => hs x (by simp [hx])) (hb.drop 1)
    have hc : ∀ l, Jargon.onlyWords (t :: l) = t :: Jargon.onlyWords l := fun l => by simp [Jargon.onlyWords, ht]
    rw [hc, hc]
    refine .word ht (fun j hj => ?_) ih'
    rw [← hc] at hj ⊢
    by_cases hd : D (C.spell ((Jargon.onlyWords (t :: ts)).take j)) = none
    · exact hd
    · obtain ⟨k, hk, he, -⟩ := hb.admissible ht hs hj hd
      rw [← he]
      exact hn k hk
  | @replace t ts out k c ht hl _ ih =>
    have ih' := ih (fun x hx => hs x (List.mem_of_mem_drop hx)) (hb.drop k)
    have hc : Jargon.onlyWords (t :: ts) = t :: Jargon.onlyWords ts := by simp [Jargon.onlyWords, ht]
    have hout : Jargon.onlyWords (canonTokens C.U c ++ out) = canonTokens C.U c ++ Jargon.onlyWords out := by
      rw [onlyWords_append]
      congr 1
      unfold canonTokens
      split
      · rfl
      · next h0 =>
        rcases hD _ _ hl.isSyn with h | h
        · exact absurd h h0
        · simp [Jargon.onlyWords, h]
    obtain ⟨k, rfl⟩ : ∃ i, k = i + 1 := ⟨k - 1, by have := hl.mem.pos; omega⟩
    obtain ⟨htake, hdrop⟩ := onlyWords_take (t :: ts) (k + 1)
    have hspell := spell_onlyWords (C := C) (l := (t :: ts).take (k + 1))
      (fun x hx => hs x (List.mem_of_mem_take hx)) hl.mem.noPunct
    rw [hout, hc]
    rw [hdrop, hc] at ih'
    refine .replace (k := words ((t :: ts).take (k + 1))) ht ?_ ih'
    rw [← hc]
    -- the last of the tokens is a word
    have hlast : words ((t :: ts).take (k + 1)) = words ((t :: ts).take k) + 1 := by
      have hlen := hl.mem.le
      have hk : k < (t :: ts).length := by omega
      rw [List.take_succ_eq_append_getElem hk, words, List.countP_append, ← words]
      by_cases hw : ((t :: ts)[k]).IsWord
      · simp [hw]
      · exfalso
        have hk0 : 1 ≤ k := by
          rcases Nat.eq_zero_or_pos k with h | h
          · subst h; exact absurd ht hw
          · exact h
        have hmem : (t :: ts)[k] ∈ (t :: ts).take (k + 1) := by
          rw [List.take_succ_eq_append_getElem hk]; exact List.mem_append_right _ (List.mem_singleton.2 rfl)
        have hp := hl.mem.noPunct _ hmem
        have hsp : ((t :: ts)[k]).space = true := by
          cases h : ((t :: ts)[k]).space with
          | true => rfl
          | false => exact absurd ⟨hp, h⟩ hw
        have hnil := hs _ (List.mem_of_mem_take hmem) hp hsp
        have hlim := hl.mem.limit
        refine hl.fewest k ⟨hk0, by omega, fun x hx => hl.mem.noPunct x ?_, ?_⟩ (by omega) ?_
        · rw [List.take_succ_eq_append_getElem hk]; exact List.mem_append_left _ hx
        · refine Nat.lt_of_le_of_lt ?_ hlim
          unfold words
          rw [Nat.add_sub_cancel]
          exact List.Sublist.countP_le (List.take_sublist_take_left (by omega))
        · rw [List.take_succ_eq_append_getElem hk, spell_append', hnil, List.append_nil]
    refine ⟨⟨by omega, ?_, ?_, ?_⟩, ?_, ?_, ?_⟩
    · rw [words_onlyWords]
      exact (List.Sublist.filter _ (List.take_sublist _ _)).length_le
    · exact fun x hx => (onlyWords_isWord (List.mem_of_mem_take hx)).1
    · have hlim := hl.mem.limit
      rw [Nat.add_sub_cancel] at hlim
      rw [hlast, Nat.add_sub_cancel, ← (onlyWords_take (t :: ts) k).1]
      refine Nat.lt_of_le_of_lt ?_ hlim
      exact List.Sublist.countP_le List.filter_sublist
    · rw [← htake, hspell]; exact hl.isSyn
    · intro j hj hlt hd
      obtain ⟨k', hk', he, hw⟩ := hb.admissible ht hs hj hd
      rw [← htake, hspell, ← he]
      refine hl.longest k' hk' ?_ (by rw [he]; exact hd)
      rcases Nat.lt_or_ge (k + 1) k' with h | h
      · exact h
      · exfalso
        have : words ((t :: ts).take k') ≤ words ((t :: ts).take (k + 1)) :=
          List.Sublist.countP_le (List.take_sublist_take_left h)
        omega
    · intro j hj hlt he
      rw [← htake, hspell] at he
      obtain ⟨k', hk', he', hw⟩ := hb.admissible ht hs hj (by rw [he, hl.isSyn]; simp)
      refine hl.fewest k' hk' ?_ (he'.trans he)
      rcases Nat.lt_or_ge k' (k + 1) with h | h
      · exact h
      · exfalso
        have : words ((t :: ts).take (k + 1)) ≤ words ((t :: ts).take k') :=
          List.Sublist.countP_le (List.take_sublist_take_left h)
        omega

theorem words_yields {ts : TokenStream} {toks : List Token} {e : End} (h : ts.Yields toks e) :
    ts.words.Yields (onlyWords toks) e := by
  have := where_yields (fun t => !t.isPunct && !t.isSpace) h
  rwa [show toks.filter (fun t : Token => !t.isPunct && !t.isSpace) = onlyWords toks from
    List.filter_congr fun t _ => by
      rcases t with ⟨v, p, s, l⟩
      cases p <;> cases s <;> rfl] at this

/-! ### C121 -/

/-- **C121 (partial).** Selecting the words of a text before or after a synonyms filter makes no difference if the
canonicals are words, no synonym is broken up by punctuation in the text, and the space in it is ignored by the
filter. Missing: texts in which a synonym is broken up, where it does make a difference (`C121_violated`). -/
theorem C121_partial {E : Env} (hE : E.Lawful) {F : SynArgs} (hF : F.Scans E) (hc : F.Wordy E) {toks : List Token}
    (hs : SpaceIgnored ⟨E.U, F.ignoreCase, F.ignore⟩ toks) (hb : F.Unbroken E toks) : F.WordsFirst E toks := by
  intro ts e h
  obtain ⟨out, hg⟩ := F.total E toks
  have hw : F.Greedy E (onlyWords toks) (onlyWords out) := by
    refine Greedy.onlyWords (fun q c hq => ?_) hg hs hb
    obtain ⟨a, ha, -, hac⟩ := dict_some hq
    rw [← hac]
    exact hc a ha
  have y1 := words_yields (hg.yields hE hF h)
  have y2 := hw.yields hE hF (words_yields h)
  cases e with
  | eof => exact ⟨_, y1, y2⟩
  | fail e => exact ⟨_, y1, y2⟩

theorem entries_canonical {E : Env} {mappings : StringMap} {a : List Token × Bytes} (h : a ∈ entries E mappings) :
    ∃ k, (k, a.2) ∈ mappings := by
  simp only [entries, List.mem_flatMap, List.mem_map] at h
  obtain ⟨m, hm, s, -, rfl⟩ := h
  exact ⟨m.1, hm⟩

/-- **C121 for Stack Overflow's tags (partial).** -/
theorem C121_tags_partial {E : Env} (hE : E.Lawful) (hP : E.U.PlainNotPunct)
    (hk : ∀ m ∈ stackOverflowMappings, E.CutsCommas m.1) {toks : List Token}
    (hs : SpaceIgnored ⟨E.U, true, stackOverflowIgnore⟩ toks) (hb : tagsArgs.Unbroken E toks)
    {ts : TokenStream} {e : End} (h : ts.Yields toks e) :
    ∃ out, (tags E ts).words.Yields out e ∧ (tags E ts.words).Yields out e := by
  refine C121_partial (F := tagsArgs) hE (fun m hm => (hk m hm).scans) (fun a ha => .inr ?_) hs hb ts e h
  obtain ⟨k, hm⟩ := entries_canonical ha
  have hm' : (k, a.2) ∈ tableOf soRows.flatten := by rw [← stackOverflow_rows]; exact hm
  exact (mkToken_word hP true (row_plain soRows_plain hm')).1

/-- **C121 for the NBA players (partial).** -/
theorem C121_players_partial {E : Env} (hE : E.Lawful) (hP : E.U.PlainNotPunct)
    (hk : ∀ m ∈ nbaMappings, E.CutsCommas m.1) {toks : List Token}
    (hs : SpaceIgnored ⟨E.U, true, nbaIgnore⟩ toks) (hb : playersArgs.Unbroken E toks)
    {ts : TokenStream} {e : End} (h : ts.Yields toks e) :
    ∃ out, (currentPlayers E ts).words.Yields out e ∧ (currentPlayers E ts.words).Yields out e := by
  refine C121_partial (F := playersArgs) hE (fun m hm => (hk m hm).scans) (fun a ha => .inr ?_) hs hb ts e h
  obtain ⟨k, hm⟩ := entries_canonical ha
  have hm' : (k, a.2) ∈ tableOf nbaRows.flatten := by rw [← nba_rows]; exact hm
  exact (mkToken_word hP true (row_plain nbaRows_plain hm')).1

/-- **C121 (violated).** In "Sheldon. Mac" no player is found; among the words of it, "Sheldon Mac" is. -/
theorem C121_violated : ¬ C121_full playersArgs latinEnv ∧
    (currentPlayers latinEnv (listStream [lw "Sheldon", lw ".", lw " ", lw "Mac"] .eof)).words.Yields
      [lw "Sheldon", lw "Mac"] .eof ∧
    (currentPlayers latinEnv (listStream [lw "Sheldon", lw ".", lw " ", lw "Mac"] .eof).words).Yields
      [lc "Sheldon Mac"] .eof := by
  have y1 : (currentPlayers latinEnv (listStream [lw "Sheldon", lw ".", lw " ", lw "Mac"] .eof)).words.Yields
      [lw "Sheldon", lw "Mac"] .eof := by
    have := words_yields (strangers (toks := [lw "Sheldon", lw ".", lw " ", lw "Mac"]) (by decide +kernel)
      (listStream_yields _ _))
    rwa [show onlyWords [lw "Sheldon", lw ".", lw " ", lw "Mac"] = [lw "Sheldon", lw "Mac"] by decide +kernel] at this
  have y2 : (currentPlayers latinEnv (listStream [lw "Sheldon", lw ".", lw " ", lw "Mac"] .eof).words).Yields
      [lc "Sheldon Mac"] .eof := by
    have hm := mem_nba (row := (n!"Sheldon Mac", n!"Sheldon Mac")) 1 rfl (by decide +kernel)
    have htx : textOf n!"Sheldon Mac" = str "Sheldon Mac" := by decide +kernel
    simp only [htx] at hm
    have he : ([lw "Sheldon", lw " ", lw "Mac"], str "Sheldon Mac") ∈ entries latinEnv nbaMappings := by
      simp only [entries, List.mem_flatMap, List.mem_map]
      exact ⟨_, hm, _, by decide +kernel, rfl⟩
    have hy := words_yields (listStream_yields [lw "Sheldon", lw ".", lw " ", lw "Mac"] .eof)
    rw [show onlyWords [lw "Sheldon", lw ".", lw " ", lw "Mac"] = [lw "Sheldon", lw "Mac"] by decide +kernel] at hy
    exact C65_players_partial latinEnv_lawful latinEnv_lowers latinEnv_plain latinEnv_nba hm
      (first := lw "Sheldon") (mid := [lw "Mac"]) (last := lw "Mac") (l := [lw "Sheldon"]) rfl
      (by decide +kernel) (by decide +kernel) (by decide +kernel) (by decide +kernel) 
      (show words [lw "Sheldon", lw "Mac"] ≤ _ from by
        rw [show words [lw "Sheldon", lw "Mac"] = words [lw "Sheldon", lw " ", lw "Mac"] by decide +kernel]
        exact wordLimit_ge he)
      (Or.inl (by decide +kernel)) hy
  refine ⟨fun h => ?_, y1, y2⟩
  obtain ⟨out, h1, h2⟩ := h _ _ _ (listStream_yields [lw "Sheldon", lw ".", lw " ", lw "Mac"] .eof)
  have := (h1.unique y1).1.symm.trans (h2.unique y2).1
  revert this
  decide +kernel

private def w (s : String) : Token := mkToken asciiUnicode (str s) false

private def argsRor : SynArgs := ⟨[(str "ruby on rails", str "ror")], true, [0x20]⟩

-- what the partial version asks for can be had: "ruby on rails, ruby" with a filter for the synonym of three words
example : argsRor.Unbroken sampleEnv [w "ruby", w " ", w "on", w " ", w "rails", w ",", w " ", w "ruby"] ∧
    SpaceIgnored ⟨sampleEnv.U, true, [0x20]⟩ [w "ruby", w " ", w "on", w " ", w "rails", w ",", w " ", w "ruby"] ∧
    argsRor.Wordy sampleEnv := by
  have e1 : entries sampleEnv argsRor.mappings = [([w "ruby", w " ", w "on", w " ", w "rails"], str "ror")] := by
    decide +kernel
  refine ⟨?_, by unfold SpaceIgnored; decide +kernel, ?_⟩
  · intro pre run post he h1 h2 h3
    have hr : run ∈ parts [w "ruby", w " ", w "on", w " ", w "rails", w ",", w " ", w "ruby"] := by
      rw [he]
      refine List.mem_flatMap.mpr ⟨pre.length, ?_, List.mem_map.mpr ⟨run.length, ?_, ?_⟩⟩
      · simp; omega
      · simp; omega
      · simp
    have key : ∀ run ∈ parts [w "ruby", w " ", w "on", w " ", w "rails", w ",", w " ", w "ruby"],
        (Compare.mk sampleEnv.U true [0x20]).spell (onlyWords run) =
          (Compare.mk sampleEnv.U true [0x20]).spell [w "ruby", w " ", w "on", w " ", w "rails"] →
        run.head?.any (fun t => decide t.IsWord) = true → run.getLast?.any (fun t => decide t.IsWord) = true →
        ∀ t ∈ run, t.punct = false := by decide +kernel
    refine key run hr ?_ ?_ ?_
    · cases hD : (Compare.mk sampleEnv.U true [0x20]).dict (entries sampleEnv argsRor.mappings)
          ((Compare.mk sampleEnv.U true [0x20]).spell (onlyWords run)) with
      | none => exact absurd hD h3
      | some c =>
        obtain ⟨a, ha, hsp, -⟩ := dict_some hD
        rw [e1, List.mem_singleton] at ha
        subst ha
        exact hsp.symm
    · obtain ⟨t, ht, hw⟩ := h1
      simp [ht, hw]
    · obtain ⟨t, ht, hw⟩ := h2
      simp [ht, hw]
  · intro a ha
    rw [e1, List.mem_singleton] at ha
    subst ha
    exact .inr (by decide +kernel)

end Jargon
