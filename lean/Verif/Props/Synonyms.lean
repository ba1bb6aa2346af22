import Verif.Proofs.Build

/-! C30–C38: the trie and the synonyms filter. -/

namespace Jargon

/-! ### C30 -/

/-- The dictionary of a sequence of added synonyms is what it should be: empty at first, and each
addition changes exactly the spelling added. -/
theorem C30_last_added_wins (C : Compare) :
    (∀ q, C.dict [] q = none) ∧
    ∀ adds toks canonical q, C.dict (adds ++ [(toks, canonical)]) q =
      if q = C.spell toks then some canonical else C.dict adds q := by
  refine ⟨fun _ => rfl, fun adds toks canonical q => ?_⟩
  simp only [Compare.dict, List.reverse_append, List.reverse_cons, List.reverse_nil,
    List.nil_append, List.cons_append, List.find?_cons]
  by_cases h : q = C.spell toks
  · simp [h]
  · have : ¬ C.spell toks = q := fun h' => h h'.symm
    simp [h, this]

/-- **C30.** After adding synonyms, searching a run of tokens finds the longest token-aligned prefix
whose normalized text is a synonym, with the canonical added last for it and the fewest tokens that
spell it; it finds nothing exactly if no prefix is a synonym. -/
theorem C30_trie_search (U : Unicode) (ignoreCase : Bool) (ignore : List Rune)
    (adds : List (List Token × Bytes)) (toks : List Token) :
    let trie := adds.foldl (fun t a => t.add U a.1 a.2) (RuneTrie.new ignoreCase ignore)
    let C : Compare := ⟨U, ignoreCase, ignore⟩
    let r := trie.searchCanonical U toks
    let IsPrefix := fun k => 1 ≤ k ∧ k ≤ toks.length
    (r.found = true → Longest C (C.dict adds) IsPrefix toks r.consumed r.canonical) ∧
    (r.found = false → (∀ k, IsPrefix k → C.dict adds (C.spell (toks.take k)) = none) ∧
      r.consumed = 0 ∧ r.canonical = []) := by
  intro trie C r IsPrefix
  have h := search_spec U trie toks
  have hC : trie.compare U = C := addAll_compare U (RuneTrie.new ignoreCase ignore) adds
  have hD : trie.root.get = C.dict adds := by
    funext q; exact new_addAll_get U ignoreCase ignore adds q
  rw [hC, hD] at h
  unfold SearchSpec at h
  constructor
  · intro hf
    rw [if_pos hf] at h
    exact h
  · intro hf
    rw [if_neg (by simp [r] at hf; simp [hf])] at h
    refine ⟨fun k hk => h.2 k hk.1 hk.2, ?_, ?_⟩
    · exact congrArg Found.consumed h.1
    · exact congrArg Found.canonical h.1

/-- The result C30 describes is unique. -/
theorem C30_unique {C : Compare} {D : Dict} {A : Nat → Prop} {toks : List Token} {k k' : Nat}
    {c c' : Bytes} (h : Longest C D A toks k c) (h' : Longest C D A toks k' c') : k = k' ∧ c = c' :=
  h.unique h'

private def w (s : String) : Token := mkToken asciiUnicode (str s) false

-- the longer synonym wins, `-` is ignored, case is ignored, and the last canonical wins
example :
    let adds := [([w "a"], str "1"), ([w "a", w "b"], str "2"), ([w "AB"], str "3")]
    let trie := adds.foldl (fun t a => t.add asciiUnicode a.1 a.2) (RuneTrie.new true [0x2D])
    trie.searchCanonical asciiUnicode [w "A", w "-", w "B", w "-", w "c"] = ⟨true, str "3", 3⟩ ∧
    trie.searchCanonical asciiUnicode [w "x"] = ⟨false, [], 0⟩ := by
  decide +kernel

/-! ### C31 -/

/-- **C31.** The synonyms filter is leftmost greedy replacement, for every mapping whose keys the
scanner gets through. There is exactly one outcome of greedy replacement, so this determines the
output; how the filter buffers its input does not matter. -/
theorem C31_synonyms_greedy {E : Env} (hE : E.Lawful) (mappings : StringMap) (ignoreCase : Bool)
    (ignore : List Rune) (hs : ∀ m ∈ mappings, (E.scan { data := m.1 }).2 = none)
    {ts : TokenStream} {toks : List Token} (h : ts.Yields toks .eof) :
    let C : Compare := ⟨E.U, ignoreCase, ignore⟩
    let spec := Greedy C (C.dict (entries E mappings)) (wordLimit (entries E mappings)) toks
    ∃ out, spec out ∧ (∀ out', spec out' → out' = out) ∧
      (synonyms E mappings ignoreCase ignore ts).Yields out .eof := by
  intro C spec
  obtain ⟨out, hg⟩ := Greedy.total C (C.dict (entries E mappings)) (wordLimit (entries E mappings)) toks
  exact ⟨out, hg, fun out' h' => h'.unique hg, synonyms_yields hE hs h hg⟩

/-- **C31 (errors).** If the incoming stream fails, the synonyms filter reports that error. (It
delivers none of the tokens before the error; see C40.) -/
theorem C31_synonyms_error {E : Env} (hE : E.Lawful) (mappings : StringMap) (ignoreCase : Bool)
    (ignore : List Rune) (hs : ∀ m ∈ mappings, (E.scan { data := m.1 }).2 = none)
    {ts : TokenStream} {toks : List Token} {e : Err} (h : ts.Yields toks (.fail e)) :
    (synonyms E mappings ignoreCase ignore ts).Yields [] (.fail e) := by
  obtain ⟨out, hg⟩ := Greedy.total ⟨E.U, ignoreCase, ignore⟩
    ((Compare.mk E.U ignoreCase ignore).dict (entries E mappings))
    (wordLimit (entries E mappings)) toks
  exact synonyms_yields hE hs h hg

-- "we use Ruby on Rails, ok" with the synonym "ruby on rails"
example :
    let C : Compare := ⟨asciiUnicode, true, []⟩
    Greedy C (C.dict [([w "ruby", w " ", w "on", w " ", w "rails"], str "ror")]) 3
      [w "we", w " ", w "Ruby", w " ", w "on", w " ", w "Rails", w ",", w "ok"]
      [w "we", w " ", mkToken asciiUnicode (str "ror") true, w ",", w "ok"] := by
  intro C
  have bad : ∀ (toks : List Token) (k : Nat), Admissible 3 toks k →
      (∀ j ∈ List.range (toks.length + 1), 1 ≤ j →
        C.dict [([w "ruby", w " ", w "on", w " ", w "rails"], str "ror")] (C.spell (toks.take j)) = none) →
      C.dict [([w "ruby", w " ", w "on", w " ", w "rails"], str "ror")] (C.spell (toks.take k)) = none :=
    fun toks k hk hj => hj k (by have := hk.le; simp; omega) hk.pos
  refine .word (by decide +kernel) (fun k hk => bad _ k hk (by decide +kernel)) ?_
  refine .separator (by decide +kernel) ?_
  rw [show [mkToken asciiUnicode (str "ror") true, w ",", w "ok"] =
    canonTokens C.U (str "ror") ++ [w ",", w "ok"] by decide +kernel]
  refine .replace (k := 5) (canonical := str "ror") (out := [w ",", w "ok"]) (by decide +kernel) ?_ ?_
  · refine ⟨⟨by decide, by decide, by decide +kernel, by decide +kernel⟩, by decide +kernel, ?_, ?_⟩
    · intro j hj hlt hD
      have h1 : j ≤ 7 := hj.le
      have h2 : j = 6 ∨ j = 7 := by omega
      have h3 := hj.noPunct
      rcases h2 with rfl | rfl
      · exact absurd h3 (by decide +kernel)
      · exact absurd h3 (by decide +kernel)
    · intro j hj hlt
      have h1 := hj.pos
      have h2 : j = 1 ∨ j = 2 ∨ j = 3 ∨ j = 4 := by omega
      rcases h2 with rfl | rfl | rfl | rfl <;> decide +kernel
  · refine .separator (by decide +kernel) ?_
    refine .word (by decide +kernel) (fun k hk => bad _ k hk (by decide +kernel)) .nil

/-! ### C32, C35, C36 -/

/-- A part of the input of a synonyms filter: a token kept, or a span replaced. -/
inductive Part where
  | keep (t : Token)
  | swap (span : List Token) (canonical : Bytes)

/-- The tokens of a part in the input. -/
def Part.input : Part → List Token
  | .keep t => [t]
  | .swap span _ => span

/-- Parts and the output they give: a kept token is delivered identically; a replaced span gives no
token if its canonical is empty, and otherwise one lemma token with the canonical text. -/
inductive Delivers (U : Unicode) : List Part → List Token → Prop
  | nil : Delivers U [] []
  | keep {t : Token} {ps : List Part} {out : List Token} :
      Delivers U ps out → Delivers U (.keep t :: ps) (t :: out)
  | delete {span : List Token} {ps : List Part} {out : List Token} :
      Delivers U ps out → Delivers U (.swap span [] :: ps) out
  | swap {span : List Token} {c : Bytes} {t : Token} {ps : List Part} {out : List Token} :
      c ≠ [] → TokenFor U c true t → Delivers U ps out →
      Delivers U (.swap span c :: ps) (t :: out)

theorem words_take_le (toks : List Token) (k : Nat) :
    words (toks.take k) ≤ words (toks.take (k - 1)) + 1 := by
  cases k with
  | zero => simp
  | succ k =>
    simp only [Nat.add_one_sub_one, List.take_add_one, words_append]
    have : words toks[k]?.toList ≤ 1 := by
      refine Nat.le_trans (List.countP_le_length) ?_
      cases toks[k]? <;> simp
    omega

/-- What holds of each part, given what follows it. -/
def PartOK (C : Compare) (D : Dict) (m : Nat) (p : Part) (after : List Token) : Prop :=
  match p with
  | .keep t => t.IsWord → ∀ k, Admissible m (t :: after) k → D (C.spell ((t :: after).take k)) = none
  | .swap span c =>
    (∃ w rest, span = w :: rest ∧ w.IsWord) ∧ (∀ t ∈ span, t.punct = false) ∧ words span ≤ m ∧
    D (C.spell span) = some c ∧
    ∀ k, Admissible m (span ++ after) k → D (C.spell ((span ++ after).take k)) ≠ none →
      (C.spell ((span ++ after).take k)).length ≤ (C.spell span).length

theorem greedy_parts {C : Compare} {D : Dict} {m : Nat} {toks out : List Token}
    (h : Greedy C D m toks out) :
    ∃ ps : List Part, toks = ps.flatMap Part.input ∧ Delivers C.U ps out ∧
      ∀ pre p post, ps = pre ++ p :: post → PartOK C D m p (post.flatMap Part.input) := by
  induction h with
  | nil => exact ⟨[], rfl, .nil, by simp⟩
  | @separator t ts out hw _ ih =>
    obtain ⟨ps, rfl, h2, h3⟩ := ih
    refine ⟨.keep t :: ps, by simp [Part.input], .keep h2, ?_⟩
    intro pre p post heq
    cases pre with
    | nil =>
      simp only [List.nil_append, List.cons.injEq] at heq
      obtain ⟨rfl, rfl⟩ := heq
      exact fun hw' => absurd hw' hw
    | cons a pre =>
      simp only [List.cons_append, List.cons.injEq] at heq
      exact h3 pre p post heq.2
  | @replace t ts out k canonical hw hl _ ih =>
    obtain ⟨ps, h1, h2, h3⟩ := ih
    obtain ⟨hadm, hsyn, hlong, hfew⟩ := hl
    have hsplit : t :: ts = (t :: ts).take k ++ ps.flatMap Part.input := by
      rw [← h1, List.take_append_drop]
    refine ⟨.swap ((t :: ts).take k) canonical :: ps, by simpa [Part.input] using hsplit, ?_, ?_⟩
    · unfold canonTokens
      by_cases hc : canonical = []
      · simp only [hc, ↓reduceIte, List.nil_append]; exact .delete h2
      · simp only [hc, ↓reduceIte, List.cons_append, List.nil_append]
        exact .swap hc (mkToken_for _ _ _) h2
    · intro pre p post heq
      cases pre with
      | nil =>
        simp only [List.nil_append, List.cons.injEq] at heq
        obtain ⟨rfl, rfl⟩ := heq
        have hpos := hadm.pos
        obtain ⟨k', rfl⟩ : ∃ k', k = k' + 1 := ⟨k - 1, by omega⟩
        refine ⟨⟨t, ts.take k', rfl, hw⟩, hadm.noPunct, ?_, hsyn, ?_⟩
        · have := words_take_le (t :: ts) (k' + 1)
          have := hadm.limit
          omega
        · rw [← hsplit]
          intro j hj hD
          by_cases hlt : k' + 1 < j
          · rw [hlong j hj hlt hD]
          · have hjk : j ≤ k' + 1 := by omega
            have e1 : (t :: ts).take (k' + 1) = (t :: ts).take j ++ ((t :: ts).take (k' + 1)).drop j := by
              have := List.take_append_drop j ((t :: ts).take (k' + 1))
              rw [List.take_take, Nat.min_eq_left (by omega)] at this
              exact this.symm
            rw [e1, spell_append]
            simp
      | cons a pre =>
        simp only [List.cons_append, List.cons.injEq] at heq
        exact h3 pre p post heq.2
  | @word t ts out hw hno _ ih =>
    obtain ⟨ps, rfl, h2, h3⟩ := ih
    refine ⟨.keep t :: ps, by simp [Part.input], .keep h2, ?_⟩
    intro pre p post heq
    cases pre with
    | nil =>
      simp only [List.nil_append, List.cons.injEq] at heq
      obtain ⟨rfl, rfl⟩ := heq
      exact fun _ => hno
    | cons a pre =>
      simp only [List.cons_append, List.cons.injEq] at heq
      exact h3 pre p post heq.2

theorem synonyms_parts {E : Env} (hE : E.Lawful) (mappings : StringMap) (ignoreCase : Bool)
    (ignore : List Rune) (hs : ∀ m ∈ mappings, (E.scan { data := m.1 }).2 = none)
    {ts : TokenStream} {toks : List Token} (h : ts.Yields toks .eof) :
    let C : Compare := ⟨E.U, ignoreCase, ignore⟩
    ∃ (ps : List Part) (out : List Token), toks = ps.flatMap Part.input ∧
      (synonyms E mappings ignoreCase ignore ts).Yields out .eof ∧ Delivers E.U ps out ∧
      ∀ pre p post, ps = pre ++ p :: post → PartOK C (C.dict (entries E mappings))
        (wordLimit (entries E mappings)) p (post.flatMap Part.input) := by
  intro C
  obtain ⟨out, hg, -, hy⟩ := C31_synonyms_greedy hE mappings ignoreCase ignore hs h
  obtain ⟨ps, h1, h2, h3⟩ := greedy_parts hg
  exact ⟨ps, out, h1, hy, h2, h3⟩

/-- **C32.** The input is cut into parts, each delivered identically or replaced. Every replaced span
begins with a word, contains no punctuation, has at most as many words as the longest synonym, and
its normalized text is that of a synonym of the mapping with the canonical used. -/
theorem C32_replaced_spans {E : Env} (hE : E.Lawful) (mappings : StringMap) (ignoreCase : Bool)
    (ignore : List Rune) (hs : ∀ m ∈ mappings, (E.scan { data := m.1 }).2 = none)
    {ts : TokenStream} {toks : List Token} (h : ts.Yields toks .eof) :
    let C : Compare := ⟨E.U, ignoreCase, ignore⟩
    ∃ (ps : List Part) (out : List Token), toks = ps.flatMap Part.input ∧
      (synonyms E mappings ignoreCase ignore ts).Yields out .eof ∧ Delivers E.U ps out ∧
      ∀ span canonical, Part.swap span canonical ∈ ps →
        (∃ w rest, span = w :: rest ∧ w.IsWord) ∧
        (∀ t ∈ span, t.punct = false) ∧
        (words span ≤ 1 ∨ ∃ a ∈ entries E mappings, words span ≤ words a.1) ∧
        ∃ key, (key, canonical) ∈ mappings ∧
          ∃ s ∈ listed (stringTokens E key), C.spell s = C.spell span := by
  intro C
  obtain ⟨ps, out, h1, hy, h2, h3⟩ := synonyms_parts hE mappings ignoreCase ignore hs h
  refine ⟨ps, out, h1, hy, h2, fun span c hmem => ?_⟩
  obtain ⟨pre, post, heq⟩ := List.append_of_mem hmem
  obtain ⟨g1, g2, g3, g4, -⟩ := h3 pre _ post heq
  refine ⟨g1, g2, ?_, ?_⟩
  · rcases foldl_max_mem ((entries E mappings).map fun a => words a.1) 1 with hm | hm
    · left; rw [wordLimit, hm] at g3; exact g3
    · right
      obtain ⟨a, ha, hw⟩ := List.mem_map.mp hm
      exact ⟨a, ha, by rw [hw]; exact g3⟩
  · obtain ⟨a, ha, hsp, rfl⟩ := dict_some g4
    simp only [entries, List.mem_flatMap, List.mem_map] at ha
    obtain ⟨m, hm, s, hs', rfl⟩ := ha
    exact ⟨m.1, hm, s, hs', hsp⟩

/-- There is punctuation on one side of the place between two sequences of tokens, or it is the start or
the end. -/
def PunctBetween (xs ys : List Token) : Prop :=
  xs = [] ∨ ys = [] ∨ (∃ t, xs.getLast? = some t ∧ t.punct = true) ∨ ∃ t, ys.head? = some t ∧ t.punct = true

/-- No synonym reaches from a word of one sequence of tokens into the next: what starts there and ends in the
next is no synonym, or is one already without the part in the next (which is then ignored spaces). -/
def NoCross (C : Compare) (D : Dict) (xs ys : List Token) : Prop :=
  ∀ p t u w z, xs = p ++ t :: u → ys = w ++ z → t.IsWord → w ≠ [] → (∀ x ∈ t :: u ++ w, x.punct = false) →
    D (C.spell (t :: u ++ w)) = none ∨ C.spell (t :: u ++ w) = C.spell (t :: u)

/-- Synonyms do not reach across punctuation. -/
theorem PunctBetween.noCross {C : Compare} {D : Dict} {xs ys : List Token} (h : PunctBetween xs ys) :
    NoCross C D xs ys := by
  rintro p t u w z rfl rfl ht hw hp
  rcases h with h | h | ⟨x, h, hx⟩ | ⟨x, h, hx⟩
  · simp_all
  · simp_all
  · rw [List.getLast?_append, List.getLast?_eq_some_getLast (by simp), Option.some_or, Option.some.injEq] at h
    rw [hp x (List.mem_append_left _ (h ▸ List.getLast_mem _))] at hx
    cases hx
  · obtain ⟨y, w, rfl⟩ := List.exists_cons_of_ne_nil hw
    simp only [List.cons_append, List.head?_cons, Option.some.injEq] at h
    rw [hp x (by simp [h])] at hx
    cases hx

section
variable {C : Compare} {D : Dict}

theorem NoCross.suffix {s p ys : List Token} (h : NoCross C D (p ++ s) ys) : NoCross C D s ys := by
  rintro q t u w z rfl hy ht hw hp
  exact h (p ++ q) t u w z (by simp) hy ht hw hp

theorem Admissible.append_iff {m : Nat} {xs ys : List Token} {k : Nat} (hk : k ≤ xs.length) :
    Admissible m (xs ++ ys) k ↔ Admissible m xs k := by
  have e1 : (xs ++ ys).take k = xs.take k := List.take_append_of_le_length hk
  have e2 : (xs ++ ys).take (k - 1) = xs.take (k - 1) := List.take_append_of_le_length (by omega)
  constructor
  · intro h
    exact ⟨h.pos, hk, e1 ▸ h.noPunct, e2 ▸ h.limit⟩
  · intro h
    exact ⟨h.pos, by simp; omega, e1.symm ▸ h.noPunct, e2.symm ▸ h.limit⟩

/-- A longer prefix than the first part is no synonym, or is spelled like the first part. -/
theorem NoCross.none {m : Nat} {t : Token} {ts ys : List Token} (h : NoCross C D (t :: ts) ys) (ht : t.IsWord)
    {j : Nat} (hj : Admissible m (t :: ts ++ ys) j) (hlt : (t :: ts).length < j) :
    (D (C.spell ((t :: ts ++ ys).take j)) = none ∨ C.spell ((t :: ts ++ ys).take j) = C.spell (t :: ts)) ∧
    Admissible m (t :: ts) (t :: ts).length := by
  have hle := hj.le
  have hp := hj.noPunct
  have hl := hj.limit
  simp only [List.length_append] at hle
  rw [List.take_append, List.take_of_length_le (by omega)] at hp ⊢
  refine ⟨h [] t ts (ys.take (j - (t :: ts).length)) (ys.drop (j - (t :: ts).length)) rfl (by simp) ht ?_ hp,
    ⟨by simp, Nat.le_refl _, ?_, ?_⟩⟩
  · intro h0
    have := congrArg List.length h0
    simp only [List.length_take, List.length_nil] at this
    omega
  · intro x hx
    rw [List.take_of_length_le (Nat.le_refl _)] at hx
    exact hp x (List.mem_append_left _ hx)
  · refine Nat.lt_of_le_of_lt ?_ hl
    have e : (t :: ts ++ ys).take (j - 1) = (t :: ts) ++ ys.take (j - 1 - (t :: ts).length) := by
      rw [List.take_append, List.take_of_length_le (by omega)]
    rw [e, words, words, List.countP_append]
    exact Nat.le_trans (List.Sublist.countP_le (List.take_sublist _ _)) (Nat.le_add_right _ _)

theorem Greedy.append {m : Nat} {xs ys A B : List Token} (hx : Greedy C D m xs A)
    (hy : Greedy C D m ys B) (h : NoCross C D xs ys) : Greedy C D m (xs ++ ys) (A ++ B) := by
  induction hx with
  | nil => exact hy
  | separator hw _ ih => exact .separator hw (ih (h.suffix (p := [_])))
  | @replace t ts out k c hw hl _ ih =>
    have hle := hl.mem.le
    have hd : (t :: ts ++ ys).drop k = (t :: ts).drop k ++ ys := List.drop_append_of_le_length hle
    have ek : (t :: ts ++ ys).take k = (t :: ts).take k := List.take_append_of_le_length hle
    show Greedy C D m (t :: (ts ++ ys)) _
    rw [List.append_assoc]
    refine .replace hw ⟨(Admissible.append_iff (xs := t :: ts) hle).mpr hl.mem, ?_, ?_, ?_⟩ ?_
    · rw [← List.cons_append, ek]; exact hl.isSyn
    · intro j hj hkj hne
      rw [← List.cons_append] at hj hne ⊢
      by_cases hjl : j ≤ (t :: ts).length
      · rw [List.take_append_of_le_length hjl] at hne ⊢
        rw [ek]
        exact hl.longest j ((Admissible.append_iff hjl).mp hj) hkj hne
      · obtain ⟨h1 | h1, h2⟩ := h.none hw hj (by omega)
        · exact absurd h1 hne
        · rw [h1] at hne ⊢
          rw [ek]
          rcases Nat.lt_or_ge k (t :: ts).length with hlt | hge
          · have := hl.longest _ h2 hlt
            rw [List.take_of_length_le (Nat.le_refl _)] at this
            exact this hne
          · rw [List.take_of_length_le hge]
    · intro j hj hkj
      rw [← List.cons_append] at hj ⊢
      have hjl : j ≤ (t :: ts).length := by omega
      rw [List.take_append_of_le_length hjl, ek]
      exact hl.fewest j ((Admissible.append_iff hjl).mp hj) hkj
    · rw [← List.cons_append, hd]
      refine ih ?_
      rw [← List.take_append_drop k (t :: ts)] at h
      exact h.suffix
  | @word t ts out hw hno _ ih =>
    show Greedy C D m (t :: (ts ++ ys)) _
    refine .word hw (fun k hk => ?_) (ih (h.suffix (p := [_])))
    rw [← List.cons_append] at hk ⊢
    by_cases hkl : k ≤ (t :: ts).length
    · rw [List.take_append_of_le_length hkl]
      exact hno k ((Admissible.append_iff hkl).mp hk)
    · obtain ⟨h1 | h1, h2⟩ := h.none hw hk (by omega)
      · exact h1
      · have := hno _ h2
        rw [List.take_of_length_le (Nat.le_refl _)] at this
        rw [h1, this]

end

/-- **C32 (in parts).** If no synonym reaches from the first part of a text into the second, as is the case
if there is punctuation between them, the parts are filtered independently. -/
theorem C32_split {E : Env} (hE : E.Lawful) (mappings : StringMap) (ignoreCase : Bool)
    (ignore : List Rune) (hs : ∀ m ∈ mappings, (E.scan { data := m.1 }).2 = none)
    {ts ts1 ts2 : TokenStream} {xs ys A B : List Token} (h : ts.Yields (xs ++ ys) .eof)
    (h1 : ts1.Yields xs .eof) (h2 : ts2.Yields ys .eof)
    (hp : PunctBetween xs ys ∨
      NoCross ⟨E.U, ignoreCase, ignore⟩ ((Compare.mk E.U ignoreCase ignore).dict (entries E mappings)) xs ys)
    (hA : (synonyms E mappings ignoreCase ignore ts1).Yields A .eof)
    (hB : (synonyms E mappings ignoreCase ignore ts2).Yields B .eof) :
    (synonyms E mappings ignoreCase ignore ts).Yields (A ++ B) .eof := by
  obtain ⟨a, ga, -, ya⟩ := C31_synonyms_greedy hE mappings ignoreCase ignore hs h1
  obtain ⟨b, gb, -, yb⟩ := C31_synonyms_greedy hE mappings ignoreCase ignore hs h2
  rw [(hA.unique ya).1, (hB.unique yb).1]
  have := synonyms_yields hE hs h (ga.append gb (hp.elim (·.noCross) id))
  simpa using this

/-- Non-vacuity: with "a b" as a synonym, "a, b" is not replaced: the comma is punctuation. -/
example : PunctBetween [w "a", ⟨str ",", true, false, false⟩] [w "b"] :=
  Or.inr (.inr (.inl ⟨_, rfl, rfl⟩))

/-- **C35.** Wherever the scan stands at a word and the text from there spells a synonym — within the
word limit and without punctuation — a span is replaced there, and it spells at least as much. -/
theorem C35_synonyms_recognised {E : Env} (hE : E.Lawful) (mappings : StringMap) (ignoreCase : Bool)
    (ignore : List Rune) (hs : ∀ m ∈ mappings, (E.scan { data := m.1 }).2 = none)
    {ts : TokenStream} {toks : List Token} (h : ts.Yields toks .eof) :
    let C : Compare := ⟨E.U, ignoreCase, ignore⟩
    ∃ (ps : List Part) (out : List Token), toks = ps.flatMap Part.input ∧
      (synonyms E mappings ignoreCase ignore ts).Yields out .eof ∧ Delivers E.U ps out ∧
      ∀ pre p post, ps = pre ++ p :: post → ∀ w rest, p.input = w :: rest → w.IsWord →
        ∀ a ∈ entries E mappings, ∀ k,
          Admissible (wordLimit (entries E mappings)) ((p :: post).flatMap Part.input) k →
          C.spell (((p :: post).flatMap Part.input).take k) = C.spell a.1 →
          ∃ span canonical, p = .swap span canonical ∧ (C.spell a.1).length ≤ (C.spell span).length := by
  intro C
  obtain ⟨ps, out, h1, hy, h2, h3⟩ := synonyms_parts hE mappings ignoreCase ignore hs h
  refine ⟨ps, out, h1, hy, h2, fun pre p post heq w rest hin hw a ha k hk hsp => ?_⟩
  have hok := h3 pre p post heq
  have hD : C.dict (entries E mappings) (C.spell a.1) ≠ none := by
    intro hn; exact dict_none hn a ha rfl
  cases p with
  | keep t =>
    simp only [Part.input, List.cons.injEq] at hin
    obtain ⟨rfl, -⟩ := hin
    have := hok hw k hk
    rw [List.flatMap_cons] at hsp
    simp only [Part.input, List.cons_append, List.nil_append] at hsp
    rw [hsp] at this
    exact absurd this hD
  | swap span c =>
    refine ⟨span, c, rfl, ?_⟩
    rw [List.flatMap_cons] at hsp hk
    simp only [Part.input] at hsp hk
    have := hok.2.2.2.2 k hk (by rw [hsp]; exact hD)
    rwa [hsp] at this

/-- **C36.** A span whose canonical is empty is deleted; any other is replaced by exactly one lemma
token with the canonical text: what follows a synonym at the start of a stream. -/
theorem C36_empty_canonical {E : Env} (hE : E.Lawful) (mappings : StringMap) (ignoreCase : Bool)
    (ignore : List Rune) (hs : ∀ m ∈ mappings, (E.scan { data := m.1 }).2 = none)
    {ts : TokenStream} {t : Token} {rest : List Token} {k : Nat} {canonical : Bytes}
    (h : ts.Yields (t :: rest) .eof) (ht : t.IsWord) :
    let C : Compare := ⟨E.U, ignoreCase, ignore⟩
    Longest C (C.dict (entries E mappings)) (Admissible (wordLimit (entries E mappings)) (t :: rest))
      (t :: rest) k canonical →
    ∃ out, (synonyms E mappings ignoreCase ignore
        (listStream ((t :: rest).drop k) .eof)).Yields out .eof ∧
      (canonical = [] → (synonyms E mappings ignoreCase ignore ts).Yields out .eof) ∧
      (canonical ≠ [] → ∃ c, TokenFor E.U canonical true c ∧
        (synonyms E mappings ignoreCase ignore ts).Yields (c :: out) .eof) := by
  intro C hl
  obtain ⟨out, hg⟩ := Greedy.total C (C.dict (entries E mappings)) (wordLimit (entries E mappings))
    ((t :: rest).drop k)
  have hfull := synonyms_yields hE hs h (.replace ht hl hg)
  simp only [↓reduceIte] at hfull
  refine ⟨out, synonyms_yields hE hs (listStream_yields _ _) hg, ?_, ?_⟩
  · intro hc
    simpa [canonTokens, hc] using hfull
  · intro hc
    refine ⟨_, mkToken_for _ _ _, ?_⟩
    simpa [canonTokens, hc] using hfull

example :
    let C : Compare := ⟨asciiUnicode, true, []⟩
    Longest C (C.dict [([w "um"], [])]) (Admissible 1 [w "Um", w " ", w "yes"])
      [w "Um", w " ", w "yes"] 1 [] := by
  intro C
  refine ⟨⟨by decide, by decide, by decide +kernel, by decide +kernel⟩, by decide +kernel, ?_, ?_⟩
  · intro j hj hlt
    have h1 := hj.limit
    have h2 : j = 2 ∨ j = 3 := by have : j ≤ 3 := hj.le; omega
    rcases h2 with rfl | rfl
    · exact absurd h1 (by decide +kernel)
    · exact absurd h1 (by decide +kernel)
  · intro j hj hlt
    have := hj.pos
    omega

/-! ### C33 -/

/-- **C33.** If no run of the text is a synonym, the filter delivers exactly the incoming tokens. -/
theorem C33_no_synonym {E : Env} (hE : E.Lawful) (mappings : StringMap) (ignoreCase : Bool)
    (ignore : List Rune) (hs : ∀ m ∈ mappings, (E.scan { data := m.1 }).2 = none)
    {ts : TokenStream} {toks : List Token} (h : ts.Yields toks .eof)
    (hno : ∀ pre run post, toks = pre ++ run ++ post → run ≠ [] → ∀ a ∈ entries E mappings,
      (Compare.mk E.U ignoreCase ignore).spell run ≠ (Compare.mk E.U ignoreCase ignore).spell a.1) :
    (synonyms E mappings ignoreCase ignore ts).Yields toks .eof := by
  have hg : Greedy ⟨E.U, ignoreCase, ignore⟩
      ((Compare.mk E.U ignoreCase ignore).dict (entries E mappings))
      (wordLimit (entries E mappings)) toks toks := by
    clear h
    induction toks with
    | nil => exact .nil
    | cons t ts ih =>
      have ih' := ih (fun pre run post heq => hno (t :: pre) run post (by rw [heq]; rfl))
      by_cases hw : t.IsWord
      · refine .word hw (fun k hk => ?_) ih'
        cases hD : (Compare.mk E.U ignoreCase ignore).dict (entries E mappings)
            ((Compare.mk E.U ignoreCase ignore).spell ((t :: ts).take k)) with
        | none => rfl
        | some c =>
          obtain ⟨a, ha, hsp, -⟩ := dict_some hD
          have hpos := hk.pos
          refine absurd hsp.symm (hno [] ((t :: ts).take k) ((t :: ts).drop k) ?_ ?_ a ha)
          · simp
          · cases k with
            | zero => omega
            | succ k => simp
      · exact .separator hw ih'
  exact synonyms_yields hE hs h hg

/-- **C33 (empty mapping).** -/
theorem C33_empty_mapping {E : Env} (hE : E.Lawful) (ignoreCase : Bool) (ignore : List Rune)
    {ts : TokenStream} {toks : List Token} (h : ts.Yields toks .eof) :
    (synonyms E [] ignoreCase ignore ts).Yields toks .eof :=
  C33_no_synonym hE [] ignoreCase ignore (by simp) h (by simp [entries])

/-! ### C34 -/

theorem search_full {U : Unicode} {trie : RuneTrie} {run : List Token} {c : Bytes}
    (hne : run ≠ []) (h : trie.root.get ((trie.compare U).spell run) = some c) :
    (trie.searchCanonical U run).found = true ∧ (trie.searchCanonical U run).canonical = c := by
  have hs := search_spec U trie run
  have hlen : 1 ≤ run.length := by
    cases run with
    | nil => exact absurd rfl hne
    | cons _ _ => simp
  unfold SearchSpec at hs
  cases hf : (trie.searchCanonical U run).found
  · simp only [hf, Bool.false_eq_true, ↓reduceIte] at hs
    have := hs.2 run.length hlen (Nat.le_refl _)
    rw [List.take_length, h] at this
    cases this
  · simp only [hf, ↓reduceIte] at hs
    refine ⟨rfl, ?_⟩
    obtain ⟨⟨h1, h2⟩, h3, h4, h5⟩ := hs
    by_cases hlt : (trie.searchCanonical U run).consumed < run.length
    · have := h4 run.length ⟨hlen, Nat.le_refl _⟩ hlt (by rw [List.take_length, h]; simp)
      rw [List.take_length] at this
      rw [← this, h] at h3
      exact (Option.some.inj h3).symm
    · rw [List.take_of_length_le (by omega), h] at h3
      exact (Option.some.inj h3).symm

/-- The runes of a run of tokens. -/
def runRunes (toks : List Token) : List Rune := toks.flatMap fun t => runes t.value

/-- **C34.** If a run of tokens spells a synonym, any run whose text has the same lower case (with
`ignoreCase`), or differs only in ignored characters, or both, gets the same canonical. -/
theorem C34_insensitive (U : Unicode) (ignoreCase : Bool) (ignore : List Rune)
    (adds : List (List Token × Bytes)) (a b : List Token) (ha : a ≠ []) (hb : b ≠ [])
    (hsyn : (Compare.mk U ignoreCase ignore).dict adds ((Compare.mk U ignoreCase ignore).spell a) ≠ none)
    (hsame : (ignoreCase = true ∧
        ((runRunes a).map U.toLower).filter (· ∉ ignore) =
        ((runRunes b).map U.toLower).filter (· ∉ ignore)) ∨
      (ignoreCase = false ∧ (runRunes a).filter (· ∉ ignore) = (runRunes b).filter (· ∉ ignore))) :
    let trie := adds.foldl (fun t a => t.add U a.1 a.2) (RuneTrie.new ignoreCase ignore)
    (trie.searchCanonical U a).found = true ∧ (trie.searchCanonical U b).found = true ∧
    (trie.searchCanonical U a).canonical = (trie.searchCanonical U b).canonical := by
  intro trie
  have hspell : (Compare.mk U ignoreCase ignore).spell a = (Compare.mk U ignoreCase ignore).spell b := by
    rcases hsame with ⟨rfl, h⟩ | ⟨rfl, h⟩
    · exact h
    · have hid : (Compare.mk U false ignore).fold = id := rfl
      simp only [Compare.spell, Compare.normal, hid, List.map_id]
      exact h
  have hC : trie.compare U = ⟨U, ignoreCase, ignore⟩ :=
    addAll_compare U (RuneTrie.new ignoreCase ignore) adds
  have hD : trie.root.get = (Compare.mk U ignoreCase ignore).dict adds := by
    funext q; exact new_addAll_get U ignoreCase ignore adds q
  obtain ⟨c, hc⟩ := Option.ne_none_iff_exists'.mp hsyn
  obtain ⟨h1, h2⟩ := search_full (U := U) (trie := trie) ha (by rw [hC, hD]; exact hc)
  obtain ⟨h3, h4⟩ := search_full (U := U) (trie := trie) hb (by rw [hC, hD, ← hspell]; exact hc)
  exact ⟨h1, h3, h2.trans h4.symm⟩

example : ((runRunes [w "Node", w ".", w "JS"]).map asciiUnicode.toLower).filter (· ∉ [0x2E]) =
    ((runRunes [w "nodejs"]).map asciiUnicode.toLower).filter (· ∉ [0x2E]) := by decide +kernel

/-! ### C37 -/

/-- **C37 (the pieces).** The pieces of a key contain no comma token and, joined by comma tokens, give
the key back; there is only one way to do that. -/
theorem C37_pieces (comma : Token) (hc : comma.value = [0x2C]) (toks : List Token)
    (h : ∀ t ∈ toks, t.value = [0x2C] → t = comma) :
    (∀ p ∈ pieces toks, ∀ t ∈ p, t.value ≠ [0x2C]) ∧
    List.intercalate [comma] (pieces toks) = toks := by
  induction toks with
  | nil => simp [pieces, List.intercalate]
  | cons t ts ih =>
    obtain ⟨h1, h2⟩ := ih (fun x hx => h x (by simp [hx]))
    obtain ⟨p, ps, hp⟩ := pieces_ne_nil ts
    rw [hp] at h1 h2
    by_cases hv : t.value = [0x2C]
    · have ht := h t (by simp) hv
      subst ht
      simp only [pieces, hv, ↓reduceIte, hp]
      refine ⟨?_, ?_⟩
      · intro q hq
        rcases List.mem_cons.mp hq with rfl | hq
        · simp
        · exact h1 q hq
      · simp only [List.intercalate, List.intersperse, List.flatten_cons, List.nil_append] at h2 ⊢
        rw [h2]; rfl
    · simp only [pieces, hv, ↓reduceIte, hp]
      refine ⟨?_, ?_⟩
      · intro q hq
        rcases List.mem_cons.mp hq with rfl | hq
        · intro x hx
          rcases List.mem_cons.mp hx with rfl | hx
          · exact hv
          · exact h1 p (by simp) x hx
        · exact h1 q (by simp [hq])
      · cases ps with
        | nil => simpa [List.intercalate] using h2
        | cons p' ps' =>
          simp only [List.intercalate, List.intersperse, List.flatten_cons, List.cons_append] at h2 ⊢
          rw [h2]

/-- **C37.** `build` on a mapping makes the dictionary of the synonyms listed in the keys: the pieces
between comma tokens, each without the spaces at its start. A run of tokens (searched as a whole)
gets the canonical of an entry exactly if it spells one of that entry's listed synonyms and no later
one; nothing else is a synonym. -/
theorem C37_comma_separated {E : Env} (hE : E.Lawful) (mappings : StringMap) (ignoreCase : Bool)
    (ignore : List Rune) (hs : ∀ m ∈ mappings, (E.scan { data := m.1 }).2 = none) :
    let C : Compare := ⟨E.U, ignoreCase, ignore⟩
    ∃ f, build E mappings ignoreCase ignore = Go.ret (.ok f) ∧
      (∀ run, run ≠ [] → ∀ pre key canonical post, mappings = pre ++ (key, canonical) :: post →
        (∃ piece ∈ pieces (stringTokens E key), C.spell (piece.dropWhile Token.space) = C.spell run) →
        (∀ m ∈ post, ∀ piece ∈ pieces (stringTokens E m.1),
          C.spell (piece.dropWhile Token.space) ≠ C.spell run) →
        (f.trie.searchCanonical E.U run).found = true ∧
        (f.trie.searchCanonical E.U run).canonical = canonical) ∧
      (∀ run, (f.trie.searchCanonical E.U run).found = true →
        ∃ k, ∃ m ∈ mappings, ∃ piece ∈ pieces (stringTokens E m.1),
          C.spell (piece.dropWhile Token.space) = C.spell (run.take k)) ∧
      (∀ m ∈ mappings, ∀ piece ∈ pieces (stringTokens E m.1),
        words (piece.dropWhile Token.space) ≤ f.maxWords) := by
  intro C
  have hC : (builtFilter E mappings ignoreCase ignore).trie.compare E.U = C :=
    builtFilter_compare E mappings ignoreCase ignore
  have hD : (builtFilter E mappings ignoreCase ignore).trie.root.get = C.dict (entries E mappings) :=
    builtFilter_get E mappings ignoreCase ignore
  refine ⟨builtFilter E mappings ignoreCase ignore, build_ok hE _ _ _ hs, ?_, ?_, ?_⟩
  · intro run hne pre key canonical post heq hin hlater
    apply search_full hne
    rw [hC, hD]
    obtain ⟨piece, hp, hsp⟩ := hin
    have hmem : (piece.dropWhile Token.space, canonical) ∈
        entries E (pre ++ [(key, canonical)]) := by
      simp only [entries, listed, List.mem_flatMap, List.mem_map]
      exact ⟨(key, canonical), by simp, _, ⟨piece, hp, rfl⟩, rfl⟩
    have hnone : (entries E post).reverse.find? (fun a => decide (C.spell a.1 = C.spell run)) = none := by
      simp only [List.find?_eq_none, List.mem_reverse, decide_eq_true_eq]
      intro a ha
      simp only [entries, listed, List.mem_flatMap, List.mem_map] at ha
      obtain ⟨m, hm, s, ⟨piece', hp', rfl⟩, rfl⟩ := ha
      exact hlater m hm piece' hp'
    have hentries : entries E mappings = entries E pre ++
        ((listed (stringTokens E key)).map fun s => (s, canonical)) ++ entries E post := by
      rw [heq]; simp [entries]
    unfold Compare.dict
    rw [hentries]
    simp only [List.reverse_append, List.find?_append, hnone, Option.none_or]
    have hkey : ∃ a, ((listed (stringTokens E key)).map fun s => (s, canonical)).reverse.find?
        (fun a => decide (C.spell a.1 = C.spell run)) = some a := by
      apply Option.isSome_iff_exists.mp
      rw [List.find?_isSome]
      refine ⟨(piece.dropWhile Token.space, canonical), ?_, by simpa using hsp⟩
      simp only [List.mem_reverse, List.mem_map]
      exact ⟨_, List.mem_map_of_mem hp, rfl⟩
    obtain ⟨a, ha⟩ := hkey
    rw [ha]
    have := List.mem_of_find?_eq_some ha
    simp only [List.mem_reverse, List.mem_map] at this
    obtain ⟨s, -, rfl⟩ := this
    rfl
  · intro run hf
    have hspec := search_spec E.U (builtFilter E mappings ignoreCase ignore).trie run
    unfold SearchSpec at hspec
    rw [if_pos hf, hC, hD] at hspec
    obtain ⟨a, ha, hsp, -⟩ := dict_some hspec.isSyn
    simp only [entries, listed, List.mem_flatMap, List.mem_map] at ha
    obtain ⟨m, hm, s, ⟨piece, hp, rfl⟩, rfl⟩ := ha
    exact ⟨_, m, hm, piece, hp, hsp⟩
  · intro m hm piece hp
    rw [builtFilter_maxWords]
    have : (piece.dropWhile Token.space, m.2) ∈ entries E mappings := by
      simp only [entries, listed, List.mem_flatMap, List.mem_map]
      exact ⟨m, hm, _, ⟨piece, hp, rfl⟩, rfl⟩
    exact wordLimit_ge this

-- "ror,  Ruby on Rails" lists two synonyms
example : listed (stringTokens sampleEnv (str " ror,  Ruby on Rails")) =
    [[w "ror"], [w "Ruby", w " ", w "on", w " ", w "Rails"]] := by decide +kernel

/-! ### C38 -/

/-- No two entries claim the same normalized synonym for different canonicals. -/
def Unambiguous (C : Compare) (adds : List (List Token × Bytes)) : Prop :=
  ∀ a ∈ adds, ∀ b ∈ adds, C.spell a.1 = C.spell b.1 → a.2 = b.2

theorem dict_perm {C : Compare} {adds adds' : List (List Token × Bytes)} (hu : Unambiguous C adds)
    (hp : adds.Perm adds') : C.dict adds = C.dict adds' := by
  funext q
  cases h : C.dict adds q with
  | none =>
    cases h' : C.dict adds' q with
    | none => rfl
    | some c' =>
      obtain ⟨a, ha, hsp, -⟩ := dict_some h'
      exact absurd hsp (dict_none h a (hp.symm.subset ha))
  | some c =>
    obtain ⟨a, ha, hsp, rfl⟩ := dict_some h
    cases h' : C.dict adds' q with
    | none => exact absurd hsp (dict_none h' a (hp.subset ha))
    | some c' =>
      obtain ⟨b, hb, hsp', rfl⟩ := dict_some h'
      exact congrArg some (hu a ha b (hp.symm.subset hb) (hsp.trans hsp'.symm))

theorem foldl_max_perm {l l' : List Nat} (h : l.Perm l') (m : Nat) : l.foldl max m = l'.foldl max m := by
  induction h generalizing m with
  | nil => rfl
  | cons x _ ih => exact ih _
  | swap x y l => simp only [List.foldl_cons]; congr 1; omega
  | trans _ _ ih1 ih2 => exact (ih1 m).trans (ih2 m)

theorem entries_perm (E : Env) {m m' : StringMap} (h : m.Perm m') :
    (entries E m).Perm (entries E m') := h.flatMap_right _

/-- **C38.** Whatever order Go iterates the map in, the filter is the same: on every stream it
delivers the same tokens and the same end, provided no two entries claim the same normalized synonym
for different canonicals. -/
theorem C38_iteration_order {E : Env} (hE : E.Lawful) (mappings mappings' : StringMap)
    (horder : mappings.Perm mappings') (ignoreCase : Bool) (ignore : List Rune)
    (hs : ∀ m ∈ mappings, (E.scan { data := m.1 }).2 = none)
    (hu : Unambiguous ⟨E.U, ignoreCase, ignore⟩ (entries E mappings))
    {ts : TokenStream} {toks : List Token} {e : End} (h : ts.Yields toks e) :
    ∃ out, (synonyms E mappings ignoreCase ignore ts).Yields out e ∧
      (synonyms E mappings' ignoreCase ignore ts).Yields out e := by
  obtain ⟨out, hg⟩ := Greedy.total ⟨E.U, ignoreCase, ignore⟩
    ((Compare.mk E.U ignoreCase ignore).dict (entries E mappings))
    (wordLimit (entries E mappings)) toks
  refine ⟨_, synonyms_yields hE hs h hg, synonyms_yields hE
    (fun m hm => hs m (horder.symm.subset hm)) h ?_⟩
  rw [← dict_perm hu (entries_perm E horder)]
  have : wordLimit (entries E mappings') = wordLimit (entries E mappings) :=
    foldl_max_perm ((entries_perm E horder).symm.map _) 1
  rw [this]
  exact hg

/-- The proviso of C38 is needed: with a conflict, two orders give two results. -/
theorem C38_conflict_depends_on_order :
    ∃ (E : Env) (mappings mappings' : StringMap) (toks out out' : List Token),
      E.Lawful ∧ mappings.Perm mappings' ∧ out ≠ out' ∧
      (synonyms E mappings true [] (listStream toks .eof)).Yields out .eof ∧
      (synonyms E mappings' true [] (listStream toks .eof)).Yields out' .eof := by
  have hgr : ∀ c c', Greedy ⟨asciiUnicode, true, []⟩
      ((Compare.mk asciiUnicode true []).dict [([w "a"], c), ([w "A"], c')]) 1 [w "a"]
      (canonTokens asciiUnicode c' ++ []) := by
    intro c c'
    refine .replace (k := 1) (by decide +kernel) ⟨?_, ?_, ?_, ?_⟩ .nil
    · exact ⟨by decide, by decide, by decide +kernel, by decide +kernel⟩
    · have h1 := (C30_last_added_wins ⟨asciiUnicode, true, []⟩).2 [([w "a"], c)] [w "A"] c'
        ((Compare.mk asciiUnicode true []).spell ([w "a"].take 1))
      have h2 : (Compare.mk asciiUnicode true []).spell ([w "a"].take 1) =
        (Compare.mk asciiUnicode true []).spell [w "A"] := by decide +kernel
      rw [if_pos h2] at h1
      exact h1
    · intro j hj hlt
      have : j ≤ 1 := hj.le
      omega
    · intro j hj hlt
      have := hj.pos
      omega
  have hent1 : entries sampleEnv [(str "a", str "1"), (str "A", str "2")] =
      [([w "a"], str "1"), ([w "A"], str "2")] := by decide +kernel
  have hent2 : entries sampleEnv [(str "A", str "2"), (str "a", str "1")] =
      [([w "A"], str "2"), ([w "a"], str "1")] := by decide +kernel
  have hgr' : ∀ c c', Greedy ⟨asciiUnicode, true, []⟩
      ((Compare.mk asciiUnicode true []).dict [([w "A"], c), ([w "a"], c')]) 1 [w "a"]
      (canonTokens asciiUnicode c' ++ []) := by
    intro c c'
    refine .replace (k := 1) (by decide +kernel) ⟨?_, ?_, ?_, ?_⟩ .nil
    · exact ⟨by decide, by decide, by decide +kernel, by decide +kernel⟩
    · have h1 := (C30_last_added_wins ⟨asciiUnicode, true, []⟩).2 [([w "A"], c)] [w "a"] c'
        ((Compare.mk asciiUnicode true []).spell ([w "a"].take 1))
      rw [if_pos (by rfl)] at h1
      exact h1
    · intro j hj hlt
      have : j ≤ 1 := hj.le
      omega
    · intro j hj hlt
      have := hj.pos
      omega
  refine ⟨sampleEnv, [(str "a", str "1"), (str "A", str "2")], [(str "A", str "2"), (str "a", str "1")],
    [w "a"], canonTokens asciiUnicode (str "2") ++ [], canonTokens asciiUnicode (str "1") ++ [],
    sampleEnv_lawful, List.Perm.swap _ _ _, by decide +kernel, ?_, ?_⟩
  · refine synonyms_yields (e := .eof) sampleEnv_lawful (fun _ _ => rfl) (listStream_yields _ _) ?_
    rw [hent1, show wordLimit [([w "a"], str "1"), ([w "A"], str "2")] = 1 by decide +kernel]
    exact hgr (str "1") (str "2")
  · refine synonyms_yields (e := .eof) sampleEnv_lawful (fun _ _ => rfl) (listStream_yields _ _) ?_
    rw [hent2, show wordLimit [([w "A"], str "2"), ([w "a"], str "1")] = 1 by decide +kernel]
    exact hgr' (str "2") (str "1")

example : Unambiguous ⟨asciiUnicode, true, []⟩
    (entries sampleEnv [(str "ror, ruby on rails", str "ruby-on-rails"), (str "js", str "javascript")]) := by
  unfold Unambiguous
  decide +kernel

end Jargon
