import Verif.Proofs.WordLimit
import Verif.Props.Readme

/-! C80: exactly which ways of writing a synonym are recognised. -/

namespace Jargon

/-- What comes out of something has at least one token, if no canonical is empty. -/
theorem Greedy.ne_nil {C : Compare} {D : Dict} {m : Nat} {toks : List Token} (hD : ∀ q c, D q = some c → c ≠ [])
    (h : Greedy C D m toks []) : toks = [] := by
  generalize ho : ([] : List Token) = out at h
  cases h with
  | nil => rfl
  | separator => cases ho
  | @replace t ts out k c hw hl _ =>
    have := hD _ _ hl.isSyn
    simp [canonTokens, this] at ho
  | word => cases ho

/-- If tokens that are no lemmas become one lemma, they are matched as a whole. -/
theorem Greedy.single {C : Compare} {D : Dict} {m : Nat} {toks : List Token} {x : Token}
    (hD : ∀ q c, D q = some c → c ≠ []) (hin : ∀ t ∈ toks, t.lemma = false) (hx : x.lemma = true)
    (h : Greedy C D m toks [x]) : ∃ t ts c, toks = t :: ts ∧ t.IsWord ∧
      Longest C D (Admissible m toks) toks toks.length c := by
  generalize ho : [x] = out at h
  cases h with
  | nil => cases ho
  | separator => cases ho; rw [hin x (by simp)] at hx; cases hx
  | @replace t ts out k c hw hl hrest =>
    refine ⟨t, ts, c, rfl, hw, ?_⟩
    have := hD _ _ hl.isSyn
    simp only [canonTokens, this, ↓reduceIte, List.singleton_append, List.cons.injEq] at ho
    obtain ⟨-, rfl⟩ := ho
    have := hrest.ne_nil hD
    have hle := hl.mem.le
    have hlen := congrArg List.length this
    simp only [List.length_drop, List.length_nil] at hlen
    have : k = (t :: ts).length := by omega
    rwa [← this]
  | word => cases ho; rw [hin x (by simp)] at hx; cases hx

theorem latinLower_space : ∀ r < 0x180, isSpaceRune (latinLower r) = isSpaceRune r := by decide +kernel

section
variable {E : Env} {cls : WordTable}

/-- **C80, exactly.** With the word rules of UAX #29, a text that is spelled like a listed synonym up to case,
spaces, hyphens, dots and slashes is replaced by its canonical if and only if none of its tokens is
punctuation, it starts and ends with a word, and it has at most five words. -/
theorem C80_exact (hE : E.Lawful) (hF : E.FollowsUax29 cls) (hR : cls.Right)
    (hU : E.U.LowersLatin) (hP : E.U.PunctLatin) {k v s s' : Bytes} (hm : (k, v) ∈ stackOverflowMappings)
    (hs : ListedText s k) (hlen : Fits cls s') (hlat : ∀ r ∈ runes s', r < 0x180) (hne : s' ≠ [])
    (h : tagLoose (runes s') = tagLoose (runes s)) :
    (tags E (tokenizeString E s')).Yields [mkToken E.U v true] .eof ↔
      (∀ t ∈ stringTokens E s', t.punct = false) ∧
      (∀ t, (stringTokens E s').head? = some t ∨ (stringTokens E s').getLast? = some t → t.IsWord) ∧
      (∀ t, (stringTokens E s').getLast? = some t → tagLoose (runes t.value) ≠ []) ∧
      (stringTokens E s').countP (fun t => decide t.IsWord) ≤ 5 := by
  constructor
  case mpr =>
    rintro ⟨h1, h2, h3, h4⟩
    exact C80_tags_partial hE hF hR hU hP hm hs hlen hlat h h1 (fun t ht => h2 t (.inl ht))
      (fun t ht => ⟨h2 t (.inr ht), h3 t ht⟩) h4 hne
  intro hy
  have hign : stackOverflowIgnore = [' ', '-', '.', '/'].map Char.toNat := by decide
  have hnorm : ∀ rs : List Rune, (∀ r ∈ rs, r < 0x180) →
      (Compare.mk E.U true stackOverflowIgnore).normal rs = tagLoose rs := by
    intro rs hrs
    rw [Compare.normal, tagLoose, ← hign]
    congr 1
    exact List.map_congr_left fun r hr => hU r (hrs r hr)
  have hflat : (stringTokens E s').flatMap (fun t => runes t.value) = runes s' := by
    rw [stringTokens, hF s' hlen]
    have := wordSegs_whole cls s'
    rw [← this]
    simp [segTokens, List.flatMap_map, mkToken]
  have hin : ∀ t ∈ stringTokens E s', t.lemma = false := by
    intro t ht
    simp only [stringTokens, segTokens, List.mem_map] at ht
    obtain ⟨seg, -, rfl⟩ := ht
    rfl
  have hmem : ∀ t ∈ stringTokens E s', ∀ r ∈ runes t.value, r ∈ runes s' := by
    intro t ht r hr
    rw [← hflat]
    exact List.mem_flatMap.mpr ⟨t, ht, hr⟩
  have hcut := (C76_scanner_laws hF hR).2.1
  obtain ⟨out, hg, -, hout⟩ := C31_synonyms_greedy hE stackOverflowMappings true stackOverflowIgnore
    (fun m hm => (hcut m hm).scans) (stringTokens_yields (s := s') hE (by rw [hF _ hlen]))
  rw [tags] at hy
  obtain rfl := (hy.unique hout).1
  rw [stackOverflow_rows] at hg hm hcut
  have hD : ∀ q c, (Compare.mk E.U true stackOverflowIgnore).dict (entries E (tableOf soRows.flatten)) q = some c →
      c ≠ [] := by
    intro q c hq
    obtain ⟨b, hb, -, rfl⟩ := dict_some hq
    simp only [entries, List.mem_flatMap, List.mem_map] at hb
    obtain ⟨m, hm, -, -, rfl⟩ := hb
    exact (mkToken_word (U := E.U) (PunctLatin.plain hP) true (row_plain soRows_plain hm)).2
  obtain ⟨t0, ts, c, htoks, hw0, hl⟩ := hg.single hD hin rfl
  have hp : ∀ t ∈ stringTokens E s', t.punct = false := by
    have := hl.mem.noPunct
    rwa [List.take_of_length_le (Nat.le_refl _)] at this
  have hlimit := hl.mem.limit
  rw [so_limit_eq hF hR hP] at hlimit
  -- nothing is spelled with ignored characters only
  have hnil : (Compare.mk E.U true stackOverflowIgnore).dict (entries E (tableOf soRows.flatten)) [] = none :=
    dict_absent hU so_all hcut (by decide +kernel)
  have hlast : ∀ t, (stringTokens E s').getLast? = some t → tagLoose (runes t.value) ≠ [] := by
    intro t ht h0
    obtain ⟨l, hl'⟩ : ∃ l, stringTokens E s' = l ++ [t] := by
      rcases last_cases (stringTokens E s') with h | ⟨z, l, h⟩
      · rw [h] at ht; cases ht
      · rw [h] at ht; simp at ht; exact ⟨_, by rw [h, ht]⟩
    have hsp : (Compare.mk E.U true stackOverflowIgnore).spell (l ++ [t]) =
        (Compare.mk E.U true stackOverflowIgnore).spell l := by
      have hn : (Compare.mk E.U true stackOverflowIgnore).normal (runes t.value) = [] := by
        rw [hnorm _ fun r hr => hlat r (hmem t (by rw [hl']; simp) r hr)]; exact h0
      rw [Compare.spell, Compare.spell, List.flatMap_append, List.flatMap_singleton]
      rw [Compare.normal] at hn ⊢
      rw [List.map_append, List.filter_append, hn, List.append_nil]
      rfl
    by_cases hl0 : l = []
    · have := hl.isSyn
      rw [List.take_of_length_le (Nat.le_refl _), hl', hsp, hl0] at this
      have e : (Compare.mk E.U true stackOverflowIgnore).spell [] = [] := rfl
      rw [e, hnil] at this
      cases this
    · have hlen1 : 1 ≤ l.length := by cases l with
        | nil => exact absurd rfl hl0
        | cons => simp
      have := hl.fewest l.length ⟨hlen1, by rw [hl']; simp, ?_, ?_⟩ (by rw [hl']; simp)
      · rw [List.take_of_length_le (Nat.le_refl _), hl', List.take_left' rfl, hsp] at this
        exact this rfl
      · intro x hx
        exact hp x (List.mem_of_mem_take hx)
      · rw [so_limit_eq hF hR hP]
        refine Nat.lt_of_le_of_lt ?_ hlimit
        rw [words, words]
        refine List.Sublist.countP_le (List.take_sublist_take_left ?_)
        rw [hl']; simp
  have hwlast : ∀ t, (stringTokens E s').getLast? = some t → t.IsWord := by
    intro t ht
    have htm : t ∈ stringTokens E s' := List.mem_of_getLast? ht
    refine ⟨hp t htm, ?_⟩
    rw [← Bool.not_eq_true]
    intro hspace
    have hall : (runes t.value).all isSpaceRune = true := by
      have hmk : t = mkToken E.U t.value false := by
        simp only [stringTokens, segTokens, List.mem_map] at htm
        obtain ⟨seg, -, rfl⟩ := htm
        rfl
      rw [hmk] at hspace
      exact hspace
    obtain ⟨x, hx⟩ := List.exists_mem_of_ne_nil _ (hlast t ht)
    simp only [tagLoose, List.mem_filter, List.mem_map] at hx
    obtain ⟨⟨r, hr, rfl⟩, hx⟩ := hx
    have hr' := hmem t htm r hr
    have hin2 : latinLower r ∈ tagLoose (runes s) := by
      rw [← h]
      simp only [tagLoose, List.mem_filter, List.mem_map]
      exact ⟨⟨r, hr', rfl⟩, hx⟩
    simp only [tagLoose, List.mem_filter, List.mem_map] at hin2
    obtain ⟨⟨r2, hr2, he⟩, -⟩ := hin2
    simp only [tableOf, List.mem_map] at hm
    obtain ⟨row, hrow, hrv⟩ := hm
    obtain ⟨rfl, rfl⟩ := Prod.mk.inj hrv
    obtain ⟨p, hpc, hps⟩ := hs.piece
    have hsub : ∀ (p : List Nat), ∀ r ∈ dropB p, r ∈ p := by
      intro p
      induction p with
      | nil => exact fun r hr => hr
      | cons a p ih =>
        intro r hr
        have e : dropB (a :: p) = bif Nat.beq a 0x20 then dropB p else a :: p := by first | rfl | simp [dropB]
        rw [e] at hr
        cases hb : Nat.beq a 0x20
        · rw [hb] at hr; exact hr
        · rw [hb] at hr; exact List.mem_cons_of_mem _ (ih r hr)
    have hr2k := cutRunes_subset hpc r2 (hsub p r2 (by rw [hps]; exact hr2))
    obtain ⟨h180, hsp2⟩ := (rowB_spec (so_all row hrow)).1 r2 hr2k
    have hspr : isSpaceRune r2 = true := by
      rw [← latinLower_space r2 h180, he, latinLower_space r (hlat r hr')]
      exact List.all_eq_true.mp hall r hr
    have := hsp2 hspr
    rw [he, hign] at this
    exact of_decide_eq_true hx (List.mem_map.mp this)
  refine ⟨hp, ?_, hlast, ?_⟩
  · rintro t (ht | ht)
    · rw [htoks] at ht; cases ht; exact hw0
    · exact hwlast t ht
  · obtain ⟨l, x, hl'⟩ : ∃ l x, stringTokens E s' = l ++ [x] := by
      rcases last_cases (stringTokens E s') with h | ⟨z, l, h⟩
      · rw [h] at htoks; cases htoks
      · exact ⟨_, _, h⟩
    rw [hl'] at hlimit ⊢
    rw [words, List.length_append, List.length_singleton, Nat.add_sub_cancel, List.take_left' rfl] at hlimit
    rw [List.countP_append]
    have : List.countP (fun t => decide t.IsWord) [x] ≤ 1 := List.countP_le_length
    omega

end

/-- Non-vacuity: both sides. "Node JS" is recognised, "n o d e j s" has too many words. -/
example : (tags uaxEnv (tokenizeString uaxEnv (str "Node JS"))).Yields [mkToken uaxEnv.U (str "node.js") true] .eof ∧
    ¬ (tags uaxEnv (tokenizeString uaxEnv (str "n o d e j s"))).Yields [mkToken uaxEnv.U (str "node.js") true] .eof := by
  have hmem : (str "node.js", str "node.js") ∈ stackOverflowMappings := by
    rw [stackOverflow_rows]
    have := List.mem_map_of_mem (f := fun r : Nat × Nat => (textOf r.1, textOf r.2))
      (mem_so (row := (n!"node.js", n!"node.js")) 5 rfl (by decide +kernel))
    rwa [show textOf n!"node.js" = str "node.js" by decide +kernel] at this
  have hlist : ListedText (str "node.js") (str "node.js") :=
    ⟨[], [], [], by simp, Or.inl rfl, Or.inl rfl, by simp, by decide +kernel, by decide +kernel⟩
  have opt : ∀ (o : Option Token) (P : Token → Prop) [DecidablePred P], o.all (fun t => decide (P t)) = true →
      ∀ t, o = some t → P t := by
    rintro o P _ h t rfl
    simpa using h
  refine ⟨(C80_exact uaxEnv_lawful uaxEnv_follows uaxTable_right uaxEnv_lowers uaxEnv_punct hmem hlist
      (.inl (by decide +kernel)) (by decide +kernel) (by decide +kernel) (by decide +kernel)).mpr
      ⟨by decide +kernel, ?_, opt _ _ ?_, by decide +kernel⟩, fun h => ?_⟩
  · rintro t (ht | ht) <;> revert t <;> refine opt _ _ ?_ <;> decide +kernel
  · decide +kernel
  · have := ((C80_exact uaxEnv_lawful uaxEnv_follows uaxTable_right uaxEnv_lowers uaxEnv_punct hmem hlist
      (.inl (by decide +kernel)) (by decide +kernel) (by decide +kernel) (by decide +kernel)).mp h).2.2.2
    revert this
    decide +kernel

end Jargon
