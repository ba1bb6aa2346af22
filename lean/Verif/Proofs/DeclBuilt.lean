import Verif.Proofs.DeclValue
import Verif.Proofs.Build

/-! The runes of a trie built by adding synonyms. -/

namespace Jargon

theorem mem_childRunes {x : Rune} {l : List (Rune × Node)} :
    x ∈ childRunes l ↔ ∃ e ∈ l, x = e.1 ∨ x ∈ e.2.runes := by
  induction l with
  | nil => simp [childRunes]
  | cons p l ih =>
    obtain ⟨r, c⟩ := p
    rw [childRunes, List.mem_cons, List.mem_append, ih]
    constructor
    · rintro (rfl | h | ⟨e, he, h⟩)
      · exact ⟨_, List.mem_cons_self, .inl rfl⟩
      · exact ⟨_, List.mem_cons_self, .inr h⟩
      · exact ⟨e, List.mem_cons_of_mem _ he, h⟩
    · rintro ⟨e, he, h⟩
      rcases List.mem_cons.mp he with rfl | he
      · exact h.imp id .inl
      · exact .inr (.inr ⟨e, he, h⟩)

theorem mem_nodeRunes {x : Rune} {n : Node} : x ∈ n.runes ↔ ∃ e ∈ n.children, x = e.1 ∨ x ∈ e.2.runes := by
  cases n with
  | mk l h c => rw [Node.runes]; exact mem_childRunes

theorem childLookup_mem {l : List (Rune × Node)} {r : Rune} {c : Node} (h : l.lookup r = some c) : (r, c) ∈ l := by
  induction l with
  | nil => cases h
  | cons p l ih =>
    obtain ⟨k, w⟩ := p
    rw [List.lookup_cons] at h
    split at h
    · rename_i hk
      have : r = k := by simpa using hk
      cases h; simp [this]
    · exact List.mem_cons_of_mem _ (ih h)

theorem child_mem {n : Node} {r : Rune} {c : Node} (h : n.child r = some c) : (r, c) ∈ n.children := childLookup_mem h

theorem childLookup_of_mem {l : List (Rune × Node)} (hn : (l.map Prod.fst).Nodup) {e : Rune × Node} (h : e ∈ l) :
    l.lookup e.1 = some e.2 := by
  induction l with
  | nil => cases h
  | cons p l ih =>
    obtain ⟨k, w⟩ := p
    rw [List.map_cons, List.nodup_cons] at hn
    rw [List.lookup_cons]
    rcases List.mem_cons.mp h with rfl | h
    · simp
    · have : (e.1 == k) = false := by
        apply Bool.eq_false_iff.mpr
        intro hk
        have hk : e.1 = k := by simpa using hk
        exact hn.1 (List.mem_map.mpr ⟨e, h, hk⟩)
      simp only [this]
      exact ih hn.2 h

theorem Node.Proper.children {n : Node} (h : n.Proper) : (n.children.map Prod.fst).Nodup ∧
    ∀ e ∈ n.children, ValidRune e.1 ∧ e.2.Proper := by
  cases h with
  | mk h1 h2 h3 => exact ⟨h1, fun e he => ⟨h2 e he, h3 e he⟩⟩

theorem proper_empty : Node.empty.Proper := .mk (by simp) (by simp) (by simp)

theorem setChild_proper {n : Node} (hn : n.Proper) {r : Rune} (hr : ValidRune r) {c : Node} (hc : c.Proper) :
    (n.setChild r c).Proper := by
  obtain ⟨h1, h2⟩ := hn.children
  have hf : ∀ e ∈ n.children.filter (fun p => p.1 != r), e ∈ n.children ∧ e.1 ≠ r := by
    intro e he
    simpa using List.mem_filter.mp he
  refine .mk ?_ ?_ ?_
  · rw [List.map_cons, List.nodup_cons]
    constructor
    · intro h
      obtain ⟨e, he, rfl⟩ := List.mem_map.mp h
      exact (hf e he).2 rfl
    · exact h1.sublist (List.filter_sublist.map _)
  · intro e he
    rcases List.mem_cons.mp he with rfl | he
    · exact hr
    · exact (h2 e (hf e he).1).1
  · intro e he
    rcases List.mem_cons.mp he with rfl | he
    · exact hc
    · exact (h2 e (hf e he).1).2

theorem addRunes_proper (U : Unicode) (t : RuneTrie) (canonical : Bytes) (rs : List Rune) {n : Node} (hn : n.Proper)
    (hv : ∀ r ∈ rs, ValidRune ((t.compare U).fold r)) : (t.addRunes U canonical rs n).Proper := by
  induction rs generalizing n with
  | nil =>
    cases hn with
    | mk h1 h2 h3 => exact .mk h1 h2 h3
  | cons r rs ih =>
    simp only [RuneTrie.addRunes, ← compare_fold]
    have hrs := fun x hx => hv x (List.mem_cons_of_mem _ hx)
    split
    · exact ih hn hrs
    · refine setChild_proper hn (hv r List.mem_cons_self) (ih ?_ hrs)
      cases hc : n.child ((t.compare U).fold r) with
      | none => exact proper_empty
      | some c => exact (hn.children.2 _ (child_mem hc)).2

/-- What adding does to the runes. -/
theorem addRunes_runes (U : Unicode) (t : RuneTrie) (canonical : Bytes) (rs : List Rune) {n : Node} (hn : n.Proper)
    (x : Rune) : x ∈ (t.addRunes U canonical rs n).runes ↔ x ∈ n.runes ∨ x ∈ (t.compare U).normal rs := by
  induction rs generalizing n with
  | nil =>
    cases n with
    | mk l h c => simp [RuneTrie.addRunes, Node.setCanonical, Node.runes, Node.children, Compare.normal]
  | cons r rs ih =>
    simp only [RuneTrie.addRunes, List.contains_iff_mem, ← compare_fold]
    by_cases hi : (t.compare U).fold r ∈ t.ignore
    · rw [normal_cons_mem _ _ _ hi, if_pos hi]
      exact ih hn
    · rw [normal_cons_not_mem _ _ _ hi, if_neg hi]
      generalize (t.compare U).fold r = r' at *
      have hset : ∀ c : Node, x ∈ (n.setChild r' c).runes ↔
          x = r' ∨ x ∈ c.runes ∨ ∃ e ∈ n.children, e.1 ≠ r' ∧ (x = e.1 ∨ x ∈ e.2.runes) := by
        intro c
        rw [mem_nodeRunes]
        simp only [Node.setChild, Node.children, List.mem_cons, List.mem_filter]
        constructor
        · rintro ⟨e, rfl | ⟨he, hk⟩, h⟩
          · exact h.imp id .inl
          · exact .inr (.inr ⟨e, he, by simpa using hk, h⟩)
        · rintro (rfl | h | ⟨e, he, hk, h⟩)
          · exact ⟨_, .inl rfl, .inl rfl⟩
          · exact ⟨_, .inl rfl, .inr h⟩
          · exact ⟨e, .inr ⟨he, by simpa using hk⟩, h⟩
      have hold : x ∈ n.runes ↔ (∃ c, n.child r' = some c ∧ (x = r' ∨ x ∈ c.runes)) ∨
          ∃ e ∈ n.children, e.1 ≠ r' ∧ (x = e.1 ∨ x ∈ e.2.runes) := by
        rw [mem_nodeRunes]
        constructor
        · rintro ⟨e, he, h⟩
          by_cases hk : e.1 = r'
          · subst hk
            exact .inl ⟨e.2, childLookup_of_mem hn.children.1 he, h⟩
          · exact .inr ⟨e, he, hk, h⟩
        · rintro (⟨c, hc, h⟩ | ⟨e, he, -, h⟩)
          · exact ⟨(r', c), child_mem hc, h⟩
          · exact ⟨e, he, h⟩
      rw [hset, hold, List.mem_cons]
      cases hc : n.child r' with
      | none =>
        simp only [reduceCtorEq, false_and, exists_false, false_or]
        rw [ih proper_empty]
        have : x ∉ Node.empty.runes := by simp [Node.empty, Node.runes, childRunes]
        constructor
        · rintro (h | (h | h) | h)
          · exact .inr (.inl h)
          · exact absurd h this
          · exact .inr (.inr h)
          · exact .inl h
        · rintro (h | h | h)
          · exact .inr (.inr h)
          · exact .inl h
          · exact .inr (.inl (.inr h))
      | some c =>
        have hp := (hn.children.2 _ (child_mem hc)).2
        simp only [Option.some.injEq, exists_eq_left']
        rw [ih hp]
        constructor
        · rintro (h | (h | h) | h)
          · exact .inr (.inl h)
          · exact .inl (.inl (.inr h))
          · exact .inr (.inr h)
          · exact .inl (.inr h)
        · rintro (((h | h) | h) | h | h)
          · exact .inl h
          · exact .inr (.inl (.inl h))
          · exact .inr (.inr h)
          · exact .inl h
          · exact .inr (.inl (.inr h))

theorem addAll_proper (U : Unicode) (t : RuneTrie) (adds : List (List Token × Bytes)) (hn : t.root.Proper)
    (hv : ∀ r, ValidRune r → ValidRune ((t.compare U).fold r)) :
    (t.addAll U adds).root.Proper ∧ ∀ x, x ∈ (t.addAll U adds).root.runes ↔
      x ∈ t.root.runes ∨ ∃ a ∈ adds, x ∈ (t.compare U).spell a.1 := by
  induction adds generalizing t with
  | nil => exact ⟨hn, by simp [RuneTrie.addAll]⟩
  | cons a adds ih =>
    have h1 : t.addAll U (a :: adds) = (t.add U a.1 a.2).addAll U adds := rfl
    have h2 : (t.add U a.1 a.2).root.Proper := by
      refine addRunes_proper U t a.2 _ hn ?_
      intro r hr
      obtain ⟨tok, -, hr⟩ := List.mem_flatMap.mp hr
      exact hv r (runes_valid _ r hr)
    obtain ⟨h3, h4⟩ := ih (t.add U a.1 a.2) h2 (by rw [add_compare]; exact hv)
    rw [h1]
    refine ⟨h3, fun x => ?_⟩
    rw [h4, add_compare]
    have := addRunes_runes U t a.2 (a.1.flatMap fun token => runes token.string) hn x
    show x ∈ (t.addRunes U a.2 (a.1.flatMap fun token => runes token.string) t.root).runes ∨ _ ↔ _
    rw [this]
    simp only [List.mem_cons, exists_eq_or_imp, or_assoc]
    rfl

/-- The runes of the trie of a mapping. -/
theorem built_proper (E : Env) (mappings : StringMap) (ic : Bool) (ign : List Rune)
    (hv : ic = true → ∀ r, ValidRune r → ValidRune (E.U.toLower r)) :
    (builtFilter E mappings ic ign).trie.root.Proper ∧
    (builtFilter E mappings ic ign).trie.ignore = ign ∧
    ∀ x, x ∈ (builtFilter E mappings ic ign).trie.root.runes ↔
      ∃ a ∈ entries E mappings, x ∈ (Compare.mk E.U ic ign).spell a.1 := by
  have h := addAll_proper E.U (RuneTrie.new ic ign) (entries E mappings) proper_empty (by
    intro r hr
    rw [compare_fold]
    show ValidRune (if ic then _ else _)
    cases hc : ic with
    | false => exact hr
    | true => exact hv hc r hr)
  rw [builtFilter, SynFilter.addAll_trie]
  refine ⟨h.1, ?_, fun x => ?_⟩
  · exact congrArg Compare.ignore (addAll_compare E.U (RuneTrie.new ic ign) (entries E mappings))
  · rw [h.2 x]
    have : x ∉ Node.empty.runes := by simp [Node.empty, Node.runes, childRunes]
    exact ⟨fun h => h.elim (fun h => absurd h this) id, .inr⟩

theorem proper_valid {n : Node} (h : n.Proper) : ∀ r ∈ n.runes, ValidRune r := by
  induction h with
  | @mk children h c hn hv hc ih =>
    intro r hr
    obtain ⟨e, he, hr⟩ := mem_nodeRunes.mp hr
    rcases hr with rfl | hr
    · exact hv e he
    · exact ih e he r hr

end Jargon
