import Verif.Proofs.Build
import Verif.Proofs.DeclBuilt
import Mathlib.Data.List.Perm.Subperm

/-! C109: the trie of a synonyms filter holds the beginnings of its synonyms, each once, and nothing else. -/

namespace Jargon

mutual
/-- The nodes of a trie, from this one on, each given by the runes that lead to it. -/
def Node.paths : Node → List (List Rune)
  | .mk children _ _ => [] :: childPaths children

/-- The nodes below the children. -/
def childPaths : List (Rune × Node) → List (List Rune)
  | [] => []
  | e :: es => (e.2.paths.map (e.1 :: ·)) ++ childPaths es
end

/-- No node has two children for the same rune. -/
inductive Node.Distinct : Node → Prop
  | mk {children : List (Rune × Node)} {h : Bool} {c : Bytes} : (children.map Prod.fst).Nodup →
      (∀ e ∈ children, e.2.Distinct) → Node.Distinct (.mk children h c)

theorem Node.Distinct.children {n : Node} (h : n.Distinct) : (n.children.map Prod.fst).Nodup ∧
    ∀ e ∈ n.children, e.2.Distinct := by
  cases h with
  | mk h1 h2 => exact ⟨h1, h2⟩

theorem distinct_empty : Node.empty.Distinct := .mk (by simp) (by simp)

theorem setChild_distinct {n : Node} (hn : n.Distinct) (r : Rune) {c : Node} (hc : c.Distinct) :
    (n.setChild r c).Distinct := by
  obtain ⟨h1, h2⟩ := hn.children
  refine .mk ?_ ?_
  · rw [List.map_cons, List.nodup_cons]
    refine ⟨?_, h1.sublist (List.Sublist.map _ List.filter_sublist)⟩
    simp only [List.mem_map, List.mem_filter, not_exists, not_and]
    rintro e ⟨-, he⟩ rfl
    simp at he
  · intro e he
    rcases List.mem_cons.mp he with rfl | he
    · exact hc
    · exact h2 e (List.mem_filter.mp he).1

theorem addRunes_distinct (U : Unicode) (t : RuneTrie) (canonical : Bytes) (rs : List Rune) {n : Node}
    (hn : n.Distinct) : (t.addRunes U canonical rs n).Distinct := by
  induction rs generalizing n with
  | nil =>
    obtain ⟨h1, h2⟩ := hn.children
    exact .mk h1 h2
  | cons r rs ih =>
    simp only [RuneTrie.addRunes]
    generalize (if t.ignoreCase then U.toLower r else r) = r'
    split
    · exact ih hn
    · refine setChild_distinct hn _ (ih ?_)
      split
      · rename_i hc
        exact hn.children.2 _ (child_mem hc)
      · exact distinct_empty

theorem mem_childPaths {es : List (Rune × Node)} {p : List Rune} :
    p ∈ childPaths es ↔ ∃ e ∈ es, ∃ q ∈ e.2.paths, p = e.1 :: q := by
  induction es with
  | nil => simp [childPaths]
  | cons e es ih =>
    simp only [childPaths, List.mem_append, List.mem_map, ih, List.mem_cons, exists_eq_or_imp]
    constructor
    · rintro (⟨q, h1, h2⟩ | h)
      · exact .inl ⟨q, h1, h2.symm⟩
      · exact .inr h
    · rintro (⟨q, h1, h2⟩ | h)
      · exact .inl ⟨q, h1, h2.symm⟩
      · exact .inr h

/-- The listed nodes are those that can be reached. -/
theorem mem_paths {n : Node} (hn : n.Distinct) (p : List Rune) : p ∈ n.paths ↔ (n.find p).isSome = true := by
  induction p generalizing n with
  | nil =>
    cases n with
    | mk l h c => simp [Node.paths, Node.find]
  | cons r p ih =>
    have h0 : (r :: p) ∈ n.paths ↔ (r :: p) ∈ childPaths n.children := by
      cases n with
      | mk l h c => simp [Node.paths, Node.children]
    rw [h0, mem_childPaths, Node.find]
    constructor
    · rintro ⟨e, he, q, hq, heq⟩
      simp only [List.cons.injEq] at heq
      obtain ⟨rfl, rfl⟩ := heq
      have hc : n.child e.1 = some e.2 := childLookup_of_mem hn.children.1 he
      rw [hc]
      exact (ih (hn.children.2 e he)).mp hq
    · intro h
      cases hc : n.child r with
      | none => rw [hc] at h; simp at h
      | some c =>
        rw [hc] at h
        exact ⟨_, child_mem hc, p, (ih (hn.children.2 _ (child_mem hc))).mpr h, rfl⟩

theorem paths_nodup {n : Node} (hn : n.Distinct) : n.paths.Nodup := by
  induction hn with
  | @mk children h c h1 h2 ih =>
    rw [Node.paths, List.nodup_cons]
    constructor
    · rw [mem_childPaths]
      rintro ⟨e, -, q, -, heq⟩
      cases heq
    · clear h2
      induction children with
      | nil => simp [childPaths]
      | cons e es ih' =>
        rw [List.map_cons, List.nodup_cons] at h1
        rw [childPaths, List.nodup_append]
        refine ⟨?_, ih' h1.2 (fun e he => ih e (by simp [he])), ?_⟩
        · exact List.Pairwise.map _ (fun a b hab h => hab (by simpa using h)) (ih e (by simp))
        · intro a ha b hb hab
          subst hab
          obtain ⟨q, -, rfl⟩ := List.mem_map.mp ha
          obtain ⟨e', he', q', -, heq⟩ := mem_childPaths.mp hb
          simp only [List.cons.injEq] at heq
          exact h1.1 (List.mem_map.mpr ⟨e', he', heq.1.symm⟩)

/-- Adding adds the beginnings of one spelling. -/
theorem addRunes_find (U : Unicode) (t : RuneTrie) (canonical : Bytes) (rs : List Rune) (n : Node)
    (q : List Rune) : ((t.addRunes U canonical rs n).find q).isSome = true ↔
      (n.find q).isSome = true ∨ q <+: (t.compare U).normal rs := by
  induction rs generalizing n q with
  | nil =>
    cases q with
    | nil => simp [RuneTrie.addRunes, Node.find]
    | cons r q =>
      have : (Compare.normal (t.compare U) []) = [] := rfl
      simp only [RuneTrie.addRunes, this, List.prefix_nil, reduceCtorEq, or_false]
      rfl
  | cons r rs ih =>
    simp only [RuneTrie.addRunes, List.contains_iff_mem, ← compare_fold]
    by_cases hi : (t.compare U).fold r ∈ t.ignore
    · rw [normal_cons_mem _ _ _ hi, if_pos hi]
      exact ih n q
    · rw [normal_cons_not_mem _ _ _ hi, if_neg hi]
      generalize (t.compare U).fold r = r' at *
      cases q with
      | nil => simp [Node.find]
      | cons x q =>
        rw [Node.find, Node.child_setChild, Node.find, List.cons_prefix_cons]
        by_cases hx : x = r'
        · subst hx
          simp only [↓reduceIte, true_and, ih]
          cases hc : n.child x with
          | none =>
            cases q with
            | nil => simp
            | cons y q =>
              have : (Node.empty.find (y :: q)).isSome = false := rfl
              simp [this]
          | some c => simp
        · simp only [hx, ↓reduceIte, false_and, or_false]

theorem addAll_find (U : Unicode) (t : RuneTrie) (adds : List (List Token × Bytes)) (hn : t.root.Distinct) :
    (t.addAll U adds).root.Distinct ∧ ∀ q, ((t.addAll U adds).root.find q).isSome = true ↔
      (t.root.find q).isSome = true ∨ ∃ a ∈ adds, q <+: (t.compare U).spell a.1 := by
  induction adds generalizing t with
  | nil => exact ⟨hn, by simp [RuneTrie.addAll]⟩
  | cons a adds ih =>
    have h1 : t.addAll U (a :: adds) = (t.add U a.1 a.2).addAll U adds := rfl
    obtain ⟨h3, h4⟩ := ih (t.add U a.1 a.2) (addRunes_distinct U t a.2 _ hn)
    rw [h1]
    refine ⟨h3, fun q => ?_⟩
    rw [h4, add_compare]
    have : ((t.add U a.1 a.2).root.find q).isSome = true ↔
        (t.root.find q).isSome = true ∨ q <+: (t.compare U).spell a.1 :=
      addRunes_find U t a.2 (a.1.flatMap fun token : Token => runes token.value) t.root q
    rw [this]
    simp only [List.mem_cons, exists_eq_or_imp, or_assoc]

/-! ### Sizes -/

theorem runes_length_le (s : Bytes) : (runes s).length ≤ s.length := by
  have : ∀ n (s : Bytes), (runesAux n s).length ≤ n := by
    intro n
    induction n with
    | zero => intro s; simp [runesAux]
    | succ n ih =>
      intro s
      cases s with
      | nil => simp [runesAux]
      | cons b t => simpa [runesAux] using ih _
  exact this _ _

theorem spell_length_le (C : Compare) (toks : List Token) : (C.spell toks).length ≤ (text toks).length := by
  rw [Compare.spell, Compare.normal]
  refine Nat.le_trans (List.length_filter_le _ _) ?_
  rw [List.length_map]
  induction toks with
  | nil => simp [text]
  | cons t ts ih =>
    have := runes_length_le t.value
    simp only [List.flatMap_cons, List.length_append, text] at ih ⊢
    omega

theorem pieces_length_le (toks : List Token) :
    ((pieces toks).map fun p => (text p).length).sum ≤ (text toks).length := by
  induction toks with
  | nil => simp [pieces, text]
  | cons t ts ih =>
    have ht : (text (t :: ts)).length = t.value.length + (text ts).length := by simp [text]
    obtain ⟨p, ps, hp⟩ := pieces_ne_nil ts
    rw [ht, pieces]
    split
    · simp only [List.map_cons, List.sum_cons]
      simp only [text, List.flatMap_nil, List.length_nil] at ih ⊢
      omega
    · rw [hp] at ih ⊢
      simp only [List.map_cons, List.sum_cons] at ih ⊢
      have : (text (t :: p)).length = t.value.length + (text p).length := by simp [text]
      omega

theorem text_dropWhile_le (f : Token → Bool) (p : List Token) :
    (text (p.dropWhile f)).length ≤ (text p).length := by
  induction p with
  | nil => simp
  | cons t ts ih =>
    rw [List.dropWhile_cons]
    have : (text (t :: ts)).length = t.value.length + (text ts).length := by simp [text]
    split <;> omega

/-- The beginnings of a list other than the empty one. -/
def beginnings : List Rune → List (List Rune)
  | [] => []
  | r :: rs => [r] :: (beginnings rs).map (r :: ·)

theorem beginnings_length (rs : List Rune) : (beginnings rs).length = rs.length := by
  induction rs with
  | nil => rfl
  | cons r rs ih => simp [beginnings, ih]

theorem mem_beginnings {rs q : List Rune} (h : q <+: rs) (hq : q ≠ []) : q ∈ beginnings rs := by
  induction rs generalizing q with
  | nil => exact absurd (List.prefix_nil.mp h) hq
  | cons r rs ih =>
    cases q with
    | nil => exact absurd rfl hq
    | cons x q =>
      rw [List.cons_prefix_cons] at h
      obtain ⟨rfl, h⟩ := h
      cases q with
      | nil => simp [beginnings]
      | cons y q => simp [beginnings, ih h (by simp)]

theorem sum_le_sum {α : Type} {f g : α → Nat} {l : List α} (h : ∀ a ∈ l, f a ≤ g a) :
    (l.map f).sum ≤ (l.map g).sum := by
  induction l with
  | nil => simp
  | cons a l ih =>
    have h1 := h a (by simp)
    have h2 := ih fun x hx => h x (by simp [hx])
    simp only [List.map_cons, List.sum_cons]
    omega

/-! ### C109 -/

/-- **C109.** The trie that a synonyms filter builds from its mappings, in whatever order Go iterates them: its nodes
are the beginnings of the synonyms as they are compared (and the root), each once. There are at most as many as the
synonyms have runes, and one. -/
theorem C109_trie {E : Env} (hE : E.Lawful) (mappings : StringMap) (ignoreCase : Bool) (ignore : List Rune)
    (hs : ∀ m ∈ mappings, (E.scan { data := m.1 }).2 = none) :
    let C : Compare := ⟨E.U, ignoreCase, ignore⟩
    ∃ f, build E mappings ignoreCase ignore = Go.ret (.ok f) ∧ f.trie.root.paths.Nodup ∧
      (∀ p, p ∈ f.trie.root.paths ↔ p = [] ∨ ∃ a ∈ entries E mappings, p <+: C.spell a.1) ∧
      f.trie.root.paths.length ≤ 1 + ((entries E mappings).map fun a => (C.spell a.1).length).sum := by
  intro C
  refine ⟨_, build_ok hE mappings ignoreCase ignore hs, ?_⟩
  obtain ⟨h1, h2⟩ := addAll_find E.U (RuneTrie.new ignoreCase ignore) (entries E mappings) distinct_empty
  rw [builtFilter, SynFilter.addAll_trie]
  have hmem : ∀ p, p ∈ ((RuneTrie.new ignoreCase ignore).addAll E.U (entries E mappings)).root.paths ↔
      p = [] ∨ ∃ a ∈ entries E mappings, p <+: C.spell a.1 := by
    intro p
    rw [mem_paths h1, h2]
    have : ((RuneTrie.new ignoreCase ignore).root.find p).isSome = true ↔ p = [] := by
      cases p with
      | nil => simp [Node.find]
      | cons r p =>
        have : ((RuneTrie.new ignoreCase ignore).root.find (r :: p)).isSome = false := rfl
        simp [this]
    rw [this]
    rfl
  refine ⟨paths_nodup h1, hmem, ?_⟩
  have hsub : ((RuneTrie.new ignoreCase ignore).addAll E.U (entries E mappings)).root.paths ⊆
      [] :: (entries E mappings).flatMap fun a => beginnings (C.spell a.1) := by
    intro p hp
    by_cases h0 : p = []
    · simp [h0]
    · rcases (hmem p).mp hp with h | ⟨a, ha, h⟩
      · exact absurd h h0
      · exact List.mem_cons_of_mem _ (List.mem_flatMap.mpr ⟨a, ha, mem_beginnings h h0⟩)
  have := ((paths_nodup h1).subperm hsub).length_le
  simp only [List.length_cons, List.length_flatMap, beginnings_length] at this
  exact Nat.le_trans this (Nat.le_of_eq (Nat.add_comm _ _))

/-- **C109 (bytes).** So there are at most as many nodes as the keys of the mappings have bytes, and one. -/
theorem C109_bytes {E : Env} (hE : E.Lawful) (mappings : StringMap) (ignoreCase : Bool) (ignore : List Rune)
    (hs : ∀ m ∈ mappings, (E.scan { data := m.1 }).2 = none) :
    ∃ f, build E mappings ignoreCase ignore = Go.ret (.ok f) ∧
      f.trie.root.paths.length ≤ 1 + (mappings.map fun m => m.1.length).sum := by
  obtain ⟨f, h1, -, -, h2⟩ := C109_trie hE mappings ignoreCase ignore hs
  refine ⟨f, h1, Nat.le_trans h2 (Nat.add_le_add_left ?_ 1)⟩
  clear h1 h2
  induction mappings with
  | nil => simp [entries]
  | cons m ms ih =>
    have ih := ih fun m hm => hs m (by simp [hm])
    have hm := text_stringTokens hE (hs m (by simp))
    have key : ((listed (stringTokens E m.1)).map fun s =>
        ((Compare.mk E.U ignoreCase ignore).spell s).length).sum ≤ m.1.length := by
      have h1 := pieces_length_le (stringTokens E m.1)
      rw [hm] at h1
      refine Nat.le_trans ?_ h1
      rw [listed, List.map_map]
      refine sum_le_sum fun p _ => ?_
      exact Nat.le_trans (spell_length_le _ _) (text_dropWhile_le _ p)
    simp only [entries, List.flatMap_cons, List.map_append, List.sum_append, List.map_map, List.map_cons,
      List.sum_cons] at ih ⊢
    simp only [Function.comp_def] at ih ⊢
    omega

/-- Not vacuous: "ab, ac" and "a": the root, a, ab, ac. -/
example : ∃ f, build sampleEnv [(str "ab, ac", str "x"), (str "A", str "y")] true [] = Go.ret (.ok f) ∧
    f.trie.root.paths.length = 4 := by
  refine ⟨_, build_ok sampleEnv_lawful _ _ _ (by simp [sampleEnv]), by decide +kernel⟩

end Jargon
