import Verif.Spec.Synonyms
import Verif.Proofs.Filters

/-! The trie refines a dictionary. -/

namespace Jargon

/-- The comparison a trie makes. -/
def RuneTrie.compare (U : Unicode) (t : RuneTrie) : Compare := ⟨U, t.ignoreCase, t.ignore⟩

/-- The node at the end of a path. -/
def Node.find : Node → List Rune → Option Node
  | n, [] => some n
  | n, r :: rs =>
    match n.child r with
    | none => none
    | some c => c.find rs

/-- The canonical at the end of a path. -/
def Node.get (n : Node) (q : List Rune) : Option Bytes :=
  match n.find q with
  | none => none
  | some m => if m.hasCanonical then some m.canonical else none

theorem Node.find_append (n : Node) (p q : List Rune) :
    n.find (p ++ q) = (n.find p).bind (·.find q) := by
  induction p generalizing n with
  | nil => rfl
  | cons r p ih =>
    simp only [List.cons_append, Node.find]
    cases n.child r with
    | none => rfl
    | some c => exact ih c

theorem Node.get_nil (n : Node) : n.get [] = if n.hasCanonical then some n.canonical else none := rfl

theorem Node.get_cons (n : Node) (r : Rune) (q : List Rune) :
    n.get (r :: q) = (n.child r).bind (·.get q) := by
  simp only [Node.get, Node.find]
  cases n.child r <;> rfl

theorem Node.get_empty (q : List Rune) : Node.empty.get q = none := by
  cases q <;> rfl

theorem Node.child_setChild (n : Node) (r r' : Rune) (c : Node) :
    (n.setChild r c).child r' = if r' = r then some c else n.child r' := by
  simp only [Node.child, Node.setChild, Node.children, List.lookup_cons]
  by_cases h : r' = r
  · simp [h]
  · have : (r' == r) = false := by simpa using h
    simp only [this, h, ↓reduceIte]
    cases n with | mk l _ _ =>
    simp only
    induction l with
    | nil => rfl
    | cons p l ih =>
      rw [List.filter_cons]
      by_cases hp : p.1 = r
      · have h1 : (r' == p.1) = false := by rw [hp]; exact this
        simp only [hp, bne_self_eq_false, Bool.false_eq_true, ↓reduceIte, ih]
        rw [show p = (p.1, p.2) from rfl, List.lookup_cons, h1]
      · simp only [bne_iff_ne, ne_eq, hp, not_false_eq_true, ↓reduceIte]
        rw [show p = (p.1, p.2) from rfl, List.lookup_cons, List.lookup_cons, ih]

theorem Node.hasCanonical_setChild (n : Node) (r : Rune) (c : Node) :
    (n.setChild r c).hasCanonical = n.hasCanonical := rfl

theorem Node.canonical_setChild (n : Node) (r : Rune) (c : Node) :
    (n.setChild r c).canonical = n.canonical := rfl

theorem normal_cons_mem (C : Compare) (r : Rune) (rs : List Rune) (h : C.fold r ∈ C.ignore) :
    C.normal (r :: rs) = C.normal rs := by
  simp [Compare.normal, h]

theorem normal_cons_not_mem (C : Compare) (r : Rune) (rs : List Rune) (h : C.fold r ∉ C.ignore) :
    C.normal (r :: rs) = C.fold r :: C.normal rs := by
  simp [Compare.normal, h]

theorem compare_fold (U : Unicode) (t : RuneTrie) (r : Rune) :
    (t.compare U).fold r = if t.ignoreCase then U.toLower r else r := by
  simp only [RuneTrie.compare, Compare.fold]
  cases t.ignoreCase <;> rfl

theorem normal_append (C : Compare) (a b : List Rune) : C.normal (a ++ b) = C.normal a ++ C.normal b := by
  simp [Compare.normal]

theorem spell_append (C : Compare) (a b : List Token) : C.spell (a ++ b) = C.spell a ++ C.spell b := by
  simp [Compare.spell, normal_append]

@[simp] theorem spell_nil (C : Compare) : C.spell [] = [] := rfl

/-- Adding changes the dictionary at one spelling. -/
theorem addRunes_get (U : Unicode) (t : RuneTrie) (canonical : Bytes) (rs : List Rune) (n : Node)
    (q : List Rune) :
    (t.addRunes U canonical rs n).get q =
      if q = (t.compare U).normal rs then some canonical else n.get q := by
  induction rs generalizing n q with
  | nil =>
    cases q with
    | nil => simp [RuneTrie.addRunes, Compare.normal, Node.get_nil, Node.setCanonical,
        Node.hasCanonical, Node.canonical]
    | cons r q =>
      simp only [RuneTrie.addRunes, Compare.normal, List.map_nil, List.filter_nil, reduceCtorEq,
        ↓reduceIte, Node.get_cons]
      rfl
  | cons r rs ih =>
    simp only [RuneTrie.addRunes, List.contains_iff_mem, ← compare_fold]
    by_cases hi : (t.compare U).fold r ∈ t.ignore
    · rw [normal_cons_mem _ _ _ hi, if_pos hi]
      exact ih n q
    · rw [normal_cons_not_mem _ _ _ hi, if_neg hi]
      generalize (t.compare U).fold r = r' at *
      cases q with
      | nil => simp only [reduceCtorEq, ↓reduceIte]; rfl
      | cons x q =>
        rw [Node.get_cons, Node.child_setChild, Node.get_cons]
        by_cases hx : x = r'
        · subst hx
          simp only [↓reduceIte, Option.bind_some, List.cons.injEq, true_and]
          rw [ih]
          cases hc : n.child x with
          | none => simp [Node.get_empty]
          | some c => simp
        · simp [hx]

theorem add_get (U : Unicode) (t : RuneTrie) (toks : List Token) (canonical : Bytes) (q : List Rune) :
    (t.add U toks canonical).root.get q =
      if q = (t.compare U).spell toks then some canonical else t.root.get q :=
  addRunes_get U t canonical _ t.root q

/-- Adding several synonyms. -/
def RuneTrie.addAll (U : Unicode) (t : RuneTrie) (adds : List (List Token × Bytes)) : RuneTrie :=
  adds.foldl (fun t a => t.add U a.1 a.2) t

theorem add_compare (U : Unicode) (t : RuneTrie) (toks : List Token) (c : Bytes) :
    (t.add U toks c).compare U = t.compare U := rfl

theorem addAll_compare (U : Unicode) (t : RuneTrie) (adds : List (List Token × Bytes)) :
    (t.addAll U adds).compare U = t.compare U := by
  induction adds generalizing t with
  | nil => rfl
  | cons a adds ih => exact (ih (t.add U a.1 a.2)).trans (add_compare U t a.1 a.2)

theorem addAll_get (U : Unicode) (t : RuneTrie) (adds : List (List Token × Bytes)) (q : List Rune) :
    (t.addAll U adds).root.get q = ((t.compare U).dict adds q).or (t.root.get q) := by
  induction adds generalizing t with
  | nil => rfl
  | cons a adds ih =>
    have h1 : t.addAll U (a :: adds) = (t.add U a.1 a.2).addAll U adds := rfl
    rw [h1, ih, add_compare, add_get]
    simp only [Compare.dict, List.reverse_cons, List.find?_append, List.find?_singleton]
    by_cases hq : q = (t.compare U).spell a.1
    · simp only [hq, decide_true, ↓reduceIte]
      cases List.find? (fun b => decide ((t.compare U).spell b.1 = (t.compare U).spell a.1))
        adds.reverse <;> simp
    · have hq' : ¬ (t.compare U).spell a.1 = q := fun h => hq h.symm
      simp only [hq, hq', decide_false, ↓reduceIte]
      cases List.find? (fun b => decide ((t.compare U).spell b.1 = q)) adds.reverse <;> simp

/-- The trie built from New by adding synonyms is their dictionary. -/
theorem new_addAll_get (U : Unicode) (ic : Bool) (ign : List Rune)
    (adds : List (List Token × Bytes)) (q : List Rune) :
    ((RuneTrie.new ic ign).addAll U adds).root.get q = (Compare.mk U ic ign).dict adds q := by
  rw [addAll_get]
  have : (RuneTrie.new ic ign).root.get q = none := Node.get_empty q
  rw [this, Option.or_none]
  rfl

/-! ### search -/

theorem walk_eq (U : Unicode) (t : RuneTrie) (rs : List Rune) (n : Node) (p : List Rune) :
    t.walk U rs (n, p) =
      (n.find ((t.compare U).normal rs)).map fun m => (m, p ++ (t.compare U).normal rs) := by
  induction rs generalizing n p with
  | nil => simp [RuneTrie.walk, Compare.normal, Node.find]
  | cons r rs ih =>
    simp only [RuneTrie.walk, List.contains_iff_mem, ← compare_fold]
    by_cases hi : (t.compare U).fold r ∈ t.ignore
    · rw [normal_cons_mem _ _ _ hi, if_pos hi]
      exact ih n p
    · rw [normal_cons_not_mem _ _ _ hi, if_neg hi]
      generalize (t.compare U).fold r = r' at *
      simp only [Node.find]
      cases n.child r' with
      | none => rfl
      | some c =>
        simp only
        rw [ih]
        simp

/-- What `SearchCanonical` should return. -/
def SearchSpec (C : Compare) (D : Dict) (toks : List Token) (r : Found) : Prop :=
  if r.found then Longest C D (fun k => 1 ≤ k ∧ k ≤ toks.length) toks r.consumed r.canonical
  else r = { found := false, canonical := [], consumed := 0 } ∧
    ∀ k, 1 ≤ k → k ≤ toks.length → D (C.spell (toks.take k)) = none

/-- The loop of `SearchCanonical` after `done` tokens, with what it has found in them. -/
theorem searchLoop_spec (U : Unicode) (t : RuneTrie) (done rest : List Token) (n : Node)
    (result : Option (List Rune)) (acc : Found)
    (hn : t.root.find ((t.compare U).spell done) = some n)
    (hacc : SearchSpec (t.compare U) t.root.get done acc)
    (hres : result = if acc.found then some ((t.compare U).spell (done.take acc.consumed)) else none) :
    SearchSpec (t.compare U) t.root.get (done ++ rest)
      (t.searchLoop U done.length rest (n, (t.compare U).spell done) result acc) := by
  generalize hC : t.compare U = C at *
  induction rest generalizing done n result acc with
  | nil => simpa [RuneTrie.searchLoop] using hacc
  | cons token rest ih =>
    have hsp : C.spell (done ++ [token]) = C.spell done ++ C.normal (runes token.string) := by
      rw [spell_append]; congr 1; simp [Compare.spell, Token.string]
    have hfind : t.root.find (C.spell (done ++ [token])) =
        n.find (C.normal (runes token.string)) := by
      rw [hsp, Node.find_append, hn]; rfl
    simp only [RuneTrie.searchLoop, walk_eq, hC]
    cases hw : n.find (C.normal (runes token.string)) with
    | none =>
      -- the path ends: no longer prefix can be a synonym
      simp only [Option.map_none]
      have hlong : ∀ k, done.length < k → k ≤ (done ++ token :: rest).length →
          t.root.get (C.spell ((done ++ token :: rest).take k)) = none := by
        intro k hk1 hk2
        have : (done ++ token :: rest).take k = (done ++ [token]) ++ rest.take (k - done.length - 1) := by
          rw [List.take_append, List.take_of_length_le (by omega)]
          obtain ⟨m, hm⟩ : ∃ m, k - done.length = m + 1 := ⟨k - done.length - 1, by omega⟩
          rw [hm]; simp
        rw [this, spell_append]
        unfold Node.get
        rw [Node.find_append, hfind, hw]; rfl
      have htake : ∀ k, k ≤ done.length → (done ++ token :: rest).take k = done.take k := by
        intro k hk; rw [List.take_append_of_le_length hk]
      unfold SearchSpec at *
      cases hf : acc.found
      · simp only [hf, Bool.false_eq_true, ↓reduceIte] at hacc ⊢
        refine ⟨hacc.1, fun k h1 h2 => ?_⟩
        by_cases hk : k ≤ done.length
        · rw [htake k hk]; exact hacc.2 k h1 hk
        · exact hlong k (by omega) h2
      · simp only [hf, ↓reduceIte] at hacc ⊢
        obtain ⟨h1, h2, h3, h4⟩ := hacc
        refine ⟨⟨h1.1, by simp; omega⟩, ?_, ?_, ?_⟩
        · rw [htake _ h1.2]; exact h2
        · intro j hj hlt hD
          by_cases hk : j ≤ done.length
          · rw [htake j hk] at hD ⊢
            rw [htake _ h1.2]; exact h3 j ⟨hj.1, hk⟩ hlt hD
          · exact absurd (hlong j (by omega) hj.2) hD
        · intro j hj hlt
          rw [htake j (by omega), htake _ h1.2]
          exact h4 j ⟨hj.1, by omega⟩ hlt
    | some m =>
      simp only [Option.map_some]
      rw [← hsp]
      have hnew : t.root.find (C.spell (done ++ [token])) = some m := hfind.trans hw
      have hget : t.root.get (C.spell (done ++ [token])) =
          if m.hasCanonical then some m.canonical else none := by
        unfold Node.get; rw [hnew]
      have htake : ∀ k, k ≤ done.length → (done ++ [token]).take k = done.take k := by
        intro k hk; rw [List.take_append_of_le_length hk]
      have htakeAll : (done ++ [token]).take (done.length + 1) = done ++ [token] := by
        rw [List.take_of_length_le]; simp
      have hlen : (done ++ [token]).length = done.length + 1 := by simp
      have happ : done ++ token :: rest = (done ++ [token]) ++ rest := by simp
      rw [happ]
      split
      · -- a new result
        rename_i hcond
        simp only [Bool.and_eq_true, bne_iff_ne, ne_eq] at hcond
        obtain ⟨hcan, hne⟩ := hcond
        rw [← hlen]
        refine ih (done ++ [token]) m _ _ hnew ?_ ?_
        · unfold SearchSpec
          simp only [↓reduceIte, hlen]
          refine ⟨⟨by omega, by omega⟩, ?_, ?_, ?_⟩
          · rw [htakeAll, hget, hcan]; rfl
          · intro j hj hlt; omega
          · intro j hj hlt
            rw [htakeAll, htake j (by omega)]
            -- an earlier prefix with the same spelling would have been the result already
            intro heq
            have hD : t.root.get (C.spell (done.take j)) ≠ none := by
              rw [heq, hget, hcan]; simp
            unfold SearchSpec at hacc
            cases hf : acc.found
            · simp only [hf, Bool.false_eq_true, ↓reduceIte] at hacc
              exact hD (hacc.2 j hj.1 (by omega))
            · simp only [hf, ↓reduceIte] at hacc hres
              apply hne
              rw [hres]
              congr 1
              by_cases hjc : acc.consumed < j
              · rw [← heq]; exact hacc.longest j ⟨hj.1, by omega⟩ hjc hD
              · -- j ≤ consumed: spellings only grow
                have e1 : done.take acc.consumed = done.take j ++ (done.take acc.consumed).drop j := by
                  have := List.take_append_drop j (done.take acc.consumed)
                  rw [List.take_take, Nat.min_eq_left (by omega)] at this
                  exact this.symm
                have e2 : done ++ [token] = done.take acc.consumed ++ (done.drop acc.consumed ++ [token]) := by
                  rw [← List.append_assoc, List.take_append_drop]
                have l1 : C.spell (done.take acc.consumed) =
                    C.spell (done.take j) ++ C.spell ((done.take acc.consumed).drop j) := by
                  rw [← spell_append, ← e1]
                have l2 : C.spell (done ++ [token]) = C.spell (done.take acc.consumed) ++
                    C.spell (done.drop acc.consumed ++ [token]) := by
                  rw [← spell_append, ← e2]
                have l3 := congrArg List.length l1
                have l4 := congrArg List.length l2
                rw [← heq] at l4
                simp only [List.length_append] at l3 l4
                have z : C.spell ((done.take acc.consumed).drop j) = [] :=
                  List.eq_nil_of_length_eq_zero (by omega)
                rw [l1, z, List.append_nil]
                exact heq.symm
        · simp only [↓reduceIte, hlen]
          rw [htakeAll]
      · -- nothing new
        rename_i hcond
        rw [← hlen]
        have hcond' : m.hasCanonical = true → some (C.spell (done ++ [token])) = result := by
          intro h; simpa [h] using hcond
        refine ih (done ++ [token]) m result acc hnew ?_ ?_
        · unfold SearchSpec at hacc ⊢
          cases hf : acc.found
          · simp only [hf, Bool.false_eq_true, ↓reduceIte] at hacc hres ⊢
            refine ⟨hacc.1, fun k h1 h2 => ?_⟩
            by_cases hk : k ≤ done.length
            · rw [htake k hk]; exact hacc.2 k h1 hk
            · have : k = done.length + 1 := by omega
              rw [this, htakeAll, hget]
              cases hm : m.hasCanonical
              · rfl
              · have := hcond' hm
                rw [hres] at this
                cases this
          · simp only [hf, ↓reduceIte] at hacc hres ⊢
            obtain ⟨h1, h2, h3, h4⟩ := hacc
            refine ⟨⟨h1.1, by omega⟩, ?_, ?_, ?_⟩
            · rw [htake _ h1.2]; exact h2
            · intro j hj hlt hD
              by_cases hk : j ≤ done.length
              · rw [htake j hk] at hD ⊢
                rw [htake _ h1.2]; exact h3 j ⟨hj.1, hk⟩ hlt hD
              · have : j = done.length + 1 := by omega
                rw [this, htakeAll] at hD ⊢
                rw [hget] at hD
                cases hm : m.hasCanonical
                · simp [hm] at hD
                · have := hcond' hm
                  rw [hres] at this
                  rw [htake _ h1.2]
                  exact Option.some.inj this
            · intro j hj hlt
              rw [htake j (by omega), htake _ h1.2]
              exact h4 j ⟨hj.1, by omega⟩ hlt
        · cases hf : acc.found
          · simp only [hf, Bool.false_eq_true, ↓reduceIte] at hres ⊢
            exact hres
          · simp only [hf, ↓reduceIte] at hres ⊢
            unfold SearchSpec at hacc
            simp only [hf, ↓reduceIte] at hacc
            rw [htake _ hacc.mem.2]
            exact hres

theorem search_spec (U : Unicode) (t : RuneTrie) (toks : List Token) :
    SearchSpec (t.compare U) t.root.get toks (t.searchCanonical U toks) := by
  have := searchLoop_spec U t [] toks t.root none { found := false, canonical := [], consumed := 0 }
    rfl (by
      unfold SearchSpec
      simp only [Bool.false_eq_true, ↓reduceIte, true_and]
      intro k h1 h2; simp at h2; omega) rfl
  simpa [RuneTrie.searchCanonical] using this

end Jargon
