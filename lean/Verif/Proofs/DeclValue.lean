import Verif.Proofs.Decl

/-! The characters of a printed filter, and the value of the literal it is read as. -/

namespace Jargon

/-! ### Characters -/

/-- The text is UTF-8, and the runes `l` are in it as far as they are valid; the others are plain. -/
def Spelling (s : Bytes) (l : List Rune) : Prop :=
  ∃ rs, (∀ r ∈ rs, ValidRune r) ∧ s = encodeRunes rs ∧ (∀ r ∈ rs, r ∈ l ∨ (r ≠ 0 ∧ r ≠ 0xFEFF)) ∧
    ∀ r ∈ l, ValidRune r → r ∈ rs

theorem PlainText.spelling {s : Bytes} (h : PlainText s) : Spelling s [] := by
  obtain ⟨rs, h1, h2⟩ := h
  exact ⟨rs, fun r hr => (h1 r hr).1, h2, fun r hr => .inr (h1 r hr).2, by simp⟩

theorem Spelling.append {a b : Bytes} {k l : List Rune} (ha : Spelling a k) (hb : Spelling b l) :
    Spelling (a ++ b) (k ++ l) := by
  obtain ⟨x, x1, rfl, x3, x4⟩ := ha
  obtain ⟨y, y1, rfl, y3, y4⟩ := hb
  refine ⟨x ++ y, ?_, (encodeRunes_append x y).symm, ?_, ?_⟩
  · intro r hr
    exact (List.mem_append.mp hr).elim (x1 r) (y1 r)
  · intro r hr
    rcases List.mem_append.mp hr with hr | hr
    · exact (x3 r hr).imp (List.mem_append_left _) id
    · exact (y3 r hr).imp (List.mem_append_right _) id
  · intro r hr hv
    rcases List.mem_append.mp hr with hr | hr
    · exact List.mem_append_left _ (x4 r hr hv)
    · exact List.mem_append_right _ (y4 r hr hv)

theorem Spelling.plain_append {a b : Bytes} {l : List Rune} (ha : PlainText a) (hb : Spelling b l) :
    Spelling (a ++ b) l := ha.spelling.append hb

theorem Spelling.append_plain {a b : Bytes} {l : List Rune} (ha : Spelling a l) (hb : PlainText b) :
    Spelling (a ++ b) l := by simpa using ha.append hb.spelling

theorem Spelling.plain_iff {s : Bytes} {l : List Rune} (h : Spelling s l) :
    PlainText s ↔ ∀ r ∈ l, r ≠ 0 ∧ r ≠ 0xFEFF := by
  obtain ⟨rs, h1, h2, h3, h4⟩ := h
  constructor
  · rintro ⟨rs', h5, h6⟩ r hr
    have : rs = rs' := by
      rw [← runes_encodeRunes h1, ← runes_encodeRunes fun r hr => (h5 r hr).1, ← h2, ← h6]
    by_cases hv : ValidRune r
    · exact (h5 r (this ▸ h4 r hr hv)).2
    · constructor
      · rintro rfl; exact hv (by decide)
      · rintro rfl; exact hv (by decide)
  · intro h
    exact ⟨rs, fun r hr => ⟨h1 r hr, (h3 r hr).elim (h r) id⟩, h2⟩

theorem spelling_rune (r : Rune) : Spelling (runeText r) [r] := by
  have hq : PlainText [0x27] := plain_ascii (by decide)
  refine Spelling.append_plain (Spelling.plain_append hq ?_) hq
  by_cases hv : ValidRune r
  · refine ⟨[r], ?_, by simp [encodeRunes], ?_, ?_⟩ <;> simp [hv]
  · rw [encodeRune_invalid hv]
    refine ⟨[runeError], by simp [validRune_runeError], by simp [encodeRunes], ?_, ?_⟩
    · simp [runeError]
    · simp [hv]

mutual
theorem spelling_node {isPrint : Rune → Bool} (hl : PrintLaws isPrint) : (n : Node) →
    Spelling (nodeString isPrint n) n.runes
  | .mk children h c => by
    have h1 : PlainText (str "&trie.Node{\n" ++ (if h then str "\tHasCanonical: true,\n" else [])
        ++ (if c ≠ [] then str "Canonical: " ++ quote isPrint c ++ str ",\n" else [])) := by
      refine ((plain_ascii (by decide +kernel)).append ?_).append ?_
      · split
        · exact plain_ascii (by decide +kernel)
        · exact plain_nil
      · split
        · exact ((plain_ascii (by decide +kernel)).append (plain_quote hl c)).append (plain_ascii (by decide +kernel))
        · exact plain_nil
    have h2 : PlainText (str "}") := plain_ascii (by decide +kernel)
    rw [Node.runes]
    cases children with
    | nil =>
      rw [nodeString, List.append_nil]
      exact (h1.append h2).spelling
    | cons x xs =>
      rw [nodeString]
      refine Spelling.append_plain (Spelling.plain_append h1 ?_) h2
      refine Spelling.append_plain (Spelling.plain_append (plain_ascii (by decide +kernel)) ?_)
        (plain_ascii (by decide +kernel))
      exact spelling_children hl (x :: xs)
theorem spelling_children {isPrint : Rune → Bool} (hl : PrintLaws isPrint) : (l : List (Rune × Node)) →
    Spelling (childrenString isPrint l) (childRunes l)
  | [] => plain_nil.spelling
  | (r, c) :: l => by
    rw [childrenString, childRunes]
    have h1 := (spelling_rune r).append_plain (b := str ": ") (plain_ascii (by decide +kernel))
    have h2 := (h1.append (spelling_node hl c)).append_plain (b := str ",\n") (plain_ascii (by decide +kernel))
    simpa using h2.append (spelling_children hl l)
end

theorem spelling_ignore (l : List Rune) : Spelling (l.flatMap fun r => runeText r ++ str ": true,\n") l := by
  induction l with
  | nil => exact plain_nil.spelling
  | cons r l ih =>
    rw [List.flatMap_cons]
    have := ((spelling_rune r).append_plain (b := str ": true,\n") (plain_ascii (by decide +kernel))).append ih
    simpa using this

theorem plain_itoa (n : Nat) : PlainText (itoa n) := by
  induction n using Nat.strongRecOn with
  | _ n ih =>
    have h1 : ∀ d : Fin 10, ∀ b ∈ [UInt8.ofNat (48 + d.1)], b ≠ 0 ∧ b.toNat < 0x80 := by decide +kernel
    rw [itoa]
    split
    · rename_i hn
      exact plain_ascii (h1 ⟨n, hn⟩)
    · exact (ih (n / 10) (by omega)).append (plain_ascii (h1 ⟨n % 10, Nat.mod_lt _ (by omega)⟩))

theorem spelling_filter {isPrint : Rune → Bool} (hl : PrintLaws isPrint) (f : SynFilter) :
    Spelling (declString isPrint (some f)) (ignoreKeys f.trie.ignore ++ f.trie.root.runes) := by
  have h2 : PlainText (str "}") := plain_ascii (by decide +kernel)
  have hc : PlainText (str ",\n") := plain_ascii (by decide +kernel)
  have ht : Spelling (trieString isPrint f.trie) (ignoreKeys f.trie.ignore ++ f.trie.root.runes) := by
    have h1 : PlainText (str "&trie.RuneTrie{\n" ++ str "Ignore: map[rune]bool{\n") :=
      plain_ascii (by decide +kernel)
    rw [trieString]
    refine Spelling.append_plain (Spelling.append_plain ?_ hc) h2
    refine Spelling.append ?_ (spelling_node hl f.trie.root)
    refine Spelling.append_plain (Spelling.append_plain (Spelling.append_plain
      (Spelling.plain_append h1 (spelling_ignore _)) (plain_ascii (by decide +kernel))) ?_)
      (plain_ascii (by decide +kernel))
    split
    · exact plain_ascii (by decide +kernel)
    · exact plain_nil
  rw [declString]
  refine Spelling.append_plain (Spelling.plain_append (plain_ascii (by decide +kernel)) ?_) h2
  refine Spelling.append_plain (Spelling.append_plain (Spelling.plain_append (plain_ascii (by decide +kernel)) ht) hc) ?_
  split
  · exact ((plain_ascii (by decide +kernel)).append (plain_itoa _)).append hc
  · exact plain_nil

/-! ### Only valid runes are read -/

/-- All runes among the tokens are valid. -/
def RunesValid (toks : List DeclTok) : Prop := ∀ r, DeclTok.rune r ∈ toks → ValidRune r

theorem RunesValid.nil : RunesValid [] := by intro r h; cases h

theorem RunesValid.append {a b : List DeclTok} (ha : RunesValid a) (hb : RunesValid b) : RunesValid (a ++ b) := by
  intro r h
  exact (List.mem_append.mp h).elim (ha r) (hb r)

theorem declAfter_valid {toks : List DeclTok} {x : DeclStep} (ht : RunesValid toks)
    (hx : ∀ r, x = .ok r → RunesValid r.1) {r} (h : declAfter toks x = .ok r) : RunesValid r.1 := by
  cases x with
  | error e => cases h
  | ok y => cases h; exact ht.append (hx _ rfl)

theorem declCode_valid {e : Bool} {b : UInt8} {r} (h : declCode e b = .ok r) : RunesValid r.1 := by
  unfold declCode at h
  repeat' split at h
  all_goals cases h <;> intro r hr <;> simp [declEnd] at hr

theorem declStep_valid {st : DeclState} {b : UInt8} {r} (h : declStep st b = .ok r) : RunesValid r.1 := by
  obtain ⟨mode, e⟩ := st
  unfold declStep at h
  cases mode with
  | code => exact declCode_valid h
  | word s =>
    simp only at h
    split at h
    · cases h; exact .nil
    · exact declAfter_valid (by intro r h; simp at h) (fun _ => declCode_valid) h
  | num n =>
    simp only at h
    split at h
    · split at h
      · cases h
      · cases h; exact .nil
    split at h
    · cases h
    · exact declAfter_valid (by intro r h; simp at h) (fun _ => declCode_valid) h
  | text m =>
    simp only at h
    split at h
    · cases h
    · cases h; exact .nil
    · cases h; intro r h; simp at h
    · cases h
  | rune s =>
    simp only at h
    split at h
    · unfold runeLit at h
      split at h
      · rename_i x hx
        split at h
        · cases h
          intro r hr
          simp only [List.mem_singleton, DeclTok.rune.injEq] at hr
          subst hr
          exact runes_valid s r (by rw [hx]; exact List.mem_singleton.mpr rfl)
        · cases h
      · cases h
    split at h
    · cases h
    split at h
    · split at h
      · cases h; exact .nil
      · cases h
    · cases h; exact .nil
  | runeEscape =>
    simp only at h
    repeat' split at h
    all_goals cases h <;> exact .nil

theorem declRun_valid {st : DeclState} {s : Bytes} {r} (h : declRun st s = .ok r) : RunesValid r.1 := by
  induction s generalizing st r with
  | nil => cases h; exact .nil
  | cons b t ih =>
    simp only [declRun] at h
    split at h
    · cases h
    · rename_i y hy
      exact declAfter_valid (declStep_valid hy) (fun _ h => ih h) h

theorem declLex_valid {s : Bytes} {toks : List DeclTok} (h : declLex s = .ok toks) : RunesValid toks := by
  unfold declLex at h
  split at h
  · cases h
  rename_i t st ht
  have := declRun_valid ht
  split at h
  · cases h; refine this.append ?_; intro r hr; unfold declEnd at hr; split at hr <;> simp at hr
  · cases h; refine this.append ?_; intro r hr; unfold declEnd at hr
    simp only [List.mem_cons, reduceCtorEq, false_or] at hr
    split at hr <;> simp at hr
  · cases h; refine this.append ?_; intro r hr; simp at hr
  · cases h

/-! ### The type of the literal -/

theorem childLits_keys (l : List (Rune × Node)) : (childLits l).map Prod.fst = l.map Prod.fst := by
  induction l with
  | nil => rfl
  | cons x l ih => obtain ⟨r, c⟩ := x; simp [childLits, ih]

theorem mem_childLits {l : List (Rune × Node)} {e : Rune × GoLit} (h : e ∈ childLits l) :
    ∃ c, (e.1, c) ∈ l ∧ e.2 = nodeLit c := by
  induction l with
  | nil => cases h
  | cons x l ih =>
    obtain ⟨r, c⟩ := x
    rw [childLits] at h
    rcases List.mem_cons.mp h with rfl | h
    · exact ⟨c, by simp, rfl⟩
    · obtain ⟨c', h1, h2⟩ := ih h
      exact ⟨c', by simp [h1], h2⟩

/-- The types of the fields of a node. -/
def nodeTy (k : Bytes) : GoType :=
  if k = str "HasCanonical" then .bool else if k = str "Canonical" then .string
  else .map (.ptr (str "trie") (str "Node"))

theorem nodeTy_mem : (str "HasCanonical", nodeTy (str "HasCanonical")) ∈ (printedStructs[2]).2 ∧
    (str "Canonical", nodeTy (str "Canonical")) ∈ (printedStructs[2]).2 ∧
    (str "Children", nodeTy (str "Children")) ∈ (printedStructs[2]).2 := by decide +kernel

theorem nodeTy_eq : nodeTy (str "HasCanonical") = .bool ∧ nodeTy (str "Canonical") = .string ∧
    nodeTy (str "Children") = .map (.ptr (str "trie") (str "Node")) := by decide +kernel

theorem node_type {n : Node} (h : n.Proper) :
    HasType printedStructs (nodeLit n) (.ptr (str "trie") (str "Node")) := by
  induction h with
  | @mk children h c hn hv hc ih =>
    have hkeys : (str "HasCanonical" ≠ str "Canonical" ∧ str "HasCanonical" ≠ str "Children" ∧
      str "Canonical" ≠ str "Children") := by decide +kernel
    have hch : ∀ l : List (Rune × Node), (l.map Prod.fst).Nodup → (∀ e ∈ l, e ∈ children) →
        HasType printedStructs (.map (.ptr (str "trie") (str "Node")) (childLits l))
          (.map (.ptr (str "trie") (str "Node"))) := by
      intro l hl hm
      refine .map (by rw [childLits_keys]; exact hl) ?_
      intro e he
      obtain ⟨x, h1, h2⟩ := mem_childLits he
      rw [h2]
      exact ih _ (hm _ h1)
    have main : ∀ fields : List (Bytes × GoLit), (fields.map Prod.fst).Nodup →
        (∀ e ∈ fields, (e = (str "HasCanonical", .bool true) ∨ e = (str "Canonical", .text c) ∨
          e = (str "Children", .map (.ptr (str "trie") (str "Node")) (childLits children)))) →
        HasType printedStructs (.ptr (str "trie") (str "Node") fields) (.ptr (str "trie") (str "Node")) := by
      intro fields h1 h2
      refine .ptr (types := (printedStructs[2]).2) nodeTy (by decide +kernel) h1 ?_ ?_
      · intro e he
        rcases h2 e he with rfl | rfl | rfl
        · exact nodeTy_mem.1
        · exact nodeTy_mem.2.1
        · exact nodeTy_mem.2.2
      · intro e he
        rcases h2 e he with rfl | rfl | rfl
        · show HasType _ _ (nodeTy (str "HasCanonical"))
          rw [nodeTy_eq.1]; exact .bool _
        · show HasType _ _ (nodeTy (str "Canonical"))
          rw [nodeTy_eq.2.1]; exact .text _
        · show HasType _ _ (nodeTy (str "Children"))
          rw [nodeTy_eq.2.2]; exact hch children hn fun _ h => h
    obtain ⟨k1, k2, k3⟩ := hkeys
    cases children with
    | nil =>
      rw [nodeLit]
      apply main
      · cases h <;> by_cases hs : c = [] <;> simp [hs, k1, k2, k3]
      · cases h <;> by_cases hs : c = [] <;> simp [hs]
    | cons x xs =>
      rw [nodeLit]
      apply main
      · cases h <;> by_cases hs : c = [] <;> simp [hs, k1, k2, k3]
      · cases h <;> by_cases hs : c = [] <;> simp [hs]

theorem trie_type {t : RuneTrie} (h : t.root.Proper) :
    HasType printedStructs (trieLit t) (.ptr (str "trie") (str "RuneTrie")) := by
  let ty : Bytes → GoType := fun k => if k = str "Ignore" then .map .bool else if k = str "IgnoreCase" then .bool
    else .ptr (str "trie") (str "Node")
  have h1 : ty (str "Ignore") = .map .bool ∧ ty (str "IgnoreCase") = .bool ∧
      ty (str "Root") = .ptr (str "trie") (str "Node") := by decide +kernel
  have h2 : (str "Ignore", ty (str "Ignore")) ∈ (printedStructs[1]).2 ∧
    (str "IgnoreCase", ty (str "IgnoreCase")) ∈ (printedStructs[1]).2 ∧
    (str "Root", ty (str "Root")) ∈ (printedStructs[1]).2 := by decide +kernel
  have hkeys : str "Ignore" ≠ str "IgnoreCase" ∧ str "Ignore" ≠ str "Root" ∧
      str "IgnoreCase" ≠ str "Root" := by decide +kernel
  obtain ⟨k1, k2, k3⟩ := hkeys
  have hm : ∀ e ∈ [(str "Ignore", GoLit.map .bool (ignoreLits (ignoreKeys t.ignore)))]
      ++ (if t.ignoreCase then [(str "IgnoreCase", .bool true)] else []) ++ [(str "Root", nodeLit t.root)],
      e = (str "Ignore", GoLit.map .bool (ignoreLits (ignoreKeys t.ignore))) ∨
      e = (str "IgnoreCase", .bool true) ∨ e = (str "Root", nodeLit t.root) := by
    intro e he
    cases hc : t.ignoreCase <;> simp [hc] at he
    · rcases he with h | h <;> simp [h]
    · rcases he with h | h | h <;> simp [h]
  rw [trieLit]
  refine .ptr (types := (printedStructs[1]).2) ty (by decide +kernel) ?_ ?_ ?_
  · cases hc : t.ignoreCase <;> simp [k1, k2, k3]
  · intro e he
    rcases hm e he with rfl | rfl | rfl
    · exact h2.1
    · exact h2.2.1
    · exact h2.2.2
  · intro e he
    rcases hm e he with rfl | rfl | rfl
    · show HasType _ _ (ty (str "Ignore"))
      rw [h1.1]
      refine .map ?_ ?_
      · have : (ignoreLits (ignoreKeys t.ignore)).map Prod.fst = ignoreKeys t.ignore := by
          simp [ignoreLits, Function.comp_def]
        rw [this]
        exact nodup_ignoreKeys _
      · intro e he
        obtain ⟨r, -, rfl⟩ := List.mem_map.mp he
        exact .bool _
    · show HasType _ _ (ty (str "IgnoreCase"))
      rw [h1.2.1]; exact .bool _
    · show HasType _ _ (ty (str "Root"))
      rw [h1.2.2]; exact node_type h

theorem filter_type {f : SynFilter} (h : f.trie.root.Proper) :
    HasType printedStructs (filterLit f) (.ptr (str "synonyms") (str "Filter")) := by
  let ty : Bytes → GoType := fun k => if k = str "MaxWords" then .int else .ptr (str "trie") (str "RuneTrie")
  have h1 : ty (str "Trie") = .ptr (str "trie") (str "RuneTrie") ∧ ty (str "MaxWords") = .int := by decide +kernel
  have h2 : (str "Trie", ty (str "Trie")) ∈ (printedStructs[0]).2 ∧
    (str "MaxWords", ty (str "MaxWords")) ∈ (printedStructs[0]).2 := by decide +kernel
  have k1 : str "Trie" ≠ str "MaxWords" := by decide +kernel
  have hm : ∀ e ∈ [(str "Trie", trieLit f.trie)] ++ (if 0 < f.maxWords then [(str "MaxWords", .num f.maxWords)] else []),
      e = (str "Trie", trieLit f.trie) ∨ e = (str "MaxWords", .num f.maxWords) := by
    intro e he
    by_cases hc : 0 < f.maxWords <;> simp [hc] at he
    · rcases he with h | h <;> simp [h]
    · simp [he]
  rw [filterLit]
  refine .ptr (types := (printedStructs[0]).2) ty (by decide +kernel) ?_ ?_ ?_
  · by_cases hc : 0 < f.maxWords <;> simp [hc, k1]
  · intro e he
    rcases hm e he with rfl | rfl
    · exact h2.1
    · exact h2.2
  · intro e he
    rcases hm e he with rfl | rfl
    · show HasType _ _ (ty (str "Trie"))
      rw [h1.1]; exact trie_type h
    · show HasType _ _ (ty (str "MaxWords"))
      rw [h1.2]; exact .num _

/-! ### The value of the literal -/

theorem lookup_childLits (l : List (Rune × Node)) (r : Rune) :
    (childLits l).lookup r = (l.lookup r).map nodeLit := by
  induction l with
  | nil => rfl
  | cons x l ih =>
    obtain ⟨k, c⟩ := x
    rw [childLits, List.lookup_cons, List.lookup_cons]
    split
    · rfl
    · exact ih

theorem node_fields (children : List (Rune × Node)) (h : Bool) (c : Bytes) :
    (nodeLit (.mk children h c)).flag (str "HasCanonical") = h ∧
    (nodeLit (.mk children h c)).txt (str "Canonical") = c ∧
    ∀ r, (nodeLit (.mk children h c)).at? (str "Children") r = (children.lookup r).map nodeLit := by
  have hkeys : (str "HasCanonical" == str "Canonical") = false ∧ (str "HasCanonical" == str "Children") = false ∧
      (str "Canonical" == str "HasCanonical") = false ∧ (str "Canonical" == str "Children") = false ∧
      (str "Children" == str "HasCanonical") = false ∧ (str "Children" == str "Canonical") = false := by
    decide +kernel
  obtain ⟨k1, k2, k3, k4, k5, k6⟩ := hkeys
  cases children with
  | nil =>
    rw [nodeLit]
    cases h <;> by_cases hs : c = [] <;>
      simp [GoLit.flag, GoLit.txt, GoLit.at?, GoLit.field?, List.lookup_cons, hs, k1, k2, k3, k4, k5, k6]
  | cons x xs =>
    have := lookup_childLits (x :: xs)
    rw [nodeLit]
    cases h <;> by_cases hs : c = [] <;>
      simp [GoLit.flag, GoLit.txt, GoLit.at?, GoLit.field?, List.lookup_cons, hs, k1, k2, k3, k4, k5, k6, this]

theorem node_path (n : Node) (q : List Rune) :
    (nodeLit n).path (str "Children") (str "HasCanonical") (str "Canonical") q = n.get q := by
  induction q generalizing n with
  | nil =>
    cases n with
    | mk children h c =>
      obtain ⟨h1, h2, -⟩ := node_fields children h c
      rw [GoLit.path, h1, h2, Node.get_nil]
      rfl
  | cons r q ih =>
    rw [GoLit.path, Node.get_cons]
    cases n with
    | mk children h c =>
      rw [(node_fields children h c).2.2, show (Node.mk children h c).child r = children.lookup r from rfl]
      cases children.lookup r with
      | none => rfl
      | some x => exact ih x

theorem lookup_ignoreLits (l : List Rune) (r : Rune) : (ignoreLits l).lookup r = some (.bool true) ↔ r ∈ l := by
  induction l with
  | nil => simp [ignoreLits]
  | cons x l ih =>
    have : ignoreLits (x :: l) = (x, .bool true) :: ignoreLits l := rfl
    rw [this, List.lookup_cons]
    by_cases h : r = x
    · simp [h]
    · have : (r == x) = false := by simpa using h
      simp only [this, ih, List.mem_cons, h, false_or]

theorem filter_describes (f : SynFilter) : Describes (filterLit f) f := by
  have hkeys : (str "Ignore" == str "IgnoreCase") = false ∧ (str "Ignore" == str "Root") = false ∧
      (str "IgnoreCase" == str "Ignore") = false ∧ (str "IgnoreCase" == str "Root") = false ∧
      (str "Root" == str "Ignore") = false ∧ (str "Root" == str "IgnoreCase") = false ∧
      (str "Trie" == str "MaxWords") = false ∧ (str "MaxWords" == str "Trie") = false := by decide +kernel
  obtain ⟨k1, k2, k3, k4, k5, k6, k7, k8⟩ := hkeys
  refine ⟨trieLit f.trie, nodeLit f.trie.root, ?_, ?_, node_path _, ?_, ?_, ?_⟩
  · simp [filterLit, GoLit.field?, List.lookup_cons]
  · cases hc : f.trie.ignoreCase <;> simp [trieLit, GoLit.field?, List.lookup_cons, hc, k5, k6]
  · intro r
    rw [← mem_ignoreKeys, ← lookup_ignoreLits]
    simp [trieLit, GoLit.at?, GoLit.field?, List.lookup_cons]
  · cases hc : f.trie.ignoreCase <;> simp [trieLit, GoLit.flag, GoLit.field?, List.lookup_cons, hc, k3, k4]
  · by_cases hc : 0 < f.maxWords
    · simp [filterLit, GoLit.int, GoLit.field?, List.lookup_cons, hc, k8]
    · have : f.maxWords = 0 := by omega
      simp [filterLit, GoLit.int, GoLit.field?, List.lookup_cons, this, k8]

/-! ### Runes of a literal are among its tokens -/

theorem mem_fieldToks {k : Bytes} {v : GoLit} {l : List (Bytes × GoLit)} (h : l.lookup k = some v) {t : DeclTok}
    (ht : t ∈ v.toks) : t ∈ fieldToks l := by
  induction l with
  | nil => cases h
  | cons x l ih =>
    obtain ⟨k', w⟩ := x
    rw [List.lookup_cons] at h
    rw [fieldToks]
    split at h
    · cases h; simp [ht]
    · simp [ih h]

theorem mem_entryToks {r : Rune} {v : GoLit} {l : List (Rune × GoLit)} (h : l.lookup r = some v) :
    DeclTok.rune r ∈ entryToks l := by
  induction l with
  | nil => cases h
  | cons x l ih =>
    obtain ⟨k, w⟩ := x
    rw [List.lookup_cons] at h
    rw [entryToks]
    split at h
    · rename_i hk
      have : r = k := by simpa using hk
      simp [this]
    · simp [ih h]

theorem mem_field {v w : GoLit} {k : Bytes} (h : v.field? k = some w) {t : DeclTok} (ht : t ∈ w.toks) :
    t ∈ v.toks := by
  cases v with
  | ptr pkg name fields =>
    rw [GoLit.toks]
    exact List.mem_append_left _ (List.mem_append_right _ (mem_fieldToks h ht))
  | _ => cases h

theorem mem_at {v w : GoLit} {k : Bytes} {r : Rune} (h : v.at? k r = some w) : DeclTok.rune r ∈ v.toks := by
  unfold GoLit.at? at h
  split at h
  · rename_i t entries hf
    refine mem_field hf ?_
    rw [GoLit.toks]
    exact List.mem_append_left _ (List.mem_append_right _ (mem_entryToks h))
  · cases h

end Jargon
