import Verif.Spec.Decl
import Verif.Model.Decl
import Verif.Proofs.GoSource
import Verif.Proofs.Bufio

/-! Reading a printed filter with the scanner of `Verif.Spec.GoLiteral`. -/

namespace Jargon

/-! ### The scanner -/

theorem declAfter_after (a b : List DeclTok) (x : DeclStep) : declAfter a (declAfter b x) = declAfter (a ++ b) x := by
  cases x <;> simp [declAfter]

theorem declAfter_nil (x : DeclStep) : declAfter [] x = x := by cases x <;> rfl

theorem declRun_append (st : DeclState) (a b : Bytes) : declRun st (a ++ b) =
    match declRun st a with | .error e => .error e | .ok r => declAfter r.1 (declRun r.2 b) := by
  induction a generalizing st with
  | nil => simp [declRun, declAfter_nil]
  | cons x t ih =>
    simp only [List.cons_append, declRun]
    cases declStep st x with
    | error e => rfl
    | ok r =>
      simp only [ih]
      cases declRun r.2 t with
      | error e => rfl
      | ok r1 => simp only [declAfter]; exact declAfter_after _ _ _

theorem declRun_ok {st : DeclState} {a : Bytes} {r : List DeclTok × DeclState} (h : declRun st a = .ok r) (b : Bytes) :
    declRun st (a ++ b) = declAfter r.1 (declRun r.2 b) := by rw [declRun_append, h]

theorem declRun_error {st : DeclState} {a : Bytes} {e : LexError} (h : declRun st a = .error e) (b : Bytes) :
    declRun st (a ++ b) = .error e := by rw [declRun_append, h]

/-- Between tokens before and after. -/
def Run (e : Bool) (a : Bytes) (toks : List DeclTok) (e' : Bool) : Prop :=
  declRun ⟨.code, e⟩ a = .ok (toks, ⟨.code, e'⟩)

theorem Run.append {e e1 e2 : Bool} {a b : Bytes} {s t : List DeclTok} (h : Run e a s e1) (h' : Run e1 b t e2) :
    Run e (a ++ b) (s ++ t) e2 := by
  unfold Run at h h' ⊢
  rw [declRun_ok h, h']
  rfl

theorem Run.nil (e : Bool) : Run e [] [] e := rfl

/-- An error, in whatever comes after. -/
def Fails (e : Bool) (a : Bytes) : Prop := ∃ x, declRun ⟨.code, e⟩ a = .error x

theorem Fails.append {e : Bool} {a : Bytes} (h : Fails e a) (b : Bytes) : Fails e (a ++ b) := by
  obtain ⟨x, hx⟩ := h
  exact ⟨x, declRun_error hx b⟩

theorem Run.fails {e e1 : Bool} {a b : Bytes} {s : List DeclTok} (h : Run e a s e1) (h' : Fails e1 b) :
    Fails e (a ++ b) := by
  obtain ⟨x, hx⟩ := h'
  refine ⟨x, ?_⟩
  unfold Run at h
  rw [declRun_ok h, hx]
  rfl

/-! ### String literals -/

theorem lexStep_text {m : LexMode} {b : UInt8} {st : LexState} (hm : m.inText = true)
    (h : lexStep ⟨m, []⟩ b = .ok st) (ht : st.toks = []) : st.mode.inText = true := by
  unfold lexStep at h
  cases m with
  | code => cases hm
  | word s => cases hm
  | slash => cases hm
  | comment => cases hm
  | text s =>
    simp only at h
    split at h
    · cases h; cases ht
    split at h
    · cases h
    split at h
    · cases h; rfl
    · cases h; rfl
  | escape s =>
    simp only at h
    repeat' split at h
    all_goals cases h <;> rfl
  | digits s left value rune =>
    simp only at h
    repeat' split at h
    all_goals cases h <;> rfl

theorem lexFrom_mem {st st1 : LexState} {s : Bytes} (h : lexFrom st s = .ok st1)
    {t : GoTok} (ht : t ∈ st.toks) : t ∈ st1.toks := by
  induction s generalizing st with
  | nil => cases h; exact ht
  | cons b r ih =>
    simp only [lexFrom] at h
    split at h
    · cases h
    · rename_i st2 h2
      exact ih h (lexStep_mem h2 ht)

theorem text_run {m : LexMode} {s : Bytes} {m' : LexMode} (hm : m.inText = true)
    (h : lexFrom ⟨m, []⟩ s = .ok ⟨m', []⟩) :
    declRun ⟨.text m, false⟩ s = .ok ([], ⟨.text m', false⟩) := by
  induction s generalizing m with
  | nil => cases h; rfl
  | cons b t ih =>
    simp only [lexFrom] at h
    split at h
    · cases h
    rename_i st2 h2
    have ht : st2.toks = [] := by
      cases hl : st2.toks with
      | nil => rfl
      | cons x l =>
        have := lexFrom_mem h (t := x) (by rw [hl]; exact List.mem_cons_self)
        cases this
    have hi := lexStep_text hm h2 ht
    obtain ⟨m2, t2⟩ := st2
    cases ht
    simp only [declRun, declStep, h2]
    rw [ih hi h]
    rfl

theorem quote_decl {isPrint : Rune → Bool} (hl : PrintLaws isPrint) (s : Bytes) (e : Bool) :
    Run e (quote isPrint s) [.text s] true := by
  have h0 : declRun ⟨.code, e⟩ [0x22] = .ok ([], ⟨.text (.text []), false⟩) := by cases e <;> rfl
  have h1 := tabFrom_lex.1 _ (quoteAux_run hl _ s (Nat.le_refl _) [] [])
  rw [List.nil_append] at h1
  unfold Run quote
  rw [List.append_assoc, declRun_ok h0, declRun_ok (text_run rfl h1)]
  rfl

/-! ### Rune literals -/

theorem rune_copy {s : Bytes} (h : ∀ b ∈ s, b ≠ 0x27 ∧ b ≠ 0x0A ∧ b ≠ 0x5C) (a : Bytes) :
    declRun ⟨.rune a, false⟩ s = .ok ([], ⟨.rune (a ++ s), false⟩) := by
  induction s generalizing a with
  | nil => simp [declRun]
  | cons b t ih =>
    obtain ⟨h1, h2, h3⟩ := h b List.mem_cons_self
    simp only [declRun, declStep, if_neg h1, if_neg h2, if_neg h3]
    rw [ih (fun b hb => h b (List.mem_cons_of_mem _ hb))]
    simp [declAfter]

theorem encode_safe {r : Rune} (hv : ValidRune r) (h : r ∉ unsafeRunes) :
    ∀ b ∈ encodeRune r, b ≠ 0x27 ∧ b ≠ 0x0A ∧ b ≠ 0x5C := by
  intro b hb
  simp only [unsafeRunes, List.mem_cons, List.not_mem_nil, or_false, not_or] at h
  by_cases h80 : r < 0x80
  · rw [encodeRune_ascii h80] at hb
    have e : b.toNat = r := by rw [List.mem_singleton.mp hb, toNat_ofNat (by omega)]
    refine ⟨?_, ?_, ?_⟩ <;> intro hb <;> rw [hb] at e <;> simp at e <;> omega
  · have := encode_high hv (by omega) b hb
    refine ⟨?_, ?_, ?_⟩ <;> intro hb <;> rw [hb] at this <;> simp at this

theorem rune_run {r : Rune} (hv : ValidRune r) (h : r ∉ unsafeRunes) (e : Bool) :
    Run e (runeText r) [.rune r] true := by
  have h0 : declRun ⟨.code, e⟩ [0x27] = .ok ([], ⟨.rune [], false⟩) := by cases e <;> rfl
  unfold Run runeText
  rw [List.append_assoc, declRun_ok h0, declRun_ok (rune_copy (encode_safe hv h) [])]
  have h1 : runes (encodeRune r) = [r] := by
    have := runes_encode_append hv []
    rw [List.append_nil] at this
    rw [this]
    rfl
  simp [declRun, declStep, runeLit, h1, declAfter]

theorem encodeRune_invalid {r : Rune} (h : ¬ ValidRune r) : encodeRune r = encodeRune runeError := by
  unfold encodeRune
  rw [if_neg h, if_pos validRune_runeError]

/-- Each rune that is not unsafe is read as a rune. -/
theorem rune_some {r : Rune} (h : r ∉ unsafeRunes) (e : Bool) :
    ∃ toks, Run e (runeText r) toks true := by
  by_cases hv : ValidRune r
  · exact ⟨_, rune_run hv h e⟩
  · have := rune_run (r := runeError) validRune_runeError (by decide) e
    unfold runeText at this ⊢
    rw [← encodeRune_invalid hv] at this
    exact ⟨_, this⟩

/-- And an unsafe one is not, with what follows it. -/
theorem rune_fails {r : Rune} (h : r ∈ unsafeRunes) (e : Bool) :
    Fails e (runeText r ++ str ": &trie.Node{\n") ∧ Fails e (runeText r ++ str ": true,\n") := by
  have : ∀ e ∈ [true, false], ∀ r ∈ unsafeRunes,
      (match declRun ⟨.code, e⟩ (runeText r ++ str ": &trie.Node{\n") with | .error _ => true | _ => false) = true ∧
      (match declRun ⟨.code, e⟩ (runeText r ++ str ": true,\n") with | .error _ => true | _ => false) = true := by
    decide +kernel
  obtain ⟨h1, h2⟩ := this e (by cases e <;> simp) r h
  constructor
  · unfold Fails
    split at h1
    · rename_i x hx; exact ⟨x, hx⟩
    · cases h1
  · unfold Fails
    split at h2
    · rename_i x hx; exact ⟨x, hx⟩
    · cases h2

/-! ### Numbers -/

theorem itoa_run {n : Nat} (h : 0 < n) (e : Bool) :
    declRun ⟨.code, e⟩ (itoa n) = .ok ([], ⟨.num n, false⟩) := by
  induction n using Nat.strongRecOn with
  | _ n ih =>
    rw [itoa]
    split
    · rename_i hn
      have : ∀ e ∈ [true, false], ∀ n : Fin 10,
          declRun ⟨.code, e⟩ [UInt8.ofNat (48 + n.1)] = .ok ([], ⟨.num n.1, false⟩) := by decide +kernel
      exact this e (by cases e <;> simp) ⟨n, hn⟩
    · rename_i hn
      rw [declRun_ok (ih (n / 10) (by omega) (by omega))]
      have hd : n % 10 < 10 := Nat.mod_lt _ (by omega)
      have h1 : ∀ d : Fin 10, isDigitByte (UInt8.ofNat (48 + d.1)) = true ∧
          (UInt8.ofNat (48 + d.1)).toNat - 0x30 = d.1 := by decide +kernel
      obtain ⟨h2, h3⟩ := h1 ⟨n % 10, hd⟩
      simp only at h2 h3
      simp only [declRun, declStep, h2, h3, if_true]
      rw [if_neg (by omega)]
      simp only [declAfter, List.append_nil]
      rw [show n / 10 * 10 + n % 10 = n by omega]

/-! ### Nodes -/

mutual
/-- The literal printed for a node. -/
def nodeLit : Node → GoLit
  | .mk children hasCanonical canonical =>
    .ptr (str "trie") (str "Node")
      ((if hasCanonical then [(str "HasCanonical", .bool true)] else [])
        ++ (if canonical ≠ [] then [(str "Canonical", .text canonical)] else [])
        ++ (match children with
          | [] => []
          | c :: cs => [(str "Children", .map (.ptr (str "trie") (str "Node")) (childLits (c :: cs)))]))
def childLits : List (Rune × Node) → List (Rune × GoLit)
  | [] => []
  | (r, c) :: l => (r, nodeLit c) :: childLits l
end

theorem fieldToks_append (a b : List (Bytes × GoLit)) : fieldToks (a ++ b) = fieldToks a ++ fieldToks b := by
  induction a with
  | nil => simp [fieldToks]
  | cons x l ih => obtain ⟨k, v⟩ := x; simp [fieldToks, ih]

theorem Run.const {e e' : Bool} {a : Bytes} {toks : List DeclTok}
    (h : declRun ⟨.code, false⟩ a = .ok (toks, ⟨.code, e'⟩) ∧ declRun ⟨.code, true⟩ a = .ok (toks, ⟨.code, e'⟩)) :
    Run e a toks e' := by
  cases e
  · exact h.1
  · exact h.2

theorem Run.opt {e : Bool} {c : Prop} [Decidable c] {a : Bytes} {toks : List DeclTok} (h : c → Run e a toks e) :
    Run e (if c then a else []) (if c then toks else []) e := by
  split
  · rename_i hc; exact h hc
  · exact .nil e

theorem run_open (e : Bool) : Run e (str "&trie.Node{\n")
    [.punct 0x26, .word (str "trie"), .punct 0x2E, .word (str "Node"), .punct 0x7B] false :=
  .const (by decide +kernel)

theorem run_has (e : Bool) : Run e (str "\tHasCanonical: true,\n")
    (fieldToks [(str "HasCanonical", .bool true)]) false := .const (by decide +kernel)

theorem run_canonical {isPrint : Rune → Bool} (hl : PrintLaws isPrint) (s : Bytes) (e : Bool) :
    Run e (str "Canonical: " ++ quote isPrint s ++ str ",\n") (fieldToks [(str "Canonical", .text s)]) false := by
  have h1 : Run e (str "Canonical: ") [.word (str "Canonical"), .punct 0x3A] false := .const (by decide +kernel)
  have h2 : Run true (str ",\n") [.punct 0x2C] false := .const (by decide +kernel)
  have := (h1.append (quote_decl hl s false)).append h2
  simpa [fieldToks, GoLit.toks] using this

theorem run_comma (e : Bool) : Run e (str ",\n") [.punct 0x2C] false := .const (by decide +kernel)

theorem run_close (e : Bool) : Run e (str "}") [.punct 0x7D] true := .const (by decide +kernel)

theorem run_closes (e : Bool) : Run e (str "},\n") [.punct 0x7D, .punct 0x2C] false := .const (by decide +kernel)

theorem run_colon (e : Bool) : Run e (str ": ") [.punct 0x3A] false := .const (by decide +kernel)

theorem run_children (e : Bool) : Run e (str "Children: map[rune]*trie.Node{\n")
    ([.word (str "Children"), .punct 0x3A] ++ (GoType.map (.ptr (str "trie") (str "Node"))).toks ++ [.punct 0x7B])
    false := .const (by decide +kernel)

mutual
theorem node_run {isPrint : Rune → Bool} (hl : PrintLaws isPrint) : (n : Node) →
    (∀ r ∈ n.runes, ValidRune r ∧ r ∉ unsafeRunes) → (e : Bool) →
    Run e (nodeString isPrint n) (nodeLit n).toks true
  | .mk children h c, hr, e => by
    have h1 := (run_open e).append (Run.opt (c := h = true) fun _ => run_has false)
    have h2 := h1.append (Run.opt (c := c ≠ []) fun _ => run_canonical hl c false)
    cases children with
    | nil =>
      have h3 := h2.append (run_close false)
      rw [nodeString, nodeLit, GoLit.toks]
      simp only [fieldToks_append]
      cases h <;> by_cases hc : c = [] <;> simpa [hc, fieldToks] using h3
    | cons x xs =>
      have hk := children_run hl (x :: xs) (by rw [Node.runes] at hr; exact hr)
      have h3 := (((h2.append (run_children false)).append hk).append (run_closes false)).append (run_close false)
      rw [nodeString, nodeLit, GoLit.toks]
      simp only [fieldToks_append]
      cases h <;> by_cases hc : c = [] <;> simpa [hc, fieldToks, GoLit.toks] using h3
theorem children_run {isPrint : Rune → Bool} (hl : PrintLaws isPrint) : (l : List (Rune × Node)) →
    (∀ r ∈ childRunes l, ValidRune r ∧ r ∉ unsafeRunes) →
    Run false (childrenString isPrint l) (entryToks (childLits l)) false
  | [], _ => .nil false
  | (r, c) :: l, hr => by
    rw [childRunes] at hr
    obtain ⟨h1, h2⟩ := hr r (by simp)
    have hc := node_run hl c (fun x hx => hr x (by simp [hx])) false
    have ht := children_run hl l (fun x hx => hr x (by simp [hx]))
    have := ((((rune_run h1 h2 false).append (run_colon true)).append hc).append (run_comma true)).append ht
    rw [childrenString, childLits, entryToks]
    simpa using this
end

mutual
/-- A node is read to its end, or has an unsafe rune. -/
theorem node_reads {isPrint : Rune → Bool} (hl : PrintLaws isPrint) : (n : Node) → (e : Bool) →
    ((∃ toks, Run e (nodeString isPrint n) toks true) ∧ ∀ r ∈ n.runes, r ∉ unsafeRunes) ∨
    (Fails e (nodeString isPrint n) ∧ ∃ r ∈ n.runes, r ∈ unsafeRunes)
  | .mk children h c, e => by
    have h1 := (run_open e).append (Run.opt (c := h = true) fun _ => run_has false)
    have h2 := h1.append (Run.opt (c := c ≠ []) fun _ => run_canonical hl c false)
    rw [Node.runes]
    cases children with
    | nil =>
      rw [nodeString]
      have := h2.append (run_close false)
      refine .inl ⟨?_, by simp [childRunes]⟩
      rw [List.append_nil]
      exact ⟨_, this⟩
    | cons x xs =>
      rw [nodeString]
      have h3 := h2.append (run_children false)
      rcases children_reads hl (x :: xs) with ⟨⟨toks, hk⟩, hn⟩ | ⟨hk, hb⟩
      · refine .inl ⟨?_, hn⟩
        have := ((h3.append hk).append (run_closes false)).append (run_close false)
        simp only [List.append_assoc] at this ⊢
        exact ⟨_, this⟩
      · refine .inr ⟨?_, hb⟩
        have := (h3.fails hk).append (str "},\n" ++ str "}")
        simpa using this
theorem children_reads {isPrint : Rune → Bool} (hl : PrintLaws isPrint) : (l : List (Rune × Node)) →
    ((∃ toks, Run false (childrenString isPrint l) toks false) ∧ ∀ r ∈ childRunes l, r ∉ unsafeRunes) ∨
    (Fails false (childrenString isPrint l) ∧ ∃ r ∈ childRunes l, r ∈ unsafeRunes)
  | [] => .inl ⟨⟨_, .nil false⟩, by simp [childRunes]⟩
  | (r, c) :: l => by
    rw [childrenString, childRunes]
    by_cases hr : r ∈ unsafeRunes
    · refine .inr ⟨?_, r, by simp, hr⟩
      obtain ⟨w, hw⟩ : ∃ w, nodeString isPrint c = str "&trie.Node{\n" ++ w := by
        cases c with
        | mk children h s => cases children <;> rw [nodeString] <;> simp only [List.append_assoc] <;> exact ⟨_, rfl⟩
      have := (rune_fails hr false).1.append (w ++ (str ",\n" ++ childrenString isPrint l))
      rw [hw]
      have hs : str ": &trie.Node{\n" = str ": " ++ str "&trie.Node{\n" := by decide +kernel
      rw [hs] at this
      simpa using this
    · obtain ⟨t1, h1⟩ := rune_some hr false
      have h2 := h1.append (run_colon true)
      rcases node_reads hl c false with ⟨⟨toks, hk⟩, hn⟩ | ⟨hk, x, hx, hb⟩
      · have h3 := (h2.append hk).append (run_comma true)
        rcases children_reads hl l with ⟨⟨toks', hk'⟩, hn'⟩ | ⟨hk', x, hx, hb⟩
        · refine .inl ⟨⟨_, h3.append hk'⟩, ?_⟩
          intro x hx
          simp only [List.mem_cons, List.mem_append] at hx
          rcases hx with rfl | hx | hx
          · exact hr
          · exact hn x hx
          · exact hn' x hx
        · exact .inr ⟨h3.fails hk', x, by simp [hx], hb⟩
      · refine .inr ⟨?_, x, by simp [hx], hb⟩
        have := (h2.fails hk).append (str ",\n" ++ childrenString isPrint l)
        simpa using this
end

/-! ### The trie and the filter -/

theorem run_trie (e : Bool) : Run e (str "&trie.RuneTrie{\n" ++ str "Ignore: map[rune]bool{\n")
    ([.punct 0x26, .word (str "trie"), .punct 0x2E, .word (str "RuneTrie"), .punct 0x7B,
      .word (str "Ignore"), .punct 0x3A] ++ (GoType.map .bool).toks ++ [.punct 0x7B]) false :=
  .const (by decide +kernel)

theorem run_true (e : Bool) : Run e (str ": true,\n") [.punct 0x3A, .word (str "true"), .punct 0x2C] false :=
  .const (by decide +kernel)

theorem run_case (e : Bool) : Run e (str "IgnoreCase: true,\n") (fieldToks [(str "IgnoreCase", .bool true)]) false :=
  .const (by decide +kernel)

theorem run_root (e : Bool) : Run e (str "Root: ") [.word (str "Root"), .punct 0x3A] false :=
  .const (by decide +kernel)

theorem run_filter (e : Bool) : Run e (str "&synonyms.Filter{\n")
    [.punct 0x26, .word (str "synonyms"), .punct 0x2E, .word (str "Filter"), .punct 0x7B] false :=
  .const (by decide +kernel)

theorem run_trieField (e : Bool) : Run e (str "Trie: ") [.word (str "Trie"), .punct 0x3A] false :=
  .const (by decide +kernel)

theorem run_max {n : Nat} (h : 0 < n) (e : Bool) : Run e (str "MaxWords: " ++ itoa n ++ str ",\n")
    (fieldToks [(str "MaxWords", .num n)]) false := by
  have h1 : Run e (str "MaxWords: ") [.word (str "MaxWords"), .punct 0x3A] false := .const (by decide +kernel)
  unfold Run at h1 ⊢
  have hs : str ",\n" = [0x2C, 0x0A] := by decide +kernel
  rw [List.append_assoc, declRun_ok h1, declRun_ok (itoa_run h false), hs]
  simp [declRun, declStep, declCode, isDigitByte, isLetterByte, declAfter, declEnd, fieldToks, GoLit.toks]

/-- The entries printed for ignored runes. -/
def ignoreLits (l : List Rune) : List (Rune × GoLit) := l.map fun r => (r, .bool true)

theorem ignore_run (l : List Rune) (h : ∀ r ∈ l, ValidRune r ∧ r ∉ unsafeRunes) :
    Run false (l.flatMap fun r => runeText r ++ str ": true,\n") (entryToks (ignoreLits l)) false := by
  induction l with
  | nil => exact .nil false
  | cons r l ih =>
    obtain ⟨h1, h2⟩ := h r List.mem_cons_self
    have := ((rune_run h1 h2 false).append (run_true true)).append (ih fun x hx => h x (List.mem_cons_of_mem _ hx))
    simpa [ignoreLits, entryToks, GoLit.toks] using this

theorem ignore_reads (l : List Rune) :
    ((∃ toks, Run false (l.flatMap fun r => runeText r ++ str ": true,\n") toks false) ∧ ∀ r ∈ l, r ∉ unsafeRunes) ∨
    (Fails false (l.flatMap fun r => runeText r ++ str ": true,\n") ∧ ∃ r ∈ l, r ∈ unsafeRunes) := by
  induction l with
  | nil => exact .inl ⟨⟨_, .nil false⟩, by simp⟩
  | cons r l ih =>
    rw [List.flatMap_cons]
    by_cases hr : r ∈ unsafeRunes
    · exact .inr ⟨(rune_fails hr false).2.append _, r, by simp, hr⟩
    · obtain ⟨t1, h1⟩ := rune_some hr false
      have h2 := h1.append (run_true true)
      rcases ih with ⟨⟨toks, hk⟩, hn⟩ | ⟨hk, x, hx, hb⟩
      · refine .inl ⟨⟨_, h2.append hk⟩, ?_⟩
        intro x hx
        rcases List.mem_cons.mp hx with rfl | hx
        · exact hr
        · exact hn x hx
      · exact .inr ⟨h2.fails hk, x, by simp [hx], hb⟩

theorem mem_ignoreKeys {r : Rune} {l : List Rune} : r ∈ ignoreKeys l ↔ r ∈ l := by
  induction l with
  | nil => rfl
  | cons x l ih =>
    rw [ignoreKeys]
    split
    · rename_i h
      rw [ih, List.mem_cons]
      exact ⟨.inr, fun hr => hr.elim (fun e => e ▸ h) id⟩
    · rw [List.mem_cons, List.mem_cons, ih]

theorem nodup_ignoreKeys (l : List Rune) : (ignoreKeys l).Nodup := by
  induction l with
  | nil => exact List.nodup_nil
  | cons x l ih =>
    rw [ignoreKeys]
    split
    · exact ih
    · rename_i h
      exact List.nodup_cons.mpr ⟨fun hx => h (mem_ignoreKeys.mp hx), ih⟩

/-- The literal printed for a trie. -/
def trieLit (t : RuneTrie) : GoLit :=
  .ptr (str "trie") (str "RuneTrie")
    ([(str "Ignore", .map .bool (ignoreLits (ignoreKeys t.ignore)))]
      ++ (if t.ignoreCase then [(str "IgnoreCase", .bool true)] else [])
      ++ [(str "Root", nodeLit t.root)])

/-- The literal printed for a filter. -/
def filterLit (f : SynFilter) : GoLit :=
  .ptr (str "synonyms") (str "Filter")
    ([(str "Trie", trieLit f.trie)] ++ (if 0 < f.maxWords then [(str "MaxWords", .num f.maxWords)] else []))

/-- The runes of a filter, as they are printed. -/
def SynFilter.runes (f : SynFilter) : List Rune := f.trie.ignore ++ f.trie.root.runes

theorem trie_run {isPrint : Rune → Bool} (hl : PrintLaws isPrint) (t : RuneTrie)
    (hr : ∀ r ∈ t.ignore ++ t.root.runes, ValidRune r ∧ r ∉ unsafeRunes) (e : Bool) :
    Run e (trieString isPrint t) (trieLit t).toks true := by
  have h1 := (run_trie e).append (ignore_run (ignoreKeys t.ignore) fun r h =>
    hr r (List.mem_append_left _ (mem_ignoreKeys.mp h)))
  have h2 := (h1.append (run_closes false)).append (Run.opt (c := t.ignoreCase = true) fun _ => run_case false)
  have h3 := (h2.append (run_root false)).append
    (node_run hl t.root (fun r h => hr r (List.mem_append_right _ h)) false)
  have h4 := (h3.append (run_comma true)).append (run_close false)
  rw [trieString, trieLit, GoLit.toks]
  simp only [fieldToks_append]
  cases hc : t.ignoreCase <;> simpa [hc, fieldToks, GoLit.toks] using h4

theorem trie_reads {isPrint : Rune → Bool} (hl : PrintLaws isPrint) (t : RuneTrie) (e : Bool) :
    ((∃ toks, Run e (trieString isPrint t) toks true) ∧ ∀ r ∈ t.ignore ++ t.root.runes, r ∉ unsafeRunes) ∨
    (Fails e (trieString isPrint t) ∧ ∃ r ∈ t.ignore ++ t.root.runes, r ∈ unsafeRunes) := by
  rw [trieString]
  rcases ignore_reads (ignoreKeys t.ignore) with ⟨⟨toks, hk⟩, hn⟩ | ⟨hk, x, hx, hb⟩
  · have h2 := (((run_trie e).append hk).append (run_closes false)).append
      (Run.opt (c := t.ignoreCase = true) fun _ => run_case false)
    have h3 := h2.append (run_root false)
    rcases node_reads hl t.root false with ⟨⟨toks', hk'⟩, hn'⟩ | ⟨hk', x, hx, hb⟩
    · refine .inl ⟨⟨_, ((h3.append hk').append (run_comma true)).append (run_close false)⟩, ?_⟩
      intro x hx
      rcases List.mem_append.mp hx with hx | hx
      · exact hn x (mem_ignoreKeys.mpr hx)
      · exact hn' x hx
    · refine .inr ⟨?_, x, List.mem_append_right _ hx, hb⟩
      have := (h3.fails hk').append (str ",\n" ++ str "}")
      simpa using this
  · refine .inr ⟨?_, x, List.mem_append_left _ (mem_ignoreKeys.mp hx), hb⟩
    have := ((run_trie e).fails hk).append (str "},\n" ++ ((if t.ignoreCase then str "IgnoreCase: true,\n" else [])
      ++ (str "Root: " ++ (nodeString isPrint t.root ++ (str ",\n" ++ str "}")))))
    simpa using this

theorem filter_run {isPrint : Rune → Bool} (hl : PrintLaws isPrint) (f : SynFilter)
    (hr : ∀ r ∈ f.runes, ValidRune r ∧ r ∉ unsafeRunes) (e : Bool) :
    Run e (declString isPrint (some f)) (filterLit f).toks true := by
  have h1 := ((run_filter e).append (run_trieField false)).append (trie_run hl f.trie hr false)
  have h2 := (h1.append (run_comma true)).append (Run.opt (c := 0 < f.maxWords) fun h => run_max h false)
  have h3 := h2.append (run_close false)
  rw [declString, filterLit, GoLit.toks]
  simp only [fieldToks_append]
  by_cases hm : 0 < f.maxWords <;> simpa [hm, fieldToks, GoLit.toks] using h3

theorem filter_fails {isPrint : Rune → Bool} (hl : PrintLaws isPrint) (f : SynFilter)
    (hr : ∃ r ∈ f.runes, r ∈ unsafeRunes) (e : Bool) : Fails e (declString isPrint (some f)) := by
  have h1 := (run_filter e).append (run_trieField false)
  rcases trie_reads hl f.trie false with ⟨-, hn⟩ | ⟨hk, -⟩
  · obtain ⟨r, hr, hb⟩ := hr
    exact absurd hb (hn r hr)
  · have := (h1.fails hk).append (str ",\n" ++
      ((if 0 < f.maxWords then str "MaxWords: " ++ itoa f.maxWords ++ str ",\n" else []) ++ str "}"))
    rw [declString]
    simpa using this

end Jargon
