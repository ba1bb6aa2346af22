import Verif.Proofs.DeclBuilt
import Verif.Props.GenerateSource
import Verif.Props.Tables

/-! C87, C88: printing a synonyms filter, and printing a queue. -/

namespace Jargon

/-! ### C87 -/

/-- **C87, in full.** filters/synonyms/filter.go:312: "Decl returns a Go source declaration of the Filter".
The text is an expression that compiles, with the types there are, and its value is the filter. (That the
fields have other names in the text is left open by `Describes`.) -/
def C87_full : Prop := ∀ isPrint, PrintLaws isPrint → ∀ f : SynFilter, f.trie.root.Proper →
  ∃ v t, Expresses (declString isPrint (some f)) v ∧ HasType declaredStructs v t ∧ Describes v f

/-- **C87 (never compiles).** What is printed for a filter, built or not, is not an expression of any type:
there is no type `synonyms.Filter`. -/
theorem C87_violated_names (isPrint : Rune → Bool) (f : Option SynFilter) (v : GoLit) (t : GoType)
    (h : Expresses (declString isPrint f) v) : ¬ HasType declaredStructs v t := by
  obtain ⟨w, hw⟩ : ∃ w, declString isPrint f = str "&synonyms.Filter{\n" ++ w := by
    cases f <;> rw [declString] <;> simp only [List.append_assoc] <;> exact ⟨_, rfl⟩
  have h1 := h.2
  have h2 := run_filter false
  unfold Run at h2
  rw [declLex, hw, declRun_ok h2] at h1
  obtain ⟨rest, hr⟩ : ∃ rest, v.toks ++ [.semi] = [DeclTok.punct 0x26, .word (str "synonyms"), .punct 0x2E,
      .word (str "Filter"), .punct 0x7B] ++ rest := by
    cases hd : declRun ⟨.code, false⟩ w with
    | error e => rw [hd] at h1; cases h1
    | ok r =>
      obtain ⟨toks, mode, e⟩ := r
      rw [hd] at h1
      simp only [declAfter] at h1
      cases mode <;> simp only [Except.ok.injEq, reduceCtorEq] at h1 <;> rw [← h1, List.append_assoc] <;>
        exact ⟨_, rfl⟩
  intro ht
  cases ht with
  | text s => simp [GoLit.toks] at hr
  | bool b => simp [GoLit.toks] at hr
  | num n => simp [GoLit.toks] at hr
  | map _ _ => simp [GoLit.toks, GoType.toks] at hr
  | @ptr pkg name fields types ty hd _ _ _ =>
    simp only [GoLit.toks, List.cons_append, List.cons.injEq, DeclTok.word.injEq, true_and] at hr
    obtain ⟨rfl, rfl, -⟩ := hr
    have : ∀ d ∈ declaredStructs, d.1 ≠ (str "synonyms", str "Filter") := by decide +kernel
    exact this _ hd rfl

/-- **C87 does not hold.** -/
theorem C87_violated : ¬ C87_full := by
  intro h
  obtain ⟨v, t, h1, h2, -⟩ := h asciiPrint asciiPrint_laws ⟨RuneTrie.new false [], 1⟩ proper_empty
  exact C87_violated_names _ _ v t h1 h2

/-- The text is an expression that would compile if the types were declared as they are printed, with the
filter as its value. -/
def PrintsFilter (src : Bytes) (f : SynFilter) : Prop :=
  ∃ v, Expresses src v ∧ HasType printedStructs v (.ptr (str "synonyms") (str "Filter")) ∧ Describes v f

theorem declLex_run {src : Bytes} {toks : List DeclTok} (h : Run false src toks true) :
    declLex src = .ok (toks ++ [.semi]) := by
  unfold Run at h
  rw [declLex, h]
  rfl

/-- **C87 (with exported names, exactly when).** Suppose the structs were declared with the names that are
printed. Then the text declares the filter if and only if none of its runes, in the trie or ignored, is a
quote, a backslash, a line break, NUL, a byte order mark or an invalid rune. -/
theorem C87_exact_partial {isPrint : Rune → Bool} (hl : PrintLaws isPrint) (f : SynFilter) (hf : f.trie.root.Proper) :
    PrintsFilter (declString isPrint (some f)) f ↔
      (∀ r ∈ f.trie.ignore, Literal r) ∧ ∀ r ∈ f.trie.root.runes, Literal r := by
  have hsp := (spelling_filter hl f).plain_iff
  constructor
  · rintro ⟨v, ⟨h1, h2⟩, -, t, root, ht, hroot, hp, hi, -, -⟩
    have h3 : ∀ r ∈ f.runes, r ∉ unsafeRunes := by
      intro r hr hb
      obtain ⟨x, hx⟩ := filter_fails hl f ⟨r, hr, hb⟩ false
      rw [declLex, hx] at h2
      cases h2
    have h4 := hsp.mp h1
    constructor
    · intro r hr
      obtain ⟨a, b⟩ := h4 r (List.mem_append_left _ (mem_ignoreKeys.mpr hr))
      refine ⟨?_, a, b, h3 r (List.mem_append_left _ hr)⟩
      refine declLex_valid h2 r (List.mem_append_left _ (mem_field ht (mem_at ((hi r).mpr hr))))
    · intro r hr
      obtain ⟨a, b⟩ := h4 r (List.mem_append_right _ hr)
      refine ⟨?_, a, b, h3 r (List.mem_append_right _ hr)⟩
      exact proper_valid hf r hr
  · rintro ⟨h1, h2⟩
    have h3 : ∀ r ∈ f.runes, Literal r := fun r hr => (List.mem_append.mp hr).elim (h1 r) (h2 r)
    refine ⟨filterLit f, ⟨?_, ?_⟩, filter_type hf, filter_describes f⟩
    · refine hsp.mpr fun r hr => ?_
      have : r ∈ f.runes := (List.mem_append.mp hr).elim
        (fun h => List.mem_append_left _ (mem_ignoreKeys.mp h)) (List.mem_append_right _)
      exact ⟨(h3 r this).2.1, (h3 r this).2.2.1⟩
    · exact declLex_run (filter_run hl f (fun r hr => ⟨(h3 r hr).1, (h3 r hr).2.2.2⟩) false)

/-- **C87 (of a mapping).** For the filter of a mapping the runes are those of its synonyms as they are
compared. -/
theorem C87_mapping_partial {isPrint : Rune → Bool} (hl : PrintLaws isPrint) {E : Env} (hE : E.Lawful)
    (hv : ∀ r, ValidRune r → ValidRune (E.U.toLower r)) (mappings : StringMap) (ic : Bool) (ign : List Rune)
    (hs : ∀ m ∈ mappings, (E.scan { data := m.1 }).2 = none) :
    ∃ f, build E mappings ic ign = Go.ret (.ok f) ∧
      (PrintsFilter (declString isPrint (some f)) f ↔ (∀ r ∈ ign, Literal r) ∧
        ∀ a ∈ entries E mappings, ∀ r ∈ (Compare.mk E.U ic ign).spell a.1, Literal r) := by
  obtain ⟨h1, h2, h3⟩ := built_proper E mappings ic ign fun _ => hv
  refine ⟨_, build_ok hE mappings ic ign hs, ?_⟩
  rw [C87_exact_partial hl _ h1, h2]
  constructor
  · rintro ⟨a, b⟩
    exact ⟨a, fun x hx r hr => b r ((h3 r).mpr ⟨x, hx, hr⟩)⟩
  · rintro ⟨a, b⟩
    refine ⟨a, fun r hr => ?_⟩
    obtain ⟨x, hx, hr⟩ := (h3 r).mp hr
    exact b x hx r hr

/-- **C87 (the NBA filter).** What is printed for it is not Go at all: it ignores the apostrophe, which is
printed as `'''`. -/
theorem C87_violated_nba {isPrint : Rune → Bool} (hl : PrintLaws isPrint) (E : Env) (v : GoLit) :
    ¬ Expresses (declString isPrint (some (builtFilter E nbaMappings true nbaIgnore))) v := by
  rintro ⟨-, h⟩
  have hm : 0x27 ∈ (builtFilter E nbaMappings true nbaIgnore).runes := by
    refine List.mem_append_left _ ?_
    have : (builtFilter E nbaMappings true nbaIgnore).trie.ignore = nbaIgnore :=
      congrArg Compare.ignore (builtFilter_compare E nbaMappings true nbaIgnore)
    rw [this]
    decide
  obtain ⟨x, hx⟩ := filter_fails hl (builtFilter E nbaMappings true nbaIgnore) ⟨0x27, hm, by decide⟩ false
  rw [declLex, hx] at h
  cases h

/-- All bytes are printable ASCII, without the quote and the backslash. -/
def plainRow (n : Nat) : Bool := (natsOf n).all fun b => 0x20 ≤ b && b < 0x7F && b != 0x27 && b != 0x5C

theorem so_plain0 : soRows0.all (fun r => plainRow r.1) = true := by decide +kernel
theorem so_plain1 : soRows1.all (fun r => plainRow r.1) = true := by decide +kernel
theorem so_plain2 : soRows2.all (fun r => plainRow r.1) = true := by decide +kernel
theorem so_plain3 : soRows3.all (fun r => plainRow r.1) = true := by decide +kernel
theorem so_plain4 : soRows4.all (fun r => plainRow r.1) = true := by decide +kernel
theorem so_plain5 : soRows5.all (fun r => plainRow r.1) = true := by decide +kernel
theorem so_plain6 : soRows6.all (fun r => plainRow r.1) = true := by decide +kernel
theorem so_plain7 : soRows7.all (fun r => plainRow r.1) = true := by decide +kernel
theorem so_plain8 : soRows8.all (fun r => plainRow r.1) = true := by decide +kernel
theorem so_plain9 : soRows9.all (fun r => plainRow r.1) = true := by decide +kernel

theorem so_plain : ∀ rows ∈ soRows, rows.all (fun r => plainRow r.1) = true := by
  simp only [soRows, List.forall_mem_cons, List.not_mem_nil, false_implies, implies_true, and_true]
  exact ⟨so_plain0, so_plain1, so_plain2, so_plain3, so_plain4, so_plain5, so_plain6, so_plain7, so_plain8, so_plain9⟩

/-- Printable ASCII without the quote and the backslash. -/
def PlainByte (b : UInt8) : Prop := 0x20 ≤ b.toNat ∧ b.toNat < 0x7F ∧ b.toNat ≠ 0x27 ∧ b.toNat ≠ 0x5C

theorem so_keys_plain : ∀ m ∈ stackOverflowMappings, ∀ b ∈ m.1, PlainByte b := by
  intro m hm b hb
  rw [stackOverflow_rows] at hm
  obtain ⟨row, hrow, rfl⟩ := List.mem_map.mp hm
  obtain ⟨rows, hr, hm⟩ := List.mem_flatten.mp hrow
  have h := List.all_eq_true.mp (so_plain rows hr) row hm
  obtain ⟨n, hn, rfl⟩ := List.mem_map.mp hb
  have h1 := List.all_eq_true.mp h n hn
  simp only [Bool.and_eq_true, decide_eq_true_eq, bne_iff_ne, ne_eq] at h1
  unfold PlainByte
  rw [show (UInt8.ofNat n).toNat = n from Nat.mod_eq_of_lt (show n < 256 by omega)]
  exact ⟨h1.1.1.1, h1.1.1.2, h1.1.2, h1.2⟩

theorem entries_bytes {E : Env} (hE : E.Lawful) {mappings : StringMap} {a : List Token × Bytes}
    (h : a ∈ entries E mappings) : ∃ m ∈ mappings, ∀ t ∈ a.1, ∀ b ∈ t.value, b ∈ m.1 := by
  obtain ⟨m, hm, ha⟩ := List.mem_flatMap.mp h
  obtain ⟨s, hs, rfl⟩ := List.mem_map.mp ha
  obtain ⟨p, hp, rfl⟩ := List.mem_map.mp hs
  refine ⟨m, hm, fun t ht b hb => ?_⟩
  have h1 : t ∈ stringTokens E m.1 := mem_pieces hp _ ((List.dropWhile_sublist _).mem ht)
  simp only [stringTokens, segTokens, List.mem_map] at h1
  obtain ⟨seg, hseg, rfl⟩ := h1
  exact (hE.sound { data := m.1 }).mem (List.mem_flatten.mpr ⟨seg, hseg, hb⟩)

theorem latin_literal : ∀ r : Fin 0x80, 0x20 ≤ r.1 → r.1 < 0x7F → r.1 ≠ 0x27 → r.1 ≠ 0x5C →
    latinLower r.1 ≠ 0 ∧ latinLower r.1 < 0x80 ∧ latinLower r.1 ∉ unsafeRunes := by decide +kernel

/-- **C87 (the Stack Overflow filter).** With exported names, what is printed for it declares it. -/
theorem C87_stackoverflow_partial {isPrint : Rune → Bool} (hl : PrintLaws isPrint) {E : Env} (hE : E.Lawful)
    (hU : E.U.LowersLatin) (hv : ∀ r, ValidRune r → ValidRune (E.U.toLower r))
    (hs : ∀ m ∈ stackOverflowMappings, (E.scan { data := m.1 }).2 = none) :
    ∃ f, build E stackOverflowMappings true stackOverflowIgnore = Go.ret (.ok f) ∧
      PrintsFilter (declString isPrint (some f)) f := by
  obtain ⟨f, h1, h2⟩ := C87_mapping_partial hl hE hv stackOverflowMappings true stackOverflowIgnore hs
  refine ⟨f, h1, h2.mpr ⟨?_, ?_⟩⟩
  · have : ∀ r ∈ stackOverflowIgnore, ValidRune r ∧ r ≠ 0 ∧ r ≠ 0xFEFF ∧ r ∉ unsafeRunes := by decide
    exact this
  · intro a ha r hr
    obtain ⟨m, hm, hb⟩ := entries_bytes hE ha
    obtain ⟨hr, -⟩ := List.mem_filter.mp hr
    obtain ⟨x, hx, rfl⟩ := List.mem_map.mp hr
    obtain ⟨t, ht, hx⟩ := List.mem_flatMap.mp hx
    have hp : ∀ b ∈ t.value, PlainByte b := fun b hb' => so_keys_plain m hm b (hb t ht b hb')
    rw [runes_ascii fun b hb => Nat.lt_of_lt_of_le (hp b hb).2.1 (by decide)] at hx
    obtain ⟨b, hb, rfl⟩ := List.mem_map.mp hx
    obtain ⟨p1, p2, p3, p4⟩ := hp b hb
    have hf : (Compare.mk E.U true stackOverflowIgnore).fold b.toNat = latinLower b.toNat := hU _ (by omega)
    rw [hf]
    obtain ⟨q1, q2, q3⟩ := latin_literal ⟨b.toNat, by omega⟩ p1 p2 p3 p4
    exact ⟨by unfold ValidRune; simp only at q2; omega, q1, by simp only at q2; omega, q3⟩

/-- C87 is not empty: a filter that ignores spaces and has one synonym is printed as a declaration of it... -/
example : PrintsFilter (declString asciiPrint
    (some ⟨⟨.mk [(0x61, .mk [] true (str "b\"c"))] false [], [0x20], true⟩, 2⟩))
    ⟨⟨.mk [(0x61, .mk [] true (str "b\"c"))] false [], [0x20], true⟩, 2⟩ := by
  refine (C87_exact_partial asciiPrint_laws _ ?_).mpr ⟨?_, ?_⟩
  · refine .mk (by simp) (by simp [ValidRune]) ?_
    intro e he
    rw [List.mem_singleton.mp he]
    exact .mk (by simp) (by simp) (by simp)
  · have : ∀ r ∈ [0x20], ValidRune r ∧ r ≠ 0 ∧ r ≠ 0xFEFF ∧ r ∉ unsafeRunes := by decide
    exact this
  · have : ∀ r ∈ [0x61], ValidRune r ∧ r ≠ 0 ∧ r ≠ 0xFEFF ∧ r ∉ unsafeRunes := by decide
    exact this

/-- ... namely as this text. -/
example : declString asciiPrint (some ⟨⟨.mk [(0x61, .mk [] true (str "b\"c"))] false [], [0x20], true⟩, 2⟩) =
    str "&synonyms.Filter{
Trie: &trie.RuneTrie{
Ignore: map[rune]bool{
' ': true,
},
IgnoreCase: true,
Root: &trie.Node{
Children: map[rune]*trie.Node{
'a': &trie.Node{
\tHasCanonical: true,
Canonical: \"b\\\"c\",
},
},
},
},
MaxWords: 2,
}" := by decide +kernel

/-! ### C88 -/

/-- **C88.** `String` of a queue is, read as Go, its tokens' texts in brackets... -/
theorem C88_reads {isPrint : Rune → Bool} (hl : PrintLaws isPrint) (q : List Token) :
    PlainText (queueString isPrint q) ∧ lex (queueString isPrint q) =
      .ok ([.punct 0x5B] ++ q.map (fun t => GoTok.text t.value) ++ [.punct 0x5D, .semi]) := by
  constructor
  · refine ((plain_ascii (by decide)).append (plain_join (plain_ascii (by decide)) ?_)).append (plain_ascii (by decide))
    intro x hx
    obtain ⟨t, -, rfl⟩ := List.mem_map.mp hx
    exact plain_quote hl _
  · have h0 : tabFrom ⟨.code, []⟩ [0x5B] = .ok ⟨.code, [.punct 0x5B]⟩ := rfl
    have h1 : ∀ (q : List Token) (toks : List GoTok),
        tabFrom ⟨.code, toks⟩ (join [0x20] (q.map fun t => quote isPrint t.string)) =
          .ok ⟨.code, toks ++ q.map fun t => GoTok.text t.value⟩ := by
      intro q
      induction q with
      | nil => intro toks; simp [join, tabFrom]
      | cons t q ih =>
        intro toks
        cases q with
        | nil => simp only [List.map_cons, List.map_nil, join]; exact quote_run hl _ _
        | cons t' q =>
          have hsp : ∀ toks, tabFrom ⟨.code, toks⟩ [0x20] = .ok ⟨.code, toks⟩ := fun _ => rfl
          have := ih (toks ++ [.text t.value])
          simp only [List.map_cons] at this ⊢
          rw [join, List.append_assoc, tabFrom_ok (quote_run hl _ _), tabFrom_ok (hsp _)]
          rw [show t.string = t.value from rfl, this]
          simp
    have h2 : ∀ toks, tabFrom ⟨.code, toks⟩ [0x5D] = .ok ⟨.code, toks ++ [.punct 0x5D]⟩ := fun _ => rfl
    have h3 : tabFrom ⟨.code, []⟩ (queueString isPrint q) =
        .ok ⟨.code, [.punct 0x5B] ++ q.map (fun t => GoTok.text t.value) ++ [.punct 0x5D]⟩ := by
      rw [queueString, List.append_assoc, tabFrom_ok h0, tabFrom_ok (h1 q _), h2]
    rw [lex, tabFrom_lex.1 _ h3]
    simp only [lineEnd, List.getLast?_append, List.getLast?_singleton, Option.some_or]
    simp [GoTok.endsLine]

/-- **C88 (nothing is lost).** Two queues are printed alike only if their tokens have the same texts; this
is how the tests of filters/synonyms compare queues. -/
theorem C88_exact {isPrint : Rune → Bool} (hl : PrintLaws isPrint) (q q' : List Token) :
    queueString isPrint q = queueString isPrint q' ↔ q.map Token.value = q'.map Token.value := by
  constructor
  · intro h
    have h1 := (C88_reads hl q).2
    rw [h, (C88_reads hl q').2] at h1
    simp only [Except.ok.injEq, List.append_cancel_left_eq, List.append_cancel_right_eq] at h1
    have : ∀ q : List Token, (q.map fun t => GoTok.text t.value) = (q.map Token.value).map GoTok.text := by
      intro q; simp
    rw [this, this] at h1
    exact (List.map_injective_iff.mpr fun a b h => GoTok.text.inj h) h1.symm
  · intro h
    have : ∀ q : List Token, (q.map fun t => quote isPrint t.string) = (q.map Token.value).map (quote isPrint) := by
      intro q; simp [Token.string]
    rw [queueString, queueString, this, this, h]

/-- Whether tokens are lemmas is lost. -/
example : queueString asciiPrint [mkToken asciiUnicode (str "a") true, mkToken asciiUnicode (str "\"\n") false] =
    str "[\"a\" \"\\\"\\n\"]" := by decide +kernel

end Jargon
