import Verif.Props.Uax29Text

/-! C79: listed synonyms and names in running text. C80: how tags may be written. -/

namespace Jargon

section
variable {E : Env} {cls : WordTable}

/-- A character with a boundary before it, at the end of a text, is a word of its own. -/
theorem cutWords_last {α : Type} {cls : α → WB × Bool} {s : α} (l : List α) (before : List (WB × Bool))
    (h : ∀ z a, l = z ++ [a] → joins (cls a :: ((z.map cls).reverse ++ before)) [cls s] = false) :
    ∃ gs, cutWords cls before (l ++ [s]) = gs ++ [[s]] := by
  induction l generalizing before with
  | nil => exact ⟨[], rfl⟩
  | cons a l ih =>
    obtain ⟨gs, he⟩ := ih (cls a :: before) fun z b hz => by
      have := h (a :: z) b (by rw [hz]; rfl)
      simpa using this
    rw [List.cons_append, cutWords, he]
    cases gs with
    | cons x gs =>
      simp only [List.cons_append]
      split
      · exact ⟨(a :: x) :: gs, rfl⟩
      · exact ⟨[a] :: x :: gs, rfl⟩
    | nil =>
      have hfl := cutWords_flatten (cls := cls) (cls a :: before) (l ++ [s])
      rw [he] at hfl
      have hl : l = [] := by simpa using hfl
      subst hl
      have hj : joins (cls a :: before) ([s].map cls) = false := h [] a rfl
      refine ⟨[[a]], ?_⟩
      show (if joins (cls a :: before) ([s].map cls) = true then [[a, s]] else [[a], [s]]) = _
      rw [if_neg (by rw [hj]; simp)]
      rfl

/-- A character with a boundary after it, at the start of a text, is a word of its own. -/
theorem cutWords_first {α : Type} {cls : α → WB × Bool} {s : α} {l : List α} {before : List (WB × Bool)}
    (h : l ≠ [] → joins (cls s :: before) (l.map cls) = false) :
    (cutWords cls before (s :: l)).head? = some [s] := by
  rw [cutWords]
  cases hc : cutWords cls (cls s :: before) l with
  | nil => rfl
  | cons g gs =>
    have hl : l ≠ [] := by rintro rfl; cases hc
    simp only
    rw [if_neg (by rw [h hl]; simp)]
    rfl

theorem breakMarks_classes : ∀ c ∈ breakMarks, c.toNat < 0x80 ∧ c.toNat ≠ 0x3A ∧
    ((latinWB c.toNat) = (.other, false) ∨ (latinWB c.toNat).1.mark = true ∧ c ∉ separators) ∧
    (c.toNat ∈ latinPunct ∨ c.toNat = 0x09) := by decide +kernel

theorem break_punct (hP : E.U.PunctLatin) {c : UInt8} (hc : c ∈ breakMarks ∨ c = 0x0A) :
    E.U.punctRune c.toNat = true := by
  rw [Unicode.punctRune]
  rcases hc with hc | rfl
  · obtain ⟨h1, -, -, h4⟩ := breakMarks_classes c hc
    rcases h4 with h4 | h4
    · rw [hP _ (by omega)]; simp [h4]
    · rw [h4]; simp [spaceIsPunct]
  · simp [spaceIsPunct]

theorem ascii_latin (hR : cls.Right) : ∀ r < 0x80, r ≠ 0x3A → (cls r).1.attached = false ∧ (cls r).2 = false ∧
    (cls r).1 ≠ .regional := by
  intro r h h'
  rw [hR.latin r (by omega) h']
  revert r
  decide +kernel

/-- The token before such a place is punctuation. -/
theorem last_punct (hF : E.FollowsUax29 cls) (hR : cls.Right) (hP : E.U.PunctLatin) {a : Bytes}
    (hs : SetOffBefore a) (hb : BrokenBefore a) (hlen : Fits cls a) :
    a = [] ∨ ∃ t, (stringTokens E a).getLast? = some t ∧ t.punct = true := by
  refine hb.imp id ?_
  rintro ⟨z, c, rfl, hc⟩
  have hpun := break_punct hP (hc.imp id (·.1))
  have hlt : c.toNat < 0x80 := by
    rcases hc with hc | ⟨rfl, -⟩
    · exact (breakMarks_classes c hc).1
    · decide
  have hr : runes (z ++ [c]) = runes z ++ [c.toNat] := by
    rw [runes_append_ascii z hlt, runes_ascii_cons hlt]; rfl
  have hjoin : ∀ y l, runes z = y ++ [l] → joins (cls l :: ((y.map cls).reverse ++ [])) [cls c.toNat] = false := by
    intro y l hz
    rcases hc with hc | ⟨rfl, hcr⟩
    · obtain ⟨h1, h2, h3, -⟩ := breakMarks_classes c hc
      rw [← hR.latin c.toNat (by omega) h2] at h3
      rcases h3 with h3 | ⟨h3, h4⟩
      · rw [h3]
        exact (Apart2.right (l := cls l) (r := (.other, false)) rfl rfl (by simp) (by simp)).joins _ _
      · obtain ⟨x, marks, he, hm, hx⟩ := hs
        rcases last_cases marks with rfl | ⟨ms, c', rfl⟩
        · rw [List.append_nil] at he
          rcases hx with rfl | ⟨z', c', rfl, hc'⟩
          · simp at he
          · have := (List.append_inj' he rfl).2
            rw [List.singleton_inj] at this
            exact absurd (this ▸ hc') h4
        · rw [← List.append_assoc] at he
          obtain ⟨he1, he2⟩ := List.append_inj' he rfl
          rw [List.singleton_inj] at he2
          -- what is before it is a separator or a mark
          have hprev : (cls l).1.inert = true ∨ (cls l).1.mark = true := by
            rcases last_cases (x ++ ms) with h0 | ⟨w, d, hw⟩
            · rw [he1, h0] at hz
              have := congrArg List.length hz
              have h00 : runes [] = [] := rfl
              rw [h00] at this
              simp at this
            · have hd : d.toNat < 0x80 ∧ ((cls d.toNat).1.inert = true ∨ (cls d.toNat).1.mark = true) := by
                rcases last_cases ms with rfl | ⟨ms', d', rfl⟩
                · rw [List.append_nil] at hw
                  rcases hx with rfl | ⟨z', c', rfl, hc'⟩
                  · simp at hw
                  · have := (List.append_inj' hw rfl).2
                    rw [List.singleton_inj] at this
                    subst this
                    obtain ⟨i1, i2, -⟩ := Right.inert hR hc'
                    exact ⟨i1, .inl i2⟩
                · rw [← List.append_assoc] at hw
                  have := (List.append_inj' hw rfl).2
                  rw [List.singleton_inj] at this
                  subst this
                  obtain ⟨i1, i2⟩ := Right.mark hR (hm d' (by simp))
                  exact ⟨i1, .inr i2⟩
              rw [he1, hw, runes_append_ascii w hd.1, runes_ascii_cons hd.1] at hz
              have := (List.append_inj' (s₁ := runes w) (t₁ := [d.toNat]) hz rfl).2
              rw [List.singleton_inj] at this
              rw [← this]
              exact hd.2
          rcases hprev with hi | hmk
          · exact (Apart2.left hi (.inr h3)).joins _ _
          · exact joins_marks hmk h3 _ _
    · have hlf : cls (0x0A : UInt8).toNat = (.lf, false) := by
        rw [hR.latin _ (by decide) (by decide)]; decide
      have hne : (cls l).1 ≠ .cr := by
        intro h
        refine hcr ?_
        rw [hz, hR.cr l h]; simp
      rw [hlf, joins_cons]
      simp [hne, WB.lineBreak]
  obtain ⟨gs, he⟩ := cutWords_last (cls := cls) (s := c.toNat) (runes z) [] hjoin
  rw [← hr, ← wordSegs_runes] at he
  have hl : ((wordSegs cls (z ++ [c])).map runes).getLast? = some [c.toNat] := by rw [he]; simp
  rw [List.getLast?_map, Option.map_eq_some_iff] at hl
  obtain ⟨seg, hseg, hrs⟩ := hl
  refine ⟨mkToken E.U seg false, ?_, ?_⟩
  · rw [stringTokens, segTokens, hF _ hlen, List.getLast?_map, hseg]; rfl
  · show (runes seg).all E.U.punctRune = true
    rw [hrs]
    simpa using hpun

/-- The token after such a place is punctuation. -/
theorem first_punct (hF : E.FollowsUax29 cls) (hR : cls.Right) (hP : E.U.PunctLatin) {b : Bytes}
    (hs : SetOffAfter b) (hb : BrokenAfter b) (hlen : Fits cls b) :
    b = [] ∨ ∃ t, (stringTokens E b).head? = some t ∧ t.punct = true := by
  refine hb.imp id ?_
  rintro ⟨c, z, rfl, hc⟩
  have hpun := break_punct hP (hc.imp (·.1) id)
  have hlt : c.toNat < 0x80 := by
    rcases hc with ⟨hc, -⟩ | rfl
    · exact (breakMarks_classes c hc).1
    · decide
  have hr : runes (c :: z) = c.toNat :: runes z := runes_ascii_cons hlt z
  have hjoin : runes z ≠ [] → joins (cls c.toNat :: []) ((runes z).map cls) = false := by
    intro hne
    rcases hc with ⟨hc, hz⟩ | rfl
    · obtain ⟨d, y, rfl, hd, hd'⟩ : ∃ d y, z = d :: y ∧ d.toNat < 0x80 ∧ d ≠ 0x3A := by
        rcases hz with rfl | hz
        · exact absurd rfl hne
        · exact hz
      have hd' : d.toNat ≠ 0x3A := fun h => hd' (UInt8.toNat_inj.mp h)
      obtain ⟨a1, a2, a3⟩ := ascii_latin hR _ hd hd'
      rw [runes_ascii_cons hd, List.map_cons]
      obtain ⟨h1, h2, h3, -⟩ := breakMarks_classes c hc
      rw [← hR.latin c.toNat (by omega) h2] at h3
      rcases h3 with h3 | ⟨h3, h4⟩
      · rw [h3, joins_cons]
        simp only [a1, a2, WB.lineBreak, Bool.false_or, Bool.and_false, Bool.false_eq_true, ↓reduceIte]
        simp
        exact fun _ => ⟨ruleJoins_inert _ .other _ _ (.inl rfl), fun h => absurd h a3⟩
      · obtain ⟨marks, x, he, hm, hx⟩ := hs
        cases marks with
        | nil =>
          rw [List.nil_append] at he
          rcases hx with rfl | ⟨c', z', rfl, hc'⟩
          · cases he
          · injection he with he1 he2
            exact absurd (he1 ▸ hc') h4
        | cons m ms =>
          rw [List.cons_append] at he
          injection he with he1 he2
          cases ms with
          | nil =>
            rw [List.nil_append] at he2
            rcases hx with rfl | ⟨c', z', rfl, hc'⟩
            · cases he2
            · injection he2 with he3 he4
              subst he3
              obtain ⟨i1, i2, i3⟩ := Right.inert hR hc'
              obtain ⟨m1, m2, m3, m4, m5, m6, m7, m8, m9, m10, m11, m12, m13⟩ := mark_facts h3
              exact (Apart2.right i2 i3 (by intro h; rw [h] at m11; cases m11)
                (by intro h; rw [h] at m10; cases m10)).joins _ _
          | cons m' ms =>
            rw [List.cons_append] at he2
            injection he2 with he3 he4
            subst he3
            exact joins_marks h3 (Right.mark hR (hm d (by simp))).2 _ _
    · have hlf : cls (0x0A : UInt8).toNat = (.lf, false) := by
        rw [hR.latin _ (by decide) (by decide)]; decide
      obtain ⟨r, rs, hrs⟩ := List.exists_cons_of_ne_nil hne
      rw [hlf, hrs, List.map_cons, joins_cons]
      simp [WB.lineBreak]
  have he := cutWords_first (cls := cls) (s := c.toNat) (l := runes z) (before := []) hjoin
  rw [← hr, ← wordSegs_runes, List.head?_map, Option.map_eq_some_iff] at he
  obtain ⟨seg, hseg, hrs⟩ := he
  refine ⟨mkToken E.U seg false, ?_, ?_⟩
  · rw [stringTokens, segTokens, hF _ hlen, List.head?_map, hseg]; rfl
  · show (runes seg).all E.U.punctRune = true
    rw [hrs]
    simpa using hpun

theorem edgeB_spec (hR : cls.Right) {l : List Nat} (hk : knownB l = true) (h : edgeB l = true) :
    (∃ r, l.head? = some r ∧ (cls r).1.plain = true) ∧
    ∃ r, l.getLast? = some r ∧ ((cls r).1.plain = true ∨ (cls r).1 = .other) := by
  have table1 : ∀ r < 0x180, codeB r ≠ 0 ∧ codeB r ≤ 3 → (latinWB r).1.plain = true := by decide +kernel
  have table2 : ∀ r < 0x180, r ≠ 0x22 ∧ codeB r ≤ 3 →
      (latinWB r).1.plain = true ∨ (latinWB r).1 = .other := by decide +kernel
  have known : ∀ r ∈ l, r < 0x180 ∧ r ≠ 0x3A := fun r hr =>
    ⟨codeB_lt (knownB_spec hk r hr), (codeB_latin r (codeB_lt (knownB_spec hk r hr)) (knownB_spec hk r hr)).1⟩
  rw [edgeB, Bool.and_eq_true] at h
  obtain ⟨h1, h2⟩ := h
  cases hl : l with
  | nil => rw [hl] at h1; cases h1
  | cons a rest =>
    obtain ⟨z, e, hz⟩ := (last_cases l).resolve_left (by rw [hl]; simp)
    have hend : ∀ z : List Nat, endB (z ++ [e]) = e := by
      intro z
      induction z with
      | nil => rfl
      | cons x z ih =>
        cases z with
        | nil => rfl
        | cons y z => exact ih
    rw [hz, hend] at h2
    rw [hl] at h1
    obtain ⟨ka, ka'⟩ := known a (by rw [hl]; simp)
    obtain ⟨ke, ke'⟩ := known e (by rw [hz]; simp)
    refine ⟨⟨a, rfl, ?_⟩, e, ?_, ?_⟩
    · rw [hR.latin a ka ka']
      have h1 : (bif Nat.beq (codeB a) 0 then false else Nat.ble (codeB a) 3) = true := h1
      cases hb : Nat.beq (codeB a) 0
      · rw [hb, cond_false, Nat.ble_eq] at h1
        exact table1 a ka ⟨Nat.ne_of_beq_eq_false hb, h1⟩
      · rw [hb] at h1; cases h1
    · rw [← hl, hz]; simp
    · rw [hR.latin e ke ke']
      cases hb : Nat.beq e 0x22
      · rw [hb, cond_false, Nat.ble_eq] at h2
        exact table2 e ke ⟨Nat.ne_of_beq_eq_false hb, h2⟩
      · rw [hb] at h2; cases h2

/-- A listed text in running text. -/
theorem listed_in_text (hE : E.Lawful) (hF : E.FollowsUax29 cls) (hR : cls.Right) (hU : E.U.LowersLatin)
    (hP : E.U.PunctLatin) {ign : List Nat} {maxW : Nat} {lost : List Nat} {tree : Tree}
    {rows : List (Nat × Nat)} (hl : lostB lost = true)
    (hw : ∀ row ∈ rows, wordRowB ign maxW lost row = true)
    (hc : ∀ row ∈ rows, rowB ign tree row = true)
    (hp : rows.all (fun r => plainB (runesB r.2)) = true)
    (hmax : maxW ≤ wordLimit (entries E (tableOf rows)))
    {k v s a b : Bytes} (hm : (k, v) ∈ tableOf rows) (hs : ListedText s k) (hlost : s ∉ lost.map textOf)
    (ha : SetOffBefore a) (hb : SetOffAfter b) (ha' : BrokenBefore a) (hb' : BrokenAfter b)
    (hlen : Fits cls (a ++ s ++ b)) {A B : List Token}
    (hA : (synonyms E (tableOf rows) true ign (tokenizeString E a)).Yields A .eof)
    (hB : (synonyms E (tableOf rows) true ign (tokenizeString E b)).Yields B .eof) :
    (synonyms E (tableOf rows) true ign (tokenizeString E (a ++ s ++ b))).Yields
      (A ++ mkToken E.U v true :: B) .eof := by
  have hg := (listed_greedy hF hR hU hP hl hw hc hp hmax hm hs).mpr hlost
  have hk := table_cuts hF hR hw
  have hm' := hm
  simp only [tableOf, List.mem_map] at hm'
  obtain ⟨row, hrow, hrv⟩ := hm'
  obtain ⟨rfl, rfl⟩ := Prod.mk.inj hrv
  obtain ⟨h1, h2, -, h4⟩ := listed_text hl (hw row hrow) hs
  obtain ⟨⟨r0, hr0, p0⟩, r1, hr1, p1⟩ := edgeB_spec hR h1 (h4 hlost).2
  obtain ⟨fa, -, fb⟩ := hlen.between hR ha hb hr0 p0 hr1 p1
  have htok := stringTokens_between hF hR ha hb hlen hr0 p0 hr1 p1
  have run : ∀ t : Bytes, Fits cls t → (tokenizeString E t).Yields (stringTokens E t) .eof :=
    fun t ht => stringTokens_yields hE (by rw [hF t ht])
  have hsc : ∀ m ∈ tableOf rows, (E.scan { data := m.1 }).2 = none := fun m hm => (hk m hm).scans
  obtain ⟨A', gA, -, yA⟩ := C31_synonyms_greedy hE (tableOf rows) true ign hsc (run a fa)
  obtain ⟨B', gB, -, yB⟩ := C31_synonyms_greedy hE (tableOf rows) true ign hsc (run b fb)
  rw [(hA.unique yA).1, (hB.unique yB).1]
  have hnil : stringTokens E [] = [] := by rw [stringTokens, hF [] .nil]; rfl
  have hpa : ∀ ys, PunctBetween (stringTokens E a) ys := by
    intro ys
    rcases last_punct hF hR hP ha ha' fa with rfl | h
    · exact Or.inl hnil
    · exact Or.inr (.inr (.inl h))
  have hpb : ∀ xs, PunctBetween xs (stringTokens E b) := by
    intro xs
    rcases first_punct hF hR hP hb hb' fb with rfl | h
    · exact Or.inr (.inl hnil)
    · exact Or.inr (.inr (.inr h))
  have key := gA.append (hg.append gB (hpb _).noCross) (hpa _).noCross
  rw [← List.append_assoc, ← htok] at key
  have := synonyms_yields hE hsc (run _ hlen) key
  simpa using this

end

/-- **C79.** With the word rules of UAX #29, every synonym listed in the Stack Overflow table, but the lost
ones, is replaced by its canonical wherever it stands in a text between punctuation or line ends: the text
before it and the text after it become what they would become on their own. -/
theorem C79_tags_in_text {E : Env} {cls : WordTable} (hE : E.Lawful) (hF : E.FollowsUax29 cls) (hR : cls.Right)
    (hU : E.U.LowersLatin) (hP : E.U.PunctLatin) {k v s a b : Bytes} (hm : (k, v) ∈ stackOverflowMappings)
    (hs : ListedText s k) (hlost : s ∉ soLost.map textOf) (ha : SetOffBefore a) (hb : SetOffAfter b)
    (ha' : BrokenBefore a) (hb' : BrokenAfter b) (hlen : Fits cls (a ++ s ++ b)) {A B : List Token}
    (hA : (tags E (tokenizeString E a)).Yields A .eof) (hB : (tags E (tokenizeString E b)).Yields B .eof) :
    (tags E (tokenizeString E (a ++ s ++ b))).Yields (A ++ mkToken E.U v true :: B) .eof := by
  rw [tags] at hA hB ⊢
  rw [stackOverflow_rows] at hm hA hB ⊢
  exact listed_in_text hE hF hR hU hP soLost_checked so_words so_all soRows_plain (so_limit hF hR hP) hm hs
    hlost ha hb ha' hb' hlen hA hB

/-- **C79 (names).** The same of the names listed in the NBA table. -/
theorem C79_names_in_text {E : Env} {cls : WordTable} (hE : E.Lawful) (hF : E.FollowsUax29 cls) (hR : cls.Right)
    (hU : E.U.LowersLatin) (hP : E.U.PunctLatin) {k v s a b : Bytes} (hm : (k, v) ∈ nbaMappings)
    (hs : ListedText s k) (hlost : s ∉ nbaLost.map textOf) (ha : SetOffBefore a) (hb : SetOffAfter b)
    (ha' : BrokenBefore a) (hb' : BrokenAfter b) (hlen : Fits cls (a ++ s ++ b)) {A B : List Token}
    (hA : (currentPlayers E (tokenizeString E a)).Yields A .eof)
    (hB : (currentPlayers E (tokenizeString E b)).Yields B .eof) :
    (currentPlayers E (tokenizeString E (a ++ s ++ b))).Yields (A ++ mkToken E.U v true :: B) .eof := by
  rw [currentPlayers] at hA hB ⊢
  rw [nba_rows] at hm hA hB ⊢
  exact listed_in_text hE hF hR hU hP nbaLost_checked nba_words nba_all nbaRows_plain (nba_limit hF hR hP) hm hs
    hlost ha hb ha' hb' hlen hA hB

/-- Non-vacuity: "c++" in "Learn (c++), now", with what becomes of the rest. -/
example : ∃ A B, (tags uaxEnv (tokenizeString uaxEnv (str "Learn (" ++ str "c++" ++ str "), now"))).Yields
    (A ++ mkToken uaxEnv.U (str "c++") true :: B) .eof := by
  have hlaw := C76_scanner_laws uaxEnv_follows uaxTable_right
  have hsc : ∀ m ∈ stackOverflowMappings, (uaxEnv.scan { data := m.1 }).2 = none := fun m hm => (hlaw.2.1 m hm).scans
  have out : ∀ t : Bytes, Fits uaxTable t → ∃ A, (tags uaxEnv (tokenizeString uaxEnv t)).Yields A .eof := by
    intro t ht
    obtain ⟨A, -, -, h⟩ := C31_synonyms_greedy uaxEnv_lawful stackOverflowMappings true stackOverflowIgnore hsc
      (stringTokens_yields (s := t) uaxEnv_lawful (by rw [uaxEnv_follows t ht]))
    exact ⟨A, h⟩
  obtain ⟨A, hA⟩ := out (str "Learn (") (.inl (by decide +kernel))
  obtain ⟨B, hB⟩ := out (str "), now") (.inl (by decide +kernel))
  have hmem : (str "c++", str "c++") ∈ stackOverflowMappings := by
    rw [stackOverflow_rows]
    have := List.mem_map_of_mem (f := fun r : Nat × Nat => (textOf r.1, textOf r.2))
      (mem_so (row := (n!"c++", n!"c++")) 1 rfl (by decide +kernel))
    rwa [show textOf n!"c++" = str "c++" by decide +kernel] at this
  exact ⟨A, B, C79_tags_in_text uaxEnv_lawful uaxEnv_follows uaxTable_right uaxEnv_lowers uaxEnv_punct hmem
    ⟨[], [], [], by simp, Or.inl rfl, Or.inl rfl, by simp, by decide +kernel, by decide +kernel⟩ (by decide +kernel)
    ⟨str "Learn (", [], by simp, by simp, Or.inr ⟨str "Learn ", 0x28, by decide +kernel, by decide +kernel⟩⟩
    ⟨[], str "), now", by simp, by simp, Or.inr ⟨0x29, str ", now", by decide +kernel, by decide +kernel⟩⟩
    (Or.inr ⟨str "Learn ", 0x28, by decide +kernel, Or.inl (by decide +kernel)⟩)
    (Or.inr ⟨0x29, str ", now", by decide +kernel, Or.inl ⟨by decide +kernel,
      Or.inr ⟨0x2C, str " now", by decide +kernel, by decide, by decide⟩⟩⟩)
    (.inl (by decide +kernel)) hA hB⟩

/-! ### C80 -/

/-- A text up to case, spaces, hyphens, dots and forward slashes. -/
def tagLoose (rs : List Rune) : List Rune :=
  (rs.map latinLower).filter fun r => r ∉ [' ', '-', '.', '/'].map Char.toNat

/-- **C80, as filters/stackoverflow/filter.go:10-13 says.** `Tags` "is insensitive to spaces, hyphens, dots and
forward slashes": text that is a listed synonym up to these and case is replaced by the canonical. (Of text
that begins or ends with one of them this is not expected.) -/
def C80_full (E : Env) (cls : WordTable) : Prop := ∀ k v s, (k, v) ∈ stackOverflowMappings → ListedText s k →
  ∀ s' : Bytes, Fits cls s' → (∀ r ∈ runes s', r < 0x180) →
  (∀ r, (runes s').head? = some r ∨ (runes s').getLast? = some r → tagLoose [r] ≠ []) →
  tagLoose (runes s') = tagLoose (runes s) →
  (tags E (tokenizeString E s')).Yields [mkToken E.U v true] .eof

/-- **C80 is violated.** "node.js" is listed, but "node-js" is not recognised: the hyphen is punctuation, and
no run of tokens goes across punctuation. The same goes for slashes, and for dots next to a hyphen or space. -/
theorem C80_violated {E : Env} {cls : WordTable} (hE : E.Lawful) (hF : E.FollowsUax29 cls) (hR : cls.Right)
    (hP : E.U.PunctLatin) : ¬ C80_full E cls ∧ ∀ s ∈ ["node-js", "node/js", "node. js"],
      ¬ (tags E (tokenizeString E (str s))).Yields [mkToken E.U (str "node.js") true] .eof := by
  have bad : ∀ s ∈ ["node-js", "node/js", "node. js"],
      ¬ (tags E (tokenizeString E (str s))).Yields [mkToken E.U (str "node.js") true] .eof := by
    intro s hs hy
    have hk : knownB (runes (str s)) = true ∧ (str s).length < 0x10000 ∧
        badB (wordsB (runes (str s)) 0).2.2 = true := by
      simp only [List.mem_cons, List.not_mem_nil, or_false] at hs
      rcases hs with rfl | rfl | rfl <;> exact ⟨by decide +kernel, by decide +kernel, by decide +kernel⟩
    obtain ⟨hk, hlen, hb⟩ := hk
    have htok := tokensOf_string hF hR (.inl hlen) hk
    obtain ⟨t, ht, htp, htl⟩ := bad_punct hP htok (wordsB_known hR hk) hb
    have hsc := (C76_scanner_laws hF hR).2.1
    obtain ⟨out, hg, -, hout⟩ := C31_synonyms_greedy hE stackOverflowMappings true stackOverflowIgnore
      (fun m hm => (hsc m hm).scans) (stringTokens_yields (s := str s) hE (by rw [hF _ (.inl hlen)]))
    have hmem := hg.punct_mem ht htp
    rw [← (hy.unique hout).1, List.mem_singleton] at hmem
    rw [hmem] at htl
    cases htl
  refine ⟨fun h => bad "node-js" (by simp) ?_, bad⟩
  have hmem : (str "node.js", str "node.js") ∈ stackOverflowMappings := by
    rw [stackOverflow_rows]
    have := List.mem_map_of_mem (f := fun r : Nat × Nat => (textOf r.1, textOf r.2))
      (mem_so (row := (n!"node.js", n!"node.js")) 5 rfl (by decide +kernel))
    rwa [show textOf n!"node.js" = str "node.js" by decide +kernel] at this
  exact h _ _ (str "node.js") hmem
    ⟨[], [], [], by simp, Or.inl rfl, Or.inl rfl, by simp, by decide +kernel, by decide +kernel⟩
    (str "node-js") (.inl (by decide +kernel)) (by decide +kernel)
    (by
      have h1 : (runes (str "node-js")).head? = some 0x6E := by decide +kernel
      have h2 : (runes (str "node-js")).getLast? = some 0x73 := by decide +kernel
      intro r hr
      rw [h1, h2, Option.some.injEq, Option.some.injEq] at hr
      rcases hr with rfl | rfl <;> decide +kernel)
    (by decide +kernel)

/-- **C80, partial.** Text is replaced by the canonical of a listed synonym if it is spelled like it up to
case, spaces, hyphens, dots and slashes, provided none of these is a token of punctuation, it starts and ends
with a word, and it has no more than five words. What is missing for `C80_full`: hyphens and slashes, which
are always punctuation, dots not between letters or digits, and texts of more than five words. -/
theorem C80_tags_partial {E : Env} {cls : WordTable} (hE : E.Lawful) (hF : E.FollowsUax29 cls) (hR : cls.Right)
    (hU : E.U.LowersLatin) (hP : E.U.PunctLatin) {k v s s' : Bytes} (hm : (k, v) ∈ stackOverflowMappings)
    (hs : ListedText s k) (hlen : Fits cls s') (hlat : ∀ r ∈ runes s', r < 0x180)
    (h : tagLoose (runes s') = tagLoose (runes s)) (hp : ∀ t ∈ stringTokens E s', t.punct = false)
    (hfirst : ∀ t, (stringTokens E s').head? = some t → t.IsWord)
    (hlast : ∀ t, (stringTokens E s').getLast? = some t → t.IsWord ∧ tagLoose (runes t.value) ≠ [])
    (hwords : (stringTokens E s').countP (fun t => decide t.IsWord) ≤ 5) (hne : s' ≠ []) :
    (tags E (tokenizeString E s')).Yields [mkToken E.U v true] .eof := by
  have hign : stackOverflowIgnore = [' ', '-', '.', '/'].map Char.toNat := by decide
  have hnorm : ∀ rs : List Rune, (∀ r ∈ rs, r < 0x180) →
      (Compare.mk E.U true stackOverflowIgnore).normal rs = tagLoose rs := by
    intro rs hrs
    rw [Compare.normal, tagLoose, ← hign]
    congr 1
    exact List.map_congr_left fun r hr => hU r (hrs r hr)
  have hflat : (stringTokens E s').flatMap (fun t => runes t.value) = runes s' := by
    rw [stringTokens, hF s' hlen]
    have := wordSegs_whole cls s'
    rw [← this]
    simp [segTokens, List.flatMap_map, mkToken]
  have hsc := (C76_scanner_laws hF hR).2.1
  have hy := stringTokens_yields (s := s') hE (by rw [hF s' hlen])
  have hcut := hsc
  rw [tags]
  rw [stackOverflow_rows] at hm hcut ⊢
  have hv := (mkToken_word (PunctLatin.plain hP) true (row_plain soRows_plain hm)).2
  simp only [tableOf, List.mem_map] at hm
  obtain ⟨row, hrow, hrv⟩ := hm
  obtain ⟨rfl, rfl⟩ := Prod.mk.inj hrv
  have hd := listed_dict hF hR hU so_words so_all hrow hs
  obtain ⟨h1, -, -, -⟩ := listed_text soLost_checked (so_words row hrow) hs
  have hklat : ∀ r ∈ runes s, r < 0x180 := fun r hr => codeB_lt (knownB_spec h1 r hr)
  rw [← normalB_eq hU _ hklat, hnorm _ hklat, ← h, ← hnorm _ hlat, ← hflat] at hd
  have htne : stringTokens E s' ≠ [] := by
    intro h0
    rw [h0] at hflat
    cases s' with
    | nil => exact hne rfl
    | cons x y => rw [runes_cons] at hflat; cases hflat
  obtain ⟨first, mid, hfm⟩ := List.exists_cons_of_ne_nil htne
  obtain ⟨l, last, hl⟩ := (last_cases (stringTokens E s')).resolve_left htne
  have hlast' := hlast last (by rw [hl]; simp)
  have hlastlat : ∀ r ∈ runes last.value, r < 0x180 := by
    intro r hr
    refine hlat r ?_
    rw [← hflat]
    exact List.mem_flatMap.mpr ⟨last, by rw [hl]; simp, hr⟩
  have hg := greedy_whole (C := ⟨E.U, true, stackOverflowIgnore⟩)
    (D := (Compare.mk E.U true stackOverflowIgnore).dict (entries E (tableOf soRows.flatten)))
    (m := wordLimit (entries E (tableOf soRows.flatten))) (first := first) (mid := mid) (last := last) (l := l)
    (canonical := textOf row.2) (by rw [← hfm, hl]) (by rw [← hfm]; exact hp)
    (hfirst first (by rw [hfm]; rfl)) hlast'.1
    (by
      rw [Compare.spell, List.flatMap_singleton, hnorm _ hlastlat]
      exact hlast'.2)
    (by
      rw [← hfm]
      exact Nat.le_trans hwords (so_limit hF hR hP))
    (by rw [← hfm]; exact hd)
  rw [← hfm] at hg
  simp only [canonTokens, hv, ↓reduceIte] at hg
  have := synonyms_yields hE (fun m hm => (hcut m hm).scans) hy hg
  simpa using this

/-- Non-vacuity: "Node JS" and "NODE.js" are recognised. -/
example : ∀ s ∈ ["Node JS", "NODE.js", "nodejs"], (tags uaxEnv (tokenizeString uaxEnv (str s))).Yields
    [mkToken uaxEnv.U (str "node.js") true] .eof := by
  have hmem : (str "node.js", str "node.js") ∈ stackOverflowMappings := by
    rw [stackOverflow_rows]
    have := List.mem_map_of_mem (f := fun r : Nat × Nat => (textOf r.1, textOf r.2))
      (mem_so (row := (n!"node.js", n!"node.js")) 5 rfl (by decide +kernel))
    rwa [show textOf n!"node.js" = str "node.js" by decide +kernel] at this
  have key : ∀ s : String, _ → _ → _ → _ → _ → _ → _ → _ → _ := fun s h1 h2 h3 h4 h5 h6 h7 h8 =>
    C80_tags_partial uaxEnv_lawful uaxEnv_follows uaxTable_right uaxEnv_lowers uaxEnv_punct (s := str "node.js")
      (s' := str s) hmem
      ⟨[], [], [], by simp, Or.inl rfl, Or.inl rfl, by simp, by decide +kernel, by decide +kernel⟩ h1 h2 h3 h4 h5 h6
      h7 h8
  have opt : ∀ (o : Option Token) (P : Token → Prop) [DecidablePred P], o.all (fun t => decide (P t)) = true →
      ∀ t, o = some t → P t := by
    rintro o P _ h t rfl
    simpa using h
  intro s hs
  simp only [List.mem_cons, List.not_mem_nil, or_false] at hs
  rcases hs with rfl | rfl | rfl <;>
  · refine key _ (.inl (by decide +kernel)) (by decide +kernel) (by decide +kernel) (by decide +kernel) (opt _ _ ?_)
      (opt _ _ ?_) (by decide +kernel) (by decide +kernel) <;> decide +kernel

end Jargon
