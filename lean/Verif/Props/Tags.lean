import Verif.Props.Tables

/-! C57, C58: what the shipped Stack Overflow filter does with running text. -/

namespace Jargon

/-- The dictionary of `Tags` in an environment. -/
def tagDict (E : Env) : Dict :=
  (Compare.mk E.U true stackOverflowIgnore).dict (entries E stackOverflowMappings)

/-- The comparison of `Tags`. -/
def tagCompare (E : Env) : Compare := ⟨E.U, true, stackOverflowIgnore⟩

theorem tags_yields {E : Env} (hE : E.Lawful) (hk : ∀ m ∈ stackOverflowMappings, E.CutsCommas m.1)
    {ts : TokenStream} {toks out : List Token} (h : ts.Yields toks .eof)
    (hg : Greedy (tagCompare E) (tagDict E) (wordLimit (entries E stackOverflowMappings)) toks out) :
    (tags E ts).Yields out .eof := by
  have := synonyms_yields hE (fun m hm => (hk m hm).scans) h hg
  simp only [↓reduceIte] at this
  exact this

theorem tagDict_some {E : Env} (hU : E.U.LowersLatin)
    (hk : ∀ m ∈ stackOverflowMappings, E.CutsCommas m.1) {row : Nat × Nat} (hrow : row ∈ soRows.flatten)
    {p : List Nat} (hp : p ∈ cutRunes (runes (textOf row.1))) :
    tagDict E (normalB stackOverflowIgnore p) = some (textOf row.2) := by
  rw [tagDict]
  rw [stackOverflow_rows] at hk ⊢
  exact dict_of_piece hU so_all hk hrow hp

theorem tagDict_none {E : Env} (hU : E.U.LowersLatin)
    (hk : ∀ m ∈ stackOverflowMappings, E.CutsCommas m.1) {q : List Nat}
    (hq : soTree.find (hash q) = none) : tagDict E q = none := by
  rw [tagDict]
  rw [stackOverflow_rows] at hk ⊢
  exact dict_absent hU so_all hk hq

/-- A token of the sample segmenter. -/
def lw (s : String) : Token := mkToken latinEnv.U (str s) false

/-- A canonical token. -/
def lc (s : String) : Token := mkToken latinEnv.U (str s) true

theorem java_dict : tagDict latinEnv (str "java" |>.map UInt8.toNat) = some (str "java") ∧
    tagDict latinEnv (str "applets" |>.map UInt8.toNat) = some (str "applet") ∧
    tagDict latinEnv (str "javaapplet" |>.map UInt8.toNat) = some (str "applet") ∧
    tagDict latinEnv (str "javaapplets" |>.map UInt8.toNat) = none := by
  have hso : ∀ m ∈ stackOverflowMappings, latinEnv.CutsCommas m.1 := fun m _ => latinEnv_cuts m.1
  refine ⟨?_, ?_, ?_, ?_⟩
  · have := tagDict_some latinEnv_lowers hso (row := (n!"java", n!"java")) (p := str "java" |>.map UInt8.toNat)
      (mem_so 4 rfl (by decide +kernel)) (by decide +kernel)
    rwa [show normalB stackOverflowIgnore (str "java" |>.map UInt8.toNat) = (str "java" |>.map UInt8.toNat)
      by decide +kernel, show textOf (n!"java", n!"java").2 = str "java" by decide +kernel] at this
  · have := tagDict_some latinEnv_lowers hso (row := (n!"java applet, applets", n!"applet"))
      (p := str " applets" |>.map UInt8.toNat) (mem_so 4 rfl (by decide +kernel)) (by decide +kernel)
    rwa [show normalB stackOverflowIgnore (str " applets" |>.map UInt8.toNat) =
      (str "applets" |>.map UInt8.toNat) by decide +kernel,
      show textOf (n!"java applet, applets", n!"applet").2 = str "applet" by decide +kernel] at this
  · have := tagDict_some latinEnv_lowers hso (row := (n!"java applet, applets", n!"applet"))
      (p := str "java applet" |>.map UInt8.toNat) (mem_so 4 rfl (by decide +kernel)) (by decide +kernel)
    rwa [show normalB stackOverflowIgnore (str "java applet" |>.map UInt8.toNat) =
      (str "javaapplet" |>.map UInt8.toNat) by decide +kernel,
      show textOf (n!"java applet, applets", n!"applet").2 = str "applet" by decide +kernel] at this
  · exact tagDict_none latinEnv_lowers hso (by decide +kernel)

theorem latinEnv_so : ∀ m ∈ stackOverflowMappings, latinEnv.CutsCommas m.1 := fun m _ => latinEnv_cuts m.1

/-- The word limit of `Tags` is at least two. -/
theorem tags_limit : 2 ≤ wordLimit (entries latinEnv stackOverflowMappings) := by
  have hm : (textOf n!"java applet, applets", textOf n!"applet") ∈ stackOverflowMappings := by
    rw [stackOverflow_rows]
    exact List.mem_map_of_mem (f := fun r : Nat × Nat => (textOf r.1, textOf r.2))
      (mem_so (row := (n!"java applet, applets", n!"applet")) 4 rfl (by decide +kernel))
  have he : ([lw "java", lw " ", lw "applet"], textOf n!"applet") ∈ entries latinEnv stackOverflowMappings := by
    simp only [entries, List.mem_flatMap, List.mem_map]
    exact ⟨_, hm, _, by decide +kernel, rfl⟩
  have := wordLimit_ge he
  have hw : words [lw "java", lw " ", lw "applet"] = 2 := by decide +kernel
  simp only [hw] at this
  exact this

/-- One pass over "java applets" tags both words. -/
theorem java_applets_once : Greedy (tagCompare latinEnv) (tagDict latinEnv)
    (wordLimit (entries latinEnv stackOverflowMappings)) [lw "java", lw " ", lw "applets"]
    [lc "java", lw " ", lc "applet"] := by
  obtain ⟨h1, h2, -, h4⟩ := java_dict
  have hpos := wordLimit_pos (entries latinEnv stackOverflowMappings)
  have e1 : (tagCompare latinEnv).spell [lw "java"] = (str "java").map UInt8.toNat := by decide +kernel
  have e2 : (tagCompare latinEnv).spell [lw "java", lw " "] = (str "java").map UInt8.toNat := by
    decide +kernel
  have e3 : (tagCompare latinEnv).spell [lw "java", lw " ", lw "applets"] =
      (str "javaapplets").map UInt8.toNat := by decide +kernel
  have e4 : (tagCompare latinEnv).spell [lw "applets"] = (str "applets").map UInt8.toNat := by decide +kernel
  have hc1 : canonTokens (tagCompare latinEnv).U (str "java") = [lc "java"] := by decide +kernel
  have hc2 : canonTokens (tagCompare latinEnv).U (str "applet") = [lc "applet"] := by decide +kernel
  have last : Greedy (tagCompare latinEnv) (tagDict latinEnv)
      (wordLimit (entries latinEnv stackOverflowMappings)) [lw "applets"] [lc "applet"] := by
    have := Greedy.replace (C := tagCompare latinEnv) (D := tagDict latinEnv)
      (maxWords := wordLimit (entries latinEnv stackOverflowMappings)) (t := lw "applets") (ts := [])
      (out := []) (k := 1) (canonical := str "applet") (by decide +kernel)
      ⟨⟨by simp, by simp, by decide +kernel, hpos⟩, ?_, ?_, ?_⟩ .nil
    · rw [hc2] at this; exact this
    · show tagDict latinEnv ((tagCompare latinEnv).spell [lw "applets"]) = _
      rw [e4]; exact h2
    · intro j hj hlt; have := hj.le; simp at this; omega
    · intro j hj hlt; have := hj.pos; omega
  have mid := Greedy.separator (t := lw " ") (by decide +kernel) last
  have := Greedy.replace (C := tagCompare latinEnv) (D := tagDict latinEnv)
    (maxWords := wordLimit (entries latinEnv stackOverflowMappings)) (t := lw "java")
    (ts := [lw " ", lw "applets"]) (k := 1) (canonical := str "java") (by decide +kernel)
    ⟨⟨by simp, by simp, by decide +kernel, hpos⟩, ?_, ?_, ?_⟩ mid
  · rw [hc1] at this; exact this
  · show tagDict latinEnv ((tagCompare latinEnv).spell [lw "java"]) = _
    rw [e1]; exact h1
  · intro j hj hlt hd
    have := hj.le
    simp only [List.length_cons, List.length_nil] at this
    rcases (by omega : j = 2 ∨ j = 3) with rfl | rfl
    · exact e2.trans e1.symm
    · exfalso
      apply hd
      show tagDict latinEnv ((tagCompare latinEnv).spell [lw "java", lw " ", lw "applets"]) = _
      rw [e3]; exact h4
  · intro j hj hlt; have := hj.pos; omega

/-- A second pass merges them. -/
theorem java_applets_twice : Greedy (tagCompare latinEnv) (tagDict latinEnv)
    (wordLimit (entries latinEnv stackOverflowMappings)) [lc "java", lw " ", lc "applet"]
    [lc "applet"] := by
  obtain ⟨-, -, h3, -⟩ := java_dict
  have hlim := tags_limit
  have e1 : (tagCompare latinEnv).spell [lc "java"] = (str "java").map UInt8.toNat := by decide +kernel
  have e2 : (tagCompare latinEnv).spell [lc "java", lw " "] = (str "java").map UInt8.toNat := by
    decide +kernel
  have e3 : (tagCompare latinEnv).spell [lc "java", lw " ", lc "applet"] =
      (str "javaapplet").map UInt8.toNat := by decide +kernel
  have hc : canonTokens (tagCompare latinEnv).U (str "applet") = [lc "applet"] := by decide +kernel
  have hw : words [lc "java", lw " "] = 1 := by decide +kernel
  have := Greedy.replace (C := tagCompare latinEnv) (D := tagDict latinEnv)
    (maxWords := wordLimit (entries latinEnv stackOverflowMappings)) (t := lc "java")
    (ts := [lw " ", lc "applet"]) (out := []) (k := 3) (canonical := str "applet") (by decide +kernel)
    ⟨⟨by simp, by simp, by decide +kernel, ?_⟩, ?_, ?_, ?_⟩ .nil
  · rw [hc] at this; exact this
  · show words [lc "java", lw " "] < _
    omega
  · show tagDict latinEnv ((tagCompare latinEnv).spell [lc "java", lw " ", lc "applet"]) = _
    rw [e3]; exact h3
  · intro j hj hlt; have := hj.le; simp at this; omega
  · intro j hj hlt
    have := hj.pos
    show _ ≠ (tagCompare latinEnv).spell [lc "java", lw " ", lc "applet"]
    rcases (by omega : j = 1 ∨ j = 2) with rfl | rfl
    · show (tagCompare latinEnv).spell [lc "java"] ≠ _
      rw [e1, e3]; decide +kernel
    · show (tagCompare latinEnv).spell [lc "java", lw " "] ≠ _
      rw [e2, e3]; decide +kernel

/-! ### C57 -/

/-- **C57, as one would like it.** Tagging twice is tagging once. -/
def C57_full : Prop := ∀ E : Env, E.Lawful → E.U.LowersLatin → E.U.PlainNotPunct →
  (∀ m ∈ stackOverflowMappings, E.CutsCommas m.1) → ∀ (ts : TokenStream) (toks : List Token),
  ts.Yields toks .eof → ∃ out, (tags E ts).Yields out .eof ∧ (tags E (tags E ts)).Yields out .eof

/-- **C57 is violated.** "java applets" becomes "java applet", and that becomes "applet". -/
theorem C57_violated : ¬ C57_full := by
  intro h
  have hy : (listStream [lw "java", lw " ", lw "applets"] .eof).Yields
      [lw "java", lw " ", lw "applets"] .eof := listStream_yields _ _
  obtain ⟨out, h1, h2⟩ := h latinEnv latinEnv_lawful latinEnv_lowers latinEnv_plain latinEnv_so _ _ hy
  have hy1 := tags_yields latinEnv_lawful latinEnv_so hy java_applets_once
  have hy2 := tags_yields latinEnv_lawful latinEnv_so hy1 java_applets_twice
  have e1 := (h1.unique hy1).1
  have e2 := (h2.unique hy2).1
  rw [e1] at e2
  exact absurd e2 (by decide +kernel)

/-- **C57, partial.** Tagging one token twice is tagging it once. What is missing for `C57_full`: with
more than one word, the canonicals of the first pass may together spell another synonym. -/
theorem C57_single_token_partial {E : Env} (hE : E.Lawful) (hU : E.U.LowersLatin)
    (hP : E.U.PlainNotPunct) (hk : ∀ m ∈ stackOverflowMappings, E.CutsCommas m.1)
    {ts : TokenStream} {t : Token} (h : ts.Yields [t] .eof) :
    ∃ out, (tags E ts).Yields out .eof ∧ (tags E (tags E ts)).Yields out .eof := by
  have hone : ∀ j, Admissible (wordLimit (entries E stackOverflowMappings)) [t] j → j = 1 := by
    intro j hj
    have := hj.pos
    have := hj.le
    simp at *
    omega
  by_cases hw : t.IsWord
  · cases hd : tagDict E ((tagCompare E).spell [t]) with
    | none =>
      have hg : Greedy (tagCompare E) (tagDict E) (wordLimit (entries E stackOverflowMappings)) [t] [t] :=
        .word hw (fun k hk => by rw [hone k hk]; exact hd) .nil
      have h1 := tags_yields hE hk h hg
      exact ⟨[t], h1, tags_yields hE hk h1 hg⟩
    | some v =>
      obtain ⟨a, ha, -, rfl⟩ := dict_some hd
      simp only [entries, List.mem_flatMap, List.mem_map] at ha
      obtain ⟨⟨k, v⟩, hm, s, -, rfl⟩ := ha
      have hv := (mkToken_word hP true (row_plain soRows_plain (stackOverflow_rows ▸ hm))).2
      have hg : Greedy (tagCompare E) (tagDict E) (wordLimit (entries E stackOverflowMappings)) [t]
          (canonTokens E.U v ++ []) := by
        refine .replace (k := 1) hw ⟨⟨by simp, by simp, ?_, wordLimit_pos _⟩, hd, ?_, ?_⟩ .nil
        · intro x hx; simp at hx; rw [hx]; exact hw.1
        · intro j hj hlt; have := hone j hj; omega
        · intro j hj hlt; have := hone j hj; omega
      have h1 := tags_yields hE hk h hg
      simp only [canonTokens, hv, ↓reduceIte, List.append_nil] at h1
      exact ⟨_, h1, C56_stackoverflow_canonicals hE hU hP hk hm h1⟩
  · have hg : Greedy (tagCompare E) (tagDict E) (wordLimit (entries E stackOverflowMappings)) [t] [t] :=
      .separator hw .nil
    have h1 := tags_yields hE hk h hg
    exact ⟨[t], h1, tags_yields hE hk h1 hg⟩

/-- If no run of the output spells a synonym that its first token does not spell alone, and canonicals
are synonyms of themselves, a second pass changes nothing. -/
theorem Greedy.again {C : Compare} {D : Dict} {m : Nat} (hm : 0 < m) {toks out : List Token}
    (h : Greedy C D m toks out)
    (hD : ∀ q c, D q = some c → c ≠ [] → (mkToken C.U c true).IsWord ∧
      D (C.spell [mkToken C.U c true]) = some c)
    (hno : ∀ pre first rest post, out = pre ++ (first :: rest) ++ post → first.IsWord →
      D (C.spell (first :: rest)) ≠ none → C.spell (first :: rest) = C.spell [first]) :
    Greedy C D m out out := by
  have key : ∀ {t : Token} {out' : List Token}, (∀ pre first rest post,
      t :: out' = pre ++ (first :: rest) ++ post → first.IsWord →
      D (C.spell (first :: rest)) ≠ none → C.spell (first :: rest) = C.spell [first]) → t.IsWord →
      ∀ k, 1 ≤ k → D (C.spell ((t :: out').take k)) ≠ none →
      C.spell ((t :: out').take k) = C.spell [t] := by
    intro t out' hno ht k hk hd
    obtain ⟨j, rfl⟩ : ∃ j, k = j + 1 := ⟨k - 1, by omega⟩
    exact hno [] t (out'.take j) (out'.drop j) (by simp) ht hd
  have tail : ∀ {t : Token} {out' : List Token}, (∀ pre first rest post,
      t :: out' = pre ++ (first :: rest) ++ post → first.IsWord →
      D (C.spell (first :: rest)) ≠ none → C.spell (first :: rest) = C.spell [first]) →
      ∀ pre first rest post, out' = pre ++ (first :: rest) ++ post → first.IsWord →
      D (C.spell (first :: rest)) ≠ none → C.spell (first :: rest) = C.spell [first] := by
    intro t out' hno pre first rest post he
    exact hno (t :: pre) first rest post (by rw [he]; rfl)
  induction h with
  | nil => exact .nil
  | separator ht _ ih => exact .separator ht (ih (tail hno))
  | @replace t ts out k canonical ht hl _ ih =>
    by_cases hc : canonical = []
    · simp only [canonTokens, hc, ↓reduceIte, List.nil_append] at hno ⊢
      exact ih hno
    · simp only [canonTokens, hc, ↓reduceIte, List.cons_append, List.nil_append] at hno ⊢
      obtain ⟨hw, hd⟩ := hD _ _ hl.isSyn hc
      have hg := Greedy.replace (C := C) (D := D) (maxWords := m) (t := mkToken C.U canonical true)
        (ts := out) (k := 1) (canonical := canonical) (out := out) hw
        ⟨⟨Nat.le_refl _, by simp, ?_, hm⟩, hd, ?_, ?_⟩ (ih (tail hno))
      · simpa only [canonTokens, hc, ↓reduceIte, List.cons_append, List.nil_append] using hg
      · intro x hx; simp at hx; rw [hx]; exact hw.1
      · intro j hj hlt hne; exact key hno hw j hj.pos hne
      · intro j hj hlt; have := hj.pos; omega
  | @word t ts out ht hd _ ih =>
    refine .word ht ?_ (ih (tail hno))
    intro k hk
    cases hq : D (C.spell ((t :: out).take k)) with
    | none => rfl
    | some c =>
      exfalso
      have he := key hno ht k hk.pos (by rw [hq]; simp)
      have h1 := hd 1 ⟨Nat.le_refl _, by simp, by intro x hx; simp at hx; rw [hx]; exact ht.1, hm⟩
      rw [he] at hq
      simp only [List.take_succ_cons, List.take_zero] at h1
      rw [h1] at hq
      exact nomatch hq

/-- **C57, partial.** Tagging twice is tagging once whenever no run of the tagged text spells a listed
synonym that its first token does not spell alone. What is missing for `C57_full` is exactly that: the
canonicals of the first pass may together spell another synonym. -/
theorem C57_no_new_synonym_partial {E : Env} (hE : E.Lawful) (hU : E.U.LowersLatin)
    (hP : E.U.PlainNotPunct) (hk : ∀ m ∈ stackOverflowMappings, E.CutsCommas m.1)
    {ts : TokenStream} {toks out : List Token} (h : ts.Yields toks .eof)
    (hout : (tags E ts).Yields out .eof)
    (hno : ∀ pre first rest post, out = pre ++ (first :: rest) ++ post → first.IsWord →
      ∀ a ∈ entries E stackOverflowMappings, (tagCompare E).spell (first :: rest) = (tagCompare E).spell a.1 →
      (tagCompare E).spell (first :: rest) = (tagCompare E).spell [first]) :
    (tags E (tags E ts)).Yields out .eof := by
  obtain ⟨out', hg⟩ := Greedy.total (tagCompare E) (tagDict E) (wordLimit (entries E stackOverflowMappings)) toks
  obtain ⟨rfl, -⟩ := hout.unique (tags_yields hE hk h hg)
  refine tags_yields hE hk hout (hg.again (wordLimit_pos _) ?_ ?_)
  · intro q c hd hc
    obtain ⟨a, ha, -, rfl⟩ := dict_some hd
    simp only [entries, List.mem_flatMap, List.mem_map] at ha
    obtain ⟨⟨k, v⟩, hm, s, -, rfl⟩ := ha
    have hw := (mkToken_word hP true (row_plain soRows_plain (stackOverflow_rows ▸ hm))).1
    refine ⟨hw, ?_⟩
    have hds := dict_self hU so_all (stackOverflow_rows ▸ hk) soRows_self (stackOverflow_rows ▸ hm)
    rw [tagDict, stackOverflow_rows]
    simpa [Compare.spell, mkToken, tagCompare] using hds
  · intro pre first rest post he hf hd
    cases hd' : tagDict E ((tagCompare E).spell (first :: rest)) with
    | none => exact absurd hd' hd
    | some c =>
      obtain ⟨a, ha, hs, -⟩ := dict_some hd'
      exact hno pre first rest post he hf a ha hs.symm

/-- Non-vacuity: "Java xq", a text of two words. -/
example : (tags latinEnv (tags latinEnv (listStream [lw "Java", lw " ", lw "xq"] .eof))).Yields
    [lc "java", lw " ", lw "xq"] .eof := by
  have hx : tagDict latinEnv ((str "xq").map UInt8.toNat) = none :=
    tagDict_none latinEnv_lowers latinEnv_so (by decide +kernel)
  have hjx : tagDict latinEnv ((str "javaxq").map UInt8.toNat) = none :=
    tagDict_none latinEnv_lowers latinEnv_so (by decide +kernel)
  have e1 : (tagCompare latinEnv).spell [lw "Java"] = (str "java").map UInt8.toNat := by decide +kernel
  have e2 : (tagCompare latinEnv).spell [lw "Java", lw " "] = (str "java").map UInt8.toNat := by
    decide +kernel
  have e3 : (tagCompare latinEnv).spell [lw "Java", lw " ", lw "xq"] =
      (str "javaxq").map UInt8.toNat := by decide +kernel
  have e4 : (tagCompare latinEnv).spell [lw "xq"] = (str "xq").map UInt8.toNat := by decide +kernel
  have last : Greedy (tagCompare latinEnv) (tagDict latinEnv)
      (wordLimit (entries latinEnv stackOverflowMappings)) [lw " ", lw "xq"] [lw " ", lw "xq"] := by
    refine .separator (by decide +kernel) (.word (by decide +kernel) ?_ .nil)
    intro k hk
    have h1 := hk.pos
    have h2 := hk.le
    simp only [List.length_cons, List.length_nil] at h2
    obtain rfl : k = 1 := by omega
    show tagDict latinEnv ((tagCompare latinEnv).spell [lw "xq"]) = none
    rw [e4]; exact hx
  have hy := listStream_yields [lw "Java", lw " ", lw "xq"] .eof
  have hout : (tags latinEnv (listStream [lw "Java", lw " ", lw "xq"] .eof)).Yields
      [lc "java", lw " ", lw "xq"] .eof := by
    refine tags_yields latinEnv_lawful latinEnv_so hy ?_
    have := Greedy.replace (C := tagCompare latinEnv) (D := tagDict latinEnv)
      (maxWords := wordLimit (entries latinEnv stackOverflowMappings)) (t := lw "Java")
      (ts := [lw " ", lw "xq"]) (k := 1) (canonical := str "java") (by decide +kernel)
      ⟨⟨by simp, by simp, by decide +kernel, wordLimit_pos _⟩, ?_, ?_, ?_⟩ last
    · rw [show canonTokens (tagCompare latinEnv).U (str "java") = [lc "java"] by decide +kernel] at this
      exact this
    · show tagDict latinEnv ((tagCompare latinEnv).spell [lw "Java"]) = _
      rw [e1]; exact java_dict.1
    · intro j hj hlt hd
      have := hj.le
      simp only [List.length_cons, List.length_nil] at this
      rcases (by omega : j = 2 ∨ j = 3) with rfl | rfl
      · exact e2.trans e1.symm
      · exfalso
        apply hd
        show tagDict latinEnv ((tagCompare latinEnv).spell [lw "Java", lw " ", lw "xq"]) = _
        rw [e3]; exact hjx
    · intro j hj hlt; have := hj.pos; omega
  refine C57_no_new_synonym_partial latinEnv_lawful latinEnv_lowers latinEnv_plain latinEnv_so hy hout ?_
  have no : ∀ q, tagDict latinEnv q = none → ∀ a ∈ entries latinEnv stackOverflowMappings,
      q ≠ (tagCompare latinEnv).spell a.1 := fun q hq a ha e => dict_none hq a ha e.symm
  intro pre first rest post he hf a ha hs
  match pre, rest, he with
  | [], [], he => rfl
  | [], [_], he =>
    simp only [List.nil_append, List.cons_append, List.cons.injEq] at he
    obtain ⟨rfl, rfl, -⟩ := he
    decide +kernel
  | [], _ :: _ :: r, he =>
    simp only [List.nil_append, List.cons_append, List.cons.injEq] at he
    obtain ⟨rfl, rfl, rfl, he⟩ := he
    obtain ⟨rfl, -⟩ := List.append_eq_nil_iff.mp he.symm
    exact absurd hs (no _ (by rw [show (tagCompare latinEnv).spell [lc "java", lw " ", lw "xq"] =
      (str "javaxq").map UInt8.toNat by decide +kernel]; exact hjx) a ha)
  | [_], _, he =>
    simp only [List.cons_append, List.nil_append, List.cons.injEq] at he
    obtain ⟨-, rfl, -⟩ := he
    exact absurd hf (by decide +kernel)
  | [_, _], [], he => rfl
  | [_, _], _ :: _, he => simp at he
  | _ :: _ :: _ :: p, r, he =>
    simp at he

/-! ### C58 -/

/-- **C58, as one would like it.** Text that is one of the listed synonyms, as the segmenter cuts it, is
replaced by its canonical. -/
def C58_full : Prop := ∀ E : Env, E.Lawful → E.U.LowersLatin → E.U.PlainNotPunct →
  (∀ m ∈ stackOverflowMappings, E.CutsCommas m.1) → ∀ s canonical,
  (s, canonical) ∈ entries E stackOverflowMappings → ∀ ts : TokenStream, ts.Yields s .eof →
  (tags E ts).Yields [mkToken E.U canonical true] .eof

/-- **C58 is violated.** ".net" is listed, with canonical ".net"; but "." is punctuation and passes, and
"net" alone is spelled like ".net". So ".net" becomes "..net". -/
theorem C58_violated : ¬ C58_full ∧
    ([lw ".", lw "net"], str ".net") ∈ entries latinEnv stackOverflowMappings ∧
    (tags latinEnv (listStream [lw ".", lw "net"] .eof)).Yields [lw ".", lc ".net"] .eof := by
  have hm : (textOf n!".net", textOf n!".net") ∈ stackOverflowMappings := by
    rw [stackOverflow_rows]
    exact List.mem_map_of_mem (f := fun r : Nat × Nat => (textOf r.1, textOf r.2))
      (mem_so (row := (n!".net", n!".net")) 0 rfl (by decide +kernel))
  have htext : textOf n!".net" = str ".net" := by decide +kernel
  rw [htext] at hm
  have he : ([lw ".", lw "net"], str ".net") ∈ entries latinEnv stackOverflowMappings := by
    simp only [entries, List.mem_flatMap, List.mem_map]
    exact ⟨_, hm, _, by decide +kernel, rfl⟩
  have hd : tagDict latinEnv ((str "net").map UInt8.toNat) = some (str ".net") := by
    have := tagDict_some latinEnv_lowers latinEnv_so (row := (n!".net", n!".net"))
      (p := (str ".net").map UInt8.toNat) (mem_so 0 rfl (by decide +kernel)) (by decide +kernel)
    rwa [show normalB stackOverflowIgnore ((str ".net").map UInt8.toNat) =
      (str "net").map UInt8.toNat by decide +kernel, htext] at this
  have hy := listStream_yields [lw ".", lw "net"] .eof
  have hout : (tags latinEnv (listStream [lw ".", lw "net"] .eof)).Yields [lw ".", lc ".net"] .eof := by
    refine tags_yields latinEnv_lawful latinEnv_so hy (.separator (by decide +kernel) ?_)
    have := Greedy.replace (C := tagCompare latinEnv) (D := tagDict latinEnv)
      (maxWords := wordLimit (entries latinEnv stackOverflowMappings)) (t := lw "net") (ts := [])
      (out := []) (k := 1) (canonical := str ".net") (by decide +kernel)
      ⟨⟨by simp, by simp, by decide +kernel, wordLimit_pos _⟩, ?_, ?_, ?_⟩ .nil
    · rw [show canonTokens (tagCompare latinEnv).U (str ".net") = [lc ".net"] by decide +kernel] at this
      exact this
    · show tagDict latinEnv ((tagCompare latinEnv).spell [lw "net"]) = _
      rw [show (tagCompare latinEnv).spell [lw "net"] = (str "net").map UInt8.toNat by decide +kernel]
      exact hd
    · intro j hj hlt; have := hj.le; simp at this; omega
    · intro j hj hlt; have := hj.pos; omega
  refine ⟨fun h => ?_, he, hout⟩
  have := h latinEnv latinEnv_lawful latinEnv_lowers latinEnv_plain latinEnv_so _ _ he _ hy
  exact absurd (this.unique hout).1 (by decide +kernel)

/-- **C58 is violated, with a listed synonym lost.** "c#" is listed, and so is "c"; but "#" is
punctuation, so that "c#" is cut before it and becomes "c" and "#". -/
theorem C58_violated_csharp :
    ([lw "c", lw "#"], str "c#") ∈ entries latinEnv stackOverflowMappings ∧
    (tags latinEnv (listStream [lw "c", lw "#"] .eof)).Yields [lc "c", lw "#"] .eof := by
  have hm : (textOf n!"c#", textOf n!"c#") ∈ stackOverflowMappings := by
    rw [stackOverflow_rows]
    exact List.mem_map_of_mem (f := fun r : Nat × Nat => (textOf r.1, textOf r.2))
      (mem_so (row := (n!"c#", n!"c#")) 1 rfl (by decide +kernel))
  have htext : textOf n!"c#" = str "c#" := by decide +kernel
  rw [htext] at hm
  refine ⟨?_, ?_⟩
  · simp only [entries, List.mem_flatMap, List.mem_map]
    exact ⟨_, hm, _, by decide +kernel, rfl⟩
  have hd : tagDict latinEnv ((str "c").map UInt8.toNat) = some (str "c") := by
    have := tagDict_some latinEnv_lowers latinEnv_so (row := (n!"c", n!"c"))
      (p := (str "c").map UInt8.toNat) (mem_so 1 rfl (by decide +kernel)) (by decide +kernel)
    rwa [show normalB stackOverflowIgnore ((str "c").map UInt8.toNat) =
      (str "c").map UInt8.toNat by decide +kernel, show textOf (n!"c", n!"c").2 = str "c" by decide +kernel] at this
  have hy := listStream_yields [lw "c", lw "#"] .eof
  have hone : ∀ j, Admissible (wordLimit (entries latinEnv stackOverflowMappings)) [lw "c", lw "#"] j →
      j = 1 := by
    intro j hj
    have h1 := hj.pos
    have h2 := hj.le
    simp only [List.length_cons, List.length_nil] at h2
    rcases (by omega : j = 1 ∨ j = 2) with rfl | rfl
    · rfl
    · have := hj.noPunct (lw "#") (by simp)
      revert this
      decide +kernel
  refine tags_yields latinEnv_lawful latinEnv_so hy ?_
  have := Greedy.replace (C := tagCompare latinEnv) (D := tagDict latinEnv)
    (maxWords := wordLimit (entries latinEnv stackOverflowMappings)) (t := lw "c") (ts := [lw "#"])
    (out := [lw "#"]) (k := 1) (canonical := str "c") (by decide +kernel)
    ⟨⟨by simp, by simp, by decide +kernel, wordLimit_pos _⟩, ?_, ?_, ?_⟩
    (.separator (by decide +kernel) .nil)
  · rw [show canonTokens (tagCompare latinEnv).U (str "c") = [lc "c"] by decide +kernel] at this
    exact this
  · show tagDict latinEnv ((tagCompare latinEnv).spell [lw "c"]) = _
    rw [show (tagCompare latinEnv).spell [lw "c"] = (str "c").map UInt8.toNat by decide +kernel]
    exact hd
  · intro j hj hlt; have := hone j hj; omega
  · intro j hj hlt; have := hj.pos; omega

/-- **C58, partial.** For any mapping without conflicts: text that is one of the listed synonyms is
replaced by its canonical, if it has no punctuation token, starts with a word, and ends with a token
that is not ignored. What is missing for `C58_full`: synonyms that contain punctuation, as ".net" and
"c#" do. -/
theorem C58_recognised_partial {E : Env} (hE : E.Lawful) (mappings : StringMap) (ignoreCase : Bool)
    (ignore : List Rune) (hs : ∀ m ∈ mappings, (E.scan { data := m.1 }).2 = none)
    (hu : Unambiguous ⟨E.U, ignoreCase, ignore⟩ (entries E mappings))
    {first last : Token} {mid s : List Token} {canonical : Bytes}
    (hmem : (s, canonical) ∈ entries E mappings) (hform : s = first :: mid ∧ ∃ l, s = l ++ [last])
    (hp : ∀ t ∈ s, t.punct = false) (hfirst : first.IsWord) (hlast : last.IsWord)
    (hspell : (Compare.mk E.U ignoreCase ignore).spell [last] ≠ [])
    {ts : TokenStream} (h : ts.Yields s .eof) :
    (synonyms E mappings ignoreCase ignore ts).Yields (canonTokens E.U canonical) .eof := by
  obtain ⟨rfl, l, hl⟩ := hform
  have hd : (Compare.mk E.U ignoreCase ignore).dict (entries E mappings)
      ((Compare.mk E.U ignoreCase ignore).spell (first :: mid)) = some canonical := by
    cases hd : (Compare.mk E.U ignoreCase ignore).dict (entries E mappings)
      ((Compare.mk E.U ignoreCase ignore).spell (first :: mid)) with
    | none => exact absurd rfl (dict_none hd _ hmem)
    | some c =>
      obtain ⟨b, hb, hbs, rfl⟩ := dict_some hd
      rw [hu b hb _ hmem hbs]
  have hlen : (first :: mid).length = l.length + 1 := by rw [hl]; simp
  have hlim := wordLimit_ge hmem
  have hg : Greedy ⟨E.U, ignoreCase, ignore⟩ ((Compare.mk E.U ignoreCase ignore).dict (entries E mappings))
      (wordLimit (entries E mappings)) (first :: mid) (canonTokens E.U canonical ++ []) := by
    refine .replace (k := (first :: mid).length) hfirst ⟨⟨by simp, Nat.le_refl _, ?_, ?_⟩, ?_, ?_, ?_⟩ ?_
    · rw [List.take_length]; exact hp
    · have : words (first :: mid) = words l + 1 := by
        rw [hl]; simp [words, hlast]
      have htake : (first :: mid).take ((first :: mid).length - 1) = l := by
        rw [hlen, hl]; simp
      rw [htake]
      simp only at hlim
      omega
    · rw [List.take_length]; exact hd
    · intro j hj hlt; have := hj.le; omega
    · intro j hj hlt heq
      rw [List.take_length] at heq
      have hjl : j ≤ l.length := by omega
      have h1 : (first :: mid).take j = l.take j := by rw [hl, List.take_append_of_le_length hjl]
      have h2 : (Compare.mk E.U ignoreCase ignore).spell (first :: mid) =
          (Compare.mk E.U ignoreCase ignore).spell (l.take j) ++
          ((Compare.mk E.U ignoreCase ignore).spell (l.drop j) ++
          (Compare.mk E.U ignoreCase ignore).spell [last]) := by
        rw [hl]
        conv_lhs => rw [← List.take_append_drop j l]
        simp only [Compare.spell, List.flatMap_append, normal_append, List.append_assoc]
      rw [h1, h2] at heq
      have := congrArg List.length heq
      rw [List.length_append, List.length_append] at this
      have hpos := List.length_pos_iff.mpr hspell
      omega
    · rw [List.drop_length]; exact .nil
  have := synonyms_yields hE hs h hg
  simp only [↓reduceIte, List.append_nil] at this
  exact this

/-- `C58_recognised_partial` for the shipped Stack Overflow table. -/
theorem C58_stackoverflow_partial {E : Env} (hE : E.Lawful) (hU : E.U.LowersLatin)
    (hP : E.U.PlainNotPunct) (hk : ∀ m ∈ stackOverflowMappings, E.CutsCommas m.1)
    {first last : Token} {mid s : List Token} {canonical : Bytes}
    (hmem : (s, canonical) ∈ entries E stackOverflowMappings)
    (hform : s = first :: mid ∧ ∃ l, s = l ++ [last])
    (hp : ∀ t ∈ s, t.punct = false) (hfirst : first.IsWord) (hlast : last.IsWord)
    (hspell : (tagCompare E).spell [last] ≠ []) {ts : TokenStream} (h : ts.Yields s .eof) :
    (tags E ts).Yields [mkToken E.U canonical true] .eof := by
  have := C58_recognised_partial hE stackOverflowMappings true stackOverflowIgnore
    (fun m hm => (hk m hm).scans) (C39_stackoverflow_unambiguous E hU hk) hmem hform hp hfirst hlast hspell h
  simp only [entries, List.mem_flatMap, List.mem_map] at hmem
  obtain ⟨⟨k, v⟩, hm, s, -, heq⟩ := hmem
  obtain ⟨-, rfl⟩ := Prod.mk.inj heq
  have hv := (mkToken_word hP true (row_plain soRows_plain (stackOverflow_rows ▸ hm))).2
  simp only [canonTokens, hv, ↓reduceIte] at this
  exact this

/-- Non-vacuity: "ruby on rails" is listed and has the required form. -/
example : ([lw "ruby", lw " ", lw "on", lw " ", lw "rails"], str "ruby-on-rails") ∈
      entries latinEnv [(str "ror, ruby on rails", str "ruby-on-rails")] ∧
    (∀ t ∈ [lw "ruby", lw " ", lw "on", lw " ", lw "rails"], t.punct = false) ∧
    (lw "ruby").IsWord ∧ (lw "rails").IsWord ∧
    (tagCompare latinEnv).spell [lw "rails"] ≠ [] := by decide +kernel

/-- Non-vacuity: on the shipped table, "java" is recognised. -/
example : (tags latinEnv (listStream [lw "java"] .eof)).Yields [lc "java"] .eof := by
  refine C58_stackoverflow_partial latinEnv_lawful latinEnv_lowers latinEnv_plain latinEnv_so
    (s := [lw "java"]) (first := lw "java") (last := lw "java") (mid := []) ?_ ⟨rfl, [], rfl⟩
    (by decide +kernel) (by decide +kernel) (by decide +kernel) (by decide +kernel)
    (listStream_yields _ _)
  have hm : (str "java", str "java") ∈ stackOverflowMappings := by
    rw [stackOverflow_rows]
    exact List.mem_map.mpr ⟨(n!"java", n!"java"), mem_so 4 rfl (by decide +kernel), by decide +kernel⟩
  simp only [entries, List.mem_flatMap, List.mem_map]
  exact ⟨_, hm, _, by decide +kernel, rfl⟩

/-- Non-vacuity: a single token that is replaced. -/
example := C57_single_token_partial latinEnv_lawful latinEnv_lowers latinEnv_plain latinEnv_so
  (listStream_yields [lw "Java"] .eof)

end Jargon
