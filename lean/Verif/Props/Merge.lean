import Verif.Props.TwoTables

/-! C119: two mappings in one synonyms filter, or in two filters one after the other. -/

namespace Jargon

/-! ### The specification -/

/-- The options of two filters are the same. -/
def SynArgs.Alike (A B : SynArgs) : Prop := A.ignoreCase = B.ignoreCase ∧ A.ignore = B.ignore

/-- One filter with the entries of both, and the options of the first. -/
def SynArgs.merge (A B : SynArgs) : SynArgs := ⟨A.mappings ++ B.mappings, A.ignoreCase, A.ignore⟩

/-- The filter would find no more in the text if it looked as far ahead as another one does. -/
def SynArgs.FarEnough (F M : SynArgs) (E : Env) (toks : List Token) : Prop :=
  Within ⟨E.U, F.ignoreCase, F.ignore⟩ (entries E F.mappings) (wordLimit (entries E F.mappings))
    (wordLimit (entries E M.mappings)) toks

/-- Only one of two filters finds anything in the text; if it is the first, the second finds nothing in what it
makes of it either. Nor is there a synonym with more words than it looks ahead. -/
def OnlyOne (E : Env) (A B : SynArgs) (toks : List Token) : Prop :=
  (B.Absent E toks ∧ A.FarEnough (A.merge B) E toks ∧ ∀ out, A.Makes E toks out → B.Absent E out) ∨
    (A.Absent E toks ∧ B.FarEnough (A.merge B) E toks)

/-- The text is cut by punctuation into such pieces. -/
inductive Sorted (E : Env) (A B : SynArgs) : List Token → Prop
  | piece {q : List Token} : OnlyOne E A B q → Sorted E A B q
  | cut {q rest : List Token} {t : Token} : OnlyOne E A B q → t.punct = true → Sorted E A B rest →
      Sorted E A B (q ++ t :: rest)

/-! ### Lemmas -/

theorem entries_append (E : Env) (m n : StringMap) : entries E (m ++ n) = entries E m ++ entries E n := by
  simp [entries]

theorem dict_append_left {C : Compare} {a b : List (List Token × Bytes)} {q : List Rune}
    (h : ∀ x ∈ b, C.spell x.1 ≠ q) : C.dict (a ++ b) q = C.dict a q := by
  have : (b.reverse.find? fun x => decide (C.spell x.1 = q)) = none := by
    rw [List.find?_eq_none]
    intro x hx
    simpa using h x (List.mem_reverse.1 hx)
  simp [Compare.dict, List.find?_append, this]

theorem dict_append_right {C : Compare} {a b : List (List Token × Bytes)} {q : List Rune}
    (h : ∀ x ∈ a, C.spell x.1 ≠ q) : C.dict (a ++ b) q = C.dict b q := by
  have : (a.reverse.find? fun x => decide (C.spell x.1 = q)) = none := by
    rw [List.find?_eq_none]
    intro x hx
    simpa using h x (List.mem_reverse.1 hx)
  simp [Compare.dict, List.find?_append, this]

theorem wordLimit_mono {a b : List (List Token × Bytes)} (h : ∀ x ∈ a, x ∈ b) : wordLimit a ≤ wordLimit b := by
  refine foldl_max_le (le_foldl_max _ _).1 fun x hx => ?_
  obtain ⟨y, hy, rfl⟩ := List.mem_map.mp hx
  exact (le_foldl_max _ _).2 _ (List.mem_map_of_mem (h y hy))

theorem dict_of_far {C : Compare} {adds : List (List Token × Bytes)} {m m' : Nat} {toks : List Token}
    (h : Within C adds m m' toks) : ∀ run, RunOf toks run → m ≤ words run.dropLast → words run.dropLast < m' →
      C.dict adds (C.spell run) = none := by
  intro run hr h1 h2
  cases hD : C.dict adds (C.spell run) with
  | none => rfl
  | some c =>
    obtain ⟨a, ha, hsp, -⟩ := dict_some hD
    exact absurd hsp.symm (h run hr h1 h2 a ha)

theorem merge_left {E : Env} {A B : SynArgs} (hAB : A.Alike B) {toks out : List Token} (hB : B.Absent E toks)
    (hf : A.FarEnough (A.merge B) E toks) (hA : A.Greedy E toks out) : (A.merge B).Greedy E toks out := by
  obtain ⟨mA, c, i⟩ := A
  obtain ⟨mB, c', i'⟩ := B
  obtain ⟨h1, h2⟩ := hAB
  simp only at h1 h2
  subst h1 h2
  refine Greedy.transfer (wordLimit_mono fun x hx => ?_) hA (fun run hr => ?_) (dict_of_far hf)
  · simp only [SynArgs.merge, entries_append]
    exact List.mem_append_left _ hx
  · simp only [SynArgs.merge, entries_append]
    exact dict_append_left fun a ha => (hB run hr a ha).symm

theorem merge_right {E : Env} {A B : SynArgs} (hAB : A.Alike B) {toks out : List Token} (hA : A.Absent E toks)
    (hf : B.FarEnough (A.merge B) E toks) (hB : B.Greedy E toks out) : (A.merge B).Greedy E toks out := by
  obtain ⟨mA, c, i⟩ := A
  obtain ⟨mB, c', i'⟩ := B
  obtain ⟨h1, h2⟩ := hAB
  simp only at h1 h2
  subst h1 h2
  refine Greedy.transfer (wordLimit_mono fun x hx => ?_) hB (fun run hr => ?_) (dict_of_far hf)
  · simp only [SynArgs.merge, entries_append]
    exact List.mem_append_right _ hx
  · simp only [SynArgs.merge, entries_append]
    exact dict_append_right fun a ha => (hA run hr a ha).symm

theorem Sorted.merged {E : Env} (hE : E.Lawful) {A B : SynArgs} (hAB : A.Alike B) (hA : A.Scans E)
    {toks : List Token} (h : Sorted E A B toks) :
    ∃ a out, A.Greedy E toks a ∧ B.Greedy E a out ∧ (A.merge B).Greedy E toks out := by
  have one : ∀ q, OnlyOne E A B q →
      ∃ a out, A.Greedy E q a ∧ B.Greedy E a out ∧ (A.merge B).Greedy E q out := by
    rintro q (⟨h1, h2, h3⟩ | ⟨h1, h2⟩)
    · obtain ⟨a, ha⟩ := A.total E q
      exact ⟨a, a, ha, (h3 a (ha.makes hE hA)).greedy, merge_left hAB h1 h2 ha⟩
    · obtain ⟨b, hb⟩ := B.total E q
      exact ⟨q, b, h1.greedy, hb, merge_right hAB h1 h2 hb⟩
  induction h with
  | piece h => exact one _ h
  | cut h ht _ ih =>
    obtain ⟨a, out, h1, h2, h3⟩ := one _ h
    obtain ⟨a', out', h1', h2', h3'⟩ := ih
    exact ⟨_, _, h1.cut ht h1', h2.cut ht h2', h3.cut ht h3'⟩

theorem merge_scans {E : Env} {A B : SynArgs} (hA : A.Scans E) (hB : B.Scans E) : (A.merge B).Scans E := by
  intro m hm
  rcases List.mem_append.1 hm with hm | hm
  · exact hA m hm
  · exact hB m hm

/-! ### C119 -/

/-- **C119, in full.** One synonyms filter with the entries of two mappings delivers what the two filters deliver
one after the other. -/
def C119_full : Prop :=
  ∀ (E : Env) (A B : SynArgs), E.Lawful → A.Alike B → A.Scans E → B.Scans E →
    ∀ (ts : TokenStream) (toks : List Token) (e : End), ts.Yields toks e →
    ∃ out, ((A.merge B).filter E ts).Yields out e ∧ (B.filter E (A.filter E ts)).Yields out e

/-- **C119 (partial).** It does if the text is cut by punctuation into pieces in each of which only one of the
filters finds anything, the second not in what the first makes either, and no synonym is spelled with more words than the longest of its
own mapping has. Missing: texts in which the synonyms of both stand together. -/
theorem C119_partial {E : Env} (hE : E.Lawful) {A B : SynArgs} (hAB : A.Alike B) (hA : A.Scans E)
    (hB : B.Scans E) {ts : TokenStream} {toks : List Token} {e : End} (h : ts.Yields toks e)
    (hs : Sorted E A B toks) :
    ∃ out, ((A.merge B).filter E ts).Yields out e ∧ (B.filter E (A.filter E ts)).Yields out e := by
  obtain ⟨a, out, h1, h2, h3⟩ := hs.merged hE hAB hA
  have y1 := h1.yields hE hA h
  have y3 := h3.yields hE (merge_scans hA hB) h
  cases e with
  | eof =>
    simp only [if_true] at y1 y3
    exact ⟨out, y3, h2.yields hE hB y1⟩
  | fail e =>
    simp only [reduceCtorEq, if_false] at y1 y3
    obtain ⟨x, hx⟩ := B.total E []
    exact ⟨[], y3, hx.yields hE hB y1⟩

private def w (s : String) : Token := mkToken asciiUnicode (str s) false
private def c (s : String) : Token := mkToken asciiUnicode (str s) true
private def jsArgs : SynArgs := ⟨[(str "js", str "ror")], true, []⟩
private def rorArgs : SynArgs := ⟨[(str "ror", str "rails")], true, []⟩

private theorem single {F : SynArgs} {v : Bytes} {t : Token} (ht : t.IsWord) (hF : F.Scans sampleEnv) (hne : v ≠ [])
    (hv : (Compare.mk sampleEnv.U F.ignoreCase F.ignore).dict (entries sampleEnv F.mappings)
      ((Compare.mk sampleEnv.U F.ignoreCase F.ignore).spell [t]) = some v) {ts : TokenStream}
    (h : ts.Yields [t] .eof) : (F.filter sampleEnv ts).Yields [mkToken asciiUnicode v true] .eof := by
  have hg : F.Greedy sampleEnv [t] (canonTokens asciiUnicode v ++ []) := by
    refine .replace (k := 1) ht ⟨⟨Nat.le_refl _, by simp, ?_, wordLimit_pos _⟩, hv, ?_, ?_⟩ .nil
    · intro x hx; simp at hx; rw [hx]; exact ht.1
    · intro j hj hlt; have := hj.le; simp at this; omega
    · intro j hj hlt; have := hj.pos; omega
  rw [canonTokens, if_neg hne] at hg
  exact hg.yields sampleEnv_lawful hF h

/-- **C119 is violated.** With "js" for "ror" and "ror" for "rails", one filter makes "ror" of "js", two make
"rails" of it. -/
theorem C119_violated : ¬ C119_full := by
  intro h
  obtain ⟨out, h1, h2⟩ := h sampleEnv jsArgs rorArgs sampleEnv_lawful ⟨rfl, rfl⟩ (fun _ _ => rfl) (fun _ _ => rfl)
    _ _ _ (listStream_yields [w "js"] .eof)
  have y1 := single (F := jsArgs.merge rorArgs) (v := str "ror") (t := w "js") (by decide +kernel) (fun _ _ => rfl)
    (by decide +kernel) (by decide +kernel) (listStream_yields [w "js"] .eof)
  have y2 := single (F := jsArgs) (v := str "ror") (t := w "js") (by decide +kernel) (fun _ _ => rfl)
    (by decide +kernel) (by decide +kernel) (listStream_yields [w "js"] .eof)
  have y3 := single (F := rorArgs) (v := str "rails") (t := c "ror") (by decide +kernel) (fun _ _ => rfl)
    (by decide +kernel) (by decide +kernel) y2
  have e1 := (h1.unique y1).1
  have e2 := (h2.unique y3).1
  exact absurd (e1.symm.trans e2) (by decide +kernel)

private def seaArgs : SynArgs := ⟨[(str "js", str "javascript")], true, []⟩

-- what the partial version asks for can be had: "js, ror"
example : Sorted sampleEnv seaArgs rorArgs [w "js", w ",", w " ", w "ror"] := by
  have e1 : entries sampleEnv seaArgs.mappings = [([w "js"], str "javascript")] := by decide +kernel
  have e2 : entries sampleEnv rorArgs.mappings = [([w "ror"], str "rails")] := by decide +kernel
  have lim : ∀ (F : SynArgs) (toks : List Token), wordLimit (entries sampleEnv (seaArgs.merge rorArgs).mappings) =
      wordLimit (entries sampleEnv F.mappings) → F.FarEnough (seaArgs.merge rorArgs) sampleEnv toks := by
    intro F toks h run _ h1 h2
    rw [h] at h2
    omega
  have absent : ∀ (F : SynArgs) (toks : List Token), (∀ run ∈ parts toks, ∀ a ∈ entries sampleEnv F.mappings,
      (Compare.mk sampleEnv.U F.ignoreCase F.ignore).spell run ≠
        (Compare.mk sampleEnv.U F.ignoreCase F.ignore).spell a.1) → F.Absent sampleEnv toks :=
    fun F toks h run hr a ha => h run hr.mem a ha
  refine .cut (q := [w "js"]) (rest := [w " ", w "ror"])
    (.inl ⟨absent _ _ ?_, lim _ _ (by decide +kernel), ?_⟩) (by decide +kernel)
    (.piece (.inr ⟨absent _ _ ?_, lim _ _ (by decide +kernel)⟩))
  · rw [e2]; decide +kernel
  · intro out h
    rw [(h.unique (single (F := seaArgs) (v := str "javascript") (t := w "js") (by decide +kernel) (fun _ _ => rfl)
      (by decide +kernel) (by decide +kernel) (listStream_yields [w "js"] .eof))).1]
    refine absent _ _ ?_
    rw [e2]; decide +kernel
  · rw [e1]; decide +kernel

end Jargon
