import Verif.Props.FewerMappings
import Verif.Props.Players

/-! C115: the order of two synonyms filters. -/

namespace Jargon

/-- The arguments of `synonyms.NewFilter`. -/
structure SynArgs where
  mappings : StringMap
  ignoreCase : Bool
  ignore : List Rune

/-- The filter. -/
def SynArgs.filter (F : SynArgs) (E : Env) (ts : TokenStream) : TokenStream :=
  synonyms E F.mappings F.ignoreCase F.ignore ts

/-- The keys of the mapping can be tokenized. -/
def SynArgs.Scans (F : SynArgs) (E : Env) : Prop := ∀ m ∈ F.mappings, (E.scan { data := m.1 }).2 = none

/-- What the filter makes of a text. -/
def SynArgs.Makes (F : SynArgs) (E : Env) (toks out : List Token) : Prop :=
  (F.filter E (listStream toks .eof)).Yields out .eof

/-- None of its synonyms is in the text. -/
def SynArgs.Absent (F : SynArgs) (E : Env) (toks : List Token) : Prop :=
  Jargon.Absent ⟨E.U, F.ignoreCase, F.ignore⟩ (entries E F.mappings) toks

/-- Only one of two filters finds anything in the text, and the other does not find anything in what it makes of
it either. -/
def OneOf (E : Env) (A B : SynArgs) (toks : List Token) : Prop :=
  (B.Absent E toks ∧ ∀ out, A.Makes E toks out → B.Absent E out) ∨
    (A.Absent E toks ∧ ∀ out, B.Makes E toks out → A.Absent E out)

/-- The text is cut by punctuation into pieces in each of which only one of two filters finds anything. -/
inductive Separated (E : Env) (A B : SynArgs) : List Token → Prop
  | piece {q : List Token} : OneOf E A B q → Separated E A B q
  | cut {q rest : List Token} {t : Token} : OneOf E A B q → t.punct = true → Separated E A B rest →
      Separated E A B (q ++ t :: rest)

/-! ### Lemmas -/

/-- What the filter makes of a text, by the specification. -/
def SynArgs.Greedy (F : SynArgs) (E : Env) (toks out : List Token) : Prop :=
  Jargon.Greedy ⟨E.U, F.ignoreCase, F.ignore⟩
    ((Compare.mk E.U F.ignoreCase F.ignore).dict (entries E F.mappings)) (wordLimit (entries E F.mappings)) toks out

theorem SynArgs.Greedy.yields {F : SynArgs} {E : Env} (hE : E.Lawful) (hF : F.Scans E) {toks out : List Token}
    (h : F.Greedy E toks out) {ts : TokenStream} {e : End} (hy : ts.Yields toks e) :
    (F.filter E ts).Yields (if e = .eof then out else []) e :=
  synonyms_yields hE hF hy h

theorem SynArgs.Greedy.makes {F : SynArgs} {E : Env} (hE : E.Lawful) (hF : F.Scans E) {toks out : List Token}
    (h : F.Greedy E toks out) : F.Makes E toks out :=
  h.yields hE hF (listStream_yields toks .eof)

theorem SynArgs.Absent.greedy {F : SynArgs} {E : Env} {toks : List Token} (h : F.Absent E toks) :
    F.Greedy E toks toks := by
  unfold SynArgs.Greedy
  induction toks with
  | nil => exact .nil
  | cons t ts ih =>
    have ih' := ih fun run hr => h run hr.tail
    by_cases hw : t.IsWord
    · refine .word hw (fun k hk => ?_) ih'
      cases hD : (Compare.mk E.U F.ignoreCase F.ignore).dict (entries E F.mappings)
          ((Compare.mk E.U F.ignoreCase F.ignore).spell ((t :: ts).take k)) with
      | none => rfl
      | some c =>
        obtain ⟨a, ha, hsp, -⟩ := dict_some hD
        exact absurd hsp.symm (h _ (.take hw hk) a ha)
    · exact .separator hw ih'

theorem SynArgs.Greedy.cut {F : SynArgs} {E : Env} {q rest a b : List Token} {t : Token}
    (h1 : F.Greedy E q a) (ht : t.punct = true) (h2 : F.Greedy E rest b) :
    F.Greedy E (q ++ t :: rest) (a ++ t :: b) := by
  refine Jargon.Greedy.append h1 (.separator (fun hw => ?_) h2) ?_
  · have := hw.1
    rw [ht] at this
    cases this
  · exact PunctBetween.noCross (.inr (.inr (.inr ⟨t, rfl, ht⟩)))

theorem SynArgs.total (F : SynArgs) (E : Env) (toks : List Token) : ∃ out, F.Greedy E toks out :=
  Greedy.total _ _ _ _

/-- Both orders make the same. -/
theorem Separated.both {E : Env} (hE : E.Lawful) {A B : SynArgs} (hA : A.Scans E) (hB : B.Scans E)
    {toks : List Token} (h : Separated E A B toks) :
    ∃ a b out, A.Greedy E toks a ∧ B.Greedy E a out ∧ B.Greedy E toks b ∧ A.Greedy E b out := by
  have one : ∀ q, OneOf E A B q →
      ∃ a b out, A.Greedy E q a ∧ B.Greedy E a out ∧ B.Greedy E q b ∧ A.Greedy E b out := by
    rintro q (⟨h1, h2⟩ | ⟨h1, h2⟩)
    · obtain ⟨a, ha⟩ := A.total E q
      exact ⟨a, q, a, ha, (h2 a (ha.makes hE hA)).greedy, h1.greedy, ha⟩
    · obtain ⟨b, hb⟩ := B.total E q
      exact ⟨q, b, b, h1.greedy, hb, hb, (h2 b (hb.makes hE hB)).greedy⟩
  induction h with
  | piece h => exact one _ h
  | cut h ht _ ih =>
    obtain ⟨a, b, out, h1, h2, h3, h4⟩ := one _ h
    obtain ⟨a', b', out', h1', h2', h3', h4'⟩ := ih
    exact ⟨_, _, _, h1.cut ht h1', h2.cut ht h2', h3.cut ht h3', h4.cut ht h4'⟩

/-! ### C115 -/

/-- **C115, in full.** The order of two synonyms filters does not matter. -/
def C115_full (E : Env) (A B : SynArgs) : Prop :=
  ∀ (ts : TokenStream) (toks : List Token) (e : End), ts.Yields toks e →
    ∃ out, (B.filter E (A.filter E ts)).Yields out e ∧ (A.filter E (B.filter E ts)).Yields out e

/-- **C115 (partial).** It does not if the text is cut by punctuation into pieces in each of which only one of the
filters finds anything, before or after the other. -/
theorem C115_partial {E : Env} (hE : E.Lawful) (A B : SynArgs) (hA : A.Scans E) (hB : B.Scans E)
    {ts : TokenStream} {toks : List Token} {e : End} (h : ts.Yields toks e) (hs : Separated E A B toks) :
    ∃ out, (B.filter E (A.filter E ts)).Yields out e ∧ (A.filter E (B.filter E ts)).Yields out e := by
  obtain ⟨a, b, out, h1, h2, h3, h4⟩ := hs.both hE hA hB
  have y1 := h1.yields hE hA h
  have y3 := h3.yields hE hB h
  cases e with
  | eof =>
    simp only [if_true] at y1 y3
    exact ⟨out, h2.yields hE hB y1, h4.yields hE hA y3⟩
  | fail e =>
    simp only [reduceCtorEq, if_false] at y1 y3
    obtain ⟨x, hx⟩ := B.total E []
    obtain ⟨y, hy⟩ := A.total E []
    exact ⟨[], hx.yields hE hB y1, hy.yields hE hA y3⟩

/-- filters/stackoverflow/filter.go:13-15 `Tags`. -/
def tagsArgs : SynArgs := ⟨stackOverflowMappings, true, stackOverflowIgnore⟩

/-- filters/nba/filter.go:7-11 `CurrentPlayers`. -/
def playersArgs : SynArgs := ⟨nbaMappings, true, nbaIgnore⟩

example (E : Env) (ts : TokenStream) : tagsArgs.filter E ts = tags E ts ∧
    playersArgs.filter E ts = currentPlayers E ts := ⟨rfl, rfl⟩

/-- "Sheldon Mac" with the players first. -/
theorem mac_player : (currentPlayers latinEnv (listStream [lw "Sheldon", lw " ", lw "Mac"] .eof)).Yields
    [lc "Sheldon Mac"] .eof := by
  have hm := mem_nba (row := (n!"Sheldon Mac", n!"Sheldon Mac")) 1 rfl (by decide +kernel)
  have htx : textOf n!"Sheldon Mac" = str "Sheldon Mac" := by decide +kernel
  simp only [htx] at hm
  have he : ([lw "Sheldon", lw " ", lw "Mac"], str "Sheldon Mac") ∈ entries latinEnv nbaMappings := by
    simp only [entries, List.mem_flatMap, List.mem_map]
    exact ⟨_, hm, _, by decide +kernel, rfl⟩
  exact C65_players_partial latinEnv_lawful latinEnv_lowers latinEnv_plain latinEnv_nba hm
    (first := lw "Sheldon") (mid := [lw " ", lw "Mac"]) (last := lw "Mac") (l := [lw "Sheldon", lw " "]) rfl
    (by decide +kernel) (by decide +kernel) (by decide +kernel) (by decide +kernel) (wordLimit_ge he)
    (Or.inl (by decide +kernel)) (listStream_yields _ _)

/-- And with the tags first. -/
theorem mac_tag : (tags latinEnv (listStream [lw "Sheldon", lw " ", lw "Mac"] .eof)).Yields
    [lw "Sheldon", lw " ", lc "macos"] .eof := by
  have hd : tagDict latinEnv ((str "mac").map UInt8.toNat) = some (str "macos") := by
    have := tagDict_some latinEnv_lowers latinEnv_so (row := (n!"osx, macosx, mac", n!"macos"))
      (p := (str " mac").map UInt8.toNat) (mem_so 6 rfl (by decide +kernel)) (by decide +kernel)
    rwa [show normalB stackOverflowIgnore ((str " mac").map UInt8.toNat) =
      (str "mac").map UInt8.toNat by decide +kernel,
      show textOf (n!"osx, macosx, mac", n!"macos").2 = str "macos" by decide +kernel] at this
  have hn : ∀ k, 1 ≤ k → k ≤ 3 → tagDict latinEnv ((tagCompare latinEnv).spell
      ([lw "Sheldon", lw " ", lw "Mac"].take k)) = none := by
    intro k h1 h2
    refine tagDict_none latinEnv_lowers latinEnv_so ?_
    rcases (by omega : k = 1 ∨ k = 2 ∨ k = 3) with rfl | rfl | rfl <;> decide +kernel
  refine tags_yields latinEnv_lawful latinEnv_so (listStream_yields _ _) ?_
  refine .word (by decide +kernel) (fun k hk => hn k hk.pos hk.le) (.separator (by decide +kernel) ?_)
  have := Greedy.replace (C := tagCompare latinEnv) (D := tagDict latinEnv)
    (maxWords := wordLimit (entries latinEnv stackOverflowMappings)) (t := lw "Mac") (ts := [])
    (out := []) (k := 1) (canonical := str "macos") (by decide +kernel)
    ⟨⟨by simp, by simp, by decide +kernel, wordLimit_pos _⟩, ?_, ?_, ?_⟩ .nil
  · rw [show canonTokens (tagCompare latinEnv).U (str "macos") = [lc "macos"] by decide +kernel] at this
    exact this
  · show tagDict latinEnv ((tagCompare latinEnv).spell [lw "Mac"]) = _
    rw [show (tagCompare latinEnv).spell [lw "Mac"] = (str "mac").map UInt8.toNat by decide +kernel]
    exact hd
  · intro j hj hlt
    have : j ≤ 1 := hj.le
    omega
  · intro j hj hlt
    have := hj.pos
    omega

/-- **C115 (violated).** "Sheldon Mac", a player, is found only if CurrentPlayers comes before Tags; else the text
becomes "Sheldon macos". -/
theorem C115_violated : ¬ C115_full latinEnv playersArgs tagsArgs := by
  intro h
  obtain ⟨out, h1, h2⟩ := h _ _ _ (listStream_yields [lw "Sheldon", lw " ", lw "Mac"] .eof)
  have y1 : (tags latinEnv (currentPlayers latinEnv (listStream [lw "Sheldon", lw " ", lw "Mac"] .eof))).Yields
      [lc "Sheldon Mac"] .eof := by
    refine tags_yields latinEnv_lawful latinEnv_so mac_player (greedy_none _ fun run hr => ?_)
    refine tagDict_none latinEnv_lowers latinEnv_so ?_
    have hr' : run ∈ [[lc "Sheldon Mac"]] := by
      have : runsOf [lc "Sheldon Mac"] = [[lc "Sheldon Mac"]] := by decide +kernel
      rwa [this] at hr
    rw [List.mem_singleton.mp hr']
    decide +kernel
  have y2 := strangers (by decide +kernel) mac_tag
  have e1 := (h1.unique y1).1
  have e2 := (h2.unique y2).1
  have := e1.symm.trans e2
  revert this
  decide +kernel

private def w (s : String) : Token := mkToken asciiUnicode (str s) false

private def argsJs : SynArgs := ⟨[(str "js", str "javascript")], true, []⟩

private def argsRor : SynArgs := ⟨[(str "ror", str "rails")], true, []⟩

-- what the partial version asks for can be had: "js, ror" with a filter for each
example : Separated sampleEnv argsJs argsRor [w "js", w ",", w " ", w "ror"] := by
  have e1 : entries sampleEnv argsJs.mappings = [([w "js"], str "javascript")] := by decide +kernel
  have e2 : entries sampleEnv argsRor.mappings = [([w "ror"], str "rails")] := by decide +kernel
  have absent : ∀ (F : SynArgs) (toks : List Token), (∀ run ∈ parts toks, ∀ a ∈ entries sampleEnv F.mappings,
      (Compare.mk sampleEnv.U F.ignoreCase F.ignore).spell run ≠
        (Compare.mk sampleEnv.U F.ignoreCase F.ignore).spell a.1) → F.Absent sampleEnv toks :=
    fun F toks h run hr a ha => h run hr.mem a ha
  refine .cut (q := [w "js"]) (rest := [w " ", w "ror"]) (.inl ⟨absent _ _ ?_, ?_⟩) (by decide +kernel)
    (.piece (.inr ⟨absent _ _ ?_, ?_⟩))
  · rw [e2]; decide +kernel
  · intro out h
    have hg : argsJs.Greedy sampleEnv [w "js"] (canonTokens asciiUnicode (str "javascript") ++ []) := by
      unfold SynArgs.Greedy
      rw [e1]
      refine .replace (k := 1) (by decide +kernel) ⟨⟨by decide, by decide, by decide +kernel, by decide +kernel⟩,
        by decide +kernel, fun j hj hlt => ?_, fun j hj hlt => ?_⟩ .nil
      · have : j ≤ 1 := hj.le
        omega
      · have := hj.pos
        omega
    rw [(h.unique (hg.makes sampleEnv_lawful (fun _ _ => rfl))).1]
    refine absent _ _ ?_
    rw [e2]; decide +kernel
  · rw [e1]; decide +kernel
  · intro out h
    have hg : argsRor.Greedy sampleEnv [w " ", w "ror"] (w " " :: (canonTokens asciiUnicode (str "rails") ++ [])) := by
      unfold SynArgs.Greedy
      rw [e2]
      refine .separator (by decide +kernel) (.replace (k := 1) (by decide +kernel)
        ⟨⟨by decide, by decide, by decide +kernel, by decide +kernel⟩,
        by decide +kernel, fun j hj hlt => ?_, fun j hj hlt => ?_⟩ .nil)
      · have : j ≤ 1 := hj.le
        omega
      · have := hj.pos
        omega
    rw [(h.unique (hg.makes sampleEnv_lawful (fun _ _ => rfl))).1]
    refine absent _ _ ?_
    rw [e1]; decide +kernel

end Jargon
