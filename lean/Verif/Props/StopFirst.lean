import Verif.Props.WordsFirst

/-! C122: whether a synonyms filter comes before or after tokens are removed, as stop words are. -/

namespace Jargon

/-! ### The specification -/

/-- No synonym in the text contains a token that is removed. -/
def NoneWithin (C : Compare) (D : Dict) (keep : Token → Bool) (toks : List Token) : Prop :=
  ∀ run, RunOf toks run → D (C.spell run) ≠ none → ∀ t ∈ run, keep t = true

/-- Removing tokens makes no synonym: where what is left of a part of the text that begins and ends with tokens that
are kept spells a synonym, nothing of it is removed. -/
def NoneMade (C : Compare) (D : Dict) (keep : Token → Bool) (toks : List Token) : Prop :=
  ∀ pre run post, toks = pre ++ run ++ post → (∃ t, run.head? = some t ∧ keep t = true) →
    (∃ t, run.getLast? = some t ∧ keep t = true) → D (C.spell (run.filter keep)) ≠ none → ∀ t ∈ run, keep t = true

/-- The dictionary of a synonyms filter. -/
def SynArgs.dict (F : SynArgs) (E : Env) : Dict := (Compare.mk E.U F.ignoreCase F.ignore).dict (entries E F.mappings)

/-- Removing tokens neither breaks nor makes synonyms of a filter, nor removes what the filter puts for them. -/
structure SynArgs.Apart (F : SynArgs) (E : Env) (keep : Token → Bool) (toks : List Token) : Prop where
  within : NoneWithin ⟨E.U, F.ignoreCase, F.ignore⟩ (F.dict E) keep toks
  made : NoneMade ⟨E.U, F.ignoreCase, F.ignore⟩ (F.dict E) keep toks
  canonicals : ∀ a ∈ entries E F.mappings, a.2 = [] ∨ keep (mkToken E.U a.2 true) = true

/-- A token is removed as a stop word. -/
def stopped (U : Unicode) (stop : List Bytes) (ignoreCase : Bool) (t : Token) : Bool :=
  if ignoreCase then (stop.map U.lowerString).contains (U.lowerString t.value) else stop.contains t.value

/-- **C122 (full).** Removing stop words before or after a synonyms filter makes no difference, if none of them is a
canonical. -/
def C122_full (F : SynArgs) (E : Env) (stop : List Bytes) (ignoreCase : Bool) : Prop :=
  (∀ a ∈ entries E F.mappings, stopped E.U stop ignoreCase (mkToken E.U a.2 true) = false) →
  ∀ (ts : TokenStream) (toks : List Token) (e : End), ts.Yields toks e →
    ∃ out, (stopwords E.U stop ignoreCase (F.filter E ts)).Yields out e ∧
      (F.filter E (stopwords E.U stop ignoreCase ts)).Yields out e

/-! ### Lemmas -/

theorem stopped_eq (U : Unicode) (stop : List Bytes) (ic : Bool) (t : Token) :
    stopped U stop ic t = isStop U stop ic t := by
  unfold stopped isStop
  cases ic with
  | false => simp
  | true =>
    rw [if_pos rfl, if_pos rfl, Bool.eq_iff_iff]
    simp

theorem NoneWithin.drop {C : Compare} {D : Dict} {keep : Token → Bool} {toks : List Token}
    (h : NoneWithin C D keep toks) (k : Nat) : NoneWithin C D keep (toks.drop k) :=
  fun run hr => h run hr.drop

theorem NoneMade.drop {C : Compare} {D : Dict} {keep : Token → Bool} {toks : List Token}
    (h : NoneMade C D keep toks) (k : Nat) : NoneMade C D keep (toks.drop k) := by
  intro pre run post he
  refine h (toks.take k ++ pre) run post ?_
  rw [List.append_assoc, List.append_assoc, ← List.append_assoc pre, ← he, List.take_append_drop]

/-- The part of a text that ends with the `j`th token that is kept. -/
theorem prefix_of_kept {keep : Token → Bool} {l : List Token} {j : Nat} (h1 : 1 ≤ j) (h2 : j ≤ (l.filter keep).length) :
    ∃ k, 1 ≤ k ∧ (∃ t, (l.take k).getLast? = some t ∧ keep t = true) ∧
      (l.take k).filter keep = (l.filter keep).take j := by
  induction l generalizing j with
  | nil => simp at h2; omega
  | cons t ts ih =>
    by_cases hw : keep t = true
    · have hc : (t :: ts).filter keep = t :: ts.filter keep := by simp [hw]
      by_cases hj : j = 1
      · subst hj
        exact ⟨1, by omega, ⟨t, by simp, hw⟩, by rw [hc]; simp [hw]⟩
      · rw [hc] at h2
        obtain ⟨k, a, ⟨x, hx, hxw⟩, d⟩ := ih (j := j - 1) (by omega) (by simpa using by omega)
        obtain ⟨j, rfl⟩ : ∃ i, j = i + 1 := ⟨j - 1, by omega⟩
        refine ⟨k + 1, by omega, ⟨x, ?_, hxw⟩, ?_⟩
        · rw [List.take_succ_cons, List.getLast?_cons, hx]; rfl
        · rw [hc, List.take_succ_cons, List.take_succ_cons]
          rw [Nat.add_sub_cancel] at d
          rw [← d]; simp [hw]
    · have hc : (t :: ts).filter keep = ts.filter keep := by simp [hw]
      rw [hc] at h2
      obtain ⟨k, a, ⟨x, hx, hxw⟩, d⟩ := ih h1 h2
      refine ⟨k + 1, by omega, ⟨x, ?_, hxw⟩, ?_⟩
      · rw [List.take_succ_cons, List.getLast?_cons, hx]; rfl
      · rw [hc, List.take_succ_cons, ← d]; simp [hw]

theorem take_of_kept {keep : Token → Bool} {l : List Token} {k : Nat} (h : ∀ t ∈ l.take k, keep t = true)
    (hk : k ≤ l.length) : (l.filter keep).take k = l.take k ∧ (l.filter keep).drop k = (l.drop k).filter keep := by
  have e : l.filter keep = l.take k ++ (l.drop k).filter keep := by
    conv => lhs; rw [← List.take_append_drop k l, List.filter_append, List.filter_eq_self.2 h]
  have hl : (l.take k).length = k := by simp; omega
  rw [e]
  exact ⟨List.take_left' hl, List.drop_left' hl⟩

/-- What is left of a text is admissible and spells a synonym only if it was so in the text. -/
theorem NoneMade.admissible {C : Compare} {D : Dict} {m : Nat} {keep : Token → Bool} {t : Token} {ts : List Token}
    (ht : keep t = true) (hb : NoneMade C D keep (t :: ts)) {j : Nat}
    (hj : Admissible m ((t :: ts).filter keep) j) (hD : D (C.spell (((t :: ts).filter keep).take j)) ≠ none) :
    Admissible m (t :: ts) j ∧ ((t :: ts).filter keep).take j = (t :: ts).take j := by
  obtain ⟨k, h1, h3, h4⟩ := prefix_of_kept hj.pos hj.le
  have hp : ∀ x ∈ (t :: ts).take k, keep x = true := by
    refine hb [] _ ((t :: ts).drop k) (by simp) ⟨t, ?_, ht⟩ h3 (by rw [h4]; exact hD)
    obtain ⟨k, rfl⟩ : ∃ i, k = i + 1 := ⟨k - 1, by omega⟩
    rfl
  rw [List.filter_eq_self.2 hp] at h4
  have hlen : ((t :: ts).take k).length = j := by
    rw [h4, List.length_take]
    have := hj.le
    omega
  have hjk : (t :: ts).take j = (t :: ts).take k := by
    rw [← hlen, List.length_take]
    rcases Nat.le_total k (t :: ts).length with h | h
    · rw [Nat.min_eq_left h]
    · rw [Nat.min_eq_right h, List.take_of_length_le (Nat.le_refl _), List.take_of_length_le h]
  have heq : ((t :: ts).filter keep).take j = (t :: ts).take j := by rw [hjk, h4]
  refine ⟨⟨hj.pos, ?_, by rw [← heq]; exact hj.noPunct, ?_⟩, heq⟩
  · rw [List.length_take] at hlen
    omega
  · have h5 : (t :: ts).take (j - 1) = ((t :: ts).filter keep).take (j - 1) := by
      rw [show j - 1 = min (j - 1) j by omega, ← List.take_take, ← heq, List.take_take]
    rw [h5]
    exact hj.limit

/-- The specification, with tokens removed first. -/
theorem Greedy.kept {C : Compare} {D : Dict} {m : Nat} {keep : Token → Bool}
    (hD : ∀ q c, D q = some c → c = [] ∨ keep (mkToken C.U c true) = true)
    {toks out : List Token} (h : Greedy C D m toks out) (hs : NoneWithin C D keep toks)
    (hb : NoneMade C D keep toks) : Greedy C D m (toks.filter keep) (out.filter keep) := by
  induction h with
  | nil => exact .nil
  | @separator t ts out ht _ ih =>
    have ih' := ih (hs.drop 1) (hb.drop 1)
    by_cases hk : keep t = true
    · simp only [List.filter_cons, hk, if_true]
      exact .separator ht ih'
    · simpa [hk] using ih'
  | @word t ts out ht hn _ ih =>
    have ih' := ih (hs.drop 1) (hb.drop 1)
    by_cases hk : keep t = true
    · have hc : ∀ l, (t :: l).filter keep = t :: l.filter keep := fun l => by simp [hk]
      rw [hc, hc]
      refine .word ht (fun j hj => ?_) ih'
      rw [← hc] at hj ⊢
      by_cases hd : D (C.spell (((t :: ts).filter keep).take j)) = none
      · exact hd
      · obtain ⟨ha, he⟩ := hb.admissible hk hj hd
        rw [he]
        exact hn j ha
    · simpa [hk] using ih'
  | @replace t ts out k c ht hl _ ih =>
    have ih' := ih (hs.drop k) (hb.drop k)
    have hkeep := hs _ (.take ht hl.mem) (by rw [hl.isSyn]; simp)
    have hk : keep t = true := hkeep t (by
      obtain ⟨k, rfl⟩ : ∃ i, k = i + 1 := ⟨k - 1, by have := hl.mem.pos; omega⟩
      simp)
    have hc : (t :: ts).filter keep = t :: ts.filter keep := by simp [hk]
    obtain ⟨htake, hdrop⟩ := take_of_kept hkeep hl.mem.le
    have hpre : ∀ j, j ≤ k → ((t :: ts).filter keep).take j = (t :: ts).take j := by
      intro j hj
      rw [show j = min j k by omega, ← List.take_take, htake, List.take_take]
    have hout : (canonTokens C.U c ++ out).filter keep = canonTokens C.U c ++ out.filter keep := by
      rw [List.filter_append]
      congr 1
      unfold canonTokens
      split
      · rfl
      · next h0 =>
        rcases hD _ _ hl.isSyn with h | h
        · exact absurd h h0
        · simp [h]
    rw [hout, hc]
    rw [← hdrop, hc] at ih'
    refine .replace (k := k) ht ?_ ih'
    rw [← hc]
    refine ⟨⟨hl.mem.pos, ?_, ?_, ?_⟩, ?_, ?_, ?_⟩
    · have h1 := congrArg List.length htake
      have h2 := hl.mem.le
      simp only [List.length_take] at h1
      omega
    · rw [htake]; exact hl.mem.noPunct
    · rw [hpre _ (by omega)]; exact hl.mem.limit
    · rw [htake]; exact hl.isSyn
    · intro j hj hlt hd
      obtain ⟨ha, he⟩ := hb.admissible hk hj hd
      rw [he] at hd ⊢
      rw [htake]
      exact hl.longest j ha hlt hd
    · intro j hj hlt
      have hlim := hl.mem.limit
      have hle := hl.mem.le
      rw [htake, hpre j (by omega)]
      refine hl.fewest j ⟨hj.pos, by omega, ?_, ?_⟩ hlt
      · rw [← hpre j (by omega)]; exact hj.noPunct
      · rw [← hpre (j - 1) (by omega)]; exact hj.limit

/-! ### C122 -/

/-- **C122 (partial), for any selection.** Selecting tokens before or after a synonyms filter makes no difference if
this neither breaks nor makes synonyms, nor removes canonicals. -/
theorem C122_where_partial {E : Env} (hE : E.Lawful) {F : SynArgs} (hF : F.Scans E) {keep : Token → Bool}
    {toks : List Token} (ha : F.Apart E keep toks) {ts : TokenStream} {e : End} (h : ts.Yields toks e) :
    ∃ out, ((F.filter E ts).where keep).Yields out e ∧ (F.filter E (ts.where keep)).Yields out e := by
  obtain ⟨out, hg⟩ := F.total E toks
  have hw : F.Greedy E (toks.filter keep) (out.filter keep) := by
    refine Greedy.kept (fun q c hq => ?_) hg ha.within ha.made
    obtain ⟨a, hm, -, hac⟩ := dict_some hq
    rw [← hac]
    exact ha.canonicals a hm
  have y1 := where_yields keep (hg.yields hE hF h)
  have y2 := hw.yields hE hF (where_yields keep h)
  cases e with
  | eof => exact ⟨_, y1, y2⟩
  | fail e => exact ⟨_, y1, y2⟩

/-- **C122 (partial).** Removing stop words before or after a synonyms filter makes no difference if this neither breaks
nor makes synonyms, nor removes canonicals. Missing: stop words in or between the words of synonyms, where it does make
a difference (`C122_violated`, `C122_violated_made`). -/
theorem C122_partial {E : Env} (hE : E.Lawful) {F : SynArgs} (hF : F.Scans E) {stop : List Bytes} {ic : Bool}
    {toks : List Token} (ha : F.Apart E (fun t => !stopped E.U stop ic t) toks) {ts : TokenStream} {e : End}
    (h : ts.Yields toks e) :
    ∃ out, (stopwords E.U stop ic (F.filter E ts)).Yields out e ∧ (F.filter E (stopwords E.U stop ic ts)).Yields out e := by
  obtain ⟨out, hg⟩ := F.total E toks
  have hk : (fun t => !stopped E.U stop ic t) = fun t => !isStop E.U stop ic t :=
    funext fun t => by rw [stopped_eq]
  rw [hk] at ha
  have hw : F.Greedy E (toks.filter fun t => !isStop E.U stop ic t) (out.filter fun t => !isStop E.U stop ic t) := by
    refine Greedy.kept (fun q c hq => ?_) hg ha.within ha.made
    obtain ⟨a, hm, -, hac⟩ := dict_some hq
    rw [← hac]
    exact ha.canonicals a hm
  have y1 := stop_yields (U := E.U) (words := stop) (ic := ic) (hg.yields hE hF h)
  have y2 := hw.yields hE hF (stop_yields h)
  cases e with
  | eof => exact ⟨_, y1, y2⟩
  | fail e => exact ⟨_, y1, y2⟩

theorem nba_unstopped : nbaRows.flatten.all (fun r => !([str "will", str "the"].map latinEnv.U.lowerString).contains
    (latinEnv.U.lowerString (textOf r.2))) = true := by decide +kernel

/-- "Will" is a stop word, but the players' names are not. -/
theorem players_unstopped : ∀ a ∈ entries latinEnv playersArgs.mappings,
    stopped latinEnv.U [str "will", str "the"] true (mkToken latinEnv.U a.2 true) = false := by
  intro a ha
  obtain ⟨k, hm⟩ := entries_canonical ha
  have hm' : (k, a.2) ∈ tableOf nbaRows.flatten := by rw [← nba_rows]; exact hm
  simp only [tableOf, List.mem_map] at hm'
  obtain ⟨row, hrow, hrv⟩ := hm'
  have := List.all_eq_true.1 nba_unstopped row hrow
  have h2 : textOf row.2 = a.2 := congrArg Prod.snd hrv
  rw [h2] at this
  simpa [stopped, mkToken] using this

/-- **C122 (violated).** With the stop word "will", the player "Will Barton" is found only if CurrentPlayers comes
before the stop words are removed. -/
theorem C122_violated : ¬ C122_full playersArgs latinEnv [str "will", str "the"] true ∧
    (stopwords latinEnv.U [str "will", str "the"] true (currentPlayers latinEnv
      (listStream [lw "Will", lw " ", lw "Barton"] .eof))).Yields [lc "Will Barton"] .eof ∧
    (currentPlayers latinEnv (stopwords latinEnv.U [str "will", str "the"] true
      (listStream [lw "Will", lw " ", lw "Barton"] .eof))).Yields [lw " ", lw "Barton"] .eof := by
  have hm := mem_nba (row := (n!"Will Barton", n!"Will Barton")) 1 rfl (by decide +kernel)
  have htx : textOf n!"Will Barton" = str "Will Barton" := by decide +kernel
  simp only [htx] at hm
  have he : ([lw "Will", lw " ", lw "Barton"], str "Will Barton") ∈ entries latinEnv nbaMappings := by
    simp only [entries, List.mem_flatMap, List.mem_map]
    exact ⟨_, hm, _, by decide +kernel, rfl⟩
  have y1 := C65_players_partial latinEnv_lawful latinEnv_lowers latinEnv_plain latinEnv_nba hm
    (first := lw "Will") (mid := [lw " ", lw "Barton"]) (last := lw "Barton") (l := [lw "Will", lw " "]) rfl
    (by decide +kernel) (by decide +kernel) (by decide +kernel) (by decide +kernel) (wordLimit_ge he)
    (Or.inl (by decide +kernel)) (listStream_yields _ .eof)
  have z1 := stop_yields (U := latinEnv.U) (words := [str "will", str "the"]) (ic := true) y1
  rw [show [mkToken latinEnv.U (str "Will Barton") true].filter (fun t => !isStop latinEnv.U [str "will", str "the"] true t) =
    [lc "Will Barton"] by decide +kernel] at z1
  have y2 := stop_yields (U := latinEnv.U) (words := [str "will", str "the"]) (ic := true)
    (listStream_yields [lw "Will", lw " ", lw "Barton"] .eof)
  rw [show [lw "Will", lw " ", lw "Barton"].filter (fun t => !isStop latinEnv.U [str "will", str "the"] true t) =
    [lw " ", lw "Barton"] by decide +kernel] at y2
  have z2 := strangers (by decide +kernel) y2
  refine ⟨fun h => ?_, z1, z2⟩
  obtain ⟨out, h1, h2⟩ := h players_unstopped _ _ _ (listStream_yields [lw "Will", lw " ", lw "Barton"] .eof)
  have := (h1.unique z1).1.symm.trans (h2.unique z2).1
  revert this
  decide +kernel

/-- **C122 (violated, the other way).** With the stop word "the", "Sheldon the Mac" becomes a player if it is removed
first. -/
theorem C122_violated_made :
    (stopwords latinEnv.U [str "will", str "the"] true (currentPlayers latinEnv
      (listStream [lw "Sheldon", lw " ", lw "the", lw " ", lw "Mac"] .eof))).Yields
        [lw "Sheldon", lw " ", lw " ", lw "Mac"] .eof ∧
    (currentPlayers latinEnv (stopwords latinEnv.U [str "will", str "the"] true
      (listStream [lw "Sheldon", lw " ", lw "the", lw " ", lw "Mac"] .eof))).Yields [lc "Sheldon Mac"] .eof := by
  have hm := mem_nba (row := (n!"Sheldon Mac", n!"Sheldon Mac")) 1 rfl (by decide +kernel)
  have htx : textOf n!"Sheldon Mac" = str "Sheldon Mac" := by decide +kernel
  simp only [htx] at hm
  have he : ([lw "Sheldon", lw " ", lw "Mac"], str "Sheldon Mac") ∈ entries latinEnv nbaMappings := by
    simp only [entries, List.mem_flatMap, List.mem_map]
    exact ⟨_, hm, _, by decide +kernel, rfl⟩
  have hf : [lw "Sheldon", lw " ", lw "the", lw " ", lw "Mac"].filter
      (fun t => !isStop latinEnv.U [str "will", str "the"] true t) = [lw "Sheldon", lw " ", lw " ", lw "Mac"] := by
    decide +kernel
  have z1 := stop_yields (U := latinEnv.U) (words := [str "will", str "the"]) (ic := true)
    (strangers (toks := [lw "Sheldon", lw " ", lw "the", lw " ", lw "Mac"]) (by decide +kernel)
      (listStream_yields _ .eof))
  have y2 := stop_yields (U := latinEnv.U) (words := [str "will", str "the"]) (ic := true)
    (listStream_yields [lw "Sheldon", lw " ", lw "the", lw " ", lw "Mac"] .eof)
  rw [hf] at z1 y2
  exact ⟨z1, C65_players_partial latinEnv_lawful latinEnv_lowers latinEnv_plain latinEnv_nba hm
    (first := lw "Sheldon") (mid := [lw " ", lw " ", lw "Mac"]) (last := lw "Mac")
    (l := [lw "Sheldon", lw " ", lw " "]) rfl
    (by decide +kernel) (by decide +kernel) (by decide +kernel) (by decide +kernel)
    (show words [lw "Sheldon", lw " ", lw " ", lw "Mac"] ≤ _ from by
      rw [show words [lw "Sheldon", lw " ", lw " ", lw "Mac"] = words [lw "Sheldon", lw " ", lw "Mac"] by
        decide +kernel]
      exact wordLimit_ge he)
    (Or.inl (by decide +kernel)) y2⟩

private def w (s : String) : Token := mkToken asciiUnicode (str s) false

private def argsRor : SynArgs := ⟨[(str "ruby on rails", str "ror")], true, [0x20]⟩

-- what the partial version asks for can be had: "the ruby on rails" without "the"
example : argsRor.Apart sampleEnv (fun t => !stopped sampleEnv.U [str "the"] true t)
    [w "the", w " ", w "ruby", w " ", w "on", w " ", w "rails"] := by
  have e1 : entries sampleEnv argsRor.mappings = [([w "ruby", w " ", w "on", w " ", w "rails"], str "ror")] := by
    decide +kernel
  have spelt : ∀ run, argsRor.dict sampleEnv ((Compare.mk sampleEnv.U true [0x20]).spell run) ≠ none →
      (Compare.mk sampleEnv.U true [0x20]).spell run =
        (Compare.mk sampleEnv.U true [0x20]).spell [w "ruby", w " ", w "on", w " ", w "rails"] := by
    intro run h
    cases hD : argsRor.dict sampleEnv ((Compare.mk sampleEnv.U true [0x20]).spell run) with
    | none => exact absurd hD h
    | some c =>
      obtain ⟨a, ha, hsp, -⟩ := dict_some hD
      rw [e1, List.mem_singleton] at ha
      subst ha
      exact hsp.symm
  have k1 : ∀ run ∈ parts [w "the", w " ", w "ruby", w " ", w "on", w " ", w "rails"],
      (Compare.mk sampleEnv.U true [0x20]).spell run =
        (Compare.mk sampleEnv.U true [0x20]).spell [w "ruby", w " ", w "on", w " ", w "rails"] →
      ∀ t ∈ run, (!stopped sampleEnv.U [str "the"] true t) = true := by decide +kernel
  have k2 : ∀ run ∈ parts [w "the", w " ", w "ruby", w " ", w "on", w " ", w "rails"],
      (Compare.mk sampleEnv.U true [0x20]).spell (run.filter fun t => !stopped sampleEnv.U [str "the"] true t) =
        (Compare.mk sampleEnv.U true [0x20]).spell [w "ruby", w " ", w "on", w " ", w "rails"] →
      run.head?.any (fun t => !stopped sampleEnv.U [str "the"] true t) = true →
      ∀ t ∈ run, (!stopped sampleEnv.U [str "the"] true t) = true := by decide +kernel
  refine ⟨fun run hr h => k1 run hr.mem (spelt _ h), fun pre run post he h1 _ h => k2 run ?_ (spelt _ h) ?_, ?_⟩
  · rw [he]
    refine List.mem_flatMap.mpr ⟨pre.length, ?_, List.mem_map.mpr ⟨run.length, ?_, ?_⟩⟩
    · simp; omega
    · simp; omega
    · simp
  · obtain ⟨t, ht, hw⟩ := h1
    simp only [ht, Option.any_some, hw]
  · intro a ha
    rw [e1, List.mem_singleton] at ha
    subst ha
    exact .inr (by decide +kernel)

end Jargon
