import Verif.Props.WordsFirst

/-! C123: whether a synonyms filter comes before or after a filter that changes single tokens: folding, stemming,
normalization. -/

namespace Jargon

/-! ### The specification -/

/-- A filter that changes each token by itself. -/
def EachToken (G : Filter) (g : Token → Token) : Prop :=
  ∀ (ts : TokenStream) (toks : List Token) (e : End), ts.Yields toks e → (G ts).Yields (toks.map g) e

/-- The change makes and breaks no synonym in the text: words, space and punctuation stay so, what is ignored stays
ignored, and a part of the text is a synonym of the same canonical before and after. -/
structure SameSynonyms (C : Compare) (D : Dict) (g : Token → Token) (toks : List Token) : Prop where
  kind : ∀ t ∈ toks, (g t).punct = t.punct ∧ (g t).space = t.space
  empty : ∀ t ∈ toks, (C.spell [g t] = [] ↔ C.spell [t] = [])
  same : ∀ run, RunOf toks run → D (C.spell (run.map g)) = D (C.spell run)

/-- The canonicals of a filter are left as they are. -/
def SynArgs.CanonicalsKept (F : SynArgs) (E : Env) (g : Token → Token) : Prop :=
  ∀ a ∈ entries E F.mappings, g (mkToken E.U a.2 true) = mkToken E.U a.2 true

/-- **C123 (full).** A filter that changes each token by itself, but no canonical, may come before or after a synonyms
filter. -/
def C123_full (F : SynArgs) (E : Env) (G : Filter) (g : Token → Token) : Prop :=
  EachToken G g → F.CanonicalsKept E g → ∀ (ts : TokenStream) (toks : List Token) (e : End), ts.Yields toks e →
    ∃ out, (G (F.filter E ts)).Yields out e ∧ (F.filter E (G ts)).Yields out e

/-! ### Lemmas -/

theorem SameSynonyms.drop {C : Compare} {D : Dict} {g : Token → Token} {toks : List Token}
    (h : SameSynonyms C D g toks) (k : Nat) : SameSynonyms C D g (toks.drop k) :=
  ⟨fun t ht => h.kind t (List.mem_of_mem_drop ht), fun t ht => h.empty t (List.mem_of_mem_drop ht),
    fun run hr => h.same run hr.drop⟩

theorem SameSynonyms.word {C : Compare} {D : Dict} {g : Token → Token} {toks : List Token}
    (h : SameSynonyms C D g toks) {t : Token} (ht : t ∈ toks) : (g t).IsWord ↔ t.IsWord := by
  unfold Token.IsWord
  rw [(h.kind t ht).1, (h.kind t ht).2]

theorem spell_nil_iff (C : Compare) (l : List Token) : C.spell l = [] ↔ ∀ t ∈ l, C.spell [t] = [] := by
  induction l with
  | nil => simp [Compare.spell, Compare.normal]
  | cons t ts ih =>
    rw [show t :: ts = [t] ++ ts from rfl, spell_append', List.append_eq_nil_iff, ih]
    simp

theorem SameSynonyms.admissible {C : Compare} {D : Dict} {m : Nat} {g : Token → Token} {toks : List Token}
    (h : SameSynonyms C D g toks) (k : Nat) : Admissible m (toks.map g) k ↔ Admissible m toks k := by
  have hp : (∀ t ∈ (toks.map g).take k, t.punct = false) ↔ ∀ t ∈ toks.take k, t.punct = false := by
    rw [← List.map_take]
    simp only [List.mem_map, forall_exists_index, and_imp, forall_apply_eq_imp_iff₂]
    exact forall₂_congr fun t ht => by rw [(h.kind t (List.mem_of_mem_take ht)).1]
  have hw : words ((toks.map g).take (k - 1)) = words (toks.take (k - 1)) := by
    rw [← List.map_take, words, words, List.countP_map]
    refine List.countP_congr fun t ht => ?_
    simp only [Function.comp, decide_eq_true_eq]
    exact h.word (List.mem_of_mem_take ht)
  constructor
  · rintro ⟨a, b, c, d⟩
    exact ⟨a, by simpa using b, hp.1 c, by rwa [hw] at d⟩
  · rintro ⟨a, b, c, d⟩
    exact ⟨a, by simpa using b, hp.2 c, by rwa [hw]⟩

/-- Two parts that begin at the same place are spelled the same after the change if they were before. -/
theorem SameSynonyms.spelled {C : Compare} {D : Dict} {g : Token → Token} {toks : List Token}
    (h : SameSynonyms C D g toks) {j k : Nat} (hjk : j ≤ k) :
    C.spell ((toks.map g).take j) = C.spell ((toks.map g).take k) ↔ C.spell (toks.take j) = C.spell (toks.take k) := by
  have e : ∀ l : List Token, C.spell (l.take j) = C.spell (l.take k) ↔ C.spell ((l.take k).drop j) = [] := by
    intro l
    have : C.spell (l.take k) = C.spell (l.take j) ++ C.spell ((l.take k).drop j) := by
      conv => lhs; rw [← List.take_append_drop j (l.take k), spell_append', List.take_take, Nat.min_eq_left hjk]
    rw [this]
    simp
  rw [e, e, ← List.map_take, ← List.map_drop, spell_nil_iff, spell_nil_iff]
  simp only [List.mem_map, forall_exists_index, and_imp, forall_apply_eq_imp_iff₂]
  exact forall₂_congr fun t ht => h.empty t (List.mem_of_mem_take (List.mem_of_mem_drop ht))

/-- The specification, with the change made first. -/
theorem Greedy.mapped {C : Compare} {D : Dict} {m : Nat} {g : Token → Token}
    (hD : ∀ q c, D q = some c → g (mkToken C.U c true) = mkToken C.U c true)
    {toks out : List Token} (h : Greedy C D m toks out) (hs : SameSynonyms C D g toks) :
    Greedy C D m (toks.map g) (out.map g) := by
  induction h with
  | nil => exact .nil
  | @separator t ts out ht _ ih =>
    exact .separator (fun hw => ht ((hs.word (by simp)).1 hw)) (ih (hs.drop 1))
  | @word t ts out ht hn _ ih =>
    refine .word ((hs.word (by simp)).2 ht) (fun j hj => ?_) (ih (hs.drop 1))
    have hj' := (hs.admissible j).1 hj
    show D (C.spell (((t :: ts).map g).take j)) = none
    rw [← List.map_take, hs.same _ (.take ht hj')]
    exact hn j hj'
  | @replace t ts out k c ht hl _ ih =>
    have hout : (canonTokens C.U c ++ out).map g = canonTokens C.U c ++ out.map g := by
      rw [List.map_append]
      congr 1
      unfold canonTokens
      split
      · rfl
      · simp [hD _ _ hl.isSyn]
    have ih' := ih (hs.drop k)
    rw [hout]
    rw [List.map_drop] at ih'
    refine .replace (t := g t) (ts := ts.map g) (k := k) ((hs.word (by simp)).2 ht) ?_ ih'
    show Longest C D (Admissible m ((t :: ts).map g)) ((t :: ts).map g) k c
    refine ⟨(hs.admissible k).2 hl.mem, ?_, ?_, ?_⟩
    · rw [← List.map_take, hs.same _ (.take ht hl.mem)]
      exact hl.isSyn
    · intro j hj hlt hd
      have hj' := (hs.admissible j).1 hj
      rw [← List.map_take, hs.same _ (.take ht hj')] at hd
      exact ((hs.spelled (Nat.le_of_lt hlt)).2 (hl.longest j hj' hlt hd).symm).symm
    · intro j hj hlt he
      exact hl.fewest j ((hs.admissible j).1 hj) hlt ((hs.spelled (Nat.le_of_lt hlt)).1 he)

/-! ### C123 -/

/-- **C123 (partial).** A filter that changes each token by itself may come before or after a synonyms filter if it
changes no canonical and makes and breaks no synonym in the text. Missing: texts in which it does make or break one,
where the order matters (`C123_violated`). -/
theorem C123_partial {E : Env} (hE : E.Lawful) {F : SynArgs} (hF : F.Scans E) {G : Filter} {g : Token → Token}
    (hG : EachToken G g) (hc : F.CanonicalsKept E g) {toks : List Token}
    (hs : SameSynonyms ⟨E.U, F.ignoreCase, F.ignore⟩
      ((Compare.mk E.U F.ignoreCase F.ignore).dict (entries E F.mappings)) g toks)
    {ts : TokenStream} {e : End} (h : ts.Yields toks e) :
    ∃ out, (G (F.filter E ts)).Yields out e ∧ (F.filter E (G ts)).Yields out e := by
  obtain ⟨out, hg⟩ := F.total E toks
  have hw : F.Greedy E (toks.map g) (out.map g) := by
    refine Greedy.mapped (fun q c hq => ?_) hg hs
    obtain ⟨a, hm, -, hac⟩ := dict_some hq
    rw [← hac]
    exact hc a hm
  have y1 := hG _ _ _ (hg.yields hE hF h)
  have y2 := hw.yields hE hF (hG _ _ _ h)
  cases e with
  | eof => exact ⟨_, y1, y2⟩
  | fail e => exact ⟨_, y1, y2⟩

/-- The filters of the library that change each token by itself. -/
theorem C123_filters (U : Unicode) : EachToken (asciiFold U) (foldToken U) ∧
    (∀ N : NormForm, N.Lawful → EachToken (normFilter U N) (normToken U N)) ∧
    (∀ stem : Bytes → Bytes, (∀ s, stem s = [] → s = []) → EachToken (stemmer U stem) (stemToken U stem)) :=
  ⟨fun _ _ _ h => asciiFold_yields U h, fun _ hN _ _ _ h => norm_yields hN h,
    fun _ hs _ _ _ h => stemmer_yields (fun _ _ => hs _) h⟩

theorem soRows_ascii : soRows.flatten.all (fun r => (textOf r.2).all fun b => decide (b.toNat < 0x80)) = true := by
  decide +kernel

/-- No tag is changed by folding. -/
theorem tags_unfolded (E : Env) : tagsArgs.CanonicalsKept E (foldToken E.U) := by
  intro a ha
  obtain ⟨k, hm⟩ := entries_canonical ha
  have hm' : (k, a.2) ∈ tableOf soRows.flatten := by rw [← stackOverflow_rows]; exact hm
  simp only [tableOf, List.mem_map] at hm'
  obtain ⟨row, hrow, hrv⟩ := hm'
  have h1 := List.all_eq_true.1 soRows_ascii row hrow
  have h2 : textOf row.2 = a.2 := congrArg Prod.snd hrv
  rw [h2] at h1
  have h3 := C17_ascii_unchanged a.2 fun b hb => by simpa using List.all_eq_true.1 h1 b hb
  unfold foldToken
  rw [show (mkToken E.U a.2 true).value = a.2 from rfl, h3]
  rfl

/-- **C123 for folding and Stack Overflow's tags (partial).** -/
theorem C123_fold_tags_partial {E : Env} (hE : E.Lawful) (hk : ∀ m ∈ stackOverflowMappings, E.CutsCommas m.1)
    {toks : List Token} (hs : SameSynonyms (tagCompare E) (tagDict E) (foldToken E.U) toks)
    {ts : TokenStream} {e : End} (h : ts.Yields toks e) :
    ∃ out, (asciiFold E.U (tags E ts)).Yields out e ∧ (tags E (asciiFold E.U ts)).Yields out e :=
  C123_partial (F := tagsArgs) hE (fun m hm => (hk m hm).scans) (C123_filters E.U).1 (tags_unfolded E) hs h

/-- **C123 (violated).** "mác" becomes the tag "macos" if it is folded before tagging, "mac" if after. -/
theorem C123_violated : ¬ C123_full tagsArgs latinEnv (asciiFold latinEnv.U) (foldToken latinEnv.U) ∧
    (asciiFold latinEnv.U (tags latinEnv (listStream [lw "mác"] .eof))).Yields [lc "mac"] .eof ∧
    (tags latinEnv (asciiFold latinEnv.U (listStream [lw "mác"] .eof))).Yields [lc "macos"] .eof := by
  have hd : tagDict latinEnv ((str "mac").map UInt8.toNat) = some (str "macos") := by
    have := tagDict_some latinEnv_lowers latinEnv_so (row := (n!"osx, macosx, mac", n!"macos"))
      (p := (str " mac").map UInt8.toNat) (mem_so 6 rfl (by decide +kernel)) (by decide +kernel)
    rwa [show normalB stackOverflowIgnore ((str " mac").map UInt8.toNat) =
      (str "mac").map UInt8.toNat by decide +kernel,
      show textOf (n!"osx, macosx, mac", n!"macos").2 = str "macos" by decide +kernel] at this
  have y1 : (tags latinEnv (listStream [lw "mác"] .eof)).Yields [lw "mác"] .eof := by
    refine tags_yields latinEnv_lawful latinEnv_so (listStream_yields _ _) ?_
    refine .word (by decide +kernel) (fun k hk => tagDict_none latinEnv_lowers latinEnv_so ?_) .nil
    have h1 := hk.pos
    have h2 : k ≤ 1 := hk.le
    obtain rfl : k = 1 := by omega
    decide +kernel
  have z1 := asciiFold_yields latinEnv.U y1
  rw [show [lw "mác"].map (foldToken latinEnv.U) = [lc "mac"] by decide +kernel] at z1
  have y2 := asciiFold_yields latinEnv.U (listStream_yields [lw "mác"] .eof)
  rw [show [lw "mác"].map (foldToken latinEnv.U) = [lc "mac"] by decide +kernel] at y2
  have z2 : (tags latinEnv (asciiFold latinEnv.U (listStream [lw "mác"] .eof))).Yields [lc "macos"] .eof := by
    refine tags_yields latinEnv_lawful latinEnv_so y2 ?_
    have := Greedy.replace (C := tagCompare latinEnv) (D := tagDict latinEnv)
      (maxWords := wordLimit (entries latinEnv stackOverflowMappings)) (t := lc "mac") (ts := [])
      (out := []) (k := 1) (canonical := str "macos") (by decide +kernel)
      ⟨⟨by simp, by simp, by decide +kernel, wordLimit_pos _⟩, ?_, ?_, ?_⟩ .nil
    · rw [show canonTokens (tagCompare latinEnv).U (str "macos") = [lc "macos"] by decide +kernel] at this
      exact this
    · show tagDict latinEnv ((tagCompare latinEnv).spell [lc "mac"]) = _
      rw [show (tagCompare latinEnv).spell [lc "mac"] = (str "mac").map UInt8.toNat by decide +kernel]
      exact hd
    · intro j hj hlt
      have : j ≤ 1 := hj.le
      omega
    · intro j hj hlt
      have := hj.pos
      omega
  refine ⟨fun h => ?_, z1, z2⟩
  obtain ⟨out, h1, h2⟩ := h (C123_filters _).1 (tags_unfolded _) _ _ _ (listStream_yields [lw "mác"] .eof)
  have := (h1.unique z1).1.symm.trans (h2.unique z2).1
  revert this
  decide +kernel

private def w (s : String) : Token := mkToken asciiUnicode (str s) false

private def argsJs : SynArgs := ⟨[(str "java script", str "js")], true, [0x20]⟩

-- what the partial version asks for can be had: "java script café" with folding
example : SameSynonyms ⟨sampleEnv.U, true, [0x20]⟩ ((Compare.mk sampleEnv.U true [0x20]).dict
      (entries sampleEnv argsJs.mappings)) (foldToken sampleEnv.U) [w "java", w " ", w "script", w " ", w "café"] ∧
    foldToken sampleEnv.U (w "café") ≠ w "café" ∧ argsJs.CanonicalsKept sampleEnv (foldToken sampleEnv.U) := by
  have e1 : entries sampleEnv argsJs.mappings = [([w "java", w " ", w "script"], str "js")] := by decide +kernel
  refine ⟨⟨by decide +kernel, by decide +kernel, fun run hr => ?_⟩, by decide +kernel, ?_⟩
  · rw [e1]
    have key : ∀ run ∈ parts [w "java", w " ", w "script", w " ", w "café"],
        (Compare.mk sampleEnv.U true [0x20]).dict [([w "java", w " ", w "script"], str "js")]
          ((Compare.mk sampleEnv.U true [0x20]).spell (run.map (foldToken sampleEnv.U))) =
        (Compare.mk sampleEnv.U true [0x20]).dict [([w "java", w " ", w "script"], str "js")]
          ((Compare.mk sampleEnv.U true [0x20]).spell run) := by decide +kernel
    exact key run hr.mem
  · intro a ha
    rw [e1, List.mem_singleton] at ha
    subst ha
    decide +kernel

end Jargon
