import Verif.Props.MapFirst
import Verif.Props.Players
import Verif.Props.Contractions
import Verif.Props.TwoTables

/-! C128: whether a synonyms filter comes before or after contractions are expanded. -/

namespace Jargon

/-! ### The specification -/

/-- A filter that puts, for each token by itself, some tokens. -/
def EachExpands (G : Filter) (h : Token → List Token) : Prop :=
  ∀ (ts : TokenStream) (toks : List Token) (e : End), ts.Yields toks e → (G ts).Yields (toks.flatMap h) e

/-- Expanding makes and breaks no synonym in the text: no synonym in the text contains a token that is expanded, and
each synonym in the expanded text ends before, or begins after, what comes of such a token. -/
structure Aside (C : Compare) (D : Dict) (h : Token → List Token) (toks : List Token) : Prop where
  before : ∀ run, run <:+: toks → D (C.spell run) ≠ none → ∀ t ∈ run, h t = [t]
  after : ∀ pre t post, toks = pre ++ t :: post → h t ≠ [t] → ∀ a run b, toks.flatMap h = a ++ run ++ b →
    D (C.spell run) ≠ none →
      a.length + run.length ≤ (pre.flatMap h).length ∨ (pre.flatMap h).length + (h t).length ≤ a.length

/-- **C128 (full).** Contractions may be expanded before or after a synonyms filter, if no canonical is one. -/
def C128_full (F : SynArgs) (E : Env) : Prop :=
  (∀ a ∈ entries E F.mappings, expandToken E contractionMappings (mkToken E.U a.2 true) = [mkToken E.U a.2 true]) →
  ∀ (ts : TokenStream) (toks : List Token) (e : End), ts.Yields toks e →
    ∃ out, (expand E (F.filter E ts)).Yields out e ∧ (F.filter E (expand E ts)).Yields out e

/-! ### Lemmas -/

theorem greedy_free {C : Compare} {D : Dict} {m : Nat} : ∀ (toks : List Token),
    (∀ run, run <:+: toks → run ≠ [] → D (C.spell run) = none) → Greedy C D m toks toks
  | [], _ => .nil
  | t :: ts, h => by
    have ih := greedy_free (m := m) ts fun run hr => h run (hr.trans (List.suffix_cons _ _).isInfix)
    by_cases hw : t.IsWord
    · refine .word hw (fun k hk => h _ (List.take_prefix k _).isInfix ?_) ih
      have := hk.pos
      cases k with
      | zero => omega
      | succ k => simp
    · exact .separator hw ih

/-- If no token is expanded, nothing happens. -/
theorem flatMap_self {h : Token → List Token} {l : List Token} (hl : ∀ t ∈ l, h t = [t]) : l.flatMap h = l := by
  induction l with
  | nil => rfl
  | cons t ts ih =>
    rw [List.flatMap_cons, hl t (by simp), ih fun u hu => hl u (by simp [hu])]
    rfl

/-- What comes of tokens none of which is expanded. -/
theorem Greedy.unexpanded {C : Compare} {D : Dict} {m : Nat} {h : Token → List Token}
    (hD : ∀ q c, D q = some c → h (mkToken C.U c true) = [mkToken C.U c true])
    {toks out : List Token} (hg : Greedy C D m toks out) (hk : ∀ t ∈ toks, h t = [t]) : ∀ t ∈ out, h t = [t] := by
  induction hg with
  | nil => simp
  | separator _ _ ih | word _ _ _ ih =>
    intro u hu
    rcases List.mem_cons.1 hu with rfl | hu
    · exact hk _ (by simp)
    · exact ih (fun x hx => hk x (by simp [hx])) u hu
  | @replace t ts out k c _ hl _ ih =>
    intro u hu
    rcases List.mem_append.1 hu with hu | hu
    · unfold canonTokens at hu
      split at hu
      · simp at hu
      · rw [List.mem_singleton.1 hu]
        exact hD _ _ hl.isSyn
    · exact ih (fun x hx => hk x (List.mem_of_mem_drop hx)) u hu

/-- The first token that is expanded. -/
theorem first_expanded (h : Token → List Token) (toks : List Token) :
    (∀ t ∈ toks, h t = [t]) ∨ ∃ pre t post, toks = pre ++ t :: post ∧ (∀ u ∈ pre, h u = [u]) ∧ h t ≠ [t] := by
  induction toks with
  | nil => exact Or.inl (by simp)
  | cons t ts ih =>
    by_cases ht : h t = [t]
    · rcases ih with ih | ⟨pre, u, post, rfl, h1, h2⟩
      · exact Or.inl (by simpa [ht] using ih)
      · exact Or.inr ⟨t :: pre, u, post, rfl, by simpa [ht] using h1, h2⟩
    · exact Or.inr ⟨[], t, ts, rfl, by simp, ht⟩

theorem noCross_of {C : Compare} {D : Dict} {xs ys : List Token}
    (h : ∀ p l w z, xs = p ++ l → ys = w ++ z → l ≠ [] → w ≠ [] → D (C.spell (l ++ w)) = none) : NoCross C D xs ys :=
  fun p t u w z e1 e2 _ hw _ => Or.inl (h p (t :: u) w z e1 e2 (by simp) hw)

theorem Aside.post {C : Compare} {D : Dict} {h : Token → List Token} {pre post : List Token} {t : Token}
    (ha : Aside C D h (pre ++ t :: post)) : Aside C D h post where
  before run hr := ha.before run (hr.trans ⟨pre ++ [t], [], by simp⟩)
  after pre' u post' e hu a run b hab hd := by
    have := ha.after (pre ++ t :: pre') u post' (by rw [e]; simp) hu (pre.flatMap h ++ h t ++ a) run b
      (by rw [List.flatMap_append, List.flatMap_cons, hab]; simp [List.append_assoc]) hd
    simp only [List.flatMap_append, List.flatMap_cons, List.length_append] at this
    omega

/-- The specification, with the expansion made first. -/
theorem Greedy.expanded {C : Compare} {D : Dict} {m : Nat} {h : Token → List Token}
    (hD : ∀ q c, D q = some c → h (mkToken C.U c true) = [mkToken C.U c true]) (hne : ∀ t, h t ≠ []) :
    ∀ (n : Nat) {toks out : List Token}, toks.length = n → Greedy C D m toks out → Aside C D h toks →
      Greedy C D m (toks.flatMap h) (out.flatMap h) := by
  intro n
  induction n using Nat.strongRecOn with
  | ind n ih =>
    intro toks out hn hg ha
    rcases first_expanded h toks with hk | ⟨pre, t, post, rfl, h1, h2⟩
    · rw [flatMap_self hk, flatMap_self (hg.unexpanded hD hk)]
      exact hg
    · obtain ⟨A, gA⟩ := Greedy.total C D m pre
      obtain ⟨B, gB⟩ := Greedy.total C D m post
      -- before
      have b0 : ∀ run, run <:+: pre ++ t :: post → t ∈ run → D (C.spell run) = none := by
        intro run hr ht
        cases hd : D (C.spell run) with
        | none => rfl
        | some c => exact absurd (ha.before run hr (by simp [hd]) t ht) h2
      have gt : Greedy C D m [t] [t] := greedy_free _ fun run hr hne => by
        have := List.infix_cons_iff.1 hr
        refine b0 run (hr.trans ⟨pre, post, by simp⟩) ?_
        rcases this with hp | hi
        · obtain ⟨r, hr⟩ := hp
          cases run with
          | nil => exact absurd rfl hne
          | cons x xs => simp at hr; simp [hr.1]
        · simp at hi; exact absurd hi hne
      have n1 : NoCross C D [t] post := noCross_of fun p l w z e1 e2 hl _ => by
        refine b0 _ ⟨pre ++ p, z, by rw [e2, ← List.singleton_append, e1]; simp [List.append_assoc]⟩ ?_
        cases p with
        | nil => simp at e1; simp [← e1]
        | cons x xs => simp at e1; exact absurd e1.2.2 hl
      have n2 : NoCross C D pre ([t] ++ post) := noCross_of fun p l w z e1 e2 _ hw => by
        refine b0 _ ⟨p, z, ?_⟩ ?_
        · rw [show pre ++ t :: post = pre ++ ([t] ++ post) from rfl, e2, e1]
          simp [List.append_assoc]
        · cases w with
          | nil => exact absurd rfl hw
          | cons x xs =>
            simp only [List.cons_append, List.cons.injEq] at e2
            simp [e2.1]
      have hout : out = A ++ ([t] ++ B) := hg.unique (gA.append (gt.append gB n1) n2)
      -- after
      have hlen := List.length_pos_iff.2 (hne t)
      have hfl : (pre ++ t :: post).flatMap h = pre.flatMap h ++ (h t ++ post.flatMap h) := by
        rw [List.flatMap_append, List.flatMap_cons]
      have a0 : ∀ a run b, pre.flatMap h ++ (h t ++ post.flatMap h) = a ++ run ++ b →
          (pre.flatMap h).length < a.length + run.length → a.length < (pre.flatMap h).length + (h t).length →
          D (C.spell run) = none := by
        intro a run b he h3 h4
        cases hd : D (C.spell run) with
        | none => rfl
        | some c =>
          have := ha.after pre t post rfl h2 a run b (hfl.trans he) (by simp [hd])
          omega
      have gt' : Greedy C D m (h t) (h t) := greedy_free _ fun run hr hr0 => by
        obtain ⟨a, b, hab⟩ := hr
        have l1 := congrArg List.length hab
        have l2 := List.length_pos_iff.2 hr0
        simp only [List.length_append] at l1
        refine a0 (pre.flatMap h ++ a) run (b ++ post.flatMap h) (by rw [← hab]; simp [List.append_assoc]) ?_ ?_
        all_goals (try simp only [List.length_append])
        all_goals omega
      have n3 : NoCross C D (h t) (post.flatMap h) := noCross_of fun p l w z e1 e2 hl _ => by
        have l1 := congrArg List.length e1
        have l2 := List.length_pos_iff.2 hl
        simp only [List.length_append] at l1
        refine a0 (pre.flatMap h ++ p) (l ++ w) z (by rw [e1, e2]; simp [List.append_assoc]) ?_ ?_
        all_goals (try simp only [List.length_append])
        all_goals omega
      have n4 : NoCross C D (pre.flatMap h) (h t ++ post.flatMap h) := noCross_of fun p l w z e1 e2 hl hw => by
        have l1 := congrArg List.length e1
        have l2 := List.length_pos_iff.2 hl
        have l3 := List.length_pos_iff.2 hw
        simp only [List.length_append] at l1
        refine a0 p (l ++ w) z (by rw [e2, e1]; simp [List.append_assoc]) ?_ ?_
        all_goals (try simp only [List.length_append])
        all_goals omega
      have ihp := ih post.length (by rw [← hn]; simp; omega) rfl gB ha.post
      have gA' : Greedy C D m (pre.flatMap h) (A.flatMap h) := by
        rw [flatMap_self h1, flatMap_self (gA.unexpanded hD h1)]
        exact gA
      rw [hout, hfl, List.flatMap_append, List.flatMap_append,
        show [t].flatMap h = h t by simp]
      exact gA'.append (gt'.append ihp n3) n4

/-! ### C128 -/

/-- **C128 (partial).** A filter that expands tokens, each by itself, may come before or after a synonyms filter if it
expands no canonical and makes and breaks no synonym in the text. Missing: texts in which it does make or break one,
where the order matters (`C128_violated`). -/
theorem C128_partial {E : Env} (hE : E.Lawful) {F : SynArgs} (hF : F.Scans E) {G : Filter} {g : Token → List Token}
    (hG : EachExpands G g) (hne : ∀ t, g t ≠ [])
    (hc : ∀ a ∈ entries E F.mappings, g (mkToken E.U a.2 true) = [mkToken E.U a.2 true]) {toks : List Token}
    (hs : Aside ⟨E.U, F.ignoreCase, F.ignore⟩
      ((Compare.mk E.U F.ignoreCase F.ignore).dict (entries E F.mappings)) g toks)
    {ts : TokenStream} {e : End} (h : ts.Yields toks e) :
    ∃ out, (G (F.filter E ts)).Yields out e ∧ (F.filter E (G ts)).Yields out e := by
  obtain ⟨out, hg⟩ := F.total E toks
  have hw : F.Greedy E (toks.flatMap g) (out.flatMap g) := by
    refine Greedy.expanded (fun q c hq => ?_) hne _ rfl hg hs
    obtain ⟨a, hm, -, hac⟩ := dict_some hq
    rw [← hac]
    exact hc a hm
  have y1 := hG _ _ _ (hg.yields hE hF h)
  have y2 := hw.yields hE hF (hG _ _ _ h)
  cases e with
  | eof => exact ⟨_, y1, y2⟩
  | fail e => exact ⟨_, y1, y2⟩

theorem expandToken_ne {E : Env} (hE : E.Lawful) {m : StringMap} (hm : GoodTable E m) (t : Token) :
    expandToken E m t ≠ [] := by
  unfold expandToken
  split
  · rename_i x hx
    obtain ⟨h1, h2⟩ := hm.expansion t x hx
    intro h0
    have := text_stringTokens hE h1
    rw [h0] at this
    exact h2 (by simpa using this.symm)
  · simp

/-- **C128 for contractions (partial).** -/
theorem C128_contractions_partial {E : Env} (hE : E.Lawful) {F : SynArgs} (hF : F.Scans E)
    (hm : GoodTable E contractionMappings)
    (hc : ∀ a ∈ entries E F.mappings,
      expandToken E contractionMappings (mkToken E.U a.2 true) = [mkToken E.U a.2 true]) {toks : List Token}
    (hs : Aside ⟨E.U, F.ignoreCase, F.ignore⟩
      ((Compare.mk E.U F.ignoreCase F.ignore).dict (entries E F.mappings)) (expandToken E contractionMappings) toks)
    {ts : TokenStream} {e : End} (h : ts.Yields toks e) :
    ∃ out, (expand E (F.filter E ts)).Yields out e ∧ (F.filter E (expand E ts)).Yields out e :=
  C128_partial hE hF (fun _ _ _ h => expandWith_yields hE hm h) (expandToken_ne hE hm) hc hs h

/-- `Aside` can be checked by looking at every part of the text and of the expanded text. -/
theorem Aside.check {C : Compare} {D : Dict} {h : Token → List Token} {toks : List Token}
    (h1 : ∀ i < toks.length + 1, ∀ k < toks.length + 1, D (C.spell ((toks.drop i).take k)) ≠ none →
      ∀ t ∈ (toks.drop i).take k, h t = [t])
    (h2 : ∀ p < toks.length, ∀ t ∈ (toks[p]?).toList, h t ≠ [t] →
      ∀ i < (toks.flatMap h).length + 1, ∀ k < (toks.flatMap h).length + 1,
        D (C.spell (((toks.flatMap h).drop i).take k)) ≠ none →
        i + k ≤ ((toks.take p).flatMap h).length ∨ ((toks.take p).flatMap h).length + (h t).length ≤ i) :
    Aside C D h toks where
  before := by
    rintro run ⟨a, b, rfl⟩ hD
    have e : ((a ++ run ++ b).drop a.length).take run.length = run := by simp
    have := h1 a.length (by simp; omega) run.length (by simp; omega)
    rw [e] at this
    exact this hD
  after := by
    rintro pre t post rfl ht a run b hab hD
    have e : (((pre ++ t :: post).flatMap h).drop a.length).take run.length = run := by rw [hab]; simp
    have := h2 pre.length (by simp) t (by simp) ht a.length (by rw [hab]; simp; omega) run.length
      (by rw [hab]; simp; omega)
    rw [e, List.take_left] at this
    exact this hD

private def w (s : String) : Token := mkToken sampleEnv.U (str s) false

set_option synthInstance.maxSize 2000 in
set_option synthInstance.maxHeartbeats 0 in
example : Aside ⟨sampleEnv.U, true, [0x20]⟩ ((Compare.mk sampleEnv.U true [0x20]).dict
      (entries sampleEnv [(str "java script", str "js")])) (expandToken sampleEnv contractionMappings)
      [w "java", w " ", w "script", w " ", w "we'll"] ∧
    expandToken sampleEnv contractionMappings (w "we'll") = [w "we", w " ", w "will"] ∧
    (∀ a ∈ entries sampleEnv [(str "java script", str "js")],
      expandToken sampleEnv contractionMappings (mkToken sampleEnv.U a.2 true) = [mkToken sampleEnv.U a.2 true]) ∧
    (Compare.mk sampleEnv.U true [0x20]).dict (entries sampleEnv [(str "java script", str "js")])
      ((Compare.mk sampleEnv.U true [0x20]).spell [w "java", w " ", w "script"]) = some (str "js") := by
  have e1 : entries sampleEnv [(str "java script", str "js")] = [([w "java", w " ", w "script"], str "js")] := by
    decide +kernel
  rw [e1]
  exact ⟨.check (by decide +kernel) (by decide +kernel), by decide +kernel, by decide +kernel, by decide +kernel⟩

/-! ### Players -/

theorem names_spaced : nbaRows.flatten.all (fun r => (textOf r.2).contains 0x20 &&
    (latinEnv.U.lowerString (textOf r.2)).contains 0x20) = true := by decide +kernel

theorem contractions_unspaced : contractionRows.all (fun r => !(textOf r.1).contains 0x20) = true := by decide +kernel

theorem lookup_spaced {s : Bytes} (h : s.contains 0x20 = true) : contractionMappings.lookup s = none := by
  cases hl : contractionMappings.lookup s with
  | none => rfl
  | some x =>
    obtain ⟨r, hr, h1, -⟩ := mem_mappings.1 (lookup_mem hl)
    have := List.all_eq_true.1 contractions_unspaced r hr
    simp only at h1
    rw [h1, h] at this
    cases this

/-- No player's name is a contraction. -/
theorem players_unexpanded : ∀ a ∈ entries latinEnv playersArgs.mappings,
    expandToken latinEnv contractionMappings (mkToken latinEnv.U a.2 true) = [mkToken latinEnv.U a.2 true] := by
  intro a ha
  obtain ⟨k, hm⟩ := entries_canonical ha
  have hm' : (k, a.2) ∈ tableOf nbaRows.flatten := by rw [← nba_rows]; exact hm
  simp only [tableOf, List.mem_map] at hm'
  obtain ⟨row, hrow, hrv⟩ := hm'
  have h1 := List.all_eq_true.1 names_spaced row hrow
  have h2 : textOf row.2 = a.2 := congrArg Prod.snd hrv
  rw [h2, Bool.and_eq_true] at h1
  unfold expandToken expansion?
  rw [show (mkToken latinEnv.U a.2 true).value = a.2 from rfl, lookup_spaced h1.1]
  simp only [lookup_spaced h1.2]

theorem sampleEnv_good : GoodTable latinEnv contractionMappings :=
  ⟨fun _ _ _ => rfl, fun k x hx => (C24_well_formed k x hx).1⟩

/-- **C128 (violated).** "we'll Barton" names the player Will Barton if contractions are expanded before the players are
looked for. -/
theorem C128_violated : ¬ C128_full playersArgs latinEnv ∧
    (expand latinEnv (currentPlayers latinEnv (listStream [lw "we'll", lw " ", lw "Barton"] .eof))).Yields
      [lw "we", lw " ", lw "will", lw " ", lw "Barton"] .eof ∧
    (currentPlayers latinEnv (expand latinEnv (listStream [lw "we'll", lw " ", lw "Barton"] .eof))).Yields
      [lw "we", lw " ", lc "Will Barton"] .eof := by
  have h0 := listStream_yields [lw "we'll", lw " ", lw "Barton"] .eof
  have hx : [lw "we'll", lw " ", lw "Barton"].flatMap (expandToken latinEnv contractionMappings) =
      [lw "we", lw " ", lw "will", lw " ", lw "Barton"] := by decide +kernel
  have y1 := expandWith_yields latinEnv_lawful sampleEnv_good (strangers (by decide +kernel) h0)
  have y2 := expandWith_yields latinEnv_lawful sampleEnv_good h0
  rw [hx] at y1 y2
  have hm := mem_nba (row := (n!"Will Barton", n!"Will Barton")) 1 rfl (by decide +kernel)
  have htx : textOf n!"Will Barton" = str "Will Barton" := by decide +kernel
  simp only [htx] at hm
  have he : ([lw "Will", lw " ", lw "Barton"], str "Will Barton") ∈ entries latinEnv nbaMappings := by
    simp only [entries, List.mem_flatMap, List.mem_map]
    exact ⟨_, hm, _, by decide +kernel, rfl⟩
  have hd : nbaDict latinEnv ((nbaCompare latinEnv).spell [lw "will", lw " ", lw "Barton"]) = some (str "Will Barton") := by
    rw [show (nbaCompare latinEnv).spell [lw "will", lw " ", lw "Barton"] =
      (nbaCompare latinEnv).normal (runes (str "Will Barton")) by decide +kernel]
    exact (nba_folded latinEnv_lowers latinEnv_nba hm).1
  have hw := wordLimit_ge he
  rw [show words ([lw "Will", lw " ", lw "Barton"], str "Will Barton").1 = words [lw "will", lw " ", lw "Barton"] by
    decide +kernel] at hw
  have hg := greedy_whole (m := wordLimit (entries latinEnv nbaMappings)) (C := nbaCompare latinEnv)
    (D := nbaDict latinEnv) (first := lw "will") (mid := [lw " ", lw "Barton"]) (last := lw "Barton")
    (l := [lw "will", lw " "]) rfl (by decide +kernel) (by decide +kernel) (by decide +kernel) (by decide +kernel)
    hw hd
  rw [show canonTokens (nbaCompare latinEnv).U (str "Will Barton") = [lc "Will Barton"] by decide +kernel] at hg
  have z2 := players_yields latinEnv_lawful latinEnv_nba y2 (out := [lw "we", lw " ", lc "Will Barton"]) (by
    refine .word (by decide +kernel) (fun k hk => nbaDict_none latinEnv_lowers latinEnv_nba ?_)
      (.separator (by decide +kernel) hg)
    have key : ∀ k < 6, 1 ≤ k → nbaTree.find (hash ((nbaCompare latinEnv).spell
        ([lw "we", lw " ", lw "will", lw " ", lw "Barton"].take k))) = none := by decide +kernel
    have h5 : k ≤ 5 := hk.le
    exact key k (by omega) hk.pos)
  refine ⟨fun h => ?_, y1, z2⟩
  obtain ⟨out, h1, h2⟩ := h players_unexpanded _ _ _ h0
  have := (h1.unique y1).1.symm.trans (h2.unique z2).1
  revert this
  decide +kernel

end Jargon
