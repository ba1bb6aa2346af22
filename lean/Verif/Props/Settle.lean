import Verif.Props.Barrier
import Verif.Props.Growth

/-! C118: what becomes of a text when the same synonyms filter is applied over and over. -/

namespace Jargon

/-! ### The specification -/

/-- A filter applied a number of times. -/
def again (f : Filter) : Nat → Filter
  | 0 => fun ts => ts
  | n + 1 => fun ts => again f n (f ts)

/-- The text that repeated application comes to and stays at: the same from a given number of passes on. -/
def SettlesIn (f : Filter) (passes : Nat) (ts : TokenStream) : Prop :=
  ∃ out, ∀ n, passes ≤ n → (again f n ts).Yields out .eof

/-- No canonical is empty, and each, as a token, is found again as a synonym of itself. -/
def SynArgs.OwnSynonyms (F : SynArgs) (E : Env) : Prop :=
  ∀ a ∈ entries E F.mappings, a.2 ≠ [] ∧
    (Compare.mk E.U F.ignoreCase F.ignore).dict (entries E F.mappings)
      ((Compare.mk E.U F.ignoreCase F.ignore).spell [mkToken E.U a.2 true]) = some a.2

/-! ### Lemmas -/

/-- A token that a pass by itself leaves as it is. -/
def Fixed (C : Compare) (D : Dict) (t : Token) : Prop :=
  D (C.spell [t]) = none ∨ ∃ c, D (C.spell [t]) = some c ∧ canonTokens C.U c = [t]

theorem single_admissible {m : Nat} (hm : 0 < m) {t : Token} (ht : t.IsWord) (ts : List Token) :
    Admissible m (t :: ts) 1 :=
  ⟨Nat.le_refl _, by simp, by intro x hx; simp at hx; rw [hx]; exact ht.1, hm⟩

/-- After one pass every word is fixed. -/
theorem Greedy.fixes {C : Compare} {D : Dict} {m : Nat} (hm : 0 < m)
    (hD : ∀ q c, D q = some c → c ≠ [] ∧ D (C.spell [mkToken C.U c true]) = some c)
    {toks out : List Token} (h : Greedy C D m toks out) : ∀ t ∈ out, t.IsWord → Fixed C D t := by
  induction h with
  | nil => simp
  | separator ht _ ih =>
    intro x hx hw
    rcases List.mem_cons.1 hx with rfl | hx
    · exact absurd hw ht
    · exact ih x hx hw
  | @replace t ts out k c ht hl _ ih =>
    obtain ⟨hc, hd⟩ := hD _ _ hl.isSyn
    intro x hx hw
    rw [canonTokens, if_neg hc] at hx
    rcases List.mem_append.1 hx with hx | hx
    · rw [List.mem_singleton.1 hx]
      exact .inr ⟨c, hd, by rw [canonTokens, if_neg hc]⟩
    · exact ih x hx hw
  | word ht hd _ ih =>
    intro x hx hw
    rcases List.mem_cons.1 hx with rfl | hx
    · exact .inl (hd 1 (single_admissible hm ht _))
    · exact ih x hx hw

theorem Greedy.length_le {C : Compare} {D : Dict} {m : Nat} {toks out : List Token}
    (h : Greedy C D m toks out) : out.length ≤ toks.length := by
  induction h with
  | nil => simp
  | separator _ _ ih | word _ _ _ ih => simpa using ih
  | @replace t ts out k c _ hl _ ih =>
    have h1 := hl.mem.pos
    have h2 := hl.mem.le
    have h3 : (canonTokens C.U c).length ≤ 1 := by unfold canonTokens; split <;> simp
    simp only [List.length_append, List.length_drop] at ih ⊢
    omega

/-- Where every word is fixed, a pass that merges nothing changes nothing. -/
theorem Greedy.same {C : Compare} {D : Dict} {m : Nat} (hD : ∀ q c, D q = some c → c ≠ [])
    {toks out : List Token} (h : Greedy C D m toks out) (hf : ∀ t ∈ toks, t.IsWord → Fixed C D t)
    (hl : out.length = toks.length) : out = toks := by
  induction h with
  | nil => rfl
  | separator _ _ ih | word _ _ _ ih =>
    rw [ih (fun t ht => hf t (by simp [ht])) (by simpa using hl)]
  | @replace t ts out k c ht hlg hg ih =>
    have h1 := hlg.mem.pos
    have h2 := hlg.mem.le
    have h3 := hg.length_le
    have hc := hD _ _ hlg.isSyn
    have h4 : (canonTokens C.U c).length = 1 := by rw [canonTokens, if_neg hc]; rfl
    simp only [List.length_append, List.length_drop] at h3 hl
    obtain rfl : k = 1 := by omega
    have hs := hlg.isSyn
    simp only [List.take_succ_cons, List.take_zero] at hs
    rcases hf t (by simp) ht with hn | ⟨c', hc', he⟩
    · rw [hn] at hs; exact nomatch hs
    · rw [hs] at hc'
      cases hc'
      rw [he]
      simp only [List.drop_succ_cons, List.drop_zero] at ih ⊢
      rw [ih (fun t ht => hf t (by simp [ht])) (by simp at hl; omega)]
      rfl

theorem again_succ (f : Filter) (n : Nat) (ts : TokenStream) : again f (n + 1) ts = again f n (f ts) := rfl

/-- A filter that is described by the specification settles. -/
theorem settles {f : Filter} {C : Compare} {D : Dict} {m : Nat} (hm : 0 < m)
    (hf : ∀ {ts : TokenStream} {toks out : List Token}, ts.Yields toks .eof → Greedy C D m toks out →
      (f ts).Yields out .eof)
    (hD : ∀ q c, D q = some c → c ≠ [] ∧ D (C.spell [mkToken C.U c true]) = some c)
    {ts : TokenStream} {toks : List Token} (h : ts.Yields toks .eof) : SettlesIn f (toks.length + 1) ts := by
  have stay : ∀ {ts : TokenStream} {toks : List Token}, ts.Yields toks .eof → Greedy C D m toks toks →
      ∀ n, (again f n ts).Yields toks .eof := by
    intro ts toks h hg n
    induction n generalizing ts with
    | zero => exact h
    | succ n ih => exact ih (hf h hg)
  have key : ∀ (l : Nat) {ts : TokenStream} {toks : List Token}, toks.length ≤ l → ts.Yields toks .eof →
      (∀ t ∈ toks, t.IsWord → Fixed C D t) → ∃ out, ∀ n, l ≤ n → (again f n ts).Yields out .eof := by
    intro l
    induction l with
    | zero =>
      intro ts toks hl h _
      obtain rfl : toks = [] := List.length_eq_zero_iff.1 (by omega)
      exact ⟨[], fun n _ => stay h .nil n⟩
    | succ l ih =>
      intro ts toks hl h hfix
      obtain ⟨out, hg⟩ := Greedy.total C D m toks
      have hle := hg.length_le
      by_cases he : out.length = toks.length
      · obtain rfl := hg.same (fun q c hq => (hD q c hq).1) hfix he
        exact ⟨out, fun n _ => stay h hg n⟩
      · obtain ⟨last, hlast⟩ := ih (by omega) (hf h hg) (hg.fixes hm hD)
        refine ⟨last, fun n hn => ?_⟩
        obtain ⟨n, rfl⟩ : ∃ j, n = j + 1 := ⟨n - 1, by omega⟩
        exact hlast n (by omega)
  obtain ⟨out, hg⟩ := Greedy.total C D m toks
  obtain ⟨last, hlast⟩ := key toks.length hg.length_le (hf h hg) (hg.fixes hm hD)
  refine ⟨last, fun n hn => ?_⟩
  obtain ⟨n, rfl⟩ : ∃ j, n = j + 1 := ⟨n - 1, by omega⟩
  exact hlast n (by omega)

/-! ### C118 -/

/-- **C118.** A synonyms filter whose canonicals are synonyms of themselves, applied over and over, settles: from
one pass more than the text has tokens, the passes change nothing any more. -/
theorem C118_settles {E : Env} (hE : E.Lawful) {F : SynArgs} (hF : F.Scans E) (ho : F.OwnSynonyms E)
    {ts : TokenStream} {toks : List Token} (h : ts.Yields toks .eof) :
    SettlesIn (F.filter E) (toks.length + 1) ts := by
  refine settles (C := ⟨E.U, F.ignoreCase, F.ignore⟩)
    (D := (Compare.mk E.U F.ignoreCase F.ignore).dict (entries E F.mappings)) (wordLimit_pos _)
    (fun hy hg => SynArgs.Greedy.yields hE hF hg hy) ?_ h
  intro q c hq
  obtain ⟨a, ha, -, rfl⟩ := dict_some hq
  exact ho a ha

/-- **C118 (Stack Overflow).** Tagging over and over settles. -/
theorem C118_tags {E : Env} (hE : E.Lawful) (hU : E.U.LowersLatin) (hP : E.U.PlainNotPunct)
    (hk : ∀ m ∈ stackOverflowMappings, E.CutsCommas m.1) {ts : TokenStream} {toks : List Token}
    (h : ts.Yields toks .eof) : SettlesIn (tags E) (toks.length + 1) ts := by
  refine settles (C := tagCompare E) (D := tagDict E) (wordLimit_pos _)
    (fun hy hg => tags_yields hE hk hy hg) ?_ h
  intro q c hd
  obtain ⟨a, ha, -, rfl⟩ := dict_some hd
  simp only [entries, List.mem_flatMap, List.mem_map] at ha
  obtain ⟨⟨k, v⟩, hm, s, -, rfl⟩ := ha
  have hw := mkToken_word hP true (row_plain soRows_plain (stackOverflow_rows ▸ hm))
  refine ⟨hw.2, ?_⟩
  have hds := dict_self hU so_all (stackOverflow_rows ▸ hk) soRows_self (stackOverflow_rows ▸ hm)
  rw [tagDict, stackOverflow_rows]
  simpa [Compare.spell, mkToken, tagCompare] using hds

/-- **C118 (NBA).** So does looking for players. -/
theorem C118_players {E : Env} (hE : E.Lawful) (hU : E.U.LowersLatin) (hP : E.U.PlainNotPunct)
    (hk : ∀ m ∈ nbaMappings, E.CutsCommas m.1) {ts : TokenStream} {toks : List Token}
    (h : ts.Yields toks .eof) : SettlesIn (currentPlayers E) (toks.length + 1) ts := by
  refine settles (C := nbaCompare E) (D := nbaDict E) (wordLimit_pos _)
    (fun hy hg => players_yields hE hk hy hg) ?_ h
  intro q c hd
  obtain ⟨a, ha, -, rfl⟩ := dict_some hd
  simp only [entries, List.mem_flatMap, List.mem_map] at ha
  obtain ⟨⟨k, v⟩, hm, s, -, rfl⟩ := ha
  have hw := mkToken_word hP true (row_plain nbaRows_plain (nba_rows ▸ hm))
  refine ⟨hw.2, ?_⟩
  have hds := dict_self hU nba_all (nba_rows ▸ hk) nbaRows_self (nba_rows ▸ hm)
  rw [nbaDict, nba_rows]
  simpa [Compare.spell, mkToken, nbaCompare] using hds

/-- Non-vacuity: "java applets" takes two passes and stays at "applet". -/
example : ∀ n, 2 ≤ n → (again (tags latinEnv) n (listStream [lw "java", lw " ", lw "applets"] .eof)).Yields
    [lc "applet"] .eof := by
  have h1 := tags_yields latinEnv_lawful latinEnv_so (listStream_yields [lw "java", lw " ", lw "applets"] .eof)
    java_applets_once
  have h2 := tags_yields latinEnv_lawful latinEnv_so h1 java_applets_twice
  have hm : (str "java applet, applets", str "applet") ∈ stackOverflowMappings := by
    rw [stackOverflow_rows]
    refine List.mem_map.mpr ⟨(n!"java applet, applets", n!"applet"), mem_so 4 rfl ?_, ?_⟩ <;> decide +kernel
  have stay : ∀ n {ts : TokenStream}, ts.Yields [lc "applet"] .eof →
      (again (tags latinEnv) n ts).Yields [lc "applet"] .eof := by
    intro n
    induction n with
    | zero => exact fun h => h
    | succ n ih =>
      exact fun h => ih (C56_stackoverflow_canonicals latinEnv_lawful latinEnv_lowers latinEnv_plain latinEnv_so hm h)
  intro n hn
  obtain ⟨n, rfl⟩ : ∃ j, n = j + 2 := ⟨n - 2, by omega⟩
  exact stay n h2

/-- Two words that stand for each other. -/
private def swap : SynArgs := ⟨[(str "js", str "ror"), (str "ror", str "js")], false, []⟩

private def w (s : String) : Token := mkToken asciiUnicode (str s) false
private def c (s : String) : Token := mkToken asciiUnicode (str s) true

private theorem swap_once {t : Token} {v : Bytes} (ht : t.IsWord)
    (hv : (Compare.mk sampleEnv.U false []).dict (entries sampleEnv swap.mappings)
      ((Compare.mk sampleEnv.U false []).spell [t]) = some v) (hne : v ≠ []) {ts : TokenStream}
    (h : ts.Yields [t] .eof) : (swap.filter sampleEnv ts).Yields [mkToken asciiUnicode v true] .eof := by
  have hg : swap.Greedy sampleEnv [t] (canonTokens asciiUnicode v ++ []) := by
    refine .replace (k := 1) ht ⟨single_admissible (wordLimit_pos _) ht [], hv, ?_, ?_⟩ .nil
    · intro j hj hlt; have := hj.le; simp at this; omega
    · intro j hj hlt; have := hj.pos; omega
  rw [canonTokens, if_neg hne] at hg
  exact hg.yields sampleEnv_lawful (fun _ _ => rfl) h

-- a mapping that meets the condition
example : SynArgs.OwnSynonyms ⟨[(str "js", str "javascript"), (str "javascript", str "javascript")], true, []⟩
    sampleEnv := by
  unfold SynArgs.OwnSynonyms
  decide +kernel

/-- **C118: the condition is needed.** Where two words stand for each other, a text of one of them never settles. -/
theorem C118_swap_never_settles : ∃ (F : SynArgs) (toks : List Token), F.Scans sampleEnv ∧
    ∀ passes, ¬ SettlesIn (F.filter sampleEnv) passes (listStream toks .eof) := by
  refine ⟨swap, [c "js"], fun _ _ => rfl, ?_⟩
  have js : ∀ {ts : TokenStream}, ts.Yields [c "js"] .eof → (swap.filter sampleEnv ts).Yields [c "ror"] .eof :=
    fun h => swap_once (by decide +kernel) (by decide +kernel) (by decide +kernel) h
  have ror : ∀ {ts : TokenStream}, ts.Yields [c "ror"] .eof → (swap.filter sampleEnv ts).Yields [c "js"] .eof :=
    fun h => swap_once (by decide +kernel) (by decide +kernel) (by decide +kernel) h
  have both : ∀ n {ts : TokenStream}, ts.Yields [c "js"] .eof →
      (again (swap.filter sampleEnv) (2 * n) ts).Yields [c "js"] .eof := by
    intro n
    induction n with
    | zero => exact fun h => h
    | succ n ih => exact fun h => ih (ror (js h))
  have odd : ∀ n {ts : TokenStream}, ts.Yields [c "ror"] .eof →
      (again (swap.filter sampleEnv) (2 * n) ts).Yields [c "ror"] .eof := by
    intro n
    induction n with
    | zero => exact fun h => h
    | succ n ih => exact fun h => ih (js (ror h))
  rintro passes ⟨out, ho⟩
  have h := listStream_yields [c "js"] .eof
  have e1 := ((ho (2 * passes) (by omega)).unique (both passes h)).1
  have e2 := ((ho (2 * passes + 1) (by omega)).unique (odd passes (js h))).1
  exact absurd (e1.symm.trans e2) (by decide +kernel)

end Jargon
