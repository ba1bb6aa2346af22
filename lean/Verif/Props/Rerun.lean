import Verif.Props.LineByLine
import Verif.Props.Uax29Text
import Verif.Proofs.WordReplace

/-! C98: the program leaves its own output as it is. -/

namespace Jargon

/-- The program, with these filters, writes `out` for this text. -/
def Rewrites {ω : Type} (W : World (ω × Bytes)) (fl : List FilterFlag) (text out : Bytes) : Prop :=
  Writes { W with stdin := { data := text } } (fl.map fun f => str "-" ++ f.name) out

/-- **C98, as one would like it.** What the program has written it leaves as it is, with the same filters. -/
def C98_full [HtmlReader] (E : Env) (cls : WordTable) : Prop := ∀ (ω : Type) (w : Place → Writer ω) (W : World (ω × Bytes)) (input : Bytes),
  Piped w W input → W.E = E → ∀ (fl : List FilterFlag) (text out : Bytes), Fits cls text → Fits cls out →
  Rewrites W fl text out → Rewrites W fl out out

/-- Only letters have a letter of ASCII as their lower case. -/
def LowersLetters (U : Unicode) (cls : WordTable) : Prop :=
  ∀ r, (0x61 ≤ U.toLower r ∧ U.toLower r ≤ 0x7A) ∨ (0x41 ≤ U.toLower r ∧ U.toLower r ≤ 0x5A) → cls r = (.letter, false)

/-! ### the command line -/

theorem parse_filters (fl : List FilterFlag) : parseFlags (fl.map fun f => str "-" ++ f.name) =
    .ok (fl.map fun f => (f.name, FlagValue.bool true)) := by
  induction fl with
  | nil => rw [List.map_nil, parseFlags]; rfl
  | cons f fl ih =>
    simp only [List.map_cons]
    rw [parse_bool _ (by cases f <;> decide +kernel), ih]
    rfl

theorem filters_values (fl : List FilterFlag) (v : Flags) :
    (fl.map fun f => (f.name, FlagValue.bool true)).foldl setFlag v = v := by
  induction fl with
  | nil => rfl
  | cons f fl ih => rw [List.map_cons, List.foldl_cons, setFlag_filter, ih]

/-- What the program writes without `-lines` and `-count`: the tokens, one after the other. -/
theorem rewrites_tokens [HtmlReader] {ω : Type} {w : Place → Writer ω} {W : World (ω × Bytes)} {input : Bytes} (hW : Piped w W input)
    {fl : List FilterFlag} {txt : Bytes} {toks : List Token}
    (h : ((tokenize W.E { data := txt }).filter (fl.map fun f => (f.filter W.snowball .english).apply W.E)).Yields toks .eof) :
    Rewrites W fl txt (text toks) := by
  have hf : (fl.map fun f => str "-" ++ f.name).filterMap flagOf = fl := by
    rw [List.filterMap_map]
    have : flagOf ∘ (fun f : FilterFlag => str "-" ++ f.name) = some := by
      funext f
      cases f <;> decide +kernel
    rw [this, List.filterMap_some]
  have hv : flagValues (fl.map fun f => (f.name, FlagValue.bool true)) = {} := by
    exact filters_values fl {}
  obtain ⟨mode, hm, ht⟩ := hW.pipe
  have hy : (programStream { W with stdin := { data := txt } } {} (fl.map fun f => str "-" ++ f.name)
      .english (World.source { W with stdin := { data := txt } } W.fs .std)).Yields toks .eof := by
    simp only [programStream, World.source, hf]
    exact h
  obtain ⟨out, exit, b, k1, k2, -, -, k5, k6⟩ := C49_program (fun p => (hW.writes p).lawful)
    { W with stdin := { data := txt } } hW.writer
    {} rfl (fl.map fun f => str "-" ++ f.name) hm
    (src := .std) (dst := .std) (fs := W.fs) (l := .english)
    (by simp [inputChoice, named, ht]) (by simp [outputChoice, named])
    (show langOf (str "english") = _ by decide +kernel) (by intro i hi; cases hi) hy
  have hx : exit = .success := k6 (hW.writes .std)
  subst hx
  have ho : out = text toks := by
    simp only [IsOutput, Bool.false_eq_true, ↓reduceIte, cliText, List.append_nil] at k1
    exact k1
  subst ho
  refine ⟨b, ?_, (k5 rfl).2⟩
  rw [jargonMain, parse_filters]
  simp only [hv, k2, Go.ret_bind, Go.pure_eq]

theorem Rewrites.unique {ω : Type} {W : World (ω × Bytes)} {fl : List FilterFlag} {text out out' : Bytes}
    (h : Rewrites W fl text out) (h' : Rewrites W fl text out') : out = out' := Writes.unique h h'

variable {E : Env} {cls : WordTable}

theorem fits_yields (hE : E.Lawful) (hF : E.FollowsUax29 cls) {s : Bytes} (hs : Fits cls s) :
    (tokenize E { data := s }).Yields (segTokens E.U (wordSegs cls s)) .eof := by
  have := tokenize_yields E hE { data := s }
  rwa [hF s hs] at this

/-! ### -ascii -/

/-- What becomes of a word that is folded. -/
def foldOf (w : Bytes) : Option Bytes :=
  if (runes w).any flags then some (encodeRunes ((runes w).flatMap folded)) else none

theorem foldOf_value (U : Unicode) (w : Bytes) : (foldToken U (mkToken U w false)).value = (foldOf w).getD w := by
  have e : (mkToken U w false).value = w := rfl
  rw [foldToken, foldOf, e, foldString_eq]
  cases (runes w).any flags <;> rfl

theorem foldOf_flags (w : Bytes) : ∀ r ∈ runes ((foldOf w).getD w), flags r = false := by
  intro r hr
  rw [foldOf] at hr
  split at hr
  · rw [Option.getD_some, runes_encodeRunes (folded_valid (runes_valid w))] at hr
    rw [Bool.eq_false_iff]
    exact fun h => ((flags_iff r).1 h).1 (equivalent_folded hr)
  · rename_i hf
    rw [Option.getD_none] at hr
    rw [Bool.eq_false_iff]
    exact fun h => hf (List.any_eq_true.2 ⟨r, hr, h⟩)

theorem foldOf_whole (w x : Bytes) (h : foldOf w = some x) : Whole x := by
  rw [foldOf] at h
  split at h
  · rename_i hf
    cases h
    refine whole_encodeRunes (folded_valid (runes_valid w)) fun he => ?_
    obtain ⟨r, hr, -⟩ := List.any_eq_true.1 hf
    rw [List.flatMap_eq_nil_iff] at he
    exact folded_ne_nil r (he r hr)
  · cases h

theorem text_fold (U : Unicode) (ws : List Bytes) :
    text ((segTokens U ws).map (foldToken U)) = ws.flatMap fun w => (foldOf w).getD w := by
  rw [text, segTokens, List.map_map, List.flatMap_map]
  exact List.flatMap_congr fun w _ => foldOf_value U w

theorem word_runes {s w : Bytes} (hw : w ∈ wordSegs cls s) : ∀ r ∈ runes w, r ∈ runes s := by
  intro r hr
  rw [wordSegs, List.mem_map] at hw
  obtain ⟨g, hg, rfl⟩ := hw
  have hgs : (cutWords (fun p : Rune × Bytes => cls p.1) [] (runeBytes s)).flatten = runeBytes s :=
    cutWords_flatten _ _
  obtain ⟨a, b, hab⟩ := List.append_of_mem hg
  rw [hab] at hgs
  rw [runes_part (s := s) (x := a.flatten) (z := b.flatten) (by rw [← hgs]; simp)] at hr
  rw [← runeBytes_fst, ← hgs]
  simp only [List.map_append, List.mem_append, List.flatten_append, List.flatten_cons]
  exact .inr (.inl hr)

/-- **C98, partial (-ascii).** What the program has folded it leaves as it is. -/
theorem C98_ascii_partial [HtmlReader] (hE : E.Lawful) (hF : E.FollowsUax29 cls) {ω : Type} {w : Place → Writer ω}
    {W : World (ω × Bytes)} {input : Bytes} (hW : Piped w W input) (hWE : W.E = E) {txt out : Bytes} (ht : Fits cls txt)
    (ho : Fits cls out) (h : Rewrites W [.ascii] txt out) : Rewrites W [.ascii] out out := by
  subst hWE
  have h1 := rewrites_tokens hW (fl := [.ascii]) (asciiFold_yields W.E.U (fits_yields hE hF ht))
  have h2 := rewrites_tokens hW (fl := [.ascii]) (asciiFold_yields W.E.U (fits_yields hE hF ho))
  rw [text_fold] at h1 h2
  have hout := h.unique h1
  have hno : ∀ r ∈ runes out, flags r = false := by
    intro r hr
    rw [hout, runes_replace foldOf_whole] at hr
    obtain ⟨v, -, hr⟩ := List.mem_flatMap.1 hr
    exact foldOf_flags v r hr
  have : (wordSegs cls out).flatMap (fun w => (foldOf w).getD w) = out := by
    conv_rhs => rw [← wordSegs_flatten cls out]
    rw [← List.flatMap_id]
    refine List.flatMap_congr fun v hv => ?_
    have : (runes v).any flags = false := by
      rw [List.any_eq_false]
      intro r hr
      rw [hno r (word_runes hv r hr)]
      simp
    simp [foldOf, this]
  rwa [this] at h2

/-! ### -contractions -/

/-- A letter of ASCII. -/
def letterB (r : Nat) : Bool := Nat.ble 0x61 r && Nat.ble r 0x7A || Nat.ble 0x41 r && Nat.ble r 0x5A

theorem contraction_letters : contractionRows.all (fun row =>
    (runesB row.1).head?.any letterB && (runesB row.1).getLast?.any letterB &&
      ((natsOf row.2).head?.any letterB && (natsOf row.2).getLast?.any letterB)) = true := by
  decide +kernel

theorem letterB_letter (hR : cls.Right) {r : Nat} (h : letterB r = true) : r < 0x80 ∧ cls r = (.letter, false) := by
  have hr : r < 0x80 := by
    simp only [letterB, Bool.or_eq_true, Bool.and_eq_true, Nat.ble_eq] at h
    omega
  refine ⟨hr, ?_⟩
  have : ∀ r < 0x80, letterB r = true → r ≠ 0x3A ∧ latinWB r = (.letter, false) := by decide +kernel
  obtain ⟨h1, h2⟩ := this r hr h
  rw [hR.latin r (by omega) h1, h2]

theorem head_map {α β : Type} {f : α → β} {l : List α} {b : β} (h : (l.map f).head? = some b) :
    ∃ a y, l = a :: y ∧ f a = b := by
  cases l with
  | nil => cases h
  | cons a y => exact ⟨a, y, rfl, by simpa using h⟩

theorem last_map {α β : Type} {f : α → β} {l : List α} {b : β} (h : (l.map f).getLast? = some b) :
    ∃ z a, l = z ++ [a] ∧ f a = b := by
  rcases l.eq_nil_or_concat with rfl | ⟨z, a, rfl⟩
  · cases h
  · exact ⟨z, a, by simp, by simpa using h⟩

theorem contraction_ends (hR : cls.Right) {k x : Bytes} (h : (k, x) ∈ contractionMappings) :
    (∃ r, (runes k).head? = some r ∧ letterB r = true) ∧ (∃ r, (runes k).getLast? = some r ∧ letterB r = true) ∧
      LetteredText cls x := by
  obtain ⟨row, hrow, rfl, rfl⟩ := mem_mappings.1 h
  have := List.all_eq_true.1 contraction_letters row hrow
  simp only [runesB_eq, ← textOf_toNat, Bool.and_eq_true, Option.any_eq_true] at this
  obtain ⟨⟨h1, h2⟩, ⟨b, hb, hb'⟩, c, hc, hc'⟩ := this
  refine ⟨h1, h2, ?_, ?_⟩
  · obtain ⟨a, y, e, rfl⟩ := head_map hb
    exact ⟨a, y, e, letterB_letter hR hb'⟩
  · obtain ⟨z, a, e, rfl⟩ := last_map hc
    exact ⟨z, a, e, letterB_letter hR hc'⟩

/-- The rune that is written for a number. -/
def writtenRune (r : Nat) : Nat := if ValidRune r then r else runeError

theorem runes_encode (rs : List Nat) : runes (encodeRunes rs) = rs.map writtenRune := by
  have h1 : encodeRunes rs = encodeRunes (rs.map writtenRune) := by
    rw [encodeRunes, encodeRunes, List.flatMap_map]
    refine List.flatMap_congr fun r _ => ?_
    rw [writtenRune]
    by_cases h : ValidRune r
    · rw [if_pos h]
    · rw [if_neg h, encodeRune, if_neg h, encodeRune, if_pos validRune_runeError]
  rw [h1, runes_encodeRunes]
  intro r hr
  obtain ⟨a, -, rfl⟩ := List.mem_map.1 hr
  rw [writtenRune]
  split
  · assumption
  · exact validRune_runeError

theorem written_letter {r : Nat} (h : letterB (writtenRune r) = true) : letterB r = true := by
  rw [writtenRune] at h
  split at h
  · exact h
  · exact absurd h (by decide)

/-- A word that is expanded begins and ends with letters. -/
theorem expanded_lettered (hR : cls.Right) (hL : LowersLetters E.U cls) {w x : Bytes}
    (h : expansion? E.U contractionMappings (mkToken E.U w false) = some x) :
    Lettered ((runes w).map cls) ∧ LetteredText cls x ∧ ∃ k, (k, x) ∈ contractionMappings := by
  have lettered : ∀ f : Nat → Nat, (∀ r, letterB (f r) = true → cls r = (.letter, false)) → ∀ k,
      runes k = (runes w).map f → (k, x) ∈ contractionMappings →
      Lettered ((runes w).map cls) ∧ LetteredText cls x ∧ ∃ k, (k, x) ∈ contractionMappings := by
    intro f hf k hk hm
    obtain ⟨⟨a, ha, ha'⟩, ⟨b, hb, hb'⟩, hx⟩ := contraction_ends hR hm
    rw [hk] at ha hb
    obtain ⟨r, y, e, rfl⟩ := head_map ha
    obtain ⟨z, s, e', rfl⟩ := last_map hb
    refine ⟨⟨⟨y.map cls, ?_⟩, z.map cls, ?_⟩, hx, k, hm⟩
    · rw [e, List.map_cons, hf r ha']
    · rw [e', List.map_append, List.map_singleton, hf s hb']
  have e : (mkToken E.U w false).value = w := rfl
  rw [expansion?, e] at h
  cases h0 : contractionMappings.lookup w with
  | some y =>
    rw [h0] at h
    cases h
    exact lettered id (fun r hr => (letterB_letter hR hr).2) w (by simp) (lookup_mem h0)
  | none =>
    rw [h0] at h
    refine lettered (fun r => writtenRune (E.U.toLower r)) (fun r hr => hL r ?_) _ ?_ (lookup_mem h)
    · have := written_letter hr
      simp only [letterB, Bool.or_eq_true, Bool.and_eq_true, Nat.ble_eq] at this
      exact this
    · rw [Unicode.lowerString, runes_encode, List.map_map]
      rfl

/-- What becomes of a contraction. -/
def expandOf (U : Unicode) (w : Bytes) : Option Bytes := expansion? U contractionMappings (mkToken U w false)

theorem text_expand (hE : E.Lawful) (hg : GoodTable E contractionMappings) (ws : List Bytes) :
    text ((segTokens E.U ws).flatMap (expandToken E contractionMappings)) = ws.flatMap fun w => (expandOf E.U w).getD w := by
  rw [segTokens, List.flatMap_map, text, List.flatMap_assoc]
  refine List.flatMap_congr fun w _ => ?_
  rw [expandToken, expandOf]
  cases hx : expansion? E.U contractionMappings (mkToken E.U w false) with
  | none => simp [mkToken]
  | some x =>
    obtain ⟨k, hk⟩ : ∃ k, (k, x) ∈ contractionMappings := by
      unfold expansion? at hx
      cases h0 : contractionMappings.lookup (mkToken E.U w false).value with
      | some y => rw [h0] at hx; cases hx; exact ⟨_, lookup_mem h0⟩
      | none => rw [h0] at hx; exact ⟨_, lookup_mem hx⟩
    exact text_stringTokens hE (hg.scans k x hk)

/-- **C98, partial (-contractions).** What the program has expanded it leaves as it is. -/
theorem C98_contractions_partial [HtmlReader] (hE : E.Lawful) (hF : E.FollowsUax29 cls) (hR : cls.Right) (hU : E.U.LowersLatin)
    (hq : E.U.toLower 0x2019 = 0x2019) (hL : LowersLetters E.U cls) {ω : Type} {w : Place → Writer ω}
    {W : World (ω × Bytes)} {input : Bytes} (hW : Piped w W input) (hWE : W.E = E) {txt out : Bytes} (ht : Fits cls txt)
    (ho : Fits cls out) (h : Rewrites W [.contractions] txt out) : Rewrites W [.contractions] out out := by
  subst hWE
  have hg := (C76_scanner_laws hF hR).2.2.2
  have hA : ∀ r, r < 0x80 ∨ r = 0x2019 → W.E.U.toLower r = asciiLower r := by
    rintro r (hr | rfl)
    · have : ∀ r < 0x80, latinLower r = asciiLower r := by decide +kernel
      rw [hU r (by omega), this r hr]
    · rw [hq]; decide
  have h1 := rewrites_tokens hW (fl := [.contractions]) (expandWith_yields hE hg (fits_yields hE hF ht))
  have h2 := rewrites_tokens hW (fl := [.contractions]) (expandWith_yields hE hg (fits_yields hE hF ho))
  rw [text_expand hE hg] at h1 h2
  have hout := h.unique h1
  have hws : wordSegs cls out = (wordSegs cls txt).flatMap fun w => match expandOf W.E.U w with
      | none => [w]
      | some x => wordSegs cls x := by
    rw [hout]
    exact wordSegs_replace (fun k x hk => (expanded_lettered hR hL hk).2.1)
      fun w _ x hx => (expanded_lettered hR hL hx).1
  have : (wordSegs cls out).flatMap (fun w => (expandOf W.E.U w).getD w) = out := by
    conv_rhs => rw [← wordSegs_flatten cls out]
    rw [← List.flatMap_id]
    refine List.flatMap_congr fun v hv => ?_
    rw [hws] at hv
    obtain ⟨u, -, hv⟩ := List.mem_flatMap.1 hv
    have : expandOf W.E.U v = none := by
      cases hx : expandOf W.E.U u with
      | none =>
        simp only [hx, List.mem_singleton] at hv
        rw [hv, hx]
      | some x =>
        simp only [hx] at hv
        obtain ⟨k, hk⟩ := (expanded_lettered hR hL hx).2.2
        refine part_not_expanded hA hk ?_
        obtain ⟨a, b, hab⟩ := List.append_of_mem hv
        refine ⟨a.flatten, b.flatten, ?_⟩
        have := wordSegs_flatten cls x
        rw [hab] at this
        show a.flatten ++ v ++ b.flatten = x
        simpa using this
    rw [this]
    rfl
  rwa [this] at h2

/-! ### -lemmas, and no filters -/

/-- **C98, partial (-lemmas, and no filters).** Without other filters no token is a lemma. -/
theorem C98_lemmas_partial [HtmlReader] (hE : E.Lawful) (hF : E.FollowsUax29 cls) {ω : Type} {w : Place → Writer ω}
    {W : World (ω × Bytes)} {input : Bytes} (hW : Piped w W input) (hWE : W.E = E) {txt : Bytes} (ht : Fits cls txt) :
    Rewrites W [] txt txt ∧ Rewrites W [.lemmas] txt [] := by
  subst hWE
  have h1 := rewrites_tokens hW (fl := []) (fits_yields hE hF ht)
  have h2 := rewrites_tokens hW (fl := [.lemmas]) (C06_lemmas (fits_yields hE hF ht))
  rw [text_segTokens, wordSegs_flatten] at h1
  refine ⟨h1, ?_⟩
  have : (segTokens W.E.U (wordSegs cls txt)).filter (fun t => decide (t.lemma = true)) = [] := by
    rw [List.filter_eq_nil_iff]
    intro t ht
    obtain ⟨s, -, rfl⟩ := List.mem_map.1 ht
    simp [mkToken]
  rw [this] at h2
  exact h2

/-! ### where it does not -/

theorem pipe_rewrites [HtmlReader] {E : Env} {fl : List FilterFlag} {txt : Bytes} {toks : List Token}
    (h : ((tokenize E { data := txt }).filter (fl.map fun f => (f.filter (pipeWorld E []).snowball .english).apply E)).Yields toks .eof) :
    Rewrites (pipeWorld E []) fl txt (text toks) := rewrites_tokens (pipeWorld_piped E []) h

theorem uax_yields {txt : Bytes} {ws : List Bytes} (h : uaxEnv.scan { data := txt } = (ws, none)) :
    (tokenize uaxEnv { data := txt }).Yields (segTokens uaxEnv.U ws) .eof := by
  have := tokenize_yields uaxEnv uaxEnv_lawful { data := txt }
  rwa [h] at this

/-- **C98 is violated.** `-distinct` makes of "bab b ab" "bab bab", and of that "bab ". -/
theorem C98_violated [HtmlReader] : ¬ C98_full uaxEnv uaxTable ∧
    Rewrites (pipeWorld uaxEnv []) [.distinct] (str "bab b ab") (str "bab bab") ∧
    Rewrites (pipeWorld uaxEnv []) [.distinct] (str "bab bab") (str "bab ") := by
  have w1 := pipe_rewrites (fl := [.distinct]) (distinct_yields (uax_yields (txt := str "bab b ab")
    (ws := [str "bab", str " ", str "b", str " ", str "ab"]) (by decide +kernel)))
  have w2 := pipe_rewrites (fl := [.distinct]) (distinct_yields (uax_yields (txt := str "bab bab")
    (ws := [str "bab", str " ", str "bab"]) (by decide +kernel)))
  rw [show text (firsts (segTokens uaxEnv.U [str "bab", str " ", str "b", str " ", str "ab"])) = str "bab bab" by
    decide +kernel] at w1
  rw [show text (firsts (segTokens uaxEnv.U [str "bab", str " ", str "bab"])) = str "bab " by decide +kernel] at w2
  refine ⟨fun h => ?_, w1, w2⟩
  have := h Unit _ _ _ (pipeWorld_piped uaxEnv []) rfl [.distinct] _ _ (.inl (by decide +kernel)) (.inl (by decide +kernel)) w1
  exact absurd (this.unique w2) (by decide +kernel)

/-- **C98 is violated, by filters that each would leave their output.** `-ascii -contractions` makes of "don′t", with a
prime, "don't", which it has cut into words before, and of that "do not"; `-contractions -ascii` does the same with
"dön't"; `-ascii -lemmas` makes of "é" "e", and of that nothing. -/
theorem C98_violated_together [HtmlReader] :
    (Rewrites (pipeWorld uaxEnv []) [.ascii, .contractions] (str "don′t") (str "don't") ∧
      Rewrites (pipeWorld uaxEnv []) [.ascii, .contractions] (str "don't") (str "do not")) ∧
    (Rewrites (pipeWorld uaxEnv []) [.contractions, .ascii] (str "dön't") (str "don't") ∧
      Rewrites (pipeWorld uaxEnv []) [.contractions, .ascii] (str "don't") (str "do not")) ∧
    (Rewrites (pipeWorld uaxEnv []) [.ascii, .lemmas] (str "é") (str "e") ∧
      Rewrites (pipeWorld uaxEnv []) [.ascii, .lemmas] (str "e") []) := by
  have hg := (C76_scanner_laws uaxEnv_follows uaxTable_right).2.2.2
  have ac : ∀ {txt out : Bytes} {ws : List Bytes}, uaxEnv.scan { data := txt } = (ws, none) →
      text (((segTokens uaxEnv.U ws).map (foldToken uaxEnv.U)).flatMap (expandToken uaxEnv contractionMappings)) = out →
      Rewrites (pipeWorld uaxEnv []) [.ascii, .contractions] txt out := fun h e =>
    e ▸ pipe_rewrites (fl := [.ascii, .contractions]) (expandWith_yields uaxEnv_lawful hg (asciiFold_yields _ (uax_yields h)))
  have ca : ∀ {txt out : Bytes} {ws : List Bytes}, uaxEnv.scan { data := txt } = (ws, none) →
      text (((segTokens uaxEnv.U ws).flatMap (expandToken uaxEnv contractionMappings)).map (foldToken uaxEnv.U)) = out →
      Rewrites (pipeWorld uaxEnv []) [.contractions, .ascii] txt out := fun h e =>
    e ▸ pipe_rewrites (fl := [.contractions, .ascii]) (asciiFold_yields _ (expandWith_yields uaxEnv_lawful hg (uax_yields h)))
  have al : ∀ {txt out : Bytes} {ws : List Bytes}, uaxEnv.scan { data := txt } = (ws, none) →
      text (((segTokens uaxEnv.U ws).map (foldToken uaxEnv.U)).filter fun t => decide (t.lemma = true)) = out →
      Rewrites (pipeWorld uaxEnv []) [.ascii, .lemmas] txt out := fun h e =>
    e ▸ pipe_rewrites (fl := [.ascii, .lemmas]) (C06_lemmas (asciiFold_yields _ (uax_yields h)))
  refine ⟨⟨ac (ws := [str "don", str "′", str "t"]) (by decide +kernel) (by decide +kernel),
      ac (ws := [str "don't"]) (by decide +kernel) (by decide +kernel)⟩,
    ⟨ca (ws := [str "dön't"]) (by decide +kernel) (by decide +kernel),
      ca (ws := [str "don't"]) (by decide +kernel) (by decide +kernel)⟩,
    al (ws := [str "é"]) (by decide +kernel) (by decide +kernel), al (ws := [str "e"]) (by decide +kernel) (by decide +kernel)⟩

/-- Words and canonicals. -/
def uw (s : String) : Token := mkToken uaxEnv.U (str s) false

def uc (s : String) : Token := mkToken uaxEnv.U (str s) true

theorem uax_so : ∀ m ∈ stackOverflowMappings, uaxEnv.CutsCommas m.1 := (C76_scanner_laws uaxEnv_follows uaxTable_right).2.1

theorem uax_java_dict : tagDict uaxEnv (str "java" |>.map UInt8.toNat) = some (str "java") ∧
    tagDict uaxEnv (str "applets" |>.map UInt8.toNat) = some (str "applet") ∧
    tagDict uaxEnv (str "javaapplet" |>.map UInt8.toNat) = some (str "applet") ∧
    tagDict uaxEnv (str "javaapplets" |>.map UInt8.toNat) = none := by
  have hso : ∀ m ∈ stackOverflowMappings, uaxEnv.CutsCommas m.1 := uax_so
  refine ⟨?_, ?_, ?_, ?_⟩
  · have := tagDict_some uaxEnv_lowers hso (row := (n!"java", n!"java")) (p := str "java" |>.map UInt8.toNat)
      (mem_so 4 rfl (by decide +kernel)) (by decide +kernel)
    rwa [show normalB stackOverflowIgnore (str "java" |>.map UInt8.toNat) = (str "java" |>.map UInt8.toNat)
      by decide +kernel, show textOf (n!"java", n!"java").2 = str "java" by decide +kernel] at this
  · have := tagDict_some uaxEnv_lowers hso (row := (n!"java applet, applets", n!"applet"))
      (p := str " applets" |>.map UInt8.toNat) (mem_so 4 rfl (by decide +kernel)) (by decide +kernel)
    rwa [show normalB stackOverflowIgnore (str " applets" |>.map UInt8.toNat) =
      (str "applets" |>.map UInt8.toNat) by decide +kernel,
      show textOf (n!"java applet, applets", n!"applet").2 = str "applet" by decide +kernel] at this
  · have := tagDict_some uaxEnv_lowers hso (row := (n!"java applet, applets", n!"applet"))
      (p := str "java applet" |>.map UInt8.toNat) (mem_so 4 rfl (by decide +kernel)) (by decide +kernel)
    rwa [show normalB stackOverflowIgnore (str "java applet" |>.map UInt8.toNat) =
      (str "javaapplet" |>.map UInt8.toNat) by decide +kernel,
      show textOf (n!"java applet, applets", n!"applet").2 = str "applet" by decide +kernel] at this
  · exact tagDict_none uaxEnv_lowers hso (by decide +kernel)

/-- One pass over "java applets" tags both words. -/
theorem uax_java_applets : Greedy (tagCompare uaxEnv) (tagDict uaxEnv)
    (wordLimit (entries uaxEnv stackOverflowMappings)) [uw "java", uw " ", uw "applets"]
    [uc "java", uw " ", uc "applet"] := by
  obtain ⟨h1, h2, -, h4⟩ := uax_java_dict
  have hpos := wordLimit_pos (entries uaxEnv stackOverflowMappings)
  have e1 : (tagCompare uaxEnv).spell [uw "java"] = (str "java").map UInt8.toNat := by decide +kernel
  have e2 : (tagCompare uaxEnv).spell [uw "java", uw " "] = (str "java").map UInt8.toNat := by
    decide +kernel
  have e3 : (tagCompare uaxEnv).spell [uw "java", uw " ", uw "applets"] =
      (str "javaapplets").map UInt8.toNat := by decide +kernel
  have e4 : (tagCompare uaxEnv).spell [uw "applets"] = (str "applets").map UInt8.toNat := by decide +kernel
  have hc1 : canonTokens (tagCompare uaxEnv).U (str "java") = [uc "java"] := by decide +kernel
  have hc2 : canonTokens (tagCompare uaxEnv).U (str "applet") = [uc "applet"] := by decide +kernel
  have last : Greedy (tagCompare uaxEnv) (tagDict uaxEnv)
      (wordLimit (entries uaxEnv stackOverflowMappings)) [uw "applets"] [uc "applet"] := by
    have := Greedy.replace (C := tagCompare uaxEnv) (D := tagDict uaxEnv)
      (maxWords := wordLimit (entries uaxEnv stackOverflowMappings)) (t := uw "applets") (ts := [])
      (out := []) (k := 1) (canonical := str "applet") (by decide +kernel)
      ⟨⟨by simp, by simp, by decide +kernel, hpos⟩, ?_, ?_, ?_⟩ .nil
    · rw [hc2] at this; exact this
    · show tagDict uaxEnv ((tagCompare uaxEnv).spell [uw "applets"]) = _
      rw [e4]; exact h2
    · intro j hj hlt; have := hj.le; simp at this; omega
    · intro j hj hlt; have := hj.pos; omega
  have mid := Greedy.separator (t := uw " ") (by decide +kernel) last
  have := Greedy.replace (C := tagCompare uaxEnv) (D := tagDict uaxEnv)
    (maxWords := wordLimit (entries uaxEnv stackOverflowMappings)) (t := uw "java")
    (ts := [uw " ", uw "applets"]) (k := 1) (canonical := str "java") (by decide +kernel)
    ⟨⟨by simp, by simp, by decide +kernel, hpos⟩, ?_, ?_, ?_⟩ mid
  · rw [hc1] at this; exact this
  · show tagDict uaxEnv ((tagCompare uaxEnv).spell [uw "java"]) = _
    rw [e1]; exact h1
  · intro j hj hlt hd
    have := hj.le
    simp only [List.length_cons, List.length_nil] at this
    rcases (by omega : j = 2 ∨ j = 3) with rfl | rfl
    · exact e2.trans e1.symm
    · exfalso
      apply hd
      show tagDict uaxEnv ((tagCompare uaxEnv).spell [uw "java", uw " ", uw "applets"]) = _
      rw [e3]; exact h4
  · intro j hj hlt; have := hj.pos; omega

/-- **C98 is violated, by -stack.** It makes of "java applets" "java applet", and of that "applet". -/
theorem C98_violated_stack [HtmlReader] :
    Rewrites (pipeWorld uaxEnv []) [.stack] (str "java applets") (str "java applet") ∧
      Rewrites (pipeWorld uaxEnv []) [.stack] (str "java applet") (str "applet") := by
  have hlim : wordLimit (entries uaxEnv stackOverflowMappings) = 5 := by
    rw [stackOverflow_rows]; exact so_limit_eq uaxEnv_follows uaxTable_right uaxEnv_punct
  have run : ∀ {txt out : Bytes} {ws : List Bytes} {o : List Token}, uaxEnv.scan { data := txt } = (ws, none) →
      Greedy (tagCompare uaxEnv) (tagDict uaxEnv) (wordLimit (entries uaxEnv stackOverflowMappings))
        (segTokens uaxEnv.U ws) o → text o = out →
      Rewrites (pipeWorld uaxEnv []) [.stack] txt out := fun h hg e =>
    e ▸ pipe_rewrites (fl := [.stack]) (tags_yields uaxEnv_lawful uax_so (uax_yields h) hg)
  refine ⟨run (ws := [str "java", str " ", str "applets"]) (by decide +kernel) uax_java_applets (by decide +kernel),
    run (ws := [str "java", str " ", str "applet"]) (o := canonTokens uaxEnv.U (str "applet")) (by decide +kernel) ?_
      (by decide +kernel)⟩
  refine greedy_whole (first := uw "java") (mid := [uw " ", uw "applet"]) (l := [uw "java", uw " "]) (last := uw "applet") rfl
    (by decide +kernel) (by decide +kernel) (by decide +kernel) (by decide +kernel) (by rw [hlim]; decide +kernel) ?_
  rw [show (tagCompare uaxEnv).spell [uw "java", uw " ", uw "applet"] = (str "javaapplet").map UInt8.toNat by decide +kernel]
  exact uax_java_dict.2.2.1

theorem uaxEnv_letters : LowersLetters uaxEnv.U uaxTable := by
  intro r h
  by_cases hr : r < 0x180
  · rw [uaxEnv_lowers r hr] at h
    have : ∀ r < 0x180, (0x61 ≤ latinLower r ∧ latinLower r ≤ 0x7A) ∨ (0x41 ≤ latinLower r ∧ latinLower r ≤ 0x5A) →
        uaxTable r = (.letter, false) := by decide +kernel
    exact this r hr h
  · have : uaxEnv.U.toLower r = r := if_neg hr
    omega

-- The examples use one concrete reader of HTML.
attribute [local instance] sampleReader

/-- Non-vacuity. -/
example := C98_ascii_partial uaxEnv_lawful uaxEnv_follows (pipeWorld_piped uaxEnv []) rfl (txt := str "café") (out := str "cafe")
  (.inl (by decide +kernel)) (.inl (by decide +kernel))
  (by
    have := pipe_rewrites (fl := [.ascii]) (asciiFold_yields uaxEnv.U (uax_yields (txt := str "café") (ws := [str "café"]) (by decide +kernel)))
    rwa [show text ((segTokens uaxEnv.U [str "café"]).map (foldToken uaxEnv.U)) = str "cafe" by decide +kernel] at this)

example {txt out : Bytes} := C98_contractions_partial uaxEnv_lawful uaxEnv_follows uaxTable_right uaxEnv_lowers (by decide +kernel)
  uaxEnv_letters (pipeWorld_piped uaxEnv []) rfl (txt := txt) (out := out)

end Jargon
