import Verif.Props.Lines
import Verif.Props.Order
import Verif.Props.Markup

/-! C105: the tags of a text or a page, each once, and their number. -/

namespace Jargon

/-- A list without repetitions: of each element, the first. -/
def eachOnce : List Bytes → List Bytes
  | [] => []
  | c :: cs => c :: (eachOnce cs).filter (· ≠ c)

/-- With `-lines`, the program writes these, one per line; with `-count`, their number. -/
def ListsAndCounts {ω : Type} (W : World (ω × Bytes)) (html : Bool) (fl : List FilterFlag) (cs : List Bytes) : Prop :=
  Writes W (commandLine html fl "lines") (asLines cs) ∧
    ∃ ds, Decimal cs.length ds ∧ Writes W (commandLine html fl "count") (ds ++ [0x0A])

theorem firsts_values {U : Unicode} (cs : List Bytes) :
    (firsts (cs.map fun c => mkToken U c true)).map Token.value = eachOnce cs := by
  induction cs with
  | nil => rfl
  | cons c cs ih =>
    rw [List.map_cons, firsts, eachOnce, List.map_cons, ← ih, List.filter_map]
    rfl

section
variable {E : Env} {cls : WordTable}

/-- A tag is a synonym of itself. -/
theorem tagDict_self (hF : E.FollowsUax29 cls) (hR : cls.Right) (hU : E.U.LowersLatin) {q : List Rune} {c : Bytes}
    (h : tagDict E q = some c) : tagDict E ((tagCompare E).normal (runes c)) = some c := by
  have hk := (C76_scanner_laws hF hR).2.1
  rw [tagDict, stackOverflow_rows] at h
  obtain ⟨b, hb, -, rfl⟩ := dict_some h
  simp only [entries, List.mem_flatMap, List.mem_map] at hb
  obtain ⟨m, hm, -, -, rfl⟩ := hb
  rw [stackOverflow_rows] at hk
  rw [tagDict, stackOverflow_rows]
  exact dict_self hU so_all hk soRows_self hm

theorem tagDict_word (hP : E.U.PunctLatin) {q : List Rune} {c : Bytes} (h : tagDict E q = some c) (l : Bool) :
    (mkToken E.U c l).IsWord := by
  rw [tagDict, stackOverflow_rows] at h
  obtain ⟨b, hb, -, rfl⟩ := dict_some h
  simp only [entries, List.mem_flatMap, List.mem_map] at hb
  obtain ⟨m, hm, -, -, rfl⟩ := hb
  exact (mkToken_word (U := E.U) (PunctLatin.plain hP) l (row_plain soRows_plain hm)).1

/-- What is left as it is is no tag. -/
theorem Greedy.no_tag_left {C : Compare} {D : Dict} {m : Nat} (hm : 0 < m) (hD : ∀ q c, D q = some c → D (C.normal (runes c)) ≠ none)
    {toks out : List Token} (h : Greedy C D m toks out) (hin : ∀ t ∈ toks, t.lemma = false)
    (hno : ∀ t ∈ toks, ¬ t.IsWord → ∀ q, D q ≠ some t.value) :
    ∀ t ∈ out, (t.lemma = true → ∃ q, D q = some t.value) ∧ (t.lemma = false → ∀ q, D q ≠ some t.value) := by
  induction h with
  | nil => simp
  | @separator t ts out hw _ ih =>
    intro u hu
    rcases List.mem_cons.1 hu with rfl | hu
    · exact ⟨fun hl => by simp [hin u (by simp)] at hl, fun _ => hno u (by simp) hw⟩
    · exact ih (fun x hx => hin x (by simp [hx])) (fun x hx => hno x (by simp [hx])) u hu
  | @replace t ts out k c hw hl _ ih =>
    intro u hu
    rcases List.mem_append.1 hu with hu | hu
    · unfold canonTokens at hu
      split at hu
      · cases hu
      · rw [List.mem_singleton] at hu
        subst hu
        exact ⟨fun _ => ⟨_, hl.isSyn⟩, fun h => by cases h⟩
    · exact ih (fun x hx => hin x (List.mem_of_mem_drop hx)) (fun x hx => hno x (List.mem_of_mem_drop hx)) u hu
  | @word t ts out hw hn _ ih =>
    intro u hu
    rcases List.mem_cons.1 hu with rfl | hu
    · refine ⟨fun hl => by simp [hin u (by simp)] at hl, fun _ q hq => ?_⟩
      have h1 : Admissible m (u :: ts) 1 :=
        ⟨Nat.le_refl _, by simp, by simp [hw.1], by simpa [words] using hm⟩
      have := hn 1 h1
      have hsp : C.spell ((u :: ts).take 1) = C.normal (runes u.value) := by simp [Compare.spell]
      rw [hsp] at this
      exact hD q _ hq this
    · exact ih (fun x hx => hin x (by simp [hx])) (fun x hx => hno x (by simp [hx])) u hu

/-- The three outputs, for any tokens. -/
theorem tags_once [HtmlReader] (hE : E.Lawful) (hF : E.FollowsUax29 cls) (hR : cls.Right) (hU : E.U.LowersLatin)
    (hP : E.U.PunctLatin) {ω : Type} {w : Place → Writer ω} {W : World (ω × Bytes)} {input : Bytes} (hW : Piped w W input)
    (hWE : W.E = E) {html : Bool} {toks out : List Token} {cs : List Bytes}
    (hy : (if html then tokenizeHTML E (htmlTokens input) none else tokenize E { data := input }).Yields toks .eof)
    (hin : ∀ t ∈ toks, t.lemma = false) (hno : ∀ t ∈ toks, ¬ t.IsWord → ∀ q, tagDict E q ≠ some t.value)
    (hg : Greedy (tagCompare E) (tagDict E) 5 toks out)
    (hout : out.filter (fun t => decide (t.lemma = true)) = cs.map fun c => mkToken E.U c true) :
    ListsAndCounts W html [.stack, .lemmas] cs ∧ ListsAndCounts W html [.stack, .lemmas, .distinct] (eachOnce cs) ∧
      ListsAndCounts W html [.stack, .distinct, .lemmas] (eachOnce cs) := by
  subst hWE
  have key : ∀ fl (l : List Token), CliTokens W input html fl l → ListsAndCounts W html fl (l.map Token.value) := by
    intro fl l h
    obtain ⟨h1, ds, h2, h3⟩ := C95_outputs hW h
    refine ⟨?_, ds, by simpa using h2, h3⟩
    rw [asLines, List.flatMap_map]
    exact h1
  have hlim : wordLimit (entries W.E stackOverflowMappings) = 5 := by
    rw [stackOverflow_rows]; exact so_limit_eq hF hR hP
  have ht := tags_yields hE (C76_scanner_laws hF hR).2.1 hy (by rw [hlim]; exact hg)
  have hl := C06_lemmas ht
  have hval : ((cs.map fun c => mkToken W.E.U c true).map Token.value) = cs := by
    simp [Function.comp_def, mkToken]
  have hsep := hg.no_tag_left (by decide)
    (fun q c hq => by rw [tagDict_self hF hR hU hq]; simp) hin hno
  refine ⟨?_, ?_, ?_⟩
  · have := key [.stack, .lemmas] _ hl
    rwa [hout, hval] at this
  · have := key [.stack, .lemmas, .distinct] _ (distinct_yields hl)
    rwa [hout, firsts_values] at this
  · have hsame := (C94_distinct_lemmas out).mpr (by
      intro t ht hlt u hu
      have hmem := List.mem_of_find?_eq_some hu
      have hval : u.value = t.value := by simpa using List.find?_some hu
      obtain ⟨q, hq⟩ := (hsep t ht).1 hlt
      cases hul : u.lemma with
      | true => rfl
      | false => exact absurd (hval ▸ hq) ((hsep u hmem).2 hul q))
    obtain ⟨l, h1, h2⟩ := hsame _ _ ht
    have e := (h1.unique (distinct_yields hl)).1
    have := key [.stack, .distinct, .lemmas] _ h2
    rwa [e, hout, firsts_values] at this

/-- **C105 (text).** For every text without overlong words: with `-stack -lemmas` the program lists or counts the tags
named in it, and with `-distinct`, before or after `-lemmas`, each of them once. -/
theorem C105_text [HtmlReader] (hE : E.Lawful) (hF : E.FollowsUax29 cls) (hR : cls.Right) (hU : E.U.LowersLatin)
    (hP : E.U.PunctLatin) {ω : Type} {w : Place → Writer ω} {W : World (ω × Bytes)} {source : Bytes}
    (hW : Piped w W source) (hWE : W.E = E) (hlen : Fits cls source) :
    ∃ cs, TagsIn E source cs ∧ ListsAndCounts W false [.stack, .lemmas] cs ∧
      ListsAndCounts W false [.stack, .lemmas, .distinct] (eachOnce cs) ∧
      ListsAndCounts W false [.stack, .distinct, .lemmas] (eachOnce cs) := by
  obtain ⟨out, hg⟩ := Greedy.total (tagCompare E) (tagDict E) 5 (stringTokens E source)
  obtain ⟨cs, h1, h2⟩ := hg.finds (tagDict_ne_nil hP) (stringTokens_lemma source)
  refine ⟨cs, h1, tags_once hE hF hR hU hP hW hWE (html := false)
    (stringTokens_yields hE (by rw [hF source hlen])) (stringTokens_lemma source) ?_ hg h2⟩
  intro t ht hw q hq
  simp only [stringTokens, segTokens, List.mem_map] at ht
  obtain ⟨x, -, rfl⟩ := ht
  exact hw (tagDict_word hP hq false)

theorem htmlActual_nonword (hP : E.U.PunctLatin) (hs : List HTok) : ∀ raw, ∀ t ∈ (htmlActual E raw hs none).1, ¬ t.IsWord →
    ∀ q, tagDict E q ≠ some t.value := by
  have hseg : ∀ segs : List Bytes, ∀ t ∈ segTokens E.U segs, ¬ t.IsWord → ∀ q, tagDict E q ≠ some t.value := by
    intro segs t ht hw q hq
    simp only [segTokens, List.mem_map] at ht
    obtain ⟨x, -, rfl⟩ := ht
    exact hw (tagDict_word hP hq false)
  induction hs with
  | nil => intro raw t ht; simp [htmlActual] at ht
  | cons h hs ih =>
    intro raw t ht hw q hq
    by_cases htx : h.type = .text
    · cases raw with
      | true =>
        simp only [htmlActual, htx, ↓reduceIte, emit, List.mem_cons] at ht
        rcases ht with rfl | ht
        · exact hw ⟨rfl, rfl⟩
        · exact ih _ t ht hw q hq
      | false =>
        simp only [htmlActual, htx, ↓reduceIte, Bool.false_eq_true] at ht
        split at ht
        · rcases List.mem_append.1 ht with ht | ht
          · exact hseg _ t ht hw q hq
          · exact ih _ t ht hw q hq
        · exact hseg _ t ht hw q hq
    · simp only [htmlActual, htx, ↓reduceIte, emit, List.mem_cons] at ht
      rcases ht with rfl | ht
      · obtain ⟨z, hz⟩ := string_lt htx
        exact tagDict_safe _ _ hq 0x3C (by decide +kernel) (by simp [hz])
      · exact ih _ t ht hw q hq

/-- **C105 (pages).** The same for a page, whose tags are those of C86. -/
theorem C105_page [HtmlReader] (hE : E.Lawful) (hF : E.FollowsUax29 cls) (hR : cls.Right) (hU : E.U.LowersLatin)
    (hP : E.U.PunctLatin) {ω : Type} {w : Place → Writer ω} {W : World (ω × Bytes)} {doc : Bytes}
    (hW : Piped w W doc) (hWE : W.E = E) (hlen : ∀ h ∈ htmlTokens doc, h.type = .text → Fits cls h.string) :
    ∃ css, List.Forall₂ (SeenTags E) (textsSeen false (htmlTokens doc)) css ∧
      ListsAndCounts W true [.stack, .lemmas] css.flatten ∧
      ListsAndCounts W true [.stack, .lemmas, .distinct] (eachOnce css.flatten) ∧
      ListsAndCounts W true [.stack, .distinct, .lemmas] (eachOnce css.flatten) := by
  have hread := htmlTokens_readable doc
  obtain ⟨he, out, css, hg, hcs, hout⟩ := page_greedy hF hP (htmlTokens doc) false none false hread hlen
  have hy := html_yields hE (htmlTokens doc) none (fun h hh ht => (readable_data hread h hh).text_ne ht)
  rw [he] at hy
  exact ⟨css, hcs, tags_once hE hF hR hU hP hW hWE (html := true) hy (htmlActual_unchanged E none _ _)
    (htmlActual_nonword hP _ _) hg hout⟩

end

/-! Non-vacuity. -/

example : eachOnce [[1], [2], [1], [3], [2]] = [[1], [2], [3]] := by decide

example [HtmlReader] : ∃ cs, TagsIn uaxEnv (str "ObjC, (objective-c), c++") cs ∧
    ListsAndCounts (pipeWorld uaxEnv (str "ObjC, (objective-c), c++")) false [.stack, .lemmas, .distinct] (eachOnce cs) := by
  obtain ⟨cs, h1, -, h2, -⟩ := C105_text uaxEnv_lawful uaxEnv_follows uaxTable_right uaxEnv_lowers uaxEnv_punct
    (pipeWorld_piped uaxEnv (str "ObjC, (objective-c), c++")) rfl (.inl (by decide +kernel))
  exact ⟨cs, h1, h2⟩

end Jargon
