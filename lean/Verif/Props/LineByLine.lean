import Verif.Props.Lines
import Verif.Props.Uax29Synonyms
import Verif.Proofs.WordStream

/-! C97: a text may be given to the program line by line. -/

namespace Jargon

/-- A line, with the line feed at its end. -/
def IsLine (l : Bytes) : Prop := ∃ z, l = z ++ [0x0A]

/-- The program, with these filters and `-lines`, writes `out` for this text. -/
def WritesFor {ω : Type} (W : World (ω × Bytes)) (fl : List FilterFlag) (text out : Bytes) : Prop :=
  Writes { W with stdin := { data := text } } (commandLine false fl "lines") out

/-- **C97, as one would like it.** What the program writes for a text is what it writes for each of its lines, one
after the other. -/
def C97_full [HtmlReader] (E : Env) (cls : WordTable) : Prop := ∀ (ω : Type) (w : Place → Writer ω) (W : World (ω × Bytes)) (input : Bytes),
  Piped w W input → W.E = E → GoodStem (W.snowball.of .english) → ∀ (fl : List FilterFlag) (lines : List Bytes),
  (∀ l ∈ lines, IsLine l) → Fits cls lines.flatten →
  ∃ outs, List.Forall₂ (WritesFor W fl) lines outs ∧ WritesFor W fl lines.flatten outs.flatten

/-! ### words -/

theorem wordSegs_line {cls : WordTable} (hR : cls.Right) {l : Bytes} (hl : IsLine l) (t : Bytes) :
    wordSegs cls (l ++ t) = wordSegs cls l ++ wordSegs cls t := by
  obtain ⟨z, rfl⟩ := hl
  have hc : cls 0x0A = latinWB 0x0A := hR.latin _ (by decide) (by decide)
  have hr := runeBytes_after (a := z ++ [0x0A]) (.inr ⟨z, 0x0A, rfl, by decide⟩) t
  have hz : runeBytes (z ++ [0x0A]) = runeBytes z ++ [(0x0A, [0x0A])] := by
    rw [runeBytes_append_ascii z (by decide)]; rfl
  have hj : ∀ before x, joins (cls 0x0A :: before) x = false := by
    intro before x
    cases x with
    | nil => rfl
    | cons r x =>
      have h1 : (cls 0x0A).1 = .lf := by rw [hc]; rfl
      simp [joins, h1, WB.lineBreak]
  rw [wordSegs, hr, hz, cutWords_append (before := []), List.map_append, wordSegs, wordSegs, hz]
  · congr 2
    refine cutWords_restart ?_
    simp only [List.map_append, List.map_cons, List.map_nil, List.reverse_append, List.reverse_cons, List.reverse_nil,
      List.nil_append, List.singleton_append, List.append_nil]
    exact hj _ _
  · refine .inl ⟨_, cls 0x0A, by rw [List.map_append]; rfl, ?_⟩
    rw [hc]; decide
  · simp only [List.map_append, List.map_cons, List.map_nil, List.reverse_append, List.reverse_cons, List.reverse_nil,
      List.nil_append, List.singleton_append, List.append_nil]
    exact hj _ _

/-! ### filters -/

/-- The last token is the end of a line. -/
def EndsLine (U : Unicode) (A : List Token) : Prop :=
  ∃ z seg, A = z ++ [mkToken U seg false] ∧ (seg = [0x0A] ∨ seg = [0x0D, 0x0A])

theorem lineEnd_token (U : Unicode) {seg : Bytes} (h : seg = [0x0A] ∨ seg = [0x0D, 0x0A]) :
    ¬ (mkToken U seg false).IsWord ∧ IsAscii seg := by
  rcases h with rfl | rfl
  · exact ⟨fun hw => absurd hw.2 (by simp [mkToken]; decide +kernel), by simp [IsAscii]⟩
  · exact ⟨fun hw => absurd hw.2 (by simp [mkToken]; decide +kernel), by simp [IsAscii]⟩

/-- The filters that do with each token something that depends on it alone. -/
theorem flag_local {E : Env} (hE : E.Lawful) {sb : Snowball} {f : FilterFlag} (hok : (f.filter sb .english).OK E)
    (hd : f ≠ .distinct) (hs : f ≠ .stack) : ∃ g : Token → List Token,
      (∀ A, Makes ((f.filter sb .english).apply E) A .eof (A.flatMap g) .eof) ∧
      (E.U.LowersLatin → f ≠ .lemmas → ∀ seg, (seg = [0x0A] ∨ seg = [0x0D, 0x0A]) →
        g (mkToken E.U seg false) = [mkToken E.U seg false]) := by
  cases f with
  | distinct => exact absurd rfl hd
  | stack => exact absurd rfl hs
  | ascii =>
    refine ⟨fun t => [foldToken E.U t], fun A ts h => ?_, fun _ _ seg hseg => ?_⟩
    · have := asciiFold_yields E.U h
      rwa [List.map_eq_flatMap] at this
    · have := (lineEnd_token E.U hseg).2
      have h2 : foldString (mkToken E.U seg false).value = (seg, false) := C17_ascii_unchanged _ this
      simp only [foldToken, h2, Bool.false_eq_true, ↓reduceIte]
  | contractions =>
    refine ⟨expandToken E contractionMappings, fun A ts h => expandWith_yields hE hok h, fun hU _ seg hseg => ?_⟩
    have hlow : E.U.lowerString seg = seg := by
      rcases hseg with rfl | rfl
      · have : runes [0x0A] = [0x0A] := by decide +kernel
        rw [Unicode.lowerString, this]
        simp only [List.map_cons, List.map_nil, hU 0x0A (by decide)]
        decide +kernel
      · have : runes [0x0D, 0x0A] = [0x0D, 0x0A] := by decide +kernel
        rw [Unicode.lowerString, this]
        simp only [List.map_cons, List.map_nil, hU 0x0A (by decide), hU 0x0D (by decide)]
        decide +kernel
    have hnone : contractionMappings.lookup seg = none := by
      rcases hseg with rfl | rfl <;> decide +kernel
    simp only [expandToken, expansion?, mkToken, hlow, hnone]
  | lemmas =>
    refine ⟨fun t => if t.isLemma then [t] else [], fun A ts h => ?_, fun _ h => absurd rfl h⟩
    have := where_yields Token.isLemma h
    have e : ∀ A : List Token, A.filter Token.isLemma = A.flatMap fun t => if t.isLemma then [t] else [] := by
      intro A
      induction A with
      | nil => rfl
      | cons t A ih =>
        rw [List.filter_cons, List.flatMap_cons]
        by_cases ht : t.isLemma = true
        · simp [ht, ih]
        · simp [ht, ih]
    rwa [e] at this
  | stem =>
    refine ⟨fun t => [stemToken E.U (sb.of .english) t], fun A ts h => ?_, fun _ _ seg hseg => ?_⟩
    · have := stemmer_yields (U := E.U) (stem := sb.of .english) (fun t _ => hok _) h
      rwa [List.map_eq_flatMap] at this
    · have := (lineEnd_token E.U hseg).1
      simp only [stemToken, this, false_and, ↓reduceIte]

/-! ### synonyms -/

theorem admissible_append {m : Nat} {A B : List Token} {k : Nat} (hk : k ≤ A.length) :
    Admissible m (A ++ B) k ↔ Admissible m A k := by
  have h1 : (A ++ B).take k = A.take k := List.take_append_of_le_length hk
  have h2 : (A ++ B).take (k - 1) = A.take (k - 1) := List.take_append_of_le_length (by omega)
  constructor
  · rintro ⟨a, -, c, d⟩
    exact ⟨a, hk, by rwa [h1] at c, by rwa [h2] at d⟩
  · rintro ⟨a, -, c, d⟩
    exact ⟨a, by rw [List.length_append]; omega, by rwa [h1], by rwa [h2]⟩

theorem spell_mem {C : Compare} {l : Token} {A : List Token} {r : Rune} (hl : r ∈ C.spell [l]) (h : l ∈ A) : r ∈ C.spell A := by
  simp only [Compare.spell, Compare.normal, List.mem_filter, List.mem_map, List.mem_flatMap, List.mem_singleton] at hl ⊢
  obtain ⟨⟨a, ⟨t, rfl, ha⟩, rfl⟩, h2⟩ := hl
  exact ⟨⟨a, ⟨t, h, ha⟩, rfl⟩, h2⟩

/-- No synonym goes across a token that no synonym has. -/
theorem greedy_append {C : Compare} {D : Dict} {m : Nat} {r : Rune} (hno : ∀ q, r ∈ q → D q = none) {l : Token}
    (hl : r ∈ C.spell [l]) {A oa B ob : List Token} (ha : Greedy C D m A oa) (hb : Greedy C D m B ob)
    (hend : ∀ x, A.getLast? = some x → x = l) : Greedy C D m (A ++ B) (oa ++ ob) := by
  have tail : ∀ {t : Token} {ts : List Token}, (∀ x, (t :: ts).getLast? = some x → x = l) →
      ∀ k x, ((t :: ts).drop k).getLast? = some x → x = l := by
    intro t ts h k x hx
    rw [List.getLast?_drop] at hx
    split at hx
    · cases hx
    · exact h x hx
  have far : ∀ {t : Token} {ts : List Token}, (∀ x, (t :: ts).getLast? = some x → x = l) →
      ∀ j, (t :: ts).length < j → D (C.spell ((t :: ts ++ B).take j)) = none := by
    intro t ts h j hj
    refine hno _ (spell_mem hl ?_)
    have h1 : (t :: ts).getLast (by simp) = l := h _ (List.getLast?_eq_some_getLast _)
    rw [List.take_append, List.mem_append, List.take_of_length_le (by omega)]
    exact .inl (h1 ▸ List.getLast_mem _)
  induction ha with
  | nil => exact hb
  | separator hw _ ih => exact .separator hw (ih fun x hx => tail hend 1 x hx)
  | @replace t ts out k c hw hlong _ ih =>
    have hk := hlong.mem.le
    have near : ∀ j, j ≤ (t :: ts).length → (t :: (ts ++ B)).take j = (t :: ts).take j := fun j hj => by
      rw [← List.cons_append, List.take_append_of_le_length hj]
    have adm : ∀ j, j ≤ (t :: ts).length → (Admissible m (t :: (ts ++ B)) j ↔ Admissible m (t :: ts) j) := fun j hj => by
      rw [← List.cons_append, admissible_append hj]
    rw [List.append_assoc]
    refine .replace (t := t) (ts := ts ++ B) (k := k) hw ⟨(adm k hk).2 hlong.mem, ?_, ?_, ?_⟩ ?_
    · rw [near k hk]
      exact hlong.isSyn
    · intro j hj hlt hne
      by_cases hjl : j ≤ (t :: ts).length
      · rw [near j hjl] at hne
        rw [near j hjl, near k hk]
        exact hlong.longest j ((adm j hjl).1 hj) hlt hne
      · exact absurd (far hend j (by omega)) hne
    · intro j hj hlt
      have hjl : j ≤ (t :: ts).length := by omega
      rw [near j hjl, near k hk]
      exact hlong.fewest j ((adm j hjl).1 hj) hlt
    · rw [← List.cons_append, List.drop_append_of_le_length hk]
      exact ih fun x hx => tail hend k x hx
  | @word t ts out hw hnone _ ih =>
    refine .word (t := t) (ts := ts ++ B) hw (fun j hj => ?_) (ih fun x hx => tail hend 1 x hx)
    by_cases hjl : j ≤ (t :: ts).length
    · rw [← List.cons_append, List.take_append_of_le_length hjl]
      refine hnone j ?_
      rwa [← List.cons_append, admissible_append hjl] at hj
    · exact far hend j (by omega)

/-- The last token stays. -/
theorem greedy_last {C : Compare} {D : Dict} {m : Nat} {r : Rune} (hno : ∀ q, r ∈ q → D q = none) {l : Token}
    (hl : r ∈ C.spell [l]) (hw : ¬ l.IsWord) {A oa : List Token} (ha : Greedy C D m A oa) :
    ∀ {z : List Token}, A = z ++ [l] → ∃ w, oa = w ++ [l] := by
  induction ha with
  | nil => intro z h; simp at h
  | @separator t ts out _ hg ih =>
    intro z h
    cases z with
    | nil =>
      simp only [List.nil_append, List.cons.injEq] at h
      obtain ⟨rfl, rfl⟩ := h
      cases hg
      exact ⟨[], rfl⟩
    | cons a z =>
      simp only [List.cons_append, List.cons.injEq] at h
      obtain ⟨w, rfl⟩ := ih h.2
      exact ⟨t :: w, rfl⟩
  | @word t ts out ht _ hg ih =>
    intro z h
    cases z with
    | nil =>
      simp only [List.nil_append, List.cons.injEq] at h
      exact absurd (h.1 ▸ ht) hw
    | cons a z =>
      simp only [List.cons_append, List.cons.injEq] at h
      obtain ⟨w, rfl⟩ := ih h.2
      exact ⟨t :: w, rfl⟩
  | @replace t ts out k c ht hlong hg ih =>
    intro z h
    have hk := hlong.mem.le
    have hlt : k ≤ z.length := by
      refine Nat.le_of_not_lt fun hlt => ?_
      have : (t :: ts).take k = t :: ts := List.take_of_length_le (by rw [h, List.length_append]; simp; omega)
      have hs := hlong.isSyn
      rw [this, hno _ (spell_mem hl (by rw [h]; simp))] at hs
      cases hs
    obtain ⟨w, rfl⟩ := ih (z := z.drop k) (by rw [h, List.drop_append_of_le_length hlt])
    exact ⟨canonTokens C.U c ++ w, by simp⟩

theorem soRows_keys_lf : soRows.flatten.all (fun r => (runesB r.1).all fun x => Nat.blt x 0x180 && !Nat.beq (latinLower x) 10) = true := by
  decide +kernel

theorem pieces_mem : ∀ {toks : List Token}, ∀ p ∈ pieces toks, ∀ t ∈ p, t ∈ toks
  | [], p, hp, t, ht => by
    simp only [pieces, List.mem_singleton] at hp
    subst hp
    simp at ht
  | a :: toks, p, hp, t, ht => by
    have ih := @pieces_mem toks
    rw [pieces] at hp
    split at hp
    · rcases List.mem_cons.1 hp with rfl | hp
      · simp at ht
      · exact List.mem_cons_of_mem _ (ih p hp t ht)
    · split at hp
      · rename_i q qs he
        rw [he] at ih
        rcases List.mem_cons.1 hp with rfl | hp
        · rcases List.mem_cons.1 ht with rfl | ht
          · simp
          · exact List.mem_cons_of_mem _ (ih q (by simp) t ht)
        · exact List.mem_cons_of_mem _ (ih p (by simp [hp]) t ht)
      · simp only [List.mem_singleton] at hp
        subst hp
        simp only [List.mem_singleton] at ht
        simp [ht]

theorem listed_mem {toks p : List Token} (hp : p ∈ listed toks) {t : Token} (ht : t ∈ p) : t ∈ toks := by
  obtain ⟨q, hq, rfl⟩ := List.mem_map.1 hp
  exact pieces_mem q hq t ((List.dropWhile_sublist _).subset ht)

/-- No synonym of a tag has a line feed in it. -/
theorem tagDict_line {E : Env} {cls : WordTable} (hF : E.FollowsUax29 cls) (hR : cls.Right) (hU : E.U.LowersLatin) :
    ∀ q, 0x0A ∈ q → tagDict E q = none := by
  intro q hq
  cases h : tagDict E q with
  | none => rfl
  | some c =>
    exfalso
    have hlaw := (C76_scanner_laws hF hR).2.1
    rw [tagDict, stackOverflow_rows] at h
    rw [stackOverflow_rows] at hlaw
    obtain ⟨b, hb, rfl, -⟩ := dict_some h
    simp only [entries, List.mem_flatMap, List.mem_map] at hb
    obtain ⟨m, hm, p, hp, rfl⟩ := hb
    have hwhole := (hlaw m hm).whole
    simp only [tableOf, List.mem_map] at hm
    obtain ⟨row, hrow, rfl⟩ := hm
    simp only [Compare.spell, Compare.normal, List.mem_filter, List.mem_map, List.mem_flatMap] at hq
    obtain ⟨⟨x, ⟨t, ht, hx⟩, hfold⟩, -⟩ := hq
    have hkey : x ∈ runes (textOf row.1) := by
      have htt : t ∈ stringTokens E (textOf row.1) := listed_mem hp ht
      simp only [stringTokens, segTokens, List.mem_map] at htt
      obtain ⟨seg, hseg, rfl⟩ := htt
      rw [← hwhole]
      exact List.mem_flatMap.2 ⟨seg, hseg, hx⟩
    have h1 := List.all_eq_true.1 (List.all_eq_true.1 soRows_keys_lf row hrow) x (by rw [runesB_eq]; exact hkey)
    simp only [Bool.and_eq_true, Nat.blt_eq, Bool.not_eq_true'] at h1
    have : E.U.toLower x = 0x0A := hfold
    rw [hU x h1.1] at this
    rw [this] at h1
    exact absurd h1.2 (by decide)

/-! ### pipelines -/

/-- A filter that may be applied to the part before and to the part after. -/
def Splits (F : Filter) (A B x y : List Token) : Prop :=
  Makes F A .eof x .eof ∧ Makes F B .eof y .eof ∧ Makes F (A ++ B) .eof (x ++ y) .eof

theorem flag_splits {E : Env} {cls : WordTable} (hE : E.Lawful) (hF : E.FollowsUax29 cls) (hR : cls.Right)
    (hU : E.U.LowersLatin) {sb : Snowball} (hst : GoodStem (sb.of .english)) {f : FilterFlag} (hd : f ≠ .distinct)
    (A B : List Token) (h : f ≠ .stack ∨ EndsLine E.U A) :
    ∃ x y, Splits ((f.filter sb .english).apply E) A B x y ∧ (f ≠ .lemmas → EndsLine E.U A → EndsLine E.U x) := by
  by_cases hs : f = .stack
  · subst hs
    obtain ⟨z, seg, rfl, hseg⟩ := h.resolve_left (by simp)
    have hok := flag_ok hF hR hst .stack
    have make : ∀ {T out : List Token}, Greedy (tagCompare E) (tagDict E) (wordLimit (entries E stackOverflowMappings)) T out →
        Makes ((FilterFlag.stack.filter sb .english).apply E) T .eof out .eof := by
      intro T out hg ts hy
      have := synonyms_yields hE hok hy hg
      rw [if_pos rfl] at this
      exact this
    have hl : 0x0A ∈ (tagCompare E).spell [mkToken E.U seg false] := by
      have hlow : E.U.toLower 0x0A = 0x0A := by rw [hU _ (by decide)]; decide
      have hm : 0x0A ∈ runes seg := by rcases hseg with rfl | rfl <;> decide +kernel
      simp only [Compare.spell, Compare.normal, List.mem_filter, List.mem_map, List.mem_flatMap, List.mem_singleton]
      exact ⟨⟨0x0A, ⟨_, rfl, hm⟩, hlow⟩, show decide (0x0A ∉ stackOverflowIgnore) = true by decide +kernel⟩
    obtain ⟨z', hz⟩ := Greedy.total (tagCompare E) (tagDict E) (wordLimit (entries E stackOverflowMappings))
      (z ++ [mkToken E.U seg false])
    obtain ⟨y, hy⟩ := Greedy.total (tagCompare E) (tagDict E) (wordLimit (entries E stackOverflowMappings)) B
    refine ⟨z', y, ⟨make hz, make hy, make (greedy_append (tagDict_line hF hR hU) hl hz hy ?_)⟩, fun _ _ => ?_⟩
    · intro x hx
      rw [List.getLast?_append] at hx
      simpa using hx.symm
    · exact greedy_last (tagDict_line hF hR hU) hl (lineEnd_token E.U hseg).1 hz rfl |>.elim fun w hw => ⟨w, seg, hw, hseg⟩
  · obtain ⟨g, h1, h2⟩ := flag_local hE (flag_ok hF hR hst f) hd hs
    refine ⟨A.flatMap g, B.flatMap g, ⟨h1 A, h1 B, ?_⟩, fun hl ha => ?_⟩
    · rw [← List.flatMap_append]
      exact h1 _
    · obtain ⟨z, seg, rfl, hseg⟩ := ha
      exact ⟨z.flatMap g, seg, by simp [h2 hU hl seg hseg], hseg⟩

/-- The filters without `-distinct`, and with `-lemmas` not before `-stack`. -/
def Linewise (fl : List FilterFlag) : Prop :=
  .distinct ∉ fl ∧ ∀ pre post, fl = pre ++ .lemmas :: post → .stack ∉ post

theorem flags_split {E : Env} {cls : WordTable} (hE : E.Lawful) (hF : E.FollowsUax29 cls) (hR : cls.Right)
    (hU : E.U.LowersLatin) {sb : Snowball} (hst : GoodStem (sb.of .english)) : ∀ (fl : List FilterFlag), .distinct ∉ fl →
      ∀ A B, (.stack ∉ fl ∨ EndsLine E.U A ∧ Linewise fl) →
      ∃ x y, Splits (fun ts => ts.filter (fl.map fun f => (f.filter sb .english).apply E)) A B x y
  | [], _, A, B, _ => ⟨A, B, fun _ h => h, fun _ h => h, fun _ h => h⟩
  | f :: fl, hd, A, B, h => by
    simp only [List.mem_cons, not_or] at hd
    obtain ⟨x, y, ⟨h1, h2, h3⟩, h4⟩ := flag_splits hE hF hR hU hst (Ne.symm hd.1) A B (by
      rcases h with h | h
      · exact .inl fun he => h (by simp [he])
      · exact .inr h.1)
    obtain ⟨x', y', k1, k2, k3⟩ := flags_split hE hF hR hU hst fl hd.2 x y (by
      rcases h with h | ⟨ha, -, hl⟩
      · exact .inl fun he => h (by simp [he])
      · by_cases hf : f = .lemmas
        · exact .inl (hl [] fl (by rw [hf]; rfl))
        · refine .inr ⟨h4 hf ha, hd.2, fun pre post he => ?_⟩
          exact hl (f :: pre) post (by rw [he]; rfl))
    exact ⟨x', y', fun ts hy => k1 _ (h1 ts hy), fun ts hy => k2 _ (h2 ts hy), fun ts hy => k3 _ (h3 ts hy)⟩

/-! ### statements -/

variable {E : Env} {cls : WordTable}

theorem line_ends (hR : cls.Right) {l : Bytes} (hl : IsLine l) :
    EndsLine E.U (segTokens E.U (wordSegs cls l)) := by
  obtain ⟨z, rfl⟩ := hl
  have hfl := wordSegs_flatten cls (z ++ [0x0A])
  rcases (wordSegs cls (z ++ [0x0A])).eq_nil_or_concat with h | ⟨ws, w, h⟩
  · rw [h] at hfl
    simp at hfl
  · rw [h] at hfl ⊢
    simp only [List.concat_eq_append, List.flatten_append, List.flatten_cons, List.flatten_nil, List.append_nil] at hfl
    have hne : w ≠ [] := wordSegs_nonempty cls (z ++ [0x0A]) w (by rw [h]; simp)
    have hlf : 0x0A ∈ w := by
      have h1 := congrArg List.getLast? hfl
      rw [List.getLast?_append, List.getLast?_eq_some_getLast hne] at h1
      simp only [Option.some_or, List.getLast?_append, List.getLast?_singleton, Option.some.injEq] at h1
      exact h1 ▸ List.getLast_mem hne
    refine ⟨segTokens E.U ws, w, by simp [segTokens], ?_⟩
    exact wordSegs_lf hR w (by rw [h]; simp) hlf

/-- Two parts of a text, the first of which is a line. -/
theorem text_split (hE : E.Lawful) (hF : E.FollowsUax29 cls) (hR : cls.Right) (hU : E.U.LowersLatin) {sb : Snowball}
    (hst : GoodStem (sb.of .english)) {fl : List FilterFlag} (hfl : Linewise fl) {l t : Bytes} (hl : IsLine l)
    (hfit : Fits cls (l ++ t)) : ∃ x y,
      ((tokenize E { data := l }).filter (fl.map fun f => (f.filter sb .english).apply E)).Yields x .eof ∧
      ((tokenize E { data := t }).filter (fl.map fun f => (f.filter sb .english).apply E)).Yields y .eof ∧
      ((tokenize E { data := l ++ t }).filter (fl.map fun f => (f.filter sb .english).apply E)).Yields (x ++ y) .eof := by
  have hw := wordSegs_line hR hl t
  have hp := Fits.parts (a := []) (k := l) (b := t) hfit (by rw [List.nil_append, hw]; rfl)
  obtain ⟨x, y, h1, h2, h3⟩ := flags_split hE hF hR hU hst fl hfl.1 (segTokens E.U (wordSegs cls l))
    (segTokens E.U (wordSegs cls t)) (.inr ⟨line_ends hR hl, hfl⟩)
  have yl := tokenize_yields E hE { data := l }
  have yt := tokenize_yields E hE { data := t }
  have yw := tokenize_yields E hE { data := l ++ t }
  rw [hF l hp.2.1] at yl
  rw [hF t hp.2.2] at yt
  rw [hF _ hfit, hw] at yw
  refine ⟨x, y, h1 _ yl, h2 _ yt, h3 _ ?_⟩
  rw [segTokens, segTokens, ← List.map_append]
  exact yw

/-- **C97, partial (tokens).** For filters without `-distinct`, of which none is `-stack` after `-lemmas`: the tokens
of a text are those of its lines. -/
theorem C97_tokens_partial (hE : E.Lawful) (hF : E.FollowsUax29 cls) (hR : cls.Right) (hU : E.U.LowersLatin) {sb : Snowball}
    (hst : GoodStem (sb.of .english)) {fl : List FilterFlag} (hfl : Linewise fl) : ∀ {lines : List Bytes},
    (∀ l ∈ lines, IsLine l) → Fits cls lines.flatten → ∃ outs,
      List.Forall₂ (fun l o => ((tokenize E { data := l }).filter
        (fl.map fun f => (f.filter sb .english).apply E)).Yields o .eof) lines outs ∧
      ((tokenize E { data := lines.flatten }).filter
        (fl.map fun f => (f.filter sb .english).apply E)).Yields outs.flatten .eof
  | [], _, _ => by
    obtain ⟨x, y, h1, h2, h3⟩ := text_split hE hF hR hU hst hfl (l := [0x0A]) (t := []) ⟨[], rfl⟩ (.inl (by simp))
    rw [List.append_nil] at h3
    have := (h1.unique h3).1
    rw [List.self_eq_append_right] at this
    subst this
    exact ⟨[], .nil, h2⟩
  | l :: lines, hl, hfit => by
    rw [List.flatten_cons] at hfit
    have hw := wordSegs_line hR (hl l (by simp)) lines.flatten
    have hp := Fits.parts (a := []) (k := l) (b := lines.flatten) hfit (by rw [List.nil_append, hw]; rfl)
    obtain ⟨x, y, h1, h2, h3⟩ := text_split hE hF hR hU hst hfl (hl l (by simp)) hfit
    obtain ⟨outs, h4, h5⟩ := C97_tokens_partial hE hF hR hU hst hfl (fun m hm => hl m (by simp [hm])) hp.2.2
    obtain ⟨rfl, -⟩ := h2.unique h5
    exact ⟨x :: outs, .cons h1 h4, h3⟩

theorem flatMap_flatten {α β : Type} (g : α → List β) (ls : List (List α)) :
    ls.flatten.flatMap g = (ls.map fun o => o.flatMap g).flatten := by
  induction ls with
  | nil => rfl
  | cons l ls ih => simp [ih]

/-- **C97, partial.** For the same filters: what the program writes for a text is what it writes for its lines.
Missing: `-distinct`, and `-stack` after `-lemmas`, where it is false. -/
theorem C97_partial [HtmlReader] (hE : E.Lawful) (hF : E.FollowsUax29 cls) (hR : cls.Right) (hU : E.U.LowersLatin) {ω : Type}
    {w : Place → Writer ω} {W : World (ω × Bytes)} {input : Bytes} (hW : Piped w W input) (hWE : W.E = E)
    (hst : GoodStem (W.snowball.of .english)) {fl : List FilterFlag} (hfl : Linewise fl) {lines : List Bytes}
    (hl : ∀ l ∈ lines, IsLine l) (hfit : Fits cls lines.flatten) :
    ∃ outs, List.Forall₂ (WritesFor W fl) lines outs ∧ WritesFor W fl lines.flatten outs.flatten := by
  obtain ⟨outs, h1, h2⟩ := C97_tokens_partial hE hF hR hU hst hfl hl hfit
  have hP : ∀ text, Piped w { W with stdin := { data := text } } text := fun text =>
    ⟨hW.writes, hW.writer, hW.html, hW.pipe, rfl⟩
  have hout : ∀ {text : Bytes} {o : List Token}, ((tokenize E { data := text }).filter
      (fl.map fun f => (f.filter W.snowball .english).apply E)).Yields o .eof →
      WritesFor W fl text (o.flatMap fun t => t.value ++ [0x0A]) := by
    intro text o h
    subst hWE
    exact (C95_outputs (hP text) (html := false) (fl := fl) (toks := o) h).1
  refine ⟨outs.map fun o => o.flatMap fun t => t.value ++ [0x0A], ?_, ?_⟩
  · rw [List.forall₂_map_right_iff]
    exact h1.imp fun l o h => hout h
  · have := hout h2
    rwa [flatMap_flatten] at this

/-! ### where lines do not suffice -/

theorem wordSegs_lf_line (cls : WordTable) : wordSegs cls [0x0A] = [[0x0A]] := by
  have h1 := wordSegs_nonempty cls [0x0A]
  have h2 := wordSegs_flatten cls [0x0A]
  generalize wordSegs cls [0x0A] = segs at h1 h2
  match segs, h1, h2 with
  | [], _, h2 => simp at h2
  | [] :: _, h1, _ => exact absurd rfl (h1 [] (by simp))
  | (b :: bs) :: rest, h1, h2 =>
    simp only [List.flatten_cons, List.cons_append, List.cons.injEq, List.append_eq_nil_iff] at h2
    obtain ⟨rfl, rfl, h3⟩ := h2
    match rest, h1, h3 with
    | [], _, _ => rfl
    | r :: rest, h1, h3 =>
      simp only [List.flatten_cons, List.append_eq_nil_iff] at h3
      exact absurd h3.1 (h1 r (by simp))

/-- What is written for one text is only one thing. -/
theorem WritesFor.unique {ω : Type} {W : World (ω × Bytes)} {fl : List FilterFlag} {text out out' : Bytes}
    (h : WritesFor W fl text out) (h' : WritesFor W fl text out') : out = out' := Writes.unique h h'

theorem pipe_writes [HtmlReader] {E : Env} {fl : List FilterFlag} {text : Bytes} {o : List Token}
    (h : ((tokenize E { data := text }).filter (fl.map fun f => (f.filter (pipeWorld E []).snowball .english).apply E)).Yields o .eof) :
    WritesFor (pipeWorld E []) fl text (o.flatMap fun t => t.value ++ [0x0A]) :=
  (C95_outputs (pipeWorld_piped E text) (html := false) (fl := fl) (toks := o) h).1

/-- **C97 is violated, by -distinct.** For each of two empty lines it writes a line feed in a line; for both it writes
only one. -/
theorem C97_violated [HtmlReader] (hE : E.Lawful) (hF : E.FollowsUax29 cls) (hR : cls.Right) :
    ¬ C97_full E cls ∧ WritesFor (pipeWorld E []) [.distinct] [0x0A] [0x0A, 0x0A] ∧
      WritesFor (pipeWorld E []) [.distinct] [0x0A, 0x0A] [0x0A, 0x0A] := by
  have y1 := tokenize_yields E hE { data := [0x0A] }
  have y2 := tokenize_yields E hE { data := [0x0A, 0x0A] }
  have hw : wordSegs cls [0x0A, 0x0A] = [[0x0A], [0x0A]] := by
    have := wordSegs_line hR (l := [0x0A]) ⟨[], rfl⟩ [0x0A]
    rw [wordSegs_lf_line] at this
    exact this
  rw [hF _ (.inl (by simp)), wordSegs_lf_line] at y1
  rw [hF _ (.inl (by simp)), hw] at y2
  have w1 : WritesFor (pipeWorld E []) [.distinct] [0x0A] [0x0A, 0x0A] :=
    pipe_writes (fl := [.distinct]) (distinct_yields y1)
  have w2 : WritesFor (pipeWorld E []) [.distinct] [0x0A, 0x0A] [0x0A, 0x0A] := by
    have := pipe_writes (fl := [.distinct]) (distinct_yields y2)
    have hf : firsts (segTokens E.U [[0x0A], [0x0A]]) = [mkToken E.U [0x0A] false] := by
      simp [segTokens, firsts]
    rw [hf] at this
    exact this
  refine ⟨fun h => ?_, w1, w2⟩
  obtain ⟨outs, h1, h2⟩ := h Unit _ _ _ (pipeWorld_piped E []) rfl (fun _ => ⟨id, id⟩) [.distinct] [[0x0A], [0x0A]]
    (by rintro l hl; simp at hl; subst hl; exact ⟨[], rfl⟩) (.inl (by simp))
  match outs, h1 with
  | [a, b], .cons ha (.cons hb .nil) =>
    obtain rfl := ha.unique w1
    obtain rfl := hb.unique w1
    exact absurd (h2.unique w2) (by decide)

/-- **C97 is violated, by -stack after -lemmas.** Once the line feeds are gone, a tag may be found across two lines:
"node" at the end of one and "js" at the beginning of the next are the tag "node.js". -/
theorem C97_violated_stack [HtmlReader] :
    WritesFor (pipeWorld uaxEnv []) [.ascii, .lemmas, .stack] (str "nöde\njś\n") (str "node.js\n") ∧
      ∀ outs, List.Forall₂ (WritesFor (pipeWorld uaxEnv []) [.ascii, .lemmas, .stack]) [str "nöde\n", str "jś\n"] outs →
        outs.flatten ≠ str "node.js\n" := by
  have hlaw := C76_scanner_laws uaxEnv_follows uaxTable_right
  have toks : ∀ {text : Bytes} {ws : List Bytes}, uaxEnv.scan { data := text } = (ws, none) →
      ((tokenize uaxEnv { data := text }).filter ([FilterFlag.ascii, .lemmas].map
        fun f => (f.filter (pipeWorld uaxEnv []).snowball .english).apply uaxEnv)).Yields
        (((segTokens uaxEnv.U ws).map (foldToken uaxEnv.U)).filter fun t => decide (t.lemma = true)) .eof := by
    intro text ws h
    have y := tokenize_yields uaxEnv uaxEnv_lawful { data := text }
    rw [h] at y
    exact C06_lemmas (asciiFold_yields uaxEnv.U y)
  have stack : ∀ {text : Bytes} {mid out : List Token},
      ((tokenize uaxEnv { data := text }).filter ([FilterFlag.ascii, .lemmas].map
        fun f => (f.filter (pipeWorld uaxEnv []).snowball .english).apply uaxEnv)).Yields mid .eof →
      Greedy (tagCompare uaxEnv) (tagDict uaxEnv) (wordLimit (entries uaxEnv stackOverflowMappings)) mid out →
      WritesFor (pipeWorld uaxEnv []) [.ascii, .lemmas, .stack] text (out.flatMap fun t => t.value ++ [0x0A]) :=
    fun h hg => pipe_writes (tags_yields uaxEnv_lawful hlaw.2.1 h hg)
  have hlim : wordLimit (entries uaxEnv stackOverflowMappings) = 5 := by
    rw [stackOverflow_rows]; exact so_limit_eq uaxEnv_follows uaxTable_right uaxEnv_punct
  have line : ∀ {text out : Bytes} {ws : List Bytes}, uaxEnv.scan { data := text } = (ws, none) →
      (((segTokens uaxEnv.U ws).map (foldToken uaxEnv.U)).filter fun t => decide (t.lemma = true)) ≠ [] →
      WritesFor (pipeWorld uaxEnv []) [.ascii, .lemmas, .stack] text out → 1 ≤ out.count 0x0A := by
    intro text out ws h hne hw
    obtain ⟨o, ho⟩ := Greedy.total (tagCompare uaxEnv) (tagDict uaxEnv) (wordLimit (entries uaxEnv stackOverflowMappings))
      (((segTokens uaxEnv.U ws).map (foldToken uaxEnv.U)).filter fun t => decide (t.lemma = true))
    have hon : o ≠ [] := fun h => hne ((h ▸ ho).ne_nil (tagDict_ne_nil uaxEnv_punct))
    rw [hw.unique (stack (toks h) ho)]
    obtain ⟨t, o, rfl⟩ := List.exists_cons_of_ne_nil hon
    rw [List.one_le_count_iff]
    simp
  refine ⟨?_, fun outs ho he => ?_⟩
  · have hmid : (((segTokens uaxEnv.U [str "nöde", [0x0A], str "jś", [0x0A]]).map (foldToken uaxEnv.U)).filter
        fun t => decide (t.lemma = true)) = [mkToken uaxEnv.U (str "node") true, mkToken uaxEnv.U (str "js") true] := by
      decide +kernel
    have h1 := toks (text := str "nöde\njś\n") (ws := [str "nöde", [0x0A], str "jś", [0x0A]]) (by decide +kernel)
    rw [hmid] at h1
    have hdict := tagDict_some uaxEnv_lowers hlaw.2.1 (row := (n!"node.js", n!"node.js")) (p := str "node.js" |>.map UInt8.toNat)
      (mem_so 5 rfl (by decide +kernel)) (by decide +kernel)
    rw [show normalB stackOverflowIgnore (str "node.js" |>.map UInt8.toNat) = (str "nodejs" |>.map UInt8.toNat)
      by decide +kernel, show textOf (n!"node.js", n!"node.js").2 = str "node.js" by decide +kernel] at hdict
    have hg : Greedy (tagCompare uaxEnv) (tagDict uaxEnv) (wordLimit (entries uaxEnv stackOverflowMappings))
        [mkToken uaxEnv.U (str "node") true, mkToken uaxEnv.U (str "js") true]
        (canonTokens uaxEnv.U (str "node.js")) := by
      refine greedy_whole (l := [mkToken uaxEnv.U (str "node") true]) (last := mkToken uaxEnv.U (str "js") true) rfl
        (by decide +kernel) (by decide +kernel) (by decide +kernel) (by decide +kernel) (by rw [hlim]; decide +kernel) ?_
      rw [show (tagCompare uaxEnv).spell [mkToken uaxEnv.U (str "node") true, mkToken uaxEnv.U (str "js") true] =
        (str "nodejs" |>.map UInt8.toNat) by decide +kernel]
      exact hdict
    have := stack h1 hg
    rwa [show (canonTokens uaxEnv.U (str "node.js")).flatMap (fun t => t.value ++ [0x0A]) = str "node.js\n"
      by decide +kernel] at this
  · match outs, ho with
    | [a, b], .cons ha (.cons hb .nil) =>
      have h1 := line (ws := [str "nöde", [0x0A]]) (by decide +kernel) (by decide +kernel) ha
      have h2 := line (ws := [str "jś", [0x0A]]) (by decide +kernel) (by decide +kernel) hb
      have h3 := congrArg (List.count 0x0A) he
      rw [show (str "node.js\n").count 0x0A = 1 by decide +kernel] at h3
      simp only [List.flatten_cons, List.flatten_nil, List.append_nil, List.count_append] at h3
      omega

-- The examples use one concrete reader of HTML.
attribute [local instance] sampleReader

/-- Non-vacuity: the filters of the README, and two lines. -/
example := C97_partial uaxEnv_lawful uaxEnv_follows uaxTable_right uaxEnv_lowers (pipeWorld_piped uaxEnv []) rfl
  (fun _ => ⟨id, id⟩) (fl := [.ascii, .contractions, .stack, .stem, .lemmas]) ⟨by decide, by
    intro pre post h hs
    match pre, h with
    | [_, _, _, _], h => simp at h; simp [h.2.2.2.2] at hs
    | [], h | [_], h | [_, _], h | [_, _, _], h => simp at h
    | _ :: _ :: _ :: _ :: _ :: _, h => simp at h⟩
  (lines := [str "Ruby on\n", str "rails\r\n"])
  (by
    intro l hl
    simp only [List.mem_cons, List.not_mem_nil, or_false] at hl
    rcases hl with rfl | rfl
    · exact ⟨str "Ruby on", by decide +kernel⟩
    · exact ⟨str "rails\r", by decide +kernel⟩) (.inl (by decide +kernel))

example := C97_violated uaxEnv_lawful uaxEnv_follows uaxTable_right

end Jargon
