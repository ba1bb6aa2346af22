import Verif.Proofs.Tables
import Verif.Proofs.SoFacts
import Verif.Proofs.SoPairs
import Verif.Proofs.NbaFacts
import Verif.Proofs.TableWords

/-! C39, C56: the shipped tables of synonyms. -/

namespace Jargon

theorem stackOverflow_rows : stackOverflowMappings = tableOf soRows.flatten := by
  simp [stackOverflowMappings, tableOf, List.map_flatten, List.flatMap_def]
  rfl

theorem nba_rows : nbaMappings = tableOf nbaRows.flatten := by
  simp [nbaMappings, tableOf, List.map_flatten, List.flatMap_def]
  rfl

theorem so_all : ∀ row ∈ soRows.flatten, rowB stackOverflowIgnore soTree row = true := by
  intro row hrow
  obtain ⟨rows, hr, hm⟩ := List.mem_flatten.mp hrow
  exact List.all_eq_true.mp (soRows_checked rows hr) row hm

theorem nba_all : ∀ row ∈ nbaRows.flatten, rowB nbaIgnore nbaTree row = true := by
  intro row hrow
  obtain ⟨rows, hr, hm⟩ := List.mem_flatten.mp hrow
  exact List.all_eq_true.mp (nbaRows_checked rows hr) row hm

/-- **C39 (Stack Overflow).** No two entries of the table claim the same normalized synonym for
different canonicals. -/
theorem C39_stackoverflow_unambiguous (E : Env) (hU : E.U.LowersLatin)
    (hk : ∀ m ∈ stackOverflowMappings, E.CutsCommas m.1) :
    Unambiguous ⟨E.U, true, stackOverflowIgnore⟩ (entries E stackOverflowMappings) := by
  rw [stackOverflow_rows] at hk ⊢
  exact table_unambiguous hU so_all hk

/-- **C39 (NBA).** -/
theorem C39_nba_unambiguous (E : Env) (hU : E.U.LowersLatin)
    (hk : ∀ m ∈ nbaMappings, E.CutsCommas m.1) :
    Unambiguous ⟨E.U, true, nbaIgnore⟩ (entries E nbaMappings) := by
  rw [nba_rows] at hk ⊢
  exact table_unambiguous hU nba_all hk

/-- **C39 (same on every run).** In whatever order Go iterates the tables, `Tags` and `CurrentPlayers`
deliver the same tokens. -/
theorem C39_same_every_run {E : Env} (hE : E.Lawful) (hU : E.U.LowersLatin)
    (hso : ∀ m ∈ stackOverflowMappings, E.CutsCommas m.1)
    (hnba : ∀ m ∈ nbaMappings, E.CutsCommas m.1)
    {ts : TokenStream} {toks : List Token} {e : End} (h : ts.Yields toks e) :
    (∃ out, ∀ order, order.Perm stackOverflowMappings →
      (synonyms E order true stackOverflowIgnore ts).Yields out e) ∧
    (∃ out, ∀ order, order.Perm nbaMappings → (synonyms E order true nbaIgnore ts).Yields out e) := by
  have key : ∀ (mappings : StringMap) (ign : List Nat), (∀ m ∈ mappings, E.CutsCommas m.1) →
      Unambiguous ⟨E.U, true, ign⟩ (entries E mappings) →
      ∃ out, ∀ order, order.Perm mappings → (synonyms E order true ign ts).Yields out e := by
    intro mappings ign hk hu
    obtain ⟨out, h1, -⟩ := C38_iteration_order hE mappings mappings (List.Perm.refl _) true ign
      (fun m hm => (hk m hm).scans) hu h
    refine ⟨out, fun order ho => ?_⟩
    obtain ⟨out', h2, h3⟩ := C38_iteration_order hE mappings order ho.symm true ign
      (fun m hm => (hk m hm).scans) hu h
    rw [(h1.unique h2).1]
    exact h3
  exact ⟨key _ _ hso (C39_stackoverflow_unambiguous E hU hso),
    key _ _ hnba (C39_nba_unambiguous E hU hnba)⟩

/-! #### The hypotheses can be met -/

theorem decodeRune_append_ascii {a : Bytes} (ha : a ≠ []) {b : UInt8} (hb : b.toNat < 0x80) (t : Bytes) :
    decodeRune (a ++ b :: t) = decodeRune a := by
  have hc : ∀ lo hi, 0x80 ≤ lo → contIn lo hi b = false := by
    intro lo hi h
    rw [Bool.eq_false_iff, ne_eq, contIn_iff]
    omega
  match a with
  | [] => exact absurd rfl ha
  | [a0] =>
    simp only [decodeRune, List.cons_append, List.nil_append]
    repeat' split
    all_goals simp_all
  | [a0, a1] =>
    simp only [decodeRune, List.cons_append, List.nil_append]
    repeat' split
    all_goals simp_all
  | [a0, a1, a2] =>
    simp only [decodeRune, List.cons_append, List.nil_append]
    repeat' split
    all_goals simp_all
  | a0 :: a1 :: a2 :: a3 :: as => rfl

theorem runes_append_ascii (a : Bytes) {b : UInt8} (hb : b.toNat < 0x80) (t : Bytes) :
    runes (a ++ b :: t) = runes a ++ runes (b :: t) := by
  induction hn : a.length using Nat.strongRecOn generalizing a with
  | _ n ih =>
    cases a with
    | nil => simp
    | cons a0 as =>
      have hd := decodeRune_append_ascii (a := a0 :: as) (by simp) hb t
      have hw := decodeRune_width_pos a0 as
      have hle := decodeRune_width_le (a0 :: as)
      rw [List.cons_append] at hd ⊢
      rw [runes_cons, runes_cons a0 as, hd, ← List.cons_append, List.drop_append_of_le_length hle]
      rw [ih _ ?_ ((a0 :: as).drop (decodeRune (a0 :: as)).2) rfl]
      · rfl
      · rw [List.length_drop]; omega

/-- A sample segmenter with Latin letters. -/
def latinEnv : Env where
  U := { asciiUnicode with toLower := fun r => if r < 0x180 then latinLower r else r }
  scan := sampleEnv.scan

theorem latinEnv_lawful : latinEnv.Lawful :=
  ⟨sampleEnv_lawful.nonempty, sampleEnv_lawful.complete, sampleEnv_lawful.sound⟩

theorem latinEnv_lowers : latinEnv.U.LowersLatin := fun _ hr => if_pos hr

theorem sampleSegs_shape (s : Bytes) : ∀ seg ∈ sampleSegs s,
    (∃ b, seg = [b]) ∨ ∀ b ∈ seg, alnum b = true := by
  induction s with
  | nil => simp [sampleSegs]
  | cons b t ih =>
    unfold sampleSegs
    split
    · rename_i c cs rest h
      rw [h] at ih
      split
      · rename_i hbc
        simp only [Bool.and_eq_true] at hbc
        intro seg hseg
        rcases List.mem_cons.mp hseg with rfl | hseg
        · right
          intro x hx
          rcases List.mem_cons.mp hx with rfl | hx
          · exact hbc.1
          · rcases ih (c :: cs) (by simp) with ⟨d, hd⟩ | hall
            · cases hd; simp at hx; rw [hx]; exact hbc.2
            · exact hall x hx
        · exact ih seg (List.mem_cons_of_mem _ hseg)
      · intro seg hseg
        rcases List.mem_cons.mp hseg with rfl | hseg
        · exact Or.inl ⟨b, rfl⟩
        · exact ih seg hseg
    · intro seg hseg
      rcases List.mem_cons.mp hseg with rfl | hseg
      · exact Or.inl ⟨b, rfl⟩
      · exact ih seg hseg

theorem alnum_of_ge {b : UInt8} (h : alnum b = false) : b.toNat < 0x80 := by
  simp only [alnum, Bool.or_eq_false_iff, decide_eq_false_iff_not, UInt8.not_le] at h
  simpa [UInt8.lt_iff_toNat_lt] using h.2

/-- Between two segments there is an ASCII byte on one side. -/
def AsciiCut : List Bytes → Prop
  | a :: (c :: cs) :: rest =>
    (alnum c = false ∨ ∃ b, a = [b] ∧ alnum b = false) ∧ AsciiCut ((c :: cs) :: rest)
  | _ :: [] :: _ => False
  | _ => True

theorem sampleSegs_cut (s : Bytes) : AsciiCut (sampleSegs s) := by
  induction s with
  | nil => trivial
  | cons b t ih =>
    have hne := sampleSegs_nonempty t
    unfold sampleSegs
    split
    · rename_i c cs rest h
      rw [h] at ih hne
      split
      · rename_i hbc
        simp only [Bool.and_eq_true] at hbc
        match rest, ih, hne with
        | [], _, _ => trivial
        | [] :: _, _, hne => exact absurd rfl (hne [] (by simp))
        | (d :: ds) :: rest, ih, _ =>
          refine ⟨?_, ih.2⟩
          rcases ih.1 with hd | ⟨x, hx, hx'⟩
          · exact Or.inl hd
          · cases hx; rw [hbc.2] at hx'; cases hx'
      · rename_i hbc
        refine ⟨?_, ih⟩
        rw [Bool.and_eq_true, not_and, Bool.not_eq_true] at hbc
        cases hb : alnum b
        · exact Or.inr ⟨b, rfl, hb⟩
        · exact Or.inl (hbc hb)
    · rename_i h
      match hs : sampleSegs t with
      | [] => trivial
      | [] :: _ => exact absurd rfl (hne [] (by simp [hs]))
      | (c :: cs) :: rest => exact absurd hs (h c cs rest)

theorem whole_of_cut (segs : List Bytes) (h : AsciiCut segs) : segs.flatMap runes = runes segs.flatten := by
  induction segs with
  | nil => rfl
  | cons a rest ih =>
    rw [List.flatMap_cons, List.flatten_cons]
    match rest, h with
    | [], _ => simp
    | (c :: cs) :: rest, h =>
      rw [ih h.2, List.flatten_cons, List.cons_append]
      rcases h.1 with hc | ⟨b, rfl, hb⟩
      · exact (runes_append_ascii a (alnum_of_ge hc) _).symm
      · rw [List.singleton_append, runes_ascii_cons (alnum_of_ge hb),
          runes_ascii_cons (alnum_of_ge hb)]
        simp

/-- A comma among the runes is a comma among the bytes. -/
theorem comma_mem {s : Bytes} (h : 0x2C ∈ runes s) : (0x2C : UInt8) ∈ s := by
  induction hn : s.length using Nat.strongRecOn generalizing s with
  | _ n ih =>
    cases s with
    | nil => simp at h
    | cons b t =>
      by_cases hb : b.toNat < 0x80
      · rw [runes_ascii_cons hb] at h
        rcases List.mem_cons.mp h with h | h
        · have : b = 0x2C := UInt8.toNat_inj.mp h.symm
          simp [this]
        · exact List.mem_cons_of_mem _ (ih _ (by simp at hn; omega) h rfl)
      · rw [runes_cons] at h
        rcases List.mem_cons.mp h with h | h
        · exfalso
          revert h
          simp only [decodeRune, hb, ↓reduceIte]
          repeat' split
          all_goals simp [runeError, contIn] at *
          all_goals omega
        · have hw := decodeRune_width_pos b t
          have := ih _ (by rw [List.length_drop]; simp at hn ⊢; omega) h rfl
          exact List.mem_of_mem_drop this

theorem latinEnv_cuts (s : Bytes) : latinEnv.CutsCommas s where
  scans := rfl
  whole := (whole_of_cut _ (sampleSegs_cut s)).trans (congrArg runes (sampleSegs_flatten s))
  comma := by
    intro seg hseg hc
    have hc := comma_mem hc
    rcases sampleSegs_shape s seg hseg with ⟨b, rfl⟩ | hall
    · simp at hc; rw [← hc]
    · exact absurd (hall _ hc) (by decide)

-- the hypotheses of C39 hold of a lawful environment
example : latinEnv.Lawful ∧ latinEnv.U.LowersLatin ∧ ∀ s, latinEnv.CutsCommas s :=
  ⟨latinEnv_lawful, latinEnv_lowers, latinEnv_cuts⟩

/-! ### C56 -/

section
variable {E : Env} {ign : List Nat} {tree : Tree} {rows : List (Nat × Nat)}

theorem entry_of_piece (hU : E.U.LowersLatin) (hc : ∀ row ∈ rows, rowB ign tree row = true)
    (hk : ∀ m ∈ tableOf rows, E.CutsCommas m.1) {row : Nat × Nat} (hrow : row ∈ rows)
    {p : List Nat} (hp : p ∈ cutRunes (runes (textOf row.1))) :
    ∃ a ∈ entries E (tableOf rows), (Compare.mk E.U true ign).spell a.1 = normalB ign p ∧
      a.2 = textOf row.2 := by
  obtain ⟨h1, -, -⟩ := rowB_spec (hc row hrow)
  have hm : (textOf row.1, textOf row.2) ∈ tableOf rows := List.mem_map_of_mem (f := fun r => (textOf r.1, textOf r.2)) hrow
  have hsp := listed_spells (C := Compare.mk E.U true ign) (hk _ hm) (fun r hr hsp => by
    have := h1 r hr
    show E.U.toLower r ∈ ign
    rw [hU r this.1]
    exact this.2 hsp)
  have hmem : (Compare.mk E.U true ign).normal p ∈
      (cutRunes (runes (textOf row.1))).map (Compare.mk E.U true ign).normal := List.mem_map_of_mem hp
  rw [← hsp, List.mem_map] at hmem
  obtain ⟨s, hs, hsn⟩ := hmem
  refine ⟨(s, textOf row.2), ?_, ?_, rfl⟩
  · simp only [entries, List.mem_flatMap, List.mem_map]
    exact ⟨_, hm, s, hs, rfl⟩
  · rw [hsn, normalB_eq hU ign fun r hr => (h1 r (cutRunes_subset hp r hr)).1]

theorem dict_of_piece (hU : E.U.LowersLatin) (hc : ∀ row ∈ rows, rowB ign tree row = true)
    (hk : ∀ m ∈ tableOf rows, E.CutsCommas m.1) {row : Nat × Nat} (hrow : row ∈ rows)
    {p : List Nat} (hp : p ∈ cutRunes (runes (textOf row.1))) :
    (Compare.mk E.U true ign).dict (entries E (tableOf rows)) (normalB ign p) =
      some (textOf row.2) := by
  obtain ⟨a, ha, hsp, hv⟩ := entry_of_piece hU hc hk hrow hp
  cases hd : (Compare.mk E.U true ign).dict (entries E (tableOf rows)) (normalB ign p) with
  | none => exact absurd hsp (dict_none hd a ha)
  | some c =>
    obtain ⟨b, hb, hbs, rfl⟩ := dict_some hd
    rw [table_unambiguous hU hc hk b hb a ha (hbs.trans hsp.symm), hv]

theorem dict_absent (hU : E.U.LowersLatin) (hc : ∀ row ∈ rows, rowB ign tree row = true)
    (hk : ∀ m ∈ tableOf rows, E.CutsCommas m.1) {q : List Nat} (hq : tree.find (hash q) = none) :
    (Compare.mk E.U true ign).dict (entries E (tableOf rows)) q = none := by
  cases hd : (Compare.mk E.U true ign).dict (entries E (tableOf rows)) q with
  | none => rfl
  | some c =>
    obtain ⟨b, hb, hbs, rfl⟩ := dict_some hd
    obtain ⟨v, hv, -⟩ := entry_found hU hc hk hb
    rw [hbs, hq] at hv
    cases hv

theorem dict_self (hU : E.U.LowersLatin) (hc : ∀ row ∈ rows, rowB ign tree row = true)
    (hk : ∀ m ∈ tableOf rows, E.CutsCommas m.1)
    (hs : ∀ row ∈ rows, ∃ r ∈ rows, r.2 = row.2 ∧ homeB ign r = true)
    {k v : Bytes} (h : (k, v) ∈ tableOf rows) :
    (Compare.mk E.U true ign).dict (entries E (tableOf rows))
      ((Compare.mk E.U true ign).normal (runes v)) = some v := by
  simp only [tableOf, List.mem_map] at h
  obtain ⟨row, hrow, hrv⟩ := h
  cases hrv
  obtain ⟨r, hr, hrv, hhome⟩ := hs row hrow
  simp only [homeB, List.any_eq_true, runesB_eq, cutB_eq] at hhome
  obtain ⟨p, hp, he⟩ := hhome
  have := dict_of_piece hU hc hk hr hp
  rw [eqB_eq he, hrv] at this
  rw [normalB_eq hU ign (rowB_spec (hc row hrow)).2.2]
  exact this

end

/-- A filter that leaves a one-token stream with a synonym of itself alone. -/
theorem synonyms_fixed {E : Env} (hE : E.Lawful) {mappings : StringMap} {ign : List Nat}
    (hs : ∀ m ∈ mappings, (E.scan { data := m.1 }).2 = none) {v : Bytes} (hv : v ≠ [])
    (hd : (Compare.mk E.U true ign).dict (entries E mappings)
      ((Compare.mk E.U true ign).normal (runes v)) = some v)
    {t : Token} (ht : t.value = v) (hw : t.IsWord) {ts : TokenStream} (h : ts.Yields [t] .eof) :
    (synonyms E mappings true ign ts).Yields [mkToken E.U v true] .eof := by
  have := synonyms_yields (ic := true) (ign := ign) hE hs h (out := [mkToken E.U v true]) ?_
  · simpa using this
  · have hsp : (Compare.mk E.U true ign).spell [t] = (Compare.mk E.U true ign).normal (runes v) := by
      simp [Compare.spell, ht]
    have := Greedy.replace (C := Compare.mk E.U true ign) (D := (Compare.mk E.U true ign).dict
      (entries E mappings)) (maxWords := wordLimit (entries E mappings)) (t := t) (ts := []) (out := [])
      (k := 1) (canonical := v) hw ?_ .nil
    · simpa [canonTokens, hv] using this
    · have hk : ∀ j, Admissible (wordLimit (entries E mappings)) [t] j → j = 1 := by
        intro j hj
        have := hj.pos
        have := hj.le
        simp at *
        omega
      refine ⟨⟨by simp, by simp, ?_, ?_⟩, ?_, ?_, ?_⟩
      · intro x hx; simp at hx; rw [hx]; exact hw.1
      · exact wordLimit_pos _
      · rw [show [t].take 1 = [t] from rfl, hsp]; exact hd
      · intro j hj hlt; have := hk j hj; omega
      · intro j hj hlt; have := hk j hj; omega

theorem mkToken_word {U : Unicode} (hU : U.PlainNotPunct) {v : Bytes} (l : Bool)
    (h : ∃ r ∈ runes v, isPlain r = true) : (mkToken U v l).IsWord ∧ v ≠ [] := by
  obtain ⟨r, hr, hp⟩ := h
  have hp' := hU r hp
  simp only [isPlain, Bool.or_eq_true, Bool.and_eq_true, decide_eq_true_eq] at hp
  refine ⟨⟨?_, ?_⟩, by rintro rfl; simp at hr⟩
  · show (runes v).all U.punctRune = false
    rw [List.all_eq_false]
    refine ⟨r, hr, ?_⟩
    rw [punctRune_iff, hp']
    simp only [Bool.false_eq_true, false_or]
    omega
  · show (runes v).all isSpaceRune = false
    rw [List.all_eq_false]
    refine ⟨r, hr, ?_⟩
    rw [isSpaceRune_iff]
    simp only [whiteSpace, List.mem_cons, List.not_mem_nil, or_false]
    omega

theorem row_plain {rows : List (Nat × Nat)} (h : rows.all (fun r => plainB (runesB r.2)) = true)
    {k v : Bytes} (hm : (k, v) ∈ tableOf rows) : ∃ r ∈ runes v, isPlain r = true := by
  simp only [tableOf, List.mem_map] at hm
  obtain ⟨row, hrow, hrv⟩ := hm
  cases hrv
  rw [← runesB_eq]
  exact plainB_spec (List.all_eq_true.mp h row hrow)

/-- **C56 (Stack Overflow).** Every canonical of the table is a synonym of itself: as a token, `Tags`
delivers it again. -/
theorem C56_stackoverflow_canonicals {E : Env} (hE : E.Lawful) (hU : E.U.LowersLatin)
    (hP : E.U.PlainNotPunct) (hk : ∀ m ∈ stackOverflowMappings, E.CutsCommas m.1) {k v : Bytes}
    (hm : (k, v) ∈ stackOverflowMappings) {ts : TokenStream}
    (h : ts.Yields [mkToken E.U v true] .eof) :
    (tags E ts).Yields [mkToken E.U v true] .eof := by
  have hs : ∀ m ∈ stackOverflowMappings, (E.scan { data := m.1 }).2 = none := fun m hm => (hk m hm).scans
  have hw := mkToken_word hP true (row_plain soRows_plain (stackOverflow_rows ▸ hm))
  refine synonyms_fixed hE hs hw.2 ?_ rfl hw.1 h
  rw [stackOverflow_rows] at hk hm ⊢
  exact dict_self hU so_all hk soRows_self hm

/-- **C56 (NBA).** -/
theorem C56_nba_canonicals {E : Env} (hE : E.Lawful) (hU : E.U.LowersLatin)
    (hP : E.U.PlainNotPunct) (hk : ∀ m ∈ nbaMappings, E.CutsCommas m.1) {k v : Bytes}
    (hm : (k, v) ∈ nbaMappings) {ts : TokenStream} (h : ts.Yields [mkToken E.U v true] .eof) :
    (currentPlayers E ts).Yields [mkToken E.U v true] .eof := by
  have hs : ∀ m ∈ nbaMappings, (E.scan { data := m.1 }).2 = none := fun m hm => (hk m hm).scans
  have hw := mkToken_word hP true (row_plain nbaRows_plain (nba_rows ▸ hm))
  refine synonyms_fixed hE hs hw.2 ?_ rfl hw.1 h
  rw [nba_rows] at hk hm ⊢
  exact dict_self hU nba_all hk nbaRows_self hm

theorem latinEnv_plain : latinEnv.U.PlainNotPunct := by
  intro r hr
  simp only [isPlain, Bool.or_eq_true, Bool.and_eq_true, decide_eq_true_eq] at hr
  have h : r < 0x80 := by omega
  have key : ∀ r < 0x80, ((0x30 ≤ r ∧ r ≤ 0x39) ∨ (0x41 ≤ r ∧ r ≤ 0x5A)) ∨ (0x61 ≤ r ∧ r ≤ 0x7A) →
      latinEnv.U.isPunct r = false := by decide +kernel
  exact key r h hr

theorem mem_so {row : Nat × Nat} (i : Nat) {rows : List (Nat × Nat)} (hi : soRows[i]? = some rows)
    (h : pairB row.1 row.2 rows = true) : row ∈ soRows.flatten :=
  List.mem_flatten.mpr ⟨rows, List.mem_of_getElem? hi, pairB_mem h⟩

-- a canonical
example : (str "ruby on rails", str "ruby-on-rails") ∈ stackOverflowMappings := by
  rw [stackOverflow_rows]
  refine List.mem_map.mpr ⟨(n!"ruby on rails", n!"ruby-on-rails"), mem_so 7 rfl ?_, ?_⟩ <;> decide +kernel

end Jargon
