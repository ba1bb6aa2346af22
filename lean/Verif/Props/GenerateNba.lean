import Verif.Model.Generate
import Verif.Model.Tables
import Verif.Proofs.Strings
import Verif.Props.Ascii
import Verif.Props.Tables
import Verif.Proofs.NbaGenerated

/-! C64: the generator of filters/nba. -/

namespace Jargon

theorem splitByte_ne_nil (sep : UInt8) (s : Bytes) : ∃ p ps, splitByte sep s = p :: ps := by
  cases s with
  | nil => exact ⟨_, _, rfl⟩
  | cons b t =>
    unfold splitByte
    split
    · exact ⟨_, _, rfl⟩
    · split <;> exact ⟨_, _, rfl⟩

theorem splitByte_length (sep : UInt8) (s : Bytes) : (splitByte sep s).length = s.count sep + 1 := by
  induction s with
  | nil => rfl
  | cons b t ih =>
    unfold splitByte
    obtain ⟨p, ps, hp⟩ := splitByte_ne_nil sep t
    rw [hp] at ih ⊢
    split
    · rename_i h; simp only [List.length_cons] at ih ⊢; rw [h, List.count_cons_self]; omega
    · rename_i h; simp only [List.length_cons] at ih ⊢; rw [List.count_cons_of_ne (by simpa using h)]; omega

theorem splitByte_none {sep : UInt8} {s : Bytes} (h : sep ∉ s) : splitByte sep s = [s] := by
  induction s with
  | nil => rfl
  | cons b t ih =>
    simp only [List.mem_cons, not_or] at h
    rw [splitByte, if_neg (Ne.symm h.1), ih h.2]

theorem splitByte_cons {sep : UInt8} {a : Bytes} (h : sep ∉ a) (s : Bytes) :
    splitByte sep (a ++ sep :: s) = a :: splitByte sep s := by
  induction a with
  | nil => simp [splitByte]
  | cons b t ih =>
    simp only [List.mem_cons, not_or] at h
    rw [List.cons_append, splitByte, if_neg (Ne.symm h.1), ih h.2]

theorem splitByte_not_mem (sep : UInt8) (s : Bytes) : ∀ p ∈ splitByte sep s, sep ∉ p := by
  induction s with
  | nil => simp [splitByte]
  | cons b t ih =>
    unfold splitByte
    obtain ⟨p, ps, hp⟩ := splitByte_ne_nil sep t
    rw [hp] at ih ⊢
    split
    · intro q hq
      rcases List.mem_cons.mp hq with rfl | hq
      · simp
      · exact ih q hq
    · rename_i h
      intro q hq
      rcases List.mem_cons.mp hq with rfl | hq
      · simp only [List.mem_cons, not_or]
        exact ⟨Ne.symm h, ih p (by simp)⟩
      · exact ih q (by simp [hq])

/-- Cutting in two. -/
theorem splitByte_two {sep : UInt8} {s a b : Bytes} :
    splitByte sep s = [a, b] ↔ s = a ++ sep :: b ∧ sep ∉ a ∧ sep ∉ b := by
  constructor
  · intro h
    have hnot := splitByte_not_mem sep s
    rw [h] at hnot
    refine ⟨?_, hnot a (by simp), hnot b (by simp)⟩
    clear hnot
    induction s generalizing a with
    | nil => simp [splitByte] at h
    | cons x t ih =>
      rw [splitByte] at h
      split at h
      · rename_i hx
        simp only [List.cons.injEq] at h
        obtain ⟨rfl, h⟩ := h
        rw [hx, List.nil_append]
        congr 1
        cases t with
        | nil => simpa [splitByte] using h
        | cons y t =>
          rw [splitByte] at h
          split at h
          · obtain ⟨p, ps, hp⟩ := splitByte_ne_nil sep t
            rw [hp] at h
            simp at h
          · clear ih hx
            rename_i hy
            obtain ⟨p, ps, hp⟩ := splitByte_ne_nil sep t
            rw [hp] at h
            simp only [List.cons.injEq] at h
            obtain ⟨rfl, rfl⟩ := h
            have hlen := splitByte_length sep t
            rw [hp] at hlen
            have hc : sep ∉ t := by
              rw [← List.count_eq_zero]; simp at hlen; omega
            rw [splitByte_none hc] at hp
            simp at hp
            rw [hp]
      · obtain ⟨p, ps, hp⟩ := splitByte_ne_nil sep t
        rw [hp] at h
        simp only [List.cons.injEq] at h
        obtain ⟨rfl, rfl⟩ := h
        rw [ih hp]
        rfl
  · rintro ⟨rfl, ha, hb⟩
    rw [splitByte_cons ha, splitByte_none hb]

theorem splitByte_two_iff {sep : UInt8} {s : Bytes} :
    (∃ a b, splitByte sep s = [a, b]) ↔ s.count sep = 1 := by
  have := splitByte_length sep s
  constructor
  · rintro ⟨a, b, h⟩
    rw [h] at this
    simp at this
    omega
  · intro h
    rw [h] at this
    match hs : splitByte sep s, this with
    | [a, b], _ => exact ⟨a, b, rfl⟩

/-! ### The specification -/

/-- The entry for a name as Wikipedia lists it, "last, first": the canonical is "first last", without the
white space around the two; its synonyms are the canonical and, if that differs, what `FoldString` makes
of it (see C17). -/
def NbaEntry (name k v : Bytes) : Prop :=
  ∃ last first last' first', name = last ++ 0x2C :: first ∧ 0x2C ∉ last ∧ 0x2C ∉ first ∧
    Trimmed last last' ∧ Trimmed first first' ∧ v = first' ++ 0x20 :: last' ∧
    k = if (foldString v).2 then v ++ 0x2C :: 0x20 :: (foldString v).1 else v

theorem nbaKey_eq (v : Bytes) :
    nbaKey v = if (foldString v).2 then v ++ 0x2C :: 0x20 :: (foldString v).1 else v := by
  unfold nbaKey
  have h : str ", " = [0x2C, 0x20] := by decide +kernel
  rw [h]
  cases hf : foldString v with
  | mk f b => cases b <;> simp [join]

theorem trimmed_sub {s m : Bytes} (h : Trimmed s m) {x : UInt8} (hx : x ∈ m) : x ∈ s := by
  obtain ⟨⟨a, b, -, -, rfl⟩, -⟩ := h
  simp [hx]

/-- The key determines the canonical. -/
theorem nbaEntry_key {name name' k v v' : Bytes} (h : NbaEntry name k v) (h' : NbaEntry name' k v') :
    v = v' := by
  have hno : ∀ {name k v : Bytes}, NbaEntry name k v → 0x2C ∉ v ∧ k.takeWhile (· ≠ 0x2C) = v := by
    rintro name k v ⟨last, first, last', first', -, hl, hf, tl, tf, rfl, rfl⟩
    have hc : (0x2C : UInt8) ∉ first' ++ 0x20 :: last' := by
      intro hm
      rcases List.mem_append.mp hm with hm | hm
      · exact hf (trimmed_sub tf hm)
      · rcases List.mem_cons.mp hm with hm | hm
        · exact absurd hm (by decide)
        · exact hl (trimmed_sub tl hm)
    refine ⟨hc, ?_⟩
    have ht : ∀ (v rest : Bytes), (0x2C : UInt8) ∉ v → (rest = [] ∨ rest.head? = some 0x2C) →
        (v ++ rest).takeWhile (· ≠ 0x2C) = v := by
      intro v rest hv hr
      induction v with
      | nil =>
        rcases hr with rfl | hr
        · rfl
        · cases rest with
          | nil => rfl
          | cons y ys => simp at hr; rw [hr]; rfl
      | cons y ys ih =>
        simp only [List.mem_cons, not_or] at hv
        rw [List.cons_append, List.takeWhile_cons, if_pos (by simpa using Ne.symm hv.1), ih hv.2]
    split
    · exact ht _ _ hc (Or.inr rfl)
    · have := ht _ [] hc (Or.inl rfl)
      rwa [List.append_nil] at this
  rw [← (hno h).2, (hno h').2]

theorem nbaEntry_of_split {name a b : Bytes} (h : splitByte 0x2C name = [a, b]) {k v : Bytes} :
    NbaEntry name k v ↔ v = trimSpace b ++ str " " ++ trimSpace a ∧ k = nbaKey v := by
  have hsp : str " " = [0x20] := by decide +kernel
  rw [hsp, List.append_assoc, List.singleton_append]
  obtain ⟨h1, h2, h3⟩ := splitByte_two.mp h
  constructor
  · rintro ⟨last, first, last', first', hn, hl, hf, tl, tf, hv, hk⟩
    have := splitByte_two.mpr ⟨hn, hl, hf⟩
    rw [h] at this
    simp only [List.cons.injEq, and_true] at this
    obtain ⟨rfl, rfl⟩ := this
    rw [trimSpace_eq tl, trimSpace_eq tf, nbaKey_eq]
    exact ⟨hv, hk⟩
  · rintro ⟨rfl, rfl⟩
    exact ⟨a, b, _, _, h1, h2, h3, trimSpace_trimmed a, trimSpace_trimmed b, rfl, nbaKey_eq _⟩

theorem nbaLoop_ok {names done : List Bytes} {m m' : StringMap} (h : nbaLoop names m = .ok m')
    (hm : ∀ k v, (k, v) ∈ m ↔ ∃ n ∈ done, NbaEntry n k v) (hd : (m.map Prod.fst).Nodup) :
    (∀ n ∈ names, n.count 0x2C = 1) ∧ (m'.map Prod.fst).Nodup ∧
    ∀ k v, (k, v) ∈ m' ↔ ∃ n ∈ done ++ names, NbaEntry n k v := by
  induction names generalizing done m with
  | nil =>
    rw [nbaLoop, Except.ok.injEq] at h
    subst h
    exact ⟨by simp, hd, by simpa using hm⟩
  | cons name names ih =>
    rw [nbaLoop] at h
    split at h
    · rename_i a b hs
      have hent := @nbaEntry_of_split name a b hs
      simp only at h
      generalize hv : trimSpace b ++ str " " ++ trimSpace a = v at h
      have hm' : ∀ k w, (k, w) ∈ m.set (nbaKey v) v ↔ ∃ n ∈ done ++ [name], NbaEntry n k w := by
        intro k w
        rw [mem_set, hm]
        have hself : NbaEntry name (nbaKey v) v := hent.mpr ⟨hv.symm, rfl⟩
        constructor
        · rintro (he | ⟨⟨n, hn, he⟩, -⟩)
          · cases he
            exact ⟨name, by simp, hself⟩
          · exact ⟨n, by simp [hn], he⟩
        · rintro ⟨n, hn, he⟩
          rcases List.mem_append.mp hn with hn | hn
          · by_cases hk : k = nbaKey v
            · left
              rw [hk] at he ⊢
              rw [nbaEntry_key he hself]
            · exact Or.inr ⟨⟨n, hn, he⟩, hk⟩
          · rw [List.mem_singleton.mp hn] at he
            obtain ⟨hw, hk⟩ := hent.mp he
            left
            rw [hk, hw, hv]
      obtain ⟨h1, h2, h3⟩ := ih h hm' (nodup_set hd _ _)
      refine ⟨?_, h2, ?_⟩
      · intro n hn
        rcases List.mem_cons.mp hn with rfl | hn
        · exact splitByte_two_iff.mp ⟨a, b, hs⟩
        · exact h1 n hn
      · intro k w
        rw [h3, List.append_assoc, List.singleton_append]
    · cases h

/-! ### C64 -/

/-- **C64 (names).** The generator fails just when some name does not have exactly one comma, and then
reports the first such name. -/
theorem C64_nba_error (names : List Bytes) (e : Bytes) : nbaGenerate names = .error e ↔
    ∃ pre post, names = pre ++ e :: post ∧ (∀ n ∈ pre, n.count 0x2C = 1) ∧ e.count 0x2C ≠ 1 := by
  unfold nbaGenerate
  generalize ([] : StringMap) = m
  induction names generalizing m with
  | nil => simp [nbaLoop]
  | cons name names ih =>
    rw [nbaLoop]
    split
    · rename_i a b hs
      have h1 := splitByte_two_iff.mp ⟨a, b, hs⟩
      simp only
      rw [ih]
      constructor
      · rintro ⟨pre, post, rfl, hp, he⟩
        refine ⟨name :: pre, post, rfl, ?_, he⟩
        intro n hn
        rcases List.mem_cons.mp hn with rfl | hn
        · exact h1
        · exact hp n hn
      · rintro ⟨pre, post, hn, hp, he⟩
        cases pre with
        | nil =>
          simp only [List.nil_append, List.cons.injEq] at hn
          rw [← hn.1] at he
          exact absurd h1 he
        | cons p pre =>
          simp only [List.cons_append, List.cons.injEq] at hn
          exact ⟨pre, post, hn.2, fun n hn' => hp n (by simp [hn']), he⟩
    · rename_i hs
      have h1 : name.count 0x2C ≠ 1 := fun h => by
        obtain ⟨a, b, hab⟩ := splitByte_two_iff.mpr h
        exact hs a b hab
      simp only [Except.error.injEq]
      constructor
      · rintro rfl
        exact ⟨[], names, rfl, by simp, h1⟩
      · rintro ⟨pre, post, hn, hp, he⟩
        cases pre with
        | nil =>
          simp only [List.nil_append, List.cons.injEq] at hn
          exact hn.1
        | cons p pre =>
          simp only [List.cons_append, List.cons.injEq] at hn
          exact absurd (hn.1 ▸ hp p (by simp)) h1

/-- **C64 (table).** Otherwise its table has exactly the entries of the names, each key once. -/
theorem C64_nba_table {names : List Bytes} {m : StringMap} (h : nbaGenerate names = .ok m) :
    (m.map Prod.fst).Nodup ∧ ∀ k v, (k, v) ∈ m ↔ ∃ n ∈ names, NbaEntry n k v := by
  obtain ⟨-, h2, h3⟩ := nbaLoop_ok (done := []) h (by simp) (by simp)
  exact ⟨h2, by simpa using h3⟩

/-- One row of the shipped table. -/
theorem nba_row_entry {row : Nat × Nat} (h : row ∈ nbaRows.flatten) :
    NbaEntry (nbaListed (textOf row.2)) (textOf row.1) (textOf row.2) ∧
      (nbaListed (textOf row.2)).count 0x2C = 1 := by
  have := of_decide_eq_true (nbaRows_generated row h)
  obtain ⟨h1, -, h2⟩ := nbaLoop_ok (done := []) this (by simp) (by simp)
  have h3 := (h2 (textOf row.1) (textOf row.2)).mp (by simp)
  simp only [List.nil_append, List.mem_singleton, exists_eq_left] at h3
  exact ⟨h3, h1 _ (by simp)⟩

/-- **C64 (shipped).** The table in the repository is what the generator makes of some list of names: it
has not been changed by hand, in no entry. -/
theorem C64_nba_shipped : ∃ names m, nbaGenerate names = .ok m ∧ m.Perm nbaMappings := by
  cases hg : nbaGenerate (nbaRows.flatten.map fun row => nbaListed (textOf row.2)) with
  | error e =>
    obtain ⟨pre, post, hn, -, he⟩ := (C64_nba_error _ e).mp hg
    have : e ∈ nbaRows.flatten.map fun row => nbaListed (textOf row.2) := by rw [hn]; simp
    obtain ⟨row, hr, rfl⟩ := List.mem_map.mp this
    exact absurd (nba_row_entry hr).2 he
  | ok m =>
    refine ⟨_, m, hg, ?_⟩
    obtain ⟨h1, h2⟩ := C64_nba_table hg
    have nd : ∀ {l : StringMap}, (l.map Prod.fst).Nodup → l.Nodup := fun h => h.of_map _
    rw [nba_rows]
    refine (List.perm_ext_iff_of_nodup (nd h1) (nd ?_)).mpr ?_
    · rw [tableOf, List.map_map]
      exact sorted_keys nbaRows_sorted
    · rintro ⟨k, v⟩
      rw [h2]
      simp only [tableOf, List.mem_map]
      constructor
      · rintro ⟨n, ⟨row, hr, rfl⟩, he⟩
        obtain ⟨he', -⟩ := nba_row_entry hr
        refine ⟨row, hr, ?_⟩
        obtain ⟨a, b, hs⟩ := splitByte_two_iff.mpr (nba_row_entry hr).2
        obtain ⟨hv, hk⟩ := (nbaEntry_of_split hs).mp he
        obtain ⟨hv', hk'⟩ := (nbaEntry_of_split hs).mp he'
        rw [hk, hv, hk', hv']
      · rintro ⟨row, hr, he⟩
        cases he
        exact ⟨_, ⟨row, hr, rfl⟩, (nba_row_entry hr).1⟩

/-- Non-vacuity: two names and an invalid one. -/
example : nbaGenerate [str "Žižić, Ante ", str "Horford, Al"] = .ok
      [(str "Al Horford", str "Al Horford"), (str "Ante Žižić, Ante Zizic", str "Ante Žižić")] ∧
    nbaGenerate [str "Žižić, Ante ", str "Nenê"] = .error (str "Nenê") := by decide +kernel

end Jargon
