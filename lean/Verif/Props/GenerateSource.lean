import Verif.Proofs.Broken
import Verif.Proofs.Sorted

/-! C69-C71: the Go source written by the generators. -/

namespace Jargon

/-! ### The three headers -/

theorem nba_header : HeaderFor (str "nba") nbaHeader := by
  constructor <;> decide +kernel

theorem so_header : HeaderFor (str "stackoverflow") soHeader := by
  constructor <;> decide +kernel

theorem contraction_header : HeaderFor (str "contractions") contractionHeader := by
  constructor <;> decide +kernel

/-- The generators: the package, the beginning of its file and the indentation of broken lines. -/
def sourceKinds : List (Bytes × Bytes × Bytes) :=
  [(str "nba", nbaHeader, [0x09, 0x09]), (str "stackoverflow", soHeader, []),
   (str "contractions", contractionHeader, [])]

theorem sourceKinds_spec {name header indent : Bytes} (h : (name, header, indent) ∈ sourceKinds) :
    HeaderFor name header ∧ ∀ b ∈ indent, b = 0x09 := by
  simp only [sourceKinds, List.mem_cons, Prod.mk.injEq, List.not_mem_nil, or_false] at h
  rcases h with ⟨rfl, rfl, rfl⟩ | ⟨rfl, rfl, rfl⟩ | ⟨rfl, rfl, rfl⟩
  · exact ⟨nba_header, by simp⟩
  · exact ⟨so_header, by simp⟩
  · exact ⟨contraction_header, by simp⟩

/-! ### Order -/

theorem bytesLe_iff (a b : Bytes) : bytesLe a b = true ↔ a ≤ b := by
  induction a generalizing b with
  | nil => simp [bytesLe]
  | cons x s ih =>
    cases b with
    | nil => simp [bytesLe]
    | cons y t =>
      rw [List.cons_le_cons_iff, ← ih]
      simp [bytesLe]

theorem insertByKey_sorted (x : Bytes × Bytes) {m : StringMap} (h : m.Pairwise fun a b => a.1 ≤ b.1) :
    (insertByKey x m).Pairwise fun a b => a.1 ≤ b.1 := by
  induction m with
  | nil => simp [insertByKey]
  | cons y m ih =>
    rw [List.pairwise_cons] at h
    unfold insertByKey
    split
    · rename_i hx
      rw [bytesLe_iff] at hx
      refine List.pairwise_cons.mpr ⟨?_, List.pairwise_cons.mpr h⟩
      intro z hz
      rcases List.mem_cons.mp hz with rfl | hz
      · exact hx
      · exact List.le_trans hx (h.1 z hz)
    · rename_i hx
      rw [bytesLe_iff] at hx
      refine List.pairwise_cons.mpr ⟨?_, ih h.2⟩
      intro z hz
      rcases List.mem_cons.mp ((insertByKey_perm x m).mem_iff.mp hz) with rfl | hz
      · exact (List.le_total _ _).resolve_left hx
      · exact h.1 z hz

theorem sortByKey_sorted (m : StringMap) : (sortByKey m).Pairwise fun a b => a.1 ≤ b.1 := by
  induction m with
  | nil => exact .nil
  | cons x m ih => exact insertByKey_sorted x ih

/-- Strictly increasing keys. -/
def Increasing (m : StringMap) : Prop := m.Pairwise fun a b => a.1 < b.1

theorem sorted_increasing {m : StringMap} (h : m.Pairwise fun a b => a.1 ≤ b.1)
    (hn : (m.map Prod.fst).Nodup) : Increasing m := by
  rw [List.nodup_iff_pairwise_ne, List.pairwise_map] at hn
  refine (h.and hn).imp fun {a b} hab => ?_
  apply Decidable.byContradiction
  intro hlt
  exact hab.2 (List.le_antisymm hab.1 (List.not_lt.mp hlt))

theorem increasing_nodup {m : StringMap} (h : Increasing m) : (m.map Prod.fst).Nodup := by
  rw [List.nodup_iff_pairwise_ne, List.pairwise_map]
  refine h.imp fun {a b} hab he => ?_
  rw [he] at hab
  exact List.lt_irrefl _ hab

/-- Tables with the same entries and increasing keys are the same. -/
theorem increasing_unique {a b : StringMap} (ha : Increasing a) (hb : Increasing b) (h : a.Perm b) : a = b := by
  refine List.Perm.eq_of_pairwise ?_ ha hb h
  intro x y _ _ h1 h2
  exact absurd (List.lt_trans h1 h2) (List.lt_irrefl _)

theorem sortByKey_nodup {m : StringMap} (h : (m.map Prod.fst).Nodup) : ((sortByKey m).map Prod.fst).Nodup :=
  ((sortByKey_perm m).map _).nodup_iff.mpr h

/-! ### What is given to `format.Source` -/

theorem broken_plain {isPrint : Rune → Bool} (hl : PrintLaws isPrint) {name header indent : Bytes}
    (hh : HeaderFor name header) (hi : ∀ b ∈ indent, b = 0x09) (m : StringMap) :
    PlainText (breakLines indent (sourceText isPrint header m)) := by
  have hp : PlainText indent := plain_ascii fun b hb => by rw [hi b hb]; decide
  rw [sourceText_eq]
  have h0 : PlainText (header ++ str "map[string]string" ++ bodyText isPrint m) :=
    (plain_ascii hh.ascii).append (plain_body hl m)
  have p : ∀ (a b : Bytes), (∀ x ∈ a, x ≠ 0 ∧ x.toNat < 0x80) → (∀ x ∈ b, x ≠ 0 ∧ x.toNat < 0x80) →
      PlainText (a ++ indent ++ b) := fun a b ha hb => ((plain_ascii ha).append hp).append (plain_ascii hb)
  exact plain_replace (by decide) (p _ _ (by decide) (by decide))
    (plain_replace (by decide) (p _ _ (by decide) (by decide))
      (plain_replace (by decide) (p _ _ (by decide) (by decide)) h0))

/-- What is formatted declares the table, or has a line break in a literal that is unlucky. -/
theorem broken_declares {isPrint : Rune → Bool} (hl : PrintLaws isPrint) {name header indent : Bytes}
    (hk : (name, header, indent) ∈ sourceKinds) {m : StringMap} (hm : (m.map Prod.fst).Nodup) :
    Declares (breakLines indent (sourceText isPrint header m)) name (sortByKey m) ∨
    (lex (breakLines indent (sourceText isPrint header m)) = .error .newline ∧
      ∃ e ∈ m, Unlucky e.1 ∨ Unlucky e.2) := by
  obtain ⟨hh, hi⟩ := sourceKinds_spec hk
  rcases breakLines_lex hl hh hi m with h | h
  · exact .inl ⟨broken_plain hl hh hi m, sortByKey_nodup hm, h⟩
  · exact .inr h

/-- A file declares one table only. -/
theorem declares_unique {src name name' : Bytes} {t t' : StringMap} (h : Declares src name t)
    (h' : Declares src name' t') : name = name' ∧ t = t' := by
  obtain ⟨-, -, c, h⟩ := h
  obtain ⟨-, -, c', h'⟩ := h'
  rw [h] at h'
  have he := Except.ok.inj h'
  unfold fileToks at he
  simp only [List.cons_append, List.nil_append, List.cons.injEq, true_and, GoTok.word.injEq] at he
  refine ⟨he.1, ?_⟩
  have hp := he.2
  clear he h h'
  have pairs : ∀ (c c' : Bool) (t t' : StringMap),
      pairToks c t ++ [GoTok.punct 125, .semi] = pairToks c' t' ++ [.punct 125, .semi] → t = t' := by
    intro c c' t
    induction t with
    | nil =>
      intro t' h
      cases t' with
      | nil => rfl
      | cons e l => cases l <;> simp [pairToks] at h
    | cons e l ih =>
      intro t' h
      cases t' with
      | nil => cases l <;> simp [pairToks] at h
      | cons e' l' =>
        cases l with
        | nil =>
          cases l' with
          | nil =>
            simp [pairToks] at h
            rw [Prod.ext h.1 h.2.1]
          | cons e2 l2 =>
            cases l2 <;> cases c <;> simp [pairToks] at h
        | cons e2 l2 =>
          cases l' with
          | nil => cases l2 <;> cases c' <;> simp [pairToks] at h
          | cons e3 l3 =>
            simp only [pairToks, List.cons_append, List.nil_append, List.cons.injEq, GoTok.text.injEq, true_and] at h
            rw [Prod.ext h.1 h.2.1, ih _ h.2.2]
  exact pairs c c' t t' hp

/-- **C69 (the file).** If a generator's writing of the table ends without error, then the file declares
exactly the table; if formatting or creating the file fails, what was there is still there; if only part of
the file could be written, there is an error. -/
theorem C69_file (O : Outside) (hp : PrintLaws O.isPrint) (hf : FormatLaws O.format)
    {name header indent : Bytes} (hk : (name, header, indent) ∈ sourceKinds)
    (m : StringMap) (hm : (m.map Prod.fst).Nodup) (file : Option Bytes) :
    match writeSource O header indent m file with
    | (.ok (), file') => ∃ out table, file' = some out ∧ Declares out name table ∧ table.Perm m
    | (.error .format, file') => file' = file
    | (.error .create, file') => file' = file
    | (.error .write, _) => O.writeFails.isSome = true := by
  have hd := broken_declares hp hk hm
  unfold writeSource
  cases hs : O.format (breakLines indent (sourceText O.isPrint header m)) with
  | none => rfl
  | some out =>
    simp only
    cases O.creates with
    | false => rfl
    | true =>
      cases hw : O.writeFails with
      | some n => rfl
      | none =>
        rcases hd with hd | ⟨hd, -⟩
        · obtain ⟨out', h1, h2⟩ := hf.keeps _ _ _ hd
          rw [h1] at hs
          cases hs
          exact ⟨out, sortByKey m, rfl, h2, sortByKey_perm m⟩
        · rw [hf.rejects _ hd] at hs
          cases hs

/-! Parameters that satisfy the laws. -/

/-- Printable ASCII. -/
def asciiPrint (r : Rune) : Bool := 0x20 ≤ r && r < 0x7F

theorem asciiPrint_laws : PrintLaws asciiPrint := by
  constructor
  · intro r hr
    simp [asciiPrint]
    omega
  · rfl

/-- Accept what can be scanned, and leave it as it is. -/
def scanFormat (src : Bytes) : Option Bytes :=
  match lex src with
  | .ok _ => some src
  | .error _ => none

theorem scanFormat_laws : FormatLaws scanFormat := by
  constructor
  · intro src name table h
    have ⟨_, _, c, hc⟩ := h
    exact ⟨src, by simp [scanFormat, hc], h⟩
  · intro src h
    simp [scanFormat, h]

/-- Nothing goes wrong outside. -/
def calmOutside : Outside := ⟨asciiPrint, scanFormat, true, none⟩

example : writeSource calmOutside soHeader [] [(str "b \"q\"\n", str "é{}"), (str "a", [0xFF, 0x5C])] none =
    (.ok (), some (str "
package stackoverflow

// This file is generated. Best not to modify it, as it will likely be overwritten.

var mappings = map[string]string{
\"a\":\"\\xff\\\\\",
\"b \\\"q\\\"\\n\":\"\\u00e9{}\",
}
")) := by
  decide +kernel

/-! ### C70: which tables can be written -/

/-- **C70 (full statement).** Every table can be written, if the disk plays along. -/
def C70_full : Prop :=
  ∀ (O : Outside), PrintLaws O.isPrint → FormatLaws O.format → O.creates = true → O.writeFails = none →
    ∀ name header indent, (name, header, indent) ∈ sourceKinds →
      ∀ m : StringMap, (m.map Prod.fst).Nodup → ∀ file, (writeSource O header indent m file).1 = .ok ()

/-- **C70 is false.** A key that ends in "{" is broken up by the second replacement, and formatting fails. -/
theorem C70_violated_brace (format : Bytes → Option Bytes) (hf : FormatLaws format) (file : Option Bytes) :
    writeSource ⟨asciiPrint, format, true, none⟩ soHeader [] [(str "a{", str "b")] file =
      (.error .format, file) := by
  have h : lex (breakLines [] (sourceText asciiPrint soHeader [(str "a{", str "b")])) = .error .newline := by
    decide +kernel
  simp only [writeSource, hf.rejects _ h]

/-- **C70 is false, second way.** So is a key with a quote and a closing brace, like a piece of JSON. -/
theorem C70_violated_json (format : Bytes → Option Bytes) (hf : FormatLaws format) (file : Option Bytes) :
    writeSource ⟨asciiPrint, format, true, none⟩ nbaHeader [0x09, 0x09] [(str "{\"a\":\"b\"}", str "json")] file =
      (.error .format, file) := by
  have h : lex (breakLines [0x09, 0x09] (sourceText asciiPrint nbaHeader [(str "{\"a\":\"b\"}", str "json")])) =
      .error .newline := by
    decide +kernel
  simp only [writeSource, hf.rejects _ h]

theorem C70_full_false : ¬ C70_full := by
  intro h
  have h1 := h calmOutside asciiPrint_laws scanFormat_laws rfl rfl (str "stackoverflow") soHeader [] (by simp [sourceKinds])
    [(str "a{", str "b")] (by simp) none
  have h2 := C70_violated_brace scanFormat scanFormat_laws none
  rw [show calmOutside = ⟨asciiPrint, scanFormat, true, none⟩ from rfl, h2] at h1
  cases h1

/-- **C70 (partial).** A table without unlucky strings can be written. Missing: tables with such strings,
most of which cannot (`C70_violated_*`; `C70_exact_partial` says which). -/
theorem C70_writes_partial (O : Outside) (hp : PrintLaws O.isPrint) (hf : FormatLaws O.format)
    (hc : O.creates = true) (hw : O.writeFails = none) {name header indent : Bytes}
    (hk : (name, header, indent) ∈ sourceKinds) {m : StringMap} (hm : (m.map Prod.fst).Nodup)
    (hu : ∀ e ∈ m, ¬ Unlucky e.1 ∧ ¬ Unlucky e.2) (file : Option Bytes) :
    ∃ out, writeSource O header indent m file = (.ok (), some out) ∧ Declares out name (sortByKey m) := by
  rcases broken_declares hp hk hm with hd | ⟨-, e, he, h⟩
  · obtain ⟨out, h1, h2⟩ := hf.keeps _ _ _ hd
    refine ⟨out, ?_, h2⟩
    unfold writeSource
    simp [h1, hc, hw]
  · rcases h with h | h
    · exact absurd h (hu e he).1
    · exact absurd h (hu e he).2

example : ∀ e ∈ [(str "c#, c-sharp", str "c#"), (str "{x", str "y}")], ¬ Unlucky e.1 ∧ ¬ Unlucky e.2 := by
  unfold Unlucky
  decide +kernel

/-- What cannot be written: an unlucky value, an unlucky key other than `, `, and this key if it is the first. -/
def Unwritable (m : StringMap) : Prop :=
  (∃ e ∈ m, Unlucky e.2 ∨ (Unlucky e.1 ∧ e.1 ≠ str ", ")) ∨
  (∃ e ∈ m, e.1 = str ", " ∧ ∀ e' ∈ m, e.1 ≤ e'.1)

/-- **C70 (exactly).** Which tables can be written and which cannot. A key `, ` with others before it can: the
replacement before it has used up its quote. -/
theorem C70_exact_partial (O : Outside) (hp : PrintLaws O.isPrint) (ha : PrintsAscii O.isPrint)
    (hf : FormatLaws O.format) (hc : O.creates = true) (hw : O.writeFails = none) {name header indent : Bytes}
    (hk : (name, header, indent) ∈ sourceKinds) {m : StringMap} (hm : (m.map Prod.fst).Nodup)
    (file : Option Bytes) :
    (Unwritable m → writeSource O header indent m file = (.error .format, file)) ∧
    (¬ Unwritable m →
      ∃ out, writeSource O header indent m file = (.ok (), some out) ∧ Declares out name (sortByKey m)) := by
  obtain ⟨hh, hi⟩ := sourceKinds_spec hk
  have hmem : ∀ e, e ∈ sortByKey m ↔ e ∈ m := fun e => (sortByKey_perm m).mem_iff
  have hsorted := sortByKey_sorted m
  constructor
  · intro h
    have hfail := (lex_broken (isPrint := O.isPrint) (indent := indent) hh m).2 (by
      rw [bodyText_rows]
      refine rows_fail hp ha hi name ?_
      rcases h with ⟨e, he, h⟩ | ⟨e, he, h1, h2⟩
      · exact .inl ⟨e, (hmem e).mpr he, h⟩
      · right
        have hs := hsorted
        have he' := (hmem e).mpr he
        cases hr : sortByKey m with
        | nil => rw [hr] at he'; simp at he'
        | cons x l =>
          rw [hr, List.pairwise_cons] at hs
          rw [hr] at he'
          refine ⟨x.2, l, ?_⟩
          have hx : x.1 = e.1 := by
            rcases List.mem_cons.mp he' with rfl | he'
            · rfl
            · exact List.le_antisymm (hs.1 e he') (h2 x ((hmem x).mp (by rw [hr]; exact List.mem_cons_self)))
          rw [← h1, ← hx])
    simp only [writeSource, hf.rejects _ hfail]
  · intro h
    have hd : Declares (breakLines indent (sourceText O.isPrint header m)) name (sortByKey m) := by
      rcases broken_declares hp hk hm with hd | ⟨-, e, he, hu⟩
      · exact hd
      have hnot : ∀ e ∈ m, e.1 ≠ str ", " → ¬ Unlucky e.1 ∧ ¬ Unlucky e.2 := fun e he hne =>
        ⟨fun hc => h (.inl ⟨e, he, .inr ⟨hc, hne⟩⟩), fun hc => h (.inl ⟨e, he, .inl hc⟩)⟩
      have hkey : e.1 = str ", " := by
        apply Decidable.byContradiction
        intro hne
        rcases hu with hu | hu
        · exact (hnot e he hne).1 hu
        · exact (hnot e he hne).2 hu
      obtain ⟨l1, l2, hr⟩ := List.append_of_mem ((hmem e).mpr he)
      have hnd := sortByKey_nodup hm
      rw [hr, List.map_append, List.map_cons, List.nodup_append] at hnd
      obtain ⟨-, hnd2, hnd1⟩ := hnd
      rw [List.nodup_cons] at hnd2
      have hl1 : ∀ x ∈ l1, ¬ Unlucky x.1 ∧ ¬ Unlucky x.2 := fun x hx =>
        hnot x ((hmem x).mp (by rw [hr]; exact List.mem_append_left _ hx)) (by
          rw [← hkey]
          exact hnd1 x.1 (List.mem_map_of_mem hx) e.1 List.mem_cons_self)
      have hl2 : ∀ x ∈ l2, ¬ Unlucky x.1 ∧ ¬ Unlucky x.2 := fun x hx =>
        hnot x ((hmem x).mp (by rw [hr]; simp [hx])) (by
          rw [← hkey]
          intro hc
          exact hnd2.1 (hc ▸ List.mem_map_of_mem hx))
      have hne : l1 ≠ [] := by
        rintro rfl
        refine h (.inr ⟨e, he, hkey, fun x hx => ?_⟩)
        have hs := hsorted
        rw [hr, List.nil_append, List.pairwise_cons] at hs
        have hx' := (hmem x).mpr hx
        rw [hr, List.nil_append] at hx'
        rcases List.mem_cons.mp hx' with rfl | hx'
        · exact List.le_refl _
        · exact hs.1 x hx'
      obtain ⟨k, v⟩ := e
      simp only at hkey
      subst hkey
      obtain ⟨c, hrun⟩ := rows_pass hp ha hi name hne hl1 (fun hc => h (.inl ⟨_, he, .inl hc⟩)) hl2
      refine ⟨broken_plain hp hh hi m, sortByKey_nodup hm, c, ?_⟩
      refine (lex_broken hh m).1 c _ ?_
      rw [bodyText_rows, hr, hrun]
    obtain ⟨out, h1, h2⟩ := hf.keeps _ _ _ hd
    refine ⟨out, ?_, h2⟩
    unfold writeSource
    simp [h1, hc, hw]

theorem asciiPrint_ascii : PrintsAscii asciiPrint := by
  intro r h1 h2
  simp [asciiPrint, h1, h2]

example : Unwritable [(str "a", str "b"), (str ", ", str "c")] ∧ ¬ Unwritable [(str "a", str "b"), (str "+", str "c")] ∧
    ¬ Unwritable [(str ", ", str "c"), (str "+", str "b")] := by
  unfold Unwritable Unlucky
  simp only [List.mem_cons, List.not_mem_nil, or_false, exists_eq_or_imp, exists_eq_left, forall_eq_or_imp, forall_eq,
    ← bytesLe_iff]
  refine ⟨.inr ?_, not_or.mpr ⟨?_, ?_⟩, not_or.mpr ⟨?_, ?_⟩⟩ <;> decide +kernel

example : (writeSource calmOutside soHeader [] [(str ", ", str "c"), (str "+", str "b")] none).1 = .ok () ∧
    (writeSource calmOutside soHeader [] [(str ", ", str "c"), (str "a", str "b")] none).1 = .error .format ∧
    (writeSource calmOutside soHeader [] [(str "+", str "c"), (str "a", str ", ")] none).1 = .error .format := by
  decide +kernel

/-! ### C71: the file does not depend on the order of the map -/

/-- **C71.** Two tables with the same entries give the same file, whatever the order in which the map is
iterated; and the entries are in the order of their keys. -/
theorem C71_order (O : Outside) (header indent : Bytes) {m m' : StringMap} (hm : (m.map Prod.fst).Nodup)
    (h : m.Perm m') (file : Option Bytes) :
    writeSource O header indent m file = writeSource O header indent m' file := by
  have hm' : (m'.map Prod.fst).Nodup := (h.map _).nodup_iff.mp hm
  have : sortByKey m = sortByKey m' :=
    increasing_unique (sorted_increasing (sortByKey_sorted m) (sortByKey_nodup hm))
      (sorted_increasing (sortByKey_sorted m') (sortByKey_nodup hm'))
      ((sortByKey_perm m).trans (h.trans (sortByKey_perm m').symm))
  simp only [writeSource, sourceText, goSyntax, this]

/-- **C71 (increasing).** What is declared has increasing keys. -/
theorem C71_increasing (O : Outside) (hp : PrintLaws O.isPrint) (hf : FormatLaws O.format)
    {name header indent : Bytes} (hk : (name, header, indent) ∈ sourceKinds) {m : StringMap}
    (hm : (m.map Prod.fst).Nodup) {file : Option Bytes} {out : Bytes}
    (h : writeSource O header indent m file = (.ok (), some out)) :
    ∃ table, Declares out name table ∧ table.Perm m ∧ Increasing table := by
  have h1 := C69_file O hp hf hk m hm file
  rw [h] at h1
  obtain ⟨out', table, h2, h3, h4⟩ := h1
  cases h2
  refine ⟨sortByKey m, ?_, sortByKey_perm m, sorted_increasing (sortByKey_sorted m) (sortByKey_nodup hm)⟩
  rcases broken_declares hp hk hm with hd | ⟨hd, -⟩
  · obtain ⟨o, h5, h6⟩ := hf.keeps _ _ _ hd
    unfold writeSource at h
    rw [h5] at h
    simp only at h
    split at h
    · cases h
    split at h
    · cases h
    · cases h; exact h6
  · unfold writeSource at h
    rw [hf.rejects _ hd] at h
    cases h

example : (writeSource calmOutside soHeader [] [(str "b", str "x"), (str "a", str "y")] none).2 =
    (writeSource calmOutside soHeader [] [(str "a", str "y"), (str "b", str "x")] none).2 ∧
    (writeSource calmOutside soHeader [] [(str "b", str "x"), (str "a", str "y")] none).1 = .ok () := by
  decide +kernel

end Jargon
