import Verif.Props.Ascii
import Verif.Props.Utf8
import Verif.Model.LuceneTable

/-! C63: `FoldString` against the Lucene filter it is a port of. -/

namespace Jargon

/-- filters/ascii/ASCIIFoldingFilter.java:188-2099: the `switch` on a Java `char`; `none` for
`default`. -/
def luceneSwitch (c : Nat) : Option (List Nat) :=
  (luceneCases.find? fun g => g.1.contains c).map (·.2)

/-- filters/ascii/ASCIIFoldingFilter.java:178-2103 `foldToASCII`: the loop over the `char`s of the
input; what it writes to `output`. Array positions are not modelled (the caller makes the array four times as long as
the input). -/
def luceneFold : List Nat → List Nat
  | [] => []
  | c :: cs => (if c < 0x80 then [c] else (luceneSwitch c).getD [c]) ++ luceneFold cs

/-- The UTF-16 code units of a rune: what Java has for it. -/
def utf16 (r : Rune) : List Nat :=
  if r < 0x10000 then [r] else [0xD800 + (r - 0x10000) / 0x400, 0xDC00 + (r - 0x10000) % 0x400]

/-- The only case in which the two tables differ. -/
theorem lucene_cases : luceneCases = foldCases.map fun c =>
    (c.keys, if c.keys = [0x2A8] then [0x74, 0x63] else c.out) := by decide +kernel

theorem luceneSwitch_eq {r : Nat} (h : r ≠ 0x2A8) : luceneSwitch r = equivalent r := by
  rw [luceneSwitch, lucene_cases, equivalent]
  generalize foldCases = cs
  induction cs with
  | nil => rfl
  | cons c cs ih =>
    simp only [List.map_cons, List.find?_cons, List.contains_eq_mem] at ih ⊢
    by_cases hr : r ∈ c.keys
    · simp only [hr, decide_true, Option.map_some, Option.some.injEq, ite_eq_right_iff]
      intro hk
      rw [hk] at hr
      exact absurd (List.mem_singleton.mp hr) h
    · simp only [hr, decide_false]
      exact ih

theorem foldCases_bmp : ∀ c ∈ foldCases, ∀ k ∈ c.keys, k < 0xD800 ∨ 0xDFFF < k ∧ k < 0x10000 := by
  decide +kernel

theorem equivalent_bmp {r : Rune} (h : equivalent r ≠ none) : r < 0xD800 ∨ 0xDFFF < r ∧ r < 0x10000 := by
  rw [← foldSwitch_eq, ne_eq, Option.map_eq_none_iff] at h
  obtain ⟨c, hc⟩ := Option.ne_none_iff_exists'.mp h
  obtain ⟨h1, h2⟩ := foldSwitch_mem hc
  exact foldCases_bmp c h1 r h2

theorem luceneFold_append (a b : List Nat) : luceneFold (a ++ b) = luceneFold a ++ luceneFold b := by
  induction a with
  | nil => rfl
  | cons c cs ih => simp [luceneFold, ih]

/-- One rune, in Java and in Go. -/
theorem luceneFold_rune {r : Rune} (hv : ValidRune r) (h : r ≠ 0x2A8) :
    luceneFold (utf16 r) = (folded r).flatMap utf16 := by
  have hout : ∀ o, equivalent r = some o → o.flatMap utf16 = o := by
    intro o ho
    have := (equivalent_sound ho).2.2
    clear ho
    induction o with
    | nil => rfl
    | cons x xs ih =>
      have hx := this x (by simp)
      rw [List.flatMap_cons, ih fun y hy => this y (by simp [hy]), utf16, if_pos (by omega)]
      rfl
  by_cases hb : r < 0x10000
  · simp only [utf16, if_pos hb, luceneFold, List.append_nil, luceneSwitch_eq h, folded]
    by_cases ha : r < 0x80
    · simp [ha, equivalent_ascii ha, utf16, hb]
    · rw [if_neg ha]
      cases he : equivalent r with
      | none => simp [utf16, hb]
      | some o => simp [hout o he]
  · have hn : equivalent r = none := by
      cases he : equivalent r with
      | none => rfl
      | some o => have := equivalent_bmp (r := r) (by simp [he]); omega
    have hs : ∀ c, 0xD800 ≤ c → c ≤ 0xDFFF → luceneSwitch c = none := by
      intro c h1 h2
      rw [luceneSwitch_eq (by omega)]
      cases he : equivalent c with
      | none => rfl
      | some o => have := equivalent_bmp (r := c) (by simp [he]); omega
    have h1 : ¬ 0xD800 + (r - 0x10000) / 0x400 < 0x80 := by omega
    have h2 : ¬ 0xDC00 + (r - 0x10000) % 0x400 < 0x80 := by omega
    have s1 : luceneSwitch (0xD800 + (r - 0x10000) / 0x400) = none :=
      hs _ (by omega) (by rcases hv with hv | hv <;> omega)
    have s2 : luceneSwitch (0xDC00 + (r - 0x10000) % 0x400) = none := hs _ (by omega) (by omega)
    simp only [utf16, if_neg hb, luceneFold, if_neg h1, if_neg h2, s1, s2, folded, hn,
      Option.getD_none, List.flatMap_cons, List.flatMap_nil, List.append_nil, List.cons_append,
      List.nil_append]

/-- Any string of valid runes without U+02A8, in Java and in Go. -/
theorem luceneFold_runes {rs : List Rune} (hv : ∀ r ∈ rs, ValidRune r) (h : 0x2A8 ∉ rs) :
    luceneFold (rs.flatMap utf16) = (rs.flatMap folded).flatMap utf16 := by
  induction rs with
  | nil => rfl
  | cons r rs ih =>
    rw [List.flatMap_cons, luceneFold_append, List.flatMap_cons, List.flatMap_append,
      luceneFold_rune (hv r (by simp)) fun e => h (by simp [e]),
      ih (fun x hx => hv x (by simp [hx])) fun hm => h (by simp [hm])]

/-- **C63, as one would like it.** `FoldString` gives what Lucene's `foldToASCII` gives, for every
string of valid runes. -/
def C63_full : Prop := ∀ rs : List Rune, (∀ r ∈ rs, ValidRune r) →
  (runes (foldString (encodeRunes rs)).1).flatMap utf16 = luceneFold (rs.flatMap utf16)

/-- **C63 is violated.** The case of U+02A8, the tc digraph with curl, writes `tr` in place of `tc`; and
a full-width tilde alone is not folded (see C18). -/
theorem C63_violated_port : ¬ C63_full ∧
    foldString (str "ʨ") = (str "tr", true) ∧ luceneFold (utf16 0x2A8) = (str "tc").map UInt8.toNat ∧
    foldString (str "～") = (str "～", false) ∧ luceneFold (utf16 0xFF5E) = [0x7E] := by
  have h1 : foldString (str "ʨ") = (str "tr", true) := by decide +kernel
  refine ⟨fun h => ?_, h1, by decide +kernel, by decide +kernel, by decide +kernel⟩
  have := h [0x2A8] (by decide)
  revert this
  decide +kernel

/-- **C63, for all other strings**: those without U+02A8 that have no tilde (U+2053, U+FF5E) or some
other character that is folded. -/
theorem C63_port_partial (rs : List Rune) (hv : ∀ r ∈ rs, ValidRune r) (htc : 0x2A8 ∉ rs)
    (h : (∀ r ∈ rs, r ≠ 0x2053 ∧ r ≠ 0xFF5E) ∨
      ∃ r ∈ rs, equivalent r ≠ none ∧ r ≠ 0x2053 ∧ r ≠ 0xFF5E) :
    (runes (foldString (encodeRunes rs)).1).flatMap utf16 = luceneFold (rs.flatMap utf16) := by
  rw [luceneFold_runes hv htc, foldString_eq, runes_encodeRunes hv]
  split
  · rw [runes_encodeRunes (folded_valid hv)]
  · rename_i hf
    simp only [List.any_eq_true, not_exists, not_and] at hf
    have hnone : ∀ r ∈ rs, equivalent r = none := by
      intro r hr
      rcases h with h | ⟨x, hx, h1, h2⟩
      · cases he : equivalent r with
        | none => rfl
        | some o => exact absurd ((flags_iff r).mpr ⟨by simp [he], h r hr⟩) (hf r hr)
      · exact absurd ((flags_iff x).mpr ⟨h1, h2⟩) (hf x hx)
    have : rs.flatMap folded = rs := by
      clear hf h htc hv
      induction rs with
      | nil => rfl
      | cons r rs ih =>
        rw [List.flatMap_cons, ih fun x hx => hnone x (by simp [hx]), folded, hnone r (by simp)]
        rfl
    simp only [this, runes_encodeRunes hv]

/-- Not vacuous: two strings to which it applies, one with a tilde, one beyond the first plane. -/
example : (runes (foldString (encodeRunes [0xE9, 0xFF5E])).1).flatMap utf16 = [0x65, 0x7E] ∧
    luceneFold ([0xE9, 0xFF5E].flatMap utf16) = [0x65, 0x7E] ∧
    (runes (foldString (encodeRunes [0xC6, 0x1F600])).1).flatMap utf16 = [0x41, 0x45, 0xD83D, 0xDE00] ∧
    luceneFold ([0xC6, 0x1F600].flatMap utf16) = [0x41, 0x45, 0xD83D, 0xDE00] := by decide +kernel

end Jargon
