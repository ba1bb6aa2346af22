import Verif.Proofs.HtmlReadable

/-! Documents of which the texts are replaced by others. -/

namespace Jargon

/-- What of a document is not text: its tags with their attributes, comments and doctypes. -/
def markup (hs : List HTok) : List HTok := hs.filter fun h => h.type != .text

/-- The document with these tokens, with each of its texts replaced by a string without `<`. -/
inductive Filled : List HTok → Bytes → Prop where
  | nil : Filled [] []
  | text {h hs s o} : h.type = .text → 0x3C ∉ s → Filled hs o → Filled (h :: hs) (s ++ o)
  | other {h hs o} : h.type ≠ .text → Filled hs o → Filled (h :: hs) (h.string ++ o)

theorem markup_append (a b : List HTok) : markup (a ++ b) = markup a ++ markup b := List.filter_append ..

theorem markup_text {h : HTok} (ht : h.type = .text) (hs : List HTok) : markup (h :: hs) = markup hs := by
  simp [markup, ht]

theorem markup_other {h : HTok} (ht : h.type ≠ .text) (hs : List HTok) : markup (h :: hs) = h :: markup hs := by
  simp [markup, ht]

variable [HtmlReader]

theorem markup_textEvent (raw : Bytes) : markup (textEvent raw) = [] := by
  unfold textEvent
  split <;> simp [markup]

theorem markup_rawEvent (n raw : Bytes) : markup (rawEvent n raw) = [] := by
  unfold rawEvent
  split <;> simp [markup]

theorem filled_run {hs : List HTok} {o : Bytes} (hf : Filled hs o) : (∀ h ∈ hs, Kept h) →
    (∀ raw at', ReadableFrom none at' hs → markup (DocReading.run (.html (.text raw)) o) = markup hs) ∧
    (∀ n acc at', n ∈ rawNames → 0x3C ∉ acc → ReadableFrom (some n) at' hs →
      markup (DocReading.run (.raw n acc) o) = markup hs) := by
  induction hf with
  | nil =>
    intro _
    refine ⟨fun raw _ _ => ?_, fun n acc _ _ _ _ => ?_⟩
    · simpa [DocReading.run, DocReading.finish, Reading.finish, markup] using markup_textEvent raw
    · simpa [DocReading.run, DocReading.finish, markup] using markup_rawEvent n acc
  | @text h hs s o ht hs' _ ih =>
    intro hk
    have ih := ih fun x hx => hk x (by simp [hx])
    refine ⟨?_, ?_⟩
    · rintro raw at' ⟨-, -, -, h4⟩
      have e1 : rawAfter none h = none := by simp [rawAfter, ht]
      rw [e1] at h4
      have hsteps := Reading.steps_text raw s hs'
      rw [run_steps _ _ _ (by rw [hsteps]; simp), hsteps, List.nil_append, ih.1 _ _ h4, markup_text ht]
    · rintro n acc at' hn hacc ⟨-, -, -, h4⟩
      have e1 : rawAfter (some n) h = some n := by simp [rawAfter, ht]
      rw [e1] at h4
      rw [run_raw _ _ hacc hs', ih.2 n _ _ hn (by simp [hacc, hs']) h4, markup_text ht]
  | @other h hs o ht _ ih =>
    intro hk
    have ih := ih fun x hx => hk x (by simp [hx])
    refine ⟨?_, ?_⟩
    · rintro raw at' ⟨h1, -, -, h4⟩
      rw [run_token h h1 (hk h (by simp)) ht, markup_append, markup_textEvent, List.nil_append, markup_other ht,
        markup_other ht]
      congr 1
      by_cases ho : h.opensRawText = true
      · have e1 : rawAfter none h = some h.data := by simp [rawAfter, ht, ho]
        rw [e1] at h4
        rw [if_pos ho, ih.2 h.data [] _ (opens_raw ho) (by simp) h4]
      · have e1 : rawAfter none h = none := by simp [rawAfter, ht, ho]
        rw [e1] at h4
        rw [if_neg ho, ih.1 [] _ h4]
    · rintro n acc at' hn hacc ⟨h1, -, h3, h4⟩
      obtain ⟨b1, b2, b3⟩ := h3 n rfl ht
      obtain ⟨c0, c1, c2, -⟩ : h.attr = [] ∧ h.dataAtom = atomOf h.data ∧ NameLike h.data ∧
        (∃ b ∈ h.data.head?, isTagLetter b) := by simpa [Readable, b1] using h1
      have hst : h.string = 0x3C :: 0x2F :: (h.data ++ [0x3E]) := by
        have e2 : str ">" = [0x3E] := by decide +kernel
        simp [HTok.string, b1, Reading.tagString_eq, lt_slash, e2, c0]
      have hop : h.opensRawText = false := by simp [HTok.opensRawText, b1]
      have e1 : rawAfter (some n) h = none := by simp [rawAfter, ht, hop]
      rw [e1] at h4
      subst b2
      rw [hst]
      simp only [List.cons_append, List.append_assoc, List.nil_append]
      have : tagEvent .endTag h.data [] false = h := by
        rw [tagEvent, if_pos rfl, ← c1, ← b1, ← c0]
      rw [run_raw_end _ b3 c2 hacc, this, markup_append, markup_rawEvent, List.nil_append, markup_other ht,
        markup_other ht, ih.1 [] _ h4]

/-- Whatever the texts of a document are replaced by, as long as there is no `<` in it, its markup is the same. -/
theorem filled_markup {hs : List HTok} {o : Bytes} (h : ReadableDoc hs) (hk : ∀ h ∈ hs, Kept h) (hf : Filled hs o) :
    markup (htmlTokens o) = markup hs := (filled_run hf hk).1 [] _ h

end Jargon
