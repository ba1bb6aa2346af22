import Verif.Model.Generate

/-! What the generators are to produce. -/

namespace Jargon

/-- `m` is `s` without the white space around it. -/
def Trimmed (s m : Bytes) : Prop :=
  (∃ a b : List Rune, (∀ r ∈ a, isSpaceRune r = true) ∧ (∀ r ∈ b, isSpaceRune r = true) ∧
    s = encodeRunes a ++ m ++ encodeRunes b) ∧
  (∀ r rest, isSpaceRune r = true → m ≠ encodeRune r ++ rest) ∧
  (∀ r rest, isSpaceRune r = true → m ≠ rest ++ encodeRune r)

/-! ### Stack Overflow -/

/-- What is not to be listed, as the API writes tags. -/
def toIgnore : List Bytes := [str "drop-down", str "datatable", str "for", str "this"]

/-- A tag or synonym as the words of a text: spaces for dashes. -/
def spaced (s : Bytes) : Bytes := s.map fun b => if b = 0x2D then 0x20 else b

/-- The synonyms of a tag that are to be listed. -/
def SoItem.terms (tag : SoItem) : List Bytes := (tag.synonyms.filter fun s => s ∉ toIgnore).map spaced

/-- The lists of terms that a tag should have an entry for: its synonyms, if there are any, and its name. -/
def SoItem.Lists (tag : SoItem) (l : List Bytes) : Prop :=
  tag.moderator = false ∧ ((l = tag.terms ∧ l ≠ []) ∨ (l = [spaced tag.name] ∧ spaced tag.name ∉ toIgnore))

/-- A list as a key of a table. -/
def commas (l : List Bytes) : Bytes := (str ", ").intercalate l

/-- The answer is not an error report. -/
def SoWrapper.Fine (w : SoWrapper) : Prop := w.errorName = [] ∧ w.errorMessage = []

/-- After page `p` the next one is to be fetched. -/
def GoesOn (get : Nat → Option SoWrapper) (p : Nat) : Prop :=
  ∃ w, get p = some w ∧ w.Fine ∧ w.hasMore = true ∧ w.backoff ≤ 10

/-- Page `p` is the last there is. -/
def IsLast (get : Nat → Option SoWrapper) (p : Nat) : Prop :=
  ∃ w, get p = some w ∧ w.Fine ∧ w.hasMore = false

/-- Page `p` cannot be used, or tells to stop. -/
def FailsWith (get : Nat → Option SoWrapper) (p : Nat) (e : SoError) : Prop :=
  (get p = none ∧ e = .fetch) ∨
  ∃ w, get p = some w ∧ ((¬ w.Fine ∧ e = .answer w.errorName w.errorMessage) ∨
    (w.Fine ∧ w.hasMore = true ∧ 10 < w.backoff ∧ e = .backoff w.backoff))

/-- The tag is on page `p`. -/
def OnPage (get : Nat → Option SoWrapper) (p : Nat) (tag : SoItem) : Prop :=
  ∃ w, get p = some w ∧ tag ∈ w.items

/-- Among the terms of the key `k`, separated by commas, is `t`. -/
def ListedIn (k t : Bytes) : Prop := ∃ l, (∀ x ∈ l, 0x2C ∉ x) ∧ k = commas l ∧ t ∈ l

/-- No tag or synonym has a comma. -/
def NoCommas (get : Nat → Option SoWrapper) : Prop :=
  ∀ p tag, OnPage get p tag → 0x2C ∉ tag.name ∧ ∀ s ∈ tag.synonyms, 0x2C ∉ s

end Jargon
