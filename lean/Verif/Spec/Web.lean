import Verif.Model.Prelude

/-! What a browser makes of a piece of HTML, for HTML as simple as the web demo's. -/

namespace Jargon

/-- The entities that matter here, after the ampersand. -/
def entities : List (Bytes × UInt8) :=
  [(str "#34;", 0x22), (str "amp;", 0x26), (str "#39;", 0x27), (str "#43;", 0x2B), (str "lt;", 0x3C),
   (str "gt;", 0x3E)]

/-- The text up to the next `>`, and what follows it. -/
def untilGt : Bytes → Bytes × Bytes
  | [] => ([], [])
  | b :: s => if b = 0x3E then ([], s) else ((untilGt s).1.cons b, (untilGt s).2)

theorem untilGt_le (s : Bytes) : (untilGt s).2.length ≤ s.length := by
  induction s with
  | nil => simp [untilGt]
  | cons b s ih =>
    unfold untilGt
    split
    · simp
    · simp; omega

/-- A part of an HTML text. -/
inductive HtmlPart where
  /-- a tag: what is between `<` and `>` -/
  | tag (inner : Bytes)
  /-- a character of text, as displayed -/
  | char (b : UInt8)
deriving DecidableEq, Repr

/-- Reading HTML: tags, and characters with entities resolved. -/
def readHtml : Bytes → List HtmlPart
  | [] => []
  | b :: s =>
    if b = 0x3C then .tag (untilGt s).1 :: readHtml (untilGt s).2
    else if b = 0x26 then
      match entities.find? (fun e => e.1.isPrefixOf s) with
      | some e => .char e.2 :: readHtml (s.drop e.1.length)
      | none => .char b :: readHtml s
    else .char b :: readHtml s
termination_by s => s.length
decreasing_by
  · have := untilGt_le s; simp; omega
  · simp; omega
  · simp
  · simp

/-- The text a browser displays. -/
def displayed (s : Bytes) : Bytes :=
  (readHtml s).filterMap fun | .char b => some b | .tag _ => none

/-- The tags in an HTML text. -/
def tagsIn (s : Bytes) : List Bytes :=
  (readHtml s).filterMap fun | .tag t => some t | .char _ => none

/-- HTML cannot express the character NUL; it is shown as U+FFFD. -/
def showNul (s : Bytes) : Bytes := s.flatMap fun b => if b = 0 then [0xEF, 0xBF, 0xBD] else [b]

/-- The first component of a path: what is between the first slash and the next, or the end. -/
def IsRoute (path route : Bytes) : Prop :=
  ∃ pre rest, path = pre ++ 0x2F :: route ++ rest ∧ 0x2F ∉ pre ∧ 0x2F ∉ route ∧
    (rest = [] ∨ rest.head? = some 0x2F)

end Jargon
