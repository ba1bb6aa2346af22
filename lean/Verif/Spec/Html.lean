import Verif.Model.HtmlReader

/-! What the tokens of an HTML text are like, and which of them stay the same when they are written and read again. -/

namespace Jargon

/-- A document without elements with raw text. -/
def NoRawText (hs : List HTok) : Prop := ∀ h ∈ hs, h.opensRawText = false

/-- A tag or attribute name as a reader of HTML delivers it. -/
def NameLike (name : Bytes) : Prop :=
  ∀ b ∈ name, isHtmlSpace b = false ∧ b ≠ 0x2F ∧ b ≠ 0x3E ∧ isUpperByte b = false

/-- The element with raw text whose content follows `h`, which itself stands in `ctx`. -/
def rawAfter (ctx : Option Bytes) (h : HTok) : Option Bytes :=
  if h.type = .text then ctx else if h.opensRawText then some h.data else none

/-- The tokens, with the content of script and style elements and the like escaped. -/
def escapeRaw : Option Bytes → List HTok → List HTok
  | _, [] => []
  | ctx, h :: hs =>
    (if h.type = .text ∧ ∃ name ∈ ctx, rcdataNames.contains name = false
      then { h with data := htmlEscape h.data } else h) :: escapeRaw (rawAfter ctx h) hs

/-- The contents of script and style elements and the like, in order: those of the elements with raw text in
which no character references are read. -/
def rawContents : Option Bytes → List HTok → List Bytes
  | _, [] => []
  | ctx, h :: hs =>
    (if h.type = .text ∧ ∃ name ∈ ctx, rcdataNames.contains name = false then [h.data] else []) ++
      rawContents (rawAfter ctx h) hs

variable [HtmlReader]

/-- An attribute name as a reader of HTML delivers it. -/
def AttrName (k : Bytes) : Prop :=
  k ≠ [] ∧ NameLike k ∧ 0x3D ∉ k.tail ∧ (HtmlReader.equalsInName = false → 0x3D ∉ k)

/-- What a reader of HTML delivers. -/
def Readable (h : HTok) : Prop :=
  match h.type with
  | .text => h.data ≠ [] ∧ h.attr = [] ∧ h.dataAtom = .zero
  | .comment | .doctype => h.attr = [] ∧ h.dataAtom = .zero
  | .endTag => h.attr = [] ∧ h.dataAtom = atomOf h.data ∧ NameLike h.data ∧
      (∃ b ∈ h.data.head?, isTagLetter b)
  | .startTag | .selfClosing => h.dataAtom = atomOf h.data ∧ NameLike h.data ∧
      (∃ b ∈ h.data.head?, isTagLetter b) ∧ ∀ a ∈ h.attr, AttrName a.1

/-- A sequence of tokens as a reader of HTML delivers it: no two texts in a row; an element with raw text
contains at most a text before its end tag, and no NUL byte. `ctx` is the element with raw text that is open,
`afterText` whether a text precedes. -/
def ReadableFrom : Option Bytes → Bool → List HTok → Prop
  | _, _, [] => True
  | ctx, afterText, h :: hs =>
    Readable h ∧ (h.type = .text → afterText = false ∧ (ctx ≠ none → 0 ∉ h.data)) ∧
    (∀ name ∈ ctx, h.type ≠ .text → h.type = .endTag ∧ h.data = name ∧ name ≠ str "plaintext") ∧
    ReadableFrom (rawAfter ctx h) (h.type == .text) hs

/-- A sequence of tokens as a reader of HTML delivers it. -/
def ReadableDoc (hs : List HTok) : Prop := ReadableFrom none false hs

/-- A comment that means the same when it is written as it is: nothing in it, nor the dashes before it together with
it, ends a comment; and no line end, NUL byte or character reference in it would be replaced. -/
def CommentKept (d : Bytes) : Prop :=
  ¬ str "-->" <:+: str "--" ++ d ∧ ¬ str "--!>" <:+: str "--" ++ d ∧ ¬ str "--!" <:+ str "--" ++ d ∧
    cookRcdata d = d

/-- The same for a doctype. -/
def DoctypeKept (d : Bytes) : Prop :=
  0x3E ∉ d ∧ (∀ b ∈ d.head?, isHtmlSpace b = false) ∧ cookText d = d

/-- A token that can be written as it is. Texts and attribute values always can, as they are escaped. -/
def Kept (h : HTok) : Prop :=
  match h.type with
  | .comment => CommentKept h.data
  | .doctype => DoctypeKept h.data
  | _ => True

/-- The scripts, style sheets and other raw text of an HTML text. -/
def scripts (doc : Bytes) : List Bytes := rawContents none (htmlTokens doc)

end Jargon
