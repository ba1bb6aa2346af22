import Verif.Model.Tokenizer

/-! Model of `html.Tokenizer` of golang.org/x/net/html, which tokenizer_html.go:13-18 runs on the input, as of
the version in go.mod:8 (v0.0.0-20220607020251-c690dde0001d). Its source is not in /repo; this follows the HTML
standard and what is known of that version where it differs from the standard:

* line ends are converted and character references resolved in texts, attribute values, *comments and doctypes*;
* a comment ends as `readComment` sees it, which counts dashes and skips the byte after `--!`;
* a tag counts as self-closing if the byte before its `>` is a slash, even in an unquoted attribute value.

What is not fixed here, and so holds whatever it is, is gathered in `HtmlReader`: the table of named character
references, two details of malformed tags, and which end tags end a script.

Simplification: text followed by `</` at the very end of the input is one token here, not two. -/

namespace Jargon

/-- What depends on tables and versions of golang.org/x/net/html. -/
class HtmlReader where
  /-- entity.go `entity`: named character references, with their semicolon if they have one -/
  one : Bytes → Option Rune
  /-- entity.go `entity2` -/
  two : Bytes → Option (Rune × Rune)
  /-- token.go `readTagAttrKey`: an attribute name may begin with `=` -/
  equalsInName : Bool
  /-- token.go `readTagAttrVal`: a slash after an attribute name and white space ends the attribute -/
  slashEndsName : Bool
  /-- token.go `readScript`: an end tag after this much of a script ends it. It does not after `<!--` and
  another `<script>`. -/
  closesScript : Bytes → Bool
  amp : one (str "amp;") = some 0x26
  lt : one (str "lt;") = some 0x3C
  gt : one (str "gt;") = some 0x3E
  /-- The zero rune stands for "not there". -/
  one_ne : ∀ n r, one n = some r → r ≠ 0
  two_ne : ∀ n r, two n = some r → r.1 ≠ 0 ∧ r.2 ≠ 0
  /-- A script without `<` ends with its end tag. -/
  closes : ∀ s, 0x3C ∉ s → closesScript s = true

/-! ### Line ends, NUL bytes, character references -/

/-- x/net/html escape.go `convertNewlines`: CR LF and CR become LF. -/
def convertNewlines : Bytes → Bytes
  | [] => []
  | [b] => [if b = 0x0D then 0x0A else b]
  | b :: c :: s =>
    if b = 0x0D then (if c = 0x0A then convertNewlines (c :: s) else 0x0A :: convertNewlines (c :: s))
    else b :: convertNewlines (c :: s)

/-- x/net/html token.go `Text`: NUL bytes in comments and raw text become U+FFFD. -/
def replaceNul (s : Bytes) : Bytes := s.flatMap fun b => if b = 0 then [0xEF, 0xBF, 0xBD] else [b]

/-- x/net/html escape.go `replacementTable`: windows-1252 for the references to 0x80 to 0x9F. -/
def replacementTable : List Rune :=
  [0x20AC, 0x0081, 0x201A, 0x0192, 0x201E, 0x2026, 0x2020, 0x2021, 0x02C6, 0x2030, 0x0160, 0x2039, 0x0152, 0x008D,
   0x017D, 0x008F, 0x0090, 0x2018, 0x2019, 0x201C, 0x201D, 0x2022, 0x2013, 0x2014, 0x02DC, 0x2122, 0x0161, 0x203A,
   0x0153, 0x009D, 0x017E, 0x0178]

/-- The digits of numeric references. -/
def digitOf (hex : Bool) (b : UInt8) : Option Nat :=
  if 0x30 ≤ b ∧ b ≤ 0x39 then some (b.toNat - 0x30)
  else if hex ∧ 0x61 ≤ b ∧ b ≤ 0x66 then some (b.toNat - 0x61 + 10)
  else if hex ∧ 0x41 ≤ b ∧ b ≤ 0x46 then some (b.toNat - 0x41 + 10)
  else none

/-- The rune of a numeric reference, computed in 32 bits. -/
def numericRune (hex : Bool) (digits : Bytes) : Rune :=
  let x := digits.foldl (fun x b => ((if hex then 16 else 10) * x + (digitOf hex b).getD 0) % 2 ^ 32) 0
  if 0x80 ≤ x ∧ x ≤ 0x9F then replacementTable.getD (x - 0x80) 0xFFFD
  else if x = 0 ∨ (0xD800 ≤ x ∧ x ≤ 0xDFFF) ∨ x > 0x10FFFF then 0xFFFD
  else x

def isNameByte (b : UInt8) : Bool := (0x61 ≤ b && b ≤ 0x7A) || (0x41 ≤ b && b ≤ 0x5A) || (0x30 ≤ b && b ≤ 0x39)

/-- x/net/html escape.go `unescapeEntity` for a numeric reference, after `&#` (without `x`): what is written, and how
many of the bytes after the ampersand are read. `read` is how many there were before the digits. -/
def numericRef (hex : Bool) (read : Nat) (s : Bytes) : Bytes × Nat :=
  let digits := s.takeWhile fun b => (digitOf hex b).isSome
  let n := read + digits.length + (if (s.drop digits.length).head? = some 0x3B then 1 else 0)
  if n ≤ 2 then ([0x26], 0) else (encodeRune (numericRune hex digits), n)

/-! ### Tags and their state -/

/-- x/net/html token.go `Text` for the content of script and style elements and the like. -/
def cookRaw (s : Bytes) : Bytes := replaceNul (convertNewlines s)

def isHtmlSpace (b : UInt8) : Bool := b == 0x20 || b == 0x09 || b == 0x0A || b == 0x0C || b == 0x0D

def isUpperByte (b : UInt8) : Bool := 0x41 ≤ b && b ≤ 0x5A

def isTagLetter (b : UInt8) : Bool := isUpperByte b || (0x61 ≤ b && b ≤ 0x7A)

def lowerByte (b : UInt8) : UInt8 := if isUpperByte b then b + 0x20 else b

/-- The atom of a tag name; all but two are the same here. -/
def atomOf (name : Bytes) : Atom :=
  if name = str "script" then .script else if name = str "style" then .style else .other 0

/-- What the reader is in the middle of. -/
inductive Reading where
  /-- text -/
  | text (raw : Bytes)
  /-- text, then `<` -/
  | lt (raw : Bytes)
  /-- text, then `</` -/
  | ltSlash (raw : Bytes)
  /-- `<!` and what follows -/
  | bang (acc : Bytes)
  /-- a comment, with the number of dashes at its end (the first two included), and whether the last byte is a `!`
  after at least two of them -/
  | comment (acc : Bytes) (dashes : Nat) (excl : Bool)
  | bogus (acc : Bytes)
  | doctype (acc : Bytes)
  | name (type : HType) (acc : Bytes)
  /-- between attributes; whether the last byte is a slash -/
  | attrs (type : HType) (tag : Bytes) (attrs : List (Bytes × Bytes)) (slash : Bool)
  | key (type : HType) (tag : Bytes) (attrs : List (Bytes × Bytes)) (key : Bytes)
  /-- after an attribute name, which may be empty; whether the last byte is a slash -/
  | afterKey (type : HType) (tag : Bytes) (attrs : List (Bytes × Bytes)) (key : Bytes) (slash : Bool)
  | beforeValue (type : HType) (tag : Bytes) (attrs : List (Bytes × Bytes)) (key : Bytes)
  /-- in a value, with its quote if it has one -/
  | value (type : HType) (tag : Bytes) (attrs : List (Bytes × Bytes)) (key : Bytes) (quote : Option UInt8)
      (acc : Bytes)
deriving DecidableEq

/-- The token for a tag. Attributes of an end tag are ignored. -/
def tagEvent (type : HType) (tag : Bytes) (attrs : List (Bytes × Bytes)) (slash : Bool) : HTok :=
  if type = .endTag then { type, dataAtom := atomOf tag, data := tag }
  else { type := if slash then .selfClosing else .startTag, dataAtom := atomOf tag, data := tag, attr := attrs }

/-- x/net/html token.go `readTag`: attributes with an empty name are dropped. -/
def addAttr (old : List (Bytes × Bytes)) (k v : Bytes) : List (Bytes × Bytes) :=
  if k = [] then old else old ++ [(k, v)]

/-- The bytes after `<!` so far belong to the word DOCTYPE. -/
def isDoctypeStart (acc : Bytes) : Bool :=
  (acc.map fun b => lowerByte b).isPrefixOf (str "doctype")

/-- x/net/html token.go `readStartTag`: the elements whose content is not read as HTML. -/
def rawNames : List Bytes :=
  [str "script", str "style", str "title", str "textarea", str "xmp", str "iframe", str "noembed",
   str "noframes", str "noscript", str "plaintext"]

/-- x/net/html token.go `readRawOrRCDATA`: those of them in which character references are read. -/
def rcdataNames : List Bytes := [str "title", str "textarea"]

/-- A tag after which raw text follows. A slash at its end makes no difference. -/
def HTok.opensRawText (h : HTok) : Bool :=
  (h.type == .startTag || h.type == .selfClosing) && rawNames.contains h.data

/-- The bytes so far end, in whatever case, with `</name` or `<name` and a byte that ends a name. -/
def endsWithTag (opening name acc : Bytes) : Bool :=
  match acc.getLast? with
  | none => false
  | some b => (isHtmlSpace b || b == 0x2F || b == 0x3E) &&
      (opening ++ name).isSuffixOf (acc.dropLast.map lowerByte)

/-- What a reader is in the middle of: HTML, or the content of an element with raw text. -/
inductive DocReading where
  | html (r : Reading)
  | raw (name : Bytes) (acc : Bytes)

/-- What follows the tokens `out` and the state `r`. -/
def DocReading.after (out : List HTok) (r : Reading) : DocReading :=
  match out.getLast? with
  | some h => if h.opensRawText then .raw h.data [] else .html r
  | none => .html r

section
variable [HtmlReader]

/-! ### Named references and the text of tokens -/

/-- The longest of some prefixes, at most `j` bytes but at least two, that is a reference without semicolon. -/
def prefixRef (name : Bytes) : Nat → Option (Rune × Nat)
  | 0 | 1 => none
  | j + 2 =>
    match HtmlReader.one (name.take (j + 2)) with
    | some r => some (r, j + 2)
    | none => prefixRef name (j + 1)

/-- x/net/html escape.go `unescapeEntity` for a named reference. -/
def namedRef (inAttr : Bool) (s : Bytes) : Bytes × Nat :=
  let letters := s.takeWhile isNameByte
  let semicolon := (s.drop letters.length).head? = some 0x3B
  let name := if semicolon then letters ++ [0x3B] else letters
  if name = [] then ([0x26], 0)
  else if inAttr ∧ ¬ semicolon ∧ (s.drop letters.length).head? = some 0x3D then (0x26 :: name, name.length)
  else match HtmlReader.one name with
    | some r => (encodeRune r, name.length)
    | none => match HtmlReader.two name with
      | some r => (encodeRune r.1 ++ encodeRune r.2, name.length)
      | none =>
        match if inAttr then none else prefixRef name (min (name.length - 1) 6) with
        | some r => (encodeRune r.1, r.2)
        | none => (0x26 :: name, name.length)

/-- x/net/html escape.go `unescapeEntity`, of the bytes after an ampersand: what is written, and how many of them
are read. -/
def charRef (inAttr : Bool) (s : Bytes) : Bytes × Nat :=
  match s with
  | 0x23 :: t =>
    if t.length ≤ 1 then ([0x26], 0)
    else if t.head? = some 0x78 ∨ t.head? = some 0x58 then numericRef true 2 (t.drop 1)
    else numericRef false 1 t
  | _ => namedRef inAttr s

/-- x/net/html escape.go `unescape`, after `n` bytes. -/
def resolve (inAttr : Bool) : Nat → Bytes → Bytes
  | _, [] => []
  | n + 1, _ :: s => resolve inAttr n s
  | 0, b :: s =>
    if b = 0x26 then (charRef inAttr s).1 ++ resolve inAttr (charRef inAttr s).2 s
    else b :: resolve inAttr 0 s

/-- x/net/html token.go `Text` for a text or a doctype. -/
def cookText (s : Bytes) : Bytes := resolve false 0 (convertNewlines s)

/-- x/net/html token.go `Text` for a comment, and for the content of title and textarea elements. -/
def cookRcdata (s : Bytes) : Bytes := resolve false 0 (replaceNul (convertNewlines s))

/-- x/net/html token.go `TagAttr`: an attribute value. -/
def cookValue (s : Bytes) : Bytes := resolve true 0 (convertNewlines s)

/-! ### Tags, comments, doctypes -/

/-- The token for a piece of text, if there is any. -/
def textEvent (raw : Bytes) : List HTok :=
  if raw = [] then [] else [{ type := .text, dataAtom := .zero, data := cookText raw }]

def commentEvent (data : Bytes) : HTok := { type := .comment, dataAtom := .zero, data := cookRcdata data }

def doctypeEvent (data : Bytes) : HTok := { type := .doctype, dataAtom := .zero, data := cookText data }

/-- One byte: the tokens complete with it, and what follows it. x/net/html token.go `Next`, `readComment`,
`readUntilCloseAngle`, `readMarkupDeclaration`, `readDoctype`, `readStartTag`, `readTag`, `readTagName`,
`readTagAttrKey`, `readTagAttrVal`. -/
def Reading.step : Reading → UInt8 → List HTok × Reading
  | .text raw, b => if b = 0x3C then ([], .lt raw) else ([], .text (raw ++ [b]))
  | .lt raw, b =>
    if isTagLetter b then (textEvent raw, .name .startTag [lowerByte b])
    else if b = 0x2F then ([], .ltSlash raw)
    else if b = 0x21 then (textEvent raw, .bang [])
    else if b = 0x3F then (textEvent raw, .bogus [b])
    else if b = 0x3C then ([], .lt (raw ++ [0x3C]))
    else ([], .text (raw ++ [0x3C, b]))
  | .ltSlash raw, b =>
    if isTagLetter b then (textEvent raw, .name .endTag [lowerByte b])
    else if b = 0x3E then (textEvent raw ++ [commentEvent []], .text [])
    else (textEvent raw, .bogus [b])
  | .bang acc, b =>
    -- two bytes are read before any is looked at, so `<!>` is not complete at its `>`
    if acc = [0x3E] then ([commentEvent []], if b = 0x3C then .lt [] else .text [b])
    else if acc = [0x2D] ∧ b = 0x2D then ([], .comment [] 2 false)
    else if acc = [] ∧ (b = 0x2D ∨ b = 0x3E) then ([], .bang [b])
    else if isDoctypeStart (acc ++ [b]) then
      if acc.length + 1 = 7 then ([], .doctype []) else ([], .bang (acc ++ [b]))
    else if b = 0x3E then ([commentEvent acc], .text [])
    else ([], .bogus (acc ++ [b]))
  | .comment acc dashes excl, b =>
    if excl then
      if b = 0x3E then ([commentEvent (acc.take (acc.length - 3))], .text [])
      else ([], .comment (acc ++ [b]) 0 false)
    else if b = 0x2D then ([], .comment (acc ++ [b]) (dashes + 1) false)
    else if b = 0x3E ∧ 2 ≤ dashes then ([commentEvent (acc.take (acc.length - 2))], .text [])
    else ([], .comment (acc ++ [b]) 0 (decide (b = 0x21 ∧ 2 ≤ dashes)))
  | .bogus acc, b =>
    if b = 0x3E then ([commentEvent acc], .text []) else ([], .bogus (acc ++ [b]))
  | .doctype acc, b =>
    if b = 0x3E then ([doctypeEvent acc], .text [])
    else if acc = [] ∧ isHtmlSpace b then ([], .doctype [])
    else ([], .doctype (acc ++ [b]))
  | .name type acc, b =>
    if isHtmlSpace b then ([], .attrs type acc [] false)
    else if b = 0x2F then ([], .afterKey type acc [] [] true)
    else if b = 0x3E then ([tagEvent type acc [] false], .text [])
    else ([], .name type (acc ++ [lowerByte b]))
  | .attrs type tag old slash, b =>
    if isHtmlSpace b then ([], .attrs type tag old false)
    else if b = 0x2F then ([], .afterKey type tag old [] true)
    else if b = 0x3E then ([tagEvent type tag old slash], .text [])
    else if b = 0x3D ∧ HtmlReader.equalsInName = false then ([], .beforeValue type tag old [])
    else ([], .key type tag old [lowerByte b])
  | .key type tag old k, b =>
    if isHtmlSpace b then ([], .afterKey type tag old k false)
    else if b = 0x2F then ([], .afterKey type tag old k true)
    else if b = 0x3E then ([tagEvent type tag (addAttr old k []) false], .text [])
    else if b = 0x3D then ([], .beforeValue type tag old k)
    else ([], .key type tag old (k ++ [lowerByte b]))
  | .afterKey type tag old k slash, b =>
    if isHtmlSpace b then ([], .afterKey type tag old k false)
    else if b = 0x2F then
      ([], if HtmlReader.slashEndsName then .attrs type tag (addAttr old k []) true
        else .afterKey type tag (addAttr old k []) [] true)
    else if b = 0x3E then ([tagEvent type tag (addAttr old k []) slash], .text [])
    else if b = 0x3D then ([], .beforeValue type tag old k)
    else ([], .key type tag (addAttr old k []) [lowerByte b])
  | .beforeValue type tag old k, b =>
    if isHtmlSpace b then ([], .beforeValue type tag old k)
    else if b = 0x22 ∨ b = 0x27 then ([], .value type tag old k (some b) [])
    else if b = 0x3E then ([tagEvent type tag (addAttr old k []) false], .text [])
    else ([], .value type tag old k none [b])
  | .value type tag old k (some q) acc, b =>
    if b = q then ([], .attrs type tag (addAttr old k (cookValue acc)) false)
    else ([], .value type tag old k (some q) (acc ++ [b]))
  | .value type tag old k none acc, b =>
    if isHtmlSpace b then ([], .attrs type tag (addAttr old k (cookValue acc)) false)
    else if b = 0x3E then
      ([tagEvent type tag (addAttr old k (cookValue acc)) (acc.getLast? == some 0x2F)], .text [])
    else ([], .value type tag old k none (acc ++ [b]))

/-- What is there at the end of the input. Unfinished tags are dropped. -/
def Reading.finish : Reading → List HTok
  | .text raw => textEvent raw
  | .lt raw => textEvent (raw ++ [0x3C])
  | .ltSlash raw => textEvent (raw ++ [0x3C, 0x2F])
  | .bang acc => [commentEvent (if 2 ≤ acc.length ∧ isDoctypeStart acc then [] else acc)]
  | .comment acc dashes excl => [commentEvent (if excl then acc else acc.take (acc.length - min dashes 2))]
  | .bogus acc => [commentEvent acc]
  | .doctype acc => [doctypeEvent acc]
  | _ => []

/-! ### Raw text -/

/-- The token for the content of an element with raw text, if it has any. -/
def rawEvent (name raw : Bytes) : List HTok :=
  if raw = [] then []
  else [{ type := .text, dataAtom := .zero, data := if rcdataNames.contains name then cookRcdata raw else cookRaw raw }]

/-- An end tag after this content ends the element. -/
def closesRaw (name content : Bytes) : Bool :=
  name != str "plaintext" && (name != str "script" || HtmlReader.closesScript content)

/-- One byte. x/net/html token.go `Next`, `readRawOrRCDATA`, `readRawEndTag`. -/
def DocReading.step : DocReading → UInt8 → List HTok × DocReading
  | .html r, b => ((r.step b).1, .after (r.step b).1 (r.step b).2)
  | .raw name acc, b =>
    if endsWithTag (str "</") name (acc ++ [b]) ∧ closesRaw name (acc.take (acc.length - (name.length + 2))) then
      -- the end tag: `</name` is read, then `b`
      (rawEvent name (acc.take (acc.length - (name.length + 2))) ++ ((Reading.name .endTag name).step b).1,
       .html ((Reading.name .endTag name).step b).2)
    else ([], .raw name (acc ++ [b]))

/-- What is there at the end of the input. -/
def DocReading.finish : DocReading → List HTok
  | .html r => r.finish
  | .raw name acc => rawEvent name acc

/-- Reading on. -/
def DocReading.run : DocReading → Bytes → List HTok
  | r, [] => r.finish
  | r, b :: s => (r.step b).1 ++ (r.step b).2.run s

/-- The tokens of an HTML text: what `Next` and `Token` deliver until `Next` returns `ErrorToken`. -/
def htmlTokens (s : Bytes) : List HTok := DocReading.run (.html (.text [])) s

end

/-! ### One reader -/

/-- Whether an end tag of a script ends it: after `<!--` and another `<script>` it does not. -/
inductive Escaped where
  | no | comment | script
deriving DecidableEq

/-- How the bytes of a script so far change what an end tag does. -/
def Escaped.step (e : Escaped) (acc : Bytes) : Escaped :=
  match e with
  | .no => if str "<!--" <:+ acc then .comment else .no
  | .comment =>
    if str "-->" <:+ acc then .no else if endsWithTag (str "<") (str "script") acc then .script else .comment
  | .script =>
    if str "-->" <:+ acc then .no else if endsWithTag (str "</") (str "script") acc then .comment else .script

/-- Over some more of the script. -/
def Escaped.steps (e : Escaped) (acc : Bytes) : Bytes → Escaped
  | [] => e
  | b :: s => (e.step (acc ++ [b])).steps (acc ++ [b]) s

/-- A few of the named references. -/
def sampleEntities : List (Bytes × Rune) :=
  [(str "amp;", 0x26), (str "lt;", 0x3C), (str "gt;", 0x3E), (str "quot;", 0x22), (str "nbsp;", 0xA0),
   (str "eacute;", 0xE9), (str "notin;", 0x2209), (str "amp", 0x26), (str "lt", 0x3C), (str "gt", 0x3E),
   (str "not", 0xAC), (str "not;", 0xAC)]

theorem Escaped.steps_no {acc s : Bytes} (h : 0x3C ∉ acc ++ s) : Escaped.steps .no acc s = .no := by
  induction s generalizing acc with
  | nil => rfl
  | cons b s ih =>
    have e : Escaped.step .no (acc ++ [b]) = .no := by
      rw [Escaped.step, if_neg]
      intro hs
      have h1 : (0x3C : UInt8) ∈ str "<!--" := by decide +kernel
      exact h (by simpa using List.mem_append_left s (hs.subset h1))
    rw [Escaped.steps, e, ih (by simpa using h)]

/-- A reader with a few named references, for examples. Which end tags end a script is as in the HTML standard, with
one exception: `<!-->` and `<!--->` do not begin such a comment there. -/
@[reducible] def sampleReader : HtmlReader where
  one n := (sampleEntities.find? fun e => e.1 == n).map (·.2)
  two n := if n = str "acE;" then some (0x223E, 0x333) else none
  equalsInName := true
  slashEndsName := false
  closesScript s := Escaped.steps .no [] s != .script
  amp := by decide +kernel
  lt := by decide +kernel
  gt := by decide +kernel
  one_ne n r h := by
    cases hf : sampleEntities.find? fun e => e.1 == n with
    | none => rw [hf] at h; simp at h
    | some e =>
      rw [hf] at h
      simp only [Option.map_some, Option.some.injEq] at h
      have hm := List.mem_of_find?_eq_some hf
      have key : ∀ e ∈ sampleEntities, e.2 ≠ 0 := by decide +kernel
      rw [← h]
      exact key e hm
  two_ne n r h := by
    split at h
    · simp only [Option.some.injEq] at h
      subst h
      decide
    · simp at h
  closes s h := by rw [Escaped.steps_no (by simpa using h)]; rfl

end Jargon
