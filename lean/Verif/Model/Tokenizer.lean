import Verif.Model.Queue

/-! Model of `tokenizer.go` and `tokenizer_html.go`. -/

namespace Jargon

/-- An `io.Reader`: the bytes it will deliver, and how it ends (`none` is `io.EOF`).
Simplification: how the bytes are cut into reads is not visible here. -/
structure Reader where
  data : Bytes
  err : Option Err := none

/-- Everything the model takes from outside /repo. -/
structure Env where
  /-- Go's unicode tables -/
  U : Unicode
  /-- `words.NewScanner(r)` of github.com/clipperhouse/uax29: the texts of successive successful
  `Scan` calls and then the value of `Err()`. -/
  scan : Reader → List Bytes × Option Err

/-- What the rest of the program relies on from the uax29 scanner: segments are never empty; a scan
without error has delivered the whole input and the input had no error; with an error, what was
delivered is a prefix of the input. -/
structure Env.Lawful (E : Env) : Prop where
  nonempty : ∀ r, ∀ seg ∈ (E.scan r).1, seg ≠ []
  complete : ∀ r, (E.scan r).2 = none → r.err = none ∧ (E.scan r).1.flatten = r.data
  sound : ∀ r, (E.scan r).1.flatten <+: r.data

/-- State of the `tokenizer` of tokenizer.go:28-36: the segments still to come and the final error. -/
abbrev TokState := List Bytes × Option Err

/-- tokenizer.go:39-49 `tokenizer.next`. -/
def tokenizerNext (E : Env) : NextFn TokState
  | (seg :: rest, e) => Go.ret ({ tok := newToken E.U seg false, err := none }, (rest, e))
  | ([], some e) => Go.ret ({ tok := none, err := some e }, ([], some e))
  | ([], none) => Go.ret ({ tok := none, err := none }, ([], none))

/-- tokenizer.go:16-19 `Tokenize` (with `newTokenizer`, tokenizer.go:32-36). -/
def tokenize (E : Env) (r : Reader) : TokenStream := newTokenStream (tokenizerNext E) (E.scan r)

/-- tokenizer.go:24-26 `TokenizeString`. -/
def tokenizeString (E : Env) (s : Bytes) : TokenStream := tokenize E { data := s }

/-! ### HTML -/

/-- golang.org/x/net/html `TokenType`, without `ErrorToken`. -/
inductive HType where
  | text | startTag | endTag | selfClosing | comment | doctype
deriving DecidableEq, Repr

/-- golang.org/x/net/html/atom `Atom`: 0, the two atoms the code names, and all others. -/
inductive Atom where
  | zero | script | style | other (code : Nat)
deriving DecidableEq, Repr

/-- golang.org/x/net/html `Token`. `attr` are the pairs (key, value). -/
structure HTok where
  type : HType
  dataAtom : Atom
  data : Bytes
  attr : List (Bytes × Bytes) := []
deriving DecidableEq, Repr

/-- golang.org/x/net/html `EscapeString`, byte by byte: `&'<>"\r` are replaced. -/
def htmlEscapeByte (b : UInt8) : Bytes :=
  if b = 0x26 then str "&amp;"
  else if b = 0x27 then str "&#39;"
  else if b = 0x3C then str "&lt;"
  else if b = 0x3E then str "&gt;"
  else if b = 0x22 then str "&#34;"
  else if b = 0x0D then str "&#13;"
  else [b]

/-- golang.org/x/net/html `EscapeString`. -/
def htmlEscape (s : Bytes) : Bytes := s.flatMap htmlEscapeByte

/-- golang.org/x/net/html `Token.tagString`. -/
def HTok.tagString (t : HTok) : Bytes :=
  t.data ++ t.attr.flatMap fun (k, v) => str " " ++ k ++ str "=\"" ++ htmlEscape v ++ str "\""

/-- golang.org/x/net/html `Token.String`. -/
def HTok.string (t : HTok) : Bytes :=
  match t.type with
  | .text => htmlEscape t.data
  | .startTag => str "<" ++ t.tagString ++ str ">"
  | .endTag => str "</" ++ t.tagString ++ str ">"
  | .selfClosing => str "<" ++ t.tagString ++ str "/>"
  | .comment => str "<!--" ++ t.data ++ str "-->"
  | .doctype => str "<!DOCTYPE " ++ t.data ++ str ">"

/-- tokenizer_html.go:20-24 `htokenizer`. The x/net/html tokenizer is the list of tokens it will
still produce and the error after them (`none` is `io.EOF`). -/
structure HState where
  events : List HTok
  final : Option Err
  ttokens : Option (TS TokState)
  parent : Atom

/-- tokenizer_html.go:42-87: the part of `next` after the text node, if any, is done. -/
def htmlAdvance (E : Env) (t : HState) : Go (Res × HState) :=
  match t.events with
  | [] => Go.ret ({ tok := none, err := t.final }, t)
  | htoken :: events =>
    let t := { t with events := events }
    -- lines 81-87: everything else is punct
    let other (t : HState) : Go (Res × HState) :=
      Go.ret ({ tok := some { value := htoken.string, punct := true, space := false,
                              lemma := false }, err := none }, t)
    match htoken.type with
    | .startTag =>
      if htoken.dataAtom = .script ∨ htoken.dataAtom = .style then
        other { t with parent := htoken.dataAtom }
      else other t
    | .text =>
      if t.parent = .script ∨ t.parent = .style then
        Go.ret ({ tok := some { value := htoken.string, punct := false, space := false,
                                lemma := false }, err := none }, t)
      else do
        let tt := (tokenizeString E htoken.string).st
        let (r, tt) ← TS.next (tokenizerNext E) tt
        pure (r, { t with ttokens := some tt })
    -- lines 75-78: for an end tag the code sets `htoken.DataAtom = 0`, a field of the local copy
    -- that `htoken.String()` does not read; `t.parent` is not changed.
    | .endTag => other t
    | .selfClosing | .comment | .doctype => other t

/-- tokenizer_html.go:27-88 `htokenizer.next`. -/
def htmlNext (E : Env) (t : HState) : Go (Res × HState) :=
  match t.ttokens with
  | some tt => do
    let (r, tt) ← TS.next (tokenizerNext E) tt
    if r.err.isSome then pure ({ tok := none, err := r.err }, { t with ttokens := some tt })
    else match r.tok with
      | some tok => pure ({ tok := some tok, err := none }, { t with ttokens := some tt })
      | none => htmlAdvance E { t with ttokens := none }
  | none => htmlAdvance E t

/-- tokenizer_html.go:13-18 `TokenizeHTML`, on the tokens the HTML tokenizer makes of the reader. -/
def tokenizeHTML (E : Env) (events : List HTok) (final : Option Err) : TokenStream :=
  newTokenStream (htmlNext E) { events, final, ttokens := none, parent := .zero }

end Jargon
