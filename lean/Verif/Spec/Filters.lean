import Verif.Spec.Stream
import Verif.Spec.Token
import Verif.Model.Simple

/-!
  What the filters should do, as functions on a finished sequence of tokens and its end.
  `mkToken` is determined by C01.
-/

namespace Jargon

/-- The token documented for a non-empty text (see `TokenFor`). -/
def mkToken (U : Unicode) (s : Bytes) (isLemma : Bool) : Token :=
  { value := s, punct := (runes s).all U.punctRune, space := (runes s).all isSpaceRune,
    lemma := isLemma }

/-- The end a scanner error stands for. -/
def endOf : Option Err → End
  | none => .eof
  | some e => .fail e

/-- The tokens of a list of segments. -/
def segTokens (U : Unicode) (segs : List Bytes) : List Token := segs.map (mkToken U · false)

/-- The tokens of a string that the scanner cuts up without error. -/
def stringTokens (E : Env) (s : Bytes) : List Token := segTokens E.U (E.scan { data := s }).1

/-- Deliver one more token first. -/
@[simp] def emit (t : Token) (r : List Token × End) : List Token × End := (t :: r.1, r.2)

/-! ### sigil -/

/-- May a sigil be tried after this token? -/
def boundary (previous : Option Token) : Bool :=
  match previous with
  | none => true
  | some p => !decide p.IsWord

/-- Exactly what the sigil filter does with a sequence of tokens, `previous` being the token it
remembers. -/
def sigilActual (U : Unicode) (f : SigilFilter) : Option Token → List Token → End → List Token × End
  | _, [], e => ([], e)
  | previous, [c], e =>
    if boundary previous && c.value = f.sigil then
      match e with
      | .eof => ([c], .eof)
      | .fail err => ([], .fail err)
    else ([c], e)
  | previous, c :: l :: rest, e =>
    if boundary previous && c.value = f.sigil then
      if f.legal l.value then
        emit (mkToken U (f.sigil ++ l.value) true)
          (sigilActual U f (some (mkToken U (f.sigil ++ l.value) true)) rest e)
      else
        emit c (emit l (sigilActual U f (some c) rest e))
    else
      emit c (sigilActual U f (some c) (l :: rest) e)

/-- What the sigil filter is documented to do: a sigil that is not preceded by a word merges with a
legal token that follows it; everything else is passed through. -/
def sigilIdeal (U : Unicode) (f : SigilFilter) : Option Token → List Token → List Token
  | _, [] => []
  | _, [c] => [c]
  | previous, c :: l :: rest =>
    if boundary previous && c.value = f.sigil && f.legal l.value then
      mkToken U (f.sigil ++ l.value) true ::
        sigilIdeal U f (some (mkToken U (f.sigil ++ l.value) true)) rest
    else c :: sigilIdeal U f (some c) (l :: rest)

/-! ### contractions -/

/-- The expansion of a token, if it has one: by its exact text, or else by its lower case. -/
def expansion? (U : Unicode) (m : StringMap) (t : Token) : Option Bytes :=
  match m.lookup t.value with
  | some x => some x
  | none => m.lookup (U.lowerString t.value)

/-- What a token becomes. -/
def expandToken (E : Env) (m : StringMap) (t : Token) : List Token :=
  match expansion? E.U m t with
  | some x => stringTokens E x
  | none => [t]

/-- The scanner gets through every expansion of the table, and none is empty. -/
structure GoodTable (E : Env) (m : StringMap) : Prop where
  scans : ∀ k x, (k, x) ∈ m → (E.scan { data := x }).2 = none
  nonempty : ∀ k x, (k, x) ∈ m → x ≠ []

/-! ### HTML -/

/-- Is this the start tag of a script or style element? -/
def HTok.opensRaw (h : HTok) : Bool :=
  h.type == .startTag && (h.dataAtom == .script || h.dataAtom == .style)

/-- Exactly what TokenizeHTML makes of the tokens of the HTML tokenizer; `raw` says that a script or
style start tag has been seen. -/
def htmlActual (E : Env) : Bool → List HTok → Option Err → List Token × End
  | _, [], final => ([], endOf final)
  | raw, h :: hs, final =>
    if h.type = .text then
      if raw then
        emit ⟨h.string, false, false, false⟩ (htmlActual E raw hs final)
      else
        match E.scan { data := h.string } with
        | (segs, none) =>
          (segTokens E.U segs ++ (htmlActual E raw hs final).1, (htmlActual E raw hs final).2)
        | (segs, some e) => (segTokens E.U segs, .fail e)
    else
      emit ⟨h.string, true, false, false⟩ (htmlActual E (raw || h.opensRaw) hs final)

end Jargon
