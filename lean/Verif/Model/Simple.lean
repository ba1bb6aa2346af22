import Verif.Model.Tokenizer

/-! Model of the simple filters: mapper, stemmer, norm, stopwords, contractions, sigil, twitter. -/

namespace Jargon

/-! ### filters/mapper -/

/-- A Go `func(*jargon.Token) *jargon.Token`: nil is `none`, and it may panic on nil. -/
abbrev TokenFunc := Option Token → Go (Option Token)

/-- filters/mapper/filter.go:46-48: apply the functions one after the other. -/
def applyFuncs : List TokenFunc → Option Token → Go (Option Token)
  | [], t => Go.ret t
  | f :: fs, t => do
    let t ← f t
    applyFuncs fs t

/-- filters/mapper/filter.go:37-51 `next`. -/
def mapperNext {σ : Type} (call : NextFn σ) (funcs : List TokenFunc) (s : TS σ) :
    Go (Res × TS σ) := do
  let (r, s) ← TS.next call s
  if r.err.isSome then pure ({ tok := none, err := r.err }, s)
  else match r.tok with
    | none => pure ({ tok := none, err := none }, s)
    | some token => do
      let token ← applyFuncs funcs (some token)
      pure ({ tok := token, err := none }, s)

/-- filters/mapper/filter.go:13-29 `NewFilter`, `Filter`. -/
def mapper (funcs : List TokenFunc) : Filter := fun incoming =>
  newTokenStream (mapperNext incoming.call funcs) incoming.st

/-! ### filters/stemmer -/

/-- filters/stemmer/filter.go:35-49: the function mapped over the tokens. `stem` is the snowball
function with its second argument fixed to `true`. -/
def stemFunc (U : Unicode) (stem : Bytes → Bytes) : TokenFunc
  | none => Go.panic .nilDeref
  | some token =>
    if token.isPunct || token.isSpace then Go.ret (some token)
    else
      let stemmed := stem token.string
      if stemmed = token.string then Go.ret (some token)
      else Go.ret (newToken U stemmed true)

/-- filters/stemmer/filter.go:34-52 `newStemmer`. -/
def stemmer (U : Unicode) (stem : Bytes → Bytes) : Filter := mapper [stemFunc U stem]

/-! ### filters/norm -/

/-- golang.org/x/text/unicode/norm `Form`: the two methods used. -/
structure NormForm where
  isNormalString : Bytes → Bool
  string : Bytes → Bytes

/-- filters/norm/filter.go:22-29. -/
def normFunc (U : Unicode) (form : NormForm) : TokenFunc
  | none => Go.panic .nilDeref
  | some token =>
    if form.isNormalString token.string then Go.ret (some token)
    else
      let s := form.string token.string
      Go.ret (newToken U s true)

/-- filters/norm/filter.go:21-32 `newFilter`. -/
def normFilter (U : Unicode) (form : NormForm) : Filter := mapper [normFunc U form]

/-! ### filters/stopwords -/

/-- filters/stopwords/filter.go:11-29 `NewFilter`: the keys of the map `includes`. -/
def stopIncludes (U : Unicode) (stopwords : List Bytes) (ignoreCase : Bool) : List Bytes :=
  stopwords.map fun s => if ignoreCase then U.lowerString s else s

/-- filters/stopwords/filter.go:49-71 `next`. -/
def stopNext {σ : Type} (U : Unicode) (call : NextFn σ) (includes : List Bytes) (ignoreCase : Bool)
    (s : TS σ) : Go (Res × TS σ) := do
  let (r, s) ← TS.next call s
  if r.err.isSome then pure ({ tok := none, err := r.err }, s)
  else match r.tok with
    | none => pure ({ tok := none, err := none }, s)
    | some token =>
      let key := if ignoreCase then U.lowerString token.string else token.string
      if includes.contains key then stopNext U call includes ignoreCase s
      else pure ({ tok := some token, err := none }, s)
partial_fixpoint

/-- filters/stopwords/filter.go:11-42 `NewFilter`, `Filter`. -/
def stopwords (U : Unicode) (words : List Bytes) (ignoreCase : Bool) : Filter := fun incoming =>
  newTokenStream (stopNext U incoming.call (stopIncludes U words ignoreCase) ignoreCase) incoming.st

/-! ### filters/contractions -/

/-- A Go `map[string]string` as an association list with distinct keys. -/
abbrev StringMap := List (Bytes × Bytes)

/-- filters/contractions/filter.go:25-28 `tokens`. -/
structure ConState (σ : Type) where
  incoming : TS σ
  outgoing : Queue Token

/-- filters/contractions/filter.go:63-80 `tryExpansion`: `(found, err)` and the new `outgoing`. -/
def tryExpansion (E : Env) (mappings : StringMap) (outgoing : Queue Token) (token : Token)
    (ignoreCase : Bool) : Go ((Bool × Option Err) × Queue Token) :=
  let key := if ignoreCase then E.U.lowerString token.string else token.string
  match mappings.lookup key with
  | none => Go.ret ((false, none), outgoing)
  | some expansion => do
    let (tokens, err) ← (tokenizeString E expansion).toSlice
    match err with
    | some e => pure ((true, some e), outgoing)
    | none => pure ((true, none), outgoing.push tokens)

/-- filters/contractions/filter.go:56-60: the end of `next`. -/
def conFinish {σ : Type} (incoming : TS σ) (outgoing : Queue Token) (token : Token) :
    Go (Res × ConState σ) :=
  if outgoing.any then do
    let (t, outgoing) ← outgoing.pop
    pure ({ tok := some t, err := none }, { incoming, outgoing })
  else Go.ret ({ tok := some token, err := none }, { incoming, outgoing })

/-- filters/contractions/filter.go:30-61 `next`. -/
def conNext {σ : Type} (E : Env) (mappings : StringMap) (call : NextFn σ) (s : ConState σ) :
    Go (Res × ConState σ) :=
  if s.outgoing.any then do
    let (t, outgoing) ← s.outgoing.pop
    pure ({ tok := some t, err := none }, { s with outgoing })
  else do
    let (r, incoming) ← TS.next call s.incoming
    if r.err.isSome then pure ({ tok := none, err := r.err }, { s with incoming })
    else match r.tok with
      | none => pure ({ tok := none, err := none }, { s with incoming })
      | some token => do
        -- Try case-sensitive
        let ((found, err), outgoing) ← tryExpansion E mappings s.outgoing token false
        if err.isSome then pure ({ tok := none, err }, { incoming, outgoing })
        else if found then conFinish incoming outgoing token
        else do
          -- Try case-insensitive
          let ((_, err), outgoing) ← tryExpansion E mappings outgoing token true
          if err.isSome then pure ({ tok := none, err }, { incoming, outgoing })
          else conFinish incoming outgoing token

/-- filters/contractions/filter.go:17-23 `Expand`, for a given table. -/
def expandWith (E : Env) (mappings : StringMap) : Filter := fun incoming =>
  newTokenStream (conNext E mappings incoming.call) { incoming := incoming.st, outgoing := Queue.new }

/-! ### filters/sigil -/

/-- filters/sigil/filter.go:19-22 `filter`. -/
structure SigilFilter where
  sigil : Bytes
  legal : Bytes → Bool

/-- filters/sigil/filter.go:33-39 `stream`. -/
structure SigilState (σ : Type) where
  incoming : TS σ
  previous : Option Token
  outgoing : Queue Token

/-- filters/sigil/filter.go:79-104 `try`: `(success, token, err)` and the new state. -/
def sigilTry {σ : Type} (U : Unicode) (f : SigilFilter) (call : NextFn σ) (s : SigilState σ)
    (current : Token) : Go ((Bool × Option Token × Option Err) × SigilState σ) :=
  if current.string ≠ f.sigil then Go.ret ((false, none, none), s)
  else do
    let (r, incoming) ← TS.next call s.incoming
    let s := { s with incoming }
    if r.err.isSome then pure ((false, none, r.err), s)
    else match r.tok with
      | none => pure ((false, none, none), s)
      | some lookahead =>
        if f.legal lookahead.string then
          pure ((true, newToken U (f.sigil ++ lookahead.string) true, none), s)
        else pure ((false, none, none), { s with outgoing := s.outgoing.push [lookahead] })

/-- filters/sigil/filter.go:55 `boundaryOK`. -/
def boundaryOK (previous : Option Token) : Bool :=
  match previous with
  | none => true
  | some p => p.isSpace || p.isPunct

/-- filters/sigil/filter.go:41-77 `next`. -/
def sigilNext {σ : Type} (U : Unicode) (f : SigilFilter) (call : NextFn σ) (s : SigilState σ) :
    Go (Res × SigilState σ) :=
  if s.outgoing.any then do
    let (t, outgoing) ← s.outgoing.pop
    pure ({ tok := some t, err := none }, { s with outgoing })
  else do
    let (r, incoming) ← TS.next call s.incoming
    let s := { s with incoming }
    if r.err.isSome then pure ({ tok := none, err := r.err }, s)
    else match r.tok with
      | none => pure ({ tok := none, err := none }, s)
      | some current =>
        -- Previous token must not be a word
        if !boundaryOK s.previous then
          pure ({ tok := some current, err := none }, { s with previous := some current })
        else do
          let ((success, handle, err), s) ← sigilTry U f call s current
          if err.isSome then pure ({ tok := none, err }, s)
          else if success then
            if s.outgoing.any then pure ({ tok := none, err := some .sigilOutgoing }, s)
            else pure ({ tok := handle, err := none }, { s with previous := handle })
          else pure ({ tok := some current, err := none }, { s with previous := some current })

/-- filters/sigil/filter.go:11-31 `NewFilter`, `filter`. -/
def sigil (U : Unicode) (f : SigilFilter) : Filter := fun incoming =>
  newTokenStream (sigilNext U f incoming.call)
    { incoming := incoming.st, previous := none, outgoing := Queue.new }

/-! ### filters/twitter -/

/-- filters/twitter/filter.go:26-30: `'A'..'Z'`, `'a'..'z'`, `'0'..'9'`, `'_'`. -/
def handleRune (r : Rune) : Bool :=
  (0x41 ≤ r && r ≤ 0x5A) || (0x61 ≤ r && r ≤ 0x7A) || (0x30 ≤ r && r ≤ 0x39) || r == 0x5F

/-- filters/twitter/filter.go:20-37: the loop of `legalHandle`. -/
def legalHandleLoop : Nat → List Rune → Bool
  | _, [] => true
  | length, r :: rs =>
    let length := length + 1
    if length > 15 then false
    else if handleRune r then legalHandleLoop length rs
    else false

/-- filters/twitter/filter.go:18-38 `legalHandle`. -/
def legalHandle (s : Bytes) : Bool := legalHandleLoop 0 (runes s)

/-- filters/twitter/filter.go:49-61: the loop of `legalHashtag`. -/
def legalHashtagLoop (U : Unicode) : List Rune → Bool
  | [] => true
  | r :: rs =>
    if U.isLetter r || U.isNumber r || r == 0x5F then legalHashtagLoop U rs else false

/-- filters/twitter/filter.go:41-62 `legalHashtag`. -/
def legalHashtag (U : Unicode) (s : Bytes) : Bool :=
  if (runes s).length = 1 then U.isLetter (decodeRune s).1
  else legalHashtagLoop U (runes s)

/-- filters/twitter/filter.go:12 `Handles`. -/
def handles (U : Unicode) : Filter := sigil U { sigil := [0x40], legal := legalHandle }

/-- filters/twitter/filter.go:15 `Hashtags`. -/
def hashtags (U : Unicode) : Filter := sigil U { sigil := [0x23], legal := legalHashtag U }

end Jargon
