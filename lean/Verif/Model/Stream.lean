import Verif.Model.Token

/-! Model of `tokenstream.go`. -/

namespace Jargon

/-- Errors. `ext` are errors from outside (readers, writers, the HTML tokenizer, ...), the others
are the errors the code in /repo makes itself. -/
inductive Err where
  | ext (code : Nat)
  /-- filters/synonyms/filter.go:142 "expected buffer to be empty" -/
  | synBufferNotEmpty
  /-- filters/synonyms/filter.go:270 "expected buffer to have tokens" -/
  | synNoTokens
  /-- filters/synonyms/filter.go:274 "expected buffer to have word as first token" -/
  | synHeadNotWord
  /-- filters/sigil/filter.go:69 "there should be nothing in outgoing" -/
  | sigilOutgoing
deriving DecidableEq, Repr

/-- Result of a Go call returning `(*Token, error)`. -/
structure Res where
  tok : Option Token
  err : Option Err
deriving DecidableEq, Repr

/-- A closure `func() (*Token, error)` with its captured variables made explicit. -/
abbrev NextFn (σ : Type) := σ → Go (Res × σ)

/-- tokenstream.go:12-17 `TokenStream`: the captured state of `next`, and the two fields. -/
structure TS (σ : Type) where
  inner : σ
  token : Option Token
  err : Option Err

/-- tokenstream.go:25-36 `NewTokenStream`: the fields start as nil. -/
def TS.new {σ : Type} (inner : σ) : TS σ := { inner, token := none, err := none }

/-- tokenstream.go:20-22 `Next`, which calls the wrapper of tokenstream.go:29-32: call `next`,
store both results, return them. -/
def TS.next {σ : Type} (call : NextFn σ) (s : TS σ) : Go (Res × TS σ) := do
  let (r, inner) ← call s.inner
  let s' : TS σ := { inner, token := r.tok, err := r.err }
  pure ({ tok := s'.token, err := s'.err }, s')

/-- tokenstream.go:47-50 `Scan`. -/
def TS.scan {σ : Type} (call : NextFn σ) (s : TS σ) : Go (Bool × TS σ) := do
  let (r, s') ← TS.next call s
  let s'' : TS σ := { s' with token := r.tok, err := r.err }
  pure (s''.token.isSome && s''.err.isNone, s'')

/-- A stream object: `NewTokenStream(next)` packaged with its current state. -/
structure TokenStream where
  σ : Type
  call : NextFn σ
  st : TS σ

/-- tokenstream.go:25-36 `NewTokenStream`. -/
def newTokenStream {σ : Type} (call : NextFn σ) (inner : σ) : TokenStream :=
  { σ, call, st := TS.new inner }

/-- What a reader of the stream calls. -/
def TokenStream.nextFn (ts : TokenStream) : NextFn (TS ts.σ) := TS.next ts.call

/-- tokenstream.go:9 `Filter`. -/
abbrev Filter := TokenStream → TokenStream

/-- tokenstream.go:76-92 `where.next`. The predicate may carry state (as in `Distinct`). -/
def whereNext {σ ρ : Type} (call : NextFn σ) (pred : ρ → Token → Bool × ρ) (s : TS σ × ρ) :
    Go (Res × (TS σ × ρ)) := do
  let (r, up) ← TS.next call s.1
  if r.err.isSome then pure ({ tok := none, err := r.err }, (up, s.2))
  else match r.tok with
    | none => pure ({ tok := none, err := none }, (up, s.2))
    | some token =>
      let (b, p) := pred s.2 token
      if b then pure ({ tok := some token, err := none }, (up, p))
      else whereNext call pred (up, p)
partial_fixpoint

/-- tokenstream.go:68-74 `Where` with a predicate that carries state. -/
def whereStream {ρ : Type} (pred : ρ → Token → Bool × ρ) (p0 : ρ) (ts : TokenStream) : TokenStream :=
  newTokenStream (whereNext ts.call pred) (ts.st, p0)

/-- tokenstream.go:68-74 `Where` with a pure predicate. -/
def TokenStream.where (ts : TokenStream) (pred : Token → Bool) : TokenStream :=
  whereStream (fun (_ : Unit) t => (pred t, ())) () ts

/-- tokenstream.go:154-163 `Words`. -/
def TokenStream.words (ts : TokenStream) : TokenStream :=
  ts.where fun t => !t.isPunct && !t.isSpace

/-- tokenstream.go:166-172 `Lemmas`. -/
def TokenStream.lemmas (ts : TokenStream) : TokenStream :=
  ts.where Token.isLemma

/-- tokenstream.go:176-183: the closure `isDistinct`; the map `seen` as the list of its keys. -/
def isDistinct (seen : List Bytes) (t : Token) : Bool × List Bytes :=
  let found := seen.contains t.string
  (!found, if found then seen else t.string :: seen)

/-- tokenstream.go:175-190 `Distinct`. -/
def TokenStream.distinct (ts : TokenStream) : TokenStream := whereStream isDistinct [] ts

/-- tokenstream.go:95-107 `ToSlice`: the loop. -/
def toSliceLoop {σ : Type} (call : NextFn σ) (s : TS σ) (result : List Token) :
    Go ((List Token × Option Err) × TS σ) := do
  let (b, s) ← TS.scan call s
  if b then
    match s.token with
    | none => Go.panic .nilDeref -- not reachable: Scan returned true
    | some t => toSliceLoop call s (result ++ [t])
  else match s.err with
    | some e => pure (([], some e), s)
    | none => pure ((result, none), s)
partial_fixpoint

/-- tokenstream.go:95-107 `ToSlice`. A nil slice is modelled as `[]`. -/
def TokenStream.toSlice (ts : TokenStream) : Go (List Token × Option Err) := do
  let (r, _) ← toSliceLoop ts.call ts.st []
  pure r

/-- tokenstream.go:110-116 `Filter`. -/
def TokenStream.filter (ts : TokenStream) (filters : List Filter) : TokenStream :=
  filters.foldl (fun outgoing f => f outgoing) ts

/-- tokenstream.go:118-131 `String`: the loop. -/
def stringLoop {σ : Type} (call : NextFn σ) (s : TS σ) (b : Bytes) :
    Go ((Bytes × Option Err) × TS σ) := do
  let (ok, s) ← TS.scan call s
  if ok then
    match s.token with
    | none => Go.panic .nilDeref
    | some t => stringLoop call s (b ++ t.string)
  else match s.err with
    | some e => pure (([], some e), s)
    | none => pure ((b, none), s)
partial_fixpoint

/-- tokenstream.go:118-131 `String`. -/
def TokenStream.string (ts : TokenStream) : Go (Bytes × Option Err) := do
  let (r, _) ← stringLoop ts.call ts.st []
  pure r

/-- An `io.Writer`: hidden state, and `Write(p) (n int, err error)`. -/
structure Writer (ω : Type) where
  write : ω → Bytes → (Nat × Option Err) × ω

/-- tokenstream.go:134-151 `WriteTo`: the loop. -/
def writeToLoop {σ ω : Type} (call : NextFn σ) (w : Writer ω) (s : TS σ) (ws : ω) (written : Nat) :
    Go ((Nat × Option Err) × ω) := do
  let (ok, s) ← TS.scan call s
  if ok then
    match s.token with
    | none => Go.panic .nilDeref
    | some t =>
      let ((n, err), ws) := w.write ws t.string
      let written := written + n
      match err with
      | some e => pure ((written, some e), ws)
      | none => writeToLoop call w s ws written
  else match s.err with
    | some e => pure ((written, some e), ws)
    | none => pure ((written, none), ws)
partial_fixpoint

/-- tokenstream.go:134-151 `WriteTo`, with the final state of the writer. -/
def TokenStream.writeTo {ω : Type} (ts : TokenStream) (w : Writer ω) (ws : ω) :
    Go ((Nat × Option Err) × ω) :=
  writeToLoop ts.call w ts.st ws 0

/-- tokenstream.go:193-204 `Count`: the loop. -/
def countLoop {σ : Type} (call : NextFn σ) (s : TS σ) (count : Nat) :
    Go ((Nat × Option Err) × TS σ) := do
  let (ok, s) ← TS.scan call s
  if ok then countLoop call s (count + 1)
  else match s.err with
    | some e => pure ((count, some e), s)
    | none => pure ((count, none), s)
partial_fixpoint

/-- tokenstream.go:193-204 `Count`. -/
def TokenStream.count (ts : TokenStream) : Go (Nat × Option Err) := do
  let (r, _) ← countLoop ts.call ts.st 0
  pure r

end Jargon
