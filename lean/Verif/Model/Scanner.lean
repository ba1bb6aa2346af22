import Verif.Model.Bufio
import Verif.Model.Tokenizer

/-! Model of `bufio.Scanner` of the Go standard library, of the readers it reads from, and of the
tokenizer of tokenizer.go on top of it. `words.NewScanner` of github.com/clipperhouse/uax29, which
tokenizer.go:32-36 calls, makes such a scanner with the function `words.SplitFunc` (its `iterators.Scanner`
passes `Scan`, `Text` and `Err` on, as no filter and no transformation is set). None of this is in /repo;
it is written down because /repo hands every reader to it. `Env.scan` (Model/Tokenizer.lean) is what it
comes to for the reader of a string; Props/Scanner.lean proves it. -/

namespace Jargon

/-- The error of a `Read`: `io.EOF` is not an error for the scanner. -/
inductive ReadErr where
  | eof
  | other (e : Err)
deriving DecidableEq, Repr

/-- An `io.Reader`: `read s k` is the outcome of `Read(p)` with `len(p) = k`, in state `s`: the bytes put
into `p` (so `n` is their number), the error, and the state afterwards. Simplification: `n` is not
negative. -/
structure IoReader where
  σ : Type
  st : σ
  read : σ → Nat → (Bytes × Option ReadErr) × σ

/-- `bufio.ErrTooLong` "bufio.Scanner: token too long". -/
def errTooLong : Err := .ext 1

/-- `io.ErrNoProgress`. -/
def errNoProgress : Err := .ext 2

/-- `bufio.ErrBadReadCount`. -/
def errBadReadCount : Err := .ext 3

/-- `bufio.ErrAdvanceTooFar`. -/
def errAdvanceTooFar : Err := .ext 4

/-- `bufio.MaxScanTokenSize`. -/
def maxTokenSize : Nat := 64 * 1024

/-- `startBufSize` of bufio/scan.go. -/
def startBufSize : Nat := 4096

/-- `maxConsecutiveEmptyReads` of bufio/bufio.go. -/
def maxEmptyReads : Nat := 100

/-- `bufio.SplitFunc`, of data and `atEOF`. Simplification: the only answers are `0, nil, nil`, to ask for
more data, here `none`, and `n, data[:n], nil` with a positive `n`, here `some n`. These are the answers of
`words.SplitFunc`. -/
abbrev SplitFunc := Bytes → Bool → Option Nat

/-- `bufio.Scanner`: `buf` is the content `s.buf[s.start:s.end]`, `size` is `len(s.buf)`, `src` is the state
of the reader. The fields `done` and `empties` do not matter for the answers of `SplitFunc` above. -/
structure BufScanner (σ : Type) where
  buf : Bytes := []
  start : Nat := 0
  size : Nat := 0
  err : Option ReadErr := none
  src : σ

/-- `bufio.NewScanner`. -/
def BufScanner.new (R : IoReader) : BufScanner R.σ := { src := R.st }

/-- `(*Scanner).Scan`: the loop that reads until there is something, `left` being the number of further
empty reads that are put up with. -/
def BufScanner.fill (R : IoReader) : Nat → BufScanner R.σ → BufScanner R.σ
  | left, s =>
    let room := s.size - (s.start + s.buf.length)
    let r := R.read s.src room
    if room < r.1.1.length then { s with err := some (.other errBadReadCount), src := r.2 }
    else
      let s := { s with buf := s.buf ++ r.1.1, src := r.2 }
      match r.1.2 with
      | some e => { s with err := some e }
      | none =>
        if r.1.1 ≠ [] then s
        else match left with
          | 0 => { s with err := some (.other errNoProgress) }
          | left + 1 => fill R left s

/-- `(*Scanner).Scan`: move the data to the beginning of the buffer if that helps. -/
def BufScanner.shift {σ : Type} (s : BufScanner σ) : BufScanner σ :=
  if s.start > 0 ∧ (s.start + s.buf.length = s.size ∨ s.start > s.size / 2) then { s with start := 0 } else s

/-- `(*Scanner).Scan`: a larger buffer. -/
def BufScanner.grow {σ : Type} (s : BufScanner σ) : BufScanner σ :=
  { s with start := 0, size := min (if s.size * 2 = 0 then startBufSize else s.size * 2) maxTokenSize }

/-- `(*Scanner).Scan`: is there a token in what is there already? -/
def BufScanner.ask {σ : Type} (split : SplitFunc) (s : BufScanner σ) : Option Nat :=
  if s.buf ≠ [] ∨ s.err.isSome = true then split s.buf s.err.isSome else none

/-- `(*Scanner).Scan`: the text of the token if there is one (`Scan` returned true). -/
def BufScanner.scan (R : IoReader) (split : SplitFunc) (s : BufScanner R.σ) :
    Go (Option Bytes × BufScanner R.σ) :=
  match s.ask split with
  | some n =>
    if s.buf.length < n then
      -- `setErr` keeps an earlier error that is not `io.EOF`
      let e := match s.err with
        | some (.other e) => e
        | _ => errAdvanceTooFar
      Go.ret (none, { s with err := some (.other e) })
    else Go.ret (some (s.buf.take n), { s with start := s.start + n, buf := s.buf.drop n })
  | none =>
    if s.err.isSome = true then Go.ret (none, { s with start := 0, buf := [] })
    else
      let s := s.shift
      if s.start + s.buf.length = s.size then
        if s.size ≥ maxTokenSize then Go.ret (none, { s with err := some (.other errTooLong) })
        else scan R split (BufScanner.fill R maxEmptyReads s.grow)
      else scan R split (BufScanner.fill R maxEmptyReads s)
partial_fixpoint

/-- `(*Scanner).Err`. -/
def BufScanner.error {σ : Type} (s : BufScanner σ) : Option Err :=
  match s.err with
  | some (.other e) => some e
  | _ => none

/-- tokenizer.go:39-49 `tokenizer.next`, with the scanner. -/
def scannerNext (U : Unicode) (R : IoReader) (split : SplitFunc) : NextFn (BufScanner R.σ) := fun s => do
  let (seg, s) ← BufScanner.scan R split s
  match seg with
  | some seg => pure ({ tok := newToken U seg false, err := none }, s)
  | none => pure ({ tok := none, err := s.error }, s)

/-- tokenizer.go:16-19 `Tokenize` of a reader (with `newTokenizer`, tokenizer.go:32-36). -/
def tokenizeReader (U : Unicode) (split : SplitFunc) (R : IoReader) : TokenStream :=
  newTokenStream (scannerNext U R split) (BufScanner.new R)

/-- `(*strings.Reader).Read`. -/
def stringRead (s : Bytes) (k : Nat) : (Bytes × Option ReadErr) × Bytes :=
  if s = [] then (([], some .eof), []) else ((s.take k, none), s.drop k)

/-- `strings.NewReader`, as tokenizer.go:24-26 uses it. -/
def stringReader (s : Bytes) : IoReader where
  σ := Bytes
  st := s
  read := stringRead

end Jargon
