import Verif.Model.Stream

/-! Model of `bufio.Writer` of the Go standard library, as far as cmd/jargon/main.go uses it, and of
`strconv.Itoa`. These are not in /repo; they are written down from the standard library because
`execute` (cmd/jargon/main.go:276-332) relies on how they treat errors and partial writes. -/

namespace Jargon

/-- `io.ErrShortWrite`. -/
def errShortWrite : Err := .ext 0

/-- `bufio.Writer`: `len(buf)`, the bytes `buf[0:n]`, the sticky error, and the state of the writer
underneath. -/
structure BufWriter (ω : Type) where
  size : Nat
  buf : Bytes
  err : Option Err
  under : ω

/-- `bufio.NewWriterSize` with a size that is positive (main.go:266-271 passes the size of a
`bufio.Reader`). -/
def BufWriter.new {ω : Type} (size : Nat) (under : ω) : BufWriter ω :=
  { size, buf := [], err := none, under }

/-- `(*bufio.Writer).Flush`. -/
def BufWriter.flush {ω : Type} (w : Writer ω) (b : BufWriter ω) : Option Err × BufWriter ω :=
  match b.err with
  | some e => (some e, b)
  | none =>
    if b.buf = [] then (none, b)
    else
      let r := w.write b.under b.buf
      let n := r.1.1
      let err := if n < b.buf.length ∧ r.1.2 = none then some errShortWrite else r.1.2
      match err with
      | some e => (some e, { b with buf := b.buf.drop n, err := some e, under := r.2 })
      | none => (none, { b with buf := [], under := r.2 })

/-- `(*bufio.Writer).WriteString`; `nn` is the number of bytes taken so far. `direct` says whether the
writer underneath has a method `WriteString`, which is then used for long strings when the buffer is
empty (since Go 1.18); that method is taken to be `Write` on the bytes of the string. -/
def bufWriteString {ω : Type} (direct : Bool) (w : Writer ω) (b : BufWriter ω) (s : Bytes) (nn : Nat) :
    Go ((Nat × Option Err) × BufWriter ω) :=
  if s.length > b.size - b.buf.length ∧ b.err = none then
    if b.buf = [] ∧ direct = true then
      let r := w.write b.under s
      if r.1.1 > s.length then Go.panic .indexOutOfRange
      else bufWriteString direct w { b with err := r.1.2, under := r.2 } (s.drop r.1.1) (nn + r.1.1)
    else
      let n := min (b.size - b.buf.length) s.length
      let b := (BufWriter.flush w { b with buf := b.buf ++ s.take n }).2
      bufWriteString direct w b (s.drop n) (nn + n)
  else match b.err with
    | some e => Go.ret ((nn, some e), b)
    | none => Go.ret ((nn + s.length, none), { b with buf := b.buf ++ s })
partial_fixpoint

/-- `(*bufio.Writer).WriteByte`, which `WriteRune` calls for an ASCII rune. A buffer of size 0 does not
occur (`NewWriterSize` makes it 4096). -/
def bufWriteByte {ω : Type} (w : Writer ω) (b : BufWriter ω) (c : UInt8) : Option Err × BufWriter ω :=
  match b.err with
  | some e => (some e, b)
  | none =>
    if b.size ≤ b.buf.length then
      let r := BufWriter.flush w b
      match r.1 with
      | some _ => (r.2.err, r.2)
      | none => (none, { r.2 with buf := r.2.buf ++ [c] })
    else (none, { b with buf := b.buf ++ [c] })

/-- `strconv.Itoa` of a number that is not negative. -/
def itoa (n : Nat) : Bytes :=
  if n < 10 then [UInt8.ofNat (48 + n)] else itoa (n / 10) ++ [UInt8.ofNat (48 + n % 10)]
termination_by n

end Jargon
