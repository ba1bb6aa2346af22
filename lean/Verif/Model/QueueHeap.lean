import Verif.Model.Queue

/-! Model of `tokenqueue/queue.go` with Go's slices: backing arrays in a heap, in-place `copy`, and
`append` that writes into spare capacity or moves to a new array. -/

namespace Jargon

/-- A Go slice header. -/
structure Slice where
  arr : Nat
  off : Nat
  len : Nat
  cap : Nat
deriving DecidableEq, Repr

/-- The nil slice. -/
def Slice.nil : Slice := { arr := 0, off := 0, len := 0, cap := 0 }

/-- The backing arrays, and the number of the next new one. Cells hold `none` for nil. -/
structure Heap where
  cells : Nat → List (Option Token)
  fresh : Nat

/-- Overwrite from position `pos` on. -/
def writeAt {α : Type} (l : List α) (pos : Nat) (vals : List α) : List α :=
  l.take pos ++ vals ++ l.drop (pos + vals.length)

/-- Write into a backing array. -/
def Heap.write (h : Heap) (arr pos : Nat) (vals : List (Option Token)) : Heap :=
  { h with cells := fun k => if k = arr then writeAt (h.cells arr) pos vals else h.cells k }

/-- The elements of a slice. -/
def Heap.read (h : Heap) (s : Slice) : List (Option Token) := ((h.cells s.arr).drop s.off).take s.len

/-- `s[lo:]`; panics if `lo > len(s)`. -/
def Slice.from (s : Slice) (lo : Nat) : Go Slice :=
  if lo ≤ s.len then
    Go.ret { s with off := s.off + lo, len := s.len - lo, cap := s.cap - lo }
  else Go.panic .indexOutOfRange

/-- `s[:hi]`; panics if `hi > cap(s)`. -/
def Slice.to (s : Slice) (hi : Nat) : Go Slice :=
  if hi ≤ s.cap then Go.ret { s with len := hi } else Go.panic .indexOutOfRange

/-- `copy(dst, src)`, which behaves as if `src` were read before anything is written. -/
def Heap.copy (h : Heap) (dst src : Slice) : Heap :=
  h.write dst.arr dst.off ((h.read src).take dst.len)

/-- `append(s, vals...)`: in place if the capacity allows, otherwise in a new array, whose spare
capacity `grow oldCap needed` is up to the Go implementation. -/
def Heap.append (grow : Nat → Nat → Nat) (h : Heap) (s : Slice) (vals : List (Option Token)) :
    Heap × Slice :=
  if s.len + vals.length ≤ s.cap then
    (h.write s.arr (s.off + s.len) vals, { s with len := s.len + vals.length })
  else
    let extra := grow s.cap (s.len + vals.length)
    let array := h.read s ++ vals ++ List.replicate extra none
    ({ cells := fun k => if k = h.fresh then array else h.cells k, fresh := h.fresh + 1 },
     { arr := h.fresh, off := 0, len := s.len + vals.length, cap := array.length })

namespace HQueue

/-- tokenqueue/queue.go:47-53 `Drop`. Simplification: `n` is not negative. -/
def drop (h : Heap) (q : Slice) (n : Nat) : Go (Heap × Slice) := do
  let src ← q.from n
  let h := h.copy q src
  let q ← q.to (q.len - n)
  pure (h, q)

/-- tokenqueue/queue.go:35-39 `Pop`. -/
def pop (h : Heap) (q : Slice) : Go (Option Token × Heap × Slice) :=
  match (h.read q)[0]? with
  | none => Go.panic .indexOutOfRange
  | some token => do
    let (h, q) ← drop h q 1
    pure (token, h, q)

/-- tokenqueue/queue.go:42-44 `Push`. -/
def push (grow : Nat → Nat → Nat) (h : Heap) (q : Slice) (tokens : List (Option Token)) :
    Heap × Slice := h.append grow q tokens

/-- tokenqueue/queue.go:56-58 `Clear`. -/
def clear (q : Slice) : Go Slice := q.to 0

end HQueue

/-- A number of queues made by `New` (tokenqueue/queue.go:13-17) and the heap. -/
structure QState where
  heap : Heap
  queues : List Slice

/-- A call of a method on the queues, by number. -/
inductive QOp where
  /-- `New()` -/
  | new
  /-- `New(t1, ..., tn)`: a literal list of arguments makes a new array -/
  | newWith (tokens : List (Option Token))
  | push (q : Nat) (tokens : List (Option Token))
  | pop (q : Nat)
  | drop (q n : Nat)
  | clear (q : Nat)
  /-- `q.PopTo(dst)` -/
  | popTo (q dst : Nat)
  /-- `q.FlushTo(dst)` -/
  | flushTo (q dst : Nat)
  | len (q : Nat)
  | any (q : Nat)
  /-- reading `q.Tokens`, as filters/synonyms/filter.go:201, 232, 272, 283, 304 do -/
  | contents (q : Nat)

/-- What a call returns. -/
inductive QObs where
  | unit
  | token (t : Option Token)
  | num (n : Nat)
  | bool (b : Bool)
  | tokens (ts : List (Option Token))
deriving DecidableEq, Repr

/-- The queue with a given number; there is no other way to get hold of one. -/
def QState.get (s : QState) (i : Nat) : Go Slice :=
  match s.queues[i]? with
  | some q => Go.ret q
  | none => Go.panic .nilDeref

/-- tokenqueue/queue.go:13-70, one call. -/
def QState.step (grow : Nat → Nat → Nat) (s : QState) : QOp → Go (QObs × QState)
  | .new => Go.ret (.unit, { s with queues := s.queues ++ [Slice.nil] })
  | .newWith tokens =>
    let (h, q) := s.heap.append grow Slice.nil tokens
    Go.ret (.unit, { heap := h, queues := s.queues ++ [q] })
  | .push i tokens => do
    let q ← s.get i
    let (h, q) := HQueue.push grow s.heap q tokens
    pure (.unit, { heap := h, queues := s.queues.set i q })
  | .pop i => do
    let q ← s.get i
    let (token, h, q) ← HQueue.pop s.heap q
    pure (.token token, { heap := h, queues := s.queues.set i q })
  | .drop i n => do
    let q ← s.get i
    let (h, q) ← HQueue.drop s.heap q n
    pure (.unit, { heap := h, queues := s.queues.set i q })
  | .clear i => do
    let q ← s.get i
    let q ← HQueue.clear q
    pure (.unit, { s with queues := s.queues.set i q })
  | .popTo i j => do
    let q ← s.get i
    let _ ← s.get j
    let (token, h, q) ← HQueue.pop s.heap q
    let s : QState := { heap := h, queues := s.queues.set i q }
    let dst ← s.get j
    let (h, dst) := HQueue.push grow s.heap dst [token]
    pure (.unit, { heap := h, queues := s.queues.set j dst })
  | .flushTo i j => do
    let q ← s.get i
    let dst ← s.get j
    let (h, dst) := s.heap.append grow dst (s.heap.read q)
    let s : QState := { heap := h, queues := s.queues.set j dst }
    let q ← s.get i
    let q ← HQueue.clear q
    pure (.unit, { s with queues := s.queues.set i q })
  | .len i => do
    let q ← s.get i
    pure (.num q.len, s)
  | .any i => do
    let q ← s.get i
    pure (.bool (q.len > 0), s)
  | .contents i => do
    let q ← s.get i
    pure (.tokens (s.heap.read q), s)

/-- tokenqueue/queue.go:13-17 `New(slice...)`: the queue takes over the caller's slice, array and all. -/
def HQueue.newFrom (slice : Slice) : Slice := slice

/-- A sequence of calls, and what they return. -/
def QState.run (grow : Nat → Nat → Nat) (s : QState) : List QOp → Go (List QObs × QState)
  | [] => Go.ret ([], s)
  | op :: ops => do
    let (o, s) ← s.step grow op
    let (os, s) ← QState.run grow s ops
    pure (o :: os, s)

end Jargon
