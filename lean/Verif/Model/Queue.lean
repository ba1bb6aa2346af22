import Verif.Model.Stream

/-! Model of `tokenqueue/queue.go`, on lists. The in-place moves within the backing array are
modelled in `Verif.Model.QueueHeap`, which is proved to refine this file. -/

namespace Jargon

/-- tokenqueue/queue.go:20-22 `TokenQueue`. The element type is a parameter: `Token` where the code
only ever pushes non-nil tokens it has just checked, `Option Token` otherwise. -/
abbrev Queue (α : Type) := List α

namespace Queue
variable {α : Type}

/-- tokenqueue/queue.go:13-17 `New()`. -/
def new : Queue α := []

/-- tokenqueue/queue.go:30-32 `Len`. -/
def len (q : Queue α) : Nat := q.length

/-- tokenqueue/queue.go:25-27 `Any`. -/
def any (q : Queue α) : Bool := q.len > 0

/-- tokenqueue/queue.go:47-53 `Drop`: slicing past the end panics. -/
def drop (q : Queue α) (n : Nat) : Go (Queue α) :=
  if n ≤ q.length then Go.ret (List.drop n q) else Go.panic .indexOutOfRange

/-- tokenqueue/queue.go:35-39 `Pop`: indexing an empty slice panics. -/
def pop (q : Queue α) : Go (α × Queue α) :=
  match q with
  | [] => Go.panic .indexOutOfRange
  | t :: _ => do
    let q' ← q.drop 1
    pure (t, q')

/-- tokenqueue/queue.go:42-44 `Push`. -/
def push (q : Queue α) (ts : List α) : Queue α := q ++ ts

/-- tokenqueue/queue.go:56-58 `Clear`. -/
def clear (_ : Queue α) : Queue α := []

/-- tokenqueue/queue.go:61-64 `PopTo`: the new source and destination. -/
def popTo (q dst : Queue α) : Go (Queue α × Queue α) := do
  let (t, q') ← q.pop
  pure (q', dst.push [t])

/-- tokenqueue/queue.go:67-70 `FlushTo`: the new source and destination. -/
def flushTo (q dst : Queue α) : Queue α × Queue α := (q.clear, dst.push q)

end Queue
end Jargon
