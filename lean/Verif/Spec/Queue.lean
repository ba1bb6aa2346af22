import Verif.Model.QueueHeap

/-! Queues as independent mathematical lists. -/

namespace Jargon

/-- What a call should do with lists: `none` if it should panic. -/
def listStep (qs : List (List (Option Token))) : QOp → Option (QObs × List (List (Option Token)))
  | .new => some (.unit, qs ++ [[]])
  | .newWith tokens => some (.unit, qs ++ [tokens])
  | .push i tokens => do
    let q ← qs[i]?
    some (.unit, qs.set i (q ++ tokens))
  | .pop i => do
    match ← qs[i]? with
    | [] => none
    | t :: q => some (.token t, qs.set i q)
  | .drop i n => do
    let q ← qs[i]?
    if n ≤ q.length then some (.unit, qs.set i (q.drop n)) else none
  | .clear i => do
    let _ ← qs[i]?
    some (.unit, qs.set i [])
  | .popTo i j => do
    let _ ← qs[j]?
    match ← qs[i]? with
    | [] => none
    | t :: q =>
      let qs := qs.set i q
      let dst ← qs[j]?
      some (.unit, qs.set j (dst ++ [t]))
  | .flushTo i j => do
    let q ← qs[i]?
    let dst ← qs[j]?
    some (.unit, (qs.set j (dst ++ q)).set i [])
  | .len i => do
    let q ← qs[i]?
    some (.num q.length, qs)
  | .any i => do
    let q ← qs[i]?
    some (.bool (decide (q ≠ [])), qs)
  | .contents i => do
    let q ← qs[i]?
    some (.tokens q, qs)

/-- A sequence of calls on lists; `none` if one of them should panic. -/
def listRun (qs : List (List (Option Token))) : List QOp → Option (List QObs × List (List (Option Token)))
  | [] => some ([], qs)
  | op :: ops => do
    let (o, qs) ← listStep qs op
    let (os, qs) ← listRun qs ops
    some (o :: os, qs)

end Jargon
