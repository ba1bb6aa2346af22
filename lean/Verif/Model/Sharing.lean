import Verif.Model.Stream

/-! Several streams over one: the streams that `Where` and `Distinct` make keep a pointer to the stream they are
made of (tokenstream.go:68-74), so that whatever one of them reads is read for all. -/

namespace Jargon

/-- Ways to read a stream: its own `Next` (tokenstream.go:20-22), that of a stream made by `Where` (68-74; `Words`
and `Lemmas` are such), or by `Distinct` (175-190). -/
inductive View where
  | next
  | where (p : Token → Bool)
  | distinct

/-- The predicate that `Where` gets, with the map `seen` of `Distinct`; the others have none. -/
def View.pred : View → List Bytes → Token → Bool × List Bytes
  | .next => fun seen _ => (true, seen)
  | .where p => fun seen t => (p t, seen)
  | .distinct => isDistinct

/-- The stream, and for each view the map `seen`. -/
structure SharedViews (σ ι : Type) where
  up : TS σ
  seen : ι → List Bytes

/-- A call of `Next` of the view `i`. The fields `token` and `err` of the view itself are left out: they are the
last answer of the view (C02). -/
def sharedCall {σ ι : Type} [DecidableEq ι] (call : NextFn σ) (views : ι → View) (s : SharedViews σ ι) (i : ι) :
    Go (Res × SharedViews σ ι) :=
  match views i with
  | .next => do
    let (r, up) ← TS.next call s.up
    pure (r, { s with up })
  | v => do
    let (r, (up, seen)) ← whereNext call v.pred (s.up, s.seen i)
    pure (r, { up, seen := fun j => if j = i then seen else s.seen j })

/-- Calls of `Next` of these views, one after the other. -/
def sharedCalls {σ ι : Type} [DecidableEq ι] (call : NextFn σ) (views : ι → View) (s : SharedViews σ ι) :
    List ι → Go (List Res × SharedViews σ ι)
  | [] => Go.ret ([], s)
  | i :: calls => do
    let (r, s) ← sharedCall call views s i
    let (rs, s) ← sharedCalls call views s calls
    pure (r :: rs, s)

end Jargon
