import Verif.Spec.Stream
import Verif.Model.QueueHeap

/-! What a filter keeps in memory, and how many tokens it moves within its queues. -/

namespace Jargon

/-- State `s'` can be reached from `s` by calls of `next`, whatever they answer. -/
def Reaches {σ : Type} (next : NextFn σ) (s s' : σ) : Prop := ∃ rs, Answers next s rs s'

/-- At most `K` tokens are kept between calls, whatever the calls answer. -/
def KeepsAtMost {σ : Type} (next : NextFn σ) (kept : σ → Nat) (s : σ) (K : Nat) : Prop :=
  ∀ s', Reaches next s s' → kept s' ≤ K

/-- The number of elements that the built-in `copy(dst, src)` copies, by the Go specification. -/
def copied (dst src : Slice) : Nat := min dst.len src.len

/-- `Next` is called once for each of `toks`, which it delivers. The second number is the sum, over the
calls, of the number of tokens left in the queue, which is the number of tokens that the `Pop` has moved
(`C83_pop_moves`). -/
inductive Drains {σ : Type} (next : NextFn σ) (left : σ → Nat) : σ → List Token → Nat → σ → Prop
  | nil (s : σ) : Drains next left s [] 0 s
  | cons {s s' s'' : σ} {t : Token} {toks : List Token} {n : Nat} :
      next s = Go.ret ({ tok := some t, err := none }, s') → Drains next left s' toks n s'' →
      Drains next left s (t :: toks) (left s' + n) s''

end Jargon
