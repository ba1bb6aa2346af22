import Verif.Spec.Stream

/-! What it means for an iterator to fail for good: once it has reported an error, it goes on reporting
it. As in `Verif.Spec.Stream`, only the results of calling `next` are mentioned. -/

namespace Jargon

/-- From state `s` on, every call answers no token and the error `e`, for ever. -/
def Broken {σ : Type} (next : NextFn σ) (e : Err) (s : σ) : Prop :=
  ∃ P : σ → Prop, P s ∧ ∀ s, P s → ∃ s', next s = Go.ret ({ tok := none, err := some e }, s') ∧ P s'

/-- Calling `next` from state `s` delivers exactly the tokens `toks`, one per call and each without error;
every call after them answers the error `e`. -/
def BreaksAfter {σ : Type} (next : NextFn σ) (toks : List Token) (e : Err) (s : σ) : Prop :=
  ∃ s', Steps next s toks s' ∧ Broken next e s'

/-- A stream, in its current state, delivers exactly `toks` through `Next` and then fails for good. -/
def TokenStream.FailsForGood (ts : TokenStream) (toks : List Token) (e : Err) : Prop :=
  BreaksAfter ts.nextFn toks e ts.st

/-- If its input fails for good, a filter delivers some tokens and then fails for good, with that error. -/
def KeepsFailing (F : Filter) : Prop :=
  ∀ ts toks e, TokenStream.FailsForGood ts toks e → ∃ out, (F ts).FailsForGood out e

end Jargon
