import Verif.Spec.Stream

/-! Streams that never end, and how much of a stream is read. -/

namespace Jargon

/-- From state `s` on, every call delivers a token, for ever. -/
def Endless {σ : Type} (next : NextFn σ) (s : σ) : Prop :=
  ∃ P : σ → Prop, P s ∧
    ∀ s, P s → ∃ t s', next s = Go.ret ({ tok := some t, err := none }, s') ∧ P s'

/-- The same closure, counting its calls. -/
def counting {σ : Type} (call : NextFn σ) : NextFn (σ × Nat) := fun s => do
  let (r, s') ← call s.1
  pure (r, (s', s.2 + 1))

/-- The number of calls so far of the closure of a stream. -/
def TS.reads {σ : Type} (s : TS (σ × Nat)) : Nat := s.inner.2

/-- A stream that counts from zero how often its own `next` is called. -/
def TokenStream.counted (ts : TokenStream) : TokenStream :=
  { σ := ts.σ × Nat, call := counting ts.call,
    st := { inner := (ts.st.inner, 0), token := ts.st.token, err := ts.st.err } }

/-- An endless stream: the same token for ever. -/
def repeatStream (t : Token) : TokenStream :=
  newTokenStream (fun (_ : Unit) => Go.ret ({ tok := some t, err := none }, ())) ()

end Jargon
