import Verif.Model.Stream

/-!
  What it means for an iterator to deliver a sequence of tokens.
  These definitions mention only the result of calling `next`, nothing of the model's internals.
-/

namespace Jargon

/-- How a stream ends: normally, or with an error. -/
inductive End where
  | eof
  | fail (e : Err)
deriving DecidableEq, Repr

/-- The error a consumer should report for this end. -/
@[simp] def End.err : End → Option Err
  | .eof => none
  | .fail e => some e

/-- From state `s` on, every call answers `nil, nil` (no token, no error), for ever. -/
def Quiet {σ : Type} (next : NextFn σ) (s : σ) : Prop :=
  ∃ P : σ → Prop, P s ∧ ∀ s, P s → ∃ s', next s = Go.ret ({ tok := none, err := none }, s') ∧ P s'

/-- Calling `next` from state `s` delivers exactly the tokens `toks`, one per call and each without
error, and then ends with `e`: for `eof` every further call answers `nil, nil`; for `fail err` the
next call answers with error `err`. In particular no call panics or hangs. -/
def Emits {σ : Type} (next : NextFn σ) : List Token → End → σ → Prop
  | [], .eof, s => Quiet next s
  | [], .fail e, s => ∃ tok s', next s = Go.ret ({ tok, err := some e }, s')
  | t :: ts, e, s => ∃ s', next s = Go.ret ({ tok := some t, err := none }, s') ∧ Emits next ts e s'

/-- A stream, in its current state, delivers exactly `toks` through `Next` and then ends with `e`. -/
def TokenStream.Yields (ts : TokenStream) (toks : List Token) (e : End) : Prop :=
  Emits ts.nextFn toks e ts.st

/-- `n` calls of `next` from `s` deliver exactly the tokens `toks` and lead to `s'`. Nothing is said
about what follows, so this also describes streams that never end. -/
def Steps {σ : Type} (next : NextFn σ) : σ → List Token → σ → Prop
  | s, [], s' => s = s'
  | s, t :: ts, s' => ∃ s1, next s = Go.ret ({ tok := some t, err := none }, s1) ∧ Steps next s1 ts s'

/-- The results of successive calls of `next` from `s` are `rs`, ending in state `s'`. -/
def Answers {σ : Type} (next : NextFn σ) : σ → List Res → σ → Prop
  | s, [], s' => s = s'
  | s, r :: rs, s' => ∃ s1, next s = Go.ret (r, s1) ∧ Answers next s1 rs s'

/-- The text of a sequence of tokens. -/
def text (toks : List Token) : Bytes := toks.flatMap Token.value

/-- A word: neither punctuation nor space. -/
def Token.IsWord (t : Token) : Prop := t.punct = false ∧ t.space = false

instance (t : Token) : Decidable t.IsWord := by unfold Token.IsWord; infer_instance

/-- All writes of the tokens' texts succeed; the writer reports `n` bytes in total. -/
inductive WritesOK {ω : Type} (w : Writer ω) : ω → List Token → Nat → ω → Prop
  | nil (ws : ω) : WritesOK w ws [] 0 ws
  | cons {ws ws' ws'' : ω} {t : Token} {ts : List Token} {k n : Nat} :
      w.write ws t.value = ((k, none), ws') → WritesOK w ws' ts n ws'' →
      WritesOK w ws (t :: ts) (k + n) ws''

/-- The stream that delivers a given list of tokens and then ends with `e`; used to show that
hypotheses can be met. -/
def listNext (e : End) : NextFn (List Token)
  | t :: ts => Go.ret ({ tok := some t, err := none }, ts)
  | [] => match e with
    | .eof => Go.ret ({ tok := none, err := none }, [])
    | .fail err => Go.ret ({ tok := none, err := some err }, [])

/-- The stream that delivers a given list of tokens and then ends with `e`. -/
def listStream (toks : List Token) (e : End) : TokenStream := newTokenStream (listNext e) toks

end Jargon
