import Verif.Model.Scanner
import Verif.Spec.Filters
import Verif.Spec.WordBreak

/-! What a reader delivers, what is asked of a function that splits, and what a scanner should make of
a text: the texts of its tokens, in terms of the whole text alone. -/

namespace Jargon

/-- From state `s`, in at most `n` reads, the reader delivers the bytes `d` and then the error `e`
(`io.EOF` or another one), whatever sizes are asked for, but for the size 0. It never returns nothing, without an error,
more than 100 times in a row, `idle` times from now. If `alone`, the error comes without data, as it does for
`strings.Reader`, `os.File` and `bufio.Reader`. -/
def Supplies {σ : Type} (alone : Bool) (read : σ → Nat → (Bytes × Option ReadErr) × σ) :
    Nat → Nat → σ → Bytes → ReadErr → Prop
  | 0, _, _, _, _ => False
  | n + 1, idle, s, d, e => ∀ k, 0 < k → (read s k).1.1.length ≤ k ∧
    match (read s k).1.2 with
    | some e' => d = (read s k).1.1 ∧ e' = e ∧ (alone = true → d = [])
    | none => ∃ d', d = (read s k).1.1 ++ d' ∧
      if (read s k).1.1 = [] then 0 < idle ∧ Supplies alone read n (idle - 1) (read s k).2 d' e
      else Supplies alone read n 100 (read s k).2 d' e

/-- A reader delivers the bytes `d` and then ends with `e`. -/
def IoReader.Gives (alone : Bool) (R : IoReader) (d : Bytes) (e : ReadErr) : Prop :=
  ∃ n, Supplies alone R.read n 100 R.st d e

/-- What is asked of a `SplitFunc`. -/
structure SplitFunc.Lawful (split : SplitFunc) : Prop where
  /-- a token is not empty and within the data -/
  fits : ∀ {d b n}, split d b = some n → 0 < n ∧ n ≤ d.length
  /-- at the end nothing is left over -/
  ends : ∀ {d}, d ≠ [] → (split d true).isSome = true
  /-- more data does not change the answer -/
  steady : ∀ {d n}, split d false = some n → ∀ x b, split (d ++ x) b = some n

/-- A function that splits a text into the words of UAX #29. -/
structure SplitFunc.SplitsWords (split : SplitFunc) (cls : WordTable) : Prop extends split.Lawful where
  /-- at the end, the first word -/
  first : ∀ d, split d true = (wordSegs cls d).head?.map List.length
  /-- it does not ask for more once the next word and the character after it are there -/
  prompt : ∀ {d x w1 w2 ws}, wordSegs cls (d ++ x) = w1 :: w2 :: ws → w1.length + w2.length + 4 ≤ d.length →
    (split d false).isSome = true

/-- Reads that are made only while what is held does not make a token, and only for what still has room
in a buffer of 64 KiB. What a reader puts in against its contract is not taken. -/
inductive Fetches (R : IoReader) (split : SplitFunc) : Bytes → R.σ → Bytes → R.σ → Prop
  | refl {held : Bytes} {s : R.σ} : Fetches R split held s held s
  | step {held held' : Bytes} {s s' : R.σ} {k : Nat} : (held = [] ∨ split held false = none) → 0 < k →
      held.length + k ≤ 65536 → (R.read s k).1.1.length ≤ k →
      Fetches R split (held ++ (R.read s k).1.1) (R.read s k).2 held' s' → Fetches R split held s held' s'
  | bad {held held' : Bytes} {s s' : R.σ} {k : Nat} : (held = [] ∨ split held false = none) → 0 < k →
      held.length + k ≤ 65536 → k < (R.read s k).1.1.length →
      Fetches R split held (R.read s k).2 held' s' → Fetches R split held s held' s'

/-- Reading from `s` leads to `s'`, and has given the bytes; more bytes than asked for are not taken. -/
inductive Took (R : IoReader) : R.σ → Bytes → R.σ → Prop
  | refl {s : R.σ} : Took R s [] s
  | step {s s' : R.σ} {k : Nat} {bs : Bytes} : Took R (R.read s k).2 bs s' →
      Took R s ((if (R.read s k).1.1.length ≤ k then (R.read s k).1.1 else []) ++ bs) s'

/-- The length of the first token of a text, if a buffer of `max` bytes is enough to tell. -/
def firstToken (split : SplitFunc) (max : Nat) (d : Bytes) : Option Nat :=
  if d.length < max then split d true else split (d.take max) false

/-- The texts of the tokens of a text, as far as a buffer of `max` bytes is enough, and whether it was not
for all; as far as the fuel reaches. -/
def cutTokensAux (split : SplitFunc) (max : Nat) : Nat → Bytes → List Bytes × Bool
  | _, [] => ([], false)
  | 0, _ => ([], false)
  | n + 1, b :: t =>
    match firstToken split max (b :: t) with
    | none => ([], true)
    | some k =>
      let r := cutTokensAux split max n ((b :: t).drop k)
      ((b :: t).take k :: r.1, r.2)

/-- The texts of the tokens of a text, as far as a buffer of `max` bytes is enough, and whether it was not
for all. -/
def cutTokens (split : SplitFunc) (max : Nat) (d : Bytes) : List Bytes × Bool :=
  cutTokensAux split max d.length d

/-- How a stream ends whose reader ends with an error. -/
def ReadErr.toEnd : ReadErr → End
  | .eof => .eof
  | .other e => .fail e

/-- How a stream ends: by a token that is too long, or with the reader. -/
def scanEnd (long : Bool) (e : ReadErr) : End := if long then .fail errTooLong else e.toEnd

/-- The tokens of texts cut. -/
def cutStream (U : Unicode) (split : SplitFunc) (d : Bytes) (e : ReadErr) : List Token × End :=
  ((cutTokens split 65536 d).1.map fun s => mkToken U s false, scanEnd (cutTokens split 65536 d).2 e)

/-- The scanner, as `Env` has it: for readers whose error comes without data. -/
def bufEnv (U : Unicode) (split : SplitFunc) : Env where
  U := U
  scan r := ((cutTokens split 65536 r.data).1, if (cutTokens split 65536 r.data).2 then some errTooLong else r.err)

/-- A reader that hands out everything it has in one read if asked for that much, and the end with it. -/
def eagerRead (e : ReadErr) (s : Bytes) (k : Nat) : (Bytes × Option ReadErr) × Bytes :=
  ((s.take k, if s.length ≤ k then some e else none), s.drop k)

def eagerReader (s : Bytes) (e : ReadErr) : IoReader where
  σ := Bytes
  st := s
  read := eagerRead e

/-- A reader that hands out one byte at a time, and nothing every other time. -/
def slowRead (e : ReadErr) (s : Bytes × Bool) (k : Nat) : (Bytes × Option ReadErr) × (Bytes × Bool) :=
  match s with
  | (s, false) => (([], none), (s, true))
  | ([], true) => (([], some e), ([], true))
  | (b :: s, true) => if k = 0 then (([], none), (b :: s, true)) else (([b], none), (s, false))

def slowReader (s : Bytes) (e : ReadErr) : IoReader where
  σ := Bytes × Bool
  st := (s, false)
  read := slowRead e

end Jargon
