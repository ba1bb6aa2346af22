import Verif.Spec.Filters
import Verif.Model.Synonyms

/-! What a synonyms filter should do, without tries, buffers or queues. -/

namespace Jargon

/-- How texts are compared: the runes, lower-cased if asked, without the ignored ones. -/
structure Compare where
  U : Unicode
  ignoreCase : Bool
  ignore : List Rune

/-- A rune as it is compared. -/
def Compare.fold (C : Compare) (r : Rune) : Rune := bif C.ignoreCase then C.U.toLower r else r

/-- The normalized spelling of a sequence of runes. -/
def Compare.normal (C : Compare) (rs : List Rune) : List Rune :=
  (rs.map C.fold).filter fun r => r ∉ C.ignore

/-- The normalized spelling of a sequence of tokens. -/
def Compare.spell (C : Compare) (toks : List Token) : List Rune :=
  C.normal (toks.flatMap fun t => runes t.value)

/-- A dictionary: the canonical text of each normalized spelling. -/
abbrev Dict := List Rune → Option Bytes

/-- The dictionary that results from adding synonyms one after the other; the last one wins. -/
def Compare.dict (C : Compare) (adds : List (List Token × Bytes)) : Dict := fun q =>
  (adds.reverse.find? fun a => C.spell a.1 = q).map (·.2)

/-- Number of words among tokens. -/
def words (toks : List Token) : Nat := toks.countP fun t => decide t.IsWord

/-- The first `k` tokens may be matched: no punctuation, and the word limit is not exceeded before
the last of them. -/
structure Admissible (maxWords : Nat) (toks : List Token) (k : Nat) : Prop where
  pos : 1 ≤ k
  le : k ≤ toks.length
  noPunct : ∀ t ∈ toks.take k, t.punct = false
  limit : words (toks.take (k - 1)) < maxWords

/-- Among the prefix lengths `A`, `k` spells the longest synonym, with the fewest tokens. -/
structure Longest (C : Compare) (D : Dict) (A : Nat → Prop) (toks : List Token) (k : Nat)
    (canonical : Bytes) : Prop where
  mem : A k
  isSyn : D (C.spell (toks.take k)) = some canonical
  longest : ∀ j, A j → k < j → D (C.spell (toks.take j)) ≠ none →
    C.spell (toks.take j) = C.spell (toks.take k)
  fewest : ∀ j, A j → j < k → C.spell (toks.take j) ≠ C.spell (toks.take k)

/-- The tokens a canonical text stands for: none if it is empty. -/
def canonTokens (U : Unicode) (canonical : Bytes) : List Token :=
  if canonical = [] then [] else [mkToken U canonical true]

/-- Leftmost greedy replacement: `Greedy C D maxWords toks out`. -/
inductive Greedy (C : Compare) (D : Dict) (maxWords : Nat) : List Token → List Token → Prop
  /-- the end -/
  | nil : Greedy C D maxWords [] []
  /-- space and punctuation pass -/
  | separator {t : Token} {ts out : List Token} : ¬ t.IsWord → Greedy C D maxWords ts out →
      Greedy C D maxWords (t :: ts) (t :: out)
  /-- at a word that starts a synonym, the longest one is replaced -/
  | replace {t : Token} {ts out : List Token} {k : Nat} {canonical : Bytes} : t.IsWord →
      Longest C D (Admissible maxWords (t :: ts)) (t :: ts) k canonical →
      Greedy C D maxWords ((t :: ts).drop k) out →
      Greedy C D maxWords (t :: ts) (canonTokens C.U canonical ++ out)
  /-- any other word passes -/
  | word {t : Token} {ts out : List Token} : t.IsWord →
      (∀ k, Admissible maxWords (t :: ts) k → D (C.spell ((t :: ts).take k)) = none) →
      Greedy C D maxWords ts out →
      Greedy C D maxWords (t :: ts) (t :: out)

/-! ### The mapping -/

/-- Cut at the comma tokens. -/
def pieces : List Token → List (List Token)
  | [] => [[]]
  | t :: ts =>
    if t.value = [0x2C] then [] :: pieces ts
    else match pieces ts with
      | p :: ps => (t :: p) :: ps
      | [] => [[t]]

/-- The synonyms listed in a key: cut at commas, without the spaces at the start of each. -/
def listed (toks : List Token) : List (List Token) := (pieces toks).map (·.dropWhile Token.space)

/-- All (synonym, canonical) pairs of a mapping, in the order the entries are visited. -/
def entries (E : Env) (mappings : StringMap) : List (List Token × Bytes) :=
  mappings.flatMap fun m => (listed (stringTokens E m.1)).map fun s => (s, m.2)

/-- The word limit of a mapping. -/
def wordLimit (adds : List (List Token × Bytes)) : Nat :=
  (adds.map fun a => words a.1).foldl max 1

end Jargon
