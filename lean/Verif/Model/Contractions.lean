import Verif.Model.Simple
import Verif.Model.ContractionTable

/-! Model of the table of filters/contractions and of its generator,
filters/contractions/generate/main.go. -/

namespace Jargon

/-- A table of encoded texts as a Go `map[string]string` literal. -/
def tableOf (rows : List (Nat × Nat)) : StringMap := rows.map fun r => (textOf r.1, textOf r.2)

/-- filters/contractions/generated.go:6-280 `mappings`. -/
def contractionMappings : StringMap := tableOf contractionRows

/-- filters/contractions/generate/main.go:110-175 `contractions`. -/
def contractionBase : StringMap := tableOf contractionBaseRows

/-- filters/contractions/filter.go:17-23 `Expand`. -/
def expand (E : Env) : Filter := expandWith E contractionMappings

/-- The parts of Go's `unicode` tables the generator uses. -/
structure CaseMaps where
  /-- `unicode.ToLower` -/
  lower : Rune → Rune
  /-- `unicode.ToUpper` -/
  upper : Rune → Rune

/-- `strings.ToLower` and `strings.ToUpper` (Go standard library): map the runes, re-encode. -/
def mapString (f : Rune → Rune) (s : Bytes) : Bytes := encodeRunes ((runes s).map f)

/-- filters/contractions/generate/main.go:95-99 `title`; `s[:1]` panics on the empty string. -/
def title (M : CaseMaps) : Bytes → Go Bytes
  | [] => Go.panic .indexOutOfRange
  | b :: tail => Go.ret (mapString M.upper [b] ++ tail)

/-- `strings.Replace(s, "'", "’", -1)`. -/
def smartQuotes (s : Bytes) : Bytes := s.flatMap fun b => if b = 0x27 then str "’" else [b]

/-- filters/contractions/generate/main.go:86-93 `apostrophes`. -/
def apostrophes (s : Bytes) : List Bytes := if 0x27 ∈ s then [s, smartQuotes s] else [s]

/-- filters/contractions/generate/main.go:22-26 `cases`. -/
def caseFuncs (M : CaseMaps) : List (Bytes → Go Bytes) :=
  [fun s => Go.ret (mapString M.lower s), title M, fun s => Go.ret (mapString M.upper s)]

/-- filters/contractions/generate/main.go:30-37: the innermost loop. The map under construction comes
with the error, as in Go; the error is represented by the key it names. -/
def addCases (apostrophed expansion : Bytes) :
    List (Bytes → Go Bytes) → StringMap → Go (StringMap × Option Bytes)
  | [], mappings => Go.ret (mappings, none)
  | f :: fs, mappings => do
    let key ← f apostrophed
    if (mappings.lookup key).isSome then pure (mappings, some key)
    else do
      let value ← f expansion
      addCases apostrophed expansion fs ((key, value) :: mappings)

/-- filters/contractions/generate/main.go:29-38: the loop over the apostrophes. -/
def addApostrophes (M : CaseMaps) (expansion : Bytes) :
    List Bytes → StringMap → Go (StringMap × Option Bytes)
  | [], mappings => Go.ret (mappings, none)
  | apostrophed :: rest, mappings => do
    let (mappings, err) ← addCases apostrophed expansion (caseFuncs M) mappings
    match err with
    | some e => pure (mappings, some e)
    | none => addApostrophes M expansion rest mappings

/-- filters/contractions/generate/main.go:28-41: the loop over the map `contractions`, in some order. -/
def addContractions (M : CaseMaps) : StringMap → StringMap → Go (StringMap × Option Bytes)
  | [], mappings => Go.ret (mappings, none)
  | (contraction, expansion) :: rest, mappings => do
    let (mappings, err) ← addApostrophes M expansion (apostrophes contraction) mappings
    match err with
    | some e => pure (mappings, some e)
    | none => addContractions M rest mappings

/-- filters/contractions/generate/main.go:19-42 `getMappings`, for one iteration order of the map
`contractions`. -/
def getMappings (M : CaseMaps) (order : StringMap) : Go (StringMap × Option Bytes) :=
  addContractions M order []

end Jargon
