import Verif.Model.Strings
import Verif.Model.Ascii

/-! The generators of the shipped tables: filters/nba/generate and filters/stackoverflow/generate. What
they fetch is a parameter; writing the Go source is in `Verif.Model.GenerateSource`. -/

namespace Jargon

deriving instance DecidableEq for Except

/-! ### filters/nba/generate -/

/-- filters/nba/generate/main.go:63-72: the synonyms of a player, as one string. -/
def nbaKey (canonical : Bytes) : Bytes :=
  let (fold, folded) := foldString canonical
  join (str ", ") (if folded then [canonical, fold] else [canonical])

/-- filters/nba/generate/main.go:53-77 `getMappings`: the loop over the names. The error is represented
by the name it reports. -/
def nbaLoop : List Bytes → StringMap → Except Bytes StringMap
  | [], mappings => .ok mappings
  | name :: names, mappings =>
    match splitByte 0x2C name with
    | [a, b] =>
      let canonical := trimSpace b ++ str " " ++ trimSpace a
      nbaLoop names (mappings.set (nbaKey canonical) canonical)
    | _ => .error name

/-- filters/nba/generate/main.go:53-77 `getMappings`. -/
def nbaGenerate (names : List Bytes) : Except Bytes StringMap := nbaLoop names []

/-! ### filters/stackoverflow/generate -/

/-- filters/stackoverflow/generate/main.go:227-231 `item`. -/
structure SoItem where
  name : Bytes
  synonyms : List Bytes
  moderator : Bool

/-- filters/stackoverflow/generate/main.go:233-240 `wrapper`. -/
structure SoWrapper where
  items : List SoItem
  hasMore : Bool
  errorName : Bytes
  errorMessage : Bytes
  backoff : Int

/-- What can go wrong in filters/stackoverflow/generate. -/
inductive SoError where
  /-- The request, reading the answer, or decoding it as JSON. -/
  | fetch
  /-- The answer reports an error. -/
  | answer (name message : Bytes)
  /-- The answer asks for too long a pause. -/
  | backoff (seconds : Int)
deriving DecidableEq

/-- filters/stackoverflow/generate/main.go:26-31 `ignore`. -/
def soIgnored : List Bytes := [str "drop-down", str "datatable", str "for", str "this"]

/-- `strings.ReplaceAll(s, "-", " ")`. -/
def dashes (s : Bytes) : Bytes := replaceAll (str "-") (str " ") s

/-- filters/stackoverflow/generate/main.go:38-39: `mappings` and `seen`. -/
structure SoState where
  mappings : StringMap
  seen : List Bytes

/-- filters/stackoverflow/generate/main.go:62-72: `filtered`. -/
def soFiltered (tag : SoItem) : List Bytes :=
  (tag.synonyms.filter fun s => s ∉ soIgnored).map dashes

/-- filters/stackoverflow/generate/main.go:50-86: the body of the first loop over the tags of a page. -/
def soSynonyms (st : SoState) (tag : SoItem) : SoState :=
  if tag.moderator then st
  else if tag.synonyms.length = 0 then st
  else if (soFiltered tag).length = 0 then st
  else { mappings := st.mappings.set (join (str ", ") (soFiltered tag)) tag.name,
         seen := soFiltered tag ++ st.seen }

/-- filters/stackoverflow/generate/main.go:89-111: the body of the second loop. -/
def soName (st : SoState) (tag : SoItem) : SoState :=
  if tag.moderator then st
  else if dashes tag.name ∈ soIgnored then st
  else if dashes tag.name ∈ st.seen then st
  else { st with mappings := st.mappings.set (dashes tag.name) tag.name }

/-- filters/stackoverflow/generate/main.go:49-111: one page. -/
def soPage (st : SoState) (items : List SoItem) : SoState :=
  items.foldl soName (items.foldl soSynonyms st)

/-- filters/stackoverflow/generate/main.go:192-225 `fetchTags`; `get` is the request with its JSON
decoded, and `none` an error in that. The page is never 0. -/
def fetchTags (get : Nat → Option SoWrapper) (page : Nat) : Except SoError SoWrapper :=
  match get page with
  | none => .error .fetch
  | some w =>
    if w.errorName.length > 0 ∨ w.errorMessage.length > 0 then .error (.answer w.errorName w.errorMessage)
    else .ok w

/-- filters/stackoverflow/generate/main.go:43-132: the loop over the pages, from `page` on with `left` of
them left. Pauses are not modelled. -/
def soPages (get : Nat → Option SoWrapper) : Nat → Nat → SoState → Except SoError SoState
  | 0, _, st => .ok st
  | left + 1, page, st =>
    match fetchTags get page with
    | .error e => .error e
    | .ok w =>
      if !w.hasMore then .ok (soPage st w.items)
      else if w.backoff > 10 then .error (.backoff w.backoff)
      else soPages get left (page + 1) (soPage st w.items)

/-- filters/stackoverflow/generate/main.go:34-133 `writeDictionary`, up to writing the source: the one
site of `sites` (lines 178-183), with 2000 tags in pages of 100. -/
def soGenerate (get : Nat → Option SoWrapper) : Except SoError StringMap :=
  match soPages get (2000 / 100) 1 ⟨[], []⟩ with
  | .error e => .error e
  | .ok st => .ok st.mappings

end Jargon
