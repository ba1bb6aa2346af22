import Verif.Model.Simple

/-! Model of `filters/synonyms/trie/trie.go` and `filters/synonyms/filter.go`. -/

namespace Jargon

/-! ### Trie -/

/-- filters/synonyms/trie/trie.go:59-63 `node`; `children` as an association list. -/
inductive Node where
  | mk (children : List (Rune × Node)) (hasCanonical : Bool) (canonical : Bytes)

namespace Node
def children : Node → List (Rune × Node) | mk c _ _ => c
def hasCanonical : Node → Bool | mk _ h _ => h
def canonical : Node → Bytes | mk _ _ c => c

/-- trie.go:83 `&node{}`. -/
def empty : Node := mk [] false []

/-- trie.go:78, 110 `n.children[r]`; `none` is nil. -/
def child (n : Node) (r : Rune) : Option Node := n.children.lookup r

/-- trie.go:84 `n.children[r] = child` (also: `child` was mutated through its pointer). -/
def setChild (n : Node) (r : Rune) (c : Node) : Node :=
  mk ((r, c) :: n.children.filter (fun p => p.1 != r)) n.hasCanonical n.canonical

/-- trie.go:90-91. -/
def setCanonical (n : Node) (c : Bytes) : Node := mk n.children true c
end Node

/-- filters/synonyms/trie/trie.go:12-16 `RuneTrie`. -/
structure RuneTrie where
  root : Node
  ignore : List Rune
  ignoreCase : Bool

/-- filters/synonyms/trie/trie.go:19-29 `New`. -/
def RuneTrie.new (ignoreCase : Bool) (ignore : List Rune) : RuneTrie :=
  { root := Node.empty, ignore, ignoreCase }

/-- filters/synonyms/trie/trie.go:68-91: the loops of `Add` from node `n` on, over the remaining
runes; returns the mutated node. -/
def RuneTrie.addRunes (U : Unicode) (t : RuneTrie) (canonical : Bytes) : List Rune → Node → Node
  | [], n => n.setCanonical canonical
  | r :: rs, n =>
    let r := if t.ignoreCase then U.toLower r else r
    if t.ignore.contains r then RuneTrie.addRunes U t canonical rs n
    else
      let child := match n.child r with
        | some c => c
        | none => Node.empty
      n.setChild r (RuneTrie.addRunes U t canonical rs child)

/-- filters/synonyms/trie/trie.go:66-92 `Add`. -/
def RuneTrie.add (U : Unicode) (t : RuneTrie) (tokens : List Token) (canonical : Bytes) : RuneTrie :=
  { t with root := t.addRunes U canonical (tokens.flatMap fun token => runes token.string) t.root }

/-- filters/synonyms/trie/trie.go:101-114: the inner loop of `SearchCanonical`, from a node given
with its path; `none` is `break outer`. -/
def RuneTrie.walk (U : Unicode) (t : RuneTrie) : List Rune → Node × List Rune → Option (Node × List Rune)
  | [], n => some n
  | r :: rs, n =>
    let r := if t.ignoreCase then U.toLower r else r
    if t.ignore.contains r then RuneTrie.walk U t rs n
    else match n.1.child r with
      | none => none
      | some c => RuneTrie.walk U t rs (c, n.2 ++ [r])

/-- Results of `SearchCanonical`. -/
structure Found where
  found : Bool
  canonical : Bytes
  consumed : Nat
deriving DecidableEq, Repr

/-- filters/synonyms/trie/trie.go:99-123: the outer loop of `SearchCanonical`. `result` is the path
of the node `result` points to, `none` for nil. -/
def RuneTrie.searchLoop (U : Unicode) (t : RuneTrie) :
    Nat → List Token → Node × List Rune → Option (List Rune) → Found → Found
  | _, [], _, _, acc => acc
  | i, token :: tokens, n, result, acc =>
    match t.walk U (runes token.string) n with
    | none => acc
    | some n =>
      if n.1.hasCanonical && (some n.2 != result) then
        RuneTrie.searchLoop U t (i + 1) tokens n (some n.2)
          { found := true, canonical := n.1.canonical, consumed := i + 1 }
      else RuneTrie.searchLoop U t (i + 1) tokens n result acc

/-- filters/synonyms/trie/trie.go:95-126 `SearchCanonical`. -/
def RuneTrie.searchCanonical (U : Unicode) (t : RuneTrie) (tokens : List Token) : Found :=
  t.searchLoop U 0 tokens (t.root, []) none { found := false, canonical := [], consumed := 0 }

/-! ### Building the filter -/

/-- filters/synonyms/filter.go:14-21 `filter` after `build`. -/
structure SynFilter where
  trie : RuneTrie
  maxWords : Nat

/-- Go's `tokens[lo:hi]`; panics unless `lo ≤ hi ≤ len`. -/
def goSlice {α : Type} (l : List α) (lo hi : Nat) : Go (List α) :=
  if lo ≤ hi ∧ hi ≤ l.length then Go.ret ((l.take hi).drop lo) else Go.panic .indexOutOfRange

/-- filters/synonyms/filter.go:89-99 `updateMaxWords`. -/
def updateMaxWords (tokens : List Token) (maxWords : Nat) : Nat :=
  let words := (tokens.filter fun t => !t.isSpace && !t.isPunct).length
  if words > maxWords then words else maxWords

/-- filters/synonyms/filter.go:64-65 and 75-76: add one synonym. -/
def SynFilter.addSynonym (U : Unicode) (f : SynFilter) (slice : List Token) (canonical : Bytes) :
    SynFilter :=
  { trie := f.trie.add U slice canonical, maxWords := updateMaxWords slice f.maxWords }

/-- filters/synonyms/filter.go:54-76: the loop over the tokens of one key, and what follows it.
`rest` are the tokens from index `i` on. -/
def splitLoop (U : Unicode) (tokens : List Token) (canonical : Bytes) :
    List Token → Nat → Nat → Bool → SynFilter → Go SynFilter
  | [], _, start, _, f => do
    let slice ← goSlice tokens start tokens.length
    pure (f.addSynonym U slice canonical)
  | token :: rest, i, start, skipSpaces, f =>
    if skipSpaces && token.isSpace then
      splitLoop U tokens canonical rest (i + 1) (start + 1) skipSpaces f
    else if token.string = [0x2C] then do
      let slice ← goSlice tokens start i
      splitLoop U tokens canonical rest (i + 1) (i + 1) true (f.addSynonym U slice canonical)
    else splitLoop U tokens canonical rest (i + 1) start false f

/-- filters/synonyms/filter.go:46-77: the loop over the mappings, in the order Go iterates them. -/
def buildLoop (E : Env) : StringMap → SynFilter → Go (Except Err SynFilter)
  | [], f => Go.ret (.ok f)
  | (synonyms, canonical) :: rest, f => do
    let (tokens, err) ← (tokenizeString E synonyms).toSlice
    match err with
    | some e => pure (.error e)
    | none =>
      let f ← splitLoop E.U tokens canonical tokens 0 0 true f
      buildLoop E rest f

/-- filters/synonyms/filter.go:43-87 `build`, for one iteration order of the mappings. -/
def build (E : Env) (mappings : StringMap) (ignoreCase : Bool) (ignoreRunes : List Rune) :
    Go (Except Err SynFilter) :=
  buildLoop E mappings { trie := RuneTrie.new ignoreCase ignoreRunes, maxWords := 1 }

/-! ### Filtering -/

/-- filters/synonyms/filter.go:128-136 `tokens`. -/
structure SynState (σ : Type) where
  incoming : TS σ
  buffer : Queue Token
  outgoing : Queue (Option Token)

/-- filters/synonyms/filter.go:200-209: the new `outgoing` and `drop`. -/
def fillLeading : List Token → Queue (Option Token) → Nat → Queue (Option Token) × Nat
  | [], out, drop => (out, drop)
  | token :: rest, out, drop =>
    if token.isSpace || token.isPunct then fillLeading rest (out.push [some token]) (drop + 1)
    else (out, drop)

/-- filters/synonyms/filter.go:214-223: `for t.incoming.Scan() {...}`. -/
def fillScan {σ : Type} (call : NextFn σ) (t : SynState σ) : Go (SynState σ) := do
  let (ok, incoming) ← TS.scan call t.incoming
  let t := { t with incoming }
  if ok then
    match incoming.token with
    | none => Go.panic .nilDeref
    | some token =>
      if token.isSpace || token.isPunct then
        fillScan call { t with outgoing := t.outgoing.push [some token] }
      else pure { t with buffer := t.buffer.push [token] }
  else pure t
partial_fixpoint

/-- filters/synonyms/filter.go:231-236. -/
def wordCount (tokens : List Token) : Nat := (tokens.filter fun t => !t.isPunct && !t.isSpace).length

/-- filters/synonyms/filter.go:239-263: fill until enough words, a punct or EOF. -/
def fillNext {σ : Type} (call : NextFn σ) (maxWords : Nat) (wordcount : Nat) (t : SynState σ) :
    Go (Option Err × SynState σ) :=
  if wordcount < maxWords then do
    let (r, incoming) ← TS.next call t.incoming
    let t := { t with incoming }
    if r.err.isSome then pure (r.err, t)
    else match r.tok with
      | none => pure (none, t)
      | some token =>
        let t := { t with buffer := t.buffer.push [token] }
        if token.isPunct then pure (none, t)
        else if token.isSpace then fillNext call maxWords wordcount t
        else fillNext call maxWords (wordcount + 1) t
  else pure (none, t)
partial_fixpoint

/-- filters/synonyms/filter.go:198-264 `fill`. -/
def fill {σ : Type} (call : NextFn σ) (f : SynFilter) (t : SynState σ) :
    Go (Option Err × SynState σ) := do
  let (outgoing, drop) := fillLeading t.buffer t.outgoing 0
  let buffer ← t.buffer.drop drop
  let t := { t with outgoing, buffer }
  if t.buffer.len = 0 then do
    let t ← fillScan call t
    if t.incoming.err.isSome then pure (t.incoming.err, t)
    else fillNext call f.maxWords (wordCount t.buffer) t
  else fillNext call f.maxWords (wordCount t.buffer) t

/-- filters/synonyms/filter.go:283-301: the loop of `wordrun`; `rest` are the tokens from index `i`
on, `end_` and `words` the variables of the loop. Returns `end`. -/
def wordrunLoop (maxWords : Nat) : List Token → Nat → Nat → Nat → Nat
  | [], _, end_, _ => end_
  | token :: rest, i, end_, words =>
    if token.isPunct then end_
    else
      let words := if !token.isSpace then words + 1 else words
      if words ≥ maxWords then i + 1
      else wordrunLoop maxWords rest (i + 1) (i + 1) words

/-- filters/synonyms/filter.go:267-304 `wordrun`. -/
def wordrun (f : SynFilter) (buffer : Queue Token) : Go (List Token × Option Err) :=
  match buffer with
  | [] => Go.ret ([], some .synNoTokens)
  | head :: _ =>
    if head.isSpace || head.isPunct then Go.ret ([], some .synHeadNotWord)
    else do
      let run ← goSlice buffer 0 (wordrunLoop f.maxWords buffer 0 0 0)
      pure (run, none)

/-- filters/synonyms/filter.go:151-185: the loop of `next`; `some e` if it returned an error. -/
def synLoop {σ : Type} (U : Unicode) (call : NextFn σ) (f : SynFilter) (t : SynState σ) :
    Go (Option Err × SynState σ) := do
  let (err, t) ← fill call f t
  if err.isSome then pure (err, t)
  else if t.buffer.len = 0 then pure (none, t)
  else
    let (run, err) ← wordrun f t.buffer
    if err.isSome then pure (err, t)
    else if run.length = 0 then pure (none, t)
    else
      let r := f.trie.searchCanonical U run
      if r.found then
        let outgoing :=
          if r.canonical ≠ [] then t.outgoing.push [newToken U r.canonical true] else t.outgoing
        let buffer ← t.buffer.drop r.consumed
        synLoop U call f { t with outgoing, buffer }
      else
        let (token, buffer) ← t.buffer.pop
        synLoop U call f { t with buffer, outgoing := t.outgoing.push [some token] }
partial_fixpoint

/-- filters/synonyms/filter.go:139-195 `next`. -/
def synNext {σ : Type} (U : Unicode) (call : NextFn σ) (f : SynFilter) (t : SynState σ) :
    Go (Res × SynState σ) :=
  if t.buffer.len ≠ 0 then Go.ret ({ tok := none, err := some .synBufferNotEmpty }, t)
  else if t.outgoing.any then do
    let (tok, outgoing) ← t.outgoing.pop
    pure ({ tok, err := none }, { t with outgoing })
  else do
    let (err, t) ← synLoop U call f t
    if err.isSome then pure ({ tok := none, err }, t)
    else
      -- FlushTo
      let t := { t with outgoing := t.outgoing.push (t.buffer.map some), buffer := t.buffer.clear }
      if t.outgoing.any then do
        let (tok, outgoing) ← t.outgoing.pop
        pure ({ tok, err := none }, { t with outgoing })
      else pure ({ tok := none, err := none }, t)

/-- filters/synonyms/filter.go:110-125: the stream made by `Filter` once `build` has succeeded. -/
def synStream (U : Unicode) (f : SynFilter) : Filter := fun incoming =>
  newTokenStream (synNext U incoming.call f)
    { incoming := incoming.st, buffer := Queue.new, outgoing := Queue.new }

/-- filters/synonyms/filter.go:118-123: the closure `next` of `Filter`, given the outcome of
`build`. Simplification: here `build` runs at the first `Next` instead of at the call of `Filter`
(its result does not depend on when it runs). The use of `sync.Once` is modelled in
`Verif.Model.Once`. -/
def synClosure {σ : Type} (U : Unicode) (built : Go (Except Err SynFilter)) (call : NextFn σ)
    (t : SynState σ) : Go (Res × SynState σ) := do
  match ← built with
  | .error e => pure ({ tok := none, err := some e }, t)
  | .ok f => synNext U call f t

/-- filters/synonyms/filter.go:30-41 `NewFilter` and 102-126 `Filter`, for one iteration order of
the mappings. -/
def synonyms (E : Env) (mappings : StringMap) (ignoreCase : Bool) (ignoreRunes : List Rune) :
    Filter := fun incoming =>
  newTokenStream (synClosure E.U (build E mappings ignoreCase ignoreRunes) incoming.call)
    { incoming := incoming.st, buffer := Queue.new, outgoing := Queue.new }

end Jargon
