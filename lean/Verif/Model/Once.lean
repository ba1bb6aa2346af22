import Verif.Model.Synonyms

/-! Model of the lazy construction of a synonyms filter (`sync.Once` in filters/synonyms/filter.go)
used by any number of goroutines. One step of the transition system is one access to memory that
goroutines share; between steps any other goroutine may run (sequential consistency). -/

namespace Jargon

/-- filters/synonyms/filter.go:24-28 `config`. -/
structure SynConfig where
  mappings : StringMap
  ignoreCase : Bool
  ignoreRunes : List Rune

/-- filters/synonyms/filter.go:14-22 `filter`, without `once`; `none` is nil. -/
structure SynFields where
  config : Option SynConfig
  trie : Option RuneTrie
  maxWords : Nat

/-- filters/synonyms/filter.go:33-39: what `NewFilter` stores. -/
def SynFields.new (c : SynConfig) : SynFields := { config := some c, trie := none, maxWords := 0 }

/-- filters/synonyms/filter.go:151-185: the loop of `next` (see `synLoop`) when `f.trie` is nil:
`SearchCanonical` reads `t.root` (trie/trie.go:96-98) and panics. -/
def synLoopNil {σ : Type} (call : NextFn σ) (maxWords : Nat) (t : SynState σ) :
    Go (Option Err × SynState σ) := do
  -- `fill` and `wordrun` only read `maxWords`
  let f : SynFilter := { trie := RuneTrie.new false [], maxWords }
  let (err, t) ← fill call f t
  if err.isSome then pure (err, t)
  else if t.buffer.len = 0 then pure (none, t)
  else
    let (run, err) ← wordrun f t.buffer
    if err.isSome then pure (err, t)
    else if run.length = 0 then pure (none, t)
    else Go.panic .nilDeref

/-- filters/synonyms/filter.go:139-195 `next` when `f.trie` is nil. -/
def synNextNil {σ : Type} (call : NextFn σ) (maxWords : Nat) (t : SynState σ) :
    Go (Res × SynState σ) :=
  if t.buffer.len ≠ 0 then Go.ret ({ tok := none, err := some .synBufferNotEmpty }, t)
  else if t.outgoing.any then do
    let (tok, outgoing) ← t.outgoing.pop
    pure ({ tok, err := none }, { t with outgoing })
  else do
    let (err, t) ← synLoopNil call maxWords t
    if err.isSome then pure ({ tok := none, err }, t)
    else
      let t := { t with outgoing := t.outgoing.push (t.buffer.map some), buffer := t.buffer.clear }
      if t.outgoing.any then do
        let (tok, outgoing) ← t.outgoing.pop
        pure ({ tok, err := none }, { t with outgoing })
      else pure ({ tok := none, err := none }, t)

/-- filters/synonyms/filter.go:118-123: the closure `next` made by a call of `Filter` in which `err`
ended up with the given value, reading the fields of the filter as they are now. -/
def synFieldsNext {σ : Type} (U : Unicode) (call : NextFn σ) (err : Option Err) (fl : SynFields)
    (t : SynState σ) : Go (Res × SynState σ) :=
  match err with
  | some e => Go.ret ({ tok := none, err := some e }, t)
  | none =>
    match fl.trie with
    | some trie => synNext U call { trie, maxWords := fl.maxWords } t
    | none => synNextNil call fl.maxWords t

/-- Where a goroutine is within a call of `Filter` (filters/synonyms/filter.go:102-126). The phases
of `f.once.Do` follow Go's sync/once.go: `Do` loads `done`; `doSlow` locks the mutex, loads `done`
again, runs the function, stores `done`, unlocks. -/
inductive Phase where
  /-- about to load `done` in `Do` -/
  | load
  /-- about to lock the mutex in `doSlow` -/
  | lock
  /-- about to load `done` again -/
  | reload
  /-- in `build`, filter.go:44-77 -/
  | build
  /-- filter.go:80 -/
  | setTrie (f : SynFilter)
  /-- filter.go:81 -/
  | setMaxWords (f : SynFilter)
  /-- filter.go:84 -/
  | setConfig
  /-- about to store `done`; the local variable `err` of `Filter` -/
  | store (err : Option Err)
  /-- about to unlock -/
  | unlock (err : Option Err)
  /-- filter.go:110-125 -/
  | make (err : Option Err)

/-- A stream made by `Filter`: the stream it was given, the captured `err`, its state, and the
results of all its `Next` calls so far. -/
structure SharedStream (σ : Type) where
  incoming : TS σ
  err : Option Err
  st : TS (SynState σ)
  results : List Res

/-- filters/synonyms/filter.go:110-125. -/
def SharedStream.new {σ : Type} (inc : TS σ) (err : Option Err) : SharedStream σ :=
  { incoming := inc, err := err,
    st := TS.new { incoming := inc, buffer := Queue.new, outgoing := Queue.new }, results := [] }

/-- The whole program: the filter with its `sync.Once`, the goroutines that are within a call of
`Filter`, and all streams made so far. `builds` counts the calls of `build`. -/
structure Shared (σ : Type) where
  done : Bool
  mutex : Option Nat
  fields : SynFields
  builds : Nat
  threads : Nat → Option (TS σ × Phase)
  streams : List (SharedStream σ)

/-- filters/synonyms/filter.go:31-41 `NewFilter`. -/
def Shared.new {σ : Type} (c : SynConfig) : Shared σ :=
  { done := false, mutex := none, fields := SynFields.new c, builds := 0, threads := fun _ => none,
    streams := [] }

/-- Goroutine `g` moves to another phase. -/
def Shared.move {σ : Type} (s : Shared σ) (g : Nat) (p : Option (TS σ × Phase)) : Shared σ :=
  { s with threads := fun k => if k = g then p else s.threads k }

/-- One step of one goroutine. Simplification: a call of `Next` on a stream is one step; it reads
the filter's fields. Two goroutines do not call `Next` on the same stream at the same time. -/
inductive SharedStep {σ : Type} (E : Env) (call : NextFn σ) : Shared σ → Shared σ → Prop
  | enter {s} (g : Nat) (inc : TS σ) : s.threads g = none →
      SharedStep E call s (s.move g (some (inc, .load)))
  | fast {s g inc} : s.threads g = some (inc, .load) → s.done = true →
      SharedStep E call s (s.move g (some (inc, .make none)))
  | slow {s g inc} : s.threads g = some (inc, .load) → s.done = false →
      SharedStep E call s (s.move g (some (inc, .lock)))
  | acquire {s g inc} : s.threads g = some (inc, .lock) → s.mutex = none →
      SharedStep E call s { s.move g (some (inc, .reload)) with mutex := some g }
  | already {s g inc} : s.threads g = some (inc, .reload) → s.done = true →
      SharedStep E call s (s.move g (some (inc, .unlock none)))
  | begin {s g inc} : s.threads g = some (inc, .reload) → s.done = false →
      SharedStep E call s { s.move g (some (inc, .build)) with builds := s.builds + 1 }
  /-- Go iterates the mappings in any order -/
  | built {s g inc c} {order : StringMap} {f : SynFilter} : s.threads g = some (inc, .build) →
      s.fields.config = some c → order.Perm c.mappings →
      build E order c.ignoreCase c.ignoreRunes = Go.ret (.ok f) →
      SharedStep E call s (s.move g (some (inc, .setTrie f)))
  | failed {s g inc c} {order : StringMap} {e : Err} : s.threads g = some (inc, .build) →
      s.fields.config = some c → order.Perm c.mappings →
      build E order c.ignoreCase c.ignoreRunes = Go.ret (.error e) →
      SharedStep E call s (s.move g (some (inc, .store (some e))))
  | setTrie {s g inc f} : s.threads g = some (inc, .setTrie f) →
      SharedStep E call s { s.move g (some (inc, .setMaxWords f)) with
        fields := { s.fields with trie := some f.trie } }
  | setMaxWords {s g inc f} : s.threads g = some (inc, .setMaxWords f) →
      SharedStep E call s { s.move g (some (inc, .setConfig)) with
        fields := { s.fields with maxWords := f.maxWords } }
  | setConfig {s g inc} : s.threads g = some (inc, .setConfig) →
      SharedStep E call s { s.move g (some (inc, .store none)) with
        fields := { s.fields with config := none } }
  | store {s g inc err} : s.threads g = some (inc, .store err) →
      SharedStep E call s { s.move g (some (inc, .unlock err)) with done := true }
  | unlock {s g inc err} : s.threads g = some (inc, .unlock err) →
      SharedStep E call s { s.move g (some (inc, .make err)) with mutex := none }
  | make {s g inc err} : s.threads g = some (inc, .make err) →
      SharedStep E call s { s.move g none with
        streams := s.streams ++ [SharedStream.new inc err] }
  | next {s k} {x : SharedStream σ} {r : Res} {st : TS (SynState σ)} : s.streams[k]? = some x →
      TS.next (synFieldsNext E.U call x.err s.fields) x.st = Go.ret (r, st) →
      SharedStep E call s { s with
        streams := s.streams.set k { x with st, results := x.results ++ [r] } }

/-- What any schedule of any number of goroutines can lead to. -/
inductive Reachable {σ : Type} (E : Env) (call : NextFn σ) (c : SynConfig) : Shared σ → Prop
  | start : Reachable E call c (Shared.new c)
  | step {s s'} : Reachable E call c s → SharedStep E call s s' → Reachable E call c s'

end Jargon
