import Verif.Model.Bufio
import Verif.Model.Ascii
import Verif.Model.Contractions
import Verif.Model.Tables

/-! Model of `cmd/jargon/main.go`. -/

namespace Jargon

/-- The errors of cmd/jargon/main.go. -/
inductive CliErr where
  /-- main.go:132 `errNoInput` -/
  | noInput
  /-- main.go:133 `errTwoInput` -/
  | twoInput
  /-- main.go:200 "lang %q is not known by %s" -/
  | unknownLang (lang : Bytes)
  /-- main.go:262, 278 "reader is required" -/
  | readerRequired
  /-- main.go:281 "writer is required" -/
  | writerRequired
  /-- an error from elsewhere -/
  | other (e : Err)
deriving DecidableEq, Repr

/-- An open file, by the number of the file in the file system. Two paths may name one file. -/
abbrev FileId := Nat

/-- A source or a destination: stdin or stdout, or a file. -/
inductive Place where
  | std
  | file (i : FileId)
deriving DecidableEq, Repr

/-- `afero.Fs`, as far as it is used: the results of `Open`, `Create` and `Stat().Size()`, and what
reading a file delivers. -/
structure Fs where
  openFile : Bytes → Except Err FileId
  create : Bytes → Except Err FileId
  stat : FileId → Except Err Int
  content : FileId → Reader

/-- `Create` truncates the file. -/
def Fs.truncate (fs : Fs) (i : FileId) : Fs :=
  { fs with
    content := fun j => if j = i then { data := [] } else fs.content j
    stat := fun j => if j = i then (match fs.stat j with | .ok _ => .ok 0 | .error e => .error e)
      else fs.stat j }

/-- `*bufio.Reader`: where it reads, and its buffer size. -/
structure BufReader where
  src : Place
  size : Nat
deriving DecidableEq

/-- `bufio.NewReaderSize`: at least 16 bytes. -/
def newReaderSize (src : Place) (size : Int) : BufReader := { src, size := max size.toNat 16 }

/-- main.go:117-130 `config`. The file system is passed beside it, since `Create` changes it. -/
structure Config (ω : Type) where
  html : Bool := false
  count : Bool := false
  lines : Bool := false
  filters : List Filter := []
  filein : Option FileId := none
  fileout : Option FileId := none
  pipedin : Bool := false
  pipedout : Bool := false
  reader : Option BufReader := none
  writer : Option (Place × BufWriter ω) := none

/-- `os.ModeCharDevice`. -/
def modeCharDevice : Nat := 1 <<< 21

/-- main.go:143-168 `setInput`. -/
def setInput {ω : Type} (fs : Fs) (c : Config ω) (mode : Nat) (filein : Bytes) :
    Option CliErr × Config ω :=
  let cont (c : Config ω) : Option CliErr × Config ω :=
    let c := { c with pipedin := mode &&& modeCharDevice == 0 }
    let input := c.pipedin || c.filein.isSome
    if !input then (some .noInput, c)
    else if c.pipedin && c.filein.isSome then (some .twoInput, c)
    else (none, c)
  if filein ≠ [] then
    match fs.openFile filein with
    | .error err => (some (.other err), c)
    | .ok file => cont { c with filein := some file }
  else cont c

/-- github.com/kljensen/snowball: the functions behind the stemmers of filters/stemmer/filter.go:15-31,
with their second argument fixed to `true`. -/
structure Snowball where
  english : Bytes → Bytes
  french : Bytes → Bytes
  norwegian : Bytes → Bytes
  russian : Bytes → Bytes
  spanish : Bytes → Bytes
  swedish : Bytes → Bytes

/-- main.go:170-177 `filterMap`. -/
def filterMap (E : Env) (sb : Snowball) : List (Bytes × Filter) :=
  [(str "-ascii", asciiFold E.U),
   (str "-contractions", expand E),
   (str "-lemmas", TokenStream.lemmas),
   (str "-distinct", TokenStream.distinct),
   (str "-stack", tags E),
   (str "-stem", stemmer E.U sb.english)]

/-- main.go:180-187 `stemmerMap`. -/
def stemmerMap (E : Env) (sb : Snowball) : List (Bytes × Filter) :=
  [(str "english", stemmer E.U sb.english),
   (str "french", stemmer E.U sb.french),
   (str "norwegian", stemmer E.U sb.norwegian),
   (str "russian", stemmer E.U sb.russian),
   (str "spanish", stemmer E.U sb.spanish),
   (str "swedish", stemmer E.U sb.swedish)]

/-- main.go:189-209 `setFilters`. -/
def setFilters {ω : Type} (E : Env) (sb : Snowball) (c : Config ω) (args : List Bytes) (lang : Bytes) :
    Option CliErr × Config ω :=
  match args with
  | [] => (none, c)
  | arg :: args =>
    match (filterMap E sb).lookup arg with
    | none => setFilters E sb c args lang
    | some filter =>
      if arg = str "-stem" ∧ lang ≠ [] then
        match (stemmerMap E sb).lookup lang with
        | some stem => setFilters E sb { c with filters := c.filters ++ [stem] } args lang
        | none => (some (.unknownLang lang), c)
      else setFilters E sb { c with filters := c.filters ++ [filter] } args lang

/-- main.go:211-223 `setOutput`. -/
def setOutput {ω : Type} (fs : Fs) (c : Config ω) (fileout : Bytes) :
    Option CliErr × Config ω × Fs :=
  if fileout ≠ [] then
    match fs.create fileout with
    | .error err => (some (.other err), c, fs)
    | .ok file => (none, { c with fileout := some file, pipedout := false }, fs.truncate file)
  else (none, { c with pipedout := c.fileout.isNone }, fs)

/-- main.go:225-258 `setReader`. If neither stdin nor a file was chosen and the output is a pipe, the
code would make a reader of a nil file; that is left out here (the reader stays nil), since `setInput`
has then failed before. -/
def setReader {ω : Type} (fs : Fs) (c : Config ω) : Option CliErr × Config ω :=
  let c : Config ω :=
    if c.pipedin || c.pipedout then
      let size : Int := 64 * 1024
      if c.pipedin then { c with reader := some (newReaderSize .std size) }
      else match c.filein with
        | some i => { c with reader := some (newReaderSize (.file i) size) }
        | none => c
    else c
  match c.filein with
  | none => (none, c)
  | some i =>
    match fs.stat i with
    | .error err => (some (.other err), c)
    | .ok size =>
      if size ≤ 4 * 1024 then (none, { c with reader := some (newReaderSize (.file i) (4 * 1024)) })
      else if size ≤ 1024 * 1024 then (none, { c with reader := some (newReaderSize (.file i) size) })
      else (none, { c with reader := some (newReaderSize (.file i) (1024 * 1024)) })

/-- main.go:260-274 `setWriter`. `under p` is the state of the writer at the place `p`. If the output
is not a pipe there is a file; a nil file is left out (the writer stays nil). -/
def setWriter {ω : Type} (under : Place → ω) (c : Config ω) : Option CliErr × Config ω :=
  match c.reader with
  | none => (some .readerRequired, c)
  | some reader =>
    let size := reader.size
    if c.pipedout then (none, { c with writer := some (.std, BufWriter.new size (under .std)) })
    else match c.fileout with
      | some i => (none, { c with writer := some (.file i, BufWriter.new size (under (.file i))) })
      | none => (none, c)

/-- main.go:308-331: the loop of `execute` and what follows it. -/
def executeLoop {σ ω : Type} (direct : Bool) (w : Writer ω) (lines : Bool) (call : NextFn σ) (s : TS σ)
    (b : BufWriter ω) : Go (Option Err × BufWriter ω) := do
  let (ok, s) ← TS.scan call s
  if ok then
    match s.token with
    | none => Go.panic .nilDeref -- not reachable: Scan returned true
    | some token => do
      let ((_, err), b) ← bufWriteString direct w b token.string 0
      match err with
      | some e => pure (some e, b)
      | none =>
        if lines then
          let r := bufWriteByte w b 0x0A
          match r.1 with
          | some e => pure (some e, r.2)
          | none => executeLoop direct w lines call s r.2
        else executeLoop direct w lines call s b
  else match s.err with
    | some e => pure (some e, b)
    | none => pure (BufWriter.flush w b)
partial_fixpoint

/-- main.go:295-331: `execute` once the stream is made. -/
def executeStream {ω : Type} (direct : Bool) (w : Writer ω) (count lines : Bool) (tokens : TokenStream)
    (b : BufWriter ω) : Go (Option Err × BufWriter ω) :=
  if count then do
    let (n, err) ← tokens.count
    match err with
    | some e => pure (some e, b)
    | none => do
      -- the error of this write is not looked at
      let (_, b) ← bufWriteString direct w b (itoa n ++ [0x0A]) 0
      pure (BufWriter.flush w b)
  else executeLoop direct w lines tokens.call tokens.st b

/-- golang.org/x/net/html: the tokens the HTML tokenizer makes of a reader, and its final error. -/
abbrev HtmlParse := Reader → List HTok × Option Err

/-- main.go:284-293: the stream of `execute`. `source p` is what reading from `p` delivers. The
`bufio.Reader` only passes it on. -/
def cliStream (E : Env) (parse : HtmlParse) (source : Place → Reader) (html : Bool)
    (filters : List Filter) (src : Place) : TokenStream :=
  let tokens :=
    if html then tokenizeHTML E (parse (source src)).1 (parse (source src)).2
    else tokenize E (source src)
  filters.foldl (fun tokens f => f tokens) tokens

/-- main.go:276-332 `execute`, with the final state of the writer. -/
def execute {ω : Type} (E : Env) (parse : HtmlParse) (source : Place → Reader) (direct : Bool)
    (w : Place → Writer ω) (c : Config ω) : Go (Option CliErr × Option (Place × BufWriter ω)) :=
  match c.reader with
  | none => pure (some .readerRequired, c.writer)
  | some reader =>
    match c.writer with
    | none => pure (some .writerRequired, none)
    | some (place, b) => do
      let (err, b) ← executeStream direct (w place) c.count c.lines
        (cliStream E parse source c.html c.filters reader.src) b
      pure (err.map .other, some (place, b))

/-- What is outside the program: the file system, what stdin delivers and its mode, the writers at the
possible destinations with their states, and the libraries. -/
structure World (ω : Type) where
  E : Env
  parse : HtmlParse
  snowball : Snowball
  fs : Fs
  stdin : Reader
  /-- `os.Stdin.Stat()` -/
  mode : Except Err Nat
  direct : Bool
  writer : Place → Writer ω
  under : Place → ω

/-- main.go:231, 233, 247-253: what reading from `os.Stdin` or from the opened file delivers. -/
def World.source {ω : Type} (W : World ω) (fs : Fs) : Place → Reader
  | .std => W.stdin
  | .file i => fs.content i

/-- main.go:35-48: the values of the flags `main` uses. -/
structure Flags where
  lang : Bytes := str "english"
  html : Bool := false
  filein : Bytes := []
  fileout : Bytes := []
  count : Bool := false
  lines : Bool := false
  version : Bool := false
deriving DecidableEq

/-- How the program ends. -/
inductive Exit where
  /-- main.go:52-57: exit code 0, version printed -/
  | version
  /-- main.go:74-77: exit code 0, usage printed -/
  | usage
  /-- main.go:23-29: exit code 1, error printed -/
  | failure (e : CliErr)
  /-- main.go:115: exit code 0 -/
  | success
deriving DecidableEq, Repr

/-- main.go:21-115 `main`, after the flags are parsed: how it ends, and the writer it made, if any, with
its place. What reading the input file delivers is taken from the file system after `setOutput`;
reading and writing alternate in `execute`, but what is written goes to another file, or to a file that
was empty when read. Printing of the version and the usage, and closing the files, are left out here; see
Verif/Model/Process.lean. -/
def cliMain {ω : Type} (W : World ω) (flags : Flags) (args : List Bytes) :
    Go (Exit × Option (Place × BufWriter ω)) :=
  if flags.version then Go.ret (.version, none)
  else
    let c : Config ω := { html := flags.html, count := flags.count, lines := flags.lines }
    match W.mode with
    | .error err => Go.ret (.failure (.other err), none)
    | .ok mode =>
      match setInput W.fs c mode flags.filein with
      | (some .noInput, _) => Go.ret (.usage, none)
      | (some err, _) => Go.ret (.failure err, none)
      | (none, c) =>
        match setFilters W.E W.snowball c args flags.lang with
        | (some err, _) => Go.ret (.failure err, none)
        | (none, c) =>
          match setOutput W.fs c flags.fileout with
          | (some err, _, _) => Go.ret (.failure err, none)
          | (none, c, fs) =>
            match setReader fs c with
            | (some err, _) => Go.ret (.failure err, none)
            | (none, c) =>
              match setWriter W.under c with
              | (some err, _) => Go.ret (.failure err, none)
              | (none, c) => do
                let (err, w) ← execute W.E W.parse (W.source fs) W.direct W.writer c
                match err with
                | some err => pure (.failure err, w)
                | none => pure (.success, w)

end Jargon
