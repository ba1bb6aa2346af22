# Formal model of clipperhouse/jargon in Lean 4

Everything is under `lean/Verif/`. The layers are:

| layer | directory | content |
|---|---|---|
| model | `Verif/Model/` | the Go code, function by function, each definition citing file and lines in /repo |
| specification | `Verif/Spec/` | small definitions that do not mention the model's helpers |
| proofs | `Verif/Proofs/` | helper lemmas |
| properties | `Verif/Props/` | the property theorems, with a non-vacuity `example` beside each |

Names: a theorem `Cnn_...` belongs to property Cnn. `_violated` proves that the property as stated is
false of the code, by a concrete witness. `_partial` proves a part of it; the full statement is kept
beside it as a definition `Cnn_full`, and the doc comment says what is missing.

## How Go is modelled

* **Outcome of a call.** `Go α := ExceptT Panic Option α`. `none` is a call that never returns,
  `some (error p)` is a panic, `some (ok a)` a return. Loops are written with `partial_fixpoint`, so
  there is no fuel and no bound: an infinite loop really is `none`.
* **Strings** are byte lists (`List UInt8`), not necessarily valid UTF-8. `for _, r := range s` is
  `runes s`, Go's decoder, which yields U+FFFD for each bad byte; writing runes is `encodeRune`. Both
  are proved right against Lean's own UTF-8 (C62).
* **`*Token`** is `Option Token`; tokens are immutable in the Go code (no method writes a field), so
  pointer identity is not modelled.
* **`*TokenStream`** is a hidden-state closure `σ → Go (Res × σ)` plus the two fields `token`, `err`.
  A filter owns its upstream, so its state contains the upstream's state; several views of one stream are in Model/Sharing.lean (C96).
* **`(*Token, error)`** is `Res`, both components optional and independent, as in Go.
* **Slices** are lists in the filters; the queue's slice aliasing is modelled separately with an
  explicit heap of backing arrays (`Model/QueueHeap.lean`) and proved to refine lists.
* **Maps** are association lists; iteration order is a permutation chosen by the environment.
* **Trie node pointers**: the trie is a tree without sharing, so a node's identity is its path from
  the root; `n != result` compares paths.
* **Goroutines** (C41, C42): a transition system in which one step is one access to shared memory;
  all schedules of any number of goroutines are considered. `sync.Once` is modelled from its source:
  an atomic flag, a mutex, and the flag set after the function has returned.
* **Tables.** The ASCII folding switch, the contraction table, the Stack Overflow tags and the NBA
  players are in the model entry by entry. Facts about them are computed by the kernel over the whole
  table (`decide +kernel`) and lifted to all strings or streams by lemmas. For speed, table strings are
  written as numbers by the macro `n!"..."`, whose expansion is what the kernel sees; `textOf` turns the
  number back into bytes. The macro is only a notation: theorems are about the expanded term.

## Trusted base

* Lean's kernel, and the axioms `propext`, `Classical.choice`, `Quot.sound` (per theorem: last section).
  No axiom of our own, no `sorry`, no `native_decide`, no `bv_decide`.
* That the model reads the Go source rightly. The code was not run; /repo was read as text. The tables
  were transcribed from /repo by a script, and the entry counts compared.
* The Lean specification of each property. Where a definition of the model appears in a statement
  (`mkToken`, `segTokens`, `stringTokens`), another property pins it down (C01, C03).

### Code modelled

token.go, punct.go, tokenizer.go, tokenizer_html.go, tokenstream.go, tokenqueue/queue.go,
filters/ascii, filters/contractions with its generator, filters/mapper, filters/nba,
filters/norm, filters/sigil, filters/stackoverflow, filters/stemmer, filters/stopwords,
filters/synonyms and its trie, filters/twitter, cmd/jargon/main.go, web/main.go, and the generators of filters/nba, filters/stackoverflow and filters/contractions.
Also `bufio.Scanner` and `strings.Reader` of the standard library (Model/Scanner.lean), because every reader
given to `Tokenize` goes through them.

### Code not modelled

The network access of the generators, the listening of the web server, tests and benchmarks, and what the
standard library or third-party packages do inside, except where a parameter below is said to be exact.
Memory and time are only modelled as far as C50, C82, C83, C91, C106, C109 and C116 say.

### The repository's own tests

`Verif/RepoTests.lean` runs the tests of the repository on the model, with the word rules of UAX #29 as the
scanner and the reader of HTML of Model/HtmlReader.lean; it fails to build if one of them fails. Left out are the
test of the stemmer, which is a test of snowball, the tests without a check (nba, sigil, twitter) and the
benchmarks. `Verif/HtmlTests.lean` does the same with texts like those in the tests of golang.org/x/net/html, and
`Verif/StdTests.lean` with tests of the standard library, as far as its functions are modelled, and
`Verif/UaxTests.lean` with lines like those of WordBreakTest.txt of Unicode. This is about the
model's faithfulness; no theorem depends on it.

### Third-party and standard library code

Theorems quantify over every value of these parameters, under laws that are explicit hypotheses:

* `Unicode`: `unicode.IsPunct/IsLetter/IsNumber/ToLower`, arbitrary. `unicode.IsSpace` is modelled
  exactly. Laws where needed: `LowersAscii`, `LowersLatin` (right on ASCII or Latin letters),
  `PlainNotPunct` (ASCII letters and digits are not punctuation).
* The uax29 word scanner: any function from what a reader delivers to segments and a final error.
  `Env.Lawful`: segments are not empty; without error they concatenate to the input; with an error
  they concatenate to an initial part of it. `CutsCommas` (tables only): the table's key is scanned
  without error, not cut inside a rune, and commas are segments of their own.
  `Env.FollowsUax29 cls` (C58, C65, C76 to C80): on texts of less than 64 KiB, and
  on texts of any size of which each word fits into 64 KiB with the next one (`Fits`), the segments are those of
  the word boundary rules of Unicode Standard Annex #29, written down in Spec/WordBreak.lean, for property
  tables `cls`. Of the tables: `WordTable.Right` (Latin letters, the apostrophe, ideographs, the carriage
  return), `SpacesRight`; `PunctLatin`: `unicode.IsPunct` is right on Latin characters. C76 derives the
  other laws of the scanner from these, and all of them from the model of `bufio.Scanner` if the split function
  splits words (`SplitFunc.SplitsWords`: at the end of the data it finds the first word of UAX #29, more data does
  not change an answer, and it answers once the next word and four bytes are there).
* The x/net/html tokenizer: any sequence of HTML tokens followed by an error or EOF; text tokens are
  not empty (`TextNonempty`). `html.Token.String` and its escaping are modelled as in the version of go.mod.
  Where documents are read from bytes (C81, C85, C86, C95, C97 to C101), the reader is that of
  Model/HtmlReader.lean, which covers line ends, NUL bytes, character references, comments, doctypes and raw text.
  Its source is not in /repo: it follows the HTML standard and what is known of that version. The tables of
  character references and details of malformed tags are parameters (`HtmlReader`): theorems hold for all of
  them, refutations use `sampleReader`. Simplified: text followed by `</` at the very end of the input is one
  token instead of two.
* Snowball stemmers: arbitrary functions; where non-empty tokens matter, a stem of a non-empty word is
  not empty. x/text normalization: `NormForm.Lawful`.
* `io.Writer`: any writer that takes at most all bytes, and none of them only with an error
  (`Writer.Lawful`, weaker than the documented contract). `bufio.Writer` is modelled from its source, with its buffer.
* The flag package (github.com/clipperhouse/flag is not in /repo): modelled like the standard `flag`
  package, with the one behaviour main.go relies on.
* The file system (afero): files have identities; `Open` and `Create` are functions of the path;
  `Create` truncates.
* `strconv.IsPrint`: control characters and U+FEFF are not printable (`PrintLaws`). `format.Source`
  (`FormatLaws`): it accepts a file like the generated ones and returns one that declares the same table,
  and does not accept a line break in a string literal. `os.Create` and `Write` of the generators may fail.
* `html/template` in the contexts used by the web page: text content escaping; `net/http` mux: exact
  and subtree patterns.

## Per property

`Emits next s toks end` says: calling `next` from state `s` delivers exactly `toks` and then ends by
`end` (EOF, which is then repeated for ever, or an error). `ts.Yields toks end` is the same for a stream.
Most filters are proved to be *list functions*: whatever the upstream is, if it yields `toks` then the
filter yields the specified function of `toks`. The theorem names are in MANIFEST.json.

| id | property | status | modelled | how it is proved |
|---|---|---|---|---|
| C01 | NewToken classifies exactly by the runes of the string | proved | `newToken`, the cache of punct.go, the CRLF case | case analysis; the cache by computation over its finite table |
| C02 | Next, Scan, Token and Err are one iterator | proved | `TS.next/scan/token/err`, sequences of calls | induction over the calls, refinement to a cursor |
| C03 | Tokenize round-trips the text | proved | tokenizer over any lawful scanner | induction over segments |
| C04 | A read error is reported after the tokens that precede it and never as a normal end | proved | tokenizer and all consumers | induction over the tokens |
| C05 | Where keeps exactly the matching tokens | proved | `where` with a stateful predicate | `Emits` refinement, then list facts |
| C06 | Words and Lemmas select by the token flags | proved | `Words`, `Lemmas` | instances of C05 |
| C07 | Distinct keeps the first token of each value | proved | `Distinct` | `Emits` refinement with the set of values seen as invariant |
| C08 | The consumers agree with each other | proved | ToSlice, String, Count, WriteTo, ForEach | induction over the tokens |
| C09 | WriteTo writes the same bytes String returns and counts them | proved | `WriteTo` with any writer | induction over the tokens, the writer's log as ghost state |
| C10 | Filter applies filters left to right | proved | `Filter`; all built-in filters (`Builtin`) | induction over the list of filters |
| C11 | Every built-in filter forwards an upstream error and ends only when upstream ends | proved | all built-in filters | corollary of the refinement theorems |
| C12 | End of stream is sticky through every filter | proved | all built-in filters | corollary of the refinement theorems; quiet states |
| C13 | No built-in filter panics or reports an internal inconsistency | proved | all built-in filters, panics and internal errors included in the model | corollary of the refinement theorems |
| C14 | TokenQueue is a FIFO queue | proved | TokenQueue over a heap of arrays, any growth policy; the list queues of the filter models | refinement to lists with a separation invariant |
| C15 | Moving tokens between queues conserves them | proved | PopTo, FlushTo | from the refinement of C14 |
| C16 | A mapper filter is one-to-one | proved | mapper | `Emits` refinement |
| C17 | ASCII folding leaves ASCII text alone and always produces text | proved | `FoldString` with the whole switch | table facts by kernel computation, lifted by induction over the runes |
| C18 | ASCII folding is complete and idempotent | partial | `FoldString` | as C17; refuted for two characters |
| C19 | The ascii.Fold filter changes only what folds | proved | `ascii.Fold` | instance of C16 |
| C20 | Stemmers only touch words, and only when the stem differs | proved | stemmer filters | instance of C16 |
| C21 | Unicode normalization filters deliver normalized tokens and are idempotent | proved | norm filters | instance of C16 |
| C22 | stopwords removes exactly the stop words | proved | stopwords | `Emits` refinement |
| C23 | Contractions are expanded in place and nothing else changes | proved | contractions, any table; also expansions that do not scan | loop invariant relating queue and rest |
| C24 | The contraction table handles every case and apostrophe variant consistently | proved | the contraction table and its generator | kernel computation over the table; permutation invariance of the generator |
| C25 | Expanding contractions twice is expanding once | proved | contractions, shipped table | from C23 and table facts |
| C26 | Tokens produced or changed by a filter are lemmas | partial | all filters | per filter; refuted for contractions |
| C27 | Sigil filters never change the text | proved | sigil | `Emits` refinement |
| C28 | A sigil merges with the following token only at a word boundary and only if legal | partial | sigil | refinement to a scan over the list; refuted after a failed look-ahead |
| C29 | Twitter handle and hashtag legality | proved | twitter filters and legality functions | case analysis, induction over the runes and over the tokens |
| C30 | Trie search is longest-match lookup of the normalized text | proved | the trie | refinement to a finite map; longest prefix |
| C31 | The synonyms filter is leftmost greedy replacement | proved | synonyms filter: fill, wordrun, loop | loop invariant relating buffer, outgoing and rest to declarative greedy replacement; uniqueness of its outcome |
| C32 | Synonym replacement never crosses punctuation and only replaces word-initial spans | proved | synonyms filter; also texts in parts | from C31 by induction over greedy replacement |
| C33 | Without matching synonyms the filter is the identity | proved | synonyms filter | from C31 |
| C34 | Synonym matching is insensitive to case and to ignored characters | proved | the trie | from C30 |
| C35 | Every synonym in the text is recognised | proved | synonyms filter | from C31 |
| C36 | A synonym mapped to the empty string is deleted | proved | synonyms filter | from C31 |
| C37 | Comma-separated synonyms are split as documented | proved | `build` | induction over the tokens of a key; uniqueness of the pieces |
| C38 | A synonyms filter does not depend on map iteration order | proved | `build` in any map order | permutation invariance of the dictionary |
| C39 | The shipped Stack Overflow and NBA tables are unambiguous | proved | the Stack Overflow and NBA tables | certificate trees checked by the kernel, lifted to every segmenter |
| C40 | Filters are lazy | partial | all filters over a counting upstream | step counts; coinduction-free characterisation of endless streams; refuted for synonyms |
| C41 | A synonyms filter can be shared by concurrent goroutines | proved | `sync.Once`, the filter's fields, all schedules | invariant over reachable states |
| C42 | A failed dictionary build is reported on every use | partial | as C41, failing build | invariant; refuted by a schedule |
| C43 | HTML tags and comments are kept whole | proved | html tokenizer | `Emits` refinement |
| C44 | Text after a script or style element is tokenized again | partial | html tokenizer | refinement; refuted by a document |
| C45 | HTML tokenization preserves the text | partial | html tokenizer, `html.Token.String` | refinement; bytewise escaping by induction; refuted by a text |
| C46 | HTML end of input and errors are told apart | proved | html tokenizer | refinement |
| C47 | CLI input selection | proved | `setInput` | case analysis against a decision table |
| C48 | CLI filters are applied in command-line order | proved | `setFilters` | induction over the arguments |
| C49 | CLI output is the filtered text | proved | `execute`, bufio.Writer, the whole program | buffer invariant over the stream; composition with C10 |
| C50 | CLI buffers are bounded | proved | `setReader`, `setWriter` | arithmetic |
| C51 | The web handler escapes all user text | proved | web handler and template | escaping proved against an independent HTML reader, by induction over the bytes |
| C52 | Tokens are always non-empty through every pipeline | proved | all filters | per filter, then induction over the pipeline |
| C53 | ASCII folding respects letter case | partial | folding table, Unicode case pairs | kernel computation over all pairs; lifted to strings; refuted for three |
| C54 | Full-width and circled forms fold to the character they are a form of | partial | folding table | kernel computation over the ranges; refuted for two |
| C55 | Folding strips diacritics | partial | folding table, Unicode decompositions | kernel computation over all; refuted for two |
| C56 | Every canonical of a shipped table is a synonym of itself | proved | the shipped tables | certificate trees; C31 |
| C57 | Tagging is idempotent | partial | `Tags` | C31, C39, C56; refuted by a text |
| C58 | Every listed synonym is recognised | partial | `Tags`, any synonyms filter | C31, C39; refuted by a listed synonym |
| C59 | Every filter flag that is set is applied | partial | flag parsing and `setFilters` | induction over the arguments; refuted in both directions |
| C60 | On an input error, what was read before is still written | partial | `execute` | buffer invariant; refuted by a stream |
| C61 | The output is that of the input as it was | partial | the whole program with a file system | C49; refuted by equal paths |
| C62 | Text is read and written as UTF-8 | proved | `runes`, `encodeRune` | case analysis by length with arithmetic, induction over the string |
| C63 | The folding table is Lucene's | partial | folding table, Lucene's switch | kernel computation over all of both; refuted for one character |
| C64 | The NBA generator turns every name of the roster into an entry | proved | the NBA generator | induction over the lines; kernel computation over the shipped table |
| C65 | Players are recognised insensitive to spaces, dots, dashes, apostrophes, case and diacritics | partial | `CurrentPlayers` | C31, C39; refuted by two names |
| C66 | The Stack Overflow generator lists every tag and synonym, and nothing else | partial | the Stack Overflow generator | invariant over the pages, with lemmas for the two loops; refuted for one word |
| C67 | The Stack Overflow generator lists no term for two tags | partial | the Stack Overflow generator | the same invariant; refuted by two pages |
| C68 | The shipped Stack Overflow table is the generator's | proved | the Stack Overflow generator and table | kernel computation over the table with hints, lifted through the invariant of C66 |
| C69 | The generators never leave a file with a wrong table | proved | strconv.Quote, %#v of maps, the breaking of lines, write and main of the generators | simulation of the scanner on the text before and after each replacement; induction over the string for Quote |
| C70 | The generators can write every table | partial | the same | the same simulation, which also tells the literal that was broken; for the exact version, where replacements start and that none reaches over the site; refuted by kernel computation |
| C71 | The generated file does not depend on the order of the map | proved | the same | uniqueness of sorted permutations |
| C72 | The generators reproduce the shipped files | proved | the three generators and tables | from C24, C64, C68 and C70, kernel computation over the tables |
| C73 | Filters deliver what precedes an error | partial | all filters over failing streams | induction over the pipeline from the failure lemmas of each filter; refuted by concrete streams |
| C74 | Applying a sigil filter twice changes nothing | proved | sigil, twitter | induction over the tokens on the list form of the filter |
| C75 | The order of Handles and Hashtags does not matter | partial | sigil, twitter | both orders equal one scan over the list; refuted by a concrete list |
| C76 | The word rules of UAX #29 give what is assumed of the scanner | proved | uax29 word rules as a spec of the scanner | induction over the text; the tables are checked by the kernel |
| C77 | Contractions are expanded in running text | proved | `Expand` on tokenized text | locality of the word rules (no rule reaches over a separator), C23 |
| C78 | Handles and hashtags are recognised in running text | partial | `Handles`, `Hashtags` on tokenized text | locality of the word rules, C28; refuted by two texts |
| C79 | Listed synonyms are replaced in running text | proved | `Tags`, `CurrentPlayers` on tokenized text | locality of the word rules, C58, C65, and splitting of greedy replacement (C32) |
| C80 | Tags is insensitive to case, spaces, hyphens, dots and forward slashes | partial | `Tags` on tokenized text | C31, C58, the word limit of the table computed exactly; refuted by three texts |
| C81 | HTML tags and comments are left verbatim | partial | reader of HTML as a state machine over bytes, with line ends, NUL bytes and character references (Model/HtmlReader.lean) | simulation of the reader on rendered tokens, and an invariant of the reader over all byte strings; refuted by a text |
| C82 | Filters keep a bounded number of tokens | partial | what is kept between calls, as a function of the state of the filter (Spec/Cost.lean) | invariant over all reachable states; refuted by a stream of spaces of any length |
| C83 | The work of the queues is linear | partial | Drop as a copy within a slice on a heap; moves added up over calls (Spec/Cost.lean) | moves of each call, summed by induction over the tokens delivered |
| C84 | The examples of the documentation hold wherever they stand | partial | the words of a text cut by the rules of UAX #29; MakesOf in Props/Readme.lean | greedy replacement of a text set apart (C79_apart); table rows looked up in the kernel |
| C85 | Scripts and style sheets are kept | partial | reader of HTML with raw-text elements (Model/HtmlReader.lean) | simulation of the reader on rendered tokens (Proofs/HtmlRaw.lean); refuted by a document |
| C86 | The command of the README lists the tags named in a page | partial | the whole program with its arguments parsed (Model/Flag.lean); Finds, pageTexts and Prints in Props/CliTags.lean | C49 with greedy replacement in the tokens of a page, by induction over the HTML tokens; refuted by a page |
| C87 | A synonyms filter is printed as a declaration of it | partial | Decl and the String methods of the trie (Model/Decl.lean); lexical rules, composite literals, their types and values (Spec/GoLiteral.lean, Spec/Decl.lean) | the lexer run over the printed text by induction on the trie; for the converse, an unsafe rune stops the lexer; keys of the Stack Overflow table checked in the kernel |
| C88 | A queue is printed without loss of its texts | proved | String of a queue (Model/Decl.lean); lexical rules of Go (Spec/GoSource.lean) | the lexer run over the printed text; its tokens determine the texts |
| C89 | How a reader cuts its data does not matter | partial | bufio.Scanner, io.Reader, strings.Reader (Model/Scanner.lean); readers, split functions and the cut of a whole text (Spec/Scanner.lean) | invariant of the buffer: what it holds and what is still to be read are the rest of the text; split functions are steady |
| C90 | A text of any size is tokenized | partial | as C89; words of UAX #29 (Spec/WordBreak.lean) | words can be cut one after the other (Proofs/WordStream.lean): the first word is known once the next one and four bytes are seen |
| C91 | The tokenizer is never far ahead of its tokens | proved | as C89, for any reader | induction on the size of the buffer and the room in it, no assumption on the reader |
| C92 | An error of the tokenizer is final | partial | as C89 | as C89; for the violation, the state after the error |
| C93 | An error is final through every filter | partial | all filters and tokenizers; failing for good (Spec/Sticky.lean) speaks of calls of Next only | coinduction on the states after the error; for synonyms the state of buffer and queue at the error (Proofs/Sticky.lean) |
| C94 | Selecting filters can be swapped, repeated and merged | partial | Words, Lemmas, Distinct, stopwords and Where by text, on any stream of tokens that NewToken makes | filters of lists; first occurrences commute with a choice that depends on the text only (Props/Order.lean) |
| C95 | -count is the number of lines of -lines | partial | the whole program run twice, with the flags -html and any filter flags; the stemmer is arbitrary, but makes no line feeds | the outputs by C49; lines counted; no word with a line feed is longer than CR LF, no fold, synonym or expansion makes one (Proofs/LineFeeds.lean, Props/Lines.lean) |
| C96 | Views of one stream share its tokens | partial | Model/Sharing.lean: one stream, and for each view the predicate and the map of Distinct; any order of calls | each call drops what its view does not want from the tokens not yet read (Props/Sharing.lean) |
| C97 | A text may be filtered line by line | partial | the whole program, run on a text and on each of its lines | a text is cut after each line feed (the annex restarts there); filters that look at one token at a time distribute over ++; the greedy runs of the tags filter cannot cross a line feed (Props/LineByLine.lean) |
| C98 | The program leaves its own output as it is | partial | the whole program, run on a text and then on its output | replacing words by texts that begin and end with letters leaves the other boundaries (Proofs/WordReplace.lean); folded words have no rune left that is folded, and are decoded as they are wherever they stand (Props/Rerun.lean) |
| C99 | No comment or text of a document becomes a tag | partial | reader of HTML (Model/HtmlReader.lean); when a comment can be written as it is (Kept in Spec/Html.lean) | simulation of the reader on rendered tokens, for comments by counting dashes (Proofs/HtmlRead.lean); refuted by documents |
| C100 | Filters leave the markup of a page alone | partial | the program with -html; reader of HTML (Model/HtmlReader.lean); the markup of a list of HTML tokens (markup in Proofs/HtmlFill.lean) | a page is a list of parts, markup and texts; each filter maps texts to texts without the characters of HTML and keeps markup (flag_parts); reading anything filled into the texts gives the same markup (filled_markup); refuted by pages |
| C101 | A filter does the same to a text in a page as to the text by itself | partial | as C100 | the page with its texts replaced is read back (retext_made, htmlTokens_render); refuted by a page |
| C102 | The arguments mean what they should, and refused ones change nothing | proved | flag.Parse for the declared flags (Model/Flag.lean), main (Model/Cli.lean) | a grammar of arguments as an inductive relation, equal to the parser (induction over the arguments); non-interference with the creation of files |
| C103 | The page of the web demo shows the text, with the tags in it marked | proved | the web handler (Model/Web.lean), html/template's escaper, the HTML tokenizer (Model/HtmlReader.lean) | the mentions in a text as an inductive relation with unique result; induction over greedy replacement; resolving references undoes escaping, up to line ends and NUL |
| C104 | No answer of the web demo is labelled as HTML | proved | net/http DetectContentType for HTML and XML (Model/Sniff.lean) | what is written begins with <span or with no tag; a check of all signatures |
| C105 | Tags are listed once each, and counted | proved | jargonMain with -lines and -count (Model/Cli.lean), tags, Distinct, Lemmas | no token left by greedy replacement has the text of a canonical, by C56 over the whole table; C94_distinct_lemmas; C95_outputs |
| C106 | Searching for synonyms takes linear time | proved | synLoop, fill, wordrun (Model/Synonyms.lean), with the rounds listed | amortised: a buffered token is weighed by the number of words before it, at most the word limit, and each round takes a word out; fill never buffers more words than the limit (fixpoint induction) |
| C107 | A token's flags say what its text is | partial | tokenize, tokenizeHTML, all filters (Builtin) | any predicate that holds of NewToken's tokens and of a filter's input holds of its output (Builtin.each), by cases on the filter, and so of pipelines |
| C108 | The filters of the library work line by line | proved | tokenize with the word break rules, all filters (Builtin) | induction on lines; no synonym goes across punctuation (greedy_stop) and no sigil across a token that is neither word nor legal (sigil_stop, which uses C107's invariant); the other filters are flatMaps |
| C109 | The dictionary of a synonyms filter is as small as a trie can be | proved | build, RuneTrie.add, the nodes' children | no node has two children for a rune (kept by setChild); adding a synonym adds its beginnings (induction on its runes); counting by Nodup and inclusion |
| C110 | What a filter has delivered does not depend on what is still to come | proved | all filters (Builtin), over any stream | a simulation: if one stream answers as another does up to the first error, so does any filter over it (Mir, Sim: one lemma per filter, fixpoint induction for the loops); a stream that begins with tokens is simulated by a list of them that fails |
| C111 | The exit code and stderr tell whether the output is complete | partial | runProcess (jargonMain with check, printUsage, the version and closing) | by cases on how jargonMain ends (C49_program, C102) |
| C112 | The program writes while it reads | proved | execute, bufio.Writer, cliMain | induction on the tokens read, with the invariant of the buffer (BufInv) and any property of the writer that writing keeps; the statement quantifies over the streams inside, so that nothing depends on what follows |
| C113 | Entries of a mapping that do not occur in the text make no difference | partial | synonyms (filter and trie) | from C31: greedy replacement depends on the dictionary only at runs of the text, and on the word limit only if a synonym is spelled beyond it |
| C114 | A page may be tokenized in parts, cut after a tag | partial | htmlTokens, tokenizeHTML | by cases on the states of the HTML reader: a byte that completes a tag leaves it in its first state; then induction over the tokens of the first part |
| C115 | The order of two synonyms filters does not matter | partial | synonyms, tags, currentPlayers with the shipped tables | induction over the pieces, with C31 and C32 (no synonym reaches across punctuation) |
| C116 | What comes out is linear in what goes in | proved | all filters of the library (Builtin), the shipped tables | case analysis over the filters, then induction over the pipeline; table lengths by decide +kernel over the whole table |
| C117 | Recognised handles and hashtags are left alone by Tags and CurrentPlayers | partial | synonyms, tags, currentPlayers, hashtags with the shipped tables | a lemma on tokens that are part of no synonym; the signs in the tables by decide +kernel over the whole tables |
| C118 | Repeating Tags or CurrentPlayers settles | proved | synonyms, tags, currentPlayers with the shipped tables | a pass after the first either merges tokens or changes nothing; induction on the number of tokens |
| C119 | One synonyms filter with two mappings is the two filters one after the other | partial | synonyms | the dictionary of the merged mapping agrees with one of the two in every piece |
| C120 | The order of ASCII folding and expanding contractions does not matter | partial | asciiFold, expand with the shipped tables | token by token; the apostrophes of the table by decide +kernel over the whole table; the converse by counting characters, as every expansion is longer than its contraction |
| C121 | The words of a text may be selected before or after a synonyms filter | partial | TokenStream.words, synonyms, tags, currentPlayers | induction over leftmost greedy replacement: the prefix with a given number of words is the same candidate with and without the space in it |
| C122 | Stop words may be removed before or after a synonyms filter | partial | stopwords, TokenStream.where, synonyms | induction over leftmost greedy replacement: the candidates that spell a synonym are the same before and after |
| C123 | A filter of single tokens may come before or after a synonyms filter | partial | asciiFold, stemmer, normFilter (mapper), synonyms, tags | induction over leftmost greedy replacement: the same candidates are admissible and spell the same synonyms; canonicals by decide +kernel over the whole table |
| C124 | A text without tags has the same tokens as HTML | partial | tokenize, tokenizeHTML, htmlTokens | an escaped text is read as one text and written back as it was; conversely a tag is a token that counts as punctuation and begins with <, which no token of a text is |
| C125 | Folding may come before or after Handles and Hashtags | partial | asciiFold, handles, hashtags, sigil | induction over what a sigil filter does, with the change made first; a mark before a text is not in the way of folding it; a legal handle is ASCII |
| C126 | Repetitions may be left out early | partial | TokenStream.distinct, asciiFold, normFilter, stemmer, stopwords, expandWith, TokenStream.words, handles, currentPlayers | the first tokens of each text of a concatenation are those of the first part and those of the second with other texts; what a left out token becomes has only texts that were there before |
| C127 | Accents are folded however they are written | partial | foldString, asciiFold, normFilter | the 112 combining marks and the 489 accented letters are looked up in the table by the kernel; lifted to texts rune by rune |
| C128 | Contractions may be expanded before or after synonyms | partial | synonyms filter, expand, currentPlayers | for any filter that puts tokens for each token by itself: induction on the text, from the first token that is expanded; the players' names are checked not to be contractions by the kernel |
| C129 | Contractions may be expanded before or after Handles and Hashtags | partial | sigil, handles, hashtags, expand | for any filter that puts tokens for each token by itself: induction along the sigil filter; that no contraction or expansion contains a mark, and that expansions end in a letter, is checked by the kernel |
| C130 | Filters that look at one token at a time treat each token alone | proved | stemmer, normFilter, asciiFold, stopwords, expand, where, words, lemmas, filter | each filter puts some tokens for each token; these compose, by induction on the pipeline. What is made of a token is said with a stream of that token only, not with the helper functions |
| C131 | A synonyms filter may come before or after Handles and Hashtags | partial | synonyms filter, sigil, tags, currentPlayers, handles, hashtags | induction on the length of the text along the greedy specification: the sigil filter changes nothing in a synonym and nothing just after it, and a marked word is in no synonym; for Tags and CurrentPlayers that no synonym contains the mark and that every canonical is a word is checked by the kernel over the whole tables |
| C132 | Tokens may be selected before or after Handles and Hashtags | partial | stopwords, where_, words, sigil, handles, hashtags | for any selection: induction along the sigil filter; before a token that is no mark the sigil filter does not look back |
| C133 | Stop words may be removed before or after contractions are expanded | partial | stopwords, where_, words, expand | list algebra (filter of flatMap) over what the two filters yield; one-token texts show that the condition is needed |
| C134 | Valid UTF-8 stays valid | proved | all filters, tokenize, tokenizeHTML, htmlEscape, the tables | validity is Lean's own (String.toUTF8); each filter keeps it; the word rules cut between runes; the tables are checked by the kernel; the HTML reader is followed byte by byte with the part of a character it has read (ValidPage.lean) |
| C135 | No text vanishes | proved | all filters that replace, cliMain, the tables | number of words against number of tokens, along the greedy replacement and the sigil filter; the tables are checked by the kernel |
| C136 | It makes no difference how lines are ended | proved | tokenize with the word rules of UAX #29, all filters | a line end is a word of its own by WB3-WB3b; each filter passes it after any tokens and does to them what it does without it; line by line with C108 |
| C137 | A byte-order mark at the start of a text makes no difference | partial | tokenize with the word rules of UAX #29, all filters, the program | the mark, a format character, is a word of its own at the start of a text, as nothing before it is left to join to; filters that look at one token at a time are flatMaps; no synonym of the shipped tables has a rune above U+017F, so that no run has the mark in it |
| C138 | A line end at the end of a text makes no difference | proved | tokenize with the word rules of UAX #29, all filters, the program | each filter passes a line end after any tokens (from C136) or selects by the token alone; Distinct by firsts_append; induction on the pipeline |
| C139 | Brackets around a text make no difference | proved | tokenize with the word rules of UAX #29, all filters, the program | brackets are of the class Other, so words of their own; as punctuation they end runs of synonyms and are a boundary for sigils; filters that look at one token at a time are flatMaps; induction on the pipeline |
| C140 | It makes no difference where the input comes from and where the output goes | proved | the whole program in any two worlds (file system, terminal or pipe, writers) | the stream of tokens depends on the text and the filters alone; C49 gives the output and the exit code from it for every buffer size |
| C141 | An element around a page makes no difference | proved | TokenizeHTML on the events of the HTML tokenizer, with the state that a script or style tag leaves; the filters; the whole program on bytes with the HTML reader of C114 | one filter at a time: those that work token by token by what they make of the two tags, sigil filters and synonyms filters because a tag is punctuation; for bytes the reader is cut after the tags (C114) |
| C142 | It makes no difference how many spaces are between two words | proved | the word rules of UAX #29 (WB3d among them) for the tokenizer, all filters, and the whole program | spaces are one token, apart from what precedes and follows; then one filter at a time, with a relation of token lists that are equal but for tokens of spaces, which greedy replacement, sigil filters and filters of single tokens all respect |
| C143 | A page may be filtered in parts, cut after a tag | proved | the tokenizer for HTML, the reader of the HTML syntax (for the program), all filters, and the whole program | a tag is a token of punctuation that ends every search for a phrase (greedy_stop) and every sigil (sigil_stop), so that each filter splits after it and leaves it where it is; then induction on the list of filters, with the invariant that every token has the right flags or is punctuation |
| C144 | A comment after a tag makes no difference to the rest of a page | proved | the tokenizer for HTML, the reader of the HTML syntax (for the program), all filters, and the whole program | C143 twice, before and after the comment, and that every filter leaves the comment by itself alone; for the program, that a comment that can be written as it is (CommentKept) is read back as one token (run_token) |

## Disagreements found

Properties that are false of the code as it is, each proved by a witness in Lean:

* **C18** `ascii.FoldString`: the case for U+2053 and U+FF5E writes `~` without `folded = true`, so "～" alone is not folded.
* **C26** `contractions.Expand`: the expanded tokens are not lemmas; `Lemmas()` after it drops them.
* **C28** sigil filters: after a look-ahead that is not legal, the next sigil is merged although a word precedes it: "@日本@bob" gives "@日本", "@bob"; similarly "@@bob".
* **C40** synonyms: the first `Next` reads the whole incoming stream. On an endless stream it never answers; on an error none of the tokens before the error are delivered.
* **C42** synonyms: if building fails, only the stream made by the first call reports the error; every later stream panics (nil trie).
* **C44** HTML: after a script or style element all later text is one raw token per text node; the end tag does not reset the parent.
* **C45** HTML: text is rendered by `Token.String`, which escapes it again; `a<b` becomes `a&lt;b`.
* **C53, C54, C55** folding table: U+01E5 and U+01E7 fold to a capital G; U+A784 and U+A785 are interchanged; U+FF40, U+FF5C and U+212B are missing. (Also U+1E9B, long s with dot above, folds to `f`; not stated in Lean.)
* **C57** `stackoverflow.Tags` is not idempotent: "java applets" → "java applet" → "applet".
* **C58** synonyms with punctuation are listed but not recognised: ".net" becomes "..net", and "c#" becomes the lemma "c" and the token "#" (the repository's test passes because both print the same). With the word rules of UAX #29 it is exactly the 45 texts `soLost` of 4,079 (Proofs/LostTexts.lean).
* **C59** command line: `--stem` and `-stem=true` are accepted but no filter is applied; `-file -stem` applies the stemmer; so does `-stem` after `--` or after an argument that is no flag, where the flag package has stopped.
* **C60** command line: on a read error the buffered output is lost.
* **C61** command line: if `-out` names the input file, it is truncated before it is read, and success is reported.
* **C63** folding table: U+02A8 (ʨ) folds to `tr`; Lucene, which it is ported from, has `tc`.
* **C65** `nba.CurrentPlayers`: documented as insensitive to dashes and diacritics, but "Al-Farouq Aminu" is not recognised, nor "Ante Žižic". Of the 530 names as listed, exactly the 30 in `nbaLost` are not recognised.
* **C66** Stack Overflow generator: the entry "drop-down" of `ignore` has no effect on the tag of that name.
* **C67** Stack Overflow generator: a tag that is a synonym of a tag on a later page is listed for both, so the table would be ambiguous (C38).
* **C70** generators: a table with a string that ends in `{`, begins with `}` or contains `"}` (among others) cannot be written; the generator reports a syntax error.
* **C73** when upstream fails, the synonyms filter (Tags, Players, Synonyms) delivers none of the tokens it had already gathered, and a sigil filter drops a sigil directly before the error. The error itself is reported (C11).
* **C75** for "#@x#y" the order of Handles and Hashtags matters.
* **C78** "@bob's" is cut into "@" and "bob's", so the handle is not recognised; "#日本" becomes "#日" and "本".
* **C80** `stackoverflow.Tags`: documented as insensitive to hyphens and slashes, but "node-js" and "node/js" are not recognised, as these are punctuation tokens.
* **C81** `TokenizeHTML`: documented to leave tags and comments verbatim, but they are written anew from the parsed token: `<P>` becomes `<p>`, `<a href=x>` becomes `<a href="x">`. What is kept is the meaning (`C81_reads_back`), if comments can be written as they are (C99).
* **C82** README.md:90 says "constant memory, regardless of input size". The synonyms filter (so also `stackoverflow.Tags` and `nba.Players`) reads the whole stream in its first `Next` and queues all of the output. `Distinct` remembers every text it delivered.
* **C83** README.md:92 says "O(n)". `TokenQueue.Drop` copies the rest of the queue, and the synonyms filter has the whole output in it: delivering n tokens moves n(n-1)/2.
* **C84** filters/contractions/README.md:7 says "don't → does not"; the table has "do not". Its flag `-cont` (lines 15-18) is not declared; it is `-contractions`.
* **C85** `TokenizeHTML` returns the contents of `script` and `style` elements "as one big string", but escaped: `if (a<b)` becomes `if (a&lt;b)`, and is read so by a browser. What is documented is that "text can be reconstructed with fidelity".
* **C86** README.md:30: `jargon -html -stack -lemmas -lines` on a page with a script or style element. After its start tag every text is one token (C44), so the page `<script></script><p>We use (Ruby on Rails).</p>` gives no output. Most pages of today have such elements in their head.
* **C87** `Decl` of a synonyms filter: the "Go source declaration" never compiles. The type is `synonyms.filter`, the fields are `trie`, `maxWords`, `root` and so on, but the text has them with capitals. Runes are printed without escapes: the NBA filter, which ignores the apostrophe, prints `''': true,`.
* **C89** The same text, ending in a word of exactly 64 KiB, is tokenized if its reader returns the end with the last data, and fails with "token too long" if it returns the end after it.
* **C90** A word of more than 64 KiB (a base64 blob, say) ends the stream with "token too long": nothing after it is tokenized. README.md:90 says "regardless of input size".
* **C92** After "token too long", a further call of `Next` returns a token without an error: the first 64 KiB of the long word, as if it ended there. Code that only logs an error and goes on gets a wrong token.
* **C93** After an error of its input, a synonyms filter does not go on reporting it. Either the next calls deliver, without error, all the tokens that were held back when the error came (always so if no synonym has two words); or every further call returns "expected buffer to be empty", an error that is meant to be impossible.
* **C94** Distinct and Lemmas do not commute: in "cafe café" with ASCII folding, `-distinct -lemmas` finds nothing and `-lemmas -distinct` finds "cafe".
* **C95** Tokens may be or have line feeds, so `-lines` can write more lines than `-count` counts; with `-html -ascii -lemmas` even a tag with a line feed in an attribute is a lemma. And though the usage text says that `-lines` adds a line break *between* tokens, it adds one after each, the last too (C95_outputs).
* **C96** Streams made by `Words`, `Lemmas`, `Where` or `Distinct` of one stream take each other's tokens; what one passes over is lost for the others too.
* **C97** `-distinct` looks across lines, as it should; and `-lemmas -stack` finds tags across lines, since `-lemmas` removes the line feeds that keep `-stack` from it.
* **C98** `-distinct`, `-stack` and `-ascii` with `-contractions` in either order do not leave their own output as it is: run again they change it once more.
* **C99** `TokenizeHTML` can make a tag of a comment: `<!--&gt;<b>-->` becomes `<!--><b>-->`. The comment's character references are resolved by x/net/html at the version in go.mod, and `Token.String` does not escape them again. With scripts in place of `<b>` this is an injection, if the result is used as HTML. An upgrade of the package would mend it.
* **C100** `jargon -html -ascii` can make tags: U+FF1C and U+FF1E are folded to `<` and `>` after the text has been escaped, so a page's harmless text can become a script. It also changes attribute values (`title="é"`, and links).
* **C101** `jargon -html -contractions` leaves all contractions with an apostrophe alone: they reach the filter as `don&#39;t`. So the flag has hardly any effect on pages.
* **C107** The tokens for tags, comments and doctypes are punctuation whatever is in them, and a text in a script or style element (or after one) is never white space or punctuation. `Words()` of a page so delivers scripts, blanks and all, as words.
* **C111** `jargon -out file` ends with code 0 even if closing the file fails (main.go:95-97 drops the error), so output that the system could not store after all is lost without a word.
* **C113** Whether "node js" is taken for the synonym "nodejs" (spaces ignored) depends on whether any other entry of the mapping has two words, though it has nothing to do with the text: the number of words that are looked at is that of the longest synonym of all (filter.go:45-81), not of the one that is found.
* **C114** `TokenizeHTML` does not give the same for a page as for its parts: `<style></style>` and `a b` by themselves give five tokens, together three (the cause is that of C44).
* **C115** `Tags` and `CurrentPlayers` do not commute: of the player "Sheldon Mac" `Tags` first makes "Sheldon macos".
* **C117** `Tags` after `Hashtags`: in "c #net", "c #language", "c #30" and "c #40" the hashtag is recognised and then lost, as "c#.net", "c# language", "c# 3.0" and "c# 4.0" are listed and spaces are ignored; the text becomes "c#" or "c#-3.0".
* **C119** One filter with the entries of two mappings is not the two filters one after the other: with "js" for "ror" and "ror" for "rails", one filter makes "ror" of "js", the two make "rails". A filter does not look again at what it has made.
* **C120** Expanding contractions before folding to ASCII misses those that are written with other characters than ASCII and the typographic apostrophe, e.g. "can‘t" with an opening quote; folding first misses none that expanding first finds.
* **C121** Selecting the words before a synonyms filter makes it find synonyms across punctuation: `Words` and then `CurrentPlayers` turn "Sheldon. Mac" into a player. The filter belongs before `Words`.
* **C122** Removing stop words before a synonyms filter loses synonyms that contain them ("Will Barton" with the stop word "will") and makes new ones ("Sheldon the Mac" with "the").
* **C123** Folding to ASCII before tagging finds tags that tagging first does not: "mác" becomes "macos" in one order and "mac" in the other.
* **C124** TokenizeHTML cuts the escaped form of a text into words: "don't" on a page is cut up as "don&#39;t", so that no contraction is found in it.
* **C125** "@joão" is one token, the handle "@joao", if it is folded before Handles, and two, "@" and "joao", if after.
* **C126** With Distinct before CurrentPlayers, "James Harden" and "James Ennis" on two lines become "James Harden" and "Ennis"; with Distinct before Handles, "@ann @bob" becomes "@ann" and "bob".
* **C127** "é" written as "e" with a combining accent after it is not folded; so ascii.Fold does nothing to a Latin text after norm.NFD.
* **C128** "we'll Barton" names the NBA player Will Barton if contractions are expanded before players are looked for.
* **C129** "#gonna" is a hashtag if contractions are expanded after Hashtags, but becomes "#going to" if before; "@he's" is the handle "@he" only if they are expanded before Handles.
* **C131** "@golang" stays the handle "@golang" if Tags comes after Handles, but becomes the handle "@go" if Tags comes before.
* **C132** If the stop word "the" is removed before Handles, the handle "@the" is lost and "the@bob" becomes a handle; Words before Handles leaves no handle, since the mark is punctuation.
* **C133** With the stop word "not", "can't" becomes "can " if stop words are removed last and "can not" if they are removed first; Words before the contractions leaves a space in its output.
* **C137** `Handles` and `Hashtags` after a byte-order mark: U+FEFF is neither space nor punctuation to Go, so its token counts as a word, and "@ann" or "#go" at the very start of a file with a mark is not recognised.

Observations that are not violations of a listed property but are proved or recorded beside one:

* `TokenQueue.FlushTo` to itself loses all tokens (C15); `New(slice...)` shares the caller's array (C14).
* A mapper function that returns nil ends the stream early (C16).
* A sigil at the end of a stream that fails is dropped (C28, C11: the error is still reported).
* With two entries for one normalized synonym, a synonyms filter depends on Go's map order (C38); the shipped tables have none (C39).
* A trailing comma in a mapping key adds the empty synonym; ignored runes are checked after lower-casing (C30, C37).
* The web demo's HTML route escapes already escaped text, so the page shows source (C51).

## Testing the theorems

`seeded/LOG.jsonl` has one line per wrong program tried: the model (or a shared definition) was edited in
a scratch copy as a plausible bug would, and everything rebuilt. Theorems that still went through although
their claim had become false were tightened.

## Axioms

As printed by `#print axioms` for every theorem listed in MANIFEST.json.

* **propext, Classical.choice, Quot.sound** (403): `C01_newToken_exact`, `C01_token_unique`, `C02_one_iterator`, `C03_tokenizeString_round_trip`, `C03_tokenize_round_trip`, `C04_consumers_report_error`, `C04_tokenize_error`, `C05_where_keeps_matching`, `C06_lemmas`, `C06_words`, `C07_distinct`, `C08_consumers_agree`, `C09_writeTo_all`, `C09_writeTo_fails`, `C100_partial`, `C100_violated`, `C100_violated_attribute`, `C101_partial`, `C101_violated`, `C102_accepted`, `C102_decided`, `C102_reads`, `C102_refused`, `C103_html`, `C103_text`, `C104_label`, `C105_page`, `C105_text`, `C106_rounds`, `C106_synonyms`, `C106_tags`, `C107_filters`, `C107_html_partial`, `C107_text_partial`, `C107_violated_html`, `C108_lines`, `C108_word_sigil`, `C108_words_first`, `C109_bytes`, `C109_trie`, `C10_pipeline`, `C110_beginning`, `C110_grows`, `C110_prompt`, `C110_sigil`, `C111_kept`, `C111_partial`, `C111_refused`, `C111_status`, `C111_unopened`, `C111_violated`, `C112_ends`, `C112_program`, `C112_writes`, `C113_partial`, `C113_same_limit_partial`, `C113_violated`, `C114_exact`, `C114_partial`, `C114_violated`, `C115_partial`, `C115_violated`, `C116_linear`, `C116_no_more_tokens`, `C116_shipped`, `C116_text`, `C117_barrier`, `C117_handles`, `C117_partial`, `C117_players`, `C117_violated`, `C118_players`, `C118_settles`, `C118_swap_never_settles`, `C118_tags`, `C119_partial`, `C119_violated`, `C11_errors_forwarded`, `C120_exact_partial`, `C120_folding_first`, `C120_partial`, `C120_violated`, `C121_partial`, `C121_players_partial`, `C121_tags_partial`, `C121_violated`, `C122_partial`, `C122_violated`, `C122_violated_made`, `C122_where_partial`, `C123_filters`, `C123_fold_tags_partial`, `C123_partial`, `C123_violated`, `C124_exact_partial`, `C124_plain_partial`, `C124_violated`, `C125_handles_partial`, `C125_hashtags_partial`, `C125_partial`, `C125_text`, `C125_violated`, `C125_violated_hashtags`, `C126_filters`, `C126_partial`, `C126_violated`, `C126_violated_lemmas`, `C126_violated_players`, `C127_composed_partial`, `C127_order_partial`, `C127_violated_order`, `C128_contractions_partial`, `C128_partial`, `C128_violated`, `C129_contractions_partial`, `C129_partial`, `C129_violated`, `C12_sticky_end`, `C130_alone`, `C130_order`, `C130_others`, `C131_partial`, `C131_players_partial`, `C131_tags_handles_partial`, `C131_violated`, `C132_partial`, `C132_stop_partial`, `C132_violated`, `C133_exact`, `C133_stop_partial`, `C133_violated`, `C134_filters`, `C134_html`, `C134_page`, `C134_program`, `C134_program_page`, `C134_tables`, `C134_tokenize`, `C134_words`, `C135_program`, `C135_text`, `C135_vanish`, `C135_words`, `C136_text`, `C136_tokens`, `C136_words`, `C137_lost`, `C137_partial`, `C137_program`, `C137_ready`, `C137_sigil`, `C137_violated`, `C138_program`, `C138_tokens`, `C139_program`, `C139_ready`, `C139_tokens`, `C13_no_panic`, `C140_file`, `C140_runs`, `C141_program`, `C141_ready`, `C141_tokens`, `C142_program`, `C142_ready`, `C142_tokens`, `C142_words`, `C143_program`, `C143_ready`, `C143_tokens`, `C144_program`, `C144_tokens`, `C144_words`, `C14_new_shares_the_callers_slice`, `C14_queue_is_fifo`, `C15_flushTo`, `C15_flush_to_itself`, `C15_popTo`, `C17_result`, `C18_complete_partial`, `C18_exact`, `C18_flag_and_idempotent`, `C19_ascii_fold`, `C20_stemmer`, `C21_norm`, `C22_stopwords_case_sensitive`, `C22_stopwords_idempotent`, `C22_stopwords_ignore_case`, `C23_contractions`, `C23_failure`, `C24_any_case`, `C24_generated`, `C25_expand_idempotent`, `C26_lemmas_partial`, `C26_pipeline_partial`, `C26_violated_contractions`, `C27_sigil_text`, `C28_exact`, `C28_sigil_merges_partial`, `C28_violated_double_sigil`, `C28_violated_word_before`, `C29_filters`, `C29_legalHandle`, `C30_trie_search`, `C31_synonyms_error`, `C31_synonyms_greedy`, `C32_replaced_spans`, `C32_split`, `C33_empty_mapping`, `C33_no_synonym`, `C34_insensitive`, `C35_synonyms_recognised`, `C36_empty_canonical`, `C37_comma_separated`, `C38_conflict_depends_on_order`, `C38_iteration_order`, `C39_nba_unambiguous`, `C39_same_every_run`, `C39_stackoverflow_unambiguous`, `C40_contractions_endless`, `C40_contractions_reads_one`, `C40_partial`, `C40_sigil_endless`, `C40_sigil_reads_two`, `C40_stopwords_reads`, `C40_synonyms_never_answers`, `C40_violated`, `C40_where_reads`, `C41_as_if_alone`, `C41_built_once`, `C41_no_deadlock`, `C41_no_race`, `C42_at_most_one_reports`, `C42_first_use_partial`, `C42_others_panic`, `C42_violated`, `C43_html_tags_only`, `C43_html_tokens`, `C44_exact`, `C44_html_script_partial`, `C44_raw_for_ever`, `C44_violated`, `C45_escape_bytewise`, `C45_html_text`, `C46_html_end`, `C46_html_scan_error`, `C47_input`, `C48_filters`, `C49_execute`, `C49_identity`, `C49_program`, `C49_text`, `C51_no_injection`, `C51_web`, `C52_nonempty`, `C52_tokenize_nonempty`, `C56_nba_canonicals`, `C56_stackoverflow_canonicals`, `C57_no_new_synonym_partial`, `C57_single_token_partial`, `C57_violated`, `C58_recognised_partial`, `C58_stackoverflow_partial`, `C58_uax29`, `C58_violated`, `C58_violated_csharp`, `C59_plain_partial`, `C59_violated`, `C59_violated_after`, `C60_lost_at_most_buffer_partial`, `C60_program_partial`, `C60_violated`, `C61_exact`, `C61_other_file_partial`, `C61_violated`, `C62_decode`, `C62_encode`, `C62_strings`, `C63_exact`, `C63_port_partial`, `C64_nba_shipped`, `C64_nba_table`, `C65_players_partial`, `C65_uax29`, `C65_violated_dash`, `C65_violated_diacritics`, `C66_ignore_partial`, `C66_so_error`, `C66_so_table`, `C67_one_tag_partial`, `C68_so_shipped`, `C69_file`, `C69_nba`, `C69_so`, `C70_exact_partial`, `C70_writes_partial`, `C71_increasing`, `C71_order`, `C72_contractions`, `C72_nba`, `C72_so`, `C73_full_false`, `C73_pipeline_partial`, `C73_sigil_lost`, `C73_sigil_partial`, `C73_violated_sigil`, `C73_violated_synonyms`, `C74_sigil_idempotent`, `C74_twitter_idempotent`, `C75_order_partial`, `C75_violated`, `C76_buffered`, `C76_scanner_laws`, `C77_in_text`, `C78_handles_partial`, `C78_hashtags_partial`, `C78_violated`, `C78_violated_hashtags`, `C79_apart`, `C79_between_words`, `C79_names_in_text`, `C79_tags_in_text`, `C80_exact`, `C80_in_text_partial`, `C80_tags_partial`, `C80_violated`, `C81_reads_back`, `C81_reads_back_tokens`, `C81_verbatim_partial`, `C81_violated`, `C82_contractions`, `C82_distinct`, `C82_expand`, `C82_partial`, `C82_synonyms_keep_all`, `C82_violated`, `C83_expand_partial`, `C83_synonyms_pop`, `C83_synonyms_quadratic`, `C83_violated`, `C84_partial`, `C84_violated`, `C85_escaped`, `C85_kept_partial`, `C85_violated`, `C86_page`, `C86_page_partial`, `C86_tag_in_text`, `C86_text`, `C86_violated`, `C87_exact_partial`, `C87_mapping_partial`, `C87_stackoverflow_partial`, `C87_violated_nba`, `C88_exact`, `C88_reads`, `C89_any_reads`, `C89_partial`, `C89_violated`, `C89_violated_at_64KiB`, `C90_partial`, `C90_short_words_partial`, `C90_violated`, `C90_violated_long`, `C91_read_ahead`, `C91_scan`, `C92_partial`, `C92_violated`, `C92_violated_tokens`, `C93_pipeline_partial`, `C93_synonyms_partial`, `C93_tokenize`, `C93_violated`, `C93_violated_error`, `C93_violated_stuck`, `C93_violated_tokens`, `C94_distinct_lemmas`, `C94_partial`, `C94_repeated`, `C94_stopwords`, `C94_violated`, `C94_violated_text`, `C95_exact`, `C95_html_partial`, `C95_outputs`, `C95_text_partial`, `C95_violated`, `C95_violated_html`, `C96_calls`, `C96_violated`, `C97_partial`, `C97_tokens_partial`, `C97_violated`, `C97_violated_stack`, `C98_ascii_partial`, `C98_contractions_partial`, `C98_lemmas_partial`, `C98_violated`, `C98_violated_stack`, `C98_violated_together`, `C99_tags_partial`, `C99_violated`, `C99_violated_doctype`
* **propext, Quot.sound** (46): `C102_values`, `C108_ready`, `C10_filter_order`, `C111_languages`, `C111_usage`, `C114_reader`, `C127_marks_kept`, `C127_violated`, `C135_shipped`, `C14_lists`, `C14_panics`, `C17_ascii_unchanged`, `C17_nonempty`, `C18_violated_tilde`, `C24_well_formed`, `C29_legalHashtag`, `C30_last_added_wins`, `C30_unique`, `C37_pieces`, `C40_mapper_reads_one`, `C45_exact`, `C50_buffers`, `C51_displayed`, `C53_case_partial`, `C53_case_strings_partial`, `C53_exact`, `C53_violated_case`, `C54_exact`, `C54_ranges_partial`, `C54_violated_fullwidth`, `C55_diacritics_partial`, `C55_exact`, `C55_violated_diacritics`, `C62_loop`, `C64_nba_error`, `C66_violated_ignore`, `C67_violated_seen`, `C70_full_false`, `C81_violated_attribute`, `C82_sigil`, `C83_pop_moves`, `C83_sigil_partial`, `C87_violated`, `C87_violated_names`, `C93_html`, `C96_rest_partial`
* **propext** (12): `C16_mapper_nil`, `C16_mapper_one_to_one`, `C40_mapper_endless`, `C45_html_text_verbatim_partial`, `C45_violated`, `C51_health`, `C63_violated_port`, `C70_violated_brace`, `C70_violated_json`, `C95_read_back`, `C96_end`, `C96_once`
* **none** (3): `C09_cases`, `C10_chain`, `C49_source`
