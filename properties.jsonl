{"id": "C01", "title": "NewToken classifies exactly by the runes of the string", "statement": "NewToken(s, l) is nil exactly when s is empty. Otherwise String() is s byte for byte, IsLemma() is l, IsSpace() holds exactly when every rune of s is Unicode white space, and IsPunct() holds exactly when every rune of s is Unicode punctuation or one of \\n, \\r, \\t. The pre-allocated common tokens and the CRLF special case are indistinguishable from freshly computed ones.", "quantifier": "every byte string (valid UTF-8 or not) and both lemma flags", "why_tests_cant": "A test samples a few strings; the cache, the CRLF case and the general path must agree on infinitely many inputs.", "anchors": ["token.go: NewToken, init, common", "punct.go: isPunct, spaceIsPunct"]}
{"id": "C02", "title": "Next, Scan, Token and Err are one iterator", "statement": "Any interleaving of Next, Scan, Token and Err calls on a stream sees the underlying results in order, each exactly once: Next and Scan both advance by one, Scan is true exactly when a token came without an error, and Token/Err always report the result of the latest advance.", "quantifier": "every sequence of Next/Scan/Token/Err calls on every stream", "why_tests_cant": "Call sequences are unbounded; tests use either only Scan or only Next.", "anchors": ["tokenstream.go: NewTokenStream, Next, Scan, Token, Err"]}
{"id": "C03", "title": "Tokenize round-trips the text", "statement": "For a reader that ends normally, the values of the tokens of Tokenize/TokenizeString concatenate to exactly the input bytes, so TokenizeString(s).String() returns s; no token is empty and no token is a lemma.", "quantifier": "every input byte string", "why_tests_cant": "Only one sample text is round-tripped by the test-suite.", "anchors": ["tokenizer.go: Tokenize, TokenizeString, next", "tokenstream.go: String"]}
{"id": "C04", "title": "A read error is reported after the tokens that precede it and never as a normal end", "statement": "If the reader fails, Next/Scan deliver the tokens found before the failure and then the error; ToSlice and String return the error and no partial result, Count and WriteTo return the error with the count so far.", "quantifier": "every token sequence, every error and every point at which the error occurs", "why_tests_cant": "Error position ranges over every point of every input.", "anchors": ["tokenizer.go: next", "tokenstream.go: ToSlice, String, Count, WriteTo, Scan"]}
{"id": "C05", "title": "Where keeps exactly the matching tokens", "statement": "stream.Where(p) delivers exactly the tokens of stream satisfying p, in order and with multiplicity, then ends the way stream ends (EOF or the same error).", "quantifier": "every stream and every predicate", "why_tests_cant": "All predicates and all streams cannot be enumerated.", "anchors": ["tokenstream.go: Where, where.next"]}
{"id": "C06", "title": "Words and Lemmas select by the token flags", "statement": "Words() delivers exactly the tokens that are neither punctuation nor space; Lemmas() delivers exactly the tokens whose IsLemma is true; both keep order and multiplicity and end as the stream ends.", "quantifier": "every stream", "why_tests_cant": "All streams.", "anchors": ["tokenstream.go: Words, Lemmas"]}
{"id": "C07", "title": "Distinct keeps the first token of each value", "statement": "Distinct() delivers, in order, exactly the first occurrence of each string value: no two delivered tokens have the same value, every value of the input occurs in the output, and each delivered token is the first of the stream with its value.", "quantifier": "every stream", "why_tests_cant": "All duplicate patterns of all lengths.", "anchors": ["tokenstream.go: Distinct"]}
{"id": "C08", "title": "The consumers agree with each other", "statement": "On a stream that ends normally, ToSlice returns all its tokens in order, String the concatenation of their values, and Count their number; so String = concat(ToSlice) and Count = len(ToSlice).", "quantifier": "every stream", "why_tests_cant": "All streams.", "anchors": ["tokenstream.go: ToSlice, String, Count"]}
{"id": "C09", "title": "WriteTo writes the same bytes String returns and counts them", "statement": "With a writer that accepts every write, WriteTo writes exactly the bytes String would return and returns their number. If a write fails, WriteTo stops at that token, returns the writer's error, and the count is the sum of the counts the writer reported; no later token is written.", "quantifier": "every stream, every writer behaviour including failure at any write", "why_tests_cant": "The failing write can be any of arbitrarily many.", "anchors": ["tokenstream.go: WriteTo"]}
{"id": "C10", "title": "Filter applies filters left to right", "statement": "stream.Filter(f1,...,fn) is fn(...f1(stream)...): the outcome of a pipeline of built-in filters is the composition, in argument order, of what each filter does on its own; with no filter it is the stream itself.", "quantifier": "every list of filters and every stream", "why_tests_cant": "All pipelines of all lengths.", "anchors": ["tokenstream.go: Filter", "cmd/jargon/main.go: execute"]}
{"id": "C11", "title": "Every built-in filter forwards an upstream error and ends only when upstream ends", "statement": "If the incoming stream fails with error e, the filtered stream eventually fails with exactly e (never ends normally, never reports another error); if the incoming stream ends normally the filtered stream ends normally.", "quantifier": "every built-in filter, every stream, every error position", "why_tests_cant": "The error may come at any point of any stream, also during look-ahead.", "anchors": ["tokenstream.go: where.next", "filters/contractions/filter.go: next, tryExpansion", "filters/mapper/filter.go: next", "filters/sigil/filter.go: next, try", "filters/stopwords/filter.go: next", "filters/synonyms/filter.go: next, fill, wordrun"]}
{"id": "C12", "title": "End of stream is sticky through every filter", "statement": "If a stream keeps returning nil after its end, so does every built-in filter over it: after the first nil, every later Next returns nil without error.", "quantifier": "every built-in filter, any number of further calls", "why_tests_cant": "Number of further calls is unbounded.", "anchors": ["tokenstream.go: where.next", "filters/contractions/filter.go: next", "filters/mapper/filter.go: next", "filters/sigil/filter.go: next", "filters/stopwords/filter.go: next", "filters/synonyms/filter.go: next"]}
{"id": "C13", "title": "No built-in filter panics or reports an internal inconsistency", "statement": "On a stream of tokens that ends (normally or by an error), driving a built-in filter until its own end never panics (no pop from an empty queue, no nil token dereference) and never returns one of its internal consistency errors.", "quantifier": "every built-in filter and every stream", "why_tests_cant": "Reachability of an internal assertion over all inputs.", "anchors": ["tokenqueue/queue.go: Pop", "filters/synonyms/filter.go: next, wordrun", "filters/sigil/filter.go: next"]}
{"id": "C14", "title": "TokenQueue is a FIFO queue", "statement": "Any sequence of Push, Pop, Drop, Clear, PopTo, FlushTo, Len and Any on queues that own their backing array (made by New() or by New with listed tokens) behaves as on independent mathematical FIFO lists, although the implementation moves elements within a shared backing array; Pop on an empty queue or Drop past the end panics and nothing else does.", "quantifier": "every sequence of operations on any number of queues", "why_tests_cant": "Histories are unbounded and slice aliasing depends on capacity history.", "anchors": ["tokenqueue/queue.go: Pop, Push, Drop, Clear, PopTo, FlushTo"]}
{"id": "C15", "title": "Moving tokens between queues conserves them", "statement": "Between two different queues, PopTo and FlushTo neither lose, duplicate nor reorder tokens: the destination is its old content followed by what was moved and the source keeps exactly the rest.", "quantifier": "all queue contents and capacities", "why_tests_cant": "All contents and capacities.", "anchors": ["tokenqueue/queue.go: PopTo, FlushTo"]}
{"id": "C16", "title": "A mapper filter is one-to-one", "statement": "mapper.NewFilter(f1..fn) delivers exactly one token per incoming token, in order: fn(...f1(token)), as long as the functions return tokens. If the result for some token is nil the stream looks ended at that token although upstream has more.", "quantifier": "every list of functions and every stream", "why_tests_cant": "All functions and streams.", "anchors": ["filters/mapper/filter.go: next"]}
{"id": "C17", "title": "ASCII folding leaves ASCII text alone and always produces text", "statement": "FoldString returns its argument unchanged and false when every byte is ASCII; it never returns the empty string for a non-empty argument; a character with an ASCII equivalent in the table becomes that equivalent and any other character is kept, whenever the result is flagged folded.", "quantifier": "every string", "why_tests_cant": "All strings over Unicode.", "anchors": ["filters/ascii/fold.go: FoldString"]}
{"id": "C18", "title": "ASCII folding is complete and idempotent", "statement": "Every character for which FoldString has an ASCII equivalent is replaced wherever it occurs, the flag tells whether the string changed, and folding a folded string changes nothing.", "quantifier": "every string", "why_tests_cant": "1242 characters in every combination.", "anchors": ["filters/ascii/fold.go: FoldString"]}
{"id": "C19", "title": "The ascii.Fold filter changes only what folds", "statement": "ascii.Fold delivers one token per incoming token: the identical token (flags included) if FoldString reports no change, otherwise a lemma token holding the folded text; it never truncates the stream.", "quantifier": "every stream", "why_tests_cant": "All streams.", "anchors": ["filters/ascii/filter.go: folder, Fold"]}
{"id": "C20", "title": "Stemmers only touch words, and only when the stem differs", "statement": "A stemmer filter passes punctuation and space tokens through untouched, passes a word whose stem equals it through untouched, and replaces any other word by a lemma token holding the stem.", "quantifier": "every stem function and every stream", "why_tests_cant": "All streams and stem functions.", "anchors": ["filters/stemmer/filter.go: newStemmer"]}
{"id": "C21", "title": "Unicode normalization filters deliver normalized tokens and are idempotent", "statement": "After a norm filter every token's text is in the chosen normalization form; tokens already normalized are passed through untouched and a second application changes nothing.", "quantifier": "every stream and every normalization form satisfying the Unicode laws", "why_tests_cant": "All streams.", "anchors": ["filters/norm/filter.go: newFilter"]}
{"id": "C22", "title": "stopwords removes exactly the stop words", "statement": "Case-sensitive: the stream without exactly the tokens whose text is in the list. Case-insensitive: without exactly the tokens whose lower-cased text equals some lower-cased stop word. Order, multiplicity and all other tokens are unchanged; applying the filter twice is the same as once.", "quantifier": "every stop word list, both modes and every stream", "why_tests_cant": "All lists and streams.", "anchors": ["filters/stopwords/filter.go: NewFilter, next"]}
{"id": "C23", "title": "Contractions are expanded in place and nothing else changes", "statement": "contractions.Expand replaces a token found in the table (exactly, or else by its lower case) by the tokens of its expansion, in place; every other token is passed through identically; so the text changes only at contractions.", "quantifier": "every stream", "why_tests_cant": "All streams.", "anchors": ["filters/contractions/filter.go: Expand, next, tryExpansion"]}
{"id": "C24", "title": "The contraction table handles every case and apostrophe variant consistently", "statement": "The shipped table is exactly the one its generator produces from the base list: lower, Title and UPPER case with both ' and ’, each key once; the expansion has the same case style and first letter, contains no apostrophe and is never empty.", "quantifier": "every entry of the table and every base contraction", "why_tests_cant": "The generator's no-duplicate check and the shipped table's equality with it are never tested on the shipped table.", "anchors": ["filters/contractions/generated.go: mappings", "filters/contractions/generate/main.go: getMappings, apostrophes, title"]}
{"id": "C25", "title": "Expanding contractions twice is expanding once", "statement": "Expand applied to the output of Expand delivers the same tokens: no expansion contains a contraction.", "quantifier": "every stream", "why_tests_cant": "All streams.", "anchors": ["filters/contractions/filter.go: Expand", "filters/contractions/generated.go: mappings"]}
{"id": "C26", "title": "Tokens produced or changed by a filter are lemmas", "statement": "Lemmas() after a filter returns every token that filter modified: each built-in filter marks each token it produces as a lemma, and leaves the flags of tokens it did not change.", "quantifier": "every built-in filter and every stream", "why_tests_cant": "All filters and streams.", "anchors": ["tokenstream.go: Lemmas", "filters/contractions/filter.go: tryExpansion", "filters/sigil/filter.go: try", "filters/synonyms/filter.go: next", "filters/ascii/filter.go: folder"]}
{"id": "C27", "title": "Sigil filters never change the text", "statement": "For any sigil and legality rule, the concatenated text of a sigil (handle/hashtag) filter's output equals the concatenated text of its input; it only merges adjacent tokens.", "quantifier": "every sigil, every legality predicate and every stream", "why_tests_cant": "All streams and rules.", "anchors": ["filters/sigil/filter.go: next, try"]}
{"id": "C28", "title": "A sigil merges with the following token only at a word boundary and only if legal", "statement": "The filter merges tokens i and i+1 exactly when token i is the sigil, token i+1 is legal, and the token before the sigil is not a word (or there is none).", "quantifier": "every sigil, every rule, every stream", "why_tests_cant": "Look-ahead and saved state interact over arbitrary histories.", "anchors": ["filters/sigil/filter.go: next, try"]}
{"id": "C29", "title": "Twitter handle and hashtag legality", "statement": "The Handles and Hashtags filters make tokens of an \"@\" or \"#\" and a legal word after it, and of nothing else, and always do so for the first one not preceded by a word. A handle is legal exactly when it has at most 15 characters, all ASCII letters, digits or underscore; a hashtag is legal exactly when all its characters are letters, numbers or underscore and, if it has a single character, that is a letter.", "quantifier": "every string", "why_tests_cant": "All strings.", "anchors": ["filters/twitter/filter.go: Handles, Hashtags, legalHandle, legalHashtag"]}
{"id": "C30", "title": "Trie search is longest-match lookup of the normalized text", "statement": "After adding synonyms, searching a token run finds the longest token-aligned prefix whose normalized text (lower-cased if asked, ignored characters removed) is a synonym, returns the canonical added last for that text, and consumes the fewest tokens that spell it; it finds nothing exactly when no prefix is a synonym.", "quantifier": "every sequence of added synonyms and every token run", "why_tests_cant": "All synonym sets and token runs.", "anchors": ["filters/synonyms/trie/trie.go: Add, SearchCanonical, New"]}
{"id": "C31", "title": "The synonyms filter is leftmost greedy replacement", "statement": "The output of a synonyms filter is: scan left to right; a space or punctuation token is passed through; at a word, take the run of tokens up to the next punctuation or up to the maximal number of words, and if a prefix of it is a synonym replace the longest such prefix by its canonical lemma, else pass the word through. How the input is buffered does not matter.", "quantifier": "every mapping and every stream", "why_tests_cant": "Buffer refill boundaries interact with match positions over arbitrary streams.", "anchors": ["filters/synonyms/filter.go: next, fill, wordrun"]}
{"id": "C32", "title": "Synonym replacement never crosses punctuation and only replaces word-initial spans", "statement": "Every replaced span begins with a word, contains no punctuation token, has at most the maximal number of words of any synonym, and its normalized text is a synonym; everything outside replaced spans is delivered identically, in order.", "quantifier": "every mapping and every stream", "why_tests_cant": "All mappings and streams.", "anchors": ["filters/synonyms/filter.go: next, wordrun"]}
{"id": "C33", "title": "Without matching synonyms the filter is the identity", "statement": "If no token run of the text is a synonym (in particular for an empty mapping) the synonyms filter delivers exactly the incoming tokens.", "quantifier": "every stream", "why_tests_cant": "All streams.", "anchors": ["filters/synonyms/filter.go"]}
{"id": "C34", "title": "Synonym matching is insensitive to case and to ignored characters", "statement": "With ignoreCase, two runs of tokens whose texts have the same lower case, and with ignored characters, two runs whose texts differ only in ignored characters, get the same canonical.", "quantifier": "every mapping, every pair of runs", "why_tests_cant": "All pairs.", "anchors": ["filters/synonyms/trie/trie.go: Add, SearchCanonical"]}
{"id": "C35", "title": "Every synonym in the text is recognised", "statement": "If at a word the text spells a synonym within the word limit and without punctuation, the filter replaces a span there that is at least as long.", "quantifier": "every mapping and every stream", "why_tests_cant": "All mappings and streams.", "anchors": ["filters/synonyms/filter.go", "filters/synonyms/trie/trie.go"]}
{"id": "C36", "title": "A synonym mapped to the empty string is deleted", "statement": "If the canonical is empty the matched tokens are removed and no token is delivered in their place; otherwise exactly one lemma token with the canonical text is.", "quantifier": "every mapping and every stream", "why_tests_cant": "All.", "anchors": ["filters/synonyms/filter.go: next"]}
{"id": "C37", "title": "Comma-separated synonyms are split as documented", "statement": "A mapping key lists synonyms separated by comma tokens; spaces at the start of the key and after each comma are ignored; each listed synonym maps to the canonical.", "quantifier": "every key string", "why_tests_cant": "All keys.", "anchors": ["filters/synonyms/filter.go: build, updateMaxWords"]}
{"id": "C38", "title": "A synonyms filter does not depend on map iteration order", "statement": "Building a filter from the same mapping gives the same filter whatever order Go iterates the map in, provided no two entries claim the same normalized synonym for different canonicals.", "quantifier": "every mapping and every iteration order", "why_tests_cant": "Iteration order is random per run; tests see one sample.", "anchors": ["filters/synonyms/filter.go: build"]}
{"id": "C39", "title": "The shipped Stack Overflow and NBA tables are unambiguous", "statement": "No two entries of the shipped table claim the same normalized synonym for different canonicals, so the shipped filters behave the same on every run.", "quantifier": "every pair of entries of each shipped table and every iteration order", "why_tests_cant": "Needs all pairs of several thousand synonyms and all orders.", "anchors": ["filters/stackoverflow/generated.go: mappings", "filters/nba/generated.go: mappings", "filters/stackoverflow/filter.go: ignoreRunes", "filters/nba/filter.go: ignore"]}
{"id": "C40", "title": "Filters are lazy", "statement": "A filtered stream reads only what it needs: one token per token for mapper filters and contractions (none while queued tokens remain), at most one token of look-ahead for sigils, and for synonyms at most the words of one longest synonym; memory stays bounded on unbounded input.", "quantifier": "every stream, including infinite ones", "why_tests_cant": "Infinite inputs.", "anchors": ["filters/synonyms/filter.go: next", "filters/sigil/filter.go: next", "filters/mapper/filter.go: next", "tokenstream.go: where.next"]}
{"id": "C41", "title": "A synonyms filter can be shared by concurrent goroutines", "statement": "Whatever the schedule of concurrent calls of the filter, its dictionary is built exactly once, before any stream made from it is read, and all streams see the same dictionary; streams do not interfere.", "quantifier": "every number of goroutines and every interleaving", "why_tests_cant": "Schedules.", "anchors": ["filters/synonyms/filter.go: Filter, build, once"]}
{"id": "C42", "title": "A failed dictionary build is reported on every use", "statement": "If building the dictionary fails, every stream obtained from the filter reports the error.", "quantifier": "every sequence of uses of the filter", "why_tests_cant": "Histories of uses.", "anchors": ["filters/synonyms/filter.go: Filter, build"]}
{"id": "C43", "title": "HTML tags and comments are kept whole", "statement": "TokenizeHTML delivers each tag, comment and doctype as one punctuation, non-space, non-lemma token with its rendered text, and each text node outside script/style as the tokens of its text.", "quantifier": "every sequence of HTML tokens", "why_tests_cant": "All documents.", "anchors": ["tokenizer_html.go: next"]}
{"id": "C44", "title": "Text after a script or style element is tokenized again", "statement": "Only text inside script and style elements is kept as one token; text after the closing tag is tokenized as usual.", "quantifier": "every HTML document", "why_tests_cant": "All documents.", "anchors": ["tokenizer_html.go: next"]}
{"id": "C45", "title": "HTML tokenization preserves the text", "statement": "Concatenating the tokens gives back the concatenation of the rendered HTML tokens, and the rendered text of a text node is the source text.", "quantifier": "every HTML document", "why_tests_cant": "All documents.", "anchors": ["tokenizer_html.go: next"]}
{"id": "C46", "title": "HTML end of input and errors are told apart", "statement": "A document that ends normally ends the stream with nil; any other tokenizer error is returned as the error; after the end further calls return nil.", "quantifier": "every HTML token sequence and every error", "why_tests_cant": "All.", "anchors": ["tokenizer_html.go: next"]}
{"id": "C47", "title": "CLI input selection", "statement": "The command reads from exactly one source: with neither pipe nor file it reports no input, with both it reports the conflict, an unopenable file is reported, otherwise it uses the one given.", "quantifier": "every combination of stdin mode, file argument and file system", "why_tests_cant": "All file systems and modes.", "anchors": ["cmd/jargon/main.go: setInput"]}
{"id": "C48", "title": "CLI filters are applied in command-line order", "statement": "The filters of the pipeline are exactly the recognised filter flags of the command line, in order and with multiplicity; -stem uses the language given; an unknown language with -stem is an error and without -stem is ignored.", "quantifier": "every argument list and language", "why_tests_cant": "All argument lists.", "anchors": ["cmd/jargon/main.go: setFilters"]}
{"id": "C49", "title": "CLI output is the filtered text", "statement": "On success the bytes written are the token values in order, each followed by a newline if -lines; with -count it is the decimal token count and a newline. This holds for every buffer size. A stream error is returned.", "quantifier": "every token stream, buffer size and flag combination", "why_tests_cant": "All.", "anchors": ["cmd/jargon/main.go: execute"]}
{"id": "C50", "title": "CLI buffers are bounded", "statement": "The reader's and the writer's buffers are equal and between 4 KiB and 1 MiB whatever the file size, and the reader reads the selected source.", "quantifier": "every file size and configuration setInput/setOutput can produce", "why_tests_cant": "All sizes.", "anchors": ["cmd/jargon/main.go: setReader, setWriter"]}
{"id": "C51", "title": "The web handler escapes all user text", "statement": "The response body consists of the stream's tokens, each HTML-escaped, with lemmas wrapped in a span; no markup character of the request appears unescaped. Unknown routes give 404.", "quantifier": "every request body and path", "why_tests_cant": "All.", "anchors": ["web/main.go: jargonHandler, mainHandler"]}
{"id": "C52", "title": "Tokens are always non-empty through every pipeline", "statement": "If every incoming token is non-empty, every token delivered by any pipeline of built-in filters is non-empty.", "quantifier": "every pipeline and stream", "why_tests_cant": "All.", "anchors": ["token.go: NewToken", "filters/contractions/filter.go", "filters/mapper/filter.go", "filters/sigil/filter.go", "filters/stopwords/filter.go", "filters/synonyms/filter.go"]}
{"id": "C53", "title": "ASCII folding respects letter case", "statement": "For every pair of an upper-case letter and its Unicode lower case that both have an ASCII equivalent, the equivalent of the lower-case letter is the lower case of the equivalent of the upper-case letter; so folding and lower-casing commute on such letters.", "quantifier": "every case pair of Unicode within the table, and every string of them", "why_tests_cant": "405 pairs; the tests fold one sample per target letter.", "anchors": ["filters/ascii/fold.go: FoldString"]}
{"id": "C54", "title": "Full-width and circled forms fold to the character they are a form of", "statement": "Every full-width form U+FF01..U+FF5E folds to the ASCII character 0xFEE0 below it and every circled Latin letter to the letter.", "quantifier": "every rune of the ranges", "why_tests_cant": "A range of code points, not a sample.", "anchors": ["filters/ascii/fold.go: FoldString"]}
{"id": "C55", "title": "Folding strips diacritics", "statement": "Every character whose Unicode canonical decomposition is an ASCII letter followed by combining marks folds to exactly that letter.", "quantifier": "every such character of Unicode", "why_tests_cant": "489 characters.", "anchors": ["filters/ascii/fold.go: FoldString"]}
{"id": "C56", "title": "Every canonical of a shipped table is a synonym of itself", "statement": "For every entry of the Stack Overflow and NBA tables, the canonical as a token is delivered again by the filter, as a lemma with the same text.", "quantifier": "every entry of both tables, every lower-casing of the runes outside Latin-1", "why_tests_cant": "3,500 entries; a test picks a few.", "anchors": ["filters/stackoverflow/generated.go: mappings", "filters/nba/generated.go: mappings", "filters/synonyms/filter.go: next"]}
{"id": "C57", "title": "Tagging is idempotent", "statement": "Applying the Stack Overflow filter to its own output changes nothing.", "quantifier": "every token stream", "why_tests_cant": "All streams.", "anchors": ["filters/stackoverflow/filter.go: Tags", "filters/stackoverflow/generated.go: mappings"]}
{"id": "C58", "title": "Every listed synonym is recognised", "statement": "Text that consists of one of the listed synonyms, segmented as the tokenizer does, is replaced by its canonical.", "quantifier": "every entry of the mapping", "why_tests_cant": "Thousands of entries, and all mappings a user supplies.", "anchors": ["filters/synonyms/filter.go: next, build", "filters/stackoverflow/generated.go: mappings"]}
{"id": "C59", "title": "Every filter flag that is set is applied", "statement": "For every command line that the flag package accepts, the filters of the pipeline are those of the filter flags that are set (in any of the spellings -x, --x, -x=true), in order of first appearance; no other argument adds a filter.", "quantifier": "every accepted command line", "why_tests_cant": "All argument lists and spellings.", "anchors": ["cmd/jargon/main.go: main, setFilters"]}
{"id": "C60", "title": "On an input error, what was read before is still written", "statement": "If the token stream ends with an error, the bytes written are the text of all tokens delivered before the error.", "quantifier": "every stream ending in an error, every buffer size", "why_tests_cant": "All streams and buffer sizes.", "anchors": ["cmd/jargon/main.go: execute"]}
{"id": "C61", "title": "The output is that of the input as it was", "statement": "A run with -file and -out that reports success has written to the output file the filtered text of what the input file held when the program started.", "quantifier": "every pair of input and output file", "why_tests_cant": "All file systems, also with both flags naming the same file.", "anchors": ["cmd/jargon/main.go: setOutput, setReader, main"]}
{"id": "C62", "title": "Text is read and written as UTF-8", "statement": "Code that goes through a string rune by rune reads the characters of valid UTF-8, one U+FFFD for each byte that starts no valid encoding, and nothing else; code that writes runes writes their UTF-8 encodings, and U+FFFD for what is no character.", "quantifier": "every byte string and every rune", "why_tests_cant": "All byte strings, including malformed ones.", "anchors": ["token.go: NewToken", "filters/ascii/fold.go: FoldString", "filters/synonyms/trie/trie.go: Add, SearchCanonical", "filters/twitter/filter.go: legalHandle, legalHashtag"]}
{"id": "C63", "title": "The folding table is Lucene's", "statement": "For every character, FoldString writes what Lucene's ASCIIFoldingFilter, which it is a port of, writes.", "quantifier": "every Unicode character", "why_tests_cant": "1,100 cases over the whole of Unicode.", "anchors": ["filters/ascii/fold.go: FoldString"]}
{"id": "C64", "title": "The NBA generator turns every name of the roster into an entry", "statement": "For every list of names the generator fails exactly if some name does not have exactly one comma, reporting the first; otherwise its table has, with each key once, exactly the entries of the names: for \"last, first\" the canonical \"first last\" without surrounding white space, listed as itself and, if that differs, folded to ASCII. The shipped table is what it makes of some list of names.", "quantifier": "every list of names; every entry of the shipped table", "why_tests_cant": "All lists of names; 498 entries.", "anchors": ["filters/nba/generate/main.go: getMappings", "filters/nba/generated.go: mappings"]}
{"id": "C65", "title": "Players are recognised insensitive to spaces, dots, dashes, apostrophes, case and diacritics", "statement": "Every text that is the name of a player up to spaces, periods, dashes, apostrophes, case and diacritics is replaced by that name.", "quantifier": "every player, every such text", "why_tests_cant": "All variants of 498 names.", "anchors": ["filters/nba/filter.go: CurrentPlayers", "filters/nba/generated.go: mappings"]}
{"id": "C66", "title": "The Stack Overflow generator lists every tag and synonym, and nothing else", "statement": "For all answers of the API: the generator fails exactly if one of the pages it reads (up to the last, but no more than twenty) cannot be fetched, reports an error or asks for too long a pause; otherwise its table has each key once, every entry is for a tag on these pages that is not for moderators and lists its name or its synonyms with spaces for dashes, every name and synonym that is not ignored is listed, and what is to be ignored is not.", "quantifier": "every sequence of answers", "why_tests_cant": "All answers of a remote API.", "anchors": ["filters/stackoverflow/generate/main.go: writeDictionary, fetchTags, ignore"]}
{"id": "C67", "title": "The Stack Overflow generator lists no term for two tags", "statement": "If tags and synonyms are distinct among themselves, no term is listed in the table for two different tags.", "quantifier": "every sequence of answers", "why_tests_cant": "All answers of a remote API, in every division into pages.", "anchors": ["filters/stackoverflow/generate/main.go: writeDictionary"]}
{"id": "C68", "title": "The shipped Stack Overflow table is the generator's", "statement": "There are twenty pages of at most a hundred different well-formed tags each from which the generator makes exactly the entries of filters/stackoverflow/generated.go.", "quantifier": "every entry of the shipped table", "why_tests_cant": "2,990 entries.", "anchors": ["filters/stackoverflow/generated.go: mappings", "filters/stackoverflow/generate/main.go: writeDictionary"]}
{"id": "C69", "title": "The generators never leave a file with a wrong table", "statement": "For every table with distinct keys, of arbitrary strings: if a generator ends normally, the generated.go it leaves is Go source for its package that declares exactly the table, every string of it coming out of its literal as it went in; if fetching, generating, formatting or creating the file fails, the file is as it was.", "quantifier": "every table, every answer of the remote sites, every failure of the disk", "why_tests_cant": "All tables, including strings with quotes, braces, control characters and malformed UTF-8, and all failures.", "anchors": ["filters/nba/generate/main.go: write, main", "filters/stackoverflow/generate/main.go: writeDictionary", "filters/contractions/generate/main.go: write"]}
{"id": "C70", "title": "The generators can write every table", "statement": "For every table with distinct keys: if the file can be created and written, writing it succeeds.", "quantifier": "every table", "why_tests_cant": "All tables.", "anchors": ["filters/nba/generate/main.go: write", "filters/stackoverflow/generate/main.go: writeDictionary", "filters/contractions/generate/main.go: write"]}
{"id": "C71", "title": "The generated file does not depend on the order of the map", "statement": "For all two enumerations of the same map the generators write the same file, and what it declares is in increasing order of keys.", "quantifier": "every table and every two orders of it", "why_tests_cant": "All tables and orders.", "anchors": ["filters/nba/generate/main.go: write, tmpl", "filters/stackoverflow/generate/main.go: writeDictionary, tmpl", "filters/contractions/generate/main.go: write, tmpl"]}
{"id": "C72", "title": "The generators reproduce the shipped files", "statement": "The generator of filters/contractions, for every iteration order of its map, leaves a file that declares exactly the table of the shipped generated.go in the same order; those of filters/nba and filters/stackoverflow do so for some names and answers.", "quantifier": "every iteration order; every entry of the shipped tables", "why_tests_cant": "All iteration orders; 3,700 entries.", "anchors": ["filters/contractions/generate/main.go: main, write", "filters/nba/generate/main.go: main", "filters/stackoverflow/generate/main.go: main", "filters/contractions/generated.go: mappings", "filters/nba/generated.go: mappings", "filters/stackoverflow/generated.go: mappings"]}
{"id": "C73", "title": "Filters deliver what precedes an error", "statement": "For all incoming tokens and every error: a filter given a stream that delivers those tokens and then fails delivers the same tokens as it would have, at least up to what it must look ahead for, and then reports the error; in particular no token seen before the error is lost.", "quantifier": "every filter, every list of tokens, every error", "why_tests_cant": "All streams of all lengths and all points of failure.", "anchors": ["filters/synonyms/filter.go: fill, Filter", "filters/sigil/filter.go: next", "tokenstream.go: Filter"]}
{"id": "C74", "title": "Applying a sigil filter twice changes nothing", "statement": "For every list of tokens: passing the output of a sigil filter (Handles or Hashtags) through the same filter again yields it unchanged.", "quantifier": "every list of tokens, every legality function under which nothing legal begins with the sigil", "why_tests_cant": "All lists of tokens.", "anchors": ["filters/sigil/filter.go: NewFilter, next", "filters/twitter/filter.go: Handles, Hashtags"]}
{"id": "C75", "title": "The order of Handles and Hashtags does not matter", "statement": "For every list of tokens: Handles after Hashtags yields the same tokens as Hashtags after Handles.", "quantifier": "every list of tokens", "why_tests_cant": "All lists of tokens.", "anchors": ["filters/twitter/filter.go: Handles, Hashtags", "filters/sigil/filter.go: next"]}
{"id": "C76", "title": "The word rules of UAX #29 give what is assumed of the scanner", "statement": "A scanner that follows the word boundary rules of Unicode Standard Annex #29 never cuts within a character, delivers the whole of every text in non-empty words, sets the commas in the keys of the shipped tables apart, and gets through every expansion of the contractions table.", "quantifier": "every text of less than 64 KiB, and of any size if no word is longer than about 32 KiB, every property table that is right on Latin letters", "why_tests_cant": "All texts; the laws are otherwise assumed of a third-party package.", "anchors": ["tokenizer.go: Tokenize, TokenizeString", "filters/stackoverflow/generated.go: mappings", "filters/nba/generated.go: mappings", "filters/contractions/generated.go: mappings"]}
{"id": "C77", "title": "Contractions are expanded in running text", "statement": "Every contraction of the table is expanded wherever it stands in a text, set off by white space, brackets, symbols, quotation marks or stops; what is before and after it becomes what it would become on its own.", "quantifier": "every contraction of the table, every text before and after", "why_tests_cant": "All contractions in all texts.", "anchors": ["filters/contractions/filter.go: Expand", "tokenizer.go: TokenizeString", "filters/contractions/generated.go: mappings"]}
{"id": "C78", "title": "Handles and hashtags are recognised in running text", "statement": "Every legal handle or tag after its sign, at the start of a text or after a space, followed by white space, brackets, symbols, marks or the end, becomes one token.", "quantifier": "every legal handle or tag, every text before and after", "why_tests_cant": "All names in all texts.", "anchors": ["filters/twitter/filter.go: Handles, Hashtags", "filters/sigil/filter.go: next", "tokenizer.go: TokenizeString"]}
{"id": "C79", "title": "Listed synonyms are replaced in running text", "statement": "Every synonym of the Stack Overflow table and every name of the NBA table that is recognised on its own (C58, C65) is replaced by its canonical wherever it stands in a text between punctuation or line ends; what is before and after it becomes what it would become on its own.", "quantifier": "every listed synonym, every text before and after", "why_tests_cant": "All synonyms in all texts.", "anchors": ["filters/synonyms/filter.go: next", "filters/stackoverflow/filter.go: Tags", "filters/nba/filter.go: CurrentPlayers", "tokenizer.go: TokenizeString"]}
{"id": "C80", "title": "Tags is insensitive to case, spaces, hyphens, dots and forward slashes", "statement": "Every text that is a listed synonym up to case, spaces, hyphens, dots and forward slashes is replaced by its canonical.", "quantifier": "every listed synonym, every way of writing it", "why_tests_cant": "All variants of 4,079 synonyms.", "anchors": ["filters/stackoverflow/filter.go: Tags, ignoreRunes", "filters/synonyms/filter.go: next", "filters/synonyms/trie/trie.go: SearchCanonical"]}
{"id": "C81", "title": "HTML tags and comments are left verbatim", "statement": "The text of the tokens of a document is the document: tags and comments are not changed, only looked over.", "quantifier": "every document", "why_tests_cant": "All documents, with every way of writing attributes and character references.", "anchors": ["tokenizer_html.go: TokenizeHTML, next"]}
{"id": "C82", "title": "Filters keep a bounded number of tokens", "statement": "What a filter keeps between calls of Next is bounded, however long the text ('constant memory, regardless of input size').", "quantifier": "every stream, failing and endless ones included, every number of calls", "why_tests_cant": "A bound on memory is about texts of all lengths; a test has one text, and does not look into the queue.", "anchors": ["README.md:90", "filters/synonyms/filter.go:139-200", "filters/contractions/filter.go:25-80", "filters/sigil/filter.go:41-104", "tokenstream.go: Distinct", "tokenqueue/queue.go"]}
{"id": "C83", "title": "The work of the queues is linear", "statement": "The number of tokens moved within the queue of a filter is at most proportional to the number of tokens delivered ('O(n) on input size').", "quantifier": "every stream and every number of tokens delivered", "why_tests_cant": "Growth is about texts of all lengths; tests check outputs, not work.", "anchors": ["README.md:92", "tokenqueue/queue.go: Drop, Pop", "filters/synonyms/filter.go:139-200"]}
{"id": "C84", "title": "The examples of the documentation hold wherever they stand", "statement": "What the READMEs and the usage text give as examples of the filters for tags, contractions and folding holds in every text, where the example is set apart by punctuation or line ends, and what is before and after it is filtered on its own.", "quantifier": "every text before and after the example, without overlong words (as in C76)", "why_tests_cant": "An example tested on its own says nothing about the texts it may stand in.", "anchors": ["README.md:5", "README.md:73-81", "filters/contractions/README.md:5-19", "cmd/jargon/main.go:35-37"]}
{"id": "C85", "title": "Scripts and style sheets are kept", "statement": "Read as HTML, the text of the tokens of a document has the same scripts, style sheets and other raw text as the document ('so text can be reconstructed with fidelity').", "quantifier": "every document", "why_tests_cant": "All documents, with scripts that contain comments, comparisons and tags.", "anchors": ["tokenizer_html.go:10-12", "tokenizer_html.go:55-70"]}
{"id": "C86", "title": "The command of the README lists the tags named in a page", "statement": "jargon -html -stack -lemmas -lines ends with success and has written, one per line and in order, the tags named in the texts of the page outside script and style elements; jargon -stack -lemmas -lines has written those named in a text.", "quantifier": "every page and every text without overlong words (as in C76); whatever surrounds the program", "why_tests_cant": "It takes the parsing of flags, of HTML, of words, the table and the writing together; the tests of the command do not run it.", "anchors": ["README.md:30", "cmd/jargon/main.go:138", "cmd/jargon/main.go:21-115", "tokenizer_html.go:27-88", "filters/synonyms/filter.go:139-200"]}
{"id": "C87", "title": "A synonyms filter is printed as a declaration of it", "statement": "Decl returns a Go source declaration of the filter: an expression that compiles and whose value has the same synonyms, canonical forms, ignored runes, case rule and word limit.", "quantifier": "every filter, in particular every mapping it may be made of", "why_tests_cant": "Decl has no tests; it would have to be compiled for every rune that a synonym may have.", "anchors": ["filters/synonyms/filter.go:307-333", "filters/synonyms/trie/trie.go:31-57", "filters/synonyms/trie/trie.go:128-158"]}
{"id": "C88", "title": "A queue is printed without loss of its texts", "statement": "String of a queue is a list of Go string literals in brackets, one for each token, and two queues are printed alike only if their tokens have the same texts.", "quantifier": "every queue, whatever bytes are in its tokens", "why_tests_cant": "The tests of the synonyms filter compare queues by String; that is only right if no two different queues are printed alike.", "anchors": ["tokenqueue/queue.go:72-74", "filters/synonyms/filter_test.go:160-168"]}
{"id": "C89", "title": "How a reader cuts its data does not matter", "statement": "The tokens of a text and the way their stream ends do not depend on the sizes of the pieces in which the reader hands the text out, nor on empty reads, nor on whether the end, or an error, comes with the last data or after it.", "quantifier": "every reader that keeps the contract of io.Reader, every text, every function that splits", "why_tests_cant": "Tests read from strings, which come in one piece; a piece may end at any byte of a text.", "anchors": ["tokenizer.go:16-19", "tokenizer.go:24-26", "tokenizer.go:32-49"]}
{"id": "C90", "title": "A text of any size is tokenized", "statement": "Tokenize delivers all of a text, whatever its size, and does not fail by itself.", "quantifier": "every text and every reader", "why_tests_cant": "A test has one text of one size; the limit is beyond the sizes in the tests.", "anchors": ["README.md:90", "tokenizer.go:32-49"]}
{"id": "C91", "title": "The tokenizer is never far ahead of its tokens", "statement": "Every call of Next returns, even if the reader never ends or breaks its contract. The tokenizer reads only while what it holds makes no token, and holds at most 64 KiB: what it has read is what it has delivered and what it holds.", "quantifier": "every reader, endless ones included, every function that splits, every number of calls", "why_tests_cant": "It is about all readers, and about what is read, which tests do not look at.", "anchors": ["README.md:90", "README.md:92", "tokenizer.go:32-49"]}
{"id": "C92", "title": "An error of the tokenizer is final", "statement": "Once Next has returned an error, it returns this error for ever, and no tokens.", "quantifier": "every reader and text, every number of calls", "why_tests_cant": "Tests stop at the first error.", "anchors": ["tokenizer.go:39-49", "tokenstream.go:28-36"]}
{"id": "C93", "title": "An error is final through every filter", "statement": "If the input of a filter returns an error, and returns it again whenever it is called again, so does the filter: after its first error, every call of Next returns this error and no token.", "quantifier": "every tokenizer, every filter of the library with every configuration, every pipeline of them, every input and error, every number of further calls", "why_tests_cant": "Tests stop at the first error, and have few inputs that fail.", "anchors": ["tokenstream.go:28-36", "tokenizer.go:39-49", "tokenizer_html.go:27-50", "filters/synonyms/filter.go:139-195", "filters/sigil/filter.go:41-104", "filters/contractions/filter.go:30-61"]}
{"id": "C94", "title": "Selecting filters can be swapped, repeated and merged", "statement": "Filters that only select (Words, Lemmas, Distinct, stopwords, Where on the text) give the same in any order; applied twice they give what they give once; two stopwords filters are one with both lists.", "quantifier": "every pair of such filters with every configuration, every stream of tokens and every end", "why_tests_cant": "Tests apply one filter, or one order.", "anchors": ["tokenstream.go:68-92", "tokenstream.go:154-191", "filters/stopwords/filter.go:10-36", "cmd/jargon/main.go:178-214"]}
{"id": "C95", "title": "-count is the number of lines of -lines", "statement": "For the same input and filters, the number that the program writes with -count is the number of lines that it writes with -lines, so that the tokens can be read back from the lines.", "quantifier": "every text and every page, every list of filter flags in every order, every writer that does not fail", "why_tests_cant": "Tests write no lines, and never compare two runs of the program.", "anchors": ["cmd/jargon/main.go:45-46", "cmd/jargon/main.go:282-330", "tokenstream.go:192-204", "tokenizer_html.go:53-67"]}
{"id": "C96", "title": "Views of one stream share its tokens", "statement": "When several streams are made of one by Where, Words, Lemmas or Distinct and read in turns, also with Next of the stream itself, each delivers what it delivers when it is the only one.", "quantifier": "every set of views, every order of calls, every stream and every end", "why_tests_cant": "Tests make one stream of each.", "anchors": ["tokenstream.go:20-22", "tokenstream.go:68-92", "tokenstream.go:154-191"]}
{"id": "C97", "title": "A text may be filtered line by line", "statement": "What the program writes with -lines for a text is what it writes for each of its lines, one after the other.", "quantifier": "every text of whole lines without overlong words, every list of filter flags in every order, every writer that does not fail", "why_tests_cant": "Tests use short texts of one line, and never compare two runs of the program.", "anchors": ["cmd/jargon/main.go:178-214", "cmd/jargon/main.go:282-330", "tokenizer.go:15-49", "filters/synonyms/filter.go:77-198", "filters/stackoverflow/filter.go:1-15"]}
{"id": "C98", "title": "The program leaves its own output as it is", "statement": "What the program writes for a text, with some filters and neither -lines nor -count, it writes again when it gets that as its input, with the same filters.", "quantifier": "every text (and output) without overlong words, every list of filter flags, every writer that does not fail", "why_tests_cant": "Tests run filters once, on words that are not joined again before they are read.", "anchors": ["cmd/jargon/main.go:178-214", "cmd/jargon/main.go:282-330", "filters/ascii/filter.go: folder, Fold", "filters/ascii/fold.go: FoldString", "filters/contractions/filter.go: Expand", "filters/contractions/generated.go: mappings", "tokenizer.go:15-50"]}
{"id": "C99", "title": "No comment or text of a document becomes a tag", "statement": "Read as HTML, the text of the tokens of a document has the tags of the document, with their attributes, and no others.", "quantifier": "every document, every table of character references, every behaviour of the reader in malformed tags", "why_tests_cant": "All documents, with every way of ending comments and of writing characters.", "anchors": ["tokenizer_html.go:13-18", "tokenizer_html.go:27-88", "go.mod:8"]}
{"id": "C100", "title": "Filters leave the markup of a page alone", "statement": "What jargon -html writes with filters that change words (-ascii, -contractions, -stack, -stem), read as HTML, has the tags, attributes, comments and doctypes of the page, and no others.", "quantifier": "every page, every list of such filters, every reader of HTML within the standard, every stemmer that makes no <, >, &, quotes or NUL bytes", "why_tests_cant": "All pages and all words in them, with all lists of filters.", "anchors": ["tokenizer_html.go:27-88", "cmd/jargon/main.go:41-61", "filters/ascii/filter.go:31-39", "filters/contractions/filter.go:25-80"]}
{"id": "C101", "title": "A filter does the same to a text in a page as to the text by itself", "statement": "The texts of what jargon -html writes for a page, read as HTML, are what jargon writes for each of the texts of the page by itself.", "quantifier": "every page, every list of filters that change words, every text", "why_tests_cant": "All texts, with all characters that HTML escapes.", "anchors": ["tokenizer_html.go:61-74", "cmd/jargon/main.go:41-61", "filters/contractions/filter.go:25-80"]}
{"id": "C102", "title": "The arguments mean what they should, and refused ones change nothing", "statement": "Every list of arguments has exactly one reading (flags with one dash or two, values after an equals sign or as the next argument, up to the first word); of several settings of a flag the last counts; -version, unreadable arguments, no input, two inputs and an unknown language are dealt with before an output file is created.", "quantifier": "every list of arguments, every file system, every state of stdin", "why_tests_cant": "All lists of arguments, of any length, in any spelling.", "anchors": ["cmd/jargon/main.go:21-115", "cmd/jargon/main.go:143-168", "cmd/jargon/main.go:189-223"]}
{"id": "C103", "title": "The page of the web demo shows the text, with the tags in it marked", "statement": "Read as a browser reads HTML, the answer to a text is that text, in which each tag named is replaced by the tag in a span of class lemma, with no other markup; the answer to a page is its source in the same way. The marked tags are those that the program prints with -stack -lemmas -lines.", "quantifier": "every request to the routes text and html whose words are not overlong", "why_tests_cant": "All texts and pages, with whatever markup, references and control characters.", "anchors": ["web/main.go:37-96", "filters/stackoverflow/filter.go"]}
{"id": "C104", "title": "No answer of the web demo is labelled as HTML", "statement": "Whatever is sent to the web demo, net/http does not label the answer as HTML or XML, so that nothing sent is run when the answer is opened by itself.", "quantifier": "every request", "why_tests_cant": "All requests.", "anchors": ["web/main.go:27-101"]}
{"id": "C105", "title": "Tags are listed once each, and counted", "statement": "With -stack -lemmas the program lists the tags named in a text or page (-lines) or writes their number (-count); with -distinct as well, before or after -lemmas, each tag once, in the order of first mention.", "quantifier": "every text and page whose words are not overlong", "why_tests_cant": "All texts; that the order of -distinct and -lemmas does not matter depends on the whole table.", "anchors": ["cmd/jargon/main.go:225-332", "tokenstream.go:147-204", "filters/stackoverflow/generated.go"]}
{"id": "C106", "title": "Searching for synonyms takes linear time", "statement": "Apart from the moving of tokens in the outgoing queue (C83), the synonyms filter's work is linear: it searches the trie at most once per word of the input, and in all searches together goes over at most m times the tokens and m times the runes of the input, where m is the number of words of the longest synonym (5 for the shipped tags).", "quantifier": "every stream of tokens, ending or failing; every set of mappings", "why_tests_cant": "The bound is on all inputs; that the look-ahead buffer is gone over again in every round makes it non-obvious.", "anchors": ["README.md:88-92", "filters/synonyms/filter.go:139-304", "filters/synonyms/trie/trie.go:95-126"]}
{"id": "C107", "title": "A token's flags say what its text is", "statement": "Whichever way a token was produced - by Tokenize, TokenizeHTML, or any sequence of filters of the library - IsSpace holds exactly if its text is white space and IsPunct exactly if its text is punctuation, line ends and tabs. (False for TokenizeHTML: tags, and texts in or after scripts and styles. A token without such flags has come from there unchanged: no filter makes one.)", "quantifier": "every text or page, every pipeline of filters in any configuration", "why_tests_cant": "Each filter makes tokens in its own way (NewToken, the scanner, the cache of common tokens); tests look at values, seldom at flags after several filters.", "anchors": ["token.go:20-110", "tokenizer.go:16-49", "tokenizer_html.go:13-88", "filters/synonyms/filter.go:139-304", "filters/sigil/filter.go:33-104"]}
{"id": "C108", "title": "The filters of the library work line by line", "statement": "The tokens a pipeline delivers for a text are those it delivers for each of its lines, one after the other (the last line with or without a line end), if the pipeline consists of filters that line ends pass - stemmers, ascii.Fold, every synonyms filter whatever its mappings, and norm, stopwords, contractions, sigil and Where filters that do not concern line ends (in particular Twitter handles and hashtags, tags, NBA players) - followed by any filters that look at one token at a time (Words, Lemmas, ...). So a stream of lines may be processed in pieces, or in parallel.", "quantifier": "every text, every such pipeline of any length, every mapping", "why_tests_cant": "Filters with look-ahead and memory (sigil, synonyms) could carry something over a line end in many ways; tests have short texts of one line.", "anchors": ["README.md:86-92", "filters/synonyms/filter.go:139-304", "filters/sigil/filter.go:33-104", "filters/twitter/filter.go:10-62", "token.go:37-80"]}
{"id": "C109", "title": "The dictionary of a synonyms filter is as small as a trie can be", "statement": "The trie that a synonyms filter builds from its mappings has exactly one node for each beginning of one of its synonyms, as they are compared (case folded, ignored runes left out), and the root: synonyms that begin alike, or are compared alike, share their nodes, whatever the order in which Go goes through the map. It so has at most as many nodes as the keys of the mappings have bytes, and one.", "quantifier": "every map, every case and ignore option, every order of iteration", "why_tests_cant": "A trie that makes a node too many, or does not share them, finds the same synonyms; only its memory shows it.", "anchors": ["filters/synonyms/trie/trie.go:12-92", "filters/synonyms/filter.go:31-100"]}
{"id": "C110", "title": "What a filter has delivered does not depend on what is still to come", "statement": "For every stream, also one that never ends or whose Next hangs: if its first tokens are t1..tn, then a pipeline of filters of the library first delivers what it delivers for t1..tn followed by an error. Without sigil and synonyms filters that is what it delivers for t1..tn alone; with one sigil filter it is that but for the sigil if it is tn. So more input only adds to the output (a synonyms filter delivers nothing before the end, see C40).", "quantifier": "every stream, ended or not, every beginning of it, every pipeline in every configuration", "why_tests_cant": "Tests have streams that end; what has been delivered by the time a stream is still open cannot be seen in the result.", "anchors": ["tokenstream.go:20-92", "filters/mapper/filter.go:37-51", "filters/stopwords/filter.go:49-71", "filters/contractions/filter.go:30-80", "filters/sigil/filter.go:41-104", "filters/synonyms/filter.go:139-304"]}
{"id": "C111", "title": "The exit code and stderr tell whether the output is complete", "statement": "The program ends with code 0 and nothing on stderr only if the version was asked for, or if the whole input was read and the whole output is in the file or on stdout. If anything fails, it ends with code 1 and one line that says what on stderr, and what was written is a beginning of the output; without input it prints the usage on stderr. Nothing but the output (or the version) goes to stdout, and nothing at all with -out. The languages offered when one is not known are those that are known. (False: an error on closing the output file is ignored.)", "quantifier": "every list of arguments, every file system, every behaviour of the writers and readers, every input", "why_tests_cant": "Failing writers, readers and closes are rare and hard to arrange in a test of main, which the repo does not test at all.", "anchors": ["cmd/jargon/main.go:21-141", "cmd/jargon/main.go:179-209", "cmd/jargon/main.go:260-332"]}
{"id": "C112", "title": "The program writes while it reads", "statement": "Having read some tokens from its stream, and before it reads the next, the program (without -count) has written all of them but what is in its buffer (at most 1 MiB), whatever follows: more tokens, for ever or not, an error, or nothing for a long time. If the writer has no room for more, as with a full disk or `| head`, it ends with an error soon after, also if the input never ends.", "quantifier": "every stream of tokens, ended or not, every beginning of it, every writer with limited room, every buffer size", "why_tests_cant": "Tests of the command have short inputs that fit into the buffer and end; neither what is written by then, nor an endless input, can be seen in them.", "anchors": ["cmd/jargon/main.go:225-274", "cmd/jargon/main.go:295-332"]}
{"id": "C113", "title": "Entries of a mapping that do not occur in the text make no difference", "statement": "If none of the synonyms of some entries occurs in a text (no run of tokens that the filter may look up is compared equal to one of them), a synonyms filter delivers the same for the text with these entries as without them. (False: the number of words a filter looks at is that of its longest synonym, so an entry of two words makes the filter find other synonyms, spelled with two words, that it would not find otherwise.)", "quantifier": "every mapping and every choice of entries to leave out, every case and ignore option, every stream, ended or failed", "why_tests_cant": "Each test has one mapping; what an unrelated entry does to the others shows only if the same text is filtered with two mappings.", "anchors": ["filters/synonyms/filter.go:31-100", "filters/synonyms/filter.go:225-304"]}
{"id": "C114", "title": "A page may be tokenized in parts, cut after a tag", "statement": "The tokens of a page are those of its first part followed by those of the rest, if the first part ends with a tag of an element whose content is read as HTML. (False for TokenizeHTML if there is a script or style element in the first part; true for the HTML tokenizer it is built on.)", "quantifier": "every page, every place after a tag, every table of character references", "why_tests_cant": "A page and its parts are never tokenized side by side in a test; and the only pages with scripts in the tests have no text after them.", "anchors": ["tokenizer_html.go:13-88"]}
{"id": "C115", "title": "The order of two synonyms filters does not matter", "statement": "Two synonyms filters deliver the same in either order. (False, also for the shipped Tags and CurrentPlayers: \"Sheldon Mac\" is a player if CurrentPlayers comes first, and \"Sheldon macos\" if Tags does. True if punctuation cuts the text into pieces in each of which only one of the two finds anything.)", "quantifier": "every two mappings with their options, every stream, ended or failed", "why_tests_cant": "The tests apply one synonyms filter at a time.", "anchors": ["filters/synonyms/filter.go:139-304", "filters/stackoverflow/filter.go:10-15", "filters/nba/filter.go:7-11"]}
{"id": "C116", "title": "What comes out is linear in what goes in", "statement": "For every pipeline of filters of the library there is a factor, the product of factors of the single filters that depend on nothing but their tables, such that what the pipeline delivers is never longer than the factor times what it is given, in tokens and in bytes. Only contractions add tokens. The shipped tables: 26 for the Stack Overflow tags, 24 for the players, 11 for the contractions, 3 for ASCII folding.", "quantifier": "every list of filters of the library, every stream that ends or fails, every text", "why_tests_cant": "The tests compare the output for given texts; a filter that delivers a buffered token twice, or an expansion again, on some long text would not be noticed.", "anchors": ["filters/synonyms/filter.go:139-195", "filters/contractions/filter.go:30-81", "filters/ascii/fold.go:6-2163", "filters/sigil/filter.go:41-104", "tokenstream.go:68-122"]}
{"id": "C117", "title": "Recognised handles and hashtags are left alone by Tags and CurrentPlayers", "statement": "Tags and CurrentPlayers, applied after Handles and Hashtags, deliver every handle and hashtag that has been recognised. (False: of \"c #net\" Hashtags makes \"c\", \" \", \"#net\", and Tags makes \"c#\" of that, as \"c#.net\" is listed and spaces are ignored. True of all handles, of all hashtags with CurrentPlayers, and of hashtags with Tags unless the word \"c\" comes before. In general, a token with a character that is in no synonym, and not ignored, is left as it is, and the texts before and after it are treated by themselves.)", "quantifier": "every text, every mapping, the shipped tables", "why_tests_cant": "The tests do not combine the Twitter filters with synonyms.", "anchors": ["filters/twitter/filter.go:11-62", "filters/sigil/filter.go:41-104", "filters/synonyms/filter.go:139-304", "filters/stackoverflow/generated.go:412-414", "filters/stackoverflow/generated.go:649"]}
{"id": "C118", "title": "Repeating Tags or CurrentPlayers settles", "statement": "Tags applied over and over, and likewise CurrentPlayers and any synonyms filter whose canonicals are listed as synonyms of themselves, comes to a text that further passes do not change, after at most one pass more than the text has tokens. (One pass need not be enough, see C57. Without the condition it may never settle: two words that stand for each other are swapped forever.)", "quantifier": "every text, every number of passes, every such mapping, the shipped tables", "why_tests_cant": "A test tries one text a few times; that the passes come to an end is about all texts.", "anchors": ["filters/synonyms/filter.go:139-304", "filters/stackoverflow/filter.go:10-13", "filters/nba/filter.go:8-11"]}
{"id": "C119", "title": "One synonyms filter with two mappings is the two filters one after the other", "statement": "A synonyms filter with the entries of two mappings delivers what the filters with one mapping each, and the same options, deliver one after the other. (False: if the first maps \"js\" to \"ror\" and the second \"ror\" to \"rails\", one filter makes \"ror\" of \"js\", two make \"rails\". True of texts cut by punctuation into pieces in each of which only one of the mappings has a synonym.)", "quantifier": "every text, every two mappings, every option", "why_tests_cant": "The tests have one filter at a time.", "anchors": ["filters/synonyms/filter.go:30-137", "filters/synonyms/filter.go:139-304"]}
{"id": "C120", "title": "The order of ASCII folding and expanding contractions does not matter", "statement": "Folding to ASCII and then expanding contractions delivers the same as expanding and then folding. (False: \"can‘t\" with an opening quote is a contraction only when it is folded first. True exactly of the texts each of whose tokens has the same expansion, or none, folded or not, so of all texts in ASCII and typographic apostrophes. Folding first loses no contraction.)", "quantifier": "every text, every error, the shipped tables", "why_tests_cant": "The tests have one filter at a time, with a few words.", "anchors": ["filters/ascii/fold.go:6-2163", "filters/ascii/filter.go:31-39", "filters/contractions/filter.go:17-60", "filters/contractions/generated.go:6-280"]}
{"id": "C121", "title": "The words of a text may be selected before or after a synonyms filter", "statement": "Words and then a synonyms filter deliver the same as the filter and then Words. (False: punctuation, which no synonym crosses, is gone when the words are selected first, so \"Sheldon. Mac\" becomes a player. True if no synonym is broken up by punctuation in the text, the space in it is ignored by the filter, and the canonicals are words, as those of the shipped tables are.)", "quantifier": "every text, every mapping, every scanner", "why_tests_cant": "No test selects words.", "anchors": ["tokenstream.go:154-163", "filters/synonyms/filter.go:122-333", "filters/nba/filter.go:7-11", "filters/stackoverflow/filter.go:12-15"]}
{"id": "C122", "title": "Stop words may be removed before or after a synonyms filter", "statement": "Removing stop words, none of which is a canonical, and then applying a synonyms filter delivers the same as the filter and then removing them. (False in both directions: without \"will\" the player Will Barton is not found, and without \"the\" one is found in \"Sheldon the Mac\". True, of any selection of tokens, if no synonym in the text contains a removed token, and what is left of a part of the text spells a synonym only if nothing of it was removed.)", "quantifier": "every text, every mapping, every list of stop words or other selection, every scanner", "why_tests_cant": "The tests of stop words have no synonyms.", "anchors": ["filters/stopwords/filter.go:11-71", "tokenstream.go:68-92", "filters/synonyms/filter.go:122-333", "filters/nba/filter.go:7-11"]}
{"id": "C123", "title": "A filter of single tokens may come before or after a synonyms filter", "statement": "Folding, stemming or normalizing, or any other filter that changes each token by itself and no canonical, delivers the same before a synonyms filter as after it. (False: \"mác\" becomes the tag macos if it is folded first, \"mac\" if last. True if it makes and breaks no synonym in the text. Folding changes no canonical of the Stack Overflow table.)", "quantifier": "every text, every mapping, every stem function and normal form, every scanner", "why_tests_cant": "The tests have one filter at a time.", "anchors": ["filters/mapper/filter.go:13-51", "filters/ascii/filter.go:31-39", "filters/stemmer/filter.go:34-52", "filters/norm/filter.go:21-32", "filters/synonyms/filter.go:122-333"]}
{"id": "C124", "title": "A text without tags has the same tokens as HTML", "statement": "TokenizeHTML delivers the same tokens as Tokenize of a text without tags. (False: TokenizeHTML cuts the escaped form into words, so \"don't\" becomes \"don&#39;t\" and its pieces. True exactly of the texts that are the escaped form of a text, so of all without apostrophes, quotation marks, angle brackets, ampersands and carriage returns.)", "quantifier": "every text, every scanner, every reader of HTML", "why_tests_cant": "The tests of HTML have no apostrophes or quotation marks in their texts.", "anchors": ["tokenizer_html.go:12-88", "tokenizer.go:12-49"]}
{"id": "C125", "title": "Folding may come before or after Handles and Hashtags", "statement": "ascii.Fold and twitter.Handles (or Hashtags) deliver the same tokens in either order. (False of the tokens: \"@joão\" is the handle \"@joao\" only if it is folded first, \"#ⓖⓞ\" the hashtag \"#go\" likewise. True if folding makes and breaks no mark, no word and no legal name after a mark; the text that comes out is always the same.)", "quantifier": "every sequence of tokens, every filter of single tokens, both marks", "why_tests_cant": "Needs texts with letters that fold after a mark, through two filters in two orders.", "anchors": ["filters/twitter/filter.go:12-62", "filters/sigil/filter.go:41-104", "filters/ascii/filter.go"]}
{"id": "C126", "title": "Repetitions may be left out early", "statement": "If Distinct comes after a filter, it makes no difference whether there is a Distinct before the filter as well. (False of the filters that look at several tokens, and of Lemmas: of \"James Harden\" and \"James Ennis\" on two lines the second player is lost with the second \"James\", of \"@ann @bob\" the second handle with the second \"@\". True of all filters that go by the text of each token: folding, normalization, stemming, stop words, contractions, Words.)", "quantifier": "every sequence of tokens, every filter that goes by the text of each token", "why_tests_cant": "Needs texts with repeated tokens through three filters, compared with two.", "anchors": ["tokenstream.go:174-190", "filters/mapper/filter.go", "filters/stopwords/filter.go", "filters/contractions/filter.go", "cmd/jargon/main.go"]}
{"id": "C127", "title": "Accents are folded however they are written", "statement": "A letter with accents folds to the letter, whether it is one character or the letter with combining marks after it; so folding and normalization may come in either order. (False: no combining mark is in the table, so a text of ASCII characters and combining marks, as form D makes of Latin texts, is not changed at all; \"é\" becomes \"e\" before, but not after, it is decomposed. True of letters that are one character, but for two, and of filters if the text is normalized already and folding leaves it so.)", "quantifier": "every text, every normalization form", "why_tests_cant": "The tests of folding use composed letters only.", "anchors": ["filters/ascii/fold.go: FoldString", "filters/ascii/filter.go", "filters/norm/filter.go:9-32"]}
{"id": "C128", "title": "Contractions may be expanded before or after synonyms", "statement": "A synonyms filter and the expansion of contractions give the same tokens in either order, if no canonical is a contraction. (False: \"we'll Barton\" names the player Will Barton if contractions are expanded first, and no one if not. True if expansion neither makes nor breaks a synonym in the text.)", "quantifier": "every table of synonyms, every text", "why_tests_cant": "The tests use one filter at a time.", "anchors": ["filters/contractions/filter.go: next, tryExpansion", "filters/synonyms/filter.go: next, wordrun", "filters/nba/filter.go"]}
{"id": "C129", "title": "Contractions may be expanded before or after Handles and Hashtags", "statement": "A sigil filter and the expansion of contractions give the same tokens in either order. (False: \"#gonna\" is the hashtag \"#gonna\" if contractions are expanded afterwards, and \"#going to\" if before; \"@he's\" is the handle \"@he\" only if they are expanded before. True if no contraction follows a mark immediately.)", "quantifier": "every text", "why_tests_cant": "The tests use one filter at a time.", "anchors": ["filters/contractions/filter.go: next, tryExpansion", "filters/sigil/filter.go: next, try", "filters/twitter/filter.go"]}
{"id": "C130", "title": "Filters that look at one token at a time treat each token alone", "statement": "Any pipeline of stemmers, normalization, folding, stop words, contractions, Where, Words and Lemmas makes of a text what it makes of each of its tokens by itself, one after the other; so whether two such pipelines agree, for example whether two such filters may be swapped, shows on texts of one token. Handles, synonyms filters and Distinct are not of this kind.", "quantifier": "every pipeline of these filters, every text, every end of the stream", "why_tests_cant": "Pipelines and texts are unbounded.", "anchors": ["tokenstream.go: Filter, Where", "filters/mapper/filter.go: next", "filters/stopwords/filter.go: next", "filters/contractions/filter.go: next, tryExpansion"]}
{"id": "C131", "title": "A synonyms filter may come before or after Handles and Hashtags", "statement": "A synonyms filter and a sigil filter give the same tokens in either order. (False: \"@golang\" stays the handle \"@golang\" if Tags comes after Handles, and becomes the handle \"@go\" if before. True of Tags and Handles, and of CurrentPlayers with either, if no synonym begins immediately after a mark and the only space token that is not punctuation is the single space.)", "quantifier": "every text", "why_tests_cant": "The tests use one filter at a time.", "anchors": ["filters/synonyms/filter.go: next, fill, wordrun", "filters/sigil/filter.go: next, try", "filters/twitter/filter.go", "filters/stackoverflow/filter.go", "filters/nba/filter.go"]}
{"id": "C132", "title": "Tokens may be selected before or after Handles and Hashtags", "statement": "Removing stop words, or selecting tokens otherwise, and a sigil filter give the same tokens in either order. (False: with the stop word \"the\", the handle \"@the\" is lost if stop words are removed first, and \"the@bob\" then becomes a handle; Words before Handles leaves no handle. True of stop words that do not begin with a mark or stand next to one.)", "quantifier": "every text, every list of stop words", "why_tests_cant": "The tests use one filter at a time.", "anchors": ["filters/stopwords/filter.go", "tokenstream.go: Where, Words", "filters/sigil/filter.go: next, try", "filters/twitter/filter.go"]}
{"id": "C133", "title": "Stop words may be removed before or after contractions are expanded", "statement": "Removing stop words, or selecting tokens otherwise, and expanding contractions give the same tokens in either order, if no contraction is a stop word. (False: with the stop word \"not\", \"can't\" becomes \"can\" and a space in one order and \"can not\" in the other; Words before the expansion leaves a space between \"can\" and \"not\". True exactly of texts in which each token is kept or removed together with all it expands to.)", "quantifier": "every text, every list of stop words", "why_tests_cant": "The tests use one filter at a time.", "anchors": ["filters/stopwords/filter.go", "tokenstream.go: Where, Words", "filters/contractions/filter.go"]}
{"id": "C134", "title": "Valid UTF-8 stays valid", "statement": "If a text is valid UTF-8, so is every token any pipeline of filters makes of it, and so is the text these tokens make up; the same of a page that is valid UTF-8, and of what the program writes for a text or a page. What the shipped filters put into a text is valid UTF-8.", "quantifier": "every valid text or page, every pipeline of built-in filters", "why_tests_cant": "The tests use a few short texts; a filter that cuts or mixes bytes would show only at a character the tests do not have.", "anchors": ["tokenizer.go", "tokenizer_html.go", "filters/ascii/fold.go: FoldString", "filters/contractions/filter.go", "filters/sigil/filter.go: try", "filters/synonyms/filter.go", "filters/nba/generated.go", "filters/stackoverflow/generated.go"]}
{"id": "C135", "title": "No text vanishes", "statement": "A pipeline of filters that replace (stemmers, normalization, folding, contractions, sigil filters, synonyms filters without a synonym of the empty string) delivers nothing only if it is given nothing; each of them makes at least one token of as many words as its longest synonym has (two for a sigil filter, one for the others). So the program writes something exactly if there is a text. The shipped tables map nothing to the empty string.", "quantifier": "every text, every stream that ends, every pipeline of filters that replace", "why_tests_cant": "The tests have no text that is short enough, or table that is odd enough, to be swallowed as a whole; what is lost at the end of a stream only shows in texts that end there.", "anchors": ["filters/sigil/filter.go: try", "filters/synonyms/filter.go", "filters/contractions/filter.go", "filters/mapper/filter.go", "cmd/jargon/main.go", "filters/nba/generated.go", "filters/stackoverflow/generated.go"]}
{"id": "C136", "title": "It makes no difference how lines are ended", "statement": "A text whose lines end with CR LF is treated as the same text with LF: through any pipeline of filters of the library that line ends pass (all shipped ones do), the tokens are the same but for the line ends, so that the text that comes out has the lines of the other, ended as in the text that went in. Once only the words are left there is no difference at all.", "quantifier": "every text whose lines do not themselves end with CR, every pipeline of filters that line ends pass", "why_tests_cant": "The tests are texts of Unix, or of one line; a filter that looked at a CR as at a word, or merged it with a handle, would show only in a file from Windows.", "anchors": ["tokenizer.go", "punct.go", "token.go", "filters/sigil/filter.go: try", "filters/twitter", "filters/synonyms/filter.go", "filters/contractions/filter.go"]}
{"id": "C137", "title": "A byte-order mark at the start of a text makes no difference", "statement": "A text that begins with U+FEFF, as files from Windows do, has the tokens of the text without it, after a token for the mark: the mark does not stick to the first word, and the filters that come ready for use do with the rest what they do without the mark. The program writes the mark in a line of its own and then what it writes for the text.", "quantifier": "every text that does not go on with a combining character, every pipeline of filters that the mark passes, and every list of filters of the program without -distinct", "why_tests_cant": "No test has a mark; a tokenizer that left it at the first word would make that word unknown to every table, and only the first word of a file.", "anchors": ["tokenizer.go", "token.go", "filters/sigil/filter.go: try", "filters/twitter/filter.go: legalHandle", "filters/synonyms/filter.go", "filters/contractions/filter.go", "filters/ascii/filter.go"]}
{"id": "C138", "title": "A line end at the end of a text makes no difference", "statement": "Whether a text ends with a line end or not, the tokens of the rest are the same through any pipeline of filters of the library that line ends pass or that only select: the line end is one token more, or none if a filter leaves it out. The program writes, with whatever filters, what it writes for the text without the line feed, and after it at most a line with the line feed.", "quantifier": "every text that does not end with CR, every pipeline of such filters, every list of filters of the program", "why_tests_cant": "The tests compare whole outputs of texts that all end in one way; that a last word is looked up as if more were to come, or dropped at the end, shows only when both ways are compared.", "anchors": ["tokenizer.go", "tokenstream.go", "filters/sigil/filter.go: try", "filters/synonyms/filter.go", "filters/contractions/filter.go", "cmd/jargon/main.go"]}
{"id": "C139", "title": "Brackets around a text make no difference", "statement": "A text in round, square or curly brackets has the tokens of the text without them, after a token for the one bracket and before one for the other, through any pipeline of the filters that come ready for use and the stemmers, and of any other filter that leaves brackets alone: handles, hashtags, tags, players and contractions at the very start or end of the text are recognised as without brackets. The program writes a line with each bracket and in between what it writes for the text.", "quantifier": "every text that does not begin with a combining character, every such pipeline, every list of filters of the program without -lemmas and -distinct", "why_tests_cant": "A test has one word or two in brackets at most; here the text in them is any, and so is the pipeline.", "anchors": ["tokenizer.go", "punct.go", "filters/sigil/filter.go: try", "filters/twitter/filter.go: legalHandle", "filters/synonyms/filter.go", "filters/contractions/filter.go", "filters/ascii/filter.go", "cmd/jargon/main.go"]}
{"id": "C140", "title": "It makes no difference where the input comes from and where the output goes", "statement": "Two runs of the program with the same filters, the same language and the same kind of output, that read the same text or page, from a file or from a pipe, and write to a file or to the standard output, end with the same exit code; and if they succeed, they have written the same bytes. In particular jargon -file a -out b puts into b what jargon writes when a is piped into it, if a and b are not the same file.", "quantifier": "every input, text or page, every file system, list of filters and size of the buffers", "why_tests_cant": "The tests run the program on one source each; buffer sizes depend on the source (by the size of the file), so that a fault at the edge of a buffer would show with one source and not with the other.", "anchors": ["cmd/jargon/main.go: setInput", "cmd/jargon/main.go: setOutput", "cmd/jargon/main.go: execute"]}
{"id": "C141", "title": "An element around a page makes no difference", "statement": "The tokens of a page with a start tag before it, other than of a script or style element, and an end tag after it are the token of the start tag, the tokens of the page, and the token of the end tag; and so it is after any filters that leave the two tags alone by themselves, and are not Distinct; all filters that come ready for use are like that. The program, with -html and any of -ascii, -contractions, -stack and -stem, writes the start tag, what it writes for the page, and the end tag.", "quantifier": "every page that ends with a tag, every such pair of tags in ASCII, and every list of filters", "why_tests_cant": "A test has one page, and looks at tokens in the middle of it. A filter that looks back (to the token before a sigil) or ahead (to the end of the longest synonym) meets the begin and the end of the input in one of the pages, and a tag in the other.", "anchors": ["tokenizer_html.go: next", "filters/sigil/filter.go: next", "filters/synonyms/filter.go"]}
{"id": "C142", "title": "It makes no difference how many spaces are between two words", "statement": "Two texts that differ in the number of spaces at some place have the same tokens but for the one token of spaces there, and the same tokens, but for tokens of spaces, after any of the filters that come ready for use, the stemmers, Words, Lemmas, and any other filters that treat spaces alike however many there are (for a synonyms filter: that ignores spaces). After Words or Lemmas there is no difference at all, whatever filters follow. The program writes the same with -lemmas, if -distinct does not come before it.", "quantifier": "every text, every place in it, all numbers of spaces, and every list of such filters", "why_tests_cant": "Tests have a single space between words. Whether a wider one counts (towards the number of tokens a synonym may have, in the look-up, before a sigil) is seen only in texts with one.", "anchors": ["tokenizer.go: next", "filters/synonyms/filter.go", "filters/synonyms/trie/trie.go", "filters/sigil/filter.go: next", "cmd/jargon/main.go: execute"]}
{"id": "C143", "title": "A page may be filtered in parts, cut after a tag", "statement": "The tokens of a page after filters are those of the part up to and including a tag, after the filters, followed by those of the rest, after the filters. No filter replaces or joins anything across a tag. This holds for the filters that come ready for use and the stemmers if the tag is in ASCII, for every synonyms filter, and for Words and Lemmas at the end of the list. With -html and without -distinct, the program writes for such a page what it writes for the first part and then what it writes for the rest.", "quantifier": "every page without script and style elements before the cut, every tag in it, and every list of such filters", "why_tests_cant": "Tests have short pages with one filter. That no phrase is found and no sigil joined across a tag, whatever is before and after it, is a statement about all pages.", "anchors": ["tokenizer_html.go: TokenizeHTML, next", "filters/synonyms/filter.go: fill, next", "filters/sigil/filter.go: next", "cmd/jargon/main.go: execute"]}
{"id": "C144", "title": "A comment after a tag makes no difference to the rest of a page", "statement": "A comment put into a page after a tag is one more token, and changes no other, for the filters that come ready for use, the stemmers and every synonyms filter (the same holds for a tag that does not begin a script or style element). After Words or Lemmas there is no difference at all, whatever filters follow. With -html and without -distinct, the program writes just the comment in addition, and with -lemmas the same as without the comment.", "quantifier": "every page, every place after a tag before which there is no script or style element, every comment in ASCII, and every list of such filters", "why_tests_cant": "Tests have one comment at one place. That it neither hides a word nor joins those before and after it is a statement about all pages and all comments, of which some (with dashes, or a > in it) are read in special ways.", "anchors": ["tokenizer_html.go: TokenizeHTML, next", "filters/synonyms/filter.go: fill, next", "filters/sigil/filter.go: next", "cmd/jargon/main.go: execute"]}
