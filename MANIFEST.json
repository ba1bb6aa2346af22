{
 "claims": [
  {
   "property": "C01",
   "status": "proved",
   "theorems": [
    "Jargon.C01_newToken_exact",
    "Jargon.C01_token_unique"
   ],
   "note": "For every byte string and every Unicode classification; the rune cache of punct.go is included."
  },
  {
   "property": "C02",
   "status": "proved",
   "theorems": [
    "Jargon.C02_one_iterator"
   ],
   "note": "For every sequence of Next/Scan/Token/Err calls on every stream whose outcome is finite; refinement to a cursor."
  },
  {
   "property": "C03",
   "status": "proved",
   "theorems": [
    "Jargon.C03_tokenize_round_trip",
    "Jargon.C03_tokenizeString_round_trip"
   ],
   "note": "For every lawful segmenter (Env.Lawful: segments are not empty and concatenate to the input)."
  },
  {
   "property": "C04",
   "status": "proved",
   "theorems": [
    "Jargon.C04_consumers_report_error",
    "Jargon.C04_tokenize_error"
   ],
   "note": "The error of the reader is reported by Next, ToSlice, String, WriteTo, Count and Scan/Err, after all tokens read before it."
  },
  {
   "property": "C05",
   "status": "proved",
   "theorems": [
    "Jargon.C05_where_keeps_matching"
   ],
   "note": ""
  },
  {
   "property": "C06",
   "status": "proved",
   "theorems": [
    "Jargon.C06_words",
    "Jargon.C06_lemmas"
   ],
   "note": ""
  },
  {
   "property": "C07",
   "status": "proved",
   "theorems": [
    "Jargon.C07_distinct"
   ],
   "note": ""
  },
  {
   "property": "C08",
   "status": "proved",
   "theorems": [
    "Jargon.C08_consumers_agree"
   ],
   "note": ""
  },
  {
   "property": "C09",
   "status": "proved",
   "theorems": [
    "Jargon.C09_writeTo_all",
    "Jargon.C09_writeTo_fails",
    "Jargon.C09_cases"
   ],
   "note": "For every io.Writer that keeps its contract, including short and failing writes."
  },
  {
   "property": "C10",
   "status": "proved",
   "theorems": [
    "Jargon.C10_filter_order",
    "Jargon.C10_chain",
    "Jargon.C10_pipeline"
   ],
   "note": "C10_pipeline covers every list of built-in filters; the hypotheses on third-party code are Builtin.OK."
  },
  {
   "property": "C11",
   "status": "proved",
   "theorems": [
    "Jargon.C11_errors_forwarded"
   ],
   "note": ""
  },
  {
   "property": "C12",
   "status": "proved",
   "theorems": [
    "Jargon.C12_sticky_end"
   ],
   "note": ""
  },
  {
   "property": "C13",
   "status": "proved",
   "theorems": [
    "Jargon.C13_no_panic"
   ],
   "note": ""
  },
  {
   "property": "C14",
   "status": "proved",
   "theorems": [
    "Jargon.C14_queue_is_fifo",
    "Jargon.C14_lists",
    "Jargon.C14_panics",
    "Jargon.C14_new_shares_the_callers_slice"
   ],
   "note": "Slices are modelled with a heap of backing arrays and an arbitrary growth policy. C14_new_shares_the_callers_slice records that New(slice...) aliases the caller's array. Drop of a negative count is not modelled."
  },
  {
   "property": "C15",
   "status": "proved",
   "theorems": [
    "Jargon.C15_popTo",
    "Jargon.C15_flushTo",
    "Jargon.C15_flush_to_itself"
   ],
   "note": "Holds between different queues. C15_flush_to_itself records that q.FlushTo(q) loses the tokens."
  },
  {
   "property": "C16",
   "status": "proved",
   "theorems": [
    "Jargon.C16_mapper_one_to_one",
    "Jargon.C16_mapper_nil"
   ],
   "note": "Holds for mapper functions that return a token; C16_mapper_nil records that a nil ends the stream early."
  },
  {
   "property": "C17",
   "status": "proved",
   "theorems": [
    "Jargon.C17_ascii_unchanged",
    "Jargon.C17_nonempty",
    "Jargon.C17_result"
   ],
   "note": ""
  },
  {
   "property": "C18",
   "status": "partial",
   "theorems": [
    "Jargon.C18_flag_and_idempotent",
    "Jargon.C18_violated_tilde",
    "Jargon.C18_complete_partial",
    "Jargon.C18_exact"
   ],
   "note": "False: U+2053 and U+FF5E write '~' without setting the flag (C18_violated_tilde). Proved for every string without these two characters or with another foldable one; the flag and idempotence are proved for all strings. C18_exact: these strings, and no others, are left incomplete."
  },
  {
   "property": "C19",
   "status": "proved",
   "theorems": [
    "Jargon.C19_ascii_fold"
   ],
   "note": ""
  },
  {
   "property": "C20",
   "status": "proved",
   "theorems": [
    "Jargon.C20_stemmer"
   ],
   "note": "The snowball stemmer is any function; non-emptiness of stems is only assumed where needed."
  },
  {
   "property": "C21",
   "status": "proved",
   "theorems": [
    "Jargon.C21_norm"
   ],
   "note": "x/text/unicode/norm is any form with NormForm.Lawful."
  },
  {
   "property": "C22",
   "status": "proved",
   "theorems": [
    "Jargon.C22_stopwords_case_sensitive",
    "Jargon.C22_stopwords_ignore_case",
    "Jargon.C22_stopwords_idempotent"
   ],
   "note": ""
  },
  {
   "property": "C23",
   "status": "proved",
   "theorems": [
    "Jargon.C23_contractions",
    "Jargon.C23_failure"
   ],
   "note": ""
  },
  {
   "property": "C24",
   "status": "proved",
   "theorems": [
    "Jargon.C24_generated",
    "Jargon.C24_well_formed",
    "Jargon.C24_any_case"
   ],
   "note": "The whole shipped table is checked in the kernel against the model of its generator, for every map iteration order."
  },
  {
   "property": "C25",
   "status": "proved",
   "theorems": [
    "Jargon.C25_expand_idempotent"
   ],
   "note": "For the shipped table and every segmenter that gets through its expansions."
  },
  {
   "property": "C26",
   "status": "partial",
   "theorems": [
    "Jargon.C26_violated_contractions",
    "Jargon.C26_lemmas_partial",
    "Jargon.C26_pipeline_partial"
   ],
   "note": "False for contractions (C26_violated_contractions): expanded tokens are not lemmas. Proved for every other filter and every pipeline of them."
  },
  {
   "property": "C27",
   "status": "proved",
   "theorems": [
    "Jargon.C27_sigil_text"
   ],
   "note": ""
  },
  {
   "property": "C28",
   "status": "partial",
   "theorems": [
    "Jargon.C28_violated_word_before",
    "Jargon.C28_violated_double_sigil",
    "Jargon.C28_exact",
    "Jargon.C28_sigil_merges_partial"
   ],
   "note": "False after a look-ahead that turned out illegal: \"@日本@bob\", \"@@bob\". C28_sigil_merges_partial proves it for every input in which no sigil after such a look-ahead is treated wrongly (Calm)."
  },
  {
   "property": "C29",
   "status": "proved",
   "theorems": [
    "Jargon.C29_legalHandle",
    "Jargon.C29_legalHashtag",
    "Jargon.C29_filters"
   ],
   "note": ""
  },
  {
   "property": "C30",
   "status": "proved",
   "theorems": [
    "Jargon.C30_last_added_wins",
    "Jargon.C30_trie_search",
    "Jargon.C30_unique"
   ],
   "note": ""
  },
  {
   "property": "C31",
   "status": "proved",
   "theorems": [
    "Jargon.C31_synonyms_greedy",
    "Jargon.C31_synonyms_error"
   ],
   "note": ""
  },
  {
   "property": "C32",
   "status": "proved",
   "theorems": [
    "Jargon.C32_replaced_spans",
    "Jargon.C32_split"
   ],
   "note": ""
  },
  {
   "property": "C33",
   "status": "proved",
   "theorems": [
    "Jargon.C33_no_synonym",
    "Jargon.C33_empty_mapping"
   ],
   "note": ""
  },
  {
   "property": "C34",
   "status": "proved",
   "theorems": [
    "Jargon.C34_insensitive"
   ],
   "note": ""
  },
  {
   "property": "C35",
   "status": "proved",
   "theorems": [
    "Jargon.C35_synonyms_recognised"
   ],
   "note": ""
  },
  {
   "property": "C36",
   "status": "proved",
   "theorems": [
    "Jargon.C36_empty_canonical"
   ],
   "note": ""
  },
  {
   "property": "C37",
   "status": "proved",
   "theorems": [
    "Jargon.C37_pieces",
    "Jargon.C37_comma_separated"
   ],
   "note": ""
  },
  {
   "property": "C38",
   "status": "proved",
   "theorems": [
    "Jargon.C38_iteration_order",
    "Jargon.C38_conflict_depends_on_order"
   ],
   "note": ""
  },
  {
   "property": "C39",
   "status": "proved",
   "theorems": [
    "Jargon.C39_stackoverflow_unambiguous",
    "Jargon.C39_nba_unambiguous",
    "Jargon.C39_same_every_run"
   ],
   "note": "Whole shipped tables, checked in the kernel and lifted to every segmenter that sets commas apart and every case mapping that is right on Latin letters."
  },
  {
   "property": "C40",
   "status": "partial",
   "theorems": [
    "Jargon.C40_mapper_reads_one",
    "Jargon.C40_contractions_reads_one",
    "Jargon.C40_sigil_reads_two",
    "Jargon.C40_where_reads",
    "Jargon.C40_stopwords_reads",
    "Jargon.C40_mapper_endless",
    "Jargon.C40_contractions_endless",
    "Jargon.C40_sigil_endless",
    "Jargon.C40_synonyms_never_answers",
    "Jargon.C40_partial",
    "Jargon.C40_violated"
   ],
   "note": "False for synonyms (C40_violated): the first Next drains its input, so it never answers on an endless stream. Proved for all other filters: how much each Next reads, and that endless streams stay endless."
  },
  {
   "property": "C41",
   "status": "proved",
   "theorems": [
    "Jargon.C41_built_once",
    "Jargon.C41_no_race",
    "Jargon.C41_as_if_alone",
    "Jargon.C41_no_deadlock"
   ],
   "note": "Every schedule of any number of goroutines; one step is one access to shared memory, sequentially consistent."
  },
  {
   "property": "C42",
   "status": "partial",
   "theorems": [
    "Jargon.C42_first_use_partial",
    "Jargon.C42_at_most_one_reports",
    "Jargon.C42_others_panic",
    "Jargon.C42_violated"
   ],
   "note": "False (C42_violated): after a failed build only the stream of the first call reports the error, others panic on the first word. Proved for the first stream."
  },
  {
   "property": "C43",
   "status": "proved",
   "theorems": [
    "Jargon.C43_html_tokens",
    "Jargon.C43_html_tags_only"
   ],
   "note": "The golang.org/x/net/html tokenizer is any sequence of HTML tokens; its contract that text tokens are not empty is assumed."
  },
  {
   "property": "C44",
   "status": "partial",
   "theorems": [
    "Jargon.C44_violated",
    "Jargon.C44_raw_for_ever",
    "Jargon.C44_exact",
    "Jargon.C44_html_script_partial"
   ],
   "note": "False (C44_violated): text after </script> or </style> is never tokenized again (C44_raw_for_ever). Proved for documents without such text."
  },
  {
   "property": "C45",
   "status": "partial",
   "theorems": [
    "Jargon.C45_exact",
    "Jargon.C45_html_text",
    "Jargon.C45_violated",
    "Jargon.C45_html_text_verbatim_partial",
    "Jargon.C45_escape_bytewise"
   ],
   "note": "The concatenation of rendered tokens is proved in full. That text is rendered unchanged is false (C45_violated): Token.String escapes. Proved for text without the six escaped characters; C45_escape_bytewise says what happens to the others. C45_exact: text is unchanged if and only if it has none of them."
  },
  {
   "property": "C46",
   "status": "proved",
   "theorems": [
    "Jargon.C46_html_end",
    "Jargon.C46_html_scan_error"
   ],
   "note": ""
  },
  {
   "property": "C47",
   "status": "proved",
   "theorems": [
    "Jargon.C47_input"
   ],
   "note": ""
  },
  {
   "property": "C48",
   "status": "proved",
   "theorems": [
    "Jargon.C48_filters"
   ],
   "note": ""
  },
  {
   "property": "C49",
   "status": "proved",
   "theorems": [
    "Jargon.C49_execute",
    "Jargon.C49_program",
    "Jargon.C49_text",
    "Jargon.C49_identity",
    "Jargon.C49_source"
   ],
   "note": "For every writer that keeps the io.Writer contract, every buffer size, with and without -count and -lines."
  },
  {
   "property": "C50",
   "status": "proved",
   "theorems": [
    "Jargon.C50_buffers"
   ],
   "note": ""
  },
  {
   "property": "C51",
   "status": "proved",
   "theorems": [
    "Jargon.C51_web",
    "Jargon.C51_no_injection",
    "Jargon.C51_displayed",
    "Jargon.C51_health"
   ],
   "note": "html/template is modelled for the contexts of the page; the HTML reader in Spec/Web.lean is independent of it."
  },
  {
   "property": "C52",
   "status": "proved",
   "theorems": [
    "Jargon.C52_nonempty",
    "Jargon.C52_tokenize_nonempty"
   ],
   "note": ""
  },
  {
   "property": "C53",
   "status": "partial",
   "theorems": [
    "Jargon.C53_violated_case",
    "Jargon.C53_case_partial",
    "Jargon.C53_case_strings_partial",
    "Jargon.C53_exact"
   ],
   "note": "False for three letter pairs (U+01E5, U+01E7, U+A784/5). Proved for all other pairs of Unicode's simple case mapping in the folding table. C53_exact: just these three pairs."
  },
  {
   "property": "C54",
   "status": "partial",
   "theorems": [
    "Jargon.C54_violated_fullwidth",
    "Jargon.C54_ranges_partial",
    "Jargon.C54_exact"
   ],
   "note": "False for U+FF40 and U+FF5C, which the table lacks. Proved for all other full-width forms and for circled letters. C54_exact: just these two."
  },
  {
   "property": "C55",
   "status": "partial",
   "theorems": [
    "Jargon.C55_violated_diacritics",
    "Jargon.C55_diacritics_partial",
    "Jargon.C55_exact"
   ],
   "note": "False for U+01E7 (folds to a capital) and U+212B (missing). Proved for all other accented Latin letters of the Unicode decompositions. C55_exact: just these two."
  },
  {
   "property": "C56",
   "status": "proved",
   "theorems": [
    "Jargon.C56_stackoverflow_canonicals",
    "Jargon.C56_nba_canonicals"
   ],
   "note": ""
  },
  {
   "property": "C57",
   "status": "partial",
   "theorems": [
    "Jargon.C57_violated",
    "Jargon.C57_single_token_partial",
    "Jargon.C57_no_new_synonym_partial"
   ],
   "note": "False: \"java applets\" -> \"java applet\" -> \"applet\". Proved for streams of one token, and for streams whose replaced text has no new synonym in it (C57_no_new_synonym_partial)."
  },
  {
   "property": "C58",
   "status": "partial",
   "theorems": [
    "Jargon.C58_violated",
    "Jargon.C58_violated_csharp",
    "Jargon.C58_recognised_partial",
    "Jargon.C58_stackoverflow_partial",
    "Jargon.C58_uax29"
   ],
   "note": "False: \"c#\", \".net\" and others are listed but have a token of punctuation. C58_uax29 says exactly which: with the word rules of UAX #29 a listed text is replaced if and only if it is not one of the 45 in soLost (of 4,079). C58_recognised_partial is for any scanner and any mapping."
  },
  {
   "property": "C59",
   "status": "partial",
   "theorems": [
    "Jargon.C59_violated",
    "Jargon.C59_violated_after",
    "Jargon.C59_plain_partial"
   ],
   "note": "False in both directions: --stem and -stem=true are ignored, -file -stem applies the stemmer. Proved for arguments in the plain style. Assumes that clipperhouse/flag parses like the standard flag package."
  },
  {
   "property": "C60",
   "status": "partial",
   "theorems": [
    "Jargon.C60_violated",
    "Jargon.C60_lost_at_most_buffer_partial",
    "Jargon.C60_program_partial"
   ],
   "note": "False: on an error execute returns without flushing. Proved: at most one buffer is lost."
  },
  {
   "property": "C61",
   "status": "partial",
   "theorems": [
    "Jargon.C61_violated",
    "Jargon.C61_other_file_partial",
    "Jargon.C61_exact"
   ],
   "note": "False if input and output are the same file. Proved for different files. C61_exact: for text, with the same file the output is right only if it is that of an empty file."
  },
  {
   "property": "C62",
   "status": "proved",
   "theorems": [
    "Jargon.C62_decode",
    "Jargon.C62_strings",
    "Jargon.C62_loop",
    "Jargon.C62_encode"
   ],
   "note": "The model's rune loop is the inverse of UTF-8 encoding as Lean's String defines it, for all strings; invalid bytes give U+FFFD one at a time."
  },
  {
   "property": "C63",
   "status": "partial",
   "theorems": [
    "Jargon.C63_exact",
    "Jargon.C63_violated_port",
    "Jargon.C63_port_partial"
   ],
   "note": "False for U+02A8, which is folded to \"tr\" instead of \"tc\", and for a lone \"~\" variant (C63_violated_port). Proved for all other characters, over Lucene's whole switch. C63_exact: for which strings the two agree, as an equivalence."
  },
  {
   "property": "C64",
   "status": "proved",
   "theorems": [
    "Jargon.C64_nba_error",
    "Jargon.C64_nba_table",
    "Jargon.C64_nba_shipped"
   ],
   "note": "Fetching the roster (fetchNames) is not modelled: any list of names."
  },
  {
   "property": "C65",
   "status": "partial",
   "theorems": [
    "Jargon.C65_violated_dash",
    "Jargon.C65_violated_diacritics",
    "Jargon.C65_players_partial",
    "Jargon.C65_uax29"
   ],
   "note": "False: \"Al-Farouq Aminu\" itself is not recognised, as \"-\" is a punctuation token; nor a name with some diacritics left out (C65_violated_dash, C65_violated_diacritics). C65_uax29: as listed, a name is recognised if and only if it is not one of the 30 in nbaLost (of 530). C65_players_partial: names with all or none of the diacritics and no punctuation tokens."
  },
  {
   "property": "C66",
   "status": "partial",
   "theorems": [
    "Jargon.C66_so_error",
    "Jargon.C66_so_table",
    "Jargon.C66_violated_ignore",
    "Jargon.C66_ignore_partial"
   ],
   "note": "All proved except that ignoring fails for \"drop-down\" (C66_violated_ignore): the tag's name is looked up with a space for the dash. Requests and JSON decoding are a parameter; pauses are not modelled."
  },
  {
   "property": "C67",
   "status": "partial",
   "theorems": [
    "Jargon.C67_violated_seen",
    "Jargon.C67_one_tag_partial"
   ],
   "note": "False (C67_violated_seen): the check for duplicates covers only the pages read so far. Proved if a tag that is also a synonym of another tag is never on an earlier page."
  },
  {
   "property": "C68",
   "status": "proved",
   "theorems": [
    "Jargon.C68_so_shipped"
   ],
   "note": "The order in which the API gave the tags is not known; some answers are constructed."
  },
  {
   "property": "C69",
   "status": "proved",
   "theorems": [
    "Jargon.C69_nba",
    "Jargon.C69_so",
    "Jargon.C69_file"
   ],
   "note": "Go source is judged by a scanner and grammar for the part of the language the files use (Spec/GoSource.lean). strconv.Quote, the printing of maps and ReplaceAll are modelled; strconv.IsPrint and format.Source are parameters with laws (FormatLaws: accepts and preserves such files, rejects a line break in a string literal)."
  },
  {
   "property": "C70",
   "status": "partial",
   "theorems": [
    "Jargon.C70_violated_brace",
    "Jargon.C70_violated_json",
    "Jargon.C70_full_false",
    "Jargon.C70_writes_partial",
    "Jargon.C70_exact_partial"
   ],
   "note": "False (C70_violated_brace, C70_violated_json): the breaking up of lines also acts inside literals, which makes formatting fail. Proved for tables without the strings of Unlucky; the shipped tables are such (C72). C70_exact_partial says exactly which tables can be written (Unwritable): the only unlucky string that does no harm is a key \", \" after other keys."
  },
  {
   "property": "C71",
   "status": "proved",
   "theorems": [
    "Jargon.C71_order",
    "Jargon.C71_increasing"
   ],
   "note": "Although a comment in filters/contractions/generate/main.go says that the order will look random."
  },
  {
   "property": "C72",
   "status": "proved",
   "theorems": [
    "Jargon.C72_contractions",
    "Jargon.C72_nba",
    "Jargon.C72_so"
   ],
   "note": "What the sites answered when the shipped files were generated is not known; some answers are constructed."
  },
  {
   "property": "C73",
   "status": "partial",
   "theorems": [
    "Jargon.C73_sigil_lost",
    "Jargon.C73_violated_synonyms",
    "Jargon.C73_violated_sigil",
    "Jargon.C73_full_false",
    "Jargon.C73_pipeline_partial",
    "Jargon.C73_sigil_partial"
   ],
   "note": "False: the synonyms filter gathers tokens and drops all it has gathered when upstream fails (C73_violated_synonyms); a sigil filter drops a sigil directly before the error (C73_violated_sigil). Proved for pipelines of the other filters, and for sigil filters when the last token is not the sigil. C73_sigil_lost: exactly what a sigil filter loses. A synonyms filter loses everything (C31)."
  },
  {
   "property": "C74",
   "status": "proved",
   "theorems": [
    "Jargon.C74_sigil_idempotent",
    "Jargon.C74_twitter_idempotent"
   ],
   "note": "No assumption on the tokens."
  },
  {
   "property": "C75",
   "status": "partial",
   "theorems": [
    "Jargon.C75_violated",
    "Jargon.C75_order_partial"
   ],
   "note": "False: \"#@x#y\" (C75_violated). Proved for tokens in which no sigil directly follows the other's look-ahead (Unmixed); TwitterLaws are the facts about unicode.IsLetter etc. of the two sigils."
  },
  {
   "property": "C76",
   "status": "proved",
   "theorems": [
    "Jargon.C76_buffered",
    "Jargon.C76_scanner_laws"
   ],
   "note": "FollowsUax29 is an assumption about the third-party scanner (for texts of less than 64 KiB, and of any size if each word and the next one fit into 64 KiB: Fits); C76_buffered derives it, and Lawful, for bufio.Scanner with a function that splits words, and shows that Tokenize of a reader is what Env has. WordTable.Right is about its property tables. The rules are written down from the annex in Spec/WordBreak.lean."
  },
  {
   "property": "C77",
   "status": "proved",
   "theorems": [
    "Jargon.C77_in_text"
   ],
   "note": "Under FollowsUax29. SetOffBefore and SetOffAfter say what may be around the contraction."
  },
  {
   "property": "C78",
   "status": "partial",
   "theorems": [
    "Jargon.C78_violated",
    "Jargon.C78_handles_partial",
    "Jargon.C78_violated_hashtags",
    "Jargon.C78_hashtags_partial"
   ],
   "note": "False: \"@bob's\" gives \"@\" and \"bob's\" (C78_violated), and a tag of ideographs is cut up, as each is a word (C78_violated_hashtags). Proved for handles, and for tags all of whose characters are letters, digits or low lines in the sense of Word_Break."
  },
  {
   "property": "C79",
   "status": "proved",
   "theorems": [
    "Jargon.C79_apart",
    "Jargon.C79_between_words",
    "Jargon.C79_tags_in_text",
    "Jargon.C79_names_in_text"
   ],
   "note": "Under FollowsUax29. BrokenBefore and BrokenAfter: punctuation, tab, line feed, or the start or end. C79_apart is for any mappings and any way of writing. Across spaces a longer synonym may begin earlier or end later; C79_between_words is for texts between words where none does (NoCross)."
  },
  {
   "property": "C80",
   "status": "partial",
   "theorems": [
    "Jargon.C80_in_text_partial",
    "Jargon.C80_exact",
    "Jargon.C80_violated",
    "Jargon.C80_tags_partial"
   ],
   "note": "False: \"node-js\", \"node/js\" and \"node. js\" are not recognised although \"node.js\" is listed. C80_exact says which ways of writing are recognised: those without a punctuation token that start and end with a word and have at most five words. C80_in_text_partial is the same within a text."
  },
  {
   "property": "C81",
   "status": "partial",
   "theorems": [
    "Jargon.C81_violated",
    "Jargon.C81_violated_attribute",
    "Jargon.C81_reads_back",
    "Jargon.C81_reads_back_tokens",
    "Jargon.C81_verbatim_partial"
   ],
   "note": "False: tags are written anew, so <P> becomes <p>, and <a href=x> gets quotation marks. Proved: for a document whose comments and doctypes can be written as they are (Kept), the text of the tokens, read as HTML, is the same sequence of tags, attributes, comments and texts (C81_reads_back), and a document written as the tokenizer writes is left verbatim (C81_verbatim_partial). Comments that cannot be written as they are: C99. Documents with raw-text elements (script, style, title, textarea and so on): C85. The reader resolves character references from any table that has amp, lt and gt."
  },
  {
   "property": "C82",
   "status": "partial",
   "theorems": [
    "Jargon.C82_contractions",
    "Jargon.C82_sigil",
    "Jargon.C82_distinct",
    "Jargon.C82_synonyms_keep_all",
    "Jargon.C82_violated",
    "Jargon.C82_expand",
    "Jargon.C82_partial"
   ],
   "note": "True for contractions (at most 16 tokens for the shipped table) and for handles and hashtags (at most one). Distinct remembers exactly the texts it delivered. False for synonyms, whatever the mappings: the first Next reads the whole stream and queues all of the output (C82_synonyms_keep_all, C82_violated). Tokens are counted, not bytes; capacity left in slices is not counted."
  },
  {
   "property": "C83",
   "status": "partial",
   "theorems": [
    "Jargon.C83_pop_moves",
    "Jargon.C83_synonyms_pop",
    "Jargon.C83_synonyms_quadratic",
    "Jargon.C83_violated",
    "Jargon.C83_expand_partial",
    "Jargon.C83_sigil_partial"
   ],
   "note": "False for synonyms, whatever the mappings: Drop copies the rest of the queue, so n tokens cost n(n-1)/2 moves. Proved linear for contractions and sigils. Only moves within queues by Pop are counted, not the time of scanning and lookup."
  },
  {
   "property": "C84",
   "status": "partial",
   "theorems": [
    "Jargon.C84_violated",
    "Jargon.C84_partial"
   ],
   "note": "False for one example: don't becomes 'do not', not 'does not'; and the flag -cont of the same page is refused. All other examples for tags, contractions and folding hold in every text (C84_partial). The examples for the stemmer depend on the snowball library, which is a parameter of the model; those for handles and hashtags are C78."
  },
  {
   "property": "C85",
   "status": "partial",
   "theorems": [
    "Jargon.C85_escaped",
    "Jargon.C85_kept_partial",
    "Jargon.C85_violated"
   ],
   "note": "False: the contents of script, style and other raw-text elements are escaped, so if (a<b) becomes if (a&lt;b). Proved, for documents whose comments and doctypes can be written as they are (Kept): that is all that happens (C85_escaped), and exactly the documents without & ' \" < > and CR in such contents are kept (C85_kept_partial). Which end tags end a script after <!-- is left open in the reader (closesScript)."
  },
  {
   "property": "C86",
   "status": "partial",
   "theorems": [
    "Jargon.C86_text",
    "Jargon.C86_tag_in_text",
    "Jargon.C86_page",
    "Jargon.C86_page_partial",
    "Jargon.C86_violated"
   ],
   "note": "False: after the start of a script or style element the texts are not cut into words, so tags in them are not found; and texts are searched in their escaped form. Proved: exactly what is written for every page (C86_page), that it is right for pages without those (C86_page_partial), and for every plain text (C86_text, C86_tag_in_text). Texts with overlong words are left out, where the scanner may fail."
  },
  {
   "property": "C87",
   "status": "partial",
   "theorems": [
    "Jargon.C87_violated_names",
    "Jargon.C87_violated",
    "Jargon.C87_exact_partial",
    "Jargon.C87_mapping_partial",
    "Jargon.C87_violated_nba",
    "Jargon.C87_stackoverflow_partial"
   ],
   "note": "False for every filter: the types and fields that are printed (synonyms.Filter, trie.Node, Trie, Root and so on) are not declared (C87_violated_names); and runes are not escaped, so for the NBA filter the text is not even Go tokens (C87_violated_nba). Proved: with the structs declared as printed, the text declares the filter if and only if its runes need no escape (C87_exact_partial), stated for a mapping in C87_mapping_partial; the Stack Overflow filter is such a one. The grammar is that of composite literals, not all of Go."
  },
  {
   "property": "C88",
   "status": "proved",
   "theorems": [
    "Jargon.C88_reads",
    "Jargon.C88_exact"
   ],
   "note": "Which runes are printable is a parameter, as for the generators. Whether a token is a lemma is not printed."
  },
  {
   "property": "C89",
   "status": "partial",
   "theorems": [
    "Jargon.C89_any_reads",
    "Jargon.C89_partial",
    "Jargon.C89_violated_at_64KiB",
    "Jargon.C89_violated"
   ],
   "note": "bufio.Scanner and the readers are modelled (Model/Scanner.lean); the split function is any one that is steady (more data does not change an answer), as a word splitter is. Proved for readers whose end comes without data (C89_any_reads) and for all readers if every token fits (C89_partial). False in one case (C89_violated): a last word of exactly 64 KiB is delivered if the end comes with it and is an error if the end comes after it."
  },
  {
   "property": "C90",
   "status": "partial",
   "theorems": [
    "Jargon.C90_violated_long",
    "Jargon.C90_violated",
    "Jargon.C90_partial",
    "Jargon.C90_short_words_partial"
   ],
   "note": "False: a word of more than 64 KiB ends the stream with an error (C90_violated_long, for any reader and any text with such a word). Proved for texts of any length from any reader if each word and the next one fit into 64 KiB (C90_partial), in particular if no word is longer than 32766 bytes."
  },
  {
   "property": "C91",
   "status": "proved",
   "theorems": [
    "Jargon.C91_scan",
    "Jargon.C91_read_ahead"
   ],
   "note": "Of bufio.Scanner as modelled; C91_scan is about one call, C91_read_ahead about any number of them."
  },
  {
   "property": "C92",
   "status": "partial",
   "theorems": [
    "Jargon.C92_partial",
    "Jargon.C92_violated_tokens",
    "Jargon.C92_violated"
   ],
   "note": "False: after the error that a token is too long, Next goes on with the text in the buffer, as if it ended there (C92_violated_tokens). Proved for the errors of readers (C92_partial)."
  },
  {
   "property": "C93",
   "status": "partial",
   "theorems": [
    "Jargon.C93_tokenize",
    "Jargon.C93_html",
    "Jargon.C93_pipeline_partial",
    "Jargon.C93_synonyms_partial",
    "Jargon.C93_violated_stuck",
    "Jargon.C93_violated_tokens",
    "Jargon.C93_violated_error",
    "Jargon.C93_violated"
   ],
   "note": "False for synonyms filters: after the error they deliver the tokens they had held back (C93_violated_tokens), or report an internal error of their own for ever (C93_violated_error, C93_violated_stuck). C93_synonyms_partial says that one of these two always happens, and exactly what is delivered. Proved for the tokenizers and for all pipelines of the other filters (C93_tokenize, C93_html, C93_pipeline_partial). The one error the scanner does not keep is C92."
  },
  {
   "property": "C94",
   "status": "partial",
   "theorems": [
    "Jargon.C94_partial",
    "Jargon.C94_distinct_lemmas",
    "Jargon.C94_repeated",
    "Jargon.C94_stopwords",
    "Jargon.C94_violated",
    "Jargon.C94_violated_text"
   ],
   "note": "False for Distinct and Lemmas (C94_violated, C94_violated_text): Distinct may keep the occurrence of a text that is no lemma. C94_distinct_lemmas says exactly when the two can be swapped; C94_partial proves the swap for all other pairs. Repetition (C94_repeated) and merged stopwords (C94_stopwords) hold without exception."
  },
  {
   "property": "C95",
   "status": "partial",
   "theorems": [
    "Jargon.C95_outputs",
    "Jargon.C95_exact",
    "Jargon.C95_read_back",
    "Jargon.C95_text_partial",
    "Jargon.C95_html_partial",
    "Jargon.C95_violated",
    "Jargon.C95_violated_html"
   ],
   "note": "False where a token has a line feed in it (C95_violated: the text of one line feed; C95_violated_html: a tag folded by -ascii and so a lemma). C95_exact says that these are the only exceptions; C95_text_partial and C95_html_partial prove the property for texts with -lemmas anywhere, and for pages with -lemmas before any -ascii or -stem. C95_read_back: then the lines determine the tokens. The stemmer is assumed not to make line feeds."
  },
  {
   "property": "C96",
   "status": "partial",
   "theorems": [
    "Jargon.C96_calls",
    "Jargon.C96_once",
    "Jargon.C96_end",
    "Jargon.C96_rest_partial",
    "Jargon.C96_violated"
   ],
   "note": "False: views take each other's tokens (C96_violated: Lemmas reads over the word that Words would have delivered). C96_calls says what each call gets, whatever the views and the order of calls; C96_once that no token is delivered twice; C96_end that all views end at once; C96_rest_partial that a view by Where called alone gets all it wants of what has not been read."
  },
  {
   "property": "C97",
   "status": "partial",
   "theorems": [
    "Jargon.C97_tokens_partial",
    "Jargon.C97_partial",
    "Jargon.C97_violated",
    "Jargon.C97_violated_stack"
   ],
   "note": "False for -distinct (C97_violated), and for -stack after -lemmas (C97_violated_stack: once the line feeds are gone, a tag is found across two lines). C97_partial proves it for all other lists of filters: line feeds always end a word, they are not in the list of runes that the tags filter ignores, and no tag has one. The stemmer is assumed not to make line feeds or empty words."
  },
  {
   "property": "C98",
   "status": "partial",
   "theorems": [
    "Jargon.C98_ascii_partial",
    "Jargon.C98_contractions_partial",
    "Jargon.C98_lemmas_partial",
    "Jargon.C98_violated",
    "Jargon.C98_violated_together",
    "Jargon.C98_violated_stack"
   ],
   "note": "False for -distinct (C98_violated: \"bab b ab\" becomes \"bab bab\", then \"bab \"), -stack (C98_violated_stack: \"java applets\" becomes \"java applet\", then \"applet\") and for filters together (C98_violated_together: -ascii -contractions makes \"don't\" of \"don′t\" and \"do not\" of \"don't\"). Proved for -ascii, -contractions, -lemmas and no filter, each alone, for all texts: C98_ascii_partial, C98_contractions_partial, C98_lemmas_partial. That is more than C18 and C25, since the output is cut into words anew: an expansion begins and ends with letters, as the contraction does, so no other boundary moves. Not covered: -stem, whose stemmer is opaque."
  },
  {
   "property": "C99",
   "status": "partial",
   "theorems": [
    "Jargon.C99_tags_partial",
    "Jargon.C99_violated",
    "Jargon.C99_violated_doctype"
   ],
   "note": "False: golang.org/x/net/html resolves character references in comments and doctypes, and writes them without escaping, so <!--&gt;<b>--> becomes <!--><b>-->, which is an empty comment and a tag (C99_violated); for doctypes, and for a tag that gets lost, C99_violated_doctype. Proved for all documents whose comments and doctypes can be written as they are (C99_tags_partial): Kept says that a comment does not hold what ends one, and has no character reference left. Depends on the version in go.mod; later versions of the package escape comments."
  },
  {
   "property": "C100",
   "status": "partial",
   "theorems": [
    "Jargon.C100_partial",
    "Jargon.C100_violated",
    "Jargon.C100_violated_attribute"
   ],
   "note": "False for -ascii: it makes the tag <b> of the text made of b between fullwidth signs U+FF1C and U+FF1E, as it runs after the text has been escaped (C100_violated), and it changes attributes (C100_violated_attribute). Proved for all other filters that change words, in any order and number (C100_partial): what is written has the markup of the page. Assumed of the stemmer: it makes no characters that HTML has a use for. Comments that cannot be written as they are: C99. Filters that select (-lemmas, -distinct) drop tags on purpose."
  },
  {
   "property": "C101",
   "status": "partial",
   "theorems": [
    "Jargon.C101_partial",
    "Jargon.C101_violated"
   ],
   "note": "False: texts are escaped before they are cut into words, so -contractions leaves don't alone in a page (it sees don&#39;t) and expands it elsewhere (C101_violated). Proved for texts without characters that are escaped, pages without script and style, and filters other than -ascii (C101_partial)."
  },
  {
   "property": "C102",
   "status": "proved",
   "theorems": [
    "Jargon.C102_reads",
    "Jargon.C102_values",
    "Jargon.C102_decided",
    "Jargon.C102_refused",
    "Jargon.C102_accepted"
   ],
   "note": "C102_reads: the parser agrees with a grammar of the command line, in both directions; C102_values: the last setting counts; C102_decided: arguments are refused or accepted; C102_refused: what is refused ends the same way whatever creating a file would do, and without a writer; C102_accepted: what fails next. That the filters applied are not those of the flags that were read is C59."
  },
  {
   "property": "C103",
   "status": "proved",
   "theorems": [
    "Jargon.C103_text",
    "Jargon.C103_html"
   ],
   "note": "C103_text and C103_html: the answer, read by the model of the HTML tokenizer with any table of references, is exactly the page described; nothing of the text is lost. This strengthens C51, which has a reader of its own. HTML shows line ends as line feeds and NUL as U+FFFD. Texts with overlong words, where the scanner may fail, are left out."
  },
  {
   "property": "C104",
   "status": "proved",
   "theorems": [
    "Jargon.C104_label"
   ],
   "note": "The signatures of HTML and XML of http.DetectContentType are modelled; the others, for binary formats and plain text, are a parameter. The other side of it: opened by itself, the answer shows the span tags as text, since the demo does not set a Content-Type."
  },
  {
   "property": "C105",
   "status": "proved",
   "theorems": [
    "Jargon.C105_text",
    "Jargon.C105_page"
   ],
   "note": "C105_text and C105_page. In general -distinct and -lemmas cannot be swapped (C94_violated); here they can, as every canonical of the table is a synonym of itself (C56), so that no other token has the text of a tag. Which tags are found in pages is C86."
  },
  {
   "property": "C106",
   "status": "proved",
   "theorems": [
    "Jargon.C106_rounds",
    "Jargon.C106_synonyms",
    "Jargon.C106_tags"
   ],
   "note": "C106_rounds ties the counted rounds to synLoop, the modelled loop; C106_synonyms bounds them; C106_tags is the shipped table. What is counted is tokens and runes gone over, not map look-ups by cost or allocations; the outgoing queue is C83 (violated)."
  },
  {
   "property": "C107",
   "status": "partial",
   "theorems": [
    "Jargon.C107_filters",
    "Jargon.C107_text_partial",
    "Jargon.C107_html_partial",
    "Jargon.C107_violated_html"
   ],
   "note": "TrueFlags is TokenFor (C01's description) for the token's own text. C107_text_partial is the whole of the claim for Tokenize; C107_html_partial says which tokens of TokenizeHTML are excepted; C107_violated_html that these do not have such flags. C107_filters: for any stream, filters add no token without such flags."
  },
  {
   "property": "C108",
   "status": "proved",
   "theorems": [
    "Jargon.C108_lines",
    "Jargon.C108_ready",
    "Jargon.C108_words_first",
    "Jargon.C108_word_sigil"
   ],
   "note": "Proved for scanners that follow UAX #29 (the scanner itself is external). KeepsLines says, per filter, what line ends passing it means; C108_ready shows it of the shipped filters. C108_words_first and C108_word_sigil show two ways in which it is false without the conditions."
  },
  {
   "property": "C109",
   "status": "proved",
   "theorems": [
    "Jargon.C109_trie",
    "Jargon.C109_bytes"
   ],
   "note": "Node.paths lists the nodes by walking the tree (not by looking paths up). entries is the list of the keys' comma separated synonyms, as in C07. The keys must scan without an error."
  },
  {
   "property": "C110",
   "status": "proved",
   "theorems": [
    "Jargon.C110_beginning",
    "Jargon.C110_prompt",
    "Jargon.C110_sigil",
    "Jargon.C110_grows"
   ],
   "note": "Begins is about calls of Next only (Steps, in Spec/Stream.lean), and says nothing of what follows. The properties about Yields (C05-C36 and others) are about streams that end; C110 carries them over to the beginnings of all others."
  },
  {
   "property": "C111",
   "status": "partial",
   "theorems": [
    "Jargon.C111_status",
    "Jargon.C111_refused",
    "Jargon.C111_unopened",
    "Jargon.C111_partial",
    "Jargon.C111_kept",
    "Jargon.C111_violated",
    "Jargon.C111_languages",
    "Jargon.C111_usage"
   ],
   "note": "C111_partial is everything but the error of Close, which main.go:96 drops; it says that this is the only way in which code 0 can be wrong. C111_status is for any arguments whatever, C111_refused for those that do not get as far as an output. Texts of foreign errors, of flag.PrintDefaults and of the flag package's complaints are parameters."
  },
  {
   "property": "C112",
   "status": "proved",
   "theorems": [
    "Jargon.C112_writes",
    "Jargon.C112_ends",
    "Jargon.C112_program"
   ],
   "note": "That the loop has written something when it comes to the next token is said by an equation: the whole run is the run from the next token on, with a writer in which the text is. With C110 this gives, for filters without look-ahead, that the output of what has been read is written; a synonyms filter delivers nothing before the end (C40), so with -stack nothing is written until then."
  },
  {
   "property": "C113",
   "status": "partial",
   "theorems": [
    "Jargon.C113_partial",
    "Jargon.C113_same_limit_partial",
    "Jargon.C113_violated"
   ],
   "note": "C113_partial asks, beyond the full property, that no synonym that stays is spelled in the text with more words than the longest synonym that stays has (up to the longest of all); C113_same_limit_partial has this for every text if one of the synonyms that stay has as many words as any that goes."
  },
  {
   "property": "C114",
   "status": "partial",
   "theorems": [
    "Jargon.C114_reader",
    "Jargon.C114_exact",
    "Jargon.C114_partial",
    "Jargon.C114_violated"
   ],
   "note": "That a page ends with a tag is said through its tokens: its last byte makes one tag more. C114_exact says for every page what becomes of the rest, C114_partial is the case in which the full property holds. The cause of the violation is that of C44: t.parent is never reset."
  },
  {
   "property": "C115",
   "status": "partial",
   "theorems": [
    "Jargon.C115_partial",
    "Jargon.C115_violated"
   ],
   "note": "C115_partial covers texts in which finds of the two filters are separated by punctuation. Missing: texts with finds of both within a run without punctuation, where the order matters if they overlap or if a canonical text makes a new find (C115_violated)."
  },
  {
   "property": "C116",
   "status": "proved",
   "theorems": [
    "Jargon.C116_linear",
    "Jargon.C116_no_more_tokens",
    "Jargon.C116_text",
    "Jargon.C116_shipped"
   ],
   "note": "For stemmers and normalization forms, which are third-party code, the factor is a hypothesis (GrowsBy)."
  },
  {
   "property": "C117",
   "status": "partial",
   "theorems": [
    "Jargon.C117_barrier",
    "Jargon.C117_handles",
    "Jargon.C117_players",
    "Jargon.C117_partial",
    "Jargon.C117_violated"
   ],
   "note": "Proved of handles (C117_handles), of hashtags with CurrentPlayers (C117_players), and of hashtags with Tags unless the word c comes before (C117_partial). Missing: hashtags after the word c, of which #net, #language, #30 and #40 are lost (C117_violated has #net)."
  },
  {
   "property": "C118",
   "status": "proved",
   "theorems": [
    "Jargon.C118_settles",
    "Jargon.C118_tags",
    "Jargon.C118_players",
    "Jargon.C118_swap_never_settles"
   ],
   "note": "C118_settles is for any mapping whose canonicals are their own synonyms; C118_tags and C118_players are the shipped tables; C118_swap_never_settles shows that the condition is needed."
  },
  {
   "property": "C119",
   "status": "partial",
   "theorems": [
    "Jargon.C119_partial",
    "Jargon.C119_violated"
   ],
   "note": "Proved of texts cut by punctuation into pieces in each of which only one of the mappings has a synonym (C119_partial). Missing: texts where synonyms of both stand together, or where the first makes a synonym of the second; there it is false (C119_violated)."
  },
  {
   "property": "C120",
   "status": "partial",
   "theorems": [
    "Jargon.C120_partial",
    "Jargon.C120_folding_first",
    "Jargon.C120_exact_partial",
    "Jargon.C120_violated"
   ],
   "note": "Proved of the texts in ASCII and typographic apostrophes, and of texts without contractions (C120_partial); C120_exact_partial says exactly for which texts it holds, C120_folding_first that folding first loses nothing. Missing: contractions written with other characters, where it is false (C120_violated)."
  },
  {
   "property": "C121",
   "status": "partial",
   "theorems": [
    "Jargon.C121_partial",
    "Jargon.C121_tags_partial",
    "Jargon.C121_players_partial",
    "Jargon.C121_violated"
   ],
   "note": "Proved where no synonym is broken up by punctuation and the space in the text is ignored by the filter (C121_partial, and for the shipped tables C121_tags_partial, C121_players_partial). Missing: texts with a synonym broken up, where it is false (C121_violated)."
  },
  {
   "property": "C122",
   "status": "partial",
   "theorems": [
    "Jargon.C122_where_partial",
    "Jargon.C122_partial",
    "Jargon.C122_violated",
    "Jargon.C122_violated_made"
   ],
   "note": "Proved where removing tokens neither breaks nor makes synonyms (C122_partial for stop words, C122_where_partial for any selection). Missing: stop words in or between the words of synonyms, where it is false (C122_violated, C122_violated_made)."
  },
  {
   "property": "C123",
   "status": "partial",
   "theorems": [
    "Jargon.C123_partial",
    "Jargon.C123_filters",
    "Jargon.C123_fold_tags_partial",
    "Jargon.C123_violated"
   ],
   "note": "Proved where the filter makes and breaks no synonym in the text (C123_partial, C123_fold_tags_partial); C123_filters lists the filters it applies to. Missing: texts in which it makes or breaks one, where it is false (C123_violated)."
  },
  {
   "property": "C124",
   "status": "partial",
   "theorems": [
    "Jargon.C124_exact_partial",
    "Jargon.C124_plain_partial",
    "Jargon.C124_violated"
   ],
   "note": "C124_exact_partial says exactly of which texts it is true, C124_plain_partial that those without special characters are among them. Missing: texts with apostrophes, quotation marks, bare ampersands or carriage returns, where it is false (C124_violated)."
  },
  {
   "property": "C125",
   "status": "partial",
   "theorems": [
    "Jargon.C125_partial",
    "Jargon.C125_handles_partial",
    "Jargon.C125_hashtags_partial",
    "Jargon.C125_text",
    "Jargon.C125_violated",
    "Jargon.C125_violated_hashtags"
   ],
   "note": "C125_partial is for any filter of single tokens and any sigil filter, C125_handles_partial and C125_hashtags_partial are for folding; C125_text says that the text is the same in either order, without conditions. Missing: texts in which folding makes or breaks a marked word, where the order matters (C125_violated, C125_violated_hashtags)."
  },
  {
   "property": "C126",
   "status": "partial",
   "theorems": [
    "Jargon.C126_partial",
    "Jargon.C126_filters",
    "Jargon.C126_violated",
    "Jargon.C126_violated_lemmas",
    "Jargon.C126_violated_players"
   ],
   "note": "C126_partial is for any filter that goes by the text of each token, and C126_filters says which of the library do. Missing: the sigil filters, the synonyms filters and Lemmas, of which it is false (C126_violated, C126_violated_players, C126_violated_lemmas)."
  },
  {
   "property": "C127",
   "status": "partial",
   "theorems": [
    "Jargon.C127_marks_kept",
    "Jargon.C127_composed_partial",
    "Jargon.C127_violated",
    "Jargon.C127_order_partial",
    "Jargon.C127_violated_order"
   ],
   "note": "C127_marks_kept says that texts of ASCII characters and combining marks are not folded at all, C127_composed_partial that texts of accented letters that are one character each are, but for two letters; C127_order_partial is about the two filters. Missing: accents that are characters of their own, and texts that are not normalized, of which it is false (C127_violated, C127_violated_order)."
  },
  {
   "property": "C128",
   "status": "partial",
   "theorems": [
    "Jargon.C128_partial",
    "Jargon.C128_contractions_partial",
    "Jargon.C128_violated"
   ],
   "note": "Missing: texts in which expansion makes or breaks a synonym, of which it is false (C128_violated: we'll Barton)."
  },
  {
   "property": "C129",
   "status": "partial",
   "theorems": [
    "Jargon.C129_partial",
    "Jargon.C129_contractions_partial",
    "Jargon.C129_violated"
   ],
   "note": "Missing: contractions immediately after @ or #, of which it is false (C129_violated: #gonna, @he's)."
  },
  {
   "property": "C130",
   "status": "proved",
   "theorems": [
    "Jargon.C130_alone",
    "Jargon.C130_order",
    "Jargon.C130_others"
   ],
   "note": "C130_alone is the property, C130_order what follows for the order of filters, C130_others shows that the remaining filters look at more than one token."
  },
  {
   "property": "C131",
   "status": "partial",
   "theorems": [
    "Jargon.C131_partial",
    "Jargon.C131_tags_handles_partial",
    "Jargon.C131_players_partial",
    "Jargon.C131_violated"
   ],
   "note": "Missing: synonyms immediately after a mark, of which it is false (C131_violated: @golang)."
  },
  {
   "property": "C132",
   "status": "partial",
   "theorems": [
    "Jargon.C132_partial",
    "Jargon.C132_stop_partial",
    "Jargon.C132_violated"
   ],
   "note": "Missing: texts in which a mark, a neighbour of a mark or a marked word is left out, of which it is false (C132_violated: @the, the@bob, Words)."
  },
  {
   "property": "C133",
   "status": "partial",
   "theorems": [
    "Jargon.C133_exact",
    "Jargon.C133_stop_partial",
    "Jargon.C133_violated"
   ],
   "note": "Missing: texts with a contraction that expands to a stop word, of which it is false (C133_violated: can't with the stop word not; Words)."
  },
  {
   "property": "C134",
   "status": "proved",
   "theorems": [
    "Jargon.C134_program",
    "Jargon.C134_page",
    "Jargon.C134_program_page",
    "Jargon.C134_filters",
    "Jargon.C134_tokenize",
    "Jargon.C134_words",
    "Jargon.C134_html",
    "Jargon.C134_tables"
   ],
   "note": "The scanner is assumed to cut no character (CutsBetween), which C134_words derives from the word rules of UAX #29; stemmers and normalization are assumed to keep text valid. C134_page and C134_program_page are about the bytes of a page as the model of golang.org/x/net/html reads them."
  },
  {
   "property": "C135",
   "status": "proved",
   "theorems": [
    "Jargon.C135_vanish",
    "Jargon.C135_words",
    "Jargon.C135_text",
    "Jargon.C135_shipped",
    "Jargon.C135_program"
   ],
   "note": "For streams that end without error: after an error a synonyms filter delivers nothing (C73). An example shows that a synonym of the empty string may make a text vanish."
  },
  {
   "property": "C136",
   "status": "proved",
   "theorems": [
    "Jargon.C136_tokens",
    "Jargon.C136_text",
    "Jargon.C136_words"
   ],
   "note": "The scanner is assumed to follow UAX #29 (C76). Lines that end with CR are excluded: with LF that is one line end, with CR LF it is a CR and a line end, as an example shows."
  },
  {
   "property": "C137",
   "status": "partial",
   "theorems": [
    "Jargon.C137_partial",
    "Jargon.C137_ready",
    "Jargon.C137_sigil",
    "Jargon.C137_lost",
    "Jargon.C137_program",
    "Jargon.C137_violated"
   ],
   "note": "False for Handles and Hashtags: the mark counts as a word, so a handle or hashtag right after it is not recognised (C137_violated, and C137_lost for every such text). C137_sigil: otherwise it makes no difference to them. C137_partial proves the rest for the other filters, C137_ready applies it to the shipped ones, C137_program to the program. Missing: Distinct, which leaves out a second mark. Assumed: the scanner follows UAX #29, in whose tables the mark is a format character (C76)."
  },
  {
   "property": "C138",
   "status": "proved",
   "theorems": [
    "Jargon.C138_tokens",
    "Jargon.C138_program"
   ],
   "note": "The scanner is assumed to follow UAX #29 (C76), and the stemmer not to make empty words. The line is there if neither -lemmas nor -distinct is given, and not there with -lemmas; with -distinct it depends on whether the text has a line feed before. A text that ends with CR is excluded, as CR LF is one token, which an example shows."
  },
  {
   "property": "C139",
   "status": "proved",
   "theorems": [
    "Jargon.C139_tokens",
    "Jargon.C139_ready",
    "Jargon.C139_program"
   ],
   "note": "The scanner is assumed to follow UAX #29 (C76), unicode.IsPunct and unicode.ToLower to be right for Latin characters, a closing bracket not to be a letter, and the stemmer not to make empty words. Distinct is excluded: it leaves out brackets that occur before."
  },
  {
   "property": "C140",
   "status": "proved",
   "theorems": [
    "Jargon.C140_runs",
    "Jargon.C140_file"
   ],
   "note": "C140_runs for any two runs, C140_file for a file and a pipe. The writers are assumed not to fail, and the filters to be fit for use (OK). For pages the parser is assumed not to deliver empty texts. That the input file is not the output file is required because of C61_violated. If reading fails, only the exit code is compared."
  },
  {
   "property": "C141",
   "status": "proved",
   "theorems": [
    "Jargon.C141_tokens",
    "Jargon.C141_ready",
    "Jargon.C141_program"
   ],
   "note": "C141_tokens for any filters that the two tags pass by themselves, C141_ready that all filters ready for use and all stemmers are like that for tags in ASCII, C141_program for the bytes the program writes; there the page must end with a tag, not one after which text is read raw. Tags are written in the spelling of the HTML tokenizer (C81). A script or style element around the page does make a difference (C44)."
  },
  {
   "property": "C142",
   "status": "proved",
   "theorems": [
    "Jargon.C142_tokens",
    "Jargon.C142_words",
    "Jargon.C142_ready",
    "Jargon.C142_program"
   ],
   "note": "C142_tokens, C142_words, C142_ready and C142_program. The scanner is assumed to follow UAX #29 for texts that fit its buffer (Fits). What precedes the spaces does not end with one, and what follows does not begin with one or with a combining character. Distinct is left out before Words or Lemmas: it would keep a second token of spaces only if it is of another width. A synonyms filter that does not ignore spaces is left out too."
  },
  {
   "property": "C143",
   "status": "proved",
   "theorems": [
    "Jargon.C143_tokens",
    "Jargon.C143_ready",
    "Jargon.C143_program"
   ],
   "note": "C143_tokens, C143_ready and C143_program. Distinct is left out, since it compares tokens of both parts; filters that drop or rewrite the tag (Words, Lemmas) may be last but not before others. No script or style element is opened before the cut. C143_program assumes that the first part ends with a tag in ASCII (EndsWithTag, PlainMarkup), and that the scanner follows UAX #29 for texts that fit its buffer (Fits)."
  },
  {
   "property": "C144",
   "status": "proved",
   "theorems": [
    "Jargon.C144_tokens",
    "Jargon.C144_words",
    "Jargon.C144_program"
   ],
   "note": "C144_tokens, C144_words and C144_program. Distinct is left out before Words or Lemmas. C144_program is about comments that mean the same when they are written as they are (CommentKept: nothing in them ends a comment early, and no line end or character reference would be replaced) and are in ASCII; the part before ends with a tag (EndsWithTag); the scanner is assumed to follow UAX #29 for texts that fit its buffer (Fits)."
  }
 ]
}