import Verif.Model.Synonyms
import Verif.Proofs.Stream
import Verif.Proofs.Utf8
import Verif.Props.Token
import Verif.Props.Stream
import Verif.Proofs.Filters
import Verif.Props.Tokenizer
import Verif.Props.Simple
import Verif.Props.Sigil
import Verif.Props.Html
import Verif.Proofs.Trie
import Verif.Proofs.Synonyms
import Verif.Proofs.Build
import Verif.Props.Synonyms
import Verif.Props.Ascii
import Verif.Spec.Builtin
import Verif.Props.Pipeline
import Verif.Model.QueueHeap
import Verif.Spec.Queue
import Verif.Proofs.Queue
import Verif.Props.Queue
import Verif.Model.Once
import Verif.Proofs.Once
import Verif.Props.Once
import Verif.Spec.Lazy
import Verif.Props.Lazy
import Verif.Props.Contractions
import Verif.Props.Tables
import Verif.Props.Tags
import Verif.Props.Cli
import Verif.Props.Flag
import Verif.Props.Arguments
import Verif.Model.Sniff
import Verif.Props.WebPage
import Verif.Props.WebLabel
import Verif.Props.TagsOnce
import Verif.Props.SearchCost
import Verif.Props.TokenFlags
import Verif.Props.LinewiseFilters
import Verif.Props.Exact
import Verif.Props.ExactCli
import Verif.Props.TrieSize
import Verif.Props.Causal
import Verif.Model.Process
import Verif.Props.Process
import Verif.Props.Streaming
import Verif.Props.Web
import Verif.Props.Utf8
import Verif.Model.LuceneTable
import Verif.Props.Lucene
import Verif.Model.Strings
import Verif.Model.Generate
import Verif.Spec.Generate
import Verif.Proofs.Strings
import Verif.Proofs.Sorted
import Verif.Proofs.NbaGenerated
import Verif.Props.GenerateNba
import Verif.Props.Players
import Verif.Spec.Latin
import Verif.Proofs.TableChecks
import Verif.Proofs.SoHints
import Verif.Proofs.SoPairs
import Verif.Props.GenerateSo
import Verif.Props.GenerateSoShipped
import Verif.Props.GenerateSource
import Verif.Props.GenerateShipped
import Verif.Props.SigilLaws
import Verif.Props.SigilMap
import Verif.Props.FoldNorm
import Verif.Props.ExpandFirst
import Verif.Props.SigilExpand
import Verif.Props.Alone
import Verif.Props.SigilSynonyms
import Verif.Props.SigilSelect
import Verif.Props.StopExpand
import Verif.Props.ValidText
import Verif.Props.ValidOutput
import Verif.Props.ValidPage
import Verif.Props.Vanish
import Verif.Props.LineEnds
import Verif.Props.DistinctFirst
import Verif.Props.Failing
import Verif.Props.Uax29
import Verif.Props.Uax29Text
import Verif.Props.Uax29Synonyms
import Verif.Model.HtmlReader
import Verif.Spec.Html
import Verif.Proofs.HtmlRead
import Verif.Proofs.HtmlRaw
import Verif.Proofs.HtmlReadable
import Verif.Props.HtmlVerbatim
import Verif.Spec.Cost
import Verif.Props.Cost
import Verif.Props.Readme
import Verif.Proofs.WordLimit
import Verif.Props.TagsExact
import Verif.Props.CliTags
import Verif.Spec.GoLiteral
import Verif.Spec.Decl
import Verif.Model.Decl
import Verif.Proofs.Decl
import Verif.Proofs.DeclValue
import Verif.Proofs.DeclBuilt
import Verif.Props.Decl
import Verif.Model.Scanner
import Verif.Spec.Scanner
import Verif.Proofs.Scanner
import Verif.Proofs.WordStream
import Verif.Proofs.ScannerWords
import Verif.Props.Scanner
import Verif.Spec.Sticky
import Verif.Proofs.Sticky
import Verif.Props.Sticky
import Verif.RepoTests
import Verif.HtmlTests
import Verif.StdTests
import Verif.UaxTests
import Verif.Proofs.LineFeeds
import Verif.Props.Order
import Verif.Props.Lines
import Verif.Model.Sharing
import Verif.Props.Sharing
import Verif.Props.LineByLine
import Verif.Proofs.WordReplace
import Verif.Props.Rerun
import Verif.Proofs.HtmlFill
import Verif.Props.Markup
import Verif.Props.FewerMappings
import Verif.Props.PageParts
import Verif.Props.TwoTables
import Verif.Props.Growth
import Verif.Proofs.Signs
import Verif.Props.Barrier
import Verif.Props.Settle
import Verif.Props.Merge
import Verif.Props.FoldExpand
import Verif.Props.WordsFirst
import Verif.Props.StopFirst
import Verif.Props.MapFirst
import Verif.Props.HtmlPlain
import Verif.Props.Bom
import Verif.Props.FinalLine
import Verif.Props.Brackets
import Verif.Props.Source
import Verif.Props.SameSource
import Verif.Props.Wrapped
import Verif.Props.Blanks
import Verif.Props.PageFilters
import Verif.Props.PageComments
