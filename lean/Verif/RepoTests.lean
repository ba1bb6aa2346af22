import Verif.Props.Uax29
import Verif.Props.Contractions
import Verif.Spec.Html
import Verif.Model.Web
import Verif.Model.Decl
import Verif.Spec.Scanner

/-! The tests of the repository, run on the model. They prove nothing beyond the texts they try; they are
here to show that the model reads the code as its authors do, and fail the build if it does not. The
scanner is that of Spec/WordBreak.lean. Not run: the stemmers (snowball is a parameter of the model). -/

namespace Jargon.RepoTests

/-- Word_Break as in `uaxTable`, and the letters and marks of the tests that it does not have. -/
def table : WordTable := fun r =>
  if 0x5D0 ≤ r ∧ r ≤ 0x5EA then (.hebrew, false)
  else if r = 0x5F4 then (.midLetter, false)
  else if 0x30A0 ≤ r ∧ r ≤ 0x30FF then (.katakana, false)
  else uaxTable r

def env : Env where
  U := { uaxEnv.U with isPunct := fun r => decide (r ∈ latinPunct) || r == 0x2019 }
  scan := fun r => (wordSegs table r.data, r.err)

def bytes (s : String) : Bytes := s.toUTF8.toList

/-- The value a call returns. -/
def value {α : Type} (g : Go α) : Option α :=
  match (show Option (Except Panic α) from g) with
  | some (.ok a) => some a
  | _ => none

def text (s : String) : TokenStream := tokenizeString env (bytes s)

def slice (ts : TokenStream) : Option (List Bytes × Option Err) :=
  (value ts.toSlice).map fun (l, e) => (l.map Token.value, e)

/-- The stream has this text, and no error. -/
def prints (ts : TokenStream) (s : String) : Bool := value ts.string == some (bytes s, none)

/-! ### tokenizer_test.go: `TestTokenizer` -/

def original : String := "Hi.    
	node.js, first_last, my.name@domain.com
	123.456, 789, .234, 1,000, a16z, 3G and $200.13.
	wishy-washy and C++ and F# and .net
	Let’s Let's possessive' possessive’
	ש״ח
	א\"ב
	ב'
	\"אא\"בב\"abc
	Then ウィキペディア and 象形.crlf is \r\n"

def found : List String :=
  ["Hi", ".", "node.js", "first_last", "my.name", "@", "domain.com", "123.456", "789", "234", "1,000", "wishy",
   "-", "washy", "C", "+", "F", "#", "net", "Let's", "Let’s", "possessive", "'", "’", "a16z", "3G", "$", "200.13",
   "ש״ח", "א\"ב", "ב'", "אא\"בב", "abc", "ウィキペディア", "象", "形", "\r\n"]

def notFound : List String :=
  ["Hi.", "node", "js", "first", "_", "last", "my.name@", "@domain.com", "123,", "456", "123.456,", "789,", ".234",
   "1,000,", "wishy-washy", "C++", "F#", ".net", "Let", "s", "possessive'", "possessive’", "ウ", "象形", "\r"]

#guard prints (text original) original
#guard (slice (text original)).any fun (l, e) => e.isNone && found.all fun s => l.contains (bytes s)
#guard (slice (text original)).any fun (l, _) => notFound.all fun s => !l.contains (bytes s)

/-! ### tokenstream_test.go: `TestDistinct` -/

#guard prints (text "one two three three two one four").distinct "one twothreefour"

/-! ### tokenizer_html_test.go: `TestTokenizeHTML` -/

def page : String := "<html>
<p foo=\"bar\">
Hi! Let's talk Ruby on Rails.
<!-- Ignore ASPNET MVC in comments -->
<script src=\"foo\">var Nodejs = Reactjs;</script>
<style>p { margin-bottom:20px; } </style>
</p>
</html>
"

-- These tests run with one concrete reader of HTML.
attribute [local instance] sampleReader

#guard (slice (tokenizeHTML env (htmlTokens (bytes page)) none)).any fun (l, e) => e.isNone &&
  ["<p foo=\"bar\">", "</p>", "\n", "Hi", "!", "Ruby", "on", "Rails", "<!-- Ignore ASPNET MVC in comments -->",
   "<script src=\"foo\">", "var Nodejs = Reactjs;", "</script>", "<style>", "p { margin-bottom:20px; } ",
   "</style>"].all fun s => l.contains (bytes s)

/-! ### filters/mapper/filter_test.go: `TestNewFilter` -/

def lowerFunc : TokenFunc
  | none => Go.panic .nilDeref
  | some token =>
    let s := env.U.lowerString token.string
    if s ≠ token.string then Go.ret (newToken env.U s true) else Go.ret (some token)

#guard prints (mapper [lowerFunc] (text "Here IS a nEw tesT.")) "here is a new test."

/-! ### filters/stopwords/filter_test.go: `TestCaseSensitive`, `TestCaseInsensitive` -/

def stop (ignoreCase : Bool) (s : String) : TokenStream :=
  stopwords env.U (["One", "four", "five"].map bytes) ignoreCase (text s)

#guard prints (stop false "One two three four five") " two three  "
#guard prints (stop false "one two three Four five") "one two three Four "
#guard prints (stop true "One two three four five") " two three  "
#guard prints (stop true "one two three Four five") " two three  "

/-! ### filters/contractions/filter_test.go and filters/contractions/generate/main_test.go (`TestSanity`,
`TestMappings`) -/

#guard prints (expand env (text "i'll SHE’D they're Can’t should've GOTTA Wanna"))
  "i will SHE WOULD they are Can not should have GOT TO Want to"

def base : StringMap := contractionBaseRows.map fun (a, b) => (textOf a, textOf b)

#guard base.all fun (a, b) => a.head? == b.head?
#guard (value (getMappings asciiMaps base)).any fun (m, e) => e.isNone &&
  m.length == 6 * (base.filter fun (a, _) => a.contains 0x27).length +
    3 * (base.filter fun (a, _) => !a.contains 0x27).length

/-! ### filters/twitter/example_test.go: `ExampleHandles`, with `%q` of the tokens -/

def printed (ts : TokenStream) : Option String :=
  (value ts.toSlice).bind fun (l, _) =>
    String.fromUTF8? ⟨(queueString (fun r => 0x20 ≤ r && r < 0x7F) l).toArray⟩

#guard printed (text "Here's a @username.") = some "[\"Here's\" \" \" \"a\" \" \" \"@\" \"username\" \".\"]"
#guard printed (handles env.U (text "Here's a @username.")) =
  some "[\"Here's\" \" \" \"a\" \" \" \"@username\" \".\"]"

/-! ### filters/ascii/fold_test.go: `TestLatin1Accents` -/

def accents : List String :=
  ["Des", "mot", "clés", "À", "LA", "CHAÎNE", "À", "Á", "Â", "Ã", "Ä", "Å", "Æ", "Ç", "È", "É", "Ê", "Ë", "Ì", "Í",
   "Î", "Ï", "Ĳ", "Ð", "Ñ", "Ò", "Ó", "Ô", "Õ", "Ö", "Ø", "Œ", "Þ", "Ù", "Ú", "Û", "Ü", "Ý", "Ÿ", "à", "á", "â", "ã",
   "ä", "å", "æ", "ç", "è", "é", "ê", "ë", "ì", "í", "î", "ï", "ĳ", "ð", "ñ", "ò", "ó", "ô", "õ", "ö", "ø", "œ", "ß",
   "þ", "ù", "ú", "û", "ü", "ý", "ÿ", "ﬁ", "ﬂ"]

#guard accents.zipIdx.all fun (s, i) => (foldString (bytes s)).2 == !(i < 2 || i == 4)

/-! ### filters/synonyms/filter_test.go: `TestFill`, `TestPassthrough`, `TestLazyLoad`, `TestFilter` -/

def tok (s : String) : Token := (newToken env.U (bytes s) false).getD ⟨[], false, false, false⟩

def fillTest (input : String) (maxWords : Nat) (previous buffer outgoing : List String) : Bool :=
  (value (fill (text input).call { trie := RuneTrie.new false [], maxWords }
    ⟨(text input).st, previous.map tok, []⟩)).any fun (e, t) =>
      e.isNone && t.buffer == buffer.map tok && t.outgoing == outgoing.map fun s => some (tok s)

#guard fillTest "test one" 3 [] ["test", " ", "one"] []
#guard fillTest "test two" 1 [] ["test"] []
#guard fillTest " test three" 2 [] ["test", " ", "three"] [" "]
#guard fillTest "test four, and five" 4 [] ["test", " ", "four", ","] []
#guard fillTest ", test six and seven" 4 [] ["test", " ", "six", " ", "and", " ", "seven"] [",", " "]
#guard fillTest " test eight and nine" 4 ["previous", " ", "stuff"]
  ["previous", " ", "stuff", " ", "test", " ", "eight"] []
#guard fillTest ". test ten and eleven" 4 ["previous", " ", "stuff"] ["previous", " ", "stuff", "."] []
#guard fillTest " test twelve and thirteen" 3 [".", " ", "leftover"] ["leftover", " ", "test", " ", "twelve"]
  [".", " "]

def mappings : StringMap :=
  [("developer, engineer, programmer,", "boffin"), ("rock star, 10x developer", "cliché"),
   ("Ruby on Rails, rails", "ruby-on-rails"), ("nodeJS, iojs", "node.js")].map fun (a, b) => (bytes a, bytes b)

def ignored : List Rune := [0x2D, 0x20, 0x2E, 0x2F]

#guard value (synonyms env [] false [] (text "This is a test, with spaces and punctuation.")).toSlice ==
  value (text "This is a test, with spaces and punctuation.").toSlice
#guard prints (synonyms env (mappings.take 1) true ignored (text "we are looking for a developer or engineer"))
  "we are looking for a boffin or boffin"
#guard prints (synonyms env mappings true ignored (text
    "we are looking for a rockstar, 10x developer, or engineer, for ruby on rails and Nodejs"))
  "we are looking for a cliché, cliché, or boffin, for ruby-on-rails and node.js"

/-! ### filters/stackoverflow/filter_test.go: `TestFilter`. The texts are on lines of their own, which
does not matter since a line break is punctuation, so that the filter is made once. -/

#guard prints (tags env (text "Foo
c sharp
C#
C++
something about Ruby on Rails, and such.
more about Ruby stuff
Rub")) "Foo
c#
c#
c++
something about ruby-on-rails, and such.
more about ruby stuff
Rub"

/-! ### web/main_test.go: `TestHandler` -/

def posting : String := "
	We can lemmatize plain prose, perhaps a technical job listing: 
	
	We are looking for experienced Rails developers, with experience in HTML 5 and T-SQL.
	
	Experience with ObjC and cpp and vue and React  Native is a plus.
	"

#guard (value (jargonHandler env (fun r => (htmlTokens r.data, r.err)) {}
    { method := bytes "POST", path := bytes "/text", body := { data := bytes posting } })).any fun r =>
  ["ruby-on-rails", "<span class=\"lemma\">objective-c</span>"].all fun s =>
    ((String.fromUTF8? ⟨r.body.toArray⟩).getD "").splitOn s |>.length |> (· > 1)

/-! ### cmd/jargon/main_test.go: `TestInput`, `TestFilters`, `TestOutput` -/

def testFs : Fs where
  openFile p := if p = bytes "/tmp/in.txt" then .ok 0 else .error (.ext 0)
  create _ := .ok 1
  stat _ := .ok 15
  content _ := { data := bytes "test input file" }

def config : Config Unit := {}

def inputTest (filein : String) (mode : Nat) (err : Option CliErr) (pipedin file : Bool) : Bool :=
  let (e, c) := setInput testFs config mode (bytes filein)
  e == err && c.pipedin == pipedin && c.filein.isSome == file

def modeAppend : Nat := 1 <<< 30

#guard inputTest "/tmp/in.txt" modeCharDevice none false true
#guard inputTest "" modeAppend none true false
#guard inputTest "" modeCharDevice (some .noInput) false false
#guard inputTest "/tmp/in.txt" modeAppend (some .twoInput) true true
#guard inputTest "doesntexist" modeAppend (some (.other (.ext 0))) false false

def snowball : Snowball := ⟨id, id, id, id, id, id⟩

def filtersTest (args : List String) (lang : String) : Bool × Nat :=
  let (e, c) := setFilters env snowball config (args.map bytes) (bytes lang)
  (e.isSome, c.filters.length)

#guard filtersTest ["-stack", "-stem", "-ascii", "-contractions"] "" = (false, 4)
#guard filtersTest ["-stem"] "spanish" = (false, 1)
#guard filtersTest ["-stem"] "foo" = (true, 0)

def outputTest (fileout : String) (pipedout file : Bool) : Bool :=
  let (e, c, _) := setOutput testFs config (bytes fileout)
  e.isNone && c.pipedout == pipedout && c.fileout.isSome == file

#guard outputTest "testdata/out.txt" false true
#guard outputTest "" true false

/-! ### the same texts, through the buffered scanner and through readers -/

/-- Splits words; asks for more until it has two words and a character. -/
def split : SplitFunc := fun d atEOF =>
  match wordSegs table d with
  | [] => none
  | w :: ws => if atEOF ∨ w.length + (ws.head?.getD []).length + 4 ≤ d.length then some w.length else none

def through (R : IoReader) : TokenStream := tokenizeReader env.U split R

#guard slice (through (stringReader (bytes original))) = slice (text original)
#guard slice (through (eagerReader (bytes original) .eof)) = slice (text original)
#guard slice (through (slowReader (bytes "Let’s node.js, ש״ח") .eof)) = slice (text "Let’s node.js, ש״ח")
#guard (slice (through (slowReader (bytes "node.js 1,000") (.other (.ext 9))))) =
  some ([], some (.ext 9))

end Jargon.RepoTests
