import Verif.Model.Synonyms
import Verif.Model.GenerateSource
import Verif.Model.Bufio

/-! Model of the methods that print a synonyms filter and a queue: filters/synonyms/trie/trie.go:31-57 and
128-158, filters/synonyms/filter.go:307-333, tokenqueue/queue.go:72-74. -/

namespace Jargon

/-- filters/synonyms/trie/trie.go:37, 40, 145: `'%s'` with `string(r)`; an invalid rune becomes U+FFFD. -/
def runeText (r : Rune) : Bytes := [0x27] ++ encodeRune r ++ [0x27]

mutual
/-- filters/synonyms/trie/trie.go:129-158 `(*node).String`. A map of children that is nil is an empty list
here; `Add` makes a map only to put a child into it. The order of the list is the one in which Go happens
to iterate. -/
def nodeString (isPrint : Rune → Bool) : Node → Bytes
  | .mk children hasCanonical canonical =>
    str "&trie.Node{\n"
      ++ (if hasCanonical then str "\tHasCanonical: true,\n" else [])
      ++ (if canonical ≠ [] then str "Canonical: " ++ quote isPrint canonical ++ str ",\n" else [])
      ++ (match children with
        | [] => []
        | c :: cs => str "Children: map[rune]*trie.Node{\n" ++ childrenString isPrint (c :: cs) ++ str "},\n")
      ++ str "}"
/-- filters/synonyms/trie/trie.go:144-146: the loop over the children. -/
def childrenString (isPrint : Rune → Bool) : List (Rune × Node) → Bytes
  | [] => []
  | (r, child) :: l =>
    runeText r ++ str ": " ++ nodeString isPrint child ++ str ",\n" ++ childrenString isPrint l
end

/-- The keys of `map[rune]bool` (filters/synonyms/trie/trie.go:20-23): each rune once. -/
def ignoreKeys : List Rune → List Rune
  | [] => []
  | r :: l => if r ∈ l then ignoreKeys l else r :: ignoreKeys l

/-- filters/synonyms/trie/trie.go:32-57 `(*RuneTrie).String`. All values of `ignore` are `true`, and it is
never nil after `New`. -/
def trieString (isPrint : Rune → Bool) (t : RuneTrie) : Bytes :=
  str "&trie.RuneTrie{\n"
    ++ str "Ignore: map[rune]bool{\n"
    ++ (ignoreKeys t.ignore).flatMap (fun r => runeText r ++ str ": true,\n")
    ++ str "},\n"
    ++ (if t.ignoreCase then str "IgnoreCase: true,\n" else [])
    ++ str "Root: " ++ nodeString isPrint t.root ++ str ",\n"
    ++ str "}"

/-- filters/synonyms/filter.go:313-333 `Decl`, and 308-310 `String`; `none` is a filter that has not been
built. `fmt.Fprintf` into a buffer cannot fail. -/
def declString (isPrint : Rune → Bool) (f : Option SynFilter) : Bytes :=
  str "&synonyms.Filter{\n"
    ++ (match f with
      | none => []
      | some f => str "Trie: " ++ trieString isPrint f.trie ++ str ",\n"
          ++ (if 0 < f.maxWords then str "MaxWords: " ++ itoa f.maxWords ++ str ",\n" else []))
    ++ str "}"

/-- tokenqueue/queue.go:72-74 `(*TokenQueue).String`: `%q` of a slice prints its elements in brackets with
spaces between them, and here each of them is a `Stringer`. There are no nil tokens in it. -/
def queueString (isPrint : Rune → Bool) (tokens : List Token) : Bytes :=
  [0x5B] ++ join [0x20] (tokens.map fun t => quote isPrint t.string) ++ [0x5D]

end Jargon
