import Verif.Spec.GoLiteral
import Verif.Proofs.Trie

/-! What a Go declaration of a synonyms filter is. -/

namespace Jargon

/-- The structs as the printed text has them. -/
def printedStructs : GoStructs :=
  [((str "synonyms", str "Filter"), [(str "Trie", .ptr (str "trie") (str "RuneTrie")), (str "MaxWords", .int)]),
   ((str "trie", str "RuneTrie"),
     [(str "Ignore", .map .bool), (str "IgnoreCase", .bool), (str "Root", .ptr (str "trie") (str "Node"))]),
   ((str "trie", str "Node"),
     [(str "HasCanonical", .bool), (str "Canonical", .string),
      (str "Children", .map (.ptr (str "trie") (str "Node")))])]

/-- The structs as they are declared: filters/synonyms/filter.go:15-22 (without `config` and `once`, which
are not of these types), filters/synonyms/trie/trie.go:12-16 and 59-63. -/
def declaredStructs : GoStructs :=
  [((str "synonyms", str "filter"), [(str "trie", .ptr (str "trie") (str "RuneTrie")), (str "maxWords", .int)]),
   ((str "trie", str "RuneTrie"),
     [(str "root", .ptr (str "trie") (str "node")), (str "ignore", .map .bool), (str "ignoreCase", .bool)]),
   ((str "trie", str "node"),
     [(str "children", .map (.ptr (str "trie") (str "node"))), (str "hasCanonical", .bool),
      (str "canonical", .string)])]

/-- What a node has at the end of a path; `names` are those of the fields for the children, for whether
there is a canonical, and for the canonical. -/
def GoLit.path (children has canonical : Bytes) : List Rune → GoLit → Option Bytes
  | [], v => if v.flag has then some (v.txt canonical) else none
  | r :: q, v =>
    match v.at? children r with
    | some w => w.path children has canonical q
    | none => none

/-- The value of the literal is the filter. -/
def Describes (v : GoLit) (f : SynFilter) : Prop :=
  ∃ t root, v.field? (str "Trie") = some t ∧ t.field? (str "Root") = some root ∧
    (∀ q, root.path (str "Children") (str "HasCanonical") (str "Canonical") q = f.trie.root.get q) ∧
    (∀ r, t.at? (str "Ignore") r = some (.bool true) ↔ r ∈ f.trie.ignore) ∧
    t.flag (str "IgnoreCase") = f.trie.ignoreCase ∧
    v.int (str "MaxWords") = f.maxWords

mutual
/-- The runes of a node, and of those below it. -/
def Node.runes : Node → List Rune
  | .mk children _ _ => childRunes children
def childRunes : List (Rune × Node) → List Rune
  | [] => []
  | (r, c) :: l => r :: (c.runes ++ childRunes l)
end

/-- Those that cannot stand in a rune literal as they are: `'`, `\` and the line break. -/
def unsafeRunes : List Rune := [0x27, 0x5C, 0x0A]

/-- Those that can stand in a rune literal in source text. -/
def Literal (r : Rune) : Prop := ValidRune r ∧ r ≠ 0 ∧ r ≠ 0xFEFF ∧ r ∉ unsafeRunes

/-- Nodes as `Add` makes them: the children of a map, for runes as they come from a string. -/
inductive Node.Proper : Node → Prop
  | mk {children h c} : (children.map Prod.fst).Nodup → (∀ e ∈ children, ValidRune e.1) →
      (∀ e ∈ children, e.2.Proper) → Node.Proper (.mk children h c)

end Jargon
