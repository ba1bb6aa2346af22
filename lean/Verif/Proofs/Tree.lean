import Verif.Model.Text

/-! Search trees with numbers as keys and encoded texts as values. Nothing is assumed about them: a tree
is only used as some function from numbers to texts. -/

namespace Jargon

/-- A search tree. -/
inductive Tree where
  | leaf
  | node (left : Tree) (key value : Nat) (right : Tree)

/-- The value found for a key. -/
noncomputable def Tree.find (t : Tree) (k : Nat) : Option Nat :=
  Tree.rec none (fun _ key value _ l r => bif Nat.beq k key then some value else bif Nat.ble k key then l else r) t

/-- The hash of a list of runes. -/
def hash (rs : List Nat) : Nat := rs.foldl (fun n r => (n * 1000003 + r) % 2305843009213693951) 1

end Jargon
