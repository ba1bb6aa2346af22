import Verif.Proofs.WordFast

/-! What the kernel checks of the texts listed in the shipped tables. -/

namespace Jargon

/-- Without the spaces at the start. -/
noncomputable def dropB (l : List Nat) : List Nat :=
  List.rec [] (fun r rs ih => bif Nat.beq r 0x20 then ih else r :: rs) l

/-- Punctuation, among the runes of interest. -/
noncomputable def punB (r : Nat) : Bool := bif Nat.ble 0x61 r then bif Nat.ble r 0x7A then false
  else memB r latinPunct else memB r latinPunct

/-- Are all of them punctuation? -/
noncomputable def allPunB (l : List Nat) : Bool := List.rec true (fun r _ ih => bif punB r then ih else false) l

/-- Are all of them spaces? -/
noncomputable def allSpaceB (l : List Nat) : Bool :=
  List.rec true (fun r _ ih => bif spaceB r then ih else false) l

/-- Is it a word, neither space nor punctuation? -/
noncomputable def isWordB (g : List Nat) : Bool := bif allPunB g then false else bif allSpaceB g then false else true

/-- The number of words. -/
noncomputable def countB (gs : List (List Nat)) : Nat :=
  List.rec 0 (fun g _ ih => bif isWordB g then Nat.succ ih else ih) gs

/-- Is there a word of nothing but punctuation? -/
noncomputable def badB (gs : List (List Nat)) : Bool := gs.any allPunB

/-- The last one, if any. -/
noncomputable def lastB (gs : List (List Nat)) : List Nat :=
  List.rec [] (fun g gs ih => List.rec g (fun _ _ _ => ih) gs) gs

/-- No punctuation, a word at the start and at the end, the last one not ignored, and not too many
words. -/
noncomputable def goodB (ign : List Nat) (maxW : Nat) (gs : List (List Nat)) : Bool :=
  !badB gs && List.rec false (fun g _ _ => isWordB g) gs && isWordB (lastB gs) &&
    List.rec false (fun _ _ _ => true) (normalB ign (lastB gs)) && Nat.ble (countB gs) maxW

/-- The last rune, if any. -/
noncomputable def endB (l : List Nat) : Nat := List.rec 0 (fun r rs ih => List.rec r (fun _ _ _ => ih) rs) l

/-- A letter, digit or low line at the start, and that or a symbol at the end. -/
noncomputable def edgeB (l : List Nat) : Bool :=
  List.rec false (fun r _ _ => bif Nat.beq (codeB r) 0 then false else Nat.ble (codeB r) 3) l &&
    (bif Nat.beq (endB l) 0x22 then false else Nat.ble (codeB (endB l)) 3)

/-- What is checked of a listed text: if it has a word of nothing but punctuation, it is one of the given
ones; otherwise it is good, and its ends are. -/
noncomputable def textB (ign : List Nat) (maxW : Nat) (lost : List Nat) (q : List Nat)
    (gs : List (List Nat)) : Bool :=
  bif badB gs then lost.any (fun n => eqB q (runesB n)) else goodB ign maxW gs && edgeB q

/-- What is checked of a row: all runes are known, the key is not too long, commas are words of their own,
and each text listed. -/
noncomputable def wordRowB (ign : List Nat) (maxW : Nat) (lost : List Nat) (row : Nat × Nat) : Bool :=
  knownB (runesB row.1) && Nat.ble (natsOf row.1).length 0xFFFF &&
  (wordsB (runesB row.1) 0).2.2.all (fun g => bif memB 0x2C g then eqB g [0x2C] else true) &&
  (cutB (runesB row.1)).all fun p => textB ign maxW lost (dropB p) (wordsB (dropB p) 0).2.2

/-- What is checked of the texts that are not recognised. -/
noncomputable def lostB (lost : List Nat) : Bool :=
  lost.all fun n => knownB (runesB n) && badB (wordsB (runesB n) 0).2.2

end Jargon
