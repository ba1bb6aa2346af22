import Verif.Spec.Latin
import Verif.Model.Token
import Verif.Proofs.Utf8
import Verif.Proofs.Tree
import Verif.Proofs.Text

/-! What the kernel checks of each row of the shipped tables. This needs nothing of the model of the
filters. -/

namespace Jargon

theorem cutRunes_ne_nil (rs : List Nat) : ∃ p ps, cutRunes rs = p :: ps := by
  cases rs with
  | nil => exact ⟨_, _, rfl⟩
  | cons r rs =>
    unfold cutRunes
    split
    · exact ⟨_, _, rfl⟩
    · split <;> exact ⟨_, _, rfl⟩

theorem cutRunes_append {a : List Nat} (h : 0x2C ∉ a) {rs : List Nat} {p : List Nat}
    {ps : List (List Nat)} (hp : cutRunes rs = p :: ps) : cutRunes (a ++ rs) = (a ++ p) :: ps := by
  induction a with
  | nil => simpa using hp
  | cons r a ih =>
    simp only [List.mem_cons, not_or] at h
    rw [List.cons_append, cutRunes, if_neg (Ne.symm h.1), ih h.2]
    rfl

/-- Lower case, with a short way for ASCII. -/
def lowerB (r : Nat) : Nat :=
  bif Nat.ble r 0x7F then bif Nat.ble 0x41 r then bif Nat.ble r 0x5A then Nat.add r 0x20 else r else r
  else latinLower r

theorem lowerB_eq (r : Nat) : lowerB r = latinLower r := by
  unfold lowerB
  cases h1 : Nat.ble r 0x7F
  · rfl
  · have h1 := Nat.ble_eq.mp h1
    cases h2 : Nat.ble 0x41 r
    · have h2 : ¬ 0x41 ≤ r := fun h => by rw [Nat.ble_eq.mpr h] at h2; cases h2
      simp only [cond_true, cond_false]
      unfold latinLower
      repeat rw [if_neg (by omega)]
    · have h2 := Nat.ble_eq.mp h2
      cases h3 : Nat.ble r 0x5A
      · have h3 : ¬ r ≤ 0x5A := fun h => by rw [Nat.ble_eq.mpr h] at h3; cases h3
        simp only [cond_true, cond_false]
        unfold latinLower
        repeat rw [if_neg (by omega)]
      · have h3 := Nat.ble_eq.mp h3
        simp only [cond_true]
        unfold latinLower
        rw [if_pos ⟨h2, h3⟩]

/-- The normalized spelling, for the kernel. -/
noncomputable def normalB (ign rs : List Nat) : List Nat :=
  List.rec [] (fun r _ ih => bif memB (lowerB r) ign then ih else lowerB r :: ih) rs

/-- Are all of them ASCII? -/
noncomputable def asciiB (l : List Nat) : Bool :=
  List.rec true (fun b _ ih => bif Nat.ble b 0x7F then ih else false) l

theorem asciiB_lt {l : List Nat} (h : asciiB l = true) : ∀ b ∈ l, b < 0x80 := by
  induction l with
  | nil => simp
  | cons b bs ih =>
    have e : asciiB (b :: bs) = bif Nat.ble b 0x7F then asciiB bs else false := rfl
    rw [e] at h
    cases hb : Nat.ble b 0x7F
    · rw [hb] at h; cases h
    · rw [hb] at h
      have := Nat.ble_eq.mp hb
      intro x hx
      rcases List.mem_cons.mp hx with rfl | hx
      · omega
      · exact ih h x hx

/-- The runes of an encoded text, with a short way for ASCII. -/
noncomputable def runesB (n : Nat) : List Nat :=
  bif asciiB (natsOf n) then natsOf n else runes (textOf n)

theorem runesB_eq (n : Nat) : runesB n = runes (textOf n) := by
  unfold runesB
  cases h : asciiB (natsOf n)
  · rfl
  · rw [cond_true, runes_ascii, textOf_toNat]
    intro b hb
    exact asciiB_lt h _ (by rw [← textOf_toNat]; exact List.mem_map_of_mem hb)

/-- Cut at commas, for the kernel. -/
noncomputable def cutB (rs : List Nat) : List (List Nat) :=
  List.rec [[]] (fun r _ ih => bif Nat.beq r 0x2C then [] :: ih
    else List.rec [[r]] (fun p ps _ => (r :: p) :: ps) ih) rs

theorem cutB_eq (rs : List Nat) : cutB rs = cutRunes rs := by
  induction rs with
  | nil => rfl
  | cons r rs ih =>
    have e : cutB (r :: rs) = bif Nat.beq r 0x2C then [] :: cutB rs
      else List.rec [[r]] (fun p ps _ => (r :: p) :: ps) (cutB rs) := rfl
    rw [e, ih, cutRunes]
    obtain ⟨p, ps, hp⟩ := cutRunes_ne_nil rs
    rw [hp]
    by_cases h : r = 0x2C
    · subst h; rfl
    · rw [if_neg h]
      have : Nat.beq r 0x2C = false := by
        rw [Bool.eq_false_iff]; exact fun hb => h (Nat.eq_of_beq_eq_true hb)
      rw [this]; rfl

/-- White space, with a short way for ASCII. -/
def spaceB (r : Nat) : Bool :=
  bif Nat.ble 0x21 r then bif Nat.ble r 0x7F then false else isSpaceRune r else isSpaceRune r

theorem spaceB_eq (r : Nat) : spaceB r = isSpaceRune r := by
  unfold spaceB
  cases h1 : Nat.ble 0x21 r
  · rfl
  · cases h2 : Nat.ble r 0x7F
    · rfl
    · have h1 := Nat.ble_eq.mp h1
      have h2 := Nat.ble_eq.mp h2
      simp only [cond_true]
      symm
      simp [isSpaceRune]
      omega

/-- Only Latin letters and the like, and spaces are ignored. -/
noncomputable def latinB (ign rs : List Nat) : Bool :=
  List.rec true (fun r _ ih => bif Nat.ble r 0x17F then
    bif spaceB r then bif memB (lowerB r) ign then ih else false else ih else false) rs

theorem latinB_of {ign rs : List Nat} (h : latinB ign rs = true) :
    ∀ r ∈ rs, r < 0x180 ∧ (isSpaceRune r = true → latinLower r ∈ ign) := by
  induction rs with
  | nil => simp
  | cons r rs ih =>
    have e : latinB ign (r :: rs) = bif Nat.ble r 0x17F then
      bif spaceB r then bif memB (lowerB r) ign then latinB ign rs else false else latinB ign rs
      else false := rfl
    rw [e, spaceB_eq, lowerB_eq] at h
    cases h1 : Nat.ble r 0x17F
    · rw [h1] at h; cases h
    · rw [h1, cond_true] at h
      have h1 := Nat.ble_eq.mp h1
      have hrest : latinB ign rs = true ∧ (isSpaceRune r = true → latinLower r ∈ ign) := by
        cases h2 : isSpaceRune r
        · rw [h2] at h; exact ⟨h, by simp⟩
        · rw [h2, cond_true] at h
          cases h3 : memB (latinLower r) ign
          · rw [h3] at h; cases h
          · rw [h3] at h; exact ⟨h, fun _ => (memB_iff _ _).mp h3⟩
      intro x hx
      rcases List.mem_cons.mp hx with rfl | hx
      · exact ⟨by omega, hrest.2⟩
      · exact ih hrest.1 x hx

/-- Does the tree give the value `v` for a spelling? -/
noncomputable def givesB (tree : Tree) (v : Nat) (q : List Nat) : Bool :=
  Option.rec false (fun w => Nat.beq w v) (tree.find (hash q))

theorem givesB_eq {tree : Tree} {v : Nat} {q : List Nat} (h : givesB tree v q = true) :
    tree.find (hash q) = some v := by
  unfold givesB at h
  cases hf : tree.find (hash q) with
  | none => rw [hf] at h; cases h
  | some w => rw [hf] at h; rw [Nat.eq_of_beq_eq_true h]

/-- What is checked of each row of a table: Latin letters only; spaces are ignored; the tree gives the
canonical of each synonym. -/
noncomputable def rowB (ign : List Nat) (tree : Tree) (row : Nat × Nat) : Bool :=
  latinB ign (runesB row.1) && (cutB (runesB row.1)).all (fun p => givesB tree row.2 (normalB ign p)) &&
  latinB ign (runesB row.2)

theorem rowB_spec {ign : List Nat} {tree : Tree} {row : Nat × Nat} (h : rowB ign tree row = true) :
    (∀ r ∈ runes (textOf row.1), r < 0x180 ∧ (isSpaceRune r = true → latinLower r ∈ ign)) ∧
    (∀ p ∈ cutRunes (runes (textOf row.1)), tree.find (hash (normalB ign p)) = some row.2) ∧
    (∀ r ∈ runes (textOf row.2), r < 0x180) := by
  simp only [rowB, Bool.and_eq_true, List.all_eq_true, runesB_eq, cutB_eq] at h
  obtain ⟨⟨h1, h2⟩, h3⟩ := h
  exact ⟨latinB_of h1, fun p hp => givesB_eq (h2 p hp), fun r hr => (latinB_of h3 r hr).1⟩

theorem cutRunes_subset {rs p : List Nat} (hp : p ∈ cutRunes rs) : ∀ r ∈ p, r ∈ rs := by
  induction rs generalizing p with
  | nil => simp [cutRunes] at hp; simp [hp]
  | cons a rs ih =>
    obtain ⟨q, qs, hq⟩ := cutRunes_ne_nil rs
    rw [cutRunes, hq] at hp
    rw [hq] at ih
    split at hp
    · rcases List.mem_cons.mp hp with rfl | hp
      · simp
      · intro x hx; exact List.mem_cons_of_mem _ (ih hp x hx)
    · simp only at hp
      intro x hx
      rcases List.mem_cons.mp hp with rfl | hp
      · rcases List.mem_cons.mp hx with rfl | hx
        · simp
        · exact List.mem_cons_of_mem _ (ih List.mem_cons_self x hx)
      · exact List.mem_cons_of_mem _ (ih (List.mem_cons_of_mem _ hp) x hx)

/-- Equality of lists of numbers. -/
noncomputable def eqB (a : List Nat) : List Nat → Bool :=
  List.rec (motive := fun _ => List Nat → Bool) (fun b => List.rec true (fun _ _ _ => false) b)
    (fun x _ ih b => List.rec false (fun y ys _ => bif Nat.beq x y then ih ys else false) b) a

theorem eqB_eq {a b : List Nat} (h : eqB a b = true) : a = b := by
  induction a generalizing b with
  | nil => cases b with
    | nil => rfl
    | cons y ys => cases h
  | cons x xs ih => cases b with
    | nil => cases h
    | cons y ys =>
      have e : eqB (x :: xs) (y :: ys) = bif Nat.beq x y then eqB xs ys else false := rfl
      rw [e] at h
      cases hb : Nat.beq x y
      · rw [hb] at h; cases h
      · rw [hb] at h
        rw [Nat.eq_of_beq_eq_true hb, ih h]

/-- Is one of the synonyms of a row spelled like its canonical? -/
noncomputable def homeB (ign : List Nat) (row : Nat × Nat) : Bool :=
  (cutB (runesB row.1)).any fun p => eqB (normalB ign p) (normalB ign (runesB row.2))

/-- Is there an ASCII letter or digit? -/
noncomputable def plainB (rs : List Nat) : Bool :=
  List.rec false (fun r _ ih => bif Nat.ble 0x30 r && Nat.ble r 0x39 || Nat.ble 0x61 (lowerB r) &&
    Nat.ble r 0x7A then true else ih) rs

theorem plainB_spec {rs : List Nat} (h : plainB rs = true) : ∃ r ∈ rs, isPlain r = true := by
  induction rs with
  | nil => cases h
  | cons r rs ih =>
    have e : plainB (r :: rs) = bif Nat.ble 0x30 r && Nat.ble r 0x39 || Nat.ble 0x61 (lowerB r) &&
      Nat.ble r 0x7A then true else plainB rs := rfl
    rw [e] at h
    rw [Bool.cond_true_left, Bool.or_eq_true] at h
    rcases h with h | h
    · refine ⟨r, List.mem_cons_self, ?_⟩
      simp only [Bool.or_eq_true, Bool.and_eq_true, Nat.ble_eq] at h
      simp only [isPlain, Bool.or_eq_true, Bool.and_eq_true, decide_eq_true_eq]
      rcases h with h | ⟨h1, h2⟩
      · exact Or.inl (Or.inl h)
      · rw [lowerB_eq] at h1
        unfold latinLower at h1
        split at h1
        · omega
        · repeat rw [if_neg (by omega)] at h1
          omega
    · obtain ⟨x, hx, h'⟩ := ih h
      exact ⟨x, List.mem_cons_of_mem _ hx, h'⟩

end Jargon
