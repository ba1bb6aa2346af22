import Verif.Proofs.Text

/-! Tables sorted by key have distinct keys. -/

namespace Jargon

/-- Lexicographic order. -/
noncomputable def ltB (a : List Nat) : List Nat → Bool :=
  List.rec (motive := fun _ => List Nat → Bool) (fun b => List.rec false (fun _ _ _ => true) b)
    (fun x _ ih b => List.rec false (fun y ys _ => bif Nat.beq x y then ih ys else Nat.ble x y) b) a

theorem ltB_cons (x y : Nat) (xs ys : List Nat) :
    ltB (x :: xs) (y :: ys) = bif Nat.beq x y then ltB xs ys else Nat.ble x y := rfl

theorem ltB_irrefl (a : List Nat) : ltB a a = false := by
  induction a with
  | nil => rfl
  | cons x xs ih => rw [ltB_cons, Nat.beq_refl, cond_true, ih]

theorem ltB_cons_iff (x y : Nat) (xs ys : List Nat) :
    ltB (x :: xs) (y :: ys) = true ↔ x < y ∨ (x = y ∧ ltB xs ys = true) := by
  rw [ltB_cons]
  cases h : Nat.beq x y
  · have hne : x ≠ y := Nat.ne_of_beq_eq_false h
    simp only [cond_false, Nat.ble_eq]
    constructor
    · intro h; left; omega
    · rintro (h | ⟨h, -⟩)
      · omega
      · exact absurd h hne
  · have he := Nat.eq_of_beq_eq_true h
    simp only [cond_true]
    constructor
    · intro h; exact Or.inr ⟨he, h⟩
    · rintro (h | ⟨-, h⟩)
      · omega
      · exact h

theorem ltB_trans {a b c : List Nat} (h1 : ltB a b = true) (h2 : ltB b c = true) : ltB a c = true := by
  induction a generalizing b c with
  | nil =>
    cases c with
    | nil => cases b <;> cases h2
    | cons z zs => rfl
  | cons x xs ih =>
    cases b with
    | nil => cases h1
    | cons y ys =>
      cases c with
      | nil => cases h2
      | cons z zs =>
        rw [ltB_cons_iff] at *
        rcases h1 with h1 | ⟨rfl, h1⟩
        · rcases h2 with h2 | ⟨rfl, h2⟩ <;> left <;> omega
        · rcases h2 with h2 | ⟨rfl, h2⟩
          · exact Or.inl h2
          · exact Or.inr ⟨rfl, ih h1 h2⟩

/-- Are the keys in strictly increasing order, all above `k`? -/
noncomputable def sortedFromB (rows : List (Nat × Nat)) : List Nat → Bool :=
  List.rec (motive := fun _ => List Nat → Bool) (fun _ => true)
    (fun r _ ih k => bif ltB k (natsOf r.1) then ih (natsOf r.1) else false) rows

theorem sortedFromB_spec {rows : List (Nat × Nat)} {k : List Nat} (h : sortedFromB rows k = true) :
    (∀ r ∈ rows, ltB k (natsOf r.1) = true) ∧ rows.Pairwise fun a b => ltB (natsOf a.1) (natsOf b.1) = true := by
  induction rows generalizing k with
  | nil => simp
  | cons r rows ih =>
    have e : sortedFromB (r :: rows) k = bif ltB k (natsOf r.1) then sortedFromB rows (natsOf r.1) else false := rfl
    rw [e] at h
    cases hk : ltB k (natsOf r.1)
    · rw [hk] at h; cases h
    · rw [hk, cond_true] at h
      obtain ⟨h1, h2⟩ := ih h
      refine ⟨?_, List.pairwise_cons.mpr ⟨h1, h2⟩⟩
      intro x hx
      rcases List.mem_cons.mp hx with rfl | hx
      · exact hk
      · exact ltB_trans hk (h1 x hx)

theorem sorted_keys {rows : List (Nat × Nat)} (h : sortedFromB rows [] = true) :
    (rows.map fun r => textOf r.1).Nodup := by
  rw [List.nodup_iff_pairwise_ne, List.pairwise_map]
  refine (sortedFromB_spec h).2.imp fun {a b} hab he => ?_
  rw [← textOf_toNat, ← textOf_toNat, he, ltB_irrefl] at hab
  cases hab

end Jargon
