import Verif.Proofs.TableChecks
import Verif.Proofs.Sorted
import Verif.Model.StackOverflowTable
import Verif.Proofs.SoHints

/-! The rows of the table of filters/stackoverflow are those of tags: one for each tag's name, and at most
one for its synonyms. Checked by the kernel. -/

namespace Jargon

/-- Spaces for dashes. -/
noncomputable def spacedN (l : List Nat) : List Nat :=
  List.rec [] (fun b _ ih => (bif Nat.beq b 0x2D then 0x20 else b) :: ih) l

/-- Dashes for spaces. -/
noncomputable def dashedN (l : List Nat) : List Nat :=
  List.rec [] (fun b _ ih => (bif Nat.beq b 0x20 then 0x2D else b) :: ih) l

/-- Is this the row for a tag's name? -/
noncomputable def ownB (r : Nat × Nat) : Bool := eqB (natsOf r.1) (spacedN (natsOf r.2))

/-- An element by its place. -/
noncomputable def nthB {α : Type} (l : List α) : Nat → Option α :=
  List.rec (motive := fun _ => Nat → Option α) (fun _ => none)
    (fun x _ ih n => bif Nat.beq n 0 then some x else ih (Nat.sub n 1)) l

theorem nthB_mem {α : Type} {l : List α} {n : Nat} {x : α} (h : nthB l n = some x) : x ∈ l := by
  induction l generalizing n with
  | nil => cases h
  | cons y l ih =>
    have e : nthB (y :: l) n = bif Nat.beq n 0 then some y else nthB l (Nat.sub n 1) := rfl
    rw [e] at h
    cases hb : Nat.beq n 0
    · rw [hb] at h; exact List.mem_cons_of_mem _ (ih h)
    · rw [hb] at h; cases h; exact List.mem_cons_self

/-- Is the row at this place the one for the name of the tag `v`? -/
noncomputable def hintB (v h : Nat) : Bool :=
  Option.rec false (fun rows => Option.rec false (fun t => bif Nat.beq t.2 v then ownB t else false)
    (nthB rows (Nat.mod h 300))) (nthB soRows (Nat.div h 300))

theorem hintB_spec {v h : Nat} (hh : hintB v h = true) : ∃ t ∈ soRows.flatten, t.2 = v ∧ ownB t = true := by
  unfold hintB at hh
  cases h1 : nthB soRows (Nat.div h 300) with
  | none => rw [h1] at hh; cases hh
  | some rows =>
    rw [h1] at hh
    simp only at hh
    cases h2 : nthB rows (Nat.mod h 300) with
    | none => rw [h2] at hh; cases hh
    | some t =>
      rw [h2] at hh
      simp only at hh
      cases hb : Nat.beq t.2 v
      · rw [hb] at hh; cases hh
      · rw [hb] at hh
        exact ⟨t, List.mem_flatten.mpr ⟨rows, nthB_mem h1, nthB_mem h2⟩, Nat.eq_of_beq_eq_true hb, hh⟩

/-- What the generator ignores. -/
def ignoreN : List (List Nat) := [natsOf n!"drop-down", natsOf n!"datatable", natsOf n!"for", natsOf n!"this"]

/-- Does it start with a space? -/
noncomputable def headB (l : List Nat) : Bool := List.rec false (fun b _ _ => Nat.beq b 0x20) l

/-- The synonyms of a row. -/
def partsN (k : Nat) : List (List Nat) :=
  match cutRunes (natsOf k) with
  | [] => []
  | p :: ps => p :: ps.map List.tail

/-- What is checked of a row for a name. -/
noncomputable def ownOkB (r : Nat × Nat) : Bool :=
  !ignoreN.any (eqB (natsOf r.1)) && !memB 0x2C (natsOf r.2) && !memB 0x20 (natsOf r.2) &&
  homeB stackOverflowIgnore r

/-- What is checked of a synonym. -/
noncomputable def partOkB (r : Nat × Nat) (p : List Nat) : Bool :=
  !ignoreN.any (eqB (dashedN p)) && !eqB p (spacedN (natsOf r.2))

/-- What is checked of a row of synonyms. -/
noncomputable def synOkB (r : Nat × Nat) : Bool :=
  !memB 0x2D (natsOf r.1) &&
  List.rec false (fun p ps _ => partOkB r p && ps.all fun q => headB q && partOkB r q.tail) (cutB (natsOf r.1)) &&
  Option.rec false (fun k => Nat.beq k r.1) (soSynTree.find r.2)

/-- All checks, with the hints. -/
noncomputable def pairsB (rows : List (Nat × Nat)) : List Nat → Bool :=
  List.rec (motive := fun _ => List Nat → Bool) (fun hs => List.rec true (fun _ _ _ => false) hs)
    (fun r _ ih hs => bif ownB r then (bif ownOkB r then ih hs else false) else
      List.rec false (fun h hs' _ => bif hintB r.2 h then (bif synOkB r then ih hs' else false) else false) hs) rows

theorem pairsB_spec {rows : List (Nat × Nat)} {hs : List Nat} (h : pairsB rows hs = true) :
    (∀ r ∈ rows, (ownB r = true ∧ ownOkB r = true) ∨
      (ownB r = false ∧ synOkB r = true ∧ ∃ t ∈ soRows.flatten, t.2 = r.2 ∧ ownB t = true)) ∧
    (rows.filter ownB).length + hs.length = rows.length := by
  induction rows generalizing hs with
  | nil => cases hs with
    | nil => simp
    | cons x hs => cases h
  | cons r rows ih =>
    have e : pairsB (r :: rows) hs = bif ownB r then (bif ownOkB r then pairsB rows hs else false) else
      List.rec false (fun h hs' _ => bif hintB r.2 h then (bif synOkB r then pairsB rows hs' else false)
        else false) hs := rfl
    rw [e] at h
    cases ho : ownB r
    · rw [ho, cond_false] at h
      cases hs with
      | nil => cases h
      | cons x hs =>
        simp only at h
        cases hh : hintB r.2 x
        · rw [hh] at h; cases h
        · rw [hh, cond_true] at h
          cases hk : synOkB r
          · rw [hk] at h; cases h
          · rw [hk, cond_true] at h
            obtain ⟨h1, h2⟩ := ih h
            refine ⟨?_, by simp [ho]; omega⟩
            intro y hy
            rcases List.mem_cons.mp hy with rfl | hy
            · exact Or.inr ⟨ho, hk, hintB_spec hh⟩
            · exact h1 y hy
    · rw [ho, cond_true] at h
      cases hk : ownOkB r
      · rw [hk] at h; cases h
      · rw [hk, cond_true] at h
        obtain ⟨h1, h2⟩ := ih h
        refine ⟨?_, by simp [ho]; omega⟩
        intro y hy
        rcases List.mem_cons.mp hy with rfl | hy
        · exact Or.inl ⟨ho, hk⟩
        · exact h1 y hy

theorem soRows0_pairs : pairsB soRows0 soHints0 = true := by decide +kernel

theorem soRows1_pairs : pairsB soRows1 soHints1 = true := by decide +kernel

theorem soRows2_pairs : pairsB soRows2 soHints2 = true := by decide +kernel

theorem soRows3_pairs : pairsB soRows3 soHints3 = true := by decide +kernel

theorem soRows4_pairs : pairsB soRows4 soHints4 = true := by decide +kernel

theorem soRows5_pairs : pairsB soRows5 soHints5 = true := by decide +kernel

theorem soRows6_pairs : pairsB soRows6 soHints6 = true := by decide +kernel

theorem soRows7_pairs : pairsB soRows7 soHints7 = true := by decide +kernel

theorem soRows8_pairs : pairsB soRows8 soHints8 = true := by decide +kernel

theorem soRows9_pairs : pairsB soRows9 soHints9 = true := by decide +kernel

theorem soRows_zip : ∀ x ∈ soRows.zip soHints, pairsB x.1 x.2 = true := by
  simp only [soRows, soHints, List.zip_cons_cons, List.zip_nil_right, List.forall_mem_cons, List.not_mem_nil,
    false_implies, implies_true, and_true]
  exact ⟨soRows0_pairs, soRows1_pairs, soRows2_pairs, soRows3_pairs, soRows4_pairs, soRows5_pairs, soRows6_pairs, soRows7_pairs, soRows8_pairs, soRows9_pairs⟩

theorem pairs_all {rowss : List (List (Nat × Nat))} {hss : List (List Nat)} (hl : rowss.length = hss.length)
    (h : ∀ x ∈ rowss.zip hss, pairsB x.1 x.2 = true) :
    (∀ r ∈ rowss.flatten, (ownB r = true ∧ ownOkB r = true) ∨
      (ownB r = false ∧ synOkB r = true ∧ ∃ t ∈ soRows.flatten, t.2 = r.2 ∧ ownB t = true)) ∧
    (rowss.flatten.filter ownB).length + hss.flatten.length = rowss.flatten.length := by
  induction rowss generalizing hss with
  | nil =>
    cases hss with
    | nil => simp
    | cons x hss => cases hl
  | cons rows rowss ih =>
    cases hss with
    | nil => cases hl
    | cons hs hss =>
      rw [List.zip_cons_cons, List.forall_mem_cons] at h
      have h2 : (rows.filter ownB).length + hs.length = rows.length := (pairsB_spec h.1).2
      have h1 := (pairsB_spec h.1).1
      obtain ⟨h3, h4⟩ := ih (by simpa using hl) h.2
      refine ⟨?_, ?_⟩
      · intro r hr
        rw [List.flatten_cons, List.mem_append] at hr
        rcases hr with hr | hr
        · exact h1 r hr
        · exact h3 r hr
      · simp only [List.flatten_cons, List.filter_append, List.length_append]
        omega

theorem soRows_pairs : ∀ r ∈ soRows.flatten, (ownB r = true ∧ ownOkB r = true) ∨
    (ownB r = false ∧ synOkB r = true ∧ ∃ t ∈ soRows.flatten, t.2 = r.2 ∧ ownB t = true) :=
  (pairs_all rfl soRows_zip).1

theorem soRows_own : (soRows.flatten.filter ownB).length = 1976 := by
  have h1 := (pairs_all rfl soRows_zip).2
  have h2 : soHints.flatten.length = 1014 := by decide +kernel
  have h3 : soRows.flatten.length = 2990 := by decide +kernel
  omega

theorem soRows_sorted : sortedFromB soRows.flatten [] = true := by decide +kernel

/-- Every canonical of the table is listed for itself. -/
theorem soRows_self : ∀ row ∈ soRows.flatten, ∃ r ∈ soRows.flatten, r.2 = row.2 ∧ homeB stackOverflowIgnore r = true := by
  have own : ∀ r ∈ soRows.flatten, ownB r = true → homeB stackOverflowIgnore r = true := by
    intro r hr ho
    rcases soRows_pairs r hr with ⟨-, h⟩ | ⟨h, -⟩
    · simp only [ownOkB, Bool.and_eq_true] at h
      exact h.2
    · rw [ho] at h; cases h
  intro r hr
  rcases soRows_pairs r hr with ⟨h, -⟩ | ⟨-, -, t, ht, he, h⟩
  · exact ⟨r, hr, rfl, own r hr h⟩
  · exact ⟨t, ht, he, own t ht h⟩

end Jargon
