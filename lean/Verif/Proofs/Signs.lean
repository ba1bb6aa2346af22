import Verif.Model.Tables
import Verif.Proofs.TableChecks

/-! The signs "@" and "#" in the shipped tables. -/

namespace Jargon

/-- No "@"; and "#" at the end only, or after "c" at the beginning. -/
noncomputable def signsB (q : List Nat) : Bool :=
  !memB 0x40 q && (!memB 0x23 q.dropLast || match q with
    | c :: h :: rest => Nat.beq c 0x63 && Nat.beq h 0x23 && !memB 0x23 rest
    | _ => false)

theorem signsB_spec {q : List Nat} (h : signsB q = true) :
    0x40 ∉ q ∧ ∀ a b, q = a ++ 0x23 :: b → b = [] ∨ a = [0x63] := by
  have hm : ∀ (x : Nat) (l : List Nat), (memB x l = false) → x ∉ l := by
    intro x l hf hx
    rw [(memB_iff x l).mpr hx] at hf
    cases hf
  simp only [signsB, Bool.and_eq_true, Bool.or_eq_true, Bool.not_eq_true'] at h
  refine ⟨hm _ _ h.1, ?_⟩
  rintro a b rfl
  rcases h.2 with h2 | h2
  · left
    cases hb : b with
    | nil => rfl
    | cons y b' =>
      have hne : (0x23 :: b) ≠ [] := by simp
      rw [List.dropLast_append_of_ne_nil hne, hb] at h2
      exact absurd (by simp) (hm _ _ h2)
  · right
    match a, h2 with
    | [], h2 =>
      cases b with
      | nil => cases h2
      | cons y b => simp at h2
    | [c], h2 =>
      simp only [List.cons_append, List.nil_append, Bool.and_eq_true, Nat.beq_eq] at h2
      rw [h2.1.1]
    | c :: d :: a, h2 =>
      simp only [List.cons_append, Bool.and_eq_true, Bool.not_eq_true'] at h2
      exact absurd (by simp) (hm _ _ h2.2)

/-- Neither "@" nor "#". -/
noncomputable def unsignedB (q : List Nat) : Bool := !memB 0x40 q && !memB 0x23 q

theorem unsignedB_spec {q : List Nat} (h : unsignedB q = true) : 0x40 ∉ q ∧ 0x23 ∉ q := by
  simp only [unsignedB, Bool.and_eq_true, Bool.not_eq_true'] at h
  refine ⟨fun hx => ?_, fun hx => ?_⟩
  · rw [(memB_iff _ _).mpr hx] at h; cases h.1
  · rw [(memB_iff _ _).mpr hx] at h; cases h.2

theorem so_signs : soRows.all (fun rows => rows.all fun r =>
    let rs := runesB r.1
    unsignedB rs || (cutB rs).all fun p => signsB (normalB stackOverflowIgnore p)) = true := by decide +kernel

theorem nba_signs : nbaRows.all (fun rows => rows.all fun r =>
    unsignedB (runesB r.1)) = true := by decide +kernel

end Jargon
