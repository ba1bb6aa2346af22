import Verif.Proofs.Sorted
import Verif.Proofs.SoPairs
import Verif.Proofs.NbaGenerated
import Verif.Model.Contractions
import Verif.Spec.GoSource

/-! The rows of the three shipped tables have no strings that the generators cannot write. Checked by the
kernel. -/

namespace Jargon

/-- No quotes and no braces. -/
noncomputable def noMarksB (l : List Nat) : Bool :=
  List.rec true (fun y _ ih => bif Nat.beq y 0x22 then false else bif Nat.beq y 0x7B then false else
    bif Nat.beq y 0x7D then false else ih) l

/-- Neither a comma at the beginning. -/
noncomputable def luckyB (l : List Nat) : Bool :=
  List.rec true (fun y _ _ => !Nat.beq y 0x2C) l && noMarksB l

theorem noMarksB_spec {l : List Nat} (h : noMarksB l = true) : ∀ b ∈ l, b ≠ 0x22 ∧ b ≠ 0x7B ∧ b ≠ 0x7D := by
  induction l with
  | nil => simp
  | cons y t ih =>
    have e : noMarksB (y :: t) = bif Nat.beq y 0x22 then false else bif Nat.beq y 0x7B then false else
      bif Nat.beq y 0x7D then false else noMarksB t := rfl
    rw [e] at h
    cases h1 : Nat.beq y 0x22 <;> rw [h1] at h <;> simp only [cond_true, cond_false] at h
    · cases h2 : Nat.beq y 0x7B <;> rw [h2] at h <;> simp only [cond_true, cond_false] at h
      · cases h3 : Nat.beq y 0x7D <;> rw [h3] at h <;> simp only [cond_true, cond_false] at h
        · intro b hb
          rcases List.mem_cons.mp hb with rfl | hb
          · exact ⟨Nat.ne_of_beq_eq_false h1, Nat.ne_of_beq_eq_false h2, Nat.ne_of_beq_eq_false h3⟩
          · exact ih h b hb
        · cases h
      · cases h
    · cases h

theorem lucky_of {n : Nat} (h : luckyB (natsOf n) = true) : ¬ Unlucky (textOf n) := by
  unfold luckyB at h
  rw [Bool.and_eq_true] at h
  have hm : ∀ b ∈ textOf n, b ≠ 0x22 ∧ b ≠ 0x7B ∧ b ≠ 0x7D := by
    intro b hb
    have := noMarksB_spec h.2 b.toNat (by rw [← textOf_toNat]; exact List.mem_map_of_mem hb)
    refine ⟨?_, ?_, ?_⟩ <;> rintro rfl <;> simp at this
  have s1 : str ", " = [0x2C, 0x20] := by decide +kernel
  have s2 : str "\", " = [0x22, 0x2C, 0x20] := by decide +kernel
  have s3 : str "{" = [0x7B] := by decide +kernel
  have s4 : str "}" = [0x7D] := by decide +kernel
  have s5 : str "\"}" = [0x22, 0x7D] := by decide +kernel
  unfold Unlucky
  rw [s1, s2, s3, s4, s5]
  rintro (hc | hc | hc | hc | hc)
  · rw [← textOf_toNat, hc] at h
    cases h.1
  · exact (hm 0x22 (hc.subset (by simp))).1 rfl
  · exact (hm 0x7B (hc.subset (by simp))).2.1 rfl
  · exact (hm 0x7D (hc.subset (by simp))).2.2 rfl
  · exact (hm 0x22 (hc.subset (by simp))).1 rfl

/-- Both strings of a row can be written. -/
noncomputable def luckyRowB (row : Nat × Nat) : Bool := luckyB (natsOf row.1) && luckyB (natsOf row.2)

theorem soRows_lucky : soRows.flatten.all luckyRowB = true := by decide +kernel

theorem nbaRows_lucky : nbaRows.flatten.all luckyRowB = true := by decide +kernel

theorem contractionRows_lucky : contractionRows.all luckyRowB = true := by decide +kernel

theorem contractionRows_sorted : sortedFromB contractionRows [] = true := by decide +kernel

theorem tableOf_lucky {rows : List (Nat × Nat)} (h : rows.all luckyRowB = true) :
    ∀ e ∈ tableOf rows, ¬ Unlucky e.1 ∧ ¬ Unlucky e.2 := by
  intro e he
  obtain ⟨row, hr, rfl⟩ := List.mem_map.mp he
  have := List.all_eq_true.mp h row hr
  rw [luckyRowB, Bool.and_eq_true] at this
  exact ⟨lucky_of this.1, lucky_of this.2⟩

end Jargon
