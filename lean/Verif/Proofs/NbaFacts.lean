import Verif.Proofs.TableChecks
import Verif.Model.NbaTable
import Verif.Proofs.NbaTree

/-! The rows of the table, checked by the kernel. -/

namespace Jargon

theorem nbaRows0_checked : nbaRows0.all (rowB nbaIgnore nbaTree) = true := by decide +kernel

theorem nbaRows1_checked : nbaRows1.all (rowB nbaIgnore nbaTree) = true := by decide +kernel

theorem nbaRows_checked : ∀ rows ∈ nbaRows, rows.all (rowB nbaIgnore nbaTree) = true := by
  simp only [nbaRows, List.forall_mem_cons, List.not_mem_nil, false_implies, implies_true, and_true]
  exact ⟨nbaRows0_checked, nbaRows1_checked⟩

theorem nbaRows_home : nbaRows.flatten.all (homeB nbaIgnore) = true := by decide +kernel

/-- Every canonical of the table is listed for itself. -/
theorem nbaRows_self : ∀ row ∈ nbaRows.flatten, ∃ r ∈ nbaRows.flatten, r.2 = row.2 ∧ homeB nbaIgnore r = true :=
  fun row hr => ⟨row, hr, rfl, List.all_eq_true.mp nbaRows_home row hr⟩

end Jargon
