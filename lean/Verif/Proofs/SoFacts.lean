import Verif.Proofs.TableChecks
import Verif.Model.StackOverflowTable
import Verif.Proofs.SoTree

/-! The rows of the table, checked by the kernel. -/

namespace Jargon

theorem soRows0_checked : soRows0.all (rowB stackOverflowIgnore soTree) = true := by decide +kernel

theorem soRows1_checked : soRows1.all (rowB stackOverflowIgnore soTree) = true := by decide +kernel

theorem soRows2_checked : soRows2.all (rowB stackOverflowIgnore soTree) = true := by decide +kernel

theorem soRows3_checked : soRows3.all (rowB stackOverflowIgnore soTree) = true := by decide +kernel

theorem soRows4_checked : soRows4.all (rowB stackOverflowIgnore soTree) = true := by decide +kernel

theorem soRows5_checked : soRows5.all (rowB stackOverflowIgnore soTree) = true := by decide +kernel

theorem soRows6_checked : soRows6.all (rowB stackOverflowIgnore soTree) = true := by decide +kernel

theorem soRows7_checked : soRows7.all (rowB stackOverflowIgnore soTree) = true := by decide +kernel

theorem soRows8_checked : soRows8.all (rowB stackOverflowIgnore soTree) = true := by decide +kernel

theorem soRows9_checked : soRows9.all (rowB stackOverflowIgnore soTree) = true := by decide +kernel

theorem soRows_checked : ∀ rows ∈ soRows, rows.all (rowB stackOverflowIgnore soTree) = true := by
  simp only [soRows, List.forall_mem_cons, List.not_mem_nil, false_implies, implies_true, and_true]
  exact ⟨soRows0_checked, soRows1_checked, soRows2_checked, soRows3_checked, soRows4_checked, soRows5_checked, soRows6_checked, soRows7_checked, soRows8_checked, soRows9_checked⟩

end Jargon
