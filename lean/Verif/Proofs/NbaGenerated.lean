import Verif.Model.Generate
import Verif.Model.Tables
import Verif.Proofs.Sorted

/-! The rows of the table of filters/nba, as the generator makes them. Checked by the kernel. -/

namespace Jargon

/-- A name as Wikipedia would list it: what comes after the first space, a comma, and what comes before. -/
def nbaListed (v : Bytes) : Bytes :=
  (v.dropWhile (· ≠ 0x20)).drop 1 ++ str ", " ++ v.takeWhile (· ≠ 0x20)

/-- Does the generator make this row of the player's name? -/
def nbaRowB (row : Nat × Nat) : Bool :=
  decide (nbaLoop [nbaListed (textOf row.2)] [] = .ok [(textOf row.1, textOf row.2)])

theorem nbaRows0_generated : nbaRows0.all nbaRowB = true := by decide +kernel

theorem nbaRows1_generated : nbaRows1.all nbaRowB = true := by decide +kernel

theorem nbaRows_generated : ∀ row ∈ nbaRows.flatten, nbaRowB row = true := by
  intro row hr
  simp only [nbaRows, List.flatten_cons, List.flatten_nil, List.append_nil, List.mem_append] at hr
  rcases hr with hr | hr
  · exact List.all_eq_true.mp nbaRows0_generated row hr
  · exact List.all_eq_true.mp nbaRows1_generated row hr

theorem nbaRows_sorted : sortedFromB nbaRows.flatten [] = true := by decide +kernel

end Jargon
