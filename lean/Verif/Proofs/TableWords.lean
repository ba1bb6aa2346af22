import Verif.Proofs.TableChecks
import Verif.Model.StackOverflowTable
import Verif.Model.NbaTable

/-! Every canonical of the shipped tables has an ASCII letter or digit. -/

namespace Jargon

theorem soRows_plain : soRows.flatten.all (fun r => plainB (runesB r.2)) = true := by decide +kernel

theorem nbaRows_plain : nbaRows.flatten.all (fun r => plainB (runesB r.2)) = true := by decide +kernel

end Jargon
