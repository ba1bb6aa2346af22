import Verif.Model.Synonyms
import Verif.Model.Contractions
import Verif.Model.StackOverflowTable
import Verif.Model.NbaTable

/-! The shipped synonyms filters: filters/stackoverflow and filters/nba. -/

namespace Jargon

/-- filters/stackoverflow/generated.go:5-2996 `mappings`. -/
def stackOverflowMappings : StringMap := soRows.flatMap tableOf

/-- filters/stackoverflow/filter.go:13 `Tags`. -/
def tags (E : Env) : Filter := synonyms E stackOverflowMappings true stackOverflowIgnore

/-- filters/nba/generated.go:5-504 `mappings`. -/
def nbaMappings : StringMap := nbaRows.flatMap tableOf

/-- filters/nba/filter.go:11 `CurrentPlayers`. -/
def currentPlayers (E : Env) : Filter := synonyms E nbaMappings true nbaIgnore

end Jargon
