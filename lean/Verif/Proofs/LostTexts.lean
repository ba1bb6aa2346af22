import Verif.Proofs.WordChecks
import Verif.Model.StackOverflowTable
import Verif.Model.NbaTable

/-! The listed texts that are cut at punctuation, and the check that these are all. -/

namespace Jargon

/-- The synonyms of the Stack Overflow table with a word of nothing but punctuation. -/
def soLost : List Nat := [
  n!".bash profile", n!".bashrc", n!".each", n!".htaccess", n!".net", n!".net 3.5", n!".net 4.0",
  n!".net 4.5", n!".net 4.5.1", n!".net 4.5.2", n!".net assembly", n!".net async await", n!".net cf",
  n!".net core", n!".net framework 3.5", n!".net framework 4.0", n!".net4", n!".net generics", n!".war",
  n!".ajax", n!"angular1.x", n!"angular4.x", n!"c#", n!"c# 3.0", n!"c# 4.0", n!".bat", n!".csv",
  n!"c# language", n!"c#.net", n!"visual c#", n!".cs file", n!"d3.js", n!"d3.js v4", n!".dll",
  n!".net framework", n!"f#", n!".jar", n!".js", n!"jboss7.x", n!"vc++.net", n!".java",
  n!"playframework 2.x", n!"python 3.x", n!"selenium webdriver c#", n!".cshtml"]

/-- The names of the NBA table with a word of nothing but punctuation. -/
def nbaLost : List Nat := [
  n!"Al-Farouq Aminu", n!"B. J. Johnson", n!"D. J. Augustin", n!"D. J. Wilson", n!"DeAndre' Bembry",
  n!"Devonte' Graham", n!"Dorian Finney-Smith", n!"J. J. Barea", n!"Juan Toscano-Anderson",
  n!"Justin Wright-Foreman", n!"Karl-Anthony Towns", n!"Keita Bates-Diop", n!"Kentavious Caldwell-Pope",
  n!"Michael Carter-Williams", n!"Michael Kidd-Gilchrist", n!"Naz Mitrou-Long",
  n!"Nickeil Alexander-Walker", n!"Nigel Williams-Goss", n!"P. J. Dozier", n!"P. J. Tucker",
  n!"P. J. Washington", n!"Rondae Hollis-Jefferson", n!"Shai Gilgeous-Alexander", n!"T. J. Leaf",
  n!"T. J. McConnell", n!"T. J. Warren", n!"Talen Horton-Tucker", n!"Timothé Luwawu-Cabarrot",
  n!"Timothe Luwawu-Cabarrot", n!"Willie Cauley-Stein"]

theorem soLost_checked : lostB soLost = true := by decide +kernel

theorem nbaLost_checked : lostB nbaLost = true := by decide +kernel

theorem nbaRows_words : ∀ rows ∈ nbaRows, rows.all (wordRowB nbaIgnore 2 nbaLost) = true := by decide +kernel

theorem soRows0_words : soRows0.all (wordRowB stackOverflowIgnore 5 soLost) = true := by decide +kernel

theorem soRows1_words : soRows1.all (wordRowB stackOverflowIgnore 5 soLost) = true := by decide +kernel

theorem soRows2_words : soRows2.all (wordRowB stackOverflowIgnore 5 soLost) = true := by decide +kernel

theorem soRows3_words : soRows3.all (wordRowB stackOverflowIgnore 5 soLost) = true := by decide +kernel

theorem soRows4_words : soRows4.all (wordRowB stackOverflowIgnore 5 soLost) = true := by decide +kernel

theorem soRows5_words : soRows5.all (wordRowB stackOverflowIgnore 5 soLost) = true := by decide +kernel

theorem soRows6_words : soRows6.all (wordRowB stackOverflowIgnore 5 soLost) = true := by decide +kernel

theorem soRows7_words : soRows7.all (wordRowB stackOverflowIgnore 5 soLost) = true := by decide +kernel

theorem soRows8_words : soRows8.all (wordRowB stackOverflowIgnore 5 soLost) = true := by decide +kernel

theorem soRows9_words : soRows9.all (wordRowB stackOverflowIgnore 5 soLost) = true := by decide +kernel

theorem soRows_words : ∀ rows ∈ soRows, rows.all (wordRowB stackOverflowIgnore 5 soLost) = true := by
  simp only [soRows, List.forall_mem_cons, List.not_mem_nil, false_implies, implies_true, and_true]
  exact ⟨soRows0_words, soRows1_words, soRows2_words, soRows3_words, soRows4_words, soRows5_words, soRows6_words, soRows7_words, soRows8_words, soRows9_words⟩

end Jargon
