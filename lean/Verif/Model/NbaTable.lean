import Verif.Model.Text

/-! The table of filters/nba, copied from the Go source (the texts are those of the Go literals, in the
order of the file). -/

namespace Jargon

set_option maxRecDepth 10000

/-- filters/nba/generated.go:6-503 `mappings`, part 0. -/
def nbaRows0 : List (Nat × Nat) := [
  (n!"Aaron Gordon", n!"Aaron Gordon"),
  (n!"Aaron Holiday", n!"Aaron Holiday"),
  (n!"Abdel Nader", n!"Abdel Nader"),
  (n!"Adam Mokoka", n!"Adam Mokoka"),
  (n!"Admiral Schofield", n!"Admiral Schofield"),
  (n!"Al Horford", n!"Al Horford"),
  (n!"Al-Farouq Aminu", n!"Al-Farouq Aminu"),
  (n!"Alec Burks", n!"Alec Burks"),
  (n!"Alen Smailagić, Alen Smailagic", n!"Alen Smailagić"),
  (n!"Alex Caruso", n!"Alex Caruso"),
  (n!"Alex Len", n!"Alex Len"),
  (n!"Alfonzo McKinnie", n!"Alfonzo McKinnie"),
  (n!"Alize Johnson", n!"Alize Johnson"),
  (n!"Allonzo Trier", n!"Allonzo Trier"),
  (n!"Amir Coffey", n!"Amir Coffey"),
  (n!"Andre Drummond", n!"Andre Drummond"),
  (n!"Andre Iguodala", n!"Andre Iguodala"),
  (n!"Andrew Wiggins", n!"Andrew Wiggins"),
  (n!"André Roberson, Andre Roberson", n!"André Roberson"),
  (n!"Anfernee Simons", n!"Anfernee Simons"),
  (n!"Ante Žižić, Ante Zizic", n!"Ante Žižić"),
  (n!"Anthony Davis", n!"Anthony Davis"),
  (n!"Anthony Tolliver", n!"Anthony Tolliver"),
  (n!"Antonius Cleveland", n!"Antonius Cleveland"),
  (n!"Anžejs Pasečņiks, Anzejs Pasecniks", n!"Anžejs Pasečņiks"),
  (n!"Aron Baynes", n!"Aron Baynes"),
  (n!"Austin Rivers", n!"Austin Rivers"),
  (n!"Avery Bradley", n!"Avery Bradley"),
  (n!"B. J. Johnson", n!"B. J. Johnson"),
  (n!"Bam Adebayo", n!"Bam Adebayo"),
  (n!"Ben McLemore", n!"Ben McLemore"),
  (n!"Ben Simmons", n!"Ben Simmons"),
  (n!"Bismack Biyombo", n!"Bismack Biyombo"),
  (n!"Blake Griffin", n!"Blake Griffin"),
  (n!"Boban Marjanović, Boban Marjanovic", n!"Boban Marjanović"),
  (n!"Bobby Portis", n!"Bobby Portis"),
  (n!"Bogdan Bogdanović, Bogdan Bogdanovic", n!"Bogdan Bogdanović"),
  (n!"Bojan Bogdanović, Bojan Bogdanovic", n!"Bojan Bogdanović"),
  (n!"Bol Bol", n!"Bol Bol"),
  (n!"Brad Wanamaker", n!"Brad Wanamaker"),
  (n!"Bradley Beal", n!"Bradley Beal"),
  (n!"Brandon Clarke", n!"Brandon Clarke"),
  (n!"Brandon Goodwin", n!"Brandon Goodwin"),
  (n!"Brandon Ingram", n!"Brandon Ingram"),
  (n!"Brandon Knight", n!"Brandon Knight"),
  (n!"Brian Bowen", n!"Brian Bowen"),
  (n!"Brook Lopez", n!"Brook Lopez"),
  (n!"Bruce Brown", n!"Bruce Brown"),
  (n!"Bruno Caboclo", n!"Bruno Caboclo"),
  (n!"Bruno Fernando", n!"Bruno Fernando"),
  (n!"Bryn Forbes", n!"Bryn Forbes"),
  (n!"Buddy Hield", n!"Buddy Hield"),
  (n!"CJ McCollum", n!"CJ McCollum"),
  (n!"Caleb Martin", n!"Caleb Martin"),
  (n!"Caleb Swanigan", n!"Caleb Swanigan"),
  (n!"Cam Reddish", n!"Cam Reddish"),
  (n!"Cameron Johnson", n!"Cameron Johnson"),
  (n!"Cameron Reynolds", n!"Cameron Reynolds"),
  (n!"Caris LeVert", n!"Caris LeVert"),
  (n!"Carmelo Anthony", n!"Carmelo Anthony"),
  (n!"Carsen Edwards", n!"Carsen Edwards"),
  (n!"Cedi Osman", n!"Cedi Osman"),
  (n!"Chandler Hutchison", n!"Chandler Hutchison"),
  (n!"Charlie Brown", n!"Charlie Brown"),
  (n!"Chasson Randle", n!"Chasson Randle"),
  (n!"Cheick Diallo", n!"Cheick Diallo"),
  (n!"Chimezie Metu", n!"Chimezie Metu"),
  (n!"Chris Boucher", n!"Chris Boucher"),
  (n!"Chris Chiozza", n!"Chris Chiozza"),
  (n!"Chris Clemons", n!"Chris Clemons"),
  (n!"Chris Paul", n!"Chris Paul"),
  (n!"Chris Silva", n!"Chris Silva"),
  (n!"Christian Wood", n!"Christian Wood"),
  (n!"Clint Capela", n!"Clint Capela"),
  (n!"Coby White", n!"Coby White"),
  (n!"Cody Martin", n!"Cody Martin"),
  (n!"Cody Zeller", n!"Cody Zeller"),
  (n!"Collin Sexton", n!"Collin Sexton"),
  (n!"Cory Joseph", n!"Cory Joseph"),
  (n!"Courtney Lee", n!"Courtney Lee"),
  (n!"Cristiano Felício, Cristiano Felicio", n!"Cristiano Felício"),
  (n!"D'Angelo Russell", n!"D'Angelo Russell"),
  (n!"D. J. Augustin", n!"D. J. Augustin"),
  (n!"D. J. Wilson", n!"D. J. Wilson"),
  (n!"DaQuan Jeffries", n!"DaQuan Jeffries"),
  (n!"Damian Jones", n!"Damian Jones"),
  (n!"Damian Lillard", n!"Damian Lillard"),
  (n!"Damion Lee", n!"Damion Lee"),
  (n!"Damyean Dotson", n!"Damyean Dotson"),
  (n!"Daniel Gafford", n!"Daniel Gafford"),
  (n!"Daniel Theis", n!"Daniel Theis"),
  (n!"Danilo Gallinari", n!"Danilo Gallinari"),
  (n!"Danny Green", n!"Danny Green"),
  (n!"Dante Exum", n!"Dante Exum"),
  (n!"Danuel House", n!"Danuel House"),
  (n!"Dario Šarić, Dario Saric", n!"Dario Šarić"),
  (n!"Darius Bazley", n!"Darius Bazley"),
  (n!"Darius Garland", n!"Darius Garland"),
  (n!"Darius Miller", n!"Darius Miller"),
  (n!"De'Aaron Fox", n!"De'Aaron Fox"),
  (n!"De'Andre Hunter", n!"De'Andre Hunter"),
  (n!"De'Anthony Melton", n!"De'Anthony Melton"),
  (n!"DeAndre Jordan", n!"DeAndre Jordan"),
  (n!"DeAndre' Bembry", n!"DeAndre' Bembry"),
  (n!"DeMar DeRozan", n!"DeMar DeRozan"),
  (n!"DeMarre Carroll", n!"DeMarre Carroll"),
  (n!"Dean Wade", n!"Dean Wade"),
  (n!"Deandre Ayton", n!"Deandre Ayton"),
  (n!"Dejounte Murray", n!"Dejounte Murray"),
  (n!"Delon Wright", n!"Delon Wright"),
  (n!"Dennis Schröder, Dennis Schroder", n!"Dennis Schröder"),
  (n!"Dennis Smith", n!"Dennis Smith"),
  (n!"Denzel Valentine", n!"Denzel Valentine"),
  (n!"Deonte Burton", n!"Deonte Burton"),
  (n!"Derrick Favors", n!"Derrick Favors"),
  (n!"Derrick Jones", n!"Derrick Jones"),
  (n!"Derrick Rose", n!"Derrick Rose"),
  (n!"Derrick White", n!"Derrick White"),
  (n!"Devin Booker", n!"Devin Booker"),
  (n!"Devontae Cacok", n!"Devontae Cacok"),
  (n!"Devonte' Graham", n!"Devonte' Graham"),
  (n!"Dewan Hernandez", n!"Dewan Hernandez"),
  (n!"Dewayne Dedmon", n!"Dewayne Dedmon"),
  (n!"Dillon Brooks", n!"Dillon Brooks"),
  (n!"Dion Waiters", n!"Dion Waiters"),
  (n!"Domantas Sabonis", n!"Domantas Sabonis"),
  (n!"Donovan Mitchell", n!"Donovan Mitchell"),
  (n!"Donta Hall", n!"Donta Hall"),
  (n!"Donte DiVincenzo", n!"Donte DiVincenzo"),
  (n!"Dorian Finney-Smith", n!"Dorian Finney-Smith"),
  (n!"Doug McDermott", n!"Doug McDermott"),
  (n!"Dragan Bender", n!"Dragan Bender"),
  (n!"Draymond Green", n!"Draymond Green"),
  (n!"Drew Eubanks", n!"Drew Eubanks"),
  (n!"Duncan Robinson", n!"Duncan Robinson"),
  (n!"Dwayne Bacon", n!"Dwayne Bacon"),
  (n!"Dwight Howard", n!"Dwight Howard"),
  (n!"Dwight Powell", n!"Dwight Powell"),
  (n!"Dylan Windler", n!"Dylan Windler"),
  (n!"Dāvis Bertāns, Davis Bertans", n!"Dāvis Bertāns"),
  (n!"Džanan Musa, Dzanan Musa", n!"Džanan Musa"),
  (n!"E'Twaun Moore", n!"E'Twaun Moore"),
  (n!"Ed Davis", n!"Ed Davis"),
  (n!"Edmond Sumner", n!"Edmond Sumner"),
  (n!"Elfrid Payton", n!"Elfrid Payton"),
  (n!"Emmanuel Mudiay", n!"Emmanuel Mudiay"),
  (n!"Enes Kanter", n!"Enes Kanter"),
  (n!"Eric Bledsoe", n!"Eric Bledsoe"),
  (n!"Eric Gordon", n!"Eric Gordon"),
  (n!"Eric Mika", n!"Eric Mika"),
  (n!"Eric Paschall", n!"Eric Paschall"),
  (n!"Ersan İlyasova, Ersan Ilyasova", n!"Ersan İlyasova"),
  (n!"Evan Fournier", n!"Evan Fournier"),
  (n!"Evan Turner", n!"Evan Turner"),
  (n!"Frank Jackson", n!"Frank Jackson"),
  (n!"Frank Kaminsky", n!"Frank Kaminsky"),
  (n!"Frank Mason", n!"Frank Mason"),
  (n!"Frank Ntilikina", n!"Frank Ntilikina"),
  (n!"Fred VanVleet", n!"Fred VanVleet"),
  (n!"Furkan Korkmaz", n!"Furkan Korkmaz"),
  (n!"Gabe Vincent", n!"Gabe Vincent"),
  (n!"Garrett Temple", n!"Garrett Temple"),
  (n!"Garrison Mathews", n!"Garrison Mathews"),
  (n!"Gary Clark", n!"Gary Clark"),
  (n!"Gary Harris", n!"Gary Harris"),
  (n!"Gary Payton", n!"Gary Payton"),
  (n!"Gary Trent", n!"Gary Trent"),
  (n!"George Hill", n!"George Hill"),
  (n!"Georges Niang", n!"Georges Niang"),
  (n!"Giannis Antetokounmpo", n!"Giannis Antetokounmpo"),
  (n!"Glenn Robinson", n!"Glenn Robinson"),
  (n!"Goga Bitadze", n!"Goga Bitadze"),
  (n!"Goran Dragić, Goran Dragic", n!"Goran Dragić"),
  (n!"Gordon Hayward", n!"Gordon Hayward"),
  (n!"Gorgui Dieng", n!"Gorgui Dieng"),
  (n!"Grant Williams", n!"Grant Williams"),
  (n!"Grayson Allen", n!"Grayson Allen"),
  (n!"Hamidou Diallo", n!"Hamidou Diallo"),
  (n!"Harrison Barnes", n!"Harrison Barnes"),
  (n!"Harry Giles", n!"Harry Giles"),
  (n!"Hassan Whiteside", n!"Hassan Whiteside"),
  (n!"Ian Mahinmi", n!"Ian Mahinmi"),
  (n!"Ignas Brazdeikis", n!"Ignas Brazdeikis"),
  (n!"Isaac Bonga", n!"Isaac Bonga"),
  (n!"Isaiah Hartenstein", n!"Isaiah Hartenstein"),
  (n!"Isaiah Roby", n!"Isaiah Roby"),
  (n!"Ish Smith", n!"Ish Smith"),
  (n!"Ivica Zubac", n!"Ivica Zubac"),
  (n!"J. J. Barea", n!"J. J. Barea"),
  (n!"JJ Redick", n!"JJ Redick"),
  (n!"Ja Morant", n!"Ja Morant"),
  (n!"JaKarr Sampson", n!"JaKarr Sampson"),
  (n!"JaMychal Green", n!"JaMychal Green"),
  (n!"JaVale McGee", n!"JaVale McGee"),
  (n!"Jabari Parker", n!"Jabari Parker"),
  (n!"Jacob Evans", n!"Jacob Evans"),
  (n!"Jae Crowder", n!"Jae Crowder"),
  (n!"Jahlil Okafor", n!"Jahlil Okafor"),
  (n!"Jake Layman", n!"Jake Layman"),
  (n!"Jakob Pöltl, Jakob Poltl", n!"Jakob Pöltl"),
  (n!"Jalen Brunson", n!"Jalen Brunson"),
  (n!"Jalen Lecque", n!"Jalen Lecque"),
  (n!"Jalen McDaniels", n!"Jalen McDaniels"),
  (n!"Jamal Murray", n!"Jamal Murray"),
  (n!"James Ennis", n!"James Ennis"),
  (n!"James Harden", n!"James Harden"),
  (n!"James Johnson", n!"James Johnson"),
  (n!"Jared Dudley", n!"Jared Dudley"),
  (n!"Jaren Jackson", n!"Jaren Jackson"),
  (n!"Jarred Vanderbilt", n!"Jarred Vanderbilt"),
  (n!"Jarrell Brantley", n!"Jarrell Brantley"),
  (n!"Jarrett Allen", n!"Jarrett Allen"),
  (n!"Jarrett Culver", n!"Jarrett Culver"),
  (n!"Javonte Green", n!"Javonte Green"),
  (n!"Jaxson Hayes", n!"Jaxson Hayes"),
  (n!"Jaylen Brown", n!"Jaylen Brown"),
  (n!"Jaylen Hoard", n!"Jaylen Hoard"),
  (n!"Jaylen Nowell", n!"Jaylen Nowell"),
  (n!"Jayson Tatum", n!"Jayson Tatum"),
  (n!"Jeff Green", n!"Jeff Green"),
  (n!"Jeff Teague", n!"Jeff Teague"),
  (n!"Jerami Grant", n!"Jerami Grant"),
  (n!"Jeremiah Martin", n!"Jeremiah Martin"),
  (n!"Jeremy Lamb", n!"Jeremy Lamb"),
  (n!"Jerome Robinson", n!"Jerome Robinson"),
  (n!"Jevon Carter", n!"Jevon Carter"),
  (n!"Jimmy Butler", n!"Jimmy Butler"),
  (n!"Joakim Noah", n!"Joakim Noah"),
  (n!"Joe Chealey", n!"Joe Chealey"),
  (n!"Joe Harris", n!"Joe Harris"),
  (n!"Joe Ingles", n!"Joe Ingles"),
  (n!"Joel Embiid", n!"Joel Embiid"),
  (n!"John Collins", n!"John Collins"),
  (n!"John Henson", n!"John Henson"),
  (n!"John Konchar", n!"John Konchar"),
  (n!"John Wall", n!"John Wall"),
  (n!"Johnathan Motley", n!"Johnathan Motley"),
  (n!"Johnathan Williams", n!"Johnathan Williams"),
  (n!"Jonas Valančiūnas, Jonas Valanciunas", n!"Jonas Valančiūnas"),
  (n!"Jonathan Isaac", n!"Jonathan Isaac"),
  (n!"Jontay Porter", n!"Jontay Porter"),
  (n!"Jordan Bone", n!"Jordan Bone"),
  (n!"Jordan Clarkson", n!"Jordan Clarkson"),
  (n!"Jordan McLaughlin", n!"Jordan McLaughlin"),
  (n!"Jordan McRae", n!"Jordan McRae"),
  (n!"Jordan Poole", n!"Jordan Poole"),
  (n!"Josh Gray", n!"Josh Gray"),
  (n!"Josh Hart", n!"Josh Hart"),
  (n!"Josh Jackson", n!"Josh Jackson"),
  (n!"Josh Okogie", n!"Josh Okogie")]

/-- filters/nba/generated.go:6-503 `mappings`, part 1. -/
def nbaRows1 : List (Nat × Nat) := [
  (n!"Josh Reaves", n!"Josh Reaves"),
  (n!"Josh Richardson", n!"Josh Richardson"),
  (n!"Jrue Holiday", n!"Jrue Holiday"),
  (n!"Juan Hernangómez, Juan Hernangomez", n!"Juan Hernangómez"),
  (n!"Juan Toscano-Anderson", n!"Juan Toscano-Anderson"),
  (n!"Julius Randle", n!"Julius Randle"),
  (n!"Justin Holiday", n!"Justin Holiday"),
  (n!"Justin Jackson", n!"Justin Jackson"),
  (n!"Justin James", n!"Justin James"),
  (n!"Justin Wright-Foreman", n!"Justin Wright-Foreman"),
  (n!"Justise Winslow", n!"Justise Winslow"),
  (n!"Jusuf Nurkić, Jusuf Nurkic", n!"Jusuf Nurkić"),
  (n!"Juwan Morgan", n!"Juwan Morgan"),
  (n!"KZ Okpala", n!"KZ Okpala"),
  (n!"Kadeem Allen", n!"Kadeem Allen"),
  (n!"Karl-Anthony Towns", n!"Karl-Anthony Towns"),
  (n!"Kawhi Leonard", n!"Kawhi Leonard"),
  (n!"Keita Bates-Diop", n!"Keita Bates-Diop"),
  (n!"Kelan Martin", n!"Kelan Martin"),
  (n!"Keldon Johnson", n!"Keldon Johnson"),
  (n!"Kelly Olynyk", n!"Kelly Olynyk"),
  (n!"Kelly Oubre", n!"Kelly Oubre"),
  (n!"Kemba Walker", n!"Kemba Walker"),
  (n!"Kendrick Nunn", n!"Kendrick Nunn"),
  (n!"Kenny Wooten", n!"Kenny Wooten"),
  (n!"Kenrich Williams", n!"Kenrich Williams"),
  (n!"Kent Bazemore", n!"Kent Bazemore"),
  (n!"Kentavious Caldwell-Pope", n!"Kentavious Caldwell-Pope"),
  (n!"Kevin Durant", n!"Kevin Durant"),
  (n!"Kevin Hervey", n!"Kevin Hervey"),
  (n!"Kevin Huerter", n!"Kevin Huerter"),
  (n!"Kevin Knox", n!"Kevin Knox"),
  (n!"Kevin Love", n!"Kevin Love"),
  (n!"Kevin Porter", n!"Kevin Porter"),
  (n!"Kevon Looney", n!"Kevon Looney"),
  (n!"Khem Birch", n!"Khem Birch"),
  (n!"Khris Middleton", n!"Khris Middleton"),
  (n!"Khyri Thomas", n!"Khyri Thomas"),
  (n!"Klay Thompson", n!"Klay Thompson"),
  (n!"Kobi Simmons", n!"Kobi Simmons"),
  (n!"Kostas Antetokounmpo", n!"Kostas Antetokounmpo"),
  (n!"Kris Dunn", n!"Kris Dunn"),
  (n!"Kristaps Porziņģis, Kristaps Porzingis", n!"Kristaps Porziņģis"),
  (n!"Ky Bowman", n!"Ky Bowman"),
  (n!"Kyle Alexander", n!"Kyle Alexander"),
  (n!"Kyle Anderson", n!"Kyle Anderson"),
  (n!"Kyle Guy", n!"Kyle Guy"),
  (n!"Kyle Korver", n!"Kyle Korver"),
  (n!"Kyle Kuzma", n!"Kyle Kuzma"),
  (n!"Kyle Lowry", n!"Kyle Lowry"),
  (n!"Kyle O'Quinn", n!"Kyle O'Quinn"),
  (n!"Kyrie Irving", n!"Kyrie Irving"),
  (n!"LaMarcus Aldridge", n!"LaMarcus Aldridge"),
  (n!"Landry Shamet", n!"Landry Shamet"),
  (n!"Langston Galloway", n!"Langston Galloway"),
  (n!"Larry Nance", n!"Larry Nance"),
  (n!"Lauri Markkanen", n!"Lauri Markkanen"),
  (n!"LeBron James", n!"LeBron James"),
  (n!"Lonnie Walker", n!"Lonnie Walker"),
  (n!"Lonzo Ball", n!"Lonzo Ball"),
  (n!"Lou Williams", n!"Lou Williams"),
  (n!"Louis King", n!"Louis King"),
  (n!"Luguentz Dort", n!"Luguentz Dort"),
  (n!"Luka Dončić, Luka Doncic", n!"Luka Dončić"),
  (n!"Luka Šamanić, Luka Samanic", n!"Luka Šamanić"),
  (n!"Luke Kennard", n!"Luke Kennard"),
  (n!"Luke Kornet", n!"Luke Kornet"),
  (n!"Malcolm Brogdon", n!"Malcolm Brogdon"),
  (n!"Malcolm Miller", n!"Malcolm Miller"),
  (n!"Malik Beasley", n!"Malik Beasley"),
  (n!"Malik Monk", n!"Malik Monk"),
  (n!"Marc Gasol", n!"Marc Gasol"),
  (n!"Marco Belinelli", n!"Marco Belinelli"),
  (n!"Marcus Morris", n!"Marcus Morris"),
  (n!"Marcus Smart", n!"Marcus Smart"),
  (n!"Marial Shayok", n!"Marial Shayok"),
  (n!"Mario Hezonja", n!"Mario Hezonja"),
  (n!"Markelle Fultz", n!"Markelle Fultz"),
  (n!"Markieff Morris", n!"Markieff Morris"),
  (n!"Marko Gudurić, Marko Guduric", n!"Marko Gudurić"),
  (n!"Marquese Chriss", n!"Marquese Chriss"),
  (n!"Marvin Bagley", n!"Marvin Bagley"),
  (n!"Marvin Williams", n!"Marvin Williams"),
  (n!"Mason Plumlee", n!"Mason Plumlee"),
  (n!"Matisse Thybulle", n!"Matisse Thybulle"),
  (n!"Matt Mooney", n!"Matt Mooney"),
  (n!"Matt Thomas", n!"Matt Thomas"),
  (n!"Matthew Dellavedova", n!"Matthew Dellavedova"),
  (n!"Maurice Harkless", n!"Maurice Harkless"),
  (n!"Max Strus", n!"Max Strus"),
  (n!"Maxi Kleber", n!"Maxi Kleber"),
  (n!"Melvin Frazier", n!"Melvin Frazier"),
  (n!"Meyers Leonard", n!"Meyers Leonard"),
  (n!"Mfiondu Kabengele", n!"Mfiondu Kabengele"),
  (n!"Michael Carter-Williams", n!"Michael Carter-Williams"),
  (n!"Michael Frazier", n!"Michael Frazier"),
  (n!"Michael Kidd-Gilchrist", n!"Michael Kidd-Gilchrist"),
  (n!"Michael Porter", n!"Michael Porter"),
  (n!"Mikal Bridges", n!"Mikal Bridges"),
  (n!"Mike Conley", n!"Mike Conley"),
  (n!"Mike Muscala", n!"Mike Muscala"),
  (n!"Mike Scott", n!"Mike Scott"),
  (n!"Miles Bridges", n!"Miles Bridges"),
  (n!"Mitchell Robinson", n!"Mitchell Robinson"),
  (n!"Miye Oni", n!"Miye Oni"),
  (n!"Mohamed Bamba", n!"Mohamed Bamba"),
  (n!"Montrezl Harrell", n!"Montrezl Harrell"),
  (n!"Monté Morris, Monte Morris", n!"Monté Morris"),
  (n!"Moritz Wagner", n!"Moritz Wagner"),
  (n!"Moses Brown", n!"Moses Brown"),
  (n!"Mychal Mulder", n!"Mychal Mulder"),
  (n!"Myles Turner", n!"Myles Turner"),
  (n!"Nassir Little", n!"Nassir Little"),
  (n!"Naz Mitrou-Long", n!"Naz Mitrou-Long"),
  (n!"Naz Reid", n!"Naz Reid"),
  (n!"Nemanja Bjelica", n!"Nemanja Bjelica"),
  (n!"Nerlens Noel", n!"Nerlens Noel"),
  (n!"Nickeil Alexander-Walker", n!"Nickeil Alexander-Walker"),
  (n!"Nicolas Batum", n!"Nicolas Batum"),
  (n!"Nicolas Claxton", n!"Nicolas Claxton"),
  (n!"Nicolò Melli, Nicolo Melli", n!"Nicolò Melli"),
  (n!"Nigel Williams-Goss", n!"Nigel Williams-Goss"),
  (n!"Nikola Jokić, Nikola Jokic", n!"Nikola Jokić"),
  (n!"Nikola Vučević, Nikola Vucevic", n!"Nikola Vučević"),
  (n!"Noah Vonleh", n!"Noah Vonleh"),
  (n!"Norman Powell", n!"Norman Powell"),
  (n!"Norvel Pelle", n!"Norvel Pelle"),
  (n!"OG Anunoby", n!"OG Anunoby"),
  (n!"Omari Spellman", n!"Omari Spellman"),
  (n!"Oshae Brissett", n!"Oshae Brissett"),
  (n!"Otto Porter", n!"Otto Porter"),
  (n!"P. J. Dozier", n!"P. J. Dozier"),
  (n!"P. J. Tucker", n!"P. J. Tucker"),
  (n!"P. J. Washington", n!"P. J. Washington"),
  (n!"Pascal Siakam", n!"Pascal Siakam"),
  (n!"Pat Connaughton", n!"Pat Connaughton"),
  (n!"Patrick Beverley", n!"Patrick Beverley"),
  (n!"Patrick McCaw", n!"Patrick McCaw"),
  (n!"Patrick Patterson", n!"Patrick Patterson"),
  (n!"Patty Mills", n!"Patty Mills"),
  (n!"Paul George", n!"Paul George"),
  (n!"Paul Millsap", n!"Paul Millsap"),
  (n!"Paul Watson", n!"Paul Watson"),
  (n!"Quinn Cook", n!"Quinn Cook"),
  (n!"Quinndary Weatherspoon", n!"Quinndary Weatherspoon"),
  (n!"RJ Barrett", n!"RJ Barrett"),
  (n!"Rajon Rondo", n!"Rajon Rondo"),
  (n!"Raul Neto", n!"Raul Neto"),
  (n!"Ray Spalding", n!"Ray Spalding"),
  (n!"Rayjon Tucker", n!"Rayjon Tucker"),
  (n!"Reggie Bullock", n!"Reggie Bullock"),
  (n!"Reggie Jackson", n!"Reggie Jackson"),
  (n!"Richaun Holmes", n!"Richaun Holmes"),
  (n!"Ricky Rubio", n!"Ricky Rubio"),
  (n!"Robert Covington", n!"Robert Covington"),
  (n!"Robert Williams", n!"Robert Williams"),
  (n!"Robin Lopez", n!"Robin Lopez"),
  (n!"Rodions Kurucs", n!"Rodions Kurucs"),
  (n!"Rodney Hood", n!"Rodney Hood"),
  (n!"Rodney McGruder", n!"Rodney McGruder"),
  (n!"Romeo Langford", n!"Romeo Langford"),
  (n!"Rondae Hollis-Jefferson", n!"Rondae Hollis-Jefferson"),
  (n!"Royce O'Neale", n!"Royce O'Neale"),
  (n!"Rudy Gay", n!"Rudy Gay"),
  (n!"Rudy Gobert", n!"Rudy Gobert"),
  (n!"Rui Hachimura", n!"Rui Hachimura"),
  (n!"Russell Westbrook", n!"Russell Westbrook"),
  (n!"Ryan Arcidiacono", n!"Ryan Arcidiacono"),
  (n!"Sekou Doumbouya", n!"Sekou Doumbouya"),
  (n!"Semi Ojeleye", n!"Semi Ojeleye"),
  (n!"Serge Ibaka", n!"Serge Ibaka"),
  (n!"Seth Curry", n!"Seth Curry"),
  (n!"Shabazz Napier", n!"Shabazz Napier"),
  (n!"Shai Gilgeous-Alexander", n!"Shai Gilgeous-Alexander"),
  (n!"Shake Milton", n!"Shake Milton"),
  (n!"Shaquille Harrison", n!"Shaquille Harrison"),
  (n!"Sheldon Mac", n!"Sheldon Mac"),
  (n!"Sir'Dominic Pointer", n!"Sir'Dominic Pointer"),
  (n!"Skal Labissière, Skal Labissiere", n!"Skal Labissière"),
  (n!"Solomon Hill", n!"Solomon Hill"),
  (n!"Spencer Dinwiddie", n!"Spencer Dinwiddie"),
  (n!"Stanley Johnson", n!"Stanley Johnson"),
  (n!"Stephen Curry", n!"Stephen Curry"),
  (n!"Sterling Brown", n!"Sterling Brown"),
  (n!"Steven Adams", n!"Steven Adams"),
  (n!"Sviatoslav Mykhailiuk", n!"Sviatoslav Mykhailiuk"),
  (n!"T. J. Leaf", n!"T. J. Leaf"),
  (n!"T. J. McConnell", n!"T. J. McConnell"),
  (n!"T. J. Warren", n!"T. J. Warren"),
  (n!"Tacko Fall", n!"Tacko Fall"),
  (n!"Taj Gibson", n!"Taj Gibson"),
  (n!"Talen Horton-Tucker", n!"Talen Horton-Tucker"),
  (n!"Tariq Owens", n!"Tariq Owens"),
  (n!"Taurean Prince", n!"Taurean Prince"),
  (n!"Terance Mann", n!"Terance Mann"),
  (n!"Terence Davis", n!"Terence Davis"),
  (n!"Terrance Ferguson", n!"Terrance Ferguson"),
  (n!"Terrence Ross", n!"Terrence Ross"),
  (n!"Terry Rozier", n!"Terry Rozier"),
  (n!"Thabo Sefolosha", n!"Thabo Sefolosha"),
  (n!"Thaddeus Young", n!"Thaddeus Young"),
  (n!"Thanasis Antetokounmpo", n!"Thanasis Antetokounmpo"),
  (n!"Theo Pinson", n!"Theo Pinson"),
  (n!"Thomas Bryant", n!"Thomas Bryant"),
  (n!"Thon Maker", n!"Thon Maker"),
  (n!"Tim Hardaway", n!"Tim Hardaway"),
  (n!"Timothé Luwawu-Cabarrot, Timothe Luwawu-Cabarrot", n!"Timothé Luwawu-Cabarrot"),
  (n!"Tobias Harris", n!"Tobias Harris"),
  (n!"Tomáš Satoranský, Tomas Satoransky", n!"Tomáš Satoranský"),
  (n!"Tony Bradley", n!"Tony Bradley"),
  (n!"Tony Snell", n!"Tony Snell"),
  (n!"Torrey Craig", n!"Torrey Craig"),
  (n!"Trae Young", n!"Trae Young"),
  (n!"Tremont Waters", n!"Tremont Waters"),
  (n!"Treveon Graham", n!"Treveon Graham"),
  (n!"Trevor Ariza", n!"Trevor Ariza"),
  (n!"Trey Lyles", n!"Trey Lyles"),
  (n!"Tristan Thompson", n!"Tristan Thompson"),
  (n!"Troy Brown", n!"Troy Brown"),
  (n!"Troy Daniels", n!"Troy Daniels"),
  (n!"Ty Jerome", n!"Ty Jerome"),
  (n!"Tyler Herro", n!"Tyler Herro"),
  (n!"Tyson Chandler", n!"Tyson Chandler"),
  (n!"Tyus Jones", n!"Tyus Jones"),
  (n!"Udonis Haslem", n!"Udonis Haslem"),
  (n!"Vic Law", n!"Vic Law"),
  (n!"Victor Oladipo", n!"Victor Oladipo"),
  (n!"Vince Carter", n!"Vince Carter"),
  (n!"Vincent Poirier", n!"Vincent Poirier"),
  (n!"Vlatko Čančar, Vlatko Cancar", n!"Vlatko Čančar"),
  (n!"Wayne Ellington", n!"Wayne Ellington"),
  (n!"Wendell Carter", n!"Wendell Carter"),
  (n!"Wenyen Gabriel", n!"Wenyen Gabriel"),
  (n!"Wes Iwundu", n!"Wes Iwundu"),
  (n!"Wesley Matthews", n!"Wesley Matthews"),
  (n!"Will Barton", n!"Will Barton"),
  (n!"William Howard", n!"William Howard"),
  (n!"Willie Cauley-Stein", n!"Willie Cauley-Stein"),
  (n!"Willy Hernangómez, Willy Hernangomez", n!"Willy Hernangómez"),
  (n!"Wilson Chandler", n!"Wilson Chandler"),
  (n!"Yogi Ferrell", n!"Yogi Ferrell"),
  (n!"Yuta Watanabe", n!"Yuta Watanabe"),
  (n!"Zach Collins", n!"Zach Collins"),
  (n!"Zach LaVine", n!"Zach LaVine"),
  (n!"Zhaire Smith", n!"Zhaire Smith"),
  (n!"Zion Williamson", n!"Zion Williamson"),
  (n!"Zylan Cheatham", n!"Zylan Cheatham"),
  (n!"Élie Okobo, Elie Okobo", n!"Élie Okobo")]

/-- filters/nba/generated.go:5-504 `mappings`. -/
def nbaRows : List (List (Nat × Nat)) := [nbaRows0, nbaRows1]

/-- filters/nba/filter.go:7 `ignore`: `' ', '.', '\'', '-', '–'`. -/
def nbaIgnore : List Rune := [0x20, 0x2E, 0x27, 0x2D, 0x2013]

end Jargon
