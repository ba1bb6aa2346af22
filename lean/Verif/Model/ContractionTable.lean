import Verif.Model.Text

/-! The tables of filters/contractions, copied from the Go sources (the texts are those of the Go
literals, in the order of the files). -/

namespace Jargon

/-- filters/contractions/generated.go:7-279 `mappings`, the shipped table. -/
def contractionRows : List (Nat × Nat) := [
  (n!"AREN'T", n!"ARE NOT"),
  (n!"AREN’T", n!"ARE NOT"),
  (n!"Aren't", n!"Are not"),
  (n!"Aren’t", n!"Are not"),
  (n!"CAN'T", n!"CAN NOT"),
  (n!"CANNOT", n!"CAN NOT"),
  (n!"CAN’T", n!"CAN NOT"),
  (n!"COULD'VE", n!"COULD HAVE"),
  (n!"COULDN'T", n!"COULD NOT"),
  (n!"COULDN’T", n!"COULD NOT"),
  (n!"COULD’VE", n!"COULD HAVE"),
  (n!"Can't", n!"Can not"),
  (n!"Cannot", n!"Can not"),
  (n!"Can’t", n!"Can not"),
  (n!"Could've", n!"Could have"),
  (n!"Couldn't", n!"Could not"),
  (n!"Couldn’t", n!"Could not"),
  (n!"Could’ve", n!"Could have"),
  (n!"DIDN'T", n!"DID NOT"),
  (n!"DIDN’T", n!"DID NOT"),
  (n!"DOESN'T", n!"DOES NOT"),
  (n!"DOESN’T", n!"DOES NOT"),
  (n!"DON'T", n!"DO NOT"),
  (n!"DON’T", n!"DO NOT"),
  (n!"Didn't", n!"Did not"),
  (n!"Didn’t", n!"Did not"),
  (n!"Doesn't", n!"Does not"),
  (n!"Doesn’t", n!"Does not"),
  (n!"Don't", n!"Do not"),
  (n!"Don’t", n!"Do not"),
  (n!"GIMME", n!"GIVE ME"),
  (n!"GONNA", n!"GOING TO"),
  (n!"GOTTA", n!"GOT TO"),
  (n!"Gimme", n!"Give me"),
  (n!"Gonna", n!"Going to"),
  (n!"Gotta", n!"Got to"),
  (n!"HADN'T", n!"HAD NOT"),
  (n!"HADN’T", n!"HAD NOT"),
  (n!"HAVEN'T", n!"HAVE NOT"),
  (n!"HAVEN’T", n!"HAVE NOT"),
  (n!"HE'D", n!"HE WOULD"),
  (n!"HE'LL", n!"HE WILL"),
  (n!"HE'S", n!"HE IS"),
  (n!"HE’D", n!"HE WOULD"),
  (n!"HE’LL", n!"HE WILL"),
  (n!"HE’S", n!"HE IS"),
  (n!"Hadn't", n!"Had not"),
  (n!"Hadn’t", n!"Had not"),
  (n!"Haven't", n!"Have not"),
  (n!"Haven’t", n!"Have not"),
  (n!"He'd", n!"He would"),
  (n!"He'll", n!"He will"),
  (n!"He's", n!"He is"),
  (n!"He’d", n!"He would"),
  (n!"He’ll", n!"He will"),
  (n!"He’s", n!"He is"),
  (n!"I'D", n!"I WOULD"),
  (n!"I'LL", n!"I WILL"),
  (n!"I'M", n!"I AM"),
  (n!"I'VE", n!"I HAVE"),
  (n!"I'd", n!"I would"),
  (n!"I'll", n!"I will"),
  (n!"I'm", n!"I am"),
  (n!"I've", n!"I have"),
  (n!"ISN'T", n!"IS NOT"),
  (n!"ISN’T", n!"IS NOT"),
  (n!"Isn't", n!"Is not"),
  (n!"Isn’t", n!"Is not"),
  (n!"I’D", n!"I WOULD"),
  (n!"I’LL", n!"I WILL"),
  (n!"I’M", n!"I AM"),
  (n!"I’VE", n!"I HAVE"),
  (n!"I’d", n!"I would"),
  (n!"I’ll", n!"I will"),
  (n!"I’m", n!"I am"),
  (n!"I’ve", n!"I have"),
  (n!"MIGHT'VE", n!"MIGHT HAVE"),
  (n!"MIGHTN'T", n!"MIGHT NOT"),
  (n!"MIGHTN’T", n!"MIGHT NOT"),
  (n!"MIGHT’VE", n!"MIGHT HAVE"),
  (n!"MUST'VE", n!"MUST HAVE"),
  (n!"MUSTN'T", n!"MUST NOT"),
  (n!"MUSTN’T", n!"MUST NOT"),
  (n!"MUST’VE", n!"MUST HAVE"),
  (n!"Might've", n!"Might have"),
  (n!"Mightn't", n!"Might not"),
  (n!"Mightn’t", n!"Might not"),
  (n!"Might’ve", n!"Might have"),
  (n!"Must've", n!"Must have"),
  (n!"Mustn't", n!"Must not"),
  (n!"Mustn’t", n!"Must not"),
  (n!"Must’ve", n!"Must have"),
  (n!"SHE'D", n!"SHE WOULD"),
  (n!"SHE'LL", n!"SHE WILL"),
  (n!"SHE'S", n!"SHE IS"),
  (n!"SHE’D", n!"SHE WOULD"),
  (n!"SHE’LL", n!"SHE WILL"),
  (n!"SHE’S", n!"SHE IS"),
  (n!"SHOULD'VE", n!"SHOULD HAVE"),
  (n!"SHOULDN'T", n!"SHOULD NOT"),
  (n!"SHOULDN’T", n!"SHOULD NOT"),
  (n!"SHOULD’VE", n!"SHOULD HAVE"),
  (n!"She'd", n!"She would"),
  (n!"She'll", n!"She will"),
  (n!"She's", n!"She is"),
  (n!"She’d", n!"She would"),
  (n!"She’ll", n!"She will"),
  (n!"She’s", n!"She is"),
  (n!"Should've", n!"Should have"),
  (n!"Shouldn't", n!"Should not"),
  (n!"Shouldn’t", n!"Should not"),
  (n!"Should’ve", n!"Should have"),
  (n!"THEY'D", n!"THEY WOULD"),
  (n!"THEY'LL", n!"THEY WILL"),
  (n!"THEY'RE", n!"THEY ARE"),
  (n!"THEY'VE", n!"THEY HAVE"),
  (n!"THEY’D", n!"THEY WOULD"),
  (n!"THEY’LL", n!"THEY WILL"),
  (n!"THEY’RE", n!"THEY ARE"),
  (n!"THEY’VE", n!"THEY HAVE"),
  (n!"They'd", n!"They would"),
  (n!"They'll", n!"They will"),
  (n!"They're", n!"They are"),
  (n!"They've", n!"They have"),
  (n!"They’d", n!"They would"),
  (n!"They’ll", n!"They will"),
  (n!"They’re", n!"They are"),
  (n!"They’ve", n!"They have"),
  (n!"WANNA", n!"WANT TO"),
  (n!"WASN'T", n!"WAS NOT"),
  (n!"WASN’T", n!"WAS NOT"),
  (n!"WE'D", n!"WE WOULD"),
  (n!"WE'LL", n!"WE WILL"),
  (n!"WE'RE", n!"WE ARE"),
  (n!"WE'VE", n!"WE HAVE"),
  (n!"WE’D", n!"WE WOULD"),
  (n!"WE’LL", n!"WE WILL"),
  (n!"WE’RE", n!"WE ARE"),
  (n!"WE’VE", n!"WE HAVE"),
  (n!"WILL'VE", n!"WILL HAVE"),
  (n!"WILL’VE", n!"WILL HAVE"),
  (n!"WON'T", n!"WILL NOT"),
  (n!"WON’T", n!"WILL NOT"),
  (n!"WOULD'VE", n!"WOULD HAVE"),
  (n!"WOULDN'T", n!"WOULD NOT"),
  (n!"WOULDN’T", n!"WOULD NOT"),
  (n!"WOULD’VE", n!"WOULD HAVE"),
  (n!"Wanna", n!"Want to"),
  (n!"Wasn't", n!"Was not"),
  (n!"Wasn’t", n!"Was not"),
  (n!"We'd", n!"We would"),
  (n!"We'll", n!"We will"),
  (n!"We're", n!"We are"),
  (n!"We've", n!"We have"),
  (n!"We’d", n!"We would"),
  (n!"We’ll", n!"We will"),
  (n!"We’re", n!"We are"),
  (n!"We’ve", n!"We have"),
  (n!"Will've", n!"Will have"),
  (n!"Will’ve", n!"Will have"),
  (n!"Won't", n!"Will not"),
  (n!"Won’t", n!"Will not"),
  (n!"Would've", n!"Would have"),
  (n!"Wouldn't", n!"Would not"),
  (n!"Wouldn’t", n!"Would not"),
  (n!"Would’ve", n!"Would have"),
  (n!"YOU'D", n!"YOU WOULD"),
  (n!"YOU'LL", n!"YOU WILL"),
  (n!"YOU'RE", n!"YOU ARE"),
  (n!"YOU'VE", n!"YOU HAVE"),
  (n!"YOU’D", n!"YOU WOULD"),
  (n!"YOU’LL", n!"YOU WILL"),
  (n!"YOU’RE", n!"YOU ARE"),
  (n!"YOU’VE", n!"YOU HAVE"),
  (n!"You'd", n!"You would"),
  (n!"You'll", n!"You will"),
  (n!"You're", n!"You are"),
  (n!"You've", n!"You have"),
  (n!"You’d", n!"You would"),
  (n!"You’ll", n!"You will"),
  (n!"You’re", n!"You are"),
  (n!"You’ve", n!"You have"),
  (n!"aren't", n!"are not"),
  (n!"aren’t", n!"are not"),
  (n!"can't", n!"can not"),
  (n!"cannot", n!"can not"),
  (n!"can’t", n!"can not"),
  (n!"could've", n!"could have"),
  (n!"couldn't", n!"could not"),
  (n!"couldn’t", n!"could not"),
  (n!"could’ve", n!"could have"),
  (n!"didn't", n!"did not"),
  (n!"didn’t", n!"did not"),
  (n!"doesn't", n!"does not"),
  (n!"doesn’t", n!"does not"),
  (n!"don't", n!"do not"),
  (n!"don’t", n!"do not"),
  (n!"gimme", n!"give me"),
  (n!"gonna", n!"going to"),
  (n!"gotta", n!"got to"),
  (n!"hadn't", n!"had not"),
  (n!"hadn’t", n!"had not"),
  (n!"haven't", n!"have not"),
  (n!"haven’t", n!"have not"),
  (n!"he'd", n!"he would"),
  (n!"he'll", n!"he will"),
  (n!"he's", n!"he is"),
  (n!"he’d", n!"he would"),
  (n!"he’ll", n!"he will"),
  (n!"he’s", n!"he is"),
  (n!"i'd", n!"i would"),
  (n!"i'll", n!"i will"),
  (n!"i'm", n!"i am"),
  (n!"i've", n!"i have"),
  (n!"isn't", n!"is not"),
  (n!"isn’t", n!"is not"),
  (n!"i’d", n!"i would"),
  (n!"i’ll", n!"i will"),
  (n!"i’m", n!"i am"),
  (n!"i’ve", n!"i have"),
  (n!"might've", n!"might have"),
  (n!"mightn't", n!"might not"),
  (n!"mightn’t", n!"might not"),
  (n!"might’ve", n!"might have"),
  (n!"must've", n!"must have"),
  (n!"mustn't", n!"must not"),
  (n!"mustn’t", n!"must not"),
  (n!"must’ve", n!"must have"),
  (n!"she'd", n!"she would"),
  (n!"she'll", n!"she will"),
  (n!"she's", n!"she is"),
  (n!"she’d", n!"she would"),
  (n!"she’ll", n!"she will"),
  (n!"she’s", n!"she is"),
  (n!"should've", n!"should have"),
  (n!"shouldn't", n!"should not"),
  (n!"shouldn’t", n!"should not"),
  (n!"should’ve", n!"should have"),
  (n!"they'd", n!"they would"),
  (n!"they'll", n!"they will"),
  (n!"they're", n!"they are"),
  (n!"they've", n!"they have"),
  (n!"they’d", n!"they would"),
  (n!"they’ll", n!"they will"),
  (n!"they’re", n!"they are"),
  (n!"they’ve", n!"they have"),
  (n!"wanna", n!"want to"),
  (n!"wasn't", n!"was not"),
  (n!"wasn’t", n!"was not"),
  (n!"we'd", n!"we would"),
  (n!"we'll", n!"we will"),
  (n!"we're", n!"we are"),
  (n!"we've", n!"we have"),
  (n!"we’d", n!"we would"),
  (n!"we’ll", n!"we will"),
  (n!"we’re", n!"we are"),
  (n!"we’ve", n!"we have"),
  (n!"will've", n!"will have"),
  (n!"will’ve", n!"will have"),
  (n!"won't", n!"will not"),
  (n!"won’t", n!"will not"),
  (n!"would've", n!"would have"),
  (n!"wouldn't", n!"would not"),
  (n!"wouldn’t", n!"would not"),
  (n!"would’ve", n!"would have"),
  (n!"you'd", n!"you would"),
  (n!"you'll", n!"you will"),
  (n!"you're", n!"you are"),
  (n!"you've", n!"you have"),
  (n!"you’d", n!"you would"),
  (n!"you’ll", n!"you will"),
  (n!"you’re", n!"you are"),
  (n!"you’ve", n!"you have")]

/-- filters/contractions/generate/main.go:110-175 `contractions`, the list the table is made from. -/
def contractionBaseRows : List (Nat × Nat) := [
  (n!"i'll", n!"i will"),
  (n!"you'll", n!"you will"),
  (n!"she'll", n!"she will"),
  (n!"he'll", n!"he will"),
  (n!"we'll", n!"we will"),
  (n!"they'll", n!"they will"),
  (n!"i'm", n!"i am"),
  (n!"you're", n!"you are"),
  (n!"she's", n!"she is"),
  (n!"he's", n!"he is"),
  (n!"we're", n!"we are"),
  (n!"they're", n!"they are"),
  (n!"i've", n!"i have"),
  (n!"you've", n!"you have"),
  (n!"we've", n!"we have"),
  (n!"they've", n!"they have"),
  (n!"i'd", n!"i would"),
  (n!"you'd", n!"you would"),
  (n!"she'd", n!"she would"),
  (n!"he'd", n!"he would"),
  (n!"we'd", n!"we would"),
  (n!"they'd", n!"they would"),
  (n!"isn't", n!"is not"),
  (n!"aren't", n!"are not"),
  (n!"wasn't", n!"was not"),
  (n!"don't", n!"do not"),
  (n!"doesn't", n!"does not"),
  (n!"didn't", n!"did not"),
  (n!"haven't", n!"have not"),
  (n!"hadn't", n!"had not"),
  (n!"can't", n!"can not"),
  (n!"won't", n!"will not"),
  (n!"will've", n!"will have"),
  (n!"wouldn't", n!"would not"),
  (n!"would've", n!"would have"),
  (n!"couldn't", n!"could not"),
  (n!"could've", n!"could have"),
  (n!"shouldn't", n!"should not"),
  (n!"should've", n!"should have"),
  (n!"mightn't", n!"might not"),
  (n!"might've", n!"might have"),
  (n!"mustn't", n!"must not"),
  (n!"must've", n!"must have"),
  (n!"gonna", n!"going to"),
  (n!"gotta", n!"got to"),
  (n!"wanna", n!"want to"),
  (n!"gimme", n!"give me"),
  (n!"cannot", n!"can not")]

end Jargon
