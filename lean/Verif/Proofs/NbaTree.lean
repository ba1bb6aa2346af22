import Verif.Proofs.Tree

/-! A search tree for the synonyms of filters/nba, found outside Lean and checked in Props/Tables. -/

namespace Jargon

set_option maxRecDepth 10000

/-- Part of `nbaTree`. -/
def nbaTree0 : Tree :=
  .node (.node (.node (.node (.node (.node (.node (.node .leaf 428597494078306 n!"Markieff Morris" .leaf) 4453211833800034 n!"Cristiano Felício" .leaf) 9267133496487009 n!"Ante Žižić" (.node .leaf 26927184225078305 n!"Jonathan Isaac" .leaf)) 28053899315110480 n!"Dwight Howard" (.node (.node .leaf 34594833043743806 n!"Jarrell Brantley" .leaf) 35894784099129845 n!"Cody Zeller" (.node .leaf 39457942775208707 n!"Sir'Dominic Pointer" .leaf))) 50561966990390118 n!"Quinndary Weatherspoon" (.node (.node (.node .leaf 61298317849952756 n!"Justin Wright-Foreman" .leaf) 63060384641339898 n!"Sekou Doumbouya" (.node .leaf 64875707940731179 n!"DeMar DeRozan" .leaf)) 79018267988821417 n!"Dorian Finney-Smith" (.node (.node .leaf 82961628660935237 n!"Ignas Brazdeikis" .leaf) 84811590470291221 n!"Bruno Fernando" (.node .leaf 91875903832670956 n!"Steven Adams" .leaf)))) 94720898431629891 n!"Shaquille Harrison" (.node (.node (.node (.node (.node .leaf 94945940827710385 n!"Zhaire Smith" .leaf) 95637011865317719 n!"Tyson Chandler" .leaf) 98786566758649824 n!"Garrison Mathews" (.node .leaf 106818993635809901 n!"Montrezl Harrell" .leaf)) 108214822975755041 n!"Mike Muscala" (.node (.node .leaf 110478185528618184 n!"Moses Brown" .leaf) 114998573813789809 n!"Derrick Rose" (.node .leaf 120340091181725728 n!"Karl-Anthony Towns" .leaf))) 124963417958900412 n!"Kevin Knox" (.node (.node (.node .leaf 125079720450592591 n!"Noah Vonleh" .leaf) 126903850672432533 n!"Abdel Nader" (.node .leaf 127353890911680335 n!"Charlie Brown" .leaf)) 127681934411608712 n!"Vincent Poirier" (.node (.node .leaf 129649731652741283 n!"Gary Clark" .leaf) 139192757409475552 n!"Malcolm Miller" (.node .leaf 145111327819820234 n!"Jeremy Lamb" .leaf))))) 148514336829394464 n!"Jeff Green" (.node (.node (.node (.node (.node (.node .leaf 159312751445048306 n!"Bogdan Bogdanović" .leaf) 159312751445048470 n!"Bogdan Bogdanović" .leaf) 160738119379674404 n!"Klay Thompson" (.node .leaf 172151447754443558 n!"Josh Richardson" .leaf)) 173939120092165437 n!"LeBron James" (.node (.node .leaf 177667725727525204 n!"Marvin Bagley" .leaf) 184410535181171011 n!"Dwayne Bacon" (.node .leaf 187794191732901933 n!"Jordan McLaughlin" .leaf))) 205469890823755915 n!"Chandler Hutchison" (.node (.node (.node .leaf 221699345994825321 n!"Marc Gasol" .leaf) 224794305986398702 n!"Amir Coffey" (.node .leaf 227517365334926459 n!"Kevon Looney" .leaf)) 229541842517713870 n!"Juan Toscano-Anderson" (.node (.node .leaf 230001163201933872 n!"Brandon Clarke" .leaf) 232446912561354081 n!"Nassir Little" (.node .leaf 233807664952163810 n!"Pat Connaughton" .leaf)))) 235686542658339374 n!"Gordon Hayward" (.node (.node (.node (.node .leaf 237766590661544569 n!"Wesley Matthews" .leaf) 239369173144721336 n!"Rodions Kurucs" (.node .leaf 241023792675091171 n!"Wes Iwundu" .leaf)) 243423868000805623 n!"Kemba Walker" (.node (.node .leaf 249090703074316166 n!"Mike Scott" .leaf) 255731376484910005 n!"Marcus Morris" (.node .leaf 258451475347679216 n!"Devonte' Graham" .leaf))) 262930284271594571 n!"Kent Bazemore" (.node (.node (.node .leaf 266116616696917552 n!"Jrue Holiday" .leaf) 270289832089294962 n!"Danny Green" (.node .leaf 270748672003969203 n!"Dylan Windler" .leaf)) 283569055213610254 n!"Trey Lyles" (.node (.node .leaf 283622055743926487 n!"Tomáš Satoranský" .leaf) 287687625568597578 n!"Jordan Poole" (.node .leaf 293786578579674052 n!"Terrance Ferguson" .leaf)))))) 297188978879120982 n!"Džanan Musa" (.node (.node (.node (.node (.node (.node (.node .leaf 298808366225916768 n!"Blake Griffin" .leaf) 300102180618300890 n!"Dean Wade" .leaf) 300271557539912908 n!"Tremont Waters" (.node .leaf 306406010026812398 n!"Frank Kaminsky" .leaf)) 308726280711119630 n!"John Collins" (.node (.node .leaf 312063456641800929 n!"Luke Kornet" .leaf) 320527041062364506 n!"Zylan Cheatham" (.node .leaf 321285815493218139 n!"Lonnie Walker" .leaf))) 325828335078624743 n!"Marvin Williams" (.node (.node (.node .leaf 326067789592239631 n!"Michael Kidd-Gilchrist" .leaf) 326676832162802134 n!"Damian Jones" (.node .leaf 340343607222808942 n!"JaVale McGee" .leaf)) 350343808635177153 n!"Devin Booker" (.node (.node .leaf 354235782512960041 n!"Dewan Hernandez" .leaf) 361614160598636980 n!"Dwight Powell" (.node .leaf 365266468271453521 n!"Russell Westbrook" .leaf)))) 366978358412870037 n!"Kenrich Williams" (.node (.node (.node (.node .leaf 367369271691875417 n!"Bol Bol" .leaf) 370897018321216818 n!"Mfiondu Kabengele" (.node .leaf 371667774264866399 n!"Derrick White" .leaf)) 374135816775379758 n!"Jordan Clarkson" (.node (.node .leaf 381739209485967794 n!"Frank Mason" .leaf) 382887281997912565 n!"Willy Hernangómez" (.node .leaf 383337640786211858 n!"Élie Okobo" .leaf))) 384314550225989963 n!"John Wall" (.node (.node (.node .leaf 385262615511000490 n!"Frank Ntilikina" .leaf) 388081715103033048 n!"Michael Carter-Williams" (.node .leaf 394698821060522485 n!"Josh Hart" .leaf)) 407699999089800607 n!"Damyean Dotson" (.node (.node .leaf 408233367608216314 n!"Dennis Schröder" .leaf) 409943227764266854 n!"Damion Lee" (.node .leaf 412000061314467052 n!"Vic Law" .leaf))))) 435197928057211049 n!"Rayjon Tucker" (.node (.node (.node (.node (.node (.node .leaf 443462499437755582 n!"Will Barton" .leaf) 449451906705760410 n!"Joe Ingles" .leaf) 458045101706093050 n!"Kendrick Nunn" (.node .leaf 462131994894928892 n!"Joe Chealey" .leaf)) 467587344466895520 n!"Chasson Randle" (.node (.node .leaf 470627775386671712 n!"Jeremiah Martin" .leaf) 478974690357871023 n!"Jontay Porter" (.node .leaf 481173113698233908 n!"De'Aaron Fox" .leaf))) 483688203783120263 n!"James Ennis" (.node (.node (.node .leaf 494282994573685243 n!"Caleb Swanigan" .leaf) 497687274985210908 n!"Juan Hernangómez" (.node .leaf 506566857842092021 n!"Kobi Simmons" .leaf)) 506845126219649417 n!"Evan Turner" (.node (.node .leaf 509186513418958907 n!"Kelly Olynyk" .leaf) 514087907761103091 n!"Austin Rivers" (.node .leaf 517607747409605066 n!"Domantas Sabonis" .leaf)))) 523147123585263422 n!"Aaron Gordon" (.node (.node (.node (.node .leaf 524477817453011829 n!"Harry Giles" .leaf) 529714071888264925 n!"Darius Garland" (.node .leaf 539494598553013744 n!"Darius Bazley" .leaf)) 539868115447762424 n!"Willie Cauley-Stein" (.node (.node .leaf 540714756403870341 n!"Aaron Holiday" .leaf) 541960959648625463 n!"Patty Mills" (.node .leaf 542554070669278315 n!"Hassan Whiteside" .leaf))) 543655625382799350 n!"Stephen Curry" (.node (.node (.node .leaf 545280080969812528 n!"Juwan Morgan" .leaf) 554353041670482483 n!"Tony Snell" (.node .leaf 562826096652433712 n!"Kyrie Irving" .leaf)) 566167805610311665 n!"Derrick Jones" (.node (.node .leaf 568126071399619324 n!"Ish Smith" .leaf) 572385842660172132 n!"Kadeem Allen" (.node .leaf 573376522203136697 n!"Thaddeus Young" .leaf))))))

/-- Part of `nbaTree`. -/
def nbaTree1 : Tree :=
  .node (.node (.node (.node (.node (.node (.node (.node .leaf 584661449267509941 n!"Alize Johnson" .leaf) 588136176474803857 n!"Derrick Favors" .leaf) 591148213772907700 n!"Chimezie Metu" (.node .leaf 592906971424652451 n!"Bruce Brown" .leaf)) 597187948691344912 n!"Shabazz Napier" (.node (.node .leaf 597611695072774358 n!"Udonis Haslem" .leaf) 599033222201670169 n!"Jamal Murray" (.node .leaf 599579009059224394 n!"Bryn Forbes" .leaf))) 600610977364910159 n!"Treveon Graham" (.node (.node (.node .leaf 618237740671542280 n!"Anthony Davis" .leaf) 618292623156619035 n!"Anžejs Pasečņiks" (.node .leaf 624699333915755603 n!"Giannis Antetokounmpo" .leaf)) 637153460006156969 n!"Lou Williams" (.node (.node .leaf 643817274965284028 n!"Delon Wright" .leaf) 645047463116248915 n!"Kristaps Porziņģis" (.node .leaf 650067659266475587 n!"Nicolò Melli" .leaf)))) 652437862719131063 n!"Lauri Markkanen" (.node (.node (.node (.node .leaf 658536444409143267 n!"DaQuan Jeffries" .leaf) 667284887553966093 n!"Carsen Edwards" (.node .leaf 669274509417202692 n!"Justise Winslow" .leaf)) 670524631557573912 n!"Tim Hardaway" (.node (.node .leaf 675841157777684078 n!"Mychal Mulder" .leaf) 676982169221236164 n!"Patrick McCaw" (.node .leaf 698817445944233188 n!"RJ Barrett" .leaf))) 699545077516572972 n!"Jaren Jackson" (.node (.node (.node .leaf 708163124950103657 n!"Rudy Gay" .leaf) 708426769102799649 n!"Élie Okobo" (.node .leaf 712449607504348554 n!"Jerami Grant" .leaf)) 717274760981474973 n!"Ed Davis" (.node (.node .leaf 721660007287430921 n!"Edmond Sumner" .leaf) 730420745131649726 n!"Grant Williams" (.node .leaf 732359476306504434 n!"Maxi Kleber" .leaf))))) 733053718282584834 n!"Al-Farouq Aminu" (.node (.node (.node (.node (.node (.node .leaf 741978932019911125 n!"JJ Redick" .leaf) 744686555651524089 n!"Alex Caruso" .leaf) 752578775433286963 n!"Miye Oni" (.node .leaf 753549617741642409 n!"Bruno Caboclo" .leaf)) 757576083846858411 n!"Josh Okogie" (.node (.node .leaf 762452182767397247 n!"Ersan İlyasova" .leaf) 765689091041232807 n!"Theo Pinson" (.node .leaf 771359037195305542 n!"Ben McLemore" .leaf))) 771577162680274611 n!"Yuta Watanabe" (.node (.node (.node .leaf 772630749092402599 n!"Timothé Luwawu-Cabarrot" .leaf) 773637104974941002 n!"Chris Boucher" (.node .leaf 774700758799255599 n!"Kyle Lowry" .leaf)) 778709252651760531 n!"Nemanja Bjelica" (.node (.node .leaf 778723267554033406 n!"Dario Šarić" .leaf) 784279501600785405 n!"Clint Capela" (.node .leaf 792442074834799722 n!"James Johnson" .leaf)))) 806857141800705278 n!"Matt Thomas" (.node (.node (.node (.node .leaf 809019655729364257 n!"E'Twaun Moore" .leaf) 811425384663145141 n!"Mike Conley" (.node .leaf 816580985784558342 n!"Antonius Cleveland" .leaf)) 817023780066708045 n!"Dāvis Bertāns" (.node (.node .leaf 819364671664196250 n!"Kenny Wooten" .leaf) 821671365338094697 n!"Nikola Vučević" (.node .leaf 826905849878241095 n!"Stanley Johnson" .leaf))) 835805708565251590 n!"Al Horford" (.node (.node (.node .leaf 839081427618092768 n!"Wilson Chandler" .leaf) 858473271730834587 n!"Markelle Fultz" (.node .leaf 874249608808630383 n!"T. J. McConnell" .leaf)) 879234786013222691 n!"Norman Powell" (.node (.node .leaf 879513468555446156 n!"Richaun Holmes" .leaf) 884268804236122412 n!"Luke Kennard" (.node .leaf 886208708304731243 n!"Allonzo Trier" .leaf)))))) 895294283014894614 n!"Andrew Wiggins" (.node (.node (.node (.node (.node (.node (.node .leaf 900684844385141670 n!"Jakob Pöltl" .leaf) 905519477955176675 n!"Alfonzo McKinnie" .leaf) 907325276944489607 n!"Thomas Bryant" (.node .leaf 908691932747244449 n!"Caris LeVert" .leaf)) 908871667501844325 n!"Jarred Vanderbilt" (.node (.node .leaf 909905113207974672 n!"Tyus Jones" .leaf) 911680928592252428 n!"Timothé Luwawu-Cabarrot" (.node .leaf 919775733000753340 n!"Vlatko Čančar" .leaf))) 920817031093727349 n!"Luka Šamanić" (.node (.node (.node .leaf 921731334360515259 n!"Kyle Anderson" .leaf) 922781333775018138 n!"J. J. Barea" (.node .leaf 923904666758660209 n!"Nicolò Melli" .leaf)) 927928964239504505 n!"Brad Wanamaker" (.node (.node .leaf 934663634183644944 n!"Doug McDermott" .leaf) 938548225693030761 n!"Jayson Tatum" (.node .leaf 940638634738219810 n!"Robin Lopez" .leaf)))) 947557026473971132 n!"Avery Bradley" (.node (.node (.node (.node .leaf 951023760381360922 n!"Willy Hernangómez" .leaf) 959034105691669046 n!"Nicolas Batum" (.node .leaf 961655314749121952 n!"Dante Exum" .leaf)) 971171272547818526 n!"Tobias Harris" (.node (.node .leaf 991337177624213925 n!"Landry Shamet" .leaf) 995613642153630649 n!"Tacko Fall" (.node .leaf 997894768073315551 n!"Robert Williams" .leaf))) 1001455798442617475 n!"Nicolas Claxton" (.node (.node (.node .leaf 1005363208246406265 n!"Jimmy Butler" .leaf) 1015894529887796722 n!"Robert Covington" (.node .leaf 1018517640956881625 n!"Goran Dragić" .leaf)) 1018517640956881789 n!"Goran Dragić" (.node (.node .leaf 1025884488414051215 n!"Georges Niang" .leaf) 1026413931743933369 n!"Collin Sexton" (.node .leaf 1029783046419364680 n!"Talen Horton-Tucker" .leaf))))) 1034482225125465362 n!"Thanasis Antetokounmpo" (.node (.node (.node (.node (.node (.node .leaf 1039690065207256621 n!"Jabari Parker" .leaf) 1051968042404950610 n!"Ja Morant" .leaf) 1053135136335177380 n!"Brandon Ingram" (.node .leaf 1066634496161987296 n!"Terry Rozier" .leaf)) 1076722722060050380 n!"Otto Porter" (.node (.node .leaf 1077751357251572835 n!"Mikal Bridges" .leaf) 1083056712933741034 n!"Kyle Korver" (.node .leaf 1095255414417224025 n!"Romeo Langford" .leaf))) 1101508449283338251 n!"André Roberson" (.node (.node (.node .leaf 1107361224316527497 n!"Glenn Robinson" .leaf) 1111504108590193522 n!"Ben Simmons" (.node .leaf 1112155078492113315 n!"Coby White" .leaf)) 1116866304539756592 n!"Ricky Rubio" (.node (.node .leaf 1124973417998900450 n!"Kevin Love" .leaf) 1127819272708930605 n!"Jared Dudley" (.node .leaf 1127948480325134511 n!"Oshae Brissett" .leaf)))) 1128724143114315162 n!"Matisse Thybulle" (.node (.node (.node (.node .leaf 1132562877728084817 n!"Joakim Noah" .leaf) 1138659272053454942 n!"Keita Bates-Diop" (.node .leaf 1142191355611215231 n!"Brook Lopez" .leaf)) 1155685932665426226 n!"P. J. Tucker" (.node (.node .leaf 1155979534201197101 n!"Sterling Brown" .leaf) 1158201489826023469 n!"Anfernee Simons" (.node .leaf 1160583935109021462 n!"Cheick Diallo" .leaf))) 1161021475348386658 n!"Kelan Martin" (.node (.node (.node .leaf 1173663574564096666 n!"Jake Layman" .leaf) 1179148644940706119 n!"Admiral Schofield" (.node .leaf 1183024007154510868 n!"DeMarre Carroll" .leaf)) 1183457117849150069 n!"Keldon Johnson" (.node (.node .leaf 1185765805466806516 n!"Jalen Brunson" .leaf) 1194463457915660907 n!"Jae Crowder" (.node .leaf 1194921760132755747 n!"Max Strus" .leaf))))))

/-- Part of `nbaTree`. -/
def nbaTree2 : Tree :=
  .node (.node (.node (.node (.node (.node (.node (.node .leaf 1200025379162143764 n!"Jaylen Nowell" .leaf) 1207569209979091847 n!"Solomon Hill" .leaf) 1215662913226602439 n!"Bismack Biyombo" (.node .leaf 1220024399707096411 n!"Rui Hachimura" .leaf)) 1220196306322304590 n!"Grayson Allen" (.node (.node .leaf 1221077944682824155 n!"Ivica Zubac" .leaf) 1231446876250719824 n!"Eric Paschall" (.node .leaf 1233122326587548577 n!"Tariq Owens" .leaf))) 1236801366353809958 n!"Ky Bowman" (.node (.node (.node .leaf 1239105897977323408 n!"James Harden" .leaf) 1241378581890816488 n!"Mason Plumlee" (.node .leaf 1242132604591307888 n!"Tyler Herro" .leaf)) 1243252800384056830 n!"Donta Hall" (.node (.node .leaf 1246573374469999333 n!"Jonas Valančiūnas" .leaf) 1249720494308693530 n!"Dennis Smith" (.node .leaf 1250116174295941423 n!"Paul Millsap" .leaf)))) 1257644554211936681 n!"Daniel Gafford" (.node (.node (.node (.node (.node .leaf 1258049657869722518 n!"Khyri Thomas" .leaf) 1263331231791035641 n!"Isaiah Roby" .leaf) 1265905704026436228 n!"Michael Porter" (.node .leaf 1271634239799664891 n!"B. J. Johnson" .leaf)) 1273163827865630038 n!"Mitchell Robinson" (.node (.node .leaf 1273575667144386604 n!"George Hill" .leaf) 1278589096116546560 n!"Jerome Robinson" (.node .leaf 1282775719071549727 n!"Rondae Hollis-Jefferson" .leaf))) 1286436503136816063 n!"Luguentz Dort" (.node (.node (.node .leaf 1289849413763656081 n!"Deonte Burton" .leaf) 1292267773871812191 n!"Zach Collins" (.node .leaf 1293083580441702164 n!"Marco Belinelli" .leaf)) 1294979742125373812 n!"Miles Bridges" (.node (.node .leaf 1297433532775843909 n!"Ian Mahinmi" .leaf) 1299801135089353292 n!"D'Angelo Russell" (.node .leaf 1305401447452682539 n!"Kevin Porter" .leaf))))) 1311316282879705341 n!"CJ McCollum" (.node (.node (.node (.node (.node (.node .leaf 1315992003069806540 n!"Nickeil Alexander-Walker" .leaf) 1320103145290050630 n!"Khris Middleton" .leaf) 1320439162070879699 n!"Deandre Ayton" (.node .leaf 1320512765272642643 n!"Donovan Mitchell" .leaf)) 1320940645426650535 n!"Wenyen Gabriel" (.node (.node .leaf 1321794984407839897 n!"Harrison Barnes" .leaf) 1327243515879474854 n!"Garrett Temple" (.node .leaf 1343301313908582357 n!"Dāvis Bertāns" .leaf))) 1344231481044546345 n!"Thon Maker" (.node (.node (.node .leaf 1346782791014564438 n!"Maurice Harkless" .leaf) 1352283359672500903 n!"Dion Waiters" (.node .leaf 1355024462139366844 n!"Kostas Antetokounmpo" .leaf)) 1356038982743082499 n!"Cam Reddish" (.node (.node .leaf 1384026049494716738 n!"Matthew Dellavedova" .leaf) 1388187391146105571 n!"Khem Birch" (.node .leaf 1388234715689205716 n!"P. J. Washington" .leaf)))) 1392396500632202172 n!"Serge Ibaka" (.node (.node (.node (.node .leaf 1396077219531865947 n!"Hamidou Diallo" .leaf) 1401006563575707741 n!"Zach LaVine" (.node .leaf 1401387829463957906 n!"Cory Joseph" .leaf)) 1405006945461182526 n!"Troy Brown" (.node (.node .leaf 1408196018551489784 n!"Gorgui Dieng" .leaf) 1411761485096507527 n!"Ryan Arcidiacono" (.node .leaf 1425692904938505720 n!"KZ Okpala" .leaf))) 1425795869901494053 n!"Fred VanVleet" (.node (.node (.node .leaf 1426597577599926042 n!"André Roberson" .leaf) 1426994613984323463 n!"T. J. Leaf" (.node .leaf 1427012235376414893 n!"Enes Kanter" .leaf)) 1427877846115236261 n!"Chris Paul" (.node (.node .leaf 1434428093522864597 n!"Josh Reaves" .leaf) 1435408265919420408 n!"Chris Clemons" (.node .leaf 1440427947740650752 n!"Elfrid Payton" .leaf)))))) 1443902237488341296 n!"Jaxson Hayes" (.node (.node (.node (.node (.node (.node (.node .leaf 1451755907571155778 n!"Dennis Schröder" .leaf) 1464878629329383284 n!"Trevor Ariza" .leaf) 1468648322504663855 n!"Rudy Gobert" (.node .leaf 1474868213945221246 n!"Ty Jerome" .leaf)) 1475718802015126980 n!"Tristan Thompson" (.node (.node .leaf 1477873162517367600 n!"Michael Frazier" .leaf) 1487238599937934635 n!"Luka Šamanić" (.node .leaf 1496943984902058762 n!"Malik Monk" .leaf))) 1500450244370096528 n!"Andre Drummond" (.node (.node (.node .leaf 1501911073450602529 n!"Jaylen Brown" .leaf) 1529704680230587866 n!"Taj Gibson" (.node .leaf 1553999185675788505 n!"Paul George" .leaf)) 1554897651263228902 n!"Trae Young" (.node (.node .leaf 1566613310518181230 n!"Justin Holiday" .leaf) 1579389588275821723 n!"Gary Harris" (.node .leaf 1583757536772648303 n!"OG Anunoby" .leaf)))) 1585855171844375600 n!"Seth Curry" (.node (.node (.node (.node .leaf 1586220826562479865 n!"Eric Bledsoe" .leaf) 1590088695081183091 n!"Kevin Hervey" (.node .leaf 1590402850115620881 n!"Royce O'Neale" .leaf)) 1590410464960654975 n!"DeAndre' Bembry" (.node (.node .leaf 1595494292594004657 n!"Javonte Green" .leaf) 1595941674556054010 n!"Kawhi Leonard" (.node .leaf 1604432057224739403 n!"Kentavious Caldwell-Pope" .leaf))) 1606686960659186039 n!"Darius Miller" (.node (.node (.node .leaf 1615881211958302585 n!"Courtney Lee" .leaf) 1616360230434260869 n!"Jordan McRae" (.node .leaf 1617652789411262767 n!"Malcolm Brogdon" .leaf)) 1620040170471650694 n!"Melvin Frazier" (.node (.node .leaf 1622266567084694556 n!"Alec Burks" .leaf) 1628297579045106526 n!"Brian Bowen" (.node .leaf 1633505031396678445 n!"Patrick Patterson" .leaf))))) 1637856726337630171 n!"Chris Chiozza" (.node (.node (.node (.node (.node (.node .leaf 1645816037472048750 n!"Eric Gordon" .leaf) 1646920196474825630 n!"Drew Eubanks" .leaf) 1652931319226724539 n!"Myles Turner" (.node .leaf 1657810125449747631 n!"Cedi Osman" .leaf)) 1657833169184765177 n!"Kevin Huerter" (.node (.node .leaf 1662725472141317999 n!"Buddy Hield" .leaf) 1671442098495519616 n!"Johnathan Motley" (.node .leaf 1674483362094589743 n!"Langston Galloway" .leaf))) 1674524506385722457 n!"Quinn Cook" (.node (.node (.node .leaf 1684954000233351352 n!"Jalen McDaniels" .leaf) 1688106368532808667 n!"Dillon Brooks" (.node .leaf 1689215395665773737 n!"Christian Wood" .leaf)) 1694086199046766637 n!"DeAndre Jordan" (.node (.node .leaf 1700549830332216516 n!"Josh Gray" .leaf) 1715492259699506125 n!"Joel Embiid" (.node .leaf 1719951397565652331 n!"Monté Morris" .leaf)))) 1719990644008897588 n!"Joe Harris" (.node (.node (.node (.node .leaf 1723630427621128152 n!"P. J. Dozier" .leaf) 1728545727286812532 n!"Kyle Alexander" (.node .leaf 1730927174585666200 n!"Boban Marjanović" .leaf)) 1730927174585666364 n!"Boban Marjanović" (.node (.node .leaf 1734850106583336864 n!"Marial Shayok" .leaf) 1736232465392873530 n!"Torrey Craig" (.node .leaf 1738455567890627092 n!"Dewayne Dedmon" .leaf))) 1742159742664045628 n!"Cristiano Felício" (.node (.node (.node .leaf 1743831963235635455 n!"Nerlens Noel" .leaf) 1757109152564008445 n!"Aron Baynes" (.node .leaf 1757355749819697648 n!"Patrick Beverley" .leaf)) 1765809424096202305 n!"Taurean Prince" (.node (.node .leaf 1790077051986775056 n!"LaMarcus Aldridge" .leaf) 1790465935472830262 n!"Devontae Cacok" (.node .leaf 1790610237055439523 n!"Marquese Chriss" .leaf))))))

/-- Part of `nbaTree`. -/
def nbaTree3 : Tree :=
  .node (.node (.node (.node (.node (.node (.node (.node .leaf 1799287102314938147 n!"John Konchar" .leaf) 1800785991326767035 n!"Shai Gilgeous-Alexander" .leaf) 1804338560859777158 n!"Sviatoslav Mykhailiuk" (.node .leaf 1817608955648392856 n!"Kevin Durant" .leaf)) 1818542174704416176 n!"Josh Jackson" (.node (.node .leaf 1820273982693296418 n!"Jaylen Hoard" .leaf) 1823455972184813622 n!"Terrence Ross" (.node .leaf 1823593195944834763 n!"Lonzo Ball" .leaf))) 1830341260838549276 n!"Danilo Gallinari" (.node (.node (.node .leaf 1832605006113187867 n!"Frank Jackson" .leaf) 1837949951629524970 n!"Tomáš Satoranský" (.node .leaf 1845625138351749597 n!"Mario Hezonja" .leaf)) 1845878447374764248 n!"Džanan Musa" (.node (.node .leaf 1847048424104955913 n!"Jonas Valančiūnas" .leaf) 1849404342834721314 n!"Alex Len" (.node .leaf 1852068526098011843 n!"Wayne Ellington" .leaf)))) 1854973885745008229 n!"Jordan Bone" (.node (.node (.node (.node .leaf 1874545011038108912 n!"Jarrett Allen" .leaf) 1875667487773112876 n!"Kyle Guy" (.node .leaf 1877198507361239221 n!"Eric Mika" .leaf)) 1886663052884834628 n!"Naz Reid" (.node (.node .leaf 1887937723333006242 n!"Jeff Teague" .leaf) 1888506683035796636 n!"Carmelo Anthony" (.node .leaf 1889315827229376807 n!"Draymond Green" .leaf))) 1896347760729768610 n!"Luka Dončić" (.node (.node (.node .leaf 1896517761749770304 n!"Luka Dončić" .leaf) 1903116919266446033 n!"Terance Mann" (.node .leaf 1906990156266688286 n!"Terence Davis" .leaf)) 1911117195368929112 n!"Tony Bradley" (.node (.node .leaf 1915061334199662710 n!"Denzel Valentine" .leaf) 1915877839113271788 n!"Reggie Bullock" (.node .leaf 1930453015460605832 n!"Semi Ojeleye" .leaf))))) 1933963439492665951 n!"Cameron Reynolds" (.node (.node (.node (.node (.node (.node .leaf 1934431089795786948 n!"Paul Watson" .leaf) 1936525254940881622 n!"Rodney Hood" .leaf) 1936583498106865348 n!"Cody Martin" (.node .leaf 1941159033840321834 n!"Cameron Johnson" .leaf)) 1944207384348081134 n!"Jakob Pöltl" (.node (.node .leaf 1962364751287038481 n!"Sheldon Mac" .leaf) 1962875716815976542 n!"Marcus Smart" (.node .leaf 1964322663326440282 n!"Chris Silva" .leaf))) 1970290927549347271 n!"Raul Neto" (.node (.node (.node .leaf 1973235356118444916 n!"Mohamed Bamba" .leaf) 1982132468589981411 n!"Dejounte Murray" (.node .leaf 1983609697039712006 n!"Brandon Knight" .leaf)) 1988728124128425279 n!"Brandon Goodwin" (.node (.node .leaf 1994311590513701152 n!"Kyle Kuzma" .leaf) 1995481822107266564 n!"Gary Payton" (.node .leaf 1996212339439399258 n!"Alen Smailagić" .leaf)))) 1996212339439399422 n!"Alen Smailagić" (.node (.node (.node (.node .leaf 1996818660043877237 n!"Jacob Evans" .leaf) 1998522805454134173 n!"Nikola Jokić" (.node .leaf 1998522805454134337 n!"Nikola Jokić" .leaf)) 1999234917184452706 n!"Bam Adebayo" (.node (.node .leaf 2000546314347649013 n!"Jalen Lecque" .leaf) 2008450550843830788 n!"Johnathan Williams" (.node .leaf 2017014558113929862 n!"Vince Carter" .leaf))) 2018032994393145722 n!"Danuel House" (.node (.node (.node .leaf 2021869506924765839 n!"Norvel Pelle" .leaf) 2026272793836789641 n!"Meyers Leonard" (.node .leaf 2036974026206840961 n!"Caleb Martin" .leaf)) 2039232177492845021 n!"Yogi Ferrell" (.node (.node .leaf 2048243581673013452 n!"D. J. Augustin" .leaf) 2048345249459031585 n!"De'Anthony Melton" (.node .leaf 2048904786247503281 n!"Duncan Robinson" .leaf)))))) 2051100599398912748 n!"Zion Williamson" (.node (.node (.node (.node (.node (.node (.node .leaf 2060534652941383864 n!"Skal Labissière" .leaf) 2060665653727385043 n!"Skal Labissière" .leaf) 2063121775568984399 n!"Wendell Carter" (.node .leaf 2064326957214467308 n!"Goga Bitadze" .leaf)) 2065459821188273626 n!"Anžejs Pasečņiks" (.node (.node .leaf 2066881876977433680 n!"Anthony Tolliver" .leaf) 2069085811124355277 n!"Furkan Korkmaz" (.node .leaf 2069285850340155038 n!"Justin James" .leaf))) 2072854839264350297 n!"Monté Morris" (.node (.node (.node .leaf 2077872792158282065 n!"Omari Spellman" .leaf) 2081101254757493440 n!"Gary Trent" (.node .leaf 2082002547741926167 n!"De'Andre Hunter" .leaf)) 2088593734086906947 n!"Daniel Theis" (.node (.node .leaf 2091845002501391467 n!"Louis King" .leaf) 2096681885710901341 n!"Donte DiVincenzo" (.node .leaf 2099974110456041935 n!"William Howard" .leaf)))) 2100459342932949634 n!"Jevon Carter" (.node (.node (.node (.node .leaf 2108404979477777746 n!"Nikola Vučević" .leaf) 2118981725506850950 n!"Dario Šarić" (.node .leaf 2134171019764499494 n!"Troy Daniels" .leaf)) 2149142383868657743 n!"Shake Milton" (.node (.node .leaf 2151671194008680021 n!"Pascal Siakam" .leaf) 2154451039833496097 n!"Evan Fournier" (.node .leaf 2162389467533504684 n!"Bradley Beal" .leaf))) 2164768353338415505 n!"Spencer Dinwiddie" (.node (.node (.node .leaf 2168988434915942253 n!"Isaac Bonga" .leaf) 2171707093402946102 n!"Victor Oladipo" (.node .leaf 2174600725347732718 n!"Jarrett Culver" .leaf)) 2176085223669337017 n!"Bobby Portis" (.node (.node .leaf 2176868112442575156 n!"JaKarr Sampson" .leaf) 2179354159945901928 n!"Gabe Vincent" (.node .leaf 2181963206409152995 n!"Naz Mitrou-Long" .leaf))))) 2189476042306071925 n!"Jahlil Okafor" (.node (.node (.node (.node (.node (.node .leaf 2190322127545794210 n!"Jusuf Nurkić" .leaf) 2190322127545794374 n!"Jusuf Nurkić" .leaf) 2190654747665154539 n!"Kelly Oubre" (.node .leaf 2192650764473110165 n!"T. J. Warren" .leaf)) 2203779613202718996 n!"Kristaps Porziņģis" (.node (.node .leaf 2203783592131997946 n!"Thabo Sefolosha" .leaf) 2210955772715693953 n!"Moritz Wagner" (.node .leaf 2216985310726830701 n!"Marko Gudurić" .leaf))) 2216985310726830865 n!"Marko Gudurić" (.node (.node (.node .leaf 2225640302797337496 n!"JaMychal Green" .leaf) 2235382828538190617 n!"Andre Iguodala" (.node .leaf 2235393805815456502 n!"Juan Hernangómez" .leaf)) 2238298757282456726 n!"John Henson" (.node (.node .leaf 2239467429656407068 n!"Rajon Rondo" .leaf) 2243408762878957565 n!"Vlatko Čančar" (.node .leaf 2246624863371741330 n!"Ray Spalding" .leaf)))) 2248228307587022825 n!"Ante Žižić" (.node (.node (.node (.node .leaf 2253138904075804538 n!"Bojan Bogdanović" .leaf) 2253138904075804702 n!"Bojan Bogdanović" (.node .leaf 2255293750158223884 n!"Julius Randle" .leaf)) 2255419082757049496 n!"Larry Nance" (.node (.node .leaf 2272778215738959993 n!"Matt Mooney" .leaf) 2272979876702610757 n!"Justin Jackson" (.node .leaf 2274714812490686112 n!"Dragan Bender" .leaf))) 2276629480759339559 n!"Malik Beasley" (.node (.node (.node .leaf 2277904974783301415 n!"Kris Dunn" .leaf) 2278198799264108728 n!"Nigel Williams-Goss" (.node .leaf 2279501108458757197 n!"Adam Mokoka" .leaf)) 2281526134431143697 n!"Kyle O'Quinn" (.node (.node .leaf 2286508877303277202 n!"Isaiah Hartenstein" .leaf) 2296873945962415271 n!"Rodney McGruder" (.node .leaf 2302454703477206674 n!"Damian Lillard" .leaf))))))

/-- The canonical of each normalized synonym, by its hash. -/
def nbaTree : Tree :=
  .node (.node nbaTree0 574192551395427833 n!"Emmanuel Mudiay" nbaTree1) 1195578871761866646 n!"D. J. Wilson" (.node nbaTree2 1798734329818358962 n!"Reggie Jackson" nbaTree3)

end Jargon
