import Verif.Proofs.Tree

/-! A search tree for the synonyms of filters/stackoverflow, found outside Lean and checked in Props/Tables. -/

namespace Jargon

set_option maxRecDepth 10000

/-- Part of `soTree`. -/
def soTree0 : Tree :=
  .node (.node (.node (.node (.node (.node (.node .leaf 1000102 n!"c" .leaf) 1000117 n!"r" (.node .leaf 1000056000259 n!"2d" .leaf)) 1000057000262 n!"3d" (.node (.node .leaf 1000103000405 n!"artificial-intelligence" .leaf) 1000105000341 n!"c#" (.node .leaf 1000105000411 n!"continuous-integration" .leaf))) 1000105000421 n!"computer-science" (.node (.node (.node .leaf 1000105000424 n!"computer-vision" .leaf) 1000106000360 n!"d3.js" (.node .leaf 1000106000407 n!"database" .leaf)) 1000106000414 n!"dependency-injection" (.node (.node .leaf 1000107000414 n!"entity-framework" .leaf) 1000108000350 n!"f#" (.node .leaf 1000109000417 n!"garbage-collection" .leaf)))) 1000109000429 n!"go" (.node (.node (.node (.node .leaf 1000109000440 n!"gzip" .leaf) 1000110000371 n!"h2" (.node .leaf 1000110000424 n!"mercurial" .leaf)) 1000111000425 n!"internet-explorer" (.node (.node .leaf 1000111000426 n!"if-statement" .leaf) 1000111000435 n!"io" (.node .leaf 1000111000436 n!"ip" .leaf))) 1000112000440 n!"jq" (.node (.node (.node .leaf 1000112000442 n!"javascript" .leaf) 1000114000438 n!"html-lists" (.node .leaf 1000117000450 n!"html-lists" .leaf)) 1000117000453 n!"oop" (.node (.node .leaf 1000117000457 n!"operating-system" .leaf) 1000118000466 n!"python" (.node .leaf 1000119000464 n!"qt" .leaf))))) 1000120000471 n!"system.reactive" (.node (.node (.node (.node (.node .leaf 1000121000405 n!"amazon-s3" .leaf) 1000121000458 n!"sh" (.node .leaf 1000121000465 n!"shared-libraries" .leaf)) 1000122000457 n!"html-table" (.node (.node .leaf 1000123000465 n!"user-interface" .leaf) 1000123000468 n!"html-lists" (.node .leaf 1000124000461 n!"vb.net" .leaf))) 1000124000462 n!"visual-c++" (.node (.node (.node .leaf 1000124000472 n!"virtual-machine" .leaf) 1000125000486 n!"wxwidgets" (.node .leaf 1000126000481 n!"windows-xp" .leaf)) 1000128000477 n!"zend-framework" (.node (.node .leaf 1232053031793670 n!"collections" .leaf) 1466752975240433 n!"handlebars.js" (.node .leaf 2695279397876134 n!"swift2" .leaf)))) 2695279397876135 n!"swift3" (.node (.node (.node (.node .leaf 2695279397876136 n!"swift4" .leaf) 2709279464876263 n!"switch-statement" (.node .leaf 3165679357220774 n!"compilation" .leaf)) 3317722491846750 n!"locking" (.node (.node .leaf 3638934561977605 n!"jquery-selectors" .leaf) 4681112719595628 n!"compression" (.node .leaf 4826594744815044 n!"pipe" .leaf))) 4832594790815129 n!"pivot" (.node (.node (.node .leaf 5180418325625575 n!"javamail" .leaf) 5655644464554251 n!"geojson" (.node .leaf 6948130313247631 n!"php" .leaf)) 7427202107012149 n!"bar-chart" (.node (.node .leaf 8248381802634359 n!"facebook-graph-api" .leaf) 10014916262809472 n!"jquery" .leaf))))) 10550599665657003 n!"resize" (.node (.node (.node (.node (.node (.node .leaf 10666997084422762 n!"nativescript" .leaf) 11000931288723518 n!"background" (.node .leaf 11265106295565331 n!"django-views" .leaf)) 11810710665260283 n!"neural-network" (.node (.node .leaf 13258537306300734 n!"rendering" .leaf) 13409023086054743 n!"wordpress" (.node .leaf 13417618751840023 n!"leaflet" .leaf))) 13497539320137246 n!"pattern-matching" (.node (.node (.node .leaf 15019097819312176 n!"processing" .leaf) 15252949739834001 n!"ipython" (.node .leaf 15329052127138517 n!"ffmpeg" .leaf)) 15934542050211977 n!"prestashop" (.node (.node .leaf 16502038181115069 n!"wrapper" .leaf) 17399875707242361 n!"amazon-elastic-beanstalk" (.node .leaf 18436756778329991 n!"c#-3.0" .leaf)))) 18436756779329994 n!"c#-4.0" (.node (.node (.node (.node .leaf 18498757206330770 n!"cakephp" .leaf) 18498757207330780 n!"call" (.node .leaf 18498757214330794 n!"case" .leaf)) 18498757214330809 n!"casting" (.node (.node .leaf 18502757231330816 n!"cell" .leaf) 18505757238330816 n!"char" (.node .leaf 18505757238330818 n!"chat" .leaf))) 18505757242330816 n!"chef" (.node (.node (.node .leaf 18509757271330864 n!"clojure" .leaf) 18509757271330885 n!"clojure" (.node .leaf 18512757295330931 n!"copy" .leaf)) 18512757297330931 n!"cors" (.node (.node .leaf 18515757309330927 n!"newline" .leaf) 18515757312330944 n!"cron" .leaf)))) 18515757318330952 n!"crud" (.node (.node (.node (.node (.node .leaf 18516757321330954 n!"csrf" .leaf) 18516757322330905 n!"css" (.node .leaf 18516757322330906 n!"css" .leaf)) 18517757324330966 n!"constructor" (.node (.node .leaf 18518757319330925 n!"cuda" .leaf) 18518757333330978 n!"curl" (.node .leaf 19379492584471670 n!"navigation-drawer" .leaf))) 21213477012896692 n!"accordion" (.node (.node (.node .leaf 21370047821604499 n!"laravel" .leaf) 23862571625111830 n!"stack-overflow" (.node .leaf 23993499555436755 n!"liferay" .leaf)) 25466425578063592 n!"polygon" (.node (.node .leaf 25605074681539682 n!"backbone.js" .leaf) 25619689417027451 n!"authentication" (.node .leaf 26153416476066182 n!"oracle-apex" .leaf)))) 26354292938889233 n!"immutability" (.node (.node (.node (.node .leaf 26846853649096109 n!"type-conversion" .leaf) 27668095571871331 n!"tableau" (.node .leaf 28304056673601632 n!"simulation" .leaf)) 30682940463413520 n!"jboss7.x" (.node (.node .leaf 32504669187517114 n!"performance" .leaf) 32769813936323398 n!"associations" (.node .leaf 32938130747701622 n!"vba" .leaf))) 32960407970977778 n!"xhtml" (.node (.node (.node .leaf 34037040173863953 n!"out-of-memory" .leaf) 34139167568668789 n!"session" (.node .leaf 34285634141496429 n!"csv" .leaf)) 34931688298143905 n!"handler" (.node (.node .leaf 34952422608927227 n!"sql-server-2005" .leaf) 34952422608927230 n!"sql-server-2008" .leaf)))))

/-- Part of `soTree`. -/
def soTree1 : Tree :=
  .node (.node (.node (.node (.node (.node (.node .leaf 34952422609927229 n!"sql-server-2014" .leaf) 34952422609927231 n!"sql-server-2016" (.node .leaf 35261445977829588 n!"overflow" .leaf)) 36454412767858473 n!"http-status-code-404" (.node (.node .leaf 36741723779393271 n!"package" .leaf) 37060276693748371 n!"sqlalchemy" (.node .leaf 37388695525523463 n!"firebase-security" .leaf))) 38270211776548225 n!"generics" (.node (.node (.node .leaf 38771108124141139 n!"paypal" .leaf) 39601616025222721 n!"jquery" (.node .leaf 40260007543652623 n!"stack-overflow" .leaf)) 41105651980152225 n!"android-alertdialog" (.node (.node .leaf 41700178452025834 n!"uitableview" .leaf) 42296494130413238 n!"asynchronous" (.node .leaf 43112376214093753 n!"hook" .leaf)))) 43119376250093797 n!"hover" (.node (.node (.node (.node .leaf 43182041654195365 n!"selenium-webdriver" .leaf) 43269283439314778 n!"dojo" (.node .leaf 43554155140033244 n!"jqgrid" .leaf)) 43973868042957759 n!"cross-compiling" (.node (.node .leaf 44686265873485014 n!"sparql" .leaf) 44686265875485013 n!"sparse-matrix" (.node .leaf 45207807576691451 n!"css" .leaf))) 45332508934002070 n!"nuxt.js" (.node (.node (.node .leaf 46937119124365366 n!"groovy" .leaf) 47797250779865123 n!"cross-browser" (.node .leaf 48618831793611406 n!"threadpool" .leaf)) 49654146131760772 n!"z-index" (.node (.node .leaf 50203523157885735 n!"css" .leaf) 51415562097950968 n!"xmlhttprequest" (.node .leaf 51942234134274596 n!"sorting" .leaf))))) 52847027679139487 n!"winapi" (.node (.node (.node (.node (.node .leaf 52865027724139403 n!"windows-10" .leaf) 52865027731139425 n!"windows-8.1" (.node .leaf 52865027795139680 n!"windows-xp" .leaf)) 53593658973471751 n!"web-scraping" (.node (.node .leaf 54077951773491677 n!"shared-libraries" .leaf) 54825086982216656 n!"testing" (.node .leaf 54850490623838312 n!"multithreading" .leaf))) 54854490653838366 n!"three.js" (.node (.node (.node .leaf 57110415336207205 n!"hex" .leaf) 57141956904559940 n!"distinct" (.node .leaf 57551268719369442 n!"compiler-construction" .leaf)) 58778791487675512 n!"eloquent" (.node (.node .leaf 59816399923134746 n!"postgresql" .leaf) 60182149514110920 n!"schema" (.node .leaf 61140292937661030 n!"parse-platform" .leaf)))) 62110732220871848 n!"reporting-services" (.node (.node (.node (.node .leaf 62431143350462575 n!"ienumerable" .leaf) 62987394639791907 n!"authorization" (.node .leaf 63557079638883642 n!"asset-pipeline" .leaf)) 64695832331247670 n!"uiimage" (.node (.node .leaf 65654656510180968 n!"uml" .leaf) 66384868357158720 n!"microsoft-metro" (.node .leaf 66719942176433453 n!"save" .leaf))) 67243377007334569 n!"tomcat" (.node (.node (.node .leaf 68062529251408126 n!"corona" .leaf) 68446073712637182 n!"eclipse-plugin" (.node .leaf 72217488786299114 n!"install" .leaf)) 72232106575895675 n!"encryption" (.node (.node .leaf 72925284591400855 n!"unicode" .leaf) 74158094503950374 n!"app-store-connect" .leaf))))) 75358710421532407 n!"classloader" (.node (.node (.node (.node (.node (.node .leaf 75362710441532419 n!"classloader" .leaf) 76300288736937894 n!"botframework" (.node .leaf 76568623141480013 n!"dotnetnuke" .leaf)) 78215492650190886 n!"manifest" (.node (.node .leaf 78487271690345182 n!"optimization" .leaf) 80569973368023050 n!"memory-management" (.node .leaf 80969296785877175 n!"dynamics-crm" .leaf))) 81694798864797832 n!"mean-stack" (.node (.node (.node .leaf 83503273996835713 n!"animation" .leaf) 83702893267546370 n!"arduino" (.node .leaf 83838738564692236 n!"raspberry-pi3" .leaf)) 83882386324776667 n!"visual-studio-2013" (.node (.node .leaf 86795544274662319 n!"doctrine-orm" .leaf) 87914469632137556 n!"ruby-on-rails-3" (.node .leaf 87914469632137557 n!"ruby-on-rails-4" .leaf)))) 87914469632137558 n!"ruby-on-rails-5" (.node (.node (.node (.node .leaf 90316754975090029 n!"signal-processing" .leaf) 90854801970095370 n!"connection" (.node .leaf 91373883768611525 n!"pointers" .leaf)) 92367868785258168 n!"parallel-processing" (.node (.node .leaf 92932469004577957 n!"stored-procedures" .leaf) 93221396738197894 n!"css" (.node .leaf 95790781334240674 n!"kotlin" .leaf))) 97966498911950206 n!"elasticsearch" (.node (.node (.node .leaf 98414614226043384 n!"android-activity" .leaf) 98579945785114677 n!"servlets" (.node .leaf 99415355443700080 n!"active-directory" .leaf)) 99602777362326131 n!"file-io" (.node (.node .leaf 100084328179217196 n!"uilabel" .leaf) 100898102979152981 n!"decorator" .leaf)))) 100985729466248665 n!"jakarta-ee" (.node (.node (.node (.node (.node .leaf 100985729474248689 n!"java-me" .leaf) 100985729480248707 n!"java" (.node .leaf 101032729747249085 n!"pug" .leaf)) 101032729761249141 n!"jar" (.node (.node .leaf 101032729765249135 n!"java" .leaf) 101032729767249142 n!"jaxb" (.node .leaf 101035729763249104 n!"jdbc" .leaf))) 101035729772249088 n!"java-8" (.node (.node (.node .leaf 101040729809249195 n!"jira" .leaf) 101046729836249235 n!"join" (.node .leaf 101047729834249160 n!"jpa-2.0" .leaf)) 101047729838249225 n!"jpeg" (.node (.node .leaf 101050729857249202 n!"jsf-2" .leaf) 101050729866249289 n!"json" (.node .leaf 101050729871249302 n!"jstl" .leaf)))) 102558255613089569 n!"coding-style" (.node (.node (.node (.node .leaf 103818671621072674 n!"ansible" .leaf) 104951103571503538 n!"visual-studio-2015" (.node .leaf 105978283316481180 n!"printf" .leaf)) 107456841102516864 n!"drop-down-menu" (.node (.node .leaf 107463841144516917 n!"selection" .leaf) 107469841183516985 n!"css-selectors" (.node .leaf 107474841196516967 n!"html-select" .leaf))) 107496665098251461 n!"hyperlink" (.node (.node (.node .leaf 110184162896702639 n!"media" .leaf) 110194162968702783 n!"menu" (.node .leaf 110198162978702763 n!"merge" .leaf)) 110200163001702824 n!"microsoft-metro" (.node (.node .leaf 110615163987137851 n!"replace" .leaf) 110955495383765372 n!"loops" .leaf)))))

/-- Part of `soTree`. -/
def soTree2 : Tree :=
  .node (.node (.node (.node (.node (.node (.node .leaf 112972015117543159 n!"continuous-integration" .leaf) 112999893495705128 n!"netbeans" (.node .leaf 113710933656262399 n!"dialog" .leaf)) 115049134939622389 n!"checkbox" (.node (.node .leaf 115371690857449868 n!"java" .leaf) 115372424742769917 n!"decimal" (.node .leaf 115559429817363397 n!"string" .leaf))) 116020833266492050 n!"jwt" (.node (.node (.node .leaf 116237701896524002 n!"windows-phone-7" .leaf) 116237701896524003 n!"windows-phone-8" (.node .leaf 118707315209752970 n!"jpa" .leaf)) 121056029460066284 n!"igraph" (.node (.node .leaf 122143755137467132 n!"firebase-security" .leaf) 122150049116375013 n!"sql-order-by" (.node .leaf 123016032431565407 n!"amazon-cloudformation" .leaf)))) 124095423382770551 n!"nhibernate" (.node (.node (.node (.node .leaf 124709991945846712 n!"azure-cosmosdb" .leaf) 126673975944493903 n!"selenium-chromedriver" (.node .leaf 127084118998858899 n!"servicestack" .leaf)) 127669665495198128 n!"django-rest-framework" (.node (.node .leaf 127952315158984124 n!"serialization" .leaf) 128025264023568988 n!"dockerfile" (.node .leaf 128567511746258539 n!"switch-statement" .leaf))) 128927762968503045 n!"validation" (.node (.node (.node .leaf 133590808591626992 n!"batch-file" .leaf) 133736927042306894 n!"configuration" (.node .leaf 133781475277739266 n!"if-statement" .leaf)) 135135004560204490 n!"javascript" (.node (.node .leaf 135696898085590256 n!"hex" .leaf) 136874159788689567 n!"boolean" (.node .leaf 138190248880012143 n!"nuget" .leaf))))) 138195248917012208 n!"null" (.node (.node (.node (.node (.node .leaf 138196248927012235 n!"numpy" .leaf) 138197248926012218 n!"nunit" (.node .leaf 138861132764589678 n!"json" .leaf)) 139193743967723617 n!"xml" (.node (.node .leaf 139382377962212699 n!"decode" .leaf) 141454815596710358 n!"css-selectors" (.node .leaf 141494392518339752 n!"web" .leaf))) 143506316801333443 n!"karma-runner" (.node (.node (.node .leaf 145497258140724859 n!"unity-container" .leaf) 147623258647415456 n!"outlook" (.node .leaf 147782421025133577 n!"azure-web-sites" .leaf)) 147962239285405873 n!"libgdx" (.node (.node .leaf 148053003582079984 n!"vlookup" .leaf) 148363180486825314 n!"discord.js" (.node .leaf 148925871345652832 n!"bash" .leaf)))) 149639399079037975 n!"seo" (.node (.node (.node (.node .leaf 150348891430261504 n!"java-8" .leaf) 150550467524596386 n!"android-contentprovider" (.node .leaf 150628767787437532 n!"jquery-validate" .leaf)) 150812631785419590 n!"mysql" (.node (.node .leaf 150884242747231050 n!"properties" .leaf) 152066865554594203 n!"virtualbox" (.node .leaf 152069865571594225 n!"virtualenv" .leaf))) 152782135135872770 n!"colors" (.node (.node (.node .leaf 153625199430275099 n!"angular-cli" .leaf) 153632199479275128 n!"angular" (.node .leaf 154331392756889805 n!"google-bigquery" .leaf)) 154363286068163843 n!"font-awesome" (.node (.node .leaf 155565232440811476 n!"rails-activerecord" .leaf) 156648135360100163 n!"button" .leaf))))) 157813229152604662 n!"django-models" (.node (.node (.node (.node (.node (.node .leaf 157871141130161743 n!"facebook-login" .leaf) 158796751712485572 n!"newline" (.node .leaf 159203135374954625 n!"jenkins-plugins" .leaf)) 159284676399236117 n!"qt-creator" (.node (.node .leaf 159433868334360345 n!"visual-studio-2005" .leaf) 159433868334360348 n!"visual-studio-2008" (.node .leaf 159433868335360343 n!"visual-studio-2010" .leaf))) 159433868335360345 n!"visual-studio-2012" (.node (.node (.node .leaf 159433868335360346 n!"visual-studio-2013" .leaf) 159433868335360348 n!"visual-studio-2015" (.node .leaf 159433868335360350 n!"visual-studio-2017" .leaf)) 159433868335360352 n!"visual-studio-2019" (.node (.node .leaf 160341189040117944 n!"google-calendar-api" .leaf) 161882810359141121 n!"dynamics-crm" (.node .leaf 162059594233979929 n!"containers" .leaf)))) 162307752440490670 n!"highcharts" (.node (.node (.node (.node .leaf 162922836966257215 n!"comments" .leaf) 163026835654376606 n!"nlp" (.node .leaf 165258220204705268 n!"ios4" .leaf)) 165321220634706049 n!"ios" (.node (.node .leaf 165847484210472958 n!"directory" .leaf) 165957634174045512 n!"random" (.node .leaf 166031144669578762 n!"powershell" .leaf))) 166323557945295009 n!"big-o" (.node (.node (.node .leaf 166636450346815097 n!"session-cookies" .leaf) 166734513604686768 n!"cross-domain" (.node .leaf 167202958713405560 n!"tkinter" .leaf)) 167234480409988421 n!"cross-compiling" (.node (.node .leaf 167630335199620859 n!"antlr" .leaf) 168110545169992146 n!"repository-pattern" .leaf)))) 168800419779991064 n!"where-clause" (.node (.node (.node (.node (.node .leaf 169980117621363563 n!"annotations" .leaf) 169988193617529517 n!"cross-platform" (.node .leaf 170372831008589807 n!"duplicates" .leaf)) 170393578431049051 n!"nsdictionary" (.node (.node .leaf 170521978577033603 n!"join" .leaf) 171999286438908380 n!"multithreading" (.node .leaf 173049045651527552 n!"sql-server-ce" .leaf))) 174428294726330871 n!"caching" (.node (.node (.node .leaf 174759931999556919 n!"php" .leaf) 174829424489389503 n!"parallel-processing" (.node .leaf 175030377885346065 n!"responsive" .leaf)) 177237277464850947 n!"hash" (.node (.node .leaf 177351918698305612 n!"pickle" .leaf) 177622067102107750 n!"inno-setup" (.node .leaf 180163235254620816 n!"gmail" .leaf)))) 180163235256620815 n!"gnu-make" (.node (.node (.node (.node .leaf 180163235261620844 n!"google-maps" .leaf) 180600781578351636 n!"css" (.node .leaf 180636845716418338 n!"slider" .leaf)) 181991826605247625 n!"internationalization" (.node (.node .leaf 183802435396905407 n!"random" .leaf) 184257188183508471 n!"mod-rewrite" (.node .leaf 185713057700700377 n!"google-app-engine" .leaf))) 186127644896981808 n!"where-clause" (.node (.node (.node .leaf 186131644914981826 n!"while-loop" .leaf) 186920971127477365 n!"binary-search-tree" (.node .leaf 187070685790900638 n!"vuetify.js" .leaf)) 187110528137126111 n!"selenium-webdriver" (.node (.node .leaf 188094192653246722 n!"visual-studio" .leaf) 188345615581651446 n!"security" .leaf)))))

/-- Part of `soTree`. -/
def soTree3 : Tree :=
  .node (.node (.node (.node (.node (.node (.node .leaf 189067694812494253 n!"hashmap" .leaf) 190946300634803466 n!"pycharm" (.node .leaf 191748887693646902 n!"annotations" .leaf)) 192723135479621054 n!"matlab" (.node (.node .leaf 192750535737911933 n!"windows-runtime" .leaf) 192759287437911133 n!"malloc" (.node .leaf 192876690558150291 n!"angular-ui-bootstrap" .leaf))) 194766550416895778 n!"uicollectionview" (.node (.node (.node .leaf 195455078218518417 n!"namespaces" .leaf) 196055319185581146 n!"validation" (.node .leaf 197401467760585457 n!"uitableview" .leaf)) 197835161745541381 n!"visual-c++" (.node (.node .leaf 198340500734488006 n!"attributes" .leaf) 199096106253312251 n!"puppet" (.node .leaf 199907644006947111 n!"payment-gateway" .leaf)))) 201287168753236614 n!"css-selectors" (.node (.node (.node (.node .leaf 201711021880421847 n!"google-play-services" .leaf) 201852895106816010 n!"jquery-selectors" (.node .leaf 202242526380550852 n!"exchangewebservices" .leaf)) 202402802956961889 n!"google-visualization" (.node (.node .leaf 202762959730491655 n!"hash" .leaf) 206691390550404859 n!"string" (.node .leaf 207356974241355627 n!"css-transitions" .leaf))) 207469006196290620 n!"safari" (.node (.node (.node .leaf 207538575456235042 n!"web-applications" .leaf) 207769195215663253 n!"travis-ci" (.node .leaf 207849555967150172 n!"iterator" .leaf)) 209292025652334261 n!"iphone" (.node (.node .leaf 211231452271293914 n!"uitextview" .leaf) 211507315513403567 n!"selenium-webdriver" (.node .leaf 211541431074749052 n!"extjs4" .leaf))))) 211871526239260417 n!"ionic-framework" (.node (.node (.node (.node (.node .leaf 211876526216260252 n!"ios4" .leaf) 211876526216260253 n!"ios4" (.node .leaf 211876526216260255 n!"ios4" .leaf)) 211876526217260255 n!"ios5" (.node (.node .leaf 212559267328590461 n!"marshalling" .leaf) 212663223053157481 n!"ibm-mq" (.node .leaf 212736755514122290 n!"oop" .leaf))) 213133627773605503 n!"gridview" (.node (.node (.node .leaf 213597777400640632 n!"racket" .leaf) 213821826384857809 n!"serialization" (.node .leaf 215069394049260147 n!"clipboard" .leaf)) 215413435212055010 n!"oracle" (.node (.node .leaf 215571731216590445 n!"java-8" .leaf) 215571731216590509 n!"java" (.node .leaf 215573731229590460 n!"jaxb" .leaf)))) 215573731245590573 n!"jax-rs" (.node (.node (.node (.node .leaf 215573731250590588 n!"jax-ws" .leaf) 217824446737254533 n!"prototype" (.node .leaf 220307473679819269 n!"css" .leaf)) 222998805818405712 n!"asset-pipeline" (.node (.node .leaf 223227277537622416 n!"entity-framework" .leaf) 223929923881717521 n!"mod-rewrite" (.node .leaf 224254012467894514 n!"design-patterns" .leaf))) 224515396342252009 n!"mercurial" (.node (.node (.node .leaf 225253125823340676 n!"gnu-make" .leaf) 225894639620418610 n!"eclipse" (.node .leaf 226372718358741433 n!"paypal" .leaf)) 226390718454741561 n!"paypal" (.node (.node .leaf 226610088091474786 n!"yii" .leaf) 226676951393955181 n!"linux-kernel" .leaf))))) 227080033701115590 n!"aurelia" (.node (.node (.node (.node (.node (.node .leaf 228020073827906678 n!"windows" .leaf) 230369379852683644 n!"list-comprehension" (.node .leaf 230955632930209585 n!"download" .leaf)) 232708437308590527 n!"firemonkey" (.node (.node .leaf 234924634836136249 n!"office365" .leaf) 235147131645440109 n!"asp.net-ajax" (.node .leaf 236535945910037655 n!"ecmascript-6" .leaf))) 237237925179175721 n!"user-defined-functions" (.node (.node (.node .leaf 238222091472866494 n!"aggregate-functions" .leaf) 239168297121930126 n!"schema" (.node .leaf 239168297121930130 n!"scheme" .leaf)) 239979400919870941 n!"asp.net" (.node (.node .leaf 241129660348568122 n!"const" .leaf) 241492170221488168 n!"case" (.node .leaf 241546737812909033 n!"protocols" .leaf)))) 242634142284179045 n!"openlayers" (.node (.node (.node (.node .leaf 243721307487914235 n!"tooltip" .leaf) 244288389651028944 n!"tensorflow" (.node .leaf 244301177068207298 n!"scope" .leaf)) 244545807376994264 n!"ant" (.node (.node .leaf 244547807398994298 n!"cxf" .leaf) 244560807461994371 n!"apache-pig" (.node .leaf 244560807467994391 n!"apache-poi" .leaf))) 244861861675695655 n!"web-scraping" (.node (.node (.node .leaf 244868114702446567 n!"cryptography" .leaf) 245124706708291034 n!"scanf" (.node .leaf 245959749040784123 n!"xquery" .leaf)) 246460466954902701 n!"data-binding" (.node (.node .leaf 246533062302869322 n!"timezone" .leaf) 246757622281890039 n!"amazon-elastic-beanstalk" .leaf)))) 247418334516079097 n!"nested-loops" (.node (.node (.node (.node (.node .leaf 247767576240029894 n!"cocos2d-iphone" .leaf) 248285463311228923 n!"connection" (.node .leaf 248554674797520397 n!"sqlite" .leaf)) 250148307648539039 n!"audio" (.node (.node .leaf 251102302608351692 n!"proguard" .leaf) 251729197335930325 n!"signals" (.node .leaf 253089300630617927 n!"permutation" .leaf))) 253178390216195247 n!"css-position" (.node (.node (.node .leaf 256116717311900070 n!"ggplot2" .leaf) 257676606885291191 n!"sybase" (.node .leaf 257852307090626926 n!"google-sheets" .leaf)) 258075801676295941 n!"arrays" (.node (.node .leaf 261325709681564573 n!"combinations" .leaf) 262475688014591180 n!"pytest" (.node .leaf 262478688028591189 n!"python" .leaf)))) 262599135499415894 n!".net-4.5" (.node (.node (.node (.node .leaf 262599135499415895 n!".net-4.5" .leaf) 262930945646378489 n!"admob" (.node .leaf 264632388711139998 n!"phpunit" .leaf)) 264731992428083196 n!"google-calendar-api" (.node (.node .leaf 264748014920685807 n!"autohotkey" .leaf) 266021927016571563 n!"html-select" (.node .leaf 266100674852085791 n!"xaml" .leaf))) 266112674927085912 n!"xmpp" (.node (.node (.node .leaf 266118674959085958 n!"xslt" .leaf) 266118674965085962 n!"csrf" (.node .leaf 266347574286066624 n!"plpgsql" .leaf)) 266810144750834217 n!"android-recyclerview" (.node (.node .leaf 267372759284707907 n!"classification" .leaf) 271197953359555483 n!"css" .leaf)))))

/-- Part of `soTree`. -/
def soTree4 : Tree :=
  .node (.node (.node (.node (.node (.node (.node .leaf 272361822425230235 n!"xampp" .leaf) 272361822428230244 n!"xampp" (.node .leaf 272510813823508407 n!"android-studio" .leaf)) 272944456783915561 n!"oracle-sqldeveloper" (.node (.node .leaf 274073345326451134 n!"inheritance" .leaf) 274370993720923684 n!"image" (.node .leaf 275251107995539341 n!"dynamics-crm" .leaf))) 275257108018539302 n!"internet-explorer-7" (.node (.node (.node .leaf 275257108018539303 n!"internet-explorer-8" .leaf) 275267108090539481 n!"sql-server" (.node .leaf 277990653574342966 n!"lambda" .leaf)) 278028952152011353 n!"windows-mobile" (.node (.node .leaf 278955312942869283 n!"neo4j" .leaf) 278960312971869272 n!".net-3.5" (.node .leaf 278960312972869270 n!".net-4.0" .leaf)))) 278960312972869275 n!".net-4.5" (.node (.node (.node (.node .leaf 278960313019869465 n!"compact-framework" .leaf) 278960313036869535 n!"netty" (.node .leaf 279862088115561040 n!"google-play" .leaf)) 280076410993169847 n!"matlab" (.node (.node .leaf 280889260441150303 n!"jmeter" .leaf) 282624698838641094 n!"uitableview" (.node .leaf 283508712168982501 n!"ruby-on-rails-3" .leaf))) 283508712168982503 n!"ruby-on-rails-5" (.node (.node (.node .leaf 284904597568940550 n!"android-webview" .leaf) 285541803528508614 n!"dojo" (.node .leaf 286126088433325948 n!"gstreamer" .leaf)) 286150704978906492 n!"azure-active-directory" (.node (.node .leaf 288666737782596419 n!"bundler" .leaf) 289345886514725758 n!"netty" (.node .leaf 290833387409067295 n!"product" .leaf))))) 291624702610185185 n!"bootstrap-modal" (.node (.node (.node (.node (.node .leaf 291898390962196778 n!"updatepanel" .leaf) 294250503516014152 n!"mkmapview" (.node .leaf 295216994862567489 n!"coding-style" .leaf)) 296034929943465782 n!"refresh" (.node (.node .leaf 296367149459935942 n!"sbt" .leaf) 296849236648580083 n!"aurelia" (.node .leaf 297289647241884152 n!"alamofire" .leaf))) 297615163689142575 n!"core-graphics" (.node (.node (.node .leaf 297844832416410062 n!"dns" .leaf) 298271939373389323 n!"design-patterns" (.node .leaf 298463538818240382 n!"performance" .leaf)) 301645369223048628 n!"windows-store-apps" (.node (.node .leaf 302101623243166643 n!"jquery-select2" .leaf) 302580424965645094 n!"if-statement" (.node .leaf 303751901759659524 n!"sonarqube" .leaf)))) 304100605727209085 n!"serialization" (.node (.node (.node (.node .leaf 304105687701683346 n!"wcf" .leaf) 305894223031468813 n!"youtube-data-api" (.node .leaf 307883747555521207 n!"selenium-webdriver" .leaf)) 307933164282012211 n!"cross-browser" (.node (.node .leaf 309318436167667136 n!"firebase-cloud-messaging" .leaf) 310078459156664663 n!"coding-style" (.node .leaf 310502501549092425 n!"constructor" .leaf))) 310653603916508956 n!"grep" (.node (.node (.node .leaf 310654603934508997 n!"postgresql" .leaf) 311044164959839045 n!"php" (.node .leaf 311044164964839060 n!"php" .leaf)) 311047164986839103 n!"php" (.node (.node .leaf 311050165002839120 n!"php" .leaf) 311056165039839184 n!"php" .leaf))))) 311066165093839249 n!"yii" (.node (.node (.node (.node (.node (.node .leaf 314439171306398870 n!".htaccess" .leaf) 314595853111552579 n!"jquery-animate" (.node .leaf 315907226176791064 n!"conditional-statements" .leaf)) 316614326444623312 n!"aws-api-gateway" (.node (.node .leaf 317045820774070176 n!"localization" .leaf) 317885643716150974 n!"reactjs" (.node .leaf 318631519403207305 n!"geojson" .leaf))) 319181041947429063 n!"jekyll" (.node (.node (.node .leaf 319283920291632129 n!"android-edittext" .leaf) 320016020414664404 n!"templates" (.node .leaf 320972832567815900 n!"css-position" .leaf)) 320979680917899854 n!"dialogflow" (.node (.node .leaf 322595818620110203 n!"sqlite" .leaf) 323390443191162461 n!"entity-framework-4" (.node .leaf 323390443191162462 n!"entity-framework-5" .leaf)))) 323390443191162463 n!"entity-framework-6" (.node (.node (.node (.node .leaf 323390443191162464 n!"entity-framework-core" .leaf) 324022069439546913 n!"facebook" (.node .leaf 324221792516627522 n!"magento" .leaf)) 324275766020024081 n!"accessibility" (.node (.node .leaf 324332766410024737 n!"ajax" .leaf) 324333766426024753 n!"akka" (.node .leaf 324338766454024810 n!"api" .leaf))) 324338766459024825 n!"apple-push-notifications" (.node (.node (.node .leaf 324338766461024815 n!"appcelerator" .leaf) 324341766479024863 n!"asp.net" (.node .leaf 324343766495024877 n!"authentication" .leaf)) 327280459040280060 n!"version" (.node (.node .leaf 327575962399191693 n!"rx-java2" .leaf) 329508533334439087 n!"web-config" .leaf)))) 329559502400902668 n!"airflow" (.node (.node (.node (.node (.node .leaf 330122049980718518 n!"wolfram-mathematica" .leaf) 330163373155735346 n!"wordpress" (.node .leaf 330777683368292408 n!"stripe-payments" .leaf)) 331101220538139383 n!"uitextfield" (.node (.node .leaf 331270516214643562 n!"google-places-api" .leaf) 333335552293792473 n!"charts" (.node .leaf 334805358311429622 n!"safari" .leaf))) 335651685018529395 n!"websocket" (.node (.node (.node .leaf 336339138432782650 n!"thread-safety" .leaf) 338598996847548644 n!"asp.net-core" (.node .leaf 341344775404049857 n!"search" .leaf)) 342580795854411976 n!"winforms" (.node (.node .leaf 342663632496211063 n!"scikit-learn" .leaf) 342966779641483102 n!"azure-web-sites" (.node .leaf 344243298210468455 n!"user-defined-functions" .leaf)))) 346019672649309776 n!"compiler-errors" (.node (.node (.node (.node .leaf 347268703142301645 n!"uiview" .leaf) 348487104785542524 n!"xhtml" (.node .leaf 348528323946785026 n!"weblogic" .leaf)) 349597751281182283 n!"dll" (.node (.node .leaf 349806679111887880 n!"html" .leaf) 350179263876346307 n!"arguments" (.node .leaf 353357659699187220 n!"html" .leaf))) 354077375803833666 n!"speech-recognition" (.node (.node (.node .leaf 354196156593990950 n!"html5-canvas" .leaf) 354902795015148630 n!"xhtml" (.node .leaf 355084459888262179 n!"httpresponse" .leaf)) 356460132271790482 n!"google-oauth" (.node (.node .leaf 358560836219653926 n!"cluster-computing" .leaf) 358732414639751437 n!"lotus-notes" .leaf)))))

/-- Part of `soTree`. -/
def soTree5 : Tree :=
  .node (.node (.node (.node (.node (.node (.node .leaf 362010125051961341 n!"bash" .leaf) 362229664463547747 n!"uitableview" (.node .leaf 363021782586412134 n!"string-formatting" .leaf)) 364819417859292573 n!"notepad++" (.node (.node .leaf 365178772041537187 n!"coding-style" .leaf) 365870236862075451 n!"tuples" (.node .leaf 366257880434163923 n!"css" .leaf))) 366651343480214750 n!"regex" (.node (.node (.node .leaf 367141003325644004 n!"if-statement" .leaf) 367217812423114113 n!"css" (.node .leaf 368077776104427014 n!"dplyr" .leaf)) 368328603035896175 n!"user-defined-functions" (.node (.node .leaf 368803531545586727 n!"timestamp" .leaf) 369532447750526776 n!"sql-update" (.node .leaf 369717207294714047 n!"realm" .leaf)))) 370346980773457916 n!"sympy" (.node (.node (.node (.node .leaf 370817271460547033 n!"retrofit" .leaf) 372836270031894956 n!"paperclip" (.node .leaf 373369115831722551 n!"oracle-sqldeveloper" .leaf)) 373921900156076188 n!"c++11" (.node (.node .leaf 373921900157076120 n!"c++11" .leaf) 373921900157076123 n!"c++14" (.node .leaf 373921900157076126 n!"c++17" .leaf))) 373921900157076192 n!"c++14" (.node (.node (.node .leaf 373921900157076193 n!"c++17" .leaf) 374829780910347579 n!"google-sheets" (.node .leaf 375693713506061133 n!"apache-spark-sql" .leaf)) 378023481077832337 n!"textbox" (.node (.node .leaf 378042481194832498 n!"textures" .leaf) 378246068074301176 n!"random" (.node .leaf 378434882894297057 n!"computer-vision" .leaf))))) 379296134696630110 n!"kendo-ui" (.node (.node (.node (.node (.node .leaf 379547232519256237 n!"calendar" .leaf) 379547232523256249 n!"calendar" (.node .leaf 380016440872742959 n!"gradient" .leaf)) 380391805038328509 n!".net" (.node (.node .leaf 380626676247427098 n!"join" .leaf) 384315881163757067 n!"apache-kafka" (.node .leaf 384327881237757181 n!"karma-runner" .leaf))) 385021459693067515 n!"angular-material" (.node (.node (.node .leaf 385243640588446429 n!"scrollbar" .leaf) 385250640643446520 n!"scroll" (.node .leaf 385485704313893716 n!"architecture" .leaf)) 386820593029480448 n!"javascript" (.node (.node .leaf 388618071871648390 n!"stanford-nlp" .leaf) 388785056427457510 n!"google-sheets" (.node .leaf 390813860903899562 n!"vim" .leaf)))) 391481258366480430 n!"refactoring" (.node (.node (.node (.node .leaf 393107152950153774 n!"base64" .leaf) 393110153028154028 n!"bash" (.node .leaf 394439656469456183 n!"stanford-nlp" .leaf)) 395237468855676050 n!"azure-pipelines" (.node (.node .leaf 395485933070748271 n!"ms-word" .leaf) 397030296154839373 n!"classpath" (.node .leaf 397780524087552137 n!"botframework" .leaf))) 399165894326183315 n!"css" (.node (.node (.node .leaf 399762066933066359 n!"frame" .leaf) 401045519920562063 n!"gruntjs" (.node .leaf 401480538507210311 n!"probability" .leaf)) 401709014452347337 n!"jersey" (.node (.node .leaf 402172841147621912 n!"command-line-arguments" .leaf) 402744955335511395 n!"asp.net-mvc" .leaf))))) 406857738915943016 n!"haml" (.node (.node (.node (.node (.node (.node .leaf 406857738921943030 n!"hash" .leaf) 406860738926943029 n!"hdfs" (.node .leaf 406861738927943020 n!"heap" .leaf)) 406865738954943054 n!"hide" (.node (.node .leaf 406865738972943108 n!"hive" .leaf) 406871739001943147 n!"hook" (.node .leaf 406874739009943139 n!"href" .leaf))) 406876739029943187 n!"html" (.node (.node (.node .leaf 406876739036943212 n!"http" .leaf) 407209193863755194 n!"ef-code-first" (.node .leaf 407975534589107836 n!"unique" .leaf)) 409781576031059017 n!"aurelia" (.node (.node .leaf 409863629052730868 n!"jquery" .leaf) 410642775810645307 n!"hook" (.node .leaf 410784872440345575 n!"google-cloud-platform" .leaf)))) 411376933833576566 n!"expression" (.node (.node (.node (.node .leaf 414938312893069454 n!"file-upload" .leaf) 416053324071686754 n!"macos" (.node .leaf 416056324085686764 n!"macros" .leaf)) 416192190659077608 n!"jquery-ui-sortable" (.node (.node .leaf 418131524673142572 n!"navigation-drawer" .leaf) 418335343398884440 n!"css-grid" (.node .leaf 418893283087004215 n!"streaming" .leaf))) 418913457714705777 n!"build" (.node (.node (.node .leaf 420703758669533475 n!"memory-management" .leaf) 422221530518669276 n!"html-select" (.node .leaf 422271567455524425 n!"erlang" .leaf)) 422663695201156958 n!"memory-leaks" (.node (.node .leaf 422778922861484628 n!"expandablelistview" .leaf) 423200458548603040 n!"x86" .leaf)))) 423208212739283209 n!"angular" (.node (.node (.node (.node (.node .leaf 424547575744890385 n!"visual-c++" .leaf) 424648333490841865 n!"reference" (.node .leaf 425101791828503481 n!"css" .leaf)) 425183165397756117 n!"matplotlib" (.node (.node .leaf 425672226550933225 n!"rubygems" .leaf) 425899904110471299 n!"branch" (.node .leaf 428963435324405972 n!"pthreads" .leaf))) 429442266583179960 n!"return" (.node (.node (.node .leaf 429867352710692381 n!"django-models" .leaf) 430521764028817560 n!"angular-ui-router" (.node .leaf 431469357910705909 n!"html" .leaf)) 431476357956706031 n!"apache" (.node (.node .leaf 431476357956706046 n!"https" .leaf) 431904136806645436 n!"jquery" (.node .leaf 433284174407889549 n!"broadcastreceiver" .leaf)))) 434621430726425756 n!"angular2-routing" (.node (.node (.node (.node .leaf 434734116713282744 n!"frameworks" .leaf) 436183885491996361 n!"methods" (.node .leaf 436696017466930075 n!"datagridview" .leaf)) 437362344119793671 n!"bitmap" (.node (.node .leaf 438488990727758366 n!"cloud" .leaf) 440046097876772813 n!"gitlab-ci" (.node .leaf 440301708449807321 n!"singleton" .leaf))) 440507013754687103 n!"doctrine" (.node (.node (.node .leaf 441045808595206541 n!"google-api" .leaf) 441509336377862763 n!"embedded" (.node .leaf 441903033141827581 n!"facebook-like" .leaf)) 441929615159437688 n!"escaping" (.node (.node .leaf 441988629969196285 n!"class" .leaf) 443201230602927885 n!"hive" .leaf)))))

/-- Part of `soTree`. -/
def soTree6 : Tree :=
  .node (.node (.node (.node (.node (.node (.node .leaf 447448486639493932 n!"multidimensional-array" .leaf) 447863021372099055 n!"replication" (.node .leaf 448797368308194566 n!"branch" .leaf)) 450249188010277312 n!"wildfly" (.node (.node .leaf 450878728839234015 n!"service-worker" .leaf) 451643085306224680 n!"apache-flex" (.node .leaf 452173638213736433 n!"slice" .leaf))) 452174638219736441 n!"slider" (.node (.node (.node .leaf 452332385767842438 n!"artificial-intelligence" .leaf) 452564044353345467 n!"settings" (.node .leaf 454287780223499051 n!"neo4j" .leaf)) 454305863218267831 n!"binary" (.node (.node .leaf 455133493046989958 n!"webview" .leaf) 455999882754554928 n!"ms-access" (.node .leaf 456561690917802372 n!"debugging" .leaf)))) 456565158199706164 n!"tree" (.node (.node (.node (.node .leaf 456590672300688564 n!"linker" .leaf) 457328226107042533 n!"ms-word" (.node .leaf 457446164783096546 n!"web-applications" .leaf)) 458624594190517989 n!"parallel-processing" (.node (.node .leaf 458755204768827417 n!"background-image" .leaf) 458955978849713515 n!"export-to-csv" (.node .leaf 460200291146913544 n!"nsdate" .leaf))) 460260747947501001 n!"java-stream" (.node (.node (.node .leaf 461234482250199509 n!"aurelia" .leaf) 461711197075922412 n!"javascript" (.node .leaf 461713180557768521 n!"fullcalendar" .leaf)) 462836077461389715 n!"graphics" (.node (.node .leaf 462836077469389748 n!"graphql" .leaf) 463297448367339765 n!"version-control" (.node .leaf 463996224230150252 n!"web-crawler" .leaf))))) 464334911950340657 n!"single-sign-on" (.node (.node (.node (.node (.node .leaf 464834873826437512 n!"windows" .leaf) 465430487754212254 n!"ios4" (.node .leaf 465430487755212257 n!"ios5" .leaf)) 465430487756212260 n!"ios6" (.node (.node .leaf 466950323920410907 n!"performance" .leaf) 467583426712322148 n!"object" (.node .leaf 468441126041585496 n!"richfaces" .leaf))) 469670774656021139 n!"ssms" (.node (.node (.node .leaf 469860790851886483 n!"conditional-statements" .leaf) 470087119272426019 n!"stanford-nlp" (.node .leaf 470772178031631756 n!"sql-server" .leaf)) 470813929168607233 n!"shared-libraries" (.node (.node .leaf 470969261299921043 n!"mod-wsgi" .leaf) 471260124958150892 n!"fluent-nhibernate" (.node .leaf 471786662141828792 n!"ubuntu" .leaf)))) 472691754165046024 n!"com" (.node (.node (.node (.node .leaf 473195095310134970 n!"magento-1.7" .leaf) 473195095310134972 n!"magento-1.9" (.node .leaf 473440344275314641 n!"alert" .leaf)) 473444344282314625 n!"alias" (.node (.node .leaf 473444344288314638 n!"alignment" .leaf) 473630052702479945 n!"google-drive-api" (.node .leaf 473648052798480073 n!"google-drive-api" .leaf))) 473795631154442307 n!"php" (.node (.node (.node .leaf 475710548951345547 n!"pug" .leaf) 477416243425058032 n!"android" (.node .leaf 477768045932355869 n!"silverlight" .leaf)) 477818964653236013 n!"rstudio" (.node (.node .leaf 478937046272595779 n!"precision" .leaf) 479810315036005813 n!"pipe" .leaf))))) 480023372008786708 n!"capistrano" (.node (.node (.node (.node (.node (.node .leaf 481061237320672809 n!"google-play" .leaf) 481061237340672863 n!"google-plus" (.node .leaf 481232930420803920 n!"closures" .leaf)) 481298257346431525 n!"flash" (.node (.node .leaf 481738934237924664 n!"mkmapview" .leaf) 481953478976916892 n!"winforms" (.node .leaf 483347217954772175 n!"integer" .leaf))) 483651679159844671 n!"permutation" (.node (.node (.node .leaf 484793793463959666 n!"sms" .leaf) 486221357715819570 n!"r" (.node .leaf 486554319440526239 n!"type-conversion" .leaf)) 486788075630718855 n!"entity-framework-core" (.node (.node .leaf 487423143000234104 n!"binding" .leaf) 487750323753532348 n!"escaping" (.node .leaf 488708856367651755 n!"actionscript-3" .leaf)))) 489392711466861343 n!"objective-c" (.node (.node (.node (.node .leaf 489394711470861337 n!"odbc" .leaf) 489394711483861388 n!"odoo" (.node .leaf 489405711550861494 n!"oop" .leaf)) 489409711565861493 n!"osgi" (.node (.node .leaf 489413711591861540 n!"owin" .leaf) 489738712428303220 n!"arrays" (.node .leaf 491350201763247496 n!"sparse-matrix" .leaf))) 493472073779940609 n!"applet" (.node (.node (.node .leaf 494167624708345274 n!"search" .leaf) 495426766770463137 n!"wolfram-mathematica" (.node .leaf 495426766770463155 n!"math" .leaf)) 495502414241181456 n!"asp-classic" (.node (.node .leaf 497068315749151343 n!"foreign-keys" .leaf) 497786395313230065 n!"ibm-mobilefirst" .leaf)))) 497841655109251025 n!"dialog" (.node (.node (.node (.node (.node .leaf 498314273443216390 n!"drools" .leaf) 498789721244836107 n!"closures" (.node .leaf 498872732079712972 n!"extract" .leaf)) 500556087007265409 n!"google-analytics" (.node (.node .leaf 500859840485953106 n!"filtering" .leaf) 501028300453611823 n!"winapi" (.node .leaf 501031300470611861 n!"window" .leaf))) 503793215827615983 n!"uiimageview" (.node (.node (.node .leaf 504515167379502149 n!"windows-phone-7" .leaf) 504515167380502148 n!"windows-phone-8.1" (.node .leaf 504637171756365303 n!"android-linearlayout" .leaf)) 506033914226775216 n!"ipc" (.node (.node .leaf 506050684384940786 n!"bash" .leaf) 506151400204360079 n!"overriding" (.node .leaf 506744389766212657 n!"fabricjs" .leaf)))) 506791559433846285 n!"assets" (.node (.node (.node (.node .leaf 506912194656419842 n!"components" .leaf) 508133001024982539 n!"ssms" (.node .leaf 509664683672115285 n!"realm" .leaf)) 509998014594694722 n!"phpmailer" (.node (.node .leaf 510093144414277123 n!"static-libraries" .leaf) 510262032197063820 n!"datepicker" (.node .leaf 510813151441431540 n!"apache-kafka" .leaf))) 510893284893806197 n!"math" (.node (.node (.node .leaf 511006666403109658 n!"system.reactive" .leaf) 511592129486916692 n!"json" (.node .leaf 511732370062136479 n!"design-patterns" .leaf)) 514360941783439751 n!"quartz-scheduler" (.node (.node .leaf 516233258098532618 n!"php" .leaf) 517683535318954193 n!"image" .leaf)))))

/-- Part of `soTree`. -/
def soTree7 : Tree :=
  .node (.node (.node (.node (.node (.node (.node .leaf 519192301804486268 n!"parallel-processing" .leaf) 520480624467423252 n!"asp.net" (.node .leaf 520619909867098910 n!"multithreading" .leaf)) 520670820210696515 n!"left-join" (.node (.node .leaf 522648672776732173 n!"es6-promise" .leaf) 523030279969336387 n!"integration-testing" (.node .leaf 523477992386030188 n!"linux-device-driver" .leaf))) 524706922324688962 n!"microsoft-graph" (.node (.node (.node .leaf 525180750838459995 n!"core-animation" .leaf) 525947592739980032 n!"query-optimization" (.node .leaf 526697010176964312 n!"stack-overflow" .leaf)) 528521388823660895 n!"mvvmcross" (.node (.node .leaf 528995661068855525 n!"push-notification" .leaf) 529302968929039850 n!"apache-zookeeper" (.node .leaf 529995672061219712 n!"google-visualization" .leaf)))) 530239435511954360 n!"oledb" (.node (.node (.node (.node .leaf 530587894703410641 n!"gorm" .leaf) 530776948527345034 n!"uinavigationcontroller" (.node .leaf 533250466672172852 n!"anaconda" .leaf)) 533870217113011302 n!"backup" (.node (.node .leaf 534149402326638648 n!"directory" .leaf) 535330370835987843 n!"netsuite" (.node .leaf 537354027238188042 n!"file-upload" .leaf))) 537905527311527155 n!"raspberry-pi" (.node (.node (.node .leaf 539110130813624599 n!"types" .leaf) 539110130823624565 n!"typo3" (.node .leaf 540127949625438105 n!"system" .leaf)) 540737561961911618 n!"request" (.node (.node .leaf 541628431056803510 n!"transition" .leaf) 542702103158135367 n!"multithreading" (.node .leaf 543279120729697453 n!"octave" .leaf))))) 544375619013365299 n!"microservices" (.node (.node (.node (.node (.node .leaf 544467405771108419 n!"include" .leaf) 544754120768063474 n!"guava" (.node .leaf 546903900754245291 n!"uigesturerecognizer" .leaf)) 548094182587500938 n!"font-face" (.node (.node .leaf 548592109688221134 n!"return-value" .leaf) 548627815694605486 n!"ads" (.node .leaf 549434697954971525 n!".net-assembly" .leaf))) 550333763635785192 n!"android-mediaplayer" (.node (.node (.node .leaf 550758436143289965 n!"css" .leaf) 551037812807375847 n!"data.table" (.node .leaf 551264280322465661 n!"computer-vision" .leaf)) 551555809651744385 n!"batch-processing" (.node (.node .leaf 551682802542351921 n!"delay" .leaf) 551769912562673861 n!"python-requests" (.node .leaf 552462560216570328 n!"powershell-2.0" .leaf)))) 553072031166923719 n!"label" (.node (.node (.node (.node .leaf 553090031274923893 n!"latex" .leaf) 553304144468428567 n!"rx-java" (.node .leaf 554385683982214324 n!"join" .leaf)) 554393004394293661 n!"windows" (.node (.node .leaf 555273812461681466 n!"block" .leaf) 555972316802232921 n!"ascii" (.node .leaf 555988316894233064 n!"assets" .leaf))) 555994316939233128 n!"asynchronous" (.node (.node (.node .leaf 556087418500929782 n!"web-applications" .leaf) 557824778194160618 n!"animation" (.node .leaf 558429003133003792 n!"templates" .leaf)) 559556282344510006 n!"duplicates" (.node (.node .leaf 559662521732562951 n!"javabeans" .leaf) 559899585242290869 n!"avplayer" .leaf))))) 559900283719917349 n!"performance" (.node (.node (.node (.node (.node (.node .leaf 560071779637575452 n!"word-vba" .leaf) 560626919706850352 n!"android-support-library" (.node .leaf 562435430096723769 n!"orchardcms" .leaf)) 565028727988684024 n!"oauth-2.0" (.node (.node .leaf 566299124154737157 n!"nested" .leaf) 567563793850969678 n!"asp.net-web-api" (.node .leaf 568436904570566160 n!"immutability" .leaf))) 568522216969233066 n!"graph" (.node (.node (.node .leaf 568542217087233252 n!"gruntjs" .leaf) 568921166923611793 n!"mysql" (.node .leaf 569699089842304946 n!"charts" .leaf)) 569709089898305036 n!"chart.js" (.node (.node .leaf 570186330552037023 n!"redhat" .leaf) 570451164385513874 n!"jframe" (.node .leaf 570598338802185773 n!"android-gradle-plugin" .leaf)))) 570650197151809905 n!"printing" (.node (.node (.node (.node .leaf 570958658698413317 n!"vba" .leaf) 571925684016779710 n!"variables" (.node .leaf 571927683957779443 n!"visual-c++" .leaf)) 571932684044779724 n!"vhdl" (.node (.node .leaf 571933684051779747 n!"view" .leaf) 571933684059779760 n!"vim" (.node .leaf 571943684059779611 n!"visual-studio-2012" .leaf))) 571943684126779874 n!"vsto" (.node (.node (.node .leaf 571943684126779878 n!"azure-devops" .leaf) 571945684123779786 n!"vuejs2" (.node .leaf 571945684123779856 n!"vuex" .leaf)) 574430554592471350 n!"numbers" (.node (.node .leaf 574603002432296738 n!"lambda" .leaf) 575801624028696014 n!"mysql" .leaf)))) 575909597940155110 n!"typeerror" (.node (.node (.node (.node (.node .leaf 576044694072425329 n!"android-actionbar" .leaf) 576575226490973731 n!"c#" (.node .leaf 577032887907445092 n!"matlab-figure" .leaf)) 577090700544921478 n!"ibm-cloud" (.node (.node .leaf 577898885485405598 n!"embedded-linux" .leaf) 577960818778888440 n!"android-room" (.node .leaf 579745377598171413 n!"python" .leaf))) 581571034599972223 n!"youtube" (.node (.node (.node .leaf 582648887981313045 n!"youtube-api" .leaf) 583191097271809978 n!"promise" (.node .leaf 583793465145347455 n!"magento" .leaf)) 586441384019893906 n!"struct" (.node (.node .leaf 586458384120893991 n!"struts2" .leaf) 586567628804372251 n!"unix" (.node .leaf 586645786989344923 n!"network-programming" .leaf)))) 587395261294647655 n!"google-maps-api-3" (.node (.node (.node (.node .leaf 588699629423296908 n!"serialization" .leaf) 588825662875017778 n!"full-text-search" (.node .leaf 590156177154278400 n!"e-commerce" .leaf)) 590581566524847613 n!"uitableview" (.node (.node .leaf 590965998548300095 n!"random" .leaf) 591039717536691205 n!"eslint" (.node .leaf 592296878072053310 n!"overloading" .leaf))) 592407926256697465 n!"amazon-cloudformation" (.node (.node (.node .leaf 592540619270248375 n!"twitter-bootstrap-3" .leaf) 593015243949489678 n!"reactjs" (.node .leaf 593071094148309634 n!"swt" .leaf)) 593626017315233361 n!"apache-spark" (.node (.node .leaf 593630017326233351 n!"performance" .leaf) 593637017372233442 n!"split" .leaf)))))

/-- Part of `soTree`. -/
def soTree8 : Tree :=
  .node (.node (.node (.node (.node (.node (.node .leaf 594217703775726954 n!"winforms" .leaf) 595264448500520385 n!"replace" (.node .leaf 595525310176500919 n!"internet-explorer-7" .leaf)) 595525310176500920 n!"internet-explorer-8" (.node (.node .leaf 595525310176500921 n!"internet-explorer-9" .leaf) 595896557159847266 n!"webforms" (.node .leaf 597145118115529428 n!"linear-algebra" .leaf))) 597465848477746848 n!"escaping" (.node (.node (.node .leaf 597551408305295504 n!"flexbox" .leaf) 599848170013450239 n!"batch-file" (.node .leaf 600221507907872631 n!"itext" .leaf)) 600676933270635737 n!"scheduled-tasks" (.node (.node .leaf 600709639016977615 n!"bar-chart" .leaf) 601644844470157999 n!"localization" (.node .leaf 602069656698053079 n!"c++-cli" .leaf)))) 602303230491214270 n!"passwords" (.node (.node (.node (.node .leaf 604261548299831803 n!"visual-studio" .leaf) 605850786276120878 n!"javascript" (.node .leaf 606042100971044707 n!"msbuild" .leaf)) 607825129226248829 n!"css" (.node (.node .leaf 609698650811336855 n!"gnu-make" .leaf) 611974517689669750 n!"header" (.node .leaf 612085040780572123 n!"logstash" .leaf))) 612442102048091694 n!"components" (.node (.node (.node .leaf 613239742568568353 n!"css" .leaf) 614003017568773002 n!"batch-file" (.node .leaf 614374315664393023 n!"dojo" .leaf)) 614803394086733113 n!"amazon-cognito" (.node (.node .leaf 615266192421566772 n!"uicollectionviewcell" .leaf) 615405818548788362 n!"javascript" (.node .leaf 615416475334957008 n!"security" .leaf))))) 615434067550856467 n!"clickonce" (.node (.node (.node (.node (.node .leaf 615722567269024997 n!"underscore.js" .leaf) 616438323519860635 n!"servlets" (.node .leaf 616478613083202815 n!"perl" .leaf)) 618233041263900936 n!"httprequest" (.node (.node .leaf 618483787858914157 n!"highcharts" .leaf) 618859193565936475 n!"linker" (.node .leaf 619460052173116974 n!"multidimensional-array" .leaf))) 620856564384490513 n!"twilio" (.node (.node (.node .leaf 621254016015313918 n!"viewmodel" .leaf) 621577224288077079 n!"triggers" (.node .leaf 621684879026215984 n!"types" .leaf)) 622606925406286835 n!"timezone" (.node (.node .leaf 622920456349156183 n!"canvas" .leaf) 623057103567841952 n!"field" (.node .leaf 623064103602842009 n!"file" .leaf)))) 624003359413915076 n!"audio" (.node (.node (.node (.node .leaf 624226968607614571 n!"google-visualization" .leaf) 624313948720287649 n!"angularjs-directive" (.node .leaf 624870704883661852 n!"datasource" .leaf)) 625929798286838569 n!"error-handling" (.node (.node .leaf 626497228221118853 n!"open-source" .leaf) 626622963266217976 n!"executable" (.node .leaf 627013604947599966 n!"slideshow" .leaf))) 627347294204733155 n!"command" (.node (.node (.node .leaf 627351294228733207 n!"comments" .leaf) 627473284409887656 n!"android-camera" (.node .leaf 630580521319864532 n!"categories" .leaf)) 631128908500309227 n!"hadoop" (.node (.node .leaf 631270836119800669 n!"arrays" .leaf) 631474363913723107 n!"google-play-services" .leaf))))) 631999612395237208 n!"outlook-addin" (.node (.node (.node (.node (.node (.node .leaf 632471977725854652 n!"exchange-server" .leaf) 632793971757187431 n!"datatables" (.node .leaf 633807912398810211 n!"angular-ui-router" .leaf)) 633835672735171423 n!"jenkins" (.node (.node .leaf 634761518200044986 n!"resources" .leaf) 636307754600138004 n!"event-handling" (.node .leaf 636311754620138016 n!"event-handling" .leaf))) 638524289467151442 n!"azure" (.node (.node (.node .leaf 638816246194505937 n!"dialog" .leaf) 639529521104703259 n!"html" (.node .leaf 640143578557662363 n!"css" .leaf)) 640761476315838680 n!"fancybox" (.node (.node .leaf 641880204896511242 n!"geolocation" .leaf) 642210494352481377 n!"blob" (.node .leaf 642210494353481372 n!"block" .leaf)))) 644179480461289098 n!"azure-storage-blobs" (.node (.node (.node (.node .leaf 644468698983512243 n!"queue" .leaf) 645304428724854951 n!"scikit-learn" (.node .leaf 646863627662280584 n!"blockchain" .leaf)) 647175272746702787 n!"compact-framework" (.node (.node .leaf 647556889864514322 n!"orchardcms" .leaf) 647576616931658706 n!"custom-controls" (.node .leaf 648161339958852298 n!"pass-by-reference" .leaf))) 648226929377245902 n!"android-animation" (.node (.node (.node .leaf 649496923514843770 n!"connection-string" .leaf) 650102851406123166 n!"jqgrid" (.node .leaf 650292081692729027 n!"selenium" .leaf)) 652846426984051345 n!"warnings" (.node (.node .leaf 652859957952014296 n!"constants" .leaf) 653961690959231159 n!"textures" .leaf)))) 655201173450421039 n!"jquery" (.node (.node (.node (.node (.node .leaf 655394971752548355 n!"split" .leaf) 656805935638930447 n!"grails" (.node .leaf 656877951910826588 n!"cryptography" .leaf)) 658761932075597103 n!"escaping" (.node (.node .leaf 659005921774123642 n!"google-calendar-api" .leaf) 661059262741791147 n!"vectorization" (.node .leaf 661187720921083874 n!"google-chrome-extension" .leaf))) 661336942394221384 n!"stored-procedures" (.node (.node (.node .leaf 661681055345540966 n!"event-handling" .leaf) 663882849527456324 n!"powerpoint" (.node .leaf 663943268461119307 n!"parameter-passing" .leaf)) 665167985372664213 n!"linq-to-sql" (.node (.node .leaf 665250209258076851 n!"sql" .leaf) 665742836469408499 n!"testng" (.node .leaf 666863254871809438 n!"visualization" .leaf)))) 667411997496571309 n!"ads" (.node (.node (.node (.node .leaf 667428819690341045 n!"numbers" .leaf) 667442358194769944 n!"outlook-vba" (.node .leaf 668033533789609822 n!"mod-rewrite" .leaf)) 668041533854609941 n!"url-rewriting" (.node (.node .leaf 669003168765987709 n!"escaping" .leaf) 670720645080844617 n!"dictionary" (.node .leaf 671226947370960242 n!"gnu-make" .leaf))) 671613485388372949 n!"counter" (.node (.node (.node .leaf 671692246012769336 n!"performance" .leaf) 671793368911512246 n!"encryption" (.node .leaf 671859693824594708 n!"random" .leaf)) 671862693832594711 n!"range" (.node (.node .leaf 671934667594001136 n!"namespaces" .leaf) 672382376240514819 n!"performance" .leaf)))))

/-- Part of `soTree`. -/
def soTree9 : Tree :=
  .node (.node (.node (.node (.node (.node (.node .leaf 673154870568912885 n!"localhost" .leaf) 673197183638163219 n!"shell" (.node .leaf 673601572462697598 n!"crystal-reports" .leaf)) 674191491860988346 n!"binary-search-tree" (.node (.node .leaf 674918307238827353 n!"content-management-system" .leaf) 675490631406862041 n!"indexing" (.node .leaf 676167989899151742 n!"swift" .leaf))) 676167989907151753 n!"swing" (.node (.node (.node .leaf 676902127275484671 n!"mapping" .leaf) 677593734152518041 n!"google-apps-script" (.node .leaf 679660062629509762 n!"progressive-web-apps" .leaf)) 679703547511795830 n!"config" (.node (.node .leaf 679864194859481796 n!"timer" .leaf) 680213014840587964 n!"serialization" (.node .leaf 680216421770137463 n!"performance" .leaf)))) 680438503440496091 n!"json" (.node (.node (.node (.node .leaf 680982810200574812 n!"user-defined-functions" .leaf) 681265238957178057 n!"passport.js" (.node .leaf 681597183375729850 n!"codeigniter" .leaf)) 681935211833484776 n!"batch-file" (.node (.node .leaf 682160253857382072 n!"httpclient" .leaf) 682458796769443058 n!"actionscript" (.node .leaf 683003132954369499 n!"custom-controls" .leaf))) 684580231852657253 n!"media-queries" (.node (.node (.node .leaf 685756181072569521 n!"build" .leaf) 686568474174422042 n!"asp.net-web-api2" (.node .leaf 686850580524405760 n!"integration" .leaf)) 687241008704863979 n!"scrollbar" (.node (.node .leaf 687796481654267617 n!"karma-jasmine" .leaf) 687860658694810354 n!"azure-sql-database" (.node .leaf 688463211739421583 n!"amazon-redshift" .leaf))))) 688606985869862421 n!"game-engine" (.node (.node (.node (.node (.node .leaf 688900198256913792 n!"android-sqlite" .leaf) 690295380665465291 n!"toolbar" (.node .leaf 690636992352840430 n!"django-admin" .leaf)) 691363661079570882 n!"c-preprocessor" (.node (.node .leaf 692770478462028849 n!"ckeditor" .leaf) 692803304744661595 n!"devise" (.node .leaf 692809304777661654 n!"devops" .leaf))) 692813881056413136 n!"browser" (.node (.node (.node .leaf 693805068208171166 n!"sql" .leaf) 694485190703414537 n!"encryption" (.node .leaf 695442426396380901 n!"twitter-bootstrap-3" .leaf)) 696729380861090124 n!"ms-access" (.node (.node .leaf 696731380876090158 n!"spring-security" .leaf) 696758700930740419 n!"sql-insert" (.node .leaf 698639208174934116 n!"formula" .leaf)))) 698680545321223815 n!"excel-formula" (.node (.node (.node (.node .leaf 699003585584121154 n!"plist" .leaf) 699013585642121230 n!"plsql" (.node .leaf 701126208072456657 n!"css-animations" .leaf)) 701259843414676698 n!"r-markdown" (.node (.node .leaf 701586965414830866 n!"vb.net" .leaf) 704516736012867175 n!"performance" (.node .leaf 704696362915118179 n!"duplicates" .leaf))) 705544681591975581 n!"winforms" (.node (.node (.node .leaf 706052085974970722 n!"asp.net-mvc-2" .leaf) 706052085974970723 n!"asp.net-mvc-3" (.node .leaf 706052085974970724 n!"asp.net-mvc-4" .leaf)) 706052085974970725 n!"asp.net-mvc-5" (.node (.node .leaf 706052085974970726 n!"asp.net-core-mvc" .leaf) 706984147014218519 n!"uitableview" .leaf))))) 709714791198398235 n!"duplicates" (.node (.node (.node (.node (.node (.node .leaf 712033841451031901 n!"system.reactive" .leaf) 712393045553555746 n!"overriding" (.node .leaf 712462560308352502 n!"virtual-machine" .leaf)) 712467832859133131 n!"codeigniter" (.node (.node .leaf 712682748081636939 n!"performance" .leaf) 712690748122636975 n!"file" (.node .leaf 712690748124636980 n!"find" .leaf))) 712696748160637050 n!"fonts" (.node (.node (.node .leaf 712696748164637053 n!"fork" .leaf) 712696748164637055 n!"forms" (.node .leaf 712705748213637120 n!"fxml" .leaf)) 712758701787141477 n!"interface" (.node (.node .leaf 713565167810392731 n!"arrays" .leaf) 713904273537160896 n!"serialization" (.node .leaf 714514421424242372 n!"gradient" .leaf)))) 715205614152644788 n!"scenekit" (.node (.node (.node (.node .leaf 716874253406793716 n!"authentication" .leaf) 717219171930778713 n!"plot" (.node .leaf 717463431490078511 n!"ipad" .leaf)) 718140976264760388 n!"local" (.node (.node .leaf 718144976243760287 n!"log4j" .leaf) 718144976296760439 n!"logic" (.node .leaf 718144976296760450 n!"authentication" .leaf))) 718144976302760468 n!"authentication" (.node (.node (.node .leaf 718152976351760548 n!"loops" .leaf) 718777717331946267 n!"memory-management" (.node .leaf 719574040817049455 n!"css" .leaf)) 719711865910151648 n!"stack" (.node (.node .leaf 719728866006151783 n!"state" .leaf) 719728866010151779 n!"static" .leaf)))) 719811988799894527 n!"ember.js" (.node (.node (.node (.node (.node .leaf 719888874676398438 n!"naming-conventions" .leaf) 720123287592907834 n!"apache-spark" (.node .leaf 721833181216090460 n!"macos" .leaf)) 721833181219090465 n!"macros" (.node (.node .leaf 721850181306090566 n!"match" .leaf) 721850181311090592 n!"math" (.node .leaf 721852181320090596 n!"maven" .leaf))) 721965895215801096 n!"forms" (.node (.node (.node .leaf 722080757856611668 n!"clojure" .leaf) 722395081542537921 n!"aop" (.node .leaf 723761128619371234 n!"jlabel" .leaf)) 724642503578526711 n!"version-control" (.node (.node .leaf 725278560415532023 n!"mysqli" .leaf) 726674414328680550 n!"jasper-reports" (.node .leaf 727196448064751092 n!"stream" .leaf)))) 727382217663398347 n!"asp-classic" (.node (.node (.node (.node .leaf 728368038453357434 n!"subprocess" .leaf) 728433671829729739 n!"cell" (.node .leaf 728549700630735933 n!"handler" .leaf)) 728588561236821896 n!"syntax" (.node (.node .leaf 728895165236119009 n!"android-widget" .leaf) 729465889485402422 n!"xsd" (.node .leaf 730544153685793369 n!"avfoundation" .leaf))) 731660985973386135 n!"assembly" (.node (.node (.node .leaf 731816496443374400 n!"html-lists" .leaf) 732309410145866449 n!"html-select" (.node .leaf 734202015762037227 n!"checkbox" .leaf)) 734220561415437134 n!"dependencies" (.node (.node .leaf 734333050605701392 n!"parameters" .leaf) 734923967367774050 n!"internet-explorer-7" .leaf)))))

/-- Part of `soTree`. -/
def soTree10 : Tree :=
  .node (.node (.node (.node (.node (.node (.node .leaf 735230773254459818 n!"google-visualization" .leaf) 735506293466473888 n!"babeljs" (.node .leaf 736467704167737395 n!"registry" .leaf)) 737234676599789468 n!"visual-studio-code" (.node (.node .leaf 738033192647407688 n!"protocol-buffers" .leaf) 738204880988819473 n!"networking" (.node .leaf 738676961094836380 n!"air" .leaf))) 739745512795039832 n!"scripting" (.node (.node (.node .leaf 741237121771042188 n!"cordova" .leaf) 741734984098617881 n!"subquery" (.node .leaf 742058928711510842 n!"ssas" .leaf)) 742346567106675423 n!"iphone" (.node (.node .leaf 742788822567917376 n!"thread-safety" .leaf) 744262397487593440 n!"firefox-addon" (.node .leaf 746632709665753804 n!"printf" .leaf)))) 748097065900427370 n!"multidimensional-array" (.node (.node (.node (.node .leaf 749029239763621777 n!"apache-flex" .leaf) 751877789991244067 n!"upload" (.node .leaf 752407999118579929 n!"csrf" .leaf)) 752668975935876839 n!"facebook-javascript-sdk" (.node (.node .leaf 753526472108729922 n!"ocaml" .leaf) 754039842064943386 n!"python-3.x" (.node .leaf 754066371719784497 n!"tortoisesvn" .leaf))) 755650860225571996 n!"microsoft-graph" (.node (.node (.node .leaf 756119313026909171 n!"google-analytics-api" .leaf) 758095626938290459 n!"pandas-groupby" (.node .leaf 758666082126850862 n!"reference" .leaf)) 758969559029770723 n!"user-controls" (.node (.node .leaf 760134962765369262 n!"grep" .leaf) 761090279828507166 n!"jquery" (.node .leaf 761094279838507161 n!"jquery" .leaf))))) 762164796191283820 n!"version-control" (.node (.node (.node (.node (.node .leaf 763090036050421577 n!"autolayout" .leaf) 764107165882004454 n!"conditional-statements" (.node .leaf 764752279058417082 n!"command-line-interface" .leaf)) 765063560478502923 n!"dataframe" (.node (.node .leaf 766838621082081117 n!"installation" .leaf) 767507275082262945 n!"performance" (.node .leaf 768075058562805265 n!"web-services" .leaf))) 768078058582805313 n!"servlets" (.node (.node (.node .leaf 769268717794830954 n!"garbage-collection" .leaf) 770013169940911537 n!"asp.net-core-mvc" (.node .leaf 770118599051518992 n!"robotframework" .leaf)) 770331888874530349 n!"magento2" (.node (.node .leaf 770570777192919212 n!"build.gradle" .leaf) 771265113539489933 n!"updates" (.node .leaf 771522478912862177 n!"programming-languages" .leaf)))) 772412170178498565 n!"gunicorn" (.node (.node (.node (.node .leaf 773097560660602674 n!"oop" .leaf) 773406435858016005 n!"automatic-ref-counting" (.node .leaf 774281628816097620 n!"backbone.js" .leaf)) 774572855269644961 n!"command" (.node (.node .leaf 775198829144200605 n!"sh" .leaf) 775329683883481329 n!"firefox" (.node .leaf 776787270415614881 n!"module" .leaf))) 776901191065386565 n!"oracle10g" (.node (.node (.node .leaf 776901191066386568 n!"oracle11g" .leaf) 776901191067386567 n!"oracle12c" (.node .leaf 776958191459387238 n!"java" .leaf)) 777020224175046478 n!"web-crawler" (.node (.node .leaf 777111986779719526 n!"x86-64" .leaf) 777334313820701702 n!"compression" .leaf))))) 778492304235742291 n!"repository" (.node (.node (.node (.node (.node (.node .leaf 780191402535445762 n!"visual-studio-2015" .leaf) 780229101641676349 n!"substring" (.node .leaf 780648443818423780 n!"ipad" .leaf)) 781645759433796860 n!"sinatra" (.node (.node .leaf 781827065718482962 n!"rotation" .leaf) 781827065719482972 n!"rotation" (.node .leaf 784754179272682553 n!"azure-sql-database" .leaf))) 785451565922442644 n!"pdf-generation" (.node (.node (.node .leaf 786289744132870566 n!"xcode6" .leaf) 786289744132870567 n!"xcode6" (.node .leaf 787247934427063049 n!"if-statement" .leaf)) 787778488141610810 n!"windows" (.node (.node .leaf 789026808596314834 n!"sencha-touch" .leaf) 790933887954124949 n!"grouping" (.node .leaf 791393226747948843 n!"file-io" .leaf)))) 791848940971163662 n!"orm" (.node (.node (.node (.node .leaf 793413724330159359 n!"background-image" .leaf) 795216720619555237 n!"email" (.node .leaf 795216720621555236 n!"makefile" .leaf)) 795216720623555253 n!"mamp" (.node (.node .leaf 795216720626555265 n!"maps" .leaf) 795216720630555259 n!"stata" (.node .leaf 795216720630555266 n!"math" .leaf))) 795216720633555278 n!"awk" (.node (.node (.node .leaf 795220351632437769 n!"character" .leaf) 795220720648555297 n!"menu" (.node .leaf 795224720674555337 n!"mips" .leaf)) 795230720697555344 n!"mocking" (.node (.node .leaf 795230720708555381 n!"mono" .leaf) 795232720726555422 n!"mqtt" .leaf)))) 795234720727555392 n!"internet-explorer" (.node (.node (.node (.node (.node .leaf 795234720736555433 n!"reporting-services" .leaf) 795234720740555429 n!"visual-c++" (.node .leaf 795234720740555445 n!"visual-studio" .leaf)) 795236720742555419 n!"mule" (.node (.node .leaf 795237720739555350 n!"asp.net-mvc-2" .leaf) 795237720739555351 n!"asp.net-mvc-3" (.node .leaf 795237720739555352 n!"asp.net-mvc-4" .leaf))) 795237720739555353 n!"asp.net-mvc-5" (.node (.node (.node .leaf 795237720758555466 n!"mvvm" .leaf) 795523757089365334 n!"conditional-statements" (.node .leaf 796444050524130645 n!"unix" .leaf)) 796900351140560586 n!"subset" (.node (.node .leaf 796925566796775692 n!"collision-detection" .leaf) 797111837494567341 n!"proguard" (.node .leaf 798202224456699990 n!"pom.xml" .leaf)))) 798452261819442126 n!"c#" (.node (.node (.node (.node .leaf 799098817260329264 n!"conv-neural-network" .leaf) 799911808586361842 n!"mime-types" (.node .leaf 800163630277854540 n!"replace" .leaf)) 801733828442978258 n!"paypal" (.node (.node .leaf 803117994940395307 n!"functional-programming" .leaf) 803155673142194251 n!"google-apps-script" (.node .leaf 805157300838281821 n!"database-design" .leaf))) 805569837753447381 n!"performance" (.node (.node (.node .leaf 805905028293176315 n!"assembly" .leaf) 806494133939585614 n!"product" (.node .leaf 806709980889803195 n!"gmail-api" .leaf)) 806786085743892941 n!"xslt-1.0" (.node (.node .leaf 806786085744892944 n!"xslt-2.0" .leaf) 808291391124359237 n!"aws-lambda" .leaf)))))

/-- Part of `soTree`. -/
def soTree11 : Tree :=
  .node (.node (.node (.node (.node (.node (.node .leaf 810956644313647970 n!"clang" .leaf) 810956644318647997 n!"class" (.node .leaf 810964644350648013 n!"click" .leaf)) 810970644397648094 n!"clone" (.node (.node .leaf 810970644404648114 n!"cloud" .leaf) 811208757709152943 n!"routes" (.node .leaf 811381505155890234 n!"wordpress-theming" .leaf))) 811482425403595959 n!"preg-match" (.node (.node (.node .leaf 812419228225572214 n!"sql-order-by" .leaf) 814322754102466685 n!"escaping" (.node .leaf 814823571975831825 n!"php" .leaf)) 815157796432959769 n!"jquery" (.node (.node .leaf 815677606057955026 n!"angularjs-ng-repeat" .leaf) 815977719427389673 n!"subprocess" (.node .leaf 816088849457955202 n!"sql-server-ce" .leaf)))) 816825860911719735 n!"matlab" (.node (.node (.node (.node .leaf 817443964812533140 n!"position" .leaf) 817991837194544217 n!"prepared-statement" (.node .leaf 819774376841144638 n!"xslt" .leaf)) 821053602550449751 n!"settings" (.node (.node .leaf 821798332577367314 n!"lotus-notes" .leaf) 821855865848182618 n!"random" (.node .leaf 822039205792675720 n!"containers" .leaf))) 822951574605264469 n!"android-asynctask" (.node (.node (.node .leaf 823196449423136952 n!"export" .leaf) 824248038965978658 n!"abstract-class" (.node .leaf 824924126628232828 n!"sitecore" .leaf)) 824931396410553121 n!"ruby-on-rails" (.node (.node .leaf 825131558992519249 n!"ssis" .leaf) 825400811384432948 n!"wifi" (.node .leaf 826258207214420568 n!"if-statement" .leaf))))) 827938829743330841 n!"data-binding" (.node (.node (.node (.node (.node .leaf 829608681389862420 n!"xpages" .leaf) 829781939951776116 n!"entity" (.node .leaf 831002138496205293 n!"regex" .leaf)) 831492125480702637 n!"file-io" (.node (.node .leaf 833645386476375032 n!"entity-framework" .leaf) 835192332664194919 n!"uipickerview" (.node .leaf 835293813415950992 n!"facebook-php-sdk" .leaf))) 836072888120123994 n!"customization" (.node (.node (.node .leaf 836576814619861769 n!"pytorch" .leaf) 839239740365522968 n!"google-cloud-messaging" (.node .leaf 839258661936774418 n!"aurelia" .leaf)) 840008646496139536 n!"eloquent" (.node (.node .leaf 842064841700939656 n!"margin" .leaf) 842134559550880390 n!"mvvm" (.node .leaf 842671935339287652 n!"enums" .leaf)))) 842800322148158066 n!"database-design" (.node (.node (.node (.node .leaf 843618817809518364 n!"jquery-ui-sortable" .leaf) 845120718297755341 n!"arrays" (.node .leaf 848622344884648487 n!"uikit" .leaf)) 848841792174163836 n!"sql-server" (.node (.node .leaf 849897103201992943 n!"jhipster" .leaf) 849968536867649026 n!"css-selectors" (.node .leaf 850276540551940238 n!"dynamics-crm-2011" .leaf))) 850765619304881402 n!"transactions" (.node (.node (.node .leaf 851388437896536187 n!"multithreading" .leaf) 852202306280514018 n!"automatic-ref-counting" (.node .leaf 852384364024745059 n!"coding-style" .leaf)) 852478756557526949 n!"video-streaming" (.node (.node .leaf 853511916298864327 n!"delphi" .leaf) 853983701952880083 n!"concurrency" .leaf))))) 854692130303712121 n!"lodash" (.node (.node (.node (.node (.node (.node .leaf 856944026342153050 n!"uitableview" .leaf) 857332037752928386 n!"tfs" (.node .leaf 857880635607192229 n!"servlets" .leaf)) 859118471318605682 n!"url-rewriting" (.node (.node .leaf 860171244929884523 n!"lazy-loading" .leaf) 861450910319949285 n!"formatting" (.node .leaf 861511647774814872 n!"bar-chart" .leaf))) 861900042880371113 n!"radio-button" (.node (.node (.node .leaf 862360034568963317 n!"xss" .leaf) 862392339331536526 n!"hosting" (.node .leaf 863076076954256589 n!"react-native-android" .leaf)) 863193416425342190 n!"iphone" (.node (.node .leaf 863959392300800323 n!"awk" .leaf) 864957759677025236 n!"batch-processing" (.node .leaf 865282781341266634 n!"import" .leaf)))) 866353095347918128 n!"global-variables" (.node (.node (.node (.node .leaf 866501091469972019 n!"listener" .leaf) 867248030494712282 n!"lucene" (.node .leaf 867646970600835484 n!"asp.net-core-mvc" .leaf)) 869071871125681631 n!"segmentation-fault" (.node (.node .leaf 869319007182579926 n!"css" .leaf) 871386377691736397 n!"uibutton" (.node .leaf 871713199695384435 n!"intellij-idea" .leaf))) 871755422475584857 n!"contextmenu" (.node (.node (.node .leaf 873041983316418831 n!"database-design" .leaf) 874097109479449663 n!"overloading" (.node .leaf 874132706371979025 n!"matplotlib" .leaf)) 874469000772277066 n!"html" (.node (.node .leaf 874720226062899238 n!"reporting-services" .leaf) 875378574312562376 n!"random" .leaf)))) 875631786575808167 n!"concurrency" (.node (.node (.node (.node (.node .leaf 876173556244979502 n!"office-interop" .leaf) 876640413613796920 n!"draggable" (.node .leaf 877750693160473559 n!"tabs" .leaf)) 877750693165473574 n!"tags" (.node (.node .leaf 877750693177473602 n!"task" .leaf) 877754693201473647 n!"testing" (.node .leaf 877754693206473662 n!"text" .leaf))) 877758693219473650 n!"time" (.node (.node (.node .leaf 877767693265473707 n!"tree" .leaf) 877768693283473759 n!"tsql" (.node .leaf 877768693288473776 n!"tortoisesvn" .leaf)) 877772693299473766 n!"twig" (.node (.node .leaf 877774693318473803 n!"types" .leaf) 878020351997870265 n!"mysql" (.node .leaf 878020352007870297 n!"mysql" .leaf)))) 878039431069256992 n!"hbase" (.node (.node (.node (.node .leaf 878658416888818350 n!"controls" .leaf) 878754209907419464 n!"classloader" (.node .leaf 881911754323798860 n!"namespaces" .leaf)) 882272995047891172 n!"jakarta-ee" (.node (.node .leaf 883718569441538411 n!"applescript" .leaf) 883734411660516655 n!"graph-theory" (.node .leaf 884197094501198568 n!"mapping" .leaf))) 884299630884795646 n!"cluster-computing" (.node (.node (.node .leaf 884350384377237135 n!"android-activity" .leaf) 884753908577789000 n!"permissions" (.node .leaf 884957511227324072 n!"google-apps-script" .leaf)) 885723363645838928 n!"inheritance" (.node (.node .leaf 886107569684618368 n!"abstract-class" .leaf) 886437002125260165 n!"android-gradle-plugin" .leaf)))))

/-- Part of `soTree`. -/
def soTree12 : Tree :=
  .node (.node (.node (.node (.node (.node (.node .leaf 886901126307927120 n!"mocking" .leaf) 886902126303927092 n!"modal-dialog" (.node .leaf 886902126307927104 n!"model" .leaf)) 886912126363927174 n!"monads" (.node (.node .leaf 886912126369927203 n!"mongodb" .leaf) 886919126423927292 n!"mouse" (.node .leaf 886920126419927271 n!"video" .leaf))) 887858814838329199 n!"azure-pipelines" (.node (.node (.node .leaf 888292907917033516 n!"oop" .leaf) 888348932572981506 n!"markdown" (.node .leaf 890088189483865065 n!"replace" .leaf)) 890324904552159749 n!"image-processing" (.node (.node .leaf 891425962084125427 n!"drop-down-menu" .leaf) 891789718002147895 n!"google-drive-api" (.node .leaf 892756658637096237 n!"while-loop" .leaf)))) 892891336508427642 n!"ado.net" (.node (.node (.node (.node .leaf 893159565600855190 n!"azure-devops" .leaf) 895452195396971186 n!"static-libraries" (.node .leaf 896277086103646550 n!"coordinates" .leaf)) 896915953311602592 n!"tdd" (.node (.node .leaf 897183821811896359 n!"debugging" .leaf) 897193821851896407 n!"delay" (.node .leaf 899324354937310300 n!"asp.net-core" .leaf))) 899330920196480048 n!"php" (.node (.node (.node .leaf 899835235064649655 n!"neural-network" .leaf) 901218134220101682 n!"include" (.node .leaf 901641359177288990 n!"logback" .leaf)) 903596061403994978 n!"core-data" (.node (.node .leaf 903899299253593524 n!"microsoft-edge" .leaf) 903929201779627721 n!"spring" (.node .leaf 903929201785627737 n!"sprite" .leaf))))) 905437373851520363 n!"database" (.node (.node (.node (.node (.node .leaf 906157037525203776 n!"file-io" .leaf) 906349679084351575 n!"subdomain" (.node .leaf 908002150460641800 n!"group-by" .leaf)) 908222929436753624 n!"subclass" (.node (.node .leaf 909141968476670250 n!"raphael" .leaf) 909744721969896332 n!"java-8" (.node .leaf 911086233642108817 n!"javascript" .leaf))) 912535220685918618 n!"google-maps" (.node (.node (.node .leaf 912843304814833723 n!"bigdata" .leaf) 915126135170981395 n!"tidyverse" (.node .leaf 915426312814937615 n!"keyboard-shortcuts" .leaf)) 915432435538493925 n!"flutter-layout" (.node (.node .leaf 915744424547816437 n!"client-server" .leaf) 915850412029646426 n!"apache-spark-sql" (.node .leaf 915960605080739898 n!"properties" .leaf)))) 916126001341013978 n!"create-react-app" (.node (.node (.node (.node .leaf 916286540368180173 n!"cordova-plugins" .leaf) 916548901012268580 n!"jackson" (.node .leaf 916684221310683589 n!"web-crawler" .leaf)) 917747435490937057 n!"azure-devops" (.node (.node .leaf 918018557001923601 n!"exchangewebservices" .leaf) 918976753577359530 n!"bluetooth-lowenergy" (.node .leaf 919511790650056589 n!"intellij-idea" .leaf))) 919666924725796595 n!"css-position" (.node (.node (.node .leaf 920627298124899060 n!"asterisk" .leaf) 921943503790638874 n!"orientation" (.node .leaf 922286693556333475 n!"asynchronous" .leaf)) 924697856885121954 n!"mod-rewrite" (.node (.node .leaf 926297812970993733 n!"entity-framework-core" .leaf) 927038226222967896 n!"exception" .leaf))))) 927586766264468621 n!"json.net" (.node (.node (.node (.node (.node (.node .leaf 927844728804317853 n!"filter" .leaf) 928895112798535957 n!"grep" (.node .leaf 929486101871448639 n!"coding-style" .leaf)) 929846673375205074 n!"ios-simulator" (.node (.node .leaf 931880454735899618 n!"mariadb" .leaf) 932187220564543596 n!"unity3d" (.node .leaf 932187220565543599 n!"unity3d" .leaf))) 932187220567543556 n!"unity3d" (.node (.node (.node .leaf 932355563978671484 n!"crash" .leaf) 932450345862261395 n!"dom" (.node .leaf 933714288416756768 n!"character-encoding" .leaf)) 934275340824715234 n!"google-drive-api" (.node (.node .leaf 934851522383896861 n!"vb.net" .leaf) 935438595141851152 n!"redirect" (.node .leaf 936775255458278005 n!"localization" .leaf)))) 937007209296666154 n!"exception" (.node (.node (.node (.node .leaf 938036440311239040 n!"wordpress" .leaf) 938596537542262890 n!"buffer" (.node .leaf 939781793975066241 n!"cocos2d-iphone" .leaf)) 939832535282883839 n!"sharepoint-2007" (.node (.node .leaf 939832535283883835 n!"sharepoint-2010" .leaf) 939832535283883838 n!"sharepoint-2013" (.node .leaf 940906870185973673 n!"drag-and-drop" .leaf))) 941444251814763653 n!"salesforce" (.node (.node (.node .leaf 942675963401498687 n!"jquery-plugins" .leaf) 943987956005062263 n!"css-selectors" (.node .leaf 944117157703750092 n!"autofac" .leaf)) 944337298551845236 n!"axios" (.node (.node .leaf 946071449849271329 n!"iterator" .leaf) 946754267857347859 n!"css-float" .leaf)))) 947173030032121648 n!"reference" (.node (.node (.node (.node (.node .leaf 948648661437104075 n!"wso2esb" .leaf) 950788249384975979 n!"resharper" (.node .leaf 951462278567897261 n!"visualization" .leaf)) 951720415035865324 n!"spring" (.node (.node .leaf 952328093463840403 n!"tdd" .leaf) 953913044327356674 n!"android-spinner" (.node .leaf 953950664452786056 n!"algorithm" .leaf))) 953981913038536088 n!"reactjs" (.node (.node (.node .leaf 953981913047536108 n!"realm" .leaf) 953984913062536132 n!"redis" (.node .leaf 953984913074536173 n!"redux" .leaf)) 953987913076536152 n!"regex" (.node (.node .leaf 955113347775697537 n!"format" .leaf) 955133347887697675 n!"formula" (.node .leaf 955565783717041110 n!"sublimetext" .leaf)))) 955750645276323428 n!"valgrind" (.node (.node (.node (.node .leaf 956946646618756602 n!"optimization" .leaf) 957693610341708296 n!"html-agility-pack" (.node .leaf 958674680462075536 n!"nlp" .leaf)) 960697432468181603 n!"hash" (.node (.node .leaf 960701432479181609 n!"hashmap" .leaf) 960996326253224687 n!"playframework" (.node .leaf 962469521036977364 n!"android-viewpager" .leaf))) 964190250092103803 n!"download" (.node (.node (.node .leaf 964959354951463010 n!"tomcat" .leaf) 967066763271737894 n!"css-selectors" (.node .leaf 967280711540397184 n!"jakarta-ee" .leaf)) 968094252542577325 n!"multipartform-data" (.node (.node .leaf 969470250810135484 n!"maven-2" .leaf) 969470250810135485 n!"maven-3" .leaf)))))

/-- Part of `soTree`. -/
def soTree13 : Tree :=
  .node (.node (.node (.node (.node (.node (.node .leaf 970262468299130697 n!"linker-errors" .leaf) 971345405432482771 n!"mapreduce" (.node .leaf 971738408222606085 n!"redirect" .leaf)) 971738408223606095 n!"redirect" (.node (.node .leaf 971884611703638248 n!"android-studio" .leaf) 973529041558774356 n!"docker-compose" (.node .leaf 976999154233153605 n!"combinations" .leaf))) 979235501528105444 n!"phpmyadmin" (.node (.node (.node .leaf 980302960038641214 n!"ios" .leaf) 984206969722515187 n!"sapui5" (.node .leaf 985537556734489847 n!"colors" .leaf)) 985537556737489855 n!"colors" (.node (.node .leaf 986458174288545996 n!"spyder" .leaf) 986999731261974035 n!"user-defined-functions" (.node .leaf 987447311724350085 n!"indexing" .leaf)))) 987918936673733570 n!"url-rewriting" (.node (.node (.node (.node .leaf 989336515116606054 n!"flexbox" .leaf) 989353515207606161 n!"apache-flex" (.node .leaf 989652094906708502 n!"multithreading" .leaf)) 989956896775601141 n!"uiwebview" (.node (.node .leaf 991891284317929161 n!"linq-to-xml" .leaf) 992880339262423563 n!"automation" (.node .leaf 994315275710548932 n!"android-recyclerview" .leaf))) 994398251962159937 n!"ctypes" (.node (.node (.node .leaf 994513044691235418 n!"data.table" .leaf) 995711355093840959 n!"passwords" (.node .leaf 996556070554539294 n!"android-intent" .leaf)) 996631626185240025 n!"automated-tests" (.node (.node .leaf 998645665326506071 n!"prolog" .leaf) 999178755740691501 n!"polygon" (.node .leaf 999184755766691529 n!"polymer" .leaf))))) 1000058000369000715 n!"oracle10g" (.node (.node (.node (.node (.node .leaf 1000058000370000718 n!"oracle11g" .leaf) 1000061000387000691 n!"http-status-code-404" (.node .leaf 1000106000708001299 n!"advanced-custom-fields" .leaf)) 1000106000709001298 n!"adb" (.node (.node .leaf 1000106000709001300 n!"add" .leaf) 1000106000709001315 n!"ads" (.node .leaf 1000106000710001312 n!"aem" .leaf))) 1000106000710001318 n!"aes" (.node (.node (.node .leaf 1000106000713001319 n!"autohotkey" .leaf) 1000106000714001329 n!"air" (.node .leaf 1000106000719001346 n!"ant" .leaf)) 1000106000720001345 n!"aop" (.node (.node .leaf 1000106000721001341 n!"api" .leaf) 1000106000721001343 n!"apk" (.node .leaf 1000106000723001341 n!"automatic-ref-counting" .leaf)))) 1000106000723001351 n!"arm" (.node (.node (.node (.node .leaf 1000106000724001296 n!"actionscript-3" .leaf) 1000106000724001354 n!"assembly" (.node .leaf 1000106000727001357 n!"average" .leaf)) 1000106000728001364 n!"awk" (.node (.node .leaf 1000106000728001372 n!"amazon-web-services" .leaf) 1000106000728001373 n!"awt" (.node .leaf 1000107000712001316 n!"batch-file" .leaf))) 1000107000723001334 n!"bluetooth-lowenergy" (.node (.node (.node .leaf 1000107000726001358 n!"bots" .leaf) 1000107000730001306 n!"beautifulsoup" (.node .leaf 1000107000730001370 n!"binary-search-tree" .leaf)) 1000108000664001090 n!"c++" (.node (.node .leaf 1000108000721001323 n!"cdi" .leaf) 1000108000721001334 n!"eclipse-cdt" .leaf))))) 1000108000724001332 n!"cgi" (.node (.node (.node (.node (.node (.node .leaf 1000108000729001347 n!"command-line-interface" .leaf) 1000108000729001348 n!"clojure" (.node .leaf 1000108000729001356 n!"clr" .leaf)) 1000108000730001345 n!"cmd" (.node (.node .leaf 1000108000730001360 n!"content-management-system" .leaf) 1000108000732001360 n!"com" (.node .leaf 1000108000733001366 n!"c++" .leaf))) 1000108000733001371 n!"cpu" (.node (.node (.node .leaf 1000108000734001310 n!"aem" .leaf) 1000108000736001378 n!"css" (.node .leaf 1000108000736001381 n!"csv" .leaf)) 1000108000741001380 n!"cxf" (.node (.node .leaf 1000108000741001398 n!"c++" .leaf) 1000109000724001338 n!"dax" (.node .leaf 1000109000725001271 n!"db2" .leaf)))) 1000109000727001327 n!"domain-driven-design" (.node (.node (.node (.node .leaf 1000109000728001332 n!"function" .leaf) 1000109000732001356 n!"directory" (.node .leaf 1000109000732001360 n!"html" .leaf)) 1000109000735001359 n!"dll" (.node (.node .leaf 1000109000737001357 n!"drag-and-drop" .leaf) 1000109000737001367 n!"dotnetnuke" (.node .leaf 1000109000737001372 n!"dns" .leaf))) 1000109000738001369 n!"dom" (.node (.node (.node .leaf 1000109000741001371 n!"django-rest-framework" .leaf) 1000109000742001384 n!"signal-processing" (.node .leaf 1000110000732001283 n!"amazon-ec2" .leaf)) 1000110000735001294 n!"entity-framework-4" (.node (.node .leaf 1000110000735001296 n!"entity-framework-6" .leaf) 1000110000739001352 n!"ejb" .leaf)))) 1000110000739001369 n!"ejs" (.node (.node (.node (.node (.node .leaf 1000110000743001384 n!"environment-variables" .leaf) 1000110000748001335 n!"ecmascript-6" (.node .leaf 1000110000749001392 n!"etl" .leaf)) 1000110000752001408 n!"exchangewebservices" (.node (.node .leaf 1000110000753001397 n!"exe" .leaf) 1000110000753001412 n!"extjs" (.node .leaf 1000111000738001351 n!"firebase-cloud-messaging" .leaf))) 1000111000741001367 n!"fft" (.node (.node (.node .leaf 1000111000748001392 n!"firemonkey" .leaf) 1000111000752001392 n!"facebook-fql" (.node .leaf 1000111000755001405 n!"ftp" .leaf)) 1000111000755001408 n!"full-text-search" (.node (.node .leaf 1000112000688001126 n!"g++" .leaf) 1000112000742001346 n!"google-app-engine" (.node .leaf 1000112000744001350 n!"gcc" .leaf)))) 1000112000744001351 n!"grand-central-dispatch" (.node (.node (.node (.node .leaf 1000112000744001352 n!"google-compute-engine" .leaf) 1000112000744001360 n!"google-cloud-messaging" (.node .leaf 1000112000744001363 n!"google-cloud-platform" .leaf)) 1000112000745001352 n!"gdb" (.node (.node .leaf 1000112000746001366 n!"rubygems" .leaf) 1000112000746001373 n!"get" (.node .leaf 1000112000750001384 n!"gis" .leaf))) 1000112000750001385 n!"git" (.node (.node (.node .leaf 1000112000752001376 n!"google-kubernetes-engine" .leaf) 1000112000756001389 n!"design-patterns" (.node .leaf 1000112000757001405 n!"gps" .leaf)) 1000112000757001407 n!"gpu" (.node (.node .leaf 1000112000760001415 n!"gstreamer" .leaf) 1000112000761001409 n!"gtk" .leaf)))))

/-- Part of `soTree`. -/
def soTree14 : Tree :=
  .node (.node (.node (.node (.node (.node (.node .leaf 1000112000764001427 n!"gwt" .leaf) 1000113000752001386 n!"hex" (.node .leaf 1000113000764001410 n!"hql" .leaf)) 1000114000754001375 n!"in-app-purchase" (.node (.node .leaf 1000114000755001375 n!"websphere" .leaf) 1000114000757001373 n!"ide" (.node .leaf 1000114000758001330 n!"internet-explorer-7" .leaf))) 1000114000758001331 n!"internet-explorer-8" (.node (.node (.node .leaf 1000114000758001332 n!"internet-explorer-9" .leaf) 1000114000762001402 n!"iis" (.node .leaf 1000114000766001402 n!"image" .leaf)) 1000114000767001418 n!"int" (.node (.node .leaf 1000114000768001404 n!"inversion-of-control" .leaf) 1000114000768001420 n!"ios" (.node .leaf 1000114000769001407 n!"ipc" .leaf)))) 1000115000760001386 n!"jar" (.node (.node (.node (.node .leaf 1000115000763001388 n!"java" .leaf) 1000115000764001385 n!"jakarta-ee" (.node .leaf 1000115000772001409 n!"java-me" .leaf)) 1000115000772001423 n!"jms" (.node (.node .leaf 1000115000773001416 n!"java-native-interface" .leaf) 1000115000775001414 n!"jpa" (.node .leaf 1000115000775001420 n!"jpeg" .leaf))) 1000115000776001429 n!"jquery-mobile" (.node (.node (.node .leaf 1000115000777001424 n!"java" .leaf) 1000115000778001428 n!"jsf" (.node .leaf 1000115000778001438 n!"jsp" .leaf)) 1000115000778001446 n!"jsx" (.node (.node .leaf 1000115000781001444 n!"jvm" .leaf) 1000115000782001454 n!"jwt" (.node .leaf 1000116000725001273 n!"kubernetes" .leaf))))) 1000116000770001414 n!"key" (.node (.node (.node (.node (.node .leaf 1000117000725001250 n!"linq-to-entities" .leaf) 1000117000786001435 n!"logging" (.node .leaf 1000117000792001447 n!"lua" .leaf)) 1000118000778001398 n!"macos" (.node (.node .leaf 1000118000778001411 n!"dictionary" .leaf) 1000118000778001419 n!"max" (.node .leaf 1000118000781001361 n!"md5" .leaf))) 1000118000781001406 n!"ms-access" (.node (.node (.node .leaf 1000118000781001428 n!"mdx" .leaf) 1000118000783001413 n!"mfc" (.node .leaf 1000118000790001432 n!"wolfram-mathematica" .leaf)) 1000118000792001454 n!"moq" (.node (.node .leaf 1000118000793001395 n!"mp3" .leaf) 1000118000793001449 n!"mpi" (.node .leaf 1000118000796001458 n!"windows-installer" .leaf)))) 1000118000799001461 n!"model-view-controller" (.node (.node (.node (.node .leaf 1000118000799001472 n!"maven" .leaf) 1000119000787001424 n!"android-ndk" (.node .leaf 1000119000788001436 n!".net" .leaf)) 1000119000789001422 n!"nfc" (.node (.node .leaf 1000119000792001440 n!"null" .leaf) 1000119000795001453 n!"nlp" (.node .leaf 1000119000799001462 n!"npm" .leaf))) 1000120000792001437 n!"ocr" (.node (.node (.node .leaf 1000120000802001465 n!"openmp" .leaf) 1000120000804001459 n!"oop" (.node .leaf 1000120000804001471 n!"oop" .leaf)) 1000120000807001477 n!"orm" (.node (.node .leaf 1000120000808001480 n!"openstreetmap" .leaf) 1000120000808001486 n!"open-source" .leaf))))) 1000120000808001491 n!"macos" (.node (.node (.node (.node (.node (.node .leaf 1000121000799001437 n!"pdf" .leaf) 1000121000799001446 n!"pdo" (.node .leaf 1000121000803001459 n!"php" .leaf)) 1000121000804001453 n!"apache-pig" (.node (.node .leaf 1000121000804001458 n!"python-imaging-library" .leaf) 1000121000804001462 n!"pip" (.node .leaf 1000121000807001475 n!"matplotlib" .leaf))) 1000121000809001468 n!"png" (.node (.node (.node .leaf 1000121000810001473 n!"apache-poi" .leaf) 1000121000810001477 n!"pom.xml" (.node .leaf 1000121000811001487 n!"powerpoint" .leaf)) 1000121000815001497 n!"pointers" (.node (.node .leaf 1000121000816001489 n!"pug" .leaf) 1000121000818001489 n!"progressive-web-apps" (.node .leaf 1000121000820001449 n!"python-3.x" .leaf)))) 1000122000814001479 n!"qml" (.node (.node (.node (.node .leaf 1000122000821001444 n!"qt4" .leaf) 1000122000821001445 n!"qt5" (.node .leaf 1000123000811001453 n!"rdd" .leaf)) 1000123000811001455 n!"rdf" (.node (.node .leaf 1000123000821001486 n!"random" .leaf) 1000123000822001500 n!"ruby-on-rails" (.node .leaf 1000123000822001505 n!"row" .leaf))) 1000123000826001495 n!"rsa" (.node (.node (.node .leaf 1000123000826001513 n!"rss" .leaf) 1000123000829001516 n!"rvm" (.node .leaf 1000124000814001465 n!"sap" .leaf)) 1000124000814001468 n!"sas" (.node (.node .leaf 1000124000815001472 n!"sbt" .leaf) 1000124000816001458 n!"version-control" .leaf)))) 1000124000816001468 n!"version-control" (.node (.node (.node (.node (.node .leaf 1000124000817001469 n!"sdk" .leaf) 1000124000817001470 n!"sdl" (.node .leaf 1000124000818001465 n!"sed" .leaf)) 1000124000818001476 n!"seo" (.node (.node .leaf 1000124000818001481 n!"set" .leaf) 1000124000826001504 n!"sms" (.node .leaf 1000124000829001495 n!"single-page-application" .leaf))) 1000124000830001509 n!"sql" (.node (.node (.node .leaf 1000124000832001511 n!"ssh" .leaf) 1000124000832001515 n!"ssl" (.node .leaf 1000124000832001518 n!"single-sign-on" .leaf)) 1000124000833001510 n!"std" (.node (.node .leaf 1000124000833001518 n!"stl" .leaf) 1000124000833001524 n!"string" (.node .leaf 1000124000834001522 n!"sum" .leaf)))) 1000124000835001519 n!"svg" (.node (.node (.node (.node .leaf 1000124000835001525 n!"svm" .leaf) 1000124000835001526 n!"svn" (.node .leaf 1000124000836001521 n!"flash" .leaf)) 1000124000836001535 n!"swt" (.node (.node .leaf 1000125000780001352 n!"translation" .leaf) 1000125000820001460 n!"tabs" (.node .leaf 1000125000820001465 n!"tags" .leaf))) 1000125000822001476 n!"tcl" (.node (.node (.node .leaf 1000125000822001480 n!"tcp" .leaf) 1000125000823001471 n!"tdd" (.node .leaf 1000125000825001492 n!"tfs" .leaf)) 1000125000831001510 n!"ssl" (.node (.node .leaf 1000125000835001515 n!"task-parallel-library" .leaf) 1000125000837001534 n!"try-catch" .leaf)))))

/-- Part of `soTree`. -/
def soTree15 : Tree :=
  .node (.node (.node (.node (.node (.node (.node .leaf 1000126000829001482 n!"user-defined-functions" .leaf) 1000126000829001492 n!"udp" (.node .leaf 1000126000834001448 n!"sapui5" .leaf)) 1000126000838001515 n!"uml" (.node (.node .leaf 1000126000843001527 n!"uri" .leaf) 1000126000843001530 n!"url" (.node .leaf 1000126000844001523 n!"usb" .leaf))) 1000126000848001549 n!"uwp" (.node (.node (.node .leaf 1000127000833001437 n!"vb6" .leaf) 1000127000833001480 n!"vba" (.node .leaf 1000127000833001498 n!"vbscript" .leaf)) 1000127000834001501 n!"version-control" (.node (.node .leaf 1000127000840001513 n!"vim" .leaf) 1000127000850001545 n!"azure-devops" (.node .leaf 1000127000852001541 n!"vue.js" .leaf)))) 1000128000838001503 n!"war" (.node (.node (.node (.node .leaf 1000128000840001497 n!"wcf" .leaf) 1000128000842001499 n!"web" (.node .leaf 1000128000846001533 n!"wix" .leaf)) 1000128000850001530 n!"wmi" (.node (.node .leaf 1000128000853001489 n!"windows-phone-7" .leaf) 1000128000853001490 n!"windows-phone-8" (.node .leaf 1000128000853001536 n!"wpf" .leaf))) 1000128000860001574 n!"web" (.node (.node (.node .leaf 1000129000801001321 n!"64-bit" .leaf) 1000129000803001329 n!"x86" (.node .leaf 1000129000851001533 n!"xmlhttprequest" .leaf)) 1000129000856001542 n!"xml" (.node (.node .leaf 1000129000857001534 n!"xna" .leaf) 1000129000862001552 n!"xsd" .leaf)))) 1000129000862001560 n!"xslt" (.node (.node (.node (.node (.node .leaf 1000129000862001567 n!"xss" .leaf) 1000130000858001536 n!"yii" (.node .leaf 1000130000862001551 n!"yaml" .leaf)) 1000131000861001481 n!"zend-framework2" (.node (.node .leaf 1000131000864001552 n!"zip" .leaf) 1000131000874001574 n!"zsh" (.node .leaf 1000365850917432720 n!"travis-ci" .leaf))) 1000434074725845249 n!"shader" (.node (.node (.node .leaf 1001354850440050983 n!"objective-c" .leaf) 1001464187714690201 n!"materialize" (.node .leaf 1002492226189922986 n!"time-series" .leaf)) 1002979035541503693 n!"macros" (.node (.node .leaf 1003228546520131385 n!"webserver" .leaf) 1003330519881102611 n!"frameworks" (.node .leaf 1003413005026613424 n!"powershell" .leaf)))) 1004289330933714346 n!"nlp" (.node (.node (.node (.node .leaf 1005033283108547750 n!"jasmine" .leaf) 1005326696781204509 n!"django-forms" (.node .leaf 1006575007925849278 n!"3d" .leaf)) 1006948341422071834 n!"themes" (.node (.node .leaf 1007281890017026063 n!"header" .leaf) 1007284885748572130 n!"d3.js" (.node .leaf 1007609644353599135 n!"compression" .leaf))) 1008179931735120449 n!"interpolation" (.node (.node (.node .leaf 1008235201795046065 n!"instance" .leaf) 1008619966508116042 n!"html5-video" (.node .leaf 1008709774615368000 n!"android-arrayadapter" .leaf)) 1008737854499231769 n!"performance" (.node (.node .leaf 1010001199015801795 n!"webforms" .leaf) 1010188091650694247 n!"php" .leaf))))) 1011516547384447875 n!"maven-plugin" (.node (.node (.node (.node (.node (.node .leaf 1011826649423201688 n!"memory-management" .leaf) 1012075305674315881 n!"session" (.node .leaf 1012355690976137233 n!"homebrew" .leaf)) 1012495512367088328 n!"model-view-controller" (.node (.node .leaf 1013236078112544439 n!"facebook" .leaf) 1013241078143544490 n!"facebook-fql" (.node .leaf 1013254078208544567 n!"facebook" .leaf))) 1013477217294088003 n!"migration" (.node (.node (.node .leaf 1014791195124273016 n!"events" .leaf) 1014853800351569985 n!"sparse-matrix" (.node .leaf 1015882260516154589 n!"scrapy" .leaf)) 1015886260529154581 n!"screen" (.node (.node .leaf 1015896260596154690 n!"scroll" .leaf) 1016303545416886550 n!"arrays" (.node .leaf 1016320047950803215 n!"rename" .leaf)))) 1017375494871815102 n!"video" (.node (.node (.node (.node .leaf 1017376494895815169 n!"view" .leaf) 1017384494938815210 n!"vim" (.node .leaf 1018100542289166900 n!"log4net" .leaf)) 1018260258264052276 n!"parameters" (.node (.node .leaf 1018461756956330394 n!"d3.js" .leaf) 1018461756968330367 n!"d3.js" (.node .leaf 1018461756968330368 n!"d3.js" .leaf))) 1018507757240330833 n!"dart" (.node (.node (.node .leaf 1018507757242330824 n!"date" .leaf) 1018508757241330826 n!"database" (.node .leaf 1018515757273330860 n!"dictionary" .leaf)) 1018515757276330855 n!"diff" (.node (.node .leaf 1018515757292330916 n!"html" .leaf) 1018518757300330913 n!"dll" .leaf)))) 1018521757309330913 n!"documentation" (.node (.node (.node (.node (.node .leaf 1018521757316330930 n!"dojo" .leaf) 1018524757325330938 n!"draw" (.node .leaf 1018526757355331011 n!"ssis" .leaf)) 1019291090620257335 n!"node-modules" (.node (.node .leaf 1019345191724329085 n!"notifications" .leaf) 1019859299383961576 n!"kernel" (.node .leaf 1020078951129979011 n!"xslt" .leaf))) 1020667998795920168 n!"shell" (.node (.node (.node .leaf 1020863946218950876 n!"app-store" .leaf) 1021392685735912279 n!"elixir" (.node .leaf 1022027351480660965 n!"pointers" .leaf)) 1022066185768591761 n!"winapi" (.node (.node .leaf 1022875262129810554 n!"cuda" .leaf) 1024449751330731788 n!"npm-install" (.node .leaf 1024833852048079793 n!"sockets" .leaf)))) 1025772314438540600 n!"codeigniter" (.node (.node (.node (.node .leaf 1025942985862705163 n!"mongodb-query" .leaf) 1026273342075775337 n!"video" (.node .leaf 1026535598628483849 n!"pthreads" .leaf)) 1027652130137841243 n!"glassfish" (.node (.node .leaf 1027980379945422825 n!"bootstrap-4" .leaf) 1028942871363351430 n!"javascript-events" (.node .leaf 1030154346274081349 n!"wicket" .leaf))) 1032038488715095389 n!"immutability" (.node (.node (.node .leaf 1032525694044699482 n!"hash" .leaf) 1034005129450658072 n!"parallel-processing" (.node .leaf 1034411277233152355 n!"uml" .leaf)) 1034500976012668666 n!"wordpress" (.node (.node .leaf 1035663865282898605 n!"dropbox" .leaf) 1037458334438135341 n!"substring" .leaf)))))

/-- Part of `soTree`. -/
def soTree16 : Tree :=
  .node (.node (.node (.node (.node (.node (.node .leaf 1038839762965843772 n!"radio-button" .leaf) 1040136336189144955 n!"raphael" (.node .leaf 1040309338735711630 n!"codeigniter-2" .leaf)) 1040309338735711631 n!"codeigniter-3" (.node (.node .leaf 1040393868336001344 n!"scheduled-tasks" .leaf) 1040417778944517218 n!"javafx-2" (.node .leaf 1040417778944517224 n!"javafx-8" .leaf))) 1041086284866567706 n!"report" (.node (.node (.node .leaf 1041348885849929231 n!"preg-replace" .leaf) 1041390388725119100 n!"codeigniter" (.node .leaf 1041710288512268962 n!"element" .leaf)) 1043440319878690511 n!"initialization" (.node (.node .leaf 1043446844467342628 n!"appcelerator" .leaf) 1043504765783750905 n!"firebase" (.node .leaf 1043688022081455959 n!"coding-style" .leaf)))) 1043984741645249351 n!"css-selectors" (.node (.node (.node (.node .leaf 1044216301170489924 n!"activerecord" .leaf) 1044581814595935180 n!"certificate" (.node .leaf 1044631455314407404 n!"authentication" .leaf)) 1045508956782827494 n!"layout" (.node (.node .leaf 1045961859830345350 n!"css-selectors" .leaf) 1046811581168423789 n!"ibm-mq" (.node .leaf 1048921995423244788 n!"mediawiki" .leaf))) 1048970875447838142 n!"xamarin.android" (.node (.node (.node .leaf 1050460105548413986 n!"react-router" .leaf) 1051612082293855839 n!"batch-file" (.node .leaf 1054340991529834409 n!"usb" .leaf)) 1054799930723762339 n!"css-position" (.node (.node .leaf 1055567441527638782 n!"xslt" .leaf) 1055662276341093806 n!"nodes" (.node .leaf 1055677276443093970 n!"nosql" .leaf))))) 1055745559974712493 n!"vectorization" (.node (.node (.node (.node (.node .leaf 1055895591957044741 n!"android-linearlayout" .leaf) 1055896332319307490 n!"twisted" (.node .leaf 1056123454699361726 n!"operators" .leaf)) 1056418899498337810 n!"web-services" (.node (.node .leaf 1058582937435965810 n!"jasper-reports" .leaf) 1058737350431084192 n!"tesseract" (.node .leaf 1058994737715095160 n!"nsurlconnection" .leaf))) 1059303003567468938 n!"web-scraping" (.node (.node (.node .leaf 1059371481395424016 n!"oauth" .leaf) 1061405746621177205 n!"drawing" (.node .leaf 1061651738895104629 n!"google-chrome" .leaf)) 1062180726229681436 n!"iphone" (.node (.node .leaf 1062188726276681508 n!"iphone" .leaf) 1062194726316681511 n!"ios4" (.node .leaf 1062198726325681557 n!"iphone" .leaf)))) 1062202726350681587 n!"iphone" (.node (.node (.node (.node .leaf 1063312424834186704 n!"zend-framework2" .leaf) 1064249821963494426 n!"histogram" (.node .leaf 1065092286087497078 n!"file-io" .leaf)) 1065434920835979020 n!"mod-rewrite" (.node (.node .leaf 1065442498454219429 n!"design-patterns" .leaf) 1065601286779941379 n!"webdriver" (.node .leaf 1067197490241221971 n!"ipc" .leaf))) 1068242952108766899 n!"database" (.node (.node (.node .leaf 1068250952151766955 n!"data-binding" .leaf) 1068767010857304112 n!"scikit-learn" (.node .leaf 1069815815661275127 n!"actionscript-3" .leaf)) 1071207663364160419 n!"signalr" (.node (.node .leaf 1071207663364160420 n!"signals" .leaf) 1073067037341592559 n!"marshalling" .leaf))))) 1073857516381894498 n!"linear-regression" (.node (.node (.node (.node (.node (.node .leaf 1074107162740181692 n!"bundle" .leaf) 1074301772759847674 n!"ms-access" (.node .leaf 1074494091275439723 n!"printf" .leaf)) 1074600359710137878 n!"replace" (.node (.node .leaf 1074825667203733353 n!"jasper-reports" .leaf) 1076019971124608088 n!"webbrowser-control" (.node .leaf 1077093385813746435 n!"listbox" .leaf))) 1077327914839893782 n!"couchbase" (.node (.node (.node .leaf 1078900814805308082 n!"hyperlink" .leaf) 1080434011714737373 n!"rest" (.node .leaf 1080545142577724634 n!"aggregate" .leaf)) 1080627429475408352 n!"cursor" (.node (.node .leaf 1084777369319015381 n!"http-headers" .leaf) 1085407722925536542 n!"excel-vba" (.node .leaf 1087270276337185471 n!"ms-office" .leaf)))) 1088328999434190241 n!"xpath" (.node (.node (.node (.node .leaf 1089395090047577452 n!"urllib" .leaf) 1089614081606430365 n!"powerpoint" (.node .leaf 1089972328479892505 n!"callback" .leaf)) 1090592654187328930 n!"phoenix-framework" (.node (.node .leaf 1091463333374393653 n!"python-imaging-library" .leaf) 1093535955667062667 n!"apache2" (.node .leaf 1094602881169480375 n!"razor" .leaf))) 1095378988030339450 n!"data-visualization" (.node (.node (.node .leaf 1095755793243370965 n!"sql-server-2005" .leaf) 1095755793243370968 n!"sql-server-2008" (.node .leaf 1095801160336093663 n!"applet" .leaf)) 1097412742915754466 n!"pygame" (.node (.node .leaf 1097675305647050955 n!"linq-to-sql" .leaf) 1097680305673050988 n!"linq-to-xml" .leaf)))) 1097744086961003853 n!"firebase-security" (.node (.node (.node (.node (.node .leaf 1100748929024555673 n!"database-connection" .leaf) 1100808673840051923 n!"prototype" (.node .leaf 1101045729819249225 n!"key" .leaf)) 1101049729840249258 n!"kivy" (.node (.node .leaf 1101526204237456086 n!"foreign-keys" .leaf) 1101736217822473681 n!"vector" (.node .leaf 1103722048229766265 n!"label" .leaf))) 1104725896738821523 n!"encoding" (.node (.node (.node .leaf 1105075772952179401 n!"sockets" .leaf) 1105475863774207253 n!"common-lisp" (.node .leaf 1106101597847130577 n!"left-join" .leaf)) 1106601503322191488 n!"openstreetmap" (.node (.node .leaf 1106634685250225918 n!"xcode4" .leaf) 1106634685250225919 n!"xcode5" (.node .leaf 1106634685250225920 n!"xcode6" .leaf)))) 1106634685250225921 n!"xcode7" (.node (.node (.node (.node .leaf 1106634685250225922 n!"xcode8" .leaf) 1107347977642210320 n!"sorting" (.node .leaf 1107791976749246028 n!"jquery" .leaf)) 1107952156046015460 n!"textview" (.node (.node .leaf 1109552718986420209 n!"relational-database" .leaf) 1110040010550027273 n!"delegates" (.node .leaf 1110094083362825880 n!"scrollbar" .leaf))) 1110138324388900007 n!"plugins" (.node (.node (.node .leaf 1110198162956702724 n!"matlab" .leaf) 1111053291231378534 n!"alfresco" (.node .leaf 1111496017266871929 n!"filenames" .leaf)) 1112450046596245466 n!"variadic-templates" (.node (.node .leaf 1112485168162873159 n!"action" .leaf) 1113570425493114410 n!"silverlight-4.0" .leaf)))))

/-- Part of `soTree`. -/
def soTree17 : Tree :=
  .node (.node (.node (.node (.node (.node (.node .leaf 1114687950630867454 n!"architecture" .leaf) 1115561377431260775 n!"cassandra" (.node .leaf 1116594262764943090 n!"windows-7" .leaf)) 1116594262764943091 n!"windows-8" (.node (.node .leaf 1116947542948434130 n!"system" .leaf) 1117321158277739480 n!"google-bigquery" (.node .leaf 1119002857804372127 n!"serial-port" .leaf))) 1119064858226372884 n!"rspec" (.node (.node (.node .leaf 1119349814937727401 n!"directx" .leaf) 1119759839683549408 n!"ecmascript-6" (.node .leaf 1119792803005401517 n!"list" .leaf)) 1119856913459343104 n!"controller" (.node (.node .leaf 1120244987247573384 n!"dialog" .leaf) 1120523002823024921 n!"user-defined-functions" (.node .leaf 1120793891100423156 n!"excel-2007" .leaf)))) 1120793891101423152 n!"excel-2010" (.node (.node (.node (.node .leaf 1121837493403278076 n!"titanium" .leaf) 1122748063125702876 n!"segue" (.node .leaf 1122761063203703004 n!"installation" .leaf)) 1123158293343666841 n!"html-table" (.node (.node .leaf 1124141939805406082 n!"spinner" .leaf) 1124486425911339649 n!"selenium-chromedriver" (.node .leaf 1125418393919569096 n!"autocomplete" .leaf))) 1126392931193150107 n!"vue-component" (.node (.node (.node .leaf 1127215238352403221 n!"web-crawler" .leaf) 1127459117226875007 n!"controls" (.node .leaf 1128195000204820093 n!"validation" .leaf)) 1128392961154508852 n!"vue-router" (.node (.node .leaf 1128702450051498931 n!"jquery-validate" .leaf) 1129271584232730062 n!"data-structures" (.node .leaf 1129351553698341957 n!"iis-7.5" .leaf))))) 1129739114775672244 n!"parameters" (.node (.node (.node (.node (.node .leaf 1129757114875672381 n!"parsing" .leaf) 1129759818684542538 n!"jupyter-notebook" (.node .leaf 1129761811115325983 n!"laravel-5" .leaf)) 1129761811115325984 n!"laravel-5" (.node (.node .leaf 1129761811115325985 n!"laravel-5" .leaf) 1129761811115325986 n!"laravel-5" (.node .leaf 1129761811115325987 n!"laravel-5" .leaf))) 1129944111725002310 n!"environment-variables" (.node (.node (.node .leaf 1130105771499952141 n!"css" .leaf) 1130745509873233806 n!"adb" (.node .leaf 1130945062126325538 n!"google-bigquery" .leaf)) 1133192076759492088 n!"inner-join" (.node (.node .leaf 1133380533467589981 n!"autocomplete" .leaf) 1136136631563390160 n!"scripting" (.node .leaf 1137138601766231426 n!"odoo" .leaf)))) 1137143601782231424 n!"java" (.node (.node (.node (.node .leaf 1137152601851231551 n!"openssl" .leaf) 1137154601853231484 n!"sapui5" (.node .leaf 1137157601875231578 n!"openxml" .leaf)) 1139505823886874499 n!"comparison" (.node (.node .leaf 1140114136093576851 n!"react-hooks" .leaf) 1140468548602688083 n!"guava" (.node .leaf 1141869283718892351 n!"amazon-elastic-beanstalk" .leaf))) 1143848946706586567 n!"ctypes" (.node (.node (.node .leaf 1144346926791432956 n!"interpolation" .leaf) 1144789400345128861 n!"capybara" (.node .leaf 1145479256825563264 n!"singleton" .leaf)) 1145910996039589791 n!"qr-code" (.node (.node .leaf 1146513033326222260 n!"itext" .leaf) 1146679488824438365 n!"css-selectors" .leaf))))) 1148185030854930167 n!"listener" (.node (.node (.node (.node (.node (.node .leaf 1148484944432981456 n!"elisp" .leaf) 1149357010007174396 n!"css" (.node .leaf 1150078660844450217 n!"precision" .leaf)) 1150243274119746247 n!"linkedin" (.node (.node .leaf 1150286061146374390 n!"openshift" .leaf) 1150760149140012400 n!"tuples" (.node .leaf 1152022502040625512 n!"caching" .leaf))) 1152301687279252934 n!"go" (.node (.node (.node .leaf 1152450821451634324 n!"google-play" .leaf) 1152541290918858247 n!"android-custom-view" (.node .leaf 1154338761039435649 n!"facebook" .leaf)) 1155978296649584517 n!"memcached" (.node (.node .leaf 1158880847624043399 n!"rounding" .leaf) 1158935671698959481 n!"css" (.node .leaf 1159041470005096321 n!"eclipse-plugin" .leaf)))) 1159575149108187537 n!"version-control" (.node (.node (.node (.node .leaf 1160473573944739419 n!"button" .leaf) 1161907501861808104 n!"animation" (.node .leaf 1168286772585546468 n!"mouseevent" .leaf)) 1169021202549125659 n!"openpyxl" (.node (.node .leaf 1169507863506869657 n!"sequence" .leaf) 1170233602917811814 n!"carrierwave" (.node .leaf 1171313540048950720 n!"babel" .leaf))) 1171331540154950872 n!"batch-file" (.node (.node (.node .leaf 1171679428188899439 n!"certificate" .leaf) 1171739164527677193 n!"casting" (.node .leaf 1173045779837125906 n!"user-defined-functions" .leaf)) 1173161904483747244 n!"unity3d" (.node (.node .leaf 1174248787172994799 n!"sql-server-2008" .leaf) 1175003764933137871 n!"visual-c++" .leaf)))) 1176286548229601538 n!"passenger" (.node (.node (.node (.node (.node .leaf 1176456701231471512 n!"sharepoint-2007" .leaf) 1176571414759192094 n!"xamarin.ios" (.node .leaf 1177513007760427755 n!"ipad" .leaf)) 1179317794221584823 n!"download" (.node (.node .leaf 1179419127524198571 n!"selector" .leaf) 1181832159549512949 n!"amazon-ec2" (.node .leaf 1181845159628513134 n!"amazon-rds" .leaf))) 1181846159634513135 n!"aws-sdk" (.node (.node (.node .leaf 1182478764022583892 n!"setinterval" .leaf) 1183310056865331009 n!"client-server" (.node .leaf 1183575702329167469 n!"rake" .leaf)) 1183575702332167477 n!"random" (.node (.node .leaf 1183579702361167544 n!"rest" .leaf) 1183589702420167566 n!"ruby-on-rails-3" (.node .leaf 1183589702425167645 n!"rows" .leaf)))) 1183595702440167642 n!"ruby" (.node (.node (.node (.node .leaf 1183595702457167688 n!"rust" .leaf) 1183598702466167687 n!"rxjs" (.node .leaf 1184889398699993884 n!"redirect" .leaf)) 1185270980569557981 n!"xcode8" (.node (.node .leaf 1185270980569557982 n!"xcode8" .leaf) 1185319980912558620 n!"xcode" (.node .leaf 1186084954891404150 n!"dotnetnuke" .leaf))) 1186135644919981835 n!"width" (.node (.node (.node .leaf 1186145644914981676 n!"winapi" .leaf) 1186145644972981911 n!"windows-mobile" (.node .leaf 1186145644977981931 n!"windows-runtime" .leaf)) 1186145644983981945 n!"windows-xp" (.node (.node .leaf 1186205459378690834 n!"phpexcel" .leaf) 1186223463847291255 n!"ruby-on-rails-3.2" .leaf)))))

/-- Part of `soTree`. -/
def soTree18 : Tree :=
  .node (.node (.node (.node (.node (.node (.node .leaf 1187445734146466014 n!"kubernetes" .leaf) 1188372417999610628 n!"css" (.node .leaf 1188435132203136772 n!"django-templates" .leaf)) 1191258225074248182 n!"compiler-errors" (.node (.node .leaf 1191676783166977419 n!"spring-data" .leaf) 1192436267907942497 n!"function" (.node .leaf 1192567721588255053 n!"parsing" .leaf))) 1192569438264606090 n!"office-js" (.node (.node (.node .leaf 1192571721608255065 n!"parsing" .leaf) 1192584488231935213 n!"google-chrome" (.node .leaf 1193458552294680757 n!"rubygems" .leaf)) 1193935582105192735 n!"regex" (.node (.node .leaf 1194307359672656083 n!"google-plus" .leaf) 1194742306804314458 n!"db2" (.node .leaf 1194761306917314691 n!"websphere" .leaf)))) 1195526239406826572 n!"css" (.node (.node (.node (.node .leaf 1196232593610800945 n!"servlets" .leaf) 1200155341019623518 n!"google-cloud-storage" (.node .leaf 1200717531086842280 n!"couchdb" .leaf)) 1200836737167122515 n!"filenames" (.node (.node .leaf 1200982739628064206 n!"racket" .leaf) 1201269924905691675 n!"android-volley" (.node .leaf 1202193396696419384 n!"jenkins-pipeline" .leaf))) 1202727736536319362 n!"azure-devops" (.node (.node (.node .leaf 1202912660938836245 n!"postgresql" .leaf) 1204037662928484584 n!"crystal-reports" (.node .leaf 1204660683341643647 n!"google-sheets-formula" .leaf)) 1205284035667621176 n!"slice" (.node (.node .leaf 1205786820790364168 n!"oauth-2.0" .leaf) 1206384080505642387 n!"ember-data" (.node .leaf 1206732937013361494 n!"firebase-storage" .leaf))))) 1207613316995164270 n!"google-cloud-firestore" (.node (.node (.node (.node (.node .leaf 1208256588464559104 n!"split" .leaf) 1208391414751809859 n!"handlebars.js" (.node .leaf 1208889994402525582 n!"textfield" .leaf)) 1208896994437525639 n!"text-files" (.node (.node .leaf 1209740416484072718 n!"charts" .leaf) 1211362424137303856 n!"ibm-mobilefirst" (.node .leaf 1211904795752313226 n!"multipartform-data" .leaf))) 1212288087401590672 n!"paypal" (.node (.node (.node .leaf 1212901848924220868 n!"microsoft-metro" .leaf) 1213000552987156550 n!"insert" (.node .leaf 1215573731219590522 n!"jboss" .leaf)) 1216560524539493929 n!"categories" (.node (.node .leaf 1217367695772798513 n!"magento" .leaf) 1217573123158808874 n!"ios-simulator" (.node .leaf 1218044441751498784 n!"runtime-error" .leaf)))) 1219547114938620215 n!"bit-manipulation" (.node (.node (.node (.node .leaf 1222290759704171206 n!"github" .leaf) 1222294759708171182 n!"gitlab" (.node .leaf 1222404750900311730 n!"slice" .leaf)) 1222808544558331535 n!"optimization" (.node (.node .leaf 1224037201229782750 n!"ecmascript-6" .leaf) 1224442426502260698 n!"openxml" (.node .leaf 1226237956050015082 n!"uinavigationcontroller" .leaf))) 1227309994136342859 n!"media-queries" (.node (.node (.node .leaf 1227729989403780103 n!"javascript-objects" .leaf) 1228124631371590607 n!"panel" (.node .leaf 1228128631391590632 n!"parameters" .leaf)) 1228128631409590678 n!"parsing" (.node (.node .leaf 1228130631410590677 n!"path" .leaf) 1228349393289944922 n!"footer" .leaf))))) 1231026801503842752 n!"windows-services" (.node (.node (.node (.node (.node (.node .leaf 1233275054830909452 n!"google-cloud-storage" .leaf) 1233420312163800258 n!"web-crawler" (.node .leaf 1233703361144910516 n!"fft" .leaf)) 1233732484717878703 n!"sorting" (.node (.node .leaf 1234132982529209121 n!"wordpress" .leaf) 1234722121968229858 n!"fetch" (.node .leaf 1234783142947938695 n!"browser" .leaf))) 1235442137119594852 n!"code-coverage" (.node (.node (.node .leaf 1235897887797677633 n!"standards" .leaf) 1236267145062219450 n!"pagination" (.node .leaf 1236979326586260714 n!"union" .leaf)) 1236979326591260740 n!"unity3d" (.node (.node .leaf 1241231000832795745 n!"system.reactive" .leaf) 1241415380746608976 n!"magento" (.node .leaf 1241545670314844425 n!"optimization" .leaf)))) 1243749020529505374 n!"win-universal-app" (.node (.node (.node (.node .leaf 1246248184315799429 n!"ssis" .leaf) 1246943396835139544 n!"carousel" (.node .leaf 1246983676283180703 n!"facebook-graph-api" .leaf)) 1247425035928323549 n!"interop" (.node (.node .leaf 1248208749762211175 n!"broadcastreceiver" .leaf) 1248242989738643369 n!"aurelia" (.node .leaf 1249179363661052004 n!"svn" .leaf))) 1253114020115539741 n!"firebase-security" (.node (.node (.node .leaf 1255689439176346104 n!"amazon-cloudfront" .leaf) 1256381270907653118 n!"special-characters" (.node .leaf 1256459377171315695 n!"spark-streaming" .leaf)) 1257316509313625639 n!"ssis" (.node (.node .leaf 1257522428121857076 n!"serialization" .leaf) 1257729535564470334 n!"constraints" .leaf)))) 1257769818368664262 n!"file-upload" (.node (.node (.node (.node (.node .leaf 1260946356977391476 n!"fork" .leaf) 1262706207842539207 n!"guava" (.node .leaf 1262714207871539226 n!"guice" .leaf)) 1263722460546994596 n!"uitableview" (.node (.node .leaf 1264033858706981003 n!"css" .leaf) 1264367321424343191 n!"regex" (.node .leaf 1264433770049814813 n!"cluster-analysis" .leaf))) 1266109674879085818 n!"yaml" (.node (.node (.node .leaf 1266109674884085835 n!"yarn" .leaf) 1266117674923085820 n!"yii2" (.node .leaf 1267041990047936089 n!"slice" .leaf)) 1268552783423301760 n!"data-science" (.node (.node .leaf 1270023687929472840 n!"makefile" .leaf) 1270122199933075163 n!"wordpress-theming" (.node .leaf 1270398027446976106 n!"code-generation" .leaf)))) 1270700603469760502 n!"cookies" (.node (.node (.node (.node .leaf 1270786364136156963 n!"token" .leaf) 1271782506133849112 n!"puppeteer" (.node .leaf 1271919968328491002 n!"amazon-elastic-beanstalk" .leaf)) 1272743494273181381 n!"twitter-bootstrap" (.node (.node .leaf 1273385031379021643 n!"permissions" .leaf) 1274591750105395989 n!"tortoisesvn" (.node .leaf 1275133812202004159 n!"output" .leaf))) 1275263536556939480 n!"android-layout" (.node (.node (.node .leaf 1275302259998829453 n!"matlab" .leaf) 1275308260042829553 n!"matrix" (.node .leaf 1275510009153803022 n!"azure" .leaf)) 1275859803549185674 n!"flash" (.node (.node .leaf 1275863803578185673 n!"flex4" .leaf) 1275946593334619917 n!"escaping" .leaf)))))

/-- Part of `soTree`. -/
def soTree19 : Tree :=
  .node (.node (.node (.node (.node (.node (.node .leaf 1276818686153857194 n!"embedded" .leaf) 1277294629474218810 n!"nsmutablearray" (.node .leaf 1277924453236734559 n!"go" .leaf)) 1278844646428689201 n!"validation" (.node (.node .leaf 1279654208625925373 n!"css-selectors" .leaf) 1280441993543335513 n!"distance" (.node .leaf 1280521576916963011 n!"asp.net-core-2.0" .leaf))) 1282359738722817152 n!"treeview" (.node (.node (.node .leaf 1282631174037306592 n!"linker-errors" .leaf) 1283635912895800884 n!"crystal-reports" (.node .leaf 1284222573385772986 n!".htaccess" .leaf)) 1285155864657854061 n!"drag-and-drop" (.node (.node .leaf 1285608166452616726 n!"forms-authentication" .leaf) 1286113402160199048 n!"codeigniter" (.node .leaf 1289007137284740081 n!"django" .leaf)))) 1289465439486826733 n!"report" (.node (.node (.node (.node .leaf 1290008340943901324 n!"logging" .leaf) 1291007313180013974 n!"kerberos" (.node .leaf 1291520213229869690 n!"testing" .leaf)) 1292662549800294730 n!"delegates" (.node (.node .leaf 1294206847252832123 n!"animation" .leaf) 1296709479059882611 n!"datetime" (.node .leaf 1297059702382254481 n!"compiler-errors" .leaf))) 1297370693207870202 n!"paypal-sandbox" (.node (.node (.node .leaf 1297959056473822956 n!"center" .leaf) 1297959056483822987 n!"centos" (.node .leaf 1298106703752508804 n!"jinja2" .leaf)) 1298323507017817059 n!"underscore.js" (.node (.node .leaf 1299655143185483428 n!"utf-8" .leaf) 1299755135007795972 n!"regex" (.node .leaf 1302043489472032942 n!"apache-pig" .leaf))))) 1302098555600345979 n!"callback" (.node (.node (.node (.node (.node .leaf 1302115479328076269 n!"powerbi" .leaf) 1302833215289743154 n!"symfony1" (.node .leaf 1302833215289743155 n!"symfony" .leaf)) 1302833215289743156 n!"symfony" (.node (.node .leaf 1302833215289743157 n!"symfony4" .leaf) 1303196758643781525 n!"facebook" (.node .leaf 1304413429778146523 n!"woocommerce" .leaf))) 1304451063551434978 n!"nlp" (.node (.node (.node .leaf 1307363550484255475 n!"load-balancing" .leaf) 1310479666035318950 n!"duplicates" (.node .leaf 1310547944196475936 n!"multithreading" .leaf)) 1310664603963509021 n!"php" (.node (.node .leaf 1311321547384420625 n!"docusignapi" .leaf) 1313178476057674575 n!"multidimensional-array" (.node .leaf 1314632978879311308 n!"linker-errors" .leaf)))) 1314753369977169178 n!"pickle" (.node (.node (.node (.node .leaf 1315417178092543000 n!"navigation" .leaf) 1315740555845328349 n!"query-string" (.node .leaf 1316527041395631361 n!"hyperledger-fabric" .leaf)) 1316955259360678120 n!"sprite-kit" (.node (.node .leaf 1317237094418148071 n!"flash" .leaf) 1317237094418148074 n!"flask" (.node .leaf 1317241094447148070 n!"flex4" .leaf))) 1317245094461148131 n!"apache-flink" (.node (.node (.node .leaf 1318180339927805748 n!"youtube-data-api" .leaf) 1318461204348213065 n!"language-lawyer" (.node .leaf 1319743197952093755 n!"asp.net-mvc-routing" .leaf)) 1321439639701991775 n!"mime-types" (.node (.node .leaf 1321458781199355187 n!"lucene" .leaf) 1321531285076039298 n!"compare" .leaf))))) 1321539285118039352 n!"compilation" (.node (.node (.node (.node (.node (.node .leaf 1321593570003651390 n!"html-lists" .leaf) 1322329159962851085 n!"iframe" (.node .leaf 1322382296401098175 n!"google-cloud-functions" .leaf)) 1322544534795453845 n!"google-compute-engine" (.node (.node .leaf 1323581480858762887 n!"css" .leaf) 1323618826179198317 n!"language-agnostic" (.node .leaf 1323857198887077932 n!"regex" .leaf))) 1324332766401024721 n!"bash" (.node (.node (.node .leaf 1324336766407024709 n!"javabeans" .leaf) 1324340766437024764 n!"big-o" (.node .leaf 1324340766444024774 n!"bind" .leaf)) 1324343766463024802 n!"blob" (.node (.node .leaf 1324346766481024839 n!"boolean" .leaf) 1324346766486024861 n!"bots" (.node .leaf 1324349766489024847 n!"homebrew" .leaf)))) 1324356766546024937 n!"byte" (.node (.node (.node (.node .leaf 1324597760674743078 n!"sharepoint" .leaf) 1324682469608236428 n!"reactive-programming" (.node .leaf 1325220599803431921 n!"performance" .leaf)) 1326307706271657187 n!"async-await" (.node (.node .leaf 1327458730476797337 n!"winrt-xaml" .leaf) 1328354930416396053 n!"selenium-webdriver" (.node .leaf 1330387085571418055 n!"uitableview" .leaf))) 1330512103356649724 n!"facebook-opengraph" (.node (.node (.node .leaf 1330809139024649668 n!"google-kubernetes-engine" .leaf) 1331165043391554979 n!"domain-driven-design" (.node .leaf 1332680862836790043 n!"type-conversion" .leaf)) 1334143061355702395 n!"apache-spark" (.node (.node .leaf 1335478080079320245 n!"firebase-realtime-database" .leaf) 1335571506737615758 n!"android-alertdialog" .leaf)))) 1336301329425287211 n!"css-grid" (.node (.node (.node (.node (.node .leaf 1336390485198787469 n!"bokeh" .leaf) 1336394485236787559 n!"boost" (.node .leaf 1336399485262787527 n!"boto3" .leaf)) 1336402485270787587 n!"bower" (.node (.node .leaf 1336403485225787429 n!"box2d" .leaf) 1338626355713140198 n!"watchkit" (.node .leaf 1338639328966917658 n!"realm" .leaf))) 1339098261023095044 n!"google-app-engine" (.node (.node (.node .leaf 1339961072936683174 n!"google-chrome-devtools" .leaf) 1340074690091117426 n!"caching" (.node .leaf 1340084690148117514 n!"apache-camel" .leaf)) 1340091690188117567 n!"try-catch" (.node (.node .leaf 1340206228040058954 n!"global" .leaf) 1341205414940059685 n!"ms-word" (.node .leaf 1341247998631990807 n!"random" .leaf)))) 1343877938288298832 n!"visual-studio-2010" (.node (.node (.node (.node .leaf 1345762253095607695 n!"sql-insert" .leaf) 1345825653338394865 n!"operating-system" (.node .leaf 1346492304940523346 n!"layout" .leaf)) 1346897293937261447 n!"rename" (.node (.node .leaf 1346900293947261463 n!"render" .leaf) 1346908641041400945 n!"jquery-mobile" (.node .leaf 1348991888747228304 n!"yii" .leaf))) 1349379164277727102 n!"jquery" (.node (.node (.node .leaf 1350147700844418258 n!"escaping" .leaf) 1350461711021235901 n!"validation" (.node .leaf 1351788372062374200 n!"cocoapods" .leaf)) 1351970404696790737 n!"django-forms" (.node (.node .leaf 1353332007354625094 n!"filesystems" .leaf) 1353423560697488128 n!"server" .leaf)))))

/-- Part of `soTree`. -/
def soTree20 : Tree :=
  .node (.node (.node (.node (.node (.node (.node .leaf 1354317172882755785 n!"bit-manipulation" .leaf) 1354795474957667863 n!"system.reactive" (.node .leaf 1354825371543875314 n!"binary" .leaf)) 1357186053064762842 n!"android" (.node (.node .leaf 1359080252860465324 n!"coding-style" .leaf) 1361332638192101797 n!"geometry" (.node .leaf 1361919455435908446 n!"visual-studio-2010" .leaf))) 1361920455437908383 n!"visual-studio-2010" (.node (.node (.node .leaf 1363887534589968229 n!"subclass" .leaf) 1365421938308266498 n!"gnuplot" (.node .leaf 1365544320126373212 n!"try-catch" .leaf)) 1365732871536683221 n!"dojo" (.node (.node .leaf 1366242559825085491 n!"ios-simulator" .leaf) 1366444461465149029 n!"directory" (.node .leaf 1367270251018405863 n!"android-service" .leaf)))) 1367758043158608079 n!"layout" (.node (.node (.node (.node .leaf 1368135855253484451 n!"transition" .leaf) 1368512771637577344 n!"multiprocessing" (.node .leaf 1370673963667063488 n!"instagram" .leaf)) 1371422246089302908 n!"global-variables" (.node (.node .leaf 1372600520476071559 n!"webpack" .leaf) 1372600520480071565 n!"html" (.node .leaf 1374447746826118105 n!"plugins" .leaf))) 1374682552414646356 n!"out-of-memory" (.node (.node (.node .leaf 1375924359523302518 n!"tensorflow" .leaf) 1376199544239540342 n!"primefaces" (.node .leaf 1376431959112369091 n!"performance" .leaf)) 1376929309835119110 n!"shell" (.node (.node .leaf 1378459668991558511 n!"asp.net-membership" .leaf) 1379124770931263026 n!"django-forms" (.node .leaf 1380388805000328434 n!"double" .leaf))))) 1380627676166426806 n!"jpa-2.0" (.node (.node (.node (.node (.node .leaf 1381014711430661389 n!"sails.js" .leaf) 1381153777981264263 n!"azure-active-directory" (.node .leaf 1381581989692002182 n!"imageview" .leaf)) 1381749702939323100 n!"integer" (.node (.node .leaf 1381756702996323209 n!"android-intent" .leaf) 1381760703015323227 n!"interop" (.node .leaf 1381859191450869355 n!"jenkins-pipeline" .leaf))) 1384250995392447282 n!"subprocess" (.node (.node (.node .leaf 1385484163643651627 n!"uitableview" .leaf) 1385609587295352286 n!"phantomjs" (.node .leaf 1386883187135804706 n!"doctrine-orm" .leaf)) 1388484525132295090 n!"matrix" (.node (.node .leaf 1388571886632508043 n!"settimeout" .leaf) 1389110159153341869 n!"combobox" (.node .leaf 1389969874943555930 n!"parameter-passing" .leaf)))) 1390682989750562730 n!"function-pointers" (.node (.node (.node (.node .leaf 1391086684235245521 n!"multidimensional-array" .leaf) 1392299239063901053 n!"opengl-es" (.node .leaf 1393194576495427349 n!"popup" .leaf)) 1393196576506427367 n!"port" (.node (.node .leaf 1393197576501427348 n!"posix" .leaf) 1393396198771121977 n!"elisp" (.node .leaf 1393758423076460169 n!"jquery-ui-sortable" .leaf))) 1394132964313748882 n!"modal-dialog" (.node (.node (.node .leaf 1394836666247704269 n!"task-parallel-library" .leaf) 1395120523887708100 n!"joomla" (.node .leaf 1395675728012713155 n!"jquery" .leaf)) 1397460640107545657 n!"conv-neural-network" (.node (.node .leaf 1397933967672299244 n!"url-rewriting" .leaf) 1398131469164969872 n!"routes" .leaf))))) 1398440082021519123 n!"microsoft-metro" (.node (.node (.node (.node (.node (.node .leaf 1398813728824038122 n!"jpanel" .leaf) 1399191897855236550 n!"aurelia" (.node .leaf 1399195472780244839 n!"wxpython" .leaf)) 1399998564445667780 n!"structure" (.node (.node .leaf 1401427259777365577 n!"cocos2d-x" .leaf) 1401482670743259377 n!"codeigniter" (.node .leaf 1401511447729543781 n!"repository" .leaf))) 1401719014490347382 n!"jestjs" (.node (.node (.node .leaf 1402777767622845028 n!"branch" .leaf) 1404491594586356859 n!"merge" (.node .leaf 1404876893397961576 n!"javascript" .leaf)) 1406368773342476160 n!"textarea" (.node (.node .leaf 1406818738601942454 n!"internationalization" .leaf) 1406866738884942811 n!"x86" (.node .leaf 1406868738956943069 n!"icons" .leaf)))) 1406870738906942840 n!"internet-explorer-11" (.node (.node (.node (.node .leaf 1406871738965943075 n!"fft" .leaf) 1406874738996943080 n!"iis-7" (.node .leaf 1406878739002943119 n!"imap" .leaf)) 1406880739023943167 n!"node.js" (.node (.node .leaf 1406880739032943131 n!"ios4" .leaf) 1406880739032943132 n!"ios5" (.node .leaf 1406880739032943133 n!"ios6" .leaf))) 1406880739032943134 n!"ios7" (.node (.node (.node .leaf 1406880739032943135 n!"ios8" .leaf) 1406880739032943136 n!"ios9" (.node .leaf 1406881739020943134 n!"ipad" .leaf)) 1407668424043708186 n!"junit4" (.node (.node .leaf 1409125167865821657 n!"ios" .leaf) 1410403751381192943 n!"google-bigquery" .leaf)))) 1410913742525058718 n!"download" (.node (.node (.node (.node (.node .leaf 1411473946839510726 n!"driver" .leaf) 1411856567991882459 n!"complexity-theory" (.node .leaf 1412002061313467054 n!"video" .leaf)) 1413511096547727157 n!"arrays" (.node (.node .leaf 1413904856829457836 n!"std" .leaf) 1413907856859457917 n!"stdout" (.node .leaf 1413911849705867091 n!"fragment" .leaf))) 1415630794771635057 n!"unit-testing" (.node (.node (.node .leaf 1415796300957298122 n!"driver" .leaf) 1416538304016606238 n!"screen-scraping" (.node .leaf 1416656323695793546 n!"tfs" .leaf)) 1417873230180908616 n!"ggplot2" (.node (.node .leaf 1418397550385136348 n!"ninject" .leaf) 1419002976416691722 n!"accessibility" (.node .leaf 1419146969486889022 n!"actionlistener" .leaf)))) 1419160748543413469 n!"shell" (.node (.node (.node (.node .leaf 1419742287925201797 n!"ibm-mq" .leaf) 1420231781849537959 n!"include" (.node .leaf 1420587781811298373 n!"twitter" .leaf)) 1420843405105986532 n!"jakarta-ee" (.node (.node .leaf 1420843405106986554 n!"javafx" .leaf) 1420843405113986556 n!"java-me" (.node .leaf 1420843405119986574 n!"java" .leaf))) 1421408946205572786 n!"compiler-errors" (.node (.node (.node .leaf 1421574208564704509 n!"classification" .leaf) 1422081727573120617 n!"google-kubernetes-engine" (.node .leaf 1422606662637035788 n!"char" .leaf)) 1422606662637035789 n!"charts" (.node (.node .leaf 1423618427656441775 n!"overlay" .leaf) 1423632427716441814 n!"overloading" .leaf)))))

/-- Part of `soTree`. -/
def soTree21 : Tree :=
  .node (.node (.node (.node (.node (.node (.node .leaf 1423864202405153562 n!"function" .leaf) 1424001022989311712 n!"sockets" (.node .leaf 1424591613900425102 n!"spring-data-jpa" .leaf)) 1426340307319557891 n!"azure-devops" (.node (.node .leaf 1426435868819323644 n!"caching" .leaf) 1426810866087812634 n!"google-play-services" (.node .leaf 1428567072240396688 n!"scala" .leaf))) 1428567072240396692 n!"scale" (.node (.node (.node .leaf 1428567072242396699 n!"scanf" .leaf) 1428574833315588104 n!"google-cloud-datastore" (.node .leaf 1428575072292396796 n!"scipy" .leaf)) 1428581072328396830 n!"scope" (.node (.node .leaf 1428778355961427568 n!"rounding" .leaf) 1428800191636023036 n!"sql" (.node .leaf 1429249265095210052 n!"networking" .leaf)))) 1429333197003349173 n!"eclipse-plugin" (.node (.node (.node (.node .leaf 1429358042633767183 n!"audio" .leaf) 1429537989779898312 n!"winapi" (.node .leaf 1429555989875898440 n!"winapi" .leaf)) 1429878861856876870 n!"security" (.node (.node .leaf 1430171682345618319 n!"sharedpreferences" .leaf) 1430355919232452719 n!"activemq" (.node .leaf 1430359919263452784 n!"android-activity" .leaf))) 1430740463033368233 n!"html-parsing" (.node (.node (.node .leaf 1432196526529591219 n!"screen-scraping" .leaf) 1432478039062080977 n!"scanf" (.node .leaf 1433697578940704356 n!"android-emulator" .leaf)) 1434624930934007616 n!"magento" (.node (.node .leaf 1434919373228340694 n!"youtube-data-api" .leaf) 1436104771591955221 n!"installation" (.node .leaf 1436566499275108328 n!"reporting-services" .leaf))))) 1437426767483066839 n!"xpath" (.node (.node (.node (.node (.node .leaf 1439307452470121772 n!"sql" .leaf) 1439455938904760495 n!"import" (.node .leaf 1439471454447203202 n!"reporting" .leaf)) 1440318680915255604 n!"generics" (.node (.node .leaf 1441885631250693883 n!"ember-cli" .leaf) 1443620467871814912 n!"firebase-authentication" (.node .leaf 1443742364738822604 n!"apache-flink" .leaf))) 1444151351671924690 n!"project" (.node (.node (.node .leaf 1445210387109906569 n!"debian" .leaf) 1445926250495981765 n!"composer-php" (.node .leaf 1446850626044088414 n!"regex" .leaf)) 1447897573246974872 n!"group-by" (.node (.node .leaf 1448247116331656767 n!"persistence" .leaf) 1448489184401698066 n!"vba" (.node .leaf 1449327584971036659 n!"material-design" .leaf)))) 1449825878712926556 n!"rss" (.node (.node (.node (.node .leaf 1449832020382381132 n!"cython" .leaf) 1449843789248224640 n!"html-parsing" (.node .leaf 1450165528451550770 n!"uitableview" .leaf)) 1452314175812633130 n!"calculator" (.node (.node .leaf 1452874303968623026 n!"dojo" .leaf) 1453192502890122032 n!"external" (.node .leaf 1453192936128981707 n!"instance" .leaf))) 1454109562795276477 n!"winforms" (.node (.node (.node .leaf 1455988433023359135 n!"precision" .leaf) 1456044706005114982 n!"uiscrollview" (.node .leaf 1456618933908379254 n!"datagrid" .leaf)) 1457015954557570660 n!"django-queryset" (.node (.node .leaf 1457528248302765597 n!"requirejs" .leaf) 1459448654712999465 n!"single-page-application" .leaf))))) 1459570645090772677 n!"segmentation-fault" (.node (.node (.node (.node (.node (.node .leaf 1461422431901857280 n!"android-listview" .leaf) 1462237968990063142 n!"browser" (.node .leaf 1463222155529771239 n!"dotnetnuke" .leaf)) 1464212471879831847 n!"python-2.7" (.node (.node .leaf 1464212471880831848 n!"python-3.5" .leaf) 1464212471880831849 n!"python-3.6" (.node .leaf 1464212471880831850 n!"python-3.7" .leaf))) 1464212471880831902 n!"python-3.x" (.node (.node (.node .leaf 1464212471880831915 n!"python-3.x" .leaf) 1464212471934832056 n!"python" (.node .leaf 1464647417413577524 n!"coldfusion" .leaf)) 1464796995253324142 n!"swing" (.node (.node .leaf 1464826041503506764 n!"grand-central-dispatch" .leaf) 1465390063658145376 n!"vectorization" (.node .leaf 1465885407954614157 n!"mocking" .leaf)))) 1466210427191948318 n!"foreign-keys" (.node (.node (.node (.node .leaf 1466581960425791987 n!"apache-camel" .leaf) 1468970972598829512 n!"architecture" (.node .leaf 1470434661723611482 n!"serialization" .leaf)) 1471209442593196406 n!"magento" (.node (.node .leaf 1471210084403741709 n!"computer-science" .leaf) 1471237453724812672 n!"heroku" (.node .leaf 1471683288056792867 n!"azure-storage" .leaf))) 1472140887801951510 n!"subquery" (.node (.node (.node .leaf 1472142744017862431 n!"tdd" .leaf) 1472461947426817372 n!"cross-domain" (.node .leaf 1472549775601117093 n!"silverlight-4.0" .leaf)) 1472851415282326444 n!"model" (.node (.node .leaf 1472867415378326574 n!"module" .leaf) 1473448344236314415 n!"x86-64" .leaf)))) 1474163424699154189 n!"command-prompt" (.node (.node (.node (.node (.node .leaf 1474347164732130944 n!"message" .leaf) 1474669539732654746 n!"css" (.node .leaf 1475113296418431966 n!"wrapper" .leaf)) 1475338872723563657 n!"sequelize.js" (.node (.node .leaf 1476656301059416100 n!"google-cloud-firestore" .leaf) 1476985707976546574 n!"concatenation" (.node .leaf 1478276652941070386 n!"stl" .leaf))) 1478327478376641325 n!"performance" (.node (.node (.node .leaf 1479269690180045327 n!"polymorphism" .leaf) 1483243690035783631 n!"rest" (.node .leaf 1485473637745528972 n!"jboss7.x" .leaf)) 1486474854923112274 n!"slice" (.node (.node .leaf 1487019091617404988 n!"javascript" .leaf) 1487343787833892254 n!"while-loop" (.node .leaf 1487919425271915461 n!"php" .leaf)))) 1488269449138345699 n!"vue.js" (.node (.node (.node (.node .leaf 1489400711497861396 n!"path" .leaf) 1489404711519861430 n!"perl" (.node .leaf 1489407711535861396 n!"php" .leaf)) 1489408711541861403 n!"pip" (.node (.node .leaf 1489408711541861453 n!"pipe" .leaf) 1489411711558861492 n!"plot" (.node .leaf 1489414711579861528 n!"port" .leaf))) 1489414711580861531 n!"post" (.node (.node (.node .leaf 1489415711587861547 n!"powerpoint" .leaf) 1489417711593861530 n!"random" (.node .leaf 1489420711616861573 n!"push" .leaf)) 1489424711576861420 n!"python-3.x" (.node (.node .leaf 1489424711638861615 n!"pyqt" .leaf) 1490659295661707423 n!"iteration" .leaf)))))

/-- Part of `soTree`. -/
def soTree22 : Tree :=
  .node (.node (.node (.node (.node (.node (.node .leaf 1490665295700707491 n!"iterator" .leaf) 1491567655214375699 n!"deployment" (.node .leaf 1491707123703418499 n!"android-intent" .leaf)) 1492152265143866931 n!"google-visualization" (.node (.node .leaf 1492837721395437104 n!"types" .leaf) 1493427850750491413 n!"foreach" (.node .leaf 1493512793501725582 n!"razor" .leaf))) 1495669517133352867 n!"ios4" (.node (.node (.node .leaf 1496424477975225646 n!"ggplot2" .leaf) 1496536695004061701 n!"kendo-grid" (.node .leaf 1497316569550185846 n!"shopify" .leaf)) 1497407859187319315 n!"alarmmanager" (.node (.node .leaf 1497515792405671446 n!"spring-boot" .leaf) 1497753896333588237 n!"timestamp" (.node .leaf 1498496630423905427 n!"android-actionbar" .leaf)))) 1499407752650118491 n!"extension-methods" (.node (.node (.node (.node .leaf 1500884032561142080 n!"oop" .leaf) 1502342604660951161 n!"aurelia" (.node .leaf 1502832664236899398 n!"default" .leaf)) 1505142635193954115 n!"cocoa" (.node (.node .leaf 1505151635247954213 n!"colors" .leaf) 1505153635248954181 n!"conda" (.node .leaf 1505153635263954245 n!"const" .leaf))) 1505160635300954293 n!"count" (.node (.node (.node .leaf 1506072078308309007 n!"structure" .leaf) 1507653277394224987 n!"conditional-statements" (.node .leaf 1507661719265653435 n!"youtube-data-api" .leaf)) 1508851840223284279 n!"date" (.node (.node .leaf 1508856840251284316 n!"aem" .leaf) 1509678321744505946 n!"aggregation-framework" (.node .leaf 1511349621424836242 n!"cluster-computing" .leaf))))) 1511594947056269095 n!"ibm-mobilefirst" (.node (.node (.node (.node (.node .leaf 1511751977154633380 n!"android" .leaf) 1511751977154633382 n!"apk" (.node .leaf 1511757977177633399 n!"google-cloud-messaging" .leaf)) 1511764977220633463 n!"android-ndk" (.node (.node .leaf 1511769977250633508 n!"android" .leaf) 1513508440024215594 n!"cron" (.node .leaf 1513518440070215642 n!"cron" .leaf))) 1513708824958611248 n!"amazon-cloudfront" (.node (.node (.node .leaf 1513744390182429868 n!"aurelia" .leaf) 1514003861979175011 n!"google-cloud-datastore" (.node .leaf 1514555832025134600 n!"facebook-javascript-sdk" .leaf)) 1516952190272873134 n!"backgroundworker" (.node (.node .leaf 1517695535361954260 n!"indexing" .leaf) 1517707535449954412 n!"input" (.node .leaf 1518286241824622567 n!"ibm-cloud" .leaf)))) 1519395145073434328 n!"operating-system" (.node (.node (.node (.node .leaf 1520170826207827583 n!"socket.io" .leaf) 1520230320921287441 n!"stanford-nlp" (.node .leaf 1521767467347963020 n!"amazon-cloudfront" .leaf)) 1521803753401704897 n!"visual-studio-2005" (.node (.node .leaf 1521803753401704900 n!"visual-studio-2008" .leaf) 1521803753402704895 n!"visual-studio-2010" (.node .leaf 1521803753402704896 n!"visual-studio-2012" .leaf))) 1521803753402704897 n!"visual-studio-2012" (.node (.node (.node .leaf 1521803753402704898 n!"visual-studio-2013" .leaf) 1521803753402704900 n!"visual-studio-2015" (.node .leaf 1521803753402704902 n!"visual-studio-2017" .leaf)) 1523446045013901728 n!"r" (.node (.node .leaf 1523515986355816821 n!"arrays" .leaf) 1523660945000315216 n!"yii" .leaf))))) 1525384605151182821 n!"datatables" (.node (.node (.node (.node (.node (.node .leaf 1525742101662961539 n!"websocket" .leaf) 1525947000040789176 n!"angular-ui-router" (.node .leaf 1527183506108441013 n!"twitter-bootstrap-3" .leaf)) 1527183506108441014 n!"bootstrap-4" (.node (.node .leaf 1528589781012170982 n!"android" .leaf) 1531076004357725796 n!"bluetooth" (.node .leaf 1531139174240545017 n!"try-catch" .leaf))) 1531592515673676793 n!"directory" (.node (.node (.node .leaf 1532608589336975073 n!"deep-learning" .leaf) 1532625390517400100 n!"linq" (.node .leaf 1534204889159091184 n!"duplicates" .leaf)) 1534216399267955263 n!"performance" (.node (.node .leaf 1534618035484091577 n!"hiveql" .leaf) 1535459646565895575 n!"google-visualization" (.node .leaf 1536763368012754148 n!"crystal-reports" .leaf)))) 1537499146496455271 n!"service" (.node (.node (.node (.node .leaf 1537502146516455319 n!"servlets" .leaf) 1537949193629436076 n!"statistics" (.node .leaf 1538118735151304850 n!"tomcat7" .leaf)) 1538124901781444447 n!"sql-server-ce" (.node (.node .leaf 1539466581813492698 n!"jdbc" .leaf) 1543006289887247590 n!"entity-framework-6" (.node .leaf 1545277373641420932 n!"pinvoke" .leaf))) 1546410420361867811 n!"spring-cloud" (.node (.node (.node .leaf 1546524444458754631 n!"formatting" .leaf) 1547386747029602993 n!"protocol-buffers" (.node .leaf 1547524879467575309 n!"wolfram-mathematica" .leaf)) 1548831120892017765 n!"log4j2" (.node (.node .leaf 1548882121193018273 n!"logging" .leaf) 1549298933173256181 n!"visual-studio-2010" .leaf)))) 1549298933173256182 n!"visual-studio-2010" (.node (.node (.node (.node (.node .leaf 1549571626640626909 n!"validation" .leaf) 1549571626641626919 n!"validation" (.node .leaf 1549577626680626987 n!"validation" .leaf)) 1551413102354234852 n!"tinymce" (.node (.node .leaf 1551971662410027562 n!"keyboard-shortcuts" .leaf) 1552957634218529774 n!"serial-port" (.node .leaf 1553198251752995517 n!"sql" .leaf))) 1553289969769096892 n!"json.net" (.node (.node (.node .leaf 1555576861664753816 n!"sorting" .leaf) 1556253213710131308 n!"authentication" (.node .leaf 1557447773379229590 n!"jquery-ui" .leaf)) 1557494258263263518 n!"data-structures" (.node (.node .leaf 1557626344108200507 n!"racket" .leaf) 1558521515668839346 n!"javamail" (.node .leaf 1559515628500734942 n!"wordpress" .leaf)))) 1559750184277143464 n!"amazon-dynamodb" (.node (.node (.node (.node .leaf 1559968194816047438 n!"android-arrayadapter" .leaf) 1560653369885003134 n!"scrapy" (.node .leaf 1561422724727107649 n!"emulation" .leaf)) 1563671948859485138 n!"external" (.node (.node .leaf 1564028820232571162 n!"simplexml" .leaf) 1564112302444021807 n!"marklogic" (.node .leaf 1564702919236326668 n!"express" .leaf))) 1565639931414923980 n!"ruby-on-rails" (.node (.node (.node .leaf 1565644931439923996 n!"range" .leaf) 1565656931519924141 n!"razor" (.node .leaf 1568313697210285080 n!"pyside" .leaf)) 1568497145118110589 n!"nested" (.node (.node .leaf 1570301428570197525 n!"zurb-foundation" .leaf) 1570376127026642536 n!"one-to-many" .leaf)))))

/-- Part of `soTree`. -/
def soTree23 : Tree :=
  .node (.node (.node (.node (.node (.node (.node .leaf 1571934684038779719 n!"wamp" .leaf) 1571940684066779753 n!"wget" (.node .leaf 1571942684079779763 n!"wifi" .leaf)) 1571942684087779737 n!"windows-7" (.node (.node .leaf 1571949684119779813 n!"wordpress" .leaf) 1571952684137779850 n!"wsdl" (.node .leaf 1571952684148779825 n!"wso2" .leaf))) 1572097126097027856 n!"opencl" (.node (.node (.node .leaf 1572097126097027866 n!"opencv" .leaf) 1572097126101027868 n!"opengl" (.node .leaf 1572097126103027866 n!"openid" .leaf)) 1572097126107027890 n!"openmp" (.node (.node .leaf 1572651647299150251 n!"css" .leaf) 1574155116821263463 n!"typescript" (.node .leaf 1574261004625344456 n!"jquery" .leaf)))) 1577241829402232648 n!"associations" (.node (.node (.node (.node .leaf 1578731756744702076 n!"css-float" .leaf) 1578965801875294432 n!"stream" (.node .leaf 1578969801912294501 n!"string" .leaf)) 1578981801973294589 n!"struct" (.node (.node .leaf 1578981801990294639 n!"struts" .leaf) 1579984416311758424 n!"javascript" (.node .leaf 1581045508534126996 n!"chart.js" .leaf))) 1581122269136523341 n!"margin" (.node (.node (.node .leaf 1581126269156523371 n!"google-play" .leaf) 1582398182150759866 n!"database-migration" (.node .leaf 1582891914591964518 n!"screenshot" .leaf)) 1583069785082205631 n!"compiler-construction" (.node (.node .leaf 1583293179974255903 n!"web-deployment" .leaf) 1584828614252309855 n!"full-text-search" .leaf)))) 1586503890395077118 n!"open-source" (.node (.node (.node (.node (.node .leaf 1586613148948953011 n!"select" .leaf) 1586893568104095724 n!"javascript-events" (.node .leaf 1587316130950961915 n!"php" .leaf)) 1587622535740749779 n!"navbar" (.node (.node .leaf 1588115469466946340 n!"spring" .leaf) 1588906633649187125 n!"python-import" (.node .leaf 1589114797584066396 n!"html-table" .leaf))) 1591275157681860545 n!"aws-lambda" (.node (.node (.node .leaf 1591416940898755287 n!"keyboard" .leaf) 1593646017393233436 n!"sql-server-ce" (.node .leaf 1593946974200588075 n!"discord" .leaf)) 1594823905609903954 n!"random" (.node (.node .leaf 1595275345990899409 n!"nsstring" .leaf) 1595584922352669702 n!"google-cloud-datastore" (.node .leaf 1596462977975428038 n!"prism" .leaf)))) 1597202046775178356 n!"parallel-processing" (.node (.node (.node (.node .leaf 1597288937249852534 n!"c#" .leaf) 1597342222360563524 n!"tcp" (.node .leaf 1601450544454450975 n!"recaptcha" .leaf)) 1601681834017058079 n!"unit-testing" (.node (.node .leaf 1601853060440666514 n!"imagemagick" .leaf) 1602188619396402542 n!"concurrency" (.node .leaf 1602626806200122136 n!"protocol-buffers" .leaf))) 1602627806200122133 n!"protocols" (.node (.node (.node .leaf 1603377699038037023 n!"uitableview" .leaf) 1603769065556516764 n!"celery" (.node .leaf 1604537357613811394 n!"automapper" .leaf)) 1606602329552571778 n!"google-cloud-firestore" (.node (.node .leaf 1608010193466104101 n!"ajax" .leaf) 1608222088975927249 n!"input" .leaf))))) 1608606235918411712 n!"war" (.node (.node (.node (.node (.node (.node .leaf 1609276163807853813 n!"docusignapi" .leaf) 1609618577119364438 n!"augmented-reality" (.node .leaf 1610204921331665411 n!"optimization" .leaf)) 1610281332237743321 n!"deployment" (.node (.node .leaf 1610416001910853990 n!"cluster-analysis" .leaf) 1611120602917734312 n!"windows-8" (.node .leaf 1611500319344443241 n!"eclipselink" .leaf))) 1612170127674733988 n!"append" (.node (.node (.node .leaf 1612174127705734054 n!"appium" .leaf) 1612177127707734040 n!"applet" (.node .leaf 1613368911529905110 n!"version" .leaf)) 1613481859740079108 n!"spring" (.node (.node .leaf 1613763329690408464 n!"uinavigationbar" .leaf) 1614631594899757165 n!"centos7" (.node .leaf 1616079643678560705 n!"mysql" .leaf)))) 1619371898638511925 n!"excel" (.node (.node (.node (.node .leaf 1619388898745512100 n!"extjs" .leaf) 1620054707239144677 n!"xml-parsing" (.node .leaf 1620295605473124556 n!"zoom" .leaf)) 1621831301443530115 n!"google-api" (.node (.node .leaf 1622839571325854325 n!"filesystems" .leaf) 1623302289412521700 n!"multiple-columns" (.node .leaf 1625784775036579175 n!"triggers" .leaf))) 1626350086411514821 n!"facebook" (.node (.node (.node .leaf 1626576903744669381 n!"css" .leaf) 1626996885123693173 n!"client" (.node .leaf 1627499284521887803 n!"android-canvas" .leaf)) 1629213114090840619 n!"metaprogramming" (.node (.node .leaf 1632558135113828521 n!"prepared-statement" .leaf) 1632914379744149668 n!"bash" .leaf)))) 1633760363246558738 n!"memory-leaks" (.node (.node (.node (.node (.node .leaf 1634448829133165920 n!"internet-explorer-11" .leaf) 1634671727553043969 n!"import" (.node .leaf 1635080642469501100 n!"nokogiri" .leaf)) 1635626003811842201 n!"limit" (.node (.node .leaf 1635627003813842197 n!"line" .leaf) 1635627003819842215 n!"hyperlink" (.node .leaf 1635627003829842250 n!"linux" .leaf))) 1635632003858842287 n!"list" (.node (.node (.node .leaf 1635909172044227667 n!"graphics" .leaf) 1637337249146664921 n!"salesforce" (.node .leaf 1637463512940810580 n!"lodash" .leaf)) 1637621605337121434 n!"wordpress" (.node (.node .leaf 1638195859521884386 n!"naming-conventions" .leaf) 1639450746720113785 n!"vim" (.node .leaf 1641821433031478934 n!"webforms" .leaf)))) 1643374617841780317 n!"aurelia" (.node (.node (.node (.node .leaf 1643471884171104518 n!"wxwidgets" .leaf) 1643861418568373493 n!"arrays" (.node .leaf 1644903122663061753 n!"angularjs-scope" .leaf)) 1645576938643943931 n!"gallery" (.node (.node .leaf 1646612122822081498 n!"monitoring" .leaf) 1648700804206397033 n!"escaping" (.node .leaf 1650849334047137433 n!"many-to-many" .leaf))) 1652301565662663414 n!"statistics" (.node (.node (.node .leaf 1652348998592862690 n!"toolbar" .leaf) 1652366998708862874 n!"tooltip" (.node .leaf 1653961690932231109 n!"textview" .leaf)) 1654172465534493343 n!"asp.net-mvc" (.node (.node .leaf 1654762380209248853 n!"initialization" .leaf) 1654877423309487696 n!"haskell" .leaf)))))

/-- Part of `soTree`. -/
def soTree24 : Tree :=
  .node (.node (.node (.node (.node (.node (.node .leaf 1655904086969910454 n!"workflow" .leaf) 1660860827646755157 n!"signal-processing" (.node .leaf 1660937755279108432 n!"web-applications" .leaf)) 1660947755332108505 n!"webkit" (.node (.node .leaf 1660954755385108584 n!"webrtc" .leaf) 1661506774469212849 n!"styles" (.node .leaf 1661928363168436153 n!"lazy-loading" .leaf))) 1662481911825016824 n!"inheritance" (.node (.node (.node .leaf 1663635089825151741 n!"mysql" .leaf) 1666680275189366601 n!"combobox" (.node .leaf 1667060849920261874 n!"load-balancing" .leaf)) 1667162647374795731 n!"encryption" (.node (.node .leaf 1667708615207041770 n!"outlook" .leaf) 1667804187342614520 n!"constants" (.node .leaf 1667808664526694996 n!"pyspark" .leaf)))) 1668352113605295313 n!"symfony" (.node (.node (.node (.node .leaf 1670784909607256151 n!"css-transitions" .leaf) 1672602106114540099 n!"overriding" (.node .leaf 1672686082159449738 n!"biztalk" .leaf)) 1672851445003281466 n!"ascii" (.node (.node .leaf 1673578879382521283 n!"vaadin" .leaf) 1673909785269120896 n!"dojo" (.node .leaf 1675531472046903978 n!"atom-editor" .leaf))) 1676705980056674137 n!"encryption" (.node (.node (.node .leaf 1679717547568795900 n!"cookies" .leaf) 1680593678263405630 n!"entity-framework" (.node .leaf 1681384602985470969 n!"variable-assignment" .leaf)) 1682186552311296469 n!"airflow" (.node (.node .leaf 1682242174868213445 n!"django-models" .leaf) 1682805650248478973 n!"database-design" (.node .leaf 1682891102175452276 n!"cocoa-touch" .leaf))))) 1682996218305630280 n!"google-cloud-platform" (.node (.node (.node (.node (.node .leaf 1683412752520125945 n!"cpanel" .leaf) 1684310252081351467 n!"pentaho" (.node .leaf 1684318252142351576 n!"x86" .leaf)) 1686557519415797881 n!"replace" (.node (.node .leaf 1686687467470843909 n!"generator" .leaf) 1686911936628486810 n!"amazon-s3" (.node .leaf 1687271381175856238 n!"xcode8" .leaf))) 1687271381175856240 n!"xcode8" (.node (.node (.node .leaf 1688348404766066572 n!"sparse-matrix" .leaf) 1688390632846401747 n!"jinja2" (.node .leaf 1689016291710715813 n!"jmeter" .leaf)) 1689642104753233091 n!"performance-testing" (.node (.node .leaf 1689729288058872409 n!"progress-bar" .leaf) 1690467126438698574 n!"element" (.node .leaf 1691817952241781571 n!"storage" .leaf)))) 1691825952296781666 n!"storage" (.node (.node (.node (.node .leaf 1692984448784978435 n!"validation" .leaf) 1693551300136193963 n!"amazon-ec2" (.node .leaf 1693564300215194148 n!"amazon-rds" .leaf)) 1693565300221194149 n!"aws-sdk" (.node (.node .leaf 1693840809263372356 n!"foreach" .leaf) 1694453081074342338 n!"cordova" (.node .leaf 1694520490285588151 n!"height" .leaf))) 1696523344511810110 n!"amazon-cloudformation" (.node (.node (.node .leaf 1696748380953090268 n!"admin" .leaf) 1696748380959090274 n!"admob" (.node .leaf 1696750380958090256 n!"adobe" .leaf)) 1697003440553090090 n!"constructor" (.node (.node .leaf 1697382132901393167 n!"android" .leaf) 1701307942114441817 n!"visual-c++" .leaf))))) 1701307942120441840 n!"visual-studio-2010" (.node (.node (.node (.node (.node (.node .leaf 1701307942120441841 n!"visual-studio-2012" .leaf) 1702006264986180786 n!"algorithm" (.node .leaf 1702928802672285980 n!"emulation" .leaf)) 1703475465110574917 n!"attributes" (.node (.node .leaf 1703703111076848859 n!"twitter-bootstrap" .leaf) 1704157641303545474 n!"group-by" (.node .leaf 1704343946575759339 n!"highcharts" .leaf))) 1705572166342478217 n!"ms-office" (.node (.node (.node .leaf 1706246296065168070 n!"doctrine" .leaf) 1706298108911923007 n!"angularjs" (.node .leaf 1706298108914923016 n!"angular" .leaf)) 1706298108968923173 n!"angularjs" (.node (.node .leaf 1706390982765425220 n!"full-text-search" .leaf) 1707485201901230936 n!"interface" (.node .leaf 1708605418190124148 n!"marshalling" .leaf)))) 1708784554441943111 n!"generics" (.node (.node (.node (.node .leaf 1709136798784060391 n!"firebase-realtime-database" .leaf) 1710581841549971575 n!"concurrency" (.node .leaf 1711210461894691048 n!"php" .leaf)) 1712691748112636969 n!"awk" (.node (.node .leaf 1712695748126636983 n!"rubygems" .leaf) 1712702748174637057 n!"glsl" (.node .leaf 1712705748191637082 n!"gorm" .leaf))) 1712708748196637073 n!"grep" (.node (.node (.node .leaf 1712708748200637073 n!"grid" .leaf) 1712709748212637110 n!"gson" (.node .leaf 1712710748214637040 n!"gtk" .leaf)) 1712711748221637121 n!"gulp" (.node (.node .leaf 1712712748224637118 n!"vim" .leaf) 1712716748248637157 n!"gzip" .leaf)))) 1712763752467760251 n!"swagger" (.node (.node (.node (.node (.node .leaf 1712865969300376285 n!"casting" .leaf) 1715195000633873575 n!".net-core" (.node .leaf 1715211747666877722 n!"wildcard" .leaf)) 1716792532218745432 n!"language-agnostic" (.node (.node .leaf 1717333333871145028 n!"transform" .leaf) 1719176348579771989 n!"ecmascript-6" (.node .leaf 1719579417479198632 n!"python-imaging-library" .leaf))) 1719986917398623409 n!"xml-serialization" (.node (.node (.node .leaf 1720381224737864300 n!"http-post" .leaf) 1720425424793608407 n!"boost-asio" (.node .leaf 1720938256988747324 n!"mongoose" .leaf)) 1720992695704293384 n!"response" (.node (.node .leaf 1721771025568590354 n!"css" .leaf) 1723063738834340700 n!"chef" (.node .leaf 1723081755704501399 n!"dynamic" .leaf)))) 1723446575775971833 n!"codeigniter" (.node (.node (.node (.node .leaf 1724332107259345080 n!"loops" .leaf) 1724711891310303948 n!"eclipse-cdt" (.node .leaf 1724726891399304076 n!"eclipse-rcp" .leaf)) 1725112529659682400 n!"xamarin" (.node (.node .leaf 1725665981388212697 n!"xamarin.ios" .leaf) 1726832687580560534 n!"seaborn" (.node .leaf 1728406002567151457 n!"simplexml" .leaf))) 1728444671861729764 n!"compact-framework" (.node (.node (.node .leaf 1728795252710479369 n!"inversion-of-control" .leaf) 1729955367780384059 n!"ms-access-2007" (.node .leaf 1729955367781384055 n!"ms-access-2010" .leaf)) 1730099310366913299 n!"materialize" (.node (.node .leaf 1730223459236145344 n!"amazon-redshift" .leaf) 1730719876584760751 n!"rounding" .leaf)))))

/-- Part of `soTree`. -/
def soTree25 : Tree :=
  .node (.node (.node (.node (.node (.node (.node .leaf 1731219795037234009 n!"dojo" .leaf) 1731391455383962438 n!"activeadmin" (.node .leaf 1731561261377157429 n!"xslt" .leaf)) 1732005286212425556 n!"linq-to-entities" (.node (.node .leaf 1732440210474306229 n!"google-cloud-functions" .leaf) 1732937476705358221 n!"image" (.node .leaf 1733536244503143036 n!"registry" .leaf))) 1734400081448090675 n!"sails.js" (.node (.node (.node .leaf 1734407081499090755 n!"sapui5" .leaf) 1734723960332787230 n!"flask-sqlalchemy" (.node .leaf 1734979872138922206 n!"dataset" .leaf)) 1735264275705873791 n!"resize" (.node (.node .leaf 1735536217060527989 n!"resources" .leaf) 1735840459195018225 n!"wildcard" (.node .leaf 1735873903947549650 n!"codeigniter" .leaf)))) 1736786283928983812 n!"multidimensional-array" (.node (.node (.node (.node .leaf 1738443313097286434 n!"thymeleaf" .leaf) 1738600221417569126 n!"file-io" (.node .leaf 1738948851634762564 n!"amazon-cognito" .leaf)) 1739610384369105530 n!"process" (.node (.node .leaf 1739623221773242644 n!"facebook-graph-api" .leaf) 1739631221808242687 n!"graphics" (.node .leaf 1740711110740020739 n!"webclient" .leaf))) 1741392133101060029 n!"pandas" (.node (.node (.node .leaf 1741393133118060071 n!"panel" .leaf) 1741574934750658200 n!"windows-services" (.node .leaf 1741620136807159512 n!"math" .leaf)) 1741700832744706289 n!"duplicates" (.node (.node .leaf 1742630998811093966 n!"security" .leaf) 1744328314500706960 n!"undefined" (.node .leaf 1744354903649150224 n!"umbraco" .leaf))))) 1744905538840414163 n!"field" (.node (.node (.node (.node (.node .leaf 1745403510956744567 n!"android-asynctask" .leaf) 1746422159185255455 n!"hyperledger" (.node .leaf 1746559637316754405 n!"jquery-plugins" .leaf)) 1746622828284628660 n!"expression" (.node (.node .leaf 1747775649810777837 n!"screen" .leaf) 1748648749650931122 n!"parent-child" (.node .leaf 1750759625993655698 n!"android-fragments" .leaf))) 1751405509462036603 n!"knockout.js" (.node (.node (.node .leaf 1753535472142729959 n!"odata" .leaf) 1754197021476732883 n!"realm" (.node .leaf 1754904017150991915 n!"version-control" .leaf)) 1755739253428487671 n!"border" (.node (.node .leaf 1756026529044386742 n!"google-maps-api-3" .leaf) 1756885377087612125 n!"binary-tree" (.node .leaf 1757954625734207783 n!"bit-manipulation" .leaf)))) 1758948059707846392 n!"css" (.node (.node (.node (.node .leaf 1759026945342675684 n!"installer" .leaf) 1763554870012271471 n!"singleton" (.node .leaf 1763840082632896191 n!"bash" .leaf)) 1763914627492537136 n!"python" (.node (.node .leaf 1768997657995039352 n!"julia" .leaf) 1768999658007039389 n!"junit" (.node .leaf 1769083041962278897 n!"svm" .leaf))) 1769392010698357518 n!"uisearchbar" (.node (.node (.node .leaf 1771385771307357996 n!"string" .leaf) 1771694751415007026 n!"codenameone" (.node .leaf 1772517085927589703 n!"terraform" .leaf)) 1772858497700600611 n!"recursion" (.node (.node .leaf 1772858497707600623 n!"recursion" .leaf) 1773754803601610925 n!"beautifulsoup" .leaf))))) 1773833382934599166 n!"itext" (.node (.node (.node (.node (.node (.node .leaf 1773867187819389637 n!"vb6" .leaf) 1776457081042184794 n!"algorithm" (.node .leaf 1776905052398299490 n!"flash" .leaf)) 1776944176929445077 n!"ionic-framework" (.node (.node .leaf 1778273333955625001 n!"mapkit" .leaf) 1778425879794376284 n!"collections" (.node .leaf 1778680424466020363 n!"mobile" .leaf))) 1779851149293575818 n!"64-bit" (.node (.node (.node .leaf 1780774660649572366 n!"sql-server-ce" .leaf) 1783085086136980488 n!"datetime" (.node .leaf 1783109252800150458 n!"keyboard" .leaf)) 1785639993275333447 n!"routing" (.node (.node .leaf 1787092917675867591 n!"security" .leaf) 1789526068936112228 n!"javascript" (.node .leaf 1790122459609034308 n!"azure-storage-blobs" .leaf)))) 1790176470413742896 n!"compiler-errors" (.node (.node (.node (.node .leaf 1790868476183167035 n!"compiler-construction" .leaf) 1792140824259246120 n!"postgis" (.node .leaf 1792146824287246145 n!"postman" .leaf)) 1792879822915384574 n!"translation" (.node (.node .leaf 1793184504577561459 n!"asynchronous" .leaf) 1793714659222976597 n!"material-design" (.node .leaf 1794103458347039663 n!"visual-studio" .leaf))) 1794326463148249203 n!"identityserver4" (.node (.node (.node .leaf 1794718755003088337 n!"text-files" .leaf) 1795004715038637445 n!"exception" (.node .leaf 1795225720656555295 n!"nasm" .leaf)) 1795225720660555305 n!"awk" (.node (.node .leaf 1795229720681555277 n!".net-4.0" .leaf) 1795233720691555324 n!"apache-nifi" .leaf)))) 1795236720723555395 n!"nltk" (.node (.node (.node (.node (.node .leaf 1795245720769555453 n!"null" .leaf) 1795245720781555497 n!"nuxt.js" (.node .leaf 1796198853571145836 n!"hash" .leaf)) 1796613944845285786 n!"materialize" (.node (.node .leaf 1797783663214369576 n!"webgl" .leaf) 1798091649037136562 n!"if-statement" (.node .leaf 1798336896576756221 n!"codeigniter" .leaf))) 1799526754074383313 n!"telerik" (.node (.node (.node .leaf 1799977596628296059 n!"entity-framework" .leaf) 1800690948887678832 n!"lwjgl" (.node .leaf 1802855142686993428 n!"integration-testing" .leaf)) 1803547440485394504 n!"jupyter" (.node (.node .leaf 1804387153849008902 n!"mingw" .leaf) 1804529141942733390 n!"django-queryset" (.node .leaf 1804754010372853642 n!"android-notifications" .leaf)))) 1804790714979339124 n!"regex" (.node (.node (.node (.node .leaf 1804947141359485861 n!"subdomain" .leaf) 1805317585841170258 n!"magento" (.node .leaf 1806500541894850855 n!"excel" .leaf)) 1806690325060496615 n!"css" (.node (.node .leaf 1808317259841602452 n!"batch-file" .leaf) 1809488874585562119 n!"nlp" (.node .leaf 1809502145150193379 n!"firebase-authentication" .leaf))) 1810965644337647986 n!"cmake" (.node (.node (.node .leaf 1811987128494892815 n!"neural-network" .leaf) 1813161564502135444 n!"complexity-theory" (.node .leaf 1813689147891583727 n!"flask" .leaf)) 1814049211327605735 n!"google-maps-markers" (.node (.node .leaf 1814290257418315519 n!"coffeescript" .leaf) 1814452472633258659 n!"spring-integration" .leaf)))))

/-- Part of `soTree`. -/
def soTree26 : Tree :=
  .node (.node (.node (.node (.node (.node (.node .leaf 1816332472114396486 n!"wpf-controls" .leaf) 1816926053954008943 n!"share" (.node .leaf 1816930053972008968 n!"shell" .leaf)) 1816934053998009023 n!"shiny" (.node (.node .leaf 1819157993375804095 n!"function-pointers" .leaf) 1820837020773693232 n!"f#" (.node .leaf 1822381918207984710 n!"batch-file" .leaf))) 1823093765725378701 n!"scheduled-tasks" (.node (.node (.node .leaf 1823525544565648240 n!"list" .leaf) 1825128967840344886 n!"jupyter-notebook" (.node .leaf 1825373294147099307 n!"uitableview" .leaf)) 1826979878270879629 n!"docker" (.node (.node .leaf 1827246156427029631 n!"azure-storage" .leaf) 1827302401039206138 n!"blackberry" (.node .leaf 1827432511351332447 n!"file-io" .leaf)))) 1827447511437332573 n!"filter" (.node (.node (.node (.node .leaf 1827981166224204209 n!"multidimensional-array" .leaf) 1828741697534229852 n!"io" (.node .leaf 1828913630574308714 n!"precision" .leaf)) 1830932404492572559 n!"linked-list" (.node (.node .leaf 1831569212321540101 n!"apache-nifi" .leaf) 1831660633140696389 n!"encryption" (.node .leaf 1834447510546790480 n!"html-email" .leaf))) 1834607037035545466 n!"julia" (.node (.node (.node .leaf 1835235472837058357 n!"datetime" .leaf) 1835605053777487988 n!"firefox-addon" (.node .leaf 1835634842834305190 n!"machine-learning" .leaf)) 1835643963511485480 n!"kibana" (.node (.node .leaf 1836299251666457247 n!"gorm" .leaf) 1836725994002651183 n!"real-time" (.node .leaf 1837100709891505779 n!"variables" .leaf))))) 1837913565006490766 n!"file-io" (.node (.node (.node (.node (.node .leaf 1837971021878216174 n!"game-physics" .leaf) 1838033078143723688 n!"gruntjs" (.node .leaf 1838048966977669188 n!"android-manifest" .leaf)) 1839714511337313023 n!"nlp" (.node (.node .leaf 1840072740166692856 n!"testing" .leaf) 1841480327046262915 n!"session-variables" (.node .leaf 1841726998704365984 n!"reverse-proxy" .leaf))) 1842543224290344212 n!"teamcity" (.node (.node (.node .leaf 1842661925354954037 n!"floating-point" .leaf) 1843469642709826972 n!"entity-framework" (.node .leaf 1844248824990678902 n!"smarty" .leaf)) 1844616096165245659 n!"regression" (.node (.node .leaf 1844633322946806299 n!"css" .leaf) 1844799618393248725 n!"media-player" (.node .leaf 1844960911540045703 n!"default" .leaf)))) 1845066330459188017 n!"crash" (.node (.node (.node (.node .leaf 1845724004431435213 n!"ibm-cloud" .leaf) 1845782151996137333 n!"hashtable" (.node .leaf 1846970125983178826 n!"html-table" .leaf)) 1846975256933709744 n!"dynamic-programming" (.node (.node .leaf 1848462266856384478 n!"python-multiprocessing" .leaf) 1848878568767854716 n!"bit-manipulation" (.node .leaf 1849128001949768089 n!"geospatial" .leaf))) 1849760779615809881 n!"fft" (.node (.node (.node .leaf 1849975274075860997 n!"cuda" .leaf) 1850125727714099796 n!"converter" (.node .leaf 1852303600598954007 n!"google-cloud-functions" .leaf)) 1852803439529668875 n!"tornado" (.node (.node .leaf 1853349655185950346 n!"database-design" .leaf) 1853765240718830400 n!"aurelia" .leaf))))) 1854666569033718555 n!"phpstorm" (.node (.node (.node (.node (.node (.node .leaf 1855114785231219982 n!"django-forms" .leaf) 1855220835473287734 n!"knitr" (.node .leaf 1855405419221200563 n!"xslt" .leaf)) 1855900240397310595 n!"django-queryset" (.node (.node .leaf 1856408504856749565 n!"verilog" .leaf) 1858059891336689442 n!"dom" (.node .leaf 1858075891418689538 n!"html" .leaf))) 1860224693194908222 n!"sqlite" (.node (.node (.node .leaf 1860780787639202913 n!"syntax-highlighting" .leaf) 1861705599381791643 n!"cocoa-touch" (.node .leaf 1861821326070926972 n!"arrays" .leaf)) 1863797385422060503 n!"unit-testing" (.node (.node .leaf 1864765364661969632 n!"laravel-4" .leaf) 1864765364661969633 n!"laravel-5" (.node .leaf 1866454646543965296 n!"border" .leaf)))) 1867455884368232137 n!"user-input" (.node (.node (.node (.node .leaf 1867811887618577998 n!"memory" .leaf) 1868377197000837481 n!"swift2" (.node .leaf 1868378197004837484 n!"swift3" .leaf)) 1868378197004837485 n!"swift3" (.node (.node .leaf 1868432197391838225 n!"swift" .leaf) 1868701850443165775 n!"wordpress" (.node .leaf 1868829166634353208 n!"console-application" .leaf))) 1869070410783951861 n!"singleton" (.node (.node (.node .leaf 1869192291619909453 n!"sql-server-2008-r2" .leaf) 1870207269958044014 n!"httpurlconnection" (.node .leaf 1870234570469118163 n!"azure-pipelines" .leaf)) 1870494113350144710 n!"primary-key" (.node (.node .leaf 1871307293252931959 n!"cmd" .leaf) 1874588695204831198 n!"cassandra" .leaf)))) 1875744213680393589 n!"azure-cosmosdb" (.node (.node (.node (.node (.node .leaf 1875937115840318282 n!"sockets" .leaf) 1876938403793642860 n!"nsarray" (.node .leaf 1877034517237163685 n!"linear-regression" .leaf)) 1877772693272473729 n!"unix" (.node (.node .leaf 1877776693299473769 n!"url" .leaf) 1877778693305473710 n!"utf-8" (.node .leaf 1879917821632385527 n!"random" .leaf))) 1880069997017959963 n!"compression" (.node (.node (.node .leaf 1880729857574002839 n!"profiling" .leaf) 1880868843662993468 n!"connection-string" (.node .leaf 1880999252406932079 n!"python-requests" .leaf)) 1881142982123791708 n!"cluster-analysis" (.node (.node .leaf 1881186196401436362 n!"printing" .leaf) 1881528882383392705 n!"append" (.node .leaf 1881641971230825264 n!"playframework-2.0" .leaf)))) 1881641971230825336 n!"playframework-2.0" (.node (.node (.node (.node .leaf 1882085495454989541 n!"protocol-buffers" .leaf) 1882438382465544755 n!"toggle" (.node .leaf 1883429072286988801 n!"uitabbarcontroller" .leaf)) 1883833897629225520 n!"web-crawler" (.node (.node .leaf 1883872331072370544 n!"svg" .leaf) 1884751991418860380 n!"garbage-collection" (.node .leaf 1884921457388457462 n!"android-viewpager" .leaf))) 1886683255172828619 n!"drupal" (.node (.node (.node .leaf 1886942278272217221 n!"mapbox" .leaf) 1886951278320217280 n!"mapkit" (.node .leaf 1888301772605747026 n!"subquery" .leaf)) 1888491016028318455 n!"submit" (.node (.node .leaf 1888497016060318497 n!"subset" .leaf) 1889106459091288975 n!"loading" .leaf)))))

/-- Part of `soTree`. -/
def soTree27 : Tree :=
  .node (.node (.node (.node (.node (.node (.node .leaf 1889297913440652907 n!"uitableview" .leaf) 1890547173082298277 n!"dropdown" (.node .leaf 1890783874986506122 n!"responsive-design" .leaf)) 1890906375741012119 n!"linq-to-sql" (.node (.node .leaf 1891430962082125404 n!"drop-down-menu" .leaf) 1893254695659903053 n!"javascript" (.node .leaf 1893454544963443789 n!"native" .leaf))) 1893788670619383225 n!"pickle" (.node (.node (.node .leaf 1894984394442823796 n!"google-bigquery" .leaf) 1895608596972143034 n!"prepared-statement" (.node .leaf 1896131063034019418 n!"android-permissions" .leaf)) 1896421928849958585 n!"variables" (.node (.node .leaf 1898055208649614838 n!"cakephp-2.0" .leaf) 1898055208650614841 n!"cakephp-3.0" (.node .leaf 1898651856254002142 n!"django-forms" .leaf)))) 1899473026562927358 n!"sonarqube" (.node (.node (.node (.node .leaf 1899480026617927446 n!"audio" .leaf) 1900043268961402931 n!"playframework" (.node .leaf 1901857864540344786 n!"spring-security" .leaf)) 1903003584146571404 n!"coffeescript" (.node (.node .leaf 1903130457956866935 n!"performance" .leaf) 1903170231540257457 n!"task" (.node .leaf 1903648016500000237 n!"object" .leaf))) 1904458385164680522 n!"documentation" (.node (.node (.node .leaf 1905886577637410485 n!"onclicklistener" .leaf) 1905974790378975489 n!"warnings" (.node .leaf 1906771316112170569 n!"spring-batch" .leaf)) 1907535704840375661 n!"nullpointerexception" (.node (.node .leaf 1908694370442049473 n!"core-graphics" .leaf) 1909618956869400731 n!"activerecord" (.node .leaf 1909762722117896706 n!"jetty" .leaf))))) 1909877010127446482 n!"url-rewriting" (.node (.node (.node (.node (.node .leaf 1910143523759404056 n!"gwt" .leaf) 1910256279049741883 n!"dom-events" (.node .leaf 1913196289517405928 n!"ubuntu-14.04" .leaf)) 1913198289529405946 n!"ubuntu-16.04" (.node (.node .leaf 1913269794596877509 n!"google-app-engine" .leaf) 1913863765160735730 n!"overloading" (.node .leaf 1914041098083621027 n!"innodb" .leaf))) 1914440458630461335 n!"url-routing" (.node (.node (.node .leaf 1915809696394070984 n!"vagrant" .leaf) 1916122692822587794 n!"printf" (.node .leaf 1917799692739078651 n!"javascript-objects" .leaf)) 1918216355943564233 n!"webstorm" (.node (.node .leaf 1918886911564008435 n!"escaping" .leaf) 1919403899384561327 n!"datetime" (.node .leaf 1920096303040749448 n!"transparency" .leaf)))) 1920983051019039215 n!"pivot-table" (.node (.node (.node (.node .leaf 1921830522921528001 n!"html-lists" .leaf) 1922236376111471227 n!"textbox" (.node .leaf 1922526384111250979 n!"format" .leaf)) 1923034351679847965 n!"knockout.js" (.node (.node .leaf 1923579280451241885 n!"arrays" .leaf) 1924691202755630427 n!"limit" (.node .leaf 1924833797359374849 n!"notifications" .leaf))) 1924889002063606468 n!"razor" (.node (.node (.node .leaf 1925198907819205875 n!"events" .leaf) 1925303660684434533 n!"amazon-dynamodb" (.node .leaf 1926592016279857293 n!"cron" .leaf)) 1926907784555618594 n!"java.util.scanner" (.node (.node .leaf 1927498888096909754 n!"dataset" .leaf) 1927787095617920375 n!"jquery-animate" .leaf))))) 1928584284027835484 n!"overlay" (.node (.node (.node (.node (.node (.node .leaf 1928737465450849987 n!"camera" .leaf) 1931392081160284244 n!"overriding" (.node .leaf 1931397055296406182 n!"google-oauth" .leaf)) 1932818894250386983 n!"click" (.node (.node .leaf 1934542652008217133 n!"retrofit2" .leaf) 1935630095429868398 n!"android-support-library" (.node .leaf 1935696031829763389 n!"syntax-error" .leaf))) 1937321061305044026 n!"synchronization" (.node (.node (.node .leaf 1939249835608788970 n!"xml-parsing" .leaf) 1939361403905336676 n!"initialization" (.node .leaf 1941981533404222692 n!"python-3.5" .leaf)) 1942042533822223455 n!"python-imaging-library" (.node (.node .leaf 1943123136137195519 n!"sublimetext2" .leaf) 1943123136137195520 n!"sublimetext3" (.node .leaf 1944453355023899958 n!"max" .leaf)))) 1947087843391828392 n!"outlook" (.node (.node (.node (.node .leaf 1947432960269611855 n!"encryption" .leaf) 1947645323621160552 n!"windows-phone" (.node .leaf 1949249598563964977 n!"performance" .leaf)) 1950144607630287740 n!"open-source" (.node (.node .leaf 1950335860103496228 n!"meteor" .leaf) 1950338860121496241 n!"methods" (.node .leaf 1950786943906214666 n!"switch-statement" .leaf))) 1950907914631527449 n!"customization" (.node (.node (.node .leaf 1951236838731083512 n!"ssms" .leaf) 1952320879511899679 n!"if-statement" (.node .leaf 1953324431661275726 n!"sms" .leaf)) 1954064638814586428 n!"user-defined-functions" (.node (.node .leaf 1954650397642487521 n!"matlab" .leaf) 1955162785442865886 n!"racket" .leaf)))) 1956676373286367753 n!"android" (.node (.node (.node (.node (.node .leaf 1956839751603332442 n!"java-native-interface" .leaf) 1958365310855679481 n!"netlogo" (.node .leaf 1959182202767372333 n!"ssrs-2008" .leaf)) 1959182202768372330 n!"ssrs-2012" (.node (.node .leaf 1960295296739274445 n!"arrays" .leaf) 1960785900249679288 n!"bitbucket" (.node .leaf 1961094773581388838 n!"pymongo" .leaf))) 1963227980339200393 n!"afnetworking" (.node (.node (.node .leaf 1963627316781477575 n!"google-maps-api-3" .leaf) 1963638636094174115 n!"visual-studio-2012" (.node .leaf 1964984510725450358 n!"guava" .leaf)) 1965054578905875743 n!"extjs" (.node (.node .leaf 1966553348111225363 n!"css" .leaf) 1966842467656743665 n!"wolfram-mathematica" (.node .leaf 1967134780513080489 n!"certificate" .leaf)))) 1967190995415101222 n!"amazon-cognito" (.node (.node (.node (.node .leaf 1967746243904438410 n!"zend-framework" .leaf) 1968065013541363876 n!"generics" (.node .leaf 1971523319529006196 n!"jquery-select2" .leaf)) 1973212881000449371 n!"composer-php" (.node (.node .leaf 1973981867680164990 n!"angular" .leaf) 1973981867680164992 n!"angular" (.node .leaf 1973981867680164993 n!"angular5" .leaf))) 1973981867680164994 n!"angular6" (.node (.node (.node .leaf 1973981867680164995 n!"angular7" .leaf) 1973981867680164996 n!"angular8" (.node .leaf 1974467791217506070 n!"storyboard" .leaf)) 1975924497255606096 n!"pass-by-reference" (.node (.node .leaf 1976196292597954935 n!"user-defined-functions" .leaf) 1977150494666272652 n!"editor" .leaf)))))

/-- Part of `soTree`. -/
def soTree28 : Tree :=
  .node (.node (.node (.node (.node (.node (.node .leaf 1979377730632666101 n!"jquery" .leaf) 1979707113826920005 n!"emulation" (.node .leaf 1979725943544627666 n!"sencha-touch-2" .leaf)) 1979768307044180106 n!"foreign-keys" (.node (.node .leaf 1980347114460953800 n!"azure-web-sites" .leaf) 1981299085364829246 n!"reflection" (.node .leaf 1982778082051859854 n!"memcached" .leaf))) 1984017549397392132 n!"jquery-animate" (.node (.node (.node .leaf 1984453086604560267 n!"rabbitmq" .leaf) 1985690204006175659 n!"themes" (.node .leaf 1985747377531266068 n!"datepicker" .leaf)) 1985778905124904070 n!"redirect" (.node (.node .leaf 1985820708205118511 n!"optimization" .leaf) 1989540167983907671 n!"elasticsearch" (.node .leaf 1989576562769445011 n!"binary-tree" .leaf)))) 1990143304559272994 n!"message-queue" (.node (.node (.node (.node .leaf 1990164379297876123 n!"sqlite" .leaf) 1992046745768527961 n!"css-selectors" (.node .leaf 1992141186770730522 n!"operator-overloading" .leaf)) 1993024831998147896 n!"magento" (.node (.node .leaf 1994136748210581892 n!"advanced-custom-fields" .leaf) 1995214328063404244 n!"amazon-web-services" (.node .leaf 1995323924850967143 n!"flutter" .leaf))) 1996523190401813431 n!"generics" (.node (.node (.node .leaf 1998273770132076856 n!"swift" .leaf) 2001134898727270914 n!"android-intent" (.node .leaf 2003938257330288788 n!"opencart" .leaf)) 2007407643598158408 n!"runtime" (.node (.node .leaf 2007431966788072929 n!"listview" .leaf) 2007551146359966490 n!"ssl-certificate" (.node .leaf 2010026406631014937 n!"time-complexity" .leaf))))) 2010585176578922180 n!"thumbnails" (.node (.node (.node (.node (.node .leaf 2011423085299454236 n!"focus" .leaf) 2011434085364454332 n!"fonts" (.node .leaf 2011438085381454347 n!"forms" .leaf)) 2011800464170236469 n!"sql-server-ce" (.node (.node .leaf 2011834645172752667 n!"apple-push-notifications" .leaf) 2012652215270675458 n!"compression" (.node .leaf 2013450197946054877 n!"concatenation" .leaf))) 2014025382616845412 n!"mysql-workbench" (.node (.node (.node .leaf 2014329497032014862 n!"nsuserdefaults" .leaf) 2014369236465896429 n!"ubuntu" (.node .leaf 2016005430807062363 n!"constraints" .leaf)) 2016660243625779832 n!"google-cloud-firestore" (.node (.node .leaf 2018516757252330803 n!"each" .leaf) 2018518757269330843 n!"echo" (.node .leaf 2018527757334330947 n!"if-statement" .leaf)))) 2018529757348330979 n!"enums" (.node (.node (.node (.node .leaf 2018537757376330990 n!"eval" .leaf) 2018537757390331037 n!"dotnetnuke" (.node .leaf 2018539757392331011 n!"exec" .leaf)) 2018539757403331056 n!"expo" (.node (.node .leaf 2019318228022196344 n!"location" .leaf) 2019698851595136235 n!"mysql" (.node .leaf 2019698851595136240 n!"mysqli" .leaf))) 2021092198077269609 n!"character-encoding" (.node (.node (.node .leaf 2021394733763848730 n!"android-recyclerview" .leaf) 2022921706076109481 n!"ssrs-2008" (.node .leaf 2023136729673874783 n!"flash-builder" .leaf)) 2024354930060012328 n!"standards" (.node (.node .leaf 2025524580908545618 n!"xamarin.android" .leaf) 2026018508303298577 n!"unique" .leaf))))) 2026021508325298568 n!"unity3d" (.node (.node (.node (.node (.node (.node .leaf 2026095379259677361 n!"angularjs-ng-repeat" .leaf) 2028685047849902747 n!"windows-services" (.node .leaf 2029079245564789349 n!"transactions" .leaf)) 2030159346277081340 n!"widget" (.node (.node .leaf 2030892192224864020 n!"average" .leaf) 2031618002239459755 n!"animation" (.node .leaf 2032512669199517147 n!"performance" .leaf))) 2034404570329515688 n!"symbols" (.node (.node (.node .leaf 2034535691663349545 n!"stripe-payments" .leaf) 2035952657685608906 n!"coding-style" (.node .leaf 2037655171971289240 n!"arraylist" .leaf)) 2038457408206991825 n!"pass-by-reference" (.node (.node .leaf 2038806192741911838 n!"generics" .leaf) 2038988859242351205 n!"architecture" (.node .leaf 2039255939769874737 n!"hadoop" .leaf)))) 2039953795429111186 n!"overriding" (.node (.node (.node (.node .leaf 2041403026542476727 n!"elixir" .leaf) 2042810470457494332 n!"vector" (.node .leaf 2043253840751413884 n!"jbutton" .leaf)) 2043564263331047495 n!"alignment" (.node (.node .leaf 2044136698820054028 n!"message" .leaf) 2044327747835273504 n!"asp.net-core-webapi" (.node .leaf 2044411926040366310 n!"collections" .leaf))) 2045110342812790245 n!"codeblocks" (.node (.node (.node .leaf 2046822581208423839 n!"icons" .leaf) 2047019947606044150 n!"character" (.node .leaf 2048131676357691014 n!"powerpoint" .leaf)) 2048223765472898691 n!"drupal-6" (.node (.node .leaf 2048223765472898692 n!"drupal-7" .leaf) 2049084785844454696 n!"linq-to-xml" .leaf)))) 2050087784955559114 n!"android-layout" (.node (.node (.node (.node (.node .leaf 2050602236375363206 n!"polymorphism" .leaf) 2050850788183466957 n!"web-crawler" (.node .leaf 2050986672954019271 n!"react-redux" .leaf)) 2051072176919874849 n!"intellisense" (.node (.node .leaf 2051697798076966526 n!"uitableview" .leaf) 2051876541238300977 n!"google-cloud-dataflow" (.node .leaf 2052840925227855274 n!"sequence" .leaf))) 2053635191096689268 n!"sql-server" (.node (.node (.node .leaf 2054840749156744785 n!"metadata" .leaf) 2055599182442986661 n!"performance-testing" (.node .leaf 2055680276427093929 n!"npm" .leaf)) 2055905332346307531 n!"twitter" (.node (.node .leaf 2059004099665386723 n!"generics" .leaf) 2059319118859940104 n!"async-await" (.node .leaf 2059937313668002076 n!"concurrency" .leaf)))) 2061482038691768900 n!"cypher" (.node (.node (.node (.node .leaf 2062682224187091693 n!"dependencies" .leaf) 2062848952732093681 n!"swift" (.node .leaf 2062848952733093682 n!"swift2" .leaf)) 2062848952733093683 n!"swift2" (.node (.node .leaf 2062848952733093684 n!"swift2" .leaf) 2062848952734093685 n!"swift3" (.node .leaf 2062848952734093686 n!"swift3" .leaf))) 2062848952800093940 n!"swiftui" (.node (.node (.node .leaf 2064115518123303724 n!"adapter" .leaf) 2064945237968383100 n!"excel-vba" (.node .leaf 2065457920941979157 n!"mod-rewrite" .leaf)) 2065541273023687608 n!"linq" (.node (.node .leaf 2066483459457880042 n!"opengl-es-2.0" .leaf) 2066792511408377806 n!"web" .leaf)))))

/-- Part of `soTree`. -/
def soTree29 : Tree :=
  .node (.node (.node (.node (.node (.node (.node .leaf 2068230176582094034 n!"token" .leaf) 2068240176640094112 n!"touch" (.node .leaf 2069017008722427731 n!"activerecord" .leaf)) 2071101681168493593 n!"momentjs" (.node (.node .leaf 2071434905157641202 n!"duplicates" .leaf) 2073842328891704808 n!"jtable" (.node .leaf 2074816667063732981 n!"jsf-2" .leaf))) 2074825667177733306 n!"jsonp" (.node (.node (.node .leaf 2074825667184733327 n!"jsoup" .leaf) 2076118660369163378 n!"apache-zookeeper" (.node .leaf 2077721638152954132 n!"enums" .leaf)) 2078516872099063289 n!"kendo-ui" (.node (.node .leaf 2078520872120063320 n!"keras" .leaf) 2079117394619110431 n!"android-edittext" (.node .leaf 2082340078253351128 n!"cakephp" .leaf)))) 2082795248079787617 n!"ionic2" (.node (.node (.node (.node .leaf 2082795248079787618 n!"ionic3" .leaf) 2082795248079787619 n!"ionic4" (.node .leaf 2082855233380740437 n!"websphere" .leaf)) 2082939766328860909 n!".net" (.node (.node .leaf 2083205279777428592 n!"dictionary" .leaf) 2084231380157398035 n!"authorization" (.node .leaf 2085022206904202253 n!"css-float" .leaf))) 2085471004278372943 n!"customization" (.node (.node (.node .leaf 2087371567313733399 n!"printing" .leaf) 2087371567318733407 n!"prism" (.node .leaf 2087377567359733488 n!"proxy" .leaf)) 2087877190846111672 n!"xss" (.node (.node .leaf 2088801643694033300 n!"sequelize.js" .leaf) 2090621369948335902 n!"wordpress" (.node .leaf 2090906124917377482 n!"client" .leaf))))) 2091006700241940735 n!"node.js" (.node (.node (.node (.node (.node .leaf 2091039750258839034 n!"access-vba" .leaf) 2091735681626588682 n!"python-asyncio" (.node .leaf 2092709255609060542 n!"gmail" .leaf)) 2092709255616060570 n!"google-maps" (.node (.node .leaf 2092951803811213193 n!"codeigniter" .leaf) 2094172355089000648 n!"binding" (.node .leaf 2095776935643436413 n!"amazon-redshift" .leaf))) 2097139814248964472 n!"performance" (.node (.node (.node .leaf 2097455627256264328 n!"dll" .leaf) 2097672355834157552 n!"optimization" (.node .leaf 2098783156774022282 n!"typescript" .leaf)) 2099283373553752376 n!"performance" (.node (.node .leaf 2099597024890150242 n!"pickle" .leaf) 2099604561667134020 n!"visual-studio-code" (.node .leaf 2100193987827943842 n!"widget" .leaf)))) 2100653790481824502 n!"list-comprehension" (.node (.node (.node (.node .leaf 2101002729461248560 n!"localization" .leaf) 2101053729816249168 n!"ldap" (.node .leaf 2101054729840249234 n!"less" .leaf)) 2101058729859249241 n!"line" (.node (.node .leaf 2101058729859249247 n!"hyperlink" .leaf) 2101058729859249253 n!"linq" (.node .leaf 2101058729864249267 n!"lisp" .leaf))) 2101058729864249271 n!"list" (.node (.node (.node .leaf 2101061729885249300 n!"llvm" .leaf) 2101064729882249255 n!"load" (.node .leaf 2101064729884249268 n!"locking" .leaf)) 2101064729888249288 n!"logging" (.node (.node .leaf 2101064729896249309 n!"loops" .leaf) 2101068729925249357 n!"lstm" .leaf))))) 2101073729948249380 n!"lxml" (.node (.node (.node (.node (.node (.node .leaf 2101896803959906408 n!"forms-authentication" .leaf) 2102478425004278895 n!"json" (.node .leaf 2102690231364011048 n!"teradata" .leaf)) 2102850905491915108 n!"httpwebrequest" (.node (.node .leaf 2105477293276227434 n!"css-position" .leaf) 2105899971605093235 n!"triggers" (.node .leaf 2106209702697002303 n!"uiimagepickercontroller" .leaf))) 2106266903604052885 n!"corona" (.node (.node (.node .leaf 2106363040371859935 n!"vuetify.js" .leaf) 2106628248357444792 n!"dependency-injection" (.node .leaf 2107334535487740627 n!"ios4" .leaf)) 2108568825093776630 n!"frontend" (.node (.node .leaf 2108943021310504622 n!"windows-installer" .leaf) 2109593882558563997 n!"anchor" (.node .leaf 2110495323482430162 n!"return" .leaf)))) 2112312143046279441 n!"process" (.node (.node (.node (.node .leaf 2113117448668012027 n!"byte" .leaf) 2117023766796846727 n!"rotation" (.node .leaf 2118458577830234168 n!"asp.net-mvc" .leaf)) 2118459577819234143 n!"asp.net" (.node (.node .leaf 2120159399388122111 n!"user-controls" .leaf) 2120796218753506032 n!"exchange-server" (.node .leaf 2121179181888743451 n!"visual-studio-2010" .leaf))) 2121184181903743453 n!"visual-studio-2015" (.node (.node (.node .leaf 2122915279784585485 n!"google-visualization" .leaf) 2124092214523057437 n!"multiple-columns" (.node .leaf 2124859561854223176 n!"duplicates" .leaf)) 2125058130732763385 n!"database" (.node (.node .leaf 2126103127733951653 n!"jquery" .leaf) 2127408183674145718 n!"win-universal-app" .leaf)))) 2127443172667121797 n!"javabeans" (.node (.node (.node (.node (.node .leaf 2127810873724547147 n!"windows-7" .leaf) 2127854998492736382 n!"networking" (.node .leaf 2127854998492736387 n!"networkx" .leaf)) 2128058779276265603 n!"datepicker" (.node (.node .leaf 2129142759979071346 n!"gis" .leaf) 2129679141200740226 n!"express" (.node .leaf 2129942465129639756 n!"vbscript" .leaf))) 2131045240181234535 n!"encoding" (.node (.node (.node .leaf 2131117660211031557 n!"generator" .leaf) 2131294852558773462 n!"vuejs2" (.node .leaf 2132238718476953262 n!"interface-builder" .leaf)) 2132573687207520125 n!"inputstream" (.node (.node .leaf 2132705892802704833 n!"react-native" .leaf) 2133032483473583795 n!"firebase" (.node .leaf 2133040483520583863 n!"firebird" .leaf)))) 2133330401199570470 n!"google-visualization" (.node (.node (.node (.node .leaf 2133363311344786098 n!"coding-style" .leaf) 2134739781772521392 n!"guice" (.node .leaf 2135062034734313263 n!"timeout" .leaf)) 2135067034744313235 n!"html" (.node (.node .leaf 2135727903479886263 n!"aurelia" .leaf) 2136523633750427610 n!"google-cloud-firestore" (.node .leaf 2136778499487132632 n!"upgrade" .leaf))) 2137149166171917659 n!"mocking" (.node (.node (.node .leaf 2137149166177917685 n!"mockito" .leaf) 2137346938171935781 n!"internet-explorer" (.node .leaf 2138864094247874320 n!"lambda" .leaf)) 2139222744095723805 n!"xmlhttprequest" (.node (.node .leaf 2140096241293287812 n!"compression" .leaf) 2142662420250810831 n!"autocomplete" .leaf)))))

/-- Part of `soTree`. -/
def soTree30 : Tree :=
  .node (.node (.node (.node (.node (.node (.node .leaf 2144530771315930745 n!"google-bigquery" .leaf) 2145492288795900733 n!"datagrid" (.node .leaf 2147764231363858747 n!"command-line" .leaf)) 2148064102730400080 n!"azure-devops" (.node (.node .leaf 2148261899396041999 n!"stripe-payments" .leaf) 2148485944395981366 n!"emacs" (.node .leaf 2148485944401981377 n!"email" .leaf))) 2148486944403981366 n!"embed" (.node (.node (.node .leaf 2148486944403981380 n!"ember.js" .leaf) 2151312454519661484 n!"code-coverage" (.node .leaf 2152210200805790470 n!"functional-programming" .leaf)) 2153181946982969682 n!"compression" (.node (.node .leaf 2154411259833152378 n!"material-ui" .leaf) 2155686939507334878 n!"relationship" (.node .leaf 2155700851703532413 n!"out-of-memory" .leaf)))) 2156786351642907258 n!"cryptography" (.node (.node (.node (.node .leaf 2158302944640589091 n!"kernel" .leaf) 2160024136290351235 n!"jasper-reports" (.node .leaf 2160399056077069117 n!"makefile" .leaf)) 2160526139483406021 n!"locale" (.node (.node .leaf 2162806265156836891 n!"ruby-on-rails-3.1" .leaf) 2162806265156836892 n!"ruby-on-rails-3.2" (.node .leaf 2163431028559834693 n!"precision" .leaf))) 2164348587125390343 n!"sql-injection" (.node (.node (.node .leaf 2166891332575132820 n!"duplicates" .leaf) 2167121630072045269 n!"legend" (.node .leaf 2167387032006231010 n!"ip-address" .leaf)) 2167637335176620772 n!"dialogflow" (.node (.node .leaf 2167644335229620884 n!"apply" .leaf) 2168064568983291253 n!"phonegap-plugins" (.node .leaf 2168143583663569398 n!"local-storage" .leaf))))) 2168843611254437488 n!"karma-runner" (.node (.node (.node (.node (.node .leaf 2168978150325783270 n!"magento" .leaf) 2169908539866651705 n!"matplotlib" (.node .leaf 2169913539915651761 n!"pyqt4" .leaf)) 2169913539915651762 n!"pyqt5" (.node (.node .leaf 2171947166894009819 n!"string-formatting" .leaf) 2172193774160436711 n!"aggregation-framework" (.node .leaf 2172938676346360254 n!"stripe-payments" .leaf))) 2173251487495231573 n!"xmpp" (.node (.node (.node .leaf 2174979750159057276 n!"onclick" .leaf) 2176395843497393882 n!"session-cookies" (.node .leaf 2177866677978542093 n!"knockout.js" .leaf)) 2178413384397473063 n!"foreach" (.node (.node .leaf 2179736816771967794 n!"recaptcha" .leaf) 2180844455733482593 n!"settings" (.node .leaf 2181601345441076996 n!"primary-key" .leaf)))) 2181656347478455065 n!".net-core" (.node (.node (.node (.node .leaf 2181767125046012261 n!"soapui" .leaf) 2181846362250384688 n!"big-o" (.node .leaf 2182848939549899092 n!"visual-studio-2013" .leaf)) 2182848939549899094 n!"visual-studio-2013" (.node (.node .leaf 2183032886607548510 n!"migration" .leaf) 2183383380243041809 n!"automated-tests" (.node .leaf 2183584702364167534 n!"sass" .leaf))) 2183584702367167529 n!"save" (.node (.node (.node .leaf 2183586702360167504 n!"version-control" .leaf) 2183586702376167552 n!"sass" (.node .leaf 2183588702389167573 n!"set" .leaf)) 2183589702395167579 n!"sftp" (.node (.node .leaf 2183592702419167613 n!"size" .leaf) 2183595702426167625 n!"performance" .leaf))))) 2183596702437167642 n!"smtp" (.node (.node (.node (.node (.node (.node .leaf 2183598702430167603 n!"soap" .leaf) 2183598702441167638 n!"solr" (.node .leaf 2183598702447167658 n!"sorting" .leaf)) 2183599702436167610 n!"html" (.node (.node .leaf 2183602702454167642 n!"ssas" .leaf) 2183602702462167666 n!"ssis" (.node .leaf 2183602702466167678 n!"ssms" .leaf))) 2183602702471167693 n!"reporting-services" (.node (.node (.node .leaf 2183605702478167694 n!"svg" .leaf) 2183608702503167719 n!"synchronization" (.node .leaf 2184087871187938876 n!"rest" .leaf)) 2184092871222938939 n!"rest" (.node (.node .leaf 2184489426054512231 n!"console" .leaf) 2184931651134699732 n!"printf" (.node .leaf 2185701046927150203 n!"mime-types" .leaf)))) 2185856517163658716 n!"phpmyadmin" (.node (.node (.node (.node .leaf 2186380801999519471 n!"ubuntu" .leaf) 2187387672707765063 n!"file-io" (.node .leaf 2187701183166222496 n!"gradle" .leaf)) 2187706183196222555 n!"grails" (.node (.node .leaf 2187713183234222606 n!"graph" .leaf) 2188914616678038434 n!"css" (.node .leaf 2189376837793430619 n!"css-animations" .leaf))) 2189548229003738248 n!"typeerror" (.node (.node (.node .leaf 2189756382262537714 n!"exception" .leaf) 2190304516908224084 n!"package" (.node .leaf 2191055751599190344 n!"apache-spark-sql" .leaf)) 2194780684812832709 n!"arrays" (.node (.node .leaf 2194846115578197730 n!"project" .leaf) 2197273709353332333 n!"naming-conventions" .leaf)))) 2197936397431688468 n!"encryption" (.node (.node (.node (.node (.node .leaf 2199324626053260246 n!"crash" .leaf) 2199324626057260262 n!"web-crawler" (.node .leaf 2199893912377560792 n!"sql-server-2005" .leaf)) 2199893912377560795 n!"sql-server-2008" (.node (.node .leaf 2199893912378560796 n!"sql-server-2016" .leaf) 2200782303609942248 n!"meteor" (.node .leaf 2201107884095578711 n!"in-app-purchase" .leaf))) 2202434639218890368 n!"android" (.node (.node (.node .leaf 2203028215850055176 n!"javascript" .leaf) 2204047132790634037 n!"oop" (.node .leaf 2205294978392076236 n!"pyinstaller" .leaf)) 2205848753078423295 n!"android-volley" (.node (.node .leaf 2206130085467360522 n!"geometry" .leaf) 2206589697099223753 n!"asp.net-identity" (.node .leaf 2207120211687338341 n!"postgresql" .leaf)))) 2207717233339292413 n!"facebook-opengraph" (.node (.node (.node (.node .leaf 2208078932007276487 n!"azure-devops" .leaf) 2208607380553848772 n!"file-upload" (.node .leaf 2208709344914750033 n!"user-interface" .leaf)) 2209202629502884515 n!"xamarin.forms" (.node (.node .leaf 2209451393935632559 n!"entity-framework" .leaf) 2210341004314929741 n!"terminal" (.node .leaf 2211549220226479383 n!"compiler-construction" .leaf))) 2211553220246479395 n!"compilation" (.node (.node (.node .leaf 2211899832550746339 n!"refactoring" .leaf) 2212910258429447503 n!"load-balancing" (.node .leaf 2215757195221252223 n!"coordinates" .leaf)) 2216150264377677138 n!"less" (.node (.node .leaf 2217631884075999002 n!"binary" .leaf) 2218165921775388479 n!"enzyme" .leaf)))))

/-- Part of `soTree`. -/
def soTree31 : Tree :=
  .node (.node (.node (.node (.node (.node (.node .leaf 2219934194071152415 n!"solr" .leaf) 2219949040620366411 n!"assembly" (.node .leaf 2220748175377620313 n!"sql-server-2008-r2" .leaf)) 2221541396487391167 n!"richtextbox" (.node (.node .leaf 2221737046182165532 n!"decimal" .leaf) 2221935350574131114 n!"delphi" (.node .leaf 2222443611816371855 n!"hibernate" .leaf))) 2224259094983571495 n!"google-maps-android-api-2" (.node (.node (.node .leaf 2225669968887622684 n!"realm" .leaf) 2226413817441680615 n!"intellij-idea" (.node .leaf 2228095341839248393 n!"service" .leaf)) 2228112823903442541 n!"analytics" (.node (.node .leaf 2228803274293478717 n!"deserialization" .leaf) 2229211863326173103 n!"design-patterns" (.node .leaf 2229926551782563151 n!"protractor" .leaf)))) 2230380490845439701 n!"static" (.node (.node (.node (.node .leaf 2230620593439816112 n!"profiling" .leaf) 2231404872748657694 n!"django-templates" (.node .leaf 2233849713011198332 n!"fullscreen" .leaf)) 2234888288677330561 n!"passenger" (.node (.node .leaf 2235170131746440240 n!"asp.net-core" .leaf) 2236823152761724362 n!"architecture" (.node .leaf 2237174361450730386 n!"react-navigation" .leaf))) 2237384031427043789 n!"facebook-opengraph" (.node (.node (.node .leaf 2237886171027706056 n!"duplicates" .leaf) 2240341579912939347 n!"debugging" (.node .leaf 2240684935570312948 n!"scrollview" .leaf)) 2243107906813163835 n!"stanford-nlp" (.node (.node .leaf 2243948640841710599 n!"swing" .leaf) 2244394792153012817 n!"code-generation" .leaf)))) 2245096257699939945 n!"sharedpreferences" (.node (.node (.node (.node (.node .leaf 2246346253984410406 n!"try-catch" .leaf) 2246676741793091357 n!"amazon" (.node .leaf 2248221016045042550 n!"transactions" .leaf)) 2248231016107042644 n!"tsql" (.node (.node .leaf 2248298263315629411 n!"twitter" .leaf) 2248333038078924312 n!"actionbarsherlock" (.node .leaf 2249480579245564644 n!"simplexml" .leaf))) 2249565378665550850 n!"monads" (.node (.node (.node .leaf 2249571378712550922 n!"mongodb" .leaf) 2250163307684539071 n!"async-await" (.node .leaf 2250181307802539198 n!"amazon-s3" .leaf)) 2251332351664092816 n!"controller" (.node (.node .leaf 2251965858171502942 n!"null" .leaf) 2252106366814672178 n!"unity3d" (.node .leaf 2253342904449461613 n!"ios5" .leaf)))) 2253428030130342475 n!"ios5" (.node (.node (.node (.node .leaf 2253978793166504369 n!".net-3.5" .leaf) 2253978793167504367 n!".net-4.0" (.node .leaf 2254624308411294137 n!"printf" .leaf)) 2254630308432294159 n!"sprite" (.node (.node .leaf 2255083312488298735 n!"async-await" .leaf) 2255826457076362222 n!"sms" (.node .leaf 2255841286624824763 n!"initialization" .leaf))) 2256073459276113876 n!"ubuntu" (.node (.node (.node .leaf 2257833046504339529 n!"azure-pipelines" .leaf) 2258138888637593528 n!"iframe" (.node .leaf 2258243463995156859 n!"timer" .leaf)) 2258750956598037476 n!"uiviewcontroller" (.node (.node .leaf 2260046730448263289 n!"mobile-safari" .leaf) 2260952208616064851 n!"arrays" .leaf))))) 2260961357041391569 n!"for-loop" (.node (.node (.node (.node (.node (.node .leaf 2263272937508037826 n!"tableview" .leaf) 2264021102009244328 n!"action" (.node .leaf 2264028102042244369 n!"activex" .leaf)) 2264493044797061803 n!"winforms" (.node (.node .leaf 2265811389016567994 n!"performance" .leaf) 2266122674931085876 n!"zend-framework" (.node .leaf 2266132674992085978 n!"zoom" .leaf))) 2267065171076508136 n!"reverse-engineering" (.node (.node (.node .leaf 2267557105307298263 n!"excel" .leaf) 2267865932139977415 n!"css" (.node .leaf 2270881588072569662 n!"select" .leaf)) 2271591706660636890 n!"if-statement" (.node (.node .leaf 2272147809627194523 n!"android-view" .leaf) 2272214175102544292 n!"c#" (.node .leaf 2272233175211544444 n!"razor" .leaf)))) 2272381822482230269 n!"xcode" (.node (.node (.node (.node .leaf 2274097079133798025 n!"push-notification" .leaf) 2275286108138539520 n!"mutex" (.node .leaf 2276538694448472538 n!"padding" .leaf)) 2278967313018869471 n!"nginx" (.node (.node .leaf 2280002131922683095 n!"symbols" .leaf) 2280301796272837213 n!"processing" (.node .leaf 2280902473769935927 n!"amazon-s3" .leaf))) 2282428436771705967 n!"relationship" (.node (.node (.node .leaf 2282493243675182763 n!"reporting-services" .leaf) 2284788075397544604 n!"cygwin" (.node .leaf 2284794345484034060 n!"paypal" .leaf)) 2285738483729068456 n!"observable" (.node (.node .leaf 2285948605592672939 n!"arguments" .leaf) 2286395258785659991 n!"upload" .leaf)))) 2287819008194539473 n!"stack" (.node (.node (.node (.node (.node .leaf 2287819008211539514 n!"stata" .leaf) 2287819008211539518 n!"state" (.node .leaf 2287819008211539532 n!"statistics" .leaf)) 2287822008218539521 n!"stdin" (.node (.node .leaf 2287843008347539710 n!"styles" .leaf) 2288942817334015623 n!"performance-testing" (.node .leaf 2290293783677273582 n!"dns" .leaf))) 2290728964928142965 n!"timezone" (.node (.node (.node .leaf 2291648214391827382 n!"casting" .leaf) 2291935774386199933 n!"plotly" (.node .leaf 2291964043140607244 n!"java" .leaf)) 2292567313727074631 n!"whitespace" (.node (.node .leaf 2292627425196252777 n!"backend" .leaf) 2293333204788084669 n!"wordpress" (.node .leaf 2294736799468361182 n!"printf" .leaf)))) 2296548860874889719 n!"greatest-n-per-group" (.node (.node (.node (.node .leaf 2297409199383957290 n!"buffer" .leaf) 2298712934673913464 n!"complexity-theory" (.node .leaf 2298901702573085754 n!"botframework" .leaf)) 2299323825668445166 n!"mongodb" (.node (.node .leaf 2299323825673445183 n!"mongoid" .leaf) 2299441794542709615 n!"cucumber" (.node .leaf 2299961831009303090 n!"devexpress" .leaf))) 2300097808418267545 n!"segmentation-fault" (.node (.node (.node .leaf 2300589741692975210 n!"image" .leaf) 2302390079745233230 n!"insert" (.node .leaf 2304033926043482280 n!"android-imageview" .leaf)) 2304411359216677997 n!"spring-data-jpa" (.node (.node .leaf 2304414359240678044 n!"spring-mvc" .leaf) 2304424359283678082 n!"spring-mvc" .leaf)))))

/-- The canonical of each normalized synonym, by its hash. -/
def soTree : Tree :=
  .node (.node (.node (.node (.node soTree0 34952422609927227 n!"sql-server-2012" soTree1) 112406096062509944 n!"jquery" (.node soTree2 188613329572548561 n!"jenkins-pipeline" soTree3)) 272204175090544281 n!"c#" (.node (.node soTree4 359635329559129063 n!"azure-functions" soTree5) 447091182533897254 n!"apache" (.node soTree6 519189733322438727 n!"electron" soTree7))) 593643017414233497 n!"stored-procedures" (.node (.node (.node soTree8 672565418193346526 n!"app-store-connect" soTree9) 735180051803461095 n!"sorting" (.node soTree10 810509144238205296 n!"variable-assignment" soTree11)) 886901126304927093 n!"mocha" (.node (.node soTree12 969620524032015492 n!"shader" soTree13) 1000112000762001410 n!"user-interface" (.node soTree14 1000125000838001534 n!"csv" soTree15)))) 1037664320406615964 n!"fortran" (.node (.node (.node (.node soTree16 1114350833869770003 n!"terminal" soTree17) 1186536437827338224 n!"asp.net-mvc-3" (.node soTree18 1276290691357967457 n!"compiler-errors" soTree19)) 1353489657514878864 n!"dataframe" (.node (.node soTree20 1423712021134827841 n!"google-tag-manager" soTree21) 1490659295668707435 n!"iteration" (.node soTree22 1571934684034779711 n!"wait" soTree23))) 1655309102739102948 n!"decorator" (.node (.node (.node soTree24 1730719876590760770 n!"routes" soTree25) 1816259924263575362 n!"microsoft-edge" (.node soTree26 1889125435068604529 n!"http-post" soTree27)) 1977427058832752910 n!"ansible" (.node (.node soTree28 2067354396864122290 n!"generics" soTree29) 2144162069022500611 n!"mysql" (.node soTree30 2219860107217314903 n!"inline" soTree31))))

end Jargon
