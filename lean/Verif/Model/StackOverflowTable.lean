import Verif.Model.Text

/-! The table of filters/stackoverflow, copied from the Go source (the texts are those of the Go
literals, in the order of the file). -/

namespace Jargon

set_option maxRecDepth 10000

/-- filters/stackoverflow/generated.go:6-2995 `mappings`, part 0. -/
def soRows0 : List (Nat × Nat) := [
  (n!".bash profile, bash function, bash script, bashrc, .bashrc, bash variables, bash alias", n!"bash"),
  (n!".each", n!"each"),
  (n!".htaccess", n!".htaccess"),
  (n!".net", n!".net"),
  (n!".net 3.5", n!".net-3.5"),
  (n!".net 4.0", n!".net-4.0"),
  (n!".net 4.5", n!".net-4.5"),
  (n!".net 4.5.1, .net 4.5.2", n!".net-4.5"),
  (n!".net assembly", n!".net-assembly"),
  (n!".net async await, async ctp, await", n!"async-await"),
  (n!".net cf, cf.net", n!"compact-framework"),
  (n!".net core", n!".net-core"),
  (n!".net framework 3.5", n!".net-3.5"),
  (n!".net framework 4.0, .net4", n!".net-4.0"),
  (n!".net generics, generic, java generics, swift generics, generic class, kotlin generics, scala generics", n!"generics"),
  (n!".war, war files", n!"war"),
  (n!"10g", n!"oracle10g"),
  (n!"11g", n!"oracle11g"),
  (n!"2d", n!"2d"),
  (n!"3d", n!"3d"),
  (n!"3d graphics", n!"3d"),
  (n!"404", n!"http-status-code-404"),
  (n!"64 bit", n!"64-bit"),
  (n!"64bit, x64", n!"64-bit"),
  (n!"a11y", n!"accessibility"),
  (n!"absolute positioning, relative positioning, position fixed, css positioning", n!"css-position"),
  (n!"abstract class", n!"abstract-class"),
  (n!"abstract classes", n!"abstract-class"),
  (n!"accdb, mdb, microsoft access", n!"ms-access"),
  (n!"access vba", n!"access-vba"),
  (n!"accessibility", n!"accessibility"),
  (n!"accordion", n!"accordion"),
  (n!"acegi", n!"spring-security"),
  (n!"acf", n!"advanced-custom-fields"),
  (n!"action", n!"action"),
  (n!"actionbar", n!"android-actionbar"),
  (n!"actionbarsherlock", n!"actionbarsherlock"),
  (n!"actionlistener", n!"actionlistener"),
  (n!"actions", n!"action"),
  (n!"actionscript", n!"actionscript"),
  (n!"actionscript 3", n!"actionscript-3"),
  (n!"active directory", n!"active-directory"),
  (n!"active record query, activerecord relation", n!"activerecord"),
  (n!"activeadmin", n!"activeadmin"),
  (n!"activemq", n!"activemq"),
  (n!"activerecord", n!"activerecord"),
  (n!"activex", n!"activex"),
  (n!"activity, main activity", n!"android-activity"),
  (n!"adapter", n!"adapter"),
  (n!"adb", n!"adb"),
  (n!"add", n!"add"),
  (n!"admin", n!"admin"),
  (n!"admob", n!"admob"),
  (n!"ado.net", n!"ado.net"),
  (n!"adobe", n!"adobe"),
  (n!"adobe air", n!"air"),
  (n!"adobe flex 4", n!"flex4"),
  (n!"adobe flex, flex sdk", n!"apache-flex"),
  (n!"ads", n!"ads"),
  (n!"advanced custom fields", n!"advanced-custom-fields"),
  (n!"advertising, advertisement", n!"ads"),
  (n!"aem", n!"aem"),
  (n!"aes", n!"aes"),
  (n!"afnetworking", n!"afnetworking"),
  (n!"aggregate", n!"aggregate"),
  (n!"aggregate functions", n!"aggregate-functions"),
  (n!"aggregation framework", n!"aggregation-framework"),
  (n!"ahk", n!"autohotkey"),
  (n!"ai", n!"artificial-intelligence"),
  (n!"air", n!"air"),
  (n!"airflow", n!"airflow"),
  (n!"ajax", n!"ajax"),
  (n!"ajax request, .ajax", n!"ajax"),
  (n!"akka", n!"akka"),
  (n!"alamofire", n!"alamofire"),
  (n!"alarmmanager", n!"alarmmanager"),
  (n!"alert", n!"alert"),
  (n!"alertdialog", n!"android-alertdialog"),
  (n!"alfresco", n!"alfresco"),
  (n!"algorithm", n!"algorithm"),
  (n!"algorithms, algorithm design", n!"algorithm"),
  (n!"alias", n!"alias"),
  (n!"align", n!"alignment"),
  (n!"alignment", n!"alignment"),
  (n!"amazon", n!"amazon"),
  (n!"amazon cloudformation", n!"amazon-cloudformation"),
  (n!"amazon cloudfront", n!"amazon-cloudfront"),
  (n!"amazon cognito", n!"amazon-cognito"),
  (n!"amazon dynamodb", n!"amazon-dynamodb"),
  (n!"amazon ec2", n!"amazon-ec2"),
  (n!"amazon elastic beanstalk", n!"amazon-elastic-beanstalk"),
  (n!"amazon lambda", n!"aws-lambda"),
  (n!"amazon rds", n!"amazon-rds"),
  (n!"amazon redshift", n!"amazon-redshift"),
  (n!"amazon s3", n!"amazon-s3"),
  (n!"amazon sdk", n!"aws-sdk"),
  (n!"amazon web services", n!"amazon-web-services"),
  (n!"amd64", n!"x86-64"),
  (n!"anaconda", n!"anaconda"),
  (n!"analysis services", n!"ssas"),
  (n!"analytics", n!"analytics"),
  (n!"anchor", n!"anchor"),
  (n!"android", n!"android"),
  (n!"android actionbar", n!"android-actionbar"),
  (n!"android activity", n!"android-activity"),
  (n!"android alertdialog", n!"android-alertdialog"),
  (n!"android animation", n!"android-animation"),
  (n!"android apk", n!"apk"),
  (n!"android arrayadapter", n!"android-arrayadapter"),
  (n!"android asynctask", n!"android-asynctask"),
  (n!"android broadcastreceiver", n!"broadcastreceiver"),
  (n!"android camera", n!"android-camera"),
  (n!"android canvas", n!"android-canvas"),
  (n!"android compat lib", n!"android-support-library"),
  (n!"android contentprovider", n!"android-contentprovider"),
  (n!"android custom view", n!"android-custom-view"),
  (n!"android debug bridge", n!"adb"),
  (n!"android edittext", n!"android-edittext"),
  (n!"android emulator", n!"android-emulator"),
  (n!"android fragments", n!"android-fragments"),
  (n!"android framework, android application, android ui, android device, android mobile, android api, android sdk", n!"android"),
  (n!"android gradle", n!"android-gradle-plugin"),
  (n!"android gradle plugin", n!"android-gradle-plugin"),
  (n!"android imageview", n!"android-imageview"),
  (n!"android intent", n!"android-intent"),
  (n!"android intent flags, intents, intent", n!"android-intent"),
  (n!"android layout", n!"android-layout"),
  (n!"android layout xml", n!"android-layout"),
  (n!"android linearlayout", n!"android-linearlayout"),
  (n!"android listview", n!"android-listview"),
  (n!"android manifest", n!"android-manifest"),
  (n!"android mediaplayer", n!"android-mediaplayer"),
  (n!"android navigation drawer", n!"navigation-drawer"),
  (n!"android ndk", n!"android-ndk"),
  (n!"android notifications", n!"android-notifications"),
  (n!"android permissions", n!"android-permissions"),
  (n!"android proguard", n!"proguard"),
  (n!"android recyclerview", n!"android-recyclerview"),
  (n!"android room", n!"android-room"),
  (n!"android service", n!"android-service"),
  (n!"android sharedpreferences", n!"sharedpreferences"),
  (n!"android spinner", n!"android-spinner"),
  (n!"android sqlite", n!"android-sqlite"),
  (n!"android studio", n!"android-studio"),
  (n!"android support library", n!"android-support-library"),
  (n!"android textview", n!"textview"),
  (n!"android view", n!"android-view"),
  (n!"android viewpager", n!"android-viewpager"),
  (n!"android volley", n!"android-volley"),
  (n!"android webview", n!"android-webview"),
  (n!"android widget", n!"android-widget"),
  (n!"androidstudio settings", n!"android-studio"),
  (n!"angular", n!"angular"),
  (n!"angular cli", n!"angular-cli"),
  (n!"angular material", n!"angular-material"),
  (n!"angular ui bootstrap", n!"angular-ui-bootstrap"),
  (n!"angular ui router", n!"angular-ui-router"),
  (n!"angular.js, angular1.x", n!"angularjs"),
  (n!"angular2 routing", n!"angular2-routing"),
  (n!"angular5", n!"angular5"),
  (n!"angular6", n!"angular6"),
  (n!"angular7", n!"angular7"),
  (n!"angular8", n!"angular8"),
  (n!"angularjs", n!"angularjs"),
  (n!"angularjs directive", n!"angularjs-directive"),
  (n!"angularjs ng repeat", n!"angularjs-ng-repeat"),
  (n!"angularjs scope", n!"angularjs-scope"),
  (n!"angularjs2, angular2, angular4, angular4.x", n!"angular"),
  (n!"animate, jquery animation", n!"jquery-animate"),
  (n!"animated, rotateanimation, scaleanimation, animations", n!"animation"),
  (n!"animation", n!"animation"),
  (n!"annotation", n!"annotations"),
  (n!"annotations", n!"annotations"),
  (n!"ansible", n!"ansible"),
  (n!"ansible playbook", n!"ansible"),
  (n!"ant", n!"ant"),
  (n!"antlr", n!"antlr"),
  (n!"aop", n!"aop"),
  (n!"apache", n!"apache"),
  (n!"apache airflow", n!"airflow"),
  (n!"apache ant", n!"ant"),
  (n!"apache camel", n!"apache-camel"),
  (n!"apache cassandra", n!"cassandra"),
  (n!"apache cordova", n!"cordova"),
  (n!"apache cxf", n!"cxf"),
  (n!"apache flex", n!"apache-flex"),
  (n!"apache flink", n!"apache-flink"),
  (n!"apache hadoop", n!"hadoop"),
  (n!"apache hive", n!"hive"),
  (n!"apache jmeter", n!"jmeter"),
  (n!"apache kafka", n!"apache-kafka"),
  (n!"apache nifi", n!"apache-nifi"),
  (n!"apache pig", n!"apache-pig"),
  (n!"apache poi", n!"apache-poi"),
  (n!"apache solr", n!"solr"),
  (n!"apache spark", n!"apache-spark"),
  (n!"apache spark sql", n!"apache-spark-sql"),
  (n!"apache tomcat", n!"tomcat"),
  (n!"apache zookeeper", n!"apache-zookeeper"),
  (n!"apache2", n!"apache2"),
  (n!"api", n!"api"),
  (n!"api.ai", n!"dialogflow"),
  (n!"apis", n!"api"),
  (n!"apk", n!"apk"),
  (n!"apns", n!"apple-push-notifications"),
  (n!"app store", n!"app-store"),
  (n!"app store connect", n!"app-store-connect"),
  (n!"appc", n!"appcelerator"),
  (n!"appcelerator", n!"appcelerator"),
  (n!"append", n!"append"),
  (n!"appendto", n!"append"),
  (n!"appengine, gae, google app engine java", n!"google-app-engine"),
  (n!"appium", n!"appium"),
  (n!"apple push notifications", n!"apple-push-notifications"),
  (n!"applescript", n!"applescript"),
  (n!"applet", n!"applet"),
  (n!"apply", n!"apply"),
  (n!"appstoreconnect, itunesconnect, itunes connect", n!"app-store-connect"),
  (n!"architecture", n!"architecture"),
  (n!"arduino", n!"arduino"),
  (n!"argument", n!"arguments"),
  (n!"argument passing", n!"parameter-passing"),
  (n!"arguments", n!"arguments"),
  (n!"arm", n!"arm"),
  (n!"arrayadapter", n!"android-arrayadapter"),
  (n!"arraylist", n!"arraylist"),
  (n!"arrays", n!"arrays"),
  (n!"artificial intelligence", n!"artificial-intelligence"),
  (n!"as3, as3 api", n!"actionscript-3"),
  (n!"ascii", n!"ascii"),
  (n!"asp classic", n!"asp-classic"),
  (n!"asp net mvc2, asp.net mvc2, mvc2", n!"asp.net-mvc-2"),
  (n!"asp.net", n!"asp.net"),
  (n!"asp.net ajax", n!"asp.net-ajax"),
  (n!"asp.net core", n!"asp.net-core"),
  (n!"asp.net core 2.0", n!"asp.net-core-2.0"),
  (n!"asp.net core mvc", n!"asp.net-core-mvc"),
  (n!"asp.net core webapi", n!"asp.net-core-webapi"),
  (n!"asp.net identity", n!"asp.net-identity"),
  (n!"asp.net membership", n!"asp.net-membership"),
  (n!"asp.net mvc", n!"asp.net-mvc"),
  (n!"asp.net mvc 2", n!"asp.net-mvc-2"),
  (n!"asp.net mvc 3", n!"asp.net-mvc-3"),
  (n!"asp.net mvc 3 validation, mvc3", n!"asp.net-mvc-3"),
  (n!"asp.net mvc 4", n!"asp.net-mvc-4"),
  (n!"asp.net mvc 5", n!"asp.net-mvc-5"),
  (n!"asp.net mvc 6, mvc core", n!"asp.net-core-mvc"),
  (n!"asp.net mvc routing", n!"asp.net-mvc-routing"),
  (n!"asp.net web api", n!"asp.net-web-api"),
  (n!"asp.net web api2", n!"asp.net-web-api2"),
  (n!"asp.net webforms, webform", n!"webforms"),
  (n!"asp.net website, aspx, asp net, aspdotnet", n!"asp.net"),
  (n!"aspect oriented", n!"aop"),
  (n!"aspnet core, asp.net 5, asp.net vnext, asp net core", n!"asp.net-core"),
  (n!"aspnet identity", n!"asp.net-identity"),
  (n!"aspnet mvc, aspnet.mvc, asp.net.mvc, asp mvc, asp net mvc, asp.mvc, mvc.net", n!"asp.net-mvc"),
  (n!"assembler, asm, assembly language", n!"assembly"),
  (n!"assembly", n!"assembly"),
  (n!"asset", n!"assets"),
  (n!"asset pipeline", n!"asset-pipeline"),
  (n!"assets", n!"assets"),
  (n!"assets pipeline", n!"asset-pipeline"),
  (n!"assignment", n!"variable-assignment"),
  (n!"association", n!"associations"),
  (n!"associations", n!"associations"),
  (n!"asterisk", n!"asterisk"),
  (n!"asymptotic complexity, complexity", n!"complexity-theory"),
  (n!"async await", n!"async-await"),
  (n!"asynchronous", n!"asynchronous"),
  (n!"asynchronous processing, async, asynchronously", n!"asynchronous"),
  (n!"asynctask", n!"android-asynctask"),
  (n!"atom editor", n!"atom-editor"),
  (n!"atscript", n!"typescript"),
  (n!"attribute", n!"attributes"),
  (n!"attributes", n!"attributes"),
  (n!"audio", n!"audio"),
  (n!"augmented reality", n!"augmented-reality"),
  (n!"aurelia", n!"aurelia"),
  (n!"aurelia framework, aurelia binding, aurelia navigation, aurelia router, aurelia validation, aurelia event aggregator, aurelia templating router, aurelia bundling, aurelia testing, aurelia ux, aurelia form", n!"aurelia"),
  (n!"authentication", n!"authentication"),
  (n!"authorisation", n!"authorization"),
  (n!"authorization", n!"authorization"),
  (n!"autocomplete", n!"autocomplete"),
  (n!"autocompletion, autocompleter", n!"autocomplete"),
  (n!"autofac", n!"autofac"),
  (n!"autohotkey", n!"autohotkey"),
  (n!"autolayout", n!"autolayout"),
  (n!"automapper", n!"automapper"),
  (n!"automated testing", n!"automated-tests"),
  (n!"automated tests", n!"automated-tests"),
  (n!"automatic ref counting", n!"automatic-ref-counting"),
  (n!"automation", n!"automation"),
  (n!"average", n!"average"),
  (n!"avfoundation", n!"avfoundation"),
  (n!"avg", n!"average"),
  (n!"avplayer", n!"avplayer"),
  (n!"awk", n!"awk"),
  (n!"aws", n!"amazon-web-services"),
  (n!"aws api gateway", n!"aws-api-gateway"),
  (n!"aws cloudfront, cloudfront", n!"amazon-cloudfront")]

/-- filters/stackoverflow/generated.go:6-2995 `mappings`, part 1. -/
def soRows1 : List (Nat × Nat) := [
  (n!"aws ec2, ec2", n!"amazon-ec2"),
  (n!"aws lambda", n!"aws-lambda"),
  (n!"aws rds", n!"amazon-rds"),
  (n!"aws redshift, redshift", n!"amazon-redshift"),
  (n!"aws sdk", n!"aws-sdk"),
  (n!"awt", n!"awt"),
  (n!"axios", n!"axios"),
  (n!"azure", n!"azure"),
  (n!"azure active directory", n!"azure-active-directory"),
  (n!"azure cosmosdb", n!"azure-cosmosdb"),
  (n!"azure devops", n!"azure-devops"),
  (n!"azure documentdb", n!"azure-cosmosdb"),
  (n!"azure functions", n!"azure-functions"),
  (n!"azure pipelines", n!"azure-pipelines"),
  (n!"azure sql database", n!"azure-sql-database"),
  (n!"azure storage", n!"azure-storage"),
  (n!"azure storage blobs", n!"azure-storage-blobs"),
  (n!"azure web apps, azure app service", n!"azure-web-sites"),
  (n!"azure web sites", n!"azure-web-sites"),
  (n!"azuread", n!"azure-active-directory"),
  (n!"babel", n!"babel"),
  (n!"babeljs", n!"babeljs"),
  (n!"backbone, backbonejs", n!"backbone.js"),
  (n!"backbone.js", n!"backbone.js"),
  (n!"backend", n!"backend"),
  (n!"background", n!"background"),
  (n!"background image", n!"background-image"),
  (n!"backgroundworker", n!"backgroundworker"),
  (n!"backup", n!"backup"),
  (n!"bar chart", n!"bar-chart"),
  (n!"bar graph, barplot", n!"bar-chart"),
  (n!"base64", n!"base64"),
  (n!"bash", n!"bash"),
  (n!"batch file", n!"batch-file"),
  (n!"batch process", n!"batch-processing"),
  (n!"batch processing", n!"batch-processing"),
  (n!"beans, bean", n!"javabeans"),
  (n!"beautifulsoup", n!"beautifulsoup"),
  (n!"big o", n!"big-o"),
  (n!"big theta, o notation", n!"big-o"),
  (n!"bigdata", n!"bigdata"),
  (n!"binary", n!"binary"),
  (n!"binary number, binary system", n!"binary"),
  (n!"binary search tree", n!"binary-search-tree"),
  (n!"binary tree", n!"binary-tree"),
  (n!"binary trees", n!"binary-tree"),
  (n!"bind", n!"bind"),
  (n!"binding", n!"binding"),
  (n!"bindings", n!"binding"),
  (n!"bit manipulation", n!"bit-manipulation"),
  (n!"bit twiddling, bitwise, bit fiddling", n!"bit-manipulation"),
  (n!"bitbucket", n!"bitbucket"),
  (n!"bitmap", n!"bitmap"),
  (n!"biztalk", n!"biztalk"),
  (n!"blackberry", n!"blackberry"),
  (n!"ble", n!"bluetooth-lowenergy"),
  (n!"blob", n!"blob"),
  (n!"blobs", n!"blob"),
  (n!"block", n!"block"),
  (n!"blockchain", n!"blockchain"),
  (n!"blocks", n!"block"),
  (n!"bluetooth", n!"bluetooth"),
  (n!"bluetooth lowenergy", n!"bluetooth-lowenergy"),
  (n!"bokeh", n!"bokeh"),
  (n!"bool", n!"boolean"),
  (n!"boolean", n!"boolean"),
  (n!"boost", n!"boost"),
  (n!"boost asio", n!"boost-asio"),
  (n!"bootstrap 4", n!"bootstrap-4"),
  (n!"bootstrap framework", n!"twitter-bootstrap"),
  (n!"bootstrap modal", n!"bootstrap-modal"),
  (n!"border", n!"border"),
  (n!"borders", n!"border"),
  (n!"bot", n!"bots"),
  (n!"botbuilder, botconnector", n!"botframework"),
  (n!"botframework", n!"botframework"),
  (n!"boto3", n!"boto3"),
  (n!"bots", n!"bots"),
  (n!"bourne shell", n!"sh"),
  (n!"bower", n!"bower"),
  (n!"box2d", n!"box2d"),
  (n!"branch", n!"branch"),
  (n!"branches, branching", n!"branch"),
  (n!"brew", n!"homebrew"),
  (n!"broadcastreceiver", n!"broadcastreceiver"),
  (n!"browser", n!"browser"),
  (n!"browser compatibility", n!"cross-browser"),
  (n!"browser scrollbars, scrollbars", n!"scrollbar"),
  (n!"bs4", n!"beautifulsoup"),
  (n!"bsd sockets, socket programming, socket", n!"sockets"),
  (n!"bst, binary search trees", n!"binary-search-tree"),
  (n!"buffer", n!"buffer"),
  (n!"buffers", n!"buffer"),
  (n!"build", n!"build"),
  (n!"build gradle", n!"build.gradle"),
  (n!"build.gradle", n!"build.gradle"),
  (n!"builds", n!"build"),
  (n!"bundle", n!"bundle"),
  (n!"bundler", n!"bundler"),
  (n!"button", n!"button"),
  (n!"buttons", n!"button"),
  (n!"byte", n!"byte"),
  (n!"bytearray, static array, swift array, arraycopy, javascript array, sub arrays, character arrays, jsonarray, char array, string array, mongodb arrays, array of objects, array", n!"arrays"),
  (n!"bytes", n!"byte"),
  (n!"c", n!"c"),
  (n!"c preprocessor", n!"c-preprocessor"),
  (n!"c#", n!"c#"),
  (n!"c# 3.0", n!"c#-3.0"),
  (n!"c# 4.0", n!"c#-4.0"),
  (n!"c++", n!"c++"),
  (n!"c++ cli", n!"c++-cli"),
  (n!"c++0x", n!"c++11"),
  (n!"c++11", n!"c++11"),
  (n!"c++14", n!"c++14"),
  (n!"c++17", n!"c++17"),
  (n!"c++1y", n!"c++14"),
  (n!"c++1z", n!"c++17"),
  (n!"cache, cache coherence, cached", n!"caching"),
  (n!"caching", n!"caching"),
  (n!"cake", n!"cakephp"),
  (n!"cakephp", n!"cakephp"),
  (n!"cakephp 2.0", n!"cakephp-2.0"),
  (n!"cakephp 3.0", n!"cakephp-3.0"),
  (n!"calculator", n!"calculator"),
  (n!"calendar", n!"calendar"),
  (n!"calender", n!"calendar"),
  (n!"call", n!"call"),
  (n!"callback", n!"callback"),
  (n!"callbacks", n!"callback"),
  (n!"camel", n!"apache-camel"),
  (n!"camera", n!"camera"),
  (n!"canvas", n!"canvas"),
  (n!"capistrano", n!"capistrano"),
  (n!"capybara", n!"capybara"),
  (n!"carousel", n!"carousel"),
  (n!"carrierwave", n!"carrierwave"),
  (n!"case", n!"case"),
  (n!"case expression", n!"case"),
  (n!"cassandra", n!"cassandra"),
  (n!"casting", n!"casting"),
  (n!"categories", n!"categories"),
  (n!"category", n!"categories"),
  (n!"cdi", n!"cdi"),
  (n!"cdt", n!"eclipse-cdt"),
  (n!"celery", n!"celery"),
  (n!"cell", n!"cell"),
  (n!"cells", n!"cell"),
  (n!"center", n!"center"),
  (n!"centos", n!"centos"),
  (n!"centos7", n!"centos7"),
  (n!"certificate", n!"certificate"),
  (n!"cgi", n!"cgi"),
  (n!"char", n!"char"),
  (n!"character", n!"character"),
  (n!"character encoding", n!"character-encoding"),
  (n!"characters", n!"character"),
  (n!"chars", n!"char"),
  (n!"charset table", n!"character-encoding"),
  (n!"chart.js", n!"chart.js"),
  (n!"charting controls, charting, chart", n!"charts"),
  (n!"charts", n!"charts"),
  (n!"charts.js, chartjs", n!"chart.js"),
  (n!"chat", n!"chat"),
  (n!"checkbox", n!"checkbox"),
  (n!"checkboxes", n!"checkbox"),
  (n!"chef", n!"chef"),
  (n!"chrome", n!"google-chrome"),
  (n!"chromedriver", n!"selenium-chromedriver"),
  (n!"ci", n!"continuous-integration"),
  (n!"circle", n!"geometry"),
  (n!"ckeditor", n!"ckeditor"),
  (n!"clang", n!"clang"),
  (n!"class", n!"class"),
  (n!"class loading, classloaders", n!"classloader"),
  (n!"classes", n!"class"),
  (n!"classic asp", n!"asp-classic"),
  (n!"classification", n!"classification"),
  (n!"classifier", n!"classification"),
  (n!"classloader", n!"classloader"),
  (n!"classpath", n!"classpath"),
  (n!"cli", n!"command-line-interface"),
  (n!"click", n!"click"),
  (n!"clicked", n!"click"),
  (n!"clickonce", n!"clickonce"),
  (n!"client", n!"client"),
  (n!"client server", n!"client-server"),
  (n!"clients", n!"client"),
  (n!"clipboard", n!"clipboard"),
  (n!"cljx, cljc, clj", n!"clojure"),
  (n!"clojure", n!"clojure"),
  (n!"clone", n!"clone"),
  (n!"closure", n!"closures"),
  (n!"closures", n!"closures"),
  (n!"cloud", n!"cloud"),
  (n!"cloud computing", n!"cloud"),
  (n!"cloudformation, aws cloudformation", n!"amazon-cloudformation"),
  (n!"clr", n!"clr"),
  (n!"cluster analysis", n!"cluster-analysis"),
  (n!"cluster computing", n!"cluster-computing"),
  (n!"cluster, clusters", n!"cluster-computing"),
  (n!"cmake", n!"cmake"),
  (n!"cmd", n!"cmd"),
  (n!"cmd script, batch, batch script, .bat, bat, dos batch, winbatch, windows batch, batch files", n!"batch-file"),
  (n!"cmd.exe", n!"cmd"),
  (n!"cms", n!"content-management-system"),
  (n!"cocoa", n!"cocoa"),
  (n!"cocoa touch", n!"cocoa-touch"),
  (n!"cocoa touch framework", n!"cocoa-touch"),
  (n!"cocoapods", n!"cocoapods"),
  (n!"cocos2d", n!"cocos2d-iphone"),
  (n!"cocos2d iphone", n!"cocos2d-iphone"),
  (n!"cocos2d x", n!"cocos2d-x"),
  (n!"code coverage", n!"code-coverage"),
  (n!"code generation", n!"code-generation"),
  (n!"code generator", n!"code-generation"),
  (n!"code style, programming style, coding convention, clean code, ugly code, coding standards, coding guidelines, spaghetti code, code conventions", n!"coding-style"),
  (n!"codeblocks", n!"codeblocks"),
  (n!"codeigniter", n!"codeigniter"),
  (n!"codeigniter 2", n!"codeigniter-2"),
  (n!"codeigniter 3", n!"codeigniter-3"),
  (n!"codeigniter hmvc, codeigniter routing, codeigniter form helper, codeigniter validation, codeigniter activerecord, codeigniter pagination, codeigniter url, codeigniter helpers, codeigniter hooks", n!"codeigniter"),
  (n!"codenameone", n!"codenameone"),
  (n!"coding style", n!"coding-style"),
  (n!"coffee", n!"coffeescript"),
  (n!"coffeescript", n!"coffeescript"),
  (n!"cognito, aws cognito", n!"amazon-cognito"),
  (n!"coldfusion", n!"coldfusion"),
  (n!"collection, java collections api", n!"collections"),
  (n!"collections", n!"collections"),
  (n!"collision detection", n!"collision-detection"),
  (n!"colors", n!"colors"),
  (n!"colour, colours, color", n!"colors"),
  (n!"com", n!"com"),
  (n!"combination", n!"combinations"),
  (n!"combinations", n!"combinations"),
  (n!"combobox", n!"combobox"),
  (n!"comboboxes", n!"combobox"),
  (n!"comma separated, .csv, tsv", n!"csv"),
  (n!"command", n!"command"),
  (n!"command line", n!"command-line"),
  (n!"command line arguments", n!"command-line-arguments"),
  (n!"command line interface", n!"command-line-interface"),
  (n!"command prompt", n!"command-prompt"),
  (n!"commands", n!"command"),
  (n!"comment", n!"comments"),
  (n!"comments", n!"comments"),
  (n!"common lisp", n!"common-lisp"),
  (n!"compact framework", n!"compact-framework"),
  (n!"compare", n!"compare"),
  (n!"comparison", n!"comparison"),
  (n!"compilation", n!"compilation"),
  (n!"compiler construction", n!"compiler-construction"),
  (n!"compiler error, compile errors, compile error, compilation errors, compilation error", n!"compiler-errors"),
  (n!"compiler errors", n!"compiler-errors"),
  (n!"compiler, compilers, compiler design", n!"compiler-construction"),
  (n!"compiling, compile", n!"compilation"),
  (n!"complexity theory", n!"complexity-theory"),
  (n!"component", n!"components"),
  (n!"component object model", n!"com"),
  (n!"components", n!"components"),
  (n!"composer", n!"composer-php"),
  (n!"composer php", n!"composer-php"),
  (n!"compositewpf", n!"prism"),
  (n!"comprehension", n!"list-comprehension"),
  (n!"compress, compressed, data compression, uncompress, decompress, decompression", n!"compression"),
  (n!"compression", n!"compression"),
  (n!"computer graphics, graphic", n!"graphics"),
  (n!"computer science", n!"computer-science"),
  (n!"computer vision", n!"computer-vision"),
  (n!"concatenate", n!"concatenation"),
  (n!"concatenation", n!"concatenation"),
  (n!"concurrency", n!"concurrency"),
  (n!"concurrent, concurency, concurrent programming, concurrency violation", n!"concurrency"),
  (n!"conda", n!"conda"),
  (n!"conditional statements", n!"conditional-statements"),
  (n!"conditional, conditionals, conditions, condition", n!"conditional-statements"),
  (n!"config", n!"config"),
  (n!"configuration", n!"configuration"),
  (n!"connection", n!"connection"),
  (n!"connection string", n!"connection-string"),
  (n!"connections", n!"connection"),
  (n!"connectionstrings", n!"connection-string"),
  (n!"console", n!"console"),
  (n!"console application", n!"console-application"),
  (n!"const", n!"const"),
  (n!"constant", n!"constants"),
  (n!"constants", n!"constants"),
  (n!"constraint", n!"constraints"),
  (n!"constraints", n!"constraints"),
  (n!"constructor", n!"constructor"),
  (n!"container", n!"containers"),
  (n!"containers", n!"containers"),
  (n!"content management system", n!"content-management-system"),
  (n!"contextmenu", n!"contextmenu"),
  (n!"continuous integration", n!"continuous-integration"),
  (n!"control", n!"controls"),
  (n!"controller", n!"controller"),
  (n!"controllers", n!"controller"),
  (n!"controls", n!"controls"),
  (n!"conv neural network", n!"conv-neural-network")]

/-- filters/stackoverflow/generated.go:6-2995 `mappings`, part 2. -/
def soRows2 : List (Nat × Nat) := [
  (n!"converter", n!"converter"),
  (n!"convolutional neural network", n!"conv-neural-network"),
  (n!"cookie", n!"cookies"),
  (n!"cookies", n!"cookies"),
  (n!"coordinate", n!"coordinates"),
  (n!"coordinates", n!"coordinates"),
  (n!"copy", n!"copy"),
  (n!"cordova", n!"cordova"),
  (n!"cordova plugins", n!"cordova-plugins"),
  (n!"core animation", n!"core-animation"),
  (n!"core data", n!"core-data"),
  (n!"core graphics", n!"core-graphics"),
  (n!"corona", n!"corona"),
  (n!"coronasdk", n!"corona"),
  (n!"cors", n!"cors"),
  (n!"couchbase", n!"couchbase"),
  (n!"couchdb", n!"couchdb"),
  (n!"count", n!"count"),
  (n!"counter", n!"counter"),
  (n!"coverage", n!"code-coverage"),
  (n!"cpanel", n!"cpanel"),
  (n!"cpu", n!"cpu"),
  (n!"cq5, day cq", n!"aem"),
  (n!"crash", n!"crash"),
  (n!"crashes, appcrash", n!"crash"),
  (n!"create react app", n!"create-react-app"),
  (n!"crlf", n!"newline"),
  (n!"cron", n!"cron"),
  (n!"cronjob, cronexpression, crontab", n!"cron"),
  (n!"cross browser", n!"cross-browser"),
  (n!"cross compile", n!"cross-compiling"),
  (n!"cross compiling", n!"cross-compiling"),
  (n!"cross domain", n!"cross-domain"),
  (n!"cross origin", n!"cross-domain"),
  (n!"cross platform", n!"cross-platform"),
  (n!"cross site scripting, xss prevention", n!"xss"),
  (n!"cross threading, multi threaded, threads, thread, threading, multithread", n!"multithreading"),
  (n!"crud", n!"crud"),
  (n!"cryptographic, crypto", n!"cryptography"),
  (n!"cryptography", n!"cryptography"),
  (n!"crystal reports", n!"crystal-reports"),
  (n!"crystal, crystal report, sap crystal reports", n!"crystal-reports"),
  (n!"cs", n!"computer-science"),
  (n!"csharp, c# language, c sharp, c#.net, visual c#, .cs file", n!"c#"),
  (n!"csrf", n!"csrf"),
  (n!"css", n!"css"),
  (n!"css animations", n!"css-animations"),
  (n!"css flexbox", n!"flexbox"),
  (n!"css float", n!"css-float"),
  (n!"css grid", n!"css-grid"),
  (n!"css grids", n!"css-grid"),
  (n!"css keyframes", n!"css-animations"),
  (n!"css position", n!"css-position"),
  (n!"css selectors", n!"css-selectors"),
  (n!"css transitions", n!"css-transitions"),
  (n!"css3 transitions", n!"css-transitions"),
  (n!"css3, css text shadow, css box shadow, css border radius, css border image, css text overflow, css font weight, css borders, dynamic css, css reset, cascading style sheet, css layout, css attributes, css background image, css validation, box model, style.css template file, css display, min height, min width, max height, max width, css centering, css line height, css overflow, css box model, font weight, alternate stylesheets, inline block, css menu, css classes, css height, css inheritance, css2, css columns", n!"css"),
  (n!"csv", n!"csv"),
  (n!"ctor, constructors", n!"constructor"),
  (n!"ctypes", n!"ctypes"),
  (n!"cucumber", n!"cucumber"),
  (n!"cuda", n!"cuda"),
  (n!"cuda kernel, cudamalloc", n!"cuda"),
  (n!"curl", n!"curl"),
  (n!"cursor", n!"cursor"),
  (n!"custom control", n!"custom-controls"),
  (n!"custom controls", n!"custom-controls"),
  (n!"custom routes, route", n!"routes"),
  (n!"customization", n!"customization"),
  (n!"customize, customized", n!"customization"),
  (n!"cxf", n!"cxf"),
  (n!"cxx, cpp", n!"c++"),
  (n!"cygwin", n!"cygwin"),
  (n!"cypher", n!"cypher"),
  (n!"cython", n!"cython"),
  (n!"d3.js", n!"d3.js"),
  (n!"d3v5, d3.js v4, d3v4, d3js, d3", n!"d3.js"),
  (n!"dart", n!"dart"),
  (n!"data binding", n!"data-binding"),
  (n!"data clustering, clustering", n!"cluster-analysis"),
  (n!"data science", n!"data-science"),
  (n!"data structure", n!"data-structures"),
  (n!"data structures", n!"data-structures"),
  (n!"data visualization", n!"data-visualization"),
  (n!"data.frame, dataframes, data frame", n!"dataframe"),
  (n!"data.table", n!"data.table"),
  (n!"database", n!"database"),
  (n!"database architecture, table design, database modeling, schema design", n!"database-design"),
  (n!"database connection", n!"database-connection"),
  (n!"database design", n!"database-design"),
  (n!"database migration", n!"database-migration"),
  (n!"databases, db, database structure, dbms", n!"database"),
  (n!"dataframe", n!"dataframe"),
  (n!"datagrid", n!"datagrid"),
  (n!"datagridview", n!"datagridview"),
  (n!"dataset", n!"dataset"),
  (n!"datasets", n!"dataset"),
  (n!"datasource", n!"datasource"),
  (n!"datatables", n!"datatables"),
  (n!"datatype, type, datatypes", n!"types"),
  (n!"date", n!"date"),
  (n!"datepicker", n!"datepicker"),
  (n!"datepicker ui, datapicker", n!"datepicker"),
  (n!"dates", n!"date"),
  (n!"datetime", n!"datetime"),
  (n!"datetime operation, datetime manipulation, datetime functions", n!"datetime"),
  (n!"dax", n!"dax"),
  (n!"db2", n!"db2"),
  (n!"ddd", n!"domain-driven-design"),
  (n!"debian", n!"debian"),
  (n!"debugger, debug", n!"debugging"),
  (n!"debugging", n!"debugging"),
  (n!"decimal", n!"decimal"),
  (n!"decimals", n!"decimal"),
  (n!"decode", n!"decode"),
  (n!"decorator", n!"decorator"),
  (n!"decorators", n!"decorator"),
  (n!"deep learning", n!"deep-learning"),
  (n!"default", n!"default"),
  (n!"defaults", n!"default"),
  (n!"delay", n!"delay"),
  (n!"delayed", n!"delay"),
  (n!"delegate", n!"delegates"),
  (n!"delegates", n!"delegates"),
  (n!"delphi", n!"delphi"),
  (n!"dependencies", n!"dependencies"),
  (n!"dependency", n!"dependencies"),
  (n!"dependency injection", n!"dependency-injection"),
  (n!"deploy", n!"deployment"),
  (n!"deployment", n!"deployment"),
  (n!"deserialization", n!"deserialization"),
  (n!"design patterns", n!"design-patterns"),
  (n!"devexpress", n!"devexpress"),
  (n!"devise", n!"devise"),
  (n!"devops", n!"devops"),
  (n!"di", n!"dependency-injection"),
  (n!"dialog", n!"dialog"),
  (n!"dialogflow", n!"dialogflow"),
  (n!"dialogs, dialogue, dialogbox", n!"dialog"),
  (n!"dict, map, dictionaries", n!"dictionary"),
  (n!"dictionary", n!"dictionary"),
  (n!"diff", n!"diff"),
  (n!"digital certificate, certificates", n!"certificate"),
  (n!"directories, dir, folders, folder", n!"directory"),
  (n!"directory", n!"directory"),
  (n!"directx", n!"directx"),
  (n!"discord", n!"discord"),
  (n!"discord.js", n!"discord.js"),
  (n!"distance", n!"distance"),
  (n!"distinct", n!"distinct"),
  (n!"django", n!"django"),
  (n!"django admin", n!"django-admin"),
  (n!"django fields, django imagefield", n!"django-models"),
  (n!"django forms", n!"django-forms"),
  (n!"django formsets, django modelforms, django modelform, django modelformsets", n!"django-forms"),
  (n!"django models", n!"django-models"),
  (n!"django queries, queryset", n!"django-queryset"),
  (n!"django queryset", n!"django-queryset"),
  (n!"django rest framework", n!"django-rest-framework"),
  (n!"django template tags", n!"django-templates"),
  (n!"django templates", n!"django-templates"),
  (n!"django views", n!"django-views"),
  (n!"dll", n!"dll"),
  (n!"dll hell, dynamic link library, .dll, dlls", n!"dll"),
  (n!"dnd, drag drop", n!"drag-and-drop"),
  (n!"dns", n!"dns"),
  (n!"docker", n!"docker"),
  (n!"docker compose", n!"docker-compose"),
  (n!"dockerfile", n!"dockerfile"),
  (n!"docs", n!"documentation"),
  (n!"doctrine", n!"doctrine"),
  (n!"doctrine orm", n!"doctrine-orm"),
  (n!"doctrine2", n!"doctrine-orm"),
  (n!"documentation", n!"documentation"),
  (n!"docusign", n!"docusignapi"),
  (n!"docusignapi", n!"docusignapi"),
  (n!"dojo", n!"dojo"),
  (n!"dojo.data, dojo require, dojo.stateful, dojo layer, dojo store, dojox, dijit", n!"dojo"),
  (n!"dom", n!"dom"),
  (n!"dom events", n!"dom-events"),
  (n!"domain driven design", n!"domain-driven-design"),
  (n!"domains, domain", n!"dns"),
  (n!"dot net, dotnet, .net framework", n!".net"),
  (n!"dotnetcore, dotnet core", n!".net-core"),
  (n!"dotnetnuke", n!"dotnetnuke"),
  (n!"dotnetnuke settings, dotnetnuke module, dnn, evoq", n!"dotnetnuke"),
  (n!"double", n!"double"),
  (n!"double precision, floating point precision, numeric precision, finite precision", n!"precision"),
  (n!"download", n!"download"),
  (n!"downloading, downloads, file download", n!"download"),
  (n!"dplyr", n!"dplyr"),
  (n!"drag and drop", n!"drag-and-drop"),
  (n!"draggable", n!"draggable"),
  (n!"draw", n!"draw"),
  (n!"drawing", n!"drawing"),
  (n!"drf", n!"django-rest-framework"),
  (n!"driver", n!"driver"),
  (n!"drivers", n!"driver"),
  (n!"drools", n!"drools"),
  (n!"drop down menu", n!"drop-down-menu"),
  (n!"dropbox", n!"dropbox"),
  (n!"dropdown", n!"dropdown"),
  (n!"dropdownlist, selectbox", n!"drop-down-menu"),
  (n!"drracket, drscheme, plt scheme", n!"racket"),
  (n!"drupal", n!"drupal"),
  (n!"drupal 6", n!"drupal-6"),
  (n!"drupal 7", n!"drupal-7"),
  (n!"dsp, digital signal processing", n!"signal-processing"),
  (n!"duplicate removal, duplication, duplicate content, duplicate detection, duplicate data, deduplication, ignore duplicates, no duplicates, duplicate, duplicate entry", n!"duplicates"),
  (n!"duplicates", n!"duplicates"),
  (n!"dynamic", n!"dynamic"),
  (n!"dynamic programming", n!"dynamic-programming"),
  (n!"dynamics crm", n!"dynamics-crm"),
  (n!"dynamics crm 2011", n!"dynamics-crm-2011"),
  (n!"dynamodb", n!"amazon-dynamodb"),
  (n!"e commerce", n!"e-commerce"),
  (n!"each", n!"each"),
  (n!"echo", n!"echo"),
  (n!"eclipse", n!"eclipse"),
  (n!"eclipse cdt", n!"eclipse-cdt"),
  (n!"eclipse plugin", n!"eclipse-plugin"),
  (n!"eclipse plugin dev, eclipse plugins", n!"eclipse-plugin"),
  (n!"eclipse rcp", n!"eclipse-rcp"),
  (n!"eclipselink", n!"eclipselink"),
  (n!"ecmascript 2015, es2015, es6 harmony, es6", n!"ecmascript-6"),
  (n!"ecmascript 6", n!"ecmascript-6"),
  (n!"ecommerce", n!"e-commerce"),
  (n!"edge browser", n!"microsoft-edge"),
  (n!"editor", n!"editor"),
  (n!"edittext", n!"android-edittext"),
  (n!"ef code first", n!"ef-code-first"),
  (n!"ef4", n!"entity-framework-4"),
  (n!"ejb", n!"ejb"),
  (n!"ejs", n!"ejs"),
  (n!"elastic", n!"elasticsearch"),
  (n!"elastic beanstalk, aws elasticbeanstalk, beanstalk", n!"amazon-elastic-beanstalk"),
  (n!"elasticsearch", n!"elasticsearch"),
  (n!"electron", n!"electron"),
  (n!"element", n!"element"),
  (n!"elements", n!"element"),
  (n!"elisp", n!"elisp"),
  (n!"elixir", n!"elixir"),
  (n!"elixir lang", n!"elixir"),
  (n!"eloquent", n!"eloquent"),
  (n!"emacs", n!"emacs"),
  (n!"emacs lisp", n!"elisp"),
  (n!"email", n!"email"),
  (n!"embed", n!"embed"),
  (n!"embedded", n!"embedded"),
  (n!"embedded linux", n!"embedded-linux"),
  (n!"embedded systems", n!"embedded"),
  (n!"ember cli", n!"ember-cli"),
  (n!"ember data", n!"ember-data"),
  (n!"ember.js", n!"ember.js"),
  (n!"emberjs, ember", n!"ember.js"),
  (n!"emulate, emulator", n!"emulation"),
  (n!"emulation", n!"emulation"),
  (n!"encoding", n!"encoding"),
  (n!"encodings", n!"encoding"),
  (n!"encrypt, decryption, decrypt, deciphering, encrypted, data encryption, cipher", n!"encryption"),
  (n!"encryption", n!"encryption"),
  (n!"entity", n!"entity"),
  (n!"entity framework", n!"entity-framework"),
  (n!"entity framework 4", n!"entity-framework-4"),
  (n!"entity framework 5", n!"entity-framework-5"),
  (n!"entity framework 6", n!"entity-framework-6"),
  (n!"entity framework 6.1, ef6", n!"entity-framework-6"),
  (n!"entity framework 7, ef core", n!"entity-framework-core"),
  (n!"entity framework core", n!"entity-framework-core"),
  (n!"enumerations, enum", n!"enums"),
  (n!"enums", n!"enums"),
  (n!"env", n!"environment-variables"),
  (n!"environment variables", n!"environment-variables"),
  (n!"enzyme", n!"enzyme"),
  (n!"erlang", n!"erlang"),
  (n!"error handling", n!"error-handling"),
  (n!"es6 promise", n!"es6-promise"),
  (n!"escape character, unescape, escaped characters, escape sequence, character escaping, string escaping, double escaping, escape, escaped", n!"escaping"),
  (n!"escaping", n!"escaping"),
  (n!"eslint", n!"eslint"),
  (n!"etl", n!"etl"),
  (n!"eval", n!"eval"),
  (n!"event", n!"events"),
  (n!"event handlers, event handler", n!"event-handling"),
  (n!"event handling", n!"event-handling"),
  (n!"events", n!"events"),
  (n!"ews, exchangews", n!"exchangewebservices"),
  (n!"excel", n!"excel"),
  (n!"excel 2007", n!"excel-2007"),
  (n!"excel 2010", n!"excel-2010"),
  (n!"excel formula", n!"excel-formula"),
  (n!"excel macro", n!"excel-vba"),
  (n!"excel vba", n!"excel-vba"),
  (n!"exception", n!"exception"),
  (n!"exceptions, exception handling, custom exceptions", n!"exception"),
  (n!"exchange", n!"exchange-server"),
  (n!"exchange server", n!"exchange-server"),
  (n!"exchangewebservices", n!"exchangewebservices"),
  (n!"exe", n!"exe"),
  (n!"exec", n!"exec")]

/-- filters/stackoverflow/generated.go:6-2995 `mappings`, part 3. -/
def soRows3 : List (Nat × Nat) := [
  (n!"executable", n!"executable"),
  (n!"expandablelistview", n!"expandablelistview"),
  (n!"expo", n!"expo"),
  (n!"export", n!"export"),
  (n!"export to csv", n!"export-to-csv"),
  (n!"express", n!"express"),
  (n!"expression", n!"expression"),
  (n!"expressions", n!"expression"),
  (n!"expressjs, express.js", n!"express"),
  (n!"ext, sencha", n!"extjs"),
  (n!"extension methods", n!"extension-methods"),
  (n!"external", n!"external"),
  (n!"externals", n!"external"),
  (n!"extjs", n!"extjs"),
  (n!"extjs4", n!"extjs4"),
  (n!"extract", n!"extract"),
  (n!"f#", n!"f#"),
  (n!"fabricjs", n!"fabricjs"),
  (n!"facebook", n!"facebook"),
  (n!"facebook fql", n!"facebook-fql"),
  (n!"facebook graph api", n!"facebook-graph-api"),
  (n!"facebook graph, graph api", n!"facebook-graph-api"),
  (n!"facebook javascript sdk", n!"facebook-javascript-sdk"),
  (n!"facebook jssdk", n!"facebook-javascript-sdk"),
  (n!"facebook like", n!"facebook-like"),
  (n!"facebook login", n!"facebook-login"),
  (n!"facebook opengraph", n!"facebook-opengraph"),
  (n!"facebook php sdk", n!"facebook-php-sdk"),
  (n!"facebook sdk ios, facebook api, facebook connect, facebook application, facebook sdk", n!"facebook"),
  (n!"fancybox", n!"fancybox"),
  (n!"faster, running time, speed, performance comparison, performance issues, slow, fast, perfomance, performance tuning, efficiency, speed up, slowness, tuning, wcf performance, linq performance, jquery performance, javascript performance, android performance, application performance, performance measurement, performance monitoring, code efficiency, slow load", n!"performance"),
  (n!"fcm", n!"firebase-cloud-messaging"),
  (n!"fetch", n!"fetch"),
  (n!"ffmpeg", n!"ffmpeg"),
  (n!"fft", n!"fft"),
  (n!"fgrep, pgrep, egrep", n!"grep"),
  (n!"field", n!"field"),
  (n!"fields", n!"field"),
  (n!"file", n!"file"),
  (n!"file io", n!"file-io"),
  (n!"file operations, fileinput, output file, input files, input file, outfile, infile, output files", n!"file-io"),
  (n!"file upload", n!"file-upload"),
  (n!"filename", n!"filenames"),
  (n!"filenames", n!"filenames"),
  (n!"files", n!"file"),
  (n!"filesystem", n!"filesystems"),
  (n!"filesystems", n!"filesystems"),
  (n!"filter", n!"filter"),
  (n!"filtering", n!"filtering"),
  (n!"filters", n!"filter"),
  (n!"find", n!"find"),
  (n!"firebase", n!"firebase"),
  (n!"firebase android", n!"firebase"),
  (n!"firebase anonymous authentication", n!"firebase-authentication"),
  (n!"firebase authentication", n!"firebase-authentication"),
  (n!"firebase cloud firestore, firebase firestore, firestore, cloud firestore", n!"google-cloud-firestore"),
  (n!"firebase cloud messaging", n!"firebase-cloud-messaging"),
  (n!"firebase database", n!"firebase-realtime-database"),
  (n!"firebase functions, firebase cloud functions", n!"google-cloud-functions"),
  (n!"firebase realtime database", n!"firebase-realtime-database"),
  (n!"firebase security", n!"firebase-security"),
  (n!"firebase storage", n!"firebase-storage"),
  (n!"firebird", n!"firebird"),
  (n!"firefox", n!"firefox"),
  (n!"firefox addon", n!"firefox-addon"),
  (n!"firefox extension", n!"firefox-addon"),
  (n!"firemonkey", n!"firemonkey"),
  (n!"firestore rules, firebase security rules, firestore security rules", n!"firebase-security"),
  (n!"fk relationship, foreign key, foreign key relationship", n!"foreign-keys"),
  (n!"flash", n!"flash"),
  (n!"flash builder", n!"flash-builder"),
  (n!"flash ide, flash player, swf, adobe flash", n!"flash"),
  (n!"flask", n!"flask"),
  (n!"flask blueprint", n!"flask"),
  (n!"flask sqlalchemy", n!"flask-sqlalchemy"),
  (n!"flex4", n!"flex4"),
  (n!"flexbox", n!"flexbox"),
  (n!"flink", n!"apache-flink"),
  (n!"float css, css clear", n!"css-float"),
  (n!"floating point", n!"floating-point"),
  (n!"fluent nhibernate", n!"fluent-nhibernate"),
  (n!"flutter", n!"flutter"),
  (n!"flutter layout", n!"flutter-layout"),
  (n!"fmx", n!"firemonkey"),
  (n!"focus", n!"focus"),
  (n!"font", n!"fonts"),
  (n!"font awesome", n!"font-awesome"),
  (n!"font face", n!"font-face"),
  (n!"fonts", n!"fonts"),
  (n!"footer", n!"footer"),
  (n!"for loop", n!"for-loop"),
  (n!"foreach", n!"foreach"),
  (n!"foreach loop, enhanced for loop", n!"foreach"),
  (n!"foreign keys", n!"foreign-keys"),
  (n!"fork", n!"fork"),
  (n!"forking", n!"fork"),
  (n!"format", n!"format"),
  (n!"formating", n!"formatting"),
  (n!"formats", n!"format"),
  (n!"formatting", n!"formatting"),
  (n!"forms", n!"forms"),
  (n!"forms authentication", n!"forms-authentication"),
  (n!"formsauthentication, form authentication", n!"forms-authentication"),
  (n!"formula", n!"formula"),
  (n!"formulas", n!"formula"),
  (n!"fortran", n!"fortran"),
  (n!"fql", n!"facebook-fql"),
  (n!"fragment", n!"fragment"),
  (n!"frame", n!"frame"),
  (n!"framework", n!"frameworks"),
  (n!"frameworks", n!"frameworks"),
  (n!"frontend", n!"frontend"),
  (n!"fsharp", n!"f#"),
  (n!"ftp", n!"ftp"),
  (n!"full text search", n!"full-text-search"),
  (n!"fullcalendar", n!"fullcalendar"),
  (n!"fullscreen", n!"fullscreen"),
  (n!"fulltext searching, fulltext, fts", n!"full-text-search"),
  (n!"function", n!"function"),
  (n!"function overloading, method overloading, overload", n!"overloading"),
  (n!"function pointers", n!"function-pointers"),
  (n!"functional", n!"functional-programming"),
  (n!"functional programming", n!"functional-programming"),
  (n!"functions, def", n!"function"),
  (n!"fxml", n!"fxml"),
  (n!"g++", n!"g++"),
  (n!"gae datastore, google datastore", n!"google-cloud-datastore"),
  (n!"gallery", n!"gallery"),
  (n!"game engine", n!"game-engine"),
  (n!"game physics", n!"game-physics"),
  (n!"garbage collection", n!"garbage-collection"),
  (n!"gc, garbage collector", n!"garbage-collection"),
  (n!"gcc", n!"gcc"),
  (n!"gcd", n!"grand-central-dispatch"),
  (n!"gce", n!"google-compute-engine"),
  (n!"gcm, android gcm", n!"google-cloud-messaging"),
  (n!"gcp, google cloud", n!"google-cloud-platform"),
  (n!"gdb", n!"gdb"),
  (n!"generator", n!"generator"),
  (n!"generators", n!"generator"),
  (n!"generics", n!"generics"),
  (n!"geographical information", n!"gis"),
  (n!"geojason", n!"geojson"),
  (n!"geojson", n!"geojson"),
  (n!"geolocation", n!"geolocation"),
  (n!"geometry", n!"geometry"),
  (n!"geospatial", n!"geospatial"),
  (n!"get", n!"get"),
  (n!"ggplot2", n!"ggplot2"),
  (n!"gis", n!"gis"),
  (n!"git", n!"git"),
  (n!"github", n!"github"),
  (n!"gitlab", n!"gitlab"),
  (n!"gitlab ci", n!"gitlab-ci"),
  (n!"gke, google container engine", n!"google-kubernetes-engine"),
  (n!"glassfish", n!"glassfish"),
  (n!"global", n!"global"),
  (n!"global variable", n!"global-variables"),
  (n!"global variables", n!"global-variables"),
  (n!"glsl", n!"glsl"),
  (n!"gmail", n!"gmail"),
  (n!"gmail api", n!"gmail-api"),
  (n!"gnu make", n!"gnu-make"),
  (n!"gnumakefiles, gnumakefile, gmake", n!"gnu-make"),
  (n!"gnuplot", n!"gnuplot"),
  (n!"go", n!"go"),
  (n!"golang, go language", n!"go"),
  (n!"google admob", n!"admob"),
  (n!"google analytics", n!"google-analytics"),
  (n!"google analytics api", n!"google-analytics-api"),
  (n!"google api", n!"google-api"),
  (n!"google api oauth", n!"google-oauth"),
  (n!"google apis", n!"google-api"),
  (n!"google app engine", n!"google-app-engine"),
  (n!"google apps script", n!"google-apps-script"),
  (n!"google bigquery", n!"google-bigquery"),
  (n!"google bigquery ml, python bigquery, bigquery ml, bigquery standard sql, bigquery", n!"google-bigquery"),
  (n!"google calendar api", n!"google-calendar-api"),
  (n!"google calendar api3, google calendar", n!"google-calendar-api"),
  (n!"google charts, google charts api, google geochart, google linechart, google chartwrapper, google organization chart, google timeline chart", n!"google-visualization"),
  (n!"google chrome", n!"google-chrome"),
  (n!"google chrome devtools", n!"google-chrome-devtools"),
  (n!"google chrome extension", n!"google-chrome-extension"),
  (n!"google cloud dataflow", n!"google-cloud-dataflow"),
  (n!"google cloud datastore", n!"google-cloud-datastore"),
  (n!"google cloud firestore", n!"google-cloud-firestore"),
  (n!"google cloud functions", n!"google-cloud-functions"),
  (n!"google cloud messaging", n!"google-cloud-messaging"),
  (n!"google cloud platform", n!"google-cloud-platform"),
  (n!"google cloud storage", n!"google-cloud-storage"),
  (n!"google collections, guava collections, google guava cache", n!"guava"),
  (n!"google compute engine", n!"google-compute-engine"),
  (n!"google drive api", n!"google-drive-api"),
  (n!"google drive, google drive sdk, google drive api v3", n!"google-drive-api"),
  (n!"google guice", n!"guice"),
  (n!"google kubernetes engine", n!"google-kubernetes-engine"),
  (n!"google mail", n!"gmail"),
  (n!"google maps", n!"google-maps"),
  (n!"google maps android api 2", n!"google-maps-android-api-2"),
  (n!"google maps api 3", n!"google-maps-api-3"),
  (n!"google maps api, gmaps", n!"google-maps"),
  (n!"google maps markers", n!"google-maps-markers"),
  (n!"google maps v3, google maps api v3", n!"google-maps-api-3"),
  (n!"google oauth", n!"google-oauth"),
  (n!"google places api", n!"google-places-api"),
  (n!"google play", n!"google-play"),
  (n!"google play services", n!"google-play-services"),
  (n!"google plus", n!"google-plus"),
  (n!"google protobuf, protobuf, protobufs", n!"protocol-buffers"),
  (n!"google recaptcha", n!"recaptcha"),
  (n!"google scripts, google script", n!"google-apps-script"),
  (n!"google services, google services json", n!"google-play-services"),
  (n!"google sheets", n!"google-sheets"),
  (n!"google sheets formula", n!"google-sheets-formula"),
  (n!"google spreadsheet, sheets", n!"google-sheets"),
  (n!"google storage", n!"google-cloud-storage"),
  (n!"google tag manager", n!"google-tag-manager"),
  (n!"google visualization", n!"google-visualization"),
  (n!"google web toolkit", n!"gwt"),
  (n!"google+", n!"google-plus"),
  (n!"gorm", n!"gorm"),
  (n!"gps", n!"gps"),
  (n!"gpu", n!"gpu"),
  (n!"gradient", n!"gradient"),
  (n!"gradients", n!"gradient"),
  (n!"gradle", n!"gradle"),
  (n!"grails", n!"grails"),
  (n!"grails hasmany, grails orm", n!"gorm"),
  (n!"grand central dispatch", n!"grand-central-dispatch"),
  (n!"graph", n!"graph"),
  (n!"graph theory", n!"graph-theory"),
  (n!"graphics", n!"graphics"),
  (n!"graphql", n!"graphql"),
  (n!"graphs", n!"graph"),
  (n!"greatest n per group", n!"greatest-n-per-group"),
  (n!"grep", n!"grep"),
  (n!"grid", n!"grid"),
  (n!"gridview", n!"gridview"),
  (n!"groovy", n!"groovy"),
  (n!"groovygrails", n!"grails"),
  (n!"group by", n!"group-by"),
  (n!"group by all, group by time interval", n!"group-by"),
  (n!"grouping", n!"grouping"),
  (n!"grunt, grunt cli", n!"gruntjs"),
  (n!"gruntjs", n!"gruntjs"),
  (n!"gson", n!"gson"),
  (n!"gst", n!"gstreamer"),
  (n!"gstreamer", n!"gstreamer"),
  (n!"gtk", n!"gtk"),
  (n!"gtk+", n!"gtk"),
  (n!"guava", n!"guava"),
  (n!"guice", n!"guice"),
  (n!"gulp", n!"gulp"),
  (n!"gunicorn", n!"gunicorn"),
  (n!"gwt", n!"gwt"),
  (n!"gz", n!"gzip"),
  (n!"gzip", n!"gzip"),
  (n!"h2", n!"h2"),
  (n!"hadoop", n!"hadoop"),
  (n!"haml", n!"haml"),
  (n!"handlebars", n!"handlebars.js"),
  (n!"handlebars.js", n!"handlebars.js"),
  (n!"handler", n!"handler"),
  (n!"handlers", n!"handler"),
  (n!"hash", n!"hash"),
  (n!"hashing, hashes, hashalgorithm, string hashing, digest", n!"hash"),
  (n!"hashmap", n!"hashmap"),
  (n!"hashmaps", n!"hashmap"),
  (n!"hashtable", n!"hashtable"),
  (n!"haskell", n!"haskell"),
  (n!"hbase", n!"hbase"),
  (n!"hdfs", n!"hdfs"),
  (n!"header", n!"header"),
  (n!"headers", n!"header"),
  (n!"heap", n!"heap"),
  (n!"height", n!"height"),
  (n!"heroku", n!"heroku"),
  (n!"hex", n!"hex"),
  (n!"hexadecimal notation, hexadecimal", n!"hex"),
  (n!"hg", n!"mercurial"),
  (n!"hibernate", n!"hibernate"),
  (n!"hide", n!"hide"),
  (n!"highcharts", n!"highcharts"),
  (n!"highmaps, highstock", n!"highcharts"),
  (n!"histogram", n!"histogram"),
  (n!"hive", n!"hive"),
  (n!"hiveql", n!"hiveql"),
  (n!"homebrew", n!"homebrew"),
  (n!"hook", n!"hook"),
  (n!"hooking, hooks", n!"hook"),
  (n!"hosting", n!"hosting"),
  (n!"hover", n!"hover"),
  (n!"hql", n!"hql"),
  (n!"href", n!"href"),
  (n!"htaccess, codeigniter htaccess", n!".htaccess"),
  (n!"html", n!"html"),
  (n!"html agility pack", n!"html-agility-pack"),
  (n!"html email", n!"html-email"),
  (n!"html form, form", n!"forms"),
  (n!"html lists", n!"html-lists")]

/-- filters/stackoverflow/generated.go:6-2995 `mappings`, part 4. -/
def soRows4 : List (Nat × Nat) := [
  (n!"html option, html.dropdownlist, select tag", n!"html-select"),
  (n!"html parsing", n!"html-parsing"),
  (n!"html select", n!"html-select"),
  (n!"html table", n!"html-table"),
  (n!"html5 canvas", n!"html5-canvas"),
  (n!"html5 video", n!"html5-video"),
  (n!"htmldocument, html dom", n!"dom"),
  (n!"htmlparser", n!"html-parsing"),
  (n!"http", n!"http"),
  (n!"http headers", n!"http-headers"),
  (n!"http post", n!"http-post"),
  (n!"http request", n!"httprequest"),
  (n!"http status code 404", n!"http-status-code-404"),
  (n!"httpclient", n!"httpclient"),
  (n!"httpd", n!"apache"),
  (n!"httprequest", n!"httprequest"),
  (n!"httpresponse", n!"httpresponse"),
  (n!"https", n!"https"),
  (n!"httpurlconnection", n!"httpurlconnection"),
  (n!"httpwebrequest", n!"httpwebrequest"),
  (n!"hyperledger", n!"hyperledger"),
  (n!"hyperledger fabric", n!"hyperledger-fabric"),
  (n!"hyperlink", n!"hyperlink"),
  (n!"i18n", n!"internationalization"),
  (n!"ia32, 80x86, ia 32, pentium", n!"x86"),
  (n!"iap", n!"in-app-purchase"),
  (n!"ibm bluemix, bluemix", n!"ibm-cloud"),
  (n!"ibm cloud", n!"ibm-cloud"),
  (n!"ibm db2", n!"db2"),
  (n!"ibm mobilefirst", n!"ibm-mobilefirst"),
  (n!"ibm mq", n!"ibm-mq"),
  (n!"ibm notes", n!"lotus-notes"),
  (n!"ibm was, ibm", n!"websphere"),
  (n!"icon", n!"icons"),
  (n!"icons", n!"icons"),
  (n!"ide", n!"ide"),
  (n!"identityserver4", n!"identityserver4"),
  (n!"ie, msie", n!"internet-explorer"),
  (n!"ie11", n!"internet-explorer-11"),
  (n!"ie7, ie7 bug, msie7", n!"internet-explorer-7"),
  (n!"ie8, msie8", n!"internet-explorer-8"),
  (n!"ie9", n!"internet-explorer-9"),
  (n!"ienumerable", n!"ienumerable"),
  (n!"if else, if else statement, if then else, if, else, if then, elseif, ifelse, if condition, if clause", n!"if-statement"),
  (n!"if statement", n!"if-statement"),
  (n!"ifft, fourier transform, fourier", n!"fft"),
  (n!"iframe", n!"iframe"),
  (n!"iframes", n!"iframe"),
  (n!"igraph", n!"igraph"),
  (n!"iis", n!"iis"),
  (n!"iis 7", n!"iis-7"),
  (n!"iis 7.5", n!"iis-7.5"),
  (n!"iis7", n!"iis-7"),
  (n!"image", n!"image"),
  (n!"image processing", n!"image-processing"),
  (n!"imagemagick", n!"imagemagick"),
  (n!"imageview", n!"imageview"),
  (n!"imap", n!"imap"),
  (n!"immutability", n!"immutability"),
  (n!"immutable, immutable class", n!"immutability"),
  (n!"import", n!"import"),
  (n!"importing, imports", n!"import"),
  (n!"in app purchase", n!"in-app-purchase"),
  (n!"include", n!"include"),
  (n!"include files, includes", n!"include"),
  (n!"index, indexes", n!"indexing"),
  (n!"indexing", n!"indexing"),
  (n!"inherit, inheritence", n!"inheritance"),
  (n!"inheritance", n!"inheritance"),
  (n!"initialization", n!"initialization"),
  (n!"initialize, initialisation, uninitialized", n!"initialization"),
  (n!"inline", n!"inline"),
  (n!"inner join", n!"inner-join"),
  (n!"inno setup", n!"inno-setup"),
  (n!"innodb", n!"innodb"),
  (n!"input", n!"input"),
  (n!"input output", n!"io"),
  (n!"inputs", n!"input"),
  (n!"inputstream", n!"inputstream"),
  (n!"insert", n!"insert"),
  (n!"insert into", n!"sql-insert"),
  (n!"inserts", n!"insert"),
  (n!"instagram", n!"instagram"),
  (n!"install", n!"install"),
  (n!"installation", n!"installation"),
  (n!"installer", n!"installer"),
  (n!"instance", n!"instance"),
  (n!"instances", n!"instance"),
  (n!"int", n!"int"),
  (n!"integer", n!"integer"),
  (n!"integers", n!"integer"),
  (n!"integration", n!"integration"),
  (n!"integration testing", n!"integration-testing"),
  (n!"integration tests", n!"integration-testing"),
  (n!"intellij 2016.1, intellij", n!"intellij-idea"),
  (n!"intellij idea", n!"intellij-idea"),
  (n!"intellisense", n!"intellisense"),
  (n!"interface", n!"interface"),
  (n!"interface builder", n!"interface-builder"),
  (n!"interfaces", n!"interface"),
  (n!"internationalization", n!"internationalization"),
  (n!"internet explorer", n!"internet-explorer"),
  (n!"internet explorer 11", n!"internet-explorer-11"),
  (n!"internet explorer 7", n!"internet-explorer-7"),
  (n!"internet explorer 8", n!"internet-explorer-8"),
  (n!"internet explorer 9", n!"internet-explorer-9"),
  (n!"interop", n!"interop"),
  (n!"interoperability", n!"interop"),
  (n!"interpolate", n!"interpolation"),
  (n!"interpolation", n!"interpolation"),
  (n!"interprocess communicatio, inter process communicat", n!"ipc"),
  (n!"inversion of control", n!"inversion-of-control"),
  (n!"io", n!"io"),
  (n!"iobserver, iobservable, rx, reactive extensions", n!"system.reactive"),
  (n!"ioc", n!"inversion-of-control"),
  (n!"ionic", n!"ionic-framework"),
  (n!"ionic framework", n!"ionic-framework"),
  (n!"ionic2", n!"ionic2"),
  (n!"ionic3", n!"ionic3"),
  (n!"ionic4", n!"ionic4"),
  (n!"ios", n!"ios"),
  (n!"ios simulator", n!"ios-simulator"),
  (n!"ios4", n!"ios4"),
  (n!"ios5", n!"ios5"),
  (n!"ios5 compatibility, iphone sdk 5.0, ios 5.0, ios5 sdk", n!"ios5"),
  (n!"ios6", n!"ios6"),
  (n!"ios7", n!"ios7"),
  (n!"ios8", n!"ios8"),
  (n!"ios9", n!"ios9"),
  (n!"ip", n!"ip"),
  (n!"ip address", n!"ip-address"),
  (n!"ipad", n!"ipad"),
  (n!"ipad sdk, ipad splitview, ipad ui", n!"ipad"),
  (n!"ipad simulator, iphone simulator", n!"ios-simulator"),
  (n!"ipc", n!"ipc"),
  (n!"iphone", n!"iphone"),
  (n!"iphone os, apple ios, ios sdk", n!"ios"),
  (n!"iphone sdk 4.0, iphone sdk 4, ios4.0.1, ios4.3, ios4.1, iphone os 4.0, iphone os 4, ios 4.0", n!"ios4"),
  (n!"iphone sdk 6.0", n!"ios6"),
  (n!"iphone sdk, iphone development, iphone app, iphone programming, iphone web, iphone ios", n!"iphone"),
  (n!"ipython", n!"ipython"),
  (n!"ipython notebook", n!"jupyter-notebook"),
  (n!"iteration", n!"iteration"),
  (n!"iterative", n!"iteration"),
  (n!"iterator", n!"iterator"),
  (n!"iterators, listiterator", n!"iterator"),
  (n!"itext", n!"itext"),
  (n!"itextpdf, itextsharp", n!"itext"),
  (n!"j2me, jme", n!"java-me"),
  (n!"jabber", n!"xmpp"),
  (n!"jackson", n!"jackson"),
  (n!"jakarta ee", n!"jakarta-ee"),
  (n!"jar", n!"jar"),
  (n!"jars, .jar", n!"jar"),
  (n!"jasmine", n!"jasmine"),
  (n!"jasper reports", n!"jasper-reports"),
  (n!"java", n!"java"),
  (n!"java 8", n!"java-8"),
  (n!"java applet, applets", n!"applet"),
  (n!"java ee, java ee web profile, jee, j2ee", n!"jakarta-ee"),
  (n!"java me", n!"java-me"),
  (n!"java native interface", n!"java-native-interface"),
  (n!"java persistence api", n!"jpa"),
  (n!"java stream", n!"java-stream"),
  (n!"java swing, javax.swing", n!"swing"),
  (n!"java util scanner", n!"java.util.scanner"),
  (n!"java.util.scanner", n!"java.util.scanner"),
  (n!"javabeans", n!"javabeans"),
  (n!"javafx", n!"javafx"),
  (n!"javafx 2", n!"javafx-2"),
  (n!"javafx 8", n!"javafx-8"),
  (n!"javamail", n!"javamail"),
  (n!"javascript", n!"javascript"),
  (n!"javascript disabled, javascript alert, javascript dom, javascript library, javascript runtime, classic javascript, ecmascript, js, .js, javascript execution, vanilla javascript, javascript module, vanilla js, vanillajs", n!"javascript"),
  (n!"javascript event", n!"javascript-events"),
  (n!"javascript events", n!"javascript-events"),
  (n!"javascript objects", n!"javascript-objects"),
  (n!"javascriptobject", n!"javascript-objects"),
  (n!"javax.mail", n!"javamail"),
  (n!"jax rs", n!"jax-rs"),
  (n!"jax ws", n!"jax-ws"),
  (n!"jaxb", n!"jaxb"),
  (n!"jaxb2", n!"jaxb"),
  (n!"jboss", n!"jboss"),
  (n!"jboss as 7", n!"jboss7.x"),
  (n!"jboss netty", n!"netty"),
  (n!"jboss7.x", n!"jboss7.x"),
  (n!"jbutton", n!"jbutton"),
  (n!"jdbc", n!"jdbc"),
  (n!"jdbc driver", n!"jdbc"),
  (n!"jdk8, jdk1.8, jdk1.8.0", n!"java-8"),
  (n!"jekyll", n!"jekyll"),
  (n!"jenkins", n!"jenkins"),
  (n!"jenkins pipeline", n!"jenkins-pipeline"),
  (n!"jenkins plugins", n!"jenkins-plugins"),
  (n!"jenkins workflow, jenkinsfile", n!"jenkins-pipeline"),
  (n!"jersey", n!"jersey"),
  (n!"jestjs", n!"jestjs"),
  (n!"jetty", n!"jetty"),
  (n!"jframe", n!"jframe"),
  (n!"jhipster", n!"jhipster"),
  (n!"jinja", n!"jinja2"),
  (n!"jinja2", n!"jinja2"),
  (n!"jira", n!"jira"),
  (n!"jlabel", n!"jlabel"),
  (n!"jmeter", n!"jmeter"),
  (n!"jms", n!"jms"),
  (n!"jni", n!"java-native-interface"),
  (n!"join", n!"join"),
  (n!"joomla", n!"joomla"),
  (n!"jpa", n!"jpa"),
  (n!"jpa 2", n!"jpa-2.0"),
  (n!"jpa 2.0", n!"jpa-2.0"),
  (n!"jpanel", n!"jpanel"),
  (n!"jpeg", n!"jpeg"),
  (n!"jpg", n!"jpeg"),
  (n!"jq", n!"jq"),
  (n!"jqgrid", n!"jqgrid"),
  (n!"jqm", n!"jquery-mobile"),
  (n!"jquery", n!"jquery"),
  (n!"jquery animate", n!"jquery-animate"),
  (n!"jquery core, jquery live, jquery callback, jquery after, jquery hasclass, jquery get, jquery post, toggleclass, removeclass, jquery css, jquery find, addclass, jquery filter, jquery effects", n!"jquery"),
  (n!"jquery datatables", n!"datatables"),
  (n!"jquery grid", n!"jqgrid"),
  (n!"jquery mobile", n!"jquery-mobile"),
  (n!"jquery plugin", n!"jquery-plugins"),
  (n!"jquery plugins", n!"jquery-plugins"),
  (n!"jquery select2", n!"jquery-select2"),
  (n!"jquery selector", n!"jquery-selectors"),
  (n!"jquery selectors", n!"jquery-selectors"),
  (n!"jquery ui", n!"jquery-ui"),
  (n!"jquery ui sortable", n!"jquery-ui-sortable"),
  (n!"jquery validate", n!"jquery-validate"),
  (n!"jquery validation plugin", n!"jquery-validate"),
  (n!"jrxml, jasperprint, jasper", n!"jasper-reports"),
  (n!"jsf", n!"jsf"),
  (n!"jsf 2", n!"jsf-2"),
  (n!"jsf2.0", n!"jsf-2"),
  (n!"json", n!"json"),
  (n!"json parsing, json encode, json decode, jsonobject", n!"json"),
  (n!"json web token", n!"jwt"),
  (n!"json.net", n!"json.net"),
  (n!"jsonp", n!"jsonp"),
  (n!"jsoup", n!"jsoup"),
  (n!"jsp", n!"jsp"),
  (n!"jstl", n!"jstl"),
  (n!"jsx", n!"jsx"),
  (n!"jtable", n!"jtable"),
  (n!"julia", n!"julia"),
  (n!"julia lang, julialang", n!"julia"),
  (n!"junit", n!"junit"),
  (n!"junit4", n!"junit4"),
  (n!"jupyter", n!"jupyter"),
  (n!"jupyter notebook", n!"jupyter-notebook"),
  (n!"jvm", n!"jvm"),
  (n!"jwt", n!"jwt"),
  (n!"k8s", n!"kubernetes"),
  (n!"kafka", n!"apache-kafka"),
  (n!"karma jasmine", n!"karma-jasmine"),
  (n!"karma runner", n!"karma-runner"),
  (n!"kendo", n!"kendo-ui"),
  (n!"kendo grid", n!"kendo-grid"),
  (n!"kendo ui", n!"kendo-ui"),
  (n!"keras", n!"keras"),
  (n!"kerberos", n!"kerberos"),
  (n!"kernel", n!"kernel"),
  (n!"kernel programming", n!"kernel"),
  (n!"key", n!"key"),
  (n!"keyboard", n!"keyboard"),
  (n!"keyboard shortcuts", n!"keyboard-shortcuts"),
  (n!"keyboards", n!"keyboard"),
  (n!"keys", n!"key"),
  (n!"kibana", n!"kibana"),
  (n!"kivy", n!"kivy"),
  (n!"knitr", n!"knitr"),
  (n!"knockout, knockoutjs, ko.observablearray", n!"knockout.js"),
  (n!"knockout.js", n!"knockout.js"),
  (n!"kotlin", n!"kotlin"),
  (n!"kubernetes", n!"kubernetes"),
  (n!"l2e", n!"linq-to-entities"),
  (n!"label", n!"label"),
  (n!"labels", n!"label"),
  (n!"lambda", n!"lambda"),
  (n!"lambda expressions, lambda functions", n!"lambda"),
  (n!"language agnostic", n!"language-agnostic"),
  (n!"language independent", n!"language-agnostic"),
  (n!"language integrated query, linq query syntax", n!"linq"),
  (n!"language lawyer", n!"language-lawyer"),
  (n!"language processing, natural language, computational linguistics, natural language process, text analysis, natural language processing", n!"nlp"),
  (n!"laravel", n!"laravel"),
  (n!"laravel 4", n!"laravel-4"),
  (n!"laravel 5", n!"laravel-5"),
  (n!"laravel 5.5, laravel 5.4, laravel 5.3, laravel 5.2, laravel 5.1", n!"laravel-5"),
  (n!"laravel eloquent", n!"eloquent"),
  (n!"latex", n!"latex"),
  (n!"layout", n!"layout"),
  (n!"layouts, htmllayout, html layout", n!"layout"),
  (n!"lazy load, lazyload", n!"lazy-loading"),
  (n!"lazy loading", n!"lazy-loading"),
  (n!"ldap", n!"ldap")]

/-- filters/stackoverflow/generated.go:6-2995 `mappings`, part 5. -/
def soRows5 : List (Nat × Nat) := [
  (n!"leaflet", n!"leaflet"),
  (n!"left join", n!"left-join"),
  (n!"left outer join", n!"left-join"),
  (n!"legend", n!"legend"),
  (n!"less", n!"less"),
  (n!"lesscss", n!"less"),
  (n!"libgdx", n!"libgdx"),
  (n!"liferay", n!"liferay"),
  (n!"limit", n!"limit"),
  (n!"limits", n!"limit"),
  (n!"line", n!"line"),
  (n!"linear algebra", n!"linear-algebra"),
  (n!"linear regression", n!"linear-regression"),
  (n!"linearlayout", n!"android-linearlayout"),
  (n!"lines", n!"line"),
  (n!"linked list", n!"linked-list"),
  (n!"linkedin", n!"linkedin"),
  (n!"linker", n!"linker"),
  (n!"linker errors", n!"linker-errors"),
  (n!"linking", n!"linker"),
  (n!"linking errors, link errors", n!"linker-errors"),
  (n!"links, link, hyperlinks", n!"hyperlink"),
  (n!"linq", n!"linq"),
  (n!"linq entity framework, ef, entity framework mapping, sql to entity framework, entity framework designer, fluent entity framework", n!"entity-framework"),
  (n!"linq to entities", n!"linq-to-entities"),
  (n!"linq to sql", n!"linq-to-sql"),
  (n!"linq to xml", n!"linq-to-xml"),
  (n!"linux", n!"linux"),
  (n!"linux device driver", n!"linux-device-driver"),
  (n!"linux kernel", n!"linux-kernel"),
  (n!"lisp", n!"lisp"),
  (n!"list", n!"list"),
  (n!"list comprehension", n!"list-comprehension"),
  (n!"listbox", n!"listbox"),
  (n!"listener", n!"listener"),
  (n!"listeners", n!"listener"),
  (n!"lists, ilist, python list", n!"list"),
  (n!"listview", n!"listview"),
  (n!"llvm", n!"llvm"),
  (n!"load", n!"load"),
  (n!"load balancer, load balance", n!"load-balancing"),
  (n!"load balancing", n!"load-balancing"),
  (n!"loading", n!"loading"),
  (n!"local", n!"local"),
  (n!"local storage", n!"local-storage"),
  (n!"locale", n!"locale"),
  (n!"localhost", n!"localhost"),
  (n!"localisation, localize, l10n", n!"localization"),
  (n!"localization", n!"localization"),
  (n!"location", n!"location"),
  (n!"lock", n!"locking"),
  (n!"locking", n!"locking"),
  (n!"lodash", n!"lodash"),
  (n!"lodash es", n!"lodash"),
  (n!"log4j", n!"log4j"),
  (n!"log4j2", n!"log4j2"),
  (n!"log4net", n!"log4net"),
  (n!"logback", n!"logback"),
  (n!"logger, log, logs", n!"logging"),
  (n!"logging", n!"logging"),
  (n!"logic", n!"logic"),
  (n!"login, user authentication, client authentication, authenticate, auth, logon", n!"authentication"),
  (n!"logstash", n!"logstash"),
  (n!"loop, looping, iterate", n!"loops"),
  (n!"loops", n!"loops"),
  (n!"lotus notes", n!"lotus-notes"),
  (n!"lstm", n!"lstm"),
  (n!"lua", n!"lua"),
  (n!"lucene", n!"lucene"),
  (n!"lucene index", n!"lucene"),
  (n!"lwjgl", n!"lwjgl"),
  (n!"lxml", n!"lxml"),
  (n!"machine learning", n!"machine-learning"),
  (n!"machine vision, cv", n!"computer-vision"),
  (n!"macos", n!"macos"),
  (n!"macro, custom macros", n!"macros"),
  (n!"macros", n!"macros"),
  (n!"magento", n!"magento"),
  (n!"magento 1.7", n!"magento-1.7"),
  (n!"magento 1.9", n!"magento-1.9"),
  (n!"magento upgrade, magento admin, magento widgets, magento module, magento enterprise, magento catalog, magento theming, magento extension", n!"magento"),
  (n!"magento2", n!"magento2"),
  (n!"mail", n!"email"),
  (n!"makefile", n!"makefile"),
  (n!"makefiles, make", n!"makefile"),
  (n!"malloc", n!"malloc"),
  (n!"mamp", n!"mamp"),
  (n!"manifest", n!"manifest"),
  (n!"many to many", n!"many-to-many"),
  (n!"mapbox", n!"mapbox"),
  (n!"mapkit", n!"mapkit"),
  (n!"mapping", n!"mapping"),
  (n!"mappings", n!"mapping"),
  (n!"mapreduce", n!"mapreduce"),
  (n!"maps", n!"maps"),
  (n!"margin", n!"margin"),
  (n!"mariadb", n!"mariadb"),
  (n!"markdown", n!"markdown"),
  (n!"market, google play store, android market", n!"google-play"),
  (n!"marklogic", n!"marklogic"),
  (n!"marshaling, marshal", n!"marshalling"),
  (n!"marshalling", n!"marshalling"),
  (n!"mata", n!"stata"),
  (n!"match", n!"match"),
  (n!"material design", n!"material-design"),
  (n!"material theme", n!"material-design"),
  (n!"material ui", n!"material-ui"),
  (n!"materialize", n!"materialize"),
  (n!"materializecss, materialize css, materialize js", n!"materialize"),
  (n!"math", n!"math"),
  (n!"mathematics, maths, mathematical, arithmetic", n!"math"),
  (n!"matlab", n!"matlab"),
  (n!"matlab figure", n!"matlab-figure"),
  (n!"matlab toolbox, mlint, m file, matlab path, matlab ide", n!"matlab"),
  (n!"matplotlib", n!"matplotlib"),
  (n!"matrices", n!"matrix"),
  (n!"matrix", n!"matrix"),
  (n!"maven", n!"maven"),
  (n!"maven 2", n!"maven-2"),
  (n!"maven 3", n!"maven-3"),
  (n!"maven plugin", n!"maven-plugin"),
  (n!"max", n!"max"),
  (n!"maximum", n!"max"),
  (n!"md5", n!"md5"),
  (n!"mdx", n!"mdx"),
  (n!"mean stack", n!"mean-stack"),
  (n!"media", n!"media"),
  (n!"media player", n!"media-player"),
  (n!"media queries", n!"media-queries"),
  (n!"media query", n!"media-queries"),
  (n!"mediawiki", n!"mediawiki"),
  (n!"memcache", n!"memcached"),
  (n!"memcached", n!"memcached"),
  (n!"memory", n!"memory"),
  (n!"memory leak", n!"memory-leaks"),
  (n!"memory leaks", n!"memory-leaks"),
  (n!"memory management", n!"memory-management"),
  (n!"memory usage, memory allocation, memory deallocation", n!"memory-management"),
  (n!"menu", n!"menu"),
  (n!"menus", n!"menu"),
  (n!"mercurial", n!"mercurial"),
  (n!"merge", n!"merge"),
  (n!"merging", n!"merge"),
  (n!"message", n!"message"),
  (n!"message queue", n!"message-queue"),
  (n!"messages", n!"message"),
  (n!"metadata", n!"metadata"),
  (n!"metaprogramming", n!"metaprogramming"),
  (n!"meteor", n!"meteor"),
  (n!"meteor.js, meteorjs", n!"meteor"),
  (n!"method", n!"methods"),
  (n!"method overriding, function overriding, overrides, override", n!"overriding"),
  (n!"methods", n!"methods"),
  (n!"metro ui, metro, metro style app", n!"microsoft-metro"),
  (n!"mfc", n!"mfc"),
  (n!"microservices", n!"microservices"),
  (n!"microsoft edge", n!"microsoft-edge"),
  (n!"microsoft graph", n!"microsoft-graph"),
  (n!"microsoft metro", n!"microsoft-metro"),
  (n!"microsoft office", n!"ms-office"),
  (n!"microsoft office outlook, outlook express", n!"outlook"),
  (n!"microsoft powerpoint, ppt, pptx, mspowerpoint", n!"powerpoint"),
  (n!"microsoft visual c++, vc, vc++.net, msvc++, msvc, vc++", n!"visual-c++"),
  (n!"microsoft word, winword", n!"ms-word"),
  (n!"microsoftgraph, ms graph", n!"microsoft-graph"),
  (n!"migration", n!"migration"),
  (n!"migrations", n!"migration"),
  (n!"mime content type, mime type", n!"mime-types"),
  (n!"mime types", n!"mime-types"),
  (n!"mingw", n!"mingw"),
  (n!"mips", n!"mips"),
  (n!"mkmapkit", n!"mapkit"),
  (n!"mkmapview", n!"mkmapview"),
  (n!"mma, wri mathematica, wolfram, mathematica", n!"wolfram-mathematica"),
  (n!"mobile", n!"mobile"),
  (n!"mobile safari", n!"mobile-safari"),
  (n!"mobilefirst, worklight", n!"ibm-mobilefirst"),
  (n!"mocha", n!"mocha"),
  (n!"mocking", n!"mocking"),
  (n!"mocking framework, mock, mocks", n!"mocking"),
  (n!"mockito", n!"mockito"),
  (n!"mod rewrite", n!"mod-rewrite"),
  (n!"mod wsgi", n!"mod-wsgi"),
  (n!"modal", n!"modal-dialog"),
  (n!"modal dialog", n!"modal-dialog"),
  (n!"model", n!"model"),
  (n!"model view controller", n!"model-view-controller"),
  (n!"model view viewmodel", n!"mvvm"),
  (n!"models", n!"model"),
  (n!"module", n!"module"),
  (n!"modules", n!"module"),
  (n!"moment.js", n!"momentjs"),
  (n!"momentjs", n!"momentjs"),
  (n!"monad", n!"monads"),
  (n!"monads", n!"monads"),
  (n!"mongo, mongod", n!"mongodb"),
  (n!"mongodb", n!"mongodb"),
  (n!"mongodb aggregation", n!"aggregation-framework"),
  (n!"mongodb query", n!"mongodb-query"),
  (n!"mongoid", n!"mongoid"),
  (n!"mongoose", n!"mongoose"),
  (n!"monitoring", n!"monitoring"),
  (n!"mono", n!"mono"),
  (n!"monodroid", n!"xamarin.android"),
  (n!"monotouch", n!"xamarin.ios"),
  (n!"moq", n!"moq"),
  (n!"moss 2007", n!"sharepoint-2007"),
  (n!"mouse", n!"mouse"),
  (n!"mouseevent", n!"mouseevent"),
  (n!"movie, movies, videos", n!"video"),
  (n!"mp3", n!"mp3"),
  (n!"mpi", n!"mpi"),
  (n!"mqseries, websphere mq", n!"ibm-mq"),
  (n!"mqtt", n!"mqtt"),
  (n!"ms access", n!"ms-access"),
  (n!"ms access 2007", n!"ms-access-2007"),
  (n!"ms access 2010", n!"ms-access-2010"),
  (n!"ms office", n!"ms-office"),
  (n!"ms sql server, mssql, sql srever", n!"sql-server"),
  (n!"ms word", n!"ms-word"),
  (n!"msbuild", n!"msbuild"),
  (n!"mscrm, microsoft dynamics crm", n!"dynamics-crm"),
  (n!"msi", n!"windows-installer"),
  (n!"mssql ce, sql ce, sql compact, sql server compact, sql mobile", n!"sql-server-ce"),
  (n!"mssql2005, sql2005", n!"sql-server-2005"),
  (n!"msvc11, visual studio 11, vs11, vs2011, vs2012", n!"visual-studio-2012"),
  (n!"mule", n!"mule"),
  (n!"multi column", n!"multiple-columns"),
  (n!"multidimensional array", n!"multidimensional-array"),
  (n!"multipart form", n!"multipartform-data"),
  (n!"multipartform data", n!"multipartform-data"),
  (n!"multiple backgrounds", n!"background-image"),
  (n!"multiple columns", n!"multiple-columns"),
  (n!"multiple regression", n!"linear-regression"),
  (n!"multiprocessing", n!"multiprocessing"),
  (n!"multithreading", n!"multithreading"),
  (n!"mutex", n!"mutex"),
  (n!"mvc", n!"model-view-controller"),
  (n!"mvc4", n!"asp.net-mvc-4"),
  (n!"mvc5", n!"asp.net-mvc-5"),
  (n!"mvn", n!"maven"),
  (n!"mvvm", n!"mvvm"),
  (n!"mvvmcross", n!"mvvmcross"),
  (n!"myphpadmin", n!"phpmyadmin"),
  (n!"mysql", n!"mysql"),
  (n!"mysql query, my sql, mysqld, mysqlclient, mysql server, mysql table, mysql if, mysqlsh, mysqldump", n!"mysql"),
  (n!"mysql workbench", n!"mysql-workbench"),
  (n!"mysqli", n!"mysqli"),
  (n!"namespace, namespacing", n!"namespaces"),
  (n!"namespaces", n!"namespaces"),
  (n!"naming conventions", n!"naming-conventions"),
  (n!"nasm", n!"nasm"),
  (n!"native", n!"native"),
  (n!"nativescript", n!"nativescript"),
  (n!"navbar", n!"navbar"),
  (n!"navigation", n!"navigation"),
  (n!"navigation drawer", n!"navigation-drawer"),
  (n!"nawk, mawk, awk formatting, gawk", n!"awk"),
  (n!"ndk", n!"android-ndk"),
  (n!"negative margin", n!"margin"),
  (n!"neo4j", n!"neo4j"),
  (n!"neo4j2.0", n!"neo4j"),
  (n!"nested", n!"nested"),
  (n!"nested array, rectangular arrays, ndarray, 2d array, 3d array, multidimensional", n!"multidimensional-array"),
  (n!"nested loops", n!"nested-loops"),
  (n!"nesting", n!"nested"),
  (n!"netbeans", n!"netbeans"),
  (n!"netlogo", n!"netlogo"),
  (n!"netsuite", n!"netsuite"),
  (n!"netty", n!"netty"),
  (n!"network programming", n!"network-programming"),
  (n!"network, networks", n!"networking"),
  (n!"networking", n!"networking"),
  (n!"networkx", n!"networkx"),
  (n!"neural network", n!"neural-network"),
  (n!"neural network tuning, multi layer perceptron", n!"neural-network"),
  (n!"newline", n!"newline"),
  (n!"newtonsoft", n!"json.net"),
  (n!"nfc", n!"nfc"),
  (n!"ng repeat", n!"angularjs-ng-repeat"),
  (n!"nginx", n!"nginx"),
  (n!"nhibernate", n!"nhibernate"),
  (n!"nifi", n!"apache-nifi"),
  (n!"nil, nullvalue, nulls", n!"null"),
  (n!"ninject", n!"ninject"),
  (n!"nlp", n!"nlp"),
  (n!"nltk", n!"nltk"),
  (n!"node modules", n!"node-modules"),
  (n!"node.js", n!"node.js"),
  (n!"nodejs, io.js", n!"node.js"),
  (n!"nodes", n!"nodes"),
  (n!"nokogiri", n!"nokogiri"),
  (n!"non const", n!"const"),
  (n!"nosql", n!"nosql"),
  (n!"notepad++", n!"notepad++"),
  (n!"notification", n!"notifications"),
  (n!"notifications", n!"notifications"),
  (n!"npm", n!"npm"),
  (n!"npm install", n!"npm-install"),
  (n!"npmjs", n!"npm")]

/-- filters/stackoverflow/generated.go:6-2995 `mappings`, part 6. -/
def soRows6 : List (Nat × Nat) := [
  (n!"nsarray", n!"nsarray"),
  (n!"nsdate", n!"nsdate"),
  (n!"nsdictionary", n!"nsdictionary"),
  (n!"nsmutablearray", n!"nsmutablearray"),
  (n!"nsstring", n!"nsstring"),
  (n!"nsurlconnection", n!"nsurlconnection"),
  (n!"nsuserdefaults", n!"nsuserdefaults"),
  (n!"nth of type, css sibling, nth child, first child, last child, css combinators, pseudo selectors, selectors, first of type, last of type", n!"css-selectors"),
  (n!"nuget", n!"nuget"),
  (n!"null", n!"null"),
  (n!"nullpointerexception", n!"nullpointerexception"),
  (n!"number", n!"numbers"),
  (n!"numbers", n!"numbers"),
  (n!"numpy", n!"numpy"),
  (n!"nunit", n!"nunit"),
  (n!"nuxt", n!"nuxt.js"),
  (n!"nuxt.js", n!"nuxt.js"),
  (n!"oauth", n!"oauth"),
  (n!"oauth 2.0", n!"oauth-2.0"),
  (n!"oauth2", n!"oauth-2.0"),
  (n!"objc", n!"objective-c"),
  (n!"objc arc, arc", n!"automatic-ref-counting"),
  (n!"object", n!"object"),
  (n!"object orientation, oo, ood, object oriented modeling, oo design, oops, object oriented design, object oriented", n!"oop"),
  (n!"object pascal", n!"delphi"),
  (n!"object relational mapping", n!"orm"),
  (n!"objective c", n!"objective-c"),
  (n!"objects", n!"object"),
  (n!"observable", n!"observable"),
  (n!"ocaml", n!"ocaml"),
  (n!"ocr", n!"ocr"),
  (n!"octave", n!"octave"),
  (n!"odata", n!"odata"),
  (n!"odbc", n!"odbc"),
  (n!"odoo", n!"odoo"),
  (n!"office interop", n!"office-interop"),
  (n!"office js", n!"office-js"),
  (n!"office365", n!"office365"),
  (n!"oledb", n!"oledb"),
  (n!"omp", n!"openmp"),
  (n!"onclick", n!"onclick"),
  (n!"onclicklistener", n!"onclicklistener"),
  (n!"one to many", n!"one-to-many"),
  (n!"oop", n!"oop"),
  (n!"ooxml", n!"openxml"),
  (n!"open source", n!"open-source"),
  (n!"opencart", n!"opencart"),
  (n!"opencl", n!"opencl"),
  (n!"opencv", n!"opencv"),
  (n!"openerp", n!"odoo"),
  (n!"opengl", n!"opengl"),
  (n!"opengl es", n!"opengl-es"),
  (n!"opengl es 2.0", n!"opengl-es-2.0"),
  (n!"opengles", n!"opengl-es"),
  (n!"opengraph, open graph protocol", n!"facebook-opengraph"),
  (n!"openid", n!"openid"),
  (n!"openlayers", n!"openlayers"),
  (n!"openmp", n!"openmp"),
  (n!"openpyxl", n!"openpyxl"),
  (n!"openshift", n!"openshift"),
  (n!"openssl", n!"openssl"),
  (n!"openstreetmap", n!"openstreetmap"),
  (n!"openxml", n!"openxml"),
  (n!"operating system", n!"operating-system"),
  (n!"operator overloading", n!"operator-overloading"),
  (n!"operators", n!"operators"),
  (n!"opscode", n!"chef"),
  (n!"optimization", n!"optimization"),
  (n!"optimizer, optimize, optimisation, code optimization, optimizing, optimizations", n!"optimization"),
  (n!"optionbutton, option button, radiobutton", n!"radio-button"),
  (n!"oracle", n!"oracle"),
  (n!"oracle apex", n!"oracle-apex"),
  (n!"oracle sqldeveloper", n!"oracle-sqldeveloper"),
  (n!"oracle10g", n!"oracle10g"),
  (n!"oracle11g", n!"oracle11g"),
  (n!"oracle12c", n!"oracle12c"),
  (n!"oraclejdk, javax, openjdk, java se, .java, j2se, core java, java libraries, jdk, jre", n!"java"),
  (n!"orchard", n!"orchardcms"),
  (n!"orchardcms", n!"orchardcms"),
  (n!"order by, orderby", n!"sql-order-by"),
  (n!"orientation", n!"orientation"),
  (n!"orm", n!"orm"),
  (n!"os, operating systems", n!"operating-system"),
  (n!"osgi", n!"osgi"),
  (n!"osm", n!"openstreetmap"),
  (n!"oss, open source contribution, open source projects", n!"open-source"),
  (n!"osx, macosx, mac", n!"macos"),
  (n!"out of memory", n!"out-of-memory"),
  (n!"outlook", n!"outlook"),
  (n!"outlook addin", n!"outlook-addin"),
  (n!"outlook vba", n!"outlook-vba"),
  (n!"outofmemoryexception, outofmemoryerror", n!"out-of-memory"),
  (n!"output", n!"output"),
  (n!"overflow", n!"overflow"),
  (n!"overlay", n!"overlay"),
  (n!"overlays", n!"overlay"),
  (n!"overloading", n!"overloading"),
  (n!"overriding", n!"overriding"),
  (n!"owin", n!"owin"),
  (n!"package", n!"package"),
  (n!"packages", n!"package"),
  (n!"padding", n!"padding"),
  (n!"pagination", n!"pagination"),
  (n!"pandas", n!"pandas"),
  (n!"pandas groupby", n!"pandas-groupby"),
  (n!"panel", n!"panel"),
  (n!"panels", n!"panel"),
  (n!"paperclip", n!"paperclip"),
  (n!"parallel computing, parallel, parallelization, parallelism, parallel programming", n!"parallel-processing"),
  (n!"parallel processing", n!"parallel-processing"),
  (n!"parameter passing", n!"parameter-passing"),
  (n!"parameter, params, param", n!"parameters"),
  (n!"parameters", n!"parameters"),
  (n!"parent child", n!"parent-child"),
  (n!"parse platform", n!"parse-platform"),
  (n!"parser, parsers, parse", n!"parsing"),
  (n!"parsing", n!"parsing"),
  (n!"pass by reference", n!"pass-by-reference"),
  (n!"passenger", n!"passenger"),
  (n!"passing by reference, call by reference", n!"pass-by-reference"),
  (n!"passport.js", n!"passport.js"),
  (n!"passportjs", n!"passport.js"),
  (n!"password", n!"passwords"),
  (n!"passwords", n!"passwords"),
  (n!"path", n!"path"),
  (n!"paths", n!"path"),
  (n!"pattern matching", n!"pattern-matching"),
  (n!"patterns, pattern, design pattern, gof, gang of four", n!"design-patterns"),
  (n!"payment gateway", n!"payment-gateway"),
  (n!"paypal", n!"paypal"),
  (n!"paypal api, paypal express, paypal checkout, paypal sdk, paypalmerchantsdk", n!"paypal"),
  (n!"paypal sandbox", n!"paypal-sandbox"),
  (n!"pdf", n!"pdf"),
  (n!"pdf generation", n!"pdf-generation"),
  (n!"pdo", n!"pdo"),
  (n!"pentaho", n!"pentaho"),
  (n!"performance", n!"performance"),
  (n!"performance testing", n!"performance-testing"),
  (n!"perl", n!"perl"),
  (n!"perl5", n!"perl"),
  (n!"permission", n!"permissions"),
  (n!"permissions", n!"permissions"),
  (n!"permutation", n!"permutation"),
  (n!"permutations", n!"permutation"),
  (n!"persistence", n!"persistence"),
  (n!"pgsql, postgres, sql postgres", n!"postgresql"),
  (n!"phantomjs", n!"phantomjs"),
  (n!"phoenix framework", n!"phoenix-framework"),
  (n!"phonegap plugins", n!"phonegap-plugins"),
  (n!"php", n!"php"),
  (n!"php mysqli", n!"mysqli"),
  (n!"php namespaces, phtml, php include, php oop, php errors, php cli, hypertext preprocessor, php.ini, php frameworks, php5, php date, php fpm, php session, php cgi, php mail, php functions, php readfile", n!"php"),
  (n!"php references, references", n!"reference"),
  (n!"phpdoctrine", n!"doctrine"),
  (n!"phpexcel", n!"phpexcel"),
  (n!"phpmailer", n!"phpmailer"),
  (n!"phpmyadmin", n!"phpmyadmin"),
  (n!"phpstorm", n!"phpstorm"),
  (n!"phpunit", n!"phpunit"),
  (n!"phusion passenger", n!"passenger"),
  (n!"pickle", n!"pickle"),
  (n!"pickle dump, cpickle, unpickling", n!"pickle"),
  (n!"picture, pictures, img, images", n!"image"),
  (n!"piglatin, pig", n!"apache-pig"),
  (n!"pil, python pil, pillow", n!"python-imaging-library"),
  (n!"pinvoke", n!"pinvoke"),
  (n!"pip", n!"pip"),
  (n!"pip3", n!"pip"),
  (n!"pipe", n!"pipe"),
  (n!"piping, pipes", n!"pipe"),
  (n!"pivot", n!"pivot"),
  (n!"pivot table", n!"pivot-table"),
  (n!"play mvc", n!"playframework"),
  (n!"playframework", n!"playframework"),
  (n!"playframework 2.0", n!"playframework-2.0"),
  (n!"playframework 2.x", n!"playframework-2.0"),
  (n!"plist", n!"plist"),
  (n!"plot", n!"plot"),
  (n!"plotly", n!"plotly"),
  (n!"plotting", n!"plot"),
  (n!"plpgsql", n!"plpgsql"),
  (n!"plsql", n!"plsql"),
  (n!"plt, pylab, pyplot", n!"matplotlib"),
  (n!"plugin", n!"plugins"),
  (n!"plugins", n!"plugins"),
  (n!"png", n!"png"),
  (n!"poi", n!"apache-poi"),
  (n!"pointer to function", n!"function-pointers"),
  (n!"pointer, ptr", n!"pointers"),
  (n!"pointers", n!"pointers"),
  (n!"polygon", n!"polygon"),
  (n!"polygons", n!"polygon"),
  (n!"polymer", n!"polymer"),
  (n!"polymorphic", n!"polymorphism"),
  (n!"polymorphism", n!"polymorphism"),
  (n!"pom", n!"pom.xml"),
  (n!"pom.xml", n!"pom.xml"),
  (n!"pop up", n!"popup"),
  (n!"popup", n!"popup"),
  (n!"port", n!"port"),
  (n!"ports", n!"port"),
  (n!"position", n!"position"),
  (n!"posix", n!"posix"),
  (n!"post", n!"post"),
  (n!"post request", n!"http-post"),
  (n!"postgis", n!"postgis"),
  (n!"postgresql", n!"postgresql"),
  (n!"postman", n!"postman"),
  (n!"powerbi", n!"powerbi"),
  (n!"powerpoint", n!"powerpoint"),
  (n!"powershell", n!"powershell"),
  (n!"powershell 2.0", n!"powershell-2.0"),
  (n!"precision", n!"precision"),
  (n!"preg match", n!"preg-match"),
  (n!"preg replace", n!"preg-replace"),
  (n!"prepare, prepared statements", n!"prepared-statement"),
  (n!"prepared statement", n!"prepared-statement"),
  (n!"prestashop", n!"prestashop"),
  (n!"primary key", n!"primary-key"),
  (n!"primary keys", n!"primary-key"),
  (n!"primefaces", n!"primefaces"),
  (n!"printer, print", n!"printing"),
  (n!"printf", n!"printf"),
  (n!"printing", n!"printing"),
  (n!"prism", n!"prism"),
  (n!"prng, rng, random sample, random number generator, pseudo random numbers, random generator, random numbers, random number, rand, random alpha generator, random string, random string generator", n!"random"),
  (n!"probability", n!"probability"),
  (n!"process", n!"process"),
  (n!"processes", n!"process"),
  (n!"processing", n!"processing"),
  (n!"processing.org", n!"processing"),
  (n!"product", n!"product"),
  (n!"products", n!"product"),
  (n!"profiling", n!"profiling"),
  (n!"profiling tools", n!"profiling"),
  (n!"programming languages", n!"programming-languages"),
  (n!"progress bar", n!"progress-bar"),
  (n!"progressive web apps", n!"progressive-web-apps"),
  (n!"proguard", n!"proguard"),
  (n!"project", n!"project"),
  (n!"projects", n!"project"),
  (n!"prolog", n!"prolog"),
  (n!"promise", n!"promise"),
  (n!"properties", n!"properties"),
  (n!"property", n!"properties"),
  (n!"protocol", n!"protocols"),
  (n!"protocol buffers", n!"protocol-buffers"),
  (n!"protocols", n!"protocols"),
  (n!"prototype", n!"prototype"),
  (n!"prototypes", n!"prototype"),
  (n!"protractor", n!"protractor"),
  (n!"proxy", n!"proxy"),
  (n!"pthread", n!"pthreads"),
  (n!"pthreads", n!"pthreads"),
  (n!"pug", n!"pug"),
  (n!"pugjs, jade", n!"pug"),
  (n!"puppet", n!"puppet"),
  (n!"puppeteer", n!"puppeteer"),
  (n!"push", n!"push"),
  (n!"push notification", n!"push-notification"),
  (n!"push notifications", n!"push-notification"),
  (n!"pwa", n!"progressive-web-apps"),
  (n!"py, pythonic, python interpreter, python shell", n!"python"),
  (n!"py.test", n!"pytest"),
  (n!"py3, python 3, py3k, python3k, python3", n!"python-3.x"),
  (n!"pycharm", n!"pycharm"),
  (n!"pygame", n!"pygame"),
  (n!"pyinstaller", n!"pyinstaller"),
  (n!"pymongo", n!"pymongo"),
  (n!"pyqt", n!"pyqt"),
  (n!"pyqt4", n!"pyqt4"),
  (n!"pyqt5", n!"pyqt5"),
  (n!"pyside", n!"pyside"),
  (n!"pyspark", n!"pyspark"),
  (n!"pytest", n!"pytest"),
  (n!"python", n!"python"),
  (n!"python 2.7", n!"python-2.7"),
  (n!"python 3.5", n!"python-3.5"),
  (n!"python 3.5.2", n!"python-3.5"),
  (n!"python 3.6", n!"python-3.6"),
  (n!"python 3.7", n!"python-3.7"),
  (n!"python 3.x", n!"python-3.x"),
  (n!"python asyncio", n!"python-asyncio"),
  (n!"python ctypes", n!"ctypes"),
  (n!"python imaging library", n!"python-imaging-library"),
  (n!"python import", n!"python-import"),
  (n!"python multiprocessing", n!"python-multiprocessing"),
  (n!"python requests", n!"python-requests"),
  (n!"python subprocess module, subprocesses", n!"subprocess"),
  (n!"pytorch", n!"pytorch"),
  (n!"qml", n!"qml"),
  (n!"qplot, ggplot", n!"ggplot2"),
  (n!"qr code", n!"qr-code"),
  (n!"qt", n!"qt"),
  (n!"qt creator", n!"qt-creator"),
  (n!"qt4", n!"qt4"),
  (n!"qt5", n!"qt5"),
  (n!"quartz graphics", n!"core-graphics"),
  (n!"quartz scheduler", n!"quartz-scheduler"),
  (n!"query optimization", n!"query-optimization")]

/-- filters/stackoverflow/generated.go:6-2995 `mappings`, part 7. -/
def soRows7 : List (Nat × Nat) := [
  (n!"query string", n!"query-string"),
  (n!"queue", n!"queue"),
  (n!"r", n!"r"),
  (n!"r markdown", n!"r-markdown"),
  (n!"rabbitmq", n!"rabbitmq"),
  (n!"racket", n!"racket"),
  (n!"radio button", n!"radio-button"),
  (n!"rails activerecord", n!"rails-activerecord"),
  (n!"rails3, ror3", n!"ruby-on-rails-3"),
  (n!"rails5", n!"ruby-on-rails-5"),
  (n!"rake", n!"rake"),
  (n!"random", n!"random"),
  (n!"range", n!"range"),
  (n!"ranges", n!"range"),
  (n!"raphael", n!"raphael"),
  (n!"raphael js", n!"raphael"),
  (n!"raspberry pi", n!"raspberry-pi"),
  (n!"raspberry pi3", n!"raspberry-pi3"),
  (n!"razor", n!"razor"),
  (n!"rbindlist", n!"data.table"),
  (n!"rdd", n!"rdd"),
  (n!"rdf", n!"rdf"),
  (n!"react hooks", n!"react-hooks"),
  (n!"react native", n!"react-native"),
  (n!"react native android", n!"react-native-android"),
  (n!"react navigation", n!"react-navigation"),
  (n!"react redux", n!"react-redux"),
  (n!"react router", n!"react-router"),
  (n!"react, react jsx", n!"reactjs"),
  (n!"reactive programming", n!"reactive-programming"),
  (n!"reactjs", n!"reactjs"),
  (n!"real time", n!"real-time"),
  (n!"realm", n!"realm"),
  (n!"realm.io, realm net, android realm, realmswift, realm cocoa", n!"realm"),
  (n!"recaptcha", n!"recaptcha"),
  (n!"recursion", n!"recursion"),
  (n!"recursive", n!"recursion"),
  (n!"recyclerview layout, recyclerview", n!"android-recyclerview"),
  (n!"redhat", n!"redhat"),
  (n!"redirect", n!"redirect"),
  (n!"redis", n!"redis"),
  (n!"redux", n!"redux"),
  (n!"refactor", n!"refactoring"),
  (n!"refactoring", n!"refactoring"),
  (n!"reference", n!"reference"),
  (n!"reflection", n!"reflection"),
  (n!"refresh", n!"refresh"),
  (n!"regex", n!"regex"),
  (n!"regexes, regexp, regular expression, regular expressions, regex php, perlre, perl regex, apache regexp, regularexpression", n!"regex"),
  (n!"registry", n!"registry"),
  (n!"regression", n!"regression"),
  (n!"relational database", n!"relational-database"),
  (n!"relationship", n!"relationship"),
  (n!"relationships", n!"relationship"),
  (n!"rename", n!"rename"),
  (n!"renaming", n!"rename"),
  (n!"render", n!"render"),
  (n!"rendering", n!"rendering"),
  (n!"replace", n!"replace"),
  (n!"replacement, search and replace, find and replace, text replacement, string replacement", n!"replace"),
  (n!"replication", n!"replication"),
  (n!"report", n!"report"),
  (n!"reporting", n!"reporting"),
  (n!"reporting services", n!"reporting-services"),
  (n!"reportingservices 2008", n!"ssrs-2008"),
  (n!"reports", n!"report"),
  (n!"repositories", n!"repository"),
  (n!"repository", n!"repository"),
  (n!"repository pattern", n!"repository-pattern"),
  (n!"request", n!"request"),
  (n!"requests", n!"python-requests"),
  (n!"require.js", n!"requirejs"),
  (n!"requirejs", n!"requirejs"),
  (n!"resharper", n!"resharper"),
  (n!"resize", n!"resize"),
  (n!"resizing", n!"resize"),
  (n!"resource", n!"resources"),
  (n!"resources", n!"resources"),
  (n!"response", n!"response"),
  (n!"responsive", n!"responsive"),
  (n!"responsive design", n!"responsive-design"),
  (n!"rest", n!"rest"),
  (n!"restful web services, restful, restful architecture, rest api", n!"rest"),
  (n!"retrofit", n!"retrofit"),
  (n!"retrofit2", n!"retrofit2"),
  (n!"return", n!"return"),
  (n!"return statement", n!"return"),
  (n!"return value", n!"return-value"),
  (n!"reverse engineering", n!"reverse-engineering"),
  (n!"reverse proxy", n!"reverse-proxy"),
  (n!"rewrite url, urlrewrite, urlrewriter, rewrite", n!"url-rewriting"),
  (n!"rewritemap, rewriteengine, rewritecond, rewriterule, rewritebase", n!"mod-rewrite"),
  (n!"richfaces", n!"richfaces"),
  (n!"richtextbox", n!"richtextbox"),
  (n!"rmarkdown", n!"r-markdown"),
  (n!"robotframework", n!"robotframework"),
  (n!"ror, rails", n!"ruby-on-rails"),
  (n!"rotating, rotate", n!"rotation"),
  (n!"rotation", n!"rotation"),
  (n!"round, number rounding", n!"rounding"),
  (n!"rounding", n!"rounding"),
  (n!"routes", n!"routes"),
  (n!"routing", n!"routing"),
  (n!"row", n!"row"),
  (n!"rows", n!"rows"),
  (n!"rs232", n!"serial-port"),
  (n!"rsa", n!"rsa"),
  (n!"rspec", n!"rspec"),
  (n!"rss", n!"rss"),
  (n!"rssfeed", n!"rss"),
  (n!"rstats, r language", n!"r"),
  (n!"rstudio", n!"rstudio"),
  (n!"ruby", n!"ruby"),
  (n!"ruby on rails", n!"ruby-on-rails"),
  (n!"ruby on rails 3", n!"ruby-on-rails-3"),
  (n!"ruby on rails 3.1", n!"ruby-on-rails-3.1"),
  (n!"ruby on rails 3.2", n!"ruby-on-rails-3.2"),
  (n!"ruby on rails 3.2.1", n!"ruby-on-rails-3.2"),
  (n!"ruby on rails 4", n!"ruby-on-rails-4"),
  (n!"ruby on rails 5", n!"ruby-on-rails-5"),
  (n!"ruby on rails gems, gem, gems", n!"rubygems"),
  (n!"rubygems", n!"rubygems"),
  (n!"runtime", n!"runtime"),
  (n!"runtime error", n!"runtime-error"),
  (n!"rust", n!"rust"),
  (n!"rvm", n!"rvm"),
  (n!"rx java", n!"rx-java"),
  (n!"rx java2", n!"rx-java2"),
  (n!"rxjs", n!"rxjs"),
  (n!"s3 bucket, s3, aws s3", n!"amazon-s3"),
  (n!"safari", n!"safari"),
  (n!"safari bug", n!"safari"),
  (n!"sails.js", n!"sails.js"),
  (n!"sailsjs, sails", n!"sails.js"),
  (n!"salesforce", n!"salesforce"),
  (n!"salesforce.com", n!"salesforce"),
  (n!"sap", n!"sap"),
  (n!"sapui5", n!"sapui5"),
  (n!"sas", n!"sas"),
  (n!"sass", n!"sass"),
  (n!"save", n!"save"),
  (n!"saving", n!"save"),
  (n!"sbt", n!"sbt"),
  (n!"scala", n!"scala"),
  (n!"scalar udf, table udf, scalar function, scalar valued functions, table valued functions, udf, table valued function, table value function, table value functions", n!"user-defined-functions"),
  (n!"scale", n!"scale"),
  (n!"scanf", n!"scanf"),
  (n!"scenekit", n!"scenekit"),
  (n!"scheduled tasks", n!"scheduled-tasks"),
  (n!"schema", n!"schema"),
  (n!"schemas", n!"schema"),
  (n!"scheme", n!"scheme"),
  (n!"scikit learn", n!"scikit-learn"),
  (n!"scikits learn, sklearn", n!"scikit-learn"),
  (n!"scipy", n!"scipy"),
  (n!"scope", n!"scope"),
  (n!"scraping", n!"screen-scraping"),
  (n!"scrapy", n!"scrapy"),
  (n!"scrapy spider", n!"scrapy"),
  (n!"screen", n!"screen"),
  (n!"screen scraping", n!"screen-scraping"),
  (n!"screens", n!"screen"),
  (n!"screenshot", n!"screenshot"),
  (n!"scripting", n!"scripting"),
  (n!"scripts", n!"scripting"),
  (n!"scroll", n!"scroll"),
  (n!"scrollbar", n!"scrollbar"),
  (n!"scrolling", n!"scroll"),
  (n!"scrollview", n!"scrollview"),
  (n!"scss", n!"sass"),
  (n!"sdk", n!"sdk"),
  (n!"sdl", n!"sdl"),
  (n!"seaborn", n!"seaborn"),
  (n!"search", n!"search"),
  (n!"searching", n!"search"),
  (n!"secure, vulnerability, vulnerabilities, web security", n!"security"),
  (n!"security", n!"security"),
  (n!"sed", n!"sed"),
  (n!"segmentation fault", n!"segmentation-fault"),
  (n!"segue", n!"segue"),
  (n!"select", n!"select"),
  (n!"select query", n!"select"),
  (n!"select statement, sqlselect, sql select, sql syntax, sql query, sql statement", n!"sql"),
  (n!"select2", n!"jquery-select2"),
  (n!"selection", n!"selection"),
  (n!"selector", n!"selector"),
  (n!"selenium", n!"selenium"),
  (n!"selenium chromedriver", n!"selenium-chromedriver"),
  (n!"selenium webdriver", n!"selenium-webdriver"),
  (n!"selenium2, selenium webdriver c#, selenium webdriver java, webdriverjs", n!"selenium-webdriver"),
  (n!"sencha touch", n!"sencha-touch"),
  (n!"sencha touch 2", n!"sencha-touch-2"),
  (n!"seo", n!"seo"),
  (n!"seo friendly", n!"seo"),
  (n!"sequelize", n!"sequelize.js"),
  (n!"sequelize.js", n!"sequelize.js"),
  (n!"sequence", n!"sequence"),
  (n!"sequences", n!"sequence"),
  (n!"serial port", n!"serial-port"),
  (n!"serialization", n!"serialization"),
  (n!"serialze, serialisation, serializing, serialized, unserialize, deserialize, serialize", n!"serialization"),
  (n!"server", n!"server"),
  (n!"server client", n!"client-server"),
  (n!"service", n!"service"),
  (n!"service worker", n!"service-worker"),
  (n!"services", n!"service"),
  (n!"servicestack", n!"servicestack"),
  (n!"servlet, httpservletresponse, httpservletrequest, servletcontext, webservlet", n!"servlets"),
  (n!"servlets", n!"servlets"),
  (n!"session", n!"session"),
  (n!"session cookie", n!"session-cookies"),
  (n!"session cookies", n!"session-cookies"),
  (n!"session variables", n!"session-variables"),
  (n!"sessions", n!"session"),
  (n!"set", n!"set"),
  (n!"setinterval", n!"setinterval"),
  (n!"sets", n!"set"),
  (n!"settimeout", n!"settimeout"),
  (n!"setting, user settings, usersettings", n!"settings"),
  (n!"settings", n!"settings"),
  (n!"setup, installing", n!"installation"),
  (n!"sftp", n!"sftp"),
  (n!"sh", n!"sh"),
  (n!"shader", n!"shader"),
  (n!"shaders", n!"shader"),
  (n!"share", n!"share"),
  (n!"shared libraries", n!"shared-libraries"),
  (n!"shared library, so", n!"shared-libraries"),
  (n!"sharedpreferences", n!"sharedpreferences"),
  (n!"sharepoint", n!"sharepoint"),
  (n!"sharepoint 2007", n!"sharepoint-2007"),
  (n!"sharepoint 2010", n!"sharepoint-2010"),
  (n!"sharepoint 2013", n!"sharepoint-2013"),
  (n!"shell", n!"shell"),
  (n!"shell scripting, shell command, shell commands, shell script, shellscript", n!"shell"),
  (n!"shiny", n!"shiny"),
  (n!"shopify", n!"shopify"),
  (n!"shortcut key", n!"keyboard-shortcuts"),
  (n!"signal", n!"signals"),
  (n!"signal processing", n!"signal-processing"),
  (n!"signalr", n!"signalr"),
  (n!"signals", n!"signals"),
  (n!"sigsegv, segfault", n!"segmentation-fault"),
  (n!"silverlight", n!"silverlight"),
  (n!"silverlight 4", n!"silverlight-4.0"),
  (n!"silverlight 4.0", n!"silverlight-4.0"),
  (n!"simple build tool", n!"sbt"),
  (n!"simplexml", n!"simplexml"),
  (n!"simplexmlelement, simplexml load string", n!"simplexml"),
  (n!"simulation", n!"simulation"),
  (n!"sinatra", n!"sinatra"),
  (n!"single page application", n!"single-page-application"),
  (n!"single sign on", n!"single-sign-on"),
  (n!"singleton", n!"singleton"),
  (n!"singleton class, singleton methods, application singleton", n!"singleton"),
  (n!"sitecore", n!"sitecore"),
  (n!"size", n!"size"),
  (n!"slice", n!"slice"),
  (n!"slicing, slices, array slice, string slice", n!"slice"),
  (n!"slider", n!"slider"),
  (n!"sliders", n!"slider"),
  (n!"slideshow", n!"slideshow"),
  (n!"smarty", n!"smarty"),
  (n!"sms", n!"sms"),
  (n!"smtp", n!"smtp"),
  (n!"soap", n!"soap"),
  (n!"soapui", n!"soapui"),
  (n!"socket.io", n!"socket.io"),
  (n!"socketio", n!"socket.io"),
  (n!"sockets", n!"sockets"),
  (n!"software testing, tests, test", n!"testing"),
  (n!"solr", n!"solr"),
  (n!"sonar", n!"sonarqube"),
  (n!"sonarqube", n!"sonarqube"),
  (n!"sortable, jquery sortable", n!"jquery-ui-sortable"),
  (n!"sorting", n!"sorting"),
  (n!"sorting algorithm, array sorting, sort, sorted, date sorting", n!"sorting"),
  (n!"sound, sounds, sound api", n!"audio"),
  (n!"source code control, vcs, scc, sccs, source control, revision control, scm, source code management", n!"version-control"),
  (n!"spa", n!"single-page-application"),
  (n!"spark cluster framework, spark", n!"apache-spark"),
  (n!"spark dataframe, spark sql", n!"apache-spark-sql"),
  (n!"spark streaming", n!"spark-streaming"),
  (n!"sparql", n!"sparql"),
  (n!"sparse columns, sparse, sparse array", n!"sparse-matrix"),
  (n!"sparse matrix", n!"sparse-matrix"),
  (n!"special characters", n!"special-characters"),
  (n!"speech recognition", n!"speech-recognition"),
  (n!"spinner", n!"spinner"),
  (n!"split", n!"split"),
  (n!"spring", n!"spring"),
  (n!"spring batch", n!"spring-batch"),
  (n!"spring boot", n!"spring-boot"),
  (n!"spring cloud", n!"spring-cloud"),
  (n!"spring data", n!"spring-data"),
  (n!"spring data jpa", n!"spring-data-jpa"),
  (n!"spring framework, spring java config, spring config", n!"spring"),
  (n!"spring integration", n!"spring-integration"),
  (n!"spring jpa", n!"spring-data-jpa"),
  (n!"spring mvc", n!"spring-mvc")]

/-- filters/stackoverflow/generated.go:6-2995 `mappings`, part 8. -/
def soRows8 : List (Nat × Nat) := [
  (n!"spring security", n!"spring-security"),
  (n!"spring web", n!"spring-mvc"),
  (n!"sprintf, fprintf, snprintf, vsprintf, vsnprintf, vswprintf", n!"printf"),
  (n!"sprite", n!"sprite"),
  (n!"sprite kit", n!"sprite-kit"),
  (n!"sprites", n!"sprite"),
  (n!"spyder", n!"spyder"),
  (n!"sql", n!"sql"),
  (n!"sql azure", n!"azure-sql-database"),
  (n!"sql developer", n!"oracle-sqldeveloper"),
  (n!"sql injection", n!"sql-injection"),
  (n!"sql insert", n!"sql-insert"),
  (n!"sql join, joins, jointable", n!"join"),
  (n!"sql management studio, management studio, sqlservermanagementstudio", n!"ssms"),
  (n!"sql order by", n!"sql-order-by"),
  (n!"sql server", n!"sql-server"),
  (n!"sql server 2005", n!"sql-server-2005"),
  (n!"sql server 2008", n!"sql-server-2008"),
  (n!"sql server 2008 r2", n!"sql-server-2008-r2"),
  (n!"sql server 2012", n!"sql-server-2012"),
  (n!"sql server 2014", n!"sql-server-2014"),
  (n!"sql server 2016", n!"sql-server-2016"),
  (n!"sql server ce", n!"sql-server-ce"),
  (n!"sql to linq, linq2sql", n!"linq-to-sql"),
  (n!"sql triggers, trigger", n!"triggers"),
  (n!"sql update", n!"sql-update"),
  (n!"sql2008, mssql2008, ssms 2008", n!"sql-server-2008"),
  (n!"sql2008r2", n!"sql-server-2008-r2"),
  (n!"sql2016", n!"sql-server-2016"),
  (n!"sqlalchemy", n!"sqlalchemy"),
  (n!"sqlite", n!"sqlite"),
  (n!"sqlite3, sqllite, sqlitedatabase", n!"sqlite"),
  (n!"ssas", n!"ssas"),
  (n!"sscanf, fscanf", n!"scanf"),
  (n!"ssh", n!"ssh"),
  (n!"ssis", n!"ssis"),
  (n!"ssis development, integration services, ssis data transformations, dtsx", n!"ssis"),
  (n!"ssl", n!"ssl"),
  (n!"ssl certificate", n!"ssl-certificate"),
  (n!"ssms", n!"ssms"),
  (n!"sso", n!"single-sign-on"),
  (n!"ssrs 2008", n!"ssrs-2008"),
  (n!"ssrs 2012", n!"ssrs-2012"),
  (n!"ssrs, reporting service, sql reporting services, msrs, ssrs reports", n!"reporting-services"),
  (n!"stack", n!"stack"),
  (n!"stack overflow", n!"stack-overflow"),
  (n!"stackoverflowexception, stackoverflowerror", n!"stack-overflow"),
  (n!"stacks", n!"stack"),
  (n!"standard", n!"standards"),
  (n!"standards", n!"standards"),
  (n!"stanford nlp", n!"stanford-nlp"),
  (n!"stanford parser, corenlp server, stanford nlp server, corenlp", n!"stanford-nlp"),
  (n!"stata", n!"stata"),
  (n!"state", n!"state"),
  (n!"states", n!"state"),
  (n!"static", n!"static"),
  (n!"static libraries", n!"static-libraries"),
  (n!"static library", n!"static-libraries"),
  (n!"static vs non static", n!"static"),
  (n!"statistical analysis, stats", n!"statistics"),
  (n!"statistics", n!"statistics"),
  (n!"std", n!"std"),
  (n!"stdin", n!"stdin"),
  (n!"stdlib", n!"std"),
  (n!"stdout", n!"stdout"),
  (n!"stl", n!"stl"),
  (n!"stl containers", n!"stl"),
  (n!"storage", n!"storage"),
  (n!"stored procedure, sproc", n!"stored-procedures"),
  (n!"stored procedures", n!"stored-procedures"),
  (n!"storing", n!"storage"),
  (n!"storyboard", n!"storyboard"),
  (n!"stream", n!"stream"),
  (n!"streaming", n!"streaming"),
  (n!"streams", n!"stream"),
  (n!"string", n!"string"),
  (n!"string formatting", n!"string-formatting"),
  (n!"string manipulation, str, strings, empty string", n!"string"),
  (n!"string split, splitting", n!"split"),
  (n!"stringformat", n!"string-formatting"),
  (n!"stripe payments", n!"stripe-payments"),
  (n!"stripe.js, stripe connect, stripe.net", n!"stripe-payments"),
  (n!"struct", n!"struct"),
  (n!"structs", n!"struct"),
  (n!"structure", n!"structure"),
  (n!"structures", n!"structure"),
  (n!"struts", n!"struts"),
  (n!"struts 2", n!"struts2"),
  (n!"struts2", n!"struts2"),
  (n!"style", n!"styles"),
  (n!"styles", n!"styles"),
  (n!"subclass", n!"subclass"),
  (n!"subclasses", n!"subclass"),
  (n!"subdomain", n!"subdomain"),
  (n!"subdomains", n!"subdomain"),
  (n!"sublimetext", n!"sublimetext"),
  (n!"sublimetext2", n!"sublimetext2"),
  (n!"sublimetext3", n!"sublimetext3"),
  (n!"submit", n!"submit"),
  (n!"subprocess", n!"subprocess"),
  (n!"subqueries, subselect", n!"subquery"),
  (n!"subquery", n!"subquery"),
  (n!"subset", n!"subset"),
  (n!"subsetting", n!"subset"),
  (n!"substring", n!"substring"),
  (n!"substrings", n!"substring"),
  (n!"subversion", n!"svn"),
  (n!"sum", n!"sum"),
  (n!"support vector machines", n!"svm"),
  (n!"svg", n!"svg"),
  (n!"svg path, svgz", n!"svg"),
  (n!"svm", n!"svm"),
  (n!"svn", n!"svn"),
  (n!"swagger", n!"swagger"),
  (n!"swift", n!"swift"),
  (n!"swift1.2, swift language, swift ios", n!"swift"),
  (n!"swift2", n!"swift2"),
  (n!"swift2.0, swift2.2.1, swift2.2, swift2.1", n!"swift2"),
  (n!"swift3", n!"swift3"),
  (n!"swift3.0, swift3.0.1, swift3.0.2, swift3.1", n!"swift3"),
  (n!"swift4", n!"swift4"),
  (n!"swiftui", n!"swiftui"),
  (n!"swing", n!"swing"),
  (n!"switch statement", n!"switch-statement"),
  (n!"switch, switch case", n!"switch-statement"),
  (n!"swt", n!"swt"),
  (n!"swtoolkit", n!"swt"),
  (n!"sybase", n!"sybase"),
  (n!"symbol", n!"symbols"),
  (n!"symbols", n!"symbols"),
  (n!"symfony", n!"symfony"),
  (n!"symfony1", n!"symfony1"),
  (n!"symfony3, symfony2", n!"symfony"),
  (n!"symfony4", n!"symfony4"),
  (n!"sympy", n!"sympy"),
  (n!"sync", n!"synchronization"),
  (n!"synchronization", n!"synchronization"),
  (n!"syntax", n!"syntax"),
  (n!"syntax error", n!"syntax-error"),
  (n!"syntax highlighting", n!"syntax-highlighting"),
  (n!"system", n!"system"),
  (n!"system architecture, solution architecture, software architecture, application architecture", n!"architecture"),
  (n!"system.reactive", n!"system.reactive"),
  (n!"systems", n!"system"),
  (n!"t9n", n!"translation"),
  (n!"tab", n!"tabs"),
  (n!"tableau", n!"tableau"),
  (n!"tableview", n!"tableview"),
  (n!"tabs", n!"tabs"),
  (n!"tag", n!"tags"),
  (n!"tags", n!"tags"),
  (n!"task", n!"task"),
  (n!"task parallel library", n!"task-parallel-library"),
  (n!"task scheduling, task scheduler", n!"scheduled-tasks"),
  (n!"tasks", n!"task"),
  (n!"tcl", n!"tcl"),
  (n!"tcp", n!"tcp"),
  (n!"tcpip, tcp ip", n!"tcp"),
  (n!"td, rowspan, colspan", n!"html-table"),
  (n!"tdd", n!"tdd"),
  (n!"team foundation server, team foundation", n!"tfs"),
  (n!"teamcity", n!"teamcity"),
  (n!"telerik", n!"telerik"),
  (n!"template", n!"templates"),
  (n!"templates", n!"templates"),
  (n!"tensorflow", n!"tensorflow"),
  (n!"tensorflow gpu", n!"tensorflow"),
  (n!"teradata", n!"teradata"),
  (n!"terminal", n!"terminal"),
  (n!"terminals", n!"terminal"),
  (n!"terraform", n!"terraform"),
  (n!"tesseract", n!"tesseract"),
  (n!"testacular, karma", n!"karma-runner"),
  (n!"testdrivendesign, test driven, testdrivendevelopment", n!"tdd"),
  (n!"testing", n!"testing"),
  (n!"testng", n!"testng"),
  (n!"text", n!"text"),
  (n!"text file", n!"text-files"),
  (n!"text files", n!"text-files"),
  (n!"text messages, text message, short message service", n!"sms"),
  (n!"textarea", n!"textarea"),
  (n!"textbox", n!"textbox"),
  (n!"textboxes", n!"textbox"),
  (n!"textfield", n!"textfield"),
  (n!"texture", n!"textures"),
  (n!"textures", n!"textures"),
  (n!"textview", n!"textview"),
  (n!"tfs", n!"tfs"),
  (n!"theme", n!"themes"),
  (n!"themes", n!"themes"),
  (n!"thread safety", n!"thread-safety"),
  (n!"threadpool", n!"threadpool"),
  (n!"threadsafe, thread safe", n!"thread-safety"),
  (n!"three.js", n!"three.js"),
  (n!"thumbnails", n!"thumbnails"),
  (n!"thymeleaf", n!"thymeleaf"),
  (n!"tidyverse", n!"tidyverse"),
  (n!"time", n!"time"),
  (n!"time complexity", n!"time-complexity"),
  (n!"time series", n!"time-series"),
  (n!"time tag, html5, webpage, html comments, div, divs, nested divs, div layouts, span, html attributes, html tag", n!"html"),
  (n!"timeout", n!"timeout"),
  (n!"timer", n!"timer"),
  (n!"timers", n!"timer"),
  (n!"timestamp", n!"timestamp"),
  (n!"timestamps", n!"timestamp"),
  (n!"timezone", n!"timezone"),
  (n!"timezones, timezoneinfo", n!"timezone"),
  (n!"tinymce", n!"tinymce"),
  (n!"titanium", n!"titanium"),
  (n!"tkinter", n!"tkinter"),
  (n!"tls", n!"ssl"),
  (n!"toggle", n!"toggle"),
  (n!"token", n!"token"),
  (n!"tokens", n!"token"),
  (n!"tomcat", n!"tomcat"),
  (n!"tomcat7", n!"tomcat7"),
  (n!"toolbar", n!"toolbar"),
  (n!"toolbars", n!"toolbar"),
  (n!"tooltip", n!"tooltip"),
  (n!"tooltips", n!"tooltip"),
  (n!"tornado", n!"tornado"),
  (n!"tortoisesvn", n!"tortoisesvn"),
  (n!"touch", n!"touch"),
  (n!"tpl", n!"task-parallel-library"),
  (n!"transact sql", n!"tsql"),
  (n!"transaction, transactional", n!"transactions"),
  (n!"transactions", n!"transactions"),
  (n!"transform", n!"transform"),
  (n!"transition", n!"transition"),
  (n!"transitions", n!"transition"),
  (n!"translation", n!"translation"),
  (n!"transparency", n!"transparency"),
  (n!"travis", n!"travis-ci"),
  (n!"travis ci", n!"travis-ci"),
  (n!"tree", n!"tree"),
  (n!"trees", n!"tree"),
  (n!"treeview", n!"treeview"),
  (n!"triggers", n!"triggers"),
  (n!"try catch", n!"try-catch"),
  (n!"try statement, try catch throw, try, catch", n!"try-catch"),
  (n!"tsql", n!"tsql"),
  (n!"tsvn, tortoise", n!"tortoisesvn"),
  (n!"tuple", n!"tuples"),
  (n!"tuples", n!"tuples"),
  (n!"twig", n!"twig"),
  (n!"twilio", n!"twilio"),
  (n!"twisted", n!"twisted"),
  (n!"twitter", n!"twitter"),
  (n!"twitter bootstrap", n!"twitter-bootstrap"),
  (n!"twitter bootstrap 3", n!"twitter-bootstrap-3"),
  (n!"twitter bootstrap 3.0, twitter bootstrap 3.0.2", n!"twitter-bootstrap-3"),
  (n!"twitter bootstrap 4", n!"bootstrap-4"),
  (n!"twitter rest api, twitter api", n!"twitter"),
  (n!"type casting, cast, typecast", n!"casting"),
  (n!"type conversion", n!"type-conversion"),
  (n!"typeconverting, data type conversion", n!"type-conversion"),
  (n!"typeerror", n!"typeerror"),
  (n!"types", n!"types"),
  (n!"typescript", n!"typescript"),
  (n!"typo3", n!"typo3"),
  (n!"ubuntu", n!"ubuntu"),
  (n!"ubuntu 14.04", n!"ubuntu-14.04"),
  (n!"ubuntu 16.04", n!"ubuntu-16.04"),
  (n!"udp", n!"udp"),
  (n!"ui router, angularjs ui router", n!"angular-ui-router"),
  (n!"ui, gui", n!"user-interface"),
  (n!"ui5, sapui, openui5", n!"sapui5"),
  (n!"uibutton", n!"uibutton"),
  (n!"uicollectionview", n!"uicollectionview"),
  (n!"uicollectionviewcell", n!"uicollectionviewcell"),
  (n!"uigesturerecognizer", n!"uigesturerecognizer"),
  (n!"uiimage", n!"uiimage"),
  (n!"uiimagepickercontroller", n!"uiimagepickercontroller"),
  (n!"uiimageview", n!"uiimageview"),
  (n!"uikit", n!"uikit"),
  (n!"uilabel", n!"uilabel"),
  (n!"uimapview", n!"mkmapview"),
  (n!"uinavigation", n!"uinavigationcontroller"),
  (n!"uinavigationbar", n!"uinavigationbar"),
  (n!"uinavigationcontroller", n!"uinavigationcontroller"),
  (n!"uipickerview", n!"uipickerview"),
  (n!"uiscrollview", n!"uiscrollview"),
  (n!"uisearchbar", n!"uisearchbar"),
  (n!"uitabbarcontroller", n!"uitabbarcontroller"),
  (n!"uitableview", n!"uitableview"),
  (n!"uitableviewcell, uitableviewcellaccessory, uitableviewcellstylevalue, uitableviewstyle, uitableviewdatasource, uitableviewdelegate, uitableviewheader, uitableviewfooter, uitableview section, uitableviewstylegrouped, uitableviewcontroller, uitable, uitableviewcelll, tableviewcell", n!"uitableview"),
  (n!"uitextfield", n!"uitextfield"),
  (n!"uitextview", n!"uitextview"),
  (n!"uiview", n!"uiview"),
  (n!"uiviewcontroller", n!"uiviewcontroller"),
  (n!"uiwebview", n!"uiwebview"),
  (n!"umbraco", n!"umbraco"),
  (n!"uml", n!"uml"),
  (n!"uml modeling, uml modelling", n!"uml"),
  (n!"uncaught typeerror", n!"typeerror"),
  (n!"undefined", n!"undefined"),
  (n!"underscore", n!"underscore.js"),
  (n!"underscore.js", n!"underscore.js"),
  (n!"unicode", n!"unicode")]

/-- filters/stackoverflow/generated.go:6-2995 `mappings`, part 9. -/
def soRows9 : List (Nat × Nat) := [
  (n!"union", n!"union"),
  (n!"unique", n!"unique"),
  (n!"uniqueness", n!"unique"),
  (n!"unit test, unit tests, unittest", n!"unit-testing"),
  (n!"unit testing", n!"unit-testing"),
  (n!"unity container", n!"unity-container"),
  (n!"unity game engine, unity2d, unity, unity5, unity5.3, unity3d 5", n!"unity3d"),
  (n!"unity3d", n!"unity3d"),
  (n!"unix", n!"unix"),
  (n!"unix utils, unix programming", n!"unix"),
  (n!"unordered list, ordered list, ul, li, ol", n!"html-lists"),
  (n!"updatepanel", n!"updatepanel"),
  (n!"updates", n!"updates"),
  (n!"upgrade", n!"upgrade"),
  (n!"upload", n!"upload"),
  (n!"upload file, fileuploader, image uploading", n!"file-upload"),
  (n!"uploads", n!"upload"),
  (n!"uri", n!"uri"),
  (n!"url", n!"url"),
  (n!"url redirection, redirects, redirecting, redirection", n!"redirect"),
  (n!"url rewriting", n!"url-rewriting"),
  (n!"url routing", n!"url-routing"),
  (n!"urllib", n!"urllib"),
  (n!"urls", n!"url"),
  (n!"us ascii", n!"ascii"),
  (n!"usb", n!"usb"),
  (n!"usbdevice", n!"usb"),
  (n!"user control", n!"user-controls"),
  (n!"user controls", n!"user-controls"),
  (n!"user defined functions", n!"user-defined-functions"),
  (n!"user input", n!"user-input"),
  (n!"user interface", n!"user-interface"),
  (n!"utf 8", n!"utf-8"),
  (n!"utf8 decode", n!"utf-8"),
  (n!"uwp", n!"uwp"),
  (n!"vaadin", n!"vaadin"),
  (n!"vagrant", n!"vagrant"),
  (n!"valgrind", n!"valgrind"),
  (n!"validating, validators, validate, validations, input validation, form validation, validator, data validation", n!"validation"),
  (n!"validation", n!"validation"),
  (n!"variable assignment", n!"variable-assignment"),
  (n!"variable naming, casing conventions", n!"naming-conventions"),
  (n!"variable scope", n!"scope"),
  (n!"variable, vars", n!"variables"),
  (n!"variables", n!"variables"),
  (n!"variadic templates", n!"variadic-templates"),
  (n!"vb classic", n!"vb6"),
  (n!"vb, vbproj", n!"vb.net"),
  (n!"vb.net", n!"vb.net"),
  (n!"vb6", n!"vb6"),
  (n!"vba", n!"vba"),
  (n!"vbhtml, cshtml, asp.net razor pages, razor web pages, .cshtml", n!"razor"),
  (n!"vbs", n!"vbscript"),
  (n!"vbscript", n!"vbscript"),
  (n!"vector", n!"vector"),
  (n!"vectorization", n!"vectorization"),
  (n!"vectorizing, vectorize", n!"vectorization"),
  (n!"vectors", n!"vector"),
  (n!"verilog", n!"verilog"),
  (n!"version", n!"version"),
  (n!"version control", n!"version-control"),
  (n!"versions", n!"version"),
  (n!"vhdl", n!"vhdl"),
  (n!"video", n!"video"),
  (n!"video streaming", n!"video-streaming"),
  (n!"view", n!"view"),
  (n!"viewmodel", n!"viewmodel"),
  (n!"viewpager", n!"android-viewpager"),
  (n!"views", n!"view"),
  (n!"vim", n!"vim"),
  (n!"viml, vimrc, vimscript, gvimrc, gvim", n!"vim"),
  (n!"virtual machine", n!"virtual-machine"),
  (n!"virtualbox", n!"virtualbox"),
  (n!"virtualenv", n!"virtualenv"),
  (n!"visual basic applications, vba macros, macros vba", n!"vba"),
  (n!"visual c++", n!"visual-c++"),
  (n!"visual studio", n!"visual-studio"),
  (n!"visual studio 2005", n!"visual-studio-2005"),
  (n!"visual studio 2008", n!"visual-studio-2008"),
  (n!"visual studio 2010", n!"visual-studio-2010"),
  (n!"visual studio 2012", n!"visual-studio-2012"),
  (n!"visual studio 2013", n!"visual-studio-2013"),
  (n!"visual studio 2015", n!"visual-studio-2015"),
  (n!"visual studio 2015 comm, visual studio 2015 ce, vs 2015 preview, vs2015", n!"visual-studio-2015"),
  (n!"visual studio 2017", n!"visual-studio-2017"),
  (n!"visual studio 2019", n!"visual-studio-2019"),
  (n!"visual studio code", n!"visual-studio-code"),
  (n!"visualisation", n!"visualization"),
  (n!"visualization", n!"visualization"),
  (n!"vlookup", n!"vlookup"),
  (n!"vm", n!"virtual-machine"),
  (n!"volley", n!"android-volley"),
  (n!"vs 2013 preview, vs2013, vs 2013 update 2, vs2013 update 4, vs 2013", n!"visual-studio-2013"),
  (n!"vs team services, visual studio team services, visual studio online, vsts, tfs service, team foundation service, vso", n!"azure-devops"),
  (n!"vs.net, msvs, visual studio community", n!"visual-studio"),
  (n!"vs2005", n!"visual-studio-2005"),
  (n!"vs2008", n!"visual-studio-2008"),
  (n!"vs2010, visual studio 2010 rtm, msvc10, visual studio 2010 rc, visual studio 2010 beta 1, visual studio 2010 beta 2, visual studio 2010 sp1, vs2010 express", n!"visual-studio-2010"),
  (n!"vs2017", n!"visual-studio-2017"),
  (n!"vscode", n!"visual-studio-code"),
  (n!"vso build, tfs vnext, vsts build", n!"azure-pipelines"),
  (n!"vsto", n!"vsto"),
  (n!"vue component", n!"vue-component"),
  (n!"vue router", n!"vue-router"),
  (n!"vue, vuejs, vue js", n!"vue.js"),
  (n!"vue.js", n!"vue.js"),
  (n!"vue2", n!"vuejs2"),
  (n!"vuejs2", n!"vuejs2"),
  (n!"vuetify", n!"vuetify.js"),
  (n!"vuetify.js", n!"vuetify.js"),
  (n!"vuex", n!"vuex"),
  (n!"wait", n!"wait"),
  (n!"wamp", n!"wamp"),
  (n!"war", n!"war"),
  (n!"warning", n!"warnings"),
  (n!"warnings", n!"warnings"),
  (n!"watchkit", n!"watchkit"),
  (n!"wcf", n!"wcf"),
  (n!"wcf service", n!"wcf"),
  (n!"web", n!"web"),
  (n!"web applications", n!"web-applications"),
  (n!"web browser, browsers", n!"browser"),
  (n!"web client", n!"webclient"),
  (n!"web config", n!"web-config"),
  (n!"web crawler", n!"web-crawler"),
  (n!"web deployment", n!"web-deployment"),
  (n!"web performance test, performance test", n!"performance-testing"),
  (n!"web scraping", n!"web-scraping"),
  (n!"web service", n!"web-services"),
  (n!"web services", n!"web-services"),
  (n!"web.config", n!"web-config"),
  (n!"webapp, webapps, web application", n!"web-applications"),
  (n!"webbrowser control", n!"webbrowser-control"),
  (n!"webclient", n!"webclient"),
  (n!"webcrawling, webspiders, web spider, crawler, crawling, crawl, spider", n!"web-crawler"),
  (n!"webdriver", n!"webdriver"),
  (n!"webforms", n!"webforms"),
  (n!"webgl", n!"webgl"),
  (n!"webkit", n!"webkit"),
  (n!"weblogic", n!"weblogic"),
  (n!"webpack", n!"webpack"),
  (n!"webpagescraping, scraper", n!"web-scraping"),
  (n!"webrtc", n!"webrtc"),
  (n!"webserver", n!"webserver"),
  (n!"website, websites, www", n!"web"),
  (n!"websocket", n!"websocket"),
  (n!"websockets", n!"websocket"),
  (n!"websphere", n!"websphere"),
  (n!"webstorm", n!"webstorm"),
  (n!"webview", n!"webview"),
  (n!"wget", n!"wget"),
  (n!"where", n!"where-clause"),
  (n!"where clause", n!"where-clause"),
  (n!"while loop", n!"while-loop"),
  (n!"while, while loops", n!"while-loop"),
  (n!"whitespace", n!"whitespace"),
  (n!"wicket", n!"wicket"),
  (n!"widget", n!"widget"),
  (n!"widgets", n!"widget"),
  (n!"width", n!"width"),
  (n!"wifi", n!"wifi"),
  (n!"wifi configuration", n!"wifi"),
  (n!"wildcard", n!"wildcard"),
  (n!"wildcards", n!"wildcard"),
  (n!"wildfly", n!"wildfly"),
  (n!"win universal app", n!"win-universal-app"),
  (n!"win32api, window api, windows api, win32, windows sdk", n!"winapi"),
  (n!"win7, windows 7 api", n!"windows-7"),
  (n!"winapi", n!"winapi"),
  (n!"window", n!"window"),
  (n!"windows", n!"windows"),
  (n!"windows 10", n!"windows-10"),
  (n!"windows 7", n!"windows-7"),
  (n!"windows 8", n!"windows-8"),
  (n!"windows 8 preview", n!"windows-8"),
  (n!"windows 8.1", n!"windows-8.1"),
  (n!"windows azure", n!"azure"),
  (n!"windows azure blob", n!"azure-storage-blobs"),
  (n!"windows azure storage", n!"azure-storage"),
  (n!"windows installer", n!"windows-installer"),
  (n!"windows mobile", n!"windows-mobile"),
  (n!"windows phone", n!"windows-phone"),
  (n!"windows phone 7", n!"windows-phone-7"),
  (n!"windows phone 8", n!"windows-phone-8"),
  (n!"windows phone 8.1", n!"windows-phone-8.1"),
  (n!"windows powershell", n!"powershell"),
  (n!"windows programming, windows application, windows applications", n!"windows"),
  (n!"windows registry", n!"registry"),
  (n!"windows runtime", n!"windows-runtime"),
  (n!"windows service, winservice", n!"windows-services"),
  (n!"windows services", n!"windows-services"),
  (n!"windows store apps", n!"windows-store-apps"),
  (n!"windows universal", n!"win-universal-app"),
  (n!"windows xp", n!"windows-xp"),
  (n!"windows.forms, window form, windows form, window forms, windows forms, winform", n!"winforms"),
  (n!"winforms", n!"winforms"),
  (n!"winmo", n!"windows-mobile"),
  (n!"winrt", n!"windows-runtime"),
  (n!"winrt xaml", n!"winrt-xaml"),
  (n!"winxp, xp", n!"windows-xp"),
  (n!"wix", n!"wix"),
  (n!"wmi", n!"wmi"),
  (n!"wolfram mathematica", n!"wolfram-mathematica"),
  (n!"woocommerce", n!"woocommerce"),
  (n!"word vba", n!"word-vba"),
  (n!"wordpress", n!"wordpress"),
  (n!"wordpress plugin dev, wordpress filter, wordpress widget, wp query, wordpress mu, wordpress theme customize, wordpress plugin, wpdb, wordpress loop, wordpress permission", n!"wordpress"),
  (n!"wordpress themes", n!"wordpress-theming"),
  (n!"wordpress theming", n!"wordpress-theming"),
  (n!"workbook, ms excel", n!"excel"),
  (n!"workflow", n!"workflow"),
  (n!"wp7, windows phone 7.5", n!"windows-phone-7"),
  (n!"wp8", n!"windows-phone-8"),
  (n!"wpf", n!"wpf"),
  (n!"wpf binding, databind", n!"data-binding"),
  (n!"wpf controls", n!"wpf-controls"),
  (n!"wpfdatagrid", n!"datagrid"),
  (n!"wrapper", n!"wrapper"),
  (n!"wrappers", n!"wrapper"),
  (n!"wsdl", n!"wsdl"),
  (n!"wso2", n!"wso2"),
  (n!"wso2esb", n!"wso2esb"),
  (n!"wx", n!"wxwidgets"),
  (n!"wxpython", n!"wxpython"),
  (n!"wxwidgets", n!"wxwidgets"),
  (n!"x86", n!"x86"),
  (n!"x86 64", n!"x86-64"),
  (n!"xamarin", n!"xamarin"),
  (n!"xamarin forms", n!"xamarin.forms"),
  (n!"xamarin.android", n!"xamarin.android"),
  (n!"xamarin.forms", n!"xamarin.forms"),
  (n!"xamarin.ios", n!"xamarin.ios"),
  (n!"xaml", n!"xaml"),
  (n!"xammp", n!"xampp"),
  (n!"xampp", n!"xampp"),
  (n!"xcode", n!"xcode"),
  (n!"xcode ide", n!"xcode"),
  (n!"xcode4", n!"xcode4"),
  (n!"xcode5", n!"xcode5"),
  (n!"xcode6", n!"xcode6"),
  (n!"xcode6 beta4, xcode6 beta3", n!"xcode6"),
  (n!"xcode7", n!"xcode7"),
  (n!"xcode8", n!"xcode8"),
  (n!"xcode8.3.2, xcode8.3.3, xcode8.3, xcode8.1", n!"xcode8"),
  (n!"xdocument, xlinq", n!"linq-to-xml"),
  (n!"xhtml", n!"xhtml"),
  (n!"xhtml5, valid xhtml", n!"xhtml"),
  (n!"xml", n!"xml"),
  (n!"xml file", n!"xml"),
  (n!"xml parser", n!"xml-parsing"),
  (n!"xml parsing", n!"xml-parsing"),
  (n!"xml schema", n!"xsd"),
  (n!"xml serialization", n!"xml-serialization"),
  (n!"xml transform, xsl, xsltproc, xsltprocessor, xslt 2.0 processors, xsltransform", n!"xslt"),
  (n!"xmlhttp, xhr", n!"xmlhttprequest"),
  (n!"xmlhttprequest", n!"xmlhttprequest"),
  (n!"xmpp", n!"xmpp"),
  (n!"xna", n!"xna"),
  (n!"xpages", n!"xpages"),
  (n!"xpath", n!"xpath"),
  (n!"xpath expression", n!"xpath"),
  (n!"xquery", n!"xquery"),
  (n!"xsd", n!"xsd"),
  (n!"xslt", n!"xslt"),
  (n!"xslt 1.0", n!"xslt-1.0"),
  (n!"xslt 2.0", n!"xslt-2.0"),
  (n!"xsrf, csrf protection", n!"csrf"),
  (n!"xss", n!"xss"),
  (n!"xubuntu, kubuntu, lubuntu", n!"ubuntu"),
  (n!"yaml", n!"yaml"),
  (n!"yarn", n!"yarn"),
  (n!"yii", n!"yii"),
  (n!"yii framework, yii db, php yii, yii mvc", n!"yii"),
  (n!"yii2", n!"yii2"),
  (n!"yml", n!"yaml"),
  (n!"youtube", n!"youtube"),
  (n!"youtube api", n!"youtube-api"),
  (n!"youtube data api", n!"youtube-data-api"),
  (n!"youtube v3 api, youtube data api v3, youtube api v3", n!"youtube-data-api"),
  (n!"z index", n!"z-index"),
  (n!"zend framework", n!"zend-framework"),
  (n!"zend framework2", n!"zend-framework2"),
  (n!"zf, zend", n!"zend-framework"),
  (n!"zf2", n!"zend-framework2"),
  (n!"zip", n!"zip"),
  (n!"zookeeper", n!"apache-zookeeper"),
  (n!"zoom", n!"zoom"),
  (n!"zooming", n!"zoom"),
  (n!"zsh", n!"zsh"),
  (n!"zurb foundation", n!"zurb-foundation")]

/-- filters/stackoverflow/generated.go:5-2996 `mappings`. -/
def soRows : List (List (Nat × Nat)) := [soRows0, soRows1, soRows2, soRows3, soRows4, soRows5, soRows6, soRows7, soRows8, soRows9]

/-- filters/stackoverflow/filter.go:15 `ignoreRunes`: `' ', '-', '.', '/'`. -/
def stackOverflowIgnore : List Rune := [0x20, 0x2D, 0x2E, 0x2F]

end Jargon
