import Verif.Proofs.Tree

/-! Hints for checking the table of filters/stackoverflow, found outside Lean: where the tag of each entry of
synonyms is listed itself, and the entry of synonyms for each tag. -/

namespace Jargon

set_option maxRecDepth 10000

/-- Part of `soHints`. -/
def soHints0 : List Nat := [
  332, 816, 6, 267, 547, 4, 5, 1040, 2813, 1873, 1874, 19, 1212, 22, 30, 652, 26, 1714, 2400, 59,
  103, 34, 45, 104, 69, 975, 185, 58, 285, 227, 71, 105, 79, 83, 301, 304, 2926, 2432, 203, 384,
  144, 49, 102, 122, 124, 126, 1756, 2038, 2328, 2586, 143, 163, 152, 1420, 170, 172, 173, 70, 175,
  438, 607, 670, 1158, 1185, 1405, 2371, 2615, 737, 200, 213, 208, 209, 1073, 206, 222, 1910, 108,
  40, 241, 242, 236, 2836, 232, 177, 234, 238, 240, 257, 260, 259, 2740, 264, 556, 268, 109, 2659,
  274, 277, 281, 282, 289, 292, 96, 86]

/-- Part of `soHints`. -/
def soHints1 : List Nat := [
  89, 92, 93, 309, 318, 308, 323, 329, 335, 1367, 338, 341, 344, 347, 349, 362, 356, 358, 365,
  2649, 371, 377, 375, 2322, 381, 1187, 629, 2266, 337, 2369, 343, 391, 395, 393, 399, 226, 401,
  412, 413, 414, 418, 420, 424, 427, 181, 436, 440, 819, 445, 453, 452, 454, 460, 458, 463, 1080,
  2287, 594, 1045, 478, 472, 230, 476, 541, 481, 484, 489, 492, 493, 85, 498, 333, 501, 592, 506,
  510, 513, 522, 517, 524, 87, 528, 530, 534, 535, 657, 538, 545, 553, 551, 550, 559, 532, 561,
  2024, 1532, 565, 1131, 570, 571, 574, 578, 579, 586, 588, 591, 598, 596]

/-- Part of `soHints`. -/
def soHints2 : List Nat := [
  599, 603, 605, 612, 512, 61, 623, 1776, 627, 631, 632, 2967, 1735, 639, 640, 567, 406, 976, 649,
  646, 654, 645, 589, 661, 666, 2201, 668, 409, 675, 497, 682, 692, 689, 686, 695, 2658, 701, 700,
  704, 780, 711, 712, 715, 718, 720, 723, 725, 729, 727, 736, 740, 450, 744, 755, 753, 757, 760,
  762, 791, 773, 771, 775, 776, 765, 3, 11, 784, 2012, 788, 758, 796, 799, 2105, 2339, 809, 88,
  820, 825, 815, 1656, 117, 863, 836, 90, 838, 841, 840, 848, 853, 856, 857, 860, 865, 868, 870,
  872, 878, 885, 884, 897, 892, 893, 896]

/-- Part of `soHints`. -/
def soHints3 : List Nat := [
  906, 905, 913, 911, 920, 922, 918, 1936, 956, 1135, 936, 939, 943, 938, 946, 947, 951, 954, 1085,
  959, 1086, 964, 960, 993, 969, 972, 186, 648, 966, 988, 991, 994, 999, 996, 1001, 1003, 919,
  1010, 916, 1014, 1896, 1022, 1018, 1084, 1030, 1128, 1091, 1087, 1088, 1038, 1049, 1043, 1095,
  1058, 1062, 1065, 52, 1103, 1070, 1075, 1077, 1117, 1150, 1092, 1151, 1060, 1097, 1099, 2046,
  2134, 1074, 1106, 1112, 1089, 1154, 1107, 1123, 1120, 1129, 1126, 1140, 1144, 1147, 1148, 1156,
  1161, 1162, 1164, 1166, 1172, 1177, 1640, 1182, 1188, 2, 1000]

/-- Part of `soHints`. -/
def soHints4 : List Nat := [
  1202, 778, 1201, 1215, 178, 1300, 2925, 1262, 1227, 707, 1565, 2847, 1234, 1301, 1302, 1303,
  1304, 1305, 1244, 934, 1246, 1250, 1258, 1260, 1263, 1266, 1268, 1269, 1312, 1275, 2411, 1279,
  1286, 1289, 1292, 1295, 1297, 1306, 1309, 1334, 2542, 1311, 1316, 1323, 1331, 1321, 1320, 1322,
  1325, 1335, 1453, 1342, 1344, 1346, 1360, 2956, 1352, 215, 1351, 1410, 2522, 1366, 1372, 1375,
  1376, 1371, 1381, 1386, 1769, 1388, 1357, 1393, 1402, 1361, 1412, 1414, 1424, 1419, 698, 1417,
  1426, 1429, 1432, 1355, 1436, 1438, 1455, 1448, 1478, 190, 1462, 1465, 1468, 1467, 1476, 1524,
  1480, 1482, 1484, 1522, 1785, 1491, 843, 1495, 1498]

/-- Part of `soHints`. -/
def soHints5 : List Nat := [
  1501, 1504, 1508, 128, 1510, 1517, 1518, 1222, 862, 1534, 1531, 1541, 1548, 1551, 1552, 1559,
  279, 1564, 1568, 568, 1576, 1577, 846, 1583, 1591, 1105, 1601, 2452, 1604, 1607, 1609, 1611,
  1616, 1621, 1628, 1632, 1635, 1636, 1638, 1641, 1643, 1648, 1652, 1897, 1658, 1717, 1888, 2009,
  2775, 1719, 1657, 1665, 1668, 1590, 2902, 1229, 1678, 1684, 1741, 1685, 1689, 1692, 1694, 1696,
  66, 2929, 2931, 2330, 2763, 1230, 2415, 812, 2879, 2422, 2416, 2780, 1732, 1730, 326, 1512, 1686,
  244, 245, 1617, 1956, 1744, 1749, 296, 133, 1595, 1760, 1728, 1762, 1772, 1774, 1441, 165, 191,
  1809, 1788, 584, 1796, 1797]

/-- Part of `soHints`. -/
def soHints6 : List Nat := [
  653, 1812, 1816, 1818, 1826, 290, 1843, 724, 1881, 1822, 1857, 1862, 1834, 1851, 926, 465, 1867,
  2106, 1356, 1878, 2414, 1863, 1861, 1845, 1574, 1887, 1894, 1899, 1905, 1909, 1912, 1916, 1917,
  1920, 1923, 1924, 731, 1929, 1938, 1941, 1942, 2006, 1747, 1949, 2144, 770, 1918, 1960, 1253,
  192, 2084, 1966, 1968, 1973, 1974, 1977, 1614, 1984, 193, 1020, 1989, 1990, 1994, 1996, 1998,
  1999, 1210, 2016, 2018, 2023, 2111, 2027, 2029, 2031, 2033, 2039, 2043, 2047, 2048, 2053, 2054,
  2059, 2037, 2075, 2074, 2081, 2077, 659, 2499, 1048, 611]

/-- Part of `soHints`. -/
def soHints7 : List Nat := [
  2214, 2219, 2112, 2114, 685, 2130, 2132, 2135, 137, 2143, 2147, 2152, 2154, 2158, 2441, 2161,
  2167, 2087, 2172, 2174, 2177, 2181, 2185, 2720, 1681, 2103, 2213, 2198, 2200, 2298, 2208, 2102,
  2216, 2221, 94, 2230, 2232, 2234, 2240, 2729, 2249, 2252, 2260, 2257, 2259, 2263, 2265, 2239,
  2273, 2276, 2280, 2407, 1427, 2288, 2292, 2295, 2296, 2299, 485, 2303, 2308, 2311, 2309, 2314,
  2319, 1284, 2323, 2326, 2333, 1469, 2341, 2278, 2345, 2242, 2347, 2353, 2357, 2359, 2367, 2574,
  2373, 1431, 2375, 275, 2760, 2351, 195, 196, 2385, 2390, 2395]

/-- Part of `soHints`. -/
def soHints8 : List Nat := [
  2399, 2022, 2403, 314, 1872, 1408, 2439, 1525, 2638, 2417, 2418, 2421, 2430, 2246, 2435, 2352,
  2163, 2445, 2444, 2449, 2450, 2453, 2456, 2455, 2460, 2461, 2465, 2469, 2467, 2472, 2475, 2389,
  2476, 2480, 2482, 2484, 2488, 2490, 2491, 2493, 2501, 2502, 2504, 2512, 2511, 2509, 2514, 2516,
  2518, 2523, 2525, 2529, 2530, 2536, 218, 2540, 2631, 2548, 2550, 2248, 2551, 2556, 1203, 2587,
  2564, 2565, 2568, 1459, 2559, 2578, 2363, 2581, 2585, 2589, 2590, 1195, 2602, 2604, 2606, 2437,
  2613, 2617, 2619, 2552, 2641, 2627, 2629, 2634, 2635, 2639, 2622, 2644, 2650, 368, 2648, 439,
  2655, 156, 2731, 2237, 1672, 2680, 2685, 2693, 2657, 2698]

/-- Part of `soHints`. -/
def soHints9 : List Nat := [
  2701, 2704, 2707, 2708, 1199, 941, 2714, 2139, 2718, 229, 2725, 2728, 2732, 2739, 1750, 2255,
  2744, 2749, 2748, 2118, 2753, 2755, 2754, 2759, 147, 2765, 2769, 2750, 2782, 2788, 2771, 148,
  2781, 310, 2776, 2777, 2778, 2779, 2784, 2786, 313, 2805, 2807, 2809, 2815, 2817, 385, 2833,
  1937, 2829, 2823, 2820, 2824, 2827, 2819, 2845, 2852, 2853, 2857, 2860, 2862, 2868, 2872, 2873,
  307, 316, 315, 2010, 2870, 2149, 2890, 2865, 2895, 2880, 2888, 2893, 2905, 2908, 887, 2882, 2883,
  678, 693, 2917, 2924, 2930, 2934, 2935, 2939, 2942, 1526, 2945, 2947, 2950, 2962, 2963, 2955,
  2959, 644, 2661, 2971, 2969, 2977, 2980, 2981, 198, 2986]

/-- For each entry that is not a tag's own, the place of the entry that is. -/
def soHints : List (List Nat) := [soHints0, soHints1, soHints2, soHints3, soHints4, soHints5, soHints6, soHints7, soHints8, soHints9]

/-- Part of `soSynTree`. -/
def soSynTree0 : Tree :=
  .node (.node (.node (.node (.node (.node (.node .leaf n!"r" n!"rstats, r language" .leaf) n!"3d" n!"3d graphics" (.node .leaf n!"c#" n!"csharp, c# language, c sharp, c#.net, visual c#, .cs file" .leaf)) n!"f#" n!"fsharp" (.node (.node .leaf n!"go" n!"golang, go language" .leaf) n!"io" n!"input output" (.node .leaf n!"sh" n!"bourne shell" .leaf))) n!"adb" n!"android debug bridge" (.node (.node (.node .leaf n!"ads" n!"advertising, advertisement" .leaf) n!"aem" n!"cq5, day cq" (.node .leaf n!"air" n!"adobe air" .leaf)) n!"ant" n!"apache ant" (.node (.node .leaf n!"aop" n!"aspect oriented" .leaf) n!"api" n!"apis" (.node .leaf n!"apk" n!"android apk" .leaf)))) n!"awk" n!"nawk, mawk, awk formatting, gawk" (.node (.node (.node (.node .leaf n!"c++" n!"cxx, cpp" .leaf) n!"cmd" n!"cmd.exe" (.node .leaf n!"com" n!"component object model" .leaf)) n!"css" n!"css3, css text shadow, css box shadow, css border radius, css border image, css text overflow, css font weight, css borders, dynamic css, css reset, cascading style sheet, css layout, css attributes, css background image, css validation, box model, style.css template file, css display, min height, min width, max height, max width, css centering, css line height, css overflow, css box model, font weight, alternate stylesheets, inline block, css menu, css classes, css height, css inheritance, css2, css columns" (.node (.node .leaf n!"csv" n!"comma separated, .csv, tsv" .leaf) n!"cxf" n!"apache cxf" (.node .leaf n!"db2" n!"ibm db2" .leaf))) n!"dll" n!"dll hell, dynamic link library, .dll, dlls" (.node (.node (.node .leaf n!"dns" n!"domains, domain" .leaf) n!"dom" n!"htmldocument, html dom" (.node .leaf n!"fft" n!"ifft, fourier transform, fourier" .leaf)) n!"gis" n!"geographical information" (.node (.node .leaf n!"gtk" n!"gtk+" .leaf) n!"gwt" n!"google web toolkit" (.node .leaf n!"hex" n!"hexadecimal notation, hexadecimal" .leaf))))) n!"ios" n!"iphone os, apple ios, ios sdk" (.node (.node (.node (.node (.node .leaf n!"ipc" n!"interprocess communicatio, inter process communicat" .leaf) n!"jar" n!"jars, .jar" (.node .leaf n!"jpa" n!"java persistence api" .leaf)) n!"jwt" n!"json web token" (.node (.node .leaf n!"key" n!"keys" .leaf) n!"max" n!"maximum" (.node .leaf n!"nlp" n!"language processing, natural language, computational linguistics, natural language process, text analysis, natural language processing" .leaf))) n!"npm" n!"npmjs" (.node (.node (.node .leaf n!"oop" n!"object orientation, oo, ood, object oriented modeling, oo design, oops, object oriented design, object oriented" .leaf) n!"orm" n!"object relational mapping" (.node .leaf n!"php" n!"php namespaces, phtml, php include, php oop, php errors, php cli, hypertext preprocessor, php.ini, php frameworks, php5, php date, php fpm, php session, php cgi, php mail, php functions, php readfile" .leaf)) n!"pip" n!"pip3" (.node (.node .leaf n!"pug" n!"pugjs, jade" .leaf) n!"rss" n!"rssfeed" (.node .leaf n!"sbt" n!"simple build tool" .leaf)))) n!"seo" n!"seo friendly" (.node (.node (.node (.node .leaf n!"set" n!"sets" .leaf) n!"sms" n!"text messages, text message, short message service" (.node .leaf n!"sql" n!"select statement, sqlselect, sql select, sql syntax, sql query, sql statement" .leaf)) n!"ssl" n!"tls" (.node (.node .leaf n!"std" n!"stdlib" .leaf) n!"stl" n!"stl containers" (.node .leaf n!"svg" n!"svg path, svgz" .leaf))) n!"svm" n!"support vector machines" (.node (.node (.node .leaf n!"svn" n!"subversion" .leaf) n!"swt" n!"swtoolkit" (.node .leaf n!"tcp" n!"tcpip, tcp ip" .leaf)) n!"tdd" n!"testdrivendesign, test driven, testdrivendevelopment" (.node (.node .leaf n!"tfs" n!"team foundation server, team foundation" .leaf) n!"uml" n!"uml modeling, uml modelling" (.node .leaf n!"url" n!"urls" .leaf)))))) n!"usb" n!"usbdevice" (.node (.node (.node (.node (.node (.node .leaf n!"vb6" n!"vb classic" .leaf) n!"vba" n!"visual basic applications, vba macros, macros vba" (.node .leaf n!"vim" n!"viml, vimrc, vimscript, gvimrc, gvim" .leaf)) n!"war" n!".war, war files" (.node (.node .leaf n!"wcf" n!"wcf service" .leaf) n!"web" n!"website, websites, www" (.node .leaf n!"x86" n!"ia32, 80x86, ia 32, pentium" .leaf))) n!"xml" n!"xml file" (.node (.node (.node .leaf n!"xsd" n!"xml schema" .leaf) n!"xss" n!"cross site scripting, xss prevention" (.node .leaf n!"yii" n!"yii framework, yii db, php yii, yii mvc" .leaf)) n!".net" n!"dot net, dotnet, .net framework" (.node (.node .leaf n!"ajax" n!"ajax request, .ajax" .leaf) n!"bash" n!".bash profile, bash function, bash script, bashrc, .bashrc, bash variables, bash alias" (.node .leaf n!"blob" n!"blobs" .leaf)))) n!"bots" n!"bot" (.node (.node (.node (.node .leaf n!"byte" n!"bytes" .leaf) n!"case" n!"case expression" (.node .leaf n!"cell" n!"cells" .leaf)) n!"char" n!"chars" (.node (.node .leaf n!"chef" n!"opscode" .leaf) n!"cron" n!"cronjob, cronexpression, crontab" (.node .leaf n!"csrf" n!"xsrf, csrf protection" .leaf))) n!"cuda" n!"cuda kernel, cudamalloc" (.node (.node (.node .leaf n!"date" n!"dates" .leaf) n!"dojo" n!"dojo.data, dojo require, dojo.stateful, dojo layer, dojo store, dojox, dijit" (.node .leaf n!"each" n!".each" .leaf)) n!"file" n!"files" (.node (.node .leaf n!"fork" n!"forking" .leaf) n!"gorm" n!"grails hasmany, grails orm" (.node .leaf n!"grep" n!"fgrep, pgrep, egrep" .leaf))))) n!"gzip" n!"gz" (.node (.node (.node (.node (.node .leaf n!"hash" n!"hashing, hashes, hashalgorithm, string hashing, digest" .leaf) n!"hive" n!"apache hive" (.node .leaf n!"hook" n!"hooking, hooks" .leaf)) n!"html" n!"time tag, html5, webpage, html comments, div, divs, nested divs, div layouts, span, html attributes, html tag" (.node (.node .leaf n!"ios4" n!"iphone sdk 4.0, iphone sdk 4, ios4.0.1, ios4.3, ios4.1, iphone os 4.0, iphone os 4, ios 4.0" .leaf) n!"ios5" n!"ios5 compatibility, iphone sdk 5.0, ios 5.0, ios5 sdk" (.node .leaf n!"ios6" n!"iphone sdk 6.0" .leaf))) n!"ipad" n!"ipad sdk, ipad splitview, ipad ui" (.node (.node (.node .leaf n!"java" n!"oraclejdk, javax, openjdk, java se, .java, j2se, core java, java libraries, jdk, jre" .leaf) n!"jaxb" n!"jaxb2" (.node .leaf n!"jdbc" n!"jdbc driver" .leaf)) n!"join" n!"sql join, joins, jointable" (.node (.node .leaf n!"jpeg" n!"jpg" .leaf) n!"json" n!"json parsing, json encode, json decode, jsonobject" (.node .leaf n!"less" n!"lesscss" .leaf)))) n!"line" n!"lines" (.node (.node (.node (.node .leaf n!"linq" n!"language integrated query, linq query syntax" .leaf) n!"list" n!"lists, ilist, python list" (.node .leaf n!"math" n!"mathematics, maths, mathematical, arithmetic" .leaf)) n!"menu" n!"menus" (.node (.node .leaf n!"mvvm" n!"model view viewmodel" .leaf) n!"null" n!"nil, nullvalue, nulls" (.node .leaf n!"odoo" n!"openerp" .leaf))) n!"path" n!"paths" (.node (.node (.node .leaf n!"perl" n!"perl5" .leaf) n!"pipe" n!"piping, pipes" (.node .leaf n!"plot" n!"plotting" .leaf)) n!"port" n!"ports" (.node (.node .leaf n!"rest" n!"restful web services, restful, restful architecture, rest api" .leaf) n!"sass" n!"scss" .leaf)))))

/-- Part of `soSynTree`. -/
def soSynTree1 : Tree :=
  .node (.node (.node (.node (.node (.node (.node .leaf n!"solr" n!"apache solr" .leaf) n!"ssas" n!"analysis services" (.node .leaf n!"ssis" n!"ssis development, integration services, ssis data transformations, dtsx" .leaf)) n!"ssms" n!"sql management studio, management studio, sqlservermanagementstudio" (.node (.node .leaf n!"tabs" n!"tab" .leaf) n!"tags" n!"tag" (.node .leaf n!"task" n!"tasks" .leaf))) n!"tree" n!"trees" (.node (.node (.node .leaf n!"tsql" n!"transact sql" .leaf) n!"unix" n!"unix utils, unix programming" (.node .leaf n!"view" n!"views" .leaf)) n!"wifi" n!"wifi configuration" (.node (.node .leaf n!"xmpp" n!"jabber" .leaf) n!"xslt" n!"xml transform, xsl, xsltproc, xsltprocessor, xslt 2.0 processors, xsltransform" (.node .leaf n!"yaml" n!"yml" .leaf)))) n!"zoom" n!"zooming" (.node (.node (.node (.node .leaf n!"admob" n!"google admob" .leaf) n!"ascii" n!"us ascii" (.node .leaf n!"audio" n!"sound, sounds, sound api" .leaf)) n!"azure" n!"windows azure" (.node (.node .leaf n!"big-o" n!"big theta, o notation" .leaf) n!"block" n!"blocks" (.node .leaf n!"build" n!"builds" .leaf))) n!"c++11" n!"c++0x" (.node (.node (.node .leaf n!"c++14" n!"c++1y" .leaf) n!"c++17" n!"c++1z" (.node .leaf n!"class" n!"classes" .leaf)) n!"click" n!"clicked" (.node (.node .leaf n!"cloud" n!"cloud computing" .leaf) n!"const" n!"non const" (.node .leaf n!"crash" n!"crashes, appcrash" .leaf))))) n!"d3.js" n!"d3v5, d3.js v4, d3v4, d3js, d3" (.node (.node (.node (.node (.node .leaf n!"delay" n!"delayed" .leaf) n!"elisp" n!"emacs lisp" (.node .leaf n!"email" n!"mail" .leaf)) n!"enums" n!"enumerations, enum" (.node (.node .leaf n!"excel" n!"workbook, ms excel" .leaf) n!"extjs" n!"ext, sencha" (.node .leaf n!"field" n!"fields" .leaf))) n!"flash" n!"flash ide, flash player, swf, adobe flash" (.node (.node (.node .leaf n!"flask" n!"flask blueprint" .leaf) n!"flex4" n!"adobe flex 4" (.node .leaf n!"fonts" n!"font" .leaf)) n!"forms" n!"html form, form" (.node (.node .leaf n!"gmail" n!"google mail" .leaf) n!"graph" n!"graphs" (.node .leaf n!"guava" n!"google collections, guava collections, google guava cache" .leaf)))) n!"guice" n!"google guice" (.node (.node (.node (.node .leaf n!"icons" n!"icon" .leaf) n!"iis-7" n!"iis7" (.node .leaf n!"image" n!"picture, pictures, img, images" .leaf)) n!"input" n!"inputs" (.node (.node .leaf n!"itext" n!"itextpdf, itextsharp" .leaf) n!"jsf-2" n!"jsf2.0" (.node .leaf n!"julia" n!"julia lang, julialang" .leaf))) n!"label" n!"labels" (.node (.node (.node .leaf n!"limit" n!"limits" .leaf) n!"loops" n!"loop, looping, iterate" (.node .leaf n!"macos" n!"osx, macosx, mac" .leaf)) n!"maven" n!"mvn" (.node (.node .leaf n!"merge" n!"merging" .leaf) n!"model" n!"models" (.node .leaf n!"mysql" n!"mysql query, my sql, mysqld, mysqlclient, mysql server, mysql table, mysql if, mysqlsh, mysqldump" .leaf)))))) n!"neo4j" n!"neo4j2.0" (.node (.node (.node (.node (.node (.node .leaf n!"netty" n!"jboss netty" .leaf) n!"panel" n!"panels" (.node .leaf n!"popup" n!"pop up" .leaf)) n!"prism" n!"compositewpf" (.node (.node .leaf n!"range" n!"ranges" .leaf) n!"razor" n!"vbhtml, cshtml, asp.net razor pages, razor web pages, .cshtml" (.node .leaf n!"realm" n!"realm.io, realm net, android realm, realmswift, realm cocoa" .leaf))) n!"regex" n!"regexes, regexp, regular expression, regular expressions, regex php, perlre, perl regex, apache regexp, regularexpression" (.node (.node (.node .leaf n!"scanf" n!"sscanf, fscanf" .leaf) n!"scope" n!"variable scope" (.node .leaf n!"shell" n!"shell scripting, shell command, shell commands, shell script, shellscript" .leaf)) n!"slice" n!"slicing, slices, array slice, string slice" (.node (.node .leaf n!"split" n!"string split, splitting" .leaf) n!"stack" n!"stacks" (.node .leaf n!"stata" n!"mata" .leaf)))) n!"state" n!"states" (.node (.node (.node (.node .leaf n!"swift" n!"swift1.2, swift language, swift ios" .leaf) n!"swing" n!"java swing, javax.swing" (.node .leaf n!"timer" n!"timers" .leaf)) n!"token" n!"tokens" (.node (.node .leaf n!"types" n!"datatype, type, datatypes" .leaf) n!"utf-8" n!"utf8 decode" (.node .leaf n!"video" n!"movie, movies, videos" .leaf))) n!"xampp" n!"xammp" (.node (.node (.node .leaf n!"xcode" n!"xcode ide" .leaf) n!"xhtml" n!"xhtml5, valid xhtml" (.node .leaf n!"xpath" n!"xpath expression" .leaf)) n!"64-bit" n!"64bit, x64" (.node (.node .leaf n!"action" n!"actions" .leaf) n!"apache" n!"httpd" (.node .leaf n!"append" n!"appendto" .leaf))))) n!"applet" n!"java applet, applets" (.node (.node (.node (.node (.node .leaf n!"arrays" n!"bytearray, static array, swift array, arraycopy, javascript array, sub arrays, character arrays, jsonarray, char array, string array, mongodb arrays, array of objects, array" .leaf) n!"assets" n!"asset" (.node .leaf n!"binary" n!"binary number, binary system" .leaf)) n!"border" n!"borders" (.node (.node .leaf n!"branch" n!"branches, branching" .leaf) n!"buffer" n!"buffers" (.node .leaf n!"button" n!"buttons" .leaf))) n!"charts" n!"charting controls, charting, chart" (.node (.node (.node .leaf n!"client" n!"clients" .leaf) n!"colors" n!"colour, colours, color" (.node .leaf n!"corona" n!"coronasdk" .leaf)) n!"ctypes" n!"python ctypes" (.node (.node .leaf n!"delphi" n!"object pascal" .leaf) n!"dialog" n!"dialogs, dialogue, dialogbox" (.node .leaf n!"driver" n!"drivers" .leaf)))) n!"elixir" n!"elixir lang" (.node (.node (.node (.node .leaf n!"events" n!"event" .leaf) n!"filter" n!"filters" (.node .leaf n!"format" n!"formats" .leaf)) n!"grails" n!"groovygrails" (.node (.node .leaf n!"hadoop" n!"apache hadoop" .leaf) n!"header" n!"headers" (.node .leaf n!"ibm-mq" n!"mqseries, websphere mq" .leaf))) n!"iframe" n!"iframes" (.node (.node (.node .leaf n!"import" n!"importing, imports" .leaf) n!"insert" n!"inserts" (.node .leaf n!"iphone" n!"iphone sdk, iphone development, iphone app, iphone programming, iphone web, iphone ios" .leaf)) n!"java-8" n!"jdk8, jdk1.8, jdk1.8.0" (.node (.node .leaf n!"jinja2" n!"jinja" .leaf) n!"jmeter" n!"apache jmeter" .leaf)))))

/-- Part of `soSynTree`. -/
def soSynTree2 : Tree :=
  .node (.node (.node (.node (.node (.node (.node .leaf n!"jquery" n!"jquery core, jquery live, jquery callback, jquery after, jquery hasclass, jquery get, jquery post, toggleclass, removeclass, jquery css, jquery find, addclass, jquery filter, jquery effects" .leaf) n!"kernel" n!"kernel programming" (.node .leaf n!"lambda" n!"lambda expressions, lambda functions" .leaf)) n!"layout" n!"layouts, htmllayout, html layout" (.node (.node .leaf n!"linker" n!"linking" .leaf) n!"lodash" n!"lodash es" (.node .leaf n!"lucene" n!"lucene index" .leaf))) n!"macros" n!"macro, custom macros" (.node (.node (.node .leaf n!"mapkit" n!"mkmapkit" .leaf) n!"margin" n!"negative margin" (.node .leaf n!"matlab" n!"matlab toolbox, mlint, m file, matlab path, matlab ide" .leaf)) n!"matrix" n!"matrices" (.node (.node .leaf n!"meteor" n!"meteor.js, meteorjs" .leaf) n!"module" n!"modules" (.node .leaf n!"monads" n!"monad" .leaf)))) n!"mysqli" n!"php mysqli" (.node (.node (.node (.node .leaf n!"nested" n!"nesting" .leaf) n!"object" n!"objects" (.node .leaf n!"openmp" n!"omp" .leaf)) n!"paypal" n!"paypal api, paypal express, paypal checkout, paypal sdk, paypalmerchantsdk" (.node (.node .leaf n!"pickle" n!"pickle dump, cpickle, unpickling" .leaf) n!"printf" n!"sprintf, fprintf, snprintf, vsprintf, vsnprintf, vswprintf" (.node .leaf n!"pytest" n!"py.test" .leaf))) n!"python" n!"py, pythonic, python interpreter, python shell" (.node (.node (.node .leaf n!"racket" n!"drracket, drscheme, plt scheme" .leaf) n!"random" n!"prng, rng, random sample, random number generator, pseudo random numbers, random generator, random numbers, random number, rand, random alpha generator, random string, random string generator" (.node .leaf n!"rename" n!"renaming" .leaf)) n!"report" n!"reports" (.node (.node .leaf n!"resize" n!"resizing" .leaf) n!"return" n!"return statement" (.node .leaf n!"routes" n!"custom routes, route" .leaf))))) n!"safari" n!"safari bug" (.node (.node (.node (.node (.node .leaf n!"sapui5" n!"ui5, sapui, openui5" .leaf) n!"schema" n!"schemas" (.node .leaf n!"scrapy" n!"scrapy spider" .leaf)) n!"screen" n!"screens" (.node (.node .leaf n!"scroll" n!"scrolling" .leaf) n!"search" n!"searching" (.node .leaf n!"select" n!"select query" .leaf))) n!"shader" n!"shaders" (.node (.node (.node .leaf n!"slider" n!"sliders" .leaf) n!"spring" n!"spring framework, spring java config, spring config" (.node .leaf n!"sprite" n!"sprites" .leaf)) n!"sqlite" n!"sqlite3, sqllite, sqlitedatabase" (.node (.node .leaf n!"static" n!"static vs non static" .leaf) n!"stream" n!"streams" (.node .leaf n!"string" n!"string manipulation, str, strings, empty string" .leaf)))) n!"struct" n!"structs" (.node (.node (.node (.node .leaf n!"styles" n!"style" .leaf) n!"subset" n!"subsetting" (.node .leaf n!"swift2" n!"swift2.0, swift2.2.1, swift2.2, swift2.1" .leaf)) n!"swift3" n!"swift3.0, swift3.0.1, swift3.0.2, swift3.1" (.node (.node .leaf n!"system" n!"systems" .leaf) n!"themes" n!"theme" (.node .leaf n!"tomcat" n!"apache tomcat" .leaf))) n!"tuples" n!"tuple" (.node (.node (.node .leaf n!"ubuntu" n!"xubuntu, kubuntu, lubuntu" .leaf) n!"unique" n!"uniqueness" (.node .leaf n!"upload" n!"uploads" .leaf)) n!"vb.net" n!"vb, vbproj" (.node (.node .leaf n!"vector" n!"vectors" .leaf) n!"vue.js" n!"vue, vuejs, vue js" (.node .leaf n!"vuejs2" n!"vue2" .leaf)))))) n!"widget" n!"widgets" (.node (.node (.node (.node (.node (.node .leaf n!"winapi" n!"win32api, window api, windows api, win32, windows sdk" .leaf) n!"x86-64" n!"amd64" (.node .leaf n!"xcode6" n!"xcode6 beta4, xcode6 beta3" .leaf)) n!"xcode8" n!"xcode8.3.2, xcode8.3.3, xcode8.3, xcode8.1" (.node (.node .leaf n!"airflow" n!"apache airflow" .leaf) n!"android" n!"android framework, android application, android ui, android device, android mobile, android api, android sdk" (.node .leaf n!"angular" n!"angularjs2, angular2, angular4, angular4.x" .leaf))) n!"ansible" n!"ansible playbook" (.node (.node (.node .leaf n!"asp.net" n!"asp.net website, aspx, asp net, aspdotnet" .leaf) n!"aurelia" n!"aurelia framework, aurelia binding, aurelia navigation, aurelia router, aurelia validation, aurelia event aggregator, aurelia templating router, aurelia bundling, aurelia testing, aurelia ux, aurelia form" (.node .leaf n!"average" n!"avg" .leaf)) n!"aws-sdk" n!"amazon sdk" (.node (.node .leaf n!"binding" n!"bindings" .leaf) n!"boolean" n!"bool" (.node .leaf n!"browser" n!"web browser, browsers" .leaf)))) n!"caching" n!"cache, cache coherence, cached" (.node (.node (.node (.node .leaf n!"cakephp" n!"cake" .leaf) n!"casting" n!"type casting, cast, typecast" (.node .leaf n!"clojure" n!"cljx, cljc, clj" .leaf)) n!"command" n!"commands" (.node (.node .leaf n!"cookies" n!"cookie" .leaf) n!"cordova" n!"apache cordova" (.node .leaf n!"dataset" n!"datasets" .leaf))) n!"decimal" n!"decimals" (.node (.node (.node .leaf n!"default" n!"defaults" .leaf) n!"element" n!"elements" (.node .leaf n!"express" n!"expressjs, express.js" .leaf)) n!"file-io" n!"file operations, fileinput, output file, input files, input file, outfile, infile, output files" (.node (.node .leaf n!"flexbox" n!"css flexbox" .leaf) n!"foreach" n!"foreach loop, enhanced for loop" (.node .leaf n!"formula" n!"formulas" .leaf))))) n!"geojson" n!"geojason" (.node (.node (.node (.node (.node .leaf n!"ggplot2" n!"qplot, ggplot" .leaf) n!"gruntjs" n!"grunt, grunt cli" (.node .leaf n!"handler" n!"handlers" .leaf)) n!"hashmap" n!"hashmaps" (.node (.node .leaf n!"include" n!"include files, includes" .leaf) n!"integer" n!"integers" (.node .leaf n!"interop" n!"interoperability" .leaf))) n!"java-me" n!"j2me, jme" (.node (.node (.node .leaf n!"jpa-2.0" n!"jpa 2" .leaf) n!"locking" n!"lock" (.node .leaf n!"logging" n!"logger, log, logs" .leaf)) n!"magento" n!"magento upgrade, magento admin, magento widgets, magento module, magento enterprise, magento catalog, magento theming, magento extension" (.node (.node .leaf n!"mapping" n!"mappings" .leaf) n!"message" n!"messages" (.node .leaf n!"methods" n!"method" .leaf)))) n!"mocking" n!"mocking framework, mock, mocks" (.node (.node (.node (.node .leaf n!"mongodb" n!"mongo, mongod" .leaf) n!"ms-word" n!"microsoft word, winword" (.node .leaf n!"newline" n!"crlf" .leaf)) n!"node.js" n!"nodejs, io.js" (.node (.node .leaf n!"numbers" n!"number" .leaf) n!"nuxt.js" n!"nuxt" (.node .leaf n!"openxml" n!"ooxml" .leaf))) n!"outlook" n!"microsoft office outlook, outlook express" (.node (.node (.node .leaf n!"overlay" n!"overlays" .leaf) n!"package" n!"packages" (.node .leaf n!"parsing" n!"parser, parsers, parse" .leaf)) n!"plugins" n!"plugin" (.node (.node .leaf n!"polygon" n!"polygons" .leaf) n!"pom.xml" n!"pom" .leaf)))))

/-- Part of `soSynTree`. -/
def soSynTree3 : Tree :=
  .node (.node (.node (.node (.node (.node (.node .leaf n!"product" n!"products" .leaf) n!"project" n!"projects" (.node .leaf n!"raphael" n!"raphael js" .leaf)) n!"reactjs" n!"react, react jsx" (.node (.node .leaf n!"replace" n!"replacement, search and replace, find and replace, text replacement, string replacement" .leaf) n!"service" n!"services" (.node .leaf n!"session" n!"sessions" .leaf))) n!"signals" n!"signal" (.node (.node (.node .leaf n!"sockets" n!"bsd sockets, socket programming, socket" .leaf) n!"sorting" n!"sorting algorithm, array sorting, sort, sorted, date sorting" (.node .leaf n!"storage" n!"storing" .leaf)) n!"struts2" n!"struts 2" (.node (.node .leaf n!"symbols" n!"symbol" .leaf) n!"symfony" n!"symfony3, symfony2" (.node .leaf n!"testing" n!"software testing, tests, test" .leaf)))) n!"textbox" n!"textboxes" (.node (.node (.node (.node .leaf n!"toolbar" n!"toolbars" .leaf) n!"tooltip" n!"tooltips" (.node .leaf n!"twitter" n!"twitter rest api, twitter api" .leaf)) n!"unity3d" n!"unity game engine, unity2d, unity, unity5, unity5.3, unity3d 5" (.node (.node .leaf n!"version" n!"versions" .leaf) n!"windows" n!"windows programming, windows application, windows applications" (.node .leaf n!"wrapper" n!"wrappers" .leaf))) n!".net-3.5" n!".net framework 3.5" (.node (.node (.node .leaf n!".net-4.0" n!".net framework 4.0, .net4" .leaf) n!".net-4.5" n!".net 4.5.1, .net 4.5.2" (.node .leaf n!"assembly" n!"assembler, asm, assembly language" .leaf)) n!"calendar" n!"calender" (.node (.node .leaf n!"callback" n!"callbacks" .leaf) n!"chart.js" n!"charts.js, chartjs" (.node .leaf n!"checkbox" n!"checkboxes" .leaf))))) n!"closures" n!"closure" (.node (.node (.node (.node (.node .leaf n!"combobox" n!"comboboxes" .leaf) n!"comments" n!"comment" (.node .leaf n!"controls" n!"control" .leaf)) n!"css-grid" n!"css grids" (.node (.node .leaf n!"database" n!"databases, db, database structure, dbms" .leaf) n!"datagrid" n!"wpfdatagrid" (.node .leaf n!"datetime" n!"datetime operation, datetime manipulation, datetime functions" .leaf))) n!"doctrine" n!"phpdoctrine" (.node (.node (.node .leaf n!"download" n!"downloading, downloads, file download" .leaf) n!"eloquent" n!"laravel eloquent" (.node .leaf n!"embedded" n!"embedded systems" .leaf)) n!"ember.js" n!"emberjs, ember" (.node (.node .leaf n!"encoding" n!"encodings" .leaf) n!"escaping" n!"escape character, unescape, escaped characters, escape sequence, character escaping, string escaping, double escaping, escape, escaped" (.node .leaf n!"external" n!"externals" .leaf)))) n!"facebook" n!"facebook sdk ios, facebook api, facebook connect, facebook application, facebook sdk" (.node (.node (.node (.node .leaf n!"firebase" n!"firebase android" .leaf) n!"function" n!"functions, def" (.node .leaf n!"generics" n!".net generics, generic, java generics, swift generics, generic class, kotlin generics, scala generics" .leaf)) n!"geometry" n!"circle" (.node (.node .leaf n!"gnu-make" n!"gnumakefiles, gnumakefile, gmake" .leaf) n!"gradient" n!"gradients" (.node .leaf n!"graphics" n!"computer graphics, graphic" .leaf))) n!"group-by" n!"group by all, group by time interval" (.node (.node (.node .leaf n!"homebrew" n!"brew" .leaf) n!"indexing" n!"index, indexes" (.node .leaf n!"instance" n!"instances" .leaf)) n!"iterator" n!"iterators, listiterator" (.node (.node .leaf n!"javamail" n!"javax.mail" .leaf) n!"jboss7.x" n!"jboss as 7" (.node .leaf n!"json.net" n!"newtonsoft" .leaf)))))) n!"kendo-ui" n!"kendo" (.node (.node (.node (.node (.node (.node .leaf n!"keyboard" n!"keyboards" .leaf) n!"listener" n!"listeners" (.node .leaf n!"makefile" n!"makefiles, make" .leaf)) n!"momentjs" n!"moment.js" (.node (.node .leaf n!"pointers" n!"pointer, ptr" .leaf) n!"printing" n!"printer, print" (.node .leaf n!"proguard" n!"android proguard" .leaf))) n!"pthreads" n!"pthread" (.node (.node (.node .leaf n!"redirect" n!"url redirection, redirects, redirecting, redirection" .leaf) n!"registry" n!"windows registry" (.node .leaf n!"rotation" n!"rotating, rotate" .leaf)) n!"rounding" n!"round, number rounding" (.node (.node .leaf n!"rubygems" n!"ruby on rails gems, gem, gems" .leaf) n!"sails.js" n!"sailsjs, sails" (.node .leaf n!"security" n!"secure, vulnerability, vulnerabilities, web security" .leaf)))) n!"sequence" n!"sequences" (.node (.node (.node (.node .leaf n!"servlets" n!"servlet, httpservletresponse, httpservletrequest, servletcontext, webservlet" .leaf) n!"settings" n!"setting, user settings, usersettings" (.node .leaf n!"subclass" n!"subclasses" .leaf)) n!"subquery" n!"subqueries, subselect" (.node (.node .leaf n!"terminal" n!"terminals" .leaf) n!"textures" n!"texture" (.node .leaf n!"textview" n!"android textview" .leaf))) n!"timezone" n!"timezones, timezoneinfo" (.node (.node (.node .leaf n!"triggers" n!"sql triggers, trigger" .leaf) n!"vbscript" n!"vbs" (.node .leaf n!"warnings" n!"warning" .leaf)) n!"webforms" n!"asp.net webforms, webform" (.node (.node .leaf n!"wildcard" n!"wildcards" .leaf) n!"winforms" n!"windows.forms, window form, windows form, window forms, windows forms, winform" (.node .leaf n!".htaccess" n!"htaccess, codeigniter htaccess" .leaf))))) n!".net-core" n!"dotnetcore, dotnet core" (.node (.node (.node (.node (.node .leaf n!"algorithm" n!"algorithms, algorithm design" .leaf) n!"alignment" n!"align" (.node .leaf n!"amazon-s3" n!"s3 bucket, s3, aws s3" .leaf)) n!"angularjs" n!"angular.js, angular1.x" (.node (.node .leaf n!"animation" n!"animated, rotateanimation, scaleanimation, animations" .leaf) n!"arguments" n!"argument" (.node .leaf n!"bar-chart" n!"bar graph, barplot" .leaf))) n!"cassandra" n!"apache cassandra" (.node (.node (.node .leaf n!"character" n!"characters" .leaf) n!"constants" n!"constant" (.node .leaf n!"css-float" n!"float css, css clear" .leaf)) n!"dataframe" n!"data.frame, dataframes, data frame" (.node (.node .leaf n!"debugging" n!"debugger, debug" .leaf) n!"decorator" n!"decorators" (.node .leaf n!"delegates" n!"delegate" .leaf)))) n!"directory" n!"directories, dir, folders, folder" (.node (.node (.node (.node .leaf n!"emulation" n!"emulate, emulator" .leaf) n!"excel-vba" n!"excel macro" (.node .leaf n!"exception" n!"exceptions, exception handling, custom exceptions" .leaf)) n!"filenames" n!"filename" (.node (.node .leaf n!"generator" n!"generators" .leaf) n!"gstreamer" n!"gst" (.node .leaf n!"http-post" n!"post request" .leaf))) n!"hyperlink" n!"links, link, hyperlinks" (.node (.node (.node .leaf n!"ibm-cloud" n!"ibm bluemix, bluemix" .leaf) n!"interface" n!"interfaces" (.node .leaf n!"iteration" n!"iterative" .leaf)) n!"javabeans" n!"beans, bean" (.node (.node .leaf n!"laravel-5" n!"laravel 5.5, laravel 5.4, laravel 5.3, laravel 5.2, laravel 5.1" .leaf) n!"left-join" n!"left outer join" .leaf)))))

/-- Part of `soSynTree`. -/
def soSynTree4 : Tree :=
  .node (.node (.node (.node (.node (.node (.node .leaf n!"mercurial" n!"hg" .leaf) n!"migration" n!"migrations" (.node .leaf n!"mkmapview" n!"uimapview" .leaf)) n!"ms-access" n!"accdb, mdb, microsoft access" (.node (.node .leaf n!"ms-office" n!"microsoft office" .leaf) n!"oauth-2.0" n!"oauth2" (.node .leaf n!"opengl-es" n!"opengles" .leaf))) n!"oracle10g" n!"10g" (.node (.node (.node .leaf n!"oracle11g" n!"11g" .leaf) n!"passenger" n!"phusion passenger" (.node .leaf n!"passwords" n!"password" .leaf)) n!"precision" n!"double precision, floating point precision, numeric precision, finite precision" (.node (.node .leaf n!"profiling" n!"profiling tools" .leaf) n!"protocols" n!"protocol" (.node .leaf n!"prototype" n!"prototypes" .leaf)))) n!"recaptcha" n!"google recaptcha" (.node (.node (.node (.node .leaf n!"recursion" n!"recursive" .leaf) n!"reference" n!"php references, references" (.node .leaf n!"requirejs" n!"require.js" .leaf)) n!"resources" n!"resource" (.node (.node .leaf n!"scripting" n!"scripts" .leaf) n!"scrollbar" n!"browser scrollbars, scrollbars" (.node .leaf n!"simplexml" n!"simplexmlelement, simplexml load string" .leaf))) n!"singleton" n!"singleton class, singleton methods, application singleton" (.node (.node (.node .leaf n!"socket.io" n!"socketio" .leaf) n!"sonarqube" n!"sonar" (.node .leaf n!"ssrs-2008" n!"reportingservices 2008" .leaf)) n!"standards" n!"standard" (.node (.node .leaf n!"structure" n!"structures" .leaf) n!"subdomain" n!"subdomains" (.node .leaf n!"substring" n!"substrings" .leaf))))) n!"templates" n!"template" (.node (.node (.node (.node (.node .leaf n!"timestamp" n!"timestamps" .leaf) n!"travis-ci" n!"travis" (.node .leaf n!"try-catch" n!"try statement, try catch throw, try, catch" .leaf)) n!"typeerror" n!"uncaught typeerror" (.node (.node .leaf n!"variables" n!"variable, vars" .leaf) n!"webclient" n!"web client" (.node .leaf n!"websocket" n!"websockets" .leaf))) n!"websphere" n!"ibm was, ibm" (.node (.node (.node .leaf n!"windows-7" n!"win7, windows 7 api" .leaf) n!"windows-8" n!"windows 8 preview" (.node .leaf n!"wordpress" n!"wordpress plugin dev, wordpress filter, wordpress widget, wp query, wordpress mu, wordpress theme customize, wordpress plugin, wpdb, wordpress loop, wordpress permission" .leaf)) n!"wxwidgets" n!"wx" (.node (.node .leaf n!"amazon-ec2" n!"aws ec2, ec2" .leaf) n!"amazon-rds" n!"aws rds" (.node .leaf n!"apache-pig" n!"piglatin, pig" .leaf)))) n!"apache-poi" n!"poi" (.node (.node (.node (.node .leaf n!"attributes" n!"attribute" .leaf) n!"autohotkey" n!"ahk" (.node .leaf n!"aws-lambda" n!"amazon lambda" .leaf)) n!"batch-file" n!"cmd script, batch, batch script, .bat, bat, dos batch, winbatch, windows batch, batch files" (.node (.node .leaf n!"categories" n!"category" .leaf) n!"components" n!"component" (.node .leaf n!"connection" n!"connections" .leaf))) n!"containers" n!"container" (.node (.node (.node .leaf n!"controller" n!"controllers" .leaf) n!"data.table" n!"rbindlist" (.node .leaf n!"datatables" n!"jquery datatables" .leaf)) n!"datepicker" n!"datepicker ui, datapicker" (.node (.node .leaf n!"deployment" n!"deploy" .leaf) n!"dialogflow" n!"api.ai" (.node .leaf n!"dictionary" n!"dict, map, dictionaries" .leaf)))))) n!"dotnetnuke" n!"dotnetnuke settings, dotnetnuke module, dnn, evoq" (.node (.node (.node (.node (.node (.node .leaf n!"duplicates" n!"duplicate removal, duplication, duplicate content, duplicate detection, duplicate data, deduplication, ignore duplicates, no duplicates, duplicate, duplicate entry" .leaf) n!"e-commerce" n!"ecommerce" (.node .leaf n!"encryption" n!"encrypt, decryption, decrypt, deciphering, encrypted, data encryption, cipher" .leaf)) n!"expression" n!"expressions" (.node (.node .leaf n!"firemonkey" n!"fmx" .leaf) n!"formatting" n!"formating" (.node .leaf n!"frameworks" n!"framework" .leaf))) n!"google-api" n!"google apis" (.node (.node (.node .leaf n!"highcharts" n!"highmaps, highstock" .leaf) n!"html-lists" n!"unordered list, ordered list, ul, li, ol" (.node .leaf n!"html-table" n!"td, rowspan, colspan" .leaf)) n!"jakarta-ee" n!"java ee, java ee web profile, jee, j2ee" (.node (.node .leaf n!"javascript" n!"javascript disabled, javascript alert, javascript dom, javascript library, javascript runtime, classic javascript, ecmascript, js, .js, javascript execution, vanilla javascript, javascript module, vanilla js, vanillajs" .leaf) n!"kubernetes" n!"k8s" (.node .leaf n!"matplotlib" n!"plt, pylab, pyplot" .leaf)))) n!"mime-types" n!"mime content type, mime type" (.node (.node (.node (.node .leaf n!"namespaces" n!"namespace, namespacing" .leaf) n!"networking" n!"network, networks" (.node .leaf n!"orchardcms" n!"orchard" .leaf)) n!"overriding" n!"method overriding, function overriding, overrides, override" (.node (.node .leaf n!"parameters" n!"parameter, params, param" .leaf) n!"phpmyadmin" n!"myphpadmin" (.node .leaf n!"postgresql" n!"pgsql, postgres, sql postgres" .leaf))) n!"powerpoint" n!"microsoft powerpoint, ppt, pptx, mspowerpoint" (.node (.node (.node .leaf n!"powershell" n!"windows powershell" .leaf) n!"processing" n!"processing.org" (.node .leaf n!"properties" n!"property" .leaf)) n!"python-3.5" n!"python 3.5.2" (.node (.node .leaf n!"python-3.x" n!"py3, python 3, py3k, python3k, python3" .leaf) n!"r-markdown" n!"rmarkdown" (.node .leaf n!"repository" n!"repositories" .leaf))))) n!"salesforce" n!"salesforce.com" (.node (.node (.node (.node (.node .leaf n!"spring-mvc" n!"spring web" .leaf) n!"sql-insert" n!"insert into" (.node .leaf n!"sql-server" n!"ms sql server, mssql, sql srever" .leaf)) n!"statistics" n!"statistical analysis, stats" (.node (.node .leaf n!"subprocess" n!"python subprocess module, subprocesses" .leaf) n!"tensorflow" n!"tensorflow gpu" (.node .leaf n!"text-files" n!"text file" .leaf))) n!"transition" n!"transitions" (.node (.node (.node .leaf n!"typescript" n!"atscript" .leaf) n!"validation" n!"validating, validators, validate, validations, input validation, form validation, validator, data validation" (.node .leaf n!"visual-c++" n!"microsoft visual c++, vc, vc++.net, msvc++, msvc, vc++" .leaf)) n!"vuetify.js" n!"vuetify" (.node (.node .leaf n!"web-config" n!"web.config" .leaf) n!"while-loop" n!"while, while loops" (.node .leaf n!"windows-xp" n!"winxp, xp" .leaf)))) n!"android-ndk" n!"ndk" (.node (.node (.node (.node .leaf n!"annotations" n!"annotation" .leaf) n!"apache-flex" n!"adobe flex, flex sdk" (.node .leaf n!"apache-nifi" n!"nifi" .leaf)) n!"asp-classic" n!"classic asp" (.node (.node .leaf n!"asp.net-mvc" n!"aspnet mvc, aspnet.mvc, asp.net.mvc, asp mvc, asp net mvc, asp.mvc, mvc.net" .leaf) n!"async-await" n!".net async await, async ctp, await" (.node .leaf n!"backbone.js" n!"backbone, backbonejs" .leaf))) n!"binary-tree" n!"binary trees" (.node (.node (.node .leaf n!"bootstrap-4" n!"twitter bootstrap 4" .leaf) n!"certificate" n!"digital certificate, certificates" (.node .leaf n!"classloader" n!"class loading, classloaders" .leaf)) n!"cocoa-touch" n!"cocoa touch framework" (.node (.node .leaf n!"codeigniter" n!"codeigniter hmvc, codeigniter routing, codeigniter form helper, codeigniter validation, codeigniter activerecord, codeigniter pagination, codeigniter url, codeigniter helpers, codeigniter hooks" .leaf) n!"collections" n!"collection, java collections api" .leaf)))))

/-- Part of `soSynTree`. -/
def soSynTree5 : Tree :=
  .node (.node (.node (.node (.node (.node (.node .leaf n!"compression" n!"compress, compressed, data compression, uncompress, decompress, decompression" .leaf) n!"concurrency" n!"concurrent, concurency, concurrent programming, concurrency violation" (.node .leaf n!"constraints" n!"constraint" .leaf)) n!"constructor" n!"ctor, constructors" (.node (.node .leaf n!"coordinates" n!"coordinate" .leaf) n!"docusignapi" n!"docusign" (.node .leaf n!"eclipse-cdt" n!"cdt" .leaf))) n!"file-upload" n!"upload file, fileuploader, image uploading" (.node (.node (.node .leaf n!"filesystems" n!"filesystem" .leaf) n!"google-maps" n!"google maps api, gmaps" (.node .leaf n!"google-play" n!"market, google play store, android market" .leaf)) n!"google-plus" n!"google+" (.node (.node .leaf n!"html-select" n!"html option, html.dropdownlist, select tag" .leaf) n!"httprequest" n!"http request" (.node .leaf n!"inheritance" n!"inherit, inheritence" .leaf)))) n!"knockout.js" n!"knockout, knockoutjs, ko.observablearray" (.node (.node (.node (.node .leaf n!"linq-to-sql" n!"sql to linq, linq2sql" .leaf) n!"linq-to-xml" n!"xdocument, xlinq" (.node .leaf n!"lotus-notes" n!"ibm notes" .leaf)) n!"marshalling" n!"marshaling, marshal" (.node (.node .leaf n!"materialize" n!"materializecss, materialize css, materialize js" .leaf) n!"mod-rewrite" n!"rewritemap, rewriteengine, rewritecond, rewriterule, rewritebase" (.node .leaf n!"objective-c" n!"objc" .leaf))) n!"open-source" n!"oss, open source contribution, open source projects" (.node (.node (.node .leaf n!"overloading" n!"function overloading, method overloading, overload" .leaf) n!"passport.js" n!"passportjs" (.node .leaf n!"performance" n!"faster, running time, speed, performance comparison, performance issues, slow, fast, perfomance, performance tuning, efficiency, speed up, slowness, tuning, wcf performance, linq performance, jquery performance, javascript performance, android performance, application performance, performance measurement, performance monitoring, code efficiency, slow load" .leaf)) n!"permissions" n!"permission" (.node (.node .leaf n!"permutation" n!"permutations" .leaf) n!"primary-key" n!"primary keys" (.node .leaf n!"refactoring" n!"refactor" .leaf))))) n!"serial-port" n!"rs232" (.node (.node (.node (.node (.node .leaf n!"tortoisesvn" n!"tsvn, tortoise" .leaf) n!"translation" n!"t9n" (.node .leaf n!"uitableview" n!"uitableviewcell, uitableviewcellaccessory, uitableviewcellstylevalue, uitableviewstyle, uitableviewdatasource, uitableviewdelegate, uitableviewheader, uitableviewfooter, uitableview section, uitableviewstylegrouped, uitableviewcontroller, uitable, uitableviewcelll, tableviewcell" .leaf)) n!"web-crawler" n!"webcrawling, webspiders, web spider, crawler, crawling, crawl, spider" (.node (.node .leaf n!"xamarin.ios" n!"monotouch" .leaf) n!"xml-parsing" n!"xml parser" (.node .leaf n!"activerecord" n!"active record query, activerecord relation" .leaf))) n!"apache-camel" n!"camel" (.node (.node (.node .leaf n!"apache-flink" n!"flink" .leaf) n!"apache-kafka" n!"kafka" (.node .leaf n!"apache-spark" n!"spark cluster framework, spark" .leaf)) n!"appcelerator" n!"appc" (.node (.node .leaf n!"architecture" n!"system architecture, solution architecture, software architecture, application architecture" .leaf) n!"asp.net-core" n!"aspnet core, asp.net 5, asp.net vnext, asp net core" (.node .leaf n!"associations" n!"association" .leaf)))) n!"asynchronous" n!"asynchronous processing, async, asynchronously" (.node (.node (.node (.node .leaf n!"autocomplete" n!"autocompletion, autocompleter" .leaf) n!"azure-devops" n!"vs team services, visual studio team services, visual studio online, vsts, tfs service, team foundation service, vso" (.node .leaf n!"botframework" n!"botbuilder, botconnector" .leaf)) n!"build.gradle" n!"build gradle" (.node (.node .leaf n!"coding-style" n!"code style, programming style, coding convention, clean code, ugly code, coding standards, coding guidelines, spaghetti code, code conventions" .leaf) n!"coffeescript" n!"coffee" (.node .leaf n!"combinations" n!"combination" .leaf))) n!"composer-php" n!"composer" (.node (.node (.node .leaf n!"cross-domain" n!"cross origin" .leaf) n!"cryptography" n!"cryptographic, crypto" (.node .leaf n!"css-position" n!"absolute positioning, relative positioning, position fixed, css positioning" .leaf)) n!"data-binding" n!"wpf binding, databind" (.node (.node .leaf n!"dependencies" n!"dependency" .leaf) n!"django-forms" n!"django formsets, django modelforms, django modelform, django modelformsets" (.node .leaf n!"doctrine-orm" n!"doctrine2" .leaf)))))) n!"dynamics-crm" n!"mscrm, microsoft dynamics crm" (.node (.node (.node (.node (.node (.node .leaf n!"ecmascript-6" n!"ecmascript 2015, es2015, es6 harmony, es6" .leaf) n!"facebook-fql" n!"fql" (.node .leaf n!"foreign-keys" n!"fk relationship, foreign key, foreign key relationship" .leaf)) n!"google-oauth" n!"google api oauth" (.node (.node .leaf n!"html-parsing" n!"htmlparser" .leaf) n!"if-statement" n!"if else, if else statement, if then else, if, else, if then, elseif, ifelse, if condition, if clause" (.node .leaf n!"immutability" n!"immutable, immutable class" .leaf))) n!"installation" n!"setup, installing" (.node (.node (.node .leaf n!"karma-runner" n!"testacular, karma" .leaf) n!"lazy-loading" n!"lazy load, lazyload" (.node .leaf n!"localization" n!"localisation, localize, l10n" .leaf)) n!"memory-leaks" n!"memory leak" (.node (.node .leaf n!"modal-dialog" n!"modal" .leaf) n!"optimization" n!"optimizer, optimize, optimisation, code optimization, optimizing, optimizations" (.node .leaf n!"polymorphism" n!"polymorphic" .leaf)))) n!"radio-button" n!"optionbutton, option button, radiobutton" (.node (.node (.node (.node .leaf n!"relationship" n!"relationships" .leaf) n!"scikit-learn" n!"scikits learn, sklearn" (.node .leaf n!"sequelize.js" n!"sequelize" .leaf)) n!"sql-order-by" n!"order by, orderby" (.node (.node .leaf n!"stanford-nlp" n!"stanford parser, corenlp server, stanford nlp server, corenlp" .leaf) n!"transactions" n!"transaction, transactional" (.node .leaf n!"unit-testing" n!"unit test, unit tests, unittest" .leaf))) n!"web-scraping" n!"webpagescraping, scraper" (.node (.node (.node .leaf n!"web-services" n!"web service" .leaf) n!"where-clause" n!"where" (.node .leaf n!"accessibility" n!"a11y" .leaf)) n!"asp.net-mvc-2" n!"asp net mvc2, asp.net mvc2, mvc2" (.node (.node .leaf n!"asp.net-mvc-3" n!"asp.net mvc 3 validation, mvc3" .leaf) n!"asp.net-mvc-4" n!"mvc4" (.node .leaf n!"asp.net-mvc-5" n!"mvc5" .leaf))))) n!"authorization" n!"authorisation" (.node (.node (.node (.node (.node .leaf n!"azure-storage" n!"windows azure storage" .leaf) n!"beautifulsoup" n!"bs4" (.node .leaf n!"client-server" n!"server client" .leaf)) n!"code-coverage" n!"coverage" (.node (.node .leaf n!"concatenation" n!"concatenate" .leaf) n!"core-graphics" n!"quartz graphics" (.node .leaf n!"cross-browser" n!"browser compatibility" .leaf))) n!"css-selectors" n!"nth of type, css sibling, nth child, first child, last child, css combinators, pseudo selectors, selectors, first of type, last of type" (.node (.node (.node .leaf n!"customization" n!"customize, customized" .leaf) n!"django-models" n!"django fields, django imagefield" (.node .leaf n!"documentation" n!"docs" .leaf)) n!"drag-and-drop" n!"dnd, drag drop" (.node (.node .leaf n!"elasticsearch" n!"elastic" .leaf) n!"firefox-addon" n!"firefox extension" (.node .leaf n!"google-chrome" n!"chrome" .leaf)))) n!"google-sheets" n!"google spreadsheet, sheets" (.node (.node (.node (.node .leaf n!"handlebars.js" n!"handlebars" .leaf) n!"intellij-idea" n!"intellij 2016.1, intellij" (.node .leaf n!"interpolation" n!"interpolate" .leaf)) n!"ios-simulator" n!"ipad simulator, iphone simulator" (.node (.node .leaf n!"jquery-mobile" n!"jqm" .leaf) n!"linker-errors" n!"linking errors, link errors" (.node .leaf n!"media-queries" n!"media query" .leaf))) n!"notifications" n!"notification" (.node (.node (.node .leaf n!"openstreetmap" n!"osm" .leaf) n!"out-of-memory" n!"outofmemoryexception, outofmemoryerror" (.node .leaf n!"playframework" n!"play mvc" .leaf)) n!"ruby-on-rails" n!"ror, rails" (.node (.node .leaf n!"serialization" n!"serialze, serialisation, serializing, serialized, unserialize, deserialize, serialize" .leaf) n!"sparse-matrix" n!"sparse columns, sparse, sparse array" .leaf)))))

/-- Part of `soSynTree`. -/
def soSynTree6 : Tree :=
  .node (.node (.node (.node (.node (.node (.node .leaf n!"thread-safety" n!"threadsafe, thread safe" .leaf) n!"underscore.js" n!"underscore" (.node .leaf n!"url-rewriting" n!"rewrite url, urlrewrite, urlrewriter, rewrite" .leaf)) n!"user-controls" n!"user control" (.node (.node .leaf n!"vectorization" n!"vectorizing, vectorize" .leaf) n!"visual-studio" n!"vs.net, msvs, visual studio community" (.node .leaf n!"visualization" n!"visualisation" .leaf))) n!"xamarin.forms" n!"xamarin forms" (.node (.node (.node .leaf n!"abstract-class" n!"abstract classes" .leaf) n!"actionscript-3" n!"as3, as3 api" (.node .leaf n!"amazon-cognito" n!"cognito, aws cognito" .leaf)) n!"android-intent" n!"android intent flags, intents, intent" (.node (.node .leaf n!"android-layout" n!"android layout xml" .leaf) n!"android-studio" n!"androidstudio settings" (.node .leaf n!"android-volley" n!"volley" .leaf)))) n!"asset-pipeline" n!"assets pipeline" (.node (.node (.node (.node .leaf n!"authentication" n!"login, user authentication, client authentication, authenticate, auth, logon" .leaf) n!"azure-cosmosdb" n!"azure documentdb" (.node .leaf n!"classification" n!"classifier" .leaf)) n!"cocos2d-iphone" n!"cocos2d" (.node (.node .leaf n!"css-animations" n!"css keyframes" .leaf) n!"drop-down-menu" n!"dropdownlist, selectbox" (.node .leaf n!"eclipse-plugin" n!"eclipse plugin dev, eclipse plugins" .leaf))) n!"event-handling" n!"event handlers, event handler" (.node (.node (.node .leaf n!"initialization" n!"initialize, initialisation, uninitialized" .leaf) n!"jasper-reports" n!"jrxml, jasperprint, jasper" (.node .leaf n!"jquery-animate" n!"animate, jquery animation" .leaf)) n!"jquery-plugins" n!"jquery plugin" (.node (.node .leaf n!"jquery-select2" n!"select2" .leaf) n!"load-balancing" n!"load balancer, load balance" (.node .leaf n!"microsoft-edge" n!"edge browser" .leaf))))) n!"multithreading" n!"cross threading, multi threaded, threads, thread, threading, multithread" (.node (.node (.node (.node (.node .leaf n!"neural-network" n!"neural network tuning, multi layer perceptron" .leaf) n!"single-sign-on" n!"sso" (.node .leaf n!"stack-overflow" n!"stackoverflowexception, stackoverflowerror" .leaf)) n!"user-interface" n!"ui, gui" (.node (.node .leaf n!"windows-mobile" n!"winmo" .leaf) n!"xmlhttprequest" n!"xmlhttp, xhr" (.node .leaf n!"zend-framework" n!"zf, zend" .leaf))) n!"amazon-dynamodb" n!"dynamodb" (.node (.node (.node .leaf n!"amazon-redshift" n!"aws redshift, redshift" .leaf) n!"automated-tests" n!"automated testing" (.node .leaf n!"azure-pipelines" n!"vso build, tfs vnext, vsts build" .leaf)) n!"azure-web-sites" n!"azure web apps, azure app service" (.node (.node .leaf n!"code-generation" n!"code generator" .leaf) n!"compiler-errors" n!"compiler error, compile errors, compile error, compilation errors, compilation error" (.node .leaf n!"computer-vision" n!"machine vision, cv" .leaf)))) n!"cross-compiling" n!"cross compile" (.node (.node (.node (.node .leaf n!"crystal-reports" n!"crystal, crystal report, sap crystal reports" .leaf) n!"css-transitions" n!"css3 transitions" (.node .leaf n!"custom-controls" n!"custom control" .leaf)) n!"data-structures" n!"data structure" (.node (.node .leaf n!"database-design" n!"database architecture, table design, database modeling, schema design" .leaf) n!"design-patterns" n!"patterns, pattern, design pattern, gof, gang of four" (.node .leaf n!"django-queryset" n!"django queries, queryset" .leaf))) n!"exchange-server" n!"exchange" (.node (.node (.node .leaf n!"google-bigquery" n!"google bigquery ml, python bigquery, bigquery ml, bigquery standard sql, bigquery" .leaf) n!"ibm-mobilefirst" n!"mobilefirst, worklight" (.node .leaf n!"in-app-purchase" n!"iap" .leaf)) n!"ionic-framework" n!"ionic" (.node (.node .leaf n!"jquery-validate" n!"jquery validation plugin" .leaf) n!"material-design" n!"material theme" (.node .leaf n!"microsoft-graph" n!"microsoftgraph, ms graph" .leaf)))))) n!"microsoft-metro" n!"metro ui, metro, metro style app" (.node (.node (.node (.node (.node (.node .leaf n!"python-requests" n!"requests" .leaf) n!"ruby-on-rails-3" n!"rails3, ror3" (.node .leaf n!"ruby-on-rails-5" n!"rails5" .leaf)) n!"scheduled-tasks" n!"task scheduling, task scheduler" (.node (.node .leaf n!"screen-scraping" n!"scraping" .leaf) n!"session-cookies" n!"session cookie" (.node .leaf n!"sharepoint-2007" n!"moss 2007" .leaf))) n!"silverlight-4.0" n!"silverlight 4" (.node (.node (.node .leaf n!"spring-data-jpa" n!"spring jpa" .leaf) n!"spring-security" n!"acegi" (.node .leaf n!"sql-server-2005" n!"mssql2005, sql2005" .leaf)) n!"sql-server-2008" n!"sql2008, mssql2008, ssms 2008" (.node (.node .leaf n!"sql-server-2016" n!"sql2016" .leaf) n!"stripe-payments" n!"stripe.js, stripe connect, stripe.net" (.node .leaf n!"synchronization" n!"sync" .leaf)))) n!"system.reactive" n!"iobserver, iobservable, rx, reactive extensions" (.node (.node (.node (.node .leaf n!"type-conversion" n!"typeconverting, data type conversion" .leaf) n!"version-control" n!"source code control, vcs, scc, sccs, source control, revision control, scm, source code management" (.node .leaf n!"virtual-machine" n!"vm" .leaf)) n!"windows-phone-7" n!"wp7, windows phone 7.5" (.node (.node .leaf n!"windows-phone-8" n!"wp8" .leaf) n!"windows-runtime" n!"winrt" (.node .leaf n!"xamarin.android" n!"monodroid" .leaf))) n!"zend-framework2" n!"zf2" (.node (.node (.node .leaf n!"android-activity" n!"activity, main activity" .leaf) n!"android-edittext" n!"edittext" (.node .leaf n!"apache-spark-sql" n!"spark dataframe, spark sql" .leaf)) n!"apache-zookeeper" n!"zookeeper" (.node (.node .leaf n!"asp.net-core-mvc" n!"asp.net mvc 6, mvc core" .leaf) n!"asp.net-identity" n!"aspnet identity" (.node .leaf n!"background-image" n!"multiple backgrounds" .leaf))))) n!"batch-processing" n!"batch process" (.node (.node (.node (.node (.node .leaf n!"bit-manipulation" n!"bit twiddling, bitwise, bit fiddling" .leaf) n!"cluster-analysis" n!"data clustering, clustering" (.node .leaf n!"computer-science" n!"cs" .leaf)) n!"django-templates" n!"django template tags" (.node (.node .leaf n!"entity-framework" n!"linq entity framework, ef, entity framework mapping, sql to entity framework, entity framework designer, fluent entity framework" .leaf) n!"full-text-search" n!"fulltext searching, fulltext, fts" (.node .leaf n!"global-variables" n!"global variable" .leaf))) n!"google-drive-api" n!"google drive, google drive sdk, google drive api v3" (.node (.node (.node .leaf n!"jenkins-pipeline" n!"jenkins workflow, jenkinsfile" .leaf) n!"jquery-selectors" n!"jquery selector" (.node .leaf n!"jupyter-notebook" n!"ipython notebook" .leaf)) n!"linq-to-entities" n!"l2e" (.node (.node .leaf n!"multiple-columns" n!"multi column" .leaf) n!"operating-system" n!"os, operating systems" (.node .leaf n!"protocol-buffers" n!"google protobuf, protobuf, protobufs" .leaf)))) n!"shared-libraries" n!"shared library, so" (.node (.node (.node (.node .leaf n!"static-libraries" n!"static library" .leaf) n!"switch-statement" n!"switch, switch case" (.node .leaf n!"web-applications" n!"webapp, webapps, web application" .leaf)) n!"windows-services" n!"windows service, winservice" (.node (.node .leaf n!"youtube-data-api" n!"youtube v3 api, youtube data api v3, youtube api v3" .leaf) n!"amazon-cloudfront" n!"aws cloudfront, cloudfront" (.node .leaf n!"android-actionbar" n!"actionbar" .leaf))) n!"android-asynctask" n!"asynctask" (.node (.node (.node .leaf n!"android-viewpager" n!"viewpager" .leaf) n!"angular-ui-router" n!"ui router, angularjs ui router" (.node .leaf n!"app-store-connect" n!"appstoreconnect, itunesconnect, itunes connect" .leaf)) n!"broadcastreceiver" n!"android broadcastreceiver" (.node (.node .leaf n!"cluster-computing" n!"cluster, clusters" .leaf) n!"compact-framework" n!".net cf, cf.net" .leaf)))))

/-- Part of `soSynTree`. -/
def soSynTree7 : Tree :=
  .node (.node (.node (.node (.node (.node (.node .leaf n!"connection-string" n!"connectionstrings" .leaf) n!"firebase-security" n!"firestore rules, firebase security rules, firestore security rules" (.node .leaf n!"function-pointers" n!"pointer to function" .leaf)) n!"google-app-engine" n!"appengine, gae, google app engine java" (.node (.node .leaf n!"google-maps-api-3" n!"google maps v3, google maps api v3" .leaf) n!"internet-explorer" n!"ie, msie" (.node .leaf n!"java.util.scanner" n!"java util scanner" .leaf))) n!"javascript-events" n!"javascript event" (.node (.node (.node .leaf n!"language-agnostic" n!"language independent" .leaf) n!"linear-regression" n!"multiple regression" (.node .leaf n!"memory-management" n!"memory usage, memory allocation, memory deallocation" .leaf)) n!"navigation-drawer" n!"android navigation drawer" (.node (.node .leaf n!"parameter-passing" n!"argument passing" .leaf) n!"pass-by-reference" n!"passing by reference, call by reference" (.node .leaf n!"playframework-2.0" n!"playframework 2.x" .leaf)))) n!"push-notification" n!"push notifications" (.node (.node (.node (.node .leaf n!"ruby-on-rails-3.2" n!"ruby on rails 3.2.1" .leaf) n!"sharedpreferences" n!"android sharedpreferences" (.node .leaf n!"signal-processing" n!"dsp, digital signal processing" .leaf)) n!"stored-procedures" n!"stored procedure, sproc" (.node (.node .leaf n!"string-formatting" n!"stringformat" .leaf) n!"twitter-bootstrap" n!"bootstrap framework" (.node .leaf n!"win-universal-app" n!"windows universal" .leaf))) n!"windows-installer" n!"msi" (.node (.node (.node .leaf n!"wordpress-theming" n!"wordpress themes" .leaf) n!"azure-sql-database" n!"sql azure" (.node .leaf n!"binary-search-tree" n!"bst, binary search trees" .leaf)) n!"character-encoding" n!"charset table" (.node (.node .leaf n!"entity-framework-4" n!"ef4" .leaf) n!"entity-framework-6" n!"entity framework 6.1, ef6" (.node .leaf n!"facebook-graph-api" n!"facebook graph, graph api" .leaf))))) n!"facebook-opengraph" n!"opengraph, open graph protocol" (.node (.node (.node (.node (.node .leaf n!"garbage-collection" n!"gc, garbage collector" .leaf) n!"google-apps-script" n!"google scripts, google script" (.node .leaf n!"javascript-objects" n!"javascriptobject" .leaf)) n!"jquery-ui-sortable" n!"sortable, jquery sortable" (.node (.node .leaf n!"keyboard-shortcuts" n!"shortcut key" .leaf) n!"list-comprehension" n!"comprehension" (.node .leaf n!"multipartform-data" n!"multipart form" .leaf))) n!"naming-conventions" n!"variable naming, casing conventions" (.node (.node (.node .leaf n!"prepared-statement" n!"prepare, prepared statements" .leaf) n!"reporting-services" n!"ssrs, reporting service, sql reporting services, msrs, ssrs reports" (.node .leaf n!"segmentation-fault" n!"sigsegv, segfault" .leaf)) n!"selenium-webdriver" n!"selenium2, selenium webdriver c#, selenium webdriver java, webdriverjs" (.node (.node .leaf n!"sql-server-2008-r2" n!"sql2008r2" .leaf) n!"visual-studio-2005" n!"vs2005" (.node .leaf n!"visual-studio-2008" n!"vs2008" .leaf)))) n!"visual-studio-2010" n!"vs2010, visual studio 2010 rtm, msvc10, visual studio 2010 rc, visual studio 2010 beta 1, visual studio 2010 beta 2, visual studio 2010 sp1, vs2010 express" (.node (.node (.node (.node .leaf n!"visual-studio-2012" n!"msvc11, visual studio 11, vs11, vs2011, vs2012" .leaf) n!"visual-studio-2013" n!"vs 2013 preview, vs2013, vs 2013 update 2, vs2013 update 4, vs 2013" (.node .leaf n!"visual-studio-2015" n!"visual studio 2015 comm, visual studio 2015 ce, vs 2015 preview, vs2015" .leaf)) n!"visual-studio-2017" n!"vs2017" (.node (.node .leaf n!"visual-studio-code" n!"vscode" .leaf) n!"amazon-web-services" n!"aws" (.node .leaf n!"android-alertdialog" n!"alertdialog" .leaf))) n!"angularjs-ng-repeat" n!"ng repeat" (.node (.node (.node .leaf n!"azure-storage-blobs" n!"windows azure blob" .leaf) n!"bluetooth-lowenergy" n!"ble" (.node .leaf n!"conv-neural-network" n!"convolutional neural network" .leaf)) n!"exchangewebservices" n!"ews, exchangews" (.node (.node .leaf n!"google-calendar-api" n!"google calendar api3, google calendar" .leaf) n!"integration-testing" n!"integration tests" .leaf))))) n!"internet-explorer-7" n!"ie7, ie7 bug, msie7" (.node (.node (.node (.node (.node (.node .leaf n!"internet-explorer-8" n!"ie8, msie8" .leaf) n!"internet-explorer-9" n!"ie9" (.node .leaf n!"oracle-sqldeveloper" n!"sql developer" .leaf)) n!"parallel-processing" n!"parallel computing, parallel, parallelization, parallelism, parallel programming" (.node (.node .leaf n!"performance-testing" n!"web performance test, performance test" .leaf) n!"twitter-bootstrap-3" n!"twitter bootstrap 3.0, twitter bootstrap 3.0.2" (.node .leaf n!"variable-assignment" n!"assignment" .leaf))) n!"wolfram-mathematica" n!"mma, wri mathematica, wolfram, mathematica" (.node (.node (.node .leaf n!"android-arrayadapter" n!"arrayadapter" .leaf) n!"android-linearlayout" n!"linearlayout" (.node .leaf n!"android-recyclerview" n!"recyclerview layout, recyclerview" .leaf)) n!"dependency-injection" n!"di" (.node (.node .leaf n!"domain-driven-design" n!"ddd" .leaf) n!"forms-authentication" n!"formsauthentication, form authentication" (.node .leaf n!"google-cloud-storage" n!"google storage" .leaf)))) n!"google-play-services" n!"google services, google services json" (.node (.node (.node (.node .leaf n!"google-visualization" n!"google charts, google charts api, google geochart, google linechart, google chartwrapper, google organization chart, google timeline chart" .leaf) n!"http-status-code-404" n!"404" (.node .leaf n!"internationalization" n!"i18n" .leaf)) n!"internet-explorer-11" n!"ie11" (.node (.node .leaf n!"inversion-of-control" n!"ioc" .leaf) n!"progressive-web-apps" n!"pwa" (.node .leaf n!"aggregation-framework" n!"mongodb aggregation" .leaf))) n!"amazon-cloudformation" n!"cloudformation, aws cloudformation" (.node (.node (.node .leaf n!"android-gradle-plugin" n!"android gradle" .leaf) n!"compiler-construction" n!"compiler, compilers, compiler design" (.node .leaf n!"django-rest-framework" n!"drf" .leaf)) n!"entity-framework-core" n!"entity framework 7, ef core" (.node (.node .leaf n!"environment-variables" n!"env" .leaf) n!"google-cloud-platform" n!"gcp, google cloud" (.node .leaf n!"google-compute-engine" n!"gce" .leaf))))) n!"java-native-interface" n!"jni" (.node (.node (.node (.node (.node .leaf n!"model-view-controller" n!"mvc" .leaf) n!"selenium-chromedriver" n!"chromedriver" (.node .leaf n!"task-parallel-library" n!"tpl" .leaf)) n!"advanced-custom-fields" n!"acf" (.node (.node .leaf n!"automatic-ref-counting" n!"objc arc, arc" .leaf) n!"azure-active-directory" n!"azuread" (.node .leaf n!"command-line-interface" n!"cli" .leaf))) n!"conditional-statements" n!"conditional, conditionals, conditions, condition" (.node (.node (.node .leaf n!"continuous-integration" n!"ci" .leaf) n!"functional-programming" n!"functional" (.node .leaf n!"google-cloud-datastore" n!"gae datastore, google datastore" .leaf)) n!"google-cloud-firestore" n!"firebase cloud firestore, firebase firestore, firestore, cloud firestore" (.node (.node .leaf n!"google-cloud-functions" n!"firebase functions, firebase cloud functions" .leaf) n!"google-cloud-messaging" n!"gcm, android gcm" (.node .leaf n!"grand-central-dispatch" n!"gcd" .leaf)))) n!"multidimensional-array" n!"nested array, rectangular arrays, ndarray, 2d array, 3d array, multidimensional" (.node (.node (.node (.node .leaf n!"python-imaging-library" n!"pil, python pil, pillow" .leaf) n!"uinavigationcontroller" n!"uinavigation" (.node .leaf n!"user-defined-functions" n!"scalar udf, table udf, scalar function, scalar valued functions, table valued functions, udf, table valued function, table value function, table value functions" .leaf)) n!"android-support-library" n!"android compat lib" (.node (.node .leaf n!"artificial-intelligence" n!"ai" .leaf) n!"facebook-javascript-sdk" n!"facebook jssdk" (.node .leaf n!"firebase-authentication" n!"firebase anonymous authentication" .leaf))) n!"single-page-application" n!"spa" (.node (.node (.node .leaf n!"amazon-elastic-beanstalk" n!"elastic beanstalk, aws elasticbeanstalk, beanstalk" .leaf) n!"apple-push-notifications" n!"apns" (.node .leaf n!"firebase-cloud-messaging" n!"fcm" .leaf)) n!"google-kubernetes-engine" n!"gke, google container engine" (.node (.node .leaf n!"content-management-system" n!"cms" .leaf) n!"firebase-realtime-database" n!"firebase database" .leaf)))))

/-- The synonyms for each tag. -/
def soSynTree : Tree :=
  .node (.node (.node soSynTree0 n!"save" n!"saving" soSynTree1) n!"jqgrid" n!"jquery grid" (.node soSynTree2 n!"process" n!"processes" soSynTree3)) n!"memcached" n!"memcache" (.node (.node soSynTree4 n!"compilation" n!"compiling, compile" soSynTree5) n!"sql-server-ce" n!"mssql ce, sql ce, sql compact, sql server compact, sql mobile" (.node soSynTree6 n!"complexity-theory" n!"asymptotic complexity, complexity" soSynTree7))

end Jargon
