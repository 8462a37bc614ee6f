import Verif.Lemmas.WetBlk

/-! The names produced by the WET translators are distinct. -/

set_option autoImplicit false

namespace Verif

variable {P : PEnv}

def keysI (qq : String) : List String := ["1", "2", "3", "4", "5", "1p", "2p", "3p"].map (· ++ (qq ++ qq))
def keysII (x : String) : List String := ["1", "5", "1p", "5p", "7p"].map (· ++ indII x)
def keysIIb (x : String) : List String := ["1", "1p", "5", "5p", "7p"].map (· ++ indII x)
def keysV10 (x : String) : List String := ["1", "3", "5", "7", "9", "1p", "3p", "5p", "7p", "9p"].map (· ++ x)
def keysV20 (x : String) : List String :=
  ["1", "2", "3", "4", "5", "6", "7", "8", "9", "10", "1p", "2p", "3p", "4p", "5p", "6p", "7p", "8p", "9p", "10p"].map
    (· ++ x)
def keysV (x : String) : List String :=
  if x ∈ ["sbss", "dbdd", "dbds", "sbsd", "bsbd", "dsdd"] then keysV10 x
  else if x ∈ ["dbbb", "sbbb", "dsss"] then keysV10 x
  else if x ∈ ["sbuu", "sbdd", "sbuu", "sbuc", "sbcu", "sbcc", "dbuu", "dbss", "dbuu", "dbuc", "dbcu", "dbcc",
      "dsuu", "dsbb", "dsuu", "dsuc", "dscu", "dscc"] then keysV20 x
  else []
def keysLep (x : String) : List String :=
  ["1", "3", "5", "7", "9", "1p", "3p", "5p", "7p", "9p", "nu1", "nu1p"].map (· ++ indLep x)
def keysChrom (qq : String) : List String := ["7gamma", "8g", "7pgamma", "8pg"].map (· ++ qq)
def keysFlI (qq : String) : List String :=
  ["CVLL_", "CSLL_", "CTLL_", "CVLR_", "CVRR_", "CSRR_", "CTRR_", "CSLR_"].map (· ++ (qq ++ qq))
def keysFlII (x : String) : List String := ["CVL_", "CVR_", "CSR_", "CSL_", "CT_"].map (· ++ indIIfl x)
def keysFlNu (x : String) : List String := ["CL_", "CR_"].map (· ++ indNuFl x)
def keysFlLep (x : String) : List String :=
  ["C9_", "C9p_", "C10_", "C10p_", "CS_", "CSp_", "CP_", "CPp_"].map (· ++ indLepFl x)
def keysFlChrom (qq : String) : List String := ["C7_", "C8_", "C7p_", "C8p_"].map (· ++ qq)

/-- Names produced by `JMS_to_Bern`. -/
def keysJmsBern : List String :=
  ["sb", "db", "ds"].flatMap keysI ++ namesII.flatMap keysII ++ namesV.flatMap keysV ++
  (leptonPairs.flatMap fun l => keysLep (nameLep "sb" l) ++ (keysLep (nameLep "db" l) ++ keysLep (nameLep "ds" l))) ++
  (keysChrom "sb" ++ (keysChrom "db" ++ keysChrom "ds"))

/-- Names produced by `flavio_to_Bern`. -/
def keysFlavioBern : List String :=
  ["sb", "db", "ds"].flatMap keysI ++ namesII.flatMap keysIIb ++
  (leptonPairs.flatMap fun l => keysLep (nameLep "sb" l) ++ keysLep (nameLep "db" l)) ++
  (keysChrom "sb" ++ keysChrom "db")

/-- Names produced by `JMS_to_flavio` and `Bern_to_flavio`. -/
def keysFlavio : List String :=
  ["bs", "bd", "sd"].flatMap keysFlI ++ namesII.flatMap keysFlII ++
  (leptonPairs.flatMap fun l => (keysFlNu (nameLep "sb" l) ++ keysFlLep (nameLep "sb" l)) ++
    ((keysFlNu (nameLep "db" l) ++ keysFlLep (nameLep "db" l)) ++ keysFlNu (nameLep "ds" l))) ++
  (keysFlChrom "bs" ++ keysFlChrom "bd")

set_option maxRecDepth 100000

def codesJmsBern : List ℕ :=
  [13396130274, 13664565730, 13933001186, 14201436642, 14469872098, 1713934744034, 1748294482402, 1782654220770,
   13364671074, 13633106530, 13901541986, 14169977442, 14438412898, 1713903284834, 1748263023202, 1782622761570,
   13364949619, 13633385075, 13901820531, 14170255987, 14438691443, 1713903563379, 1748263301747, 1782623040115,
   13362574053, 14436315877, 1713901187813, 1851340141285, 1920059618021, 13400322789, 14474064613, 1713938936549,
   1851377890021, 1920097366757, 13400601317, 14474343141, 1713939215077, 1851378168549, 1920097645285, 13362852581,
   14436594405, 1713901466341, 1851340419813, 1920059896549, 13362606821, 14436348645, 1713901220581, 1851340174053,
   1920059650789, 13400355557, 14474097381, 1713938969317, 1851377922789, 1920097399525, 1710409479925, 1847848433397,
   219379352041205, 236971538085621, 245767631107829, 1715241318133, 1852680271605, 219384183879413, 236976369923829,
   245772462946037, 1715276969717, 1852715923189, 219384219530997, 236976405575413, 245772498597621, 1710445131509,
   1847884084981, 219379387692789, 236971573737205, 245767666759413, 1710413674229, 1847852627701, 219379356235509,
   236971542279925, 245767635302133, 1715245512437, 1852684465909, 219384188073717, 236976374118133, 245772467140341,
   218932413542645, 236524599587061, 28080557061386485, 30332356875071733, 31458256781914357, 219550888833269,
   237143074877685, 28081175536677109, 30332975350362357, 31458875257204981, 219555452236021, 237147638280437,
   28081180100079861, 30332979913765109, 31458879820607733, 218936976945397, 236529162989813, 28080561624789237,
   30332361438474485, 31458261345317109, 218932950413557, 236525136457973, 28080557598257397, 30332357411942645,
   31458257318785269, 219551425704181, 237143611748597, 28081176073548021, 30332975887233269, 31458875794075893,
   1710409612005, 1847848565477, 219379352173285, 236971538217701, 245767631239909, 1715241450213, 1852680403685,
   219384184011493, 236976370055909, 245772463078117, 1715277101797, 1852716055269, 219384219663077, 236976405707493,
   245772498729701, 1710445263589, 1847884217061, 219379387824869, 236971573869285, 245767666891493, 1710413806309,
   1847852759781, 219379356367589, 236971542412005, 245767635434213, 1715245644517, 1852684597989, 219384188205797,
   236976374250213, 245772467272421, 218932430337781, 236524616382197, 28080557078181621, 30332356891866869,
   31458256798709493, 219550905628405, 237143091672821, 28081175553472245, 30332975367157493, 31458875274000117,
   219555469031157, 237147655075573, 28081180116874997, 30332979930560245, 31458879837402869, 218936993740533,
   236529179784949, 28080561641584373, 30332361455269621, 31458261362112245, 218932967208693, 236525153253109,
   28080557615052533, 30332357428737781, 31458257335580405, 219551442499317, 237143628543733, 28081176090343157,
   30332975904028405, 31458875810871029, 28023351083348213, 30275150897033461, 3594311306007359733,
   3882541682159071477, 4026656870234927349, 28102515920548085, 30354315734233333, 3594390470844559605,
   3882620846996271349, 4026736035072127221, 28103100036100341, 30354899849785589, 3594391054960111861,
   3882621431111823605, 4026736619187679477, 28023935198900469, 30275735012585717, 3594311890122911989,
   3882542266274623733, 4026657454350479605, 28023419802824949, 30275219616510197, 3594311374726836469,
   3882541750878548213, 4026656938954404085, 28102584640024821, 30354384453710069, 3594390539564036341,
   3882620915715748085, 4026736103791603957, 218932444691173, 236524630735589, 28080557092535013, 30332356906220261,
   31458256813062885, 219550919981797, 237143106026213, 28081175567825637, 30332975381510885, 31458875288353509,
   219555483384549, 237147669428965, 28081180131228389, 30332979944913637, 31458879851756261, 218937008093925,
   236529194138341, 28080561655937765, 30332361469623013, 31458261376465637, 218932981562085, 236525167606501,
   28080557629405925, 30332357443091173, 31458257349933797, 219551456852709, 237143642897125, 28081176104696549,
   30332975918381797, 31458875825224421, 28023352920471285, 30275152734156533, 3594311307844482805,
   3882541683996194549, 4026656872072050421, 28102517757671157, 30354317571356405, 3594390472681682677,
   3882620848833394421, 4026736036909250293, 28103101873223413, 30354901686908661, 3594391056797234933,
   3882621432948946677, 4026736621024802549, 28023937036023541, 30275736849708789, 3594311891960035061,
   3882542268111746805, 4026657456187602677, 28023421639948021, 30275221453633269, 3594311376563959541,
   3882541752715671285, 4026656940791527157, 28102586477147893, 30354386290833141, 3594390541401159413,
   3882620917552871157, 4026736105628727029, 3586989173820436725, 3875219549972148469, 460071847404093911285,
   496965335551513014517, 515412079625222566133, 3597122272982020341, 3885352649133732085, 460081980503255494901,
   496975468650674598133, 515422212724384149749, 3597197039772709109, 3885427415924420853, 460082055270046183669,
   496975543417465286901, 515422287491174838517, 3587063940611125493, 3875294316762837237, 460071922170884600053,
   496965410318303703285, 515412154392013254901, 3586997969913458933, 3875228346065170677, 460071856200186933493,
   496965344347606036725, 515412088421315588341, 3597131069075042549, 3885361445226754293, 460081989299348517109,
   496975477446767620341, 515422221520477171957, 13396130549, 13664566005, 13933001461, 14201436917, 14469872373,
   14738307829, 15006743285, 15275178741, 15543614197, 1696754875125, 1713934744309, 1748294482677, 1782654221045,
   1817013959413, 1851373697781, 1885733436149, 1920093174517, 1954452912885, 1988812651253, 217183854050037,
   13364673269, 13633108725, 13901544181, 14169979637, 14438415093, 14706850549, 14975286005, 15243721461,
   15512156917, 1696723417845, 1713903287029, 1748263025397, 1782622763765, 1816982502133, 1851342240501,
   1885701978869, 1920061717237, 1954421455605, 1988781193973, 217183822592757, 13364951797, 13633387253, 13901822709,
   14170258165, 14438693621, 14707129077, 14975564533, 15243999989, 15512435445, 1696723696373, 1713903565557,
   1748263303925, 1782623042293, 1816982780661, 1851342519029, 1885702257397, 1920061995765, 1954421734133,
   1988781472501, 217183822871285, 13396130531, 13664565987, 13933001443, 14201436899, 14469872355, 14738307811,
   15006743267, 15275178723, 15543614179, 1696754875107, 1713934744291, 1748294482659, 1782654221027, 1817013959395,
   1851373697763, 1885733436131, 1920093174499, 1954452912867, 1988812651235, 217183854050019, 13364673251,
   13633108707, 13901544163, 14169979619, 14438415075, 14706850531, 14975285987, 15243721443, 15512156899,
   1696723417827, 1713903287011, 1748263025379, 1782622763747, 1816982502115, 1851342240483, 1885701978851,
   1920061717219, 1954421455587, 1988781193955, 217183822592739, 13364951779, 13633387235, 13901822691, 14170258147,
   14438693603, 14707129059, 14975564515, 15243999971, 15512435427, 1696723696355, 1713903565539, 1748263303907,
   1782623042275, 1816982780643, 1851342519011, 1885702257379, 1920061995747, 1954421734115, 1988781472483,
   217183822871267, 13396128245, 13664563701, 13932999157, 14201434613, 14469870069, 14738305525, 15006740981,
   15275176437, 15543611893, 1696754872821, 1713934742005, 1748294480373, 1782654218741, 1817013957109, 1851373695477,
   1885733433845, 1920093172213, 1954452910581, 1988812648949, 217183854047733, 13364670965, 13633106421, 13901541877,
   14169977333, 14438412789, 14706848245, 14975283701, 15243719157, 15512154613, 1696723415541, 1713903284725,
   1748263023093, 1782622761461, 1816982499829, 1851342238197, 1885701976565, 1920061714933, 1954421453301,
   1988781191669, 217183822590453, 13364949493, 13633384949, 13901820405, 14170255861, 14438691317, 14707126773,
   14975562229, 15243997685, 15512433141, 1696723694069, 1713903563253, 1748263301621, 1782623039989, 1816982778357,
   1851342516725, 1885702255093, 1920061993461, 1954421731829, 1988781470197, 217183822868981, 13396128227,
   13664563683, 13932999139, 14201434595, 14469870051, 14738305507, 15006740963, 15275176419, 15543611875,
   1696754872803, 1713934741987, 1748294480355, 1782654218723, 1817013957091, 1851373695459, 1885733433827,
   1920093172195, 1954452910563, 1988812648931, 217183854047715, 13364670947, 13633106403, 13901541859, 14169977315,
   14438412771, 14706848227, 14975283683, 15243719139, 15512154595, 1696723415523, 1713903284707, 1748263023075,
   1782622761443, 1816982499811, 1851342238179, 1885701976547, 1920061714915, 1954421453283, 1988781191651,
   217183822590435, 13364949475, 13633384931, 13901820387, 14170255843, 14438691299, 14707126755, 14975562211,
   15243997667, 15512433123, 1696723694051, 1713903563235, 1748263301603, 1782623039971, 1816982778339, 1851342516707,
   1885702255075, 1920061993443, 1954421731811, 1988781470179, 217183822868963, 13396128356, 13664563812, 13932999268,
   14201434724, 14469870180, 14738305636, 15006741092, 15275176548, 15543612004, 1696754872932, 1713934742116,
   1748294480484, 1782654218852, 1817013957220, 1851373695588, 1885733433956, 1920093172324, 1954452910692,
   1988812649060, 217183854047844, 13396130291, 13933001203, 14469872115, 15006743027, 15543613939, 1713934744051,
   1782654220787, 1851373697523, 1920093174259, 1988812650995, 13364671076, 13901541988, 14438412900, 14975283812,
   15512154724, 1713903284836, 1782622761572, 1851342238308, 1920061715044, 1988781191780, 13364673011, 13633108467,
   13901543923, 14169979379, 14438414835, 14706850291, 14975285747, 15243721203, 15512156659, 1696723417587,
   1713903286771, 1748263025139, 1782622763507, 1816982501875, 1851342240243, 1885701978611, 1920061716979,
   1954421455347, 1988781193715, 217183822592499, 13364670818, 13901541730, 14438412642, 14975283554, 15512154466,
   1713903284578, 1782622761314, 1851342238050, 1920061714786, 1988781191522, 13396128098, 13932999010, 14469869922,
   15006740834, 15543611746, 1713934741858, 1782654218594, 1851373695330, 1920093172066, 1988812648802, 13364671091,
   13901542003, 14438412915, 14975283827, 15512154739, 1713903284851, 1782622761587, 1851342238323, 1920061715059,
   1988781191795, 13396130276, 13933001188, 14469872100, 15006743012, 15543613924, 1713934744036, 1782654220772,
   1851373697508, 1920093174244, 1988812650980, 13364949346, 13633384802, 13901820258, 14170255714, 14438691170,
   14707126626, 14975562082, 15243997538, 15512432994, 1696723693922, 1713903563106, 1748263301474, 1782623039842,
   1816982778210, 1851342516578, 1885702254946, 1920061993314, 1954421731682, 1988781470050, 217183822868834,
   13364951539, 13901822451, 14438693363, 14975564275, 15512435187, 1713903565299, 1782623042035, 1851342518771,
   1920061995507, 1988781472243, 13364949604, 13901820516, 14438691428, 14975562340, 15512433252, 1713903563364,
   1782623040100, 1851342516836, 1920061993572, 1988781470308, 13396128485, 13932999397, 14469870309, 15006741221,
   15543612133, 1713934742245, 1782654218981, 1851373695717, 1920093172453, 1988812649189, 487818601738981,
   62440780252885733, 13364671205, 13901542117, 14438413029, 14975283941, 15512154853, 1713903284965, 1782622761701,
   1851342238437, 1920061715173, 1988781191909, 487818570281701, 62440780221428453, 13364949733, 13901820645,
   14438691557, 14975562469, 15512433381, 1713903563493, 1782623040229, 1851342516965, 1920061993701, 1988781470437,
   487818570560229, 62440780221706981, 1714704447221, 1783423923957, 1852143400693, 1920862877429, 1989582354165,
   219383647008501, 228179740030709, 236975833052917, 245771926075125, 254568019097333, 62440781022590709,
   7992419872369374965, 1710677915381, 1779397392117, 1848116868853, 1916836345589, 1985555822325, 219379620476661,
   228175713498869, 236971806521077, 245767899543285, 254563992565493, 62440776996058869, 7992419868342843125,
   1710713566965, 1779433043701, 1848152520437, 1916871997173, 1985591473909, 219379656128245, 228175749150453,
   236971842172661, 245767935194869, 254564028217077, 62440777031710453, 7992419868378494709, 219482169356533,
   228278262378741, 237074355400949, 245870448423157, 254666541445365, 28081106817200373, 29207006724042997,
   30332906630885621, 31458806537728245, 32584706444570869, 7992419970891722997, 1023029743663280107765,
   218966773281013, 227762866303221, 236558959325429, 245355052347637, 254151145369845, 28080591421124853,
   29206491327967477, 30332391234810101, 31458291141652725, 32584191048495349, 7992419455495647477,
   1023029743147884032245, 218971336683765, 227767429705973, 236563522728181, 245359615750389, 254155708772597,
   28080595984527605, 29206495891370229, 30332395798212853, 31458295705055477, 32584195611898101, 7992419460059050229,
   1023029743152447434997, 1714704579301, 1783424056037, 1852143532773, 1920863009509, 1989582486245, 219383647140581,
   228179740162789, 236975833184997, 245771926207205, 254568019229413, 62440781022722789, 7992419872369507045,
   1710678047461, 1779397524197, 1848117000933, 1916836477669, 1985555954405, 219379620608741, 228175713630949,
   236971806653157, 245767899675365, 254563992697573, 62440776996190949, 7992419868342975205, 1710713699045,
   1779433175781, 1848152652517, 1916872129253, 1985591605989, 219379656260325, 228175749282533, 236971842304741,
   245767935326949, 254564028349157, 62440777031842533, 7992419868378626789, 219482186151669, 228278279173877,
   237074372196085, 245870465218293, 254666558240501, 28081106833995509, 29207006740838133, 30332906647680757,
   31458806554523381, 32584706461366005, 7992419970908518133, 1023029743663296902901, 218966790076149,
   227762883098357, 236558976120565, 245355069142773, 254151162164981, 28080591437919989, 29206491344762613,
   30332391251605237, 31458291158447861, 32584191065290485, 7992419455512442613, 1023029743147900827381,
   218971353478901, 227767446501109, 236563539523317, 245359632545525, 254155725567733, 28080596001322741,
   29206495908165365, 30332395815007989, 31458295721850613, 32584195628693237, 7992419460075845365,
   1023029743152464230133, 28093719827525877, 29219619734368501, 30345519641211125, 31471419548053749,
   32597319454896373, 3594381674751537397, 3738496862827393269, 3882612050903249141, 4026727238979105013,
   4170842427054960885, 1023029756276290433269, 130947807188902003683573, 28027749129859317, 29153649036701941,
   30279548943544565, 31405448850387189, 32531348757229813, 3594315704053870837, 3738430892129726709,
   3882546080205582581, 4026661268281438453, 4170776456357294325, 1023029690305592766709, 130947807122931306017013,
   28028333245411573, 29154233152254197, 30280133059096821, 31406032965939445, 32531932872782069, 3594316288169423093,
   3738431476245278965, 3882546664321134837, 4026661852396990709, 4170777040472846581, 1023029690889708318965,
   130947807123515421569269, 219482200505061, 228278293527269, 237074386549477, 245870479571685, 254666572593893,
   28081106848348901, 29207006755191525, 30332906662034149, 31458806568876773, 32584706475719397, 7992419970922871525,
   1023029743663311256293, 218966804429541, 227762897451749, 236558990473957, 245355083496165, 254151176518373,
   28080591452273381, 29206491359116005, 30332391265958629, 31458291172801253, 32584191079643877, 7992419455526796005,
   1023029743147915180773, 218971367832293, 227767460854501, 236563553876709, 245359646898917, 254155739921125,
   28080596015676133, 29206495922518757, 30332395829361381, 31458295736204005, 32584195643046629, 7992419460090198757,
   1023029743152478583525, 28093721664648949, 29219621571491573, 30345521478334197, 31471421385176821,
   32597321292019445, 3594381676588660469, 3738496864664516341, 3882612052740372213, 4026727240816228085,
   4170842428892083957, 1023029756278127556341, 130947807188903840806645, 28027750966982389, 29153650873825013,
   30279550780667637, 31405450687510261, 32531350594352885, 3594315705890993909, 3738430893966849781,
   3882546082042705653, 4026661270118561525, 4170776458194417397, 1023029690307429889781, 130947807122933143140085,
   28028335082534645, 29154234989377269, 30280134896219893, 31406034803062517, 32531934709905141, 3594316290006546165,
   3738431478082402037, 3882546666158257909, 4026661854234113781, 4170777042309969653, 1023029690891545442037,
   130947807123517258692341, 3595996373075177717, 3740111561151033589, 3884226749226889461, 4028341937302745333,
   4172457125378601205, 460080854603348652277, 478527598677058203893, 496974342750767755509, 515421086824477307125,
   533867830898186858741, 130947808803600327323893, 16761319320179691623362805, 3587552123773858037,
   3731667311849713909, 3875782499925569781, 4019897688001425653, 4164012876077281525, 460072410354047332597,
   478519154427756884213, 496965898501466435829, 515412642575175987445, 533859386648885539061,
   130947800359351026004213, 16761319311735442322043125, 3587626890564546805, 3731742078640402677,
   3875857266716258549, 4019972454792114421, 4164087642867970293, 460072485120838021365, 478519229194547572981,
   496965973268257124597, 515412717341966676213, 533859461415676227829, 130947800434117816692981,
   16761319311810209112731893, 31418608613095906, 119142882, 4026674428044147170, 15268968930, 31418608613093986,
   119140962, 4026674428044145250, 15268967010, 31418608613094003, 119140979, 4026674428044145267, 15268967027]

theorem codesJmsBern_eq : keysJmsBern.map scode = codesJmsBern := by decide +kernel

theorem codesJmsBern_nodup : nodupR 40 1 codesJmsBern = true := by decide +kernel

theorem keysJmsBern_nodup : keysJmsBern.Nodup := nodup_of_codes _ codesJmsBern_eq codesJmsBern_nodup

def codesFlavioBern : List ℕ :=
  [13396130274, 13664565730, 13933001186, 14201436642, 14469872098, 1713934744034, 1748294482402, 1782654220770,
   13364671074, 13633106530, 13901541986, 14169977442, 14438412898, 1713903284834, 1748263023202, 1782622761570,
   13364949619, 13633385075, 13901820531, 14170255987, 14438691443, 1713903563379, 1748263301747, 1782623040115,
   13362574053, 1713901187813, 14436315877, 1851340141285, 1920059618021, 13400322789, 1713938936549, 14474064613,
   1851377890021, 1920097366757, 13400601317, 1713939215077, 14474343141, 1851378168549, 1920097645285, 13362852581,
   1713901466341, 14436594405, 1851340419813, 1920059896549, 13362606821, 1713901220581, 14436348645, 1851340174053,
   1920059650789, 13400355557, 1713938969317, 14474097381, 1851377922789, 1920097399525, 1710409479925,
   219379352041205, 1847848433397, 236971538085621, 245767631107829, 1715241318133, 219384183879413, 1852680271605,
   236976369923829, 245772462946037, 1715276969717, 219384219530997, 1852715923189, 236976405575413, 245772498597621,
   1710445131509, 219379387692789, 1847884084981, 236971573737205, 245767666759413, 1710413674229, 219379356235509,
   1847852627701, 236971542279925, 245767635302133, 1715245512437, 219384188073717, 1852684465909, 236976374118133,
   245772467140341, 218932413542645, 28080557061386485, 236524599587061, 30332356875071733, 31458256781914357,
   219550888833269, 28081175536677109, 237143074877685, 30332975350362357, 31458875257204981, 219555452236021,
   28081180100079861, 237147638280437, 30332979913765109, 31458879820607733, 218936976945397, 28080561624789237,
   236529162989813, 30332361438474485, 31458261345317109, 218932950413557, 28080557598257397, 236525136457973,
   30332357411942645, 31458257318785269, 219551425704181, 28081176073548021, 237143611748597, 30332975887233269,
   31458875794075893, 1710409612005, 219379352173285, 1847848565477, 236971538217701, 245767631239909, 1715241450213,
   219384184011493, 1852680403685, 236976370055909, 245772463078117, 1715277101797, 219384219663077, 1852716055269,
   236976405707493, 245772498729701, 1710445263589, 219379387824869, 1847884217061, 236971573869285, 245767666891493,
   1710413806309, 219379356367589, 1847852759781, 236971542412005, 245767635434213, 1715245644517, 219384188205797,
   1852684597989, 236976374250213, 245772467272421, 218932430337781, 28080557078181621, 236524616382197,
   30332356891866869, 31458256798709493, 219550905628405, 28081175553472245, 237143091672821, 30332975367157493,
   31458875274000117, 219555469031157, 28081180116874997, 237147655075573, 30332979930560245, 31458879837402869,
   218936993740533, 28080561641584373, 236529179784949, 30332361455269621, 31458261362112245, 218932967208693,
   28080557615052533, 236525153253109, 30332357428737781, 31458257335580405, 219551442499317, 28081176090343157,
   237143628543733, 30332975904028405, 31458875810871029, 28023351083348213, 3594311306007359733, 30275150897033461,
   3882541682159071477, 4026656870234927349, 28102515920548085, 3594390470844559605, 30354315734233333,
   3882620846996271349, 4026736035072127221, 28103100036100341, 3594391054960111861, 30354899849785589,
   3882621431111823605, 4026736619187679477, 28023935198900469, 3594311890122911989, 30275735012585717,
   3882542266274623733, 4026657454350479605, 28023419802824949, 3594311374726836469, 30275219616510197,
   3882541750878548213, 4026656938954404085, 28102584640024821, 3594390539564036341, 30354384453710069,
   3882620915715748085, 4026736103791603957, 218932444691173, 28080557092535013, 236524630735589, 30332356906220261,
   31458256813062885, 219550919981797, 28081175567825637, 237143106026213, 30332975381510885, 31458875288353509,
   219555483384549, 28081180131228389, 237147669428965, 30332979944913637, 31458879851756261, 218937008093925,
   28080561655937765, 236529194138341, 30332361469623013, 31458261376465637, 218932981562085, 28080557629405925,
   236525167606501, 30332357443091173, 31458257349933797, 219551456852709, 28081176104696549, 237143642897125,
   30332975918381797, 31458875825224421, 28023352920471285, 3594311307844482805, 30275152734156533,
   3882541683996194549, 4026656872072050421, 28102517757671157, 3594390472681682677, 30354317571356405,
   3882620848833394421, 4026736036909250293, 28103101873223413, 3594391056797234933, 30354901686908661,
   3882621432948946677, 4026736621024802549, 28023937036023541, 3594311891960035061, 30275736849708789,
   3882542268111746805, 4026657456187602677, 28023421639948021, 3594311376563959541, 30275221453633269,
   3882541752715671285, 4026656940791527157, 28102586477147893, 3594390541401159413, 30354386290833141,
   3882620917552871157, 4026736105628727029, 3586989173820436725, 460071847404093911285, 3875219549972148469,
   496965335551513014517, 515412079625222566133, 3597122272982020341, 460081980503255494901, 3885352649133732085,
   496975468650674598133, 515422212724384149749, 3597197039772709109, 460082055270046183669, 3885427415924420853,
   496975543417465286901, 515422287491174838517, 3587063940611125493, 460071922170884600053, 3875294316762837237,
   496965410318303703285, 515412154392013254901, 3586997969913458933, 460071856200186933493, 3875228346065170677,
   496965344347606036725, 515412088421315588341, 3597131069075042549, 460081989299348517109, 3885361445226754293,
   496975477446767620341, 515422221520477171957, 13396128485, 13932999397, 14469870309, 15006741221, 15543612133,
   1713934742245, 1782654218981, 1851373695717, 1920093172453, 1988812649189, 487818601738981, 62440780252885733,
   13364671205, 13901542117, 14438413029, 14975283941, 15512154853, 1713903284965, 1782622761701, 1851342238437,
   1920061715173, 1988781191909, 487818570281701, 62440780221428453, 1714704447221, 1783423923957, 1852143400693,
   1920862877429, 1989582354165, 219383647008501, 228179740030709, 236975833052917, 245771926075125, 254568019097333,
   62440781022590709, 7992419872369374965, 1710677915381, 1779397392117, 1848116868853, 1916836345589, 1985555822325,
   219379620476661, 228175713498869, 236971806521077, 245767899543285, 254563992565493, 62440776996058869,
   7992419868342843125, 219482169356533, 228278262378741, 237074355400949, 245870448423157, 254666541445365,
   28081106817200373, 29207006724042997, 30332906630885621, 31458806537728245, 32584706444570869, 7992419970891722997,
   1023029743663280107765, 218966773281013, 227762866303221, 236558959325429, 245355052347637, 254151145369845,
   28080591421124853, 29206491327967477, 30332391234810101, 31458291141652725, 32584191048495349, 7992419455495647477,
   1023029743147884032245, 1714704579301, 1783424056037, 1852143532773, 1920863009509, 1989582486245, 219383647140581,
   228179740162789, 236975833184997, 245771926207205, 254568019229413, 62440781022722789, 7992419872369507045,
   1710678047461, 1779397524197, 1848117000933, 1916836477669, 1985555954405, 219379620608741, 228175713630949,
   236971806653157, 245767899675365, 254563992697573, 62440776996190949, 7992419868342975205, 219482186151669,
   228278279173877, 237074372196085, 245870465218293, 254666558240501, 28081106833995509, 29207006740838133,
   30332906647680757, 31458806554523381, 32584706461366005, 7992419970908518133, 1023029743663296902901,
   218966790076149, 227762883098357, 236558976120565, 245355069142773, 254151162164981, 28080591437919989,
   29206491344762613, 30332391251605237, 31458291158447861, 32584191065290485, 7992419455512442613,
   1023029743147900827381, 28093719827525877, 29219619734368501, 30345519641211125, 31471419548053749,
   32597319454896373, 3594381674751537397, 3738496862827393269, 3882612050903249141, 4026727238979105013,
   4170842427054960885, 1023029756276290433269, 130947807188902003683573, 28027749129859317, 29153649036701941,
   30279548943544565, 31405448850387189, 32531348757229813, 3594315704053870837, 3738430892129726709,
   3882546080205582581, 4026661268281438453, 4170776456357294325, 1023029690305592766709, 130947807122931306017013,
   219482200505061, 228278293527269, 237074386549477, 245870479571685, 254666572593893, 28081106848348901,
   29207006755191525, 30332906662034149, 31458806568876773, 32584706475719397, 7992419970922871525,
   1023029743663311256293, 218966804429541, 227762897451749, 236558990473957, 245355083496165, 254151176518373,
   28080591452273381, 29206491359116005, 30332391265958629, 31458291172801253, 32584191079643877, 7992419455526796005,
   1023029743147915180773, 28093721664648949, 29219621571491573, 30345521478334197, 31471421385176821,
   32597321292019445, 3594381676588660469, 3738496864664516341, 3882612052740372213, 4026727240816228085,
   4170842428892083957, 1023029756278127556341, 130947807188903840806645, 28027750966982389, 29153650873825013,
   30279550780667637, 31405450687510261, 32531350594352885, 3594315705890993909, 3738430893966849781,
   3882546082042705653, 4026661270118561525, 4170776458194417397, 1023029690307429889781, 130947807122933143140085,
   3595996373075177717, 3740111561151033589, 3884226749226889461, 4028341937302745333, 4172457125378601205,
   460080854603348652277, 478527598677058203893, 496974342750767755509, 515421086824477307125, 533867830898186858741,
   130947808803600327323893, 16761319320179691623362805, 3587552123773858037, 3731667311849713909,
   3875782499925569781, 4019897688001425653, 4164012876077281525, 460072410354047332597, 478519154427756884213,
   496965898501466435829, 515412642575175987445, 533859386648885539061, 130947800359351026004213,
   16761319311735442322043125, 31418608613095906, 119142882, 4026674428044147170, 15268968930, 31418608613093986,
   119140962, 4026674428044145250, 15268967010]

theorem codesFlavioBern_eq : keysFlavioBern.map scode = codesFlavioBern := by decide +kernel

theorem codesFlavioBern_nodup : nodupR 40 1 codesFlavioBern = true := by decide +kernel

theorem keysFlavioBern_nodup : keysFlavioBern.Nodup := nodup_of_codes _ codesFlavioBern_eq codesFlavioBern_nodup

def codesFlavio : List ℕ :=
  [4876609385119150451, 4874920535258886515, 4875483485212307827, 4876609591277580659, 4876635979556647283,
   4874947129696383347, 4875510079649804659, 4874920741417316723, 4876609385118904676, 4874920535258640740,
   4875483485212062052, 4876609591277334884, 4876635979556401508, 4874947129696137572, 4875510079649558884,
   4874920741417070948, 4876609385154558436, 4874920535294294500, 4875483485247715812, 4876609591312988644,
   4876635979592055268, 4874947129731791332, 4875510079685212644, 4874920741452724708, 624206084961453456101,
   624209462661173983973, 623993289879060200165, 623989912179339672293, 4875567805090216677, 624206084966285294309,
   624209462666005822181, 623993289883892038373, 623989912184171510501, 4875567809922054885, 624206085550400846565,
   624209463250121374437, 623993290468007590629, 623989912768287062757, 4875568394037607141, 624206085545569008357,
   624209463245289536229, 623993290463175752421, 623989912763455224549, 4875568389205768933, 624206085030172932837,
   624209462729893460709, 623993289947779676901, 623989912248059149029, 4875567873809693413, 624206085035004771045,
   624209462734725298917, 623993289952611515109, 623989912252890987237, 4875567878641531621, 79898378875066042382069,
   79898811220630269949685, 79871141104519705622261, 79870708758955478054645, 624072679051547735797,
   79898378875684517672693, 79898811221248745240309, 79871141105138180912885, 79870708759573953345269,
   624072679670023026421, 79898378950451308361461, 79898811296015535929077, 79871141179904971601653,
   79870708834340744034037, 624072754436813715189, 79898378949832833070837, 79898811295397060638453,
   79871141179286496311029, 79870708833722268743413, 624072753818338424565, 79898378883862135404277,
   79898811229426362971893, 79871141113315798644469, 79870708767751571076853, 624072687847640758005,
   79898378884480610694901, 79898811230044838262517, 79871141113934273935093, 79870708768370046367477,
   624072688466116048629, 10226992496008453425017077, 10227047836240674553671925, 10223506061378522319761653,
   10223450721146301191106805, 79881302918598110294261, 10226992496087618262216949, 10227047836319839390871797,
   10223506061457687156961525, 10223450721225466028306677, 79881302997762947494133, 10226992505657767470379253,
   10227047845889988599034101, 10223506071027836365123829, 10223450730795615236468981, 79881312567912155656437,
   10226992505578602633179381, 10227047845810823761834229, 10223506070948671527923957, 10223450730716450399269109,
   79881312488747318456565, 10226992497134353331859701, 10227047837366574460514549, 10223506062504422226604277,
   10223450722272201097949429, 79881304044498017136885, 10226992497213518169059573, 10227047837445739297714421,
   10223506062583587063804149, 10223450722351365935149301, 79881304123662854336757, 79898378875068204432101,
   79898811220632431999717, 79871141104521867672293, 79870708758957640104677, 624072679053709785829,
   79898378875686679722725, 79898811221250907290341, 79871141105140342962917, 79870708759576115395301,
   624072679672185076453, 79898378950453470411493, 79898811296017697979109, 79871141179907133651685,
   79870708834342906084069, 624072754438975765221, 79898378949834995120869, 79898811295399222688485,
   79871141179288658361061, 79870708833724430793445, 624072753820500474597, 79898378883864297454309,
   79898811229428525021925, 79871141113317960694501, 79870708767753733126885, 624072687849802808037,
   79898378884482772744933, 79898811230047000312549, 79871141113936435985125, 79870708768372208417509,
   624072688468278098661, 10226992496008730167310069, 10227047836240951295964917, 10223506061378799062054645,
   10223450721146577933399797, 79881302918874852587253, 10226992496087895004509941, 10227047836320116133164789,
   10223506061457963899254517, 10223450721225742770599669, 79881302998039689787125, 10226992505658044212672245,
   10227047845890265341327093, 10223506071028113107416821, 10223450730795891978761973, 79881312568188897949429,
   10226992505578879375472373, 10227047845811100504127221, 10223506070948948270216949, 10223450730716727141562101,
   79881312489024060749557, 10226992497134630074152693, 10227047837366851202807541, 10223506062504698968897269,
   10223450722272477840242421, 79881304044774759429877, 10226992497213794911352565, 10227047837446016040007413,
   10223506062583863806097141, 10223450722351642677442293, 79881304123939596629749, 1309055039489117461415801077,
   1309062123038841765883621621, 1308608775856486279943106805, 1308601692306761975475286261,
   10224806773615981131280629, 1309055039499250560577384693, 1309062123048974865045205237,
   1308608775866619379104690421, 1308601692316895074636869877, 10224806783749080292864245,
   1309055040724229659222159605, 1309062124273953963689980149, 1308608777091598477749465333,
   1308601693541874173281644789, 10224808008728178937639157, 1309055040714096560060575989,
   1309062124263820864528396533, 1308608777081465378587881717, 1308601693531741074120061173,
   10224807998595079776055541, 1309055039633232649491656949, 1309062123182956953959477493,
   1308608776000601468018962677, 1308601692450877163551142133, 10224806917731169207136501,
   1309055039643365748653240565, 1309062123193090053121061109, 1308608776010734567180546293,
   1308601692461010262712725749, 10224806927864268368720117, 10226992496008965331335909, 10227047836241186459990757,
   10223506061379034226080485, 10223450721146813097425637, 79881302919110016613093, 10226992496088130168535781,
   10227047836320351297190629, 10223506061458199063280357, 10223450721225977934625509, 79881302998274853812965,
   10226992505658279376698085, 10227047845890500505352933, 10223506071028348271442661, 10223450730796127142787813,
   79881312568424061975269, 10226992505579114539498213, 10227047845811335668153061, 10223506070949183434242789,
   10223450730716962305587941, 79881312489259224775397, 10226992497134865238178533, 10227047837367086366833381,
   10223506062504934132923109, 10223450722272713004268261, 79881304045009923455717, 10226992497214030075378405,
   10227047837446251204033253, 10223506062584098970122981, 10223450722351877841468133, 79881304124174760655589,
   1309055039489147562410997493, 1309062123038871866878818037, 1308608775856516380938303221,
   1308601692306792076470482677, 10224806773646082126477045, 1309055039499280661572581109,
   1309062123049004966040401653, 1308608775866649480099886837, 1308601692316925175632066293,
   10224806783779181288060661, 1309055040724259760217356021, 1309062124273984064685176565,
   1308608777091628578744661749, 1308601693541904274276841205, 10224808008758279932835573,
   1309055040714126661055772405, 1309062124263850965523592949, 1308608777081495479583078133,
   1308601693531771175115257589, 10224807998625180771251957, 1309055039633262750486853365,
   1309062123182987054954673909, 1308608776000631569014159093, 1308601692450907264546338549,
   10224806917761270202332917, 1309055039643395849648436981, 1309062123193120154116257525,
   1308608776010764668175742709, 1308601692461040363707922165, 10224806927894369363916533,
   167559045054610887988607791349, 167559951748975598960488820981, 167501923309634096760102924533,
   167501016615269385788221894901, 1308775267026698512189174005, 167559045055907924681290494197,
   167559951750272635653171523829, 167501923310931133452785627381, 167501016616566422480904597749,
   1308775268323735204871876853, 167559045212705249307821682933, 167559951907069960279702712565,
   167501923467728458079316816117, 167501016773363747107435786485, 1308775425121059831403065589,
   167559045211408212615138980085, 167559951905772923587020009717, 167501923466431421386634113269,
   167501016772066710414753083637, 1308775423824023138720362741, 167559045073057632062317342965,
   167559951767422343034198372597, 167501923328080840833812476149, 167501016633716129861931446517,
   1308775285473442585898725621, 167559045074354668755000045813, 167559951768719379726881075445,
   167501923329377877526495178997, 167501016635013166554614149365, 1308775286770479278581428469,
   79807516012983099308773, 79862856245204227963621, 296653330117349, 37972209529844453, 37934826134500069,
   4855658328490832613, 297546683314917, 38086558739133157, 297443604099813, 38073364599599845,
   79807515947012401642213, 79862856179233530297061, 296653329871589, 37972209529598693, 37934826134254309,
   4855658328490586853, 297546683069157, 38086558738887397, 297443603854053, 38073364599354085,
   79807525517161609804517, 79862865749382738459365, 10215362049661836711524085, 10222445599386141179344629,
   37971626255021813, 4860442819820091125, 4855657745216009973, 621524266046826575605, 38085975464310517,
   4875079518609045237, 38072781324777205, 4873390668748781301, 10215362041217587410204405,
   10222445590941891878024949, 37971626223564533, 4860442819788633845, 4855657745184552693, 621524266046795118325,
   38085975432853237, 4875079518577587957, 38072781293319925, 4873390668717324021, 10215363266196686054979317,
   10222446815920990522799861, 1307566342356715099075195125, 1308473036721426070956224757, 4860368160642904309,
   622136680936971776245, 621524191387649388789, 79555106053993801789685, 4875004859431858421, 624010178381957902581,
   4873316009571594485, 623794005599844118773, 1307566341275851188506276085, 1308473035640562160387305717,
   4860368156616372469, 622136680932945244405, 621524191383622856949, 79555106053989775257845, 4875004855405326581,
   624010178377931370741, 4873316005545062645, 623794005595817586933, 1307566498073175815037464821,
   1308473192437886786918494453, 10215362049661838873574117, 10222445599386143341394661, 37971626255153893,
   4860442819820223205, 4855657745216142053, 621524266046826707685, 38085975464442597, 4875079518609177317,
   38072781324909285, 4873390668748913381, 10215362041217589572254437, 10222445590941894040074981, 37971626223696613,
   4860442819788765925, 4855657745184684773, 621524266046795250405, 38085975432985317, 4875079518577720037,
   38072781293452005, 4873390668717456101, 10215363266196688217029349, 10222446815920992684849893,
   1307566342356715375817488117, 1308473036721426347698517749, 4860368160659699445, 622136680936988571381,
   621524191387666183925, 79555106053993818584821, 4875004859448653557, 624010178381974697717, 4873316009588389621,
   623794005599860913909, 1307566341275851465248569077, 1308473035640562437129598709, 4860368156633167605,
   622136680932962039541, 621524191383639652085, 79555106053989792052981, 4875004855422121717, 624010178377948165877,
   4873316005561857781, 623794005595834382069, 1307566498073176091779757813, 1308473192437887063660787445,
   167368491821659568104638591221, 167484548700342572505410384117, 622127124564441641205, 79633495159934537249013,
   79555096497621271654645, 10183053574911208778969333, 624000622009427767541, 79873302832892761420021,
   623784449227313983733, 79845632716782197092597, 167368491683308987551816954101, 167484548561991991952588746997,
   622127124049045565685, 79633495159419141173493, 79555096497105875579125, 10183053574910693382893813,
   624000621494031692021, 79873302832377365344501, 623784448711917908213, 79845632716266801017077,
   167368511753366539747809112309, 167484568632049544148580905205, 1307566342356715610981513957,
   1308473036721426582862543589, 4860368160674052837, 622136680937002924773, 621524191387680537317,
   79555106053993832938213, 4875004859463006949, 624010178381989051109, 4873316009602743013, 623794005599875267301,
   1307566341275851700412594917, 1308473035640562672293624549, 4860368156647520997, 622136680932976392933,
   621524191383654005477, 79555106053989806406373, 4875004855436475109, 624010178377962519269, 4873316005576211173,
   623794005595848735461, 1307566498073176326943783653, 1308473192437887298824813285, 167368491821659598205633787637,
   167484548700342602606405580533, 622127124566278764277, 79633495159936374372085, 79555096497623108777717,
   10183053574911210616092405, 624000622011264890613, 79873302832894598543093, 623784449229151106805,
   79845632716784034215669, 167368491683309017652812150517, 167484548561992022053583943413, 622127124050882688757,
   79633495159420978296565, 79555096497107712702197, 10183053574910695220016885, 624000621495868815093,
   79873302832379202467573, 623784448713755031285, 79845632716268638140149, 167368511753366569848804308725,
   167484568632049574249576101621, 21423166953172428570321124929781, 21438022233643853133619914420469,
   79632271944483681939701, 10193087380471855919739125, 10183052351695757923660021, 1303430857588634958859940085,
   79872079617441906110709, 10223782762610508613628149, 79844409501331341783285, 10220240987748356379717877,
   21423166935463554259559955378421, 21438022215934978822858744869109, 79632271878512984273141,
   10193087380405885222072565, 10183052351629787225993461, 1303430857588568988162273525, 79872079551471208444149,
   10223782762544537915961589, 79844409435360644116725, 10220240987682385682051317, 21423169504430920940646951629045,
   21438024784902345503945741119733, 18102088051, 18104185203, 2317102870899, 2317371306355, 18102088036, 18104185188,
   2317102870884, 2317371306340]

theorem codesFlavio_eq : keysFlavio.map scode = codesFlavio := by decide +kernel

theorem codesFlavio_nodup : nodupR 40 1 codesFlavio = true := by decide +kernel

theorem keysFlavio_nodup : keysFlavio.Nodup := nodup_of_codes _ codesFlavio_eq codesFlavio_nodup

end Verif
