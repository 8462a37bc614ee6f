import Verif.Model.FlavorKit
import Verif.Lemmas.WetComp
import Verif.Lemmas.FlatLemmas

/-! The FlavorKit translators as renamings with factors. -/

set_option autoImplicit false

namespace Verif

open Spec

/-- The photon dipoles: FlavorKit name, JMS name. -/
def fkDipoles : List (String × String) :=
  [("K2R_11", "egamma_11"), ("K2R_12", "egamma_21"), ("K2R_13", "egamma_31"), ("K2R_21", "egamma_12"), ("K2R_22", "egamma_22"),
   ("K2R_23", "egamma_32"), ("K2R_31", "egamma_13"), ("K2R_32", "egamma_23"), ("K2R_33", "egamma_33")]

/-- The two names treated apart. -/
def fkSpecial : List (String × String) := [("AVLL_2231", "VeeLL_1223"), ("AVRR_2231", "VeeRR_1223")]

/-- All pairs of names. -/
def fkAll : Dict String String := fkJms ++ fkJmsConj ++ fkSpecial ++ fkDipoles

def codesFk : List ℕ :=
  [4947004723632593203, 4947004723634674098, 4947004723630495923, 4947004723634657713, 4947004723630479538, 4947004723632560433,
   4947004723630496051, 4947004723634657714, 4947004723630479794, 4947004723632560435, 4947004723630479539, 4947004723632560561,
   5092782167131183281, 5092782167131183410, 5092782167131183539, 5092808555410249905, 5092808555410250034, 5092808555410250163,
   4947004723632593073, 4947004723632593202, 4947004723632593331, 4947004723634673841, 4947004723634673970, 4947004723634674099,
   4947004723630479793, 4947004723630496049, 5019062317670521009, 5019062317670521138, 5019062317670521267, 5019062317672601777,
   5019062317672601906, 5019062317672602035, 5019035929391454385, 5019035929391454514, 5019035929391454643, 5019035929393535153,
   5019035929393535282, 5019035929393535411, 5019625267623942321, 5019625267623942450, 5019625267623942579, 5019625267626023089,
   5019625267626023218, 5019625267626023347, 4948666979055327666, 4948693573492824498, 4948667185213757874, 4947004723630495921,
   4947004723630496050, 4947004723630496179, 4947004723634657457, 4947004723634657586, 4947004723634657715, 4947004723632560562,
   4947004723632593074, 5019062317668423857, 5019062317668423986, 5019062317668424115, 5019062317672585393, 5019062317672585522,
   5019062317672585651, 5019035929389357233, 5019035929389357362, 5019035929389357491, 5019035929393518769, 5019035929393518898,
   5019035929393519027, 5019625267621845169, 5019625267621845298, 5019625267621845427, 5019625267626006705, 5019625267626006834,
   5019625267626006963, 4948666979057424691, 4948693573494921523, 4948667185215854899, 4948667185215871155, 4947004723630479537,
   4947004723630479666, 4947004723630479795, 4947004723632560305, 4947004723632560434, 4947004723632560563, 4947004723634657587,
   4947004723634673843, 5019062317668407473, 5019062317668407602, 5019062317668407731, 5019062317670488241, 5019062317670488370,
   5019062317670488499, 5019035929389340849, 5019035929389340978, 5019035929389341107, 5019035929391421617, 5019035929391421746,
   5019035929391421875, 5019625267621828785, 5019625267621828914, 5019625267621829043, 5019625267623909553, 5019625267623909682,
   5019625267623909811, 5019062317670521010, 5019062317672601905, 5019035929391454386, 5019035929393535281, 5019625267623942322,
   5019625267626023217, 5020724779253799090, 5019062317672601778, 5019062317670521137, 5019035929393535154, 5019035929391454513,
   5019625267626023090, 5019625267623942449, 5019062317670521011, 5019062317672602033, 5019035929391454387, 5019035929393535409,
   5019625267623942323, 5019625267626023345, 5020724779253799091, 5019062317672601779, 5019062317670521265, 5019035929393535155,
   5019035929391454641, 5019625267626023091, 5019625267623942577, 5019062317670521139, 5019062317672602034, 5019035929391454515,
   5019035929393535410, 5019625267623942451, 5019625267626023346, 5020724779253799219, 5019062317672601907, 5019062317670521266,
   5019035929393535283, 5019035929391454642, 5019625267626023219, 5019625267623942578, 5019062317668423858, 5019062317672585521,
   5019035929389357234, 5019035929393518897, 5019625267621845170, 5019625267626006833, 5020724779253782706, 5019062317672585394,
   5019062317668423985, 5019035929393518770, 5019035929389357361, 5019625267626006706, 5019625267621845297, 5019062317668423859,
   5019062317672585649, 5019035929389357235, 5019035929393519025, 5019625267621845171, 5019625267626006961, 5020724779253782707,
   5019062317672585395, 5019062317668424113, 5019035929393518771, 5019035929389357489, 5019625267626006707, 5019625267621845425,
   5019062317668423987, 5019062317672585650, 5019035929389357363, 5019035929393519026, 5019625267621845299, 5019625267626006962,
   5020724779253782835, 5019062317672585523, 5019062317668424114, 5019035929393518899, 5019035929389357490, 5019625267626006835,
   5019625267621845426, 5020724779251685554, 5019062317670488242, 5019062317668407601, 5019035929391421618, 5019035929389340977,
   5019625267623909554, 5019625267621828913, 5019062317668407474, 5019062317670488369, 5019035929389340850, 5019035929391421745,
   5019625267621828786, 5019625267623909681, 5020724779251685555, 5019062317670488243, 5019062317668407729, 5019035929391421619,
   5019035929389341105, 5019625267623909555, 5019625267621829041, 5019062317668407475, 5019062317670488497, 5019035929389340851,
   5019035929391421873, 5019625267621828787, 5019625267623909809, 5020724779251685683, 5019062317670488371, 5019062317668407730,
   5019035929391421747, 5019035929389341106, 5019625267623909683, 5019625267621829042, 5019062317668407603, 5019062317670488498,
   5019035929389340979, 5019035929391421874, 5019625267621828915, 5019625267623909810, 4732494196939446577, 4732494196941560113,
   4732494196943673649, 4732520791376943409, 4732520791379056945, 4732520791381170481, 4732494403097876785, 4732494403099990321,
   4732494403102103857, 4732494403099973809, 4732494403099973938, 4732494403099974067, 4732494403102087347, 4732494403102071091,
   4730831941516679473, 4730831941518793009, 4730831941520906545, 4730831941516679346, 4730831941518792882, 4730831941520906418,
   4730831941520890035, 4730831941520873779, 4804551790979471537, 4804551790979471666, 4804551790979471795, 4804578385416968369,
   4804578385416968498, 4804578385416968627, 4804551997137901745, 4804551997137901874, 4804551997137902003, 4802889329398274225,
   4802889329398274354, 4802889329398274483, 4802889329396193457, 4802889329396193586, 4802889329396193715, 4802889535556704433,
   4802889535556704562, 4802889535556704691, 4802889535554623665, 4802889535554623794, 4802889535554623923, 4803452485510125745,
   4803452485510125874, 4803452485510126003, 4803452485508044977, 4803452485508045106, 4803452485508045235, 5020724779249588529,
   5020724779251702065, 5020724779253815601, 4876609385017399473, 4876609385017399602, 4876635979454896305, 4876635979454896434,
   4876609591175829681, 4876609591175829810, 4874946923436202161, 4874946923436202290, 4874946923434121393, 4874946923434121522,
   4874947129594632369, 4874947129594632498, 4874947129592551601, 4874947129592551730, 4875510079548053681, 4875510079548053810,
   4875510079545972913, 4875510079545973042, 4732494196939446705, 4732494196943673777, 4732520791376943537, 4732520791381170609,
   4732494403097876913, 4732494403099990449, 4732494403102103985, 4732494403102070961, 4732494403102071090, 4732494403102071219,
   4732494403099974066, 4730831941516679601, 4730831941518793137, 4730831941520906673, 4730831941516679347, 4730831941518792883,
   4730831941520906419, 4730831941518809266, 4730831941518776754, 4804551790981568689, 4804551790981568818, 4804551790981568947,
   4804578385419065521, 4804578385419065650, 4804578385419065779, 4804551997139998897, 4804551997139999026, 4804551997139999155,
   4802889329400371377, 4802889329400371506, 4802889329400371635, 4802889329396209841, 4802889329396209970, 4802889329396210099,
   4802889535558801585, 4802889535558801714, 4802889535558801843, 4802889535554640049, 4802889535554640178, 4802889535554640307,
   4803452485512222897, 4803452485512223026, 4803452485512223155, 4803452485508061361, 4803452485508061490, 4803452485508061619,
   5020724779249588657, 5020724779251702193, 5020724779253815729, 4876609385019496625, 4876609385019496754, 4876635979456993457,
   4876635979456993586, 4876609591177926833, 4876609591177926962, 4874946923438299313, 4874946923438299442, 4874946923434137777,
   4874946923434137906, 4874947129596729521, 4874947129596729650, 4874947129592567985, 4874947129592568114, 4875510079550150833,
   4875510079550150962, 4875510079545989297, 4875510079545989426, 4730831941516679475, 4730831941518793011, 4730831941520906547,
   4730831941516679602, 4730831941518793138, 4730831941520906674, 4730831941516695985, 4730831941516712241, 4802889329398306993,
   4802889329398307122, 4802889329398307251, 4802889329400387761, 4802889329400387890, 4802889329400388019, 4802889535556737201,
   4802889535556737330, 4802889535556737459, 4802889535558817969, 4802889535558818098, 4802889535558818227, 4803452485510158513,
   4803452485510158642, 4803452485510158771, 4803452485512239281, 4803452485512239410, 4803452485512239539, 4874946923436234929,
   4874946923436235058, 4874946923438315697, 4874946923438315826, 4874947129594665137, 4874947129594665266, 4874947129596745905,
   4874947129596746034, 4875510079548086449, 4875510079548086578, 4875510079550167217, 4875510079550167346, 4730831941516712115,
   4730831941520873905, 4730831941518809395, 4730831941520890290, 4730831941516695730, 4730831941518776625, 4730831941516695986,
   4730831941518776627, 4730831941516695731, 4730831941518776753, 4730831941516712243, 4730831941520873906, 2796465674547,
   2796465674674, 2796465674419, 2796465674673, 2796465674418, 2796465674545, 2796734110003, 2796734110130, 2796734109875,
   2796734110129, 2796734109874, 2796734110001, 4948666979055360307, 4948693573492857139, 4948667185213790515, 4948666979053263027,
   4948693573490759859, 4948667185211693235, 4948666979053246642, 4948693573490743474, 4948667185211676850, 4948666979053263155,
   4948693573490759987, 4948667185211693363, 4948667185213790387, 4948666979053246898, 4948693573490743730, 4948667185211677106,
   4948667185213790513, 4948666979053246643, 4948693573490743475, 4948667185211676851, 4948667185211693234, 5164839761171208369,
   5164839761171208497, 5164839761171208625, 5164866149450274993, 5164866149450275121, 5164866149450275249, 5163150911310944433,
   5163150911310944561, 5163150911310944689, 5163177299590011057, 5163177299590011185, 5163177299590011313, 5164839761171224753,
   5164839761171224881, 5164839761171225009, 5164866149450291377, 5164866149450291505, 5164866149450291633, 5163150911310960817,
   5163150911310960945, 5163150911310961073, 5163177299590027441, 5163177299590027569, 5163177299590027697, 5164839761169111217,
   5164839761169111345, 5164839761169111473, 5164866149448177841, 5164866149448177969, 5164866149448178097, 5163150911308847281,
   5163150911308847409, 5163150911308847537, 5163177299587913905, 5163177299587914033, 5163177299587914161, 5164839761169127601,
   5164839761169127729, 5164839761169127857, 5164866149448194225, 5164866149448194353, 5164866149448194481, 5163150911308863665,
   5163150911308863793, 5163150911308863921, 5163177299587930289, 5163177299587930417, 5163177299587930545, 5164839761167014065,
   5164839761167014193, 5164839761167014321, 5164866149446080689, 5164866149446080817, 5164866149446080945, 5163150911306750129,
   5163150911306750257, 5163150911306750385, 5163177299585816753, 5163177299585816881, 5163177299585817009, 5164839761167030449,
   5164839761167030577, 5164839761167030705, 5164866149446097073, 5164866149446097201, 5164866149446097329, 5163150911306766513,
   5163150911306766641, 5163150911306766769, 5163177299585833137, 5163177299585833265, 5163177299585833393, 5164839761171208370,
   5164839761171208498, 5164839761171208626, 5164866149450274994, 5164866149450275122, 5164866149450275250, 5163150911310944434,
   5163150911310944562, 5163150911310944690, 5163177299590011058, 5163177299590011186, 5163177299590011314, 5164839761171224754,
   5164839761171224882, 5164839761171225010, 5164866149450291378, 5164866149450291506, 5164866149450291634, 5163150911310960818,
   5163150911310960946, 5163150911310961074, 5163177299590027442, 5163177299590027570, 5163177299590027698, 5164839761169111218,
   5164839761169111346, 5164839761169111474, 5164866149448177842, 5164866149448177970, 5164866149448178098, 5163150911308847282,
   5163150911308847410, 5163150911308847538, 5163177299587913906, 5163177299587914034, 5163177299587914162, 5164839761169127602,
   5164839761169127730, 5164839761169127858, 5164866149448194226, 5164866149448194354, 5164866149448194482, 5163150911308863666,
   5163150911308863794, 5163150911308863922, 5163177299587930290, 5163177299587930418, 5163177299587930546, 5164839761167014066,
   5164839761167014194, 5164839761167014322, 5164866149446080690, 5164866149446080818, 5164866149446080946, 5163150911306750130,
   5163150911306750258, 5163150911306750386, 5163177299585816754, 5163177299585816882, 5163177299585817010, 5164839761167030450,
   5164839761167030578, 5164839761167030706, 5164866149446097074, 5164866149446097202, 5164866149446097330, 5163150911306766514,
   5163150911306766642, 5163150911306766770, 5163177299585833138, 5163177299585833266, 5163177299585833394, 5164839761171208371,
   5164839761171208499, 5164839761171208627, 5164866149450274995, 5164866149450275123, 5164866149450275251, 5163150911310944435,
   5163150911310944563, 5163150911310944691, 5163177299590011059, 5163177299590011187, 5163177299590011315, 5164839761171224755,
   5164839761171224883, 5164839761171225011, 5164866149450291379, 5164866149450291507, 5164866149450291635, 5163150911310960819,
   5163150911310960947, 5163150911310961075, 5163177299590027443, 5163177299590027571, 5163177299590027699, 5164839761169111219,
   5164839761169111347, 5164839761169111475, 5164866149448177843, 5164866149448177971, 5164866149448178099, 5163150911308847283,
   5163150911308847411, 5163150911308847539, 5163177299587913907, 5163177299587914035, 5163177299587914163, 5164839761169127603,
   5164839761169127731, 5164839761169127859, 5164866149448194227, 5164866149448194355, 5164866149448194483, 5163150911308863667,
   5163150911308863795, 5163150911308863923, 5163177299587930291, 5163177299587930419, 5163177299587930547, 5164839761167014067,
   5164839761167014195, 5164839761167014323, 5164866149446080691, 5164866149446080819, 5164866149446080947, 5163150911306750131,
   5163150911306750259, 5163150911306750387, 5163177299585816755, 5163177299585816883, 5163177299585817011, 5164839761167030451,
   5164839761167030579, 5164839761167030707, 5164866149446097075, 5164866149446097203, 5164866149446097331, 5163150911306766515,
   5163150911306766643, 5163150911306766771, 5163177299585833139, 5163177299585833267, 5163177299585833395, 5092782167131216049,
   5092782167131216178, 5092782167131216307, 5092782167131216050, 5092782167131216051, 5092782167131216179, 5092782167133296818,
   5092782167133296819, 5092782167133296947, 5092808555410282673, 5092808555410282802, 5092808555410282931, 5092808555410282674,
   5092808555410282675, 5092808555410282803, 5092808555412363442, 5092808555412363443, 5092808555412363571, 5092782167129118897,
   5092782167129119026, 5092782167129119155, 5092782167129118898, 5092782167129118899, 5092782167129119027, 5092782167133280434,
   5092782167133280435, 5092782167133280563, 5092808555408185521, 5092808555408185650, 5092808555408185779, 5092808555408185522,
   5092808555408185523, 5092808555408185651, 5092808555412347058, 5092808555412347059, 5092808555412347187, 5092782167131183282,
   5092782167131183283, 5092782167131183411, 5092782167129102514, 5092782167129102515, 5092782167129102643, 5092808555410249906,
   5092808555410249907, 5092808555410250035, 5092808555408169138, 5092808555408169139, 5092808555408169267, 4948666979055360177,
   4948666979055360306, 4948666979055360435, 4948666979053246897, 4948693573492857009, 4948693573492857138, 4948693573492857267,
   4948693573490743729, 4948667185213790385, 4948667185213790514, 4948667185213790643, 4948693367334426801, 4948693367334426930,
   4948693367334427059, 4948667185211677105, 4948667185211693361, 5020724573093288113, 5020724573093288242, 5020724573093288371,
   5020751167530784945, 5020751167530785074, 5020751167530785203, 5020724779251718321, 5020724779251718450, 5020724779251718579,
   5020750961372354737, 5020750961372354866, 5020750961372354995, 4948666979053263025, 4948666979053263154, 4948666979053263283,
   4948693573490759857, 4948693573490759986, 4948693573490760115, 4948667185211693233, 4948667185211693362, 4948667185211693491,
   4948693367332329649, 4948693367332329778, 4948693367332329907, 4948667185213790386, 5020724573091190961, 5020724573091191090,
   5020724573091191219, 5020751167528687793, 5020751167528687922, 5020751167528688051, 5020724779249621169, 5020724779249621298,
   5020724779249621427, 5020750961370257585, 5020750961370257714, 5020750961370257843, 4948666979053246641, 4948666979053246770,
   4948666979053246899, 4948693573490743473, 4948693573490743602, 4948693573490743731, 4948667185211676849, 4948667185211676978,
   4948667185211677107, 4948693367332313265, 4948693367332313394, 4948693367332313523, 5020724573091174577, 5020724573091174706,
   5020724573091174835, 5020751167528671409, 5020751167528671538, 5020751167528671667, 5020724779249604785, 5020724779249604914,
   5020724779249605043, 5020750961370241201, 5020750961370241330, 5020750961370241459, 5020724573093288114, 5020751167530784946,
   5020724779251718322, 5020750961372354738, 5020724573095368882, 5020751167532865714, 5020750961374435506, 5020724573093288115,
   5020751167530784947, 5020724779251718323, 5020750961372354739, 5020724573095368883, 5020751167532865715, 5020750961374435507,
   5020724573093288243, 5020751167530785075, 5020724779251718451, 5020750961372354867, 5020724573095369011, 5020751167532865843,
   5020750961374435635, 5020724573091190962, 5020751167528687794, 5020724779249621170, 5020750961370257586, 5020724573095352498,
   5020751167532849330, 5020750961374419122, 5020724573091190963, 5020751167528687795, 5020724779249621171, 5020750961370257587,
   5020724573095352499, 5020751167532849331, 5020750961374419123, 5020724573091191091, 5020751167528687923, 5020724779249621299,
   5020750961370257715, 5020724573095352627, 5020751167532849459, 5020750961374419251, 5020724573093255346, 5020751167530752178,
   5020750961372321970, 5020724573091174578, 5020751167528671410, 5020724779249604786, 5020750961370241202, 5020724573093255347,
   5020751167530752179, 5020750961372321971, 5020724573091174579, 5020751167528671411, 5020724779249604787, 5020750961370241203,
   5020724573093255475, 5020751167530752307, 5020750961372322099, 5020724573091174707, 5020751167528671539, 5020724779249604915,
   5020750961370241331, 4732494403100006578, 4732494196939446579, 4732494196941560115, 4732494196943673651, 4732520791376943411,
   4732520791379056947, 4732520791381170483, 4732494403097876787, 4732494403099990323, 4732494403102103859, 4732494403100006577,
   4732494403100006706, 4732494403100006835, 4732494403097893297, 4732494403097909553, 4804551790979504305, 4804551790979504434,
   4804551790979504563, 4804578385417001137, 4804578385417001266, 4804578385417001395, 4804551997137934513, 4804551997137934642,
   4804551997137934771, 5020724779249588531, 5020724779251702067, 5020724779253815603, 4876609385017432241, 4876609385017432370,
   4876635979454929073, 4876635979454929202, 4876609591175862449, 4876609591175862578, 4732494196939479219, 4732520791376976051,
   4732494403097909427, 4732494196941576499, 4732520791379073331, 4732494403100006707, 4732494196939462834, 4732520791376959666,
   4732494403097893042, 4732494196939463090, 4732520791376959922, 4732494403097893298, 4732494403100006705, 4732494196939462835,
   4732520791376959667, 4732494403097893043, 4732494403097909426, 4732494196939479347, 4732520791376976179, 4732494403097909555,
   4732494403100006579, 4732494196941560241, 4732520791379057073, 2590575679665, 2590575679666, 2590575679667, 2590575679793,
   2590575679794, 2590575679795, 2590575679921, 2590575679922, 2590575679923]

def codesFkJms : List ℕ :=
  [98448312167233078729138, 98448312167233076648243, 98448312167233078712753, 98448312167233074550963, 98448312167233076615473,
   98448312167233074534578, 98448312167233078712754, 98448312167233074551091, 98448312167233076615475, 98448312167233074534834,
   98448312167233076615601, 98448312167233074534579, 102553937676137657030834, 102553937676137659144370, 102553937676137661257906,
   102553937676343815461042, 102553937676343817574578, 102553937676343819688114, 98448312167233074518450, 98448312167233076631986,
   98448312167233078729139, 98448312167233074518323, 98448312167233076631859, 98448312167233076648371, 98448312167233074551089,
   98448312167233074534833, 772874354535036639666, 772874354535038753202, 772874354535040866738, 772874354535036639539,
   772874354535038753075, 772874354535040866611, 772874354328878209458, 772874354328880322994, 772874354328882436530,
   772874354328878209331, 772874354328880322867, 772874354328882436403, 782097726571891415474, 782097726571893529010,
   782097726571895642546, 782097726571891415347, 782097726571893528883, 782097726571895642419, 800472386457125558579,
   800472413051563055411, 101990087002997029378355, 98448312167233074518449, 98448312167233076631985, 98448312167233078712755,
   98448312167233074518195, 98448312167233074551090, 98448312167233074551219, 98448312167233074534707, 98448312167233076615602,
   772874354535036639665, 772874354535038753201, 772874354535040866737, 772874354535036639411, 772874354535038752947,
   772874354535040866483, 772874354328878209457, 772874354328880322993, 772874354328882436529, 772874354328878209203,
   772874354328880322739, 772874354328882436275, 782097726571891415473, 782097726571893529009, 782097726571895642545,
   782097726571891415219, 782097726571893528755, 782097726571895642291, 800472386457125575090, 800472413051563071922,
   101990087002997029394866, 101990087002997031492017, 98448312167233074518321, 98448312167233076615474, 98448312167233076615603,
   98448312167233074518194, 98448312167233074534706, 98448312167233074534835, 98448312167233074551218, 98448312167233076648369,
   772874354535036639537, 772874354535038753073, 772874354535040866609, 772874354535036639410, 772874354535038752946,
   772874354535040866482, 772874354328878209329, 772874354328880322865, 772874354328882436401, 772874354328878209202,
   772874354328880322738, 772874354328882436274, 782097726571891415345, 782097726571893528881, 782097726571895642417,
   782097726571891415218, 782097726571893528754, 782097726571895642290, 772874354535038736818, 772874354535036655923,
   772874354328880306610, 772874354328878225715, 782097726571893512626, 782097726571891431731, 800472949613239523633,
   772874354535038736691, 772874354535036656050, 772874354328880306483, 772874354328878225842, 782097726571893512499,
   782097726571891431858, 772874354535040833970, 772874354535036672307, 772874354328882403762, 772874354328878242099,
   782097726571895609778, 782097726571891448115, 800472949613239523761, 772874354535040833843, 772874354535036672434,
   772874354328882403635, 772874354328878242226, 782097726571895609651, 782097726571891448242, 772874354535040850354,
   772874354535038769459, 772874354328882420146, 772874354328880339251, 782097726571895626162, 782097726571893545267,
   800472949613239523762, 772874354535040850227, 772874354535038769586, 772874354328882420019, 772874354328880339378,
   782097726571895626035, 782097726571893545394, 772874354535038736817, 772874354535036655795, 772874354328880306609,
   772874354328878225587, 782097726571893512625, 782097726571891431603, 800472949613237426481, 772874354535038736563,
   772874354535036656049, 772874354328880306355, 772874354328878225841, 782097726571893512371, 782097726571891431857,
   772874354535040833969, 772874354535036672179, 772874354328882403761, 772874354328878241971, 782097726571895609777,
   782097726571891447987, 800472949613237426609, 772874354535040833715, 772874354535036672433, 772874354328882403507,
   772874354328878242225, 782097726571895609523, 782097726571891448241, 772874354535040850353, 772874354535038769331,
   772874354328882420145, 772874354328880339123, 782097726571895626161, 782097726571893545139, 800472949613237426610,
   772874354535040850099, 772874354535038769585, 772874354328882419891, 772874354328880339377, 782097726571895625907,
   782097726571893545393, 800472949613237410097, 772874354535038736562, 772874354535036655921, 772874354328880306354,
   772874354328878225713, 782097726571893512370, 782097726571891431729, 772874354535038736689, 772874354535036655794,
   772874354328880306481, 772874354328878225586, 782097726571893512497, 782097726571891431602, 800472949613237410225,
   772874354535040833714, 772874354535036672305, 772874354328882403506, 772874354328878242097, 782097726571895609522,
   782097726571891448113, 772874354535040833841, 772874354535036672178, 772874354328882403633, 772874354328878241970,
   782097726571895609649, 782097726571891447986, 800472949613237410226, 772874354535040850098, 772874354535038769457,
   772874354328882419890, 772874354328880339249, 782097726571895625906, 782097726571893545265, 772874354535040850225,
   772874354535038769330, 772874354328882420017, 772874354328880339122, 782097726571895626033, 782097726571893545138,
   800545007001116891314, 800545007001116907826, 800545007001116907955, 800545033595554388146, 800545033595554404658,
   800545033595554404787, 800545007207275321522, 800545007207277435058, 800545007207279548594, 800545007207275337905,
   800545007207275338034, 800545007207275338163, 800545007207277451697, 800545007207275354546, 772874917484990060722,
   772874917484990077234, 772874917484990077363, 772874917484990060849, 772874917484992158002, 772874917484992158131,
   772874917484992190897, 772874917484990093746, 800544444051163486385, 800544444051163486514, 800544444051163486643,
   800544470645600983217, 800544470645600983346, 800544470645600983475, 800544444257321916593, 800544444257321916722,
   800544444257321916851, 772874354328878225585, 772874354328878225714, 772874354328878225843, 772874354328880306353,
   772874354328880306482, 772874354328880306611, 772874354535036655793, 772874354535036655922, 772874354535036656051,
   772874354535038736561, 772874354535038736690, 772874354535038736819, 782097726571891431601, 782097726571891431730,
   782097726571891431859, 782097726571893512369, 782097726571893512498, 782097726571893512627, 800472949613237393586,
   800472949613239507122, 800472949613241620658, 800554014200371648689, 800554014200371648818, 800554040794809145521,
   800554040794809145650, 800554014406530078897, 800554014406530079026, 772883924478086387889, 772883924478086388018,
   772883924478088468657, 772883924478088468786, 772883924684244818097, 772883924684244818226, 772883924684246898865,
   772883924684246898994, 782107296721099593905, 782107296721099594034, 782107296721101674673, 782107296721101674802,
   800545007001116891315, 800545007001116924339, 800545033595554388147, 800545033595554421171, 800545007207275321523,
   800545007207277435059, 800545007207279548595, 800545007207275354289, 800545007207275354418, 800545007207275354547,
   800545007207275338035, 772874917484990060723, 772874917484990093618, 772874917484990093747, 772874917484990060977,
   772874917484992174513, 772874917484994255283, 772874917484992158130, 772874917484990077235, 800544444051163502769,
   800544444051163502898, 800544444051163503027, 800544470645600999601, 800544470645600999730, 800544470645600999859,
   800544444257321932977, 800544444257321933106, 800544444257321933235, 772874354328878241969, 772874354328878242098,
   772874354328878242227, 772874354328882403505, 772874354328882403634, 772874354328882403763, 772874354535036672177,
   772874354535036672306, 772874354535036672435, 772874354535040833713, 772874354535040833842, 772874354535040833971,
   782097726571891447985, 782097726571891448114, 782097726571891448243, 782097726571895609521, 782097726571895609650,
   782097726571895609779, 800472949613237393587, 800472949613239507123, 800472949613241620659, 800554014200371665073,
   800554014200371665202, 800554040794809161905, 800554040794809162034, 800554014406530095281, 800554014406530095410,
   772883924478086404273, 772883924478086404402, 772883924478090565809, 772883924478090565938, 772883924684244834481,
   772883924684244834610, 772883924684248996017, 772883924684248996146, 782107296721099610289, 782107296721099610418,
   782107296721103771825, 782107296721103771954, 772874917484990060978, 772874917484992174514, 772874917484994271667,
   772874917484990060851, 772874917484992174387, 772874917484992190899, 772874917484990093617, 772874917484990077361,
   772874354328882419889, 772874354328882420018, 772874354328882420147, 772874354328880339121, 772874354328880339250,
   772874354328880339379, 772874354535040850097, 772874354535040850226, 772874354535040850355, 772874354535038769329,
   772874354535038769458, 772874354535038769587, 782097726571895625905, 782097726571895626034, 782097726571895626163,
   782097726571893545137, 782097726571893545266, 782097726571893545395, 772883924478090582193, 772883924478090582322,
   772883924478088501425, 772883924478088501554, 772883924684249012401, 772883924684249012530, 772883924684246931633,
   772883924684246931762, 782107296721103788209, 782107296721103788338, 782107296721101707441, 782107296721101707570,
   772874917484994255281, 772874917484990093491, 772874917484994271666, 772874917484992190771, 772874917484992158001,
   772874917484990077106, 772874917484992158003, 772874917484990077362, 772874917484992158129, 772874917484990077107,
   772874917484994255282, 772874917484990093619, 7264173634182699442, 7264173634182699315, 7264173634182699441, 7264173634182699187,
   7264173634182699313, 7264173634182699186, 26994006450, 26994006323, 26994006449, 26994006195, 26994006321, 26994006194,
   800472386457127672115, 800472413051565168947, 101990087002997031491891, 800472386457125574835, 800472413051563071667,
   101990087002997029394611, 800472386457125558450, 800472413051563055282, 101990087002997029378226, 800472386457125574963,
   800472413051563071795, 101990087002997029394739, 101990087002997031491763, 800472386457125558706, 800472413051563055538,
   101990087002997029378482, 101990087002997031491889, 800472386457125558451, 800472413051563055283, 101990087002997029378227,
   101990087002997029394610, 1680243725861591991825750449, 1680243725861591991827847601, 1680243725861591991829944753,
   1680243725861592197984180657, 1680243725861592197986277809, 1680243725861592197988374961, 1622215286520116385877350833,
   1622215286520116385879447985, 1622215286520116385881545137, 1622215286520116179718920625, 1622215286520116179721017777,
   1622215286520116179723114929, 1680243725861591991825750450, 1680243725861591991827847602, 1680243725861591991829944754,
   1680243725861592197984180658, 1680243725861592197986277810, 1680243725861592197988374962, 1622215286520116385877350834,
   1622215286520116385879447986, 1622215286520116385881545138, 1622215286520116179718920626, 1622215286520116179721017778,
   1622215286520116179723114930, 1680243725861591991825750321, 1680243725861591991827847473, 1680243725861591991829944625,
   1680243725861592197984180529, 1680243725861592197986277681, 1680243725861592197988374833, 1622215286520116385877350705,
   1622215286520116385879447857, 1622215286520116385881545009, 1622215286520116179718920497, 1622215286520116179721017649,
   1622215286520116179723114801, 1680243725861591991825750322, 1680243725861591991827847474, 1680243725861591991829944626,
   1680243725861592197984180530, 1680243725861592197986277682, 1680243725861592197988374834, 1622215286520116385877350706,
   1622215286520116385879447858, 1622215286520116385881545010, 1622215286520116179718920498, 1622215286520116179721017650,
   1622215286520116179723114802, 1680243725861591991825750193, 1680243725861591991827847345, 1680243725861591991829944497,
   1680243725861592197984180401, 1680243725861592197986277553, 1680243725861592197988374705, 1622215286520116385877350577,
   1622215286520116385879447729, 1622215286520116385881544881, 1622215286520116179718920369, 1622215286520116179721017521,
   1622215286520116179723114673, 1680243725861591991825750194, 1680243725861591991827847346, 1680243725861591991829944498,
   1680243725861592197984180402, 1680243725861592197986277554, 1680243725861592197988374706, 1622215286520116385877350578,
   1622215286520116385879447730, 1622215286520116385881544882, 1622215286520116179718920370, 1622215286520116179721017522,
   1622215286520116179723114674, 1680243725861591991825766833, 1680243725861591991827863985, 1680243725861591991829961137,
   1680243725861592197984197041, 1680243725861592197986294193, 1680243725861592197988391345, 1622215286520116385877367217,
   1622215286520116385879464369, 1622215286520116385881561521, 1622215286520116179718937009, 1622215286520116179721034161,
   1622215286520116179723131313, 1680243725861591991825766834, 1680243725861591991827863986, 1680243725861591991829961138,
   1680243725861592197984197042, 1680243725861592197986294194, 1680243725861592197988391346, 1622215286520116385877367218,
   1622215286520116385879464370, 1622215286520116385881561522, 1622215286520116179718937010, 1622215286520116179721034162,
   1622215286520116179723131314, 1680243725861591991825766705, 1680243725861591991827863857, 1680243725861591991829961009,
   1680243725861592197984196913, 1680243725861592197986294065, 1680243725861592197988391217, 1622215286520116385877367089,
   1622215286520116385879464241, 1622215286520116385881561393, 1622215286520116179718936881, 1622215286520116179721034033,
   1622215286520116179723131185, 1680243725861591991825766706, 1680243725861591991827863858, 1680243725861591991829961010,
   1680243725861592197984196914, 1680243725861592197986294066, 1680243725861592197988391218, 1622215286520116385877367090,
   1622215286520116385879464242, 1622215286520116385881561394, 1622215286520116179718936882, 1622215286520116179721034034,
   1622215286520116179723131186, 1680243725861591991825766577, 1680243725861591991827863729, 1680243725861591991829960881,
   1680243725861592197984196785, 1680243725861592197986293937, 1680243725861592197988391089, 1622215286520116385877366961,
   1622215286520116385879464113, 1622215286520116385881561265, 1622215286520116179718936753, 1622215286520116179721033905,
   1622215286520116179723131057, 1680243725861591991825766578, 1680243725861591991827863730, 1680243725861591991829960882,
   1680243725861592197984196786, 1680243725861592197986293938, 1680243725861592197988391090, 1622215286520116385877366962,
   1622215286520116385879464114, 1622215286520116385881561266, 1622215286520116179718936754, 1622215286520116179721033906,
   1622215286520116179723131058, 1680243725861591991825783217, 1680243725861591991827880369, 1680243725861591991829977521,
   1680243725861592197984213425, 1680243725861592197986310577, 1680243725861592197988407729, 1622215286520116385877383601,
   1622215286520116385879480753, 1622215286520116385881577905, 1622215286520116179718953393, 1622215286520116179721050545,
   1622215286520116179723147697, 1680243725861591991825783218, 1680243725861591991827880370, 1680243725861591991829977522,
   1680243725861592197984213426, 1680243725861592197986310578, 1680243725861592197988407730, 1622215286520116385877383602,
   1622215286520116385879480754, 1622215286520116385881577906, 1622215286520116179718953394, 1622215286520116179721050546,
   1622215286520116179723147698, 1680243725861591991825783089, 1680243725861591991827880241, 1680243725861591991829977393,
   1680243725861592197984213297, 1680243725861592197986310449, 1680243725861592197988407601, 1622215286520116385877383473,
   1622215286520116385879480625, 1622215286520116385881577777, 1622215286520116179718953265, 1622215286520116179721050417,
   1622215286520116179723147569, 1680243725861591991825783090, 1680243725861591991827880242, 1680243725861591991829977394,
   1680243725861592197984213298, 1680243725861592197986310450, 1680243725861592197988407602, 1622215286520116385877383474,
   1622215286520116385879480626, 1622215286520116385881577778, 1622215286520116179718953266, 1622215286520116179721050418,
   1622215286520116179723147570, 1680243725861591991825782961, 1680243725861591991827880113, 1680243725861591991829977265,
   1680243725861592197984213169, 1680243725861592197986310321, 1680243725861592197988407473, 1622215286520116385877383345,
   1622215286520116385879480497, 1622215286520116385881577649, 1622215286520116179718953137, 1622215286520116179721050289,
   1622215286520116179723147441, 1680243725861591991825782962, 1680243725861591991827880114, 1680243725861591991829977266,
   1680243725861592197984213170, 1680243725861592197986310322, 1680243725861592197988407474, 1622215286520116385877383346,
   1622215286520116385879480498, 1622215286520116385881577650, 1622215286520116179718953138, 1622215286520116179721050290,
   1622215286520116179723147442, 102553937676137657030963, 102553937676137659144499, 102553937676137661258035,
   102553937676137657047347, 102553937676137657063731, 102553937676137659160883, 102553937676137657047474, 102553937676137657063858,
   102553937676137659161010, 102553937676343815461171, 102553937676343817574707, 102553937676343819688243, 102553937676343815477555,
   102553937676343815493939, 102553937676343817591091, 102553937676343815477682, 102553937676343815494066, 102553937676343817591218,
   102553937676137657030835, 102553937676137659144371, 102553937676137661257907, 102553937676137657047219, 102553937676137657063603,
   102553937676137659160755, 102553937676137657047473, 102553937676137657063857, 102553937676137659161009, 102553937676343815461043,
   102553937676343817574579, 102553937676343819688115, 102553937676343815477427, 102553937676343815493811, 102553937676343817590963,
   102553937676343815477681, 102553937676343815494065, 102553937676343817591217, 102553937676137657047345, 102553937676137657063729,
   102553937676137659160881, 102553937676137657047218, 102553937676137657063602, 102553937676137659160754, 102553937676343815477553,
   102553937676343815493937, 102553937676343817591089, 102553937676343815477426, 102553937676343815493810, 102553937676343817590962,
   800472386457125542195, 800472386457127655731, 800472386457127672243, 800472386457125558705, 800472413051563039027,
   800472413051565152563, 800472413051565169075, 800472413051563055537, 101990087002997031491761, 101990087002997031491890,
   101990087002997031492019, 101990087002997029361971, 101990087002997031475507, 101990087002997033589043, 101990087002997029378481,
   101990087002997029394737, 800544444051163470131, 800544444051165583667, 800544444051167697203, 800544470645600966963,
   800544470645603080499, 800544470645605194035, 800472949613239523505, 800472949613239523634, 800472949613239523763,
   800544444257321900339, 800544444257324013875, 800544444257326127411, 800472386457125542067, 800472386457125574962,
   800472386457125575091, 800472413051563038899, 800472413051563071794, 800472413051563071923, 101990087002997029394609,
   101990087002997029394738, 101990087002997029394867, 101990087002997029361843, 101990087002997031475379, 101990087002997033588915,
   101990087002997031491762, 800544444051163470003, 800544444051165583539, 800544444051167697075, 800544470645600966835,
   800544470645603080371, 800544470645605193907, 800472949613237426353, 800472949613237426482, 800472949613237426611,
   800544444257321900211, 800544444257324013747, 800544444257326127283, 800472386457125542066, 800472386457125558578,
   800472386457125558707, 800472413051563038898, 800472413051563055410, 800472413051563055539, 101990087002997029378225,
   101990087002997029378354, 101990087002997029378483, 101990087002997029361842, 101990087002997031475378, 101990087002997033588914,
   800544444051163470002, 800544444051165583538, 800544444051167697074, 800544470645600966834, 800544470645603080370,
   800544470645605193906, 800472949613237409969, 800472949613237410098, 800472949613237410227, 800544444257321900210,
   800544444257324013746, 800544444257326127282, 800544444051163486515, 800544470645600983347, 800472949613239523506,
   800544444257321916723, 800544444051163486642, 800544470645600983474, 800544444257321916850, 800544444051163502899,
   800544470645600999731, 800472949613239523507, 800544444257321933107, 800544444051163503026, 800544470645600999858,
   800544444257321933234, 800544444051165600051, 800544470645603096883, 800472949613239523635, 800544444257324030259,
   800544444051165600178, 800544470645603097010, 800544444257324030386, 800544444051163486387, 800544470645600983219,
   800472949613237426354, 800544444257321916595, 800544444051163486641, 800544470645600983473, 800544444257321916849,
   800544444051163502771, 800544470645600999603, 800472949613237426355, 800544444257321932979, 800544444051163503025,
   800544470645600999857, 800544444257321933233, 800544444051165599923, 800544470645603096755, 800472949613237426483,
   800544444257324030131, 800544444051165600177, 800544470645603097009, 800544444257324030385, 800544444051163486513,
   800544470645600983345, 800544444257321916721, 800544444051163486386, 800544470645600983218, 800472949613237409970,
   800544444257321916594, 800544444051163502897, 800544470645600999729, 800544444257321933105, 800544444051163502770,
   800544470645600999602, 800472949613237409971, 800544444257321932978, 800544444051165600049, 800544470645603096881,
   800544444257324030257, 800544444051165599922, 800544470645603096754, 800472949613237410099, 800544444257324030130,
   800545007207277451442, 800545007001116891443, 800545007001119004979, 800545007001119021491, 800545033595554388275,
   800545033595556501811, 800545033595556518323, 800545007207275321651, 800545007207277435187, 800545007207279548723,
   800545007207277451441, 800545007207277451570, 800545007207277451699, 800545007207275338161, 800545007207275354417,
   800544444051165599921, 800544444051165600050, 800544444051165600179, 800544470645603096753, 800544470645603096882,
   800544470645603097011, 800544444257324030129, 800544444257324030258, 800544444257324030387, 800472949613237393715,
   800472949613239507251, 800472949613241620787, 800554014200373762225, 800554014200373762354, 800554040794811259057,
   800554040794811259186, 800554014406532192433, 800554014406532192562, 800545007001116924083, 800545033595554420915,
   800545007207275354291, 800545007001119021363, 800545033595556518195, 800545007207277451571, 800545007001116907698,
   800545033595554404530, 800545007207275337906, 800545007001116907954, 800545033595554404786, 800545007207275338162,
   800545007207277451569, 800545007001116907699, 800545033595554404531, 800545007207275337907, 800545007207275354290,
   800545007001116924211, 800545033595554421043, 800545007207275354419, 800545007207277451443, 800545007001116907827,
   800545033595554404659, 7336231228220627121, 7336231228220627249, 7336231228220627377, 7336231228220627122, 7336231228220627250,
   7336231228220627378, 7336231228220627123, 7336231228220627251, 7336231228220627379]

theorem codesFk_eq : (Dict.keys fkAll).map scode = codesFk := by decide +kernel

theorem codesFkJms_eq : (fkAll.map Prod.snd).map scode = codesFkJms := by decide +kernel

theorem codesFk_nodup : nodupR 60 1 codesFk = true := by decide +kernel

theorem codesFkJms_nodup : nodupR 60 1 codesFkJms = true := by decide +kernel

theorem fkAll_WF : Dict.WF fkAll := by
  have : ((Dict.keys fkAll).map scode).Nodup := by rw [codesFk_eq]; exact nodup_of_nodupR codesFk_nodup
  exact this.of_map

theorem fkAll_snd_nodup : (fkAll.map Prod.snd).Nodup := by
  have : ((fkAll.map Prod.snd).map scode).Nodup := by rw [codesFkJms_eq]; exact nodup_of_nodupR codesFkJms_nodup
  exact this.of_map

end Verif
