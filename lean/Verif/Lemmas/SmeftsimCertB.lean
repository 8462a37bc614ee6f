import Verif.Lemmas.SmeftsimCode

/-! The rows of the SMEFTsim card for model set B as codes, and the proof that they give the rows of the model. -/

set_option autoImplicit false

namespace Verif

open Spec

/-- Codes of `rowsB_FRBlock_1`. -/
def codesB_FRBlock_1 : List ℕ := [
  209, 66257, 132305, 264401, 330449, 528593, 66258, 132306, 330450, 217, 66265, 132313, 264409, 330457, 528601,
  66266, 132314, 330458, 233, 66281, 132329, 264425, 330473, 528617, 66282, 132330, 330474, 241, 66289, 132337,
  264433, 330481, 528625, 66290, 132338, 330482, 249, 66297, 132345, 264441, 330489, 528633, 66298, 132346, 330490,
  257, 66305, 132353, 264449, 330497, 528641, 66306, 132354, 330498, 225, 66273, 132321, 264417, 330465, 528609,
  66274, 132322, 330466, 275, 264467, 792851, 528659, 1585427, 2642195, 2906387, 3434771, 5284115, 66320, 132368,
  330512, 660752, 726800, 990992, 858896, 924944, 1057040, 1123088, 1321232, 1453328, 1651472, 1519376, 1717520,
  2708240, 3302672, 5073680, 66322, 132370, 330514, 660754, 726802, 990994, 858898, 924946, 1057042, 1123090,
  1321234, 1453330, 1651474, 1519378, 1717522, 2708242, 3302674, 5073682, 283, 264475, 792859, 528667, 1585435,
  2642203, 2906395, 3434779, 5284123, 66328, 132376, 330520, 660760, 726808, 991000, 858904, 924952, 1057048,
  1123096, 1321240, 1453336, 1651480, 1519384, 1717528, 2708248, 3302680, 5073688, 66330, 132378, 330522, 660762,
  726810, 991002, 858906, 924954, 1057050, 1123098, 1321242, 1453338, 1651482, 1519386, 1717530]

theorem eqB_FRBlock_1 : rowsB_FRBlock_1 = codeRows .B (some 1) codesB_FRBlock_1 := by rfl

/-- Codes of `rowsB_FRBlock_2`. -/
def codesB_FRBlock_2 : List ℕ := [
  2708250, 3302682, 5073690, 291, 264483, 792867, 528675, 1585443, 2642211, 2906403, 3434787, 5284131, 66336, 132384,
  330528, 660768, 726816, 991008, 858912, 924960, 1057056, 1123104, 1321248, 1453344, 1651488, 1519392, 1717536,
  2708256, 3302688, 5073696, 66338, 132386, 330530, 660770, 726818, 991010, 858914, 924962, 1057058, 1123106,
  1321250, 1453346, 1651490, 1519394, 1717538, 2708258, 3302690, 5073698, 299, 66344, 132392, 330536, 264491, 528683,
  594728, 660776, 792872, 726824, 991016, 858920, 924968, 1057064, 1123112, 1189160, 1255208, 1321256, 1585448,
  1387304, 1453352, 1651496, 1519400, 1717544, 2378027, 2444072, 2510120, 2642219, 2708264, 2906411, 2972456,
  3038504, 3104552, 3170600, 3236648, 3302696, 3368744, 3434792, 3500840, 4755755, 4821800, 4887848, 5019947,
  5284139, 5085992, 66346, 2444074, 132394, 330538, 594730, 660778, 792874, 726826, 991018, 858922, 924970, 1057066,
  1123114, 1189162, 1255210, 1321258, 1585450, 1387306, 1453354, 1651498, 1519402, 1717546, 2510122, 2708266,
  2972458, 3038506, 3104554, 3170602, 3236650, 3302698, 3368746, 3434794, 3500842, 5085994, 4821802, 4887850, 307,
  66352, 132400, 330544, 264499, 528691, 594736, 660784, 792880, 726832, 991024, 858928, 924976, 1057072, 1123120,
  1189168, 1255216, 1321264, 1585456, 1387312, 1453360]

theorem eqB_FRBlock_2 : rowsB_FRBlock_2 = codeRows .B (some 151) codesB_FRBlock_2 := by rfl

/-- Codes of `rowsB_FRBlock_3`. -/
def codesB_FRBlock_3 : List ℕ := [
  1651504, 1519408, 1717552, 2378035, 2444080, 2510128, 2642227, 2708272, 2906419, 2972464, 3038512, 3104560,
  3170608, 3236656, 3302704, 3368752, 3434800, 3500848, 4755763, 4821808, 4887856, 5019955, 5284147, 5086000, 66354,
  2444082, 132402, 330546, 594738, 660786, 792882, 726834, 991026, 858930, 924978, 1057074, 1123122, 1189170,
  1255218, 1321266, 1585458, 1387314, 1453362, 1651506, 1519410, 1717554, 2510130, 2708274, 2972466, 3038514,
  3104562, 3170610, 3236658, 3302706, 3368754, 3434802, 3500850, 5086002, 4821810, 4887858, 323, 264515, 792899,
  528707, 1585475, 2642243, 2906435, 3434819, 5284163, 66368, 132416, 330560, 660800, 726848, 991040, 858944, 924992,
  1057088, 1123136, 1321280, 1453376, 1651520, 1519424, 1717568, 2708288, 3302720, 5073728, 66370, 132418, 330562,
  660802, 726850, 991042, 858946, 924994, 1057090, 1123138, 1321282, 1453378, 1651522, 1519426, 1717570, 2708290,
  3302722, 5073730, 331, 264523, 792907, 528715, 1585483, 2642251, 2906443, 3434827, 5284171, 66376, 132424, 330568,
  660808, 726856, 991048, 858952, 925000, 1057096, 1123144, 1321288, 1453384, 1651528, 1519432, 1717576, 2708296,
  3302728, 5073736, 66378, 132426, 330570, 660810, 726858, 991050, 858954, 925002, 1057098, 1123146, 1321290,
  1453386, 1651530, 1519434, 1717578, 2708298, 3302730, 5073738]

theorem eqB_FRBlock_3 : rowsB_FRBlock_3 = codeRows .B (some 301) codesB_FRBlock_3 := by rfl

/-- Codes of `rowsB_FRBlock_4`. -/
def codesB_FRBlock_4 : List ℕ := [
  315, 2642235, 5284155, 264507, 528699, 2906427, 660792, 726840, 1057080, 1321272, 1519416, 3302712, 66360, 858936,
  1123128, 132408, 1449272, 1717560, 330552, 2708280, 5073720, 66362, 132410, 330554, 660794, 726842, 1519418,
  858938, 5073722, 1057082, 1123130, 1321274, 1449274, 1717562, 2708282, 3302714, 355, 66400, 132448, 330592, 264547,
  528739, 594784, 660832, 792928, 726880, 991072, 858976, 925024, 1057120, 1123168, 1189216, 1255264, 1321312,
  1585504, 1387360, 1453408, 1651552, 1519456, 1717600, 2378083, 2444128, 2510176, 2642275, 2708320, 2906467,
  2972512, 3038560, 3104608, 3170656, 3236704, 3302752, 3368800, 3434848, 3500896, 4755811, 4821856, 4887904,
  5020003, 5284195, 5086048, 66402, 2444130, 132450, 330594, 594786, 660834, 792930, 726882, 991074, 858978, 925026,
  1057122, 1123170, 1189218, 1255266, 1321314, 1585506, 1387362, 1453410, 1651554, 1519458, 1717602, 2510178,
  2708322, 2972514, 3038562, 3104610, 3170658, 3236706, 3302754, 3368802, 3434850, 3500898, 5086050, 4821858,
  4887906, 363, 66408, 132456, 330600, 264555, 528747, 594792, 660840, 792936, 726888, 991080, 858984, 925032,
  1057128, 1123176, 1189224, 1255272, 1321320, 1585512, 1387368, 1453416, 1651560, 1519464, 1717608, 2378091,
  2444136, 2510184, 2642283, 2708328, 2906475, 2972520, 3038568, 3104616]

theorem eqB_FRBlock_4 : rowsB_FRBlock_4 = codeRows .B (some 451) codesB_FRBlock_4 := by rfl

/-- Codes of `rowsB_FRBlock_5`. -/
def codesB_FRBlock_5 : List ℕ := [
  3170664, 3236712, 3302760, 3368808, 3434856, 3500904, 4755819, 4821864, 4887912, 5020011, 5284203, 5086056, 66410,
  2444138, 132458, 330602, 594794, 660842, 792938, 726890, 991082, 858986, 925034, 1057130, 1123178, 1189226,
  1255274, 1321322, 1585514, 1387370, 1453418, 1651562, 1519466, 1717610, 2510186, 2708330, 2972522, 3038570,
  3104618, 3170666, 3236714, 3302762, 3368810, 3434858, 3500906, 5086058, 4821866, 4887914, 339, 66384, 132432,
  330576, 264531, 528723, 594768, 660816, 792912, 726864, 991056, 858960, 925008, 1057104, 1123152, 1189200, 1255248,
  1321296, 1585488, 1387344, 1453392, 1651536, 1519440, 1717584, 2378067, 2444112, 2510160, 2642259, 2708304,
  2906451, 2972496, 3038544, 3104592, 3170640, 3236688, 3302736, 3368784, 3434832, 3500880, 4755795, 4821840,
  4887888, 5019987, 5284179, 5086032, 66386, 2444114, 132434, 330578, 594770, 660818, 792914, 726866, 991058, 858962,
  925010, 1057106, 1123154, 1189202, 1255250, 1321298, 1585490, 1387346, 1453394, 1651538, 1519442, 1717586, 2510162,
  2708306, 2972498, 3038546, 3104594, 3170642, 3236690, 3302738, 3368786, 3434834, 3500882, 5086034, 4821842,
  4887890, 347, 66392, 132440, 330584, 264539, 528731, 594776, 660824, 792920, 726872, 991064, 858968, 925016,
  1057112, 1123160, 1189208, 1255256, 1321304, 1585496, 1387352, 1453400]

theorem eqB_FRBlock_5 : rowsB_FRBlock_5 = codeRows .B (some 601) codesB_FRBlock_5 := by rfl

/-- Codes of `rowsB_FRBlock_6`. -/
def codesB_FRBlock_6 : List ℕ := [
  1651544, 1519448, 1717592, 2378075, 2444120, 2510168, 2642267, 2708312, 2906459, 2972504, 3038552, 3104600,
  3170648, 3236696, 3302744, 3368792, 3434840, 3500888, 4755803, 4821848, 4887896, 5019995, 5284187, 5086040, 66394,
  2444122, 132442, 330586, 594778, 660826, 792922, 726874, 991066, 858970, 925018, 1057114, 1123162, 1189210,
  1255258, 1321306, 1585498, 1387354, 1453402, 1651546, 1519450, 1717594, 2510170, 2708314, 2972506, 3038554,
  3104602, 3170650, 3236698, 3302746, 3368794, 3434842, 3500890, 5086042, 4821850, 4887898, 403, 66448, 132496,
  330640, 264595, 528787, 594832, 660880, 792976, 726928, 991120, 859024, 925072, 1057168, 1123216, 1189264, 1255312,
  1321360, 1585552, 1387408, 1453456, 1651600, 1519504, 1717648, 2378131, 2444176, 2510224, 2642323, 2708368,
  2906515, 2972560, 3038608, 3104656, 3170704, 3236752, 3302800, 3368848, 3434896, 3500944, 4755859, 4821904,
  4887952, 5020051, 5284243, 5086096, 66450, 2444178, 132498, 330642, 594834, 660882, 792978, 726930, 991122, 859026,
  925074, 1057170, 1123218, 1189266, 1255314, 1321362, 1585554, 1387410, 1453458, 1651602, 1519506, 1717650, 2510226,
  2708370, 2972562, 3038610, 3104658, 3170706, 3236754, 3302802, 3368850, 3434898, 3500946, 5086098, 4821906,
  4887954, 411, 66456, 132504, 330648, 264603, 528795, 594840, 660888, 792984]

theorem eqB_FRBlock_6 : rowsB_FRBlock_6 = codeRows .B (some 751) codesB_FRBlock_6 := by rfl

/-- Codes of `rowsB_FRBlock_7`. -/
def codesB_FRBlock_7 : List ℕ := [
  726936, 991128, 859032, 925080, 1057176, 1123224, 1189272, 1255320, 1321368, 1585560, 1387416, 1453464, 1651608,
  1519512, 1717656, 2378139, 2444184, 2510232, 2642331, 2708376, 2906523, 2972568, 3038616, 3104664, 3170712,
  3236760, 3302808, 3368856, 3434904, 3500952, 4755867, 4821912, 4887960, 5020059, 5284251, 5086104, 66458, 2444186,
  132506, 330650, 594842, 660890, 792986, 726938, 991130, 859034, 925082, 1057178, 1123226, 1189274, 1255322,
  1321370, 1585562, 1387418, 1453466, 1651610, 1519514, 1717658, 2510234, 2708378, 2972570, 3038618, 3104666,
  3170714, 3236762, 3302810, 3368858, 3434906, 3500954, 5086106, 4821914, 4887962, 419, 66464, 132512, 330656,
  264611, 528803, 594848, 660896, 792992, 726944, 991136, 859040, 925088, 1057184, 1123232, 1189280, 1255328,
  1321376, 1585568, 1387424, 1453472, 1651616, 1519520, 1717664, 2378147, 2444192, 2510240, 2642339, 2708384,
  2906531, 2972576, 3038624, 3104672, 3170720, 3236768, 3302816, 3368864, 3434912, 3500960, 4755875, 4821920,
  4887968, 5020067, 5284259, 5086112, 66466, 2444194, 132514, 330658, 594850, 660898, 792994, 726946, 991138, 859042,
  925090, 1057186, 1123234, 1189282, 1255330, 1321378, 1585570, 1387426, 1453474, 1651618, 1519522, 1717666, 2510242,
  2708386, 2972578, 3038626, 3104674, 3170722, 3236770, 3302818, 3368866, 3434914, 3500962]

theorem eqB_FRBlock_7 : rowsB_FRBlock_7 = codeRows .B (some 901) codesB_FRBlock_7 := by rfl

/-- Codes of `rowsB_FRBlock_8`. -/
def codesB_FRBlock_8 : List ℕ := [
  5086114, 4821922, 4887970, 427, 66472, 132520, 330664, 264619, 528811, 594856, 660904, 793000, 726952, 991144,
  859048, 925096, 1057192, 1123240, 1189288, 1255336, 1321384, 1585576, 1387432, 1453480, 1651624, 1519528, 1717672,
  2378155, 2444200, 2510248, 2642347, 2708392, 2906539, 2972584, 3038632, 3104680, 3170728, 3236776, 3302824,
  3368872, 3434920, 3500968, 4755883, 4821928, 4887976, 5020075, 5284267, 5086120, 66474, 2444202, 132522, 330666,
  594858, 660906, 793002, 726954, 991146, 859050, 925098, 1057194, 1123242, 1189290, 1255338, 1321386, 1585578,
  1387434, 1453482, 1651626, 1519530, 1717674, 2510250, 2708394, 2972586, 3038634, 3104682, 3170730, 3236778,
  3302826, 3368874, 3434922, 3500970, 5086122, 4821930, 4887978, 371, 66416, 132464, 330608, 264563, 528755, 594800,
  660848, 792944, 726896, 991088, 858992, 925040, 1057136, 1123184, 1189232, 1255280, 1321328, 1585520, 1387376,
  1453424, 1651568, 1519472, 1717616, 2378099, 2444144, 2510192, 2642291, 2708336, 2906483, 2972528, 3038576,
  3104624, 3170672, 3236720, 3302768, 3368816, 3434864, 3500912, 4755827, 4821872, 4887920, 5020019, 5284211,
  5086064, 66418, 2444146, 132466, 330610, 594802, 660850, 792946, 726898, 991090, 858994, 925042, 1057138, 1123186,
  1189234, 1255282, 1321330, 1585522, 1387378, 1453426, 1651570, 1519474]

theorem eqB_FRBlock_8 : rowsB_FRBlock_8 = codeRows .B (some 1051) codesB_FRBlock_8 := by rfl

/-- Codes of `rowsB_FRBlock_9`. -/
def codesB_FRBlock_9 : List ℕ := [
  1717618, 2510194, 2708338, 2972530, 3038578, 3104626, 3170674, 3236722, 3302770, 3368818, 3434866, 3500914,
  5086066, 4821874, 4887922, 379, 66424, 132472, 330616, 264571, 528763, 594808, 660856, 792952, 726904, 991096,
  859000, 925048, 1057144, 1123192, 1189240, 1255288, 1321336, 1585528, 1387384, 1453432, 1651576, 1519480, 1717624,
  2378107, 2444152, 2510200, 2642299, 2708344, 2906491, 2972536, 3038584, 3104632, 3170680, 3236728, 3302776,
  3368824, 3434872, 3500920, 4755835, 4821880, 4887928, 5020027, 5284219, 5086072, 66426, 2444154, 132474, 330618,
  594810, 660858, 792954, 726906, 991098, 859002, 925050, 1057146, 1123194, 1189242, 1255290, 1321338, 1585530,
  1387386, 1453434, 1651578, 1519482, 1717626, 2510202, 2708346, 2972538, 3038586, 3104634, 3170682, 3236730,
  3302778, 3368826, 3434874, 3500922, 5086074, 4821882, 4887930, 387, 66432, 132480, 330624, 264579, 528771, 594816,
  660864, 792960, 726912, 991104, 859008, 925056, 1057152, 1123200, 1189248, 1255296, 1321344, 1585536, 1387392,
  1453440, 1651584, 1519488, 1717632, 2378115, 2444160, 2510208, 2642307, 2708352, 2906499, 2972544, 3038592,
  3104640, 3170688, 3236736, 3302784, 3368832, 3434880, 3500928, 4755843, 4821888, 4887936, 5020035, 5284227,
  5086080, 66434, 2444162, 132482, 330626, 594818, 660866, 792962, 726914, 991106]

theorem eqB_FRBlock_9 : rowsB_FRBlock_9 = codeRows .B (some 1201) codesB_FRBlock_9 := by rfl

/-- Codes of `rowsB_FRBlock_10`. -/
def codesB_FRBlock_10 : List ℕ := [
  859010, 925058, 1057154, 1123202, 1189250, 1255298, 1321346, 1585538, 1387394, 1453442, 1651586, 1519490, 1717634,
  2510210, 2708354, 2972546, 3038594, 3104642, 3170690, 3236738, 3302786, 3368834, 3434882, 3500930, 5086082,
  4821890, 4887938, 395, 66440, 132488, 330632, 264587, 528779, 594824, 660872, 792968, 726920, 991112, 859016,
  925064, 1057160, 1123208, 1189256, 1255304, 1321352, 1585544, 1387400, 1453448, 1651592, 1519496, 1717640, 2378123,
  2444168, 2510216, 2642315, 2708360, 2906507, 2972552, 3038600, 3104648, 3170696, 3236744, 3302792, 3368840,
  3434888, 3500936, 4755851, 4821896, 4887944, 5020043, 5284235, 5086088, 66442, 2444170, 132490, 330634, 594826,
  660874, 792970, 726922, 991114, 859018, 925066, 1057162, 1123210, 1189258, 1255306, 1321354, 1585546, 1387402,
  1453450, 1651594, 1519498, 1717642, 2510218, 2708362, 2972554, 3038602, 3104650, 3170698, 3236746, 3302794,
  3368842, 3434890, 3500938, 5086090, 4821898, 4887946]

theorem eqB_FRBlock_10 : rowsB_FRBlock_10 = codeRows .B (some 1351) codesB_FRBlock_10 := by rfl

/-- Codes of `rowsB_FRBlock10`. -/
def codesB_FRBlock10 : List ℕ := [
  146, 66194, 132242, 198290, 264338, 330386, 396434, 462482, 528530]

theorem eqB_FRBlock10 : rowsB_FRBlock10 = codeRows .B none codesB_FRBlock10 := by rfl

/-- Codes of `rowsB_FRBlock11`. -/
def codesB_FRBlock11 : List ℕ := [
  178, 66226, 132274, 198322, 264370, 330418, 396466, 462514, 528562]

theorem eqB_FRBlock11 : rowsB_FRBlock11 = codeRows .B none codesB_FRBlock11 := by rfl

/-- Codes of `rowsB_FRBlock15`. -/
def codesB_FRBlock15 : List ℕ := [
  128, 66176, 132224, 198272, 264320, 330368, 396416, 462464, 528512]

theorem eqB_FRBlock15 : rowsB_FRBlock15 = codeRows .B none codesB_FRBlock15 := by rfl

/-- Codes of `rowsB_FRBlock16`. -/
def codesB_FRBlock16 : List ℕ := [
  130, 66178, 132226, 198274, 264322, 330370, 396418, 462466, 528514]

theorem eqB_FRBlock16 : rowsB_FRBlock16 = codeRows .B none codesB_FRBlock16 := by rfl

/-- Codes of `rowsB_FRBlock18`. -/
def codesB_FRBlock18 : List ℕ := [
  136, 66184, 132232, 198280, 264328, 330376, 396424, 462472, 528520]

theorem eqB_FRBlock18 : rowsB_FRBlock18 = codeRows .B none codesB_FRBlock18 := by rfl

/-- Codes of `rowsB_FRBlock19`. -/
def codesB_FRBlock19 : List ℕ := [
  138, 66186, 132234, 198282, 264330, 330378, 396426, 462474, 528522]

theorem eqB_FRBlock19 : rowsB_FRBlock19 = codeRows .B none codesB_FRBlock19 := by rfl

/-- Codes of `rowsB_FRBlock21`. -/
def codesB_FRBlock21 : List ℕ := [
  152, 66200, 132248, 198296, 264344, 330392, 396440, 462488, 528536]

theorem eqB_FRBlock21 : rowsB_FRBlock21 = codeRows .B none codesB_FRBlock21 := by rfl

/-- Codes of `rowsB_FRBlock22`. -/
def codesB_FRBlock22 : List ℕ := [
  154, 66202, 132250, 198298, 264346, 330394, 396442, 462490, 528538]

theorem eqB_FRBlock22 : rowsB_FRBlock22 = codeRows .B none codesB_FRBlock22 := by rfl

/-- Codes of `rowsB_FRBlock24`. -/
def codesB_FRBlock24 : List ℕ := [
  160, 66208, 132256, 198304, 264352, 330400, 396448, 462496, 528544]

theorem eqB_FRBlock24 : rowsB_FRBlock24 = codeRows .B none codesB_FRBlock24 := by rfl

/-- Codes of `rowsB_FRBlock25`. -/
def codesB_FRBlock25 : List ℕ := [
  162, 66210, 132258, 198306, 264354, 330402, 396450, 462498, 528546]

theorem eqB_FRBlock25 : rowsB_FRBlock25 = codeRows .B none codesB_FRBlock25 := by rfl

/-- Codes of `rowsB_FRBlock27`. -/
def codesB_FRBlock27 : List ℕ := [
  168, 66216, 132264, 198312, 264360, 330408, 396456, 462504, 528552]

theorem eqB_FRBlock27 : rowsB_FRBlock27 = codeRows .B none codesB_FRBlock27 := by rfl

/-- Codes of `rowsB_FRBlock28`. -/
def codesB_FRBlock28 : List ℕ := [
  170, 66218, 132266, 198314, 264362, 330410, 396458, 462506, 528554]

theorem eqB_FRBlock28 : rowsB_FRBlock28 = codeRows .B none codesB_FRBlock28 := by rfl

/-- Codes of `rowsB_FRBlock30`. -/
def codesB_FRBlock30 : List ℕ := [
  184, 66232, 132280, 198328, 264376, 330424, 396472, 462520, 528568]

theorem eqB_FRBlock30 : rowsB_FRBlock30 = codeRows .B none codesB_FRBlock30 := by rfl

/-- Codes of `rowsB_FRBlock31`. -/
def codesB_FRBlock31 : List ℕ := [
  186, 66234, 132282, 198330, 264378, 330426, 396474, 462522, 528570]

theorem eqB_FRBlock31 : rowsB_FRBlock31 = codeRows .B none codesB_FRBlock31 := by rfl

/-- Codes of `rowsB_FRBlock33`. -/
def codesB_FRBlock33 : List ℕ := [
  192, 66240, 132288, 198336, 264384, 330432, 396480, 462528, 528576]

theorem eqB_FRBlock33 : rowsB_FRBlock33 = codeRows .B none codesB_FRBlock33 := by rfl

/-- Codes of `rowsB_FRBlock34`. -/
def codesB_FRBlock34 : List ℕ := [
  194, 66242, 132290, 198338, 264386, 330434, 396482, 462530, 528578]

theorem eqB_FRBlock34 : rowsB_FRBlock34 = codeRows .B none codesB_FRBlock34 := by rfl

/-- Codes of `rowsB_FRBlock36`. -/
def codesB_FRBlock36 : List ℕ := [
  200, 66248, 132296, 198344, 264392, 330440, 396488, 462536, 528584]

theorem eqB_FRBlock36 : rowsB_FRBlock36 = codeRows .B none codesB_FRBlock36 := by rfl

/-- Codes of `rowsB_FRBlock37`. -/
def codesB_FRBlock37 : List ℕ := [
  202, 66250, 132298, 198346, 264394, 330442, 396490, 462538, 528586]

theorem eqB_FRBlock37 : rowsB_FRBlock37 = codeRows .B none codesB_FRBlock37 := by rfl

/-- Codes of `rowsB_FRBlock45`. -/
def codesB_FRBlock45 : List ℕ := [
  264, 66312, 132360, 198408, 264456, 330504, 396552, 462600, 528648]

theorem eqB_FRBlock45 : rowsB_FRBlock45 = codeRows .B none codesB_FRBlock45 := by rfl

/-- Codes of `rowsB_FRBlock46`. -/
def codesB_FRBlock46 : List ℕ := [
  266, 66314, 132362, 198410, 264458, 330506, 396554, 462602, 528650]

theorem eqB_FRBlock46 : rowsB_FRBlock46 = codeRows .B none codesB_FRBlock46 := by rfl

/-- Codes of `rowsB_FRBlock6`. -/
def codesB_FRBlock6 : List ℕ := [
  120, 66168, 132216, 198264, 264312, 330360, 396408, 462456, 528504]

theorem eqB_FRBlock6 : rowsB_FRBlock6 = codeRows .B none codesB_FRBlock6 := by rfl

/-- Codes of `rowsB_FRBlock69`. -/
def codesB_FRBlock69 : List ℕ := [
  432, 66480, 132528, 198576, 264624, 330672, 396720, 462768, 528816, 594864, 660912, 726960, 793008, 859056, 925104,
  991152, 1057200, 1123248, 1189296, 1255344, 1321392, 1387440, 1453488, 1519536, 1585584, 1651632, 1717680, 1783728,
  1849776, 1915824, 1981872, 2047920, 2113968, 2180016, 2246064, 2312112, 2378160, 2444208, 2510256, 2576304,
  2642352, 2708400, 2774448, 2840496, 2906544, 2972592, 3038640, 3104688, 3170736, 3236784, 3302832, 3368880,
  3434928, 3500976, 3567024, 3633072, 3699120, 3765168, 3831216, 3897264, 3963312, 4029360, 4095408, 4161456,
  4227504, 4293552, 4359600, 4425648, 4491696, 4557744, 4623792, 4689840, 4755888, 4821936, 4887984, 4954032,
  5020080, 5086128, 5152176, 5218224, 5284272]

theorem eqB_FRBlock69 : rowsB_FRBlock69 = codeRows .B none codesB_FRBlock69 := by rfl

/-- Codes of `rowsB_FRBlock7`. -/
def codesB_FRBlock7 : List ℕ := [
  144, 66192, 132240, 198288, 264336, 330384, 396432, 462480, 528528]

theorem eqB_FRBlock7 : rowsB_FRBlock7 = codeRows .B none codesB_FRBlock7 := by rfl

/-- Codes of `rowsB_FRBlock70`. -/
def codesB_FRBlock70 : List ℕ := [
  434, 66482, 132530, 198578, 264626, 330674, 396722, 462770, 528818, 594866, 660914, 726962, 793010, 859058, 925106,
  991154, 1057202, 1123250, 1189298, 1255346, 1321394, 1387442, 1453490, 1519538, 1585586, 1651634, 1717682, 1783730,
  1849778, 1915826, 1981874, 2047922, 2113970, 2180018, 2246066, 2312114, 2378162, 2444210, 2510258, 2576306,
  2642354, 2708402, 2774450, 2840498, 2906546, 2972594, 3038642, 3104690, 3170738, 3236786, 3302834, 3368882,
  3434930, 3500978, 3567026, 3633074, 3699122, 3765170, 3831218, 3897266, 3963314, 4029362, 4095410, 4161458,
  4227506, 4293554, 4359602, 4425650, 4491698, 4557746, 4623794, 4689842, 4755890, 4821938, 4887986, 4954034,
  5020082, 5086130, 5152178, 5218226, 5284274]

theorem eqB_FRBlock70 : rowsB_FRBlock70 = codeRows .B none codesB_FRBlock70 := by rfl

/-- Codes of `rowsB_FRBlock72`. -/
def codesB_FRBlock72 : List ℕ := [
  440, 66488, 132536, 198584, 264632, 330680, 396728, 462776, 528824, 594872, 660920, 726968, 793016, 859064, 925112,
  991160, 1057208, 1123256, 1189304, 1255352, 1321400, 1387448, 1453496, 1519544, 1585592, 1651640, 1717688, 1783736,
  1849784, 1915832, 1981880, 2047928, 2113976, 2180024, 2246072, 2312120, 2378168, 2444216, 2510264, 2576312,
  2642360, 2708408, 2774456, 2840504, 2906552, 2972600, 3038648, 3104696, 3170744, 3236792, 3302840, 3368888,
  3434936, 3500984, 3567032, 3633080, 3699128, 3765176, 3831224, 3897272, 3963320, 4029368, 4095416, 4161464,
  4227512, 4293560, 4359608, 4425656, 4491704, 4557752, 4623800, 4689848, 4755896, 4821944, 4887992, 4954040,
  5020088, 5086136, 5152184, 5218232, 5284280]

theorem eqB_FRBlock72 : rowsB_FRBlock72 = codeRows .B none codesB_FRBlock72 := by rfl

/-- Codes of `rowsB_FRBlock73`. -/
def codesB_FRBlock73 : List ℕ := [
  442, 66490, 132538, 198586, 264634, 330682, 396730, 462778, 528826, 594874, 660922, 726970, 793018, 859066, 925114,
  991162, 1057210, 1123258, 1189306, 1255354, 1321402, 1387450, 1453498, 1519546, 1585594, 1651642, 1717690, 1783738,
  1849786, 1915834, 1981882, 2047930, 2113978, 2180026, 2246074, 2312122, 2378170, 2444218, 2510266, 2576314,
  2642362, 2708410, 2774458, 2840506, 2906554, 2972602, 3038650, 3104698, 3170746, 3236794, 3302842, 3368890,
  3434938, 3500986, 3567034, 3633082, 3699130, 3765178, 3831226, 3897274, 3963322, 4029370, 4095418, 4161466,
  4227514, 4293562, 4359610, 4425658, 4491706, 4557754, 4623802, 4689850, 4755898, 4821946, 4887994, 4954042,
  5020090, 5086138, 5152186, 5218234, 5284282]

theorem eqB_FRBlock73 : rowsB_FRBlock73 = codeRows .B none codesB_FRBlock73 := by rfl

/-- Codes of `rowsB_FRBlock75`. -/
def codesB_FRBlock75 : List ℕ := [
  448, 66496, 132544, 198592, 264640, 330688, 396736, 462784, 528832, 594880, 660928, 726976, 793024, 859072, 925120,
  991168, 1057216, 1123264, 1189312, 1255360, 1321408, 1387456, 1453504, 1519552, 1585600, 1651648, 1717696, 1783744,
  1849792, 1915840, 1981888, 2047936, 2113984, 2180032, 2246080, 2312128, 2378176, 2444224, 2510272, 2576320,
  2642368, 2708416, 2774464, 2840512, 2906560, 2972608, 3038656, 3104704, 3170752, 3236800, 3302848, 3368896,
  3434944, 3500992, 3567040, 3633088, 3699136, 3765184, 3831232, 3897280, 3963328, 4029376, 4095424, 4161472,
  4227520, 4293568, 4359616, 4425664, 4491712, 4557760, 4623808, 4689856, 4755904, 4821952, 4888000, 4954048,
  5020096, 5086144, 5152192, 5218240, 5284288]

theorem eqB_FRBlock75 : rowsB_FRBlock75 = codeRows .B none codesB_FRBlock75 := by rfl

/-- Codes of `rowsB_FRBlock76`. -/
def codesB_FRBlock76 : List ℕ := [
  450, 66498, 132546, 198594, 264642, 330690, 396738, 462786, 528834, 594882, 660930, 726978, 793026, 859074, 925122,
  991170, 1057218, 1123266, 1189314, 1255362, 1321410, 1387458, 1453506, 1519554, 1585602, 1651650, 1717698, 1783746,
  1849794, 1915842, 1981890, 2047938, 2113986, 2180034, 2246082, 2312130, 2378178, 2444226, 2510274, 2576322,
  2642370, 2708418, 2774466, 2840514, 2906562, 2972610, 3038658, 3104706, 3170754, 3236802, 3302850, 3368898,
  3434946, 3500994, 3567042, 3633090, 3699138, 3765186, 3831234, 3897282, 3963330, 4029378, 4095426, 4161474,
  4227522, 4293570, 4359618, 4425666, 4491714, 4557762, 4623810, 4689858, 4755906, 4821954, 4888002, 4954050,
  5020098, 5086146, 5152194, 5218242, 5284290]

theorem eqB_FRBlock76 : rowsB_FRBlock76 = codeRows .B none codesB_FRBlock76 := by rfl

/-- Codes of `rowsB_FRBlock78`. -/
def codesB_FRBlock78 : List ℕ := [
  456, 66504, 132552, 198600, 264648, 330696, 396744, 462792, 528840, 594888, 660936, 726984, 793032, 859080, 925128,
  991176, 1057224, 1123272, 1189320, 1255368, 1321416, 1387464, 1453512, 1519560, 1585608, 1651656, 1717704, 1783752,
  1849800, 1915848, 1981896, 2047944, 2113992, 2180040, 2246088, 2312136, 2378184, 2444232, 2510280, 2576328,
  2642376, 2708424, 2774472, 2840520, 2906568, 2972616, 3038664, 3104712, 3170760, 3236808, 3302856, 3368904,
  3434952, 3501000, 3567048, 3633096, 3699144, 3765192, 3831240, 3897288, 3963336, 4029384, 4095432, 4161480,
  4227528, 4293576, 4359624, 4425672, 4491720, 4557768, 4623816, 4689864, 4755912, 4821960, 4888008, 4954056,
  5020104, 5086152, 5152200, 5218248, 5284296]

theorem eqB_FRBlock78 : rowsB_FRBlock78 = codeRows .B none codesB_FRBlock78 := by rfl

/-- Codes of `rowsB_FRBlock79`. -/
def codesB_FRBlock79 : List ℕ := [
  458, 66506, 132554, 198602, 264650, 330698, 396746, 462794, 528842, 594890, 660938, 726986, 793034, 859082, 925130,
  991178, 1057226, 1123274, 1189322, 1255370, 1321418, 1387466, 1453514, 1519562, 1585610, 1651658, 1717706, 1783754,
  1849802, 1915850, 1981898, 2047946, 2113994, 2180042, 2246090, 2312138, 2378186, 2444234, 2510282, 2576330,
  2642378, 2708426, 2774474, 2840522, 2906570, 2972618, 3038666, 3104714, 3170762, 3236810, 3302858, 3368906,
  3434954, 3501002, 3567050, 3633098, 3699146, 3765194, 3831242, 3897290, 3963338, 4029386, 4095434, 4161482,
  4227530, 4293578, 4359626, 4425674, 4491722, 4557770, 4623818, 4689866, 4755914, 4821962, 4888010, 4954058,
  5020106, 5086154, 5152202, 5218250, 5284298]

theorem eqB_FRBlock79 : rowsB_FRBlock79 = codeRows .B none codesB_FRBlock79 := by rfl

/-- Codes of `rowsB_FRBlock8`. -/
def codesB_FRBlock8 : List ℕ := [
  176, 66224, 132272, 198320, 264368, 330416, 396464, 462512, 528560]

theorem eqB_FRBlock8 : rowsB_FRBlock8 = codeRows .B none codesB_FRBlock8 := by rfl

/-- Codes of `rowsB_FRBlock81`. -/
def codesB_FRBlock81 : List ℕ := [
  464, 66512, 132560, 198608, 264656, 330704, 396752, 462800, 528848, 594896, 660944, 726992, 793040, 859088, 925136,
  991184, 1057232, 1123280, 1189328, 1255376, 1321424, 1387472, 1453520, 1519568, 1585616, 1651664, 1717712, 1783760,
  1849808, 1915856, 1981904, 2047952, 2114000, 2180048, 2246096, 2312144, 2378192, 2444240, 2510288, 2576336,
  2642384, 2708432, 2774480, 2840528, 2906576, 2972624, 3038672, 3104720, 3170768, 3236816, 3302864, 3368912,
  3434960, 3501008, 3567056, 3633104, 3699152, 3765200, 3831248, 3897296, 3963344, 4029392, 4095440, 4161488,
  4227536, 4293584, 4359632, 4425680, 4491728, 4557776, 4623824, 4689872, 4755920, 4821968, 4888016, 4954064,
  5020112, 5086160, 5152208, 5218256, 5284304]

theorem eqB_FRBlock81 : rowsB_FRBlock81 = codeRows .B none codesB_FRBlock81 := by rfl

/-- Codes of `rowsB_FRBlock82`. -/
def codesB_FRBlock82 : List ℕ := [
  466, 66514, 132562, 198610, 264658, 330706, 396754, 462802, 528850, 594898, 660946, 726994, 793042, 859090, 925138,
  991186, 1057234, 1123282, 1189330, 1255378, 1321426, 1387474, 1453522, 1519570, 1585618, 1651666, 1717714, 1783762,
  1849810, 1915858, 1981906, 2047954, 2114002, 2180050, 2246098, 2312146, 2378194, 2444242, 2510290, 2576338,
  2642386, 2708434, 2774482, 2840530, 2906578, 2972626, 3038674, 3104722, 3170770, 3236818, 3302866, 3368914,
  3434962, 3501010, 3567058, 3633106, 3699154, 3765202, 3831250, 3897298, 3963346, 4029394, 4095442, 4161490,
  4227538, 4293586, 4359634, 4425682, 4491730, 4557778, 4623826, 4689874, 4755922, 4821970, 4888018, 4954066,
  5020114, 5086162, 5152210, 5218258, 5284306]

theorem eqB_FRBlock82 : rowsB_FRBlock82 = codeRows .B none codesB_FRBlock82 := by rfl

/-- Codes of `rowsB_FRBlock9`. -/
def codesB_FRBlock9 : List ℕ := [
  122, 66170, 132218, 198266, 264314, 330362, 396410, 462458, 528506]

theorem eqB_FRBlock9 : rowsB_FRBlock9 = codeRows .B none codesB_FRBlock9 := by rfl

/-- Codes of `rowsB_NEWCOUP`. -/
def codesB_NEWCOUP : List ℕ := [
  4, 43, 51, 35, 91, 75, 107, 59, 19, 3, 27, 11, 99, 83, 115, 67]

theorem eqB_NEWCOUP : rowsB_NEWCOUP = codeRows .B (some 0) codesB_NEWCOUP := by rfl

/-- The blocks of set B as codes. -/
def codeTableB : List (String × Option ℕ × List ℕ) := [
  ("FRBlock", some 1, codesB_FRBlock_1 ++ codesB_FRBlock_2 ++ codesB_FRBlock_3 ++ codesB_FRBlock_4 ++
    codesB_FRBlock_5 ++ codesB_FRBlock_6 ++ codesB_FRBlock_7 ++ codesB_FRBlock_8 ++ codesB_FRBlock_9 ++
    codesB_FRBlock_10),
  ("FRBlock10", none, codesB_FRBlock10),
  ("FRBlock11", none, codesB_FRBlock11),
  ("FRBlock15", none, codesB_FRBlock15),
  ("FRBlock16", none, codesB_FRBlock16),
  ("FRBlock18", none, codesB_FRBlock18),
  ("FRBlock19", none, codesB_FRBlock19),
  ("FRBlock21", none, codesB_FRBlock21),
  ("FRBlock22", none, codesB_FRBlock22),
  ("FRBlock24", none, codesB_FRBlock24),
  ("FRBlock25", none, codesB_FRBlock25),
  ("FRBlock27", none, codesB_FRBlock27),
  ("FRBlock28", none, codesB_FRBlock28),
  ("FRBlock30", none, codesB_FRBlock30),
  ("FRBlock31", none, codesB_FRBlock31),
  ("FRBlock33", none, codesB_FRBlock33),
  ("FRBlock34", none, codesB_FRBlock34),
  ("FRBlock36", none, codesB_FRBlock36),
  ("FRBlock37", none, codesB_FRBlock37),
  ("FRBlock45", none, codesB_FRBlock45),
  ("FRBlock46", none, codesB_FRBlock46),
  ("FRBlock6", none, codesB_FRBlock6),
  ("FRBlock69", none, codesB_FRBlock69),
  ("FRBlock7", none, codesB_FRBlock7),
  ("FRBlock70", none, codesB_FRBlock70),
  ("FRBlock72", none, codesB_FRBlock72),
  ("FRBlock73", none, codesB_FRBlock73),
  ("FRBlock75", none, codesB_FRBlock75),
  ("FRBlock76", none, codesB_FRBlock76),
  ("FRBlock78", none, codesB_FRBlock78),
  ("FRBlock79", none, codesB_FRBlock79),
  ("FRBlock8", none, codesB_FRBlock8),
  ("FRBlock81", none, codesB_FRBlock81),
  ("FRBlock82", none, codesB_FRBlock82),
  ("FRBlock9", none, codesB_FRBlock9),
  ("NEWCOUP", some 0, codesB_NEWCOUP)]

theorem lenB_1 : codesB_FRBlock_1.length = 150 := by rfl
theorem lenB_2 : codesB_FRBlock_2.length = 150 := by rfl
theorem lenB_3 : codesB_FRBlock_3.length = 150 := by rfl
theorem lenB_4 : codesB_FRBlock_4.length = 150 := by rfl
theorem lenB_5 : codesB_FRBlock_5.length = 150 := by rfl
theorem lenB_6 : codesB_FRBlock_6.length = 150 := by rfl
theorem lenB_7 : codesB_FRBlock_7.length = 150 := by rfl
theorem lenB_8 : codesB_FRBlock_8.length = 150 := by rfl
theorem lenB_9 : codesB_FRBlock_9.length = 150 := by rfl

theorem eqB_FRBlock : rowsB_FRBlock_1 ++ rowsB_FRBlock_2 ++ rowsB_FRBlock_3 ++ rowsB_FRBlock_4 ++ rowsB_FRBlock_5 ++
      rowsB_FRBlock_6 ++ rowsB_FRBlock_7 ++ rowsB_FRBlock_8 ++ rowsB_FRBlock_9 ++ rowsB_FRBlock_10 =
    codeRows .B (some 1) (codesB_FRBlock_1 ++ codesB_FRBlock_2 ++ codesB_FRBlock_3 ++ codesB_FRBlock_4 ++
      codesB_FRBlock_5 ++ codesB_FRBlock_6 ++ codesB_FRBlock_7 ++ codesB_FRBlock_8 ++ codesB_FRBlock_9 ++
      codesB_FRBlock_10) := by
  rw [codeRows_append, codeRows_append, codeRows_append, codeRows_append, codeRows_append, codeRows_append,
    codeRows_append, codeRows_append, codeRows_append]
  rw [eqB_FRBlock_1, eqB_FRBlock_2, eqB_FRBlock_3, eqB_FRBlock_4, eqB_FRBlock_5, eqB_FRBlock_6, eqB_FRBlock_7,
    eqB_FRBlock_8, eqB_FRBlock_9, eqB_FRBlock_10]
  simp only [List.length_append, lenB_1, lenB_2, lenB_3, lenB_4, lenB_5, lenB_6, lenB_7, lenB_8, lenB_9,
    Nat.reduceAdd]

theorem blocksB_eq : blocksB = codeTableB.map fun p => (p.1, codeRows .B p.2.1 p.2.2) := by
  unfold blocksB codeTableB
  simp only [List.map_cons, List.map_nil]
  rw [eqB_FRBlock, eqB_FRBlock10, eqB_FRBlock11, eqB_FRBlock15, eqB_FRBlock16, eqB_FRBlock18, eqB_FRBlock19,
    eqB_FRBlock21, eqB_FRBlock22, eqB_FRBlock24, eqB_FRBlock25, eqB_FRBlock27, eqB_FRBlock28, eqB_FRBlock30,
    eqB_FRBlock31, eqB_FRBlock33, eqB_FRBlock34, eqB_FRBlock36, eqB_FRBlock37, eqB_FRBlock45, eqB_FRBlock46,
    eqB_FRBlock6, eqB_FRBlock69, eqB_FRBlock7, eqB_FRBlock70, eqB_FRBlock72, eqB_FRBlock73, eqB_FRBlock75,
    eqB_FRBlock76, eqB_FRBlock78, eqB_FRBlock79, eqB_FRBlock8, eqB_FRBlock81, eqB_FRBlock82, eqB_FRBlock9,
    eqB_NEWCOUP]

end Verif
