import Verif.Model.SmeftsimRow

/-! The rows of the SMEFTsim parameter card for model set B, transcribed by a script from
wcxf/converters/smeftsim.py:2703-5311: address, expression, coefficient, comment. -/

set_option autoImplicit false

namespace Verif

/-- smeftsim.py:2706-2855, block `FRBlock` of set B. -/
noncomputable def rowsB_FRBlock_1 : List CRow := [
  .mk [1] .absOf "phil1_11" "# cHl1Abs11", .mk [2] .absOf "phil1_12" "# cHl1Abs12",
  .mk [3] .absOf "phil1_13" "# cHl1Abs13", .mk [4] .absOf "phil1_22" "# cHl1Abs22",
  .mk [5] .absOf "phil1_23" "# cHl1Abs23", .mk [6] .absOf "phil1_33" "# cHl1Abs33",
  .mk [7] .ph "phil1_12" "# cHl1Ph12", .mk [8] .ph "phil1_13" "# cHl1Ph13", .mk [9] .ph "phil1_23" "# cHl1Ph23",
  .mk [10] .absOf "phil3_11" "# cHL3Abs11", .mk [11] .absOf "phil3_12" "# cHL3Abs12",
  .mk [12] .absOf "phil3_13" "# cHL3Abs13", .mk [13] .absOf "phil3_22" "# cHL3Abs22",
  .mk [14] .absOf "phil3_23" "# cHL3Abs23", .mk [15] .absOf "phil3_33" "# cHL3Abs33",
  .mk [16] .ph "phil3_12" "# cHL3Ph12", .mk [17] .ph "phil3_13" "# cHL3Ph13", .mk [18] .ph "phil3_23" "# cHL3Ph23",
  .mk [19] .absOf "phiq1_11" "# cHq1Abs11", .mk [20] .absOf "phiq1_12" "# cHq1Abs12",
  .mk [21] .absOf "phiq1_13" "# cHq1Abs13", .mk [22] .absOf "phiq1_22" "# cHq1Abs22",
  .mk [23] .absOf "phiq1_23" "# cHq1Abs23", .mk [24] .absOf "phiq1_33" "# cHq1Abs33",
  .mk [25] .ph "phiq1_12" "# cHq1Ph12", .mk [26] .ph "phiq1_13" "# cHq1Ph13", .mk [27] .ph "phiq1_23" "# cHq1Ph23",
  .mk [28] .absOf "phiq3_11" "# cHQ3Abs11", .mk [29] .absOf "phiq3_12" "# cHQ3Abs12",
  .mk [30] .absOf "phiq3_13" "# cHQ3Abs13", .mk [31] .absOf "phiq3_22" "# cHQ3Abs22",
  .mk [32] .absOf "phiq3_23" "# cHQ3Abs23", .mk [33] .absOf "phiq3_33" "# cHQ3Abs33",
  .mk [34] .ph "phiq3_12" "# cHQ3Ph12", .mk [35] .ph "phiq3_13" "# cHQ3Ph13", .mk [36] .ph "phiq3_23" "# cHQ3Ph23",
  .mk [37] .absOf "phiu_11" "# cHuAbs11", .mk [38] .absOf "phiu_12" "# cHuAbs12",
  .mk [39] .absOf "phiu_13" "# cHuAbs13", .mk [40] .absOf "phiu_22" "# cHuAbs22",
  .mk [41] .absOf "phiu_23" "# cHuAbs23", .mk [42] .absOf "phiu_33" "# cHuAbs33", .mk [43] .ph "phiu_12" "# cHuPh12",
  .mk [44] .ph "phiu_13" "# cHuPh13", .mk [45] .ph "phiu_23" "# cHuPh23", .mk [46] .absOf "phid_11" "# cHdAbs11",
  .mk [47] .absOf "phid_12" "# cHdAbs12", .mk [48] .absOf "phid_13" "# cHdAbs13",
  .mk [49] .absOf "phid_22" "# cHdAbs22", .mk [50] .absOf "phid_23" "# cHdAbs23",
  .mk [51] .absOf "phid_33" "# cHdAbs33", .mk [52] .ph "phid_12" "# cHdPh12", .mk [53] .ph "phid_13" "# cHdPh13",
  .mk [54] .ph "phid_23" "# cHdPh23", .mk [55] .absOf "phie_11" "# cHeAbs11", .mk [56] .absOf "phie_12" "# cHeAbs12",
  .mk [57] .absOf "phie_13" "# cHeAbs13", .mk [58] .absOf "phie_22" "# cHeAbs22",
  .mk [59] .absOf "phie_23" "# cHeAbs23", .mk [60] .absOf "phie_33" "# cHeAbs33", .mk [61] .ph "phie_12" "# cHePh12",
  .mk [62] .ph "phie_13" "# cHePh13", .mk [63] .ph "phie_23" "# cHePh23", .mk [64] .val "ll_1111" "# cllAbs1111",
  .mk [65] .val "ll_1122" "# cllAbs1122", .mk [66] .val "ll_1221" "# cllAbs1221",
  .mk [67] .val "ll_1133" "# cllAbs1133", .mk [68] .val "ll_1331" "# cllAbs1331",
  .mk [69] .val "ll_2222" "# cllAbs2222", .mk [70] .val "ll_2233" "# cllAbs2233",
  .mk [71] .val "ll_2332" "# cllAbs2332", .mk [72] .val "ll_3333" "# cllAbs3333",
  .mk [73] .abs "ll_1112" "# cllAbs1112", .mk [74] .abs "ll_1113" "# cllAbs1113",
  .mk [75] .abs "ll_1123" "# cllAbs1123", .mk [76] .abs "ll_1212" "# cllAbs1212",
  .mk [77] .abs "ll_1213" "# cllAbs1213", .mk [78] .abs "ll_1231" "# cllAbs1231",
  .mk [79] .abs "ll_1222" "# cllAbs1222", .mk [80] .abs "ll_1223" "# cllAbs1223",
  .mk [81] .abs "ll_1232" "# cllAbs1232", .mk [82] .abs "ll_1233" "# cllAbs1233",
  .mk [83] .abs "ll_1313" "# cllAbs1313", .mk [84] .abs "ll_1322" "# cllAbs1322",
  .mk [85] .abs "ll_1332" "# cllAbs1332", .mk [86] .abs "ll_1323" "# cllAbs1323",
  .mk [87] .abs "ll_1333" "# cllAbs1333", .mk [88] .abs "ll_2223" "# cllAbs2223",
  .mk [89] .abs "ll_2323" "# cllAbs2323", .mk [90] .abs "ll_2333" "# cllAbs3323",
  .mk [91] .ph "ll_1112" "# cllPh1112", .mk [92] .ph "ll_1113" "# cllPh1113", .mk [93] .ph "ll_1123" "# cllPh1123",
  .mk [94] .ph "ll_1212" "# cllPh1212", .mk [95] .ph "ll_1213" "# cllPh1213", .mk [96] .ph "ll_1231" "# cllPh1231",
  .mk [97] .ph "ll_1222" "# cllPh1222", .mk [98] .ph "ll_1223" "# cllPh1223", .mk [99] .ph "ll_1232" "# cllPh1232",
  .mk [100] .ph "ll_1233" "# cllPh1233", .mk [101] .ph "ll_1313" "# cllPh1313",
  .mk [102] .ph "ll_1322" "# cllPh1322", .mk [103] .ph "ll_1332" "# cllPh1332",
  .mk [104] .ph "ll_1323" "# cllPh1323", .mk [105] .ph "ll_1333" "# cllPh1333",
  .mk [106] .ph "ll_2223" "# cllPh2223", .mk [107] .ph "ll_2323" "# cllPh2323",
  .mk [108] .ph "ll_2333" "# cllPh3323", .mk [109] .val "qq1_1111" "# cqq1Abs1111",
  .mk [110] .val "qq1_1122" "# cqq1Abs1122", .mk [111] .val "qq1_1221" "# cqq1Abs1221",
  .mk [112] .val "qq1_1133" "# cqq1Abs1133", .mk [113] .val "qq1_1331" "# cqq1Abs1331",
  .mk [114] .val "qq1_2222" "# cqq1Abs2222", .mk [115] .val "qq1_2233" "# cqq1Abs2233",
  .mk [116] .val "qq1_2332" "# cqq1Abs2332", .mk [117] .val "qq1_3333" "# cqq1Abs3333",
  .mk [118] .abs "qq1_1112" "# cqq1Abs1112", .mk [119] .abs "qq1_1113" "# cqq1Abs1113",
  .mk [120] .abs "qq1_1123" "# cqq1Abs1123", .mk [121] .abs "qq1_1212" "# cqq1Abs1212",
  .mk [122] .abs "qq1_1213" "# cqq1Abs1213", .mk [123] .abs "qq1_1231" "# cqq1Abs1231",
  .mk [124] .abs "qq1_1222" "# cqq1Abs1222", .mk [125] .abs "qq1_1223" "# cqq1Abs1223",
  .mk [126] .abs "qq1_1232" "# cqq1Abs1232", .mk [127] .abs "qq1_1233" "# cqq1Abs1233",
  .mk [128] .abs "qq1_1313" "# cqq1Abs1313", .mk [129] .abs "qq1_1322" "# cqq1Abs1322",
  .mk [130] .abs "qq1_1332" "# cqq1Abs1332", .mk [131] .abs "qq1_1323" "# cqq1Abs1323",
  .mk [132] .abs "qq1_1333" "# cqq1Abs1333", .mk [133] .abs "qq1_2223" "# cqq1Abs2223",
  .mk [134] .abs "qq1_2323" "# cqq1Abs2323", .mk [135] .abs "qq1_2333" "# cqq1Abs3323",
  .mk [136] .ph "qq1_1112" "# cqq1Ph1112", .mk [137] .ph "qq1_1113" "# cqq1Ph1113",
  .mk [138] .ph "qq1_1123" "# cqq1Ph1123", .mk [139] .ph "qq1_1212" "# cqq1Ph1212",
  .mk [140] .ph "qq1_1213" "# cqq1Ph1213", .mk [141] .ph "qq1_1231" "# cqq1Ph1231",
  .mk [142] .ph "qq1_1222" "# cqq1Ph1222", .mk [143] .ph "qq1_1223" "# cqq1Ph1223",
  .mk [144] .ph "qq1_1232" "# cqq1Ph1232", .mk [145] .ph "qq1_1233" "# cqq1Ph1233",
  .mk [146] .ph "qq1_1313" "# cqq1Ph1313", .mk [147] .ph "qq1_1322" "# cqq1Ph1322",
  .mk [148] .ph "qq1_1332" "# cqq1Ph1332", .mk [149] .ph "qq1_1323" "# cqq1Ph1323",
  .mk [150] .ph "qq1_1333" "# cqq1Ph1333"]

/-- smeftsim.py:2856-3005, block `FRBlock` of set B. -/
noncomputable def rowsB_FRBlock_2 : List CRow := [
  .mk [151] .ph "qq1_2223" "# cqq1Ph2223", .mk [152] .ph "qq1_2323" "# cqq1Ph2323",
  .mk [153] .ph "qq1_2333" "# cqq1Ph3323", .mk [154] .val "qq3_1111" "# cQQ3Abs1111",
  .mk [155] .val "qq3_1122" "# cQQ3Abs1122", .mk [156] .val "qq3_1221" "# cQQ3Abs1221",
  .mk [157] .val "qq3_1133" "# cQQ3Abs1133", .mk [158] .val "qq3_1331" "# cQQ3Abs1331",
  .mk [159] .val "qq3_2222" "# cQQ3Abs2222", .mk [160] .val "qq3_2233" "# cQQ3Abs2233",
  .mk [161] .val "qq3_2332" "# cQQ3Abs2332", .mk [162] .val "qq3_3333" "# cQQ3Abs3333",
  .mk [163] .abs "qq3_1112" "# cQQ3Abs1112", .mk [164] .abs "qq3_1113" "# cQQ3Abs1113",
  .mk [165] .abs "qq3_1123" "# cQQ3Abs1123", .mk [166] .abs "qq3_1212" "# cQQ3Abs1212",
  .mk [167] .abs "qq3_1213" "# cQQ3Abs1213", .mk [168] .abs "qq3_1231" "# cQQ3Abs1231",
  .mk [169] .abs "qq3_1222" "# cQQ3Abs1222", .mk [170] .abs "qq3_1223" "# cQQ3Abs1223",
  .mk [171] .abs "qq3_1232" "# cQQ3Abs1232", .mk [172] .abs "qq3_1233" "# cQQ3Abs1233",
  .mk [173] .abs "qq3_1313" "# cQQ3Abs1313", .mk [174] .abs "qq3_1322" "# cQQ3Abs1322",
  .mk [175] .abs "qq3_1332" "# cQQ3Abs1332", .mk [176] .abs "qq3_1323" "# cQQ3Abs1323",
  .mk [177] .abs "qq3_1333" "# cQQ3Abs1333", .mk [178] .abs "qq3_2223" "# cQQ3Abs2223",
  .mk [179] .abs "qq3_2323" "# cQQ3Abs2323", .mk [180] .abs "qq3_2333" "# cQQ3Abs3323",
  .mk [181] .ph "qq3_1112" "# cQQ3Ph1112", .mk [182] .ph "qq3_1113" "# cQQ3Ph1113",
  .mk [183] .ph "qq3_1123" "# cQQ3Ph1123", .mk [184] .ph "qq3_1212" "# cQQ3Ph1212",
  .mk [185] .ph "qq3_1213" "# cQQ3Ph1213", .mk [186] .ph "qq3_1231" "# cQQ3Ph1231",
  .mk [187] .ph "qq3_1222" "# cQQ3Ph1222", .mk [188] .ph "qq3_1223" "# cQQ3Ph1223",
  .mk [189] .ph "qq3_1232" "# cQQ3Ph1232", .mk [190] .ph "qq3_1233" "# cQQ3Ph1233",
  .mk [191] .ph "qq3_1313" "# cQQ3Ph1313", .mk [192] .ph "qq3_1322" "# cQQ3Ph1322",
  .mk [193] .ph "qq3_1332" "# cQQ3Ph1332", .mk [194] .ph "qq3_1323" "# cQQ3Ph1323",
  .mk [195] .ph "qq3_1333" "# cQQ3Ph1333", .mk [196] .ph "qq3_2223" "# cQQ3Ph2223",
  .mk [197] .ph "qq3_2323" "# cQQ3Ph2323", .mk [198] .ph "qq3_2333" "# cQQ3Ph3323",
  .mk [199] .val "lq1_1111" "# clq1Abs1111", .mk [200] .abs "lq1_1112" "# clq1Abs1112",
  .mk [201] .abs "lq1_1113" "# clq1Abs1113", .mk [202] .abs "lq1_1123" "# clq1Abs1123",
  .mk [203] .val "lq1_1122" "# clq1Abs1122", .mk [204] .val "lq1_1133" "# clq1Abs1133",
  .mk [205] .abs "lq1_1211" "# clq1Abs1211", .mk [206] .abs "lq1_1212" "# clq1Abs1212",
  .mk [207] .abs "lq1_1221" "# clq1Abs1221", .mk [208] .abs "lq1_1213" "# clq1Abs1213",
  .mk [209] .abs "lq1_1231" "# clq1Abs1231", .mk [210] .abs "lq1_1222" "# clq1Abs1222",
  .mk [211] .abs "lq1_1223" "# clq1Abs1223", .mk [212] .abs "lq1_1232" "# clq1Abs1232",
  .mk [213] .abs "lq1_1233" "# clq1Abs1233", .mk [214] .abs "lq1_1311" "# clq1Abs1311",
  .mk [215] .abs "lq1_1312" "# clq1Abs1312", .mk [216] .abs "lq1_1313" "# clq1Abs1313",
  .mk [217] .abs "lq1_1331" "# clq1Abs1331", .mk [218] .abs "lq1_1321" "# clq1Abs1321",
  .mk [219] .abs "lq1_1322" "# clq1Abs1322", .mk [220] .abs "lq1_1332" "# clq1Abs1332",
  .mk [221] .abs "lq1_1323" "# clq1Abs1323", .mk [222] .abs "lq1_1333" "# clq1Abs1333",
  .mk [223] .val "lq1_2211" "# clq1Abs2211", .mk [224] .abs "lq1_2212" "# clq1Abs2212",
  .mk [225] .abs "lq1_2213" "# clq1Abs2213", .mk [226] .val "lq1_2222" "# clq1Abs2222",
  .mk [227] .abs "lq1_2223" "# clq1Abs2223", .mk [228] .val "lq1_2233" "# clq1Abs2233",
  .mk [229] .abs "lq1_2311" "# clq1Abs2311", .mk [230] .abs "lq1_2312" "# clq1Abs2312",
  .mk [231] .abs "lq1_2313" "# clq1Abs2313", .mk [232] .abs "lq1_2321" "# clq1Abs2321",
  .mk [233] .abs "lq1_2322" "# clq1Abs2322", .mk [234] .abs "lq1_2323" "# clq1Abs2323",
  .mk [235] .abs "lq1_2331" "# clq1Abs2331", .mk [236] .abs "lq1_2332" "# clq1Abs2332",
  .mk [237] .abs "lq1_2333" "# clq1Abs2333", .mk [238] .val "lq1_3311" "# clq1Abs3311",
  .mk [239] .abs "lq1_3312" "# clq1Abs3312", .mk [240] .abs "lq1_3313" "# clq1Abs3313",
  .mk [241] .val "lq1_3322" "# clq1Abs3322", .mk [242] .val "lq1_3333" "# clq1Abs3333",
  .mk [243] .abs "lq1_3323" "# clq1Abs3323", .mk [244] .ph "lq1_1112" "# clq1Ph1112",
  .mk [245] .ph "lq1_2212" "# clq1Ph2212", .mk [246] .ph "lq1_1113" "# clq1Ph1113",
  .mk [247] .ph "lq1_1123" "# clq1Ph1123", .mk [248] .ph "lq1_1211" "# clq1Ph1211",
  .mk [249] .ph "lq1_1212" "# clq1Ph1212", .mk [250] .ph "lq1_1221" "# clq1Ph1221",
  .mk [251] .ph "lq1_1213" "# clq1Ph1213", .mk [252] .ph "lq1_1231" "# clq1Ph1231",
  .mk [253] .ph "lq1_1222" "# clq1Ph1222", .mk [254] .ph "lq1_1223" "# clq1Ph1223",
  .mk [255] .ph "lq1_1232" "# clq1Ph1232", .mk [256] .ph "lq1_1233" "# clq1Ph1233",
  .mk [257] .ph "lq1_1311" "# clq1Ph1311", .mk [258] .ph "lq1_1312" "# clq1Ph1312",
  .mk [259] .ph "lq1_1313" "# clq1Ph1313", .mk [260] .ph "lq1_1331" "# clq1Ph1331",
  .mk [261] .ph "lq1_1321" "# clq1Ph1321", .mk [262] .ph "lq1_1322" "# clq1Ph1322",
  .mk [263] .ph "lq1_1332" "# clq1Ph1332", .mk [264] .ph "lq1_1323" "# clq1Ph1323",
  .mk [265] .ph "lq1_1333" "# clq1Ph1333", .mk [266] .ph "lq1_2213" "# clq1Ph2213",
  .mk [267] .ph "lq1_2223" "# clq1Ph2223", .mk [268] .ph "lq1_2311" "# clq1Ph2311",
  .mk [269] .ph "lq1_2312" "# clq1Ph2312", .mk [270] .ph "lq1_2313" "# clq1Ph2313",
  .mk [271] .ph "lq1_2321" "# clq1Ph2321", .mk [272] .ph "lq1_2322" "# clq1Ph2322",
  .mk [273] .ph "lq1_2323" "# clq1Ph2323", .mk [274] .ph "lq1_2331" "# clq1Ph2331",
  .mk [275] .ph "lq1_2332" "# clq1Ph2332", .mk [276] .ph "lq1_2333" "# clq1Ph2333",
  .mk [277] .ph "lq1_3323" "# clq1Ph3323", .mk [278] .ph "lq1_3312" "# clq1Ph3312",
  .mk [279] .ph "lq1_3313" "# clq1Ph3313", .mk [280] .val "lq3_1111" "# cLQ3Abs1111",
  .mk [281] .abs "lq3_1112" "# cLQ3Abs1112", .mk [282] .abs "lq3_1113" "# cLQ3Abs1113",
  .mk [283] .abs "lq3_1123" "# cLQ3Abs1123", .mk [284] .val "lq3_1122" "# cLQ3Abs1122",
  .mk [285] .val "lq3_1133" "# cLQ3Abs1133", .mk [286] .abs "lq3_1211" "# cLQ3Abs1211",
  .mk [287] .abs "lq3_1212" "# cLQ3Abs1212", .mk [288] .abs "lq3_1221" "# cLQ3Abs1221",
  .mk [289] .abs "lq3_1213" "# cLQ3Abs1213", .mk [290] .abs "lq3_1231" "# cLQ3Abs1231",
  .mk [291] .abs "lq3_1222" "# cLQ3Abs1222", .mk [292] .abs "lq3_1223" "# cLQ3Abs1223",
  .mk [293] .abs "lq3_1232" "# cLQ3Abs1232", .mk [294] .abs "lq3_1233" "# cLQ3Abs1233",
  .mk [295] .abs "lq3_1311" "# cLQ3Abs1311", .mk [296] .abs "lq3_1312" "# cLQ3Abs1312",
  .mk [297] .abs "lq3_1313" "# cLQ3Abs1313", .mk [298] .abs "lq3_1331" "# cLQ3Abs1331",
  .mk [299] .abs "lq3_1321" "# cLQ3Abs1321", .mk [300] .abs "lq3_1322" "# cLQ3Abs1322"]

/-- smeftsim.py:3006-3155, block `FRBlock` of set B. -/
noncomputable def rowsB_FRBlock_3 : List CRow := [
  .mk [301] .abs "lq3_1332" "# cLQ3Abs1332", .mk [302] .abs "lq3_1323" "# cLQ3Abs1323",
  .mk [303] .abs "lq3_1333" "# cLQ3Abs1333", .mk [304] .val "lq3_2211" "# cLQ3Abs2211",
  .mk [305] .abs "lq3_2212" "# cLQ3Abs2212", .mk [306] .abs "lq3_2213" "# cLQ3Abs2213",
  .mk [307] .val "lq3_2222" "# cLQ3Abs2222", .mk [308] .abs "lq3_2223" "# cLQ3Abs2223",
  .mk [309] .val "lq3_2233" "# cLQ3Abs2233", .mk [310] .abs "lq3_2311" "# cLQ3Abs2311",
  .mk [311] .abs "lq3_2312" "# cLQ3Abs2312", .mk [312] .abs "lq3_2313" "# cLQ3Abs2313",
  .mk [313] .abs "lq3_2321" "# cLQ3Abs2321", .mk [314] .abs "lq3_2322" "# cLQ3Abs2322",
  .mk [315] .abs "lq3_2323" "# cLQ3Abs2323", .mk [316] .abs "lq3_2331" "# cLQ3Abs2331",
  .mk [317] .abs "lq3_2332" "# cLQ3Abs2332", .mk [318] .abs "lq3_2333" "# cLQ3Abs2333",
  .mk [319] .val "lq3_3311" "# cLQ3Abs3311", .mk [320] .abs "lq3_3312" "# cLQ3Abs3312",
  .mk [321] .abs "lq3_3313" "# cLQ3Abs3313", .mk [322] .val "lq3_3322" "# cLQ3Abs3322",
  .mk [323] .val "lq3_3333" "# cLQ3Abs3333", .mk [324] .abs "lq3_3323" "# cLQ3Abs3323",
  .mk [325] .ph "lq3_1112" "# cLQ3Ph1112", .mk [326] .ph "lq3_2212" "# cLQ3Ph2212",
  .mk [327] .ph "lq3_1113" "# cLQ3Ph1113", .mk [328] .ph "lq3_1123" "# cLQ3Ph1123",
  .mk [329] .ph "lq3_1211" "# cLQ3Ph1211", .mk [330] .ph "lq3_1212" "# cLQ3Ph1212",
  .mk [331] .ph "lq3_1221" "# cLQ3Ph1221", .mk [332] .ph "lq3_1213" "# cLQ3Ph1213",
  .mk [333] .ph "lq3_1231" "# cLQ3Ph1231", .mk [334] .ph "lq3_1222" "# cLQ3Ph1222",
  .mk [335] .ph "lq3_1223" "# cLQ3Ph1223", .mk [336] .ph "lq3_1232" "# cLQ3Ph1232",
  .mk [337] .ph "lq3_1233" "# cLQ3Ph1233", .mk [338] .ph "lq3_1311" "# cLQ3Ph1311",
  .mk [339] .ph "lq3_1312" "# cLQ3Ph1312", .mk [340] .ph "lq3_1313" "# cLQ3Ph1313",
  .mk [341] .ph "lq3_1331" "# cLQ3Ph1331", .mk [342] .ph "lq3_1321" "# cLQ3Ph1321",
  .mk [343] .ph "lq3_1322" "# cLQ3Ph1322", .mk [344] .ph "lq3_1332" "# cLQ3Ph1332",
  .mk [345] .ph "lq3_1323" "# cLQ3Ph1323", .mk [346] .ph "lq3_1333" "# cLQ3Ph1333",
  .mk [347] .ph "lq3_2213" "# cLQ3Ph2213", .mk [348] .ph "lq3_2223" "# cLQ3Ph2223",
  .mk [349] .ph "lq3_2311" "# cLQ3Ph2311", .mk [350] .ph "lq3_2312" "# cLQ3Ph2312",
  .mk [351] .ph "lq3_2313" "# cLQ3Ph2313", .mk [352] .ph "lq3_2321" "# cLQ3Ph2321",
  .mk [353] .ph "lq3_2322" "# cLQ3Ph2322", .mk [354] .ph "lq3_2323" "# cLQ3Ph2323",
  .mk [355] .ph "lq3_2331" "# cLQ3Ph2331", .mk [356] .ph "lq3_2332" "# cLQ3Ph2332",
  .mk [357] .ph "lq3_2333" "# cLQ3Ph2333", .mk [358] .ph "lq3_3323" "# cLQ3Ph3323",
  .mk [359] .ph "lq3_3312" "# cLQ3Ph3312", .mk [360] .ph "lq3_3313" "# cLQ3Ph3313",
  .mk [361] .val "uu_1111" "# cuuAbs1111", .mk [362] .val "uu_1122" "# cuuAbs1122",
  .mk [363] .val "uu_1221" "# cuuAbs1221", .mk [364] .val "uu_1133" "# cuuAbs1133",
  .mk [365] .val "uu_1331" "# cuuAbs1331", .mk [366] .val "uu_2222" "# cuuAbs2222",
  .mk [367] .val "uu_2233" "# cuuAbs2233", .mk [368] .val "uu_2332" "# cuuAbs2332",
  .mk [369] .val "uu_3333" "# cuuAbs3333", .mk [370] .abs "uu_1112" "# cuuAbs1112",
  .mk [371] .abs "uu_1113" "# cuuAbs1113", .mk [372] .abs "uu_1123" "# cuuAbs1123",
  .mk [373] .abs "uu_1212" "# cuuAbs1212", .mk [374] .abs "uu_1213" "# cuuAbs1213",
  .mk [375] .abs "uu_1231" "# cuuAbs1231", .mk [376] .abs "uu_1222" "# cuuAbs1222",
  .mk [377] .abs "uu_1223" "# cuuAbs1223", .mk [378] .abs "uu_1232" "# cuuAbs1232",
  .mk [379] .abs "uu_1233" "# cuuAbs1233", .mk [380] .abs "uu_1313" "# cuuAbs1313",
  .mk [381] .abs "uu_1322" "# cuuAbs1322", .mk [382] .abs "uu_1332" "# cuuAbs1332",
  .mk [383] .abs "uu_1323" "# cuuAbs1323", .mk [384] .abs "uu_1333" "# cuuAbs1333",
  .mk [385] .abs "uu_2223" "# cuuAbs2223", .mk [386] .abs "uu_2323" "# cuuAbs2323",
  .mk [387] .abs "uu_2333" "# cuuAbs3323", .mk [388] .ph "uu_1112" "# cuuPh1112",
  .mk [389] .ph "uu_1113" "# cuuPh1113", .mk [390] .ph "uu_1123" "# cuuPh1123",
  .mk [391] .ph "uu_1212" "# cuuPh1212", .mk [392] .ph "uu_1213" "# cuuPh1213",
  .mk [393] .ph "uu_1231" "# cuuPh1231", .mk [394] .ph "uu_1222" "# cuuPh1222",
  .mk [395] .ph "uu_1223" "# cuuPh1223", .mk [396] .ph "uu_1232" "# cuuPh1232",
  .mk [397] .ph "uu_1233" "# cuuPh1233", .mk [398] .ph "uu_1313" "# cuuPh1313",
  .mk [399] .ph "uu_1322" "# cuuPh1322", .mk [400] .ph "uu_1332" "# cuuPh1332",
  .mk [401] .ph "uu_1323" "# cuuPh1323", .mk [402] .ph "uu_1333" "# cuuPh1333",
  .mk [403] .ph "uu_2223" "# cuuPh2223", .mk [404] .ph "uu_2323" "# cuuPh2323",
  .mk [405] .ph "uu_2333" "# cuuPh3323", .mk [406] .val "dd_1111" "# cddAbs1111",
  .mk [407] .val "dd_1122" "# cddAbs1122", .mk [408] .val "dd_1221" "# cddAbs1221",
  .mk [409] .val "dd_1133" "# cddAbs1133", .mk [410] .val "dd_1331" "# cddAbs1331",
  .mk [411] .val "dd_2222" "# cddAbs2222", .mk [412] .val "dd_2233" "# cddAbs2233",
  .mk [413] .val "dd_2332" "# cddAbs2332", .mk [414] .val "dd_3333" "# cddAbs3333",
  .mk [415] .abs "dd_1112" "# cddAbs1112", .mk [416] .abs "dd_1113" "# cddAbs1113",
  .mk [417] .abs "dd_1123" "# cddAbs1123", .mk [418] .abs "dd_1212" "# cddAbs1212",
  .mk [419] .abs "dd_1213" "# cddAbs1213", .mk [420] .abs "dd_1231" "# cddAbs1231",
  .mk [421] .abs "dd_1222" "# cddAbs1222", .mk [422] .abs "dd_1223" "# cddAbs1223",
  .mk [423] .abs "dd_1232" "# cddAbs1232", .mk [424] .abs "dd_1233" "# cddAbs1233",
  .mk [425] .abs "dd_1313" "# cddAbs1313", .mk [426] .abs "dd_1322" "# cddAbs1322",
  .mk [427] .abs "dd_1332" "# cddAbs1332", .mk [428] .abs "dd_1323" "# cddAbs1323",
  .mk [429] .abs "dd_1333" "# cddAbs1333", .mk [430] .abs "dd_2223" "# cddAbs2223",
  .mk [431] .abs "dd_2323" "# cddAbs2323", .mk [432] .abs "dd_2333" "# cddAbs3323",
  .mk [433] .ph "dd_1112" "# cddPh1112", .mk [434] .ph "dd_1113" "# cddPh1113",
  .mk [435] .ph "dd_1123" "# cddPh1123", .mk [436] .ph "dd_1212" "# cddPh1212",
  .mk [437] .ph "dd_1213" "# cddPh1213", .mk [438] .ph "dd_1231" "# cddPh1231",
  .mk [439] .ph "dd_1222" "# cddPh1222", .mk [440] .ph "dd_1223" "# cddPh1223",
  .mk [441] .ph "dd_1232" "# cddPh1232", .mk [442] .ph "dd_1233" "# cddPh1233",
  .mk [443] .ph "dd_1313" "# cddPh1313", .mk [444] .ph "dd_1322" "# cddPh1322",
  .mk [445] .ph "dd_1332" "# cddPh1332", .mk [446] .ph "dd_1323" "# cddPh1323",
  .mk [447] .ph "dd_1333" "# cddPh1333", .mk [448] .ph "dd_2223" "# cddPh2223",
  .mk [449] .ph "dd_2323" "# cddPh2323", .mk [450] .ph "dd_2333" "# cddPh3323"]

/-- smeftsim.py:3156-3305, block `FRBlock` of set B. -/
noncomputable def rowsB_FRBlock_4 : List CRow := [
  .mk [451] .val "ee_1111" "# ceeAbs1111", .mk [452] .val "ee_2222" "# ceeAbs2222",
  .mk [453] .val "ee_3333" "# ceeAbs3333", .mk [454] .val "ee_1122" "# ceeAbs1122",
  .mk [455] .val "ee_1133" "# ceeAbs1133", .mk [456] .val "ee_2233" "# ceeAbs2233",
  .mk [457] .abs "ee_1212" "# ceeAbs1212", .mk [458] .abs "ee_1213" "# ceeAbs1213",
  .mk [459] .abs "ee_1232" "# ceeAbs1232", .mk [460] .abs "ee_1313" "# ceeAbs1313",
  .mk [461] .abs "ee_1323" "# ceeAbs1323", .mk [462] .abs "ee_2323" "# ceeAbs2323",
  .mk [463] .abs "ee_1112" "# ceeAbs1112", .mk [464] .abs "ee_1222" "# ceeAbs1222",
  .mk [465] .abs "ee_1233" "# ceeAbs1233", .mk [466] .abs "ee_1113" "# ceeAbs1113",
  .mk [467] .abs "ee_1223" "# ceeAbs1322", .mk [468] .abs "ee_1333" "# ceeAbs1333",
  .mk [469] .abs "ee_1123" "# ceeAbs1123", .mk [470] .abs "ee_2223" "# ceeAbs2223",
  .mk [471] .abs "ee_2333" "# ceeAbs3323", .mk [472] .ph "ee_1112" "# ceePh1112",
  .mk [473] .ph "ee_1113" "# ceePh1113", .mk [474] .ph "ee_1123" "# ceePh1123",
  .mk [475] .ph "ee_1212" "# ceePh1212", .mk [476] .ph "ee_1213" "# ceePh1213",
  .mk [477] .ph "ee_1323" "# ceePh1323", .mk [478] .ph "ee_1222" "# ceePh1222",
  .mk [479] .ph "ee_2333" "# ceePh3323", .mk [480] .ph "ee_1232" "# ceePh1232",
  .mk [481] .ph "ee_1233" "# ceePh1233", .mk [482] .ph "ee_1313" "# ceePh1313",
  .mk [483] .ph "ee_1223" "# ceePh1322", .mk [484] .ph "ee_1333" "# ceePh1333",
  .mk [485] .ph "ee_2223" "# ceePh2223", .mk [486] .ph "ee_2323" "# ceePh2323",
  .mk [487] .val "ud1_1111" "# cud1Abs1111", .mk [488] .abs "ud1_1112" "# cud1Abs1112",
  .mk [489] .abs "ud1_1113" "# cud1Abs1113", .mk [490] .abs "ud1_1123" "# cud1Abs1123",
  .mk [491] .val "ud1_1122" "# cud1Abs1122", .mk [492] .val "ud1_1133" "# cud1Abs1133",
  .mk [493] .abs "ud1_1211" "# cud1Abs1211", .mk [494] .abs "ud1_1212" "# cud1Abs1212",
  .mk [495] .abs "ud1_1221" "# cud1Abs1221", .mk [496] .abs "ud1_1213" "# cud1Abs1213",
  .mk [497] .abs "ud1_1231" "# cud1Abs1231", .mk [498] .abs "ud1_1222" "# cud1Abs1222",
  .mk [499] .abs "ud1_1223" "# cud1Abs1223", .mk [500] .abs "ud1_1232" "# cud1Abs1232",
  .mk [501] .abs "ud1_1233" "# cud1Abs1233", .mk [502] .abs "ud1_1311" "# cud1Abs1311",
  .mk [503] .abs "ud1_1312" "# cud1Abs1312", .mk [504] .abs "ud1_1313" "# cud1Abs1313",
  .mk [505] .abs "ud1_1331" "# cud1Abs1331", .mk [506] .abs "ud1_1321" "# cud1Abs1321",
  .mk [507] .abs "ud1_1322" "# cud1Abs1322", .mk [508] .abs "ud1_1332" "# cud1Abs1332",
  .mk [509] .abs "ud1_1323" "# cud1Abs1323", .mk [510] .abs "ud1_1333" "# cud1Abs1333",
  .mk [511] .val "ud1_2211" "# cud1Abs2211", .mk [512] .abs "ud1_2212" "# cud1Abs2212",
  .mk [513] .abs "ud1_2213" "# cud1Abs2213", .mk [514] .val "ud1_2222" "# cud1Abs2222",
  .mk [515] .abs "ud1_2223" "# cud1Abs2223", .mk [516] .val "ud1_2233" "# cud1Abs2233",
  .mk [517] .abs "ud1_2311" "# cud1Abs2311", .mk [518] .abs "ud1_2312" "# cud1Abs2312",
  .mk [519] .abs "ud1_2313" "# cud1Abs2313", .mk [520] .abs "ud1_2321" "# cud1Abs2321",
  .mk [521] .abs "ud1_2322" "# cud1Abs2322", .mk [522] .abs "ud1_2323" "# cud1Abs2323",
  .mk [523] .abs "ud1_2331" "# cud1Abs2331", .mk [524] .abs "ud1_2332" "# cud1Abs2332",
  .mk [525] .abs "ud1_2333" "# cud1Abs2333", .mk [526] .val "ud1_3311" "# cud1Abs3311",
  .mk [527] .abs "ud1_3312" "# cud1Abs3312", .mk [528] .abs "ud1_3313" "# cud1Abs3313",
  .mk [529] .val "ud1_3322" "# cud1Abs3322", .mk [530] .val "ud1_3333" "# cud1Abs3333",
  .mk [531] .abs "ud1_3323" "# cud1Abs3323", .mk [532] .ph "ud1_1112" "# cud1Ph1112",
  .mk [533] .ph "ud1_2212" "# cud1Ph2212", .mk [534] .ph "ud1_1113" "# cud1Ph1113",
  .mk [535] .ph "ud1_1123" "# cud1Ph1123", .mk [536] .ph "ud1_1211" "# cud1Ph1211",
  .mk [537] .ph "ud1_1212" "# cud1Ph1212", .mk [538] .ph "ud1_1221" "# cud1Ph1221",
  .mk [539] .ph "ud1_1213" "# cud1Ph1213", .mk [540] .ph "ud1_1231" "# cud1Ph1231",
  .mk [541] .ph "ud1_1222" "# cud1Ph1222", .mk [542] .ph "ud1_1223" "# cud1Ph1223",
  .mk [543] .ph "ud1_1232" "# cud1Ph1232", .mk [544] .ph "ud1_1233" "# cud1Ph1233",
  .mk [545] .ph "ud1_1311" "# cud1Ph1311", .mk [546] .ph "ud1_1312" "# cud1Ph1312",
  .mk [547] .ph "ud1_1313" "# cud1Ph1313", .mk [548] .ph "ud1_1331" "# cud1Ph1331",
  .mk [549] .ph "ud1_1321" "# cud1Ph1321", .mk [550] .ph "ud1_1322" "# cud1Ph1322",
  .mk [551] .ph "ud1_1332" "# cud1Ph1332", .mk [552] .ph "ud1_1323" "# cud1Ph1323",
  .mk [553] .ph "ud1_1333" "# cud1Ph1333", .mk [554] .ph "ud1_2213" "# cud1Ph2213",
  .mk [555] .ph "ud1_2223" "# cud1Ph2223", .mk [556] .ph "ud1_2311" "# cud1Ph2311",
  .mk [557] .ph "ud1_2312" "# cud1Ph2312", .mk [558] .ph "ud1_2313" "# cud1Ph2313",
  .mk [559] .ph "ud1_2321" "# cud1Ph2321", .mk [560] .ph "ud1_2322" "# cud1Ph2322",
  .mk [561] .ph "ud1_2323" "# cud1Ph2323", .mk [562] .ph "ud1_2331" "# cud1Ph2331",
  .mk [563] .ph "ud1_2332" "# cud1Ph2332", .mk [564] .ph "ud1_2333" "# cud1Ph2333",
  .mk [565] .ph "ud1_3323" "# cud1Ph3323", .mk [566] .ph "ud1_3312" "# cud1Ph3312",
  .mk [567] .ph "ud1_3313" "# cud1Ph3313", .mk [568] .val "ud8_1111" "# cUD8Abs1111",
  .mk [569] .abs "ud8_1112" "# cUD8Abs1112", .mk [570] .abs "ud8_1113" "# cUD8Abs1113",
  .mk [571] .abs "ud8_1123" "# cUD8Abs1123", .mk [572] .val "ud8_1122" "# cUD8Abs1122",
  .mk [573] .val "ud8_1133" "# cUD8Abs1133", .mk [574] .abs "ud8_1211" "# cUD8Abs1211",
  .mk [575] .abs "ud8_1212" "# cUD8Abs1212", .mk [576] .abs "ud8_1221" "# cUD8Abs1221",
  .mk [577] .abs "ud8_1213" "# cUD8Abs1213", .mk [578] .abs "ud8_1231" "# cUD8Abs1231",
  .mk [579] .abs "ud8_1222" "# cUD8Abs1222", .mk [580] .abs "ud8_1223" "# cUD8Abs1223",
  .mk [581] .abs "ud8_1232" "# cUD8Abs1232", .mk [582] .abs "ud8_1233" "# cUD8Abs1233",
  .mk [583] .abs "ud8_1311" "# cUD8Abs1311", .mk [584] .abs "ud8_1312" "# cUD8Abs1312",
  .mk [585] .abs "ud8_1313" "# cUD8Abs1313", .mk [586] .abs "ud8_1331" "# cUD8Abs1331",
  .mk [587] .abs "ud8_1321" "# cUD8Abs1321", .mk [588] .abs "ud8_1322" "# cUD8Abs1322",
  .mk [589] .abs "ud8_1332" "# cUD8Abs1332", .mk [590] .abs "ud8_1323" "# cUD8Abs1323",
  .mk [591] .abs "ud8_1333" "# cUD8Abs1333", .mk [592] .val "ud8_2211" "# cUD8Abs2211",
  .mk [593] .abs "ud8_2212" "# cUD8Abs2212", .mk [594] .abs "ud8_2213" "# cUD8Abs2213",
  .mk [595] .val "ud8_2222" "# cUD8Abs2222", .mk [596] .abs "ud8_2223" "# cUD8Abs2223",
  .mk [597] .val "ud8_2233" "# cUD8Abs2233", .mk [598] .abs "ud8_2311" "# cUD8Abs2311",
  .mk [599] .abs "ud8_2312" "# cUD8Abs2312", .mk [600] .abs "ud8_2313" "# cUD8Abs2313"]

/-- smeftsim.py:3306-3455, block `FRBlock` of set B. -/
noncomputable def rowsB_FRBlock_5 : List CRow := [
  .mk [601] .abs "ud8_2321" "# cUD8Abs2321", .mk [602] .abs "ud8_2322" "# cUD8Abs2322",
  .mk [603] .abs "ud8_2323" "# cUD8Abs2323", .mk [604] .abs "ud8_2331" "# cUD8Abs2331",
  .mk [605] .abs "ud8_2332" "# cUD8Abs2332", .mk [606] .abs "ud8_2333" "# cUD8Abs2333",
  .mk [607] .val "ud8_3311" "# cUD8Abs3311", .mk [608] .abs "ud8_3312" "# cUD8Abs3312",
  .mk [609] .abs "ud8_3313" "# cUD8Abs3313", .mk [610] .val "ud8_3322" "# cUD8Abs3322",
  .mk [611] .val "ud8_3333" "# cUD8Abs3333", .mk [612] .abs "ud8_3323" "# cUD8Abs3323",
  .mk [613] .ph "ud8_1112" "# cUD8Ph1112", .mk [614] .ph "ud8_2212" "# cUD8Ph2212",
  .mk [615] .ph "ud8_1113" "# cUD8Ph1113", .mk [616] .ph "ud8_1123" "# cUD8Ph1123",
  .mk [617] .ph "ud8_1211" "# cUD8Ph1211", .mk [618] .ph "ud8_1212" "# cUD8Ph1212",
  .mk [619] .ph "ud8_1221" "# cUD8Ph1221", .mk [620] .ph "ud8_1213" "# cUD8Ph1213",
  .mk [621] .ph "ud8_1231" "# cUD8Ph1231", .mk [622] .ph "ud8_1222" "# cUD8Ph1222",
  .mk [623] .ph "ud8_1223" "# cUD8Ph1223", .mk [624] .ph "ud8_1232" "# cUD8Ph1232",
  .mk [625] .ph "ud8_1233" "# cUD8Ph1233", .mk [626] .ph "ud8_1311" "# cUD8Ph1311",
  .mk [627] .ph "ud8_1312" "# cUD8Ph1312", .mk [628] .ph "ud8_1313" "# cUD8Ph1313",
  .mk [629] .ph "ud8_1331" "# cUD8Ph1331", .mk [630] .ph "ud8_1321" "# cUD8Ph1321",
  .mk [631] .ph "ud8_1322" "# cUD8Ph1322", .mk [632] .ph "ud8_1332" "# cUD8Ph1332",
  .mk [633] .ph "ud8_1323" "# cUD8Ph1323", .mk [634] .ph "ud8_1333" "# cUD8Ph1333",
  .mk [635] .ph "ud8_2213" "# cUD8Ph2213", .mk [636] .ph "ud8_2223" "# cUD8Ph2223",
  .mk [637] .ph "ud8_2311" "# cUD8Ph2311", .mk [638] .ph "ud8_2312" "# cUD8Ph2312",
  .mk [639] .ph "ud8_2313" "# cUD8Ph2313", .mk [640] .ph "ud8_2321" "# cUD8Ph2321",
  .mk [641] .ph "ud8_2322" "# cUD8Ph2322", .mk [642] .ph "ud8_2323" "# cUD8Ph2323",
  .mk [643] .ph "ud8_2331" "# cUD8Ph2331", .mk [644] .ph "ud8_2332" "# cUD8Ph2332",
  .mk [645] .ph "ud8_2333" "# cUD8Ph2333", .mk [646] .ph "ud8_3323" "# cUD8Ph3323",
  .mk [647] .ph "ud8_3312" "# cUD8Ph3312", .mk [648] .ph "ud8_3313" "# cUD8Ph3313",
  .mk [649] .val "eu_1111" "# ceuAbs1111", .mk [650] .abs "eu_1112" "# ceuAbs1112",
  .mk [651] .abs "eu_1113" "# ceuAbs1113", .mk [652] .abs "eu_1123" "# ceuAbs1123",
  .mk [653] .val "eu_1122" "# ceuAbs1122", .mk [654] .val "eu_1133" "# ceuAbs1133",
  .mk [655] .abs "eu_1211" "# ceuAbs1211", .mk [656] .abs "eu_1212" "# ceuAbs1212",
  .mk [657] .abs "eu_1221" "# ceuAbs1221", .mk [658] .abs "eu_1213" "# ceuAbs1213",
  .mk [659] .abs "eu_1231" "# ceuAbs1231", .mk [660] .abs "eu_1222" "# ceuAbs1222",
  .mk [661] .abs "eu_1223" "# ceuAbs1223", .mk [662] .abs "eu_1232" "# ceuAbs1232",
  .mk [663] .abs "eu_1233" "# ceuAbs1233", .mk [664] .abs "eu_1311" "# ceuAbs1311",
  .mk [665] .abs "eu_1312" "# ceuAbs1312", .mk [666] .abs "eu_1313" "# ceuAbs1313",
  .mk [667] .abs "eu_1331" "# ceuAbs1331", .mk [668] .abs "eu_1321" "# ceuAbs1321",
  .mk [669] .abs "eu_1322" "# ceuAbs1322", .mk [670] .abs "eu_1332" "# ceuAbs1332",
  .mk [671] .abs "eu_1323" "# ceuAbs1323", .mk [672] .abs "eu_1333" "# ceuAbs1333",
  .mk [673] .val "eu_2211" "# ceuAbs2211", .mk [674] .abs "eu_2212" "# ceuAbs2212",
  .mk [675] .abs "eu_2213" "# ceuAbs2213", .mk [676] .val "eu_2222" "# ceuAbs2222",
  .mk [677] .abs "eu_2223" "# ceuAbs2223", .mk [678] .val "eu_2233" "# ceuAbs2233",
  .mk [679] .abs "eu_2311" "# ceuAbs2311", .mk [680] .abs "eu_2312" "# ceuAbs2312",
  .mk [681] .abs "eu_2313" "# ceuAbs2313", .mk [682] .abs "eu_2321" "# ceuAbs2321",
  .mk [683] .abs "eu_2322" "# ceuAbs2322", .mk [684] .abs "eu_2323" "# ceuAbs2323",
  .mk [685] .abs "eu_2331" "# ceuAbs2331", .mk [686] .abs "eu_2332" "# ceuAbs2332",
  .mk [687] .abs "eu_2333" "# ceuAbs2333", .mk [688] .val "eu_3311" "# ceuAbs3311",
  .mk [689] .abs "eu_3312" "# ceuAbs3312", .mk [690] .abs "eu_3313" "# ceuAbs3313",
  .mk [691] .val "eu_3322" "# ceuAbs3322", .mk [692] .val "eu_3333" "# ceuAbs3333",
  .mk [693] .abs "eu_3323" "# ceuAbs3323", .mk [694] .ph "eu_1112" "# ceuPh1112",
  .mk [695] .ph "eu_2212" "# ceuPh2212", .mk [696] .ph "eu_1113" "# ceuPh1113",
  .mk [697] .ph "eu_1123" "# ceuPh1123", .mk [698] .ph "eu_1211" "# ceuPh1211",
  .mk [699] .ph "eu_1212" "# ceuPh1212", .mk [700] .ph "eu_1221" "# ceuPh1221",
  .mk [701] .ph "eu_1213" "# ceuPh1213", .mk [702] .ph "eu_1231" "# ceuPh1231",
  .mk [703] .ph "eu_1222" "# ceuPh1222", .mk [704] .ph "eu_1223" "# ceuPh1223",
  .mk [705] .ph "eu_1232" "# ceuPh1232", .mk [706] .ph "eu_1233" "# ceuPh1233",
  .mk [707] .ph "eu_1311" "# ceuPh1311", .mk [708] .ph "eu_1312" "# ceuPh1312",
  .mk [709] .ph "eu_1313" "# ceuPh1313", .mk [710] .ph "eu_1331" "# ceuPh1331",
  .mk [711] .ph "eu_1321" "# ceuPh1321", .mk [712] .ph "eu_1322" "# ceuPh1322",
  .mk [713] .ph "eu_1332" "# ceuPh1332", .mk [714] .ph "eu_1323" "# ceuPh1323",
  .mk [715] .ph "eu_1333" "# ceuPh1333", .mk [716] .ph "eu_2213" "# ceuPh2213",
  .mk [717] .ph "eu_2223" "# ceuPh2223", .mk [718] .ph "eu_2311" "# ceuPh2311",
  .mk [719] .ph "eu_2312" "# ceuPh2312", .mk [720] .ph "eu_2313" "# ceuPh2313",
  .mk [721] .ph "eu_2321" "# ceuPh2321", .mk [722] .ph "eu_2322" "# ceuPh2322",
  .mk [723] .ph "eu_2323" "# ceuPh2323", .mk [724] .ph "eu_2331" "# ceuPh2331",
  .mk [725] .ph "eu_2332" "# ceuPh2332", .mk [726] .ph "eu_2333" "# ceuPh2333",
  .mk [727] .ph "eu_3323" "# ceuPh3323", .mk [728] .ph "eu_3312" "# ceuPh3312",
  .mk [729] .ph "eu_3313" "# ceuPh3313", .mk [730] .val "ed_1111" "# cedAbs1111",
  .mk [731] .abs "ed_1112" "# cedAbs1112", .mk [732] .abs "ed_1113" "# cedAbs1113",
  .mk [733] .abs "ed_1123" "# cedAbs1123", .mk [734] .val "ed_1122" "# cedAbs1122",
  .mk [735] .val "ed_1133" "# cedAbs1133", .mk [736] .abs "ed_1211" "# cedAbs1211",
  .mk [737] .abs "ed_1212" "# cedAbs1212", .mk [738] .abs "ed_1221" "# cedAbs1221",
  .mk [739] .abs "ed_1213" "# cedAbs1213", .mk [740] .abs "ed_1231" "# cedAbs1231",
  .mk [741] .abs "ed_1222" "# cedAbs1222", .mk [742] .abs "ed_1223" "# cedAbs1223",
  .mk [743] .abs "ed_1232" "# cedAbs1232", .mk [744] .abs "ed_1233" "# cedAbs1233",
  .mk [745] .abs "ed_1311" "# cedAbs1311", .mk [746] .abs "ed_1312" "# cedAbs1312",
  .mk [747] .abs "ed_1313" "# cedAbs1313", .mk [748] .abs "ed_1331" "# cedAbs1331",
  .mk [749] .abs "ed_1321" "# cedAbs1321", .mk [750] .abs "ed_1322" "# cedAbs1322"]

/-- smeftsim.py:3456-3605, block `FRBlock` of set B. -/
noncomputable def rowsB_FRBlock_6 : List CRow := [
  .mk [751] .abs "ed_1332" "# cedAbs1332", .mk [752] .abs "ed_1323" "# cedAbs1323",
  .mk [753] .abs "ed_1333" "# cedAbs1333", .mk [754] .val "ed_2211" "# cedAbs2211",
  .mk [755] .abs "ed_2212" "# cedAbs2212", .mk [756] .abs "ed_2213" "# cedAbs2213",
  .mk [757] .val "ed_2222" "# cedAbs2222", .mk [758] .abs "ed_2223" "# cedAbs2223",
  .mk [759] .val "ed_2233" "# cedAbs2233", .mk [760] .abs "ed_2311" "# cedAbs2311",
  .mk [761] .abs "ed_2312" "# cedAbs2312", .mk [762] .abs "ed_2313" "# cedAbs2313",
  .mk [763] .abs "ed_2321" "# cedAbs2321", .mk [764] .abs "ed_2322" "# cedAbs2322",
  .mk [765] .abs "ed_2323" "# cedAbs2323", .mk [766] .abs "ed_2331" "# cedAbs2331",
  .mk [767] .abs "ed_2332" "# cedAbs2332", .mk [768] .abs "ed_2333" "# cedAbs2333",
  .mk [769] .val "ed_3311" "# cedAbs3311", .mk [770] .abs "ed_3312" "# cedAbs3312",
  .mk [771] .abs "ed_3313" "# cedAbs3313", .mk [772] .val "ed_3322" "# cedAbs3322",
  .mk [773] .val "ed_3333" "# cedAbs3333", .mk [774] .abs "ed_3323" "# cedAbs3323",
  .mk [775] .ph "ed_1112" "# cedPh1112", .mk [776] .ph "ed_2212" "# cedPh2212",
  .mk [777] .ph "ed_1113" "# cedPh1113", .mk [778] .ph "ed_1123" "# cedPh1123",
  .mk [779] .ph "ed_1211" "# cedPh1211", .mk [780] .ph "ed_1212" "# cedPh1212",
  .mk [781] .ph "ed_1221" "# cedPh1221", .mk [782] .ph "ed_1213" "# cedPh1213",
  .mk [783] .ph "ed_1231" "# cedPh1231", .mk [784] .ph "ed_1222" "# cedPh1222",
  .mk [785] .ph "ed_1223" "# cedPh1223", .mk [786] .ph "ed_1232" "# cedPh1232",
  .mk [787] .ph "ed_1233" "# cedPh1233", .mk [788] .ph "ed_1311" "# cedPh1311",
  .mk [789] .ph "ed_1312" "# cedPh1312", .mk [790] .ph "ed_1313" "# cedPh1313",
  .mk [791] .ph "ed_1331" "# cedPh1331", .mk [792] .ph "ed_1321" "# cedPh1321",
  .mk [793] .ph "ed_1322" "# cedPh1322", .mk [794] .ph "ed_1332" "# cedPh1332",
  .mk [795] .ph "ed_1323" "# cedPh1323", .mk [796] .ph "ed_1333" "# cedPh1333",
  .mk [797] .ph "ed_2213" "# cedPh2213", .mk [798] .ph "ed_2223" "# cedPh2223",
  .mk [799] .ph "ed_2311" "# cedPh2311", .mk [800] .ph "ed_2312" "# cedPh2312",
  .mk [801] .ph "ed_2313" "# cedPh2313", .mk [802] .ph "ed_2321" "# cedPh2321",
  .mk [803] .ph "ed_2322" "# cedPh2322", .mk [804] .ph "ed_2323" "# cedPh2323",
  .mk [805] .ph "ed_2331" "# cedPh2331", .mk [806] .ph "ed_2332" "# cedPh2332",
  .mk [807] .ph "ed_2333" "# cedPh2333", .mk [808] .ph "ed_3323" "# cedPh3323",
  .mk [809] .ph "ed_3312" "# cedPh3312", .mk [810] .ph "ed_3313" "# cedPh3313",
  .mk [811] .val "qu1_1111" "# cqu1Abs1111", .mk [812] .abs "qu1_1112" "# cqu1Abs1112",
  .mk [813] .abs "qu1_1113" "# cqu1Abs1113", .mk [814] .abs "qu1_1123" "# cqu1Abs1123",
  .mk [815] .val "qu1_1122" "# cqu1Abs1122", .mk [816] .val "qu1_1133" "# cqu1Abs1133",
  .mk [817] .abs "qu1_1211" "# cqu1Abs1211", .mk [818] .abs "qu1_1212" "# cqu1Abs1212",
  .mk [819] .abs "qu1_1221" "# cqu1Abs1221", .mk [820] .abs "qu1_1213" "# cqu1Abs1213",
  .mk [821] .abs "qu1_1231" "# cqu1Abs1231", .mk [822] .abs "qu1_1222" "# cqu1Abs1222",
  .mk [823] .abs "qu1_1223" "# cqu1Abs1223", .mk [824] .abs "qu1_1232" "# cqu1Abs1232",
  .mk [825] .abs "qu1_1233" "# cqu1Abs1233", .mk [826] .abs "qu1_1311" "# cqu1Abs1311",
  .mk [827] .abs "qu1_1312" "# cqu1Abs1312", .mk [828] .abs "qu1_1313" "# cqu1Abs1313",
  .mk [829] .abs "qu1_1331" "# cqu1Abs1331", .mk [830] .abs "qu1_1321" "# cqu1Abs1321",
  .mk [831] .abs "qu1_1322" "# cqu1Abs1322", .mk [832] .abs "qu1_1332" "# cqu1Abs1332",
  .mk [833] .abs "qu1_1323" "# cqu1Abs1323", .mk [834] .abs "qu1_1333" "# cqu1Abs1333",
  .mk [835] .val "qu1_2211" "# cqu1Abs2211", .mk [836] .abs "qu1_2212" "# cqu1Abs2212",
  .mk [837] .abs "qu1_2213" "# cqu1Abs2213", .mk [838] .val "qu1_2222" "# cqu1Abs2222",
  .mk [839] .abs "qu1_2223" "# cqu1Abs2223", .mk [840] .val "qu1_2233" "# cqu1Abs2233",
  .mk [841] .abs "qu1_2311" "# cqu1Abs2311", .mk [842] .abs "qu1_2312" "# cqu1Abs2312",
  .mk [843] .abs "qu1_2313" "# cqu1Abs2313", .mk [844] .abs "qu1_2321" "# cqu1Abs2321",
  .mk [845] .abs "qu1_2322" "# cqu1Abs2322", .mk [846] .abs "qu1_2323" "# cqu1Abs2323",
  .mk [847] .abs "qu1_2331" "# cqu1Abs2331", .mk [848] .abs "qu1_2332" "# cqu1Abs2332",
  .mk [849] .abs "qu1_2333" "# cqu1Abs2333", .mk [850] .val "qu1_3311" "# cqu1Abs3311",
  .mk [851] .abs "qu1_3312" "# cqu1Abs3312", .mk [852] .abs "qu1_3313" "# cqu1Abs3313",
  .mk [853] .val "qu1_3322" "# cqu1Abs3322", .mk [854] .val "qu1_3333" "# cqu1Abs3333",
  .mk [855] .abs "qu1_3323" "# cqu1Abs3323", .mk [856] .ph "qu1_1112" "# cqu1Ph1112",
  .mk [857] .ph "qu1_2212" "# cqu1Ph2212", .mk [858] .ph "qu1_1113" "# cqu1Ph1113",
  .mk [859] .ph "qu1_1123" "# cqu1Ph1123", .mk [860] .ph "qu1_1211" "# cqu1Ph1211",
  .mk [861] .ph "qu1_1212" "# cqu1Ph1212", .mk [862] .ph "qu1_1221" "# cqu1Ph1221",
  .mk [863] .ph "qu1_1213" "# cqu1Ph1213", .mk [864] .ph "qu1_1231" "# cqu1Ph1231",
  .mk [865] .ph "qu1_1222" "# cqu1Ph1222", .mk [866] .ph "qu1_1223" "# cqu1Ph1223",
  .mk [867] .ph "qu1_1232" "# cqu1Ph1232", .mk [868] .ph "qu1_1233" "# cqu1Ph1233",
  .mk [869] .ph "qu1_1311" "# cqu1Ph1311", .mk [870] .ph "qu1_1312" "# cqu1Ph1312",
  .mk [871] .ph "qu1_1313" "# cqu1Ph1313", .mk [872] .ph "qu1_1331" "# cqu1Ph1331",
  .mk [873] .ph "qu1_1321" "# cqu1Ph1321", .mk [874] .ph "qu1_1322" "# cqu1Ph1322",
  .mk [875] .ph "qu1_1332" "# cqu1Ph1332", .mk [876] .ph "qu1_1323" "# cqu1Ph1323",
  .mk [877] .ph "qu1_1333" "# cqu1Ph1333", .mk [878] .ph "qu1_2213" "# cqu1Ph2213",
  .mk [879] .ph "qu1_2223" "# cqu1Ph2223", .mk [880] .ph "qu1_2311" "# cqu1Ph2311",
  .mk [881] .ph "qu1_2312" "# cqu1Ph2312", .mk [882] .ph "qu1_2313" "# cqu1Ph2313",
  .mk [883] .ph "qu1_2321" "# cqu1Ph2321", .mk [884] .ph "qu1_2322" "# cqu1Ph2322",
  .mk [885] .ph "qu1_2323" "# cqu1Ph2323", .mk [886] .ph "qu1_2331" "# cqu1Ph2331",
  .mk [887] .ph "qu1_2332" "# cqu1Ph2332", .mk [888] .ph "qu1_2333" "# cqu1Ph2333",
  .mk [889] .ph "qu1_3323" "# cqu1Ph3323", .mk [890] .ph "qu1_3312" "# cqu1Ph3312",
  .mk [891] .ph "qu1_3313" "# cqu1Ph3313", .mk [892] .val "qu8_1111" "# cQU8Abs1111",
  .mk [893] .abs "qu8_1112" "# cQU8Abs1112", .mk [894] .abs "qu8_1113" "# cQU8Abs1113",
  .mk [895] .abs "qu8_1123" "# cQU8Abs1123", .mk [896] .val "qu8_1122" "# cQU8Abs1122",
  .mk [897] .val "qu8_1133" "# cQU8Abs1133", .mk [898] .abs "qu8_1211" "# cQU8Abs1211",
  .mk [899] .abs "qu8_1212" "# cQU8Abs1212", .mk [900] .abs "qu8_1221" "# cQU8Abs1221"]

/-- smeftsim.py:3606-3755, block `FRBlock` of set B. -/
noncomputable def rowsB_FRBlock_7 : List CRow := [
  .mk [901] .abs "qu8_1213" "# cQU8Abs1213", .mk [902] .abs "qu8_1231" "# cQU8Abs1231",
  .mk [903] .abs "qu8_1222" "# cQU8Abs1222", .mk [904] .abs "qu8_1223" "# cQU8Abs1223",
  .mk [905] .abs "qu8_1232" "# cQU8Abs1232", .mk [906] .abs "qu8_1233" "# cQU8Abs1233",
  .mk [907] .abs "qu8_1311" "# cQU8Abs1311", .mk [908] .abs "qu8_1312" "# cQU8Abs1312",
  .mk [909] .abs "qu8_1313" "# cQU8Abs1313", .mk [910] .abs "qu8_1331" "# cQU8Abs1331",
  .mk [911] .abs "qu8_1321" "# cQU8Abs1321", .mk [912] .abs "qu8_1322" "# cQU8Abs1322",
  .mk [913] .abs "qu8_1332" "# cQU8Abs1332", .mk [914] .abs "qu8_1323" "# cQU8Abs1323",
  .mk [915] .abs "qu8_1333" "# cQU8Abs1333", .mk [916] .val "qu8_2211" "# cQU8Abs2211",
  .mk [917] .abs "qu8_2212" "# cQU8Abs2212", .mk [918] .abs "qu8_2213" "# cQU8Abs2213",
  .mk [919] .val "qu8_2222" "# cQU8Abs2222", .mk [920] .abs "qu8_2223" "# cQU8Abs2223",
  .mk [921] .val "qu8_2233" "# cQU8Abs2233", .mk [922] .abs "qu8_2311" "# cQU8Abs2311",
  .mk [923] .abs "qu8_2312" "# cQU8Abs2312", .mk [924] .abs "qu8_2313" "# cQU8Abs2313",
  .mk [925] .abs "qu8_2321" "# cQU8Abs2321", .mk [926] .abs "qu8_2322" "# cQU8Abs2322",
  .mk [927] .abs "qu8_2323" "# cQU8Abs2323", .mk [928] .abs "qu8_2331" "# cQU8Abs2331",
  .mk [929] .abs "qu8_2332" "# cQU8Abs2332", .mk [930] .abs "qu8_2333" "# cQU8Abs2333",
  .mk [931] .val "qu8_3311" "# cQU8Abs3311", .mk [932] .abs "qu8_3312" "# cQU8Abs3312",
  .mk [933] .abs "qu8_3313" "# cQU8Abs3313", .mk [934] .val "qu8_3322" "# cQU8Abs3322",
  .mk [935] .val "qu8_3333" "# cQU8Abs3333", .mk [936] .abs "qu8_3323" "# cQU8Abs3323",
  .mk [937] .ph "qu8_1112" "# cQU8Ph1112", .mk [938] .ph "qu8_2212" "# cQU8Ph2212",
  .mk [939] .ph "qu8_1113" "# cQU8Ph1113", .mk [940] .ph "qu8_1123" "# cQU8Ph1123",
  .mk [941] .ph "qu8_1211" "# cQU8Ph1211", .mk [942] .ph "qu8_1212" "# cQU8Ph1212",
  .mk [943] .ph "qu8_1221" "# cQU8Ph1221", .mk [944] .ph "qu8_1213" "# cQU8Ph1213",
  .mk [945] .ph "qu8_1231" "# cQU8Ph1231", .mk [946] .ph "qu8_1222" "# cQU8Ph1222",
  .mk [947] .ph "qu8_1223" "# cQU8Ph1223", .mk [948] .ph "qu8_1232" "# cQU8Ph1232",
  .mk [949] .ph "qu8_1233" "# cQU8Ph1233", .mk [950] .ph "qu8_1311" "# cQU8Ph1311",
  .mk [951] .ph "qu8_1312" "# cQU8Ph1312", .mk [952] .ph "qu8_1313" "# cQU8Ph1313",
  .mk [953] .ph "qu8_1331" "# cQU8Ph1331", .mk [954] .ph "qu8_1321" "# cQU8Ph1321",
  .mk [955] .ph "qu8_1322" "# cQU8Ph1322", .mk [956] .ph "qu8_1332" "# cQU8Ph1332",
  .mk [957] .ph "qu8_1323" "# cQU8Ph1323", .mk [958] .ph "qu8_1333" "# cQU8Ph1333",
  .mk [959] .ph "qu8_2213" "# cQU8Ph2213", .mk [960] .ph "qu8_2223" "# cQU8Ph2223",
  .mk [961] .ph "qu8_2311" "# cQU8Ph2311", .mk [962] .ph "qu8_2312" "# cQU8Ph2312",
  .mk [963] .ph "qu8_2313" "# cQU8Ph2313", .mk [964] .ph "qu8_2321" "# cQU8Ph2321",
  .mk [965] .ph "qu8_2322" "# cQU8Ph2322", .mk [966] .ph "qu8_2323" "# cQU8Ph2323",
  .mk [967] .ph "qu8_2331" "# cQU8Ph2331", .mk [968] .ph "qu8_2332" "# cQU8Ph2332",
  .mk [969] .ph "qu8_2333" "# cQU8Ph2333", .mk [970] .ph "qu8_3323" "# cQU8Ph3323",
  .mk [971] .ph "qu8_3312" "# cQU8Ph3312", .mk [972] .ph "qu8_3313" "# cQU8Ph3313",
  .mk [973] .val "qd1_1111" "# cqd1Abs1111", .mk [974] .abs "qd1_1112" "# cqd1Abs1112",
  .mk [975] .abs "qd1_1113" "# cqd1Abs1113", .mk [976] .abs "qd1_1123" "# cqd1Abs1123",
  .mk [977] .val "qd1_1122" "# cqd1Abs1122", .mk [978] .val "qd1_1133" "# cqd1Abs1133",
  .mk [979] .abs "qd1_1211" "# cqd1Abs1211", .mk [980] .abs "qd1_1212" "# cqd1Abs1212",
  .mk [981] .abs "qd1_1221" "# cqd1Abs1221", .mk [982] .abs "qd1_1213" "# cqd1Abs1213",
  .mk [983] .abs "qd1_1231" "# cqd1Abs1231", .mk [984] .abs "qd1_1222" "# cqd1Abs1222",
  .mk [985] .abs "qd1_1223" "# cqd1Abs1223", .mk [986] .abs "qd1_1232" "# cqd1Abs1232",
  .mk [987] .abs "qd1_1233" "# cqd1Abs1233", .mk [988] .abs "qd1_1311" "# cqd1Abs1311",
  .mk [989] .abs "qd1_1312" "# cqd1Abs1312", .mk [990] .abs "qd1_1313" "# cqd1Abs1313",
  .mk [991] .abs "qd1_1331" "# cqd1Abs1331", .mk [992] .abs "qd1_1321" "# cqd1Abs1321",
  .mk [993] .abs "qd1_1322" "# cqd1Abs1322", .mk [994] .abs "qd1_1332" "# cqd1Abs1332",
  .mk [995] .abs "qd1_1323" "# cqd1Abs1323", .mk [996] .abs "qd1_1333" "# cqd1Abs1333",
  .mk [997] .val "qd1_2211" "# cqd1Abs2211", .mk [998] .abs "qd1_2212" "# cqd1Abs2212",
  .mk [999] .abs "qd1_2213" "# cqd1Abs2213", .mk [1000] .val "qd1_2222" "# cqd1Abs2222",
  .mk [1001] .abs "qd1_2223" "# cqd1Abs2223", .mk [1002] .val "qd1_2233" "# cqd1Abs2233",
  .mk [1003] .abs "qd1_2311" "# cqd1Abs2311", .mk [1004] .abs "qd1_2312" "# cqd1Abs2312",
  .mk [1005] .abs "qd1_2313" "# cqd1Abs2313", .mk [1006] .abs "qd1_2321" "# cqd1Abs2321",
  .mk [1007] .abs "qd1_2322" "# cqd1Abs2322", .mk [1008] .abs "qd1_2323" "# cqd1Abs2323",
  .mk [1009] .abs "qd1_2331" "# cqd1Abs2331", .mk [1010] .abs "qd1_2332" "# cqd1Abs2332",
  .mk [1011] .abs "qd1_2333" "# cqd1Abs2333", .mk [1012] .val "qd1_3311" "# cqd1Abs3311",
  .mk [1013] .abs "qd1_3312" "# cqd1Abs3312", .mk [1014] .abs "qd1_3313" "# cqd1Abs3313",
  .mk [1015] .val "qd1_3322" "# cqd1Abs3322", .mk [1016] .val "qd1_3333" "# cqd1Abs3333",
  .mk [1017] .abs "qd1_3323" "# cqd1Abs3323", .mk [1018] .ph "qd1_1112" "# cqd1Ph1112",
  .mk [1019] .ph "qd1_2212" "# cqd1Ph2212", .mk [1020] .ph "qd1_1113" "# cqd1Ph1113",
  .mk [1021] .ph "qd1_1123" "# cqd1Ph1123", .mk [1022] .ph "qd1_1211" "# cqd1Ph1211",
  .mk [1023] .ph "qd1_1212" "# cqd1Ph1212", .mk [1024] .ph "qd1_1221" "# cqd1Ph1221",
  .mk [1025] .ph "qd1_1213" "# cqd1Ph1213", .mk [1026] .ph "qd1_1231" "# cqd1Ph1231",
  .mk [1027] .ph "qd1_1222" "# cqd1Ph1222", .mk [1028] .ph "qd1_1223" "# cqd1Ph1223",
  .mk [1029] .ph "qd1_1232" "# cqd1Ph1232", .mk [1030] .ph "qd1_1233" "# cqd1Ph1233",
  .mk [1031] .ph "qd1_1311" "# cqd1Ph1311", .mk [1032] .ph "qd1_1312" "# cqd1Ph1312",
  .mk [1033] .ph "qd1_1313" "# cqd1Ph1313", .mk [1034] .ph "qd1_1331" "# cqd1Ph1331",
  .mk [1035] .ph "qd1_1321" "# cqd1Ph1321", .mk [1036] .ph "qd1_1322" "# cqd1Ph1322",
  .mk [1037] .ph "qd1_1332" "# cqd1Ph1332", .mk [1038] .ph "qd1_1323" "# cqd1Ph1323",
  .mk [1039] .ph "qd1_1333" "# cqd1Ph1333", .mk [1040] .ph "qd1_2213" "# cqd1Ph2213",
  .mk [1041] .ph "qd1_2223" "# cqd1Ph2223", .mk [1042] .ph "qd1_2311" "# cqd1Ph2311",
  .mk [1043] .ph "qd1_2312" "# cqd1Ph2312", .mk [1044] .ph "qd1_2313" "# cqd1Ph2313",
  .mk [1045] .ph "qd1_2321" "# cqd1Ph2321", .mk [1046] .ph "qd1_2322" "# cqd1Ph2322",
  .mk [1047] .ph "qd1_2323" "# cqd1Ph2323", .mk [1048] .ph "qd1_2331" "# cqd1Ph2331",
  .mk [1049] .ph "qd1_2332" "# cqd1Ph2332", .mk [1050] .ph "qd1_2333" "# cqd1Ph2333"]

/-- smeftsim.py:3756-3905, block `FRBlock` of set B. -/
noncomputable def rowsB_FRBlock_8 : List CRow := [
  .mk [1051] .ph "qd1_3323" "# cqd1Ph3323", .mk [1052] .ph "qd1_3312" "# cqd1Ph3312",
  .mk [1053] .ph "qd1_3313" "# cqd1Ph3313", .mk [1054] .val "qd8_1111" "# cQD8Abs1111",
  .mk [1055] .abs "qd8_1112" "# cQD8Abs1112", .mk [1056] .abs "qd8_1113" "# cQD8Abs1113",
  .mk [1057] .abs "qd8_1123" "# cQD8Abs1123", .mk [1058] .val "qd8_1122" "# cQD8Abs1122",
  .mk [1059] .val "qd8_1133" "# cQD8Abs1133", .mk [1060] .abs "qd8_1211" "# cQD8Abs1211",
  .mk [1061] .abs "qd8_1212" "# cQD8Abs1212", .mk [1062] .abs "qd8_1221" "# cQD8Abs1221",
  .mk [1063] .abs "qd8_1213" "# cQD8Abs1213", .mk [1064] .abs "qd8_1231" "# cQD8Abs1231",
  .mk [1065] .abs "qd8_1222" "# cQD8Abs1222", .mk [1066] .abs "qd8_1223" "# cQD8Abs1223",
  .mk [1067] .abs "qd8_1232" "# cQD8Abs1232", .mk [1068] .abs "qd8_1233" "# cQD8Abs1233",
  .mk [1069] .abs "qd8_1311" "# cQD8Abs1311", .mk [1070] .abs "qd8_1312" "# cQD8Abs1312",
  .mk [1071] .abs "qd8_1313" "# cQD8Abs1313", .mk [1072] .abs "qd8_1331" "# cQD8Abs1331",
  .mk [1073] .abs "qd8_1321" "# cQD8Abs1321", .mk [1074] .abs "qd8_1322" "# cQD8Abs1322",
  .mk [1075] .abs "qd8_1332" "# cQD8Abs1332", .mk [1076] .abs "qd8_1323" "# cQD8Abs1323",
  .mk [1077] .abs "qd8_1333" "# cQD8Abs1333", .mk [1078] .val "qd8_2211" "# cQD8Abs2211",
  .mk [1079] .abs "qd8_2212" "# cQD8Abs2212", .mk [1080] .abs "qd8_2213" "# cQD8Abs2213",
  .mk [1081] .val "qd8_2222" "# cQD8Abs2222", .mk [1082] .abs "qd8_2223" "# cQD8Abs2223",
  .mk [1083] .val "qd8_2233" "# cQD8Abs2233", .mk [1084] .abs "qd8_2311" "# cQD8Abs2311",
  .mk [1085] .abs "qd8_2312" "# cQD8Abs2312", .mk [1086] .abs "qd8_2313" "# cQD8Abs2313",
  .mk [1087] .abs "qd8_2321" "# cQD8Abs2321", .mk [1088] .abs "qd8_2322" "# cQD8Abs2322",
  .mk [1089] .abs "qd8_2323" "# cQD8Abs2323", .mk [1090] .abs "qd8_2331" "# cQD8Abs2331",
  .mk [1091] .abs "qd8_2332" "# cQD8Abs2332", .mk [1092] .abs "qd8_2333" "# cQD8Abs2333",
  .mk [1093] .val "qd8_3311" "# cQD8Abs3311", .mk [1094] .abs "qd8_3312" "# cQD8Abs3312",
  .mk [1095] .abs "qd8_3313" "# cQD8Abs3313", .mk [1096] .val "qd8_3322" "# cQD8Abs3322",
  .mk [1097] .val "qd8_3333" "# cQD8Abs3333", .mk [1098] .abs "qd8_3323" "# cQD8Abs3323",
  .mk [1099] .ph "qd8_1112" "# cQD8Ph1112", .mk [1100] .ph "qd8_2212" "# cQD8Ph2212",
  .mk [1101] .ph "qd8_1113" "# cQD8Ph1113", .mk [1102] .ph "qd8_1123" "# cQD8Ph1123",
  .mk [1103] .ph "qd8_1211" "# cQD8Ph1211", .mk [1104] .ph "qd8_1212" "# cQD8Ph1212",
  .mk [1105] .ph "qd8_1221" "# cQD8Ph1221", .mk [1106] .ph "qd8_1213" "# cQD8Ph1213",
  .mk [1107] .ph "qd8_1231" "# cQD8Ph1231", .mk [1108] .ph "qd8_1222" "# cQD8Ph1222",
  .mk [1109] .ph "qd8_1223" "# cQD8Ph1223", .mk [1110] .ph "qd8_1232" "# cQD8Ph1232",
  .mk [1111] .ph "qd8_1233" "# cQD8Ph1233", .mk [1112] .ph "qd8_1311" "# cQD8Ph1311",
  .mk [1113] .ph "qd8_1312" "# cQD8Ph1312", .mk [1114] .ph "qd8_1313" "# cQD8Ph1313",
  .mk [1115] .ph "qd8_1331" "# cQD8Ph1331", .mk [1116] .ph "qd8_1321" "# cQD8Ph1321",
  .mk [1117] .ph "qd8_1322" "# cQD8Ph1322", .mk [1118] .ph "qd8_1332" "# cQD8Ph1332",
  .mk [1119] .ph "qd8_1323" "# cQD8Ph1323", .mk [1120] .ph "qd8_1333" "# cQD8Ph1333",
  .mk [1121] .ph "qd8_2213" "# cQD8Ph2213", .mk [1122] .ph "qd8_2223" "# cQD8Ph2223",
  .mk [1123] .ph "qd8_2311" "# cQD8Ph2311", .mk [1124] .ph "qd8_2312" "# cQD8Ph2312",
  .mk [1125] .ph "qd8_2313" "# cQD8Ph2313", .mk [1126] .ph "qd8_2321" "# cQD8Ph2321",
  .mk [1127] .ph "qd8_2322" "# cQD8Ph2322", .mk [1128] .ph "qd8_2323" "# cQD8Ph2323",
  .mk [1129] .ph "qd8_2331" "# cQD8Ph2331", .mk [1130] .ph "qd8_2332" "# cQD8Ph2332",
  .mk [1131] .ph "qd8_2333" "# cQD8Ph2333", .mk [1132] .ph "qd8_3323" "# cQD8Ph3323",
  .mk [1133] .ph "qd8_3312" "# cQD8Ph3312", .mk [1134] .ph "qd8_3313" "# cQD8Ph3313",
  .mk [1135] .val "le_1111" "# cleAbs1111", .mk [1136] .abs "le_1112" "# cleAbs1112",
  .mk [1137] .abs "le_1113" "# cleAbs1113", .mk [1138] .abs "le_1123" "# cleAbs1123",
  .mk [1139] .val "le_1122" "# cleAbs1122", .mk [1140] .val "le_1133" "# cleAbs1133",
  .mk [1141] .abs "le_1211" "# cleAbs1211", .mk [1142] .abs "le_1212" "# cleAbs1212",
  .mk [1143] .abs "le_1221" "# cleAbs1221", .mk [1144] .abs "le_1213" "# cleAbs1213",
  .mk [1145] .abs "le_1231" "# cleAbs1231", .mk [1146] .abs "le_1222" "# cleAbs1222",
  .mk [1147] .abs "le_1223" "# cleAbs1223", .mk [1148] .abs "le_1232" "# cleAbs1232",
  .mk [1149] .abs "le_1233" "# cleAbs1233", .mk [1150] .abs "le_1311" "# cleAbs1311",
  .mk [1151] .abs "le_1312" "# cleAbs1312", .mk [1152] .abs "le_1313" "# cleAbs1313",
  .mk [1153] .abs "le_1331" "# cleAbs1331", .mk [1154] .abs "le_1321" "# cleAbs1321",
  .mk [1155] .abs "le_1322" "# cleAbs1322", .mk [1156] .abs "le_1332" "# cleAbs1332",
  .mk [1157] .abs "le_1323" "# cleAbs1323", .mk [1158] .abs "le_1333" "# cleAbs1333",
  .mk [1159] .val "le_2211" "# cleAbs2211", .mk [1160] .abs "le_2212" "# cleAbs2212",
  .mk [1161] .abs "le_2213" "# cleAbs2213", .mk [1162] .val "le_2222" "# cleAbs2222",
  .mk [1163] .abs "le_2223" "# cleAbs2223", .mk [1164] .val "le_2233" "# cleAbs2233",
  .mk [1165] .abs "le_2311" "# cleAbs2311", .mk [1166] .abs "le_2312" "# cleAbs2312",
  .mk [1167] .abs "le_2313" "# cleAbs2313", .mk [1168] .abs "le_2321" "# cleAbs2321",
  .mk [1169] .abs "le_2322" "# cleAbs2322", .mk [1170] .abs "le_2323" "# cleAbs2323",
  .mk [1171] .abs "le_2331" "# cleAbs2331", .mk [1172] .abs "le_2332" "# cleAbs2332",
  .mk [1173] .abs "le_2333" "# cleAbs2333", .mk [1174] .val "le_3311" "# cleAbs3311",
  .mk [1175] .abs "le_3312" "# cleAbs3312", .mk [1176] .abs "le_3313" "# cleAbs3313",
  .mk [1177] .val "le_3322" "# cleAbs3322", .mk [1178] .val "le_3333" "# cleAbs3333",
  .mk [1179] .abs "le_3323" "# cleAbs3323", .mk [1180] .ph "le_1112" "# clePh1112",
  .mk [1181] .ph "le_2212" "# clePh2212", .mk [1182] .ph "le_1113" "# clePh1113",
  .mk [1183] .ph "le_1123" "# clePh1123", .mk [1184] .ph "le_1211" "# clePh1211",
  .mk [1185] .ph "le_1212" "# clePh1212", .mk [1186] .ph "le_1221" "# clePh1221",
  .mk [1187] .ph "le_1213" "# clePh1213", .mk [1188] .ph "le_1231" "# clePh1231",
  .mk [1189] .ph "le_1222" "# clePh1222", .mk [1190] .ph "le_1223" "# clePh1223",
  .mk [1191] .ph "le_1232" "# clePh1232", .mk [1192] .ph "le_1233" "# clePh1233",
  .mk [1193] .ph "le_1311" "# clePh1311", .mk [1194] .ph "le_1312" "# clePh1312",
  .mk [1195] .ph "le_1313" "# clePh1313", .mk [1196] .ph "le_1331" "# clePh1331",
  .mk [1197] .ph "le_1321" "# clePh1321", .mk [1198] .ph "le_1322" "# clePh1322",
  .mk [1199] .ph "le_1332" "# clePh1332", .mk [1200] .ph "le_1323" "# clePh1323"]

/-- smeftsim.py:3906-4055, block `FRBlock` of set B. -/
noncomputable def rowsB_FRBlock_9 : List CRow := [
  .mk [1201] .ph "le_1333" "# clePh1333", .mk [1202] .ph "le_2213" "# clePh2213",
  .mk [1203] .ph "le_2223" "# clePh2223", .mk [1204] .ph "le_2311" "# clePh2311",
  .mk [1205] .ph "le_2312" "# clePh2312", .mk [1206] .ph "le_2313" "# clePh2313",
  .mk [1207] .ph "le_2321" "# clePh2321", .mk [1208] .ph "le_2322" "# clePh2322",
  .mk [1209] .ph "le_2323" "# clePh2323", .mk [1210] .ph "le_2331" "# clePh2331",
  .mk [1211] .ph "le_2332" "# clePh2332", .mk [1212] .ph "le_2333" "# clePh2333",
  .mk [1213] .ph "le_3323" "# clePh3323", .mk [1214] .ph "le_3312" "# clePh3312",
  .mk [1215] .ph "le_3313" "# clePh3313", .mk [1216] .val "lu_1111" "# cluAbs1111",
  .mk [1217] .abs "lu_1112" "# cluAbs1112", .mk [1218] .abs "lu_1113" "# cluAbs1113",
  .mk [1219] .abs "lu_1123" "# cluAbs1123", .mk [1220] .val "lu_1122" "# cluAbs1122",
  .mk [1221] .val "lu_1133" "# cluAbs1133", .mk [1222] .abs "lu_1211" "# cluAbs1211",
  .mk [1223] .abs "lu_1212" "# cluAbs1212", .mk [1224] .abs "lu_1221" "# cluAbs1221",
  .mk [1225] .abs "lu_1213" "# cluAbs1213", .mk [1226] .abs "lu_1231" "# cluAbs1231",
  .mk [1227] .abs "lu_1222" "# cluAbs1222", .mk [1228] .abs "lu_1223" "# cluAbs1223",
  .mk [1229] .abs "lu_1232" "# cluAbs1232", .mk [1230] .abs "lu_1233" "# cluAbs1233",
  .mk [1231] .abs "lu_1311" "# cluAbs1311", .mk [1232] .abs "lu_1312" "# cluAbs1312",
  .mk [1233] .abs "lu_1313" "# cluAbs1313", .mk [1234] .abs "lu_1331" "# cluAbs1331",
  .mk [1235] .abs "lu_1321" "# cluAbs1321", .mk [1236] .abs "lu_1322" "# cluAbs1322",
  .mk [1237] .abs "lu_1332" "# cluAbs1332", .mk [1238] .abs "lu_1323" "# cluAbs1323",
  .mk [1239] .abs "lu_1333" "# cluAbs1333", .mk [1240] .val "lu_2211" "# cluAbs2211",
  .mk [1241] .abs "lu_2212" "# cluAbs2212", .mk [1242] .abs "lu_2213" "# cluAbs2213",
  .mk [1243] .val "lu_2222" "# cluAbs2222", .mk [1244] .abs "lu_2223" "# cluAbs2223",
  .mk [1245] .val "lu_2233" "# cluAbs2233", .mk [1246] .abs "lu_2311" "# cluAbs2311",
  .mk [1247] .abs "lu_2312" "# cluAbs2312", .mk [1248] .abs "lu_2313" "# cluAbs2313",
  .mk [1249] .abs "lu_2321" "# cluAbs2321", .mk [1250] .abs "lu_2322" "# cluAbs2322",
  .mk [1251] .abs "lu_2323" "# cluAbs2323", .mk [1252] .abs "lu_2331" "# cluAbs2331",
  .mk [1253] .abs "lu_2332" "# cluAbs2332", .mk [1254] .abs "lu_2333" "# cluAbs2333",
  .mk [1255] .val "lu_3311" "# cluAbs3311", .mk [1256] .abs "lu_3312" "# cluAbs3312",
  .mk [1257] .abs "lu_3313" "# cluAbs3313", .mk [1258] .val "lu_3322" "# cluAbs3322",
  .mk [1259] .val "lu_3333" "# cluAbs3333", .mk [1260] .abs "lu_3323" "# cluAbs3323",
  .mk [1261] .ph "lu_1112" "# cluPh1112", .mk [1262] .ph "lu_2212" "# cluPh2212",
  .mk [1263] .ph "lu_1113" "# cluPh1113", .mk [1264] .ph "lu_1123" "# cluPh1123",
  .mk [1265] .ph "lu_1211" "# cluPh1211", .mk [1266] .ph "lu_1212" "# cluPh1212",
  .mk [1267] .ph "lu_1221" "# cluPh1221", .mk [1268] .ph "lu_1213" "# cluPh1213",
  .mk [1269] .ph "lu_1231" "# cluPh1231", .mk [1270] .ph "lu_1222" "# cluPh1222",
  .mk [1271] .ph "lu_1223" "# cluPh1223", .mk [1272] .ph "lu_1232" "# cluPh1232",
  .mk [1273] .ph "lu_1233" "# cluPh1233", .mk [1274] .ph "lu_1311" "# cluPh1311",
  .mk [1275] .ph "lu_1312" "# cluPh1312", .mk [1276] .ph "lu_1313" "# cluPh1313",
  .mk [1277] .ph "lu_1331" "# cluPh1331", .mk [1278] .ph "lu_1321" "# cluPh1321",
  .mk [1279] .ph "lu_1322" "# cluPh1322", .mk [1280] .ph "lu_1332" "# cluPh1332",
  .mk [1281] .ph "lu_1323" "# cluPh1323", .mk [1282] .ph "lu_1333" "# cluPh1333",
  .mk [1283] .ph "lu_2213" "# cluPh2213", .mk [1284] .ph "lu_2223" "# cluPh2223",
  .mk [1285] .ph "lu_2311" "# cluPh2311", .mk [1286] .ph "lu_2312" "# cluPh2312",
  .mk [1287] .ph "lu_2313" "# cluPh2313", .mk [1288] .ph "lu_2321" "# cluPh2321",
  .mk [1289] .ph "lu_2322" "# cluPh2322", .mk [1290] .ph "lu_2323" "# cluPh2323",
  .mk [1291] .ph "lu_2331" "# cluPh2331", .mk [1292] .ph "lu_2332" "# cluPh2332",
  .mk [1293] .ph "lu_2333" "# cluPh2333", .mk [1294] .ph "lu_3323" "# cluPh3323",
  .mk [1295] .ph "lu_3312" "# cluPh3312", .mk [1296] .ph "lu_3313" "# cluPh3313",
  .mk [1297] .val "ld_1111" "# cldAbs1111", .mk [1298] .abs "ld_1112" "# cldAbs1112",
  .mk [1299] .abs "ld_1113" "# cldAbs1113", .mk [1300] .abs "ld_1123" "# cldAbs1123",
  .mk [1301] .val "ld_1122" "# cldAbs1122", .mk [1302] .val "ld_1133" "# cldAbs1133",
  .mk [1303] .abs "ld_1211" "# cldAbs1211", .mk [1304] .abs "ld_1212" "# cldAbs1212",
  .mk [1305] .abs "ld_1221" "# cldAbs1221", .mk [1306] .abs "ld_1213" "# cldAbs1213",
  .mk [1307] .abs "ld_1231" "# cldAbs1231", .mk [1308] .abs "ld_1222" "# cldAbs1222",
  .mk [1309] .abs "ld_1223" "# cldAbs1223", .mk [1310] .abs "ld_1232" "# cldAbs1232",
  .mk [1311] .abs "ld_1233" "# cldAbs1233", .mk [1312] .abs "ld_1311" "# cldAbs1311",
  .mk [1313] .abs "ld_1312" "# cldAbs1312", .mk [1314] .abs "ld_1313" "# cldAbs1313",
  .mk [1315] .abs "ld_1331" "# cldAbs1331", .mk [1316] .abs "ld_1321" "# cldAbs1321",
  .mk [1317] .abs "ld_1322" "# cldAbs1322", .mk [1318] .abs "ld_1332" "# cldAbs1332",
  .mk [1319] .abs "ld_1323" "# cldAbs1323", .mk [1320] .abs "ld_1333" "# cldAbs1333",
  .mk [1321] .val "ld_2211" "# cldAbs2211", .mk [1322] .abs "ld_2212" "# cldAbs2212",
  .mk [1323] .abs "ld_2213" "# cldAbs2213", .mk [1324] .val "ld_2222" "# cldAbs2222",
  .mk [1325] .abs "ld_2223" "# cldAbs2223", .mk [1326] .val "ld_2233" "# cldAbs2233",
  .mk [1327] .abs "ld_2311" "# cldAbs2311", .mk [1328] .abs "ld_2312" "# cldAbs2312",
  .mk [1329] .abs "ld_2313" "# cldAbs2313", .mk [1330] .abs "ld_2321" "# cldAbs2321",
  .mk [1331] .abs "ld_2322" "# cldAbs2322", .mk [1332] .abs "ld_2323" "# cldAbs2323",
  .mk [1333] .abs "ld_2331" "# cldAbs2331", .mk [1334] .abs "ld_2332" "# cldAbs2332",
  .mk [1335] .abs "ld_2333" "# cldAbs2333", .mk [1336] .val "ld_3311" "# cldAbs3311",
  .mk [1337] .abs "ld_3312" "# cldAbs3312", .mk [1338] .abs "ld_3313" "# cldAbs3313",
  .mk [1339] .val "ld_3322" "# cldAbs3322", .mk [1340] .val "ld_3333" "# cldAbs3333",
  .mk [1341] .abs "ld_3323" "# cldAbs3323", .mk [1342] .ph "ld_1112" "# cldPh1112",
  .mk [1343] .ph "ld_2212" "# cldPh2212", .mk [1344] .ph "ld_1113" "# cldPh1113",
  .mk [1345] .ph "ld_1123" "# cldPh1123", .mk [1346] .ph "ld_1211" "# cldPh1211",
  .mk [1347] .ph "ld_1212" "# cldPh1212", .mk [1348] .ph "ld_1221" "# cldPh1221",
  .mk [1349] .ph "ld_1213" "# cldPh1213", .mk [1350] .ph "ld_1231" "# cldPh1231"]

/-- smeftsim.py:4056-4163, block `FRBlock` of set B. -/
noncomputable def rowsB_FRBlock_10 : List CRow := [
  .mk [1351] .ph "ld_1222" "# cldPh1222", .mk [1352] .ph "ld_1223" "# cldPh1223",
  .mk [1353] .ph "ld_1232" "# cldPh1232", .mk [1354] .ph "ld_1233" "# cldPh1233",
  .mk [1355] .ph "ld_1311" "# cldPh1311", .mk [1356] .ph "ld_1312" "# cldPh1312",
  .mk [1357] .ph "ld_1313" "# cldPh1313", .mk [1358] .ph "ld_1331" "# cldPh1331",
  .mk [1359] .ph "ld_1321" "# cldPh1321", .mk [1360] .ph "ld_1322" "# cldPh1322",
  .mk [1361] .ph "ld_1332" "# cldPh1332", .mk [1362] .ph "ld_1323" "# cldPh1323",
  .mk [1363] .ph "ld_1333" "# cldPh1333", .mk [1364] .ph "ld_2213" "# cldPh2213",
  .mk [1365] .ph "ld_2223" "# cldPh2223", .mk [1366] .ph "ld_2311" "# cldPh2311",
  .mk [1367] .ph "ld_2312" "# cldPh2312", .mk [1368] .ph "ld_2313" "# cldPh2313",
  .mk [1369] .ph "ld_2321" "# cldPh2321", .mk [1370] .ph "ld_2322" "# cldPh2322",
  .mk [1371] .ph "ld_2323" "# cldPh2323", .mk [1372] .ph "ld_2331" "# cldPh2331",
  .mk [1373] .ph "ld_2332" "# cldPh2332", .mk [1374] .ph "ld_2333" "# cldPh2333",
  .mk [1375] .ph "ld_3323" "# cldPh3323", .mk [1376] .ph "ld_3312" "# cldPh3312",
  .mk [1377] .ph "ld_3313" "# cldPh3313", .mk [1378] .val "qe_1111" "# cqeAbs1111",
  .mk [1379] .abs "qe_1112" "# cqeAbs1112", .mk [1380] .abs "qe_1113" "# cqeAbs1113",
  .mk [1381] .abs "qe_1123" "# cqeAbs1123", .mk [1382] .val "qe_1122" "# cqeAbs1122",
  .mk [1383] .val "qe_1133" "# cqeAbs1133", .mk [1384] .abs "qe_1211" "# cqeAbs1211",
  .mk [1385] .abs "qe_1212" "# cqeAbs1212", .mk [1386] .abs "qe_1221" "# cqeAbs1221",
  .mk [1387] .abs "qe_1213" "# cqeAbs1213", .mk [1388] .abs "qe_1231" "# cqeAbs1231",
  .mk [1389] .abs "qe_1222" "# cqeAbs1222", .mk [1390] .abs "qe_1223" "# cqeAbs1223",
  .mk [1391] .abs "qe_1232" "# cqeAbs1232", .mk [1392] .abs "qe_1233" "# cqeAbs1233",
  .mk [1393] .abs "qe_1311" "# cqeAbs1311", .mk [1394] .abs "qe_1312" "# cqeAbs1312",
  .mk [1395] .abs "qe_1313" "# cqeAbs1313", .mk [1396] .abs "qe_1331" "# cqeAbs1331",
  .mk [1397] .abs "qe_1321" "# cqeAbs1321", .mk [1398] .abs "qe_1322" "# cqeAbs1322",
  .mk [1399] .abs "qe_1332" "# cqeAbs1332", .mk [1400] .abs "qe_1323" "# cqeAbs1323",
  .mk [1401] .abs "qe_1333" "# cqeAbs1333", .mk [1402] .val "qe_2211" "# cqeAbs2211",
  .mk [1403] .abs "qe_2212" "# cqeAbs2212", .mk [1404] .abs "qe_2213" "# cqeAbs2213",
  .mk [1405] .val "qe_2222" "# cqeAbs2222", .mk [1406] .abs "qe_2223" "# cqeAbs2223",
  .mk [1407] .val "qe_2233" "# cqeAbs2233", .mk [1408] .abs "qe_2311" "# cqeAbs2311",
  .mk [1409] .abs "qe_2312" "# cqeAbs2312", .mk [1410] .abs "qe_2313" "# cqeAbs2313",
  .mk [1411] .abs "qe_2321" "# cqeAbs2321", .mk [1412] .abs "qe_2322" "# cqeAbs2322",
  .mk [1413] .abs "qe_2323" "# cqeAbs2323", .mk [1414] .abs "qe_2331" "# cqeAbs2331",
  .mk [1415] .abs "qe_2332" "# cqeAbs2332", .mk [1416] .abs "qe_2333" "# cqeAbs2333",
  .mk [1417] .val "qe_3311" "# cqeAbs3311", .mk [1418] .abs "qe_3312" "# cqeAbs3312",
  .mk [1419] .abs "qe_3313" "# cqeAbs3313", .mk [1420] .val "qe_3322" "# cqeAbs3322",
  .mk [1421] .val "qe_3333" "# cqeAbs3333", .mk [1422] .abs "qe_3323" "# cqeAbs3323",
  .mk [1423] .ph "qe_1112" "# cqePh1112", .mk [1424] .ph "qe_2212" "# cqePh2212",
  .mk [1425] .ph "qe_1113" "# cqePh1113", .mk [1426] .ph "qe_1123" "# cqePh1123",
  .mk [1427] .ph "qe_1211" "# cqePh1211", .mk [1428] .ph "qe_1212" "# cqePh1212",
  .mk [1429] .ph "qe_1221" "# cqePh1221", .mk [1430] .ph "qe_1213" "# cqePh1213",
  .mk [1431] .ph "qe_1231" "# cqePh1231", .mk [1432] .ph "qe_1222" "# cqePh1222",
  .mk [1433] .ph "qe_1223" "# cqePh1223", .mk [1434] .ph "qe_1232" "# cqePh1232",
  .mk [1435] .ph "qe_1233" "# cqePh1233", .mk [1436] .ph "qe_1311" "# cqePh1311",
  .mk [1437] .ph "qe_1312" "# cqePh1312", .mk [1438] .ph "qe_1313" "# cqePh1313",
  .mk [1439] .ph "qe_1331" "# cqePh1331", .mk [1440] .ph "qe_1321" "# cqePh1321",
  .mk [1441] .ph "qe_1322" "# cqePh1322", .mk [1442] .ph "qe_1332" "# cqePh1332",
  .mk [1443] .ph "qe_1323" "# cqePh1323", .mk [1444] .ph "qe_1333" "# cqePh1333",
  .mk [1445] .ph "qe_2213" "# cqePh2213", .mk [1446] .ph "qe_2223" "# cqePh2223",
  .mk [1447] .ph "qe_2311" "# cqePh2311", .mk [1448] .ph "qe_2312" "# cqePh2312",
  .mk [1449] .ph "qe_2313" "# cqePh2313", .mk [1450] .ph "qe_2321" "# cqePh2321",
  .mk [1451] .ph "qe_2322" "# cqePh2322", .mk [1452] .ph "qe_2323" "# cqePh2323",
  .mk [1453] .ph "qe_2331" "# cqePh2331", .mk [1454] .ph "qe_2332" "# cqePh2332",
  .mk [1455] .ph "qe_2333" "# cqePh2333", .mk [1456] .ph "qe_3323" "# cqePh3323",
  .mk [1457] .ph "qe_3312" "# cqePh3312", .mk [1458] .ph "qe_3313" "# cqePh3313"]

/-- smeftsim.py:4167-4175, block `FRBlock10` of set B. -/
noncomputable def rowsB_FRBlock10 : List CRow := [
  .mk [1, 1] .ph "uphi_11" "# cuHPh1x1", .mk [1, 2] .ph "uphi_12" "# cuHPh1x2",
  .mk [1, 3] .ph "uphi_13" "# cuHPh1x3", .mk [2, 1] .ph "uphi_21" "# cuHPh2x1",
  .mk [2, 2] .ph "uphi_22" "# cuHPh2x2", .mk [2, 3] .ph "uphi_23" "# cuHPh2x3",
  .mk [3, 1] .ph "uphi_31" "# cuHPh3x1", .mk [3, 2] .ph "uphi_32" "# cuHPh3x2", .mk [3, 3] .ph "uphi_33" "# cuHPh3x3"]

/-- smeftsim.py:4179-4187, block `FRBlock11` of set B. -/
noncomputable def rowsB_FRBlock11 : List CRow := [
  .mk [1, 1] .ph "dphi_11" "# cdHPh1x1", .mk [1, 2] .ph "dphi_12" "# cdHPh1x2",
  .mk [1, 3] .ph "dphi_13" "# cdHPh1x3", .mk [2, 1] .ph "dphi_21" "# cdHPh2x1",
  .mk [2, 2] .ph "dphi_22" "# cdHPh2x2", .mk [2, 3] .ph "dphi_23" "# cdHPh2x3",
  .mk [3, 1] .ph "dphi_31" "# cdHPh3x1", .mk [3, 2] .ph "dphi_32" "# cdHPh3x2", .mk [3, 3] .ph "dphi_33" "# cdHPh3x3"]

/-- smeftsim.py:4191-4199, block `FRBlock15` of set B. -/
noncomputable def rowsB_FRBlock15 : List CRow := [
  .mk [1, 1] .abs "eW_11" "# ceWAbs1x1", .mk [1, 2] .abs "eW_12" "# ceWAbs1x2",
  .mk [1, 3] .abs "eW_13" "# ceWAbs1x3", .mk [2, 1] .abs "eW_21" "# ceWAbs2x1",
  .mk [2, 2] .abs "eW_22" "# ceWAbs2x2", .mk [2, 3] .abs "eW_23" "# ceWAbs2x3",
  .mk [3, 1] .abs "eW_31" "# ceWAbs3x1", .mk [3, 2] .abs "eW_32" "# ceWAbs3x2", .mk [3, 3] .abs "eW_33" "# ceWAbs3x3"]

/-- smeftsim.py:4203-4211, block `FRBlock16` of set B. -/
noncomputable def rowsB_FRBlock16 : List CRow := [
  .mk [1, 1] .ph "eW_11" "# ceWPh1x1", .mk [1, 2] .ph "eW_12" "# ceWPh1x2", .mk [1, 3] .ph "eW_13" "# ceWPh1x3",
  .mk [2, 1] .ph "eW_21" "# ceWPh2x1", .mk [2, 2] .ph "eW_22" "# ceWPh2x2", .mk [2, 3] .ph "eW_23" "# ceWPh2x3",
  .mk [3, 1] .ph "eW_31" "# ceWPh3x1", .mk [3, 2] .ph "eW_32" "# ceWPh3x2", .mk [3, 3] .ph "eW_33" "# ceWPh3x3"]

/-- smeftsim.py:4215-4223, block `FRBlock18` of set B. -/
noncomputable def rowsB_FRBlock18 : List CRow := [
  .mk [1, 1] .abs "eB_11" "# ceBAbs1x1", .mk [1, 2] .abs "eB_12" "# ceBAbs1x2",
  .mk [1, 3] .abs "eB_13" "# ceBAbs1x3", .mk [2, 1] .abs "eB_21" "# ceBAbs2x1",
  .mk [2, 2] .abs "eB_22" "# ceBAbs2x2", .mk [2, 3] .abs "eB_23" "# ceBAbs2x3",
  .mk [3, 1] .abs "eB_31" "# ceBAbs3x1", .mk [3, 2] .abs "eB_32" "# ceBAbs3x2", .mk [3, 3] .abs "eB_33" "# ceBAbs3x3"]

/-- smeftsim.py:4227-4235, block `FRBlock19` of set B. -/
noncomputable def rowsB_FRBlock19 : List CRow := [
  .mk [1, 1] .ph "eB_11" "# ceBPh1x1", .mk [1, 2] .ph "eB_12" "# ceBPh1x2", .mk [1, 3] .ph "eB_13" "# ceBPh1x3",
  .mk [2, 1] .ph "eB_21" "# ceBPh2x1", .mk [2, 2] .ph "eB_22" "# ceBPh2x2", .mk [2, 3] .ph "eB_23" "# ceBPh2x3",
  .mk [3, 1] .ph "eB_31" "# ceBPh3x1", .mk [3, 2] .ph "eB_32" "# ceBPh3x2", .mk [3, 3] .ph "eB_33" "# ceBPh3x3"]

/-- smeftsim.py:4239-4247, block `FRBlock21` of set B. -/
noncomputable def rowsB_FRBlock21 : List CRow := [
  .mk [1, 1] .abs "uG_11" "# cuGAbs1x1", .mk [1, 2] .abs "uG_12" "# cuGAbs1x2",
  .mk [1, 3] .abs "uG_13" "# cuGAbs1x3", .mk [2, 1] .abs "uG_21" "# cuGAbs2x1",
  .mk [2, 2] .abs "uG_22" "# cuGAbs2x2", .mk [2, 3] .abs "uG_23" "# cuGAbs2x3",
  .mk [3, 1] .abs "uG_31" "# cuGAbs3x1", .mk [3, 2] .abs "uG_32" "# cuGAbs3x2", .mk [3, 3] .abs "uG_33" "# cuGAbs3x3"]

/-- smeftsim.py:4251-4259, block `FRBlock22` of set B. -/
noncomputable def rowsB_FRBlock22 : List CRow := [
  .mk [1, 1] .ph "uG_11" "# cuGPh1x1", .mk [1, 2] .ph "uG_12" "# cuGPh1x2", .mk [1, 3] .ph "uG_13" "# cuGPh1x3",
  .mk [2, 1] .ph "uG_21" "# cuGPh2x1", .mk [2, 2] .ph "uG_22" "# cuGPh2x2", .mk [2, 3] .ph "uG_23" "# cuGPh2x3",
  .mk [3, 1] .ph "uG_31" "# cuGPh3x1", .mk [3, 2] .ph "uG_32" "# cuGPh3x2", .mk [3, 3] .ph "uG_33" "# cuGPh3x3"]

/-- smeftsim.py:4263-4271, block `FRBlock24` of set B. -/
noncomputable def rowsB_FRBlock24 : List CRow := [
  .mk [1, 1] .abs "uW_11" "# cuWAbs1x1", .mk [1, 2] .abs "uW_12" "# cuWAbs1x2",
  .mk [1, 3] .abs "uW_13" "# cuWAbs1x3", .mk [2, 1] .abs "uW_21" "# cuWAbs2x1",
  .mk [2, 2] .abs "uW_22" "# cuWAbs2x2", .mk [2, 3] .abs "uW_23" "# cuWAbs2x3",
  .mk [3, 1] .abs "uW_31" "# cuWAbs3x1", .mk [3, 2] .abs "uW_32" "# cuWAbs3x2", .mk [3, 3] .abs "uW_33" "# cuWAbs3x3"]

/-- smeftsim.py:4275-4283, block `FRBlock25` of set B. -/
noncomputable def rowsB_FRBlock25 : List CRow := [
  .mk [1, 1] .ph "uW_11" "# cuWPh1x1", .mk [1, 2] .ph "uW_12" "# cuWPh1x2", .mk [1, 3] .ph "uW_13" "# cuWPh1x3",
  .mk [2, 1] .ph "uW_21" "# cuWPh2x1", .mk [2, 2] .ph "uW_22" "# cuWPh2x2", .mk [2, 3] .ph "uW_23" "# cuWPh2x3",
  .mk [3, 1] .ph "uW_31" "# cuWPh3x1", .mk [3, 2] .ph "uW_32" "# cuWPh3x2", .mk [3, 3] .ph "uW_33" "# cuWPh3x3"]

/-- smeftsim.py:4287-4295, block `FRBlock27` of set B. -/
noncomputable def rowsB_FRBlock27 : List CRow := [
  .mk [1, 1] .abs "uB_11" "# cuBAbs1x1", .mk [1, 2] .abs "uB_12" "# cuBAbs1x2",
  .mk [1, 3] .abs "uB_13" "# cuBAbs1x3", .mk [2, 1] .abs "uB_21" "# cuBAbs2x1",
  .mk [2, 2] .abs "uB_22" "# cuBAbs2x2", .mk [2, 3] .abs "uB_23" "# cuBAbs2x3",
  .mk [3, 1] .abs "uB_31" "# cuBAbs3x1", .mk [3, 2] .abs "uB_32" "# cuBAbs3x2", .mk [3, 3] .abs "uB_33" "# cuBAbs3x3"]

/-- smeftsim.py:4299-4307, block `FRBlock28` of set B. -/
noncomputable def rowsB_FRBlock28 : List CRow := [
  .mk [1, 1] .ph "uB_11" "# cuBPh1x1", .mk [1, 2] .ph "uB_12" "# cuBPh1x2", .mk [1, 3] .ph "uB_13" "# cuBPh1x3",
  .mk [2, 1] .ph "uB_21" "# cuBPh2x1", .mk [2, 2] .ph "uB_22" "# cuBPh2x2", .mk [2, 3] .ph "uB_23" "# cuBPh2x3",
  .mk [3, 1] .ph "uB_31" "# cuBPh3x1", .mk [3, 2] .ph "uB_32" "# cuBPh3x2", .mk [3, 3] .ph "uB_33" "# cuBPh3x3"]

/-- smeftsim.py:4311-4319, block `FRBlock30` of set B. -/
noncomputable def rowsB_FRBlock30 : List CRow := [
  .mk [1, 1] .abs "dG_11" "# cdGAbs1x1", .mk [1, 2] .abs "dG_12" "# cdGAbs1x2",
  .mk [1, 3] .abs "dG_13" "# cdGAbs1x3", .mk [2, 1] .abs "dG_21" "# cdGAbs2x1",
  .mk [2, 2] .abs "dG_22" "# cdGAbs2x2", .mk [2, 3] .abs "dG_23" "# cdGAbs2x3",
  .mk [3, 1] .abs "dG_31" "# cdGAbs3x1", .mk [3, 2] .abs "dG_32" "# cdGAbs3x2", .mk [3, 3] .abs "dG_33" "# cdGAbs3x3"]

/-- smeftsim.py:4323-4331, block `FRBlock31` of set B. -/
noncomputable def rowsB_FRBlock31 : List CRow := [
  .mk [1, 1] .ph "dG_11" "# cdGPh1x1", .mk [1, 2] .ph "dG_12" "# cdGPh1x2", .mk [1, 3] .ph "dG_13" "# cdGPh1x3",
  .mk [2, 1] .ph "dG_21" "# cdGPh2x1", .mk [2, 2] .ph "dG_22" "# cdGPh2x2", .mk [2, 3] .ph "dG_23" "# cdGPh2x3",
  .mk [3, 1] .ph "dG_31" "# cdGPh3x1", .mk [3, 2] .ph "dG_32" "# cdGPh3x2", .mk [3, 3] .ph "dG_33" "# cdGPh3x3"]

/-- smeftsim.py:4335-4343, block `FRBlock33` of set B. -/
noncomputable def rowsB_FRBlock33 : List CRow := [
  .mk [1, 1] .abs "dW_11" "# cdWAbs1x1", .mk [1, 2] .abs "dW_12" "# cdWAbs1x2",
  .mk [1, 3] .abs "dW_13" "# cdWAbs1x3", .mk [2, 1] .abs "dW_21" "# cdWAbs2x1",
  .mk [2, 2] .abs "dW_22" "# cdWAbs2x2", .mk [2, 3] .abs "dW_23" "# cdWAbs2x3",
  .mk [3, 1] .abs "dW_31" "# cdWAbs3x1", .mk [3, 2] .abs "dW_32" "# cdWAbs3x2", .mk [3, 3] .abs "dW_33" "# cdWAbs3x3"]

/-- smeftsim.py:4347-4355, block `FRBlock34` of set B. -/
noncomputable def rowsB_FRBlock34 : List CRow := [
  .mk [1, 1] .ph "dW_11" "# cdWPh1x1", .mk [1, 2] .ph "dW_12" "# cdWPh1x2", .mk [1, 3] .ph "dW_13" "# cdWPh1x3",
  .mk [2, 1] .ph "dW_21" "# cdWPh2x1", .mk [2, 2] .ph "dW_22" "# cdWPh2x2", .mk [2, 3] .ph "dW_23" "# cdWPh2x3",
  .mk [3, 1] .ph "dW_31" "# cdWPh3x1", .mk [3, 2] .ph "dW_32" "# cdWPh3x2", .mk [3, 3] .ph "dW_33" "# cdWPh3x3"]

/-- smeftsim.py:4359-4367, block `FRBlock36` of set B. -/
noncomputable def rowsB_FRBlock36 : List CRow := [
  .mk [1, 1] .abs "dB_11" "# cdBAbs1x1", .mk [1, 2] .abs "dB_12" "# cdBAbs1x2",
  .mk [1, 3] .abs "dB_13" "# cdBAbs1x3", .mk [2, 1] .abs "dB_21" "# cdBAbs2x1",
  .mk [2, 2] .abs "dB_22" "# cdBAbs2x2", .mk [2, 3] .abs "dB_23" "# cdBAbs2x3",
  .mk [3, 1] .abs "dB_31" "# cdBAbs3x1", .mk [3, 2] .abs "dB_32" "# cdBAbs3x2", .mk [3, 3] .abs "dB_33" "# cdBAbs3x3"]

/-- smeftsim.py:4371-4379, block `FRBlock37` of set B. -/
noncomputable def rowsB_FRBlock37 : List CRow := [
  .mk [1, 1] .ph "dB_11" "# cdBPh1x1", .mk [1, 2] .ph "dB_12" "# cdBPh1x2", .mk [1, 3] .ph "dB_13" "# cdBPh1x3",
  .mk [2, 1] .ph "dB_21" "# cdBPh2x1", .mk [2, 2] .ph "dB_22" "# cdBPh2x2", .mk [2, 3] .ph "dB_23" "# cdBPh2x3",
  .mk [3, 1] .ph "dB_31" "# cdBPh3x1", .mk [3, 2] .ph "dB_32" "# cdBPh3x2", .mk [3, 3] .ph "dB_33" "# cdBPh3x3"]

/-- smeftsim.py:4383-4391, block `FRBlock45` of set B. -/
noncomputable def rowsB_FRBlock45 : List CRow := [
  .mk [1, 1] .abs "phiud_11" "# cHudAbs1x1", .mk [1, 2] .abs "phiud_12" "# cHudAbs1x2",
  .mk [1, 3] .abs "phiud_13" "# cHudAbs1x3", .mk [2, 1] .abs "phiud_21" "# cHudAbs2x1",
  .mk [2, 2] .abs "phiud_22" "# cHudAbs2x2", .mk [2, 3] .abs "phiud_23" "# cHudAbs2x3",
  .mk [3, 1] .abs "phiud_31" "# cHudAbs3x1", .mk [3, 2] .abs "phiud_32" "# cHudAbs3x2",
  .mk [3, 3] .abs "phiud_33" "# cHudAbs3x3"]

/-- smeftsim.py:4395-4403, block `FRBlock46` of set B. -/
noncomputable def rowsB_FRBlock46 : List CRow := [
  .mk [1, 1] .ph "phiud_11" "# cHudPh1x1", .mk [1, 2] .ph "phiud_12" "# cHudPh1x2",
  .mk [1, 3] .ph "phiud_13" "# cHudPh1x3", .mk [2, 1] .ph "phiud_21" "# cHudPh2x1",
  .mk [2, 2] .ph "phiud_22" "# cHudPh2x2", .mk [2, 3] .ph "phiud_23" "# cHudPh2x3",
  .mk [3, 1] .ph "phiud_31" "# cHudPh3x1", .mk [3, 2] .ph "phiud_32" "# cHudPh3x2",
  .mk [3, 3] .ph "phiud_33" "# cHudPh3x3"]

/-- smeftsim.py:4407-4415, block `FRBlock6` of set B. -/
noncomputable def rowsB_FRBlock6 : List CRow := [
  .mk [1, 1] .abs "ephi_11" "# ceHAbs1x1", .mk [1, 2] .abs "ephi_12" "# ceHAbs1x2",
  .mk [1, 3] .abs "ephi_13" "# ceHAbs1x3", .mk [2, 1] .abs "ephi_21" "# ceHAbs2x1",
  .mk [2, 2] .abs "ephi_22" "# ceHAbs2x2", .mk [2, 3] .abs "ephi_23" "# ceHAbs2x3",
  .mk [3, 1] .abs "ephi_31" "# ceHAbs3x1", .mk [3, 2] .abs "ephi_32" "# ceHAbs3x2",
  .mk [3, 3] .abs "ephi_33" "# ceHAbs3x3"]

/-- smeftsim.py:4419-4499, block `FRBlock69` of set B. -/
noncomputable def rowsB_FRBlock69 : List CRow := [
  .mk [1, 1, 1, 1] .abs "ledq_1111" "# cledqAbs1x1x1x1", .mk [1, 1, 1, 2] .abs "ledq_1112" "# cledqAbs1x1x1x2",
  .mk [1, 1, 1, 3] .abs "ledq_1113" "# cledqAbs1x1x1x3", .mk [1, 1, 2, 1] .abs "ledq_1121" "# cledqAbs1x1x2x1",
  .mk [1, 1, 2, 2] .abs "ledq_1122" "# cledqAbs1x1x2x2", .mk [1, 1, 2, 3] .abs "ledq_1123" "# cledqAbs1x1x2x3",
  .mk [1, 1, 3, 1] .abs "ledq_1131" "# cledqAbs1x1x3x1", .mk [1, 1, 3, 2] .abs "ledq_1132" "# cledqAbs1x1x3x2",
  .mk [1, 1, 3, 3] .abs "ledq_1133" "# cledqAbs1x1x3x3", .mk [1, 2, 1, 1] .abs "ledq_1211" "# cledqAbs1x2x1x1",
  .mk [1, 2, 1, 2] .abs "ledq_1212" "# cledqAbs1x2x1x2", .mk [1, 2, 1, 3] .abs "ledq_1213" "# cledqAbs1x2x1x3",
  .mk [1, 2, 2, 1] .abs "ledq_1221" "# cledqAbs1x2x2x1", .mk [1, 2, 2, 2] .abs "ledq_1222" "# cledqAbs1x2x2x2",
  .mk [1, 2, 2, 3] .abs "ledq_1223" "# cledqAbs1x2x2x3", .mk [1, 2, 3, 1] .abs "ledq_1231" "# cledqAbs1x2x3x1",
  .mk [1, 2, 3, 2] .abs "ledq_1232" "# cledqAbs1x2x3x2", .mk [1, 2, 3, 3] .abs "ledq_1233" "# cledqAbs1x2x3x3",
  .mk [1, 3, 1, 1] .abs "ledq_1311" "# cledqAbs1x3x1x1", .mk [1, 3, 1, 2] .abs "ledq_1312" "# cledqAbs1x3x1x2",
  .mk [1, 3, 1, 3] .abs "ledq_1313" "# cledqAbs1x3x1x3", .mk [1, 3, 2, 1] .abs "ledq_1321" "# cledqAbs1x3x2x1",
  .mk [1, 3, 2, 2] .abs "ledq_1322" "# cledqAbs1x3x2x2", .mk [1, 3, 2, 3] .abs "ledq_1323" "# cledqAbs1x3x2x3",
  .mk [1, 3, 3, 1] .abs "ledq_1331" "# cledqAbs1x3x3x1", .mk [1, 3, 3, 2] .abs "ledq_1332" "# cledqAbs1x3x3x2",
  .mk [1, 3, 3, 3] .abs "ledq_1333" "# cledqAbs1x3x3x3", .mk [2, 1, 1, 1] .abs "ledq_2111" "# cledqAbs2x1x1x1",
  .mk [2, 1, 1, 2] .abs "ledq_2112" "# cledqAbs2x1x1x2", .mk [2, 1, 1, 3] .abs "ledq_2113" "# cledqAbs2x1x1x3",
  .mk [2, 1, 2, 1] .abs "ledq_2121" "# cledqAbs2x1x2x1", .mk [2, 1, 2, 2] .abs "ledq_2122" "# cledqAbs2x1x2x2",
  .mk [2, 1, 2, 3] .abs "ledq_2123" "# cledqAbs2x1x2x3", .mk [2, 1, 3, 1] .abs "ledq_2131" "# cledqAbs2x1x3x1",
  .mk [2, 1, 3, 2] .abs "ledq_2132" "# cledqAbs2x1x3x2", .mk [2, 1, 3, 3] .abs "ledq_2133" "# cledqAbs2x1x3x3",
  .mk [2, 2, 1, 1] .abs "ledq_2211" "# cledqAbs2x2x1x1", .mk [2, 2, 1, 2] .abs "ledq_2212" "# cledqAbs2x2x1x2",
  .mk [2, 2, 1, 3] .abs "ledq_2213" "# cledqAbs2x2x1x3", .mk [2, 2, 2, 1] .abs "ledq_2221" "# cledqAbs2x2x2x1",
  .mk [2, 2, 2, 2] .abs "ledq_2222" "# cledqAbs2x2x2x2", .mk [2, 2, 2, 3] .abs "ledq_2223" "# cledqAbs2x2x2x3",
  .mk [2, 2, 3, 1] .abs "ledq_2231" "# cledqAbs2x2x3x1", .mk [2, 2, 3, 2] .abs "ledq_2232" "# cledqAbs2x2x3x2",
  .mk [2, 2, 3, 3] .abs "ledq_2233" "# cledqAbs2x2x3x3", .mk [2, 3, 1, 1] .abs "ledq_2311" "# cledqAbs2x3x1x1",
  .mk [2, 3, 1, 2] .abs "ledq_2312" "# cledqAbs2x3x1x2", .mk [2, 3, 1, 3] .abs "ledq_2313" "# cledqAbs2x3x1x3",
  .mk [2, 3, 2, 1] .abs "ledq_2321" "# cledqAbs2x3x2x1", .mk [2, 3, 2, 2] .abs "ledq_2322" "# cledqAbs2x3x2x2",
  .mk [2, 3, 2, 3] .abs "ledq_2323" "# cledqAbs2x3x2x3", .mk [2, 3, 3, 1] .abs "ledq_2331" "# cledqAbs2x3x3x1",
  .mk [2, 3, 3, 2] .abs "ledq_2332" "# cledqAbs2x3x3x2", .mk [2, 3, 3, 3] .abs "ledq_2333" "# cledqAbs2x3x3x3",
  .mk [3, 1, 1, 1] .abs "ledq_3111" "# cledqAbs3x1x1x1", .mk [3, 1, 1, 2] .abs "ledq_3112" "# cledqAbs3x1x1x2",
  .mk [3, 1, 1, 3] .abs "ledq_3113" "# cledqAbs3x1x1x3", .mk [3, 1, 2, 1] .abs "ledq_3121" "# cledqAbs3x1x2x1",
  .mk [3, 1, 2, 2] .abs "ledq_3122" "# cledqAbs3x1x2x2", .mk [3, 1, 2, 3] .abs "ledq_3123" "# cledqAbs3x1x2x3",
  .mk [3, 1, 3, 1] .abs "ledq_3131" "# cledqAbs3x1x3x1", .mk [3, 1, 3, 2] .abs "ledq_3132" "# cledqAbs3x1x3x2",
  .mk [3, 1, 3, 3] .abs "ledq_3133" "# cledqAbs3x1x3x3", .mk [3, 2, 1, 1] .abs "ledq_3211" "# cledqAbs3x2x1x1",
  .mk [3, 2, 1, 2] .abs "ledq_3212" "# cledqAbs3x2x1x2", .mk [3, 2, 1, 3] .abs "ledq_3213" "# cledqAbs3x2x1x3",
  .mk [3, 2, 2, 1] .abs "ledq_3221" "# cledqAbs3x2x2x1", .mk [3, 2, 2, 2] .abs "ledq_3222" "# cledqAbs3x2x2x2",
  .mk [3, 2, 2, 3] .abs "ledq_3223" "# cledqAbs3x2x2x3", .mk [3, 2, 3, 1] .abs "ledq_3231" "# cledqAbs3x2x3x1",
  .mk [3, 2, 3, 2] .abs "ledq_3232" "# cledqAbs3x2x3x2", .mk [3, 2, 3, 3] .abs "ledq_3233" "# cledqAbs3x2x3x3",
  .mk [3, 3, 1, 1] .abs "ledq_3311" "# cledqAbs3x3x1x1", .mk [3, 3, 1, 2] .abs "ledq_3312" "# cledqAbs3x3x1x2",
  .mk [3, 3, 1, 3] .abs "ledq_3313" "# cledqAbs3x3x1x3", .mk [3, 3, 2, 1] .abs "ledq_3321" "# cledqAbs3x3x2x1",
  .mk [3, 3, 2, 2] .abs "ledq_3322" "# cledqAbs3x3x2x2", .mk [3, 3, 2, 3] .abs "ledq_3323" "# cledqAbs3x3x2x3",
  .mk [3, 3, 3, 1] .abs "ledq_3331" "# cledqAbs3x3x3x1", .mk [3, 3, 3, 2] .abs "ledq_3332" "# cledqAbs3x3x3x2",
  .mk [3, 3, 3, 3] .abs "ledq_3333" "# cledqAbs3x3x3x3"]

/-- smeftsim.py:4503-4511, block `FRBlock7` of set B. -/
noncomputable def rowsB_FRBlock7 : List CRow := [
  .mk [1, 1] .abs "uphi_11" "# cuHAbs1x1", .mk [1, 2] .abs "uphi_12" "# cuHAbs1x2",
  .mk [1, 3] .abs "uphi_13" "# cuHAbs1x3", .mk [2, 1] .abs "uphi_21" "# cuHAbs2x1",
  .mk [2, 2] .abs "uphi_22" "# cuHAbs2x2", .mk [2, 3] .abs "uphi_23" "# cuHAbs2x3",
  .mk [3, 1] .abs "uphi_31" "# cuHAbs3x1", .mk [3, 2] .abs "uphi_32" "# cuHAbs3x2",
  .mk [3, 3] .abs "uphi_33" "# cuHAbs3x3"]

/-- smeftsim.py:4515-4595, block `FRBlock70` of set B. -/
noncomputable def rowsB_FRBlock70 : List CRow := [
  .mk [1, 1, 1, 1] .ph "ledq_1111" "# cledqPh1x1x1x1", .mk [1, 1, 1, 2] .ph "ledq_1112" "# cledqPh1x1x1x2",
  .mk [1, 1, 1, 3] .ph "ledq_1113" "# cledqPh1x1x1x3", .mk [1, 1, 2, 1] .ph "ledq_1121" "# cledqPh1x1x2x1",
  .mk [1, 1, 2, 2] .ph "ledq_1122" "# cledqPh1x1x2x2", .mk [1, 1, 2, 3] .ph "ledq_1123" "# cledqPh1x1x2x3",
  .mk [1, 1, 3, 1] .ph "ledq_1131" "# cledqPh1x1x3x1", .mk [1, 1, 3, 2] .ph "ledq_1132" "# cledqPh1x1x3x2",
  .mk [1, 1, 3, 3] .ph "ledq_1133" "# cledqPh1x1x3x3", .mk [1, 2, 1, 1] .ph "ledq_1211" "# cledqPh1x2x1x1",
  .mk [1, 2, 1, 2] .ph "ledq_1212" "# cledqPh1x2x1x2", .mk [1, 2, 1, 3] .ph "ledq_1213" "# cledqPh1x2x1x3",
  .mk [1, 2, 2, 1] .ph "ledq_1221" "# cledqPh1x2x2x1", .mk [1, 2, 2, 2] .ph "ledq_1222" "# cledqPh1x2x2x2",
  .mk [1, 2, 2, 3] .ph "ledq_1223" "# cledqPh1x2x2x3", .mk [1, 2, 3, 1] .ph "ledq_1231" "# cledqPh1x2x3x1",
  .mk [1, 2, 3, 2] .ph "ledq_1232" "# cledqPh1x2x3x2", .mk [1, 2, 3, 3] .ph "ledq_1233" "# cledqPh1x2x3x3",
  .mk [1, 3, 1, 1] .ph "ledq_1311" "# cledqPh1x3x1x1", .mk [1, 3, 1, 2] .ph "ledq_1312" "# cledqPh1x3x1x2",
  .mk [1, 3, 1, 3] .ph "ledq_1313" "# cledqPh1x3x1x3", .mk [1, 3, 2, 1] .ph "ledq_1321" "# cledqPh1x3x2x1",
  .mk [1, 3, 2, 2] .ph "ledq_1322" "# cledqPh1x3x2x2", .mk [1, 3, 2, 3] .ph "ledq_1323" "# cledqPh1x3x2x3",
  .mk [1, 3, 3, 1] .ph "ledq_1331" "# cledqPh1x3x3x1", .mk [1, 3, 3, 2] .ph "ledq_1332" "# cledqPh1x3x3x2",
  .mk [1, 3, 3, 3] .ph "ledq_1333" "# cledqPh1x3x3x3", .mk [2, 1, 1, 1] .ph "ledq_2111" "# cledqPh2x1x1x1",
  .mk [2, 1, 1, 2] .ph "ledq_2112" "# cledqPh2x1x1x2", .mk [2, 1, 1, 3] .ph "ledq_2113" "# cledqPh2x1x1x3",
  .mk [2, 1, 2, 1] .ph "ledq_2121" "# cledqPh2x1x2x1", .mk [2, 1, 2, 2] .ph "ledq_2122" "# cledqPh2x1x2x2",
  .mk [2, 1, 2, 3] .ph "ledq_2123" "# cledqPh2x1x2x3", .mk [2, 1, 3, 1] .ph "ledq_2131" "# cledqPh2x1x3x1",
  .mk [2, 1, 3, 2] .ph "ledq_2132" "# cledqPh2x1x3x2", .mk [2, 1, 3, 3] .ph "ledq_2133" "# cledqPh2x1x3x3",
  .mk [2, 2, 1, 1] .ph "ledq_2211" "# cledqPh2x2x1x1", .mk [2, 2, 1, 2] .ph "ledq_2212" "# cledqPh2x2x1x2",
  .mk [2, 2, 1, 3] .ph "ledq_2213" "# cledqPh2x2x1x3", .mk [2, 2, 2, 1] .ph "ledq_2221" "# cledqPh2x2x2x1",
  .mk [2, 2, 2, 2] .ph "ledq_2222" "# cledqPh2x2x2x2", .mk [2, 2, 2, 3] .ph "ledq_2223" "# cledqPh2x2x2x3",
  .mk [2, 2, 3, 1] .ph "ledq_2231" "# cledqPh2x2x3x1", .mk [2, 2, 3, 2] .ph "ledq_2232" "# cledqPh2x2x3x2",
  .mk [2, 2, 3, 3] .ph "ledq_2233" "# cledqPh2x2x3x3", .mk [2, 3, 1, 1] .ph "ledq_2311" "# cledqPh2x3x1x1",
  .mk [2, 3, 1, 2] .ph "ledq_2312" "# cledqPh2x3x1x2", .mk [2, 3, 1, 3] .ph "ledq_2313" "# cledqPh2x3x1x3",
  .mk [2, 3, 2, 1] .ph "ledq_2321" "# cledqPh2x3x2x1", .mk [2, 3, 2, 2] .ph "ledq_2322" "# cledqPh2x3x2x2",
  .mk [2, 3, 2, 3] .ph "ledq_2323" "# cledqPh2x3x2x3", .mk [2, 3, 3, 1] .ph "ledq_2331" "# cledqPh2x3x3x1",
  .mk [2, 3, 3, 2] .ph "ledq_2332" "# cledqPh2x3x3x2", .mk [2, 3, 3, 3] .ph "ledq_2333" "# cledqPh2x3x3x3",
  .mk [3, 1, 1, 1] .ph "ledq_3111" "# cledqPh3x1x1x1", .mk [3, 1, 1, 2] .ph "ledq_3112" "# cledqPh3x1x1x2",
  .mk [3, 1, 1, 3] .ph "ledq_3113" "# cledqPh3x1x1x3", .mk [3, 1, 2, 1] .ph "ledq_3121" "# cledqPh3x1x2x1",
  .mk [3, 1, 2, 2] .ph "ledq_3122" "# cledqPh3x1x2x2", .mk [3, 1, 2, 3] .ph "ledq_3123" "# cledqPh3x1x2x3",
  .mk [3, 1, 3, 1] .ph "ledq_3131" "# cledqPh3x1x3x1", .mk [3, 1, 3, 2] .ph "ledq_3132" "# cledqPh3x1x3x2",
  .mk [3, 1, 3, 3] .ph "ledq_3133" "# cledqPh3x1x3x3", .mk [3, 2, 1, 1] .ph "ledq_3211" "# cledqPh3x2x1x1",
  .mk [3, 2, 1, 2] .ph "ledq_3212" "# cledqPh3x2x1x2", .mk [3, 2, 1, 3] .ph "ledq_3213" "# cledqPh3x2x1x3",
  .mk [3, 2, 2, 1] .ph "ledq_3221" "# cledqPh3x2x2x1", .mk [3, 2, 2, 2] .ph "ledq_3222" "# cledqPh3x2x2x2",
  .mk [3, 2, 2, 3] .ph "ledq_3223" "# cledqPh3x2x2x3", .mk [3, 2, 3, 1] .ph "ledq_3231" "# cledqPh3x2x3x1",
  .mk [3, 2, 3, 2] .ph "ledq_3232" "# cledqPh3x2x3x2", .mk [3, 2, 3, 3] .ph "ledq_3233" "# cledqPh3x2x3x3",
  .mk [3, 3, 1, 1] .ph "ledq_3311" "# cledqPh3x3x1x1", .mk [3, 3, 1, 2] .ph "ledq_3312" "# cledqPh3x3x1x2",
  .mk [3, 3, 1, 3] .ph "ledq_3313" "# cledqPh3x3x1x3", .mk [3, 3, 2, 1] .ph "ledq_3321" "# cledqPh3x3x2x1",
  .mk [3, 3, 2, 2] .ph "ledq_3322" "# cledqPh3x3x2x2", .mk [3, 3, 2, 3] .ph "ledq_3323" "# cledqPh3x3x2x3",
  .mk [3, 3, 3, 1] .ph "ledq_3331" "# cledqPh3x3x3x1", .mk [3, 3, 3, 2] .ph "ledq_3332" "# cledqPh3x3x3x2",
  .mk [3, 3, 3, 3] .ph "ledq_3333" "# cledqPh3x3x3x3"]

/-- smeftsim.py:4599-4679, block `FRBlock72` of set B. -/
noncomputable def rowsB_FRBlock72 : List CRow := [
  .mk [1, 1, 1, 1] .abs "quqd1_1111" "# cquqd1Abs1x1x1x1", .mk [1, 1, 1, 2] .abs "quqd1_1112" "# cquqd1Abs1x1x1x2",
  .mk [1, 1, 1, 3] .abs "quqd1_1113" "# cquqd1Abs1x1x1x3", .mk [1, 1, 2, 1] .abs "quqd1_1121" "# cquqd1Abs1x1x2x1",
  .mk [1, 1, 2, 2] .abs "quqd1_1122" "# cquqd1Abs1x1x2x2", .mk [1, 1, 2, 3] .abs "quqd1_1123" "# cquqd1Abs1x1x2x3",
  .mk [1, 1, 3, 1] .abs "quqd1_1131" "# cquqd1Abs1x1x3x1", .mk [1, 1, 3, 2] .abs "quqd1_1132" "# cquqd1Abs1x1x3x2",
  .mk [1, 1, 3, 3] .abs "quqd1_1133" "# cquqd1Abs1x1x3x3", .mk [1, 2, 1, 1] .abs "quqd1_1211" "# cquqd1Abs1x2x1x1",
  .mk [1, 2, 1, 2] .abs "quqd1_1212" "# cquqd1Abs1x2x1x2", .mk [1, 2, 1, 3] .abs "quqd1_1213" "# cquqd1Abs1x2x1x3",
  .mk [1, 2, 2, 1] .abs "quqd1_1221" "# cquqd1Abs1x2x2x1", .mk [1, 2, 2, 2] .abs "quqd1_1222" "# cquqd1Abs1x2x2x2",
  .mk [1, 2, 2, 3] .abs "quqd1_1223" "# cquqd1Abs1x2x2x3", .mk [1, 2, 3, 1] .abs "quqd1_1231" "# cquqd1Abs1x2x3x1",
  .mk [1, 2, 3, 2] .abs "quqd1_1232" "# cquqd1Abs1x2x3x2", .mk [1, 2, 3, 3] .abs "quqd1_1233" "# cquqd1Abs1x2x3x3",
  .mk [1, 3, 1, 1] .abs "quqd1_1311" "# cquqd1Abs1x3x1x1", .mk [1, 3, 1, 2] .abs "quqd1_1312" "# cquqd1Abs1x3x1x2",
  .mk [1, 3, 1, 3] .abs "quqd1_1313" "# cquqd1Abs1x3x1x3", .mk [1, 3, 2, 1] .abs "quqd1_1321" "# cquqd1Abs1x3x2x1",
  .mk [1, 3, 2, 2] .abs "quqd1_1322" "# cquqd1Abs1x3x2x2", .mk [1, 3, 2, 3] .abs "quqd1_1323" "# cquqd1Abs1x3x2x3",
  .mk [1, 3, 3, 1] .abs "quqd1_1331" "# cquqd1Abs1x3x3x1", .mk [1, 3, 3, 2] .abs "quqd1_1332" "# cquqd1Abs1x3x3x2",
  .mk [1, 3, 3, 3] .abs "quqd1_1333" "# cquqd1Abs1x3x3x3", .mk [2, 1, 1, 1] .abs "quqd1_2111" "# cquqd1Abs2x1x1x1",
  .mk [2, 1, 1, 2] .abs "quqd1_2112" "# cquqd1Abs2x1x1x2", .mk [2, 1, 1, 3] .abs "quqd1_2113" "# cquqd1Abs2x1x1x3",
  .mk [2, 1, 2, 1] .abs "quqd1_2121" "# cquqd1Abs2x1x2x1", .mk [2, 1, 2, 2] .abs "quqd1_2122" "# cquqd1Abs2x1x2x2",
  .mk [2, 1, 2, 3] .abs "quqd1_2123" "# cquqd1Abs2x1x2x3", .mk [2, 1, 3, 1] .abs "quqd1_2131" "# cquqd1Abs2x1x3x1",
  .mk [2, 1, 3, 2] .abs "quqd1_2132" "# cquqd1Abs2x1x3x2", .mk [2, 1, 3, 3] .abs "quqd1_2133" "# cquqd1Abs2x1x3x3",
  .mk [2, 2, 1, 1] .abs "quqd1_2211" "# cquqd1Abs2x2x1x1", .mk [2, 2, 1, 2] .abs "quqd1_2212" "# cquqd1Abs2x2x1x2",
  .mk [2, 2, 1, 3] .abs "quqd1_2213" "# cquqd1Abs2x2x1x3", .mk [2, 2, 2, 1] .abs "quqd1_2221" "# cquqd1Abs2x2x2x1",
  .mk [2, 2, 2, 2] .abs "quqd1_2222" "# cquqd1Abs2x2x2x2", .mk [2, 2, 2, 3] .abs "quqd1_2223" "# cquqd1Abs2x2x2x3",
  .mk [2, 2, 3, 1] .abs "quqd1_2231" "# cquqd1Abs2x2x3x1", .mk [2, 2, 3, 2] .abs "quqd1_2232" "# cquqd1Abs2x2x3x2",
  .mk [2, 2, 3, 3] .abs "quqd1_2233" "# cquqd1Abs2x2x3x3", .mk [2, 3, 1, 1] .abs "quqd1_2311" "# cquqd1Abs2x3x1x1",
  .mk [2, 3, 1, 2] .abs "quqd1_2312" "# cquqd1Abs2x3x1x2", .mk [2, 3, 1, 3] .abs "quqd1_2313" "# cquqd1Abs2x3x1x3",
  .mk [2, 3, 2, 1] .abs "quqd1_2321" "# cquqd1Abs2x3x2x1", .mk [2, 3, 2, 2] .abs "quqd1_2322" "# cquqd1Abs2x3x2x2",
  .mk [2, 3, 2, 3] .abs "quqd1_2323" "# cquqd1Abs2x3x2x3", .mk [2, 3, 3, 1] .abs "quqd1_2331" "# cquqd1Abs2x3x3x1",
  .mk [2, 3, 3, 2] .abs "quqd1_2332" "# cquqd1Abs2x3x3x2", .mk [2, 3, 3, 3] .abs "quqd1_2333" "# cquqd1Abs2x3x3x3",
  .mk [3, 1, 1, 1] .abs "quqd1_3111" "# cquqd1Abs3x1x1x1", .mk [3, 1, 1, 2] .abs "quqd1_3112" "# cquqd1Abs3x1x1x2",
  .mk [3, 1, 1, 3] .abs "quqd1_3113" "# cquqd1Abs3x1x1x3", .mk [3, 1, 2, 1] .abs "quqd1_3121" "# cquqd1Abs3x1x2x1",
  .mk [3, 1, 2, 2] .abs "quqd1_3122" "# cquqd1Abs3x1x2x2", .mk [3, 1, 2, 3] .abs "quqd1_3123" "# cquqd1Abs3x1x2x3",
  .mk [3, 1, 3, 1] .abs "quqd1_3131" "# cquqd1Abs3x1x3x1", .mk [3, 1, 3, 2] .abs "quqd1_3132" "# cquqd1Abs3x1x3x2",
  .mk [3, 1, 3, 3] .abs "quqd1_3133" "# cquqd1Abs3x1x3x3", .mk [3, 2, 1, 1] .abs "quqd1_3211" "# cquqd1Abs3x2x1x1",
  .mk [3, 2, 1, 2] .abs "quqd1_3212" "# cquqd1Abs3x2x1x2", .mk [3, 2, 1, 3] .abs "quqd1_3213" "# cquqd1Abs3x2x1x3",
  .mk [3, 2, 2, 1] .abs "quqd1_3221" "# cquqd1Abs3x2x2x1", .mk [3, 2, 2, 2] .abs "quqd1_3222" "# cquqd1Abs3x2x2x2",
  .mk [3, 2, 2, 3] .abs "quqd1_3223" "# cquqd1Abs3x2x2x3", .mk [3, 2, 3, 1] .abs "quqd1_3231" "# cquqd1Abs3x2x3x1",
  .mk [3, 2, 3, 2] .abs "quqd1_3232" "# cquqd1Abs3x2x3x2", .mk [3, 2, 3, 3] .abs "quqd1_3233" "# cquqd1Abs3x2x3x3",
  .mk [3, 3, 1, 1] .abs "quqd1_3311" "# cquqd1Abs3x3x1x1", .mk [3, 3, 1, 2] .abs "quqd1_3312" "# cquqd1Abs3x3x1x2",
  .mk [3, 3, 1, 3] .abs "quqd1_3313" "# cquqd1Abs3x3x1x3", .mk [3, 3, 2, 1] .abs "quqd1_3321" "# cquqd1Abs3x3x2x1",
  .mk [3, 3, 2, 2] .abs "quqd1_3322" "# cquqd1Abs3x3x2x2", .mk [3, 3, 2, 3] .abs "quqd1_3323" "# cquqd1Abs3x3x2x3",
  .mk [3, 3, 3, 1] .abs "quqd1_3331" "# cquqd1Abs3x3x3x1", .mk [3, 3, 3, 2] .abs "quqd1_3332" "# cquqd1Abs3x3x3x2",
  .mk [3, 3, 3, 3] .abs "quqd1_3333" "# cquqd1Abs3x3x3x3"]

/-- smeftsim.py:4683-4763, block `FRBlock73` of set B. -/
noncomputable def rowsB_FRBlock73 : List CRow := [
  .mk [1, 1, 1, 1] .ph "quqd1_1111" "# cquqd1Ph1x1x1x1", .mk [1, 1, 1, 2] .ph "quqd1_1112" "# cquqd1Ph1x1x1x2",
  .mk [1, 1, 1, 3] .ph "quqd1_1113" "# cquqd1Ph1x1x1x3", .mk [1, 1, 2, 1] .ph "quqd1_1121" "# cquqd1Ph1x1x2x1",
  .mk [1, 1, 2, 2] .ph "quqd1_1122" "# cquqd1Ph1x1x2x2", .mk [1, 1, 2, 3] .ph "quqd1_1123" "# cquqd1Ph1x1x2x3",
  .mk [1, 1, 3, 1] .ph "quqd1_1131" "# cquqd1Ph1x1x3x1", .mk [1, 1, 3, 2] .ph "quqd1_1132" "# cquqd1Ph1x1x3x2",
  .mk [1, 1, 3, 3] .ph "quqd1_1133" "# cquqd1Ph1x1x3x3", .mk [1, 2, 1, 1] .ph "quqd1_1211" "# cquqd1Ph1x2x1x1",
  .mk [1, 2, 1, 2] .ph "quqd1_1212" "# cquqd1Ph1x2x1x2", .mk [1, 2, 1, 3] .ph "quqd1_1213" "# cquqd1Ph1x2x1x3",
  .mk [1, 2, 2, 1] .ph "quqd1_1221" "# cquqd1Ph1x2x2x1", .mk [1, 2, 2, 2] .ph "quqd1_1222" "# cquqd1Ph1x2x2x2",
  .mk [1, 2, 2, 3] .ph "quqd1_1223" "# cquqd1Ph1x2x2x3", .mk [1, 2, 3, 1] .ph "quqd1_1231" "# cquqd1Ph1x2x3x1",
  .mk [1, 2, 3, 2] .ph "quqd1_1232" "# cquqd1Ph1x2x3x2", .mk [1, 2, 3, 3] .ph "quqd1_1233" "# cquqd1Ph1x2x3x3",
  .mk [1, 3, 1, 1] .ph "quqd1_1311" "# cquqd1Ph1x3x1x1", .mk [1, 3, 1, 2] .ph "quqd1_1312" "# cquqd1Ph1x3x1x2",
  .mk [1, 3, 1, 3] .ph "quqd1_1313" "# cquqd1Ph1x3x1x3", .mk [1, 3, 2, 1] .ph "quqd1_1321" "# cquqd1Ph1x3x2x1",
  .mk [1, 3, 2, 2] .ph "quqd1_1322" "# cquqd1Ph1x3x2x2", .mk [1, 3, 2, 3] .ph "quqd1_1323" "# cquqd1Ph1x3x2x3",
  .mk [1, 3, 3, 1] .ph "quqd1_1331" "# cquqd1Ph1x3x3x1", .mk [1, 3, 3, 2] .ph "quqd1_1332" "# cquqd1Ph1x3x3x2",
  .mk [1, 3, 3, 3] .ph "quqd1_1333" "# cquqd1Ph1x3x3x3", .mk [2, 1, 1, 1] .ph "quqd1_2111" "# cquqd1Ph2x1x1x1",
  .mk [2, 1, 1, 2] .ph "quqd1_2112" "# cquqd1Ph2x1x1x2", .mk [2, 1, 1, 3] .ph "quqd1_2113" "# cquqd1Ph2x1x1x3",
  .mk [2, 1, 2, 1] .ph "quqd1_2121" "# cquqd1Ph2x1x2x1", .mk [2, 1, 2, 2] .ph "quqd1_2122" "# cquqd1Ph2x1x2x2",
  .mk [2, 1, 2, 3] .ph "quqd1_2123" "# cquqd1Ph2x1x2x3", .mk [2, 1, 3, 1] .ph "quqd1_2131" "# cquqd1Ph2x1x3x1",
  .mk [2, 1, 3, 2] .ph "quqd1_2132" "# cquqd1Ph2x1x3x2", .mk [2, 1, 3, 3] .ph "quqd1_2133" "# cquqd1Ph2x1x3x3",
  .mk [2, 2, 1, 1] .ph "quqd1_2211" "# cquqd1Ph2x2x1x1", .mk [2, 2, 1, 2] .ph "quqd1_2212" "# cquqd1Ph2x2x1x2",
  .mk [2, 2, 1, 3] .ph "quqd1_2213" "# cquqd1Ph2x2x1x3", .mk [2, 2, 2, 1] .ph "quqd1_2221" "# cquqd1Ph2x2x2x1",
  .mk [2, 2, 2, 2] .ph "quqd1_2222" "# cquqd1Ph2x2x2x2", .mk [2, 2, 2, 3] .ph "quqd1_2223" "# cquqd1Ph2x2x2x3",
  .mk [2, 2, 3, 1] .ph "quqd1_2231" "# cquqd1Ph2x2x3x1", .mk [2, 2, 3, 2] .ph "quqd1_2232" "# cquqd1Ph2x2x3x2",
  .mk [2, 2, 3, 3] .ph "quqd1_2233" "# cquqd1Ph2x2x3x3", .mk [2, 3, 1, 1] .ph "quqd1_2311" "# cquqd1Ph2x3x1x1",
  .mk [2, 3, 1, 2] .ph "quqd1_2312" "# cquqd1Ph2x3x1x2", .mk [2, 3, 1, 3] .ph "quqd1_2313" "# cquqd1Ph2x3x1x3",
  .mk [2, 3, 2, 1] .ph "quqd1_2321" "# cquqd1Ph2x3x2x1", .mk [2, 3, 2, 2] .ph "quqd1_2322" "# cquqd1Ph2x3x2x2",
  .mk [2, 3, 2, 3] .ph "quqd1_2323" "# cquqd1Ph2x3x2x3", .mk [2, 3, 3, 1] .ph "quqd1_2331" "# cquqd1Ph2x3x3x1",
  .mk [2, 3, 3, 2] .ph "quqd1_2332" "# cquqd1Ph2x3x3x2", .mk [2, 3, 3, 3] .ph "quqd1_2333" "# cquqd1Ph2x3x3x3",
  .mk [3, 1, 1, 1] .ph "quqd1_3111" "# cquqd1Ph3x1x1x1", .mk [3, 1, 1, 2] .ph "quqd1_3112" "# cquqd1Ph3x1x1x2",
  .mk [3, 1, 1, 3] .ph "quqd1_3113" "# cquqd1Ph3x1x1x3", .mk [3, 1, 2, 1] .ph "quqd1_3121" "# cquqd1Ph3x1x2x1",
  .mk [3, 1, 2, 2] .ph "quqd1_3122" "# cquqd1Ph3x1x2x2", .mk [3, 1, 2, 3] .ph "quqd1_3123" "# cquqd1Ph3x1x2x3",
  .mk [3, 1, 3, 1] .ph "quqd1_3131" "# cquqd1Ph3x1x3x1", .mk [3, 1, 3, 2] .ph "quqd1_3132" "# cquqd1Ph3x1x3x2",
  .mk [3, 1, 3, 3] .ph "quqd1_3133" "# cquqd1Ph3x1x3x3", .mk [3, 2, 1, 1] .ph "quqd1_3211" "# cquqd1Ph3x2x1x1",
  .mk [3, 2, 1, 2] .ph "quqd1_3212" "# cquqd1Ph3x2x1x2", .mk [3, 2, 1, 3] .ph "quqd1_3213" "# cquqd1Ph3x2x1x3",
  .mk [3, 2, 2, 1] .ph "quqd1_3221" "# cquqd1Ph3x2x2x1", .mk [3, 2, 2, 2] .ph "quqd1_3222" "# cquqd1Ph3x2x2x2",
  .mk [3, 2, 2, 3] .ph "quqd1_3223" "# cquqd1Ph3x2x2x3", .mk [3, 2, 3, 1] .ph "quqd1_3231" "# cquqd1Ph3x2x3x1",
  .mk [3, 2, 3, 2] .ph "quqd1_3232" "# cquqd1Ph3x2x3x2", .mk [3, 2, 3, 3] .ph "quqd1_3233" "# cquqd1Ph3x2x3x3",
  .mk [3, 3, 1, 1] .ph "quqd1_3311" "# cquqd1Ph3x3x1x1", .mk [3, 3, 1, 2] .ph "quqd1_3312" "# cquqd1Ph3x3x1x2",
  .mk [3, 3, 1, 3] .ph "quqd1_3313" "# cquqd1Ph3x3x1x3", .mk [3, 3, 2, 1] .ph "quqd1_3321" "# cquqd1Ph3x3x2x1",
  .mk [3, 3, 2, 2] .ph "quqd1_3322" "# cquqd1Ph3x3x2x2", .mk [3, 3, 2, 3] .ph "quqd1_3323" "# cquqd1Ph3x3x2x3",
  .mk [3, 3, 3, 1] .ph "quqd1_3331" "# cquqd1Ph3x3x3x1", .mk [3, 3, 3, 2] .ph "quqd1_3332" "# cquqd1Ph3x3x3x2",
  .mk [3, 3, 3, 3] .ph "quqd1_3333" "# cquqd1Ph3x3x3x3"]

/-- smeftsim.py:4767-4847, block `FRBlock75` of set B. -/
noncomputable def rowsB_FRBlock75 : List CRow := [
  .mk [1, 1, 1, 1] .abs "quqd8_1111" "# cQUQD8Abs1x1x1x1", .mk [1, 1, 1, 2] .abs "quqd8_1112" "# cQUQD8Abs1x1x1x2",
  .mk [1, 1, 1, 3] .abs "quqd8_1113" "# cQUQD8Abs1x1x1x3", .mk [1, 1, 2, 1] .abs "quqd8_1121" "# cQUQD8Abs1x1x2x1",
  .mk [1, 1, 2, 2] .abs "quqd8_1122" "# cQUQD8Abs1x1x2x2", .mk [1, 1, 2, 3] .abs "quqd8_1123" "# cQUQD8Abs1x1x2x3",
  .mk [1, 1, 3, 1] .abs "quqd8_1131" "# cQUQD8Abs1x1x3x1", .mk [1, 1, 3, 2] .abs "quqd8_1132" "# cQUQD8Abs1x1x3x2",
  .mk [1, 1, 3, 3] .abs "quqd8_1133" "# cQUQD8Abs1x1x3x3", .mk [1, 2, 1, 1] .abs "quqd8_1211" "# cQUQD8Abs1x2x1x1",
  .mk [1, 2, 1, 2] .abs "quqd8_1212" "# cQUQD8Abs1x2x1x2", .mk [1, 2, 1, 3] .abs "quqd8_1213" "# cQUQD8Abs1x2x1x3",
  .mk [1, 2, 2, 1] .abs "quqd8_1221" "# cQUQD8Abs1x2x2x1", .mk [1, 2, 2, 2] .abs "quqd8_1222" "# cQUQD8Abs1x2x2x2",
  .mk [1, 2, 2, 3] .abs "quqd8_1223" "# cQUQD8Abs1x2x2x3", .mk [1, 2, 3, 1] .abs "quqd8_1231" "# cQUQD8Abs1x2x3x1",
  .mk [1, 2, 3, 2] .abs "quqd8_1232" "# cQUQD8Abs1x2x3x2", .mk [1, 2, 3, 3] .abs "quqd8_1233" "# cQUQD8Abs1x2x3x3",
  .mk [1, 3, 1, 1] .abs "quqd8_1311" "# cQUQD8Abs1x3x1x1", .mk [1, 3, 1, 2] .abs "quqd8_1312" "# cQUQD8Abs1x3x1x2",
  .mk [1, 3, 1, 3] .abs "quqd8_1313" "# cQUQD8Abs1x3x1x3", .mk [1, 3, 2, 1] .abs "quqd8_1321" "# cQUQD8Abs1x3x2x1",
  .mk [1, 3, 2, 2] .abs "quqd8_1322" "# cQUQD8Abs1x3x2x2", .mk [1, 3, 2, 3] .abs "quqd8_1323" "# cQUQD8Abs1x3x2x3",
  .mk [1, 3, 3, 1] .abs "quqd8_1331" "# cQUQD8Abs1x3x3x1", .mk [1, 3, 3, 2] .abs "quqd8_1332" "# cQUQD8Abs1x3x3x2",
  .mk [1, 3, 3, 3] .abs "quqd8_1333" "# cQUQD8Abs1x3x3x3", .mk [2, 1, 1, 1] .abs "quqd8_2111" "# cQUQD8Abs2x1x1x1",
  .mk [2, 1, 1, 2] .abs "quqd8_2112" "# cQUQD8Abs2x1x1x2", .mk [2, 1, 1, 3] .abs "quqd8_2113" "# cQUQD8Abs2x1x1x3",
  .mk [2, 1, 2, 1] .abs "quqd8_2121" "# cQUQD8Abs2x1x2x1", .mk [2, 1, 2, 2] .abs "quqd8_2122" "# cQUQD8Abs2x1x2x2",
  .mk [2, 1, 2, 3] .abs "quqd8_2123" "# cQUQD8Abs2x1x2x3", .mk [2, 1, 3, 1] .abs "quqd8_2131" "# cQUQD8Abs2x1x3x1",
  .mk [2, 1, 3, 2] .abs "quqd8_2132" "# cQUQD8Abs2x1x3x2", .mk [2, 1, 3, 3] .abs "quqd8_2133" "# cQUQD8Abs2x1x3x3",
  .mk [2, 2, 1, 1] .abs "quqd8_2211" "# cQUQD8Abs2x2x1x1", .mk [2, 2, 1, 2] .abs "quqd8_2212" "# cQUQD8Abs2x2x1x2",
  .mk [2, 2, 1, 3] .abs "quqd8_2213" "# cQUQD8Abs2x2x1x3", .mk [2, 2, 2, 1] .abs "quqd8_2221" "# cQUQD8Abs2x2x2x1",
  .mk [2, 2, 2, 2] .abs "quqd8_2222" "# cQUQD8Abs2x2x2x2", .mk [2, 2, 2, 3] .abs "quqd8_2223" "# cQUQD8Abs2x2x2x3",
  .mk [2, 2, 3, 1] .abs "quqd8_2231" "# cQUQD8Abs2x2x3x1", .mk [2, 2, 3, 2] .abs "quqd8_2232" "# cQUQD8Abs2x2x3x2",
  .mk [2, 2, 3, 3] .abs "quqd8_2233" "# cQUQD8Abs2x2x3x3", .mk [2, 3, 1, 1] .abs "quqd8_2311" "# cQUQD8Abs2x3x1x1",
  .mk [2, 3, 1, 2] .abs "quqd8_2312" "# cQUQD8Abs2x3x1x2", .mk [2, 3, 1, 3] .abs "quqd8_2313" "# cQUQD8Abs2x3x1x3",
  .mk [2, 3, 2, 1] .abs "quqd8_2321" "# cQUQD8Abs2x3x2x1", .mk [2, 3, 2, 2] .abs "quqd8_2322" "# cQUQD8Abs2x3x2x2",
  .mk [2, 3, 2, 3] .abs "quqd8_2323" "# cQUQD8Abs2x3x2x3", .mk [2, 3, 3, 1] .abs "quqd8_2331" "# cQUQD8Abs2x3x3x1",
  .mk [2, 3, 3, 2] .abs "quqd8_2332" "# cQUQD8Abs2x3x3x2", .mk [2, 3, 3, 3] .abs "quqd8_2333" "# cQUQD8Abs2x3x3x3",
  .mk [3, 1, 1, 1] .abs "quqd8_3111" "# cQUQD8Abs3x1x1x1", .mk [3, 1, 1, 2] .abs "quqd8_3112" "# cQUQD8Abs3x1x1x2",
  .mk [3, 1, 1, 3] .abs "quqd8_3113" "# cQUQD8Abs3x1x1x3", .mk [3, 1, 2, 1] .abs "quqd8_3121" "# cQUQD8Abs3x1x2x1",
  .mk [3, 1, 2, 2] .abs "quqd8_3122" "# cQUQD8Abs3x1x2x2", .mk [3, 1, 2, 3] .abs "quqd8_3123" "# cQUQD8Abs3x1x2x3",
  .mk [3, 1, 3, 1] .abs "quqd8_3131" "# cQUQD8Abs3x1x3x1", .mk [3, 1, 3, 2] .abs "quqd8_3132" "# cQUQD8Abs3x1x3x2",
  .mk [3, 1, 3, 3] .abs "quqd8_3133" "# cQUQD8Abs3x1x3x3", .mk [3, 2, 1, 1] .abs "quqd8_3211" "# cQUQD8Abs3x2x1x1",
  .mk [3, 2, 1, 2] .abs "quqd8_3212" "# cQUQD8Abs3x2x1x2", .mk [3, 2, 1, 3] .abs "quqd8_3213" "# cQUQD8Abs3x2x1x3",
  .mk [3, 2, 2, 1] .abs "quqd8_3221" "# cQUQD8Abs3x2x2x1", .mk [3, 2, 2, 2] .abs "quqd8_3222" "# cQUQD8Abs3x2x2x2",
  .mk [3, 2, 2, 3] .abs "quqd8_3223" "# cQUQD8Abs3x2x2x3", .mk [3, 2, 3, 1] .abs "quqd8_3231" "# cQUQD8Abs3x2x3x1",
  .mk [3, 2, 3, 2] .abs "quqd8_3232" "# cQUQD8Abs3x2x3x2", .mk [3, 2, 3, 3] .abs "quqd8_3233" "# cQUQD8Abs3x2x3x3",
  .mk [3, 3, 1, 1] .abs "quqd8_3311" "# cQUQD8Abs3x3x1x1", .mk [3, 3, 1, 2] .abs "quqd8_3312" "# cQUQD8Abs3x3x1x2",
  .mk [3, 3, 1, 3] .abs "quqd8_3313" "# cQUQD8Abs3x3x1x3", .mk [3, 3, 2, 1] .abs "quqd8_3321" "# cQUQD8Abs3x3x2x1",
  .mk [3, 3, 2, 2] .abs "quqd8_3322" "# cQUQD8Abs3x3x2x2", .mk [3, 3, 2, 3] .abs "quqd8_3323" "# cQUQD8Abs3x3x2x3",
  .mk [3, 3, 3, 1] .abs "quqd8_3331" "# cQUQD8Abs3x3x3x1", .mk [3, 3, 3, 2] .abs "quqd8_3332" "# cQUQD8Abs3x3x3x2",
  .mk [3, 3, 3, 3] .abs "quqd8_3333" "# cQUQD8Abs3x3x3x3"]

/-- smeftsim.py:4851-4931, block `FRBlock76` of set B. -/
noncomputable def rowsB_FRBlock76 : List CRow := [
  .mk [1, 1, 1, 1] .ph "quqd8_1111" "# cQUQD8Ph1x1x1x1", .mk [1, 1, 1, 2] .ph "quqd8_1112" "# cQUQD8Ph1x1x1x2",
  .mk [1, 1, 1, 3] .ph "quqd8_1113" "# cQUQD8Ph1x1x1x3", .mk [1, 1, 2, 1] .ph "quqd8_1121" "# cQUQD8Ph1x1x2x1",
  .mk [1, 1, 2, 2] .ph "quqd8_1122" "# cQUQD8Ph1x1x2x2", .mk [1, 1, 2, 3] .ph "quqd8_1123" "# cQUQD8Ph1x1x2x3",
  .mk [1, 1, 3, 1] .ph "quqd8_1131" "# cQUQD8Ph1x1x3x1", .mk [1, 1, 3, 2] .ph "quqd8_1132" "# cQUQD8Ph1x1x3x2",
  .mk [1, 1, 3, 3] .ph "quqd8_1133" "# cQUQD8Ph1x1x3x3", .mk [1, 2, 1, 1] .ph "quqd8_1211" "# cQUQD8Ph1x2x1x1",
  .mk [1, 2, 1, 2] .ph "quqd8_1212" "# cQUQD8Ph1x2x1x2", .mk [1, 2, 1, 3] .ph "quqd8_1213" "# cQUQD8Ph1x2x1x3",
  .mk [1, 2, 2, 1] .ph "quqd8_1221" "# cQUQD8Ph1x2x2x1", .mk [1, 2, 2, 2] .ph "quqd8_1222" "# cQUQD8Ph1x2x2x2",
  .mk [1, 2, 2, 3] .ph "quqd8_1223" "# cQUQD8Ph1x2x2x3", .mk [1, 2, 3, 1] .ph "quqd8_1231" "# cQUQD8Ph1x2x3x1",
  .mk [1, 2, 3, 2] .ph "quqd8_1232" "# cQUQD8Ph1x2x3x2", .mk [1, 2, 3, 3] .ph "quqd8_1233" "# cQUQD8Ph1x2x3x3",
  .mk [1, 3, 1, 1] .ph "quqd8_1311" "# cQUQD8Ph1x3x1x1", .mk [1, 3, 1, 2] .ph "quqd8_1312" "# cQUQD8Ph1x3x1x2",
  .mk [1, 3, 1, 3] .ph "quqd8_1313" "# cQUQD8Ph1x3x1x3", .mk [1, 3, 2, 1] .ph "quqd8_1321" "# cQUQD8Ph1x3x2x1",
  .mk [1, 3, 2, 2] .ph "quqd8_1322" "# cQUQD8Ph1x3x2x2", .mk [1, 3, 2, 3] .ph "quqd8_1323" "# cQUQD8Ph1x3x2x3",
  .mk [1, 3, 3, 1] .ph "quqd8_1331" "# cQUQD8Ph1x3x3x1", .mk [1, 3, 3, 2] .ph "quqd8_1332" "# cQUQD8Ph1x3x3x2",
  .mk [1, 3, 3, 3] .ph "quqd8_1333" "# cQUQD8Ph1x3x3x3", .mk [2, 1, 1, 1] .ph "quqd8_2111" "# cQUQD8Ph2x1x1x1",
  .mk [2, 1, 1, 2] .ph "quqd8_2112" "# cQUQD8Ph2x1x1x2", .mk [2, 1, 1, 3] .ph "quqd8_2113" "# cQUQD8Ph2x1x1x3",
  .mk [2, 1, 2, 1] .ph "quqd8_2121" "# cQUQD8Ph2x1x2x1", .mk [2, 1, 2, 2] .ph "quqd8_2122" "# cQUQD8Ph2x1x2x2",
  .mk [2, 1, 2, 3] .ph "quqd8_2123" "# cQUQD8Ph2x1x2x3", .mk [2, 1, 3, 1] .ph "quqd8_2131" "# cQUQD8Ph2x1x3x1",
  .mk [2, 1, 3, 2] .ph "quqd8_2132" "# cQUQD8Ph2x1x3x2", .mk [2, 1, 3, 3] .ph "quqd8_2133" "# cQUQD8Ph2x1x3x3",
  .mk [2, 2, 1, 1] .ph "quqd8_2211" "# cQUQD8Ph2x2x1x1", .mk [2, 2, 1, 2] .ph "quqd8_2212" "# cQUQD8Ph2x2x1x2",
  .mk [2, 2, 1, 3] .ph "quqd8_2213" "# cQUQD8Ph2x2x1x3", .mk [2, 2, 2, 1] .ph "quqd8_2221" "# cQUQD8Ph2x2x2x1",
  .mk [2, 2, 2, 2] .ph "quqd8_2222" "# cQUQD8Ph2x2x2x2", .mk [2, 2, 2, 3] .ph "quqd8_2223" "# cQUQD8Ph2x2x2x3",
  .mk [2, 2, 3, 1] .ph "quqd8_2231" "# cQUQD8Ph2x2x3x1", .mk [2, 2, 3, 2] .ph "quqd8_2232" "# cQUQD8Ph2x2x3x2",
  .mk [2, 2, 3, 3] .ph "quqd8_2233" "# cQUQD8Ph2x2x3x3", .mk [2, 3, 1, 1] .ph "quqd8_2311" "# cQUQD8Ph2x3x1x1",
  .mk [2, 3, 1, 2] .ph "quqd8_2312" "# cQUQD8Ph2x3x1x2", .mk [2, 3, 1, 3] .ph "quqd8_2313" "# cQUQD8Ph2x3x1x3",
  .mk [2, 3, 2, 1] .ph "quqd8_2321" "# cQUQD8Ph2x3x2x1", .mk [2, 3, 2, 2] .ph "quqd8_2322" "# cQUQD8Ph2x3x2x2",
  .mk [2, 3, 2, 3] .ph "quqd8_2323" "# cQUQD8Ph2x3x2x3", .mk [2, 3, 3, 1] .ph "quqd8_2331" "# cQUQD8Ph2x3x3x1",
  .mk [2, 3, 3, 2] .ph "quqd8_2332" "# cQUQD8Ph2x3x3x2", .mk [2, 3, 3, 3] .ph "quqd8_2333" "# cQUQD8Ph2x3x3x3",
  .mk [3, 1, 1, 1] .ph "quqd8_3111" "# cQUQD8Ph3x1x1x1", .mk [3, 1, 1, 2] .ph "quqd8_3112" "# cQUQD8Ph3x1x1x2",
  .mk [3, 1, 1, 3] .ph "quqd8_3113" "# cQUQD8Ph3x1x1x3", .mk [3, 1, 2, 1] .ph "quqd8_3121" "# cQUQD8Ph3x1x2x1",
  .mk [3, 1, 2, 2] .ph "quqd8_3122" "# cQUQD8Ph3x1x2x2", .mk [3, 1, 2, 3] .ph "quqd8_3123" "# cQUQD8Ph3x1x2x3",
  .mk [3, 1, 3, 1] .ph "quqd8_3131" "# cQUQD8Ph3x1x3x1", .mk [3, 1, 3, 2] .ph "quqd8_3132" "# cQUQD8Ph3x1x3x2",
  .mk [3, 1, 3, 3] .ph "quqd8_3133" "# cQUQD8Ph3x1x3x3", .mk [3, 2, 1, 1] .ph "quqd8_3211" "# cQUQD8Ph3x2x1x1",
  .mk [3, 2, 1, 2] .ph "quqd8_3212" "# cQUQD8Ph3x2x1x2", .mk [3, 2, 1, 3] .ph "quqd8_3213" "# cQUQD8Ph3x2x1x3",
  .mk [3, 2, 2, 1] .ph "quqd8_3221" "# cQUQD8Ph3x2x2x1", .mk [3, 2, 2, 2] .ph "quqd8_3222" "# cQUQD8Ph3x2x2x2",
  .mk [3, 2, 2, 3] .ph "quqd8_3223" "# cQUQD8Ph3x2x2x3", .mk [3, 2, 3, 1] .ph "quqd8_3231" "# cQUQD8Ph3x2x3x1",
  .mk [3, 2, 3, 2] .ph "quqd8_3232" "# cQUQD8Ph3x2x3x2", .mk [3, 2, 3, 3] .ph "quqd8_3233" "# cQUQD8Ph3x2x3x3",
  .mk [3, 3, 1, 1] .ph "quqd8_3311" "# cQUQD8Ph3x3x1x1", .mk [3, 3, 1, 2] .ph "quqd8_3312" "# cQUQD8Ph3x3x1x2",
  .mk [3, 3, 1, 3] .ph "quqd8_3313" "# cQUQD8Ph3x3x1x3", .mk [3, 3, 2, 1] .ph "quqd8_3321" "# cQUQD8Ph3x3x2x1",
  .mk [3, 3, 2, 2] .ph "quqd8_3322" "# cQUQD8Ph3x3x2x2", .mk [3, 3, 2, 3] .ph "quqd8_3323" "# cQUQD8Ph3x3x2x3",
  .mk [3, 3, 3, 1] .ph "quqd8_3331" "# cQUQD8Ph3x3x3x1", .mk [3, 3, 3, 2] .ph "quqd8_3332" "# cQUQD8Ph3x3x3x2",
  .mk [3, 3, 3, 3] .ph "quqd8_3333" "# cQUQD8Ph3x3x3x3"]

/-- smeftsim.py:4935-5015, block `FRBlock78` of set B. -/
noncomputable def rowsB_FRBlock78 : List CRow := [
  .mk [1, 1, 1, 1] .abs "lequ1_1111" "# clequ1Abs1x1x1x1", .mk [1, 1, 1, 2] .abs "lequ1_1112" "# clequ1Abs1x1x1x2",
  .mk [1, 1, 1, 3] .abs "lequ1_1113" "# clequ1Abs1x1x1x3", .mk [1, 1, 2, 1] .abs "lequ1_1121" "# clequ1Abs1x1x2x1",
  .mk [1, 1, 2, 2] .abs "lequ1_1122" "# clequ1Abs1x1x2x2", .mk [1, 1, 2, 3] .abs "lequ1_1123" "# clequ1Abs1x1x2x3",
  .mk [1, 1, 3, 1] .abs "lequ1_1131" "# clequ1Abs1x1x3x1", .mk [1, 1, 3, 2] .abs "lequ1_1132" "# clequ1Abs1x1x3x2",
  .mk [1, 1, 3, 3] .abs "lequ1_1133" "# clequ1Abs1x1x3x3", .mk [1, 2, 1, 1] .abs "lequ1_1211" "# clequ1Abs1x2x1x1",
  .mk [1, 2, 1, 2] .abs "lequ1_1212" "# clequ1Abs1x2x1x2", .mk [1, 2, 1, 3] .abs "lequ1_1213" "# clequ1Abs1x2x1x3",
  .mk [1, 2, 2, 1] .abs "lequ1_1221" "# clequ1Abs1x2x2x1", .mk [1, 2, 2, 2] .abs "lequ1_1222" "# clequ1Abs1x2x2x2",
  .mk [1, 2, 2, 3] .abs "lequ1_1223" "# clequ1Abs1x2x2x3", .mk [1, 2, 3, 1] .abs "lequ1_1231" "# clequ1Abs1x2x3x1",
  .mk [1, 2, 3, 2] .abs "lequ1_1232" "# clequ1Abs1x2x3x2", .mk [1, 2, 3, 3] .abs "lequ1_1233" "# clequ1Abs1x2x3x3",
  .mk [1, 3, 1, 1] .abs "lequ1_1311" "# clequ1Abs1x3x1x1", .mk [1, 3, 1, 2] .abs "lequ1_1312" "# clequ1Abs1x3x1x2",
  .mk [1, 3, 1, 3] .abs "lequ1_1313" "# clequ1Abs1x3x1x3", .mk [1, 3, 2, 1] .abs "lequ1_1321" "# clequ1Abs1x3x2x1",
  .mk [1, 3, 2, 2] .abs "lequ1_1322" "# clequ1Abs1x3x2x2", .mk [1, 3, 2, 3] .abs "lequ1_1323" "# clequ1Abs1x3x2x3",
  .mk [1, 3, 3, 1] .abs "lequ1_1331" "# clequ1Abs1x3x3x1", .mk [1, 3, 3, 2] .abs "lequ1_1332" "# clequ1Abs1x3x3x2",
  .mk [1, 3, 3, 3] .abs "lequ1_1333" "# clequ1Abs1x3x3x3", .mk [2, 1, 1, 1] .abs "lequ1_2111" "# clequ1Abs2x1x1x1",
  .mk [2, 1, 1, 2] .abs "lequ1_2112" "# clequ1Abs2x1x1x2", .mk [2, 1, 1, 3] .abs "lequ1_2113" "# clequ1Abs2x1x1x3",
  .mk [2, 1, 2, 1] .abs "lequ1_2121" "# clequ1Abs2x1x2x1", .mk [2, 1, 2, 2] .abs "lequ1_2122" "# clequ1Abs2x1x2x2",
  .mk [2, 1, 2, 3] .abs "lequ1_2123" "# clequ1Abs2x1x2x3", .mk [2, 1, 3, 1] .abs "lequ1_2131" "# clequ1Abs2x1x3x1",
  .mk [2, 1, 3, 2] .abs "lequ1_2132" "# clequ1Abs2x1x3x2", .mk [2, 1, 3, 3] .abs "lequ1_2133" "# clequ1Abs2x1x3x3",
  .mk [2, 2, 1, 1] .abs "lequ1_2211" "# clequ1Abs2x2x1x1", .mk [2, 2, 1, 2] .abs "lequ1_2212" "# clequ1Abs2x2x1x2",
  .mk [2, 2, 1, 3] .abs "lequ1_2213" "# clequ1Abs2x2x1x3", .mk [2, 2, 2, 1] .abs "lequ1_2221" "# clequ1Abs2x2x2x1",
  .mk [2, 2, 2, 2] .abs "lequ1_2222" "# clequ1Abs2x2x2x2", .mk [2, 2, 2, 3] .abs "lequ1_2223" "# clequ1Abs2x2x2x3",
  .mk [2, 2, 3, 1] .abs "lequ1_2231" "# clequ1Abs2x2x3x1", .mk [2, 2, 3, 2] .abs "lequ1_2232" "# clequ1Abs2x2x3x2",
  .mk [2, 2, 3, 3] .abs "lequ1_2233" "# clequ1Abs2x2x3x3", .mk [2, 3, 1, 1] .abs "lequ1_2311" "# clequ1Abs2x3x1x1",
  .mk [2, 3, 1, 2] .abs "lequ1_2312" "# clequ1Abs2x3x1x2", .mk [2, 3, 1, 3] .abs "lequ1_2313" "# clequ1Abs2x3x1x3",
  .mk [2, 3, 2, 1] .abs "lequ1_2321" "# clequ1Abs2x3x2x1", .mk [2, 3, 2, 2] .abs "lequ1_2322" "# clequ1Abs2x3x2x2",
  .mk [2, 3, 2, 3] .abs "lequ1_2323" "# clequ1Abs2x3x2x3", .mk [2, 3, 3, 1] .abs "lequ1_2331" "# clequ1Abs2x3x3x1",
  .mk [2, 3, 3, 2] .abs "lequ1_2332" "# clequ1Abs2x3x3x2", .mk [2, 3, 3, 3] .abs "lequ1_2333" "# clequ1Abs2x3x3x3",
  .mk [3, 1, 1, 1] .abs "lequ1_3111" "# clequ1Abs3x1x1x1", .mk [3, 1, 1, 2] .abs "lequ1_3112" "# clequ1Abs3x1x1x2",
  .mk [3, 1, 1, 3] .abs "lequ1_3113" "# clequ1Abs3x1x1x3", .mk [3, 1, 2, 1] .abs "lequ1_3121" "# clequ1Abs3x1x2x1",
  .mk [3, 1, 2, 2] .abs "lequ1_3122" "# clequ1Abs3x1x2x2", .mk [3, 1, 2, 3] .abs "lequ1_3123" "# clequ1Abs3x1x2x3",
  .mk [3, 1, 3, 1] .abs "lequ1_3131" "# clequ1Abs3x1x3x1", .mk [3, 1, 3, 2] .abs "lequ1_3132" "# clequ1Abs3x1x3x2",
  .mk [3, 1, 3, 3] .abs "lequ1_3133" "# clequ1Abs3x1x3x3", .mk [3, 2, 1, 1] .abs "lequ1_3211" "# clequ1Abs3x2x1x1",
  .mk [3, 2, 1, 2] .abs "lequ1_3212" "# clequ1Abs3x2x1x2", .mk [3, 2, 1, 3] .abs "lequ1_3213" "# clequ1Abs3x2x1x3",
  .mk [3, 2, 2, 1] .abs "lequ1_3221" "# clequ1Abs3x2x2x1", .mk [3, 2, 2, 2] .abs "lequ1_3222" "# clequ1Abs3x2x2x2",
  .mk [3, 2, 2, 3] .abs "lequ1_3223" "# clequ1Abs3x2x2x3", .mk [3, 2, 3, 1] .abs "lequ1_3231" "# clequ1Abs3x2x3x1",
  .mk [3, 2, 3, 2] .abs "lequ1_3232" "# clequ1Abs3x2x3x2", .mk [3, 2, 3, 3] .abs "lequ1_3233" "# clequ1Abs3x2x3x3",
  .mk [3, 3, 1, 1] .abs "lequ1_3311" "# clequ1Abs3x3x1x1", .mk [3, 3, 1, 2] .abs "lequ1_3312" "# clequ1Abs3x3x1x2",
  .mk [3, 3, 1, 3] .abs "lequ1_3313" "# clequ1Abs3x3x1x3", .mk [3, 3, 2, 1] .abs "lequ1_3321" "# clequ1Abs3x3x2x1",
  .mk [3, 3, 2, 2] .abs "lequ1_3322" "# clequ1Abs3x3x2x2", .mk [3, 3, 2, 3] .abs "lequ1_3323" "# clequ1Abs3x3x2x3",
  .mk [3, 3, 3, 1] .abs "lequ1_3331" "# clequ1Abs3x3x3x1", .mk [3, 3, 3, 2] .abs "lequ1_3332" "# clequ1Abs3x3x3x2",
  .mk [3, 3, 3, 3] .abs "lequ1_3333" "# clequ1Abs3x3x3x3"]

/-- smeftsim.py:5019-5099, block `FRBlock79` of set B. -/
noncomputable def rowsB_FRBlock79 : List CRow := [
  .mk [1, 1, 1, 1] .ph "lequ1_1111" "# clequ1Ph1x1x1x1", .mk [1, 1, 1, 2] .ph "lequ1_1112" "# clequ1Ph1x1x1x2",
  .mk [1, 1, 1, 3] .ph "lequ1_1113" "# clequ1Ph1x1x1x3", .mk [1, 1, 2, 1] .ph "lequ1_1121" "# clequ1Ph1x1x2x1",
  .mk [1, 1, 2, 2] .ph "lequ1_1122" "# clequ1Ph1x1x2x2", .mk [1, 1, 2, 3] .ph "lequ1_1123" "# clequ1Ph1x1x2x3",
  .mk [1, 1, 3, 1] .ph "lequ1_1131" "# clequ1Ph1x1x3x1", .mk [1, 1, 3, 2] .ph "lequ1_1132" "# clequ1Ph1x1x3x2",
  .mk [1, 1, 3, 3] .ph "lequ1_1133" "# clequ1Ph1x1x3x3", .mk [1, 2, 1, 1] .ph "lequ1_1211" "# clequ1Ph1x2x1x1",
  .mk [1, 2, 1, 2] .ph "lequ1_1212" "# clequ1Ph1x2x1x2", .mk [1, 2, 1, 3] .ph "lequ1_1213" "# clequ1Ph1x2x1x3",
  .mk [1, 2, 2, 1] .ph "lequ1_1221" "# clequ1Ph1x2x2x1", .mk [1, 2, 2, 2] .ph "lequ1_1222" "# clequ1Ph1x2x2x2",
  .mk [1, 2, 2, 3] .ph "lequ1_1223" "# clequ1Ph1x2x2x3", .mk [1, 2, 3, 1] .ph "lequ1_1231" "# clequ1Ph1x2x3x1",
  .mk [1, 2, 3, 2] .ph "lequ1_1232" "# clequ1Ph1x2x3x2", .mk [1, 2, 3, 3] .ph "lequ1_1233" "# clequ1Ph1x2x3x3",
  .mk [1, 3, 1, 1] .ph "lequ1_1311" "# clequ1Ph1x3x1x1", .mk [1, 3, 1, 2] .ph "lequ1_1312" "# clequ1Ph1x3x1x2",
  .mk [1, 3, 1, 3] .ph "lequ1_1313" "# clequ1Ph1x3x1x3", .mk [1, 3, 2, 1] .ph "lequ1_1321" "# clequ1Ph1x3x2x1",
  .mk [1, 3, 2, 2] .ph "lequ1_1322" "# clequ1Ph1x3x2x2", .mk [1, 3, 2, 3] .ph "lequ1_1323" "# clequ1Ph1x3x2x3",
  .mk [1, 3, 3, 1] .ph "lequ1_1331" "# clequ1Ph1x3x3x1", .mk [1, 3, 3, 2] .ph "lequ1_1332" "# clequ1Ph1x3x3x2",
  .mk [1, 3, 3, 3] .ph "lequ1_1333" "# clequ1Ph1x3x3x3", .mk [2, 1, 1, 1] .ph "lequ1_2111" "# clequ1Ph2x1x1x1",
  .mk [2, 1, 1, 2] .ph "lequ1_2112" "# clequ1Ph2x1x1x2", .mk [2, 1, 1, 3] .ph "lequ1_2113" "# clequ1Ph2x1x1x3",
  .mk [2, 1, 2, 1] .ph "lequ1_2121" "# clequ1Ph2x1x2x1", .mk [2, 1, 2, 2] .ph "lequ1_2122" "# clequ1Ph2x1x2x2",
  .mk [2, 1, 2, 3] .ph "lequ1_2123" "# clequ1Ph2x1x2x3", .mk [2, 1, 3, 1] .ph "lequ1_2131" "# clequ1Ph2x1x3x1",
  .mk [2, 1, 3, 2] .ph "lequ1_2132" "# clequ1Ph2x1x3x2", .mk [2, 1, 3, 3] .ph "lequ1_2133" "# clequ1Ph2x1x3x3",
  .mk [2, 2, 1, 1] .ph "lequ1_2211" "# clequ1Ph2x2x1x1", .mk [2, 2, 1, 2] .ph "lequ1_2212" "# clequ1Ph2x2x1x2",
  .mk [2, 2, 1, 3] .ph "lequ1_2213" "# clequ1Ph2x2x1x3", .mk [2, 2, 2, 1] .ph "lequ1_2221" "# clequ1Ph2x2x2x1",
  .mk [2, 2, 2, 2] .ph "lequ1_2222" "# clequ1Ph2x2x2x2", .mk [2, 2, 2, 3] .ph "lequ1_2223" "# clequ1Ph2x2x2x3",
  .mk [2, 2, 3, 1] .ph "lequ1_2231" "# clequ1Ph2x2x3x1", .mk [2, 2, 3, 2] .ph "lequ1_2232" "# clequ1Ph2x2x3x2",
  .mk [2, 2, 3, 3] .ph "lequ1_2233" "# clequ1Ph2x2x3x3", .mk [2, 3, 1, 1] .ph "lequ1_2311" "# clequ1Ph2x3x1x1",
  .mk [2, 3, 1, 2] .ph "lequ1_2312" "# clequ1Ph2x3x1x2", .mk [2, 3, 1, 3] .ph "lequ1_2313" "# clequ1Ph2x3x1x3",
  .mk [2, 3, 2, 1] .ph "lequ1_2321" "# clequ1Ph2x3x2x1", .mk [2, 3, 2, 2] .ph "lequ1_2322" "# clequ1Ph2x3x2x2",
  .mk [2, 3, 2, 3] .ph "lequ1_2323" "# clequ1Ph2x3x2x3", .mk [2, 3, 3, 1] .ph "lequ1_2331" "# clequ1Ph2x3x3x1",
  .mk [2, 3, 3, 2] .ph "lequ1_2332" "# clequ1Ph2x3x3x2", .mk [2, 3, 3, 3] .ph "lequ1_2333" "# clequ1Ph2x3x3x3",
  .mk [3, 1, 1, 1] .ph "lequ1_3111" "# clequ1Ph3x1x1x1", .mk [3, 1, 1, 2] .ph "lequ1_3112" "# clequ1Ph3x1x1x2",
  .mk [3, 1, 1, 3] .ph "lequ1_3113" "# clequ1Ph3x1x1x3", .mk [3, 1, 2, 1] .ph "lequ1_3121" "# clequ1Ph3x1x2x1",
  .mk [3, 1, 2, 2] .ph "lequ1_3122" "# clequ1Ph3x1x2x2", .mk [3, 1, 2, 3] .ph "lequ1_3123" "# clequ1Ph3x1x2x3",
  .mk [3, 1, 3, 1] .ph "lequ1_3131" "# clequ1Ph3x1x3x1", .mk [3, 1, 3, 2] .ph "lequ1_3132" "# clequ1Ph3x1x3x2",
  .mk [3, 1, 3, 3] .ph "lequ1_3133" "# clequ1Ph3x1x3x3", .mk [3, 2, 1, 1] .ph "lequ1_3211" "# clequ1Ph3x2x1x1",
  .mk [3, 2, 1, 2] .ph "lequ1_3212" "# clequ1Ph3x2x1x2", .mk [3, 2, 1, 3] .ph "lequ1_3213" "# clequ1Ph3x2x1x3",
  .mk [3, 2, 2, 1] .ph "lequ1_3221" "# clequ1Ph3x2x2x1", .mk [3, 2, 2, 2] .ph "lequ1_3222" "# clequ1Ph3x2x2x2",
  .mk [3, 2, 2, 3] .ph "lequ1_3223" "# clequ1Ph3x2x2x3", .mk [3, 2, 3, 1] .ph "lequ1_3231" "# clequ1Ph3x2x3x1",
  .mk [3, 2, 3, 2] .ph "lequ1_3232" "# clequ1Ph3x2x3x2", .mk [3, 2, 3, 3] .ph "lequ1_3233" "# clequ1Ph3x2x3x3",
  .mk [3, 3, 1, 1] .ph "lequ1_3311" "# clequ1Ph3x3x1x1", .mk [3, 3, 1, 2] .ph "lequ1_3312" "# clequ1Ph3x3x1x2",
  .mk [3, 3, 1, 3] .ph "lequ1_3313" "# clequ1Ph3x3x1x3", .mk [3, 3, 2, 1] .ph "lequ1_3321" "# clequ1Ph3x3x2x1",
  .mk [3, 3, 2, 2] .ph "lequ1_3322" "# clequ1Ph3x3x2x2", .mk [3, 3, 2, 3] .ph "lequ1_3323" "# clequ1Ph3x3x2x3",
  .mk [3, 3, 3, 1] .ph "lequ1_3331" "# clequ1Ph3x3x3x1", .mk [3, 3, 3, 2] .ph "lequ1_3332" "# clequ1Ph3x3x3x2",
  .mk [3, 3, 3, 3] .ph "lequ1_3333" "# clequ1Ph3x3x3x3"]

/-- smeftsim.py:5103-5111, block `FRBlock8` of set B. -/
noncomputable def rowsB_FRBlock8 : List CRow := [
  .mk [1, 1] .abs "dphi_11" "# cdHAbs1x1", .mk [1, 2] .abs "dphi_12" "# cdHAbs1x2",
  .mk [1, 3] .abs "dphi_13" "# cdHAbs1x3", .mk [2, 1] .abs "dphi_21" "# cdHAbs2x1",
  .mk [2, 2] .abs "dphi_22" "# cdHAbs2x2", .mk [2, 3] .abs "dphi_23" "# cdHAbs2x3",
  .mk [3, 1] .abs "dphi_31" "# cdHAbs3x1", .mk [3, 2] .abs "dphi_32" "# cdHAbs3x2",
  .mk [3, 3] .abs "dphi_33" "# cdHAbs3x3"]

/-- smeftsim.py:5115-5195, block `FRBlock81` of set B. -/
noncomputable def rowsB_FRBlock81 : List CRow := [
  .mk [1, 1, 1, 1] .abs "lequ3_1111" "# cLeQu3Abs1x1x1x1", .mk [1, 1, 1, 2] .abs "lequ3_1112" "# cLeQu3Abs1x1x1x2",
  .mk [1, 1, 1, 3] .abs "lequ3_1113" "# cLeQu3Abs1x1x1x3", .mk [1, 1, 2, 1] .abs "lequ3_1121" "# cLeQu3Abs1x1x2x1",
  .mk [1, 1, 2, 2] .abs "lequ3_1122" "# cLeQu3Abs1x1x2x2", .mk [1, 1, 2, 3] .abs "lequ3_1123" "# cLeQu3Abs1x1x2x3",
  .mk [1, 1, 3, 1] .abs "lequ3_1131" "# cLeQu3Abs1x1x3x1", .mk [1, 1, 3, 2] .abs "lequ3_1132" "# cLeQu3Abs1x1x3x2",
  .mk [1, 1, 3, 3] .abs "lequ3_1133" "# cLeQu3Abs1x1x3x3", .mk [1, 2, 1, 1] .abs "lequ3_1211" "# cLeQu3Abs1x2x1x1",
  .mk [1, 2, 1, 2] .abs "lequ3_1212" "# cLeQu3Abs1x2x1x2", .mk [1, 2, 1, 3] .abs "lequ3_1213" "# cLeQu3Abs1x2x1x3",
  .mk [1, 2, 2, 1] .abs "lequ3_1221" "# cLeQu3Abs1x2x2x1", .mk [1, 2, 2, 2] .abs "lequ3_1222" "# cLeQu3Abs1x2x2x2",
  .mk [1, 2, 2, 3] .abs "lequ3_1223" "# cLeQu3Abs1x2x2x3", .mk [1, 2, 3, 1] .abs "lequ3_1231" "# cLeQu3Abs1x2x3x1",
  .mk [1, 2, 3, 2] .abs "lequ3_1232" "# cLeQu3Abs1x2x3x2", .mk [1, 2, 3, 3] .abs "lequ3_1233" "# cLeQu3Abs1x2x3x3",
  .mk [1, 3, 1, 1] .abs "lequ3_1311" "# cLeQu3Abs1x3x1x1", .mk [1, 3, 1, 2] .abs "lequ3_1312" "# cLeQu3Abs1x3x1x2",
  .mk [1, 3, 1, 3] .abs "lequ3_1313" "# cLeQu3Abs1x3x1x3", .mk [1, 3, 2, 1] .abs "lequ3_1321" "# cLeQu3Abs1x3x2x1",
  .mk [1, 3, 2, 2] .abs "lequ3_1322" "# cLeQu3Abs1x3x2x2", .mk [1, 3, 2, 3] .abs "lequ3_1323" "# cLeQu3Abs1x3x2x3",
  .mk [1, 3, 3, 1] .abs "lequ3_1331" "# cLeQu3Abs1x3x3x1", .mk [1, 3, 3, 2] .abs "lequ3_1332" "# cLeQu3Abs1x3x3x2",
  .mk [1, 3, 3, 3] .abs "lequ3_1333" "# cLeQu3Abs1x3x3x3", .mk [2, 1, 1, 1] .abs "lequ3_2111" "# cLeQu3Abs2x1x1x1",
  .mk [2, 1, 1, 2] .abs "lequ3_2112" "# cLeQu3Abs2x1x1x2", .mk [2, 1, 1, 3] .abs "lequ3_2113" "# cLeQu3Abs2x1x1x3",
  .mk [2, 1, 2, 1] .abs "lequ3_2121" "# cLeQu3Abs2x1x2x1", .mk [2, 1, 2, 2] .abs "lequ3_2122" "# cLeQu3Abs2x1x2x2",
  .mk [2, 1, 2, 3] .abs "lequ3_2123" "# cLeQu3Abs2x1x2x3", .mk [2, 1, 3, 1] .abs "lequ3_2131" "# cLeQu3Abs2x1x3x1",
  .mk [2, 1, 3, 2] .abs "lequ3_2132" "# cLeQu3Abs2x1x3x2", .mk [2, 1, 3, 3] .abs "lequ3_2133" "# cLeQu3Abs2x1x3x3",
  .mk [2, 2, 1, 1] .abs "lequ3_2211" "# cLeQu3Abs2x2x1x1", .mk [2, 2, 1, 2] .abs "lequ3_2212" "# cLeQu3Abs2x2x1x2",
  .mk [2, 2, 1, 3] .abs "lequ3_2213" "# cLeQu3Abs2x2x1x3", .mk [2, 2, 2, 1] .abs "lequ3_2221" "# cLeQu3Abs2x2x2x1",
  .mk [2, 2, 2, 2] .abs "lequ3_2222" "# cLeQu3Abs2x2x2x2", .mk [2, 2, 2, 3] .abs "lequ3_2223" "# cLeQu3Abs2x2x2x3",
  .mk [2, 2, 3, 1] .abs "lequ3_2231" "# cLeQu3Abs2x2x3x1", .mk [2, 2, 3, 2] .abs "lequ3_2232" "# cLeQu3Abs2x2x3x2",
  .mk [2, 2, 3, 3] .abs "lequ3_2233" "# cLeQu3Abs2x2x3x3", .mk [2, 3, 1, 1] .abs "lequ3_2311" "# cLeQu3Abs2x3x1x1",
  .mk [2, 3, 1, 2] .abs "lequ3_2312" "# cLeQu3Abs2x3x1x2", .mk [2, 3, 1, 3] .abs "lequ3_2313" "# cLeQu3Abs2x3x1x3",
  .mk [2, 3, 2, 1] .abs "lequ3_2321" "# cLeQu3Abs2x3x2x1", .mk [2, 3, 2, 2] .abs "lequ3_2322" "# cLeQu3Abs2x3x2x2",
  .mk [2, 3, 2, 3] .abs "lequ3_2323" "# cLeQu3Abs2x3x2x3", .mk [2, 3, 3, 1] .abs "lequ3_2331" "# cLeQu3Abs2x3x3x1",
  .mk [2, 3, 3, 2] .abs "lequ3_2332" "# cLeQu3Abs2x3x3x2", .mk [2, 3, 3, 3] .abs "lequ3_2333" "# cLeQu3Abs2x3x3x3",
  .mk [3, 1, 1, 1] .abs "lequ3_3111" "# cLeQu3Abs3x1x1x1", .mk [3, 1, 1, 2] .abs "lequ3_3112" "# cLeQu3Abs3x1x1x2",
  .mk [3, 1, 1, 3] .abs "lequ3_3113" "# cLeQu3Abs3x1x1x3", .mk [3, 1, 2, 1] .abs "lequ3_3121" "# cLeQu3Abs3x1x2x1",
  .mk [3, 1, 2, 2] .abs "lequ3_3122" "# cLeQu3Abs3x1x2x2", .mk [3, 1, 2, 3] .abs "lequ3_3123" "# cLeQu3Abs3x1x2x3",
  .mk [3, 1, 3, 1] .abs "lequ3_3131" "# cLeQu3Abs3x1x3x1", .mk [3, 1, 3, 2] .abs "lequ3_3132" "# cLeQu3Abs3x1x3x2",
  .mk [3, 1, 3, 3] .abs "lequ3_3133" "# cLeQu3Abs3x1x3x3", .mk [3, 2, 1, 1] .abs "lequ3_3211" "# cLeQu3Abs3x2x1x1",
  .mk [3, 2, 1, 2] .abs "lequ3_3212" "# cLeQu3Abs3x2x1x2", .mk [3, 2, 1, 3] .abs "lequ3_3213" "# cLeQu3Abs3x2x1x3",
  .mk [3, 2, 2, 1] .abs "lequ3_3221" "# cLeQu3Abs3x2x2x1", .mk [3, 2, 2, 2] .abs "lequ3_3222" "# cLeQu3Abs3x2x2x2",
  .mk [3, 2, 2, 3] .abs "lequ3_3223" "# cLeQu3Abs3x2x2x3", .mk [3, 2, 3, 1] .abs "lequ3_3231" "# cLeQu3Abs3x2x3x1",
  .mk [3, 2, 3, 2] .abs "lequ3_3232" "# cLeQu3Abs3x2x3x2", .mk [3, 2, 3, 3] .abs "lequ3_3233" "# cLeQu3Abs3x2x3x3",
  .mk [3, 3, 1, 1] .abs "lequ3_3311" "# cLeQu3Abs3x3x1x1", .mk [3, 3, 1, 2] .abs "lequ3_3312" "# cLeQu3Abs3x3x1x2",
  .mk [3, 3, 1, 3] .abs "lequ3_3313" "# cLeQu3Abs3x3x1x3", .mk [3, 3, 2, 1] .abs "lequ3_3321" "# cLeQu3Abs3x3x2x1",
  .mk [3, 3, 2, 2] .abs "lequ3_3322" "# cLeQu3Abs3x3x2x2", .mk [3, 3, 2, 3] .abs "lequ3_3323" "# cLeQu3Abs3x3x2x3",
  .mk [3, 3, 3, 1] .abs "lequ3_3331" "# cLeQu3Abs3x3x3x1", .mk [3, 3, 3, 2] .abs "lequ3_3332" "# cLeQu3Abs3x3x3x2",
  .mk [3, 3, 3, 3] .abs "lequ3_3333" "# cLeQu3Abs3x3x3x3"]

/-- smeftsim.py:5199-5279, block `FRBlock82` of set B. -/
noncomputable def rowsB_FRBlock82 : List CRow := [
  .mk [1, 1, 1, 1] .ph "lequ3_1111" "# cLeQu3Ph1x1x1x1", .mk [1, 1, 1, 2] .ph "lequ3_1112" "# cLeQu3Ph1x1x1x2",
  .mk [1, 1, 1, 3] .ph "lequ3_1113" "# cLeQu3Ph1x1x1x3", .mk [1, 1, 2, 1] .ph "lequ3_1121" "# cLeQu3Ph1x1x2x1",
  .mk [1, 1, 2, 2] .ph "lequ3_1122" "# cLeQu3Ph1x1x2x2", .mk [1, 1, 2, 3] .ph "lequ3_1123" "# cLeQu3Ph1x1x2x3",
  .mk [1, 1, 3, 1] .ph "lequ3_1131" "# cLeQu3Ph1x1x3x1", .mk [1, 1, 3, 2] .ph "lequ3_1132" "# cLeQu3Ph1x1x3x2",
  .mk [1, 1, 3, 3] .ph "lequ3_1133" "# cLeQu3Ph1x1x3x3", .mk [1, 2, 1, 1] .ph "lequ3_1211" "# cLeQu3Ph1x2x1x1",
  .mk [1, 2, 1, 2] .ph "lequ3_1212" "# cLeQu3Ph1x2x1x2", .mk [1, 2, 1, 3] .ph "lequ3_1213" "# cLeQu3Ph1x2x1x3",
  .mk [1, 2, 2, 1] .ph "lequ3_1221" "# cLeQu3Ph1x2x2x1", .mk [1, 2, 2, 2] .ph "lequ3_1222" "# cLeQu3Ph1x2x2x2",
  .mk [1, 2, 2, 3] .ph "lequ3_1223" "# cLeQu3Ph1x2x2x3", .mk [1, 2, 3, 1] .ph "lequ3_1231" "# cLeQu3Ph1x2x3x1",
  .mk [1, 2, 3, 2] .ph "lequ3_1232" "# cLeQu3Ph1x2x3x2", .mk [1, 2, 3, 3] .ph "lequ3_1233" "# cLeQu3Ph1x2x3x3",
  .mk [1, 3, 1, 1] .ph "lequ3_1311" "# cLeQu3Ph1x3x1x1", .mk [1, 3, 1, 2] .ph "lequ3_1312" "# cLeQu3Ph1x3x1x2",
  .mk [1, 3, 1, 3] .ph "lequ3_1313" "# cLeQu3Ph1x3x1x3", .mk [1, 3, 2, 1] .ph "lequ3_1321" "# cLeQu3Ph1x3x2x1",
  .mk [1, 3, 2, 2] .ph "lequ3_1322" "# cLeQu3Ph1x3x2x2", .mk [1, 3, 2, 3] .ph "lequ3_1323" "# cLeQu3Ph1x3x2x3",
  .mk [1, 3, 3, 1] .ph "lequ3_1331" "# cLeQu3Ph1x3x3x1", .mk [1, 3, 3, 2] .ph "lequ3_1332" "# cLeQu3Ph1x3x3x2",
  .mk [1, 3, 3, 3] .ph "lequ3_1333" "# cLeQu3Ph1x3x3x3", .mk [2, 1, 1, 1] .ph "lequ3_2111" "# cLeQu3Ph2x1x1x1",
  .mk [2, 1, 1, 2] .ph "lequ3_2112" "# cLeQu3Ph2x1x1x2", .mk [2, 1, 1, 3] .ph "lequ3_2113" "# cLeQu3Ph2x1x1x3",
  .mk [2, 1, 2, 1] .ph "lequ3_2121" "# cLeQu3Ph2x1x2x1", .mk [2, 1, 2, 2] .ph "lequ3_2122" "# cLeQu3Ph2x1x2x2",
  .mk [2, 1, 2, 3] .ph "lequ3_2123" "# cLeQu3Ph2x1x2x3", .mk [2, 1, 3, 1] .ph "lequ3_2131" "# cLeQu3Ph2x1x3x1",
  .mk [2, 1, 3, 2] .ph "lequ3_2132" "# cLeQu3Ph2x1x3x2", .mk [2, 1, 3, 3] .ph "lequ3_2133" "# cLeQu3Ph2x1x3x3",
  .mk [2, 2, 1, 1] .ph "lequ3_2211" "# cLeQu3Ph2x2x1x1", .mk [2, 2, 1, 2] .ph "lequ3_2212" "# cLeQu3Ph2x2x1x2",
  .mk [2, 2, 1, 3] .ph "lequ3_2213" "# cLeQu3Ph2x2x1x3", .mk [2, 2, 2, 1] .ph "lequ3_2221" "# cLeQu3Ph2x2x2x1",
  .mk [2, 2, 2, 2] .ph "lequ3_2222" "# cLeQu3Ph2x2x2x2", .mk [2, 2, 2, 3] .ph "lequ3_2223" "# cLeQu3Ph2x2x2x3",
  .mk [2, 2, 3, 1] .ph "lequ3_2231" "# cLeQu3Ph2x2x3x1", .mk [2, 2, 3, 2] .ph "lequ3_2232" "# cLeQu3Ph2x2x3x2",
  .mk [2, 2, 3, 3] .ph "lequ3_2233" "# cLeQu3Ph2x2x3x3", .mk [2, 3, 1, 1] .ph "lequ3_2311" "# cLeQu3Ph2x3x1x1",
  .mk [2, 3, 1, 2] .ph "lequ3_2312" "# cLeQu3Ph2x3x1x2", .mk [2, 3, 1, 3] .ph "lequ3_2313" "# cLeQu3Ph2x3x1x3",
  .mk [2, 3, 2, 1] .ph "lequ3_2321" "# cLeQu3Ph2x3x2x1", .mk [2, 3, 2, 2] .ph "lequ3_2322" "# cLeQu3Ph2x3x2x2",
  .mk [2, 3, 2, 3] .ph "lequ3_2323" "# cLeQu3Ph2x3x2x3", .mk [2, 3, 3, 1] .ph "lequ3_2331" "# cLeQu3Ph2x3x3x1",
  .mk [2, 3, 3, 2] .ph "lequ3_2332" "# cLeQu3Ph2x3x3x2", .mk [2, 3, 3, 3] .ph "lequ3_2333" "# cLeQu3Ph2x3x3x3",
  .mk [3, 1, 1, 1] .ph "lequ3_3111" "# cLeQu3Ph3x1x1x1", .mk [3, 1, 1, 2] .ph "lequ3_3112" "# cLeQu3Ph3x1x1x2",
  .mk [3, 1, 1, 3] .ph "lequ3_3113" "# cLeQu3Ph3x1x1x3", .mk [3, 1, 2, 1] .ph "lequ3_3121" "# cLeQu3Ph3x1x2x1",
  .mk [3, 1, 2, 2] .ph "lequ3_3122" "# cLeQu3Ph3x1x2x2", .mk [3, 1, 2, 3] .ph "lequ3_3123" "# cLeQu3Ph3x1x2x3",
  .mk [3, 1, 3, 1] .ph "lequ3_3131" "# cLeQu3Ph3x1x3x1", .mk [3, 1, 3, 2] .ph "lequ3_3132" "# cLeQu3Ph3x1x3x2",
  .mk [3, 1, 3, 3] .ph "lequ3_3133" "# cLeQu3Ph3x1x3x3", .mk [3, 2, 1, 1] .ph "lequ3_3211" "# cLeQu3Ph3x2x1x1",
  .mk [3, 2, 1, 2] .ph "lequ3_3212" "# cLeQu3Ph3x2x1x2", .mk [3, 2, 1, 3] .ph "lequ3_3213" "# cLeQu3Ph3x2x1x3",
  .mk [3, 2, 2, 1] .ph "lequ3_3221" "# cLeQu3Ph3x2x2x1", .mk [3, 2, 2, 2] .ph "lequ3_3222" "# cLeQu3Ph3x2x2x2",
  .mk [3, 2, 2, 3] .ph "lequ3_3223" "# cLeQu3Ph3x2x2x3", .mk [3, 2, 3, 1] .ph "lequ3_3231" "# cLeQu3Ph3x2x3x1",
  .mk [3, 2, 3, 2] .ph "lequ3_3232" "# cLeQu3Ph3x2x3x2", .mk [3, 2, 3, 3] .ph "lequ3_3233" "# cLeQu3Ph3x2x3x3",
  .mk [3, 3, 1, 1] .ph "lequ3_3311" "# cLeQu3Ph3x3x1x1", .mk [3, 3, 1, 2] .ph "lequ3_3312" "# cLeQu3Ph3x3x1x2",
  .mk [3, 3, 1, 3] .ph "lequ3_3313" "# cLeQu3Ph3x3x1x3", .mk [3, 3, 2, 1] .ph "lequ3_3321" "# cLeQu3Ph3x3x2x1",
  .mk [3, 3, 2, 2] .ph "lequ3_3322" "# cLeQu3Ph3x3x2x2", .mk [3, 3, 2, 3] .ph "lequ3_3323" "# cLeQu3Ph3x3x2x3",
  .mk [3, 3, 3, 1] .ph "lequ3_3331" "# cLeQu3Ph3x3x3x1", .mk [3, 3, 3, 2] .ph "lequ3_3332" "# cLeQu3Ph3x3x3x2",
  .mk [3, 3, 3, 3] .ph "lequ3_3333" "# cLeQu3Ph3x3x3x3"]

/-- smeftsim.py:5283-5291, block `FRBlock9` of set B. -/
noncomputable def rowsB_FRBlock9 : List CRow := [
  .mk [1, 1] .ph "ephi_11" "# ceHPh1x1", .mk [1, 2] .ph "ephi_12" "# ceHPh1x2",
  .mk [1, 3] .ph "ephi_13" "# ceHPh1x3", .mk [2, 1] .ph "ephi_21" "# ceHPh2x1",
  .mk [2, 2] .ph "ephi_22" "# ceHPh2x2", .mk [2, 3] .ph "ephi_23" "# ceHPh2x3",
  .mk [3, 1] .ph "ephi_31" "# ceHPh3x1", .mk [3, 2] .ph "ephi_32" "# ceHPh3x2", .mk [3, 3] .ph "ephi_33" "# ceHPh3x3"]

/-- smeftsim.py:5295-5310, block `NEWCOUP` of set B. -/
noncomputable def rowsB_NEWCOUP : List CRow := [
  .mk [0] .lam "" "# Lambda", .mk [1] .val "phiBox" "# cHBox", .mk [2] .val "phiD" "# cHDD",
  .mk [3] .val "phi" "# cH", .mk [4] .val "phiB" "# cHB", .mk [5] .val "phiW" "# cHW", .mk [6] .val "phiWB" "# cHWB",
  .mk [7] .val "phiG" "# cHG", .mk [8] .val "W" "# cW", .mk [9] .val "G" "# cG", .mk [10] .val "Wtilde" "# cWtil",
  .mk [11] .val "Gtilde" "# cGtil", .mk [12] .val "phiBtilde" "# cHBtil", .mk [13] .val "phiWtilde" "# cHWtil",
  .mk [14] .val "phiWtildeB" "# cHWBtil", .mk [15] .val "phiGtilde" "# cHGtil"]

/-- The assignments `card['Block'][name] = {'values': [...]}` of set B in order (smeftsim.py:2703-5311). -/
noncomputable def blocksB : List (String × List CRow) := [
  ("FRBlock", rowsB_FRBlock_1 ++ rowsB_FRBlock_2 ++ rowsB_FRBlock_3 ++ rowsB_FRBlock_4 ++ rowsB_FRBlock_5 ++ rowsB_FRBlock_6 ++ rowsB_FRBlock_7 ++ rowsB_FRBlock_8 ++ rowsB_FRBlock_9 ++ rowsB_FRBlock_10),
  ("FRBlock10", rowsB_FRBlock10),
  ("FRBlock11", rowsB_FRBlock11),
  ("FRBlock15", rowsB_FRBlock15),
  ("FRBlock16", rowsB_FRBlock16),
  ("FRBlock18", rowsB_FRBlock18),
  ("FRBlock19", rowsB_FRBlock19),
  ("FRBlock21", rowsB_FRBlock21),
  ("FRBlock22", rowsB_FRBlock22),
  ("FRBlock24", rowsB_FRBlock24),
  ("FRBlock25", rowsB_FRBlock25),
  ("FRBlock27", rowsB_FRBlock27),
  ("FRBlock28", rowsB_FRBlock28),
  ("FRBlock30", rowsB_FRBlock30),
  ("FRBlock31", rowsB_FRBlock31),
  ("FRBlock33", rowsB_FRBlock33),
  ("FRBlock34", rowsB_FRBlock34),
  ("FRBlock36", rowsB_FRBlock36),
  ("FRBlock37", rowsB_FRBlock37),
  ("FRBlock45", rowsB_FRBlock45),
  ("FRBlock46", rowsB_FRBlock46),
  ("FRBlock6", rowsB_FRBlock6),
  ("FRBlock69", rowsB_FRBlock69),
  ("FRBlock7", rowsB_FRBlock7),
  ("FRBlock70", rowsB_FRBlock70),
  ("FRBlock72", rowsB_FRBlock72),
  ("FRBlock73", rowsB_FRBlock73),
  ("FRBlock75", rowsB_FRBlock75),
  ("FRBlock76", rowsB_FRBlock76),
  ("FRBlock78", rowsB_FRBlock78),
  ("FRBlock79", rowsB_FRBlock79),
  ("FRBlock8", rowsB_FRBlock8),
  ("FRBlock81", rowsB_FRBlock81),
  ("FRBlock82", rowsB_FRBlock82),
  ("FRBlock9", rowsB_FRBlock9),
  ("NEWCOUP", rowsB_NEWCOUP)]

end Verif
