import Verif.Model.SmeftsimRow

/-! The rows of the SMEFTsim parameter card for model set A, transcribed by a script from
wcxf/converters/smeftsim.py:93-2698: address, expression, coefficient, comment. -/

set_option autoImplicit false

namespace Verif

/-- smeftsim.py:96-245, block `FRBlock` of set A. -/
noncomputable def rowsA_FRBlock_1 : List CRow := [
  .mk [1] .ph "phil1_12" "# cHl1Ph12", .mk [2] .ph "phil1_13" "# cHl1Ph13", .mk [3] .ph "phil1_23" "# cHl1Ph23",
  .mk [4] .ph "phil3_12" "# cHl3Ph12", .mk [5] .ph "phil3_13" "# cHl3Ph13", .mk [6] .ph "phil3_23" "# cHl3Ph23",
  .mk [7] .ph "phie_12" "# cHePh12", .mk [8] .ph "phie_13" "# cHePh13", .mk [9] .ph "phie_23" "# cHePh23",
  .mk [10] .ph "phiq1_12" "# cHq1Ph12", .mk [11] .ph "phiq1_13" "# cHq1Ph13", .mk [12] .ph "phiq1_23" "# cHq1Ph23",
  .mk [13] .ph "phiq3_12" "# cHq3Ph12", .mk [14] .ph "phiq3_13" "# cHq3Ph13", .mk [15] .ph "phiq3_23" "# cHq3Ph23",
  .mk [16] .ph "phiu_12" "# cHuPh12", .mk [17] .ph "phiu_13" "# cHuPh13", .mk [18] .ph "phiu_23" "# cHuPh23",
  .mk [19] .ph "phid_12" "# cHdPh12", .mk [20] .ph "phid_13" "# cHdPh13", .mk [21] .ph "phid_23" "# cHdPh23",
  .mk [22] .ph "ll_1112" "# cllPh1112", .mk [23] .ph "ll_1113" "# cllPh1113", .mk [24] .ph "ll_1123" "# cllPh1123",
  .mk [25] .ph "ll_1212" "# cllPh1212", .mk [26] .ph "ll_1213" "# cllPh1213", .mk [27] .ph "ll_1231" "# cllPh1231",
  .mk [28] .ph "ll_1222" "# cllPh1222", .mk [29] .ph "ll_1223" "# cllPh1223", .mk [30] .ph "ll_1232" "# cllPh1232",
  .mk [31] .ph "ll_1233" "# cllPh1233", .mk [32] .ph "ll_1313" "# cllPh1313", .mk [33] .ph "ll_1322" "# cllPh1322",
  .mk [34] .ph "ll_1332" "# cllPh1332", .mk [35] .ph "ll_1323" "# cllPh1323", .mk [36] .ph "ll_1333" "# cllPh1333",
  .mk [37] .ph "ll_2223" "# cllPh2223", .mk [38] .ph "ll_2323" "# cllPh2323", .mk [39] .ph "ll_2333" "# cllPh3323",
  .mk [40] .ph "qq1_1112" "# cqq1Ph1112", .mk [41] .ph "qq1_1113" "# cqq1Ph1113",
  .mk [42] .ph "qq1_1123" "# cqq1Ph1123", .mk [43] .ph "qq1_1212" "# cqq1Ph1212",
  .mk [44] .ph "qq1_1213" "# cqq1Ph1213", .mk [45] .ph "qq1_1231" "# cqq1Ph1231",
  .mk [46] .ph "qq1_1222" "# cqq1Ph1222", .mk [47] .ph "qq1_1223" "# cqq1Ph1223",
  .mk [48] .ph "qq1_1232" "# cqq1Ph1232", .mk [49] .ph "qq1_1233" "# cqq1Ph1233",
  .mk [50] .ph "qq1_1313" "# cqq1Ph1313", .mk [51] .ph "qq1_1322" "# cqq1Ph1322",
  .mk [52] .ph "qq1_1332" "# cqq1Ph1332", .mk [53] .ph "qq1_1323" "# cqq1Ph1323",
  .mk [54] .ph "qq1_1333" "# cqq1Ph1333", .mk [55] .ph "qq1_2223" "# cqq1Ph2223",
  .mk [56] .ph "qq1_2323" "# cqq1Ph2323", .mk [57] .ph "qq1_2333" "# cqq1Ph3323",
  .mk [58] .ph "qq3_1112" "# cqq3Ph1112", .mk [59] .ph "qq3_1113" "# cqq3Ph1113",
  .mk [60] .ph "qq3_1123" "# cqq3Ph1123", .mk [61] .ph "qq3_1212" "# cqq3Ph1212",
  .mk [62] .ph "qq3_1213" "# cqq3Ph1213", .mk [63] .ph "qq3_1231" "# cqq3Ph1231",
  .mk [64] .ph "qq3_1222" "# cqq3Ph1222", .mk [65] .ph "qq3_1223" "# cqq3Ph1223",
  .mk [66] .ph "qq3_1232" "# cqq3Ph1232", .mk [67] .ph "qq3_1233" "# cqq3Ph1233",
  .mk [68] .ph "qq3_1313" "# cqq3Ph1313", .mk [69] .ph "qq3_1322" "# cqq3Ph1322",
  .mk [70] .ph "qq3_1332" "# cqq3Ph1332", .mk [71] .ph "qq3_1323" "# cqq3Ph1323",
  .mk [72] .ph "qq3_1333" "# cqq3Ph1333", .mk [73] .ph "qq3_2223" "# cqq3Ph2223",
  .mk [74] .ph "qq3_2323" "# cqq3Ph2323", .mk [75] .ph "qq3_2333" "# cqq3Ph3323",
  .mk [76] .ph "uu_1112" "# cuuPh1112", .mk [77] .ph "uu_1113" "# cuuPh1113", .mk [78] .ph "uu_1123" "# cuuPh1123",
  .mk [79] .ph "uu_1212" "# cuuPh1212", .mk [80] .ph "uu_1213" "# cuuPh1213", .mk [81] .ph "uu_1231" "# cuuPh1231",
  .mk [82] .ph "uu_1222" "# cuuPh1222", .mk [83] .ph "uu_1223" "# cuuPh1223", .mk [84] .ph "uu_1232" "# cuuPh1232",
  .mk [85] .ph "uu_1233" "# cuuPh1233", .mk [86] .ph "uu_1313" "# cuuPh1313", .mk [87] .ph "uu_1322" "# cuuPh1322",
  .mk [88] .ph "uu_1332" "# cuuPh1332", .mk [89] .ph "uu_1323" "# cuuPh1323", .mk [90] .ph "uu_1333" "# cuuPh1333",
  .mk [91] .ph "uu_2223" "# cuuPh2223", .mk [92] .ph "uu_2323" "# cuuPh2323", .mk [93] .ph "uu_2333" "# cuuPh3323",
  .mk [94] .ph "dd_1112" "# cddPh1112", .mk [95] .ph "dd_1113" "# cddPh1113", .mk [96] .ph "dd_1123" "# cddPh1123",
  .mk [97] .ph "dd_1212" "# cddPh1212", .mk [98] .ph "dd_1213" "# cddPh1213", .mk [99] .ph "dd_1231" "# cddPh1231",
  .mk [100] .ph "dd_1222" "# cddPh1222", .mk [101] .ph "dd_1223" "# cddPh1223",
  .mk [102] .ph "dd_1232" "# cddPh1232", .mk [103] .ph "dd_1233" "# cddPh1233",
  .mk [104] .ph "dd_1313" "# cddPh1313", .mk [105] .ph "dd_1322" "# cddPh1322",
  .mk [106] .ph "dd_1332" "# cddPh1332", .mk [107] .ph "dd_1323" "# cddPh1323",
  .mk [108] .ph "dd_1333" "# cddPh1333", .mk [109] .ph "dd_2223" "# cddPh2223",
  .mk [110] .ph "dd_2323" "# cddPh2323", .mk [111] .ph "dd_2333" "# cddPh3323",
  .mk [112] .ph "ee_1112" "# ceePh1112", .mk [113] .ph "ee_1113" "# ceePh1113",
  .mk [114] .ph "ee_1123" "# ceePh1123", .mk [115] .ph "ee_1212" "# ceePh1212",
  .mk [116] .ph "ee_1213" "# ceePh1213", .mk [117] .ph "ee_1222" "# ceePh1222",
  .mk [118] .ph "ee_1232" "# ceePh1232", .mk [119] .ph "ee_1233" "# ceePh1233",
  .mk [120] .ph "ee_1313" "# ceePh1313", .mk [121] .ph "ee_1223" "# ceePh1322",
  .mk [122] .ph "ee_1323" "# ceePh1323", .mk [123] .ph "ee_1333" "# ceePh1333",
  .mk [124] .ph "ee_2223" "# ceePh2223", .mk [125] .ph "ee_2323" "# ceePh2323",
  .mk [126] .ph "ee_2333" "# ceePh3323", .mk [127] .ph "lq1_1112" "# clq1Ph1112",
  .mk [128] .ph "lq1_1113" "# clq1Ph1113", .mk [129] .ph "lq1_1123" "# clq1Ph1123",
  .mk [130] .ph "lq1_1211" "# clq1Ph1211", .mk [131] .ph "lq1_1212" "# clq1Ph1212",
  .mk [132] .ph "lq1_1221" "# clq1Ph1221", .mk [133] .ph "lq1_1213" "# clq1Ph1213",
  .mk [134] .ph "lq1_1231" "# clq1Ph1231", .mk [135] .ph "lq1_1222" "# clq1Ph1222",
  .mk [136] .ph "lq1_1223" "# clq1Ph1223", .mk [137] .ph "lq1_1232" "# clq1Ph1232",
  .mk [138] .ph "lq1_1233" "# clq1Ph1233", .mk [139] .ph "lq1_1311" "# clq1Ph1311",
  .mk [140] .ph "lq1_1312" "# clq1Ph1312", .mk [141] .ph "lq1_1313" "# clq1Ph1313",
  .mk [142] .ph "lq1_1331" "# clq1Ph1331", .mk [143] .ph "lq1_1321" "# clq1Ph1321",
  .mk [144] .ph "lq1_1322" "# clq1Ph1322", .mk [145] .ph "lq1_1332" "# clq1Ph1332",
  .mk [146] .ph "lq1_1323" "# clq1Ph1323", .mk [147] .ph "lq1_1333" "# clq1Ph1333",
  .mk [148] .ph "lq1_2212" "# clq1Ph2212", .mk [149] .ph "lq1_2213" "# clq1Ph2213",
  .mk [150] .ph "lq1_2223" "# clq1Ph2223"]

/-- smeftsim.py:246-395, block `FRBlock` of set A. -/
noncomputable def rowsA_FRBlock_2 : List CRow := [
  .mk [151] .ph "lq1_2311" "# clq1Ph2311", .mk [152] .ph "lq1_2312" "# clq1Ph2312",
  .mk [153] .ph "lq1_2313" "# clq1Ph2313", .mk [154] .ph "lq1_2321" "# clq1Ph2321",
  .mk [155] .ph "lq1_2322" "# clq1Ph2322", .mk [156] .ph "lq1_2323" "# clq1Ph2323",
  .mk [157] .ph "lq1_2331" "# clq1Ph2331", .mk [158] .ph "lq1_2332" "# clq1Ph2332",
  .mk [159] .ph "lq1_2333" "# clq1Ph2333", .mk [160] .ph "lq1_3312" "# clq1Ph3312",
  .mk [161] .ph "lq1_3313" "# clq1Ph3313", .mk [162] .ph "lq1_3323" "# clq1Ph3323",
  .mk [163] .ph "lq3_1112" "# clq3Ph1112", .mk [164] .ph "lq3_1113" "# clq3Ph1113",
  .mk [165] .ph "lq3_1123" "# clq3Ph1123", .mk [166] .ph "lq3_1211" "# clq3Ph1211",
  .mk [167] .ph "lq3_1212" "# clq3Ph1212", .mk [168] .ph "lq3_1221" "# clq3Ph1221",
  .mk [169] .ph "lq3_1213" "# clq3Ph1213", .mk [170] .ph "lq3_1231" "# clq3Ph1231",
  .mk [171] .ph "lq3_1222" "# clq3Ph1222", .mk [172] .ph "lq3_1223" "# clq3Ph1223",
  .mk [173] .ph "lq3_1232" "# clq3Ph1232", .mk [174] .ph "lq3_1233" "# clq3Ph1233",
  .mk [175] .ph "lq3_1311" "# clq3Ph1311", .mk [176] .ph "lq3_1312" "# clq3Ph1312",
  .mk [177] .ph "lq3_1313" "# clq3Ph1313", .mk [178] .ph "lq3_1331" "# clq3Ph1331",
  .mk [179] .ph "lq3_1321" "# clq3Ph1321", .mk [180] .ph "lq3_1322" "# clq3Ph1322",
  .mk [181] .ph "lq3_1332" "# clq3Ph1332", .mk [182] .ph "lq3_1323" "# clq3Ph1323",
  .mk [183] .ph "lq3_1333" "# clq3Ph1333", .mk [184] .ph "lq3_2212" "# clq3Ph2212",
  .mk [185] .ph "lq3_2213" "# clq3Ph2213", .mk [186] .ph "lq3_2223" "# clq3Ph2223",
  .mk [187] .ph "lq3_2311" "# clq3Ph2311", .mk [188] .ph "lq3_2312" "# clq3Ph2312",
  .mk [189] .ph "lq3_2313" "# clq3Ph2313", .mk [190] .ph "lq3_2321" "# clq3Ph2321",
  .mk [191] .ph "lq3_2322" "# clq3Ph2322", .mk [192] .ph "lq3_2323" "# clq3Ph2323",
  .mk [193] .ph "lq3_2331" "# clq3Ph2331", .mk [194] .ph "lq3_2332" "# clq3Ph2332",
  .mk [195] .ph "lq3_2333" "# clq3Ph2333", .mk [196] .ph "lq3_3312" "# clq3Ph3312",
  .mk [197] .ph "lq3_3313" "# clq3Ph3313", .mk [198] .ph "lq3_3323" "# clq3Ph3323",
  .mk [199] .ph "eu_1112" "# ceuPh1112", .mk [200] .ph "eu_1113" "# ceuPh1113",
  .mk [201] .ph "eu_1123" "# ceuPh1123", .mk [202] .ph "eu_1211" "# ceuPh1211",
  .mk [203] .ph "eu_1212" "# ceuPh1212", .mk [204] .ph "eu_1221" "# ceuPh1221",
  .mk [205] .ph "eu_1213" "# ceuPh1213", .mk [206] .ph "eu_1231" "# ceuPh1231",
  .mk [207] .ph "eu_1222" "# ceuPh1222", .mk [208] .ph "eu_1223" "# ceuPh1223",
  .mk [209] .ph "eu_1232" "# ceuPh1232", .mk [210] .ph "eu_1233" "# ceuPh1233",
  .mk [211] .ph "eu_1311" "# ceuPh1311", .mk [212] .ph "eu_1312" "# ceuPh1312",
  .mk [213] .ph "eu_1313" "# ceuPh1313", .mk [214] .ph "eu_1331" "# ceuPh1331",
  .mk [215] .ph "eu_1321" "# ceuPh1321", .mk [216] .ph "eu_1322" "# ceuPh1322",
  .mk [217] .ph "eu_1332" "# ceuPh1332", .mk [218] .ph "eu_1323" "# ceuPh1323",
  .mk [219] .ph "eu_1333" "# ceuPh1333", .mk [220] .ph "eu_2212" "# ceuPh2212",
  .mk [221] .ph "eu_2213" "# ceuPh2213", .mk [222] .ph "eu_2223" "# ceuPh2223",
  .mk [223] .ph "eu_2311" "# ceuPh2311", .mk [224] .ph "eu_2312" "# ceuPh2312",
  .mk [225] .ph "eu_2313" "# ceuPh2313", .mk [226] .ph "eu_2321" "# ceuPh2321",
  .mk [227] .ph "eu_2322" "# ceuPh2322", .mk [228] .ph "eu_2323" "# ceuPh2323",
  .mk [229] .ph "eu_2331" "# ceuPh2331", .mk [230] .ph "eu_2332" "# ceuPh2332",
  .mk [231] .ph "eu_2333" "# ceuPh2333", .mk [232] .ph "eu_3312" "# ceuPh3312",
  .mk [233] .ph "eu_3313" "# ceuPh3313", .mk [234] .ph "eu_3323" "# ceuPh3323",
  .mk [235] .ph "ed_1112" "# cedPh1112", .mk [236] .ph "ed_1113" "# cedPh1113",
  .mk [237] .ph "ed_1123" "# cedPh1123", .mk [238] .ph "ed_1211" "# cedPh1211",
  .mk [239] .ph "ed_1212" "# cedPh1212", .mk [240] .ph "ed_1221" "# cedPh1221",
  .mk [241] .ph "ed_1213" "# cedPh1213", .mk [242] .ph "ed_1231" "# cedPh1231",
  .mk [243] .ph "ed_1222" "# cedPh1222", .mk [244] .ph "ed_1223" "# cedPh1223",
  .mk [245] .ph "ed_1232" "# cedPh1232", .mk [246] .ph "ed_1233" "# cedPh1233",
  .mk [247] .ph "ed_1311" "# cedPh1311", .mk [248] .ph "ed_1312" "# cedPh1312",
  .mk [249] .ph "ed_1313" "# cedPh1313", .mk [250] .ph "ed_1331" "# cedPh1331",
  .mk [251] .ph "ed_1321" "# cedPh1321", .mk [252] .ph "ed_1322" "# cedPh1322",
  .mk [253] .ph "ed_1332" "# cedPh1332", .mk [254] .ph "ed_1323" "# cedPh1323",
  .mk [255] .ph "ed_1333" "# cedPh1333", .mk [256] .ph "ed_2212" "# cedPh2212",
  .mk [257] .ph "ed_2213" "# cedPh2213", .mk [258] .ph "ed_2223" "# cedPh2223",
  .mk [259] .ph "ed_2311" "# cedPh2311", .mk [260] .ph "ed_2312" "# cedPh2312",
  .mk [261] .ph "ed_2313" "# cedPh2313", .mk [262] .ph "ed_2321" "# cedPh2321",
  .mk [263] .ph "ed_2322" "# cedPh2322", .mk [264] .ph "ed_2323" "# cedPh2323",
  .mk [265] .ph "ed_2331" "# cedPh2331", .mk [266] .ph "ed_2332" "# cedPh2332",
  .mk [267] .ph "ed_2333" "# cedPh2333", .mk [268] .ph "ed_3312" "# cedPh3312",
  .mk [269] .ph "ed_3313" "# cedPh3313", .mk [270] .ph "ed_3323" "# cedPh3323",
  .mk [271] .ph "ud1_1112" "# cud1Ph1112", .mk [272] .ph "ud1_1113" "# cud1Ph1113",
  .mk [273] .ph "ud1_1123" "# cud1Ph1123", .mk [274] .ph "ud1_1211" "# cud1Ph1211",
  .mk [275] .ph "ud1_1212" "# cud1Ph1212", .mk [276] .ph "ud1_1221" "# cud1Ph1221",
  .mk [277] .ph "ud1_1213" "# cud1Ph1213", .mk [278] .ph "ud1_1231" "# cud1Ph1231",
  .mk [279] .ph "ud1_1222" "# cud1Ph1222", .mk [280] .ph "ud1_1223" "# cud1Ph1223",
  .mk [281] .ph "ud1_1232" "# cud1Ph1232", .mk [282] .ph "ud1_1233" "# cud1Ph1233",
  .mk [283] .ph "ud1_1311" "# cud1Ph1311", .mk [284] .ph "ud1_1312" "# cud1Ph1312",
  .mk [285] .ph "ud1_1313" "# cud1Ph1313", .mk [286] .ph "ud1_1331" "# cud1Ph1331",
  .mk [287] .ph "ud1_1321" "# cud1Ph1321", .mk [288] .ph "ud1_1322" "# cud1Ph1322",
  .mk [289] .ph "ud1_1332" "# cud1Ph1332", .mk [290] .ph "ud1_1323" "# cud1Ph1323",
  .mk [291] .ph "ud1_1333" "# cud1Ph1333", .mk [292] .ph "ud1_2212" "# cud1Ph2212",
  .mk [293] .ph "ud1_2213" "# cud1Ph2213", .mk [294] .ph "ud1_2223" "# cud1Ph2223",
  .mk [295] .ph "ud1_2311" "# cud1Ph2311", .mk [296] .ph "ud1_2312" "# cud1Ph2312",
  .mk [297] .ph "ud1_2313" "# cud1Ph2313", .mk [298] .ph "ud1_2321" "# cud1Ph2321",
  .mk [299] .ph "ud1_2322" "# cud1Ph2322", .mk [300] .ph "ud1_2323" "# cud1Ph2323"]

/-- smeftsim.py:396-545, block `FRBlock` of set A. -/
noncomputable def rowsA_FRBlock_3 : List CRow := [
  .mk [301] .ph "ud1_2331" "# cud1Ph2331", .mk [302] .ph "ud1_2332" "# cud1Ph2332",
  .mk [303] .ph "ud1_2333" "# cud1Ph2333", .mk [304] .ph "ud1_3312" "# cud1Ph3312",
  .mk [305] .ph "ud1_3313" "# cud1Ph3313", .mk [306] .ph "ud1_3323" "# cud1Ph3323",
  .mk [307] .ph "ud8_1112" "# cud8Ph1112", .mk [308] .ph "ud8_1113" "# cud8Ph1113",
  .mk [309] .ph "ud8_1123" "# cud8Ph1123", .mk [310] .ph "ud8_1211" "# cud8Ph1211",
  .mk [311] .ph "ud8_1212" "# cud8Ph1212", .mk [312] .ph "ud8_1221" "# cud8Ph1221",
  .mk [313] .ph "ud8_1213" "# cud8Ph1213", .mk [314] .ph "ud8_1231" "# cud8Ph1231",
  .mk [315] .ph "ud8_1222" "# cud8Ph1222", .mk [316] .ph "ud8_1223" "# cud8Ph1223",
  .mk [317] .ph "ud8_1232" "# cud8Ph1232", .mk [318] .ph "ud8_1233" "# cud8Ph1233",
  .mk [319] .ph "ud8_1311" "# cud8Ph1311", .mk [320] .ph "ud8_1312" "# cud8Ph1312",
  .mk [321] .ph "ud8_1313" "# cud8Ph1313", .mk [322] .ph "ud8_1331" "# cud8Ph1331",
  .mk [323] .ph "ud8_1321" "# cud8Ph1321", .mk [324] .ph "ud8_1322" "# cud8Ph1322",
  .mk [325] .ph "ud8_1332" "# cud8Ph1332", .mk [326] .ph "ud8_1323" "# cud8Ph1323",
  .mk [327] .ph "ud8_1333" "# cud8Ph1333", .mk [328] .ph "ud8_2212" "# cud8Ph2212",
  .mk [329] .ph "ud8_2213" "# cud8Ph2213", .mk [330] .ph "ud8_2223" "# cud8Ph2223",
  .mk [331] .ph "ud8_2311" "# cud8Ph2311", .mk [332] .ph "ud8_2312" "# cud8Ph2312",
  .mk [333] .ph "ud8_2313" "# cud8Ph2313", .mk [334] .ph "ud8_2321" "# cud8Ph2321",
  .mk [335] .ph "ud8_2322" "# cud8Ph2322", .mk [336] .ph "ud8_2323" "# cud8Ph2323",
  .mk [337] .ph "ud8_2331" "# cud8Ph2331", .mk [338] .ph "ud8_2332" "# cud8Ph2332",
  .mk [339] .ph "ud8_2333" "# cud8Ph2333", .mk [340] .ph "ud8_3312" "# cud8Ph3312",
  .mk [341] .ph "ud8_3313" "# cud8Ph3313", .mk [342] .ph "ud8_3323" "# cud8Ph3323",
  .mk [343] .ph "le_1112" "# clePh1112", .mk [344] .ph "le_1113" "# clePh1113",
  .mk [345] .ph "le_1123" "# clePh1123", .mk [346] .ph "le_1211" "# clePh1211",
  .mk [347] .ph "le_1212" "# clePh1212", .mk [348] .ph "le_1221" "# clePh1221",
  .mk [349] .ph "le_1213" "# clePh1213", .mk [350] .ph "le_1231" "# clePh1231",
  .mk [351] .ph "le_1222" "# clePh1222", .mk [352] .ph "le_1223" "# clePh1223",
  .mk [353] .ph "le_1232" "# clePh1232", .mk [354] .ph "le_1233" "# clePh1233",
  .mk [355] .ph "le_1311" "# clePh1311", .mk [356] .ph "le_1312" "# clePh1312",
  .mk [357] .ph "le_1313" "# clePh1313", .mk [358] .ph "le_1331" "# clePh1331",
  .mk [359] .ph "le_1321" "# clePh1321", .mk [360] .ph "le_1322" "# clePh1322",
  .mk [361] .ph "le_1332" "# clePh1332", .mk [362] .ph "le_1323" "# clePh1323",
  .mk [363] .ph "le_1333" "# clePh1333", .mk [364] .ph "le_2212" "# clePh2212",
  .mk [365] .ph "le_2213" "# clePh2213", .mk [366] .ph "le_2223" "# clePh2223",
  .mk [367] .ph "le_2311" "# clePh2311", .mk [368] .ph "le_2312" "# clePh2312",
  .mk [369] .ph "le_2313" "# clePh2313", .mk [370] .ph "le_2321" "# clePh2321",
  .mk [371] .ph "le_2322" "# clePh2322", .mk [372] .ph "le_2323" "# clePh2323",
  .mk [373] .ph "le_2331" "# clePh2331", .mk [374] .ph "le_2332" "# clePh2332",
  .mk [375] .ph "le_2333" "# clePh2333", .mk [376] .ph "le_3312" "# clePh3312",
  .mk [377] .ph "le_3313" "# clePh3313", .mk [378] .ph "le_3323" "# clePh3323",
  .mk [379] .ph "lu_1112" "# cluPh1112", .mk [380] .ph "lu_1113" "# cluPh1113",
  .mk [381] .ph "lu_1123" "# cluPh1123", .mk [382] .ph "lu_1211" "# cluPh1211",
  .mk [383] .ph "lu_1212" "# cluPh1212", .mk [384] .ph "lu_1221" "# cluPh1221",
  .mk [385] .ph "lu_1213" "# cluPh1213", .mk [386] .ph "lu_1231" "# cluPh1231",
  .mk [387] .ph "lu_1222" "# cluPh1222", .mk [388] .ph "lu_1223" "# cluPh1223",
  .mk [389] .ph "lu_1232" "# cluPh1232", .mk [390] .ph "lu_1233" "# cluPh1233",
  .mk [391] .ph "lu_1311" "# cluPh1311", .mk [392] .ph "lu_1312" "# cluPh1312",
  .mk [393] .ph "lu_1313" "# cluPh1313", .mk [394] .ph "lu_1331" "# cluPh1331",
  .mk [395] .ph "lu_1321" "# cluPh1321", .mk [396] .ph "lu_1322" "# cluPh1322",
  .mk [397] .ph "lu_1332" "# cluPh1332", .mk [398] .ph "lu_1323" "# cluPh1323",
  .mk [399] .ph "lu_1333" "# cluPh1333", .mk [400] .ph "lu_2212" "# cluPh2212",
  .mk [401] .ph "lu_2213" "# cluPh2213", .mk [402] .ph "lu_2223" "# cluPh2223",
  .mk [403] .ph "lu_2311" "# cluPh2311", .mk [404] .ph "lu_2312" "# cluPh2312",
  .mk [405] .ph "lu_2313" "# cluPh2313", .mk [406] .ph "lu_2321" "# cluPh2321",
  .mk [407] .ph "lu_2322" "# cluPh2322", .mk [408] .ph "lu_2323" "# cluPh2323",
  .mk [409] .ph "lu_2331" "# cluPh2331", .mk [410] .ph "lu_2332" "# cluPh2332",
  .mk [411] .ph "lu_2333" "# cluPh2333", .mk [412] .ph "lu_3312" "# cluPh3312",
  .mk [413] .ph "lu_3313" "# cluPh3313", .mk [414] .ph "lu_3323" "# cluPh3323",
  .mk [415] .ph "ld_1112" "# cldPh1112", .mk [416] .ph "ld_1113" "# cldPh1113",
  .mk [417] .ph "ld_1123" "# cldPh1123", .mk [418] .ph "ld_1211" "# cldPh1211",
  .mk [419] .ph "ld_1212" "# cldPh1212", .mk [420] .ph "ld_1221" "# cldPh1221",
  .mk [421] .ph "ld_1213" "# cldPh1213", .mk [422] .ph "ld_1231" "# cldPh1231",
  .mk [423] .ph "ld_1222" "# cldPh1222", .mk [424] .ph "ld_1223" "# cldPh1223",
  .mk [425] .ph "ld_1232" "# cldPh1232", .mk [426] .ph "ld_1233" "# cldPh1233",
  .mk [427] .ph "ld_1311" "# cldPh1311", .mk [428] .ph "ld_1312" "# cldPh1312",
  .mk [429] .ph "ld_1313" "# cldPh1313", .mk [430] .ph "ld_1331" "# cldPh1331",
  .mk [431] .ph "ld_1321" "# cldPh1321", .mk [432] .ph "ld_1322" "# cldPh1322",
  .mk [433] .ph "ld_1332" "# cldPh1332", .mk [434] .ph "ld_1323" "# cldPh1323",
  .mk [435] .ph "ld_1333" "# cldPh1333", .mk [436] .ph "ld_2212" "# cldPh2212",
  .mk [437] .ph "ld_2213" "# cldPh2213", .mk [438] .ph "ld_2223" "# cldPh2223",
  .mk [439] .ph "ld_2311" "# cldPh2311", .mk [440] .ph "ld_2312" "# cldPh2312",
  .mk [441] .ph "ld_2313" "# cldPh2313", .mk [442] .ph "ld_2321" "# cldPh2321",
  .mk [443] .ph "ld_2322" "# cldPh2322", .mk [444] .ph "ld_2323" "# cldPh2323",
  .mk [445] .ph "ld_2331" "# cldPh2331", .mk [446] .ph "ld_2332" "# cldPh2332",
  .mk [447] .ph "ld_2333" "# cldPh2333", .mk [448] .ph "ld_3312" "# cldPh3312",
  .mk [449] .ph "ld_3313" "# cldPh3313", .mk [450] .ph "ld_3323" "# cldPh3323"]

/-- smeftsim.py:546-695, block `FRBlock` of set A. -/
noncomputable def rowsA_FRBlock_4 : List CRow := [
  .mk [451] .ph "qe_1112" "# cqePh1112", .mk [452] .ph "qe_1113" "# cqePh1113",
  .mk [453] .ph "qe_1123" "# cqePh1123", .mk [454] .ph "qe_1211" "# cqePh1211",
  .mk [455] .ph "qe_1212" "# cqePh1212", .mk [456] .ph "qe_1221" "# cqePh1221",
  .mk [457] .ph "qe_1213" "# cqePh1213", .mk [458] .ph "qe_1231" "# cqePh1231",
  .mk [459] .ph "qe_1222" "# cqePh1222", .mk [460] .ph "qe_1223" "# cqePh1223",
  .mk [461] .ph "qe_1232" "# cqePh1232", .mk [462] .ph "qe_1233" "# cqePh1233",
  .mk [463] .ph "qe_1311" "# cqePh1311", .mk [464] .ph "qe_1312" "# cqePh1312",
  .mk [465] .ph "qe_1313" "# cqePh1313", .mk [466] .ph "qe_1331" "# cqePh1331",
  .mk [467] .ph "qe_1321" "# cqePh1321", .mk [468] .ph "qe_1322" "# cqePh1322",
  .mk [469] .ph "qe_1332" "# cqePh1332", .mk [470] .ph "qe_1323" "# cqePh1323",
  .mk [471] .ph "qe_1333" "# cqePh1333", .mk [472] .ph "qe_2212" "# cqePh2212",
  .mk [473] .ph "qe_2213" "# cqePh2213", .mk [474] .ph "qe_2223" "# cqePh2223",
  .mk [475] .ph "qe_2311" "# cqePh2311", .mk [476] .ph "qe_2312" "# cqePh2312",
  .mk [477] .ph "qe_2313" "# cqePh2313", .mk [478] .ph "qe_2321" "# cqePh2321",
  .mk [479] .ph "qe_2322" "# cqePh2322", .mk [480] .ph "qe_2323" "# cqePh2323",
  .mk [481] .ph "qe_2331" "# cqePh2331", .mk [482] .ph "qe_2332" "# cqePh2332",
  .mk [483] .ph "qe_2333" "# cqePh2333", .mk [484] .ph "qe_3312" "# cqePh3312",
  .mk [485] .ph "qe_3313" "# cqePh3313", .mk [486] .ph "qe_3323" "# cqePh3323",
  .mk [487] .ph "qu1_1112" "# cqu1Ph1112", .mk [488] .ph "qu1_1113" "# cqu1Ph1113",
  .mk [489] .ph "qu1_1123" "# cqu1Ph1123", .mk [490] .ph "qu1_1211" "# cqu1Ph1211",
  .mk [491] .ph "qu1_1212" "# cqu1Ph1212", .mk [492] .ph "qu1_1221" "# cqu1Ph1221",
  .mk [493] .ph "qu1_1213" "# cqu1Ph1213", .mk [494] .ph "qu1_1231" "# cqu1Ph1231",
  .mk [495] .ph "qu1_1222" "# cqu1Ph1222", .mk [496] .ph "qu1_1223" "# cqu1Ph1223",
  .mk [497] .ph "qu1_1232" "# cqu1Ph1232", .mk [498] .ph "qu1_1233" "# cqu1Ph1233",
  .mk [499] .ph "qu1_1311" "# cqu1Ph1311", .mk [500] .ph "qu1_1312" "# cqu1Ph1312",
  .mk [501] .ph "qu1_1313" "# cqu1Ph1313", .mk [502] .ph "qu1_1331" "# cqu1Ph1331",
  .mk [503] .ph "qu1_1321" "# cqu1Ph1321", .mk [504] .ph "qu1_1322" "# cqu1Ph1322",
  .mk [505] .ph "qu1_1332" "# cqu1Ph1332", .mk [506] .ph "qu1_1323" "# cqu1Ph1323",
  .mk [507] .ph "qu1_1333" "# cqu1Ph1333", .mk [508] .ph "qu1_2212" "# cqu1Ph2212",
  .mk [509] .ph "qu1_2213" "# cqu1Ph2213", .mk [510] .ph "qu1_2223" "# cqu1Ph2223",
  .mk [511] .ph "qu1_2311" "# cqu1Ph2311", .mk [512] .ph "qu1_2312" "# cqu1Ph2312",
  .mk [513] .ph "qu1_2313" "# cqu1Ph2313", .mk [514] .ph "qu1_2321" "# cqu1Ph2321",
  .mk [515] .ph "qu1_2322" "# cqu1Ph2322", .mk [516] .ph "qu1_2323" "# cqu1Ph2323",
  .mk [517] .ph "qu1_2331" "# cqu1Ph2331", .mk [518] .ph "qu1_2332" "# cqu1Ph2332",
  .mk [519] .ph "qu1_2333" "# cqu1Ph2333", .mk [520] .ph "qu1_3312" "# cqu1Ph3312",
  .mk [521] .ph "qu1_3313" "# cqu1Ph3313", .mk [522] .ph "qu1_3323" "# cqu1Ph3323",
  .mk [523] .ph "qd1_1112" "# cqd1Ph1112", .mk [524] .ph "qd1_1113" "# cqd1Ph1113",
  .mk [525] .ph "qd1_1123" "# cqd1Ph1123", .mk [526] .ph "qd1_1211" "# cqd1Ph1211",
  .mk [527] .ph "qd1_1212" "# cqd1Ph1212", .mk [528] .ph "qd1_1221" "# cqd1Ph1221",
  .mk [529] .ph "qd1_1213" "# cqd1Ph1213", .mk [530] .ph "qd1_1231" "# cqd1Ph1231",
  .mk [531] .ph "qd1_1222" "# cqd1Ph1222", .mk [532] .ph "qd1_1223" "# cqd1Ph1223",
  .mk [533] .ph "qd1_1232" "# cqd1Ph1232", .mk [534] .ph "qd1_1233" "# cqd1Ph1233",
  .mk [535] .ph "qd1_1311" "# cqd1Ph1311", .mk [536] .ph "qd1_1312" "# cqd1Ph1312",
  .mk [537] .ph "qd1_1313" "# cqd1Ph1313", .mk [538] .ph "qd1_1331" "# cqd1Ph1331",
  .mk [539] .ph "qd1_1321" "# cqd1Ph1321", .mk [540] .ph "qd1_1322" "# cqd1Ph1322",
  .mk [541] .ph "qd1_1332" "# cqd1Ph1332", .mk [542] .ph "qd1_1323" "# cqd1Ph1323",
  .mk [543] .ph "qd1_1333" "# cqd1Ph1333", .mk [544] .ph "qd1_2212" "# cqd1Ph2212",
  .mk [545] .ph "qd1_2213" "# cqd1Ph2213", .mk [546] .ph "qd1_2223" "# cqd1Ph2223",
  .mk [547] .ph "qd1_2311" "# cqd1Ph2311", .mk [548] .ph "qd1_2312" "# cqd1Ph2312",
  .mk [549] .ph "qd1_2313" "# cqd1Ph2313", .mk [550] .ph "qd1_2321" "# cqd1Ph2321",
  .mk [551] .ph "qd1_2322" "# cqd1Ph2322", .mk [552] .ph "qd1_2323" "# cqd1Ph2323",
  .mk [553] .ph "qd1_2331" "# cqd1Ph2331", .mk [554] .ph "qd1_2332" "# cqd1Ph2332",
  .mk [555] .ph "qd1_2333" "# cqd1Ph2333", .mk [556] .ph "qd1_3312" "# cqd1Ph3312",
  .mk [557] .ph "qd1_3313" "# cqd1Ph3313", .mk [558] .ph "qd1_3323" "# cqd1Ph3323",
  .mk [559] .ph "qu8_1112" "# cqu8Ph1112", .mk [560] .ph "qu8_1113" "# cqu8Ph1113",
  .mk [561] .ph "qu8_1123" "# cqu8Ph1123", .mk [562] .ph "qu8_1211" "# cqu8Ph1211",
  .mk [563] .ph "qu8_1212" "# cqu8Ph1212", .mk [564] .ph "qu8_1221" "# cqu8Ph1221",
  .mk [565] .ph "qu8_1213" "# cqu8Ph1213", .mk [566] .ph "qu8_1231" "# cqu8Ph1231",
  .mk [567] .ph "qu8_1222" "# cqu8Ph1222", .mk [568] .ph "qu8_1223" "# cqu8Ph1223",
  .mk [569] .ph "qu8_1232" "# cqu8Ph1232", .mk [570] .ph "qu8_1233" "# cqu8Ph1233",
  .mk [571] .ph "qu8_1311" "# cqu8Ph1311", .mk [572] .ph "qu8_1312" "# cqu8Ph1312",
  .mk [573] .ph "qu8_1313" "# cqu8Ph1313", .mk [574] .ph "qu8_1331" "# cqu8Ph1331",
  .mk [575] .ph "qu8_1321" "# cqu8Ph1321", .mk [576] .ph "qu8_1322" "# cqu8Ph1322",
  .mk [577] .ph "qu8_1332" "# cqu8Ph1332", .mk [578] .ph "qu8_1323" "# cqu8Ph1323",
  .mk [579] .ph "qu8_1333" "# cqu8Ph1333", .mk [580] .ph "qu8_2212" "# cqu8Ph2212",
  .mk [581] .ph "qu8_2213" "# cqu8Ph2213", .mk [582] .ph "qu8_2223" "# cqu8Ph2223",
  .mk [583] .ph "qu8_2311" "# cqu8Ph2311", .mk [584] .ph "qu8_2312" "# cqu8Ph2312",
  .mk [585] .ph "qu8_2313" "# cqu8Ph2313", .mk [586] .ph "qu8_2321" "# cqu8Ph2321",
  .mk [587] .ph "qu8_2322" "# cqu8Ph2322", .mk [588] .ph "qu8_2323" "# cqu8Ph2323",
  .mk [589] .ph "qu8_2331" "# cqu8Ph2331", .mk [590] .ph "qu8_2332" "# cqu8Ph2332",
  .mk [591] .ph "qu8_2333" "# cqu8Ph2333", .mk [592] .ph "qu8_3312" "# cqu8Ph3312",
  .mk [593] .ph "qu8_3313" "# cqu8Ph3313", .mk [594] .ph "qu8_3323" "# cqu8Ph3323",
  .mk [595] .ph "qd8_1112" "# cqd8Ph1112", .mk [596] .ph "qd8_1113" "# cqd8Ph1113",
  .mk [597] .ph "qd8_1123" "# cqd8Ph1123", .mk [598] .ph "qd8_1211" "# cqd8Ph1211",
  .mk [599] .ph "qd8_1212" "# cqd8Ph1212", .mk [600] .ph "qd8_1221" "# cqd8Ph1221"]

/-- smeftsim.py:696-845, block `FRBlock` of set A. -/
noncomputable def rowsA_FRBlock_5 : List CRow := [
  .mk [601] .ph "qd8_1213" "# cqd8Ph1213", .mk [602] .ph "qd8_1231" "# cqd8Ph1231",
  .mk [603] .ph "qd8_1222" "# cqd8Ph1222", .mk [604] .ph "qd8_1223" "# cqd8Ph1223",
  .mk [605] .ph "qd8_1232" "# cqd8Ph1232", .mk [606] .ph "qd8_1233" "# cqd8Ph1233",
  .mk [607] .ph "qd8_1311" "# cqd8Ph1311", .mk [608] .ph "qd8_1312" "# cqd8Ph1312",
  .mk [609] .ph "qd8_1313" "# cqd8Ph1313", .mk [610] .ph "qd8_1331" "# cqd8Ph1331",
  .mk [611] .ph "qd8_1321" "# cqd8Ph1321", .mk [612] .ph "qd8_1322" "# cqd8Ph1322",
  .mk [613] .ph "qd8_1332" "# cqd8Ph1332", .mk [614] .ph "qd8_1323" "# cqd8Ph1323",
  .mk [615] .ph "qd8_1333" "# cqd8Ph1333", .mk [616] .ph "qd8_2212" "# cqd8Ph2212",
  .mk [617] .ph "qd8_2213" "# cqd8Ph2213", .mk [618] .ph "qd8_2223" "# cqd8Ph2223",
  .mk [619] .ph "qd8_2311" "# cqd8Ph2311", .mk [620] .ph "qd8_2312" "# cqd8Ph2312",
  .mk [621] .ph "qd8_2313" "# cqd8Ph2313", .mk [622] .ph "qd8_2321" "# cqd8Ph2321",
  .mk [623] .ph "qd8_2322" "# cqd8Ph2322", .mk [624] .ph "qd8_2323" "# cqd8Ph2323",
  .mk [625] .ph "qd8_2331" "# cqd8Ph2331", .mk [626] .ph "qd8_2332" "# cqd8Ph2332",
  .mk [627] .ph "qd8_2333" "# cqd8Ph2333", .mk [628] .ph "qd8_3312" "# cqd8Ph3312",
  .mk [629] .ph "qd8_3313" "# cqd8Ph3313", .mk [630] .ph "qd8_3323" "# cqd8Ph3323",
  .mk [631] .lam "" "# LambdaSMEFT", .mk [632] .val "G" "# cG", .mk [633] .val "Gtilde" "# cGtil",
  .mk [634] .val "W" "# cW", .mk [635] .val "Wtilde" "# cWtil", .mk [636] .val "phi" "# cH",
  .mk [637] .val "phiBox" "# cHbox", .mk [638] .val "phiD" "# cHDD", .mk [639] .val "phiG" "# cHG",
  .mk [640] .val "phiGtilde" "# cHGtil", .mk [641] .val "phiW" "# cHW", .mk [642] .val "phiWtilde" "# cHWtil",
  .mk [643] .val "phiB" "# cHB", .mk [644] .val "phiBtilde" "# cHBtil", .mk [645] .val "phiWB" "# cHWB",
  .mk [646] .val "phiWtildeB" "# cHWBtil", .mk [647] .abs "phil1_11" "# cHl1Abs11",
  .mk [648] .abs "phil1_12" "# cHl1Abs12", .mk [649] .abs "phil1_13" "# cHl1Abs13",
  .mk [650] .abs "phil1_22" "# cHl1Abs22", .mk [651] .abs "phil1_23" "# cHl1Abs23",
  .mk [652] .abs "phil1_33" "# cHl1Abs33", .mk [653] .abs "phil3_11" "# cHl3Abs11",
  .mk [654] .abs "phil3_12" "# cHl3Abs12", .mk [655] .abs "phil3_13" "# cHl3Abs13",
  .mk [656] .abs "phil3_22" "# cHl3Abs22", .mk [657] .abs "phil3_23" "# cHl3Abs23",
  .mk [658] .abs "phil3_33" "# cHl3Abs33", .mk [659] .abs "phiq1_11" "# cHq1Abs11",
  .mk [660] .abs "phiq1_12" "# cHq1Abs12", .mk [661] .abs "phiq1_13" "# cHq1Abs13",
  .mk [662] .abs "phiq1_22" "# cHq1Abs22", .mk [663] .abs "phiq1_23" "# cHq1Abs23",
  .mk [664] .abs "phiq1_33" "# cHq1Abs33", .mk [665] .abs "phiq3_11" "# cHq3Abs11",
  .mk [666] .abs "phiq3_12" "# cHq3Abs12", .mk [667] .abs "phiq3_13" "# cHq3Abs13",
  .mk [668] .abs "phiq3_22" "# cHq3Abs22", .mk [669] .abs "phiq3_23" "# cHq3Abs23",
  .mk [670] .abs "phiq3_33" "# cHq3Abs33", .mk [671] .abs "phie_11" "# cHeAbs11",
  .mk [672] .abs "phie_12" "# cHeAbs12", .mk [673] .abs "phie_13" "# cHeAbs13",
  .mk [674] .abs "phie_22" "# cHeAbs22", .mk [675] .abs "phie_23" "# cHeAbs23",
  .mk [676] .abs "phie_33" "# cHeAbs33", .mk [677] .abs "phiu_11" "# cHuAbs11",
  .mk [678] .abs "phiu_12" "# cHuAbs12", .mk [679] .abs "phiu_13" "# cHuAbs13",
  .mk [680] .abs "phiu_22" "# cHuAbs22", .mk [681] .abs "phiu_23" "# cHuAbs23",
  .mk [682] .abs "phiu_33" "# cHuAbs33", .mk [683] .abs "phid_11" "# cHdAbs11",
  .mk [684] .abs "phid_12" "# cHdAbs12", .mk [685] .abs "phid_13" "# cHdAbs13",
  .mk [686] .abs "phid_22" "# cHdAbs22", .mk [687] .abs "phid_23" "# cHdAbs23",
  .mk [688] .abs "phid_33" "# cHdAbs33", .mk [689] .val "ll_1111" "# cllAbs1111",
  .mk [690] .val "ll_1122" "# cllAbs1122", .mk [691] .val "ll_1221" "# cllAbs1221",
  .mk [692] .val "ll_1133" "# cllAbs1133", .mk [693] .val "ll_1331" "# cllAbs1331",
  .mk [694] .val "ll_2222" "# cllAbs2222", .mk [695] .val "ll_2233" "# cllAbs2233",
  .mk [696] .val "ll_2332" "# cllAbs2332", .mk [697] .val "ll_3333" "# cllAbs3333",
  .mk [698] .abs "ll_1112" "# cllAbs1112", .mk [699] .abs "ll_1113" "# cllAbs1113",
  .mk [700] .abs "ll_1123" "# cllAbs1123", .mk [701] .abs "ll_1212" "# cllAbs1212",
  .mk [702] .abs "ll_1213" "# cllAbs1213", .mk [703] .abs "ll_1231" "# cllAbs1231",
  .mk [704] .abs "ll_1222" "# cllAbs1222", .mk [705] .abs "ll_1223" "# cllAbs1223",
  .mk [706] .abs "ll_1232" "# cllAbs1232", .mk [707] .abs "ll_1233" "# cllAbs1233",
  .mk [708] .abs "ll_1313" "# cllAbs1313", .mk [709] .abs "ll_1322" "# cllAbs1322",
  .mk [710] .abs "ll_1332" "# cllAbs1332", .mk [711] .abs "ll_1323" "# cllAbs1323",
  .mk [712] .abs "ll_1333" "# cllAbs1333", .mk [713] .abs "ll_2223" "# cllAbs2223",
  .mk [714] .abs "ll_2323" "# cllAbs2323", .mk [715] .abs "ll_2333" "# cllAbs3323",
  .mk [716] .val "qq1_1111" "# cqq1Abs1111", .mk [717] .val "qq1_1122" "# cqq1Abs1122",
  .mk [718] .val "qq1_1221" "# cqq1Abs1221", .mk [719] .val "qq1_1133" "# cqq1Abs1133",
  .mk [720] .val "qq1_1331" "# cqq1Abs1331", .mk [721] .val "qq1_2222" "# cqq1Abs2222",
  .mk [722] .val "qq1_2233" "# cqq1Abs2233", .mk [723] .val "qq1_2332" "# cqq1Abs2332",
  .mk [724] .val "qq1_3333" "# cqq1Abs3333", .mk [725] .abs "qq1_1112" "# cqq1Abs1112",
  .mk [726] .abs "qq1_1113" "# cqq1Abs1113", .mk [727] .abs "qq1_1123" "# cqq1Abs1123",
  .mk [728] .abs "qq1_1212" "# cqq1Abs1212", .mk [729] .abs "qq1_1213" "# cqq1Abs1213",
  .mk [730] .abs "qq1_1231" "# cqq1Abs1231", .mk [731] .abs "qq1_1222" "# cqq1Abs1222",
  .mk [732] .abs "qq1_1223" "# cqq1Abs1223", .mk [733] .abs "qq1_1232" "# cqq1Abs1232",
  .mk [734] .abs "qq1_1233" "# cqq1Abs1233", .mk [735] .abs "qq1_1313" "# cqq1Abs1313",
  .mk [736] .abs "qq1_1322" "# cqq1Abs1322", .mk [737] .abs "qq1_1332" "# cqq1Abs1332",
  .mk [738] .abs "qq1_1323" "# cqq1Abs1323", .mk [739] .abs "qq1_1333" "# cqq1Abs1333",
  .mk [740] .abs "qq1_2223" "# cqq1Abs2223", .mk [741] .abs "qq1_2323" "# cqq1Abs2323",
  .mk [742] .abs "qq1_2333" "# cqq1Abs3323", .mk [743] .val "qq3_1111" "# cqq3Abs1111",
  .mk [744] .val "qq3_1122" "# cqq3Abs1122", .mk [745] .val "qq3_1221" "# cqq3Abs1221",
  .mk [746] .val "qq3_1133" "# cqq3Abs1133", .mk [747] .val "qq3_1331" "# cqq3Abs1331",
  .mk [748] .val "qq3_2222" "# cqq3Abs2222", .mk [749] .val "qq3_2233" "# cqq3Abs2233",
  .mk [750] .val "qq3_2332" "# cqq3Abs2332"]

/-- smeftsim.py:846-995, block `FRBlock` of set A. -/
noncomputable def rowsA_FRBlock_6 : List CRow := [
  .mk [751] .val "qq3_3333" "# cqq3Abs3333", .mk [752] .abs "qq3_1112" "# cqq3Abs1112",
  .mk [753] .abs "qq3_1113" "# cqq3Abs1113", .mk [754] .abs "qq3_1123" "# cqq3Abs1123",
  .mk [755] .abs "qq3_1212" "# cqq3Abs1212", .mk [756] .abs "qq3_1213" "# cqq3Abs1213",
  .mk [757] .abs "qq3_1231" "# cqq3Abs1231", .mk [758] .abs "qq3_1222" "# cqq3Abs1222",
  .mk [759] .abs "qq3_1223" "# cqq3Abs1223", .mk [760] .abs "qq3_1232" "# cqq3Abs1232",
  .mk [761] .abs "qq3_1233" "# cqq3Abs1233", .mk [762] .abs "qq3_1313" "# cqq3Abs1313",
  .mk [763] .abs "qq3_1322" "# cqq3Abs1322", .mk [764] .abs "qq3_1332" "# cqq3Abs1332",
  .mk [765] .abs "qq3_1323" "# cqq3Abs1323", .mk [766] .abs "qq3_1333" "# cqq3Abs1333",
  .mk [767] .abs "qq3_2223" "# cqq3Abs2223", .mk [768] .abs "qq3_2323" "# cqq3Abs2323",
  .mk [769] .abs "qq3_2333" "# cqq3Abs3323", .mk [770] .val "lq1_1111" "# clq1Abs1111",
  .mk [771] .abs "lq1_1112" "# clq1Abs1112", .mk [772] .abs "lq1_1113" "# clq1Abs1113",
  .mk [773] .abs "lq1_1123" "# clq1Abs1123", .mk [774] .val "lq1_1122" "# clq1Abs1122",
  .mk [775] .val "lq1_1133" "# clq1Abs1133", .mk [776] .abs "lq1_1211" "# clq1Abs1211",
  .mk [777] .abs "lq1_1212" "# clq1Abs1212", .mk [778] .abs "lq1_1221" "# clq1Abs1221",
  .mk [779] .abs "lq1_1213" "# clq1Abs1213", .mk [780] .abs "lq1_1231" "# clq1Abs1231",
  .mk [781] .abs "lq1_1222" "# clq1Abs1222", .mk [782] .abs "lq1_1223" "# clq1Abs1223",
  .mk [783] .abs "lq1_1232" "# clq1Abs1232", .mk [784] .abs "lq1_1233" "# clq1Abs1233",
  .mk [785] .abs "lq1_1311" "# clq1Abs1311", .mk [786] .abs "lq1_1312" "# clq1Abs1312",
  .mk [787] .abs "lq1_1313" "# clq1Abs1313", .mk [788] .abs "lq1_1331" "# clq1Abs1331",
  .mk [789] .abs "lq1_1321" "# clq1Abs1321", .mk [790] .abs "lq1_1322" "# clq1Abs1322",
  .mk [791] .abs "lq1_1332" "# clq1Abs1332", .mk [792] .abs "lq1_1323" "# clq1Abs1323",
  .mk [793] .abs "lq1_1333" "# clq1Abs1333", .mk [794] .val "lq1_2211" "# clq1Abs2211",
  .mk [795] .abs "lq1_2212" "# clq1Abs2212", .mk [796] .abs "lq1_2213" "# clq1Abs2213",
  .mk [797] .val "lq1_2222" "# clq1Abs2222", .mk [798] .abs "lq1_2223" "# clq1Abs2223",
  .mk [799] .val "lq1_2233" "# clq1Abs2233", .mk [800] .abs "lq1_2311" "# clq1Abs2311",
  .mk [801] .abs "lq1_2312" "# clq1Abs2312", .mk [802] .abs "lq1_2313" "# clq1Abs2313",
  .mk [803] .abs "lq1_2321" "# clq1Abs2321", .mk [804] .abs "lq1_2322" "# clq1Abs2322",
  .mk [805] .abs "lq1_2323" "# clq1Abs2323", .mk [806] .abs "lq1_2331" "# clq1Abs2331",
  .mk [807] .abs "lq1_2332" "# clq1Abs2332", .mk [808] .abs "lq1_2333" "# clq1Abs2333",
  .mk [809] .val "lq1_3311" "# clq1Abs3311", .mk [810] .abs "lq1_3312" "# clq1Abs3312",
  .mk [811] .abs "lq1_3313" "# clq1Abs3313", .mk [812] .val "lq1_3322" "# clq1Abs3322",
  .mk [813] .val "lq1_3333" "# clq1Abs3333", .mk [814] .abs "lq1_3323" "# clq1Abs3323",
  .mk [815] .val "lq3_1111" "# clq3Abs1111", .mk [816] .abs "lq3_1112" "# clq3Abs1112",
  .mk [817] .abs "lq3_1113" "# clq3Abs1113", .mk [818] .abs "lq3_1123" "# clq3Abs1123",
  .mk [819] .val "lq3_1122" "# clq3Abs1122", .mk [820] .val "lq3_1133" "# clq3Abs1133",
  .mk [821] .abs "lq3_1211" "# clq3Abs1211", .mk [822] .abs "lq3_1212" "# clq3Abs1212",
  .mk [823] .abs "lq3_1221" "# clq3Abs1221", .mk [824] .abs "lq3_1213" "# clq3Abs1213",
  .mk [825] .abs "lq3_1231" "# clq3Abs1231", .mk [826] .abs "lq3_1222" "# clq3Abs1222",
  .mk [827] .abs "lq3_1223" "# clq3Abs1223", .mk [828] .abs "lq3_1232" "# clq3Abs1232",
  .mk [829] .abs "lq3_1233" "# clq3Abs1233", .mk [830] .abs "lq3_1311" "# clq3Abs1311",
  .mk [831] .abs "lq3_1312" "# clq3Abs1312", .mk [832] .abs "lq3_1313" "# clq3Abs1313",
  .mk [833] .abs "lq3_1331" "# clq3Abs1331", .mk [834] .abs "lq3_1321" "# clq3Abs1321",
  .mk [835] .abs "lq3_1322" "# clq3Abs1322", .mk [836] .abs "lq3_1332" "# clq3Abs1332",
  .mk [837] .abs "lq3_1323" "# clq3Abs1323", .mk [838] .abs "lq3_1333" "# clq3Abs1333",
  .mk [839] .val "lq3_2211" "# clq3Abs2211", .mk [840] .abs "lq3_2212" "# clq3Abs2212",
  .mk [841] .abs "lq3_2213" "# clq3Abs2213", .mk [842] .val "lq3_2222" "# clq3Abs2222",
  .mk [843] .abs "lq3_2223" "# clq3Abs2223", .mk [844] .val "lq3_2233" "# clq3Abs2233",
  .mk [845] .abs "lq3_2311" "# clq3Abs2311", .mk [846] .abs "lq3_2312" "# clq3Abs2312",
  .mk [847] .abs "lq3_2313" "# clq3Abs2313", .mk [848] .abs "lq3_2321" "# clq3Abs2321",
  .mk [849] .abs "lq3_2322" "# clq3Abs2322", .mk [850] .abs "lq3_2323" "# clq3Abs2323",
  .mk [851] .abs "lq3_2331" "# clq3Abs2331", .mk [852] .abs "lq3_2332" "# clq3Abs2332",
  .mk [853] .abs "lq3_2333" "# clq3Abs2333", .mk [854] .val "lq3_3311" "# clq3Abs3311",
  .mk [855] .abs "lq3_3312" "# clq3Abs3312", .mk [856] .abs "lq3_3313" "# clq3Abs3313",
  .mk [857] .val "lq3_3322" "# clq3Abs3322", .mk [858] .val "lq3_3333" "# clq3Abs3333",
  .mk [859] .abs "lq3_3323" "# clq3Abs3323", .mk [860] .val "ee_1111" "# ceeAbs1111",
  .mk [861] .val "ee_1122" "# ceeAbs1122", .mk [862] .val "ee_1133" "# ceeAbs1133",
  .mk [863] .val "ee_2222" "# ceeAbs2222", .mk [864] .val "ee_2233" "# ceeAbs2233",
  .mk [865] .abs "ee_1112" "# ceeAbs1112", .mk [866] .abs "ee_3333" "# ceeAbs3333",
  .mk [867] .abs "ee_1123" "# ceeAbs1123", .mk [868] .abs "ee_1113" "# ceeAbs1113",
  .mk [869] .abs "ee_1213" "# ceeAbs1213", .mk [870] .abs "ee_1212" "# ceeAbs1212",
  .mk [871] .abs "ee_1232" "# ceeAbs1232", .mk [872] .abs "ee_1222" "# ceeAbs1222",
  .mk [873] .abs "ee_1313" "# ceeAbs1313", .mk [874] .abs "ee_1233" "# ceeAbs1233",
  .mk [875] .abs "ee_1323" "# ceeAbs1323", .mk [876] .abs "ee_1223" "# ceeAbs1322",
  .mk [877] .abs "ee_2223" "# ceeAbs2223", .mk [878] .abs "ee_1333" "# ceeAbs1333",
  .mk [879] .abs "ee_2333" "# ceeAbs3323", .mk [880] .abs "ee_2323" "# ceeAbs2323",
  .mk [881] .val "uu_1111" "# cuuAbs1111", .mk [882] .val "uu_1122" "# cuuAbs1122",
  .mk [883] .val "uu_1221" "# cuuAbs1221", .mk [884] .val "uu_1133" "# cuuAbs1133",
  .mk [885] .val "uu_1331" "# cuuAbs1331", .mk [886] .val "uu_2222" "# cuuAbs2222",
  .mk [887] .val "uu_2233" "# cuuAbs2233", .mk [888] .val "uu_2332" "# cuuAbs2332",
  .mk [889] .val "uu_3333" "# cuuAbs3333", .mk [890] .abs "uu_1112" "# cuuAbs1112",
  .mk [891] .abs "uu_1113" "# cuuAbs1113", .mk [892] .abs "uu_1123" "# cuuAbs1123",
  .mk [893] .abs "uu_1212" "# cuuAbs1212", .mk [894] .abs "uu_1213" "# cuuAbs1213",
  .mk [895] .abs "uu_1231" "# cuuAbs1231", .mk [896] .abs "uu_1222" "# cuuAbs1222",
  .mk [897] .abs "uu_1223" "# cuuAbs1223", .mk [898] .abs "uu_1232" "# cuuAbs1232",
  .mk [899] .abs "uu_1233" "# cuuAbs1233", .mk [900] .abs "uu_1313" "# cuuAbs1313"]

/-- smeftsim.py:996-1145, block `FRBlock` of set A. -/
noncomputable def rowsA_FRBlock_7 : List CRow := [
  .mk [901] .abs "uu_1322" "# cuuAbs1322", .mk [902] .abs "uu_1332" "# cuuAbs1332",
  .mk [903] .abs "uu_1323" "# cuuAbs1323", .mk [904] .abs "uu_1333" "# cuuAbs1333",
  .mk [905] .abs "uu_2223" "# cuuAbs2223", .mk [906] .abs "uu_2323" "# cuuAbs2323",
  .mk [907] .abs "uu_2333" "# cuuAbs3323", .mk [908] .val "dd_1111" "# cddAbs1111",
  .mk [909] .val "dd_1122" "# cddAbs1122", .mk [910] .val "dd_1221" "# cddAbs1221",
  .mk [911] .val "dd_1133" "# cddAbs1133", .mk [912] .val "dd_1331" "# cddAbs1331",
  .mk [913] .val "dd_2222" "# cddAbs2222", .mk [914] .val "dd_2233" "# cddAbs2233",
  .mk [915] .val "dd_2332" "# cddAbs2332", .mk [916] .val "dd_3333" "# cddAbs3333",
  .mk [917] .abs "dd_1112" "# cddAbs1112", .mk [918] .abs "dd_1113" "# cddAbs1113",
  .mk [919] .abs "dd_1123" "# cddAbs1123", .mk [920] .abs "dd_1212" "# cddAbs1212",
  .mk [921] .abs "dd_1213" "# cddAbs1213", .mk [922] .abs "dd_1231" "# cddAbs1231",
  .mk [923] .abs "dd_1222" "# cddAbs1222", .mk [924] .abs "dd_1223" "# cddAbs1223",
  .mk [925] .abs "dd_1232" "# cddAbs1232", .mk [926] .abs "dd_1233" "# cddAbs1233",
  .mk [927] .abs "dd_1313" "# cddAbs1313", .mk [928] .abs "dd_1322" "# cddAbs1322",
  .mk [929] .abs "dd_1332" "# cddAbs1332", .mk [930] .abs "dd_1323" "# cddAbs1323",
  .mk [931] .abs "dd_1333" "# cddAbs1333", .mk [932] .abs "dd_2223" "# cddAbs2223",
  .mk [933] .abs "dd_2323" "# cddAbs2323", .mk [934] .abs "dd_2333" "# cddAbs3323",
  .mk [935] .val "eu_1111" "# ceuAbs1111", .mk [936] .abs "eu_1112" "# ceuAbs1112",
  .mk [937] .abs "eu_1113" "# ceuAbs1113", .mk [938] .abs "eu_1123" "# ceuAbs1123",
  .mk [939] .val "eu_1122" "# ceuAbs1122", .mk [940] .val "eu_1133" "# ceuAbs1133",
  .mk [941] .abs "eu_1211" "# ceuAbs1211", .mk [942] .abs "eu_1212" "# ceuAbs1212",
  .mk [943] .abs "eu_1221" "# ceuAbs1221", .mk [944] .abs "eu_1213" "# ceuAbs1213",
  .mk [945] .abs "eu_1231" "# ceuAbs1231", .mk [946] .abs "eu_1222" "# ceuAbs1222",
  .mk [947] .abs "eu_1223" "# ceuAbs1223", .mk [948] .abs "eu_1232" "# ceuAbs1232",
  .mk [949] .abs "eu_1233" "# ceuAbs1233", .mk [950] .abs "eu_1311" "# ceuAbs1311",
  .mk [951] .abs "eu_1312" "# ceuAbs1312", .mk [952] .abs "eu_1313" "# ceuAbs1313",
  .mk [953] .abs "eu_1331" "# ceuAbs1331", .mk [954] .abs "eu_1321" "# ceuAbs1321",
  .mk [955] .abs "eu_1322" "# ceuAbs1322", .mk [956] .abs "eu_1332" "# ceuAbs1332",
  .mk [957] .abs "eu_1323" "# ceuAbs1323", .mk [958] .abs "eu_1333" "# ceuAbs1333",
  .mk [959] .val "eu_2211" "# ceuAbs2211", .mk [960] .abs "eu_2212" "# ceuAbs2212",
  .mk [961] .abs "eu_2213" "# ceuAbs2213", .mk [962] .val "eu_2222" "# ceuAbs2222",
  .mk [963] .abs "eu_2223" "# ceuAbs2223", .mk [964] .val "eu_2233" "# ceuAbs2233",
  .mk [965] .abs "eu_2311" "# ceuAbs2311", .mk [966] .abs "eu_2312" "# ceuAbs2312",
  .mk [967] .abs "eu_2313" "# ceuAbs2313", .mk [968] .abs "eu_2321" "# ceuAbs2321",
  .mk [969] .abs "eu_2322" "# ceuAbs2322", .mk [970] .abs "eu_2323" "# ceuAbs2323",
  .mk [971] .abs "eu_2331" "# ceuAbs2331", .mk [972] .abs "eu_2332" "# ceuAbs2332",
  .mk [973] .abs "eu_2333" "# ceuAbs2333", .mk [974] .val "eu_3311" "# ceuAbs3311",
  .mk [975] .abs "eu_3312" "# ceuAbs3312", .mk [976] .abs "eu_3313" "# ceuAbs3313",
  .mk [977] .val "eu_3322" "# ceuAbs3322", .mk [978] .val "eu_3333" "# ceuAbs3333",
  .mk [979] .abs "eu_3323" "# ceuAbs3323", .mk [980] .val "ed_1111" "# cedAbs1111",
  .mk [981] .abs "ed_1112" "# cedAbs1112", .mk [982] .abs "ed_1113" "# cedAbs1113",
  .mk [983] .abs "ed_1123" "# cedAbs1123", .mk [984] .val "ed_1122" "# cedAbs1122",
  .mk [985] .val "ed_1133" "# cedAbs1133", .mk [986] .abs "ed_1211" "# cedAbs1211",
  .mk [987] .abs "ed_1212" "# cedAbs1212", .mk [988] .abs "ed_1221" "# cedAbs1221",
  .mk [989] .abs "ed_1213" "# cedAbs1213", .mk [990] .abs "ed_1231" "# cedAbs1231",
  .mk [991] .abs "ed_1222" "# cedAbs1222", .mk [992] .abs "ed_1223" "# cedAbs1223",
  .mk [993] .abs "ed_1232" "# cedAbs1232", .mk [994] .abs "ed_1233" "# cedAbs1233",
  .mk [995] .abs "ed_1311" "# cedAbs1311", .mk [996] .abs "ed_1312" "# cedAbs1312",
  .mk [997] .abs "ed_1313" "# cedAbs1313", .mk [998] .abs "ed_1331" "# cedAbs1331",
  .mk [999] .abs "ed_1321" "# cedAbs1321", .mk [1000] .abs "ed_1322" "# cedAbs1322",
  .mk [1001] .abs "ed_1332" "# cedAbs1332", .mk [1002] .abs "ed_1323" "# cedAbs1323",
  .mk [1003] .abs "ed_1333" "# cedAbs1333", .mk [1004] .val "ed_2211" "# cedAbs2211",
  .mk [1005] .abs "ed_2212" "# cedAbs2212", .mk [1006] .abs "ed_2213" "# cedAbs2213",
  .mk [1007] .val "ed_2222" "# cedAbs2222", .mk [1008] .abs "ed_2223" "# cedAbs2223",
  .mk [1009] .val "ed_2233" "# cedAbs2233", .mk [1010] .abs "ed_2311" "# cedAbs2311",
  .mk [1011] .abs "ed_2312" "# cedAbs2312", .mk [1012] .abs "ed_2313" "# cedAbs2313",
  .mk [1013] .abs "ed_2321" "# cedAbs2321", .mk [1014] .abs "ed_2322" "# cedAbs2322",
  .mk [1015] .abs "ed_2323" "# cedAbs2323", .mk [1016] .abs "ed_2331" "# cedAbs2331",
  .mk [1017] .abs "ed_2332" "# cedAbs2332", .mk [1018] .abs "ed_2333" "# cedAbs2333",
  .mk [1019] .val "ed_3311" "# cedAbs3311", .mk [1020] .abs "ed_3312" "# cedAbs3312",
  .mk [1021] .abs "ed_3313" "# cedAbs3313", .mk [1022] .val "ed_3322" "# cedAbs3322",
  .mk [1023] .val "ed_3333" "# cedAbs3333", .mk [1024] .abs "ed_3323" "# cedAbs3323",
  .mk [1025] .val "ud1_1111" "# cud1Abs1111", .mk [1026] .abs "ud1_1112" "# cud1Abs1112",
  .mk [1027] .abs "ud1_1113" "# cud1Abs1113", .mk [1028] .abs "ud1_1123" "# cud1Abs1123",
  .mk [1029] .val "ud1_1122" "# cud1Abs1122", .mk [1030] .val "ud1_1133" "# cud1Abs1133",
  .mk [1031] .abs "ud1_1211" "# cud1Abs1211", .mk [1032] .abs "ud1_1212" "# cud1Abs1212",
  .mk [1033] .abs "ud1_1221" "# cud1Abs1221", .mk [1034] .abs "ud1_1213" "# cud1Abs1213",
  .mk [1035] .abs "ud1_1231" "# cud1Abs1231", .mk [1036] .abs "ud1_1222" "# cud1Abs1222",
  .mk [1037] .abs "ud1_1223" "# cud1Abs1223", .mk [1038] .abs "ud1_1232" "# cud1Abs1232",
  .mk [1039] .abs "ud1_1233" "# cud1Abs1233", .mk [1040] .abs "ud1_1311" "# cud1Abs1311",
  .mk [1041] .abs "ud1_1312" "# cud1Abs1312", .mk [1042] .abs "ud1_1313" "# cud1Abs1313",
  .mk [1043] .abs "ud1_1331" "# cud1Abs1331", .mk [1044] .abs "ud1_1321" "# cud1Abs1321",
  .mk [1045] .abs "ud1_1322" "# cud1Abs1322", .mk [1046] .abs "ud1_1332" "# cud1Abs1332",
  .mk [1047] .abs "ud1_1323" "# cud1Abs1323", .mk [1048] .abs "ud1_1333" "# cud1Abs1333",
  .mk [1049] .val "ud1_2211" "# cud1Abs2211", .mk [1050] .abs "ud1_2212" "# cud1Abs2212"]

/-- smeftsim.py:1146-1295, block `FRBlock` of set A. -/
noncomputable def rowsA_FRBlock_8 : List CRow := [
  .mk [1051] .abs "ud1_2213" "# cud1Abs2213", .mk [1052] .val "ud1_2222" "# cud1Abs2222",
  .mk [1053] .abs "ud1_2223" "# cud1Abs2223", .mk [1054] .val "ud1_2233" "# cud1Abs2233",
  .mk [1055] .abs "ud1_2311" "# cud1Abs2311", .mk [1056] .abs "ud1_2312" "# cud1Abs2312",
  .mk [1057] .abs "ud1_2313" "# cud1Abs2313", .mk [1058] .abs "ud1_2321" "# cud1Abs2321",
  .mk [1059] .abs "ud1_2322" "# cud1Abs2322", .mk [1060] .abs "ud1_2323" "# cud1Abs2323",
  .mk [1061] .abs "ud1_2331" "# cud1Abs2331", .mk [1062] .abs "ud1_2332" "# cud1Abs2332",
  .mk [1063] .abs "ud1_2333" "# cud1Abs2333", .mk [1064] .val "ud1_3311" "# cud1Abs3311",
  .mk [1065] .abs "ud1_3312" "# cud1Abs3312", .mk [1066] .abs "ud1_3313" "# cud1Abs3313",
  .mk [1067] .val "ud1_3322" "# cud1Abs3322", .mk [1068] .val "ud1_3333" "# cud1Abs3333",
  .mk [1069] .abs "ud1_3323" "# cud1Abs3323", .mk [1070] .val "ud8_1111" "# cud8Abs1111",
  .mk [1071] .abs "ud8_1112" "# cud8Abs1112", .mk [1072] .abs "ud8_1113" "# cud8Abs1113",
  .mk [1073] .abs "ud8_1123" "# cud8Abs1123", .mk [1074] .val "ud8_1122" "# cud8Abs1122",
  .mk [1075] .val "ud8_1133" "# cud8Abs1133", .mk [1076] .abs "ud8_1211" "# cud8Abs1211",
  .mk [1077] .abs "ud8_1212" "# cud8Abs1212", .mk [1078] .abs "ud8_1221" "# cud8Abs1221",
  .mk [1079] .abs "ud8_1213" "# cud8Abs1213", .mk [1080] .abs "ud8_1231" "# cud8Abs1231",
  .mk [1081] .abs "ud8_1222" "# cud8Abs1222", .mk [1082] .abs "ud8_1223" "# cud8Abs1223",
  .mk [1083] .abs "ud8_1232" "# cud8Abs1232", .mk [1084] .abs "ud8_1233" "# cud8Abs1233",
  .mk [1085] .abs "ud8_1311" "# cud8Abs1311", .mk [1086] .abs "ud8_1312" "# cud8Abs1312",
  .mk [1087] .abs "ud8_1313" "# cud8Abs1313", .mk [1088] .abs "ud8_1331" "# cud8Abs1331",
  .mk [1089] .abs "ud8_1321" "# cud8Abs1321", .mk [1090] .abs "ud8_1322" "# cud8Abs1322",
  .mk [1091] .abs "ud8_1332" "# cud8Abs1332", .mk [1092] .abs "ud8_1323" "# cud8Abs1323",
  .mk [1093] .abs "ud8_1333" "# cud8Abs1333", .mk [1094] .val "ud8_2211" "# cud8Abs2211",
  .mk [1095] .abs "ud8_2212" "# cud8Abs2212", .mk [1096] .abs "ud8_2213" "# cud8Abs2213",
  .mk [1097] .val "ud8_2222" "# cud8Abs2222", .mk [1098] .abs "ud8_2223" "# cud8Abs2223",
  .mk [1099] .val "ud8_2233" "# cud8Abs2233", .mk [1100] .abs "ud8_2311" "# cud8Abs2311",
  .mk [1101] .abs "ud8_2312" "# cud8Abs2312", .mk [1102] .abs "ud8_2313" "# cud8Abs2313",
  .mk [1103] .abs "ud8_2321" "# cud8Abs2321", .mk [1104] .abs "ud8_2322" "# cud8Abs2322",
  .mk [1105] .abs "ud8_2323" "# cud8Abs2323", .mk [1106] .abs "ud8_2331" "# cud8Abs2331",
  .mk [1107] .abs "ud8_2332" "# cud8Abs2332", .mk [1108] .abs "ud8_2333" "# cud8Abs2333",
  .mk [1109] .val "ud8_3311" "# cud8Abs3311", .mk [1110] .abs "ud8_3312" "# cud8Abs3312",
  .mk [1111] .abs "ud8_3313" "# cud8Abs3313", .mk [1112] .val "ud8_3322" "# cud8Abs3322",
  .mk [1113] .val "ud8_3333" "# cud8Abs3333", .mk [1114] .abs "ud8_3323" "# cud8Abs3323",
  .mk [1115] .val "le_1111" "# cleAbs1111", .mk [1116] .abs "le_1112" "# cleAbs1112",
  .mk [1117] .abs "le_1113" "# cleAbs1113", .mk [1118] .abs "le_1123" "# cleAbs1123",
  .mk [1119] .val "le_1122" "# cleAbs1122", .mk [1120] .val "le_1133" "# cleAbs1133",
  .mk [1121] .abs "le_1211" "# cleAbs1211", .mk [1122] .abs "le_1212" "# cleAbs1212",
  .mk [1123] .abs "le_1221" "# cleAbs1221", .mk [1124] .abs "le_1213" "# cleAbs1213",
  .mk [1125] .abs "le_1231" "# cleAbs1231", .mk [1126] .abs "le_1222" "# cleAbs1222",
  .mk [1127] .abs "le_1223" "# cleAbs1223", .mk [1128] .abs "le_1232" "# cleAbs1232",
  .mk [1129] .abs "le_1233" "# cleAbs1233", .mk [1130] .abs "le_1311" "# cleAbs1311",
  .mk [1131] .abs "le_1312" "# cleAbs1312", .mk [1132] .abs "le_1313" "# cleAbs1313",
  .mk [1133] .abs "le_1331" "# cleAbs1331", .mk [1134] .abs "le_1321" "# cleAbs1321",
  .mk [1135] .abs "le_1322" "# cleAbs1322", .mk [1136] .abs "le_1332" "# cleAbs1332",
  .mk [1137] .abs "le_1323" "# cleAbs1323", .mk [1138] .abs "le_1333" "# cleAbs1333",
  .mk [1139] .val "le_2211" "# cleAbs2211", .mk [1140] .abs "le_2212" "# cleAbs2212",
  .mk [1141] .abs "le_2213" "# cleAbs2213", .mk [1142] .val "le_2222" "# cleAbs2222",
  .mk [1143] .abs "le_2223" "# cleAbs2223", .mk [1144] .val "le_2233" "# cleAbs2233",
  .mk [1145] .abs "le_2311" "# cleAbs2311", .mk [1146] .abs "le_2312" "# cleAbs2312",
  .mk [1147] .abs "le_2313" "# cleAbs2313", .mk [1148] .abs "le_2321" "# cleAbs2321",
  .mk [1149] .abs "le_2322" "# cleAbs2322", .mk [1150] .abs "le_2323" "# cleAbs2323",
  .mk [1151] .abs "le_2331" "# cleAbs2331", .mk [1152] .abs "le_2332" "# cleAbs2332",
  .mk [1153] .abs "le_2333" "# cleAbs2333", .mk [1154] .val "le_3311" "# cleAbs3311",
  .mk [1155] .abs "le_3312" "# cleAbs3312", .mk [1156] .abs "le_3313" "# cleAbs3313",
  .mk [1157] .val "le_3322" "# cleAbs3322", .mk [1158] .val "le_3333" "# cleAbs3333",
  .mk [1159] .abs "le_3323" "# cleAbs3323", .mk [1160] .val "lu_1111" "# cluAbs1111",
  .mk [1161] .abs "lu_1112" "# cluAbs1112", .mk [1162] .abs "lu_1113" "# cluAbs1113",
  .mk [1163] .abs "lu_1123" "# cluAbs1123", .mk [1164] .val "lu_1122" "# cluAbs1122",
  .mk [1165] .val "lu_1133" "# cluAbs1133", .mk [1166] .abs "lu_1211" "# cluAbs1211",
  .mk [1167] .abs "lu_1212" "# cluAbs1212", .mk [1168] .abs "lu_1221" "# cluAbs1221",
  .mk [1169] .abs "lu_1213" "# cluAbs1213", .mk [1170] .abs "lu_1231" "# cluAbs1231",
  .mk [1171] .abs "lu_1222" "# cluAbs1222", .mk [1172] .abs "lu_1223" "# cluAbs1223",
  .mk [1173] .abs "lu_1232" "# cluAbs1232", .mk [1174] .abs "lu_1233" "# cluAbs1233",
  .mk [1175] .abs "lu_1311" "# cluAbs1311", .mk [1176] .abs "lu_1312" "# cluAbs1312",
  .mk [1177] .abs "lu_1313" "# cluAbs1313", .mk [1178] .abs "lu_1331" "# cluAbs1331",
  .mk [1179] .abs "lu_1321" "# cluAbs1321", .mk [1180] .abs "lu_1322" "# cluAbs1322",
  .mk [1181] .abs "lu_1332" "# cluAbs1332", .mk [1182] .abs "lu_1323" "# cluAbs1323",
  .mk [1183] .abs "lu_1333" "# cluAbs1333", .mk [1184] .val "lu_2211" "# cluAbs2211",
  .mk [1185] .abs "lu_2212" "# cluAbs2212", .mk [1186] .abs "lu_2213" "# cluAbs2213",
  .mk [1187] .val "lu_2222" "# cluAbs2222", .mk [1188] .abs "lu_2223" "# cluAbs2223",
  .mk [1189] .val "lu_2233" "# cluAbs2233", .mk [1190] .abs "lu_2311" "# cluAbs2311",
  .mk [1191] .abs "lu_2312" "# cluAbs2312", .mk [1192] .abs "lu_2313" "# cluAbs2313",
  .mk [1193] .abs "lu_2321" "# cluAbs2321", .mk [1194] .abs "lu_2322" "# cluAbs2322",
  .mk [1195] .abs "lu_2323" "# cluAbs2323", .mk [1196] .abs "lu_2331" "# cluAbs2331",
  .mk [1197] .abs "lu_2332" "# cluAbs2332", .mk [1198] .abs "lu_2333" "# cluAbs2333",
  .mk [1199] .val "lu_3311" "# cluAbs3311", .mk [1200] .abs "lu_3312" "# cluAbs3312"]

/-- smeftsim.py:1296-1445, block `FRBlock` of set A. -/
noncomputable def rowsA_FRBlock_9 : List CRow := [
  .mk [1201] .abs "lu_3313" "# cluAbs3313", .mk [1202] .val "lu_3322" "# cluAbs3322",
  .mk [1203] .val "lu_3333" "# cluAbs3333", .mk [1204] .abs "lu_3323" "# cluAbs3323",
  .mk [1205] .val "ld_1111" "# cldAbs1111", .mk [1206] .abs "ld_1112" "# cldAbs1112",
  .mk [1207] .abs "ld_1113" "# cldAbs1113", .mk [1208] .abs "ld_1123" "# cldAbs1123",
  .mk [1209] .val "ld_1122" "# cldAbs1122", .mk [1210] .val "ld_1133" "# cldAbs1133",
  .mk [1211] .abs "ld_1211" "# cldAbs1211", .mk [1212] .abs "ld_1212" "# cldAbs1212",
  .mk [1213] .abs "ld_1221" "# cldAbs1221", .mk [1214] .abs "ld_1213" "# cldAbs1213",
  .mk [1215] .abs "ld_1231" "# cldAbs1231", .mk [1216] .abs "ld_1222" "# cldAbs1222",
  .mk [1217] .abs "ld_1223" "# cldAbs1223", .mk [1218] .abs "ld_1232" "# cldAbs1232",
  .mk [1219] .abs "ld_1233" "# cldAbs1233", .mk [1220] .abs "ld_1311" "# cldAbs1311",
  .mk [1221] .abs "ld_1312" "# cldAbs1312", .mk [1222] .abs "ld_1313" "# cldAbs1313",
  .mk [1223] .abs "ld_1331" "# cldAbs1331", .mk [1224] .abs "ld_1321" "# cldAbs1321",
  .mk [1225] .abs "ld_1322" "# cldAbs1322", .mk [1226] .abs "ld_1332" "# cldAbs1332",
  .mk [1227] .abs "ld_1323" "# cldAbs1323", .mk [1228] .abs "ld_1333" "# cldAbs1333",
  .mk [1229] .val "ld_2211" "# cldAbs2211", .mk [1230] .abs "ld_2212" "# cldAbs2212",
  .mk [1231] .abs "ld_2213" "# cldAbs2213", .mk [1232] .val "ld_2222" "# cldAbs2222",
  .mk [1233] .abs "ld_2223" "# cldAbs2223", .mk [1234] .val "ld_2233" "# cldAbs2233",
  .mk [1235] .abs "ld_2311" "# cldAbs2311", .mk [1236] .abs "ld_2312" "# cldAbs2312",
  .mk [1237] .abs "ld_2313" "# cldAbs2313", .mk [1238] .abs "ld_2321" "# cldAbs2321",
  .mk [1239] .abs "ld_2322" "# cldAbs2322", .mk [1240] .abs "ld_2323" "# cldAbs2323",
  .mk [1241] .abs "ld_2331" "# cldAbs2331", .mk [1242] .abs "ld_2332" "# cldAbs2332",
  .mk [1243] .abs "ld_2333" "# cldAbs2333", .mk [1244] .val "ld_3311" "# cldAbs3311",
  .mk [1245] .abs "ld_3312" "# cldAbs3312", .mk [1246] .abs "ld_3313" "# cldAbs3313",
  .mk [1247] .val "ld_3322" "# cldAbs3322", .mk [1248] .val "ld_3333" "# cldAbs3333",
  .mk [1249] .abs "ld_3323" "# cldAbs3323", .mk [1250] .val "qe_1111" "# cqeAbs1111",
  .mk [1251] .abs "qe_1112" "# cqeAbs1112", .mk [1252] .abs "qe_1113" "# cqeAbs1113",
  .mk [1253] .abs "qe_1123" "# cqeAbs1123", .mk [1254] .val "qe_1122" "# cqeAbs1122",
  .mk [1255] .val "qe_1133" "# cqeAbs1133", .mk [1256] .abs "qe_1211" "# cqeAbs1211",
  .mk [1257] .abs "qe_1212" "# cqeAbs1212", .mk [1258] .abs "qe_1221" "# cqeAbs1221",
  .mk [1259] .abs "qe_1213" "# cqeAbs1213", .mk [1260] .abs "qe_1231" "# cqeAbs1231",
  .mk [1261] .abs "qe_1222" "# cqeAbs1222", .mk [1262] .abs "qe_1223" "# cqeAbs1223",
  .mk [1263] .abs "qe_1232" "# cqeAbs1232", .mk [1264] .abs "qe_1233" "# cqeAbs1233",
  .mk [1265] .abs "qe_1311" "# cqeAbs1311", .mk [1266] .abs "qe_1312" "# cqeAbs1312",
  .mk [1267] .abs "qe_1313" "# cqeAbs1313", .mk [1268] .abs "qe_1331" "# cqeAbs1331",
  .mk [1269] .abs "qe_1321" "# cqeAbs1321", .mk [1270] .abs "qe_1322" "# cqeAbs1322",
  .mk [1271] .abs "qe_1332" "# cqeAbs1332", .mk [1272] .abs "qe_1323" "# cqeAbs1323",
  .mk [1273] .abs "qe_1333" "# cqeAbs1333", .mk [1274] .val "qe_2211" "# cqeAbs2211",
  .mk [1275] .abs "qe_2212" "# cqeAbs2212", .mk [1276] .abs "qe_2213" "# cqeAbs2213",
  .mk [1277] .val "qe_2222" "# cqeAbs2222", .mk [1278] .abs "qe_2223" "# cqeAbs2223",
  .mk [1279] .val "qe_2233" "# cqeAbs2233", .mk [1280] .abs "qe_2311" "# cqeAbs2311",
  .mk [1281] .abs "qe_2312" "# cqeAbs2312", .mk [1282] .abs "qe_2313" "# cqeAbs2313",
  .mk [1283] .abs "qe_2321" "# cqeAbs2321", .mk [1284] .abs "qe_2322" "# cqeAbs2322",
  .mk [1285] .abs "qe_2323" "# cqeAbs2323", .mk [1286] .abs "qe_2331" "# cqeAbs2331",
  .mk [1287] .abs "qe_2332" "# cqeAbs2332", .mk [1288] .abs "qe_2333" "# cqeAbs2333",
  .mk [1289] .val "qe_3311" "# cqeAbs3311", .mk [1290] .abs "qe_3312" "# cqeAbs3312",
  .mk [1291] .abs "qe_3313" "# cqeAbs3313", .mk [1292] .val "qe_3322" "# cqeAbs3322",
  .mk [1293] .val "qe_3333" "# cqeAbs3333", .mk [1294] .abs "qe_3323" "# cqeAbs3323",
  .mk [1295] .val "qu1_1111" "# cqu1Abs1111", .mk [1296] .abs "qu1_1112" "# cqu1Abs1112",
  .mk [1297] .abs "qu1_1113" "# cqu1Abs1113", .mk [1298] .abs "qu1_1123" "# cqu1Abs1123",
  .mk [1299] .val "qu1_1122" "# cqu1Abs1122", .mk [1300] .val "qu1_1133" "# cqu1Abs1133",
  .mk [1301] .abs "qu1_1211" "# cqu1Abs1211", .mk [1302] .abs "qu1_1212" "# cqu1Abs1212",
  .mk [1303] .abs "qu1_1221" "# cqu1Abs1221", .mk [1304] .abs "qu1_1213" "# cqu1Abs1213",
  .mk [1305] .abs "qu1_1231" "# cqu1Abs1231", .mk [1306] .abs "qu1_1222" "# cqu1Abs1222",
  .mk [1307] .abs "qu1_1223" "# cqu1Abs1223", .mk [1308] .abs "qu1_1232" "# cqu1Abs1232",
  .mk [1309] .abs "qu1_1233" "# cqu1Abs1233", .mk [1310] .abs "qu1_1311" "# cqu1Abs1311",
  .mk [1311] .abs "qu1_1312" "# cqu1Abs1312", .mk [1312] .abs "qu1_1313" "# cqu1Abs1313",
  .mk [1313] .abs "qu1_1331" "# cqu1Abs1331", .mk [1314] .abs "qu1_1321" "# cqu1Abs1321",
  .mk [1315] .abs "qu1_1322" "# cqu1Abs1322", .mk [1316] .abs "qu1_1332" "# cqu1Abs1332",
  .mk [1317] .abs "qu1_1323" "# cqu1Abs1323", .mk [1318] .abs "qu1_1333" "# cqu1Abs1333",
  .mk [1319] .val "qu1_2211" "# cqu1Abs2211", .mk [1320] .abs "qu1_2212" "# cqu1Abs2212",
  .mk [1321] .abs "qu1_2213" "# cqu1Abs2213", .mk [1322] .val "qu1_2222" "# cqu1Abs2222",
  .mk [1323] .abs "qu1_2223" "# cqu1Abs2223", .mk [1324] .val "qu1_2233" "# cqu1Abs2233",
  .mk [1325] .abs "qu1_2311" "# cqu1Abs2311", .mk [1326] .abs "qu1_2312" "# cqu1Abs2312",
  .mk [1327] .abs "qu1_2313" "# cqu1Abs2313", .mk [1328] .abs "qu1_2321" "# cqu1Abs2321",
  .mk [1329] .abs "qu1_2322" "# cqu1Abs2322", .mk [1330] .abs "qu1_2323" "# cqu1Abs2323",
  .mk [1331] .abs "qu1_2331" "# cqu1Abs2331", .mk [1332] .abs "qu1_2332" "# cqu1Abs2332",
  .mk [1333] .abs "qu1_2333" "# cqu1Abs2333", .mk [1334] .val "qu1_3311" "# cqu1Abs3311",
  .mk [1335] .abs "qu1_3312" "# cqu1Abs3312", .mk [1336] .abs "qu1_3313" "# cqu1Abs3313",
  .mk [1337] .val "qu1_3322" "# cqu1Abs3322", .mk [1338] .val "qu1_3333" "# cqu1Abs3333",
  .mk [1339] .abs "qu1_3323" "# cqu1Abs3323", .mk [1340] .val "qu8_1111" "# cqu8Abs1111",
  .mk [1341] .abs "qu8_1112" "# cqu8Abs1112", .mk [1342] .abs "qu8_1113" "# cqu8Abs1113",
  .mk [1343] .abs "qu8_1123" "# cqu8Abs1123", .mk [1344] .val "qu8_1122" "# cqu8Abs1122",
  .mk [1345] .val "qu8_1133" "# cqu8Abs1133", .mk [1346] .abs "qu8_1211" "# cqu8Abs1211",
  .mk [1347] .abs "qu8_1212" "# cqu8Abs1212", .mk [1348] .abs "qu8_1221" "# cqu8Abs1221",
  .mk [1349] .abs "qu8_1213" "# cqu8Abs1213", .mk [1350] .abs "qu8_1231" "# cqu8Abs1231"]

/-- smeftsim.py:1446-1569, block `FRBlock` of set A. -/
noncomputable def rowsA_FRBlock_10 : List CRow := [
  .mk [1351] .abs "qu8_1222" "# cqu8Abs1222", .mk [1352] .abs "qu8_1223" "# cqu8Abs1223",
  .mk [1353] .abs "qu8_1232" "# cqu8Abs1232", .mk [1354] .abs "qu8_1233" "# cqu8Abs1233",
  .mk [1355] .abs "qu8_1311" "# cqu8Abs1311", .mk [1356] .abs "qu8_1312" "# cqu8Abs1312",
  .mk [1357] .abs "qu8_1313" "# cqu8Abs1313", .mk [1358] .abs "qu8_1331" "# cqu8Abs1331",
  .mk [1359] .abs "qu8_1321" "# cqu8Abs1321", .mk [1360] .abs "qu8_1322" "# cqu8Abs1322",
  .mk [1361] .abs "qu8_1332" "# cqu8Abs1332", .mk [1362] .abs "qu8_1323" "# cqu8Abs1323",
  .mk [1363] .abs "qu8_1333" "# cqu8Abs1333", .mk [1364] .val "qu8_2211" "# cqu8Abs2211",
  .mk [1365] .abs "qu8_2212" "# cqu8Abs2212", .mk [1366] .abs "qu8_2213" "# cqu8Abs2213",
  .mk [1367] .val "qu8_2222" "# cqu8Abs2222", .mk [1368] .abs "qu8_2223" "# cqu8Abs2223",
  .mk [1369] .val "qu8_2233" "# cqu8Abs2233", .mk [1370] .abs "qu8_2311" "# cqu8Abs2311",
  .mk [1371] .abs "qu8_2312" "# cqu8Abs2312", .mk [1372] .abs "qu8_2313" "# cqu8Abs2313",
  .mk [1373] .abs "qu8_2321" "# cqu8Abs2321", .mk [1374] .abs "qu8_2322" "# cqu8Abs2322",
  .mk [1375] .abs "qu8_2323" "# cqu8Abs2323", .mk [1376] .abs "qu8_2331" "# cqu8Abs2331",
  .mk [1377] .abs "qu8_2332" "# cqu8Abs2332", .mk [1378] .abs "qu8_2333" "# cqu8Abs2333",
  .mk [1379] .val "qu8_3311" "# cqu8Abs3311", .mk [1380] .abs "qu8_3312" "# cqu8Abs3312",
  .mk [1381] .abs "qu8_3313" "# cqu8Abs3313", .mk [1382] .val "qu8_3322" "# cqu8Abs3322",
  .mk [1383] .val "qu8_3333" "# cqu8Abs3333", .mk [1384] .abs "qu8_3323" "# cqu8Abs3323",
  .mk [1385] .val "qd1_1111" "# cqd1Abs1111", .mk [1386] .abs "qd1_1112" "# cqd1Abs1112",
  .mk [1387] .abs "qd1_1113" "# cqd1Abs1113", .mk [1388] .abs "qd1_1123" "# cqd1Abs1123",
  .mk [1389] .val "qd1_1122" "# cqd1Abs1122", .mk [1390] .val "qd1_1133" "# cqd1Abs1133",
  .mk [1391] .abs "qd1_1211" "# cqd1Abs1211", .mk [1392] .abs "qd1_1212" "# cqd1Abs1212",
  .mk [1393] .abs "qd1_1221" "# cqd1Abs1221", .mk [1394] .abs "qd1_1213" "# cqd1Abs1213",
  .mk [1395] .abs "qd1_1231" "# cqd1Abs1231", .mk [1396] .abs "qd1_1222" "# cqd1Abs1222",
  .mk [1397] .abs "qd1_1223" "# cqd1Abs1223", .mk [1398] .abs "qd1_1232" "# cqd1Abs1232",
  .mk [1399] .abs "qd1_1233" "# cqd1Abs1233", .mk [1400] .abs "qd1_1311" "# cqd1Abs1311",
  .mk [1401] .abs "qd1_1312" "# cqd1Abs1312", .mk [1402] .abs "qd1_1313" "# cqd1Abs1313",
  .mk [1403] .abs "qd1_1331" "# cqd1Abs1331", .mk [1404] .abs "qd1_1321" "# cqd1Abs1321",
  .mk [1405] .abs "qd1_1322" "# cqd1Abs1322", .mk [1406] .abs "qd1_1332" "# cqd1Abs1332",
  .mk [1407] .abs "qd1_1323" "# cqd1Abs1323", .mk [1408] .abs "qd1_1333" "# cqd1Abs1333",
  .mk [1409] .val "qd1_2211" "# cqd1Abs2211", .mk [1410] .abs "qd1_2212" "# cqd1Abs2212",
  .mk [1411] .abs "qd1_2213" "# cqd1Abs2213", .mk [1412] .val "qd1_2222" "# cqd1Abs2222",
  .mk [1413] .abs "qd1_2223" "# cqd1Abs2223", .mk [1414] .val "qd1_2233" "# cqd1Abs2233",
  .mk [1415] .abs "qd1_2311" "# cqd1Abs2311", .mk [1416] .abs "qd1_2312" "# cqd1Abs2312",
  .mk [1417] .abs "qd1_2313" "# cqd1Abs2313", .mk [1418] .abs "qd1_2321" "# cqd1Abs2321",
  .mk [1419] .abs "qd1_2322" "# cqd1Abs2322", .mk [1420] .abs "qd1_2323" "# cqd1Abs2323",
  .mk [1421] .abs "qd1_2331" "# cqd1Abs2331", .mk [1422] .abs "qd1_2332" "# cqd1Abs2332",
  .mk [1423] .abs "qd1_2333" "# cqd1Abs2333", .mk [1424] .val "qd1_3311" "# cqd1Abs3311",
  .mk [1425] .abs "qd1_3312" "# cqd1Abs3312", .mk [1426] .abs "qd1_3313" "# cqd1Abs3313",
  .mk [1427] .val "qd1_3322" "# cqd1Abs3322", .mk [1428] .val "qd1_3333" "# cqd1Abs3333",
  .mk [1429] .abs "qd1_3323" "# cqd1Abs3323", .mk [1430] .val "qd8_1111" "# cqd8Abs1111",
  .mk [1431] .abs "qd8_1112" "# cqd8Abs1112", .mk [1432] .abs "qd8_1113" "# cqd8Abs1113",
  .mk [1433] .abs "qd8_1123" "# cqd8Abs1123", .mk [1434] .val "qd8_1122" "# cqd8Abs1122",
  .mk [1435] .val "qd8_1133" "# cqd8Abs1133", .mk [1436] .abs "qd8_1211" "# cqd8Abs1211",
  .mk [1437] .abs "qd8_1212" "# cqd8Abs1212", .mk [1438] .abs "qd8_1221" "# cqd8Abs1221",
  .mk [1439] .abs "qd8_1213" "# cqd8Abs1213", .mk [1440] .abs "qd8_1231" "# cqd8Abs1231",
  .mk [1441] .abs "qd8_1222" "# cqd8Abs1222", .mk [1442] .abs "qd8_1223" "# cqd8Abs1223",
  .mk [1443] .abs "qd8_1232" "# cqd8Abs1232", .mk [1444] .abs "qd8_1233" "# cqd8Abs1233",
  .mk [1445] .abs "qd8_1311" "# cqd8Abs1311", .mk [1446] .abs "qd8_1312" "# cqd8Abs1312",
  .mk [1447] .abs "qd8_1313" "# cqd8Abs1313", .mk [1448] .abs "qd8_1331" "# cqd8Abs1331",
  .mk [1449] .abs "qd8_1321" "# cqd8Abs1321", .mk [1450] .abs "qd8_1322" "# cqd8Abs1322",
  .mk [1451] .abs "qd8_1332" "# cqd8Abs1332", .mk [1452] .abs "qd8_1323" "# cqd8Abs1323",
  .mk [1453] .abs "qd8_1333" "# cqd8Abs1333", .mk [1454] .val "qd8_2211" "# cqd8Abs2211",
  .mk [1455] .abs "qd8_2212" "# cqd8Abs2212", .mk [1456] .abs "qd8_2213" "# cqd8Abs2213",
  .mk [1457] .val "qd8_2222" "# cqd8Abs2222", .mk [1458] .abs "qd8_2223" "# cqd8Abs2223",
  .mk [1459] .val "qd8_2233" "# cqd8Abs2233", .mk [1460] .abs "qd8_2311" "# cqd8Abs2311",
  .mk [1461] .abs "qd8_2312" "# cqd8Abs2312", .mk [1462] .abs "qd8_2313" "# cqd8Abs2313",
  .mk [1463] .abs "qd8_2321" "# cqd8Abs2321", .mk [1464] .abs "qd8_2322" "# cqd8Abs2322",
  .mk [1465] .abs "qd8_2323" "# cqd8Abs2323", .mk [1466] .abs "qd8_2331" "# cqd8Abs2331",
  .mk [1467] .abs "qd8_2332" "# cqd8Abs2332", .mk [1468] .abs "qd8_2333" "# cqd8Abs2333",
  .mk [1469] .val "qd8_3311" "# cqd8Abs3311", .mk [1470] .abs "qd8_3312" "# cqd8Abs3312",
  .mk [1471] .abs "qd8_3313" "# cqd8Abs3313", .mk [1472] .val "qd8_3322" "# cqd8Abs3322",
  .mk [1473] .val "qd8_3333" "# cqd8Abs3333", .mk [1474] .abs "qd8_3323" "# cqd8Abs3323"]

/-- smeftsim.py:1573-1581, block `FRBlock10` of set A. -/
noncomputable def rowsA_FRBlock10 : List CRow := [
  .mk [1, 1] .ph "phiud_11" "# cHudPh1x1", .mk [1, 2] .ph "phiud_12" "# cHudPh1x2",
  .mk [1, 3] .ph "phiud_13" "# cHudPh1x3", .mk [2, 1] .ph "phiud_21" "# cHudPh2x1",
  .mk [2, 2] .ph "phiud_22" "# cHudPh2x2", .mk [2, 3] .ph "phiud_23" "# cHudPh2x3",
  .mk [3, 1] .ph "phiud_31" "# cHudPh3x1", .mk [3, 2] .ph "phiud_32" "# cHudPh3x2",
  .mk [3, 3] .ph "phiud_33" "# cHudPh3x3"]

/-- smeftsim.py:1585-1593, block `FRBlock11` of set A. -/
noncomputable def rowsA_FRBlock11 : List CRow := [
  .mk [1, 1] .ph "ephi_11" "# ceHPh1x1", .mk [1, 2] .ph "ephi_12" "# ceHPh1x2",
  .mk [1, 3] .ph "ephi_13" "# ceHPh1x3", .mk [2, 1] .ph "ephi_21" "# ceHPh2x1",
  .mk [2, 2] .ph "ephi_22" "# ceHPh2x2", .mk [2, 3] .ph "ephi_23" "# ceHPh2x3",
  .mk [3, 1] .ph "ephi_31" "# ceHPh3x1", .mk [3, 2] .ph "ephi_32" "# ceHPh3x2", .mk [3, 3] .ph "ephi_33" "# ceHPh3x3"]

/-- smeftsim.py:1597-1605, block `FRBlock12` of set A. -/
noncomputable def rowsA_FRBlock12 : List CRow := [
  .mk [1, 1] .ph "uphi_11" "# cuHPh1x1", .mk [1, 2] .ph "uphi_12" "# cuHPh1x2",
  .mk [1, 3] .ph "uphi_13" "# cuHPh1x3", .mk [2, 1] .ph "uphi_21" "# cuHPh2x1",
  .mk [2, 2] .ph "uphi_22" "# cuHPh2x2", .mk [2, 3] .ph "uphi_23" "# cuHPh2x3",
  .mk [3, 1] .ph "uphi_31" "# cuHPh3x1", .mk [3, 2] .ph "uphi_32" "# cuHPh3x2", .mk [3, 3] .ph "uphi_33" "# cuHPh3x3"]

/-- smeftsim.py:1609-1617, block `FRBlock13` of set A. -/
noncomputable def rowsA_FRBlock13 : List CRow := [
  .mk [1, 1] .ph "dphi_11" "# cdHPh1x1", .mk [1, 2] .ph "dphi_12" "# cdHPh1x2",
  .mk [1, 3] .ph "dphi_13" "# cdHPh1x3", .mk [2, 1] .ph "dphi_21" "# cdHPh2x1",
  .mk [2, 2] .ph "dphi_22" "# cdHPh2x2", .mk [2, 3] .ph "dphi_23" "# cdHPh2x3",
  .mk [3, 1] .ph "dphi_31" "# cdHPh3x1", .mk [3, 2] .ph "dphi_32" "# cdHPh3x2", .mk [3, 3] .ph "dphi_33" "# cdHPh3x3"]

/-- smeftsim.py:1621-1701, block `FRBlock14` of set A. -/
noncomputable def rowsA_FRBlock14 : List CRow := [
  .mk [1, 1, 1, 1] .ph "ledq_1111" "# cledqPh1x1x1x1", .mk [1, 1, 1, 2] .ph "ledq_1112" "# cledqPh1x1x1x2",
  .mk [1, 1, 1, 3] .ph "ledq_1113" "# cledqPh1x1x1x3", .mk [1, 1, 2, 1] .ph "ledq_1121" "# cledqPh1x1x2x1",
  .mk [1, 1, 2, 2] .ph "ledq_1122" "# cledqPh1x1x2x2", .mk [1, 1, 2, 3] .ph "ledq_1123" "# cledqPh1x1x2x3",
  .mk [1, 1, 3, 1] .ph "ledq_1131" "# cledqPh1x1x3x1", .mk [1, 1, 3, 2] .ph "ledq_1132" "# cledqPh1x1x3x2",
  .mk [1, 1, 3, 3] .ph "ledq_1133" "# cledqPh1x1x3x3", .mk [1, 2, 1, 1] .ph "ledq_1211" "# cledqPh1x2x1x1",
  .mk [1, 2, 1, 2] .ph "ledq_1212" "# cledqPh1x2x1x2", .mk [1, 2, 1, 3] .ph "ledq_1213" "# cledqPh1x2x1x3",
  .mk [1, 2, 2, 1] .ph "ledq_1221" "# cledqPh1x2x2x1", .mk [1, 2, 2, 2] .ph "ledq_1222" "# cledqPh1x2x2x2",
  .mk [1, 2, 2, 3] .ph "ledq_1223" "# cledqPh1x2x2x3", .mk [1, 2, 3, 1] .ph "ledq_1231" "# cledqPh1x2x3x1",
  .mk [1, 2, 3, 2] .ph "ledq_1232" "# cledqPh1x2x3x2", .mk [1, 2, 3, 3] .ph "ledq_1233" "# cledqPh1x2x3x3",
  .mk [1, 3, 1, 1] .ph "ledq_1311" "# cledqPh1x3x1x1", .mk [1, 3, 1, 2] .ph "ledq_1312" "# cledqPh1x3x1x2",
  .mk [1, 3, 1, 3] .ph "ledq_1313" "# cledqPh1x3x1x3", .mk [1, 3, 2, 1] .ph "ledq_1321" "# cledqPh1x3x2x1",
  .mk [1, 3, 2, 2] .ph "ledq_1322" "# cledqPh1x3x2x2", .mk [1, 3, 2, 3] .ph "ledq_1323" "# cledqPh1x3x2x3",
  .mk [1, 3, 3, 1] .ph "ledq_1331" "# cledqPh1x3x3x1", .mk [1, 3, 3, 2] .ph "ledq_1332" "# cledqPh1x3x3x2",
  .mk [1, 3, 3, 3] .ph "ledq_1333" "# cledqPh1x3x3x3", .mk [2, 1, 1, 1] .ph "ledq_2111" "# cledqPh2x1x1x1",
  .mk [2, 1, 1, 2] .ph "ledq_2112" "# cledqPh2x1x1x2", .mk [2, 1, 1, 3] .ph "ledq_2113" "# cledqPh2x1x1x3",
  .mk [2, 1, 2, 1] .ph "ledq_2121" "# cledqPh2x1x2x1", .mk [2, 1, 2, 2] .ph "ledq_2122" "# cledqPh2x1x2x2",
  .mk [2, 1, 2, 3] .ph "ledq_2123" "# cledqPh2x1x2x3", .mk [2, 1, 3, 1] .ph "ledq_2131" "# cledqPh2x1x3x1",
  .mk [2, 1, 3, 2] .ph "ledq_2132" "# cledqPh2x1x3x2", .mk [2, 1, 3, 3] .ph "ledq_2133" "# cledqPh2x1x3x3",
  .mk [2, 2, 1, 1] .ph "ledq_2211" "# cledqPh2x2x1x1", .mk [2, 2, 1, 2] .ph "ledq_2212" "# cledqPh2x2x1x2",
  .mk [2, 2, 1, 3] .ph "ledq_2213" "# cledqPh2x2x1x3", .mk [2, 2, 2, 1] .ph "ledq_2221" "# cledqPh2x2x2x1",
  .mk [2, 2, 2, 2] .ph "ledq_2222" "# cledqPh2x2x2x2", .mk [2, 2, 2, 3] .ph "ledq_2223" "# cledqPh2x2x2x3",
  .mk [2, 2, 3, 1] .ph "ledq_2231" "# cledqPh2x2x3x1", .mk [2, 2, 3, 2] .ph "ledq_2232" "# cledqPh2x2x3x2",
  .mk [2, 2, 3, 3] .ph "ledq_2233" "# cledqPh2x2x3x3", .mk [2, 3, 1, 1] .ph "ledq_2311" "# cledqPh2x3x1x1",
  .mk [2, 3, 1, 2] .ph "ledq_2312" "# cledqPh2x3x1x2", .mk [2, 3, 1, 3] .ph "ledq_2313" "# cledqPh2x3x1x3",
  .mk [2, 3, 2, 1] .ph "ledq_2321" "# cledqPh2x3x2x1", .mk [2, 3, 2, 2] .ph "ledq_2322" "# cledqPh2x3x2x2",
  .mk [2, 3, 2, 3] .ph "ledq_2323" "# cledqPh2x3x2x3", .mk [2, 3, 3, 1] .ph "ledq_2331" "# cledqPh2x3x3x1",
  .mk [2, 3, 3, 2] .ph "ledq_2332" "# cledqPh2x3x3x2", .mk [2, 3, 3, 3] .ph "ledq_2333" "# cledqPh2x3x3x3",
  .mk [3, 1, 1, 1] .ph "ledq_3111" "# cledqPh3x1x1x1", .mk [3, 1, 1, 2] .ph "ledq_3112" "# cledqPh3x1x1x2",
  .mk [3, 1, 1, 3] .ph "ledq_3113" "# cledqPh3x1x1x3", .mk [3, 1, 2, 1] .ph "ledq_3121" "# cledqPh3x1x2x1",
  .mk [3, 1, 2, 2] .ph "ledq_3122" "# cledqPh3x1x2x2", .mk [3, 1, 2, 3] .ph "ledq_3123" "# cledqPh3x1x2x3",
  .mk [3, 1, 3, 1] .ph "ledq_3131" "# cledqPh3x1x3x1", .mk [3, 1, 3, 2] .ph "ledq_3132" "# cledqPh3x1x3x2",
  .mk [3, 1, 3, 3] .ph "ledq_3133" "# cledqPh3x1x3x3", .mk [3, 2, 1, 1] .ph "ledq_3211" "# cledqPh3x2x1x1",
  .mk [3, 2, 1, 2] .ph "ledq_3212" "# cledqPh3x2x1x2", .mk [3, 2, 1, 3] .ph "ledq_3213" "# cledqPh3x2x1x3",
  .mk [3, 2, 2, 1] .ph "ledq_3221" "# cledqPh3x2x2x1", .mk [3, 2, 2, 2] .ph "ledq_3222" "# cledqPh3x2x2x2",
  .mk [3, 2, 2, 3] .ph "ledq_3223" "# cledqPh3x2x2x3", .mk [3, 2, 3, 1] .ph "ledq_3231" "# cledqPh3x2x3x1",
  .mk [3, 2, 3, 2] .ph "ledq_3232" "# cledqPh3x2x3x2", .mk [3, 2, 3, 3] .ph "ledq_3233" "# cledqPh3x2x3x3",
  .mk [3, 3, 1, 1] .ph "ledq_3311" "# cledqPh3x3x1x1", .mk [3, 3, 1, 2] .ph "ledq_3312" "# cledqPh3x3x1x2",
  .mk [3, 3, 1, 3] .ph "ledq_3313" "# cledqPh3x3x1x3", .mk [3, 3, 2, 1] .ph "ledq_3321" "# cledqPh3x3x2x1",
  .mk [3, 3, 2, 2] .ph "ledq_3322" "# cledqPh3x3x2x2", .mk [3, 3, 2, 3] .ph "ledq_3323" "# cledqPh3x3x2x3",
  .mk [3, 3, 3, 1] .ph "ledq_3331" "# cledqPh3x3x3x1", .mk [3, 3, 3, 2] .ph "ledq_3332" "# cledqPh3x3x3x2",
  .mk [3, 3, 3, 3] .ph "ledq_3333" "# cledqPh3x3x3x3"]

/-- smeftsim.py:1705-1785, block `FRBlock15` of set A. -/
noncomputable def rowsA_FRBlock15 : List CRow := [
  .mk [1, 1, 1, 1] .ph "quqd1_1111" "# cquqd1Ph1x1x1x1", .mk [1, 1, 1, 2] .ph "quqd1_1112" "# cquqd1Ph1x1x1x2",
  .mk [1, 1, 1, 3] .ph "quqd1_1113" "# cquqd1Ph1x1x1x3", .mk [1, 1, 2, 1] .ph "quqd1_1121" "# cquqd1Ph1x1x2x1",
  .mk [1, 1, 2, 2] .ph "quqd1_1122" "# cquqd1Ph1x1x2x2", .mk [1, 1, 2, 3] .ph "quqd1_1123" "# cquqd1Ph1x1x2x3",
  .mk [1, 1, 3, 1] .ph "quqd1_1131" "# cquqd1Ph1x1x3x1", .mk [1, 1, 3, 2] .ph "quqd1_1132" "# cquqd1Ph1x1x3x2",
  .mk [1, 1, 3, 3] .ph "quqd1_1133" "# cquqd1Ph1x1x3x3", .mk [1, 2, 1, 1] .ph "quqd1_1211" "# cquqd1Ph1x2x1x1",
  .mk [1, 2, 1, 2] .ph "quqd1_1212" "# cquqd1Ph1x2x1x2", .mk [1, 2, 1, 3] .ph "quqd1_1213" "# cquqd1Ph1x2x1x3",
  .mk [1, 2, 2, 1] .ph "quqd1_1221" "# cquqd1Ph1x2x2x1", .mk [1, 2, 2, 2] .ph "quqd1_1222" "# cquqd1Ph1x2x2x2",
  .mk [1, 2, 2, 3] .ph "quqd1_1223" "# cquqd1Ph1x2x2x3", .mk [1, 2, 3, 1] .ph "quqd1_1231" "# cquqd1Ph1x2x3x1",
  .mk [1, 2, 3, 2] .ph "quqd1_1232" "# cquqd1Ph1x2x3x2", .mk [1, 2, 3, 3] .ph "quqd1_1233" "# cquqd1Ph1x2x3x3",
  .mk [1, 3, 1, 1] .ph "quqd1_1311" "# cquqd1Ph1x3x1x1", .mk [1, 3, 1, 2] .ph "quqd1_1312" "# cquqd1Ph1x3x1x2",
  .mk [1, 3, 1, 3] .ph "quqd1_1313" "# cquqd1Ph1x3x1x3", .mk [1, 3, 2, 1] .ph "quqd1_1321" "# cquqd1Ph1x3x2x1",
  .mk [1, 3, 2, 2] .ph "quqd1_1322" "# cquqd1Ph1x3x2x2", .mk [1, 3, 2, 3] .ph "quqd1_1323" "# cquqd1Ph1x3x2x3",
  .mk [1, 3, 3, 1] .ph "quqd1_1331" "# cquqd1Ph1x3x3x1", .mk [1, 3, 3, 2] .ph "quqd1_1332" "# cquqd1Ph1x3x3x2",
  .mk [1, 3, 3, 3] .ph "quqd1_1333" "# cquqd1Ph1x3x3x3", .mk [2, 1, 1, 1] .ph "quqd1_2111" "# cquqd1Ph2x1x1x1",
  .mk [2, 1, 1, 2] .ph "quqd1_2112" "# cquqd1Ph2x1x1x2", .mk [2, 1, 1, 3] .ph "quqd1_2113" "# cquqd1Ph2x1x1x3",
  .mk [2, 1, 2, 1] .ph "quqd1_2121" "# cquqd1Ph2x1x2x1", .mk [2, 1, 2, 2] .ph "quqd1_2122" "# cquqd1Ph2x1x2x2",
  .mk [2, 1, 2, 3] .ph "quqd1_2123" "# cquqd1Ph2x1x2x3", .mk [2, 1, 3, 1] .ph "quqd1_2131" "# cquqd1Ph2x1x3x1",
  .mk [2, 1, 3, 2] .ph "quqd1_2132" "# cquqd1Ph2x1x3x2", .mk [2, 1, 3, 3] .ph "quqd1_2133" "# cquqd1Ph2x1x3x3",
  .mk [2, 2, 1, 1] .ph "quqd1_2211" "# cquqd1Ph2x2x1x1", .mk [2, 2, 1, 2] .ph "quqd1_2212" "# cquqd1Ph2x2x1x2",
  .mk [2, 2, 1, 3] .ph "quqd1_2213" "# cquqd1Ph2x2x1x3", .mk [2, 2, 2, 1] .ph "quqd1_2221" "# cquqd1Ph2x2x2x1",
  .mk [2, 2, 2, 2] .ph "quqd1_2222" "# cquqd1Ph2x2x2x2", .mk [2, 2, 2, 3] .ph "quqd1_2223" "# cquqd1Ph2x2x2x3",
  .mk [2, 2, 3, 1] .ph "quqd1_2231" "# cquqd1Ph2x2x3x1", .mk [2, 2, 3, 2] .ph "quqd1_2232" "# cquqd1Ph2x2x3x2",
  .mk [2, 2, 3, 3] .ph "quqd1_2233" "# cquqd1Ph2x2x3x3", .mk [2, 3, 1, 1] .ph "quqd1_2311" "# cquqd1Ph2x3x1x1",
  .mk [2, 3, 1, 2] .ph "quqd1_2312" "# cquqd1Ph2x3x1x2", .mk [2, 3, 1, 3] .ph "quqd1_2313" "# cquqd1Ph2x3x1x3",
  .mk [2, 3, 2, 1] .ph "quqd1_2321" "# cquqd1Ph2x3x2x1", .mk [2, 3, 2, 2] .ph "quqd1_2322" "# cquqd1Ph2x3x2x2",
  .mk [2, 3, 2, 3] .ph "quqd1_2323" "# cquqd1Ph2x3x2x3", .mk [2, 3, 3, 1] .ph "quqd1_2331" "# cquqd1Ph2x3x3x1",
  .mk [2, 3, 3, 2] .ph "quqd1_2332" "# cquqd1Ph2x3x3x2", .mk [2, 3, 3, 3] .ph "quqd1_2333" "# cquqd1Ph2x3x3x3",
  .mk [3, 1, 1, 1] .ph "quqd1_3111" "# cquqd1Ph3x1x1x1", .mk [3, 1, 1, 2] .ph "quqd1_3112" "# cquqd1Ph3x1x1x2",
  .mk [3, 1, 1, 3] .ph "quqd1_3113" "# cquqd1Ph3x1x1x3", .mk [3, 1, 2, 1] .ph "quqd1_3121" "# cquqd1Ph3x1x2x1",
  .mk [3, 1, 2, 2] .ph "quqd1_3122" "# cquqd1Ph3x1x2x2", .mk [3, 1, 2, 3] .ph "quqd1_3123" "# cquqd1Ph3x1x2x3",
  .mk [3, 1, 3, 1] .ph "quqd1_3131" "# cquqd1Ph3x1x3x1", .mk [3, 1, 3, 2] .ph "quqd1_3132" "# cquqd1Ph3x1x3x2",
  .mk [3, 1, 3, 3] .ph "quqd1_3133" "# cquqd1Ph3x1x3x3", .mk [3, 2, 1, 1] .ph "quqd1_3211" "# cquqd1Ph3x2x1x1",
  .mk [3, 2, 1, 2] .ph "quqd1_3212" "# cquqd1Ph3x2x1x2", .mk [3, 2, 1, 3] .ph "quqd1_3213" "# cquqd1Ph3x2x1x3",
  .mk [3, 2, 2, 1] .ph "quqd1_3221" "# cquqd1Ph3x2x2x1", .mk [3, 2, 2, 2] .ph "quqd1_3222" "# cquqd1Ph3x2x2x2",
  .mk [3, 2, 2, 3] .ph "quqd1_3223" "# cquqd1Ph3x2x2x3", .mk [3, 2, 3, 1] .ph "quqd1_3231" "# cquqd1Ph3x2x3x1",
  .mk [3, 2, 3, 2] .ph "quqd1_3232" "# cquqd1Ph3x2x3x2", .mk [3, 2, 3, 3] .ph "quqd1_3233" "# cquqd1Ph3x2x3x3",
  .mk [3, 3, 1, 1] .ph "quqd1_3311" "# cquqd1Ph3x3x1x1", .mk [3, 3, 1, 2] .ph "quqd1_3312" "# cquqd1Ph3x3x1x2",
  .mk [3, 3, 1, 3] .ph "quqd1_3313" "# cquqd1Ph3x3x1x3", .mk [3, 3, 2, 1] .ph "quqd1_3321" "# cquqd1Ph3x3x2x1",
  .mk [3, 3, 2, 2] .ph "quqd1_3322" "# cquqd1Ph3x3x2x2", .mk [3, 3, 2, 3] .ph "quqd1_3323" "# cquqd1Ph3x3x2x3",
  .mk [3, 3, 3, 1] .ph "quqd1_3331" "# cquqd1Ph3x3x3x1", .mk [3, 3, 3, 2] .ph "quqd1_3332" "# cquqd1Ph3x3x3x2",
  .mk [3, 3, 3, 3] .ph "quqd1_3333" "# cquqd1Ph3x3x3x3"]

/-- smeftsim.py:1789-1869, block `FRBlock16` of set A. -/
noncomputable def rowsA_FRBlock16 : List CRow := [
  .mk [1, 1, 1, 1] .ph "quqd8_1111" "# cquqd8Ph1x1x1x1", .mk [1, 1, 1, 2] .ph "quqd8_1112" "# cquqd8Ph1x1x1x2",
  .mk [1, 1, 1, 3] .ph "quqd8_1113" "# cquqd8Ph1x1x1x3", .mk [1, 1, 2, 1] .ph "quqd8_1121" "# cquqd8Ph1x1x2x1",
  .mk [1, 1, 2, 2] .ph "quqd8_1122" "# cquqd8Ph1x1x2x2", .mk [1, 1, 2, 3] .ph "quqd8_1123" "# cquqd8Ph1x1x2x3",
  .mk [1, 1, 3, 1] .ph "quqd8_1131" "# cquqd8Ph1x1x3x1", .mk [1, 1, 3, 2] .ph "quqd8_1132" "# cquqd8Ph1x1x3x2",
  .mk [1, 1, 3, 3] .ph "quqd8_1133" "# cquqd8Ph1x1x3x3", .mk [1, 2, 1, 1] .ph "quqd8_1211" "# cquqd8Ph1x2x1x1",
  .mk [1, 2, 1, 2] .ph "quqd8_1212" "# cquqd8Ph1x2x1x2", .mk [1, 2, 1, 3] .ph "quqd8_1213" "# cquqd8Ph1x2x1x3",
  .mk [1, 2, 2, 1] .ph "quqd8_1221" "# cquqd8Ph1x2x2x1", .mk [1, 2, 2, 2] .ph "quqd8_1222" "# cquqd8Ph1x2x2x2",
  .mk [1, 2, 2, 3] .ph "quqd8_1223" "# cquqd8Ph1x2x2x3", .mk [1, 2, 3, 1] .ph "quqd8_1231" "# cquqd8Ph1x2x3x1",
  .mk [1, 2, 3, 2] .ph "quqd8_1232" "# cquqd8Ph1x2x3x2", .mk [1, 2, 3, 3] .ph "quqd8_1233" "# cquqd8Ph1x2x3x3",
  .mk [1, 3, 1, 1] .ph "quqd8_1311" "# cquqd8Ph1x3x1x1", .mk [1, 3, 1, 2] .ph "quqd8_1312" "# cquqd8Ph1x3x1x2",
  .mk [1, 3, 1, 3] .ph "quqd8_1313" "# cquqd8Ph1x3x1x3", .mk [1, 3, 2, 1] .ph "quqd8_1321" "# cquqd8Ph1x3x2x1",
  .mk [1, 3, 2, 2] .ph "quqd8_1322" "# cquqd8Ph1x3x2x2", .mk [1, 3, 2, 3] .ph "quqd8_1323" "# cquqd8Ph1x3x2x3",
  .mk [1, 3, 3, 1] .ph "quqd8_1331" "# cquqd8Ph1x3x3x1", .mk [1, 3, 3, 2] .ph "quqd8_1332" "# cquqd8Ph1x3x3x2",
  .mk [1, 3, 3, 3] .ph "quqd8_1333" "# cquqd8Ph1x3x3x3", .mk [2, 1, 1, 1] .ph "quqd8_2111" "# cquqd8Ph2x1x1x1",
  .mk [2, 1, 1, 2] .ph "quqd8_2112" "# cquqd8Ph2x1x1x2", .mk [2, 1, 1, 3] .ph "quqd8_2113" "# cquqd8Ph2x1x1x3",
  .mk [2, 1, 2, 1] .ph "quqd8_2121" "# cquqd8Ph2x1x2x1", .mk [2, 1, 2, 2] .ph "quqd8_2122" "# cquqd8Ph2x1x2x2",
  .mk [2, 1, 2, 3] .ph "quqd8_2123" "# cquqd8Ph2x1x2x3", .mk [2, 1, 3, 1] .ph "quqd8_2131" "# cquqd8Ph2x1x3x1",
  .mk [2, 1, 3, 2] .ph "quqd8_2132" "# cquqd8Ph2x1x3x2", .mk [2, 1, 3, 3] .ph "quqd8_2133" "# cquqd8Ph2x1x3x3",
  .mk [2, 2, 1, 1] .ph "quqd8_2211" "# cquqd8Ph2x2x1x1", .mk [2, 2, 1, 2] .ph "quqd8_2212" "# cquqd8Ph2x2x1x2",
  .mk [2, 2, 1, 3] .ph "quqd8_2213" "# cquqd8Ph2x2x1x3", .mk [2, 2, 2, 1] .ph "quqd8_2221" "# cquqd8Ph2x2x2x1",
  .mk [2, 2, 2, 2] .ph "quqd8_2222" "# cquqd8Ph2x2x2x2", .mk [2, 2, 2, 3] .ph "quqd8_2223" "# cquqd8Ph2x2x2x3",
  .mk [2, 2, 3, 1] .ph "quqd8_2231" "# cquqd8Ph2x2x3x1", .mk [2, 2, 3, 2] .ph "quqd8_2232" "# cquqd8Ph2x2x3x2",
  .mk [2, 2, 3, 3] .ph "quqd8_2233" "# cquqd8Ph2x2x3x3", .mk [2, 3, 1, 1] .ph "quqd8_2311" "# cquqd8Ph2x3x1x1",
  .mk [2, 3, 1, 2] .ph "quqd8_2312" "# cquqd8Ph2x3x1x2", .mk [2, 3, 1, 3] .ph "quqd8_2313" "# cquqd8Ph2x3x1x3",
  .mk [2, 3, 2, 1] .ph "quqd8_2321" "# cquqd8Ph2x3x2x1", .mk [2, 3, 2, 2] .ph "quqd8_2322" "# cquqd8Ph2x3x2x2",
  .mk [2, 3, 2, 3] .ph "quqd8_2323" "# cquqd8Ph2x3x2x3", .mk [2, 3, 3, 1] .ph "quqd8_2331" "# cquqd8Ph2x3x3x1",
  .mk [2, 3, 3, 2] .ph "quqd8_2332" "# cquqd8Ph2x3x3x2", .mk [2, 3, 3, 3] .ph "quqd8_2333" "# cquqd8Ph2x3x3x3",
  .mk [3, 1, 1, 1] .ph "quqd8_3111" "# cquqd8Ph3x1x1x1", .mk [3, 1, 1, 2] .ph "quqd8_3112" "# cquqd8Ph3x1x1x2",
  .mk [3, 1, 1, 3] .ph "quqd8_3113" "# cquqd8Ph3x1x1x3", .mk [3, 1, 2, 1] .ph "quqd8_3121" "# cquqd8Ph3x1x2x1",
  .mk [3, 1, 2, 2] .ph "quqd8_3122" "# cquqd8Ph3x1x2x2", .mk [3, 1, 2, 3] .ph "quqd8_3123" "# cquqd8Ph3x1x2x3",
  .mk [3, 1, 3, 1] .ph "quqd8_3131" "# cquqd8Ph3x1x3x1", .mk [3, 1, 3, 2] .ph "quqd8_3132" "# cquqd8Ph3x1x3x2",
  .mk [3, 1, 3, 3] .ph "quqd8_3133" "# cquqd8Ph3x1x3x3", .mk [3, 2, 1, 1] .ph "quqd8_3211" "# cquqd8Ph3x2x1x1",
  .mk [3, 2, 1, 2] .ph "quqd8_3212" "# cquqd8Ph3x2x1x2", .mk [3, 2, 1, 3] .ph "quqd8_3213" "# cquqd8Ph3x2x1x3",
  .mk [3, 2, 2, 1] .ph "quqd8_3221" "# cquqd8Ph3x2x2x1", .mk [3, 2, 2, 2] .ph "quqd8_3222" "# cquqd8Ph3x2x2x2",
  .mk [3, 2, 2, 3] .ph "quqd8_3223" "# cquqd8Ph3x2x2x3", .mk [3, 2, 3, 1] .ph "quqd8_3231" "# cquqd8Ph3x2x3x1",
  .mk [3, 2, 3, 2] .ph "quqd8_3232" "# cquqd8Ph3x2x3x2", .mk [3, 2, 3, 3] .ph "quqd8_3233" "# cquqd8Ph3x2x3x3",
  .mk [3, 3, 1, 1] .ph "quqd8_3311" "# cquqd8Ph3x3x1x1", .mk [3, 3, 1, 2] .ph "quqd8_3312" "# cquqd8Ph3x3x1x2",
  .mk [3, 3, 1, 3] .ph "quqd8_3313" "# cquqd8Ph3x3x1x3", .mk [3, 3, 2, 1] .ph "quqd8_3321" "# cquqd8Ph3x3x2x1",
  .mk [3, 3, 2, 2] .ph "quqd8_3322" "# cquqd8Ph3x3x2x2", .mk [3, 3, 2, 3] .ph "quqd8_3323" "# cquqd8Ph3x3x2x3",
  .mk [3, 3, 3, 1] .ph "quqd8_3331" "# cquqd8Ph3x3x3x1", .mk [3, 3, 3, 2] .ph "quqd8_3332" "# cquqd8Ph3x3x3x2",
  .mk [3, 3, 3, 3] .ph "quqd8_3333" "# cquqd8Ph3x3x3x3"]

/-- smeftsim.py:1873-1953, block `FRBlock17` of set A. -/
noncomputable def rowsA_FRBlock17 : List CRow := [
  .mk [1, 1, 1, 1] .ph "lequ1_1111" "# clequ1Ph1x1x1x1", .mk [1, 1, 1, 2] .ph "lequ1_1112" "# clequ1Ph1x1x1x2",
  .mk [1, 1, 1, 3] .ph "lequ1_1113" "# clequ1Ph1x1x1x3", .mk [1, 1, 2, 1] .ph "lequ1_1121" "# clequ1Ph1x1x2x1",
  .mk [1, 1, 2, 2] .ph "lequ1_1122" "# clequ1Ph1x1x2x2", .mk [1, 1, 2, 3] .ph "lequ1_1123" "# clequ1Ph1x1x2x3",
  .mk [1, 1, 3, 1] .ph "lequ1_1131" "# clequ1Ph1x1x3x1", .mk [1, 1, 3, 2] .ph "lequ1_1132" "# clequ1Ph1x1x3x2",
  .mk [1, 1, 3, 3] .ph "lequ1_1133" "# clequ1Ph1x1x3x3", .mk [1, 2, 1, 1] .ph "lequ1_1211" "# clequ1Ph1x2x1x1",
  .mk [1, 2, 1, 2] .ph "lequ1_1212" "# clequ1Ph1x2x1x2", .mk [1, 2, 1, 3] .ph "lequ1_1213" "# clequ1Ph1x2x1x3",
  .mk [1, 2, 2, 1] .ph "lequ1_1221" "# clequ1Ph1x2x2x1", .mk [1, 2, 2, 2] .ph "lequ1_1222" "# clequ1Ph1x2x2x2",
  .mk [1, 2, 2, 3] .ph "lequ1_1223" "# clequ1Ph1x2x2x3", .mk [1, 2, 3, 1] .ph "lequ1_1231" "# clequ1Ph1x2x3x1",
  .mk [1, 2, 3, 2] .ph "lequ1_1232" "# clequ1Ph1x2x3x2", .mk [1, 2, 3, 3] .ph "lequ1_1233" "# clequ1Ph1x2x3x3",
  .mk [1, 3, 1, 1] .ph "lequ1_1311" "# clequ1Ph1x3x1x1", .mk [1, 3, 1, 2] .ph "lequ1_1312" "# clequ1Ph1x3x1x2",
  .mk [1, 3, 1, 3] .ph "lequ1_1313" "# clequ1Ph1x3x1x3", .mk [1, 3, 2, 1] .ph "lequ1_1321" "# clequ1Ph1x3x2x1",
  .mk [1, 3, 2, 2] .ph "lequ1_1322" "# clequ1Ph1x3x2x2", .mk [1, 3, 2, 3] .ph "lequ1_1323" "# clequ1Ph1x3x2x3",
  .mk [1, 3, 3, 1] .ph "lequ1_1331" "# clequ1Ph1x3x3x1", .mk [1, 3, 3, 2] .ph "lequ1_1332" "# clequ1Ph1x3x3x2",
  .mk [1, 3, 3, 3] .ph "lequ1_1333" "# clequ1Ph1x3x3x3", .mk [2, 1, 1, 1] .ph "lequ1_2111" "# clequ1Ph2x1x1x1",
  .mk [2, 1, 1, 2] .ph "lequ1_2112" "# clequ1Ph2x1x1x2", .mk [2, 1, 1, 3] .ph "lequ1_2113" "# clequ1Ph2x1x1x3",
  .mk [2, 1, 2, 1] .ph "lequ1_2121" "# clequ1Ph2x1x2x1", .mk [2, 1, 2, 2] .ph "lequ1_2122" "# clequ1Ph2x1x2x2",
  .mk [2, 1, 2, 3] .ph "lequ1_2123" "# clequ1Ph2x1x2x3", .mk [2, 1, 3, 1] .ph "lequ1_2131" "# clequ1Ph2x1x3x1",
  .mk [2, 1, 3, 2] .ph "lequ1_2132" "# clequ1Ph2x1x3x2", .mk [2, 1, 3, 3] .ph "lequ1_2133" "# clequ1Ph2x1x3x3",
  .mk [2, 2, 1, 1] .ph "lequ1_2211" "# clequ1Ph2x2x1x1", .mk [2, 2, 1, 2] .ph "lequ1_2212" "# clequ1Ph2x2x1x2",
  .mk [2, 2, 1, 3] .ph "lequ1_2213" "# clequ1Ph2x2x1x3", .mk [2, 2, 2, 1] .ph "lequ1_2221" "# clequ1Ph2x2x2x1",
  .mk [2, 2, 2, 2] .ph "lequ1_2222" "# clequ1Ph2x2x2x2", .mk [2, 2, 2, 3] .ph "lequ1_2223" "# clequ1Ph2x2x2x3",
  .mk [2, 2, 3, 1] .ph "lequ1_2231" "# clequ1Ph2x2x3x1", .mk [2, 2, 3, 2] .ph "lequ1_2232" "# clequ1Ph2x2x3x2",
  .mk [2, 2, 3, 3] .ph "lequ1_2233" "# clequ1Ph2x2x3x3", .mk [2, 3, 1, 1] .ph "lequ1_2311" "# clequ1Ph2x3x1x1",
  .mk [2, 3, 1, 2] .ph "lequ1_2312" "# clequ1Ph2x3x1x2", .mk [2, 3, 1, 3] .ph "lequ1_2313" "# clequ1Ph2x3x1x3",
  .mk [2, 3, 2, 1] .ph "lequ1_2321" "# clequ1Ph2x3x2x1", .mk [2, 3, 2, 2] .ph "lequ1_2322" "# clequ1Ph2x3x2x2",
  .mk [2, 3, 2, 3] .ph "lequ1_2323" "# clequ1Ph2x3x2x3", .mk [2, 3, 3, 1] .ph "lequ1_2331" "# clequ1Ph2x3x3x1",
  .mk [2, 3, 3, 2] .ph "lequ1_2332" "# clequ1Ph2x3x3x2", .mk [2, 3, 3, 3] .ph "lequ1_2333" "# clequ1Ph2x3x3x3",
  .mk [3, 1, 1, 1] .ph "lequ1_3111" "# clequ1Ph3x1x1x1", .mk [3, 1, 1, 2] .ph "lequ1_3112" "# clequ1Ph3x1x1x2",
  .mk [3, 1, 1, 3] .ph "lequ1_3113" "# clequ1Ph3x1x1x3", .mk [3, 1, 2, 1] .ph "lequ1_3121" "# clequ1Ph3x1x2x1",
  .mk [3, 1, 2, 2] .ph "lequ1_3122" "# clequ1Ph3x1x2x2", .mk [3, 1, 2, 3] .ph "lequ1_3123" "# clequ1Ph3x1x2x3",
  .mk [3, 1, 3, 1] .ph "lequ1_3131" "# clequ1Ph3x1x3x1", .mk [3, 1, 3, 2] .ph "lequ1_3132" "# clequ1Ph3x1x3x2",
  .mk [3, 1, 3, 3] .ph "lequ1_3133" "# clequ1Ph3x1x3x3", .mk [3, 2, 1, 1] .ph "lequ1_3211" "# clequ1Ph3x2x1x1",
  .mk [3, 2, 1, 2] .ph "lequ1_3212" "# clequ1Ph3x2x1x2", .mk [3, 2, 1, 3] .ph "lequ1_3213" "# clequ1Ph3x2x1x3",
  .mk [3, 2, 2, 1] .ph "lequ1_3221" "# clequ1Ph3x2x2x1", .mk [3, 2, 2, 2] .ph "lequ1_3222" "# clequ1Ph3x2x2x2",
  .mk [3, 2, 2, 3] .ph "lequ1_3223" "# clequ1Ph3x2x2x3", .mk [3, 2, 3, 1] .ph "lequ1_3231" "# clequ1Ph3x2x3x1",
  .mk [3, 2, 3, 2] .ph "lequ1_3232" "# clequ1Ph3x2x3x2", .mk [3, 2, 3, 3] .ph "lequ1_3233" "# clequ1Ph3x2x3x3",
  .mk [3, 3, 1, 1] .ph "lequ1_3311" "# clequ1Ph3x3x1x1", .mk [3, 3, 1, 2] .ph "lequ1_3312" "# clequ1Ph3x3x1x2",
  .mk [3, 3, 1, 3] .ph "lequ1_3313" "# clequ1Ph3x3x1x3", .mk [3, 3, 2, 1] .ph "lequ1_3321" "# clequ1Ph3x3x2x1",
  .mk [3, 3, 2, 2] .ph "lequ1_3322" "# clequ1Ph3x3x2x2", .mk [3, 3, 2, 3] .ph "lequ1_3323" "# clequ1Ph3x3x2x3",
  .mk [3, 3, 3, 1] .ph "lequ1_3331" "# clequ1Ph3x3x3x1", .mk [3, 3, 3, 2] .ph "lequ1_3332" "# clequ1Ph3x3x3x2",
  .mk [3, 3, 3, 3] .ph "lequ1_3333" "# clequ1Ph3x3x3x3"]

/-- smeftsim.py:1957-2037, block `FRBlock18` of set A. -/
noncomputable def rowsA_FRBlock18 : List CRow := [
  .mk [1, 1, 1, 1] .ph "lequ3_1111" "# clequ3Ph1x1x1x1", .mk [1, 1, 1, 2] .ph "lequ3_1112" "# clequ3Ph1x1x1x2",
  .mk [1, 1, 1, 3] .ph "lequ3_1113" "# clequ3Ph1x1x1x3", .mk [1, 1, 2, 1] .ph "lequ3_1121" "# clequ3Ph1x1x2x1",
  .mk [1, 1, 2, 2] .ph "lequ3_1122" "# clequ3Ph1x1x2x2", .mk [1, 1, 2, 3] .ph "lequ3_1123" "# clequ3Ph1x1x2x3",
  .mk [1, 1, 3, 1] .ph "lequ3_1131" "# clequ3Ph1x1x3x1", .mk [1, 1, 3, 2] .ph "lequ3_1132" "# clequ3Ph1x1x3x2",
  .mk [1, 1, 3, 3] .ph "lequ3_1133" "# clequ3Ph1x1x3x3", .mk [1, 2, 1, 1] .ph "lequ3_1211" "# clequ3Ph1x2x1x1",
  .mk [1, 2, 1, 2] .ph "lequ3_1212" "# clequ3Ph1x2x1x2", .mk [1, 2, 1, 3] .ph "lequ3_1213" "# clequ3Ph1x2x1x3",
  .mk [1, 2, 2, 1] .ph "lequ3_1221" "# clequ3Ph1x2x2x1", .mk [1, 2, 2, 2] .ph "lequ3_1222" "# clequ3Ph1x2x2x2",
  .mk [1, 2, 2, 3] .ph "lequ3_1223" "# clequ3Ph1x2x2x3", .mk [1, 2, 3, 1] .ph "lequ3_1231" "# clequ3Ph1x2x3x1",
  .mk [1, 2, 3, 2] .ph "lequ3_1232" "# clequ3Ph1x2x3x2", .mk [1, 2, 3, 3] .ph "lequ3_1233" "# clequ3Ph1x2x3x3",
  .mk [1, 3, 1, 1] .ph "lequ3_1311" "# clequ3Ph1x3x1x1", .mk [1, 3, 1, 2] .ph "lequ3_1312" "# clequ3Ph1x3x1x2",
  .mk [1, 3, 1, 3] .ph "lequ3_1313" "# clequ3Ph1x3x1x3", .mk [1, 3, 2, 1] .ph "lequ3_1321" "# clequ3Ph1x3x2x1",
  .mk [1, 3, 2, 2] .ph "lequ3_1322" "# clequ3Ph1x3x2x2", .mk [1, 3, 2, 3] .ph "lequ3_1323" "# clequ3Ph1x3x2x3",
  .mk [1, 3, 3, 1] .ph "lequ3_1331" "# clequ3Ph1x3x3x1", .mk [1, 3, 3, 2] .ph "lequ3_1332" "# clequ3Ph1x3x3x2",
  .mk [1, 3, 3, 3] .ph "lequ3_1333" "# clequ3Ph1x3x3x3", .mk [2, 1, 1, 1] .ph "lequ3_2111" "# clequ3Ph2x1x1x1",
  .mk [2, 1, 1, 2] .ph "lequ3_2112" "# clequ3Ph2x1x1x2", .mk [2, 1, 1, 3] .ph "lequ3_2113" "# clequ3Ph2x1x1x3",
  .mk [2, 1, 2, 1] .ph "lequ3_2121" "# clequ3Ph2x1x2x1", .mk [2, 1, 2, 2] .ph "lequ3_2122" "# clequ3Ph2x1x2x2",
  .mk [2, 1, 2, 3] .ph "lequ3_2123" "# clequ3Ph2x1x2x3", .mk [2, 1, 3, 1] .ph "lequ3_2131" "# clequ3Ph2x1x3x1",
  .mk [2, 1, 3, 2] .ph "lequ3_2132" "# clequ3Ph2x1x3x2", .mk [2, 1, 3, 3] .ph "lequ3_2133" "# clequ3Ph2x1x3x3",
  .mk [2, 2, 1, 1] .ph "lequ3_2211" "# clequ3Ph2x2x1x1", .mk [2, 2, 1, 2] .ph "lequ3_2212" "# clequ3Ph2x2x1x2",
  .mk [2, 2, 1, 3] .ph "lequ3_2213" "# clequ3Ph2x2x1x3", .mk [2, 2, 2, 1] .ph "lequ3_2221" "# clequ3Ph2x2x2x1",
  .mk [2, 2, 2, 2] .ph "lequ3_2222" "# clequ3Ph2x2x2x2", .mk [2, 2, 2, 3] .ph "lequ3_2223" "# clequ3Ph2x2x2x3",
  .mk [2, 2, 3, 1] .ph "lequ3_2231" "# clequ3Ph2x2x3x1", .mk [2, 2, 3, 2] .ph "lequ3_2232" "# clequ3Ph2x2x3x2",
  .mk [2, 2, 3, 3] .ph "lequ3_2233" "# clequ3Ph2x2x3x3", .mk [2, 3, 1, 1] .ph "lequ3_2311" "# clequ3Ph2x3x1x1",
  .mk [2, 3, 1, 2] .ph "lequ3_2312" "# clequ3Ph2x3x1x2", .mk [2, 3, 1, 3] .ph "lequ3_2313" "# clequ3Ph2x3x1x3",
  .mk [2, 3, 2, 1] .ph "lequ3_2321" "# clequ3Ph2x3x2x1", .mk [2, 3, 2, 2] .ph "lequ3_2322" "# clequ3Ph2x3x2x2",
  .mk [2, 3, 2, 3] .ph "lequ3_2323" "# clequ3Ph2x3x2x3", .mk [2, 3, 3, 1] .ph "lequ3_2331" "# clequ3Ph2x3x3x1",
  .mk [2, 3, 3, 2] .ph "lequ3_2332" "# clequ3Ph2x3x3x2", .mk [2, 3, 3, 3] .ph "lequ3_2333" "# clequ3Ph2x3x3x3",
  .mk [3, 1, 1, 1] .ph "lequ3_3111" "# clequ3Ph3x1x1x1", .mk [3, 1, 1, 2] .ph "lequ3_3112" "# clequ3Ph3x1x1x2",
  .mk [3, 1, 1, 3] .ph "lequ3_3113" "# clequ3Ph3x1x1x3", .mk [3, 1, 2, 1] .ph "lequ3_3121" "# clequ3Ph3x1x2x1",
  .mk [3, 1, 2, 2] .ph "lequ3_3122" "# clequ3Ph3x1x2x2", .mk [3, 1, 2, 3] .ph "lequ3_3123" "# clequ3Ph3x1x2x3",
  .mk [3, 1, 3, 1] .ph "lequ3_3131" "# clequ3Ph3x1x3x1", .mk [3, 1, 3, 2] .ph "lequ3_3132" "# clequ3Ph3x1x3x2",
  .mk [3, 1, 3, 3] .ph "lequ3_3133" "# clequ3Ph3x1x3x3", .mk [3, 2, 1, 1] .ph "lequ3_3211" "# clequ3Ph3x2x1x1",
  .mk [3, 2, 1, 2] .ph "lequ3_3212" "# clequ3Ph3x2x1x2", .mk [3, 2, 1, 3] .ph "lequ3_3213" "# clequ3Ph3x2x1x3",
  .mk [3, 2, 2, 1] .ph "lequ3_3221" "# clequ3Ph3x2x2x1", .mk [3, 2, 2, 2] .ph "lequ3_3222" "# clequ3Ph3x2x2x2",
  .mk [3, 2, 2, 3] .ph "lequ3_3223" "# clequ3Ph3x2x2x3", .mk [3, 2, 3, 1] .ph "lequ3_3231" "# clequ3Ph3x2x3x1",
  .mk [3, 2, 3, 2] .ph "lequ3_3232" "# clequ3Ph3x2x3x2", .mk [3, 2, 3, 3] .ph "lequ3_3233" "# clequ3Ph3x2x3x3",
  .mk [3, 3, 1, 1] .ph "lequ3_3311" "# clequ3Ph3x3x1x1", .mk [3, 3, 1, 2] .ph "lequ3_3312" "# clequ3Ph3x3x1x2",
  .mk [3, 3, 1, 3] .ph "lequ3_3313" "# clequ3Ph3x3x1x3", .mk [3, 3, 2, 1] .ph "lequ3_3321" "# clequ3Ph3x3x2x1",
  .mk [3, 3, 2, 2] .ph "lequ3_3322" "# clequ3Ph3x3x2x2", .mk [3, 3, 2, 3] .ph "lequ3_3323" "# clequ3Ph3x3x2x3",
  .mk [3, 3, 3, 1] .ph "lequ3_3331" "# clequ3Ph3x3x3x1", .mk [3, 3, 3, 2] .ph "lequ3_3332" "# clequ3Ph3x3x3x2",
  .mk [3, 3, 3, 3] .ph "lequ3_3333" "# clequ3Ph3x3x3x3"]

/-- smeftsim.py:2041-2049, block `FRBlock19` of set A. -/
noncomputable def rowsA_FRBlock19 : List CRow := [
  .mk [1, 1] .abs "ephi_11" "# ceHAbs1x1", .mk [1, 2] .abs "ephi_12" "# ceHAbs1x2",
  .mk [1, 3] .abs "ephi_13" "# ceHAbs1x3", .mk [2, 1] .abs "ephi_21" "# ceHAbs2x1",
  .mk [2, 2] .abs "ephi_22" "# ceHAbs2x2", .mk [2, 3] .abs "ephi_23" "# ceHAbs2x3",
  .mk [3, 1] .abs "ephi_31" "# ceHAbs3x1", .mk [3, 2] .abs "ephi_32" "# ceHAbs3x2",
  .mk [3, 3] .abs "ephi_33" "# ceHAbs3x3"]

/-- smeftsim.py:2053-2061, block `FRBlock2` of set A. -/
noncomputable def rowsA_FRBlock2 : List CRow := [
  .mk [1, 1] .ph "eW_11" "# ceWPh1x1", .mk [1, 2] .ph "eW_12" "# ceWPh1x2", .mk [1, 3] .ph "eW_13" "# ceWPh1x3",
  .mk [2, 1] .ph "eW_21" "# ceWPh2x1", .mk [2, 2] .ph "eW_22" "# ceWPh2x2", .mk [2, 3] .ph "eW_23" "# ceWPh2x3",
  .mk [3, 1] .ph "eW_31" "# ceWPh3x1", .mk [3, 2] .ph "eW_32" "# ceWPh3x2", .mk [3, 3] .ph "eW_33" "# ceWPh3x3"]

/-- smeftsim.py:2065-2073, block `FRBlock20` of set A. -/
noncomputable def rowsA_FRBlock20 : List CRow := [
  .mk [1, 1] .abs "uphi_11" "# cuHAbs1x1", .mk [1, 2] .abs "uphi_12" "# cuHAbs1x2",
  .mk [1, 3] .abs "uphi_13" "# cuHAbs1x3", .mk [2, 1] .abs "uphi_21" "# cuHAbs2x1",
  .mk [2, 2] .abs "uphi_22" "# cuHAbs2x2", .mk [2, 3] .abs "uphi_23" "# cuHAbs2x3",
  .mk [3, 1] .abs "uphi_31" "# cuHAbs3x1", .mk [3, 2] .abs "uphi_32" "# cuHAbs3x2",
  .mk [3, 3] .abs "uphi_33" "# cuHAbs3x3"]

/-- smeftsim.py:2077-2085, block `FRBlock21` of set A. -/
noncomputable def rowsA_FRBlock21 : List CRow := [
  .mk [1, 1] .abs "dphi_11" "# cdHAbs1x1", .mk [1, 2] .abs "dphi_12" "# cdHAbs1x2",
  .mk [1, 3] .abs "dphi_13" "# cdHAbs1x3", .mk [2, 1] .abs "dphi_21" "# cdHAbs2x1",
  .mk [2, 2] .abs "dphi_22" "# cdHAbs2x2", .mk [2, 3] .abs "dphi_23" "# cdHAbs2x3",
  .mk [3, 1] .abs "dphi_31" "# cdHAbs3x1", .mk [3, 2] .abs "dphi_32" "# cdHAbs3x2",
  .mk [3, 3] .abs "dphi_33" "# cdHAbs3x3"]

/-- smeftsim.py:2089-2097, block `FRBlock25` of set A. -/
noncomputable def rowsA_FRBlock25 : List CRow := [
  .mk [1, 1] .abs "eW_11" "# ceWAbs1x1", .mk [1, 2] .abs "eW_12" "# ceWAbs1x2",
  .mk [1, 3] .abs "eW_13" "# ceWAbs1x3", .mk [2, 1] .abs "eW_21" "# ceWAbs2x1",
  .mk [2, 2] .abs "eW_22" "# ceWAbs2x2", .mk [2, 3] .abs "eW_23" "# ceWAbs2x3",
  .mk [3, 1] .abs "eW_31" "# ceWAbs3x1", .mk [3, 2] .abs "eW_32" "# ceWAbs3x2", .mk [3, 3] .abs "eW_33" "# ceWAbs3x3"]

/-- smeftsim.py:2101-2109, block `FRBlock26` of set A. -/
noncomputable def rowsA_FRBlock26 : List CRow := [
  .mk [1, 1] .abs "eB_11" "# ceBAbs1x1", .mk [1, 2] .abs "eB_12" "# ceBAbs1x2",
  .mk [1, 3] .abs "eB_13" "# ceBAbs1x3", .mk [2, 1] .abs "eB_21" "# ceBAbs2x1",
  .mk [2, 2] .abs "eB_22" "# ceBAbs2x2", .mk [2, 3] .abs "eB_23" "# ceBAbs2x3",
  .mk [3, 1] .abs "eB_31" "# ceBAbs3x1", .mk [3, 2] .abs "eB_32" "# ceBAbs3x2", .mk [3, 3] .abs "eB_33" "# ceBAbs3x3"]

/-- smeftsim.py:2113-2121, block `FRBlock27` of set A. -/
noncomputable def rowsA_FRBlock27 : List CRow := [
  .mk [1, 1] .abs "uG_11" "# cuGAbs1x1", .mk [1, 2] .abs "uG_12" "# cuGAbs1x2",
  .mk [1, 3] .abs "uG_13" "# cuGAbs1x3", .mk [2, 1] .abs "uG_21" "# cuGAbs2x1",
  .mk [2, 2] .abs "uG_22" "# cuGAbs2x2", .mk [2, 3] .abs "uG_23" "# cuGAbs2x3",
  .mk [3, 1] .abs "uG_31" "# cuGAbs3x1", .mk [3, 2] .abs "uG_32" "# cuGAbs3x2", .mk [3, 3] .abs "uG_33" "# cuGAbs3x3"]

/-- smeftsim.py:2125-2133, block `FRBlock28` of set A. -/
noncomputable def rowsA_FRBlock28 : List CRow := [
  .mk [1, 1] .abs "uW_11" "# cuWAbs1x1", .mk [1, 2] .abs "uW_12" "# cuWAbs1x2",
  .mk [1, 3] .abs "uW_13" "# cuWAbs1x3", .mk [2, 1] .abs "uW_21" "# cuWAbs2x1",
  .mk [2, 2] .abs "uW_22" "# cuWAbs2x2", .mk [2, 3] .abs "uW_23" "# cuWAbs2x3",
  .mk [3, 1] .abs "uW_31" "# cuWAbs3x1", .mk [3, 2] .abs "uW_32" "# cuWAbs3x2", .mk [3, 3] .abs "uW_33" "# cuWAbs3x3"]

/-- smeftsim.py:2137-2145, block `FRBlock29` of set A. -/
noncomputable def rowsA_FRBlock29 : List CRow := [
  .mk [1, 1] .abs "uB_11" "# cuBAbs1x1", .mk [1, 2] .abs "uB_12" "# cuBAbs1x2",
  .mk [1, 3] .abs "uB_13" "# cuBAbs1x3", .mk [2, 1] .abs "uB_21" "# cuBAbs2x1",
  .mk [2, 2] .abs "uB_22" "# cuBAbs2x2", .mk [2, 3] .abs "uB_23" "# cuBAbs2x3",
  .mk [3, 1] .abs "uB_31" "# cuBAbs3x1", .mk [3, 2] .abs "uB_32" "# cuBAbs3x2", .mk [3, 3] .abs "uB_33" "# cuBAbs3x3"]

/-- smeftsim.py:2149-2157, block `FRBlock3` of set A. -/
noncomputable def rowsA_FRBlock3 : List CRow := [
  .mk [1, 1] .ph "eB_11" "# ceBPh1x1", .mk [1, 2] .ph "eB_12" "# ceBPh1x2", .mk [1, 3] .ph "eB_13" "# ceBPh1x3",
  .mk [2, 1] .ph "eB_21" "# ceBPh2x1", .mk [2, 2] .ph "eB_22" "# ceBPh2x2", .mk [2, 3] .ph "eB_23" "# ceBPh2x3",
  .mk [3, 1] .ph "eB_31" "# ceBPh3x1", .mk [3, 2] .ph "eB_32" "# ceBPh3x2", .mk [3, 3] .ph "eB_33" "# ceBPh3x3"]

/-- smeftsim.py:2161-2169, block `FRBlock30` of set A. -/
noncomputable def rowsA_FRBlock30 : List CRow := [
  .mk [1, 1] .abs "dG_11" "# cdGAbs1x1", .mk [1, 2] .abs "dG_12" "# cdGAbs1x2",
  .mk [1, 3] .abs "dG_13" "# cdGAbs1x3", .mk [2, 1] .abs "dG_21" "# cdGAbs2x1",
  .mk [2, 2] .abs "dG_22" "# cdGAbs2x2", .mk [2, 3] .abs "dG_23" "# cdGAbs2x3",
  .mk [3, 1] .abs "dG_31" "# cdGAbs3x1", .mk [3, 2] .abs "dG_32" "# cdGAbs3x2", .mk [3, 3] .abs "dG_33" "# cdGAbs3x3"]

/-- smeftsim.py:2173-2181, block `FRBlock31` of set A. -/
noncomputable def rowsA_FRBlock31 : List CRow := [
  .mk [1, 1] .abs "dW_11" "# cdWAbs1x1", .mk [1, 2] .abs "dW_12" "# cdWAbs1x2",
  .mk [1, 3] .abs "dW_13" "# cdWAbs1x3", .mk [2, 1] .abs "dW_21" "# cdWAbs2x1",
  .mk [2, 2] .abs "dW_22" "# cdWAbs2x2", .mk [2, 3] .abs "dW_23" "# cdWAbs2x3",
  .mk [3, 1] .abs "dW_31" "# cdWAbs3x1", .mk [3, 2] .abs "dW_32" "# cdWAbs3x2", .mk [3, 3] .abs "dW_33" "# cdWAbs3x3"]

/-- smeftsim.py:2185-2193, block `FRBlock32` of set A. -/
noncomputable def rowsA_FRBlock32 : List CRow := [
  .mk [1, 1] .abs "dB_11" "# cdBAbs1x1", .mk [1, 2] .abs "dB_12" "# cdBAbs1x2",
  .mk [1, 3] .abs "dB_13" "# cdBAbs1x3", .mk [2, 1] .abs "dB_21" "# cdBAbs2x1",
  .mk [2, 2] .abs "dB_22" "# cdBAbs2x2", .mk [2, 3] .abs "dB_23" "# cdBAbs2x3",
  .mk [3, 1] .abs "dB_31" "# cdBAbs3x1", .mk [3, 2] .abs "dB_32" "# cdBAbs3x2", .mk [3, 3] .abs "dB_33" "# cdBAbs3x3"]

/-- smeftsim.py:2197-2205, block `FRBlock4` of set A. -/
noncomputable def rowsA_FRBlock4 : List CRow := [
  .mk [1, 1] .ph "uG_11" "# cuGPh1x1", .mk [1, 2] .ph "uG_12" "# cuGPh1x2", .mk [1, 3] .ph "uG_13" "# cuGPh1x3",
  .mk [2, 1] .ph "uG_21" "# cuGPh2x1", .mk [2, 2] .ph "uG_22" "# cuGPh2x2", .mk [2, 3] .ph "uG_23" "# cuGPh2x3",
  .mk [3, 1] .ph "uG_31" "# cuGPh3x1", .mk [3, 2] .ph "uG_32" "# cuGPh3x2", .mk [3, 3] .ph "uG_33" "# cuGPh3x3"]

/-- smeftsim.py:2209-2217, block `FRBlock48` of set A. -/
noncomputable def rowsA_FRBlock48 : List CRow := [
  .mk [1, 1] .abs "phiud_11" "# cHudAbs1x1", .mk [1, 2] .abs "phiud_12" "# cHudAbs1x2",
  .mk [1, 3] .abs "phiud_13" "# cHudAbs1x3", .mk [2, 1] .abs "phiud_21" "# cHudAbs2x1",
  .mk [2, 2] .abs "phiud_22" "# cHudAbs2x2", .mk [2, 3] .abs "phiud_23" "# cHudAbs2x3",
  .mk [3, 1] .abs "phiud_31" "# cHudAbs3x1", .mk [3, 2] .abs "phiud_32" "# cHudAbs3x2",
  .mk [3, 3] .abs "phiud_33" "# cHudAbs3x3"]

/-- smeftsim.py:2221-2229, block `FRBlock5` of set A. -/
noncomputable def rowsA_FRBlock5 : List CRow := [
  .mk [1, 1] .ph "uW_11" "# cuWPh1x1", .mk [1, 2] .ph "uW_12" "# cuWPh1x2", .mk [1, 3] .ph "uW_13" "# cuWPh1x3",
  .mk [2, 1] .ph "uW_21" "# cuWPh2x1", .mk [2, 2] .ph "uW_22" "# cuWPh2x2", .mk [2, 3] .ph "uW_23" "# cuWPh2x3",
  .mk [3, 1] .ph "uW_31" "# cuWPh3x1", .mk [3, 2] .ph "uW_32" "# cuWPh3x2", .mk [3, 3] .ph "uW_33" "# cuWPh3x3"]

/-- smeftsim.py:2233-2241, block `FRBlock6` of set A. -/
noncomputable def rowsA_FRBlock6 : List CRow := [
  .mk [1, 1] .ph "uB_11" "# cuBPh1x1", .mk [1, 2] .ph "uB_12" "# cuBPh1x2", .mk [1, 3] .ph "uB_13" "# cuBPh1x3",
  .mk [2, 1] .ph "uB_21" "# cuBPh2x1", .mk [2, 2] .ph "uB_22" "# cuBPh2x2", .mk [2, 3] .ph "uB_23" "# cuBPh2x3",
  .mk [3, 1] .ph "uB_31" "# cuBPh3x1", .mk [3, 2] .ph "uB_32" "# cuBPh3x2", .mk [3, 3] .ph "uB_33" "# cuBPh3x3"]

/-- smeftsim.py:2245-2253, block `FRBlock7` of set A. -/
noncomputable def rowsA_FRBlock7 : List CRow := [
  .mk [1, 1] .ph "dG_11" "# cdGPh1x1", .mk [1, 2] .ph "dG_12" "# cdGPh1x2", .mk [1, 3] .ph "dG_13" "# cdGPh1x3",
  .mk [2, 1] .ph "dG_21" "# cdGPh2x1", .mk [2, 2] .ph "dG_22" "# cdGPh2x2", .mk [2, 3] .ph "dG_23" "# cdGPh2x3",
  .mk [3, 1] .ph "dG_31" "# cdGPh3x1", .mk [3, 2] .ph "dG_32" "# cdGPh3x2", .mk [3, 3] .ph "dG_33" "# cdGPh3x3"]

/-- smeftsim.py:2257-2337, block `FRBlock70` of set A. -/
noncomputable def rowsA_FRBlock70 : List CRow := [
  .mk [1, 1, 1, 1] .abs "ledq_1111" "# cledqAbs1x1x1x1", .mk [1, 1, 1, 2] .abs "ledq_1112" "# cledqAbs1x1x1x2",
  .mk [1, 1, 1, 3] .abs "ledq_1113" "# cledqAbs1x1x1x3", .mk [1, 1, 2, 1] .abs "ledq_1121" "# cledqAbs1x1x2x1",
  .mk [1, 1, 2, 2] .abs "ledq_1122" "# cledqAbs1x1x2x2", .mk [1, 1, 2, 3] .abs "ledq_1123" "# cledqAbs1x1x2x3",
  .mk [1, 1, 3, 1] .abs "ledq_1131" "# cledqAbs1x1x3x1", .mk [1, 1, 3, 2] .abs "ledq_1132" "# cledqAbs1x1x3x2",
  .mk [1, 1, 3, 3] .abs "ledq_1133" "# cledqAbs1x1x3x3", .mk [1, 2, 1, 1] .abs "ledq_1211" "# cledqAbs1x2x1x1",
  .mk [1, 2, 1, 2] .abs "ledq_1212" "# cledqAbs1x2x1x2", .mk [1, 2, 1, 3] .abs "ledq_1213" "# cledqAbs1x2x1x3",
  .mk [1, 2, 2, 1] .abs "ledq_1221" "# cledqAbs1x2x2x1", .mk [1, 2, 2, 2] .abs "ledq_1222" "# cledqAbs1x2x2x2",
  .mk [1, 2, 2, 3] .abs "ledq_1223" "# cledqAbs1x2x2x3", .mk [1, 2, 3, 1] .abs "ledq_1231" "# cledqAbs1x2x3x1",
  .mk [1, 2, 3, 2] .abs "ledq_1232" "# cledqAbs1x2x3x2", .mk [1, 2, 3, 3] .abs "ledq_1233" "# cledqAbs1x2x3x3",
  .mk [1, 3, 1, 1] .abs "ledq_1311" "# cledqAbs1x3x1x1", .mk [1, 3, 1, 2] .abs "ledq_1312" "# cledqAbs1x3x1x2",
  .mk [1, 3, 1, 3] .abs "ledq_1313" "# cledqAbs1x3x1x3", .mk [1, 3, 2, 1] .abs "ledq_1321" "# cledqAbs1x3x2x1",
  .mk [1, 3, 2, 2] .abs "ledq_1322" "# cledqAbs1x3x2x2", .mk [1, 3, 2, 3] .abs "ledq_1323" "# cledqAbs1x3x2x3",
  .mk [1, 3, 3, 1] .abs "ledq_1331" "# cledqAbs1x3x3x1", .mk [1, 3, 3, 2] .abs "ledq_1332" "# cledqAbs1x3x3x2",
  .mk [1, 3, 3, 3] .abs "ledq_1333" "# cledqAbs1x3x3x3", .mk [2, 1, 1, 1] .abs "ledq_2111" "# cledqAbs2x1x1x1",
  .mk [2, 1, 1, 2] .abs "ledq_2112" "# cledqAbs2x1x1x2", .mk [2, 1, 1, 3] .abs "ledq_2113" "# cledqAbs2x1x1x3",
  .mk [2, 1, 2, 1] .abs "ledq_2121" "# cledqAbs2x1x2x1", .mk [2, 1, 2, 2] .abs "ledq_2122" "# cledqAbs2x1x2x2",
  .mk [2, 1, 2, 3] .abs "ledq_2123" "# cledqAbs2x1x2x3", .mk [2, 1, 3, 1] .abs "ledq_2131" "# cledqAbs2x1x3x1",
  .mk [2, 1, 3, 2] .abs "ledq_2132" "# cledqAbs2x1x3x2", .mk [2, 1, 3, 3] .abs "ledq_2133" "# cledqAbs2x1x3x3",
  .mk [2, 2, 1, 1] .abs "ledq_2211" "# cledqAbs2x2x1x1", .mk [2, 2, 1, 2] .abs "ledq_2212" "# cledqAbs2x2x1x2",
  .mk [2, 2, 1, 3] .abs "ledq_2213" "# cledqAbs2x2x1x3", .mk [2, 2, 2, 1] .abs "ledq_2221" "# cledqAbs2x2x2x1",
  .mk [2, 2, 2, 2] .abs "ledq_2222" "# cledqAbs2x2x2x2", .mk [2, 2, 2, 3] .abs "ledq_2223" "# cledqAbs2x2x2x3",
  .mk [2, 2, 3, 1] .abs "ledq_2231" "# cledqAbs2x2x3x1", .mk [2, 2, 3, 2] .abs "ledq_2232" "# cledqAbs2x2x3x2",
  .mk [2, 2, 3, 3] .abs "ledq_2233" "# cledqAbs2x2x3x3", .mk [2, 3, 1, 1] .abs "ledq_2311" "# cledqAbs2x3x1x1",
  .mk [2, 3, 1, 2] .abs "ledq_2312" "# cledqAbs2x3x1x2", .mk [2, 3, 1, 3] .abs "ledq_2313" "# cledqAbs2x3x1x3",
  .mk [2, 3, 2, 1] .abs "ledq_2321" "# cledqAbs2x3x2x1", .mk [2, 3, 2, 2] .abs "ledq_2322" "# cledqAbs2x3x2x2",
  .mk [2, 3, 2, 3] .abs "ledq_2323" "# cledqAbs2x3x2x3", .mk [2, 3, 3, 1] .abs "ledq_2331" "# cledqAbs2x3x3x1",
  .mk [2, 3, 3, 2] .abs "ledq_2332" "# cledqAbs2x3x3x2", .mk [2, 3, 3, 3] .abs "ledq_2333" "# cledqAbs2x3x3x3",
  .mk [3, 1, 1, 1] .abs "ledq_3111" "# cledqAbs3x1x1x1", .mk [3, 1, 1, 2] .abs "ledq_3112" "# cledqAbs3x1x1x2",
  .mk [3, 1, 1, 3] .abs "ledq_3113" "# cledqAbs3x1x1x3", .mk [3, 1, 2, 1] .abs "ledq_3121" "# cledqAbs3x1x2x1",
  .mk [3, 1, 2, 2] .abs "ledq_3122" "# cledqAbs3x1x2x2", .mk [3, 1, 2, 3] .abs "ledq_3123" "# cledqAbs3x1x2x3",
  .mk [3, 1, 3, 1] .abs "ledq_3131" "# cledqAbs3x1x3x1", .mk [3, 1, 3, 2] .abs "ledq_3132" "# cledqAbs3x1x3x2",
  .mk [3, 1, 3, 3] .abs "ledq_3133" "# cledqAbs3x1x3x3", .mk [3, 2, 1, 1] .abs "ledq_3211" "# cledqAbs3x2x1x1",
  .mk [3, 2, 1, 2] .abs "ledq_3212" "# cledqAbs3x2x1x2", .mk [3, 2, 1, 3] .abs "ledq_3213" "# cledqAbs3x2x1x3",
  .mk [3, 2, 2, 1] .abs "ledq_3221" "# cledqAbs3x2x2x1", .mk [3, 2, 2, 2] .abs "ledq_3222" "# cledqAbs3x2x2x2",
  .mk [3, 2, 2, 3] .abs "ledq_3223" "# cledqAbs3x2x2x3", .mk [3, 2, 3, 1] .abs "ledq_3231" "# cledqAbs3x2x3x1",
  .mk [3, 2, 3, 2] .abs "ledq_3232" "# cledqAbs3x2x3x2", .mk [3, 2, 3, 3] .abs "ledq_3233" "# cledqAbs3x2x3x3",
  .mk [3, 3, 1, 1] .abs "ledq_3311" "# cledqAbs3x3x1x1", .mk [3, 3, 1, 2] .abs "ledq_3312" "# cledqAbs3x3x1x2",
  .mk [3, 3, 1, 3] .abs "ledq_3313" "# cledqAbs3x3x1x3", .mk [3, 3, 2, 1] .abs "ledq_3321" "# cledqAbs3x3x2x1",
  .mk [3, 3, 2, 2] .abs "ledq_3322" "# cledqAbs3x3x2x2", .mk [3, 3, 2, 3] .abs "ledq_3323" "# cledqAbs3x3x2x3",
  .mk [3, 3, 3, 1] .abs "ledq_3331" "# cledqAbs3x3x3x1", .mk [3, 3, 3, 2] .abs "ledq_3332" "# cledqAbs3x3x3x2",
  .mk [3, 3, 3, 3] .abs "ledq_3333" "# cledqAbs3x3x3x3"]

/-- smeftsim.py:2341-2421, block `FRBlock71` of set A. -/
noncomputable def rowsA_FRBlock71 : List CRow := [
  .mk [1, 1, 1, 1] .abs "quqd1_1111" "# cquqd1Abs1x1x1x1", .mk [1, 1, 1, 2] .abs "quqd1_1112" "# cquqd1Abs1x1x1x2",
  .mk [1, 1, 1, 3] .abs "quqd1_1113" "# cquqd1Abs1x1x1x3", .mk [1, 1, 2, 1] .abs "quqd1_1121" "# cquqd1Abs1x1x2x1",
  .mk [1, 1, 2, 2] .abs "quqd1_1122" "# cquqd1Abs1x1x2x2", .mk [1, 1, 2, 3] .abs "quqd1_1123" "# cquqd1Abs1x1x2x3",
  .mk [1, 1, 3, 1] .abs "quqd1_1131" "# cquqd1Abs1x1x3x1", .mk [1, 1, 3, 2] .abs "quqd1_1132" "# cquqd1Abs1x1x3x2",
  .mk [1, 1, 3, 3] .abs "quqd1_1133" "# cquqd1Abs1x1x3x3", .mk [1, 2, 1, 1] .abs "quqd1_1211" "# cquqd1Abs1x2x1x1",
  .mk [1, 2, 1, 2] .abs "quqd1_1212" "# cquqd1Abs1x2x1x2", .mk [1, 2, 1, 3] .abs "quqd1_1213" "# cquqd1Abs1x2x1x3",
  .mk [1, 2, 2, 1] .abs "quqd1_1221" "# cquqd1Abs1x2x2x1", .mk [1, 2, 2, 2] .abs "quqd1_1222" "# cquqd1Abs1x2x2x2",
  .mk [1, 2, 2, 3] .abs "quqd1_1223" "# cquqd1Abs1x2x2x3", .mk [1, 2, 3, 1] .abs "quqd1_1231" "# cquqd1Abs1x2x3x1",
  .mk [1, 2, 3, 2] .abs "quqd1_1232" "# cquqd1Abs1x2x3x2", .mk [1, 2, 3, 3] .abs "quqd1_1233" "# cquqd1Abs1x2x3x3",
  .mk [1, 3, 1, 1] .abs "quqd1_1311" "# cquqd1Abs1x3x1x1", .mk [1, 3, 1, 2] .abs "quqd1_1312" "# cquqd1Abs1x3x1x2",
  .mk [1, 3, 1, 3] .abs "quqd1_1313" "# cquqd1Abs1x3x1x3", .mk [1, 3, 2, 1] .abs "quqd1_1321" "# cquqd1Abs1x3x2x1",
  .mk [1, 3, 2, 2] .abs "quqd1_1322" "# cquqd1Abs1x3x2x2", .mk [1, 3, 2, 3] .abs "quqd1_1323" "# cquqd1Abs1x3x2x3",
  .mk [1, 3, 3, 1] .abs "quqd1_1331" "# cquqd1Abs1x3x3x1", .mk [1, 3, 3, 2] .abs "quqd1_1332" "# cquqd1Abs1x3x3x2",
  .mk [1, 3, 3, 3] .abs "quqd1_1333" "# cquqd1Abs1x3x3x3", .mk [2, 1, 1, 1] .abs "quqd1_2111" "# cquqd1Abs2x1x1x1",
  .mk [2, 1, 1, 2] .abs "quqd1_2112" "# cquqd1Abs2x1x1x2", .mk [2, 1, 1, 3] .abs "quqd1_2113" "# cquqd1Abs2x1x1x3",
  .mk [2, 1, 2, 1] .abs "quqd1_2121" "# cquqd1Abs2x1x2x1", .mk [2, 1, 2, 2] .abs "quqd1_2122" "# cquqd1Abs2x1x2x2",
  .mk [2, 1, 2, 3] .abs "quqd1_2123" "# cquqd1Abs2x1x2x3", .mk [2, 1, 3, 1] .abs "quqd1_2131" "# cquqd1Abs2x1x3x1",
  .mk [2, 1, 3, 2] .abs "quqd1_2132" "# cquqd1Abs2x1x3x2", .mk [2, 1, 3, 3] .abs "quqd1_2133" "# cquqd1Abs2x1x3x3",
  .mk [2, 2, 1, 1] .abs "quqd1_2211" "# cquqd1Abs2x2x1x1", .mk [2, 2, 1, 2] .abs "quqd1_2212" "# cquqd1Abs2x2x1x2",
  .mk [2, 2, 1, 3] .abs "quqd1_2213" "# cquqd1Abs2x2x1x3", .mk [2, 2, 2, 1] .abs "quqd1_2221" "# cquqd1Abs2x2x2x1",
  .mk [2, 2, 2, 2] .abs "quqd1_2222" "# cquqd1Abs2x2x2x2", .mk [2, 2, 2, 3] .abs "quqd1_2223" "# cquqd1Abs2x2x2x3",
  .mk [2, 2, 3, 1] .abs "quqd1_2231" "# cquqd1Abs2x2x3x1", .mk [2, 2, 3, 2] .abs "quqd1_2232" "# cquqd1Abs2x2x3x2",
  .mk [2, 2, 3, 3] .abs "quqd1_2233" "# cquqd1Abs2x2x3x3", .mk [2, 3, 1, 1] .abs "quqd1_2311" "# cquqd1Abs2x3x1x1",
  .mk [2, 3, 1, 2] .abs "quqd1_2312" "# cquqd1Abs2x3x1x2", .mk [2, 3, 1, 3] .abs "quqd1_2313" "# cquqd1Abs2x3x1x3",
  .mk [2, 3, 2, 1] .abs "quqd1_2321" "# cquqd1Abs2x3x2x1", .mk [2, 3, 2, 2] .abs "quqd1_2322" "# cquqd1Abs2x3x2x2",
  .mk [2, 3, 2, 3] .abs "quqd1_2323" "# cquqd1Abs2x3x2x3", .mk [2, 3, 3, 1] .abs "quqd1_2331" "# cquqd1Abs2x3x3x1",
  .mk [2, 3, 3, 2] .abs "quqd1_2332" "# cquqd1Abs2x3x3x2", .mk [2, 3, 3, 3] .abs "quqd1_2333" "# cquqd1Abs2x3x3x3",
  .mk [3, 1, 1, 1] .abs "quqd1_3111" "# cquqd1Abs3x1x1x1", .mk [3, 1, 1, 2] .abs "quqd1_3112" "# cquqd1Abs3x1x1x2",
  .mk [3, 1, 1, 3] .abs "quqd1_3113" "# cquqd1Abs3x1x1x3", .mk [3, 1, 2, 1] .abs "quqd1_3121" "# cquqd1Abs3x1x2x1",
  .mk [3, 1, 2, 2] .abs "quqd1_3122" "# cquqd1Abs3x1x2x2", .mk [3, 1, 2, 3] .abs "quqd1_3123" "# cquqd1Abs3x1x2x3",
  .mk [3, 1, 3, 1] .abs "quqd1_3131" "# cquqd1Abs3x1x3x1", .mk [3, 1, 3, 2] .abs "quqd1_3132" "# cquqd1Abs3x1x3x2",
  .mk [3, 1, 3, 3] .abs "quqd1_3133" "# cquqd1Abs3x1x3x3", .mk [3, 2, 1, 1] .abs "quqd1_3211" "# cquqd1Abs3x2x1x1",
  .mk [3, 2, 1, 2] .abs "quqd1_3212" "# cquqd1Abs3x2x1x2", .mk [3, 2, 1, 3] .abs "quqd1_3213" "# cquqd1Abs3x2x1x3",
  .mk [3, 2, 2, 1] .abs "quqd1_3221" "# cquqd1Abs3x2x2x1", .mk [3, 2, 2, 2] .abs "quqd1_3222" "# cquqd1Abs3x2x2x2",
  .mk [3, 2, 2, 3] .abs "quqd1_3223" "# cquqd1Abs3x2x2x3", .mk [3, 2, 3, 1] .abs "quqd1_3231" "# cquqd1Abs3x2x3x1",
  .mk [3, 2, 3, 2] .abs "quqd1_3232" "# cquqd1Abs3x2x3x2", .mk [3, 2, 3, 3] .abs "quqd1_3233" "# cquqd1Abs3x2x3x3",
  .mk [3, 3, 1, 1] .abs "quqd1_3311" "# cquqd1Abs3x3x1x1", .mk [3, 3, 1, 2] .abs "quqd1_3312" "# cquqd1Abs3x3x1x2",
  .mk [3, 3, 1, 3] .abs "quqd1_3313" "# cquqd1Abs3x3x1x3", .mk [3, 3, 2, 1] .abs "quqd1_3321" "# cquqd1Abs3x3x2x1",
  .mk [3, 3, 2, 2] .abs "quqd1_3322" "# cquqd1Abs3x3x2x2", .mk [3, 3, 2, 3] .abs "quqd1_3323" "# cquqd1Abs3x3x2x3",
  .mk [3, 3, 3, 1] .abs "quqd1_3331" "# cquqd1Abs3x3x3x1", .mk [3, 3, 3, 2] .abs "quqd1_3332" "# cquqd1Abs3x3x3x2",
  .mk [3, 3, 3, 3] .abs "quqd1_3333" "# cquqd1Abs3x3x3x3"]

/-- smeftsim.py:2425-2505, block `FRBlock72` of set A. -/
noncomputable def rowsA_FRBlock72 : List CRow := [
  .mk [1, 1, 1, 1] .abs "quqd8_1111" "# cquqd8Abs1x1x1x1", .mk [1, 1, 1, 2] .abs "quqd8_1112" "# cquqd8Abs1x1x1x2",
  .mk [1, 1, 1, 3] .abs "quqd8_1113" "# cquqd8Abs1x1x1x3", .mk [1, 1, 2, 1] .abs "quqd8_1121" "# cquqd8Abs1x1x2x1",
  .mk [1, 1, 2, 2] .abs "quqd8_1122" "# cquqd8Abs1x1x2x2", .mk [1, 1, 2, 3] .abs "quqd8_1123" "# cquqd8Abs1x1x2x3",
  .mk [1, 1, 3, 1] .abs "quqd8_1131" "# cquqd8Abs1x1x3x1", .mk [1, 1, 3, 2] .abs "quqd8_1132" "# cquqd8Abs1x1x3x2",
  .mk [1, 1, 3, 3] .abs "quqd8_1133" "# cquqd8Abs1x1x3x3", .mk [1, 2, 1, 1] .abs "quqd8_1211" "# cquqd8Abs1x2x1x1",
  .mk [1, 2, 1, 2] .abs "quqd8_1212" "# cquqd8Abs1x2x1x2", .mk [1, 2, 1, 3] .abs "quqd8_1213" "# cquqd8Abs1x2x1x3",
  .mk [1, 2, 2, 1] .abs "quqd8_1221" "# cquqd8Abs1x2x2x1", .mk [1, 2, 2, 2] .abs "quqd8_1222" "# cquqd8Abs1x2x2x2",
  .mk [1, 2, 2, 3] .abs "quqd8_1223" "# cquqd8Abs1x2x2x3", .mk [1, 2, 3, 1] .abs "quqd8_1231" "# cquqd8Abs1x2x3x1",
  .mk [1, 2, 3, 2] .abs "quqd8_1232" "# cquqd8Abs1x2x3x2", .mk [1, 2, 3, 3] .abs "quqd8_1233" "# cquqd8Abs1x2x3x3",
  .mk [1, 3, 1, 1] .abs "quqd8_1311" "# cquqd8Abs1x3x1x1", .mk [1, 3, 1, 2] .abs "quqd8_1312" "# cquqd8Abs1x3x1x2",
  .mk [1, 3, 1, 3] .abs "quqd8_1313" "# cquqd8Abs1x3x1x3", .mk [1, 3, 2, 1] .abs "quqd8_1321" "# cquqd8Abs1x3x2x1",
  .mk [1, 3, 2, 2] .abs "quqd8_1322" "# cquqd8Abs1x3x2x2", .mk [1, 3, 2, 3] .abs "quqd8_1323" "# cquqd8Abs1x3x2x3",
  .mk [1, 3, 3, 1] .abs "quqd8_1331" "# cquqd8Abs1x3x3x1", .mk [1, 3, 3, 2] .abs "quqd8_1332" "# cquqd8Abs1x3x3x2",
  .mk [1, 3, 3, 3] .abs "quqd8_1333" "# cquqd8Abs1x3x3x3", .mk [2, 1, 1, 1] .abs "quqd8_2111" "# cquqd8Abs2x1x1x1",
  .mk [2, 1, 1, 2] .abs "quqd8_2112" "# cquqd8Abs2x1x1x2", .mk [2, 1, 1, 3] .abs "quqd8_2113" "# cquqd8Abs2x1x1x3",
  .mk [2, 1, 2, 1] .abs "quqd8_2121" "# cquqd8Abs2x1x2x1", .mk [2, 1, 2, 2] .abs "quqd8_2122" "# cquqd8Abs2x1x2x2",
  .mk [2, 1, 2, 3] .abs "quqd8_2123" "# cquqd8Abs2x1x2x3", .mk [2, 1, 3, 1] .abs "quqd8_2131" "# cquqd8Abs2x1x3x1",
  .mk [2, 1, 3, 2] .abs "quqd8_2132" "# cquqd8Abs2x1x3x2", .mk [2, 1, 3, 3] .abs "quqd8_2133" "# cquqd8Abs2x1x3x3",
  .mk [2, 2, 1, 1] .abs "quqd8_2211" "# cquqd8Abs2x2x1x1", .mk [2, 2, 1, 2] .abs "quqd8_2212" "# cquqd8Abs2x2x1x2",
  .mk [2, 2, 1, 3] .abs "quqd8_2213" "# cquqd8Abs2x2x1x3", .mk [2, 2, 2, 1] .abs "quqd8_2221" "# cquqd8Abs2x2x2x1",
  .mk [2, 2, 2, 2] .abs "quqd8_2222" "# cquqd8Abs2x2x2x2", .mk [2, 2, 2, 3] .abs "quqd8_2223" "# cquqd8Abs2x2x2x3",
  .mk [2, 2, 3, 1] .abs "quqd8_2231" "# cquqd8Abs2x2x3x1", .mk [2, 2, 3, 2] .abs "quqd8_2232" "# cquqd8Abs2x2x3x2",
  .mk [2, 2, 3, 3] .abs "quqd8_2233" "# cquqd8Abs2x2x3x3", .mk [2, 3, 1, 1] .abs "quqd8_2311" "# cquqd8Abs2x3x1x1",
  .mk [2, 3, 1, 2] .abs "quqd8_2312" "# cquqd8Abs2x3x1x2", .mk [2, 3, 1, 3] .abs "quqd8_2313" "# cquqd8Abs2x3x1x3",
  .mk [2, 3, 2, 1] .abs "quqd8_2321" "# cquqd8Abs2x3x2x1", .mk [2, 3, 2, 2] .abs "quqd8_2322" "# cquqd8Abs2x3x2x2",
  .mk [2, 3, 2, 3] .abs "quqd8_2323" "# cquqd8Abs2x3x2x3", .mk [2, 3, 3, 1] .abs "quqd8_2331" "# cquqd8Abs2x3x3x1",
  .mk [2, 3, 3, 2] .abs "quqd8_2332" "# cquqd8Abs2x3x3x2", .mk [2, 3, 3, 3] .abs "quqd8_2333" "# cquqd8Abs2x3x3x3",
  .mk [3, 1, 1, 1] .abs "quqd8_3111" "# cquqd8Abs3x1x1x1", .mk [3, 1, 1, 2] .abs "quqd8_3112" "# cquqd8Abs3x1x1x2",
  .mk [3, 1, 1, 3] .abs "quqd8_3113" "# cquqd8Abs3x1x1x3", .mk [3, 1, 2, 1] .abs "quqd8_3121" "# cquqd8Abs3x1x2x1",
  .mk [3, 1, 2, 2] .abs "quqd8_3122" "# cquqd8Abs3x1x2x2", .mk [3, 1, 2, 3] .abs "quqd8_3123" "# cquqd8Abs3x1x2x3",
  .mk [3, 1, 3, 1] .abs "quqd8_3131" "# cquqd8Abs3x1x3x1", .mk [3, 1, 3, 2] .abs "quqd8_3132" "# cquqd8Abs3x1x3x2",
  .mk [3, 1, 3, 3] .abs "quqd8_3133" "# cquqd8Abs3x1x3x3", .mk [3, 2, 1, 1] .abs "quqd8_3211" "# cquqd8Abs3x2x1x1",
  .mk [3, 2, 1, 2] .abs "quqd8_3212" "# cquqd8Abs3x2x1x2", .mk [3, 2, 1, 3] .abs "quqd8_3213" "# cquqd8Abs3x2x1x3",
  .mk [3, 2, 2, 1] .abs "quqd8_3221" "# cquqd8Abs3x2x2x1", .mk [3, 2, 2, 2] .abs "quqd8_3222" "# cquqd8Abs3x2x2x2",
  .mk [3, 2, 2, 3] .abs "quqd8_3223" "# cquqd8Abs3x2x2x3", .mk [3, 2, 3, 1] .abs "quqd8_3231" "# cquqd8Abs3x2x3x1",
  .mk [3, 2, 3, 2] .abs "quqd8_3232" "# cquqd8Abs3x2x3x2", .mk [3, 2, 3, 3] .abs "quqd8_3233" "# cquqd8Abs3x2x3x3",
  .mk [3, 3, 1, 1] .abs "quqd8_3311" "# cquqd8Abs3x3x1x1", .mk [3, 3, 1, 2] .abs "quqd8_3312" "# cquqd8Abs3x3x1x2",
  .mk [3, 3, 1, 3] .abs "quqd8_3313" "# cquqd8Abs3x3x1x3", .mk [3, 3, 2, 1] .abs "quqd8_3321" "# cquqd8Abs3x3x2x1",
  .mk [3, 3, 2, 2] .abs "quqd8_3322" "# cquqd8Abs3x3x2x2", .mk [3, 3, 2, 3] .abs "quqd8_3323" "# cquqd8Abs3x3x2x3",
  .mk [3, 3, 3, 1] .abs "quqd8_3331" "# cquqd8Abs3x3x3x1", .mk [3, 3, 3, 2] .abs "quqd8_3332" "# cquqd8Abs3x3x3x2",
  .mk [3, 3, 3, 3] .abs "quqd8_3333" "# cquqd8Abs3x3x3x3"]

/-- smeftsim.py:2509-2589, block `FRBlock73` of set A. -/
noncomputable def rowsA_FRBlock73 : List CRow := [
  .mk [1, 1, 1, 1] .abs "lequ1_1111" "# clequ1Abs1x1x1x1", .mk [1, 1, 1, 2] .abs "lequ1_1112" "# clequ1Abs1x1x1x2",
  .mk [1, 1, 1, 3] .abs "lequ1_1113" "# clequ1Abs1x1x1x3", .mk [1, 1, 2, 1] .abs "lequ1_1121" "# clequ1Abs1x1x2x1",
  .mk [1, 1, 2, 2] .abs "lequ1_1122" "# clequ1Abs1x1x2x2", .mk [1, 1, 2, 3] .abs "lequ1_1123" "# clequ1Abs1x1x2x3",
  .mk [1, 1, 3, 1] .abs "lequ1_1131" "# clequ1Abs1x1x3x1", .mk [1, 1, 3, 2] .abs "lequ1_1132" "# clequ1Abs1x1x3x2",
  .mk [1, 1, 3, 3] .abs "lequ1_1133" "# clequ1Abs1x1x3x3", .mk [1, 2, 1, 1] .abs "lequ1_1211" "# clequ1Abs1x2x1x1",
  .mk [1, 2, 1, 2] .abs "lequ1_1212" "# clequ1Abs1x2x1x2", .mk [1, 2, 1, 3] .abs "lequ1_1213" "# clequ1Abs1x2x1x3",
  .mk [1, 2, 2, 1] .abs "lequ1_1221" "# clequ1Abs1x2x2x1", .mk [1, 2, 2, 2] .abs "lequ1_1222" "# clequ1Abs1x2x2x2",
  .mk [1, 2, 2, 3] .abs "lequ1_1223" "# clequ1Abs1x2x2x3", .mk [1, 2, 3, 1] .abs "lequ1_1231" "# clequ1Abs1x2x3x1",
  .mk [1, 2, 3, 2] .abs "lequ1_1232" "# clequ1Abs1x2x3x2", .mk [1, 2, 3, 3] .abs "lequ1_1233" "# clequ1Abs1x2x3x3",
  .mk [1, 3, 1, 1] .abs "lequ1_1311" "# clequ1Abs1x3x1x1", .mk [1, 3, 1, 2] .abs "lequ1_1312" "# clequ1Abs1x3x1x2",
  .mk [1, 3, 1, 3] .abs "lequ1_1313" "# clequ1Abs1x3x1x3", .mk [1, 3, 2, 1] .abs "lequ1_1321" "# clequ1Abs1x3x2x1",
  .mk [1, 3, 2, 2] .abs "lequ1_1322" "# clequ1Abs1x3x2x2", .mk [1, 3, 2, 3] .abs "lequ1_1323" "# clequ1Abs1x3x2x3",
  .mk [1, 3, 3, 1] .abs "lequ1_1331" "# clequ1Abs1x3x3x1", .mk [1, 3, 3, 2] .abs "lequ1_1332" "# clequ1Abs1x3x3x2",
  .mk [1, 3, 3, 3] .abs "lequ1_1333" "# clequ1Abs1x3x3x3", .mk [2, 1, 1, 1] .abs "lequ1_2111" "# clequ1Abs2x1x1x1",
  .mk [2, 1, 1, 2] .abs "lequ1_2112" "# clequ1Abs2x1x1x2", .mk [2, 1, 1, 3] .abs "lequ1_2113" "# clequ1Abs2x1x1x3",
  .mk [2, 1, 2, 1] .abs "lequ1_2121" "# clequ1Abs2x1x2x1", .mk [2, 1, 2, 2] .abs "lequ1_2122" "# clequ1Abs2x1x2x2",
  .mk [2, 1, 2, 3] .abs "lequ1_2123" "# clequ1Abs2x1x2x3", .mk [2, 1, 3, 1] .abs "lequ1_2131" "# clequ1Abs2x1x3x1",
  .mk [2, 1, 3, 2] .abs "lequ1_2132" "# clequ1Abs2x1x3x2", .mk [2, 1, 3, 3] .abs "lequ1_2133" "# clequ1Abs2x1x3x3",
  .mk [2, 2, 1, 1] .abs "lequ1_2211" "# clequ1Abs2x2x1x1", .mk [2, 2, 1, 2] .abs "lequ1_2212" "# clequ1Abs2x2x1x2",
  .mk [2, 2, 1, 3] .abs "lequ1_2213" "# clequ1Abs2x2x1x3", .mk [2, 2, 2, 1] .abs "lequ1_2221" "# clequ1Abs2x2x2x1",
  .mk [2, 2, 2, 2] .abs "lequ1_2222" "# clequ1Abs2x2x2x2", .mk [2, 2, 2, 3] .abs "lequ1_2223" "# clequ1Abs2x2x2x3",
  .mk [2, 2, 3, 1] .abs "lequ1_2231" "# clequ1Abs2x2x3x1", .mk [2, 2, 3, 2] .abs "lequ1_2232" "# clequ1Abs2x2x3x2",
  .mk [2, 2, 3, 3] .abs "lequ1_2233" "# clequ1Abs2x2x3x3", .mk [2, 3, 1, 1] .abs "lequ1_2311" "# clequ1Abs2x3x1x1",
  .mk [2, 3, 1, 2] .abs "lequ1_2312" "# clequ1Abs2x3x1x2", .mk [2, 3, 1, 3] .abs "lequ1_2313" "# clequ1Abs2x3x1x3",
  .mk [2, 3, 2, 1] .abs "lequ1_2321" "# clequ1Abs2x3x2x1", .mk [2, 3, 2, 2] .abs "lequ1_2322" "# clequ1Abs2x3x2x2",
  .mk [2, 3, 2, 3] .abs "lequ1_2323" "# clequ1Abs2x3x2x3", .mk [2, 3, 3, 1] .abs "lequ1_2331" "# clequ1Abs2x3x3x1",
  .mk [2, 3, 3, 2] .abs "lequ1_2332" "# clequ1Abs2x3x3x2", .mk [2, 3, 3, 3] .abs "lequ1_2333" "# clequ1Abs2x3x3x3",
  .mk [3, 1, 1, 1] .abs "lequ1_3111" "# clequ1Abs3x1x1x1", .mk [3, 1, 1, 2] .abs "lequ1_3112" "# clequ1Abs3x1x1x2",
  .mk [3, 1, 1, 3] .abs "lequ1_3113" "# clequ1Abs3x1x1x3", .mk [3, 1, 2, 1] .abs "lequ1_3121" "# clequ1Abs3x1x2x1",
  .mk [3, 1, 2, 2] .abs "lequ1_3122" "# clequ1Abs3x1x2x2", .mk [3, 1, 2, 3] .abs "lequ1_3123" "# clequ1Abs3x1x2x3",
  .mk [3, 1, 3, 1] .abs "lequ1_3131" "# clequ1Abs3x1x3x1", .mk [3, 1, 3, 2] .abs "lequ1_3132" "# clequ1Abs3x1x3x2",
  .mk [3, 1, 3, 3] .abs "lequ1_3133" "# clequ1Abs3x1x3x3", .mk [3, 2, 1, 1] .abs "lequ1_3211" "# clequ1Abs3x2x1x1",
  .mk [3, 2, 1, 2] .abs "lequ1_3212" "# clequ1Abs3x2x1x2", .mk [3, 2, 1, 3] .abs "lequ1_3213" "# clequ1Abs3x2x1x3",
  .mk [3, 2, 2, 1] .abs "lequ1_3221" "# clequ1Abs3x2x2x1", .mk [3, 2, 2, 2] .abs "lequ1_3222" "# clequ1Abs3x2x2x2",
  .mk [3, 2, 2, 3] .abs "lequ1_3223" "# clequ1Abs3x2x2x3", .mk [3, 2, 3, 1] .abs "lequ1_3231" "# clequ1Abs3x2x3x1",
  .mk [3, 2, 3, 2] .abs "lequ1_3232" "# clequ1Abs3x2x3x2", .mk [3, 2, 3, 3] .abs "lequ1_3233" "# clequ1Abs3x2x3x3",
  .mk [3, 3, 1, 1] .abs "lequ1_3311" "# clequ1Abs3x3x1x1", .mk [3, 3, 1, 2] .abs "lequ1_3312" "# clequ1Abs3x3x1x2",
  .mk [3, 3, 1, 3] .abs "lequ1_3313" "# clequ1Abs3x3x1x3", .mk [3, 3, 2, 1] .abs "lequ1_3321" "# clequ1Abs3x3x2x1",
  .mk [3, 3, 2, 2] .abs "lequ1_3322" "# clequ1Abs3x3x2x2", .mk [3, 3, 2, 3] .abs "lequ1_3323" "# clequ1Abs3x3x2x3",
  .mk [3, 3, 3, 1] .abs "lequ1_3331" "# clequ1Abs3x3x3x1", .mk [3, 3, 3, 2] .abs "lequ1_3332" "# clequ1Abs3x3x3x2",
  .mk [3, 3, 3, 3] .abs "lequ1_3333" "# clequ1Abs3x3x3x3"]

/-- smeftsim.py:2593-2673, block `FRBlock74` of set A. -/
noncomputable def rowsA_FRBlock74 : List CRow := [
  .mk [1, 1, 1, 1] .abs "lequ3_1111" "# clequ3Abs1x1x1x1", .mk [1, 1, 1, 2] .abs "lequ3_1112" "# clequ3Abs1x1x1x2",
  .mk [1, 1, 1, 3] .abs "lequ3_1113" "# clequ3Abs1x1x1x3", .mk [1, 1, 2, 1] .abs "lequ3_1121" "# clequ3Abs1x1x2x1",
  .mk [1, 1, 2, 2] .abs "lequ3_1122" "# clequ3Abs1x1x2x2", .mk [1, 1, 2, 3] .abs "lequ3_1123" "# clequ3Abs1x1x2x3",
  .mk [1, 1, 3, 1] .abs "lequ3_1131" "# clequ3Abs1x1x3x1", .mk [1, 1, 3, 2] .abs "lequ3_1132" "# clequ3Abs1x1x3x2",
  .mk [1, 1, 3, 3] .abs "lequ3_1133" "# clequ3Abs1x1x3x3", .mk [1, 2, 1, 1] .abs "lequ3_1211" "# clequ3Abs1x2x1x1",
  .mk [1, 2, 1, 2] .abs "lequ3_1212" "# clequ3Abs1x2x1x2", .mk [1, 2, 1, 3] .abs "lequ3_1213" "# clequ3Abs1x2x1x3",
  .mk [1, 2, 2, 1] .abs "lequ3_1221" "# clequ3Abs1x2x2x1", .mk [1, 2, 2, 2] .abs "lequ3_1222" "# clequ3Abs1x2x2x2",
  .mk [1, 2, 2, 3] .abs "lequ3_1223" "# clequ3Abs1x2x2x3", .mk [1, 2, 3, 1] .abs "lequ3_1231" "# clequ3Abs1x2x3x1",
  .mk [1, 2, 3, 2] .abs "lequ3_1232" "# clequ3Abs1x2x3x2", .mk [1, 2, 3, 3] .abs "lequ3_1233" "# clequ3Abs1x2x3x3",
  .mk [1, 3, 1, 1] .abs "lequ3_1311" "# clequ3Abs1x3x1x1", .mk [1, 3, 1, 2] .abs "lequ3_1312" "# clequ3Abs1x3x1x2",
  .mk [1, 3, 1, 3] .abs "lequ3_1313" "# clequ3Abs1x3x1x3", .mk [1, 3, 2, 1] .abs "lequ3_1321" "# clequ3Abs1x3x2x1",
  .mk [1, 3, 2, 2] .abs "lequ3_1322" "# clequ3Abs1x3x2x2", .mk [1, 3, 2, 3] .abs "lequ3_1323" "# clequ3Abs1x3x2x3",
  .mk [1, 3, 3, 1] .abs "lequ3_1331" "# clequ3Abs1x3x3x1", .mk [1, 3, 3, 2] .abs "lequ3_1332" "# clequ3Abs1x3x3x2",
  .mk [1, 3, 3, 3] .abs "lequ3_1333" "# clequ3Abs1x3x3x3", .mk [2, 1, 1, 1] .abs "lequ3_2111" "# clequ3Abs2x1x1x1",
  .mk [2, 1, 1, 2] .abs "lequ3_2112" "# clequ3Abs2x1x1x2", .mk [2, 1, 1, 3] .abs "lequ3_2113" "# clequ3Abs2x1x1x3",
  .mk [2, 1, 2, 1] .abs "lequ3_2121" "# clequ3Abs2x1x2x1", .mk [2, 1, 2, 2] .abs "lequ3_2122" "# clequ3Abs2x1x2x2",
  .mk [2, 1, 2, 3] .abs "lequ3_2123" "# clequ3Abs2x1x2x3", .mk [2, 1, 3, 1] .abs "lequ3_2131" "# clequ3Abs2x1x3x1",
  .mk [2, 1, 3, 2] .abs "lequ3_2132" "# clequ3Abs2x1x3x2", .mk [2, 1, 3, 3] .abs "lequ3_2133" "# clequ3Abs2x1x3x3",
  .mk [2, 2, 1, 1] .abs "lequ3_2211" "# clequ3Abs2x2x1x1", .mk [2, 2, 1, 2] .abs "lequ3_2212" "# clequ3Abs2x2x1x2",
  .mk [2, 2, 1, 3] .abs "lequ3_2213" "# clequ3Abs2x2x1x3", .mk [2, 2, 2, 1] .abs "lequ3_2221" "# clequ3Abs2x2x2x1",
  .mk [2, 2, 2, 2] .abs "lequ3_2222" "# clequ3Abs2x2x2x2", .mk [2, 2, 2, 3] .abs "lequ3_2223" "# clequ3Abs2x2x2x3",
  .mk [2, 2, 3, 1] .abs "lequ3_2231" "# clequ3Abs2x2x3x1", .mk [2, 2, 3, 2] .abs "lequ3_2232" "# clequ3Abs2x2x3x2",
  .mk [2, 2, 3, 3] .abs "lequ3_2233" "# clequ3Abs2x2x3x3", .mk [2, 3, 1, 1] .abs "lequ3_2311" "# clequ3Abs2x3x1x1",
  .mk [2, 3, 1, 2] .abs "lequ3_2312" "# clequ3Abs2x3x1x2", .mk [2, 3, 1, 3] .abs "lequ3_2313" "# clequ3Abs2x3x1x3",
  .mk [2, 3, 2, 1] .abs "lequ3_2321" "# clequ3Abs2x3x2x1", .mk [2, 3, 2, 2] .abs "lequ3_2322" "# clequ3Abs2x3x2x2",
  .mk [2, 3, 2, 3] .abs "lequ3_2323" "# clequ3Abs2x3x2x3", .mk [2, 3, 3, 1] .abs "lequ3_2331" "# clequ3Abs2x3x3x1",
  .mk [2, 3, 3, 2] .abs "lequ3_2332" "# clequ3Abs2x3x3x2", .mk [2, 3, 3, 3] .abs "lequ3_2333" "# clequ3Abs2x3x3x3",
  .mk [3, 1, 1, 1] .abs "lequ3_3111" "# clequ3Abs3x1x1x1", .mk [3, 1, 1, 2] .abs "lequ3_3112" "# clequ3Abs3x1x1x2",
  .mk [3, 1, 1, 3] .abs "lequ3_3113" "# clequ3Abs3x1x1x3", .mk [3, 1, 2, 1] .abs "lequ3_3121" "# clequ3Abs3x1x2x1",
  .mk [3, 1, 2, 2] .abs "lequ3_3122" "# clequ3Abs3x1x2x2", .mk [3, 1, 2, 3] .abs "lequ3_3123" "# clequ3Abs3x1x2x3",
  .mk [3, 1, 3, 1] .abs "lequ3_3131" "# clequ3Abs3x1x3x1", .mk [3, 1, 3, 2] .abs "lequ3_3132" "# clequ3Abs3x1x3x2",
  .mk [3, 1, 3, 3] .abs "lequ3_3133" "# clequ3Abs3x1x3x3", .mk [3, 2, 1, 1] .abs "lequ3_3211" "# clequ3Abs3x2x1x1",
  .mk [3, 2, 1, 2] .abs "lequ3_3212" "# clequ3Abs3x2x1x2", .mk [3, 2, 1, 3] .abs "lequ3_3213" "# clequ3Abs3x2x1x3",
  .mk [3, 2, 2, 1] .abs "lequ3_3221" "# clequ3Abs3x2x2x1", .mk [3, 2, 2, 2] .abs "lequ3_3222" "# clequ3Abs3x2x2x2",
  .mk [3, 2, 2, 3] .abs "lequ3_3223" "# clequ3Abs3x2x2x3", .mk [3, 2, 3, 1] .abs "lequ3_3231" "# clequ3Abs3x2x3x1",
  .mk [3, 2, 3, 2] .abs "lequ3_3232" "# clequ3Abs3x2x3x2", .mk [3, 2, 3, 3] .abs "lequ3_3233" "# clequ3Abs3x2x3x3",
  .mk [3, 3, 1, 1] .abs "lequ3_3311" "# clequ3Abs3x3x1x1", .mk [3, 3, 1, 2] .abs "lequ3_3312" "# clequ3Abs3x3x1x2",
  .mk [3, 3, 1, 3] .abs "lequ3_3313" "# clequ3Abs3x3x1x3", .mk [3, 3, 2, 1] .abs "lequ3_3321" "# clequ3Abs3x3x2x1",
  .mk [3, 3, 2, 2] .abs "lequ3_3322" "# clequ3Abs3x3x2x2", .mk [3, 3, 2, 3] .abs "lequ3_3323" "# clequ3Abs3x3x2x3",
  .mk [3, 3, 3, 1] .abs "lequ3_3331" "# clequ3Abs3x3x3x1", .mk [3, 3, 3, 2] .abs "lequ3_3332" "# clequ3Abs3x3x3x2",
  .mk [3, 3, 3, 3] .abs "lequ3_3333" "# clequ3Abs3x3x3x3"]

/-- smeftsim.py:2677-2685, block `FRBlock8` of set A. -/
noncomputable def rowsA_FRBlock8 : List CRow := [
  .mk [1, 1] .ph "dW_11" "# cdWPh1x1", .mk [1, 2] .ph "dW_12" "# cdWPh1x2", .mk [1, 3] .ph "dW_13" "# cdWPh1x3",
  .mk [2, 1] .ph "dW_21" "# cdWPh2x1", .mk [2, 2] .ph "dW_22" "# cdWPh2x2", .mk [2, 3] .ph "dW_23" "# cdWPh2x3",
  .mk [3, 1] .ph "dW_31" "# cdWPh3x1", .mk [3, 2] .ph "dW_32" "# cdWPh3x2", .mk [3, 3] .ph "dW_33" "# cdWPh3x3"]

/-- smeftsim.py:2689-2697, block `FRBlock9` of set A. -/
noncomputable def rowsA_FRBlock9 : List CRow := [
  .mk [1, 1] .ph "dB_11" "# cdBPh1x1", .mk [1, 2] .ph "dB_12" "# cdBPh1x2", .mk [1, 3] .ph "dB_13" "# cdBPh1x3",
  .mk [2, 1] .ph "dB_21" "# cdBPh2x1", .mk [2, 2] .ph "dB_22" "# cdBPh2x2", .mk [2, 3] .ph "dB_23" "# cdBPh2x3",
  .mk [3, 1] .ph "dB_31" "# cdBPh3x1", .mk [3, 2] .ph "dB_32" "# cdBPh3x2", .mk [3, 3] .ph "dB_33" "# cdBPh3x3"]

/-- The assignments `card['Block'][name] = {'values': [...]}` of set A in order (smeftsim.py:93-2698). -/
noncomputable def blocksA : List (String × List CRow) := [
  ("FRBlock", rowsA_FRBlock_1 ++ rowsA_FRBlock_2 ++ rowsA_FRBlock_3 ++ rowsA_FRBlock_4 ++ rowsA_FRBlock_5 ++ rowsA_FRBlock_6 ++ rowsA_FRBlock_7 ++ rowsA_FRBlock_8 ++ rowsA_FRBlock_9 ++ rowsA_FRBlock_10),
  ("FRBlock10", rowsA_FRBlock10),
  ("FRBlock11", rowsA_FRBlock11),
  ("FRBlock12", rowsA_FRBlock12),
  ("FRBlock13", rowsA_FRBlock13),
  ("FRBlock14", rowsA_FRBlock14),
  ("FRBlock15", rowsA_FRBlock15),
  ("FRBlock16", rowsA_FRBlock16),
  ("FRBlock17", rowsA_FRBlock17),
  ("FRBlock18", rowsA_FRBlock18),
  ("FRBlock19", rowsA_FRBlock19),
  ("FRBlock2", rowsA_FRBlock2),
  ("FRBlock20", rowsA_FRBlock20),
  ("FRBlock21", rowsA_FRBlock21),
  ("FRBlock25", rowsA_FRBlock25),
  ("FRBlock26", rowsA_FRBlock26),
  ("FRBlock27", rowsA_FRBlock27),
  ("FRBlock28", rowsA_FRBlock28),
  ("FRBlock29", rowsA_FRBlock29),
  ("FRBlock3", rowsA_FRBlock3),
  ("FRBlock30", rowsA_FRBlock30),
  ("FRBlock31", rowsA_FRBlock31),
  ("FRBlock32", rowsA_FRBlock32),
  ("FRBlock4", rowsA_FRBlock4),
  ("FRBlock48", rowsA_FRBlock48),
  ("FRBlock5", rowsA_FRBlock5),
  ("FRBlock6", rowsA_FRBlock6),
  ("FRBlock7", rowsA_FRBlock7),
  ("FRBlock70", rowsA_FRBlock70),
  ("FRBlock71", rowsA_FRBlock71),
  ("FRBlock72", rowsA_FRBlock72),
  ("FRBlock73", rowsA_FRBlock73),
  ("FRBlock74", rowsA_FRBlock74),
  ("FRBlock8", rowsA_FRBlock8),
  ("FRBlock9", rowsA_FRBlock9)]

end Verif
