import Verif.Py.Dict

/-! The two JSON tables of wcxf/data that relate FlavorKit and JMS names, in file order. -/

set_option autoImplicit false

namespace Verif

/-- wcxf/data/flavorkit_jms.json (419 entries). -/
def fkJms : Dict String String :=
  [("DSRR_2323", "S1ddRR_3232"), ("DSRR_3232", "S1ddRR_2323"), ("DSRR_1313", "S1ddRR_3131"), ("DSRR_3131", "S1ddRR_1313"),
   ("DSRR_1212", "S1ddRR_2121"), ("DSRR_2121", "S1ddRR_1212"), ("DSRR_1323", "S1ddRR_3132"), ("DSRR_3132", "S1ddRR_1323"),
   ("DSRR_1232", "S1ddRR_2123"), ("DSRR_2123", "S1ddRR_1232"), ("DSRR_1213", "S1ddRR_2131"), ("DSRR_2131", "S1ddRR_1213"),
   ("FVLL_2111", "VnudLL_1112"), ("FVLL_2122", "VnudLL_2212"), ("FVLL_2133", "VnudLL_3312"), ("FVRL_2111", "VnudLR_1112"),
   ("FVRL_2122", "VnudLR_2212"), ("FVRL_2133", "VnudLR_3312"), ("DSRR_2311", "S1ddRR_1132"), ("DSRR_2322", "S1ddRR_2232"),
   ("DSRR_2333", "S1ddRR_3233"), ("DSRR_3211", "S1ddRR_1123"), ("DSRR_3222", "S1ddRR_2223"), ("DSRR_3233", "S1ddRR_2333"),
   ("DSRR_1231", "S1ddRR_1321"), ("DSRR_1321", "S1ddRR_1231"), ("ESRR_2311", "SedRR_1132"), ("ESRR_2322", "SedRR_2232"),
   ("ESRR_2333", "SedRR_3332"), ("ESRR_3211", "SedRR_1123"), ("ESRR_3222", "SedRR_2223"), ("ESRR_3233", "SedRR_3323"),
   ("ESLR_2311", "SedRL_1132"), ("ESLR_2322", "SedRL_2232"), ("ESLR_2333", "SedRL_3332"), ("ESLR_3211", "SedRL_1123"),
   ("ESLR_3222", "SedRL_2223"), ("ESLR_3233", "SedRL_3323"), ("ETRR_2311", "TedRR_1132"), ("ETRR_2322", "TedRR_2232"),
   ("ETRR_2333", "TedRR_3332"), ("ETRR_3211", "TedRR_1123"), ("ETRR_3222", "TedRR_2223"), ("ETRR_3233", "TedRR_3323"),
   ("DVLL_2132", "VddLL_1223"), ("DVRR_2132", "VddRR_1223"), ("DVLR_2132", "V1ddLR_1223"), ("DSRR_1311", "S1ddRR_1131"),
   ("DSRR_1322", "S1ddRR_2231"), ("DSRR_1333", "S1ddRR_3133"), ("DSRR_3111", "S1ddRR_1113"), ("DSRR_3122", "S1ddRR_1322"),
   ("DSRR_3133", "S1ddRR_1333"), ("DSRR_2132", "S1ddRR_1223"), ("DSRR_2312", "S1ddRR_2132"), ("ESRR_1311", "SedRR_1131"),
   ("ESRR_1322", "SedRR_2231"), ("ESRR_1333", "SedRR_3331"), ("ESRR_3111", "SedRR_1113"), ("ESRR_3122", "SedRR_2213"),
   ("ESRR_3133", "SedRR_3313"), ("ESLR_1311", "SedRL_1131"), ("ESLR_1322", "SedRL_2231"), ("ESLR_1333", "SedRL_3331"),
   ("ESLR_3111", "SedRL_1113"), ("ESLR_3122", "SedRL_2213"), ("ESLR_3133", "SedRL_3313"), ("ETRR_1311", "TedRR_1131"),
   ("ETRR_1322", "TedRR_2231"), ("ETRR_1333", "TedRR_3331"), ("ETRR_3111", "TedRR_1113"), ("ETRR_3122", "TedRR_2213"),
   ("ETRR_3133", "TedRR_3313"), ("DVLL_3123", "VddLL_1332"), ("DVRR_3123", "VddRR_1332"), ("DVLR_3123", "V1ddLR_1332"),
   ("DVLR_3213", "V1ddLR_2331"), ("DSRR_1211", "S1ddRR_1121"), ("DSRR_1222", "S1ddRR_2122"), ("DSRR_1233", "S1ddRR_2133"),
   ("DSRR_2111", "S1ddRR_1112"), ("DSRR_2122", "S1ddRR_1222"), ("DSRR_2133", "S1ddRR_1233"), ("DSRR_3123", "S1ddRR_1332"),
   ("DSRR_3213", "S1ddRR_2331"), ("ESRR_1211", "SedRR_1121"), ("ESRR_1222", "SedRR_2221"), ("ESRR_1233", "SedRR_3321"),
   ("ESRR_2111", "SedRR_1112"), ("ESRR_2122", "SedRR_2212"), ("ESRR_2133", "SedRR_3312"), ("ESLR_1211", "SedRL_1121"),
   ("ESLR_1222", "SedRL_2221"), ("ESLR_1233", "SedRL_3321"), ("ESLR_2111", "SedRL_1112"), ("ESLR_2122", "SedRL_2212"),
   ("ESLR_2133", "SedRL_3312"), ("ETRR_1211", "TedRR_1121"), ("ETRR_1222", "TedRR_2221"), ("ETRR_1233", "TedRR_3321"),
   ("ETRR_2111", "TedRR_1112"), ("ETRR_2122", "TedRR_2212"), ("ETRR_2133", "TedRR_3312"), ("ESRR_2312", "SedRR_2132"),
   ("ESRR_3221", "SedRR_1223"), ("ESLR_2312", "SedRL_2132"), ("ESLR_3221", "SedRL_1223"), ("ETRR_2312", "TedRR_2132"),
   ("ETRR_3221", "TedRR_1223"), ("EVLR_3212", "VdeLR_2321"), ("ESRR_3212", "SedRR_2123"), ("ESRR_2321", "SedRR_1232"),
   ("ESLR_3212", "SedRL_2123"), ("ESLR_2321", "SedRL_1232"), ("ETRR_3212", "TedRR_2123"), ("ETRR_2321", "TedRR_1232"),
   ("ESRR_2313", "SedRR_3132"), ("ESRR_3231", "SedRR_1323"), ("ESLR_2313", "SedRL_3132"), ("ESLR_3231", "SedRL_1323"),
   ("ETRR_2313", "TedRR_3132"), ("ETRR_3231", "TedRR_1323"), ("EVLR_3213", "VdeLR_2331"), ("ESRR_3213", "SedRR_3123"),
   ("ESRR_2331", "SedRR_1332"), ("ESLR_3213", "SedRL_3123"), ("ESLR_2331", "SedRL_1332"), ("ETRR_3213", "TedRR_3123"),
   ("ETRR_2331", "TedRR_1332"), ("ESRR_2323", "SedRR_3232"), ("ESRR_3232", "SedRR_2323"), ("ESLR_2323", "SedRL_3232"),
   ("ESLR_3232", "SedRL_2323"), ("ETRR_2323", "TedRR_3232"), ("ETRR_3232", "TedRR_2323"), ("EVLR_3223", "VdeLR_2332"),
   ("ESRR_3223", "SedRR_3223"), ("ESRR_2332", "SedRR_2332"), ("ESLR_3223", "SedRL_3223"), ("ESLR_2332", "SedRL_2332"),
   ("ETRR_3223", "TedRR_3223"), ("ETRR_2332", "TedRR_2332"), ("ESRR_1312", "SedRR_2131"), ("ESRR_3121", "SedRR_1213"),
   ("ESLR_1312", "SedRL_2131"), ("ESLR_3121", "SedRL_1213"), ("ETRR_1312", "TedRR_2131"), ("ETRR_3121", "TedRR_1213"),
   ("EVLR_3112", "VdeLR_1321"), ("ESRR_3112", "SedRR_2113"), ("ESRR_1321", "SedRR_1231"), ("ESLR_3112", "SedRL_2113"),
   ("ESLR_1321", "SedRL_1231"), ("ETRR_3112", "TedRR_2113"), ("ETRR_1321", "TedRR_1231"), ("ESRR_1313", "SedRR_3131"),
   ("ESRR_3131", "SedRR_1313"), ("ESLR_1313", "SedRL_3131"), ("ESLR_3131", "SedRL_1313"), ("ETRR_1313", "TedRR_3131"),
   ("ETRR_3131", "TedRR_1313"), ("EVLR_3113", "VdeLR_1331"), ("ESRR_3113", "SedRR_3113"), ("ESRR_1331", "SedRR_1331"),
   ("ESLR_3113", "SedRL_3113"), ("ESLR_1331", "SedRL_1331"), ("ETRR_3113", "TedRR_3113"), ("ETRR_1331", "TedRR_1331"),
   ("ESRR_1323", "SedRR_3231"), ("ESRR_3132", "SedRR_2313"), ("ESLR_1323", "SedRL_3231"), ("ESLR_3132", "SedRL_2313"),
   ("ETRR_1323", "TedRR_3231"), ("ETRR_3132", "TedRR_2313"), ("EVLR_3123", "VdeLR_1332"), ("ESRR_3123", "SedRR_3213"),
   ("ESRR_1332", "SedRR_2331"), ("ESLR_3123", "SedRL_3213"), ("ESLR_1332", "SedRL_2331"), ("ETRR_3123", "TedRR_3213"),
   ("ETRR_1332", "TedRR_2331"), ("EVLR_2112", "VdeLR_1221"), ("ESRR_2112", "SedRR_2112"), ("ESRR_1221", "SedRR_1221"),
   ("ESLR_2112", "SedRL_2112"), ("ESLR_1221", "SedRL_1221"), ("ETRR_2112", "TedRR_2112"), ("ETRR_1221", "TedRR_1221"),
   ("ESRR_1212", "SedRR_2121"), ("ESRR_2121", "SedRR_1212"), ("ESLR_1212", "SedRL_2121"), ("ESLR_2121", "SedRL_1212"),
   ("ETRR_1212", "TedRR_2121"), ("ETRR_2121", "TedRR_1212"), ("EVLR_2113", "VdeLR_1231"), ("ESRR_2113", "SedRR_3112"),
   ("ESRR_1231", "SedRR_1321"), ("ESLR_2113", "SedRL_3112"), ("ESLR_1231", "SedRL_1321"), ("ETRR_2113", "TedRR_3112"),
   ("ETRR_1231", "TedRR_1321"), ("ESRR_1213", "SedRR_3121"), ("ESRR_2131", "SedRR_1312"), ("ESLR_1213", "SedRL_3121"),
   ("ESLR_2131", "SedRL_1312"), ("ETRR_1213", "TedRR_3121"), ("ETRR_2131", "TedRR_1312"), ("EVLR_2123", "VdeLR_1232"),
   ("ESRR_2123", "SedRR_3212"), ("ESRR_1232", "SedRR_2321"), ("ESLR_2123", "SedRL_3212"), ("ESLR_1232", "SedRL_2321"),
   ("ETRR_2123", "TedRR_3212"), ("ETRR_1232", "TedRR_2321"), ("ESRR_1223", "SedRR_3221"), ("ESRR_2132", "SedRR_2312"),
   ("ESLR_1223", "SedRL_3221"), ("ESLR_2132", "SedRL_2312"), ("ETRR_1223", "TedRR_3221"), ("ETRR_2132", "TedRR_2312"),
   ("AVLL_1121", "VeeLL_1112"), ("AVLL_2221", "VeeLL_1222"), ("AVLL_3321", "VeeLL_1233"), ("AVRR_1121", "VeeRR_1112"),
   ("AVRR_2221", "VeeRR_1222"), ("AVRR_3321", "VeeRR_1233"), ("AVLR_1121", "VeeLR_1112"), ("AVLR_2221", "VeeLR_2212"),
   ("AVLR_3321", "VeeLR_3312"), ("AVLR_2111", "VeeLR_1211"), ("AVLR_2122", "VeeLR_1222"), ("AVLR_2133", "VeeLR_1233"),
   ("AVLR_3213", "VeeLR_2331"), ("AVLR_3123", "VeeLR_1332"), ("ASRR_1121", "SeeRR_1112"), ("ASRR_2221", "SeeRR_1222"),
   ("ASRR_3321", "SeeRR_1233"), ("ASRR_1112", "SeeRR_1121"), ("ASRR_2212", "SeeRR_2122"), ("ASRR_3312", "SeeRR_2133"),
   ("ASRR_3213", "SeeRR_2331"), ("ASRR_3123", "SeeRR_1332"), ("BVLL_2111", "VedLL_1211"), ("BVLL_2122", "VedLL_1222"),
   ("BVLL_2133", "VedLL_1233"), ("BVRR_2111", "VedRR_1211"), ("BVRR_2122", "VedRR_1222"), ("BVRR_2133", "VedRR_1233"),
   ("BVLR_2111", "VedLR_1211"), ("BVLR_2122", "VedLR_1222"), ("BVLR_2133", "VedLR_1233"), ("BSRL_2111", "SedRL_1211"),
   ("BSRL_2122", "SedRL_1222"), ("BSRL_2133", "SedRL_1233"), ("BSRL_1211", "SedRL_2111"), ("BSRL_1222", "SedRL_2122"),
   ("BSRL_1233", "SedRL_2133"), ("BSRR_2111", "SedRR_1211"), ("BSRR_2122", "SedRR_1222"), ("BSRR_2133", "SedRR_1233"),
   ("BSRR_1211", "SedRR_2111"), ("BSRR_1222", "SedRR_2122"), ("BSRR_1233", "SedRR_2133"), ("BTRR_2111", "TedRR_1211"),
   ("BTRR_2122", "TedRR_1222"), ("BTRR_2133", "TedRR_1233"), ("BTRR_1211", "TedRR_2111"), ("BTRR_1222", "TedRR_2122"),
   ("BTRR_1233", "TedRR_2133"), ("EVLR_1121", "VdeLR_1112"), ("EVLR_2221", "VdeLR_2212"), ("EVLR_3321", "VdeLR_3312"),
   ("CVLL_2111", "VeuLL_1211"), ("CVLL_2122", "VeuLL_1222"), ("CVRR_2111", "VeuRR_1211"), ("CVRR_2122", "VeuRR_1222"),
   ("CVLR_2111", "VeuLR_1211"), ("CVLR_2122", "VeuLR_1222"), ("CSRL_2111", "SeuRL_1211"), ("CSRL_2122", "SeuRL_1222"),
   ("CSRL_1211", "SeuRL_2111"), ("CSRL_1222", "SeuRL_2122"), ("CSRR_2111", "SeuRR_1211"), ("CSRR_2122", "SeuRR_1222"),
   ("CSRR_1211", "SeuRR_2111"), ("CSRR_1222", "SeuRR_2122"), ("CTRR_2111", "TeuRR_1211"), ("CTRR_2122", "TeuRR_1222"),
   ("CTRR_1211", "TeuRR_2111"), ("CTRR_1222", "TeuRR_2122"), ("AVLL_1131", "VeeLL_1113"), ("AVLL_3331", "VeeLL_1333"),
   ("AVRR_1131", "VeeRR_1113"), ("AVRR_3331", "VeeRR_1333"), ("AVLR_1131", "VeeLR_1113"), ("AVLR_2231", "VeeLR_2213"),
   ("AVLR_3331", "VeeLR_3313"), ("AVLR_3111", "VeeLR_1311"), ("AVLR_3122", "VeeLR_1322"), ("AVLR_3133", "VeeLR_1333"),
   ("AVLR_2132", "VeeLR_1223"), ("ASRR_1131", "SeeRR_1113"), ("ASRR_2231", "SeeRR_1322"), ("ASRR_3331", "SeeRR_1333"),
   ("ASRR_1113", "SeeRR_1131"), ("ASRR_2213", "SeeRR_2231"), ("ASRR_3313", "SeeRR_3133"), ("ASRR_2312", "SeeRR_2132"),
   ("ASRR_2132", "SeeRR_1223"), ("BVLL_3111", "VedLL_1311"), ("BVLL_3122", "VedLL_1322"), ("BVLL_3133", "VedLL_1333"),
   ("BVRR_3111", "VedRR_1311"), ("BVRR_3122", "VedRR_1322"), ("BVRR_3133", "VedRR_1333"), ("BVLR_3111", "VedLR_1311"),
   ("BVLR_3122", "VedLR_1322"), ("BVLR_3133", "VedLR_1333"), ("BSRL_3111", "SedRL_1311"), ("BSRL_3122", "SedRL_1322"),
   ("BSRL_3133", "SedRL_1333"), ("BSRL_1311", "SedRL_3111"), ("BSRL_1322", "SedRL_3122"), ("BSRL_1333", "SedRL_3133"),
   ("BSRR_3111", "SedRR_1311"), ("BSRR_3122", "SedRR_1322"), ("BSRR_3133", "SedRR_1333"), ("BSRR_1311", "SedRR_3111"),
   ("BSRR_1322", "SedRR_3122"), ("BSRR_1333", "SedRR_3133"), ("BTRR_3111", "TedRR_1311"), ("BTRR_3122", "TedRR_1322"),
   ("BTRR_3133", "TedRR_1333"), ("BTRR_1311", "TedRR_3111"), ("BTRR_1322", "TedRR_3122"), ("BTRR_1333", "TedRR_3133"),
   ("EVLR_1131", "VdeLR_1113"), ("EVLR_2231", "VdeLR_2213"), ("EVLR_3331", "VdeLR_3313"), ("CVLL_3111", "VeuLL_1311"),
   ("CVLL_3122", "VeuLL_1322"), ("CVRR_3111", "VeuRR_1311"), ("CVRR_3122", "VeuRR_1322"), ("CVLR_3111", "VeuLR_1311"),
   ("CVLR_3122", "VeuLR_1322"), ("CSRL_3111", "SeuRL_1311"), ("CSRL_3122", "SeuRL_1322"), ("CSRL_1311", "SeuRL_3111"),
   ("CSRL_1322", "SeuRL_3122"), ("CSRR_3111", "SeuRR_1311"), ("CSRR_3122", "SeuRR_1322"), ("CSRR_1311", "SeuRR_3111"),
   ("CSRR_1322", "SeuRR_3122"), ("CTRR_3111", "TeuRR_1311"), ("CTRR_3122", "TeuRR_1322"), ("CTRR_1311", "TeuRR_3111"),
   ("CTRR_1322", "TeuRR_3122"), ("ASRR_1123", "SeeRR_1132"), ("ASRR_2223", "SeeRR_2232"), ("ASRR_3323", "SeeRR_3233"),
   ("ASRR_1132", "SeeRR_1123"), ("ASRR_2232", "SeeRR_2223"), ("ASRR_3332", "SeeRR_2333"), ("ASRR_1231", "SeeRR_1321"),
   ("ASRR_1321", "SeeRR_1231"), ("BSRL_2311", "SedRL_3211"), ("BSRL_2322", "SedRL_3222"), ("BSRL_2333", "SedRL_3233"),
   ("BSRL_3211", "SedRL_2311"), ("BSRL_3222", "SedRL_2322"), ("BSRL_3233", "SedRL_2333"), ("BSRR_2311", "SedRR_3211"),
   ("BSRR_2322", "SedRR_3222"), ("BSRR_2333", "SedRR_3233"), ("BSRR_3211", "SedRR_2311"), ("BSRR_3222", "SedRR_2322"),
   ("BSRR_3233", "SedRR_2333"), ("BTRR_2311", "TedRR_3211"), ("BTRR_2322", "TedRR_3222"), ("BTRR_2333", "TedRR_3233"),
   ("BTRR_3211", "TedRR_2311"), ("BTRR_3222", "TedRR_2322"), ("BTRR_3233", "TedRR_2333"), ("CSRL_2311", "SeuRL_3211"),
   ("CSRL_2322", "SeuRL_3222"), ("CSRL_3211", "SeuRL_2311"), ("CSRL_3222", "SeuRL_2322"), ("CSRR_2311", "SeuRR_3211"),
   ("CSRR_2322", "SeuRR_3222"), ("CSRR_3211", "SeuRR_2311"), ("CSRR_3222", "SeuRR_2322"), ("CTRR_2311", "TeuRR_3211"),
   ("CTRR_2322", "TeuRR_3222"), ("CTRR_3211", "TeuRR_2311"), ("CTRR_3222", "TeuRR_2322"), ("ASRR_1313", "SeeRR_3131"),
   ("ASRR_3131", "SeeRR_1313"), ("ASRR_2323", "SeeRR_3232"), ("ASRR_3232", "SeeRR_2323"), ("ASRR_1212", "SeeRR_2121"),
   ("ASRR_2121", "SeeRR_1212"), ("ASRR_1232", "SeeRR_2123"), ("ASRR_2123", "SeeRR_1232"), ("ASRR_1213", "SeeRR_2131"),
   ("ASRR_2131", "SeeRR_1213"), ("ASRR_1323", "SeeRR_3132"), ("ASRR_3132", "SeeRR_1323"), ("Q1R_23", "dgamma_32"),
   ("Q1R_32", "dgamma_23"), ("Q1R_13", "dgamma_31"), ("Q1R_31", "dgamma_13"), ("Q1R_12", "dgamma_21"), ("Q1R_21", "dgamma_12"),
   ("Q2R_23", "dG_32"), ("Q2R_32", "dG_23"), ("Q2R_13", "dG_31"), ("Q2R_31", "dG_13"), ("Q2R_12", "dG_21"), ("Q2R_21", "dG_12")]

/-- wcxf/data/flavorkit_jms_conj.json (479 entries). -/
def fkJmsConj : Dict String String :=
  [("DVLL_2323", "VddLL_2323"), ("DVRR_2323", "VddRR_2323"), ("DVLR_2323", "V1ddLR_2323"), ("DVLL_1313", "VddLL_1313"),
   ("DVRR_1313", "VddRR_1313"), ("DVLR_1313", "V1ddLR_1313"), ("DVLL_1212", "VddLL_1212"), ("DVRR_1212", "VddRR_1212"),
   ("DVLR_1212", "V1ddLR_1212"), ("DVLL_1323", "VddLL_1323"), ("DVRR_1323", "VddRR_1323"), ("DVLR_1323", "V1ddLR_1323"),
   ("DVLR_2313", "V1ddLR_2313"), ("DVLL_1232", "VddLL_1232"), ("DVRR_1232", "VddRR_1232"), ("DVLR_1232", "V1ddLR_1232"),
   ("DVLR_2321", "V1ddLR_2321"), ("DVLL_1213", "VddLL_1213"), ("DVRR_1213", "VddRR_1213"), ("DVLR_1213", "V1ddLR_1213"),
   ("DVLR_1312", "V1ddLR_1312"), ("GVLL_3111", "VnueduLL_1131"), ("GVLL_3121", "VnueduLL_2131"), ("GVLL_3131", "VnueduLL_3131"),
   ("GVRL_3111", "VnueduLR_1131"), ("GVRL_3121", "VnueduLR_2131"), ("GVRL_3131", "VnueduLR_3131"), ("GSLL_3111", "SnueduRR_1131"),
   ("GSLL_3121", "SnueduRR_2131"), ("GSLL_3131", "SnueduRR_3131"), ("GSRL_3111", "SnueduRL_1131"), ("GSRL_3121", "SnueduRL_2131"),
   ("GSRL_3131", "SnueduRL_3131"), ("GVLL_3211", "VnueduLL_1132"), ("GVLL_3221", "VnueduLL_2132"), ("GVLL_3231", "VnueduLL_3132"),
   ("GVRL_3211", "VnueduLR_1132"), ("GVRL_3221", "VnueduLR_2132"), ("GVRL_3231", "VnueduLR_3132"), ("GSLL_3211", "SnueduRR_1132"),
   ("GSLL_3221", "SnueduRR_2132"), ("GSLL_3231", "SnueduRR_3132"), ("GSRL_3211", "SnueduRL_1132"), ("GSRL_3221", "SnueduRL_2132"),
   ("GSRL_3231", "SnueduRL_3132"), ("GVLL_2111", "VnueduLL_1121"), ("GVLL_2121", "VnueduLL_2121"), ("GVLL_2131", "VnueduLL_3121"),
   ("GVRL_2111", "VnueduLR_1121"), ("GVRL_2121", "VnueduLR_2121"), ("GVRL_2131", "VnueduLR_3121"), ("GSLL_2111", "SnueduRR_1121"),
   ("GSLL_2121", "SnueduRR_2121"), ("GSLL_2131", "SnueduRR_3121"), ("GSRL_2111", "SnueduRL_1121"), ("GSRL_2121", "SnueduRL_2121"),
   ("GSRL_2131", "SnueduRL_3121"), ("GVLL_2211", "VnueduLL_1122"), ("GVLL_2221", "VnueduLL_2122"), ("GVLL_2231", "VnueduLL_3122"),
   ("GVRL_2211", "VnueduLR_1122"), ("GVRL_2221", "VnueduLR_2122"), ("GVRL_2231", "VnueduLR_3122"), ("GSLL_2211", "SnueduRR_1122"),
   ("GSLL_2221", "SnueduRR_2122"), ("GSLL_2231", "SnueduRR_3122"), ("GSRL_2211", "SnueduRL_1122"), ("GSRL_2221", "SnueduRL_2122"),
   ("GSRL_2231", "SnueduRL_3122"), ("GVLL_1111", "VnueduLL_1111"), ("GVLL_1121", "VnueduLL_2111"), ("GVLL_1131", "VnueduLL_3111"),
   ("GVRL_1111", "VnueduLR_1111"), ("GVRL_1121", "VnueduLR_2111"), ("GVRL_1131", "VnueduLR_3111"), ("GSLL_1111", "SnueduRR_1111"),
   ("GSLL_1121", "SnueduRR_2111"), ("GSLL_1131", "SnueduRR_3111"), ("GSRL_1111", "SnueduRL_1111"), ("GSRL_1121", "SnueduRL_2111"),
   ("GSRL_1131", "SnueduRL_3111"), ("GVLL_1211", "VnueduLL_1112"), ("GVLL_1221", "VnueduLL_2112"), ("GVLL_1231", "VnueduLL_3112"),
   ("GVRL_1211", "VnueduLR_1112"), ("GVRL_1221", "VnueduLR_2112"), ("GVRL_1231", "VnueduLR_3112"), ("GSLL_1211", "SnueduRR_1112"),
   ("GSLL_1221", "SnueduRR_2112"), ("GSLL_1231", "SnueduRR_3112"), ("GSRL_1211", "SnueduRL_1112"), ("GSRL_1221", "SnueduRL_2112"),
   ("GSRL_1231", "SnueduRL_3112"), ("GVLL_3112", "VnueduLL_1231"), ("GVLL_3122", "VnueduLL_2231"), ("GVLL_3132", "VnueduLL_3231"),
   ("GVRL_3112", "VnueduLR_1231"), ("GVRL_3122", "VnueduLR_2231"), ("GVRL_3132", "VnueduLR_3231"), ("GSLL_3112", "SnueduRR_1231"),
   ("GSLL_3122", "SnueduRR_2231"), ("GSLL_3132", "SnueduRR_3231"), ("GSRL_3112", "SnueduRL_1231"), ("GSRL_3122", "SnueduRL_2231"),
   ("GSRL_3132", "SnueduRL_3231"), ("GVLL_3212", "VnueduLL_1232"), ("GVLL_3222", "VnueduLL_2232"), ("GVLL_3232", "VnueduLL_3232"),
   ("GVRL_3212", "VnueduLR_1232"), ("GVRL_3222", "VnueduLR_2232"), ("GVRL_3232", "VnueduLR_3232"), ("GSLL_3212", "SnueduRR_1232"),
   ("GSLL_3222", "SnueduRR_2232"), ("GSLL_3232", "SnueduRR_3232"), ("GSRL_3212", "SnueduRL_1232"), ("GSRL_3222", "SnueduRL_2232"),
   ("GSRL_3232", "SnueduRL_3232"), ("GVLL_2112", "VnueduLL_1221"), ("GVLL_2122", "VnueduLL_2221"), ("GVLL_2132", "VnueduLL_3221"),
   ("GVRL_2112", "VnueduLR_1221"), ("GVRL_2122", "VnueduLR_2221"), ("GVRL_2132", "VnueduLR_3221"), ("GSLL_2112", "SnueduRR_1221"),
   ("GSLL_2122", "SnueduRR_2221"), ("GSLL_2132", "SnueduRR_3221"), ("GSRL_2112", "SnueduRL_1221"), ("GSRL_2122", "SnueduRL_2221"),
   ("GSRL_2132", "SnueduRL_3221"), ("GVLL_2212", "VnueduLL_1222"), ("GVLL_2222", "VnueduLL_2222"), ("GVLL_2232", "VnueduLL_3222"),
   ("GVRL_2212", "VnueduLR_1222"), ("GVRL_2222", "VnueduLR_2222"), ("GVRL_2232", "VnueduLR_3222"), ("GSLL_2212", "SnueduRR_1222"),
   ("GSLL_2222", "SnueduRR_2222"), ("GSLL_2232", "SnueduRR_3222"), ("GSRL_2212", "SnueduRL_1222"), ("GSRL_2222", "SnueduRL_2222"),
   ("GSRL_2232", "SnueduRL_3222"), ("GVLL_1112", "VnueduLL_1211"), ("GVLL_1122", "VnueduLL_2211"), ("GVLL_1132", "VnueduLL_3211"),
   ("GVRL_1112", "VnueduLR_1211"), ("GVRL_1122", "VnueduLR_2211"), ("GVRL_1132", "VnueduLR_3211"), ("GSLL_1112", "SnueduRR_1211"),
   ("GSLL_1122", "SnueduRR_2211"), ("GSLL_1132", "SnueduRR_3211"), ("GSRL_1112", "SnueduRL_1211"), ("GSRL_1122", "SnueduRL_2211"),
   ("GSRL_1132", "SnueduRL_3211"), ("GVLL_1212", "VnueduLL_1212"), ("GVLL_1222", "VnueduLL_2212"), ("GVLL_1232", "VnueduLL_3212"),
   ("GVRL_1212", "VnueduLR_1212"), ("GVRL_1222", "VnueduLR_2212"), ("GVRL_1232", "VnueduLR_3212"), ("GSLL_1212", "SnueduRR_1212"),
   ("GSLL_1222", "SnueduRR_2212"), ("GSLL_1232", "SnueduRR_3212"), ("GSRL_1212", "SnueduRL_1212"), ("GSRL_1222", "SnueduRL_2212"),
   ("GSRL_1232", "SnueduRL_3212"), ("GVLL_3113", "VnueduLL_1331"), ("GVLL_3123", "VnueduLL_2331"), ("GVLL_3133", "VnueduLL_3331"),
   ("GVRL_3113", "VnueduLR_1331"), ("GVRL_3123", "VnueduLR_2331"), ("GVRL_3133", "VnueduLR_3331"), ("GSLL_3113", "SnueduRR_1331"),
   ("GSLL_3123", "SnueduRR_2331"), ("GSLL_3133", "SnueduRR_3331"), ("GSRL_3113", "SnueduRL_1331"), ("GSRL_3123", "SnueduRL_2331"),
   ("GSRL_3133", "SnueduRL_3331"), ("GVLL_3213", "VnueduLL_1332"), ("GVLL_3223", "VnueduLL_2332"), ("GVLL_3233", "VnueduLL_3332"),
   ("GVRL_3213", "VnueduLR_1332"), ("GVRL_3223", "VnueduLR_2332"), ("GVRL_3233", "VnueduLR_3332"), ("GSLL_3213", "SnueduRR_1332"),
   ("GSLL_3223", "SnueduRR_2332"), ("GSLL_3233", "SnueduRR_3332"), ("GSRL_3213", "SnueduRL_1332"), ("GSRL_3223", "SnueduRL_2332"),
   ("GSRL_3233", "SnueduRL_3332"), ("GVLL_2113", "VnueduLL_1321"), ("GVLL_2123", "VnueduLL_2321"), ("GVLL_2133", "VnueduLL_3321"),
   ("GVRL_2113", "VnueduLR_1321"), ("GVRL_2123", "VnueduLR_2321"), ("GVRL_2133", "VnueduLR_3321"), ("GSLL_2113", "SnueduRR_1321"),
   ("GSLL_2123", "SnueduRR_2321"), ("GSLL_2133", "SnueduRR_3321"), ("GSRL_2113", "SnueduRL_1321"), ("GSRL_2123", "SnueduRL_2321"),
   ("GSRL_2133", "SnueduRL_3321"), ("GVLL_2213", "VnueduLL_1322"), ("GVLL_2223", "VnueduLL_2322"), ("GVLL_2233", "VnueduLL_3322"),
   ("GVRL_2213", "VnueduLR_1322"), ("GVRL_2223", "VnueduLR_2322"), ("GVRL_2233", "VnueduLR_3322"), ("GSLL_2213", "SnueduRR_1322"),
   ("GSLL_2223", "SnueduRR_2322"), ("GSLL_2233", "SnueduRR_3322"), ("GSRL_2213", "SnueduRL_1322"), ("GSRL_2223", "SnueduRL_2322"),
   ("GSRL_2233", "SnueduRL_3322"), ("GVLL_1113", "VnueduLL_1311"), ("GVLL_1123", "VnueduLL_2311"), ("GVLL_1133", "VnueduLL_3311"),
   ("GVRL_1113", "VnueduLR_1311"), ("GVRL_1123", "VnueduLR_2311"), ("GVRL_1133", "VnueduLR_3311"), ("GSLL_1113", "SnueduRR_1311"),
   ("GSLL_1123", "SnueduRR_2311"), ("GSLL_1133", "SnueduRR_3311"), ("GSRL_1113", "SnueduRL_1311"), ("GSRL_1123", "SnueduRL_2311"),
   ("GSRL_1133", "SnueduRL_3311"), ("GVLL_1213", "VnueduLL_1312"), ("GVLL_1223", "VnueduLL_2312"), ("GVLL_1233", "VnueduLL_3312"),
   ("GVRL_1213", "VnueduLR_1312"), ("GVRL_1223", "VnueduLR_2312"), ("GVRL_1233", "VnueduLR_3312"), ("GSLL_1213", "SnueduRR_1312"),
   ("GSLL_1223", "SnueduRR_2312"), ("GSLL_1233", "SnueduRR_3312"), ("GSRL_1213", "SnueduRL_1312"), ("GSRL_1223", "SnueduRL_2312"),
   ("GSRL_1233", "SnueduRL_3312"), ("FVLL_2311", "VnudLL_1123"), ("FVLL_2322", "VnudLL_2223"), ("FVLL_2333", "VnudLL_3323"),
   ("FVLL_2312", "VnudLL_1223"), ("FVLL_2313", "VnudLL_1323"), ("FVLL_2323", "VnudLL_2323"), ("FVLL_3212", "VnudLL_1232"),
   ("FVLL_3213", "VnudLL_1332"), ("FVLL_3223", "VnudLL_2332"), ("FVRL_2311", "VnudLR_1123"), ("FVRL_2322", "VnudLR_2223"),
   ("FVRL_2333", "VnudLR_3323"), ("FVRL_2312", "VnudLR_1223"), ("FVRL_2313", "VnudLR_1323"), ("FVRL_2323", "VnudLR_2323"),
   ("FVRL_3212", "VnudLR_1232"), ("FVRL_3213", "VnudLR_1332"), ("FVRL_3223", "VnudLR_2332"), ("FVLL_1311", "VnudLL_1113"),
   ("FVLL_1322", "VnudLL_2213"), ("FVLL_1333", "VnudLL_3313"), ("FVLL_1312", "VnudLL_1213"), ("FVLL_1313", "VnudLL_1313"),
   ("FVLL_1323", "VnudLL_2313"), ("FVLL_3112", "VnudLL_1231"), ("FVLL_3113", "VnudLL_1331"), ("FVLL_3123", "VnudLL_2331"),
   ("FVRL_1311", "VnudLR_1113"), ("FVRL_1322", "VnudLR_2213"), ("FVRL_1333", "VnudLR_3313"), ("FVRL_1312", "VnudLR_1213"),
   ("FVRL_1313", "VnudLR_1313"), ("FVRL_1323", "VnudLR_2313"), ("FVRL_3112", "VnudLR_1231"), ("FVRL_3113", "VnudLR_1331"),
   ("FVRL_3123", "VnudLR_2331"), ("FVLL_2112", "VnudLL_1221"), ("FVLL_2113", "VnudLL_1321"), ("FVLL_2123", "VnudLL_2321"),
   ("FVLL_1212", "VnudLL_1212"), ("FVLL_1213", "VnudLL_1312"), ("FVLL_1223", "VnudLL_2312"), ("FVRL_2112", "VnudLR_1221"),
   ("FVRL_2113", "VnudLR_1321"), ("FVRL_2123", "VnudLR_2321"), ("FVRL_1212", "VnudLR_1212"), ("FVRL_1213", "VnudLR_1312"),
   ("FVRL_1223", "VnudLR_2312"), ("DVLL_2311", "VddLL_1123"), ("DVLL_2322", "VddLL_2223"), ("DVLL_2333", "VddLL_2333"),
   ("DVLL_1231", "VddLL_1231"), ("DVRR_2311", "VddRR_1123"), ("DVRR_2322", "VddRR_2223"), ("DVRR_2333", "VddRR_2333"),
   ("DVRR_1231", "VddRR_1231"), ("DVLR_2311", "V1ddLR_2311"), ("DVLR_2322", "V1ddLR_2322"), ("DVLR_2333", "V1ddLR_2333"),
   ("DVRL_2311", "V1ddLR_1123"), ("DVRL_2322", "V1ddLR_2223"), ("DVRL_2333", "V1ddLR_3323"), ("DVLR_1231", "V1ddLR_1231"),
   ("DVLR_1321", "V1ddLR_1321"), ("EVLL_2311", "VedLL_1123"), ("EVLL_2322", "VedLL_2223"), ("EVLL_2333", "VedLL_3323"),
   ("EVRR_2311", "VedRR_1123"), ("EVRR_2322", "VedRR_2223"), ("EVRR_2333", "VedRR_3323"), ("EVLR_2311", "VdeLR_2311"),
   ("EVLR_2322", "VdeLR_2322"), ("EVLR_2333", "VdeLR_2333"), ("EVRL_2311", "VedLR_1123"), ("EVRL_2322", "VedLR_2223"),
   ("EVRL_2333", "VedLR_3323"), ("DVLL_1311", "VddLL_1113"), ("DVLL_1322", "VddLL_1322"), ("DVLL_1333", "VddLL_1333"),
   ("DVRR_1311", "VddRR_1113"), ("DVRR_1322", "VddRR_1322"), ("DVRR_1333", "VddRR_1333"), ("DVLR_1311", "V1ddLR_1311"),
   ("DVLR_1322", "V1ddLR_1322"), ("DVLR_1333", "V1ddLR_1333"), ("DVRL_1311", "V1ddLR_1113"), ("DVRL_1322", "V1ddLR_2213"),
   ("DVRL_1333", "V1ddLR_3313"), ("DVLR_2312", "V1ddLR_2312"), ("EVLL_1311", "VedLL_1113"), ("EVLL_1322", "VedLL_2213"),
   ("EVLL_1333", "VedLL_3313"), ("EVRR_1311", "VedRR_1113"), ("EVRR_1322", "VedRR_2213"), ("EVRR_1333", "VedRR_3313"),
   ("EVLR_1311", "VdeLR_1311"), ("EVLR_1322", "VdeLR_1322"), ("EVLR_1333", "VdeLR_1333"), ("EVRL_1311", "VedLR_1113"),
   ("EVRL_1322", "VedLR_2213"), ("EVRL_1333", "VedLR_3313"), ("DVLL_1211", "VddLL_1112"), ("DVLL_1222", "VddLL_1222"),
   ("DVLL_1233", "VddLL_1233"), ("DVRR_1211", "VddRR_1112"), ("DVRR_1222", "VddRR_1222"), ("DVRR_1233", "VddRR_1233"),
   ("DVLR_1211", "V1ddLR_1211"), ("DVLR_1222", "V1ddLR_1222"), ("DVLR_1233", "V1ddLR_1233"), ("DVRL_1211", "V1ddLR_1112"),
   ("DVRL_1222", "V1ddLR_2212"), ("DVRL_1233", "V1ddLR_3312"), ("EVLL_1211", "VedLL_1112"), ("EVLL_1222", "VedLL_2212"),
   ("EVLL_1233", "VedLL_3312"), ("EVRR_1211", "VedRR_1112"), ("EVRR_1222", "VedRR_2212"), ("EVRR_1233", "VedRR_3312"),
   ("EVLR_1211", "VdeLR_1211"), ("EVLR_1222", "VdeLR_1222"), ("EVLR_1233", "VdeLR_1233"), ("EVRL_1211", "VedLR_1112"),
   ("EVRL_1222", "VedLR_2212"), ("EVRL_1233", "VedLR_3312"), ("EVLL_2312", "VedLL_1223"), ("EVRR_2312", "VedRR_1223"),
   ("EVLR_2312", "VdeLR_2312"), ("EVRL_2312", "VedLR_1223"), ("EVLL_3212", "VedLL_1232"), ("EVRR_3212", "VedRR_1232"),
   ("EVRL_3212", "VedLR_1232"), ("EVLL_2313", "VedLL_1323"), ("EVRR_2313", "VedRR_1323"), ("EVLR_2313", "VdeLR_2313"),
   ("EVRL_2313", "VedLR_1323"), ("EVLL_3213", "VedLL_1332"), ("EVRR_3213", "VedRR_1332"), ("EVRL_3213", "VedLR_1332"),
   ("EVLL_2323", "VedLL_2323"), ("EVRR_2323", "VedRR_2323"), ("EVLR_2323", "VdeLR_2323"), ("EVRL_2323", "VedLR_2323"),
   ("EVLL_3223", "VedLL_2332"), ("EVRR_3223", "VedRR_2332"), ("EVRL_3223", "VedLR_2332"), ("EVLL_1312", "VedLL_1213"),
   ("EVRR_1312", "VedRR_1213"), ("EVLR_1312", "VdeLR_1312"), ("EVRL_1312", "VedLR_1213"), ("EVLL_3112", "VedLL_1231"),
   ("EVRR_3112", "VedRR_1231"), ("EVRL_3112", "VedLR_1231"), ("EVLL_1313", "VedLL_1313"), ("EVRR_1313", "VedRR_1313"),
   ("EVLR_1313", "VdeLR_1313"), ("EVRL_1313", "VedLR_1313"), ("EVLL_3113", "VedLL_1331"), ("EVRR_3113", "VedRR_1331"),
   ("EVRL_3113", "VedLR_1331"), ("EVLL_1323", "VedLL_2313"), ("EVRR_1323", "VedRR_2313"), ("EVLR_1323", "VdeLR_1323"),
   ("EVRL_1323", "VedLR_2313"), ("EVLL_3123", "VedLL_2331"), ("EVRR_3123", "VedRR_2331"), ("EVRL_3123", "VedLR_2331"),
   ("EVLL_2112", "VedLL_1221"), ("EVRR_2112", "VedRR_1221"), ("EVRL_2112", "VedLR_1221"), ("EVLL_1212", "VedLL_1212"),
   ("EVRR_1212", "VedRR_1212"), ("EVLR_1212", "VdeLR_1212"), ("EVRL_1212", "VedLR_1212"), ("EVLL_2113", "VedLL_1321"),
   ("EVRR_2113", "VedRR_1321"), ("EVRL_2113", "VedLR_1321"), ("EVLL_1213", "VedLL_1312"), ("EVRR_1213", "VedRR_1312"),
   ("EVLR_1213", "VdeLR_1213"), ("EVRL_1213", "VedLR_1312"), ("EVLL_2123", "VedLL_2321"), ("EVRR_2123", "VedRR_2321"),
   ("EVRL_2123", "VedLR_2321"), ("EVLL_1223", "VedLL_2312"), ("EVRR_1223", "VedRR_2312"), ("EVLR_1223", "VdeLR_1223"),
   ("EVRL_1223", "VedLR_2312"), ("AVLR_2312", "VeeLR_2312"), ("AVLL_1123", "VeeLL_1123"), ("AVLL_2223", "VeeLL_2223"),
   ("AVLL_3323", "VeeLL_2333"), ("AVRR_1123", "VeeRR_1123"), ("AVRR_2223", "VeeRR_2223"), ("AVRR_3323", "VeeRR_2333"),
   ("AVLR_1123", "VeeLR_1123"), ("AVLR_2223", "VeeLR_2223"), ("AVLR_3323", "VeeLR_3323"), ("AVLR_2311", "VeeLR_2311"),
   ("AVLR_2322", "VeeLR_2322"), ("AVLR_2333", "VeeLR_2333"), ("AVLR_1231", "VeeLR_1231"), ("AVLR_1321", "VeeLR_1321"),
   ("BVLL_2311", "VedLL_2311"), ("BVLL_2322", "VedLL_2322"), ("BVLL_2333", "VedLL_2333"), ("BVRR_2311", "VedRR_2311"),
   ("BVRR_2322", "VedRR_2322"), ("BVRR_2333", "VedRR_2333"), ("BVLR_2311", "VedLR_2311"), ("BVLR_2322", "VedLR_2322"),
   ("BVLR_2333", "VedLR_2333"), ("EVLR_1123", "VdeLR_1123"), ("EVLR_2223", "VdeLR_2223"), ("EVLR_3323", "VdeLR_3323"),
   ("CVLL_2311", "VeuLL_2311"), ("CVLL_2322", "VeuLL_2322"), ("CVRR_2311", "VeuRR_2311"), ("CVRR_2322", "VeuRR_2322"),
   ("CVLR_2311", "VeuLR_2311"), ("CVLR_2322", "VeuLR_2322"), ("AVLL_1313", "VeeLL_1313"), ("AVRR_1313", "VeeRR_1313"),
   ("AVLR_1313", "VeeLR_1313"), ("AVLL_2323", "VeeLL_2323"), ("AVRR_2323", "VeeRR_2323"), ("AVLR_2323", "VeeLR_2323"),
   ("AVLL_1212", "VeeLL_1212"), ("AVRR_1212", "VeeRR_1212"), ("AVLR_1212", "VeeLR_1212"), ("AVLL_1232", "VeeLL_1232"),
   ("AVRR_1232", "VeeRR_1232"), ("AVLR_1232", "VeeLR_1232"), ("AVLR_2321", "VeeLR_2321"), ("AVLL_1213", "VeeLL_1213"),
   ("AVRR_1213", "VeeRR_1213"), ("AVLR_1213", "VeeLR_1213"), ("AVLR_1312", "VeeLR_1312"), ("AVLL_1323", "VeeLL_1323"),
   ("AVRR_1323", "VeeRR_1323"), ("AVLR_1323", "VeeLR_1323"), ("AVLR_2313", "VeeLR_2313")]

end Verif
