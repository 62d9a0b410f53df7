import Mathlib.Data.Nat.Digits.Defs
import Verif.Model.Biff

/-!
# Model of `rxls/biff_enum.py`

The table is copied entry by entry, in source order, `rxls/biff_enum.py:4-848`.
-/

namespace Rxls

/-- `rxls/biff_enum.py:4-88`. -/
def biffEnumPart0 : List (String × Nat) := [
  ("BrtRowHdr", 0),
  ("BrtCellBlank", 1),
  ("BrtCellRk", 2),
  ("BrtCellError", 3),
  ("BrtCellBool", 4),
  ("BrtCellReal", 5),
  ("BrtCellSt", 6),
  ("BrtCellIsst", 7),
  ("BrtFmlaString", 8),
  ("BrtFmlaNum", 9),
  ("BrtFmlaBool", 10),
  ("BrtFmlaError", 11),
  ("BrtSSTItem", 19),
  ("BrtPCDIMissing", 20),
  ("BrtPCDINumber", 21),
  ("BrtPCDIBoolean", 22),
  ("BrtPCDIError", 23),
  ("BrtPCDIString", 24),
  ("BrtPCDIDatetime", 25),
  ("BrtPCDIIndex", 26),
  ("BrtPCDIAMissing", 27),
  ("BrtPCDIANumber", 28),
  ("BrtPCDIABoolean", 29),
  ("BrtPCDIAError", 30),
  ("BrtPCDIAString", 31),
  ("BrtPCDIADatetime", 32),
  ("BrtPCRRecord", 33),
  ("BrtPCRRecordDt", 34),
  ("BrtFRTBegin", 35),
  ("BrtFRTEnd", 36),
  ("BrtACBegin", 37),
  ("BrtACEnd", 38),
  ("BrtName", 39),
  ("BrtIndexRowBlock", 40),
  ("BrtIndexBlock", 42),
  ("BrtFont", 43),
  ("BrtFmt", 44),
  ("BrtFill", 45),
  ("BrtBorder", 46),
  ("BrtXF", 47),
  ("BrtStyle", 48),
  ("BrtCellMeta", 49),
  ("BrtValueMeta", 50),
  ("BrtMdb", 51),
  ("BrtBeginFmd", 52),
  ("BrtEndFmd", 53),
  ("BrtBeginMdx", 54),
  ("BrtEndMdx", 55),
  ("BrtBeginMdxTuple", 56),
  ("BrtEndMdxTuple", 57),
  ("BrtMdxMbrIstr", 58),
  ("BrtStr", 59),
  ("BrtColInfo", 60),
  ("BrtCellRString", 62),
  ("BrtDVal", 64),
  ("BrtSxvcellNum", 65),
  ("BrtSxvcellStr", 66),
  ("BrtSxvcellBool", 67),
  ("BrtSxvcellErr", 68),
  ("BrtSxvcellDate", 69),
  ("BrtSxvcellNil", 70),
  ("BrtFileVersion", 384),
  ("BrtBeginSheet", 385),
  ("BrtEndSheet", 386),
  ("BrtBeginBook", 387),
  ("BrtEndBook", 388),
  ("BrtBeginWsViews", 389),
  ("BrtEndWsViews", 390),
  ("BrtBeginBookViews", 391),
  ("BrtEndBookViews", 392),
  ("BrtBeginWsView", 393),
  ("BrtEndWsView", 394),
  ("BrtBeginCsViews", 395),
  ("BrtEndCsViews", 396),
  ("BrtBeginCsView", 397),
  ("BrtEndCsView", 398),
  ("BrtBeginBundleShs", 399),
  ("BrtEndBundleShs", 400),
  ("BrtBeginSheetData", 401),
  ("BrtEndSheetData", 402),
  ("BrtWsProp", 403),
  ("BrtWsDim", 404),
  ("BrtPane", 407),
  ("BrtSel", 408),
  ("BrtWbProp", 409)]

/-- `rxls/biff_enum.py:89-173`. -/
def biffEnumPart1 : List (String × Nat) := [
  ("BrtWbFactoid", 410),
  ("BrtFileRecover", 411),
  ("BrtBundleSh", 412),
  ("BrtCalcProp", 413),
  ("BrtBookView", 414),
  ("BrtBeginSst", 415),
  ("BrtEndSst", 416),
  ("BrtBeginAFilter", 417),
  ("BrtEndAFilter", 418),
  ("BrtBeginFilterColumn", 419),
  ("BrtEndFilterColumn", 420),
  ("BrtBeginFilters", 421),
  ("BrtEndFilters", 422),
  ("BrtFilter", 423),
  ("BrtColorFilter", 424),
  ("BrtIconFilter", 425),
  ("BrtTop10Filter", 426),
  ("BrtDynamicFilter", 427),
  ("BrtBeginCustomFilters", 428),
  ("BrtEndCustomFilters", 429),
  ("BrtCustomFilter", 430),
  ("BrtAFilterDateGroupItem", 431),
  ("BrtMergeCell", 432),
  ("BrtBeginMergeCells", 433),
  ("BrtEndMergeCells", 434),
  ("BrtBeginPivotCacheDef", 435),
  ("BrtEndPivotCacheDef", 436),
  ("BrtBeginPCDFields", 437),
  ("BrtEndPCDFields", 438),
  ("BrtBeginPCDField", 439),
  ("BrtEndPCDField", 440),
  ("BrtBeginPCDSource", 441),
  ("BrtEndPCDSource", 442),
  ("BrtBeginPCDSRange", 443),
  ("BrtEndPCDSRange", 444),
  ("BrtBeginPCDFAtbl", 445),
  ("BrtEndPCDFAtbl", 446),
  ("BrtBeginPCDIRun", 447),
  ("BrtEndPCDIRun", 448),
  ("BrtBeginPivotCacheRecords", 449),
  ("BrtEndPivotCacheRecords", 450),
  ("BrtBeginPCDHierarchies", 451),
  ("BrtEndPCDHierarchies", 452),
  ("BrtBeginPCDHierarchy", 453),
  ("BrtEndPCDHierarchy", 454),
  ("BrtBeginPCDHFieldsUsage", 455),
  ("BrtEndPCDHFieldsUsage", 456),
  ("BrtBeginExtConnection", 457),
  ("BrtEndExtConnection", 458),
  ("BrtBeginECDbProps", 459),
  ("BrtEndECDbProps", 460),
  ("BrtBeginECOlapProps", 461),
  ("BrtEndECOlapProps", 462),
  ("BrtBeginPCDSConsol", 463),
  ("BrtEndPCDSConsol", 464),
  ("BrtBeginPCDSCPages", 465),
  ("BrtEndPCDSCPages", 466),
  ("BrtBeginPCDSCPage", 467),
  ("BrtEndPCDSCPage", 468),
  ("BrtBeginPCDSCPItem", 469),
  ("BrtEndPCDSCPItem", 470),
  ("BrtBeginPCDSCSets", 471),
  ("BrtEndPCDSCSets", 472),
  ("BrtBeginPCDSCSet", 473),
  ("BrtEndPCDSCSet", 474),
  ("BrtBeginPCDFGroup", 475),
  ("BrtEndPCDFGroup", 476),
  ("BrtBeginPCDFGItems", 477),
  ("BrtEndPCDFGItems", 478),
  ("BrtBeginPCDFGRange", 479),
  ("BrtEndPCDFGRange", 480),
  ("BrtBeginPCDFGDiscrete", 481),
  ("BrtEndPCDFGDiscrete", 482),
  ("BrtBeginPCDSDTupleCache", 483),
  ("BrtEndPCDSDTupleCache", 484),
  ("BrtBeginPCDSDTCEntries", 485),
  ("BrtEndPCDSDTCEntries", 486),
  ("BrtBeginPCDSDTCEMembers", 487),
  ("BrtEndPCDSDTCEMembers", 488),
  ("BrtBeginPCDSDTCEMember", 489),
  ("BrtEndPCDSDTCEMember", 490),
  ("BrtBeginPCDSDTCQueries", 491),
  ("BrtEndPCDSDTCQueries", 492),
  ("BrtBeginPCDSDTCQuery", 493),
  ("BrtEndPCDSDTCQuery", 494)]

/-- `rxls/biff_enum.py:174-258`. -/
def biffEnumPart2 : List (String × Nat) := [
  ("BrtBeginPCDSDTCSets", 495),
  ("BrtEndPCDSDTCSets", 496),
  ("BrtBeginPCDSDTCSet", 497),
  ("BrtEndPCDSDTCSet", 498),
  ("BrtBeginPCDCalcItems", 499),
  ("BrtEndPCDCalcItems", 500),
  ("BrtBeginPCDCalcItem", 501),
  ("BrtEndPCDCalcItem", 502),
  ("BrtBeginPRule", 503),
  ("BrtEndPRule", 504),
  ("BrtBeginPRFilters", 505),
  ("BrtEndPRFilters", 506),
  ("BrtBeginPRFilter", 507),
  ("BrtEndPRFilter", 508),
  ("BrtBeginPNames", 509),
  ("BrtEndPNames", 510),
  ("BrtBeginPName", 511),
  ("BrtEndPName", 640),
  ("BrtBeginPNPairs", 641),
  ("BrtEndPNPairs", 642),
  ("BrtBeginPNPair", 643),
  ("BrtEndPNPair", 644),
  ("BrtBeginECWebProps", 645),
  ("BrtEndECWebProps", 646),
  ("BrtBeginEcWpTables", 647),
  ("BrtEndECWPTables", 648),
  ("BrtBeginECParams", 649),
  ("BrtEndECParams", 650),
  ("BrtBeginECParam", 651),
  ("BrtEndECParam", 652),
  ("BrtBeginPCDKPIs", 653),
  ("BrtEndPCDKPIs", 654),
  ("BrtBeginPCDKPI", 655),
  ("BrtEndPCDKPI", 656),
  ("BrtBeginDims", 657),
  ("BrtEndDims", 658),
  ("BrtBeginDim", 659),
  ("BrtEndDim", 660),
  ("BrtIndexPartEnd", 661),
  ("BrtBeginStyleSheet", 662),
  ("BrtEndStyleSheet", 663),
  ("BrtBeginSXView", 664),
  ("BrtEndSXVI", 665),
  ("BrtBeginSXVI", 666),
  ("BrtBeginSXVIs", 667),
  ("BrtEndSXVIs", 668),
  ("BrtBeginSXVD", 669),
  ("BrtEndSXVD", 670),
  ("BrtBeginSXVDs", 671),
  ("BrtEndSXVDs", 672),
  ("BrtBeginSXPI", 673),
  ("BrtEndSXPI", 674),
  ("BrtBeginSXPIs", 675),
  ("BrtEndSXPIs", 676),
  ("BrtBeginSXDI", 677),
  ("BrtEndSXDI", 678),
  ("BrtBeginSXDIs", 679),
  ("BrtEndSXDIs", 680),
  ("BrtBeginSXLI", 681),
  ("BrtEndSXLI", 682),
  ("BrtBeginSXLIRws", 683),
  ("BrtEndSXLIRws", 684),
  ("BrtBeginSXLICols", 685),
  ("BrtEndSXLICols", 686),
  ("BrtBeginSXFormat", 687),
  ("BrtEndSXFormat", 688),
  ("BrtBeginSXFormats", 689),
  ("BrtEndSxFormats", 690),
  ("BrtBeginSxSelect", 691),
  ("BrtEndSxSelect", 692),
  ("BrtBeginISXVDRws", 693),
  ("BrtEndISXVDRws", 694),
  ("BrtBeginISXVDCols", 695),
  ("BrtEndISXVDCols", 696),
  ("BrtEndSXLocation", 697),
  ("BrtBeginSXLocation", 698),
  ("BrtEndSXView", 699),
  ("BrtBeginSXTHs", 700),
  ("BrtEndSXTHs", 701),
  ("BrtBeginSXTH", 702),
  ("BrtEndSXTH", 703),
  ("BrtBeginISXTHRws", 704),
  ("BrtEndISXTHRws", 705),
  ("BrtBeginISXTHCols", 706),
  ("BrtEndISXTHCols", 707)]

/-- `rxls/biff_enum.py:259-343`. -/
def biffEnumPart3 : List (String × Nat) := [
  ("BrtBeginSXTDMPS", 708),
  ("BrtEndSXTDMPs", 709),
  ("BrtBeginSXTDMP", 710),
  ("BrtEndSXTDMP", 711),
  ("BrtBeginSXTHItems", 712),
  ("BrtEndSXTHItems", 713),
  ("BrtBeginSXTHItem", 714),
  ("BrtEndSXTHItem", 715),
  ("BrtBeginMetadata", 716),
  ("BrtEndMetadata", 717),
  ("BrtBeginEsmdtinfo", 718),
  ("BrtMdtinfo", 719),
  ("BrtEndEsmdtinfo", 720),
  ("BrtBeginEsmdb", 721),
  ("BrtEndEsmdb", 722),
  ("BrtBeginEsfmd", 723),
  ("BrtEndEsfmd", 724),
  ("BrtBeginSingleCells", 725),
  ("BrtEndSingleCells", 726),
  ("BrtBeginList", 727),
  ("BrtEndList", 728),
  ("BrtBeginListCols", 729),
  ("BrtEndListCols", 730),
  ("BrtBeginListCol", 731),
  ("BrtEndListCol", 732),
  ("BrtBeginListXmlCPr", 733),
  ("BrtEndListXmlCPr", 734),
  ("BrtListCCFmla", 735),
  ("BrtListTrFmla", 736),
  ("BrtBeginExternals", 737),
  ("BrtEndExternals", 738),
  ("BrtSupBookSrc", 739),
  ("BrtSupSelf", 741),
  ("BrtSupSame", 742),
  ("BrtSupTabs", 743),
  ("BrtBeginSupBook", 744),
  ("BrtPlaceholderName", 745),
  ("BrtExternSheet", 746),
  ("BrtExternTableStart", 747),
  ("BrtExternTableEnd", 748),
  ("BrtExternRowHdr", 750),
  ("BrtExternCellBlank", 751),
  ("BrtExternCellReal", 752),
  ("BrtExternCellBool", 753),
  ("BrtExternCellError", 754),
  ("BrtExternCellString", 755),
  ("BrtBeginEsmdx", 756),
  ("BrtEndEsmdx", 757),
  ("BrtBeginMdxSet", 758),
  ("BrtEndMdxSet", 759),
  ("BrtBeginMdxMbrProp", 760),
  ("BrtEndMdxMbrProp", 761),
  ("BrtBeginMdxKPI", 762),
  ("BrtEndMdxKPI", 763),
  ("BrtBeginEsstr", 764),
  ("BrtEndEsstr", 765),
  ("BrtBeginPRFItem", 766),
  ("BrtEndPRFItem", 767),
  ("BrtBeginPivotCacheIDs", 896),
  ("BrtEndPivotCacheIDs", 897),
  ("BrtBeginPivotCacheID", 898),
  ("BrtEndPivotCacheID", 899),
  ("BrtBeginISXVIs", 900),
  ("BrtEndISXVIs", 901),
  ("BrtBeginColInfos", 902),
  ("BrtEndColInfos", 903),
  ("BrtBeginRwBrk", 904),
  ("BrtEndRwBrk", 905),
  ("BrtBeginColBrk", 906),
  ("BrtEndColBrk", 907),
  ("BrtBrk", 908),
  ("BrtUserBookView", 909),
  ("BrtInfo", 910),
  ("BrtCUsr", 911),
  ("BrtUsr", 912),
  ("BrtBeginUsers", 913),
  ("BrtEOF", 915),
  ("BrtUCR", 916),
  ("BrtRRInsDel", 917),
  ("BrtRREndInsDel", 918),
  ("BrtRRMove", 919),
  ("BrtRREndMove", 920),
  ("BrtRRChgCell", 921),
  ("BrtRREndChgCell", 922),
  ("BrtRRHeader", 923)]

/-- `rxls/biff_enum.py:344-428`. -/
def biffEnumPart4 : List (String × Nat) := [
  ("BrtRRUserView", 924),
  ("BrtRRRenSheet", 925),
  ("BrtRRInsertSh", 926),
  ("BrtRRDefName", 927),
  ("BrtRRNote", 928),
  ("BrtRRConflict", 929),
  ("BrtRRTQSIF", 930),
  ("BrtRRFormat", 931),
  ("BrtRREndFormat", 932),
  ("BrtRRAutoFmt", 933),
  ("BrtBeginUserShViews", 934),
  ("BrtBeginUserShView", 935),
  ("BrtEndUserShView", 936),
  ("BrtEndUserShViews", 937),
  ("BrtArrFmla", 938),
  ("BrtShrFmla", 939),
  ("BrtTable", 940),
  ("BrtBeginExtConnections", 941),
  ("BrtEndExtConnections", 942),
  ("BrtBeginPCDCalcMems", 943),
  ("BrtEndPCDCalcMems", 944),
  ("BrtBeginPCDCalcMem", 945),
  ("BrtEndPCDCalcMem", 946),
  ("BrtBeginPCDHGLevels", 947),
  ("BrtEndPCDHGLevels", 948),
  ("BrtBeginPCDHGLevel", 949),
  ("BrtEndPCDHGLevel", 950),
  ("BrtBeginPCDHGLGroups", 951),
  ("BrtEndPCDHGLGroups", 952),
  ("BrtBeginPCDHGLGroup", 953),
  ("BrtEndPCDHGLGroup", 954),
  ("BrtBeginPCDHGLGMembers", 955),
  ("BrtEndPCDHGLGMembers", 956),
  ("BrtBeginPCDHGLGMember", 957),
  ("BrtEndPCDHGLGMember", 958),
  ("BrtBeginQSI", 959),
  ("BrtEndQSI", 960),
  ("BrtBeginQSIR", 961),
  ("BrtEndQSIR", 962),
  ("BrtBeginDeletedNames", 963),
  ("BrtEndDeletedNames", 964),
  ("BrtBeginDeletedName", 965),
  ("BrtEndDeletedName", 966),
  ("BrtBeginQSIFs", 967),
  ("BrtEndQSIFs", 968),
  ("BrtBeginQSIF", 969),
  ("BrtEndQSIF", 970),
  ("BrtBeginAutoSortScope", 971),
  ("BrtEndAutoSortScope", 972),
  ("BrtBeginConditionalFormatting", 973),
  ("BrtEndConditionalFormatting", 974),
  ("BrtBeginCFRule", 975),
  ("BrtEndCFRule", 976),
  ("BrtBeginIconSet", 977),
  ("BrtEndIconSet", 978),
  ("BrtBeginDatabar", 979),
  ("BrtEndDatabar", 980),
  ("BrtBeginColorScale", 981),
  ("BrtEndColorScale", 982),
  ("BrtCFVO", 983),
  ("BrtExternValueMeta", 984),
  ("BrtBeginColorPalette", 985),
  ("BrtEndColorPalette", 986),
  ("BrtIndexedColor", 987),
  ("BrtMargins", 988),
  ("BrtPrintOptions", 989),
  ("BrtPageSetup", 990),
  ("BrtBeginHeaderFooter", 991),
  ("BrtEndHeaderFooter", 992),
  ("BrtBeginSXCrtFormat", 993),
  ("BrtEndSXCrtFormat", 994),
  ("BrtBeginSXCrtFormats", 995),
  ("BrtEndSXCrtFormats", 996),
  ("BrtWsFmtInfo", 997),
  ("BrtBeginMgs", 998),
  ("BrtEndMGs", 999),
  ("BrtBeginMGMaps", 1000),
  ("BrtEndMGMaps", 1001),
  ("BrtBeginMG", 1002),
  ("BrtEndMG", 1003),
  ("BrtBeginMap", 1004),
  ("BrtEndMap", 1005),
  ("BrtHLink", 1006),
  ("BrtBeginDCon", 1007),
  ("BrtEndDCon", 1008)]

/-- `rxls/biff_enum.py:429-513`. -/
def biffEnumPart5 : List (String × Nat) := [
  ("BrtBeginDRefs", 1009),
  ("BrtEndDRefs", 1010),
  ("BrtDRef", 1011),
  ("BrtBeginScenMan", 1012),
  ("BrtEndScenMan", 1013),
  ("BrtBeginSct", 1014),
  ("BrtEndSct", 1015),
  ("BrtSlc", 1016),
  ("BrtBeginDXFs", 1017),
  ("BrtEndDXFs", 1018),
  ("BrtDXF", 1019),
  ("BrtBeginTableStyles", 1020),
  ("BrtEndTableStyles", 1021),
  ("BrtBeginTableStyle", 1022),
  ("BrtEndTableStyle", 1023),
  ("BrtTableStyleElement", 1152),
  ("BrtTableStyleClient", 1153),
  ("BrtBeginVolDeps", 1154),
  ("BrtEndVolDeps", 1155),
  ("BrtBeginVolType", 1156),
  ("BrtEndVolType", 1157),
  ("BrtBeginVolMain", 1158),
  ("BrtEndVolMain", 1159),
  ("BrtBeginVolTopic", 1160),
  ("BrtEndVolTopic", 1161),
  ("BrtVolSubtopic", 1162),
  ("BrtVolRef", 1163),
  ("BrtVolNum", 1164),
  ("BrtVolErr", 1165),
  ("BrtVolStr", 1166),
  ("BrtVolBool", 1167),
  ("BrtBeginSortState", 1170),
  ("BrtEndSortState", 1171),
  ("BrtBeginSortCond", 1172),
  ("BrtEndSortCond", 1173),
  ("BrtBookProtection", 1174),
  ("BrtSheetProtection", 1175),
  ("BrtRangeProtection", 1176),
  ("BrtPhoneticInfo", 1177),
  ("BrtBeginECTxtWiz", 1178),
  ("BrtEndECTxtWiz", 1179),
  ("BrtBeginECTWFldInfoLst", 1180),
  ("BrtEndECTWFldInfoLst", 1181),
  ("BrtBeginECTwFldInfo", 1182),
  ("BrtFileSharing", 1188),
  ("BrtOleSize", 1189),
  ("BrtDrawing", 1190),
  ("BrtLegacyDrawing", 1191),
  ("BrtLegacyDrawingHF", 1192),
  ("BrtWebOpt", 1193),
  ("BrtBeginWebPubItems", 1194),
  ("BrtEndWebPubItems", 1195),
  ("BrtBeginWebPubItem", 1196),
  ("BrtEndWebPubItem", 1197),
  ("BrtBeginSXCondFmt", 1198),
  ("BrtEndSXCondFmt", 1199),
  ("BrtBeginSXCondFmts", 1200),
  ("BrtEndSXCondFmts", 1201),
  ("BrtBkHim", 1202),
  ("BrtColor", 1204),
  ("BrtBeginIndexedColors", 1205),
  ("BrtEndIndexedColors", 1206),
  ("BrtBeginMRUColors", 1209),
  ("BrtEndMRUColors", 1210),
  ("BrtMRUColor", 1212),
  ("BrtBeginDVals", 1213),
  ("BrtEndDVals", 1214),
  ("BrtSupNameStart", 1217),
  ("BrtSupNameValueStart", 1218),
  ("BrtSupNameValueEnd", 1219),
  ("BrtSupNameNum", 1220),
  ("BrtSupNameErr", 1221),
  ("BrtSupNameSt", 1222),
  ("BrtSupNameNil", 1223),
  ("BrtSupNameBool", 1224),
  ("BrtSupNameFmla", 1225),
  ("BrtSupNameBits", 1226),
  ("BrtSupNameEnd", 1227),
  ("BrtEndSupBook", 1228),
  ("BrtCellSmartTagProperty", 1229),
  ("BrtBeginCellSmartTag", 1230),
  ("BrtEndCellSmartTag", 1231),
  ("BrtBeginCellSmartTags", 1232),
  ("BrtEndCellSmartTags", 1233),
  ("BrtBeginSmartTags", 1234)]

/-- `rxls/biff_enum.py:514-598`. -/
def biffEnumPart6 : List (String × Nat) := [
  ("BrtEndSmartTags", 1235),
  ("BrtSmartTagType", 1236),
  ("BrtBeginSmartTagTypes", 1237),
  ("BrtEndSmartTagTypes", 1238),
  ("BrtBeginSXFilters", 1239),
  ("BrtEndSXFilters", 1240),
  ("BrtBeginSXFILTER", 1241),
  ("BrtEndSXFilter", 1242),
  ("BrtBeginFills", 1243),
  ("BrtEndFills", 1244),
  ("BrtBeginCellWatches", 1245),
  ("BrtEndCellWatches", 1246),
  ("BrtCellWatch", 1247),
  ("BrtBeginCRErrs", 1248),
  ("BrtEndCRErrs", 1249),
  ("BrtCrashRecErr", 1250),
  ("BrtBeginFonts", 1251),
  ("BrtEndFonts", 1252),
  ("BrtBeginBorders", 1253),
  ("BrtEndBorders", 1254),
  ("BrtBeginFmts", 1255),
  ("BrtEndFmts", 1256),
  ("BrtBeginCellXFs", 1257),
  ("BrtEndCellXFs", 1258),
  ("BrtBeginStyles", 1259),
  ("BrtEndStyles", 1260),
  ("BrtBigName", 1265),
  ("BrtBeginCellStyleXFs", 1266),
  ("BrtEndCellStyleXFs", 1267),
  ("BrtBeginComments", 1268),
  ("BrtEndComments", 1269),
  ("BrtBeginCommentAuthors", 1270),
  ("BrtEndCommentAuthors", 1271),
  ("BrtCommentAuthor", 1272),
  ("BrtBeginCommentList", 1273),
  ("BrtEndCommentList", 1274),
  ("BrtBeginComment", 1275),
  ("BrtEndComment", 1276),
  ("BrtCommentText", 1277),
  ("BrtBeginOleObjects", 1278),
  ("BrtOleObject", 1279),
  ("BrtEndOleObjects", 1408),
  ("BrtBeginSxrules", 1409),
  ("BrtEndSxRules", 1410),
  ("BrtBeginActiveXControls", 1411),
  ("BrtActiveX", 1412),
  ("BrtEndActiveXControls", 1413),
  ("BrtBeginPCDSDTCEMembersSortBy", 1414),
  ("BrtBeginCellIgnoreECs", 1416),
  ("BrtCellIgnoreEC", 1417),
  ("BrtEndCellIgnoreECs", 1418),
  ("BrtCsProp", 1419),
  ("BrtCsPageSetup", 1420),
  ("BrtBeginUserCsViews", 1421),
  ("BrtEndUserCsViews", 1422),
  ("BrtBeginUserCsView", 1423),
  ("BrtEndUserCsView", 1424),
  ("BrtBeginPcdSFCIEntries", 1425),
  ("BrtEndPCDSFCIEntries", 1426),
  ("BrtPCDSFCIEntry", 1427),
  ("BrtBeginListParts", 1428),
  ("BrtListPart", 1429),
  ("BrtEndListParts", 1430),
  ("BrtSheetCalcProp", 1431),
  ("BrtBeginFnGroup", 1432),
  ("BrtFnGroup", 1433),
  ("BrtEndFnGroup", 1434),
  ("BrtSupAddin", 1435),
  ("BrtSXTDMPOrder", 1436),
  ("BrtCsProtection", 1437),
  ("BrtBeginWsSortMap", 1439),
  ("BrtEndWsSortMap", 1440),
  ("BrtBeginRRSort", 1441),
  ("BrtEndRRSort", 1442),
  ("BrtRRSortItem", 1443),
  ("BrtFileSharingIso", 1444),
  ("BrtBookProtectionIso", 1445),
  ("BrtSheetProtectionIso", 1446),
  ("BrtCsProtectionIso", 1447),
  ("BrtRangeProtectionIso", 1448),
  ("BrtDValList", 1449),
  ("BrtRwDescent", 2176),
  ("BrtKnownFonts", 2177),
  ("BrtBeginSXTupleSet", 2178),
  ("BrtEndSXTupleSet", 2179)]

/-- `rxls/biff_enum.py:599-683`. -/
def biffEnumPart7 : List (String × Nat) := [
  ("BrtBeginSXTupleSetHeader", 2180),
  ("BrtEndSXTupleSetHeader", 2181),
  ("BrtSXTupleSetHeaderItem", 2182),
  ("BrtBeginSXTupleSetData", 2183),
  ("BrtEndSXTupleSetData", 2184),
  ("BrtBeginSXTupleSetRow", 2185),
  ("BrtEndSXTupleSetRow", 2186),
  ("BrtSXTupleSetRowItem", 2187),
  ("BrtNameExt", 2188),
  ("BrtPCDH14", 2189),
  ("BrtBeginPCDCalcMem14", 2190),
  ("BrtEndPCDCalcMem14", 2191),
  ("BrtSXTH14", 2192),
  ("BrtBeginSparklineGroup", 2193),
  ("BrtEndSparklineGroup", 2194),
  ("BrtSparkline", 2195),
  ("BrtSXDI14", 2196),
  ("BrtWsFmtInfoEx14", 2197),
  ("BrtBeginConditionalFormatting14", 2198),
  ("BrtEndConditionalFormatting14", 2199),
  ("BrtBeginCFRule14", 2200),
  ("BrtEndCFRule14", 2201),
  ("BrtCFVO14", 2202),
  ("BrtBeginDatabar14", 2203),
  ("BrtBeginIconSet14", 2204),
  ("BrtDVal14", 2205),
  ("BrtBeginDVals14", 2206),
  ("BrtColor14", 2207),
  ("BrtBeginSparklines", 2208),
  ("BrtEndSparklines", 2209),
  ("BrtBeginSparklineGroups", 2210),
  ("BrtEndSparklineGroups", 2211),
  ("BrtSXVD14", 2213),
  ("BrtBeginSxView14", 2214),
  ("BrtEndSxView14", 2215),
  ("BrtBeginSXView16", 2216),
  ("BrtEndSXView16", 2217),
  ("BrtBeginPCD14", 2218),
  ("BrtEndPCD14", 2219),
  ("BrtBeginExtConn14", 2220),
  ("BrtEndExtConn14", 2221),
  ("BrtBeginSlicerCacheIDs", 2222),
  ("BrtEndSlicerCacheIDs", 2223),
  ("BrtBeginSlicerCacheID", 2224),
  ("BrtEndSlicerCacheID", 2225),
  ("BrtBeginSlicerCache", 2227),
  ("BrtEndSlicerCache", 2228),
  ("BrtBeginSlicerCacheDef", 2229),
  ("BrtEndSlicerCacheDef", 2230),
  ("BrtBeginSlicersEx", 2231),
  ("BrtEndSlicersEx", 2232),
  ("BrtBeginSlicerEx", 2233),
  ("BrtEndSlicerEx", 2234),
  ("BrtBeginSlicer", 2235),
  ("BrtEndSlicer", 2236),
  ("BrtSlicerCachePivotTables", 2237),
  ("BrtBeginSlicerCacheOlapImpl", 2238),
  ("BrtEndSlicerCacheOlapImpl", 2239),
  ("BrtBeginSlicerCacheLevelsData", 2240),
  ("BrtEndSlicerCacheLevelsData", 2241),
  ("BrtBeginSlicerCacheLevelData", 2242),
  ("BrtEndSlicerCacheLevelData", 2243),
  ("BrtBeginSlicerCacheSiRanges", 2244),
  ("BrtEndSlicerCacheSiRanges", 2245),
  ("BrtBeginSlicerCacheSiRange", 2246),
  ("BrtEndSlicerCacheSiRange", 2247),
  ("BrtSlicerCacheOlapItem", 2248),
  ("BrtBeginSlicerCacheSelections", 2249),
  ("BrtSlicerCacheSelection", 2250),
  ("BrtEndSlicerCacheSelections", 2251),
  ("BrtBeginSlicerCacheNative", 2252),
  ("BrtEndSlicerCacheNative", 2253),
  ("BrtSlicerCacheNativeItem", 2254),
  ("BrtRangeProtection14", 2255),
  ("BrtRangeProtectionIso14", 2256),
  ("BrtCellIgnoreEC14", 2257),
  ("BrtList14", 2263),
  ("BrtCFIcon", 2264),
  ("BrtBeginSlicerCachesPivotCacheIDs", 2265),
  ("BrtEndSlicerCachesPivotCacheIDs", 2266),
  ("BrtBeginSlicers", 2267),
  ("BrtEndSlicers", 2268),
  ("BrtWbProp14", 2269),
  ("BrtBeginSXEdit", 2270),
  ("BrtEndSXEdit", 2271)]

/-- `rxls/biff_enum.py:684-768`. -/
def biffEnumPart8 : List (String × Nat) := [
  ("BrtBeginSXEdits", 2272),
  ("BrtEndSXEdits", 2273),
  ("BrtBeginSXChange", 2274),
  ("BrtEndSXChange", 2275),
  ("BrtBeginSXChanges", 2276),
  ("BrtEndSXChanges", 2277),
  ("BrtSXTupleItems", 2278),
  ("BrtBeginSlicerStyle", 2280),
  ("BrtEndSlicerStyle", 2281),
  ("BrtSlicerStyleElement", 2282),
  ("BrtBeginStyleSheetExt14", 2283),
  ("BrtEndStyleSheetExt14", 2284),
  ("BrtBeginSlicerCachesPivotCacheID", 2285),
  ("BrtEndSlicerCachesPivotCacheID", 2286),
  ("BrtBeginConditionalFormattings", 2287),
  ("BrtEndConditionalFormattings", 2288),
  ("BrtBeginPCDCalcMemExt", 2289),
  ("BrtEndPCDCalcMemExt", 2290),
  ("BrtBeginPCDCalcMemsExt", 2291),
  ("BrtEndPCDCalcMemsExt", 2292),
  ("BrtPCDField14", 2293),
  ("BrtBeginSlicerStyles", 2294),
  ("BrtEndSlicerStyles", 2295),
  ("BrtBeginSlicerStyleElements", 2296),
  ("BrtEndSlicerStyleElements", 2297),
  ("BrtCFRuleExt", 2298),
  ("BrtBeginSXCondFmt14", 2299),
  ("BrtEndSXCondFmt14", 2300),
  ("BrtBeginSXCondFmts14", 2301),
  ("BrtEndSXCondFmts14", 2302),
  ("BrtBeginSortCond14", 2432),
  ("BrtEndSortCond14", 2433),
  ("BrtEndDVals14", 2434),
  ("BrtEndIconSet14", 2435),
  ("BrtEndDatabar14", 2436),
  ("BrtBeginColorScale14", 2437),
  ("BrtEndColorScale14", 2438),
  ("BrtBeginSxrules14", 2439),
  ("BrtEndSxrules14", 2440),
  ("BrtBeginPRule14", 2441),
  ("BrtEndPRule14", 2442),
  ("BrtBeginPRFilters14", 2443),
  ("BrtEndPRFilters14", 2444),
  ("BrtBeginPRFilter14", 2445),
  ("BrtEndPRFilter14", 2446),
  ("BrtBeginPRFItem14", 2447),
  ("BrtEndPRFItem14", 2448),
  ("BrtBeginCellIgnoreECs14", 2449),
  ("BrtEndCellIgnoreECs14", 2450),
  ("BrtDxf14", 2451),
  ("BrtBeginDxF14s", 2452),
  ("BrtEndDxf14s", 2453),
  ("BrtFilter14", 2457),
  ("BrtBeginCustomFilters14", 2458),
  ("BrtCustomFilter14", 2460),
  ("BrtIconFilter14", 2461),
  ("BrtPivotCacheConnectionName", 2462),
  ("BrtBeginDecoupledPivotCacheIDs", 4224),
  ("BrtEndDecoupledPivotCacheIDs", 4225),
  ("BrtDecoupledPivotCacheID", 4226),
  ("BrtBeginPivotTableRefs", 4227),
  ("BrtEndPivotTableRefs", 4228),
  ("BrtPivotTableRef", 4229),
  ("BrtSlicerCacheBookPivotTables", 4230),
  ("BrtBeginSxvcells", 4231),
  ("BrtEndSxvcells", 4232),
  ("BrtBeginSxRow", 4233),
  ("BrtEndSxRow", 4234),
  ("BrtPcdCalcMem15", 4236),
  ("BrtQsi15", 4243),
  ("BrtBeginWebExtensions", 4244),
  ("BrtEndWebExtensions", 4245),
  ("BrtWebExtension", 4246),
  ("BrtAbsPath15", 4247),
  ("BrtBeginPivotTableUISettings", 4248),
  ("BrtEndPivotTableUISettings", 4249),
  ("BrtTableSlicerCacheIDs", 4251),
  ("BrtTableSlicerCacheID", 4252),
  ("BrtBeginTableSlicerCache", 4253),
  ("BrtEndTableSlicerCache", 4254),
  ("BrtSxFilter15", 4255),
  ("BrtBeginTimelineCachePivotCacheIDs", 4256),
  ("BrtEndTimelineCachePivotCacheIDs", 4257),
  ("BrtTimelineCachePivotCacheID", 4258),
  ("BrtBeginTimelineCacheIDs", 4259)]

/-- `rxls/biff_enum.py:769-848`. -/
def biffEnumPart9 : List (String × Nat) := [
  ("BrtEndTimelineCacheIDs", 4260),
  ("BrtBeginTimelineCacheID", 4261),
  ("BrtEndTimelineCacheID", 4262),
  ("BrtBeginTimelinesEx", 4263),
  ("BrtEndTimelinesEx", 4264),
  ("BrtBeginTimelineEx", 4265),
  ("BrtEndTimelineEx", 4266),
  ("BrtWorkBookPr15", 4267),
  ("BrtPCDH15", 4268),
  ("BrtBeginTimelineStyle", 4269),
  ("BrtEndTimelineStyle", 4270),
  ("BrtTimelineStyleElement", 4271),
  ("BrtBeginTimelineStylesheetExt15", 4272),
  ("BrtEndTimelineStylesheetExt15", 4273),
  ("BrtBeginTimelineStyles", 4274),
  ("BrtEndTimelineStyles", 4275),
  ("BrtBeginTimelineStyleElements", 4276),
  ("BrtEndTimelineStyleElements", 4277),
  ("BrtDxf15", 4278),
  ("BrtBeginDxfs15", 4279),
  ("BrtEndDXFs15", 4280),
  ("BrtSlicerCacheHideItemsWithNoData", 4281),
  ("BrtBeginItemUniqueNames", 4282),
  ("BrtEndItemUniqueNames", 4283),
  ("BrtItemUniqueName", 4284),
  ("BrtBeginExtConn15", 4285),
  ("BrtEndExtConn15", 4286),
  ("BrtBeginOledbPr15", 4287),
  ("BrtEndOledbPr15", 4288),
  ("BrtBeginDataFeedPr15", 4289),
  ("BrtEndDataFeedPr15", 4290),
  ("BrtTextPr15", 4291),
  ("BrtRangePr15", 4292),
  ("BrtDbCommand15", 4293),
  ("BrtBeginDbTables15", 4294),
  ("BrtEndDbTables15", 4295),
  ("BrtDbTable15", 4296),
  ("BrtBeginDataModel", 4297),
  ("BrtEndDataModel", 4298),
  ("BrtBeginModelTables", 4299),
  ("BrtEndModelTables", 4300),
  ("BrtModelTable", 4301),
  ("BrtBeginModelRelationships", 4302),
  ("BrtEndModelRelationships", 4303),
  ("BrtModelRelationship", 4304),
  ("BrtBeginECTxtWiz15", 4305),
  ("BrtEndECTxtWiz15", 4306),
  ("BrtBeginECTWFldInfoLst15", 4307),
  ("BrtEndECTWFldInfoLst15", 4308),
  ("BrtBeginECTWFldInfo15", 4309),
  ("BrtFieldListActiveItem", 4310),
  ("BrtPivotCacheIdVersion", 4311),
  ("BrtSXDI15", 4312),
  ("brtBeginModelTimeGroupings", 4313),
  ("brtEndModelTimeGroupings", 4314),
  ("brtBeginModelTimeGrouping", 4315),
  ("brtEndModelTimeGrouping", 4316),
  ("brtModelTimeGroupingCalcCol", 4317),
  ("brtRevisionPtr", 6273),
  ("BrtBeginDynamicArrayPr", 8320),
  ("BrtEndDynamicArrayPr", 8321),
  ("BrtBeginRichValueBlock", 10122),
  ("BrtEndRichValueBlock", 10123),
  ("BrtBeginRichFilters", 10201),
  ("BrtEndRichFilters", 10202),
  ("BrtRichFilter", 10203),
  ("BrtBeginRichFilterColumn", 10204),
  ("BrtEndRichFilterColumn", 10205),
  ("BrtBeginCustomRichFilters", 10206),
  ("BrtEndCustomRichFilters", 10207),
  ("BRTCustomRichFilter", 10208),
  ("BrtTop10RichFilter", 10209),
  ("BrtDynamicRichFilter", 10210),
  ("BrtBeginRichSortCondition", 10212),
  ("BrtEndRichSortCondition", 10213),
  ("BrtRichFilterDateGroupItem", 10214),
  ("BrtBeginCalcFeatures", 10215),
  ("BrtEndCalcFeatures", 10216),
  ("BrtCalcFeature", 10217),
  ("BrtExternalLinksPr", 10219)]

/-- `BIFF_ENUM`, `rxls/biff_enum.py:3-849`, as the list of its items. -/
def biffEnum : List (String × Nat) :=
  biffEnumPart0 ++
  biffEnumPart1 ++
  biffEnumPart2 ++
  biffEnumPart3 ++
  biffEnumPart4 ++
  biffEnumPart5 ++
  biffEnumPart6 ++
  biffEnumPart7 ++
  biffEnumPart8 ++
  biffEnumPart9

/-- `BIFF_ENUM[name]`: `KeyError` for an unknown name.  (`rxls/biff.py:73-74`.) -/
def biffEnumGet (name : String) : Py Nat :=
  match biffEnum.find? (fun e => e.1 == name) with
  | some e => .ok e.2
  | none => .error .keyError

/-- `BIFF_ENUM_REVERSED.get(id, "Undefined")`, `rxls/biff_enum.py:851` and `rxls/biff.py:61-63`
(`record.rec_name`).  The reversed dict keeps the *last* name given to an id, hence the search from
the end. -/
def recName (id : Nat) : String :=
  match biffEnum.reverse.find? (fun e => e.2 == id) with
  | some e => e.1
  | none => "Undefined"

/-- `record.from_data(name, *data)` with a name, `rxls/biff.py:71-81`. -/
def Record.fromName (name : String) (data : List Bytes) : Py Record := do
  let id ← biffEnumGet name
  .ok (Record.fromData id data)

/-! ## `record.__repr__` -/

/-- The record number shown by `__repr__` (`rxls/biff.py:66-68`). -/
def shownNumber (recId : Nat) : Nat :=
  if recId &&& 0x80 ≠ 0 then (recId &&& 0x7F) ||| ((recId &&& 0x7F00) >>> 1) else recId

/-- Digits of a number, most significant first, zero-padded to a width (`f"{n:04}"`, `f"{n:04x}"`; width 1 is
plain `str`). -/
def paddedDigits (base width n : Nat) : List Char :=
  let d := (base.digits n).reverse
  (List.replicate (width - d.length) 0 ++ d).map Nat.digitChar

/-- `f"{n:-^4}"`: centred in four places, the odd place on the right.  (`rxls/biff.py:69`.) -/
def centred4 (n : Nat) : List Char :=
  let d := paddedDigits 10 1 n
  List.replicate ((4 - d.length) / 2) '-' ++ d ++ List.replicate ((4 - d.length) - (4 - d.length) / 2) '-'

/-- `data.hex(" ", 1)`.  (`rxls/biff.py:69`.) -/
def hexBytes (b : List UInt8) : List Char := [' '].intercalate (b.map fun x => paddedDigits 16 2 x.toNat)

/-- `record.__repr__` (`rxls/biff.py:65-69`). -/
def Record.repr (r : Record) : List Char :=
  paddedDigits 10 4 (shownNumber r.recId) ++ (' ' :: '(' :: (paddedDigits 16 4 r.recId ++ (')' :: ' ' :: '<' ::
    (centred4 r.data.length ++ ('>' :: ' ' :: '`' :: ((recName r.recId).toList ++ ('`' :: '\n' :: '\t' :: '[' ::
      (hexBytes r.data ++ [']']))))))))

end Rxls
