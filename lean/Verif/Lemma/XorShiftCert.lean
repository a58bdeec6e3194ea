import Verif.Lemma.XorShift

/-!
# Powers of the transition matrix of the random number generator

Numeric certificates: the matrices (32 columns, as numbers) of powers of the transition function of the generator. Each one is
checked by the kernel to be the product of two others.
-/

namespace MLRL.XorShift.Cert

def p0 : List Nat := [270369, 540738, 1081476, 2162952, 4325937, 8651874, 17303748, 34607496, 69214992, 138429984,
  276859968, 553719936, 1107439872, 2214879744, 134792192, 269584384, 539168768, 1078337569, 2156675138, 17301636,
  34603272, 69206544, 138413088, 276826176, 553652352, 1107304704, 2214609408, 134251520, 268503040, 537006080,
  1074012160, 2148024320]

def p1 : List Nat := [67634689, 134253570, 268507140, 537014280, 1082410067, 2164820134, 33657164, 67314328,
  134628625, 269257250, 538514500, 1077029000, 2154058033, 13148770, 26297540, 52595080, 105190193, 201982464,
  402949120, 570982664, 1141965328, 2283930625, 272893954, 545787908, 1091575816, 2183151632, 71335968, 143753280,
  287506560, 575013153, 1150026306, 2299036804]

def p2 : List Nat := [307599695, 1670953222, 3341906444, 2397225082, 319134170, 873118396, 1025996745, 2051993490,
  1906135427, 4047186446, 4033305909, 3763248681, 1159566999, 2318118190, 340253309, 672108696, 3582921717, 853477706,
  579705100, 2840083624, 1376804146, 564138112, 1364273160, 2963527960, 1632088624, 3256860674, 2519632140,
  1802410401, 3596424992, 690619525, 1078263810, 3585606292]

def p3 : List Nat := [435756210, 1401905590, 1697498707, 3547356631, 3352315571, 269536975, 4150475801, 3526844150,
  1237866846, 2272314079, 488875096, 1881247329, 143629668, 3466619717, 4252056148, 2758445570, 3172328787,
  2744195457, 2966341661, 287003857, 1919864327, 3862758952, 3306563744, 704483438, 2913576773, 918014814, 1063325072,
  3361898166, 1263308096, 3329840018, 2240676853, 2178132162]

def p4 : List Nat := [3385103793, 2319215614, 2454672506, 2577523135, 369380136, 1395957656, 3066830330, 2550469481,
  79939214, 3022887315, 2104869307, 3808539356, 1421860418, 215361280, 1534239292, 3923653138, 2423021697, 3231327342,
  2735191073, 2293528455, 2203147867, 441612868, 2332191588, 1770953885, 1277702289, 2783203772, 1312514326,
  2935797620, 3320995912, 2381216182, 2019212487, 3226200547]

def p5 : List Nat := [3412600852, 2541978743, 3267611380, 726103525, 1327682841, 3929756744, 484167457, 3387071820,
  2657277780, 4038817380, 213931672, 2061930371, 2296467662, 600462889, 939035703, 765699354, 3107936457, 258572009,
  27918708, 3121557168, 4005364440, 1989652064, 874358065, 4210679491, 366433236, 3384422562, 556276592, 1160105741,
  2044627538, 1590473236, 242903050, 2364317968]

def p6 : List Nat := [932611783, 1112633538, 293301608, 2092790739, 1626439503, 1089671212, 304349903, 3710350611,
  1962927266, 2676322310, 1141665338, 3004361202, 3701626548, 2958364533, 1445077629, 2047030602, 2654796853,
  1018803288, 3384549630, 3812526678, 1346575954, 475416564, 413633881, 3775956818, 1402776769, 446708853, 2728349981,
  3570340208, 2391483936, 1417713861, 1727404288, 874413637]

def p7 : List Nat := [2144056621, 487143145, 2212672375, 3633086063, 897363196, 2152094435, 155619899, 2446392000,
  607790101, 1519826227, 2129220609, 1025148785, 3600508955, 4192082447, 923478855, 2698711050, 30775937, 550263549,
  587192091, 1645339894, 3605157420, 1108659412, 203899345, 3762720645, 4283289808, 847287177, 2276775528, 2503419660,
  3546957393, 1471151888, 3517018178, 1483442760]

def p8 : List Nat := [1424859452, 3922555886, 3077650115, 3736641067, 1211620788, 2859566781, 1204616573, 155227985,
  1213393187, 2472456456, 1482978665, 2652730614, 3871728631, 3043971450, 3753551402, 1699866935, 422772876,
  1949668710, 2993884290, 3222912591, 2146079826, 3977772465, 2455852207, 537683947, 1945931418, 1752727032,
  1894111692, 3323811086, 3406204307, 1000453137, 174803162, 2354738828]

def p9 : List Nat := [2521350846, 3802180557, 1695520370, 4261773995, 260854674, 2021146481, 1590253937, 2087332172,
  2605883282, 387826585, 834402785, 2876062192, 3459482177, 4230770990, 1620508176, 4155987782, 3784676791,
  2469881118, 1609269104, 3490216109, 2166409130, 9108845, 1604482071, 655588518, 4123432144, 1192982995, 2748465240,
  592625376, 2328074338, 2337494883, 207954636, 1151794917]

def p10 : List Nat := [1460585410, 2689242779, 4175177587, 1591941054, 687970697, 3142909193, 704574833, 2561809752,
  2885974985, 1952427887, 2849498141, 945006758, 1417387580, 2394097064, 3399540462, 429640382, 2802796427,
  2418948945, 55013434, 3804022835, 2206770367, 3949319368, 2097944013, 574368727, 2386221622, 93397496, 3629684952,
  1719895086, 2080694516, 939604186, 860769110, 3315317504]

def p11 : List Nat := [1997206952, 2054732979, 1522564929, 1578201517, 1063219072, 2901127500, 1983244756, 839150883,
  147319353, 2590721254, 3516060900, 1059628961, 3409903922, 2079836495, 845705297, 1932609914, 4069168629,
  1310606538, 3193258556, 3994454002, 3956511853, 3504721982, 3078944639, 1307093886, 1696685526, 261386107,
  1131902967, 3472287837, 1285178774, 32954428, 2981546635, 4156924947]

def p12 : List Nat := [2636821258, 3734891631, 967519728, 20122474, 492130025, 3127096689, 3946837501, 4074137816,
  320433845, 1682326995, 1845734150, 917943464, 3571084428, 2451758096, 2001705394, 2612818917, 1920946760,
  1167049327, 391289124, 1140457767, 2389985911, 197403762, 1046179363, 2749566774, 4035296711, 2083633922, 349795967,
  3393235512, 4242155223, 1981484266, 3697279565, 2132234218]

def p13 : List Nat := [3587563677, 4199715749, 192433200, 2380168098, 1944845204, 817173822, 3104630724, 3267527965,
  3881839471, 2675612952, 2422343777, 1818649476, 693887339, 3430867902, 1920697494, 4129392662, 3757888778,
  1514231824, 2014768547, 2647613825, 1655481748, 2729165264, 3422948839, 1272880714, 442891794, 1036482722,
  3332282564, 3593903298, 72466539, 3769036421, 2657147096, 2396771245]

def p14 : List Nat := [552723936, 1626133020, 2910524297, 1442683780, 2942707583, 2838979761, 2471259248, 1365131241,
  2266412974, 1277454467, 2389505538, 758207405, 512358028, 2128356395, 1969433287, 1791237812, 745084033, 647485907,
  1659516540, 696865408, 3097618264, 3382855721, 1453634213, 1201451234, 2908700684, 1733607855, 3198296303,
  2936080747, 410129245, 201998250, 2379534293, 716007707]

def p15 : List Nat := [1132257473, 147708899, 1868748051, 4009830904, 812676862, 3485674144, 3639388481, 2904266047,
  2366907605, 15912272, 1432990985, 1834670081, 949731876, 1103532042, 789896438, 836589710, 1711632420, 3300202392,
  4270332792, 985139983, 2121353521, 2313661710, 2480077534, 1283159288, 3089523104, 2715506118, 1307123757,
  1423616685, 2275791218, 3690928178, 3390316430, 913645104]

def p16 : List Nat := [437906867, 506273532, 1246454606, 2241393224, 958817800, 3472911366, 3064280302, 1337743425,
  1789918472, 2952294299, 3262575055, 2871278968, 471368716, 2032964697, 2822943001, 3102833472, 2478598240, 9866905,
  2120828680, 56646574, 1601371120, 2641177728, 173376804, 1225692501, 204540805, 2983620998, 753404461, 3824765745,
  3148149924, 3672362573, 560093186, 3007903540]

def p17 : List Nat := [4058630290, 2900708607, 2586859009, 1875882150, 1415960080, 210108524, 908217858, 374271150,
  1611462281, 321182435, 3097455767, 2003013249, 2649951855, 957632999, 2438764059, 917377988, 1090283456, 4290993898,
  335407126, 2712990436, 874993714, 3984823492, 2143163332, 1624548633, 4012869467, 15441407, 3602033246, 3468171000,
  1528659704, 2211158531, 1076884580, 2820061508]

def p18 : List Nat := [4064208034, 484659257, 2986436319, 2556618512, 3378758592, 1538983818, 4256103269, 2914545201,
  1366002732, 1695015409, 90069132, 2170294594, 860924689, 1508825901, 2209634535, 2597679159, 2000400656, 1489206838,
  194508050, 3365196176, 3236923179, 3936548220, 3477753282, 3862830727, 3511957981, 951318265, 1936594807,
  3373566751, 50304720, 3559199575, 3150245335, 340326198]

def p19 : List Nat := [1599722383, 483088297, 1792175151, 441854237, 3234271202, 2866585875, 2783039869, 4095604617,
  3320077166, 3365937267, 2151461821, 2328669409, 2110681261, 3851069681, 1552024574, 1428796089, 1389728517,
  1117134387, 3492280342, 1415536476, 105006619, 3165573937, 3106206625, 2731048832, 2209633468, 1196498515,
  186201685, 1586241574, 2279082112, 658376213, 2429362706, 144212708]

def p20 : List Nat := [2174976903, 977753923, 3676576303, 4134183755, 2743266808, 1505697046, 54155704, 1321223874,
  2720768835, 2975694650, 1207856825, 2432419462, 2396143765, 3709212614, 4164074705, 4216897135, 3744502593,
  2008057514, 3468361721, 67833790, 988280701, 1761626179, 2231125215, 271253941, 1267467795, 732458284, 450152998,
  439273500, 4031000656, 688944496, 3005735619, 2720153571]

def p21 : List Nat := [4264267730, 2426572069, 1552969846, 484893029, 1718809704, 2317462726, 1189073395, 1972252116,
  3908537605, 3270850390, 867050897, 1673000737, 520612363, 1595524916, 3865729422, 178294792, 907920375, 2246490177,
  1593011034, 3520658494, 586380211, 461549207, 1919529628, 2040458881, 4252145837, 180458498, 995636214, 144587626,
  1902886965, 4117873452, 2371293777, 2252086507]

def p22 : List Nat := [2062402979, 2323232854, 1415399285, 3165448222, 3357801480, 1396660763, 61570607, 1383111439,
  973035312, 4008696089, 1928288587, 3808470772, 954792381, 3101353137, 622971477, 1761768472, 93660688, 445350422,
  409546342, 3219453731, 99554510, 2492381399, 1449354310, 127617482, 3101251738, 2300502581, 2203699067, 271579205,
  1574272234, 952190135, 4134414861, 2248047255]

def p23 : List Nat := [2613931769, 2116078447, 4021246364, 4199957137, 159187182, 666048756, 2472632813, 2553809771,
  2529306317, 2357872319, 4012126613, 2849290815, 1110943537, 875171312, 917406912, 3751925367, 3371258488,
  4067414623, 2081198093, 1426141099, 1060185362, 3605938135, 1318387101, 2294349068, 1290596525, 979055349,
  1620526459, 1942110258, 3375548386, 457006854, 1140931551, 1434962563]

def p24 : List Nat := [848984213, 2008802344, 3990305690, 3313116833, 1051334665, 2001177029, 2349987696, 1264335982,
  548130185, 2057212210, 3225646717, 2797975075, 2062810950, 918405191, 911461676, 1425172061, 987015018, 1065470503,
  3220446566, 2702903587, 2891105889, 1801700596, 4137905936, 3133719612, 3226345579, 785265831, 1124311429,
  2999116824, 2075210516, 2110449737, 3688269987, 3734938631]

def p25 : List Nat := [3604352453, 2415654495, 1679593226, 2884430333, 3180560122, 4138757226, 3367786651, 1292025274,
  2417969171, 1185512968, 3920967817, 2547344167, 3415173090, 1949483231, 1333049371, 1157634399, 1947487017,
  4167912408, 2934884674, 3742277880, 643113115, 2740906707, 3103229657, 1782275089, 2671089976, 3609245645,
  3874940368, 3930982677, 63210176, 3086690929, 3388648448, 2633549301]

def p26 : List Nat := [469874098, 633490616, 109265352, 656230377, 1507309137, 1625689401, 820179706, 2498662258,
  2028949689, 4190072947, 3122158083, 969777677, 2555081229, 1121044227, 1014979131, 2676893490, 2517986765,
  2297960905, 1115521601, 3483749547, 3021426109, 3120781732, 416456031, 80586112, 3991561154, 39711776, 3987343705,
  3867053798, 2988490505, 1922272470, 529498198, 348438312]

def p27 : List Nat := [538948959, 3546027677, 844504094, 664133359, 556013577, 4170323959, 4049682088, 1500038652,
  1050445965, 2406823263, 375616613, 3582650066, 2881849314, 2192937491, 222165003, 637577413, 896247037, 1768808137,
  1510723102, 1333560612, 2254392147, 958700340, 4181269324, 1631483736, 9924366, 381720792, 1971206871, 2273722938,
  279222736, 2979512837, 339828435, 25300198]

def p28 : List Nat := [1878244886, 107105173, 1952733941, 549495992, 2884301473, 27241531, 2727541910, 1798010134,
  673394836, 4215639198, 3331708946, 1565443246, 3572426420, 1991309393, 1847195267, 425127451, 4043881683,
  2703310461, 113498546, 1742736957, 510912912, 1196114956, 3716806097, 305621583, 3665500464, 501916556, 3245643002,
  2680466608, 4249557383, 4148919500, 964854824, 2059186696]

def p29 : List Nat := [2470267299, 3692713381, 173045256, 1880662590, 2961563330, 4029467289, 3245694204, 486786390,
  1763104121, 732108063, 927491166, 3558935689, 3202567169, 1254581044, 4017351224, 1597408504, 3753125510, 280970171,
  1392066633, 2976220115, 3738880998, 688849904, 2288450992, 3463904561, 2228598865, 3032216116, 1433683557,
  3804778031, 4041786301, 1864009592, 37075571, 4211943131]

def p30 : List Nat := [3842568, 3135273899, 2003541055, 718393752, 3787746022, 2906496856, 3682459833, 1160472815,
  2779722685, 4036621082, 2260064345, 3075504666, 1489712480, 576456868, 2499390307, 1143291756, 2017303770,
  714020182, 1414642529, 4065942832, 4010179797, 4227504694, 1767815184, 3661689121, 637575631, 1400750347,
  1436205218, 924254191, 4271880945, 1324531443, 1414052375, 2376389150]

def p31 : List Nat := [1880865743, 1699997801, 1881088284, 2906286186, 1507680056, 625368360, 389422017, 2839400231,
  507479767, 1479248300, 1183236468, 1126460877, 2717502277, 368200958, 1134751042, 3824855646, 3679599966,
  2290134436, 2877750695, 574706284, 695848743, 2391508402, 1767210834, 2292577066, 4076185469, 2571496403,
  3069688842, 465649315, 845292588, 2137983343, 826573238, 3268645493]

theorem p0_eq : (List.range 32).map (fun i => step (2 ^ i)) = p0 := by decide +kernel

theorem p1_eq : comp p0 p0 = p1 := by decide +kernel

theorem p2_eq : comp p1 p1 = p2 := by decide +kernel

theorem p3_eq : comp p2 p2 = p3 := by decide +kernel

theorem p4_eq : comp p3 p3 = p4 := by decide +kernel

theorem p5_eq : comp p4 p4 = p5 := by decide +kernel

theorem p6_eq : comp p5 p5 = p6 := by decide +kernel

theorem p7_eq : comp p6 p6 = p7 := by decide +kernel

theorem p8_eq : comp p7 p7 = p8 := by decide +kernel

theorem p9_eq : comp p8 p8 = p9 := by decide +kernel

theorem p10_eq : comp p9 p9 = p10 := by decide +kernel

theorem p11_eq : comp p10 p10 = p11 := by decide +kernel

theorem p12_eq : comp p11 p11 = p12 := by decide +kernel

theorem p13_eq : comp p12 p12 = p13 := by decide +kernel

theorem p14_eq : comp p13 p13 = p14 := by decide +kernel

theorem p15_eq : comp p14 p14 = p15 := by decide +kernel

theorem p16_eq : comp p15 p15 = p16 := by decide +kernel

theorem p17_eq : comp p16 p16 = p17 := by decide +kernel

theorem p18_eq : comp p17 p17 = p18 := by decide +kernel

theorem p19_eq : comp p18 p18 = p19 := by decide +kernel

theorem p20_eq : comp p19 p19 = p20 := by decide +kernel

theorem p21_eq : comp p20 p20 = p21 := by decide +kernel

theorem p22_eq : comp p21 p21 = p22 := by decide +kernel

theorem p23_eq : comp p22 p22 = p23 := by decide +kernel

theorem p24_eq : comp p23 p23 = p24 := by decide +kernel

theorem p25_eq : comp p24 p24 = p25 := by decide +kernel

theorem p26_eq : comp p25 p25 = p26 := by decide +kernel

theorem p27_eq : comp p26 p26 = p27 := by decide +kernel

theorem p28_eq : comp p27 p27 = p28 := by decide +kernel

theorem p29_eq : comp p28 p28 = p29 := by decide +kernel

theorem p30_eq : comp p29 p29 = p30 := by decide +kernel

theorem p31_eq : comp p30 p30 = p31 := by decide +kernel

theorem p32_eq : comp p31 p31 = p0 := by decide +kernel

def q3_1 : List Nat := [2398689233, 3819972634, 3344977972, 189827724, 2817503589, 150759762, 2820274918, 1344501196,
  2919683829, 456042067, 1677716085, 1124031084, 237937520, 239882185, 235516633, 2575519574, 2865201197, 2905749137,
  2753981082, 1970279174, 1869614281, 1437608536, 4266808864, 3147245528, 2000605104, 2045525165, 2800385003,
  3003536396, 3818685180, 1592302424, 3907204128, 1756881985]

theorem q3_1_eq : comp p2 p0 = q3_1 := by decide +kernel

def q3_2 : List Nat := [2383559219, 3337658760, 1443149963, 1652186263, 1657722093, 1683123062, 2696381136,
  2827355449, 1948420712, 3168390714, 1569940499, 1803802946, 306354455, 4007058375, 818541486, 323367212, 788593748,
  1848056397, 3880085307, 3698722078, 241579199, 765824680, 3896926619, 3060271598, 2761432408, 3472444007,
  3789178607, 2068842879, 549161144, 1594234775, 1157887445, 3828597911]

theorem q3_2_eq : comp p4 q3_1 = q3_2 := by decide +kernel

def q3_3 : List Nat := [565309700, 1078362589, 3896837898, 118961521, 2792716670, 1000855507, 3973455160, 4221498603,
  1181993178, 384265852, 1764411545, 2332815840, 3576998360, 893244163, 1196495769, 522722463, 3213529546, 2443741001,
  3264565912, 1947327231, 1356588838, 679197804, 421638447, 3597658602, 3242696518, 3127250068, 970836505, 2216705384,
  4038537489, 2292860484, 3427437539, 4213200746]

theorem q3_3_eq : comp p6 q3_2 = q3_3 := by decide +kernel

def q3_4 : List Nat := [4127004287, 1221606345, 4138813295, 2030374427, 2070651883, 1535998014, 1421473310,
  3304480059, 1783899646, 2686793569, 851754974, 3107062631, 2966588889, 806916965, 1666804779, 4267074426,
  4154333286, 302143375, 788634626, 3317571137, 3654596943, 617185019, 2331174180, 1072896814, 1061721647, 1540827835,
  2521997057, 4281134379, 472954770, 3612162820, 1863923387, 650617491]

theorem q3_4_eq : comp p8 q3_3 = q3_4 := by decide +kernel

def q3_5 : List Nat := [4139317842, 185896476, 4198108874, 1590149739, 895210755, 2058432285, 1669274635, 311442511,
  999466897, 3696689206, 156739895, 3566065892, 2025036490, 2381502543, 4239892123, 3174953051, 2539046996,
  3475370744, 3595572939, 1424171291, 2450962053, 2245491008, 447299516, 2027664578, 2491573637, 725842777,
  1506633642, 4291115749, 152371118, 549869852, 1543787626, 723387121]

theorem q3_5_eq : comp p10 q3_4 = q3_5 := by decide +kernel

def q3_6 : List Nat := [4110104120, 1565539909, 3870751664, 2758119630, 2889631964, 2983410064, 815212365, 589429668,
  3326524224, 1371119719, 1532216909, 1526656933, 1452533614, 2449694052, 793568455, 1716000201, 3973492355,
  3994159860, 43567402, 1258631142, 2718111885, 1459790077, 3613621832, 2400461087, 3210257448, 594144135, 3392825173,
  2416828456, 2293415411, 445215204, 2853541960, 3893305448]

theorem q3_6_eq : comp p12 q3_5 = q3_6 := by decide +kernel

def q3_7 : List Nat := [3210611806, 1454728559, 3466174059, 1739935647, 3234083129, 78054303, 4092103930, 4012490788,
  327693927, 3364082493, 2189649792, 751551422, 1067961479, 2278859705, 168218722, 2280156103, 3172353526, 1268741940,
  2554739148, 375180788, 4053577065, 3484738354, 1654972857, 3313048339, 1146083614, 1739032000, 4000370829,
  3362055510, 1059086217, 3324331541, 2266830769, 1421184719]

theorem q3_7_eq : comp p14 q3_6 = q3_7 := by decide +kernel

def q3_8 : List Nat := [3211660162, 2865342822, 4027041608, 3044030481, 3374579943, 1843584154, 3606426977,
  2725675067, 1934427828, 1105673686, 1095363395, 2070128392, 1387517820, 1654004653, 1207171943, 4150957632,
  1801458664, 4044969626, 231352728, 1485706100, 2955769324, 1365723493, 3312908200, 2770104740, 3422833283,
  3131041133, 1754884372, 2183231288, 1186857469, 3541307597, 725241984, 2622430540]

theorem q3_8_eq : comp p16 q3_7 = q3_8 := by decide +kernel

def q3_9 : List Nat := [726434144, 3169474111, 279356582, 1427121554, 25749719, 3518190573, 1766769737, 809451999,
  313723645, 90807723, 4239997396, 764813992, 1008019064, 2330575273, 833278312, 1645398291, 4262048007, 3886354755,
  2808960500, 3617205015, 16383285, 3695278923, 2540266476, 2648228593, 988479845, 2481832832, 1317287688, 1675656051,
  3964830306, 888629764, 1401952090, 3196604337]

theorem q3_9_eq : comp p18 q3_8 = q3_9 := by decide +kernel

def q3_10 : List Nat := [513882953, 422874189, 2815021405, 3340423070, 2677270415, 2629785777, 3255795453, 3393822466,
  170695383, 1036682635, 68444789, 2097049249, 3592147079, 1958728160, 456426844, 3574912271, 1380970365, 3194176173,
  4134092821, 1595874719, 2570146172, 3703105438, 285799087, 930654116, 463964457, 2227737254, 3082958145, 1834777930,
  3682815450, 3173816260, 3208969593, 1293674210]

theorem q3_10_eq : comp p20 q3_9 = q3_10 := by decide +kernel

def q3_11 : List Nat := [2700415151, 359776522, 4035463012, 2475291476, 2095300321, 679267440, 3235190760, 2615131130,
  3406211586, 2255909831, 1540116676, 3838507869, 56993962, 1905975872, 4099861328, 805114412, 1962423369, 2146197446,
  2817389728, 2797100624, 2958638884, 1039203354, 1631369857, 2388245343, 3470571271, 2295664072, 2875406463,
  696054114, 892643564, 165002350, 916878132, 2561726337]

theorem q3_11_eq : comp p22 q3_10 = q3_11 := by decide +kernel

def q3_12 : List Nat := [2253034640, 57793636, 2722404387, 1092547970, 2282038920, 565082114, 4121184799, 3670235165,
  282095122, 1294420302, 3365615332, 2481191295, 3157287487, 930135992, 569921464, 2456639748, 1125364441, 3594109713,
  3746787926, 4034435737, 4088818137, 2024577468, 44920039, 4224978750, 246280235, 1298102070, 628626475, 2727515806,
  2715683481, 3454995862, 3195706678, 2448854952]

theorem q3_12_eq : comp p24 q3_11 = q3_12 := by decide +kernel

def q3_13 : List Nat := [3562552435, 2173450856, 1502141377, 1239611517, 2488794026, 3732751763, 2324486496,
  2785753491, 1660495303, 1455545126, 3623046925, 3630501558, 2009773657, 423304489, 4142923381, 4264593559,
  548337088, 1716491857, 3121537617, 587793781, 492365660, 3237091857, 2710537830, 397200307, 2883180353, 27045315,
  4158339188, 3509533407, 281176955, 3441302642, 1793779932, 3718180601]

theorem q3_13_eq : comp p26 q3_12 = q3_13 := by decide +kernel

def q3_14 : List Nat := [2213084407, 1414247480, 2137193795, 3993433283, 3300667633, 3226135361, 4266089039,
  415493578, 2668096933, 2029105735, 1674356515, 2675899749, 4237021200, 4290769153, 2325756446, 3396364101,
  2418793478, 1748468576, 2929847803, 1542773495, 2487901738, 3261454444, 2168198080, 2656661566, 3920938140,
  3408530177, 709666050, 1232863616, 1155743013, 1479804073, 1754643713, 3144079791]

theorem q3_14_eq : comp p28 q3_13 = q3_14 := by decide +kernel

def q3_15 : List Nat := [3335786257, 3906425407, 341432259, 3494094572, 1287699228, 2747661528, 2150333198,
  1082698387, 2611265886, 3557500517, 3637289613, 2868896625, 410369362, 1269330915, 4088754115, 154103209,
  1548993245, 1491119919, 2404261344, 3419380581, 2808848906, 551830956, 2331709170, 188466835, 3017353089,
  1526152647, 441219537, 2121271239, 792014187, 2569338613, 2655281178, 105270877]

theorem q3_15_eq : comp p30 q3_14 = q3_15 := by decide +kernel

def inv3 : List Nat := [3335786257, 3906425407, 341432259, 3494094572, 1287699228, 2747661528, 2150333198, 1082698387,
  2611265886, 3557500517, 3637289613, 2868896625, 410369362, 1269330915, 4088754115, 154103209, 1548993245,
  1491119919, 2404261344, 3419380581, 2808848906, 551830956, 2331709170, 188466835, 3017353089, 1526152647, 441219537,
  2121271239, 792014187, 2569338613, 2655281178, 105270877]

theorem inv3_eq : (List.range 32).map (fun i => app inv3 (app q3_15 (2 ^ i) ^^^ 2 ^ i)) =
    (List.range 32).map (fun i => 2 ^ i) := by decide +kernel

def q5_1 : List Nat := [2647435461, 697882754, 1395765508, 2791531049, 3385215700, 2476479912, 891888216, 1783776432,
  3559173411, 2824460870, 1352873100, 2705746233, 1108145680, 2216291360, 137615424, 275230881, 542065952, 3306070149,
  2552023042, 1998232476, 3996464921, 3706341968, 3116635296, 1939384640, 3878769280, 3462571297, 2631256642,
  732568972, 1465137977, 2921878032, 1547707424, 2861646152]

theorem q5_1_eq : comp p1 p0 = q5_1 := by decide +kernel

def q5_2 : List Nat := [321008529, 444256053, 2050007192, 2265186825, 2097688005, 1384144351, 3373739205, 3445069494,
  3858651955, 3964813893, 678813932, 1277233727, 3281278129, 1724095097, 3570874062, 336679862, 207204106, 2007835867,
  3627477550, 934233253, 153551665, 2168644347, 3388188456, 266800623, 3095568051, 2864119738, 1857613742, 2899302360,
  2950228375, 931443853, 4110031018, 1288850477]

theorem q5_2_eq : comp p4 q5_1 = q5_2 := by decide +kernel

def q5_3 : List Nat := [1410858555, 1107697306, 2654195160, 1620571127, 4120973758, 1020152457, 39538672, 4270999992,
  1483958965, 3215827425, 3764185885, 1072963866, 1600113003, 3060052908, 2980792662, 3876578404, 399474535,
  2556719527, 259307181, 1249953868, 2435915160, 1827220166, 2683339167, 3586547413, 142875812, 1260346147,
  1500354375, 885377461, 904657540, 1078091995, 169773796, 3427675605]

theorem q5_3_eq : comp p5 q5_2 = q5_3 := by decide +kernel

def q5_4 : List Nat := [749685576, 1639274630, 2330228798, 630187669, 1681053662, 2743167549, 1189697563, 3213818301,
  98980328, 1606354038, 502734509, 1296537647, 2088220866, 2389374003, 934751856, 3299975619, 2079285660, 560333812,
  2085079437, 2398185913, 1213186927, 2843655098, 1915612883, 3011156766, 1621031712, 3695927468, 767703916,
  4249966187, 1541935736, 3821634850, 3964562836, 2056542257]

theorem q5_4_eq : comp p8 q5_3 = q5_4 := by decide +kernel

def q5_5 : List Nat := [913547093, 2486836363, 4035269634, 3391079467, 2249881704, 3788661319, 564395626, 3748746153,
  1943672094, 1881860556, 1635716662, 247143750, 3505558613, 145967887, 3283479766, 1790963475, 4127506989,
  1366722048, 698882212, 1424356009, 1609167288, 772539070, 2601740853, 39638014, 3350572243, 3156921146, 3172316393,
  660444347, 2970391261, 4293338731, 2343657271, 1947207038]

theorem q5_5_eq : comp p9 q5_4 = q5_5 := by decide +kernel

def q5_6 : List Nat := [1549105422, 686620154, 4235399575, 2185084641, 3364937160, 1671598750, 21212529, 3295827981,
  2638015420, 555718831, 4273920792, 1670299267, 1906587534, 2523538607, 2840844935, 1457022345, 3244866726,
  2834325248, 879827211, 3721635391, 951010372, 1471737802, 3365391915, 2400847520, 1849994160, 4085004206,
  3158801671, 1318052207, 3688193269, 1190844218, 1016764567, 454694235]

theorem q5_6_eq : comp p12 q5_5 = q5_6 := by decide +kernel

def q5_7 : List Nat := [3816154864, 3275589299, 917851809, 2817162535, 2945063027, 1737333180, 1566751806, 3830477684,
  4277888860, 272722507, 2854932269, 807235726, 1123690484, 3753523536, 823776243, 1243477353, 367130177, 548073068,
  4052790169, 2715213560, 3955084173, 2908955962, 1738287881, 3785148484, 1208385361, 3119042173, 3823922650,
  392775951, 3875139898, 2495849366, 1013539807, 1711313075]

theorem q5_7_eq : comp p13 q5_6 = q5_7 := by decide +kernel

def q5_8 : List Nat := [3684679857, 1807102615, 1861281742, 1787874405, 2720937695, 3726572423, 1560798036, 871332851,
  180050671, 3237370794, 56852151, 2209661736, 696240472, 4171461980, 1613738106, 4193287259, 1648508056, 339056237,
  2945814975, 1206544764, 2546280428, 318718617, 2300948523, 1760868476, 1217239711, 2747384086, 3741895107,
  2405502400, 3067359137, 3523461444, 3058908834, 2147005352]

theorem q5_8_eq : comp p16 q5_7 = q5_8 := by decide +kernel

def q5_9 : List Nat := [3547043560, 2231554193, 837593380, 1614262143, 1486459374, 71583957, 1433163292, 3707659355,
  2237211962, 332377075, 2721365334, 1523333990, 3022332457, 3064961772, 481554704, 2104870159, 93161776, 962485250,
  4142810242, 4057861028, 2912951088, 3460019334, 2601470750, 2793100982, 959720202, 1052858182, 681819176, 42289589,
  4039694124, 1729952856, 2620252034, 2620064272]

theorem q5_9_eq : comp p17 q5_8 = q5_9 := by decide +kernel

def q5_10 : List Nat := [2702499544, 1704140778, 867923208, 578476934, 2086125898, 2359582845, 1006197542, 342254994,
  2559115857, 3479597999, 2712566804, 1194100448, 1528152376, 1010273757, 1257603676, 2541852279, 1732740546,
  273567064, 1924171559, 3745120749, 1309519304, 2247793526, 2238311629, 335747754, 2266837721, 2043717197, 853089839,
  244446897, 4115433037, 3253263177, 324075808, 2244529501]

theorem q5_10_eq : comp p20 q5_9 = q5_10 := by decide +kernel

def q5_11 : List Nat := [3671814338, 112337643, 816744155, 3813851793, 1237266727, 615986717, 1488921934, 431578724,
  2111941603, 549853581, 711002694, 2543765205, 3179594743, 982851454, 2112784251, 139877865, 1504052682, 1795202889,
  3898042210, 1021350082, 3481718679, 469905801, 2701044374, 879120219, 3826743299, 2311395304, 1764734899,
  1846464141, 3076574973, 702433560, 2190077825, 1357757178]

theorem q5_11_eq : comp p21 q5_10 = q5_11 := by decide +kernel

def q5_12 : List Nat := [1818827575, 1405562910, 1630399982, 2887898566, 2085433115, 731863719, 1907660254,
  2838673838, 2590665822, 472008968, 2364816299, 3247317571, 4069837257, 3580317631, 1634146185, 622967162, 374413870,
  2468166788, 1013269663, 1313163061, 2745621084, 1705520252, 1492009291, 1624048337, 3029011345, 4037853358,
  1628658656, 2007985263, 42509462, 2247890747, 3225307645, 1540522326]

theorem q5_12_eq : comp p24 q5_11 = q5_12 := by decide +kernel

def q5_13 : List Nat := [1056225713, 810900001, 3835870412, 653887731, 1606979017, 2001960902, 741197766, 634399255,
  4003130212, 3072177628, 3737436484, 2324403048, 564611112, 1634063757, 482249218, 1133328284, 1961671609, 474719723,
  3109647530, 4193375596, 1453878838, 1469340462, 1031376728, 23828028, 2421813045, 2826305024, 4253957293, 170760939,
  2716078136, 2389879200, 3330379379, 793163475]

theorem q5_13_eq : comp p25 q5_12 = q5_13 := by decide +kernel

def q5_14 : List Nat := [3117909091, 1285641793, 1016223143, 1711195002, 3650281447, 2582741498, 2811793334,
  1529703102, 1695871104, 2605246173, 3184032802, 1082071896, 1018046989, 1691358863, 2445926994, 1606892672,
  2691547388, 1235014339, 651545112, 3518091376, 2324650925, 2939001076, 3837872816, 2043271306, 709230374,
  3569797383, 2007394947, 3213497459, 2279721282, 1816753315, 1679949436, 2568734452]

theorem q5_14_eq : comp p28 q5_13 = q5_14 := by decide +kernel

def q5_15 : List Nat := [299503798, 2457315417, 2412464956, 558275091, 2844356426, 91543266, 634308174, 2492619628,
  1775225907, 2209298695, 1961583537, 2022607260, 1613026648, 720732207, 3678025619, 2762185888, 1602522616,
  558631730, 336106795, 3832061571, 2361473498, 2778282729, 396974353, 3097342361, 4288258156, 284673853, 1441809999,
  3419496854, 1050784069, 2989743934, 3118464692, 4151171688]

theorem q5_15_eq : comp p29 q5_14 = q5_15 := by decide +kernel

def inv5 : List Nat := [3037765269, 3182012677, 1669387622, 2344659563, 370929321, 3901211764, 1380852402, 4210098316,
  2969553326, 2348631362, 1854761326, 1663573681, 1840518332, 1230994099, 4206056119, 2280264177, 2761711817,
  2141840559, 1783100198, 2364816481, 1110627307, 3500024705, 2915665707, 311039995, 1912523766, 1756755554,
  3294084956, 326808620, 2100464665, 1580234416, 2287416289, 4045495915]

theorem inv5_eq : (List.range 32).map (fun i => app inv5 (app q5_15 (2 ^ i) ^^^ 2 ^ i)) =
    (List.range 32).map (fun i => 2 ^ i) := by decide +kernel

def q17_1 : List Nat := [2647435461, 697882754, 1395765508, 2791531049, 3385215700, 2476479912, 891888216, 1783776432,
  3559173411, 2824460870, 1352873100, 2705746233, 1108145680, 2216291360, 137615424, 275230881, 542065952, 3306070149,
  2552023042, 1998232476, 3996464921, 3706341968, 3116635296, 1939384640, 3878769280, 3462571297, 2631256642,
  732568972, 1465137977, 2921878032, 1547707424, 2861646152]

theorem q17_1_eq : comp p1 p0 = q17_1 := by decide +kernel

def q17_2 : List Nat := [632435482, 3895821145, 3270159353, 4176006140, 4162540934, 3448392061, 2393482765,
  1222732520, 1358176490, 433326401, 3968329581, 1758580421, 3904436761, 4278288284, 1538450238, 3629765467,
  3042568161, 3598756899, 247470409, 1856088028, 931124249, 3459600672, 413649968, 1497455810, 4122030620, 3977113864,
  3385265103, 4240198272, 2529469540, 4165010856, 1951360288, 3032542240]

theorem q17_2_eq : comp p2 q17_1 = q17_2 := by decide +kernel

def q17_3 : List Nat := [87470069, 52840766, 1727581326, 4186715589, 2038156914, 2384428114, 2090088328, 3634088622,
  2108673357, 3619626483, 3194469896, 1122786805, 3285157788, 1665036679, 3901812484, 2862408494, 3989168056,
  848562274, 567490449, 488569420, 2259726708, 4031235727, 24986476, 1026364645, 734628843, 2176980903, 1154576202,
  3121080914, 1792795141, 2092299848, 985135825, 902167723]

theorem q17_3_eq : comp p3 q17_2 = q17_3 := by decide +kernel

def q17_4 : List Nat := [3586121842, 1533160647, 1007206082, 2141051506, 1092982325, 2651026140, 2795213844,
  3981344478, 2744622453, 4073675000, 3206216516, 3070313121, 4264820527, 2042613541, 2179685856, 3404706024,
  358355064, 4012361625, 763657313, 3182449097, 1248132766, 2549787652, 2566597822, 170760666, 710605432, 4113786236,
  2837678288, 3910956590, 2154913822, 4002063675, 2232592606, 84078724]

theorem q17_4_eq : comp p8 q17_3 = q17_4 := by decide +kernel

def q17_5 : List Nat := [1870424049, 2391292714, 3648533829, 3641874481, 3703994086, 2297293013, 1293502979,
  2120705466, 338205578, 623005418, 212732039, 1350426626, 1509808853, 2317232153, 2651552627, 3364253820, 2495466994,
  3983596594, 4266350349, 3922775558, 1247186830, 2433520658, 2722638225, 847565208, 3167824183, 1747699144,
  448578411, 1849349743, 2443658810, 1011657236, 4107668474, 2037929105]

theorem q17_5_eq : comp p9 q17_4 = q17_5 := by decide +kernel

def q17_6 : List Nat := [2343431569, 3245145682, 3422746291, 3240528434, 1732105189, 66913841, 3028036335, 3682656252,
  1719062568, 3470933138, 2838407013, 3785209593, 705256673, 3268991434, 1808216001, 754970754, 679454, 3473891130,
  3211605812, 2493729373, 4080205108, 3139601990, 2615340552, 2767962353, 3285934747, 1785979792, 2219912418,
  862151013, 2974679556, 1825578809, 417403106, 3105784629]

theorem q17_6_eq : comp p10 q17_5 = q17_6 := by decide +kernel

def q17_7 : List Nat := [3401632651, 2720148947, 2470850136, 1010970052, 3718736401, 2791424418, 451043560,
  3328633812, 4173743897, 2308985748, 800108769, 1355303777, 1412796200, 1805611541, 3631506127, 404188147,
  1819826215, 2131519557, 2729963535, 1949028875, 3390703777, 3998516451, 1810187754, 3343569919, 3795256697,
  3831344026, 494933505, 1247860783, 3069847987, 569950992, 66206779, 3138595547]

theorem q17_7_eq : comp p11 q17_6 = q17_7 := by decide +kernel

def q17_8 : List Nat := [864991492, 4217157352, 1950130941, 1830214223, 621016375, 345808636, 1438952410, 1800088746,
  620014776, 3309302996, 3535876472, 2138066128, 3347637689, 1446647205, 809255362, 1585117905, 1639656131,
  3546802041, 5182318, 1125505496, 2902482890, 1441403220, 994829607, 128079653, 2711112608, 2637361995, 1510333571,
  1193129587, 3364508009, 3090442149, 1205462128, 2083138812]

theorem q17_8_eq : comp p16 q17_7 = q17_8 := by decide +kernel

def q17_9 : List Nat := [89816347, 2459180253, 1168223968, 743393358, 1093716597, 2447410262, 2464846207, 2896632155,
  1634633761, 1355094902, 700251875, 3817105694, 2261886695, 2127117285, 3470965822, 420276962, 2869127257,
  3349744591, 4289590831, 4268035718, 2412056647, 2344165243, 357608587, 3953498555, 3194647521, 1452663465,
  954175272, 3052701621, 3489860200, 1724881655, 4226031492, 1218426229]

theorem q17_9_eq : comp p17 q17_8 = q17_9 := by decide +kernel

def q17_10 : List Nat := [3195483799, 4114098823, 1271531629, 2217233007, 2460926828, 26335482, 782484465, 4092720279,
  2995889930, 2870456839, 3032432465, 2322145685, 891691323, 3977260292, 1717695494, 1780924729, 3404842723,
  2813236566, 518807820, 1082456483, 2150576397, 3717225723, 861842941, 453467596, 3507567682, 290209570, 4090267116,
  3166627195, 1487382619, 847187744, 224595866, 871202105]

theorem q17_10_eq : comp p18 q17_9 = q17_10 := by decide +kernel

def q17_11 : List Nat := [3025456138, 605437215, 2913849255, 3384084170, 1808760569, 3057149336, 1536081506, 63611974,
  574002400, 1600421788, 2331495423, 863691788, 367372605, 792994523, 3408813748, 1667928364, 2346202565, 1188176477,
  3125693865, 565635500, 1383099942, 616143379, 1980106875, 318063566, 3811600384, 282542704, 4170667864, 484895235,
  2434143784, 3710687587, 4128968183, 824894678]

theorem q17_11_eq : comp p19 q17_10 = q17_11 := by decide +kernel

def q17_12 : List Nat := [3355820910, 1269560245, 2914303815, 1078753962, 2999641533, 2206750103, 4023042960,
  2281735233, 1242080391, 2263288816, 236205975, 4211171680, 3979300604, 507769616, 2899915736, 445045930, 2002271321,
  2366398793, 681653747, 2261541318, 1323755749, 1361976210, 3547822878, 2939729820, 4145572348, 2820150480,
  3168645347, 3765116554, 995430709, 753052238, 110702838, 3289967912]

theorem q17_12_eq : comp p24 q17_11 = q17_12 := by decide +kernel

def q17_13 : List Nat := [3346256269, 640123052, 1589000894, 3204288280, 312688248, 1361645402, 2141774915,
  3295262824, 2200869379, 1909837005, 507358382, 2720508331, 1499707674, 842928504, 2196959683, 573354473, 1531115492,
  1615484358, 2976056579, 3405940793, 488918193, 2321447048, 1300948138, 3480506947, 2338605236, 570532418, 93099506,
  812937179, 4031059158, 1514516971, 1281748127, 2278226935]

theorem q17_13_eq : comp p25 q17_12 = q17_13 := by decide +kernel

def q17_14 : List Nat := [3948494811, 837778710, 3608248098, 939130567, 2657153025, 3399037793, 405633186, 373349281,
  3122944006, 4144038329, 11414341, 4096935442, 1161412364, 129017866, 270623291, 2232954839, 3020300666, 3541898953,
  2123738234, 773125055, 2719261452, 903464844, 399408602, 4013520785, 1397714290, 3608886075, 4103623724, 187041822,
  4220227797, 1660500893, 3581126802, 772864204]

theorem q17_14_eq : comp p26 q17_13 = q17_14 := by decide +kernel

def q17_15 : List Nat := [914354430, 1356863423, 2834901695, 3099372833, 391185691, 2827395366, 226189479, 4015901675,
  3231730499, 1534740771, 570304357, 1909164604, 3430394388, 949648968, 292981645, 96827071, 2258542217, 673435291,
  1644815006, 1543632033, 2048824963, 1888065254, 860647897, 1577296466, 730615166, 3004731013, 878269586, 2845971640,
  1103384959, 4009655566, 2967812175, 3120427819]

theorem q17_15_eq : comp p27 q17_14 = q17_15 := by decide +kernel

def inv17 : List Nat := [2080738118, 4098161938, 4167003272, 262081113, 4280086534, 4185094329, 2355677745,
  3596925114, 3587069701, 2535039379, 1691659854, 3661366594, 3081963516, 2254921635, 205510780, 2576529806,
  3889960224, 3965609850, 1675181996, 1663335326, 464242227, 164803375, 1135727768, 3702832275, 733074617, 3475373130,
  3364815054, 2204756806, 2769922784, 2141131413, 4189123440, 1776631044]

theorem inv17_eq : (List.range 32).map (fun i => app inv17 (app q17_15 (2 ^ i) ^^^ 2 ^ i)) =
    (List.range 32).map (fun i => 2 ^ i) := by decide +kernel

def q257_1 : List Nat := [2647435461, 697882754, 1395765508, 2791531049, 3385215700, 2476479912, 891888216,
  1783776432, 3559173411, 2824460870, 1352873100, 2705746233, 1108145680, 2216291360, 137615424, 275230881, 542065952,
  3306070149, 2552023042, 1998232476, 3996464921, 3706341968, 3116635296, 1939384640, 3878769280, 3462571297,
  2631256642, 732568972, 1465137977, 2921878032, 1547707424, 2861646152]

theorem q257_1_eq : comp p1 p0 = q257_1 := by decide +kernel

def q257_2 : List Nat := [632435482, 3895821145, 3270159353, 4176006140, 4162540934, 3448392061, 2393482765,
  1222732520, 1358176490, 433326401, 3968329581, 1758580421, 3904436761, 4278288284, 1538450238, 3629765467,
  3042568161, 3598756899, 247470409, 1856088028, 931124249, 3459600672, 413649968, 1497455810, 4122030620, 3977113864,
  3385265103, 4240198272, 2529469540, 4165010856, 1951360288, 3032542240]

theorem q257_2_eq : comp p2 q257_1 = q257_2 := by decide +kernel

def q257_3 : List Nat := [87470069, 52840766, 1727581326, 4186715589, 2038156914, 2384428114, 2090088328, 3634088622,
  2108673357, 3619626483, 3194469896, 1122786805, 3285157788, 1665036679, 3901812484, 2862408494, 3989168056,
  848562274, 567490449, 488569420, 2259726708, 4031235727, 24986476, 1026364645, 734628843, 2176980903, 1154576202,
  3121080914, 1792795141, 2092299848, 985135825, 902167723]

theorem q257_3_eq : comp p3 q257_2 = q257_3 := by decide +kernel

def q257_4 : List Nat := [57526103, 3897644995, 3630137249, 75081003, 4192503457, 3404177946, 219123854, 1323407901,
  3368892947, 3084207451, 2912572982, 2883285279, 1774060937, 540558119, 1936954894, 1537465965, 3303714120,
  686122469, 584715902, 28235060, 266268965, 588859285, 3766228555, 1254254935, 757014072, 769092805, 465512975,
  3004974934, 384783877, 530043512, 211297619, 4264682026]

theorem q257_4_eq : comp p4 q257_3 = q257_4 := by decide +kernel

def q257_5 : List Nat := [703511808, 2922552956, 94581155, 2406718385, 1975967125, 213018031, 1854856627, 3763359649,
  963808402, 1333268354, 2984454968, 2677298474, 1832133856, 1373319108, 3361403613, 352305744, 2132414489,
  2872462881, 1125216684, 1253556688, 3765948730, 3047585001, 3559209942, 2114940120, 1283077508, 104192075,
  2471420170, 1909717016, 1845846803, 2458055172, 1950107496, 3069398344]

theorem q257_5_eq : comp p5 q257_4 = q257_5 := by decide +kernel

def q257_6 : List Nat := [3038542234, 3977809985, 1591434062, 3376394257, 2836727694, 3032285392, 1378724579,
  2928197218, 1204399087, 1829011917, 1315899232, 964353070, 3921285774, 568804142, 1001747759, 3502300388,
  4214066063, 228714780, 1603112777, 2575923556, 2742127295, 2908220958, 4251826921, 2586634424, 197884094,
  4217751405, 726836361, 194575496, 289214960, 3014919298, 2949364773, 4200039939]

theorem q257_6_eq : comp p6 q257_5 = q257_6 := by decide +kernel

def q257_7 : List Nat := [1377613053, 2274740595, 3057964237, 3549962096, 1199856932, 3279658359, 2013219257,
  2942469802, 800208326, 1911381292, 1461936580, 4029287051, 3653797289, 2331451732, 1892857995, 793473862, 499904743,
  1467292582, 1333635554, 1769294767, 2166101986, 1062814842, 3092049808, 2168345382, 2957682567, 48015622,
  3827808707, 3195357068, 652703743, 3038521886, 3487678572, 2516420008]

theorem q257_7_eq : comp p7 q257_6 = q257_7 := by decide +kernel

def q257_8 : List Nat := [3425548984, 1281425745, 3640908762, 1911287890, 3051811219, 3726989860, 4053734214,
  1116018876, 1124086881, 3420707059, 220053848, 2805622733, 2305297602, 1529607050, 3832219864, 3639130018,
  2792643007, 2296890278, 1560900787, 3166495547, 2920276706, 1732828782, 4121567491, 3935440844, 479451595,
  2227623034, 4117549730, 2791021433, 2049437214, 1166345323, 194233103, 1388839031]

theorem q257_8_eq : comp p16 q257_7 = q257_8 := by decide +kernel

def q257_9 : List Nat := [946440746, 2034634251, 2766486255, 1443066025, 733247058, 3944322024, 1751746186, 584261583,
  2027838243, 3966939075, 4223747359, 3539859677, 4185739590, 1813987072, 1565752104, 3239205201, 3053296550,
  3225551632, 2480553982, 3827140833, 864534818, 2717870286, 3729144334, 1742108050, 2535089024, 2726662203,
  3054430274, 4150774740, 1487556325, 4204783004, 3063481122, 217717064]

theorem q257_9_eq : comp p17 q257_8 = q257_9 := by decide +kernel

def q257_10 : List Nat := [608036481, 2130372544, 1301231144, 2823493501, 2454665108, 708602131, 4010262003,
  1029951972, 1726173677, 2978577083, 3719709659, 2439689247, 2196387322, 593451592, 1839951779, 1087662270,
  2482835583, 3305801480, 2818703821, 2651462513, 4064189791, 3278618912, 197226815, 2325772330, 2668106014,
  799933690, 840007784, 1702732219, 3318174782, 416914411, 1661292669, 2948544726]

theorem q257_10_eq : comp p18 q257_9 = q257_10 := by decide +kernel

def q257_11 : List Nat := [1335836507, 2776861473, 273544893, 2625885216, 2923088210, 1963121988, 2490609067,
  1132302512, 2096097088, 3470837863, 3657439992, 2704779401, 514082038, 336712861, 2554791393, 2630442035,
  3173655546, 3291926644, 2289652163, 3785934969, 2988639694, 2075481049, 2340395716, 3983063236, 1590542110,
  3548383821, 4083297810, 1488888143, 1817462682, 3489337841, 814718873, 3345186454]

theorem q257_11_eq : comp p19 q257_10 = q257_11 := by decide +kernel

def q257_12 : List Nat := [3783620728, 3255347449, 3743735592, 2043553875, 729389015, 1813243836, 1052288273,
  3505281485, 2090971996, 1851060578, 1042218422, 2061439117, 2247072217, 2226004737, 3669828979, 4249658445,
  2670817182, 1319575609, 2532901976, 333882793, 779646688, 3189253248, 2951790750, 875398580, 822281548, 524246301,
  280101745, 3061181467, 1740212465, 16636897, 2151456883, 4010196895]

theorem q257_12_eq : comp p20 q257_11 = q257_12 := by decide +kernel

def q257_13 : List Nat := [1639053503, 3685944485, 3826583996, 2400310990, 3450878871, 2839323901, 982766606,
  2677618791, 1861036505, 1463254586, 3572953140, 3390219330, 1169870647, 1585820315, 3250840283, 571606517,
  1007613421, 1791176472, 476587189, 3728407814, 3102341795, 3509830544, 2858178241, 155383675, 392366198, 689173353,
  3402102541, 3885937899, 1540992570, 1989370982, 2715454013, 3973874994]

theorem q257_13_eq : comp p21 q257_12 = q257_13 := by decide +kernel

def q257_14 : List Nat := [453058516, 945394482, 729394269, 4239259751, 1149090491, 3637054394, 2246300329,
  1441835671, 2385901663, 4176022254, 1815577801, 3743470505, 3413276226, 2046855345, 1249480364, 31260612,
  1553802489, 2480045169, 2655218262, 3121011898, 3219627690, 428026774, 2062556836, 1501527931, 2536241218,
  118648897, 1205662701, 2478732577, 1730460712, 3857932964, 2574511587, 415936306]

theorem q257_14_eq : comp p22 q257_13 = q257_14 := by decide +kernel

def q257_15 : List Nat := [4155664621, 2594750411, 2644509501, 3881338030, 1200488546, 1909345036, 2860141818,
  3675358007, 2103818334, 1600927119, 3110324851, 81290363, 2408297880, 2228863036, 2290794595, 3151514172,
  1466543653, 3240725056, 3992502567, 2671412817, 3629358120, 3275637917, 678816655, 3101347666, 3898864338,
  2472628603, 2781722971, 3579054685, 3512197465, 3992913011, 4200529733, 1008179615]

theorem q257_15_eq : comp p23 q257_14 = q257_15 := by decide +kernel

def inv257 : List Nat := [1940479401, 668616311, 607776604, 3685168204, 1129029766, 648810898, 3303171155, 235886680,
  3828553010, 2674952864, 3259775758, 1952802776, 3122666590, 807405955, 2074935119, 10541013, 2953885123, 3744595128,
  1051926783, 353530678, 151549380, 394224902, 2319156462, 238374970, 180587326, 3341967654, 1264618217, 3233456239,
  2630374898, 2982569044, 4209708186, 2989590033]

theorem inv257_eq : (List.range 32).map (fun i => app inv257 (app q257_15 (2 ^ i) ^^^ 2 ^ i)) =
    (List.range 32).map (fun i => 2 ^ i) := by decide +kernel

def q65537_1 : List Nat := [2647435461, 697882754, 1395765508, 2791531049, 3385215700, 2476479912, 891888216,
  1783776432, 3559173411, 2824460870, 1352873100, 2705746233, 1108145680, 2216291360, 137615424, 275230881, 542065952,
  3306070149, 2552023042, 1998232476, 3996464921, 3706341968, 3116635296, 1939384640, 3878769280, 3462571297,
  2631256642, 732568972, 1465137977, 2921878032, 1547707424, 2861646152]

theorem q65537_1_eq : comp p1 p0 = q65537_1 := by decide +kernel

def q65537_2 : List Nat := [632435482, 3895821145, 3270159353, 4176006140, 4162540934, 3448392061, 2393482765,
  1222732520, 1358176490, 433326401, 3968329581, 1758580421, 3904436761, 4278288284, 1538450238, 3629765467,
  3042568161, 3598756899, 247470409, 1856088028, 931124249, 3459600672, 413649968, 1497455810, 4122030620, 3977113864,
  3385265103, 4240198272, 2529469540, 4165010856, 1951360288, 3032542240]

theorem q65537_2_eq : comp p2 q65537_1 = q65537_2 := by decide +kernel

def q65537_3 : List Nat := [87470069, 52840766, 1727581326, 4186715589, 2038156914, 2384428114, 2090088328,
  3634088622, 2108673357, 3619626483, 3194469896, 1122786805, 3285157788, 1665036679, 3901812484, 2862408494,
  3989168056, 848562274, 567490449, 488569420, 2259726708, 4031235727, 24986476, 1026364645, 734628843, 2176980903,
  1154576202, 3121080914, 1792795141, 2092299848, 985135825, 902167723]

theorem q65537_3_eq : comp p3 q65537_2 = q65537_3 := by decide +kernel

def q65537_4 : List Nat := [57526103, 3897644995, 3630137249, 75081003, 4192503457, 3404177946, 219123854, 1323407901,
  3368892947, 3084207451, 2912572982, 2883285279, 1774060937, 540558119, 1936954894, 1537465965, 3303714120,
  686122469, 584715902, 28235060, 266268965, 588859285, 3766228555, 1254254935, 757014072, 769092805, 465512975,
  3004974934, 384783877, 530043512, 211297619, 4264682026]

theorem q65537_4_eq : comp p4 q65537_3 = q65537_4 := by decide +kernel

def q65537_5 : List Nat := [703511808, 2922552956, 94581155, 2406718385, 1975967125, 213018031, 1854856627,
  3763359649, 963808402, 1333268354, 2984454968, 2677298474, 1832133856, 1373319108, 3361403613, 352305744,
  2132414489, 2872462881, 1125216684, 1253556688, 3765948730, 3047585001, 3559209942, 2114940120, 1283077508,
  104192075, 2471420170, 1909717016, 1845846803, 2458055172, 1950107496, 3069398344]

theorem q65537_5_eq : comp p5 q65537_4 = q65537_5 := by decide +kernel

def q65537_6 : List Nat := [3038542234, 3977809985, 1591434062, 3376394257, 2836727694, 3032285392, 1378724579,
  2928197218, 1204399087, 1829011917, 1315899232, 964353070, 3921285774, 568804142, 1001747759, 3502300388,
  4214066063, 228714780, 1603112777, 2575923556, 2742127295, 2908220958, 4251826921, 2586634424, 197884094,
  4217751405, 726836361, 194575496, 289214960, 3014919298, 2949364773, 4200039939]

theorem q65537_6_eq : comp p6 q65537_5 = q65537_6 := by decide +kernel

def q65537_7 : List Nat := [1377613053, 2274740595, 3057964237, 3549962096, 1199856932, 3279658359, 2013219257,
  2942469802, 800208326, 1911381292, 1461936580, 4029287051, 3653797289, 2331451732, 1892857995, 793473862, 499904743,
  1467292582, 1333635554, 1769294767, 2166101986, 1062814842, 3092049808, 2168345382, 2957682567, 48015622,
  3827808707, 3195357068, 652703743, 3038521886, 3487678572, 2516420008]

theorem q65537_7_eq : comp p7 q65537_6 = q65537_7 := by decide +kernel

def q65537_8 : List Nat := [1541703692, 1737688571, 865077612, 2541097318, 1495340034, 2454879172, 3338137286,
  736841786, 62214425, 3388932162, 4050109728, 1211551514, 3600924380, 2557293542, 2168502220, 3889119335, 379413050,
  1602831694, 3348300432, 3263493948, 2595983171, 2086379758, 158200148, 2109368376, 184014535, 2404911254,
  3960424899, 905591719, 3563599170, 41659633, 1402672058, 123911701]

theorem q65537_8_eq : comp p8 q65537_7 = q65537_8 := by decide +kernel

def q65537_9 : List Nat := [4146665870, 939196964, 2566540725, 969005326, 2886019113, 4140582716, 999476863, 96026764,
  4163678689, 644137383, 2336518415, 4040225597, 511965547, 3209502432, 792165125, 11517637, 1186562477, 1332299439,
  3920003984, 2199134661, 1697682575, 3652714236, 3991693338, 588481777, 4243317967, 659904735, 3098788794,
  3983035364, 3396178532, 1777043230, 1705367078, 1773724096]

theorem q65537_9_eq : comp p9 q65537_8 = q65537_9 := by decide +kernel

def q65537_10 : List Nat := [287237699, 3261150377, 3360036384, 1105264882, 3813682406, 1586802003, 1149702166,
  2905433485, 3968613526, 598199591, 3153066544, 3701767728, 1962581187, 883820177, 239632062, 664110506, 2259518535,
  2958160522, 204388393, 4074170034, 406751558, 1976682894, 7550939, 3277355705, 2041254637, 1585455439, 1707341937,
  1384945607, 378781665, 3311253109, 2302047283, 190528543]

theorem q65537_10_eq : comp p10 q65537_9 = q65537_10 := by decide +kernel

def q65537_11 : List Nat := [3592801664, 178452388, 3815200560, 2708039711, 742959960, 3455374565, 1764763713,
  3182047218, 2755542487, 2834441619, 533903194, 3254115483, 3238530397, 3169023760, 4075753059, 3526497130,
  130471412, 1776540371, 974708095, 1340095977, 3042199128, 60984150, 3957130132, 835703892, 1389839372, 1048009191,
  2363236847, 127929864, 988360632, 3740326756, 1520150562, 3256384608]

theorem q65537_11_eq : comp p11 q65537_10 = q65537_11 := by decide +kernel

def q65537_12 : List Nat := [203799175, 2576405219, 1360693788, 1211245029, 1779253228, 3541049696, 3348060434,
  2819788369, 4206256584, 3720823984, 359139920, 3813465943, 142388952, 3212675959, 2394674255, 3470040187,
  2504999617, 484456209, 3047026701, 720817179, 1017435142, 2853534030, 133442622, 491734514, 1311877591, 3968610751,
  3212100546, 227150569, 1918000637, 4097472332, 2491458466, 714525689]

theorem q65537_12_eq : comp p12 q65537_11 = q65537_12 := by decide +kernel

def q65537_13 : List Nat := [332149557, 959200996, 3573989416, 1826122709, 66327591, 4081308177, 2208485204,
  181132872, 424074106, 131147102, 305392071, 963113380, 3811837689, 1475486973, 491913080, 3687034663, 3104432645,
  2598973914, 2542542905, 3342064852, 2843058894, 2573912366, 3508913912, 1699057390, 829919284, 1682634041,
  1424863358, 1727090571, 2551972092, 1977026697, 1303038737, 4040116919]

theorem q65537_13_eq : comp p13 q65537_12 = q65537_13 := by decide +kernel

def q65537_14 : List Nat := [2828946536, 3717558895, 199684505, 489647751, 476994211, 3888979086, 2929123287,
  3539774838, 1339305833, 582952011, 3774034790, 1287814553, 26636664, 1260889778, 2979992517, 4192334487, 2579416120,
  2564220570, 1191712405, 3394332062, 1335458667, 608480302, 3643063914, 4244029029, 703804030, 1662219188,
  2473754568, 1304980316, 1389979859, 1119850448, 3325800361, 1304127595]

theorem q65537_14_eq : comp p14 q65537_13 = q65537_14 := by decide +kernel

def q65537_15 : List Nat := [1691782510, 4195379929, 4207044984, 369915709, 3613951219, 722206377, 2944830989,
  3017573842, 3670745944, 3485086816, 690627219, 440656205, 2735875683, 755626704, 1779949279, 2723300873, 3176585136,
  249353193, 2026728612, 564929783, 2701642221, 4094259613, 1626699445, 3766106188, 1808962547, 850552440, 1907813774,
  1753296811, 481411673, 1999453127, 1957086838, 4176678172]

theorem q65537_15_eq : comp p15 q65537_14 = q65537_15 := by decide +kernel

def inv65537 : List Nat := [331728430, 2488218541, 1209385696, 682878283, 839817293, 1408035726, 4013029473,
  4095696576, 1033618122, 2301755989, 769798078, 4185028050, 2663489015, 2683529367, 4136185144, 2950586883,
  1578865829, 2816851372, 349201241, 3096975940, 3937016935, 2625434786, 2636012314, 211073125, 3311055944,
  1920044434, 2025742764, 2060168078, 4064662879, 1177042686, 3953608156, 586778632]

theorem inv65537_eq : (List.range 32).map (fun i => app inv65537 (app q65537_15 (2 ^ i) ^^^ 2 ^ i)) =
    (List.range 32).map (fun i => 2 ^ i) := by decide +kernel

theorem pow_p0 : Pow p0 1 := pow_step p0_eq

theorem pow_p1 : Pow p1 2 := pow_comp pow_p0 pow_p0 p1_eq (by omega)

theorem pow_p2 : Pow p2 4 := pow_comp pow_p1 pow_p1 p2_eq (by omega)

theorem pow_p3 : Pow p3 8 := pow_comp pow_p2 pow_p2 p3_eq (by omega)

theorem pow_p4 : Pow p4 16 := pow_comp pow_p3 pow_p3 p4_eq (by omega)

theorem pow_p5 : Pow p5 32 := pow_comp pow_p4 pow_p4 p5_eq (by omega)

theorem pow_p6 : Pow p6 64 := pow_comp pow_p5 pow_p5 p6_eq (by omega)

theorem pow_p7 : Pow p7 128 := pow_comp pow_p6 pow_p6 p7_eq (by omega)

theorem pow_p8 : Pow p8 256 := pow_comp pow_p7 pow_p7 p8_eq (by omega)

theorem pow_p9 : Pow p9 512 := pow_comp pow_p8 pow_p8 p9_eq (by omega)

theorem pow_p10 : Pow p10 1024 := pow_comp pow_p9 pow_p9 p10_eq (by omega)

theorem pow_p11 : Pow p11 2048 := pow_comp pow_p10 pow_p10 p11_eq (by omega)

theorem pow_p12 : Pow p12 4096 := pow_comp pow_p11 pow_p11 p12_eq (by omega)

theorem pow_p13 : Pow p13 8192 := pow_comp pow_p12 pow_p12 p13_eq (by omega)

theorem pow_p14 : Pow p14 16384 := pow_comp pow_p13 pow_p13 p14_eq (by omega)

theorem pow_p15 : Pow p15 32768 := pow_comp pow_p14 pow_p14 p15_eq (by omega)

theorem pow_p16 : Pow p16 65536 := pow_comp pow_p15 pow_p15 p16_eq (by omega)

theorem pow_p17 : Pow p17 131072 := pow_comp pow_p16 pow_p16 p17_eq (by omega)

theorem pow_p18 : Pow p18 262144 := pow_comp pow_p17 pow_p17 p18_eq (by omega)

theorem pow_p19 : Pow p19 524288 := pow_comp pow_p18 pow_p18 p19_eq (by omega)

theorem pow_p20 : Pow p20 1048576 := pow_comp pow_p19 pow_p19 p20_eq (by omega)

theorem pow_p21 : Pow p21 2097152 := pow_comp pow_p20 pow_p20 p21_eq (by omega)

theorem pow_p22 : Pow p22 4194304 := pow_comp pow_p21 pow_p21 p22_eq (by omega)

theorem pow_p23 : Pow p23 8388608 := pow_comp pow_p22 pow_p22 p23_eq (by omega)

theorem pow_p24 : Pow p24 16777216 := pow_comp pow_p23 pow_p23 p24_eq (by omega)

theorem pow_p25 : Pow p25 33554432 := pow_comp pow_p24 pow_p24 p25_eq (by omega)

theorem pow_p26 : Pow p26 67108864 := pow_comp pow_p25 pow_p25 p26_eq (by omega)

theorem pow_p27 : Pow p27 134217728 := pow_comp pow_p26 pow_p26 p27_eq (by omega)

theorem pow_p28 : Pow p28 268435456 := pow_comp pow_p27 pow_p27 p28_eq (by omega)

theorem pow_p29 : Pow p29 536870912 := pow_comp pow_p28 pow_p28 p29_eq (by omega)

theorem pow_p30 : Pow p30 1073741824 := pow_comp pow_p29 pow_p29 p30_eq (by omega)

theorem pow_p31 : Pow p31 2147483648 := pow_comp pow_p30 pow_p30 p31_eq (by omega)

theorem pow_p32 : Pow p0 4294967296 := pow_comp pow_p31 pow_p31 p32_eq (by omega)

theorem pow_q3_1 : Pow q3_1 5 := pow_comp pow_p2 pow_p0 q3_1_eq (by omega)

theorem pow_q3_2 : Pow q3_2 21 := pow_comp pow_p4 pow_q3_1 q3_2_eq (by omega)

theorem pow_q3_3 : Pow q3_3 85 := pow_comp pow_p6 pow_q3_2 q3_3_eq (by omega)

theorem pow_q3_4 : Pow q3_4 341 := pow_comp pow_p8 pow_q3_3 q3_4_eq (by omega)

theorem pow_q3_5 : Pow q3_5 1365 := pow_comp pow_p10 pow_q3_4 q3_5_eq (by omega)

theorem pow_q3_6 : Pow q3_6 5461 := pow_comp pow_p12 pow_q3_5 q3_6_eq (by omega)

theorem pow_q3_7 : Pow q3_7 21845 := pow_comp pow_p14 pow_q3_6 q3_7_eq (by omega)

theorem pow_q3_8 : Pow q3_8 87381 := pow_comp pow_p16 pow_q3_7 q3_8_eq (by omega)

theorem pow_q3_9 : Pow q3_9 349525 := pow_comp pow_p18 pow_q3_8 q3_9_eq (by omega)

theorem pow_q3_10 : Pow q3_10 1398101 := pow_comp pow_p20 pow_q3_9 q3_10_eq (by omega)

theorem pow_q3_11 : Pow q3_11 5592405 := pow_comp pow_p22 pow_q3_10 q3_11_eq (by omega)

theorem pow_q3_12 : Pow q3_12 22369621 := pow_comp pow_p24 pow_q3_11 q3_12_eq (by omega)

theorem pow_q3_13 : Pow q3_13 89478485 := pow_comp pow_p26 pow_q3_12 q3_13_eq (by omega)

theorem pow_q3_14 : Pow q3_14 357913941 := pow_comp pow_p28 pow_q3_13 q3_14_eq (by omega)

theorem pow_q3_15 : Pow q3_15 1431655765 := pow_comp pow_p30 pow_q3_14 q3_15_eq (by omega)

theorem noFix_3 : NoFix 1431655765 := noFix pow_q3_15 inv3_eq

theorem pow_q5_1 : Pow q5_1 3 := pow_comp pow_p1 pow_p0 q5_1_eq (by omega)

theorem pow_q5_2 : Pow q5_2 19 := pow_comp pow_p4 pow_q5_1 q5_2_eq (by omega)

theorem pow_q5_3 : Pow q5_3 51 := pow_comp pow_p5 pow_q5_2 q5_3_eq (by omega)

theorem pow_q5_4 : Pow q5_4 307 := pow_comp pow_p8 pow_q5_3 q5_4_eq (by omega)

theorem pow_q5_5 : Pow q5_5 819 := pow_comp pow_p9 pow_q5_4 q5_5_eq (by omega)

theorem pow_q5_6 : Pow q5_6 4915 := pow_comp pow_p12 pow_q5_5 q5_6_eq (by omega)

theorem pow_q5_7 : Pow q5_7 13107 := pow_comp pow_p13 pow_q5_6 q5_7_eq (by omega)

theorem pow_q5_8 : Pow q5_8 78643 := pow_comp pow_p16 pow_q5_7 q5_8_eq (by omega)

theorem pow_q5_9 : Pow q5_9 209715 := pow_comp pow_p17 pow_q5_8 q5_9_eq (by omega)

theorem pow_q5_10 : Pow q5_10 1258291 := pow_comp pow_p20 pow_q5_9 q5_10_eq (by omega)

theorem pow_q5_11 : Pow q5_11 3355443 := pow_comp pow_p21 pow_q5_10 q5_11_eq (by omega)

theorem pow_q5_12 : Pow q5_12 20132659 := pow_comp pow_p24 pow_q5_11 q5_12_eq (by omega)

theorem pow_q5_13 : Pow q5_13 53687091 := pow_comp pow_p25 pow_q5_12 q5_13_eq (by omega)

theorem pow_q5_14 : Pow q5_14 322122547 := pow_comp pow_p28 pow_q5_13 q5_14_eq (by omega)

theorem pow_q5_15 : Pow q5_15 858993459 := pow_comp pow_p29 pow_q5_14 q5_15_eq (by omega)

theorem noFix_5 : NoFix 858993459 := noFix pow_q5_15 inv5_eq

theorem pow_q17_1 : Pow q17_1 3 := pow_comp pow_p1 pow_p0 q17_1_eq (by omega)

theorem pow_q17_2 : Pow q17_2 7 := pow_comp pow_p2 pow_q17_1 q17_2_eq (by omega)

theorem pow_q17_3 : Pow q17_3 15 := pow_comp pow_p3 pow_q17_2 q17_3_eq (by omega)

theorem pow_q17_4 : Pow q17_4 271 := pow_comp pow_p8 pow_q17_3 q17_4_eq (by omega)

theorem pow_q17_5 : Pow q17_5 783 := pow_comp pow_p9 pow_q17_4 q17_5_eq (by omega)

theorem pow_q17_6 : Pow q17_6 1807 := pow_comp pow_p10 pow_q17_5 q17_6_eq (by omega)

theorem pow_q17_7 : Pow q17_7 3855 := pow_comp pow_p11 pow_q17_6 q17_7_eq (by omega)

theorem pow_q17_8 : Pow q17_8 69391 := pow_comp pow_p16 pow_q17_7 q17_8_eq (by omega)

theorem pow_q17_9 : Pow q17_9 200463 := pow_comp pow_p17 pow_q17_8 q17_9_eq (by omega)

theorem pow_q17_10 : Pow q17_10 462607 := pow_comp pow_p18 pow_q17_9 q17_10_eq (by omega)

theorem pow_q17_11 : Pow q17_11 986895 := pow_comp pow_p19 pow_q17_10 q17_11_eq (by omega)

theorem pow_q17_12 : Pow q17_12 17764111 := pow_comp pow_p24 pow_q17_11 q17_12_eq (by omega)

theorem pow_q17_13 : Pow q17_13 51318543 := pow_comp pow_p25 pow_q17_12 q17_13_eq (by omega)

theorem pow_q17_14 : Pow q17_14 118427407 := pow_comp pow_p26 pow_q17_13 q17_14_eq (by omega)

theorem pow_q17_15 : Pow q17_15 252645135 := pow_comp pow_p27 pow_q17_14 q17_15_eq (by omega)

theorem noFix_17 : NoFix 252645135 := noFix pow_q17_15 inv17_eq

theorem pow_q257_1 : Pow q257_1 3 := pow_comp pow_p1 pow_p0 q257_1_eq (by omega)

theorem pow_q257_2 : Pow q257_2 7 := pow_comp pow_p2 pow_q257_1 q257_2_eq (by omega)

theorem pow_q257_3 : Pow q257_3 15 := pow_comp pow_p3 pow_q257_2 q257_3_eq (by omega)

theorem pow_q257_4 : Pow q257_4 31 := pow_comp pow_p4 pow_q257_3 q257_4_eq (by omega)

theorem pow_q257_5 : Pow q257_5 63 := pow_comp pow_p5 pow_q257_4 q257_5_eq (by omega)

theorem pow_q257_6 : Pow q257_6 127 := pow_comp pow_p6 pow_q257_5 q257_6_eq (by omega)

theorem pow_q257_7 : Pow q257_7 255 := pow_comp pow_p7 pow_q257_6 q257_7_eq (by omega)

theorem pow_q257_8 : Pow q257_8 65791 := pow_comp pow_p16 pow_q257_7 q257_8_eq (by omega)

theorem pow_q257_9 : Pow q257_9 196863 := pow_comp pow_p17 pow_q257_8 q257_9_eq (by omega)

theorem pow_q257_10 : Pow q257_10 459007 := pow_comp pow_p18 pow_q257_9 q257_10_eq (by omega)

theorem pow_q257_11 : Pow q257_11 983295 := pow_comp pow_p19 pow_q257_10 q257_11_eq (by omega)

theorem pow_q257_12 : Pow q257_12 2031871 := pow_comp pow_p20 pow_q257_11 q257_12_eq (by omega)

theorem pow_q257_13 : Pow q257_13 4129023 := pow_comp pow_p21 pow_q257_12 q257_13_eq (by omega)

theorem pow_q257_14 : Pow q257_14 8323327 := pow_comp pow_p22 pow_q257_13 q257_14_eq (by omega)

theorem pow_q257_15 : Pow q257_15 16711935 := pow_comp pow_p23 pow_q257_14 q257_15_eq (by omega)

theorem noFix_257 : NoFix 16711935 := noFix pow_q257_15 inv257_eq

theorem pow_q65537_1 : Pow q65537_1 3 := pow_comp pow_p1 pow_p0 q65537_1_eq (by omega)

theorem pow_q65537_2 : Pow q65537_2 7 := pow_comp pow_p2 pow_q65537_1 q65537_2_eq (by omega)

theorem pow_q65537_3 : Pow q65537_3 15 := pow_comp pow_p3 pow_q65537_2 q65537_3_eq (by omega)

theorem pow_q65537_4 : Pow q65537_4 31 := pow_comp pow_p4 pow_q65537_3 q65537_4_eq (by omega)

theorem pow_q65537_5 : Pow q65537_5 63 := pow_comp pow_p5 pow_q65537_4 q65537_5_eq (by omega)

theorem pow_q65537_6 : Pow q65537_6 127 := pow_comp pow_p6 pow_q65537_5 q65537_6_eq (by omega)

theorem pow_q65537_7 : Pow q65537_7 255 := pow_comp pow_p7 pow_q65537_6 q65537_7_eq (by omega)

theorem pow_q65537_8 : Pow q65537_8 511 := pow_comp pow_p8 pow_q65537_7 q65537_8_eq (by omega)

theorem pow_q65537_9 : Pow q65537_9 1023 := pow_comp pow_p9 pow_q65537_8 q65537_9_eq (by omega)

theorem pow_q65537_10 : Pow q65537_10 2047 := pow_comp pow_p10 pow_q65537_9 q65537_10_eq (by omega)

theorem pow_q65537_11 : Pow q65537_11 4095 := pow_comp pow_p11 pow_q65537_10 q65537_11_eq (by omega)

theorem pow_q65537_12 : Pow q65537_12 8191 := pow_comp pow_p12 pow_q65537_11 q65537_12_eq (by omega)

theorem pow_q65537_13 : Pow q65537_13 16383 := pow_comp pow_p13 pow_q65537_12 q65537_13_eq (by omega)

theorem pow_q65537_14 : Pow q65537_14 32767 := pow_comp pow_p14 pow_q65537_13 q65537_14_eq (by omega)

theorem pow_q65537_15 : Pow q65537_15 65535 := pow_comp pow_p15 pow_q65537_14 q65537_15_eq (by omega)

theorem noFix_65537 : NoFix 65535 := noFix pow_q65537_15 inv65537_eq

end MLRL.XorShift.Cert
