/-! # Tables for the temperature derivatives of natural gas

Bounds that the kernel checks in `Lemmas/NgHeat`; no claim rests on them before that. -/

namespace Aga8.Detail.Ng

def aWt1 : List Nat := [1539, 1606, 1673, 1740, 1807, 1874, 1941, 2009, 2076, 2143, 2210, 2277, 2344, 2412, 2479, 2546, 2614, 2681, 2749,
  2816, 2884, 2952, 3020, 3088, 3156, 3225, 3294, 3363, 3432, 3501, 3571, 3642, 3713, 3784, 3856, 3928, 4001, 4075, 4150, 4225, 4302,
  4379, 4458, 4538, 4619, 4701, 4785, 4871, 4959, 5048, 5140, 5234, 5331, 5430, 5532, 5637, 5745, 5856, 5972, 6091, 6215, 6343, 6475,
  6613, 6756, 6905, 7061, 7222, 7391, 7566, 7750, 7942, 8142, 8352, 8571, 8801, 9042, 9295, 9560, 9839, 10131, 10440, 10764, 11107, 11469,
  11852, 12258, 12689, 13149, 13640, 14166, 14732, 15344, 16007, 16730, 17522, 18394, 19360, 20436, 21642, 23001, 24542, 26299, 28313,
  30632, 33316, 36434, 40071, 44326, 49319, 55191, 62111, 70278, 79931, 91349, 104864, 120868, 139822, 162268, 188846, 220306, 257525,
  301535, 353540, 414945, 487393, 572797, 673381, 791736, 930865, 1094254, 1285942, 1510601, 1773633, 2081277, 2440726, 2860270, 3349452,
  3919243, 4582247, 5352926, 6247860, 7286039, 8489190, 9882148, 11493279, 13354947, 15504044, 17982590, 20838401, 24125839]
def eWt10 : List Nat := [0, 1693, 15268, 8916, 20751, 46807, 51535, 70576, 77934, 106279, 61721, 75516, 90773, 107670, 4483, 1325, 2381,
  39799, 10594, 0, 0]
def eWt11 : List Nat := [1693, 3410, 15872, 7470, 13200, 24216, 29326, 36004, 39468, 40742, 50112, 60412, 71757, 84288, 4757, 2919, 4055,
  30668, 8367, 3920, 1668]
def eWt12 : List Nat := [15268, 15872, 89694, 18171, 103520, 129179, 136255, 82188, 160872, 162328, 178537, 194078, 208987, 223329,
  13567, 17880, 52274, 481242, 83447, 21317, 16093]
def eWt13 : List Nat := [8916, 7470, 18171, 39272, 87535, 144439, 181698, 223970, 262751, 253876, 309819, 400971, 473848, 554023, 6994,
  9026, 9233, 101967, 48628, 8941, 6750]
def eWt14 : List Nat := [20751, 13200, 103520, 87535, 153721, 253163, 314451, 410515, 440375, 434803, 561534, 713937, 832810, 962586,
  10804, 18241, 17066, 862814, 125022, 15313, 14955]
def eWt15 : List Nat := [46807, 24216, 129179, 144439, 253163, 412104, 466886, 594391, 629150, 690408, 808488, 1008557, 1158986, 1421107,
  17433, 35629, 29561, 1237584, 219610, 27831, 30725]
def eWt16 : List Nat := [51535, 29326, 136255, 181698, 314451, 466886, 527362, 668265, 705755, 777647, 975947, 1127082, 1387530, 1578705,
  19323, 38683, 33965, 1384891, 254773, 29425, 36160]
def eWt17 : List Nat := [70576, 36004, 82188, 223970, 410515, 594391, 668265, 839641, 951486, 980076, 1219719, 1503401, 1712616, 1939445,
  22470, 51901, 44434, 1847362, 337758, 34692, 48816]
def eWt18 : List Nat := [77934, 39468, 160872, 262751, 440375, 629150, 705755, 951486, 998405, 1112555, 1378264, 1575971, 1920917,
  2169294, 24593, 61154, 48581, 1943637, 394670, 38310, 53906]
def eWt19 : List Nat := [106279, 40742, 162328, 253876, 434803, 690408, 777647, 980076, 1112555, 1133554, 1414229, 1745435, 1992752,
  2260519, 19321, 52648, 45082, 2122437, 411590, 29173, 49090]
def eWt110 : List Nat := [61721, 50112, 178537, 309819, 561534, 808488, 975947, 1219719, 1378264, 1414229, 1750548, 2146198, 2438014,
  2753372, 22418, 70624, 55314, 2613843, 499680, 33987, 61550]
def eWt111 : List Nat := [75516, 60412, 194078, 400971, 713937, 1008557, 1127082, 1503401, 1575971, 1745435, 2146198, 2443767, 2958077,
  3327720, 25050, 85893, 71777, 3188152, 642020, 37275, 75327]
def eWt112 : List Nat := [90773, 71757, 208987, 473848, 832810, 1158986, 1387530, 1712616, 1920917, 1992752, 2438014, 2958077, 3334227,
  3994818, 27606, 102785, 85266, 3613108, 755408, 41550, 90567]
def eWt113 : List Nat := [107670, 84288, 223329, 554023, 962586, 1421107, 1578705, 1939445, 2169294, 2260519, 2753372, 3327720, 3994818,
  4466460, 30619, 121494, 92744, 4342647, 945695, 45663, 107670]
def eWt114 : List Nat := [4483, 4757, 13567, 6994, 10804, 17433, 19323, 22470, 24593, 19321, 22418, 25050, 27606, 30619, 34660, 4235,
  5466, 21925, 7665, 6920, 2629]
def eWt115 : List Nat := [1325, 2919, 17880, 9026, 18241, 35629, 38683, 51901, 61154, 52648, 70624, 85893, 102785, 121494, 4235, 2567,
  3585, 94599, 12312, 2819, 1258]
def eWt116 : List Nat := [2381, 4055, 52274, 9233, 17066, 29561, 33965, 44434, 48581, 45082, 55314, 71777, 85266, 92744, 5466, 3585,
  4696, 78899, 12071, 5490, 2329]
def eWt117 : List Nat := [39799, 30668, 481242, 101967, 862814, 1237584, 1384891, 1847362, 1943637, 2122437, 2613843, 3188152, 3613108,
  4342647, 21925, 94599, 78899, 9917611251, 24034917, 31254, 89131]
def eWt118 : List Nat := [10594, 8367, 83447, 48628, 125022, 219610, 254773, 337758, 394670, 411590, 499680, 642020, 755408, 945695,
  7665, 12312, 12071, 24034917, 673707, 9595, 9371]
def eWt119 : List Nat := [0, 3920, 21317, 8941, 15313, 27831, 29425, 34692, 38310, 29173, 33987, 37275, 41550, 45663, 6920, 2819, 5490,
  31254, 9595, 0, 0]
def eWt120 : List Nat := [0, 1668, 16093, 6750, 14955, 30725, 36160, 48816, 53906, 49090, 61550, 75327, 90567, 107670, 2629, 1258, 2329,
  89131, 9371, 0, 0]
def eWt1 : List (List Nat) := [eWt10, eWt11, eWt12, eWt13, eWt14, eWt15, eWt16, eWt17, eWt18, eWt19, eWt110, eWt111, eWt112,
  eWt113, eWt114, eWt115, eWt116, eWt117, eWt118, eWt119, eWt120]
def gamW1 : List Nat := [44561, 44561, 80971, 113792, 182852, 290918, 290919, 400935, 400937, 949241, 949234, 949237, 949239, 949242,
  44561, 44561, 44561, 79280, 90906, 44561, 44561]
def aWt2 : List Nat := [1, 34, 68, 101, 135, 168, 202, 235, 269, 303, 336, 370, 404, 438, 472, 506, 540, 574, 609, 643, 678, 714, 749,
  785, 822, 858, 896, 934, 973, 1013, 1053, 1095, 1137, 1181, 1227, 1274, 1323, 1373, 1426, 1481, 1539, 1600, 1663, 1730, 1801, 1876,
  1955, 2038, 2127, 2221, 2321, 2428, 2542, 2663, 2792, 2930, 3077, 3234, 3401, 3580, 3771, 3976, 4194, 4427, 4675, 4941, 5225, 5528,
  5851, 6196, 6565, 6959, 7379, 7829, 8309, 8823, 9374, 9964, 10598, 11280, 12015, 12809, 13670, 14607, 15630, 16752, 17989, 19361, 20890,
  22606, 24543, 26745, 29262, 32159, 35514, 39421, 43995, 49376, 55735, 63278, 72253, 82963, 95772, 111117, 129527, 151635, 178201,
  210134, 248521, 294660, 350098, 416673, 496571, 592385, 707185, 844603, 1008928, 1205219, 1439433, 1718577, 2050880, 2445994, 2915226,
  3471803, 4131180, 4911392, 5833456, 6921839, 8204989, 9715939, 11493007, 13580589, 16030065, 18900828, 22261466, 26191094, 30780873,
  36135739, 42376353, 49641322, 58089707, 67903857, 79292621, 92494967, 107784063, 125471885, 145914401, 169517402, 196743066, 228117323,
  264238131]
def eWt20 : List Nat := [0, 1809, 43012, 27164, 71262, 172045, 188968, 268300, 296275, 438419, 226319, 282192, 345081, 415747, 2534,
  1878, 2727, 125544, 33416, 0, 0]
def eWt21 : List Nat := [1809, 2543, 33281, 13817, 29145, 59624, 79073, 101427, 111185, 132194, 167488, 207466, 252612, 303505, 2456,
  2751, 3189, 75511, 16499, 1961, 1475]
def eWt22 : List Nat := [43012, 33281, 338902, 66630, 419290, 517690, 546785, 289331, 645571, 663833, 730121, 793675, 854642, 913297,
  10671, 44023, 201844, 2032099, 326636, 10664, 39622]
def eWt23 : List Nat := [27164, 13817, 66630, 153798, 363952, 604338, 769743, 953911, 1123882, 1095163, 1341381, 1747045, 2070227,
  2425829, 4772, 23220, 20387, 399330, 194878, 4473, 16619]
def eWt24 : List Nat := [71262, 29145, 419290, 363952, 654714, 1088250, 1361436, 1788001, 1918733, 1904369, 2469480, 3150455, 3680868,
  4260635, 7372, 55574, 46015, 3828162, 532479, 7664, 43878]
def eWt25 : List Nat := [172045, 59624, 517690, 604338, 1088250, 1790156, 2033526, 2602588, 2755575, 3041988, 3568410, 4464112, 5136743,
  6312266, 18785, 115603, 83277, 5503359, 944021, 13933, 96921]
def eWt26 : List Nat := [188968, 79073, 546785, 769743, 1361436, 2033526, 2303294, 2932745, 3098088, 3432287, 4319770, 4995342, 6163122,
  7019448, 22135, 125984, 99656, 6164107, 1099033, 14732, 117327]
def eWt27 : List Nat := [268300, 101427, 289331, 953911, 1788001, 2602588, 2932745, 3699523, 4198713, 4338050, 5412455, 6684623, 7621980,
  8638866, 16758, 178239, 140163, 8241067, 1467203, 17376, 167643]
def eWt28 : List Nat := [296275, 111185, 645571, 1123882, 1918733, 2755575, 3098088, 4198713, 4406644, 4930957, 6121964, 7008116,
  8556337, 9670256, 18341, 215285, 153244, 8670546, 1719595, 19187, 185122]
def eWt29 : List Nat := [438419, 132194, 663833, 1095163, 1904369, 3041988, 3432287, 4338050, 4930957, 5035662, 6294010, 7780778,
  8889649, 10090798, 15299, 189575, 150676, 9484787, 1806304, 14619, 176763]
def eWt210 : List Nat := [226319, 167488, 730121, 1341381, 2469480, 3568410, 4319770, 5412455, 6121964, 6294010, 7803573, 9579741,
  10888932, 12304320, 18664, 263909, 189958, 11692347, 2197460, 17032, 226233]
def eWt211 : List Nat := [282192, 207466, 793675, 1747045, 3150455, 4464112, 4995342, 6684623, 7008116, 7780778, 9579741, 10915399,
  13225925, 14885693, 22153, 326531, 257773, 14272641, 2833673, 18693, 282097]
def eWt212 : List Nat := [345081, 252612, 854642, 2070227, 3680868, 5136743, 6163122, 7621980, 8556337, 8889649, 10888932, 13225925,
  14914800, 17883900, 26012, 396888, 312654, 16181106, 3339377, 20837, 344979]
def eWt213 : List Nat := [415747, 303505, 913297, 2425829, 4260635, 6312266, 7019448, 8638866, 9670256, 10090798, 12304320, 14885693,
  17883900, 20002796, 30568, 475801, 340890, 19460437, 4191413, 22900, 415747]
def eWt214 : List Nat := [2534, 2456, 10671, 4772, 7372, 18785, 22135, 16758, 18341, 15299, 18664, 22153, 26012, 30568, 165333, 2187,
  2844, 22069, 5017, 3460, 1358]
def eWt215 : List Nat := [1878, 2751, 44023, 23220, 55574, 115603, 125984, 178239, 215285, 189575, 263909, 326531, 396888, 475801, 2187,
  2941, 3378, 375246, 37509, 1410, 1356]
def eWt216 : List Nat := [2727, 3189, 201844, 20387, 46015, 83277, 99656, 140163, 153244, 150676, 189958, 257773, 312654, 340890, 2844,
  3378, 3910, 299942, 32547, 2745, 2195]
def eWt217 : List Nat := [125544, 75511, 2032099, 399330, 3828162, 5503359, 6164107, 8241067, 8670546, 9484787, 11692347, 14272641,
  16181106, 19460437, 22069, 375246, 299942, 117499445690, 210606537, 15688, 353031]
def eWt218 : List Nat := [33416, 16499, 326636, 194878, 532479, 944021, 1099033, 1467203, 1719595, 1806304, 2197460, 2833673, 3339377,
  4191413, 5017, 37509, 32547, 210606537, 5384000, 4802, 27494]
def eWt219 : List Nat := [0, 1961, 10664, 4473, 7664, 13933, 14732, 17376, 19187, 14619, 17032, 18693, 20837, 22900, 3460, 1410, 2745,
  15688, 4802, 0, 0]
def eWt220 : List Nat := [0, 1475, 39622, 16619, 43878, 96921, 117327, 167643, 185122, 176763, 226233, 282097, 344979, 415747, 1358,
  1356, 2195, 353031, 27494, 0, 0]
def eWt2 : List (List Nat) := [eWt20, eWt21, eWt22, eWt23, eWt24, eWt25, eWt26, eWt27, eWt28, eWt29, eWt210, eWt211, eWt212,
  eWt213, eWt214, eWt215, eWt216, eWt217, eWt218, eWt219, eWt220]
def gamW2 : List Nat := [46197, 46197, 146326, 203146, 397245, 763245, 763243, 1168908, 1168911, 3697369, 3697360, 3697342, 3697341,
  3697365, 46197, 46197, 46197, 190916, 177497, 46197, 46197]

end Aga8.Detail.Ng
