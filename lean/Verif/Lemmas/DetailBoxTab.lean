import Verif.Lemmas.DetailBoxIv

/-! # Tables of bounds for methane

Written by a program. Everything is checked in `Lemmas/DetailBoxChk`, so an error in a table would show up there. `sTab` are the
ends of the temperature intervals, in units of 0.001 of `sqrt (E / T)`; `rTab` are the ends of the density intervals, in units of
0.001 of the reduced density. `stripTab` bounds the temperature factors, the `row` tables bound the density factors, in units of
1e-6. `boxTab` bounds the compression factor, the pressure derivative and the ratio of the sum of sizes to the sum of the terms
on each rectangle, in units of 0.001. `cellTab` has, for each interval of starting densities, the window, the smallest slope and
the largest ratio, and the first and last density interval of the window. -/

namespace Aga8.Detail

def sTab : List ℕ := [500, 513, 526, 539, 552, 565, 578, 591, 604, 617, 630, 643, 656, 665, 674, 683,
    692, 701, 710, 719, 728, 737, 746, 755, 764, 773, 782, 791, 800, 809, 818, 827,
    836, 845, 854, 863, 872]

def rTab : List ℕ := [0, 15, 30, 45, 60, 75, 90, 95, 101, 107, 113, 120, 127, 134, 142, 150,
    159, 168, 178, 188, 199, 210, 222, 235, 248, 262, 277, 293, 310, 328, 347, 367,
    388, 410, 433, 457, 483, 510, 539, 569, 601, 635, 670]

def stripTab_0 : List (ℤ × ℤ) :=
  [(35223, 92232), (1900, 4102), (-238, -214), (85147, 87362), (770, 1380), (-1, 0),
    (-235, -172), (0, 1), (10910, 11267), (2731, 3042), (-1, 1), (-1422, -1349),
    (-2, 0), (0, 1), (271, 293), (38, 47), (243, 284), (-323, -306)]
def stripTab_1 : List (ℤ × ℤ) :=
  [(12080, 70115), (1677, 4116), (-263, -237), (84902, 87055), (1294, 2026), (-1, 0),
    (-317, -234), (0, 1), (11266, 11605), (3041, 3382), (-1, 1), (-1494, -1421),
    (-3, -1), (0, 1), (292, 316), (46, 58), (283, 330), (-340, -322)]
def stripTab_2 : List (ℤ × ℤ) :=
  [(-12090, 46972), (1369, 4066), (-290, -262), (84715, 86810), (1913, 2790), (-1, 0),
    (-425, -316), (0, 1), (11604, 11927), (3381, 3758), (-1, 1), (-1569, -1493),
    (-4, -2), (0, 1), (315, 340), (57, 70), (329, 382), (-357, -339)]
def stripTab_3 : List (ℤ × ℤ) :=
  [(-37290, 22801), (962, 3939), (-319, -289), (84581, 86622), (2643, 3688), (-1, 0),
    (-565, -424), (0, 1), (11926, 12234), (3757, 4172), (-1, 1), (-1646, -1568),
    (-6, -3), (0, 1), (339, 365), (69, 85), (381, 441), (-374, -356)]
def stripTab_4 : List (ℤ × ℤ) :=
  [(-63520, -2398), (443, 3723), (-350, -318), (84498, 86489), (3497, 4739), (-1, 0),
    (-747, -564), (0, 1), (12233, 12527), (4171, 4631), (-1, 1), (-1724, -1645),
    (-9, -5), (0, 1), (364, 392), (84, 102), (440, 507), (-392, -373)]
def stripTab_5 : List (ℤ × ℤ) :=
  [(-90784, -28629), (-205, 3403), (-384, -349), (84461, 86405), (4492, 5963), (-1, 0),
    (-982, -746), (0, 1), (12526, 12806), (4630, 5143), (-1, 1), (-1804, -1723),
    (-13, -8), (0, 1), (391, 419), (101, 122), (506, 581), (-410, -391)]
def stripTab_6 : List (ℤ × ℤ) :=
  [(-119084, -55893), (-997, 2964), (-419, -382), (84467, 86368), (5647, 7383), (-1, 0),
    (-1282, -981), (0, 1), (12805, 13073), (5142, 5716), (-1, 1), (-1887, -1803),
    (-19, -12), (0, 1), (418, 448), (121, 146), (580, 664), (-429, -409)]
def stripTab_7 : List (ℤ × ℤ) :=
  [(-148422, -84192), (-1953, 2390), (-457, -418), (84515, 86375), (6980, 9024), (-1, 0),
    (-1664, -1281), (0, 1), (13072, 13329), (5715, 6361), (-1, 1), (-1970, -1886),
    (-28, -18), (0, 2), (447, 478), (145, 174), (663, 757), (-448, -428)]
def stripTab_8 : List (ℤ × ℤ) :=
  [(-178800, -113530), (-3092, 1663), (-498, -456), (84600, 86422), (8512, 10912), (-1, 0),
    (-2149, -1663), (0, 1), (13328, 13574), (6360, 7093), (-1, 1), (-2056, -1969),
    (-41, -27), (1, 2), (477, 510), (173, 206), (756, 860), (-468, -447)]
def stripTab_9 : List (ℤ × ℤ) :=
  [(-210224, -143909), (-4434, 763), (-541, -496), (84721, 86508), (10265, 13076), (-1, 0),
    (-2759, -2148), (0, 1), (13573, 13809), (7092, 7928), (-1, 1), (-2144, -2055),
    (-60, -40), (1, 3), (509, 543), (205, 243), (859, 974), (-487, -467)]
def stripTab_10 : List (ℤ × ℤ) :=
  [(-242694, -175332), (-6004, -331), (-586, -539), (84876, 86629), (12263, 15546), (-1, 0),
    (-3526, -2758), (0, 1), (13808, 14034), (7927, 8887), (-1, 1), (-2233, -2143),
    (-86, -59), (2, 4), (542, 577), (242, 286), (973, 1101), (-508, -486)]
def stripTab_11 : List (ℤ × ℤ) :=
  [(-276216, -207802), (-7825, -1642), (-634, -583), (85063, 86784), (14529, 18354), (-1, 0),
    (-4483, -3525), (0, 1), (14033, 14251), (8886, 9998), (-1, 1), (-2324, -2232),
    (-124, -85), (3, 5), (576, 613), (285, 336), (1100, 1242), (-528, -507)]
def stripTab_12 : List (ℤ × ℤ) :=
  [(-294674, -246692), (-8541, -3942), (-669, -631), (85503, 86677), (17319, 20327), (-1, 0),
    (-5279, -4482), (0, 1), (14250, 14396), (9997, 10873), (-1, 1), (-2388, -2323),
    (-158, -123), (4, 6), (612, 638), (335, 374), (1241, 1347), (-543, -527)]
def stripTab_13 : List (ℤ × ℤ) :=
  [(-319006, -270517), (-10076, -5201), (-705, -666), (85664, 86824), (19312, 22648), (-1, 0),
    (-6203, -5278), (0, 1), (14395, 14537), (10872, 11848), (-1, 1), (-2454, -2387),
    (-201, -157), (5, 7), (637, 664), (373, 417), (1346, 1460), (-558, -542)]
def stripTab_14 : List (ℤ × ℤ) :=
  [(-343847, -294850), (-11761, -6598), (-742, -701), (85837, 86984), (21470, 25166), (-1, 0),
    (-7273, -6202), (0, 1), (14536, 14674), (11847, 12940), (-1, 1), (-2519, -2453),
    (-255, -200), (6, 9), (663, 691), (416, 463), (1459, 1581), (-573, -557)]
def stripTab_15 : List (ℤ × ℤ) :=
  [(-369199, -319691), (-13608, -8143), (-781, -737), (86023, 87158), (23804, 27894), (-1, 0),
    (-8510, -7272), (0, 1), (14673, 14808), (12939, 14164), (-1, 1), (-2586, -2518),
    (-323, -254), (8, 11), (690, 719), (462, 515), (1580, 1711), (-588, -572)]
def stripTab_16 : List (ℤ × ℤ) :=
  [(-395062, -345042), (-15627, -9845), (-820, -774), (86222, 87344), (26321, 30843), (-1, 0),
    (-9938, -8509), (0, 1), (14807, 14938), (14163, 15542), (-1, 1), (-2654, -2585),
    (-407, -322), (10, 13), (718, 747), (514, 571), (1710, 1848), (-603, -587)]
def stripTab_17 : List (ℤ × ℤ) :=
  [(-421439, -370906), (-17828, -11714), (-860, -812), (86432, 87543), (29031, 34027), (-1, 0),
    (-11582, -9937), (0, 1), (14937, 15065), (15541, 17095), (-1, 2), (-2723, -2653),
    (-512, -406), (12, 16), (746, 777), (570, 632), (1847, 1995), (-619, -602)]
def stripTab_18 : List (ℤ × ℤ) :=
  [(-448331, -397282), (-20223, -13763), (-901, -850), (86653, 87753), (31941, 37456), (-1, 0),
    (-13471, -11581), (0, 1), (15064, 15189), (17094, 18850), (-1, 3), (-2792, -2722),
    (-642, -511), (15, 20), (776, 806), (631, 699), (1994, 2152), (-635, -618)]
def stripTab_19 : List (ℤ × ℤ) :=
  [(-475740, -424175), (-22825, -16002), (-942, -887), (86886, 87974), (35061, 41143), (-1, 0),
    (-15640, -13470), (0, 1), (15188, 15310), (18849, 20837), (-1, 4), (-2862, -2791),
    (-803, -641), (19, 24), (805, 837), (698, 772), (2151, 2319), (-651, -634)]
def stripTab_20 : List (ℤ × ℤ) :=
  [(-503669, -451584), (-25645, -18443), (-984, -925), (87128, 88206), (38397, 45099), (-1, 0),
    (-18125, -15639), (0, 1), (15309, 15427), (20836, 23091), (-2, 7), (-2934, -2861),
    (-1002, -802), (23, 29), (836, 868), (771, 851), (2318, 2496), (-667, -650)]
def stripTab_21 : List (ℤ × ℤ) :=
  [(-532120, -479513), (-28697, -21099), (-1025, -962), (87381, 88449), (41956, 49336), (-1, 0),
    (-20967, -18124), (0, 1), (15426, 15542), (23090, 25651), (-4, 11), (-3006, -2933),
    (-1246, -1001), (28, 35), (867, 901), (850, 938), (2495, 2685), (-683, -666)]
def stripTab_22 : List (ℤ × ℤ) :=
  [(-561094, -507964), (-31994, -23982), (-1065, -997), (87643, 88702), (45745, 53865), (-1, 0),
    (-24212, -20966), (0, 1), (15541, 15655), (25650, 28561), (-6, 18), (-3079, -3005),
    (-1546, -1245), (34, 42), (900, 934), (937, 1033), (2684, 2885), (-700, -682)]
def stripTab_23 : List (ℤ × ℤ) :=
  [(-590595, -536938), (-35551, -27107), (-1104, -1029), (87915, 88964), (49768, 58696), (-1, 0),
    (-27911, -24211), (0, 2), (15654, 15764), (28560, 31873), (-11, 29), (-3152, -3078),
    (-1914, -1545), (41, 51), (933, 967), (1032, 1135), (2884, 3097), (-717, -699)]
def stripTab_24 : List (ℤ × ℤ) :=
  [(-620623, -566438), (-39381, -30486), (-1141, -1058), (88196, 89236), (54029, 63839), (-2, 0),
    (-32123, -27910), (1, 3), (15763, 15871), (31872, 35645), (-19, 47), (-3227, -3151),
    (-2363, -1913), (50, 61), (966, 1002), (1134, 1247), (3096, 3323), (-734, -716)]
def stripTab_25 : List (ℤ × ℤ) :=
  [(-651184, -596467), (-43501, -34136), (-1173, -1082), (88486, 89517), (58531, 69302), (-3, -1),
    (-36910, -32122), (2, 4), (15870, 15976), (35644, 39944), (-34, 75), (-3303, -3226),
    (-2910, -2362), (60, 74), (1001, 1037), (1246, 1368), (3322, 3562), (-751, -733)]
def stripTab_26 : List (ℤ × ℤ) :=
  [(-682277, -627027), (-47925, -38070), (-1201, -1099), (88784, 89806), (63273, 75092), (-4, -2),
    (-42342, -36909), (3, 6), (15975, 16078), (39943, 44845), (-60, 120), (-3379, -3302),
    (-3575, -2909), (73, 88), (1036, 1074), (1367, 1499), (3561, 3815), (-768, -750)]
def stripTab_27 : List (ℤ × ℤ) :=
  [(-713908, -658121), (-52672, -42305), (-1223, -1107), (89090, 90104), (68255, 81215), (-6, -3),
    (-48499, -42341), (5, 10), (16077, 16178), (44844, 50434), (-105, 192), (-3456, -3378),
    (-4383, -3574), (87, 106), (1073, 1111), (1498, 1641), (3814, 4083), (-786, -767)]
def stripTab_28 : List (ℤ × ℤ) :=
  [(-746078, -689752), (-57756, -46857), (-1235, -1103), (89404, 90411), (73473, 87675), (-10, -5),
    (-55468, -48498), (9, 15), (16177, 16275), (50433, 56806), (-183, 304), (-3535, -3455),
    (-5360, -4382), (105, 126), (1110, 1148), (1640, 1794), (4082, 4366), (-803, -785)]
def stripTab_29 : List (ℤ × ℤ) :=
  [(-778791, -721922), (-63197, -51744), (-1235, -1084), (89725, 90725), (78919, 94474), (-15, -9),
    (-63343, -55467), (14, 23), (16274, 16371), (56805, 64072), (-314, 478), (-3614, -3534),
    (-6541, -5359), (125, 151), (1147, 1187), (1793, 1960), (4365, 4666), (-821, -802)]
def stripTab_30 : List (ℤ × ℤ) :=
  [(-812050, -754635), (-69012, -56982), (-1221, -1046), (90054, 91046), (84586, 101612), (-23, -14),
    (-72231, -63342), (22, 37), (16370, 16464), (64071, 72355), (-537, 748), (-3694, -3613),
    (-7965, -6540), (150, 179), (1186, 1227), (1959, 2140), (4665, 4983), (-840, -820)]
def stripTab_31 : List (ℤ × ℤ) :=
  [(-845858, -787894), (-75221, -62590), (-1187, -983), (90390, 91375), (90459, 109084), (-37, -22),
    (-82249, -72230), (36, 58), (16463, 16556), (72354, 81794), (-912, 1161), (-3774, -3693),
    (-9678, -7964), (178, 213), (1226, 1267), (2139, 2333), (4982, 5317), (-858, -839)]
def stripTab_32 : List (ℤ × ℤ) :=
  [(-880220, -821702), (-81843, -68587), (-1128, -888), (90734, 91711), (96523, 116885), (-57, -36),
    (-93527, -82248), (57, 90), (16555, 16645), (81793, 92547), (-1538, 1791), (-3856, -3773),
    (-11736, -9677), (212, 253), (1266, 1309), (2332, 2542), (5316, 5670), (-876, -857)]
def stripTab_33 : List (ℤ × ℤ) :=
  [(-915137, -856063), (-88899, -74992), (-1038, -755), (91083, 92054), (102754, 125005), (-89, -56),
    (-106206, -93526), (89, 140), (16644, 16733), (92546, 104790), (-2575, 2742), (-3939, -3855),
    (-14201, -11735), (252, 299), (1308, 1351), (2541, 2766), (5669, 6042), (-895, -875)]
def stripTab_34 : List (ℤ × ℤ) :=
  [(-950616, -890981), (-96409, -81827), (-910, -572), (91439, 92404), (109128, 133428), (-138, -88),
    (-120444, -106205), (139, 218), (16732, 16819), (104789, 118721), (-4285, 4168), (-4022, -3938),
    (-17150, -14200), (298, 354), (1350, 1394), (2765, 3008), (6041, 6434), (-914, -894)]
def stripTab_35 : List (ℤ × ℤ) :=
  [(-986658, -926460), (-104396, -89111), (-732, -329), (91802, 92760), (115612, 142137), (-213, -137),
    (-136412, -120443), (217, 337), (16818, 16903), (118720, 134564), (-7084, 6292), (-4106, -4021),
    (-20672, -17149), (353, 418), (1393, 1438), (3007, 3269), (6433, 6847), (-933, -913)]
def stripTab : List (List (ℤ × ℤ)) :=
  [stripTab_0, stripTab_1, stripTab_2, stripTab_3, stripTab_4, stripTab_5, stripTab_6, stripTab_7,
    stripTab_8, stripTab_9, stripTab_10, stripTab_11, stripTab_12, stripTab_13, stripTab_14, stripTab_15,
    stripTab_16, stripTab_17, stripTab_18, stripTab_19, stripTab_20, stripTab_21, stripTab_22, stripTab_23,
    stripTab_24, stripTab_25, stripTab_26, stripTab_27, stripTab_28, stripTab_29, stripTab_30, stripTab_31,
    stripTab_32, stripTab_33, stripTab_34, stripTab_35]

def stripAbs_0 : List ℤ :=
  [1670064, 18874, 238, 87362, 4821, 1, 235, 1, 39002, 3042, 1, 1422, 2, 1, 293, 47,
    284, 323]
def stripAbs_1 : List ℤ :=
  [1733025, 21313, 263, 87055, 5553, 1, 317, 1, 38646, 3382, 1, 1494, 3, 1, 316, 58,
    330, 340]
def stripAbs_2 : List ℤ :=
  [1797532, 24009, 290, 86810, 6428, 1, 425, 1, 38308, 3758, 1, 1569, 4, 1, 340, 70,
    382, 357]
def stripAbs_3 : List ℤ :=
  [1863632, 26985, 319, 86622, 7472, 1, 565, 1, 37986, 4172, 1, 1646, 6, 1, 365, 85,
    441, 374]
def stripAbs_4 : List ℤ :=
  [1931374, 30264, 351, 86489, 8713, 1, 747, 1, 37679, 4631, 1, 1724, 9, 1, 392, 102,
    507, 392]
def stripAbs_5 : List ℤ :=
  [2000809, 33871, 384, 86405, 10183, 1, 982, 1, 37386, 5143, 1, 1804, 13, 1, 419, 122,
    581, 410]
def stripAbs_6 : List ℤ :=
  [2071992, 37831, 420, 86368, 11919, 1, 1282, 1, 37107, 5716, 1, 1887, 19, 1, 448, 146,
    664, 429]
def stripAbs_7 : List ℤ :=
  [2144981, 42173, 458, 86375, 13963, 1, 1664, 1, 36839, 6361, 1, 1970, 28, 2, 478, 174,
    757, 448]
def stripAbs_8 : List ℤ :=
  [2219840, 46927, 499, 86422, 16362, 1, 2149, 1, 36584, 7093, 1, 2056, 41, 2, 510, 206,
    860, 468]
def stripAbs_9 : List ℤ :=
  [2296633, 52123, 543, 86508, 19172, 1, 2759, 1, 36339, 7928, 1, 2144, 60, 3, 543, 243,
    974, 487]
def stripAbs_10 : List ℤ :=
  [2375432, 57795, 589, 86629, 22454, 1, 3526, 1, 36104, 8887, 1, 2233, 86, 4, 577, 286,
    1101, 508]
def stripAbs_11 : List ℤ :=
  [2456309, 63977, 639, 86784, 26278, 1, 4483, 1, 35878, 9998, 1, 2324, 124, 5, 613, 336,
    1242, 528]
def stripAbs_12 : List ℤ :=
  [2513560, 68575, 676, 86677, 29286, 1, 5279, 1, 35662, 10873, 1, 2388, 158, 6, 638, 374,
    1347, 543]
def stripAbs_13 : List ℤ :=
  [2571871, 73449, 715, 86824, 32620, 1, 6203, 1, 35517, 11848, 1, 2454, 201, 7, 664, 417,
    1460, 558]
def stripAbs_14 : List ℤ :=
  [2631273, 78611, 755, 86984, 36315, 1, 7273, 1, 35376, 12940, 1, 2519, 255, 9, 691, 463,
    1581, 573]
def stripAbs_15 : List ℤ :=
  [2691793, 84075, 798, 87158, 40404, 1, 8510, 1, 35239, 14164, 2, 2586, 323, 11, 719, 515,
    1711, 588]
def stripAbs_16 : List ℤ :=
  [2753464, 89856, 843, 87344, 44925, 1, 9938, 1, 35105, 15542, 2, 2654, 407, 13, 747, 571,
    1848, 603]
def stripAbs_17 : List ℤ :=
  [2816316, 95969, 890, 87543, 49920, 1, 11582, 1, 34975, 17095, 4, 2723, 512, 16, 777, 632,
    1995, 619]
def stripAbs_18 : List ℤ :=
  [2880383, 102428, 941, 87753, 55433, 1, 13471, 1, 34848, 18850, 7, 2792, 642, 20, 806, 699,
    2152, 635]
def stripAbs_19 : List ℤ :=
  [2945699, 109250, 995, 87974, 61513, 1, 15640, 1, 34724, 20837, 11, 2862, 803, 24, 837, 772,
    2319, 651]
def stripAbs_20 : List ℤ :=
  [3012301, 116451, 1053, 88206, 68214, 1, 18125, 1, 34603, 23091, 19, 2934, 1002, 29, 868, 851,
    2496, 667]
def stripAbs_21 : List ℤ :=
  [3080225, 124048, 1115, 88449, 75593, 1, 20967, 1, 34485, 25651, 33, 3006, 1246, 35, 901, 938,
    2685, 683]
def stripAbs_22 : List ℤ :=
  [3149512, 132059, 1182, 88702, 83712, 1, 24212, 1, 34370, 28561, 56, 3079, 1546, 42, 934, 1033,
    2885, 700]
def stripAbs_23 : List ℤ :=
  [3220201, 140502, 1256, 88964, 92639, 1, 27911, 2, 34258, 31873, 95, 3152, 1914, 51, 967, 1135,
    3097, 717]
def stripAbs_24 : List ℤ :=
  [3292335, 149396, 1338, 89236, 102448, 2, 32123, 3, 34149, 35645, 160, 3227, 2363, 61, 1002, 1247,
    3323, 734]
def stripAbs_25 : List ℤ :=
  [3365959, 158760, 1428, 89517, 113218, 3, 36910, 4, 34042, 39944, 268, 3303, 2910, 74, 1037, 1368,
    3562, 751]
def stripAbs_26 : List ℤ :=
  [3441119, 168614, 1529, 89806, 125036, 4, 42342, 6, 33937, 44845, 448, 3379, 3575, 88, 1074, 1499,
    3815, 768]
def stripAbs_27 : List ℤ :=
  [3517864, 178979, 1644, 90104, 137995, 6, 48499, 10, 33835, 50434, 744, 3456, 4383, 106, 1111, 1641,
    4083, 786]
def stripAbs_28 : List ℤ :=
  [3596246, 189877, 1774, 90411, 152196, 10, 55468, 15, 33735, 56806, 1230, 3535, 5360, 126, 1148, 1794,
    4366, 803]
def stripAbs_29 : List ℤ :=
  [3676319, 201329, 1924, 90725, 167750, 15, 63343, 23, 33637, 64072, 2021, 3614, 6541, 151, 1187, 1960,
    4666, 821]
def stripAbs_30 : List ℤ :=
  [3758140, 213359, 2098, 91046, 184775, 23, 72231, 37, 33542, 72355, 3306, 3694, 7965, 179, 1227, 2140,
    4983, 840]
def stripAbs_31 : List ℤ :=
  [3841771, 225990, 2301, 91375, 203398, 37, 82249, 58, 33448, 81794, 5378, 3774, 9678, 213, 1267, 2333,
    5317, 858]
def stripAbs_32 : List ℤ :=
  [3927277, 239246, 2540, 91711, 223760, 57, 93527, 90, 33357, 92547, 8705, 3856, 11736, 253, 1309, 2542,
    5670, 876]
def stripAbs_33 : List ℤ :=
  [4014727, 253152, 2822, 92054, 246010, 89, 106206, 140, 33267, 104790, 14021, 3939, 14201, 299, 1351, 2766,
    6042, 895]
def stripAbs_34 : List ℤ :=
  [4104197, 267734, 3159, 92404, 270309, 138, 120444, 218, 33180, 118721, 22473, 4022, 17150, 354, 1394, 3008,
    6434, 914]
def stripAbs_35 : List ℤ :=
  [4195768, 283018, 3561, 92760, 296834, 213, 136412, 337, 33094, 134564, 35848, 4106, 20672, 418, 1438, 3269,
    6847, 933]
def stripAbs : List (List ℤ) :=
  [stripAbs_0, stripAbs_1, stripAbs_2, stripAbs_3, stripAbs_4, stripAbs_5, stripAbs_6, stripAbs_7,
    stripAbs_8, stripAbs_9, stripAbs_10, stripAbs_11, stripAbs_12, stripAbs_13, stripAbs_14, stripAbs_15,
    stripAbs_16, stripAbs_17, stripAbs_18, stripAbs_19, stripAbs_20, stripAbs_21, stripAbs_22, stripAbs_23,
    stripAbs_24, stripAbs_25, stripAbs_26, stripAbs_27, stripAbs_28, stripAbs_29, stripAbs_30, stripAbs_31,
    stripAbs_32, stripAbs_33, stripAbs_34, stripAbs_35]

def rowZ_0 : List (ℤ × ℤ) :=
  [(0, 15000), (0, 15000), (0, 15000), (0, 450), (0, 450), (0, 450),
    (0, 11), (0, 11), (0, 1), (0, 1), (0, 1), (0, 1),
    (0, 1), (0, 1), (0, 1), (0, 1), (0, 1), (0, 1)]
def rowZ_1 : List (ℤ × ℤ) :=
  [(15000, 30000), (14959, 29980), (14999, 30000), (450, 1800), (449, 1800), (449, 1800),
    (10, 81), (10, 81), (0, 4), (0, 4), (0, 4), (0, 1),
    (0, 1), (0, 1), (0, 1), (0, 1), (0, 1), (0, 1)]
def rowZ_2 : List (ℤ × ℤ) :=
  [(30000, 45000), (29818, 44879), (29999, 45000), (1800, 4050), (1792, 4043), (1799, 4050),
    (80, 273), (80, 274), (3, 17), (3, 17), (3, 17), (0, 1),
    (0, 1), (0, 1), (0, 1), (0, 1), (0, 1), (0, 1)]
def rowZ_3 : List (ℤ × ℤ) :=
  [(45000, 60000), (44515, 59637), (44997, 59999), (4050, 7200), (4020, 7171), (4049, 7200),
    (271, 646), (273, 648), (16, 52), (16, 52), (16, 52), (0, 4),
    (0, 4), (0, 4), (0, 1), (0, 1), (0, 1), (0, 1)]
def rowZ_4 : List (ℤ × ℤ) :=
  [(60000, 75000), (58992, 74193), (59990, 74996), (7200, 11250), (7119, 11170), (7199, 11250),
    (641, 1259), (647, 1266), (51, 127), (51, 126), (51, 127), (3, 12),
    (3, 12), (3, 12), (0, 2), (0, 1), (0, 1), (0, 1)]
def rowZ_5 : List (ℤ × ℤ) :=
  [(75000, 90000), (73189, 88489), (74975, 89986), (11250, 16200), (11068, 16019), (11247, 16199),
    (1248, 2167), (1265, 2187), (126, 263), (125, 261), (126, 263), (11, 30),
    (11, 30), (11, 30), (1, 4), (0, 1), (0, 1), (0, 1)]
def rowZ_6 : List (ℤ × ℤ) :=
  [(90000, 95000), (87581, 92708), (89963, 94969), (16200, 18050), (15909, 17760), (16196, 18047),
    (2154, 2538), (2186, 2572), (262, 326), (258, 322), (262, 326), (29, 39),
    (29, 39), (29, 39), (3, 5), (0, 1), (0, 1), (0, 1)]
def rowZ_7 : List (ℤ × ℤ) :=
  [(95000, 101000), (92117, 98286), (94950, 100959), (18050, 20402), (17684, 20037), (18044, 20398),
    (2528, 3045), (2571, 3091), (325, 417), (320, 411), (325, 417), (38, 53),
    (38, 52), (38, 53), (4, 7), (0, 1), (0, 1), (0, 1)]
def rowZ_8 : List (ℤ × ℤ) :=
  [(101000, 107000), (97563, 103754), (100933, 106945), (20402, 22898), (19938, 22435), (20393, 22891),
    (3032, 3614), (3089, 3675), (416, 525), (409, 517), (416, 525), (52, 71),
    (51, 70), (52, 71), (6, 10), (0, 2), (0, 1), (0, 1)]
def rowZ_9 : List (ℤ × ℤ) :=
  [(107000, 113000), (102944, 109156), (106912, 112926), (22898, 25538), (22318, 24959), (22886, 25528),
    (3597, 4247), (3673, 4328), (524, 653), (514, 642), (524, 653), (70, 93),
    (68, 91), (70, 93), (9, 13), (1, 2), (0, 1), (0, 1)]
def rowZ_10 : List (ℤ × ℤ) :=
  [(113000, 120000), (108176, 115452), (112882, 119903), (25538, 28800), (24810, 28072), (25522, 28786),
    (4225, 5075), (4326, 5183), (652, 830), (638, 814), (651, 830), (92, 125),
    (90, 123), (92, 125), (12, 18), (1, 3), (0, 1), (0, 1)]
def rowZ_11 : List (ℤ × ℤ) :=
  [(120000, 127000), (114271, 121579), (119843, 126869), (28800, 32258), (27882, 31339), (28777, 32238),
    (5046, 6000), (5180, 6143), (829, 1041), (809, 1019), (829, 1041), (124, 166),
    (121, 162), (124, 166), (17, 26), (2, 4), (0, 1), (0, 1)]
def rowZ_12 : List (ℤ × ℤ) :=
  [(127000, 134000), (120260, 127603), (126795, 133826), (32258, 35912), (31115, 34768), (32226, 35884),
    (5963, 7027), (6140, 7214), (1040, 1290), (1012, 1259), (1039, 1290), (165, 217),
    (161, 212), (165, 216), (25, 35), (3, 6), (0, 1), (0, 1)]
def rowZ_13 : List (ℤ × ℤ) :=
  [(134000, 142000), (126029, 134465), (133727, 141772), (35912, 40328), (34485, 38900), (35868, 40290),
    (6979, 8337), (7211, 8584), (1289, 1627), (1251, 1584), (1288, 1626), (216, 289),
    (210, 282), (215, 289), (34, 50), (5, 8), (0, 2), (0, 1)]
def rowZ_14 : List (ℤ × ℤ) :=
  [(142000, 150000), (132592, 141078), (141640, 149696), (40328, 45000), (38543, 43213), (40266, 44946),
    (8272, 9790), (8579, 10116), (1626, 2025), (1572, 1965), (1624, 2024), (288, 380),
    (279, 370), (288, 380), (49, 69), (7, 12), (1, 2), (0, 1)]
def rowZ_15 : List (ℤ × ℤ) :=
  [(150000, 159000), (138860, 148467), (149520, 158598), (45000, 50562), (42767, 48325), (44913, 50486),
    (9705, 11614), (10109, 12045), (2025, 2557), (1949, 2472), (2022, 2554), (379, 509),
    (366, 493), (379, 508), (68, 97), (11, 18), (1, 4), (0, 1)]
def rowZ_16 : List (ℤ × ℤ) :=
  [(159000, 168000), (145849, 155524), (158367, 167464), (50562, 56448), (47767, 53648), (50441, 56340),
    (11502, 13637), (12036, 14204), (2556, 3187), (2450, 3068), (2552, 3183), (508, 670),
    (488, 646), (507, 669), (96, 135), (17, 26), (3, 5), (0, 1)]
def rowZ_17 : List (ℤ × ℤ) :=
  [(168000, 178000), (152446, 163279), (167157, 177292), (56448, 63368), (52954, 59866), (56278, 63217),
    (13490, 16139), (14191, 16888), (3186, 4016), (3038, 3849), (3179, 4010), (669, 894),
    (640, 859), (667, 893), (134, 191), (25, 39), (4, 8), (0, 2)]
def rowZ_18 : List (ℤ × ℤ) :=
  [(178000, 188000), (159673, 170596), (176889, 187058), (63368, 70688), (59005, 66314), (63130, 70476),
    (15946, 18905), (16869, 19888), (4015, 4997), (3807, 4765), (4005, 4987), (893, 1175),
    (850, 1124), (891, 1173), (190, 265), (37, 56), (7, 12), (1, 3)]
def rowZ_19 : List (ℤ × ℤ) :=
  [(188000, 199000), (166388, 178511), (186527, 197759), (70688, 79202), (65252, 73750), (70355, 78906),
    (18654, 22284), (19861, 23573), (4996, 6273), (4707, 5949), (4981, 6258), (1174, 1561),
    (1110, 1485), (1170, 1557), (264, 373), (55, 83), (11, 19), (2, 5)]
def rowZ_20 : List (ℤ × ℤ) :=
  [(199000, 210000), (173620, 185860), (197068, 208356), (79202, 88200), (72442, 81419), (78740, 87786),
    (21956, 26000), (23534, 27682), (6272, 7780), (5869, 7330), (6248, 7755), (1560, 2043),
    (1466, 1932), (1554, 2037), (372, 515), (81, 120), (18, 29), (4, 7)]
def rowZ_21 : List (ℤ × ℤ) :=
  [(210000, 222000), (180197, 193687), (207455, 219846), (88200, 98568), (79820, 90157), (87558, 97994),
    (25577, 30484), (27625, 32675), (7779, 9716), (7222, 9092), (7741, 9678), (2042, 2697),
    (1905, 2535), (2033, 2687), (514, 719), (118, 176), (28, 45), (6, 12)]
def rowZ_22 : List (ℤ × ℤ) :=
  [(222000, 235000), (186869, 201650), (218623, 232153), (98568, 110450), (88121, 99957), (97668, 109647),
    (29916, 35844), (32590, 38714), (9715, 12200), (8939, 11327), (9656, 12141), (2696, 3584),
    (2494, 3344), (2681, 3568), (718, 1011), (173, 261), (44, 70), (11, 19)]
def rowZ_23 : List (ℤ × ℤ) :=
  [(235000, 248000), (193799, 208756), (230570, 244229), (110450, 123008), (97473, 109971), (109200, 121886),
    (35109, 41707), (38591, 45435), (12199, 15131), (11118, 13923), (12107, 15039), (3583, 4691),
    (3286, 4341), (3559, 4665), (1010, 1396), (255, 377), (68, 107), (18, 30)]
def rowZ_24 : List (ℤ × ℤ) :=
  [(248000, 262000), (199758, 216066), (242181, 257062), (123008, 137288), (106963, 121159), (121275, 135735),
    (40768, 48656), (45257, 53480), (15130, 18848), (13642, 17179), (14988, 18706), (4690, 6173),
    (4259, 5662), (4650, 6131), (1395, 1941), (369, 549), (105, 165), (29, 49)]
def rowZ_25 : List (ℤ × ℤ) :=
  [(262000, 277000), (205411, 223118), (254328, 270502), (137288, 153458), (117391, 133443), (134875, 151298),
    (47412, 56808), (53216, 63064), (18847, 23550), (16786, 21233), (18627, 23329), (6172, 8154),
    (5541, 7404), (6107, 8086), (1940, 2711), (537, 802), (161, 255), (47, 80)]
def rowZ_26 : List (ℤ × ℤ) :=
  [(277000, 293000), (210563, 229718), (266859, 284421), (153458, 171698), (128742, 146816), (150085, 168681),
    (55166, 66313), (62671, 74430), (23549, 29481), (20684, 26256), (23204, 29135), (8153, 10798),
    (7226, 9693), (8046, 10684), (2710, 3797), (784, 1176), (249, 395), (77, 131)]
def rowZ_27 : List (ℤ × ℤ) :=
  [(293000, 310000), (214996, 235650), (279582, 298652), (171698, 192200), (140976, 161246), (166977, 187977),
    (64154, 77327), (73846, 87845), (29480, 36941), (25492, 32447), (28939, 36400), (10797, 14315),
    (9430, 12686), (10618, 14126), (3796, 5326), (1146, 1725), (385, 613), (127, 215)]
def rowZ_28 : List (ℤ × ℤ) :=
  [(310000, 328000), (218478, 240682), (292245, 312980), (192200, 215168), (154025, 176671), (185590, 209253),
    (74499, 90003), (86981, 103598), (36940, 46298), (31388, 40035), (36093, 45449), (14314, 18982),
    (12301, 16580), (14018, 18669), (5325, 7472), (1676, 2526), (596, 951), (208, 352)]
def rowZ_29 : List (ℤ × ℤ) :=
  [(328000, 347000), (220758, 244560), (304530, 327127), (215168, 240818), (167786, 192990), (205921, 232537),
    (86317, 104488), (102321, 121992), (46297, 57994), (38573, 49277), (44969, 56663), (18981, 25155),
    (16017, 21617), (18491, 24635), (7471, 10475), (2447, 3691), (921, 1470), (341, 576)]
def rowZ_30 : List (ℤ × ℤ) :=
  [(347000, 367000), (221570, 247014), (316034, 340741), (240818, 269378), (182117, 210064), (227908, 257803),
    (99710, 120917), (120114, 143333), (57993, 72565), (47270, 60460), (55917, 70484), (25154, 33289),
    (20799, 28092), (24343, 32430), (10474, 14661), (3563, 5374), (1420, 2264), (556, 938)]
def rowZ_31 : List (ℤ × ℤ) :=
  [(367000, 388000), (220639, 247761), (326251, 353376), (269378, 301088), (196833, 227706), (251405, 284948),
    (114757, 139401), (140588, 167921), (72564, 90654), (57720, 73896), (69330, 87410), (33288, 43968),
    (26910, 36357), (31952, 42551), (14660, 20472), (5167, 7788), (2179, 3471), (903, 1521)]
def rowZ_32 : List (ℤ × ℤ) :=
  [(388000, 410000), (217683, 246507), (334555, 364478), (301088, 336200), (211700, 245676), (276157, 313769),
    (131508, 160016), (163932, 196022), (90653, 113031), (70180, 89915), (85637, 107994), (43967, 57929),
    (34662, 46832), (41775, 55604), (20471, 28501), (7455, 11224), (3327, 5289), (1459, 2450)]
def rowZ_33 : List (ℤ × ℤ) :=
  [(410000, 433000), (212419, 242955), (340179, 373358), (336200, 374978), (226434, 263680), (301767, 343929),
    (149968, 182796), (190264, 227842), (113030, 140609), (84910, 108864), (105290, 132829), (57928, 76105),
    (44416, 60004), (54354, 72312), (28500, 39544), (10695, 16075), (5046, 8005), (2340, 3919)]
def rowZ_34 : List (ℤ × ℤ) :=
  [(433000, 457000), (204569, 236807), (342197, 379177), (374978, 417698), (240696, 281368), (327658, 374919),
    (170088, 207714), (219593, 263485), (140608, 174472), (102168, 131087), (128735, 162524), (76104, 99667),
    (56588, 76433), (70313, 93519), (39543, 54658), (15240, 22866), (7601, 12027), (3725, 6218)]
def rowZ_35 : List (ℤ × ℤ) :=
  [(457000, 483000), (192984, 228248), (338575, 381713), (417698, 466578), (253529, 299568), (352515, 407700),
    (191421, 236135), (251487, 304789), (174471, 217696), (122009, 158220), (156237, 199314), (99666, 131434),
    (71538, 97753), (90278, 121434), (54657, 76179), (21532, 32759), (11346, 18226), (5873, 9965)]
def rowZ_36 : List (ℤ × ℤ) :=
  [(483000, 510000), (178571, 215450), (329250, 377843), (466578, 520200), (266011, 315869), (377056, 439023),
    (215308, 266148), (287425, 349526), (217695, 270609), (145930, 189313), (189690, 242327), (131433, 172513),
    (90739, 123875), (116187, 156262), (76178, 105578), (30619, 46434), (17071, 27306), (9347, 15775)]
def rowZ_37 : List (ℤ × ℤ) :=
  [(510000, 539000), (159657, 199399), (310474, 367426), (520200, 581042), (275778, 331477), (397388, 469560),
    (239766, 299403), (324582, 399440), (270608, 337610), (172832, 226455), (227712, 294180), (172512, 227465),
    (113925, 157136), (147843, 201080), (105577, 147125), (43043, 66033), (25371, 41084), (14683, 25105)]
def rowZ_38 : List (ℤ × ℤ) :=
  [(539000, 569000), (137249, 178306), (281853, 346395), (581042, 647522), (283856, 343618), (413525, 494655),
    (266122, 333309), (363896, 450769), (337609, 419285), (204414, 268055), (272142, 352825), (227464, 298217),
    (143044, 197135), (187649, 255573), (147124, 203623), (60653, 92712), (37838, 60971), (23168, 39369)]
def rowZ_39 : List (ℤ × ℤ) :=
  [(569000, 601000), (109823, 153280), (238775, 314279), (647522, 722402), (287597, 353474), (420014, 514139),
    (291729, 369511), (400670, 504477), (419284, 521865), (238875, 316477), (319979, 420674), (298216, 392051),
    (177389, 246938), (234414, 323433), (203622, 282748), (84284, 130180), (55597, 90554), (35981, 61825)]
def rowZ_40 : List (ℤ × ℤ) :=
  [(601000, 635000), (77444, 122875), (178586, 266481), (722402, 806450), (287019, 359100), (414306, 523122),
    (317024, 406510), (433490, 556913), (521864, 650362), (277391, 371470), (371407, 496344), (392050, 516225),
    (218915, 307852), (289854, 405796), (282747, 393364), (116783, 182173), (81519, 134107), (55803, 96860)]
def rowZ_41 : List (ℤ × ℤ) :=
  [(635000, 670000), (41187, 86693), (100665, 199107), (806450, 897800), (282066, 358183), (393495, 514943),
    (341616, 441049), (459148, 600645), (650361, 806045), (320117, 430217), (424451, 573706), (516224, 675063),
    (268800, 378504), (353912, 499137), (393363, 542751), (161230, 250945), (119158, 195280), (86319, 149026)]
def rowZ : List (List (ℤ × ℤ)) :=
  [rowZ_0, rowZ_1, rowZ_2, rowZ_3, rowZ_4, rowZ_5, rowZ_6, rowZ_7,
    rowZ_8, rowZ_9, rowZ_10, rowZ_11, rowZ_12, rowZ_13, rowZ_14, rowZ_15,
    rowZ_16, rowZ_17, rowZ_18, rowZ_19, rowZ_20, rowZ_21, rowZ_22, rowZ_23,
    rowZ_24, rowZ_25, rowZ_26, rowZ_27, rowZ_28, rowZ_29, rowZ_30, rowZ_31,
    rowZ_32, rowZ_33, rowZ_34, rowZ_35, rowZ_36, rowZ_37, rowZ_38, rowZ_39,
    rowZ_40, rowZ_41]

def rowP_0 : List (ℤ × ℤ) :=
  [(0, 30000), (0, 30000), (0, 30000), (0, 1350), (0, 1350), (0, 1350),
    (0, 41), (0, 41), (0, 2), (0, 2), (0, 2), (0, 1),
    (0, 1), (0, 1), (0, 1), (0, 1), (0, 1), (0, 1)]
def rowP_1 : List (ℤ × ℤ) :=
  [(30000, 60000), (29838, 59920), (29999, 60000), (1350, 5400), (1345, 5396), (1349, 5400),
    (40, 324), (40, 324), (1, 17), (1, 17), (1, 17), (0, 1),
    (0, 1), (0, 1), (0, 1), (0, 1), (0, 1), (0, 1)]
def rowP_2 : List (ℤ × ℤ) :=
  [(60000, 90000), (59272, 89515), (59996, 89999), (5400, 12150), (5363, 12114), (5399, 12150),
    (322, 1092), (323, 1094), (16, 83), (16, 82), (16, 83), (0, 6),
    (0, 6), (0, 6), (0, 1), (0, 1), (0, 1), (0, 1)]
def rowP_3 : List (ℤ × ℤ) :=
  [(90000, 120000), (88064, 118546), (89982, 119993), (12150, 21600), (12004, 21455), (12148, 21600),
    (1083, 2579), (1093, 2592), (82, 260), (81, 259), (82, 260), (5, 24),
    (5, 24), (5, 24), (0, 2), (0, 1), (0, 1), (0, 1)]
def rowP_4 : List (ℤ × ℤ) :=
  [(120000, 150000), (115978, 146775), (119943, 149971), (21600, 33750), (21197, 33347), (21595, 33747),
    (2555, 5018), (2591, 5063), (259, 633), (256, 629), (259, 633), (23, 72),
    (23, 71), (23, 72), (1, 8), (0, 1), (0, 1), (0, 1)]
def rowP_5 : List (ℤ × ℤ) :=
  [(150000, 180000), (142783, 173968), (149852, 179915), (33750, 48600), (32846, 47695), (33734, 48590),
    (4960, 8626), (5060, 8747), (632, 1313), (622, 1297), (632, 1313), (71, 178),
    (70, 176), (71, 178), (7, 23), (0, 3), (0, 1), (0, 1)]
def rowP_6 : List (ℤ × ℤ) :=
  [(180000, 190000), (170362, 180860), (179780, 189814), (48600, 54150), (47151, 52701), (48572, 54126),
    (8552, 10082), (8744, 10286), (1312, 1630), (1287, 1602), (1311, 1629), (177, 233),
    (174, 229), (177, 233), (22, 31), (2, 4), (0, 1), (0, 1)]
def rowP_7 : List (ℤ × ℤ) :=
  [(190000, 202000), (178518, 191185), (189703, 201754), (54150, 61206), (52328, 59383), (54110, 61172),
    (10028, 12087), (10283, 12359), (1629, 2082), (1594, 2043), (1628, 2081), (232, 316),
    (227, 311), (232, 316), (30, 45), (3, 6), (0, 1), (0, 1)]
def rowP_8 : List (ℤ × ℤ) :=
  [(202000, 214000), (188320, 201068), (201602, 213667), (61206, 68694), (58898, 66384), (61149, 68644),
    (12013, 14330), (12356, 14694), (2081, 2622), (2031, 2566), (2080, 2621), (315, 421),
    (308, 413), (315, 421), (44, 64), (5, 9), (0, 2), (0, 1)]
def rowP_9 : List (ℤ × ℤ) :=
  [(214000, 226000), (197864, 210696), (213476, 225556), (68694, 76614), (65809, 73726), (68615, 76544),
    (14236, 16825), (14689, 17305), (2621, 3261), (2552, 3184), (2620, 3260), (420, 553),
    (410, 542), (420, 553), (63, 88), (8, 13), (1, 2), (0, 1)]
def rowP_10 : List (ℤ × ℤ) :=
  [(226000, 240000), (206821, 221904), (225297, 239414), (76614, 86400), (72991, 82772), (76502, 86302),
    (16699, 20082), (17298, 20721), (3260, 4148), (3163, 4038), (3258, 4145), (552, 747),
    (538, 729), (552, 747), (87, 126), (12, 20), (1, 4), (0, 1)]
def rowP_11 : List (ℤ × ℤ) :=
  [(240000, 254000), (217237, 232446), (239063, 253211), (86400, 96774), (81832, 92199), (86242, 96634),
    (19912, 23708), (20710, 24557), (4147, 5203), (4008, 5048), (4143, 5200), (746, 992),
    (724, 965), (745, 991), (125, 177), (19, 30), (3, 5), (0, 1)]
def rowP_12 : List (ℤ × ℤ) :=
  [(254000, 268000), (227242, 242583), (252772, 266955), (96774, 107736), (91089, 102041), (96555, 107540),
    (23495, 27727), (24543, 28839), (5202, 6449), (5009, 6233), (5196, 6443), (991, 1297),
    (958, 1258), (990, 1296), (176, 244), (28, 43), (4, 8), (0, 2)]
def rowP_13 : List (ℤ × ℤ) :=
  [(268000, 284000), (236383, 254083), (266366, 282628), (107736, 120984), (100646, 113878), (107429, 120712),
    (27444, 32843), (28818, 34308), (6448, 8132), (6179, 7830), (6438, 8123), (1296, 1733),
    (1248, 1675), (1294, 1731), (243, 345), (42, 64), (7, 12), (1, 3)]
def rowP_14 : List (ℤ × ℤ) :=
  [(284000, 300000), (246723, 264609), (281845, 298172), (120984, 135000), (112121, 126117), (120555, 134616),
    (32466, 38497), (34278, 40424), (8131, 10125), (7754, 9704), (8116, 10111), (1732, 2279),
    (1660, 2194), (1729, 2276), (344, 479), (62, 93), (11, 18), (2, 4)]
def rowP_15 : List (ℤ × ℤ) :=
  [(300000, 318000), (255909, 276261), (297126, 315588), (135000, 151686), (123921, 140575), (134396, 151149),
    (37999, 45580), (40379, 48123), (10125, 12783), (9598, 12191), (10101, 12760), (2278, 3049),
    (2172, 2923), (2273, 3045), (478, 679), (91, 139), (17, 29), (3, 6)]
def rowP_16 : List (ℤ × ℤ) :=
  [(318000, 336000), (266015, 286620), (314204, 332782), (151686, 169344), (137831, 155447), (150841, 168588),
    (44920, 53388), (48057, 56731), (12782, 15932), (12043, 15105), (12745, 15896), (3048, 4015),
    (2891, 3830), (3041, 4008), (678, 945), (137, 204), (28, 44), (5, 10)]
def rowP_17 : List (ℤ × ℤ) :=
  [(336000, 356000), (274605, 297804), (330948, 351752), (169344, 190104), (152043, 172741), (168155, 189046),
    (52523, 63026), (56633, 67426), (15931, 20078), (14900, 18916), (15874, 20020), (4014, 5361),
    (3783, 5085), (4002, 5348), (944, 1336), (200, 303), (43, 70), (9, 16)]
def rowP_18 : List (ℤ × ℤ) :=
  [(356000, 376000), (283768, 307297), (349341, 370347), (190104, 212064), (168521, 190399), (188444, 210576),
    (61890, 73604), (67283, 79363), (20077, 24984), (18631, 23367), (19987, 24894), (5360, 7046),
    (5016, 6640), (5340, 7025), (1335, 1855), (299, 442), (68, 108), (15, 26)]
def rowP_19 : List (ℤ × ℤ) :=
  [(376000, 398000), (290975, 317247), (367175, 390557), (212064, 237606), (185208, 210632), (209740, 235532),
    (72127, 86482), (79153, 94017), (24983, 31365), (22975, 29107), (24843, 31224), (7045, 9363),
    (6540, 8762), (7012, 9328), (1854, 2609), (436, 654), (105, 168), (24, 42)]
def rowP_20 : List (ℤ × ℤ) :=
  [(398000, 420000), (298337, 325026), (386423, 410144), (237606, 264600), (204255, 231092), (234379, 261702),
    (84560, 100528), (93710, 110321), (31364, 38897), (28567, 35770), (31145, 38677), (9362, 12253),
    (8618, 11375), (9307, 12195), (2608, 3603), (644, 947), (165, 257), (41, 68)]
def rowP_21 : List (ℤ × ℤ) :=
  [(420000, 444000), (303225, 332820), (404753, 431086), (264600, 295704), (223318, 254199), (260115, 291689),
    (98052, 117400), (109875, 130104), (38896, 48579), (35036, 44246), (38556, 48239), (12252, 16177),
    (11168, 14892), (12163, 16083), (3602, 5028), (931, 1387), (252, 398), (66, 111)]
def rowP_22 : List (ℤ × ℤ) :=
  [(444000, 470000), (306694, 339324), (423781, 452939), (295704, 331350), (244328, 279655), (289416, 325735),
    (114073, 137407), (129430, 153975), (48578, 60997), (43203, 54944), (48046, 60465), (16176, 21502),
    (14580, 19600), (16029, 21345), (5027, 7074), (1361, 2048), (390, 621), (108, 183)]
def rowP_23 : List (ℤ × ℤ) :=
  [(470000, 496000), (309394, 342615), (443482, 473414), (331350, 369024), (267654, 304911), (322619, 361178),
    (133118, 159031), (152997, 180441), (60996, 75655), (53520, 67285), (60168, 74827), (21501, 28144),
    (19150, 25368), (21258, 27887), (7073, 9772), (2006, 2956), (609, 947), (179, 295)]
def rowP_24 : List (ℤ × ℤ) :=
  [(496000, 524000), (308514, 344943), (461189, 494436), (369024, 411864), (290439, 332693), (356926, 401013),
    (153565, 184477), (179033, 212024), (75654, 94240), (65368, 82691), (74378, 92962), (28143, 37037),
    (24729, 32989), (27747, 36618), (9771, 13585), (2892, 4298), (927, 1455), (288, 479)]
def rowP_25 : List (ℤ × ℤ) :=
  [(524000, 554000), (304828, 344593), (478132, 515120), (411864, 460374), (314648, 362337), (395020, 445283),
    (177263, 213983), (209928, 249470), (94239, 117747), (80015, 101738), (92255, 115760), (37036, 48924),
    (32046, 42990), (36386, 48236), (13584, 18973), (4192, 6272), (1421, 2247), (467, 782)]
def rowP_26 : List (ℤ × ℤ) :=
  [(554000, 586000), (297678, 340898), (493428, 534706), (460374, 515094), (339941, 393514), (436851, 494030),
    (204497, 247926), (246351, 293610), (117746, 147402), (98014, 125153), (114647, 144297), (48923, 64783),
    (41602, 56056), (47850, 63646), (18972, 26574), (6098, 9171), (2187, 3477), (761, 1280)]
def rowP_27 : List (ℤ × ℤ) :=
  [(586000, 620000), (286362, 333144), (505940, 552213), (515094, 576600), (365856, 425766), (482195, 547139),
    (235505, 286641), (288977, 345303), (147401, 184705), (119987, 153752), (142549, 179843), (64782, 85888),
    (54017, 73035), (63004, 84003), (26573, 37276), (8886, 13411), (3374, 5383), (1243, 2098)]
def rowP_28 : List (ℤ × ℤ) :=
  [(620000, 656000), (270152, 320574), (514213, 566377), (576600, 645504), (391797, 458488), (530586, 604277),
    (270456, 330389), (338444, 405399), (184704, 231487), (146617, 188437), (177103, 223867), (85887, 113892),
    (70053, 94967), (82939, 110766), (37275, 52299), (12943, 19578), (5204, 8322), (2030, 3433)]
def rowP_29 : List (ℤ × ℤ) :=
  [(656000, 694000), (248301, 302402), (516408, 575587), (645504, 722454), (417015, 490913), (581225, 664802),
    (309416, 379322), (395285, 474669), (231486, 289967), (178635, 230179), (219592, 278035), (113891, 150928),
    (90627, 123106), (109009, 145748), (52298, 73321), (18815, 28499), (8014, 12828), (3311, 5603)]
def rowP_30 : List (ℤ × ℤ) :=
  [(694000, 734000), (220070, 277833), (510227, 577812), (722454, 808134), (440599, 522093), (632865, 727661),
    (352308, 433442), (459834, 553717), (289966, 362823), (216791, 279993), (271397, 344181), (150927, 199734),
    (116826, 158940), (142862, 191173), (73320, 102624), (27261, 41312), (12299, 19690), (5381, 9102)]
def rowP_31 : List (ℤ × ℤ) :=
  [(734000, 776000), (184746, 246083), (492829, 570514), (808134, 903264), (461468, 550891), (683678, 791255),
    (398874, 492547), (532087, 642848), (362822, 453270), (261829, 338899), (333937, 424244), (199733, 263804),
    (149912, 204206), (186461, 249707), (102623, 143298), (39317, 59578), (18788, 30057), (8702, 14704)]
def rowP_32 : List (ℤ × ℤ) :=
  [(776000, 820000), (141678, 206406), (460760, 550573), (903264, 1008600), (478372, 575977), (731089, 853273),
    (448625, 556182), (611527, 741886), (453269, 565153), (314427, 407865), (408548, 520160), (263803, 347569),
    (191322, 260888), (242068, 324472), (143297, 199505), (56388, 85397), (28532, 45590), (13989, 23592)]
def rowP_33 : List (ℤ × ℤ) :=
  [(820000, 866000), (90306, 158126), (409894, 514200), (1008600, 1124934), (489893, 595828), (771591, 910506),
    (500793, 623585), (696882, 849934), (565152, 703043), (375145, 487740), (496302, 633678), (347568, 456627),
    (242643, 331199), (312192, 419006), (199504, 276807), (80340, 121570), (43033, 68650), (22324, 37562)]
def rowP_34 : List (ℤ × ℤ) :=
  [(866000, 914000), (30206, 100675), (335403, 456883), (1124934, 1253094), (494471, 608744), (800546, 958633),
    (554283, 693622), (785824, 965065), (703042, 872359), (444342, 579159), (597733, 766083), (456626, 598002),
    (305576, 417540), (399446, 537137), (276806, 382602), (113623, 171763), (64402, 102550), (35337, 59300)]
def rowP_35 : List (ℤ × ℤ) :=
  [(914000, 966000), (-45154, 33703), (226578, 374135), (1253094, 1399734), (488013, 615413), (808577, 996106),
    (605865, 769513), (872495, 1090696), (872358, 1088476), (520900, 688115), (711205, 925433), (598001, 788601),
    (381128, 527866), (505576, 689851), (382601, 533252), (159135, 244224), (95417, 154412), (55353, 94510)]
def rowP_36 : List (ℤ × ℤ) :=
  [(966000, 1020000), (-133446, -42873), (80788, 252856), (1399734, 1560600), (472631, 608008), (793133, 1007001),
    (658898, 842379), (957934, 1212623), (1088475, 1353041), (610109, 808239), (842062, 1103091), (788600, 1035076),
    (476162, 659951), (639091, 875100), (533251, 739045), (224109, 343175), (142388, 229631), (87469, 148662)]
def rowP_37 : List (ℤ × ℤ) :=
  [(1020000, 1078000), (-235887, -125906), (-125577, 90156), (1560600, 1743126), (441241, 588945), (735185, 987713),
    (704566, 916246), (1024108, 1331257), (1353040, 1688050), (704993, 946767), (977721, 1305907), (1035075, 1364788),
    (587397, 824579), (794324, 1106043), (739044, 1029869), (311543, 483305), (209631, 342670), (136279, 234909)]
def rowP_38 : List (ℤ × ℤ) :=
  [(1078000, 1138000), (-348273, -221015), (-397018, -120993), (1743126, 1942566), (395963, 549784), (628441, 915133),
    (745670, 979444), (1066522, 1422247), (1688049, 2096424), (810744, 1093414), (1119140, 1514907), (1364787, 1789298),
    (723080, 1016421), (978516, 1373128), (1029868, 1425355), (433587, 671035), (309380, 503761), (213093, 365377)]
def rowP_39 : List (ℤ × ℤ) :=
  [(1138000, 1202000), (-474064, -323746), (-747230, -379132), (1942566, 2167206), (329795, 493076), (447698, 781344),
    (771112, 1035360), (1056082, 1478541), (2096423, 2609324), (916514, 1255205), (1240868, 1729950), (1789297, 2352305),
    (876275, 1248253), (1174883, 1686564), (1425354, 1979230), (593988, 930603), (449173, 740401), (327543, 568631)]
def rowP_40 : List (ℤ × ℤ) :=
  [(1202000, 1270000), (-611674, -436195), (-1186875, -705231), (2167206, 2419350), (241728, 411788), (174888, 557602),
    (779328, 1074506), (972088, 1467903), (2609323, 3251809), (1023159, 1425251), (1327040, 1924805), (2352304, 3097348),
    (1052749, 1520738), (1377260, 2033842), (1979229, 2753542), (809678, 1283851), (649655, 1083459), (502050, 881715)]
def rowP_41 : List (ℤ × ℤ) :=
  [(1270000, 1340000), (-753811, -556917), (-1704184, -1105268), (2419350, 2693400), (133444, 301663), (-230717, 217371),
    (767970, 1084212), (791746, 1346928), (3251808, 4030225), (1127895, 1586856), (1351661, 2049853), (3097347, 4050376),
    (1253813, 1820202), (1566131, 2371675), (2753541, 3799253), (1097646, 1739833), (935323, 1556247), (766570, 1340736)]
def rowP : List (List (ℤ × ℤ)) :=
  [rowP_0, rowP_1, rowP_2, rowP_3, rowP_4, rowP_5, rowP_6, rowP_7,
    rowP_8, rowP_9, rowP_10, rowP_11, rowP_12, rowP_13, rowP_14, rowP_15,
    rowP_16, rowP_17, rowP_18, rowP_19, rowP_20, rowP_21, rowP_22, rowP_23,
    rowP_24, rowP_25, rowP_26, rowP_27, rowP_28, rowP_29, rowP_30, rowP_31,
    rowP_32, rowP_33, rowP_34, rowP_35, rowP_36, rowP_37, rowP_38, rowP_39,
    rowP_40, rowP_41]

def rowZa_0 : List ℤ :=
  [15000, 15007, 15001, 450, 451, 451, 11, 11, 1, 1, 1, 1, 1, 1, 1, 1,
    1, 1]
def rowZa_1 : List ℤ :=
  [30000, 30048, 30001, 1800, 1802, 1801, 82, 82, 4, 4, 4, 1, 1, 1, 1, 1,
    1, 1]
def rowZa_2 : List ℤ :=
  [45000, 45142, 45001, 4050, 4055, 4051, 274, 274, 17, 17, 17, 1, 1, 1, 1, 1,
    1, 1]
def rowZa_3 : List ℤ :=
  [60000, 60310, 60003, 7200, 7212, 7201, 649, 649, 52, 52, 52, 4, 4, 4, 1, 1,
    1, 1]
def rowZa_4 : List ℤ :=
  [75000, 75572, 75009, 11250, 11273, 11251, 1266, 1266, 127, 127, 127, 12, 12, 12, 2, 1,
    1, 1]
def rowZa_5 : List ℤ :=
  [90000, 90945, 90021, 16200, 16240, 16202, 2187, 2188, 263, 263, 263, 30, 30, 30, 4, 1,
    1, 1]
def rowZa_6 : List ℤ :=
  [95000, 95935, 95025, 18050, 18066, 18052, 2567, 2573, 326, 325, 326, 39, 39, 39, 5, 1,
    1, 1]
def rowZa_7 : List ℤ :=
  [101000, 102135, 101034, 20402, 20425, 20405, 3084, 3092, 417, 415, 417, 53, 53, 53, 7, 1,
    1, 1]
def rowZa_8 : List ℤ :=
  [107000, 108340, 107045, 22898, 22926, 22902, 3666, 3676, 525, 522, 525, 71, 70, 71, 10, 2,
    1, 1]
def rowZa_9 : List ℤ :=
  [113000, 114567, 113059, 25538, 25570, 25543, 4316, 4330, 653, 649, 653, 93, 92, 93, 13, 2,
    1, 1]
def rowZa_10 : List ℤ :=
  [120000, 121890, 120080, 28800, 28845, 28808, 5168, 5185, 830, 825, 830, 125, 124, 125, 18, 3,
    1, 1]
def rowZa_11 : List ℤ :=
  [127000, 129223, 127106, 32258, 32310, 32269, 6123, 6147, 1041, 1034, 1041, 166, 164, 166, 26, 4,
    1, 1]
def rowZa_12 : List ℤ :=
  [134000, 136592, 134138, 35912, 35972, 35926, 7188, 7220, 1290, 1281, 1290, 217, 215, 217, 35, 6,
    1, 1]
def rowZa_13 : List ℤ :=
  [142000, 145098, 142186, 40328, 40410, 40348, 8551, 8592, 1627, 1614, 1627, 289, 286, 289, 50, 9,
    2, 1]
def rowZa_14 : List ℤ :=
  [150000, 153621, 150243, 45000, 45094, 45028, 10072, 10128, 2025, 2007, 2026, 380, 376, 380, 69, 12,
    3, 1]
def rowZa_15 : List ℤ :=
  [159000, 163323, 159326, 50562, 50687, 50602, 11990, 12064, 2557, 2532, 2557, 509, 502, 509, 97, 18,
    4, 1]
def rowZa_16 : List ℤ :=
  [168000, 173053, 168428, 56448, 56593, 56502, 14131, 14231, 3187, 3151, 3187, 670, 660, 670, 135, 26,
    5, 1]
def rowZa_17 : List ℤ :=
  [178000, 184012, 178573, 63368, 63557, 63445, 16796, 16929, 4016, 3966, 4017, 894, 880, 894, 191, 39,
    8, 2]
def rowZa_18 : List ℤ :=
  [188000, 195012, 188750, 70688, 70904, 70794, 19768, 19948, 4997, 4927, 4999, 1175, 1154, 1175, 265, 57,
    13, 3]
def rowZa_19 : List ℤ :=
  [199000, 207304, 199999, 79202, 79480, 79352, 23424, 23662, 6273, 6176, 6275, 1561, 1531, 1561, 373, 85,
    20, 5]
def rowZa_20 : List ℤ :=
  [210000, 219650, 211303, 88200, 88515, 88405, 27490, 27812, 7780, 7643, 7783, 2043, 1998, 2043, 515, 123,
    30, 7]
def rowZa_21 : List ℤ :=
  [222000, 233361, 223722, 98568, 98964, 98855, 32440, 32866, 9716, 9526, 9721, 2697, 2631, 2697, 719, 181,
    46, 12]
def rowZa_22 : List ℤ :=
  [235000, 248407, 237290, 110450, 110945, 110855, 38426, 38998, 12200, 11934, 12207, 3584, 3487, 3584, 1011, 268,
    72, 19]
def rowZa_23 : List ℤ :=
  [248000, 263543, 250986, 123008, 123559, 123562, 45076, 45850, 15131, 14759, 15142, 4691, 4548, 4691, 1396, 389,
    110, 31]
def rowZa_24 : List ℤ :=
  [262000, 280196, 265931, 137288, 137961, 138059, 53058, 54089, 18848, 18333, 18866, 6173, 5964, 6173, 1941, 569,
    170, 50]
def rowZa_25 : List ℤ :=
  [277000, 298312, 282191, 153458, 154272, 154536, 62578, 63961, 23550, 22831, 23577, 8154, 7847, 8154, 2711, 836,
    264, 83]
def rowZa_26 : List ℤ :=
  [293000, 317952, 299868, 171698, 172669, 173207, 73888, 75756, 29481, 28475, 29524, 10798, 10344, 10798, 3797, 1232,
    412, 136]
def rowZa_27 : List ℤ :=
  [310000, 339178, 319092, 192200, 193340, 194313, 87276, 89810, 36941, 35531, 37009, 14315, 13642, 14315, 5326, 1816,
    642, 224]
def rowZa_28 : List ℤ :=
  [328000, 362056, 340031, 215168, 216481, 218126, 103060, 106509, 46298, 44318, 46403, 18982, 17985, 18982, 7472, 2677,
    1000, 368]
def rowZa_29 : List ℤ :=
  [347000, 386648, 362899, 240818, 242295, 244950, 121597, 126299, 57994, 55214, 58158, 25155, 23677, 25154, 10475, 3939,
    1556, 606]
def rowZa_30 : List ℤ :=
  [367000, 413015, 387966, 269378, 270987, 275134, 143276, 149694, 72565, 68666, 72818, 33289, 31103, 33286, 14661, 5780,
    2413, 993]
def rowZa_31 : List ℤ :=
  [388000, 441211, 415567, 301088, 302764, 309078, 168524, 177283, 90654, 85195, 91042, 43968, 40741, 43960, 20472, 8448,
    3727, 1621]
def rowZa_32 : List ℤ :=
  [410000, 471279, 446117, 336200, 337832, 347241, 197800, 209746, 113031, 105407, 113620, 57929, 53184, 57911, 28501, 12291,
    5727, 2630]
def rowZa_33 : List ℤ :=
  [433000, 503250, 480123, 374978, 376388, 390159, 231598, 247860, 140609, 129996, 141496, 76105, 69154, 76065, 39544, 17790,
    8748, 4240]
def rowZa_34 : List ℤ :=
  [457000, 537134, 518194, 417698, 418617, 438450, 270437, 292519, 174472, 159751, 175793, 99667, 89532, 99582, 54658, 25602,
    13278, 6789]
def rowZa_35 : List ℤ :=
  [483000, 574861, 563045, 466578, 466982, 495283, 316996, 347091, 217696, 197276, 219746, 131434, 116617, 131303, 76179, 37159,
    20352, 10991]
def rowZa_36 : List ℤ :=
  [510000, 614010, 613686, 520200, 519134, 559303, 369813, 410869, 270609, 242183, 273612, 172513, 150838, 172217, 105578, 53448,
    30883, 17599]
def rowZa_37 : List ℤ :=
  [539000, 657060, 673810, 581042, 578156, 634701, 432363, 488452, 337610, 298121, 342157, 227465, 195764, 226940, 147125, 77255,
    47133, 28366]
def rowZa_38 : List ℤ :=
  [569000, 701172, 742210, 647522, 641129, 719874, 502593, 578918, 419285, 364378, 425742, 298217, 251942, 297063, 203623, 110456,
    71068, 45114]
def rowZa_39 : List ℤ :=
  [601000, 749009, 823622, 722402, 711507, 820254, 584689, 688452, 521865, 445799, 531243, 392051, 324660, 389885, 282748, 158253,
    107427, 71966]
def rowZa_40 : List ℤ :=
  [635000, 799600, 919801, 806450, 788820, 937980, 679383, 820348, 650362, 544744, 663625, 516225, 417881, 512019, 393364, 226539,
    162280, 114749]
def rowZa_41 : List ℤ :=
  [670000, 850041, 1028479, 897800, 869627, 1070623, 783716, 972950, 806045, 659804, 823151, 675063, 532328, 666265, 542751, 319996,
    241544, 180023]
def rowZa : List (List ℤ) :=
  [rowZa_0, rowZa_1, rowZa_2, rowZa_3, rowZa_4, rowZa_5, rowZa_6, rowZa_7,
    rowZa_8, rowZa_9, rowZa_10, rowZa_11, rowZa_12, rowZa_13, rowZa_14, rowZa_15,
    rowZa_16, rowZa_17, rowZa_18, rowZa_19, rowZa_20, rowZa_21, rowZa_22, rowZa_23,
    rowZa_24, rowZa_25, rowZa_26, rowZa_27, rowZa_28, rowZa_29, rowZa_30, rowZa_31,
    rowZa_32, rowZa_33, rowZa_34, rowZa_35, rowZa_36, rowZa_37, rowZa_38, rowZa_39,
    rowZa_40, rowZa_41]

def rowPa_0 : List ℤ :=
  [30000, 60048, 60001, 2250, 2251, 2251, 61, 61, 2, 2, 2, 1, 1, 1, 1, 1,
    1, 1]
def rowPa_1 : List ℤ :=
  [60000, 120352, 120001, 9000, 9013, 9001, 487, 487, 23, 23, 23, 1, 1, 1, 1, 1,
    1, 1]
def rowPa_2 : List ℤ :=
  [90000, 181114, 180007, 20250, 20306, 20251, 1643, 1641, 115, 115, 115, 8, 8, 8, 1, 1,
    1, 1]
def rowPa_3 : List ℤ :=
  [120000, 242536, 240028, 36000, 36161, 36002, 3898, 3889, 363, 364, 363, 32, 32, 32, 3, 1,
    1, 1]
def rowPa_4 : List ℤ :=
  [150000, 304817, 300082, 56250, 56617, 56258, 7619, 7595, 886, 888, 886, 95, 95, 95, 10, 1,
    1, 1]
def rowPa_5 : List ℤ :=
  [180000, 368153, 360202, 81000, 81723, 81021, 13178, 13125, 1838, 1841, 1838, 237, 237, 237, 29, 4,
    1, 1]
def rowPa_6 : List ℤ :=
  [190000, 388872, 380254, 90250, 90980, 90277, 15478, 15436, 2281, 2282, 2281, 310, 310, 310, 40, 5,
    1, 1]
def rowPa_7 : List ℤ :=
  [202000, 414707, 404346, 102010, 102954, 102049, 18609, 18550, 2914, 2915, 2915, 421, 420, 421, 58, 8,
    1, 1]
def rowPa_8 : List ℤ :=
  [214000, 440689, 428461, 114490, 115670, 114545, 22134, 22057, 3671, 3672, 3671, 562, 561, 562, 82, 12,
    2, 1]
def rowPa_9 : List ℤ :=
  [226000, 466899, 452604, 127690, 129147, 127765, 26079, 25981, 4566, 4567, 4567, 737, 736, 738, 113, 17,
    3, 1]
def rowPa_10 : List ℤ :=
  [240000, 497894, 480818, 144000, 145870, 144108, 31252, 31118, 5807, 5810, 5808, 996, 994, 996, 162, 25,
    4, 1]
def rowPa_11 : List ℤ :=
  [254000, 529135, 509084, 161290, 163617, 161442, 37063, 36891, 7285, 7288, 7287, 1322, 1319, 1322, 227, 38,
    6, 1]
def rowPa_12 : List ℤ :=
  [268000, 560741, 537416, 179560, 182421, 179768, 43556, 43339, 9028, 9032, 9032, 1729, 1724, 1729, 313, 54,
    10, 2]
def rowPa_13 : List ℤ :=
  [284000, 597492, 569896, 201640, 205273, 201936, 51875, 51584, 11385, 11392, 11391, 2310, 2303, 2311, 443, 81,
    15, 3]
def rowPa_14 : List ℤ :=
  [300000, 634628, 602490, 225000, 229484, 225410, 61182, 60815, 14175, 14184, 14185, 3038, 3028, 3039, 616, 119,
    23, 5]
def rowPa_15 : List ℤ :=
  [318000, 677271, 639336, 252810, 258497, 253393, 72941, 72452, 17896, 17910, 17912, 4065, 4051, 4068, 873, 179,
    36, 7]
def rowPa_16 : List ℤ :=
  [336000, 720472, 676388, 282240, 289263, 283049, 86105, 85492, 22305, 22321, 22329, 5354, 5331, 5357, 1215, 262,
    56, 12]
def rowPa_17 : List ℤ :=
  [356000, 769640, 717864, 316840, 325714, 317987, 102535, 101729, 28109, 28135, 28147, 7148, 7115, 7155, 1718, 392,
    88, 20]
def rowPa_18 : List ℤ :=
  [376000, 819582, 759697, 353440, 364373, 355027, 120912, 119916, 34978, 35005, 35037, 9394, 9344, 9405, 2385, 574,
    136, 32]
def rowPa_19 : List ℤ :=
  [398000, 876060, 806235, 396010, 409746, 398247, 143600, 142316, 43911, 43954, 44004, 12484, 12410, 12501, 3354, 854,
    213, 52]
def rowPa_20 : List ℤ :=
  [420000, 933576, 853377, 441000, 457855, 444080, 168932, 167373, 54455, 54499, 54597, 16337, 16225, 16365, 4632, 1241,
    327, 85]
def rowPa_21 : List ℤ :=
  [444000, 998321, 905670, 492840, 513871, 497144, 199896, 197937, 68010, 68077, 68231, 21569, 21407, 21616, 6465, 1828,
    509, 139]
def rowPa_22 : List ℤ :=
  [470000, 1070479, 963494, 552250, 578591, 558312, 237528, 235091, 85395, 85492, 85745, 28669, 28429, 28747, 9095, 2717,
    800, 231]
def rowPa_23 : List ℤ :=
  [496000, 1144322, 1022706, 615040, 647308, 623387, 279551, 276713, 105917, 106005, 106452, 37525, 37161, 37652, 12564, 3951,
    1227, 373]
def rowPa_24 : List ℤ :=
  [524000, 1226897, 1088412, 686440, 726467, 698051, 330274, 326900, 131936, 132058, 132767, 49382, 48849, 49590, 17467, 5788,
    1898, 609]
def rowPa_25 : List ℤ :=
  [554000, 1318400, 1161377, 767290, 817017, 783509, 391156, 387261, 164846, 165005, 166144, 65232, 64445, 65576, 24394, 8522,
    2953, 1000]
def rowPa_26 : List ℤ :=
  [586000, 1419581, 1242657, 858490, 920290, 881201, 464013, 459715, 206362, 206557, 208397, 86377, 85208, 86948, 34167, 12584,
    4610, 1651]
def rowPa_27 : List ℤ :=
  [620000, 1531262, 1333623, 961000, 1037759, 992838, 550937, 546543, 258586, 258803, 261780, 114517, 112768, 115465, 47926, 18606,
    7207, 2729]
def rowPa_28 : List ℤ :=
  [656000, 1654342, 1436049, 1075840, 1171039, 1120465, 654330, 650455, 324081, 324283, 329091, 151856, 149232, 153428, 67242, 27505,
    11265, 4511]
def rowPa_29 : List ℤ :=
  [694000, 1789783, 1552210, 1204090, 1321899, 1266563, 776933, 774697, 405954, 406062, 413797, 201237, 197293, 203841, 94270, 40600,
    17577, 7441]
def rowPa_30 : List ℤ :=
  [734000, 1938609, 1685006, 1346890, 1492262, 1434165, 921858, 923165, 507952, 507819, 520197, 266312, 260380, 270608, 131945, 59778,
    27348, 12236]
def rowPa_31 : List ℤ :=
  [776000, 2101888, 1838103, 1505440, 1684209, 1627014, 1092621, 1100570, 634578, 633942, 653617, 351738, 342822, 358794, 184241, 87713,
    42384, 20034]
def rowPa_32 : List ℤ :=
  [820000, 2280716, 2016107, 1681000, 1899972, 1849752, 1293167, 1312643, 791214, 789629, 820672, 463425, 450047, 474948, 256506, 128167,
    65375, 32626]
def rowPa_33 : List ℤ :=
  [866000, 2476195, 2224750, 1874890, 2141929, 2108164, 1527895, 1566396, 984260, 980996, 1029587, 608835, 588811, 627534, 355895, 186380,
    100287, 52809]
def rowPa_34 : List ℤ :=
  [914000, 2689406, 2471104, 2088490, 2412587, 2409464, 1801681, 1870457, 1221302, 1215193, 1290607, 797336, 767459, 827461, 491917, 269592,
    152913, 84900]
def rowPa_35 : List ℤ :=
  [966000, 2933434, 2777386, 2332890, 2729458, 2778707, 2135206, 2252037, 1523866, 1514190, 1631428, 1051467, 1007253, 1100913, 685610, 393570,
    235605, 138101]
def rowPa_36 : List ℤ :=
  [1020000, 3195662, 3143610, 2601000, 3080033, 3214491, 2520551, 2712378, 1894257, 1877001, 2058673, 1380102, 1313595, 1459707, 950200, 569669,
    359546, 222263]
def rowPa_37 : List ℤ :=
  [1078000, 3492961, 3602998, 2905210, 3487020, 3754450, 2985702, 3293246, 2363269, 2335688, 2617136, 1819717, 1720616, 1949549, 1324117, 829273,
    552229, 360303]
def rowPa_38 : List ℤ :=
  [1138000, 3809872, 4157089, 3237610, 3934398, 4400244, 3519437, 4000194, 2934994, 2888120, 3320267, 2385731, 2236446, 2592989, 1832599, 1194783,
    838403, 576631]
def rowPa_39 : List ℤ :=
  [1202000, 4165413, 4854025, 3612010, 4449133, 5208290, 4157452, 4898044, 3653053, 3579028, 4241176, 3136407, 2913786, 3469930, 2544724, 1726460,
    1277087, 926264]
def rowPa_40 : List ℤ :=
  [1270000, 4557164, 5727278, 4032250, 5033587, 6220594, 4912056, 6040234, 4552532, 4435316, 5448206, 4129797, 3796124, 4664882, 3540268, 2494886,
    1945667, 1488399]
def rowPa_41 : List ℤ :=
  [1340000, 4967596, 6778973, 4489000, 5667739, 7446240, 5766949, 7446146, 5642314, 5452893, 6977766, 5400501, 4898610, 6237139, 4884753, 3560004,
    2922583, 2354552]
def rowPa : List (List ℤ) :=
  [rowPa_0, rowPa_1, rowPa_2, rowPa_3, rowPa_4, rowPa_5, rowPa_6, rowPa_7,
    rowPa_8, rowPa_9, rowPa_10, rowPa_11, rowPa_12, rowPa_13, rowPa_14, rowPa_15,
    rowPa_16, rowPa_17, rowPa_18, rowPa_19, rowPa_20, rowPa_21, rowPa_22, rowPa_23,
    rowPa_24, rowPa_25, rowPa_26, rowPa_27, rowPa_28, rowPa_29, rowPa_30, rowPa_31,
    rowPa_32, rowPa_33, rowPa_34, rowPa_35, rowPa_36, rowPa_37, rowPa_38, rowPa_39,
    rowPa_40, rowPa_41]

def boxTab_0 : List (ℤ × ℤ × ℤ × ℤ × ℤ) :=
  [(999, 1002, 999, 1004, 1053), (1000, 1004, 1001, 1007, 1103), (1001, 1005, 1002, 1010, 1154), (1002, 1007, 1004, 1014, 1204), (1002, 1009, 1006, 1018, 1255),
    (1003, 1011, 1008, 1022, 1305), (1004, 1011, 1010, 1024, 1320), (1005, 1012, 1011, 1025, 1341), (1005, 1013, 1012, 1027, 1361), (1005, 1014, 1013, 1029, 1381),
    (1006, 1015, 1014, 1031, 1405), (1006, 1016, 1016, 1033, 1427), (1007, 1017, 1017, 1036, 1451), (1008, 1018, 1019, 1039, 1477), (1008, 1019, 1020, 1041, 1505),
    (1009, 1020, 1022, 1045, 1535), (1010, 1022, 1024, 1048, 1565), (1011, 1023, 1027, 1052, 1597), (1012, 1025, 1029, 1055, 1631), (1013, 1027, 1032, 1060, 1667),
    (1014, 1029, 1035, 1064, 1703), (1015, 1031, 1038, 1070, 1743), (1016, 1033, 1042, 1075, 1786), (1018, 1035, 1046, 1081, 1828), (1019, 1038, 1050, 1088, 1875),
    (1021, 1041, 1055, 1095, 1923), (1023, 1044, 1060, 1103, 1976), (1025, 1048, 1066, 1112, 2031), (1028, 1051, 1073, 1122, 2089), (1030, 1056, 1081, 1133, 2149),
    (1033, 1060, 1089, 1145, 2213), (1037, 1065, 1099, 1158, 2278), (1040, 1070, 1109, 1173, 2348), (1044, 1076, 1121, 1189, 2418), (1049, 1083, 1134, 1206, 2492),
    (1054, 1090, 1148, 1226, 2572), (1059, 1098, 1164, 1248, 2654), (1065, 1106, 1182, 1274, 2742), (1072, 1116, 1203, 1301, 2830), (1080, 1127, 1225, 1332, 2927),
    (1088, 1139, 1251, 1368, 3026), (1098, 1151, 1281, 1406, 3124)]
def boxTab_1 : List (ℤ × ℤ × ℤ × ℤ × ℤ) :=
  [(999, 1002, 999, 1003, 1055), (1000, 1003, 1000, 1005, 1108), (1000, 1004, 1001, 1008, 1161), (1000, 1006, 1002, 1011, 1215), (1001, 1007, 1003, 1015, 1268),
    (1001, 1009, 1004, 1018, 1323), (1002, 1009, 1006, 1019, 1339), (1002, 1010, 1007, 1021, 1360), (1003, 1010, 1007, 1022, 1382), (1003, 1011, 1008, 1024, 1403),
    (1003, 1012, 1009, 1026, 1428), (1004, 1013, 1010, 1028, 1453), (1004, 1014, 1011, 1030, 1478), (1004, 1015, 1012, 1032, 1507), (1005, 1016, 1014, 1035, 1534),
    (1005, 1017, 1015, 1038, 1567), (1006, 1018, 1017, 1040, 1598), (1007, 1019, 1019, 1044, 1634), (1007, 1021, 1021, 1047, 1669), (1008, 1022, 1023, 1051, 1709),
    (1009, 1024, 1026, 1055, 1746), (1010, 1026, 1028, 1060, 1790), (1011, 1028, 1031, 1065, 1836), (1012, 1030, 1035, 1070, 1881), (1014, 1032, 1039, 1076, 1929),
    (1015, 1035, 1043, 1083, 1982), (1017, 1038, 1048, 1091, 2038), (1018, 1041, 1053, 1099, 2097), (1021, 1044, 1059, 1108, 2160), (1023, 1048, 1066, 1118, 2225),
    (1025, 1052, 1074, 1129, 2292), (1028, 1057, 1082, 1142, 2365), (1031, 1061, 1092, 1155, 2438), (1035, 1067, 1102, 1170, 2516), (1039, 1073, 1114, 1187, 2595),
    (1043, 1079, 1127, 1206, 2682), (1048, 1087, 1142, 1226, 2770), (1054, 1095, 1159, 1250, 2865), (1060, 1104, 1178, 1277, 2961), (1067, 1114, 1200, 1307, 3062),
    (1074, 1125, 1224, 1341, 3170), (1083, 1137, 1252, 1378, 3277)]
def boxTab_2 : List (ℤ × ℤ × ℤ × ℤ × ℤ) :=
  [(999, 1001, 999, 1002, 1057), (999, 1002, 999, 1004, 1113), (999, 1003, 999, 1006, 1170), (999, 1004, 999, 1009, 1227), (999, 1005, 1000, 1011, 1283),
    (999, 1007, 1000, 1014, 1341), (1000, 1007, 1002, 1015, 1357), (1000, 1007, 1002, 1016, 1381), (1000, 1008, 1002, 1018, 1404), (1000, 1009, 1003, 1019, 1426),
    (1000, 1009, 1003, 1020, 1453), (1001, 1010, 1004, 1022, 1479), (1001, 1011, 1005, 1024, 1505), (1001, 1011, 1006, 1026, 1536), (1001, 1012, 1007, 1028, 1566),
    (1002, 1013, 1008, 1030, 1600), (1002, 1014, 1009, 1033, 1635), (1002, 1015, 1010, 1036, 1673), (1003, 1016, 1012, 1039, 1710), (1003, 1018, 1014, 1042, 1752),
    (1004, 1019, 1016, 1046, 1793), (1005, 1021, 1018, 1050, 1839), (1005, 1022, 1020, 1054, 1889), (1006, 1024, 1023, 1059, 1937), (1007, 1026, 1026, 1064, 1990),
    (1008, 1028, 1030, 1070, 2046), (1010, 1031, 1034, 1077, 2106), (1011, 1034, 1038, 1085, 2171), (1013, 1037, 1044, 1093, 2237), (1015, 1040, 1050, 1102, 2307),
    (1017, 1044, 1056, 1113, 2382), (1019, 1048, 1064, 1124, 2458), (1022, 1052, 1073, 1137, 2537), (1025, 1057, 1082, 1151, 2622), (1028, 1062, 1093, 1166, 2707),
    (1032, 1068, 1105, 1184, 2801), (1036, 1075, 1119, 1204, 2896), (1041, 1083, 1134, 1226, 3000), (1047, 1091, 1152, 1251, 3103), (1053, 1100, 1172, 1280, 3214),
    (1060, 1110, 1195, 1313, 3330)]
def boxTab_3 : List (ℤ × ℤ × ℤ × ℤ × ℤ) :=
  [(999, 1001, 998, 1001, 1060), (998, 1001, 997, 1003, 1120), (998, 1002, 997, 1004, 1179), (998, 1003, 996, 1006, 1239), (997, 1004, 996, 1008, 1299),
    (997, 1004, 996, 1010, 1359), (997, 1005, 997, 1010, 1378), (997, 1005, 997, 1011, 1402), (997, 1005, 997, 1012, 1427), (997, 1006, 997, 1013, 1451),
    (997, 1006, 997, 1015, 1480), (997, 1007, 998, 1016, 1507), (997, 1007, 998, 1017, 1536), (997, 1008, 999, 1019, 1567), (998, 1009, 999, 1021, 1600),
    (998, 1009, 1000, 1023, 1636), (998, 1010, 1000, 1025, 1674), (998, 1011, 1001, 1027, 1714), (998, 1012, 1002, 1030, 1755), (998, 1013, 1004, 1033, 1798),
    (999, 1014, 1005, 1036, 1844), (999, 1015, 1007, 1039, 1891), (1000, 1017, 1008, 1043, 1946), (1000, 1018, 1011, 1047, 1997), (1001, 1020, 1013, 1052, 2055),
    (1001, 1022, 1016, 1057, 2115), (1002, 1024, 1019, 1063, 2180), (1003, 1026, 1023, 1070, 2248), (1005, 1029, 1027, 1078, 2322), (1006, 1032, 1032, 1086, 2398),
    (1008, 1035, 1038, 1095, 2477), (1009, 1038, 1045, 1106, 2560), (1011, 1042, 1052, 1117, 2648), (1014, 1047, 1061, 1130, 2737), (1017, 1051, 1071, 1145, 2829),
    (1020, 1057, 1081, 1161, 2933), (1023, 1063, 1094, 1180, 3036), (1028, 1070, 1108, 1201, 3148), (1032, 1077, 1124, 1225, 3262), (1038, 1086, 1143, 1252, 3381)]
def boxTab_4 : List (ℤ × ℤ × ℤ × ℤ × ℤ) :=
  [(999, 1001, 998, 1001, 1063), (998, 1001, 996, 1001, 1125), (997, 1001, 994, 1002, 1189), (996, 1001, 993, 1003, 1252), (995, 1002, 992, 1004, 1315),
    (995, 1002, 991, 1005, 1380), (995, 1002, 992, 1006, 1399), (995, 1002, 991, 1006, 1426), (995, 1003, 991, 1007, 1451), (994, 1003, 991, 1008, 1477),
    (994, 1003, 991, 1009, 1507), (994, 1004, 991, 1010, 1537), (994, 1004, 991, 1011, 1567), (994, 1004, 991, 1012, 1601), (994, 1005, 991, 1013, 1636),
    (993, 1005, 991, 1015, 1675), (993, 1006, 992, 1016, 1713), (993, 1006, 992, 1018, 1757), (993, 1007, 993, 1020, 1800), (993, 1008, 993, 1023, 1849),
    (993, 1009, 994, 1025, 1896), (993, 1010, 995, 1028, 1948), (993, 1011, 996, 1031, 2006), (994, 1012, 998, 1035, 2061), (994, 1013, 999, 1039, 2124),
    (994, 1015, 1001, 1044, 2189), (995, 1017, 1004, 1049, 2258), (995, 1019, 1007, 1055, 2332), (996, 1021, 1010, 1062, 2412), (997, 1023, 1014, 1069, 2494),
    (998, 1026, 1019, 1078, 2581), (999, 1029, 1025, 1087, 2670), (1001, 1032, 1031, 1098, 2766), (1003, 1036, 1039, 1109, 2862), (1005, 1040, 1047, 1123, 2965),
    (1007, 1045, 1056, 1138, 3078), (1010, 1051, 1068, 1155, 3188), (1014, 1057, 1080, 1176, 3312), (1018, 1063, 1095, 1198, 3435), (1022, 1071, 1112, 1224, 3567)]
def boxTab_5 : List (ℤ × ℤ × ℤ × ℤ × ℤ) :=
  [(998, 1001, 997, 1001, 1066), (997, 1000, 994, 1000, 1132), (996, 1000, 992, 1000, 1198), (994, 1000, 990, 1000, 1265), (993, 1000, 988, 1001, 1333),
    (992, 1000, 986, 1001, 1401), (992, 1000, 986, 1001, 1423), (992, 1000, 986, 1001, 1449), (992, 1000, 985, 1002, 1477), (991, 1000, 985, 1002, 1504),
    (991, 1000, 984, 1003, 1537), (990, 1000, 984, 1003, 1568), (990, 1001, 984, 1004, 1599), (990, 1001, 983, 1005, 1637), (989, 1001, 983, 1006, 1673),
    (989, 1001, 983, 1007, 1714), (989, 1002, 982, 1008, 1757), (988, 1002, 982, 1010, 1804), (988, 1003, 982, 1011, 1850), (988, 1003, 982, 1013, 1901),
    (987, 1004, 983, 1015, 1951), (987, 1004, 983, 1017, 2008), (987, 1005, 983, 1020, 2070), (987, 1006, 984, 1023, 2131), (987, 1007, 985, 1026, 2197),
    (987, 1008, 986, 1030, 2268), (987, 1009, 988, 1035, 2343), (987, 1011, 990, 1040, 2423), (987, 1013, 993, 1046, 2507), (987, 1015, 996, 1052, 2597),
    (988, 1017, 999, 1060, 2693), (989, 1020, 1004, 1068, 2790), (990, 1022, 1009, 1078, 2894), (991, 1026, 1016, 1089, 2998), (992, 1029, 1023, 1101, 3110),
    (994, 1034, 1031, 1115, 3232), (996, 1038, 1041, 1131, 3356), (999, 1044, 1052, 1150, 3490), (1002, 1050, 1065, 1171, 3626)]
def boxTab_6 : List (ℤ × ℤ × ℤ × ℤ × ℤ) :=
  [(998, 1001, 996, 1001, 1069), (996, 1000, 992, 999, 1139), (994, 999, 989, 999, 1209), (993, 999, 986, 998, 1280), (991, 998, 983, 997, 1352),
    (990, 998, 981, 997, 1423), (990, 997, 981, 996, 1446), (989, 997, 980, 996, 1475), (988, 997, 979, 996, 1504), (988, 997, 978, 996, 1533),
    (987, 997, 978, 997, 1566), (987, 997, 977, 997, 1600), (986, 997, 976, 997, 1635), (986, 997, 975, 998, 1674), (985, 997, 974, 998, 1714),
    (984, 997, 973, 999, 1759), (984, 997, 973, 999, 1802), (983, 998, 972, 1000, 1852), (983, 998, 972, 1001, 1901), (982, 998, 971, 1003, 1957),
    (981, 998, 971, 1004, 2011), (981, 999, 970, 1006, 2073), (980, 999, 970, 1008, 2138), (980, 1000, 970, 1010, 2204), (979, 1000, 970, 1013, 2275),
    (979, 1001, 971, 1016, 2351), (978, 1002, 972, 1020, 2432), (978, 1003, 973, 1024, 2519), (978, 1004, 974, 1029, 2613), (978, 1006, 976, 1035, 2710),
    (978, 1008, 979, 1042, 2812), (978, 1010, 982, 1049, 2921), (978, 1012, 987, 1058, 3030), (979, 1015, 992, 1068, 3148), (980, 1018, 998, 1079, 3269),
    (981, 1021, 1004, 1092, 3405), (982, 1026, 1013, 1107, 3539), (984, 1030, 1022, 1124, 3689), (987, 1036, 1034, 1144, 3837)]
def boxTab_7 : List (ℤ × ℤ × ℤ × ℤ × ℤ) :=
  [(997, 1001, 995, 1001, 1073), (995, 999, 991, 999, 1146), (993, 998, 986, 997, 1220), (991, 998, 983, 995, 1294), (989, 997, 979, 994, 1370),
    (987, 996, 975, 993, 1447), (987, 995, 975, 991, 1471), (986, 995, 974, 991, 1501), (985, 994, 973, 990, 1531), (985, 994, 972, 990, 1562),
    (984, 994, 970, 990, 1599), (983, 994, 969, 990, 1635), (982, 993, 968, 990, 1671), (981, 993, 967, 990, 1712), (981, 993, 965, 990, 1756),
    (980, 993, 964, 990, 1803), (979, 993, 963, 991, 1850), (978, 993, 961, 991, 1904), (977, 993, 960, 992, 1958), (976, 993, 959, 992, 2016),
    (975, 993, 958, 993, 2075), (974, 993, 957, 994, 2140), (973, 993, 956, 996, 2211), (972, 993, 956, 997, 2281), (971, 993, 955, 999, 2359),
    (970, 994, 955, 1002, 2440), (970, 994, 954, 1005, 2531), (969, 995, 955, 1008, 2623), (968, 996, 955, 1013, 2725), (967, 997, 956, 1017, 2832),
    (967, 998, 958, 1023, 2942), (966, 1000, 960, 1029, 3061), (966, 1001, 963, 1037, 3183), (966, 1003, 967, 1046, 3311), (966, 1006, 972, 1055, 3444),
    (967, 1009, 977, 1067, 3592), (967, 1012, 984, 1081, 3742), (968, 1017, 992, 1097, 3904), (970, 1021, 1002, 1116, 4070)]
def boxTab_8 : List (ℤ × ℤ × ℤ × ℤ × ℤ) :=
  [(997, 1001, 994, 1001, 1077), (994, 999, 989, 998, 1153), (991, 998, 984, 995, 1231), (989, 996, 979, 993, 1310), (986, 995, 974, 990, 1390),
    (984, 994, 970, 988, 1470), (984, 992, 969, 986, 1497), (983, 992, 968, 985, 1528), (982, 991, 966, 985, 1562), (981, 991, 965, 984, 1593),
    (980, 991, 963, 984, 1632), (979, 990, 961, 983, 1672), (978, 990, 960, 982, 1709), (977, 989, 958, 982, 1754), (976, 989, 956, 982, 1800),
    (975, 989, 954, 982, 1851), (974, 988, 953, 981, 1900), (972, 988, 951, 981, 1957), (971, 987, 949, 981, 2015), (970, 987, 947, 982, 2079),
    (969, 987, 945, 982, 2143), (967, 987, 944, 982, 2212), (966, 986, 942, 983, 2289), (965, 986, 941, 984, 2364), (963, 986, 939, 985, 2449),
    (962, 986, 938, 987, 2538), (961, 986, 937, 989, 2634), (959, 986, 936, 992, 2737), (958, 987, 936, 995, 2845), (957, 987, 935, 999, 2964),
    (956, 988, 936, 1004, 3085), (955, 989, 937, 1009, 3214), (954, 990, 939, 1015, 3348), (953, 992, 941, 1023, 3491), (953, 994, 945, 1032, 3636),
    (952, 996, 949, 1042, 3798), (952, 999, 954, 1055, 3966), (952, 1002, 960, 1070, 4148), (953, 1006, 969, 1087, 4328), (954, 1011, 979, 1107, 4524)]
def boxTab_9 : List (ℤ × ℤ × ℤ × ℤ × ℤ) :=
  [(996, 1001, 993, 1001, 1080), (993, 999, 987, 997, 1161), (990, 997, 981, 993, 1242), (987, 995, 975, 990, 1326), (984, 993, 969, 987, 1411),
    (981, 991, 964, 984, 1496), (981, 989, 963, 980, 1523), (979, 989, 961, 979, 1558), (978, 988, 959, 978, 1593), (977, 988, 957, 977, 1628),
    (976, 987, 955, 977, 1669), (975, 986, 953, 976, 1710), (974, 986, 951, 975, 1751), (972, 985, 949, 974, 1798), (971, 985, 947, 973, 1845),
    (970, 984, 944, 973, 1901), (968, 983, 942, 972, 1955), (967, 983, 939, 971, 2017), (965, 982, 937, 971, 2077), (963, 981, 934, 970, 2147),
    (962, 981, 932, 970, 2215), (960, 980, 930, 970, 2289), (958, 980, 927, 970, 2373), (957, 979, 925, 970, 2455), (955, 979, 923, 971, 2545),
    (953, 978, 921, 972, 2641), (951, 978, 918, 973, 2749), (949, 978, 917, 975, 2858), (948, 978, 915, 977, 2979), (946, 978, 914, 980, 3106),
    (944, 978, 913, 984, 3241), (942, 978, 913, 988, 3382), (941, 979, 914, 993, 3529), (939, 980, 915, 1000, 3686), (938, 981, 917, 1007, 3849),
    (937, 983, 919, 1017, 4030), (936, 985, 923, 1028, 4215), (936, 987, 928, 1041, 4415), (936, 990, 935, 1057, 4617), (936, 994, 943, 1076, 4837),
    (936, 999, 953, 1098, 5070)]
def boxTab_10 : List (ℤ × ℤ × ℤ × ℤ × ℤ) :=
  [(996, 1001, 992, 1001, 1084), (992, 998, 985, 996, 1169), (988, 996, 978, 991, 1255), (985, 993, 971, 987, 1343), (982, 991, 964, 983, 1432),
    (978, 989, 958, 979, 1522), (977, 986, 957, 974, 1551), (976, 986, 954, 973, 1589), (975, 985, 952, 972, 1625), (974, 984, 950, 971, 1662),
    (972, 984, 947, 970, 1706), (971, 983, 945, 968, 1749), (969, 982, 942, 967, 1794), (968, 981, 939, 966, 1845), (966, 980, 937, 964, 1895),
    (964, 979, 934, 963, 1953), (963, 978, 931, 962, 2012), (961, 977, 927, 961, 2079), (959, 976, 925, 960, 2143), (957, 975, 921, 959, 2218),
    (955, 974, 918, 958, 2292), (953, 974, 915, 957, 2373), (951, 973, 912, 956, 2462), (949, 972, 909, 956, 2551), (946, 971, 906, 956, 2649),
    (944, 970, 903, 956, 2754), (942, 969, 900, 956, 2868), (939, 969, 897, 957, 2991), (937, 968, 894, 959, 3123), (934, 968, 892, 960, 3261),
    (932, 967, 890, 963, 3409), (930, 967, 888, 966, 3568), (928, 967, 888, 970, 3729), (925, 967, 887, 976, 3905), (924, 968, 888, 982, 4085),
    (922, 969, 889, 990, 4285), (920, 970, 891, 1000, 4492), (918, 972, 894, 1012, 4718), (917, 974, 899, 1026, 4947), (917, 978, 905, 1044, 5195),
    (916, 982, 913, 1064, 5457), (917, 986, 925, 1087, 5712)]
def boxTab_11 : List (ℤ × ℤ × ℤ × ℤ × ℤ) :=
  [(995, 1001, 991, 1001, 1088), (991, 998, 983, 995, 1177), (987, 995, 974, 989, 1269), (983, 992, 967, 984, 1360), (979, 989, 959, 979, 1455),
    (975, 986, 952, 974, 1550), (974, 983, 950, 968, 1582), (973, 983, 947, 967, 1621), (971, 982, 945, 965, 1659), (970, 981, 942, 964, 1699),
    (968, 980, 939, 962, 1745), (966, 979, 936, 960, 1792), (965, 978, 933, 958, 1839), (963, 977, 930, 957, 1893), (961, 975, 926, 955, 1949),
    (959, 974, 923, 953, 2010), (957, 973, 919, 952, 2074), (955, 972, 915, 950, 2145), (952, 971, 912, 948, 2214), (950, 969, 908, 947, 2293),
    (948, 968, 904, 945, 2374), (945, 967, 900, 944, 2462), (943, 966, 896, 942, 2558), (940, 964, 892, 941, 2656), (937, 963, 888, 940, 2762),
    (935, 962, 884, 939, 2878), (932, 961, 880, 939, 3002), (929, 959, 876, 939, 3136), (926, 958, 872, 939, 3281), (923, 957, 869, 940, 3432),
    (920, 956, 866, 942, 3594), (917, 956, 863, 944, 3768), (914, 955, 861, 947, 3950), (911, 955, 859, 951, 4145), (908, 954, 858, 956, 4348),
    (905, 955, 858, 963, 4568), (903, 955, 858, 971, 4804), (901, 957, 860, 982, 5053), (899, 958, 863, 995, 5313), (897, 960, 867, 1011, 5594),
    (896, 963, 873, 1030, 5892), (895, 967, 882, 1051, 6188)]
def boxTab_12 : List (ℤ × ℤ × ℤ × ℤ × ℤ) :=
  [(995, 1001, 990, 1001, 1091), (990, 997, 981, 994, 1183), (986, 993, 973, 987, 1276), (982, 990, 964, 980, 1373), (977, 987, 956, 974, 1470),
    (973, 983, 948, 968, 1570), (972, 980, 947, 961, 1600), (971, 979, 944, 959, 1641), (969, 978, 941, 957, 1682), (968, 976, 938, 955, 1723),
    (966, 975, 935, 953, 1770), (964, 974, 931, 951, 1820), (962, 972, 928, 948, 1869), (960, 971, 924, 946, 1926), (958, 970, 921, 944, 1982),
    (956, 968, 917, 941, 2047), (954, 967, 913, 939, 2113), (951, 965, 909, 937, 2186), (949, 963, 905, 934, 2261), (946, 962, 901, 932, 2343),
    (944, 960, 897, 929, 2426), (941, 958, 892, 927, 2520), (938, 957, 888, 925, 2619), (936, 955, 884, 922, 2721), (933, 953, 879, 921, 2834),
    (930, 951, 875, 919, 2954), (927, 949, 870, 917, 3086), (923, 948, 866, 916, 3226), (920, 946, 861, 915, 3380), (917, 944, 857, 915, 3542),
    (913, 943, 853, 915, 3715), (910, 941, 850, 916, 3897), (907, 940, 847, 917, 4092), (904, 939, 845, 920, 4295), (901, 938, 843, 923, 4513),
    (897, 937, 842, 929, 4750), (894, 937, 842, 935, 4997), (892, 937, 842, 944, 5271), (889, 937, 845, 955, 5544), (887, 939, 848, 968, 5846)]
def boxTab_13 : List (ℤ × ℤ × ℤ × ℤ × ℤ) :=
  [(995, 1001, 990, 1001, 1093), (990, 997, 980, 993, 1189), (985, 993, 970, 985, 1286), (980, 989, 961, 978, 1385), (976, 985, 952, 971, 1487),
    (971, 982, 944, 964, 1590), (970, 978, 942, 957, 1623), (968, 976, 939, 955, 1665), (966, 975, 935, 952, 1709), (965, 974, 932, 950, 1751),
    (963, 972, 928, 948, 1802), (961, 971, 925, 945, 1852), (959, 969, 921, 942, 1904), (956, 968, 917, 940, 1963), (954, 966, 913, 937, 2023),
    (952, 965, 909, 934, 2090), (949, 963, 905, 931, 2159), (947, 961, 900, 929, 2237), (944, 959, 896, 926, 2314), (941, 957, 891, 923, 2401),
    (939, 955, 886, 920, 2491), (936, 953, 881, 917, 2588), (932, 951, 876, 915, 2695), (929, 949, 871, 912, 2804), (926, 947, 866, 909, 2922),
    (923, 945, 861, 907, 3051), (919, 943, 856, 905, 3189), (916, 941, 851, 903, 3339), (912, 939, 846, 901, 3501), (908, 937, 841, 900, 3674),
    (904, 935, 836, 900, 3861), (901, 933, 832, 900, 4057), (897, 931, 828, 900, 4267), (893, 929, 824, 902, 4493), (889, 928, 822, 904, 4723),
    (886, 927, 819, 909, 4985), (882, 926, 818, 914, 5253), (879, 926, 817, 923, 5551), (876, 925, 818, 932, 5855)]
def boxTab_14 : List (ℤ × ℤ × ℤ × ℤ × ℤ) :=
  [(994, 1001, 989, 1001, 1097), (989, 996, 978, 992, 1195), (984, 992, 968, 984, 1296), (979, 988, 958, 976, 1399), (974, 984, 948, 968, 1505),
    (969, 980, 939, 961, 1612), (967, 975, 937, 952, 1646), (965, 974, 933, 950, 1691), (964, 973, 930, 947, 1734), (962, 971, 926, 944, 1780),
    (959, 970, 922, 942, 1833), (957, 968, 918, 939, 1886), (955, 966, 914, 936, 1940), (953, 965, 910, 933, 2001), (950, 963, 906, 930, 2063),
    (948, 961, 901, 927, 2135), (945, 959, 896, 924, 2208), (942, 957, 891, 920, 2289), (939, 955, 886, 917, 2372), (936, 953, 881, 914, 2463),
    (933, 950, 876, 910, 2555), (930, 948, 870, 907, 2660), (926, 946, 864, 904, 2774), (923, 943, 859, 900, 2888), (920, 941, 853, 898, 3015),
    (916, 939, 847, 895, 3152), (912, 936, 841, 892, 3302), (908, 934, 835, 889, 3463), (904, 931, 829, 887, 3637), (899, 929, 824, 885, 3819),
    (895, 926, 818, 884, 4021), (891, 924, 813, 883, 4232), (887, 922, 808, 883, 4460), (882, 920, 804, 884, 4698), (878, 918, 800, 885, 4954),
    (874, 916, 796, 889, 5239), (870, 915, 794, 893, 5530), (865, 914, 792, 900, 5854), (862, 913, 791, 909, 6193)]
def boxTab_15 : List (ℤ × ℤ × ℤ × ℤ × ℤ) :=
  [(994, 1001, 988, 1001, 1100), (988, 996, 977, 991, 1201), (982, 991, 966, 982, 1305), (977, 987, 955, 973, 1412), (972, 982, 944, 965, 1523),
    (966, 978, 934, 957, 1635), (965, 973, 932, 948, 1670), (963, 972, 928, 945, 1716), (961, 970, 924, 942, 1763), (959, 968, 920, 939, 1810),
    (956, 967, 916, 936, 1864), (954, 965, 912, 933, 1919), (952, 963, 907, 930, 1977), (949, 961, 903, 926, 2040), (946, 959, 898, 923, 2107),
    (943, 957, 893, 920, 2181), (941, 955, 887, 916, 2259), (937, 953, 882, 912, 2344), (934, 950, 876, 908, 2432), (931, 948, 870, 905, 2529),
    (928, 945, 865, 901, 2626), (924, 943, 859, 897, 2735), (920, 940, 852, 893, 2857), (917, 938, 846, 889, 2979), (913, 935, 840, 886, 3111),
    (909, 932, 833, 882, 3259), (904, 929, 827, 879, 3415), (900, 927, 820, 876, 3589), (895, 924, 813, 873, 3776), (891, 921, 806, 870, 3978),
    (886, 918, 800, 868, 4190), (881, 915, 794, 866, 4419), (876, 913, 788, 865, 4665), (871, 910, 782, 865, 4930), (867, 907, 778, 866, 5202),
    (862, 906, 773, 869, 5512), (857, 903, 769, 872, 5837), (852, 902, 765, 878, 6199), (848, 901, 764, 885, 6562)]
def boxTab_16 : List (ℤ × ℤ × ℤ × ℤ × ℤ) :=
  [(993, 1001, 987, 1001, 1103), (987, 995, 975, 990, 1208), (981, 990, 963, 981, 1316), (975, 985, 951, 971, 1428), (969, 980, 940, 962, 1541),
    (964, 976, 929, 953, 1658), (962, 971, 927, 943, 1695), (960, 969, 923, 940, 1742), (958, 967, 918, 937, 1792), (956, 965, 914, 933, 1841),
    (953, 964, 909, 930, 1899), (951, 962, 905, 927, 1956), (948, 960, 900, 923, 2016), (945, 958, 895, 920, 2083), (942, 955, 890, 916, 2152),
    (939, 953, 884, 912, 2232), (936, 951, 879, 908, 2310), (933, 948, 872, 904, 2403), (929, 946, 866, 899, 2495), (926, 943, 860, 895, 2596),
    (922, 940, 854, 891, 2699), (918, 938, 847, 887, 2816), (914, 935, 840, 882, 2944), (910, 932, 833, 878, 3074), (906, 929, 826, 874, 3217),
    (901, 926, 819, 869, 3372), (896, 923, 811, 865, 3544), (892, 919, 804, 862, 3726), (887, 916, 796, 858, 3928), (881, 913, 789, 855, 4141),
    (876, 909, 781, 852, 4376), (871, 906, 774, 849, 4624), (866, 903, 767, 847, 4891), (860, 900, 761, 846, 5173), (855, 897, 755, 846, 5476),
    (849, 895, 749, 848, 5815), (844, 892, 744, 850, 6171), (838, 890, 739, 855, 6567), (833, 888, 736, 861, 6975)]
def boxTab_17 : List (ℤ × ℤ × ℤ × ℤ × ℤ) :=
  [(993, 1001, 986, 1001, 1107), (986, 995, 973, 990, 1215), (980, 989, 961, 979, 1326), (974, 984, 948, 969, 1442), (967, 979, 936, 959, 1560),
    (961, 974, 924, 949, 1682), (960, 968, 922, 938, 1720), (957, 967, 917, 935, 1771), (955, 965, 912, 931, 1822), (952, 963, 908, 928, 1873),
    (950, 961, 903, 924, 1933), (947, 958, 898, 920, 1993), (944, 956, 893, 916, 2055), (941, 954, 887, 913, 2128), (938, 952, 882, 908, 2199),
    (935, 949, 875, 904, 2284), (931, 946, 869, 899, 2368), (928, 944, 863, 895, 2461), (924, 941, 856, 890, 2560), (920, 938, 849, 886, 2668),
    (916, 935, 843, 880, 2776), (912, 932, 835, 876, 2901), (908, 929, 827, 871, 3038), (903, 925, 820, 866, 3174), (899, 922, 812, 861, 3328),
    (894, 919, 804, 856, 3494), (889, 915, 796, 852, 3675), (883, 912, 787, 847, 3877), (878, 908, 779, 843, 4089), (872, 904, 770, 839, 4325),
    (866, 901, 762, 835, 4574), (861, 897, 754, 832, 4844), (855, 893, 746, 829, 5135), (849, 890, 739, 827, 5442), (843, 886, 732, 826, 5773),
    (836, 883, 724, 827, 6152), (830, 880, 718, 828, 6543), (824, 878, 712, 832, 6979), (818, 875, 707, 837, 7439)]
def boxTab_18 : List (ℤ × ℤ × ℤ × ℤ × ℤ) :=
  [(992, 1001, 985, 1001, 1110), (985, 995, 971, 989, 1222), (979, 989, 958, 977, 1338), (972, 983, 945, 966, 1457), (965, 977, 932, 955, 1580),
    (959, 972, 919, 945, 1707), (957, 966, 916, 933, 1748), (954, 964, 911, 930, 1800), (952, 962, 906, 926, 1854), (949, 960, 902, 922, 1905),
    (946, 958, 896, 918, 1969), (943, 955, 891, 914, 2032), (940, 953, 885, 909, 2099), (937, 950, 879, 905, 2174), (934, 948, 873, 901, 2250),
    (930, 945, 866, 896, 2338), (927, 942, 860, 891, 2425), (923, 939, 853, 886, 2525), (919, 936, 846, 881, 2628), (915, 933, 838, 876, 2744),
    (910, 930, 831, 870, 2859), (906, 926, 823, 865, 2990), (901, 923, 814, 860, 3137), (896, 919, 807, 854, 3280), (891, 916, 798, 849, 3444),
    (886, 912, 789, 843, 3624), (880, 908, 780, 838, 3819), (875, 904, 771, 833, 4031), (869, 900, 761, 828, 4267), (863, 896, 752, 823, 4516),
    (856, 892, 743, 818, 4787), (850, 888, 733, 814, 5086), (843, 884, 725, 811, 5397), (837, 880, 716, 808, 5740), (830, 876, 708, 806, 6104),
    (823, 872, 699, 806, 6520), (817, 868, 692, 806, 6951), (810, 865, 684, 809, 7443)]
def boxTab_19 : List (ℤ × ℤ × ℤ × ℤ × ℤ) :=
  [(992, 1001, 985, 1001, 1113), (985, 994, 970, 988, 1229), (977, 988, 955, 976, 1349), (970, 982, 941, 964, 1473), (963, 975, 927, 952, 1601),
    (956, 970, 914, 941, 1733), (954, 963, 911, 928, 1775), (951, 961, 905, 925, 1831), (949, 959, 900, 920, 1886), (946, 957, 895, 916, 1941),
    (943, 954, 889, 912, 2008), (940, 952, 883, 907, 2075), (937, 949, 878, 902, 2141), (933, 947, 871, 898, 2221), (930, 944, 865, 893, 2300),
    (926, 941, 857, 888, 2394), (922, 938, 850, 882, 2488), (918, 935, 843, 877, 2592), (913, 931, 835, 871, 2701), (909, 928, 827, 866, 2822),
    (904, 924, 819, 860, 2946), (899, 921, 810, 854, 3087), (894, 917, 801, 848, 3240), (889, 913, 793, 842, 3395), (884, 909, 783, 836, 3572),
    (878, 905, 774, 830, 3761), (872, 901, 764, 824, 3971), (866, 896, 754, 818, 4201), (859, 892, 743, 812, 4456), (853, 887, 733, 806, 4727),
    (846, 883, 723, 801, 5021), (839, 878, 713, 796, 5340), (832, 874, 703, 792, 5687), (825, 869, 693, 788, 6064), (818, 865, 684, 785, 6463),
    (810, 860, 674, 784, 6922), (803, 856, 665, 784, 7409)]
def boxTab_20 : List (ℤ × ℤ × ℤ × ℤ × ℤ) :=
  [(992, 1001, 984, 1001, 1116), (984, 994, 968, 987, 1236), (976, 987, 952, 974, 1361), (968, 980, 937, 961, 1490), (961, 974, 923, 949, 1622),
    (953, 967, 908, 936, 1761), (951, 961, 905, 923, 1804), (948, 958, 899, 919, 1862), (945, 956, 894, 915, 1919), (942, 954, 888, 910, 1978),
    (939, 951, 882, 906, 2047), (936, 948, 876, 900, 2117), (933, 946, 870, 895, 2188), (929, 943, 863, 891, 2271), (925, 940, 856, 885, 2355),
    (921, 937, 848, 880, 2453), (917, 933, 841, 874, 2550), (912, 930, 832, 868, 2664), (908, 926, 824, 861, 2779), (903, 923, 815, 855, 2908),
    (898, 919, 807, 849, 3038), (893, 915, 798, 843, 3185), (887, 911, 788, 836, 3349), (882, 906, 779, 829, 3516), (876, 902, 769, 823, 3702),
    (870, 898, 758, 816, 3911), (864, 893, 747, 809, 4138), (857, 888, 736, 803, 4387), (850, 884, 725, 796, 4657), (843, 879, 714, 790, 4952),
    (836, 874, 702, 784, 5280), (828, 868, 691, 778, 5630), (820, 863, 680, 773, 6011), (813, 858, 669, 768, 6426), (805, 853, 659, 764, 6867),
    (797, 849, 648, 762, 7375)]
def boxTab_21 : List (ℤ × ℤ × ℤ × ℤ × ℤ) :=
  [(991, 1001, 983, 1001, 1120), (983, 993, 966, 986, 1244), (974, 986, 950, 972, 1372), (966, 979, 934, 958, 1506), (958, 972, 918, 945, 1645),
    (950, 965, 903, 932, 1788), (948, 958, 899, 918, 1835), (945, 956, 893, 914, 1895), (942, 953, 887, 909, 1955), (939, 950, 881, 904, 2017),
    (935, 948, 875, 899, 2088), (932, 945, 868, 894, 2162), (928, 942, 862, 888, 2236), (924, 939, 854, 883, 2324), (920, 936, 847, 877, 2412),
    (916, 932, 838, 871, 2517), (912, 929, 831, 865, 2618), (907, 925, 822, 858, 2737), (902, 921, 813, 851, 2859), (897, 917, 804, 845, 2995),
    (892, 913, 795, 838, 3134), (886, 909, 785, 831, 3291), (880, 905, 774, 824, 3469), (875, 900, 764, 816, 3648), (868, 895, 753, 809, 3849),
    (862, 890, 742, 802, 4070), (855, 886, 730, 795, 4316), (848, 880, 719, 787, 4580), (840, 875, 706, 780, 4880), (833, 870, 694, 773, 5202),
    (825, 864, 682, 766, 5552), (817, 859, 669, 759, 5944), (809, 853, 657, 753, 6363), (800, 847, 645, 748, 6821), (792, 842, 634, 743, 7310),
    (783, 837, 621, 740, 7887)]
def boxTab_22 : List (ℤ × ℤ × ℤ × ℤ × ℤ) :=
  [(991, 1001, 982, 1001, 1124), (982, 993, 964, 985, 1252), (973, 985, 947, 970, 1385), (964, 978, 930, 956, 1524), (956, 970, 913, 941, 1669),
    (948, 963, 897, 928, 1818), (945, 955, 893, 912, 1867), (942, 953, 887, 908, 1928), (939, 950, 881, 903, 1991), (935, 947, 874, 897, 2057),
    (932, 944, 867, 892, 2132), (928, 941, 860, 886, 2210), (924, 938, 853, 881, 2288), (920, 935, 845, 875, 2380), (916, 931, 838, 869, 2472),
    (911, 928, 829, 862, 2580), (906, 924, 820, 855, 2692), (901, 920, 811, 849, 2816), (896, 916, 802, 841, 2944), (891, 912, 792, 834, 3089),
    (885, 907, 782, 827, 3239), (879, 903, 771, 819, 3408), (873, 898, 760, 812, 3595), (867, 893, 749, 803, 3788), (860, 888, 738, 796, 4000),
    (853, 883, 726, 788, 4239), (846, 878, 713, 780, 4506), (838, 872, 700, 772, 4799), (830, 866, 687, 764, 5120), (822, 860, 674, 756, 5471),
    (814, 855, 660, 748, 5864), (805, 848, 647, 740, 6286), (796, 842, 634, 733, 6748), (787, 836, 621, 727, 7255), (778, 830, 608, 721, 7812)]
def boxTab_23 : List (ℤ × ℤ × ℤ × ℤ × ℤ) :=
  [(990, 1001, 981, 1001, 1127), (981, 992, 962, 984, 1260), (972, 984, 944, 968, 1398), (962, 976, 926, 953, 1542), (953, 968, 908, 938, 1693),
    (945, 961, 891, 923, 1849), (942, 952, 887, 907, 1899), (939, 950, 880, 902, 1965), (935, 947, 874, 897, 2029), (932, 944, 867, 891, 2098),
    (928, 941, 860, 886, 2176), (924, 937, 852, 879, 2259), (920, 934, 845, 873, 2340), (915, 931, 836, 867, 2439), (911, 927, 828, 860, 2537),
    (906, 923, 819, 854, 2650), (901, 919, 810, 846, 2766), (896, 915, 800, 839, 2899), (890, 910, 790, 831, 3036), (884, 906, 779, 823, 3192),
    (879, 901, 769, 815, 3349), (872, 897, 758, 807, 3527), (866, 892, 746, 799, 3727), (859, 886, 734, 790, 3936), (852, 881, 722, 782, 4166),
    (845, 875, 709, 773, 4425), (837, 870, 696, 765, 4709), (829, 864, 682, 756, 5027), (820, 857, 668, 747, 5377), (812, 851, 653, 738, 5770),
    (803, 845, 639, 730, 6193), (793, 838, 624, 721, 6669), (784, 832, 610, 713, 7182), (774, 825, 595, 706, 7759)]
def boxTab_24 : List (ℤ × ℤ × ℤ × ℤ × ℤ) :=
  [(990, 1001, 980, 1001, 1131), (980, 992, 960, 983, 1269), (970, 983, 941, 966, 1411), (960, 975, 922, 950, 1561), (951, 966, 903, 934, 1718),
    (942, 958, 885, 918, 1881), (939, 949, 881, 901, 1933), (935, 947, 874, 896, 2001), (932, 944, 867, 890, 2070), (928, 940, 860, 884, 2140),
    (924, 937, 852, 879, 2224), (920, 934, 844, 872, 2310), (916, 930, 836, 865, 2397), (911, 927, 827, 859, 2499), (906, 923, 818, 852, 2604),
    (901, 919, 808, 845, 2725), (896, 914, 799, 836, 2846), (890, 910, 788, 829, 2989), (884, 905, 778, 820, 3132), (878, 900, 767, 812, 3296),
    (872, 895, 756, 803, 3465), (865, 890, 744, 795, 3657), (858, 885, 731, 786, 3873), (851, 879, 719, 777, 4094), (844, 873, 706, 768, 4343),
    (836, 868, 692, 759, 4624), (828, 861, 677, 749, 4940), (819, 855, 663, 740, 5280), (810, 848, 648, 730, 5663), (801, 842, 632, 720, 6095),
    (791, 835, 617, 711, 6562), (781, 828, 601, 702, 7089), (771, 821, 585, 693, 7672)]
def boxTab_25 : List (ℤ × ℤ × ℤ × ℤ × ℤ) :=
  [(989, 1001, 979, 1001, 1135), (979, 991, 958, 982, 1277), (968, 982, 938, 965, 1425), (958, 973, 918, 947, 1580), (948, 964, 898, 930, 1744),
    (939, 956, 879, 914, 1914), (936, 947, 874, 895, 1970), (932, 944, 867, 890, 2040), (928, 940, 860, 884, 2111), (924, 937, 852, 878, 2187),
    (920, 934, 844, 872, 2274), (915, 930, 835, 864, 2365), (911, 926, 827, 857, 2456), (906, 922, 818, 851, 2562), (901, 918, 809, 843, 2672),
    (895, 914, 798, 835, 2801), (890, 909, 788, 827, 2931), (884, 905, 777, 819, 3080), (878, 899, 766, 810, 3234), (871, 894, 754, 801, 3409),
    (865, 889, 742, 791, 3592), (858, 884, 729, 783, 3799), (850, 878, 716, 773, 4028), (843, 872, 703, 763, 4267), (835, 866, 689, 753, 4538),
    (827, 860, 674, 743, 4843), (818, 853, 659, 733, 5181), (809, 846, 643, 723, 5562), (799, 839, 627, 713, 5983), (789, 832, 611, 702, 6449),
    (779, 825, 594, 692, 6977), (769, 817, 577, 682, 7563), (758, 809, 560, 673, 8216)]
def boxTab_26 : List (ℤ × ℤ × ℤ × ℤ × ℤ) :=
  [(989, 1001, 978, 1001, 1139), (978, 991, 956, 981, 1286), (967, 981, 934, 963, 1440), (956, 972, 914, 944, 1600), (946, 962, 893, 926, 1770),
    (935, 953, 873, 909, 1948), (932, 944, 868, 890, 2005), (928, 941, 860, 884, 2080), (924, 937, 852, 877, 2157), (920, 933, 845, 871, 2233),
    (916, 930, 836, 864, 2325), (911, 926, 827, 857, 2420), (906, 922, 818, 849, 2518), (901, 918, 808, 842, 2631), (896, 913, 798, 834, 2748),
    (890, 909, 787, 826, 2884), (884, 904, 777, 817, 3019), (878, 899, 765, 808, 3179), (872, 894, 753, 799, 3345), (865, 888, 740, 790, 3534),
    (858, 883, 728, 779, 3726), (850, 877, 715, 770, 3945), (843, 871, 700, 760, 4198), (835, 864, 687, 749, 4452), (826, 858, 672, 739, 4746),
    (818, 851, 656, 728, 5079), (808, 845, 640, 717, 5448), (799, 837, 623, 706, 5867), (789, 830, 606, 695, 6331), (778, 822, 588, 684, 6858),
    (767, 814, 571, 673, 7434), (756, 806, 553, 662, 8089)]
def boxTab_27 : List (ℤ × ℤ × ℤ × ℤ × ℤ) :=
  [(988, 1001, 976, 1001, 1145), (977, 990, 954, 980, 1295), (965, 980, 931, 961, 1455), (954, 970, 909, 941, 1623), (943, 960, 888, 922, 1798),
    (932, 951, 866, 904, 1986), (929, 940, 861, 884, 2045), (925, 937, 853, 878, 2122), (921, 934, 845, 871, 2202), (916, 930, 837, 864, 2283),
    (911, 926, 827, 857, 2382), (907, 922, 818, 849, 2480), (902, 918, 809, 841, 2582), (896, 913, 798, 833, 2703), (891, 909, 788, 825, 2825),
    (884, 904, 776, 816, 2970), (878, 899, 765, 807, 3116), (872, 894, 753, 798, 3284), (865, 888, 740, 787, 3462), (858, 882, 727, 778, 3661),
    (851, 876, 714, 767, 3869), (843, 870, 700, 757, 4105), (834, 864, 684, 746, 4379), (826, 857, 670, 734, 4656), (817, 850, 654, 724, 4977),
    (808, 843, 638, 712, 5333), (798, 836, 621, 701, 5738), (788, 828, 603, 689, 6198), (777, 820, 584, 677, 6722), (766, 812, 566, 665, 7296),
    (755, 804, 547, 654, 7952)]
def boxTab_28 : List (ℤ × ℤ × ℤ × ℤ × ℤ) :=
  [(987, 1001, 975, 1001, 1149), (975, 990, 951, 979, 1305), (964, 979, 928, 958, 1470), (952, 969, 905, 938, 1644), (940, 958, 882, 918, 1828),
    (929, 948, 860, 899, 2022), (926, 937, 854, 877, 2086), (921, 934, 846, 871, 2166), (917, 930, 837, 864, 2251), (912, 926, 829, 856, 2335),
    (907, 922, 819, 849, 2438), (902, 918, 809, 841, 2543), (897, 913, 799, 832, 2652), (891, 909, 788, 824, 2779), (885, 904, 777, 815, 2910),
    (879, 899, 765, 806, 3061), (872, 893, 753, 796, 3218), (865, 888, 740, 787, 3398), (858, 882, 727, 776, 3586), (851, 876, 713, 766, 3800),
    (843, 869, 699, 754, 4025), (835, 863, 684, 744, 4282), (826, 857, 668, 732, 4573), (818, 849, 653, 720, 4874), (808, 842, 636, 708, 5225),
    (798, 835, 619, 697, 5616), (788, 827, 601, 684, 6061), (777, 819, 582, 672, 6569)]
def boxTab_29 : List (ℤ × ℤ × ℤ × ℤ × ℤ) :=
  [(987, 1001, 974, 1001, 1154), (974, 989, 949, 978, 1315), (962, 978, 924, 956, 1486), (950, 967, 900, 935, 1667), (937, 956, 877, 914, 1857),
    (925, 945, 853, 893, 2062), (922, 934, 847, 871, 2128), (917, 931, 838, 865, 2214), (913, 926, 829, 857, 2302), (908, 922, 820, 849, 2392),
    (903, 918, 810, 841, 2499), (897, 914, 800, 833, 2609), (892, 909, 790, 824, 2722), (886, 904, 778, 815, 2857), (880, 899, 767, 806, 2994),
    (873, 894, 754, 796, 3156), (866, 888, 741, 786, 3325), (859, 882, 727, 776, 3519), (851, 876, 714, 764, 3716), (843, 870, 699, 753, 3948),
    (836, 863, 684, 741, 4192), (827, 856, 669, 730, 4463), (818, 849, 652, 718, 4780), (809, 841, 636, 705, 5109), (799, 834, 618, 693, 5493),
    (789, 826, 599, 680, 5932), (778, 818, 580, 667, 6424)]
def boxTab_30 : List (ℤ × ℤ × ℤ × ℤ × ℤ) :=
  [(986, 1001, 973, 1001, 1158), (973, 989, 947, 977, 1325), (960, 977, 921, 954, 1502), (947, 965, 896, 932, 1690), (935, 954, 871, 910, 1890),
    (922, 943, 846, 888, 2104), (918, 931, 840, 865, 2172), (914, 927, 831, 858, 2261), (909, 923, 821, 850, 2355), (904, 918, 812, 841, 2449),
    (898, 914, 801, 834, 2563), (892, 909, 790, 824, 2680), (887, 904, 780, 815, 2798), (880, 899, 767, 806, 2944), (874, 894, 755, 796, 3091),
    (867, 888, 742, 786, 3261), (860, 882, 729, 775, 3438), (852, 876, 714, 764, 3646), (844, 869, 700, 752, 3860), (836, 863, 684, 741, 4111),
    (828, 856, 669, 728, 4369), (819, 849, 652, 716, 4672), (809, 841, 635, 704, 5010), (799, 833, 618, 690, 5370), (789, 825, 599, 677, 5792),
    (778, 817, 580, 664, 6265)]
def boxTab_31 : List (ℤ × ℤ × ℤ × ℤ × ℤ) :=
  [(986, 1001, 972, 1001, 1163), (972, 988, 944, 976, 1336), (958, 976, 917, 952, 1520), (945, 964, 891, 928, 1715), (932, 952, 865, 905, 1923),
    (918, 940, 839, 883, 2147), (915, 927, 833, 858, 2218), (910, 924, 823, 851, 2313), (904, 919, 813, 842, 2410), (899, 915, 803, 834, 2510),
    (893, 910, 792, 825, 2629), (887, 905, 780, 816, 2755), (882, 900, 769, 806, 2882), (875, 894, 756, 797, 3034), (868, 889, 744, 786, 3188),
    (861, 883, 730, 775, 3371), (853, 876, 716, 764, 3562), (845, 870, 701, 753, 3781), (837, 863, 686, 740, 4012), (828, 856, 669, 728, 4284),
    (820, 849, 653, 715, 4565), (810, 841, 636, 702, 4887), (800, 834, 617, 689, 5265), (790, 825, 599, 674, 5661), (779, 817, 580, 661, 6116)]
def boxTab_32 : List (ℤ × ℤ × ℤ × ℤ × ℤ) :=
  [(985, 1001, 971, 1001, 1167), (971, 988, 942, 975, 1346), (956, 975, 914, 950, 1536), (942, 962, 886, 925, 1741), (929, 949, 859, 901, 1958),
    (915, 937, 832, 877, 2192), (911, 924, 825, 851, 2268), (906, 920, 815, 844, 2366), (900, 915, 805, 835, 2467), (895, 910, 794, 826, 2575),
    (889, 906, 782, 817, 2702), (882, 900, 771, 807, 2830), (876, 895, 759, 797, 2966), (869, 889, 745, 787, 3129), (862, 883, 732, 775, 3295),
    (855, 877, 717, 765, 3491), (847, 871, 703, 752, 3692), (838, 864, 687, 741, 3930), (830, 857, 671, 727, 4181), (821, 849, 654, 715, 4469),
    (811, 842, 637, 701, 4775), (802, 834, 619, 688, 5127), (791, 826, 599, 674, 5541), (780, 817, 580, 659, 5977)]
def boxTab_33 : List (ℤ × ℤ × ℤ × ℤ × ℤ) :=
  [(984, 1001, 969, 1001, 1173), (969, 987, 939, 974, 1358), (955, 973, 910, 947, 1555), (940, 960, 881, 921, 1767), (925, 947, 853, 896, 1994),
    (911, 934, 825, 871, 2238), (907, 921, 818, 844, 2317), (901, 916, 807, 837, 2422), (896, 911, 796, 827, 2530), (890, 906, 785, 818, 2642),
    (884, 901, 773, 809, 2775), (877, 896, 760, 798, 2915), (871, 890, 748, 787, 3058), (864, 884, 734, 777, 3229), (856, 878, 720, 765, 3407),
    (848, 872, 705, 754, 3614), (840, 865, 690, 741, 3831), (831, 858, 673, 729, 4088), (822, 850, 656, 715, 4360), (813, 842, 638, 702, 4674)]
def boxTab_34 : List (ℤ × ℤ × ℤ × ℤ × ℤ) :=
  [(984, 1001, 968, 1001, 1178), (968, 986, 937, 973, 1369), (953, 972, 906, 945, 1574), (937, 958, 876, 918, 1795), (922, 945, 846, 891, 2033),
    (907, 931, 817, 866, 2289), (903, 917, 810, 837, 2371), (897, 913, 798, 829, 2483), (891, 907, 787, 819, 2596), (886, 902, 776, 809, 2713),
    (879, 897, 763, 800, 2854), (872, 891, 750, 789, 3001), (865, 885, 737, 777, 3155), (858, 879, 722, 767, 3338), (850, 872, 708, 754, 3526),
    (841, 866, 692, 743, 3749), (833, 858, 676, 729, 3984), (824, 851, 658, 716, 4262), (815, 843, 641, 702, 4551)]
def boxTab_35 : List (ℤ × ℤ × ℤ × ℤ × ℤ) :=
  [(983, 1001, 967, 1001, 1184), (967, 986, 934, 971, 1381), (951, 971, 902, 942, 1594), (935, 956, 871, 914, 1823), (919, 942, 840, 887, 2072),
    (903, 928, 809, 860, 2343), (899, 913, 802, 830, 2428), (893, 909, 790, 822, 2544), (887, 903, 778, 811, 2665), (881, 898, 766, 801, 2790),
    (874, 892, 752, 791, 2942), (867, 886, 739, 779, 3096), (860, 880, 726, 767, 3256), (852, 874, 710, 756, 3454), (844, 867, 695, 743, 3656),
    (835, 860, 678, 731, 3898), (826, 852, 662, 717, 4146)]
def boxTab : List (List (ℤ × ℤ × ℤ × ℤ × ℤ)) :=
  [boxTab_0, boxTab_1, boxTab_2, boxTab_3, boxTab_4, boxTab_5, boxTab_6, boxTab_7,
    boxTab_8, boxTab_9, boxTab_10, boxTab_11, boxTab_12, boxTab_13, boxTab_14, boxTab_15,
    boxTab_16, boxTab_17, boxTab_18, boxTab_19, boxTab_20, boxTab_21, boxTab_22, boxTab_23,
    boxTab_24, boxTab_25, boxTab_26, boxTab_27, boxTab_28, boxTab_29, boxTab_30, boxTab_31,
    boxTab_32, boxTab_33, boxTab_34, boxTab_35]

def cellTab_0 : List (ℕ × ℕ × ℕ × ℕ × ℕ) :=
  [(100, 997, 1103, 0, 1), (100, 997, 1154, 0, 2), (100, 997, 1204, 1, 3), (100, 997, 1255, 2, 4), (100, 997, 1305, 3, 5),
    (100, 997, 1341, 4, 7), (100, 997, 1361, 5, 8), (100, 997, 1381, 5, 9), (100, 999, 1405, 6, 10), (100, 999, 1427, 7, 11),
    (100, 999, 1451, 8, 12), (100, 999, 1477, 9, 13), (100, 999, 1505, 10, 14), (100, 1000, 1535, 11, 15), (100, 1000, 1565, 12, 16),
    (100, 1000, 1597, 13, 17), (100, 1000, 1631, 14, 18), (100, 1001, 1667, 15, 19), (100, 1001, 1703, 16, 20), (100, 1003, 1743, 17, 21),
    (100, 1003, 1786, 18, 22), (100, 1004, 1828, 19, 23), (100, 1005, 1875, 20, 24), (100, 1006, 1923, 21, 25), (100, 1008, 1976, 22, 26),
    (120, 1008, 2089, 22, 28), (120, 1010, 2149, 23, 29), (120, 1011, 2213, 24, 30), (140, 1013, 2278, 25, 31), (140, 1015, 2348, 26, 32),
    (160, 1017, 2418, 27, 33), (160, 1020, 2492, 28, 34), (180, 1020, 2654, 28, 36), (200, 1023, 2742, 29, 37), (220, 1027, 2927, 30, 39),
    (220, 1027, 3026, 30, 40), (240, 1031, 3124, 31, 41)]
def cellTab_1 : List (ℕ × ℕ × ℕ × ℕ × ℕ) :=
  [(100, 997, 1108, 0, 1), (100, 997, 1161, 0, 2), (100, 996, 1215, 1, 3), (100, 996, 1268, 2, 4), (100, 995, 1323, 3, 5),
    (100, 995, 1360, 4, 7), (100, 995, 1382, 5, 8), (100, 995, 1403, 5, 9), (100, 997, 1428, 6, 10), (100, 997, 1453, 7, 11),
    (100, 997, 1478, 8, 12), (100, 997, 1507, 9, 13), (100, 997, 1534, 10, 14), (100, 997, 1567, 11, 15), (100, 997, 1598, 12, 16),
    (100, 997, 1634, 13, 17), (100, 998, 1669, 14, 18), (100, 998, 1709, 15, 19), (100, 999, 1746, 16, 20), (100, 1000, 1790, 17, 21),
    (100, 1000, 1836, 18, 22), (100, 1000, 1881, 19, 23), (100, 1001, 1929, 20, 24), (100, 1001, 1982, 21, 25), (100, 1002, 2038, 22, 26),
    (100, 1004, 2097, 23, 27), (100, 1006, 2160, 24, 28), (120, 1006, 2292, 24, 30), (120, 1007, 2365, 25, 31), (120, 1009, 2438, 26, 32),
    (140, 1011, 2516, 27, 33), (160, 1014, 2595, 28, 34), (160, 1017, 2682, 29, 35), (180, 1017, 2865, 29, 37), (180, 1020, 2961, 30, 38),
    (200, 1023, 3062, 31, 39), (220, 1023, 3277, 31, 41)]
def cellTab_2 : List (ℕ × ℕ × ℕ × ℕ × ℕ) :=
  [(100, 997, 1113, 0, 1), (100, 996, 1170, 0, 2), (100, 995, 1227, 1, 3), (100, 995, 1283, 2, 4), (100, 993, 1341, 3, 5),
    (100, 993, 1381, 4, 7), (100, 993, 1404, 5, 8), (100, 993, 1426, 5, 9), (100, 994, 1453, 6, 10), (100, 994, 1479, 7, 11),
    (100, 994, 1505, 8, 12), (100, 994, 1536, 9, 13), (100, 994, 1566, 10, 14), (100, 994, 1600, 11, 15), (100, 994, 1635, 12, 16),
    (100, 995, 1673, 13, 17), (100, 995, 1710, 14, 18), (100, 995, 1752, 15, 19), (100, 995, 1793, 16, 20), (100, 995, 1839, 17, 21),
    (100, 996, 1889, 18, 22), (100, 996, 1937, 19, 23), (100, 997, 1990, 20, 24), (100, 997, 2046, 21, 25), (100, 998, 2106, 22, 26),
    (100, 999, 2171, 23, 27), (100, 1000, 2237, 24, 28), (100, 1001, 2307, 25, 29), (100, 1002, 2382, 26, 30), (100, 1003, 2458, 27, 31),
    (120, 1003, 2622, 27, 33), (120, 1006, 2707, 28, 34), (140, 1009, 2801, 29, 35), (160, 1011, 2896, 30, 36), (160, 1015, 3000, 31, 37),
    (180, 1015, 3214, 31, 39), (200, 1019, 3330, 32, 40)]
def cellTab_3 : List (ℕ × ℕ × ℕ × ℕ × ℕ) :=
  [(100, 996, 1120, 0, 1), (100, 995, 1179, 0, 2), (100, 993, 1239, 1, 3), (100, 992, 1299, 2, 4), (100, 992, 1359, 3, 5),
    (100, 992, 1402, 4, 7), (100, 992, 1427, 5, 8), (100, 991, 1451, 5, 9), (100, 991, 1480, 6, 10), (100, 991, 1507, 7, 11),
    (100, 991, 1536, 8, 12), (100, 991, 1567, 9, 13), (100, 990, 1600, 10, 14), (100, 990, 1636, 11, 15), (100, 990, 1674, 12, 16),
    (100, 990, 1714, 13, 17), (100, 990, 1755, 14, 18), (100, 990, 1798, 15, 19), (100, 990, 1844, 16, 20), (100, 990, 1891, 17, 21),
    (100, 990, 1946, 18, 22), (100, 991, 1997, 19, 23), (100, 991, 2055, 20, 24), (100, 991, 2115, 21, 25), (100, 991, 2180, 22, 26),
    (100, 993, 2248, 23, 27), (100, 993, 2322, 24, 28), (100, 994, 2398, 25, 29), (100, 995, 2477, 26, 30), (100, 997, 2560, 27, 31),
    (100, 998, 2648, 28, 32), (100, 1000, 2737, 29, 33), (120, 1000, 2933, 29, 35), (120, 1002, 3036, 30, 36), (140, 1006, 3148, 31, 37),
    (160, 1009, 3262, 32, 38), (160, 1013, 3381, 33, 39)]
def cellTab_4 : List (ℕ × ℕ × ℕ × ℕ × ℕ) :=
  [(100, 995, 1125, 0, 1), (100, 993, 1189, 0, 2), (100, 992, 1252, 1, 3), (100, 990, 1315, 2, 4), (100, 989, 1380, 3, 5),
    (100, 989, 1426, 4, 7), (100, 988, 1451, 5, 8), (100, 988, 1477, 5, 9), (100, 988, 1507, 6, 10), (100, 987, 1537, 7, 11),
    (100, 987, 1567, 8, 12), (100, 987, 1601, 9, 13), (100, 986, 1636, 10, 14), (100, 986, 1675, 11, 15), (100, 986, 1713, 12, 16),
    (100, 986, 1757, 13, 17), (100, 986, 1800, 14, 18), (100, 985, 1849, 15, 19), (100, 985, 1896, 16, 20), (100, 985, 1948, 17, 21),
    (100, 985, 2006, 18, 22), (100, 985, 2061, 19, 23), (100, 985, 2124, 20, 24), (100, 985, 2189, 21, 25), (100, 985, 2258, 22, 26),
    (100, 986, 2332, 23, 27), (100, 986, 2412, 24, 28), (100, 986, 2494, 25, 29), (100, 987, 2581, 26, 30), (100, 988, 2670, 27, 31),
    (100, 989, 2766, 28, 32), (100, 991, 2862, 29, 33), (100, 993, 2965, 30, 34), (100, 996, 3078, 31, 35), (120, 996, 3312, 31, 37),
    (120, 999, 3435, 32, 38), (140, 1002, 3567, 33, 39)]
def cellTab_5 : List (ℕ × ℕ × ℕ × ℕ × ℕ) :=
  [(100, 994, 1132, 0, 1), (100, 992, 1198, 0, 2), (100, 990, 1265, 1, 3), (100, 988, 1333, 2, 4), (100, 986, 1401, 3, 5),
    (100, 986, 1449, 4, 7), (100, 985, 1477, 5, 8), (100, 985, 1504, 5, 9), (100, 984, 1537, 6, 10), (100, 984, 1568, 7, 11),
    (100, 983, 1599, 8, 12), (100, 982, 1637, 9, 13), (100, 982, 1673, 10, 14), (100, 982, 1714, 11, 15), (100, 980, 1757, 12, 16),
    (100, 980, 1804, 13, 17), (100, 979, 1850, 14, 18), (100, 979, 1901, 15, 19), (100, 979, 1951, 16, 20), (100, 979, 2008, 17, 21),
    (100, 978, 2070, 18, 22), (100, 978, 2131, 19, 23), (100, 978, 2197, 20, 24), (100, 978, 2268, 21, 25), (100, 978, 2343, 22, 26),
    (100, 978, 2423, 23, 27), (100, 978, 2507, 24, 28), (100, 978, 2597, 25, 29), (100, 979, 2693, 26, 30), (100, 979, 2790, 27, 31),
    (100, 980, 2894, 28, 32), (100, 981, 2998, 29, 33), (100, 982, 3110, 30, 34), (100, 984, 3232, 31, 35), (100, 987, 3356, 32, 36),
    (100, 990, 3490, 33, 37), (100, 994, 3626, 34, 38)]
def cellTab_6 : List (ℕ × ℕ × ℕ × ℕ × ℕ) :=
  [(100, 992, 1139, 0, 1), (100, 989, 1209, 0, 2), (100, 986, 1280, 1, 3), (100, 984, 1352, 2, 4), (100, 982, 1423, 3, 5),
    (100, 982, 1475, 4, 7), (100, 981, 1504, 5, 8), (100, 980, 1533, 5, 9), (100, 980, 1566, 6, 10), (100, 979, 1600, 7, 11),
    (100, 978, 1635, 8, 12), (100, 977, 1674, 9, 13), (100, 976, 1714, 10, 14), (100, 975, 1759, 11, 15), (100, 975, 1802, 12, 16),
    (100, 973, 1852, 13, 17), (100, 973, 1901, 14, 18), (100, 972, 1957, 15, 19), (100, 972, 2011, 16, 20), (100, 970, 2073, 17, 21),
    (100, 970, 2138, 18, 22), (100, 970, 2204, 19, 23), (100, 970, 2275, 20, 24), (100, 970, 2351, 21, 25), (100, 970, 2432, 22, 26),
    (100, 970, 2519, 23, 27), (100, 970, 2613, 24, 28), (100, 970, 2710, 25, 29), (100, 970, 2812, 26, 30), (100, 970, 2921, 27, 31),
    (100, 970, 3030, 28, 32), (100, 970, 3148, 29, 33), (100, 971, 3269, 30, 34), (100, 972, 3405, 31, 35), (100, 975, 3539, 32, 36),
    (100, 977, 3689, 33, 37), (100, 980, 3837, 34, 38)]
def cellTab_7 : List (ℕ × ℕ × ℕ × ℕ × ℕ) :=
  [(100, 991, 1146, 0, 1), (100, 987, 1220, 0, 2), (100, 984, 1294, 1, 3), (100, 981, 1370, 2, 4), (100, 978, 1447, 3, 5),
    (100, 978, 1501, 4, 7), (100, 978, 1531, 5, 8), (100, 977, 1562, 5, 9), (100, 975, 1599, 6, 10), (100, 974, 1635, 7, 11),
    (100, 974, 1671, 8, 12), (100, 973, 1712, 9, 13), (100, 971, 1756, 10, 14), (100, 970, 1803, 11, 15), (100, 969, 1850, 12, 16),
    (100, 967, 1904, 13, 17), (100, 966, 1958, 14, 18), (100, 965, 2016, 15, 19), (100, 964, 2075, 16, 20), (100, 963, 2140, 17, 21),
    (100, 962, 2211, 18, 22), (100, 962, 2281, 19, 23), (100, 961, 2359, 20, 24), (100, 960, 2440, 21, 25), (100, 959, 2531, 22, 26),
    (100, 959, 2623, 23, 27), (100, 958, 2725, 24, 28), (100, 958, 2832, 25, 29), (100, 958, 2942, 26, 30), (100, 958, 3061, 27, 31),
    (100, 958, 3183, 28, 32), (100, 958, 3311, 29, 33), (100, 959, 3444, 30, 34), (100, 960, 3592, 31, 35), (100, 962, 3742, 32, 36),
    (100, 964, 3904, 33, 37), (100, 966, 4070, 34, 38)]
def cellTab_8 : List (ℕ × ℕ × ℕ × ℕ × ℕ) :=
  [(100, 989, 1153, 0, 1), (100, 985, 1231, 0, 2), (100, 982, 1310, 1, 3), (100, 978, 1390, 2, 4), (100, 975, 1470, 3, 5),
    (100, 975, 1528, 4, 7), (100, 974, 1562, 5, 8), (100, 973, 1593, 5, 9), (100, 971, 1632, 6, 10), (100, 970, 1672, 7, 11),
    (100, 969, 1709, 8, 12), (100, 968, 1754, 9, 13), (100, 966, 1800, 10, 14), (100, 964, 1851, 11, 15), (100, 964, 1900, 12, 16),
    (100, 962, 1957, 13, 17), (100, 961, 2015, 14, 18), (100, 959, 2079, 15, 19), (100, 957, 2143, 16, 20), (100, 956, 2212, 17, 21),
    (100, 955, 2289, 18, 22), (100, 954, 2364, 19, 23), (100, 952, 2449, 20, 24), (100, 951, 2538, 21, 25), (100, 950, 2634, 22, 26),
    (120, 948, 2845, 22, 28), (120, 947, 2964, 23, 29), (120, 947, 3085, 24, 30), (120, 947, 3214, 25, 31), (120, 947, 3348, 26, 32),
    (120, 947, 3491, 27, 33), (140, 947, 3636, 28, 34), (140, 947, 3798, 29, 35), (140, 947, 3966, 30, 36), (140, 947, 4148, 31, 37),
    (140, 948, 4328, 32, 38), (140, 948, 4524, 33, 39)]
def cellTab_9 : List (ℕ × ℕ × ℕ × ℕ × ℕ) :=
  [(100, 987, 1161, 0, 1), (100, 983, 1242, 0, 2), (100, 979, 1326, 1, 3), (100, 975, 1411, 2, 4), (100, 972, 1496, 3, 5),
    (100, 971, 1558, 4, 7), (100, 970, 1593, 5, 8), (100, 968, 1628, 5, 9), (100, 967, 1669, 6, 10), (100, 966, 1710, 7, 11),
    (100, 964, 1751, 8, 12), (100, 963, 1798, 9, 13), (100, 961, 1845, 10, 14), (100, 959, 1901, 11, 15), (100, 958, 1955, 12, 16),
    (100, 955, 2017, 13, 17), (100, 954, 2077, 14, 18), (100, 952, 2147, 15, 19), (100, 950, 2215, 16, 20), (100, 948, 2289, 17, 21),
    (120, 944, 2455, 17, 23), (120, 942, 2545, 18, 24), (120, 941, 2641, 19, 25), (120, 938, 2749, 20, 26), (140, 937, 2858, 21, 27),
    (140, 935, 2979, 22, 28), (140, 934, 3106, 23, 29), (160, 933, 3241, 24, 30), (160, 933, 3382, 25, 31), (160, 933, 3529, 26, 32),
    (160, 933, 3686, 27, 33), (180, 933, 4030, 27, 35), (180, 933, 4215, 28, 36), (180, 933, 4415, 29, 37), (180, 933, 4617, 30, 38),
    (180, 933, 4837, 31, 39), (180, 933, 5070, 32, 40)]
def cellTab_10 : List (ℕ × ℕ × ℕ × ℕ × ℕ) :=
  [(100, 986, 1169, 0, 1), (100, 981, 1255, 0, 2), (100, 977, 1343, 1, 3), (100, 972, 1432, 2, 4), (100, 968, 1522, 3, 5),
    (100, 967, 1589, 4, 7), (100, 966, 1625, 5, 8), (100, 965, 1662, 5, 9), (100, 962, 1706, 6, 10), (100, 961, 1749, 7, 11),
    (100, 959, 1794, 8, 12), (100, 957, 1845, 9, 13), (100, 956, 1895, 10, 14), (100, 954, 1953, 11, 15), (100, 951, 2012, 12, 16),
    (100, 948, 2079, 13, 17), (100, 947, 2143, 14, 18), (120, 942, 2292, 14, 20), (120, 939, 2373, 15, 21), (120, 937, 2462, 16, 22),
    (140, 935, 2551, 17, 23), (140, 933, 2649, 18, 24), (140, 930, 2754, 19, 25), (160, 928, 2868, 20, 26), (160, 925, 2991, 21, 27),
    (160, 923, 3123, 22, 28), (180, 920, 3409, 22, 30), (180, 918, 3568, 23, 31), (180, 918, 3729, 24, 32), (200, 917, 3905, 25, 33),
    (200, 917, 4085, 26, 34), (200, 917, 4285, 27, 35), (220, 917, 4718, 28, 37), (220, 917, 4947, 29, 38), (220, 917, 5195, 30, 39),
    (240, 917, 5457, 30, 40), (240, 917, 5712, 31, 41)]
def cellTab_11 : List (ℕ × ℕ × ℕ × ℕ × ℕ) :=
  [(100, 984, 1177, 0, 1), (100, 978, 1269, 0, 2), (100, 974, 1360, 1, 3), (100, 969, 1455, 2, 4), (100, 965, 1550, 3, 5),
    (100, 963, 1621, 4, 7), (100, 962, 1659, 5, 8), (100, 960, 1699, 5, 9), (100, 958, 1745, 6, 10), (100, 956, 1792, 7, 11),
    (100, 953, 1839, 8, 12), (100, 951, 1893, 9, 13), (100, 949, 1949, 10, 14), (100, 947, 2010, 11, 15), (120, 941, 2145, 11, 17),
    (120, 939, 2214, 12, 18), (120, 937, 2293, 13, 19), (140, 933, 2374, 14, 20), (140, 930, 2462, 15, 21), (140, 927, 2558, 16, 22),
    (160, 925, 2656, 17, 23), (160, 922, 2762, 18, 24), (160, 918, 2878, 19, 25), (180, 913, 3136, 19, 27), (180, 910, 3281, 20, 28),
    (200, 908, 3432, 21, 29), (200, 905, 3594, 22, 30), (220, 902, 3768, 23, 31), (220, 901, 3950, 24, 32), (240, 899, 4348, 24, 34),
    (240, 898, 4568, 25, 35), (260, 898, 4804, 26, 36), (260, 898, 5053, 27, 37), (260, 898, 5313, 28, 38), (280, 898, 5892, 28, 40),
    (280, 898, 6188, 29, 41)]
def cellTab_12 : List (ℕ × ℕ × ℕ × ℕ × ℕ) :=
  [(100, 983, 1183, 0, 1), (100, 979, 1276, 0, 2), (100, 973, 1373, 1, 3), (100, 968, 1470, 2, 4), (100, 964, 1570, 3, 5),
    (100, 964, 1641, 4, 7), (100, 962, 1682, 5, 8), (100, 961, 1723, 5, 9), (100, 958, 1770, 6, 10), (100, 955, 1820, 7, 11),
    (100, 954, 1869, 8, 12), (100, 951, 1926, 9, 13), (120, 947, 2047, 9, 15), (120, 944, 2113, 10, 16), (120, 941, 2186, 11, 17),
    (120, 939, 2261, 12, 18), (140, 936, 2343, 13, 19), (140, 934, 2426, 14, 20), (160, 931, 2520, 15, 21), (160, 927, 2619, 16, 22),
    (160, 925, 2721, 17, 23), (180, 920, 2954, 17, 25), (180, 916, 3086, 18, 26), (200, 913, 3226, 19, 27), (200, 910, 3380, 20, 28),
    (220, 907, 3542, 21, 29), (220, 904, 3715, 22, 30), (240, 901, 4092, 22, 32), (240, 899, 4295, 23, 33), (260, 898, 4513, 24, 34),
    (260, 898, 4750, 25, 35), (280, 898, 5271, 26, 37), (280, 898, 5544, 27, 38), (300, 898, 5846, 27, 39)]
def cellTab_13 : List (ℕ × ℕ × ℕ × ℕ × ℕ) :=
  [(100, 982, 1189, 0, 1), (100, 976, 1286, 0, 2), (100, 971, 1385, 1, 3), (100, 966, 1487, 2, 4), (100, 961, 1590, 3, 5),
    (100, 961, 1665, 4, 7), (100, 958, 1709, 5, 8), (100, 956, 1751, 5, 9), (100, 954, 1802, 6, 10), (100, 952, 1852, 7, 11),
    (100, 950, 1904, 8, 12), (120, 945, 2023, 8, 14), (120, 941, 2090, 9, 15), (120, 939, 2159, 10, 16), (140, 936, 2237, 11, 17),
    (140, 934, 2314, 12, 18), (160, 931, 2401, 13, 19), (160, 927, 2491, 14, 20), (160, 924, 2588, 15, 21), (180, 917, 2804, 15, 23),
    (180, 914, 2922, 16, 24), (200, 911, 3051, 17, 25), (200, 907, 3189, 18, 26), (220, 904, 3339, 19, 27), (220, 900, 3501, 19, 28),
    (240, 894, 3861, 20, 30), (240, 891, 4057, 21, 31), (260, 889, 4267, 22, 32), (260, 886, 4493, 23, 33), (280, 883, 4985, 23, 35),
    (300, 883, 5253, 24, 36), (300, 882, 5551, 25, 37), (320, 882, 5855, 26, 38)]
def cellTab_14 : List (ℕ × ℕ × ℕ × ℕ × ℕ) :=
  [(100, 981, 1195, 0, 1), (100, 975, 1296, 0, 2), (100, 969, 1399, 1, 3), (100, 963, 1505, 2, 4), (100, 958, 1612, 3, 5),
    (100, 957, 1691, 4, 7), (100, 955, 1734, 5, 8), (100, 953, 1780, 5, 9), (100, 950, 1833, 6, 10), (120, 946, 1940, 6, 12),
    (120, 943, 2001, 7, 13), (120, 940, 2063, 8, 14), (140, 937, 2135, 9, 15), (140, 934, 2208, 10, 16), (140, 931, 2289, 11, 17),
    (160, 927, 2372, 12, 18), (160, 924, 2463, 13, 19), (180, 917, 2660, 13, 21), (180, 913, 2774, 14, 22), (200, 910, 2888, 15, 23),
    (200, 906, 3015, 16, 24), (220, 902, 3152, 17, 25), (220, 898, 3302, 18, 26), (240, 890, 3637, 18, 28), (240, 886, 3819, 19, 29),
    (260, 883, 4021, 20, 30), (280, 879, 4232, 20, 31), (280, 873, 4698, 21, 33), (300, 871, 4954, 22, 34), (320, 868, 5239, 23, 35),
    (320, 867, 5530, 24, 36), (340, 866, 6193, 24, 38)]
def cellTab_15 : List (ℕ × ℕ × ℕ × ℕ × ℕ) :=
  [(100, 980, 1201, 0, 1), (100, 974, 1305, 0, 2), (100, 967, 1412, 1, 3), (100, 961, 1523, 2, 4), (100, 955, 1635, 3, 5),
    (100, 954, 1716, 4, 7), (100, 952, 1763, 5, 8), (100, 950, 1810, 5, 9), (120, 945, 1919, 5, 11), (120, 941, 1977, 6, 12),
    (120, 939, 2040, 7, 13), (140, 936, 2107, 8, 14), (140, 933, 2181, 9, 15), (160, 928, 2259, 10, 16), (160, 925, 2344, 11, 17),
    (160, 922, 2432, 12, 18), (180, 915, 2626, 12, 20), (180, 910, 2735, 13, 21), (200, 906, 2857, 14, 22), (200, 901, 2979, 15, 23),
    (220, 898, 3111, 16, 24), (240, 890, 3415, 16, 26), (240, 884, 3589, 17, 27), (260, 879, 3776, 18, 28), (280, 875, 3978, 18, 29),
    (280, 871, 4190, 19, 30), (300, 863, 4665, 20, 32), (320, 859, 4930, 21, 33), (340, 853, 5512, 21, 35), (340, 851, 5837, 22, 36),
    (360, 848, 6199, 23, 37), (380, 847, 6562, 24, 38)]
def cellTab_16 : List (ℕ × ℕ × ℕ × ℕ × ℕ) :=
  [(100, 979, 1208, 0, 1), (100, 972, 1316, 0, 2), (100, 965, 1428, 1, 3), (100, 959, 1541, 2, 4), (100, 951, 1658, 3, 5),
    (100, 951, 1742, 4, 7), (120, 947, 1841, 5, 9), (120, 942, 1899, 5, 10), (120, 940, 1956, 5, 11), (140, 937, 2016, 6, 12),
    (140, 934, 2083, 7, 13), (140, 931, 2152, 8, 14), (160, 927, 2232, 9, 15), (160, 924, 2310, 10, 16), (180, 915, 2495, 10, 18),
    (180, 911, 2596, 11, 19), (200, 908, 2699, 12, 20), (200, 902, 2816, 13, 21), (220, 898, 2944, 14, 22), (220, 889, 3217, 15, 24),
    (240, 884, 3372, 15, 25), (260, 878, 3544, 16, 26), (260, 874, 3726, 17, 27), (280, 864, 4141, 17, 29), (300, 859, 4376, 18, 30),
    (320, 854, 4624, 19, 31), (340, 845, 5173, 19, 33), (340, 841, 5476, 20, 34), (360, 836, 5815, 21, 35), (380, 834, 6171, 22, 36),
    (400, 828, 6975, 22, 38)]
def cellTab_17 : List (ℕ × ℕ × ℕ × ℕ × ℕ) :=
  [(100, 977, 1215, 0, 1), (100, 971, 1326, 0, 2), (100, 963, 1442, 1, 3), (100, 956, 1560, 2, 4), (100, 948, 1682, 3, 5),
    (120, 945, 1822, 4, 8), (120, 942, 1873, 5, 9), (120, 939, 1933, 5, 10), (140, 937, 1993, 5, 11), (140, 934, 2055, 6, 12),
    (140, 929, 2128, 7, 13), (160, 926, 2199, 8, 14), (160, 922, 2284, 9, 15), (180, 914, 2461, 9, 17), (180, 909, 2560, 10, 18),
    (200, 905, 2668, 11, 19), (200, 901, 2776, 12, 20), (220, 895, 2901, 13, 21), (240, 886, 3174, 13, 23), (240, 880, 3328, 14, 24),
    (260, 874, 3494, 15, 25), (280, 862, 3877, 15, 27), (300, 857, 4089, 16, 28), (300, 851, 4325, 17, 29), (320, 845, 4574, 18, 30),
    (340, 835, 5135, 18, 32), (360, 830, 5442, 19, 33), (380, 826, 5773, 20, 34), (400, 815, 6543, 20, 36), (440, 808, 7439, 21, 38)]
def cellTab_18 : List (ℕ × ℕ × ℕ × ℕ × ℕ) :=
  [(100, 975, 1222, 0, 1), (100, 968, 1338, 0, 2), (100, 961, 1457, 1, 3), (100, 953, 1580, 2, 4), (100, 945, 1707, 3, 5),
    (120, 941, 1854, 4, 8), (120, 939, 1905, 5, 9), (140, 935, 1969, 5, 10), (140, 932, 2032, 5, 11), (160, 928, 2099, 6, 12),
    (160, 925, 2174, 7, 13), (160, 920, 2250, 8, 14), (180, 912, 2425, 8, 16), (180, 908, 2525, 9, 17), (200, 903, 2628, 10, 18),
    (220, 898, 2744, 11, 19), (220, 893, 2859, 12, 20), (240, 881, 3137, 12, 22), (260, 878, 3280, 13, 23), (260, 871, 3444, 14, 24),
    (280, 859, 3819, 15, 26), (300, 852, 4031, 15, 27), (320, 845, 4267, 16, 28), (340, 832, 4787, 16, 30), (360, 825, 5086, 17, 31),
    (380, 820, 5397, 18, 32), (400, 808, 6104, 18, 34), (420, 801, 6520, 19, 35), (460, 790, 7443, 19, 37)]
def cellTab_19 : List (ℕ × ℕ × ℕ × ℕ × ℕ) :=
  [(100, 975, 1229, 0, 1), (100, 966, 1349, 0, 2), (100, 958, 1473, 1, 3), (100, 950, 1601, 2, 4), (120, 942, 1733, 3, 5),
    (120, 938, 1886, 4, 8), (140, 935, 1941, 5, 9), (140, 931, 2008, 5, 10), (160, 927, 2075, 5, 11), (160, 925, 2141, 6, 12),
    (160, 919, 2221, 7, 13), (180, 910, 2394, 7, 15), (180, 906, 2488, 8, 16), (200, 901, 2592, 9, 17), (220, 896, 2701, 10, 18),
    (220, 891, 2822, 11, 19), (240, 879, 3087, 11, 21), (260, 873, 3240, 12, 22), (280, 861, 3572, 13, 24), (280, 855, 3761, 13, 25),
    (300, 847, 3971, 14, 26), (320, 841, 4201, 15, 27), (340, 826, 4727, 15, 29), (360, 818, 5021, 16, 30), (380, 812, 5340, 17, 31),
    (420, 797, 6064, 17, 33), (440, 783, 6922, 17, 35), (480, 776, 7409, 18, 36)]
def cellTab_20 : List (ℕ × ℕ × ℕ × ℕ × ℕ) :=
  [(100, 973, 1236, 0, 1), (100, 964, 1361, 0, 2), (100, 956, 1490, 1, 3), (100, 947, 1622, 2, 4), (120, 938, 1761, 3, 5),
    (140, 935, 1919, 4, 8), (140, 930, 1978, 5, 9), (160, 927, 2047, 5, 10), (160, 924, 2117, 5, 11), (180, 915, 2271, 5, 13),
    (180, 910, 2355, 6, 14), (200, 905, 2453, 7, 15), (200, 901, 2550, 8, 16), (220, 894, 2664, 9, 17), (220, 889, 2779, 10, 18),
    (240, 878, 3038, 10, 20), (260, 872, 3185, 11, 21), (280, 859, 3516, 11, 23), (300, 852, 3702, 12, 24), (320, 844, 3911, 13, 25),
    (340, 828, 4387, 13, 27), (360, 820, 4657, 14, 28), (380, 812, 4952, 15, 29), (400, 796, 5630, 15, 31), (440, 787, 6011, 15, 32),
    (460, 772, 6867, 16, 34), (480, 763, 7375, 17, 35)]
def cellTab_21 : List (ℕ × ℕ × ℕ × ℕ × ℕ) :=
  [(100, 972, 1244, 0, 1), (100, 963, 1372, 0, 2), (100, 954, 1506, 1, 3), (100, 944, 1645, 2, 4), (120, 935, 1788, 3, 5),
    (140, 930, 1955, 4, 8), (160, 927, 2017, 5, 9), (160, 922, 2088, 5, 10), (180, 915, 2236, 5, 12), (180, 909, 2324, 5, 13),
    (200, 904, 2412, 6, 14), (200, 899, 2517, 7, 15), (220, 894, 2618, 8, 16), (240, 882, 2859, 8, 18), (240, 876, 2995, 9, 19),
    (260, 870, 3134, 10, 20), (280, 855, 3469, 11, 22), (300, 848, 3648, 11, 23), (320, 841, 3849, 12, 24), (340, 823, 4316, 12, 26),
    (360, 817, 4580, 13, 27), (380, 806, 4880, 14, 28), (420, 789, 5552, 14, 30), (440, 778, 5944, 15, 31), (480, 761, 6821, 15, 33),
    (520, 741, 7887, 15, 35)]
def cellTab_22 : List (ℕ × ℕ × ℕ × ℕ × ℕ) :=
  [(100, 970, 1252, 0, 1), (100, 961, 1385, 0, 2), (100, 950, 1524, 1, 3), (100, 941, 1669, 2, 4), (140, 931, 1818, 3, 5),
    (160, 927, 1991, 4, 8), (160, 922, 2057, 5, 9), (180, 913, 2210, 5, 11), (180, 909, 2288, 5, 12), (200, 903, 2380, 5, 13),
    (200, 900, 2472, 6, 14), (220, 893, 2580, 7, 15), (240, 881, 2816, 7, 17), (240, 875, 2944, 8, 18), (260, 868, 3089, 9, 19),
    (280, 853, 3408, 10, 21), (300, 846, 3595, 10, 22), (320, 838, 3788, 11, 23), (340, 822, 4239, 11, 25), (360, 812, 4506, 12, 26),
    (400, 793, 5120, 12, 28), (420, 783, 5471, 13, 29), (460, 762, 6286, 13, 31), (480, 752, 6748, 14, 32), (520, 732, 7812, 14, 34)]
def cellTab_23 : List (ℕ × ℕ × ℕ × ℕ × ℕ) :=
  [(100, 969, 1260, 0, 1), (100, 959, 1398, 0, 2), (100, 948, 1542, 1, 3), (120, 938, 1693, 2, 4), (140, 927, 1849, 3, 5),
    (160, 922, 2029, 4, 8), (180, 913, 2176, 5, 10), (180, 909, 2259, 5, 11), (200, 904, 2340, 5, 12), (200, 897, 2439, 5, 13),
    (220, 893, 2537, 6, 14), (240, 881, 2766, 6, 16), (240, 874, 2899, 7, 17), (260, 868, 3036, 8, 18), (280, 859, 3192, 9, 19),
    (300, 845, 3527, 9, 21), (320, 836, 3727, 10, 22), (340, 819, 4166, 10, 24), (360, 810, 4425, 11, 25), (400, 789, 5027, 11, 27),
    (420, 779, 5377, 12, 28), (460, 756, 6193, 12, 30), (500, 733, 7182, 12, 32), (540, 721, 7759, 13, 33)]
def cellTab_24 : List (ℕ × ℕ × ℕ × ℕ × ℕ) :=
  [(100, 967, 1269, 0, 1), (100, 957, 1411, 0, 2), (100, 945, 1561, 1, 3), (120, 934, 1718, 2, 4), (140, 923, 1881, 3, 5),
    (180, 914, 2140, 4, 9), (180, 909, 2224, 5, 10), (200, 903, 2310, 5, 11), (200, 898, 2397, 5, 12), (220, 892, 2499, 5, 13),
    (240, 879, 2725, 5, 15), (240, 874, 2846, 6, 16), (260, 865, 2989, 7, 17), (280, 852, 3296, 8, 19), (300, 844, 3465, 8, 20),
    (320, 835, 3657, 9, 21), (340, 817, 4094, 9, 23), (380, 808, 4343, 10, 24), (400, 786, 4940, 10, 26), (420, 775, 5280, 11, 27),
    (460, 750, 6095, 11, 29), (520, 725, 7089, 11, 31), (540, 712, 7672, 12, 32)]
def cellTab_25 : List (ℕ × ℕ × ℕ × ℕ × ℕ) :=
  [(100, 966, 1277, 0, 1), (100, 955, 1425, 0, 2), (100, 943, 1580, 1, 3), (120, 931, 1744, 2, 4), (160, 919, 1914, 3, 5),
    (180, 909, 2187, 4, 9), (200, 903, 2274, 4, 10), (200, 897, 2365, 5, 11), (220, 893, 2456, 5, 12), (240, 881, 2672, 5, 14),
    (240, 873, 2801, 5, 15), (260, 866, 2931, 6, 16), (280, 858, 3080, 7, 17), (300, 843, 3409, 7, 19), (320, 834, 3592, 8, 20),
    (360, 815, 4028, 8, 22), (380, 806, 4267, 9, 23), (400, 783, 4843, 9, 25), (440, 760, 5562, 10, 27), (480, 747, 5983, 10, 28),
    (520, 720, 6977, 10, 30), (560, 692, 8216, 10, 32)]
def cellTab_26 : List (ℕ × ℕ × ℕ × ℕ × ℕ) :=
  [(100, 964, 1286, 0, 1), (100, 952, 1440, 0, 2), (100, 940, 1600, 1, 3), (140, 928, 1770, 2, 4), (160, 916, 1948, 3, 5),
    (200, 905, 2233, 4, 9), (200, 898, 2325, 4, 10), (220, 893, 2420, 5, 11), (240, 880, 2631, 5, 13), (240, 874, 2748, 5, 14),
    (260, 865, 2884, 5, 15), (280, 850, 3179, 6, 17), (300, 842, 3345, 6, 18), (320, 833, 3534, 7, 19), (340, 815, 3945, 7, 21),
    (380, 803, 4198, 8, 22), (400, 783, 4746, 8, 24), (440, 757, 5448, 9, 26), (480, 744, 5867, 9, 27), (520, 715, 6858, 9, 29),
    (560, 686, 8089, 9, 31)]
def cellTab_27 : List (ℕ × ℕ × ℕ × ℕ × ℕ) :=
  [(100, 963, 1295, 0, 1), (100, 950, 1455, 0, 2), (100, 937, 1623, 1, 3), (140, 925, 1798, 2, 4), (180, 910, 1986, 3, 5),
    (200, 900, 2283, 4, 9), (220, 893, 2382, 4, 10), (220, 887, 2480, 5, 11), (240, 874, 2703, 5, 13), (260, 866, 2825, 5, 14),
    (280, 858, 2970, 5, 15), (300, 842, 3284, 5, 17), (320, 833, 3462, 6, 18), (340, 815, 3869, 7, 20), (360, 804, 4105, 7, 21),
    (400, 781, 4656, 7, 23), (440, 756, 5333, 8, 25), (480, 742, 5738, 8, 26), (520, 712, 6722, 8, 28), (580, 680, 7952, 8, 30)]
def cellTab_28 : List (ℕ × ℕ × ℕ × ℕ × ℕ) :=
  [(100, 960, 1305, 0, 1), (100, 947, 1470, 0, 2), (100, 933, 1644, 1, 3), (140, 920, 1828, 2, 4), (180, 907, 2022, 3, 5),
    (220, 895, 2335, 4, 9), (220, 888, 2438, 4, 10), (240, 875, 2652, 4, 12), (260, 866, 2779, 5, 13), (280, 859, 2910, 5, 14),
    (300, 843, 3218, 5, 16), (320, 833, 3398, 5, 17), (340, 813, 3800, 6, 19), (360, 804, 4025, 6, 20), (400, 779, 4573, 6, 22),
    (420, 769, 4874, 7, 23), (480, 741, 5616, 7, 25), (520, 710, 6569, 7, 27)]
def cellTab_29 : List (ℕ × ℕ × ℕ × ℕ × ℕ) :=
  [(100, 959, 1315, 0, 1), (100, 944, 1486, 0, 2), (120, 930, 1667, 1, 3), (140, 917, 1857, 2, 4), (200, 902, 2128, 3, 6),
    (220, 889, 2392, 4, 9), (240, 875, 2609, 4, 11), (260, 869, 2722, 4, 12), (280, 860, 2857, 5, 13), (300, 843, 3156, 5, 15),
    (320, 834, 3325, 5, 16), (340, 815, 3716, 5, 18), (360, 803, 3948, 5, 19), (400, 781, 4463, 5, 21), (420, 767, 4780, 6, 22),
    (460, 741, 5493, 6, 24), (520, 709, 6424, 6, 26)]
def cellTab_30 : List (ℕ × ℕ × ℕ × ℕ × ℕ) :=
  [(100, 957, 1325, 0, 1), (100, 942, 1502, 0, 2), (120, 928, 1690, 1, 3), (160, 912, 1890, 2, 4), (200, 897, 2172, 3, 6),
    (240, 876, 2563, 3, 10), (260, 869, 2680, 4, 11), (280, 862, 2798, 4, 12), (280, 853, 2944, 5, 13), (320, 835, 3261, 5, 15),
    (340, 815, 3646, 5, 17), (360, 805, 3860, 5, 18), (380, 792, 4111, 5, 19), (420, 767, 4672, 5, 21), (460, 741, 5370, 5, 23),
    (520, 709, 6265, 5, 25)]
def cellTab_31 : List (ℕ × ℕ × ℕ × ℕ × ℕ) :=
  [(100, 955, 1336, 0, 1), (100, 939, 1520, 0, 2), (120, 924, 1715, 1, 3), (160, 908, 1923, 2, 4), (200, 892, 2218, 3, 6),
    (260, 870, 2629, 3, 10), (260, 861, 2755, 4, 11), (280, 854, 2882, 4, 12), (320, 836, 3188, 4, 14), (340, 817, 3562, 5, 16),
    (360, 805, 3781, 5, 17), (380, 794, 4012, 5, 18), (420, 769, 4565, 5, 20), (460, 739, 5265, 5, 22), (500, 709, 6116, 5, 24)]
def cellTab_32 : List (ℕ × ℕ × ℕ × ℕ × ℕ) :=
  [(100, 953, 1346, 0, 1), (100, 937, 1536, 0, 2), (140, 920, 1741, 1, 3), (180, 905, 1958, 2, 4), (220, 887, 2268, 3, 6),
    (260, 863, 2702, 3, 10), (280, 856, 2830, 4, 11), (300, 838, 3129, 4, 13), (320, 828, 3295, 4, 14), (360, 807, 3692, 4, 16),
    (380, 795, 3930, 5, 17), (420, 770, 4469, 5, 19), (440, 756, 4775, 5, 20), (500, 709, 5977, 5, 23)]
def cellTab_33 : List (ℕ × ℕ × ℕ × ℕ × ℕ) :=
  [(100, 951, 1358, 0, 1), (100, 935, 1555, 0, 2), (140, 917, 1767, 1, 3), (180, 900, 1994, 2, 4), (240, 881, 2422, 3, 7),
    (280, 857, 2775, 3, 10), (300, 840, 3058, 4, 12), (320, 830, 3229, 4, 13), (340, 808, 3614, 4, 15), (380, 797, 3831, 4, 16),
    (400, 771, 4360, 5, 18), (440, 757, 4674, 5, 19)]
def cellTab_34 : List (ℕ × ℕ × ℕ × ℕ × ℕ) :=
  [(100, 950, 1369, 0, 1), (100, 932, 1574, 0, 2), (140, 914, 1795, 1, 3), (200, 895, 2033, 2, 4), (240, 874, 2483, 3, 7),
    (300, 841, 3001, 3, 11), (320, 832, 3155, 4, 12), (340, 811, 3526, 4, 14), (380, 799, 3749, 4, 15), (400, 773, 4262, 4, 17),
    (440, 760, 4551, 4, 18)]
def cellTab_35 : List (ℕ × ℕ × ℕ × ℕ × ℕ) :=
  [(100, 947, 1381, 0, 1), (100, 928, 1594, 0, 2), (140, 911, 1823, 1, 3), (200, 891, 2072, 2, 4), (260, 869, 2544, 3, 7),
    (320, 834, 3096, 3, 11), (340, 825, 3256, 4, 12), (360, 801, 3656, 4, 14), (400, 776, 4146, 4, 16)]
def cellTab : List (List (ℕ × ℕ × ℕ × ℕ × ℕ)) :=
  [cellTab_0, cellTab_1, cellTab_2, cellTab_3, cellTab_4, cellTab_5, cellTab_6, cellTab_7,
    cellTab_8, cellTab_9, cellTab_10, cellTab_11, cellTab_12, cellTab_13, cellTab_14, cellTab_15,
    cellTab_16, cellTab_17, cellTab_18, cellTab_19, cellTab_20, cellTab_21, cellTab_22, cellTab_23,
    cellTab_24, cellTab_25, cellTab_26, cellTab_27, cellTab_28, cellTab_29, cellTab_30, cellTab_31,
    cellTab_32, cellTab_33, cellTab_34, cellTab_35]

end Aga8.Detail
