import Verif.Lemmas.GergBoxCurve

/-! # Tables of bounds for methane

Written by a program and checked in `Lemmas/GergBoxMethaneChk`. The meaning of the tables is explained at `BoxTab`. -/

namespace Aga8.GergEos.Methane

def sTab : List ℕ := [8664, 8717, 8770, 8824, 8878, 8932, 8987, 9042, 9097, 9153, 9209, 9265, 9322, 9343, 9364, 9385,
    9406, 9427, 9448, 9469, 9490, 9511, 9532, 9553, 9574, 9595, 9616, 9637, 9659, 9681, 9703, 9725,
    9747, 9769, 9791, 9813, 9835, 9857, 9879, 9901, 9923, 9940]

def rTab : List ℕ := [0, 15, 30, 45, 60, 75, 90, 95, 100, 105, 110, 115, 121, 127, 133, 139,
    146, 153, 160, 168, 176, 184, 193, 202, 212, 222, 232, 243, 254, 266, 278, 291,
    305, 319, 334, 350, 366, 383, 401, 420, 439, 459, 480, 502, 525, 549, 574, 600,
    627, 656, 686]

def stripTab_0 : List (ℤ × ℤ) :=
  [(9682, 38735), (88438, 94656), (10675, 11127), (40591, 50593), (26231, 29097), (21155, 23324),
    (-2720, -2496), (-1126, -903), (414, 586), (-702, -518), (0, 2), (-1, 0),
    (0, 1), (-1, 0), (0, 1), (-1, 0)]
def stripTab_1 : List (ℤ × ℤ) :=
  [(-14590, 15760), (87673, 94095), (11126, 11599), (40811, 51981), (29096, 32255), (23323, 25699),
    (-2960, -2719), (-1401, -1125), (521, 736), (-848, -625), (1, 2), (-1, 0),
    (0, 1), (-1, 0), (0, 1), (-1, 0)]
def stripTab_2 : List (ℤ × ℤ) :=
  [(-40769, -8454), (86692, 93453), (11598, 12101), (40753, 53483), (32254, 35803), (25698, 28351),
    (-3226, -2959), (-1747, -1400), (652, 928), (-1027, -751), (1, 3), (-1, 0),
    (0, 1), (-1, 0), (0, 1), (-1, 0)]
def stripTab_3 : List (ℤ × ℤ) :=
  [(-68356, -34575), (85608, 92598), (12100, 12626), (40606, 54866), (35802, 39716), (28350, 31259),
    (-3514, -3225), (-2176, -1746), (821, 1167), (-1241, -907), (2, 5), (-1, 0),
    (0, 1), (-1, 0), (0, 1), (-1, 0)]
def stripTab_4 : List (ℤ × ℤ) :=
  [(-97473, -62163), (84361, 91587), (12625, 13176), (40229, 56209), (39715, 44029), (31258, 34443),
    (-3825, -3513), (-2707, -2175), (1032, 1466), (-1499, -1093), (4, 6), (-1, 0),
    (0, 1), (-1, 0), (0, 1), (-1, 0)]
def stripTab_5 : List (ℤ × ℤ) :=
  [(-128829, -91223), (82856, 90468), (13175, 13762), (39411, 57674), (44028, 48872), (34442, 37998),
    (-4168, -3824), (-3376, -2706), (1292, 1848), (-1815, -1313), (5, 9), (-1, 0),
    (0, 1), (-1, 0), (0, 1), (-1, 0)]
def stripTab_6 : List (ℤ × ℤ) :=
  [(-161855, -122521), (81219, 89095), (13761, 14375), (38412, 58931), (48871, 54213), (37997, 41895),
    (-4540, -4167), (-4205, -3375), (1626, 2323), (-2193, -1583), (8, 13), (-1, 0),
    (0, 1), (-1, 0), (0, 1), (-1, 0)]
def stripTab_7 : List (ℤ × ℤ) :=
  [(-196686, -155547), (79383, 87534), (14374, 15018), (37036, 60091), (54212, 60100), (41894, 46163),
    (-4942, -4539), (-5231, -4204), (2042, 2918), (-2646, -1907), (12, 18), (-1, 0),
    (0, 1), (-1, 0), (0, 1), (-1, 0)]
def stripTab_8 : List (ℤ × ℤ) :=
  [(-234141, -190320), (77242, 85835), (15017, 15704), (34967, 61373), (60099, 66709), (46162, 50926),
    (-5385, -4941), (-6524, -5230), (2558, 3677), (-3203, -2288), (17, 26), (-1, 0),
    (0, 2), (-1, 0), (0, 1), (-1, 0)]
def stripTab_9 : List (ℤ × ℤ) :=
  [(-273577, -227719), (74932, 83831), (15703, 16424), (32569, 62303), (66708, 73998), (50925, 56147),
    (-5865, -5384), (-8126, -6523), (3217, 4624), (-3868, -2756), (25, 37), (-2, 0),
    (1, 3), (-1, 0), (0, 1), (-1, 0)]
def stripTab_10 : List (ℤ × ℤ) :=
  [(-315138, -267154), (72383, 81602), (16423, 17179), (29564, 63042), (73997, 82031), (56146, 61866),
    (-6385, -5864), (-10107, -8125), (4041, 5805), (-4664, -3315), (36, 53), (-4, -1),
    (2, 5), (-1, 0), (0, 1), (-1, 0)]
def stripTab_11 : List (ℤ × ℤ) :=
  [(-359777, -308658), (69473, 79196), (17178, 17985), (25483, 63886), (82030, 91046), (61865, 68245),
    (-6957, -6384), (-12604, -10106), (5059, 7315), (-5641, -3974), (52, 77), (-8, -3),
    (4, 9), (-1, 0), (-1, 1), (-1, 0)]
def stripTab_12 : List (ℤ × ℤ) :=
  [(-374737, -355304), (70542, 74215), (17984, 18292), (35640, 50996), (91045, 94596), (68244, 70746),
    (-7180, -6956), (-13668, -12603), (6712, 7682), (-5794, -5092), (76, 88), (-10, -7),
    (8, 11), (-1, 0), (0, 1), (-1, 0)]
def stripTab_13 : List (ℤ × ℤ) :=
  [(-392092, -372328), (69397, 73118), (18291, 18605), (34404, 50456), (94595, 98276), (70745, 73334),
    (-7409, -7179), (-14818, -13667), (7301, 8357), (-6207, -5453), (87, 100), (-13, -9),
    (10, 14), (-1, 0), (0, 1), (-1, 0)]
def stripTab_14 : List (ℤ × ℤ) :=
  [(-409783, -389683), (68212, 71983), (18604, 18924), (33064, 49843), (98275, 102091), (73333, 76010),
    (-7645, -7408), (-16063, -14817), (7941, 9088), (-6647, -5837), (99, 115), (-16, -12),
    (13, 17), (-1, 0), (0, 1), (-1, 0)]
def stripTab_15 : List (ℤ × ℤ) :=
  [(-427815, -407374), (66989, 70811), (18923, 19248), (31613, 49151), (102090, 106045), (76009, 78778),
    (-7888, -7644), (-17409, -16062), (8634, 9882), (-7118, -6247), (114, 131), (-21, -15),
    (16, 20), (-1, 0), (0, 1), (-1, 0)]
def stripTab_16 : List (ℤ × ℤ) :=
  [(-446194, -425406), (65727, 69599), (19247, 19578), (30045, 48376), (106044, 110142), (78777, 81639),
    (-8138, -7887), (-18864, -17408), (9387, 10743), (-7620, -6685), (130, 150), (-26, -20),
    (19, 25), (-1, 0), (0, 1), (-2, 0)]
def stripTab_17 : List (ℤ × ℤ) :=
  [(-464924, -443784), (64424, 68349), (19577, 19915), (28354, 47513), (110141, 114389), (81638, 84598),
    (-8396, -8137), (-20437, -18863), (10203, 11677), (-8156, -7153), (149, 171), (-34, -25),
    (24, 30), (-1, 0), (0, 1), (-2, -1)]
def stripTab_18 : List (ℤ × ℤ) :=
  [(-484013, -462515), (63080, 67057), (19914, 20257), (26533, 46557), (114388, 118789), (84597, 87657),
    (-8661, -8395), (-22138, -20436), (11088, 12690), (-8728, -7651), (170, 195), (-43, -33),
    (29, 37), (-1, 0), (0, 1), (-3, -1)]
def stripTab_19 : List (ℤ × ℤ) :=
  [(-503465, -481604), (61694, 65725), (20256, 20606), (24576, 45502), (118788, 123348), (87656, 90820),
    (-8934, -8660), (-23976, -22137), (12047, 13788), (-9338, -8182), (194, 223), (-55, -42),
    (36, 45), (-1, 0), (0, 1), (-4, -2)]
def stripTab_20 : List (ℤ × ℤ) :=
  [(-523285, -501056), (60266, 64351), (20605, 20961), (22475, 44344), (123347, 128071), (90819, 94090),
    (-9215, -8933), (-25961, -23975), (13087, 14977), (-9990, -8749), (222, 255), (-70, -54),
    (44, 55), (-1, 0), (0, 1), (-5, -3)]
def stripTab_21 : List (ℤ × ℤ) :=
  [(-543481, -520876), (58795, 62935), (20960, 21323), (20222, 43074), (128070, 132964), (94089, 97469),
    (-9503, -9214), (-28107, -25960), (14214, 16267), (-10684, -9353), (254, 290), (-89, -69),
    (54, 68), (-1, 0), (0, 1), (-6, -4)]
def stripTab_22 : List (ℤ × ℤ) :=
  [(-564057, -541072), (57280, 61475), (21322, 21692), (17809, 41689), (132963, 138032), (97468, 100962),
    (-9801, -9502), (-30424, -28106), (15435, 17664), (-11425, -9997), (289, 331), (-114, -88),
    (67, 83), (-1, 0), (0, 2), (-8, -5)]
def stripTab_23 : List (ℤ × ℤ) :=
  [(-585019, -561647), (55720, 59972), (21691, 22067), (15228, 40180), (138031, 143282), (100961, 104572),
    (-10107, -9800), (-32927, -30423), (16758, 19178), (-12215, -10682), (330, 378), (-146, -113),
    (82, 101), (-1, 0), (0, 2), (-10, -7)]
def stripTab_24 : List (ℤ × ℤ) :=
  [(-606373, -582610), (54115, 58424), (22066, 22449), (12471, 38541), (143281, 148720), (104571, 108303),
    (-10422, -10106), (-35629, -32926), (18191, 20817), (-13057, -11413), (377, 431), (-187, -145),
    (100, 124), (-1, 0), (0, 3), (-13, -9)]
def stripTab_25 : List (ℤ × ℤ) :=
  [(-628127, -603964), (52463, 56831), (22448, 22838), (9527, 36765), (148719, 154351), (108302, 112159),
    (-10745, -10421), (-38546, -35628), (19742, 22593), (-13955, -12191), (430, 491), (-238, -186),
    (123, 151), (-2, 0), (1, 5), (-17, -12)]
def stripTab_26 : List (ℤ × ℤ) :=
  [(-650284, -625717), (50764, 55191), (22837, 23234), (6388, 34844), (154350, 160183), (112158, 116143),
    (-11079, -10744), (-41696, -38545), (21422, 24515), (-14911, -13020), (490, 560), (-304, -237),
    (150, 185), (-3, -1), (1, 8), (-23, -16)]
def stripTab_27 : List (ℤ × ℤ) :=
  [(-673995, -647818), (48868, 53570), (23233, 23657), (2250, 33425), (160182, 166514), (116142, 120458),
    (-11438, -11078), (-45263, -41695), (23207, 26729), (-16004, -13876), (559, 642), (-392, -303),
    (184, 227), (-4, -2), (1, 13), (-30, -22)]
def stripTab_28 : List (ℤ × ℤ) :=
  [(-698107, -671471), (46984, 51752), (23656, 24089), (-1525, 31108), (166513, 173080), (120457, 124924),
    (-11808, -11437), (-49126, -45262), (25270, 29105), (-17148, -14860), (641, 736), (-506, -391),
    (226, 280), (-6, -3), (2, 20), (-40, -29)]
def stripTab_29 : List (ℤ × ℤ) :=
  [(-722684, -695583), (45045, 49880), (24088, 24528), (-5552, 28606), (173079, 179890), (124923, 129544),
    (-12189, -11807), (-53309, -49125), (27510, 31686), (-18370, -15909), (735, 843), (-652, -505),
    (279, 345), (-9, -5), (3, 33), (-53, -39)]
def stripTab_30 : List (ℤ × ℤ) :=
  [(-747734, -720160), (43050, 47954), (24527, 24977), (-9844, 25907), (179889, 186951), (129543, 134325),
    (-12582, -12188), (-57837, -53308), (29943, 34488), (-19676, -17029), (842, 966), (-841, -651),
    (344, 425), (-14, -8), (4, 54), (-71, -52)]
def stripTab_31 : List (ℤ × ℤ) :=
  [(-773265, -745211), (41000, 45973), (24976, 25434), (-14416, 23000), (186950, 194272), (134324, 139270),
    (-12987, -12581), (-62739, -57836), (32585, 37531), (-21069, -18223), (965, 1106), (-1083, -840),
    (424, 523), (-22, -13), (5, 87), (-95, -70)]
def stripTab_32 : List (ℤ × ℤ) :=
  [(-799284, -770741), (38892, 43936), (25433, 25899), (-19282, 19874), (194271, 201863), (139269, 144385),
    (-13403, -12986), (-68043, -62738), (35453, 40834), (-22557, -19498), (1105, 1266), (-1393, -1082),
    (522, 644), (-35, -21), (5, 142), (-127, -94)]
def stripTab_33 : List (ℤ × ℤ) :=
  [(-825799, -796760), (36725, 41841), (25898, 26374), (-24458, 16517), (201862, 209732), (144384, 149677),
    (-13832, -13402), (-73783, -68042), (38565, 44419), (-24145, -20856), (1265, 1449), (-1792, -1392),
    (643, 792), (-55, -34), (1, 230), (-169, -126)]
def stripTab_34 : List (ℤ × ℤ) :=
  [(-852817, -823275), (34500, 39688), (26373, 26858), (-29960, 12915), (209731, 217889), (149676, 155150),
    (-14273, -13831), (-79992, -73782), (41942, 48309), (-25839, -22305), (1448, 1658), (-2305, -1791),
    (791, 973), (-88, -54), (-11, 372), (-225, -168)]
def stripTab_35 : List (ℤ × ℤ) :=
  [(-880348, -850294), (32214, 37476), (26857, 27352), (-35805, 9055), (217888, 226344), (155149, 160809),
    (-14728, -14272), (-86708, -79991), (45606, 52530), (-27647, -23849), (1657, 1896), (-2961, -2304),
    (972, 1196), (-139, -87), (-39, 601), (-299, -224)]
def stripTab_36 : List (ℤ × ℤ) :=
  [(-908398, -877824), (29867, 35203), (27351, 27855), (-42010, 4922), (226343, 235107), (160808, 166662),
    (-15196, -14727), (-93970, -86707), (49580, 57108), (-29575, -25495), (1895, 2168), (-3803, -2960),
    (1195, 1468), (-221, -138), (-101, 969), (-398, -298)]
def stripTab_37 : List (ℤ × ℤ) :=
  [(-936977, -905874), (27457, 32869), (27854, 28368), (-48596, 503), (235106, 244188), (166661, 172715),
    (-15678, -15195), (-101823, -93969), (53889, 62073), (-31631, -27248), (2167, 2478), (-4882, -3802),
    (1467, 1803), (-352, -220), (-227, 1557), (-529, -397)]
def stripTab_38 : List (ℤ × ℤ) :=
  [(-966091, -934453), (24983, 30473), (28367, 28891), (-55580, -4219), (244187, 253599), (172714, 178973),
    (-16173, -15677), (-110313, -101822), (58562, 67457), (-33823, -29115), (2477, 2832), (-6263, -4881),
    (1802, 2212), (-559, -351), (-479, 2497), (-704, -528)]
def stripTab_39 : List (ℤ × ℤ) :=
  [(-995751, -963568), (22445, 28013), (28890, 29424), (-62984, -9261), (253598, 263351), (178972, 185442),
    (-16684, -16172), (-119489, -110312), (63628, 73294), (-36160, -31103), (2831, 3236), (-8030, -6262),
    (2211, 2713), (-886, -558), (-967, 3993), (-935, -703)]
def stripTab_40 : List (ℤ × ℤ) :=
  [(-1018761, -993514), (20785, 25141), (29423, 29844), (-63541, -20343), (263350, 271127), (185441, 190591),
    (-17089, -16683), (-127083, -119488), (69630, 77668), (-37739, -33577), (3235, 3585), (-9727, -8029),
    (2712, 3175), (-1265, -885), (-871, 5127), (-1164, -934)]
def stripTab : List (List (ℤ × ℤ)) :=
  [stripTab_0, stripTab_1, stripTab_2, stripTab_3, stripTab_4, stripTab_5, stripTab_6, stripTab_7,
    stripTab_8, stripTab_9, stripTab_10, stripTab_11, stripTab_12, stripTab_13, stripTab_14, stripTab_15,
    stripTab_16, stripTab_17, stripTab_18, stripTab_19, stripTab_20, stripTab_21, stripTab_22, stripTab_23,
    stripTab_24, stripTab_25, stripTab_26, stripTab_27, stripTab_28, stripTab_29, stripTab_30, stripTab_31,
    stripTab_32, stripTab_33, stripTab_34, stripTab_35, stripTab_36, stripTab_37, stripTab_38, stripTab_39,
    stripTab_40]

def stripAbs_0 : List ℤ :=
  [986870, 218811, 11127, 118949, 29097, 23324, 2720, 1126, 822, 1014, 2, 1, 1, 1, 1, 1]
def stripAbs_1 : List ℤ :=
  [1017219, 225232, 11599, 130117, 32255, 25699, 2960, 1401, 1036, 1236, 2, 1, 1, 1, 1, 1]
def stripAbs_2 : List ℤ :=
  [1049533, 231992, 12101, 142846, 35803, 28351, 3226, 1747, 1311, 1511, 3, 1, 1, 1, 1, 1]
def stripAbs_3 : List ℤ :=
  [1083313, 238980, 12626, 157106, 39716, 31259, 3514, 2176, 1656, 1845, 5, 1, 1, 1, 1, 1]
def stripAbs_4 : List ℤ :=
  [1118622, 246205, 13176, 173085, 44029, 34443, 3825, 2707, 2089, 2250, 6, 1, 1, 1, 1, 1]
def stripAbs_5 : List ℤ :=
  [1156227, 253816, 13762, 191347, 48872, 37998, 4168, 3376, 2644, 2751, 9, 1, 1, 1, 1, 1]
def stripAbs_6 : List ℤ :=
  [1195560, 261692, 14375, 211865, 54213, 41895, 4540, 4205, 3340, 3360, 13, 1, 1, 1, 1, 1]
def stripAbs_7 : List ℤ :=
  [1236698, 269843, 15018, 234919, 60100, 46163, 4942, 5231, 4215, 4098, 18, 1, 1, 1, 1, 1]
def stripAbs_8 : List ℤ :=
  [1280518, 278434, 15704, 261324, 66709, 50926, 5385, 6524, 5333, 5012, 26, 1, 2, 1, 1, 1]
def stripAbs_9 : List ℤ :=
  [1326375, 287333, 16424, 291056, 73998, 56147, 5865, 8126, 6738, 6122, 37, 2, 3, 1, 1, 1]
def stripAbs_10 : List ℤ :=
  [1374358, 296551, 17179, 324533, 82031, 61866, 6385, 10107, 8502, 7470, 53, 4, 5, 1, 1, 1]
def stripAbs_11 : List ℤ :=
  [1425476, 306273, 17985, 362935, 91046, 68245, 6957, 12604, 10757, 9137, 77, 8, 9, 1, 1, 1]
def stripAbs_12 : List ℤ :=
  [1444908, 309944, 18292, 378290, 94596, 70746, 7180, 13668, 11726, 9838, 88, 10, 11, 1, 1, 1]
def stripAbs_13 : List ℤ :=
  [1464671, 313665, 18605, 394341, 98276, 73334, 7409, 14818, 12781, 10591, 100, 13, 14, 1, 1, 1]
def stripAbs_14 : List ℤ :=
  [1484770, 317435, 18924, 411120, 102091, 76010, 7645, 16063, 13928, 11400, 115, 16, 17, 1, 1, 1]
def stripAbs_15 : List ℤ :=
  [1505210, 321255, 19248, 428657, 106045, 78778, 7888, 17409, 15175, 12269, 131, 21, 20, 1, 1, 1]
def stripAbs_16 : List ℤ :=
  [1525997, 325127, 19578, 446987, 110142, 81639, 8138, 18864, 16530, 13202, 150, 26, 25, 1, 1, 2]
def stripAbs_17 : List ℤ :=
  [1547136, 329051, 19915, 466146, 114389, 84598, 8396, 20437, 18003, 14205, 171, 34, 30, 1, 1, 2]
def stripAbs_18 : List ℤ :=
  [1568632, 333027, 20257, 486168, 118789, 87657, 8661, 22138, 19604, 15281, 195, 43, 37, 1, 1, 3]
def stripAbs_19 : List ℤ :=
  [1590492, 337057, 20606, 507094, 123348, 90820, 8934, 23976, 21343, 16436, 223, 55, 45, 1, 1, 4]
def stripAbs_20 : List ℤ :=
  [1612721, 341141, 20961, 528962, 128071, 94090, 9215, 25961, 23233, 17676, 255, 70, 55, 1, 1, 5]
def stripAbs_21 : List ℤ :=
  [1635324, 345280, 21323, 551814, 132964, 97469, 9503, 28107, 25284, 19006, 290, 89, 68, 1, 2, 6]
def stripAbs_22 : List ℤ :=
  [1658308, 349475, 21692, 575693, 138032, 100962, 9801, 30424, 27512, 20434, 331, 114, 83, 1, 3, 8]
def stripAbs_23 : List ℤ :=
  [1681679, 353726, 22067, 600643, 143282, 104572, 10107, 32927, 29931, 21966, 378, 146, 101, 1, 4, 10]
def stripAbs_24 : List ℤ :=
  [1705442, 358034, 22449, 626713, 148720, 108303, 10422, 35629, 32556, 23609, 431, 187, 124, 1, 6, 13]
def stripAbs_25 : List ℤ :=
  [1729603, 362401, 22838, 653949, 154351, 112159, 10745, 38546, 35406, 25371, 491, 238, 151, 2, 10, 17]
def stripAbs_26 : List ℤ :=
  [1754169, 366826, 23234, 682404, 160183, 116143, 11079, 41696, 38497, 27261, 560, 304, 185, 3, 15, 23]
def stripAbs_27 : List ℤ :=
  [1780345, 371527, 23657, 713578, 166514, 120458, 11438, 45263, 42018, 29388, 642, 392, 227, 4, 26, 30]
def stripAbs_28 : List ℤ :=
  [1806979, 376294, 24089, 746210, 173080, 124924, 11808, 49126, 45852, 31676, 736, 506, 280, 6, 43, 40]
def stripAbs_29 : List ℤ :=
  [1834079, 381128, 24528, 780366, 179890, 129544, 12189, 53309, 50026, 34136, 843, 652, 345, 9, 72, 53]
def stripAbs_30 : List ℤ :=
  [1861652, 386031, 24977, 816116, 186951, 134325, 12582, 57837, 54570, 36782, 966, 841, 425, 14, 120, 71]
def stripAbs_31 : List ℤ :=
  [1889706, 391004, 25434, 853531, 194272, 139270, 12987, 62739, 59514, 39627, 1106, 1083, 523, 22, 201, 95]
def stripAbs_32 : List ℤ :=
  [1918248, 396047, 25899, 892686, 201863, 144385, 13403, 68043, 64894, 42686, 1266, 1393, 644, 35, 338, 127]
def stripAbs_33 : List ℤ :=
  [1947285, 401162, 26374, 933659, 209732, 149677, 13832, 73783, 70747, 45974, 1449, 1792, 792, 55, 566, 169]
def stripAbs_34 : List ℤ :=
  [1976827, 406349, 26858, 976533, 217889, 155150, 14273, 79992, 77113, 49507, 1658, 2305, 973, 88, 948, 225]
def stripAbs_35 : List ℤ :=
  [2006880, 411610, 27352, 1021391, 226344, 160809, 14728, 86708, 84036, 53304, 1896, 2961, 1196, 139, 1587, 299]
def stripAbs_36 : List ℤ :=
  [2037453, 416946, 27855, 1068323, 235107, 166662, 15196, 93970, 91564, 57384, 2168, 3803, 1468, 221, 2655, 398]
def stripAbs_37 : List ℤ :=
  [2068554, 422357, 28368, 1117421, 244188, 172715, 15678, 101823, 99746, 61766, 2478, 4882, 1803, 352, 4439, 529]
def stripAbs_38 : List ℤ :=
  [2100192, 427846, 28891, 1168780, 253599, 178973, 16173, 110313, 108640, 66473, 2832, 6263, 2212, 559, 7413, 704]
def stripAbs_39 : List ℤ :=
  [2132374, 433413, 29424, 1222503, 263351, 185442, 16684, 119489, 118304, 71529, 3236, 8030, 2713, 886, 12372, 935]
def stripAbs_40 : List ℤ :=
  [2157620, 437768, 29844, 1265700, 271127, 190591, 17089, 127083, 126341, 75690, 3585, 9727, 3175, 1265, 18369, 1164]
def stripAbs : List (List ℤ) :=
  [stripAbs_0, stripAbs_1, stripAbs_2, stripAbs_3, stripAbs_4, stripAbs_5, stripAbs_6, stripAbs_7,
    stripAbs_8, stripAbs_9, stripAbs_10, stripAbs_11, stripAbs_12, stripAbs_13, stripAbs_14, stripAbs_15,
    stripAbs_16, stripAbs_17, stripAbs_18, stripAbs_19, stripAbs_20, stripAbs_21, stripAbs_22, stripAbs_23,
    stripAbs_24, stripAbs_25, stripAbs_26, stripAbs_27, stripAbs_28, stripAbs_29, stripAbs_30, stripAbs_31,
    stripAbs_32, stripAbs_33, stripAbs_34, stripAbs_35, stripAbs_36, stripAbs_37, stripAbs_38, stripAbs_39,
    stripAbs_40]

def rowZ_0 : List (ℤ × ℤ) :=
  [(0, 15000), (0, 450), (0, 1), (0, 15000), (0, 450), (0, 11),
    (0, 1), (0, 450), (0, 11), (0, 1), (0, 450), (0, 11),
    (0, 1), (0, 1), (0, 1), (0, 1)]
def rowZ_1 : List (ℤ × ℤ) :=
  [(15000, 30000), (450, 1800), (0, 4), (14119, 29111), (430, 1760), (9, 80),
    (0, 1), (449, 1800), (10, 81), (0, 4), (449, 1800), (10, 81),
    (0, 4), (0, 1), (0, 1), (0, 1)]
def rowZ_2 : List (ℤ × ℤ) :=
  [(30000, 45000), (1800, 4050), (3, 17), (27389, 42360), (1682, 3872), (76, 263),
    (0, 1), (1792, 4043), (80, 273), (3, 17), (1799, 4050), (80, 274),
    (3, 17), (0, 1), (0, 1), (0, 1)]
def rowZ_3 : List (ℤ × ℤ) :=
  [(45000, 60000), (4050, 7200), (16, 52), (39836, 54779), (3699, 6729), (252, 611),
    (0, 1), (4020, 7171), (271, 646), (16, 52), (4047, 7199), (273, 648),
    (16, 52), (0, 4), (0, 1), (0, 1)]
def rowZ_4 : List (ℤ × ℤ) :=
  [(60000, 75000), (7200, 11250), (51, 127), (51489, 66395), (6429, 10278), (586, 1169),
    (0, 1), (7119, 11170), (641, 1259), (51, 126), (7192, 11244), (647, 1266),
    (51, 127), (3, 12), (0, 2), (0, 1)]
def rowZ_5 : List (ℤ × ℤ) :=
  [(75000, 90000), (11250, 16200), (126, 263), (62375, 77235), (9818, 14466), (1121, 1979),
    (0, 3), (11068, 16019), (1248, 2167), (125, 261), (11229, 16183), (1263, 2186),
    (126, 263), (11, 30), (1, 4), (0, 1)]
def rowZ_6 : List (ℤ × ℤ) :=
  [(90000, 95000), (16200, 18050), (262, 326), (74067, 79010), (14031, 15755), (1925, 2281),
    (2, 4), (15909, 17760), (2154, 2538), (258, 322), (16165, 18018), (2183, 2569),
    (262, 326), (29, 39), (3, 5), (0, 1)]
def rowZ_7 : List (ℤ × ℤ) :=
  [(95000, 100000), (18050, 20000), (325, 400), (77362, 82299), (15515, 17324), (2249, 2642),
    (3, 6), (17691, 19642), (2529, 2956), (320, 395), (18004, 19958), (2566, 2995),
    (325, 400), (38, 50), (4, 6), (0, 1)]
def rowZ_8 : List (ℤ × ℤ) :=
  [(100000, 105000), (20000, 22050), (400, 487), (80578, 85508), (17060, 18955), (2606, 3038),
    (5, 8), (19562, 21613), (2945, 3416), (393, 479), (19942, 21995), (2993, 3466),
    (399, 486), (49, 64), (5, 9), (0, 1)]
def rowZ_9 : List (ℤ × ℤ) :=
  [(105000, 110000), (22050, 24200), (486, 586), (83714, 88638), (18666, 20645), (2997, 3470),
    (7, 10), (21521, 23671), (3403, 3921), (477, 577), (21976, 24131), (3463, 3984),
    (485, 585), (63, 81), (8, 11), (0, 2)]
def rowZ_10 : List (ℤ × ℤ) :=
  [(110000, 115000), (24200, 26450), (585, 700), (86772, 91689), (20330, 22392), (3422, 3938),
    (9, 13), (23566, 25816), (3905, 4472), (574, 688), (24108, 26363), (3980, 4551),
    (584, 698), (80, 101), (10, 14), (1, 2)]
def rowZ_11 : List (ℤ × ℤ) :=
  [(115000, 121000), (26450, 29282), (699, 858), (89562, 95453), (22017, 24601), (3879, 4556),
    (12, 17), (25683, 28516), (4452, 5199), (684, 841), (26333, 29171), (4546, 5299),
    (697, 856), (100, 130), (13, 19), (1, 3)]
def rowZ_12 : List (ℤ × ℤ) :=
  [(121000, 127000), (29282, 32258), (857, 1041), (93031, 98911), (24151, 26853), (4482, 5226),
    (16, 22), (28348, 31324), (5173, 5997), (836, 1018), (29132, 32116), (5292, 6124),
    (854, 1038), (129, 166), (18, 26), (2, 4)]
def rowZ_13 : List (ℤ × ℤ) :=
  [(127000, 133000), (32258, 35378), (1040, 1252), (96393, 102262), (26361, 29181), (5141, 5954),
    (21, 29), (31131, 34251), (5966, 6871), (1013, 1222), (32068, 35198), (6116, 7030),
    (1036, 1248), (165, 209), (25, 34), (3, 6)]
def rowZ_14 : List (ℤ × ℤ) :=
  [(133000, 139000), (35378, 38642), (1251, 1494), (99648, 105506), (28646, 31581), (5857, 6741),
    (28, 38), (34030, 37293), (6833, 7823), (1215, 1455), (35140, 38416), (7020, 8020),
    (1245, 1488), (208, 260), (33, 44), (5, 8)]
def rowZ_15 : List (ℤ × ℤ) :=
  [(139000, 146000), (38642, 42632), (1493, 1818), (102575, 109394), (30953, 34522), (6623, 7749),
    (36, 50), (37020, 41009), (7774, 9040), (1446, 1766), (38342, 42347), (8006, 9287),
    (1485, 1809), (259, 332), (43, 59), (7, 10)]
def rowZ_16 : List (ℤ × ℤ) :=
  [(146000, 153000), (42632, 46818), (1817, 2192), (106111, 112914), (33783, 37505), (7602, 8834),
    (48, 65), (40670, 44854), (8978, 10369), (1754, 2123), (42251, 46455), (9269, 10679),
    (1806, 2181), (331, 420), (58, 77), (9, 14)]
def rowZ_17 : List (ℤ × ℤ) :=
  [(153000, 160000), (46818, 51200), (2191, 2622), (109509, 116295), (36701, 40576), (8667, 10007),
    (63, 85), (44466, 48845), (10294, 11817), (2109, 2531), (46340, 50743), (10656, 12201),
    (2176, 2606), (419, 525), (76, 101), (13, 19)]
def rowZ_18 : List (ℤ × ℤ) :=
  [(160000, 168000), (51200, 56448), (2621, 3187), (112523, 120256), (39642, 44255), (9805, 11476),
    (82, 112), (48370, 53613), (11721, 13629), (2512, 3067), (50595, 55872), (12171, 14109),
    (2599, 3164), (524, 670), (100, 135), (18, 27)]
def rowZ_19 : List (ℤ × ℤ) :=
  [(168000, 176000), (56448, 61952), (3186, 3839), (116079, 123789), (43167, 47973), (11228, 13052),
    (109, 147), (53031, 58529), (13506, 15601), (3041, 3679), (55681, 61221), (14070, 16201),
    (3156, 3807), (669, 845), (134, 179), (26, 37)]
def rowZ_20 : List (ℤ × ℤ) :=
  [(176000, 184000), (61952, 67712), (3838, 4585), (119464, 127150), (46792, 51789), (12770, 14754),
    (143, 190), (57862, 63614), (15454, 17745), (3647, 4377), (60991, 66794), (16152, 18486),
    (3796, 4542), (844, 1055), (178, 233), (36, 50)]
def rowZ_21 : List (ℤ × ℤ) :=
  [(184000, 193000), (67712, 74498), (4584, 5550), (122406, 131023), (50432, 56277), (14414, 16843),
    (185, 251), (62806, 69580), (17558, 20379), (4335, 5275), (66502, 73344), (18421, 21300),
    (4527, 5490), (1054, 1339), (232, 311), (49, 70)]
def rowZ_22 : List (ℤ × ℤ) :=
  [(193000, 202000), (74498, 81608), (5549, 6660), (125820, 134405), (54713, 60793), (16432, 19076),
    (244, 326), (68601, 75696), (20141, 23232), (5219, 6297), (72972, 80150), (21213, 24374),
    (5470, 6577), (1338, 1682), (310, 408), (69, 97)]
def rowZ_23 : List (ℤ × ℤ) :=
  [(202000, 212000), (81608, 89888), (6659, 8080), (128738, 138237), (59006, 66031), (18585, 21785),
    (318, 431), (74514, 82773), (22932, 26696), (6224, 7599), (79678, 88048), (24259, 28117),
    (6549, 7964), (1681, 2141), (407, 545), (96, 135)]
def rowZ_24 : List (ℤ × ℤ) :=
  [(212000, 222000), (89888, 98568), (8079, 9716), (132062, 141522), (63983, 71288), (21193, 24678),
    (420, 561), (81348, 90001), (26315, 30441), (7501, 9080), (87450, 96238), (27964, 32203),
    (7926, 9555), (2140, 2696), (544, 719), (134, 186)]
def rowZ_25 : List (ℤ × ℤ) :=
  [(222000, 232000), (98568, 107648), (9715, 11589), (135148, 144568), (69069, 76650), (24006, 27785),
    (547, 722), (88375, 97422), (29987, 34489), (8958, 10760), (95521, 104730), (32011, 36649),
    (9505, 11368), (2695, 3360), (718, 936), (185, 254)]
def rowZ_26 : List (ℤ × ℤ) :=
  [(232000, 243000), (107648, 118098), (11588, 13948), (137680, 147990), (74137, 82787), (26989, 31496),
    (703, 942), (95483, 105887), (33923, 39328), (10601, 12861), (103830, 114448), (36397, 41982),
    (11300, 13646), (3359, 4235), (935, 1235), (253, 351)]
def rowZ_27 : List (ℤ × ℤ) :=
  [(243000, 254000), (118098, 129032), (13947, 16650), (140546, 150807), (79934, 88906), (30548, 35435),
    (917, 1213), (103576, 114452), (38621, 44519), (12653, 15232), (113322, 124457), (41653, 47766),
    (13551, 16236), (4233, 5284), (1234, 1611), (350, 478)]
def rowZ_28 : List (ℤ × ℤ) :=
  [(254000, 266000), (129032, 141512), (16649, 20026), (142806, 153936), (85690, 95836), (34317, 40093),
    (1179, 1579), (111711, 124112), (43642, 50659), (14963, 18169), (123051, 135791), (47336, 54636),
    (16108, 19459), (5282, 6655), (1610, 2125), (477, 660)]
def rowZ_29 : List (ℤ × ℤ) :=
  [(266000, 278000), (141512, 154568), (20025, 23892), (145335, 156407), (92203, 102720), (38769, 45025),
    (1533, 2029), (120863, 133820), (49570, 57220), (17819, 21472), (134040, 147404), (54075, 62063),
    (19284, 23115), (6651, 8296), (2123, 2768), (659, 898)]
def rowZ_30 : List (ℤ × ℤ) :=
  [(278000, 291000), (154568, 169362), (23891, 28684), (147207, 159126), (98644, 110441), (43469, 50802),
    (1968, 2632), (129991, 144651), (55877, 64903), (21021, 25525), (145231, 160420), (61336, 70801),
    (22878, 27622), (8291, 10424), (2766, 3641), (897, 1236)]
def rowZ_31 : List (ℤ × ℤ) :=
  [(291000, 305000), (169362, 186050), (28683, 34615), (148919, 161667), (105689, 118855), (48900, 57463),
    (2546, 3436), (139961, 156469), (63181, 73792), (24919, 30458), (157618, 174812), (69819, 81000),
    (27287, 33148), (10415, 13180), (3637, 4825), (1235, 1717)]
def rowZ_32 : List (ℤ × ℤ) :=
  [(305000, 319000), (186050, 203522), (34614, 41422), (150779, 163449), (113517, 127162), (55219, 64497),
    (3319, 4425), (150946, 168193), (71665, 83232), (29674, 35987), (171337, 189410), (79724, 91976),
    (32693, 39406), (13166, 16488), (4819, 6313), (1715, 2350)]
def rowZ_33 : List (ℤ × ℤ) :=
  [(319000, 334000), (203522, 223112), (41421, 49779), (151887, 165362), (121203, 136333), (61871, 72624),
    (4268, 5734), (161728, 181018), (80626, 94115), (34981, 42675), (185119, 205469), (90327, 104697),
    (38791, 47016), (16466, 20735), (6305, 8313), (2346, 3240)]
def rowZ_34 : List (ℤ × ℤ) :=
  [(334000, 350000), (223112, 245000), (49778, 60025), (152691, 166950), (129458, 146169), (69444, 81867),
    (5516, 7460), (173204, 194693), (90813, 106492), (41341, 50695), (200001, 222848), (102496, 119304),
    (46156, 56214), (20698, 26181), (8299, 11000), (3234, 4493)]
def rowZ_35 : List (ℤ × ℤ) :=
  [(350000, 366000), (245000, 267912), (60025, 71777), (153526, 167693), (138488, 155800), (78135, 91582),
    (7165, 9574), (185573, 207989), (102448, 119500), (48981, 59613), (216122, 240162), (116466, 134870),
    (55051, 66554), (26122, 32706), (10976, 14370), (4483, 6138)]
def rowZ_36 : List (ℤ × ℤ) :=
  [(366000, 383000), (267912, 293378), (71776, 86071), (153527, 168456), (147262, 166283), (87230, 102662),
    (9179, 12337), (197411, 222226), (114589, 134251), (57434, 70239), (231930, 258798), (131235, 152614),
    (64996, 78940), (32610, 40989), (14331, 18848), (6122, 8425)]
def rowZ_37 : List (ℤ × ℤ) :=
  [(383000, 401000), (293378, 321602), (86070, 103428), (153091, 168764), (156520, 177357), (97437, 115103),
    (11793, 15931), (209616, 236986), (128116, 150716), (67388, 82767), (248453, 278411), (147831, 172601),
    (76793, 93658), (40830, 51485), (18781, 24790), (8397, 11603)]
def rowZ_38 : List (ℤ × ℤ) :=
  [(401000, 420000), (321602, 352800), (103427, 124468), (152161, 168559), (166217, 188983), (108838, 129012),
    (15178, 20592), (222013, 252095), (143075, 168964), (79046, 97460), (265447, 298777), (166320, 194948),
    (90705, 111052), (51219, 64750), (24674, 32662), (11552, 16014)]
def rowZ_39 : List (ℤ × ℤ) :=
  [(420000, 439000), (352800, 385442), (124467, 148566), (151109, 167406), (176595, 200200), (121684, 143513),
    (19576, 26261), (234848, 266117), (159728, 187749), (92744, 113558), (283037, 318142), (186952, 218228),
    (107112, 130291), (64322, 80546), (32465, 42479), (15924, 21773)]
def rowZ_40 : List (ℤ × ℤ) :=
  [(439000, 459000), (385442, 421362), (148565, 177546), (149128, 166137), (186479, 212187), (134988, 159786),
    (24904, 33553), (246386, 280537), (176680, 208520), (107641, 132318), (299155, 338044), (208134, 244020),
    (125088, 152791), (79860, 100272), (42149, 55310), (21616, 29649)]
def rowZ_41 : List (ℤ × ℤ) :=
  [(459000, 480000), (421362, 460800), (177545, 212337), (146550, 164257), (196625, 224580), (149626, 177752),
    (31694, 42867), (257464, 294633), (194953, 231010), (124724, 153886), (314661, 357647), (231006, 272069),
    (145770, 178785), (99151, 124800), (54748, 72021), (29369, 40386)]
def rowZ_42 : List (ℤ × ℤ) :=
  [(480000, 502000), (460800, 504008), (212336, 254025), (143330, 161723), (206948, 237310), (165647, 197505),
    (40320, 54731), (267769, 308078), (214445, 255133), (144173, 178517), (328983, 376386), (255359, 302208),
    (169347, 208566), (122971, 155152), (71062, 93696), (39887, 54972)]
def rowZ_43 : List (ℤ × ℤ) :=
  [(502000, 525000), (504008, 551250), (254024, 303877), (139430, 158498), (217350, 250303), (183083, 219132),
    (51235, 69791), (276946, 320503), (234990, 280741), (166139, 206439), (341432, 393572), (280856, 334134),
    (195938, 242362), (152174, 192484), (92063, 121661), (54083, 74691)]
def rowZ_44 : List (ℤ × ℤ) :=
  [(525000, 549000), (551250, 602802), (303876, 363371), (134817, 154549), (227717, 263474), (201944, 242713),
    (64989, 88842), (284601, 331496), (256355, 307611), (190729, 237843), (351197, 408381), (307003, 367379),
    (225555, 280296), (187657, 238060), (118893, 157508), (73115, 101192)]
def rowZ_45 : List (ℤ × ℤ) :=
  [(549000, 574000), (602802, 658952), (363370, 434218), (129464, 149851), (237920, 276733), (222216, 268317),
    (82239, 112854), (290302, 340602), (278220, 335433), (217988, 272857), (357344, 419852), (333119, 401275),
    (258061, 322332), (230275, 293177), (152839, 203084), (98412, 136546)]
def rowZ_46 : List (ℤ × ℤ) :=
  [(574000, 600000), (658952, 720000), (434217, 518400), (123352, 144382), (247815, 289983), (243850, 296002),
    (103762, 143001), (293586, 347337), (300173, 363804), (247869, 311524), (358826, 426889), (358308, 434918),
    (293113, 368221), (280701, 359040), (195258, 260441), (131672, 183275)]
def rowZ_47 : List (ℤ × ℤ) :=
  [(600000, 627000), (720000, 786258), (518400, 618202), (116472, 138129), (257239, 303123), (266757, 325813),
    (130463, 180699), (293967, 351187), (321700, 392221), (280211, 353783), (354499, 428271), (381438, 467140),
    (330106, 417428), (339203, 436540), (247427, 331699), (174800, 244334)]
def rowZ_48 : List (ℤ × ℤ) :=
  [(627000, 656000), (786258, 860672), (618201, 740757), (108377, 131283), (265489, 317011), (290317, 359423),
    (163148, 229740), (289878, 352702), (341280, 422000), (314006, 401884), (341558, 423970), (399880, 498766),
    (367173, 471931), (404613, 529937), (309796, 422635), (229419, 326446)]
def rowZ_49 : List (ℤ × ℤ) :=
  [(656000, 686000), (860672, 941192), (740756, 885843), (99687, 123128), (273660, 330006), (316142, 394824),
    (204952, 290593), (282594, 348915), (360467, 449441), (351322, 452435), (320985, 409223), (414699, 524181),
    (405954, 526598), (478850, 634345), (385930, 531396), (300274, 430555)]
def rowZ : List (List (ℤ × ℤ)) :=
  [rowZ_0, rowZ_1, rowZ_2, rowZ_3, rowZ_4, rowZ_5, rowZ_6, rowZ_7,
    rowZ_8, rowZ_9, rowZ_10, rowZ_11, rowZ_12, rowZ_13, rowZ_14, rowZ_15,
    rowZ_16, rowZ_17, rowZ_18, rowZ_19, rowZ_20, rowZ_21, rowZ_22, rowZ_23,
    rowZ_24, rowZ_25, rowZ_26, rowZ_27, rowZ_28, rowZ_29, rowZ_30, rowZ_31,
    rowZ_32, rowZ_33, rowZ_34, rowZ_35, rowZ_36, rowZ_37, rowZ_38, rowZ_39,
    rowZ_40, rowZ_41, rowZ_42, rowZ_43, rowZ_44, rowZ_45, rowZ_46, rowZ_47,
    rowZ_48, rowZ_49]

def rowP_0 : List (ℤ × ℤ) :=
  [(0, 30000), (0, 1350), (0, 2), (0, 30000), (0, 1350), (0, 41),
    (0, 1), (0, 1350), (0, 41), (0, 2), (0, 1350), (0, 41),
    (0, 2), (0, 1), (0, 1), (0, 1)]
def rowP_1 : List (ℤ × ℤ) :=
  [(30000, 60000), (1350, 5400), (1, 17), (27379, 57341), (1270, 5241), (38, 316),
    (0, 1), (1345, 5396), (40, 324), (1, 17), (1349, 5400), (40, 324),
    (1, 17), (0, 1), (0, 1), (0, 1)]
def rowP_2 : List (ℤ × ℤ) :=
  [(60000, 90000), (5400, 12150), (16, 83), (52255, 82139), (4931, 11439), (300, 1041),
    (0, 1), (5363, 12114), (322, 1092), (16, 82), (5397, 12149), (323, 1094),
    (16, 83), (0, 6), (0, 1), (0, 1)]
def rowP_3 : List (ℤ × ℤ) :=
  [(90000, 120000), (12150, 21600), (82, 260), (74740, 104512), (10762, 19728), (988, 2405),
    (0, 2), (12004, 21455), (1083, 2579), (81, 259), (12136, 21591), (1092, 2592),
    (81, 260), (5, 24), (0, 2), (0, 1)]
def rowP_4 : List (ℤ × ℤ) :=
  [(120000, 150000), (21600, 33750), (259, 633), (94942, 124568), (18555, 29897), (2285, 4579),
    (1, 7), (21197, 33347), (2555, 5018), (256, 629), (21554, 33714), (2588, 5059),
    (258, 633), (23, 72), (1, 8), (0, 1)]
def rowP_5 : List (ℤ × ℤ) :=
  [(150000, 180000), (33750, 48600), (632, 1313), (112967, 142415), (28110, 41749), (4352, 7714),
    (6, 21), (32846, 47695), (4960, 8626), (622, 1297), (33627, 48498), (5049, 8736),
    (631, 1311), (71, 178), (7, 23), (0, 3)]
def rowP_6 : List (ℤ × ℤ) :=
  [(180000, 190000), (48600, 54150), (1312, 1630), (133324, 143094), (40063, 45103), (7457, 8846),
    (19, 28), (47151, 52701), (8552, 10082), (1287, 1602), (48391, 53953), (8721, 10263),
    (1309, 1626), (177, 233), (22, 31), (2, 4)]
def rowP_7 : List (ℤ × ℤ) :=
  [(190000, 200000), (54150, 60000), (1629, 2000), (138393, 148140), (44178, 49462), (8696, 10230),
    (27, 37), (52363, 58213), (10033, 11732), (1595, 1963), (53879, 59744), (10252, 11965),
    (1624, 1996), (232, 300), (30, 42), (3, 6)]
def rowP_8 : List (ℤ × ℤ) :=
  [(200000, 210000), (60000, 66150), (2000, 2432), (143242, 152963), (48446, 53970), (10057, 11743),
    (36, 50), (57820, 63969), (11672, 13548), (1954, 2381), (59653, 65820), (11951, 13843),
    (1993, 2425), (299, 383), (41, 57), (5, 8)]
def rowP_9 : List (ℤ × ℤ) :=
  [(210000, 220000), (66150, 72600), (2431, 2929), (147873, 157569), (52859, 58621), (11544, 13387),
    (48, 65), (63515, 69963), (13475, 15537), (2369, 2862), (65710, 72181), (13826, 15908),
    (2421, 2919), (382, 484), (56, 75), (7, 11)]
def rowP_10 : List (ℤ × ℤ) :=
  [(220000, 230000), (72600, 79350), (2928, 3499), (152291, 161960), (57412, 63409), (13160, 15167),
    (63, 84), (69443, 76190), (15450, 17705), (2847, 3411), (72048, 78823), (15887, 18166),
    (2915, 3485), (483, 604), (74, 98), (10, 15)]
def rowP_11 : List (ℤ × ℤ) :=
  [(230000, 242000), (79350, 87846), (3498, 4288), (155959, 167524), (61969, 69471), (14885, 17518),
    (82, 114), (75536, 84027), (17591, 20565), (3391, 4170), (78648, 87180), (18137, 21146),
    (3480, 4269), (603, 779), (97, 132), (14, 22)]
def rowP_12 : List (ℤ × ℤ) :=
  [(242000, 254000), (87846, 96774), (4287, 5203), (160715, 172238), (67749, 75580), (17162, 20050),
    (111, 150), (83202, 92124), (20414, 23694), (4143, 5045), (86948, 95919), (21106, 24429),
    (4262, 5178), (778, 992), (131, 177), (21, 30)]
def rowP_13 : List (ℤ × ℤ) :=
  [(254000, 266000), (96774, 106134), (5202, 6259), (165179, 176660), (73701, 81856), (19642, 22793),
    (147, 197), (91172, 100524), (23511, 27111), (5012, 6049), (95638, 105050), (24378, 28030),
    (5168, 6223), (991, 1249), (176, 233), (29, 42)]
def rowP_14 : List (ℤ × ℤ) :=
  [(266000, 278000), (106134, 115926), (6258, 7467), (169358, 180794), (79816, 88291), (22330, 25755),
    (193, 254), (99435, 109217), (26892, 30826), (6008, 7193), (104713, 114567), (27967, 31963),
    (6211, 7417), (1248, 1557), (232, 303), (41, 57)]
def rowP_15 : List (ℤ × ℤ) :=
  [(278000, 292000), (115926, 127896), (7466, 9088), (172639, 185921), (85904, 96188), (25187, 29541),
    (249, 338), (107871, 119825), (30543, 35574), (7137, 8725), (114128, 126185), (31877, 36996),
    (7401, 9020), (1556, 1991), (302, 407), (56, 80)]
def rowP_16 : List (ℤ × ℤ) :=
  [(292000, 306000), (127896, 140454), (9087, 10960), (176820, 190038), (93382, 104086), (28839, 33592),
    (331, 444), (118158, 130695), (35207, 40734), (8649, 10478), (125615, 138277), (36879, 42513),
    (8996, 10865), (1990, 2516), (406, 539), (79, 110)]
def rowP_17 : List (ℤ × ℤ) :=
  [(306000, 320000), (140454, 153600), (10959, 13108), (180638, 193789), (101040, 112158), (32793, 37960),
    (434, 575), (128786, 141906), (40293, 46338), (10383, 12476), (137591, 150862), (42365, 48539),
    (10834, 12977), (2515, 3146), (538, 705), (109, 151)]
def rowP_18 : List (ℤ × ℤ) :=
  [(320000, 336000), (153600, 169344), (13107, 15932), (183422, 198365), (108633, 121834), (36991, 43419),
    (562, 763), (139570, 155277), (45773, 53344), (12348, 15094), (149979, 165893), (48340, 56088),
    (12933, 15750), (3145, 4015), (704, 945), (150, 212)]
def rowP_19 : List (ℤ × ℤ) :=
  [(336000, 352000), (169344, 185856), (15931, 19191), (186935, 201785), (117741, 131460), (42236, 49241),
    (745, 997), (152417, 168881), (52618, 60925), (14922, 18080), (164757, 181475), (55820, 64342),
    (15689, 18937), (4014, 5066), (944, 1249), (211, 293)]
def rowP_20 : List (ℤ × ℤ) :=
  [(352000, 368000), (185856, 203136), (19190, 22925), (190008, 204763), (127026, 141253), (47897, 55498),
    (975, 1288), (165612, 182832), (60055, 69130), (17864, 21473), (180110, 197635), (64004, 73336),
    (18857, 22577), (5065, 6327), (1248, 1630), (292, 400)]
def rowP_21 : List (ℤ × ℤ) :=
  [(368000, 386000), (203136, 223494), (22924, 27750), (191914, 208392), (136176, 152773), (53886, 63170),
    (1258, 1697), (178879, 199152), (68030, 79194), (21187, 25834), (195896, 216585), (72887, 84401),
    (22466, 27269), (6325, 8033), (1629, 2171), (399, 559)]
def rowP_22 : List (ℤ × ℤ) :=
  [(386000, 404000), (223494, 244824), (27749, 33300), (194375, 210726), (146941, 164152), (61225, 71311),
    (1655, 2204), (194368, 215590), (77796, 90013), (25453, 30777), (214374, 236100), (83801, 96440),
    (27114, 32634), (8031, 10088), (2170, 2853), (558, 769)]
def rowP_23 : List (ℤ × ℤ) :=
  [(404000, 424000), (244824, 269664), (33299, 40400), (195548, 213557), (157513, 177336), (68989, 81164),
    (2147, 2909), (209833, 234522), (88250, 103109), (30274, 37057), (233293, 258660), (95643, 111069),
    (32419, 39475), (10085, 12844), (2852, 3813), (768, 1078)]
def rowP_24 : List (ℤ × ℤ) :=
  [(424000, 444000), (269664, 295704), (40399, 48579), (197124, 214966), (169757, 190299), (78375, 91601),
    (2830, 3785), (227592, 253442), (100881, 117145), (36390, 44166), (255104, 281777), (110010, 126959),
    (39174, 47295), (12840, 16171), (3811, 5026), (1077, 1488)]
def rowP_25 : List (ℤ × ℤ) :=
  [(444000, 464000), (295704, 322944), (48578, 57941), (198116, 215789), (182120, 203363), (88443, 102749),
    (3682, 4864), (245558, 272561), (114488, 132211), (43333, 52191), (277516, 305508), (125630, 144175),
    (46900, 56185), (16165, 20153), (5024, 6547), (1487, 2026)]
def rowP_26 : List (ℤ × ℤ) :=
  [(464000, 486000), (322944, 354294), (57940, 69736), (197708, 216941), (194143, 218289), (99019, 116036),
    (4725, 6336), (263189, 294214), (128906, 150149), (51108, 62208), (300170, 332503), (142435, 164762),
    (55645, 67328), (20145, 25402), (6544, 8643), (2024, 2801)]
def rowP_27 : List (ℤ × ℤ) :=
  [(486000, 508000), (354294, 387096), (69735, 83247), (197540, 216558), (207870, 232817), (111610, 130005),
    (6147, 8142), (283077, 315473), (146030, 169166), (60793, 73431), (325829, 359799), (162482, 186920),
    (66586, 79949), (25388, 31689), (8638, 11270), (2799, 3818)]
def rowP_28 : List (ℤ × ℤ) :=
  [(508000, 532000), (387096, 424536), (83246, 100129), (195873, 216359), (221133, 249223), (124803, 146479),
    (7887, 10582), (302313, 339201), (164072, 191545), (71600, 87289), (351481, 390429), (183949, 213125),
    (78939, 95608), (31667, 39904), (11263, 14863), (3815, 5273)]
def rowP_29 : List (ℤ × ℤ) :=
  [(532000, 556000), (424536, 463704), (100128, 119457), (194307, 214528), (236093, 265078), (140339, 163740),
    (10236, 13568), (323662, 362144), (185236, 215115), (84912, 102746), (380090, 421042), (209255, 241175),
    (94230, 113277), (39870, 49736), (14852, 19362), (5268, 7178)]
def rowP_30 : List (ℤ × ℤ) :=
  [(556000, 582000), (463704, 508086), (119456, 143418), (191158, 212745), (250430, 282790), (156558, 183895),
    (13104, 17562), (343905, 387363), (207361, 242529), (99690, 121625), (408234, 454894), (236161, 273976),
    (111410, 134970), (49680, 62475), (19343, 25461), (7172, 9881)]
def rowP_31 : List (ℤ × ℤ) :=
  [(582000, 610000), (508086, 558150), (143417, 173074), (187065, 209934), (265814, 301739), (175152, 206955),
    (16911, 22876), (365133, 413954), (232617, 273840), (117531, 144436), (438419, 491384), (267219, 311872),
    (132336, 161417), (62380, 78970), (25427, 33735), (9869, 13723)]
def rowP_32 : List (ℤ × ℤ) :=
  [(610000, 638000), (558150, 610566), (173073, 207107), (182830, 205317), (282798, 319820), (196692, 231016),
    (21993, 29384), (387916, 438784), (261646, 306436), (139150, 169726), (471017, 526848), (303108, 352015),
    (157834, 191105), (78814, 98750), (33678, 44126), (13702, 18776)]
def rowP_33 : List (ℤ × ℤ) :=
  [(638000, 668000), (610566, 669336), (207106, 248895), (176872, 200513), (298828, 339637), (219069, 258686),
    (28202, 37986), (408487, 465198), (291559, 343606), (162971, 200115), (501790, 564846), (340726, 398051),
    (186273, 226981), (98495, 124119), (44030, 58081), (18739, 25878)]
def rowP_34 : List (ℤ × ℤ) :=
  [(668000, 700000), (669336, 735000), (248894, 300125), (169722, 194414), (315604, 360383), (244301, 289868),
    (36344, 49288), (428818, 491747), (324852, 385095), (191183, 236172), (533039, 604056), (383027, 450027),
    (220243, 269937), (123689, 156605), (57910, 76810), (25811, 35868)]
def rowP_35 : List (ℤ × ℤ) :=
  [(700000, 732000), (735000, 803736), (300125, 358885), (162233, 186397), (333758, 379820), (273085, 322177),
    (47070, 63069), (449594, 514938), (362256, 427466), (224752, 275677), (565111, 640072), (430721, 504005),
    (260855, 317573), (155903, 195438), (76519, 100269), (35749, 48974)]
def rowP_36 : List (ℤ × ℤ) :=
  [(732000, 766000), (803736, 880134), (358884, 430354), (152952, 178010), (350505, 400743), (302745, 358809),
    (60113, 81042), (466445, 538393), (399897, 474706), (261231, 322289), (592668, 676700), (479388, 564403),
    (305448, 374045), (194301, 244631), (99777, 131389), (48763, 67172)]
def rowP_37 : List (ℤ × ℤ) :=
  [(766000, 802000), (880134, 964806), (430353, 517140), (142306, 168132), (367544, 422135), (335645, 399482),
    (76978, 104324), (481106, 559953), (440496, 525972), (303487, 376447), (617485, 711442), (532159, 630490),
    (357403, 440142), (242736, 306755), (130530, 172589), (66787, 92414)]
def rowP_38 : List (ℤ × ℤ) :=
  [(802000, 840000), (964806, 1058400), (517139, 622340), (130228, 156684), (384657, 443773), (371925, 444408),
    (98732, 134407), (492611, 578600), (483687, 580939), (352051, 438914), (637779, 742556), (588391, 701769),
    (417355, 516847), (303594, 384936), (171089, 226996), (91712, 127366)]
def rowP_39 : List (ℤ × ℤ) :=
  [(840000, 878000), (1058400, 1156326), (622339, 742828), (117633, 143277), (402597, 463299), (412460, 490414),
    (126893, 170816), (501894, 590470), (530251, 634714), (408194, 505754), (653852, 764386), (648523, 772020),
    (486605, 599499), (379827, 477414), (224457, 294541), (126121, 172850)]
def rowP_40 : List (ℤ × ℤ) :=
  [(878000, 918000), (1156326, 1264086), (742827, 887730), (103282, 129333), (418299, 483738), (453610, 541608),
    (160835, 217487), (503812, 599536), (574535, 692227), (467504, 582367), (658410, 780925), (705311, 846484),
    (559809, 694118), (469242, 592112), (290297, 382398), (170674, 234818)]
def rowP_41 : List (ℤ × ℤ) :=
  [(918000, 960000), (1264086, 1382400), (887729, 1061684), (87479, 113760), (433403, 503764), (498185, 597310),
    (203892, 276841), (499596, 602467), (619222, 751203), (533672, 668349), (651847, 787145), (761211, 921968),
    (640937, 800113), (578773, 733299), (375153, 496025), (230934, 318864)]
def rowP_42 : List (ℤ × ℤ) :=
  [(960000, 1004000), (1382400, 1512024), (1061683, 1270121), (70227, 96537), (447607, 523081), (546146, 657595),
    (258318, 352081), (487924, 597809), (663093, 810365), (606631, 763836), (630950, 779715), (813575, 995832),
    (729211, 917038), (711573, 905657), (483680, 642031), (311941, 432242)]
def rowP_43 : List (ℤ × ℤ) :=
  [(1004000, 1050000), (1512024, 1653750), (1270120, 1519383), (51552, 77659), (460581, 541375), (597377, 722485),
    (326834, 447125), (467416, 584015), (704624, 868089), (685999, 868625), (592113, 754823), (858955, 1064549),
    (823071, 1043612), (870397, 1113808), (621067, 828071), (419942, 584118)]
def rowP_44 : List (ℤ × ℤ) :=
  [(1050000, 1098000), (1653750, 1808406), (1519382, 1816852), (31507, 57143), (471976, 558318), (651676, 791942),
    (412701, 566733), (436671, 559481), (741962, 922376), (770989, 982071), (531413, 708216), (892999, 1123568),
    (919935, 1177430), (1056867, 1361636), (792642, 1062554), (562368, 785726)]
def rowP_45 : List (ℤ × ℤ) :=
  [(1098000, 1148000), (1808406, 1976856), (1816851, 2171089), (10173, 35021), (481426, 573567), (708735, 865861),
    (519772, 716654), (394319, 522595), (772921, 970834), (860310, 1102971), (444742, 635299), (910402, 1167211),
    (1015933, 1314643), (1270276, 1651139), (1003060, 1353921), (747504, 1050241)]
def rowP_46 : List (ℤ × ℤ) :=
  [(1148000, 1200000), (1976856, 2160000), (2171088, 2592000), (-13557, 11346), (488550, 586773), (768128, 944068),
    (652552, 903794), (339092, 471789), (794986, 1010681), (952062, 1229456), (328014, 531297), (904897, 1188613),
    (1105638, 1449609), (1505743, 1980582), (1254813, 1709230), (983607, 1392087)]
def rowP_47 : List (ℤ × ℤ) :=
  [(1200000, 1254000), (2160000, 2358774), (2592000, 3091009), (-39668, -12490), (492957, 597584), (829289, 1026311),
    (816219, 1136391), (269905, 405621), (805343, 1038765), (1043629, 1358871), (177462, 391496), (869354, 1179747),
    (1181825, 1574556), (1751508, 2341692), (1545760, 2131638), (1277056, 1825205)]
def rowP_48 : List (ℤ × ℤ) :=
  [(1254000, 1312000), (2358774, 2582016), (3091008, 3703782), (-68163, -36190), (492722, 607499), (889571, 1117364),
    (1014989, 1437320), (182184, 323833), (796791, 1056434), (1127601, 1496787), (-19498, 212240), (788994, 1136760),
    (1229046, 1689576), (1977496, 2736377), (1859483, 2640332), (1624735, 2384948)]
def rowP_49 : List (ℤ × ℤ) :=
  [(1312000, 1372000), (2582016, 2823576), (3703781, 4429212), (-97860, -61483), (490379, 612459), (953974, 1209795),
    (1267611, 1807849), (79401, 219289), (773022, 1049313), (1209748, 1624698), (-287435, -18038), (664066, 1034249),
    (1247537, 1762690), (2162994, 3100278), (2190786, 3189583), (2037705, 3049164)]
def rowP : List (List (ℤ × ℤ)) :=
  [rowP_0, rowP_1, rowP_2, rowP_3, rowP_4, rowP_5, rowP_6, rowP_7,
    rowP_8, rowP_9, rowP_10, rowP_11, rowP_12, rowP_13, rowP_14, rowP_15,
    rowP_16, rowP_17, rowP_18, rowP_19, rowP_20, rowP_21, rowP_22, rowP_23,
    rowP_24, rowP_25, rowP_26, rowP_27, rowP_28, rowP_29, rowP_30, rowP_31,
    rowP_32, rowP_33, rowP_34, rowP_35, rowP_36, rowP_37, rowP_38, rowP_39,
    rowP_40, rowP_41, rowP_42, rowP_43, rowP_44, rowP_45, rowP_46, rowP_47,
    rowP_48, rowP_49]

def rowZa_0 : List ℤ :=
  [15000, 450, 1, 15225, 454, 11, 1, 451, 11, 1, 451, 11, 1, 1, 1, 1]
def rowZa_1 : List ℤ :=
  [30000, 1800, 4, 30440, 1800, 81, 1, 1802, 82, 4, 1801, 82, 4, 1, 1, 1]
def rowZa_2 : List ℤ :=
  [45000, 4050, 17, 45636, 4019, 270, 1, 4055, 274, 17, 4051, 274, 17, 1, 1, 1]
def rowZa_3 : List ℤ :=
  [60000, 7200, 52, 60802, 7090, 632, 1, 7212, 649, 52, 7202, 649, 52, 4, 1, 1]
def rowZa_4 : List ℤ :=
  [75000, 11250, 127, 75930, 10993, 1222, 2, 11273, 1266, 127, 11255, 1266, 127, 12, 2, 1]
def rowZa_5 : List ℤ :=
  [90000, 16200, 263, 91012, 15706, 2090, 4, 16240, 2187, 263, 16211, 2188, 263, 30, 4, 1]
def rowZa_6 : List ℤ :=
  [95000, 18050, 326, 95072, 17281, 2426, 5, 18066, 2567, 325, 18061, 2573, 326, 39, 5, 1]
def rowZa_7 : List ℤ :=
  [100000, 20000, 400, 100032, 19097, 2820, 6, 20019, 2993, 399, 20013, 3001, 400, 51, 7, 1]
def rowZa_8 : List ℤ :=
  [105000, 22050, 487, 104984, 21000, 3253, 8, 22072, 3464, 485, 22067, 3474, 487, 64, 9, 1]
def rowZa_9 : List ℤ :=
  [110000, 24200, 586, 109930, 22987, 3727, 10, 24225, 3982, 583, 24221, 3994, 586, 81, 11, 2]
def rowZa_10 : List ℤ :=
  [115000, 26450, 700, 114869, 25058, 4245, 13, 26478, 4548, 696, 26476, 4564, 700, 101, 14, 2]
def rowZa_11 : List ℤ :=
  [121000, 29282, 858, 120907, 27681, 4929, 18, 29321, 5297, 853, 29316, 5317, 858, 130, 19, 3]
def rowZa_12 : List ℤ :=
  [127000, 32258, 1041, 126818, 30397, 5676, 23, 32302, 6121, 1034, 32300, 6147, 1041, 166, 26, 4]
def rowZa_13 : List ℤ :=
  [133000, 35378, 1252, 132718, 33231, 6492, 30, 35428, 7027, 1243, 35431, 7061, 1252, 209, 34, 6]
def rowZa_14 : List ℤ :=
  [139000, 38642, 1494, 138606, 36182, 7381, 39, 38698, 8018, 1482, 38707, 8060, 1493, 260, 44, 8]
def rowZa_15 : List ℤ :=
  [146000, 42632, 1818, 145604, 39809, 8521, 52, 42708, 9288, 1802, 42717, 9341, 1817, 332, 59, 10]
def rowZa_16 : List ℤ :=
  [153000, 46818, 2192, 152447, 43554, 9759, 69, 46904, 10683, 2171, 46924, 10750, 2191, 420, 77, 14]
def rowZa_17 : List ℤ :=
  [160000, 51200, 2622, 159271, 47452, 11108, 89, 51296, 12209, 2594, 51331, 12295, 2621, 525, 101, 19]
def rowZa_18 : List ℤ :=
  [168000, 56448, 3187, 167213, 52143, 12801, 119, 56575, 14127, 3150, 56618, 14234, 3185, 670, 135, 27]
def rowZa_19 : List ℤ :=
  [176000, 61952, 3839, 174970, 56981, 14638, 156, 62094, 16229, 3790, 62164, 16367, 3836, 845, 179, 37]
def rowZa_20 : List ℤ :=
  [184000, 67712, 4585, 182701, 62010, 16634, 202, 67870, 18528, 4521, 67974, 18703, 4582, 1055, 233, 50]
def rowZa_21 : List ℤ :=
  [193000, 74498, 5550, 191556, 67960, 19098, 267, 74701, 21367, 5466, 74834, 21588, 5546, 1339, 311, 70]
def rowZa_22 : List ℤ :=
  [202000, 81608, 6660, 200192, 74082, 21761, 348, 81833, 24472, 6548, 82026, 24753, 6654, 1682, 408, 97]
def rowZa_23 : List ℤ :=
  [212000, 89888, 8080, 209953, 81235, 25008, 461, 90173, 28264, 7932, 90425, 28620, 8071, 2142, 545, 135]
def rowZa_24 : List ℤ :=
  [222000, 98568, 9716, 219466, 88592, 28519, 603, 98881, 32412, 9518, 99236, 32868, 9703, 2697, 719, 187]
def rowZa_25 : List ℤ :=
  [232000, 107648, 11589, 228930, 96222, 32325, 779, 107987, 36940, 11328, 108472, 37517, 11570, 3361, 936, 254]
def rowZa_26 : List ℤ :=
  [243000, 118098, 13948, 239520, 105028, 36901, 1020, 118518, 42397, 13607, 119143, 43123, 13923, 4237, 1236, 351]
def rowZa_27 : List ℤ :=
  [254000, 129032, 16650, 249817, 114055, 41823, 1318, 129481, 48336, 16201, 130321, 49255, 16614, 5287, 1612, 478]
def rowZa_28 : List ℤ :=
  [266000, 141512, 20026, 261237, 124378, 47685, 1722, 142058, 55433, 19439, 143143, 56591, 19979, 6660, 2126, 660]
def rowZa_29 : List ℤ :=
  [278000, 154568, 23892, 272326, 134945, 53983, 2222, 155139, 63146, 23120, 156575, 64613, 23824, 8304, 2770, 899]
def rowZa_30 : List ℤ :=
  [291000, 169362, 28684, 284531, 146934, 61421, 2894, 170042, 72292, 27675, 171890, 74139, 28593, 10437, 3644, 1238]
def rowZa_31 : List ℤ :=
  [305000, 186050, 34615, 297567, 160304, 70105, 3795, 186846, 83057, 33284, 189247, 85403, 34491, 13202, 4831, 1719]
def rowZa_32 : List ℤ :=
  [319000, 203522, 41422, 310200, 173976, 79431, 4910, 204315, 94755, 39663, 207462, 97734, 41243, 16525, 6325, 2354]
def rowZa_33 : List ℤ :=
  [334000, 223112, 49779, 323924, 189293, 90312, 6393, 224007, 108473, 47471, 228058, 112241, 49536, 20796, 8333, 3247]
def rowZa_34 : List ℤ :=
  [350000, 245000, 60025, 338413, 206181, 102872, 8361, 245984, 124444, 56978, 251220, 129234, 59690, 26283, 11035, 4505]
def rowZa_35 : List ℤ :=
  [366000, 267912, 71777, 352412, 223407, 116326, 10787, 268775, 141747, 67755, 275544, 147820, 71293, 32873, 14431, 6160]
def rowZa_36 : List ℤ :=
  [383000, 293378, 86071, 367468, 242505, 131855, 13978, 294238, 161832, 80802, 302883, 169498, 85406, 41264, 18953, 8465]
def rowZa_37 : List ℤ :=
  [401000, 321602, 103428, 383206, 263348, 149586, 18154, 322384, 184960, 96499, 333439, 194668, 102506, 51938, 24972, 11676]
def rowZa_38 : List ℤ :=
  [420000, 352800, 124468, 399589, 286016, 169766, 23611, 353389, 211507, 115329, 367529, 223824, 123180, 65504, 32978, 16147]
def rowZa_39 : List ℤ :=
  [439000, 385442, 148566, 415340, 309043, 191295, 30303, 385385, 240108, 136543, 403340, 255630, 146711, 81776, 43019, 22011]
def rowZa_40 : List ℤ :=
  [459000, 421362, 177546, 432075, 334253, 215814, 38971, 420723, 272866, 161852, 443342, 292352, 174975, 102276, 56230, 30071]
def rowZa_41 : List ℤ :=
  [480000, 460800, 212337, 449354, 361426, 243438, 50132, 459277, 310039, 191820, 487723, 334505, 208754, 128069, 73590, 41140]
def rowZa_42 : List ℤ :=
  [502000, 504008, 254025, 467131, 390625, 274468, 64467, 501188, 352074, 227181, 536869, 382770, 249008, 160487, 96374, 56316]
def rowZa_43 : List ℤ :=
  [525000, 551250, 303877, 485360, 421905, 309223, 82827, 546583, 399433, 268753, 591180, 437878, 296828, 201185, 126229, 77089]
def rowZa_44 : List ℤ :=
  [549000, 602802, 363371, 503992, 455318, 348035, 106270, 595560, 452582, 317433, 651057, 500609, 353439, 252220, 165281, 105460]
def rowZa_45 : List ℤ :=
  [574000, 658952, 434218, 522981, 490910, 391255, 136104, 648186, 511986, 374198, 716890, 571775, 420199, 316148, 216269, 144114]
def rowZa_46 : List ℤ :=
  [600000, 720000, 518400, 542278, 528721, 439245, 173941, 704490, 578096, 440099, 789033, 652204, 498593, 396143, 282703, 196632]
def rowZa_47 : List ℤ :=
  [627000, 786258, 618202, 561837, 568787, 492385, 221757, 764450, 651337, 516249, 867780, 742712, 590211, 496145, 369072, 267767]
def rowZa_48 : List ℤ :=
  [656000, 860672, 740757, 582855, 613242, 553750, 284599, 831284, 735950, 607835, 957537, 848786, 701544, 626278, 485834, 367905]
def rowZa_49 : List ℤ :=
  [686000, 941192, 885843, 603470, 659520, 620871, 363568, 900729, 827985, 712116, 1053485, 966145, 829785, 789146, 637589, 503404]
def rowZa : List (List ℤ) :=
  [rowZa_0, rowZa_1, rowZa_2, rowZa_3, rowZa_4, rowZa_5, rowZa_6, rowZa_7,
    rowZa_8, rowZa_9, rowZa_10, rowZa_11, rowZa_12, rowZa_13, rowZa_14, rowZa_15,
    rowZa_16, rowZa_17, rowZa_18, rowZa_19, rowZa_20, rowZa_21, rowZa_22, rowZa_23,
    rowZa_24, rowZa_25, rowZa_26, rowZa_27, rowZa_28, rowZa_29, rowZa_30, rowZa_31,
    rowZa_32, rowZa_33, rowZa_34, rowZa_35, rowZa_36, rowZa_37, rowZa_38, rowZa_39,
    rowZa_40, rowZa_41, rowZa_42, rowZa_43, rowZa_44, rowZa_45, rowZa_46, rowZa_47,
    rowZa_48, rowZa_49]

def rowPa_0 : List ℤ :=
  [60000, 2250, 2, 61354, 2278, 62, 1, 2251, 61, 2, 2251, 61, 2, 1, 1, 1]
def rowPa_1 : List ℤ :=
  [120000, 9000, 23, 123560, 9080, 487, 1, 9013, 487, 23, 9001, 487, 23, 1, 1, 1]
def rowPa_2 : List ℤ :=
  [180000, 20250, 115, 186560, 20363, 1632, 1, 20306, 1643, 115, 20255, 1641, 115, 8, 1, 1]
def rowPa_3 : List ℤ :=
  [240000, 36000, 363, 250296, 36081, 3842, 3, 36161, 3898, 364, 36021, 3890, 363, 32, 3, 1]
def rowPa_4 : List ℤ :=
  [300000, 56250, 886, 314712, 56183, 7452, 10, 56617, 7619, 888, 56310, 7599, 887, 95, 10, 1]
def rowPa_5 : List ℤ :=
  [360000, 81000, 1838, 379753, 80619, 12789, 28, 81723, 13178, 1841, 81143, 13136, 1839, 237, 29, 4]
def rowPa_6 : List ℤ :=
  [380000, 90250, 2281, 397568, 88826, 14856, 38, 90980, 15478, 2282, 90417, 15448, 2282, 310, 40, 5]
def rowPa_7 : List ℤ :=
  [400000, 100000, 2800, 419222, 98304, 17288, 51, 100890, 18057, 2801, 100215, 18021, 2802, 401, 55, 8]
def rowPa_8 : List ℤ :=
  [420000, 110250, 3404, 440935, 108249, 19966, 68, 111325, 20909, 3405, 110523, 20865, 3406, 511, 73, 10]
def rowPa_9 : List ℤ :=
  [440000, 121000, 4100, 462706, 118658, 22903, 89, 122287, 24047, 4101, 121343, 23995, 4103, 645, 96, 14]
def rowPa_10 : List ℤ :=
  [460000, 132250, 4898, 484532, 129531, 26110, 116, 133779, 27485, 4898, 132677, 27423, 4902, 805, 125, 19]
def rowPa_11 : List ℤ :=
  [484000, 146410, 6003, 511305, 143330, 30358, 157, 148307, 32034, 6004, 146965, 31953, 6009, 1038, 170, 27]
def rowPa_12 : List ℤ :=
  [508000, 161290, 7285, 537667, 157659, 35004, 209, 163577, 37054, 7286, 161995, 36957, 7294, 1322, 227, 38]
def rowPa_13 : List ℤ :=
  [532000, 176890, 8762, 564101, 172646, 40090, 274, 179624, 42574, 8764, 177775, 42460, 8775, 1665, 299, 52]
def rowPa_14 : List ℤ :=
  [556000, 193210, 10453, 590602, 188286, 45635, 356, 196453, 48620, 10454, 194311, 48487, 10470, 2076, 390, 71]
def rowPa_15 : List ℤ :=
  [584000, 213160, 12723, 622224, 207561, 52761, 476, 217142, 56384, 12727, 214575, 56217, 12748, 2654, 524, 99]
def rowPa_16 : List ℤ :=
  [612000, 234090, 15344, 653338, 227526, 60520, 626, 238859, 64923, 15348, 235873, 64729, 15379, 3354, 693, 138]
def rowPa_17 : List ℤ :=
  [640000, 256000, 18351, 684532, 248365, 68983, 815, 261666, 74287, 18354, 258224, 74067, 18397, 4195, 906, 188]
def rowPa_18 : List ℤ :=
  [672000, 282240, 22305, 720994, 273515, 79633, 1087, 289171, 86077, 22314, 285091, 85808, 22372, 5354, 1215, 265]
def rowPa_19 : List ℤ :=
  [704000, 309760, 26867, 756861, 299541, 91212, 1429, 318046, 99034, 26874, 313346, 98735, 26959, 6756, 1606, 367]
def rowPa_20 : List ℤ :=
  [736000, 338560, 32095, 792812, 326682, 103826, 1855, 348387, 113238, 32099, 343024, 112914, 32219, 8437, 2096, 500]
def rowPa_21 : List ℤ :=
  [772000, 372490, 38850, 834182, 358895, 119423, 2457, 384434, 130830, 38863, 378178, 130452, 39026, 10713, 2792, 699]
def rowPa_22 : List ℤ :=
  [808000, 408040, 46620, 874848, 392168, 136331, 3209, 422256, 150121, 46627, 415160, 149734, 46859, 13455, 3670, 961]
def rowPa_23 : List ℤ :=
  [848000, 449440, 56559, 921046, 431180, 156996, 4261, 466725, 173768, 56580, 458529, 173348, 56899, 17133, 4904, 1348]
def rowPa_24 : List ℤ :=
  [888000, 492840, 68010, 966455, 471477, 179408, 5579, 513437, 199727, 68019, 504243, 199352, 68473, 21575, 6466, 1861]
def rowPa_25 : List ℤ :=
  [928000, 538240, 81117, 1011939, 513434, 203770, 7215, 562589, 228174, 81107, 552402, 227893, 81741, 26894, 8423, 2533]
def rowPa_26 : List ℤ :=
  [972000, 590490, 97630, 1063106, 562041, 233134, 9461, 619802, 262600, 97633, 608374, 262422, 98501, 33907, 11122, 3504]
def rowPa_27 : List ℤ :=
  [1016000, 645160, 116545, 1113322, 612094, 264822, 12243, 679806, 300237, 116510, 667388, 300334, 117719, 42313, 14508, 4777]
def rowPa_28 : List ℤ :=
  [1064000, 707560, 140180, 1169323, 669572, 302677, 16028, 749167, 345434, 140150, 735584, 345878, 141810, 53308, 19140, 6599]
def rowPa_29 : List ℤ :=
  [1112000, 772840, 167239, 1224249, 728708, 343484, 20708, 821934, 394825, 167130, 807630, 395915, 169435, 66482, 24945, 8988]
def rowPa_30 : List ℤ :=
  [1164000, 846810, 200785, 1285055, 796088, 391830, 27016, 905555, 453719, 200656, 890535, 455659, 203819, 83575, 32823, 12379]
def rowPa_31 : List ℤ :=
  [1220000, 930250, 242303, 1350569, 871624, 448477, 35492, 1000797, 523495, 242135, 985518, 526752, 246527, 105753, 43526, 17204]
def rowPa_32 : List ℤ :=
  [1276000, 1017610, 289949, 1414774, 949307, 509553, 45996, 1100897, 599852, 289548, 1086410, 605140, 295657, 132424, 56998, 23561]
def rowPa_33 : List ℤ :=
  [1336000, 1115560, 348453, 1484987, 1036776, 581084, 60009, 1214974, 690057, 347902, 1201992, 698086, 356327, 166745, 75132, 32513]
def rowPa_34 : List ℤ :=
  [1400000, 1225000, 420175, 1559830, 1133775, 663979, 78631, 1343870, 795940, 419379, 1333953, 807965, 431081, 210896, 99555, 45139]
def rowPa_35 : List ℤ :=
  [1464000, 1339560, 502438, 1633054, 1233358, 753179, 101645, 1479384, 911700, 500943, 1474875, 929384, 517123, 264019, 130291, 61763]
def rowPa_36 : List ℤ :=
  [1532000, 1466890, 602495, 1712373, 1344376, 856557, 131986, 1632793, 1047300, 600360, 1636083, 1072603, 622595, 331821, 171291, 84946]
def rowPa_37 : List ℤ :=
  [1604000, 1608010, 723995, 1796170, 1466326, 975133, 171800, 1804915, 1205058, 720883, 1819914, 1241037, 751557, 418345, 225989, 117298]
def rowPa_38 : List ℤ :=
  [1680000, 1764000, 871275, 1884368, 1599841, 1110742, 223956, 1997600, 1388173, 866679, 2029606, 1439004, 909089, 528755, 298965, 162450]
def rowPa_39 : List ℤ :=
  [1756000, 1927210, 1039959, 1970400, 1736509, 1256168, 288095, 2200008, 1587865, 1032429, 2255340, 1658479, 1090471, 661895, 390846, 221852]
def rowPa_40 : List ℤ :=
  [1836000, 2106810, 1242822, 2062550, 1887076, 1422579, 371388, 2427319, 1819377, 1232012, 2513810, 1916257, 1311084, 830752, 512343, 303831]
def rowPa_41 : List ℤ :=
  [1920000, 2304000, 1486357, 2158838, 2050566, 1611054, 478957, 2680021, 2085658, 1470758, 2808611, 2217940, 1578501, 1045062, 673043, 416971]
def rowPa_42 : List ℤ :=
  [2008000, 2520040, 1778169, 2259145, 2227589, 1823935, 617538, 2960302, 2391174, 1755610, 3144974, 2570839, 1902291, 1317446, 885723, 573137]
def rowPa_43 : List ℤ :=
  [2100000, 2756250, 2127136, 2363341, 2418745, 2063732, 795589, 3270417, 2740787, 2094518, 3528834, 2983410, 2293829, 1664336, 1167446, 788723]
def rowPa_44 : List ℤ :=
  [2196000, 3014010, 2543592, 2471286, 2624623, 2333119, 1023677, 3612662, 3139753, 2496519, 3966860, 3465378, 2766579, 2107327, 1541110, 1086429]
def rowPa_45 : List ℤ :=
  [2296000, 3294760, 3039525, 2582831, 2845801, 2634943, 1314941, 3989325, 3593697, 2971814, 4466456, 4027853, 3336386, 2675084, 2037635, 1497780]
def rowPa_46 : List ℤ :=
  [2400000, 3600000, 3628800, 2697829, 3082846, 2972221, 1685645, 4402644, 4108582, 3531829, 5035718, 4683406, 4021769, 3406057, 2699073, 2066727]
def rowPa_47 : List ℤ :=
  [2508000, 3931290, 4327412, 2816132, 3336320, 3348154, 2155833, 4854745, 4690651, 4189256, 5683325, 5446095, 4844185, 4352323, 3583027, 2854809]
def rowPa_48 : List ℤ :=
  [2624000, 4303360, 5185295, 2944658, 3619957, 3785117, 2776129, 5372088, 5377243, 4993243, 6453172, 6372135, 5872690, 5637673, 4819973, 3996105]
def rowPa_49 : List ℤ :=
  [2744000, 4705960, 6200897, 3073397, 3918469, 4266692, 3558814, 5927877, 6142664, 5926336, 7318825, 7439911, 7097368, 7332951, 6498053, 5596506]
def rowPa : List (List ℤ) :=
  [rowPa_0, rowPa_1, rowPa_2, rowPa_3, rowPa_4, rowPa_5, rowPa_6, rowPa_7,
    rowPa_8, rowPa_9, rowPa_10, rowPa_11, rowPa_12, rowPa_13, rowPa_14, rowPa_15,
    rowPa_16, rowPa_17, rowPa_18, rowPa_19, rowPa_20, rowPa_21, rowPa_22, rowPa_23,
    rowPa_24, rowPa_25, rowPa_26, rowPa_27, rowPa_28, rowPa_29, rowPa_30, rowPa_31,
    rowPa_32, rowPa_33, rowPa_34, rowPa_35, rowPa_36, rowPa_37, rowPa_38, rowPa_39,
    rowPa_40, rowPa_41, rowPa_42, rowPa_43, rowPa_44, rowPa_45, rowPa_46, rowPa_47,
    rowPa_48, rowPa_49]

def boxTab_0 : List (ℤ × ℤ × ℤ × ℤ × ℤ) :=
  [(999, 1002, 999, 1003, 1069), (1000, 1003, 1001, 1006, 1135), (1001, 1005, 1003, 1010, 1202), (1002, 1006, 1005, 1013, 1270), (1003, 1008, 1007, 1017, 1339),
    (1004, 1010, 1009, 1021, 1409), (1005, 1010, 1012, 1022, 1428), (1006, 1011, 1013, 1023, 1452), (1006, 1012, 1014, 1024, 1475), (1006, 1012, 1015, 1026, 1498),
    (1007, 1013, 1016, 1027, 1521), (1007, 1014, 1017, 1029, 1550), (1008, 1014, 1018, 1031, 1578), (1008, 1015, 1020, 1033, 1606), (1009, 1016, 1021, 1035, 1634),
    (1009, 1017, 1022, 1037, 1669), (1010, 1018, 1024, 1039, 1701), (1011, 1019, 1026, 1041, 1734), (1011, 1020, 1027, 1044, 1774), (1012, 1021, 1029, 1047, 1812),
    (1013, 1022, 1031, 1050, 1851), (1014, 1024, 1034, 1053, 1893), (1015, 1025, 1036, 1057, 1937), (1016, 1027, 1039, 1061, 1985), (1017, 1028, 1042, 1065, 2034),
    (1018, 1030, 1045, 1069, 2082), (1019, 1032, 1048, 1073, 2137), (1021, 1034, 1052, 1078, 2189), (1022, 1036, 1056, 1084, 2248), (1024, 1038, 1060, 1089, 2307),
    (1025, 1040, 1064, 1096, 2372), (1027, 1043, 1069, 1103, 2441), (1029, 1046, 1075, 1110, 2508), (1031, 1049, 1081, 1118, 2581), (1034, 1052, 1087, 1127, 2660),
    (1036, 1056, 1095, 1137, 2735), (1039, 1060, 1102, 1147, 2819), (1042, 1064, 1111, 1158, 2904), (1045, 1068, 1120, 1171, 2996), (1049, 1073, 1131, 1184, 3083),
    (1053, 1078, 1142, 1198, 3176), (1057, 1084, 1153, 1214, 3276), (1061, 1090, 1167, 1231, 3375), (1066, 1097, 1181, 1250, 3480), (1072, 1104, 1197, 1271, 3586),
    (1077, 1111, 1214, 1293, 3696), (1084, 1120, 1233, 1318, 3807), (1091, 1129, 1254, 1345, 3918)]
def boxTab_1 : List (ℤ × ℤ × ℤ × ℤ × ℤ) :=
  [(999, 1002, 999, 1003, 1071), (1000, 1003, 1000, 1005, 1141), (1000, 1004, 1001, 1008, 1212), (1001, 1005, 1002, 1011, 1284), (1001, 1007, 1004, 1014, 1356),
    (1002, 1008, 1005, 1017, 1430), (1003, 1008, 1008, 1018, 1451), (1003, 1009, 1008, 1019, 1476), (1004, 1009, 1009, 1020, 1501), (1004, 1010, 1010, 1021, 1525),
    (1004, 1010, 1011, 1022, 1549), (1004, 1011, 1011, 1024, 1581), (1005, 1012, 1012, 1025, 1611), (1005, 1012, 1013, 1027, 1641), (1006, 1013, 1014, 1029, 1671),
    (1006, 1014, 1015, 1031, 1707), (1006, 1015, 1017, 1033, 1741), (1007, 1015, 1018, 1035, 1777), (1007, 1016, 1020, 1037, 1817), (1008, 1017, 1021, 1040, 1859),
    (1009, 1018, 1023, 1042, 1899), (1009, 1020, 1025, 1045, 1945), (1010, 1021, 1027, 1048, 1992), (1011, 1022, 1029, 1052, 2044), (1012, 1024, 1032, 1055, 2095),
    (1013, 1025, 1034, 1059, 2148), (1014, 1027, 1037, 1063, 2206), (1015, 1028, 1040, 1068, 2263), (1016, 1030, 1043, 1073, 2327), (1017, 1032, 1047, 1078, 2389),
    (1019, 1034, 1051, 1084, 2457), (1020, 1037, 1056, 1090, 2530), (1022, 1039, 1061, 1097, 2603), (1024, 1042, 1066, 1105, 2682), (1026, 1045, 1072, 1113, 2766),
    (1028, 1048, 1078, 1122, 2851), (1030, 1052, 1085, 1131, 2939), (1033, 1056, 1093, 1142, 3032), (1036, 1060, 1101, 1154, 3132), (1039, 1064, 1111, 1166, 3226),
    (1042, 1069, 1121, 1180, 3328), (1046, 1074, 1132, 1195, 3434), (1050, 1080, 1144, 1211, 3544), (1054, 1086, 1158, 1229, 3656), (1059, 1092, 1173, 1249, 3771),
    (1065, 1100, 1189, 1271, 3891), (1070, 1108, 1207, 1294, 4011), (1077, 1116, 1226, 1321, 4136)]
def boxTab_2 : List (ℤ × ℤ × ℤ × ℤ × ℤ) :=
  [(999, 1001, 998, 1002, 1075), (999, 1002, 998, 1004, 1149), (999, 1003, 999, 1006, 1223), (999, 1004, 999, 1008, 1299), (999, 1005, 1000, 1010, 1376),
    (1000, 1006, 1001, 1013, 1453), (1001, 1006, 1003, 1014, 1476), (1001, 1007, 1003, 1014, 1503), (1001, 1007, 1004, 1015, 1528), (1001, 1007, 1004, 1016, 1555),
    (1001, 1008, 1005, 1017, 1581), (1001, 1008, 1005, 1019, 1614), (1002, 1009, 1006, 1020, 1645), (1002, 1009, 1007, 1021, 1677), (1002, 1010, 1007, 1023, 1710),
    (1002, 1011, 1008, 1024, 1747), (1003, 1011, 1009, 1026, 1785), (1003, 1012, 1010, 1028, 1823), (1003, 1013, 1011, 1030, 1867), (1004, 1014, 1012, 1032, 1911),
    (1004, 1014, 1014, 1034, 1953), (1004, 1015, 1015, 1037, 2004), (1005, 1016, 1017, 1039, 2053), (1005, 1018, 1018, 1043, 2110), (1006, 1019, 1020, 1046, 2166),
    (1007, 1020, 1023, 1049, 2219), (1008, 1021, 1025, 1053, 2282), (1008, 1023, 1027, 1057, 2345), (1009, 1024, 1030, 1061, 2412), (1010, 1026, 1033, 1066, 2480),
    (1011, 1028, 1037, 1071, 2552), (1013, 1030, 1040, 1077, 2634), (1014, 1032, 1045, 1083, 2711), (1015, 1035, 1049, 1090, 2798), (1017, 1038, 1054, 1098, 2890),
    (1019, 1040, 1060, 1106, 2979), (1021, 1044, 1066, 1115, 3076), (1023, 1047, 1073, 1125, 3177), (1025, 1051, 1081, 1136, 3283), (1028, 1055, 1089, 1148, 3389),
    (1031, 1059, 1098, 1161, 3500), (1034, 1064, 1108, 1175, 3616), (1037, 1069, 1120, 1190, 3733), (1041, 1075, 1132, 1208, 3858), (1046, 1081, 1146, 1227, 3984),
    (1050, 1088, 1161, 1247, 4115), (1055, 1095, 1177, 1270, 4250), (1061, 1103, 1196, 1296, 4383)]
def boxTab_3 : List (ℤ × ℤ × ℤ × ℤ × ℤ) :=
  [(998, 1001, 997, 1002, 1079), (998, 1002, 997, 1003, 1156), (998, 1002, 996, 1005, 1235), (997, 1003, 996, 1006, 1315), (997, 1004, 996, 1008, 1397),
    (997, 1004, 996, 1009, 1479), (998, 1004, 998, 1009, 1503), (998, 1004, 998, 1010, 1531), (998, 1005, 998, 1011, 1559), (998, 1005, 998, 1011, 1588),
    (998, 1005, 998, 1012, 1616), (998, 1006, 999, 1013, 1649), (998, 1006, 999, 1014, 1683), (998, 1006, 999, 1015, 1718), (998, 1007, 1000, 1016, 1751),
    (998, 1007, 1000, 1018, 1792), (998, 1008, 1001, 1019, 1832), (999, 1008, 1001, 1020, 1874), (999, 1009, 1002, 1022, 1920), (999, 1010, 1003, 1024, 1966),
    (999, 1010, 1004, 1026, 2013), (999, 1011, 1005, 1028, 2066), (1000, 1012, 1006, 1030, 2120), (1000, 1013, 1007, 1033, 2180), (1000, 1014, 1008, 1036, 2241),
    (1001, 1015, 1010, 1039, 2300), (1001, 1016, 1012, 1042, 2366), (1002, 1017, 1014, 1045, 2432), (1002, 1018, 1016, 1049, 2506), (1003, 1020, 1019, 1054, 2578),
    (1004, 1021, 1021, 1058, 2659), (1004, 1023, 1024, 1064, 2746), (1005, 1025, 1028, 1069, 2830), (1006, 1027, 1032, 1076, 2923), (1008, 1030, 1036, 1083, 3023),
    (1009, 1032, 1041, 1090, 3120), (1011, 1035, 1046, 1098, 3226), (1012, 1038, 1052, 1108, 3337), (1014, 1041, 1059, 1118, 3453), (1016, 1045, 1066, 1129, 3569),
    (1019, 1049, 1074, 1141, 3691), (1021, 1053, 1083, 1154, 3818), (1024, 1058, 1093, 1169, 3949), (1027, 1063, 1105, 1185, 4083), (1031, 1069, 1117, 1203, 4224),
    (1035, 1075, 1131, 1223, 4367), (1040, 1082, 1146, 1245, 4515)]
def boxTab_4 : List (ℤ × ℤ × ℤ × ℤ × ℤ) :=
  [(998, 1001, 997, 1002, 1082), (997, 1001, 995, 1003, 1165), (996, 1002, 993, 1003, 1249), (996, 1002, 992, 1004, 1334), (995, 1002, 991, 1005, 1420),
    (995, 1002, 990, 1006, 1508), (995, 1002, 992, 1005, 1534), (995, 1002, 992, 1005, 1563), (995, 1002, 992, 1005, 1592), (995, 1002, 992, 1006, 1622),
    (995, 1002, 992, 1006, 1652), (994, 1003, 992, 1007, 1688), (994, 1003, 992, 1008, 1724), (994, 1003, 992, 1009, 1761), (994, 1003, 992, 1009, 1797),
    (994, 1004, 992, 1011, 1841), (994, 1004, 992, 1012, 1884), (994, 1004, 992, 1013, 1928), (994, 1005, 992, 1014, 1978), (994, 1005, 993, 1015, 2027),
    (994, 1006, 993, 1017, 2079), (994, 1006, 994, 1019, 2135), (994, 1007, 994, 1021, 2194), (994, 1008, 995, 1023, 2257), (994, 1008, 996, 1025, 2322),
    (994, 1009, 997, 1027, 2386), (994, 1010, 998, 1030, 2459), (994, 1011, 1000, 1033, 2529), (995, 1012, 1001, 1037, 2610), (995, 1013, 1003, 1040, 2688),
    (995, 1014, 1005, 1045, 2775), (996, 1016, 1007, 1049, 2869), (996, 1017, 1010, 1054, 2962), (997, 1019, 1013, 1060, 3063), (998, 1021, 1016, 1066, 3172),
    (999, 1023, 1021, 1073, 3276), (1000, 1026, 1025, 1080, 3392), (1001, 1028, 1030, 1089, 3514), (1002, 1031, 1035, 1098, 3644), (1004, 1034, 1042, 1108, 3768),
    (1006, 1038, 1049, 1119, 3902), (1008, 1042, 1057, 1132, 4041), (1010, 1046, 1066, 1146, 4186), (1013, 1051, 1076, 1161, 4336), (1016, 1056, 1087, 1178, 4491),
    (1019, 1062, 1100, 1197, 4648)]
def boxTab_5 : List (ℤ × ℤ × ℤ × ℤ × ℤ) :=
  [(998, 1001, 996, 1002, 1087), (996, 1001, 993, 1002, 1174), (995, 1001, 991, 1001, 1262), (994, 1001, 988, 1001, 1353), (993, 1000, 986, 1001, 1445),
    (992, 1000, 985, 1002, 1538), (992, 999, 986, 1000, 1566), (992, 999, 986, 1000, 1597), (992, 999, 985, 1000, 1629), (991, 999, 985, 1000, 1661),
    (991, 999, 985, 1001, 1692), (991, 999, 984, 1001, 1732), (990, 1000, 984, 1001, 1770), (990, 1000, 983, 1002, 1810), (990, 1000, 983, 1002, 1849),
    (989, 1000, 983, 1003, 1894), (989, 1000, 982, 1004, 1942), (989, 1000, 982, 1004, 1988), (988, 1000, 982, 1006, 2042), (988, 1001, 982, 1007, 2096),
    (988, 1001, 982, 1008, 2150), (988, 1001, 982, 1009, 2211), (987, 1002, 982, 1010, 2274), (987, 1002, 982, 1012, 2343), (987, 1003, 982, 1014, 2414),
    (987, 1003, 983, 1016, 2483), (987, 1004, 983, 1018, 2562), (986, 1004, 984, 1021, 2639), (986, 1005, 985, 1024, 2725), (986, 1006, 986, 1026, 2811),
    (986, 1007, 987, 1030, 2906), (986, 1008, 989, 1034, 3007), (987, 1009, 991, 1038, 3109), (987, 1011, 993, 1043, 3220), (987, 1013, 995, 1049, 3340),
    (988, 1014, 999, 1055, 3454), (988, 1016, 1002, 1062, 3582), (989, 1018, 1006, 1070, 3715), (990, 1021, 1010, 1078, 3859), (991, 1024, 1016, 1087, 3996),
    (992, 1027, 1022, 1097, 4143), (993, 1030, 1028, 1109, 4300), (995, 1034, 1036, 1122, 4460), (997, 1038, 1045, 1136, 4626), (999, 1042, 1054, 1152, 4802),
    (1002, 1048, 1066, 1170, 4975)]
def boxTab_6 : List (ℤ × ℤ × ℤ × ℤ × ℤ) :=
  [(997, 1001, 995, 1002, 1091), (995, 1001, 991, 1001, 1184), (993, 1000, 988, 1000, 1277), (992, 999, 984, 999, 1374), (990, 999, 981, 998, 1472),
    (989, 998, 979, 997, 1571), (989, 997, 980, 994, 1601), (989, 996, 979, 994, 1635), (988, 996, 978, 994, 1669), (988, 996, 978, 994, 1702),
    (987, 996, 977, 994, 1737), (987, 996, 976, 994, 1778), (986, 996, 975, 994, 1820), (986, 996, 975, 994, 1861), (985, 996, 974, 995, 1904),
    (985, 996, 973, 995, 1954), (984, 996, 972, 995, 2004), (984, 996, 972, 996, 2053), (983, 996, 971, 996, 2112), (982, 996, 970, 997, 2171),
    (982, 996, 970, 997, 2228), (981, 996, 969, 998, 2296), (981, 996, 969, 999, 2362), (980, 996, 968, 1001, 2439), (980, 996, 968, 1002, 2513),
    (979, 997, 968, 1003, 2589), (979, 997, 968, 1005, 2673), (978, 997, 968, 1007, 2758), (978, 998, 968, 1009, 2853), (977, 998, 968, 1011, 2948),
    (977, 999, 969, 1014, 3049), (976, 1000, 969, 1018, 3163), (976, 1001, 970, 1021, 3275), (976, 1002, 971, 1026, 3397), (976, 1003, 973, 1031, 3526),
    (976, 1004, 975, 1036, 3656), (976, 1006, 978, 1042, 3793), (976, 1008, 980, 1048, 3944), (976, 1010, 984, 1056, 4098), (977, 1012, 988, 1064, 4254),
    (977, 1014, 993, 1073, 4417), (978, 1017, 998, 1084, 4591), (979, 1020, 1005, 1096, 4767), (980, 1024, 1012, 1109, 4955), (982, 1028, 1020, 1124, 5151),
    (984, 1032, 1030, 1140, 5348)]
def boxTab_7 : List (ℤ × ℤ × ℤ × ℤ × ℤ) :=
  [(997, 1001, 994, 1003, 1096), (994, 1000, 989, 1000, 1194), (992, 999, 984, 998, 1295), (990, 998, 980, 996, 1396), (988, 997, 976, 994, 1501),
    (986, 996, 972, 993, 1608), (986, 994, 973, 989, 1639), (985, 994, 972, 988, 1675), (984, 993, 971, 988, 1711), (984, 993, 970, 988, 1747),
    (983, 993, 969, 987, 1784), (982, 993, 968, 987, 1828), (982, 992, 966, 987, 1875), (981, 992, 965, 987, 1919), (980, 992, 964, 986, 1965),
    (979, 992, 963, 987, 2018), (979, 991, 962, 986, 2071), (978, 991, 961, 986, 2125), (977, 991, 959, 987, 2189), (976, 991, 958, 987, 2252),
    (975, 990, 957, 987, 2315), (975, 990, 956, 987, 2387), (974, 990, 955, 988, 2460), (973, 990, 954, 988, 2541), (972, 990, 953, 989, 2623),
    (971, 990, 952, 990, 2707), (970, 990, 951, 991, 2800), (969, 990, 950, 992, 2893), (968, 990, 950, 994, 2994), (968, 990, 949, 996, 3099),
    (967, 991, 949, 998, 3211), (966, 991, 948, 1001, 3336), (965, 991, 949, 1003, 3456), (964, 992, 949, 1007, 3591), (964, 993, 949, 1011, 3737),
    (963, 994, 951, 1015, 3877), (963, 995, 952, 1020, 4032), (962, 996, 954, 1026, 4195), (962, 998, 956, 1033, 4371), (962, 999, 959, 1040, 4543),
    (962, 1001, 962, 1048, 4729), (962, 1003, 966, 1058, 4922), (962, 1006, 971, 1068, 5124), (962, 1009, 977, 1080, 5333), (963, 1012, 984, 1094, 5550)]
def boxTab_8 : List (ℤ × ℤ × ℤ × ℤ × ℤ) :=
  [(996, 1001, 992, 1003, 1103), (993, 1000, 987, 999, 1205), (990, 998, 981, 996, 1312), (987, 996, 976, 993, 1420), (985, 995, 970, 990, 1533),
    (982, 993, 966, 988, 1646), (982, 991, 966, 983, 1681), (981, 990, 964, 982, 1720), (980, 990, 963, 981, 1758), (979, 989, 962, 981, 1797),
    (979, 989, 960, 980, 1838), (978, 989, 958, 980, 1886), (977, 988, 957, 979, 1933), (976, 988, 955, 978, 1983), (975, 987, 954, 978, 2031),
    (974, 987, 952, 978, 2089), (973, 986, 950, 977, 2148), (972, 986, 949, 976, 2205), (971, 986, 947, 976, 2274), (970, 985, 945, 976, 2343),
    (968, 985, 943, 975, 2413), (967, 984, 941, 976, 2492), (966, 984, 940, 975, 2569), (965, 984, 938, 976, 2659), (963, 983, 936, 976, 2750),
    (962, 983, 935, 976, 2839), (961, 983, 933, 977, 2941), (960, 982, 932, 977, 3042), (958, 982, 930, 978, 3156), (957, 982, 929, 979, 3269),
    (956, 982, 927, 981, 3396), (954, 982, 926, 983, 3532), (953, 982, 925, 984, 3669), (952, 982, 924, 987, 3818), (951, 982, 924, 990, 3976),
    (950, 983, 924, 994, 4135), (948, 983, 924, 998, 4308), (947, 984, 924, 1003, 4495), (946, 985, 925, 1009, 4690), (946, 986, 927, 1014, 4883),
    (945, 988, 929, 1022, 5090), (944, 989, 932, 1030, 5306), (944, 991, 935, 1040, 5537), (943, 994, 939, 1050, 5778), (943, 996, 945, 1063, 6021)]
def boxTab_9 : List (ℤ × ℤ × ℤ × ℤ × ℤ) :=
  [(995, 1002, 991, 1003, 1109), (992, 999, 984, 998, 1218), (988, 997, 977, 994, 1332), (985, 995, 971, 990, 1447), (982, 993, 964, 986, 1568),
    (978, 991, 958, 983, 1690), (978, 988, 958, 977, 1727), (977, 987, 956, 975, 1769), (976, 986, 954, 974, 1811), (975, 986, 953, 973, 1852),
    (974, 985, 951, 972, 1895), (973, 985, 949, 972, 1946), (972, 984, 947, 971, 1998), (970, 983, 945, 970, 2051), (969, 983, 943, 968, 2104),
    (968, 982, 940, 968, 2168), (967, 981, 938, 967, 2231), (965, 981, 936, 966, 2294), (964, 980, 933, 965, 2370), (962, 979, 931, 964, 2443),
    (961, 978, 929, 963, 2518), (959, 978, 926, 963, 2605), (958, 977, 924, 962, 2691), (956, 977, 921, 962, 2790), (955, 976, 919, 961, 2887),
    (953, 975, 917, 961, 2986), (951, 974, 914, 961, 3099), (950, 974, 912, 960, 3210), (948, 973, 909, 961, 3337), (946, 973, 907, 961, 3462),
    (944, 972, 905, 962, 3600), (942, 972, 902, 963, 3754), (941, 971, 901, 964, 3902), (939, 971, 899, 966, 4068), (937, 971, 897, 968, 4248),
    (935, 971, 896, 970, 4427), (933, 971, 895, 974, 4620), (932, 971, 894, 978, 4828), (930, 972, 893, 982, 5052), (928, 972, 894, 987, 5268),
    (927, 973, 894, 993, 5507), (925, 974, 896, 1000, 5750), (924, 975, 897, 1009, 6016), (923, 977, 900, 1018, 6287)]
def boxTab_10 : List (ℤ × ℤ × ℤ × ℤ × ℤ) :=
  [(995, 1002, 990, 1003, 1115), (991, 999, 982, 997, 1231), (986, 996, 973, 992, 1353), (982, 993, 965, 986, 1478), (978, 990, 958, 982, 1605),
    (974, 988, 950, 977, 1738), (974, 984, 950, 970, 1777), (973, 983, 948, 968, 1821), (971, 983, 945, 967, 1868), (970, 982, 943, 966, 1913),
    (969, 981, 941, 964, 1959), (968, 980, 938, 963, 2016), (966, 979, 936, 962, 2071), (965, 978, 933, 960, 2129), (963, 978, 931, 959, 2185),
    (962, 977, 928, 958, 2254), (960, 976, 925, 956, 2323), (958, 975, 922, 954, 2393), (957, 974, 919, 953, 2474), (955, 973, 916, 952, 2555),
    (953, 972, 913, 950, 2638), (951, 971, 910, 949, 2731), (949, 970, 907, 948, 2826), (947, 969, 903, 947, 2936), (945, 968, 900, 946, 3043),
    (943, 967, 897, 944, 3153), (941, 966, 894, 944, 3275), (939, 965, 891, 943, 3399), (937, 964, 887, 943, 3540), (934, 963, 884, 942, 3679),
    (932, 962, 881, 942, 3832), (930, 961, 877, 942, 4004), (927, 960, 875, 942, 4169), (925, 960, 872, 943, 4355), (922, 959, 868, 945, 4562),
    (920, 958, 866, 946, 4761), (918, 958, 864, 948, 4978), (915, 957, 862, 951, 5212), (912, 957, 860, 955, 5464), (910, 957, 859, 958, 5714),
    (908, 957, 858, 963, 5983), (906, 958, 857, 969, 6272), (904, 958, 857, 976, 6574)]
def boxTab_11 : List (ℤ × ℤ × ℤ × ℤ × ℤ) :=
  [(994, 1002, 989, 1003, 1122), (989, 998, 979, 996, 1246), (984, 995, 969, 989, 1376), (979, 991, 960, 983, 1509), (975, 988, 951, 977, 1647),
    (970, 985, 942, 971, 1790), (969, 981, 941, 963, 1833), (968, 980, 938, 961, 1882), (966, 979, 936, 959, 1929), (965, 978, 933, 957, 1980),
    (964, 977, 930, 956, 2030), (962, 976, 927, 954, 2091), (960, 975, 924, 952, 2152), (958, 973, 921, 950, 2214), (957, 972, 918, 948, 2277),
    (955, 971, 914, 947, 2353), (953, 970, 911, 945, 2427), (951, 969, 908, 943, 2502), (949, 968, 904, 941, 2591), (947, 966, 900, 939, 2681),
    (945, 965, 896, 937, 2773), (942, 964, 892, 935, 2877), (940, 962, 888, 933, 2982), (937, 961, 884, 932, 3100), (935, 960, 880, 930, 3220),
    (933, 958, 876, 928, 3342), (930, 957, 872, 926, 3478), (927, 955, 868, 925, 3617), (924, 954, 863, 924, 3774), (922, 953, 859, 922, 3930),
    (919, 951, 855, 921, 4101), (916, 950, 850, 921, 4294), (913, 949, 846, 920, 4485), (910, 947, 842, 920, 4694), (906, 946, 838, 920, 4921),
    (903, 945, 834, 920, 5152), (900, 944, 830, 922, 5404), (897, 943, 826, 924, 5676), (894, 942, 823, 926, 5961), (891, 941, 821, 928, 6246),
    (888, 941, 818, 932, 6561), (884, 941, 816, 937, 6891), (881, 941, 814, 942, 7245)]
def boxTab_12 : List (ℤ × ℤ × ℤ × ℤ × ℤ) :=
  [(994, 1001, 988, 1002, 1125), (989, 997, 978, 994, 1252), (984, 993, 968, 985, 1384), (979, 988, 959, 977, 1520), (974, 984, 950, 970, 1660),
    (970, 980, 941, 962, 1806), (969, 975, 940, 952, 1850), (967, 974, 937, 950, 1900), (966, 973, 934, 948, 1951), (964, 971, 932, 945, 2000),
    (963, 970, 929, 943, 2051), (961, 969, 926, 941, 2113), (959, 968, 923, 938, 2176), (958, 966, 919, 936, 2241), (956, 965, 916, 933, 2305),
    (954, 963, 913, 931, 2380), (952, 962, 909, 928, 2458), (950, 960, 906, 925, 2535), (948, 959, 902, 923, 2626), (946, 957, 898, 920, 2718),
    (944, 955, 894, 917, 2812), (941, 953, 890, 915, 2918), (939, 951, 886, 912, 3026), (936, 950, 882, 909, 3147), (934, 948, 878, 906, 3269),
    (931, 946, 874, 903, 3394), (928, 944, 869, 901, 3538), (926, 942, 865, 898, 3679), (923, 940, 860, 896, 3840), (920, 938, 857, 893, 3995),
    (917, 936, 852, 891, 4176), (914, 934, 847, 889, 4373), (911, 932, 843, 887, 4568), (908, 930, 839, 885, 4783), (905, 928, 834, 884, 5021),
    (902, 925, 831, 882, 5252), (898, 924, 827, 882, 5510), (895, 922, 823, 882, 5789), (891, 920, 819, 883, 6089), (888, 918, 817, 883, 6381),
    (885, 917, 814, 885, 6705)]
def boxTab_13 : List (ℤ × ℤ × ℤ × ℤ × ℤ) :=
  [(994, 1001, 988, 1002, 1127), (988, 997, 977, 993, 1258), (983, 992, 967, 984, 1392), (978, 988, 957, 976, 1532), (973, 983, 947, 968, 1678),
    (968, 979, 937, 960, 1828), (967, 974, 937, 949, 1871), (966, 972, 934, 947, 1923), (964, 971, 931, 944, 1974), (962, 970, 928, 942, 2027),
    (961, 968, 925, 939, 2080), (959, 967, 921, 937, 2146), (957, 966, 918, 934, 2209), (955, 964, 915, 931, 2274), (954, 962, 911, 929, 2343),
    (951, 961, 907, 926, 2422), (949, 959, 904, 923, 2499), (947, 957, 900, 920, 2581), (945, 956, 896, 918, 2674), (943, 954, 892, 914, 2769),
    (940, 952, 888, 911, 2866), (938, 950, 883, 909, 2978), (935, 948, 879, 905, 3089), (932, 946, 874, 903, 3217), (930, 944, 870, 899, 3343),
    (927, 942, 866, 896, 3472), (924, 940, 861, 893, 3620), (921, 938, 856, 890, 3770), (918, 936, 851, 887, 3936), (915, 933, 847, 884, 4101),
    (912, 931, 842, 882, 4287), (909, 929, 837, 880, 4491), (906, 927, 832, 877, 4700), (902, 924, 827, 875, 4927), (898, 922, 822, 874, 5175),
    (895, 920, 818, 872, 5421), (892, 918, 814, 871, 5689), (888, 916, 809, 870, 5986), (884, 914, 805, 871, 6299), (881, 911, 802, 870, 6611)]
def boxTab_14 : List (ℤ × ℤ × ℤ × ℤ × ℤ) :=
  [(993, 1001, 987, 1002, 1130), (988, 996, 976, 993, 1264), (982, 992, 965, 983, 1403), (977, 987, 954, 974, 1547), (971, 982, 944, 966, 1695),
    (966, 978, 934, 957, 1850), (965, 972, 933, 946, 1896), (964, 971, 930, 943, 1948), (962, 969, 927, 941, 2001), (960, 968, 924, 938, 2055),
    (959, 966, 921, 935, 2109), (957, 965, 917, 933, 2176), (955, 963, 913, 930, 2244), (953, 962, 910, 927, 2311), (951, 960, 906, 924, 2381),
    (949, 959, 902, 922, 2462), (946, 957, 898, 918, 2545), (944, 955, 894, 915, 2628), (942, 953, 890, 912, 2724), (939, 951, 886, 909, 2822),
    (937, 949, 881, 905, 2924), (934, 947, 876, 902, 3040), (932, 945, 872, 899, 3154), (929, 943, 867, 896, 3285), (926, 940, 862, 892, 3420),
    (923, 938, 858, 888, 3552), (920, 936, 852, 886, 3709), (917, 934, 848, 882, 3860), (914, 931, 842, 879, 4036), (910, 929, 837, 876, 4211),
    (907, 927, 832, 873, 4404), (903, 924, 826, 870, 4621), (900, 921, 821, 867, 4836), (896, 919, 816, 865, 5072), (892, 917, 810, 863, 5335),
    (889, 914, 806, 861, 5591), (885, 912, 801, 859, 5877), (881, 909, 796, 858, 6186), (877, 907, 791, 858, 6520)]
def boxTab_15 : List (ℤ × ℤ × ℤ × ℤ × ℤ) :=
  [(993, 1001, 987, 1002, 1133), (987, 996, 975, 992, 1270), (981, 991, 963, 982, 1413), (976, 986, 952, 973, 1560), (970, 981, 941, 963, 1714),
    (965, 976, 931, 954, 1872), (964, 971, 930, 943, 1919), (962, 969, 926, 940, 1974), (960, 968, 923, 937, 2029), (958, 966, 920, 934, 2084),
    (957, 964, 916, 931, 2142), (954, 963, 912, 929, 2211), (952, 961, 909, 926, 2278), (950, 959, 905, 923, 2349), (948, 958, 901, 919, 2420),
    (946, 956, 897, 917, 2504), (944, 954, 893, 913, 2588), (941, 952, 889, 910, 2674), (939, 950, 884, 907, 2776), (936, 948, 879, 903, 2879),
    (934, 946, 875, 899, 2981), (931, 944, 869, 896, 3104), (928, 941, 865, 892, 3221), (925, 939, 859, 889, 3361), (922, 937, 854, 885, 3499),
    (919, 934, 849, 881, 3640), (915, 932, 843, 878, 3802), (912, 929, 838, 874, 3962), (909, 927, 833, 871, 4140), (905, 924, 827, 867, 4326),
    (902, 922, 821, 864, 4531), (898, 919, 815, 861, 4755), (894, 916, 810, 857, 4979), (890, 914, 804, 855, 5230), (886, 911, 798, 852, 5504),
    (882, 908, 793, 849, 5777), (878, 906, 787, 848, 6082), (874, 903, 782, 846, 6404), (869, 901, 776, 845, 6760), (865, 898, 772, 844, 7109)]
def boxTab_16 : List (ℤ × ℤ × ℤ × ℤ × ℤ) :=
  [(993, 1001, 986, 1002, 1136), (987, 996, 974, 991, 1276), (980, 990, 962, 981, 1422), (974, 985, 950, 971, 1574), (969, 980, 938, 961, 1733),
    (963, 975, 927, 952, 1896), (962, 969, 926, 940, 1944), (960, 967, 922, 937, 2001), (958, 966, 919, 934, 2057), (956, 964, 915, 931, 2116),
    (954, 962, 912, 928, 2173), (952, 961, 908, 925, 2243), (950, 959, 904, 921, 2315), (948, 957, 900, 918, 2387), (946, 955, 896, 915, 2461),
    (943, 954, 891, 912, 2550), (941, 951, 887, 908, 2637), (938, 949, 883, 904, 2725), (935, 947, 877, 901, 2833), (933, 945, 872, 897, 2939),
    (930, 943, 868, 893, 3044), (927, 941, 862, 890, 3170), (924, 938, 857, 886, 3295), (921, 936, 851, 882, 3439), (917, 933, 846, 878, 3581),
    (914, 930, 841, 873, 3727), (911, 928, 834, 870, 3898), (907, 925, 829, 866, 4064), (904, 922, 823, 862, 4253), (900, 920, 817, 858, 4445),
    (896, 917, 811, 855, 4658), (892, 914, 804, 851, 4897), (888, 911, 799, 847, 5129), (884, 908, 792, 844, 5396), (879, 905, 785, 841, 5687),
    (875, 902, 780, 838, 5972), (871, 899, 774, 836, 6289), (866, 897, 767, 834, 6642), (862, 894, 761, 833, 7015)]
def boxTab_17 : List (ℤ × ℤ × ℤ × ℤ × ℤ) :=
  [(993, 1001, 986, 1002, 1139), (986, 996, 973, 991, 1283), (980, 990, 960, 980, 1433), (973, 984, 947, 969, 1590), (967, 979, 935, 959, 1752),
    (961, 974, 924, 949, 1919), (960, 967, 922, 936, 1971), (958, 966, 918, 933, 2029), (956, 964, 915, 930, 2086), (954, 962, 911, 927, 2146),
    (952, 960, 908, 923, 2205), (950, 959, 903, 921, 2280), (947, 957, 899, 917, 2353), (945, 955, 895, 913, 2427), (943, 953, 891, 910, 2503),
    (940, 951, 886, 907, 2594), (938, 949, 881, 903, 2686), (935, 946, 876, 899, 2780), (932, 944, 871, 895, 2888), (929, 942, 866, 891, 2997),
    (926, 939, 861, 887, 3109), (923, 937, 855, 883, 3239), (920, 934, 849, 879, 3371), (916, 932, 843, 875, 3520), (913, 929, 837, 870, 3671),
    (910, 926, 832, 866, 3821), (906, 924, 825, 862, 3999), (903, 921, 820, 857, 4170), (899, 918, 813, 853, 4371), (895, 915, 807, 849, 4570),
    (891, 912, 800, 845, 4796), (886, 909, 793, 841, 5044), (882, 906, 787, 837, 5291), (878, 903, 780, 833, 5570), (873, 899, 773, 830, 5873),
    (869, 896, 767, 826, 6176), (864, 893, 760, 824, 6516), (859, 890, 753, 821, 6884)]
def boxTab_18 : List (ℤ × ℤ × ℤ × ℤ × ℤ) :=
  [(992, 1001, 985, 1002, 1143), (985, 995, 971, 990, 1291), (979, 989, 958, 979, 1444), (972, 984, 945, 968, 1604), (966, 978, 932, 957, 1772),
    (959, 972, 920, 946, 1945), (958, 966, 918, 933, 1998), (956, 964, 914, 929, 2058), (954, 962, 911, 926, 2116), (952, 960, 907, 923, 2178),
    (950, 958, 903, 919, 2240), (947, 957, 898, 916, 2317), (945, 954, 894, 913, 2392), (942, 952, 889, 909, 2472), (940, 950, 885, 905, 2549),
    (937, 948, 880, 902, 2643), (935, 946, 875, 897, 2738), (932, 944, 870, 893, 2834), (929, 941, 864, 889, 2948), (926, 939, 859, 885, 3061),
    (923, 936, 854, 880, 3176), (919, 934, 847, 876, 3314), (916, 931, 842, 872, 3446), (912, 928, 835, 867, 3604), (909, 925, 829, 862, 3760),
    (905, 922, 823, 858, 3920), (901, 919, 816, 853, 4103), (898, 916, 810, 848, 4286), (893, 913, 803, 844, 4493), (889, 910, 796, 839, 4706),
    (885, 907, 789, 835, 4941), (880, 904, 781, 831, 5205), (876, 900, 775, 826, 5462), (871, 897, 767, 822, 5759), (866, 893, 759, 819, 6083),
    (861, 890, 753, 814, 6400), (856, 886, 745, 811, 6764), (851, 883, 738, 808, 7149)]
def boxTab_19 : List (ℤ × ℤ × ℤ × ℤ × ℤ) :=
  [(992, 1001, 984, 1002, 1146), (985, 995, 970, 990, 1297), (978, 989, 956, 978, 1455), (971, 983, 943, 966, 1619), (964, 977, 929, 954, 1793),
    (957, 971, 916, 943, 1972), (956, 964, 914, 929, 2026), (954, 962, 910, 926, 2087), (952, 960, 906, 922, 2150), (949, 958, 902, 919, 2213),
    (947, 956, 898, 915, 2277), (945, 954, 893, 912, 2356), (942, 952, 889, 908, 2433), (940, 950, 884, 904, 2514), (937, 948, 879, 900, 2597),
    (934, 946, 874, 896, 2693), (931, 943, 869, 892, 2791), (929, 941, 864, 887, 2890), (925, 938, 857, 883, 3011), (922, 936, 852, 879, 3127),
    (919, 933, 846, 874, 3249), (915, 930, 840, 870, 3388), (912, 927, 834, 864, 3528), (908, 924, 826, 860, 3695), (904, 921, 820, 855, 3857),
    (901, 918, 814, 849, 4023), (896, 915, 806, 845, 4218), (892, 912, 800, 840, 4407), (888, 908, 792, 835, 4628), (884, 905, 785, 830, 4849),
    (879, 902, 778, 825, 5092), (874, 898, 770, 821, 5366), (870, 894, 762, 815, 5649), (865, 891, 754, 811, 5958), (859, 887, 746, 807, 6296),
    (854, 883, 739, 802, 6636), (849, 880, 731, 799, 7016)]
def boxTab_20 : List (ℤ × ℤ × ℤ × ℤ × ℤ) :=
  [(992, 1001, 984, 1002, 1149), (984, 995, 969, 989, 1304), (977, 988, 954, 976, 1467), (970, 982, 940, 964, 1636), (962, 975, 926, 952, 1814),
    (955, 969, 913, 940, 1997), (954, 962, 910, 926, 2055), (952, 960, 906, 922, 2118), (949, 958, 902, 918, 2182), (947, 956, 898, 914, 2246),
    (945, 954, 893, 911, 2315), (942, 952, 888, 907, 2396), (940, 950, 883, 903, 2478), (937, 947, 878, 899, 2562), (934, 945, 874, 895, 2644),
    (931, 943, 868, 891, 2746), (928, 940, 862, 886, 2849), (925, 938, 857, 881, 2952), (922, 935, 851, 877, 3073), (918, 932, 845, 872, 3196),
    (915, 929, 839, 867, 3322), (911, 927, 832, 863, 3468), (908, 923, 825, 857, 3618), (904, 920, 818, 852, 3786), (900, 917, 811, 847, 3958),
    (896, 914, 804, 841, 4134), (891, 911, 797, 836, 4331), (887, 907, 790, 831, 4532), (882, 904, 782, 826, 4762), (878, 900, 774, 820, 4997),
    (873, 896, 766, 815, 5258), (868, 893, 757, 810, 5550), (863, 889, 750, 804, 5837), (858, 885, 741, 800, 6168), (852, 881, 732, 795, 6529),
    (847, 877, 725, 790, 6885), (841, 873, 716, 786, 7293)]
def boxTab_21 : List (ℤ × ℤ × ℤ × ℤ × ℤ) :=
  [(991, 1001, 983, 1002, 1153), (984, 994, 968, 988, 1312), (976, 987, 952, 975, 1479), (968, 981, 937, 962, 1654), (961, 974, 923, 949, 1836),
    (953, 968, 909, 937, 2026), (952, 960, 906, 922, 2085), (949, 958, 902, 918, 2149), (947, 956, 897, 914, 2217), (945, 954, 893, 910, 2284),
    (942, 952, 889, 906, 2351), (940, 950, 883, 903, 2437), (937, 947, 878, 898, 2521), (934, 945, 873, 894, 2607), (931, 942, 868, 889, 2695),
    (928, 940, 862, 885, 2800), (925, 937, 856, 880, 2906), (922, 934, 850, 875, 3015), (918, 932, 843, 871, 3144), (915, 929, 837, 866, 3271),
    (911, 926, 831, 860, 3401), (907, 923, 824, 855, 3552), (903, 920, 817, 850, 3707), (899, 916, 809, 845, 3885), (895, 913, 802, 838, 4063),
    (891, 909, 795, 833, 4246), (886, 906, 787, 827, 4455), (882, 902, 779, 821, 4670), (877, 899, 771, 816, 4908), (872, 895, 763, 810, 5153),
    (867, 891, 754, 805, 5431), (862, 887, 745, 799, 5736), (856, 883, 737, 793, 6043), (851, 879, 728, 788, 6389), (845, 875, 718, 783, 6776),
    (839, 870, 710, 777, 7158)]
def boxTab_22 : List (ℤ × ℤ × ℤ × ℤ × ℤ) :=
  [(991, 1001, 983, 1002, 1156), (983, 994, 966, 988, 1320), (975, 987, 950, 974, 1492), (967, 980, 935, 960, 1670), (959, 973, 920, 947, 1858),
    (951, 966, 905, 934, 2055), (950, 958, 902, 918, 2115), (947, 956, 897, 914, 2184), (945, 954, 893, 910, 2251), (942, 952, 888, 906, 2322),
    (940, 949, 884, 902, 2391), (937, 947, 878, 898, 2480), (934, 945, 872, 893, 2569), (931, 942, 867, 889, 2658), (928, 940, 862, 884, 2748),
    (925, 937, 855, 880, 2859), (922, 934, 849, 874, 2969), (918, 931, 843, 869, 3081), (914, 929, 836, 865, 3214), (911, 925, 830, 859, 3345),
    (907, 922, 823, 853, 3483), (903, 919, 815, 848, 3644), (899, 916, 808, 842, 3804), (894, 912, 800, 837, 3989), (890, 908, 792, 830, 4178),
    (886, 905, 785, 824, 4368), (881, 901, 776, 818, 4591), (876, 897, 769, 812, 4808), (871, 894, 760, 806, 5062), (866, 889, 751, 800, 5324),
    (861, 885, 742, 794, 5613), (855, 881, 733, 788, 5931), (850, 877, 724, 782, 6260), (844, 873, 714, 776, 6630), (837, 868, 704, 771, 7036),
    (832, 863, 695, 764, 7447)]
def boxTab_23 : List (ℤ × ℤ × ℤ × ℤ × ℤ) :=
  [(991, 1001, 982, 1002, 1160), (982, 994, 965, 987, 1328), (974, 986, 948, 972, 1504), (966, 979, 932, 958, 1689), (957, 972, 916, 944, 1883),
    (949, 964, 901, 931, 2085), (948, 956, 898, 915, 2147), (945, 954, 893, 910, 2217), (942, 952, 888, 906, 2289), (940, 949, 883, 901, 2362),
    (937, 947, 878, 897, 2436), (934, 945, 872, 893, 2527), (931, 942, 867, 888, 2616), (928, 939, 861, 883, 2710), (925, 937, 856, 878, 2802),
    (922, 934, 849, 874, 2917), (918, 931, 842, 868, 3034), (915, 928, 836, 863, 3149), (911, 925, 829, 858, 3286), (907, 922, 822, 852, 3425),
    (903, 918, 815, 846, 3568), (899, 915, 807, 841, 3735), (895, 912, 799, 834, 3905), (890, 908, 791, 828, 4096), (885, 904, 783, 822, 4292),
    (881, 900, 775, 815, 4495), (876, 896, 766, 809, 4726), (871, 892, 758, 802, 4958), (865, 888, 748, 796, 5229), (860, 884, 740, 789, 5495),
    (855, 880, 730, 783, 5804), (848, 875, 720, 777, 6145), (843, 871, 710, 770, 6497), (836, 866, 700, 764, 6886), (830, 861, 689, 758, 7322)]
def boxTab_24 : List (ℤ × ℤ × ℤ × ℤ × ℤ) :=
  [(990, 1001, 981, 1002, 1165), (982, 993, 964, 986, 1336), (973, 985, 946, 971, 1518), (964, 978, 929, 956, 1708), (956, 970, 913, 942, 1907),
    (947, 963, 896, 928, 2119), (945, 954, 893, 911, 2182), (943, 952, 888, 906, 2255), (940, 949, 883, 901, 2328), (937, 947, 878, 897, 2403),
    (935, 945, 873, 892, 2479), (931, 942, 867, 888, 2572), (928, 939, 861, 883, 2667), (925, 937, 855, 878, 2764), (922, 934, 849, 873, 2862),
    (918, 931, 842, 868, 2980), (915, 928, 836, 862, 3097), (911, 925, 829, 856, 3220), (907, 922, 821, 851, 3365), (903, 918, 814, 845, 3509),
    (899, 915, 807, 839, 3657), (894, 911, 798, 833, 3834), (890, 907, 790, 826, 4010), (885, 904, 781, 820, 4214), (880, 900, 773, 813, 4418),
    (875, 895, 765, 806, 4627), (870, 892, 755, 800, 4874), (865, 887, 747, 792, 5116), (859, 883, 737, 786, 5398), (854, 878, 728, 779, 5682),
    (848, 874, 717, 772, 6014), (842, 869, 706, 766, 6379), (836, 864, 697, 758, 6739), (829, 860, 686, 752, 7156), (822, 855, 675, 745, 7614)]
def boxTab_25 : List (ℤ × ℤ × ℤ × ℤ × ℤ) :=
  [(990, 1001, 981, 1002, 1168), (981, 993, 962, 986, 1345), (972, 985, 944, 970, 1531), (963, 977, 926, 954, 1728), (954, 969, 909, 939, 1934),
    (945, 961, 892, 924, 2151), (943, 952, 889, 907, 2216), (940, 950, 884, 902, 2290), (937, 947, 878, 897, 2368), (935, 945, 873, 892, 2445),
    (932, 942, 868, 888, 2523), (928, 940, 861, 883, 2622), (925, 937, 855, 878, 2720), (922, 934, 849, 872, 2819), (919, 931, 843, 867, 2921),
    (915, 928, 835, 862, 3046), (911, 925, 828, 856, 3171), (907, 921, 822, 850, 3294), (903, 918, 813, 844, 3448), (899, 915, 806, 838, 3597),
    (895, 911, 798, 831, 3754), (890, 907, 789, 825, 3937), (885, 903, 781, 818, 4120), (880, 899, 772, 812, 4331), (875, 895, 763, 804, 4548),
    (870, 891, 754, 797, 4772), (864, 887, 744, 790, 5030), (859, 882, 735, 782, 5288), (853, 878, 725, 776, 5583), (848, 873, 715, 768, 5888),
    (841, 868, 704, 761, 6235), (835, 863, 693, 754, 6617), (828, 858, 683, 746, 7004), (822, 853, 671, 739, 7453)]
def boxTab_26 : List (ℤ × ℤ × ℤ × ℤ × ℤ) :=
  [(990, 1001, 980, 1002, 1172), (980, 993, 961, 985, 1353), (971, 984, 942, 968, 1545), (961, 976, 923, 952, 1748), (952, 967, 905, 936, 1961),
    (943, 959, 888, 921, 2184), (941, 950, 884, 903, 2253), (938, 948, 879, 898, 2330), (935, 945, 873, 893, 2410), (932, 942, 868, 888, 2489),
    (929, 940, 862, 883, 2572), (925, 937, 855, 878, 2674), (922, 934, 849, 872, 2775), (919, 931, 842, 867, 2881), (915, 928, 836, 861, 2985),
    (911, 925, 828, 856, 3115), (907, 921, 821, 849, 3243), (903, 918, 814, 843, 3374), (899, 915, 806, 837, 3529), (894, 911, 798, 830, 3688),
    (890, 907, 790, 823, 3850), (885, 903, 780, 817, 4045), (880, 899, 772, 810, 4235), (875, 895, 762, 803, 4459), (870, 890, 753, 795, 4685),
    (865, 886, 744, 787, 4918), (859, 881, 733, 780, 5192), (853, 877, 724, 772, 5462), (847, 872, 713, 765, 5777), (841, 867, 703, 757, 6096),
    (835, 862, 691, 750, 6468), (828, 857, 679, 742, 6878), (821, 851, 668, 733, 7296)]
def boxTab_27 : List (ℤ × ℤ × ℤ × ℤ × ℤ) :=
  [(989, 1001, 979, 1002, 1177), (979, 992, 959, 984, 1364), (969, 983, 940, 967, 1560), (960, 975, 920, 950, 1770), (950, 966, 901, 934, 1990),
    (941, 958, 883, 917, 2222), (938, 948, 879, 899, 2293), (935, 945, 873, 893, 2374), (932, 943, 868, 888, 2454), (929, 940, 862, 883, 2539),
    (926, 937, 856, 878, 2624), (922, 935, 849, 873, 2730), (919, 931, 842, 867, 2837), (915, 928, 835, 861, 2946), (912, 925, 829, 855, 3054),
    (907, 922, 821, 850, 3188), (903, 918, 813, 843, 3325), (899, 914, 806, 836, 3461), (894, 911, 797, 830, 3625), (890, 907, 788, 823, 3794),
    (885, 903, 780, 816, 3964), (880, 899, 771, 809, 4161), (875, 895, 761, 801, 4369), (869, 890, 751, 794, 4603), (864, 886, 741, 786, 4845),
    (858, 881, 732, 778, 5088), (852, 876, 721, 771, 5375), (847, 871, 711, 762, 5664), (840, 866, 699, 755, 6004), (834, 861, 689, 746, 6338),
    (827, 856, 677, 738, 6729), (820, 851, 664, 730, 7172)]
def boxTab_28 : List (ℤ × ℤ × ℤ × ℤ × ℤ) :=
  [(989, 1001, 978, 1002, 1182), (979, 992, 958, 983, 1373), (968, 983, 937, 965, 1577), (958, 973, 917, 948, 1792), (948, 965, 897, 931, 2021),
    (938, 956, 878, 914, 2261), (936, 946, 874, 894, 2334), (932, 943, 868, 889, 2418), (929, 940, 862, 883, 2503), (926, 937, 856, 878, 2590),
    (923, 934, 850, 872, 2679), (919, 932, 843, 867, 2787), (915, 928, 835, 861, 2901), (912, 925, 828, 855, 3014), (908, 922, 822, 849, 3126),
    (903, 918, 813, 843, 3268), (899, 915, 805, 836, 3409), (895, 911, 797, 829, 3555), (890, 907, 788, 823, 3726), (885, 903, 779, 815, 3901),
    (880, 899, 771, 807, 4077), (875, 895, 761, 800, 4287), (870, 890, 751, 792, 4504), (864, 886, 740, 785, 4754), (858, 880, 730, 776, 5006),
    (852, 875, 720, 767, 5267), (846, 871, 708, 760, 5575), (840, 865, 698, 751, 5879), (833, 860, 686, 743, 6235), (827, 855, 675, 734, 6596),
    (819, 849, 662, 726, 7018), (812, 844, 649, 717, 7485)]
def boxTab_29 : List (ℤ × ℤ × ℤ × ℤ × ℤ) :=
  [(989, 1001, 978, 1002, 1186), (978, 991, 956, 982, 1384), (967, 982, 935, 964, 1592), (956, 972, 914, 945, 1815), (946, 963, 893, 927, 2052),
    (936, 954, 873, 910, 2302), (933, 944, 869, 889, 2377), (930, 940, 863, 884, 2463), (926, 937, 856, 878, 2554), (923, 934, 850, 872, 2644),
    (920, 931, 844, 867, 2735), (916, 929, 836, 862, 2850), (912, 925, 829, 855, 2964), (908, 922, 821, 848, 3085), (904, 918, 814, 842, 3204),
    (899, 915, 805, 836, 3351), (895, 911, 797, 829, 3498), (890, 907, 789, 821, 3648), (885, 903, 779, 815, 3831), (880, 899, 770, 807, 4013),
    (875, 894, 761, 799, 4201), (870, 890, 750, 792, 4425), (864, 885, 740, 783, 4651), (858, 880, 729, 775, 4912), (852, 875, 718, 766, 5183),
    (846, 870, 708, 757, 5456), (839, 865, 696, 749, 5778), (833, 859, 685, 739, 6105), (826, 854, 672, 731, 6488), (819, 848, 660, 721, 6879),
    (812, 843, 647, 713, 7324)]
def boxTab_30 : List (ℤ × ℤ × ℤ × ℤ × ℤ) :=
  [(988, 1001, 977, 1002, 1191), (977, 991, 954, 982, 1395), (966, 981, 932, 962, 1610), (955, 971, 910, 943, 1841), (944, 961, 889, 924, 2084),
    (933, 952, 868, 906, 2344), (930, 941, 864, 885, 2421), (927, 938, 857, 879, 2513), (923, 935, 850, 873, 2607), (920, 932, 844, 867, 2699),
    (916, 929, 837, 861, 2797), (912, 926, 829, 856, 2916), (908, 922, 821, 849, 3037), (904, 918, 814, 842, 3158), (900, 915, 806, 835, 3286),
    (895, 911, 797, 829, 3438), (891, 907, 788, 821, 3595), (886, 903, 780, 814, 3751), (881, 899, 770, 807, 3940), (875, 894, 760, 798, 4135),
    (870, 890, 751, 790, 4330), (864, 885, 740, 782, 4564), (859, 880, 729, 773, 4806), (852, 875, 717, 765, 5086), (846, 870, 706, 755, 5369),
    (840, 864, 695, 746, 5663), (833, 859, 683, 738, 6001), (826, 853, 671, 728, 6354), (819, 848, 658, 719, 6758), (812, 842, 646, 709, 7169)]
def boxTab_31 : List (ℤ × ℤ × ℤ × ℤ × ℤ) :=
  [(988, 1001, 976, 1002, 1196), (976, 990, 952, 981, 1406), (964, 980, 929, 960, 1629), (953, 970, 907, 940, 1865), (941, 960, 884, 921, 2120),
    (930, 950, 863, 902, 2387), (927, 939, 858, 880, 2470), (924, 935, 851, 874, 2565), (920, 932, 844, 867, 2661), (917, 929, 837, 861, 2760),
    (913, 926, 831, 855, 2857), (909, 923, 822, 849, 2984), (904, 919, 814, 842, 3109), (900, 915, 806, 835, 3238), (896, 911, 798, 828, 3371),
    (891, 907, 789, 822, 3529), (886, 903, 780, 814, 3691), (881, 899, 771, 806, 3858), (876, 895, 760, 798, 4060), (870, 890, 750, 790, 4262),
    (865, 885, 740, 781, 4472), (859, 880, 729, 773, 4716), (853, 875, 718, 763, 4969), (846, 870, 706, 755, 5261), (840, 864, 694, 745, 5565),
    (833, 859, 682, 735, 5882), (826, 853, 669, 726, 6247), (819, 847, 657, 716, 6618), (811, 841, 643, 706, 7055)]
def boxTab_32 : List (ℤ × ℤ × ℤ × ℤ × ℤ) :=
  [(987, 1001, 975, 1001, 1202), (975, 990, 950, 980, 1418), (963, 979, 926, 959, 1648), (951, 968, 903, 938, 1893), (939, 958, 880, 918, 2155),
    (928, 948, 857, 898, 2435), (925, 936, 852, 875, 2521), (921, 933, 845, 868, 2618), (917, 929, 838, 862, 2718), (913, 926, 831, 855, 2820),
    (910, 923, 824, 849, 2924), (905, 919, 815, 843, 3054), (901, 915, 807, 836, 3185), (896, 911, 798, 828, 3322), (892, 907, 790, 821, 3459),
    (887, 904, 780, 814, 3628), (882, 899, 771, 806, 3796), (877, 895, 762, 797, 3970), (871, 890, 750, 790, 4185), (865, 885, 740, 781, 4396),
    (860, 880, 730, 772, 4615), (853, 875, 718, 763, 4876), (847, 870, 706, 753, 5148), (840, 865, 693, 744, 5461), (833, 859, 681, 734, 5780),
    (826, 853, 669, 724, 6113), (819, 847, 656, 714, 6497), (812, 841, 643, 703, 6898)]
def boxTab_33 : List (ℤ × ℤ × ℤ × ℤ × ℤ) :=
  [(987, 1001, 974, 1001, 1208), (974, 989, 948, 979, 1430), (961, 978, 924, 957, 1666), (949, 967, 899, 935, 1921), (937, 956, 875, 914, 2193),
    (925, 945, 852, 894, 2482), (922, 934, 847, 870, 2570), (918, 930, 839, 863, 2674), (914, 926, 832, 856, 2776), (910, 923, 824, 850, 2885),
    (906, 919, 817, 843, 2993), (901, 916, 808, 837, 3128), (897, 912, 799, 829, 3267), (892, 908, 790, 821, 3409), (888, 904, 782, 814, 3552),
    (882, 900, 771, 806, 3731), (877, 895, 762, 798, 3906), (872, 890, 752, 789, 4092), (866, 886, 740, 781, 4317), (860, 880, 730, 772, 4537),
    (854, 875, 719, 762, 4771), (847, 870, 706, 753, 5051), (841, 864, 695, 743, 5328), (833, 859, 681, 734, 5665), (826, 853, 668, 723, 6008),
    (819, 846, 656, 712, 6359), (812, 841, 641, 702, 6784)]
def boxTab_34 : List (ℤ × ℤ × ℤ × ℤ × ℤ) :=
  [(986, 1001, 973, 1001, 1213), (973, 989, 947, 978, 1441), (960, 977, 921, 955, 1686), (947, 966, 895, 933, 1950), (934, 954, 870, 911, 2233),
    (922, 943, 846, 889, 2533), (919, 931, 841, 865, 2624), (915, 927, 833, 858, 2731), (910, 924, 825, 851, 2841), (906, 920, 817, 844, 2953),
    (902, 916, 810, 837, 3065), (897, 913, 800, 830, 3209), (893, 908, 791, 822, 3353), (888, 904, 782, 814, 3500), (883, 900, 773, 806, 3653),
    (878, 896, 762, 799, 3839), (872, 891, 752, 790, 4027), (867, 886, 742, 781, 4220), (860, 881, 730, 772, 4454), (854, 876, 719, 762, 4690),
    (848, 870, 708, 752, 4935), (841, 865, 695, 743, 5229), (835, 859, 682, 733, 5534), (827, 853, 668, 723, 5888), (820, 847, 655, 711, 6250),
    (812, 840, 642, 700, 6629)]
def boxTab_35 : List (ℤ × ℤ × ℤ × ℤ × ℤ) :=
  [(986, 1001, 972, 1001, 1219), (972, 988, 944, 977, 1456), (958, 976, 918, 953, 1707), (945, 964, 891, 930, 1981), (932, 953, 865, 907, 2274),
    (919, 941, 840, 885, 2587), (915, 928, 834, 859, 2684), (911, 924, 826, 852, 2795), (907, 921, 818, 845, 2908), (903, 917, 810, 837, 3024),
    (899, 913, 802, 830, 3143), (894, 909, 792, 823, 3293), (889, 905, 783, 815, 3442), (884, 900, 774, 807, 3595), (879, 896, 764, 798, 3758),
    (873, 892, 753, 791, 3953), (867, 886, 743, 781, 4147), (862, 881, 732, 772, 4355), (855, 876, 720, 763, 4599), (849, 871, 708, 753, 4852),
    (842, 865, 696, 742, 5116), (835, 860, 683, 733, 5423), (828, 853, 670, 722, 5744), (820, 847, 655, 712, 6125), (813, 841, 641, 700, 6516)]
def boxTab_36 : List (ℤ × ℤ × ℤ × ℤ × ℤ) :=
  [(985, 1001, 971, 1001, 1226), (971, 988, 942, 976, 1469), (957, 975, 915, 951, 1729), (943, 963, 887, 927, 2012), (929, 951, 860, 903, 2316),
    (916, 939, 834, 880, 2642), (912, 925, 828, 854, 2742), (908, 921, 820, 846, 2857), (904, 917, 811, 839, 2978), (899, 913, 803, 831, 3098),
    (895, 910, 795, 824, 3222), (890, 906, 784, 817, 3381), (884, 901, 775, 808, 3535), (879, 896, 765, 799, 3699), (874, 892, 755, 790, 3869),
    (868, 887, 744, 782, 4071), (862, 882, 733, 772, 4280), (856, 877, 722, 763, 4496), (849, 872, 709, 754, 4757), (843, 866, 696, 743, 5029),
    (836, 860, 684, 732, 5306), (829, 854, 670, 722, 5637), (822, 848, 657, 711, 5975), (813, 841, 642, 700, 6376)]
def boxTab_37 : List (ℤ × ℤ × ℤ × ℤ × ℤ) :=
  [(985, 1001, 970, 1001, 1232), (970, 987, 940, 975, 1483), (955, 974, 911, 949, 1753), (941, 961, 883, 924, 2045), (927, 949, 855, 899, 2360),
    (913, 936, 828, 875, 2700), (909, 923, 822, 848, 2803), (904, 918, 813, 840, 2925), (900, 914, 804, 832, 3050), (895, 910, 796, 825, 3175),
    (891, 906, 787, 817, 3307), (885, 902, 776, 809, 3472), (880, 897, 766, 800, 3637), (875, 892, 756, 791, 3808), (869, 888, 746, 782, 3985),
    (863, 883, 734, 774, 4201), (857, 877, 722, 764, 4424), (851, 872, 711, 753, 4651), (844, 867, 698, 744, 4924), (837, 860, 685, 733, 5209),
    (830, 854, 672, 722, 5507), (822, 849, 657, 711, 5864), (815, 842, 644, 699, 6219)]
def boxTab_38 : List (ℤ × ℤ × ℤ × ℤ × ℤ) :=
  [(984, 1001, 969, 1001, 1238), (969, 987, 938, 974, 1497), (954, 973, 908, 947, 1777), (939, 960, 879, 921, 2078), (924, 947, 850, 896, 2406),
    (909, 934, 821, 871, 2763), (906, 920, 815, 842, 2870), (901, 915, 806, 834, 2996), (896, 911, 797, 826, 3126), (892, 907, 788, 818, 3259),
    (887, 902, 779, 810, 3396), (881, 898, 768, 802, 3568), (876, 893, 757, 793, 3744), (870, 888, 747, 783, 3922), (865, 883, 736, 774, 4111),
    (858, 879, 724, 765, 4337), (852, 873, 712, 755, 4570), (845, 867, 700, 744, 4813), (838, 862, 686, 734, 5107), (831, 855, 673, 723, 5406),
    (824, 849, 660, 711, 5719), (816, 843, 644, 700, 6104)]
def boxTab_39 : List (ℤ × ℤ × ℤ × ℤ × ℤ) :=
  [(984, 1001, 968, 1001, 1245), (968, 986, 936, 973, 1512), (952, 972, 905, 945, 1801), (937, 958, 874, 918, 2116), (921, 945, 844, 892, 2457),
    (906, 931, 815, 866, 2826), (902, 917, 808, 837, 2940), (897, 912, 799, 828, 3070), (892, 908, 789, 819, 3209), (888, 903, 780, 811, 3347),
    (883, 899, 771, 803, 3489), (877, 895, 759, 795, 3672), (871, 889, 748, 785, 3856), (865, 884, 737, 775, 4047), (860, 879, 727, 765, 4238),
    (853, 874, 713, 756, 4486), (846, 868, 701, 745, 4730), (840, 862, 689, 734, 4985), (832, 856, 674, 724, 5300)]
def boxTab_40 : List (ℤ × ℤ × ℤ × ℤ × ℤ) :=
  [(983, 1001, 967, 1001, 1251), (967, 986, 934, 972, 1524), (951, 971, 903, 943, 1819), (935, 957, 871, 915, 2143), (919, 942, 840, 887, 2495),
    (904, 928, 810, 860, 2877), (900, 913, 804, 830, 2990), (895, 908, 794, 821, 3128), (890, 904, 784, 812, 3270), (885, 899, 775, 803, 3412),
    (880, 895, 765, 794, 3563), (874, 890, 754, 786, 3747), (868, 885, 742, 776, 3941), (862, 879, 731, 765, 4137), (856, 874, 720, 755, 4341),
    (849, 869, 707, 746, 4590), (843, 862, 694, 734, 4849), (836, 856, 681, 723, 5120)]
def boxTab : List (List (ℤ × ℤ × ℤ × ℤ × ℤ)) :=
  [boxTab_0, boxTab_1, boxTab_2, boxTab_3, boxTab_4, boxTab_5, boxTab_6, boxTab_7,
    boxTab_8, boxTab_9, boxTab_10, boxTab_11, boxTab_12, boxTab_13, boxTab_14, boxTab_15,
    boxTab_16, boxTab_17, boxTab_18, boxTab_19, boxTab_20, boxTab_21, boxTab_22, boxTab_23,
    boxTab_24, boxTab_25, boxTab_26, boxTab_27, boxTab_28, boxTab_29, boxTab_30, boxTab_31,
    boxTab_32, boxTab_33, boxTab_34, boxTab_35, boxTab_36, boxTab_37, boxTab_38, boxTab_39,
    boxTab_40]

def cellTab_0 : List (ℕ × ℕ × ℕ × ℕ × ℕ) :=
  [(100, 997, 1135, 0, 1), (100, 997, 1202, 0, 2), (100, 998, 1270, 1, 3), (100, 998, 1339, 2, 4), (100, 999, 1409, 3, 5),
    (100, 999, 1452, 4, 7), (100, 999, 1475, 5, 8), (100, 999, 1521, 5, 10), (100, 1001, 1550, 6, 11), (100, 1001, 1578, 7, 12),
    (100, 1001, 1606, 7, 13), (100, 1001, 1634, 8, 14), (100, 1002, 1669, 9, 15), (100, 1002, 1701, 10, 16), (100, 1002, 1734, 11, 17),
    (100, 1003, 1774, 12, 18), (100, 1004, 1812, 13, 19), (100, 1004, 1851, 14, 20), (100, 1004, 1893, 15, 21), (100, 1005, 1937, 16, 22),
    (100, 1006, 1985, 17, 23), (100, 1006, 2034, 18, 24), (100, 1007, 2082, 19, 25), (100, 1008, 2137, 20, 26), (100, 1009, 2189, 21, 27),
    (100, 1010, 2248, 22, 28), (100, 1011, 2307, 23, 29), (100, 1013, 2372, 24, 30), (100, 1014, 2441, 25, 31), (100, 1015, 2508, 26, 32),
    (100, 1017, 2581, 27, 33), (120, 1019, 2660, 28, 34), (120, 1021, 2735, 29, 35), (120, 1023, 2819, 30, 36), (140, 1023, 2996, 30, 38),
    (140, 1024, 3083, 31, 39), (160, 1027, 3176, 32, 40), (160, 1030, 3276, 33, 41), (180, 1033, 3480, 34, 43), (180, 1036, 3586, 35, 44),
    (200, 1036, 3696, 35, 45), (220, 1039, 3807, 36, 46), (220, 1044, 3918, 37, 47)]
def cellTab_1 : List (ℕ × ℕ × ℕ × ℕ × ℕ) :=
  [(100, 997, 1141, 0, 1), (100, 997, 1212, 0, 2), (100, 997, 1284, 1, 3), (100, 997, 1356, 2, 4), (100, 997, 1430, 3, 5),
    (100, 997, 1476, 4, 7), (100, 997, 1501, 5, 8), (100, 997, 1549, 5, 10), (100, 999, 1581, 6, 11), (100, 999, 1611, 7, 12),
    (100, 999, 1641, 7, 13), (100, 1000, 1671, 8, 14), (100, 1000, 1707, 9, 15), (100, 1000, 1741, 10, 16), (100, 1000, 1777, 11, 17),
    (100, 1000, 1817, 12, 18), (100, 1000, 1859, 13, 19), (100, 1000, 1899, 14, 20), (100, 1000, 1945, 15, 21), (100, 1001, 1992, 16, 22),
    (100, 1002, 2044, 17, 23), (100, 1003, 2095, 18, 24), (100, 1003, 2148, 19, 25), (100, 1004, 2206, 20, 26), (100, 1004, 2263, 21, 27),
    (100, 1005, 2327, 22, 28), (100, 1006, 2389, 23, 29), (100, 1007, 2457, 24, 30), (100, 1008, 2530, 25, 31), (100, 1009, 2603, 26, 32),
    (100, 1011, 2682, 27, 33), (100, 1012, 2766, 28, 34), (100, 1014, 2851, 29, 35), (120, 1016, 2939, 30, 36), (120, 1018, 3032, 31, 37),
    (120, 1021, 3132, 32, 38), (140, 1021, 3328, 32, 40), (140, 1023, 3434, 33, 41), (160, 1025, 3544, 34, 42), (160, 1028, 3656, 35, 43),
    (180, 1031, 3891, 36, 45), (180, 1035, 4011, 37, 46), (200, 1035, 4136, 37, 47)]
def cellTab_2 : List (ℕ × ℕ × ℕ × ℕ × ℕ) :=
  [(100, 996, 1149, 0, 1), (100, 996, 1223, 0, 2), (100, 995, 1299, 1, 3), (100, 995, 1376, 2, 4), (100, 995, 1453, 3, 5),
    (100, 995, 1503, 4, 7), (100, 995, 1528, 5, 8), (100, 995, 1581, 5, 10), (100, 996, 1614, 6, 11), (100, 996, 1645, 7, 12),
    (100, 996, 1677, 7, 13), (100, 997, 1710, 8, 14), (100, 997, 1747, 9, 15), (100, 997, 1785, 10, 16), (100, 997, 1823, 11, 17),
    (100, 997, 1867, 12, 18), (100, 997, 1911, 13, 19), (100, 997, 1953, 14, 20), (100, 997, 2004, 15, 21), (100, 998, 2053, 16, 22),
    (100, 998, 2110, 17, 23), (100, 998, 2166, 18, 24), (100, 998, 2219, 19, 25), (100, 1000, 2282, 20, 26), (100, 1000, 2345, 21, 27),
    (100, 1000, 2412, 22, 28), (100, 1000, 2480, 23, 29), (100, 1000, 2552, 24, 30), (100, 1002, 2634, 25, 31), (100, 1003, 2711, 26, 32),
    (100, 1003, 2798, 27, 33), (100, 1005, 2890, 28, 34), (100, 1006, 2979, 29, 35), (100, 1008, 3076, 30, 36), (100, 1009, 3177, 31, 37),
    (100, 1012, 3283, 32, 38), (120, 1013, 3389, 33, 39), (120, 1015, 3500, 34, 40), (140, 1015, 3733, 34, 42), (140, 1019, 3858, 35, 43),
    (160, 1021, 3984, 36, 44), (160, 1024, 4115, 37, 45), (180, 1024, 4383, 37, 47)]
def cellTab_3 : List (ℕ × ℕ × ℕ × ℕ × ℕ) :=
  [(100, 995, 1156, 0, 1), (100, 994, 1235, 0, 2), (100, 993, 1315, 1, 3), (100, 992, 1397, 2, 4), (100, 992, 1479, 3, 5),
    (100, 992, 1531, 4, 7), (100, 992, 1559, 5, 8), (100, 992, 1616, 5, 10), (100, 993, 1649, 6, 11), (100, 993, 1683, 7, 12),
    (100, 993, 1718, 7, 13), (100, 993, 1751, 8, 14), (100, 993, 1792, 9, 15), (100, 993, 1832, 10, 16), (100, 993, 1874, 11, 17),
    (100, 993, 1920, 12, 18), (100, 993, 1966, 13, 19), (100, 993, 2013, 14, 20), (100, 993, 2066, 15, 21), (100, 993, 2120, 16, 22),
    (100, 993, 2180, 17, 23), (100, 993, 2241, 18, 24), (100, 993, 2300, 19, 25), (100, 994, 2366, 20, 26), (100, 994, 2432, 21, 27),
    (100, 994, 2506, 22, 28), (100, 994, 2578, 23, 29), (100, 994, 2659, 24, 30), (100, 995, 2746, 25, 31), (100, 996, 2830, 26, 32),
    (100, 997, 2923, 27, 33), (100, 998, 3023, 28, 34), (100, 999, 3120, 29, 35), (100, 1000, 3226, 30, 36), (100, 1000, 3337, 31, 37),
    (100, 1002, 3453, 32, 38), (100, 1004, 3569, 33, 39), (100, 1005, 3691, 34, 40), (120, 1008, 3818, 35, 41), (120, 1010, 3949, 36, 42),
    (140, 1010, 4224, 36, 44), (140, 1013, 4367, 37, 45), (160, 1017, 4515, 38, 46)]
def cellTab_4 : List (ℕ × ℕ × ℕ × ℕ × ℕ) :=
  [(100, 994, 1165, 0, 1), (100, 991, 1249, 0, 2), (100, 990, 1334, 1, 3), (100, 989, 1420, 2, 4), (100, 988, 1508, 3, 5),
    (100, 988, 1563, 4, 7), (100, 988, 1592, 5, 8), (100, 988, 1652, 5, 10), (100, 989, 1688, 6, 11), (100, 989, 1724, 7, 12),
    (100, 989, 1761, 7, 13), (100, 989, 1797, 8, 14), (100, 988, 1841, 9, 15), (100, 988, 1884, 10, 16), (100, 988, 1928, 11, 17),
    (100, 987, 1978, 12, 18), (100, 987, 2027, 13, 19), (100, 987, 2079, 14, 20), (100, 987, 2135, 15, 21), (100, 987, 2194, 16, 22),
    (100, 987, 2257, 17, 23), (100, 987, 2322, 18, 24), (100, 987, 2386, 19, 25), (100, 987, 2459, 20, 26), (100, 987, 2529, 21, 27),
    (100, 987, 2610, 22, 28), (100, 987, 2688, 23, 29), (100, 988, 2775, 24, 30), (100, 988, 2869, 25, 31), (100, 988, 2962, 26, 32),
    (100, 989, 3063, 27, 33), (100, 989, 3172, 28, 34), (100, 990, 3276, 29, 35), (100, 991, 3392, 30, 36), (100, 991, 3514, 31, 37),
    (100, 993, 3644, 32, 38), (100, 994, 3768, 33, 39), (100, 995, 3902, 34, 40), (100, 998, 4041, 35, 41), (100, 999, 4186, 36, 42),
    (100, 1001, 4336, 37, 43), (120, 1003, 4491, 38, 44), (120, 1007, 4648, 39, 45)]
def cellTab_5 : List (ℕ × ℕ × ℕ × ℕ × ℕ) :=
  [(100, 992, 1174, 0, 1), (100, 990, 1262, 0, 2), (100, 987, 1353, 1, 3), (100, 986, 1445, 2, 4), (100, 985, 1538, 3, 5),
    (100, 985, 1597, 4, 7), (100, 985, 1629, 5, 8), (100, 985, 1692, 5, 10), (100, 984, 1732, 6, 11), (100, 984, 1770, 7, 12),
    (100, 983, 1810, 7, 13), (100, 983, 1849, 8, 14), (100, 983, 1894, 9, 15), (100, 982, 1942, 10, 16), (100, 982, 1988, 11, 17),
    (100, 982, 2042, 12, 18), (100, 981, 2096, 13, 19), (100, 981, 2150, 14, 20), (100, 981, 2211, 15, 21), (100, 980, 2274, 16, 22),
    (100, 980, 2343, 17, 23), (100, 979, 2414, 18, 24), (100, 979, 2483, 19, 25), (100, 979, 2562, 20, 26), (100, 979, 2639, 21, 27),
    (100, 979, 2725, 22, 28), (100, 979, 2811, 23, 29), (100, 979, 2906, 24, 30), (100, 979, 3007, 25, 31), (100, 979, 3109, 26, 32),
    (100, 980, 3220, 27, 33), (100, 980, 3340, 28, 34), (100, 980, 3454, 29, 35), (100, 980, 3582, 30, 36), (100, 981, 3715, 31, 37),
    (100, 982, 3859, 32, 38), (100, 982, 3996, 33, 39), (100, 982, 4143, 34, 40), (100, 985, 4300, 35, 41), (100, 986, 4460, 36, 42),
    (100, 988, 4626, 37, 43), (100, 989, 4802, 38, 44), (100, 992, 4975, 39, 45)]
def cellTab_6 : List (ℕ × ℕ × ℕ × ℕ × ℕ) :=
  [(100, 990, 1184, 0, 1), (100, 988, 1277, 0, 2), (100, 984, 1374, 1, 3), (100, 981, 1472, 2, 4), (100, 980, 1571, 3, 5),
    (100, 980, 1635, 4, 7), (100, 980, 1669, 5, 8), (100, 980, 1737, 5, 10), (100, 979, 1778, 6, 11), (100, 978, 1820, 7, 12),
    (100, 978, 1861, 7, 13), (100, 977, 1904, 8, 14), (100, 976, 1954, 9, 15), (100, 975, 2004, 10, 16), (100, 975, 2053, 11, 17),
    (100, 974, 2112, 12, 18), (100, 973, 2171, 13, 19), (100, 973, 2228, 14, 20), (100, 972, 2296, 15, 21), (100, 972, 2362, 16, 22),
    (100, 971, 2439, 17, 23), (100, 971, 2513, 18, 24), (100, 970, 2589, 19, 25), (100, 970, 2673, 20, 26), (100, 970, 2758, 21, 27),
    (100, 969, 2853, 22, 28), (100, 969, 2948, 23, 29), (100, 969, 3049, 24, 30), (100, 969, 3163, 25, 31), (100, 969, 3275, 26, 32),
    (100, 969, 3397, 27, 33), (100, 969, 3526, 28, 34), (100, 969, 3656, 29, 35), (100, 969, 3793, 30, 36), (100, 969, 3944, 31, 37),
    (100, 969, 4098, 32, 38), (100, 969, 4254, 33, 39), (100, 970, 4417, 34, 40), (100, 971, 4591, 35, 41), (100, 972, 4767, 36, 42),
    (100, 972, 4955, 37, 43), (100, 974, 5151, 38, 44), (100, 976, 5348, 39, 45)]
def cellTab_7 : List (ℕ × ℕ × ℕ × ℕ × ℕ) :=
  [(100, 989, 1194, 0, 1), (100, 984, 1295, 0, 2), (100, 981, 1396, 1, 3), (100, 978, 1501, 2, 4), (100, 975, 1608, 3, 5),
    (100, 975, 1675, 4, 7), (100, 975, 1711, 5, 8), (100, 975, 1784, 5, 10), (100, 974, 1828, 6, 11), (100, 973, 1875, 7, 12),
    (100, 972, 1919, 7, 13), (100, 971, 1965, 8, 14), (100, 970, 2018, 9, 15), (100, 970, 2071, 10, 16), (100, 969, 2125, 11, 17),
    (100, 967, 2189, 12, 18), (100, 966, 2252, 13, 19), (100, 966, 2315, 14, 20), (100, 965, 2387, 15, 21), (100, 964, 2460, 16, 22),
    (100, 963, 2541, 17, 23), (100, 962, 2623, 18, 24), (100, 961, 2707, 19, 25), (100, 960, 2800, 20, 26), (100, 959, 2893, 21, 27),
    (100, 959, 2994, 22, 28), (100, 958, 3099, 23, 29), (100, 957, 3211, 24, 30), (100, 956, 3336, 25, 31), (100, 956, 3456, 26, 32),
    (100, 956, 3591, 27, 33), (100, 955, 3737, 28, 34), (100, 955, 3877, 29, 35), (100, 955, 4032, 30, 36), (100, 955, 4195, 31, 37),
    (100, 955, 4371, 32, 38), (100, 955, 4543, 33, 39), (120, 955, 4729, 34, 40), (120, 956, 4922, 35, 41), (120, 956, 5124, 36, 42),
    (120, 957, 5333, 37, 43), (120, 957, 5550, 38, 44)]
def cellTab_8 : List (ℕ × ℕ × ℕ × ℕ × ℕ) :=
  [(100, 987, 1205, 0, 1), (100, 982, 1312, 0, 2), (100, 979, 1420, 1, 3), (100, 974, 1533, 2, 4), (100, 972, 1646, 3, 5),
    (100, 972, 1720, 4, 7), (100, 972, 1758, 5, 8), (100, 970, 1838, 5, 10), (100, 968, 1886, 6, 11), (100, 968, 1933, 7, 12),
    (100, 966, 1983, 7, 13), (100, 966, 2031, 8, 14), (100, 964, 2089, 9, 15), (100, 963, 2148, 10, 16), (100, 962, 2205, 11, 17),
    (100, 960, 2274, 12, 18), (100, 959, 2343, 13, 19), (100, 957, 2413, 14, 20), (100, 956, 2492, 15, 21), (100, 955, 2569, 16, 22),
    (100, 953, 2659, 17, 23), (100, 952, 2750, 18, 24), (100, 951, 2839, 19, 25), (100, 949, 2941, 20, 26), (100, 949, 3042, 21, 27),
    (120, 947, 3156, 22, 28), (120, 946, 3269, 23, 29), (120, 943, 3396, 24, 30), (120, 942, 3532, 25, 31), (120, 941, 3669, 26, 32),
    (120, 940, 3818, 27, 33), (140, 939, 4135, 27, 35), (140, 939, 4308, 28, 36), (140, 939, 4495, 29, 37), (140, 939, 4690, 30, 38),
    (140, 939, 4883, 31, 39), (160, 939, 5090, 32, 40), (160, 939, 5306, 33, 41), (160, 939, 5537, 34, 42), (160, 939, 5778, 35, 43),
    (160, 939, 6021, 36, 44)]
def cellTab_9 : List (ℕ × ℕ × ℕ × ℕ × ℕ) :=
  [(100, 984, 1218, 0, 1), (100, 979, 1332, 0, 2), (100, 975, 1447, 1, 3), (100, 970, 1568, 2, 4), (100, 966, 1690, 3, 5),
    (100, 966, 1769, 4, 7), (100, 966, 1811, 5, 8), (100, 965, 1895, 5, 10), (100, 963, 1946, 6, 11), (100, 962, 1998, 7, 12),
    (100, 961, 2051, 7, 13), (100, 959, 2104, 8, 14), (100, 957, 2168, 9, 15), (100, 956, 2231, 10, 16), (100, 954, 2294, 11, 17),
    (100, 952, 2370, 12, 18), (100, 950, 2443, 13, 19), (100, 949, 2518, 14, 20), (100, 946, 2605, 15, 21), (120, 945, 2691, 16, 22),
    (120, 942, 2790, 17, 23), (120, 941, 2887, 18, 24), (120, 940, 2986, 19, 25), (120, 938, 3099, 20, 26), (140, 934, 3337, 21, 28),
    (140, 932, 3462, 21, 29), (140, 931, 3600, 22, 30), (140, 927, 3754, 23, 31), (160, 927, 3902, 24, 32), (160, 925, 4068, 25, 33),
    (160, 923, 4248, 26, 34), (180, 922, 4427, 27, 35), (180, 921, 4620, 28, 36), (180, 920, 4828, 29, 37), (180, 918, 5052, 30, 38),
    (200, 918, 5507, 30, 40), (200, 918, 5750, 31, 41), (200, 918, 6016, 32, 42), (200, 918, 6287, 33, 43)]
def cellTab_10 : List (ℕ × ℕ × ℕ × ℕ × ℕ) :=
  [(100, 982, 1231, 0, 1), (100, 976, 1353, 0, 2), (100, 971, 1478, 1, 3), (100, 967, 1605, 2, 4), (100, 961, 1738, 3, 5),
    (100, 961, 1821, 4, 7), (100, 961, 1868, 5, 8), (100, 959, 1959, 5, 10), (100, 957, 2016, 6, 11), (100, 956, 2071, 7, 12),
    (100, 953, 2129, 7, 13), (100, 951, 2185, 8, 14), (100, 949, 2254, 9, 15), (100, 947, 2323, 10, 16), (100, 945, 2393, 11, 17),
    (120, 943, 2474, 12, 18), (120, 941, 2555, 13, 19), (120, 939, 2638, 14, 20), (120, 937, 2731, 15, 21), (140, 931, 2936, 16, 23),
    (140, 931, 2936, 17, 23), (140, 927, 3153, 17, 25), (160, 925, 3275, 18, 26), (160, 923, 3399, 19, 27), (160, 920, 3540, 20, 28),
    (180, 917, 3679, 21, 29), (180, 915, 3832, 22, 30), (180, 912, 4004, 23, 31), (180, 911, 4169, 24, 32), (200, 905, 4562, 24, 34),
    (200, 903, 4761, 25, 35), (220, 901, 4978, 26, 36), (220, 900, 5212, 27, 37), (220, 898, 5464, 28, 38), (240, 896, 5983, 28, 40),
    (240, 894, 6272, 29, 41), (240, 894, 6574, 30, 42)]
def cellTab_11 : List (ℕ × ℕ × ℕ × ℕ × ℕ) :=
  [(100, 980, 1246, 0, 1), (100, 973, 1376, 0, 2), (100, 968, 1509, 1, 3), (100, 962, 1647, 2, 4), (100, 956, 1790, 3, 5),
    (100, 956, 1882, 4, 7), (100, 956, 1929, 5, 8), (100, 951, 2030, 5, 10), (100, 949, 2091, 6, 11), (100, 947, 2152, 7, 12),
    (100, 946, 2214, 7, 13), (120, 944, 2277, 8, 14), (120, 941, 2353, 9, 15), (120, 939, 2427, 10, 16), (120, 937, 2502, 11, 17),
    (140, 933, 2591, 11, 18), (140, 931, 2681, 12, 19), (140, 925, 2877, 14, 21), (160, 923, 2982, 14, 22), (160, 919, 3100, 15, 23),
    (160, 916, 3220, 16, 24), (180, 914, 3342, 17, 25), (180, 911, 3478, 18, 26), (180, 908, 3617, 19, 27), (200, 901, 3930, 19, 29),
    (200, 899, 4101, 20, 30), (220, 894, 4294, 21, 31), (220, 891, 4485, 22, 32), (240, 885, 4921, 22, 34), (240, 882, 5152, 23, 35),
    (260, 879, 5404, 24, 36), (260, 875, 5676, 25, 37), (280, 872, 6246, 25, 39), (280, 869, 6561, 26, 40), (300, 867, 6891, 27, 41),
    (300, 865, 7245, 28, 42)]
def cellTab_12 : List (ℕ × ℕ × ℕ × ℕ × ℕ) :=
  [(100, 980, 1252, 0, 1), (100, 974, 1384, 0, 2), (100, 970, 1520, 1, 3), (100, 965, 1660, 2, 4), (100, 960, 1806, 3, 5),
    (100, 960, 1900, 4, 7), (100, 959, 1951, 5, 8), (100, 957, 2051, 5, 10), (100, 955, 2113, 6, 11), (100, 953, 2176, 7, 12),
    (100, 951, 2241, 7, 13), (120, 949, 2305, 8, 14), (120, 948, 2380, 9, 15), (120, 944, 2458, 10, 16), (120, 943, 2535, 11, 17),
    (140, 940, 2626, 11, 18), (140, 938, 2718, 12, 19), (140, 933, 2918, 14, 21), (160, 931, 3026, 14, 22), (160, 928, 3147, 15, 23),
    (160, 926, 3269, 16, 24), (180, 923, 3394, 17, 25), (180, 920, 3538, 18, 26), (200, 914, 3840, 18, 28), (200, 913, 3995, 19, 29),
    (200, 910, 4176, 20, 30), (220, 906, 4373, 21, 31), (220, 904, 4568, 22, 32), (240, 898, 5021, 22, 34), (240, 898, 5252, 23, 35),
    (260, 895, 5510, 24, 36), (260, 892, 5789, 25, 37), (280, 889, 6381, 25, 39), (280, 887, 6705, 26, 40)]
def cellTab_13 : List (ℕ × ℕ × ℕ × ℕ × ℕ) :=
  [(100, 979, 1258, 0, 1), (100, 974, 1392, 0, 2), (100, 968, 1532, 1, 3), (100, 963, 1678, 2, 4), (100, 957, 1828, 3, 5),
    (100, 957, 1923, 4, 7), (100, 957, 1974, 5, 8), (100, 955, 2080, 5, 10), (100, 952, 2146, 6, 11), (120, 950, 2209, 6, 12),
    (120, 949, 2274, 7, 13), (120, 946, 2343, 8, 14), (120, 943, 2422, 9, 15), (140, 942, 2499, 10, 16), (140, 940, 2581, 11, 17),
    (140, 937, 2674, 11, 18), (140, 935, 2769, 12, 19), (160, 929, 2978, 13, 21), (160, 927, 3089, 14, 22), (160, 923, 3217, 15, 23),
    (180, 921, 3343, 16, 24), (180, 919, 3472, 17, 25), (200, 912, 3770, 17, 27), (200, 909, 3936, 18, 28), (220, 907, 4101, 19, 29),
    (220, 904, 4287, 20, 30), (220, 900, 4491, 21, 31), (240, 895, 4927, 21, 33), (260, 891, 5175, 22, 34), (260, 889, 5421, 23, 35),
    (260, 886, 5689, 24, 36), (280, 880, 6299, 24, 38), (300, 880, 6611, 25, 39)]
def cellTab_14 : List (ℕ × ℕ × ℕ × ℕ × ℕ) :=
  [(100, 979, 1264, 0, 1), (100, 972, 1403, 0, 2), (100, 966, 1547, 1, 3), (100, 961, 1695, 2, 4), (100, 955, 1850, 3, 5),
    (100, 955, 1948, 4, 7), (100, 955, 2001, 5, 8), (100, 953, 2109, 5, 10), (120, 950, 2176, 5, 11), (120, 948, 2244, 6, 12),
    (120, 945, 2311, 7, 13), (120, 943, 2381, 8, 14), (140, 938, 2545, 9, 16), (140, 938, 2545, 10, 16), (140, 936, 2628, 11, 17),
    (160, 931, 2822, 11, 19), (160, 928, 2924, 12, 20), (160, 925, 3040, 13, 21), (180, 922, 3154, 14, 22), (180, 919, 3285, 15, 23),
    (180, 917, 3420, 16, 24), (200, 910, 3709, 16, 26), (200, 907, 3860, 17, 27), (220, 904, 4036, 18, 28), (220, 900, 4211, 19, 29),
    (240, 893, 4621, 19, 31), (240, 891, 4836, 20, 32), (260, 887, 5072, 21, 33), (260, 883, 5335, 22, 34), (280, 878, 5877, 22, 36),
    (280, 875, 6186, 23, 37), (300, 872, 6520, 24, 38)]
def cellTab_15 : List (ℕ × ℕ × ℕ × ℕ × ℕ) :=
  [(100, 978, 1270, 0, 1), (100, 971, 1413, 0, 2), (100, 965, 1560, 1, 3), (100, 959, 1714, 2, 4), (100, 953, 1872, 3, 5),
    (100, 953, 1974, 4, 7), (100, 953, 2029, 5, 8), (120, 950, 2142, 5, 10), (120, 947, 2211, 5, 11), (120, 945, 2278, 6, 12),
    (120, 943, 2349, 7, 13), (140, 938, 2504, 7, 15), (140, 936, 2588, 9, 16), (140, 936, 2588, 10, 16), (160, 930, 2776, 10, 18),
    (160, 927, 2879, 11, 19), (160, 924, 2981, 12, 20), (180, 920, 3104, 13, 21), (180, 919, 3221, 14, 22), (200, 911, 3499, 14, 24),
    (200, 908, 3640, 15, 25), (200, 904, 3802, 16, 26), (220, 902, 3962, 17, 27), (220, 898, 4140, 18, 28), (240, 890, 4531, 18, 30),
    (240, 886, 4755, 19, 31), (260, 884, 4979, 20, 32), (280, 875, 5504, 20, 34), (280, 873, 5777, 21, 35), (300, 868, 6082, 22, 36),
    (300, 866, 6404, 23, 37), (320, 859, 7109, 23, 39)]
def cellTab_16 : List (ℕ × ℕ × ℕ × ℕ × ℕ) :=
  [(100, 977, 1276, 0, 1), (100, 971, 1422, 0, 2), (100, 964, 1574, 1, 3), (100, 957, 1733, 2, 4), (100, 950, 1896, 3, 5),
    (100, 950, 2001, 4, 7), (120, 949, 2116, 5, 9), (120, 948, 2173, 5, 10), (120, 944, 2243, 5, 11), (120, 942, 2315, 6, 12),
    (140, 940, 2387, 7, 13), (140, 933, 2550, 7, 15), (140, 932, 2637, 9, 16), (160, 930, 2725, 9, 17), (160, 926, 2833, 10, 18),
    (160, 922, 2939, 11, 19), (180, 920, 3044, 12, 20), (180, 916, 3170, 13, 21), (200, 909, 3439, 13, 23), (200, 906, 3581, 14, 24),
    (220, 904, 3727, 15, 25), (220, 898, 3898, 16, 26), (240, 892, 4253, 16, 28), (240, 888, 4445, 17, 29), (260, 884, 4658, 18, 30),
    (260, 879, 4897, 19, 31), (280, 872, 5396, 19, 33), (300, 867, 5687, 20, 34), (300, 864, 5972, 21, 35), (320, 855, 6642, 21, 37),
    (340, 851, 7015, 22, 38)]
def cellTab_17 : List (ℕ × ℕ × ℕ × ℕ × ℕ) :=
  [(100, 976, 1283, 0, 1), (100, 969, 1433, 0, 2), (100, 962, 1590, 1, 3), (100, 955, 1752, 2, 4), (100, 948, 1919, 3, 5),
    (120, 948, 2086, 4, 8), (120, 946, 2146, 5, 9), (120, 945, 2205, 5, 10), (120, 941, 2280, 5, 11), (140, 939, 2353, 6, 12),
    (140, 937, 2427, 7, 13), (140, 931, 2594, 7, 15), (160, 928, 2686, 8, 16), (160, 926, 2780, 9, 17), (160, 922, 2888, 10, 18),
    (180, 919, 2997, 11, 19), (180, 916, 3109, 12, 20), (200, 908, 3371, 12, 22), (200, 904, 3520, 13, 23), (220, 900, 3671, 14, 24),
    (220, 898, 3821, 15, 25), (240, 890, 4170, 15, 27), (240, 885, 4371, 16, 28), (260, 881, 4570, 17, 29), (260, 877, 4796, 18, 30),
    (280, 868, 5291, 18, 32), (300, 863, 5570, 19, 33), (300, 859, 5873, 20, 34), (320, 851, 6516, 21, 36), (340, 846, 6884, 21, 37)]
def cellTab_18 : List (ℕ × ℕ × ℕ × ℕ × ℕ) :=
  [(100, 975, 1291, 0, 1), (100, 968, 1444, 0, 2), (100, 960, 1604, 1, 3), (100, 952, 1772, 2, 4), (100, 946, 1945, 3, 5),
    (120, 946, 2116, 4, 8), (120, 944, 2178, 5, 9), (120, 942, 2240, 5, 10), (140, 938, 2317, 5, 11), (140, 937, 2392, 6, 12),
    (140, 933, 2472, 7, 13), (160, 928, 2643, 7, 15), (160, 924, 2738, 8, 16), (180, 921, 2834, 9, 17), (180, 918, 2948, 10, 18),
    (180, 914, 3061, 11, 19), (200, 906, 3314, 11, 21), (200, 904, 3446, 12, 22), (220, 899, 3604, 13, 23), (220, 896, 3760, 14, 24),
    (240, 887, 4103, 14, 26), (240, 884, 4286, 15, 27), (260, 879, 4493, 16, 28), (280, 869, 4941, 16, 30), (280, 863, 5205, 18, 31),
    (300, 861, 5462, 18, 32), (320, 849, 6083, 19, 34), (320, 846, 6400, 20, 35), (340, 840, 6764, 20, 36), (360, 835, 7149, 21, 37)]
def cellTab_19 : List (ℕ × ℕ × ℕ × ℕ × ℕ) :=
  [(100, 974, 1297, 0, 1), (100, 966, 1455, 0, 2), (100, 959, 1619, 1, 3), (100, 950, 1793, 2, 4), (100, 943, 1972, 3, 5),
    (120, 943, 2150, 4, 8), (120, 941, 2213, 5, 9), (140, 936, 2356, 5, 11), (140, 936, 2356, 5, 11), (160, 930, 2514, 5, 13),
    (160, 927, 2597, 6, 14), (160, 923, 2693, 7, 15), (180, 921, 2791, 8, 16), (180, 918, 2890, 9, 17), (180, 913, 3011, 10, 18),
    (200, 906, 3249, 10, 20), (200, 903, 3388, 11, 21), (220, 899, 3528, 12, 22), (220, 893, 3695, 13, 23), (240, 886, 4023, 13, 25),
    (240, 880, 4218, 14, 26), (260, 877, 4407, 15, 27), (280, 867, 4849, 15, 29), (280, 862, 5092, 16, 30), (300, 857, 5366, 17, 31),
    (320, 846, 5958, 18, 33), (340, 841, 6296, 18, 34), (360, 836, 6636, 19, 35), (360, 830, 7016, 20, 36)]
def cellTab_20 : List (ℕ × ℕ × ℕ × ℕ × ℕ) :=
  [(100, 973, 1304, 0, 1), (100, 965, 1467, 0, 2), (100, 957, 1636, 1, 3), (100, 949, 1814, 2, 4), (120, 942, 1997, 3, 5),
    (140, 941, 2182, 4, 8), (140, 939, 2246, 5, 9), (140, 932, 2396, 5, 11), (160, 929, 2478, 5, 12), (160, 927, 2562, 5, 13),
    (160, 924, 2644, 6, 14), (180, 920, 2746, 7, 15), (180, 917, 2849, 8, 16), (180, 913, 2952, 9, 17), (200, 906, 3196, 9, 19),
    (200, 903, 3322, 10, 20), (220, 897, 3468, 11, 21), (220, 893, 3618, 12, 22), (240, 884, 3958, 12, 24), (260, 879, 4134, 13, 25),
    (260, 874, 4331, 14, 26), (280, 865, 4762, 14, 28), (300, 860, 4997, 15, 29), (300, 854, 5258, 16, 30), (320, 843, 5837, 17, 32),
    (340, 837, 6168, 17, 33), (360, 830, 6529, 18, 34), (380, 820, 7293, 18, 36)]
def cellTab_21 : List (ℕ × ℕ × ℕ × ℕ × ℕ) :=
  [(100, 973, 1312, 0, 1), (100, 964, 1479, 0, 2), (100, 955, 1654, 1, 3), (100, 947, 1836, 2, 4), (120, 939, 2026, 3, 5),
    (140, 938, 2217, 4, 8), (140, 936, 2284, 5, 9), (160, 929, 2437, 5, 11), (160, 927, 2521, 5, 12), (160, 923, 2607, 5, 13),
    (180, 921, 2695, 6, 14), (180, 917, 2800, 7, 15), (180, 913, 2906, 8, 16), (200, 904, 3144, 8, 18), (200, 900, 3271, 9, 19),
    (220, 897, 3401, 10, 20), (220, 892, 3552, 11, 21), (240, 883, 3885, 11, 23), (260, 878, 4063, 12, 24), (260, 874, 4246, 13, 25),
    (280, 863, 4670, 13, 27), (300, 857, 4908, 14, 28), (300, 852, 5153, 15, 29), (320, 839, 5736, 16, 31), (340, 834, 6043, 16, 32),
    (360, 828, 6389, 17, 33), (380, 816, 7158, 17, 35)]
def cellTab_22 : List (ℕ × ℕ × ℕ × ℕ × ℕ) :=
  [(100, 971, 1320, 0, 1), (100, 962, 1492, 0, 2), (100, 954, 1670, 1, 3), (100, 945, 1858, 2, 4), (120, 936, 2055, 3, 5),
    (140, 936, 2251, 4, 8), (140, 932, 2322, 5, 9), (160, 927, 2480, 5, 11), (160, 922, 2569, 5, 12), (180, 920, 2658, 5, 13),
    (180, 917, 2748, 6, 14), (180, 912, 2859, 7, 15), (200, 905, 3081, 7, 17), (200, 899, 3214, 8, 18), (220, 897, 3345, 9, 19),
    (220, 892, 3483, 10, 20), (240, 882, 3804, 10, 22), (260, 877, 3989, 11, 23), (260, 872, 4178, 12, 24), (280, 861, 4591, 12, 26),
    (300, 857, 4808, 13, 27), (320, 844, 5324, 14, 29), (320, 838, 5613, 15, 30), (340, 832, 5931, 15, 31), (360, 825, 6260, 16, 32),
    (380, 811, 7036, 16, 34), (400, 805, 7447, 17, 35)]
def cellTab_23 : List (ℕ × ℕ × ℕ × ℕ × ℕ) :=
  [(100, 970, 1328, 0, 1), (100, 961, 1504, 0, 2), (100, 951, 1689, 1, 3), (100, 942, 1883, 2, 4), (120, 934, 2085, 3, 5),
    (160, 930, 2362, 4, 9), (160, 927, 2436, 5, 10), (160, 922, 2527, 5, 11), (180, 920, 2616, 5, 12), (180, 916, 2710, 5, 13),
    (180, 913, 2802, 6, 14), (200, 904, 3034, 6, 16), (200, 900, 3149, 7, 17), (220, 896, 3286, 8, 18), (220, 891, 3425, 9, 19),
    (240, 881, 3735, 9, 21), (260, 876, 3905, 10, 22), (260, 871, 4096, 11, 23), (280, 861, 4495, 11, 25), (300, 854, 4726, 12, 26),
    (320, 849, 4958, 13, 27), (320, 837, 5495, 14, 29), (340, 829, 5804, 14, 30), (360, 822, 6145, 15, 31), (380, 808, 6886, 15, 33),
    (400, 800, 7322, 16, 34)]
def cellTab_24 : List (ℕ × ℕ × ℕ × ℕ × ℕ) :=
  [(100, 970, 1336, 0, 1), (100, 960, 1518, 0, 2), (100, 949, 1708, 1, 3), (100, 941, 1907, 2, 4), (140, 930, 2119, 3, 5),
    (160, 927, 2403, 4, 9), (160, 923, 2479, 5, 10), (160, 920, 2572, 5, 11), (180, 916, 2667, 5, 12), (180, 912, 2764, 5, 13),
    (200, 904, 2980, 6, 15), (200, 900, 3097, 6, 16), (220, 896, 3220, 7, 17), (220, 890, 3365, 8, 18), (240, 881, 3657, 8, 20),
    (260, 875, 3834, 9, 21), (260, 871, 4010, 10, 22), (280, 863, 4214, 11, 23), (300, 854, 4627, 11, 25), (320, 846, 4874, 12, 26),
    (320, 842, 5116, 13, 27), (340, 829, 5682, 13, 29), (360, 820, 6014, 14, 30), (380, 806, 6739, 14, 32), (420, 789, 7614, 14, 34)]
def cellTab_25 : List (ℕ × ℕ × ℕ × ℕ × ℕ) :=
  [(100, 968, 1345, 0, 1), (100, 958, 1531, 0, 2), (100, 947, 1728, 1, 3), (120, 938, 1934, 2, 4), (140, 928, 2151, 3, 5),
    (160, 923, 2445, 4, 9), (160, 921, 2523, 5, 10), (180, 915, 2622, 5, 11), (180, 912, 2720, 5, 12), (200, 905, 2921, 5, 14),
    (200, 899, 3046, 6, 15), (220, 895, 3171, 6, 16), (220, 892, 3294, 7, 17), (240, 880, 3597, 7, 19), (260, 875, 3754, 8, 20),
    (260, 869, 3937, 9, 21), (280, 858, 4331, 10, 23), (300, 852, 4548, 10, 24), (320, 846, 4772, 11, 25), (320, 838, 5030, 12, 26),
    (340, 825, 5583, 12, 28), (360, 819, 5888, 13, 29), (400, 803, 6617, 13, 31), (420, 786, 7453, 13, 33)]
def cellTab_26 : List (ℕ × ℕ × ℕ × ℕ × ℕ) :=
  [(100, 967, 1353, 0, 1), (100, 957, 1545, 0, 2), (100, 945, 1748, 1, 3), (120, 935, 1961, 2, 4), (140, 925, 2184, 3, 5),
    (160, 921, 2489, 4, 9), (180, 917, 2572, 5, 10), (180, 912, 2674, 5, 11), (200, 904, 2881, 5, 13), (200, 900, 2985, 5, 14),
    (220, 895, 3115, 5, 15), (220, 891, 3243, 6, 16), (240, 880, 3529, 7, 18), (260, 875, 3688, 7, 19), (260, 871, 3850, 8, 20),
    (280, 858, 4235, 8, 22), (300, 851, 4459, 9, 23), (320, 846, 4685, 10, 24), (320, 839, 4918, 11, 25), (340, 825, 5462, 11, 27),
    (360, 817, 5777, 12, 28), (400, 801, 6468, 12, 30), (420, 784, 7296, 12, 32)]
def cellTab_27 : List (ℕ × ℕ × ℕ × ℕ × ℕ) :=
  [(100, 966, 1364, 0, 1), (100, 956, 1560, 0, 2), (100, 943, 1770, 1, 3), (120, 932, 1990, 2, 4), (140, 921, 2222, 3, 5),
    (180, 917, 2539, 4, 9), (180, 913, 2624, 5, 10), (200, 904, 2837, 5, 12), (200, 899, 2946, 5, 13), (220, 896, 3054, 5, 14),
    (220, 890, 3188, 5, 15), (240, 881, 3461, 6, 17), (260, 874, 3625, 6, 18), (260, 868, 3794, 7, 19), (280, 857, 4161, 8, 21),
    (300, 850, 4369, 8, 22), (320, 843, 4603, 9, 23), (320, 836, 4845, 10, 24), (360, 823, 5375, 10, 26), (360, 816, 5664, 11, 27),
    (400, 800, 6338, 11, 29), (420, 780, 7172, 11, 31)]
def cellTab_28 : List (ℕ × ℕ × ℕ × ℕ × ℕ) :=
  [(100, 965, 1373, 0, 1), (100, 953, 1577, 0, 2), (100, 942, 1792, 1, 3), (120, 929, 2021, 2, 4), (160, 918, 2261, 3, 5),
    (180, 913, 2590, 4, 9), (200, 904, 2787, 4, 11), (200, 899, 2901, 5, 12), (220, 895, 3014, 5, 13), (220, 891, 3126, 5, 14),
    (240, 879, 3409, 5, 16), (260, 874, 3555, 5, 17), (260, 868, 3726, 6, 18), (280, 857, 4077, 7, 20), (300, 850, 4287, 7, 21),
    (320, 843, 4504, 8, 22), (320, 835, 4754, 9, 23), (340, 822, 5267, 9, 25), (360, 812, 5575, 10, 26), (400, 797, 6235, 10, 28),
    (420, 779, 7018, 11, 30), (440, 768, 7485, 11, 31)]
def cellTab_29 : List (ℕ × ℕ × ℕ × ℕ × ℕ) :=
  [(100, 964, 1384, 0, 1), (100, 952, 1592, 0, 2), (100, 940, 1815, 1, 3), (140, 927, 2052, 2, 4), (160, 915, 2302, 3, 5),
    (200, 910, 2644, 4, 9), (200, 899, 2850, 4, 11), (220, 896, 2964, 5, 12), (220, 890, 3085, 5, 13), (240, 879, 3351, 5, 15),
    (240, 874, 3498, 5, 16), (260, 869, 3648, 5, 17), (280, 856, 4013, 6, 19), (300, 851, 4201, 6, 20), (300, 842, 4425, 7, 21),
    (320, 836, 4651, 8, 22), (340, 820, 5183, 8, 24), (360, 813, 5456, 9, 25), (400, 797, 6105, 9, 27), (420, 778, 6879, 9, 29),
    (440, 767, 7324, 10, 30)]
def cellTab_30 : List (ℕ × ℕ × ℕ × ℕ × ℕ) :=
  [(100, 962, 1395, 0, 1), (100, 950, 1610, 0, 2), (100, 937, 1841, 1, 3), (140, 925, 2084, 2, 4), (160, 911, 2344, 3, 5),
    (200, 905, 2699, 4, 9), (220, 895, 2916, 4, 11), (220, 890, 3037, 5, 12), (240, 880, 3286, 5, 14), (240, 874, 3438, 5, 15),
    (260, 868, 3595, 5, 16), (280, 856, 3940, 5, 18), (300, 850, 4135, 5, 19), (300, 843, 4330, 6, 20), (320, 836, 4564, 7, 21),
    (340, 819, 5086, 7, 23), (360, 811, 5369, 8, 24), (400, 795, 6001, 8, 26), (420, 775, 6758, 8, 28), (440, 767, 7169, 9, 29)]
def cellTab_31 : List (ℕ × ℕ × ℕ × ℕ × ℕ) :=
  [(100, 961, 1406, 0, 1), (100, 947, 1629, 0, 2), (100, 935, 1865, 1, 3), (140, 920, 2120, 2, 4), (180, 908, 2387, 3, 5),
    (220, 897, 2857, 4, 10), (220, 890, 2984, 4, 11), (240, 880, 3238, 4, 13), (240, 875, 3371, 5, 14), (260, 869, 3529, 5, 15),
    (280, 863, 3691, 5, 16), (300, 849, 4060, 5, 18), (300, 842, 4262, 5, 19), (320, 836, 4472, 6, 20), (340, 820, 4969, 6, 22),
    (360, 811, 5261, 7, 23), (400, 793, 5882, 7, 25), (420, 775, 6618, 8, 27), (440, 764, 7055, 8, 28)]
def cellTab_32 : List (ℕ × ℕ × ℕ × ℕ × ℕ) :=
  [(100, 959, 1418, 0, 1), (100, 945, 1648, 0, 2), (120, 932, 1893, 1, 3), (140, 918, 2155, 2, 4), (180, 904, 2435, 3, 5),
    (220, 892, 2924, 4, 10), (220, 886, 3054, 4, 11), (240, 875, 3322, 4, 13), (260, 871, 3459, 5, 14), (280, 862, 3628, 5, 15),
    (280, 857, 3796, 5, 16), (300, 842, 4185, 5, 18), (320, 836, 4396, 5, 19), (340, 820, 4876, 6, 21), (360, 811, 5148, 6, 22),
    (380, 792, 5780, 6, 24), (420, 774, 6497, 7, 26), (440, 764, 6898, 7, 27)]
def cellTab_33 : List (ℕ × ℕ × ℕ × ℕ × ℕ) :=
  [(100, 958, 1430, 0, 1), (100, 944, 1666, 0, 2), (120, 929, 1921, 1, 3), (160, 915, 2193, 2, 4), (200, 901, 2570, 3, 6),
    (220, 889, 2993, 4, 10), (240, 882, 3128, 4, 11), (260, 870, 3409, 4, 13), (260, 865, 3552, 5, 14), (280, 856, 3731, 5, 15),
    (300, 844, 4092, 5, 17), (320, 835, 4317, 5, 18), (340, 821, 4771, 5, 20), (360, 811, 5051, 5, 21), (380, 792, 5665, 6, 23),
    (420, 775, 6359, 6, 25), (440, 762, 6784, 6, 26)]
def cellTab_34 : List (ℕ × ℕ × ℕ × ℕ × ℕ) :=
  [(100, 957, 1441, 0, 1), (100, 942, 1686, 0, 2), (120, 926, 1950, 1, 3), (160, 911, 2233, 2, 4), (200, 897, 2624, 3, 6),
    (240, 884, 3065, 3, 10), (260, 871, 3353, 4, 12), (260, 865, 3500, 4, 13), (280, 850, 3839, 5, 15), (300, 843, 4027, 5, 16),
    (320, 837, 4220, 5, 17), (340, 820, 4690, 5, 19), (360, 813, 4935, 5, 20), (380, 793, 5534, 5, 22), (400, 783, 5888, 5, 23),
    (440, 764, 6629, 5, 25)]
def cellTab_35 : List (ℕ × ℕ × ℕ × ℕ × ℕ) :=
  [(100, 955, 1456, 0, 1), (100, 940, 1707, 0, 2), (120, 924, 1981, 1, 3), (160, 907, 2274, 2, 4), (200, 892, 2684, 3, 6),
    (260, 871, 3293, 3, 11), (260, 865, 3442, 4, 12), (280, 860, 3595, 4, 13), (300, 844, 3953, 4, 15), (320, 838, 4147, 5, 16),
    (340, 821, 4599, 5, 18), (360, 812, 4852, 5, 19), (380, 794, 5423, 5, 21), (400, 785, 5744, 5, 22), (440, 762, 6516, 5, 24)]
def cellTab_36 : List (ℕ × ℕ × ℕ × ℕ × ℕ) :=
  [(100, 953, 1469, 0, 1), (100, 938, 1729, 0, 2), (120, 921, 2012, 1, 3), (180, 904, 2316, 2, 4), (220, 888, 2742, 3, 6),
    (260, 865, 3381, 3, 11), (280, 860, 3535, 4, 12), (300, 846, 3869, 4, 14), (320, 838, 4071, 4, 15), (340, 823, 4496, 4, 17),
    (360, 813, 4757, 5, 18), (380, 795, 5306, 5, 20), (400, 784, 5637, 5, 21), (440, 763, 6376, 5, 23)]
def cellTab_37 : List (ℕ × ℕ × ℕ × ℕ × ℕ) :=
  [(100, 952, 1483, 0, 1), (100, 935, 1753, 0, 2), (140, 918, 2045, 1, 3), (180, 900, 2360, 2, 4), (220, 884, 2803, 3, 6),
    (280, 860, 3472, 3, 11), (280, 853, 3637, 4, 12), (320, 840, 3985, 4, 14), (320, 831, 4201, 4, 15), (360, 815, 4651, 4, 17),
    (360, 805, 4924, 5, 18), (400, 786, 5507, 5, 20), (420, 764, 6219, 5, 22)]
def cellTab_38 : List (ℕ × ℕ × ℕ × ℕ × ℕ) :=
  [(100, 950, 1497, 0, 1), (100, 933, 1777, 0, 2), (140, 915, 2078, 1, 3), (180, 897, 2406, 2, 4), (240, 879, 2996, 3, 7),
    (280, 855, 3568, 3, 11), (300, 841, 3922, 4, 13), (320, 833, 4111, 4, 14), (340, 815, 4570, 4, 16), (360, 807, 4813, 4, 17),
    (400, 787, 5406, 4, 19), (420, 763, 6104, 5, 21)]
def cellTab_39 : List (ℕ × ℕ × ℕ × ℕ × ℕ) :=
  [(100, 949, 1512, 0, 1), (100, 931, 1801, 0, 2), (140, 912, 2116, 1, 3), (200, 893, 2457, 2, 4), (240, 875, 3070, 3, 7),
    (300, 841, 3856, 3, 12), (320, 833, 4047, 4, 13), (340, 815, 4486, 4, 15), (360, 807, 4730, 4, 16), (380, 787, 5300, 4, 18)]
def cellTab_40 : List (ℕ × ℕ × ℕ × ℕ × ℕ) :=
  [(100, 947, 1524, 0, 1), (100, 929, 1819, 0, 2), (140, 910, 2143, 1, 3), (200, 891, 2495, 2, 4), (260, 872, 3128, 3, 7),
    (320, 838, 3941, 3, 12), (320, 831, 4137, 4, 13), (360, 813, 4590, 4, 15), (380, 795, 5120, 4, 17)]
def cellTab : List (List (ℕ × ℕ × ℕ × ℕ × ℕ)) :=
  [cellTab_0, cellTab_1, cellTab_2, cellTab_3, cellTab_4, cellTab_5, cellTab_6, cellTab_7,
    cellTab_8, cellTab_9, cellTab_10, cellTab_11, cellTab_12, cellTab_13, cellTab_14, cellTab_15,
    cellTab_16, cellTab_17, cellTab_18, cellTab_19, cellTab_20, cellTab_21, cellTab_22, cellTab_23,
    cellTab_24, cellTab_25, cellTab_26, cellTab_27, cellTab_28, cellTab_29, cellTab_30, cellTab_31,
    cellTab_32, cellTab_33, cellTab_34, cellTab_35, cellTab_36, cellTab_37, cellTab_38, cellTab_39,
    cellTab_40]

def tab : BoxTab where
  G := [(1, 0), (2, 0), (4, 0), (1, 1), (2, 1), (3, 1),
    (6, 1), (2, 2), (3, 2), (4, 2), (2, 3), (3, 3),
    (4, 3), (5, 6), (6, 6), (7, 6)]
  Tc := 47641 / 250
  V := 1232821529602347 / 12500000000000000
  Tlo := 200
  Thi := 600
  Dmax := 5
  a := 1
  b := 17 / 1000
  s := sTab
  r := rTab
  strip := stripTab
  stripA := stripAbs
  rowZ := rowZ
  rowP := rowP
  rowZa := rowZa
  rowPa := rowPa
  box := boxTab
  cell := cellTab

end Aga8.GergEos.Methane
