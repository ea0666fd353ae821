/-! # Numbers for the bounds of the DETAIL equation over the natural gases

Not a specification: these numbers are checked where they are used. -/

namespace Aga8.Detail.Ng

def gHi0 : List Nat := [76, 68, 84, 86, 90, 93, 93, 95, 95, 102, 93, 94, 95, 96, 54, 72, 69, 87, 87, 28, 72]
def gHi1 : List Nat := [68, 62, 78, 76, 79, 81, 83, 84, 84, 88, 89, 90, 91, 92, 47, 66, 63, 81, 77, 25, 65]
def gHi2 : List Nat := [84, 78, 96, 93, 100, 99, 99, 91, 99, 101, 101, 101, 101, 101, 63, 81, 96, 107, 99, 31, 81]
def gHi3 : List Nat := [86, 76, 93, 97, 103, 104, 106, 107, 108, 110, 111, 113, 114, 115, 60, 82, 79, 97, 99, 31, 81]
def gHi4 : List Nat := [90, 79, 100, 103, 107, 109, 111, 113, 113, 115, 117, 119, 120, 121, 60, 86, 83, 123, 107, 33, 85]
def gHi5 : List Nat := [93, 81, 99, 104, 109, 112, 113, 115, 115, 118, 119, 121, 122, 124, 68, 88, 84, 125, 109, 34, 87]
def gHi6 : List Nat := [93, 83, 99, 106, 111, 113, 114, 116, 116, 119, 121, 122, 124, 125, 69, 88, 85, 126, 110, 34, 88]
def gHi7 : List Nat := [95, 84, 91, 107, 113, 115, 116, 118, 119, 121, 123, 125, 126, 127, 62, 90, 87, 129, 112, 35, 90]
def gHi8 : List Nat := [95, 84, 99, 108, 113, 115, 116, 119, 119, 122, 124, 125, 127, 128, 62, 91, 87, 129, 113, 35, 90]
def gHi9 : List Nat := [102, 88, 101, 110, 115, 118, 119, 121, 122, 124, 126, 128, 129, 130, 63, 92, 89, 132, 116, 36, 92]
def gHi10 : List Nat := [93, 89, 101, 111, 117, 119, 121, 123, 124, 126, 128, 130, 131, 132, 64, 94, 90, 134, 117, 36, 93]
def gHi11 : List Nat := [94, 90, 101, 113, 119, 121, 122, 125, 125, 128, 130, 131, 133, 134, 65, 95, 92, 136, 119, 37, 94]
def gHi12 : List Nat := [95, 91, 101, 114, 120, 122, 124, 126, 127, 129, 131, 133, 134, 136, 66, 96, 93, 137, 120, 37, 95]
def gHi13 : List Nat := [96, 92, 101, 115, 121, 124, 125, 127, 128, 130, 132, 134, 136, 137, 67, 97, 93, 139, 122, 37, 96]
def gHi14 : List Nat := [54, 47, 63, 60, 60, 68, 69, 62, 62, 63, 64, 65, 66, 67, 33, 47, 48, 67, 59, 18, 47]
def gHi15 : List Nat := [72, 66, 81, 82, 86, 88, 88, 90, 91, 92, 94, 95, 96, 97, 47, 69, 66, 98, 86, 27, 68]
def gHi16 : List Nat := [69, 63, 96, 79, 83, 84, 85, 87, 87, 89, 90, 92, 93, 93, 48, 66, 64, 95, 83, 26, 66]
def gHi17 : List Nat := [87, 81, 107, 97, 123, 125, 126, 129, 129, 132, 134, 136, 137, 139, 67, 98, 95, 140, 122, 38, 98]
def gHi18 : List Nat := [87, 77, 99, 99, 107, 109, 110, 112, 113, 116, 117, 119, 120, 122, 59, 86, 83, 122, 107, 33, 85]
def gHi19 : List Nat := [28, 25, 31, 31, 33, 34, 34, 35, 35, 36, 36, 37, 37, 37, 18, 27, 26, 38, 33, 10, 26]
def gHi20 : List Nat := [72, 65, 81, 81, 85, 87, 88, 90, 90, 92, 93, 94, 95, 96, 47, 68, 66, 98, 85, 26, 68]
def gHi : List (List Nat) := [gHi0, gHi1, gHi2, gHi3, gHi4, gHi5, gHi6, gHi7, gHi8, gHi9, gHi10, gHi11, gHi12, gHi13, gHi14, gHi15, gHi16,
  gHi17, gHi18, gHi19, gHi20]
def gLo0 : List Nat := [61, 54, 67, 69, 72, 75, 74, 76, 76, 82, 74, 75, 76, 77, 43, 58, 55, 70, 70, 22, 57]
def gLo1 : List Nat := [54, 49, 63, 61, 63, 65, 66, 67, 67, 70, 71, 72, 73, 74, 37, 53, 50, 65, 62, 20, 52]
def gLo2 : List Nat := [67, 63, 77, 74, 80, 79, 80, 73, 80, 81, 81, 81, 81, 81, 50, 65, 77, 86, 79, 25, 65]
def gLo3 : List Nat := [69, 61, 74, 78, 83, 83, 85, 86, 86, 88, 89, 91, 92, 92, 48, 65, 63, 78, 79, 25, 65]
def gLo4 : List Nat := [72, 63, 80, 83, 86, 88, 89, 90, 91, 93, 94, 95, 96, 97, 48, 69, 66, 98, 86, 26, 68]
def gLo5 : List Nat := [75, 65, 79, 83, 88, 90, 90, 92, 93, 95, 96, 97, 98, 99, 55, 70, 67, 101, 88, 26, 70]
def gLo6 : List Nat := [74, 66, 80, 85, 89, 90, 91, 93, 94, 96, 97, 98, 99, 100, 55, 71, 68, 102, 88, 27, 70]
def gLo7 : List Nat := [76, 67, 73, 86, 90, 92, 93, 95, 95, 97, 99, 100, 101, 102, 49, 72, 70, 104, 90, 27, 72]
def gLo8 : List Nat := [76, 67, 80, 86, 91, 93, 94, 95, 96, 98, 99, 101, 102, 103, 49, 73, 70, 104, 91, 27, 72]
def gLo9 : List Nat := [82, 70, 81, 88, 93, 95, 96, 97, 98, 100, 101, 103, 104, 105, 51, 74, 71, 106, 93, 28, 74]
def gLo10 : List Nat := [74, 71, 81, 89, 94, 96, 97, 99, 99, 101, 103, 104, 105, 106, 51, 75, 72, 108, 94, 28, 75]
def gLo11 : List Nat := [75, 72, 81, 91, 95, 97, 98, 100, 101, 103, 104, 106, 107, 108, 52, 76, 73, 109, 96, 29, 76]
def gLo12 : List Nat := [76, 73, 81, 92, 96, 98, 99, 101, 102, 104, 105, 107, 108, 109, 53, 77, 74, 110, 97, 29, 77]
def gLo13 : List Nat := [77, 74, 81, 92, 97, 99, 100, 102, 103, 105, 106, 108, 109, 110, 53, 78, 75, 111, 98, 29, 77]
def gLo14 : List Nat := [43, 37, 50, 48, 48, 55, 55, 49, 49, 51, 51, 52, 53, 53, 25, 37, 38, 54, 47, 14, 37]
def gLo15 : List Nat := [58, 53, 65, 65, 69, 70, 71, 72, 73, 74, 75, 76, 77, 78, 37, 55, 53, 79, 69, 21, 55]
def gLo16 : List Nat := [55, 50, 77, 63, 66, 67, 68, 70, 70, 71, 72, 73, 74, 75, 38, 53, 51, 76, 66, 20, 53]
def gLo17 : List Nat := [70, 65, 86, 78, 98, 101, 102, 104, 104, 106, 108, 109, 110, 111, 54, 79, 76, 113, 98, 30, 78]
def gLo18 : List Nat := [70, 62, 79, 79, 86, 88, 88, 90, 91, 93, 94, 96, 97, 98, 47, 69, 66, 98, 86, 26, 68]
def gLo19 : List Nat := [22, 20, 25, 25, 26, 26, 27, 27, 27, 28, 28, 29, 29, 29, 14, 21, 20, 30, 26, 8, 21]
def gLo20 : List Nat := [57, 52, 65, 65, 68, 70, 70, 72, 72, 74, 75, 76, 77, 77, 37, 55, 53, 78, 68, 21, 54]
def gLo : List (List Nat) := [gLo0, gLo1, gLo2, gLo3, gLo4, gLo5, gLo6, gLo7, gLo8, gLo9, gLo10, gLo11, gLo12, gLo13, gLo14, gLo15, gLo16,
  gLo17, gLo18, gLo19, gLo20]
def mTab : List Nat := [0, 0, 0, 0, 0, 0, 0, 0, 0, 0, 0, 0, 0, 0, 0, 0, 0, 0, 0, 0, 0, 0, 0, 0, 0, 0, 0, 0, 0, 0, 0, 0, 0, 0, 0, 0, 0, 0, 0,
  0, 0, 0, 0, 0, 0, 0, 0, 0, 0, 0, 0, 0, 0, 0, 88, 285, 488, 698, 916, 1140, 1371, 1610, 1855, 2109, 2370, 2638, 2914, 3199, 3491, 3792,
  4101, 4418, 4745, 5080, 5425, 5779, 6142, 6515, 6899, 7292, 7696, 8111, 8537, 8974, 9422, 9882, 10354, 10839, 11336, 11845, 12367,
  12902, 13450, 14011, 14585, 15171, 15770, 16380, 17002, 17633, 18273, 18921, 19573, 20228, 20882, 21531, 22170, 22793, 23392, 23959,
  24481, 24946, 25339, 25640, 25826, 25871, 25871, 25871, 25871, 25871, 25871, 25871, 25871, 25871, 25871, 25871, 25871, 25871, 25871,
  25871, 25871, 25871, 25871, 25871, 25871, 25871, 25871, 25871, 25871, 25871, 25871, 25871, 25871, 25871, 25871, 25871, 25871, 25871,
  25871, 25871, 25871]
def uTab : List Nat := [3179, 3179, 3179, 3179, 3179, 3179, 3179, 3179, 3179, 3179, 3179, 3179, 3179, 3179, 3179, 3179, 3179, 3179, 3179,
  3179, 3179, 3179, 3179, 3179, 3173, 3161, 3143, 3119, 3089, 3054, 3012, 2965, 2911, 2852, 2787, 2715, 2638, 2555, 2466, 2370, 2269,
  2162, 2048, 1929, 1804, 1672, 1534, 1390, 1240, 1083, 920, 751, 575, 392, 203, 8, 0, 0, 0, 0, 0, 0, 0, 0, 0, 0, 0, 0, 0, 0, 0, 0, 0, 0,
  0, 0, 0, 0, 0, 0, 0, 0, 0, 0, 0, 0, 0, 0, 0, 0, 0, 0, 0, 0, 0, 0, 0, 0, 0, 0, 0, 0, 0, 0, 0, 0, 0, 0, 0, 0, 0, 0, 0]
def k3v : List Nat := [313949, 299774, 307673, 383578, 446005, 512833, 504987, 553162, 560533, 607777, 652794, 695452, 736131, 775079,
  208388, 270924, 305287, 236644, 313848, 215091, 273802]
def k5v : List Nat := [145021, 134274, 140222, 202499, 260355, 328569, 320234, 372753, 381068, 436087, 491240, 545899, 600148, 653998,
  73247, 113435, 138414, 90537, 144943, 77216, 115450]
def e5v : List Nat := [2816623, 993458, 9106713, 9315713, 15345166, 18905728, 20947452, 25557312, 26454809, 32529868, 37836031, 43034346,
  48104470, 53028728, 37733, 1669943, 1144167, 59901921, 15119264, 111, 1565307]
def gamLo : List Nat := [30270, 30270, 67320, 98972, 154149, 223073, 223074, 285014, 285016, 533530, 533528, 533531, 533529, 533532, 30270,
  30270, 30270, 62496, 80850, 30270, 30270]
def gamHi : List Nat := [3259, 3259, 3319, 3259, 7992, 26954, 26954, 48307, 48307, 144103, 144104, 144103, 144104, 144103, 11299, 3258,
  3259, 8978, 3258, 18240, 3258]
def gamAb : List Nat := [150345, 150345, 208351, 312822, 442608, 590951, 590951, 712925, 712927, 1094078, 1094067, 1094076, 1094071,
  1094074, 150345, 150345, 150345, 151061, 237483, 150345, 150345]
def gamK : List Nat := [10516, 10516, 10516, 18851, 28702, 37134, 37134, 45450, 45450, 76122, 76123, 76123, 76121, 76123, 10516, 10516,
  10516, 10516, 10516, 10516, 10516]
def gamU : List Nat := [3966681, 3966681, 17367979, 22272165, 37318954, 52794711, 52794979, 71924012, 71923917, 485319017, 485320915,
  485320660, 485321473, 485319262, 3966681, 3966681, 3966681, 164754414, 5282529, 3966681, 3966681]
def gamG : List Nat := [14420, 14420, 156463, 64880, 139208, 289295, 289298, 365494, 365497, 347678, 405051, 460058, 463924, 467634, 36401,
  18962, 36922, 330487, 86558, 14420, 14419]
def eTab0 : List Nat := [0, 1037, 6810, 3782, 8035, 17049, 18814, 24859, 27451, 34159, 22533, 27065, 31973, 37312, 2961, 768, 1441, 16472,
  4385, 0, 0]
def eTab1 : List Nat := [1037, 2194, 8168, 4020, 6653, 11619, 13417, 16058, 17603, 16512, 19843, 23393, 27197, 31301, 3164, 1823, 2593,
  14715, 4405, 2614, 1051]
def eTab2 : List Nat := [6810, 8168, 34273, 6634, 34011, 42967, 45250, 31151, 53426, 52726, 57992, 63039, 67882, 72541, 8675, 8579, 18115,
  155054, 30923, 14211, 7721]
def eTab3 : List Nat := [3782, 4020, 6634, 13404, 27863, 45615, 56476, 69130, 80643, 77039, 93549, 120023, 141298, 164699, 4541, 4236, 4654,
  34802, 16175, 5961, 3239]
def eTab4 : List Nat := [8035, 6653, 34011, 27863, 47448, 77188, 94948, 122939, 131817, 129206, 165908, 209912, 244305, 281787, 7015, 7737,
  7808, 251709, 38589, 10208, 6503]
def eTab5 : List Nat := [17049, 11619, 42967, 45615, 77188, 123869, 139821, 176700, 186957, 203435, 237643, 295245, 338634, 413909, 10663,
  14439, 13184, 359859, 66958, 18553, 12716]
def eTab6 : List Nat := [18814, 13417, 45250, 56476, 94948, 139821, 157326, 198023, 209055, 228578, 285698, 329312, 404129, 459128, 11694,
  15632, 14770, 402150, 77311, 19615, 14655]
def eTab7 : List Nat := [24859, 16058, 31151, 69130, 122939, 176700, 198023, 247409, 279756, 286907, 355756, 437228, 497395, 562569, 14454,
  20097, 18390, 534681, 101522, 23126, 18903]
def eTab8 : List Nat := [27451, 17603, 53426, 80643, 131817, 186957, 209055, 279756, 293466, 325068, 401430, 458254, 557195, 628519, 15820,
  23178, 20106, 562546, 118137, 25537, 20874]
def eTab9 : List Nat := [34159, 16512, 52726, 77039, 129206, 203435, 228578, 286907, 325068, 330095, 410734, 505713, 576761, 653628, 12344,
  19551, 17851, 612714, 121964, 19446, 18230]
def eTab10 : List Nat := [22533, 19843, 57992, 93549, 165908, 237643, 285698, 355756, 401430, 410734, 507194, 620643, 704397, 794854, 14235,
  25311, 21419, 753474, 147632, 22654, 22418]
def eTab11 : List Nat := [27065, 23393, 63039, 120023, 209912, 295245, 329312, 437228, 458254, 505713, 620643, 705986, 853301, 959258,
  15783, 30254, 26720, 917953, 188712, 24845, 26939]
def eTab12 : List Nat := [31973, 27197, 67882, 141298, 244305, 338634, 404129, 497395, 557195, 576761, 704397, 853301, 961134, 1150213,
  17242, 35620, 31128, 1039734, 221541, 27694, 31836]
def eTab13 : List Nat := [37312, 31301, 72541, 164699, 281787, 413909, 459128, 562569, 628519, 653628, 794854, 959258, 1150213, 1285300,
  18959, 41467, 33780, 1248516, 276314, 30436, 37312]
def eTab14 : List Nat := [2961, 3164, 8675, 4541, 7015, 10663, 11694, 14454, 15820, 12344, 14235, 15783, 17242, 18959, 9011, 2817, 3634,
  13559, 4997, 4613, 1749]
def eTab15 : List Nat := [768, 1823, 8579, 4236, 7737, 14439, 15632, 20097, 23178, 19551, 25311, 30254, 35620, 41467, 2817, 1554, 2239,
  31833, 5222, 1879, 770]
def eTab16 : List Nat := [1441, 2593, 18115, 4654, 7808, 13184, 14770, 18390, 20106, 17851, 21419, 26720, 31128, 33780, 3634, 2239, 2982,
  27791, 5523, 3660, 1455]
def eTab17 : List Nat := [16472, 14715, 155054, 34802, 251709, 359859, 402150, 534681, 562546, 612714, 753474, 917953, 1039734, 1248516,
  13559, 31833, 27791, 929116036, 3216253, 20830, 30043]
def eTab18 : List Nat := [4385, 4405, 30923, 16175, 38589, 66958, 77311, 101522, 118137, 121964, 147632, 188712, 221541, 276314, 4997, 5222,
  5523, 3216253, 110622, 6397, 4075]
def eTab19 : List Nat := [0, 2614, 14211, 5961, 10208, 18553, 19615, 23126, 25537, 19446, 22654, 24845, 27694, 30436, 4613, 1879, 3660,
  20830, 6397, 0, 0]
def eTab20 : List Nat := [0, 1051, 7721, 3239, 6503, 12716, 14655, 18903, 20874, 18230, 22418, 26939, 31836, 37312, 1749, 770, 1455, 30043,
  4075, 0, 0]
def eTab : List (List Nat) := [eTab0, eTab1, eTab2, eTab3, eTab4, eTab5, eTab6, eTab7, eTab8, eTab9, eTab10, eTab11, eTab12, eTab13, eTab14,
  eTab15, eTab16, eTab17, eTab18, eTab19, eTab20]
def aTab : List Nat := [1539, 1676, 1819, 1968, 2124, 2285, 2452, 2625, 2804, 2990, 3181, 3378, 3581, 3791, 4006, 4227, 4455, 4688, 4928,
  5173, 5425, 5683, 5947, 6217, 6493, 6775, 7064, 7358, 7659, 7966, 8280, 8599, 8925, 9258, 9596, 9941, 10293, 10651, 11015, 11387, 11764,
  12149, 12540, 12938, 13342, 13754, 14172, 14598, 15031, 15471, 15918, 16372, 16834, 17304, 17781, 18266, 18759, 19260, 19768, 20286,
  20811, 21346, 21888, 22440, 23001, 23571, 24150, 24739, 25338, 25947, 26566, 27195, 27835, 28486, 29148, 29822, 30507, 31205, 31915,
  32637, 33373, 34122, 34885, 35662, 36454, 37261, 38084, 38923, 39778, 40652, 41544, 42455, 43386, 44338, 45312, 46311, 47334, 48385,
  49465, 50577, 51723, 52907, 54133, 55405, 56730, 58113, 59561, 61085, 62695, 64403, 66224, 68176, 70279, 72558, 75041, 77763, 80764,
  84090, 87797, 91949, 96623, 101906, 107904, 114736, 122546, 131498, 141784, 153629, 167291, 183074, 201325, 222451, 246920, 275273,
  308135, 346228, 390380, 441549, 500832, 569491, 648974, 740940, 847290, 970198, 1112150, 1275983, 1464935, 1682697, 1933474, 2222048,
  2553857]


end Aga8.Detail.Ng
