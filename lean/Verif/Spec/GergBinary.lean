import Mathlib.Data.Rat.Defs

/-! # Binary parameters of the GERG-2008 reducing functions

One row per pair `i < j` of components: `(i, j, β_v, γ_v, β_T, γ_T)`, in the layout of the table published
with the equation of state. Not an independent source: the numbers are those assigned at src/gerg2008.rs:3340-4182, with 1 where the
program assigns nothing. Written by tools/gen_binary.py. -/

namespace Aga8.GergEos

/-- The binary parameters, as assigned in the crate. -/
def binary : List (Nat × Nat × ℚ × ℚ × ℚ × ℚ) := [
  (1, 2, 0.998721377, 1.013950311, 0.99809883, 0.979273013),
  (1, 3, 0.999518072, 1.002806594, 1.02262449, 0.975665369),
  (1, 4, 0.997547866, 1.006617867, 0.996336508, 1.049707697),
  (1, 5, 1.00482707, 1.038470657, 0.989680305, 1.098655531),
  (1, 6, 1.011240388, 1.054319053, 0.980315756, 1.161117729),
  (1, 7, 0.979105972, 1.045375122, 0.99417491, 1.171607691),
  (1, 8, 1.0, 1.343685343, 1.0, 1.188899743),
  (1, 9, 0.94833012, 1.124508039, 0.992127525, 1.249173968),
  (1, 10, 0.958015294, 1.052643846, 0.981844797, 1.330570181),
  (1, 11, 0.962050831, 1.156655935, 0.977431529, 1.379850328),
  (1, 12, 0.994740603, 1.116549372, 0.957473785, 1.449245409),
  (1, 13, 1.002852287, 1.141895355, 0.947716769, 1.528532478),
  (1, 14, 1.033086292, 1.146089637, 0.937777823, 1.568231489),
  (1, 15, 1.0, 1.018702573, 1.0, 1.352643115),
  (1, 16, 1.0, 1.0, 1.0, 0.95),
  (1, 17, 0.997340772, 1.006102927, 0.987411732, 0.987473033),
  (1, 18, 1.012783169, 1.585018334, 1.063333913, 0.775810513),
  (1, 19, 1.012599087, 1.040161207, 1.011090031, 0.961155729),
  (1, 20, 1.0, 0.881405683, 1.0, 3.159776855),
  (1, 21, 1.034630259, 1.014678542, 0.990954281, 0.989843388),
  (2, 3, 0.977794634, 1.047578256, 1.005894529, 1.107654104),
  (2, 4, 0.978880168, 1.042352891, 1.007671428, 1.098650964),
  (2, 5, 0.974424681, 1.081025408, 1.002677329, 1.201264026),
  (2, 6, 0.98641583, 1.100576129, 0.99286813, 1.284462634),
  (2, 7, 0.99608261, 1.146949309, 0.994515234, 1.304886838),
  (2, 8, 1.0, 1.154135439, 1.0, 1.38177077),
  (2, 9, 1.0, 1.078877166, 1.0, 1.419029041),
  (2, 10, 1.0, 1.195952177, 1.0, 1.472607971),
  (2, 11, 1.0, 1.40455409, 1.0, 1.520975334),
  (2, 12, 1.0, 1.186067025, 1.0, 1.733280051),
  (2, 13, 1.0, 1.100405929, 0.95637945, 1.749119996),
  (2, 14, 1.0, 1.0, 0.957934447, 1.822157123),
  (2, 15, 0.972532065, 0.970115357, 0.946134337, 1.175696583),
  (2, 16, 0.99952177, 0.997082328, 0.997190589, 0.995157044),
  (2, 17, 1.0, 1.008690943, 1.0, 0.993425388),
  (2, 18, 1.0, 1.094749685, 1.0, 0.968808467),
  (2, 19, 0.910394249, 1.256844157, 1.004692366, 0.9601742),
  (2, 20, 0.969501055, 0.932629867, 0.692868765, 1.47183158),
  (2, 21, 1.004166412, 1.002212182, 0.999069843, 0.990034831),
  (3, 4, 1.002525718, 1.032876701, 1.013871147, 0.90094953),
  (3, 5, 0.996898004, 1.047596298, 1.033620538, 0.908772477),
  (3, 6, 1.076551882, 1.081909003, 1.023339824, 0.929982936),
  (3, 7, 1.174760923, 1.222437324, 1.018171004, 0.911498231),
  (3, 8, 1.060793104, 1.116793198, 1.019180957, 0.961218039),
  (3, 9, 1.024311498, 1.068406078, 1.027000795, 0.979217302),
  (3, 10, 1.0, 0.851343711, 1.0, 1.038675574),
  (3, 11, 1.205469976, 1.164585914, 1.011806317, 1.046169823),
  (3, 12, 1.026169373, 1.104043935, 1.02969078, 1.074455386),
  (3, 13, 1.0, 0.973386152, 1.00768862, 1.140671202),
  (3, 14, 1.000151132, 1.183394668, 1.02002879, 1.145512213),
  (3, 15, 0.904142159, 1.15279255, 0.942320195, 1.782924792),
  (3, 16, 1.0, 1.0, 1.0, 1.0),
  (3, 17, 1.0, 1.0, 1.0, 1.0),
  (3, 18, 0.949055959, 1.542328793, 0.997372205, 0.775453996),
  (3, 19, 0.906630564, 1.024085837, 1.016034583, 0.92601888),
  (3, 20, 0.846647561, 0.864141549, 0.76837763, 3.207456948),
  (3, 21, 1.008392428, 1.029205465, 0.996512863, 1.050971635),
  (4, 5, 0.997607277, 1.00303472, 0.996199694, 1.01473019),
  (4, 6, 1.0, 1.006616886, 1.0, 1.033283811),
  (4, 7, 0.999157205, 1.006179146, 0.999130554, 1.034832749),
  (4, 8, 1.0, 1.045439935, 1.0, 1.021150247),
  (4, 9, 0.993851009, 1.026085655, 0.998688946, 1.066665676),
  (4, 10, 1.0, 1.169701102, 1.0, 1.092177796),
  (4, 11, 1.0, 1.057666085, 1.0, 1.134532014),
  (4, 12, 1.007469726, 1.071917985, 0.984068272, 1.168636194),
  (4, 13, 1.0, 1.14353473, 1.0, 1.05603303),
  (4, 14, 0.995676258, 1.098361281, 0.970918061, 1.237191558),
  (4, 15, 0.925367171, 1.10607204, 0.932969831, 1.902008495),
  (4, 16, 1.0, 1.0, 1.0, 1.0),
  (4, 17, 1.0, 1.201417898, 1.0, 1.069224728),
  (4, 18, 1.0, 1.0, 1.0, 1.0),
  (4, 19, 1.010817909, 1.030988277, 0.990197354, 0.90273666),
  (4, 20, 1.0, 1.0, 1.0, 1.0),
  (4, 21, 1.0, 1.0, 1.0, 1.0),
  (5, 6, 0.999243146, 1.001156119, 0.998012298, 1.005250774),
  (5, 7, 0.999795868, 1.003264179, 1.000310289, 1.007392782),
  (5, 8, 1.040459289, 0.999432118, 0.994364425, 1.0032695),
  (5, 9, 1.044919431, 1.019921513, 0.996484021, 1.008344412),
  (5, 10, 1.0, 1.057872566, 1.0, 1.025657518),
  (5, 11, 1.0, 1.079648053, 1.0, 1.050044169),
  (5, 12, 1.0, 1.102764612, 1.0, 1.063694129),
  (5, 13, 1.0, 1.199769134, 1.0, 1.109973833),
  (5, 14, 0.984104227, 1.053040574, 0.985331233, 1.140905252),
  (5, 15, 1.0, 1.07400611, 1.0, 2.308215191),
  (5, 16, 1.0, 1.0, 1.0, 1.0),
  (5, 17, 1.0, 1.108143673, 1.0, 1.197564208),
  (5, 18, 1.0, 1.011759763, 1.0, 0.600340961),
  (5, 19, 0.936811219, 1.010593999, 0.992573556, 0.905829247),
  (5, 20, 1.0, 1.0, 1.0, 1.0),
  (5, 21, 1.0, 1.0, 1.0, 1.0),
  (6, 7, 0.999120311, 1.00041444, 0.999922459, 1.001432824),
  (6, 8, 1.0, 1.002284353, 1.0, 1.001835788),
  (6, 9, 1.0, 1.002779804, 1.0, 1.002495889),
  (6, 10, 1.0, 1.010493989, 1.0, 1.006018054),
  (6, 11, 1.0, 1.021668316, 1.0, 1.00988576),
  (6, 12, 1.0, 1.032807063, 1.0, 1.013945424),
  (6, 13, 1.0, 1.047298475, 1.0, 1.017817492),
  (6, 14, 1.0, 1.060243344, 1.0, 1.021624748),
  (6, 15, 1.0, 1.147595688, 1.0, 1.895305393),
  (6, 16, 1.0, 1.0, 1.0, 1.0),
  (6, 17, 1.0, 1.087272232, 1.0, 1.161390082),
  (6, 18, 1.0, 1.0, 1.0, 1.0),
  (6, 19, 1.012994431, 0.988591117, 0.974550548, 0.937130844),
  (6, 20, 1.0, 1.0, 1.0, 1.0),
  (6, 21, 1.0, 1.0, 1.0, 1.0),
  (7, 8, 1.0, 1.002728434, 1.0, 1.000792201),
  (7, 9, 1.0, 1.01815965, 1.0, 1.002143640),
  (7, 10, 1.0, 1.034995284, 1.0, 1.00915706),
  (7, 11, 1.0, 1.019174227, 1.0, 1.021283378),
  (7, 12, 1.0, 1.046905515, 1.0, 1.033180106),
  (7, 13, 1.0, 1.049219137, 1.0, 1.014096448),
  (7, 14, 0.976951968, 1.027845529, 0.993688386, 1.076466918),
  (7, 15, 1.0, 1.232939523, 1.0, 2.509259945),
  (7, 16, 1.0, 1.0, 1.0, 1.0),
  (7, 17, 1.0, 1.084740904, 1.0, 1.173916162),
  (7, 18, 1.0, 1.223638763, 1.0, 0.615512682),
  (7, 19, 0.908113163, 1.033366041, 0.985962886, 0.926156602),
  (7, 20, 1.0, 1.0, 1.0, 1.0),
  (7, 21, 1.0, 1.214638734, 1.0, 1.245039498),
  (8, 9, 1.0, 1.000024335, 1.0, 1.000050537),
  (8, 10, 1.0, 1.002995876, 1.0, 1.001204174),
  (8, 11, 1.0, 1.009928206, 1.0, 1.003194615),
  (8, 12, 1.0, 1.017880545, 1.0, 1.00564748),
  (8, 13, 1.0, 1.028994325, 1.0, 1.008191499),
  (8, 14, 1.0, 1.039372957, 1.0, 1.010825138),
  (8, 15, 1.0, 1.184340443, 1.0, 1.996386669),
  (8, 16, 1.0, 1.0, 1.0, 1.0),
  (8, 17, 1.0, 1.116694577, 1.0, 1.199326059),
  (8, 18, 1.0, 1.0, 1.0, 1.0),
  (8, 19, 1.0, 0.835763343, 1.0, 0.982651529),
  (8, 20, 1.0, 1.0, 1.0, 1.0),
  (8, 21, 1.0, 1.0, 1.0, 1.0),
  (9, 10, 1.0, 1.002480637, 1.0, 1.000761237),
  (9, 11, 1.0, 1.008972412, 1.0, 1.002441051),
  (9, 12, 1.0, 1.069223964, 1.0, 1.016422347),
  (9, 13, 1.0, 1.034910633, 1.0, 1.103421755),
  (9, 14, 1.0, 1.016370338, 1.0, 1.049035838),
  (9, 15, 1.0, 1.188334783, 1.0, 2.013859174),
  (9, 16, 1.0, 1.0, 1.0, 1.0),
  (9, 17, 1.0, 1.119954454, 1.0, 1.206043295),
  (9, 18, 1.0, 0.95667731, 1.0, 0.447666011),
  (9, 19, 0.984613203, 1.076539234, 0.962006651, 0.959065662),
  (9, 20, 1.0, 1.0, 1.0, 1.0),
  (9, 21, 1.0, 1.0, 1.0, 1.0),
  (10, 11, 1.0, 1.001508227, 1.0, 0.999762786),
  (10, 12, 1.0, 1.006268954, 1.0, 1.001633952),
  (10, 13, 1.0, 1.02076168, 1.0, 1.055369591),
  (10, 14, 1.001516371, 1.013511439, 0.99764101, 1.028939539),
  (10, 15, 1.0, 1.243461678, 1.0, 3.021197546),
  (10, 16, 1.0, 1.0, 1.0, 1.0),
  (10, 17, 1.0, 1.155145836, 1.0, 1.233272781),
  (10, 18, 1.0, 1.170217596, 1.0, 0.569681333),
  (10, 19, 0.754473958, 1.339283552, 0.985891113, 0.956075596),
  (10, 20, 1.0, 1.0, 1.0, 1.0),
  (10, 21, 1.0, 1.0, 1.0, 1.0),
  (11, 12, 1.0, 1.006767176, 1.0, 0.998793111),
  (11, 13, 1.0, 1.001370076, 1.0, 1.001150096),
  (11, 14, 1.0, 1.002972346, 1.0, 1.002229938),
  (11, 15, 1.0, 1.159131722, 1.0, 3.169143057),
  (11, 16, 1.0, 1.0, 1.0, 1.0),
  (11, 17, 1.0, 1.190354273, 1.0, 1.256123503),
  (11, 18, 1.0, 1.0, 1.0, 1.0),
  (11, 19, 0.828967164, 1.087956749, 0.988937417, 1.013453092),
  (11, 20, 1.0, 1.0, 1.0, 1.0),
  (11, 21, 1.0, 1.0, 1.0, 1.0),
  (12, 13, 1.0, 1.001357085, 1.0, 1.000235044),
  (12, 14, 1.0, 1.002553544, 1.0, 1.007186267),
  (12, 15, 1.0, 1.305249405, 1.0, 2.191555216),
  (12, 16, 1.0, 1.0, 1.0, 1.0),
  (12, 17, 1.0, 1.219206702, 1.0, 1.276565536),
  (12, 18, 1.0, 0.599484191, 1.0, 0.662072469),
  (12, 19, 1.0, 1.0, 1.0, 1.0),
  (12, 20, 1.0, 1.0, 1.0, 1.0),
  (12, 21, 1.0, 1.0, 1.0, 1.0),
  (13, 14, 1.0, 1.00081052, 1.0, 1.000182392),
  (13, 15, 1.0, 1.342647661, 1.0, 2.23435404),
  (13, 16, 1.0, 1.0, 1.0, 1.0),
  (13, 17, 1.0, 1.252151449, 1.0, 1.294070556),
  (13, 18, 1.0, 1.0, 1.0, 1.0),
  (13, 19, 1.0, 1.082905109, 1.0, 1.086557826),
  (13, 20, 1.0, 1.0, 1.0, 1.0),
  (13, 21, 1.0, 1.0, 1.0, 1.0),
  (14, 15, 1.695358382, 1.120233729, 1.064818089, 3.786003724),
  (14, 16, 1.0, 1.0, 1.0, 1.0),
  (14, 17, 1.0, 0.87018496, 1.049594632, 1.803567587),
  (14, 18, 1.0, 0.551405318, 0.897162268, 0.740416402),
  (14, 19, 0.975187766, 1.171714677, 0.973091413, 1.103693489),
  (14, 20, 1.0, 1.0, 1.0, 1.0),
  (14, 21, 1.0, 1.0, 1.0, 1.0),
  (15, 16, 1.0, 1.0, 1.0, 1.0),
  (15, 17, 1.0, 1.121416201, 1.0, 1.377504607),
  (15, 18, 1.0, 1.0, 1.0, 1.0),
  (15, 19, 1.0, 1.0, 1.0, 1.0),
  (15, 20, 1.0, 1.0, 1.0, 1.0),
  (15, 21, 1.0, 1.0, 1.0, 1.0),
  (16, 17, 1.0, 1.0, 1.0, 1.0),
  (16, 18, 1.0, 1.143174289, 1.0, 0.964767932),
  (16, 19, 1.0, 1.0, 1.0, 1.0),
  (16, 20, 1.0, 1.0, 1.0, 1.0),
  (16, 21, 0.999746847, 0.993907223, 1.000023103, 0.990430423),
  (17, 18, 1.0, 1.0, 1.0, 1.0),
  (17, 19, 0.795660392, 1.101731308, 1.025536736, 1.022749748),
  (17, 20, 1.0, 1.0, 1.0, 1.0),
  (17, 21, 1.0, 1.159720623, 1.0, 0.954215746),
  (18, 19, 1.0, 1.014832832, 1.0, 0.940587083),
  (18, 20, 1.0, 1.0, 1.0, 1.0),
  (18, 21, 1.0, 1.038993495, 1.0, 1.070941866),
  (19, 20, 1.0, 1.0, 1.0, 1.0),
  (19, 21, 1.0, 1.0, 1.0, 1.0),
  (20, 21, 1.0, 1.0, 1.0, 1.0)]

end Aga8.GergEos
