import Mathlib.Data.Rat.Defs

/-! # Constants of AGA 8 DETAIL: frozen copy of the crate's numbers

Not an independent source: the numbers are those of /repo/src/detail.rs, and the report was not available. Only the layout
is that of the report (AGA Report No. 8; ISO 12213-2, Annex B): one row per term, one row per component, one row per
pair of components with a binary parameter other than 1. Written by tools/gen_aga8_tables.py. -/

namespace Aga8.Eos

/-- A term: `a_n, b_n, k_n, u_n` and the flags `g_n, q_n, f_n, s_n, w_n`. -/
structure Term where
  a : ℚ
  b : ℕ
  k : ℕ
  u : ℚ
  g : ℕ
  q : ℕ
  f : ℕ
  s : ℕ
  w : ℕ
deriving Inhabited

/-- A component: molar mass, energy, size, orientation, quadrupole, high temperature, dipole and association parameters. -/
structure Component where
  M : ℚ
  E : ℚ
  K : ℚ
  G : ℚ
  Q : ℚ
  F : ℚ
  S : ℚ
  W : ℚ
deriving Inhabited

/-- The 58 terms. -/
def terms : List Term := [
  ⟨0.1538326, 1, 0, 0, 0, 0, 0, 0, 0⟩,
  ⟨1.341953, 1, 0, 0.5, 0, 0, 0, 0, 0⟩,
  ⟨-2.998583, 1, 0, 1, 0, 0, 0, 0, 0⟩,
  ⟨-0.04831228, 1, 0, 3.5, 0, 0, 0, 0, 0⟩,
  ⟨0.3757965, 1, 0, -0.5, 1, 0, 0, 0, 0⟩,
  ⟨-1.589575, 1, 0, 4.5, 1, 0, 0, 0, 0⟩,
  ⟨-0.05358847, 1, 0, 0.5, 0, 1, 0, 0, 0⟩,
  ⟨0.88659463, 1, 0, 7.5, 0, 0, 0, 1, 0⟩,
  ⟨-0.71023704, 1, 0, 9.5, 0, 0, 0, 1, 0⟩,
  ⟨-1.471722, 1, 0, 6, 0, 0, 0, 0, 1⟩,
  ⟨1.32185035, 1, 0, 12, 0, 0, 0, 0, 1⟩,
  ⟨-0.78665925, 1, 0, 12.5, 0, 0, 0, 0, 1⟩,
  ⟨0.00000000229129, 1, 3, -6, 0, 0, 1, 0, 0⟩,
  ⟨0.1576724, 1, 2, 2, 0, 0, 0, 0, 0⟩,
  ⟨-0.4363864, 1, 2, 3, 0, 0, 0, 0, 0⟩,
  ⟨-0.04408159, 1, 2, 2, 0, 1, 0, 0, 0⟩,
  ⟨-0.003433888, 1, 4, 2, 0, 0, 0, 0, 0⟩,
  ⟨0.03205905, 1, 4, 11, 0, 0, 0, 0, 0⟩,
  ⟨0.02487355, 2, 0, -0.5, 0, 0, 0, 0, 0⟩,
  ⟨0.07332279, 2, 0, 0.5, 0, 0, 0, 0, 0⟩,
  ⟨-0.001600573, 2, 2, 0, 0, 0, 0, 0, 0⟩,
  ⟨0.6424706, 2, 2, 4, 0, 0, 0, 0, 0⟩,
  ⟨-0.4162601, 2, 2, 6, 0, 0, 0, 0, 0⟩,
  ⟨-0.06689957, 2, 4, 21, 0, 0, 0, 0, 0⟩,
  ⟨0.2791795, 2, 4, 23, 1, 0, 0, 0, 0⟩,
  ⟨-0.6966051, 2, 4, 22, 0, 1, 0, 0, 0⟩,
  ⟨-0.002860589, 2, 4, -1, 0, 0, 1, 0, 0⟩,
  ⟨-0.008098836, 3, 0, -0.5, 0, 1, 0, 0, 0⟩,
  ⟨3.150547, 3, 1, 7, 1, 0, 0, 0, 0⟩,
  ⟨0.007224479, 3, 1, -1, 0, 0, 1, 0, 0⟩,
  ⟨-0.7057529, 3, 2, 6, 0, 0, 0, 0, 0⟩,
  ⟨0.5349792, 3, 2, 4, 1, 0, 0, 0, 0⟩,
  ⟨-0.07931491, 3, 3, 1, 1, 0, 0, 0, 0⟩,
  ⟨-1.418465, 3, 3, 9, 1, 0, 0, 0, 0⟩,
  ⟨-0.0000000000000000599905, 3, 4, -13, 0, 0, 1, 0, 0⟩,
  ⟨0.1058402, 3, 4, 21, 0, 0, 0, 0, 0⟩,
  ⟨0.03431729, 3, 4, 8, 0, 1, 0, 0, 0⟩,
  ⟨-0.007022847, 4, 0, -0.5, 0, 0, 0, 0, 0⟩,
  ⟨0.02495587, 4, 0, 0, 0, 0, 0, 0, 0⟩,
  ⟨0.04296818, 4, 2, 2, 0, 0, 0, 0, 0⟩,
  ⟨0.7465453, 4, 2, 7, 0, 0, 0, 0, 0⟩,
  ⟨-0.2919613, 4, 2, 9, 0, 1, 0, 0, 0⟩,
  ⟨7.294616, 4, 4, 22, 0, 0, 0, 0, 0⟩,
  ⟨-9.936757, 4, 4, 23, 0, 0, 0, 0, 0⟩,
  ⟨-0.005399808, 5, 0, 1, 0, 0, 0, 0, 0⟩,
  ⟨-0.2432567, 5, 2, 9, 0, 0, 0, 0, 0⟩,
  ⟨0.04987016, 5, 2, 3, 0, 1, 0, 0, 0⟩,
  ⟨0.003733797, 5, 4, 8, 0, 0, 0, 0, 0⟩,
  ⟨1.874951, 5, 4, 23, 0, 1, 0, 0, 0⟩,
  ⟨0.002168144, 6, 0, 1.5, 0, 0, 0, 0, 0⟩,
  ⟨-0.6587164, 6, 2, 5, 1, 0, 0, 0, 0⟩,
  ⟨0.000205518, 7, 0, -0.5, 0, 1, 0, 0, 0⟩,
  ⟨0.009776195, 7, 2, 4, 0, 0, 0, 0, 0⟩,
  ⟨-0.02048708, 8, 1, 7, 1, 0, 0, 0, 0⟩,
  ⟨0.01557322, 8, 2, 3, 0, 0, 0, 0, 0⟩,
  ⟨0.006862415, 8, 2, 0, 1, 0, 0, 0, 0⟩,
  ⟨-0.001226752, 9, 2, 1, 0, 0, 0, 0, 0⟩,
  ⟨0.002850908, 9, 2, 0, 0, 1, 0, 0, 0⟩]

/-- The 21 components, methane to argon. -/
def components : List Component := [
  ⟨16.043, 151.3183, 0.4619255, 0, 0, 0, 0, 0⟩,
  ⟨28.0135, 99.73778, 0.4479153, 0.027815, 0, 0, 0, 0⟩,
  ⟨44.01, 241.9606, 0.4557489, 0.189065, 0.69, 0, 0, 0⟩,
  ⟨30.07, 244.1667, 0.5279209, 0.0793, 0, 0, 0, 0⟩,
  ⟨44.097, 298.1183, 0.583749, 0.141239, 0, 0, 0, 0⟩,
  ⟨58.123, 324.0689, 0.6406937, 0.256692, 0, 0, 0, 0⟩,
  ⟨58.123, 337.6389, 0.6341423, 0.281835, 0, 0, 0, 0⟩,
  ⟨72.15, 365.5999, 0.6738577, 0.332267, 0, 0, 0, 0⟩,
  ⟨72.15, 370.6823, 0.6798307, 0.366911, 0, 0, 0, 0⟩,
  ⟨86.177, 402.636293, 0.7175118, 0.289731, 0, 0, 0, 0⟩,
  ⟨100.204, 427.72263, 0.7525189, 0.337542, 0, 0, 0, 0⟩,
  ⟨114.231, 450.325022, 0.784955, 0.383381, 0, 0, 0, 0⟩,
  ⟨128.258, 470.840891, 0.8152731, 0.427354, 0, 0, 0, 0⟩,
  ⟨142.285, 489.558373, 0.8437826, 0.469659, 0, 0, 0, 0⟩,
  ⟨2.0159, 26.95794, 0.3514916, 0.034369, 0, 1, 0, 0⟩,
  ⟨31.9988, 122.7667, 0.4186954, 0.021, 0, 0, 0, 0⟩,
  ⟨28.01, 105.5348, 0.4533894, 0.038953, 0, 0, 0, 0⟩,
  ⟨18.0153, 514.0156, 0.3825868, 0.3325, 1.06775, 0, 1.5822, 1⟩,
  ⟨34.082, 296.355, 0.4618263, 0.0885, 0.633276, 0, 0.39, 0⟩,
  ⟨4.0026, 2.610111, 0.3589888, 0, 0, 0, 0, 0⟩,
  ⟨39.948, 119.6299, 0.4216551, 0, 0, 0, 0, 0⟩]

/-- The pairs: the two components, numbered from 1, and `E*, U, K, G*`. -/
def pairs : List (ℕ × ℕ × ℚ × ℚ × ℚ × ℚ) := [
  (1, 2, 0.97164, 0.886106, 1.00363, 1),
  (1, 3, 0.960644, 0.963827, 0.995933, 0.807653),
  (1, 5, 0.994635, 0.990877, 1.007619, 1),
  (1, 6, 1.01953, 1, 1, 1),
  (1, 7, 0.989844, 0.992291, 0.997596, 1),
  (1, 8, 1.00235, 1, 1, 1),
  (1, 9, 0.999268, 1.00367, 1.002529, 1),
  (1, 10, 1.107274, 1.302576, 0.982962, 1),
  (1, 11, 0.88088, 1.191904, 0.983565, 1),
  (1, 12, 0.880973, 1.205769, 0.982707, 1),
  (1, 13, 0.881067, 1.219634, 0.981849, 1),
  (1, 14, 0.881161, 1.233498, 0.980991, 1),
  (1, 15, 1.17052, 1.15639, 1.02326, 1.95731),
  (1, 17, 0.990126, 1, 1, 1),
  (1, 18, 0.708218, 1, 1, 1),
  (1, 19, 0.931484, 0.736833, 1.00008, 1),
  (2, 3, 1.02274, 0.835058, 0.982361, 0.982746),
  (2, 4, 0.97012, 0.816431, 1.00796, 1),
  (2, 5, 0.945939, 0.915502, 1, 1),
  (2, 6, 0.946914, 1, 1, 1),
  (2, 7, 0.973384, 0.993556, 1, 1),
  (2, 8, 0.95934, 1, 1, 1),
  (2, 9, 0.94552, 1, 1, 1),
  (2, 15, 1.08632, 0.408838, 1.03227, 1),
  (2, 16, 1.021, 1, 1, 1),
  (2, 17, 1.00571, 1, 1, 1),
  (2, 18, 0.746954, 1, 1, 1),
  (2, 19, 0.902271, 0.993476, 0.942596, 1),
  (3, 4, 0.925053, 0.96987, 1.00851, 0.370296),
  (3, 5, 0.960237, 1, 1, 1),
  (3, 6, 0.906849, 1, 1, 1),
  (3, 7, 0.897362, 1, 1, 1),
  (3, 8, 0.726255, 1, 1, 1),
  (3, 9, 0.859764, 1, 1, 1),
  (3, 10, 0.855134, 1.066638, 0.910183, 1),
  (3, 11, 0.831229, 1.077634, 0.895362, 1),
  (3, 12, 0.80831, 1.088178, 0.881152, 1),
  (3, 13, 0.786323, 1.098291, 0.86752, 1),
  (3, 14, 0.765171, 1.108021, 0.854406, 1),
  (3, 15, 1.28179, 1, 1, 1),
  (3, 17, 1.5, 0.9, 1, 1),
  (3, 18, 0.849408, 1, 1, 1.67309),
  (3, 19, 0.955052, 1.04529, 1.00779, 1),
  (4, 5, 1.02256, 1.065173, 0.986893, 1),
  (4, 6, 1, 1.25, 1, 1),
  (4, 7, 1.01306, 1.25, 1, 1),
  (4, 8, 1, 1.25, 1, 1),
  (4, 9, 1.00532, 1.25, 1, 1),
  (4, 15, 1.16446, 1.61666, 1.02034, 1),
  (4, 18, 0.693168, 1, 1, 1),
  (4, 19, 0.946871, 0.971926, 0.999969, 1),
  (5, 7, 1.0049, 1, 1, 1),
  (5, 15, 1.034787, 1, 1, 1),
  (6, 15, 1.3, 1, 1, 1),
  (7, 15, 1.3, 1, 1, 1),
  (10, 19, 1.008692, 1.028973, 0.96813, 1),
  (11, 19, 1.010126, 1.033754, 0.96287, 1),
  (12, 19, 1.011501, 1.038338, 0.957828, 1),
  (13, 19, 1.012821, 1.042735, 0.952441, 1),
  (14, 19, 1.014089, 1.046966, 0.948338, 1),
  (15, 17, 1.1, 1, 1, 1)]

end Aga8.Eos
