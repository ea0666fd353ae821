import Mathlib.Data.Rat.Defs

/-! # Coefficients of the GERG-2008 equation of state: frozen copy of the crate's numbers

All numbers below were printed from the model's tables, which tools/gen_tables.py copied from /repo/src/gerg2008.rs, and
were regrouped by tools/gen_gerg_tables.py. They are not an independent source: no publication was available. A theorem
that compares the program with this file checks where each number is used, not whether the number is the published one.

Components 1 to 21: methane, nitrogen, carbon dioxide, ethane, propane, isobutane, n-butane, isopentane, n-pentane,
hexane, heptane, octane, nonane, decane, hydrogen, oxygen, carbon monoxide, water, hydrogen sulfide, helium, argon. -/

namespace Aga8.GergEos

/-- A term `n δ^d τ^t exp(-δ^c)` of a pure fluid (no exponential if `c = 0`). -/
structure PureTerm where
  n : ℚ
  d : ℕ
  t : ℚ
  c : ℕ
deriving Inhabited

/-- A term `n δ^d τ^t exp(-η (δ - ε)^2 - β (δ - γ))` of a departure function. -/
structure DepTerm where
  n : ℚ
  d : ℕ
  t : ℚ
  η : ℚ
  ε : ℚ
  β : ℚ
  γ : ℚ
deriving Inhabited

/-- Ideal-gas coefficients of a fluid: `n4 … n7` with their temperatures `th4 … th7` in K. -/
structure IdealTerms where
  n1 : ℚ
  n2 : ℚ
  n3 : ℚ
  n4 : ℚ
  th4 : ℚ
  n5 : ℚ
  th5 : ℚ
  n6 : ℚ
  th6 : ℚ
  n7 : ℚ
  th7 : ℚ
deriving Inhabited

/-- Residual terms of component 1. -/
def methane : List PureTerm := [
  ⟨0.57335704239162, 1, 0.125, 0⟩, ⟨-1.676068752373, 1, 1.125, 0⟩, ⟨0.23405291834916, 2, 0.375, 0⟩,
  ⟨-0.21947376343441, 2, 1.125, 0⟩, ⟨0.016369201404128, 4, 0.625, 0⟩, ⟨0.01500440638928, 4, 1.5, 0⟩,
  ⟨0.098990489492918, 1, 0.625, 1⟩, ⟨0.58382770929055, 1, 2.625, 1⟩, ⟨-0.7478686756039, 1, 2.75, 1⟩,
  ⟨0.30033302857974, 2, 2.125, 1⟩, ⟨0.20985543806568, 3, 2, 1⟩, ⟨-0.018590151133061, 6, 1.75, 1⟩,
  ⟨-0.15782558339049, 2, 4.5, 2⟩, ⟨0.12716735220791, 3, 4.75, 2⟩, ⟨-0.032019743894346, 3, 5, 2⟩,
  ⟨-0.068049729364536, 4, 4, 2⟩, ⟨0.024291412853736, 4, 4.5, 2⟩, ⟨0.0051440451639444, 2, 7.5, 3⟩,
  ⟨-0.019084949733532, 3, 14, 3⟩, ⟨0.0055229677241291, 4, 11.5, 3⟩, ⟨-0.0044197392976085, 5, 26, 6⟩,
  ⟨0.040061416708429, 6, 28, 6⟩, ⟨-0.033752085907575, 6, 30, 6⟩, ⟨-0.0025127658213357, 7, 16, 6⟩]

/-- Residual terms of component 2. -/
def nitrogen : List PureTerm := [
  ⟨0.59889711801201, 1, 0.125, 0⟩, ⟨-1.6941557480731, 1, 1.125, 0⟩, ⟨0.24579736191718, 2, 0.375, 0⟩,
  ⟨-0.23722456755175, 2, 1.125, 0⟩, ⟨0.017954918715141, 4, 0.625, 0⟩, ⟨0.014592875720215, 4, 1.5, 0⟩,
  ⟨0.10008065936206, 1, 0.625, 1⟩, ⟨0.7315711538553, 1, 2.625, 1⟩, ⟨-0.88372272336366, 1, 2.75, 1⟩,
  ⟨0.31887660246708, 2, 2.125, 1⟩, ⟨0.20766491728799, 3, 2, 1⟩, ⟨-0.019379315454158, 6, 1.75, 1⟩,
  ⟨-0.16936641554983, 2, 4.5, 2⟩, ⟨0.13546846041701, 3, 4.75, 2⟩, ⟨-0.033066712095307, 3, 5, 2⟩,
  ⟨-0.060690817018557, 4, 4, 2⟩, ⟨0.012797548292871, 4, 4.5, 2⟩, ⟨0.0058743664107299, 2, 7.5, 3⟩,
  ⟨-0.018451951971969, 3, 14, 3⟩, ⟨0.0047226622042472, 4, 11.5, 3⟩, ⟨-0.0052024079680599, 5, 26, 6⟩,
  ⟨0.043563505956635, 6, 28, 6⟩, ⟨-0.036251690750939, 6, 30, 6⟩, ⟨-0.0028974026866543, 7, 16, 6⟩]

/-- Residual terms of component 3. -/
def carbonDioxide : List PureTerm := [
  ⟨0.52646564804653, 1, 0, 0⟩, ⟨-1.4995725042592, 1, 1.25, 0⟩, ⟨0.27329786733782, 2, 1.625, 0⟩,
  ⟨0.12949500022786, 3, 0.375, 0⟩, ⟨0.15404088341841, 3, 0.375, 1⟩, ⟨-0.58186950946814, 3, 1.375, 1⟩,
  ⟨-0.18022494838296, 4, 1.125, 1⟩, ⟨-0.095389904072812, 5, 1.375, 1⟩, ⟨-0.0080486819317679, 6, 0.125, 1⟩,
  ⟨-0.03554775127309, 6, 1.625, 1⟩, ⟨-0.28079014882405, 1, 3.75, 2⟩, ⟨-0.082435890081677, 4, 3.5, 2⟩,
  ⟨0.010832427979006, 1, 7.5, 3⟩, ⟨-0.0067073993161097, 1, 8, 3⟩, ⟨-0.0046827907600524, 3, 6, 3⟩,
  ⟨-0.028359911832177, 3, 16, 3⟩, ⟨0.019500174744098, 4, 11, 3⟩, ⟨-0.21609137507166, 5, 24, 5⟩,
  ⟨0.43772794926972, 5, 26, 5⟩, ⟨-0.22130790113593, 5, 28, 5⟩, ⟨0.015190189957331, 5, 24, 6⟩,
  ⟨-0.0153809489533, 5, 26, 6⟩]

/-- Residual terms of component 4. -/
def ethane : List PureTerm := [
  ⟨0.63596780450714, 1, 0.125, 0⟩, ⟨-1.7377981785459, 1, 1.125, 0⟩, ⟨0.28914060926272, 2, 0.375, 0⟩,
  ⟨-0.33714276845694, 2, 1.125, 0⟩, ⟨0.022405964699561, 4, 0.625, 0⟩, ⟨0.015715424886913, 4, 1.5, 0⟩,
  ⟨0.11450634253745, 1, 0.625, 1⟩, ⟨1.0612049379745, 1, 2.625, 1⟩, ⟨-1.2855224439423, 1, 2.75, 1⟩,
  ⟨0.39414630777652, 2, 2.125, 1⟩, ⟨0.31390924682041, 3, 2, 1⟩, ⟨-0.021592277117247, 6, 1.75, 1⟩,
  ⟨-0.21723666564905, 2, 4.5, 2⟩, ⟨-0.28999574439489, 3, 4.75, 2⟩, ⟨0.4232117302573, 3, 5, 2⟩,
  ⟨0.04643410025926, 4, 4, 2⟩, ⟨-0.13138398329741, 4, 4.5, 2⟩, ⟨0.011492850364368, 2, 7.5, 3⟩,
  ⟨-0.033387688429909, 3, 14, 3⟩, ⟨0.015183171583644, 4, 11.5, 3⟩, ⟨-0.0047610805647657, 5, 26, 6⟩,
  ⟨0.046917166277885, 6, 28, 6⟩, ⟨-0.039401755804649, 6, 30, 6⟩, ⟨-0.0032569956247611, 7, 16, 6⟩]

/-- Residual terms of component 5. -/
def propane : List PureTerm := [
  ⟨1.0403973107358, 1, 0.25, 0⟩, ⟨-2.8318404081403, 1, 1.125, 0⟩, ⟨0.84393809606294, 1, 1.5, 0⟩,
  ⟨-0.076559591850023, 2, 1.375, 0⟩, ⟨0.09469737305728, 3, 0.25, 0⟩, ⟨0.00024796475497006, 7, 0.875, 0⟩,
  ⟨0.2774376042287, 2, 0.625, 1⟩, ⟨-0.043846000648377, 5, 1.75, 1⟩, ⟨-0.2699106478435, 1, 3.625, 2⟩,
  ⟨-0.06931341308986, 4, 3.625, 2⟩, ⟨-0.029632145981653, 3, 14.5, 3⟩, ⟨0.01404012675138, 4, 12, 3⟩]

/-- Residual terms of component 6. -/
def isobutane : List PureTerm := [
  ⟨1.04293315891, 1, 0.25, 0⟩, ⟨-2.8184272548892, 1, 1.125, 0⟩, ⟨0.8617623239785, 1, 1.5, 0⟩,
  ⟨-0.10613619452487, 2, 1.375, 0⟩, ⟨0.098615749302134, 3, 0.25, 0⟩, ⟨0.00023948208682322, 7, 0.875, 0⟩,
  ⟨0.3033000485695, 2, 0.625, 1⟩, ⟨-0.041598156135099, 5, 1.75, 1⟩, ⟨-0.29991937470058, 1, 3.625, 2⟩,
  ⟨-0.080369342764109, 4, 3.625, 2⟩, ⟨-0.029761373251151, 3, 14.5, 3⟩, ⟨0.01305963030314, 4, 12, 3⟩]

/-- Residual terms of component 7. -/
def nButane : List PureTerm := [
  ⟨1.0626277411455, 1, 0.25, 0⟩, ⟨-2.862095182835, 1, 1.125, 0⟩, ⟨0.88738233403777, 1, 1.5, 0⟩,
  ⟨-0.12570581155345, 2, 1.375, 0⟩, ⟨0.10286308708106, 3, 0.25, 0⟩, ⟨0.00025358040602654, 7, 0.875, 0⟩,
  ⟨0.32325200233982, 2, 0.625, 1⟩, ⟨-0.037950761057432, 5, 1.75, 1⟩, ⟨-0.32534802014452, 1, 3.625, 2⟩,
  ⟨-0.079050969051011, 4, 3.625, 2⟩, ⟨-0.020636720547775, 3, 14.5, 3⟩, ⟨0.005705380933475, 4, 12, 3⟩]

/-- Residual terms of component 8. -/
def isopentane : List PureTerm := [
  ⟨1.0963, 1, 0.25, 0⟩, ⟨-3.0402, 1, 1.125, 0⟩, ⟨1.0317, 1, 1.5, 0⟩,
  ⟨-0.1541, 2, 1.375, 0⟩, ⟨0.11535, 3, 0.25, 0⟩, ⟨0.00029809, 7, 0.875, 0⟩,
  ⟨0.39571, 2, 0.625, 1⟩, ⟨-0.045881, 5, 1.75, 1⟩, ⟨-0.35804, 1, 3.625, 2⟩,
  ⟨-0.10107, 4, 3.625, 2⟩, ⟨-0.035484, 3, 14.5, 3⟩, ⟨0.018156, 4, 12, 3⟩]

/-- Residual terms of component 9. -/
def nPentane : List PureTerm := [
  ⟨1.0968643098001, 1, 0.25, 0⟩, ⟨-2.9988888298061, 1, 1.125, 0⟩, ⟨0.99516886799212, 1, 1.5, 0⟩,
  ⟨-0.16170708558539, 2, 1.375, 0⟩, ⟨0.11334460072775, 3, 0.25, 0⟩, ⟨0.00026760595150748, 7, 0.875, 0⟩,
  ⟨0.40979881986931, 2, 0.625, 1⟩, ⟨-0.040876423083075, 5, 1.75, 1⟩, ⟨-0.38169482469447, 1, 3.625, 2⟩,
  ⟨-0.10931956843993, 4, 3.625, 2⟩, ⟨-0.03207322332799, 3, 14.5, 3⟩, ⟨0.016877016216975, 4, 12, 3⟩]

/-- Residual terms of component 10. -/
def hexane : List PureTerm := [
  ⟨1.0553238013661, 1, 0.25, 0⟩, ⟨-2.6120615890629, 1, 1.125, 0⟩, ⟨0.7661388296726, 1, 1.5, 0⟩,
  ⟨-0.29770320622459, 2, 1.375, 0⟩, ⟨0.11879907733358, 3, 0.25, 0⟩, ⟨0.00027922861062617, 7, 0.875, 0⟩,
  ⟨0.46347589844105, 2, 0.625, 1⟩, ⟨0.011433196980297, 5, 1.75, 1⟩, ⟨-0.48256968738131, 1, 3.625, 2⟩,
  ⟨-0.093750558924659, 4, 3.625, 2⟩, ⟨-0.0067273247155994, 3, 14.5, 3⟩, ⟨-0.0051141583585428, 4, 12, 3⟩]

/-- Residual terms of component 11. -/
def heptane : List PureTerm := [
  ⟨1.0543747645262, 1, 0.25, 0⟩, ⟨-2.6500681506144, 1, 1.125, 0⟩, ⟨0.81730047827543, 1, 1.5, 0⟩,
  ⟨-0.30451391253428, 2, 1.375, 0⟩, ⟨0.122538687108, 3, 0.25, 0⟩, ⟨0.00027266472743928, 7, 0.875, 0⟩,
  ⟨0.4986582568167, 2, 0.625, 1⟩, ⟨-0.00071432815084176, 5, 1.75, 1⟩, ⟨-0.5423689552545, 1, 3.625, 2⟩,
  ⟨-0.13801821610756, 4, 3.625, 2⟩, ⟨-0.0061595287380011, 3, 14.5, 3⟩, ⟨0.00048602510393022, 4, 12, 3⟩]

/-- Residual terms of component 12. -/
def octane : List PureTerm := [
  ⟨1.0722544875633, 1, 0.25, 0⟩, ⟨-2.4632951172003, 1, 1.125, 0⟩, ⟨0.65386674054928, 1, 1.5, 0⟩,
  ⟨-0.36324974085628, 2, 1.375, 0⟩, ⟨0.1271326962676, 3, 0.25, 0⟩, ⟨0.0003071357277793, 7, 0.875, 0⟩,
  ⟨0.5265685698754, 2, 0.625, 1⟩, ⟨0.019362862857653, 5, 1.75, 1⟩, ⟨-0.58939426849155, 1, 3.625, 2⟩,
  ⟨-0.14069963991934, 4, 3.625, 2⟩, ⟨-0.0078966330500036, 3, 14.5, 3⟩, ⟨0.0033036597968109, 4, 12, 3⟩]

/-- Residual terms of component 13. -/
def nonane : List PureTerm := [
  ⟨1.1151, 1, 0.25, 0⟩, ⟨-2.702, 1, 1.125, 0⟩, ⟨0.83416, 1, 1.5, 0⟩,
  ⟨-0.38828, 2, 1.375, 0⟩, ⟨0.1376, 3, 0.25, 0⟩, ⟨0.00028185, 7, 0.875, 0⟩,
  ⟨0.62037, 2, 0.625, 1⟩, ⟨0.015847, 5, 1.75, 1⟩, ⟨-0.61726, 1, 3.625, 2⟩,
  ⟨-0.15043, 4, 3.625, 2⟩, ⟨-0.012982, 3, 14.5, 3⟩, ⟨0.0044325, 4, 12, 3⟩]

/-- Residual terms of component 14. -/
def decane : List PureTerm := [
  ⟨1.0461, 1, 0.25, 0⟩, ⟨-2.4807, 1, 1.125, 0⟩, ⟨0.74372, 1, 1.5, 0⟩,
  ⟨-0.52579, 2, 1.375, 0⟩, ⟨0.15315, 3, 0.25, 0⟩, ⟨0.00032865, 7, 0.875, 0⟩,
  ⟨0.84178, 2, 0.625, 1⟩, ⟨0.055424, 5, 1.75, 1⟩, ⟨-0.73555, 1, 3.625, 2⟩,
  ⟨-0.18507, 4, 3.625, 2⟩, ⟨-0.020775, 3, 14.5, 3⟩, ⟨0.012335, 4, 12, 3⟩]

/-- Residual terms of component 15. -/
def hydrogen : List PureTerm := [
  ⟨5.3579928451252, 1, 0.5, 0⟩, ⟨-6.2050252530595, 1, 0.625, 0⟩, ⟨0.13830241327086, 2, 0.375, 0⟩,
  ⟨-0.071397954896129, 2, 0.625, 0⟩, ⟨0.015474053959733, 4, 1.125, 0⟩, ⟨-0.14976806405771, 1, 2.625, 1⟩,
  ⟨-0.026368723988451, 5, 0, 1⟩, ⟨0.056681303156066, 5, 0.25, 1⟩, ⟨-0.060063958030436, 5, 1.375, 1⟩,
  ⟨-0.4504394202713, 1, 4, 2⟩, ⟨0.424788402445, 1, 4.25, 2⟩, ⟨-0.021997640827139, 2, 5, 3⟩,
  ⟨-0.01049952137453, 5, 8, 3⟩, ⟨-0.0028955902866816, 1, 8, 5⟩]

/-- Residual terms of component 16. -/
def oxygen : List PureTerm := [
  ⟨0.88878286369701, 1, 0.25, 0⟩, ⟨-2.4879433312148, 1, 1.125, 0⟩, ⟨0.59750190775886, 1, 1.5, 0⟩,
  ⟨0.0096501817061881, 2, 1.375, 0⟩, ⟨0.07197042871277, 3, 0.25, 0⟩, ⟨0.00022337443000195, 7, 0.875, 0⟩,
  ⟨0.18558686391474, 2, 0.625, 1⟩, ⟨-0.03812936803576, 5, 1.75, 1⟩, ⟨-0.15352245383006, 1, 3.625, 2⟩,
  ⟨-0.026726814910919, 4, 3.625, 2⟩, ⟨-0.025675298677127, 3, 14.5, 3⟩, ⟨0.0095714302123668, 4, 12, 3⟩]

/-- Residual terms of component 17. -/
def carbonMonoxide : List PureTerm := [
  ⟨0.90554, 1, 0.25, 0⟩, ⟨-2.4515, 1, 1.125, 0⟩, ⟨0.53149, 1, 1.5, 0⟩,
  ⟨0.024173, 2, 1.375, 0⟩, ⟨0.072156, 3, 0.25, 0⟩, ⟨0.00018818, 7, 0.875, 0⟩,
  ⟨0.19405, 2, 0.625, 1⟩, ⟨-0.043268, 5, 1.75, 1⟩, ⟨-0.12778, 1, 3.625, 2⟩,
  ⟨-0.027896, 4, 3.625, 2⟩, ⟨-0.034154, 3, 14.5, 3⟩, ⟨0.016329, 4, 12, 3⟩]

/-- Residual terms of component 18. -/
def water : List PureTerm := [
  ⟨0.82728408749586, 1, 0.5, 0⟩, ⟨-1.8602220416584, 1, 1.25, 0⟩, ⟨-1.1199009613744, 1, 1.875, 0⟩,
  ⟨0.15635753976056, 2, 0.125, 0⟩, ⟨0.87375844859025, 2, 1.5, 0⟩, ⟨-0.36674403715731, 3, 1, 0⟩,
  ⟨0.053987893432436, 4, 0.75, 0⟩, ⟨1.0957690214499, 1, 1.5, 1⟩, ⟨0.053213037828563, 5, 0.625, 1⟩,
  ⟨0.013050533930825, 5, 2.625, 1⟩, ⟨-0.41079520434476, 1, 5, 2⟩, ⟨0.1463744334412, 2, 4, 2⟩,
  ⟨-0.055726838623719, 4, 4.5, 2⟩, ⟨-0.0112017741438, 4, 3, 3⟩, ⟨-0.0066062758068099, 1, 4, 5⟩,
  ⟨0.0046918522004538, 1, 6, 5⟩]

/-- Residual terms of component 19. -/
def hydrogenSulfide : List PureTerm := [
  ⟨0.87641, 1, 0.25, 0⟩, ⟨-2.0367, 1, 1.125, 0⟩, ⟨0.21634, 1, 1.5, 0⟩,
  ⟨-0.050199, 2, 1.375, 0⟩, ⟨0.066994, 3, 0.25, 0⟩, ⟨0.00019076, 7, 0.875, 0⟩,
  ⟨0.20227, 2, 0.625, 1⟩, ⟨-0.0045348, 5, 1.75, 1⟩, ⟨-0.2223, 1, 3.625, 2⟩,
  ⟨-0.034714, 4, 3.625, 2⟩, ⟨-0.014885, 3, 14.5, 3⟩, ⟨0.0074154, 4, 12, 3⟩]

/-- Residual terms of component 20. -/
def helium : List PureTerm := [
  ⟨-0.45579024006737, 1, 0, 0⟩, ⟨1.2516390754925, 1, 0.125, 0⟩, ⟨-1.5438231650621, 1, 0.75, 0⟩,
  ⟨0.020467489707221, 4, 1, 0⟩, ⟨-0.34476212380781, 1, 0.75, 1⟩, ⟨-0.020858459512787, 3, 2.625, 1⟩,
  ⟨0.016227414711778, 5, 0.125, 1⟩, ⟨-0.057471818200892, 5, 1.25, 1⟩, ⟨0.019462416430715, 5, 2, 1⟩,
  ⟨-0.03329568012302, 2, 1, 2⟩, ⟨-0.010863577372367, 1, 4.5, 3⟩, ⟨-0.022173365245954, 2, 5, 3⟩]

/-- Residual terms of component 21. -/
def argon : List PureTerm := [
  ⟨0.85095714803969, 1, 0.25, 0⟩, ⟨-2.400322294348, 1, 1.125, 0⟩, ⟨0.54127841476466, 1, 1.5, 0⟩,
  ⟨0.016919770692538, 2, 1.375, 0⟩, ⟨0.068825965019035, 3, 0.25, 0⟩, ⟨0.00021428032815338, 7, 0.875, 0⟩,
  ⟨0.17429895321992, 2, 0.625, 1⟩, ⟨-0.033654495604194, 5, 1.75, 1⟩, ⟨-0.13526799857691, 1, 3.625, 2⟩,
  ⟨-0.016387350791552, 4, 3.625, 2⟩, ⟨-0.024987666851475, 3, 14.5, 3⟩, ⟨0.0088769204815709, 4, 12, 3⟩]

/-- Departure terms: methane-ethane. -/
def depCH4C2H6 : List DepTerm := [
  ⟨-0.00080926050298746, 3, 0.65, 0, 0, 0, 0⟩,
  ⟨-0.00075381925080059, 4, 1.55, 0, 0, 0, 0⟩,
  ⟨-0.041618768891219, 1, 3.1, 1, 0.5, 1, 0.5⟩,
  ⟨-0.23452173681569, 2, 5.9, 1, 0.5, 1, 0.5⟩,
  ⟨0.14003840584586, 2, 7.05, 1, 0.5, 1, 0.5⟩,
  ⟨0.063281744807738, 2, 3.35, 0.875, 0.5, 1.25, 0.5⟩,
  ⟨-0.034660425848809, 2, 1.2, 0.75, 0.5, 1.5, 0.5⟩,
  ⟨-0.23918747334251, 2, 5.8, 0.5, 0.5, 2, 0.5⟩,
  ⟨0.0019855255066891, 2, 2.7, 0, 0.5, 3, 0.5⟩,
  ⟨6.1777746171555, 3, 0.45, 0, 0.5, 3, 0.5⟩,
  ⟨-6.9575358271105, 3, 0.55, 0, 0.5, 3, 0.5⟩,
  ⟨1.0630185306388, 3, 1.95, 0, 0.5, 3, 0.5⟩]

/-- Departure terms: methane-propane. -/
def depCH4C3H8 : List DepTerm := [
  ⟨0.013746429958576, 3, 1.85, 0, 0, 0, 0⟩,
  ⟨-0.0074425012129552, 3, 3.95, 0, 0, 0, 0⟩,
  ⟨-0.0045516600213685, 4, 0, 0, 0, 0, 0⟩,
  ⟨-0.0054546603350237, 4, 1.85, 0, 0, 0, 0⟩,
  ⟨0.0023682016824471, 4, 3.85, 0, 0, 0, 0⟩,
  ⟨0.18007763721438, 1, 5.25, 0.25, 0.5, 0.75, 0.5⟩,
  ⟨-0.44773942932486, 1, 3.85, 0.25, 0.5, 1, 0.5⟩,
  ⟨0.0193273748882, 1, 0.2, 0, 0.5, 2, 0.5⟩,
  ⟨-0.30632197804624, 2, 6.5, 0, 0.5, 3, 0.5⟩]

/-- Departure terms: methane-nitrogen. -/
def depCH4N2 : List DepTerm := [
  ⟨-0.0098038985517335, 1, 0, 0, 0, 0, 0⟩,
  ⟨0.00042487270143005, 4, 1.85, 0, 0, 0, 0⟩,
  ⟨-0.034800214576142, 1, 7.85, 1, 0.5, 1, 0.5⟩,
  ⟨-0.13333813013896, 2, 5.4, 1, 0.5, 1, 0.5⟩,
  ⟨-0.011993694974627, 2, 0, 0.25, 0.5, 2.5, 0.5⟩,
  ⟨0.069243379775168, 2, 0.75, 0, 0.5, 3, 0.5⟩,
  ⟨-0.31022508148249, 2, 2.8, 0, 0.5, 3, 0.5⟩,
  ⟨0.24495491753226, 2, 4.45, 0, 0.5, 3, 0.5⟩,
  ⟨0.22369816716981, 3, 4.25, 0, 0.5, 3, 0.5⟩]

/-- Departure terms: methane-carbon dioxide. -/
def depCH4CO2 : List DepTerm := [
  ⟨-0.10859387354942, 1, 2.6, 0, 0, 0, 0⟩,
  ⟨0.080228576727389, 2, 1.95, 0, 0, 0, 0⟩,
  ⟨-0.0093303985115717, 3, 0, 0, 0, 0, 0⟩,
  ⟨0.040989274005848, 1, 3.95, 1, 0.5, 1, 0.5⟩,
  ⟨-0.24338019772494, 2, 7.95, 0.5, 0.5, 2, 0.5⟩,
  ⟨0.23855347281124, 3, 8, 0, 0.5, 3, 0.5⟩]

/-- Departure terms: nitrogen-carbon dioxide. -/
def depN2CO2 : List DepTerm := [
  ⟨0.28661625028399, 2, 1.85, 0, 0, 0, 0⟩,
  ⟨-0.10919833861247, 3, 1.4, 0, 0, 0, 0⟩,
  ⟨-1.137403208227, 1, 3.2, 0.25, 0.5, 0.75, 0.5⟩,
  ⟨0.76580544237358, 1, 2.5, 0.25, 0.5, 1, 0.5⟩,
  ⟨0.0042638000926819, 1, 8, 0, 0.5, 2, 0.5⟩,
  ⟨0.17673538204534, 2, 3.75, 0, 0.5, 3, 0.5⟩]

/-- Departure terms: nitrogen-ethane. -/
def depN2C2H6 : List DepTerm := [
  ⟨-0.47376518126608, 2, 0, 0, 0, 0, 0⟩,
  ⟨0.48961193461001, 2, 0.05, 0, 0, 0, 0⟩,
  ⟨-0.0057011062090535, 3, 0, 0, 0, 0, 0⟩,
  ⟨-0.1996682004132, 1, 3.65, 1, 0.5, 1, 0.5⟩,
  ⟨-0.69411103101723, 2, 4.9, 1, 0.5, 1, 0.5⟩,
  ⟨0.69226192739021, 2, 4.45, 0.875, 0.5, 1.25, 0.5⟩]

/-- Departure terms: methane-hydrogen. -/
def depCH4H2 : List DepTerm := [
  ⟨-0.25157134971934, 1, 2, 0, 0, 0, 0⟩,
  ⟨-0.0062203841111983, 3, -1, 0, 0, 0, 0⟩,
  ⟨0.088850315184396, 3, 1.75, 0, 0, 0, 0⟩,
  ⟨-0.035592212573239, 4, 1.4, 0, 0, 0, 0⟩]

/-- Departure terms: the generalized departure function. -/
def depGeneral : List DepTerm := [
  ⟨2.5574776844118, 1, 1, 0, 0, 0, 0⟩,
  ⟨-7.9846357136353, 1, 1.55, 0, 0, 0, 0⟩,
  ⟨4.7859131465806, 1, 1.7, 0, 0, 0, 0⟩,
  ⟨-0.73265392369587, 2, 0.25, 0, 0, 0, 0⟩,
  ⟨1.3805471345312, 2, 1.35, 0, 0, 0, 0⟩,
  ⟨0.28349603476365, 3, 0, 0, 0, 0, 0⟩,
  ⟨-0.49087385940425, 3, 1.25, 0, 0, 0, 0⟩,
  ⟨-0.10291888921447, 4, 0, 0, 0, 0, 0⟩,
  ⟨0.11836314681968, 4, 0.7, 0, 0, 0, 0⟩,
  ⟨0.000055527385721943, 4, 5.4, 0, 0, 0, 0⟩]

/-- Residual terms of each component. -/
def pureTerms : List (List PureTerm) := [[], methane, nitrogen, carbonDioxide, ethane, propane, isobutane, nButane, isopentane, nPentane, hexane, heptane, octane, nonane, decane,
  hydrogen, oxygen, carbonMonoxide, water, hydrogenSulfide, helium, argon]

/-- Weight and departure terms of each pair that has a departure function. -/
def departures : List (Nat × Nat × ℚ × List DepTerm) := [
  (1, 2, 1, depCH4N2), (1, 3, 1, depCH4CO2), (1, 4, 1, depCH4C2H6), (1, 5, 1, depCH4C3H8),
  (1, 6, 0.771035405688, depGeneral), (1, 7, 1, depGeneral), (1, 15, 1, depCH4H2), (2, 3, 1, depN2CO2),
  (2, 4, 1, depN2C2H6), (4, 5, 0.13042476515, depGeneral), (4, 6, 0.260632376098, depGeneral),
  (4, 7, 0.281570073085, depGeneral), (5, 6, -0.0551609771024, depGeneral), (5, 7, 0.0312572600489, depGeneral),
  (6, 7, -0.0551240293009, depGeneral)]

/-- Ideal-gas coefficients of components 1 to 21, with the zero of energy and entropy at 298.15 K and 101.325 kPa. -/
def ideal : List IdealTerms := [
  ⟨29.83843397, -15999.69151, 4.00088, 0.76315, 820.659, 0.0046, 178.41, 8.74432, 1062.82, -4.46921, 1090.53⟩,
  ⟨17.56770785, -2801.729072, 3.50031, 0.13732, 662.738, -0.1466, 680.562, 0.90066, 1740.06, 0, 0⟩,
  ⟨20.65844696, -4902.171516, 3.50002, 2.04452, 919.306, -1.06044, 865.07, 2.03366, 483.553, 0.01393, 341.109⟩,
  ⟨36.73005938, -23639.65301, 4.00263, 4.33939, 559.314, 1.23722, 223.284, 13.1974, 1031.38, -6.01989, 1071.29⟩,
  ⟨44.70909619, -31236.63551, 4.02939, 6.60569, 479.856, 3.197, 200.893, 19.1921, 955.312, -8.37267, 1027.29⟩,
  ⟨34.30180349, -38525.50276, 4.06714, 8.97575, 438.27, 5.25156, 198.018, 25.1423, 1905.02, 16.1388, 893.765⟩,
  ⟨36.53237783, -38957.80933, 4.33944, 9.44893, 468.27, 6.89406, 183.636, 24.4618, 1914.1, 14.7824, 903.185⟩,
  ⟨43.17218626, -51198.30946, 4, 11.7618, 292.503, 20.1101, 910.237, 33.1688, 1919.37, 0, 0⟩,
  ⟨42.67837089, -45215.83, 4, 8.95043, 178.67, 21.836, 840.538, 33.4032, 1774.25, 0, 0⟩,
  ⟨46.99717188, -52746.83318, 4, 11.6977, 182.326, 26.8142, 859.207, 38.6164, 1826.59, 0, 0⟩,
  ⟨52.07631631, -57104.81056, 4, 13.7266, 169.789, 30.4707, 836.195, 43.5561, 1760.46, 0, 0⟩,
  ⟨57.25830934, -60546.76385, 4, 15.6865, 158.922, 33.8029, 815.064, 48.1731, 1693.07, 0, 0⟩,
  ⟨62.09646901, -66600.12837, 4, 18.0241, 156.854, 38.1235, 814.882, 53.3415, 1693.79, 0, 0⟩,
  ⟨65.93909154, -74131.45483, 4, 21.0069, 164.947, 43.4931, 836.264, 58.3657, 1750.24, 0, 0⟩,
  ⟨13.07520288, -5836.943696, 2.47906, 0.95806, 228.734, 0.45444, 326.843, 1.56039, 1651.71, -1.3756, 1671.69⟩,
  ⟨16.8017173, -2318.32269, 3.50146, 1.07558, 2235.71, 1.01334, 1116.69, 0, 0, 0, 0⟩,
  ⟨17.45786899, -2635.244116, 3.50055, 1.02865, 1550.45, 0.00493, 704.525, 0, 0, 0, 0⟩,
  ⟨21.57882705, -7766.733078, 4.00392, 0.01059, 268.795, 0.98763, 1141.41, 3.06904, 2507.37, 0, 0⟩,
  ⟨21.5830944, -6069.035869, 4, 3.11942, 1833.63, 1.00243, 847.181, 0, 0, 0, 0⟩,
  ⟨10.04639507, -745.375, 2.5, 0, 0, 0, 0, 0, 0, 0, 0⟩,
  ⟨10.04639507, -745.375, 2.5, 0, 0, 0, 0, 0, 0, 0, 0⟩]

/-- Critical density in mol/l and critical temperature in K of components 1 to 21. -/
def critical : List (ℚ × ℚ) := [
  (10.139342719, 190.564), (11.1839, 126.192), (10.624978698, 304.1282), (6.87085454, 305.322),
  (5.000043088, 369.825), (3.86014294, 407.817), (3.920016792, 425.125), (3.271, 460.35),
  (3.215577588, 469.7), (2.705877875, 507.82), (2.315324434, 540.13), (2.056404127, 569.32),
  (1.81, 594.55), (1.64, 617.7), (14.94, 33.19), (13.63, 154.595),
  (10.85, 132.86), (17.87371609, 647.096), (10.19, 373.1), (17.399, 5.1953),
  (13.407429659, 150.687)]

end Aga8.GergEos
