import Verif.Spec.Moid

/-!
# Specification: mean elements of planets and minor planets

The numbers published by JPL (p_elem_t1.txt) for the planets, and those of BC-405 for six minor planets, in units of 10⁻⁸ of an astronomical unit or of
a degree.  The order is semimajor axis, eccentricity, inclination, longitude of the node, longitude of the perihelion (for the minor planets: argument of
the perihelion), mean longitude (for the minor planets: mean anomaly).
-/

namespace Verif.Spec

/-- The elements at the beginning of the year 2000. -/
def meanElements : List (List ℤ) :=
  [[38709927, 20563593, 700497902, 4833076593, 7745779628, 25225032350],
   [72333566, 677672, 339467605, 7667984255, 13160246718, 18197909950],
   [100000261, 1671123, -1531, 0, 10293768193, 10046457166],
   [152371034, 9339410, 184969142, 4955953891, -2394362959, -455343205],
   [520288700, 4838624, 130439695, 10047390909, 1472847983, 3439644051],
   [953667594, 5386179, 248599187, 11366242448, 9259887831, 4995424423],
   [1918916464, 4725744, 77263783, 7401692503, 17095427630, 31323810451],
   [3006992276, 859048, 177004347, 13178422574, 4496476227, -5512002969],
   [3948211675, 24882730, 1714001206, 11030393684, 22406891629, 23892903833],
   [276646030, 7836380, 1058336000, 8049446400, 7392134100, 403601900],
   [277232570, 22964350, 3484613000, 17319775700, 31026405900, 35082607400],
   [236153630, 9002450, 713391800, 10395163100, 14958909400, 33830582200],
   [255438380, 7225110, 610274100, 35656784000, 6201571500, 2015030100],
   [292049830, 13822340, 309338200, 15046589400, 22912238100, 33361395700],
   [264371350, 18621080, 1174739900, 29351650400, 9695683600, 10487302400]]

/-- Their change in a century. -/
def meanRates : List (List ℤ) :=
  [[37, 1906, -594749, -12534081, 16047689, 14947267411175],
   [390, -4107, -78890, -27769418, 268329, 5851781538729],
   [562, -4392, -1294668, 0, 32327364, 3599937244981],
   [1847, 7882, -813131, -29257343, 44441088, 1914030268499],
   [-11607, -13253, -183714, 20469106, 21252668, 303474612775],
   [-125060, -50991, 193609, -28867794, -41897216, 122249362201],
   [-196176, -4397, -242939, 4240589, 40805281, 42848202785],
   [26291, 5105, 35372, -508664, -32241464, 21845945325],
   [-31596, 5170, 4818, -1183482, -4062942, 14520780515]]

/-- Number `i` of the elements of body `n`, both counted from 0, `t` centuries after the beginning of 2000. -/
noncomputable def meanElement (n : ℕ) (t : ℝ) (i : ℕ) : ℝ :=
  ((((meanElements.getD n []).getD i 0 : ℤ) : ℝ) + (((meanRates.getD n []).getD i 0 : ℤ) : ℝ) * t) / 10 ^ 8

/-- Two angles that differ by whole turns. -/
def SameAngle (a b : ℝ) : Prop := ∃ k : ℤ, a = b + 2 * Real.pi * k

/-- Degrees to radians. -/
noncomputable def radians (x : ℝ) : ℝ := x * Real.pi / 180

end Verif.Spec
