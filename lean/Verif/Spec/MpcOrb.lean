import Verif.Spec.Eop
import Verif.Spec.Calendar
import Mathlib.Analysis.SpecialFunctions.Trigonometric.Basic

/-!
# Orbits of asteroids in two formats

Lines of `mpcorb.dat` (Minor Planet Center) and `astorb.dat` (Lowell Observatory), and what they say.
-/

namespace Verif.Spec

/-- An orbit: date of the epoch, angles in degrees, eccentricity, axis, magnitude parameters. -/
structure OrbitData where
  day : Nat
  month : Nat
  year : Nat
  meanAnomaly : ℚ
  argPer : ℚ
  node : ℚ
  incl : ℚ
  ecc : ℚ
  axis : ℚ
  absMag : ℚ
  slope : ℚ

/-- One character for a number up to 61. -/
def oneChar (v : Nat) : Nat := if v < 10 then 48 + v else if v < 36 then 55 + v else 61 + v

/-- A packed date: "K194R" for 2019 April 27. -/
def packedDate (d m y : Nat) : List Nat := [oneChar (y / 100), 48 + y / 10 % 10, 48 + y % 10, oneChar m, oneChar d]

/-- A number in columns, or no point where it should be. -/
def Optionally (line : List Nat) (c p : Nat) (x : ℚ) : Prop :=
  (line[p]? = some 46 ∧ ∃ t, FieldAt line c t ∧ Decimal t x) ∨ (line[p]? ≠ some 46 ∧ x = 0)

/-- A line of `mpcorb.dat`. -/
structure MpcorbLine (line : List Nat) (d : OrbitData) : Prop where
  long : 200 < line.length
  blanks : line[36]? = some 32 ∧ line[47]? = some 32
  points : line[29]? = some 46 ∧ line[82]? = some 46
  date : FieldAt line 20 (packedDate d.day d.month d.year)
  meanAnomaly : ∃ t, FieldAt line 26 t ∧ Decimal t d.meanAnomaly
  argPer : ∃ t, FieldAt line 37 t ∧ Decimal t d.argPer
  node : ∃ t, FieldAt line 48 t ∧ Decimal t d.node
  incl : ∃ t, FieldAt line 59 t ∧ Decimal t d.incl
  ecc : ∃ t, FieldAt line 69 t ∧ Decimal t d.ecc
  axis : ∃ t, FieldAt line 92 t ∧ Decimal t d.axis
  absMag : Optionally line 8 10 d.absMag
  slope : Optionally line 14 16 d.slope

/-- A number without a sign and with `p` decimals. -/
def Places (p : Nat) (t : List Nat) (x : ℚ) : Prop :=
  ∃ (k : Nat) (ds fs : List Nat), t = List.replicate k 32 ++ (ds ++ 46 :: fs) ∧ AllDigits ds ∧ AllDigits fs ∧ fs.length = p ∧
    x = value ds + (value fs : ℚ) / 10 ^ p

/-- A line of `astorb.dat`. The inclination stands in columns 147 to 156 (counted from 0), the eccentricity in 158 to 167, the axis in 168 to 180. -/
structure AstorbLine (line : List Nat) (d : OrbitData) : Prop where
  long : 267 < line.length
  magnitudes : ∃ t u r, Decimal t d.absMag ∧ line.drop 41 = t ++ 32 :: (u ++ 32 :: r) ∧ Decimal u d.slope
  date : ∃ ds, FieldAt line 106 ds ∧ AllDigits ds ∧ ds.length = 8 ∧ value ds = 10000 * d.year + 100 * d.month + d.day
  meanAnomaly : ∃ t, FieldAt line 115 t ∧ t.length = 10 ∧ Places 6 t d.meanAnomaly
  argPer : ∃ t, FieldAt line 126 t ∧ t.length = 10 ∧ Places 6 t d.argPer
  node : ∃ t, line.drop 137 = t ++ line.drop 147 ∧ t.length = 10 ∧ Places 6 t d.node
  incl : ∃ t, FieldAt line 147 t ∧ t.length = 10 ∧ Places 6 t d.incl
  ecc : ∃ t, FieldAt line 158 t ∧ t.length = 10 ∧ Places 8 t d.ecc ∧ d.ecc < 1
  axis : ∃ t, FieldAt line 168 t ∧ t.length = 13 ∧ Decimal t d.axis

end Verif.Spec
