import Mathlib.Algebra.Order.Ring.Rat
import Mathlib.Algebra.Order.AbsoluteValue.Basic
import Verif.Model.Bytes
import Verif.Spec.Decimal

/-!
# Positions of spacecraft in observations of 80 columns

The layout is that of the comment in /repo/add_off.c:97-125 and of the page of the Minor Planet Center named there.
-/

namespace Verif.Spec

/-- Kilometres in an astronomical unit. -/
def kmPerAu : ℚ := 149597870.7

/-- A coordinate in its twelve columns: the sign, the number, which ends in the eleventh, and a blank.  The number is `n` units of
    `10^-places`. -/
def OffsetField (places : Nat) (neg : Bool) (n : Nat) (s : List Nat) : Prop :=
  ∃ k ds fs, s = (if neg then 45 else 43) :: (List.replicate k 32 ++ (ds ++ 46 :: fs)) ++ [32] ∧ s.length = 12 ∧ AllDigits ds ∧ ds ≠ [] ∧
    AllDigits fs ∧ fs.length = places ∧ value ds * 10 ^ places + value fs = n

/-- Decimals of a distance of `d` kilometres, when all three are given in kilometres or in astronomical units: as many as
    there is room for. -/
def OffsetPlaces (au : Bool) (d : ℚ) : Nat :=
  if au then (if d ≤ 99 / 10 * kmPerAu then 8 else 7)
  else if d ≤ 99999 then 4 else if d ≤ 999999 then 3 else 2

/-- The unit of the numbers in kilometres. -/
def offsetUnit (au : Bool) : ℚ := if au then kmPerAu else 1

/-- Twelve columns of a line. -/
def twelve (i : Nat) (s : List Nat) : List Nat := (s.drop i).take 12

/-- The line of a position, made from the line of the observation: all columns stay, but for an `s` in column 15, the unit in column 33, blanks in columns
    34, 71 and 72, and the three coordinates between; each is the nearest number to the one given. -/
structure PositionLine (line : List Nat) (x y z : ℚ) (au : Bool) (out : List Nat) : Prop where
  length : out.length = line.length
  kept : ∀ i, i < 14 ∨ (15 ≤ i ∧ i < 32) ∨ 72 ≤ i → out.getD i 0 = line.getD i 0
  mark : out.getD 14 0 = 115
  unit : out.getD 32 0 = if au then 50 else 49
  blank : ∀ i, i = 33 ∨ i = 70 ∨ i = 71 → out.getD i 0 = 32
  coords : ∀ i v, (i, v) ∈ [(34, x), (46, y), (58, z)] → ∃ n, OffsetField (OffsetPlaces au |v|) (decide (v ≤ 0)) n (twelve i out) ∧
    |(n : ℚ) / 10 ^ OffsetPlaces au |v| * offsetUnit au - (|v|)| ≤ offsetUnit au / 2 / 10 ^ OffsetPlaces au |v|

/-- A speed in thirteen columns: blanks, the sign, and the nearest number with seven decimals. -/
def SpeedText (x : ℚ) (s : List Nat) : Prop :=
  ∃ k ds fs, s = List.replicate k 32 ++ (if x < 0 then 45 else 43) :: (ds ++ 46 :: fs) ∧ s.length = 13 ∧ AllDigits ds ∧ ds ≠ [] ∧ AllDigits fs ∧ fs.length = 7 ∧
    |(value (ds ++ fs) : ℚ) / 10 ^ 7 - (|x|)| ≤ 1 / 2 / 10 ^ 7

/-- The comment with the velocity: the date in columns 16 to 31 of the observation, the three speeds, and the code in columns
    78 to 80. -/
def SpeedLine (line : List Nat) (x y z : ℚ) (out : List Nat) : Prop :=
  ∃ a b c, SpeedText x a ∧ SpeedText y b ∧ SpeedText z c ∧
    out = bytes "COM vel (km/s) " ++ (line.drop 15).take 16 ++ a ++ b ++ c ++ 32 :: (line.drop 77).take 3 ++ [10]

/-- A line of 80 columns or more with a given letter in column 15. -/
def CardWith (letter : Nat) (line : List Nat) : Prop := 80 < line.length ∧ line.getD 14 0 = letter

/-- The code of the observatory, columns 78 to 80. -/
def codeOf (line : List Nat) : List Nat := (line.drop 77).take 3

end Verif.Spec
