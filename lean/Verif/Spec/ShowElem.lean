import Mathlib.Analysis.SpecialFunctions.Trigonometric.Basic
import Verif.Spec.Decimal
import Verif.Model.Bytes

/-!
# Orbital elements as text

What the lines of a listing of orbital elements in the manner of the Minor Planet Center say, without reference to how they are made.
-/

namespace Verif.Spec

/-- Digits, a decimal point, and `k` digits: `n` units of `10^-k`. -/
def PointText (k n : Nat) (s : List Nat) : Prop :=
  ∃ ds fs, s = ds ++ 46 :: fs ∧ AllDigits ds ∧ ds ≠ [] ∧ AllDigits fs ∧ fs.length = k ∧ value ds * 10 ^ k + value fs = n

/-- A whole number. -/
def WholeText (z : Int) (s : List Nat) : Prop := ∃ ds, Numeral z.natAbs ds ∧ s = if z < 0 then 45 :: ds else ds

/-- `w` columns with a number that is not negative, of `k` decimals, less than one unit of the last of them off. -/
def Shows (w k : Nat) (x : ℝ) (s : List Nat) : Prop :=
  ∃ a b n t, s = List.replicate a 32 ++ t ++ List.replicate b 32 ∧ s.length = w ∧ PointText k n t ∧ |x - n / 10 ^ k| < 1 / 10 ^ k

/-- The same for a number with a sign in the first of the columns. -/
def ShowsSigned (w k : Nat) (x : ℝ) (s : List Nat) : Prop :=
  ∃ b n t, s = (if x < 0 then 45 else 43) :: t ++ List.replicate b 32 ∧ s.length = w ∧ PointText k n t ∧ |(|x|) - n / 10 ^ k| < 1 / 10 ^ k

/-- The line about the epoch.  `d` is the day of the month of the Julian day `j` (from noon to noon) after the middle of which the epoch lies.
    Day and Julian Date are given to the same number of decimals, no more than needed, and say the same. -/
def EpochSays (epoch : ℝ) (j d : Int) (month : List Nat) (year : Int) (line : List Nat) : Prop :=
  ∃ k m n a b y day jd, line = bytes "Epoch " ++ List.replicate a 32 ++ y ++ 32 :: month ++ 32 :: List.replicate b 32 ++ day ++ bytes " TT = JDT " ++ jd ∧
    WholeText year y ∧ 1 ≤ k ∧ k ≤ 6 ∧ PointText k m day ∧ PointText k n jd ∧ (1 < k → n % 10 ≠ 0) ∧ |(n : ℝ) / 10 ^ k - epoch| ≤ 6 / 10 ^ 7 ∧
    2 * (m : Int) = 2 * n + (2 * (d - j) + 1) * 10 ^ k

/-- Kilometres in an astronomical unit. -/
noncomputable def kilometres : ℝ := 149597870.7

/-- A distance in astronomical units, or in kilometres if it is less than a million: `p + 4` digits or more, if there are as many, and no point if no digit follows it. -/
def DistanceText (p : Nat) (x : ℝ) (s : List Nat) : Prop :=
  (999999 < x ∧ s = bytes " <HUGE>") ∨
  ∃ a k ds fs km, s = List.replicate a 32 ++ ds ++ (if k = 0 then [] else 46 :: fs) ++ (if km then bytes "km" else []) ∧
    (km = true ↔ x ≤ 999999 / kilometres) ∧ AllDigits ds ∧ ds ≠ [] ∧ AllDigits fs ∧ fs.length = k ∧
    |(if km then x * kilometres else x) - ((value ds * 10 ^ k + value fs : Nat) : ℝ) / 10 ^ k| < 1 / 10 ^ k ∧
    (p + 4 ≤ ds.length + k ∨ 15 ≤ k) ∧ (ds.length + k ≤ p + 4 ∨ k = 0)

/-- The angle up to whole turns, in degrees from 0 to 360. -/
def TurnDegrees (ang deg : ℝ) : Prop := 0 ≤ deg ∧ deg < 360 ∧ ∃ n : Int, deg * (Real.pi / 180) = ang + n * (2 * Real.pi)

/-- The vector of length 1 in the direction given, from the ecliptic to the equator of 2000. -/
def EquatorialUnit (v u : ℝ × ℝ × ℝ) : Prop :=
  ∃ r, 0 < r ∧ r ^ 2 = v.1 ^ 2 + v.2.1 ^ 2 + v.2.2 ^ 2 ∧ u.1 * r = v.1 ∧
    u.2.1 * r = v.2.1 * 0.917482062069181825744000384639406458043 - v.2.2 * 0.397777155931913701597179975942380896684 ∧
    u.2.2 * r = v.2.1 * 0.397777155931913701597179975942380896684 + v.2.2 * 0.917482062069181825744000384639406458043

/-- `w` columns with a number, its sign before it only if it is negative, rounded to `k` decimals. -/
def ShowsReal (w k : Nat) (x : ℝ) (s : List Nat) : Prop :=
  ∃ a n t, s = List.replicate a 32 ++ ((if x < 0 then [45] else []) ++ t) ∧ s.length = w ∧ PointText k n t ∧ |(n : ℝ) - |x| * 10 ^ k| ≤ 1 / 2

/-- A distance without the blanks before it. -/
def BareDistance (p : Nat) (x : ℝ) (s : List Nat) : Prop := ∃ a, DistanceText p x (List.replicate a 32 ++ s) ∧ s.head? ≠ some 32

/-- A name, an angle, and two components of vectors unless they are to be omitted. -/
def Row (name : String) (n p : Nat) (omitted : Bool) (deg x y : ℝ) (t : List Nat) : Prop :=
  ∃ s, if omitted then t = bytes name ++ s ∧ Shows (p + 6) p deg s
    else ∃ u v, t = bytes name ++ (s ++ (u ++ v)) ∧ Shows (n + 6) p deg s ∧
      ShowsSigned (max 13 p + 3) (min (max 13 p) (p + 3)) x u ∧ ShowsSigned (max 13 p + 3) (min (max 13 p) (p + 3)) y v

/-- Kepler's third law: the period in years from the axis in astronomical units. -/
def KeplerPeriod (axis gm years : ℝ) : Prop := 0 ≤ years ∧ years ^ 2 * gm = axis ^ 3 * 0.01720209895 ^ 2

/-- The period, in years or in units of the size that suits it. -/
def PeriodSays (central : Int) (years : ℝ) (s : List Nat) : Prop :=
  if central ≤ 0 ∨ 1 < years then
    if 10 ^ 8 - 1 < years then s = bytes "P!!!!!!! "
    else if 9999 < years then ∃ a y, s = 80 :: List.replicate a 32 ++ y ++ [32] ∧ WholeText ⌊years⌋ y
    else if 999.9 < years * 365.25 then ∃ u, s = 80 :: u ++ bytes "       " ∧ ShowsReal 10 5 years u
    else ∃ u v, s = 80 :: u ++ 47 :: v ++ [100] ∧ ShowsReal 8 3 years u ∧ ShowsReal 7 3 (years * 365.25) v
  else if years * 365.25 * 1440 < 9999 then
    ∃ u v, s = 80 :: u ++ bytes "m/" ++ v ++ bytes "d " ∧ ShowsReal 8 3 (years * 365.25 * 1440) u ∧ ShowsReal 5 3 (years * 365.25) v
  else ∃ u, s = 80 :: u ++ bytes "d       " ∧ ShowsReal 9 4 (years * 365.25) u

/-- The magnitude and the number that goes with it, if there is a magnitude. -/
def MagSays (asteroid nuclear : Bool) (mag slope : ℝ) (s : List Nat) : Prop :=
  (mag = 0 ∧ s = []) ∨
  (mag ≠ 0 ∧ ∃ u v, if asteroid then s = bytes " H" ++ u ++ bytes "    G " ++ v ∧ ShowsReal 8 2 mag u ∧ ShowsReal 6 2 slope v
    else s = bytes (if nuclear then " M(N)" else " M(T)") ++ u ++ bytes "    K " ++ v ∧ ShowsReal 5 1 mag u ∧ ShowsReal 5 1 slope v)

/-- What comes after "Peri" in the name of the point nearest to the body at the centre. -/
def pericentre : Int → String
  | -1 => "barion"
  | 0 => "helion"
  | 1 => "mercury"
  | 2 => "venus"
  | 3 => "gee"
  | 4 => "mars"
  | 5 => "jove"
  | 6 => "saturn"
  | 7 => "uranus"
  | 8 => "neptune"
  | 9 => "pluto"
  | 10 => "lune"
  | _ => "----"

/-- The line about the perihelion, `jd`, with `d`, `month` and `year` of the Julian day `j`; also the time of day and the Julian Date, if they are wanted. -/
def PeriSays (central : Int) (p : Nat) (wanted : Bool) (clock : List Nat) (jd : ℝ) (j d : Int) (month : List Nat) (year : Int) (t : List Nat) : Prop :=
  ∃ y day date m n, t = bytes "   Peri" ++ bytes (pericentre central) ++ 32 :: y ++ 32 :: month ++ 32 :: day ++ bytes " TT" ++
      (if wanted then bytes " = " ++ clock ++ bytes " (JD " ++ date ++ bytes ")" else []) ∧
    WholeText year y ∧ PointText p m day ∧ |(m : ℝ) - (d + (jd + 1 / 2) - j) * 10 ^ p| ≤ 1 / 2 ∧ PointText p n date ∧ |(n : ℝ) - jd * 10 ^ p| ≤ 1 / 2

/-- The same in nineteen columns. -/
def MagColumns (asteroid nuclear : Bool) (mag slope : ℝ) (s : List Nat) : Prop :=
  (mag = 0 ∧ s = List.replicate 19 32) ∨
  (mag ≠ 0 ∧ ∃ u v, if asteroid then s = bytes "H" ++ u ++ bytes " G" ++ v ++ bytes "   " ∧ ShowsReal 8 2 mag u ∧ ShowsReal 5 2 slope v
    else s = bytes (if nuclear then "M(N)" else "M(T)") ++ u ++ bytes "  K" ++ v ++ bytes "  " ∧ ShowsReal 5 1 mag u ∧ ShowsReal 5 1 slope v)

end Verif.Spec
