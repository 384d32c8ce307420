import Mathlib.Algebra.Order.Floor.Ring
import Mathlib.Algebra.Order.Field.Basic

/-!
# Model of `default_td_minus_ut`, /repo/delta_t.cpp:57-102 and 199-248

Exact arithmetic in an ordered field with integer part; the default settings (`td_minus_dt_string` is
NULL).  The string of polynomial coefficients used before 1620 is held already parsed.
-/

namespace Verif.DeltaT

variable {K : Type} [Field K] [LinearOrder K] [FloorRing K]

/-- `delta_t_table`, /repo/delta_t.cpp:57-102: hundredths of a second, every two years from 1620. -/
def deltaTTable : List Int := [
   12400, 11500, 10600, 9800, 9100, 8500, 7900, 7400, 7000, 6500, 6200, 5800, 5500, 5300,
   5000, 4800, 4600, 4400, 4200, 4000, 3700, 3500, 3300, 3100, 2800, 2600, 2400, 2200,
   2000, 1800, 1600, 1400, 1300, 1200, 1100, 1000, 900, 900, 900, 900, 900, 900,
   900, 900, 1000, 1000, 1000, 1000, 1000, 1100, 1100, 1100, 1100, 1100, 1100, 1100,
   1100, 1200, 1200, 1200, 1200, 1200, 1300, 1300, 1300, 1300, 1400, 1400, 1400, 1500,
   1500, 1500, 1500, 1600, 1600, 1600, 1600, 1600, 1700, 1700, 1700, 1700, 1700, 1700,
   1700, 1700, 1600, 1600, 1500, 1400, 1370, 1310, 1270, 1250, 1250, 1250, 1250, 1250,
   1250, 1230, 1200, 1140, 1060, 960, 860, 750, 660, 600, 570, 560, 570, 590,
   620, 650, 680, 710, 730, 750, 770, 780, 790, 750, 640, 540, 290, 160,
   -100, -270, -360, -470, -540, -520, -550, -560, -580, -590, -620, -640, -610, -470,
   -270, 0, 260, 540, 770, 1050, 1340, 1600, 1820, 2020, 2120, 2240, 2350, 2390,
   2430, 2400, 2390, 2390, 2370, 2400, 2430, 2530, 2620, 2730, 2820, 2910, 3000, 3070,
   3140, 3220, 3310, 3400, 3500, 3650, 3830, 4020, 4220, 4450, 4650, 4850, 5050, 5220,
   5380, 5490, 5580, 5686, 5831, 5998, 6163, 6297, 6383, 6430, 6457, 6485, 6546, 6607,
   6660, 6728, 6810, 6897, 6936, 6929, 6918]

/-- Table entry. -/
def entry (i : Int) : Int := deltaTTable.getD i.toNat 0

/-- The index chosen, /repo/delta_t.cpp:220-229.  The test `jd > 3e+7` can only hold when the first
    test does, and is left out.  (Only used for `loc ≥ 0`, where the conversion to `int` is the integer part.) -/
def tableIndex (loc : K) : Int :=
  if ⌊loc⌋ > (deltaTTable.length : Int) - 2 then (deltaTTable.length : Int) - 2 else ⌊loc⌋

/-- The tabular part, /repo/delta_t.cpp:219-239: Delta-T in seconds for a year from 1620 on. -/
def tableDeltaT (year : K) : K :=
  let loc := (year - 1620) / 2
  let index := tableIndex loc
  let dt := loc - (index : K)
  let rval := (entry index : K) + ((entry (index + 1) - entry index : Int) : K) * dt
  let rval := rval / 100
  if dt > 1 then
    let dt := (dt - 1) / 50
    rval + 65 / 2 * dt * dt
  else rval

/-- One piece of `default_delta_t_string`, /repo/delta_t.cpp:155-159: years from (`none`: the start of
    time) and to, offset, coefficients. -/
structure Piece where
  start : Option Int
  stop : Int
  offset : Int
  coeffs : List (Int × Nat)     -- value = fst / 10^snd

def pieces : List Piece := [
  ⟨none, -500, 1820, [(-20, 0), (0, 0), (32, 0)]⟩,
  ⟨some (-500), 500, 0, [(105836, 1), (-101441, 2), (3378311, 5), (-5952053, 6), (-1798452, 7), (22174192, 9),
    (90316521, 10)]⟩,
  ⟨some 500, 1600, 1000, [(15742, 1), (-55601, 2), (7123472, 5), (319781, 6), (-8503463, 7), (-5050998, 9),
    (83572073, 10)]⟩,
  ⟨some 1600, 1620, 1600, [(120, 0), (-9808, 2), (-1532, 1), (140272, 3)]⟩]

/-- The polynomial loop of `evaluate_delta_t_string`, /repo/delta_t.cpp:137-146. -/
def evalLoop (x : K) : List (Int × Nat) → K → K → K
  | [], _, acc => acc
  | c :: cs, power, acc => evalLoop x cs (power * x) (acc + power * ((c.1 : K) / 10 ^ c.2))

/-- Value of a piece. -/
def evalPiece (p : Piece) (year : K) : K := evalLoop ((year - (p.offset : K)) / 100) p.coeffs 1 0

/-- Whether the year is in the piece's range, /repo/delta_t.cpp:125-126. -/
def Piece.covers (p : Piece) (year : K) : Bool :=
  (match p.start with | none => true | some a => decide ((a : K) ≤ year)) && decide (year < (p.stop : K))

/-- `default_td_minus_ut` as a function of the year. -/
def deltaT (year : K) : K :=
  if year < 1620 then
    match pieces.find? (fun p => p.covers year) with
    | some p => evalPiece p year
    | none => tableDeltaT year
  else tableDeltaT year

/-- The year used for a Julian Date, /repo/delta_t.cpp:201. -/
def yearOf (jd : K) : K := 2000 + (jd - 2451545) / (1461 / 4)

/-- The prediction used by `td_minus_utc`, /repo/delta_t.cpp:448-449, from `low + high`; no earth
    orientation file is loaded, so that `td_minus_ut` is `default_td_minus_ut`
    (/repo/eop_prec.cpp:193-246). -/
def defaultPredict (K : Type) [Field K] [LinearOrder K] [FloorRing K] (s : Int) : Int :=
  ⌊deltaT (yearOf ((4800001 : K) / 2 + (s : K) / 2)) + 1 / 2 - (32184 : K) / 1000⌋

end Verif.DeltaT
