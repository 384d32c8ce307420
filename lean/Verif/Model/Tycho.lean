import Mathlib.Algebra.Order.Floor.Ring
import Mathlib.Data.Rat.Floor
import Verif.Model.Bytes
import Verif.Model.B32

/-!
# Model of the colours of stars in the Tycho and Johnson systems, /repo/colors2.cpp

`double`s are rational numbers.
-/

namespace Verif.Tycho

/-- `lookup_tbl`, lines 56-103: V-VT, del(B-V) and V-Hp, in thousandths. -/
def table : List (Int × Int × Int) :=
  [(38, 31, 66), (30, 21, 51), (22, 11, 36), (15, 5, 21), (8, 2, 6), (1, -5, -11),
   (-5, -10, -25), (-12, -17, -38), (-18, -20, -48), (-24, -21, -58), (-29, -23, -69), (-35, -25, -79),
   (-40, -25, -87), (-45, -26, -94), (-50, -30, -101), (-54, -35, -108), (-59, -45, -114), (-64, -51, -120),
   (-68, -60, -127), (-72, -68, -131), (-77, -76, -134), (-81, -85, -137), (-85, -94, -142), (-89, -104, -147),
   (-93, -113, -151), (-98, -122, -155), (-102, -131, -158), (-106, -142, -157), (-110, -154, -160), (-115, -166, -162),
   (-119, -178, -164), (-124, -189, -166), (-128, -199, -166), (-133, -210, -165), (-138, -222, -164), (-143, -234, -161),
   (-148, -245, -157), (-154, -256, -153), (-160, -266, -148), (-165, -277, -143), (-172, -288, -137), (-178, -299, -131),
   (-185, -309, -125), (-191, -320, -119), (-199, -331, -112), (-206, -342, -106)]

/-- An entry of a column. -/
def entry (col : Int × Int × Int → Int) (k : Int) : ℚ := col (table.getD k.toNat (0, 0, 0))

/-- `table_loc`, lines 54 and 107-110. -/
def loc (x : ℚ) : Int :=
  let i := B32.trunc ((x + 1 / 4) / (1 / 20)) - 1
  let i := if i < 0 then 0 else i
  if 46 - 4 ≤ i then 46 - 4 else i

/-- A result before the last step, lines 111-124. -/
def interpolate (col : Int × Int × Int → Int) (x : ℚ) : ℚ :=
  let l := loc x
  let dx := (x + 1 / 4) / (1 / 20) - l
  1 / 1000 * (entry col l * ((dx - 1) * (dx - 2) * (dx - 3) / -6) + entry col (l + 1) * (dx * (dx - 2) * (dx - 3) / 2) +
    entry col (l + 2) * (dx * (dx - 1) * (dx - 3) / -2) + entry col (l + 3) * (dx * (dx - 1) * (dx - 2) / 6))

/-- `tycho_to_johnson_colors`, lines 52-127: `none` for -1.  `ub`: line 54 converts a number that no `int` holds. -/
def colors (x : ℚ) : Outcome (Option (ℚ × ℚ × ℚ)) :=
  if 2 ^ 31 ≤ |(x + 1 / 4) / (1 / 20)| then .ub
  else if x < -1 / 4 ∨ 2 < x then .ok none
  else .ok (some (interpolate (·.1) x, interpolate (·.2.1) x + x, interpolate (·.2.2) x))

/-- `johnson_b_minus_v_from_tycho`, lines 134-149. -/
def johnson (x : ℚ) : ℚ :=
  if x < -1 / 5 ∨ 9 / 5 < x then 99
  else
    17 / 20 * x +
      if x < 1 / 10 then -(6 / 1000) + 6 / 1000 * (x + 1 / 5) / (3 / 10)
      else if x < 1 / 2 then 46 / 1000 * (x - 1 / 10) / (4 / 10)
      else if x < 7 / 5 then 46 / 1000 - 54 / 1000 * (x - 1 / 2) / (9 / 10)
      else if x < 9 / 5 then -(8 / 1000) - 24 / 1000 * (x - 7 / 5) / (4 / 10)
      else 0

end Verif.Tycho
