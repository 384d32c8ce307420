import Mathlib.Algebra.Order.Floor.Ring
import Mathlib.Data.Rat.Floor
import Verif.Model.Bytes
import Verif.Model.B32

/-!
# Model of the program that shows a part of the map of night lights, /repo/pollute.c

`double`s are rational numbers; the file is the list of its bytes.  The coordinates are those that `atof` gives.  The
messages for missing arguments and for a file that cannot be opened are left out; `int`s do not overflow but where they are
made from `double`s.
-/

namespace Verif.Pollute

/-- `CSI`, line 4. -/
def csi : List Nat := [27, 91]

/-- `( 180. + atof( argv[1])) * (double)xsize / 360.`, line 36. -/
def across (lon : ℚ) : ℚ := (180 + lon) * 13500 / 360

/-- `( 90. - atof( argv[2])) * (double)ysize / 180.`, line 37. -/
def below (lat : ℚ) : ℚ := (90 - lat) * 6750 / 180

/-- `x0`, lines 36 and 38. -/
def column (lon : ℚ) : Int := (B32.trunc (across lon)).tmod 13500

/-- `y0`, line 37. -/
def line (lat : ℚ) : Int := B32.trunc (below lat)

/-- Line 50. -/
def shade (v : Nat) : List Nat := csi ++ bytes "48;2;" ++ dec v ++ 59 :: dec v ++ 59 :: dec v ++ bytes "m  "

/-- Line 48. -/
def mark : List Nat := csi ++ bytes "48;2;255;128;0m  "

/-- A row that was read, lines 46-51. -/
def cells (size : Nat) (here : Bool) (b : List Nat) : List Nat :=
  ((List.range (size * 2)).flatMap fun x => if x = size ∧ here = true then mark else shade (b.getD x 0)) ++ (csi ++ bytes "49m\n")

/-- The position in the file after `fseek`, which fails before the begin, line 43. -/
def seek (pos : Nat) (loc : Int) : Nat := if 0 ≤ loc then loc.toNat else pos

/-- `loc`, line 41. -/
def place (size : Nat) (x0 y : Int) : Int := 18 + y * 13500 + (x0 - size)

/-- The loop over the rows, lines 39-53: `n` more from `y` on.  `ub`: more is read than `buff` has room for. -/
def rows (file : List Nat) (size : Nat) (x0 y0 : Int) : Nat → Int → Nat → Outcome (List Nat)
  | 0, _, _ => .ok []
  | n + 1, y, pos =>
    let p := seek pos (place size x0 y)
    let b := (file.drop p).take (size * 2)
    if 200 < b.length then .ub
    else if b.length = size * 2 then
      (rows file size x0 y0 n (y + 1) (p + size * 2)).bind fun t => .ok (cells size (decide (y = y0)) b ++ t)
    else rows file size x0 y0 n (y + 1) (p + b.length)

/-- The program, lines 22-55.  `ub`: lines 36-37 convert a number that no `int` holds. -/
def main (file : List Nat) (lon lat : ℚ) (size : Int) : Outcome (List Nat) :=
  if 2 ^ 31 ≤ |across lon| ∨ 2 ^ 31 ≤ |below lat| then .ub
  else rows file size.toNat (column lon) (line lat) (size.toNat * 2) (line lat - size) 0

end Verif.Pollute
