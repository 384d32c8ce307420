import Mathlib.Data.Rat.Defs
import Mathlib.Algebra.Order.Field.Rat
import Verif.Model.Bytes

/-!
# Spec of grey images in files

An image is a function of the row, from the top, and the column, from the left.  The file has a header, and then the pixels
row by row.
-/

namespace Verif.Spec.Raster

/-- The pixels of an image, row by row. -/
def pixels (w h : Nat) (img : Nat → Nat → Nat) : List Nat := (List.range (w * h)).map fun k => img (k / w) (k % w)

/-- The file with the map of the Earth: 13500 columns, 6750 rows, one byte for a pixel. -/
def file (img : Nat → Nat → Nat) : List Nat := bytes "P5\n13500 6750\n255\n" ++ pixels 13500 6750 img

/-- `c` is the column, of `w` around the Earth from 180 degrees west on, with this longitude. -/
def InColumn (w : Nat) (lon : ℚ) (c : Int) : Prop := (c : ℚ) * 360 / w ≤ 180 + lon ∧ 180 + lon < ((c : ℚ) + 1) * 360 / w

/-- `r` is the row, of `h` from the north pole to the south pole, with this latitude. -/
def InRow (h : Nat) (lat : ℚ) (r : Int) : Prop := (r : ℚ) * 180 / h ≤ 90 - lat ∧ 90 - lat < ((r : ℚ) + 1) * 180 / h

/-- A blank of this colour on a terminal. -/
def blank (r g b : Nat) : List Nat := [27, 91] ++ bytes "48;2;" ++ dec r ++ bytes ";" ++ dec g ++ bytes ";" ++ dec b ++ bytes "m  "

/-- The part of an image that begins at a row and a column, as lines of a terminal; the pixel in the middle is orange. -/
def window (img : Nat → Nat → Nat) (top left n : Nat) : List Nat :=
  (List.range (n * 2)).flatMap fun i =>
    ((List.range (n * 2)).flatMap fun j =>
      if i = n ∧ j = n then blank 255 128 0
      else blank (img (top + i) (left + j)) (img (top + i) (left + j)) (img (top + i) (left + j))) ++ ([27, 91] ++ bytes "49m\n")

end Verif.Spec.Raster
