import Mathlib.Order.Basic
import Mathlib.Algebra.Order.Ring.Int

/-!
# A sky cut up by horizontal lines

Right ascension is an angle counted in seconds, so 86400 of them close the circle; the south polar distance of a
line counts from the south pole.  A line belongs to the region just south of it.
-/

namespace Verif.Spec

/-- A piece of a circle of declination. -/
structure Line where
  spd : Int
  ra : Int
  width : Int
  region : Int
  deriving DecidableEq, Repr

/-- The line passes over right ascension `ra`, whatever turn of the circle it is counted in. -/
def Line.Over (l : Line) (ra : Int) : Prop := ∃ k : Int, l.ra ≤ ra + 86400 * k ∧ ra + 86400 * k < l.ra + l.width

/-- The first line met by going north from the point. -/
def FirstNorth (ls : List Line) (ra spd : Int) (l : Line) : Prop :=
  l ∈ ls ∧ l.Over ra ∧ spd < l.spd ∧ ∀ l' ∈ ls, l'.Over ra → spd < l'.spd → l.spd ≤ l'.spd

/-- No line is met by going north from the point. -/
def NoneNorth (ls : List Line) (ra spd : Int) : Prop := ∀ l ∈ ls, l.Over ra → ¬ spd < l.spd

/-- `region` is the region of the point, when the cap around the pole is `polar`. -/
def RegionAt (ls : List Line) (polar ra spd region : Int) : Prop :=
  (∃ l, FirstNorth ls ra spd l ∧ region = l.region) ∨ (NoneNorth ls ra spd ∧ region = polar)

end Verif.Spec
