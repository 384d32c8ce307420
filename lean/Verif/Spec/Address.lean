import Mathlib.Algebra.Order.Group.Unbundled.Abs
import Mathlib.Algebra.Order.Ring.Rat
import Verif.Model.Bytes

/-!
# Addresses of ephemerides
-/

namespace Verif.Spec.Address

open Verif

/-- The text with the parameters of an address. -/
def address (ps : List (String × List Nat)) : List Nat :=
  bytes "https://ssd.jpl.nasa.gov/api/horizons.api?format=text" ++ (ps.flatMap fun p => 38 :: bytes p.1 ++ 61 :: 39 :: p.2 ++ [39]) ++ [10]

/-- The number of steps of a tenth of a day, to the nearest. -/
def Steps (from_ to_ : ℚ) (n : Nat) : Prop := |(n : ℚ) - (to_ - from_) * 10| ≤ 1 / 2

end Verif.Spec.Address
