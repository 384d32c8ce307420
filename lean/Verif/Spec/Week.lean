import Verif.Model.Bytes

/-!
# Days of the week
-/

namespace Verif.Spec.Week

/-- The day of the week of a Julian day number, Sunday being 0. -/
def weekday (jd : Int) : Int := (jd + 1) % 7

/-- The months before and after the main one, nearest but one first: -2, -1, 1, 2, 3, ... -/
def others (k : Nat) : Int := if k < 2 then (k : Int) - 2 else (k : Int) - 1

/-- 2000 January 1 was a Saturday. -/
example : weekday 2451545 = 6 := by decide

end Verif.Spec.Week
