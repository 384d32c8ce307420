import Mathlib.Data.Real.Basic
import Verif.Spec.Decimal

/-!
# Earth orientation parameters

Lines of the files `finals.all` of the International Earth Rotation Service, and what they say.
-/

namespace Verif.Spec

/-- A number with a point and perhaps a sign. -/
def Decimal (t : List Nat) (x : ℚ) : Prop :=
  ∃ (k : Nat) (neg : Bool) (ds fs : List Nat), t = List.replicate k 32 ++ ((if neg then [45] else []) ++ (ds ++ 46 :: fs)) ∧ AllDigits ds ∧ AllDigits fs ∧ (ds ≠ [] ∨ fs ≠ []) ∧
    x = (if neg then -1 else 1) * (value ds + (value fs : ℚ) / 10 ^ fs.length)

/-- A text from column `c` on (counted from 0), a blank after it. -/
def FieldAt (line : List Nat) (c : Nat) (t : List Nat) : Prop := ∃ pre r, line = pre ++ (t ++ 32 :: r) ∧ pre.length = c

/-- What a line says of a day: its Modified Julian Date, whether it is from observations, position of the pole (seconds of arc), UT1 - UTC
    (seconds), and the corrections for the nutation (milliseconds of arc), if there are any. -/
structure EopDay where
  mjd : Nat
  observed : Bool
  x : ℚ
  y : ℚ
  ut1Utc : ℚ
  nutation : Option (ℚ × ℚ)

/-- The line of a day. -/
structure EopLine (line : List Nat) (d : EopDay) : Prop where
  long : line.length = 188
  date : ∃ ds, FieldAt line 7 (ds ++ [46, 48, 48]) ∧ AllDigits ds ∧ ds.length = 5 ∧ value ds = d.mjd
  flag : line[16]? = some (if d.observed then 73 else 80)
  point : line[20]? = some 46
  blank : line[27]? = some 32
  x : ∃ t, FieldAt line 18 t ∧ Decimal t d.x
  y : ∃ t, FieldAt line 37 t ∧ Decimal t d.y
  ut : ∃ t, FieldAt line 58 t ∧ Decimal t d.ut1Utc
  nut : match d.nutation with
    | none => line[95]? = some 32
    | some (p, e) => (∃ c, line[95]? = some c ∧ c ≠ 32) ∧ (∃ t, FieldAt line 97 t ∧ Decimal t p) ∧ ∃ t, FieldAt line 116 t ∧ Decimal t e

/-- A line without numbers: only the date is there. -/
structure EopEmpty (line : List Nat) (mjd : Nat) : Prop where
  long : line.length = 188
  date : ∃ ds, FieldAt line 7 (ds ++ [46, 48, 48]) ∧ AllDigits ds ∧ ds.length = 5 ∧ value ds = mjd
  flag : line[16]? = some 32

/-- TD - UT1 on consecutive days: differences of less than half a second from day to day, and TD - UTC a whole number of seconds away from what it was
    on the first day. -/
structure SlowClock (init : ℝ) (days : List EopDay) (D : Nat → ℝ) : Prop where
  start : ∀ d, days[0]? = some d → D 0 = init - d.ut1Utc
  leap : ∀ i d, days[i]? = some d → ∃ z : Int, D i + d.ut1Utc = init + z
  slow : ∀ i, i + 1 < days.length → |D (i + 1) - D i| < 1 / 2

end Verif.Spec
