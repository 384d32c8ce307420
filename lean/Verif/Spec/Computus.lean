import Verif.Spec.Calendar

/-!
# Specification of Easter

The ecclesiastical (paschal) full moon as a "day of March" (32 = 1 April), and Easter as the first
Sunday strictly after it.  Independent of the model.

Gregorian: Clavius' computus in the form given by Knuth (The Art of Computer Programming, vol. 1,
1.3.2, exercise 14).  Julian: the traditional table by golden number.
-/

namespace Verif.Spec

/-- Gregorian epact, with the two exceptional adjustments. -/
def epact (y : Int) : Int :=
  let golden := y % 19 + 1
  let century := y / 100 + 1
  let skippedLeapYears := 3 * century / 4 - 12
  let moonCorrection := (8 * century + 5) / 25 - 5
  let e := (11 * golden + 20 + moonCorrection - skippedLeapYears) % 30
  if (e = 25 ∧ golden > 11) ∨ e = 24 then e + 1 else e

/-- Gregorian paschal full moon, day of March. -/
def gregorianFullMoon (y : Int) : Int :=
  let n := 44 - epact y
  if n < 21 then n + 30 else n

/-- Julian paschal full moon, day of March, from the golden number. -/
def julianFullMoonTable : List Int :=
  [36, 25, 44, 33, 22, 41, 30, 49, 38, 27, 46, 35, 24, 43, 32, 21, 40, 29, 48]

def julianFullMoon (y : Int) : Int := julianFullMoonTable.getD (y % 19).toNat 0

/-- `j` is the first Sunday strictly after day number `fullMoon` (day numbers modulo 7: Sunday 6). -/
def FirstSundayAfter (fullMoon j : Int) : Prop :=
  fullMoon < j ∧ j % 7 = 6 ∧ ∀ j', fullMoon < j' → j' % 7 = 6 → j ≤ j'

end Verif.Spec
