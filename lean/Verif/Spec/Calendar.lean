/-!
# Specification: what a calendar is

Independent of the model of the code.  A calendar is a choice, for every year, of the list of
month lengths, plus the day number of the first day of year 0.  Day numbers then follow by
counting days.
-/

namespace Verif.Spec

/-- A rule-based calendar: month lengths of each year (a month of length 0 does not occur in that
    year), and the day number of the first day of year 0. -/
structure Calendar where
  months : Int → List Int
  firstDayOfYear0 : Int

namespace Calendar

/-- Number of days in year `y`. -/
def yearLength (c : Calendar) (y : Int) : Int := (c.months y).sum

/-- Number of days in years `0, ..., n-1`. -/
def daysFrom0 (c : Calendar) : Nat → Int
  | 0 => 0
  | n + 1 => c.daysFrom0 n + c.yearLength n

/-- Number of days in years `-1, ..., -n`. -/
def daysBefore0 (c : Calendar) : Nat → Int
  | 0 => 0
  | n + 1 => c.daysBefore0 n + c.yearLength (-(n + 1 : Nat))

/-- Day number of the first day of year `y`: count whole years forward or backward. -/
def newYear (c : Calendar) : Int → Int
  | .ofNat n => c.firstDayOfYear0 + c.daysFrom0 n
  | .negSucc n => c.firstDayOfYear0 - c.daysBefore0 (n + 1)

/-- The date `d`/`m`/`y` exists. -/
def Exists (c : Calendar) (d m y : Int) : Prop :=
  1 ≤ m ∧ 1 ≤ d ∧ ∃ len, (c.months y)[(m - 1).toNat]? = some len ∧ d ≤ len

/-- The day number of a date: days before the year, days of the earlier months, day of month. -/
def dayNumber (c : Calendar) (d m y : Int) : Int :=
  c.newYear y + ((c.months y).take (m - 1).toNat).sum + (d - 1)

end Calendar

/-- Date order: year, then month, then day. -/
def DateLt (d m y d' m' y' : Int) : Prop :=
  y < y' ∨ (y = y' ∧ (m < m' ∨ (m = m' ∧ d < d')))

/-- Gregorian leap years. -/
def gregorianLeap (y : Int) : Prop := 4 ∣ y ∧ (¬ 100 ∣ y ∨ 400 ∣ y)

instance (y : Int) : Decidable (gregorianLeap y) := by unfold gregorianLeap; infer_instance

/-- Julian leap years. -/
def julianLeap (y : Int) : Prop := 4 ∣ y

instance (y : Int) : Decidable (julianLeap y) := by unfold julianLeap; infer_instance

/-- The twelve Roman months (the library always reserves a thirteenth slot, empty here). -/
def romanMonths (leap : Prop) [Decidable leap] : List Int :=
  [31, if leap then 29 else 28, 31, 30, 31, 30, 31, 31, 30, 31, 30, 31, 0]

/-- Proleptic Gregorian calendar with astronomical year numbering; 1 Jan 0 is JD 1721060. -/
def gregorian : Calendar where
  months y := romanMonths (gregorianLeap y)
  firstDayOfYear0 := 1721060

/-- Proleptic Julian calendar; 1 Jan 0 (1 BC) is JD 1721058. -/
def julian : Calendar where
  months y := romanMonths (julianLeap y)
  firstDayOfYear0 := 1721058

/-- Tabular Islamic calendar: years 2, 5, 7, 10, 13, 16, 18, 21, 24, 26, 29 of each 30 are leap. -/
def islamicLeap (y : Int) : Prop := y % 30 ∈ [2, 5, 7, 10, 13, 16, 18, 21, 24, 26, 29]

instance (y : Int) : Decidable (islamicLeap y) := by unfold islamicLeap; infer_instance

/-- Tabular Islamic calendar, civil epoch: 1 Muharram 1 is JD 1948440 (16 July 622 Julian), so
    year 0, a common year of 354 days, starts on JD 1948086. -/
def islamic : Calendar where
  months y := [30, 29, 30, 29, 30, 29, 30, 29, 30, 29, 30, if islamicLeap y then 30 else 29, 0]
  firstDayOfYear0 := 1948086

/-- Arithmetic Persian calendar (Birashk): leap years of the 2820-year cycle. -/
def persianLeap (y : Int) : Prop := ((y - 474) % 2820 + 474 + 38) * 682 % 2816 < 682

instance (y : Int) : Decidable (persianLeap y) := by unfold persianLeap; infer_instance

/-- Arithmetic Persian calendar; 1 Farvardin 1 is JD 1948321, so year 0 starts at 1947955
    (year 0 is a leap year of 366 days). -/
def persian : Calendar where
  months y := [31, 31, 31, 31, 31, 31, 30, 30, 30, 30, 30, if persianLeap y then 30 else 29, 0]
  firstDayOfYear0 := 1947955

/-! ### Hebrew calendar: the traditional rules

Time is counted in parts (halakim, 1080 to the hour); a day runs from 6 pm to 6 pm.  The day count
used here has day 0 modulo 7 = Saturday, 1 = Sunday, ..., 6 = Friday. -/

/-- Leap years of the 19-year cycle: 3, 6, 8, 11, 14, 17 and 19. -/
def hebrewLeap (y : Int) : Prop := y % 19 ∈ [0, 3, 6, 8, 11, 14, 17]

instance (y : Int) : Decidable (hebrewLeap y) := by unfold hebrewLeap; infer_instance

/-- Parts from the start of day 0 to the mean new moon ("molad") of Tishri of year `y`:
    the first one was on Monday at 5 h 204 parts; a month is 29 d 12 h 793 p = 765433 parts, and
    235 months make 19 years. -/
def hebrewMolad (y : Int) : Int := 2 * 25920 + 5604 + 765433 * ((235 * y - 234) / 19)

/-- The day of Hebrew New Year, relative to day 0: the day of the molad, with the four
    postponements. -/
def hebrewNewYearDay (y : Int) : Int :=
  let day := hebrewMolad y / 25920
  let parts := hebrewMolad y % 25920
  if parts ≥ 18 * 1080 then                                -- "old molad"
    if (day + 1) % 7 ∈ [1, 4, 6] then day + 2 else day + 1   -- not Sunday, Wednesday, Friday
  else if day % 7 ∈ [1, 4, 6] then day + 1
  else if day % 7 = 3 ∧ parts ≥ 9 * 1080 + 204 ∧ ¬ hebrewLeap y then day + 2
  else if day % 7 = 2 ∧ parts ≥ 15 * 1080 + 589 ∧ hebrewLeap (y - 1) then day + 1
  else day

end Verif.Spec
