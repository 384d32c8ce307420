import Verif.Model.TimeSplit
import Verif.Model.Bytes

/-!
# Model of `full_ctimel`, /repo/miscell.cpp:263-458

Times are elements of an ordered field with a floor function: no rounding errors.  The output buffer has 80 bytes
(`max_buff_size`, line 314).  The names of months and weekdays are parameters; `none` is a NULL pointer.
`printf` with `%f` rounds to the nearest, ties to even.
-/

namespace Verif.Time

open Verif Verif.Date

variable {K : Type} [Field K] [LinearOrder K] [IsStrictOrderedRing K] [FloorRing K]

/-- The `FULL_CTIME_FORMAT_` part of the format, /repo/date.h:45-52, except year, JD and MJD; the mask also lets
    the unassigned value 0x700 through. -/
inductive Out where
  | seconds | hhmm | hh | day | unassigned
deriving DecidableEq, Repr

/-- The format word taken apart, /repo/date.h:45-106. -/
structure Fmt where
  out : Out
  precision : Nat := 0
  calendar : Int := 0
  yearFirst : Bool := false
  monthDay : Bool := false
  monthsAsDigits : Bool := false
  timeOnly : Bool := false
  leadingZeroes : Bool := false
  twoDigitYear : Bool := false
  noYear : Bool := false
  dowFirst : Bool := false
  dowLast : Bool := false
  noSpaces : Bool := false
  rounding : Bool := false
  noColons : Bool := false
  dayOfYear : Bool := false

/-- `%wd`. -/
def fmtBlank (w : Nat) (z : Int) : List Nat :=
  let s := decInt z
  List.replicate (w - s.length) 32 ++ s

/-- `%0wd`. -/
def fmtZero (w : Nat) (z : Int) : List Nat :=
  if z < 0 then 45 :: pad (w - 1) z.natAbs else pad w z.toNat

/-- `leading_zeroes ? "%0wd" : "%wd"`. -/
def fmtLz (lz : Bool) (w : Nat) (z : Int) : List Nat := if lz then fmtZero w z else fmtBlank w z

/-- The digits of `show_remainder`, /repo/miscell.cpp:271-280; `none` if the assertion on a digit fails. -/
def remainderDigits : Nat → K → Option (List Nat)
  | 0, _ => some []
  | p + 1, r =>
    let digit := trunc (r * 10)
    if 0 ≤ digit ∧ digit ≤ 9 then
      (remainderDigits p (r * 10 - digit)).map ((48 + digit.toNat) :: ·)
    else none

/-- `show_remainder`, /repo/miscell.cpp:267-282: the bytes written, without the NUL. -/
def showRemainder (r : K) (precision : Nat) : Outcome (List Nat) :=
  if 0 ≤ r ∧ r < 1 then
    match remainderDigits precision r with
    | some ds => .ok (46 :: ds)
    | none => .abort
  else .abort

/-- `units`, /repo/miscell.cpp:317-324. -/
def Out.units : Out → Int
  | .seconds => 86400
  | .hhmm => 1440
  | .hh => 24
  | _ => 1

/-- `add_on`, /repo/miscell.cpp:325-330. -/
def addOn (f : Fmt) : K :=
  (1 / 10) ^ f.precision * (if f.rounding then (1 / 2) / (f.out.units : K) else (1 / 20) / 86400)

/-- The time after lines 331 and 368. -/
def shifted (f : Fmt) (t2k : K) : K := t2k + addOn f + 1 / 2

/-- The day number given to `day_to_dmy`, line 379. -/
def ctimeDay (f : Fmt) (t2k : K) : Int := ⌊shifted f t2k⌋ + 2451545

/-- `snprintf_append`, `snprintf_err`, `strlcat_err` to the 80-byte buffer: abort if it does not fit. -/
def app (buff txt : List Nat) : Outcome (List Nat) :=
  if buff.length + txt.length ≥ 80 then .abort else .ok (buff ++ txt)

/-- The day of the month with its decimals, lines 403-405; `day_str` has 15 bytes. -/
def dayText (f : Fmt) (day : Int) (remains : K) : Outcome (List Nat) :=
  let s := fmtLz f.leadingZeroes 2 day
  if f.out = .day ∧ f.precision ≠ 0 then
    (showRemainder remains f.precision).bind fun r =>
      if 2 + r.length + 1 > 15 then .ub else .ok (s.take 2 ++ r)
  else if s.length ≥ 15 then .abort
  else .ok s

/-- `month_str`, lines 389-392; it has 25 bytes. -/
def monthText (names : Int → Option (List Nat)) (f : Fmt) (month : Int) : Outcome (List Nat) :=
  if f.monthsAsDigits then .ok (fmtLz f.leadingZeroes 2 month)
  else match names month with
    | none => .ub
    | some n => if n.length ≥ 25 then .abort else .ok n

/-- `year_str`, lines 394-397; it has 20 bytes. -/
def yearText (f : Fmt) (year : Int) : Outcome (List Nat) :=
  let s := if f.twoDigitYear then fmtZero 2 (year.tmod 100).natAbs else fmtLz f.leadingZeroes 4 year
  if s.length ≥ 20 then .abort else .ok s

/-- The date, lines 383-423. -/
def dateText (names : Int → Option (List Nat)) (f : Fmt) (buff : List Nat) (day month year dayOfYear : Int) (remains : K) :
    Outcome (List Nat) :=
  (monthText names f month).bind fun monthStr =>
  (yearText f year).bind fun yearStr =>
  (if f.yearFirst ∧ !f.noYear then app buff (yearStr ++ [32]) else .ok buff).bind fun buff =>
  (dayText f day remains).bind fun dayStr =>
  (if f.dayOfYear then app buff (fmtZero 3 dayOfYear ++ dayStr.drop 2)
   else if f.monthDay then app buff (monthStr ++ [32] ++ dayStr)
   else app buff (dayStr ++ [32] ++ monthStr)).bind fun buff =>
  (if !f.yearFirst ∧ !f.noYear then app buff (32 :: yearStr) else .ok buff).bind fun buff =>
  if f.out ≠ .day then app buff [32] else .ok buff

/-- Hours, minutes and seconds, lines 430-442. -/
def hmsText (out : Out) (i : Int) : List Nat :=
  match out with
  | .seconds => fmtBlank 2 (i.tdiv 3600) ++ [58] ++ fmtZero 2 ((i.tdiv 60).tmod 60) ++ [58] ++ fmtZero 2 (i.tmod 60)
  | .hhmm => fmtBlank 2 (i.tdiv 60) ++ [58] ++ fmtZero 2 (i.tmod 60)
  | .hh => fmtBlank 2 i
  | _ => []

/-- Line 445-446: the first byte becomes `0` if it is a blank. -/
def fixLead (lz : Bool) (s : List Nat) : List Nat :=
  match s with
  | 32 :: t => if lz then 48 :: t else 32 :: t
  | s => s

/-- The time of day, lines 425-450.  `show_remainder` does not check the buffer. -/
def timeText (f : Fmt) (buff : List Nat) (remains : K) : Outcome (List Nat) :=
  let remains : K := remains * f.out.units
  let i := trunc remains
  let i := if i = f.out.units then i - 1 else i
  let hms := hmsText f.out i
  (app buff hms).bind fun _ =>
  if f.out = .day then .ok (buff ++ hms)
  else
    let buff := buff ++ fixLead f.leadingZeroes hms
    if f.precision = 0 then .ok buff
    else (showRemainder (remains - i) f.precision).bind fun r =>
      if buff.length + r.length + 1 > 80 then .ub else .ok (buff ++ r)

/-- The day of the week, lines 370-372. -/
def dayOfWeek (f : Fmt) (t2k : K) : Int :=
  let d := (⌊shifted f t2k⌋ + 6).tmod 7
  if d < 0 then d + 7 else d

/-- `set_day_of_week_name( ..., NULL)` printed by `%s`. -/
def dowText (names : Int → Option (List Nat)) (d : Int) : Outcome (List Nat) :=
  match names d with
  | none => .ub
  | some n => .ok n

/-- `full_ctimel` given what `day_to_dmy` returned for `ctimeDay` and what `dmy_to_day` gives for day 0 of
    month 1 of the year. -/
def ctime (months days : Int → Option (List Nat)) (f : Fmt) (t2k : K) (day month year day0 : Int) : Outcome (List Nat) :=
  let t := shifted f t2k
  let remains : K := t - ⌊t⌋
  (if f.dowFirst then (dowText days (dayOfWeek f t2k)).bind fun n => app [] (n ++ [32]) else .ok []).bind fun buff =>
  (if f.timeOnly then .ok buff
   else dateText months f buff day month year (⌊t⌋ + 2451545 - day0) remains).bind fun buff =>
  (timeText f buff remains).bind fun buff =>
  (if f.dowLast then (dowText days (dayOfWeek f t2k)).bind fun n => app buff (32 :: n) else .ok buff).bind fun buff =>
  let buff := if f.noSpaces then buff.filter (· ≠ 32) else buff
  .ok (if f.noColons then buff.filter (· ≠ 58) else buff)

/-- `full_ctimel`. -/
def FullCtimel (months days : Int → Option (List Nat)) (f : Fmt) (t2k : K) (out : Outcome (List Nat)) : Prop :=
  ∃ d m y z, dayToDmyReturns (ctimeDay f t2k) f.calendar ⟨d, some m, y⟩ ∧ dmyToDay 0 1 y f.calendar = some z ∧
    ctime months days f t2k d m y z = out

/-! ## Years, Julian Dates and Modified Julian Dates, lines 332-366 -/

/-- To the nearest integer, ties to even. -/
def roundEven (x : K) : Int :=
  if x - ⌊x⌋ < 1 / 2 then ⌊x⌋ else if 1 / 2 < x - ⌊x⌋ then ⌊x⌋ + 1 else if ⌊x⌋ % 2 = 0 then ⌊x⌋ else ⌊x⌋ + 1

/-- `%.pLf`. -/
def fmtFixed (p : Nat) (x : K) : List Nat :=
  let a := (roundEven (|x| * 10 ^ p)).toNat
  (if x < 0 then [45] else []) ++ dec (a / 10 ^ p) ++ (if p = 0 then [] else 46 :: pad p (a % 10 ^ p))

/-- `add_on` for `units = 1`, lines 323-330. -/
def addOnDay (p : Nat) (rounding : Bool) : K := (1 / 10) ^ p * (if rounding then 1 / 2 else (1 / 20) / 86400)

/-- Leading blanks become zeroes, lines 345-347. -/
def zeroLead : List Nat → List Nat
  | 32 :: s => 48 :: zeroLead s
  | s => s

/-- `FULL_CTIME_FORMAT_YEAR`, lines 332-349; `tbuff` has 40 bytes. -/
def ctimeYear (p : Nat) (leadingZeroes rounding : Bool) (t2k : K) : Outcome (List Nat) :=
  let s := fmtFixed 16 ((t2k + addOnDay p rounding) / (1461 / 4) + 2000)
  let s := List.replicate (21 - s.length) 32 ++ s
  if s.length ≥ 40 then .abort
  else
    let s := s.take (if p = 0 then 4 else p + 5)
    .ok (if leadingZeroes then zeroLead s else s)

/-- `FULL_CTIME_FORMAT_JD` and `FULL_CTIME_FORMAT_MJD`, lines 350-366.  The text never starts with a blank, so that
    the loop of lines 362-364 does nothing. -/
def ctimeJd (mjd : Bool) (p : Nat) (rounding : Bool) (t2k : K) : Outcome (List Nat) :=
  let x := t2k + addOnDay p rounding + (if mjd then 2451545 - 4800001 / 2 else 2451545)
  let s := bytes "JD " ++ fmtFixed p x
  if s.length ≥ 80 then .abort else .ok (if mjd then 77 :: s else s)

end Verif.Time
