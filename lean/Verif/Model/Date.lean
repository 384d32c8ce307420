import Verif.Model.CInt
import Verif.Model.ChineseTable

/-!
# Model of /repo/date.cpp: the calendar conversions

`long` is modelled as `Int`.  `char month_data[13]` is a list of 13 `Int`s, each obtained through
`schar` where the C code casts a computed value to `char`.  `get_calendar_data` returns `none`
where the C function returns a non-zero error code.  The `do`/`while` search in `day_to_dmy`
takes a fuel argument; `dayToDmyReturns` (below) is "the call returns this".
-/

namespace Verif.Date

/-- Calendar codes, /repo/date.h:133-141. -/
def GREGORIAN : Int := 0
def JULIAN : Int := 1
def HEBREW : Int := 2
def ISLAMIC : Int := 3
def REVOLUTIONARY : Int := 4
def PERSIAN : Int := 5
def JULIAN_GREGORIAN : Int := 6
def CHINESE : Int := 7
def MODERN_PERSIAN : Int := 8

/-- /repo/date.h: `GREGORIAN_SWITCHOVER_JD`. -/
def GREGORIAN_SWITCHOVER_JD : Int := 2299160

/-- /repo/date.cpp:145. -/
def JUL_GREG_CALENDAR_EPOCH : Int := 1721060
/-- /repo/date.cpp:187. -/
def ISLAMIC_CALENDAR_EPOCH : Int := 1948086
/-- /repo/date.cpp:220. -/
def HALAKIM_IN_DAY : Int := 24 * 1080
/-- /repo/date.cpp:221. -/
def HEBREW_CALENDAR_EPOCH : Int := 347996
/-- /repo/date.cpp (`REVOLUTIONARY_CALENDAR_EPOCH`). -/
def REVOLUTIONARY_CALENDAR_EPOCH : Int := 2375475
/-- /repo/date.cpp:466-468. -/
def JALALI_ZERO : Int := 1947954
def LOWER_PERSIAN_YEAR : Int := -1096
def UPPER_PERSIAN_YEAR : Int := 2327
/-- /repo/date.cpp:598. -/
def CHINESE_CALENDAR_EPOCH : Int := 757862

/-- What `get_calendar_data` leaves in `days[0]` and `month_data[0..12]`. -/
structure YearData where
  start : Int
  months : List Int
deriving DecidableEq, Repr

/-- `get_jul_greg_year_data`, /repo/date.cpp:147-177. -/
def julGregYearData (year : Int) (julian : Bool) : YearData :=
  let days :=
    if year ≥ 0 then
      let d := year * 365 + year.tdiv 4
      if !julian then d + ((-year).tdiv 100 + year.tdiv 400) else d
    else
      let d := year * 365 + (year - 3).tdiv 4
      if !julian then d + ((-(year - 99)).tdiv 100 + (year - 399).tdiv 400) else d
  let days := if julian then days - 2 else days
  let leap : Bool := year.tmod 4 = 0 && (year.tmod 100 ≠ 0 || year.tmod 400 = 0 || julian)
  let days := if leap then days - 1 else days
  { start := days + (JUL_GREG_CALENDAR_EPOCH + 1)
    months := [31, if leap then 29 else 28, 31, 30, 31, 30, 31, 31, 30, 31, 30, 31, 0] }

/-- `get_islamic_year_data`, /repo/date.cpp:189-210. -/
def islamicYearData (year : Int) : YearData :=
  let yearWithinCycle := cmod year 30
  let thirtyYearCycles := (year - yearWithinCycle).tdiv 30
  let tval := yearWithinCycle * 11 + 3
  { start := ISLAMIC_CALENDAR_EPOCH + thirtyYearCycles * 10631 + yearWithinCycle * 354
               + tval.tdiv 30
    months := [30, 29, 30, 29, 30, 29, 30, 29, 30, 29, 30,
               29 + (if tval.tmod 30 > 18 then 1 else 0), 0] }

/-- `lunations_to_tishri_1`, /repo/date.cpp:223-232. -/
def lunationsToTishri1 (year : Int) : Int :=
  let w := cmod (year - 1) 19
  let c := (year - 1 - w).tdiv 19
  c * 235 + w * 12 + (w * 7 + 1).tdiv 19

/-- `lunations_to_days_and_halakim`, /repo/date.cpp:261-273 (`days`, `halakim` in and out). -/
def lunationsToDaysAndHalakim (lunations days halakim : Int) : Int × Int :=
  let w := cmod lunations 25920
  let g := (lunations - w).tdiv 25920
  let days := days + (g * 765433 + w * 29)
  let halakim := halakim + w * 13753
  (days + halakim.tdiv HALAKIM_IN_DAY, halakim.tmod HALAKIM_IN_DAY)

/-- `find_tishri_1`, /repo/date.cpp:275-281: (day, halakim) of the mean new moon. -/
def findTishri1 (year : Int) : Int × Int :=
  lunationsToDaysAndHalakim (lunationsToTishri1 year) 2 5604

/-- `is_hebrew_leap_year`, /repo/date.cpp:283-286. -/
def isHebrewLeapYear (year : Int) : Bool := cmod (year * 7 - 6) 19 ≥ 12

/-- One pass of the loop at /repo/date.cpp:293-314: `days[i]` for `year + i`. -/
def hebrewNewYear (year : Int) : Int :=
  let (day, halakim) := findTishri1 year
  let day :=
    if cmod day 7 = 3 ∧ halakim ≥ 9 * 1080 + 204 ∧ !isHebrewLeapYear year then day + 2
    else if cmod day 7 = 2 ∧ halakim ≥ 15 * 1080 + 589 ∧ isHebrewLeapYear (year - 1) then day + 1
    else
      let day := if halakim > 18 * 1080 then day + 1 else day
      if cmod day 7 = 1 ∨ cmod day 7 = 4 ∨ cmod day 7 = 6 then day + 1 else day
  day + HEBREW_CALENDAR_EPOCH

/-- `get_hebrew_year_data`, /repo/date.cpp:291-332.  (`days[1]` is used here only for the year
    length; `get_calendar_data` overwrites it.) -/
def hebrewYearData (year : Int) : YearData :=
  let d0 := hebrewNewYear year
  let yearLength := hebrewNewYear (year + 1) - d0
  let leap := isHebrewLeapYear year
  let m1 := if yearLength = 355 ∨ yearLength = 385 then 30 else 29
  let m2 := if yearLength = 353 ∨ yearLength = 383 then 29 else 30
  { start := d0
    months := [30, m1, m2, 29, 30, if leap then 30 else 29, if leap then 29 else 0,
               30, 29, 30, 29, 30, 29] }

/-- The block loop of `jd_of_french_rev_year`, /repo/date.cpp:438-445: `i` is the loop counter,
    the lists are `breaks[i..8]`, `deltas[i..8]`.  `none` is an access past the end of the
    tables (the loop goes on while `rval` is zero). -/
def frenchRevLoop (year : Int) : Nat → List Int → List Int → Option Int
  | i, b :: bs, d :: ds =>
    if year < b ∨ i = 8 then
      let rval := REVOLUTIONARY_CALENDAR_EPOCH + year * 365 + (d + year * 683).tdiv 2820
      let rval := if i < 5 then rval - 1 else rval
      if rval = 0 then frenchRevLoop year (i + 1) bs ds else some rval
    else frenchRevLoop year (i + 1) bs ds
  | _, _, _ => none

/-- /repo/date.cpp:432-433. -/
def frenchBreaks : List Int := [-814, -492, -331, -108, 0, 144, 301, 487, 611]
/-- /repo/date.cpp:434-435. -/
def frenchDeltas : List Int := [405, 439, 498, 469, 419, 393, 322, 184, 92]

/-- `jd_of_french_rev_year`, /repo/date.cpp:430-447 (the branch compiled when
    `REVOLUTIONARY_128_RULE` is not defined, which is the default). -/
def frenchRevYear (year : Int) : Option Int := frenchRevLoop year 0 frenchBreaks frenchDeltas

/-- `get_revolutionary_year_data`, /repo/date.cpp:450-460.  `none`: the table was overrun. -/
def revolutionaryYearData (year : Int) : Option YearData := do
  let d0 ← frenchRevYear year
  let d1 ← frenchRevYear (year + 1)
  some { start := d0, months := List.replicate 12 30 ++ [schar (d1 - d0 - 360)] }

/-- The loop of `jalali_jd0`, /repo/date.cpp:480-489; `i` counts blocks. -/
def jalaliLoop (year : Int) : Nat → List Int → List Int → Int
  | i, b :: bs, d :: ds =>
    if year < b then
      let rval := JALALI_ZERO + year * 365 + (d + year * 303).tdiv 1250
      if i < 3 then rval - 1 else rval
    else jalaliLoop year (i + 1) bs ds
  | _, _, _ => -1

/-- /repo/date.cpp:472-473. -/
def jalaliBreaks : List Int := [-708, -221, -3, 6, 394, 720, 786, 1145, 1635, 1701, 1866, 2328]
/-- /repo/date.cpp:474-475. -/
def jalaliDeltas : List Int := [1108, 1047, 984, 1249, 952, 891, 930, 866, 869, 844, 848, 852]

/-- `jalali_jd0`, /repo/date.cpp:470-490. -/
def jalaliJd0 (year : Int) : Int :=
  if year < LOWER_PERSIAN_YEAR then -1 else jalaliLoop year 0 jalaliBreaks jalaliDeltas

/-- `persian_modern_jd0`, /repo/date.cpp:498-506. -/
def persianModernJd0 (year : Int) : Int :=
  let epbase := year - 474
  let epyear := 474 + cmod epbase 2820
  (epyear * 31 - 5).tdiv 128 + (epyear - 1) * 365 + ((year - epyear).tdiv 2820) * 1029983 + 1948320

/-- `get_jalali_year_data`, /repo/date.cpp:514-536. -/
def jalaliYearData (year : Int) (isModern : Bool) : YearData :=
  let isModern := isModern || decide (year < LOWER_PERSIAN_YEAR ∨ year > UPPER_PERSIAN_YEAR)
  let d0 := if isModern then persianModernJd0 year + 1 else jalaliJd0 year + 1
  let d1 := if isModern then persianModernJd0 (year + 1) + 1 else jalaliJd0 (year + 1) + 1
  { start := d0
    months := List.replicate 6 31 ++ List.replicate 5 30 ++ [schar (d1 - d0 - 336), 0] }

/-- `get16sbits( chinese_calendar_data)`, /repo/date.cpp:612, /repo/get_bin.h:62-69. -/
def chineseNYears : Int := s16 (chineseByte 1 * 256 + chineseByte 0 : Nat)
/-- `get16sbits( chinese_calendar_data + 2)`, /repo/date.cpp:611. -/
def chineseYear0 : Int := s16 (chineseByte 3 * 256 + chineseByte 2 : Nat)

/-- `packed_val` for table index `index`: three table bytes and a zero byte read by
    `get32sbits`, /repo/date.cpp:616-618 (24-bit values, so the signed conversion keeps them). -/
def chinesePacked (index : Nat) : Nat :=
  chineseByte (4 + 3 * index + 2) * 65536 + chineseByte (4 + 3 * index + 1) * 256
    + chineseByte (4 + 3 * index)

/-- `month_data[i]` of a packed Chinese year before the thirteenth month is fixed up,
    /repo/date.cpp:619-620. -/
def chineseMonth (packed i : Nat) : Int := if (packed >>> i) % 2 = 1 then 30 else 29

/-- The year data unpacked from `packed_val`, /repo/date.cpp:619-627. -/
def chineseUnpack (year : Int) (packed : Nat) : YearData :=
  let ic := (packed >>> 13) % 14
  { start := year * 365 + year.tdiv 4 + CHINESE_CALENDAR_EPOCH + ((packed >>> 13) / 14 : Nat)
    months := (List.range 12).map (chineseMonth packed)
                ++ [if ic ≠ 0 then chineseMonth packed 12 else 0] }

/-- The value left in the global `chinese_intercalary_month`, /repo/date.cpp:621-623. -/
def chineseIntercalary (packed : Nat) : Int :=
  let ic := (packed >>> 13) % 14
  if ic ≠ 0 then (ic : Int) + 1 else 0

/-- `get_chinese_year_data`, /repo/date.cpp:600-630; `none` for the `-2` return.  The second
    component is the new value of the global `chinese_intercalary_month`. -/
def chineseYearData (year : Int) : Option (YearData × Int) :=
  let index := year - chineseYear0
  if index < 0 ∨ index ≥ chineseNYears then none
  else
    let packed := chinesePacked index.toNat
    some (chineseUnpack year packed, chineseIntercalary packed)

/-- `get_calendar_data`, /repo/date.cpp:634-678, without its effect on
    `chinese_intercalary_month` (see `intercalaryAfter`).  `none`: non-zero return.
    `days[1]` is `yearEnd` below. -/
def getCalendarData (year : Int) (calendar : Int) : Option YearData :=
  if calendar = GREGORIAN ∨ calendar = JULIAN then
    some (julGregYearData year (calendar = JULIAN))
  else if calendar = HEBREW then some (hebrewYearData year)
  else if calendar = ISLAMIC then some (islamicYearData year)
  else if calendar = REVOLUTIONARY then revolutionaryYearData year
  else if calendar = PERSIAN then
    if year < LOWER_PERSIAN_YEAR ∨ year > UPPER_PERSIAN_YEAR then none
    else some (jalaliYearData year false)
  else if calendar = CHINESE then (chineseYearData year).map (·.1)
  else if calendar = MODERN_PERSIAN then some (jalaliYearData year true)
  else none

/-- The global `chinese_intercalary_month` after `get_calendar_data( year, ..., calendar)`, when it
    was `old` before, /repo/date.cpp:595, 613-623.  `get_chinese_intercalary_month`,
    /repo/date.cpp:680-683, returns it. -/
def intercalaryAfter (old year calendar : Int) : Int :=
  if calendar = CHINESE then
    match chineseYearData year with
    | some (_, ic) => ic
    | none => old
  else old

/-- `days[1]`, /repo/date.cpp:671-676. -/
def YearData.stop (yd : YearData) : Int := yd.start + yd.months.sum

/-- The calendar that `dmy_to_day` actually uses, /repo/date.cpp:701-708. -/
def calendarForDate (day month year calendar : Int) : Int :=
  if calendar = JULIAN_GREGORIAN then
    if year > 1582 ∨ (year = 1582 ∧ (month > 10 ∨ (month = 10 ∧ day > 5))) then GREGORIAN
    else JULIAN
  else calendar

/-- `dmy_to_day`, /repo/date.cpp:692-722.  `none` is an out-of-bounds read of `mdata`
    (undefined behaviour): month > 14, or month outside 1..13 for the days-in-month request. -/
def dmyToDay (day month year calendar : Int) : Option Int :=
  match getCalendarData year (calendarForDate day month year calendar) with
  | none => some 0
  | some yd =>
    if day = -999 then
      if 1 ≤ month ∧ month ≤ 13 then yd.months[(month - 1).toNat]? else none
    else if month ≤ 14 then
      some (yd.start + (yd.months.take (month - 1).toNat).sum + (day - 1))
    else none

/-- `days_in_month`, /repo/date.cpp:724-728. -/
def daysInMonth (month year calendar : Int) : Option Int := dmyToDay (-999) month year calendar

/-- The tail of `approx_year`, /repo/date.cpp:808-812. -/
def approxYearCore (jd epoch n1 n2 : Int) : Int :=
  let jd := jd - epoch
  let dayInCycle := cmod jd n2
  n1 * ((jd - dayInCycle).tdiv n2) + (dayInCycle * n1).tdiv n2

/-- `approx_year`, /repo/date.cpp:747-813 (`LONGS_ARE_64_BITS` is not defined). -/
def approxYear (jd calendar : Int) : Int :=
  if calendar = GREGORIAN then approxYearCore jd JUL_GREG_CALENDAR_EPOCH 400 (400 * 365 + 97)
  else if calendar = JULIAN then approxYearCore jd (JUL_GREG_CALENDAR_EPOCH - 2) 4 (365 * 4 + 1)
  else if calendar = HEBREW then approxYearCore jd (HEBREW_CALENDAR_EPOCH - 235) 944 344793
  else if calendar = ISLAMIC then approxYearCore jd (ISLAMIC_CALENDAR_EPOCH - 1) 30 10631
  else if calendar = REVOLUTIONARY then
    approxYearCore jd (REVOLUTIONARY_CALENDAR_EPOCH - 1) 2147 784175
  else if calendar = PERSIAN ∨ calendar = MODERN_PERSIAN then
    approxYearCore jd (JALALI_ZERO + 1) 2147 784175
  else if calendar = CHINESE then approxYearCore jd (CHINESE_CALENDAR_EPOCH + 90) 128 46751
  else -1

/-- What `day_to_dmy` leaves in `*day`, `*month`, `*year`.  `month = none`: `*month` was not
    written. -/
structure Dmy where
  day : Int
  month : Option Int
  year : Int
deriving DecidableEq, Repr

/-- How the year search of `day_to_dmy` ends. -/
inductive Search where
  | found (year : Int) (yd : YearData)
  | failed (year : Int)
deriving DecidableEq, Repr

/-- One pass through the `do { } while` body, /repo/date.cpp:836-845:
    `.inl` = leave the loop, `.inr y` = go round again with `*year = y`. -/
def searchStep (data : Int → Option YearData) (jd year : Int) : Search ⊕ Int :=
  match data year with
  | none => .inl (.failed year)
  | some yd =>
    let y1 := if yd.start > jd then year - 1 else year
    let y2 := if yd.stop ≤ jd then y1 + 1 else y1
    if yd.start > jd ∨ yd.stop ≤ jd then .inr y2 else .inl (.found year yd)

/-- The search loop with a bound on the number of passes; `none`: not finished yet. -/
def searchYear (data : Int → Option YearData) (jd : Int) : Nat → Int → Option Search
  | 0, _ => none
  | fuel + 1, year =>
    match searchStep data jd year with
    | .inl r => some r
    | .inr y => searchYear data jd fuel y

/-- The month loop, /repo/date.cpp:847-860; `i` months done, `currJd` running. Returns
    (day, month); month -1 if the loop runs out (then day is the last value assigned). -/
def scanMonths (jd : Int) : Nat → Int → List Int → Int → Int × Int
  | _, _, [], lastDay => (lastDay, -1)
  | i, currJd, m :: ms, _ =>
    let day := jd - currJd
    if day < m then (day + 1, (i : Int) + 1) else scanMonths jd (i + 1) (currJd + m) ms day

/-- The calendar that `day_to_dmy` actually uses, /repo/date.cpp:830-832. -/
def calendarForJd (jd calendar : Int) : Int :=
  if calendar = JULIAN_GREGORIAN then
    if jd > GREGORIAN_SWITCHOVER_JD then GREGORIAN else JULIAN
  else calendar

/-- Last part of `day_to_dmy`, given how the search ended. -/
def finishDmy (jd : Int) : Search → Dmy
  | .failed y => { day := -1, month := none, year := y }
  | .found y yd =>
    let r := scanMonths jd 0 yd.start yd.months (-1)
    { day := r.1, month := some r.2, year := y }

/-- `day_to_dmy`, /repo/date.cpp:822-861, with at most `fuel` passes of the year loop. -/
def dayToDmy (fuel : Nat) (jd calendar : Int) : Option Dmy :=
  let cal := calendarForJd jd calendar
  (searchYear (fun y => getCalendarData y cal) jd fuel (approxYear jd cal)).map (finishDmy jd)

/-- "The call `day_to_dmy( jd, ..., calendar)` returns, leaving `r`." -/
def dayToDmyReturns (jd calendar : Int) (r : Dmy) : Prop :=
  ∃ fuel, dayToDmy fuel jd calendar = some r

end Verif.Date
