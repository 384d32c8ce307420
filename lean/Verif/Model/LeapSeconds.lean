import Verif.Model.CInt

/-!
# Model of the leap-second code: /repo/mjd_defs.h and the integer part of `td_minus_utc`,
/repo/delta_t.cpp:372-458

Integers are unbounded (`int` overflows only for Modified Julian Dates above 2146804705).  The table
of leap seconds is held as dates; its `unsigned short` storage (days since 1972) is checked in the
properties.
-/

namespace Verif.Leap

open Verif

/-- `JAN_1_POS`, /repo/mjd_defs.h:12-13. -/
def jan1Pos (y : Int) : Int := y * 365 + (y - 1).tdiv 4 - (y - 1).tdiv 100 + (y - 1).tdiv 400 - 678940
/-- `JAN_1_NEG`, /repo/mjd_defs.h:14-15. -/
def jan1Neg (y : Int) : Int := y * 365 + y.tdiv 4 - y.tdiv 100 + y.tdiv 400 - 678940 - 1
/-- `JAN_1` … `DEC_1`, /repo/mjd_defs.h:16-28. -/
def JAN_1 (y : Int) : Int := if y > 0 then jan1Pos y else jan1Neg y
def FEB_1 (y : Int) : Int := JAN_1 y + 31
def DEC_1 (y : Int) : Int := JAN_1 (y + 1) - 31
def NOV_1 (y : Int) : Int := DEC_1 y - 30
def OCT_1 (y : Int) : Int := NOV_1 y - 31
def SEP_1 (y : Int) : Int := OCT_1 y - 30
def AUG_1 (y : Int) : Int := SEP_1 y - 31
def JUL_1 (y : Int) : Int := AUG_1 y - 31
def JUN_1 (y : Int) : Int := JUL_1 y - 30
def MAY_1 (y : Int) : Int := JUN_1 y - 31
def APR_1 (y : Int) : Int := MAY_1 y - 30
def MAR_1 (y : Int) : Int := APR_1 y - 31

/-- `BASE_YEAR` and the other form of `JAN_1`, /repo/utc_algo.cpp:64-67. -/
def baseYear : Int := 19999999999
def jan1Utc (y : Int) : Int :=
  y * 365 + (y + baseYear).tdiv 4 - (y + baseYear).tdiv 100 + (y + baseYear).tdiv 400 - 678940
    - (baseYear + 1).tdiv 400 * 97

/-- `utc0`, /repo/delta_t.cpp:367. -/
def utc0 : Int := JAN_1 1972

/-- `leap_intervals`, /repo/delta_t.cpp:414-424 (in days after `utc0`). -/
def leapIntervals : List Int :=
  [JAN_1 1972 - utc0, JUL_1 1972 - utc0, JAN_1 1973 - utc0,
   JAN_1 1974 - utc0, JAN_1 1975 - utc0, JAN_1 1976 - utc0,
   JAN_1 1977 - utc0, JAN_1 1978 - utc0, JAN_1 1979 - utc0,
   JAN_1 1980 - utc0, JUL_1 1981 - utc0, JUL_1 1982 - utc0,
   JUL_1 1983 - utc0, JUL_1 1985 - utc0, JAN_1 1988 - utc0,
   JAN_1 1990 - utc0, JAN_1 1991 - utc0, JUL_1 1992 - utc0,
   JUL_1 1993 - utc0, JUL_1 1994 - utc0, JAN_1 1996 - utc0,
   JUL_1 1997 - utc0, JAN_1 1999 - utc0, JAN_1 2006 - utc0,
   JAN_1 2009 - utc0, JUL_1 2012 - utc0, JUL_1 2015 - utc0,
   JAN_1 2017 - utc0]

/-- The downward search in the table, /repo/delta_t.cpp:451-453: TAI - UTC, or `none` if no entry
    applies.  The first argument is `i + 1`. -/
def searchDown (imjd : Int) : Nat → Option Int
  | 0 => none
  | i + 1 => if imjd - utc0 ≥ leapIntervals.getD i 0 then some ((i : Int) + 10) else searchDown imjd i

/-- The search for the half year containing a day, /repo/delta_t.cpp:430-447: `low` and `high`. -/
def halfYear (imjd : Int) : Int × Int :=
  let day := imjd + 2400000 - 1721058
  let year := (day * 400).tdiv 146097
  let low := JAN_1 year
  let (low, high) := if imjd < low then (JAN_1 (year - 1), low) else (low, JAN_1 (year + 1))
  let july1 := high - (31 + 31 + 30 + 31 + 30 + 31)
  if imjd < july1 then (low, july1) else (july1, high)

/-- TAI - UTC in whole seconds for dates from 1972, /repo/delta_t.cpp:409-454.  `lastMjd` is
    `mjd_end_of_predictive_leap_seconds`; `predict` gives the whole seconds
    `floor( td_minus_ut( middle) + .5 - tdt_minus_tai)` from `low + high` of the half year. -/
def taiMinusUtc (lastMjd : Int) (predict : Int → Int) (imjd : Int) : Option Int :=
  let imjd := if imjd > lastMjd then lastMjd else imjd
  if imjd ≥ DEC_1 2021 then
    let (low, high) := halfYear imjd
    some (predict (low + high))
  else searchDown imjd leapIntervals.length

/-- `ranges`, /repo/delta_t.cpp:379-382. -/
def ranges : List Int :=
  [JAN_1 1961, AUG_1 1961, JAN_1 1962, NOV_1 1963, JAN_1 1964, APR_1 1964,
   SEP_1 1964, JAN_1 1965, MAR_1 1965, JUL_1 1965, SEP_1 1965, JAN_1 1966, FEB_1 1968]

/-- `offset` and `scale`, /repo/delta_t.cpp:387-404, in units of 1e-7 s: constant part, day it refers
    to, and rate per day. -/
def pieces : List (Int × Int × Int) :=
  [(14228180, JAN_1 1961, 12960), (13728180, JAN_1 1961, 12960), (18458580, JAN_1 1962, 11232),
   (19458580, JAN_1 1962, 11232), (32401300, JAN_1 1965, 12960), (33401300, JAN_1 1965, 12960),
   (34401300, JAN_1 1965, 12960), (35401300, JAN_1 1965, 12960), (36401300, JAN_1 1965, 12960),
   (37401300, JAN_1 1965, 12960), (38401300, JAN_1 1965, 12960), (43131700, JAN_1 1966, 25920),
   (42131700, JAN_1 1966, 25920)]

end Verif.Leap
