import Verif.Model.MutantHex
import Verif.Model.Date

/-!
# Model of /repo/mpc_time.c

`main` with one argument: the fields it prints and the warnings.  The Julian Date printed after them is
`get_time_from_string` of the same text and is not modelled.
-/

namespace Verif.MpcTime

open Verif Verif.Desig Verif.Date

/-- The fields printed, /repo/mpc_time.c:93-96. -/
structure Stamp where
  year : Int
  month : Int
  day : Int
  hour : Int
  minute : Int
  second : Int
  millisec : Int
  deriving DecidableEq

/-- The warnings, /repo/mpc_time.c:105-120. -/
inductive Warning where
  | daysInMonth | millisec | timeOfDay | badLeapSecond | leapSecond
  deriving DecidableEq

/-- `ymd`, `hms` and `millisec`, /repo/mpc_time.c:82-84.  `ub`: the argument has fewer than six bytes, so that
    `id + 3` or `id + 6` is past its end. -/
def values (id : List Nat) : Outcome (Int × Int × Int) :=
  if id.length < 6 then .ub
  else .ok (getMutantHexValue id 3, getMutantHexValue (id.drop 3) 3, getMutantHexValue (id.drop 6) 2)

/-- The fields from the three values, /repo/mpc_time.c:85-96. -/
def stamp (v : Int × Int × Int) : Stamp where
  year := v.1.tdiv (31 * 12) + 1800
  month := (v.1.tdiv 31).tmod 12 + 1
  day := v.1.tmod 31 + 1
  hour := v.2.1.tdiv 3600
  minute := (v.2.1.tdiv 60).tmod 60
  second := v.2.1.tmod 60
  millisec := v.2.2

/-- The warnings, /repo/mpc_time.c:105-120; `none` if `days_in_month` reads outside its table. -/
def warnings (v : Int × Int × Int) : Option (List Warning) :=
  let s := stamp v
  (daysInMonth s.month s.year GREGORIAN).map fun nDays =>
    (if s.day > nDays then [.daysInMonth] else []) ++
    (if s.millisec ≥ 1000 then [.millisec] else []) ++
    (if v.2.1 > 86400 then [.timeOfDay] else []) ++
    (if v.2.1 = 86400 then
      (if s.month.tmod 6 ≠ 0 ∨ s.day ≠ nDays then [.badLeapSecond] else [.leapSecond])
    else [])

/-- The identifier's first eight bytes as the comment describes them, /repo/mpc_time.c:21-37. -/
def encode (year month day seconds millisec : Int) : List Nat :=
  (encodeMutantHex 3 ((year - 1800) * 12 * 31 + (month - 1) * 31 + (day - 1))).1 ++
    (encodeMutantHex 3 seconds).1 ++ (encodeMutantHex 2 millisec).1

end Verif.MpcTime
