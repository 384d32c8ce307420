import Verif.Model.AddOff
import Verif.Model.B32

/-!
# Model of the program that makes addresses of ephemerides, /repo/jpl_url.c

`double`s are rational numbers; `get_time_from_string` (`time`, of the time before it and the text) is a parameter.  The
messages are left out; `exit` is `Outcome.abort`.
-/

namespace Verif.JplUrl

/-- `intl_desig` of the table of /repo/jpl_xref.h:17-53; codes and numbers are those of `Verif.AddOff.xrefs`. -/
def desigs : List (List Nat) :=
  [bytes "2022-070A", bytes "1997-061A", bytes "1999-040B", bytes "2023-098A", bytes "2022-156ZZZ", bytes "2023-092A",
   bytes "2024-182A", bytes "2013-074A", bytes "2024-119A", bytes "2014-076A", bytes "2024-180A", bytes "1990-037B",
   bytes "2024-030A", bytes "2021-130A", bytes "2023-053A", bytes "2009-011A", bytes "2015-070A", bytes "2021-093A",
   bytes "2022-168B", bytes "2013-009D", bytes "2025-000ZZZ", bytes "2006-001A", bytes "2016-055A", bytes "2018-065A",
   bytes "2024-006A", bytes "2023-157A", bytes "2023-137D", bytes "1995-065A", bytes "2020-010A", bytes "2003-038A",
   bytes "2006-047A", bytes "2006-047B", bytes "2004-047A", bytes "2018-038A", bytes "2020-049A", bytes "2009-071A",
   bytes "2021-050B"]

/-- The rows of the table: code, number and designation. -/
def rows : List ((List Nat × Int) × List Nat) := AddOff.xrefs.zip desigs

/-- A row that ends the loop, lines 53-56. -/
def fits (a : List Nat) (r : (List Nat × Int) × List Nat) : Bool := a == r.1.1 || a == r.2 || atoi a == r.1.2

/-- `min_jd`, line 49. -/
def minJd : ℚ := 2447892 + 1 / 2

/-- The address, lines 71-77. -/
def url (number : Int) (jd1 jd2 : ℚ) : List Nat :=
  bytes "https://ssd.jpl.nasa.gov/api/horizons.api?format=text" ++ (bytes "&COMMAND='" ++ decInt number ++ bytes "'") ++
  bytes "&OBJ_DATA='YES'&TABLE_TYPE='V'" ++ (bytes "&START_TIME='JD" ++ Time.fmtFixed 6 jd1 ++ bytes "'") ++
  (bytes "&STOP_TIME='JD" ++ Time.fmtFixed 6 jd2 ++ bytes "'") ++
  (bytes "&STEP_SIZE='" ++ decInt (B32.trunc ((jd2 - jd1) * 10 + 1 / 2)) ++ bytes "'") ++ bytes "&VEC_TABLE='2'&VEC_LABELS='NO'\n"

/-- The program with its first three arguments, lines 44-79. -/
def main (time : ℚ → List Nat → ℚ) (a b c : List Nat) : Outcome (List Nat) :=
  match rows.find? (fits a) with
  | none => .abort
  | some r =>
    let jd1 := time 0 b
    let jd2 := time jd1 c
    if jd1 < minJd ∨ jd2 < minJd then .abort else .ok (url r.1.2 jd1 jd2)

end Verif.JplUrl
