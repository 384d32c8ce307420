import Verif.Model.Bytes
import Verif.Model.Date

/-!
# Model of the program that finds the constants of the Persian calendar, /repo/persian.cpp:34-58, 92-113 and 145-230

The Julian days at which the years begin (`jds`), which the program has from the times of the equinoxes, are a parameter;
`long`s do not overflow.  `jalali_jd0`, lines 37-58, is that of date.cpp but for white space: `Verif.Date.jalaliJd0`.
-/

namespace Verif.Persian

/-- `is_leap`, lines 145-148. -/
def isLeap (year : Int) : Bool :=
  let remains := year.tmod 33
  let remains := if 18 < remains then remains - 1 else remains
  decide (remains.tmod 4 = 1)

/-- The switches, lines 95-113: `revolutionary` and the arguments left; `none`: `exit`.  The arguments are those after the second. -/
def switches : List (List Nat) → Bool → Option (Bool × List (List Nat))
  | [], r => some (r, [])
  | a :: as, r =>
    if at? a 0 = 45 then if at? a 1 = 106 then switches as false else none
    else (switches as r).bind fun t => some (t.1, a :: t.2)

/-- `const1` and `const2`, lines 181 and 188-194, from the arguments after the second. -/
def constants (as : List (List Nat)) : Int × Int :=
  match as with
  | [] => (0, 0)
  | a :: as =>
    if atoi a = 0 then (683, 2820)
    else match as with
      | [b] => (atoi a, atoi b)
      | _ => (atoi a, 10000)

/-- `jd0`, lines 210-211. -/
def zero (y1 c1 c2 o first : Int) : Int := first - y1 * 365 - (y1 * c1 + o).tdiv c2

/-- `jd_algo`, lines 216-217. -/
def algo (c1 c2 o jd0 year : Int) : Int := jd0 + year * 365 + (year * c1 + o).tdiv c2

/-- The loop of lines 214-225: the first year that does not match. -/
def bad (f : Int → Int) : Int → List Int → Option Int
  | _, [] => none
  | y, d :: ds => if f y ≠ d then some y else bad f (y + 1) ds

/-- The loop of lines 208-228, `n` more offsets from `o` on: what is printed, and `max_year`. -/
def search (y1 c1 c2 first : Int) (jds : List Int) : Nat → Int → Int → List (Int × Int) × Int
  | 0, _, m => ([], m)
  | n + 1, o, m =>
    let jd0 := zero y1 c1 c2 o first
    match bad (algo c1 c2 o jd0) y1 jds with
    | some y => search y1 c1 c2 first jds n (o + 1) (if m < y then y else m)
    | none =>
      let r := search y1 c1 c2 first jds n (o + 1) m
      ((o, jd0) :: r.1, r.2)

/-- Lines 175-230.  `ub`: the first of no years is read. -/
def find (y1 c1 c2 : Int) (jds : List Int) : Outcome (List (Int × Int) × Int) :=
  match jds with
  | [] => if 0 < c2 then .ub else .ok ([], -100000)
  | d :: _ => .ok (search y1 c1 c2 d jds c2.toNat 0 (-100000))

end Verif.Persian
