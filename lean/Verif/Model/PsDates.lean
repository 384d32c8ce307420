import Verif.Model.Date
import Verif.Model.Scan

/-!
# Model of the dates from files of the program that draws calendars, /repo/calendar.cpp:212-226 and 254-288

A line of the file is as `fgets` gives it, with at most 79 bytes and no NULs.  `int`s and `unsigned`s do not overflow.
-/

namespace Verif.PsDates

open Verif.Date

/-- `make_postscript_substitutions`, lines 212-226, but for the room in the buffer. -/
def subst : List Nat → List Nat
  | [] => []
  | c :: s => if c = 40 then [92, 48, 53, 48] ++ subst s else if c = 41 then [92, 48, 53, 49] ++ subst s else c :: subst s

/-- The same in a buffer of 80 bytes.  `ub`: the text gets too long. -/
def substitutions (l : List Nat) : Outcome (List Nat) := if 80 < (subst l).length + 1 then .ub else .ok (subst l)

/-- The loop of lines 263-265, at most `n` times; `none` if it goes on. -/
def find (month year w : Int) : Nat → Int → Option Int
  | 0, _ => none
  | n + 1, d =>
    (dmyToDay (d + 1) month year JULIAN_GREGORIAN).bind fun j => if j.tmod 7 ≠ w then find month year w n (d + 1) else some d

/-- The loop of lines 268-275, from the byte before `loc` on, with room for `n` days: the days, and the text from that byte on.
    `ub`: no number after a comma, or no room. -/
def more : Nat → List Nat → Outcome (List Int × List Nat)
  | n, c :: s =>
    if c = 44 then
      match Scan.scanInt s, n with
      | some (d, r), n + 1 => (more n r).bind fun t => .ok (d :: t.1, t.2)
      | _, _ => .ub
    else .ok ([], c :: s)
  | _, [] => .ok ([], [])

/-- The text up to the first byte that is not a printable one, lines 277-279; `char` has a sign. -/
def cut (b : List Nat) : List Nat := b.takeWhile fun c => decide (32 ≤ c ∧ c < 128)

/-- What is stored for the days, lines 276-287, with the text at `loc`.  `ub`: the line ends before it, so that bytes of earlier
    lines are taken. -/
def store (l : List Nat) (loc : Nat) (days : List Int) : Outcome (List (Int × List Nat)) :=
  (substitutions l).bind fun b => if (cut b).length < loc then .ub else .ok (days.map fun d => (d, (cut b).drop loc))

/-- The rest of a line of this month, lines 268-287. -/
def entries (l : List Nat) (loc : Nat) (d : Int) : Outcome (List (Int × List Nat)) :=
  (more 9 (l.drop (loc - 1))).bind fun t => store l (l.length - t.2.length + 1) (d :: t.1)

/-- A line of the file, lines 255-288, with the name of the month; `none`: the program does not end.  A loop of more than seven
    turns is one without an end, if the day is not near October 1582. -/
def line (name : List Nat) (month year : Int) (l : List Nat) : Option (Outcome (List (Int × List Nat))) :=
  if l.take 3 ≠ name.take 3 then some (.ok [])
  else if at? l 6 = 47 then (find month year ((at? l 7 : Int) - 48) 8 (atoi (l.drop 3))).bind fun d => some (entries l 9 d)
  else some (entries l 7 (atoi (l.drop 3)))

end Verif.PsDates
