import Verif.Model.Place
import Verif.Model.AddOff
import Verif.Model.Multipart

/-!
# Model of the program that makes roving observers of stations without a code, /repo/xxx2rov.c

The input is the list of the pieces that `fgets` gives: lines without NULs, cut after 299 bytes.  `double`s are rational
numbers, angles in degrees.  The message for a malformed line is left out; `exit` is `Outcome.abort`.
-/

namespace Verif.Xxx2Rov

open Verif.Place (Site getXxxLocationInfo)
open Verif.AddOff (put)

/-- `%wf` of a text already made: blanks on the left. -/
def wide (w : Nat) (t : List Nat) : List Nat := List.replicate (w - t.length) 32 ++ t

/-- `%+.5f`. -/
def plus (x : ℚ) : List Nat := if x < 0 then Time.fmtFixed 5 x else 43 :: Time.fmtFixed 5 x

/-- The text of line 49. -/
def fields (s : Site) : List Nat :=
  bytes "1 " ++ wide 9 (Time.fmtFixed 5 s.lon) ++ bytes "  " ++ wide 9 (plus s.lat) ++ bytes "   " ++ wide 4 (Time.fmtFixed 0 s.alt)

/-- The condition of line 43; `char` has a sign. -/
def isXxx (l : List Nat) : Bool :=
  decide (80 < l.length) && (decide (at? l 80 < 32) || decide (128 ≤ at? l 80)) && decide ((l.drop 77).take 3 = bytes "XXX")

/-- The first line of two, lines 45-46. -/
def first (l : List Nat) : List Nat := put (put (l ++ [0]) 77 (bytes "247")) 14 [86]

/-- The second line, lines 48-51. -/
def second (s : Site) (l : List Nat) : List Nat := put (put (put (first l) 14 [118]) 32 (fields s ++ [0])) 61 [32]

/-- Lines 43-53: what is written for an observation.  `ub`: the text does not fit `buff`, or the place is not set. -/
def observation (s : Option Site) (l : List Nat) : Outcome (List Nat) :=
  match s with
  | none => .ub
  | some s => if 300 < 32 + (fields s).length + 1 then .ub else .ok (Multipart.cstr (first l) ++ Multipart.cstr (second s l))

/-- A line, lines 34-53: the place after it, and what is written. -/
def line (s : Option Site) (l : List Nat) : Outcome (Option Site × List Nat) :=
  (getXxxLocationInfo l).bind fun r =>
    if r.1 = -2 then .abort
    else
      let s := if r.1 = 0 then r.2 else s
      if l.take 7 = bytes "COD XXX" then .ok (s, put l 4 (bytes "247"))
      else if isXxx l then (observation s l).bind fun t => .ok (s, t)
      else .ok (s, l)

/-- The program, lines 24-57. -/
def main (s : Option Site) : List (List Nat) → Outcome (List Nat)
  | [] => .ok []
  | l :: ls => (line s l).bind fun r => (main r.1 ls).bind fun t => .ok (r.2 ++ t)

end Verif.Xxx2Rov
