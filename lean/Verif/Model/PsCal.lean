import Verif.Model.Date
import Verif.Model.Bytes
import Verif.Model.Ctime

/-!
# Model of the layout of the program that draws calendars, /repo/calendar.cpp:145-210 and 475-655

The page has five rows of seven cells.  What is modelled is which day is written in which cell, which small months fill the
cells left, and the text of the small months.  Dates from files, fonts and the coordinates of the texts are left out.  The
phases of the moon are a parameter.
-/

namespace Verif.PsCal

open Verif.Date

/-- `jd1`, lines 162 and 478: the day before the first. -/
def before (month year : Int) : Option Int := dmyToDay 0 month year JULIAN_GREGORIAN

/-- `n_days`, lines 163-164 and 479-480. -/
def length (month year : Int) : Option Int :=
  (before month year).bind fun a => (before (month + 1) year).bind fun b => some (b - a)

/-- `starting_loc`, line 480. -/
def start (jd1 : Int) : Int := (jd1 + 1).tmod 7

/-- `xcell`, `ycell`, `double_cell` and the text drawn in the cell, if there is one, lines 536-569. -/
structure Place where
  x : Int
  y : Int
  double : Bool
  text : Option (List Nat)

/-- `ycell`, lines 537-541. -/
def row (sl i : Int) : Int := if sl = 6 then 4 - (i + sl).tdiv 7 + 1 else 4 - (i + sl).tdiv 7

/-- Two days in one cell, lines 542-543. -/
def shares (wrap : Bool) (n sl i : Int) : Bool := !wrap && decide (row sl i = 0) && decide (i + 7 ≤ n)

/-- `buff`, lines 545 and 549; it has room for five and two bytes. -/
def label (wrap : Bool) (n sl i : Int) : List Nat := if shares wrap n sl i then decInt i ++ 47 :: decInt (i + 7) else decInt i

/-- `ycell` after lines 550-551. -/
def wrapped (wrap : Bool) (sl i : Int) : Int := if wrap && decide (row sl i < 0) then 4 else row sl i

/-- Where day `i` goes, lines 536-569. -/
def place (wrap : Bool) (n sl i : Int) : Place :=
  if 0 ≤ wrapped wrap sl i then ⟨(i + sl).tmod 7, wrapped wrap sl i, shares wrap n sl i, some (label wrap n sl i)⟩
  else ⟨(i + sl).tmod 7, 0, true, none⟩

/-- `cell_idx`, line 570. -/
def Place.cell (p : Place) : Int := (4 - p.y) * 7 + p.x

/-- The cells used, lines 534 and 619-620, from day `i` down. -/
def use (wrap : Bool) (n sl : Int) : Nat → (Int → Bool) → Int → Bool
  | 0, u => u
  | i + 1, u => use wrap n sl i fun c => if c = (place wrap n sl ((i + 1 : Nat) : Int)).cell then true else u c

/-- The small months in the cells left, lines 645-653: `m` cells from `i` on; the cell, and how many months after the main one. -/
def smalls (u : Int → Bool) : Nat → Int → Int → List (Int × Int)
  | 0, _, _ => []
  | m + 1, i, j =>
    if u i then smalls u m (i + 1) j else (i, j - 2) :: smalls u m (i + 1) (if j + 1 = 2 then 3 else j + 1)

/-- All small months of a page. -/
def page (wrap : Bool) (n sl : Int) : List (Int × Int) := smalls (use wrap n sl n.toNat fun _ => false) 35 0 0

/-- Lines 152-156. -/
def up (month year : Int) : Int × Int := if month ≤ 0 then up (month + 12) (year - 1) else (month, year)
termination_by (1 - month).toNat
decreasing_by omega

/-- Lines 157-161. -/
def down (month year : Int) : Int × Int := if 13 ≤ month then down (month - 12) (year + 1) else (month, year)
termination_by month.toNat
decreasing_by omega

/-- `starting_loc` of a small month, line 165. -/
def smallStart (jd1 : Int) : Int := (jd1 + 2).tmod 7

/-- `day`, line 180. -/
def smallDay (sl i j : Int) : Int := i * 7 + j - sl + 1

/-- The two bytes of a cell, lines 177 and 181-193; `phase` is the number of the phase on that day. -/
def smallCell (phase : Int → Option Nat) (n d : Int) : List Nat :=
  if 1 ≤ d ∧ d ≤ n then
    match phase d with
    | some k => ((bytes "NM 1Q FM 3Q").drop (k % 4 * 3)).take 2
    | none => [if d < 10 then 32 else (48 + d.tdiv 10).toNat, (48 + d.tmod 10).toNat]
  else [32, 32]

/-- A row of a small month before the blanks at its end are cut off, lines 177-194. -/
def smallRow (phase : Int → Option Nat) (n sl i : Int) : List Nat :=
  (List.range 7).flatMap fun (j : Nat) => smallCell phase n (smallDay sl i j) ++ if j < 6 then [32] else []

end Verif.PsCal
