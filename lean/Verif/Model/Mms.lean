import Verif.Model.MpcLine
import Verif.Model.Ctime

/-!
# Model of the program that makes ephemerides of the MMS satellites, /repo/mms.cpp

The input is the list of the pieces that `fgets` gives: lines, cut after 299 bytes.  `double`s are rational numbers; `int`s
do not overflow.  `full_ctime` is a parameter.  The messages are left out.
-/

namespace Verif.Mms

/-- How the program ends: with its output, with an error message, with a failed assertion, or with undefined behaviour. -/
inductive Run (α : Type) where
  | ok (a : α)
  | exit
  | abort
  | ub
  deriving DecidableEq

def Run.bind {α β : Type} (x : Run α) (f : α → Run β) : Run β :=
  match x with
  | .ok a => f a
  | .exit => .exit
  | .abort => .abort
  | .ub => .ub

/-- `JAN_1_1958`, lines 23-24. -/
def jan1958 : ℚ := 2436204 + 1 / 2 + 32184 / 1000 / 86400

/-- The condition of `mms_ephem_jd`, lines 54-55. -/
def isRow (l : List Nat) : Bool := decide (150 < l.length) && at? l 4 == 45 && at? l 8 == 47 && at? l 11 == 58

/-- `mms_ephem_jd`, lines 52-59. -/
def ephemJd (l : List Nat) : ℚ := if isRow l then MpcLine.atof (l.drop 23) + jan1958 else 0

/-- `get_arg`, lines 44-50: the option `a` and the arguments after it.  Reading two bytes after a lone `-` is undefined. -/
def getArg (a : List Nat) (after : List (List Nat)) : Run (List Nat) :=
  if a.length < 2 then .ub
  else match after with
    | [] => .ok (a.drop 2)
    | next :: _ => if a.length > 2 then .ok (a.drop 2) else .ok next

/-- The loop over the arguments from the second on, lines 87-105: the value of `out_freq`. -/
def options : List (List Nat) → Int → Run Int
  | [], f => .ok f
  | a :: after, f =>
    if at? a 0 = 45 then
      (getArg a after).bind fun arg =>
        if at? a 1 = 102 then
          if atoi arg = 0 ∨ (720 : Int).tmod (atoi arg) ≠ 0 then .exit else options after (atoi arg)
        else .exit
    else options after f

/-- What the first reading finds: `n_lines`, `jd_start` and `mms_number`, lines 62-66. -/
structure Found where
  n : Nat
  start : ℚ
  craft : Nat

/-- A line with a position, lines 110-115. -/
def Found.row (jd : ℚ) (s : Found) : Found := if jd ≠ 0 then ⟨s.n + 1, if s.start = 0 then jd else s.start, s.craft⟩ else s

/-- The line that names the satellite, lines 116-117. -/
def Found.name (l : List Nat) (s : Found) : Found := if l.take 16 = bytes "Spacecraft = MMS" then ⟨s.n, s.start, at? l 16⟩ else s

/-- The first reading, lines 106-118. -/
def first : List (List Nat) → Found → Found
  | [], s => s
  | l :: ls, s => first ls ((s.row (ephemJd l)).name l)

/-- The second reading, lines 128-139: the lines written, and `n_lines`. -/
def second (f : Int) : List (List Nat) → Nat → List (List Nat) × Nat
  | [], n => ([], n)
  | l :: ls, n =>
    if ephemJd l ≠ 0 then
      let r := second f ls (n + 1)
      if (n : Int).tmod f = 0 then ((Time.fmtFixed 6 (ephemJd l) ++ 32 :: (l.take 184).drop 44 ++ [10]) :: r.1, r.2) else r
    else second f ls n

/-- The first line of the output, lines 123-125. -/
def header (s : Found) (f : Int) : List Nat :=
  Time.fmtFixed 6 s.start ++ 32 :: Time.fmtFixed 6 ((f : ℚ) / 720) ++ 32 :: decInt ((s.n : Int).tdiv f) ++
    bytes " 0,149597870.7,86400 (500) Geocentric: MMS" ++ s.craft :: bytes " = 2015-011" ++ [s.craft + 65 - 49, 10]

/-- The last lines, lines 141-146. -/
def trailer (ctime : ℚ → List Nat) (start : ℚ) (n : Nat) (f : Int) : List (List Nat) :=
  [bytes "\n", bytes "Created from 'mms.cpp' (q.v.)\n", bytes "Ephemeris start: " ++ ctime start ++ [10],
   bytes "Ephemeris end:   " ++ ctime (start + (((n : Int).tdiv f * f : Int) : ℚ) / 720) ++ [10]]

/-- The lines written, lines 106-146. -/
def convert (ctime : ℚ → List Nat) (f : Int) (lines : List (List Nat)) : Run (List (List Nat)) :=
  let s := first lines ⟨0, 0, 0⟩
  if 49 ≤ s.craft ∧ s.craft ≤ 52 then
    let r := second f lines 0
    .ok (header s f :: r.1 ++ trailer ctime s.start r.2 f)
  else .abort

/-- The program, lines 61-150, for an input that can be opened; `args` are the arguments after its name.  An output file
    that cannot be opened is not noticed (line 80 tests `ifile`), and written to nevertheless. -/
def main (opens : List Nat → Bool) (ctime : ℚ → List Nat) (args lines : List (List Nat)) : Run (List (List Nat)) :=
  (options args 72).bind fun f =>
    match convert ctime f lines, args with
    | .ok out, a :: _ => if at? a 0 ≠ 45 ∧ opens a = false then .ub else .ok out
    | r, _ => r

end Verif.Mms
