import Verif.Model.Mms
import Verif.Model.B32

/-!
# Model of the program that makes ephemerides of the THEMIS satellites, /repo/themis.cpp

The input is the list of the pieces that `fgets` gives: lines, cut after 199 bytes.  `double`s are rational numbers; `int`s
do not overflow.  `get_time_from_string` (`time`) and `full_ctime` (`ctime`) are parameters.  The messages are left out.
-/

namespace Verif.Themis

open Verif.Mms (Run getArg)
open Verif.B32 (load trunc)

/-- `MIN_JD`, line 46. -/
def minJd : ℚ := 2454101 + 1 / 2

/-- `jd_start`, `jd_end`, `norad_id`, `output_line` and `buff`, lines 50-53. -/
structure State where
  start : ℚ
  stop : ℚ
  norad : Int
  n : Nat
  buf : List Nat

/-- The loop over the arguments after the input's name, lines 64-90: `out_freq`, and the name of the output if there is one.
    `get_arg`, lines 36-42, is that of mms.cpp. -/
def options (opens : List Nat → Bool) : List (List Nat) → Int → Option (List Nat) → Run (Int × Option (List Nat))
  | [], f, o => .ok (f, o)
  | a :: after, f, o =>
    if at? a 0 = 45 then
      (getArg a after).bind fun arg =>
        if at? a 1 = 102 then
          if atoi arg = 0 ∨ (1440 : Int).tmod (atoi arg) ≠ 0 then .exit else options opens after (atoi arg) o
        else if at? a 1 = 111 then
          if opens arg then options opens after f (some arg) else .exit
        else .exit
    else options opens after f o

/-- `buff + 23`. -/
def field (b : List Nat) : List Nat := Multipart.cstr (b.drop 23)

/-- Lines 93-94. -/
def State.object (b : List Nat) (s : State) : State := if b.take 9 = bytes "OBJECT_ID" then { s with norad := atoi (field b) } else s

/-- Lines 95-96. -/
def State.begins (time : List Nat → ℚ) (b : List Nat) (s : State) : State :=
  if b.take 9 = bytes "START_TIM" then { s with start := time (field b) } else s

/-- Lines 97-98. -/
def State.ends (time : List Nat → ℚ) (b : List Nat) (s : State) : State :=
  if b.take 9 = bytes "STOP_TIME" then { s with stop := time (field b) } else s

/-- A line read into the buffer, lines 91-98. -/
def State.take (time : List Nat → ℚ) (l : List Nat) (s : State) : State :=
  let b := load s.buf l
  (((({ s with buf := b } : State).object b).begins time b).ends time b)

/-- The condition of line 99; after a short line it looks at what an earlier one left. -/
def isRow (b : List Nat) : Bool := at? b 4 == 45 && at? b 7 == 45 && at? b 10 == 84 && at? b 13 == 58

/-- `intl_letter`, lines 103-112. -/
def letter (id : Int) : Nat :=
  if id = 30797 ∨ id = 30798 then (68 + id - 30797).toNat else if 30580 ≤ id ∧ id ≤ 30582 then (65 + id - 30580).toNat else 0

/-- The first line of the output and the assertions before it, lines 101-121. -/
def head (f : Int) (s : State) : Run (List (List Nat)) :=
  if s.n = 0 then
    if minJd < s.start ∧ minJd < s.stop ∧ s.norad ≠ 0 ∧ letter s.norad ≠ 0 then
      .ok [Time.fmtFixed 6 s.start ++ 32 :: Time.fmtFixed 6 ((f : ℚ) / 1440) ++ 32 :: decInt ((trunc (s.stop - s.start) * 1440).tdiv f) ++
        bytes " -1,149597870.7,86400 (500) Geocentric: NORAD " ++ decInt s.norad ++ bytes " = 2007-004" ++ letter s.norad :: bytes " = THEMIS " ++
        [letter s.norad, 10]]
    else .abort
  else .ok []

/-- A position, lines 122-123. -/
def body (f : Int) (s : State) : List (List Nat) :=
  if (s.n : Int).tmod f = 0 then [Time.fmtFixed 6 (s.start + (s.n : ℚ) / 1440) ++ 32 :: Multipart.cstr (s.buf.drop 24)] else []

/-- `output_line++`, line 124. -/
def State.next (s : State) : State := { s with n := s.n + 1 }

/-- The loop over the lines, lines 91-126: what is written, and the state after it. -/
def loop (time : List Nat → ℚ) (f : Int) : List (List Nat) → State → Run (List (List Nat) × State)
  | [], s => .ok ([], s)
  | l :: ls, s =>
    let s := s.take time l
    if isRow s.buf then
      (head f s).bind fun h => (loop time f ls s.next).bind fun r => .ok (h ++ body f s ++ r.1, r.2)
    else loop time f ls s

/-- The last lines, lines 128-135. -/
def trailer (ctime : ℚ → List Nat) (s : State) : Run (List (List Nat)) :=
  if minJd < s.start ∧ minJd < s.stop then
    .ok [bytes "\nCreated from 'themis.cpp' (q.v.)\n", bytes "Ephemeris start: " ++ ctime s.start ++ [10], bytes "Ephemeris end:   " ++ ctime s.stop ++ [10]]
  else .abort

/-- The lines written, lines 91-135; `junk` is what `buff` has at first. -/
def convert (time : List Nat → ℚ) (ctime : ℚ → List Nat) (junk : List Nat) (f : Int) (lines : List (List Nat)) : Run (List (List Nat)) :=
  (loop time f lines { start := 0, stop := 0, norad := 0, n := 0, buf := junk }).bind fun r =>
    (trailer ctime r.2).bind fun t => .ok (r.1 ++ t)

/-- The program, lines 48-139, for an input that can be opened; `args` are the arguments after its name.  The name of the
    output, and what is written to it. -/
def main (opens : List Nat → Bool) (time : List Nat → ℚ) (ctime : ℚ → List Nat) (junk : List Nat) (args lines : List (List Nat)) :
    Run (Option (List Nat) × List (List Nat)) :=
  (options opens args 144 none).bind fun o => (convert time ctime junk o.1 lines).bind fun t => .ok (o.2, t)

end Verif.Themis
