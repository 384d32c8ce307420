import Mathlib.Algebra.Order.Floor.Semiring
import Mathlib.Data.Rat.Floor
import Verif.Model.Ctime
import Verif.Model.MpcLine

/-!
# Model of the writing of angles, /repo/mpc_fmt2.cpp:9-155

Numbers are rational (no rounding errors), and the angle is not negative: `output_signed_angle_to_buff` takes the sign off.
Strings are lists of bytes without the final NUL.
-/

namespace Verif.AngleText

open Verif

/-- `(unsigned)` of a 64-bit value. -/
def u32 (n : Nat) : Nat := n % 2 ^ 32

/-- What is known before the decimals are written, lines 46-122: the text so far, the value of `precision` (reduced by 400 in the
    formats from 400 on), the number of decimals and their value. -/
structure Head where
  text : List Nat
  precision : Int
  digits : Nat := 0
  fraction : Nat := 0

/-- Decimal quantities, lines 51-64. -/
def decimalHead (angle : ℚ) (precision : Int) : Head :=
  let two : Bool := precision ≤ 200
  let n := (precision % 100).toNat
  let fraction := ⌊angle * (if two then 1 else 15) * 10 ^ n + 1 / 2⌋₊
  { text := (pad (if two then 2 else 3) (u32 (fraction / 10 ^ n))).take 3
    precision := precision
    digits := n
    fraction := fraction % 10 ^ n }

/-- Minutes, lines 68-83. -/
def minuteHead (angle : ℚ) (precision : Int) : Head :=
  let n := (-1 - precision).toNat
  let fraction := ⌊angle * 60 * 10 ^ n + 1 / 2⌋₊
  { text := (pad 2 (u32 (fraction / (60 * 10 ^ n))) ++ 32 :: pad 2 (u32 (fraction / 10 ^ n) % 60)).take 5
    precision := precision
    digits := n
    fraction := fraction % 10 ^ n }

/-- Seconds, lines 84-119.  `text_search_and_replace( obuff, " ", "")` takes out the blanks (C50). -/
def secondHead (angle : ℚ) (precision : Int) : Head :=
  let w := if precision ≥ 400 then 3 else 2
  let angle := if precision ≥ 400 then angle * 15 else angle
  let precision := if precision ≥ 400 then precision - 400 else precision
  let n := (precision % 306).toNat
  let fraction := ⌊angle * 3600 * 10 ^ n + 1 / 2⌋₊
  let text := (pad w (u32 (fraction / (3600 * 10 ^ n))) ++ 32 :: (pad 2 (u32 (fraction / (60 * 10 ^ n)) % 60) ++
    32 :: pad 2 (u32 (fraction / 10 ^ n) % 60))).take 9
  { text := if precision > 306 then text.filter (· ≠ 32) else text
    precision := precision
    digits := n
    fraction := fraction % 10 ^ n }

/-- Lines 46-126. -/
def head (angle : ℚ) (precision : Int) : Head :=
  if (100 ≤ precision ∧ precision ≤ 116) ∨ (200 ≤ precision ∧ precision ≤ 215) then decimalHead angle precision
  else if -7 ≤ precision ∧ precision ≤ -1 then minuteHead angle precision
  else if (0 ≤ precision ∧ precision ≤ 9) ∨ (307 ≤ precision ∧ precision ≤ 312) ∨ (400 ≤ precision ∧ precision ≤ 402) then
    secondHead angle precision
  else if angle < 1000 then { text := (63 :: Time.fmtFixed 5 angle).take 9, precision := precision }
  else { text := [63], precision := precision }

/-- `full_len`, lines 128-134. -/
def fullLen (precision : Int) : Nat :=
  12 + (if 4 ≤ precision ∧ precision ≤ 11 then (precision - 3).toNat else 0)
    + (if 209 ≤ precision ∧ precision ≤ 215 then (precision - 208).toNat else 0)
    + (if 110 ≤ precision ∧ precision ≤ 116 then (precision - 109).toNat else 0)

/-- `output_angle_to_buff`, /repo/mpc_fmt2.cpp:44-149, for an angle that is not negative and such that the number of units of the last
    place fits in an `int64_t`.  `abort`: an assertion of `snprintf_append` fails. -/
def outputAngle (angle : ℚ) (precision : Int) : Outcome (List Nat) :=
  let h := head angle precision
  let len := fullLen h.precision
  if h.digits ≠ 0 then
    let text := if h.precision < 307 ∨ h.precision > 312 then h.text ++ [46] else h.text
    let text := text ++ pad h.digits h.fraction
    if text.length > len then .abort else .ok (text ++ List.replicate (len - text.length) 32)
  else .ok (h.text.take len ++ List.replicate (len - h.text.length) 32)

/-- `output_signed_angle_to_buff`, lines 151-155. -/
def outputSignedAngle (angle : ℚ) (precision : Int) : Outcome (List Nat) :=
  (outputAngle |angle| precision).bind fun s => .ok ((if angle < 0 then 45 else 43) :: s)

end Verif.AngleText
