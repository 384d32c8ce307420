import Verif.Model.Bytes

/-!
# Model of the variable star designations, /repo/miscell.cpp:135-169 and 217-261

Numbers are unbounded integers; bytes are ASCII.
-/

namespace Verif.VarStar

open Verif

/-- The loop over the first letters `R` to `Z`, /repo/miscell.cpp:154-155: final `i` and `curr_no`. -/
def loopRZ (varNo : Int) : Nat → Int → Int → Int × Int
  | 0, i, cur => (i, cur)
  | fuel + 1, i, cur =>
    if i ≤ 90 ∧ cur + (90 - i) < varNo then loopRZ varNo fuel (i + 1) (cur + (90 - i + 1)) else (i, cur)

/-- The loop over the first letters `A` to `Q`, /repo/miscell.cpp:158-159. -/
def loopAQ (varNo : Int) : Nat → Int → Int → Int × Int
  | 0, i, cur => (i, cur)
  | fuel + 1, i, cur =>
    if i < 81 ∧ cur + (89 - i) < varNo then loopAQ varNo fuel (i + 1) (cur + (90 - i)) else (i, cur)

/-- The two-letter names, /repo/miscell.cpp:151-167. -/
def twoLetters (varNo : Int) : List Int :=
  let (i, cur) := loopRZ varNo 10 82 10
  let (i, cur) := if i > 90 then loopAQ varNo 17 65 cur else (i, cur)
  let b0 := i
  let b1 := i + varNo - cur
  let b0 := if b0 < 82 ∧ b0 ≥ 74 then b0 + 1 else b0
  let b1 := if b0 < 82 ∧ b1 ≥ 74 then b1 + 1 else b1
  [b0, b1]

/-- The digits after the `V`, /repo/miscell.cpp:144-147. -/
def vDigits (n : Nat) : List Nat :=
  [1000, 100, 10, 1].flatMap fun i => if n ≥ i then [n / i % 10 + 48] else []

/-- `make_var_desig`, /repo/miscell.cpp:135-169.  (For numbers below 1 the single byte is taken
    modulo 256, as the conversion to `char` does.) -/
def makeVarDesig (varNo : Int) : List Nat :=
  if varNo < 10 then [((82 + varNo - 1) % 256).toNat]
  else if varNo > 334 then 86 :: vDigits varNo.toNat
  else (twoLetters varNo).map Int.toNat

/-- Length up to the first space, /repo/miscell.cpp:223-224. -/
def wordLength (s : List Nat) : Nat := (s.takeWhile (· != 32)).length

/-- One-letter names, /repo/miscell.cpp:227-234. -/
def decipherOne (d0 : Nat) : Int :=
  let first := toUpper d0
  let rval : Int := -2
  let rval := if first ≥ 82 ∧ first ≤ 90 then (first : Int) - 82 else rval
  let rval := if d0 ≥ 65 ∧ d0 ≤ 81 then 9200 + (d0 : Int) - 65 else rval
  if (d0 ≥ 97 ∧ d0 ≤ 113) ∨ d0 = 117 then 9100 + (d0 : Int) - 97 else rval

/-- Two-letter names, /repo/miscell.cpp:235-253. -/
def decipherTwo (d0 d1 : Nat) : Int :=
  let first : Int := toUpper d0
  let second : Int := toUpper d1
  if second ≥ first ∧ second ≤ 90 then
    if first ≥ 82 then
      let first := first - 82
      let second := second - 82
      first * 8 - (first * (first - 1)).tdiv 2 + 9 + second
    else if first ≠ 74 ∧ second ≠ 74 ∧ first ≥ 65 then
      let first := first - 65
      let first := if first > 8 then first - 1 else first
      let second := second - 65
      let second := if second > 8 then second - 1 else second
      first * 24 - (first * (first - 1)).tdiv 2 + 9 + 45 + second
    else -2
  else -2

/-- `decipher_var_desig`, /repo/miscell.cpp:217-261. -/
def decipherVarDesig (s : List Nat) : Int :=
  (if wordLength s = 1 then decipherOne (at? s 0)
   else if wordLength s = 2 then decipherTwo (at? s 0) (at? s 1)
   else if toUpper (at? s 0) = 86 then atoi (s.drop 1) - 1
   else -2) + 1

end Verif.VarStar
