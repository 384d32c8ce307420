import Mathlib.Algebra.Order.Field.Basic
import Verif.Model.Bytes

/-!
# `sscanf` conversions and `strtold`

Numbers are elements of a field (no rounding, no overflow).  Hexadecimal numbers, `inf` and `nan` are taken as
"no number".  White space is that of `isspace` in the C locale.
-/

namespace Verif.Scan

open Verif

/-- White space skipped by `sscanf` and `strtold`. -/
def skipSpace : List Nat → List Nat
  | [] => []
  | c :: s => if isSpace c then skipSpace s else c :: s

/-- An optional sign: `true` for minus. -/
def sign : List Nat → Bool × List Nat
  | 45 :: s => (true, s)
  | 43 :: s => (false, s)
  | s => (false, s)

/-- `%d`, `%ld`: the value and the rest of the text; `none` if it does not match. -/
def scanInt (s : List Nat) : Option (Int × List Nat) :=
  let (neg, t) := sign (skipSpace s)
  if digitCount t = 0 then none
  else
    let v : Int := readDigits 0 t
    some (if neg then -v else v, t.drop (digitCount t))

/-- Digits, a point, digits; at least one digit.  The digits read as a number, the number of decimals, the rest. -/
def mantissa (t : List Nat) : Option (Nat × Nat × List Nat) :=
  let a := digitCount t
  let r := t.drop a
  let v := readDigits 0 t
  if at? r 0 = 46 then
    let b := digitCount (r.drop 1)
    if a = 0 ∧ b = 0 then none
    else some (readDigits v (r.drop 1), b, r.drop (b + 1))
  else if a = 0 then none
  else some (v, 0, r)

/-- An exponent after the mantissa: `none` for none or an incomplete one. -/
def exponent (r : List Nat) : Option (Int × List Nat) :=
  if at? r 0 = 101 ∨ at? r 0 = 69 then
    let (neg, t) := sign (r.drop 1)
    if digitCount t = 0 then none
    else
      let v : Int := readDigits 0 t
      some (if neg then -v else v, t.drop (digitCount t))
  else none

variable {K : Type} [Field K]

/-- Sign, digits, decimals, exponent put together. -/
def real (neg : Bool) (v places : Nat) (e : Int) : K :=
  let x : K := (v : K) / 10 ^ places * (10 : K) ^ e
  if neg then -x else x

/-- `strtold`: the value and the rest; without a number, 0 and the text itself. -/
def strtold (s : List Nat) : K × List Nat :=
  let (neg, t) := sign (skipSpace s)
  match mantissa t with
  | none => (0, s)
  | some (v, p, r) => match exponent r with
    | none => (real neg v p 0, r)
    | some (e, r') => (real neg v p e, r')

/-- `%Lf`: as `strtold`, but an incomplete exponent is a matching failure. -/
def scanReal (s : List Nat) : Option (K × List Nat) :=
  let (neg, t) := sign (skipSpace s)
  match mantissa t with
  | none => none
  | some (v, p, r) => match exponent r with
    | some (e, r') => some (real neg v p e, r')
    | none => if at? r 0 = 101 ∨ at? r 0 = 69 then none else some (real neg v p 0, r)

/-- `%s`: `none` if there is only white space. -/
def scanWord (s : List Nat) : Option (List Nat) :=
  match (skipSpace s).takeWhile (fun c => !isSpace c) with
  | [] => none
  | w => some w

end Verif.Scan
