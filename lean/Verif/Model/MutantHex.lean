import Verif.Model.Bytes

/-! # Model of the base-62 functions of /repo/unpack.cpp -/

namespace Verif.Desig

/-- `mutant_hex_char_to_int`, /repo/unpack.cpp:13-30. -/
def mutantHexCharToInt (c : Nat) : Int :=
  if c ≥ 97 then            -- 'a'
    if c ≤ 122 then (c : Int) - 97 + 36 else -1
  else if c ≥ 65 then       -- 'A'
    if c ≤ 90 then (c : Int) - 65 + 10 else -1
  else if c ≥ 48 ∧ c ≤ 57 then (c : Int) - 48
  else -1

/-- `int_to_mutant_hex_char`, /repo/unpack.cpp:32-45. -/
def intToMutantHexChar (ival : Int) : Nat :=
  if ival < 0 ∨ ival > 61 then 0
  else if ival < 10 then (48 + ival).toNat
  else if ival < 36 then (65 - 10 + ival).toNat
  else (97 - 36 + ival).toNat

/-- The loop of `get_mutant_hex_value`, /repo/unpack.cpp:47-60, over the bytes at `buff`.
    (Overflow of `int`, possible from six digits on, is not modelled.) -/
def getMutantHexLoop : Int → List Nat → Int
  | rval, [] => rval
  | rval, c :: cs =>
    let digit := mutantHexCharToInt c
    if digit = -1 then -1 else getMutantHexLoop (rval * 62 + digit) cs

/-- `get_mutant_hex_value( buff, n_digits)`. -/
def getMutantHexValue (buff : List Nat) (nDigits : Nat) : Int :=
  getMutantHexLoop 0 ((List.range nDigits).map (at? buff))

/-- `encode_value_in_mutant_hex`, /repo/unpack.cpp:65-74: the bytes stored and the value returned. -/
def encodeMutantHex : Nat → Int → List Nat × Int
  | 0, value => ([], value)
  | n + 1, value =>
    let r := encodeMutantHex n (value.tdiv 62)
    (r.1 ++ [intToMutantHexChar (value.tmod 62)], r.2)

end Verif.Desig
