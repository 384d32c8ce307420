/-!
# Decimal numerals

What it means for a byte string to be the usual decimal spelling of a number, stated without reference
to the model of `printf` or `atoi`.
-/

namespace Verif.Spec

/-- Every byte is an ASCII digit. -/
def AllDigits (s : List Nat) : Prop := ∀ c ∈ s, 48 ≤ c ∧ c ≤ 57

/-- Value of a string of digits, most significant first. -/
def value (s : List Nat) : Nat := s.foldl (fun a c => 10 * a + (c - 48)) 0

/-- `s` is the decimal spelling of `n` without superfluous leading zeros. -/
structure Numeral (n : Nat) (s : List Nat) : Prop where
  nonempty : s ≠ []
  digits : AllDigits s
  value : value s = n
  noLeadingZero : s.head? = some 48 → s.length = 1

/-- `s` is the decimal spelling of `n` filled up with zeros to width `w`. -/
structure Padded (w n : Nat) (s : List Nat) : Prop where
  digits : AllDigits s
  value : Spec.value s = n
  width : s.length = w

end Verif.Spec
