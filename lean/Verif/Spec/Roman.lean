/-!
# Roman numerals

The usual subtractive spelling, written place by place from its pattern of one, five and ten letters.
-/

namespace Verif.Spec

/-- One decimal place `d` with its letters for one, five and ten. -/
def romanPlace (one five ten : Nat) (d : Nat) : List Nat :=
  if d < 4 then List.replicate d one
  else if d = 4 then [one, five]
  else if d < 9 then five :: List.replicate (d - 5) one
  else [one, ten]

/-- Roman numeral of `n < 4000`. -/
def roman (n : Nat) : List Nat :=
  List.replicate (n / 1000) 77 ++ romanPlace 67 68 77 (n / 100 % 10) ++ romanPlace 88 76 67 (n / 10 % 10) ++
    romanPlace 73 86 88 (n % 10)

end Verif.Spec
