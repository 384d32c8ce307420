import Verif.Spec.Decimal

/-!
# Spellings of designations

What the unpacked designations look like, following the IAU conventions, independently of the packing
code.  Letters are ASCII codes.
-/

namespace Verif.Spec

/-- ASCII capital letter. -/
def Capital (c : Nat) : Prop := 65 ≤ c ∧ c ≤ 90

/-- The subscript of a designation: nothing for 0. -/
def Subscript (k : Nat) (s : List Nat) : Prop := (k = 0 ∧ s = []) ∨ (0 < k ∧ Numeral k s)

/-- `s` spells the minor planet designation with year `y`, half-month letter `l`, order letter `m` and
    subscript `k`: `1995 XA`, `2004 JX42`. -/
def MinorPlanet (y l m k : Nat) (s : List Nat) : Prop :=
  ∃ ys ks, Padded 4 y ys ∧ Subscript k ks ∧ s = ys ++ [32, l, m] ++ ks

end Verif.Spec
