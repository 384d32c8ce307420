import Verif.Model.Bytes

/-!
# Texts in PostScript
-/

namespace Verif.Spec.PostScript

/-- The bytes that a string between parentheses stands for: parentheses and backslashes are written as octal numbers. -/
inductive Shown : List Nat → List Nat → Prop where
  | nil : Shown [] []
  | plain {c : Nat} {s t : List Nat} : c ≠ 40 → c ≠ 41 → c ≠ 92 → Shown s t → Shown (c :: s) (c :: t)
  | octal {x y z : Nat} {s t : List Nat} : x < 4 → y < 8 → z < 8 → Shown s t →
      Shown (92 :: (48 + x) :: (48 + y) :: (48 + z) :: s) ((64 * x + 8 * y + z) :: t)

end Verif.Spec.PostScript
