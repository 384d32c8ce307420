import Mathlib.Algebra.Order.Ring.Rat

/-!
# Cubic polynomials through points
-/

namespace Verif.Spec.Cubic

/-- A polynomial of degree three or less. -/
def poly (a b c d x : ℚ) : ℚ := a + b * x + c * x ^ 2 + d * x ^ 3

/-- `y` is the value at `x` of the polynomials of degree three or less through these points. -/
def Through (ps : List (ℚ × ℚ)) (x y : ℚ) : Prop :=
  (∃ a b c d, ∀ p ∈ ps, poly a b c d p.1 = p.2) ∧ ∀ a b c d, (∀ p ∈ ps, poly a b c d p.1 = p.2) → y = poly a b c d x

end Verif.Spec.Cubic
