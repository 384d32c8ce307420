import Mathlib.Data.Real.Basic

/-!
# Specification of the conversions of colours
-/

namespace Verif.Spec.Colors

/-- The polynomial with the given coefficients, the constant one first. -/
noncomputable def eval (cs : List ℝ) (y : ℝ) : ℝ := (cs.mapIdx fun i c => c * y ^ i).sum

/-- `x` is one of the colours from `low` to `high` for which the polynomial in `x - 1` gives `v - 1`. -/
def Colour (cs : List ℝ) (low high v x : ℝ) : Prop := low ≤ x ∧ x ≤ high ∧ 1 + eval cs (x - 1) = v

/-- The straight lines joining the given points, from one of them on. -/
noncomputable def joined : List (ℝ × ℝ) → ℝ → ℝ
  | (x0, y0) :: (x1, y1) :: r, x => if x < x1 ∨ r = [] then y0 + (y1 - y0) * (x - x0) / (x1 - x0) else joined ((x1, y1) :: r) x
  | _, _ => 0

end Verif.Spec.Colors
