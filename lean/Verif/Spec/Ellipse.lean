import Mathlib.Analysis.SpecialFunctions.Trigonometric.Basic

/-!
# Specification: height over an ellipse

A point of the plane, the direction of the normal of an ellipse below it, and the height along that normal.
-/

namespace Verif.Spec

/-- The ellipse with semiaxes `a` and `b`. -/
def OnEllipse (a b px py : ℝ) : Prop := (px / a) ^ 2 + (py / b) ^ 2 = 1

/-- `(x, y)` is at the height `h` above the point of the ellipse where the outward normal has the direction `lat`. -/
def Above (a b x y lat h : ℝ) : Prop :=
  ∃ px py k : ℝ, OnEllipse a b px py ∧ 0 < k ∧ px / a ^ 2 = k * Real.cos lat ∧ py / b ^ 2 = k * Real.sin lat ∧
    x = px + h * Real.cos lat ∧ y = py + h * Real.sin lat

/-- No point of the ellipse is nearer to `(x, y)` than `|h|`. -/
def Nearest (a b x y h : ℝ) : Prop := ∀ qx qy : ℝ, OnEllipse a b qx qy → h ^ 2 ≤ (x - qx) ^ 2 + (y - qy) ^ 2

end Verif.Spec
