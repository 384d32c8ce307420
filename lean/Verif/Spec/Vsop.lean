import Mathlib.Analysis.SpecialFunctions.Trigonometric.Basic

/-!
# Spec: power series whose coefficients are sums of waves

`T` is the time in thousands of years.
-/

namespace Verif.Spec.Vsop

/-- A wave: amplitude, phase, and radians in a thousand years. -/
structure Term where
  amplitude : ℝ
  phase : ℝ
  rate : ℝ

/-- The sum of waves. -/
noncomputable def sumOf (l : List Term) (T : ℝ) : ℝ := (l.map fun w => w.amplitude * Real.cos (w.phase + w.rate * T)).sum

/-- The series: the coefficient of `T ^ i` is the sum of the waves `p i`. -/
noncomputable def series (p : Nat → List Term) (T : ℝ) : ℝ := ∑ i ∈ Finset.range 6, sumOf (p i) T * T ^ i

/-- The number of its terms. -/
def size (p : Nat → List Term) : Nat := ∑ i ∈ Finset.range 6, (p i).length

open Classical in
/-- The terms which can be larger than `prec` at the time `T`. -/
noncomputable def large (prec T : ℝ) (p : Nat → List Term) : Nat → List Term := fun i =>
  (p i).filter fun w => decide (|prec| < |w.amplitude| * |T| ^ i)

end Verif.Spec.Vsop
