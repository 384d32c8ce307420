import Mathlib.Analysis.SpecialFunctions.Trigonometric.DerivHyp

/-!
# Specification: Kepler's equation
-/

namespace Verif.Spec

/-- `E` is the eccentric anomaly for the eccentricity `e` and the mean anomaly `M`. -/
def Eccentric (e M E : ℝ) : Prop := (e < 1 → E - e * Real.sin E = M) ∧ (1 < e → e * Real.sinh E - E = M)

end Verif.Spec
