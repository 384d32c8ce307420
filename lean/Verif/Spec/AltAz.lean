import Mathlib.Analysis.SpecialFunctions.Trigonometric.Basic

/-!
# Specification: the horizon
-/

namespace Verif.Spec

/-- The direction with declination `dec`, at `h` east of the meridian, seen from the latitude `lat`, has the altitude `alt` and the azimuth
    `az`, counted from north over east: the components of the direction up, north and east. -/
def SeenAt (h dec lat alt az : ℝ) : Prop :=
  Real.sin alt = Real.sin lat * Real.sin dec + Real.cos lat * Real.cos dec * Real.cos h ∧
  Real.cos alt * Real.cos az = Real.cos lat * Real.sin dec - Real.sin lat * Real.cos dec * Real.cos h ∧
  Real.cos alt * Real.sin az = Real.cos dec * Real.sin h

end Verif.Spec
