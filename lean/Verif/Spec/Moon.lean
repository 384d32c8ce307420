import Mathlib.Analysis.SpecialFunctions.Trigonometric.Basic

/-!
# Spec: the Moon's position as a sum of periodic terms

As in Meeus, *Astronomical Algorithms*, chapter 47.
-/

namespace Verif.Spec.Moon

/-- The arguments in radians, and the time in centuries. -/
structure Args where
  longitude : ℝ
  elongation : ℝ
  anomalySun : ℝ
  anomalyMoon : ℝ
  latitude : ℝ
  a1 : ℝ
  a2 : ℝ
  a3 : ℝ
  T : ℝ

/-- The multiples of four arguments, and the amplitudes: in longitude and distance, or in latitude (and 0). -/
structure Term where
  d : ℤ
  m : ℤ
  mp : ℤ
  f : ℤ
  a : ℤ
  b : ℤ

/-- The angle of a term. -/
noncomputable def angle (x : Args) (w : Term) : ℝ := w.d * x.elongation + w.m * x.anomalySun + w.mp * x.anomalyMoon + w.f * x.latitude

/-- The eccentricity of the Earth's orbit decreases with time. -/
noncomputable def factor (x : Args) (w : Term) : ℝ := (1 - 0.002516 * x.T - 0.0000074 * x.T ^ 2) ^ w.m.natAbs

/-- Sums of sines and cosines. -/
noncomputable def sines (x : Args) (l : List Term) : ℝ := (l.map fun w => w.a * Real.sin (angle x w) * factor x w).sum
noncomputable def cosines (x : Args) (l : List Term) : ℝ := (l.map fun w => w.b * Real.cos (angle x w) * factor x w).sum

/-- The terms with an amplitude larger than `precision`. -/
def large (precision : ℤ) (l : List Term) : List Term := l.filter fun w => decide (precision < w.a.natAbs ∨ precision < w.b.natAbs)

/-- The further terms in longitude and latitude, in millionths of a degree. -/
noncomputable def furtherLon (x : Args) : ℝ := 3958 * Real.sin x.a1 + 1962 * Real.sin (x.longitude - x.latitude) + 318 * Real.sin x.a2
noncomputable def furtherLat (x : Args) : ℝ :=
  -2235 * Real.sin x.longitude + 382 * Real.sin x.a3 + 175 * Real.sin (x.a1 - x.latitude) + 175 * Real.sin (x.a1 + x.latitude) +
    127 * Real.sin (x.longitude - x.anomalyMoon) - 115 * Real.sin (x.longitude + x.anomalyMoon)

end Verif.Spec.Moon
