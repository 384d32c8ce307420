import Mathlib.Analysis.SpecialFunctions.Trigonometric.Basic

/-!
# Model of the refraction near the horizon, /repo/refract.cpp

Doubles are taken as real numbers: rounding is not modelled, decimal constants are taken as written, except that `PI` is π.
-/

namespace Verif.Refract

open Real

/-- The altitude with the small term of the formula added, /repo/refract.cpp:48. -/
noncomputable def raised (alt : ℝ) : ℝ := alt + 7.31 * π / 180 / (alt * 180 / π + 4.4)

/-- `refraction`, /repo/refract.cpp:44-52. -/
noncomputable def refraction (alt : ℝ) : ℝ :=
  let c := cos (raised alt) / sin (raised alt)
  (c - 0.06 * sin ((14.7 * c + 13) * π / 180)) * (π / 180) / 60

/-- The first approximation of the inverse, /repo/refract.cpp:60-62. -/
noncomputable def firstGuess (trueAlt : ℝ) : ℝ :=
  let r := trueAlt + 10.3 * π / 180 / (trueAlt * 180 / π + 5.11)
  cos r / sin r * (1.02 * (π / 180) / 60)

/-- `tolerance`, /repo/refract.cpp:57. -/
noncomputable def tolerance : ℝ := 0.01 * (π / 180) / 3600

/-- The loop, /repo/refract.cpp:65-70, with `n` iterations left. -/
noncomputable def improve (trueAlt : ℝ) : Nat → ℝ → ℝ → ℝ
  | 0, rval, _ => rval
  | n + 1, rval, delta =>
    if delta > tolerance ∨ delta < -tolerance then improve trueAlt n (refraction (trueAlt + rval)) (rval - refraction (trueAlt + rval)) else rval

/-- `reverse_refraction`, /repo/refract.cpp:54-72. -/
noncomputable def reverseRefraction (trueAlt : ℝ) : ℝ := improve trueAlt 10 (firstGuess trueAlt) 1

end Verif.Refract
