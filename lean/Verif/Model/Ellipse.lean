import Mathlib.Analysis.SpecialFunctions.Pow.Real
import Mathlib.Analysis.SpecialFunctions.Complex.Arg
import Mathlib.Analysis.SpecialFunctions.Trigonometric.Inverse

/-!
# Model of the geometry of stations, /repo/mpc_code.cpp:36-206

Real numbers, without rounding errors.  `none` is a NaN.
-/

namespace Verif.Ellipse

/-- `atan2( y, x)`. -/
noncomputable def atan2 (y x : ℝ) : ℝ := Complex.arg ⟨x, y⟩

/-- `cbrt`, lines 121-132. -/
noncomputable def cbrt (z : ℝ) : ℝ := if 0 ≤ z then z ^ (1 / 3 : ℝ) else -((-z) ^ (1 / 3 : ℝ))

/-- `sqrt`. -/
noncomputable def root (z : ℝ) : Option ℝ := if z < 0 then none else some (Real.sqrt z)

/-- `acos`. -/
noncomputable def acos (z : ℝ) : Option ℝ := if z < -1 ∨ 1 < z then none else some (Real.arccos z)

/-- `equatorial_radii`, lines 36-70, in metres. -/
def equatorialRadii : List ℚ :=
  [695700000, 2440530, 6051800, 6378137, 3396190, 71492000, 60268000, 25559000, 24764000, 1188300, 1737400, 1821490, 1560800, 2631200,
    2410300]

/-- `polar_radii`, lines 89-94. -/
def polarRadii : List ℚ :=
  [695700000, 2438260, 6051800, 6356752314140347 / 1000000000, 3376200, 66854000, 54364000, 24973000, 24341000]

/-- `planet_radius_in_meters`, lines 72-78. -/
def planetRadius (i : Int) : ℚ := if 0 ≤ i ∧ i < 15 then equatorialRadii.getD i.toNat 0 else 0

/-- `planet_axis_ratio`, lines 96-100.  `none`: an index before the beginning of the tables. -/
def planetAxisRatio (i : Int) : Option ℚ :=
  if i ≥ 9 then some 1 else if i < 0 then none else some (polarRadii.getD i.toNat 0 / equatorialRadii.getD i.toNat 0)

/-- `lat_alt_to_parallax`, lines 105-117: `rho_cos_phi` and `rho_sin_phi`. -/
noncomputable def latAltToParallax (lat ht major minor : ℝ) : Option (ℝ × ℝ) :=
  if major = 0 then none
  else
    let axisRatio := minor / major
    let u := atan2 (Real.sin lat * axisRatio) (Real.cos lat)
    some (Real.cos u + (ht / major) * Real.cos lat, axisRatio * Real.sin u + (ht / major) * Real.sin lat)

/-- Lines 179-194: `v`. -/
noncomputable def cubicRoot (e f : ℝ) : Option ℝ :=
  let p := (4 / 3) * (e * f + 1)
  let q := 2 * (e * e - f * f)
  let d := p * p * p + q * q
  if d ≥ 0 then
    (root d).bind fun s => some (cbrt (s - q) - cbrt (s + q))
  else
    (root (-p)).bind fun sqp =>
      if sqp * p = 0 then none else (acos (q / (sqp * p))).bind fun ang => some (2 * sqp * Real.cos (ang / 3))

/-- Lines 195-196: `t`. -/
noncomputable def tangent (e f : ℝ) : Option ℝ :=
  (cubicRoot e f).bind fun v =>
    (root (e * e + v)).bind fun s =>
      let g := (s + e) * (1 / 2)
      if 2 * g - e = 0 then none
      else (root (g * g + (f - v * g) / (2 * g - e))).bind fun r => some (r - g)

/-- `point_to_ellipse`, lines 163-206: the angle and the distance. -/
noncomputable def pointToEllipse (a b x y : ℝ) : Option (ℝ × ℝ) :=
  let fy := |y|
  let fx := |x|
  let core : Option (ℝ × ℝ) :=
    if x = 0 then some (Real.pi / 2, fy - a)
    else if a * fx = 0 then none
    else
      let c2 := a * a - b * b
      let e := (b * fy - c2) / (a * fx)
      let f := (b * fy + c2) / (a * fx)
      (tangent e f).bind fun t =>
        let lat := atan2 (a * (1 - t * t)) (2 * b * t)
        some (lat, (fx - a * t) * Real.cos lat + (fy - b) * Real.sin lat)
  core.bind fun (lat, dist) =>
    let lat := if x < 0 then Real.pi - lat else lat
    let lat := if y < 0 then -lat else lat
    some (lat, dist)

end Verif.Ellipse
