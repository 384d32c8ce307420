import Mathlib.Analysis.SpecialFunctions.Complex.Arg
import Mathlib.Analysis.SpecialFunctions.Trigonometric.Inverse
import Verif.Model.Ellipse

/-!
# Model of distances and position angles, /repo/dist_pa.cpp:89-151

Real numbers, without rounding errors; `PI` is π.  `Real.arccos` and `Real.arcsin` are constant outside [-1, 1]; their arguments here are
inside (`C79_unit`).
-/

namespace Verif.Sphere

open Verif.Ellipse

/-- The components of lines 93-101. -/
noncomputable def components (p1 p2 : ℝ × ℝ) : ℝ × ℝ × ℝ :=
  let oneMinus := 1 - Real.cos (p1.1 - p2.1)
  let cosDec2 := Real.cos p2.2
  let delta := p2.2 - p1.2
  (Real.sin (p2.1 - p1.1) * cosDec2, Real.sin delta + oneMinus * Real.sin p1.2 * cosDec2, Real.cos delta - oneMinus * Real.cos p1.2 * cosDec2)

/-- `calc_dist_and_posn_ang`, lines 89-128: the value returned, the distance and the position angle (`posn_ang` not NULL). -/
noncomputable def calcDist (p1 p2 : ℝ × ℝ) : Int × ℝ × ℝ :=
  let c := components p1 p2
  let x := c.1
  let y := c.2.1
  let z := c.2.2
  let dist :=
    if z > -(7 / 10) ∧ z < 7 / 10 then Real.arccos z
    else
      let d := Real.arcsin (Real.sqrt (x * x + y * y))
      if z < 0 then Real.pi - d else d
  if x ≠ 0 ∨ y ≠ 0 then
    let p := atan2 y x - Real.pi / 2
    (0, dist, if p < 0 then p + (Real.pi + Real.pi) else p)
  else (-1, dist, 0)

/-- `reverse_dist_and_posn_ang`, lines 130-151. -/
noncomputable def reverseDist (p : ℝ × ℝ) (dist ang : ℝ) : ℝ × ℝ :=
  let sdcp := Real.sin dist * Real.cos ang
  let x := Real.cos p.2 * Real.cos dist - Real.sin p.2 * sdcp
  let y := Real.sin dist * Real.sin ang
  let z := Real.sin p.2 * Real.cos dist + Real.cos p.2 * sdcp
  let t0 := if x ≠ 0 ∨ y ≠ 0 then p.1 - atan2 y x else p.1
  let t1 :=
    if z < 7 / 10 ∧ z > -(7 / 10) then Real.arcsin z
    else
      let t := Real.arccos (Real.sqrt (x * x + y * y))
      if z < 0 then -t else t
  (t0, t1)

end Verif.Sphere
