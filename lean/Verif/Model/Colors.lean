import Mathlib.Data.Real.Basic
import Mathlib.Tactic.NormNum

/-!
# Model of the conversions of colours, /repo/colors.cpp

Doubles are taken as real numbers: rounding is not modelled, decimal constants are taken as written.
-/

namespace Verif.Colors

/-- The loop of `compute_color_polynomial`, /repo/colors.cpp:67-71, from given values of `rval` and `power`. -/
noncomputable def sumLoop (ival : ℝ) : List ℝ → ℝ → ℝ → ℝ
  | [], rval, _ => rval
  | c :: cs, rval, power => sumLoop ival cs (rval + c * power) (power * (ival - 1))

/-- `compute_color_polynomial`, /repo/colors.cpp:58-73. -/
noncomputable def polynomial (ival : ℝ) (coeffs : List ℝ) (low high : ℝ) : ℝ :=
  (if ival < low ∨ ival > high then 99 else sumLoop ival coeffs 0 1) + 1

/-- What the loop of the inverse keeps, /repo/colors.cpp:78-80. -/
structure Search where
  low : ℝ
  high : ℝ
  colorLow : ℝ
  colorHigh : ℝ

/-- The next value tried, /repo/colors.cpp:91-93. -/
noncomputable def guess (ival : ℝ) (s : Search) : ℝ :=
  let r := (ival - s.colorLow) / (s.colorHigh - s.colorLow)
  let r := r + r * (r - 1 / 2) * (r - 1)
  s.low + (s.high - s.low) * r

/-- One turn of the loop, /repo/colors.cpp:91-105, for the function `f` to be inverted. -/
noncomputable def narrow (f : ℝ → ℝ) (ival : ℝ) (s : Search) : Search :=
  let r := guess ival s
  if f r < ival then { s with low := r, colorLow := f r } else { s with high := r, colorHigh := f r }

/-- The loop, /repo/colors.cpp:89-108, with `n + 1` iterations left: the value at its end, 99 if no iterations are left then,
    /repo/colors.cpp:111-112.  `none` for a division by zero. -/
noncomputable def search (f : ℝ → ℝ) (ival : ℝ) : Nat → Search → Option ℝ
  | 0, _ => some 99
  | n + 1, s =>
    if s.colorHigh - s.colorLow = 0 then none
    else if (narrow f ival s).high - (narrow f ival s).low > 1 / 1000000 then search f ival n (narrow f ival s)
    else if n = 0 then some 99 else some (guess ival s)

/-- `compute_inverse_color_polynomial`, /repo/colors.cpp:75-114. -/
noncomputable def inverse (ival : ℝ) (coeffs : List ℝ) (low high : ℝ) : Option ℝ :=
  let f := fun x => polynomial x coeffs low high
  if ival < f low ∨ ival > f high then some 99 else search f ival 100 ⟨low, high, f low, f high⟩

/-- `coeffs_vi_to_bv`, /repo/colors.cpp:116-121. -/
noncomputable def viToBv : List ℝ := [-0.06865072, 0.8837997, -0.3889774, -0.004998126, 0.3867544, -0.5422331, -0.08926476, 0.5194797, -0.2044681,
  -0.1009025, 0.09543256, -0.02567529, 0.002393742]

/-- `coeffs_vi_to_vr`, /repo/colors.cpp:135-139. -/
noncomputable def viToVr : List ℝ := [-0.4708373, 0.5920728, -0.01095294, -0.2281118, -0.09372892, 0.1931393, 0.05077253, -0.09927284, 0.008560631,
  0.01922702, -0.007201880, 0.0007743020, 0]

/-- `v_minus_i_to_b_minus_v`, /repo/colors.cpp:123-127. -/
noncomputable def vMinusIToBMinusV (x : ℝ) : ℝ := polynomial x viToBv (-0.23) 3.70

/-- `b_minus_v_to_v_minus_i`, /repo/colors.cpp:129-133. -/
noncomputable def bMinusVToVMinusI (x : ℝ) : Option ℝ := inverse x viToBv (-0.23) 3.70

/-- `v_minus_i_to_v_minus_r`, /repo/colors.cpp:141-145. -/
noncomputable def vMinusIToVMinusR (x : ℝ) : ℝ := polynomial x viToVr (-0.30) 4

/-- `v_minus_r_to_v_minus_i`, /repo/colors.cpp:147-151. -/
noncomputable def vMinusRToVMinusI (x : ℝ) : Option ℝ := inverse x viToVr (-0.30) 4

/-- `v_minus_r_to_b_minus_v`, /repo/colors.cpp:153-162. -/
noncomputable def vMinusRToBMinusV (x : ℝ) : ℝ := polynomial x [0.4860429, 0.6904008, -1.229411, 2.990030, 7.104513, -16.37799, -29.77123, 43.90751,
  61.45810, -52.65358, -61.35921, 22.97835, 23.85013] (-0.10) 1.75

/-- `b_minus_v_to_v_minus_r`, /repo/colors.cpp:164-172. -/
noncomputable def bMinusVToVMinusR (x : ℝ) : ℝ := polynomial x [-0.4140951, 0.7357165, -0.05242979, -0.6293304, 2.332871, 3.812365, -5.082941,
  -6.520325, 4.817797, 5.065505, -1.706011, -1.568243, 0] (-0.23) 1.95

/-- `johnson_b_minus_v_from_tycho_b_minus_v`, /repo/colors.cpp:175-190. -/
noncomputable def johnsonBv (b : ℝ) : ℝ :=
  if b < -0.2 ∨ b > 1.8 then 99
  else 0.85 * b +
    (if b < 0.1 then -0.006 + 0.006 * (b + 0.2) / 0.3
     else if b < 0.5 then 0.046 * (b - 0.1) / 0.4
     else if b < 1.4 then 0.046 - 0.054 * (b - 0.5) / 0.9
     else if b < 1.8 then -0.008 - 0.024 * (b - 1.4) / 0.4
     else 0)

/-- `johnson_v_from_tycho_b_minus_v`, /repo/colors.cpp:199-214. -/
noncomputable def johnsonV (b v : ℝ) : ℝ :=
  if b < -0.2 ∨ b > 1.8 then 99
  else v - 0.09 * b +
    (if b < 0.1 then 0.014 - 0.014 * (b + 0.2) / 0.3
     else if b < 0.5 then -0.005 * (b - 0.1) / 0.4
     else if b < 1.4 then -0.005
     else if b < 1.8 then -0.005 - 0.010 * (b - 1.4) / 0.4
     else 0)

end Verif.Colors
