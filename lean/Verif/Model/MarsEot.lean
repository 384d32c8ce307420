import Verif.Model.Mars
import Mathlib.Analysis.Complex.Trigonometric

/-!
# Model of the Martian equation of time, /repo/marstime.cpp:71-122, over the reals

`IGNORE_PERTURBERS` is not defined.
-/

namespace Verif.Mars

/-- `pi`, /repo/marstime.cpp:75-76. -/
noncomputable def piLit : ℝ := 31415926535897932384626433832795028841971693993751058209749445923 / 10 ^ 64

/-- `D2R`, /repo/marstime.cpp:77. -/
noncomputable def D2R : ℝ := piLit / 180

/-- `mars_mean_anom`, /repo/marstime.cpp:79, for `t` days from J2000. -/
noncomputable def meanAnom (t : ℝ) : ℝ := 193871 / 10000 * D2R + 52402073 / 100000000 * D2R * t

/-- `a_fms`, /repo/marstime.cpp:81. -/
noncomputable def aFms (t : ℝ) : ℝ := 2703871 / 10000 * D2R + 524038496 / 1000000000 * D2R * t

/-- `tconst`, /repo/marstime.cpp:83. -/
noncomputable def tconst : ℝ := 2 * piLit / (36525 / 100)

/-- Amplitude in degrees, period in years and phase in degrees of the seven perturbations,
    /repo/marstime.cpp:84-92. -/
noncomputable def perturbers : List (ℝ × ℝ × ℝ) :=
  [(71 / 10000, 22353 / 10000, 49409 / 1000), (57 / 10000, 27543 / 10000, 168173 / 1000),
   (39 / 10000, 11177 / 10000, 191837 / 1000), (37 / 10000, 157866 / 10000, 21736 / 1000),
   (21 / 10000, 21354 / 10000, 15704 / 1000), (20 / 10000, 24694 / 10000, 95528 / 1000),
   (18 / 10000, 328493 / 10000, 49095 / 1000)]

/-- The loop of `pbs`, /repo/marstime.cpp:107-108. -/
noncomputable def pbs (t : ℝ) : ℝ :=
  perturbers.foldl (fun acc p => acc + p.1 * D2R * Real.cos (tconst / p.2.1 * t + p.2.2 * D2R)) 0

/-- `v_minus_m`, /repo/marstime.cpp:96-109. -/
noncomputable def vMinusM (t : ℝ) : ℝ :=
  (10691 / 1000 * D2R + 3 / 10000000 * D2R * t) * Real.sin (meanAnom t)
    + 623 / 1000 * D2R * Real.sin (2 * meanAnom t)
    + 50 / 1000 * D2R * Real.sin (3 * meanAnom t)
    + 5 / 1000 * D2R * Real.sin (4 * meanAnom t)
    + 5 / 10000 * D2R * Real.sin (5 * meanAnom t)
    + pbs t

/-- `longitude_sun`, /repo/marstime.cpp:111. -/
noncomputable def longitudeSun (t : ℝ) : ℝ := aFms t + vMinusM t

/-- `mars_true_solar_minus_mean_solar_time`, /repo/marstime.cpp:71-122. -/
noncomputable def eqnOfTime (jd : ℝ) : ℝ :=
  2861 / 1000 / 360 * Real.sin (2 * longitudeSun (jd - 2451545))
    - 71 / 1000 / 360 * Real.sin (4 * longitudeSun (jd - 2451545))
    + 2 / 1000 / 360 * Real.sin (6 * longitudeSun (jd - 2451545))
    - vMinusM (jd - 2451545) / (2 * piLit)

end Verif.Mars
