import Mathlib.Analysis.SpecialFunctions.Pow.Real
import Mathlib.Analysis.SpecialFunctions.Trigonometric.Inverse

/-!
# Model of the integrated refraction, /repo/refract4.cpp

Doubles are taken as real numbers: rounding is not modelled, decimal constants are taken as written, except that `PI` is π.
-/

namespace Verif.Refract4

open Real

/-- `R`, `Md`, `Mw`, `delta`, /repo/refract4.cpp:72-75. -/
noncomputable def gasR : ℝ := 8314.36
noncomputable def massDry : ℝ := 28.966
noncomputable def massWet : ℝ := 18.016
noncomputable def delta : ℝ := 18.36

/-- `re`, `ht`, `hs`, `alpha`, `rt`, `rs`, /repo/refract4.cpp:76-83. -/
noncomputable def re : ℝ := 6378120
noncomputable def alpha : ℝ := 0.0065
noncomputable def rt : ℝ := re + 11000
noncomputable def rs : ℝ := re + 80000

/-- `REFRACT`, /repo/refract4.cpp:88-92. -/
structure Ref where
  temp0 : ℝ
  n0r0 : ℝ
  r0 : ℝ
  c2 : ℝ
  gamma : ℝ
  c6 : ℝ
  c7 : ℝ
  c8 : ℝ
  c9 : ℝ
  nt : ℝ

/-- `temp_fraction`, /repo/refract4.cpp:109. -/
noncomputable def fraction (f : Ref) (r : ℝ) : ℝ := 1 - alpha * (r - f.r0) / f.temp0

/-- `temp_t`, /repo/refract4.cpp:120. -/
noncomputable def tempT (f : Ref) : ℝ := f.temp0 - alpha * (rt - f.r0)

/-- `loc->n` as set by `compute_refractive_index`, /repo/refract4.cpp:101-127. -/
noncomputable def index (f : Ref) (low : Bool) (r : ℝ) : ℝ :=
  if low then 1 + fraction f r * (f.c6 * fraction f r ^ (f.gamma - 2) - f.c7 * fraction f r ^ (delta - 2))
  else 1 + (f.nt - 1) * exp (-f.c2 * (r - rt) / tempT f)

/-- `loc->dn_dr` as set by `compute_refractive_index`, /repo/refract4.cpp:101-127. -/
noncomputable def slopeN (f : Ref) (low : Bool) (r : ℝ) : ℝ :=
  if low then -f.c8 * fraction f r ^ (f.gamma - 2) + f.c9 * fraction f r ^ (delta - 2)
  else -(f.c2 / tempT f) * ((f.nt - 1) * exp (-f.c2 * (r - rt) / tempT f))

/-- `loc->integrand`, /repo/refract4.cpp:129-134. -/
noncomputable def integrand (f : Ref) (low : Bool) (r : ℝ) : ℝ := r * slopeN f low r / (index f low r + r * slopeN f low r)

/-- `change` in the search for the radius with zenith angle `z`, /repo/refract4.cpp:151-152. -/
noncomputable def change (f : Ref) (low : Bool) (z r : ℝ) : ℝ :=
  -(index f low r * r - f.n0r0 / sin z) / (index f low r + r * slopeN f low r)

/-- `LOCALS` without what follows from the radius, /repo/refract4.cpp:94-97. -/
structure Loc where
  z : ℝ
  r : ℝ
  integrand : ℝ

/-- `mid` at the end of its loop, /repo/refract4.cpp:146-157; `settle` gives the radius the loop ends with, from the one it begins with. -/
noncomputable def middle (f : Ref) (low : Bool) (settle : ℝ → ℝ → ℝ) (l1 l2 : Loc) : Loc :=
  let z := (l1.z + l2.z) * (1 / 2)
  let r := settle z ((l1.r + l2.r) * (1 / 2))
  ⟨z, r, integrand f low r⟩

/-- `total_refraction`, /repo/refract4.cpp:136-173, with `n` more levels of recursion allowed. -/
noncomputable def total (f : Ref) (low : Bool) (settle : ℝ → ℝ → ℝ) : Nat → Loc → Loc → ℝ
  | 0, l1, l2 => (l2.z - l1.z) / 6 * (4 * (middle f low settle l1 l2).integrand + l1.integrand + l2.integrand)
  | n + 1, l1, l2 =>
    if |2 * (middle f low settle l1 l2).integrand - (l1.integrand + l2.integrand)| > 1 / 10000 then
      total f low settle n l1 (middle f low settle l1 l2) + total f low settle n (middle f low settle l1 l2) l2
    else (l2.z - l1.z) / 6 * (4 * (middle f low settle l1 l2).integrand + l1.integrand + l2.integrand)

/-- What `integrated_refraction` is given, /repo/refract4.cpp:175-178. -/
structure Site where
  latitude : ℝ
  alt : ℝ
  microns : ℝ
  height : ℝ
  humidity : ℝ
  kelvins : ℝ
  pressure : ℝ

/-- `A`, /repo/refract4.cpp:184-185. -/
noncomputable def factorA (s : Site) : ℝ :=
  273.15 / 1000000 / 1013.25 * (287.607 + 1.6288 / (s.microns * s.microns) + 0.0136 / (s.microns * s.microns * (s.microns * s.microns)))

/-- `Pw0`, /repo/refract4.cpp:182. -/
noncomputable def water (s : Site) : ℝ := s.humidity * (s.kelvins / 247.1) ^ delta / 100

/-- `ref.c2`, /repo/refract4.cpp:180-181, 191. -/
noncomputable def coeff2 (s : Site) : ℝ := 9.784 * (1 - 0.0026 * cos (2 * s.latitude) - 2.8 / 10000000 * s.height) * massDry / gasR

/-- `c5`, /repo/refract4.cpp:193. -/
noncomputable def coeff5 (s : Site) : ℝ := water s * (1 - massWet / massDry) * (coeff2 s / alpha) / (delta - coeff2 s / alpha)

/-- `ref.c6`, `ref.c7`, /repo/refract4.cpp:194-195. -/
noncomputable def coeff6 (s : Site) : ℝ := factorA s * (s.pressure + coeff5 s) / s.kelvins
noncomputable def coeff7 (s : Site) : ℝ := (factorA s * coeff5 s + 11.2684 / 1000000 * water s) / s.kelvins

/-- `ref` before the tropopause has been looked at, /repo/refract4.cpp:190-198. -/
noncomputable def firstRef (s : Site) : Ref where
  temp0 := s.kelvins
  n0r0 := 0
  r0 := re + s.height
  c2 := coeff2 s
  gamma := coeff2 s / alpha
  c6 := coeff6 s
  c7 := coeff7 s
  c8 := alpha * (coeff2 s / alpha - 1) * coeff6 s / s.kelvins
  c9 := alpha * (delta - 1) * coeff7 s / s.kelvins
  nt := 0

/-- `ref` as used for the integrals, /repo/refract4.cpp:200-213. -/
noncomputable def refOf (s : Site) : Ref :=
  { firstRef s with
    nt := index (firstRef s) true rt
    n0r0 := index (firstRef s) true (re + s.height) * (re + s.height) * sin (π / 2 - s.alt) }

/-- `lt.z`, /repo/refract4.cpp:207. -/
noncomputable def zenithT (s : Site) : ℝ :=
  arcsin (index (refOf s) true (refOf s).r0 * (refOf s).r0 * sin (π / 2 - s.alt) / (index (refOf s) true rt * rt))

/-- `ls.z`, /repo/refract4.cpp:223. -/
noncomputable def zenithS (s : Site) : ℝ :=
  arcsin (index (refOf s) false rs * (refOf s).r0 * sin (π / 2 - s.alt) / (index (refOf s) false rs * rs))

/-- `integrated_refraction`, /repo/refract4.cpp:175-228; `settle` as above for each of the two layers. -/
noncomputable def integrated (s : Site) (settle : Bool → ℝ → ℝ → ℝ) : ℝ :=
  let f := refOf s
  total f true (settle true) 20 ⟨π / 2 - s.alt, f.r0, integrand f true f.r0⟩ ⟨zenithT s, rt, integrand f true rt⟩ +
    total f false (settle false) 20 ⟨zenithT s, rt, integrand f false rt⟩ ⟨zenithS s, rs, integrand f false rs⟩

end Verif.Refract4
