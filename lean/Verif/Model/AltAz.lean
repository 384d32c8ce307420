import Verif.Model.Precess

/-!
# Model of altitude and azimuth, /repo/alt_az.cpp:31-127 and 201-225

Real numbers, without rounding errors; `PI` is π.  `asine` and `acose` (/repo/miscell.cpp:58-74) are constant outside [-1, 1], as
`Real.arcsin` and `Real.arccos` are.  A quotient of zeros, NaN in C, is `none`; so is what is computed from it.  Sidereal time and nutation are
parameters.
-/

namespace Verif.AltAz

/-- `ra_dec_to_alt_az`, /repo/alt_az.cpp:31-45: altitude and azimuth. -/
noncomputable def toAltAz (h dec lat : ℝ) : ℝ × Option ℝ :=
  let cosLat := Real.cos lat
  let alt := Real.arcsin (Real.sin lat * Real.sin dec + cosLat * Real.cos dec * Real.cos h)
  if cosLat < 1 / 100000 then (alt, some h)
  else if Real.cos alt * cosLat = 0 then (alt, none)
  else
    let temp := (Real.sin dec - Real.sin alt * Real.sin lat) / (Real.cos alt * cosLat)
    let temp := Real.pi - Real.arccos temp
    (alt, some (if Real.sin h < 0 then temp else -temp))

/-- The altitude brought within a quarter turn, /repo/alt_az.cpp:89-98. -/
noncomputable def overTop (alt az : ℝ) : ℝ × ℝ :=
  let p := if alt > Real.pi / 2 then (Real.pi - alt, az + Real.pi) else (alt, az)
  if p.1 < -Real.pi / 2 then (-Real.pi - p.1, p.2 - Real.pi) else p

/-- `alt_az_to_ra_dec`, /repo/alt_az.cpp:83-113: hour angle and declination. -/
noncomputable def toRaDec (alt az lat : ℝ) : Option ℝ × ℝ :=
  let cosLat := Real.cos lat
  let p := overTop alt az
  let alt := p.1
  let az := p.2
  let sinDec := Real.sin lat * Real.sin alt + cosLat * Real.cos alt * Real.cos az
  let dec := Real.arcsin sinDec
  if cosLat < 1 / 100000 then (some (az + Real.pi), dec)
  else
    let temp := cosLat * Real.cos dec
    if temp = 0 then (none, dec)
    else
      let temp := (Real.sin alt - Real.sin lat * sinDec) / temp
      let temp := Real.arccos (-temp)
      (some (if Real.sin az > 0 then Real.pi - temp else Real.pi + temp), dec)

/-- `fmod( x, y)`, as in the C standard: the quotient is rounded towards zero. -/
noncomputable def fmod (x y : ℝ) : ℝ := if 0 ≤ x / y then x - y * ⌊x / y⌋ else x - y * ⌈x / y⌉

/-- The hour angle of `full_ra_dec_to_alt_az`, /repo/alt_az.cpp:70-75; `nut` is the term of line 72. -/
noncomputable def hourAngle (x sidereal lon nut : ℝ) : ℝ :=
  let ha := -x - (sidereal + lon)
  let ha := ha - nut
  let ha := fmod ha (2 * Real.pi)
  let ha := if ha > Real.pi then ha - 2 * Real.pi else ha
  if ha < -Real.pi then ha + 2 * Real.pi else ha

open Verif.Precess in
/-- `precess_pt`, /repo/alt_az.cpp:201-225. -/
noncomputable def precessPt (st : Cache) (ob : OblCache) (p : ℝ × ℝ) (fromTime toTime : ℝ) : (ℝ × ℝ) × Cache × OblCache :=
  if fromTime = toTime then (p, st, ob)
  else
    let q := if fromTime = 2000 then (toTime, (2000 : ℝ), true) else (fromTime, toTime, false)
    let m := setupPrecession st ob q.1 q.2.1
    let o := precessRaDec m.1 (-p.1, p.2) q.2.2
    ((-o.1, o.2), m.2)

end Verif.AltAz
