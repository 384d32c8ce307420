import Mathlib.Analysis.SpecialFunctions.Trigonometric.Inverse
import Verif.Model.Ellipse
import Verif.Model.Rotation

/-!
# Model of precession, /repo/precess.cpp, /repo/obliquit.cpp and the tables of /repo/alt_az.cpp

Real numbers, without rounding errors; `PI` is π.  An array is a function from indices.  What a function keeps between calls is an argument
and part of the result.  `nutation` is a parameter.
-/

namespace Verif.Precess

open Verif.Rot Verif.Ellipse

/-- `ARCSECONDS_TO_RADIANS`. -/
noncomputable def arcsec : ℝ := Real.pi / 180 / 3600

/-- The static variables of `mean_obliquity`, /repo/obliquit.cpp:45: `t0` and `rval`. -/
structure OblCache where
  t0 : ℝ
  rval : ℝ

/-- Their values at the start. -/
noncomputable def OblCache.start : OblCache := ⟨30000, 0⟩

/-- `coeffs`, /repo/obliquit.cpp:46-47. -/
def obliquityCoeffs : List ℤ := [-468093, -155, 199925, -5138, -24967, -3905, 712, 2787, 579, 245]

/-- The loop of lines 63-65: the terms, beginning with the power `u`. -/
noncomputable def oblLoop (u0 : ℝ) : ℝ → List ℤ → ℝ
  | _, [] => 0
  | u, c :: cs => u * (c : ℝ) / 100 + oblLoop u0 (u * u0) cs

/-- `mean_obliquity`, /repo/obliquit.cpp:38-69 (`CLIP_OBLIQUITY` is not defined). -/
noncomputable def meanObliquity (st : OblCache) (t : ℝ) : ℝ × OblCache :=
  if t = 0 then ((23 * 3600 + 26 * 60 + 21448 / 1000) * arcsec, st)
  else if t > 100 then (22611485556 / 1000000000 * Real.pi / 180, st)
  else if t < -100 then (24232841111 / 1000000000 * Real.pi / 180, st)
  else if st.t0 = t then (st.rval, st)
  else
    let r := (23 * 3600 + 26 * 60 + 21448 / 1000 + oblLoop (t / 100) (t / 100) obliquityCoeffs) * arcsec
    (r, ⟨t, r⟩)

/-- Lines 88-93 of /repo/precess.cpp: `eta`, `pie` and `p`. -/
noncomputable def eta (t : ℝ) : ℝ := t * (470029 / 10000 * arcsec + (-(3302 / 100000) * arcsec + 6 / 100000 * arcsec * t) * t)
noncomputable def pie (t : ℝ) : ℝ := 174876384 / 1000000 * Real.pi / 180 - t * (8698089 / 10000 * arcsec - 3536 / 100000 * arcsec * t)
noncomputable def accumulated (t : ℝ) : ℝ := t * (50290966 / 10000 * arcsec + (111113 / 100000 * arcsec - 6 / 100000 * arcsec * t) * t)

/-- `setup_ecliptic_precession_from_j2000`, /repo/precess.cpp:86-107 (`UNNECESSARY_MATH` is not defined). -/
noncomputable def eclipticFromJ2000 (year : ℝ) : Nat → ℝ :=
  let t := (year - 2000) / 100
  let m : Nat → ℝ := setIdentity
  let m := store (store m 4 (Real.cos (pie t))) 0 (Real.cos (pie t))
  let m := store m 1 (Real.sin (pie t))
  let m := store m 3 (-m 1)
  let m := spinMatrix m 3 6 (Real.cos (-eta t)) (Real.sin (-eta t))
  let m := spinMatrix m 3 0 (Real.cos (-accumulated t)) (Real.sin (-accumulated t))
  spinMatrix m 0 3 (Real.cos (pie t)) (Real.sin (pie t))

/-- `setup_equatorial_precession_from_j2000`, /repo/precess.cpp:121-138, for the three angles. -/
noncomputable def equatorial (zeta z theta : ℝ) : Nat → ℝ := fun i =>
  let czeta := Real.cos zeta
  let szeta := Real.sin zeta
  let cz := Real.cos z
  let sz := Real.sin z
  let ctheta := Real.cos theta
  let stheta := Real.sin theta
  ([czeta * ctheta * cz - szeta * sz, -szeta * ctheta * cz - czeta * sz, -stheta * cz,
    czeta * ctheta * sz + szeta * cz, -szeta * ctheta * sz + czeta * cz, -stheta * sz,
    czeta * stheta, -szeta * stheta, ctheta] : List ℝ).getD i 0

/-- The angles, /repo/precess.cpp:112-120. -/
noncomputable def equatorialFromJ2000 (year : ℝ) : Nat → ℝ :=
  let t := (year - 2000) / 100
  equatorial (t * (23062181 / 10000 + t * (30188 / 100000 + 17998 / 1000000 * t)) * arcsec)
    (t * (23062181 / 10000 + t * (109468 / 100000 + 18203 / 1000000 * t)) * arcsec)
    (t * (20043109 / 10000 + t * (-(42665 / 100000) - 41833 / 1000000 * t)) * arcsec)

/-- Static variables of `setup_ecliptic_precession`, /repo/precess.cpp:153-155. -/
structure Cache where
  yearFrom : ℝ
  yearTo : ℝ
  matrix : Nat → ℝ

/-- Their values at the start, /repo/precess.cpp:143-144; a static array begins with zeros. -/
noncomputable def Cache.start : Cache := ⟨314814550100000, -(919001473 / 10000000000000000), fun _ => 0⟩

/-- The product, /repo/precess.cpp:189-193. -/
def product (m t : Nat → ℝ) : Nat → ℝ := fun k =>
  let i := k / 3
  let j := k % 3
  m (i * 3) * t j + m (i * 3 + 1) * t (j + 3) + m (i * 3 + 2) * t (j + 6)

/-- The computation, /repo/precess.cpp:177-196. -/
noncomputable def fresh (yearFrom yearTo : ℝ) : Nat → ℝ :=
  if yearFrom = 2000 then eclipticFromJ2000 yearTo
  else
    let m := invertOrthonormal (eclipticFromJ2000 yearFrom)
    if yearTo ≠ 2000 then product m (eclipticFromJ2000 yearTo) else m

/-- `setup_ecliptic_precession`, /repo/precess.cpp:146-202. -/
noncomputable def setupEcliptic (st : Cache) (yearFrom yearTo : ℝ) : (Nat → ℝ) × Cache :=
  if |yearFrom - yearTo| < 1 / 100000 then (setIdentity, st)
  else if yearFrom = st.yearFrom ∧ yearTo = st.yearTo then (st.matrix, st)
  else if yearFrom = st.yearTo ∧ yearTo = st.yearFrom then (invertOrthonormal st.matrix, st)
  else (fresh yearFrom yearTo, ⟨yearFrom, yearTo, fresh yearFrom yearTo⟩)

/-- `setup_precession`, /repo/precess.cpp:204-213. -/
noncomputable def setupPrecession (st : Cache) (ob : OblCache) (yearFrom yearTo : ℝ) : (Nat → ℝ) × Cache × OblCache :=
  let o1 := meanObliquity ob ((yearFrom - 2000) / 100)
  let o2 := meanObliquity o1.2 ((yearTo - 2000) / 100)
  let e := setupEcliptic st yearFrom yearTo
  let m := preSpinMatrix e.1 1 2 (Real.cos o1.1) (Real.sin o1.1)
  (spinMatrix m 3 6 (Real.cos o2.1) (Real.sin o2.1), e.2, o2.2)

/-- `setup_precession_with_nutation_delta`, /repo/precess.cpp:218-247 (`OLD_VERSION` is not defined), for the obliquity and the sums of nutation and correction. -/
noncomputable def withNutation (year obliquity dLon dObliq : ℝ) : Nat → ℝ :=
  let j2000 := 2343929111111111 / 100000000000000 * Real.pi / 180
  let m := equatorialFromJ2000 year
  let m := preSpinMatrix m 1 2 (Real.cos (-j2000)) (Real.sin (-j2000))
  let m := spinMatrix m 3 6 (Real.cos (-obliquity)) (Real.sin (-obliquity))
  let m := spinMatrix m 0 3 (Real.cos dLon) (Real.sin dLon)
  let m := preSpinMatrix m 1 2 (Real.cos j2000) (Real.sin j2000)
  let m := spinMatrix m 3 6 (Real.cos (obliquity + dObliq)) (Real.sin (obliquity + dObliq))
  let e := dLon * Real.cos obliquity
  spinMatrix m 3 0 (Real.cos e) (Real.sin e)

/-- `precess_vector`, /repo/precess.cpp:276-294; in place or not gives the same. -/
def precessVector (m v : Nat → ℝ) : Nat → ℝ := fun i => m (3 * i) * v 0 + m (3 * i + 1) * v 1 + m (3 * i + 2) * v 2

/-- `deprecess_vector`, /repo/precess.cpp:296-314. -/
def deprecessVector (m v : Nat → ℝ) : Nat → ℝ := fun i => m i * v 0 + m (i + 3) * v 1 + m (i + 6) * v 2

/-- `while( x - c > PI) x -= PI * 2.`, /repo/precess.cpp:335-336. -/
noncomputable def turnDown (c x : ℝ) : ℝ := if x - c > Real.pi then turnDown c (x - Real.pi * 2) else x
termination_by ⌈(x - c) / (Real.pi * 2)⌉.toNat
decreasing_by
  have hp := Real.pi_pos
  have h1 : ⌈(x - Real.pi * 2 - c) / (Real.pi * 2)⌉ = ⌈(x - c) / (Real.pi * 2)⌉ - 1 := by
    have : (x - Real.pi * 2 - c) / (Real.pi * 2) = (x - c) / (Real.pi * 2) - 1 := by field_simp; ring
    rw [this, Int.ceil_sub_one]
  have h2 : 0 < ⌈(x - c) / (Real.pi * 2)⌉ := by
    rw [Int.ceil_pos]
    have : 0 < x - c := by linarith
    positivity
  omega

/-- `while( x - c < -PI) x += PI * 2.`, /repo/precess.cpp:337-338. -/
noncomputable def turnUp (c x : ℝ) : ℝ := if x - c < -Real.pi then turnUp c (x + Real.pi * 2) else x
termination_by (-⌊(x - c) / (Real.pi * 2)⌋).toNat
decreasing_by
  have hp := Real.pi_pos
  have h1 : ⌊(x + Real.pi * 2 - c) / (Real.pi * 2)⌋ = ⌊(x - c) / (Real.pi * 2)⌋ + 1 := by
    have : (x + Real.pi * 2 - c) / (Real.pi * 2) = (x - c) / (Real.pi * 2) + 1 := by field_simp; ring
    rw [this, Int.floor_add_one]
  have h2 : ⌊(x - c) / (Real.pi * 2)⌋ < 0 := by
    rw [Int.floor_lt, Int.cast_zero]
    exact div_neg_of_neg_of_pos (by linarith) (by positivity)
  omega

/-- `precess_ra_dec`, /repo/precess.cpp:316-340; `asine` clamps as `Real.arcsin` does. -/
noncomputable def precessRaDec (m : Nat → ℝ) (p : ℝ × ℝ) (backward : Bool) : ℝ × ℝ :=
  let v1 : Nat → ℝ := fun i => ([Real.cos p.1 * Real.cos p.2, Real.sin p.1 * Real.cos p.2, Real.sin p.2] : List ℝ).getD i 0
  let v2 := if backward then deprecessVector m v1 else precessVector m v1
  let ra := if v2 1 ≠ 0 ∨ v2 0 ≠ 0 then atan2 (v2 1) (v2 0) else 0
  (turnUp p.1 (turnDown p.1 ra), Real.arcsin (v2 2))

/-- `j2000_to_galactic_matrix`, /repo/alt_az.cpp:165-175, times 10^10. -/
def galactic : List ℤ :=
  [-548755604, -8734370902, -4838350155, 4941094279, -4448296300, 7469822445, -8676661490, -1980763734, 4559837762]

/-- `j2000_to_supergalactic_matrix`, /repo/alt_az.cpp:131-139, times 10^8. -/
def supergalactic : List ℤ := [37501548, 34135896, 86188018, -89832046, -9572714, 42878511, 22887497, -93504565, 27075058]

/-- `sin_obliq_2000` and `cos_obliq_2000`, /repo/precess.cpp:255-256. -/
noncomputable def sinObliq : ℝ := 397777155931913701597179975942380896684 / 10 ^ 39
noncomputable def cosObliq : ℝ := 917482062069181825744000384639406458043 / 10 ^ 39

/-- `equatorial_to_ecliptic`, /repo/precess.cpp:258-265. -/
noncomputable def toEcliptic (v : Nat → ℝ) : Nat → ℝ :=
  let temp := v 2 * cosObliq - v 1 * sinObliq
  let w := store v 1 (v 1 * cosObliq + v 2 * sinObliq)
  store w 2 temp

/-- `ecliptic_to_equatorial`, /repo/precess.cpp:267-274. -/
noncomputable def toEquatorial (v : Nat → ℝ) : Nat → ℝ :=
  let temp := v 2 * cosObliq + v 1 * sinObliq
  let w := store v 1 (v 1 * cosObliq - v 2 * sinObliq)
  store w 2 temp

end Verif.Precess
