import Mathlib.Analysis.SpecialFunctions.Arsinh
import Mathlib.Analysis.SpecialFunctions.Trigonometric.Arctan
import Verif.Model.Kepler
import Verif.Spec.Sphere

/-!
# Model: orbital elements (/repo/classel.cpp, /repo/astfuncs.cpp)

Real numbers, without rounding errors and without infinities, so the assertions on `isfinite` are left out; `PI` and `SQRT_2` are π
and √2.  Triples are `Spec.Vec`.  `kepler` is a parameter `K` (C82 is about it).
-/

namespace Verif.Orbit

open Verif.AltAz Verif.Ellipse Verif.Kepler Verif.Spec

/-- `dot_product`, /repo/miscell.cpp:479-482. -/
def vdot (a b : Vec) : ℝ := a.x * b.x + a.y * b.y + a.z * b.z

/-- `vector_cross_product`, /repo/miscell.cpp:522-527. -/
def vcross (a b : Vec) : Vec := ⟨a.y * b.z - a.z * b.y, a.z * b.x - a.x * b.z, a.x * b.y - a.y * b.x⟩

/-- `vec[i] /= s` for the three components. -/
noncomputable def over (a : Vec) (s : ℝ) : Vec := ⟨a.x / s, a.y / s, a.z / s⟩

/-- `struct elements`, /repo/comets.h:22-32, without `epoch`, the magnitudes and the flags. -/
structure Elements where
  perihTime : ℝ
  q : ℝ
  ecc : ℝ
  incl : ℝ
  argPer : ℝ
  ascNode : ℝ
  meanAnomaly : ℝ
  lonPer : ℝ
  minorToMajor : ℝ
  perihVec : Vec
  sideways : Vec
  angularMomentum : ℝ
  majorAxis : ℝ
  t0 : ℝ
  w0 : ℝ
  gm : ℝ

/-! ## From a position and a velocity -/

/-- The component along `h` is to be taken out of `e`, /repo/classel.cpp:141-143. -/
noncomputable def flatten (h : Vec) (h0 : ℝ) (e : Vec) : Vec :=
  let tval := vdot e h / h0
  ⟨e.x - h.x * tval, e.y - h.y * tval, e.z - h.z * tval⟩

/-- The vector of the eccentricity, /repo/classel.cpp:138-140. -/
noncomputable def eccVector (gm dist : ℝ) (r v h : Vec) : Vec :=
  let e := vcross v h
  ⟨e.x / gm - r.x / dist, e.y / gm - r.y / dist, e.z / gm - r.z / dist⟩

/-- /repo/classel.cpp:129-133. -/
noncomputable def nodeOf (h : Vec) (n0 : ℝ) : ℝ := if n0 = 0 then 0 else atan2 h.x (-h.y)

/-- /repo/classel.cpp:134-136; `asine` (/repo/miscell.cpp:67-74) is constant outside [-1, 1] as `Real.arcsin` is. -/
noncomputable def inclOf (h : Vec) (n0 h0 : ℝ) : ℝ :=
  let i := Real.arcsin (n0 / h0)
  if h.z < 0 then Real.pi - i else i

/-- /repo/classel.cpp:190-213; `e` has length 1. -/
noncomputable def argOf (h e : Vec) (n0 h0 : ℝ) : ℝ :=
  let c := if n0 ≠ 0 then (h.x * e.y - h.y * e.x) / n0 else e.x
  let a := if c < 7 / 10 ∧ c > -(7 / 10) then Real.arccos c
    else
      let s := if n0 ≠ 0 then (e.x * h.x * h.z + e.y * h.y * h.z - e.z * n0 * n0) / (n0 * h0) else e.y * h.z / h0
      let a := |Real.arcsin s|
      if c < 0 then Real.pi - a else a
  if e.z < 0 then Real.pi + Real.pi - a else a

/-- `is_nearly_parabolic`, /repo/classel.cpp:218. -/
def Nearly (ecc : ℝ) : Prop := ecc > 99999 / 100000 ∧ ecc < 100001 / 100000

/-- Nearly parabolic orbits are made parabolic, /repo/classel.cpp:144-146. -/
noncomputable def snap (ecc2 : ℝ) : ℝ := if |ecc2 - 1| < 1 / 10 ^ 14 then 1 else ecc2

open Classical in
/-- The last part of `calc_classical_elements`, /repo/classel.cpp:216-280; `e` has length 1. -/
noncomputable def timing (el : Elements) (r v : Vec) (t dist inv : ℝ) (h e : Vec) (h0 : ℝ) : Outcome Elements :=
  let side := vcross h e
  if inv ≠ 0 ∧ el.minorToMajor ≠ 0 then
    let rc := vdot r e
    let rs := vdot r side / h0
    let sinE := rs * inv / el.minorToMajor
    if inv > 0 then
      let cosE := rc * inv + el.ecc
      let a := atan2 sinE cosE
      let m := if Nearly el.ecc then a * (1 - el.ecc) - el.ecc * a * remainingTerms (-a * a) else a - el.ecc * sinE
      .ok { el with meanAnomaly := m, perihTime := t - m * el.t0, sideways := over side h0, angularMomentum := h0, perihVec := e }
    else
      let a := Real.arsinh sinE
      let m := if Nearly el.ecc then a * (1 - el.ecc) - el.ecc * a * remainingTerms (a * a) else a - el.ecc * sinE
      if ¬ el.t0 ≤ 0 then .abort
      else .ok { el with meanAnomaly := m, perihTime := t - m * |el.t0|, sideways := over side (-h0), angularMomentum := -h0, perihVec := e }
  else
    let tau := √(dist / el.q - 1)
    let tau := if vdot r v < 0 then -tau else tau
    let w0 := 3 / √2 / (el.q * √(el.q / el.gm))
    .ok { el with w0 := w0, perihTime := t - tau * (tau * tau / 3 + 1) * 3 / w0, sideways := over side h0, angularMomentum := h0, perihVec := e }

open Classical in
/-- The middle part of `calc_classical_elements`, /repo/classel.cpp:147-214, from the eccentricity on. -/
noncomputable def shape (old : Elements) (r v : Vec) (t dist inv : ℝ) (h ev : Vec) (n0 h0 ecc2 : ℝ) : Outcome Elements :=
  let gm := old.gm
  let ecc := √ecc2
  let e := if ecc = 0 then over r dist else over ev ecc
  let speed := gm / h0 * (1 + √(1 - inv * h0 * h0 / gm))
  let q := if ecc < 9 / 10 then (1 - ecc) / inv else h0 / speed
  if ¬ ecc < 9 / 10 ∧ speed = 0 ∨ ¬ q > 0 then .abort
  else
  let inv := if ecc < 9 / 10 then inv else (1 - ecc) / q
  let axis := if inv ≠ 0 then 1 / inv else old.majorAxis
  let t0 := if inv ≠ 0 then axis * √(|axis| / gm) else old.t0
  timing
    { old with
      ascNode := nodeOf h n0, incl := inclOf h n0 h0, argPer := argOf h e n0 h0, minorToMajor := √|1 - ecc2|, ecc := ecc, q := q,
      majorAxis := axis, t0 := t0 }
    r v t dist inv h e h0

open Classical in
/-- `calc_classical_elements( elem, r, t, 1)`, /repo/classel.cpp:104-281; `old` is what is in `elem` before. -/
noncomputable def classical (old : Elements) (r v : Vec) (t : ℝ) : Outcome Elements :=
  let gm := old.gm
  let dist := √(vdot r r)
  let v2 := vdot v v
  let inv := 2 / dist - v2 / gm
  let h := vcross r v
  let n0 := h.x * h.x + h.y * h.y
  let h0 := n0 + h.z * h.z
  if gm = 0 ∨ ¬ dist > 0 ∨ ¬ v2 > 0 ∨ ¬ h0 > 0 then .abort
  else
  let n0 := √n0
  let h0 := √h0
  let ev := flatten h h0 (eccVector gm dist r v h)
  shape old r v t dist inv h ev n0 h0 (snap (vdot ev ev))

/-! ## From the elements -/

/-- The longitude of the perihelion in `setup_orbit_vectors`, /repo/astfuncs.cpp:101-102. -/
noncomputable def perihLon (e : Elements) : ℝ :=
  e.ascNode + atan2 (Real.sin e.argPer * Real.cos e.incl) (Real.cos e.argPer)

/-- `vec`, before it is divided by its length, /repo/astfuncs.cpp:105-107. -/
noncomputable def perihRaw (e : Elements) : Vec :=
  ⟨Real.cos (perihLon e) * Real.cos e.incl, Real.sin (perihLon e) * Real.cos e.incl, Real.sin e.incl * Real.sin (perihLon e - e.ascNode)⟩

/-- `vec_len`, /repo/astfuncs.cpp:108-110. -/
noncomputable def perihLen (e : Elements) : ℝ :=
  let len := √(Real.cos e.incl * Real.cos e.incl + (perihRaw e).z * (perihRaw e).z)
  if Real.cos e.incl < 0 then len * -1 else len

/-- `setup_orbit_vectors`, /repo/astfuncs.cpp:93-120. -/
noncomputable def orbitVectors (e : Elements) : Elements :=
  let vec := over (perihRaw e) (perihLen e)
  let up : Vec := ⟨Real.sin e.ascNode * Real.sin e.incl, -Real.cos e.ascNode * Real.sin e.incl, Real.cos e.incl⟩
  { e with minorToMajor := √|1 - e.ecc * e.ecc|, lonPer := perihLon e, perihVec := vec, sideways := vcross up vec }

open Classical in
/-- `derive_quantities`, /repo/astfuncs.cpp:122-136; it leaves `gm` in the structure alone. -/
noncomputable def derive (e : Elements) (gm : ℝ) : Elements :=
  let e := if e.ecc ≠ 1 then
      let axis := e.q / |1 - e.ecc|
      { e with majorAxis := axis, t0 := axis * √(axis / gm) }
    else { e with w0 := 3 / √2 / (e.q * √(e.q / gm)), majorAxis := 0, t0 := 0 }
  orbitVectors { e with angularMomentum := √(gm * e.q * (1 + e.ecc)) }

/-- `CUBE_ROOT`, /repo/astfuncs.cpp:39. -/
noncomputable def cubeRoot (x : ℝ) : ℝ := Real.exp (Real.log x / 3)

/-- A place on the orbit: position, distance and, if `angular_momentum` is not 0, velocity. -/
structure Place where
  loc : Vec
  dist : ℝ
  vel : Option Vec

open Classical in
/-- The true anomaly in `comet_posn_part_ii`, /repo/astfuncs.cpp:284-308. -/
noncomputable def trueAnomaly (K : ℝ → ℝ → ℝ) (e : Elements) (t : ℝ) : ℝ :=
  if e.ecc = 1 then
    let g := e.w0 * t * (1 / 2)
    let y := cubeRoot (g + √(g * g + 1))
    2 * Real.arctan (y - 1 / y)
  else
    let a := K e.ecc e.meanAnomaly
    let x := if e.ecc > 1 then e.ecc - Real.cosh a else Real.cos a - e.ecc
    let y := if e.ecc > 1 then Real.sinh a else Real.sin a
    let y := y * e.minorToMajor
    atan2 y x

open Classical in
/-- The rest of `comet_posn_part_ii`, /repo/astfuncs.cpp:310-333, with `loc` and `vel` given. -/
noncomputable def placeAt (e : Elements) (nu : ℝ) : Place :=
  let r0 := e.q * (1 + e.ecc)
  let r := r0 / (1 + e.ecc * Real.cos nu)
  let x := r * Real.cos nu
  let y := r * Real.sin nu
  let loc : Vec := ⟨e.perihVec.x * x + e.sideways.x * y, e.perihVec.y * x + e.sideways.y * y, e.perihVec.z * x + e.sideways.z * y⟩
  let ac := e.angularMomentum / (r * r)
  let rc := e.ecc * Real.sin nu * e.angularMomentum / (r * r0)
  let x1 := x * rc - y * ac
  let y1 := y * rc + x * ac
  { loc := loc, dist := r,
    vel := if e.angularMomentum ≠ 0 then
      some ⟨e.perihVec.x * x1 + e.sideways.x * y1, e.perihVec.y * x1 + e.sideways.y * y1, e.perihVec.z * x1 + e.sideways.z * y1⟩
      else none }

/-- The mean anomaly within half a turn, /repo/astfuncs.cpp:344-346. -/
noncomputable def halfTurn (t : ℝ) : ℝ :=
  let t := fmod t (Real.pi * 2)
  let t := if t < -Real.pi then t + 2 * Real.pi else t
  if t > Real.pi then t - 2 * Real.pi else t

open Classical in
/-- `comet_posn_and_vel`, /repo/astfuncs.cpp:335-352. -/
noncomputable def posnAndVel (K : ℝ → ℝ → ℝ) (e : Elements) (t : ℝ) : Place :=
  let t := t - e.perihTime
  if e.ecc ≠ 1 then
    let t := t / e.t0
    let t := if e.ecc < 1 then halfTurn t else t
    let e := { e with meanAnomaly := t }
    placeAt e (trueAnomaly K e t)
  else placeAt e (trueAnomaly K e t)

end Verif.Orbit
