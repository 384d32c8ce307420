import Mathlib.Analysis.SpecialFunctions.Trigonometric.Basic
import Mathlib.Tactic.FieldSimp
import Mathlib.Tactic.Linarith
import Mathlib.Tactic.Positivity
import Verif.Model.Bytes
import Verif.Model.GetBin
import Verif.Model.AltAz
import Verif.Model.Rotation
import Verif.Model.Precess
import Verif.Model.Vsop

/-!
# Model of the Moon's position, /repo/lunar2.cpp, and of the positions in five systems, /repo/getplane.cpp

Real numbers for `double`; what number eight bytes are is a parameter `real`.  The machine is little-endian.  The data are the bytes of
`vsop.bin`; a place beyond them is `ub`.
-/

namespace Verif.Lunar2

open Verif Verif.GetBin
open Verif.Ps1996 (ptr)

/-- The loop of lines 79-80: the rest of a polynomial. -/
noncomputable def polyLoop (real : List Nat → ℝ) (t : ℝ) : Nat → List Nat → ℝ → ℝ → ℝ
  | 0, _, _, acc => acc
  | n + 1, s, tpow, acc => polyLoop real t n (s.drop 8) (tpow * t) (acc + tpow * real (s.take 8))

/-- `fund[i]` after the loop of lines 74-81: five polynomials of 40 bytes each. -/
noncomputable def poly (real : List Nat → ℝ) (s : List Nat) (t : ℝ) (i : Nat) : ℝ :=
  let s := s.drop (40 * i)
  polyLoop real t 4 (s.drop 8) t (real (s.take 8))

/-- Lines 87-92: degrees to radians. -/
noncomputable def toRadians (x : ℝ) : ℝ :=
  let r := AltAz.fmod x 360
  (if r < 0 then r + 360 else r) * (Real.pi / 180)

/-- `lunar_fundamentals`, lines 65-94: `fund`. -/
noncomputable def fundamentals (real : List Nat → ℝ) (data : List Nat) (t : ℝ) : Outcome (Nat → ℝ) :=
  if data.length < 60754 then .ub
  else
    let s := data.drop 60554
    if ¬ (get32bits (ptr s) = 0x6ed5a0b1 ∧ get32bits (ptr data) = 0x00260000) then .abort
    else .ok fun i =>
      if i < 5 then toRadians (poly real s t i)
      else if i = 5 then toRadians (119.75 + 131.849 * t)
      else if i = 6 then toRadians (53.09 + 479264.290 * t)
      else if i = 7 then toRadians (313.45 + 481266.484 * t)
      else t

/-- `e`, lines 104 and 152. -/
noncomputable def dimming (fund : Nat → ℝ) : ℝ := 1 - 0.002516 * fund 8 - 0.0000074 * fund 8 * fund 8

/-- `for( j = abs( m); j; j--) term *= e;` -/
noncomputable def powLoop (e : ℝ) : Nat → ℝ → ℝ
  | 0, term => term
  | n + 1, term => powLoop e n (term * e)

/-- `arg`, lines 114-115 and 161-162. -/
noncomputable def argument (fund : Nat → ℝ) (s : List Nat) : ℝ :=
  (schar (ptr s 0) : ℝ) * fund 1 + (schar (ptr s 1) : ℝ) * fund 2 + (schar (ptr s 2) : ℝ) * fund 3 + (schar (ptr s 3) : ℝ) * fund 4

/-- The loop of lines 105-132: `sl_sum` and `sr_sum`. -/
noncomputable def lonLoop (fund : Nat → ℝ) (precision : Int) : Nat → List Nat → ℝ × ℝ → ℝ × ℝ
  | 0, _, g => g
  | n + 1, s, g =>
    let sl := get32sbits (ptr (s.drop 4))
    let sr := get32sbits (ptr (s.drop 8))
    lonLoop fund precision n (s.drop 12)
      (if sl.natAbs > precision ∨ sr.natAbs > precision then
        (if sl ≠ 0 then g.1 + powLoop (dimming fund) (schar (ptr s 1)).natAbs ((sl : ℝ) * Real.sin (argument fund s)) else g.1,
         if sr ≠ 0 then g.2 + powLoop (dimming fund) (schar (ptr s 1)).natAbs ((sr : ℝ) * Real.cos (argument fund s)) else g.2)
      else g)

/-- `while( *lon < 0.) *lon += 360.;`, lines 136-137. -/
noncomputable def up (x : ℝ) : ℝ := if x < 0 then up (x + 360) else x
termination_by (-⌊x / 360⌋).toNat
decreasing_by
  have h1 : ⌊(x + 360) / 360⌋ = ⌊x / 360⌋ + 1 := by
    have : (x + 360) / 360 = x / 360 + 1 := by field_simp
    rw [this, Int.floor_add_one]
  have h2 : ⌊x / 360⌋ < 0 := by
    rw [Int.floor_lt, Int.cast_zero]
    exact div_neg_of_neg_of_pos (by linarith) (by positivity)
  omega

/-- `while( *lon > 360.) *lon -= 360.;`, lines 138-139. -/
noncomputable def down (x : ℝ) : ℝ := if x > 360 then down (x - 360) else x
termination_by ⌈x / 360⌉.toNat
decreasing_by
  have h1 : ⌈(x - 360) / 360⌉ = ⌈x / 360⌉ - 1 := by
    have : (x - 360) / 360 = x / 360 - 1 := by field_simp
    rw [this, Int.ceil_sub_one]
  have h2 : 0 < ⌈x / 360⌉ := by
    rw [Int.ceil_pos]
    have : 0 < x := by linarith
    positivity
  omega

/-- `lunar_lon_and_dist`, lines 96-142: `*lon` and `*r`. -/
noncomputable def lonAndDist (data : List Nat) (fund : Nat → ℝ) (precision : Int) : Outcome (ℝ × ℝ) :=
  if data.length < 60074 then .ub
  else if get32bits (ptr (data.drop 59354)) ≠ 0x00010000 then .abort
  else
    let g := lonLoop fund precision 60 (data.drop 59354) (0, 0)
    let sl := if precision < 3959 then g.1 + (3958 * Real.sin (fund 5) + 1962 * Real.sin (fund 0 - fund 4) + 318 * Real.sin (fund 6)) else g.1
    .ok (down (up (fund 0 * 180 / Real.pi + sl * 1e-6)), 385000.56 + g.2 / 1000)

/-- The loop of lines 153-169. -/
noncomputable def latLoop (fund : Nat → ℝ) (precision : Int) : Nat → List Nat → ℝ → ℝ
  | 0, _, g => g
  | n + 1, s, g =>
    let sb := get32sbits (ptr (s.drop 4))
    latLoop fund precision n (s.drop 8)
      (if sb.natAbs > precision then g + powLoop (dimming fund) (schar (ptr s 1)).natAbs ((sb : ℝ) * Real.sin (argument fund s)) else g)

/-- `lunar_lat`, lines 144-174. -/
noncomputable def lunarLat (data : List Nat) (fund : Nat → ℝ) (precision : Int) : Outcome ℝ :=
  if data.length < 60554 then .ub
  else if get32bits (ptr (data.drop 60074)) ≠ 0x01000000 then .abort
  else
    let g := latLoop fund precision 60 (data.drop 60074) 0
    let g := if precision < 2236 then g + (-2235 * Real.sin (fund 0) + 382 * Real.sin (fund 7) + 175 * Real.sin (fund 5 - fund 4) +
      175 * Real.sin (fund 5 + fund 4) + 127 * Real.sin (fund 0 - fund 3) - 115 * Real.sin (fund 0 + fund 3)) else g
    .ok (g * 1e-6)

/-! ## getplane.cpp -/

/-- The static variables of the functions called. -/
structure Memory where
  ecl : Precess.Cache
  obl : Precess.OblCache

/-- Lines 53-69: longitude, latitude and distance. -/
noncomputable def polar (real : List Nat → ℝ) (data : List Nat) (planet : Nat) (t : ℝ) : Outcome (ℝ × ℝ × ℝ) :=
  if planet ≠ 10 then
    (Vsop.vsopLoc real data planet 0 t 0).bind fun lon =>
    (Vsop.vsopLoc real data planet 1 t 0).bind fun lat =>
    (Vsop.vsopLoc real data planet 2 t 0).bind fun r => .ok (lon, lat, r)
  else
    (fundamentals real data t).bind fun fund =>
    (lunarLat data fund 0).bind fun lat =>
    (lonAndDist data fund 0).bind fun lr =>
    .ok (lr.1 * (Real.pi / 180), lat * (Real.pi / 180), lr.2 / 149597870.7)

/-- `compute_planet`, lines 44-88: the fifteen values as five triples, and the static variables after it. -/
noncomputable def computePlanet (real : List Nat → ℝ) (data : List Nat) (m : Memory) (planet : Nat) (t : ℝ) :
    Outcome ((ℝ × ℝ × ℝ) × (Nat → ℝ) × (Nat → ℝ) × (Nat → ℝ) × (Nat → ℝ) × Memory) :=
  let o := Precess.meanObliquity m.obl t
  (polar real data planet t).bind fun p =>
  let lon := p.1
  let lat := p.2.1
  let r := p.2.2
  let v3 : Nat → ℝ := fun i => ([Real.cos lon * Real.cos lat * r, Real.sin lon * Real.cos lat * r, Real.sin lat * r] : List ℝ).getD i 0
  let v6 := Rot.rotateVector v3 (Real.cos o.1) (Real.sin o.1) 0
  let s := Precess.setupPrecession m.ecl o.2 (2000 + t * 100) 2000
  let v9 := Precess.precessVector s.1 v6
  let obliq2000 := 23.4392911 * Real.pi / 180
  let v12 := Rot.rotateVector v9 (Real.cos (-obliq2000)) (Real.sin (-obliq2000)) 0
  .ok (p, v3, v6, v9, v12, { ecl := s.2.1, obl := s.2.2 })

end Verif.Lunar2
