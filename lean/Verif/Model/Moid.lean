import Verif.Model.Orbit
import Verif.Model.Ellipse
import Verif.Model.AltAz
import Mathlib.Algebra.Order.Floor.Semiring
import Mathlib.Analysis.SpecialFunctions.Trigonometric.Inverse

/-!
# Model: the least distance of two orbits (/repo/moid.cpp)

Over the real numbers.  Simplifications: rounding is left out; `none` stands for a number that is not defined in C (the result of
`point_to_ellipse` when it divides 0 by 0), and a comparison with it is false; the angles which `brent_min_next` (C35) returns inside a
bracket are an arbitrary list given by the parameter `refine`, so the theorems hold whatever it returns; the assertions that a
refinement takes fewer than 200 steps are left out.
-/

namespace Verif.Moid

open Verif.Spec Verif.Orbit Verif.Ellipse Real

/-- The three rows of a 3×3 matrix. -/
structure Rows where
  r0 : Vec
  r1 : Vec
  r2 : Vec

/-- `fill_matrix`, lines 64-70. -/
def fillMatrix (e : Elements) : Rows := ⟨e.perihVec, e.sideways, vcross e.perihVec e.sideways⟩

/-- `xform_matrix[i][j] = dot_product( mat1[j], mat2[i])`, lines 188-190. -/
def xform (m1 m2 : Rows) : Rows :=
  let row (v : Vec) : Vec := ⟨vdot m1.r0 v, vdot m1.r1 v, vdot m1.r2 v⟩
  ⟨row m2.r0, row m2.r1, row m2.r2⟩

open Classical in
/-- `true_r` in `compute_posn_and_vel`, lines 76-84. -/
noncomputable def trueR (e : Elements) (θ : ℝ) : ℝ :=
  let r := e.q * (1 + e.ecc) / (1 + e.ecc * cos θ)
  if r > 1000 ∨ r < 0 then 1000 else r

/-- The position from `compute_posn_and_vel`, lines 85-88. -/
noncomputable def posn (e : Elements) (θ : ℝ) (m : Rows) : Vec :=
  let x := trueR e θ * cos θ
  let y := trueR e θ * sin θ
  ⟨x * m.r0.x + y * m.r1.x, x * m.r0.y + y * m.r1.y, x * m.r0.z + y * m.r1.z⟩

/-- `GAUSS_K`, line 60. -/
noncomputable def gaussK : ℝ := 0.01720209895

/-- The velocity from `compute_posn_and_vel`, lines 89-101. -/
noncomputable def vel (e : Elements) (θ : ℝ) (m : Rows) : Vec :=
  let denom := 1 + e.ecc * cos θ
  let r := trueR e θ
  let x := r * cos θ
  let y := r * sin θ
  let dx_dtheta := -y / denom
  let dy_dtheta := (x + e.ecc * r) / denom
  let atPerihelion := gaussK * √((1 + e.ecc) / e.q)
  let dtheta_dt := atPerihelion * e.q / (r * r)
  let dx_dt := dx_dtheta * dtheta_dt
  let dy_dt := dy_dtheta * dtheta_dt
  ⟨dx_dt * m.r0.x + dy_dt * m.r1.x, dx_dt * m.r0.y + dy_dt * m.r1.y, dx_dt * m.r0.z + dy_dt * m.r1.z⟩

/-- `true_anomaly_to_eccentric`, lines 105-114. -/
noncomputable def toEccentric (θ ecc : ℝ) : ℝ :=
  let r := (1 - ecc * ecc) / (1 + ecc * cos θ)
  let x := r * cos θ + ecc
  let y := r * sin θ / √(1 - ecc * ecc)
  π + atan2 (-y) (-x)

open Classical in
/-- `true_anom_from_r`, lines 125-142. -/
noncomputable def trueAnomFromR (e : Elements) (r : ℝ) : ℝ :=
  if e.ecc ≠ 0 then
    let c := (e.q * (1 + e.ecc) - r) / (r * e.ecc)
    if c ≥ 1 then 0 else if c ≤ -1 then π else arccos c
  else 0

/-- `vect2` shifted from the focus to the centre, and what `point_to_ellipse` makes of it; `find_point_moid_2`, lines 149-154. -/
noncomputable def pointMoid (e1 e2 : Elements) (m : Rows) (θ : ℝ) : Option (ℝ × ℝ) :=
  let v := posn e2 θ m
  pointToEllipse e1.majorAxis (e1.majorAxis * e1.minorToMajor) (v.x + e1.q * e1.ecc / (1 - e1.ecc)) v.y

/-- `dist_squared` in `find_point_moid_2`, lines 155-165. -/
noncomputable def distSquared (e1 e2 : Elements) (m : Rows) (θ : ℝ) : Option ℝ :=
  (pointMoid e1 e2 m θ).map fun p => p.2 * p.2 + (posn e2 θ m).z * (posn e2 θ m).z

/-- `obj1_true_anom`, lines 156-164. -/
noncomputable def obj1TrueAnom (e1 e2 : Elements) (m : Rows) (θ : ℝ) : Option ℝ :=
  (pointMoid e1 e2 m θ).map fun p => atan2 ((posn e2 θ m).y - p.2 * sin p.1) ((posn e2 θ m).x - p.2 * cos p.1)

/-- `moid_step`, line 171. -/
noncomputable def moidStep : ℝ := 5 * π / 180

/-- `least_dist_squared` and `min_true2`. -/
structure Best where
  least : ℝ
  at2 : ℝ

open Classical in
/-- `if( least_dist_squared > dist_squared)` with both assignments, lines 252-256 and 274-278. -/
noncomputable def visit (D : ℝ → Option ℝ) (b : Best) (θ : ℝ) : Best :=
  match D θ with
  | some d => if b.least > d then ⟨d, θ⟩ else b
  | none => b

open Classical in
/-- The same without `min_true2`, lines 202-203 and 220-221. -/
noncomputable def visitLeast (D : ℝ → Option ℝ) (least θ : ℝ) : ℝ :=
  match D θ with
  | some d => if least > d then d else least
  | none => least

/-- `n_steps`, line 240 (`min_true_anom ≤ max_true_anom`, so the conversion to `int` rounds down). -/
noncomputable def nSteps (lo hi : ℝ) : ℕ := ⌊(hi - lo) / moidStep⌋₊ + 1

/-- `true_anomaly2` for `i = k - 1` in the pass with the sign `s`, lines 245-248. -/
noncomputable def grid (lo hi s : ℝ) (k : ℕ) : ℝ := s * ((hi - lo) * ((k : ℝ) - 1) / nSteps lo hi + lo)

/-- `y1 < y0` for values that may be undefined. -/
def less : Option ℝ → Option ℝ → Prop
  | some a, some b => a < b
  | _, _ => False

open Classical in
/-- The angles looked at for one `i = k - 1` of the loop in lines 243-283. -/
noncomputable def stepPoints (D : ℝ → Option ℝ) (refine : ℝ → ℝ → ℝ → List ℝ) (lo hi s : ℝ) (k : ℕ) : List ℝ :=
  let g := grid lo hi s
  g k :: if k > 1 ∧ less (D (g (k - 1))) (D (g (k - 2))) ∧ less (D (g (k - 1))) (D (g k)) then refine (g (k - 2)) (g (k - 1)) (g k) else []

/-- All angles of one pass, lines 243-283. -/
noncomputable def passPoints (D : ℝ → Option ℝ) (refine : ℝ → ℝ → ℝ → List ℝ) (lo hi s : ℝ) : List ℝ :=
  (List.range (nSteps lo hi + 3)).flatMap (stepPoints D refine lo hi s)

/-- The state between the passes. -/
structure State where
  best : Best
  lo : ℝ
  hi : ℝ

/-- `Q1`, `Q2`, lines 182-183. -/
noncomputable def aphelion (e : Elements) : ℝ := e.majorAxis * 2 - e.q

open Classical in
/-- The narrowed range, lines 228-239. -/
noncomputable def narrow (e1 e2 : Elements) (s : State) : State :=
  let dist := √s.best.least
  { best := s.best
    hi := if e2.ecc ≥ 1 ∨ aphelion e2 > aphelion e1 + dist then trueAnomFromR e2 (aphelion e1 + dist) else s.hi
    lo := if e2.q < e1.q - dist then trueAnomFromR e2 (e1.q - dist) else s.lo }

/-- One pass, lines 228-283. -/
noncomputable def pass (e1 e2 : Elements) (D : ℝ → Option ℝ) (refine : ℝ → ℝ → ℝ → List ℝ) (sign : ℝ) (s : State) : State :=
  let s := narrow e1 e2 s
  { s with best := (passPoints D refine s.lo s.hi sign).foldl (visit D) s.best }

/-- `arg_per` from the line of nodes, lines 210-214. -/
noncomputable def nodeArg (m : Rows) : ℝ :=
  -atan2 (vdot ⟨-m.r2.y, m.r2.x, 0⟩ m.r1) (vdot ⟨-m.r2.y, m.r2.x, 0⟩ m.r0)

open Classical in
/-- The angles tried before the passes after the first one, lines 199-223. -/
noncomputable def guesses (e2 : Elements) (m : Rows) (θ : ℝ) : List ℝ :=
  (if θ ≠ 0 ∧ θ ≠ π then [-θ] else []) ++ if e2.ecc < 1 then [0 * π - nodeArg m, 1 * π - nodeArg m] else []

/-- The first angle, line 196. -/
noncomputable def firstAngle (e1 e2 : Elements) : ℝ := trueAnomFromR e2 e1.majorAxis

/-- The two passes, lines 224-284. -/
noncomputable def passes (e1 e2 : Elements) (D : ℝ → Option ℝ) (refine : ℝ → ℝ → ℝ → List ℝ) (least : ℝ) : State :=
  pass e1 e2 D refine (-1) (pass e1 e2 D refine 1 ⟨⟨least, 0⟩, 0, π⟩)

/-- What `find_moid_full` returns and writes to `*mdata`. -/
structure Result where
  moid : ℝ
  at2 : ℝ
  obj1TrueAnom : ℝ
  barbeeSpeed : ℝ
  jd1 : ℝ

/-- The vector difference. -/
def minus (u v : Vec) : Vec := ⟨u.x - v.x, u.y - v.y, u.z - v.z⟩

/-- Lines 285-308. -/
noncomputable def report (e1 e2 : Elements) (m1 m2 : Rows) (b : Best) : Option Result :=
  (obj1TrueAnom e1 e2 (xform m1 m2) b.at2).map fun v =>
    let d := minus (vel e2 b.at2 m2) (vel e1 v m1)
    let ecc := toEccentric v e1.ecc
    let mean := ecc - e1.ecc * sin ecc
    ⟨√b.least, b.at2, v, √(vdot d d), e1.perihTime + mean * e1.t0⟩

/-- `find_moid_full`, lines 173-309, up to line 284: `least_dist_squared` and `min_true2`. -/
noncomputable def findBest (e1 e2 : Elements) (refine : ℝ → ℝ → ℝ → List ℝ) : Option Best :=
  let m := xform (fillMatrix e1) (fillMatrix e2)
  let D := distSquared e1 e2 m
  (D (firstAngle e1 e2)).map fun d =>
    (passes e1 e2 D refine ((guesses e2 m (firstAngle e1 e2)).foldl (visitLeast D) d)).best

/-- `find_moid_full`, lines 173-309. -/
noncomputable def findMoid (e1 e2 : Elements) (refine : ℝ → ℝ → ℝ → List ℝ) : Option Result :=
  (findBest e1 e2 refine).bind fun b => report e1 e2 (fillMatrix e1) (fillMatrix e2) b

open Classical in
/-- `centralize_angle`, lines 311-319. -/
noncomputable def centralize (ang : ℝ) : ℝ :=
  let a := AltAz.fmod ang (π + π)
  if a < -π then a + (π + π) else if a > π then a - (π + π) else a

/-- `planet_elem`, lines 335-351: semimajor axis, eccentricity, inclination, node, perihelion, longitude. -/
def planetElem : List (List ℚ) :=
  [[0.38709927, 0.20563593, 7.00497902, 48.33076593, 77.45779628, 252.25032350],
   [0.72333566, 0.00677672, 3.39467605, 76.67984255, 131.60246718, 181.97909950],
   [1.00000261, 0.01671123, -0.00001531, 0.0, 102.93768193, 100.46457166],
   [1.52371034, 0.09339410, 1.84969142, 49.55953891, -23.94362959, -4.55343205],
   [5.20288700, 0.04838624, 1.30439695, 100.47390909, 14.72847983, 34.39644051],
   [9.53667594, 0.05386179, 2.48599187, 113.66242448, 92.59887831, 49.95424423],
   [19.18916464, 0.04725744, 0.77263783, 74.01692503, 170.95427630, 313.23810451],
   [30.06992276, 0.00859048, 1.77004347, 131.78422574, 44.96476227, -55.12002969],
   [39.48211675, 0.24882730, 17.14001206, 110.30393684, 224.06891629, 238.92903833],
   [2.7664603, 0.0783638, 10.583360, 80.494464, 73.921341, 4.036019],
   [2.7723257, 0.2296435, 34.846130, 173.197757, 310.264059, 350.826074],
   [2.3615363, 0.0900245, 7.133918, 103.951631, 149.589094, 338.305822],
   [2.5543838, 0.0722511, 6.102741, 356.567840, 62.015715, 20.150301],
   [2.9204983, 0.1382234, 3.093382, 150.465894, 229.122381, 333.613957],
   [2.6437135, 0.1862108, 11.747399, 293.516504, 96.956836, 104.873024]]

/-- `planet_elem_rate`, lines 354-363. -/
def planetRate : List (List ℚ) :=
  [[0.00000037, 0.00001906, -0.00594749, -0.12534081, 0.16047689, 149472.67411175],
   [0.00000390, -0.00004107, -0.00078890, -0.27769418, 0.00268329, 58517.81538729],
   [0.00000562, -0.00004392, -0.01294668, 0.0, 0.32327364, 35999.37244981],
   [0.00001847, 0.00007882, -0.00813131, -0.29257343, 0.44441088, 19140.30268499],
   [-0.00011607, -0.00013253, -0.00183714, 0.20469106, 0.21252668, 3034.74612775],
   [-0.00125060, -0.00050991, 0.00193609, -0.28867794, -0.41897216, 1222.49362201],
   [-0.00196176, -0.00004397, -0.00242939, 0.04240589, 0.40805281, 428.48202785],
   [0.00026291, 0.00005105, 0.00035372, -0.00508664, -0.32241464, 218.45945325],
   [-0.00031596, 0.00005170, 0.00004818, -0.01183482, -0.04062942, 145.20780515]]

/-- `elem_array[i]` before the conversion to radians, lines 372-377; `idx` counts from 1. -/
noncomputable def element (idx : ℕ) (t : ℝ) (i : ℕ) : ℝ :=
  let a : ℝ := ((((planetElem.getD (idx - 1) []).getD i 0 : ℚ)) : ℝ)
  if idx ≤ 9 then a + ((((planetRate.getD (idx - 1) []).getD i 0 : ℚ)) : ℝ) * t else a

/-- An orbit with the constant terms zero, `memset( elem, 0, …)`, line 380. -/
noncomputable def blank : Elements :=
  { perihTime := 0, q := 0, ecc := 0, incl := 0, argPer := 0, ascNode := 0, meanAnomaly := 0, lonPer := 0, minorToMajor := 0,
    perihVec := ⟨0, 0, 0⟩, sideways := ⟨0, 0, 0⟩, angularMomentum := 0, majorAxis := 0, t0 := 0, w0 := 0, gm := 0 }

/-- What `setup_planet_elem` puts into the structure before `derive_quantities`, lines 372-391. -/
noncomputable def rawPlanet (idx : ℕ) (t : ℝ) : Elements :=
  let a := element idx t
  let angle (i : ℕ) := centralize (a i * π / 180)
  let arg := if idx < 9 then angle 4 - angle 3 else angle 4
  { blank with ecc := a 1, q := (1 - a 1) * a 0, incl := angle 2, ascNode := angle 3, argPer := arg, meanAnomaly := centralize (angle 5 - angle 3 - arg) }

/-- `setup_planet_elem`, lines 324-399: `none` for the result -1, else the elements and their epoch.  For `planet_idx` above 10 or below 1
line 366 already computes a pointer outside its array; nothing is read through it. -/
noncomputable def setupPlanet (idx : ℤ) (t : ℝ) : Option (Elements × ℝ) :=
  if idx > 15 ∨ idx < 1 then none
  else
    let e := derive (rawPlanet idx.toNat t) (gaussK * gaussK)
    let epoch := 2451545 + t * 36525
    some ({ e with perihTime := epoch - e.meanAnomaly * e.t0 }, epoch)

end Verif.Moid
