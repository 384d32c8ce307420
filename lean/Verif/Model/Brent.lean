import Mathlib.Algebra.Order.Field.Basic

/-!
# Model of /repo/brentmin.cpp

Exact arithmetic in an ordered field; `sqrt` is a parameter.  The two arrays of five `double`s are functions on
the indices.  A division by zero gives an infinity or a NaN (`Dbl`); a failed `assert` gives `none`.
`prev_range` and `prev_range2` are never read and are left out.
-/

namespace Verif.Brent

variable {K : Type} [Field K] [LinearOrder K]

/-- A `double` that may be infinite (sign not needed) or not a number. -/
inductive Dbl (K : Type) where
  | fin (v : K)
  | inf
  | nan

/-- Division. -/
def Dbl.div (a b : K) : Dbl K := if b ≠ 0 then .fin (a / b) else if a = 0 then .nan else .inf

/-- `step_type`, /repo/brentmin.cpp:32-36. -/
inductive Step where
  | initialized | done | golden | cubic | quadratic
  deriving DecidableEq

/-- `brent_min_t`, /repo/brentmin.h:29-38. -/
structure State (K : Type) where
  x : Nat → K
  y : Nat → K
  xmin : K
  xmax : K
  nextX : K
  goldRatio : K
  tolerance : K
  ytolerance : K
  stepType : Step
  nIterations : Nat

/-- Array store. -/
def store (f : Nat → K) (i : Nat) (v : K) : Nat → K := fun j => if j = i then v else f j

/-- `bubble_down`, /repo/brentmin.cpp:15-28. -/
def bubbleDown (x y : Nat → K) : Nat → (Nat → K) × (Nat → K)
  | 0 => (x, y)
  | count + 1 =>
    if y (count + 1) < y count then
      bubbleDown (store (store x (count + 1) (x count)) count (x (count + 1)))
        (store (store y (count + 1) (y count)) count (y (count + 1))) count
    else bubbleDown x y count

/-- `PHI`, /repo/brentmin.cpp:30. -/
def PHI : K := 6180339887498948482045868343656381177203091798057628621354486227052605 / 10 ^ 70

/-- `brent_min_init`, /repo/brentmin.cpp:38-66, followed by the caller's setting of the two tolerances. -/
def init (x1 y1 x2 y2 x3 y3 tol ytol : K) : Option (State K) :=
  let x : Nat → K := fun i => if i = 0 then x1 else if i = 1 then x2 else x3
  let y : Nat → K := fun i => if i = 0 then y1 else if i = 1 then y2 else y3
  let xmin := x1
  let xmax := x1
  let xmin := if xmin > x2 then x2 else xmin
  let xmin := if xmin > x3 then x3 else xmin
  let xmax := if xmax < x2 then x2 else xmax
  let xmax := if xmax < x3 then x3 else xmax
  let p := bubbleDown x y 2
  let p := bubbleDown p.1 p.2 2
  if p.1 0 > xmin ∧ p.1 0 < xmax then
    some ⟨p.1, p.2, xmin, xmax, 0, PHI, tol, ytol, .initialized, 0⟩
  else none

/-- `fit_parabola`, /repo/brentmin.cpp:75-90: a, b and c. -/
def fitParabola (x y : Nat → K) : Option (K × K × K) :=
  let x21 := x 2 - x 1
  let x01 := x 0 - x 1
  let x20 := x 2 - x 0
  let y21 := y 2 - y 1
  let y01 := y 0 - y 1
  if x21 ≠ 0 ∧ x20 ≠ 0 ∧ x01 ≠ 0 then
    let a := (y21 / x21 - y01 / x01) / x20
    let b := y01 / x01 - a * (x 1 + x 0)
    let c := y 0 - x 0 * (b + a * x 0)
    some (a, b, c)
  else none

/-- The cubic of `cubic_min`, /repo/brentmin.cpp:124-137: coefficients of u³, u² and u, where u = x - x[0];
    `none` if the assertion fails. -/
def cubicCoeffs (x y : Nat → K) : Option (K × K × K) :=
  let x1 := x 1 - x 0
  let x2 := x 2 - x 0
  let x3 := x 3 - x 0
  let y1 := y 1 - y 0
  let y2 := y 2 - y 0
  let y3 := y 3 - y 0
  let k12_denom := x1 * x2 * (x1 - x2)
  let k13_denom := x1 * x3 * (x1 - x3)
  if k12_denom ≠ 0 ∧ k13_denom ≠ 0 ∧ x2 ≠ x3 then
    let k12 := (y1 * x2 - y2 * x1) / k12_denom
    let k13 := (y1 * x3 - y3 * x1) / k13_denom
    let a := (k12 - k13) / (x2 - x3)
    let b := k12 - a * (x1 + x2)
    let c := y1 / x1 - x1 * (a * x1 + b)
    some (a, b, c)
  else none

/-- `cubic_min`, /repo/brentmin.cpp:122-151: outer `none` if the assertion fails, inner `none` for
    `*err = 1`. -/
def cubicMin (sqrt : K → K) (x y : Nat → K) : Option (Option (Dbl K)) :=
  (cubicCoeffs x y).map fun t =>
    let a := t.1 * 3
    let b := t.2.1 + t.2.1
    let c := t.2.2
    let discr := b * b - 4 * a * c
    if discr < 0 then none
    else
      let discr := sqrt discr
      let rval := if b < 0 then -b + discr else -b - discr
      match Dbl.div (2 * c) rval with
      | .fin q => some (.fin (x 0 + q))
      | d => some d

/-- `is_done`, /repo/brentmin.cpp:153-158. -/
def isDone (b : State K) : Bool :=
  if b.nIterations > 3 ∧ b.y 3 - b.y 0 ≤ b.ytolerance then true
  else decide (b.xmax - b.x 0 < b.tolerance ∧ b.x 0 - b.xmin < b.tolerance)

/-- The golden section step, /repo/brentmin.cpp:218-219. -/
def goldenStep (b : State K) : K :=
  let right := b.xmax - b.x 0
  let left := b.x 0 - b.xmin
  b.x 0 + (if right > left then right else -left) * (1 - b.goldRatio)

/-- Adjustment of a suggested point, /repo/brentmin.cpp:193-214: `none` asks for a golden section step
    instead.  Comparisons with a NaN are false, so that it passes through. -/
def adjust (b : State K) (rval : Dbl K) : Option (Dbl K) :=
  let right := b.xmax - b.x 0
  let left := b.x 0 - b.xmin
  let tol := b.tolerance * (9 / 10)
  match rval with
  | .nan => some .nan
  | .inf => none
  | .fin r =>
    if r > b.x 0 - tol ∧ r < b.x 0 + tol then some (.fin (b.x 0 + if right > left then tol else -tol))
    else if r < b.x 0 then
      if r < b.xmin then none
      else if r < b.xmin + tol then some (.fin (b.xmin + tol))
      else some (.fin r)
    else
      if r > b.xmax then none
      else if r > b.xmax - tol then some (.fin (b.xmax - tol))
      else some (.fin r)

/-- The point tried and the kind of step, /repo/brentmin.cpp:189-219. -/
def pick (b : State K) (kind : Step) (cand : Dbl K) : Dbl K × Step :=
  if kind = .golden then (.fin (goldenStep b), .golden)
  else
    match adjust b cand with
    | none => (.fin (goldenStep b), .golden)
    | some v => if b.nIterations > 30 ∧ b.nIterations % 2 = 1 then (.fin (goldenStep b), .golden) else (v, kind)

/-- The end of `brent_min_next`, /repo/brentmin.cpp:189-225, from the suggested step: `none` if an assertion
    fails. -/
def finish (b : State K) (kind : Step) (cand : Dbl K) : Option (State K) :=
  match (pick b kind cand).1 with
  | .fin v =>
    if v ≥ b.xmin ∧ v ≤ b.xmax ∧ v ≠ b.x 0 then some { b with nextX := v, stepType := (pick b kind cand).2 } else none
  | _ => none

/-- The suggested step, /repo/brentmin.cpp:172-188: its kind and value, `none` if an assertion fails. -/
def suggest (sqrt : K → K) (b : State K) : Option (Step × Dbl K) :=
  if b.nIterations ≠ 0 then
    (cubicMin sqrt b.x b.y).map fun r =>
      match r with
      | some d => (.cubic, d)
      | none => (.golden, .nan)
  else
    (fitParabola b.x b.y).map fun t => (.quadratic, Dbl.div (-t.2.1 * (1 / 2)) t.1)

/-- `brent_min_next`, /repo/brentmin.cpp:160-225: `none` if an assertion fails.  The value returned is
    `nextX`, or `x 0` if the step type is `done`. -/
def next (sqrt : K → K) (b : State K) : Option (State K) :=
  if b.xmax - b.x 0 ≠ 0 ∧ b.x 0 - b.xmin ≠ 0 then
    if isDone b then some { b with stepType := .done }
    else (suggest sqrt b).bind fun s => finish b s.1 s.2
  else none

/-- The insertion loop, /repo/brentmin.cpp:250-257. -/
def insertLoop (nx ny : K) (x y : Nat → K) : Nat → (Nat → K) × (Nat → K)
  | 0 => (store x 0 nx, store y 0 ny)
  | idx + 1 =>
    if ny ≤ y idx then insertLoop nx ny (store x (idx + 1) (x idx)) (store y (idx + 1) (y idx)) idx
    else (store x (idx + 1) nx, store y (idx + 1) ny)

/-- `brent_min_add`, /repo/brentmin.cpp:227-264: `none` if an assertion fails; else the new state and
    whether it is done. -/
def add (b : State K) (ny : K) : Option (State K × Bool) :=
  let idx := if b.nIterations ≠ 0 then 4 else 3
  let b1 : State K :=
    if ny ≤ b.y 0 then
      let b := if b.nextX < b.x 0 then { b with xmax := b.x 0 } else { b with xmin := b.x 0 }
      if b.stepType = .golden then { b with goldRatio := (1 + b.goldRatio) / 2 } else b
    else
      let b := if b.nextX < b.x 0 then { b with xmin := b.nextX } else { b with xmax := b.nextX }
      if b.stepType = .golden then { b with goldRatio := (PHI + b.goldRatio) / 2 } else b
  let p := insertLoop b.nextX ny b.x b.y idx
  let b2 : State K := { b1 with x := p.1, y := p.2, nIterations := b.nIterations + 1 }
  if b2.y 0 ≤ b2.y 1 ∧ b2.y 1 ≤ b2.y 2 ∧ b2.y 2 ≤ b2.y 3 ∧ b2.x 0 > b2.xmin ∧ b2.x 0 < b2.xmax then
    some (b2, isDone b2)
  else none

/-- A caller's loop (as in /repo/test_min.cpp:30-44): for each value `f` of the function to minimise, ask
    for the next point, evaluate, and add; stop when done. -/
def run (sqrt : K → K) (f : K → K) : Nat → State K → Option (State K)
  | 0, b => some b
  | n + 1, b =>
    (next sqrt b).bind fun b1 =>
      if b1.stepType = .done then some b1
      else (add b1 (f b1.nextX)).bind fun r => run sqrt f n r.1

end Verif.Brent
