import Mathlib.Algebra.Order.Floor.Ring
import Mathlib.Algebra.Order.Field.Basic

/-!
# Model of /repo/spline.cpp

Exact arithmetic in an ordered field with integer part.  A table of `n` entries is a function on the
integers; the properties check that only indices from 0 to `n - 1` matter.
-/

namespace Verif.Spline

variable {K : Type} [Field K] [LinearOrder K] [FloorRing K]

/-- Choice of `idx` and of `*err_code`, /repo/spline.cpp:87-103. -/
def cubicIndex (n : Int) (x : K) : Int × Int :=
  let idx := ⌊x⌋
  if idx < 1 then (1, if idx < 0 then -2 else -1)
  else if idx > n - 3 then (n - 3, if idx > n - 2 then -2 else -1)
  else (idx, 0)

/-- The cubic through entries `idx` and `idx + 1`, /repo/spline.cpp:104-111. -/
def cubicAt (table : Int → K) (idx : Int) (x : K) : K :=
  let x := x - (idx : K)
  let c := (table (idx + 1) - table (idx - 1)) * (1 / 2)
  let y1 := table (idx + 1) - table idx
  let a := (table (idx + 2) - table idx) * (1 / 2) - 2 * y1 + c
  let b := y1 - a - c
  table idx + x * (c + x * (b + x * a))

/-- `cubic_spline_interpolate_within_table`, /repo/spline.cpp:84-112: value and error code. -/
def cubic (table : Int → K) (n : Int) (x : K) : K × Int :=
  let r := cubicIndex n x
  (cubicAt table r.1 x, r.2)

/-- Conversion from `double` to `int`: towards zero. -/
def trunc (x : K) : Int := if 0 ≤ x then ⌊x⌋ else ⌈x⌉

/-- The starting entry, /repo/spline.cpp:124 and 143-146. -/
def lagrangeIndex (nEntries : Int) (x : K) (nPts : Nat) : Int :=
  let idx := ⌊x - (nPts : K) / 2⌋ + 1
  if idx < 0 then 0 else if idx > nEntries - nPts then nEntries - nPts else idx

/-- First loop, /repo/spline.cpp:151-160: `c`, `t` and `sum_recips` after `i` rounds. -/
def lagrangeLoop1 (x : K) : Nat → K × K × K
  | 0 => (1, 1, 0)
  | i + 1 =>
    let s := lagrangeLoop1 x i
    let dx := x - (i : K)
    (s.1 * dx, if i = 0 then s.2.1 else s.2.1 * -(i : K), s.2.2 + 1 / dx)

/-- Second loop, /repo/spline.cpp:164-173: `t`, `rval` and `*deriv` after `i` rounds. -/
def lagrangeLoop2 (f : Int → K) (x y0 t sumRecips : K) (nPts : Nat) : Nat → K × K × K
  | 0 => (t, 0, 0)
  | i + 1 =>
    let s := lagrangeLoop2 f x y0 t sumRecips nPts i
    let dx := x - (i : K)
    let t := if i = 0 then s.1 else s.1 * ((i : K) / ((i : K) - (nPts : K)))
    (t, s.2.1 + (f i - y0) / (t * dx), s.2.2 + (sumRecips - 1 / dx) * f i / (t * dx))

/-- The part after the grid-point test, /repo/spline.cpp:143-178: value and derivative. -/
def lagrangeOff (table : Int → K) (nEntries : Int) (x : K) (nPts : Nat) : K × K :=
  let idx := lagrangeIndex nEntries x nPts
  let f := fun i => table (idx + i)
  let x := x - (idx : K)
  let y0 := f (nPts / 2 : Nat)
  let s := lagrangeLoop1 x nPts
  let r := lagrangeLoop2 f x y0 s.2.1 s.2.2 nPts nPts
  (r.2.1 * s.1 + y0, r.2.2 * s.1)

/-- `lagrange_interpolate_within_table` with `deriv` NULL, /repo/spline.cpp:120-179. -/
def lagrange (table : Int → K) (nEntries : Int) (x : K) (nPts : Nat) : K :=
  let i := trunc (x + 1 / 2)
  if x = (i : K) ∧ i ≥ 0 ∧ i < nEntries then table i
  else (lagrangeOff table nEntries x nPts).1

/-- The derivative it stores when `deriv` is not NULL. -/
def lagrangeDeriv (table : Int → K) (nEntries : Int) (x : K) (nPts : Nat) : K :=
  let i := trunc (x + 1 / 2)
  if x = (i : K) ∧ i ≥ 0 ∧ i < nEntries then
    let epsilon := 1 / 10 ^ 5
    let y1 := lagrange table nEntries (x - epsilon) nPts
    let y2 := lagrange table nEntries (x + epsilon) nPts
    (y2 - y1) / (2 * epsilon)
  else (lagrangeOff table nEntries x nPts).2

end Verif.Spline
