import Mathlib.Algebra.Ring.Defs

/-!
# Model of the rotation functions, /repo/miscell.cpp:76-97, 171-213, 465-476, 522-527

Exact arithmetic in a commutative ring instead of `double`; `cos( angle)` and `sin( angle)` are the
parameters `c` and `s`.  A C array of `double` is a function from indices.
-/

namespace Verif.Rot

variable {R : Type} [CommRing R]

/-- `a[i] = x`. -/
def store (m : Nat → R) (i : Nat) (x : R) : Nat → R := fun k => if k = i then x else m k

/-- `set_identity_matrix`, /repo/miscell.cpp:76-82: `(i & 3) ? 0. : 1.` for the nine entries. -/
def setIdentity : Nat → R := fun i => if i % 4 = 0 then 1 else 0

/-- `invert_orthonormal_matrix`, /repo/miscell.cpp:88-97: three swaps. -/
def swap (m : Nat → R) (i j : Nat) : Nat → R := store (store m i (m j)) j (m i)
def invertOrthonormal (m : Nat → R) : Nat → R := swap (swap (swap m 1 3) 2 6) 5 7

/-- `rotate_vector( v, angle, axis)`, /repo/miscell.cpp:171-180. -/
def rotateVector (v : Nat → R) (c s : R) (axis : Nat) : Nat → R :=
  let a := (axis + 1) % 3
  let b := (axis + 2) % 3
  let temp := v a * c - v b * s
  let v := store v b (v b * c + v a * s)
  store v a temp

/-- The loop shared by `pre_spin_matrix` (stride 3) and `spin_matrix` (stride 1); `p1` and `p2` are
    the offsets of `v1` and `v2` in the matrix. -/
def spinLoop (c s : R) (stride : Nat) : Nat → (Nat → R) → Nat → Nat → (Nat → R)
  | 0, m, _, _ => m
  | n + 1, m, p1, p2 =>
    let tval := m p1 * c - m p2 * s
    let m := store m p2 (m p2 * c + m p1 * s)
    let m := store m p1 tval
    spinLoop c s stride n m (p1 + stride) (p2 + stride)

/-- `pre_spin_matrix( v1, v2, angle)`, /repo/miscell.cpp:182-197. -/
def preSpinMatrix (m : Nat → R) (p1 p2 : Nat) (c s : R) : Nat → R := spinLoop c s 3 3 m p1 p2

/-- `spin_matrix( v1, v2, angle)`, /repo/miscell.cpp:199-213. -/
def spinMatrix (m : Nat → R) (p1 p2 : Nat) (c s : R) : Nat → R := spinLoop c s 1 3 m p1 p2

/-- `dot_product`, /repo/miscell.cpp:479-482. -/
def dot3 (a b : Nat → R) : R := a 0 * b 0 + a 1 * b 1 + a 2 * b 2

/-- `vector_cross_product`, /repo/miscell.cpp:522-527. -/
def crossProduct (a b : Nat → R) : Nat → R := fun i =>
  if i = 0 then a 1 * b 2 - a 2 * b 1
  else if i = 1 then a 2 * b 0 - a 0 * b 2
  else a 0 * b 1 - a 1 * b 0

end Verif.Rot
