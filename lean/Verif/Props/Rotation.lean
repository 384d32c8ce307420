import Verif.Model.Rotation
import Mathlib.LinearAlgebra.Matrix.NonsingularInverse
import Mathlib.LinearAlgebra.Matrix.Notation
import Mathlib.Tactic.LinearCombination
import Mathlib.Tactic.FinCases
import Mathlib.Tactic.Ring

/-!
# Property theorems: rotations (C42), vector products (C56)
-/

namespace Verif.Props

open Verif.Rot Matrix

variable {R : Type} [CommRing R]

/-- Specification: the matrix stored row by row in an array. -/
def toMat (m : Nat → R) : Matrix (Fin 3) (Fin 3) R := fun i j => m (3 * i.val + j.val)

/-- Specification: rows (and hence columns) are orthonormal. -/
def Orthonormal (M : Matrix (Fin 3) (Fin 3) R) : Prop := M * Mᵀ = 1

/-- Specification: the rotation in the plane of axes `a` and `b`. -/
def plane (a b : Fin 3) (c s : R) : Matrix (Fin 3) (Fin 3) R := fun i j =>
  if i = a then (if j = a then c else if j = b then -s else 0)
  else if i = b then (if j = a then s else if j = b then c else 0)
  else if i = j then 1 else 0

theorem plane_orthonormal (a b : Fin 3) (hab : a ≠ b) (c s : R) (h : c * c + s * s = 1) :
    Orthonormal (plane a b c s) := by
  unfold Orthonormal
  ext i j
  fin_cases a <;> fin_cases b <;> first | exact absurd rfl hab | skip
  all_goals
    fin_cases i <;> fin_cases j <;> simp [Matrix.mul_apply, Fin.sum_univ_three, plane] <;> first | exact h | linear_combination h | linear_combination -h | ring

theorem plane_det (a b : Fin 3) (hab : a ≠ b) (c s : R) (h : c * c + s * s = 1) : (plane a b c s).det = 1 := by
  fin_cases a <;> fin_cases b <;> first | exact absurd rfl hab | skip
  all_goals
    rw [Matrix.det_fin_three]; simp [plane]; linear_combination h

/-- **C42.** `spin_matrix` on rows `a` and `b` multiplies by the plane rotation from the left. -/
theorem C42_spin (m : Nat → R) (a b : Fin 3) (hab : a ≠ b) (c s : R) :
    toMat (spinMatrix m (3 * a) (3 * b) c s) = plane a b c s * toMat m := by
  ext i j
  fin_cases a <;> fin_cases b <;> first | exact absurd rfl hab | skip
  all_goals
    fin_cases i <;> fin_cases j <;>
      simp [Matrix.mul_apply, Fin.sum_univ_three, plane, toMat, spinMatrix, spinLoop, store] <;> ring

/-- **C42.** `pre_spin_matrix` on columns `a` and `b` multiplies by its transpose from the right. -/
theorem C42_pre_spin (m : Nat → R) (a b : Fin 3) (hab : a ≠ b) (c s : R) :
    toMat (preSpinMatrix m a b c s) = toMat m * (plane a b c s)ᵀ := by
  ext i j
  fin_cases a <;> fin_cases b <;> first | exact absurd rfl hab | skip
  all_goals
    fin_cases i <;> fin_cases j <;>
      simp [Matrix.mul_apply, Fin.sum_univ_three, plane, toMat, preSpinMatrix, spinLoop, store] <;> ring

/-- **C42.** `spin_matrix` keeps an orthonormal matrix orthonormal, and its determinant. -/
theorem C42_spin_orthonormal (m : Nat → R) (a b : Fin 3) (hab : a ≠ b) (c s : R) (h : c * c + s * s = 1)
    (hm : Orthonormal (toMat m)) :
    Orthonormal (toMat (spinMatrix m (3 * a) (3 * b) c s)) ∧
    (toMat (spinMatrix m (3 * a) (3 * b) c s)).det = (toMat m).det := by
  rw [C42_spin m a b hab]
  have hp := plane_orthonormal a b hab c s h
  refine ⟨?_, by rw [Matrix.det_mul, plane_det a b hab c s h, one_mul]⟩
  unfold Orthonormal at *
  rw [Matrix.transpose_mul, Matrix.mul_assoc, ← Matrix.mul_assoc (toMat m), hm, Matrix.one_mul, hp]

/-- **C42.** `pre_spin_matrix` keeps an orthonormal matrix orthonormal, and its determinant. -/
theorem C42_pre_spin_orthonormal (m : Nat → R) (a b : Fin 3) (hab : a ≠ b) (c s : R) (h : c * c + s * s = 1)
    (hm : Orthonormal (toMat m)) :
    Orthonormal (toMat (preSpinMatrix m a b c s)) ∧
    (toMat (preSpinMatrix m a b c s)).det = (toMat m).det := by
  rw [C42_pre_spin m a b hab]
  have hp : (plane a b c s)ᵀ * plane a b c s = 1 := mul_eq_one_comm.1 (plane_orthonormal a b hab c s h)
  refine ⟨?_, by rw [Matrix.det_mul, Matrix.det_transpose, plane_det a b hab c s h, mul_one]⟩
  unfold Orthonormal at *
  rw [Matrix.transpose_mul, Matrix.transpose_transpose, Matrix.mul_assoc, ← Matrix.mul_assoc (plane a b c s)ᵀ, hp,
    Matrix.one_mul, hm]

/-- **C42.** Spinning back with the opposite angle undoes the spin. -/
theorem C42_spin_back (m : Nat → R) (a b : Fin 3) (hab : a ≠ b) (c s : R) (h : c * c + s * s = 1) :
    toMat (spinMatrix (spinMatrix m (3 * a) (3 * b) c s) (3 * a) (3 * b) c (-s)) = toMat m := by
  have hT : plane a b c (-s) = (plane a b c s)ᵀ := by
    ext i j
    fin_cases a <;> fin_cases b <;> first | exact absurd rfl hab | skip
    all_goals fin_cases i <;> fin_cases j <;> simp [plane]
  rw [C42_spin _ a b hab, C42_spin _ a b hab, hT, ← Matrix.mul_assoc,
    mul_eq_one_comm.1 (plane_orthonormal a b hab c s h), Matrix.one_mul]

/-- **C42.** `set_identity_matrix` stores the identity. -/
theorem C42_identity : toMat (setIdentity : Nat → R) = 1 := by
  ext i j
  fin_cases i <;> fin_cases j <;> simp [toMat, setIdentity]

/-- **C42.** `invert_orthonormal_matrix` gives the inverse of an orthonormal matrix, from both sides. -/
theorem C42_invert (m : Nat → R) (hm : Orthonormal (toMat m)) :
    toMat (invertOrthonormal m) * toMat m = 1 ∧ toMat m * toMat (invertOrthonormal m) = 1 := by
  have hT : toMat (invertOrthonormal m) = (toMat m)ᵀ := by
    ext i j
    fin_cases i <;> fin_cases j <;> simp [toMat, invertOrthonormal, swap, store]
  rw [hT]
  exact ⟨mul_eq_one_comm.1 hm, hm⟩

/-- A non-trivial orthonormal matrix: the identity spun by a quarter turn. -/
example : Orthonormal (toMat (spinMatrix (setIdentity : Nat → Int) 0 3 0 1)) ∧
    toMat (spinMatrix (setIdentity : Nat → Int) 0 3 0 1) ≠ 1 := by
  refine ⟨(C42_spin_orthonormal setIdentity 0 1 (by decide) 0 1 (by decide) ?_).1, ?_⟩
  · unfold Orthonormal; rw [C42_identity]; simp
  · intro h
    have := congrFun (congrFun h 0) 0
    revert this; decide

/-- **C42.** `rotate_vector` preserves the length of a vector. -/
theorem C42_rotate_length (v : Nat → R) (c s : R) (axis : Nat) (h : c * c + s * s = 1) :
    dot3 (rotateVector v c s axis) (rotateVector v c s axis) = dot3 v v := by
  have h3 : axis % 3 = 0 ∨ axis % 3 = 1 ∨ axis % 3 = 2 := by omega
  rcases h3 with h3 | h3 | h3
  all_goals
    have h1 : (axis + 1) % 3 = (axis % 3 + 1) % 3 := by omega
    have h2 : (axis + 2) % 3 = (axis % 3 + 2) % 3 := by omega
    simp only [rotateVector, h1, h2, h3, dot3, store]
    norm_num
  · linear_combination (v 1 ^ 2 + v 2 ^ 2) * h
  · linear_combination (v 2 ^ 2 + v 0 ^ 2) * h
  · linear_combination (v 0 ^ 2 + v 1 ^ 2) * h

/-- **C42.** Rotating by one angle and then another is rotating by the sum (given the addition formulas
    for cosine and sine). -/
theorem C42_rotate_add (v : Nat → R) (c s c' s' : R) (axis : Nat) :
    rotateVector (rotateVector v c s axis) c' s' axis =
      rotateVector v (c * c' - s * s') (s * c' + c * s') axis := by
  funext k
  have hab : (axis + 1) % 3 ≠ (axis + 2) % 3 := by omega
  simp only [rotateVector]
  generalize (axis + 1) % 3 = a at *
  generalize (axis + 2) % 3 = b at *
  simp only [store, if_neg hab, if_neg (Ne.symm hab), if_true]
  by_cases ha : k = a
  · simp only [if_pos ha]; ring
  · by_cases hb : k = b
    · simp only [if_neg ha, if_pos hb]; ring
    · simp only [if_neg ha, if_neg hb]

/-- **C42.** Rotating by an angle and then by its negative changes nothing. -/
theorem C42_rotate_back (v : Nat → R) (c s : R) (axis : Nat) (h : c * c + s * s = 1) :
    rotateVector (rotateVector v c s axis) c (-s) axis = v := by
  rw [C42_rotate_add]
  have h1 : c * c - s * -s = 1 := by linear_combination h
  have h2 : s * c + c * -s = 0 := by ring
  rw [h1, h2]
  funext k
  simp only [rotateVector, store]
  split
  · rename_i hk; subst hk; ring
  · split
    · rename_i hk; subst hk; ring
    · rfl

/-- **C56.** The cross product is perpendicular to both factors. -/
theorem C56_perpendicular (a b : Nat → R) :
    dot3 (crossProduct a b) a = 0 ∧ dot3 (crossProduct a b) b = 0 := by
  constructor <;> simp [dot3, crossProduct] <;> ring

/-- **C56.** Its length: |a×b|² + (a·b)² = |a|²|b|². -/
theorem C56_length (a b : Nat → R) :
    dot3 (crossProduct a b) (crossProduct a b) + dot3 a b * dot3 a b =
      dot3 a a * dot3 b b := by
  simp [dot3, crossProduct]; ring

/-- **C56.** It changes sign when the factors are exchanged, and follows the right-hand rule. -/
theorem C56_orientation (a b : Nat → R) (k : Nat) :
    crossProduct a b k = -crossProduct b a k ∧
    dot3 (crossProduct (fun i => if i = 0 then (1 : R) else 0) (fun i => if i = 1 then 1 else 0))
      (fun i => if i = 2 then 1 else 0) = 1 := by
  constructor
  · simp only [crossProduct]; split_ifs <;> ring
  · simp [dot3, crossProduct]

/-- **C56.** It is compatible with rotations about an axis. -/
theorem C56_rotate (a b : Nat → R) (c s : R) (axis k : Nat) (hk : k < 3) (h : c * c + s * s = 1) :
    crossProduct (rotateVector a c s axis) (rotateVector b c s axis) k =
      rotateVector (crossProduct a b) c s axis k := by
  have h3 : axis % 3 = 0 ∨ axis % 3 = 1 ∨ axis % 3 = 2 := by omega
  have hk3 : k = 0 ∨ k = 1 ∨ k = 2 := by omega
  have h1 : (axis + 1) % 3 = (axis % 3 + 1) % 3 := by omega
  have h2 : (axis + 2) % 3 = (axis % 3 + 2) % 3 := by omega
  rcases h3 with h3 | h3 | h3 <;> rcases hk3 with rfl | rfl | rfl <;>
    simp only [rotateVector, h1, h2, h3, crossProduct, store] <;> norm_num
  all_goals first
    | ring1
    | linear_combination (a 1 * b 2 - a 2 * b 1) * h
    | linear_combination (a 2 * b 0 - a 0 * b 2) * h
    | linear_combination (a 0 * b 1 - a 1 * b 0) * h

end Verif.Props
