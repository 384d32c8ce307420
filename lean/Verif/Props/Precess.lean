import Mathlib.Analysis.Real.Pi.Bounds
import Mathlib.Tactic.FinCases
import Mathlib.Tactic.Linarith
import Mathlib.Tactic.LinearCombination
import Mathlib.Tactic.NormNum
import Mathlib.Tactic.Positivity
import Mathlib.Tactic.Ring
import Mathlib.Tactic.SplitIfs
import Verif.Model.Precess
import Verif.Props.Ellipse
import Verif.Props.Rotation
import Verif.Spec.Sphere

/-!
# Property theorems: precession and the obliquity of the ecliptic (C81)
-/

namespace Verif.Props

open Verif Verif.Spec Verif.Precess Verif.Rot Matrix

/-- Specification: a rotation. -/
def IsRotation (M : Matrix (Fin 3) (Fin 3) ℝ) : Prop := Orthonormal M ∧ M.det = 1

/-- Specification: the image of a vector. -/
def image (M : Matrix (Fin 3) (Fin 3) ℝ) (v : Vec) : Vec :=
  ⟨M 0 0 * v.x + M 0 1 * v.y + M 0 2 * v.z, M 1 0 * v.x + M 1 1 * v.y + M 1 2 * v.z, M 2 0 * v.x + M 2 1 * v.y + M 2 2 * v.z⟩

theorem rotation_one : IsRotation 1 := ⟨by unfold Orthonormal; simp, Matrix.det_one⟩

theorem rotation_transpose {M : Matrix (Fin 3) (Fin 3) ℝ} (h : IsRotation M) : IsRotation Mᵀ := by
  refine ⟨?_, by rw [Matrix.det_transpose]; exact h.2⟩
  unfold Orthonormal
  rw [Matrix.transpose_transpose]
  exact mul_eq_one_comm.1 h.1

theorem rotation_mul {M N : Matrix (Fin 3) (Fin 3) ℝ} (h : IsRotation M) (k : IsRotation N) : IsRotation (M * N) := by
  refine ⟨?_, by rw [Matrix.det_mul, h.2, k.2, one_mul]⟩
  have h1 := h.1
  have k1 := k.1
  unfold Orthonormal at *
  rw [Matrix.transpose_mul, Matrix.mul_assoc, ← Matrix.mul_assoc N, k1, Matrix.one_mul, h1]

theorem trig_one (x : ℝ) : Real.cos x * Real.cos x + Real.sin x * Real.sin x = 1 := by
  linear_combination Real.sin_sq_add_cos_sq x

/-- The rotation in a plane by an angle. -/
noncomputable def spin (a b : Fin 3) (x : ℝ) : Matrix (Fin 3) (Fin 3) ℝ := plane a b (Real.cos x) (Real.sin x)

theorem spin_rotation {a b : Fin 3} (hab : a ≠ b) (x : ℝ) : IsRotation (spin a b x) :=
  ⟨plane_orthonormal a b hab _ _ (trig_one x), plane_det a b hab _ _ (trig_one x)⟩

theorem invert_mat (m : Nat → ℝ) : toMat (invertOrthonormal m) = (toMat m)ᵀ := by
  ext i j
  fin_cases i <;> fin_cases j <;> simp [toMat, invertOrthonormal, swap, store]

theorem product_mat (m t : Nat → ℝ) : toMat (product m t) = toMat m * toMat t := by
  ext i j
  fin_cases i <;> fin_cases j <;> simp [toMat, product, Matrix.mul_apply, Fin.sum_univ_three]

/-- The matrix from 2000 is a tilt by `eta` about the node, then a turn by the accumulated precession. -/
theorem ecliptic_mat (year : ℝ) :
    toMat (eclipticFromJ2000 year) =
      spin 0 1 (pie ((year - 2000) / 100)) * (spin 1 0 (-accumulated ((year - 2000) / 100)) *
        (spin 1 2 (-eta ((year - 2000) / 100)) * (spin 0 1 (pie ((year - 2000) / 100)))ᵀ)) := by
  unfold eclipticFromJ2000
  simp only
  generalize (year - 2000) / 100 = t
  have h1 := fun m : Nat → ℝ => C42_spin m 0 1 (by decide) (Real.cos (pie t)) (Real.sin (pie t))
  have h2 := fun m : Nat → ℝ => C42_spin m 1 0 (by decide) (Real.cos (-accumulated t)) (Real.sin (-accumulated t))
  have h3 := fun m : Nat → ℝ => C42_spin m 1 2 (by decide) (Real.cos (-eta t)) (Real.sin (-eta t))
  simp only [Fin.val_zero, Fin.val_one, Fin.val_two, Nat.mul_zero, Nat.mul_one, Nat.reduceMul] at h1 h2 h3
  rw [h1, h2, h3]
  unfold spin
  congr 3
  ext i j
  fin_cases i <;> fin_cases j <;> simp [toMat, setIdentity, store, plane]

/-- C81: precession of the ecliptic from 2000 is a rotation, and none at 2000. -/
theorem C81_ecliptic (year : ℝ) : IsRotation (toMat (eclipticFromJ2000 year)) ∧ toMat (eclipticFromJ2000 2000) = 1 := by
  constructor
  · rw [ecliptic_mat]
    exact rotation_mul (spin_rotation (by decide) _) (rotation_mul (spin_rotation (by decide) _)
      (rotation_mul (spin_rotation (by decide) _) (rotation_transpose (spin_rotation (by decide) _))))
  · rw [ecliptic_mat]
    have h0 : ((2000 : ℝ) - 2000) / 100 = 0 := by norm_num
    have he : eta 0 = 0 := by simp [eta]
    have hp : accumulated 0 = 0 := by simp [accumulated]
    have hi : ∀ a b : Fin 3, a ≠ b → spin a b 0 = 1 := by
      intro a b hab
      ext i j
      fin_cases a <;> fin_cases b <;> first | exact absurd rfl hab | skip
      all_goals fin_cases i <;> fin_cases j <;> simp [spin, plane]
    rw [h0, he, hp, neg_zero, hi 1 0 (by decide), hi 1 2 (by decide), Matrix.one_mul, Matrix.one_mul]
    exact (spin_rotation (by decide) _).1

/-- C81: precession of the equator from 2000 is a rotation, and none at 2000. -/
theorem C81_equatorial (year : ℝ) : IsRotation (toMat (equatorialFromJ2000 year)) ∧ toMat (equatorialFromJ2000 2000) = 1 := by
  constructor
  · unfold equatorialFromJ2000
    simp only
    generalize (_ : ℝ) * arcsec = zeta
    generalize (_ : ℝ) * arcsec = z
    generalize (_ : ℝ) * arcsec = theta
    have h1 := Real.sin_sq_add_cos_sq zeta
    have h2 := Real.sin_sq_add_cos_sq z
    have h3 := Real.sin_sq_add_cos_sq theta
    have key : toMat (equatorial zeta z theta) = spin 0 1 z * ((spin 2 0 theta)ᵀ * spin 0 1 zeta) := by
      ext i j
      fin_cases i <;> fin_cases j <;>
        simp [toMat, equatorial, spin, plane, Matrix.mul_apply, Fin.sum_univ_three] <;> ring
    rw [key]
    exact rotation_mul (spin_rotation (by decide) _) (rotation_mul (rotation_transpose (spin_rotation (by decide) _))
      (spin_rotation (by decide) _))
  · ext i j
    fin_cases i <;> fin_cases j <;> simp [toMat, equatorialFromJ2000, equatorial]

/-! ## The cache -/

/-- Specification: what the code takes for the precession between two years. -/
noncomputable def between (a b : ℝ) : Matrix (Fin 3) (Fin 3) ℝ :=
  if |a - b| < 1 / 100000 then 1 else (toMat (eclipticFromJ2000 a))ᵀ * toMat (eclipticFromJ2000 b)

/-- The states after any calls. -/
inductive Reached : Cache → Prop
  | start : Reached Cache.start
  | call {st : Cache} (a b : ℝ) : Reached st → Reached (setupEcliptic st a b).2

theorem fresh_mat (a b : ℝ) : toMat (fresh a b) = (toMat (eclipticFromJ2000 a))ᵀ * toMat (eclipticFromJ2000 b) := by
  have h1 := (C81_ecliptic a).2
  unfold fresh
  split_ifs with h h'
  · rw [h, h1, Matrix.transpose_one, Matrix.one_mul]
  · rw [product_mat, invert_mat]
  · rw [not_not.mp h', h1, Matrix.mul_one, invert_mat]

theorem between_back (a b : ℝ) : between b a = (between a b)ᵀ := by
  unfold between
  rw [abs_sub_comm b a]
  split_ifs
  · rw [Matrix.transpose_one]
  · rw [Matrix.transpose_mul, Matrix.transpose_transpose]

theorem between_rotation (a b : ℝ) : IsRotation (between a b) := by
  unfold between
  split_ifs
  · exact rotation_one
  · exact rotation_mul (rotation_transpose (C81_ecliptic a).1) (C81_ecliptic b).1

theorem cache_inv {st : Cache} (h : Reached st) : st = Cache.start ∨ toMat st.matrix = between st.yearFrom st.yearTo := by
  induction h with
  | start => exact Or.inl rfl
  | @call st a b _ ih =>
    unfold setupEcliptic
    split_ifs with h1 h2 h3
    · exact ih
    · exact ih
    · exact ih
    · right
      simp only
      rw [fresh_mat, between, if_neg h1]

/-- The two years the cache begins with, in either order. -/
def Garbage (a b : ℝ) : Prop :=
  a = Cache.start.yearFrom ∧ b = Cache.start.yearTo ∨ a = Cache.start.yearTo ∧ b = Cache.start.yearFrom

/-- C81: the matrix does not depend on the calls before. -/
theorem C81_cache {st : Cache} (h : Reached st) {a b : ℝ} (hg : ¬ Garbage a b) : toMat (setupEcliptic st a b).1 = between a b := by
  have hi := cache_inv h
  unfold setupEcliptic
  split_ifs with h1 h2 h3
  · rw [C42_identity, between, if_pos h1]
  · rcases hi with hi | hi
    · subst hi
      exact absurd (Or.inl h2) hg
    · rw [h2.1, h2.2]
      exact hi
  · rcases hi with hi | hi
    · subst hi
      exact absurd (Or.inr h3) hg
    · rw [h3.1, h3.2, invert_mat, hi, ← between_back]
  · rw [fresh_mat, between, if_neg h1]

/-- C81: there and back, whatever was called before and between, are exactly inverse rotations. -/
theorem C81_inverse {st st' : Cache} (h : Reached st) (h' : Reached st') {a b : ℝ} (hg : ¬ Garbage a b) :
    IsRotation (toMat (setupEcliptic st a b).1) ∧ toMat (setupEcliptic st' b a).1 * toMat (setupEcliptic st a b).1 = 1 := by
  have hg' : ¬ Garbage b a := fun k => hg (k.symm.imp (fun x => ⟨x.2, x.1⟩) (fun x => ⟨x.2, x.1⟩))
  rw [C81_cache h hg, C81_cache h' hg', between_back a b]
  exact ⟨between_rotation a b, mul_eq_one_comm.1 (between_rotation a b).1⟩

/-- C81: to and from 2000. -/
theorem C81_j2000 {st : Cache} (h : Reached st) {y : ℝ} (hy : 1 / 100000 ≤ |y - 2000|) :
    toMat (setupEcliptic st 2000 y).1 = toMat (eclipticFromJ2000 y) ∧
      toMat (setupEcliptic st y 2000).1 = (toMat (eclipticFromJ2000 y))ᵀ := by
  have hn : ∀ a b : ℝ, a = 2000 ∨ b = 2000 → ¬ Garbage a b := by
    intro a b hab k
    unfold Garbage Cache.start at k
    simp only at k
    rcases hab with rfl | rfl <;> rcases k with ⟨k1, k2⟩ | ⟨k1, k2⟩ <;> first | (norm_num at k1; done) | norm_num at k2
  rw [C81_cache h (hn 2000 y (Or.inl rfl)), C81_cache h (hn y 2000 (Or.inr rfl))]
  unfold between
  rw [if_neg (by rw [abs_sub_comm]; exact not_lt.mpr hy), if_neg (not_lt.mpr hy), (C81_ecliptic 0).2]
  simp

/-- C81 (finding): the first call with the two years the cache begins with gets a matrix of zeros. -/
theorem C81_garbage : toMat (setupEcliptic Cache.start Cache.start.yearFrom Cache.start.yearTo).1 = 0 := by
  unfold setupEcliptic
  rw [if_neg (by unfold Cache.start; simp only; rw [abs_of_pos] <;> norm_num), if_pos ⟨rfl, rfl⟩]
  ext i j
  rfl

/-! ## The order of the factors -/

/-- By way of a year `a`, the rotation to `b` is right just when the two rotations commute. -/
theorem C81_order {st st1 st2 : Cache} (h : Reached st) (h1 : Reached st1) (h2 : Reached st2) {a b : ℝ} (hg : ¬ Garbage a b)
    (ha : 1 / 100000 ≤ |a - 2000|) (hb : 1 / 100000 ≤ |b - 2000|) (hab : 1 / 100000 ≤ |a - b|) :
    toMat (setupEcliptic st a b).1 * toMat (setupEcliptic st1 2000 a).1 = toMat (setupEcliptic st2 2000 b).1 ↔
      toMat (eclipticFromJ2000 b) * toMat (eclipticFromJ2000 a) = toMat (eclipticFromJ2000 a) * toMat (eclipticFromJ2000 b) := by
  rw [C81_cache h hg, (C81_j2000 h1 ha).1, (C81_j2000 h2 hb).1, between, if_neg (not_lt.mpr hab)]
  have ho := (C81_ecliptic a).1.1
  have ho' := mul_eq_one_comm.1 ho
  unfold Orthonormal at ho
  generalize toMat (eclipticFromJ2000 a) = A at *
  generalize toMat (eclipticFromJ2000 b) = B at *
  constructor
  · intro k
    have := congrArg (fun X => A * X) k
    simp only [← Matrix.mul_assoc, ho, Matrix.one_mul] at this
    exact this
  · intro k
    rw [Matrix.mul_assoc, k, ← Matrix.mul_assoc, ho', Matrix.one_mul]

theorem ecliptic_row (year : ℝ) :
    let t := (year - 2000) / 100
    let M := toMat (eclipticFromJ2000 year)
    M 2 0 = Real.sin (eta t) * Real.sin (pie t) ∧ M 2 1 = -(Real.sin (eta t) * Real.cos (pie t)) ∧ M 2 2 = Real.cos (eta t) ∧
      M 0 2 = -(Real.sin (eta t) * Real.sin (pie t + accumulated t)) ∧ M 1 2 = Real.sin (eta t) * Real.cos (pie t + accumulated t) := by
  simp only
  rw [ecliptic_mat]
  generalize (year - 2000) / 100 = t
  refine ⟨?_, ?_, ?_, ?_, ?_⟩ <;>
    simp [spin, plane, Matrix.mul_apply, Fin.sum_univ_three, Real.sin_add, Real.cos_add] <;> ring

/-- C81 (finding): from 2000 to 2100 and on to 2200 is not from 2000 to 2200; the factors are multiplied in the wrong order. -/
theorem C81_chain {st st1 st2 : Cache} (h : Reached st) (h1 : Reached st1) (h2 : Reached st2) :
    toMat (setupEcliptic st 2100 2200).1 * toMat (setupEcliptic st1 2000 2100).1 ≠ toMat (setupEcliptic st2 2000 2200).1 := by
  have hg : ¬ Garbage 2100 2200 := by
    intro k
    unfold Garbage Cache.start at k
    rcases k with ⟨k1, -⟩ | ⟨k1, -⟩ <;> norm_num at k1
  rw [Ne, C81_order h h1 h2 hg (by norm_num) (by norm_num) (by norm_num)]
  intro k
  have k22 := congrFun (congrFun k 2) 2
  obtain ⟨a0, a1, a2, a3, a4⟩ := ecliptic_row 2100
  obtain ⟨b0, b1, b2, b3, b4⟩ := ecliptic_row 2200
  have e1 : ((2100 : ℝ) - 2000) / 100 = 1 := by norm_num
  have e2 : ((2200 : ℝ) - 2000) / 100 = 2 := by norm_num
  rw [e1] at a0 a1 a2 a3 a4
  rw [e2] at b0 b1 b2 b3 b4
  simp only [Matrix.mul_apply, Fin.sum_univ_three] at k22
  rw [a0, a1, a2, a3, a4, b0, b1, b2, b3, b4] at k22
  have hpi := Real.pi_pos
  have hpi4 := Real.pi_le_four
  have hpos : ∀ t : ℝ, 0 < t → t < 3 → 0 < Real.sin (eta t) := by
    intro t t0 t3
    have : eta t = t * (470029 / 10000 - 3302 / 100000 * t + 6 / 100000 * t ^ 2) * arcsec := by unfold eta; ring
    rw [this]
    have hc : 0 < 470029 / 10000 - 3302 / 100000 * t + 6 / 100000 * t ^ 2 := by nlinarith
    have hc' : 470029 / 10000 - 3302 / 100000 * t + 6 / 100000 * t ^ 2 < 100 := by nlinarith
    apply Real.sin_pos_of_pos_of_lt_pi
    · unfold arcsec; positivity
    · have : t * (470029 / 10000 - 3302 / 100000 * t + 6 / 100000 * t ^ 2) < 300 := by nlinarith
      unfold arcsec
      nlinarith
  have s1 := hpos 1 (by norm_num) (by norm_num)
  have s2 := hpos 2 (by norm_num) (by norm_num)
  have kk : Real.cos (pie 2 - (pie 1 + accumulated 1)) = Real.cos (pie 1 - (pie 2 + accumulated 2)) := by
    rw [Real.cos_sub, Real.cos_sub (pie 1)]
    have hne : Real.sin (eta 1) * Real.sin (eta 2) ≠ 0 := (mul_pos s1 s2).ne'
    apply mul_left_cancel₀ hne
    linear_combination -k22
  have u1 : pie 2 - (pie 1 + accumulated 1) = -((8698089 / 10000 - 3 * (3536 / 100000) + 50290966 / 10000 + 111113 / 100000 - 6 / 100000) * arcsec) := by
    unfold pie accumulated; ring
  have u2 : pie 1 - (pie 2 + accumulated 2) =
      -((2 * (50290966 / 10000) + 4 * (111113 / 100000) - 8 * (6 / 100000) - 8698089 / 10000 + 3 * (3536 / 100000)) * arcsec) := by
    unfold pie accumulated; ring
  rw [u1, u2, Real.cos_neg, Real.cos_neg] at kk
  have ha : arcsec = Real.pi / 648000 := by unfold arcsec; ring
  rw [ha] at kk
  have := Real.injOn_cos ⟨by positivity, by linarith⟩ ⟨by norm_num; positivity, by linarith⟩ kk
  linarith

/-! ## Equator and vectors -/

theorem obliquity_spin (e : Nat → ℝ) (x y : ℝ) :
    toMat (spinMatrix (preSpinMatrix e 1 2 (Real.cos x) (Real.sin x)) 3 6 (Real.cos y) (Real.sin y)) =
      spin 1 2 y * (toMat e * (spin 1 2 x)ᵀ) := by
  have h1 := C42_spin (preSpinMatrix e 1 2 (Real.cos x) (Real.sin x)) 1 2 (by decide) (Real.cos y) (Real.sin y)
  have h2 := C42_pre_spin e 1 2 (by decide) (Real.cos x) (Real.sin x)
  simp only [Fin.val_one, Fin.val_two, Nat.mul_one, Nat.reduceMul] at h1 h2
  rw [h1, h2]
  rfl

/-- Specification: the polynomial, in units of 10000 years, and its constant continuation. -/
noncomputable def obliquity (t : ℝ) : ℝ :=
  if t > 100 then 22611485556 / 1000000000 * (Real.pi / 180)
  else if t < -100 then 24232841111 / 1000000000 * (Real.pi / 180)
  else
    let u := t / 100
    (84381448 / 1000 - 468093 / 100 * u - 155 / 100 * u ^ 2 + 199925 / 100 * u ^ 3 - 5138 / 100 * u ^ 4 - 24967 / 100 * u ^ 5 -
      3905 / 100 * u ^ 6 + 712 / 100 * u ^ 7 + 2787 / 100 * u ^ 8 + 579 / 100 * u ^ 9 + 245 / 100 * u ^ 10) * (Real.pi / 648000)

/-- The states of the cache of the obliquity. -/
inductive OblReached : OblCache → Prop
  | start : OblReached OblCache.start
  | call {st : OblCache} (t : ℝ) : OblReached st → OblReached (meanObliquity st t).2

theorem obliquity_value {t : ℝ} (h1 : ¬ t > 100) (h2 : ¬ t < -100) :
    (23 * 3600 + 26 * 60 + 21448 / 1000 + oblLoop (t / 100) (t / 100) obliquityCoeffs) * arcsec = obliquity t := by
  unfold obliquity
  rw [if_neg h1, if_neg h2]
  simp only [oblLoop, obliquityCoeffs, arcsec]
  push_cast
  ring

theorem obl_inv {st : OblCache} (h : OblReached st) : 100 < st.t0 ∨ st.rval = obliquity st.t0 := by
  induction h with
  | start => left; unfold OblCache.start; norm_num
  | @call st t _ ih =>
    unfold meanObliquity
    split_ifs with h0 h1 h2 h3 <;> try exact ih
    right
    exact obliquity_value h1 h2

/-- C81: the obliquity does not depend on the calls before. -/
theorem C81_obliquity {st : OblCache} (h : OblReached st) (t : ℝ) : (meanObliquity st t).1 = obliquity t := by
  have hi := obl_inv h
  unfold meanObliquity
  split_ifs with h0 h1 h2 h3
  · subst h0
    unfold obliquity arcsec
    norm_num
    ring
  · unfold obliquity
    rw [if_pos h1]
    simp only
    ring
  · unfold obliquity
    rw [if_neg h1, if_pos h2]
    simp only
    ring
  · subst h3
    exact hi.resolve_left h1
  · exact obliquity_value h1 h2

/-- C81: where the polynomial ends, the value jumps by less than two microarcseconds. -/
theorem C81_obliquity_ends {t : ℝ} : (100 < t → |obliquity t - obliquity 100| < 1 / 500000 * arcsec) ∧
    (t < -100 → |obliquity t - obliquity (-100)| < 1 / 500000 * arcsec) := by
  have hp := Real.pi_pos
  have hend : ∀ x y : ℝ, |x - y| < 1 / 500000 → |x * arcsec - y * arcsec| < 1 / 500000 * arcsec := by
    intro x y hxy
    have ha : 0 < arcsec := by unfold arcsec; positivity
    rw [← sub_mul, abs_mul, abs_of_pos ha]
    exact mul_lt_mul_of_pos_right hxy ha
  constructor
  · intro h
    have e1 : obliquity t = (22611485556 / 1000000000 * 3600) * arcsec := by unfold obliquity arcsec; rw [if_pos h]; ring
    have e2 : obliquity 100 = (8140134800 / 100000) * arcsec := by
      unfold obliquity arcsec; rw [if_neg (by norm_num), if_neg (by norm_num)]; norm_num; ring
    rw [e1, e2]
    exact hend _ _ (by rw [abs_lt]; constructor <;> norm_num)
  · intro h
    have e1 : obliquity t = (24232841111 / 1000000000 * 3600) * arcsec := by
      unfold obliquity arcsec; rw [if_neg (show ¬ t > 100 by linarith), if_pos h]; ring
    have e2 : obliquity (-100) = (8723822800 / 100000) * arcsec := by
      unfold obliquity arcsec; rw [if_neg (by norm_num), if_neg (by norm_num)]; norm_num; ring
    rw [e1, e2]
    exact hend _ _ (by rw [abs_lt]; constructor <;> norm_num)

/-- C81: precession of the equator between two years: a rotation that does not depend on the calls before, and the way back is its inverse. -/
theorem C81_setup {st st' : Cache} {ob ob' : OblCache} (h : Reached st) (h' : Reached st') (k : OblReached ob) (k' : OblReached ob') {a b : ℝ}
    (hg : ¬ Garbage a b) :
    toMat (setupPrecession st ob a b).1 =
        spin 1 2 (obliquity ((b - 2000) / 100)) * (between a b * (spin 1 2 (obliquity ((a - 2000) / 100)))ᵀ) ∧
      IsRotation (toMat (setupPrecession st ob a b).1) ∧
      toMat (setupPrecession st' ob' b a).1 * toMat (setupPrecession st ob a b).1 = 1 := by
  have hv : ∀ {st : Cache} {ob : OblCache} {a b : ℝ}, Reached st → OblReached ob → ¬ Garbage a b →
      toMat (setupPrecession st ob a b).1 =
        spin 1 2 (obliquity ((b - 2000) / 100)) * (between a b * (spin 1 2 (obliquity ((a - 2000) / 100)))ᵀ) := by
    intro st ob a b h k hg
    unfold setupPrecession
    simp only
    rw [obliquity_spin, C81_obliquity (OblReached.call _ k), C81_obliquity k, C81_cache h hg]
  have hg' : ¬ Garbage b a := fun k => hg (k.symm.imp (fun x => ⟨x.2, x.1⟩) (fun x => ⟨x.2, x.1⟩))
  have hr : IsRotation (spin 1 2 (obliquity ((b - 2000) / 100)) * (between a b * (spin 1 2 (obliquity ((a - 2000) / 100)))ᵀ)) :=
    rotation_mul (spin_rotation (by decide) _) (rotation_mul (between_rotation a b) (rotation_transpose (spin_rotation (by decide) _)))
  refine ⟨hv h k hg, by rw [hv h k hg]; exact hr, ?_⟩
  rw [hv h k hg, hv h' k' hg', between_back a b, ← Matrix.mul_assoc (spin 1 2 (obliquity ((a - 2000) / 100)))]
  have hm := mul_eq_one_comm.1 hr.1
  rw [Matrix.transpose_mul, Matrix.transpose_mul, Matrix.transpose_transpose] at hm
  exact hm

/-- C81: the matrix with nutation is a rotation. -/
theorem C81_nutation (year ob dl dob : ℝ) : IsRotation (toMat (withNutation year ob dl dob)) := by
  unfold withNutation
  simp only
  have hs : ∀ (m : Nat → ℝ) (a b : Fin 3), a ≠ b → ∀ x, IsRotation (toMat m) →
      IsRotation (toMat (spinMatrix m (3 * a) (3 * b) (Real.cos x) (Real.sin x))) := fun m a b hab x h =>
    ⟨(C42_spin_orthonormal m a b hab _ _ (trig_one x) h.1).1, by rw [(C42_spin_orthonormal m a b hab _ _ (trig_one x) h.1).2]; exact h.2⟩
  have hp : ∀ (m : Nat → ℝ) (a b : Fin 3), a ≠ b → ∀ x, IsRotation (toMat m) →
      IsRotation (toMat (preSpinMatrix m a b (Real.cos x) (Real.sin x))) := fun m a b hab x h =>
    ⟨(C42_pre_spin_orthonormal m a b hab _ _ (trig_one x) h.1).1, by
      rw [(C42_pre_spin_orthonormal m a b hab _ _ (trig_one x) h.1).2]; exact h.2⟩
  exact hs _ 1 0 (by decide) _ (hs _ 1 2 (by decide) _ (hp _ 1 2 (by decide) _ (hs _ 0 1 (by decide) _
    (hs _ 1 2 (by decide) _ (hp _ 1 2 (by decide) _ (C81_equatorial year).1)))))

/-- C81: a vector comes back. -/
theorem C81_vector {m : Nat → ℝ} (hm : Orthonormal (toMat m)) (v : Nat → ℝ) {i : Nat} (hi : i < 3) :
    deprecessVector m (precessVector m v) i = v i ∧ precessVector m (deprecessVector m v) i = v i := by
  have h1 := hm
  have h2 := mul_eq_one_comm.1 hm
  unfold Orthonormal at h1
  have e1 := fun a b => congrFun (congrFun h1 a) b
  have e2 := fun a b => congrFun (congrFun h2 a) b
  simp only [Matrix.mul_apply, Fin.sum_univ_three, Matrix.transpose_apply, toMat] at e1 e2
  have hc : i = 0 ∨ i = 1 ∨ i = 2 := by omega
  rcases hc with rfl | rfl | rfl
  · have a := e2 0 0; have b := e2 0 1; have c := e2 0 2
    have a' := e1 0 0; have b' := e1 0 1; have c' := e1 0 2
    simp at a b c a' b' c'
    constructor <;> simp [deprecessVector, precessVector]
    · linear_combination v 0 * a + v 1 * b + v 2 * c
    · linear_combination v 0 * a' + v 1 * b' + v 2 * c'
  · have a := e2 1 0; have b := e2 1 1; have c := e2 1 2
    have a' := e1 1 0; have b' := e1 1 1; have c' := e1 1 2
    simp at a b c a' b' c'
    constructor <;> simp [deprecessVector, precessVector]
    · linear_combination v 0 * a + v 1 * b + v 2 * c
    · linear_combination v 0 * a' + v 1 * b' + v 2 * c'
  · have a := e2 2 0; have b := e2 2 1; have c := e2 2 2
    have a' := e1 2 0; have b' := e1 2 1; have c' := e1 2 2
    simp at a b c a' b' c'
    constructor <;> simp [deprecessVector, precessVector]
    · linear_combination v 0 * a + v 1 * b + v 2 * c
    · linear_combination v 0 * a' + v 1 * b' + v 2 * c'

/-! ## Right ascension and declination -/

theorem turn_down (c x : ℝ) : turnDown c x - c ≤ Real.pi ∧ (∃ n : ℤ, turnDown c x = x + n * (2 * Real.pi)) ∧
    (x - c ≤ Real.pi → turnDown c x = x) ∧ (Real.pi < x - c → -Real.pi < turnDown c x - c) := by
  fun_induction turnDown c x with
  | case1 x h ih =>
    obtain ⟨h1, ⟨n, hn⟩, h3, h4⟩ := ih
    refine ⟨h1, ⟨n - 1, by rw [hn]; push_cast; ring⟩, fun k => absurd k (not_le.mpr h), fun _ => ?_⟩
    by_cases k : x - Real.pi * 2 - c ≤ Real.pi
    · rw [h3 k]; linarith
    · exact h4 (not_le.mp k)
  | case2 x h => exact ⟨not_lt.mp h, ⟨0, by push_cast; ring⟩, fun _ => rfl, fun k => absurd k h⟩

theorem turn_up (c x : ℝ) (hx : x - c ≤ Real.pi) : |turnUp c x - c| ≤ Real.pi ∧ ∃ n : ℤ, turnUp c x = x + n * (2 * Real.pi) := by
  fun_induction turnUp c x with
  | case1 x h ih =>
    obtain ⟨h1, n, hn⟩ := ih (by linarith)
    exact ⟨h1, n + 1, by rw [hn]; push_cast; ring⟩
  | case2 x h => exact ⟨abs_le.mpr ⟨not_lt.mp h, hx⟩, 0, by push_cast; ring⟩

theorem direction_unit (θ φ : ℝ) : Vec.dot (direction θ φ) (direction θ φ) = 1 := by
  simp only [Vec.dot, direction]
  linear_combination Real.cos φ ^ 2 * Real.sin_sq_add_cos_sq θ + Real.sin_sq_add_cos_sq φ

theorem image_dot {M : Matrix (Fin 3) (Fin 3) ℝ} (h : Mᵀ * M = 1) (v : Vec) : Vec.dot (image M v) (image M v) = Vec.dot v v := by
  have e := fun a b => congrFun (congrFun h a) b
  simp only [Matrix.mul_apply, Fin.sum_univ_three, Matrix.transpose_apply] at e
  have e00 := e 0 0; have e01 := e 0 1; have e02 := e 0 2; have e11 := e 1 1; have e12 := e 1 2; have e22 := e 2 2
  simp at e00 e01 e02 e11 e12 e22
  simp only [Vec.dot, image]
  linear_combination v.x ^ 2 * e00 + 2 * v.x * v.y * e01 + 2 * v.x * v.z * e02 + v.y ^ 2 * e11 + 2 * v.y * v.z * e12 + v.z ^ 2 * e22

theorem image_image (M N : Matrix (Fin 3) (Fin 3) ℝ) (v : Vec) : image M (image N v) = image (M * N) v := by
  ext <;> simp only [image, Matrix.mul_apply, Fin.sum_univ_three] <;> ring

theorem image_one (v : Vec) : image 1 v = v := by ext <;> simp [image]

/-- C81: the direction found is the rotated direction, with a declination within a quarter turn and a right ascension within half a turn of
    the old one. -/
theorem C81_ra_dec {m : Nat → ℝ} (hm : Orthonormal (toMat m)) (p : ℝ × ℝ) (backward : Bool) :
    direction (precessRaDec m p backward).1 (precessRaDec m p backward).2 =
        image (if backward then (toMat m)ᵀ else toMat m) (direction p.1 p.2) ∧
      |(precessRaDec m p backward).2| ≤ Real.pi / 2 ∧ |(precessRaDec m p backward).1 - p.1| ≤ Real.pi := by
  have hu : Vec.dot (image (if backward then (toMat m)ᵀ else toMat m) (direction p.1 p.2))
      (image (if backward then (toMat m)ᵀ else toMat m) (direction p.1 p.2)) = 1 := by
    rw [image_dot, direction_unit]
    cases backward
    · exact mul_eq_one_comm.1 hm
    · simp only [if_true, Matrix.transpose_transpose]; exact hm
  unfold precessRaDec
  simp only
  generalize hv : (if backward then deprecessVector m fun i => ([Real.cos p.1 * Real.cos p.2, Real.sin p.1 * Real.cos p.2, Real.sin p.2] : List ℝ).getD i 0
    else precessVector m fun i => ([Real.cos p.1 * Real.cos p.2, Real.sin p.1 * Real.cos p.2, Real.sin p.2] : List ℝ).getD i 0) = v
  have hw : image (if backward then (toMat m)ᵀ else toMat m) (direction p.1 p.2) = ⟨v 0, v 1, v 2⟩ := by
    subst hv
    cases backward <;> ext <;> simp [image, direction, toMat, precessVector, deprecessVector] <;> ring
  rw [hw] at hu ⊢
  simp only [Vec.dot] at hu
  refine ⟨?_, abs_le.mpr ⟨Real.neg_pi_div_two_le_arcsin _, Real.arcsin_le_pi_div_two _⟩, (turn_up _ _ (turn_down _ _).1).1⟩
  generalize hr : (if v 1 ≠ 0 ∨ v 0 ≠ 0 then Ellipse.atan2 (v 1) (v 0) else 0) = ra
  obtain ⟨-, n, hn⟩ := turn_up p.1 (turnDown p.1 ra) (turn_down _ _).1
  obtain ⟨k, hk⟩ := (turn_down p.1 ra).2.1
  have hc : ∀ x : ℝ, direction (turnUp p.1 (turnDown p.1 ra)) x = direction ra x := by
    intro x
    unfold direction
    rw [hn, hk, Real.cos_add_int_mul_two_pi, Real.sin_add_int_mul_two_pi, Real.cos_add_int_mul_two_pi, Real.sin_add_int_mul_two_pi]
  rw [hc]
  have hz1 : -1 ≤ v 2 := by nlinarith [sq_nonneg (v 0), sq_nonneg (v 1)]
  have hz2 : v 2 ≤ 1 := by nlinarith [sq_nonneg (v 0), sq_nonneg (v 1)]
  unfold direction
  rw [Real.sin_arcsin hz1 hz2, Real.cos_arcsin]
  subst hr
  split_ifs with h
  · have hp : 0 < v 0 ^ 2 + v 1 ^ 2 := by rcases h with h | h <;> positivity
    obtain ⟨r, r0, rr, hcos, hsin⟩ := atan2_dir hp
    have : Real.sqrt (1 - v 2 ^ 2) = r := by
      rw [show 1 - v 2 ^ 2 = r ^ 2 by rw [rr]; linarith, Real.sqrt_sq r0.le]
    rw [this, hcos, hsin]
    ext <;> simp only <;> field_simp
  · push Not at h
    have : 1 - v 2 ^ 2 = 0 := by rw [h.1, h.2] at hu; linarith
    rw [this, h.1, h.2]
    ext <;> simp

/-- C81: the way back gives the direction again. -/
theorem C81_ra_dec_back {m : Nat → ℝ} (hm : Orthonormal (toMat m)) (p : ℝ × ℝ) (backward : Bool) :
    let q := precessRaDec m (precessRaDec m p backward) (!backward)
    direction q.1 q.2 = direction p.1 p.2 := by
  simp only
  rw [(C81_ra_dec hm _ _).1, (C81_ra_dec hm _ _).1, image_image]
  have h1 := hm
  have h2 := mul_eq_one_comm.1 hm
  unfold Orthonormal at h1
  cases backward <;> simp [h1, h2, image_one]

/-! ## Tables -/

/-- Nine integers as a matrix of integers. -/
def table (l : List ℤ) : Matrix (Fin 3) (Fin 3) ℤ := fun i j => l.getD (3 * i.val + j.val) 0

/-- C81: the galactic and supergalactic matrices are rotations up to the digits given: the product with the transpose differs from the
    identity by less than 2e-10 and 1e-8, and the determinant from 1. -/
theorem C81_galactic :
    (∀ i j, |(table galactic * (table galactic)ᵀ - (10 ^ 20 : ℤ) • 1) i j| < 2 * 10 ^ 10) ∧ |(table galactic).det - 10 ^ 30| < 10 ^ 20 ∧
    (∀ i j, |(table supergalactic * (table supergalactic)ᵀ - (10 ^ 16 : ℤ) • 1) i j| < 10 ^ 8) ∧
      |(table supergalactic).det - 10 ^ 24| < 10 ^ 16 := by
  refine ⟨?_, ?_, ?_, ?_⟩
  · intro i j
    fin_cases i <;> fin_cases j <;> simp [table, galactic, Matrix.mul_apply, Fin.sum_univ_three] <;> decide
  · rw [Matrix.det_fin_three]; simp [table, galactic]
  · intro i j
    fin_cases i <;> fin_cases j <;> simp [table, supergalactic, Matrix.mul_apply, Fin.sum_univ_three] <;> decide
  · rw [Matrix.det_fin_three]; simp [table, supergalactic]

/-- C81: from the equator to the ecliptic and back, either way, is a multiplication of two coordinates by a number within 2e-39 of 1. -/
theorem C81_there_and_back : ∃ k : ℝ, |k - 1| < 2 / 10 ^ 39 ∧ ∀ v : Nat → ℝ,
    (toEquatorial (toEcliptic v) 0 = v 0 ∧ toEquatorial (toEcliptic v) 1 = k * v 1 ∧ toEquatorial (toEcliptic v) 2 = k * v 2) ∧
    (toEcliptic (toEquatorial v) 0 = v 0 ∧ toEcliptic (toEquatorial v) 1 = k * v 1 ∧ toEcliptic (toEquatorial v) 2 = k * v 2) := by
  refine ⟨sinObliq ^ 2 + cosObliq ^ 2, ?_, fun v => ?_⟩
  · unfold sinObliq cosObliq
    rw [abs_lt]
    constructor <;> norm_num
  · refine ⟨⟨?_, ?_, ?_⟩, ?_, ?_, ?_⟩ <;> simp [toEquatorial, toEcliptic, store] <;> ring

/-- The hypotheses are met: a state after a call, years other than those of the empty cache, and a rotation that is not the identity. -/
example : Reached (setupEcliptic Cache.start 2000 2100).2 ∧ ¬ Garbage 2000 2100 ∧ Orthonormal (toMat (eclipticFromJ2000 2100)) ∧
    (setupEcliptic Cache.start 2000 2100).2.yearTo = 2100 := by
  have hg : ¬ Garbage 2000 2100 := by
    intro k
    unfold Garbage Cache.start at k
    rcases k with ⟨k1, -⟩ | ⟨k1, -⟩ <;> norm_num at k1
  refine ⟨Reached.call _ _ Reached.start, hg, (C81_ecliptic 2100).1.1, ?_⟩
  unfold setupEcliptic
  rw [if_neg (by norm_num), if_neg (fun k => hg (Or.inl k)), if_neg (fun k => hg (Or.inr k))]

/-- The rotation from 2000 to 2100 is not the identity. -/
example : toMat (eclipticFromJ2000 2100) ≠ 1 := by
  intro h
  have k := C81_chain Reached.start Reached.start Reached.start
  have hg : ¬ Garbage 2100 2200 := by
    intro k
    unfold Garbage Cache.start at k
    rcases k with ⟨k1, -⟩ | ⟨k1, -⟩ <;> norm_num at k1
  rw [Ne, C81_order Reached.start Reached.start Reached.start hg (by norm_num) (by norm_num) (by norm_num), h] at k
  exact k (by rw [Matrix.one_mul, Matrix.mul_one])

end Verif.Props
