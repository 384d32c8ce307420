import Mathlib.Tactic.FieldSimp
import Mathlib.Tactic.Linarith
import Mathlib.Tactic.LinearCombination
import Mathlib.Tactic.NormNum
import Mathlib.Tactic.Positivity
import Mathlib.Tactic.Ring
import Verif.Model.Sphere
import Verif.Props.Ellipse
import Verif.Spec.Sphere

/-!
# Property theorems: distances and position angles on the sphere (C79)
-/

namespace Verif.Props

open Verif Verif.Spec Verif.Sphere Verif.Ellipse Real

/-- The components are those of the second direction with respect to the first. -/
theorem components_eq (p1 p2 : ℝ × ℝ) :
    components p1 p2 = (sin (p2.1 - p1.1) * cos p2.2, sin p2.2 * cos p1.2 - cos p2.2 * sin p1.2 * cos (p2.1 - p1.1),
      sin p2.2 * sin p1.2 + cos p2.2 * cos p1.2 * cos (p2.1 - p1.1)) := by
  unfold components
  have : cos (p1.1 - p2.1) = cos (p2.1 - p1.1) := by rw [← cos_neg]; ring_nf
  simp only [this]
  rw [sin_sub p2.2, cos_sub p2.2]
  ext <;> simp only <;> ring

/-- C79: the components are those of a unit vector. -/
theorem C79_unit (p1 p2 : ℝ × ℝ) :
    (components p1 p2).1 ^ 2 + (components p1 p2).2.1 ^ 2 + (components p1 p2).2.2 ^ 2 = 1 := by
  rw [components_eq]
  simp only
  have h1 := sin_sq_add_cos_sq p1.2
  have h2 := sin_sq_add_cos_sq p2.2
  have h3 := sin_sq_add_cos_sq (p2.1 - p1.1)
  linear_combination (sin p2.2 ^ 2 + cos p2.2 ^ 2 * cos (p2.1 - p1.1) ^ 2) * h1 + h2 + cos p2.2 ^ 2 * h3

/-- The angle with a given cosine, by way of the cosine or of the sine. -/
theorem dist_arccos {x y z : ℝ} (h : x ^ 2 + y ^ 2 + z ^ 2 = 1) :
    (if z > -(7 / 10) ∧ z < 7 / 10 then arccos z
      else if z < 0 then π - arcsin (sqrt (x * x + y * y)) else arcsin (sqrt (x * x + y * y))) = arccos z := by
  have e : x * x + y * y = 1 - z ^ 2 := by linarith [sq x, sq y]
  split_ifs with h1 h2
  · rfl
  · have := arccos_eq_arcsin (x := -z) (by linarith)
    rw [e, ← neg_sq z, ← this, arccos_neg, sub_sub_cancel]
  · rw [e, ← arccos_eq_arcsin (by linarith)]

/-- The latitude with a given sine, by way of the sine or of the cosine. -/
theorem lat_arcsin {x y z : ℝ} (h : x ^ 2 + y ^ 2 + z ^ 2 = 1) :
    (if z < 7 / 10 ∧ z > -(7 / 10) then arcsin z
      else if z < 0 then -arccos (sqrt (x * x + y * y)) else arccos (sqrt (x * x + y * y))) = arcsin z := by
  have e : x * x + y * y = 1 - z ^ 2 := by linarith [sq x, sq y]
  split_ifs with h1 h2
  · rfl
  · have := arcsin_eq_arccos (x := -z) (by linarith)
    rw [e, ← neg_sq z, ← this, arcsin_neg, neg_neg]
  · rw [e, ← arcsin_eq_arccos (by linarith)]

/-- The components and the vectors of the specification. -/
theorem components_vec (p1 p2 : ℝ × ℝ) :
    direction p2.1 p2.2 = Vec.comb (components p1 p2).2.2 (direction p1.1 p1.2) (components p1 p2).2.1 (north p1.1 p1.2)
      (-(components p1 p2).1) (west p1.1) := by
  rw [components_eq]
  simp only
  have h1 := sin_sq_add_cos_sq p1.2
  have h3 := sin_sq_add_cos_sq p1.1
  unfold Vec.comb direction north west
  simp only [Vec.mk.injEq]
  rw [sin_sub, cos_sub]
  refine ⟨?_, ?_, ?_⟩
  · linear_combination (-(cos p2.2 * (cos p2.1 * cos p1.1 + sin p2.1 * sin p1.1) * cos p1.1)) * h1 - cos p2.2 * cos p2.1 * h3
  · linear_combination (-(cos p2.2 * (cos p2.1 * cos p1.1 + sin p2.1 * sin p1.1) * sin p1.1)) * h1 - cos p2.2 * sin p2.1 * h3
  · linear_combination (-sin p2.2) * h1

theorem components_dot (p1 p2 : ℝ × ℝ) : (components p1 p2).2.2 = Vec.dot (direction p1.1 p1.2) (direction p2.1 p2.2) := by
  rw [components_eq]
  unfold Vec.dot direction
  simp only
  rw [cos_sub]
  ring

theorem calcDist_dist (p1 p2 : ℝ × ℝ) : (calcDist p1 p2).2.1 = arccos (components p1 p2).2.2 := by
  unfold calcDist
  simp only
  rw [← dist_arccos (C79_unit p1 p2)]
  split_ifs <;> rfl

theorem component_bound (p1 p2 : ℝ × ℝ) : -1 ≤ (components p1 p2).2.2 ∧ (components p1 p2).2.2 ≤ 1 := by
  have := C79_unit p1 p2
  constructor <;> nlinarith [sq_nonneg (components p1 p2).1, sq_nonneg (components p1 p2).2.1]

/-- C79: the distance is the angle between the two directions. -/
theorem C79_dist (p1 p2 : ℝ × ℝ) :
    0 ≤ (calcDist p1 p2).2.1 ∧ (calcDist p1 p2).2.1 ≤ π ∧
      cos (calcDist p1 p2).2.1 = Vec.dot (direction p1.1 p1.2) (direction p2.1 p2.2) := by
  rw [calcDist_dist]
  obtain ⟨h1, h2⟩ := component_bound p1 p2
  exact ⟨arccos_nonneg _, arccos_le_pi _, by rw [cos_arccos h1 h2, components_dot]⟩

/-- C79: the second direction is at the distance and the position angle found; and an angle is found unless the directions are the same or
    opposite. -/
theorem C79_angle (p1 p2 : ℝ × ℝ) :
    direction p2.1 p2.2 = polar p1.1 p1.2 (calcDist p1 p2).2.1 (calcDist p1 p2).2.2 ∧
      0 ≤ (calcDist p1 p2).2.2 ∧ (calcDist p1 p2).2.2 < 2 * π ∧
      ((calcDist p1 p2).1 = 0 ∨ (calcDist p1 p2).1 = -1) ∧
      ((calcDist p1 p2).1 = -1 ↔ Vec.dot (direction p1.1 p1.2) (direction p2.1 p2.2) ^ 2 = 1) := by
  have hu := C79_unit p1 p2
  have hd := calcDist_dist p1 p2
  obtain ⟨hb1, hb2⟩ := component_bound p1 p2
  have hcos : cos (calcDist p1 p2).2.1 = (components p1 p2).2.2 := by rw [hd, cos_arccos hb1 hb2]
  have hsin : sin (calcDist p1 p2).2.1 = sqrt ((components p1 p2).1 ^ 2 + (components p1 p2).2.1 ^ 2) := by
    rw [hd, sin_arccos]
    congr 1
    linarith
  rw [← components_dot, components_vec p1 p2]
  unfold polar
  rw [hcos, hsin]
  unfold calcDist
  simp only
  generalize (components p1 p2).1 = x at *
  generalize (components p1 p2).2.1 = y at *
  generalize (components p1 p2).2.2 = z at *
  have hpi := pi_pos
  by_cases hxy : x ≠ 0 ∨ y ≠ 0
  · rw [if_pos hxy]
    have hpos : 0 < x ^ 2 + y ^ 2 := by
      rcases hxy with h | h
      · have := sq_pos_of_ne_zero h
        nlinarith [sq_nonneg y]
      · have := sq_pos_of_ne_zero h
        nlinarith [sq_nonneg x]
    obtain ⟨n, hn, hn2, hc, hs⟩ := atan2_dir hpos
    have hsq : sqrt (x ^ 2 + y ^ 2) = n := by rw [← hn2, sqrt_sq hn.le]
    have hr1 : -π < atan2 y x := Complex.neg_pi_lt_arg _
    have hr2 : atan2 y x ≤ π := Complex.arg_le_pi _
    have hcp : cos (if atan2 y x - π / 2 < 0 then atan2 y x - π / 2 + (π + π) else atan2 y x - π / 2) = y / n := by
      rw [← hs]
      split_ifs
      · rw [← two_mul, cos_add_two_pi, cos_sub_pi_div_two]
      · rw [cos_sub_pi_div_two]
    have hsp : sin (if atan2 y x - π / 2 < 0 then atan2 y x - π / 2 + (π + π) else atan2 y x - π / 2) = -(x / n) := by
      rw [← hc]
      split_ifs
      · rw [← two_mul, sin_add_two_pi, sin_sub_pi_div_two]
      · rw [sin_sub_pi_div_two]
    simp only [hcp, hsp, hsq]
    refine ⟨?_, ?_, ?_, Or.inl trivial, ?_⟩
    · congr 1 <;> field_simp
    · split_ifs <;> linarith
    · split_ifs <;> linarith
    · constructor
      · intro h; exact absurd h (by decide)
      · intro h; exfalso; linarith
  · rw [if_neg hxy]
    simp only [not_or, not_not] at hxy
    obtain ⟨rfl, rfl⟩ := hxy
    refine ⟨?_, le_refl _, by linarith, Or.inr rfl, ?_⟩
    · norm_num
    · simp only [true_iff]
      linarith

/-- C79: the point at a distance and a position angle. -/
theorem C79_reverse (p : ℝ × ℝ) (d a : ℝ) :
    direction (reverseDist p d a).1 (reverseDist p d a).2 = polar p.1 p.2 d a ∧ |(reverseDist p d a).2| ≤ π / 2 := by
  unfold reverseDist
  simp only
  have h1 := sin_sq_add_cos_sq p.2
  have h2 := sin_sq_add_cos_sq d
  have h3 := sin_sq_add_cos_sq a
  have hu : (cos p.2 * cos d - sin p.2 * (sin d * cos a)) ^ 2 + (sin d * sin a) ^ 2 + (sin p.2 * cos d + cos p.2 * (sin d * cos a)) ^ 2 = 1 := by
    linear_combination (cos d ^ 2 + sin d ^ 2 * cos a ^ 2) * h1 + h2 + sin d ^ 2 * h3
  have hvec : polar p.1 p.2 d a = ⟨(cos p.2 * cos d - sin p.2 * (sin d * cos a)) * cos p.1 + sin d * sin a * sin p.1,
      (cos p.2 * cos d - sin p.2 * (sin d * cos a)) * sin p.1 - sin d * sin a * cos p.1,
      sin p.2 * cos d + cos p.2 * (sin d * cos a)⟩ := by
    unfold polar Vec.comb direction north west
    simp only [Vec.mk.injEq]
    refine ⟨by ring, by ring, by ring⟩
  rw [hvec]
  generalize cos p.2 * cos d - sin p.2 * (sin d * cos a) = x at *
  generalize sin d * sin a = y at *
  generalize sin p.2 * cos d + cos p.2 * (sin d * cos a) = z at *
  rw [lat_arcsin hu]
  have hz : -1 ≤ z ∧ z ≤ 1 := by constructor <;> nlinarith [sq_nonneg x, sq_nonneg y]
  refine ⟨?_, abs_le.mpr ⟨neg_pi_div_two_le_arcsin z, arcsin_le_pi_div_two z⟩⟩
  unfold direction
  rw [sin_arcsin hz.1 hz.2, cos_arcsin, show 1 - z ^ 2 = x ^ 2 + y ^ 2 by linarith]
  by_cases hxy : x ≠ 0 ∨ y ≠ 0
  · rw [if_pos hxy]
    have hpos : 0 < x ^ 2 + y ^ 2 := by
      rcases hxy with h | h
      · have := sq_pos_of_ne_zero h
        nlinarith [sq_nonneg y]
      · have := sq_pos_of_ne_zero h
        nlinarith [sq_nonneg x]
    obtain ⟨n, hn, hn2, hc, hs⟩ := atan2_dir hpos
    rw [← hn2, sqrt_sq hn.le, cos_sub, sin_sub, hc, hs]
    simp only [Vec.mk.injEq]
    refine ⟨by field_simp, by field_simp, trivial⟩
  · rw [if_neg hxy]
    simp only [not_or, not_not] at hxy
    obtain ⟨rfl, rfl⟩ := hxy
    simp

/-- C79: the way there and back. -/
theorem C79_there (p1 p2 : ℝ × ℝ) :
    direction (reverseDist p1 (calcDist p1 p2).2.1 (calcDist p1 p2).2.2).1 (reverseDist p1 (calcDist p1 p2).2.1 (calcDist p1 p2).2.2).2 =
      direction p2.1 p2.2 := by
  rw [(C79_reverse _ _ _).1, ← (C79_angle p1 p2).1]

/-- C79: the distance and the position angle come back. -/
theorem C79_back (p : ℝ × ℝ) {d a : ℝ} (h0 : 0 < d) (hd : d < π) (ha0 : 0 ≤ a) (ha : a < 2 * π) :
    calcDist p (reverseDist p d a) = (0, d, a) := by
  obtain ⟨hr, -⟩ := C79_reverse p d a
  obtain ⟨hA, hA0, hA1, hA2, hA3⟩ := C79_angle p (reverseDist p d a)
  obtain ⟨hD0, hD1, hD⟩ := C79_dist p (reverseDist p d a)
  rw [hr] at hA hA3 hD
  have e1 := sin_sq_add_cos_sq p.1
  have e2 := sin_sq_add_cos_sq p.2
  have hdot : ∀ d a : ℝ, Vec.dot (direction p.1 p.2) (polar p.1 p.2 d a) = cos d := by
    intro d a
    unfold polar Vec.comb Vec.dot direction north west
    simp only
    linear_combination (cos d * cos p.2 ^ 2 - sin d * cos a * cos p.2 * sin p.2) * e1 + cos d * e2
  have hnorth : ∀ d a : ℝ, Vec.dot (north p.1 p.2) (polar p.1 p.2 d a) = sin d * cos a := by
    intro d a
    unfold polar Vec.comb Vec.dot direction north west
    simp only
    linear_combination (sin d * cos a * sin p.2 ^ 2 - cos d * cos p.2 * sin p.2) * e1 + sin d * cos a * e2
  have hwest : ∀ d a : ℝ, Vec.dot (west p.1) (polar p.1 p.2 d a) = sin d * sin a := by
    intro d a
    unfold polar Vec.comb Vec.dot direction north west
    simp only
    linear_combination sin d * sin a * e1
  rw [hdot] at hD hA3
  have hdd : (calcDist p (reverseDist p d a)).2.1 = d := injOn_cos ⟨hD0, hD1⟩ ⟨h0.le, hd.le⟩ hD
  have hsd : 0 < sin d := sin_pos_of_pos_of_lt_pi h0 hd
  have hrv : (calcDist p (reverseDist p d a)).1 = 0 := by
    rcases hA2 with h | h
    · exact h
    · have := hA3.mp h
      have := sin_sq_add_cos_sq d
      have : 0 < sin d ^ 2 := by positivity
      linarith
  rw [hdd] at hA
  have hc := congrArg (Vec.dot (north p.1 p.2)) hA
  have hs := congrArg (Vec.dot (west p.1)) hA
  rw [hnorth, hnorth] at hc
  rw [hwest, hwest] at hs
  have hc' := mul_left_cancel₀ hsd.ne' hc
  have hs' := mul_left_cancel₀ hsd.ne' hs
  have haa : (calcDist p (reverseDist p d a)).2.2 = a := by
    generalize (calcDist p (reverseDist p d a)).2.2 = b at *
    have : cos (b - a) = 1 := by
      rw [cos_sub, ← hc', ← hs']
      linarith [sin_sq_add_cos_sq a, sq (sin a), sq (cos a)]
    have := (cos_eq_one_iff_of_lt_of_lt (x := b - a) (by linarith) (by linarith)).mp this
    linarith
  ext
  · exact hrv
  · exact hdd
  · exact haa

/-- A quarter turn along the equator towards decreasing longitude. -/
example : calcDist (0, 0) (reverseDist (0, 0) (π / 2) (π / 2)) = (0, π / 2, π / 2) :=
  C79_back _ (by positivity) (by linarith [pi_pos]) (by positivity) (by linarith [pi_pos])

end Verif.Props
