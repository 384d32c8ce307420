import Mathlib.Tactic.FieldSimp
import Mathlib.Tactic.IntervalCases
import Mathlib.Tactic.Linarith
import Mathlib.Tactic.LinearCombination
import Mathlib.Tactic.NormNum
import Mathlib.Tactic.Positivity
import Mathlib.Tactic.Ring
import Verif.Lemmas.Quartic
import Verif.Model.Ellipse
import Verif.Spec.Ellipse

/-!
# Property theorems: parallax constants, and the distance of a point from an ellipse (C77)
-/

namespace Verif.Props

open Verif Verif.Spec Verif.Ellipse

/-- `atan2` gives the direction of `(x, y)`. -/
theorem atan2_dir {x y : ℝ} (h : 0 < x ^ 2 + y ^ 2) :
    ∃ n, 0 < n ∧ n ^ 2 = x ^ 2 + y ^ 2 ∧ Real.cos (atan2 y x) = x / n ∧ Real.sin (atan2 y x) = y / n := by
  have hn : (⟨x, y⟩ : ℂ) ≠ 0 := by
    intro h0
    have h1 : x = 0 := congrArg Complex.re h0
    have h2 : y = 0 := congrArg Complex.im h0
    rw [h1, h2] at h
    norm_num at h
  refine ⟨‖(⟨x, y⟩ : ℂ)‖, norm_pos_iff.mpr hn, ?_, Complex.cos_arg hn, Complex.sin_arg _⟩
  rw [Complex.sq_norm, Complex.normSq_mk]
  ring

/-- The parallax constants are those of the point at the given height above the ellipse, in units of its major semiaxis, where the normal
    has the given direction. -/
theorem C77_parallax (lat ht : ℝ) {a b : ℝ} (ha : 0 < a) (hb : 0 < b) :
    ∃ c s, latAltToParallax lat ht a b = some (c, s) ∧ Above 1 (b / a) c s lat (ht / a) := by
  unfold latAltToParallax
  rw [if_neg ha.ne']
  have hr : 0 < b / a := by positivity
  generalize b / a = r at hr
  have hsc := Real.sin_sq_add_cos_sq lat
  have hpos : 0 < Real.cos lat ^ 2 + (Real.sin lat * r) ^ 2 := by
    by_contra hneg
    have h1 : Real.cos lat ^ 2 = 0 := by nlinarith [sq_nonneg (Real.cos lat), sq_nonneg (Real.sin lat * r)]
    have h2 : (Real.sin lat * r) ^ 2 = 0 := by nlinarith [sq_nonneg (Real.cos lat), sq_nonneg (Real.sin lat * r)]
    have h3 : Real.sin lat = 0 := by
      have := pow_eq_zero_iff (two_ne_zero) |>.mp h2
      rcases mul_eq_zero.mp this with h | h
      · exact h
      · exact absurd h hr.ne'
    rw [h1, h3] at hsc
    norm_num at hsc
  obtain ⟨n, hn, hn2, hc, hs⟩ := atan2_dir hpos
  simp only [hc, hs]
  refine ⟨_, _, rfl, Real.cos lat / n, r * (Real.sin lat * r / n), 1 / n, ?_, by positivity, by ring, by field_simp, rfl, rfl⟩
  unfold OnEllipse
  have : (Real.cos lat / n / 1) ^ 2 + (r * (Real.sin lat * r / n) / r) ^ 2 = (Real.cos lat ^ 2 + (Real.sin lat * r) ^ 2) / n ^ 2 := by
    field_simp
  rw [this, ← hn2, div_self (by positivity)]

/-- A point of the normal is nearer to its foot than to any other point, unless it is beyond the centre of curvature. -/
theorem foot_nearest {a b px py qx qy m : ℝ} (hb : 0 < b) (hab : b ≤ a) (hp : OnEllipse a b px py) (hq : OnEllipse a b qx qy) (hm : -b ^ 2 ≤ m) :
    (m * (px / a ^ 2)) ^ 2 + (m * (py / b ^ 2)) ^ 2 + ((1 + m / a ^ 2) * (qx - px) ^ 2 + (1 + m / b ^ 2) * (qy - py) ^ 2) =
        (px + m * (px / a ^ 2) - qx) ^ 2 + (py + m * (py / b ^ 2) - qy) ^ 2 ∧ 0 ≤ 1 + m / a ^ 2 ∧ 0 ≤ 1 + m / b ^ 2 := by
  have ha : 0 < a := by linarith
  unfold OnEllipse at hp hq
  refine ⟨?_, ?_, ?_⟩
  · have e : (px + m * (px / a ^ 2) - qx) ^ 2 + (py + m * (py / b ^ 2) - qy) ^ 2 -
        ((m * (px / a ^ 2)) ^ 2 + (m * (py / b ^ 2)) ^ 2 + ((1 + m / a ^ 2) * (qx - px) ^ 2 + (1 + m / b ^ 2) * (qy - py) ^ 2)) =
        m * (((px / a) ^ 2 + (py / b) ^ 2) - ((qx / a) ^ 2 + (qy / b) ^ 2)) := by
      field_simp
      ring
    rw [hp, hq] at e
    linarith
  · have h1 : -1 ≤ m / b ^ 2 := by rw [le_div_iff₀ (by positivity)]; linarith
    by_cases hm0 : 0 ≤ m
    · positivity
    · have : m / b ^ 2 ≤ m / a ^ 2 := by
        rw [div_le_div_iff₀ (by positivity) (by positivity)]
        have : b ^ 2 ≤ a ^ 2 := by nlinarith
        nlinarith
      linarith
  · have h1 : -1 ≤ m / b ^ 2 := by rw [le_div_iff₀ (by positivity)]; linarith
    linarith

set_option maxHeartbeats 400000 in
/-- Where the quartic holds, `atan2` gives the direction of the normal below the point. -/
theorem above_of_root {a b fx fy t : ℝ} (hb : 0 < b) (hab : b ≤ a) (hx : 0 < fx) (hy : 0 ≤ fy) (ht0 : 0 < t) (ht1 : t ≤ 1)
    (hq : t ^ 4 + 2 * ((b * fy - (a * a - b * b)) / (a * fx)) * t ^ 3 + 2 * ((b * fy + (a * a - b * b)) / (a * fx)) * t - 1 = 0)
    (h1 : t = 1 → -1 ≤ (b * fy - (a * a - b * b)) / (a * fx)) :
    Above a b fx fy (atan2 (a * (1 - t * t)) (2 * b * t))
        ((fx - a * t) * Real.cos (atan2 (a * (1 - t * t)) (2 * b * t)) + (fy - b) * Real.sin (atan2 (a * (1 - t * t)) (2 * b * t))) ∧
      Nearest a b fx fy ((fx - a * t) * Real.cos (atan2 (a * (1 - t * t)) (2 * b * t)) +
        (fy - b) * Real.sin (atan2 (a * (1 - t * t)) (2 * b * t))) := by
  have ha : 0 < a := by linarith
  have hbt : 0 < 2 * b * t := by positivity
  obtain ⟨n, hn, hn2, hc, hs⟩ := atan2_dir (x := 2 * b * t) (y := a * (1 - t * t)) (by positivity)
  rw [hc, hs]
  set h := (fx - a * t) * (2 * b * t / n) + (fy - b) * (a * (1 - t * t) / n) with hh
  have ht2 : 0 < 1 + t ^ 2 := by positivity
  set px := a * (2 * t) / (1 + t ^ 2) with hpx
  set py := b * (1 - t ^ 2) / (1 + t ^ 2) with hpy
  have hon : OnEllipse a b px py := by
    unfold OnEllipse
    rw [hpx, hpy]
    field_simp
    ring
  -- the quartic says that the point is on the normal
  have hcross : (fx - px) * (a * (1 - t * t)) = (fy - py) * (2 * b * t) := by
    have hq' : a * fx * (1 - t ^ 4) = 2 * t * (b * fy * (1 + t ^ 2) + (a * a - b * b) * (1 - t ^ 2)) := by
      field_simp at hq
      linear_combination (-1) * hq
    rw [hpx, hpy]
    field_simp
    linear_combination hq'
  have hdot : h * n = (fx - px) * (2 * b * t) + (fy - py) * (a * (1 - t * t)) := by
    have e1 : h * n = (fx - a * t) * (2 * b * t) + (fy - b) * (a * (1 - t * t)) := by
      rw [hh]
      field_simp
    rw [e1, hpx, hpy]
    field_simp
    ring
  have hX : fx = px + h * (2 * b * t / n) := by
    have : h * (2 * b * t / n) = (h * n) * (2 * b * t) / n ^ 2 := by field_simp
    rw [this, hdot, hn2]
    have hne : (2 * b * t) ^ 2 + (a * (1 - t * t)) ^ 2 ≠ 0 := by positivity
    rw [← sub_eq_iff_eq_add', eq_div_iff hne]
    linear_combination (a * (1 - t * t)) * hcross
  have hY : fy = py + h * (a * (1 - t * t) / n) := by
    have : h * (a * (1 - t * t) / n) = (h * n) * (a * (1 - t * t)) / n ^ 2 := by field_simp
    rw [this, hdot, hn2]
    have hne : (2 * b * t) ^ 2 + (a * (1 - t * t)) ^ 2 ≠ 0 := by positivity
    rw [← sub_eq_iff_eq_add', eq_div_iff hne]
    linear_combination (-(2 * b * t)) * hcross
  set k := n / (a * b * (1 + t ^ 2)) with hk
  have hk0 : 0 < k := by positivity
  have hkx : px / a ^ 2 = k * (2 * b * t / n) := by
    rw [hpx, hk]
    field_simp
  have hky : py / b ^ 2 = k * (a * (1 - t * t) / n) := by
    rw [hpy, hk]
    field_simp
  refine ⟨⟨px, py, k, hon, hk0, ?_, ?_, ?_, ?_⟩, ?_⟩
  · rw [hc]; exact hkx
  · rw [hs]; exact hky
  · rw [hc]; exact hX
  · rw [hs]; exact hY
  · intro qx qy hqe
    -- the multiplier of the normal vector
    have hxm : fx = px + (h / k) * (px / a ^ 2) := by
      rw [hkx, ← mul_assoc, div_mul_cancel₀ _ hk0.ne']
      exact hX
    have hym : fy = py + (h / k) * (py / b ^ 2) := by
      rw [hky, ← mul_assoc, div_mul_cancel₀ _ hk0.ne']
      exact hY
    have hpx0 : 0 < px := by positivity
    have hm : -b ^ 2 ≤ h / k := by
      rcases eq_or_lt_of_le ht1 with ht | ht
      · have hy0 : py = 0 := by rw [hpy, ht]; norm_num
        have hpa : px = a := by rw [hpx, ht]; field_simp; norm_num
        have hfy : fy = 0 := by rw [hym, hy0]; ring
        have he := h1 ht
        rw [hfy, le_div_iff₀ (by positivity)] at he
        rw [hpa] at hxm
        have : a * fx = a ^ 2 + h / k := by
          rw [hxm]
          field_simp
        linarith [sq a, sq b]
      · have hpy0 : 0 < py := by
          have : 0 < 1 - t ^ 2 := by nlinarith only [ht, ht0]
          positivity
        have : 0 ≤ py * (b ^ 2 + h / k) := by
          have e : py * (b ^ 2 + h / k) = b ^ 2 * fy := by
            rw [hym]
            field_simp
          rw [e]
          positivity
        have := nonneg_of_mul_nonneg_right this hpy0
        linarith
    obtain ⟨e, h2, h3⟩ := foot_nearest hb hab hon hqe hm
    rw [← hxm, ← hym] at e
    have hh2 : (h / k * (px / a ^ 2)) ^ 2 + (h / k * (py / b ^ 2)) ^ 2 = h ^ 2 := by
      rw [hkx, hky]
      have : (h / k * (k * (2 * b * t / n))) ^ 2 + (h / k * (k * (a * (1 - t * t) / n))) ^ 2 =
          h ^ 2 * ((2 * b * t) ^ 2 + (a * (1 - t * t)) ^ 2) / n ^ 2 := by
        field_simp
      rw [this, ← hn2]
      field_simp
    rw [hh2] at e
    have := mul_nonneg h2 (sq_nonneg (qx - px))
    have := mul_nonneg h3 (sq_nonneg (qy - py))
    linarith

theorem above_mirror_x {a b x y lat h : ℝ} (hA : Above a b x y lat h) : Above a b (-x) y (Real.pi - lat) h := by
  obtain ⟨px, py, k, ho, hk, h1, h2, h3, h4⟩ := hA
  refine ⟨-px, py, k, ?_, hk, ?_, ?_, ?_, ?_⟩
  · unfold OnEllipse at *; rw [← ho]; ring
  · rw [Real.cos_pi_sub, neg_div, h1]; ring
  · rw [Real.sin_pi_sub, h2]
  · rw [Real.cos_pi_sub, h3]; ring
  · rw [Real.sin_pi_sub, h4]

theorem above_mirror_y {a b x y lat h : ℝ} (hA : Above a b x y lat h) : Above a b x (-y) (-lat) h := by
  obtain ⟨px, py, k, ho, hk, h1, h2, h3, h4⟩ := hA
  refine ⟨px, -py, k, ?_, hk, ?_, ?_, ?_, ?_⟩
  · unfold OnEllipse at *; rw [← ho]; ring
  · rw [Real.cos_neg, h1]
  · rw [Real.sin_neg, neg_div, h2]; ring
  · rw [Real.cos_neg, h3]
  · rw [Real.sin_neg, h4]; ring

theorem nearest_mirror_x {a b x y h : ℝ} (hN : Nearest a b x y h) : Nearest a b (-x) y h := by
  intro qx qy hq
  have := hN (-qx) qy (by unfold OnEllipse at *; rw [← hq]; ring)
  rw [show (-x - qx) ^ 2 = (x - -qx) ^ 2 by ring]
  exact this

theorem nearest_mirror_y {a b x y h : ℝ} (hN : Nearest a b x y h) : Nearest a b x (-y) h := by
  intro qx qy hq
  have := hN qx (-qy) (by unfold OnEllipse at *; rw [← hq]; ring)
  rw [show (-y - qy) ^ 2 = (y - -qy) ^ 2 by ring]
  exact this

/-- C77: off the minor axis, `point_to_ellipse` gives the direction of the normal below the point and the height along it, and no point of
    the ellipse is nearer.  To the right of the minor axis the direction is less than a quarter turn either way. -/
theorem C77_nearest {a b x y : ℝ} (hb : 0 < b) (hab : b ≤ a) (hx : x ≠ 0) (hne : a ≠ b ∨ y ≠ 0) :
    ∃ lat h, pointToEllipse a b x y = some (lat, h) ∧ Above a b x y lat h ∧ Nearest a b x y h ∧ (0 < x → |lat| < Real.pi / 2) := by
  have ha : 0 < a := by linarith
  have hfx : 0 < |x| := abs_pos.mpr hx
  have hfy : 0 ≤ |y| := abs_nonneg y
  have hax : 0 < a * |x| := by positivity
  have hc2 : 0 ≤ a * a - b * b := by nlinarith only [hb, hab]
  unfold pointToEllipse
  simp only [if_neg hx, if_neg hax.ne']
  have hf : |(b * |y| - (a * a - b * b)) / (a * |x|)| ≤ (b * |y| + (a * a - b * b)) / (a * |x|) := by
    rw [abs_div, abs_of_pos hax]
    refine div_le_div_of_nonneg_right ?_ hax.le
    have := mul_nonneg hb.le hfy
    rw [abs_le]
    constructor <;> linarith
  have hf0 : 0 < (b * |y| + (a * a - b * b)) / (a * |x|) := by
    refine div_pos ?_ hax
    rcases hne with h | h
    · have : b < a := lt_of_le_of_ne hab (Ne.symm h)
      have : 0 < a * a - b * b := by nlinarith only [hb, this]
      have := mul_nonneg hb.le hfy
      linarith
    · have := mul_pos hb (abs_pos.mpr h)
      linarith
  obtain ⟨t, ht, ht0, ht1, hq, h1⟩ := tangent_root hf hf0
  obtain ⟨hA, hN⟩ := above_of_root hb hab hfx hfy ht0 ht1 hq h1
  rw [ht]
  simp only [Option.bind_some]
  have hlat : |atan2 (a * (1 - t * t)) (2 * b * t)| < Real.pi / 2 := by
    unfold atan2
    rw [Complex.abs_arg_lt_pi_div_two_iff]
    left
    show 0 < 2 * b * t
    positivity
  generalize atan2 (a * (1 - t * t)) (2 * b * t) = φ at *
  generalize (|x| - a * t) * Real.cos φ + (|y| - b) * Real.sin φ = h at *
  refine ⟨_, _, rfl, ?_⟩
  by_cases hx0 : x < 0
  · rw [if_pos hx0]
    rw [abs_of_neg hx0] at hA hN
    have hA := above_mirror_x hA
    have hN := nearest_mirror_x hN
    rw [neg_neg] at hA hN
    by_cases hy0 : y < 0
    · rw [if_pos hy0]
      rw [abs_of_neg hy0] at hA hN
      have hA := above_mirror_y hA
      have hN := nearest_mirror_y hN
      rw [neg_neg] at hA hN
      exact ⟨hA, hN, fun h => by linarith⟩
    · rw [if_neg hy0]
      rw [abs_of_nonneg (le_of_not_gt hy0)] at hA hN
      exact ⟨hA, hN, fun h => by linarith⟩
  · rw [if_neg hx0]
    rw [abs_of_nonneg (le_of_not_gt hx0)] at hA hN
    by_cases hy0 : y < 0
    · rw [if_pos hy0]
      rw [abs_of_neg hy0] at hA hN
      have hA := above_mirror_y hA
      have hN := nearest_mirror_y hN
      rw [neg_neg] at hA hN
      exact ⟨hA, hN, fun _ => by rw [abs_neg]; exact hlat⟩
    · rw [if_neg hy0]
      rw [abs_of_nonneg (le_of_not_gt hy0)] at hA hN
      exact ⟨hA, hN, fun _ => hlat⟩

/-- C77: the latitude and the height come back from the parallax constants, for heights above the smallest radius of curvature below the
    surface; except the equator of a sphere. -/
theorem C77_round {a b lat ht : ℝ} (hb : 0 < b) (hab : b ≤ a) (hl : |lat| < Real.pi / 2) (hh : -(b ^ 2 / a) < ht) (hne : a ≠ b ∨ lat ≠ 0) :
    ∃ c s, latAltToParallax lat ht a b = some (c, s) ∧ pointToEllipse 1 (b / a) c s = some (lat, ht / a) := by
  have ha : 0 < a := by linarith
  obtain ⟨c, s, hcs, px, py, k, ho, hk, h1, h2, h3, h4⟩ := C77_parallax lat ht ha hb
  refine ⟨c, s, hcs, ?_⟩
  have hr0 : 0 < b / a := by positivity
  have hr1 : b / a ≤ 1 := by rw [div_le_one ha]; exact hab
  have hr : b / a = 1 → a = b := fun h => by rw [div_eq_one_iff_eq ha.ne'] at h; exact h.symm
  have hh' : -(b / a) ^ 2 < ht / a := by
    have : -(b / a) ^ 2 = -(b ^ 2 / a) / a := by field_simp
    rw [this]
    exact div_lt_div_of_pos_right hh ha
  generalize b / a = r at *
  generalize ht / a = h at *
  obtain ⟨hl1, hl2⟩ := abs_lt.mp hl
  have hcos : 0 < Real.cos lat := Real.cos_pos_of_mem_Ioo ⟨by linarith, hl2⟩
  have hsc := Real.sin_sq_add_cos_sq lat
  have hon := ho
  unfold OnEllipse at ho
  rw [one_pow, div_one] at h1
  rw [div_one] at ho
  rw [div_eq_iff (by positivity)] at h2
  -- `k` is at least 1
  have hk1 : 1 ≤ k := by
    have e : k ^ 2 * (Real.cos lat ^ 2 + (r * Real.sin lat) ^ 2) = 1 := by
      rw [← ho, h1, h2]
      field_simp
    have : Real.cos lat ^ 2 + (r * Real.sin lat) ^ 2 ≤ 1 := by
      rw [← hsc, mul_pow]
      have : r ^ 2 ≤ 1 := by nlinarith only [hr0, hr1]
      nlinarith only [this, sq_nonneg (Real.sin lat)]
    by_contra hlt
    have hk2 : k ^ 2 < 1 := by nlinarith only [hk, hlt]
    have h0 : 0 ≤ Real.cos lat ^ 2 + (r * Real.sin lat) ^ 2 := by positivity
    nlinarith only [e, this, hk2, h0]
  have hm : -r ^ 2 < h / k := by
    rw [lt_div_iff₀ hk]
    have : 0 ≤ r ^ 2 := by positivity
    nlinarith only [this, hk1, hh']
  have hc0 : 0 < c := by
    have e : c = Real.cos lat * (k + h) := by rw [h3, h1]; ring
    rw [e]
    refine mul_pos hcos ?_
    have : r ^ 2 ≤ 1 := by nlinarith only [hr0, hr1]
    linarith
  have hne' : (1 : ℝ) ≠ r ∨ s ≠ 0 := by
    rcases hne with h0 | h0
    · exact Or.inl fun e => h0 (hr e.symm)
    · right
      have e : s = Real.sin lat * (k * r ^ 2 + h) := by rw [h4, h2]; ring
      rw [e]
      refine mul_ne_zero ?_ ?_
      · intro hz
        have := Real.sin_eq_zero_iff_of_lt_of_lt (x := lat) (by linarith [Real.pi_pos]) (by linarith [Real.pi_pos])
        exact h0 (this.mp hz)
      · rw [lt_div_iff₀ hk] at hm
        have : 0 < k * r ^ 2 + h := by linarith
        exact this.ne'
  obtain ⟨lat', h', hres, hA, hN, hlt⟩ := C77_nearest hr0 hr1 hc0.ne' hne'
  rw [hres]
  have hl' := abs_lt.mp (hlt hc0)
  obtain ⟨qx, qy, k', ho', hk', g1, g2, g3, g4⟩ := hA
  have hsc' := Real.sin_sq_add_cos_sq lat'
  -- the two feet are one
  obtain ⟨e, h5, h6⟩ := foot_nearest hr0 hr1 hon ho' hm.le
  have hcx : px + h / k * (px / 1 ^ 2) = c := by rw [h3, h1]; field_simp
  have hsy : py + h / k * (py / r ^ 2) = s := by rw [h4, h2]; field_simp
  rw [hcx, hsy] at e
  have hh2 : (h / k * (px / 1 ^ 2)) ^ 2 + (h / k * (py / r ^ 2)) ^ 2 = (c - px) ^ 2 + (s - py) ^ 2 := by
    rw [← hcx, ← hsy]; ring
  have hq2 : (c - qx) ^ 2 + (s - qy) ^ 2 = h' ^ 2 := by
    rw [g3, g4]
    linear_combination h' ^ 2 * hsc'
  have hN' := hN px py hon
  have hpa : 0 < 1 + h / k / 1 ^ 2 := by
    have : r ^ 2 ≤ 1 := by nlinarith only [hr0, hr1]
    rw [one_pow, div_one]
    linarith
  have hpb : 0 < 1 + h / k / r ^ 2 := by
    have : -1 < h / k / r ^ 2 := by rw [lt_div_iff₀ (by positivity)]; linarith
    linarith
  have z1 := mul_nonneg hpa.le (sq_nonneg (qx - px))
  have z2 := mul_nonneg hpb.le (sq_nonneg (qy - py))
  have w1 : (1 + h / k / 1 ^ 2) * (qx - px) ^ 2 = 0 := by linarith
  have w2 : (1 + h / k / r ^ 2) * (qy - py) ^ 2 = 0 := by linarith
  have hqx : qx = px := by
    rcases mul_eq_zero.mp w1 with h | h
    · exact absurd h hpa.ne'
    · have := pow_eq_zero_iff (two_ne_zero) |>.mp h
      linarith
  have hqy : qy = py := by
    rcases mul_eq_zero.mp w2 with h | h
    · exact absurd h hpb.ne'
    · have := pow_eq_zero_iff (two_ne_zero) |>.mp h
      linarith
  rw [one_pow, div_one, hqx, h1] at g1
  rw [div_eq_iff (by positivity), hqy, h2] at g2
  have g2' : k * Real.sin lat = k' * Real.sin lat' := mul_right_cancel₀ (by positivity : r ^ 2 ≠ 0) g2
  have hkk : k = k' := by
    have : k ^ 2 = k' ^ 2 := by
      have e1 : k ^ 2 = (k * Real.sin lat) ^ 2 + (k * Real.cos lat) ^ 2 := by linear_combination (-k ^ 2) * hsc
      have e2 : k' ^ 2 = (k' * Real.sin lat') ^ 2 + (k' * Real.cos lat') ^ 2 := by linear_combination (-k' ^ 2) * hsc'
      rw [e1, e2, g1, g2']
    exact (sq_eq_sq₀ hk.le hk'.le).mp this
  rw [← hkk] at g1 g2'
  have hsin : Real.sin lat = Real.sin lat' := mul_left_cancel₀ hk.ne' g2'
  have hcos' : Real.cos lat = Real.cos lat' := mul_left_cancel₀ hk.ne' g1
  have hll : lat = lat' := Real.injOn_sin ⟨hl1.le.trans' (by linarith), hl2.le⟩ ⟨by linarith [hl'.1], hl'.2.le⟩ hsin
  have hhh : h = h' := by
    have : h * Real.cos lat = h' * Real.cos lat := by
      rw [h3, hqx, ← hcos'] at g3
      linarith
    exact mul_right_cancel₀ hcos.ne' this
  rw [← hll, ← hhh]

/-- Finding: on the minor axis the distance is measured from the wrong axis. -/
theorem C77_pole {a b y : ℝ} (hb : 0 < b) (hab : b < a) (hy : 0 ≤ y) :
    pointToEllipse a b 0 y = some (Real.pi / 2, y - a) ∧ Above a b 0 y (Real.pi / 2) (y - b) ∧ ¬ Above a b 0 y (Real.pi / 2) (y - a) := by
  refine ⟨?_, ?_, ?_⟩
  · unfold pointToEllipse
    simp [not_lt.mpr hy, abs_of_nonneg hy]
  · refine ⟨0, b, 1 / b, ?_, by positivity, by simp, ?_, by simp, by simp⟩
    · unfold OnEllipse
      field_simp
      norm_num
    · rw [Real.sin_pi_div_two]
      field_simp
  · rintro ⟨px, py, k, ho, hk, h1, h2, h3, h4⟩
    rw [Real.cos_pi_div_two, mul_zero, add_zero] at h3
    rw [Real.sin_pi_div_two] at h2 h4
    unfold OnEllipse at ho
    have hpa : py = a := by linarith
    rw [← h3, hpa] at ho
    have : (a / b) ^ 2 = 1 := by simpa using ho
    rw [div_pow, div_eq_one_iff_eq (by positivity)] at this
    nlinarith

/-- Finding: a point of the major axis of a circle gives a NaN. -/
theorem C77_circle {a x : ℝ} (ha : 0 < a) (hx : x ≠ 0) : pointToEllipse a a x 0 = none := by
  have hax : a * |x| ≠ 0 := mul_ne_zero ha.ne' (abs_ne_zero.mpr hx)
  have hres : cubicRoot 0 0 = some 0 := by
    unfold cubicRoot
    norm_num [root]
  unfold pointToEllipse
  simp only [if_neg hx, if_neg hax]
  norm_num [tangent, hres, root]

/-- C77: every planet has a radius and an axis ratio between 0 and 1; other bodies have no radius, so that the parallax constants are NaN;
    and a negative number is before the beginning of the tables. -/
theorem C77_radii (i : Int) :
    (0 ≤ i → i < 15 → 0 < planetRadius i ∧ ∃ r, planetAxisRatio i = some r ∧ 0 < r ∧ r ≤ 1) ∧
      (15 ≤ i → planetRadius i = 0 ∧ ∀ lat ht minor : ℝ, latAltToParallax lat ht (planetRadius i) minor = none) ∧
      (i < 0 → planetAxisRatio i = none) := by
  refine ⟨?_, ?_, ?_⟩
  · intro h0 h15
    interval_cases i <;>
      exact ⟨by decide +kernel, _, rfl, by decide +kernel, by decide +kernel⟩
  · intro h
    have : planetRadius i = 0 := by
      unfold planetRadius
      rw [if_neg (by omega)]
    refine ⟨this, fun lat ht minor => ?_⟩
    unfold latAltToParallax
    rw [this, if_pos (by norm_num)]
  · intro h
    unfold planetAxisRatio
    rw [if_neg (by omega), if_pos h]

/-- The Earth: at 45 degrees, 1000 m. -/
example : ∃ c s, latAltToParallax (Real.pi / 4) 1000 6378137 6356752 = some (c, s) ∧
    pointToEllipse 1 (6356752 / 6378137) c s = some (Real.pi / 4, 1000 / 6378137) :=
  C77_round (by norm_num) (by norm_num) (by rw [abs_of_pos (by positivity)]; linarith [Real.pi_pos]) (by norm_num) (Or.inl (by norm_num))

end Verif.Props
