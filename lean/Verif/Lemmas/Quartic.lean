import Mathlib.Algebra.Order.Ring.Pow
import Mathlib.Tactic.FieldSimp
import Mathlib.Tactic.Linarith
import Mathlib.Tactic.LinearCombination
import Mathlib.Tactic.NormNum
import Mathlib.Tactic.Positivity
import Mathlib.Tactic.Ring
import Verif.Model.Ellipse

/-!
# The quartic equation of `point_to_ellipse`
-/

namespace Verif.Ellipse

theorem cbrt_cube (z : ℝ) : cbrt z ^ 3 = z := by
  have h : ∀ w : ℝ, 0 ≤ w → (w ^ (1 / 3 : ℝ)) ^ 3 = w := by
    intro w hw
    rw [← Real.rpow_natCast, ← Real.rpow_mul hw]
    norm_num
  unfold cbrt
  by_cases hz : 0 ≤ z
  · rw [if_pos hz, h z hz]
  · rw [if_neg hz]
    have := h (-z) (by linarith)
    rw [Odd.neg_pow (by decide), this]
    ring

theorem cube_inj {x y : ℝ} (h : x ^ 3 = y ^ 3) : x = y := (Odd.strictMono_pow (R := ℝ) (n := 3) (by decide)).injective h

theorem cube_le {x y : ℝ} (h : x ^ 3 ≤ y ^ 3) : x ≤ y := (Odd.strictMono_pow (R := ℝ) (n := 3) (by decide)).le_iff_le.mp h

/-- The root of the cubic is not negative, and it is 0 only if `e f + 1 ≥ 0`. -/
theorem cubicRoot_root {e f : ℝ} (hf : |e| ≤ f) :
    ∃ v, cubicRoot e f = some v ∧ 0 ≤ v ∧ v ^ 3 + 4 * (e * f + 1) * v + 4 * (e ^ 2 - f ^ 2) = 0 ∧ (v = 0 → 0 ≤ e * f + 1) := by
  have hq : 2 * (e * e - f * f) ≤ 0 := by
    have := abs_le.mp hf
    nlinarith
  unfold cubicRoot
  simp only
  set p := (4 / 3) * (e * f + 1) with hp
  set q := 2 * (e * e - f * f) with hqd
  by_cases hd : p * p * p + q * q ≥ 0
  · rw [if_pos hd]
    unfold root
    rw [if_neg (by linarith)]
    set s := Real.sqrt (p * p * p + q * q) with hs
    have hs2 : s * s = p * p * p + q * q := Real.mul_self_sqrt hd
    have c1 := cbrt_cube (s - q)
    have c2 := cbrt_cube (s + q)
    have hpp : cbrt (s - q) * cbrt (s + q) = p := by
      apply cube_inj
      rw [mul_pow, c1, c2]
      linear_combination hs2
    refine ⟨_, rfl, ?_, ?_, ?_⟩
    · have : cbrt (s + q) ≤ cbrt (s - q) := cube_le (by rw [c1, c2]; linarith)
      linarith
    · generalize cbrt (s - q) = α at *
      generalize cbrt (s + q) = β at *
      have e1 : 4 * (e * f + 1) = 3 * p := by rw [hp]; ring
      have e2 : 4 * (e ^ 2 - f ^ 2) = 2 * q := by rw [hqd]; ring
      rw [e1, e2, ← hpp]
      linear_combination c1 - c2
    · intro hv
      have h1 : cbrt (s - q) = cbrt (s + q) := by linarith
      have h2 : q = 0 := by
        rw [h1, c2] at c1
        linarith
      have h3 : 0 ≤ p := by
        by_contra hneg
        have : p * p * p < 0 := by
          have : 0 < p * p := by nlinarith
          nlinarith
        rw [h2] at hd
        linarith
      rw [hp] at h3
      linarith
  · rw [if_neg hd]
    have hd' : p * p * p + q * q < 0 := lt_of_not_ge hd
    have hpn : p < 0 := by
      by_contra hneg
      have : 0 ≤ p * p * p := by
        have := le_of_not_gt hneg
        positivity
      nlinarith [mul_self_nonneg q]
    unfold root
    rw [if_neg (by linarith)]
    set s := Real.sqrt (-p) with hs
    have hs0 : 0 < s := Real.sqrt_pos.mpr (by linarith)
    have hs2 : s * s = -p := Real.mul_self_sqrt (by linarith)
    have hsp : s * p < 0 := by nlinarith
    simp only [Option.bind_some]
    rw [if_neg hsp.ne]
    have hsp2 : (s * p) ^ 2 = -(p * p * p) := by
      have : (s * p) ^ 2 = (s * s) * (p * p) := by ring
      rw [this, hs2]; ring
    have hab : -1 ≤ q / (s * p) ∧ q / (s * p) ≤ 1 := by
      have h1 : |q / (s * p)| ≤ 1 := by
        rw [abs_div, div_le_one (abs_pos.mpr hsp.ne)]
        apply sq_le_sq.mp
        rw [hsp2]
        nlinarith
      exact abs_le.mp h1
    unfold acos
    rw [if_neg (by intro h; rcases h with h | h <;> linarith [hab.1, hab.2])]
    simp only [Option.bind_some]
    have hcos : Real.cos (Real.arccos (q / (s * p))) = q / (s * p) := Real.cos_arccos hab.1 hab.2
    set θ := Real.arccos (q / (s * p)) with hθ
    have h3 := Real.cos_three_mul (θ / 3)
    rw [show 3 * (θ / 3) = θ by ring, hcos] at h3
    have hc0 : 0 < Real.cos (θ / 3) := by
      apply Real.cos_pos_of_mem_Ioo
      have := Real.arccos_nonneg (q / (s * p))
      have := Real.arccos_le_pi (q / (s * p))
      have := Real.pi_pos
      constructor <;> linarith
    have hv0 : 0 < 2 * s * Real.cos (θ / 3) := by positivity
    refine ⟨_, rfl, hv0.le, ?_, fun h => absurd h hv0.ne'⟩
    generalize Real.cos (θ / 3) = c at *
    have e1 : 4 * (e * f + 1) = 3 * p := by rw [hp]; ring
    have e2 : 4 * (e ^ 2 - f ^ 2) = 2 * q := by rw [hqd]; ring
    rw [e1, e2]
    rw [div_eq_iff hsp.ne] at h3
    have : (2 * s * c) ^ 3 + 3 * p * (2 * s * c) = 2 * s * (s * s) * (4 * c ^ 3) + 6 * s * p * c := by ring
    rw [this, hs2]
    linear_combination 2 * h3

set_option maxHeartbeats 400000 in
/-- `t` is a root of the quartic, between 0 and 1; and it is 1 only if `e ≥ -1`. -/
theorem tangent_root {e f : ℝ} (hf : |e| ≤ f) (h0 : 0 < f) :
    ∃ t, tangent e f = some t ∧ 0 < t ∧ t ≤ 1 ∧ t ^ 4 + 2 * e * t ^ 3 + 2 * f * t - 1 = 0 ∧ (t = 1 → -1 ≤ e) := by
  obtain ⟨v, hv, hv0, hcub, hvz⟩ := cubicRoot_root hf
  obtain ⟨hf1, hf2⟩ := abs_le.mp hf
  unfold tangent
  rw [hv]
  simp only [Option.bind_some]
  unfold root
  rw [if_neg (show ¬ e * e + v < 0 by nlinarith [mul_self_nonneg e])]
  simp only [Option.bind_some]
  have hpos : 0 < e * e + v := by
    rcases eq_or_lt_of_le hv0 with hv' | hv'
    · rw [← hv'] at hcub ⊢
      have : e ^ 2 = f ^ 2 := by nlinarith
      nlinarith [sq_nonneg e]
    · nlinarith [mul_self_nonneg e]
  set s := Real.sqrt (e * e + v) with hs
  have hs0 : 0 < s := Real.sqrt_pos.mpr hpos
  have hs2 : s * s = e * e + v := Real.mul_self_sqrt hpos.le
  have hse : |e| ≤ s := by
    rw [hs]
    apply Real.le_sqrt_of_sq_le
    rw [sq_abs]
    nlinarith
  obtain ⟨hse1, hse2⟩ := abs_le.mp hse
  have e2g : 2 * ((s + e) * (1 / 2)) - e = s := by ring
  rw [e2g, if_neg hs0.ne']
  -- with `w = v / 2`
  obtain ⟨w, rfl⟩ : ∃ w, v = 2 * w := ⟨v / 2, by ring⟩
  have hw0 : 0 ≤ w := by linarith
  have hsq : (f - e * w) ^ 2 = (s * s) * (w ^ 2 + 1) := by
    rw [hs2]
    linear_combination hcub / (-4)
  have hm : 0 ≤ f - e * w := by
    by_contra hneg
    have h1 : f - e * w < 0 := lt_of_not_ge hneg
    have he : 0 < e := by
      by_contra he
      nlinarith [mul_nonneg (show 0 ≤ -e by linarith) hw0]
    have h2 : (e * w) ^ 2 < (s * s) * (w ^ 2 + 1) := by
      rw [hs2]
      nlinarith [mul_pos he he, mul_nonneg hw0 (sq_nonneg w)]
    have h3 : (f - e * w) ^ 2 ≤ (e * w) ^ 2 := by nlinarith
    linarith
  set r := Real.sqrt (w ^ 2 + 1) with hr
  have hr2 : r * r = w ^ 2 + 1 := Real.mul_self_sqrt (by positivity)
  have hr0 : 0 < r := Real.sqrt_pos.mpr (by positivity)
  have hfr : f - e * w = s * r := by
    have : (f - e * w) ^ 2 = (s * r) ^ 2 := by rw [hsq, ← hr2]; ring
    exact (sq_eq_sq₀ hm (by positivity)).mp this
  have hrw : w < r := by nlinarith
  have hrw1 : r ≤ w + 1 := by nlinarith
  set g := (s + e) * (1 / 2) with hg
  have hg0 : 0 ≤ g := by rw [hg]; nlinarith
  have hrad : g * g + (f - 2 * w * g) / s = g * g + (r - w) := by
    have : f - 2 * w * g = s * (r - w) := by rw [hg]; linear_combination hfr
    rw [this, mul_div_cancel_left₀ _ hs0.ne']
  rw [hrad, if_neg (by nlinarith [mul_self_nonneg g])]
  simp only [Option.bind_some]
  set z := Real.sqrt (g * g + (r - w)) with hz
  have hz2 : z * z = g * g + (r - w) := Real.mul_self_sqrt (by nlinarith [mul_self_nonneg g])
  have hz0 : 0 ≤ z := Real.sqrt_nonneg _
  have hzg : g < z := (Real.lt_sqrt hg0).mpr (by linarith [sq g])
  have hz1 : z ≤ g + 1 := Real.sqrt_le_iff.mpr ⟨by linarith, by linarith [show (g + 1) ^ 2 = g * g + 2 * g + 1 by ring]⟩
  have hq : (z - g) ^ 2 + 2 * g * (z - g) + (w - r) = 0 := by linear_combination hz2
  refine ⟨_, rfl, by linarith, by linarith, ?_, ?_⟩
  · set t := z - g with ht
    have hg2 : 2 * g = s + e := by rw [hg]; ring
    rw [hg2] at hq
    -- the quartic is the product of two quadratics
    have : t ^ 4 + 2 * e * t ^ 3 + 2 * f * t - 1 = (t ^ 2 + (s + e) * t + (w - r)) * (t ^ 2 + (e - s) * t + (w + r)) := by
      have hf' : f = e * w + s * r := by linarith
      rw [hf']
      linear_combination t ^ 2 * hs2 + hr2
    rw [this, hq, zero_mul]
  · intro ht
    rw [ht] at hq
    have h1 : r - w = 1 := by linarith
    have hw : w = 0 := by
      have : r = w + 1 := by linarith
      rw [this] at hr2
      linarith [show (w + 1) * (w + 1) = w ^ 2 + 2 * w + 1 by ring]
    have hg' : g = 0 := by linarith
    have he : e = -s := by rw [hg] at hg'; linarith
    have hef := hvz (by rw [hw]; ring)
    have hf' : f = s := by
      rw [hw] at hfr hr2
      have : r = 1 := by linarith
      rw [this] at hfr
      linarith
    rw [he, hf'] at hef
    by_contra hlt
    have : 1 < s := by linarith
    nlinarith

end Verif.Ellipse
