import Verif.Model.Refract4
import Mathlib.Analysis.SpecialFunctions.Pow.Deriv
import Mathlib.Analysis.SpecialFunctions.ExpDeriv
import Mathlib.Tactic.Linarith
import Mathlib.Tactic.Ring
import Mathlib.Tactic.FieldSimp

/-!
# Integrated refraction (C93)
-/

namespace Verif.Props

open Real
open Verif.Refract4

theorem hasDeriv_fraction (f : Ref) (r : ℝ) : HasDerivAt (fraction f) (-(alpha / f.temp0)) r := by
  have h : HasDerivAt (fun r : ℝ => 1 - alpha * (r - f.r0) / f.temp0) (0 - alpha * 1 / f.temp0) r :=
    (hasDerivAt_const r 1).sub ((((hasDerivAt_id r).sub_const f.r0).const_mul alpha).div_const f.temp0)
  refine h.congr_deriv ?_
  ring

/-- **C93.** In both layers the slope of the refractive index is the one of the index. -/
theorem C93_slope (s : Site) (low : Bool) (r : ℝ) (hf : low = true → 0 < fraction (refOf s) r) :
    HasDerivAt (index (refOf s) low) (slopeN (refOf s) low r) r := by
  cases low with
  | true =>
    have h0 := hf rfl
    have hd := hasDeriv_fraction (refOf s) r
    have h1 := hd.rpow_const (p := (refOf s).gamma - 2) (.inl h0.ne')
    have h2 := hd.rpow_const (p := delta - 2) (.inl h0.ne')
    have h3 := (hd.mul ((h1.const_mul (refOf s).c6).sub (h2.const_mul (refOf s).c7))).const_add 1
    have e : index (refOf s) true = fun r => 1 + fraction (refOf s) r * ((refOf s).c6 * fraction (refOf s) r ^ ((refOf s).gamma - 2) -
        (refOf s).c7 * fraction (refOf s) r ^ (delta - 2)) := by
      funext r
      simp [index]
    rw [e]
    refine h3.congr_deriv ?_
    simp only [Pi.sub_apply]
    have hp : ∀ a : ℝ, fraction (refOf s) r ^ (a - 2) = fraction (refOf s) r ^ (a - 2 - 1) * fraction (refOf s) r := by
      intro a
      rw [← rpow_add_one h0.ne']
      congr 1
      ring
    simp only [slopeN, if_true]
    rw [hp (refOf s).gamma, hp delta]
    have e8 : (refOf s).c8 = alpha * ((refOf s).gamma - 1) * (refOf s).c6 / (refOf s).temp0 := rfl
    have e9 : (refOf s).c9 = alpha * (delta - 1) * (refOf s).c7 / (refOf s).temp0 := rfl
    rw [e8, e9]
    ring
  | false =>
    have h : HasDerivAt (fun r : ℝ => -(refOf s).c2 * (r - rt) / tempT (refOf s)) (-(refOf s).c2 * 1 / tempT (refOf s)) r :=
      (((hasDerivAt_id r).sub_const rt).const_mul (-(refOf s).c2)).div_const (tempT (refOf s))
    have h3 := (h.exp.const_mul ((refOf s).nt - 1)).const_add 1
    have e : index (refOf s) false = fun r => 1 + ((refOf s).nt - 1) * exp (-(refOf s).c2 * (r - rt) / tempT (refOf s)) := by
      funext r
      simp [index]
    rw [e]
    refine h3.congr_deriv ?_
    simp only [slopeN, Bool.false_eq_true, if_false]
    ring

/-- **C93.** The index of the upper layer joins that of the lower one at the tropopause. -/
theorem C93_joined (s : Site) : index (refOf s) false rt = index (refOf s) true rt := by
  have e : index (refOf s) true rt = (refOf s).nt := by simp [index, refOf, firstRef, fraction]
  rw [e]
  simp [index]

/-- **C93.** The step of the search for a radius is Newton's for the law that the index, the radius and the sine of the zenith angle have
    the same product all the way. -/
theorem C93_newton (s : Site) (low : Bool) (z r : ℝ) (hf : low = true → 0 < fraction (refOf s) r) :
    HasDerivAt (fun r => index (refOf s) low r * r - (refOf s).n0r0 / sin z) (index (refOf s) low r + r * slopeN (refOf s) low r) r ∧
      change (refOf s) low z r = -(index (refOf s) low r * r - (refOf s).n0r0 / sin z) / (index (refOf s) low r + r * slopeN (refOf s) low r) := by
  refine ⟨?_, rfl⟩
  have h := ((C93_slope s low r hf).mul (hasDerivAt_id r)).sub_const ((refOf s).n0r0 / sin z)
  refine h.congr_deriv ?_
  simp
  ring

/-- **C93.** The search stands still exactly where the law holds. -/
theorem C93_settled (s : Site) (low : Bool) {z r : ℝ} (hz : sin z ≠ 0) (hd : index (refOf s) low r + r * slopeN (refOf s) low r ≠ 0) :
    change (refOf s) low z r = 0 ↔ index (refOf s) low r * r * sin z = (refOf s).n0r0 := by
  unfold change
  rw [div_eq_zero_iff, or_iff_left hd, neg_eq_zero, sub_eq_zero, eq_div_iff hz]

/-- **C93.** The zenith angle at the tropopause obeys the law. -/
theorem C93_tropopause (s : Site) (hn : index (refOf s) true rt * rt ≠ 0)
    (h : |index (refOf s) true (refOf s).r0 * (refOf s).r0 * sin (π / 2 - s.alt) / (index (refOf s) true rt * rt)| ≤ 1) :
    index (refOf s) true rt * rt * sin (zenithT s) = (refOf s).n0r0 := by
  unfold zenithT
  rw [abs_le] at h
  rw [sin_arcsin h.1 h.2, mul_div_cancel₀ _ hn]
  rfl

/-- What the zenith angle at the top is set to. -/
theorem top_eq (s : Site) (hn : index (refOf s) false rs ≠ 0) (h : |(refOf s).r0 * sin (π / 2 - s.alt) / rs| ≤ 1) :
    index (refOf s) false rs * rs * sin (zenithS s) = index (refOf s) false rs * (refOf s).r0 * sin (π / 2 - s.alt) := by
  unfold zenithS
  have hrs : rs ≠ 0 := by unfold rs re; norm_num
  have e : index (refOf s) false rs * (refOf s).r0 * sin (π / 2 - s.alt) / (index (refOf s) false rs * rs) = (refOf s).r0 * sin (π / 2 - s.alt) / rs := by
    field_simp
  rw [abs_le] at h
  rw [e, sin_arcsin h.1 h.2]
  field_simp

/-- **Finding** (C93): the zenith angle at the top obeys the law only if the index there is the one at the observer, or towards the zenith. -/
theorem C93_top (s : Site) (hr : (refOf s).r0 ≠ 0) (hn : index (refOf s) false rs ≠ 0) (h : |(refOf s).r0 * sin (π / 2 - s.alt) / rs| ≤ 1) :
    index (refOf s) false rs * rs * sin (zenithS s) = (refOf s).n0r0 ↔
      index (refOf s) false rs = index (refOf s) true (refOf s).r0 ∨ sin (π / 2 - s.alt) = 0 := by
  rw [top_eq s hn h]
  have e : (refOf s).n0r0 = index (refOf s) true (refOf s).r0 * (refOf s).r0 * sin (π / 2 - s.alt) := rfl
  rw [e, mul_eq_mul_right_iff, mul_left_inj' hr]

/-- Dry air at a place below the tropopause. -/
structure Dry (s : Site) : Prop where
  dry : s.humidity = 0
  low : 0 ≤ s.height
  high : s.height < 11000
  pressure : 0 < s.pressure
  microns : s.microns ≠ 0
  warm : 72 ≤ s.kelvins

theorem dry_indices {s : Site} (h : Dry s) : 1 < index (refOf s) false rs ∧ index (refOf s) false rs < index (refOf s) true (refOf s).r0 := by
  obtain ⟨hd, hlow, hhigh, hp, hm, hw⟩ := h
  have hre : re = 6378120 := rfl
  have hrt : rt = re + 11000 := rfl
  have hrs : rs = re + 80000 := rfl
  have hal : alpha = 0.0065 := rfl
  have h0 : (refOf s).r0 = re + s.height := rfl
  have ht0 : (refOf s).temp0 = s.kelvins := rfl
  have hwa : water s = 0 := by simp [water, hd]
  have h5 : coeff5 s = 0 := by simp [coeff5, hwa]
  have h7 : (refOf s).c7 = 0 := by
    show coeff7 s = 0
    simp [coeff7, hwa, h5]
  have h6 : 0 < (refOf s).c6 := by
    show 0 < coeff6 s
    unfold coeff6 factorA
    rw [h5, add_zero]
    have := mul_self_pos.2 hm
    have hk : 0 < s.kelvins := by linarith
    positivity
  have h2 : 0.0065 < coeff2 s := by
    unfold coeff2 massDry gasR
    have := cos_le_one (2 * s.latitude)
    have := neg_one_le_cos (2 * s.latitude)
    rw [lt_div_iff₀ (by norm_num)]
    linarith
  have hF : fraction (refOf s) rt = 1 - alpha * (11000 - s.height) / s.kelvins := by
    unfold fraction
    rw [h0, ht0, hrt]
    ring
  have hx0 : 0 < alpha * (11000 - s.height) := by rw [hal]; linarith
  have hx1 : alpha * (11000 - s.height) < s.kelvins := by rw [hal]; linarith
  have hF0 : 0 < fraction (refOf s) rt := by rw [hF, sub_pos, div_lt_one (by linarith)]; exact hx1
  have hF1 : fraction (refOf s) rt < 1 := by
    rw [hF]
    have := div_pos hx0 (show 0 < s.kelvins by linarith)
    linarith
  have hone : fraction (refOf s) (refOf s).r0 = 1 := by simp [fraction]
  have hobs : index (refOf s) true (refOf s).r0 = 1 + (refOf s).c6 := by simp [index, hone, h7]
  have hnt : (refOf s).nt = 1 + fraction (refOf s) rt * ((refOf s).c6 * fraction (refOf s) rt ^ ((refOf s).gamma - 2)) := by
    have e : index (refOf s) true rt = (refOf s).nt := by simp [index, refOf, firstRef, fraction]
    rw [← e]
    simp [index, h7]
  have hpow : fraction (refOf s) rt * fraction (refOf s) rt ^ ((refOf s).gamma - 2) < 1 := by
    have e : fraction (refOf s) rt * fraction (refOf s) rt ^ ((refOf s).gamma - 2) = fraction (refOf s) rt ^ ((refOf s).gamma - 1) := by
      rw [mul_comm, ← rpow_add_one hF0.ne']
      congr 1
      ring
    rw [e]
    apply rpow_lt_one hF0.le hF1
    show 0 < coeff2 s / alpha - 1
    rw [hal, sub_pos, one_lt_div (by norm_num)]
    exact h2
  have hpow0 : 0 < fraction (refOf s) rt * fraction (refOf s) rt ^ ((refOf s).gamma - 2) := mul_pos hF0 (rpow_pos_of_pos hF0 _)
  have htT : 0 < tempT (refOf s) := by
    unfold tempT
    rw [ht0, h0, hrt, hal]
    linarith
  have hexp : exp (-(refOf s).c2 * (rs - rt) / tempT (refOf s)) < 1 := by
    rw [exp_lt_one_iff]
    apply div_neg_of_neg_of_pos _ htT
    have : (refOf s).c2 = coeff2 s := rfl
    rw [this, hrs, hrt]
    nlinarith
  have hexp0 := exp_pos (-(refOf s).c2 * (rs - rt) / tempT (refOf s))
  rw [hobs]
  simp only [index, Bool.false_eq_true, if_false]
  rw [hnt]
  generalize exp (-(refOf s).c2 * (rs - rt) / tempT (refOf s)) = q at *
  have e : fraction (refOf s) rt * ((refOf s).c6 * fraction (refOf s) rt ^ ((refOf s).gamma - 2)) =
      (refOf s).c6 * (fraction (refOf s) rt * fraction (refOf s) rt ^ ((refOf s).gamma - 2)) := by ring
  rw [e]
  generalize fraction (refOf s) rt * fraction (refOf s) rt ^ ((refOf s).gamma - 2) = p at *
  have : p * q < 1 := by nlinarith
  have := mul_lt_mul_of_pos_left this h6
  have := mul_pos h6 (mul_pos hpow0 hexp0)
  constructor <;> linarith

/-- **Finding** (C93): so that it never does in dry air, except towards the zenith. -/
theorem C93_top_dry {s : Site} (h : Dry s) (hz : sin (π / 2 - s.alt) ≠ 0) :
    index (refOf s) false rs * rs * sin (zenithS s) ≠ (refOf s).n0r0 := by
  have hr : (refOf s).r0 = re + s.height := rfl
  have hre : re = 6378120 := rfl
  have hrs : rs = re + 80000 := rfl
  have h1 := h.low
  have h2 := h.high
  rw [ne_eq, C93_top s (by rw [hr, hre]; intro h; linarith) (by have := (dry_indices h).1; intro h; linarith)]
  · rintro (h' | h')
    · exact absurd h' (dry_indices h).2.ne
    · exact hz h'
  · rw [abs_div, abs_mul, abs_of_pos (show 0 < rs by rw [hrs, hre]; norm_num), abs_of_pos (show 0 < (refOf s).r0 by rw [hr, hre]; linarith),
      div_le_one (by rw [hrs, hre]; norm_num)]
    have := abs_sin_le_one (π / 2 - s.alt)
    have h3 : 0 < (refOf s).r0 := by rw [hr, hre]; linarith
    nlinarith

/-- **C93.** However the interval is split, the sum is the integral exactly if what is integrated is a polynomial of degree three at all the
    points looked at. -/
theorem C93_cubic (f : Ref) (low : Bool) (settle : ℝ → ℝ → ℝ) (a b c d : ℝ) (hm : ∀ z r, integrand f low (settle z r) = a + b * z + c * z ^ 2 + d * z ^ 3) :
    ∀ (n : Nat) (l1 l2 : Loc), l1.integrand = a + b * l1.z + c * l1.z ^ 2 + d * l1.z ^ 3 → l2.integrand = a + b * l2.z + c * l2.z ^ 2 + d * l2.z ^ 3 →
    total f low settle n l1 l2 = (a * l2.z + b * l2.z ^ 2 / 2 + c * l2.z ^ 3 / 3 + d * l2.z ^ 4 / 4) -
      (a * l1.z + b * l1.z ^ 2 / 2 + c * l1.z ^ 3 / 3 + d * l1.z ^ 4 / 4) := by
  have hmid : ∀ l1 l2 : Loc, (middle f low settle l1 l2).z = (l1.z + l2.z) * (1 / 2) ∧ (middle f low settle l1 l2).integrand =
      a + b * (middle f low settle l1 l2).z + c * (middle f low settle l1 l2).z ^ 2 + d * (middle f low settle l1 l2).z ^ 3 :=
    fun l1 l2 => ⟨rfl, hm _ _⟩
  have simpson : ∀ l1 l2 : Loc, l1.integrand = a + b * l1.z + c * l1.z ^ 2 + d * l1.z ^ 3 → l2.integrand = a + b * l2.z + c * l2.z ^ 2 + d * l2.z ^ 3 →
      (l2.z - l1.z) / 6 * (4 * (middle f low settle l1 l2).integrand + l1.integrand + l2.integrand) =
        (a * l2.z + b * l2.z ^ 2 / 2 + c * l2.z ^ 3 / 3 + d * l2.z ^ 4 / 4) - (a * l1.z + b * l1.z ^ 2 / 2 + c * l1.z ^ 3 / 3 + d * l1.z ^ 4 / 4) := by
    intro l1 l2 h1 h2
    rw [(hmid l1 l2).2, (hmid l1 l2).1, h1, h2]
    ring
  intro n
  induction n with
  | zero => exact fun l1 l2 h1 h2 => simpson l1 l2 h1 h2
  | succ n ih =>
    intro l1 l2 h1 h2
    rw [total]
    split
    · rw [ih _ _ h1 (hmid l1 l2).2, ih _ _ (hmid l1 l2).2 h2]
      ring
    · exact simpson l1 l2 h1 h2

/-- **C93.** Without refraction, the index being one everywhere, there is nothing to add up. -/
theorem C93_vacuum {f : Ref} {low : Bool} (h : ∀ r, slopeN f low r = 0) (settle : ℝ → ℝ → ℝ) (n : Nat) {l1 l2 : Loc} (h1 : l1.integrand = 0)
    (h2 : l2.integrand = 0) : total f low settle n l1 l2 = 0 := by
  rw [C93_cubic f low settle 0 0 0 0 (by intro z r; simp [integrand, h]) n l1 l2 (by simp [h1]) (by simp [h2])]
  simp

/-! ### The hypotheses can be met -/

/-- At sea level, 40 degrees north, 30 degrees above the horizon, 10 degrees of warmth. -/
noncomputable def seaLevel : Site := ⟨π * 2 / 9, π / 6, 1 / 2, 0, 0, 283, 1010⟩

example : Dry seaLevel := ⟨rfl, le_refl _, by unfold seaLevel; norm_num, by unfold seaLevel; norm_num, by unfold seaLevel; norm_num, by unfold seaLevel; norm_num⟩

/-- Ten kilometres up the temperature is still above zero. -/
example : 0 < fraction (refOf seaLevel) (re + 10000) := by
  unfold fraction
  have h1 : (refOf seaLevel).r0 = re + 0 := rfl
  have h2 : (refOf seaLevel).temp0 = 283 := rfl
  rw [h1, h2, alpha, re]
  norm_num

example : index (refOf seaLevel) false rs * rs * sin (zenithS seaLevel) ≠ (refOf seaLevel).n0r0 :=
  C93_top_dry ⟨rfl, le_refl _, by unfold seaLevel; norm_num, by unfold seaLevel; norm_num, by unfold seaLevel; norm_num, by unfold seaLevel; norm_num⟩ (by
    unfold seaLevel
    rw [sin_pi_div_two_sub, cos_pi_div_six]
    positivity)

example (c : ℝ) : ∃ f : Ref, ∀ r, integrand f false r = 0 + 0 * c + 0 * c ^ 2 + 0 * c ^ 3 := ⟨⟨1, 0, 0, 0, 0, 0, 0, 0, 0, 0⟩, fun r => by simp [integrand, slopeN]⟩

end Verif.Props
