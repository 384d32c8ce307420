import Verif.Model.Refract
import Mathlib.Analysis.SpecialFunctions.Trigonometric.Bounds
import Mathlib.Analysis.SpecialFunctions.Trigonometric.Deriv
import Mathlib.Analysis.Calculus.MeanValue
import Mathlib.Analysis.Real.Pi.Bounds
import Mathlib.Tactic.Linarith
import Mathlib.Tactic.Ring
import Mathlib.Tactic.FieldSimp

/-!
# Refraction and its inverse (C92)
-/

namespace Verif.Props

open Real
open Verif.Refract

/-- Degrees as radians. -/
noncomputable abbrev inDeg (u : ℝ) : ℝ := u * π / 180

/-- The altitude raised, in degrees. -/
noncomputable def raisedDeg (u : ℝ) : ℝ := u + 7.31 / (u + 4.4)

theorem raised_deg (u : ℝ) : raised (inDeg u) = inDeg (raisedDeg u) := by
  unfold raised raisedDeg inDeg
  have : u * π / 180 * 180 / π = u := by field_simp
  rw [this]
  ring

theorem sin_low {x : ℝ} (h0 : 0 < x) (h1 : x ≤ 1 / 5) : 0.99 * x ≤ sin x := by
  have h := sin_gt_sub_cube h0
  have : x ^ 3 ≤ x * (1 / 25) := by
    have : x ^ 3 = x * x ^ 2 := by ring
    rw [this]
    apply mul_le_mul_of_nonneg_left _ h0.le
    nlinarith
  linarith

theorem sin_mid {x : ℝ} (h0 : 1 / 5 ≤ x) (h1 : x ≤ π - 1 / 5) : 0.198 ≤ sin x := by
  have h := sin_low (x := 1 / 5) (by norm_num) (le_refl _)
  have hpi := pi_gt_three
  by_cases hx : x ≤ π / 2
  · have := sin_le_sin_of_le_of_le_pi_div_two (x := 1 / 5) (by linarith) hx h0
    linarith
  · have := sin_le_sin_of_le_of_le_pi_div_two (x := 1 / 5) (y := π - x) (by linarith) (by linarith) (by linarith)
    rw [sin_pi_sub] at this
    linarith

theorem raisedDeg_pos {u : ℝ} (h : -1.2 ≤ u) : 1 ≤ raisedDeg u := by
  unfold raisedDeg
  have hw : (0 : ℝ) < u + 4.4 := by linarith
  rw [← sub_nonneg]
  have : u + 7.31 / (u + 4.4) - 1 = (u ^ 2 + 3.4 * u + 2.91) / (u + 4.4) := by field_simp; ring
  rw [this]
  apply div_nonneg _ hw.le
  nlinarith [sq_nonneg (u + 1.7)]

theorem raisedDeg_le {u : ℝ} (h : -1.2 ≤ u) (h1 : u ≤ 92.2) : raisedDeg u ≤ 95 := by
  unfold raisedDeg
  have hw : (3.2 : ℝ) ≤ u + 4.4 := by linarith
  have : 7.31 / (u + 4.4) ≤ 7.31 / 3.2 := by gcongr
  have : (7.31 : ℝ) / 3.2 ≤ 2.3 := by norm_num
  linarith

theorem inDeg_le {a b : ℝ} (h : a ≤ b) : inDeg a ≤ inDeg b := by
  unfold inDeg
  have := mul_le_mul_of_nonneg_right h pi_pos.le
  linarith

/-- The sine of the altitude raised, in the region looked at. -/
theorem sin_raised {u : ℝ} (h : -1.2 ≤ u) (h1 : u ≤ 92.2) : 0.99 * (raisedDeg u * π / 180) ≤ sin (inDeg (raisedDeg u)) ∨ 0.198 ≤ sin (inDeg (raisedDeg u)) := by
  have h2 := raisedDeg_pos h
  have h3 := raisedDeg_le h h1
  have hpi := pi_gt_d2
  by_cases hx : inDeg (raisedDeg u) ≤ 1 / 5
  · exact .inl (sin_low (by positivity) hx)
  · refine .inr (sin_mid (by linarith) ?_)
    have := inDeg_le h3
    have : inDeg 95 = 95 / 180 * π := by unfold inDeg; ring
    nlinarith

theorem sin_raised_pos {u : ℝ} (h : -1.2 ≤ u) (h1 : u ≤ 92.2) : 0 < sin (inDeg (raisedDeg u)) := by
  have h2 := raisedDeg_pos h
  rcases sin_raised h h1 with h' | h'
  · have : 0 < 0.99 * (raisedDeg u * π / 180) := by positivity
    linarith
  · linarith

/-- How much the refraction changes, at most, with the altitude. -/
theorem slope_le {u : ℝ} (h : -1.2 ≤ u) (h1 : u ≤ 92.2) : 0 < 1 - 7.31 / (u + 4.4) ^ 2 ∧
    (1 - 7.31 / (u + 4.4) ^ 2) / sin (inDeg (raisedDeg u)) ^ 2 * (1 + 0.06 * 14.7 * π / 180) * (π / 180) / 60 ≤ 0.29 := by
  have hw : (3.2 : ℝ) ≤ u + 4.4 := by linarith
  have hpi := pi_gt_d2
  have hpi' := pi_lt_d2
  have hs0 := sin_raised_pos h h1
  have hd : 0 < 1 - 7.31 / (u + 4.4) ^ 2 := by
    rw [sub_pos, div_lt_one (by positivity)]
    nlinarith
  have hd1 : 1 - 7.31 / (u + 4.4) ^ 2 ≤ 1 := by
    have : 0 ≤ 7.31 / (u + 4.4) ^ 2 := by positivity
    linarith
  refine ⟨hd, ?_⟩
  have hq : 1 + 0.06 * 14.7 * π / 180 ≤ 1.0155 := by linarith
  have hq0 : 0 < 1 + 0.06 * 14.7 * π / 180 := by positivity
  rcases sin_raised h h1 with hs | hs
  · have hpos := raisedDeg_pos h
    have hpoly : 1 - 7.31 / (u + 4.4) ^ 2 ≤ 0.29 * raisedDeg u ^ 2 := by
      have e : raisedDeg u = ((u + 4.4) ^ 2 - 4.4 * (u + 4.4) + 7.31) / (u + 4.4) := by unfold raisedDeg; field_simp; ring
      rw [e, div_pow, ← sub_nonneg]
      generalize u + 4.4 = w at *
      have : 0.29 * ((w ^ 2 - 4.4 * w + 7.31) ^ 2 / w ^ 2) - (1 - 7.31 / w ^ 2) = (0.29 * (w ^ 2 - 4.4 * w + 7.31) ^ 2 - (w ^ 2 - 7.31)) / w ^ 2 := by
        field_simp
      rw [this]
      apply div_nonneg _ (by positivity)
      nlinarith [sq_nonneg (w ^ 2 - 4.4 * w + 7.31 - 4.43), sq_nonneg (w - 3.6)]
    have hA : 0 < 0.9801 * (raisedDeg u * π / 180) ^ 2 := by positivity
    have hsq : 0.9801 * (raisedDeg u * π / 180) ^ 2 ≤ sin (inDeg (raisedDeg u)) ^ 2 := by
      have h0 : 0 ≤ 0.99 * (raisedDeg u * π / 180) := by positivity
      nlinarith
    calc (1 - 7.31 / (u + 4.4) ^ 2) / sin (inDeg (raisedDeg u)) ^ 2 * (1 + 0.06 * 14.7 * π / 180) * (π / 180) / 60
        ≤ (0.29 * raisedDeg u ^ 2) / (0.9801 * (raisedDeg u * π / 180) ^ 2) * 1.0155 * (π / 180) / 60 := by gcongr
      _ = 0.29 / 0.9801 * 1.0155 * 180 / 60 / π := by field_simp
      _ ≤ 0.29 := by
        rw [div_le_iff₀ pi_pos]
        linarith
  · have hsq : 0.0392 ≤ sin (inDeg (raisedDeg u)) ^ 2 := by nlinarith
    calc (1 - 7.31 / (u + 4.4) ^ 2) / sin (inDeg (raisedDeg u)) ^ 2 * (1 + 0.06 * 14.7 * π / 180) * (π / 180) / 60
        ≤ 1 / 0.0392 * 1.0155 * (π / 180) / 60 := by gcongr
      _ ≤ 0.29 := by linarith

/-- The derivative of the refraction. -/
noncomputable def slope (u : ℝ) : ℝ :=
  -((1 - 7.31 / (u + 4.4) ^ 2) / sin (inDeg (raisedDeg u)) ^ 2) *
    (1 - 0.06 * 14.7 * π / 180 * cos ((14.7 * (cos (inDeg (raisedDeg u)) / sin (inDeg (raisedDeg u))) + 13) * π / 180)) * (π / 180) / 60

theorem hasDeriv {u : ℝ} (h : -1.2 ≤ u) (h1 : u ≤ 92.2) : HasDerivAt refraction (slope u) (inDeg u) := by
  have hs := (sin_raised_pos h h1).ne'
  have hw : u + 4.4 ≠ 0 := by intro h; linarith
  have hpi := pi_ne_zero
  have hu : inDeg u * 180 / π + 4.4 = u + 4.4 := by unfold inDeg; field_simp
  have hr : HasDerivAt raised (1 - 7.31 / (u + 4.4) ^ 2) (inDeg u) := by
    have h2 : HasDerivAt (fun x : ℝ => x * 180 / π + 4.4) (180 / π) (inDeg u) := by
      have := (((hasDerivAt_id (inDeg u)).mul_const 180).div_const π).add_const 4.4
      simpa using this
    have h3 := (hasDerivAt_id (inDeg u)).add ((hasDerivAt_const (inDeg u) (7.31 * π / 180)).div h2 (by rw [hu]; exact hw))
    refine h3.congr_deriv ?_
    rw [hu]
    field_simp
    ring
  have hc : HasDerivAt (fun x => cos (raised x) / sin (raised x)) (-((1 - 7.31 / (u + 4.4) ^ 2) / sin (inDeg (raisedDeg u)) ^ 2)) (inDeg u) := by
    have h3 := hr.cos.div hr.sin (by rw [raised_deg]; exact hs)
    refine h3.congr_deriv ?_
    rw [raised_deg]
    have := sin_sq_add_cos_sq (inDeg (raisedDeg u))
    field_simp
    linear_combination (-(1:ℝ)) * ((u + 4.4) ^ 2 - 7.31) * this
  have h4 := ((hc.sub (((((hc.const_mul 14.7).add_const 13).mul_const π).div_const 180).sin.const_mul 0.06)).mul_const (π / 180)).div_const 60
  refine h4.congr_deriv ?_
  unfold slope
  simp only [raised_deg]
  ring

/-- **C92.** The refraction changes by at most 29 parts in a hundred of the change of the altitude, from 1.2 degrees below the horizon to
    2.2 degrees beyond the zenith. -/
theorem C92_lipschitz {x y : ℝ} (hx : inDeg (-1.2) ≤ x ∧ x ≤ inDeg 92.2) (hy : inDeg (-1.2) ≤ y ∧ y ≤ inDeg 92.2) :
    |refraction y - refraction x| ≤ 0.29 * |y - x| := by
  have hback : ∀ z : ℝ, inDeg (z * 180 / π) = z := by intro z; unfold inDeg; field_simp
  have hin : ∀ z ∈ Set.Icc (inDeg (-1.2)) (inDeg 92.2), -1.2 ≤ z * 180 / π ∧ z * 180 / π ≤ 92.2 := by
    intro z hz
    obtain ⟨h1, h2⟩ := hz
    unfold inDeg at h1 h2
    rw [le_div_iff₀ pi_pos, div_le_iff₀ pi_pos]
    constructor <;> linarith
  have h := Convex.norm_image_sub_le_of_norm_hasDerivWithin_le (f := refraction) (f' := fun z => slope (z * 180 / π)) (C := 0.29)
    (s := Set.Icc (inDeg (-1.2)) (inDeg 92.2)) (x := x) (y := y)
    (fun z hz => by
      have := hasDeriv (hin z hz).1 (hin z hz).2
      rw [hback] at this
      exact this.hasDerivWithinAt)
    (fun z hz => by
      obtain ⟨h1, h2⟩ := hin z hz
      obtain ⟨h3, h4⟩ := slope_le h1 h2
      refine le_trans ?_ h4
      unfold slope
      rw [norm_eq_abs, abs_div, abs_mul, abs_mul, abs_neg, abs_of_pos (show (0 : ℝ) < 60 by norm_num), abs_of_pos (show 0 < π / 180 by positivity),
        abs_of_pos (div_pos h3 (pow_pos (sin_raised_pos h1 h2) 2))]
      have : |1 - 0.06 * 14.7 * π / 180 * cos ((14.7 * (cos (inDeg (raisedDeg (z * 180 / π))) / sin (inDeg (raisedDeg (z * 180 / π)))) + 13) * π / 180)| ≤
          1 + 0.06 * 14.7 * π / 180 := by
        generalize (14.7 * (cos (inDeg (raisedDeg (z * 180 / π))) / sin (inDeg (raisedDeg (z * 180 / π)))) + 13) * π / 180 = q
        have h5 := cos_le_one q
        have h6 := neg_one_le_cos q
        have h7 : 0 < 0.06 * 14.7 * π / 180 := by positivity
        rw [abs_le]
        constructor <;> nlinarith
      have h8 : 0 ≤ (1 - 7.31 / (z * 180 / π + 4.4) ^ 2) / sin (inDeg (raisedDeg (z * 180 / π))) ^ 2 :=
        (div_pos h3 (pow_pos (sin_raised_pos h1 h2) 2)).le
      gcongr) (convex_Icc _ _) hx hy
  simpa [norm_eq_abs] using h

theorem cot_le {A : ℝ} (h : 1.66 ≤ A) (h1 : A ≤ 95) : |cos (inDeg A) / sin (inDeg A)| ≤ 35 := by
  have hpi := pi_gt_d2
  have hs : 0.0286 ≤ sin (inDeg A) := by
    have h2 := inDeg_le h
    have e : inDeg 1.66 = 1.66 * π / 180 := rfl
    by_cases hx : inDeg A ≤ 1 / 5
    · have := sin_low (x := inDeg A) (by linarith) hx
      linarith
    · have h3 := inDeg_le h1
      have e : inDeg 95 = 95 * π / 180 := rfl
      have := sin_mid (x := inDeg A) (by linarith) (by linarith)
      linarith
  rw [abs_div, abs_of_pos (show 0 < sin (inDeg A) by linarith), div_le_iff₀ (by linarith)]
  have := abs_cos_le_one (inDeg A)
  linarith

/-- The refraction is at most 35.1 minutes. -/
theorem refraction_le {u : ℝ} (h : 0 ≤ u) (h1 : u ≤ 91) : |refraction (inDeg u)| ≤ inDeg (35.1 / 60) := by
  have hA : 1.66 ≤ raisedDeg u := by
    unfold raisedDeg
    have hw : (0 : ℝ) < u + 4.4 := by linarith
    rw [← sub_nonneg]
    have : u + 7.31 / (u + 4.4) - 1.66 = (u ^ 2 + 2.74 * u + 0.006) / (u + 4.4) := by field_simp; ring
    rw [this]
    positivity
  have hc := cot_le hA (raisedDeg_le (by linarith) (by linarith))
  unfold refraction
  simp only [raised_deg]
  generalize cos (inDeg (raisedDeg u)) / sin (inDeg (raisedDeg u)) = c at *
  have hs := abs_sin_le_one ((14.7 * c + 13) * π / 180)
  have : |c - 0.06 * sin ((14.7 * c + 13) * π / 180)| ≤ 35.1 := by
    rw [abs_le] at *
    constructor <;> linarith
  rw [abs_div, abs_mul, abs_of_pos (show (0 : ℝ) < 60 by norm_num), abs_of_pos (show 0 < π / 180 by positivity)]
  have := mul_le_mul_of_nonneg_right this (show 0 ≤ π / 180 / 60 by positivity)
  unfold inDeg
  linarith

theorem firstGuess_le {u : ℝ} (h : -0.585 ≤ u) (h1 : u ≤ 91.585) : |firstGuess (inDeg u)| ≤ inDeg (35.7 / 60) := by
  have hw : (0 : ℝ) < u + 5.11 := by linarith
  have e : inDeg u + 10.3 * π / 180 / (inDeg u * 180 / π + 5.11) = inDeg (u + 10.3 / (u + 5.11)) := by
    have : inDeg u * 180 / π = u := by unfold inDeg; field_simp
    rw [this]
    unfold inDeg
    ring
  have hA : 1.66 ≤ u + 10.3 / (u + 5.11) := by
    rw [← sub_nonneg]
    have : u + 10.3 / (u + 5.11) - 1.66 = (u ^ 2 + 3.45 * u + 1.8174) / (u + 5.11) := by field_simp; ring
    rw [this]
    apply div_nonneg _ hw.le
    nlinarith
  have hB : u + 10.3 / (u + 5.11) ≤ 95 := by
    have : 10.3 / (u + 5.11) ≤ 10.3 / 4.525 := by gcongr; linarith
    have : (10.3 : ℝ) / 4.525 ≤ 2.3 := by norm_num
    linarith
  have hc := cot_le hA hB
  unfold firstGuess
  simp only [e]
  generalize cos (inDeg (u + 10.3 / (u + 5.11))) / sin (inDeg (u + 10.3 / (u + 5.11))) = c at *
  rw [abs_mul, abs_of_pos (show 0 < 1.02 * (π / 180) / 60 by positivity)]
  have := mul_le_mul_of_nonneg_right hc (show 0 ≤ 1.02 * (π / 180) / 60 by positivity)
  have e2 : inDeg (35.7 / 60) = 35 * (1.02 * (π / 180) / 60) := by unfold inDeg; ring
  linarith

theorem inDeg_neg (u : ℝ) : inDeg (-u) = -inDeg u := by unfold inDeg; ring

theorem inDeg_add (u v : ℝ) : inDeg (u + v) = inDeg u + inDeg v := by unfold inDeg; ring

/-- Near the altitude looked for, each turn brings the value closer. -/
theorem closer {u r : ℝ} (h : 0 ≤ u) (h1 : u ≤ 91) (hr : |r - refraction (inDeg u)| ≤ inDeg 1.2) :
    |refraction (inDeg u - refraction (inDeg u) + r) - refraction (inDeg u)| ≤ 0.29 * |r - refraction (inDeg u)| := by
  rw [abs_le] at hr
  have h2 := inDeg_le h
  have h3 := inDeg_le h1
  have e1 := inDeg_neg 1.2
  have e2 : inDeg 92.2 = inDeg 91 + inDeg 1.2 := by rw [← inDeg_add]; norm_num
  have e0 : inDeg 0 = 0 := by unfold inDeg; simp
  have hp : 0 ≤ inDeg 1.2 := by unfold inDeg; positivity
  have := C92_lipschitz (x := inDeg u) (y := inDeg u - refraction (inDeg u) + r) ⟨by linarith, by linarith⟩ ⟨by linarith, by linarith⟩
  rwa [show inDeg u - refraction (inDeg u) + r - inDeg u = r - refraction (inDeg u) by ring] at this

theorem improve_le {u : ℝ} (h : 0 ≤ u) (h1 : u ≤ 91) : ∀ (n : Nat) {r d e : ℝ}, |r - refraction (inDeg u)| ≤ e → e ≤ inDeg 1.2 →
    (|d| ≤ tolerance → |r - refraction (inDeg u)| ≤ tolerance / 2) →
    |improve (inDeg u - refraction (inDeg u)) n r d - refraction (inDeg u)| ≤ max (tolerance / 2) (0.29 ^ n * e)
  | 0, r, d, e, he, _, _ => by
    rw [improve, pow_zero, one_mul]
    exact le_max_of_le_right he
  | n + 1, r, d, e, he, he1, hd => by
    rw [improve]
    by_cases hc : d > tolerance ∨ d < -tolerance
    · rw [if_pos hc]
      have hcl := closer h h1 (he.trans he1)
      generalize hv : refraction (inDeg u - refraction (inDeg u) + r) = v at *
      have h0 : 0 ≤ e := (abs_nonneg _).trans he
      have := improve_le h h1 n (r := v) (d := r - v) (e := 0.29 * e) (by linarith) (by linarith) (by
        intro ht
        have := abs_sub_abs_le_abs_sub (r - refraction (inDeg u)) (v - refraction (inDeg u))
        rw [show r - refraction (inDeg u) - (v - refraction (inDeg u)) = r - v by ring] at this
        have := abs_nonneg (r - v)
        linarith)
      rwa [pow_succ, mul_assoc]
    · rw [if_neg hc]
      push Not at hc
      exact le_max_of_le_left (hd (abs_le.2 ⟨hc.2, hc.1⟩))

/-- **C92.** Whatever the altitude seen, from the horizon to beyond the zenith, the refraction is found again from the true altitude to within
    two hundredths of a second of arc. -/
theorem C92_reverse {u : ℝ} (h : 0 ≤ u) (h1 : u ≤ 91) :
    |reverseRefraction (inDeg u - refraction (inDeg u)) - refraction (inDeg u)| ≤ inDeg (0.02 / 3600) := by
  have hR := refraction_le h h1
  have hF : |firstGuess (inDeg u - refraction (inDeg u))| ≤ inDeg (35.7 / 60) := by
    have e : inDeg u - refraction (inDeg u) = inDeg (u - refraction (inDeg u) * 180 / π) := by unfold inDeg; field_simp
    have hR' : |refraction (inDeg u) * 180 / π| ≤ 0.585 := by
      rw [abs_div, abs_mul, abs_of_pos pi_pos, abs_of_pos (show (0 : ℝ) < 180 by norm_num), div_le_iff₀ pi_pos]
      unfold inDeg at hR ⊢
      linarith
    rw [e]
    rw [abs_le] at hR'
    exact firstGuess_le (by linarith) (by linarith)
  have hE : |firstGuess (inDeg u - refraction (inDeg u)) - refraction (inDeg u)| ≤ inDeg (70.8 / 60) := by
    have := abs_sub (firstGuess (inDeg u - refraction (inDeg u))) (refraction (inDeg u))
    have e : inDeg (70.8 / 60) = inDeg (35.1 / 60) + inDeg (35.7 / 60) := by rw [← inDeg_add]; norm_num
    linarith
  have ht : tolerance = inDeg (0.01 / 3600) := by unfold tolerance inDeg; ring
  have := improve_le h h1 10 (d := 1) hE (inDeg_le (by norm_num)) (by
    intro h
    exfalso
    rw [ht, abs_one] at h
    have := pi_lt_d2
    unfold inDeg at h
    linarith)
  refine this.trans (max_le ?_ ?_)
  · rw [ht]
    have : inDeg (0.01 / 3600) / 2 = inDeg (0.005 / 3600) := by unfold inDeg; ring
    rw [this]
    exact inDeg_le (by norm_num)
  · have : 0.29 ^ 10 * inDeg (70.8 / 60) = inDeg (0.29 ^ 10 * (70.8 / 60)) := by unfold inDeg; ring
    rw [this]
    exact inDeg_le (by norm_num)

/-- **C92.** The higher the altitude seen, the higher the true one: no true altitude belongs to two altitudes seen. -/
theorem C92_increasing {x y : ℝ} (hx : inDeg (-1.2) ≤ x) (hxy : x < y) (hy : y ≤ inDeg 92.2) : x - refraction x < y - refraction y := by
  have h := C92_lipschitz ⟨hx, by linarith⟩ ⟨by linarith, hy⟩
  rw [abs_of_pos (sub_pos.2 hxy), abs_le] at h
  linarith

theorem deg_back (z : ℝ) : inDeg (z * 180 / π) = z := by unfold inDeg; field_simp

theorem deg_between {a b z : ℝ} (h : inDeg a ≤ z ∧ z ≤ inDeg b) : a ≤ z * 180 / π ∧ z * 180 / π ≤ b := by
  obtain ⟨h1, h2⟩ := h
  unfold inDeg at h1 h2
  rw [le_div_iff₀ pi_pos, div_le_iff₀ pi_pos]
  constructor <;> linarith

theorem hasDeriv' {z : ℝ} (h : inDeg (-1.2) ≤ z ∧ z ≤ inDeg 92.2) : HasDerivAt refraction (slope (z * 180 / π)) z := by
  have := hasDeriv (deg_between h).1 (deg_between h).2
  rwa [deg_back] at this

/-- **C92.** The higher the altitude seen, the smaller the refraction. -/
theorem C92_decreasing {x y : ℝ} (hx : inDeg (-1.2) ≤ x) (hxy : x < y) (hy : y ≤ inDeg 92.2) : refraction y < refraction x := by
  refine strictAntiOn_of_deriv_neg (convex_Icc (inDeg (-1.2)) (inDeg 92.2)) (fun z hz => (hasDeriv' hz).continuousAt.continuousWithinAt) ?_ ⟨hx, by linarith⟩
    ⟨by linarith, hy⟩ hxy
  intro z hz
  have hz' := interior_subset hz
  rw [(hasDeriv' hz').deriv]
  obtain ⟨h1, h2⟩ := deg_between hz'
  have h3 := div_pos (slope_le h1 h2).1 (pow_pos (sin_raised_pos h1 h2) 2)
  unfold slope
  generalize (14.7 * (cos (inDeg (raisedDeg (z * 180 / π))) / sin (inDeg (raisedDeg (z * 180 / π)))) + 13) * π / 180 = q
  generalize (1 - 7.31 / (z * 180 / π + 4.4) ^ 2) / sin (inDeg (raisedDeg (z * 180 / π))) ^ 2 = k at *
  have h4 : 0 < 1 - 0.06 * 14.7 * π / 180 * cos q := by
    have h5 := cos_le_one q
    have h6 := neg_one_le_cos q
    have h7 := pi_lt_d2
    have h8 := pi_pos
    nlinarith
  have := mul_pos (mul_pos h3 h4) (show 0 < π / 180 / 60 by positivity)
  linarith

/-- At the horizon, at most 35.1 minutes, and more than nothing. -/
theorem horizon : 0 < refraction (inDeg 0) := by
  have hpi := pi_lt_d2
  have hA : raisedDeg 0 = 7.31 / 4.4 := by unfold raisedDeg; norm_num
  have hx : inDeg (raisedDeg 0) ≤ 0.03 := by rw [hA]; unfold inDeg; linarith
  have hx0 : 0 < inDeg (raisedDeg 0) := by rw [hA]; unfold inDeg; positivity
  have hs := sin_le hx0.le
  have hs0 := sin_raised_pos (u := 0) (by norm_num) (by norm_num)
  have hc := one_sub_sq_div_two_le_cos (x := inDeg (raisedDeg 0))
  have hc' : 0.9 ≤ cos (inDeg (raisedDeg 0)) := by nlinarith
  have hq : 30 ≤ cos (inDeg (raisedDeg 0)) / sin (inDeg (raisedDeg 0)) := by rw [le_div_iff₀ hs0]; linarith
  unfold refraction
  simp only [raised_deg]
  generalize cos (inDeg (raisedDeg 0)) / sin (inDeg (raisedDeg 0)) = c at *
  have := sin_le_one ((14.7 * c + 13) * π / 180)
  have h1 : 0 < c - 0.06 * sin ((14.7 * c + 13) * π / 180) := by linarith
  have := pi_pos
  positivity

/-- **C92.** The refraction is at most 35.1 minutes. -/
theorem C92_bound {u : ℝ} (h : 0 ≤ u) (h1 : u ≤ 91) : |refraction (inDeg u)| ≤ inDeg (35.1 / 60) := refraction_le h h1

/-- **C92.** Every true altitude from the horizon to the zenith is one of an altitude seen, and the inverse gives the difference to within two
    hundredths of a second. -/
theorem C92_every {t : ℝ} (h : 0 ≤ t) (h1 : t ≤ π / 2) :
    ∃ a, inDeg 0 ≤ a ∧ a ≤ inDeg 91 ∧ a - refraction a = t ∧ |t + reverseRefraction t - a| ≤ inDeg (0.02 / 3600) := by
  have hlow := horizon
  have hhigh := refraction_le (u := 91) (by norm_num) (le_refl _)
  rw [abs_le] at hhigh
  have e0 : inDeg 0 = 0 := by unfold inDeg; simp
  obtain ⟨a, ⟨ha0, ha1⟩, ha⟩ := intermediate_value_Icc (f := fun a => a - refraction a) (inDeg_le (show (0 : ℝ) ≤ 91 by norm_num))
    (fun z hz => ((continuousAt_id.sub (hasDeriv' ⟨(inDeg_le (by norm_num)).trans hz.1, hz.2.trans (inDeg_le (by norm_num))⟩).continuousAt)).continuousWithinAt)
    (show t ∈ Set.Icc _ _ from ⟨by linarith, by
      have : inDeg 91 = inDeg 90 + inDeg 1 := by rw [← inDeg_add]; norm_num
      have e : inDeg 90 = π / 2 := by unfold inDeg; ring
      have := inDeg_le (show (35.1 / 60 : ℝ) ≤ 1 by norm_num)
      linarith⟩)
  simp only at ha
  refine ⟨a, ha0, ha1, ha, ?_⟩
  obtain ⟨h2, h3⟩ := deg_between ⟨ha0, ha1⟩
  have := C92_reverse h2 h3
  rw [deg_back, ha] at this
  rwa [show t + reverseRefraction t - a = reverseRefraction t - refraction a by linarith]

/-! ### The hypotheses can be met -/

/-- Thirty degrees above the horizon. -/
example : |reverseRefraction (inDeg 30 - refraction (inDeg 30)) - refraction (inDeg 30)| ≤ inDeg (0.02 / 3600) := C92_reverse (by norm_num) (by norm_num)

example : refraction (inDeg 10) < refraction (inDeg 0) := C92_decreasing (inDeg_le (by norm_num)) (by
  unfold inDeg
  have := pi_pos
  linarith) (inDeg_le (by norm_num))

end Verif.Props
