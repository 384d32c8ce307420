import Mathlib.Analysis.SpecialFunctions.Trigonometric.Series
import Mathlib.Tactic.Linarith
import Mathlib.Tactic.LinearCombination
import Mathlib.Tactic.Positivity
import Mathlib.Tactic.Ring
import Verif.Model.Kepler

/-!
# Lemmas: the series of sine and hyperbolic sine, summed until the terms are small
-/

namespace Verif.Kepler

open Filter Topology

/-- `a^k / (2 k + 1)!`. -/
noncomputable def coeff (a : ℝ) (k : Nat) : ℝ := a ^ k / ((2 * k + 1).factorial : ℝ)

theorem coeff_succ (a : ℝ) (k : Nat) : coeff a (k + 1) = coeff a k * (a / ((2 * k + 2 : ℝ) * (2 * k + 3))) := by
  unfold coeff
  rw [show 2 * (k + 1) + 1 = 2 * k + 1 + 1 + 1 by ring, Nat.factorial_succ, Nat.factorial_succ]
  push_cast
  have : ((2 * k + 1).factorial : ℝ) ≠ 0 := by positivity
  field_simp
  ring

/-- The terms of the loop. -/
theorem term_coeff (a : ℝ) (w : ℝ) : ∀ (j k : Nat), termAfter a j (w * coeff a k) (2 * k + 2) = w * coeff a (k + j) := by
  intro j
  induction j with
  | zero => intro k; rfl
  | succ j ih =>
    intro k
    unfold termAfter
    have e : w * coeff a k * (a / (((2 * k + 2 : ℕ) : ℝ) * ((2 * k + 2 : ℕ) + 1))) = w * coeff a (k + 1) := by
      rw [coeff_succ]
      push_cast
      ring
    rw [e, show 2 * k + 2 + 2 = 2 * (k + 1) + 2 by ring, ih, show k + 1 + j = k + (j + 1) by ring]

/-- What the loop adds up: all terms after the first up to the first small one. -/
theorem series_spec (a w sign : ℝ) {tol : ℝ} (ht : 0 < tol) (k : Nat) (rval : ℝ) :
    ∃ n, k ≤ n ∧ seriesLoop a tol sign (w * coeff a k) rval (2 * k + 2) = rval + sign * ((∑ i ∈ Finset.range (n + 1), w * coeff a i) -
      ∑ i ∈ Finset.range (k + 1), w * coeff a i) ∧ |w * coeff a n| ≤ tol ∧ ∀ i, k ≤ i → i < n → tol < |w * coeff a i| := by
  generalize hm : roundsLeft a tol (w * coeff a k) (2 * k + 2) = m
  induction m using Nat.strong_induction_on generalizing k rval with
  | _ m ih =>
    rw [seriesLoop]
    split_ifs with h
    · have e : w * coeff a k * (a / (((2 * k + 2 : ℕ) : ℝ) * ((2 * k + 2 : ℕ) + 1))) = w * coeff a (k + 1) := by
        rw [coeff_succ]
        push_cast
        ring
      have hlt := rounds_less (a := a) ht h.2.2 h.1
      rw [e] at hlt ⊢
      rw [hm] at hlt
      obtain ⟨n, h1, h2, h3, h4⟩ := ih _ hlt (k + 1) (rval + sign * (w * coeff a (k + 1))) rfl
      refine ⟨n, by omega, ?_, h3, ?_⟩
      · rw [show 2 * k + 2 + 2 = 2 * (k + 1) + 2 by ring, h2, Finset.sum_range_succ _ (k + 1)]
        ring
      · intro i hi hi'
        rcases Nat.eq_or_lt_of_le hi with rfl | hi
        · exact h.1
        · exact h4 i hi hi'
    · refine ⟨k, le_rfl, by ring, ?_, fun i hi hi' => by omega⟩
      by_contra hc
      exact h ⟨not_le.mp hc, ht, by omega⟩

/-- The remainder of a series whose terms are at least halved each time is at most the term before. -/
theorem tail_half {u : Nat → ℝ} {s : ℝ} (h : HasSum u s) (n : Nat) (hr : ∀ k, n ≤ k → |u (k + 1)| ≤ |u k| / 2) :
    |s - ∑ i ∈ Finset.range (n + 1), u i| ≤ |u n| := by
  have hb : ∀ j, |u (n + 1 + j)| ≤ |u n| / 2 / 2 ^ j := by
    intro j
    induction j with
    | zero => simpa using hr n le_rfl
    | succ j ih =>
      have := hr (n + 1 + j) (by omega)
      rw [show n + 1 + (j + 1) = n + 1 + j + 1 by ring, pow_succ]
      calc |u (n + 1 + j + 1)| ≤ |u (n + 1 + j)| / 2 := this
        _ ≤ |u n| / 2 / 2 ^ j / 2 := by linarith
        _ = |u n| / 2 / (2 ^ j * 2) := by rw [div_div]
  have ht : Tendsto (fun j => ∑ i ∈ Finset.range (n + 1 + j), u i) atTop (𝓝 s) := by
    have := h.tendsto_sum_nat.comp (tendsto_add_atTop_nat (n + 1))
    refine this.congr fun j => ?_
    simp only [Function.comp]
    rw [add_comm]
  have := dist_le_of_le_geometric_two_of_tendsto₀ (C := |u n|) (f := fun j => ∑ i ∈ Finset.range (n + 1 + j), u i) (a := s) (fun j => by
    rw [Real.dist_eq, show n + 1 + (j + 1) = n + 1 + j + 1 by ring, Finset.sum_range_succ, abs_sub_comm, add_sub_cancel_left]
    exact hb j) ht
  rw [Real.dist_eq, abs_sub_comm] at this
  simpa using this

/-- The remainder of an alternating series with terms that do not grow is at most the next term. -/
theorem tail_alternating {u : Nat → ℝ} {s : ℝ} (h : HasSum u s) (n : Nat) (hr : ∀ k, n ≤ k → |u (k + 1)| ≤ |u k|)
    {τ : ℝ} (hτ : |τ| = 1) (hs : ∀ k, u k = τ * ((-1) ^ k * |u k|)) : |s - ∑ i ∈ Finset.range (n + 1), u i| ≤ |u n| := by
  have hsign : ∃ σ : ℝ, |σ| = 1 ∧ ∀ j, u (n + 1 + j) = σ * ((-1) ^ j * |u (n + 1 + j)|) := by
    refine ⟨τ * (-1) ^ (n + 1), by rw [abs_mul, hτ]; simp, fun j => ?_⟩
    have := hs (n + 1 + j)
    rw [pow_add] at this
    linear_combination this
  obtain ⟨σ, hσ, hu⟩ := hsign
  have ha : Antitone fun j => |u (n + 1 + j)| := antitone_nat_of_succ_le fun j => by
    have := hr (n + 1 + j) (by omega)
    rwa [show n + 1 + (j + 1) = n + 1 + j + 1 by ring]
  have hl : Tendsto (fun j => ∑ i ∈ Finset.range j, (-1 : ℝ) ^ i * |u (n + 1 + i)|) atTop (𝓝 (σ * (s - ∑ i ∈ Finset.range (n + 1), u i))) := by
    have h1 := ((hasSum_nat_add_iff' (n + 1)).mpr h).tendsto_sum_nat.const_mul σ
    refine h1.congr fun j => ?_
    rw [Finset.mul_sum]
    refine Finset.sum_congr rfl fun i _ => ?_
    have hq : σ * σ = 1 := by rw [← abs_mul_abs_self, hσ, one_mul]
    rw [add_comm i (n + 1), hu i, abs_mul, hσ, abs_mul, abs_abs]
    simp only [abs_pow, abs_neg, abs_one, one_pow, one_mul]
    linear_combination (-1) ^ i * |u (n + 1 + i)| * hq
  have lo := ha.alternating_series_le_tendsto hl 0
  have hi := ha.tendsto_le_alternating_series hl 0
  simp at lo hi
  have e : |s - ∑ i ∈ Finset.range (n + 1), u i| = |σ * (s - ∑ i ∈ Finset.range (n + 1), u i)| := by rw [abs_mul, hσ, one_mul]
  rw [e, abs_of_nonneg lo]
  exact le_trans hi (hr n le_rfl)

theorem sin_series (x : ℝ) : HasSum (fun k => x * coeff (-x * x) k) (Real.sin x) := by
  convert Real.hasSum_sin x using 2 with k
  unfold coeff
  rw [show -x * x = -1 * x ^ 2 by ring, mul_pow, ← pow_mul, pow_succ]
  ring

theorem sinh_series (x : ℝ) : HasSum (fun k => x * coeff (x * x) k) (Real.sinh x) := by
  convert Real.hasSum_sinh x using 2 with k
  unfold coeff
  rw [show x * x = x ^ 2 by ring, ← pow_mul, pow_succ]
  ring

theorem coeff_ratio (a : ℝ) (k : Nat) : |coeff a (k + 1)| = |coeff a k| * (|a| / ((2 * k + 2 : ℝ) * (2 * k + 3))) := by
  rw [coeff_succ, abs_mul, abs_div, abs_of_pos (show (0 : ℝ) < (2 * k + 2) * (2 * k + 3) by positivity)]

theorem coeff_half {a : ℝ} (ha : |a| ≤ 10) {k : Nat} (hk : 1 ≤ k) : |coeff a (k + 1)| ≤ |coeff a k| / 2 := by
  rw [coeff_ratio]
  have hk' : (1 : ℝ) ≤ k := by exact_mod_cast hk
  have : |a| / ((2 * k + 2 : ℝ) * (2 * k + 3)) ≤ 1 / 2 := by
    rw [div_le_iff₀ (by positivity)]
    nlinarith
  nlinarith [abs_nonneg (coeff a k)]

/-- For an elliptic orbit near a parabola `near_parabolic` is the left side of Kepler's equation. -/
theorem near_elliptic (c : ℝ) {e : ℝ} (h0 : 9 / 10 ≤ e) (h1 : e ≤ 1) : |nearParabolic c e - (c - e * Real.sin c)| ≤ 1 / 10 ^ 15 := by
  have hc1 : coeff (-c * c) 1 = -c * c / 6 := by
    unfold coeff
    norm_num [Nat.factorial]
  obtain ⟨n, hn, hv, hs, hl⟩ := series_spec (-c * c) (e * c) (-1) (tol := 1 / 10 ^ 15) (by positivity) 1
    ((1 - e) * c - e * c * coeff (-c * c) 1)
  have hN : nearParabolic c e = (1 - e) * c - e * c * coeff (-c * c) 1 + -1 * ((∑ i ∈ Finset.range (n + 1), e * c * coeff (-c * c) i) -
      ∑ i ∈ Finset.range (1 + 1), e * c * coeff (-c * c) i) := by
    rw [← hv]
    unfold nearParabolic
    simp only
    rw [if_neg (not_lt.mpr h1), show e * (-c * c) * c / 6 = e * c * coeff (-c * c) 1 by rw [hc1]; ring]
  have hS : HasSum (fun k => e * c * coeff (-c * c) k) (e * Real.sin c) := by
    have := (sin_series c).mul_left e
    simpa only [mul_assoc] using this
  have h2 : ∑ i ∈ Finset.range (1 + 1), e * c * coeff (-c * c) i = e * c + e * c * coeff (-c * c) 1 := by
    rw [Finset.sum_range_succ, Finset.sum_range_one]
    simp [coeff]
  rw [h2] at hN
  have key : nearParabolic c e - (c - e * Real.sin c) = e * Real.sin c - ∑ i ∈ Finset.range (n + 1), e * c * coeff (-c * c) i := by
    rw [hN]; ring
  rw [key]
  refine le_trans ?_ hs
  have hcc : |(-c * c)| = c * c := by rw [neg_mul, abs_neg, abs_mul_self]
  -- the ratio of the terms from the last one on
  have hratio : c * c ≤ (2 * n + 2 : ℝ) * (2 * n + 3) := by
    rcases Nat.eq_or_lt_of_le hn with h | h
    · rw [← h, hc1] at hs
      rw [← h]
      push_cast
      by_contra hbig
      have hb : 20 < c * c := by nlinarith
      have hb4 : 4 < |c| := by
        by_contra hq
        have := abs_nonneg c
        have := abs_mul_abs_self c
        nlinarith
      rw [abs_mul, abs_mul, abs_of_pos (show 0 < e by linarith), abs_div, hcc, abs_of_pos (show (0 : ℝ) < 6 by norm_num)] at hs
      have h3 : 1 ≤ e * |c| * (c * c / 6) := by
        have q1 : 1 ≤ e * |c| := by nlinarith
        have q2 : 1 ≤ c * c / 6 := by linarith
        nlinarith
      have h4 : (1 : ℝ) / 10 ^ 15 < 1 := by norm_num
      linarith
    · obtain ⟨m, rfl⟩ : ∃ m, n = m + 1 := ⟨n - 1, by omega⟩
      have hp := hl m (by omega) (by omega)
      rw [abs_mul, coeff_ratio, hcc] at hs
      rw [abs_mul] at hp
      by_contra hbig
      push Not at hbig
      have hm : (0 : ℝ) ≤ m := by positivity
      have q : 1 ≤ c * c / ((2 * m + 2 : ℝ) * (2 * m + 3)) := by
        rw [le_div_iff₀ (by positivity)]
        push_cast at hbig
        nlinarith
      have hpos : 0 ≤ |e * c| * |coeff (-c * c) m| := by positivity
      nlinarith
  refine tail_alternating hS n (fun k hk => ?_) (τ := if 0 ≤ e * c then 1 else -1) (by split_ifs <;> simp) (fun k => ?_)
  · have hk' : (n : ℝ) ≤ k := by exact_mod_cast hk
    have hn' : (0 : ℝ) ≤ n := by positivity
    rw [abs_mul (e * c), coeff_ratio, abs_mul (e * c), hcc]
    have q : c * c / ((2 * k + 2 : ℝ) * (2 * k + 3)) ≤ 1 := by
      rw [div_le_one (by positivity)]
      nlinarith
    exact mul_le_mul_of_nonneg_left (mul_le_of_le_one_right (abs_nonneg _) q) (abs_nonneg _)
  · have hck : coeff (-c * c) k = (-1) ^ k * |coeff (-c * c) k| := by
      unfold coeff
      rw [show -c * c = -1 * (c * c) by ring, mul_pow, abs_div, abs_mul, abs_pow, abs_neg, abs_one, one_pow, one_mul,
        abs_of_nonneg (pow_nonneg (mul_self_nonneg c) k), abs_of_pos (by positivity : (0 : ℝ) < ((2 * k + 1).factorial : ℝ))]
      ring
    rw [abs_mul]
    split_ifs with hw
    · rw [abs_of_nonneg hw]
      linear_combination e * c * hck
    · rw [abs_of_neg (not_le.mp hw)]
      linear_combination e * c * hck

/-- For a hyperbolic orbit `near_parabolic` is the left side of Kepler's equation with the opposite sign. -/
theorem near_hyperbolic {c e : ℝ} (h1 : 1 < e) (hc : c * c ≤ 10) : |nearParabolic c e - (c - e * Real.sinh c)| ≤ 1 / 10 ^ 15 := by
  have hc1 : coeff (c * c) 1 = c * c / 6 := by
    unfold coeff
    norm_num [Nat.factorial]
  obtain ⟨n, hn, hv, hs, -⟩ := series_spec (c * c) (e * c) (-1) (tol := 1 / 10 ^ 15) (by positivity) 1
    ((1 - e) * c - e * c * coeff (c * c) 1)
  have hN : nearParabolic c e = (1 - e) * c - e * c * coeff (c * c) 1 + -1 * ((∑ i ∈ Finset.range (n + 1), e * c * coeff (c * c) i) -
      ∑ i ∈ Finset.range (1 + 1), e * c * coeff (c * c) i) := by
    rw [← hv]
    unfold nearParabolic
    simp only
    rw [if_pos h1, show e * (c * c) * c / 6 = e * c * coeff (c * c) 1 by rw [hc1]; ring]
  have hS : HasSum (fun k => e * c * coeff (c * c) k) (e * Real.sinh c) := by
    have := (sinh_series c).mul_left e
    simpa only [mul_assoc] using this
  have h2 : ∑ i ∈ Finset.range (1 + 1), e * c * coeff (c * c) i = e * c + e * c * coeff (c * c) 1 := by
    rw [Finset.sum_range_succ, Finset.sum_range_one]
    simp [coeff]
  rw [h2] at hN
  have key : nearParabolic c e - (c - e * Real.sinh c) = e * Real.sinh c - ∑ i ∈ Finset.range (n + 1), e * c * coeff (c * c) i := by
    rw [hN]; ring
  rw [key]
  refine le_trans (tail_half hS n fun k hk => ?_) hs
  rw [abs_mul (e * c), abs_mul (e * c)]
  have := coeff_half (a := c * c) (by rw [abs_mul_self]; exact hc) (k := k) (by omega)
  nlinarith [abs_nonneg (e * c)]

/-- `remaining_terms` is the series without its first term. -/
theorem remaining {a s : ℝ} (ha : |a| ≤ 10) (h : HasSum (coeff a) s) : |remainingTerms a - (s - 1)| ≤ 1 / 10 ^ 30 := by
  have hc1 : coeff a 1 = a / 6 := by
    unfold coeff
    norm_num [Nat.factorial]
  obtain ⟨n, hn, hv, hs, -⟩ := series_spec a 1 1 (tol := 1 / 10 ^ 30) (by positivity) 1 (coeff a 1)
  simp only [one_mul] at hv hs
  have hN : remainingTerms a = coeff a 1 + ((∑ i ∈ Finset.range (n + 1), coeff a i) - ∑ i ∈ Finset.range (1 + 1), coeff a i) := by
    rw [← hv]
    unfold remainingTerms
    simp only
    rw [show 1 * (a / (2 * 3)) = coeff a 1 by rw [hc1]; ring, zero_add]
  have h2 : ∑ i ∈ Finset.range (1 + 1), coeff a i = 1 + coeff a 1 := by
    rw [Finset.sum_range_succ, Finset.sum_range_one]
    simp [coeff]
  rw [h2] at hN
  have key : remainingTerms a - (s - 1) = -(s - ∑ i ∈ Finset.range (n + 1), coeff a i) := by rw [hN]; ring
  rw [key, abs_neg]
  exact le_trans (tail_half h n fun k hk => coeff_half ha (by omega)) hs

end Verif.Kepler
