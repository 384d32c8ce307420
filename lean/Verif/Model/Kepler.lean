import Mathlib.Analysis.SpecialFunctions.Log.Basic
import Mathlib.Analysis.SpecialFunctions.Trigonometric.DerivHyp
import Mathlib.Analysis.SpecificLimits.Normed
import Mathlib.Topology.Algebra.Order.Floor
import Verif.Model.AltAz
import Verif.Model.Bytes

/-!
# Model of the solution of Kepler's equation, /repo/astfuncs.cpp:167-277, and of `remaining_terms`, /repo/classel.cpp:89-102

Real numbers, without rounding errors; `PI` is π.
-/

namespace Verif.Kepler

open Verif.AltAz Verif.Ellipse

/-- The term after `j` rounds of `term *= a / (n * (n + 1)), n += 2`. -/
noncomputable def termAfter (a : ℝ) : Nat → ℝ → Nat → ℝ
  | 0, term, _ => term
  | j + 1, term, n => termAfter a j (term * (a / ((n : ℝ) * (n + 1)))) (n + 2)

theorem termAfter_le (a : ℝ) : ∀ (j : Nat) (term : ℝ) (n : Nat), |termAfter a j term (n + 1)| ≤ |term| * (|a| ^ j / (j.factorial : ℝ)) := by
  intro j
  suffices h : ∀ (j : Nat) (term : ℝ) (n : Nat), |termAfter a j term (n + 1)| * (((n + j).factorial : ℝ)) ≤ |term| * |a| ^ j * (n.factorial : ℝ) by
    intro term n
    have h1 := h j term n
    have hf : (n.factorial : ℝ) * (j.factorial : ℝ) ≤ ((n + j).factorial : ℝ) := by
      exact_mod_cast Nat.le_of_dvd (Nat.factorial_pos _) (Nat.factorial_mul_factorial_dvd_factorial_add n j)
    have hn : (0 : ℝ) < n.factorial := by exact_mod_cast Nat.factorial_pos n
    have hj : (0 : ℝ) < j.factorial := by exact_mod_cast Nat.factorial_pos j
    rw [← mul_div_assoc, le_div_iff₀ hj]
    have h2 : |termAfter a j term (n + 1)| * ((n.factorial : ℝ) * (j.factorial : ℝ)) ≤ |term| * |a| ^ j * (n.factorial : ℝ) :=
      le_trans (mul_le_mul_of_nonneg_left hf (abs_nonneg _)) h1
    nlinarith
  intro j
  induction j with
  | zero => intro term n; simp [termAfter]
  | succ j ih =>
    intro term n
    unfold termAfter
    have h := ih (term * (a / (((n + 1 : ℕ) : ℝ) * ((n + 1 : ℕ) + 1)))) (n + 2)
    rw [abs_mul, abs_div] at h
    have hp : (0 : ℝ) < ((n + 1 : ℕ) : ℝ) * ((n + 1 : ℕ) + 1) := by positivity
    rw [abs_of_pos hp, Nat.factorial_succ (n + 1), Nat.factorial_succ n] at h
    have e : |term| * (|a| / (((n + 1 : ℕ) : ℝ) * ((n + 1 : ℕ) + 1))) * |a| ^ j * (((n + 1 + 1) * ((n + 1) * n.factorial) : ℕ) : ℝ) =
        |term| * |a| ^ (j + 1) * (n.factorial : ℝ) := by
      push_cast
      field_simp
      ring
    rw [e] at h
    refine le_trans (mul_le_mul_of_nonneg_left ?_ (abs_nonneg _)) h
    exact_mod_cast Nat.factorial_le (by omega)

/-- The terms become small: the loops below end. -/
theorem term_small (a term : ℝ) (n : Nat) {tol : ℝ} (ht : 0 < tol) : ∃ j, |termAfter a j term (n + 1)| ≤ tol := by
  have h := (FloorSemiring.tendsto_pow_div_factorial_atTop |a|).const_mul |term|
  rw [mul_zero] at h
  obtain ⟨j, hj⟩ := (h.eventually (gt_mem_nhds ht)).exists
  exact ⟨j, le_trans (termAfter_le a j term n) hj.le⟩

open Classical in
/-- The number of rounds left in the loop below. -/
noncomputable def roundsLeft (a tol term : ℝ) (n : Nat) : Nat :=
  if h : ∃ j, |termAfter a j term n| ≤ tol then Nat.find h else 0

theorem rounds_less {a term tol : ℝ} {n : Nat} (ht : 0 < tol) (hn : 0 < n) (h : tol < |term|) :
    roundsLeft a tol (term * (a / ((n : ℝ) * (n + 1)))) (n + 2) < roundsLeft a tol term n := by
  classical
  obtain ⟨m, rfl⟩ : ∃ m, n = m + 1 := ⟨n - 1, by omega⟩
  have h1 : ∃ j, |termAfter a j term (m + 1)| ≤ tol := term_small a term m ht
  have h2 : ∃ j, |termAfter a j (term * (a / (((m + 1 : ℕ) : ℝ) * ((m + 1 : ℕ) + 1)))) (m + 1 + 2)| ≤ tol := term_small _ _ (m + 2) ht
  unfold roundsLeft
  rw [dif_pos h1, dif_pos h2]
  have hs := Nat.find_spec h1
  obtain ⟨k, hk⟩ : ∃ k, Nat.find h1 = k + 1 := by
    refine ⟨Nat.find h1 - 1, ?_⟩
    have : Nat.find h1 ≠ 0 := by
      intro h0
      rw [h0] at hs
      simp only [termAfter] at hs
      linarith
    omega
  rw [hk] at hs ⊢
  have := Nat.find_min' h2 hs
  omega

/-- `while( fabs( term) > tol) { term *= a / (n * (n + 1)); rval += sign * term; n += 2; }`; `n` is not 0. -/
noncomputable def seriesLoop (a tol sign term rval : ℝ) (n : Nat) : ℝ :=
  if h : tol < |term| ∧ 0 < tol ∧ 0 < n then
    seriesLoop a tol sign (term * (a / ((n : ℝ) * (n + 1)))) (rval + sign * (term * (a / ((n : ℝ) * (n + 1))))) (n + 2)
  else rval
termination_by roundsLeft a tol term n
decreasing_by exact rounds_less h.2.1 h.2.2 h.1

/-- `near_parabolic`, /repo/astfuncs.cpp:167-181. -/
noncomputable def nearParabolic (eccAnom e : ℝ) : ℝ :=
  let anom2 := if e > 1 then eccAnom * eccAnom else -eccAnom * eccAnom
  let term := e * anom2 * eccAnom / 6
  seriesLoop anom2 (1 / 10 ^ 15) (-1) term ((1 - e) * eccAnom - term) 4

/-- `remaining_terms`, /repo/classel.cpp:89-102: the first round is made in any case. -/
noncomputable def remainingTerms (ival : ℝ) : ℝ :=
  let z := 1 * (ival / (2 * 3))
  seriesLoop ival (1 / 10 ^ 30) 1 z (0 + z) 4

/-- `THRESH` and `MIN_THRESH`, /repo/astfuncs.cpp:37-38. -/
noncomputable def thresh0 : ℝ := 1 / 10 ^ 12
noncomputable def minThresh : ℝ := 1 / 10 ^ 14

/-- The step of the first loop, /repo/astfuncs.cpp:220. -/
noncomputable def lowErr (e m c : ℝ) : ℝ := (c - e * Real.sin c - m) / (1 - e * Real.cos c)

/-- The loop of lines 218-223 of /repo/astfuncs.cpp, begun with `c`, ends with `r`. -/
inductive LowLoop (e m : ℝ) : ℝ → ℝ → Prop
  | done (c : ℝ) : ¬ |lowErr e m c| > thresh0 → LowLoop e m c (c - lowErr e m c)
  | more (c r : ℝ) : |lowErr e m c| > thresh0 → LowLoop e m (c - lowErr e m c) r → LowLoop e m c r

/-- The mean anomaly within half a turn, /repo/astfuncs.cpp:202-212. -/
noncomputable def reduced (m : ℝ) : ℝ :=
  if m < -Real.pi ∨ m > Real.pi then
    let t := fmod m (Real.pi * 2)
    if t > Real.pi then t - 2 * Real.pi else if t < -Real.pi then t + 2 * Real.pi else t
  else m

/-- The first guess and the threshold for higher eccentricities, /repo/astfuncs.cpp:235-252, for a mean anomaly that is not negative. -/
noncomputable def highStart (e m : ℝ) : ℝ × ℝ :=
  let th := thresh0 * |1 - e|
  let th := if th < minThresh then minThresh else th
  if e > 1 ∧ m / e > 3 then (Real.log (m / e) + 85 / 100, th)
  else if (e > 8 / 10 ∧ m < Real.pi / 3) ∨ e > 1 then
    let trial := m / |1 - e|
    let trial := if trial * trial > 6 * |1 - e| then Real.exp (Real.log (6 * m) / 3) else trial
    (trial, if th > thresh0 then thresh0 else th)
  else (m, th)

/-- The step of the two loops, /repo/astfuncs.cpp:257-261 and 268-272; `n` is `n_iter` before it is increased. -/
noncomputable def highStep (e m c : ℝ) (n : Nat) : ℝ :=
  if e < 1 then
    let err := if n > 7 then nearParabolic c e - m else c - e * Real.sin c - m
    let delta := -err / (1 - e * Real.cos c)
    delta
  else
    let err := if n > 7 ∧ e < 101 / 100 then -nearParabolic c e - m else e * Real.sinh c - c - m
    let delta := -err / (e * Real.cosh c - 1)
    delta

/-- The loops of lines 254-275; the assertion fails in the twentieth round.  `fuel + n` is 19. -/
noncomputable def highLoop (e m th : ℝ) : Nat → ℝ → ℝ → Nat → Outcome ℝ
  | 0, delta, c, _ => if |delta| > th then .abort else .ok c
  | fuel + 1, delta, c, n =>
    if |delta| > th then highLoop e m th fuel (highStep e m c n) (c + highStep e m c n) (n + 1) else .ok c

/-- Lines 229-276 of /repo/astfuncs.cpp. -/
noncomputable def high (e m offset : ℝ) : Outcome ℝ :=
  let a := if m < 0 then -m else m
  (highLoop e a (highStart e a).2 19 1 (highStart e a).1 0).bind fun c => .ok (if m < 0 then offset - c else offset + c)

/-- `kepler`, /repo/astfuncs.cpp:190-277, ends with an outcome; `ecc` is not 1. -/
inductive Returns (e m : ℝ) : Outcome ℝ → Prop
  | zero : m = 0 → Returns e m (.ok 0)
  | low (r : ℝ) : m ≠ 0 → e < 9 / 10 →
      LowLoop e (reduced m) (atan2 (Real.sin (reduced m)) (Real.cos (reduced m) - e)) r → Returns e m (.ok (r + (m - reduced m)))
  | high : m ≠ 0 → 9 / 10 ≤ e → e < 1 → Returns e m (high e (reduced m) (m - reduced m))
  | hyperbolic : m ≠ 0 → 1 < e → Returns e m (Kepler.high e m 0)

end Verif.Kepler
