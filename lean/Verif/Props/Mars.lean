import Verif.Model.Mars
import Mathlib.Algebra.Order.Field.Basic
import Mathlib.Algebra.Order.Ring.Abs
import Mathlib.Tactic.Linarith
import Mathlib.Tactic.NormNum
import Mathlib.Tactic.Ring
import Mathlib.Tactic.FieldSimp

/-!
# Property theorems: Mars time (C49, C59)
-/

set_option linter.unusedSectionVars false

namespace Verif.Props

open Verif Verif.Mars

variable {K : Type} [Field K] [LinearOrder K] [IsStrictOrderedRing K]

theorem dps_pos : (0 : K) < daysPerSol := by unfold daysPerSol; norm_num

/-- **C49.** Mars Coordinated Time to Terrestrial Time and back. -/
theorem C49_inverse (t : K) : mtcToTt (ttToMtc t) = t ∧ ttToMtc (mtcToTt t) = t := by
  have h := ne_of_gt (dps_pos (K := K))
  unfold mtcToTt ttToMtc
  generalize (daysPerSol : K) = d at *
  constructor <;> field_simp <;> ring

/-- **C49.** Both conversions keep the order of times. -/
theorem C49_monotone (s t : K) : (s < t ↔ ttToMtc s < ttToMtc t) ∧ (s < t ↔ mtcToTt s < mtcToTt t) := by
  have h := dps_pos (K := K)
  unfold mtcToTt ttToMtc
  constructor
  · rw [add_lt_add_iff_right, div_lt_div_iff_of_pos_right h, sub_lt_sub_iff_right]
  · rw [add_lt_add_iff_right, mul_lt_mul_iff_left₀ h, sub_lt_sub_iff_right]

/-- **C49.** One sol is the published 88775.244 seconds, to a sixth of a millisecond. -/
theorem C49_sol (t : K) : |(mtcToTt (t + 1) - mtcToTt t) * 86400 - 88775244 / 1000| < 15 / 100000 := by
  have : (mtcToTt (t + 1) - mtcToTt t) * 86400 - 88775244 / 1000 = (daysPerSol : K) * 86400 - 88775244 / 1000 := by
    unfold mtcToTt; ring
  rw [this, abs_lt]
  unfold daysPerSol
  constructor <;> norm_num

/-- **C49.** Finding: the worked example in the source (/repo/marstime.cpp:26-31: JD 2451549.50074 is 44795.999760
    sols) belongs to an older constant; the code gives 44795.999758, a fifth of a second less. -/
theorem C49_example_stale :
    |ttToMtc (245154950074 / 100000 : K) - 447959997576 / 10000000| < 1 / 10000000 ∧
    2 / 1000000 < |ttToMtc (245154950074 / 100000 : K) - 44795999760 / 1000000| := by
  unfold ttToMtc zeroJd zeroSol daysPerSol
  constructor
  · norm_num [abs_lt]
  · rw [lt_abs]; right; norm_num

/-! ## True solar time -/

/-- **C59.** Whatever the equation of time, if it changes by at most `L` sols per day (on a set holding the
    times met), each round of `mtst_at_airy_to_tt` multiplies the error by at most `L` times the sol's length. -/
theorem C59_contracts (eot : K → K) (S : K → Prop) (L t : K) (ht : S t)
    (hL : ∀ a b, S a → S b → |eot a - eot b| ≤ L * |a - b|) (r : K) (hr : S r) :
    |(mtcToTt (ttToMtc t + eot t) - eot r * daysPerSol) - t| ≤ L * daysPerSol * |r - t| := by
  have hd := dps_pos (K := K)
  have e : mtcToTt (ttToMtc t + eot t) - eot r * daysPerSol - t = (eot t - eot r) * daysPerSol := by
    have h := (C49_inverse t).1
    have : mtcToTt (ttToMtc t + eot t) = mtcToTt (ttToMtc t) + eot t * daysPerSol := by unfold mtcToTt; ring
    rw [this, h]; ring
  rw [e, abs_mul, abs_of_pos hd]
  have := mul_le_mul_of_nonneg_right (hL t r ht hr) hd.le
  rw [abs_sub_comm t r] at this
  linarith

end Verif.Props
