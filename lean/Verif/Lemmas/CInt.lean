import Verif.Model.CInt

/-! Lemmas about the C arithmetic helpers. -/

namespace Verif

theorem cmod_eq (x y : Int) (hy : 0 < y) : cmod x y = x % y := by
  unfold cmod
  rw [Int.tmod_eq_emod]
  have h1 := Int.emod_nonneg x (by omega : y ≠ 0)
  have h2 := Int.emod_lt_of_pos x hy
  have h4 : (y.natAbs : Int) = y := by omega
  by_cases h3 : 0 ≤ x ∨ y ∣ x
  · simp [h3]
    omega
  · simp only [h3, if_false, h4]
    have : x % y - y < 0 := by omega
    simp [this]

theorem schar_eq (x : Int) (h : -128 ≤ x) (h' : x ≤ 127) : schar x = x := by
  unfold schar; omega

theorem s16_eq (x : Int) (h : -32768 ≤ x) (h' : x ≤ 32767) : s16 x = x := by
  unfold s16; omega

theorem s32_eq (x : Int) (h : -2147483648 ≤ x) (h' : x ≤ 2147483647) : s32 x = x := by
  unfold s32; omega

end Verif

namespace Verif

theorem tdiv_of_nonneg {a b : Int} (h : 0 ≤ a) : a.tdiv b = a / b := Int.tdiv_eq_ediv_of_nonneg h

theorem tdiv_of_nonpos {a b : Int} (h : a ≤ 0) : a.tdiv b = -((-a) / b) := by
  rw [← Int.tdiv_eq_ediv_of_nonneg (by omega : 0 ≤ -a), Int.neg_tdiv]; simp

theorem tmod_zero_iff {a b : Int} : a.tmod b = 0 ↔ a % b = 0 := by
  rw [← Int.dvd_iff_tmod_eq_zero, Int.dvd_iff_emod_eq_zero]

end Verif
