import Verif.Lemmas.Refine

/-! The Gregorian and Julian year data agree with the specification. -/

namespace Verif.Date

open Verif.Spec

theorem romanMonths_wf {l : Prop} [Decidable l] :
    (romanMonths l).length = 13 ∧ (∀ m ∈ romanMonths l, 0 ≤ m) ∧
      (romanMonths l).sum = if l then 366 else 365 := by
  unfold romanMonths
  by_cases h : l <;> simp [h]

theorem leapBool_greg (y : Int) :
    (decide (y.tmod 4 = 0) && (decide (y.tmod 100 ≠ 0) || decide (y.tmod 400 = 0) || false))
      = decide (gregorianLeap y) := by
  simp only [← Int.dvd_iff_tmod_eq_zero, gregorianLeap, ne_eq]
  by_cases h1 : (4 : Int) ∣ y <;> by_cases h2 : (100 : Int) ∣ y <;>
    by_cases h3 : (400 : Int) ∣ y <;> simp [h1, h2, h3]

theorem leapBool_jul (y : Int) :
    (decide (y.tmod 4 = 0) && (decide (y.tmod 100 ≠ 0) || decide (y.tmod 400 = 0) || true))
      = decide (julianLeap y) := by
  simp only [← Int.dvd_iff_tmod_eq_zero, julianLeap, ne_eq]
  simp

/-- Closed form of the Gregorian start of year. -/
theorem gregStart (y : Int) :
    julGregYearData y false = ⟨1721060 + 365 * y + (y + 3) / 4 - (y + 99) / 100 + (y + 399) / 400,
      romanMonths (gregorianLeap y)⟩ := by
  unfold julGregYearData
  simp only [leapBool_greg, romanMonths, decide_eq_true_eq]
  congr 1
  by_cases h : 0 ≤ y
  · by_cases hl : gregorianLeap y
    · simp only [ge_iff_le, h, hl, if_true, Bool.not_false]
      rw [tdiv_of_nonneg h, tdiv_of_nonneg h, tdiv_of_nonpos (by omega : -y ≤ 0)]
      unfold gregorianLeap at hl
      simp [JUL_GREG_CALENDAR_EPOCH]
      omega
    · simp only [ge_iff_le, h, hl, if_true, Bool.not_false]
      rw [tdiv_of_nonneg h, tdiv_of_nonneg h, tdiv_of_nonpos (by omega : -y ≤ 0)]
      unfold gregorianLeap at hl
      simp [JUL_GREG_CALENDAR_EPOCH]
      omega
  · by_cases hl : gregorianLeap y
    · simp only [ge_iff_le, h, hl, if_true, if_false, Bool.not_false]
      rw [tdiv_of_nonpos (by omega : y - 3 ≤ 0), tdiv_of_nonpos (by omega : y - 399 ≤ 0),
        tdiv_of_nonneg (by omega : 0 ≤ -(y - 99))]
      unfold gregorianLeap at hl
      simp [JUL_GREG_CALENDAR_EPOCH]
      omega
    · simp only [ge_iff_le, h, hl, if_true, if_false, Bool.not_false]
      rw [tdiv_of_nonpos (by omega : y - 3 ≤ 0), tdiv_of_nonpos (by omega : y - 399 ≤ 0),
        tdiv_of_nonneg (by omega : 0 ≤ -(y - 99))]
      unfold gregorianLeap at hl
      simp [JUL_GREG_CALENDAR_EPOCH]
      omega

/-- Closed form of the Julian start of year. -/
theorem julStart (y : Int) :
    julGregYearData y true = ⟨1721058 + 365 * y + (y + 3) / 4, romanMonths (julianLeap y)⟩ := by
  unfold julGregYearData
  simp only [leapBool_jul, romanMonths, decide_eq_true_eq]
  congr 1
  by_cases h : 0 ≤ y
  · by_cases hl : julianLeap y <;>
    · simp only [ge_iff_le, h, hl, if_true, Bool.not_true]
      rw [tdiv_of_nonneg h]
      unfold julianLeap at hl
      simp [JUL_GREG_CALENDAR_EPOCH]
      omega
  · by_cases hl : julianLeap y <;>
    · simp only [ge_iff_le, h, hl, if_true, if_false, Bool.not_true]
      rw [tdiv_of_nonpos (by omega : y - 3 ≤ 0)]
      unfold julianLeap at hl
      simp [JUL_GREG_CALENDAR_EPOCH]
      omega

theorem gregorian_newYear (y : Int) :
    gregorian.newYear y = 1721060 + 365 * y + (y + 3) / 4 - (y + 99) / 100 + (y + 399) / 400 := by
  refine (Calendar.newYear_unique gregorian
    (fun y => 1721060 + 365 * y + (y + 3) / 4 - (y + 99) / 100 + (y + 399) / 400) (by decide) ?_ y).symm
  intro y
  simp only [Calendar.yearLength, gregorian, romanMonths_wf.2.2]
  by_cases hl : gregorianLeap y <;> simp only [hl, if_true, if_false] <;>
    unfold gregorianLeap at hl <;> omega

theorem julian_newYear (y : Int) : julian.newYear y = 1721058 + 365 * y + (y + 3) / 4 := by
  refine (Calendar.newYear_unique julian
    (fun y => 1721058 + 365 * y + (y + 3) / 4) (by decide) ?_ y).symm
  intro y
  simp only [Calendar.yearLength, julian, romanMonths_wf.2.2]
  by_cases hl : julianLeap y <;> simp only [hl, if_true, if_false] <;>
    unfold julianLeap at hl <;> omega

theorem gregorian_wf : WF gregorian where
  len13 _ := romanMonths_wf.1
  nonneg _ := romanMonths_wf.2.1
  pos y := by
    simp only [Calendar.yearLength, gregorian, romanMonths_wf.2.2]; split <;> omega

theorem julian_wf : WF julian where
  len13 _ := romanMonths_wf.1
  nonneg _ := romanMonths_wf.2.1
  pos y := by
    simp only [Calendar.yearLength, julian, romanMonths_wf.2.2]; split <;> omega

theorem gregorian_refines : Refines GREGORIAN gregorian where
  toWF := gregorian_wf
  notJG := by decide
  data y := by
    have : getCalendarData y GREGORIAN = some (julGregYearData y false) := by
      simp [getCalendarData, GREGORIAN, JULIAN]
    rw [this, gregStart, gregorian_newYear]
    rfl

theorem julian_refines : Refines JULIAN julian where
  toWF := julian_wf
  notJG := by decide
  data y := by
    have : getCalendarData y JULIAN = some (julGregYearData y true) := by
      simp [getCalendarData, GREGORIAN, JULIAN]
    rw [this, julStart, julian_newYear]
    rfl

end Verif.Date
