import Verif.Lemmas.RomanCal

/-! The mixed Julian/Gregorian calendar. -/

namespace Verif.Date

open Verif.Spec

theorem julian_4oct1582 : julian.dayNumber 4 10 1582 = 2299160 := by
  unfold Calendar.dayNumber; rw [julian_newYear]; decide

theorem gregorian_15oct1582 : gregorian.dayNumber 15 10 1582 = 2299161 := by
  unfold Calendar.dayNumber; rw [gregorian_newYear]; decide

theorem julian_exists_4oct : julian.Exists 4 10 1582 := ⟨by decide, by decide, 31, by decide, by decide⟩
theorem gregorian_exists_15oct : gregorian.Exists 15 10 1582 := ⟨by decide, by decide, 31, by decide, by decide⟩

/-- Julian dates of days up to the switch. -/
theorem julian_early {d m y : Int} (e : julian.Exists d m y) (h : julian.dayNumber d m y ≤ 2299160) :
    ¬ DateLt 4 10 1582 d m y := by
  intro hlt
  have := julian_wf.dayNumber_lt julian_exists_4oct e hlt
  rw [julian_4oct1582] at this
  omega

/-- Gregorian dates of days after the switch. -/
theorem gregorian_late {d m y : Int} (e : gregorian.Exists d m y)
    (h : 2299160 < gregorian.dayNumber d m y) : ¬ DateLt d m y 15 10 1582 := by
  intro hlt
  have := gregorian_wf.dayNumber_lt e gregorian_exists_15oct hlt
  rw [gregorian_15oct1582] at this
  omega

theorem dayToDmyReturns_of_calendarForJd {jd cal cal' : Int} {r : Dmy}
    (h : calendarForJd jd cal = cal') (h' : cal' ≠ JULIAN_GREGORIAN)
    (hr : dayToDmyReturns jd cal' r) : dayToDmyReturns jd cal r := by
  obtain ⟨n, hn⟩ := hr
  refine ⟨n, ?_⟩
  unfold dayToDmy at hn ⊢
  simp only [calendarForJd_of_ne h'] at hn
  simp only [h, hn]

theorem dmyToDay_of_calendarForDate {d m y cal cal' : Int} (h : calendarForDate d m y cal = cal')
    (h' : cal' ≠ JULIAN_GREGORIAN) : dmyToDay d m y cal = dmyToDay d m y cal' := by
  unfold dmyToDay
  rw [h, calendarForDate_of_ne h']

end Verif.Date
