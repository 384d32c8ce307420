import Verif.Model.Easter
import Verif.Spec.Computus
import Verif.Lemmas.RomanCal

/-! # Lemmas about Easter -/

namespace Verif.Easter

open Verif.Spec Verif.Date

theorem td {a b : Int} (h : 0 ≤ a) : a.tdiv b = a / b := Int.tdiv_eq_ediv_of_nonneg h
theorem tm {a b : Int} (h : 0 ≤ a) : a.tmod b = a % b := Int.tmod_eq_emod_of_nonneg h

/-- The Gregorian computation in terms of floor division, for years from 0 on. -/
theorem easterDate_eq {y : Int} (hy : 0 ≤ y) :
    ∃ a b h l m tval : Int, easterDate y = (tval / 31, tval % 31 + 1) ∧
      a = y % 19 ∧ b = y / 100 ∧
      h = (19 * a + b - b / 4 - (b - (b + 8) / 25 + 1) / 3 + 15) % 30 ∧
      l = (32 + 2 * (b % 4) + 2 * (y % 100 / 4) - h - y % 100 % 4) % 7 ∧
      m = (a + 11 * h + 22 * l) / 451 ∧ tval = h + l - 7 * m + 114 := by
  refine ⟨_, _, _, _, _, _, ?_, rfl, rfl, rfl, rfl, rfl, rfl⟩
  unfold easterDate
  simp only
  rw [tm hy, td hy, tm hy]
  have hb : 0 ≤ y / 100 := by omega
  rw [td hb, tm hb, td (show 0 ≤ y / 100 + 8 by omega),
    td (show 0 ≤ y / 100 - (y / 100 + 8) / 25 + 1 by omega),
    tm (show 0 ≤ 19 * (y % 19) + y / 100 - y / 100 / 4 - (y / 100 - (y / 100 + 8) / 25 + 1) / 3 + 15 by omega),
    td (show 0 ≤ y % 100 by omega), tm (show 0 ≤ y % 100 by omega)]
  generalize (19 * (y % 19) + y / 100 - y / 100 / 4 - (y / 100 - (y / 100 + 8) / 25 + 1) / 3 + 15) = hh
  rw [tm (show 0 ≤ 32 + y / 100 % 4 + y / 100 % 4 + y % 100 / 4 + y % 100 / 4 - hh % 30 - y % 100 % 4 by omega)]
  rw [show 32 + y / 100 % 4 + y / 100 % 4 + y % 100 / 4 + y % 100 / 4 - hh % 30 - y % 100 % 4 =
    32 + 2 * (y / 100 % 4) + 2 * (y % 100 / 4) - hh % 30 - y % 100 % 4 by omega]
  generalize hl : (32 + 2 * (y / 100 % 4) + 2 * (y % 100 / 4) - hh % 30 - y % 100 % 4) % 7 = l
  have : 0 ≤ l := by omega
  rw [td (show 0 ≤ y % 19 + 11 * (hh % 30) + 22 * l by omega)]
  have : (y % 19 + 11 * (hh % 30) + 22 * l) / 451 ≤ 1 := by omega
  rw [td (by omega), tm (by omega)]

/-- The `m` correction. -/
theorem m_eq {a h l : Int} (ha : 0 ≤ a ∧ a < 19) (hh : 0 ≤ h ∧ h < 30) (hl : 0 ≤ l ∧ l < 7) :
    (a + 11 * h + 22 * l) / 451 = if (h = 29 ∧ l = 6) ∨ (h = 28 ∧ l = 6 ∧ 10 < a) then 1 else 0 := by
  split <;> omega

theorem marchG {y : Int} (_hy : 0 ≤ y) (d : Int) :
    gregorian.dayNumber d 3 y = 1721119 + 365 * y + y / 4 - y / 100 + y / 400 + d ∧
    gregorian.dayNumber d 4 y = 1721119 + 365 * y + y / 4 - y / 100 + y / 400 + 31 + d := by
  have h := gregorian_newYear y
  have hm : gregorian.months y = romanMonths (gregorianLeap y) := rfl
  simp only [Calendar.dayNumber, h, hm, romanMonths]
  by_cases hl : gregorianLeap y <;> simp [hl] <;> unfold gregorianLeap at hl <;> omega

theorem marchJ {y : Int} (_hy : 0 ≤ y) (d : Int) :
    julian.dayNumber d 3 y = 1721117 + 365 * y + y / 4 + d ∧
    julian.dayNumber d 4 y = 1721117 + 365 * y + y / 4 + 31 + d := by
  have h := julian_newYear y
  have hm : julian.months y = romanMonths (julianLeap y) := rfl
  simp only [Calendar.dayNumber, h, hm, romanMonths]
  by_cases hl : julianLeap y <;> simp [hl] <;> unfold julianLeap at hl <;> omega

/-- The moon correction written two ways. -/
theorem g_eq (b : Int) : (b - (b + 8) / 25 + 1) / 3 = (8 * b + 13) / 25 := by
  have h : ∀ r : Fin 25, ((r.val : Int) - ((r.val : Int) + 8) / 25 + 1) / 3 = (8 * (r.val : Int) + 13) / 25 := by
    decide
  have h1 := h ⟨(b % 25).toNat, by omega⟩
  have h2 : (((b % 25).toNat : Nat) : Int) = b % 25 := by omega
  simp only [h2] at h1
  obtain ⟨q, r, hq, hr, hr'⟩ : ∃ q r, b = 25 * q + r ∧ 0 ≤ r ∧ r < 25 := ⟨b / 25, b % 25, by omega, by omega, by omega⟩
  have : b % 25 = r := by omega
  rw [this] at h1
  subst hq
  rw [show (25 * q + r + 8) / 25 = q + (r + 8) / 25 by omega,
    show (8 * (25 * q + r) + 13) / 25 = 8 * q + (8 * r + 13) / 25 by omega]
  omega

/-- Full moon in terms of the code's `h`. -/
theorem fullMoon_eq (y : Int) :
    gregorianFullMoon y =
      let h := (19 * (y % 19) + y / 100 - y / 100 / 4 - (y / 100 - (y / 100 + 8) / 25 + 1) / 3 + 15) % 30
      21 + (if h = 29 ∨ (h = 28 ∧ 10 < y % 19) then h - 1 else h) := by
  have key : ∀ h e a : Int, 0 ≤ h → h < 30 → 0 ≤ e → e < 30 → (h + e - 23) % 30 = 0 →
      (let n := 44 - (if (e = 25 ∧ a + 1 > 11) ∨ e = 24 then e + 1 else e); if n < 21 then n + 30 else n) =
      21 + (if h = 29 ∨ (h = 28 ∧ 10 < a) then h - 1 else h) := by
    intro h e a h1 h2 h3 h4 h5
    simp only
    repeat' split
    all_goals omega
  have hg := g_eq (y / 100)
  unfold gregorianFullMoon epact
  simp only
  apply key
  · omega
  · omega
  · omega
  · omega
  · rw [hg]
    rw [show (8 * (y / 100 + 1) + 5) = 8 * (y / 100) + 13 by omega,
      show 3 * (y / 100 + 1) / 4 = y / 100 - y / 100 / 4 by omega]
    clear hg key
    generalize (8 * (y / 100) + 13) / 25 = g
    generalize y / 100 / 4 = q
    generalize y / 100 = b
    generalize y % 19 = a
    omega

/-- Weekday bookkeeping: the Gregorian 1 March modulo 7. -/
theorem weekdayG (y : Int) : (365 * y + y / 4 - y / 100 + y / 400) % 7 =
    (5 * (y / 100 % 4) + 5 * (y % 100 / 4) + y % 100 % 4) % 7 := by
  obtain ⟨d, e, i, k, hy, he, he', hi, hi', hk, hk'⟩ : ∃ d e i k : Int, y = 400 * d + 100 * e + 4 * i + k ∧
      0 ≤ e ∧ e < 4 ∧ 0 ≤ i ∧ i < 25 ∧ 0 ≤ k ∧ k < 4 :=
    ⟨y / 400, y / 100 % 4, y % 100 / 4, y % 4, by omega, by omega, by omega, by omega, by omega, by omega, by omega⟩
  rw [show y / 4 = 100 * d + 25 * e + i by omega, show y / 100 = 4 * d + e by omega,
    show y / 400 = d by omega, show y % 100 = 4 * i + k by omega]
  rw [show (4 * d + e) % 4 = e by omega, show (4 * i + k) / 4 = i by omega, show (4 * i + k) % 4 = k by omega]
  subst hy
  omega

theorem dayNumber_tval {y t : Int} (hy : 0 ≤ y) (h1 : 114 ≤ t) (h2 : t ≤ 148) :
    gregorian.dayNumber (t % 31 + 1) (t / 31) y = gregorian.dayNumber (t - 92) 3 y ∧
    julian.dayNumber (t % 31 + 1) (t / 31) y = julian.dayNumber (t - 92) 3 y := by
  by_cases h : t < 124
  · rw [show t / 31 = 3 by omega, show t % 31 + 1 = t - 92 by omega]; exact ⟨rfl, rfl⟩
  · rw [show t / 31 = 4 by omega, (marchG hy _).1, (marchG hy _).2, (marchJ hy _).1, (marchJ hy _).2]
    omega

/-- The first-Sunday argument, separated from the calendar arithmetic. -/
theorem firstSunday {J a h l m t : Int} (hh : 0 ≤ h ∧ h < 30) (hl : 0 ≤ l ∧ l < 7)
    (hm : m = if (h = 29 ∧ l = 6) ∨ (h = 28 ∧ l = 6 ∧ 10 < a) then 1 else 0)
    (ht : t = h + l - 7 * m + 114) (hs : (J + 22 + h + l) % 7 = 6) :
    FirstSundayAfter (J + (21 + if h = 29 ∨ (h = 28 ∧ 10 < a) then h - 1 else h)) (J + (t - 92)) := by
  refine ⟨?_, ?_, ?_⟩
  · split at hm <;> split <;> omega
  · split at hm <;> omega
  · intro j' h1 h2
    split at hm <;> split at h1 <;> omega

end Verif.Easter
