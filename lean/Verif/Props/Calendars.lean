import Verif.Lemmas.Api
import Verif.Lemmas.JulGreg
import Verif.Lemmas.Hebrew
import Verif.Lemmas.TableCal

/-!
# Property theorems: calendar conversion (C01 - C14)

`dmyToDay d m y cal = some j` reads "`dmy_to_day( d, m, y, cal)` returns `j`";
`dayToDmyReturns j cal ⟨d, some m, y⟩` reads "`day_to_dmy( j, ..., cal)` returns, having stored
`d`, `m`, `y`".  `Spec.gregorian` etc. are defined in `Verif/Spec/Calendar.lean` without reference
to the code.
-/

namespace Verif.Props

open Verif.Date Verif.Spec

/-! ## C01 -/

/-- C01: every Gregorian day number converts to an existing date, which converts back. -/
theorem C01_gregorian_roundtrip (jd : Int) :
    ∃ d m y, dayToDmyReturns jd GREGORIAN ⟨d, some m, y⟩ ∧ gregorian.Exists d m y ∧
      dmyToDay d m y GREGORIAN = some jd := by
  obtain ⟨d, m, y, h1, h2, h3⟩ := gregorian_refines.roundtrip jd
  exact ⟨d, m, y, h1, h2, by rw [gregorian_refines.dmyToDay_exists h2, h3]⟩

/-- The conversion is a function: at most one result. -/
theorem C01_result_unique {jd cal : Int} {r r' : Dmy} (h : dayToDmyReturns jd cal r)
    (h' : dayToDmyReturns jd cal r') : r = r' := dayToDmyReturns_unique h h'

example : dayToDmyReturns 2451545 GREGORIAN ⟨1, some 1, 2000⟩ := ⟨3, by decide +kernel⟩
example : dayToDmyReturns (-1) GREGORIAN ⟨23, some 11, -4713⟩ := ⟨3, by decide +kernel⟩

/-! ## C02 -/

/-- C02: Gregorian day numbers are the count of days under the leap-year rule. -/
theorem C02_gregorian_daycount {d m y : Int} (e : gregorian.Exists d m y) :
    dmyToDay d m y GREGORIAN = some (gregorian.dayNumber d m y) :=
  gregorian_refines.dmyToDay_exists e

/-- The epoch: 1 January 2000 is day 2451545; and the year after a leap year starts 366 days later. -/
theorem C02_epoch : dmyToDay 1 1 2000 GREGORIAN = some 2451545 := by decide +kernel

theorem C02_year_length (y : Int) :
    ∃ a, dmyToDay 1 1 y GREGORIAN = some a ∧
      dmyToDay 1 1 (y + 1) GREGORIAN = some (a + if gregorianLeap y then 366 else 365) := by
  have h := gregorian_refines
  refine ⟨gregorian.newYear y, ?_, ?_⟩
  · rw [h.dmyToDay (by omega) (by omega)]; simp [Calendar.dayNumber]
  · rw [h.dmyToDay (by omega) (by omega)]
    have hy : gregorian.yearLength y = if gregorianLeap y then 366 else 365 := by
      by_cases hl : gregorianLeap y <;> simp [Calendar.yearLength, gregorian, romanMonths, hl]
    rw [← hy, ← gregorian.newYear_succ]
    simp [Calendar.dayNumber]

example : gregorian.Exists 29 2 (-400) := ⟨by decide, by decide, 29, by decide, by decide⟩
example : ¬ gregorian.Exists 29 2 1900 := by
  rintro ⟨_, _, len, h, h'⟩
  have : (gregorian.months 1900)[((2 : Int) - 1).toNat]? = some 28 := by decide
  rw [this] at h; cases h; omega

/-! ## C03 -/

/-- C03: Julian calendar, day number to date and back. -/
theorem C03_julian_roundtrip (jd : Int) :
    ∃ d m y, dayToDmyReturns jd JULIAN ⟨d, some m, y⟩ ∧ julian.Exists d m y ∧
      dmyToDay d m y JULIAN = some jd := by
  obtain ⟨d, m, y, h1, h2, h3⟩ := julian_refines.roundtrip jd
  exact ⟨d, m, y, h1, h2, by rw [julian_refines.dmyToDay_exists h2, h3]⟩

/-- C03: Julian day numbers are the count of days. -/
theorem C03_julian_daycount {d m y : Int} (e : julian.Exists d m y) :
    dmyToDay d m y JULIAN = some (julian.dayNumber d m y) :=
  julian_refines.dmyToDay_exists e

/-- The defining epoch of Julian days: 1 January 4713 BC (year -4712) Julian is day 0. -/
theorem C03_epoch : dmyToDay 1 1 (-4712) JULIAN = some 0 := by decide +kernel

example : julian.Exists 29 2 1900 := ⟨by decide, by decide, 29, by decide, by decide⟩
example : dayToDmyReturns 0 JULIAN ⟨1, some 1, -4712⟩ := ⟨3, by decide +kernel⟩

/-! ## C04 -/

/-- C04: every existing Gregorian date survives the round trip. -/
theorem C04_gregorian_date_roundtrip {d m y : Int} (e : gregorian.Exists d m y) :
    ∃ j, dmyToDay d m y GREGORIAN = some j ∧ dayToDmyReturns j GREGORIAN ⟨d, some m, y⟩ :=
  ⟨_, gregorian_refines.dmyToDay_exists e, gregorian_refines.dateRoundtrip e⟩

/-- C04: the same for Julian dates. -/
theorem C04_julian_date_roundtrip {d m y : Int} (e : julian.Exists d m y) :
    ∃ j, dmyToDay d m y JULIAN = some j ∧ dayToDmyReturns j JULIAN ⟨d, some m, y⟩ :=
  ⟨_, julian_refines.dmyToDay_exists e, julian_refines.dateRoundtrip e⟩

/-- C04: no two existing dates share a day number. -/
theorem C04_gregorian_injective {d m y d' m' y' : Int} (e : gregorian.Exists d m y)
    (e' : gregorian.Exists d' m' y')
    (h : dmyToDay d m y GREGORIAN = dmyToDay d' m' y' GREGORIAN) : d = d' ∧ m = m' ∧ y = y' := by
  rw [C02_gregorian_daycount e, C02_gregorian_daycount e'] at h
  exact gregorian_wf.dayNumber_inj e e' (Option.some.inj h)

theorem C04_julian_injective {d m y d' m' y' : Int} (e : julian.Exists d m y)
    (e' : julian.Exists d' m' y')
    (h : dmyToDay d m y JULIAN = dmyToDay d' m' y' JULIAN) : d = d' ∧ m = m' ∧ y = y' := by
  rw [C03_julian_daycount e, C03_julian_daycount e'] at h
  exact julian_wf.dayNumber_inj e e' (Option.some.inj h)

example : gregorian.Exists 31 12 (-1) ∧ gregorian.Exists 1 1 0 :=
  ⟨⟨by decide, by decide, 31, by decide, by decide⟩, ⟨by decide, by decide, 31, by decide, by decide⟩⟩

/-! ## C05 -/

/-- C05: the mixed calendar gives each day a date that converts back; days up to JD 2299160 have
    Julian dates not after 4 October 1582, later ones Gregorian dates not before 15 October 1582. -/
theorem C05_mixed_roundtrip (jd : Int) :
    ∃ d m y, dayToDmyReturns jd JULIAN_GREGORIAN ⟨d, some m, y⟩ ∧
      dmyToDay d m y JULIAN_GREGORIAN = some jd ∧
      (jd ≤ 2299160 → julian.Exists d m y ∧ julian.dayNumber d m y = jd ∧ ¬ DateLt 4 10 1582 d m y) ∧
      (2299160 < jd → gregorian.Exists d m y ∧ gregorian.dayNumber d m y = jd ∧
        ¬ DateLt d m y 15 10 1582) := by
  by_cases h : jd ≤ 2299160
  · obtain ⟨d, m, y, h1, h2, h3⟩ := julian_refines.roundtrip jd
    have hj : calendarForJd jd JULIAN_GREGORIAN = JULIAN := by
      unfold calendarForJd GREGORIAN_SWITCHOVER_JD; simp; omega
    have he := julian_early h2 (by omega)
    have hd : calendarForDate d m y JULIAN_GREGORIAN = JULIAN := by
      unfold calendarForDate
      rw [if_pos rfl, if_neg]
      unfold DateLt at he; omega
    refine ⟨d, m, y, dayToDmyReturns_of_calendarForJd hj (by decide) h1, ?_, fun _ => ⟨h2, h3, he⟩, by omega⟩
    rw [dmyToDay_of_calendarForDate hd (by decide), julian_refines.dmyToDay_exists h2, h3]
  · obtain ⟨d, m, y, h1, h2, h3⟩ := gregorian_refines.roundtrip jd
    have hj : calendarForJd jd JULIAN_GREGORIAN = GREGORIAN := by
      unfold calendarForJd GREGORIAN_SWITCHOVER_JD; simp; omega
    have he := gregorian_late h2 (by omega)
    have hd : calendarForDate d m y JULIAN_GREGORIAN = GREGORIAN := by
      unfold calendarForDate
      rw [if_pos rfl, if_pos]
      unfold DateLt at he; omega
    refine ⟨d, m, y, dayToDmyReturns_of_calendarForJd hj (by decide) h1, ?_, by omega, fun _ => ⟨h2, h3, he⟩⟩
    rw [dmyToDay_of_calendarForDate hd (by decide), gregorian_refines.dmyToDay_exists h2, h3]

/-- C05: 5 ... 14 October 1582 are never produced. -/
theorem C05_skipped_dates (jd d : Int) (h1 : 5 ≤ d) (h2 : d ≤ 14) :
    ¬ dayToDmyReturns jd JULIAN_GREGORIAN ⟨d, some 10, 1582⟩ := by
  intro h
  obtain ⟨d', m', y', hr, _, hj, hg⟩ := C05_mixed_roundtrip jd
  have e := dayToDmyReturns_unique h hr
  simp only [Dmy.mk.injEq, Option.some.injEq] at e
  obtain ⟨rfl, rfl, rfl⟩ := e
  by_cases hc : jd ≤ 2299160
  · have := (hj hc).2.2; unfold DateLt at this; omega
  · have := (hg (by omega)).2.2; unfold DateLt at this; omega

/-- C05: 4 October 1582 is followed by 15 October 1582. -/
theorem C05_switch : dayToDmyReturns 2299160 JULIAN_GREGORIAN ⟨4, some 10, 1582⟩ ∧
    dayToDmyReturns 2299161 JULIAN_GREGORIAN ⟨15, some 10, 1582⟩ :=
  ⟨⟨3, by decide +kernel⟩, ⟨3, by decide +kernel⟩⟩

/-- What the code does with the skipped dates when given them anyway: 5 October is taken as Julian
    (the same day as the 15th), 6 to 14 October as Gregorian, before the switch. -/
theorem C05_skipped_inputs (d : Int) (h1 : 5 ≤ d) (h2 : d ≤ 14) :
    dmyToDay d 10 1582 JULIAN_GREGORIAN =
      some (if d = 5 then 2299161 else 2299146 + d) := by
  have : d = 5 ∨ d = 6 ∨ d = 7 ∨ d = 8 ∨ d = 9 ∨ d = 10 ∨ d = 11 ∨ d = 12 ∨ d = 13 ∨ d = 14 := by omega
  rcases this with h | h | h | h | h | h | h | h | h | h <;> subst h <;> decide +kernel

/-! ## C06 -/

/-- C06: Islamic calendar, day number to date and back. -/
theorem C06_islamic_roundtrip (jd : Int) :
    ∃ d m y, dayToDmyReturns jd ISLAMIC ⟨d, some m, y⟩ ∧ islamic.Exists d m y ∧
      dmyToDay d m y ISLAMIC = some jd := by
  obtain ⟨d, m, y, h1, h2, h3⟩ := islamic_refines.roundtrip jd
  exact ⟨d, m, y, h1, h2, by rw [islamic_refines.dmyToDay_exists h2, h3]⟩

/-- C06: day numbers are the day count of the tabular calendar, and dates survive. -/
theorem C06_islamic_daycount {d m y : Int} (e : islamic.Exists d m y) :
    dmyToDay d m y ISLAMIC = some (islamic.dayNumber d m y) ∧
      dayToDmyReturns (islamic.dayNumber d m y) ISLAMIC ⟨d, some m, y⟩ :=
  ⟨islamic_refines.dmyToDay_exists e, islamic_refines.dateRoundtrip e⟩

/-- C06: exactly 11 long years among any 30 consecutive ones. -/
theorem C06_eleven_in_thirty (y : Int) :
    ((List.range 30).filter (fun (i : Nat) => decide (islamicLeap (y + i)))).length = 11 := by
  have h : ∀ r : Fin 30, ((List.range 30).filter
      (fun (i : Nat) => decide (islamicLeap ((r.val : Int) + i)))).length = 11 := by decide +kernel
  have e : ∀ i : Nat, islamicLeap (y + i) ↔ islamicLeap (((y % 30).toNat : Nat) + (i : Int)) := by
    intro i
    unfold islamicLeap
    rw [show (y + (i : Int)) % 30 = ((((y % 30).toNat : Nat) : Int) + i) % 30 by omega]
  have := h ⟨(y % 30).toNat, by omega⟩
  simp only [e]
  exact this

example : islamic.Exists 30 12 1445 := ⟨by decide, by decide, 30, by decide, by decide⟩
/-- 1 Muharram 1 is 16 July 622 (Julian). -/
example : dmyToDay 1 1 1 ISLAMIC = dmyToDay 16 7 622 JULIAN := by decide +kernel

/-! ## C07 -/

/-- The month table the code uses for a Hebrew year. -/
def hebrewMonths (y : Int) : List Int := (hebrewYearData y).months

/-- C07: every day number converts to a Hebrew date admitted by `days_in_month`, which converts
    back.  (No exceptions.) -/
theorem C07_hebrew_roundtrip (jd : Int) :
    ∃ d m y, dayToDmyReturns jd HEBREW ⟨d, some m, y⟩ ∧ ApiDate HEBREW d m y ∧
      dmyToDay d m y HEBREW = some jd := by
  obtain ⟨fuel, y, hs, h1, h2⟩ := hebrew_coversAll.search jd (approxYear jd HEBREW)
  obtain ⟨d, m, len, e1, e2, e3, e4, e5, e6⟩ := finish_found (y := y) (hebrew_months_nonneg y) h1 h2
  have hm : m ≤ 13 := by
    obtain ⟨h, _⟩ := List.getElem?_eq_some_iff.1 e4
    have : (hebrewYearData y).months.length = 13 := rfl
    omega
  have hcal : HEBREW ≠ JULIAN_GREGORIAN := by decide
  refine ⟨d, m, y, ⟨fuel, ?_⟩, ⟨e2, hm, e3, len, ?_, e5⟩, ?_⟩
  · unfold dayToDmy
    simp only [calendarForJd_of_ne hcal]
    rw [hs]
    simp [e1]
  · unfold daysInMonth dmyToDay
    rw [calendarForDate_of_ne hcal, hebrew_coversAll.data_eq]
    simp only [e2, hm, and_self, if_true, e4]
  · unfold dmyToDay
    rw [calendarForDate_of_ne hcal, hebrew_coversAll.data_eq]
    have a : d ≠ -999 := by omega
    have b : m ≤ 14 := by omega
    simp only [a, b, if_true, if_false, e6]

/-- Day number of Hebrew New Year as computed by the library. -/
theorem C07_newYear (y : Int) : dmyToDay 1 1 y HEBREW = some (hebrewNewYear y) := by
  unfold dmyToDay
  rw [calendarForDate_of_ne (by decide), hebrew_coversAll.data_eq]
  simp [hebrewYearData]

/-- C07: New Year never falls on Sunday, Wednesday or Friday (day number modulo 7: Monday 0, ...,
    Sunday 6). -/
theorem C07_hebrew_weekday (y j : Int) (h : dmyToDay 1 1 y HEBREW = some j) :
    j % 7 ≠ 6 ∧ j % 7 ≠ 2 ∧ j % 7 ≠ 4 := by
  rw [C07_newYear] at h
  cases h
  rw [hebrewNewYear_eq]
  have := hebPost_weekday (hebrewMolad y / 25920) (hebrewMolad y % 25920) (isHebrewLeapYear (y - 1))
    (isHebrewLeapYear y)
  simp only [List.mem_cons, List.not_mem_nil, or_false] at this
  unfold HEBREW_CALENDAR_EPOCH
  omega

/-- C07: New Year agrees with the traditional rules in years -3839 ... 75794. -/
theorem C07_hebrew_traditional (y : Int) (h1 : -3839 ≤ y) (h2 : y ≤ 75794) :
    dmyToDay 1 1 y HEBREW = some (hebrewNewYearDay y + 347996) := by
  rw [C07_newYear, hebrewNewYear_spec y (molad_not_noon y h1 h2)]
  rfl

/-- The day after that range the code departs from the traditional rules: the molad of Tishri 75795
    is exactly at 18 hours, and the code tests `>` where the rule says "at or after". -/
theorem C07_hebrew_traditional_fails :
    dmyToDay 1 1 75795 HEBREW ≠ some (hebrewNewYearDay 75795 + 347996) := by decide +kernel

/-- Years after which the month table overlaps the next year. -/
def hebrewIrregular (y : Int) : Prop := y % 689472 ∈ [193151, 383856, 574561]

/-- C07 (partial: irregular years excluded, see `C07_hebrew_overlap`): year lengths are 353-355 or, in
    leap years, 383-385, and the months add up to the distance to the next New Year. -/
theorem C07_hebrew_lengths_partial (y : Int) (h : ¬ hebrewIrregular y) :
    ∃ a len, dmyToDay 1 1 y HEBREW = some a ∧ dmyToDay 1 1 (y + 1) HEBREW = some (a + len) ∧
      (if hebrewLeap y then len = 383 ∨ len = 384 ∨ len = 385
       else len = 353 ∨ len = 354 ∨ len = 355) ∧ (hebrewMonths y).sum = len := by
  refine ⟨hebrewNewYear y, hebrewNewYear (y + 1) - hebrewNewYear y, C07_newYear y, ?_, ?_, ?_⟩
  · rw [C07_newYear]; congr 1; omega
  · have hl := hebrew_length y
    by_cases hy : hebrewLeap y
    · rw [if_pos hy]; exact hl.1 ((leap_iff y).2 hy)
    · rw [if_neg hy]
      have hf : isHebrewLeapYear y = false := by
        have := mt (leap_iff y).1 hy; simpa using this
      rcases hl.2 hf with h' | h' | h' | ⟨_, h'⟩
      · exact Or.inl h'
      · exact Or.inr (Or.inl h')
      · exact Or.inr (Or.inr h')
      · exact absurd ((irregular_iff y).1 ⟨h', hf⟩) h
  · unfold hebrewMonths
    rw [hebrew_months_sum]
    exact if_neg h

/-- C07: in every irregular year the next New Year comes after 352 days although the months add up to
    354, so the last two days of the year and the first two of the next have the same numbers: the
    stated property is false for the code. -/
theorem C07_hebrew_overlap (y : Int) (h : hebrewIrregular y) :
    ApiDate HEBREW 28 13 y ∧ ApiDate HEBREW 1 1 (y + 1) ∧
      dmyToDay 28 13 y HEBREW = dmyToDay 1 1 (y + 1) HEBREW := by
  have hl := irregular_length y h
  have hm := hebrew_months_sum y
  rw [if_pos (show y % 689472 ∈ [193151, 383856, 574561] from h)] at hm
  have hcal : HEBREW ≠ JULIAN_GREGORIAN := by decide
  refine ⟨⟨by omega, by omega, by omega, 29, ?_, by omega⟩, ⟨by omega, by omega, by omega, 30, ?_, by omega⟩, ?_⟩
  · unfold daysInMonth dmyToDay
    rw [calendarForDate_of_ne hcal, hebrew_coversAll.data_eq]
    simp [hebrewYearData]
  · unfold daysInMonth dmyToDay
    rw [calendarForDate_of_ne hcal, hebrew_coversAll.data_eq]
    simp [hebrewYearData]
  · rw [C07_newYear]
    unfold dmyToDay
    rw [calendarForDate_of_ne hcal, hebrew_coversAll.data_eq]
    simp only [show (28 : Int) ≠ -999 by omega, show (13 : Int) ≤ 14 by omega, if_true, if_false]
    have : ((hebrewYearData y).months.take ((13 : Int) - 1).toNat).sum = 354 - 29 := by
      have hs : (hebrewYearData y).months = (hebrewYearData y).months.take 12 ++ [29] := rfl
      rw [hs, List.sum_append] at hm
      have : ((13 : Int) - 1).toNat = 12 := by decide
      rw [this]
      simp at hm ⊢
      omega
    rw [this]
    have : (hebrewYearData y).start = hebrewNewYear y := rfl
    rw [this]
    congr 1
    omega

/-- C07 is violated: two different admitted dates with one day number. -/
theorem C07_hebrew_not_injective : ∃ d m y d' m' y', ApiDate HEBREW d m y ∧ ApiDate HEBREW d' m' y' ∧
    (d, m, y) ≠ (d', m', y') ∧ dmyToDay d m y HEBREW = dmyToDay d' m' y' HEBREW := by
  have h := C07_hebrew_overlap 193151 (by unfold hebrewIrregular; decide)
  exact ⟨28, 13, 193151, 1, 1, 193152, h.1, h.2.1, by decide, h.2.2⟩

example : ¬ hebrewIrregular 5786 := by unfold hebrewIrregular; decide
/-- 1 Tishri 5786 is 23 September 2025. -/
example : dmyToDay 1 1 5786 HEBREW = dmyToDay 23 9 2025 GREGORIAN := by decide +kernel

/-! ## C08 -/

/-- C08: the French Revolutionary calendar has twelve 30-day months and 5 or 6 extra days, day
    numbers count days without gaps, and conversion is inverse both ways. -/
theorem C08_french : ∃ c : Calendar,
    (∀ y, c.months y = List.replicate 12 30 ++ [5] ∨ c.months y = List.replicate 12 30 ++ [6]) ∧
    c.newYear 1 = 2375840 ∧
    (∀ d m y, c.Exists d m y → dmyToDay d m y REVOLUTIONARY = some (c.dayNumber d m y) ∧
      dayToDmyReturns (c.dayNumber d m y) REVOLUTIONARY ⟨d, some m, y⟩) ∧
    (∀ jd, ∃ d m y, dayToDmyReturns jd REVOLUTIONARY ⟨d, some m, y⟩ ∧ c.Exists d m y ∧
      dmyToDay d m y REVOLUTIONARY = some jd) := by
  refine ⟨french, french_months, by rw [french_newYear]; decide, ?_, ?_⟩
  · intro d m y e
    exact ⟨french_refines.dmyToDay_exists e, french_refines.dateRoundtrip e⟩
  · intro jd
    obtain ⟨d, m, y, h1, h2, h3⟩ := french_refines.roundtrip jd
    exact ⟨d, m, y, h1, h2, by rw [french_refines.dmyToDay_exists h2, h3]⟩

/-- 1 Vendemiaire I is 22 September 1792. -/
example : dmyToDay 1 1 1 REVOLUTIONARY = dmyToDay 22 9 1792 GREGORIAN := by decide +kernel
/-- The historical leap years III, VII, XI. -/
example : (List.range 14).map (fun (i : Nat) => daysInMonth 13 ((i : Int) + 1) REVOLUTIONARY) =
    [5, 5, 6, 5, 5, 5, 6, 5, 5, 5, 6, 5, 5, 5].map some := by decide +kernel

/-! ## C09 -/

/-- C09 (partial: the last supported year, 2327, is excluded; see `C09_persian_last_year`): month
    lengths in the supported range. -/
theorem C09_persian_months_partial (y : Int) (h1 : -1096 ≤ y) (h2 : y ≤ 2326) :
    ∃ last, (last = 29 ∨ last = 30) ∧
      (∀ m, 1 ≤ m → m ≤ 13 → daysInMonth m y PERSIAN =
        (List.replicate 6 31 ++ List.replicate 5 30 ++ [last, 0])[(m - 1).toNat]?) ∧
      ∃ a, dmyToDay 1 1 y PERSIAN = some a ∧ dmyToDay 1 1 (y + 1) PERSIAN = some (a + 336 + last) := by
  have hcal : PERSIAN ≠ JULIAN_GREGORIAN := by decide
  have hd := persian_chain.data_eq
  have hn := persian_next y h1 h2
  have key : ∀ last, (persianF y).months = List.replicate 6 31 ++ List.replicate 5 30 ++ [last, 0] →
      (∀ m, 1 ≤ m → m ≤ 13 → daysInMonth m y PERSIAN =
        (List.replicate 6 31 ++ List.replicate 5 30 ++ [last, 0])[(m - 1).toNat]?) ∧
      ∃ a, dmyToDay 1 1 y PERSIAN = some a ∧ dmyToDay 1 1 (y + 1) PERSIAN = some (a + 336 + last) := by
    intro last e
    refine ⟨?_, (persianF y).start, ?_, ?_⟩
    · intro m hm hm'
      unfold daysInMonth dmyToDay
      rw [calendarForDate_of_ne hcal, hd y h1 (by omega)]
      simp only [hm, hm', e, and_self, if_true]
    · unfold dmyToDay
      rw [calendarForDate_of_ne hcal, hd y h1 (by omega)]
      simp
    · unfold dmyToDay
      rw [calendarForDate_of_ne hcal, hd (y + 1) (by omega) (by omega)]
      simp [← hn, YearData.stop, e, List.replicate]
      omega
  rcases persian_months y h1 h2 with e | e
  · exact ⟨29, Or.inl rfl, key 29 e⟩
  · exact ⟨30, Or.inr rfl, key 30 e⟩

/-- C09: outside the range `dmy_to_day` returns 0. -/
theorem C09_persian_out_of_range (d m y : Int) (h : y < -1096 ∨ 2327 < y) :
    dmyToDay d m y PERSIAN = some 0 := by
  unfold dmyToDay
  rw [calendarForDate_of_ne (by decide)]
  have : getCalendarData y PERSIAN = none := by
    rcases h with h | h
    · exact persian_chain.below y h
    · exact persian_chain.above y h
  rw [this]

/-- C09: `day_to_dmy` on the days of the supported range (JD 1547650 ... 2798238) gives an admitted
    date that converts back, with days of the last month not above 30. -/
theorem C09_persian_day_roundtrip (jd : Int) (h1 : 1547650 ≤ jd) (h2 : jd ≤ 2798238) :
    ∃ d m y, dayToDmyReturns jd PERSIAN ⟨d, some m, y⟩ ∧ ApiDate PERSIAN d m y ∧
      (m ≤ 6 → d ≤ 31) ∧ (6 < m → d ≤ 30) ∧ m ≤ 12 ∧ dmyToDay d m y PERSIAN = some jd := by
  have hcal : PERSIAN ≠ JULIAN_GREGORIAN := by decide
  have hs0 : (persianF (-1096)).start = 1547650 := by decide +kernel
  have hs1 : (persianF 2327).stop = 2798336 := by decide +kernel
  have hs2 : (persianF 2327).start = 2797874 := by decide +kernel
  have hg1 : -1096 ≤ approxYear jd PERSIAN := by
    have a := approxYear_mono PERSIAN h1
    have b : approxYear 1547650 PERSIAN = -1096 := by decide +kernel
    omega
  have hg2 : approxYear jd PERSIAN ≤ 2327 := by
    have a := approxYear_mono PERSIAN h2
    have b : approxYear 2798238 PERSIAN = 2327 := by decide +kernel
    omega
  rcases persian_chain.locate (by omega) (jd := jd) (by omega) (by omega) with ⟨Y, a1, a2, a3, a4⟩ | ⟨Y, a1, a2, a3, a4⟩
  · obtain ⟨fuel, hf⟩ := persian_chain.search_in a1 a2 a3 a4 hg1 hg2
    obtain ⟨d, m, len, e1, e2, e3, e4, e5, e6⟩ := finish_found (y := Y) (persian_months_nonneg Y a1 a2) a3 a4
    have hlen : (persianF Y).months.length = 13 := by
      by_cases hY : Y = 2327
      · subst hY; rw [persian_last]; rfl
      · rcases persian_months Y a1 (by omega) with e | e <;> rw [e] <;> rfl
    have hm13 : m ≤ 13 := by
      obtain ⟨h, _⟩ := List.getElem?_eq_some_iff.1 e4
      omega
    -- lengths month by month
    have hlast : m ≤ 12 ∧ (m ≤ 6 → d ≤ 31) ∧ (6 < m → d ≤ 30) := by
      have hmc : m = 1 ∨ m = 2 ∨ m = 3 ∨ m = 4 ∨ m = 5 ∨ m = 6 ∨ m = 7 ∨ m = 8 ∨ m = 9 ∨ m = 10 ∨ m = 11 ∨
        m = 12 ∨ m = 13 := by omega
      by_cases hY : Y = 2327
      · subst hY
        rw [persian_last] at e4 e6
        simp only at e6
        rcases hmc with h | h | h | h | h | h | h | h | h | h | h | h | h <;> subst h <;>
          simp [List.replicate] at e4 e6 <;> omega
      · rcases persian_months Y a1 (by omega) with e | e <;> rw [e] at e4 <;>
          rcases hmc with h | h | h | h | h | h | h | h | h | h | h | h | h <;> subst h <;>
          simp [List.replicate] at e4 <;> omega
    refine ⟨d, m, Y, ⟨fuel, ?_⟩, ⟨e2, hm13, e3, len, ?_, e5⟩, hlast.2.1, hlast.2.2, hlast.1, ?_⟩
    · unfold dayToDmy
      simp only [calendarForJd_of_ne hcal]
      rw [hf]
      simp [e1]
    · unfold daysInMonth dmyToDay
      rw [calendarForDate_of_ne hcal, persian_chain.data_eq Y a1 a2]
      simp only [e2, hm13, and_self, if_true, e4]
    · unfold dmyToDay
      rw [calendarForDate_of_ne hcal, persian_chain.data_eq Y a1 a2]
      have a : d ≠ -999 := by omega
      have b : m ≤ 14 := by omega
      simp only [a, b, if_true, if_false, e6]
  · exfalso
    have := persian_next Y a1 (by omega)
    omega

/-- C09: on all other days `day_to_dmy` reports an error: day -1. -/
theorem C09_persian_day_error (jd : Int) (h : jd < 1547650 ∨ 2798238 < jd) :
    ∃ y, dayToDmyReturns jd PERSIAN ⟨-1, none, y⟩ := by
  have hcal : PERSIAN ≠ JULIAN_GREGORIAN := by decide
  have key : ∃ fuel y, searchYear (fun y => getCalendarData y PERSIAN) jd fuel (approxYear jd PERSIAN) =
      some (.failed y) := by
    rcases h with h | h
    · have hs0 : (persianF (-1096)).start = 1547650 := by decide +kernel
      have hg : approxYear jd PERSIAN ≤ 2327 := by
        have a := approxYear_mono PERSIAN (show jd ≤ 1547650 by omega)
        have b : approxYear 1547650 PERSIAN = -1096 := by decide +kernel
        omega
      exact persian_chain.search_below (by omega) hg
    · have hg : 2328 ≤ approxYear jd PERSIAN := by
        have a := approxYear_mono PERSIAN (show 2798239 ≤ jd by omega)
        have b : approxYear 2798239 PERSIAN = 2328 := by decide +kernel
        omega
      have hf : getCalendarData (approxYear jd PERSIAN) PERSIAN = none :=
        persian_chain.above _ (by omega)
      exact ⟨1, approxYear jd PERSIAN, by simp only [searchYear, searchStep, hf]⟩
  obtain ⟨fuel, y, hf⟩ := key
  refine ⟨y, fuel, ?_⟩
  unfold dayToDmy
  simp only [calendarForJd_of_ne hcal]
  rw [hf]
  rfl

/-- C09 is violated in the last supported year: its twelfth month is given 126 days, because
    `jalali_jd0( 2328)` is the error value -1. -/
theorem C09_persian_last_year : daysInMonth 12 2327 PERSIAN = some 126 := by decide +kernel

/-- The same bug lets dates convert to day numbers that are outside the range. -/
theorem C09_persian_bogus_date : ApiDate PERSIAN 126 12 2327 ∧
    dmyToDay 126 12 2327 PERSIAN = some 2798335 ∧ dayToDmyReturns 2798335 PERSIAN ⟨-1, none, 2328⟩ :=
  ⟨⟨by decide, by decide, by decide, 126, by decide +kernel, by decide⟩, by decide +kernel,
    ⟨3, by decide +kernel⟩⟩

/-- Nowruz 1404 is 21 March 2025. -/
example : dmyToDay 1 1 1404 PERSIAN = dmyToDay 21 3 2025 GREGORIAN := by decide +kernel

/-! ## C10 -/

/-- C10: modern Persian calendar, day number to date and back. -/
theorem C10_modern_persian_roundtrip (jd : Int) :
    ∃ d m y, dayToDmyReturns jd MODERN_PERSIAN ⟨d, some m, y⟩ ∧ persian.Exists d m y ∧
      dmyToDay d m y MODERN_PERSIAN = some jd := by
  obtain ⟨d, m, y, h1, h2, h3⟩ := persian_refines.roundtrip jd
  exact ⟨d, m, y, h1, h2, by rw [persian_refines.dmyToDay_exists h2, h3]⟩

/-- C10: dates survive, and day numbers are the day count under the 2820-year leap rule. -/
theorem C10_modern_persian_daycount {d m y : Int} (e : persian.Exists d m y) :
    dmyToDay d m y MODERN_PERSIAN = some (persian.dayNumber d m y) ∧
      dayToDmyReturns (persian.dayNumber d m y) MODERN_PERSIAN ⟨d, some m, y⟩ :=
  ⟨persian_refines.dmyToDay_exists e, persian_refines.dateRoundtrip e⟩

/-- C10: 2820 years contain 1029983 days. -/
theorem C10_cycle (y : Int) : ∃ a, dmyToDay 1 1 y MODERN_PERSIAN = some a ∧
    dmyToDay 1 1 (y + 2820) MODERN_PERSIAN = some (a + 1029983) := by
  refine ⟨persian.newYear y, ?_, ?_⟩
  · rw [persian_refines.dmyToDay (by omega) (by omega)]; simp [Calendar.dayNumber]
  · rw [persian_refines.dmyToDay (by omega) (by omega)]
    simp only [Calendar.dayNumber, persian_newYear, persianJd0]
    rw [show (y + 2820 - 474) % 2820 = (y - 474) % 2820 by omega,
      show (y + 2820 - 474) / 2820 = (y - 474) / 2820 + 1 by omega]
    simp
    omega

example : persian.Exists 30 12 1404 := ⟨by decide, by decide, 30, by decide, by decide⟩
/-- Known difference from the astronomical calendar: the 2820-year rule makes 1404, not 1403, long. -/
example : dmyToDay 1 1 1404 MODERN_PERSIAN = dmyToDay 20 3 2025 GREGORIAN := by decide +kernel

/-! ## C11 -/

/-- C11: shape of every year in the Chinese table: twelve months of 29 or 30 days, and a thirteenth of
    29 or 30 days exactly if an intercalary month is announced. -/
theorem C11_chinese_months (y : Int) (h1 : -363 ≤ y) (h2 : y ≤ 9636) :
    (∀ m, 1 ≤ m → m ≤ 12 → daysInMonth m y CHINESE = some 29 ∨ daysInMonth m y CHINESE = some 30) ∧
    (∀ old, intercalaryAfter old y CHINESE = 0 → daysInMonth 13 y CHINESE = some 0) ∧
    (∀ old, intercalaryAfter old y CHINESE ≠ 0 →
      daysInMonth 13 y CHINESE = some 29 ∨ daysInMonth 13 y CHINESE = some 30) := by
  have hcal : CHINESE ≠ JULIAN_GREGORIAN := by decide
  have hdim : ∀ m, 1 ≤ m → m ≤ 13 → daysInMonth m y CHINESE = (chineseF y).months[(m - 1).toNat]? := by
    intro m hm hm'
    unfold daysInMonth dmyToDay
    rw [calendarForDate_of_ne hcal, chinese_chain.data_eq y h1 h2]
    simp [hm, hm']
  have hcm : ∀ p i, chineseMonth p i = 29 ∨ chineseMonth p i = 30 := by
    intro p i; unfold chineseMonth; split
    · exact Or.inr rfl
    · exact Or.inl rfl
  have hic : ∀ old, intercalaryAfter old y CHINESE =
      chineseIntercalary (chinesePacked (y - chineseYear0).toNat) := by
    intro old
    unfold intercalaryAfter chineseYearData
    rw [if_pos rfl, chinese_dims.1, chinese_dims.2]
    simp only
    rw [if_neg (by omega)]
  have h13 : (chineseF y).months[((13 : Int) - 1).toNat]? =
      some (if (chinesePacked (y - chineseYear0).toNat >>> 13) % 14 ≠ 0 then
        chineseMonth (chinesePacked (y - chineseYear0).toNat) 12 else 0) := by
    unfold chineseF chineseUnpack
    simp only [show ((13 : Int) - 1).toNat = 12 from rfl]
    rw [List.getElem?_append_right (by simp)]
    simp
  refine ⟨?_, ?_, ?_⟩
  · intro m hm hm'
    rw [hdim m hm (by omega)]
    have hlt : (m - 1).toNat < 12 := by omega
    unfold chineseF chineseUnpack
    simp only
    rw [List.getElem?_append_left (by simpa using hlt)]
    simp only [List.getElem?_map, List.getElem?_range hlt, Option.map_some]
    rcases hcm (chinesePacked (y - chineseYear0).toNat) (m - 1).toNat with h | h <;> rw [h] <;> simp
  · intro old h
    rw [hdim 13 (by omega) (by omega), h13]
    rw [hic] at h
    unfold chineseIntercalary at h
    by_cases hz : (chinesePacked (y - chineseYear0).toNat >>> 13) % 14 = 0
    · simp [hz]
    · simp only [Ne, hz, not_false_eq_true, if_true] at h; omega
  · intro old h
    rw [hdim 13 (by omega) (by omega), h13]
    rw [hic] at h
    unfold chineseIntercalary at h
    by_cases hz : (chinesePacked (y - chineseYear0).toNat >>> 13) % 14 = 0
    · simp [hz] at h
    · simp only [Ne, hz, not_false_eq_true, if_true, Option.some.injEq]
      exact hcm _ _

/-- The days the table leaves out. -/
def chineseMissing : List Int := [746276, 801793, 826629, 868267, 882146, 1018016, 1146947, 1425627]

theorem chinese_gap_day {Y : Int} (hg : Y ∈ chineseGapYears) : (chineseF Y).stop ∈ chineseMissing := by
  have h := chinese_gap_stop
  have : (chineseF Y).stop ∈ chineseGapYears.map (fun y => (chineseF y).stop) := List.mem_map.2 ⟨Y, hg, rfl⟩
  rw [h] at this
  exact this

theorem chinese_guess {jd : Int} (h1 : 625379 ≤ jd) (h2 : jd < 4277781) :
    -363 ≤ approxYear jd CHINESE ∧ approxYear jd CHINESE ≤ 9636 := by
  have a := approxYear_mono CHINESE h1
  have b : approxYear 625379 CHINESE = -363 := by decide +kernel
  have c := approxYear_mono CHINESE (show jd ≤ 4277780 by omega)
  have d : approxYear 4277780 CHINESE = 9636 := by decide +kernel
  omega

/-- C11 (partial: the eight missing days are excluded, see `C11_chinese_hangs`): every day covered by
    the table converts to an admitted date that converts back. -/
theorem C11_chinese_roundtrip_partial (jd : Int) (h1 : 625379 ≤ jd) (h2 : jd < 4277781)
    (h3 : jd ∉ chineseMissing) :
    ∃ d m y, dayToDmyReturns jd CHINESE ⟨d, some m, y⟩ ∧ ApiDate CHINESE d m y ∧
      dmyToDay d m y CHINESE = some jd := by
  have hcal : CHINESE ≠ JULIAN_GREGORIAN := by decide
  have hs0 := chinese_first
  have hs1 := chinese_final
  obtain ⟨hg1, hg2⟩ := chinese_guess h1 h2
  rcases chinese_chain.locate (by omega) (jd := jd) (by omega) (by omega) with ⟨Y, a1, a2, a3, a4⟩ | ⟨Y, a1, a2, a3, a4⟩
  · obtain ⟨fuel, hf⟩ := chinese_chain.search_in a1 a2 a3 a4 hg1 hg2
    obtain ⟨d, m, len, e1, e2, e3, e4, e5, e6⟩ := finish_found (y := Y) (chinese_months_nonneg Y) a3 a4
    have hm13 : m ≤ 13 := by
      obtain ⟨h, _⟩ := List.getElem?_eq_some_iff.1 e4
      have : (chineseF Y).months.length = 13 := by simp [chineseF, chineseUnpack]
      omega
    refine ⟨d, m, Y, ⟨fuel, ?_⟩, ⟨e2, hm13, e3, len, ?_, e5⟩, ?_⟩
    · unfold dayToDmy
      simp only [calendarForJd_of_ne hcal]
      rw [hf]
      simp [e1]
    · unfold daysInMonth dmyToDay
      rw [calendarForDate_of_ne hcal, chinese_chain.data_eq Y a1 a2]
      simp only [e2, hm13, and_self, if_true, e4]
    · unfold dmyToDay
      rw [calendarForDate_of_ne hcal, chinese_chain.data_eq Y a1 a2]
      have a : d ≠ -999 := by omega
      have b : m ≤ 14 := by omega
      simp only [a, b, if_true, if_false, e6]
  · exfalso
    have := chinese_next Y a1 (by omega)
    by_cases hg : Y ∈ chineseGapYears
    · rw [if_pos hg] at this
      have e : jd = (chineseF Y).stop := by omega
      exact h3 (e ▸ chinese_gap_day hg)
    · rw [if_neg hg] at this; omega

/-- C11 is violated: on the eight missing days `day_to_dmy` never returns. -/
theorem C11_chinese_hangs (jd : Int) (h : jd ∈ chineseMissing) (r : Dmy) :
    ¬ dayToDmyReturns jd CHINESE r := by
  have hcal : CHINESE ≠ JULIAN_GREGORIAN := by decide
  have hb : 625379 ≤ jd ∧ jd < 4277781 := by
    simp only [chineseMissing, List.mem_cons, List.not_mem_nil, or_false] at h; omega
  have hy : ∃ Y ∈ chineseGapYears, (chineseF Y).stop = jd := by
    have : jd ∈ chineseGapYears.map (fun y => (chineseF y).stop) := by rw [chinese_gap_stop]; exact h
    obtain ⟨Y, hY, e⟩ := List.mem_map.1 this
    exact ⟨Y, hY, e⟩
  obtain ⟨Y, hY, e⟩ := hy
  have hr : -363 ≤ Y ∧ Y < 9636 := by
    simp only [chineseGapYears, List.mem_cons, List.not_mem_nil, or_false] at hY; omega
  have hn := chinese_next Y hr.1 hr.2
  rw [if_pos hY] at hn
  obtain ⟨hg1, hg2⟩ := chinese_guess hb.1 hb.2
  rintro ⟨fuel, hf⟩
  unfold dayToDmy at hf
  simp only [calendarForJd_of_ne hcal] at hf
  rw [chinese_chain.search_gap (jd := jd) hr.1 hr.2 (by omega) (by omega) fuel _ hg1 hg2] at hf
  simp at hf

/-- C11: outside the days of the table `day_to_dmy` reports an error, and outside its years
    `dmy_to_day` returns 0. -/
theorem C11_chinese_error (jd : Int) (h : jd < 625379 ∨ 4277781 ≤ jd) :
    ∃ y, dayToDmyReturns jd CHINESE ⟨-1, none, y⟩ := by
  have hcal : CHINESE ≠ JULIAN_GREGORIAN := by decide
  have key : ∃ fuel y, searchYear (fun y => getCalendarData y CHINESE) jd fuel (approxYear jd CHINESE) =
      some (.failed y) := by
    rcases h with h | h
    · have hg : approxYear jd CHINESE ≤ 9636 := by
        have a := approxYear_mono CHINESE (show jd ≤ 625379 by omega)
        have b := (chinese_guess (jd := 625379) (by omega) (by omega)).2
        omega
      exact chinese_chain.search_below (by rw [chinese_first]; omega) hg
    · have hg : -363 ≤ approxYear jd CHINESE := by
        have a := approxYear_mono CHINESE (show 625379 ≤ jd by omega)
        have b := (chinese_guess (jd := 625379) (by omega) (by omega)).1
        omega
      exact chinese_chain.search_above (by rw [chinese_final]; omega) hg
  obtain ⟨fuel, y, hf⟩ := key
  refine ⟨y, fuel, ?_⟩
  unfold dayToDmy
  simp only [calendarForJd_of_ne hcal]
  rw [hf]
  rfl

theorem C11_chinese_out_of_range (d m y : Int) (h : y < -363 ∨ 9636 < y) :
    dmyToDay d m y CHINESE = some 0 := by
  unfold dmyToDay
  rw [calendarForDate_of_ne (by decide)]
  have : getCalendarData y CHINESE = none := by
    rcases h with h | h
    · exact chinese_chain.below y h
    · exact chinese_chain.above y h
  rw [this]

/-- C11: the year that follows starts the day after the table year ends, except after the eight years
    listed, where one day is left out. -/
theorem C11_chinese_next_year (y : Int) (h1 : -363 ≤ y) (h2 : y < 9636) :
    ∃ (a : Int) (ms : List Int), (∀ m, 1 ≤ m → m ≤ 13 → daysInMonth m y CHINESE = ms[(m - 1).toNat]?) ∧ ms.length = 13 ∧
      dmyToDay 1 1 y CHINESE = some a ∧
      dmyToDay 1 1 (y + 1) CHINESE =
        some (a + ms.sum + if y ∈ [-33, 119, 187, 301, 339, 711, 1064, 1827] then 1 else 0) := by
  have hcal : CHINESE ≠ JULIAN_GREGORIAN := by decide
  have hn := chinese_next y h1 h2
  refine ⟨(chineseF y).start, (chineseF y).months, ?_, by simp [chineseF, chineseUnpack], ?_, ?_⟩
  · intro m hm hm'
    unfold daysInMonth dmyToDay
    rw [calendarForDate_of_ne hcal, chinese_chain.data_eq y h1 (by omega)]
    simp [hm, hm']
  · unfold dmyToDay
    rw [calendarForDate_of_ne hcal, chinese_chain.data_eq y h1 (by omega)]
    simp
  · unfold dmyToDay
    rw [calendarForDate_of_ne hcal, chinese_chain.data_eq (y + 1) (by omega) (by omega)]
    simp [hn, YearData.stop, chineseGapYears]

example : (2460000 : Int) ∉ chineseMissing := by decide
/-- Chinese New Year 2025 (table year 2025 + 2637 = 4662): 29 January 2025. -/
example : dmyToDay 1 1 4662 CHINESE = dmyToDay 29 1 2025 GREGORIAN := by decide +kernel

/-! ## C12 -/

/-- C12: for the rule-based calendars the year search stops, from any first guess `g`, after
    `|g - Y| + 1` passes, in the year `Y` containing `jd`. -/
theorem C12_search_stops {cal : Int} (h : cal ∈ ruleCalendars) (jd : Int) :
    ∃ Y yd, yd.start ≤ jd ∧ jd < yd.stop ∧ getCalendarData Y cal = some yd ∧
      ∀ g, searchYear (fun y => getCalendarData y cal) jd ((g - Y).natAbs + 1) g = some (.found Y yd) := by
  obtain ⟨c, hc⟩ := rule_refines h
  exact hc.search_steps jd

/-- C12: the search stops for the Hebrew calendar too, from any first guess. -/
theorem C12_search_stops_hebrew (jd g : Int) :
    ∃ fuel Y yd, searchYear (fun y => getCalendarData y HEBREW) jd fuel g = some (.found Y yd) ∧
      yd.start ≤ jd ∧ jd < yd.stop := by
  obtain ⟨fuel, y, h, h1, h2⟩ := hebrew_coversAll.search jd g
  exact ⟨fuel, y, _, h, h1, h2⟩

/-- C12 is violated for the Chinese calendar: on day 1425627 no number of passes is enough, whatever
    year of the table the search starts from. -/
theorem C12_chinese_search_hangs (g : Int) (h1 : -363 ≤ g) (h2 : g ≤ 9636) (fuel : Nat) :
    searchYear (fun y => getCalendarData y CHINESE) 1425627 fuel g = none := by
  have e : (chineseF 1827).stop = 1425627 := by decide +kernel
  have hn := chinese_next 1827 (by omega) (by omega)
  rw [if_pos (by decide)] at hn
  exact chinese_chain.search_gap (Y := 1827) (by omega) (by omega) (by omega) (by omega) fuel g h1 h2

/-- C12 (partial): every calendar, every day number: the call returns unless the calendar is Chinese
    and the day is one of the eight left out of its table. -/
theorem C12_returns_partial (jd cal : Int) (h : cal ≠ CHINESE ∨ jd ∉ chineseMissing) :
    ∃ r, dayToDmyReturns jd cal r := by
  by_cases c0 : cal ∈ ruleCalendars
  · obtain ⟨c, hc⟩ := rule_refines c0
    obtain ⟨d, m, y, hr, _⟩ := hc.roundtrip jd
    exact ⟨_, hr⟩
  by_cases c1 : cal = JULIAN_GREGORIAN
  · subst c1
    obtain ⟨d, m, y, hr, _⟩ := C05_mixed_roundtrip jd
    exact ⟨_, hr⟩
  by_cases c2 : cal = HEBREW
  · subst c2
    obtain ⟨d, m, y, hr, _⟩ := C07_hebrew_roundtrip jd
    exact ⟨_, hr⟩
  by_cases c3 : cal = PERSIAN
  · subst c3
    by_cases hj : 1547650 ≤ jd ∧ jd ≤ 2798238
    · obtain ⟨d, m, y, hr, _⟩ := C09_persian_day_roundtrip jd hj.1 hj.2
      exact ⟨_, hr⟩
    · obtain ⟨y, hr⟩ := C09_persian_day_error jd (by omega)
      exact ⟨_, hr⟩
  by_cases c4 : cal = CHINESE
  · subst c4
    by_cases hj : 625379 ≤ jd ∧ jd < 4277781
    · obtain ⟨d, m, y, hr, _⟩ := C11_chinese_roundtrip_partial jd hj.1 hj.2 (by simpa using h)
      exact ⟨_, hr⟩
    · obtain ⟨y, hr⟩ := C11_chinese_error jd (by omega)
      exact ⟨_, hr⟩
  · -- unknown calendar code: get_calendar_data fails at once
    have hn : ∀ y, getCalendarData y cal = none := by
      intro y
      simp only [ruleCalendars, List.mem_cons, List.not_mem_nil, or_false, not_or] at c0
      unfold getCalendarData
      simp [c0, c2, c3, c4]
    refine ⟨⟨-1, none, approxYear jd cal⟩, 1, ?_⟩
    unfold dayToDmy
    simp only [calendarForJd_of_ne c1, searchYear, searchStep, hn]
    rfl

example : GREGORIAN ∈ ruleCalendars ∧ REVOLUTIONARY ∈ ruleCalendars := by decide

/-! ## C13 -/

/-- C13: later dates have larger day numbers, in every rule-based calendar. -/
theorem C13_monotone {cal : Int} (h : cal ∈ ruleCalendars) {d m y d' m' y' : Int}
    (e : ApiDate cal d m y) (e' : ApiDate cal d' m' y') (hlt : DateLt d m y d' m' y') :
    ∃ j j', dmyToDay d m y cal = some j ∧ dmyToDay d' m' y' cal = some j' ∧ j < j' := by
  obtain ⟨c, hc⟩ := rule_refines h
  rw [hc.apiDate_iff] at e e'
  exact ⟨_, _, hc.dmyToDay_exists e, hc.dmyToDay_exists e', hc.dayNumber_lt e e' hlt⟩

/-- C13: hence every admitted date is recovered from its day number, in every rule-based calendar. -/
theorem C13_date_roundtrip {cal : Int} (h : cal ∈ ruleCalendars) {d m y : Int} (e : ApiDate cal d m y) :
    ∃ j, dmyToDay d m y cal = some j ∧ dayToDmyReturns j cal ⟨d, some m, y⟩ := by
  obtain ⟨c, hc⟩ := rule_refines h
  rw [hc.apiDate_iff] at e
  exact ⟨_, hc.dmyToDay_exists e, hc.dateRoundtrip e⟩

example : ApiDate ISLAMIC 29 12 1446 ∧ ApiDate ISLAMIC 1 1 1447 ∧ DateLt 29 12 1446 1 1 1447 :=
  ⟨⟨by decide, by decide, by decide, 29, by decide +kernel, by decide⟩,
   ⟨by decide, by decide, by decide, 30, by decide +kernel, by decide⟩, Or.inl (by decide)⟩

/-! ## C14 -/

/-- C14: `days_in_month` is the difference of the day numbers of the firsts of consecutive months
    (of the year's thirteenth slot and the next New Year for the last). -/
theorem C14_days_in_month {cal : Int} (h : cal ∈ ruleCalendars) (m y : Int) (h1 : 1 ≤ m) (h2 : m ≤ 13) :
    ∃ n a, daysInMonth m y cal = some n ∧ 0 ≤ n ∧ dmyToDay 1 m y cal = some a ∧
      (if m ≤ 12 then dmyToDay 1 (m + 1) y cal else dmyToDay 1 1 (y + 1) cal) = some (a + n) := by
  obtain ⟨c, hc⟩ := rule_refines h
  obtain ⟨n, hn, hpos, _, hd, hd13⟩ := hc.daysInMonth (y := y) h1 h2
  refine ⟨n, c.dayNumber 1 m y, hn, hpos, hc.dmyToDay (by omega) (by omega), ?_⟩
  by_cases hm : m ≤ 12
  · rw [if_pos hm, hc.dmyToDay (by omega) (by omega)]
    have := hd hm; congr 1; omega
  · rw [if_neg hm, hc.dmyToDay (by omega) (by omega)]
    have := hd13 (by omega); congr 1; omega

/-- C14 does not extend to the Persian calendar's last year (126-day month). -/
theorem C14_persian_counterexample :
    daysInMonth 12 2327 PERSIAN = some 126 ∧ dmyToDay 1 12 2327 PERSIAN = some 2798210 := by decide +kernel

example : daysInMonth 2 2024 GREGORIAN = some 29 := by decide +kernel

end Verif.Props
