import Verif.Model.LeapSeconds
import Verif.Lemmas.RomanCal
import Verif.Lemmas.Api

/-!
# Property theorems: MJD macros (C31), leap seconds (C32), half years (C33), UTC before 1972 (C57)
-/

namespace Verif.Props

open Verif Verif.Leap Verif.Date Verif.Spec

/-- Specification: Modified Julian Date of the first of a month. -/
def firstOfMonth (m y : Int) : Int := gregorian.dayNumber 1 m y - 2400001

theorem jan1_closed (y : Int) : JAN_1 y = 365 * y + (y + 3) / 4 - (y + 99) / 100 + (y + 399) / 400 - 678941 := by
  unfold JAN_1 jan1Pos jan1Neg
  split
  · rw [Int.tdiv_eq_ediv_of_nonneg (by omega), Int.tdiv_eq_ediv_of_nonneg (by omega),
      Int.tdiv_eq_ediv_of_nonneg (by omega)]
    omega
  · have h : ∀ n : Int, 0 < n → y.tdiv n = -((-y) / n) := by
      intro n hn
      rw [← Int.tdiv_eq_ediv_of_nonneg (by omega), Int.neg_tdiv]; omega
    rw [h 4 (by omega), h 100 (by omega), h 400 (by omega)]
    omega

/-- **C31.** `JAN_1` is the Modified Julian Date of 1 January, for every year, negative ones included. -/
theorem C31_jan (y : Int) : JAN_1 y = firstOfMonth 1 y := by
  rw [jan1_closed]
  unfold firstOfMonth Calendar.dayNumber
  rw [gregorian_newYear]
  simp
  omega

theorem jan_length (y : Int) : JAN_1 (y + 1) = JAN_1 y + if gregorianLeap y then 366 else 365 := by
  rw [jan1_closed, jan1_closed]
  by_cases hl : gregorianLeap y
  · rw [if_pos hl]; unfold gregorianLeap at hl; omega
  · rw [if_neg hl]; unfold gregorianLeap at hl; omega

/-- The twelve macros in order. -/
def macros : List (Int → Int) :=
  [JAN_1, FEB_1, MAR_1, APR_1, MAY_1, JUN_1, JUL_1, AUG_1, SEP_1, OCT_1, NOV_1, DEC_1]

/-- **C31.** Each of the twelve macros is the Modified Julian Date of the first of its month. -/
theorem C31_months (m y : Int) (h1 : 1 ≤ m) (h2 : m ≤ 12) :
    (macros[(m - 1).toNat]?).map (· y) = some (firstOfMonth m y) := by
  have hj := C31_jan y
  have hl := jan_length y
  have key : ∀ k : Int, gregorian.dayNumber 1 k y =
      gregorian.dayNumber 1 1 y + ((gregorian.months y).take (k - 1).toNat).sum := by
    intro k; unfold Calendar.dayNumber; simp
  have hm : m = 1 ∨ m = 2 ∨ m = 3 ∨ m = 4 ∨ m = 5 ∨ m = 6 ∨ m = 7 ∨ m = 8 ∨ m = 9 ∨ m = 10 ∨ m = 11 ∨ m = 12 := by omega
  unfold firstOfMonth at *
  rw [key m]
  generalize gregorian.dayNumber 1 1 y = D at *
  simp only [gregorian, romanMonths]
  by_cases hg : gregorianLeap y
  · rw [if_pos hg] at hl
    rcases hm with rfl | rfl | rfl | rfl | rfl | rfl | rfl | rfl | rfl | rfl | rfl | rfl <;>
      simp [macros, hg, FEB_1, MAR_1, APR_1, MAY_1, JUN_1, JUL_1, AUG_1, SEP_1, OCT_1, NOV_1, DEC_1] <;> omega
  · rw [if_neg hg] at hl
    rcases hm with rfl | rfl | rfl | rfl | rfl | rfl | rfl | rfl | rfl | rfl | rfl | rfl <;>
      simp [macros, hg, FEB_1, MAR_1, APR_1, MAY_1, JUN_1, JUL_1, AUG_1, SEP_1, OCT_1, NOV_1, DEC_1] <;> omega

/-- **C31.** They agree with `dmy_to_day`. -/
theorem C31_dmy_to_day (m y : Int) (h1 : 1 ≤ m) (h2 : m ≤ 12) :
    dmyToDay 1 m y GREGORIAN = ((macros[(m - 1).toNat]?).map (· y)).map (· + 2400001) := by
  rw [C31_months m y h1 h2, gregorian_refines.dmyToDay (by omega) (by omega)]
  simp [firstOfMonth]

example : JAN_1 1972 = 41317 ∧ JUL_1 (-400) = -824856 := by decide

/-- **C31.** The second copy of the macro, in utc_algo.cpp, agrees for all years from -19999999999 on. -/
theorem C31_utc_algo (y : Int) (h : -19999999999 ≤ y) : jan1Utc y = JAN_1 y := by
  rw [jan1_closed]
  unfold jan1Utc baseYear
  rw [Int.tdiv_eq_ediv_of_nonneg (by omega), Int.tdiv_eq_ediv_of_nonneg (by omega),
    Int.tdiv_eq_ediv_of_nonneg (by omega)]
  have : (19999999999 + 1 : Int).tdiv 400 = 50000000 := by decide
  rw [this]
  omega

/-! ## Half years -/

/-- Specification: `a` and `b` are the first days of a half year and of the next one. -/
def HalfYear (a b : Int) : Prop :=
  ∃ y, (a = firstOfMonth 1 y ∧ b = firstOfMonth 7 y) ∨ (a = firstOfMonth 7 y ∧ b = firstOfMonth 1 (y + 1))

theorem jul1 (y : Int) : JUL_1 y = JAN_1 (y + 1) - 184 := by
  unfold JUL_1 AUG_1 SEP_1 OCT_1 NOV_1 DEC_1; omega

theorem jul_spec (y : Int) : firstOfMonth 7 y = JAN_1 (y + 1) - 184 := by
  have := C31_months 7 y (by omega) (by omega)
  have h : (macros[((7 : Int) - 1).toNat]?).map (· y) = some (JUL_1 y) := rfl
  rw [h] at this
  rw [← Option.some.inj this, jul1]

/-- **C33.** The half year found contains the day, for every day from the start of year 1 on. -/
theorem C33_half_year (imjd : Int) (h : JAN_1 1 ≤ imjd) :
    HalfYear (halfYear imjd).1 (halfYear imjd).2 ∧ (halfYear imjd).1 ≤ imjd ∧ imjd < (halfYear imjd).2 := by
  have h1 : JAN_1 1 = -678575 := by decide
  have hq : ∃ q, q = ((imjd + 2400000 - 1721058) * 400).tdiv 146097 ∧
      146097 * q ≤ (imjd + 678942) * 400 ∧ (imjd + 678942) * 400 < 146097 * q + 146097 := by
    refine ⟨_, rfl, ?_, ?_⟩ <;> rw [Int.tdiv_eq_ediv_of_nonneg (by omega)] <;> omega
  obtain ⟨q, hq, hq1, hq2⟩ := hq
  have hlow : imjd ≥ JAN_1 (q - 1) + 184 := by rw [jan1_closed]; omega
  have hhigh : imjd < JAN_1 (q + 1) := by rw [jan1_closed]; omega
  unfold halfYear
  simp only []
  rw [← hq]
  have e1 : q - 1 + 1 = q := by omega
  by_cases hl : imjd < JAN_1 q
  · simp only [if_pos hl]
    have hj := jul_spec (q - 1)
    rw [e1] at hj
    have hg : imjd ≥ JAN_1 q - 184 := by
      rw [jan1_closed]; rw [jan1_closed] at hl hlow; omega
    rw [if_neg (by omega)]
    refine ⟨⟨q - 1, Or.inr ⟨?_, ?_⟩⟩, ?_, ?_⟩
    · rw [hj]; simp only []; omega
    · rw [e1, ← C31_jan]
    · simp only []; omega
    · simp only []; omega
  · simp only [if_neg hl]
    have hj := jul_spec q
    by_cases h7 : imjd < JAN_1 (q + 1) - (31 + 31 + 30 + 31 + 30 + 31)
    · rw [if_pos h7]
      refine ⟨⟨q, Or.inl ⟨?_, ?_⟩⟩, ?_, ?_⟩
      · rw [C31_jan]
      · rw [hj]; simp only []; omega
      · simp only []; omega
      · simp only []; omega
    · rw [if_neg h7]
      refine ⟨⟨q, Or.inr ⟨?_, ?_⟩⟩, ?_, ?_⟩
      · rw [hj]; simp only []; omega
      · rw [C31_jan]
      · simp only []; omega
      · simp only []; omega

example : halfYear (JUL_1 2025 + 100) = (JUL_1 2025, JAN_1 2026) := by decide

/-! ## Leap seconds -/

/-- Specification: the dates from which TAI - UTC is 10, 11, 12, … seconds, as (month, year). -/
def leapDates : List (Int × Int) :=
  [(1, 1972), (7, 1972), (1, 1973), (1, 1974), (1, 1975), (1, 1976), (1, 1977), (1, 1978), (1, 1979), (1, 1980),
   (7, 1981), (7, 1982), (7, 1983), (7, 1985), (1, 1988), (1, 1990), (1, 1991), (7, 1992), (7, 1993), (7, 1994),
   (1, 1996), (7, 1997), (1, 1999), (1, 2006), (1, 2009), (7, 2012), (7, 2015), (1, 2017)]

/-- Specification: TAI - UTC on a day is 9 plus the number of listed dates up to then. -/
def leapCount (mjd : Int) : Int := 9 + (leapDates.countP fun d => decide (firstOfMonth d.1 d.2 ≤ mjd) : Nat)

theorem leapDates_eq : leapDates.map (fun d => firstOfMonth d.1 d.2) = leapIntervals.map (· + utc0) := by
  have h1 : ∀ y, firstOfMonth 1 y = JAN_1 y := fun y => (C31_jan y).symm
  have h7 : ∀ y, firstOfMonth 7 y = JAN_1 (y + 1) - 184 := jul_spec
  have j : leapIntervals.map (· + utc0) = leapDates.map fun d => if d.1 = 1 then JAN_1 d.2 else JAN_1 (d.2 + 1) - 184 := by
    decide
  rw [j]
  apply List.map_congr_left
  intro d hd
  have hd' : d.1 = 1 ∨ d.1 = 7 := by
    have : ∀ d ∈ leapDates, d.1 = 1 ∨ d.1 = 7 := by decide
    exact this d hd
  rcases hd' with h | h
  · rw [h, if_pos rfl, h1]
  · rw [h, if_neg (by decide), h7]

theorem intervals_sorted : ∀ i : Fin 28, ∀ j : Fin 28, i.val < j.val → leapIntervals.getD i.val 0 < leapIntervals.getD j.val 0 := by
  decide +kernel

/-- The search finds the last entry not after the day. -/
theorem searchDown_count (imjd : Int) (n : Nat) (hn : n ≤ 28) :
    searchDown imjd n =
      (let k := ((leapIntervals.take n).countP fun x => decide (x ≤ imjd - utc0))
       if k = 0 then none else some ((k : Int) + 9)) := by
  induction n with
  | zero => simp [searchDown]
  | succ n ih =>
    have hlen : leapIntervals.length = 28 := by decide
    have htake : leapIntervals.take (n + 1) = leapIntervals.take n ++ [leapIntervals.getD n 0] := by
      rw [List.take_succ_eq_append_getElem (by omega)]
      congr 2
      rw [List.getD_eq_getElem?_getD, List.getElem?_eq_getElem (by omega)]; rfl
    rw [searchDown]
    by_cases h : imjd - utc0 ≥ leapIntervals.getD n 0
    · rw [if_pos h, htake]
      have hall : (leapIntervals.take n).countP (fun x => decide (x ≤ imjd - utc0)) = n := by
        rw [List.countP_eq_length.2]
        · rw [List.length_take]; omega
        · intro x hx
          obtain ⟨i, hi, rfl⟩ := List.getElem_of_mem hx
          rw [List.length_take] at hi
          have hs := intervals_sorted ⟨i, by omega⟩ ⟨n, by omega⟩ (by simp only []; omega)
          rw [List.getD_eq_getElem?_getD, List.getElem?_eq_getElem (by omega)] at hs
          rw [List.getElem_take]
          simp only [decide_eq_true_eq]
          simp only [Option.getD_some] at hs
          omega
      simp only []
      rw [List.countP_append, hall, List.countP_singleton,
        if_pos (c := decide (leapIntervals.getD n 0 ≤ imjd - utc0) = true) (decide_eq_true h), if_neg (by omega)]
      congr 1
    · rw [if_neg h, ih (by omega), htake, List.countP_append, List.countP_singleton,
        if_neg (c := decide (leapIntervals.getD n 0 ≤ imjd - utc0) = true) (by rw [decide_eq_true_eq]; exact h)]
      rfl

/-- **C32.** From 1 January 1972 to 30 November 2021, TAI - UTC is the tabulated count of leap seconds. -/
theorem C32_tabulated (lastMjd : Int) (predict : Int → Int) (mjd : Int) (h1 : firstOfMonth 1 1972 ≤ mjd)
    (h2 : mjd < firstOfMonth 12 2021) (h3 : mjd ≤ lastMjd) :
    taiMinusUtc lastMjd predict mjd = some (leapCount mjd) := by
  have hd : firstOfMonth 12 2021 = DEC_1 2021 := by
    have := C31_months 12 2021 (by omega) (by omega)
    exact (Option.some.inj this).symm
  have hu : firstOfMonth 1 1972 = utc0 := (C31_jan 1972).symm
  unfold taiMinusUtc
  simp only []
  rw [if_neg (by omega), if_neg (by omega), searchDown_count _ _ (by decide)]
  have hc : (leapIntervals.take leapIntervals.length).countP (fun x => decide (x ≤ mjd - utc0)) =
      leapDates.countP fun d => decide (firstOfMonth d.1 d.2 ≤ mjd) := by
    rw [List.take_length]
    have e1 : leapDates.countP (fun d => decide (firstOfMonth d.1 d.2 ≤ mjd)) =
        (leapDates.map fun d => firstOfMonth d.1 d.2).countP (fun x => decide (x ≤ mjd)) := by
      rw [List.countP_map]; rfl
    rw [e1, leapDates_eq, List.countP_map]
    generalize leapIntervals = l
    generalize utc0 = u
    apply List.countP_congr
    intro x _
    simp only [Function.comp, decide_eq_true_eq]
    omega
  simp only [hc]
  have hpos : 0 < leapDates.countP fun d => decide (firstOfMonth d.1 d.2 ≤ mjd) := by
    rw [List.countP_pos_iff]
    exact ⟨(1, 1972), by simp [leapDates], by simpa using h1⟩
  rw [if_neg (by omega)]
  unfold leapCount
  generalize leapDates.countP _ = c
  rw [Int.add_comm]

theorem leapCount_mono {a b : Int} (h : a ≤ b) : leapCount a ≤ leapCount b := by
  have : leapDates.countP (fun d => decide (firstOfMonth d.1 d.2 ≤ a)) ≤
      leapDates.countP fun d => decide (firstOfMonth d.1 d.2 ≤ b) := by
    apply List.countP_mono_left
    intro d _ hd
    simp only [decide_eq_true_eq] at hd ⊢
    omega
  unfold leapCount
  omega

/-- **C32.** The offset never decreases, in the tabulated years. -/
theorem C32_monotone_tabulated (lastMjd : Int) (predict : Int → Int) (a b x y : Int) (h1 : firstOfMonth 1 1972 ≤ a)
    (hab : a ≤ b) (h2 : b < firstOfMonth 12 2021) (h3 : b ≤ lastMjd)
    (hx : taiMinusUtc lastMjd predict a = some x) (hy : taiMinusUtc lastMjd predict b = some y) : x ≤ y := by
  rw [C32_tabulated lastMjd predict a h1 (by omega) (by omega)] at hx
  rw [C32_tabulated lastMjd predict b (by omega) h2 h3] at hy
  have := leapCount_mono hab
  have e1 := Option.some.inj hx
  have e2 := Option.some.inj hy
  omega

/-- **C32.** The offset changes only at the start of January or July: on any other day it is that of the
    day before.  This includes the predicted years, whatever the prediction is; the one day on which the
    program changes over from the table to prediction (1 December 2021) is left out, as what happens then
    depends on the prediction; `C32_changes` settles it for the program's own. -/
theorem C32_changes_any_prediction (lastMjd : Int) (predict : Int → Int) (mjd : Int) (h1 : firstOfMonth 1 1972 ≤ mjd)
    (hs : mjd + 1 ≠ firstOfMonth 12 2021)
    (hn : ∀ y, mjd + 1 ≠ firstOfMonth 1 y ∧ mjd + 1 ≠ firstOfMonth 7 y) :
    taiMinusUtc lastMjd predict (mjd + 1) = taiMinusUtc lastMjd predict mjd := by
  have hd : firstOfMonth 12 2021 = DEC_1 2021 := by
    have := C31_months 12 2021 (by omega) (by omega)
    exact (Option.some.inj this).symm
  by_cases hl : mjd + 1 > lastMjd
  · unfold taiMinusUtc
    simp only []
    rw [if_pos hl]
    by_cases h2 : mjd > lastMjd
    · rw [if_pos h2]
    · rw [if_neg h2, show lastMjd = mjd by omega]
  · by_cases ht : mjd + 1 < firstOfMonth 12 2021
    · rw [C32_tabulated _ _ _ (by omega) ht (by omega), C32_tabulated _ _ _ h1 (by omega) (by omega)]
      unfold leapCount
      have : ∀ d ∈ leapDates, (firstOfMonth d.1 d.2 ≤ mjd + 1 ↔ firstOfMonth d.1 d.2 ≤ mjd) := by
        intro d hd
        have hd' : d.1 = 1 ∨ d.1 = 7 := by
          have : ∀ d ∈ leapDates, d.1 = 1 ∨ d.1 = 7 := by decide
          exact this d hd
        have := hn d.2
        rcases hd' with h | h <;> rw [h] <;> omega
      have hc : leapDates.countP (fun d => decide (firstOfMonth d.1 d.2 ≤ mjd + 1)) =
          leapDates.countP fun d => decide (firstOfMonth d.1 d.2 ≤ mjd) := by
        apply List.countP_congr
        intro d hd
        simp only [decide_eq_true_eq]
        exact this d hd
      rw [hc]
    · have hge : DEC_1 2021 ≤ mjd := by omega
      have hj : JAN_1 1 ≤ mjd := by
        have e : DEC_1 2021 = 59549 := by decide
        have e1 : JAN_1 1 = -678575 := by decide
        omega
      obtain ⟨⟨y, hy⟩, a1, a2⟩ := C33_half_year mjd hj
      obtain ⟨⟨z, hz⟩, b1, b2⟩ := C33_half_year (mjd + 1) (by omega)
      have hne1 := (hn y)
      have hne2 := (hn (y + 1))
      have hza : mjd + 1 ≠ (halfYear (mjd + 1)).1 := by
        rcases hz with ⟨e, -⟩ | ⟨e, -⟩
        · rw [e]; exact (hn z).1
        · rw [e]; exact (hn z).2
      have hyb : mjd + 1 ≠ (halfYear mjd).2 := by
        rcases hy with ⟨-, e⟩ | ⟨-, e⟩
        · rw [e]; exact (hn y).2
        · rw [e]; exact (hn (y + 1)).1
      -- both half years contain `mjd`, so they are the same
      have hsame : halfYear (mjd + 1) = halfYear mjd := by
        have hmono : ∀ y z : Int, y < z → firstOfMonth 1 (y + 1) ≤ firstOfMonth 1 z := by
          intro y z hyz
          rw [← C31_jan, ← C31_jan, jan1_closed, jan1_closed]; omega
        have hj7 : ∀ y, firstOfMonth 1 y < firstOfMonth 7 y ∧ firstOfMonth 7 y < firstOfMonth 1 (y + 1) := by
          intro y
          rw [jul_spec, ← C31_jan, ← C31_jan]
          have := jan_length y
          split at this <;> omega
        have hyz : y = z := by
          rcases Int.lt_trichotomy y z with h | h | h
          · exfalso
            have q1 := hmono y z h
            have q2 := hj7 y
            have q3 := hj7 z
            rcases hy with ⟨e1, e2⟩ | ⟨e1, e2⟩ <;> rcases hz with ⟨e3, e4⟩ | ⟨e3, e4⟩ <;> omega
          · exact h
          · exfalso
            have q1 := hmono z y h
            have q2 := hj7 y
            have q3 := hj7 z
            rcases hy with ⟨e1, e2⟩ | ⟨e1, e2⟩ <;> rcases hz with ⟨e3, e4⟩ | ⟨e3, e4⟩ <;> omega
        subst hyz
        have q2 := hj7 y
        apply Prod.ext
        · rcases hy with ⟨e1, e2⟩ | ⟨e1, e2⟩ <;> rcases hz with ⟨e3, e4⟩ | ⟨e3, e4⟩ <;> omega
        · rcases hy with ⟨e1, e2⟩ | ⟨e1, e2⟩ <;> rcases hz with ⟨e3, e4⟩ | ⟨e3, e4⟩ <;> omega
      unfold taiMinusUtc
      simp only []
      rw [if_neg (c := mjd + 1 > lastMjd) (by omega), if_neg (c := mjd > lastMjd) (by omega),
        if_pos (c := mjd + 1 ≥ DEC_1 2021) (by omega), if_pos (c := mjd ≥ DEC_1 2021) hge, hsame]

/-- **C32.** The 16-bit storage of the table is enough. -/
theorem C32_storage : ∀ x ∈ leapIntervals, 0 ≤ x ∧ x < 65536 := by decide

example : firstOfMonth 1 1972 ≤ 50000 ∧ leapCount 50000 = 29 := by
  have h := C32_tabulated 100000 (fun _ => 0) 50000
  have e1 : firstOfMonth 1 1972 = 41317 := by rw [← C31_jan]; decide
  have e2 : firstOfMonth 12 2021 = 59549 := by
    have := C31_months 12 2021 (by omega) (by omega)
    rw [← Option.some.inj this]; decide
  refine ⟨by omega, ?_⟩
  have h := h (by omega) (by omega) (by omega)
  have e3 : taiMinusUtc 100000 (fun _ => 0) 50000 = some 29 := by decide
  rw [e3] at h
  exact (Option.some.inj h).symm

/-! ## UTC from 1961 to 1972 -/

/-- TAI - UTC of a piece on a day, in units of 1e-7 s. -/
def pieceAt (p : Int × Int × Int) (mjd : Int) : Int := p.1 + (mjd - p.2.1) * p.2.2

/-- **C57.** The thirteen intervals start on increasing dates, fit in 16 bits and end at 1972. -/
theorem C57_ranges : ranges.length = pieces.length ∧ (∀ x ∈ ranges, 0 ≤ x ∧ x < 65536) ∧
    (∀ i : Fin 12, ranges.getD i.val 0 < ranges.getD (i.val + 1) 0) ∧ ranges.getD 12 0 < utc0 := by
  decide +kernel

/-- **C57.** At the start of each interval after the first, UTC was changed by exactly these amounts (in
    units of 1e-7 s): a step of -0.05 s, steps of 0.1 s, a step of -0.1 s, and no step where only the rate
    changed. -/
theorem C57_steps : (List.range 12).map (fun i =>
      pieceAt (pieces.getD (i + 1) (0, 0, 0)) (ranges.getD (i + 1) 0) - pieceAt (pieces.getD i (0, 0, 0)) (ranges.getD (i + 1) 0)) =
    [-500000, 0, 1000000, 0, 1000000, 1000000, 1000000, 1000000, 1000000, 1000000, 0, -1000000] := by
  decide +kernel

/-- **C57.** The step at the start of 1972, to exactly ten seconds, is 0.107758 s. -/
theorem C57_1972 : 100000000 - pieceAt (pieces.getD 12 (0, 0, 0)) utc0 = 1077580 := by decide +kernel

/-- **C57.** The pieces begin on the published dates. -/
theorem C57_dates : ranges = [firstOfMonth 1 1961, firstOfMonth 8 1961, firstOfMonth 1 1962, firstOfMonth 11 1963,
    firstOfMonth 1 1964, firstOfMonth 4 1964, firstOfMonth 9 1964, firstOfMonth 1 1965, firstOfMonth 3 1965,
    firstOfMonth 7 1965, firstOfMonth 9 1965, firstOfMonth 1 1966, firstOfMonth 2 1968] := by
  decide +kernel

end Verif.Props
