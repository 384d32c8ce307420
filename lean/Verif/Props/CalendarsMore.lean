import Verif.Props.Calendars
import Mathlib.Tactic.SplitIfs

/-!
# Property theorems: more about the calendars (C08, C09, C12)

Leap years of the two calendars that have no simple rule, and how long the year search takes.
-/

namespace Verif.Props

open Verif Verif.Date Verif.Spec

/-! ## C08 -/

theorem french_days13 (y : Int) : daysInMonth 13 y REVOLUTIONARY = some (frenchR (y + 1) - frenchR y - 360) := by
  obtain ⟨n, h, -, hg, -⟩ := french_refines.daysInMonth (m := 13) (y := y) (by omega) (by omega)
  rw [h]
  have : (french.months y)[((13 : Int) - 1).toNat]? = some (frenchR (y + 1) - frenchR y - 360) := by
    unfold french
    simp [List.replicate]
  rw [this] at hg
  exact hg.symm

/-- Bounds from which `omega` can tell everything about consecutive years in the last block. -/
theorem frenchR_late (y : Int) (h : 487 ≤ y) : frenchR y = 2375475 + y * 365 + (92 + y * 683) / 2820 := by
  unfold frenchR
  simp only [show ¬ y < -814 by omega, show ¬ y < -492 by omega, show ¬ y < -331 by omega, show ¬ y < -108 by omega,
    show ¬ y < 0 by omega, show ¬ y < 144 by omega, show ¬ y < 301 by omega, show ¬ y < 487 by omega, if_false]

theorem frenchR_early (y : Int) (h : y < -814) : frenchR y = 2375474 + y * 365 - (-(405 + y * 683)) / 2820 := by
  unfold frenchR
  simp only [h, if_true]

/-- The pattern of leap years around a year. -/
def frenchSpacing (y : Int) : Prop :=
  frenchR (y + 1) - frenchR y = 366 →
    frenchR (y + 2) - frenchR (y + 1) = 365 ∧ frenchR (y + 3) - frenchR (y + 2) = 365 ∧
    frenchR (y + 4) - frenchR (y + 3) = 365 ∧
    (frenchR (y + 5) - frenchR (y + 4) = 366 ∨
      (frenchR (y + 5) - frenchR (y + 4) = 365 ∧ frenchR (y + 6) - frenchR (y + 5) = 366))

instance (y : Int) : Decidable (frenchSpacing y) := by unfold frenchSpacing; infer_instance

theorem frenchSpacing_middle : ∀ i : Fin 1310, frenchSpacing ((i : Nat) - 822) := by decide +kernel

theorem frenchSpacing_all (y : Int) : frenchSpacing y := by
  by_cases h1 : y < -822
  · unfold frenchSpacing
    rw [frenchR_early y (by omega), frenchR_early (y + 1) (by omega), frenchR_early (y + 2) (by omega),
      frenchR_early (y + 3) (by omega), frenchR_early (y + 4) (by omega), frenchR_early (y + 5) (by omega),
      frenchR_early (y + 6) (by omega)]
    intro h
    have h1 : (-(405 + (y + 1) * 683)) / 2820 = (-(405 + y * 683)) / 2820 - 1 := by omega
    have h2 : (-(405 + (y + 2) * 683)) / 2820 = (-(405 + y * 683)) / 2820 - 1 := by omega
    have h3 : (-(405 + (y + 3) * 683)) / 2820 = (-(405 + y * 683)) / 2820 - 1 := by omega
    have h4 : (-(405 + (y + 4) * 683)) / 2820 = (-(405 + y * 683)) / 2820 - 1 := by omega
    have h5 : (-(405 + (y + 5) * 683)) / 2820 = (-(405 + y * 683)) / 2820 - 1 ∨
      (-(405 + (y + 5) * 683)) / 2820 = (-(405 + y * 683)) / 2820 - 2 := by omega
    have h6 : (-(405 + (y + 6) * 683)) / 2820 = (-(405 + y * 683)) / 2820 - 2 := by omega
    rw [h1, h2, h3, h4, h6]
    rcases h5 with h5 | h5 <;> rw [h5] <;> generalize (-(405 + y * 683)) / 2820 = q <;> clear h h1 h2 h3 h4 h5 h6 <;> omega
  · by_cases h2 : 487 ≤ y
    · unfold frenchSpacing
      rw [frenchR_late y (by omega), frenchR_late (y + 1) (by omega), frenchR_late (y + 2) (by omega),
        frenchR_late (y + 3) (by omega), frenchR_late (y + 4) (by omega), frenchR_late (y + 5) (by omega),
        frenchR_late (y + 6) (by omega)]
      intro h
      have h1 : (92 + (y + 1) * 683) / 2820 = (92 + y * 683) / 2820 + 1 := by omega
      have h2 : (92 + (y + 2) * 683) / 2820 = (92 + y * 683) / 2820 + 1 := by omega
      have h3 : (92 + (y + 3) * 683) / 2820 = (92 + y * 683) / 2820 + 1 := by omega
      have h4 : (92 + (y + 4) * 683) / 2820 = (92 + y * 683) / 2820 + 1 := by omega
      have h5 : (92 + (y + 5) * 683) / 2820 = (92 + y * 683) / 2820 + 1 ∨
        (92 + (y + 5) * 683) / 2820 = (92 + y * 683) / 2820 + 2 := by omega
      have h6 : (92 + (y + 6) * 683) / 2820 = (92 + y * 683) / 2820 + 2 := by omega
      rw [h1, h2, h3, h4, h6]
      rcases h5 with h5 | h5 <;> rw [h5] <;> generalize (92 + y * 683) / 2820 = q <;> clear h h1 h2 h3 h4 h5 h6 <;> omega
    · have := frenchSpacing_middle ⟨(y + 822).toNat, by omega⟩
      simp only at this
      rw [show (((y + 822).toNat : Int) - 822) = y by omega] at this
      exact this

/-- **C08.** Leap years of the French Revolutionary calendar (six extra days) come four or five years apart, in
    every age. -/
theorem C08_leap_years (y : Int) (h : daysInMonth 13 y REVOLUTIONARY = some 6) :
    daysInMonth 13 (y + 1) REVOLUTIONARY = some 5 ∧ daysInMonth 13 (y + 2) REVOLUTIONARY = some 5 ∧
    daysInMonth 13 (y + 3) REVOLUTIONARY = some 5 ∧
    (daysInMonth 13 (y + 4) REVOLUTIONARY = some 6 ∨
      (daysInMonth 13 (y + 4) REVOLUTIONARY = some 5 ∧ daysInMonth 13 (y + 5) REVOLUTIONARY = some 6)) := by
  have key := frenchSpacing_all y
  unfold frenchSpacing at key
  simp only [french_days13, Option.some.injEq] at h ⊢
  have e1 : y + 1 + 1 = y + 2 := by omega
  have e2 : y + 2 + 1 = y + 3 := by omega
  have e3 : y + 3 + 1 = y + 4 := by omega
  have e4 : y + 4 + 1 = y + 5 := by omega
  have e5 : y + 5 + 1 = y + 6 := by omega
  rw [e1, e2, e3, e4, e5]
  have := key (by omega)
  omega

/-- **C08.** The calendar never drifts: the first day of year `y` is less than one day off the line with slope
    365 + 683/2820 days a year (in units of 1/2820 day, from the epoch). -/
theorem C08_drift (y : Int) : ∃ j, dmyToDay 1 1 y REVOLUTIONARY = some j ∧
    -2728 ≤ (j - 2375475) * 2820 - y * (365 * 2820 + 683) ∧ (j - 2375475) * 2820 - y * (365 * 2820 + 683) ≤ 498 := by
  refine ⟨frenchR y, ?_, ?_⟩
  · rw [french_refines.dmyToDay (by omega) (by omega)]
    simp [Calendar.dayNumber, french_newYear]
  · unfold frenchR
    split_ifs <;> omega

/-- **C08.** The calendar as it was in use: years III, VII and XI were leap years, the others of I to XIV not,
    and 1 Vendémiaire I was 22 September 1792. -/
theorem C08_historical : (List.range 14).map (fun (i : Nat) => daysInMonth 13 ((i : Int) + 1) REVOLUTIONARY) =
    [5, 5, 6, 5, 5, 5, 6, 5, 5, 5, 6, 5, 5, 5].map some ∧
    dmyToDay 1 1 1 REVOLUTIONARY = dmyToDay 22 9 1792 GREGORIAN := by decide +kernel

/-! ## C09 -/

/-- **C09.** Noruz of the year 1 is 19 March 622 of the Julian calendar. -/
theorem C09_epoch : dmyToDay 1 1 1 PERSIAN = some 1948321 ∧ dmyToDay 19 3 622 JULIAN = some 1948321 := by
  decide +kernel

/-- The pattern of leap years after a year. -/
def persianSpacing (y : Int) : Prop :=
  daysInMonth 12 y PERSIAN = some 30 →
    daysInMonth 12 (y + 1) PERSIAN = some 29 ∧ daysInMonth 12 (y + 2) PERSIAN = some 29 ∧
    daysInMonth 12 (y + 3) PERSIAN = some 29 ∧
    (daysInMonth 12 (y + 4) PERSIAN = some 30 ∨
      (daysInMonth 12 (y + 4) PERSIAN = some 29 ∧ daysInMonth 12 (y + 5) PERSIAN = some 30))

instance (y : Int) : Decidable (persianSpacing y) := by unfold persianSpacing; infer_instance

theorem persianSpacing_table : ∀ (i : Fin 69) (j : Fin 50), (i : Nat) * 50 + (j : Nat) < 3418 →
    persianSpacing (((i : Nat) * 50 + (j : Nat) : Nat) - 1096) := by decide +kernel

/-- **C09.** Leap years of the Persian calendar come four or five years apart, in the whole supported range. -/
theorem C09_leap_years (y : Int) (h1 : -1096 ≤ y) (h2 : y + 5 ≤ 2326) (h : daysInMonth 12 y PERSIAN = some 30) :
    daysInMonth 12 (y + 1) PERSIAN = some 29 ∧ daysInMonth 12 (y + 2) PERSIAN = some 29 ∧
    daysInMonth 12 (y + 3) PERSIAN = some 29 ∧
    (daysInMonth 12 (y + 4) PERSIAN = some 30 ∨
      (daysInMonth 12 (y + 4) PERSIAN = some 29 ∧ daysInMonth 12 (y + 5) PERSIAN = some 30)) := by
  have := persianSpacing_table ⟨(y + 1096).toNat / 50, by omega⟩ ⟨(y + 1096).toNat % 50, by omega⟩ (by simp only; omega)
  simp only at this
  rw [show (((y + 1096).toNat / 50 * 50 + (y + 1096).toNat % 50 : Nat) : Int) - 1096 = y by omega] at this
  exact this h

example : daysInMonth 12 1403 PERSIAN = some 30 ∧ daysInMonth 13 3 REVOLUTIONARY = some 6 := by decide +kernel

/-! ## C12 -/

theorem two_passes {cal : Int} {c : Calendar} (hc : Refines cal c) (jd : Int)
    (h : ∀ Y, c.newYear Y ≤ jd → jd < c.newYear (Y + 1) → (approxYear jd cal - Y).natAbs ≤ 1) :
    ∃ r, dayToDmy 2 jd cal = some r := by
  obtain ⟨Y, yd, h1, h2, h3, h4⟩ := hc.search_steps jd
  have hs := h4 (approxYear jd cal)
  rw [hc.data Y] at h3
  obtain rfl := Option.some.inj h3
  have hb := h Y h1 (by rw [c.newYear_succ]; exact h2)
  have hmono : ∀ (k : Nat) (g : Int) (r : Search), searchYear (fun y => getCalendarData y cal) jd k g = some r →
      searchYear (fun y => getCalendarData y cal) jd (k + 1) g = some r := by
    intro k
    induction k with
    | zero => intro g r h; simp [searchYear] at h
    | succ k ih =>
      intro g r h
      rw [searchYear] at h ⊢
      split at h
      · exact h
      · exact ih _ _ h
  have h2 : searchYear (fun y => getCalendarData y cal) jd 2 (approxYear jd cal) = some (.found Y ⟨c.newYear Y, c.months Y⟩) := by
    rcases Nat.lt_or_ge (approxYear jd cal - Y).natAbs 1 with h0 | h0
    · rw [show (approxYear jd cal - Y).natAbs = 0 by omega] at hs
      exact hmono 1 _ _ hs
    · rw [show (approxYear jd cal - Y).natAbs = 1 by omega] at hs
      exact hs
  unfold dayToDmy
  simp only [calendarForJd_of_ne hc.notJG]
  rw [h2]
  exact ⟨_, rfl⟩

/-- **C12.** The guess is so good that two passes of the year loop are always enough: every day number of the
    Gregorian, Julian and Islamic calendars, and a thousand million days either way of the French and modern Persian
    ones. -/
theorem C12_two_passes (jd cal : Int) (h : cal = GREGORIAN ∨ cal = JULIAN ∨ cal = ISLAMIC ∨
      ((cal = REVOLUTIONARY ∨ cal = MODERN_PERSIAN) ∧ -1000000000 ≤ jd ∧ jd ≤ 1000000000)) :
    ∃ r, dayToDmy 2 jd cal = some r := by
  rcases h with rfl | rfl | rfl | ⟨rfl | rfl, h1, h2⟩
  · refine two_passes gregorian_refines jd fun Y a b => ?_
    rw [gregorian_newYear] at a b
    have : approxYear jd GREGORIAN = ((jd - 1721060) * 400) / 146097 := by
      unfold approxYear; rw [if_pos rfl, approxYearCore_eq _ _ _ _ (by decide) (by decide)]; rfl
    rw [this]
    omega
  · refine two_passes julian_refines jd fun Y a b => ?_
    rw [julian_newYear] at a b
    have : approxYear jd JULIAN = ((jd - 1721058) * 4) / 1461 := by
      unfold approxYear; rw [if_neg (by decide), if_pos rfl, approxYearCore_eq _ _ _ _ (by decide) (by decide)]; rfl
    rw [this]
    omega
  · refine two_passes islamic_refines jd fun Y a b => ?_
    rw [islamic_newYear] at a b
    have : approxYear jd ISLAMIC = ((jd - 1948085) * 30) / 10631 := by
      unfold approxYear
      rw [if_neg (by decide), if_neg (by decide), if_neg (by decide), if_pos rfl, approxYearCore_eq _ _ _ _ (by decide) (by decide)]; rfl
    rw [this]
    omega
  · refine two_passes french_refines jd fun Y a b => ?_
    rw [french_newYear] at a b
    have : approxYear jd REVOLUTIONARY = ((jd - 2375474) * 2147) / 784175 := by
      unfold approxYear
      rw [if_neg (by decide), if_neg (by decide), if_neg (by decide), if_neg (by decide), if_pos rfl,
        approxYearCore_eq _ _ _ _ (by decide) (by decide)]; rfl
    rw [this]
    have d1 : ∀ y, -2728 ≤ (frenchR y - 2375475) * 2820 - y * (365 * 2820 + 683) ∧
        (frenchR y - 2375475) * 2820 - y * (365 * 2820 + 683) ≤ 498 := by
      intro y
      unfold frenchR
      split_ifs <;> omega
    have e1 := d1 Y
    have e2 := d1 (Y + 1)
    omega
  · refine two_passes persian_refines jd fun Y a b => ?_
    rw [persian_newYear] at a b
    have : approxYear jd MODERN_PERSIAN = ((jd - 1947955) * 2147) / 784175 := by
      unfold approxYear
      rw [if_neg (by decide), if_neg (by decide), if_neg (by decide), if_neg (by decide), if_neg (by decide), if_pos (by decide),
        approxYearCore_eq _ _ _ _ (by decide) (by decide)]; rfl
    rw [this]
    have d1 : ∀ y, -2820 ≤ (persianModernJd0 y - 1947954) * 2820 - y * (365 * 2820 + 683) ∧
        (persianModernJd0 y - 1947954) * 2820 - y * (365 * 2820 + 683) ≤ 2820 := by
      intro y
      unfold persianModernJd0
      simp only [cmod_eq _ 2820 (by decide)]
      rw [tdiv_of_nonneg (by omega)]
      have : (y - (474 + (y - 474) % 2820)) = 2820 * ((y - 474) / 2820) := by omega
      rw [this, Int.mul_tdiv_cancel_left _ (by decide)]
      omega
    have e1 := d1 Y
    have e2 := d1 (Y + 1)
    omega

end Verif.Props
