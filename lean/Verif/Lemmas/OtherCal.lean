import Verif.Lemmas.Refine

/-! The Islamic, modern Persian and French Revolutionary year data are those of a calendar. -/

namespace Verif.Date

open Verif.Spec

/-! ### Islamic -/

theorem islamicLeap_iff (y : Int) : islamicLeap y ↔ ((y % 30) * 11 + 3) % 30 > 18 := by
  unfold islamicLeap
  have h : ∀ r : Fin 30, ((r.val : Int) ∈ [2, 5, 7, 10, 13, 16, 18, 21, 24, 26, 29] ↔
      ((r.val : Int) * 11 + 3) % 30 > 18) := by decide
  have := h ⟨(y % 30).toNat, by omega⟩
  have e : (((y % 30).toNat : Nat) : Int) = y % 30 := by omega
  simpa only [e] using this

theorem islamicData (y : Int) : islamicYearData y =
    ⟨1948086 + (y / 30) * 10631 + (y % 30) * 354 + ((y % 30) * 11 + 3) / 30, islamic.months y⟩ := by
  unfold islamicYearData
  simp only [cmod_eq y 30 (by omega)]
  have h0 : 0 ≤ y % 30 := by omega
  have e1 : (y - y % 30).tdiv 30 = y / 30 := by
    by_cases h : 0 ≤ y
    · rw [tdiv_of_nonneg (by omega)]; omega
    · rw [tdiv_of_nonpos (by omega)]; omega
  have e2 : (y % 30 * 11 + 3).tdiv 30 = (y % 30 * 11 + 3) / 30 := tdiv_of_nonneg (by omega)
  have e3 : (y % 30 * 11 + 3).tmod 30 = (y % 30 * 11 + 3) % 30 := Int.tmod_eq_emod_of_nonneg (by omega)
  rw [e1, e2, e3]
  congr 1
  simp only [islamic, islamicLeap_iff]
  by_cases h : (y % 30 * 11 + 3) % 30 > 18
  · simp only [h, if_true]; rfl
  · simp only [h, if_false]; rfl

theorem islamic_sum (y : Int) : islamic.yearLength y = if islamicLeap y then 355 else 354 := by
  unfold Calendar.yearLength islamic
  by_cases h : islamicLeap y <;> simp [h]

theorem islamic_newYear (y : Int) : islamic.newYear y =
    1948086 + (y / 30) * 10631 + (y % 30) * 354 + ((y % 30) * 11 + 3) / 30 := by
  refine (Calendar.newYear_unique islamic
    (fun y => 1948086 + (y / 30) * 10631 + (y % 30) * 354 + ((y % 30) * 11 + 3) / 30)
    (by decide) ?_ y).symm
  intro y
  simp only [islamic_sum]
  by_cases hl : islamicLeap y <;> simp only [hl, if_true, if_false] <;>
    rw [islamicLeap_iff] at hl <;> omega

theorem islamic_wf : WF islamic where
  len13 _ := rfl
  nonneg y := by unfold islamic; by_cases h : islamicLeap y <;> simp [h]
  pos y := by rw [islamic_sum]; split <;> omega

theorem islamic_refines : Refines ISLAMIC islamic where
  toWF := islamic_wf
  notJG := by decide
  data y := by
    have : getCalendarData y ISLAMIC = some (islamicYearData y) := by
      simp [getCalendarData, GREGORIAN, JULIAN, HEBREW, ISLAMIC]
    rw [this, islamicData, islamic_newYear]

/-! ### Modern Persian -/

theorem persianJd0 (y : Int) : persianModernJd0 y =
    1948320 + (((y - 474) % 2820 + 474) * 31 - 5) / 128 + ((y - 474) % 2820 + 473) * 365
      + (y - 474) / 2820 * 1029983 := by
  unfold persianModernJd0
  simp only [cmod_eq (y - 474) 2820 (by omega)]
  rw [tdiv_of_nonneg (by omega : 0 ≤ (474 + (y - 474) % 2820) * 31 - 5)]
  have e : (y - (474 + (y - 474) % 2820)).tdiv 2820 = (y - 474) / 2820 := by
    by_cases h : 474 ≤ y
    · rw [tdiv_of_nonneg (by omega)]; omega
    · rw [tdiv_of_nonpos (by omega)]; omega
  rw [e]
  omega

theorem persian_sum (y : Int) : persian.yearLength y = if persianLeap y then 366 else 365 := by
  unfold Calendar.yearLength persian
  by_cases h : persianLeap y <;> simp [h]

theorem persianJd0_succ (y : Int) :
    persianModernJd0 (y + 1) = persianModernJd0 y + if persianLeap y then 366 else 365 := by
  rw [persianJd0, persianJd0]
  have hlt : 0 ≤ (y - 474) % 2820 ∧ (y - 474) % 2820 < 2820 := by omega
  by_cases hw : (y - 474) % 2820 = 2819
  · have e1 : (y + 1 - 474) % 2820 = 0 := by omega
    have e2 : (y + 1 - 474) / 2820 = (y - 474) / 2820 + 1 := by omega
    have hl : ¬ persianLeap y := by unfold persianLeap; rw [hw]; decide
    rw [e1, e2, hw, if_neg hl]
    omega
  · have e1 : (y + 1 - 474) % 2820 = (y - 474) % 2820 + 1 := by omega
    have e2 : (y + 1 - 474) / 2820 = (y - 474) / 2820 := by omega
    rw [e1, e2]
    by_cases hl : persianLeap y
    · simp only [hl, if_true]
      unfold persianLeap at hl
      generalize (y - 474) % 2820 = r at *
      obtain ⟨k, hk⟩ : ∃ k, 31 * r = k := ⟨_, rfl⟩
      have e3 : (r + 474 + 38) * 682 % 2816 = 22 * ((k + 15872) % 128) := by omega
      rw [e3] at hl
      have e4 : (r + 474) * 31 - 5 = k + 14689 := by omega
      have e5 : (r + 1 + 474) * 31 - 5 = k + 14720 := by omega
      rw [e4, e5]
      have key : (k + 14720) / 128 = (k + 14689) / 128 + 1 := by
        clear e3 e4 e5 hk; omega
      omega
    · simp only [hl, if_false]
      unfold persianLeap at hl
      generalize (y - 474) % 2820 = r at *
      obtain ⟨k, hk⟩ : ∃ k, 31 * r = k := ⟨_, rfl⟩
      have e3 : (r + 474 + 38) * 682 % 2816 = 22 * ((k + 15872) % 128) := by omega
      rw [e3] at hl
      have e4 : (r + 474) * 31 - 5 = k + 14689 := by omega
      have e5 : (r + 1 + 474) * 31 - 5 = k + 14720 := by omega
      rw [e4, e5]
      have key : (k + 14720) / 128 = (k + 14689) / 128 := by
        clear e3 e4 e5 hk; omega
      omega

theorem persian_newYear (y : Int) : persian.newYear y = persianModernJd0 y + 1 := by
  refine (Calendar.newYear_unique persian (fun y => persianModernJd0 y + 1) (by decide) ?_ y).symm
  intro y
  simp only [persianJd0_succ, persian_sum]
  omega

theorem persian_wf : WF persian where
  len13 _ := rfl
  nonneg y := by unfold persian; by_cases h : persianLeap y <;> simp [h]
  pos y := by rw [persian_sum]; split <;> omega

theorem persian_refines : Refines MODERN_PERSIAN persian where
  toWF := persian_wf
  notJG := by decide
  data y := by
    have : getCalendarData y MODERN_PERSIAN = some (jalaliYearData y true) := by
      simp [getCalendarData, GREGORIAN, JULIAN, HEBREW, ISLAMIC, REVOLUTIONARY, PERSIAN, CHINESE,
        MODERN_PERSIAN]
    rw [this, persian_newYear]
    unfold jalaliYearData persian
    simp only [Bool.true_or, if_true, persianJd0_succ]
    by_cases h : persianLeap y
    · simp only [h, if_true]
      rw [show persianModernJd0 y + 366 + 1 - (persianModernJd0 y + 1) - 336 = 30 by omega]
      rfl
    · simp only [h, if_false]
      rw [show persianModernJd0 y + 365 + 1 - (persianModernJd0 y + 1) - 336 = 29 by omega]
      rfl

/-! ### French Revolutionary -/

/-- Value of the table-driven formula in each block. -/
def frenchR (y : Int) : Int :=
  if y < -814 then 2375474 + y * 365 - (-(405 + y * 683)) / 2820
  else if y < -492 then 2375474 + y * 365 - (-(439 + y * 683)) / 2820
  else if y < -331 then 2375474 + y * 365 - (-(498 + y * 683)) / 2820
  else if y < -108 then 2375474 + y * 365 - (-(469 + y * 683)) / 2820
  else if y < 0 then 2375474 + y * 365 - (-(419 + y * 683)) / 2820
  else if y < 144 then 2375475 + y * 365 + (393 + y * 683) / 2820
  else if y < 301 then 2375475 + y * 365 + (322 + y * 683) / 2820
  else if y < 487 then 2375475 + y * 365 + (184 + y * 683) / 2820
  else 2375475 + y * 365 + (92 + y * 683) / 2820

theorem frenchRevLoop_hit {y : Int} {i : Nat} {b d : Int} {bs ds : List Int} (v : Int)
    (h : y < b ∨ i = 8)
    (hv : REVOLUTIONARY_CALENDAR_EPOCH + y * 365 + (d + y * 683).tdiv 2820 - (if i < 5 then 1 else 0) = v)
    (h0 : v ≠ 0) : frenchRevLoop y i (b :: bs) (d :: ds) = some v := by
  unfold frenchRevLoop
  have : (if i < 5 then REVOLUTIONARY_CALENDAR_EPOCH + y * 365 + (d + y * 683).tdiv 2820 - 1
      else REVOLUTIONARY_CALENDAR_EPOCH + y * 365 + (d + y * 683).tdiv 2820) = v := by
    by_cases h5 : i < 5
    · rw [if_pos h5] at hv ⊢; exact hv
    · rw [if_neg h5] at hv ⊢; omega
  simp only [h, if_true, this, h0, if_false]

theorem frenchRevLoop_miss {y : Int} {i : Nat} {b d : Int} {bs ds : List Int} {r : Option Int}
    (h : ¬ y < b) (hi : i ≠ 8) (hr : frenchRevLoop y (i + 1) bs ds = r) :
    frenchRevLoop y i (b :: bs) (d :: ds) = r := by
  rw [frenchRevLoop, if_neg (by omega), hr]

theorem frenchRevYear_eq (y : Int) : frenchRevYear y = some (frenchR y) := by
  unfold frenchRevYear frenchBreaks frenchDeltas
  by_cases h0 : y < -814
  · have e := frenchR.eq_1 y
    simp only [h0, if_true] at e
    refine frenchRevLoop_hit _ (Or.inl h0) ?_ ?_
    · rw [tdiv_of_nonpos (by omega : 405 + y * 683 ≤ 0), e]; simp only [REVOLUTIONARY_CALENDAR_EPOCH]; omega
    · rw [e]; omega
  by_cases h1 : y < -492
  · refine frenchRevLoop_miss h0 (by decide) ?_
    have e := frenchR.eq_1 y
    simp only [h0, h1, if_true, if_false] at e
    refine frenchRevLoop_hit _ (Or.inl h1) ?_ ?_
    · rw [tdiv_of_nonpos (by omega : 439 + y * 683 ≤ 0), e]; simp only [REVOLUTIONARY_CALENDAR_EPOCH]; omega
    · rw [e]; omega
  by_cases h2 : y < -331
  · refine frenchRevLoop_miss h0 (by decide) ?_
    refine frenchRevLoop_miss h1 (by decide) ?_
    have e := frenchR.eq_1 y
    simp only [h0, h1, h2, if_true, if_false] at e
    refine frenchRevLoop_hit _ (Or.inl h2) ?_ ?_
    · rw [tdiv_of_nonpos (by omega : 498 + y * 683 ≤ 0), e]; simp only [REVOLUTIONARY_CALENDAR_EPOCH]; omega
    · rw [e]; omega
  by_cases h3 : y < -108
  · refine frenchRevLoop_miss h0 (by decide) ?_
    refine frenchRevLoop_miss h1 (by decide) ?_
    refine frenchRevLoop_miss h2 (by decide) ?_
    have e := frenchR.eq_1 y
    simp only [h0, h1, h2, h3, if_true, if_false] at e
    refine frenchRevLoop_hit _ (Or.inl h3) ?_ ?_
    · rw [tdiv_of_nonpos (by omega : 469 + y * 683 ≤ 0), e]; simp only [REVOLUTIONARY_CALENDAR_EPOCH]; omega
    · rw [e]; omega
  by_cases h4 : y < 0
  · refine frenchRevLoop_miss h0 (by decide) ?_
    refine frenchRevLoop_miss h1 (by decide) ?_
    refine frenchRevLoop_miss h2 (by decide) ?_
    refine frenchRevLoop_miss h3 (by decide) ?_
    have e := frenchR.eq_1 y
    simp only [h0, h1, h2, h3, h4, if_true, if_false] at e
    refine frenchRevLoop_hit _ (Or.inl h4) ?_ ?_
    · rw [tdiv_of_nonpos (by omega : 419 + y * 683 ≤ 0), e]; simp only [REVOLUTIONARY_CALENDAR_EPOCH]; omega
    · rw [e]; omega
  by_cases h5 : y < 144
  · refine frenchRevLoop_miss h0 (by decide) ?_
    refine frenchRevLoop_miss h1 (by decide) ?_
    refine frenchRevLoop_miss h2 (by decide) ?_
    refine frenchRevLoop_miss h3 (by decide) ?_
    refine frenchRevLoop_miss h4 (by decide) ?_
    have e := frenchR.eq_1 y
    simp only [h0, h1, h2, h3, h4, h5, if_true, if_false] at e
    refine frenchRevLoop_hit _ (Or.inl h5) ?_ ?_
    · rw [tdiv_of_nonneg (by omega : 0 ≤ 393 + y * 683), e]; simp only [REVOLUTIONARY_CALENDAR_EPOCH]; omega
    · rw [e]; omega
  by_cases h6 : y < 301
  · refine frenchRevLoop_miss h0 (by decide) ?_
    refine frenchRevLoop_miss h1 (by decide) ?_
    refine frenchRevLoop_miss h2 (by decide) ?_
    refine frenchRevLoop_miss h3 (by decide) ?_
    refine frenchRevLoop_miss h4 (by decide) ?_
    refine frenchRevLoop_miss h5 (by decide) ?_
    have e := frenchR.eq_1 y
    simp only [h0, h1, h2, h3, h4, h5, h6, if_true, if_false] at e
    refine frenchRevLoop_hit _ (Or.inl h6) ?_ ?_
    · rw [tdiv_of_nonneg (by omega : 0 ≤ 322 + y * 683), e]; simp only [REVOLUTIONARY_CALENDAR_EPOCH]; omega
    · rw [e]; omega
  by_cases h7 : y < 487
  · refine frenchRevLoop_miss h0 (by decide) ?_
    refine frenchRevLoop_miss h1 (by decide) ?_
    refine frenchRevLoop_miss h2 (by decide) ?_
    refine frenchRevLoop_miss h3 (by decide) ?_
    refine frenchRevLoop_miss h4 (by decide) ?_
    refine frenchRevLoop_miss h5 (by decide) ?_
    refine frenchRevLoop_miss h6 (by decide) ?_
    have e := frenchR.eq_1 y
    simp only [h0, h1, h2, h3, h4, h5, h6, h7, if_true, if_false] at e
    refine frenchRevLoop_hit _ (Or.inl h7) ?_ ?_
    · rw [tdiv_of_nonneg (by omega : 0 ≤ 184 + y * 683), e]; simp only [REVOLUTIONARY_CALENDAR_EPOCH]; omega
    · rw [e]; omega
  · refine frenchRevLoop_miss h0 (by decide) ?_
    refine frenchRevLoop_miss h1 (by decide) ?_
    refine frenchRevLoop_miss h2 (by decide) ?_
    refine frenchRevLoop_miss h3 (by decide) ?_
    refine frenchRevLoop_miss h4 (by decide) ?_
    refine frenchRevLoop_miss h5 (by decide) ?_
    refine frenchRevLoop_miss h6 (by decide) ?_
    refine frenchRevLoop_miss h7 (by decide) ?_
    have e := frenchR.eq_1 y
    simp only [h0, h1, h2, h3, h4, h5, h6, h7, if_false] at e
    refine frenchRevLoop_hit _ (Or.inr rfl) ?_ ?_
    · rw [tdiv_of_nonneg (by omega : 0 ≤ 92 + y * 683), e]; simp only [REVOLUTIONARY_CALENDAR_EPOCH]; omega
    · rw [e]; omega

theorem frenchR_succ (y : Int) : frenchR (y + 1) = frenchR y + 365 ∨ frenchR (y + 1) = frenchR y + 366 := by
  unfold frenchR
  by_cases h0 : y + 1 < -814
  · simp only [h0, show y < -814 by omega, if_true]; omega
  by_cases h0' : y < -814
  · simp only [h0, h0', show y + 1 < -492 by omega, if_true, if_false]; omega
  by_cases h1 : y + 1 < -492
  · simp only [h0, h0', h1, show y < -492 by omega, if_true, if_false]; omega
  by_cases h1' : y < -492
  · simp only [h0, h0', h1, h1', show y + 1 < -331 by omega, if_true, if_false]; omega
  by_cases h2 : y + 1 < -331
  · simp only [h0, h0', h1, h1', h2, show y < -331 by omega, if_true, if_false]; omega
  by_cases h2' : y < -331
  · simp only [h0, h0', h1, h1', h2, h2', show y + 1 < -108 by omega, if_true, if_false]; omega
  by_cases h3 : y + 1 < -108
  · simp only [h0, h0', h1, h1', h2, h2', h3, show y < -108 by omega, if_true, if_false]; omega
  by_cases h3' : y < -108
  · simp only [h0, h0', h1, h1', h2, h2', h3, h3', show y + 1 < 0 by omega, if_true, if_false]; omega
  by_cases h4 : y + 1 < 0
  · simp only [h0, h0', h1, h1', h2, h2', h3, h3', h4, show y < 0 by omega, if_true, if_false]; omega
  by_cases h4' : y < 0
  · simp only [h0, h0', h1, h1', h2, h2', h3, h3', h4, h4', show y + 1 < 144 by omega, if_true, if_false]; omega
  by_cases h5 : y + 1 < 144
  · simp only [h0, h0', h1, h1', h2, h2', h3, h3', h4, h4', h5, show y < 144 by omega, if_true, if_false]; omega
  by_cases h5' : y < 144
  · simp only [h0, h0', h1, h1', h2, h2', h3, h3', h4, h4', h5, h5', show y + 1 < 301 by omega, if_true, if_false]; omega
  by_cases h6 : y + 1 < 301
  · simp only [h0, h0', h1, h1', h2, h2', h3, h3', h4, h4', h5, h5', h6, show y < 301 by omega, if_true, if_false]; omega
  by_cases h6' : y < 301
  · simp only [h0, h0', h1, h1', h2, h2', h3, h3', h4, h4', h5, h5', h6, h6', show y + 1 < 487 by omega, if_true, if_false]; omega
  by_cases h7 : y + 1 < 487
  · simp only [h0, h0', h1, h1', h2, h2', h3, h3', h4, h4', h5, h5', h6, h6', h7, show y < 487 by omega, if_true, if_false]; omega
  by_cases h7' : y < 487
  · simp only [h0, h0', h1, h1', h2, h2', h3, h3', h4, h4', h5, h5', h6, h6', h7, h7', if_true, if_false]; omega
  · simp only [h0, h0', h1, h1', h2, h2', h3, h3', h4, h4', h5, h5', h6, h6', h7, h7', if_false]; omega

/-- The French Revolutionary calendar as a specification calendar: thirteen months, the last
    with the remaining days. -/
def french : Calendar where
  months y := List.replicate 12 30 ++ [frenchR (y + 1) - frenchR y - 360]
  firstDayOfYear0 := frenchR 0

theorem french_sum (y : Int) : french.yearLength y = frenchR (y + 1) - frenchR y := by
  unfold Calendar.yearLength french
  simp [List.replicate]
  omega

theorem french_newYear (y : Int) : french.newYear y = frenchR y := by
  refine (Calendar.newYear_unique french frenchR rfl ?_ y).symm
  intro y; rw [french_sum]; omega

theorem french_months (y : Int) :
    french.months y = List.replicate 12 30 ++ [5] ∨ french.months y = List.replicate 12 30 ++ [6] := by
  unfold french
  rcases frenchR_succ y with h | h
  · left; simp only [h]; rw [show frenchR y + 365 - frenchR y - 360 = 5 by omega]
  · right; simp only [h]; rw [show frenchR y + 366 - frenchR y - 360 = 6 by omega]

theorem french_wf : WF french where
  len13 y := by rcases french_months y with h | h <;> simp [h]
  nonneg y := by rcases french_months y with h | h <;> simp [h]
  pos y := by rw [french_sum]; rcases frenchR_succ y with h | h <;> omega

theorem french_refines : Refines REVOLUTIONARY french where
  toWF := french_wf
  notJG := by decide
  data y := by
    have : getCalendarData y REVOLUTIONARY = revolutionaryYearData y := by
      simp [getCalendarData, GREGORIAN, JULIAN, HEBREW, ISLAMIC, REVOLUTIONARY]
    rw [this, french_newYear]
    unfold revolutionaryYearData
    simp only [frenchRevYear_eq]
    have : schar (frenchR (y + 1) - frenchR y - 360) = frenchR (y + 1) - frenchR y - 360 := by
      apply schar_eq <;> rcases frenchR_succ y with h | h <;> omega
    simp [this, french]

end Verif.Date
