import Verif.Lemmas.RangeCal

/-! Whole-table checks for the Persian (astronomical) and Chinese calendars. -/

namespace Verif.Date

open Verif.Spec

/-! ### Persian -/

def persianF (y : Int) : YearData := jalaliYearData y false

/-- The distance from one Persian New Year to the next. -/
theorem persian_table : ∀ i < 163, ∀ j < 21,
    (jalaliJd0 (-1095 + 21 * (i : Nat) + (j : Nat)) - jalaliJd0 (-1096 + 21 * (i : Nat) + (j : Nat)) - 365).toNat ≤ 1 ∧
    0 ≤ jalaliJd0 (-1095 + 21 * (i : Nat) + (j : Nat)) - jalaliJd0 (-1096 + 21 * (i : Nat) + (j : Nat)) - 365 := by
  decide +kernel

theorem persian_year (y : Int) (h1 : -1096 ≤ y) (h2 : y ≤ 2326) :
    jalaliJd0 (y + 1) = jalaliJd0 y + 365 ∨ jalaliJd0 (y + 1) = jalaliJd0 y + 366 := by
  have := persian_table ((y + 1096).toNat / 21) (by omega) ((y + 1096).toNat % 21) (by omega)
  rw [show -1096 + 21 * (((y + 1096).toNat / 21 : Nat) : Int) + (((y + 1096).toNat % 21 : Nat) : Int) = y by omega,
    show -1095 + 21 * (((y + 1096).toNat / 21 : Nat) : Int) + (((y + 1096).toNat % 21 : Nat) : Int) = y + 1 by omega] at this
  omega

theorem persian_last : persianF 2327 = ⟨2797874, List.replicate 6 31 ++ List.replicate 5 30 ++ [126, 0]⟩ := by
  decide +kernel

theorem persianF_eq (y : Int) (h1 : -1096 ≤ y) (h2 : y ≤ 2327) :
    persianF y = ⟨jalaliJd0 y + 1,
      List.replicate 6 31 ++ List.replicate 5 30 ++ [schar (jalaliJd0 (y + 1) - jalaliJd0 y - 336), 0]⟩ := by
  unfold persianF jalaliYearData
  have : ¬ (y < LOWER_PERSIAN_YEAR ∨ y > UPPER_PERSIAN_YEAR) := by
    simp only [LOWER_PERSIAN_YEAR, UPPER_PERSIAN_YEAR]; omega
  simp only [this, decide_false, Bool.or_false, Bool.false_eq_true, if_false]
  congr 4
  rw [show jalaliJd0 (y + 1) + 1 - (jalaliJd0 y + 1) = jalaliJd0 (y + 1) - jalaliJd0 y by omega]

theorem persian_months (y : Int) (h1 : -1096 ≤ y) (h2 : y ≤ 2326) :
    (persianF y).months = List.replicate 6 31 ++ List.replicate 5 30 ++ [29, 0] ∨
    (persianF y).months = List.replicate 6 31 ++ List.replicate 5 30 ++ [30, 0] := by
  rw [persianF_eq y h1 (by omega)]
  rcases persian_year y h1 h2 with h | h
  · left; rw [h, show jalaliJd0 y + 365 - jalaliJd0 y - 336 = 29 by omega]; rfl
  · right; rw [h, show jalaliJd0 y + 366 - jalaliJd0 y - 336 = 30 by omega]; rfl

theorem persian_next (y : Int) (h1 : -1096 ≤ y) (h2 : y ≤ 2326) :
    (persianF y).stop = (persianF (y + 1)).start := by
  unfold YearData.stop
  rw [persianF_eq y h1 (by omega), persianF_eq (y + 1) (by omega) (by omega)]
  rcases persian_year y h1 h2 with h | h
  · rw [h, show jalaliJd0 y + 365 - jalaliJd0 y - 336 = 29 by omega]
    simp only [show schar 29 = 29 from rfl, List.replicate]; simp; omega
  · rw [h, show jalaliJd0 y + 366 - jalaliJd0 y - 336 = 30 by omega]
    simp only [show schar 30 = 30 from rfl, List.replicate]; simp; omega

theorem persian_months_nonneg (y : Int) (h1 : -1096 ≤ y) (h2 : y ≤ 2327) :
    ∀ m ∈ (persianF y).months, 0 ≤ m := by
  by_cases h : y = 2327
  · subst h; rw [persian_last]; decide
  · rcases persian_months y h1 (by omega) with e | e <;> rw [e] <;> decide

theorem persian_chain :
    Chain (fun y => getCalendarData y PERSIAN) persianF (-1096) 2327 where
  data_eq y h1 h2 := by
    have : ¬ (y < LOWER_PERSIAN_YEAR ∨ y > UPPER_PERSIAN_YEAR) := by
      simp only [LOWER_PERSIAN_YEAR, UPPER_PERSIAN_YEAR]; omega
    simp [getCalendarData, GREGORIAN, JULIAN, HEBREW, ISLAMIC, REVOLUTIONARY, PERSIAN, this, persianF]
  below y h := by
    have : y < LOWER_PERSIAN_YEAR ∨ y > UPPER_PERSIAN_YEAR := by
      simp only [LOWER_PERSIAN_YEAR, UPPER_PERSIAN_YEAR]; omega
    simp [getCalendarData, GREGORIAN, JULIAN, HEBREW, ISLAMIC, REVOLUTIONARY, PERSIAN, this]
  above y h := by
    have : y < LOWER_PERSIAN_YEAR ∨ y > UPPER_PERSIAN_YEAR := by
      simp only [LOWER_PERSIAN_YEAR, UPPER_PERSIAN_YEAR]; omega
    simp [getCalendarData, GREGORIAN, JULIAN, HEBREW, ISLAMIC, REVOLUTIONARY, PERSIAN, this]
  nonempty y h1 h2 := by
    unfold YearData.stop
    by_cases h : y = 2327
    · subst h; rw [persian_last]; decide
    · rcases persian_months y h1 (by omega) with e | e <;> rw [e] <;> simp [List.replicate] <;> omega
  chain y h1 h2 := by
    rw [persian_next y h1 (by omega)]; omega

/-! ### Chinese -/

def chineseF (y : Int) : YearData :=
  chineseUnpack y (chinesePacked (y - chineseYear0).toNat)

/-- The years after which the table leaves out a day. -/
def chineseGapYears : List Int := [-33, 119, 187, 301, 339, 711, 1064, 1827]

theorem chinese_dims : chineseNYears = 10000 ∧ chineseYear0 = -363 := by decide +kernel

/-- Days in the year packed as `p`. -/
def packedDays (p : Nat) : Nat :=
  348 + p % 2 + p / 2 % 2 + p / 4 % 2 + p / 8 % 2 + p / 16 % 2 + p / 32 % 2 + p / 64 % 2
    + p / 128 % 2 + p / 256 % 2 + p / 512 % 2 + p / 1024 % 2 + p / 2048 % 2
    + cond (Nat.beq (p / 8192 % 14) 0) 0 (29 + p / 4096 % 2)

/-- Change of `y * 365 + y / 4` from year `n - 363` to the next. -/
def jump (n : Nat) : Nat :=
  365 + cond (Nat.blt n 363) (cond (Nat.beq (n % 4) 3) 1 0) (cond (Nat.beq (n % 4) 2) 1 0)

def gapAt (n : Nat) : Nat :=
  cond ([330, 482, 550, 664, 702, 1074, 1427, 2190].any (Nat.beq n)) 1 0

/-- Year `n - 363`, packed as `p`, is followed by the year packed as `p'`. -/
def chk (p p' n : Nat) : Bool :=
  Nat.beq (packedDays p + p / 114688 + gapAt n) (jump n + p' / 114688)

def allBelow (f : Nat → Bool) : Nat → Bool
  | 0 => true
  | n + 1 => f n && allBelow f n

theorem allBelow_spec {f : Nat → Bool} : ∀ {n : Nat}, allBelow f n = true → ∀ k < n, f k = true := by
  intro n
  induction n with
  | zero => intro _ k hk; omega
  | succ n ih =>
    intro h k hk
    simp only [allBelow, Bool.and_eq_true] at h
    by_cases e : k = n
    · rw [e]; exact h.1
    · exact ih h.2 k (by omega)

/-- Entry `j` of a row. -/
def entry (R j : Nat) : Nat := R / 2 ^ (24 * j) % 16777216

def rowChk (R R' i : Nat) : Bool :=
  allBelow (fun j => chk (entry R j) (entry R (j + 1)) (100 * i + j)) 99 &&
  chk (entry R 99) (entry R' 0) (100 * i + 99)

def rowsChk : List Nat → Nat → Bool
  | R :: R' :: rest, i => rowChk R R' i && rowsChk (R' :: rest) (i + 1)
  | [R], i => allBelow (fun j => chk (entry R j) (entry R (j + 1)) (100 * i + j)) 99
  | [], _ => true

theorem rows_checked : rowsChk chineseRows 0 = true := by decide +kernel

theorem rowsChk_spec : ∀ (l : List Nat) (i : Nat), rowsChk l i = true → ∀ k j, k < l.length → j < 100 →
    (100 * k + j + 1 < 100 * l.length) →
    chk (entry (l.getD k 0) j) (entry (l.getD ((100 * k + j + 1) / 100) 0) ((100 * k + j + 1) % 100))
      (100 * (i + k) + j) = true := by
  intro l
  induction l with
  | nil => intro i _ k j hk; simp at hk
  | cons R l ih =>
    intro i h k j hk hj hlast
    match l with
    | [] =>
      simp only [List.length_cons, List.length_nil] at hk hlast
      have : k = 0 := by omega
      subst this
      simp only [rowsChk] at h
      have := allBelow_spec h j (by omega)
      rw [show (100 * 0 + j + 1) / 100 = 0 by omega, show (100 * 0 + j + 1) % 100 = j + 1 by omega]
      simpa using this
    | R' :: rest =>
      simp only [rowsChk, Bool.and_eq_true] at h
      match k with
      | 0 =>
        have h1 := h.1
        simp only [rowChk, Bool.and_eq_true] at h1
        by_cases hj9 : j < 99
        · have := allBelow_spec h1.1 j hj9
          rw [show (100 * 0 + j + 1) / 100 = 0 by omega, show (100 * 0 + j + 1) % 100 = j + 1 by omega]
          simpa using this
        · have : j = 99 := by omega
          subst this
          simpa using h1.2
      | k + 1 =>
        have := ih (i + 1) h.2 k j (by simpa using hk) hj (by simp only [List.length_cons] at hlast ⊢; omega)
        rw [show (100 * (k + 1) + j + 1) / 100 = (100 * k + j + 1) / 100 + 1 by omega,
          show (100 * (k + 1) + j + 1) % 100 = (100 * k + j + 1) % 100 by omega]
        rw [show i + 1 + k = i + (k + 1) by omega] at this
        simpa using this

theorem chinesePacked_eq (n : Nat) :
    chinesePacked n = entry (chineseRows.getD (n / 100) 0) (n % 100) := by
  unfold chinesePacked chineseByte entry
  rw [if_neg (by omega), if_neg (by omega), if_neg (by omega)]
  rw [show (4 + 3 * n + 2 - 4) / 300 = n / 100 by omega, show (4 + 3 * n + 1 - 4) / 300 = n / 100 by omega,
    show (4 + 3 * n - 4) / 300 = n / 100 by omega,
    show 8 * ((4 + 3 * n + 2 - 4) % 300) = 24 * (n % 100) + 16 by omega,
    show 8 * ((4 + 3 * n + 1 - 4) % 300) = 24 * (n % 100) + 8 by omega,
    show 8 * ((4 + 3 * n - 4) % 300) = 24 * (n % 100) by omega]
  generalize chineseRows.getD (n / 100) 0 = R
  generalize 24 * (n % 100) = b
  rw [Nat.shiftRight_eq_div_pow, Nat.shiftRight_eq_div_pow, Nat.shiftRight_eq_div_pow, Nat.pow_add, Nat.pow_add,
    ← Nat.div_div_eq_div_mul, ← Nat.div_div_eq_div_mul]
  generalize R / 2 ^ b = x
  omega

theorem chinese_chk (n : Nat) (hn : n < 9999) :
    chk (chinesePacked n) (chinesePacked (n + 1)) n = true := by
  have hl : chineseRows.length = 100 := by decide +kernel
  have := rowsChk_spec chineseRows 0 rows_checked (n / 100) (n % 100) (by omega) (by omega) (by omega)
  rw [chinesePacked_eq, chinesePacked_eq]
  rwa [show 100 * (n / 100) + n % 100 + 1 = n + 1 by omega, show 100 * (0 + n / 100) + n % 100 = n by omega] at this

theorem chineseMonth_eq (p i : Nat) : chineseMonth p i = 29 + (p / 2 ^ i % 2 : Nat) := by
  unfold chineseMonth
  rw [Nat.shiftRight_eq_div_pow]
  split <;> omega

theorem chineseUnpack_stop (y : Int) (p : Nat) :
    (chineseUnpack y p).stop = (chineseUnpack y p).start + packedDays p := by
  have hr : List.range 12 = [0, 1, 2, 3, 4, 5, 6, 7, 8, 9, 10, 11] := by decide
  unfold YearData.stop chineseUnpack packedDays
  simp only [hr, List.map, chineseMonth_eq, Nat.shiftRight_eq_div_pow]
  by_cases h : p / 8192 % 14 = 0
  · have : Nat.beq (p / 8192 % 14) 0 = true := by rw [h]; rfl
    simp [h]
    omega
  · have : Nat.beq (p / 8192 % 14) 0 = false := by
      cases e : Nat.beq (p / 8192 % 14) 0
      · rfl
      · exact absurd (Nat.eq_of_beq_eq_true e) h
    simp [h, this]
    omega

/-- Length of the gap after a table year. -/
theorem chinese_next (y : Int) (h1 : -363 ≤ y) (h2 : y < 9636) :
    (chineseF (y + 1)).start = (chineseF y).stop + if y ∈ chineseGapYears then 1 else 0 := by
  have hc := chinese_chk (y + 363).toNat (by omega)
  unfold chineseF
  rw [chinese_dims.2, chineseUnpack_stop]
  rw [show (y - -363).toNat = (y + 363).toNat by omega, show (y + 1 - -363).toNat = (y + 363).toNat + 1 by omega]
  have hc' := Nat.eq_of_beq_eq_true hc
  have hg : (gapAt (y + 363).toNat : Int) = if y ∈ chineseGapYears then 1 else 0 := by
    unfold gapAt chineseGapYears
    simp only [List.any, List.mem_cons, List.not_mem_nil, or_false]
    by_cases hy : y = -33 ∨ y = 119 ∨ y = 187 ∨ y = 301 ∨ y = 339 ∨ y = 711 ∨ y = 1064 ∨ y = 1827
    · rw [if_pos hy]
      rcases hy with h | h | h | h | h | h | h | h <;> subst h <;> rfl
    · rw [if_neg hy]
      have hb : ∀ m : Nat, (y + 363).toNat ≠ m → Nat.beq (y + 363).toNat m = false := by
        intro m hm
        cases e : Nat.beq (y + 363).toNat m
        · rfl
        · exact absurd (Nat.eq_of_beq_eq_true e) hm
      rw [hb 330 (by omega), hb 482 (by omega), hb 550 (by omega), hb 664 (by omega), hb 702 (by omega),
        hb 1074 (by omega), hb 1427 (by omega), hb 2190 (by omega)]
      rfl
  rw [← hg]
  have hj : (jump (y + 363).toNat : Int) = (y + 1) * 365 + (y + 1).tdiv 4 - (y * 365 + y.tdiv 4) := by
    unfold jump
    have hb : ∀ a b : Nat, Nat.beq a b = decide (a = b) := by
      intro a b
      cases e : Nat.beq a b
      · have := Nat.ne_of_beq_eq_false e; simp [this]
      · have := Nat.eq_of_beq_eq_true e; simp [this]
    have hlt : Nat.blt (y + 363).toNat 363 = decide (y < 0) := by
      by_cases h : y < 0
      · have : Nat.blt (y + 363).toNat 363 = true := by rw [Nat.blt_eq]; omega
        simp [this, h]
      · have : ¬ Nat.blt (y + 363).toNat 363 = true := by rw [Nat.blt_eq]; omega
        simp [this, h]
    rw [hlt, hb, hb]
    by_cases h : y < 0
    · rw [tdiv_of_nonpos (by omega : y ≤ 0), tdiv_of_nonpos (by omega : y + 1 ≤ 0)]
      simp only [h, decide_true, cond_true]
      by_cases h4 : (y + 363).toNat % 4 = 3
      · simp only [h4, decide_true, cond_true]; omega
      · simp only [h4, decide_false, cond_false]; omega
    · rw [tdiv_of_nonneg (by omega : 0 ≤ y), tdiv_of_nonneg (by omega : 0 ≤ y + 1)]
      simp only [h, decide_false, cond_false]
      by_cases h4 : (y + 363).toNat % 4 = 2
      · simp only [h4, decide_true, cond_true]; omega
      · simp only [h4, decide_false, cond_false]; omega
  simp only [chineseUnpack, Nat.shiftRight_eq_div_pow]
  generalize chinesePacked (y + 363).toNat = p at *
  generalize chinesePacked ((y + 363).toNat + 1) = p' at *
  have e1 : p / 2 ^ 13 / 14 = p / 114688 := by omega
  have e2 : p' / 2 ^ 13 / 14 = p' / 114688 := by omega
  rw [e1, e2]
  omega

theorem chinese_months_nonneg (y : Int) : ∀ m ∈ (chineseF y).months, 0 ≤ m := by
  have hm : ∀ p i, 0 ≤ chineseMonth p i := by intro p i; unfold chineseMonth; split <;> omega
  intro m h
  simp only [chineseF, chineseUnpack, List.mem_append, List.mem_map, List.mem_cons, List.not_mem_nil,
    or_false] at h
  rcases h with ⟨i, _, rfl⟩ | rfl
  · exact hm _ _
  · split
    · exact hm _ _
    · omega

theorem packedDays_ge (p : Nat) : 348 ≤ packedDays p := by unfold packedDays; omega

theorem chinese_chain : Chain (fun y => getCalendarData y CHINESE) chineseF (-363) 9636 where
  data_eq y h1 h2 := by
    have : ¬ (y - -363 < 0 ∨ y - -363 ≥ 10000) := by omega
    simp [getCalendarData, GREGORIAN, JULIAN, HEBREW, ISLAMIC, REVOLUTIONARY, PERSIAN, CHINESE,
      chineseYearData, chinese_dims.1, chinese_dims.2, chineseF] at this ⊢
    omega
  below y h := by
    have : y - -363 < 0 := by omega
    simp [getCalendarData, GREGORIAN, JULIAN, HEBREW, ISLAMIC, REVOLUTIONARY, PERSIAN, CHINESE,
      chineseYearData, chinese_dims.1, chinese_dims.2]
    omega
  above y h := by
    simp [getCalendarData, GREGORIAN, JULIAN, HEBREW, ISLAMIC, REVOLUTIONARY, PERSIAN, CHINESE,
      chineseYearData, chinese_dims.1, chinese_dims.2]
    omega
  nonempty y _ _ := by
    unfold chineseF
    rw [chineseUnpack_stop]
    have := packedDays_ge (chinesePacked (y - chineseYear0).toNat)
    omega
  chain y h1 h2 := by
    rw [chinese_next y h1 h2]
    split <;> omega

theorem chinese_first : (chineseF (-363)).start = 625379 := by decide +kernel
theorem chinese_final : (chineseF 9636).stop = 4277781 := by decide +kernel
theorem chinese_gap_stop :
    chineseGapYears.map (fun y => (chineseF y).stop) =
      [746276, 801793, 826629, 868267, 882146, 1018016, 1146947, 1425627] := by decide +kernel

end Verif.Date
