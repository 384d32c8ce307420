import Verif.Model.PsCal
import Verif.Spec.Week
import Mathlib.Tactic.SplitIfs
import Mathlib.Tactic.Tauto
import Mathlib.Tactic.IntervalCases

/-!
# C114: the layout of calendars
-/

namespace Verif.Props

open Verif Verif.Date Verif.PsCal Verif.Spec.Week

/-! ## Days and months -/

/-- Whether the month begins in the Julian calendar. -/
def old (month year : Int) : Bool := decide (¬(year > 1582 ∨ (year = 1582 ∧ month > 10)))

theorem year_data (day month year : Int) (hd : day ≤ 5) :
    getCalendarData year (calendarForDate day month year JULIAN_GREGORIAN) = some (julGregYearData year (old month year)) := by
  have hc : calendarForDate day month year JULIAN_GREGORIAN = if year > 1582 ∨ (year = 1582 ∧ month > 10) then GREGORIAN else JULIAN := by
    unfold calendarForDate
    rw [if_pos rfl]
    have : (year > 1582 ∨ (year = 1582 ∧ (month > 10 ∨ (month = 10 ∧ day > 5)))) ↔ (year > 1582 ∨ (year = 1582 ∧ month > 10)) := by omega
    by_cases h : year > 1582 ∨ (year = 1582 ∧ month > 10)
    · rw [if_pos h, if_pos (this.2 h)]
    · rw [if_neg h, if_neg (fun h' => h (this.1 h'))]
  rw [hc]
  unfold old
  by_cases h : year > 1582 ∨ (year = 1582 ∧ month > 10)
  · rw [if_pos h, decide_eq_false (not_not.2 h)]
    unfold getCalendarData
    rw [if_pos (Or.inl rfl)]
    rfl
  · rw [if_neg h, decide_eq_true h]
    unfold getCalendarData
    rw [if_pos (Or.inr rfl)]
    rfl

theorem before_eq (month year : Int) (h2 : month ≤ 13) :
    before month year = some ((julGregYearData year (old month year)).start + ((julGregYearData year (old month year)).months.take (month - 1).toNat).sum - 1) := by
  unfold before dmyToDay
  rw [year_data 0 month year (by decide)]
  simp only
  rw [if_neg (by decide), if_pos (by omega)]
  congr 1

/-- C114: the number of days is that of the month, October 1582 excepted. -/
theorem C114_length (month year : Int) (h1 : 1 ≤ month) (h2 : month ≤ 12) (hne : ¬(month = 10 ∧ year = 1582)) :
    ∃ n, length month year = some n ∧ daysInMonth month year JULIAN_GREGORIAN = some n ∧ 28 ≤ n ∧ n ≤ 31 := by
  have hs : old (month + 1) year = old month year := decide_eq_decide.2 (by omega)
  unfold length
  rw [before_eq month year (by omega), before_eq (month + 1) year (by omega), hs]
  have hd : daysInMonth month year JULIAN_GREGORIAN = (julGregYearData year (old month year)).months[(month - 1).toNat]? := by
    unfold daysInMonth dmyToDay
    rw [year_data (-999) month year (by decide)]
    simp only
    rw [if_pos trivial, if_pos (by omega)]
  rw [hd]
  generalize old month year = b
  simp only [Option.bind_some]
  generalize (julGregYearData year b).start = s
  have hm : ∃ f : Int, (f = 28 ∨ f = 29) ∧ (julGregYearData year b).months = [31, f, 31, 30, 31, 30, 31, 31, 30, 31, 30, 31, 0] := by
    unfold julGregYearData
    exact ⟨_, by split_ifs <;> simp, rfl⟩
  obtain ⟨f, hf, hm⟩ := hm
  rw [hm]
  have hcases : month = 1 ∨ month = 2 ∨ month = 3 ∨ month = 4 ∨ month = 5 ∨ month = 6 ∨ month = 7 ∨ month = 8 ∨ month = 9 ∨ month = 10 ∨ month = 11 ∨
    month = 12 := by omega
  rcases hcases with rfl | rfl | rfl | rfl | rfl | rfl | rfl | rfl | rfl | rfl | rfl | rfl <;>
    refine ⟨_, rfl, ?_, ?_, ?_⟩ <;> simp <;> omega

/-- Finding: October 1582 is drawn with the days 1 to 21; what is drawn as the fifth is the fifteenth. -/
theorem C114_october : length 10 1582 = some 21 ∧
    ∃ a, before 10 1582 = some a ∧ dmyToDay 4 10 1582 JULIAN_GREGORIAN = some (a + 4) ∧ dmyToDay 15 10 1582 JULIAN_GREGORIAN = some (a + 5) := by
  refine ⟨by decide, _, rfl, by decide, by decide⟩

/-! ## Cells -/

theorem start_nonneg {a : Int} (h : -1 ≤ a) : start a = (a + 1) % 7 := by
  unfold start
  rw [Int.tmod_eq_emod_of_nonneg (by omega)]

/-- The place of a day, by cases: a cell in the order of days; below the page two in one cell, or wrapped to the top. -/
theorem place_eq (wrap : Bool) {n sl i : Int} (h1 : 1 ≤ i) (h2 : i ≤ 31) (s1 : 0 ≤ sl) (s2 : sl ≤ 6) :
    row sl i = 4 - (i + sl) / 7 + (if sl = 6 then 1 else 0) ∧ (place wrap n sl i).x = (i + sl) % 7 ∧
    (place wrap n sl i).y = (if row sl i < 0 then (if wrap then 4 else 0) else row sl i) ∧
    (place wrap n sl i).text = (if row sl i < 0 ∧ wrap = false then none else some (label wrap n sl i)) := by
  have hr : row sl i = 4 - (i + sl) / 7 + (if sl = 6 then 1 else 0) := by
    unfold row
    rw [Int.tdiv_eq_ediv_of_nonneg (by omega)]
    split_ifs <;> omega
  refine ⟨hr, ?_, ?_, ?_⟩
  · unfold place
    rw [Int.tmod_eq_emod_of_nonneg (by omega)]
    split_ifs <;> rfl
  · unfold place wrapped
    generalize row sl i = r
    by_cases hn : r < 0
    · cases wrap
      · simp [hn, not_le.2 hn]
      · simp [hn]
    · simp [hn, not_lt.1 hn]
  · unfold place wrapped
    generalize row sl i = r
    by_cases hn : r < 0
    · cases wrap
      · simp [hn, not_le.2 hn]
      · simp [hn]
    · simp [hn, not_lt.1 hn]

/-- C114: every day is in the column of its day of the week, on the page. -/
theorem C114_columns (wrap : Bool) {a n i : Int} (ha : -1 ≤ a) (h1 : 1 ≤ i) (h2 : i ≤ 31) :
    (place wrap n (start a) i).x = weekday (a + i) ∧ 0 ≤ (place wrap n (start a) i).y ∧ (place wrap n (start a) i).y ≤ 4 := by
  have hs := start_nonneg ha
  obtain ⟨e1, e2, e3, -⟩ := place_eq wrap (n := n) h1 h2 (sl := start a) (by omega) (by omega)
  rw [e2, e3, e1]
  unfold weekday
  refine ⟨by omega, ?_, ?_⟩ <;> split_ifs <;> omega

/-- C114: days that are not after the last cell are one after another, from the cell of the first on, which is in the top row. -/
theorem C114_order (wrap : Bool) {a n i : Int} (ha : -1 ≤ a) (h1 : 1 ≤ i) (h2 : i ≤ 31) :
    (place wrap n (start a) 1).cell = weekday (a + 1) ∧
    (place wrap n (start a) i).cell =
      if weekday (a + 1) + (i - 1) ≤ 34 then weekday (a + 1) + (i - 1)
      else if wrap then weekday (a + 1) + (i - 1) - 35 else weekday (a + 1) + (i - 1) - 7 := by
  have hs := start_nonneg ha
  obtain ⟨e1, e2, e3, -⟩ := place_eq wrap (n := n) h1 h2 (sl := start a) (by omega) (by omega)
  obtain ⟨f1, f2, f3, -⟩ := place_eq wrap (n := n) (i := 1) (by omega) (by omega) (sl := start a) (by omega) (by omega)
  unfold Place.cell
  rw [e2, e3, e1, f2, f3, f1]
  unfold weekday
  constructor <;> split_ifs <;> omega

/-- C114: each day's number is drawn once, in its cell: alone, or before the number of the day a week later, or after that of the day a week
    earlier; it fits the buffer. -/
theorem C114_labels {a n i : Int} (ha : -1 ≤ a) (h1 : 1 ≤ i) (hi : i ≤ n) (hn : n ≤ 31) :
    let p := fun k => place false n (start a) k
    ((p i).text = some (decInt i) ∧ ∀ k, 1 ≤ k → k ≤ n → k ≠ i → (p k).cell ≠ (p i).cell) ∨
    (i + 7 ≤ n ∧ (p i).text = some (decInt i ++ bytes "/" ++ decInt (i + 7)) ∧ (p (i + 7)).cell = (p i).cell ∧
      ∀ k, 1 ≤ k → k ≤ n → k ≠ i → k ≠ i + 7 → (p k).cell ≠ (p i).cell) ∨
    (1 ≤ i - 7 ∧ (p i).text = none ∧ (p (i - 7)).text = some (decInt (i - 7) ++ bytes "/" ++ decInt i) ∧ (p (i - 7)).cell = (p i).cell ∧
      ∀ k, 1 ≤ k → k ≤ n → k ≠ i → k ≠ i - 7 → (p k).cell ≠ (p i).cell) := by
  have hs := start_nonneg ha
  have s1 : 0 ≤ start a := by omega
  have s2 : start a ≤ 6 := by omega
  generalize start a = sl at *
  intro p
  have hcell : ∀ k, 1 ≤ k → k ≤ n → (p k).cell = if row sl k < 0 then 28 + (k + sl) % 7 else (4 - row sl k) * 7 + (k + sl) % 7 := by
    intro k k1 k2
    obtain ⟨-, e2, e3, -⟩ := place_eq false (n := n) k1 (show k ≤ 31 by omega) s1 s2
    show (place false n sl k).cell = _
    unfold Place.cell
    rw [e2, e3]
    split_ifs <;> first | omega | simp_all
  have hrow : ∀ k, 1 ≤ k → k ≤ n → row sl k = 4 - (k + sl) / 7 + (if sl = 6 then 1 else 0) := fun k k1 k2 =>
    (place_eq false (n := n) k1 (show k ≤ 31 by omega) s1 s2).1
  have htext : ∀ k, 1 ≤ k → k ≤ n → (p k).text = if row sl k < 0 then none else
      some (if row sl k = 0 ∧ k + 7 ≤ n then decInt k ++ bytes "/" ++ decInt (k + 7) else decInt k) := by
    intro k k1 k2
    obtain ⟨-, -, -, e4⟩ := place_eq false (n := n) k1 (show k ≤ 31 by omega) s1 s2
    show (place false n sl k).text = _
    rw [e4]
    unfold label shares
    by_cases c1 : row sl k < 0
    · simp [c1]
    · by_cases c2 : row sl k = 0 ∧ k + 7 ≤ n
      · simp [c2.1, c2.2, show bytes "/" = [47] from rfl]
      · have : (decide (row sl k = 0) && decide (k + 7 ≤ n)) = false := by
          simpa using c2
        simp [c1, c2, this]
  have hci := hcell i h1 hi
  have hti := htext i h1 hi
  have hri := hrow i h1 hi
  by_cases c1 : row sl i < 0
  · right; right
    have hcj := hcell (i - 7) (by split_ifs at hri <;> omega) (by omega)
    have htj := htext (i - 7) (by split_ifs at hri <;> omega) (by omega)
    have hrj := hrow (i - 7) (by split_ifs at hri <;> omega) (by omega)
    have r0 : row sl (i - 7) = 0 := by split_ifs at hri hrj <;> omega
    refine ⟨by split_ifs at hri <;> omega, by rw [hti, if_pos c1], ?_, ?_, ?_⟩
    · rw [htj, if_neg (by omega), if_pos ⟨r0, by omega⟩, show i - 7 + 7 = i by omega]
    · rw [hci, hcj, if_pos c1, if_neg (by omega), r0]
      omega
    · intro k k1 k2 k3 k4 he
      have hrk := hrow k k1 k2
      rw [hcell k k1 k2, hci, if_pos c1] at he
      split_ifs at he hrk hri <;> omega
  · by_cases c2 : row sl i = 0 ∧ i + 7 ≤ n
    · right; left
      have hcj := hcell (i + 7) (by omega) (by omega)
      have hrj := hrow (i + 7) (by omega) (by omega)
      refine ⟨c2.2, by rw [hti, if_neg c1, if_pos c2], ?_, ?_⟩
      · rw [hci, hcj, if_neg c1, c2.1]
        split_ifs at hri hrj ⊢ <;> omega
      · intro k k1 k2 k3 k4 he
        have hrk := hrow k k1 k2
        rw [hcell k k1 k2, hci, if_neg c1, c2.1] at he
        split_ifs at he hrk hri <;> omega
    · left
      refine ⟨by rw [hti, if_neg c1, if_neg c2], ?_⟩
      intro k k1 k2 k3 he
      have hrk := hrow k k1 k2
      rw [hcell k k1 k2, hci, if_neg c1] at he
      split_ifs at he hrk hri <;> omega

/-- C114: with wrapping, each day has its own cell. -/
theorem C114_wrap {a n i k : Int} (ha : -1 ≤ a) (h1 : 1 ≤ i) (h2 : i < k) (h3 : k ≤ n) (hn : n ≤ 31) :
    (place true n (start a) i).text = some (decInt i) ∧ (place true n (start a) i).cell ≠ (place true n (start a) k).cell := by
  have hs := start_nonneg ha
  obtain ⟨e1, e2, e3, e4⟩ := place_eq true (n := n) h1 (show i ≤ 31 by omega) (sl := start a) (by omega) (by omega)
  obtain ⟨f1, f2, f3, -⟩ := place_eq true (n := n) (show 1 ≤ k by omega) (show k ≤ 31 by omega) (sl := start a) (by omega) (by omega)
  constructor
  · rw [e4, if_neg (by simp)]
    unfold label shares
    simp
  · unfold Place.cell
    rw [e2, e3, f2, f3, e1, f1]
    simp only [if_true]
    split_ifs <;> omega

/-- The numbers fit `buff`: two bytes, or five. -/
theorem C114_fits : ∀ i : Fin 32, (decInt (i : Nat)).length ≤ 2 ∧ (decInt (i : Nat) ++ bytes "/" ++ decInt ((i : Nat) + 7)).length ≤ 5 := by decide +kernel

/-- Finding: before the first Julian day, cells with negative numbers occur, such as that of 5000 B.C. December 1. -/
theorem C114_early (wrap : Bool) {a n : Int} (h : start a ≤ -2) : (place wrap n (start a) 1).cell < 0 := by
  have hs : -6 ≤ start a := by
    unfold start
    have := Int.lt_tmod_of_pos (a + 1) (show (0 : Int) < 7 by decide)
    omega
  generalize start a = sl at *
  have : sl = -6 ∨ sl = -5 ∨ sl = -4 ∨ sl = -3 ∨ sl = -2 := by omega
  rcases this with rfl | rfl | rfl | rfl | rfl <;> cases wrap
  · show (-5 : Int) < 0; decide
  · show (-5 : Int) < 0; decide
  · show (-4 : Int) < 0; decide
  · show (-4 : Int) < 0; decide
  · show (-3 : Int) < 0; decide
  · show (-3 : Int) < 0; decide
  · show (-2 : Int) < 0; decide
  · show (-2 : Int) < 0; decide
  · show (-1 : Int) < 0; decide
  · show (-1 : Int) < 0; decide

/-! ## The small months -/

theorem smalls_eq (u : Int → Bool) (m : Nat) (i j : Int) (k : Nat) (hj : j = others k + 2) :
    smalls u m i j = (((List.range m).filter fun (c : Nat) => !u (i + c)).zipIdx k).map fun p => (i + (p.1 : Int), others p.2) := by
  induction m generalizing i j k with
  | zero => rfl
  | succ m ih =>
    rw [smalls, List.range_succ_eq_map]
    have hmap : ∀ (l : List Nat) (k : Nat), (((l.map Nat.succ).filter fun (c : Nat) => !u (i + c)).zipIdx k).map (fun p => (i + (p.1 : Int), others p.2)) =
        ((l.filter fun (c : Nat) => !u (i + 1 + c)).zipIdx k).map fun p => (i + 1 + (p.1 : Int), others p.2) := by
      intro l
      induction l with
      | nil => intro k; rfl
      | cons x l ihl =>
        intro k
        rw [List.map_cons, List.filter_cons, List.filter_cons]
        rw [show i + ((Nat.succ x : Nat) : Int) = i + 1 + (x : Int) by push_cast; omega]
        split_ifs
        · rw [List.zipIdx_cons, List.zipIdx_cons, List.map_cons, List.map_cons, ihl]
          simp only [Nat.succ_eq_add_one]
          congr 2
          push_cast
          omega
        · exact ihl k
    rw [List.filter_cons]
    simp only [Nat.cast_zero, Int.add_zero]
    cases hu : u i with
    | true =>
      rw [if_pos rfl, if_neg (by simp), hmap, ih _ _ k hj]
    | false =>
      rw [if_neg (c := false = true) (by decide), if_pos (c := (!false) = true) rfl, List.zipIdx_cons, List.map_cons, hmap]
      congr 1
      · simp [hj]
      · apply ih
        unfold others at hj ⊢
        split_ifs at hj ⊢ <;> omega

/-- The cells of the days are used. -/
theorem use_iff (wrap : Bool) (n sl : Int) (m : Nat) (u : Int → Bool) (c : Int) :
    use wrap n sl m u c = true ↔ u c = true ∨ ∃ i : Nat, 1 ≤ i ∧ i ≤ m ∧ c = (place wrap n sl i).cell := by
  induction m generalizing u with
  | zero =>
    rw [use]
    constructor
    · exact Or.inl
    · rintro (h | ⟨i, h1, h2, -⟩)
      · exact h
      · omega
  | succ m ih =>
    rw [use, ih]
    constructor
    · rintro (h | ⟨i, h1, h2, h3⟩)
      · split_ifs at h with hc
        · exact .inr ⟨m + 1, by omega, le_refl _, hc⟩
        · exact .inl h
      · exact .inr ⟨i, h1, by omega, h3⟩
    · rintro (h | ⟨i, h1, h2, h3⟩)
      · left
        split_ifs
        · rfl
        · exact h
      · by_cases hi : i = m + 1
        · left
          subst hi
          rw [if_pos h3]
        · exact .inr ⟨i, h1, by omega, h3⟩

/-- C114: the cells that no day uses, in order, get the months -2, -1, 1, 2, 3, ... from the main one. -/
theorem C114_months (wrap : Bool) (n sl : Int) :
    ∃ free : List Nat, free.Pairwise (· < ·) ∧
      (∀ c : Nat, c ∈ free ↔ c < 35 ∧ ∀ i : Int, 1 ≤ i → i ≤ n → (c : Int) ≠ (place wrap n sl i).cell) ∧
      page wrap n sl = free.zipIdx.map fun p => ((p.1 : Int), others p.2) := by
  refine ⟨(List.range 35).filter fun (c : Nat) => !use wrap n sl n.toNat (fun _ => false) ((0 : Int) + c), ?_, ?_, ?_⟩
  · exact List.Pairwise.filter _ List.pairwise_lt_range
  · intro c
    rw [List.mem_filter, List.mem_range]
    refine and_congr_right fun _ => ?_
    rw [Bool.not_eq_true', Bool.eq_false_iff, Ne, use_iff, Int.zero_add]
    constructor
    · intro h i h1 h2 h3
      exact h (.inr ⟨i.toNat, by omega, by omega, by rw [h3, Int.toNat_of_nonneg (by omega)]⟩)
    · rintro h (h1 | ⟨i, h1, h2, h3⟩)
      · simp at h1
      · exact h i (by omega) (by omega) h3
  · unfold page
    rw [smalls_eq _ 35 0 0 0 (by decide)]
    simp

/-- C114: there are at least four of them, so that two months before and two after are always drawn. -/
theorem C114_four (wrap : Bool) {a n : Int} (ha : -1 ≤ a) (h1 : 1 ≤ n) (h2 : n ≤ 31) : 4 ≤ (page wrap n (start a)).length := by
  have hs := start_nonneg ha
  have s1 : 0 ≤ start a := by omega
  have s2 : start a ≤ 6 := by omega
  generalize start a = sl at *
  have key : ∀ (w : Bool) (m : Fin 32) (s : Fin 7), 4 ≤ (page w ((m : Nat) : Int) ((s : Nat) : Int)).length := by decide +kernel
  have := key wrap ⟨n.toNat, by omega⟩ ⟨sl.toNat, by omega⟩
  simpa [Int.toNat_of_nonneg (show 0 ≤ n by omega), Int.toNat_of_nonneg s1] using this

/-- C114: the year and month of a small month. -/
theorem C114_normal (month year : Int) :
    let r := down (up month year).1 (up month year).2
    1 ≤ r.1 ∧ r.1 ≤ 12 ∧ 12 * r.2 + r.1 = 12 * year + month := by
  have hu : ∀ (m : Nat) (month year : Int), (1 - month).toNat ≤ m → 1 ≤ (up month year).1 ∧ 12 * (up month year).2 + (up month year).1 = 12 * year + month := by
    intro m
    induction m with
    | zero =>
      intro month year h
      rw [up, if_neg (by omega)]
      exact ⟨by show 1 ≤ month; omega, rfl⟩
    | succ m ih =>
      intro month year h
      rw [up]
      split_ifs with hc
      · obtain ⟨i1, i2⟩ := ih (month + 12) (year - 1) (by omega)
        exact ⟨i1, by rw [i2]; omega⟩
      · exact ⟨by show 1 ≤ month; omega, rfl⟩
  have hd : ∀ (m : Nat) (month year : Int), month.toNat ≤ m → 1 ≤ month →
      1 ≤ (down month year).1 ∧ (down month year).1 ≤ 12 ∧ 12 * (down month year).2 + (down month year).1 = 12 * year + month := by
    intro m
    induction m with
    | zero => intro month year h h1; omega
    | succ m ih =>
      intro month year h h1
      rw [down]
      split_ifs with hc
      · obtain ⟨i1, i2, i3⟩ := ih (month - 12) (year + 1) (by omega) (by omega)
        exact ⟨i1, i2, by rw [i3]; omega⟩
      · exact ⟨h1, by show month ≤ 12; omega, rfl⟩
  obtain ⟨u1, u2⟩ := hu _ month year le_rfl
  obtain ⟨d1, d2, d3⟩ := hd _ (up month year).1 (up month year).2 le_rfl u1
  exact ⟨d1, d2, by rw [d3, u2]⟩

/-- C114: in a small month each day is in one of the six rows, once, in the column of its day of the week. -/
theorem C114_small {a d : Int} (ha : -2 ≤ a) (h1 : 1 ≤ d) (h2 : d ≤ 31) :
    ∃ i j : Int, 0 ≤ i ∧ i < 6 ∧ j = weekday (a + d) ∧ smallDay (smallStart a) i j = d ∧
      ∀ i' j', 0 ≤ j' → j' < 7 → smallDay (smallStart a) i' j' = d → i' = i ∧ j' = j := by
  have hs : smallStart a = (a + 2) % 7 := by
    unfold smallStart
    rw [Int.tmod_eq_emod_of_nonneg (by omega)]
  refine ⟨(d - 1 + smallStart a) / 7, weekday (a + d), ?_, ?_, rfl, ?_, ?_⟩
  · omega
  · omega
  · unfold smallDay weekday; omega
  · unfold smallDay weekday
    intro i' j' j1 j2 h
    constructor <;> omega

/-- C114: the text of a row: two bytes for each column, a blank between them. -/
theorem C114_row (phase : Int → Option Nat) (n sl i : Int) (j : Nat) (hj : j < 7) :
    ((smallRow phase n sl i).drop (3 * j)).take 2 = smallCell phase n (smallDay sl i j) ∧ (smallRow phase n sl i).length = 20 := by
  have hl : ∀ d, ∃ x y, smallCell phase n d = [x, y] := by
    intro d
    unfold smallCell
    by_cases h : 1 ≤ d ∧ d ≤ n
    · rw [if_pos h]
      cases phase d with
      | none => exact ⟨_, _, rfl⟩
      | some k =>
        simp only
        have : k % 4 = 0 ∨ k % 4 = 1 ∨ k % 4 = 2 ∨ k % 4 = 3 := by omega
        rcases this with h | h | h | h <;> rw [h] <;> exact ⟨_, _, rfl⟩
    · rw [if_neg h]
      exact ⟨_, _, rfl⟩
  obtain ⟨a0, b0, e0⟩ := hl (smallDay sl i (0 : Nat))
  obtain ⟨a1, b1, e1⟩ := hl (smallDay sl i (1 : Nat))
  obtain ⟨a2, b2, e2⟩ := hl (smallDay sl i (2 : Nat))
  obtain ⟨a3, b3, e3⟩ := hl (smallDay sl i (3 : Nat))
  obtain ⟨a4, b4, e4⟩ := hl (smallDay sl i (4 : Nat))
  obtain ⟨a5, b5, e5⟩ := hl (smallDay sl i (5 : Nat))
  obtain ⟨a6, b6, e6⟩ := hl (smallDay sl i (6 : Nat))
  have h : smallRow phase n sl i = [a0, b0, 32, a1, b1, 32, a2, b2, 32, a3, b3, 32, a4, b4, 32, a5, b5, 32, a6, b6] := by
    unfold smallRow
    rw [show List.range 7 = [0, 1, 2, 3, 4, 5, 6] from rfl]
    simp only [List.flatMap_cons, List.flatMap_nil, e0, e1, e2, e3, e4, e5, e6]
    rfl
  rw [h]
  refine ⟨?_, rfl⟩
  have : j = 0 ∨ j = 1 ∨ j = 2 ∨ j = 3 ∨ j = 4 ∨ j = 5 ∨ j = 6 := by omega
  rcases this with rfl | rfl | rfl | rfl | rfl | rfl | rfl
  · rw [e0]; rfl
  · rw [e1]; rfl
  · rw [e2]; rfl
  · rw [e3]; rfl
  · rw [e4]; rfl
  · rw [e5]; rfl
  · rw [e6]; rfl

/-- The number of a day without a phase of the moon, and the name of a phase. -/
theorem C114_cell (phase : Int → Option Nat) {n d : Int} (h1 : 1 ≤ d) (h2 : d ≤ n) (h3 : n ≤ 31) :
    (phase d = none → smallCell phase n d = (if d < 10 then bytes " " else []) ++ decInt d) ∧
    (∀ k, phase d = some k → smallCell phase n d =
      if k % 4 = 0 then bytes "NM" else if k % 4 = 1 then bytes "1Q" else if k % 4 = 2 then bytes "FM" else bytes "3Q") := by
  unfold smallCell
  rw [if_pos ⟨h1, h2⟩]
  constructor
  · intro hp
    rw [hp]
    simp only
    have key : ∀ m : Fin 32, 1 ≤ (m : Nat) → ([if ((m : Nat) : Int) < 10 then 32 else (48 + ((m : Nat) : Int).tdiv 10).toNat, (48 + ((m : Nat) : Int).tmod 10).toNat] : List Nat) =
        (if ((m : Nat) : Int) < 10 then bytes " " else []) ++ decInt ((m : Nat) : Int) := by decide +kernel
    have := key ⟨d.toNat, by omega⟩ (by show 1 ≤ d.toNat; omega)
    simpa [Int.toNat_of_nonneg (show 0 ≤ d by omega)] using this
  · intro k hp
    rw [hp]
    simp only
    have : k % 4 = 0 ∨ k % 4 = 1 ∨ k % 4 = 2 ∨ k % 4 = 3 := by omega
    rcases this with h | h | h | h <;> rw [h] <;> rfl

/-! ## Examples -/

/-- December 2023: the 24th and 31st, a Sunday, share a cell. -/
example : before 12 2023 = some 2460279 ∧ length 12 2023 = some 31 ∧ weekday (2460279 + 31) = 0 ∧
    (place false 31 (start 2460279) 24).text = some (bytes "24/31") ∧ (place false 31 (start 2460279) 31).text = none := by decide +kernel

/-- `C114_early`: such a month. -/
example : ∃ a, before 12 (-5000) = some a ∧ start a ≤ -2 := ⟨_, rfl, by decide +kernel⟩

end Verif.Props
