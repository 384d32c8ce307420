import Verif.Lemmas.Search

/-!
If the year data of a calendar code agree with a specification calendar, all conversion
properties follow.
-/

namespace Verif.Spec.Calendar

theorem newYear_succ (c : Calendar) (y : Int) : c.newYear (y + 1) = c.newYear y + c.yearLength y := by
  match y with
  | .ofNat n =>
    show c.newYear (Int.ofNat (n + 1)) = _
    simp only [newYear, daysFrom0]
    show _ = c.firstDayOfYear0 + c.daysFrom0 n + c.yearLength (n : Int)
    omega
  | .negSucc 0 =>
    show c.newYear (Int.ofNat 0) = _
    simp only [newYear, daysFrom0, daysBefore0]
    show c.firstDayOfYear0 + 0 = c.firstDayOfYear0 - (0 + c.yearLength (-1)) + c.yearLength (-1)
    omega
  | .negSucc (n + 1) =>
    have : Int.negSucc (n + 1) + 1 = Int.negSucc n := by omega
    rw [this]
    simp only [newYear, daysBefore0]
    have e : Int.negSucc (n + 1) = -((n + 1 + 1 : Nat) : Int) := by omega
    rw [e]
    omega

/-- A function with the right value at 0 and the right increments is `newYear`. -/
theorem newYear_unique (c : Calendar) (g : Int → Int) (h0 : g 0 = c.firstDayOfYear0)
    (hs : ∀ y, g (y + 1) = g y + c.yearLength y) (y : Int) : g y = c.newYear y := by
  have hp : ∀ n : Nat, g n = c.newYear n := by
    intro n
    induction n with
    | zero =>
      show g 0 = c.firstDayOfYear0 + c.daysFrom0 0
      simp [daysFrom0, h0]
    | succ n ih =>
      have a := hs n
      have b := c.newYear_succ n
      rw [show ((n + 1 : Nat) : Int) = (n : Int) + 1 by omega, a, b, ih]
  have hn : ∀ n : Nat, g (-(n : Int)) = c.newYear (-(n : Int)) := by
    intro n
    induction n with
    | zero => exact hp 0
    | succ n ih =>
      have a := hs (-((n + 1 : Nat) : Int))
      have b := c.newYear_succ (-((n + 1 : Nat) : Int))
      rw [show -((n + 1 : Nat) : Int) + 1 = -(n : Int) by omega] at a b
      omega
  by_cases h : 0 ≤ y
  · have := hp y.toNat
    rwa [show (y.toNat : Int) = y by omega] at this
  · have := hn (-y).toNat
    rwa [show -(((-y).toNat : Nat) : Int) = y by omega] at this

end Verif.Spec.Calendar

namespace Verif.Date

open Verif.Spec (Calendar DateLt)

/-- Well-formed calendar: thirteen month slots of non-negative length, years not empty. -/
structure WF (c : Calendar) : Prop where
  len13 : ∀ y, (c.months y).length = 13
  nonneg : ∀ y, ∀ m ∈ c.months y, 0 ≤ m
  pos : ∀ y, 0 < c.yearLength y

/-- The year data computed by the code for calendar code `cal` are those of `c`. -/
structure Refines (cal : Int) (c : Calendar) : Prop extends WF c where
  notJG : cal ≠ JULIAN_GREGORIAN
  data : ∀ y, getCalendarData y cal = some ⟨c.newYear y, c.months y⟩

theorem take_sum_le {l : List Int} (h : ∀ m ∈ l, 0 ≤ m) :
    ∀ {i j : Nat}, i ≤ j → (l.take i).sum ≤ (l.take j).sum := by
  induction l with
  | nil => intro i j _; simp
  | cons a l ih =>
    intro i j hij
    have ha := h a (by simp)
    have hl : ∀ m ∈ l, 0 ≤ m := fun m hm => h m (by simp [hm])
    match i, j with
    | 0, 0 => simp
    | 0, j + 1 =>
      have := ih hl (Nat.zero_le j)
      simp at this ⊢; omega
    | i + 1, j + 1 =>
      have := ih hl (i := i) (j := j) (by omega)
      simp; omega

theorem take_sum_le_sum {l : List Int} (h : ∀ m ∈ l, 0 ≤ m) (i : Nat) :
    (l.take i).sum ≤ l.sum := by
  have := take_sum_le h (i := i) (j := max i l.length) (by omega)
  rwa [List.take_of_length_le (by omega : l.length ≤ max i l.length)] at this

theorem take_sum_nonneg {l : List Int} (h : ∀ m ∈ l, 0 ≤ m) (i : Nat) : 0 ≤ (l.take i).sum := by
  have := take_sum_le h (i := 0) (j := i) (by omega)
  simpa using this

theorem take_succ_sum {l : List Int} {k : Nat} {len : Int} (h : l[k]? = some len) :
    (l.take (k + 1)).sum = (l.take k).sum + len := by
  rw [List.take_add_one, h]; simp

variable {cal : Int} {c : Calendar}

theorem WF.dayNumber_range (h : WF c) {d m y : Int} (e : c.Exists d m y) :
    c.newYear y ≤ c.dayNumber d m y ∧ c.dayNumber d m y < c.newYear (y + 1) := by
  obtain ⟨h1, h2, len, h3, h4⟩ := e
  have a := take_sum_nonneg (h.nonneg y) (m - 1).toNat
  have b := take_succ_sum h3
  have d' := take_sum_le_sum (h.nonneg y) ((m - 1).toNat + 1)
  rw [c.newYear_succ]
  unfold Calendar.dayNumber Calendar.yearLength
  omega

theorem WF.newYear_lt (h : WF c) {y z : Int} (hyz : y < z) : c.newYear y < c.newYear z := by
  have key : ∀ n : Nat, c.newYear y < c.newYear (y + (n + 1 : Nat)) := by
    intro n
    induction n with
    | zero => rw [show y + ((0 + 1 : Nat) : Int) = y + 1 by omega, c.newYear_succ]; have := h.pos y; omega
    | succ n ih =>
      have a := c.newYear_succ (y + (n + 1 : Nat))
      have b := h.pos (y + (n + 1 : Nat))
      rw [show y + ((n + 1 + 1 : Nat) : Int) = y + (n + 1 : Nat) + 1 by omega]
      omega
  have := key (z - y - 1).toNat
  rwa [show y + (((z - y - 1).toNat + 1 : Nat) : Int) = z by omega] at this

theorem WF.newYear_le (h : WF c) {y z : Int} (hyz : y ≤ z) : c.newYear y ≤ c.newYear z := by
  by_cases e : y = z
  · rw [e]; omega
  · have := h.newYear_lt (y := y) (z := z) (by omega); omega

theorem WF.dayNumber_lt (h : WF c) {d m y d' m' y' : Int} (e : c.Exists d m y)
    (e' : c.Exists d' m' y') (hlt : DateLt d m y d' m' y') :
    c.dayNumber d m y < c.dayNumber d' m' y' := by
  rcases hlt with hy | ⟨rfl, hm | ⟨rfl, hd⟩⟩
  · have a := (h.dayNumber_range e).2
    have b := (h.dayNumber_range e').1
    have cc := h.newYear_le (y := y + 1) (z := y') (by omega)
    omega
  · obtain ⟨h1, h2, len, h3, h4⟩ := e
    obtain ⟨h1', h2', len', h3', h4'⟩ := e'
    have a := take_succ_sum h3
    have b := take_sum_le (h.nonneg y) (i := (m - 1).toNat + 1) (j := (m' - 1).toNat) (by omega)
    unfold Calendar.dayNumber; omega
  · unfold Calendar.dayNumber; omega

theorem WF.dayNumber_inj (h : WF c) {d m y d' m' y' : Int} (e : c.Exists d m y)
    (e' : c.Exists d' m' y') (heq : c.dayNumber d m y = c.dayNumber d' m' y') :
    d = d' ∧ m = m' ∧ y = y' := by
  by_cases hd : DateLt d m y d' m' y'
  · have := h.dayNumber_lt e e' hd; omega
  · by_cases hd' : DateLt d' m' y' d m y
    · have := h.dayNumber_lt e' e hd'; omega
    · unfold DateLt at hd hd'; omega

theorem Exists.month_le (h : WF c) {d m y : Int} (e : c.Exists d m y) : m ≤ 13 := by
  obtain ⟨h1, h2, len, h3, h4⟩ := e
  obtain ⟨h5, _⟩ := List.getElem?_eq_some_iff.1 h3
  rw [h.len13] at h5
  omega

theorem calendarForDate_of_ne (h : cal ≠ JULIAN_GREGORIAN) (d m y : Int) :
    calendarForDate d m y cal = cal := by simp [calendarForDate, h]

theorem calendarForJd_of_ne (h : cal ≠ JULIAN_GREGORIAN) (jd : Int) :
    calendarForJd jd cal = cal := by simp [calendarForJd, h]

theorem Refines.dmyToDay (h : Refines cal c) {d m y : Int} (hd : d ≠ -999) (hm : m ≤ 14) :
    dmyToDay d m y cal = some (c.dayNumber d m y) := by
  unfold Date.dmyToDay
  rw [calendarForDate_of_ne h.notJG, h.data]
  simp [hd, hm, Calendar.dayNumber]

theorem Refines.coversAll (h : Refines cal c) :
    CoversAll (fun y => getCalendarData y cal) (fun y => ⟨c.newYear y, c.months y⟩) := by
  refine ⟨h.data, ?_, ?_⟩
  · intro y; exact h.newYear_lt (by omega)
  · intro y
    have := c.newYear_succ y
    simp only [YearData.stop]
    unfold Calendar.yearLength at this
    omega

theorem dayToDmyReturns_unique {jd : Int} {r r' : Dmy} (h : dayToDmyReturns jd cal r)
    (h' : dayToDmyReturns jd cal r') : r = r' := by
  obtain ⟨n, h⟩ := h
  obtain ⟨n', h'⟩ := h'
  unfold dayToDmy at h h'
  simp only [Option.map_eq_some_iff] at h h'
  obtain ⟨s, hs, rfl⟩ := h
  obtain ⟨s', hs', rfl⟩ := h'
  rw [searchYear_unique _ _ _ _ _ _ _ hs hs']

/-- Finish the month scan for a year of a well-formed calendar. -/
theorem finish_found {months : List Int} {start : Int} (hnn : ∀ m ∈ months, 0 ≤ m) {jd y : Int}
    (h1 : start ≤ jd) (h2 : jd < start + months.sum) :
    ∃ d m len, finishDmy jd (.found y ⟨start, months⟩) = ⟨d, some m, y⟩ ∧ 1 ≤ m ∧ 1 ≤ d ∧
      months[(m - 1).toNat]? = some len ∧ d ≤ len ∧
      start + (months.take (m - 1).toNat).sum + (d - 1) = jd := by
  obtain ⟨k, len, e1, e2, e3, e4⟩ := scanMonths_spec jd months 0 start (-1) hnn h1 h2
  refine ⟨jd - (start + (months.take k).sum) + 1, k + 1, len, ?_, by omega, by omega, ?_, by omega, ?_⟩
  · simp [finishDmy, e2]
  · rw [show ((k : Int) + 1 - 1).toNat = k by omega]; exact e1
  · rw [show ((k : Int) + 1 - 1).toNat = k by omega]; omega

theorem Refines.roundtrip (h : Refines cal c) (jd : Int) :
    ∃ d m y, dayToDmyReturns jd cal ⟨d, some m, y⟩ ∧ c.Exists d m y ∧ c.dayNumber d m y = jd := by
  obtain ⟨fuel, y, hs, h1, h2⟩ := h.coversAll.search jd (approxYear jd cal)
  obtain ⟨d, m, len, e1, e2, e3, e4, e5, e6⟩ := finish_found (y := y) (h.nonneg y) h1 h2
  refine ⟨d, m, y, ⟨fuel, ?_⟩, ⟨e2, e3, len, e4, e5⟩, e6⟩
  unfold dayToDmy
  simp only [calendarForJd_of_ne h.notJG]
  rw [hs]
  simp [e1]

theorem Refines.dateRoundtrip (h : Refines cal c) {d m y : Int} (e : c.Exists d m y) :
    dayToDmyReturns (c.dayNumber d m y) cal ⟨d, some m, y⟩ := by
  obtain ⟨d', m', y', hr, he, hn⟩ := h.roundtrip (c.dayNumber d m y)
  obtain ⟨rfl, rfl, rfl⟩ := h.dayNumber_inj he e hn
  exact hr

theorem Refines.daysInMonth (h : Refines cal c) {m y : Int} (hm : 1 ≤ m) (hm' : m ≤ 13) :
    ∃ n, Date.daysInMonth m y cal = some n ∧ 0 ≤ n ∧ (c.months y)[(m - 1).toNat]? = some n ∧
      (m ≤ 12 → n = c.dayNumber 1 (m + 1) y - c.dayNumber 1 m y) ∧
      (m = 13 → n = c.dayNumber 1 1 (y + 1) - c.dayNumber 1 m y) := by
  have hl := h.len13 y
  have hlt : (m - 1).toNat < (c.months y).length := by omega
  have hg := List.getElem?_eq_getElem hlt
  refine ⟨(c.months y)[(m - 1).toNat], ?_, ?_, hg, ?_, ?_⟩
  · unfold Date.daysInMonth Date.dmyToDay
    rw [calendarForDate_of_ne h.notJG, h.data]
    simp [hm, hm']
  · exact h.nonneg y _ (List.getElem_mem hlt)
  · intro _
    have a := take_succ_sum hg
    unfold Calendar.dayNumber
    rw [show (m + 1 - 1).toNat = (m - 1).toNat + 1 by omega]
    omega
  · intro h13
    subst h13
    have a := take_succ_sum hg
    have b := c.newYear_succ y
    unfold Calendar.dayNumber
    rw [List.take_of_length_le (by simp; omega)] at a
    unfold Calendar.yearLength at b
    simp at a ⊢
    omega

end Verif.Date
