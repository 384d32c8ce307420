import Mathlib.Tactic.Linarith
import Verif.Model.PsDates
import Verif.Spec.PostScript
import Verif.Spec.Week
import Verif.Spec.Decimal
import Verif.Lemmas.Scan

/-!
# C120: the dates from files of calendars
-/

namespace Verif.Props

open Verif.Date Verif.PsDates
open Verif.Spec.PostScript (Shown)
open Verif.Spec.Week (weekday)
open Verif.Spec

/-! ## Texts -/

/-- The text is shown as it is in the file. -/
theorem C120_text (t : List Nat) (h : 92 ∉ t) : Shown (subst t) t := by
  induction t with
  | nil => exact .nil
  | cons c s ih =>
    have hs := ih fun k => h (List.mem_cons_of_mem _ k)
    rw [subst]
    by_cases h1 : c = 40
    · subst h1
      rw [if_pos rfl]
      exact Shown.octal (x := 0) (y := 5) (z := 0) (by omega) (by omega) (by omega) hs
    · rw [if_neg h1]
      by_cases h2 : c = 41
      · subst h2
        rw [if_pos rfl]
        exact Shown.octal (x := 0) (y := 5) (z := 1) (by omega) (by omega) (by omega) hs
      · rw [if_neg h2]
        exact .plain h1 h2 (fun k => h (by rw [k]; exact List.mem_cons_self)) hs

theorem subst_length (t : List Nat) : (PsDates.subst t).length = t.length + 3 * (t.count 40 + t.count 41) := by
  induction t with
  | nil => rfl
  | cons c s ih =>
    rw [PsDates.subst]
    by_cases h1 : c = 40
    · subst h1
      rw [if_pos rfl, List.length_append, ih, List.count_cons_self, List.count_cons_of_ne (by decide)]
      simp only [List.length_cons, List.length_nil]
      omega
    · rw [if_neg h1]
      by_cases h2 : c = 41
      · subst h2
        rw [if_pos rfl, List.length_append, ih, List.count_cons_self, List.count_cons_of_ne (by decide)]
        simp only [List.length_cons, List.length_nil]
        omega
      · rw [if_neg h2, List.length_cons, ih, List.count_cons_of_ne h1, List.count_cons_of_ne h2, List.length_cons]
        omega

/-- Each parenthesis needs three more bytes; if they are too many, they are written after the end of the buffer. -/
theorem C120_room (l : List Nat) : substitutions l = .ub ↔ 80 ≤ l.length + 3 * (l.count 40 + l.count 41) := by
  unfold substitutions
  rw [subst_length]
  by_cases h : 80 < l.length + 3 * (l.count 40 + l.count 41) + 1
  · rw [if_pos h]; exact ⟨fun _ => by omega, fun _ => rfl⟩
  · rw [if_neg h]; exact ⟨fun k => (nomatch k), fun k => absurd k (by omega)⟩

theorem subst_append (s t : List Nat) : PsDates.subst (s ++ t) = PsDates.subst s ++ PsDates.subst t := by
  induction s with
  | nil => rfl
  | cons c s ih =>
    rw [List.cons_append, PsDates.subst, PsDates.subst, ih]
    by_cases h1 : c = 40
    · rw [if_pos h1, if_pos h1, List.append_assoc]
    · rw [if_neg h1, if_neg h1]
      by_cases h2 : c = 41
      · rw [if_pos h2, if_pos h2, List.append_assoc]
      · rw [if_neg h2, if_neg h2, List.cons_append]

theorem subst_same {s : List Nat} (h : ∀ c ∈ s, c ≠ 40 ∧ c ≠ 41) : PsDates.subst s = s := by
  induction s with
  | nil => rfl
  | cons c s ih =>
    rw [PsDates.subst, if_neg (h c (by simp)).1, if_neg (h c (by simp)).2, ih fun k hk => h k (by simp [hk])]

/-! ## Days of the week -/

theorem jd_linear (month year : Int) (hm : month ≤ 12) (hy : 1582 < year) : ∃ b, ∀ d : Int, 0 ≤ d →
    dmyToDay d month year JULIAN_GREGORIAN = some (b + d) := by
  have hc : ∀ d, calendarForDate d month year JULIAN_GREGORIAN = GREGORIAN := by
    intro d
    unfold calendarForDate
    rw [if_pos rfl, if_pos (Or.inl hy)]
  unfold dmyToDay
  simp only [hc]
  cases hg : getCalendarData year GREGORIAN with
  | none =>
    exfalso
    unfold getCalendarData at hg
    rw [if_pos (Or.inl rfl)] at hg
    cases hg
  | some yd =>
    refine ⟨yd.start + (yd.months.take (month - 1).toNat).sum - 1, fun d hd => ?_⟩
    simp only
    rw [if_neg (by omega), if_pos (by omega)]
    congr 1
    omega

theorem find_step {month year w b : Int} (hb : ∀ d : Int, 0 ≤ d → dmyToDay d month year JULIAN_GREGORIAN = some (b + d)) (n : Nat) {d : Int}
    (hd : 0 ≤ d) : find month year w (n + 1) d = if (b + (d + 1)).tmod 7 ≠ w then find month year w n (d + 1) else some d := by
  rw [find, hb (d + 1) (by omega)]
  rfl

theorem find_at {month year w b : Int} (hb : ∀ d : Int, 0 ≤ d → dmyToDay d month year JULIAN_GREGORIAN = some (b + d)) (k : Nat) :
    ∀ (n : Nat) (d : Int), k < n → 0 ≤ d → 0 ≤ b + d → (∀ i : Nat, i < k → weekday (b + (d + i)) ≠ w) → weekday (b + (d + k)) = w →
    find month year w n d = some (d + k) := by
  induction k with
  | zero =>
    intro n d hn hd hj _ hw
    cases n with
    | zero => omega
    | succ n =>
      rw [find_step hb n hd, if_neg]
      · simp
      · rw [not_not, Int.tmod_eq_emod_of_nonneg (by omega), ← hw]
        unfold weekday
        congr 1
        push_cast
        omega
  | succ k ih =>
    intro n d hn hd hj hi hw
    cases n with
    | zero => omega
    | succ n =>
      rw [find_step hb n hd, if_pos]
      · rw [ih n (d + 1) (by omega) (by omega) (by omega)]
        · congr 1; push_cast; omega
        · intro i hik
          have := hi (i + 1) (by omega)
          rwa [show d + ((i + 1 : Nat) : Int) = d + 1 + i from by push_cast; omega] at this
        · rwa [show d + ((k + 1 : Nat) : Int) = d + 1 + k from by push_cast; omega] at hw
      · have := hi 0 (by omega)
        rw [Int.tmod_eq_emod_of_nonneg (by omega)]
        unfold weekday at this
        rwa [show b + (d + ((0 : Nat) : Int)) + 1 = b + (d + 1) from by push_cast; omega] at this

/-- The day found is the first one with that day of the week. -/
theorem C120_weekday (month year w d j : Int) (hm : month ≤ 12) (hy : 1582 < year) (h0 : 0 ≤ w) (h6 : w ≤ 6) (hd : 0 ≤ d)
    (hj : dmyToDay d month year JULIAN_GREGORIAN = some j) (hp : 0 ≤ j) :
    ∃ k : Nat, k < 7 ∧ find month year w 8 d = some (d + k) ∧ weekday (j + k) = w ∧ ∀ i : Nat, i < k → weekday (j + i) ≠ w := by
  obtain ⟨b, hb⟩ := jd_linear month year hm hy
  rw [hb d hd] at hj
  have hj : b + d = j := Option.some.inj hj
  have hk : ((w - (j + 1)) % 7).toNat < 7 ∧ ((((w - (j + 1)) % 7).toNat : Nat) : Int) = (w - (j + 1)) % 7 := by omega
  refine ⟨((w - (j + 1)) % 7).toNat, hk.1, ?_, ?_, ?_⟩
  · refine find_at hb _ 8 d (by omega) hd (by omega) ?_ ?_
    · intro i hi
      unfold weekday
      omega
    · unfold weekday
      omega
  · unfold weekday
    omega
  · intro i hi
    unfold weekday
    omega

/-- Any other byte after the slash, and the program does not end. -/
theorem C120_forever (month year w : Int) (hm : month ≤ 12) (hy : 1582 < year) (h : w < -6 ∨ 6 < w) (n : Nat) :
    ∀ d : Int, 0 ≤ d → find month year w n d = none := by
  obtain ⟨b, hb⟩ := jd_linear month year hm hy
  induction n with
  | zero => intro d _; rfl
  | succ n ih =>
    intro d hd
    rw [find_step hb n hd, if_pos, ih (d + 1) (by omega)]
    have h1 := Int.tmod_lt_of_pos (b + (d + 1)) (show (0 : Int) < 7 by decide)
    have h2 := Int.lt_tmod_of_pos (b + (d + 1)) (show (0 : Int) < 7 by decide)
    omega

/-! ## Lists of days -/

/-- Days after commas. -/
def commas (ds : List (List Nat)) : List Nat := ds.flatMap fun d => 44 :: d

theorem more_end {r : List Nat} (h : r.head? ≠ some 44) (n : Nat) : more n r = .ok ([], r) := by
  cases r with
  | nil => cases n <;> rfl
  | cons c s =>
    rw [more.eq_def]
    simp only
    rw [if_neg (fun k => h (by rw [k]; rfl))]

theorem commas_stop {ds : List (List Nat)} {r : List Nat} (hr : isDigit (at? r 0) = false) : isDigit (at? (commas ds ++ r) 0) = false := by
  cases ds with
  | nil => exact hr
  | cons d ds => rfl

/-- The days of a list are those that its numbers stand for; there is room for ten. -/
theorem C120_list (ds : List (List Nat)) (hd : ∀ d ∈ ds, AllDigits d ∧ d ≠ []) (r : List Nat) (hr : r.head? ≠ some 44)
    (hq : isDigit (at? r 0) = false) : ∀ n, more n (commas ds ++ r) =
      if ds.length ≤ n then .ok (ds.map fun d => (value d : Int), r) else .ub := by
  induction ds with
  | nil => intro n; rw [if_pos (show ([] : List (List Nat)).length ≤ n from Nat.zero_le n)]; exact more_end hr n
  | cons d ds ih =>
    intro n
    have e : commas (d :: ds) ++ r = 44 :: (d ++ (commas ds ++ r)) := by
      unfold commas
      rw [List.flatMap_cons, List.cons_append, List.cons_append, List.append_assoc]
    rw [e, more.eq_def]
    simp only
    rw [if_pos trivial, Scan.scanInt_digits (hd d (by simp)).1 (hd d (by simp)).2 (commas_stop hq)]
    cases n with
    | zero => rw [if_neg (by simp)]
    | succ n =>
      simp only
      rw [ih (fun k hk => hd k (by simp [hk])) n]
      by_cases hl : ds.length ≤ n
      · rw [if_pos hl, if_pos (by simpa using hl)]
        rfl
      · rw [if_neg hl, if_neg (by simpa using hl)]
        rfl

/-! ## Lines -/

theorem cut_line {t : List Nat} (h : ∀ c ∈ t, 32 ≤ c ∧ c < 128) {e : Nat} (he : e < 32) : cut (t ++ [e]) = t := by
  unfold cut
  rw [List.takeWhile_append_of_pos (by intro c hc; simpa using h c hc), List.takeWhile_cons_of_neg (by simp; omega), List.append_nil]

theorem subst_printable {t : List Nat} (h : ∀ c ∈ t, 32 ≤ c ∧ c < 128) : ∀ c ∈ PsDates.subst t, 32 ≤ c ∧ c < 128 := by
  induction t with
  | nil => intro c hc; cases hc
  | cons a s ih =>
    have hs := ih fun k hk => h k (by simp [hk])
    have ha := h a (by simp)
    intro c hc
    rw [PsDates.subst] at hc
    by_cases h1 : a = 40
    · rw [if_pos h1, List.mem_append] at hc
      rcases hc with hc | hc
      · simp only [List.mem_cons, List.not_mem_nil, or_false] at hc
        omega
      · exact hs c hc
    · rw [if_neg h1] at hc
      by_cases h2 : a = 41
      · rw [if_pos h2, List.mem_append] at hc
        rcases hc with hc | hc
        · simp only [List.mem_cons, List.not_mem_nil, or_false] at hc
          omega
        · exact hs c hc
      · rw [if_neg h2, List.mem_cons] at hc
        rcases hc with hc | hc
        · omega
        · exact hs c hc

/-- The line up to the days, the other days, a blank and a text give an entry for each day. -/
theorem C120_entries (p : List Nat) (hp : ∀ c ∈ p, 32 ≤ c ∧ c < 128 ∧ c ≠ 40 ∧ c ≠ 41) (loc : Nat) (hloc : p.length + 1 = loc)
    (ds : List (List Nat)) (hd : ∀ d ∈ ds, AllDigits d ∧ d ≠ []) (h9 : ds.length ≤ 9) (t : List Nat) (ht : ∀ c ∈ t, 32 ≤ c ∧ c < 128)
    (d : Int) (hl : (p ++ commas ds ++ 32 :: t ++ [10]).length + 3 * (t.count 40 + t.count 41) < 80) :
    entries (p ++ commas ds ++ 32 :: t ++ [10]) loc d =
      .ok ((d :: ds.map fun d => (value d : Int)).map fun d => (d, PsDates.subst t)) := by
  have hq : ∀ c ∈ p ++ commas ds ++ [32], 32 ≤ c ∧ c < 128 ∧ c ≠ 40 ∧ c ≠ 41 := by
    intro c hc
    rw [List.mem_append, List.mem_append] at hc
    rcases hc with (hc | hc) | hc
    · exact hp c hc
    · unfold commas at hc
      obtain ⟨a, ha, hc⟩ := List.mem_flatMap.1 hc
      rcases List.mem_cons.1 hc with hc | hc
      · omega
      · have := (hd a ha).1 c hc
        omega
    · rw [List.mem_singleton] at hc
      omega
  have e1 : p ++ commas ds ++ 32 :: t ++ [10] = p ++ (commas ds ++ (32 :: t ++ [10])) := by simp
  have e2 : p ++ commas ds ++ 32 :: t ++ [10] = (p ++ commas ds ++ [32]) ++ (t ++ [10]) := by simp
  have hs : PsDates.subst (p ++ commas ds ++ 32 :: t ++ [10]) = (p ++ commas ds ++ [32] ++ PsDates.subst t) ++ [10] := by
    rw [e2, subst_append, subst_same (fun c hc => ⟨(hq c hc).2.2.1, (hq c hc).2.2.2⟩), subst_append]
    simp [PsDates.subst]
  have hm : more 9 ((p ++ commas ds ++ 32 :: t ++ [10]).drop (loc - 1)) = .ok (ds.map fun d => (value d : Int), 32 :: t ++ [10]) := by
    rw [e1, show loc - 1 = p.length from by omega, List.drop_left, C120_list ds hd _ (by simp) (by rfl), if_pos h9]
  have hc : cut (PsDates.subst (p ++ commas ds ++ 32 :: t ++ [10])) = p ++ commas ds ++ [32] ++ PsDates.subst t := by
    rw [hs]
    refine cut_line ?_ (by decide)
    intro c hc
    rw [List.mem_append] at hc
    rcases hc with hc | hc
    · exact ⟨(hq c hc).1, (hq c hc).2.1⟩
    · exact subst_printable ht c hc
  have hn : (p ++ commas ds ++ 32 :: t ++ [10]).length - (32 :: t ++ [10]).length + 1 = (p ++ commas ds ++ [32]).length := by
    simp only [List.length_append, List.length_cons, List.length_nil]
    omega
  unfold entries
  rw [hm]
  simp only [Outcome.bind]
  rw [hn]
  unfold store substitutions
  rw [if_neg (by
    rw [hs]
    simp only [List.length_append, List.length_cons, List.length_nil, subst_length] at hl ⊢
    omega)]
  simp only [Outcome.bind]
  rw [hc, if_neg (by simp), List.drop_left]

/-- A line of another month gives nothing. -/
theorem C120_other (name : List Nat) (month year : Int) (l : List Nat) (h : l.take 3 ≠ name.take 3) :
    line name month year l = some (.ok []) := by
  unfold line
  rw [if_pos h]

theorem atoi_two {a b : Nat} (ha : a < 10) (hb : b < 10) {r : List Nat} (hr : isDigit (at? r 0) = false) :
    atoi (32 :: (48 + a) :: (48 + b) :: r) = ((10 * a + b : Nat) : Int) := by
  have da : isDigit (48 + a) = true := by unfold isDigit; simp; omega
  have db : isDigit (48 + b) = true := by unfold isDigit; simp; omega
  have sa : isSpace (48 + a) = false := by unfold isSpace; simp; omega
  rw [atoi, if_pos (by rfl), atoi, sa, if_neg (by decide), if_neg (by omega), if_neg (by omega), readDigits, if_pos da, readDigits, if_pos db]
  have : ∀ v, readDigits v r = v := by
    intro v
    cases r with
    | nil => rfl
    | cons c s => rw [readDigits, if_neg (by rw [show isDigit c = false from hr]; decide)]
  rw [this]
  congr 1
  omega

/-- A line with a day of two digits, and perhaps others. -/
theorem C120_line (x y z : Nat) (name : List Nat) (hn : name.take 3 = [x, y, z])
    (hxyz : ∀ c ∈ [x, y, z], 32 ≤ c ∧ c < 128 ∧ c ≠ 40 ∧ c ≠ 41) (month year : Int) (a b : Nat) (ha : a < 10) (hb : b < 10)
    (ds : List (List Nat)) (hd : ∀ d ∈ ds, AllDigits d ∧ d ≠ []) (h9 : ds.length ≤ 9) (t : List Nat) (ht : ∀ c ∈ t, 32 ≤ c ∧ c < 128)
    (hl : ([x, y, z, 32, 48 + a, 48 + b] ++ commas ds ++ 32 :: t ++ [10]).length + 3 * (t.count 40 + t.count 41) < 80) :
    line name month year ([x, y, z, 32, 48 + a, 48 + b] ++ commas ds ++ 32 :: t ++ [10]) =
      some (.ok ((((10 * a + b : Nat) : Int) :: ds.map fun d => (value d : Int)).map fun d => (d, PsDates.subst t))) := by
  have hsep : ∀ r : List Nat, r = commas ds ++ 32 :: t ++ [10] → isDigit (at? r 0) = false ∧ at? r 0 ≠ 47 := by
    intro r hr
    rw [hr]
    cases ds with
    | nil => exact ⟨rfl, show (32 : Nat) ≠ 47 by decide⟩
    | cons d ds => exact ⟨rfl, show (44 : Nat) ≠ 47 by decide⟩
  have e : [x, y, z, 32, 48 + a, 48 + b] ++ commas ds ++ 32 :: t ++ [10] =
      x :: y :: z :: 32 :: (48 + a) :: (48 + b) :: (commas ds ++ 32 :: t ++ [10]) := by simp
  obtain ⟨s1, s2⟩ := hsep _ rfl
  unfold line
  rw [if_neg (by rw [hn, e]; simp), if_neg (by rw [e]; exact s2)]
  rw [show List.drop 3 ([x, y, z, 32, 48 + a, 48 + b] ++ commas ds ++ 32 :: t ++ [10]) = 32 :: (48 + a) :: (48 + b) :: (commas ds ++ 32 :: t ++ [10]) from (by
    rw [e]; rfl), atoi_two ha hb s1]
  rw [C120_entries [x, y, z, 32, 48 + a, 48 + b] (by
    intro c hc
    rw [show [x, y, z, 32, 48 + a, 48 + b] = [x, y, z] ++ [32, 48 + a, 48 + b] from rfl, List.mem_append] at hc
    rcases hc with hc | hc
    · exact hxyz c hc
    · simp only [List.mem_cons, List.not_mem_nil, or_false] at hc
      omega) 7 rfl ds hd h9 t ht _ hl]

/-- A line with a day of two digits and a day of the week: the first such day from there on. -/
theorem C120_slash (x y z : Nat) (name : List Nat) (hn : name.take 3 = [x, y, z])
    (hxyz : ∀ c ∈ [x, y, z], 32 ≤ c ∧ c < 128 ∧ c ≠ 40 ∧ c ≠ 41) (month year j : Int) (hm : month ≤ 12) (hy : 1582 < year) (a b w : Nat)
    (ha : a < 10) (hb : b < 10) (hw : w < 7) (hj : dmyToDay (10 * a + b : Nat) month year JULIAN_GREGORIAN = some j) (hp : 0 ≤ j)
    (ds : List (List Nat)) (hd : ∀ d ∈ ds, AllDigits d ∧ d ≠ []) (h9 : ds.length ≤ 9) (t : List Nat) (ht : ∀ c ∈ t, 32 ≤ c ∧ c < 128)
    (hl : ([x, y, z, 32, 48 + a, 48 + b, 47, 48 + w] ++ commas ds ++ 32 :: t ++ [10]).length + 3 * (t.count 40 + t.count 41) < 80) :
    ∃ k : Nat, k < 7 ∧ weekday (j + k) = w ∧ (∀ i : Nat, i < k → weekday (j + i) ≠ w) ∧
    line name month year ([x, y, z, 32, 48 + a, 48 + b, 47, 48 + w] ++ commas ds ++ 32 :: t ++ [10]) =
      some (.ok ((((10 * a + b + k : Nat) : Int) :: ds.map fun d => (value d : Int)).map fun d => (d, PsDates.subst t))) := by
  obtain ⟨k, hk, h1, h2, h3⟩ := C120_weekday month year w (10 * a + b : Nat) j hm hy (by omega) (by omega) (by omega) hj hp
  refine ⟨k, hk, h2, h3, ?_⟩
  have e : [x, y, z, 32, 48 + a, 48 + b, 47, 48 + w] ++ commas ds ++ 32 :: t ++ [10] =
      x :: y :: z :: 32 :: (48 + a) :: (48 + b) :: 47 :: (48 + w) :: (commas ds ++ 32 :: t ++ [10]) := by simp
  have e7 : ((at? ([x, y, z, 32, 48 + a, 48 + b, 47, 48 + w] ++ commas ds ++ 32 :: t ++ [10]) 7 : Nat) : Int) - 48 = w := by
    rw [e]
    show ((48 + w : Nat) : Int) - 48 = w
    omega
  unfold line
  rw [if_neg (by rw [hn, e]; simp), if_pos (by rw [e]; rfl), e7]
  rw [show List.drop 3 ([x, y, z, 32, 48 + a, 48 + b, 47, 48 + w] ++ commas ds ++ 32 :: t ++ [10]) =
    32 :: (48 + a) :: (48 + b) :: 47 :: (48 + w) :: (commas ds ++ 32 :: t ++ [10]) from (by rw [e]; rfl), atoi_two ha hb (by rfl), h1]
  simp only [Option.bind]
  rw [C120_entries [x, y, z, 32, 48 + a, 48 + b, 47, 48 + w] (by
    intro c hc
    rw [show [x, y, z, 32, 48 + a, 48 + b, 47, 48 + w] = [x, y, z] ++ [32, 48 + a, 48 + b, 47, 48 + w] from rfl, List.mem_append] at hc
    rcases hc with hc | hc
    · exact hxyz c hc
    · simp only [List.mem_cons, List.not_mem_nil, or_false] at hc
      omega) 9 rfl ds hd h9 t ht _ hl]
  push_cast
  rfl

/-- The first Monday of September 2024 is the 2nd. -/
example : ∃ k : Nat, k < 7 ∧ weekday (2460555 + k) = (1 : Nat) ∧ (∀ i : Nat, i < k → weekday (2460555 + i) ≠ (1 : Nat)) ∧
    line (bytes "September") 9 2024 (bytes "Sep 01/1 Labor Day (US)\n") =
      some (.ok [(((10 * 0 + 1 + k : Nat) : Int), bytes "Labor Day \\050US\\051")]) :=
  C120_slash 83 101 112 (bytes "September") (by rfl) (by decide) 9 2024 2460555 (by decide) (by decide) 0 1 1 (by decide) (by decide) (by decide)
    (by decide +kernel) (by decide) [] (by simp) (by decide) (bytes "Labor Day (US)") (by decide) (by decide)

/-- Three days in one line. -/
example : line (bytes "June") 6 2024 (bytes "Jun 05,12,19 Choir\n") = some (.ok [(5, bytes "Choir"), (12, bytes "Choir"), (19, bytes "Choir")]) :=
  C120_line 74 117 110 (bytes "June") (by rfl) (by decide) 6 2024 0 5 (by decide) (by decide) [bytes "12", bytes "19"]
    (by unfold AllDigits; decide) (by decide) (bytes "Choir") (by decide) (by decide)

/-- A line that ends right after the day: the text is taken from behind its end. -/
theorem C120_short (x y z : Nat) (name : List Nat) (hn : name.take 3 = [x, y, z])
    (hxyz : ∀ c ∈ [x, y, z], 32 ≤ c ∧ c < 128 ∧ c ≠ 40 ∧ c ≠ 41) (month year : Int) (a b : Nat) (ha : a < 10) (hb : b < 10) :
    line name month year [x, y, z, 32, 48 + a, 48 + b, 10] = some .ub := by
  have hs : ∀ c ∈ [x, y, z, 32, 48 + a, 48 + b], 32 ≤ c ∧ c < 128 ∧ c ≠ 40 ∧ c ≠ 41 := by
    intro c hc
    rw [show [x, y, z, 32, 48 + a, 48 + b] = [x, y, z] ++ [32, 48 + a, 48 + b] from rfl, List.mem_append] at hc
    rcases hc with hc | hc
    · exact hxyz c hc
    · simp only [List.mem_cons, List.not_mem_nil, or_false] at hc
      omega
  have e : [x, y, z, 32, 48 + a, 48 + b, 10] = [x, y, z, 32, 48 + a, 48 + b] ++ [10] := rfl
  have hsub : PsDates.subst [x, y, z, 32, 48 + a, 48 + b, 10] = [x, y, z, 32, 48 + a, 48 + b] ++ [10] := by
    rw [e, subst_append, subst_same fun c hc => ⟨(hs c hc).2.2.1, (hs c hc).2.2.2⟩]
    rfl
  unfold line
  rw [if_neg (by rw [hn]; simp), if_neg (show ¬at? [x, y, z, 32, 48 + a, 48 + b, 10] 6 = 47 from show ¬(10 : Nat) = 47 by decide)]
  congr 1
  unfold entries
  rw [show List.drop (7 - 1) [x, y, z, 32, 48 + a, 48 + b, 10] = [10] from rfl, more_end (by simp)]
  simp only [Outcome.bind]
  unfold store substitutions
  rw [hsub, if_neg (by simp)]
  simp only [Outcome.bind]
  rw [cut_line (fun c hc => ⟨(hs c hc).1, (hs c hc).2.1⟩) (by decide), if_pos (by simp)]

end Verif.Props
