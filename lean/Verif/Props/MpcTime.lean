import Verif.Model.MpcTime
import Verif.Props.MutantHex
import Verif.Lemmas.RomanCal

/-!
# Property theorems: submission times in observation identifiers (C43)
-/

namespace Verif.Props

open Verif Verif.Desig Verif.Date Verif.MpcTime Verif.Spec

theorem values_of (a b c rest : List Nat) (ha : a.length = 3) (hb : b.length = 3) (hc : c.length = 2) :
    values (a ++ b ++ c ++ rest) = .ok (getMutantHexLoop 0 a, getMutantHexLoop 0 b, getMutantHexLoop 0 c) := by
  unfold values
  rw [if_neg (by simp; omega)]
  have h1 : getMutantHexValue (a ++ b ++ c ++ rest) 3 = getMutantHexLoop 0 a := by
    rw [← ha, List.append_assoc, List.append_assoc, getValue_eq]
  have h2 : getMutantHexValue ((a ++ b ++ c ++ rest).drop 3) 3 = getMutantHexLoop 0 b := by
    rw [List.append_assoc, List.append_assoc, ← ha, List.drop_left, ha, ← hb, getValue_eq]
  have h3 : getMutantHexValue ((a ++ b ++ c ++ rest).drop 6) 2 = getMutantHexLoop 0 c := by
    rw [List.append_assoc, show 6 = (a ++ b).length by simp; omega, List.drop_left, ← hc, getValue_eq]
  rw [h1, h2, h3]

/-- **C43.** Every date from 1 January 1800 to 31 August 2440, every second of the day (with a leap second) and
    every millisecond has an identifier, and the program reads those fields back from it, whatever follows the
    eight digits. -/
theorem C43_roundtrip (y mo d h mi s ms : Int) (rest : List Nat) (hy : 1800 ≤ y) (hm : 1 ≤ mo ∧ mo ≤ 12) (hd : 1 ≤ d ∧ d ≤ 31)
    (hr : y < 2440 ∨ (y = 2440 ∧ mo ≤ 8)) (hh : 0 ≤ h ∧ h ≤ 24) (hmi : 0 ≤ mi ∧ mi ≤ 59) (hs : 0 ≤ s ∧ s ≤ 59)
    (hms : 0 ≤ ms ∧ ms ≤ 999) :
    ∃ v, values (encode y mo d (h * 3600 + mi * 60 + s) ms ++ rest) = .ok v ∧ stamp v = ⟨y, mo, d, h, mi, s, ms⟩ := by
  generalize hA : (y - 1800) * 12 * 31 + (mo - 1) * 31 + (d - 1) = A
  generalize hB : h * 3600 + mi * 60 + s = B
  have hA0 : 0 ≤ A ∧ A < 62 ^ 3 := by omega
  have hB0 : 0 ≤ B ∧ B < 62 ^ 3 := by omega
  obtain ⟨-, e1⟩ := encode_decode 3 A hA0.1
  obtain ⟨-, e2⟩ := encode_decode 3 B hB0.1
  obtain ⟨-, e3⟩ := encode_decode 2 ms hms.1
  rw [Int.emod_eq_of_lt hA0.1 hA0.2] at e1
  rw [Int.emod_eq_of_lt hB0.1 hB0.2] at e2
  rw [Int.emod_eq_of_lt hms.1 (by omega)] at e3
  refine ⟨(A, B, ms), ?_, ?_⟩
  · unfold MpcTime.encode
    rw [hA, values_of _ _ _ _ (encode_length _ _) (encode_length _ _) (encode_length _ _), e1, e2, e3]
  · have n1 := Int.tdiv_eq_ediv_of_nonneg (a := A) (b := 31 * 12) hA0.1
    have n2 := Int.tdiv_eq_ediv_of_nonneg (a := A) (b := 31) hA0.1
    have n3 := Int.tmod_eq_emod_of_nonneg (a := A) (b := 31) hA0.1
    have n4 := Int.tmod_eq_emod_of_nonneg (a := A / 31) (b := 12) (by omega)
    have n5 := Int.tdiv_eq_ediv_of_nonneg (a := B) (b := 3600) hB0.1
    have n6 := Int.tdiv_eq_ediv_of_nonneg (a := B) (b := 60) hB0.1
    have n7 := Int.tmod_eq_emod_of_nonneg (a := B) (b := 60) hB0.1
    have n8 := Int.tmod_eq_emod_of_nonneg (a := B / 60) (b := 60) (by omega)
    simp only [stamp, n1, n2, n3, n4, n5, n6, n7, n8, Stamp.mk.injEq, and_true]
    refine ⟨?_, ?_, ?_, ?_, ?_, ?_⟩ <;> omega

/-- **C43.** Every identifier made of base-62 digits gives a month from 1 to 12, a day from 1 to 31, a year from
    1800 to 2440, minutes and seconds below 60. -/
theorem C43_ranges (a b c rest : List Nat) (ha : a.length = 3) (hb : b.length = 3) (hc : c.length = 2)
    (h : ∀ x ∈ a ++ b ++ c, x ∈ base62Alphabet) :
    ∃ v, values (a ++ b ++ c ++ rest) = .ok v ∧ 1800 ≤ (stamp v).year ∧ (stamp v).year ≤ 2440 ∧
      1 ≤ (stamp v).month ∧ (stamp v).month ≤ 12 ∧ 1 ≤ (stamp v).day ∧ (stamp v).day ≤ 31 ∧
      0 ≤ (stamp v).hour ∧ (stamp v).hour ≤ 66 ∧ 0 ≤ (stamp v).minute ∧ (stamp v).minute ≤ 59 ∧
      0 ≤ (stamp v).second ∧ (stamp v).second ≤ 59 ∧ 0 ≤ (stamp v).millisec ∧ (stamp v).millisec ≤ 3843 := by
  have hv : ∀ x ∈ a ++ b ++ c, mutantHexCharToInt x ≠ -1 := fun x hx => (valid_iff x).2 (h x hx)
  obtain ⟨a0, a1⟩ := loop_range a fun x hx => hv x (by simp [hx])
  obtain ⟨b0, b1⟩ := loop_range b fun x hx => hv x (by simp [hx])
  obtain ⟨c0, c1⟩ := loop_range c fun x hx => hv x (by simp [hx])
  rw [ha] at a1; rw [hb] at b1; rw [hc] at c1
  refine ⟨_, values_of a b c rest ha hb hc, ?_⟩
  generalize getMutantHexLoop 0 a = A at *
  generalize getMutantHexLoop 0 b = B at *
  generalize getMutantHexLoop 0 c = C at *
  have n1 := Int.tdiv_eq_ediv_of_nonneg (a := A) (b := 31 * 12) a0
  have n2 := Int.tdiv_eq_ediv_of_nonneg (a := A) (b := 31) a0
  have n3 := Int.tmod_eq_emod_of_nonneg (a := A) (b := 31) a0
  have n4 := Int.tmod_eq_emod_of_nonneg (a := A / 31) (b := 12) (by omega)
  have n5 := Int.tdiv_eq_ediv_of_nonneg (a := B) (b := 3600) b0
  have n6 := Int.tdiv_eq_ediv_of_nonneg (a := B) (b := 60) b0
  have n7 := Int.tmod_eq_emod_of_nonneg (a := B) (b := 60) b0
  have n8 := Int.tmod_eq_emod_of_nonneg (a := B / 60) (b := 60) (by omega)
  simp only [stamp, n1, n2, n3, n4, n5, n6, n7, n8]
  refine ⟨?_, ?_, ?_, ?_, ?_, ?_, ?_, ?_, ?_, ?_, ?_, ?_, ?_, ?_⟩ <;> omega

/-- **C43.** Two identifiers which give the same fields have the same eight digits. -/
theorem C43_injective (a b c rest a' b' c' rest' : List Nat) (ha : a.length = 3) (hb : b.length = 3) (hc : c.length = 2)
    (ha' : a'.length = 3) (hb' : b'.length = 3) (hc' : c'.length = 2)
    (h : ∀ x ∈ a ++ b ++ c, x ∈ base62Alphabet) (h' : ∀ x ∈ a' ++ b' ++ c', x ∈ base62Alphabet) (v v' : Int × Int × Int)
    (e : values (a ++ b ++ c ++ rest) = .ok v) (e' : values (a' ++ b' ++ c' ++ rest') = .ok v')
    (hs : stamp v = stamp v') : a ++ b ++ c = a' ++ b' ++ c' := by
  have hv : ∀ x ∈ a ++ b ++ c, mutantHexCharToInt x ≠ -1 := fun x hx => (valid_iff x).2 (h x hx)
  have hv' : ∀ x ∈ a' ++ b' ++ c', mutantHexCharToInt x ≠ -1 := fun x hx => (valid_iff x).2 (h' x hx)
  rw [values_of a b c rest ha hb hc] at e
  rw [values_of a' b' c' rest' ha' hb' hc'] at e'
  cases e; cases e'
  have inj : ∀ s s' : List Nat, s.length = s'.length → (∀ x ∈ s, x ∈ base62Alphabet) → (∀ x ∈ s', x ∈ base62Alphabet) →
      getMutantHexLoop 0 s = getMutantHexLoop 0 s' → s = s' := by
    intro s s' hl h1 h2 he
    have e1 := C18_decode_encode s h1
    have e2 := C18_decode_encode s' h2
    have g1 := getValue_eq s []
    have g2 := getValue_eq s' []
    rw [List.append_nil] at g1 g2
    rw [g1, he, hl] at e1
    rw [g2] at e2
    rw [e1] at e2
    exact congrArg Prod.fst e2
  have i1 := inj a a' (by omega) (fun x hx => h x (by simp [hx])) (fun x hx => h' x (by simp [hx]))
  have i2 := inj b b' (by omega) (fun x hx => h x (by simp [hx])) (fun x hx => h' x (by simp [hx]))
  have i3 := inj c c' (by omega) (fun x hx => h x (by simp [hx])) (fun x hx => h' x (by simp [hx]))
  obtain ⟨a0, a1⟩ := loop_range a fun x hx => hv x (by simp [hx])
  obtain ⟨b0, b1⟩ := loop_range b fun x hx => hv x (by simp [hx])
  obtain ⟨a0', a1'⟩ := loop_range a' fun x hx => hv' x (by simp [hx])
  obtain ⟨b0', b1'⟩ := loop_range b' fun x hx => hv' x (by simp [hx])
  rw [ha] at a1; rw [hb] at b1; rw [ha'] at a1'; rw [hb'] at b1'
  generalize getMutantHexLoop 0 a = A at *
  generalize getMutantHexLoop 0 b = B at *
  generalize getMutantHexLoop 0 c = C at *
  generalize getMutantHexLoop 0 a' = A' at *
  generalize getMutantHexLoop 0 b' = B' at *
  generalize getMutantHexLoop 0 c' = C' at *
  have red : ∀ X : Int, 0 ≤ X → X.tdiv (31 * 12) = X / (31 * 12) ∧ X.tdiv 31 = X / 31 ∧ X.tmod 31 = X % 31 ∧
      (X / 31).tmod 12 = X / 31 % 12 ∧ X.tdiv 3600 = X / 3600 ∧ X.tdiv 60 = X / 60 ∧ X.tmod 60 = X % 60 ∧
      (X / 60).tmod 60 = X / 60 % 60 := fun X hX =>
    ⟨Int.tdiv_eq_ediv_of_nonneg hX, Int.tdiv_eq_ediv_of_nonneg hX, Int.tmod_eq_emod_of_nonneg hX,
      Int.tmod_eq_emod_of_nonneg (by omega), Int.tdiv_eq_ediv_of_nonneg hX, Int.tdiv_eq_ediv_of_nonneg hX,
      Int.tmod_eq_emod_of_nonneg hX, Int.tmod_eq_emod_of_nonneg (by omega)⟩
  obtain ⟨p1, p2, p3, p4, -, -, -, -⟩ := red A a0
  obtain ⟨p1', p2', p3', p4', -, -, -, -⟩ := red A' a0'
  obtain ⟨-, -, -, -, q1, q2, q3, q4⟩ := red B b0
  obtain ⟨-, -, -, -, q1', q2', q3', q4'⟩ := red B' b0'
  simp only [stamp, p1, p2, p3, p4, p1', p2', p3', p4', q1, q2, q3, q4, q1', q2', q3', q4', Stamp.mk.injEq] at hs
  obtain ⟨s1, s2, s3, s4, s5, s6, s7⟩ := hs
  have hA : A = A' := by omega
  have hB : B = B' := by clear s1 s2 s3; omega
  rw [i1 hA, i2 hB, i3 s7]

/-- **C43.** There is no warning exactly when the date exists, the time of day is before 24:00:00 and the
    milliseconds are below 1000. -/
theorem C43_warnings (v : Int × Int × Int) (h0 : 0 ≤ v.1) (h1 : 0 ≤ v.2.1) :
    warnings v = some [] ↔
      gregorian.Exists (stamp v).day (stamp v).month (stamp v).year ∧ (stamp v).hour ≤ 23 ∧ (stamp v).millisec ≤ 999 := by
  obtain ⟨A, B, C⟩ := v
  simp only at h0 h1
  have n2 := Int.tdiv_eq_ediv_of_nonneg (a := A) (b := 31) h0
  have n3 := Int.tmod_eq_emod_of_nonneg (a := A) (b := 31) h0
  have n4 := Int.tmod_eq_emod_of_nonneg (a := A / 31) (b := 12) (by omega)
  have n5 := Int.tdiv_eq_ediv_of_nonneg (a := B) (b := 3600) h1
  have hm : 1 ≤ (stamp (A, B, C)).month ∧ (stamp (A, B, C)).month ≤ 12 := by simp only [stamp, n2, n4]; omega
  have hd : 1 ≤ (stamp (A, B, C)).day := by simp only [stamp, n3]; omega
  have hh : (stamp (A, B, C)).hour ≤ 23 ↔ B < 86400 := by simp only [stamp, n5]; omega
  obtain ⟨n, e1, -, e2, -⟩ := gregorian_refines.daysInMonth (y := (stamp (A, B, C)).year) hm.1 (by omega)
  rw [hh]
  unfold warnings
  generalize stamp (A, B, C) = s at *
  have hx : gregorian.Exists s.day s.month s.year ↔ s.day ≤ n := by
    constructor
    · rintro ⟨-, -, len, hl, hle⟩
      rw [e2] at hl
      cases hl
      exact hle
    · intro h
      exact ⟨hm.1, hd, n, e2, h⟩
  simp only [e1, Option.map_some, Option.some.injEq, List.append_eq_nil_iff]
  rw [hx]
  constructor
  · rintro ⟨⟨⟨w1, w2⟩, w3⟩, w4⟩
    have c1 : ¬ s.day > n := fun hc => by rw [if_pos hc] at w1; cases w1
    have c2 : ¬ s.millisec ≥ 1000 := fun hc => by rw [if_pos hc] at w2; cases w2
    have c3 : ¬ B > 86400 := fun hc => by rw [if_pos hc] at w3; cases w3
    have c4 : B ≠ 86400 := fun hc => by rw [if_pos hc] at w4; split at w4 <;> cases w4
    omega
  · rintro ⟨w1, w2, w3⟩
    rw [if_neg (by omega), if_neg (by omega), if_neg (by omega), if_neg (by omega)]
    exact ⟨⟨⟨rfl, rfl⟩, rfl⟩, rfl⟩

/-- **C43.** Finding: an identifier with a wrong character in its first three places is printed as day 0 of
    January 1800, with no warning. -/
theorem C43_bad_digit (a b c rest : List Nat) (ha : a.length = 3) (hb : b.length = 3) (hc : c.length = 2)
    (h : ∃ x ∈ a, x ∉ base62Alphabet)
    (h1 : getMutantHexLoop 0 b < 86400) (h2 : getMutantHexLoop 0 c < 1000) :
    ∃ v, values (a ++ b ++ c ++ rest) = .ok v ∧ (stamp v).year = 1800 ∧ (stamp v).month = 1 ∧ (stamp v).day = 0 ∧
      warnings v = some [] := by
  have hx : getMutantHexLoop 0 a = -1 := by
    obtain ⟨x, hxa, hn⟩ := h
    have := C18_decode_invalid a [] ⟨x, hxa, hn⟩
    rwa [getValue_eq] at this
  refine ⟨_, values_of a b c rest ha hb hc, ?_⟩
  rw [hx]
  have hd : daysInMonth 1 1800 GREGORIAN = some 31 := by decide +kernel
  refine ⟨rfl, rfl, rfl, ?_⟩
  generalize getMutantHexLoop 0 b = B at *
  generalize getMutantHexLoop 0 c = C at *
  unfold warnings
  show (daysInMonth 1 1800 GREGORIAN).map _ = _
  rw [hd]
  simp only [Option.map_some]
  have hday : ¬ (stamp (-1, B, C)).day > 31 := by show ¬ ((0 : Int) > 31); decide
  have hmil : ¬ (stamp (-1, B, C)).millisec ≥ 1000 := by show ¬ C ≥ 1000; omega
  rw [if_neg hday, if_neg hmil, if_neg (show ¬ B > 86400 by omega), if_neg (show ¬ B = 86400 by omega)]
  rfl

/-- **C43.** Finding: an argument of fewer than six characters is read past its end. -/
theorem C43_short (id : List Nat) (h : id.length < 6) : values id = .ub := by
  unfold values; rw [if_pos h]

/-- The first test case in the source, /repo/mpc_time.c:56. -/
example : (values (bytes "K6yCeR0100005WG401000000A")).bind (fun v => .ok (stamp v, warnings v)) =
    .ok (⟨2007, 10, 30, 13, 30, 35, 1⟩, some []) := by decide +kernel

/-- The second and third. -/
example : (values (bytes "LP6CWP340000E5ZY010000QZe")).bind (fun v => .ok (stamp v)) = .ok ⟨2021, 3, 7, 13, 22, 17, 190⟩ ∧
    (values (bytes "LQBB0Q8k0000EAnd0100006Ne")).bind (fun v => .ok (stamp v)) = .ok ⟨2021, 5, 12, 11, 45, 10, 542⟩ := by
  decide +kernel

/-- **C43.** What each warning means.  At 24:00:00 exactly, a possible leap second is reported on 30 June and 31 December and
    an impossible one on every other day. -/
theorem C43_leap_second (v : Int × Int × Int) (h0 : 0 ≤ v.1) (w : List Warning) (h : warnings v = some w) :
    (.leapSecond ∈ w ↔ v.2.1 = 86400 ∧ ((stamp v).month = 6 ∧ (stamp v).day = 30 ∨ (stamp v).month = 12 ∧ (stamp v).day = 31)) ∧
    (.badLeapSecond ∈ w ↔ v.2.1 = 86400 ∧ ¬ ((stamp v).month = 6 ∧ (stamp v).day = 30 ∨ (stamp v).month = 12 ∧ (stamp v).day = 31)) ∧
    (.timeOfDay ∈ w ↔ 86400 < v.2.1) ∧ (.millisec ∈ w ↔ 1000 ≤ (stamp v).millisec) ∧
    (.daysInMonth ∈ w ↔ ¬ gregorian.Exists (stamp v).day (stamp v).month (stamp v).year) := by
  obtain ⟨A, B, C⟩ := v
  simp only at h0 ⊢
  have n2 := Int.tdiv_eq_ediv_of_nonneg (a := A) (b := 31) h0
  have n3 := Int.tmod_eq_emod_of_nonneg (a := A) (b := 31) h0
  have n4 := Int.tmod_eq_emod_of_nonneg (a := A / 31) (b := 12) (by omega)
  have hm : 1 ≤ (stamp (A, B, C)).month ∧ (stamp (A, B, C)).month ≤ 12 := by simp only [stamp, n2, n4]; omega
  have hd : 1 ≤ (stamp (A, B, C)).day := by simp only [stamp, n3]; omega
  obtain ⟨n, e1, -, e2, -⟩ := gregorian_refines.daysInMonth (y := (stamp (A, B, C)).year) hm.1 (by omega)
  unfold warnings at h
  generalize stamp (A, B, C) = s at *
  have hx : gregorian.Exists s.day s.month s.year ↔ s.day ≤ n := by
    constructor
    · rintro ⟨-, -, len, hl, hle⟩
      rw [e2] at hl
      cases hl
      exact hle
    · intro h
      exact ⟨hm.1, hd, n, e2, h⟩
  have h6 : s.month = 6 → n = 30 := by
    intro h; rw [h] at e2; exact (Option.some.inj e2).symm
  have h12 : s.month = 12 → n = 31 := by
    intro h; rw [h] at e2; exact (Option.some.inj e2).symm
  have ht : s.month.tmod 6 ≠ 0 ∨ s.day ≠ n ↔ ¬ (s.month = 6 ∧ s.day = 30 ∨ s.month = 12 ∧ s.day = 31) := by
    rw [Int.tmod_eq_emod_of_nonneg (by omega)]
    constructor
    · rintro (h | h) (⟨g1, g2⟩ | ⟨g1, g2⟩)
      · omega
      · omega
      · have := h6 g1; omega
      · have := h12 g1; omega
    · intro h
      by_contra hc
      rw [not_or, not_not, not_not] at hc
      have : s.month = 6 ∨ s.month = 12 := by omega
      rcases this with g | g
      · have := h6 g; omega
      · have := h12 g; omega
  simp only [e1, Option.map_some, Option.some.injEq] at h
  rw [hx]
  subst h
  simp only [ht, List.mem_append]
  by_cases a1 : s.day > n <;> by_cases a2 : s.millisec ≥ 1000 <;> by_cases a3 : B > 86400 <;> by_cases a4 : B = 86400 <;>
    by_cases a5 : s.month = 6 ∧ s.day = 30 ∨ s.month = 12 ∧ s.day = 31 <;>
    simp only [a1, a2, a3, a4, a5, if_true, if_false] <;> simp <;> omega

end Verif.Props
