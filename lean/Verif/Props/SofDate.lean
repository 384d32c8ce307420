import Mathlib.Tactic.Ring
import Mathlib.Tactic.NormNum
import Mathlib.Tactic.Linarith
import Verif.Model.Sof
import Verif.Lemmas.Digits
import Verif.Props.Calendars

/-!
# Property theorems: dates written YYYYMMDD (C47)
-/

namespace Verif.Props

open Verif Verif.Date Verif.Spec Verif.Sof

/-- `s` does not begin with a digit. -/
def NoDigit (s : List Nat) : Prop := ∀ c, s.head? = some c → ¬ (48 ≤ c ∧ c ≤ 57)

theorem takeWhile_digits (s t : List Nat) (hs : AllDigits s) (ht : NoDigit t) : (s ++ t).takeWhile isDigit = s := by
  induction s with
  | nil =>
    cases t with
    | nil => rfl
    | cons c t =>
      have := ht c rfl
      have hc : isDigit c = false := by simp [isDigit]; omega
      simp [hc]
  | cons c s ih =>
    have hc : isDigit c = true := by
      have := hs c (by simp)
      simp [isDigit]; omega
    rw [List.cons_append, List.takeWhile_cons, hc]
    simp [ih (fun d hd => hs d (by simp [hd]))]

theorem scanLong_digits (s t : List Nat) (hs : AllDigits s) (h0 : s ≠ []) (ht : NoDigit t) :
    scanLong (s ++ t) = some ((value s : Int), s.length) := by
  cases s with
  | nil => exact absurd rfl h0
  | cons c s =>
    have hc := hs c (by simp)
    have hsp : isSpace c = false := by simp [isSpace]; omega
    have h1 : List.takeWhile isSpace (c :: s ++ t) = [] := by
      rw [List.cons_append, List.takeWhile_cons, hsp]; rfl
    have h2 : at? (c :: s ++ t) 0 = c := rfl
    unfold scanLong
    rw [h1]
    simp only [List.length_nil, List.drop_zero, h2]
    have h3 : ¬ (c = 45 ∨ c = 43) := by omega
    have h4 : ¬ c = 45 := by omega
    simp only [if_neg h3, if_neg h4, List.drop_zero, takeWhile_digits _ _ hs ht, readDigits_eq _ hs]
    simp

/-- The fraction of a day written after the date: none, or a point and digits (and no exponent, which the model
    of `atof` leaves out). -/
inductive Fraction : List Nat → ℚ → Prop
  | none {s} : NoDigit s → s.head? ≠ some 46 → Fraction s 0
  | point {ds s} : AllDigits ds → NoDigit s → s.head? ≠ some 69 → s.head? ≠ some 101 → Fraction (46 :: (ds ++ s)) ((value ds : ℚ) / 10 ^ ds.length)

/-- **C47.** Eight digits that spell a date of the Gregorian calendar, with or without a fraction of a day, give
    the Julian Date: the day number less one half (midnight), plus the fraction. -/
theorem C47_date (d m y : Nat) (yyyy mm dd tail : List Nat) (frac : ℚ)
    (hy : Padded 4 y yyyy) (hm : Padded 2 m mm) (hd : Padded 2 d dd) (hf : Fraction tail frac)
    (e : gregorian.Exists d m y) :
    extractYyyymmddToJd (yyyy ++ mm ++ dd ++ tail) = some ((gregorian.dayNumber d m y : ℚ) - 1 / 2 + frac) := by
  have hall : AllDigits (yyyy ++ mm ++ dd) := by
    intro c hc
    simp only [List.mem_append] at hc
    rcases hc with (hc | hc) | hc
    · exact hy.digits c hc
    · exact hm.digits c hc
    · exact hd.digits c hc
  have hlen : (yyyy ++ mm ++ dd).length = 8 := by simp [hy.width, hm.width, hd.width]
  have hv : value (yyyy ++ mm ++ dd) = y * 10000 + m * 100 + d := by
    rw [value_append, value_append, hy.value, hm.value, hd.value, hm.width, hd.width]; ring
  have hm2 : m < 100 := by have := value_cons_lt hm.digits; rw [hm.value, hm.width] at this; omega
  have hd2 : d < 100 := by have := value_cons_lt hd.digits; rw [hd.value, hd.width] at this; omega
  have hnd : NoDigit tail := by
    cases hf with
    | none h _ => exact h
    | point h _ _ _ => intro c hc; simp at hc; omega
  have hs := scanLong_digits _ tail hall (by intro h; rw [h] at hlen; simp at hlen) hnd
  have hfr : (if at? (yyyy ++ mm ++ dd ++ tail) 8 = 46 then atofPoint ((yyyy ++ mm ++ dd ++ tail).drop 8) else 0) = frac := by
    have h1 : at? (yyyy ++ mm ++ dd ++ tail) 8 = at? tail 0 := by
      unfold at?
      rw [List.getD_eq_getElem?_getD, List.getElem?_append_right (by omega), hlen, ← List.getD_eq_getElem?_getD]
    have h2 : (yyyy ++ mm ++ dd ++ tail).drop 8 = tail := by
      rw [← hlen, List.drop_left]
    rw [h1, h2]
    cases hf with
    | none h h' =>
      rw [if_neg]
      intro h''
      apply h'
      cases tail with
      | nil => simp [at?] at h''
      | cons c t => simpa [at?] using h''
    | point h h' _ _ =>
      rw [if_pos (show at? (46 :: _) 0 = 46 from rfl)]
      unfold atofPoint
      rw [List.drop_succ_cons, List.drop_zero, takeWhile_digits _ _ h h']
      simp only [readDigits_eq _ h]
  unfold extractYyyymmddToJd
  rw [hs]
  simp only [hlen, if_true, hfr, hv]
  rw [Int.tmod_eq_emod_of_nonneg (by omega), Int.tdiv_eq_ediv_of_nonneg (by omega), Int.tdiv_eq_ediv_of_nonneg (by omega),
    Int.tmod_eq_emod_of_nonneg (by omega)]
  have a1 : ((y * 10000 + m * 100 + d : Nat) : Int) % 100 = d := by omega
  have a2 : ((y * 10000 + m * 100 + d : Nat) : Int) / 100 % 100 = m := by omega
  have a3 : ((y * 10000 + m * 100 + d : Nat) : Int) / 10000 = y := by omega
  rw [a1, a2, a3, C02_gregorian_daycount e]
  rfl

/-- **C47.** Different dates give different Julian Dates. -/
theorem C47_injective (d m y d' m' y' : Nat) (yyyy mm dd yyyy' mm' dd' : List Nat)
    (hy : Padded 4 y yyyy) (hm : Padded 2 m mm) (hd : Padded 2 d dd) (e : gregorian.Exists d m y)
    (hy' : Padded 4 y' yyyy') (hm' : Padded 2 m' mm') (hd' : Padded 2 d' dd') (e' : gregorian.Exists d' m' y')
    (h : extractYyyymmddToJd (yyyy ++ mm ++ dd) = extractYyyymmddToJd (yyyy' ++ mm' ++ dd')) :
    yyyy ++ mm ++ dd = yyyy' ++ mm' ++ dd' := by
  have f : Fraction [] 0 := .none (by intro c hc; simp at hc) (by simp)
  have a := C47_date d m y yyyy mm dd [] 0 hy hm hd f e
  have a' := C47_date d' m' y' yyyy' mm' dd' [] 0 hy' hm' hd' f e'
  simp only [List.append_nil, add_zero] at a a'
  rw [a, a'] at h
  have h := Option.some.inj h
  have h : gregorian.dayNumber d m y = gregorian.dayNumber d' m' y' := by
    have : (gregorian.dayNumber d m y : ℚ) = gregorian.dayNumber d' m' y' := by linarith
    exact_mod_cast this
  obtain ⟨g1, g2, g3⟩ := gregorian_wf.dayNumber_inj e e' h
  have g1 : d = d' := by exact_mod_cast g1
  have g2 : m = m' := by exact_mod_cast g2
  have g3 : y = y' := by exact_mod_cast g3
  subst g1 g2 g3
  rw [padded_unique hy hy', padded_unique hm hm', padded_unique hd hd']

/-- **C47.** Digit strings of any other length give no date at all: only the fraction is returned. -/
theorem C47_other_length (s tail : List Nat) (hs : AllDigits s) (h0 : s ≠ []) (h8 : s.length ≠ 8)
    (hn : NoDigit tail) (hp : tail.head? ≠ some 46) : extractYyyymmddToJd (s ++ tail) = some 0 := by
  unfold extractYyyymmddToJd
  rw [scanLong_digits _ _ hs h0 hn]
  have h1 : at? (s ++ tail) s.length ≠ 46 := by
    unfold at?
    rw [List.getD_eq_getElem?_getD, List.getElem?_append_right (by omega), Nat.sub_self, ← List.getD_eq_getElem?_getD]
    cases tail with
    | nil => simp
    | cons c t => simpa using hp
  simp only [if_neg h1, if_neg h8]

/-- **C47.** Finding: a month from 15 on makes `dmy_to_day` read outside its array of month lengths. -/
theorem C47_bad_month : extractYyyymmddToJd (bytes "20211501") = none := by decide +kernel

/-- **C47.** Finding: dates that do not exist are accepted; 30 February is 2 March. -/
theorem C47_no_such_day : extractYyyymmddToJd (bytes "20210230") = extractYyyymmddToJd (bytes "20210302") := by
  decide +kernel

/-- **C47.** Finding: the eight bytes may include a sign or blanks, so seven digits after a blank are taken as a
    date in the first millennium. -/
theorem C47_blank : extractYyyymmddToJd (bytes " 2021010") = extractYyyymmddToJd (bytes "02021010") := by decide +kernel

example : extractYyyymmddToJd (bytes "20000101.5") = some 2451545 := by decide +kernel
example : gregorian.Exists 29 2 2000 := by unfold Calendar.Exists; exact ⟨by decide, by decide, 29, by decide, by decide⟩
example : Fraction (bytes ".5|") (1 / 2) := by
  have := Fraction.point (ds := [53]) (s := [124]) (by unfold AllDigits; decide) (by intro c hc; simp at hc; omega) (by simp) (by simp)
  have e : ((value [53] : Nat) : ℚ) / 10 ^ [53].length = 1 / 2 := by norm_num [value]
  rw [e] at this
  exact this

/-- **C47.** Finding: seven digits with a minus sign are taken as a date, with day, month and year all negative. -/
theorem C47_negative (s tail : List Nat) (hs : AllDigits s) (h7 : s.length = 7) (hn : NoDigit tail) (hp : tail.head? ≠ some 46) :
    extractYyyymmddToJd (45 :: (s ++ tail)) =
      (dmyToDay (-(value s % 100 : Nat)) (-(value s / 100 % 100 : Nat)) (-(value s / 10000 : Nat)) GREGORIAN).map fun (d : Int) => (d : ℚ) - 1 / 2 := by
  have hsc : scanLong (45 :: (s ++ tail)) = some (-(value s : Int), 8) := by
    unfold scanLong
    have h1 : List.takeWhile isSpace (45 :: (s ++ tail)) = [] := rfl
    rw [h1]
    simp only [List.length_nil, List.drop_zero]
    have h2 : at? (45 :: (s ++ tail)) 0 = 45 := rfl
    simp only [h2, true_or, if_true, List.drop_succ_cons, List.drop_zero, takeWhile_digits _ _ hs hn, readDigits_eq _ hs, h7]
    rw [if_neg (by intro h; rw [h] at h7; simp at h7)]
  have h1 : at? (45 :: (s ++ tail)) 8 ≠ 46 := by
    unfold at?
    rw [List.getD_cons_succ, List.getD_eq_getElem?_getD, List.getElem?_append_right (by omega), h7, Nat.sub_self, ← List.getD_eq_getElem?_getD]
    cases tail with
    | nil => simp
    | cons c t => simpa using hp
  unfold extractYyyymmddToJd
  rw [hsc]
  simp only [if_neg h1, if_true, add_zero]
  rw [Int.neg_tmod, Int.neg_tdiv, Int.neg_tdiv, Int.neg_tmod]
  rw [Int.tmod_eq_emod_of_nonneg (by omega), Int.tdiv_eq_ediv_of_nonneg (by omega), Int.tdiv_eq_ediv_of_nonneg (by omega),
    Int.tmod_eq_emod_of_nonneg (by omega)]
  rfl

end Verif.Props
