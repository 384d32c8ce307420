import Verif.Model.MpcLine
import Verif.Spec.MpcLine
import Verif.Lemmas.Scan
import Verif.Lemmas.Decimal

/-!
# Property theorems: reading a number without exponent (C73)
-/

namespace Verif.Props

open Verif Verif.Spec Verif.MpcLine Verif.Scan

theorem skipBlanks_replicate (k : Nat) (s : List Nat) : skipBlanks (List.replicate k 32 ++ s) = skipBlanks s := by
  induction k with
  | zero => rfl
  | succ k ih => rw [List.replicate_succ, List.cons_append, skipBlanks, ih]

theorem skipBlanks_of {s : List Nat} (h : at? s 0 ≠ 32) : skipBlanks s = s := by
  unfold skipBlanks
  split
  · exact absurd rfl h
  · rfl

/-- The part of `quick_strtod` after the sign. -/
def quickTail (ibuff : List Nat) (neg : Bool) (t : List Nat) : Outcome (ℚ × List Nat) :=
  let a := digitCount t
  let int := readDigits 0 t
  if int > INT_MAX then .ub
  else
    let r := t.drop a
    if at? r 0 ≠ 46 then .ok (if neg then -(int : ℚ) else int, r)
    else
      let r := r.drop 1
      let b := digitCount r
      if b = 0 ∧ a = 0 then .ok (0, ibuff)
      else if 10 ^ b > INT_MAX then .ub
      else
        let v : ℚ := int + (readDigits 0 r : ℚ) / 10 ^ b
        .ok (if neg then -v else v, r.drop b)

theorem quickStrtod_lead {l : List Nat} {neg : Bool} (h : Lead l neg) {s : List Nat} (h1 : at? s 0 ≠ 32) (h2 : at? s 0 ≠ 43)
    (h3 : at? s 0 ≠ 45) : quickStrtod (l ++ s) = quickTail (l ++ s) neg s := by
  cases h with
  | none k =>
    unfold quickStrtod quickTail
    rw [skipBlanks_replicate, skipBlanks_of h1]
    simp only [h2, h3, or_self, if_false]
    rfl
  | plus k =>
    unfold quickStrtod quickTail
    rw [List.append_assoc, skipBlanks_replicate, skipBlanks_of (by simp [at?])]
    have : at? ([43] ++ s) 0 = 43 := rfl
    simp only [this]
    rfl
  | minus k =>
    unfold quickStrtod quickTail
    rw [List.append_assoc, skipBlanks_replicate, skipBlanks_of (by simp [at?])]
    have : at? ([45] ++ s) 0 = 45 := rfl
    simp only [this]
    rfl

theorem digits_head {ds rest : List Nat} (hd : AllDigits ds) (hne : ds ≠ []) : 48 ≤ at? (ds ++ rest) 0 ∧ at? (ds ++ rest) 0 ≤ 57 := by
  rw [at_append_left hne]
  exact head_digit hd hne

/-- C73: whole numbers. -/
theorem C73_integer {l : List Nat} {neg : Bool} (h : Lead l neg) {ds rest : List Nat} (hd : AllDigits ds) (hne : ds ≠ [])
    (hr : isDigit (at? rest 0) = false) (hp : at? rest 0 ≠ 46) (hb : value ds ≤ INT_MAX) :
    quickStrtod (l ++ (ds ++ rest)) = .ok (signed neg (value ds), rest) := by
  have hh := digits_head (rest := rest) hd hne
  rw [quickStrtod_lead h (by omega) (by omega) (by omega)]
  unfold quickTail
  obtain ⟨h1, h2⟩ := digits_span hd hr 0
  rw [readDigits_eq _ hd] at h2
  simp only [h1, h2, List.drop_left]
  rw [if_neg (by omega), if_pos hp]
  rfl

/-- C73: numbers with a decimal point; there may be no digit before it, or none after it. -/
theorem C73_decimal {l : List Nat} {neg : Bool} (h : Lead l neg) {ds fs rest : List Nat} (hd : AllDigits ds) (hf : AllDigits fs)
    (hne : ds ≠ [] ∨ fs ≠ []) (hr : isDigit (at? rest 0) = false) (hb : value ds ≤ INT_MAX) (h9 : fs.length ≤ 9) :
    quickStrtod (l ++ (ds ++ 46 :: (fs ++ rest))) = .ok (signed neg (value ds + (value fs : ℚ) / 10 ^ fs.length), rest) := by
  have hh : at? (ds ++ 46 :: (fs ++ rest)) 0 ≠ 32 ∧ at? (ds ++ 46 :: (fs ++ rest)) 0 ≠ 43 ∧ at? (ds ++ 46 :: (fs ++ rest)) 0 ≠ 45 := by
    cases ds with
    | nil => simp [at?]
    | cons c s => have := digits_head (rest := 46 :: (fs ++ rest)) hd (by simp); omega
  rw [quickStrtod_lead h hh.1 hh.2.1 hh.2.2]
  unfold quickTail
  obtain ⟨h1, h2⟩ := digits_span (rest := 46 :: (fs ++ rest)) hd rfl 0
  rw [readDigits_eq _ hd] at h2
  obtain ⟨h3, h4⟩ := digits_span hf hr 0
  rw [readDigits_eq _ hf] at h4
  have hpow : 10 ^ fs.length ≤ 10 ^ 9 := Nat.pow_le_pow_right (by omega) h9
  simp only [h1, h2, List.drop_left, List.drop_succ_cons, List.drop_zero, h3, h4]
  rw [if_neg (by omega), if_neg (by simp [at?]), if_neg (by simp; tauto), if_neg (by unfold INT_MAX; omega)]
  rfl

/-- **Finding** (C73): ten or more decimals, which would be read correctly by `strtod`, overflow the `int` that holds
    the divisor. -/
theorem C73_too_many_decimals {l : List Nat} {neg : Bool} (h : Lead l neg) {ds fs rest : List Nat} (hd : AllDigits ds)
    (hf : AllDigits fs) (hr : isDigit (at? rest 0) = false) (h10 : 10 ≤ fs.length) :
    quickStrtod (l ++ (ds ++ 46 :: (fs ++ rest))) = .ub := by
  have hh : at? (ds ++ 46 :: (fs ++ rest)) 0 ≠ 32 ∧ at? (ds ++ 46 :: (fs ++ rest)) 0 ≠ 43 ∧ at? (ds ++ 46 :: (fs ++ rest)) 0 ≠ 45 := by
    cases ds with
    | nil => simp [at?]
    | cons c s => have := digits_head (rest := 46 :: (fs ++ rest)) hd (by simp); omega
  rw [quickStrtod_lead h hh.1 hh.2.1 hh.2.2]
  unfold quickTail
  obtain ⟨h1, h2⟩ := digits_span (rest := 46 :: (fs ++ rest)) hd rfl 0
  obtain ⟨h3, h4⟩ := digits_span hf hr 0
  have hpow : 10 ^ 10 ≤ 10 ^ fs.length := Nat.pow_le_pow_right (by omega) h10
  simp only [h1, List.drop_left, List.drop_succ_cons, List.drop_zero, h3]
  split
  · rfl
  · rw [if_neg (by simp [at?]), if_neg (by omega), if_pos (by unfold INT_MAX; omega)]

/-- **Finding** (C73): a number of 2147483648 or more overflows an `int`. -/
theorem C73_too_large {l : List Nat} {neg : Bool} (h : Lead l neg) {ds rest : List Nat} (hd : AllDigits ds)
    (hr : isDigit (at? rest 0) = false) (hb : INT_MAX < value ds) : quickStrtod (l ++ (ds ++ rest)) = .ub := by
  have hne : ds ≠ [] := by rintro rfl; simp [value] at hb
  have hh := digits_head (rest := rest) hd hne
  rw [quickStrtod_lead h (by omega) (by omega) (by omega)]
  unfold quickTail
  obtain ⟨h1, h2⟩ := digits_span hd hr 0
  rw [readDigits_eq _ hd] at h2
  simp only [h2]
  rw [if_pos hb]

/-- **Finding** (C73): where there is no number at all the caller is not told: blanks and a sign are passed over as if a
    number had been read. -/
theorem C73_no_number {l : List Nat} {neg : Bool} (h : Lead l neg) {rest : List Nat} (hr : isDigit (at? rest 0) = false)
    (h1 : at? rest 0 ≠ 32) (h2 : at? rest 0 ≠ 43) (h3 : at? rest 0 ≠ 45) (h4 : at? rest 0 ≠ 46) :
    quickStrtod (l ++ rest) = .ok (0, rest) := by
  rw [quickStrtod_lead h h1 h2 h3]
  unfold quickTail
  have e1 := digitCount_stop rest hr
  have e2 : readDigits 0 rest = 0 := readDigits_stop 0 rest hr
  simp only [e1, e2, List.drop_zero]
  rw [if_neg (by omega), if_pos h4]
  simp

/-- C73: a point without digits on either side is not a number; nothing is passed over. -/
theorem C73_only_point {l : List Nat} {neg : Bool} (h : Lead l neg) {rest : List Nat} (hr : isDigit (at? rest 0) = false) :
    quickStrtod (l ++ 46 :: rest) = .ok (0, l ++ 46 :: rest) := by
  rw [quickStrtod_lead h (by simp [at?]) (by simp [at?]) (by simp [at?])]
  unfold quickTail
  have e1 : digitCount (46 :: rest) = 0 := digitCount_stop _ rfl
  have e2 : readDigits 0 (46 :: rest) = 0 := readDigits_stop 0 _ rfl
  have e3 := digitCount_stop rest hr
  simp only [e1, e2, List.drop_zero]
  rw [if_neg (by omega), if_neg (by simp [at?])]
  simp [e3]

example : quickStrtod (bytes "  -12.5x") = .ok (-(25 / 2), bytes "x") := by
  have := C73_decimal (.minus 2) (ds := [49, 50]) (fs := [53]) (rest := [120]) (by unfold AllDigits; decide) (by unfold AllDigits; decide) (by simp) rfl
    (by decide) (by decide)
  rw [show bytes "  -12.5x" = List.replicate 2 32 ++ [45] ++ ([49, 50] ++ 46 :: ([53] ++ [120])) by decide +kernel, this]
  unfold signed
  rw [show value [49, 50] = 12 by decide, show value [53] = 5 by decide]
  norm_num
  decide +kernel

end Verif.Props
