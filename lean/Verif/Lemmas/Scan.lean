import Verif.Model.Scan
import Verif.Lemmas.Decimal
import Mathlib.Tactic.Ring
import Mathlib.Tactic.FieldSimp
import Mathlib.Algebra.CharZero.Defs
import Mathlib.Tactic.NormNum

/-! # The scanner on plain numbers -/

namespace Verif.Scan

open Verif Verif.Spec

/-- Neither a digit nor the end of a longer number. -/
def Stops (s : List Nat) : Prop := isDigit (at? s 0) = false ∧ at? s 0 ≠ 46 ∧ at? s 0 ≠ 101 ∧ at? s 0 ≠ 69

theorem at_append_left {a b : List Nat} (h : a ≠ []) : at? (a ++ b) 0 = at? a 0 := by
  cases a with
  | nil => exact absurd rfl h
  | cons c s => rfl

theorem head_digit {ds : List Nat} (hd : AllDigits ds) (hne : ds ≠ []) : 48 ≤ at? ds 0 ∧ at? ds 0 ≤ 57 := by
  cases ds with
  | nil => exact absurd rfl hne
  | cons c s => exact hd c (by simp)

theorem skipSpace_of {s : List Nat} (h : isSpace (at? s 0) = false) : skipSpace s = s := by
  cases s with
  | nil => rfl
  | cons c s => 
    have : isSpace c = false := h
    simp [skipSpace, this]

theorem skipSpace_blanks (k : Nat) (s : List Nat) : skipSpace (List.replicate k 32 ++ s) = skipSpace s := by
  induction k with
  | zero => rfl
  | succ k ih => rw [List.replicate_succ, List.cons_append, skipSpace, if_pos (by decide), ih]

theorem sign_of {s : List Nat} (h : at? s 0 ≠ 45) (h' : at? s 0 ≠ 43) : sign s = (false, s) := by
  unfold sign
  split
  · exact absurd rfl h
  · exact absurd rfl h'
  · rfl

theorem start_digits {ds rest : List Nat} (hd : AllDigits ds) (hne : ds ≠ []) :
    sign (skipSpace (ds ++ rest)) = (false, ds ++ rest) := by
  have h := head_digit hd hne
  rw [← at_append_left (b := rest) hne] at h
  rw [skipSpace_of, sign_of (by omega) (by omega)]
  simp [isSpace]; omega

theorem digits_span {ds rest : List Nat} (hd : AllDigits ds) (h : isDigit (at? rest 0) = false) (acc : Nat) :
    digitCount (ds ++ rest) = ds.length ∧ readDigits acc (ds ++ rest) = readDigits acc ds := by
  constructor
  · rw [digitCount_append ds rest hd, digitCount_stop rest h, Nat.add_zero]
  · rw [readDigits_append acc ds rest hd, readDigits_stop _ rest h]

theorem scanInt_digits {ds rest : List Nat} (hd : AllDigits ds) (hne : ds ≠ []) (h : isDigit (at? rest 0) = false) :
    scanInt (ds ++ rest) = some ((value ds : Int), rest) := by
  unfold scanInt
  rw [start_digits hd hne]
  obtain ⟨h1, h2⟩ := digits_span hd h 0
  have hl : ds.length ≠ 0 := by simpa using hne
  simp only [h1, h2, readDigits_eq ds hd, if_neg hl, List.drop_left, Bool.false_eq_true, if_false]

theorem readDigits_value (acc : Nat) (s : List Nat) (h : AllDigits s) : readDigits acc s = acc * 10 ^ s.length + value s := by
  induction s generalizing acc with
  | nil => simp [readDigits, value]
  | cons c s ih =>
    have hc : isDigit c = true := (isDigit_iff c).2 (h c (by simp))
    have hs : AllDigits s := fun x hx => h x (by simp [hx])
    have h2 := ih (c - 48) hs
    have h3 : value (c :: s) = readDigits (c - 48) s := by
      rw [← readDigits_eq (c :: s) h, readDigits, if_pos hc, Nat.zero_mul, Nat.zero_add]
    rw [readDigits, if_pos hc, ih _ hs, h3, h2, List.length_cons, pow_succ]
    ring

theorem mantissa_digits {ds rest : List Nat} (hd : AllDigits ds) (hne : ds ≠ []) (h : isDigit (at? rest 0) = false)
    (h46 : at? rest 0 ≠ 46) : mantissa (ds ++ rest) = some (value ds, 0, rest) := by
  unfold mantissa
  obtain ⟨h1, h2⟩ := digits_span hd h 0
  have hl : ds.length ≠ 0 := by simpa using hne
  simp only [h1, h2, readDigits_eq ds hd, List.drop_left, if_neg h46, if_neg hl]

theorem mantissa_decimal {ds fs rest : List Nat} (hd : AllDigits ds) (hf : AllDigits fs) (hne : ds ≠ [] ∨ fs ≠ [])
    (h : isDigit (at? rest 0) = false) :
    mantissa (ds ++ 46 :: fs ++ rest) = some (value ds * 10 ^ fs.length + value fs, fs.length, rest) := by
  unfold mantissa
  have e : ds ++ 46 :: fs ++ rest = ds ++ 46 :: (fs ++ rest) := by simp
  rw [e]
  obtain ⟨h1, h2⟩ := digits_span (rest := 46 :: (fs ++ rest)) hd (by rfl) 0
  obtain ⟨h3, h4⟩ := digits_span (rest := rest) hf h (value ds)
  have h0 : at? (46 :: (fs ++ rest)) 0 = 46 := rfl
  have hl : ¬ (ds.length = 0 ∧ fs.length = 0) := by
    rcases hne with h | h
    · have : ds.length ≠ 0 := by simpa using h
      omega
    · have : fs.length ≠ 0 := by simpa using h
      omega
  simp only [h1, h2, readDigits_eq ds hd, List.drop_left, h0, if_true, h3, h4, if_neg hl,
    List.drop_succ_cons, readDigits_value _ fs hf]
  have hl' : ds = [] → fs ≠ [] := by rintro rfl; simpa using hne
  simp [h3, h4, readDigits_value _ fs hf]
  exact hl'

variable {K : Type} [Field K]

theorem real_zero (neg : Bool) (v p : Nat) : (real neg v p 0 : K) = if neg then -((v : K) / 10 ^ p) else (v : K) / 10 ^ p := by
  unfold real; simp

theorem exponent_none {r : List Nat} (h : at? r 0 ≠ 101) (h' : at? r 0 ≠ 69) : exponent r = none := by
  unfold exponent
  rw [if_neg (by rintro (h1 | h1) <;> contradiction)]

theorem scanReal_digits {ds rest : List Nat} (hd : AllDigits ds) (hne : ds ≠ []) (h : Stops rest) :
    scanReal (K := K) (ds ++ rest) = some ((value ds : K), rest) := by
  unfold scanReal
  rw [start_digits hd hne]
  simp only [mantissa_digits hd hne h.1 h.2.1, exponent_none h.2.2.1 h.2.2.2, real_zero]
  rw [if_neg (by rintro (h1 | h1); exacts [h.2.2.1 h1, h.2.2.2 h1])]
  simp

theorem scanReal_decimal [CharZero K] {ds fs rest : List Nat} (hd : AllDigits ds) (hne : ds ≠ []) (hf : AllDigits fs) (h : Stops rest) :
    scanReal (K := K) (ds ++ 46 :: fs ++ rest) = some ((value ds : K) + (value fs : K) / 10 ^ fs.length, rest) := by
  unfold scanReal
  rw [List.append_assoc, start_digits hd hne, ← List.append_assoc]
  simp only [mantissa_decimal hd hf (Or.inl hne) h.1, exponent_none h.2.2.1 h.2.2.2, real_zero]
  rw [if_neg (by rintro (h1 | h1); exacts [h.2.2.1 h1, h.2.2.2 h1])]
  simp only [Bool.false_eq_true, if_false, Option.some.injEq, Prod.mk.injEq, and_true]
  have : (10 : K) ^ fs.length ≠ 0 := pow_ne_zero _ (by norm_num)
  push_cast
  field_simp

theorem strtold_digits {ds rest : List Nat} (hd : AllDigits ds) (hne : ds ≠ []) (h : Stops rest) :
    strtold (K := K) (ds ++ rest) = ((value ds : K), rest) := by
  unfold strtold
  rw [start_digits hd hne]
  simp only [mantissa_digits hd hne h.1 h.2.1, exponent_none h.2.2.1 h.2.2.2, real_zero]
  simp

theorem strtold_decimal [CharZero K] {ds fs rest : List Nat} (hd : AllDigits ds) (hne : ds ≠ []) (hf : AllDigits fs) (h : Stops rest) :
    strtold (K := K) (ds ++ 46 :: fs ++ rest) = ((value ds : K) + (value fs : K) / 10 ^ fs.length, rest) := by
  unfold strtold
  rw [List.append_assoc, start_digits hd hne, ← List.append_assoc]
  simp only [mantissa_decimal hd hf (Or.inl hne) h.1, exponent_none h.2.2.1 h.2.2.2, real_zero]
  simp only [Bool.false_eq_true, if_false, Prod.mk.injEq, and_true]
  have : (10 : K) ^ fs.length ≠ 0 := pow_ne_zero _ (by norm_num)
  push_cast
  field_simp

end Verif.Scan
