import Verif.Model.VarDesig
import Verif.Lemmas.Decimal

/-!
# Property theorems: variable star designations (C27)
-/

namespace Verif.Props

open Verif Verif.VarStar

/-! Specification: the 334 lettered names in their historical order, /repo/miscell.cpp:99-133. -/

/-- Letters from `R` to `Z`. -/
def lettersRZ : List Nat := bytes "RSTUVWXYZ"
/-- Letters from `A` to `Z` without `J`. -/
def lettersAZ : List Nat := bytes "ABCDEFGHIKLMNOPQRSTUVWXYZ"

/-- R … Z, RR … ZZ, AA … QZ, in each pair the second letter not before the first. -/
def letteredNames : List (List Nat) :=
  lettersRZ.map (fun a => [a]) ++
  lettersRZ.flatMap (fun a => (lettersRZ.filter (a ≤ ·)).map fun b => [a, b]) ++
  (lettersAZ.filter (· ≤ 81)).flatMap (fun a => (lettersAZ.filter (a ≤ ·)).map fun b => [a, b])

theorem letteredNames_length : letteredNames.length = 334 := by decide +kernel

/-- The name of the star with a given number. -/
def starName (n : Nat) : List Nat := if n ≤ 334 then letteredNames.getD (n - 1) [] else 86 :: dec n

theorem takeWhile_all (p : Nat → Bool) (l : List Nat) (h : ∀ x ∈ l, p x = true) : l.takeWhile p = l := by
  induction l with
  | nil => rfl
  | cons a l ih => rw [List.takeWhile_cons, h a (by simp), if_pos rfl, ih fun x hx => h x (by simp [hx])]

/-- The whole table of lettered names, made and deciphered. -/
theorem make_table : (List.range 334).map (fun n : Nat => makeVarDesig ((n + 1 : Nat) : Int)) = letteredNames := by
  decide +kernel
theorem decipher_table : letteredNames.map decipherVarDesig = (List.range 334).map (fun n : Nat => ((n + 1 : Nat) : Int)) := by
  decide +kernel

theorem vDigits_eq (n : Nat) (h1 : 335 ≤ n) (h2 : n < 10000) : vDigits n = dec n := by
  by_cases h : n < 1000
  · rw [dec3 (by omega) h]
    simp [vDigits, show ¬ 1000 ≤ n by omega, show 100 ≤ n by omega, show 10 ≤ n by omega, show 1 ≤ n by omega]
    omega
  · rw [dec4 (by omega) h2]
    simp [vDigits, show 1000 ≤ n by omega, show 100 ≤ n by omega, show 10 ≤ n by omega, show 1 ≤ n by omega]
    omega

/-- **C27.** The names are those of the historical scheme, for all numbers up to 9999. -/
theorem C27_name_partial (n : Nat) (h1 : 1 ≤ n) (h2 : n < 10000) : makeVarDesig n = starName n := by
  by_cases h : n ≤ 334
  · unfold starName
    rw [if_pos h, ← make_table, List.getD_eq_getElem?_getD, List.getElem?_map, List.getElem?_range (by omega)]
    simp only [Option.map_some, Option.getD_some, Nat.sub_add_cancel h1]
  · unfold makeVarDesig starName
    rw [if_neg (by omega), if_pos (by omega), if_neg h]
    simp only [Int.toNat_natCast]
    rw [vDigits_eq n (by omega) h2]

/-- **C27.** Every lettered name is deciphered to its place in the list. -/
theorem C27_decipher_lettered (n : Nat) (h1 : 1 ≤ n) (h2 : n ≤ 334) : decipherVarDesig (starName n) = n := by
  have e := congrArg (fun l : List Int => l[n - 1]?) decipher_table
  simp only [List.getElem?_map, List.getElem?_range (show n - 1 < 334 by omega), Option.map_some, Nat.sub_add_cancel h1] at e
  unfold starName
  rw [if_pos h2, List.getD_eq_getElem?_getD]
  cases hx : letteredNames[n - 1]? with
  | none => rw [hx] at e; cases e
  | some x => rw [hx] at e; exact Option.some.inj e

theorem atoi_dec (n : Nat) : atoi (dec n) = n := by
  have hne := dec_ne_nil n
  have hd := dec_digits n
  have hr := readDigits_dec n
  cases h : dec n with
  | nil => exact absurd h hne
  | cons c cs =>
    rw [h] at hd hr
    have hc := hd c (by simp)
    have hs : isSpace c = false := by simp [isSpace]; omega
    unfold atoi
    rw [hs]
    rw [if_neg (by simp), if_neg (by omega), if_neg (by omega), hr]

/-- **C27.** "V" followed by a number is deciphered to the number, however large. -/
theorem C27_decipher_V (n : Nat) (h : 10 ≤ n) : decipherVarDesig (86 :: dec n) = n := by
  have hl : 2 ≤ (dec n).length := by
    rw [dec_step h, List.length_append]
    have := dec_length_pos (n / 10); simp; omega
  have hw : wordLength (86 :: dec n) = (dec n).length + 1 := by
    unfold wordLength
    rw [takeWhile_all]
    · simp
    · intro x hx
      rcases List.mem_cons.1 hx with rfl | hx
      · decide
      · have := dec_digits n x hx
        simp; omega
  unfold decipherVarDesig
  rw [hw, if_neg (by omega), if_neg (by omega)]
  have : at? (86 :: dec n) 0 = 86 := rfl
  rw [this, if_pos (by decide), List.drop_succ_cons, List.drop_zero, atoi_dec]
  omega

/-- **C27.** Making and deciphering are inverse, for all numbers up to 9999. -/
theorem C27_round_trip_partial (n : Nat) (h1 : 1 ≤ n) (h2 : n < 10000) :
    decipherVarDesig (makeVarDesig n) = n := by
  rw [C27_name_partial n h1 h2]
  by_cases h : n ≤ 334
  · exact C27_decipher_lettered n h1 h
  · unfold starName
    rw [if_neg h]
    exact C27_decipher_V n (by omega)

example : makeVarDesig 334 = bytes "QZ" ∧ makeVarDesig 335 = bytes "V335" ∧
    makeVarDesig 54 = bytes "ZZ" ∧ decipherVarDesig (bytes "qy Cyg") = 333 := by decide +kernel

/-- **C27.** Different numbers have different names, up to 9999. -/
theorem C27_distinct_partial (n m : Nat) (hn : 1 ≤ n ∧ n < 10000) (hm : 1 ≤ m ∧ m < 10000)
    (h : makeVarDesig n = makeVarDesig m) : n = m := by
  have := C27_round_trip_partial n hn.1 hn.2
  rw [h, C27_round_trip_partial m hm.1 hm.2] at this
  omega

/-- **C27**, violated for every number from 10000 on: the name is that of the number modulo 10000,
    with four digits. -/
theorem C27_large_numbers (n : Nat) (h : 10000 ≤ n) : makeVarDesig n = 86 :: pad 4 (n % 10000) := by
  unfold makeVarDesig
  rw [if_neg (by omega), if_pos (by omega)]
  simp only [Int.toNat_natCast]
  rw [pad4 (Nat.mod_lt _ (by decide))]
  have h1 : n ≥ 1000 := by omega
  have h2 : n ≥ 100 := by omega
  have h3 : n ≥ 10 := by omega
  have h4 : n ≥ 1 := by omega
  simp only [vDigits, List.flatMap_cons, List.flatMap_nil, if_pos h1, if_pos h2, if_pos h3, if_pos h4,
    List.append_nil, List.cons_append, List.nil_append, List.cons.injEq, and_true, true_and]
  omega

/-- **C27**, the consequence: such a star is given the name of another one. -/
theorem C27_clash (n m : Nat) (h : 10000 ≤ n) (hm : m = n % 10000) (h1 : 1000 ≤ m) :
    makeVarDesig n = makeVarDesig m := by
  have h2 : m < 10000 := by omega
  rw [C27_large_numbers n h, ← hm, C27_name_partial m (by omega) h2]
  unfold starName
  rw [if_neg (by omega), pad4 h2, dec4 h1 h2]

example : makeVarDesig 12345 = bytes "V2345" := by decide +kernel

/-- **C27.** Which two-letter words are names: exactly those in the list (in either case); every other
    two-letter word is deciphered as -1. -/
theorem C27_two_letters (a b : Nat) (ha : a ≠ 32) (hb : b ≠ 32) :
    (∃ n, 1 ≤ n ∧ n ≤ 334 ∧ starName n = [toUpper a, toUpper b] ∧ decipherVarDesig [a, b] = n) ∨
    ((∀ n, 1 ≤ n → n ≤ 334 → starName n ≠ [toUpper a, toUpper b]) ∧ decipherVarDesig [a, b] = -1) := by
  have hw : wordLength [a, b] = 2 := by simp [wordLength, ha, hb]
  have hdec : decipherVarDesig [a, b] = decipherTwo a b + 1 := by
    unfold decipherVarDesig
    rw [hw]; rfl
  have hup : ∀ c, toUpper (toUpper c) = toUpper c := by
    intro c; unfold toUpper
    by_cases h : isLower c = true
    · rw [if_pos h]
      have := (isLower_iff c).1 h
      rw [if_neg]; rw [isLower_iff]; omega
    · rw [if_neg h, if_neg h]
  have hd2 : decipherTwo a b = decipherTwo (toUpper a) (toUpper b) := by
    unfold decipherTwo; rw [hup, hup]
  rw [hdec, hd2]
  generalize hA : toUpper a = A
  generalize hB : toUpper b = B
  have hA' : toUpper A = A := by rw [← hA, hup]
  have hB' : toUpper B = B := by rw [← hB, hup]
  by_cases hr : 65 ≤ A ∧ A ≤ 90 ∧ 65 ≤ B ∧ B ≤ 90
  · have hd : ∀ i j : Fin 26, decipherTwo (65 + i.val) (65 + j.val) = -2 ∨
        (0 ≤ decipherTwo (65 + i.val) (65 + j.val) ∧ decipherTwo (65 + i.val) (65 + j.val) < 334 ∧
          makeVarDesig (decipherTwo (65 + i.val) (65 + j.val) + 1) = [65 + i.val, 65 + j.val]) := by decide +kernel
    have := hd ⟨A - 65, by omega⟩ ⟨B - 65, by omega⟩
    simp only [show 65 + (A - 65) = A by omega, show 65 + (B - 65) = B by omega] at this
    rcases this with h2 | ⟨h1, h2, h3⟩
    · right
      refine ⟨fun n hn1 hn2 hn => ?_, by omega⟩
      have h4 := C27_decipher_lettered n hn1 hn2
      rw [hn] at h4
      have hwA : wordLength [A, B] = 2 := by
        have : A ≠ 32 ∧ B ≠ 32 := by omega
        simp [wordLength, this.1, this.2]
      have h5 : decipherVarDesig [A, B] = decipherTwo A B + 1 := by
        unfold decipherVarDesig; rw [hwA]; rfl
      omega
    · left
      obtain ⟨n, hn⟩ := Int.eq_ofNat_of_zero_le h1
      rw [hn] at h2 h3 ⊢
      refine ⟨n + 1, by omega, by omega, ?_, by omega⟩
      rw [← C27_name_partial (n + 1) (by omega) (by omega)]
      exact h3
  · right
    constructor
    · intro n hn1 hn2 hm
      have hall : ∀ s ∈ letteredNames, ∀ c ∈ s, 65 ≤ c ∧ c ≤ 90 := by decide +kernel
      have hmem : [A, B] ∈ letteredNames := by
        unfold starName at hm
        rw [if_pos hn2, List.getD_eq_getElem?_getD] at hm
        cases hx : letteredNames[n - 1]? with
        | none => rw [hx] at hm; cases hm
        | some x => rw [hx] at hm; rw [← hm]; exact List.mem_of_getElem? hx
      have h1 := hall _ hmem A (by simp)
      have h2 := hall _ hmem B (by simp)
      omega
    · unfold decipherTwo
      rw [hA', hB']
      simp only []
      by_cases h1 : (B : Int) ≥ A ∧ (B : Int) ≤ 90
      · rw [if_pos h1, if_neg (by omega), if_neg (by omega)]; rfl
      · rw [if_neg h1]; rfl

/-- **C27**, one-letter words are ambiguous: "A" is deciphered to the number of "V9201". -/
theorem C27_one_letter_clash : decipherVarDesig (bytes "A") = decipherVarDesig (bytes "V9201") := by decide +kernel

end Verif.Props
