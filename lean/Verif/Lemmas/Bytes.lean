import Verif.Model.Bytes

/-! # Lemmas about byte strings and decimal numbers -/

namespace Verif

theorem decAux_mono (k n : Nat) (h : n < 10 ^ (k + 1)) : decAux (k + 1) n = decAux k n := by
  induction k generalizing n with
  | zero =>
    have : n < 10 := by simpa using h
    simp [decAux, this, Nat.mod_eq_of_lt this]
  | succ k ih =>
    have hd : n / 10 < 10 ^ (k + 1) := by
      rw [Nat.div_lt_iff_lt_mul (by decide)]; rwa [Nat.pow_succ] at h
    have e : ∀ k n, decAux (k + 1) n = if n < 10 then [48 + n] else decAux k (n / 10) ++ [48 + n % 10] :=
      fun _ _ => rfl
    rw [e (k + 1) n, e k n, ih _ hd]

theorem decAux_eq (k j n : Nat) (h : n < 10 ^ (k + 1)) : decAux (k + j) n = decAux k n := by
  induction j with
  | zero => rfl
  | succ j ih =>
    rw [← Nat.add_assoc, decAux_mono, ih]
    exact Nat.lt_of_lt_of_le h (Nat.pow_le_pow_right (by decide) (by omega))

theorem lt_ten_pow (n : Nat) : n < 10 ^ (n + 1) :=
  Nat.lt_of_lt_of_le (Nat.lt_pow_self (by decide)) (Nat.pow_le_pow_right (by decide) (by omega))

theorem dec_small {n : Nat} (h : n < 10) : dec n = [48 + n] := by
  unfold dec
  cases n with
  | zero => rfl
  | succ n => simp [decAux, h]

theorem dec_step {n : Nat} (h : 10 ≤ n) : dec n = dec (n / 10) ++ [48 + n % 10] := by
  unfold dec
  obtain ⟨m, rfl⟩ : ∃ m, n = m + 1 := ⟨n - 1, by omega⟩
  rw [decAux, if_neg (by omega)]
  congr 1
  have e : m = (m + 1) / 10 + (m - (m + 1) / 10) := by omega
  have h2 := decAux_eq ((m + 1) / 10) (m - (m + 1) / 10) ((m + 1) / 10) (lt_ten_pow _)
  rwa [← e] at h2

theorem dec_ne_nil (n : Nat) : dec n ≠ [] := by
  by_cases h : n < 10
  · rw [dec_small h]; simp
  · rw [dec_step (by omega)]; simp

/-- Every byte of a decimal number is a digit. -/
theorem dec_digits (n : Nat) : ∀ c ∈ dec n, 48 ≤ c ∧ c ≤ 57 := by
  induction n using Nat.strongRecOn with
  | _ n ih =>
    by_cases h : n < 10
    · rw [dec_small h]; simp; omega
    · rw [dec_step (by omega)]
      intro c hc
      rcases List.mem_append.1 hc with hc | hc
      · exact ih _ (by omega) c hc
      · simp at hc; omega

theorem isDigit_iff (c : Nat) : isDigit c = true ↔ 48 ≤ c ∧ c ≤ 57 := by simp [isDigit]
theorem isDigit_false (c : Nat) : isDigit c = false ↔ c < 48 ∨ 57 < c := by
  simp only [isDigit, Bool.and_eq_false_iff, decide_eq_false_iff_not]; omega
theorem isUpper_iff (c : Nat) : isUpper c = true ↔ 65 ≤ c ∧ c ≤ 90 := by simp [isUpper]
theorem isUpper_false (c : Nat) : isUpper c = false ↔ c < 65 ∨ 90 < c := by
  simp only [isUpper, Bool.and_eq_false_iff, decide_eq_false_iff_not]; omega
theorem isLower_iff (c : Nat) : isLower c = true ↔ 97 ≤ c ∧ c ≤ 122 := by simp [isLower]
theorem isLower_false (c : Nat) : isLower c = false ↔ c < 97 ∨ 122 < c := by
  simp only [isLower, Bool.and_eq_false_iff, decide_eq_false_iff_not]; omega
theorem isAlpha_iff (c : Nat) : isAlpha c = true ↔ (65 ≤ c ∧ c ≤ 90) ∨ (97 ≤ c ∧ c ≤ 122) := by
  simp [isAlpha, isUpper, isLower]
theorem isAlnum_iff (c : Nat) : isAlnum c = true ↔
    (48 ≤ c ∧ c ≤ 57) ∨ (65 ≤ c ∧ c ≤ 90) ∨ (97 ≤ c ∧ c ≤ 122) := by
  simp [isAlnum, isAlpha, isUpper, isLower, isDigit]

theorem readDigits_append (acc : Nat) (ds rest : List Nat) (h : ∀ c ∈ ds, 48 ≤ c ∧ c ≤ 57) :
    readDigits acc (ds ++ rest) = readDigits (readDigits acc ds) rest := by
  induction ds generalizing acc with
  | nil => rfl
  | cons c cs ih =>
    have hc := h c (by simp)
    simp only [List.cons_append, readDigits, (isDigit_iff c).2 hc, if_true]
    exact ih _ (fun c hc => h c (by simp [hc]))

theorem readDigits_stop (acc : Nat) (rest : List Nat) (h : isDigit (at? rest 0) = false) :
    readDigits acc rest = acc := by
  cases rest with
  | nil => rfl
  | cons c cs =>
    simp only [at?, List.getD_cons_zero] at h
    simp [readDigits, h]

theorem readDigits_dec (n : Nat) : readDigits 0 (dec n) = n := by
  induction n using Nat.strongRecOn with
  | _ n ih =>
    by_cases h : n < 10
    · rw [dec_small h]
      have : isDigit (48 + n) = true := (isDigit_iff _).2 (by omega)
      simp [readDigits, this]
    · rw [dec_step (by omega), readDigits_append _ _ _ (dec_digits _), ih _ (by omega)]
      have : isDigit (48 + n % 10) = true := (isDigit_iff _).2 (by omega)
      simp only [readDigits, this, if_true]
      omega

theorem digitCount_append (ds rest : List Nat) (h : ∀ c ∈ ds, 48 ≤ c ∧ c ≤ 57) :
    digitCount (ds ++ rest) = ds.length + digitCount rest := by
  induction ds with
  | nil => simp
  | cons c cs ih =>
    have hc := h c (by simp)
    simp only [List.cons_append, digitCount, (isDigit_iff c).2 hc, if_true, List.length_cons]
    rw [ih (fun c hc => h c (by simp [hc]))]
    omega

theorem digitCount_stop (rest : List Nat) (h : isDigit (at? rest 0) = false) : digitCount rest = 0 := by
  cases rest with
  | nil => rfl
  | cons c cs =>
    simp only [at?, List.getD_cons_zero] at h
    simp [digitCount, h]

/-- Decimal numbers are read back. -/
theorem readDigits_dec_append (n : Nat) (rest : List Nat) (h : isDigit (at? rest 0) = false) :
    readDigits 0 (dec n ++ rest) = n := by
  rw [readDigits_append _ _ _ (dec_digits n), readDigits_dec, readDigits_stop _ _ h]

theorem digitCount_dec_append (n : Nat) (rest : List Nat) (h : isDigit (at? rest 0) = false) :
    digitCount (dec n ++ rest) = (dec n).length := by
  rw [digitCount_append _ _ (dec_digits n), digitCount_stop _ h]; omega

theorem dec_injective {n m : Nat} (h : dec n = dec m) : n = m := by
  have := congrArg (readDigits 0) h
  rwa [readDigits_dec, readDigits_dec] at this

/-- Explicit digits. -/
theorem dec1 {n : Nat} (h : n < 10) : dec n = [48 + n] := dec_small h
theorem dec2 {n : Nat} (h1 : 10 ≤ n) (h2 : n < 100) : dec n = [48 + n / 10, 48 + n % 10] := by
  rw [dec_step h1, dec1 (by omega)]; rfl
theorem dec3 {n : Nat} (h1 : 100 ≤ n) (h2 : n < 1000) :
    dec n = [48 + n / 100, 48 + n / 10 % 10, 48 + n % 10] := by
  rw [dec_step (by omega), dec2 (by omega) (by omega)]
  simp only [List.cons_append, List.nil_append, Nat.div_div_eq_div_mul]
theorem dec4 {n : Nat} (h1 : 1000 ≤ n) (h2 : n < 10000) :
    dec n = [48 + n / 1000, 48 + n / 100 % 10, 48 + n / 10 % 10, 48 + n % 10] := by
  rw [dec_step (by omega), dec3 (by omega) (by omega)]
  simp only [List.cons_append, List.nil_append, Nat.div_div_eq_div_mul]

theorem dec_length_le {n k : Nat} (h : n < 10 ^ (k + 1)) : (dec n).length ≤ k + 1 := by
  induction k generalizing n with
  | zero => rw [dec1 (by simpa using h)]; simp
  | succ k ih =>
    by_cases h1 : n < 10
    · rw [dec1 h1]; simp
    · rw [dec_step (by omega), List.length_append]
      have := ih (n := n / 10) (by rw [Nat.div_lt_iff_lt_mul (by decide)]; rwa [Nat.pow_succ] at h)
      simp; omega

theorem dec_length_pos (n : Nat) : 0 < (dec n).length :=
  List.length_pos_iff.2 (dec_ne_nil n)

theorem pad2 {n : Nat} (h : n < 100) : pad 2 n = [48 + n / 10, 48 + n % 10] := by
  by_cases h1 : n < 10
  · rw [pad, dec1 h1]; simp; omega
  · rw [pad, dec2 (by omega) h]; rfl

theorem pad3 {n : Nat} (h : n < 1000) : pad 3 n = [48 + n / 100, 48 + n / 10 % 10, 48 + n % 10] := by
  by_cases h1 : n < 10
  · rw [pad, dec1 h1]; simp [List.replicate]; omega
  by_cases h2 : n < 100
  · rw [pad, dec2 (by omega) h2]; simp; omega
  · rw [pad, dec3 (by omega) h]; rfl

theorem pad4 {n : Nat} (h : n < 10000) :
    pad 4 n = [48 + n / 1000, 48 + n / 100 % 10, 48 + n / 10 % 10, 48 + n % 10] := by
  by_cases h1 : n < 10
  · rw [pad, dec1 h1]; simp [List.replicate]; omega
  by_cases h2 : n < 100
  · rw [pad, dec2 (by omega) h2]; simp [List.replicate]; omega
  by_cases h3 : n < 1000
  · rw [pad, dec3 (by omega) h3]; simp; omega
  · rw [pad, dec4 (by omega) h]; rfl

end Verif
