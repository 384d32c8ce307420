import Verif.Model.Pack
import Verif.Lemmas.MutantHex

/-! # Lemmas about the designation functions -/

namespace Verif.Desig

theorem at_zero (a : Nat) (l : List Nat) : at? (a :: l) 0 = a := rfl
theorem at_succ (a : Nat) (l : List Nat) (n : Nat) : at? (a :: l) (n + 1) = at? l n := by simp [at?]
theorem at_nil (n : Nat) : at? [] n = 0 := by simp [at?]
theorem at_append_right (a b : List Nat) (n : Nat) : at? (a ++ b) (a.length + n) = at? b n := by
  simp [at?, List.getElem?_append_right]
theorem at_append_length (a b : List Nat) : at? (a ++ b) a.length = at? b 0 := at_append_right a b 0
theorem at_mem_or_zero (l : List Nat) (n : Nat) : at? l n ∈ l ∨ at? l n = 0 := by
  by_cases h : n < l.length
  · left; simp [at?, h]
  · right; simp [at?, h]

/-- A string of decimal digits. -/
def Digits (ds : List Nat) : Prop := ∀ c ∈ ds, 48 ≤ c ∧ c ≤ 57

theorem digits_dec (n : Nat) : Digits (dec n) := dec_digits n

theorem trim_digits (ds : List Nat) (h : Digits ds) : ds.reverse.dropWhile (· == 32) = ds.reverse := by
  cases hr : ds.reverse with
  | nil => rfl
  | cons c cs =>
    have : c ∈ ds := by rw [← List.mem_reverse, hr]; simp
    have := h c this
    rw [List.dropWhile_cons_of_neg]; simp; omega

theorem at_paren (ds : List Nat) (h : Digits ds) (k : Nat) :
    (48 ≤ at? (ds ++ [41]) k ∧ at? (ds ++ [41]) k ≤ 57) ∨ at? (ds ++ [41]) k = 41 ∨ at? (ds ++ [41]) k = 0 := by
  rcases at_mem_or_zero (ds ++ [41]) k with h1 | h1
  · rcases List.mem_append.1 h1 with h2 | h2
    · exact Or.inl (h _ h2)
    · right; left; simpa using h2
  · exact Or.inr (Or.inr h1)

theorem planet_first : ∀ nm ∈ planetNames, ∃ c cs, nm = c :: cs ∧ 65 ≤ c ∧ c ≤ 90 := by
  intro nm h
  have h1 : ∀ nm ∈ planetNames, nm ≠ [] ∧ 65 ≤ at? nm 0 ∧ at? nm 0 ≤ 90 := by decide
  cases nm with
  | nil => exact absurd rfl (h1 _ h).1
  | cons c cs => exact ⟨c, cs, rfl, (h1 _ h).2⟩

theorem permanent_none (o : List Nat) (h : at? o 0 < 65 ∨ 90 < at? o 0) : packPermanentNatsat o = none := by
  unfold packPermanentNatsat
  rw [List.findSome?_eq_none_iff]
  intro nm hnm
  obtain ⟨c, cs, rfl, h1, h2⟩ := planet_first nm hnm
  rw [if_neg]
  rintro ⟨h3, -⟩
  cases o with
  | nil => simp [startsWith] at h3
  | cons a o =>
    have : a = c := by
      have := beq_iff_eq.1 h3
      simp at this; exact this.1
    rw [at_zero] at h; omega

theorem provisional_none (o : List Nat) (h : at? o 0 ≠ 83) : packProvisionalNatsat o = none := by
  unfold packProvisionalNatsat
  rw [if_neg]
  rintro ⟨h1, -⟩; exact h h1

/-- The packed form of a minor planet number. -/
def packNumber (v : Nat) : List Nat :=
  if v < 620000 then [intToMutantHexChar (v / 10000 : Nat)] ++ pad 4 (v % 10000) ++ bytes "       "
  else put blank12 0 (126 :: (encodeMutantHex 4 ((v : Int) - 620000)).1)

/-- What the packer does on a parenthesised string of digits. -/
theorem create_paren (ds : List Nat) (h : Digits ds) :
    createPackedDesig (40 :: ds ++ [41]) =
      (let v := readDigits 0 ds % 4294967296
       if 0 < v ∧ v < 15396336 then (0, packNumber v) else packFallback blank12 (ds ++ [41]) ds.length) := by
  have hdw : (40 :: ds ++ [41]).dropWhile (· == 32) = 40 :: (ds ++ [41]) := by
    rw [List.cons_append, List.dropWhile_cons_of_neg]; simp
  have hdc : digitCount (ds ++ [41]) = ds.length := by
    rw [digitCount_append _ _ h, digitCount_stop _ (by decide)]; omega
  have hat1 : at? (40 :: (ds ++ [41])) (1 + ds.length) = 41 := by
    rw [Nat.add_comm, at_succ, at_append_length]; rfl
  have hat2 : at? (40 :: (ds ++ [41])) (1 + ds.length + 1) = 0 := by
    rw [Nat.add_comm 1, at_succ, at_append_right]; rfl
  have hrd : readDigits 0 (ds ++ [41]) = readDigits 0 ds := by
    rw [readDigits_append _ _ _ h]; rfl
  have hlen : (ds ++ [41]).length - 1 = ds.length := by simp
  have htake : (ds ++ [41]).take ds.length = ds := by simp
  have hati : at? (ds ++ [41]) ds.length = 41 := by rw [at_append_length]; rfl
  have hs1 : at? (ds ++ [41]) 1 ≠ 47 := by rcases at_paren ds h 1 with h | h | h <;> omega
  have hs4 : at? (ds ++ [41]) 4 ≠ 45 := by rcases at_paren ds h 4 with h | h | h <;> omega
  have hs0 : at? (ds ++ [41]) 0 < 65 := by rcases at_paren ds h 0 with h | h | h <;> omega
  have hperm := permanent_none (ds ++ [41]) (Or.inl hs0)
  have hprov := provisional_none (ds ++ [41]) (by omega)
  have e1 : strchr (bytes "PDI") 41 = false := by decide
  have e2 : isUpper 41 = false := by decide
  unfold createPackedDesig
  simp only [hdw, List.drop_one, List.tail_cons, hdc]
  rw [if_pos ⟨rfl, hat1, hat2⟩]
  unfold createComet
  rw [if_neg (fun h => hs1 h.1)]
  unfold createCore trimLen
  simp only [hrd, hdc, if_true, hlen, htake, trim_digits ds h, List.length_reverse, Bool.true_or]
  unfold createBranch
  simp only [hati, e1, e2, Bool.false_eq_true, and_false, if_false, Nat.lt_irrefl, false_and, hs4, hperm, hprov,
    ne_eq, not_true_eq_false, true_and, and_true]
  unfold packNumber
  by_cases hv : 0 < readDigits 0 ds % 4294967296 ∧ readDigits 0 ds % 4294967296 < 15396336
  · rw [if_pos hv, if_pos ⟨by omega, by omega⟩]; split <;> rfl
  · rw [if_neg hv, if_neg (by omega)]

/-- Unpacking a number written with a leading base-62 digit. -/
theorem unpack_number {c d1 d2 d3 d4 : Nat} (hc : isAlnum c = true)
    (h1 : isDigit d1 = true) (h2 : isDigit d2 = true) (h3 : isDigit d3 = true) (h4 : isDigit d4 = true) :
    unpackMpcDesig [c, d1, d2, d3, d4, 32, 32, 32, 32, 32, 32, 32] =
      .ok (1, [40] ++ decInt (mutantHexCharToInt c * 10000 + readDigits 0 [d1, d2, d3, d4]) ++ [41]) := by
  have hc1 : c ≠ 36 := by rw [isAlnum_iff] at hc; omega
  have hc2 : c ≠ 126 := by rw [isAlnum_iff] at hc; omega
  have hd4 : d4 ≠ 83 := by rw [isDigit_iff] at h4; omega
  have hr : readDigits 0 [d1, d2, d3, d4, 32, 32, 32, 32, 32, 32, 32] = readDigits 0 [d1, d2, d3, d4] := by
    have : [d1, d2, d3, d4, 32, 32, 32, 32, 32, 32, 32] = [d1, d2, d3, d4] ++ [32, 32, 32, 32, 32, 32, 32] := rfl
    rw [this, readDigits_append _ _ _ (by simp [isDigit_iff] at h1 h2 h3 h4 ⊢; omega)]; rfl
  have hp : unpackProv [32, 32, 32, 32, 32, 32, 32] = ⟨-1, some []⟩ := by decide
  simp [unpackMpcDesig, at?, hc1, hc2, unpackNatsat, hd4, hp, spacesAt, digitsAt, h1, h2, h3, h4, hc, hr,
    bind, Outcome.bind, unpackRest, OBJ_DESIG_OTHER, OBJ_DESIG_ASTEROID_NUMBERED]

/-- Unpacking a `~` number. -/
theorem unpack_tilde {a b c d : Nat} (h : 0 ≤ getMutantHexLoop 0 [a, b, c, d]) :
    unpackMpcDesig [126, a, b, c, d, 32, 32, 32, 32, 32, 32, 32] =
      .ok (1, [40] ++ decInt (getMutantHexLoop 0 [a, b, c, d] + 620000) ++ [41]) := by
  have hp : unpackProv [32, 32, 32, 32, 32, 32, 32] = ⟨-1, some []⟩ := by decide
  have hv : getMutantHexValue [a, b, c, d, 32, 32, 32, 32, 32, 32, 32] 4 = getMutantHexLoop 0 [a, b, c, d] :=
    getValue_eq [a, b, c, d] _
  have hn : ∃ x, unpackNatsat [126, a, b, c, d, 32, 32, 32, 32, 32, 32, 32] = .ok x := by
    unfold unpackNatsat
    split
    · exact ⟨_, rfl⟩
    · have e1 : strchr (bytes "MVEJSUNP") 126 = false := by decide
      have e2 : strchr (bytes "MVEJSUNP") 32 = false := by decide
      simp [at?, e1, e2]
  obtain ⟨x, hx⟩ := hn
  simp [unpackMpcDesig, hx, hp, hv, h, at?, spacesAt, bind, Outcome.bind, OBJ_DESIG_ASTEROID_NUMBERED]

end Verif.Desig
