import Verif.Lemmas.MutantHex
import Mathlib.Data.List.Induction
import Mathlib.Tactic.ByContra

/-!
# Property theorems: base-62 numbers (C18)
-/

namespace Verif.Props

open Verif Verif.Desig

/-- Specification: the 62 digits in order of value. -/
def base62Alphabet : List Nat :=
  bytes "0123456789ABCDEFGHIJKLMNOPQRSTUVWXYZabcdefghijklmnopqrstuvwxyz"

/-- Specification: positional value, most significant digit first. -/
def base62Value (ds : List Nat) : Nat := ds.foldl (fun v d => v * 62 + base62Alphabet.idxOf d) 0

private theorem digit_spec (c : Nat) :
    (c ∈ base62Alphabet → mutantHexCharToInt c = base62Alphabet.idxOf c) ∧
    (c ∉ base62Alphabet → mutantHexCharToInt c = -1) := by
  by_cases hc : c < 123
  · have h : ∀ c : Fin 123, (c.val ∈ base62Alphabet → mutantHexCharToInt c.val = base62Alphabet.idxOf c.val) ∧
        (c.val ∉ base62Alphabet → mutantHexCharToInt c.val = -1) := by decide +kernel
    exact h ⟨c, hc⟩
  · have h1 : ∀ x ∈ base62Alphabet, x < 123 := by decide +kernel
    refine ⟨fun h => absurd (h1 c h) hc, fun _ => ?_⟩
    unfold mutantHexCharToInt
    rw [if_pos (by omega), if_neg (by omega)]

theorem valid_iff (c : Nat) : mutantHexCharToInt c ≠ -1 ↔ c ∈ base62Alphabet := by
  constructor
  · intro h; by_contra hn; exact h ((digit_spec c).2 hn)
  · intro h; rw [(digit_spec c).1 h]; omega

/-- C18: decoding gives the positional value of valid digits. -/
theorem C18_decode (ds rest : List Nat) (h : ∀ d ∈ ds, d ∈ base62Alphabet) :
    getMutantHexValue (ds ++ rest) ds.length = base62Value ds := by
  rw [getValue_eq]
  have : ∀ acc : Nat, getMutantHexLoop acc ds =
      ds.foldl (fun v d => v * 62 + base62Alphabet.idxOf d) acc := by
    induction ds with
    | nil => intro acc; rfl
    | cons c cs ih =>
      intro acc
      have hc := (digit_spec c).1 (h c (by simp))
      simp only [getMutantHexLoop, hc, List.foldl_cons]
      rw [if_neg (by omega)]
      have := ih (fun d hd => h d (by simp [hd])) (acc * 62 + base62Alphabet.idxOf c)
      rw [← this]
      simp
  exact this 0

/-- C18: a byte outside 0-9A-Za-z is reported. -/
theorem C18_decode_invalid (ds rest : List Nat) (h : ∃ d ∈ ds, d ∉ base62Alphabet) :
    getMutantHexValue (ds ++ rest) ds.length = -1 := by
  rw [getValue_eq]
  obtain ⟨d, hd, hn⟩ := h
  exact loop_invalid _ _ ⟨d, hd, (digit_spec d).2 hn⟩

/-- C18: encode then decode, for every value that fits in `n` digits. -/
theorem C18_encode_decode (n : Nat) (v : Int) (h1 : 0 ≤ v) (h2 : v < 62 ^ n) (rest : List Nat) :
    ∃ ds, encodeMutantHex n v = (ds, 0) ∧ ds.length = n ∧ (∀ d ∈ ds, d ∈ base62Alphabet) ∧
      getMutantHexValue (ds ++ rest) n = v := by
  obtain ⟨e1, e2⟩ := encode_decode n v h1
  have hl := encode_length n v
  refine ⟨(encodeMutantHex n v).1, ?_, hl, ?_, ?_⟩
  · rw [Int.ediv_eq_zero_of_lt h1 h2] at e1
    exact Prod.ext rfl e1
  · intro d hd
    exact (valid_iff d).1 (encode_valid n v h1 d hd)
  · rw [Int.emod_eq_of_lt h1 h2] at e2
    have := getValue_eq (encodeMutantHex n v).1 rest
    rw [hl] at this
    rw [this, e2]

/-- C18: a non-negative value that does not fit is reported by a non-zero return value. -/
theorem C18_overflow_reported (n : Nat) (v : Int) (h1 : 0 ≤ v) :
    (encodeMutantHex n v).2 ≠ 0 ↔ 62 ^ n ≤ v := by
  obtain ⟨e1, _⟩ := encode_decode n v h1
  have hp : (0 : Int) < 62 ^ n := Int.pow_pos (by decide)
  rw [e1]
  constructor
  · intro h
    by_contra hn
    exact h (Int.ediv_eq_zero_of_lt h1 (by omega))
  · intro h h0
    have h1' : 1 ≤ v / 62 ^ n := Int.le_ediv_of_mul_le hp (by omega)
    omega

/-- C18: decode then encode gives the same digits. -/
theorem C18_decode_encode (ds : List Nat) (h : ∀ d ∈ ds, d ∈ base62Alphabet) :
    encodeMutantHex ds.length (getMutantHexValue ds ds.length) = (ds, 0) := by
  have hv : ∀ d ∈ ds, mutantHexCharToInt d ≠ -1 := fun d hd => (valid_iff d).2 (h d hd)
  have e : getMutantHexValue ds ds.length = getMutantHexLoop 0 ds := by
    have := getValue_eq ds []
    rwa [List.append_nil] at this
  rw [e]
  clear e h
  induction ds using List.reverseRecOn with
  | nil => rfl
  | append_singleton l c ih =>
    have hl : ∀ d ∈ l, mutantHexCharToInt d ≠ -1 := fun d hd => hv d (by simp [hd])
    have hc := hv c (by simp)
    have hr := loop_range l hl
    have hcr := charToInt_range c
    rw [loop_append _ _ _ hl]
    simp only [getMutantHexLoop, if_neg hc, List.length_append, List.length_cons, List.length_nil]
    rw [show l.length + (0 + 1) = l.length + 1 by omega, encodeMutantHex]
    rw [(td62 (by omega)).1, (td62 (by omega)).2]
    rw [show (getMutantHexLoop 0 l * 62 + mutantHexCharToInt c) / 62 = getMutantHexLoop 0 l by omega,
      show (getMutantHexLoop 0 l * 62 + mutantHexCharToInt c) % 62 = mutantHexCharToInt c by omega]
    rw [ih hl, toChar_charToInt hc]

/-- C18 has no counterpart for negative values: the bytes stored contain NULs. -/
theorem C18_negative_not_encoded : encodeMutantHex 2 (-1) = ([48, 0], 0) := by decide

example : encodeMutantHex 4 14776335 = (bytes "zzzz", 0) := by decide +kernel
example : getMutantHexValue (bytes "0A1b") 4 = 38539 := by decide +kernel
example : ∀ d ∈ bytes "J9Z", d ∈ base62Alphabet := by decide +kernel

/-- C18: every integer from 0 to 61 is given the character at that place of the alphabet, and every other integer
    the character NUL. -/
theorem C18_char (i : Int) :
    (∀ k : Nat, i = k → k < 62 → intToMutantHexChar i = base62Alphabet.getD k 0) ∧
    (i < 0 ∨ 62 ≤ i → intToMutantHexChar i = 0) := by
  refine ⟨?_, ?_⟩
  · intro k hk hk2
    subst hk
    have h : ∀ c : Fin 62, intToMutantHexChar (c.val : Int) = base62Alphabet.getD c.val 0 := by decide +kernel
    exact h ⟨k, hk2⟩
  · intro h
    unfold intToMutantHexChar
    rcases h with h | h
    · rw [if_pos (Or.inl h)]
    · rw [if_pos (Or.inr (by omega))]

end Verif.Props
