import Verif.Lemmas.Desig
import Verif.Lemmas.Decimal

/-!
# Numbered minor planets (C19, C20)

The packer is `create_mpc_packed_desig`, the unpacker `unpack_mpc_desig`.
-/

namespace Verif.Props
open Verif.Desig Verif.Spec

/-- The name `(s)`. -/
def parens (s : List Nat) : List Nat := 40 :: s ++ [41]

theorem alnum_digit62 {v : Nat} (h : v < 62) : isAlnum (intToMutantHexChar v) = true :=
  intToChar_alnum (by omega) (by omega)

theorem packNumber_unpack {v : Nat} (h1 : v < 15396336) :
    (packNumber v).length = 12 ∧ unpackMpcDesig (packNumber v) = .ok (1, 40 :: dec v ++ [41]) := by
  unfold packNumber
  by_cases h : v < 620000
  · rw [if_pos h, pad4 (by omega)]
    refine ⟨rfl, ?_⟩
    have hb : bytes "       " = [32, 32, 32, 32, 32, 32, 32] := by decide
    rw [hb]
    simp only [List.cons_append, List.nil_append]
    rw [unpack_number (alnum_digit62 (by omega)) (by rw [isDigit_iff]; omega) (by rw [isDigit_iff]; omega)
      (by rw [isDigit_iff]; omega) (by rw [isDigit_iff]; omega), charToInt_toChar (by omega) (by omega)]
    have hr : readDigits 0 [48 + v % 10000 / 1000, 48 + v % 10000 / 100 % 10, 48 + v % 10000 / 10 % 10,
        48 + v % 10000 % 10] = v % 10000 := by
      rw [readDigits_eq _ (by intro c hc; simp at hc; omega)]
      simp [value]; omega
    rw [hr]
    have : ((v / 10000 : Nat) : Int) * 10000 + ((v % 10000 : Nat) : Int) = (v : Int) := by omega
    rw [this, decInt, if_neg (by omega)]; simp
  · rw [if_neg h]
    have hl := encode_length 4 ((v : Int) - 620000)
    have hd := (encode_decode 4 ((v : Int) - 620000) (by omega)).2
    generalize (encodeMutantHex 4 ((v : Int) - 620000)).1 = e at hl hd
    match e, hl with
    | [a, b, c, d], _ =>
      refine ⟨rfl, ?_⟩
      have hv : ((v : Int) - 620000) % 62 ^ 4 = v - 620000 := by
        apply Int.emod_eq_of_lt <;> omega
      rw [hv] at hd
      have := unpack_tilde (a := a) (b := b) (c := c) (d := d) (by omega)
      rw [hd] at this
      show unpackMpcDesig [126, a, b, c, d, 32, 32, 32, 32, 32, 32, 32] = _
      rw [this, decInt, if_neg (by omega)]
      simp

/-- **C19.** For every minor planet number `n` from 1 to 15396335 = 620000 + 62^4 - 1, and its decimal
    spelling `s`: packing `(s)` succeeds, stores twelve bytes, and unpacking those gives `(s)` and the
    code for a numbered asteroid (1). -/
theorem C19_pack_unpack (n : Nat) (s : List Nat) (hs : Numeral n s) (h1 : 1 ≤ n) (h2 : n ≤ 15396335) :
    (createPackedDesig (parens s)).1 = 0 ∧ (createPackedDesig (parens s)).2.length = 12 ∧
      unpackMpcDesig (createPackedDesig (parens s)).2 = .ok (1, parens s) := by
  have hn : readDigits 0 s % 4294967296 = n := by
    rw [readDigits_eq s hs.digits, hs.value]; omega
  have := create_paren s hs.digits
  simp only [hn] at this
  rw [if_pos ⟨by omega, by omega⟩] at this
  rw [parens, this]
  have := packNumber_unpack (v := n) (by omega)
  rw [← hs.eq_dec] at this
  exact ⟨rfl, this⟩

example : Numeral 623714 (bytes "623714") :=
  ⟨by decide, by intro c hc; revert c; decide, by decide, by decide⟩
example : createPackedDesig (parens (bytes "623714")) = (0, bytes "~00xu       ") := by decide +kernel

/-- **C19.** Different numbers pack differently. -/
theorem C19_injective (n m : Nat) (s t : List Nat) (hs : Numeral n s) (ht : Numeral m t)
    (h1 : 1 ≤ n) (h2 : n ≤ 15396335) (h3 : 1 ≤ m) (h4 : m ≤ 15396335)
    (h : (createPackedDesig (parens s)).2 = (createPackedDesig (parens t)).2) : n = m := by
  have e1 := (C19_pack_unpack n s hs h1 h2).2.2
  have e2 := (C19_pack_unpack m t ht h3 h4).2.2
  rw [h, e2] at e1
  have : parens t = parens s := by simpa using e1
  have : t = s := by simpa [parens] using this
  rw [← hs.value, ← ht.value, this]

example : (createPackedDesig (parens (bytes "619999"))).2 = bytes "z9999       " ∧
    (createPackedDesig (parens (bytes "620000"))).2 = bytes "~0000       " := by decide +kernel

/-- **C20.** Exactly which parenthesised digit strings the packer accepts: those whose value *modulo
    2^32* is in range. -/
theorem C20_accepted_iff (s : List Nat) (hs : AllDigits s) :
    (createPackedDesig (parens s)).1 = 0 ↔ 1 ≤ value s % 2 ^ 32 ∧ value s % 2 ^ 32 ≤ 15396335 := by
  rw [parens, create_paren s hs]
  simp only [readDigits_eq s hs]
  by_cases h : 0 < value s % 4294967296 ∧ value s % 4294967296 < 15396336
  · rw [if_pos h]; simp; omega
  · rw [if_neg h]
    have : (packFallback blank12 (s ++ [41]) s.length).1 = -1 := by unfold packFallback; split <;> rfl
    rw [this]; simp; omega

example : AllDigits (bytes "15396336") := by intro c hc; revert c; decide
example : (createPackedDesig (parens (bytes "15396336"))).1 = -1 := by decide +kernel

/-- **C20**, the part that holds: out-of-range numbers that fit in 32 bits are reported.
    Full statement (false, see `C20_aliased`): the same without `hv`. -/
theorem C20_not_aliased_partial (s : List Nat) (hs : AllDigits s) (h : value s = 0 ∨ 15396335 < value s)
    (hv : value s < 2 ^ 32) : (createPackedDesig (parens s)).1 = -1 := by
  have h1 := C20_accepted_iff s hs
  have h2 : (createPackedDesig (parens s)).1 = 0 ∨ (createPackedDesig (parens s)).1 = -1 := by
    rw [parens, create_paren s hs]
    simp only []
    split
    · exact Or.inl rfl
    · right; unfold packFallback; split <;> rfl
  rcases h2 with h2 | h2
  · exfalso; have := h1.1 h2; omega
  · exact h2

example : value (bytes "15396336") = 15396336 ∧ (15396335 : Nat) < value (bytes "15396336") := by decide

/-- **C20** is violated: with 2^32 added, a number is packed, with success reported, as another
    minor planet - for every number in range. -/
theorem C20_aliased (n : Nat) (s t : List Nat) (hs : Numeral n s) (ht : Numeral (n + 2 ^ 32) t)
    (h1 : 1 ≤ n) (h2 : n ≤ 15396335) :
    (createPackedDesig (parens t)).1 = 0 ∧
      unpackMpcDesig (createPackedDesig (parens t)).2 = .ok (1, parens s) := by
  have hsame : createPackedDesig (parens t) = createPackedDesig (parens s) := by
    rw [parens, parens, create_paren s hs.digits, create_paren t ht.digits]
    have e1 : readDigits 0 t % 4294967296 = n := by
      rw [readDigits_eq t ht.digits, ht.value]; omega
    have e2 : readDigits 0 s % 4294967296 = n := by
      rw [readDigits_eq s hs.digits, hs.value]; omega
    simp only [e1, e2]
    rw [if_pos ⟨by omega, by omega⟩, if_pos ⟨by omega, by omega⟩]
  rw [hsame]
  have := C19_pack_unpack n s hs h1 h2
  exact ⟨this.1, this.2.2⟩

example : createPackedDesig (bytes "(4294967729)") = createPackedDesig (bytes "(433)") := by decide +kernel

end Verif.Props
