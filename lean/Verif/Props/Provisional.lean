import Verif.Lemmas.Provisional
import Verif.Lemmas.Decimal
import Verif.Spec.Designation

/-! # Provisional designations (C21) -/

namespace Verif.Props
open Verif.Desig Verif.Spec

theorem subscript_read {k : Nat} {ks : List Nat} (h : Subscript k ks) :
    Digits ks ∧ readDigits 0 ks = k ∧ ks = (if k = 0 then [] else dec k) := by
  rcases h with ⟨rfl, rfl⟩ | ⟨h0, h⟩
  · exact ⟨by simp [Digits], rfl, rfl⟩
  · refine ⟨h.digits, ?_, ?_⟩
    · rw [readDigits_eq _ h.digits, h.value]
    · rw [if_neg (by omega)]; exact h.eq_dec

theorem year_shape {y : Nat} {ys : List Nat} (h : Padded 4 y ys) (hy : y < 10000) :
    ys = [48 + y / 1000, 48 + y / 100 % 10, 48 + y / 10 % 10, 48 + y % 10] := by
  rw [h.eq_pad (by decide), pad4 hy]

theorem year_value {y : Nat} (hy : y < 10000) : (48 + y / 1000 - 48) * 1000 + (48 + y / 100 % 10 - 48) * 100 +
    (48 + y / 10 % 10 - 48) * 10 + (48 + y % 10 - 48) = y := by omega

theorem centuryLetter : ∀ c : Fin 5, intToMutantHexChar ((16 + c.val : Nat) : Int) = 71 + c.val ∧
    (if 71 + c.val ≥ 75 then 50 else 49) = 48 + (16 + c.val) / 10 ∧
    48 + (71 + c.val - 65) % 10 = 48 + (16 + c.val) % 10 := by decide

theorem digitChar : ∀ d : Fin 10, intToMutantHexChar (d.val : Int) = 48 + d.val := by decide

/-- **C21**, classic form: any year from 1600 to 2099, any letters, any subscript below 620.  Packing
    succeeds, stores twelve bytes, and unpacking gives the same spelling and the code of a provisional
    asteroid designation (0). -/
theorem C21_classic (y l m k : Nat) (s : List Nat) (hs : MinorPlanet y l m k s) (hl : Capital l) (hm : Capital m)
    (h1 : 1600 ≤ y) (h2 : y ≤ 2099) (hk : k < 620) :
    (createPackedDesig s).1 = 0 ∧ (createPackedDesig s).2.length = 12 ∧
      unpackMpcDesig (createPackedDesig s).2 = .ok (0, s) := by
  obtain ⟨ys, ks, hys, hks, rfl⟩ := hs
  obtain ⟨hd, hr, hks2⟩ := subscript_read hks
  have hy := year_shape hys (by omega)
  subst hy
  have hc := create_prov (a := 48 + y / 1000) (b := 48 + y / 100 % 10) (c := 48 + y / 10 % 10) (d := 48 + y % 10)
    (by omega) (by omega) (by omega) (by omega) hl hm hd (by omega)
  simp only [year_value (show y < 10000 by omega)] at hc
  rw [packProv_classic hl hm hd (by omega) (by omega), hr] at hc
  simp only [if_true] at hc
  simp only [List.cons_append, List.nil_append]
  rw [hc]
  refine ⟨rfl, rfl, ?_⟩
  have hcl := centuryLetter ⟨y / 100 - 16, by omega⟩
  have hce : (16 + (y / 100 - 16)) = y / 100 := by omega
  simp only [hce] at hcl
  have hdig := digitChar ⟨k % 10, by omega⟩
  simp only at hdig
  rw [hcl.1, hdig]
  have hh := charToInt_toChar (v := ((k / 10 : Nat) : Int)) (by omega) (by omega)
  have hu := unpackProv_classic (k := 71 + (y / 100 - 16)) (c := 48 + y / 10 % 10) (d := 48 + y % 10) (l := l)
    (h := intToMutantHexChar ((k / 10 : Nat) : Int)) (t := 48 + k % 10) (m := m) (by omega) (by omega) (by omega) hl
    (by rw [hh]; omega) (by omega) (Or.inl (by rw [isAlpha_iff]; exact Or.inl hm))
  rw [hh] at hu
  have hlow : isLower m = false := by rw [isLower_false]; unfold Capital at hm; omega
  have hv : ((k / 10 : Nat) : Int) * 10 + (48 + k % 10 : Nat) - 48 = k := by omega
  rw [hv, hcl.2.1, hcl.2.2, hlow, upper_is hm] at hu
  have hmi : 48 + y / 100 / 10 = 48 + y / 1000 := by omega
  rw [hmi] at hu
  rw [unpack_prov (x := 32) (Or.inl rfl) hu]
  simp only [true_or, if_true, Bool.false_eq_true, if_false, List.nil_append, List.append_nil, List.cons_append]
  congr 10
  rw [hks2]
  by_cases hz : k = 0
  · simp [hz]
  · rw [if_neg (by omega), if_neg hz, decInt, if_neg (by omega)]; rfl

example : MinorPlanet 2004 74 88 42 (bytes "2004 JX42") :=
  ⟨bytes "2004", bytes "42", ⟨by intro c hc; revert c; decide, by decide, by decide⟩,
    Or.inr ⟨by decide, ⟨by decide, by intro c hc; revert c; decide, by decide, by decide⟩⟩, by decide⟩
example : createPackedDesig (bytes "2004 JX42") = (0, bytes "     K04J42X") := by decide +kernel
example : createPackedDesig (bytes "1995 XA") = (0, bytes "     J95X00A") := by decide +kernel

/-- Position of an order letter in the 25-letter alphabet without `I`. -/
def orderIndex (m : Nat) : Nat := if m < 73 then m - 65 else m - 66

/-- **C21**, extended form: years 2000 to 2061, subscripts from 620 on as long as the base-62 field can
    hold them, any order letter but `I` (which is not used in designations). -/
theorem C21_extended (y l m k : Nat) (s : List Nat) (hs : MinorPlanet y l m k s) (hl : Capital l) (hm : Capital m)
    (hI : m ≠ 73) (h1 : 2000 ≤ y) (h2 : y ≤ 2061) (hk : 620 ≤ k)
    (hmax : (k - 620) * 25 + orderIndex m < 62 ^ 4) :
    (createPackedDesig s).1 = 0 ∧ (createPackedDesig s).2.length = 12 ∧
      unpackMpcDesig (createPackedDesig s).2 = .ok (0, s) := by
  obtain ⟨ys, ks, hys, hks, rfl⟩ := hs
  obtain ⟨hd, hr, hks2⟩ := subscript_read hks
  have hy := year_shape hys (by omega)
  have hc := create_prov (a := 48 + y / 1000) (b := 48 + y / 100 % 10) (c := 48 + y / 10 % 10) (d := 48 + y % 10)
    (by omega) (by omega) (by omega) (by omega) hl hm hd (by omega)
  simp only [year_value (show y < 10000 by omega)] at hc
  have hle : orderIndex m < 25 := by unfold orderIndex Capital at *; split <;> omega
  have hn : ((k : Int) - 620) * 25 + m - 65 - (if 73 < m then 1 else 0) = (((k - 620) * 25 + orderIndex m : Nat) : Int) := by
    unfold orderIndex Capital at *
    split <;> split <;> omega
  rw [packProv_extended hl hm hd h1 (by omega) (by omega) (by rw [hr, hn]; omega), hr, hn] at hc
  simp only [if_true] at hc
  have hls : ys ++ [32, l, m] ++ ks = (48 + y / 1000) :: (48 + y / 100 % 10) :: (48 + y / 10 % 10) :: (48 + y % 10) ::
      32 :: l :: m :: ks := by rw [hy]; simp
  rw [hls, hc, ← hls]
  have hel := encode_length 4 (((k - 620) * 25 + orderIndex m : Nat) : Int)
  have hdc := (encode_decode 4 (((k - 620) * 25 + orderIndex m : Nat) : Int) (by omega)).2
  rw [Int.emod_eq_of_lt (by omega) (by omega)] at hdc
  generalize (encodeMutantHex 4 (((k - 620) * 25 + orderIndex m : Nat) : Int)).1 = e at hel hdc
  match e, hel with
  | [p, q, r, t], _ =>
    refine ⟨rfl, rfl, ?_⟩
    have hh := charToInt_toChar (v := (y : Int) - 2000) (by omega) (by omega)
    have hu := unpackProv_extended (y := intToMutantHexChar ((y : Int) - 2000)) (l := l) (by rw [hh]; omega) hl hdc
      (by omega)
    have hmod : (((k - 620) * 25 + orderIndex m : Nat) : Int) % 25 = (orderIndex m : Nat) := by omega
    have hdiv : 620 + (((k - 620) * 25 + orderIndex m : Nat) : Int) / 25 = (k : Nat) := by omega
    have hlet : (if ((orderIndex m : Nat) : Int) ≥ 8 then 66 + ((orderIndex m : Nat) : Int).toNat
        else 65 + ((orderIndex m : Nat) : Int).toNat) = m := by
      unfold orderIndex Capital at *
      split <;> split <;> omega
    rw [hh, hmod, hdiv, hlet] at hu
    simp only [List.cons_append, List.nil_append]
    rw [unpack_prov (x := 32) (Or.inl rfl) hu]
    have e1 : decInt ((y : Int) - 2000 + 2000) = ys := by
      rw [show (y : Int) - 2000 + 2000 = (y : Int) by omega, decInt, if_neg (by omega), hy]
      exact dec4 (by omega) (by omega)
    have e2 : decInt (k : Int) = ks := by
      rw [hks2, if_neg (by omega), decInt, if_neg (by omega)]; rfl
    rw [e1, e2]
    simp

example : createPackedDesig (bytes "2016 AA620") = (0, bytes "     _GA0000") := by decide +kernel
example : (591673 - 620) * 25 + orderIndex 76 < 62 ^ 4 ∧ ¬ (591673 - 620) * 25 + orderIndex 77 < 62 ^ 4 := by decide

/-- **C21**: subscripts from 620 on in a year outside 2000-2061 violate the property.  The packer
    reports success but leaves the subscript out, so that all of them are packed alike. -/
theorem C21_subscript_lost (y l m k k' : Nat) (s s' : List Nat) (hs : MinorPlanet y l m k s)
    (hs' : MinorPlanet y l m k' s') (hl : Capital l) (hm : Capital m) (h1 : 1000 ≤ y) (h2 : y ≤ 1999)
    (hk : 620 ≤ k) (hk' : 620 ≤ k') (_ : k < 2 ^ 31) (_ : k' < 2 ^ 31) :
    (createPackedDesig s).1 = 0 ∧ createPackedDesig s' = createPackedDesig s := by
  have main : ∀ k s, MinorPlanet y l m k s → 620 ≤ k → createPackedDesig s =
      (0, [32, 32, 32, 32, 32, intToMutantHexChar (y / 100 : Nat), 48 + y / 10 % 10, 48 + y % 10, l, 32, 32, m]) := by
    intro k s hs hk
    obtain ⟨ys, ks, hys, hks, rfl⟩ := hs
    obtain ⟨hd, hr, -⟩ := subscript_read hks
    have hy := year_shape hys (by omega)
    subst hy
    have hc := create_prov (a := 48 + y / 1000) (b := 48 + y / 100 % 10) (c := 48 + y / 10 % 10) (d := 48 + y % 10)
      (by omega) (by omega) (by omega) (by omega) hl hm hd (by omega)
    simp only [year_value (show y < 10000 by omega)] at hc
    simp only [List.cons_append, List.nil_append]
    rw [hc]
    have hdc : digitCount ks = ks.length := by
      have := digitCount_append ks [] hd
      simpa [digitCount] using this
    have hlow : isLower l = false := by rw [isLower_false]; unfold Capital at hl; omega
    have e1 : y < 6200 := by omega
    have e2 : ¬ readDigits 0 ks < 620 := by omega
    have e3 : ¬ 2000 ≤ y := by omega
    have : packProvisional ((48 + y / 1000) :: (48 + y / 100 % 10) :: (48 + y / 10 % 10) :: (48 + y % 10) :: 32 :: l :: m :: ks)
        5 (7 + ks.length) y 0 = (0, [32, 32, 32, 32, 32, intToMutantHexChar (y / 100 : Nat), 48 + y / 10 % 10,
          48 + y % 10, l, 32, 32, m]) := by
      unfold packProvisional
      simp [at?, upper_is hm, e1, e2, e3, toUpper, hlow, hdc, blank12, List.replicate]
    rw [this]; rfl
  rw [main k s hs hk, main k' s' hs' hk']
  exact ⟨rfl, rfl⟩

example : createPackedDesig (bytes "1995 XA620") = createPackedDesig (bytes "1995 XA9999") := by decide +kernel

/-- **C21**: the order letter `I` collides with `J` in the extended form. -/
theorem C21_letter_I : createPackedDesig (bytes "2004 AI620") = createPackedDesig (bytes "2004 AJ620") ∧
    (createPackedDesig (bytes "2004 AI620")).1 = 0 := by decide +kernel

/-- **C21**: an extended subscript too large for the field is reported.  (From 85899965 on the C code
    overflows an `int`.) -/
theorem C21_too_large (y l m k : Nat) (s : List Nat) (hs : MinorPlanet y l m k s) (hl : Capital l) (hm : Capital m)
    (_ : m ≠ 73) (h1 : 2000 ≤ y) (h2 : y ≤ 2061) (hmax : 62 ^ 4 ≤ (k - 620) * 25 + orderIndex m)
    (_ : k < 85899965) :
    (createPackedDesig s).1 = -1 := by
  obtain ⟨ys, ks, hys, hks, rfl⟩ := hs
  obtain ⟨hd, hr, -⟩ := subscript_read hks
  have hy := year_shape hys (by omega)
  subst hy
  have hc := create_prov (a := 48 + y / 1000) (b := 48 + y / 100 % 10) (c := 48 + y / 10 % 10) (d := 48 + y % 10)
    (by omega) (by omega) (by omega) (by omega) hl hm hd (by omega)
  simp only [year_value (show y < 10000 by omega)] at hc
  simp only [List.cons_append, List.nil_append]
  rw [hc]
  have hle : orderIndex m < 25 := by unfold orderIndex Capital at *; split <;> omega
  have hk620 : ¬ k < 620 := by omega
  have hdc : digitCount ks = ks.length := by
    have := digitCount_append ks [] hd
    simpa [digitCount] using this
  have hlow : isLower l = false := by rw [isLower_false]; unfold Capital at hl; omega
  have e1 : y < 6200 := by omega
  have e4 : y < 2062 := by omega
  have hbig : 14776336 ≤ (if 73 < m then ((k : Int) - 620) * 25 + m - 65 - 1 else ((k : Int) - 620) * 25 + m - 65) := by
    unfold orderIndex Capital at *
    split <;> split at hmax <;> omega
  have : (packProvisional ((48 + y / 1000) :: (48 + y / 100 % 10) :: (48 + y / 10 % 10) :: (48 + y % 10) :: 32 :: l :: m :: ks)
      5 (7 + ks.length) y 0).1 = -1 := by
    unfold packProvisional
    by_cases h73 : 73 < m
    · rw [if_pos h73] at hbig
      simp [at?, upper_is hm, e1, hr, hk620, h1, e4, toUpper, hlow, hdc, blank12, List.replicate, h73, hbig]
    · rw [if_neg h73] at hbig
      simp [at?, upper_is hm, e1, hr, hk620, h1, e4, toUpper, hlow, hdc, blank12, List.replicate, h73, hbig]
  rw [this]
  simp only [if_neg (by decide : ¬ ((-1 : Int) = 0))]
  unfold packFallback; split <;> rfl

example : (createPackedDesig (bytes "2004 AA591680")).1 = -1 := by decide +kernel

end Verif.Props
