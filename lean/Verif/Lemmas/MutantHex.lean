import Verif.Model.MutantHex
import Verif.Lemmas.Bytes

/-! # Lemmas about base-62 numbers -/

namespace Verif.Desig

theorem charToInt_range (c : Nat) : mutantHexCharToInt c = -1 ∨ (0 ≤ mutantHexCharToInt c ∧ mutantHexCharToInt c < 62) := by
  unfold mutantHexCharToInt
  repeat' split
  all_goals omega

theorem charToInt_toChar {v : Int} (h1 : 0 ≤ v) (h2 : v < 62) : mutantHexCharToInt (intToMutantHexChar v) = v := by
  unfold intToMutantHexChar
  rw [if_neg (by omega)]
  unfold mutantHexCharToInt
  repeat' split
  all_goals omega

theorem toChar_charToInt {c : Nat} (h : mutantHexCharToInt c ≠ -1) : intToMutantHexChar (mutantHexCharToInt c) = c := by
  unfold mutantHexCharToInt at h ⊢
  unfold intToMutantHexChar
  split at h <;> split at h <;> first | (exfalso; omega) | skip
  · rw [if_neg (by omega), if_neg (by omega), if_neg (by omega)]; omega
  · split at h
    · rw [if_neg (by omega), if_neg (by omega), if_pos (by omega)]; omega
    · omega
  · split at h
    · rw [if_neg (by omega), if_pos (by omega)]; omega
    · omega

theorem intToChar_alnum {v : Int} (h1 : 0 ≤ v) (h2 : v < 62) : isAlnum (intToMutantHexChar v) = true := by
  rw [isAlnum_iff]
  unfold intToMutantHexChar
  repeat' split
  all_goals omega

theorem loop_append (acc : Int) (s : List Nat) (c : Nat) (h : ∀ x ∈ s, mutantHexCharToInt x ≠ -1) :
    getMutantHexLoop acc (s ++ [c]) = getMutantHexLoop (getMutantHexLoop acc s) [c] := by
  induction s generalizing acc with
  | nil => rfl
  | cons a l ih =>
    have ha := h a (by simp)
    simp only [List.cons_append, getMutantHexLoop, if_neg ha]
    exact ih _ (fun x hx => h x (by simp [hx]))

theorem range_map_at (s rest : List Nat) : (List.range s.length).map (at? (s ++ rest)) = s := by
  apply List.ext_getElem
  · simp
  · intro i h1 h2
    simp [at?, List.getD_eq_getElem?_getD, List.getElem?_append_left h2, h2]

theorem getValue_eq (s rest : List Nat) : getMutantHexValue (s ++ rest) s.length = getMutantHexLoop 0 s := by
  unfold getMutantHexValue; rw [range_map_at]

theorem encode_length (n : Nat) (v : Int) : (encodeMutantHex n v).1.length = n := by
  induction n generalizing v with
  | zero => rfl
  | succ n ih => simp [encodeMutantHex, ih]

theorem td62 {v : Int} (h : 0 ≤ v) : v.tdiv 62 = v / 62 ∧ v.tmod 62 = v % 62 :=
  ⟨Int.tdiv_eq_ediv_of_nonneg h, Int.tmod_eq_emod_of_nonneg h⟩

theorem encode_valid (n : Nat) (v : Int) (h : 0 ≤ v) :
    ∀ c ∈ (encodeMutantHex n v).1, mutantHexCharToInt c ≠ -1 := by
  induction n generalizing v with
  | zero => simp [encodeMutantHex]
  | succ n ih =>
    intro c hc
    simp only [encodeMutantHex, List.mem_append, List.mem_singleton] at hc
    rcases hc with hc | hc
    · exact ih _ (by rw [(td62 h).1]; omega) c hc
    · rw [hc, (td62 h).2, charToInt_toChar (by omega) (by omega)]; omega

theorem encode_decode (n : Nat) (v : Int) (h : 0 ≤ v) :
    (encodeMutantHex n v).2 = v / 62 ^ n ∧ getMutantHexLoop 0 (encodeMutantHex n v).1 = v % 62 ^ n := by
  induction n generalizing v with
  | zero => simp [encodeMutantHex, getMutantHexLoop, Int.emod_one]
  | succ n ih =>
    have hv : 0 ≤ v.tdiv 62 := by rw [(td62 h).1]; omega
    have e1 := ih _ hv
    have e2 := encode_valid n _ hv
    have hp : (0 : Int) < 62 ^ n := Int.pow_pos (by decide)
    simp only [encodeMutantHex]
    rw [loop_append _ _ _ e2, e1.1, e1.2]
    simp only [getMutantHexLoop]
    rw [(td62 h).1, (td62 h).2, charToInt_toChar (by omega) (by omega), if_neg (by omega)]
    constructor
    · rw [Int.ediv_ediv_of_nonneg (by decide), Int.pow_succ, Int.mul_comm]
    · have a1 := Int.mul_ediv_add_emod v 62
      have a2 := Int.mul_ediv_add_emod (v / 62) (62 ^ n)
      have key : v = 62 ^ (n + 1) * (v / 62 / 62 ^ n) + (v / 62 % 62 ^ n * 62 + v % 62) := by
        rw [Int.pow_succ, Int.mul_comm (62 ^ n) 62, Int.mul_assoc]
        omega
      have b1 := Int.emod_nonneg (v / 62) (show (62 : Int) ^ n ≠ 0 by omega)
      have b2 := Int.emod_lt_of_pos (v / 62) hp
      have hlt : v / 62 % 62 ^ n * 62 + v % 62 < 62 ^ (n + 1) := by
        rw [Int.pow_succ]; omega
      have := (Int.ediv_emod_unique (a := v) (b := 62 ^ (n + 1)) (Int.pow_pos (by decide))).2
        ⟨by rw [Int.add_comm]; exact key.symm, by omega, hlt⟩
      exact this.2.symm

theorem loop_acc (acc : Int) (s : List Nat) (h : ∀ x ∈ s, mutantHexCharToInt x ≠ -1) :
    getMutantHexLoop acc s = acc * 62 ^ s.length + getMutantHexLoop 0 s := by
  induction s generalizing acc with
  | nil => simp [getMutantHexLoop]
  | cons c cs ih =>
    have hc := h c (by simp)
    have hs : ∀ x ∈ cs, mutantHexCharToInt x ≠ -1 := fun x hx => h x (by simp [hx])
    simp only [getMutantHexLoop, if_neg hc]
    rw [ih _ hs, ih (0 * 62 + mutantHexCharToInt c) hs, List.length_cons, Int.pow_succ]
    rw [Int.add_mul, Int.mul_assoc, Int.mul_comm 62, Int.zero_mul, Int.zero_add]
    omega

theorem loop_range (s : List Nat) (h : ∀ x ∈ s, mutantHexCharToInt x ≠ -1) :
    0 ≤ getMutantHexLoop 0 s ∧ getMutantHexLoop 0 s < 62 ^ s.length := by
  induction s with
  | nil => simp [getMutantHexLoop]
  | cons c cs ih =>
    have hc := h c (by simp)
    have hs : ∀ x ∈ cs, mutantHexCharToInt x ≠ -1 := fun x hx => h x (by simp [hx])
    obtain ⟨i1, i2⟩ := ih hs
    have hr := charToInt_range c
    simp only [getMutantHexLoop, if_neg hc]
    rw [loop_acc _ _ hs, List.length_cons, Int.pow_succ]
    have hp : (0 : Int) < 62 ^ cs.length := Int.pow_pos (by decide)
    generalize (62 : Int) ^ cs.length = P at *
    have e : mutantHexCharToInt c = -1 ∨ (0 ≤ mutantHexCharToInt c ∧ mutantHexCharToInt c ≤ 61) := by omega
    rcases e with e | ⟨e1, e2⟩
    · exact absurd e hc
    · rw [Int.zero_mul, Int.zero_add]
      have m1 := Int.mul_nonneg e1 (Int.le_of_lt hp)
      have m2 := Int.mul_le_mul_of_nonneg_right e2 (Int.le_of_lt hp)
      omega

theorem loop_invalid (acc : Int) (s : List Nat) (h : ∃ x ∈ s, mutantHexCharToInt x = -1) :
    getMutantHexLoop acc s = -1 := by
  induction s generalizing acc with
  | nil => simp at h
  | cons c cs ih =>
    simp only [getMutantHexLoop]
    split
    · rfl
    · rename_i hc
      apply ih
      obtain ⟨x, hx, e⟩ := h
      rcases List.mem_cons.1 hx with rfl | hx
      · exact absurd e hc
      · exact ⟨x, hx, e⟩

end Verif.Desig
