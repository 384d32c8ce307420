import Verif.Model.AngleText
import Verif.Props.MpcAngle

/-!
# Property theorems: angles written and read back (C74)
-/

namespace Verif.Props

open Verif Verif.Spec Verif.MpcLine Verif.AngleText

theorem floor_half (n : Nat) : ⌊(n : ℚ) + 1 / 2⌋₊ = n := by
  rw [Nat.floor_eq_iff (by positivity)]
  constructor
  · linarith
  · linarith

theorem pad_of {w n : Nat} {s : List Nat} (h : Padded (w + 1) n s) : pad (w + 1) n = s :=
  padded_unique (padded_pad (padded_lt h) (by omega)) h

theorem column_of {k p v : Nat} {f : List Nat} (h : Column k (p + 1) v f) :
    f = pad (p + 1) v ++ List.replicate (k - (p + 1)) 32 ∧ v < 10 ^ (p + 1) ∧ p + 1 ≤ k := by
  obtain ⟨ds, hd, hp, rfl⟩ := h
  rw [pad_of hd]
  exact ⟨rfl, padded_lt hd, hp⟩

theorem pad_length {w n : Nat} (h : n < 10 ^ (w + 1)) : (pad (w + 1) n).length = w + 1 := (padded_pad h (by omega)).width

/-- A clean angle is an angle. -/
theorem clean_field {ra : Bool} {t : List Nat} {x : ℚ} {code : Int} {prec : ℚ} (h : CleanAngle ra t x code prec) :
    AngleField ra t x code prec := by
  cases h with
  | seconds h1 h2 h3 h4 => exact .seconds h1 h2 h3 h4
  | wholeSeconds h1 h2 h3 => exact .wholeSeconds h1 h2 h3
  | minutes h1 h2 h3 => exact .minutes h1 h2 h3
  | wholeMinutes h1 h2 => exact .wholeMinutes h1 h2
  | decimal h1 h2 => exact .decimal h1 h2
  | degrees h0 h1 h2 => exact .degrees h0 h1 h2
  | packed h1 h2 h3 h4 _ _ hp => exact .packed h1 h2 h3 h4 hp
  | degreeSeconds h0 h1 h2 h3 h4 => exact .degreeSeconds h0 h1 h2 h3 h4
  | wholeDegreeSeconds h0 h1 h2 h3 => exact .wholeDegreeSeconds h0 h1 h2 h3

theorem split_sexagesimal (z m s v P : Nat) (hz : z < 1000) (hm : m < 60) (hs : s < 60) (hv : v < P) :
    u32 ((((z * 60 + m) * 60 + s) * P + v) / (3600 * P)) = z ∧
    u32 ((((z * 60 + m) * 60 + s) * P + v) / (60 * P)) % 60 = m ∧
    u32 ((((z * 60 + m) * 60 + s) * P + v) / P) % 60 = s ∧
    (((z * 60 + m) * 60 + s) * P + v) % P = v := by
  have hP : 0 < P := by omega
  have h1 : (((z * 60 + m) * 60 + s) * P + v) / P = (z * 60 + m) * 60 + s := by
    rw [Nat.mul_comm, Nat.mul_add_div hP, Nat.div_eq_of_lt hv, Nat.add_zero]
  have h2 : (((z * 60 + m) * 60 + s) * P + v) % P = v := by
    rw [Nat.mul_comm, Nat.mul_add_mod, Nat.mod_eq_of_lt hv]
  have h3 : ((z * 60 + m) * 60 + s) / 60 = z * 60 + m := by omega
  have h4 : ((z * 60 + m) * 60 + s) / 3600 = z := by omega
  unfold u32
  rw [Nat.mul_comm 3600, Nat.mul_comm 60 P, ← Nat.div_div_eq_div_mul, ← Nat.div_div_eq_div_mul, h1, h2, h3, h4,
    Nat.mod_eq_of_lt (show z < 2 ^ 32 by omega), Nat.mod_eq_of_lt (show z * 60 + m < 2 ^ 32 by omega),
    Nat.mod_eq_of_lt (show (z * 60 + m) * 60 + s < 2 ^ 32 by omega)]
  omega

theorem pad_length2 {n : Nat} (h : n < 100) : (pad 2 n).length = 2 := pad_length (w := 1) (by omega)

theorem pad_length3 {n : Nat} (h : n < 1000) : (pad 3 n).length = 3 := pad_length (w := 2) (by omega)

theorem pad_no_blank {w n : Nat} (h : n < 10 ^ (w + 1)) : (pad (w + 1) n).filter (fun c => decide (c ≠ 32)) = pad (w + 1) n := by
  rw [List.filter_eq_self]
  intro a ha
  have := (padded_pad h (by omega)).digits a ha
  simp only [decide_eq_true_eq]
  omega

/-- The decimals and the blanks after them. -/
def tail (k p v : Nat) : List Nat := if p = 0 then List.replicate (k + 1) 32 else 46 :: (pad p v ++ List.replicate (k - p) 32)

theorem pad_lengthp {p v : Nat} (hp : p ≠ 0) (h : v < 10 ^ p) : (pad p v).length = p := by
  obtain ⟨q, rfl⟩ := Nat.exists_eq_succ_of_ne_zero hp
  exact pad_length h

theorem seconds_out {x : ℚ} {p z m s v : Nat} (hz : z < 100) (hm : m < 60) (hs : s < 60) (hv : v < 10 ^ p)
    (hp : p ≤ 9) (h : ⌊x * 3600 * 10 ^ p + 1 / 2⌋₊ = ((z * 60 + m) * 60 + s) * 10 ^ p + v) :
    outputAngle x p = .ok (pad 2 z ++ 32 :: (pad 2 m ++ 32 :: (pad 2 s ++ tail 3 p v))) := by
  obtain ⟨e1, e2, e3, e4⟩ := split_sexagesimal z m s v (10 ^ p) (by omega) hm hs hv
  have hn : ((p : Int) % 306).toNat = p := by omega
  have hh : head x p = ⟨pad 2 z ++ 32 :: (pad 2 m ++ 32 :: pad 2 s), p, p, v⟩ := by
    unfold head secondHead
    rw [if_neg (by omega), if_neg (by omega), if_pos (by omega)]
    simp only [if_neg (show ¬ (p : Int) ≥ 400 by omega), hn, h, e1, e2, e3, e4, if_neg (show ¬ (p : Int) > 306 by omega)]
    rw [List.take_of_length_le]
    simp [pad_length2 hz, pad_length2 (show m < 100 by omega), pad_length2 (show s < 100 by omega)]
  have hl : fullLen p = 12 + (p - 3) := by
    unfold fullLen
    rw [if_neg (show ¬ (209 ≤ (p : Int) ∧ (p : Int) ≤ 215) by omega), if_neg (show ¬ (110 ≤ (p : Int) ∧ (p : Int) ≤ 116) by omega)]
    split_ifs <;> omega
  unfold outputAngle tail
  simp only [hh, hl]
  by_cases h0 : p = 0
  · subst h0
    simp [pad_length2 hz, pad_length2 (show m < 100 by omega), pad_length2 (show s < 100 by omega), List.take_of_length_le]
  · rw [if_pos h0, if_pos (show (p : Int) < 307 ∨ (p : Int) > 312 by omega), if_neg h0]
    have hL : ((pad 2 z ++ 32 :: (pad 2 m ++ 32 :: pad 2 s)) ++ [46] ++ pad p v).length = 9 + p := by
      simp [pad_length2 hz, pad_length2 (show m < 100 by omega), pad_length2 (show s < 100 by omega), pad_lengthp h0 hv]
      omega
    rw [hL, if_neg (by omega), show 12 + (p - 3) - (9 + p) = 3 - p by omega]
    simp

theorem packed_out {x : ℚ} {p z m s v : Nat} (hz : z < 100) (hm : m < 60) (hs : s < 60) (hv : v < 10 ^ p)
    (hp : p ≤ 6) (hp1 : 1 ≤ p) (h : ⌊x * 3600 * 10 ^ p + 1 / 2⌋₊ = ((z * 60 + m) * 60 + s) * 10 ^ p + v) :
    outputAngle x (306 + p) = .ok (pad 2 z ++ (pad 2 m ++ (pad 2 s ++ (pad p v ++ List.replicate (6 - p) 32)))) := by
  obtain ⟨e1, e2, e3, e4⟩ := split_sexagesimal z m s v (10 ^ p) (by omega) hm hs hv
  have hn : ((306 + p : Int) % 306).toNat = p := by omega
  have hh : head x (306 + p) = ⟨pad 2 z ++ (pad 2 m ++ pad 2 s), 306 + p, p, v⟩ := by
    unfold head secondHead
    rw [if_neg (by omega), if_neg (by omega), if_pos (by omega)]
    simp only [if_neg (show ¬ (306 + p : Int) ≥ 400 by omega), hn, h, e1, e2, e3, e4, if_pos (show (306 + p : Int) > 306 by omega)]
    rw [List.take_of_length_le (by
      simp [pad_length2 hz, pad_length2 (show m < 100 by omega), pad_length2 (show s < 100 by omega)])]
    have f1 := pad_no_blank (w := 1) (n := z) (by omega)
    have f2 := pad_no_blank (w := 1) (n := m) (by omega)
    have f3 := pad_no_blank (w := 1) (n := s) (by omega)
    simp only [Nat.reduceAdd] at f1 f2 f3
    simp only [List.filter_append, List.filter_cons, f1, f2, f3]
    simp
  have hl : fullLen (306 + p) = 12 := by
    unfold fullLen
    rw [if_neg (by omega), if_neg (by omega), if_neg (by omega)]
  unfold outputAngle
  simp only [hh, hl]
  rw [if_pos (show p ≠ 0 by omega), if_neg (show ¬ ((306 + p : Int) < 307 ∨ (306 + p : Int) > 312) by omega)]
  have hL : (pad 2 z ++ (pad 2 m ++ pad 2 s) ++ pad p v).length = 6 + p := by
    simp [pad_length2 hz, pad_length2 (show m < 100 by omega), pad_length2 (show s < 100 by omega), pad_lengthp (show p ≠ 0 by omega) hv]
    omega
  rw [hL, if_neg (by omega), show 12 - (6 + p) = 6 - p by omega]
  simp

theorem degreeSeconds_out {x : ℚ} {p z m s v : Nat} (hz : z < 1000) (hm : m < 60) (hs : s < 60) (hv : v < 10 ^ p)
    (hp : p ≤ 2) (h : ⌊x * 15 * 3600 * 10 ^ p + 1 / 2⌋₊ = ((z * 60 + m) * 60 + s) * 10 ^ p + v) :
    outputAngle x (400 + p) = .ok (pad 3 z ++ 32 :: (pad 2 m ++ 32 :: (pad 2 s ++ tail 2 p v))) := by
  obtain ⟨e1, e2, e3, e4⟩ := split_sexagesimal z m s v (10 ^ p) (by omega) hm hs hv
  have hn : (((400 + p : Int) - 400) % 306).toNat = p := by omega
  have hh : head x (400 + p) = ⟨pad 3 z ++ 32 :: (pad 2 m ++ 32 :: pad 2 s), p, p, v⟩ := by
    unfold head secondHead
    rw [if_neg (by omega), if_neg (by omega), if_pos (by omega)]
    simp only [if_pos (show (400 + p : Int) ≥ 400 by omega), hn, h, e1, e2, e3, e4,
      if_neg (show ¬ (400 + p : Int) - 400 > 306 by omega)]
    rw [List.take_of_length_le (by
      simp [pad_length3 hz, pad_length2 (show m < 100 by omega), pad_length2 (show s < 100 by omega)])]
    congr 1
    omega
  have hl : fullLen p = 12 := by
    unfold fullLen
    rw [if_neg (by omega), if_neg (by omega), if_neg (by omega)]
  unfold outputAngle tail
  simp only [hh, hl]
  by_cases h0 : p = 0
  · subst h0
    simp [pad_length3 hz, pad_length2 (show m < 100 by omega), pad_length2 (show s < 100 by omega), List.take_of_length_le]
  · rw [if_pos h0, if_pos (show (p : Int) < 307 ∨ (p : Int) > 312 by omega), if_neg h0]
    have hL : ((pad 3 z ++ 32 :: (pad 2 m ++ 32 :: pad 2 s)) ++ [46] ++ pad p v).length = 10 + p := by
      simp [pad_length3 hz, pad_length2 (show m < 100 by omega), pad_length2 (show s < 100 by omega), pad_lengthp h0 hv]
      omega
    rw [hL, if_neg (by omega), show 12 - (10 + p) = 2 - p by omega]
    simp

theorem split_minutes (z m v P : Nat) (hz : z < 1000) (hm : m < 60) (hv : v < P) :
    u32 (((z * 60 + m) * P + v) / (60 * P)) = z ∧ u32 (((z * 60 + m) * P + v) / P) % 60 = m ∧ ((z * 60 + m) * P + v) % P = v := by
  have hP : 0 < P := by omega
  have h1 : ((z * 60 + m) * P + v) / P = z * 60 + m := by
    rw [Nat.mul_comm, Nat.mul_add_div hP, Nat.div_eq_of_lt hv, Nat.add_zero]
  have h2 : ((z * 60 + m) * P + v) % P = v := by
    rw [Nat.mul_comm, Nat.mul_add_mod, Nat.mod_eq_of_lt hv]
  have h3 : (z * 60 + m) / 60 = z := by omega
  unfold u32
  rw [Nat.mul_comm 60 P, ← Nat.div_div_eq_div_mul, h1, h2, h3, Nat.mod_eq_of_lt (show z < 2 ^ 32 by omega),
    Nat.mod_eq_of_lt (show z * 60 + m < 2 ^ 32 by omega)]
  omega

theorem minutes_out {x : ℚ} {p z m v : Nat} (hz : z < 100) (hm : m < 60) (hv : v < 10 ^ p)
    (hp : p ≤ 6) (h : ⌊x * 60 * 10 ^ p + 1 / 2⌋₊ = (z * 60 + m) * 10 ^ p + v) :
    outputAngle x (-(p + 1)) = .ok (pad 2 z ++ 32 :: (pad 2 m ++ tail 6 p v)) := by
  obtain ⟨e1, e2, e3⟩ := split_minutes z m v (10 ^ p) (by omega) hm hv
  have hn : (-1 - (-(p + 1) : Int)).toNat = p := by omega
  have hh : head x (-(p + 1)) = ⟨pad 2 z ++ 32 :: pad 2 m, -(p + 1), p, v⟩ := by
    unfold head minuteHead
    rw [if_neg (by omega), if_pos (by omega)]
    simp only [hn, h, e1, e2, e3]
    rw [List.take_of_length_le]
    simp [pad_length2 hz, pad_length2 (show m < 100 by omega)]
  have hl : fullLen (-(p + 1)) = 12 := by
    unfold fullLen
    rw [if_neg (by omega), if_neg (by omega), if_neg (by omega)]
  unfold outputAngle tail
  simp only [hh, hl]
  by_cases h0 : p = 0
  · subst h0
    simp [pad_length2 hz, pad_length2 (show m < 100 by omega), List.take_of_length_le]
  · rw [if_pos h0, if_pos (show (-(p + 1) : Int) < 307 ∨ (-(p + 1) : Int) > 312 by omega), if_neg h0]
    have hL : ((pad 2 z ++ 32 :: pad 2 m) ++ [46] ++ pad p v).length = 6 + p := by
      simp [pad_length2 hz, pad_length2 (show m < 100 by omega), pad_lengthp h0 hv]
      omega
    rw [hL, if_neg (by omega), show 12 - (6 + p) = 6 - p by omega]
    simp

theorem split_decimal (z v P : Nat) (hz : z < 1000) (hv : v < P) :
    u32 ((z * P + v) / P) = z ∧ (z * P + v) % P = v := by
  have hP : 0 < P := by omega
  have h1 : (z * P + v) / P = z := by
    rw [Nat.mul_comm, Nat.mul_add_div hP, Nat.div_eq_of_lt hv, Nat.add_zero]
  have h2 : (z * P + v) % P = v := by
    rw [Nat.mul_comm, Nat.mul_add_mod, Nat.mod_eq_of_lt hv]
  unfold u32
  rw [h1, h2]
  omega

theorem decimal_out {x : ℚ} {p z v : Nat} (hz : z < 100) (hv : v < 10 ^ p) (hp : p ≤ 16) (hp1 : 1 ≤ p)
    (h : ⌊x * 10 ^ p + 1 / 2⌋₊ = z * 10 ^ p + v) :
    outputAngle x (100 + p) = .ok (pad 2 z ++ tail 9 p v) := by
  obtain ⟨e1, e2⟩ := split_decimal z v (10 ^ p) (by omega) hv
  have hn : ((100 + p : Int) % 100).toNat = p := by omega
  have hh : head x (100 + p) = ⟨pad 2 z, 100 + p, p, v⟩ := by
    unfold head decimalHead
    rw [if_pos (by omega)]
    have : decide ((100 + p : Int) ≤ 200) = true := by simp; omega
    simp only [hn, this, if_true, mul_one, h, e1, e2]
    rw [List.take_of_length_le]
    simp [pad_length2 hz]
  have hl : fullLen (100 + p) = 12 + (p - 9) := by
    unfold fullLen
    rw [if_neg (show ¬ (4 ≤ (100 + p : Int) ∧ (100 + p : Int) ≤ 11) by omega),
      if_neg (show ¬ (209 ≤ (100 + p : Int) ∧ (100 + p : Int) ≤ 215) by omega)]
    split_ifs <;> omega
  have h0 : p ≠ 0 := by omega
  unfold outputAngle tail
  simp only [hh, hl]
  rw [if_pos h0, if_pos (show (100 + p : Int) < 307 ∨ (100 + p : Int) > 312 by omega), if_neg h0]
  have hL : (pad 2 z ++ [46] ++ pad p v).length = 3 + p := by
    simp [pad_length2 hz, pad_lengthp h0 hv]
    omega
  rw [hL, if_neg (by omega), show 12 + (p - 9) - (3 + p) = 9 - p by omega]
  simp

theorem degrees_out {x : ℚ} {p z v : Nat} (hz : z < 1000) (hv : v < 10 ^ p) (hp : p ≤ 15) (hp1 : 1 ≤ p)
    (h : ⌊x * 15 * 10 ^ p + 1 / 2⌋₊ = z * 10 ^ p + v) :
    outputAngle x (200 + p) = .ok (pad 3 z ++ tail 8 p v) := by
  obtain ⟨e1, e2⟩ := split_decimal z v (10 ^ p) (by omega) hv
  have hn : ((200 + p : Int) % 100).toNat = p := by omega
  have hh : head x (200 + p) = ⟨pad 3 z, 200 + p, p, v⟩ := by
    unfold head decimalHead
    rw [if_pos (by omega)]
    have : decide ((200 + p : Int) ≤ 200) = false := by simp; omega
    simp only [hn, this, Bool.false_eq_true, if_false, h, e1, e2]
    rw [List.take_of_length_le]
    simp [pad_length3 hz]
  have hl : fullLen (200 + p) = 12 + (p - 8) := by
    unfold fullLen
    rw [if_neg (show ¬ (4 ≤ (200 + p : Int) ∧ (200 + p : Int) ≤ 11) by omega),
      if_neg (show ¬ (110 ≤ (200 + p : Int) ∧ (200 + p : Int) ≤ 116) by omega)]
    split_ifs <;> omega
  have h0 : p ≠ 0 := by omega
  unfold outputAngle tail
  simp only [hh, hl]
  rw [if_pos h0, if_pos (show (200 + p : Int) < 307 ∨ (200 + p : Int) > 312 by omega), if_neg h0]
  have hL : (pad 3 z ++ [46] ++ pad p v).length = 4 + p := by
    simp [pad_length3 hz, pad_lengthp h0 hv]
    omega
  rw [hL, if_neg (by omega), show 12 + (p - 8) - (4 + p) = 8 - p by omega]
  simp

theorem tail_column {k p v : Nat} {f : List Nat} (h : Column k p v f) (hp : 1 ≤ p) : 46 :: f = tail k p v := by
  obtain ⟨q, rfl⟩ := Nat.exists_eq_add_of_le' hp
  unfold tail
  rw [if_neg (by omega), ← (column_of h).1]

theorem column_lt {k p v : Nat} {f : List Nat} (h : Column k p v f) : v < 10 ^ p := by
  obtain ⟨ds, hd, -, -⟩ := h
  exact padded_lt hd

theorem column_le {k p v : Nat} {f : List Nat} (h : Column k p v f) : p ≤ k := by
  obtain ⟨ds, hd, hp, -⟩ := h
  exact hp

theorem column_tail {k p v : Nat} (hv : v < 10 ^ p) (hp : 1 ≤ p) (hk : p ≤ k) :
    Column k p v (pad p v ++ List.replicate (k - p) 32) :=
  ⟨pad p v, padded_pad hv (by omega), hk, rfl⟩

/-- C74: the value of an angle, written in the format in which it was given, gives the same text. -/
theorem C74_recreate {ra : Bool} {t : List Nat} {x : ℚ} {code : Int} {prec : ℚ} (h : CleanAngle ra t x code prec) :
    outputAngle x code = .ok t := by
  cases h with
  | @seconds z m s p v zz mm ss f h1 h2 h3 h4 hm hs hp =>
    have hz := padded_lt h1
    have hv := column_lt h4
    have hk := column_le h4
    rw [tail_column h4 hp, ← pad_of h1, ← pad_of h2, ← pad_of h3]
    apply seconds_out (by omega) hm hs hv (by omega)
    refine (congrArg Nat.floor ?_).trans (floor_half _)
    push_cast
    field_simp
    ring
  | @wholeSeconds z m s zz mm ss h1 h2 h3 hm hs =>
    have hz := padded_lt h1
    rw [← pad_of h1, ← pad_of h2, ← pad_of h3]
    apply seconds_out (p := 0) (v := 0) (by omega) hm hs (by omega) (by omega)
    refine (congrArg Nat.floor ?_).trans (floor_half _)
    push_cast
    ring
  | @minutes z m p v zz mm f h1 h2 h3 hm hp =>
    have hz := padded_lt h1
    have hv := column_lt h3
    have hk := column_le h3
    rw [tail_column h3 hp, ← pad_of h1, ← pad_of h2]
    apply minutes_out (by omega) hm hv (by omega)
    refine (congrArg Nat.floor ?_).trans (floor_half _)
    push_cast
    field_simp
    ring
  | @wholeMinutes z m zz mm h1 h2 hm =>
    have hz := padded_lt h1
    rw [← pad_of h1, ← pad_of h2]
    apply minutes_out (p := 0) (v := 0) (by omega) hm (by omega) (by omega)
    refine (congrArg Nat.floor ?_).trans (floor_half _)
    push_cast
    ring
  | @decimal z p v zz f h1 h2 hp =>
    have hz := padded_lt h1
    have hv := column_lt h2
    have hk := column_le h2
    rw [tail_column h2 hp, ← pad_of h1]
    apply decimal_out (by omega) hv (by omega) hp
    refine (congrArg Nat.floor ?_).trans (floor_half _)
    push_cast
    field_simp
  | @degrees d p v dd f hra h1 h2 hp =>
    have hz := padded_lt h1
    have hv := column_lt h2
    have hk := column_le h2
    rw [tail_column h2 hp, ← pad_of h1]
    apply degrees_out (by omega) hv (by omega) hp
    refine (congrArg Nat.floor ?_).trans (floor_half _)
    push_cast
    field_simp
  | @packed z m s p v zz mm ss f h1 h2 h3 h4 hm hs hp =>
    have hz := padded_lt h1
    have hv := column_lt h4
    have hk := column_le h4
    obtain ⟨q, rfl⟩ := Nat.exists_eq_add_of_le' hp
    rw [(column_of h4).1, ← pad_of h1, ← pad_of h2, ← pad_of h3]
    apply packed_out (by omega) hm hs hv (by omega) (by omega)
    refine (congrArg Nat.floor ?_).trans (floor_half _)
    push_cast
    field_simp
    ring
  | @degreeSeconds d m s p v dd mm ss f hra h1 h2 h3 h4 hm hs hp =>
    have hz := padded_lt h1
    have hv := column_lt h4
    have hk := column_le h4
    rw [tail_column h4 hp, ← pad_of h1, ← pad_of h2, ← pad_of h3]
    apply degreeSeconds_out (by omega) hm hs hv (by omega)
    refine (congrArg Nat.floor ?_).trans (floor_half _)
    push_cast
    field_simp
    ring
  | @wholeDegreeSeconds d m s dd mm ss hra h1 h2 h3 hm hs =>
    have hz := padded_lt h1
    rw [← pad_of h1, ← pad_of h2, ← pad_of h3]
    apply degreeSeconds_out (p := 0) (v := 0) (by omega) hm hs (by omega) (by omega)
    refine (congrArg Nat.floor ?_).trans (floor_half _)
    push_cast
    ring

theorem nearest_unit {x U : ℚ} (hx : 0 ≤ x) (hU : 0 < U) : |(⌊x * U + 1 / 2⌋₊ : ℚ) / U - x| ≤ 1 / 2 / U := by
  have h1 := Nat.floor_le (show 0 ≤ x * U + 1 / 2 by positivity)
  have h2 := Nat.lt_floor_add_one (x * U + 1 / 2)
  rw [show (⌊x * U + 1 / 2⌋₊ : ℚ) / U - x = ((⌊x * U + 1 / 2⌋₊ : ℚ) - x * U) / U by field_simp, abs_div, abs_of_pos hU]
  apply div_le_div_of_nonneg_right _ hU.le
  rw [abs_le]
  constructor <;> linarith

theorem floor_unit_lt {x U : ℚ} {L : Nat} (hx : 0 ≤ x) (hU : 1 ≤ U) (hL : x + 1 / 2 < L) : (⌊x * U + 1 / 2⌋₊ : ℚ) < L * U := by
  have h1 := Nat.floor_le (show 0 ≤ x * U + 1 / 2 by nlinarith)
  nlinarith

theorem digits_sexagesimal (N P L : Nat) (hP : 0 < P) (h : N < L * (3600 * P)) :
    ∃ z m s v, z < L ∧ m < 60 ∧ s < 60 ∧ v < P ∧ N = ((z * 60 + m) * 60 + s) * P + v := by
  refine ⟨N / P / 3600, N / P / 60 % 60, N / P % 60, N % P, ?_, by omega, by omega, Nat.mod_lt _ hP, ?_⟩
  · rw [Nat.div_div_eq_div_mul]
    exact Nat.div_lt_of_lt_mul (by rw [Nat.mul_comm P, Nat.mul_comm]; exact h)
  · have : (N / P / 3600 * 60 + N / P / 60 % 60) * 60 + N / P % 60 = N / P := by omega
    rw [this, Nat.div_add_mod']

theorem digits_minutes (N P L : Nat) (hP : 0 < P) (h : N < L * (60 * P)) :
    ∃ z m v, z < L ∧ m < 60 ∧ v < P ∧ N = (z * 60 + m) * P + v := by
  refine ⟨N / P / 60, N / P % 60, N % P, ?_, by omega, Nat.mod_lt _ hP, ?_⟩
  · rw [Nat.div_div_eq_div_mul]
    exact Nat.div_lt_of_lt_mul (by rw [Nat.mul_comm P, Nat.mul_comm]; exact h)
  · have : N / P / 60 * 60 + N / P % 60 = N / P := by omega
    rw [this, Nat.div_add_mod']

theorem digits_decimal (N P L : Nat) (hP : 0 < P) (h : N < L * P) : ∃ z v, z < L ∧ v < P ∧ N = z * P + v :=
  ⟨N / P, N % P, Nat.div_lt_of_lt_mul (by rw [Nat.mul_comm]; exact h), Nat.mod_lt _ hP, (Nat.div_add_mod' N P).symm⟩

/-- The formats of angles that are written and that `CleanAngle` describes. -/
def Format (ra : Bool) (code : Int) : Prop :=
  (-7 ≤ code ∧ code ≤ 3) ∨ (101 ≤ code ∧ code ≤ 109) ∨ (307 ≤ code ∧ code ≤ 312) ∨
    (ra = true ∧ ((201 ≤ code ∧ code ≤ 208) ∨ (400 ≤ code ∧ code ≤ 402)))

/-- C74: whatever the format, the text stands for the value nearest to the angle among those the format can express. -/
theorem C74_nearest {ra : Bool} {x : ℚ} {code : Int} (hx : 0 ≤ x) (hf : Format ra code) (h2 : x < 99) (h3 : ra = true → x < 66) :
    ∃ t y prec, CleanAngle ra t y code prec ∧ outputAngle x code = .ok t ∧ |y - x| ≤ prec / 3600 / 2 := by
  have sec : ∀ p : Nat, ∃ z m s v, z < 100 ∧ m < 60 ∧ s < 60 ∧ v < 10 ^ p ∧
      ⌊x * 3600 * 10 ^ p + 1 / 2⌋₊ = ((z * 60 + m) * 60 + s) * 10 ^ p + v ∧
      |((z : ℚ) + (m : ℚ) / 60 + ((s : ℚ) + (v : ℚ) / 10 ^ p) / 3600) - x| ≤ 1 / 10 ^ p / 3600 / 2 := by
    intro p
    have hU : (1 : ℚ) ≤ 3600 * 10 ^ p := by
      have : (1 : ℚ) ≤ 10 ^ p := one_le_pow₀ (by norm_num)
      linarith
    have hb := floor_unit_lt (L := 100) hx hU (by push_cast; linarith)
    have hn := nearest_unit hx (show 0 < (3600 * 10 ^ p : ℚ) by positivity)
    rw [← mul_assoc] at hb hn
    obtain ⟨z, m, s, v, hz, hm, hs, hv, e⟩ := digits_sexagesimal ⌊x * 3600 * 10 ^ p + 1 / 2⌋₊ (10 ^ p) 100 (by positivity)
      (by exact_mod_cast hb)
    refine ⟨z, m, s, v, hz, hm, hs, hv, e, ?_⟩
    rw [e] at hn
    refine (le_of_eq ?_).trans (hn.trans (le_of_eq ?_))
    · congr 2
      push_cast
      field_simp
      ring
    · field_simp
  have min : ∀ p : Nat, ∃ z m v, z < 100 ∧ m < 60 ∧ v < 10 ^ p ∧
      ⌊x * 60 * 10 ^ p + 1 / 2⌋₊ = (z * 60 + m) * 10 ^ p + v ∧
      |((z : ℚ) + ((m : ℚ) + (v : ℚ) / 10 ^ p) / 60) - x| ≤ 60 / 10 ^ p / 3600 / 2 := by
    intro p
    have hU : (1 : ℚ) ≤ 60 * 10 ^ p := by
      have : (1 : ℚ) ≤ 10 ^ p := one_le_pow₀ (by norm_num)
      linarith
    have hb := floor_unit_lt (L := 100) hx hU (by push_cast; linarith)
    have hn := nearest_unit hx (show 0 < (60 * 10 ^ p : ℚ) by positivity)
    rw [← mul_assoc] at hb hn
    obtain ⟨z, m, v, hz, hm, hv, e⟩ := digits_minutes ⌊x * 60 * 10 ^ p + 1 / 2⌋₊ (10 ^ p) 100 (by positivity)
      (by exact_mod_cast hb)
    refine ⟨z, m, v, hz, hm, hv, e, ?_⟩
    rw [e] at hn
    refine (le_of_eq ?_).trans (hn.trans (le_of_eq ?_))
    · congr 2
      push_cast
      field_simp
      ring
    · field_simp
      norm_num
  rcases hf with h | h | h | ⟨hra, h⟩
  · by_cases hs0 : 0 ≤ code
    · obtain ⟨p, rfl⟩ := Int.eq_ofNat_of_zero_le hs0
      obtain ⟨z, m, s, v, hz, hm, hs, hv, e, hn⟩ := sec p
      have ho := seconds_out hz hm hs hv (by omega) e
      by_cases h0 : p = 0
      · subst h0
        have : v = 0 := by omega
        subst this
        refine ⟨_, _, _, .wholeSeconds (padded_pad (w := 2) (n := z) (by omega) (by omega))
          (padded_pad (w := 2) (n := m) (by omega) (by omega)) (padded_pad (w := 2) (n := s) (by omega) (by omega)) hm hs, ho, ?_⟩
        simpa using hn
      · have c := CleanAngle.seconds (ra := ra) (padded_pad (w := 2) (n := z) (by omega) (by omega))
          (padded_pad (w := 2) (n := m) (by omega) (by omega)) (padded_pad (w := 2) (n := s) (by omega) (by omega))
          (column_tail (k := 3) hv (by omega) (by omega)) hm hs (by omega)
        refine ⟨_, _, _, c, ?_, hn⟩
        rw [ho]
        unfold tail
        rw [if_neg h0]
    · obtain ⟨p, rfl⟩ : ∃ p : Nat, code = -(p + 1) := ⟨(-code - 1).toNat, by omega⟩
      obtain ⟨z, m, v, hz, hm, hv, e, hn⟩ := min p
      have ho := minutes_out hz hm hv (by omega) e
      by_cases h0 : p = 0
      · subst h0
        have : v = 0 := by omega
        subst this
        refine ⟨_, _, _, .wholeMinutes (padded_pad (w := 2) (n := z) (by omega) (by omega))
          (padded_pad (w := 2) (n := m) (by omega) (by omega)) hm, ho, ?_⟩
        simpa using hn
      · have c := CleanAngle.minutes (ra := ra) (padded_pad (w := 2) (n := z) (by omega) (by omega))
          (padded_pad (w := 2) (n := m) (by omega) (by omega))
          (column_tail (k := 6) hv (by omega) (by omega)) hm (by omega)
        refine ⟨_, _, _, c, ?_, hn⟩
        rw [ho]
        unfold tail
        rw [if_neg h0]
  · obtain ⟨p, rfl⟩ : ∃ p : Nat, code = 100 + p := ⟨(code - 100).toNat, by omega⟩
    have hb := floor_unit_lt (L := 100) hx (show (1 : ℚ) ≤ 10 ^ p from one_le_pow₀ (by norm_num)) (by push_cast; linarith)
    have hn := nearest_unit hx (show 0 < (10 ^ p : ℚ) by positivity)
    obtain ⟨z, v, hz, hv, e⟩ := digits_decimal ⌊x * 10 ^ p + 1 / 2⌋₊ (10 ^ p) 100 (by positivity) (by exact_mod_cast hb)
    have ho := decimal_out hz hv (by omega) (by omega) e
    have c := CleanAngle.decimal (ra := ra) (padded_pad (w := 2) (n := z) (by omega) (by omega))
      (column_tail (k := 9) hv (by omega) (by omega)) (by omega)
    refine ⟨_, _, _, c, ?_, ?_⟩
    · rw [ho]
      unfold tail
      rw [if_neg (by omega)]
    · rw [e] at hn
      refine (le_of_eq ?_).trans (hn.trans (le_of_eq ?_))
      · congr 2
        push_cast
        field_simp
      · field_simp
  · obtain ⟨p, rfl⟩ : ∃ p : Nat, code = 306 + p := ⟨(code - 306).toNat, by omega⟩
    obtain ⟨z, m, s, v, hz, hm, hs, hv, e, hn⟩ := sec p
    have ho := packed_out hz hm hs hv (by omega) (by omega) e
    have c := CleanAngle.packed (ra := ra) (padded_pad (w := 2) (n := z) (by omega) (by omega))
      (padded_pad (w := 2) (n := m) (by omega) (by omega)) (padded_pad (w := 2) (n := s) (by omega) (by omega))
      (column_tail (k := 6) hv (by omega) (by omega)) hm hs (by omega)
    exact ⟨_, _, _, c, ho, hn⟩
  · have h66 := h3 hra
    rcases h with h | h
    · obtain ⟨p, rfl⟩ : ∃ p : Nat, code = 200 + p := ⟨(code - 200).toNat, by omega⟩
      have hx15 : 0 ≤ x * 15 := by linarith
      have hb := floor_unit_lt (L := 1000) hx15 (show (1 : ℚ) ≤ 10 ^ p from one_le_pow₀ (by norm_num)) (by push_cast; linarith)
      have hn := nearest_unit hx15 (show 0 < (10 ^ p : ℚ) by positivity)
      obtain ⟨z, v, hz, hv, e⟩ := digits_decimal ⌊x * 15 * 10 ^ p + 1 / 2⌋₊ (10 ^ p) 1000 (by positivity) (by exact_mod_cast hb)
      have ho := degrees_out hz hv (by omega) (by omega) e
      have c := CleanAngle.degrees (ra := ra) hra (padded_pad (w := 3) (n := z) (by omega) (by omega))
        (column_tail (k := 8) hv (by omega) (by omega)) (by omega)
      refine ⟨_, _, _, c, ?_, ?_⟩
      · rw [ho]
        unfold tail
        rw [if_neg (by omega)]
      · rw [e] at hn
        have hd : ((z : ℚ) + (v : ℚ) / 10 ^ p) / 15 - x = (((z * 10 ^ p + v : Nat) : ℚ) / 10 ^ p - x * 15) / 15 := by
          push_cast
          field_simp
        rw [hd, abs_div, abs_of_pos (show (0 : ℚ) < 15 by norm_num), div_le_iff₀ (by norm_num)]
        refine hn.trans (le_of_eq ?_)
        field_simp
    · obtain ⟨p, rfl⟩ : ∃ p : Nat, code = 400 + p := ⟨(code - 400).toNat, by omega⟩
      have hx15 : 0 ≤ x * 15 := by linarith
      have hU : (1 : ℚ) ≤ 3600 * 10 ^ p := by
        have : (1 : ℚ) ≤ 10 ^ p := one_le_pow₀ (by norm_num)
        linarith
      have hb := floor_unit_lt (L := 1000) hx15 hU (by push_cast; linarith)
      have hn := nearest_unit hx15 (show 0 < (3600 * 10 ^ p : ℚ) by positivity)
      rw [← mul_assoc] at hb hn
      obtain ⟨z, m, s, v, hz, hm, hs, hv, e⟩ := digits_sexagesimal ⌊x * 15 * 3600 * 10 ^ p + 1 / 2⌋₊ (10 ^ p) 1000 (by positivity)
        (by exact_mod_cast hb)
      have ho := degreeSeconds_out hz hm hs hv (by omega) e
      have hN : |((z : ℚ) + (m : ℚ) / 60 + ((s : ℚ) + (v : ℚ) / 10 ^ p) / 3600) / 15 - x| ≤ 1 / 15 / 10 ^ p / 3600 / 2 := by
        rw [e] at hn
        have hd : ((z : ℚ) + (m : ℚ) / 60 + ((s : ℚ) + (v : ℚ) / 10 ^ p) / 3600) / 15 - x =
            (((((z * 60 + m) * 60 + s) * 10 ^ p + v : Nat) : ℚ) / (3600 * 10 ^ p) - x * 15) / 15 := by
          push_cast
          field_simp
          ring
        rw [hd, abs_div, abs_of_pos (show (0 : ℚ) < 15 by norm_num), div_le_iff₀ (by norm_num)]
        refine hn.trans (le_of_eq ?_)
        field_simp
      by_cases h0 : p = 0
      · subst h0
        have : v = 0 := by omega
        subst this
        refine ⟨_, _, _, .wholeDegreeSeconds hra (padded_pad (w := 3) (n := z) (by omega) (by omega))
          (padded_pad (w := 2) (n := m) (by omega) (by omega)) (padded_pad (w := 2) (n := s) (by omega) (by omega)) hm hs, ho, ?_⟩
        simpa using hN
      · have c := CleanAngle.degreeSeconds (ra := ra) hra (padded_pad (w := 3) (n := z) (by omega) (by omega))
          (padded_pad (w := 2) (n := m) (by omega) (by omega)) (padded_pad (w := 2) (n := s) (by omega) (by omega))
          (column_tail (k := 2) hv (by omega) (by omega)) hm hs (by omega)
        refine ⟨_, _, _, c, ?_, hN⟩
        rw [ho]
        unfold tail
        rw [if_neg h0]

/-- C74: a declination is written as its sign and its absolute value. -/
theorem C74_sign (x : ℚ) (code : Int) {t : List Nat} (h : outputAngle |x| code = .ok t) :
    outputSignedAngle x code = .ok ((if x < 0 then 45 else 43) :: t) := by
  unfold outputSignedAngle
  rw [h]
  rfl

/-- C74: a right ascension written in a format that can be read (C72) is read in the same format, within half a unit of the
    last place. -/
theorem C74_ra {x : ℚ} {code : Int} {rest : List Nat} (hx : 0 ≤ x) (hf : Format true code) (h : x < 66)
    (h310 : code < 310 ∨ 400 ≤ code) (h307 : code ≠ 307) :
    ∃ t y prec, outputAngle x code = .ok t ∧ getRaDec (t ++ rest) = .ok (y, code, prec) ∧ |y - x| ≤ prec / 3600 / 2 := by
  obtain ⟨t, y, prec, c, o, n⟩ := C74_nearest hx hf (by linarith) (fun _ => h)
  refine ⟨t, y, prec, o, C72_ra (clean_field c) ?_ h310 h307, n⟩
  rw [← angleField_length (clean_field c), List.take_left]

/-- C74: the same for a declination, with its sign. -/
theorem C74_dec {x : ℚ} {code : Int} {rest : List Nat} (hf : Format false code) (h : |x| < 99)
    (h310 : code < 310 ∨ 400 ≤ code) (h307 : code ≠ 307) :
    ∃ t y prec, outputSignedAngle x code = .ok t ∧ getRaDec (t ++ rest) = .ok (y, code, prec) ∧ |y - x| ≤ prec / 3600 / 2 := by
  obtain ⟨t, y, prec, c, o, n⟩ := C74_nearest (abs_nonneg x) hf h (by simp)
  have ht : (t ++ rest).take 12 = t := by rw [← angleField_length (clean_field c), List.take_left]
  by_cases hx : x < 0
  · refine ⟨_, -y, prec, C74_sign x code o, ?_, ?_⟩
    · rw [if_pos hx, List.cons_append, C72_dec (clean_field c) (Or.inr rfl) ht h310 h307]
      simp [signed]
    · rw [abs_of_neg hx] at n
      rwa [← abs_neg, show -(-y - x) = y - -x by ring]
  · refine ⟨_, y, prec, C74_sign x code o, ?_, ?_⟩
    · rw [if_neg hx, List.cons_append, C72_dec (clean_field c) (Or.inl rfl) ht h310 h307]
      simp [signed]
    · rwa [abs_of_nonneg (show 0 ≤ x by linarith)] at n

/-- C74: in ephemerides seconds may have up to nine decimals; the field gets longer by as many columns. -/
theorem C74_long_seconds {x : ℚ} {p z m s v : Nat} (hz : z < 100) (hm : m < 60) (hs : s < 60) (hv : v < 10 ^ p) (h4 : 4 ≤ p)
    (hp : p ≤ 9) (h : x = (z : ℚ) + (m : ℚ) / 60 + ((s : ℚ) + (v : ℚ) / 10 ^ p) / 3600) :
    outputAngle x p = .ok (pad 2 z ++ 32 :: (pad 2 m ++ 32 :: (pad 2 s ++ 46 :: pad p v))) := by
  rw [seconds_out hz hm hs hv hp (by
    subst h
    refine (congrArg Nat.floor ?_).trans (floor_half _)
    push_cast
    field_simp
    ring)]
  unfold tail
  rw [if_neg (by omega), show 3 - p = 0 by omega]
  simp

/-- C74: decimals of hours or degrees, up to sixteen. -/
theorem C74_long_decimal {x : ℚ} {p z v : Nat} (hz : z < 100) (hv : v < 10 ^ p) (h10 : 10 ≤ p) (hp : p ≤ 16)
    (h : x = (z : ℚ) + (v : ℚ) / 10 ^ p) : outputAngle x (100 + p) = .ok (pad 2 z ++ 46 :: pad p v) := by
  rw [decimal_out hz hv hp (by omega) (by
    subst h
    refine (congrArg Nat.floor ?_).trans (floor_half _)
    push_cast
    field_simp)]
  unfold tail
  rw [if_neg (by omega), show 9 - p = 0 by omega]
  simp

/-- C74: decimals of degrees of right ascension, up to fifteen. -/
theorem C74_long_degrees {x : ℚ} {p z v : Nat} (hz : z < 1000) (hv : v < 10 ^ p) (h9 : 9 ≤ p) (hp : p ≤ 15)
    (h : x = ((z : ℚ) + (v : ℚ) / 10 ^ p) / 15) : outputAngle x (200 + p) = .ok (pad 3 z ++ 46 :: pad p v) := by
  rw [degrees_out hz hv hp (by omega) (by
    subst h
    refine (congrArg Nat.floor ?_).trans (floor_half _)
    push_cast
    field_simp)]
  unfold tail
  rw [if_neg (by omega), show 8 - p = 0 by omega]
  simp

/-- **Finding** (C74): whole degrees of right ascension (format 200) come out as whole hours. -/
theorem C74_format_200 (x : ℚ) : outputAngle x 200 = outputAngle x 100 := rfl

/-- **Finding** (C74): a right ascension that rounds up to a whole turn is written as 24 hours. -/
theorem C74_whole_turn {x : ℚ} {p : Nat} (hp : p ≤ 3) (h1 : 24 - 1 / 7200 / 10 ^ p ≤ x) (h2 : x < 24) :
    outputAngle x p = .ok (bytes "24 00 00" ++ tail 3 p 0) := by
  have e : ⌊x * 3600 * 10 ^ p + 1 / 2⌋₊ = ((24 * 60 + 0) * 60 + 0) * 10 ^ p + 0 := by
    have hP : (0 : ℚ) < 10 ^ p := by positivity
    have h0 : 0 ≤ x := by
      have : (1 : ℚ) / 7200 / 10 ^ p ≤ 1 := by
        rw [div_le_one hP]
        have : (1 : ℚ) ≤ 10 ^ p := one_le_pow₀ (by norm_num)
        linarith
      linarith
    rw [Nat.floor_eq_iff (by positivity)]
    have hq : (24 - 1 / 7200 / 10 ^ p) * 3600 * 10 ^ p = (86400 * 10 ^ p - 1 / 2 : ℚ) := by
      field_simp
      ring
    have h3 : (24 - 1 / 7200 / 10 ^ p) * 3600 * 10 ^ p ≤ x * 3600 * 10 ^ p := by gcongr
    have h4 : x * 3600 * 10 ^ p < 24 * 3600 * 10 ^ p := by gcongr
    push_cast
    constructor <;> linarith
  rw [seconds_out (by omega) (by omega) (by omega) (by positivity) (by omega) e]
  rfl

/-- The hypotheses are met: a right ascension, a declination that carries, and one in degrees. -/
example : CleanAngle true (bytes "05 34 31.94 ") ((5 : Nat) + (34 : Nat) / 60 + ((31 : Nat) + (94 : Nat) / 10 ^ 2) / 3600) (2 : Nat) (1 / 10 ^ 2) :=
  .seconds (zz := bytes "05") (mm := bytes "34") (ss := bytes "31") (f := bytes "94 ") (padded_pad (w := 2) (by decide) (by decide))
    (padded_pad (w := 2) (by decide) (by decide)) (padded_pad (w := 2) (by decide) (by decide))
    ⟨bytes "94", padded_pad (w := 2) (by decide) (by decide), by decide, rfl⟩ (by decide) (by decide) (by decide)

example : Format true 402 ∧ Format false (-3) ∧ Format false 109 ∧ ¬ Format true 200 := by
  unfold Format
  decide

example : outputAngle (24 - 1 / 10 ^ 8) 2 = .ok (bytes "24 00 00.00 ") :=
  C74_whole_turn (p := 2) (by omega) (by norm_num) (by norm_num)

end Verif.Props
