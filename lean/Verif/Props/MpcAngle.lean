import Verif.Props.MpcDate
import Verif.Props.QuickReal

/-!
# Property theorems: right ascensions and declinations of MPC observations (C72)
-/

namespace Verif.Props

open Verif Verif.Spec Verif.MpcLine Verif.Scan

theorem signed_false (x : ℚ) : signed false x = x := rfl

theorem padded_ne {w n : Nat} {s : List Nat} (h : Padded (w + 1) n s) : s ≠ [] := by
  intro h'
  have := h.width
  rw [h'] at this
  simp at this

/-- A whole number with few digits. -/
theorem quick_whole {w n : Nat} {s rest : List Nat} (h : Padded (w + 1) n s) (hw : w < 9) (hr : isDigit (at? rest 0) = false)
    (hp : at? rest 0 ≠ 46) : quickAtof (s ++ rest) = .ok (n : ℚ) := by
  have hlt : 10 ^ (w + 1) ≤ 10 ^ 9 := Nat.pow_le_pow_right (by omega) (by omega)
  have := padded_lt h
  have hq := C73_integer (.none 0) h.digits (padded_ne h) hr hp (by rw [h.value]; unfold INT_MAX; omega)
  rw [List.replicate_zero, List.nil_append] at hq
  unfold quickAtof
  rw [hq, h.value, signed_false]
  rfl

/-- A number with decimals. -/
theorem quick_column {w n k p v : Nat} {s f : List Nat} (h : Padded (w + 1) n s) (hw : w < 9) (hf : Column k p v f) (hk : k ≤ 9) :
    quickAtof (s ++ 46 :: f) = .ok ((n : ℚ) + (v : ℚ) / 10 ^ p) := by
  have hlt : 10 ^ (w + 1) ≤ 10 ^ 9 := Nat.pow_le_pow_right (by omega) (by omega)
  have := padded_lt h
  obtain ⟨ds, hd, hp, rfl⟩ := hf
  have hq := C73_decimal (.none 0) h.digits hd.digits (Or.inl (padded_ne h)) (column_stops k p).1 (by rw [h.value]; unfold INT_MAX; omega)
    (by rw [hd.width]; omega)
  rw [List.replicate_zero, List.nil_append] at hq
  unfold quickAtof
  rw [hq, h.value, signed_false, hd.value, hd.width]
  rfl

theorem padded_three {n : Nat} {s : List Nat} (h : Padded 3 n s) :
    ∃ a b c, s = [a, b, c] ∧ (48 ≤ a ∧ a ≤ 57) ∧ (48 ≤ b ∧ b ≤ 57) ∧ (48 ≤ c ∧ c ≤ 57) := by
  have := h.width
  match s, this with
  | [a, b, c], _ => exact ⟨a, b, c, rfl, h.digits a (by simp), h.digits b (by simp), h.digits c (by simp)⟩

theorem count_padded {w n : Nat} {s rest : List Nat} (h : Padded w n s) (hr : isDigit (at? rest 0) = false) : digitCount (s ++ rest) = w := by
  rw [(digits_span h.digits hr 0).1, h.width]

theorem count_column {w p v : Nat} {s : List Nat} (h : Column w p v s) : digitCount s = p := by
  have := (column_digits h [] rfl).1
  rwa [List.append_nil] at this

theorem packedTail_digits {ds rest : List Nat} (hd : AllDigits ds) (hr : isDigit (at? rest 0) = false) (k : Nat) (hk : ds.length ≤ k)
    (x : ℚ) : packedTail k (ds ++ rest) x = (value ds : ℚ) / 10 ^ ds.length * x := by
  induction ds generalizing k x with
  | nil =>
    cases k with
    | zero => simp [packedTail, value]
    | succ k => simp [packedTail, hr, value]
  | cons c ds ih =>
    cases k with
    | zero => simp at hk
    | succ k =>
      have hc := hd c (by simp)
      have h0 : at? (c :: ds ++ rest) 0 = c := rfl
      have h1 : (c :: ds ++ rest).drop 1 = ds ++ rest := rfl
      rw [packedTail, h0, h1, if_pos (digit_true hc)]
      simp only
      rw [ih (fun x hx => hd x (by simp [hx])) k (by simpa using hk)]
      rw [value_cons, List.length_cons, Nat.cast_add, Nat.cast_mul, Nat.cast_sub hc.1]
      push_cast
      field_simp
      ring

/-- The value of a packed angle before its digits are taken apart. -/
theorem quick_packed {n p v : Nat} {s f : List Nat} (h : Padded 6 n s) (hf : Column 6 p v f) (hb : n * 10 ^ p + v ≤ INT_MAX) :
    quickAtof (s ++ f) = .ok ((n * 10 ^ p + v : Nat) : ℚ) := by
  obtain ⟨ds, hd, hp, rfl⟩ := hf
  have hv : value (s ++ ds) = n * 10 ^ p + v := by rw [value_append, h.value, hd.value, hd.width]
  have hs := column_stops 6 p
  have hq := C73_integer (.none 0) (ds := s ++ ds) (rest := List.replicate (6 - p) 32) (by
    intro c hc
    rcases List.mem_append.1 hc with hc | hc
    · exact h.digits c hc
    · exact hd.digits c hc) (by
    have := padded_ne h
    simp [this]) hs.1 hs.2.1 (by rw [hv]; exact hb)
  rw [List.replicate_zero, List.nil_append, List.append_assoc] at hq
  unfold quickAtof
  rw [hq, hv, signed_false]
  rfl

theorem value_six {a b c : List Nat} {z m s : Nat} (h1 : Padded 2 z a) (h2 : Padded 2 m b) (h3 : Padded 2 s c) :
    Padded 6 (z * 10000 + m * 100 + s) (a ++ (b ++ c)) := by
  refine ⟨?_, ?_, by simp [h1.width, h2.width, h3.width]⟩
  · intro x hx
    rcases List.mem_append.1 hx with hx | hx
    · exact h1.digits x hx
    · rcases List.mem_append.1 hx with hx | hx
      · exact h2.digits x hx
      · exact h3.digits x hx
  · rw [value_append, value_append, h1.value, h2.value, h3.value, List.length_append, h2.width, h3.width]
    omega

theorem angle_packed {z m s p v : Nat} {zz mm ss f : List Nat} (h1 : Padded 2 z zz) (h2 : Padded 2 m mm) (h3 : Padded 2 s ss)
    (h4 : Column 6 p v f) (hp : 2 ≤ p) (hb : (z * 10000 + m * 100 + s) * 10 ^ p + v ≤ INT_MAX) (isDec : Bool) :
    angle isDec (zz ++ (mm ++ (ss ++ f))) =
      .ok ((z : ℚ) + (m : ℚ) / 60 + ((s : ℚ) + (v : ℚ) / 10 ^ p) / 3600, 306 + (p : Int), 1 / 10 ^ p) := by
  have h6 := value_six h1 h2 h3
  have hq := quick_packed h6 h4 hb
  have e : zz ++ (mm ++ (ss ++ f)) = (zz ++ (mm ++ ss)) ++ f := by simp
  have hm := padded_lt h2
  have hs := padded_lt h3
  have hi : digitCount ((zz ++ (mm ++ ss)) ++ f) = 6 + p := by
    rw [digitCount_append _ _ h6.digits, h6.width, count_column h4]
  have ht : ((zz ++ (mm ++ ss)) ++ f).take 6 = zz ++ (mm ++ ss) := by
    rw [← h6.width, List.take_left]
  have hd : ((zz ++ (mm ++ ss)) ++ f).drop 6 = f := by
    rw [← h6.width, List.drop_left]
  have htail : packedTail 6 f (1 / 3600) = (v : ℚ) / 10 ^ p * (1 / 3600) := by
    obtain ⟨ds, hds, hp6, rfl⟩ := h4
    rw [packedTail_digits hds.digits (column_stops 6 p).1 6 (by rw [hds.width]; exact hp6), hds.value, hds.width]
  rw [e]
  unfold angle
  rw [hq, hi, ht, hd, htail, readDigits_eq _ h6.digits, h6.value]
  simp only [Outcome.bind]
  rw [if_pos (by omega)]
  have e1 : (z * 10000 + m * 100 + s) / 10000 = z := by omega
  have e2 : (z * 10000 + m * 100 + s) / 100 % 100 = m := by omega
  have e3 : (z * 10000 + m * 100 + s) % 100 = s := by omega
  rw [e1, e2, e3, show 6 + p - 6 = p by omega]
  congr 2
  · ring
  · push_cast
    congr 1
    ring

/-- What is read for the twelve bytes of an angle. -/
theorem angle_reads {ra : Bool} {t : List Nat} {x : ℚ} {code : Int} {prec : ℚ} (h : AngleField ra t x code prec)
    (h310 : code < 310 ∨ 400 ≤ code) (h307 : code ≠ 307) : angle (!ra) t = .ok (x, code, prec) := by
  cases h with
  | @seconds z m s p v zz mm ss f h1 h2 h3 h4 =>
    have q1 := quick_whole (rest := 32 :: (mm ++ 32 :: (ss ++ 46 :: f))) h1 (by omega) rfl (by simp [at?])
    have q2 := quick_whole (rest := 32 :: (ss ++ 46 :: f)) h2 (by omega) rfl (by simp [at?])
    have q3 := quick_column h3 (by omega) h4 (by omega)
    have hi := count_padded (rest := 32 :: (mm ++ 32 :: (ss ++ 46 :: f))) h1 rfl
    have hn := count_column h4
    obtain ⟨a, b, rfl, -, -, -⟩ := padded_two h1
    obtain ⟨c, d, rfl, hc, -, -⟩ := padded_two h2
    obtain ⟨e, g, rfl, he, hg, -⟩ := padded_two h3
    simp only [List.cons_append, List.nil_append] at q1 q2 q3 hi ⊢
    unfold angle
    rw [q1, hi]
    simp only [Outcome.bind]
    rw [if_neg (by omega), if_neg (by simp [at?]), if_neg (by simp [at?]; omega), if_pos (by simp [at?])]
    simp only [List.drop_succ_cons, List.drop_zero, q2]
    rw [if_pos (by simp [at?, digit_true hg]), q3, hn]
  | @wholeSeconds z m s zz mm ss h1 h2 h3 =>
    have q1 := quick_whole (rest := 32 :: (mm ++ 32 :: (ss ++ List.replicate 4 32))) h1 (by omega) rfl (by simp [at?])
    have q2 := quick_whole (rest := 32 :: (ss ++ List.replicate 4 32)) h2 (by omega) rfl (by simp [at?])
    have q3 := quick_whole (rest := List.replicate 4 32) h3 (by omega) rfl (by simp [at?])
    have hi := count_padded (rest := 32 :: (mm ++ 32 :: (ss ++ List.replicate 4 32))) h1 rfl
    obtain ⟨a, b, rfl, -, -, -⟩ := padded_two h1
    obtain ⟨c, d, rfl, hc, -, -⟩ := padded_two h2
    obtain ⟨e, g, rfl, he, hg, -⟩ := padded_two h3
    simp only [List.cons_append, List.nil_append] at q1 q2 q3 hi ⊢
    unfold angle
    rw [q1, hi]
    simp only [Outcome.bind]
    rw [if_neg (by omega), if_neg (by simp [at?]), if_neg (by simp [at?]; omega), if_pos (by simp [at?])]
    simp only [List.drop_succ_cons, List.drop_zero, q2]
    have hn : digitCount ((List.replicate 4 32).drop 1) = 0 := rfl
    have hn' : digitCount (List.drop 1 (List.replicate 4 32)) = 0 := rfl
    rw [if_pos (by simp [at?, digit_true hg]), q3]
    simp only [hn]
    simp
  | @minutes z m p v zz mm f h1 h2 h3 =>
    have q1 := quick_whole (rest := 32 :: (mm ++ 46 :: f)) h1 (by omega) rfl (by simp [at?])
    have q2 := quick_column h2 (by omega) h3 (by omega)
    have hi := count_padded (rest := 32 :: (mm ++ 46 :: f)) h1 rfl
    have hn := count_column h3
    obtain ⟨a, b, rfl, -, -, -⟩ := padded_two h1
    obtain ⟨c, d, rfl, hc, -, -⟩ := padded_two h2
    simp only [List.cons_append, List.nil_append] at q1 q2 hi ⊢
    unfold angle
    rw [q1, hi]
    simp only [Outcome.bind]
    rw [if_neg (by omega), if_neg (by simp [at?]), if_neg (by simp [at?]; omega), if_pos (by simp [at?])]
    simp only [List.drop_succ_cons, List.drop_zero, q2]
    rw [if_neg (by simp [at?]), hn]
  | @wholeMinutes z m zz mm h1 h2 =>
    have q1 := quick_whole (rest := 32 :: (mm ++ List.replicate 7 32)) h1 (by omega) rfl (by simp [at?])
    have q2 := quick_whole (rest := List.replicate 7 32) h2 (by omega) rfl (by simp [at?])
    have hi := count_padded (rest := 32 :: (mm ++ List.replicate 7 32)) h1 rfl
    obtain ⟨a, b, rfl, -, -, -⟩ := padded_two h1
    obtain ⟨c, d, rfl, hc, -, -⟩ := padded_two h2
    simp only [List.cons_append, List.nil_append] at q1 q2 hi ⊢
    unfold angle
    rw [q1, hi]
    simp only [Outcome.bind]
    rw [if_neg (by omega), if_neg (by simp [at?]), if_neg (by simp [at?]; omega), if_pos (by simp [at?])]
    simp only [List.drop_succ_cons, List.drop_zero, q2]
    have hn : digitCount (List.drop 1 (List.replicate 7 32)) = 0 := rfl
    have h32 : isDigit 32 = false := rfl
    rw [if_neg (by simp [at?, List.replicate, h32])]
    simp only [hn]
    simp
  | @decimal z p v zz f h1 h2 =>
    have q1 := quick_column h1 (by omega) h2 (by omega)
    have hi := count_padded (rest := 46 :: f) h1 rfl
    have hn := count_column h2
    obtain ⟨a, b, rfl, -, -, -⟩ := padded_two h1
    simp only [List.cons_append, List.nil_append] at q1 hi ⊢
    unfold angle
    rw [q1, hi]
    simp only [Outcome.bind]
    rw [if_neg (by omega), if_pos (by simp [at?])]
    simp only [List.drop_succ_cons, List.drop_zero, hn]
  | @degrees d p v dd f hra h1 h2 =>
    have q1 := quick_column h1 (by omega) h2 (by omega)
    have hi := count_padded (rest := 46 :: f) h1 rfl
    have hn := count_column h2
    obtain ⟨a, b, c, rfl, -, -, hc⟩ := padded_three h1
    simp only [List.cons_append, List.nil_append] at q1 hi ⊢
    unfold angle
    rw [q1, hi]
    simp only [Outcome.bind]
    rw [if_neg (by omega), if_neg (by simp [at?]; omega), if_pos (by simp [at?])]
    simp only [List.drop_succ_cons, List.drop_zero, hn]
  | @packed z m s p v zz mm ss f h1 h2 h3 h4 hp =>
    have hz := padded_lt h1
    have hm := padded_lt h2
    have hs := padded_lt h3
    have hv : v < 10 ^ p := by
      obtain ⟨ds, hds, -, -⟩ := h4
      exact padded_lt hds
    refine angle_packed h1 h2 h3 h4 (by omega) ?_ _
    have hp6 : p ≤ 6 := by obtain ⟨ds, -, h, -⟩ := h4; exact h
    have hpow : 10 ^ p ≤ 10 ^ 3 := Nat.pow_le_pow_right (by omega) (by omega)
    have : (z * 10000 + m * 100 + s) * 10 ^ p ≤ 999999 * 10 ^ p := Nat.mul_le_mul_right _ (by omega)
    unfold INT_MAX
    omega
  | @degreeSeconds d m s p v dd mm ss f hra h1 h2 h3 h4 =>
    have q1 := quick_whole (rest := 32 :: (mm ++ 32 :: (ss ++ 46 :: f))) h1 (by omega) rfl (by simp [at?])
    have q2 := quick_whole (rest := 32 :: (ss ++ 46 :: f)) h2 (by omega) rfl (by simp [at?])
    have q3 := quick_column h3 (by omega) h4 (by omega)
    have hi := count_padded (rest := 32 :: (mm ++ 32 :: (ss ++ 46 :: f))) h1 rfl
    have hn := count_column h4
    obtain ⟨a, b, x, rfl, -, -, hx⟩ := padded_three h1
    obtain ⟨c, d, rfl, hc, -, -⟩ := padded_two h2
    obtain ⟨e, g, rfl, he, hg, -⟩ := padded_two h3
    simp only [List.cons_append, List.nil_append] at q1 q2 q3 hi ⊢
    unfold angle
    rw [q1, hi]
    simp only [Outcome.bind]
    rw [if_neg (by omega), if_neg (by simp [at?]; omega), if_neg (by simp [at?]), if_neg (by simp [at?]), if_pos (by simp [at?, hra])]
    simp only [List.drop_succ_cons, List.drop_zero, q2, q3, hn]
    congr 2
    ring
  | @wholeDegreeSeconds d m s dd mm ss hra h1 h2 h3 =>
    have q1 := quick_whole (rest := 32 :: (mm ++ 32 :: (ss ++ List.replicate 3 32))) h1 (by omega) rfl (by simp [at?])
    have q2 := quick_whole (rest := 32 :: (ss ++ List.replicate 3 32)) h2 (by omega) rfl (by simp [at?])
    have q3 := quick_whole (rest := List.replicate 3 32) h3 (by omega) rfl (by simp [at?])
    have hi := count_padded (rest := 32 :: (mm ++ 32 :: (ss ++ List.replicate 3 32))) h1 rfl
    obtain ⟨a, b, x, rfl, -, -, hx⟩ := padded_three h1
    obtain ⟨c, d, rfl, hc, -, -⟩ := padded_two h2
    obtain ⟨e, g, rfl, he, hg, -⟩ := padded_two h3
    simp only [List.cons_append, List.nil_append] at q1 q2 q3 hi ⊢
    unfold angle
    rw [q1, hi]
    simp only [Outcome.bind]
    rw [if_neg (by omega), if_neg (by simp [at?]; omega), if_neg (by simp [at?]), if_neg (by simp [at?]), if_pos (by simp [at?, hra])]
    have hn : digitCount (List.drop 1 (List.replicate 3 32)) = 0 := rfl
    simp only [List.drop_succ_cons, List.drop_zero, q2, q3, hn]
    congr 2
    · ring
    · simp

theorem angleField_length {ra : Bool} {t : List Nat} {x : ℚ} {code : Int} {prec : ℚ} (h : AngleField ra t x code prec) :
    t.length = 12 := by
  cases h with
  | seconds h1 h2 h3 h4 => simp [h1.width, h2.width, h3.width, column_length h4]
  | wholeSeconds h1 h2 h3 => simp [h1.width, h2.width, h3.width]
  | minutes h1 h2 h3 => simp [h1.width, h2.width, column_length h3]
  | wholeMinutes h1 h2 => simp [h1.width, h2.width]
  | decimal h1 h2 => simp [h1.width, column_length h2]
  | degrees _ h1 h2 => simp [h1.width, column_length h2]
  | packed h1 h2 h3 h4 => simp [h1.width, h2.width, h3.width, column_length h4]
  | degreeSeconds _ h1 h2 h3 h4 => simp [h1.width, h2.width, h3.width, column_length h4]
  | wholeDegreeSeconds _ h1 h2 h3 => simp [h1.width, h2.width, h3.width]

theorem angleField_digit {ra : Bool} {t : List Nat} {x : ℚ} {code : Int} {prec : ℚ} (h : AngleField ra t x code prec) :
    48 ≤ at? t 0 ∧ at? t 0 ≤ 57 := by
  cases h with
  | seconds h1 h2 h3 h4 => exact digits_head h1.digits (padded_ne h1)
  | wholeSeconds h1 h2 h3 => exact digits_head h1.digits (padded_ne h1)
  | minutes h1 h2 h3 => exact digits_head h1.digits (padded_ne h1)
  | wholeMinutes h1 h2 => exact digits_head h1.digits (padded_ne h1)
  | decimal h1 h2 => exact digits_head h1.digits (padded_ne h1)
  | degrees _ h1 h2 => exact digits_head h1.digits (padded_ne h1)
  | packed h1 h2 h3 h4 => exact digits_head h1.digits (padded_ne h1)
  | degreeSeconds _ h1 h2 h3 h4 => exact digits_head h1.digits (padded_ne h1)
  | wholeDegreeSeconds _ h1 h2 h3 => exact digits_head h1.digits (padded_ne h1)

theorem take_at {s t : List Nat} {k i : Nat} (h : s.take k = t) (hi : i < k) : at? s i = at? t i := by
  unfold at?
  rw [← h, List.getD_eq_getElem?_getD, List.getD_eq_getElem?_getD, List.getElem?_take, if_pos hi]

theorem getRaDec_unsigned {s t : List Nat} (ht : s.take 12 = t) (hl : t.length = 12) (h0 : at? t 0 ≠ 43) (h0' : at? t 0 ≠ 45) :
    getRaDec s = angle false t := by
  have h1 := take_at (i := 0) ht (by omega)
  have hlen : 12 ≤ s.length := by rw [← ht, List.length_take] at hl; omega
  unfold getRaDec
  simp only [h1, h0, h0', or_self, decide_false, Bool.false_eq_true, if_false]
  rw [if_neg (by omega), ht]
  cases angle false t <;> rfl

theorem getRaDec_signed {c : Nat} {s t : List Nat} (hc : c = 43 ∨ c = 45) (ht : s.take 12 = t) (hl : t.length = 12) :
    getRaDec (c :: s) = (angle true t).bind fun r => .ok (signed (c == 45) r.1, r.2) := by
  have hlen : 12 ≤ s.length := by rw [← ht, List.length_take] at hl; omega
  have h0 : at? (c :: s) 0 = c := rfl
  unfold getRaDec
  simp only [h0]
  have : (decide (c = 45 ∨ c = 43)) = true := by simpa using hc.symm
  rw [this]
  simp only [if_true, List.drop_succ_cons, List.drop_zero]
  rw [if_neg (by omega), ht]
  unfold signed
  simp

/-- C72: a right ascension in any of the documented formats is read as its value in hours, with the number of the format
    and the precision.  (The format with seven digits, and those with ten to twelve, follow.) -/
theorem C72_ra {s t : List Nat} {x : ℚ} {code : Int} {prec : ℚ} (h : AngleField true t x code prec) (ht : s.take 12 = t)
    (h310 : code < 310 ∨ 400 ≤ code) (h307 : code ≠ 307) : getRaDec s = .ok (x, code, prec) := by
  have := angleField_digit h
  rw [getRaDec_unsigned ht (angleField_length h) (by omega) (by omega)]
  exact angle_reads h h310 h307

/-- C72: the same for declinations, in degrees. -/
theorem C72_dec {c : Nat} {s t : List Nat} {x : ℚ} {code : Int} {prec : ℚ} (h : AngleField false t x code prec) (hc : c = 43 ∨ c = 45)
    (ht : s.take 12 = t) (h310 : code < 310 ∨ 400 ≤ code) (h307 : code ≠ 307) :
    getRaDec (c :: s) = .ok (signed (c == 45) x, code, prec) := by
  have e : angle true t = .ok (x, code, prec) := angle_reads h h310 h307
  rw [getRaDec_signed hc ht (angleField_length h), e]
  rfl

/-- C72: ten to twelve digits are read if they make up a number that an `int` holds. -/
theorem C72_packed {z m s p v : Nat} {zz mm ss f line : List Nat} (h1 : Padded 2 z zz) (h2 : Padded 2 m mm) (h3 : Padded 2 s ss)
    (h4 : Column 6 p v f) (hp : 2 ≤ p) (ht : line.take 12 = zz ++ (mm ++ (ss ++ f)))
    (hb : (z * 10000 + m * 100 + s) * 10 ^ p + v < 2 ^ 31) :
    getRaDec line = .ok ((z : ℚ) + (m : ℚ) / 60 + ((s : ℚ) + (v : ℚ) / 10 ^ p) / 3600, 306 + (p : Int), 1 / 10 ^ p) := by
  have h := AngleField.packed (ra := true) h1 h2 h3 h4 (by omega)
  have := angleField_digit h
  rw [getRaDec_unsigned ht (angleField_length h) (by omega) (by omega)]
  exact angle_packed h1 h2 h3 h4 hp (by unfold INT_MAX; omega) _

/-- **Finding** (C72): otherwise an `int` overflows, for instance in every right ascension to the microsecond, a documented
    format. -/
theorem C72_packed_overflow {z m s p v : Nat} {zz mm ss f line : List Nat} (h1 : Padded 2 z zz) (h2 : Padded 2 m mm)
    (h3 : Padded 2 s ss) (h4 : Column 6 p v f) (hp : 1 ≤ p) (ht : line.take 12 = zz ++ (mm ++ (ss ++ f)))
    (hb : 2 ^ 31 ≤ (z * 10000 + m * 100 + s) * 10 ^ p + v) : getRaDec line = .ub := by
  have h := AngleField.packed (ra := true) h1 h2 h3 h4 hp
  have := angleField_digit h
  rw [getRaDec_unsigned ht (angleField_length h) (by omega) (by omega)]
  have h6 := value_six h1 h2 h3
  obtain ⟨ds, hd, hp6, rfl⟩ := h4
  have hv : value ((zz ++ (mm ++ ss)) ++ ds) = (z * 10000 + m * 100 + s) * 10 ^ p + v := by
    rw [value_append, h6.value, hd.value, hd.width]
  have hq := C73_too_large (.none 0) (ds := (zz ++ (mm ++ ss)) ++ ds) (rest := List.replicate (6 - p) 32) (by
    intro c hc
    rcases List.mem_append.1 hc with hc | hc
    · exact h6.digits c hc
    · exact hd.digits c hc) (column_stops 6 p).1 (by rw [hv]; unfold INT_MAX; omega)
  have e : zz ++ (mm ++ (ss ++ (ds ++ List.replicate (6 - p) 32))) =
      List.replicate 0 32 ++ ((zz ++ (mm ++ ss)) ++ ds ++ List.replicate (6 - p) 32) := by simp
  unfold angle quickAtof
  rw [e, hq]
  rfl

/-- **Finding** (C72): the documented format with seven digits is not recognised. -/
theorem C72_seven_digits {z m s v : Nat} {zz mm ss f line : List Nat} (h1 : Padded 2 z zz) (h2 : Padded 2 m mm)
    (h3 : Padded 2 s ss) (h4 : Column 6 1 v f) (ht : line.take 12 = zz ++ (mm ++ (ss ++ f))) :
    getRaDec line = .ok ((((z * 10000 + m * 100 + s) * 10 + v : Nat) : ℚ), -99, 1) := by
  have h := AngleField.packed (ra := true) h1 h2 h3 h4 (by omega)
  have := angleField_digit h
  rw [getRaDec_unsigned ht (angleField_length h) (by omega) (by omega)]
  have h6 := value_six h1 h2 h3
  have hz := padded_lt h6
  have hv : v < 10 ^ 1 := by
    obtain ⟨ds, hds, -, -⟩ := h4
    exact padded_lt hds
  have hq := quick_packed h6 h4 (by unfold INT_MAX; omega)
  have hi : digitCount ((zz ++ (mm ++ ss)) ++ f) = 7 := by
    rw [digitCount_append _ _ h6.digits, h6.width, count_column h4]
  have e : zz ++ (mm ++ (ss ++ f)) = (zz ++ (mm ++ ss)) ++ f := by simp
  rw [← e] at hq hi
  unfold angle
  rw [hq, hi]
  obtain ⟨a, b, rfl, -, -, -⟩ := padded_two h1
  obtain ⟨c, d, rfl, hc, hd, -⟩ := padded_two h2
  simp only [Outcome.bind]
  rw [if_neg (by omega), if_neg (by simp [at?]; omega), if_neg (by simp [at?]; omega), if_neg (by omega), if_neg (by omega)]
  rw [pow_one]
  rfl

/-- C72: nothing at all is reported as such. -/
theorem C72_blank {s : List Nat} (ht : s.take 12 = List.replicate 12 32) : getRaDec s = .ok (0, -99, 1) := by
  rw [getRaDec_unsigned ht (by simp) (by decide) (by decide)]
  have : quickAtof (List.replicate 12 32) = .ok 0 := by
    have := C73_no_number (.none 12) (rest := []) rfl (by decide) (by decide) (by decide) (by decide)
    rw [List.append_nil] at this
    unfold quickAtof
    rw [this]
    rfl
  unfold angle
  rw [this]
  rfl

/-- C72: both angles of an observation, and the value returned: 0 if both were understood, less 1 for a right ascension and
    less 2 for a declination that was not. -/
theorem C72_report {line : List Nat} {ra dec : ℚ × Int × ℚ} (h1 : getRaDec (line.drop 32) = .ok ra) (h2 : getRaDec (line.drop 44) = .ok dec) :
    ∃ code, getRaDecReport line = .ok (code, ra, dec) ∧
      (code = 0 ↔ ra.2.1 ≠ -99 ∧ dec.2.1 ≠ -99) ∧ (code = -1 ↔ ra.2.1 = -99 ∧ dec.2.1 ≠ -99) ∧
      (code = -2 ↔ ra.2.1 ≠ -99 ∧ dec.2.1 = -99) ∧ (code = -3 ↔ ra.2.1 = -99 ∧ dec.2.1 = -99) := by
  unfold getRaDecReport
  rw [h1, h2]
  refine ⟨_, rfl, ?_⟩
  unfold BAD_FMT
  split_ifs with a b b <;> simp [a, b]

example : ∃ r, getRaDecReport sampleLine = .ok (0, r) := by
  have p (w n : Nat) (s : String) (h1 : (bytes s).length = w) (h2 : ∀ c ∈ bytes s, 48 ≤ c ∧ c ≤ 57) (h3 : value (bytes s) = n) :
      Padded w n (bytes s) := padded_of h1 h2 h3
  have a := AngleField.seconds (ra := true) (p 2 10 "10" (by decide +kernel) (by decide +kernel) (by decide +kernel))
    (p 2 20 "20" (by decide +kernel) (by decide +kernel) (by decide +kernel))
    (p 2 30 "30" (by decide +kernel) (by decide +kernel) (by decide +kernel))
    ⟨bytes "45", p 2 45 "45" (by decide +kernel) (by decide +kernel) (by decide +kernel), by omega, rfl⟩
  have b := AngleField.seconds (ra := false) (p 2 11 "11" (by decide +kernel) (by decide +kernel) (by decide +kernel))
    (p 2 22 "22" (by decide +kernel) (by decide +kernel) (by decide +kernel))
    (p 2 33 "33" (by decide +kernel) (by decide +kernel) (by decide +kernel))
    ⟨bytes "4", p 1 4 "4" (by decide +kernel) (by decide +kernel) (by decide +kernel), by omega, rfl⟩
  have ha := C72_ra (s := sampleLine.drop 32) a (by decide +kernel) (by omega) (by omega)
  have hb := C72_dec (c := 43) (s := sampleLine.drop 45) b (Or.inl rfl) (by decide +kernel) (by omega) (by omega)
  obtain ⟨code, h1, h2, -⟩ := C72_report ha (by rw [show sampleLine.drop 44 = 43 :: sampleLine.drop 45 by decide +kernel]; exact hb)
  rw [h2.2 (by simp)] at h1
  exact ⟨_, h1⟩

end Verif.Props
