import Verif.Props.ShowElemText
import Verif.Props.Csv
import Verif.Props.Calendars

/-!
# Property theorems: the line about the epoch of orbital elements (C98)
-/

namespace Verif.Props

open Verif Verif.Spec Verif.ShowElem Verif.Date

theorem roundEven_shift (x : ℝ) (m : Int) : Time.roundEven (x + 2 * m) = Time.roundEven x + 2 * m := by
  have hf : ⌊x + 2 * m⌋ = ⌊x⌋ + 2 * m := by
    have := Int.floor_add_intCast x (2 * m)
    push_cast at this
    exact this
  have hd : x + 2 * m - ((⌊x⌋ + 2 * m : Int) : ℝ) = x - ⌊x⌋ := by push_cast; ring
  unfold Time.roundEven
  rw [hf, hd]
  split_ifs <;> omega

/-- Zeroes at the end of a text. -/
theorem trailing {fs pre : List Nat} (hl : fs.length = 6) :
    ∃ i, i = min 5 ((pre ++ 46 :: fs).reverse.takeWhile (· == 48)).length ∧ i ≤ 5 ∧ fs = fs.take (6 - i) ++ List.replicate i 48 ∧
      (i < 5 → ∃ t c, fs.take (6 - i) = t ++ [c] ∧ c ≠ 48) := by
  have key : ∀ r : List Nat, r = fs.reverse → ((pre ++ 46 :: fs).reverse.takeWhile (· == 48)) = r.takeWhile (· == 48) := by
    rintro r rfl
    rw [List.reverse_append, List.reverse_cons, List.append_assoc, List.takeWhile_append]
    split_ifs with h
    · simp only [List.cons_append, List.nil_append, List.takeWhile_cons]
      have : fs.reverse.takeWhile (· == 48) = fs.reverse := (List.takeWhile_prefix _).eq_of_length h
      simp [this]
    · rfl
  rw [key fs.reverse rfl]
  obtain ⟨a, b, c, d, e, f, rfl⟩ : ∃ a b c d e f, fs = [a, b, c, d, e, f] := by
    match fs, hl with
    | [a, b, c, d, e, f], _ => exact ⟨a, b, c, d, e, f, rfl⟩
  refine ⟨_, rfl, by omega, ?_⟩
  simp only [List.reverse_cons, List.reverse_nil, List.nil_append, List.cons_append]
  by_cases h1 : f = 48
  · by_cases h2 : e = 48
    · by_cases h3 : d = 48
      · by_cases h4 : c = 48
        · by_cases h5 : b = 48
          · by_cases h6 : a = 48 <;> simp [h1, h2, h3, h4, h5, h6, List.replicate]
          · simp [h1, h2, h3, h4, h5, List.replicate]
            exact ⟨[a], b, rfl, h5⟩
        · simp [h1, h2, h3, h4, List.replicate]
          exact ⟨[a, b], c, rfl, h4⟩
      · simp [h1, h2, h3, List.replicate]
        exact ⟨[a, b, c], d, rfl, h3⟩
    · simp [h1, h2]
      exact ⟨[a, b, c, d], e, rfl, h2⟩
  · simp [h1]
    exact ⟨[a, b, c, d, e], f, rfl, h1⟩

/-- The mark is found where it was put. -/
theorem find_mark {pre rest : List Nat} (h : 61 ∉ pre) :
    Multipart.findSub (bytes " TT =") (pre ++ (bytes " TT =" ++ rest)) = some (bytes " TT =" ++ rest) := by
  have hb : bytes " TT =" = [32, 84, 84, 32, 61] := by decide +kernel
  rw [hb]
  rw [find_out]
  · simp [Multipart.findSub]
  · intro a b hab hne hp
    have h61 : 61 ∉ b := fun hc => h (by rw [hab]; simp [hc])
    match b, hne with
    | [c1], _ => simp at hp
    | [c1, c2], _ => simp at hp
    | [c1, c2, c3], _ => simp at hp
    | [c1, c2, c3, c4], _ => simp at hp
    | c1 :: c2 :: c3 :: c4 :: c5 :: b, _ =>
      simp at hp
      apply h61
      simp [← hp.2.2.2.2]

/-- The zeroes are taken off. -/
theorem lopZeroes_eq {pre fs js gs : List Nat} (hpre : 61 ∉ pre) (hf : AllDigits fs) (hfl : fs.length = 6) (hgl : gs.length = 6) :
    ∃ i, i ≤ 5 ∧ gs = gs.take (6 - i) ++ List.replicate i 48 ∧ (i < 5 → ∃ t c, gs.take (6 - i) = t ++ [c] ∧ c ≠ 48) ∧
      lopZeroes ((pre ++ 46 :: fs) ++ (bytes " TT = JDT " ++ (js ++ 46 :: gs))) =
        pre ++ 46 :: fs.take (6 - i) ++ (bytes " TT = JDT " ++ (js ++ 46 :: gs.take (6 - i))) := by
  obtain ⟨i, hi, hi5, hg, hlast⟩ := trailing (fs := gs) (pre := (pre ++ 46 :: fs) ++ (bytes " TT = JDT " ++ js)) hgl
  refine ⟨i, hi5, hg, hlast, ?_⟩
  have hb : bytes " TT = JDT " = bytes " TT =" ++ bytes " JDT " := by decide +kernel
  have hlen : (gs.take (6 - i)).length = 6 - i := by rw [List.length_take]; omega
  have cut : ((pre ++ 46 :: fs) ++ (bytes " TT = JDT " ++ (js ++ 46 :: gs))).take (((pre ++ 46 :: fs) ++ (bytes " TT = JDT " ++ (js ++ 46 :: gs))).length - i) =
      (pre ++ 46 :: fs) ++ (bytes " TT =" ++ (bytes " JDT " ++ (js ++ 46 :: gs.take (6 - i)))) := by
    have e : (pre ++ 46 :: fs) ++ (bytes " TT = JDT " ++ (js ++ 46 :: gs)) =
        ((pre ++ 46 :: fs) ++ (bytes " TT =" ++ (bytes " JDT " ++ (js ++ 46 :: gs.take (6 - i))))) ++ List.replicate i 48 := by
      conv_lhs => rw [hg]
      rw [hb]
      simp only [List.append_assoc, List.cons_append]
    conv_lhs => rw [e]
    rw [List.length_append, List.length_replicate, Nat.add_sub_cancel]
    exact List.take_left
  have no : 61 ∉ pre ++ 46 :: fs := by
    simp only [List.mem_append, List.mem_cons, not_or]
    refine ⟨hpre, by norm_num, fun h => ?_⟩
    have := hf 61 h
    omega
  have hi' : i = min 5 (((pre ++ 46 :: fs) ++ (bytes " TT = JDT " ++ (js ++ 46 :: gs))).reverse.takeWhile (· == 48)).length := by
    rw [hi]
    simp only [List.append_assoc]
  unfold lopZeroes
  simp only
  rw [← hi', cut, find_mark no]
  simp only
  rw [List.length_append, Nat.add_sub_cancel, List.take_append_of_le_length (by omega), List.drop_left]
  have e : (pre ++ 46 :: fs).length - i = pre.length + (6 - i + 1) := by
    rw [List.length_append, List.length_cons, hfl]
    omega
  rw [e, List.take_length_add_append, List.take_succ_cons, hb]
  simp only [List.append_assoc, List.cons_append]

theorem digits_zero {fs : List Nat} {i : Nat} (hi : i ≤ 5) (hl : fs.length = 6) (hf : AllDigits fs) (hz : value fs % 10 ^ i = 0) :
    value fs = value (fs.take (6 - i)) * 10 ^ i := by
  have hv := value_append (fs.take (6 - i)) (fs.drop (6 - i))
  have hdl : (fs.drop (6 - i)).length = i := by rw [List.length_drop]; omega
  rw [List.take_append_drop, hdl] at hv
  have hr : value (fs.drop (6 - i)) < 10 ^ i := by
    have := value_cons_lt (s := fs.drop (6 - i)) (fun c hc => hf c (List.mem_of_mem_drop hc))
    rwa [hdl] at this
  rw [hv, Nat.mul_add_mod_self_right, Nat.mod_eq_of_lt hr] at hz
  rw [hv, hz, Nat.add_zero]

theorem value_zeroes (t : List Nat) (i : Nat) : value (t ++ List.replicate i 48) = value t * 10 ^ i := by
  induction i generalizing t with
  | zero => simp
  | succ i ih =>
    have e : t ++ List.replicate (i + 1) 48 = (t ++ [48]) ++ List.replicate i 48 := by
      rw [List.replicate_succ, List.append_assoc]
      rfl
    have h1 : value (t ++ [48]) = value t * 10 := by
      rw [value_append]
      simp [value]
    rw [e, ih, h1, pow_succ]
    ring

set_option maxHeartbeats 1000000 in
/-- The line about the epoch: day of the month and Julian Date say the same, and differ from the epoch by what was rounded. -/
theorem C98_epoch {cal : Int → Cal} {room : Nat} {epoch : ℝ} (h0 : 0 ≤ epoch) (h1 : epoch ≤ 999999998) (hd : 1 ≤ (cal ⌊epoch + 1 / 2⌋).day)
    (hd' : (cal ⌊epoch + 1 / 2⌋).day ≤ 31) (hm : 61 ∉ (cal ⌊epoch + 1 / 2⌋).month) (hl : (cal ⌊epoch + 1 / 2⌋).month.length ≤ 20)
    (hy : |(cal ⌊epoch + 1 / 2⌋).year| < 10 ^ 10) (hr : 90 ≤ room) :
    ∃ line, epochLine cal room epoch = .ok line ∧ line.length < 90 ∧
      EpochSays epoch ⌊epoch + 1 / 2⌋ (cal ⌊epoch + 1 / 2⌋).day (cal ⌊epoch + 1 / 2⌋).month (cal ⌊epoch + 1 / 2⌋).year line := by
  generalize hj : ⌊epoch + 1 / 2⌋ = j at *
  generalize hc : cal j = c at *
  have fl1 := Int.floor_le (epoch + 1 / 2)
  have fl2 := Int.lt_floor_add_one (epoch + 1 / 2)
  rw [hj] at fl1 fl2
  have hday : decimalDay cal epoch = (c.day : ℝ) + (epoch + 1 / 2) - j := by
    unfold decimalDay
    rw [hj, hc]
  have dlo : (1 : ℝ) ≤ c.day := by exact_mod_cast hd
  have dhi : (c.day : ℝ) ≤ 31 := by exact_mod_cast hd'
  obtain ⟨a, ds, fs, e1, w1, d1, n1, d2, l2, v1⟩ := fmtW_parts (w := 9) (p := 6) (m := 1) (by norm_num) (by norm_num)
    (x := decimalDay cal epoch + 1 / 10 ^ 7) (by rw [hday]; norm_num; linarith) (by rw [hday]; norm_num; linarith)
  have hJ : 0 ≤ epoch + 1 / 10 ^ 7 := by positivity
  have ej := real_text (p := 6) (by norm_num) (epoch + 1 / 10 ^ 7)
  rw [if_neg (not_lt.2 hJ), List.nil_append] at ej
  obtain ⟨js, gs, e2, g1, g2, g3, g4, v2⟩ := point_parts 6 (realUnits 6 (epoch + 1 / 10 ^ 7)) (by norm_num)
  have shortJ : (Time.fmtFixed 6 (epoch + 1 / 10 ^ 7)).length ≤ 16 := by
    have hlt := realUnits_lt (p := 6) (m := 8 + 1) (x := epoch + 1 / 10 ^ 7) (by rw [abs_of_nonneg hJ]; norm_num; linarith)
    have := whole_short hlt
    have hp := (padded_pad (Nat.mod_lt (realUnits 6 (epoch + 1 / 10 ^ 7)) (by norm_num : 0 < 10 ^ 6)) (by norm_num)).width
    rw [ej, List.length_append, List.length_cons, hp]
    omega
  rw [e2] at ej
  have hyl : (decInt c.year).length ≤ 11 := by
    have hn : c.year.natAbs < 10 ^ (9 + 1) := by
      have : ((c.year.natAbs : Nat) : Int) < ((10 ^ (9 + 1) : Nat) : Int) := by
        rw [Int.natCast_natAbs]
        exact_mod_cast hy
      exact_mod_cast this
    have h1 := dec_length_le hn
    unfold decInt
    split_ifs with hneg
    · simp only [List.length_cons]
      omega
    · rw [show c.year.toNat = c.year.natAbs by omega]
      omega
  have text : epochText cal epoch = ((bytes "Epoch " ++ Time.fmtBlank 4 c.year ++ 32 :: c.month ++ 32 :: (List.replicate a 32 ++ ds)) ++ 46 :: fs) ++
      (bytes " TT = JDT " ++ (js ++ 46 :: gs)) := by
    unfold epochText
    rw [hj, hc, e1, ej]
    simp only [List.append_assoc, List.cons_append]
  have len : (epochText cal epoch).length < 90 := by
    have b1 : (bytes "Epoch ").length = 6 := by decide +kernel
    have b2 : (bytes " TT = JDT ").length = 10 := by decide +kernel
    unfold epochText
    rw [hj, hc]
    simp only [List.length_append, List.length_cons, w1, b1, b2, Time.fmtBlank, List.length_replicate]
    omega
  have no61 : 61 ∉ bytes "Epoch " ++ Time.fmtBlank 4 c.year ++ 32 :: c.month ++ 32 :: (List.replicate a 32 ++ ds) := by
    have hb : 61 ∉ bytes "Epoch " := by decide +kernel
    have hdec : ∀ n, 61 ∉ dec n := fun n h => by
      have := (numeral_dec n).digits 61 h
      omega
    have hyr : 61 ∉ decInt c.year := by
      unfold decInt
      split_ifs <;> simp [hdec]
    have hds : 61 ∉ ds := fun h => by
      have := d1 61 h
      omega
    have hrep : ∀ k, 61 ∉ List.replicate k 32 := fun k h => by
      have := List.eq_of_mem_replicate h
      omega
    simp only [Time.fmtBlank, List.mem_append, List.mem_cons, not_or]
    exact ⟨⟨⟨hb, hrep _, hyr⟩, by norm_num, hm⟩, by norm_num, hrep _, hds⟩
  obtain ⟨i, hi5, hg, hlast, run⟩ := lopZeroes_eq (js := js) no61 d2 l2 g4
  have hlenf : (fs.take (6 - i)).length = 6 - i := by rw [List.length_take]; omega
  have hleng : (gs.take (6 - i)).length = 6 - i := by rw [List.length_take]; omega
  -- the two numbers of units
  have N1 : (realUnits 6 (epoch + 1 / 10 ^ 7) : Int) = Time.roundEven ((epoch + 1 / 10 ^ 7) * 10 ^ 6) := by
    unfold realUnits
    rw [abs_of_nonneg hJ]
    exact Int.toNat_of_nonneg (roundEven_nonneg (by positivity))
  have hD : 0 ≤ decimalDay cal epoch + 1 / 10 ^ 7 := by rw [hday]; norm_num; linarith
  have N2 : (realUnits 6 (decimalDay cal epoch + 1 / 10 ^ 7) : Int) = realUnits 6 (epoch + 1 / 10 ^ 7) + 2 * ((c.day - j) * 500000 + 250000) := by
    rw [N1, ← roundEven_shift]
    unfold realUnits
    rw [abs_of_nonneg hD, Int.toNat_of_nonneg (roundEven_nonneg (by positivity)), hday]
    congr 1
    push_cast
    ring
  have z2 : value gs % 10 ^ i = 0 := by
    conv_lhs => rw [hg, value_zeroes]
    exact Nat.mul_mod_left _ _
  have p6 : (10 : Nat) ^ 6 = 10 ^ (6 - i) * 10 ^ i := by rw [← pow_add, show 6 - i + i = 6 by omega]
  have p5 : (10 : Nat) ^ 5 = 10 ^ (5 - i) * 10 ^ i := by rw [← pow_add, show 5 - i + i = 5 by omega]
  have z1 : value fs % 10 ^ i = 0 := by
    have dv : (10 ^ i : Nat) ∣ 10 ^ 5 := ⟨10 ^ (5 - i), by rw [p5, Nat.mul_comm]⟩
    have dv6 : (10 ^ i : Nat) ∣ 10 ^ 6 := ⟨10 ^ (6 - i), by rw [p6, Nat.mul_comm]⟩
    have d0 : (10 ^ i : Nat) ∣ value gs := Nat.dvd_of_mod_eq_zero z2
    have dN : (10 ^ i : Nat) ∣ realUnits 6 (epoch + 1 / 10 ^ 7) := by rw [← v2]; exact dvd_add (Dvd.dvd.mul_left dv6 _) d0
    have dN2 : (10 ^ i : Nat) ∣ realUnits 6 (decimalDay cal epoch + 1 / 10 ^ 7) := by
      have h1 : ((10 ^ i : Nat) : Int) ∣ realUnits 6 (decimalDay cal epoch + 1 / 10 ^ 7) := by
        rw [N2, show 2 * ((c.day - j) * 500000 + 250000) = ((10 ^ 5 : Nat) : Int) * ((c.day - j) * 10 + 5) by push_cast; ring]
        exact dvd_add (by exact_mod_cast dN) (Dvd.dvd.mul_right (by exact_mod_cast dv) _)
      exact_mod_cast h1
    rw [← v1] at dN2
    exact Nat.mod_eq_zero_of_dvd ((Nat.dvd_add_right (Dvd.dvd.mul_left dv6 _)).1 dN2)
  have V1 := digits_zero hi5 l2 d2 z1
  have V2 := digits_zero hi5 g4 g3 z2
  have U1 : realUnits 6 (decimalDay cal epoch + 1 / 10 ^ 7) = (value ds * 10 ^ (6 - i) + value (fs.take (6 - i))) * 10 ^ i := by
    rw [← v1, V1, p6]; ring
  have U2 : realUnits 6 (epoch + 1 / 10 ^ 7) = (value js * 10 ^ (6 - i) + value (gs.take (6 - i))) * 10 ^ i := by
    rw [← v2, V2, p6]; ring
  have run' : epochLine cal room epoch = .ok (lopZeroes (epochText cal epoch)) := by
    unfold epochLine put
    rw [if_pos (by omega)]
    rfl
  rw [text, run] at run'
  refine ⟨_, run', ?_, 6 - i, value ds * 10 ^ (6 - i) + value (fs.take (6 - i)), value js * 10 ^ (6 - i) + value (gs.take (6 - i)), 4 - (decInt c.year).length, a,
    decInt c.year, ds ++ 46 :: fs.take (6 - i), js ++ 46 :: gs.take (6 - i), ?_, ?_, by omega, by omega, ?_, ?_, ?_, ?_, ?_⟩
  · rw [text] at len
    simp only [List.length_append, List.length_cons, hlenf, hleng] at len ⊢
    omega
  · unfold Time.fmtBlank
    simp only [List.append_assoc, List.cons_append]
  · unfold decInt
    by_cases hneg : c.year < 0
    · rw [if_pos hneg]
      exact ⟨_, numeral_dec _, by rw [if_pos hneg]⟩
    · rw [if_neg hneg]
      exact ⟨_, numeral_dec _, by rw [if_neg hneg, show c.year.toNat = c.year.natAbs by omega]⟩
  · exact ⟨ds, _, rfl, d1, n1, fun x hx => d2 x (List.mem_of_mem_take hx), hlenf, rfl⟩
  · exact ⟨js, _, rfl, g1, g2, fun x hx => g3 x (List.mem_of_mem_take hx), hleng, rfl⟩
  · intro hk
    obtain ⟨t, x, ht, hx⟩ := hlast (by omega)
    have hxd := g3 x (by
      have : x ∈ gs.take (6 - i) := by rw [ht]; simp
      exact List.mem_of_mem_take this)
    have hv : value (gs.take (6 - i)) = value t * 10 + (x - 48) := by
      rw [ht, value_append]
      simp [value]
    have hp : (10 : Nat) ^ (6 - i) = 10 * 10 ^ (5 - i) := by rw [show 6 - i = 5 - i + 1 by omega, pow_succ]; ring
    rw [hv, hp]
    have : value js * (10 * 10 ^ (5 - i)) = 10 * (value js * 10 ^ (5 - i)) := by ring
    rw [this]
    omega
  · have near := realUnits_near 6 (epoch + 1 / 10 ^ 7)
    rw [abs_of_nonneg hJ, U2] at near
    have p6r : (10 : ℝ) ^ 6 = 10 ^ (6 - i) * 10 ^ i := by rw [← pow_add, show 6 - i + i = 6 by omega]
    generalize value js * 10 ^ (6 - i) + value (gs.take (6 - i)) = n at near ⊢
    have e : (n : ℝ) / 10 ^ (6 - i) = ((n * 10 ^ i : Nat) : ℝ) / 10 ^ 6 := by
      push_cast
      rw [p6r, mul_div_mul_right _ _ (by positivity)]
    rw [e]
    generalize ((n * 10 ^ i : Nat) : ℝ) = N at *
    obtain ⟨h1, h2⟩ := abs_le.1 near
    norm_num at h1 h2 ⊢
    rw [abs_le]
    constructor <;> linarith
  · have hp : (0 : Int) < 10 ^ i := by positivity
    have p6i : (10 : Int) ^ 6 = 10 ^ (6 - i) * 10 ^ i := by rw [← pow_add, show 6 - i + i = 6 by omega]
    rw [U1, U2] at N2
    generalize value ds * 10 ^ (6 - i) + value (fs.take (6 - i)) = m at N2 ⊢
    generalize value js * 10 ^ (6 - i) + value (gs.take (6 - i)) = n at N2 ⊢
    push_cast at N2
    have : 2 * (m : Int) * 10 ^ i = (2 * n + (2 * (c.day - j) + 1) * 10 ^ (6 - i)) * 10 ^ i := by
      rw [add_mul, mul_assoc (2 * (c.day - j) + 1), ← p6i]
      linarith
    exact Int.eq_of_mul_eq_mul_right hp.ne' this

theorem roman_days {leap : Prop} [Decidable leap] {i : Nat} {len : Int} (h : (romanMonths leap)[i]? = some len) : len ≤ 31 := by
  have := List.mem_of_getElem? h
  simp only [romanMonths, List.mem_cons, List.not_mem_nil, or_false] at this
  split_ifs at this <;> omega

/-- With the calendar of the library: day, month and year are those of the day on which the epoch falls. -/
theorem C98_calendar {cal : Int → Cal} {names : Int → List Nat} {room : Nat} {epoch : ℝ} (hn : ∀ m, 61 ∉ names m ∧ (names m).length ≤ 20)
    (hcal : ∀ j d m y, dayToDmyReturns j JULIAN_GREGORIAN ⟨d, some m, y⟩ → cal j = ⟨d, names m, y⟩) (h0 : 0 ≤ epoch) (h1 : epoch ≤ 999999998)
    (hy : |(cal ⌊epoch + 1 / 2⌋).year| < 10 ^ 10) (hr : 90 ≤ room) :
    ∃ line d m y, epochLine cal room epoch = .ok line ∧ EpochSays epoch ⌊epoch + 1 / 2⌋ d (names m) y line ∧
      ((⌊epoch + 1 / 2⌋ ≤ 2299160 ∧ julian.Exists d m y ∧ julian.dayNumber d m y = ⌊epoch + 1 / 2⌋) ∨
       (2299160 < ⌊epoch + 1 / 2⌋ ∧ gregorian.Exists d m y ∧ gregorian.dayNumber d m y = ⌊epoch + 1 / 2⌋)) := by
  obtain ⟨d, m, y, ret, -, hj, hg⟩ := C05_mixed_roundtrip ⌊epoch + 1 / 2⌋
  have hc := hcal _ _ _ _ ret
  have key : 1 ≤ d ∧ d ≤ 31 := by
    by_cases h : ⌊epoch + 1 / 2⌋ ≤ 2299160
    · obtain ⟨⟨-, h1, len, h2, h3⟩, -⟩ := hj h
      have := roman_days h2
      omega
    · obtain ⟨⟨-, h1, len, h2, h3⟩, -⟩ := hg (by omega)
      have := roman_days h2
      omega
  obtain ⟨line, run, -, hsays⟩ := C98_epoch (cal := cal) (room := room) h0 h1 (by rw [hc]; exact key.1) (by rw [hc]; exact key.2) (by rw [hc]; exact (hn m).1)
    (by rw [hc]; exact (hn m).2) hy hr
  rw [hc] at hsays
  refine ⟨line, d, m, y, run, hsays, ?_⟩
  by_cases h : ⌊epoch + 1 / 2⌋ ≤ 2299160
  · exact Or.inl ⟨h, (hj h).1, (hj h).2.1⟩
  · exact Or.inr ⟨by omega, (hg (by omega)).1, (hg (by omega)).2.1⟩

/-- Finding: an epoch less than 0.4 microdays before midnight is shown as the day after `d` at midnight, under the name of the month of `d`.
    On the last of January that is "Jan 32.0". -/
theorem C98_carry {δ : ℝ} {j d year : Int} {month line : List Nat} (h0 : 0 < δ) (h1 : δ < 4 / 10 ^ 7)
    (h : EpochSays (j + 1 / 2 - δ) j d month year line) :
    ∃ a b y day rest, line = bytes "Epoch " ++ List.replicate a 32 ++ y ++ 32 :: month ++ 32 :: List.replicate b 32 ++ day ++ bytes " TT = JDT " ++ rest ∧
      WholeText year y ∧ PointText 1 (10 * (d + 1)).toNat day := by
  obtain ⟨k, m, n, a, b, y, day, jd, e, hy, k1, k6, hday, hjd, trim, near, same⟩ := h
  refine ⟨a, b, y, day, jd, e, hy, ?_⟩
  have p6 : (10 : ℝ) ^ 6 = 10 ^ k * 10 ^ (6 - k) := by rw [← pow_add, show k + (6 - k) = 6 by omega]
  have hN : (n : Int) * 10 ^ (6 - k) = j * 10 ^ 6 + 500000 := by
    have e : (n : ℝ) / 10 ^ k = (((n : Int) * 10 ^ (6 - k) : Int) : ℝ) / 10 ^ 6 := by
      push_cast
      rw [p6, mul_div_mul_right _ _ (by positivity)]
    rw [e] at near
    generalize (n : Int) * 10 ^ (6 - k) = N at near ⊢
    obtain ⟨n1, n2⟩ := abs_le.1 near
    norm_num at n1 n2 h1
    have a1 : (N : ℝ) < ((j * 10 ^ 6 + 500001 : Int) : ℝ) := by push_cast; linarith
    have a2 : ((j * 10 ^ 6 + 499999 : Int) : ℝ) < (N : ℝ) := by push_cast; linarith
    have b1 : N < j * 10 ^ 6 + 500001 := by exact_mod_cast a1
    have b2 : j * 10 ^ 6 + 499999 < N := by exact_mod_cast a2
    omega
  obtain rfl : k = 1 := by
    by_contra hk
    have hk' : 1 < k := by omega
    refine trim hk' ?_
    obtain ⟨i, rfl⟩ : ∃ i, k = i + 2 := ⟨k - 2, by omega⟩
    have hi : i ≤ 4 := by omega
    have hN' : (n : Int) * 10 ^ (6 - (i + 2)) = (j * 10 ^ (i + 2) + 5 * 10 ^ (i + 1)) * 10 ^ (6 - (i + 2)) := by
      rw [hN, add_mul, mul_assoc, ← pow_add, mul_assoc, ← pow_add, show i + 2 + (6 - (i + 2)) = 6 by omega, show i + 1 + (6 - (i + 2)) = 5 by omega]
      norm_num
    have hn : (n : Int) = j * 10 ^ (i + 2) + 5 * 10 ^ (i + 1) := Int.eq_of_mul_eq_mul_right (by positivity) hN'
    have : (n : Int) = 10 * (j * 10 ^ (i + 1) + 5 * 10 ^ i) := by rw [hn]; ring
    omega
  have : m = (10 * (d + 1)).toNat := by
    norm_num at same hN
    omega
  rwa [this] at hday

/-- 31 January 2026 a tenth of a microday before midnight. -/
example : ∃ (cal : Int → Cal) (line : List Nat), epochLine cal 200 ((2461072 : Int) + 1 / 2 - 1 / 10 ^ 7) = .ok line ∧
    EpochSays ((2461072 : Int) + 1 / 2 - 1 / 10 ^ 7) 2461072 31 (bytes "Jan") 2026 line := by
  have hj : ⌊((2461072 : Int) : ℝ) + 1 / 2 - 1 / 10 ^ 7 + 1 / 2⌋ = 2461072 := by
    rw [Int.floor_eq_iff]
    norm_num
  have hb : bytes "Jan" = [74, 97, 110] := by decide +kernel
  have h := C98_epoch (cal := fun _ => ⟨31, bytes "Jan", 2026⟩) (room := 200) (epoch := (2461072 : Int) + 1 / 2 - 1 / 10 ^ 7) (by norm_num) (by norm_num)
    (by norm_num) (by norm_num) (by rw [hb]; decide) (by rw [hb]; decide) (by norm_num) (by norm_num)
  rw [hj] at h
  obtain ⟨line, run, -, hsays⟩ := h
  exact ⟨_, line, run, hsays⟩

end Verif.Props
