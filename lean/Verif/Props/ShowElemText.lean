import Verif.Model.ShowElem
import Verif.Spec.ShowElem
import Verif.Props.CtimeCount

/-!
# Lemmas for C98 and C99: numbers as text
-/

namespace Verif.Props

open Verif Verif.Spec Verif.ShowElem

/-- The number of units printed. -/
noncomputable def realUnits (p : Nat) (x : ℝ) : Nat := (Time.roundEven (|x| * 10 ^ p)).toNat

theorem realUnits_near (p : Nat) (x : ℝ) : |(realUnits p x : ℝ) - |x| * 10 ^ p| ≤ 1 / 2 := by
  obtain ⟨N, hN, -, hd⟩ := fmtFixed_written (K := ℝ) p x
  rw [show realUnits p x = N from hN.symm]
  exact hd

theorem real_text {p : Nat} (hp : 1 ≤ p) (x : ℝ) :
    Time.fmtFixed p x = (if x < 0 then [45] else []) ++ (dec (realUnits p x / 10 ^ p) ++ 46 :: pad p (realUnits p x % 10 ^ p)) := by
  unfold Time.fmtFixed realUnits
  simp only [if_neg (show p ≠ 0 by omega), List.append_assoc]

theorem point_parts (p N : Nat) (hp : 1 ≤ p) : PointText p N (dec (N / 10 ^ p) ++ 46 :: pad p (N % 10 ^ p)) := by
  have hd := numeral_dec (N / 10 ^ p)
  have hf := padded_pad (Nat.mod_lt N (by positivity : 0 < 10 ^ p)) (by omega)
  exact ⟨_, _, rfl, hd.digits, hd.nonempty, hf.digits, hf.width, by rw [hd.value, hf.value, Nat.div_add_mod']⟩

/-- The text has `m` digits before the point at most. -/
theorem whole_short {p m N : Nat} (h : N < 10 ^ (m + 1 + p)) : (dec (N / 10 ^ p)).length ≤ m + 1 := by
  have : N / 10 ^ p < 10 ^ (m + 1) := by
    apply Nat.div_lt_of_lt_mul
    rw [← pow_add, Nat.add_comm p]
    exact h
  exact dec_length_le this

theorem realUnits_lt {p m : Nat} {x : ℝ} (h : |x| ≤ 10 ^ m - 1) : realUnits p x < 10 ^ (m + p) := by
  have near := (abs_le.1 (realUnits_near p x)).2
  have one : (1 : ℝ) ≤ 10 ^ p := one_le_pow₀ (by norm_num)
  have : (realUnits p x : ℝ) < ((10 ^ (m + p) : Nat) : ℝ) := by
    push_cast
    rw [pow_add]
    have := mul_le_mul_of_nonneg_right h (by positivity : (0 : ℝ) ≤ 10 ^ p)
    nlinarith
  exact_mod_cast this

/-- A number that fits its columns. -/
theorem fmtW_parts {w p m : Nat} (hp : 1 ≤ p) (hw : w = m + 1 + 1 + p) {x : ℝ} (hx : 0 ≤ x) (h : x ≤ 10 ^ (m + 1) - 1) :
    ∃ a ds fs, fmtW w p x = List.replicate a 32 ++ (ds ++ 46 :: fs) ∧ (fmtW w p x).length = w ∧ AllDigits ds ∧ ds ≠ [] ∧ AllDigits fs ∧ fs.length = p ∧
      value ds * 10 ^ p + value fs = realUnits p x := by
  have hlt := realUnits_lt (p := p) (m := m + 1) (x := x) (by rwa [abs_of_nonneg hx])
  have hs := whole_short hlt
  have hf := padded_pad (Nat.mod_lt (realUnits p x) (by positivity : 0 < 10 ^ p)) (by omega)
  obtain ⟨ds, fs, e, h1, h2, h3, h4, h5⟩ := point_parts p (realUnits p x) hp
  have t := real_text hp x
  rw [if_neg (not_lt.2 hx), List.nil_append] at t
  refine ⟨w - (Time.fmtFixed p x).length, ds, fs, ?_, ?_, h1, h2, h3, h4, h5⟩
  · unfold fmtW
    rw [← e, ← t]
  · unfold fmtW
    rw [List.length_append, List.length_replicate, t, List.length_append, List.length_cons, hf.width]
    omega

theorem signed_parts {n : Nat} (hn : 1 ≤ n) {x : ℝ} (h : |x| ≤ 9) :
    ∃ ds fs, fmtPlus (n + 3) n x = (if x < 0 then 45 else 43) :: (ds ++ 46 :: fs) ∧ ds.length = 1 ∧ AllDigits ds ∧ ds ≠ [] ∧ AllDigits fs ∧ fs.length = n ∧
      value ds * 10 ^ n + value fs = realUnits n x := by
  have hlt := realUnits_lt (p := n) (m := 0 + 1) (x := x) (by norm_num; linarith)
  have hs := whole_short hlt
  have hd := numeral_dec (realUnits n x / 10 ^ n)
  have hf := padded_pad (Nat.mod_lt (realUnits n x) (by positivity : 0 < 10 ^ n)) (by omega)
  have hpos := List.length_pos_iff.2 hd.nonempty
  have t := real_text hn x
  refine ⟨_, _, ?_, by omega, hd.digits, hd.nonempty, hf.digits, hf.width, by rw [hd.value, hf.value, Nat.div_add_mod']⟩
  have e : (if x < 0 then Time.fmtFixed n x else 43 :: Time.fmtFixed n x) =
      (if x < 0 then 45 else 43) :: (dec (realUnits n x / 10 ^ n) ++ 46 :: pad n (realUnits n x % 10 ^ n)) := by
    rw [t]
    by_cases hx : x < 0 <;> simp [hx]
  unfold fmtPlus
  simp only
  rw [e, List.length_cons, List.length_append, List.length_cons, hf.width, show n + 3 - ((dec (realUnits n x / 10 ^ n)).length + (n + 1) + 1) = 0 by omega]
  rfl

/-! ## Digits taken off -/

theorem lop_digits {p : Nat} {fs rest : List Nat} (hf : AllDigits fs) (hr : ∀ c, rest.head? = some c → isDigit c = false) :
    lopDigits p (fs ++ rest) = fs.take p ++ List.replicate (fs.length - p) 32 ++ rest := by
  induction fs generalizing p with
  | nil =>
    rw [List.nil_append, List.take_nil, List.length_nil, Nat.zero_sub]
    cases rest with
    | nil => cases p <;> rfl
    | cons c s =>
      have := hr c rfl
      cases p <;> simp [lopDigits, this]
  | cons c fs ih =>
    have hc : isDigit c = true := by
      have := hf c (by simp)
      simp [isDigit, this.1, this.2]
    have := fun q => ih (p := q) fun x hx => hf x (by simp [hx])
    cases p with
    | zero => simp [lopDigits, hc, this 0, List.replicate_succ]
    | succ p => simp [lopDigits, hc, this p]

theorem lop_at {i p c : Nat} {pre fs rest : List Nat} (hi : i = pre.length + c) (hc : c ≤ fs.length) (hf : AllDigits fs)
    (hr : ∀ x, rest.head? = some x → isDigit x = false) :
    lopAt i p (pre ++ (fs ++ rest)) = pre ++ (fs.take (c + p) ++ List.replicate (fs.length - (c + p)) 32 ++ rest) := by
  unfold lopAt
  rw [hi, List.take_length_add_append, List.drop_length_add_append, List.take_append_of_le_length hc, List.drop_append_of_le_length hc,
    lop_digits (fun x hx => hf x (List.mem_of_mem_drop hx)) hr, List.append_assoc, List.length_drop, List.take_add, Nat.sub_sub]
  simp only [List.append_assoc]

theorem lop_length (p : Nat) (s : List Nat) : (lopDigits p s).length = s.length := by
  induction s generalizing p with
  | nil => cases p <;> rfl
  | cons c s ih =>
    cases p <;> unfold lopDigits <;> split_ifs <;> simp [ih]

theorem lopAt_length (i p : Nat) (s : List Nat) : (lopAt i p s).length = s.length := by
  unfold lopAt
  rw [List.length_append, lop_length, ← List.length_append, List.take_append_drop]

/-- The first `k` decimals. -/
theorem fewer {P k : Nat} (hk : k ≤ P) {ds fs : List Nat} (hf : AllDigits fs) (hl : fs.length = P) {x : ℝ}
    (hx : |((value ds * 10 ^ P + value fs : Nat) : ℝ) - x * 10 ^ P| ≤ 1 / 2) :
    AllDigits (fs.take k) ∧ (fs.take k).length = k ∧ |x - ((value ds * 10 ^ k + value (fs.take k) : Nat) : ℝ) / 10 ^ k| < 1 / 10 ^ k := by
  have hlen : (fs.take k).length = k := by rw [List.length_take]; omega
  refine ⟨fun c hc => hf c (List.mem_of_mem_take hc), hlen, ?_⟩
  have hv := value_append (fs.take k) (fs.drop k)
  rw [List.take_append_drop, List.length_drop, hl] at hv
  have hr : value (fs.drop k) < 10 ^ (P - k) := by
    have := value_cons_lt (s := fs.drop k) (fun c hc => hf c (List.mem_of_mem_drop hc))
    rwa [List.length_drop, hl] at this
  have e : 10 ^ P = 10 ^ k * 10 ^ (P - k) := by rw [← pow_add]; congr 1; omega
  have tot : value ds * 10 ^ P + value fs = (value ds * 10 ^ k + value (fs.take k)) * 10 ^ (P - k) + value (fs.drop k) := by
    rw [hv, e]; ring
  rw [tot] at hx
  generalize value ds * 10 ^ k + value (fs.take k) = n at *
  have hr' : (value (fs.drop k) : ℝ) ≤ 10 ^ (P - k) - 1 := by
    have : value (fs.drop k) + 1 ≤ 10 ^ (P - k) := hr
    have : ((value (fs.drop k) + 1 : Nat) : ℝ) ≤ ((10 ^ (P - k) : Nat) : ℝ) := by exact_mod_cast this
    push_cast at this
    linarith
  have e' : (10 : ℝ) ^ P = 10 ^ k * 10 ^ (P - k) := by rw [← pow_add]; congr 1; omega
  rw [e'] at hx
  push_cast at hx
  have pk : (0 : ℝ) < 10 ^ k := by positivity
  have pr : (0 : ℝ) < 10 ^ (P - k) := by positivity
  have one : (1 : ℝ) ≤ 10 ^ (P - k) := one_le_pow₀ (by norm_num)
  have h0 : (0 : ℝ) ≤ value (fs.drop k) := Nat.cast_nonneg _
  obtain ⟨l, u⟩ := abs_le.1 hx
  rw [show x - (n : ℝ) / 10 ^ k = (x * 10 ^ k - n) / 10 ^ k by field_simp, abs_div, abs_of_pos pk]
  apply div_lt_div_of_pos_right _ pk
  rw [abs_lt]
  constructor
  · by_contra hc
    push Not at hc
    have := mul_le_mul_of_nonneg_right hc pr.le
    nlinarith
  · by_contra hc
    push Not at hc
    have := mul_le_mul_of_nonneg_right hc pr.le
    nlinarith

end Verif.Props
