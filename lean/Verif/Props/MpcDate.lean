import Verif.Model.MpcLine
import Verif.Spec.MpcLine
import Verif.Lemmas.Scan
import Verif.Lemmas.Digits
import Verif.Props.Calendars
import Mathlib.Tactic.Linarith
import Verif.Lemmas.Decimal
import Mathlib.Tactic.FieldSimp
import Mathlib.Tactic.IntervalCases
import Mathlib.Tactic.SplitIfs
import Mathlib.Data.Rat.Floor

/-!
# Property theorems: dates of MPC observations (C71)
-/

namespace Verif.Props

open Verif Verif.Date Verif.Spec Verif.MpcLine Verif.Scan

/-! ## Lists of known length -/

theorem padded_two {n : Nat} {s : List Nat} (h : Padded 2 n s) :
    ∃ a b, s = [a, b] ∧ (48 ≤ a ∧ a ≤ 57) ∧ (48 ≤ b ∧ b ≤ 57) ∧ n = (a - 48) * 10 + (b - 48) := by
  obtain ⟨a, b, rfl⟩ := List.length_eq_two.1 h.width
  refine ⟨a, b, rfl, h.digits a (by simp), h.digits b (by simp), ?_⟩
  rw [← h.value]
  simp [value]
  omega

theorem padded_list4 {n : Nat} {s : List Nat} (h : Padded 4 n s) :
    ∃ a b c d, s = [a, b, c, d] ∧ (48 ≤ a ∧ a ≤ 57) ∧ (48 ≤ b ∧ b ≤ 57) ∧ (48 ≤ c ∧ c ≤ 57) ∧ (48 ≤ d ∧ d ≤ 57) := by
  have := h.width
  match s, this with
  | [a, b, c, d], _ => exact ⟨a, b, c, d, rfl, h.digits a (by simp), h.digits b (by simp), h.digits c (by simp), h.digits d (by simp)⟩

theorem twoBytes_pair {z : Bool} {n : Nat} {s : List Nat} (h : TwoBytes z n s) :
    ∃ a b, s = [a, b] ∧ ((48 ≤ a ∧ a ≤ 57) ∨ a = 32) ∧ (48 ≤ b ∧ b ≤ 57) ∧
      n = ((if a = 32 then 48 else a) - 48) * 10 + (b - 48) := by
  unfold TwoBytes at h
  split at h
  · obtain ⟨a, b, rfl, ha, hb, e⟩ := padded_two h
    exact ⟨a, b, rfl, Or.inl ha, hb, by rw [if_neg (by omega)]; exact e⟩
  · exact ⟨32, 48 + n, h, Or.inr rfl, by omega, by simp⟩

theorem twoDigits_at {t : List Nat} {i a b : Nat} (h1 : at? t i = a) (h2 : at? t (i + 1) = b) (ha : 48 ≤ a ∧ a ≤ 57)
    (hb : 48 ≤ b ∧ b ≤ 57) : getTwoDigits t i = ((a - 48) * 10 + (b - 48) : Nat) := by
  unfold getTwoDigits sbyte
  rw [h1, h2, if_pos (by omega), if_pos (by omega)]
  omega

theorem digit_true {c : Nat} (h : 48 ≤ c ∧ c ≤ 57) : isDigit c = true := (isDigit_iff c).2 h

/-! ## Columns of decimals -/

theorem column_digits {w p v : Nat} {s : List Nat} (h : Column w p v s) (rest : List Nat) (hr : isDigit (at? rest 0) = false) :
    digitCount (s ++ rest) = p ∧ readDigits 0 (s ++ rest) = v := by
  obtain ⟨ds, hd, hp, rfl⟩ := h
  have hb : isDigit (at? (List.replicate (w - p) 32 ++ rest) 0) = false := by
    cases w - p with
    | zero => simpa using hr
    | succ k => rfl
  rw [List.append_assoc]
  obtain ⟨h1, h2⟩ := digits_span hd.digits hb 0
  rw [h1, h2, readDigits_eq _ hd.digits, hd.value, hd.width]
  exact ⟨rfl, rfl⟩

theorem column_stops (w p : Nat) : Stops (List.replicate (w - p) 32) := by
  cases w - p with
  | zero => refine ⟨rfl, ?_, ?_, ?_⟩ <;> decide
  | succ k => refine ⟨rfl, ?_, ?_, ?_⟩ <;> simp [at?, List.replicate_succ]

theorem column_length {w p v : Nat} {s : List Nat} (h : Column w p v s) : s.length = w := by
  obtain ⟨ds, hd, hp, rfl⟩ := h
  simp [hd.width]
  omega

theorem column_at {w p v : Nat} {s : List Nat} (h : Column w p v s) (i : Nat) (hi : i < w) :
    at? s i = 32 ↔ p ≤ i := by
  obtain ⟨ds, hd, hp, rfl⟩ := h
  unfold at?
  have hw := hd.width
  by_cases hl : i < ds.length
  · rw [List.getD_eq_getElem?_getD, List.getElem?_append_left hl, List.getElem?_eq_getElem hl, Option.getD_some]
    have := hd.digits _ (List.getElem_mem hl)
    constructor
    · intro h; omega
    · intro h; omega
  · rw [List.getD_eq_getElem?_getD, List.getElem?_append_right (by omega), List.getElem?_replicate, if_pos (by omega)]
    simp
    omega

theorem trailing_column {p v : Nat} {s pre : List Nat} (h : Column 6 p v s) (hpre : pre.length = 11) (k : Nat) (hk : k ≤ 5) :
    trailing (pre ++ s) k = k + 1 - max p 1 := by
  induction k with
  | zero => simp [trailing]
  | succ k ih =>
    have hat : at? (pre ++ s) (11 + (k + 1)) = at? s (k + 1) := by
      unfold at?
      rw [List.getD_eq_getElem?_getD, List.getElem?_append_right (by omega), hpre, Nat.add_sub_cancel_left,
        ← List.getD_eq_getElem?_getD]
    rw [trailing, hat, ih (by omega)]
    have := column_at h (k + 1) (by omega)
    by_cases c : p ≤ k + 1
    · rw [if_pos (this.2 c)]; omega
    · rw [if_neg (fun hh => c (this.1 hh))]; omega

theorem atof_column {a : List Nat} {w p v : Nat} {s : List Nat} (ha : AllDigits a) (hne : a ≠ []) (h : Column w p v s) :
    atof (a ++ 46 :: s) = (value a : ℚ) + (v : ℚ) / 10 ^ p := by
  obtain ⟨ds, hd, hp, rfl⟩ := h
  unfold atof
  have := strtold_decimal (K := ℚ) ha hne hd.digits (column_stops w p)
  rw [List.append_assoc, List.cons_append] at this
  rw [this, hd.value, hd.width]

theorem atof_point {w p v : Nat} {s : List Nat} (h : Column w p v s) : atof (46 :: s) = (v : ℚ) / 10 ^ p := by
  obtain ⟨ds, hd, hp, rfl⟩ := h
  have hst := column_stops w p
  unfold atof strtold
  rw [skipSpace_of (by rfl), sign_of (by simp [at?]) (by simp [at?])]
  by_cases hne : ds = []
  · subst hne
    have hp0 : p = 0 := by have := hd.width; simpa using this.symm
    have hv : v = 0 := by have := hd.value; simpa [value] using this.symm
    subst hp0 hv
    have : mantissa (46 :: ([] ++ List.replicate (w - 0) 32)) = none := by
      unfold mantissa
      have h1 : digitCount (46 :: ([] ++ List.replicate (w - 0) 32)) = 0 := rfl
      have h2 : digitCount (List.replicate w 32) = 0 := by cases w <;> rfl
      simp only [h1, List.drop_zero]
      simp [at?, h2]
    simp only [this]
    simp
  · have := mantissa_decimal (ds := []) (fs := ds) (rest := List.replicate (w - p) 32) (by simp [AllDigits]) hd.digits (Or.inr hne) hst.1
    rw [List.nil_append, List.cons_append] at this
    simp only [this, exponent_none hst.2.2.1 hst.2.2.2, real_zero]
    have h0 : value [] = 0 := rfl
    simp [hd.value, hd.width, h0]

/-! ## The four ways to write a date and time -/

theorem mask_of {m : Nat → Bool} {yes no : List Nat} (h1 : ∀ i ∈ yes, m i = true) (h2 : ∀ i ∈ no, m i = false) :
    MpcLine.mask m yes no = true := by
  unfold MpcLine.mask
  rw [Bool.and_eq_true, List.all_eq_true, List.all_eq_true]
  exact ⟨h1, fun i hi => by rw [h2 i hi]; rfl⟩

/-- Blanks before the month or the day are replaced by zeroes. -/
theorem fill_standard {a b c e m1 m2 d1 d2 : Nat} {s : List Nat} (ha : 48 ≤ a ∧ a ≤ 57) (hb : 48 ≤ b ∧ b ≤ 57)
    (hc : 48 ≤ c ∧ c ≤ 57) (he : 48 ≤ e ∧ e ≤ 57) (hm1 : (48 ≤ m1 ∧ m1 ≤ 57) ∨ m1 = 32) (hm2 : 48 ≤ m2 ∧ m2 ≤ 57)
    (hd1 : (48 ≤ d1 ∧ d1 ≤ 57) ∨ d1 = 32) (hd2 : 48 ≤ d2 ∧ d2 ≤ 57) :
    fillZeroes (a :: b :: c :: e :: 32 :: m1 :: m2 :: 32 :: d1 :: d2 :: 46 :: s) =
      a :: b :: c :: e :: 32 :: (if m1 = 32 then 48 else m1) :: m2 :: 32 :: (if d1 = 32 then 48 else d1) :: d2 :: 46 :: s ∧
    MpcLine.mask (fillMask (a :: b :: c :: e :: 32 :: m1 :: m2 :: 32 :: d1 :: d2 :: 46 :: s)) [0, 1, 2, 3, 5, 6, 8, 9] [4, 7] = true := by
  have h32 : isDigit 32 = false := rfl
  have da := digit_true ha
  have db := digit_true hb
  have dc := digit_true hc
  have de := digit_true he
  have dm := digit_true hm2
  have dd := digit_true hd2
  rcases hm1 with hm1 | rfl <;> rcases hd1 with hd1 | rfl
  · have e1 := digit_true hm1
    have e2 := digit_true hd1
    have n1 : m1 ≠ 32 := by omega
    have n2 : d1 ≠ 32 := by omega
    simp only [fillZeroes, fillMask, zeroMissing, MpcLine.mask]
    simp [at?, digitsMask, da, db, dc, de, dm, dd, e1, e2, h32, n1, n2]
  · have e1 := digit_true hm1
    have n1 : m1 ≠ 32 := by omega
    simp only [fillZeroes, fillMask, zeroMissing, MpcLine.mask]
    simp [at?, digitsMask, da, db, dc, de, dm, dd, e1, h32, n1]
  · have e2 := digit_true hd1
    have n2 : d1 ≠ 32 := by omega
    simp only [fillZeroes, fillMask, zeroMissing, MpcLine.mask]
    simp [at?, digitsMask, da, db, dc, de, dm, dd, e2, h32, n2]
  · simp only [fillZeroes, fillMask, zeroMissing, MpcLine.mask]
    simp [at?, digitsMask, da, db, dc, de, dm, dd, h32]

/-- What a date field is read as. -/
structure ReadsCivil (t : List Nat) (d m y : Nat) (frac : ℚ) (code : Nat) : Prop where
  rval : (readField (fillZeroes t) (fillMask t)).rval = d + frac
  month : (readField (fillZeroes t) (fillMask t)).month = m
  year : (readField (fillZeroes t) (fillMask t)).year = y
  code : (readField (fillZeroes t) (fillMask t)).code = code

theorem reads_standard {z z' : Bool} {d m y p v : Nat} {yyyy mm dd s : List Nat} (hy : Padded 4 y yyyy)
    (hm : TwoBytes z m mm) (hd : TwoBytes z' d dd) (hs : Column 6 p v s) :
    ReadsCivil (yyyy ++ 32 :: (mm ++ 32 :: (dd ++ 46 :: s))) d m y ((v : ℚ) / 10 ^ p) p := by
  obtain ⟨a, b, c, e, rfl, ha, hb, hc, he⟩ := padded_list4 hy
  obtain ⟨m1, m2, rfl, hm1, hm2, rfl⟩ := twoBytes_pair hm
  obtain ⟨d1, d2, rfl, hd1, hd2, rfl⟩ := twoBytes_pair hd
  obtain ⟨h1, h2⟩ := fill_standard (s := s) ha hb hc he hm1 hm2 hd1 hd2
  obtain ⟨M, hM⟩ : ∃ M, M = if m1 = 32 then 48 else m1 := ⟨_, rfl⟩
  obtain ⟨D, hD⟩ : ∃ D, D = if d1 = 32 then 48 else d1 := ⟨_, rfl⟩
  have hM' : 48 ≤ M ∧ M ≤ 57 := by rw [hM]; split <;> omega
  have hD' : 48 ≤ D ∧ D ≤ 57 := by rw [hD]; split <;> omega
  rw [← hM, ← hD] at h1
  rw [← hM, ← hD]
  have hyr : readDigits 0 (a :: b :: c :: e :: 32 :: M :: m2 :: 32 ::
      D :: d2 :: 46 :: s) = y := by
    have := digits_span (ds := [a, b, c, e]) (rest := 32 :: M :: m2 :: 32 ::
      D :: d2 :: 46 :: s) hy.digits rfl 0
    rw [readDigits_eq _ hy.digits, hy.value] at this
    exact this.2
  obtain ⟨c1, c2⟩ := column_digits hs [] rfl
  rw [List.append_nil] at c1 c2
  have tr : trailing (a :: b :: c :: e :: 32 :: M :: m2 :: 32 ::
      D :: d2 :: 46 :: s) 5 = 6 - max p 1 :=
    trailing_column (pre := [a, b, c, e, 32, M, m2, 32, D, d2, 46]) hs rfl 5 (by omega)
  have gm := twoDigits_at (t := a :: b :: c :: e :: 32 :: M :: m2 :: 32 ::
      D :: d2 :: 46 :: s) (i := 5) (a := M) (b := m2) rfl rfl hM' hm2
  have gd := twoDigits_at (t := a :: b :: c :: e :: 32 :: M :: m2 :: 32 ::
      D :: d2 :: 46 :: s) (i := 8) (a := D) (b := d2) rfl rfl hD' hd2
  have hpv : p = 0 → v = 0 := by
    intro h0
    obtain ⟨ds, hds, -, -⟩ := hs
    have := hds.width
    rw [h0, List.length_eq_zero_iff] at this
    have h2 := hds.value
    rw [this] at h2
    simpa [value] using h2.symm
  have hp6 : p ≤ 6 := by obtain ⟨ds, -, h, -⟩ := hs; exact h
  have hpow : (v : ℚ) / 10 ^ (6 - (6 - max p 1)) = (v : ℚ) / 10 ^ p := by
    by_cases h0 : p = 0
    · rw [hpv h0]; simp
    · congr 2; omega
  show ReadsCivil (a :: b :: c :: e :: 32 :: m1 :: m2 :: 32 :: d1 :: d2 :: 46 :: s) _ _ _ _ _
  have hrf : readField (fillZeroes (a :: b :: c :: e :: 32 :: m1 :: m2 :: 32 :: d1 :: d2 :: 46 :: s))
      (fillMask (a :: b :: c :: e :: 32 :: m1 :: m2 :: 32 :: d1 :: d2 :: 46 :: s)) =
      { rval := ((D - 48) * 10 + (d2 - 48) : Nat) + (v : ℚ) / 10 ^ p
        year := y
        month := ((M - 48) * 10 + (m2 - 48) : Nat)
        decimals := 11
        tbuff := a :: b :: c :: e :: 32 :: M :: m2 :: 32 ::
          D :: d2 :: 46 :: s } := by
    rw [h1]
    unfold readField
    rw [if_pos (by rfl)]
    unfold standard
    rw [h2, if_pos (by rfl), tr, gm, gd, hyr]
    have : (a :: b :: c :: e :: 32 :: M :: m2 :: 32 ::
      D :: d2 :: 46 :: s).drop 11 = s := rfl
    rw [this, c2, hpow]
    simp
  constructor
  · rw [hrf]
  · rw [hrf]
  · rw [hrf]
  · rw [hrf]
    unfold Found.code
    simp only [ne_eq, OfNat.ofNat_ne_zero, not_false_eq_true, if_true, Nat.zero_add]
    exact c1

theorem not_missing {c : Nat} {t : List Nat} (h : isDigit c = false) : fillZeroes (c :: t) = c :: t ∧ fillMask (c :: t) = digitsMask (c :: t) := by
  have : zeroMissing (c :: t) = false := by
    unfold zeroMissing MpcLine.mask digitsMask
    simp [at?, h]
  unfold fillZeroes fillMask
  rw [this]
  exact ⟨rfl, rfl⟩

theorem mark_not_digit {c : Nat} (h : 72 ≤ c) : isDigit c = false := by
  cases hh : isDigit c with
  | false => rfl
  | true => have := (isDigit_iff c).1 hh; omega

theorem century_year {c y : Nat} (h1 : 72 ≤ c) (h2 : c ≤ 75) :
    (sbyte c - 74) * 100 + 1900 + (y : Int) = ((1700 + 100 * (c - 72) + y : Nat) : Int) := by
  unfold sbyte
  rw [if_pos (by omega)]
  omega

theorem column_two {w p v : Nat} {s : List Nat} (hs : Column w p v s) (hp : 2 ≤ p) :
    ∃ s1 s2 s', s = s1 :: s2 :: s' ∧ (48 ≤ s1 ∧ s1 ≤ 57) ∧ (48 ≤ s2 ∧ s2 ≤ 57) := by
  obtain ⟨ds, hds, -, rfl⟩ := hs
  have hw := hds.width
  match ds, hw with
  | [], hw => simp at hw; omega
  | [_], hw => simp at hw; omega
  | s1 :: s2 :: ds, _ => exact ⟨s1, s2, _, rfl, hds.digits s1 (by simp), hds.digits s2 (by simp)⟩

theorem reads_compact {c d m y p v : Nat} {yy mm dd s : List Nat} (h72 : 72 ≤ c) (h75 : c ≤ 75) (hy : Padded 2 y yy)
    (hm : Padded 2 m mm) (hd : Padded 2 d dd) (hs : Column 9 p v s) (hp : 2 ≤ p) :
    ReadsCivil (c :: (yy ++ (mm ++ (dd ++ 46 :: s)))) d m (1700 + 100 * (c - 72) + y) ((v : ℚ) / 10 ^ p) (30 + p) := by
  obtain ⟨c1, c2⟩ := column_digits hs [] rfl
  rw [List.append_nil] at c1 c2
  have hat := atof_column hd.digits (by intro h; have := hd.width; rw [h] at this; simp at this) hs
  rw [hd.value] at hat
  obtain ⟨y1, y2, rfl, hy1, hy2, ey⟩ := padded_two hy
  obtain ⟨m1, m2, rfl, hm1, hm2, em⟩ := padded_two hm
  obtain ⟨d1, d2, rfl, hd1, hd2, -⟩ := padded_two hd
  obtain ⟨s1, s2, s', rfl, hs1, hs2⟩ := column_two hs hp
  have hc := mark_not_digit h72
  obtain ⟨f1, f2⟩ := not_missing (t := y1 :: y2 :: m1 :: m2 :: d1 :: d2 :: 46 :: s1 :: s2 :: s') hc
  have gy := twoDigits_at (t := c :: y1 :: y2 :: m1 :: m2 :: d1 :: d2 :: 46 :: s1 :: s2 :: s') (i := 1) (a := y1) (b := y2) rfl rfl hy1 hy2
  have gm := twoDigits_at (t := c :: y1 :: y2 :: m1 :: m2 :: d1 :: d2 :: 46 :: s1 :: s2 :: s') (i := 3) (a := m1) (b := m2) rfl rfl hm1 hm2
  rw [← ey] at gy
  rw [← em] at gm
  have hmask : MpcLine.mask (digitsMask (c :: y1 :: y2 :: m1 :: m2 :: d1 :: d2 :: 46 :: s1 :: s2 :: s')) [1, 2, 3, 4, 5, 6, 8, 9] [0, 7] = true := by
    have h46 : isDigit 46 = false := rfl
    unfold MpcLine.mask
    simp [digitsMask, at?, hc, h46, digit_true hy1, digit_true hy2, digit_true hm1, digit_true hm2, digit_true hd1, digit_true hd2,
      digit_true hs1, digit_true hs2]
  show ReadsCivil (c :: y1 :: y2 :: m1 :: m2 :: d1 :: d2 :: 46 :: s1 :: s2 :: s') _ _ _ _ _
  have hrf : readField (fillZeroes (c :: y1 :: y2 :: m1 :: m2 :: d1 :: d2 :: 46 :: s1 :: s2 :: s'))
      (fillMask (c :: y1 :: y2 :: m1 :: m2 :: d1 :: d2 :: 46 :: s1 :: s2 :: s')) =
      { rval := (d : ℚ) + (v : ℚ) / 10 ^ p
        year := ((1700 + 100 * (c - 72) + y : Nat) : Int)
        month := m
        format := 30
        decimals := 8
        tbuff := c :: y1 :: y2 :: m1 :: m2 :: d1 :: d2 :: 46 :: s1 :: s2 :: s' } := by
    rw [f1, f2]
    unfold readField
    have h4 : at? (c :: y1 :: y2 :: m1 :: m2 :: d1 :: d2 :: 46 :: s1 :: s2 :: s') 4 = m2 := rfl
    have h0 : at? (c :: y1 :: y2 :: m1 :: m2 :: d1 :: d2 :: 46 :: s1 :: s2 :: s') 0 = c := rfl
    have h7 : at? (c :: y1 :: y2 :: m1 :: m2 :: d1 :: d2 :: 46 :: s1 :: s2 :: s') 7 = 46 := rfl
    rw [if_neg (by rw [h4]; omega), if_pos (by rw [h0]; omega)]
    unfold century
    rw [hmask, h7, if_pos (by rfl)]
    simp only
    rw [if_neg (by omega), h0, gy, gm, century_year h72 h75]
    have : (c :: y1 :: y2 :: m1 :: m2 :: d1 :: d2 :: 46 :: s1 :: s2 :: s').drop 5 = [d1, d2] ++ 46 :: s1 :: s2 :: s' := rfl
    rw [this, hat]
  constructor
  · rw [hrf]
  · rw [hrf]
  · rw [hrf]
  · rw [hrf]
    unfold Found.code
    simp only [ne_eq, OfNat.ofNat_ne_zero, not_false_eq_true, if_true]
    rw [← c1]
    rfl

theorem atof_colon {n : Nat} {a rest : List Nat} (h : Padded 2 n a) : atof (a ++ 58 :: rest) = n := by
  unfold atof
  rw [strtold_digits h.digits (by intro h'; have := h.width; rw [h'] at this; simp at this)
    ⟨rfl, by simp [at?], by simp [at?], by simp [at?]⟩, h.value]

theorem reads_seconds {c d m y hour minute second p v : Nat} {yy mm dd h n sec s : List Nat} (h72 : 72 ≤ c) (h75 : c ≤ 75)
    (hy : Padded 2 y yy) (hm : Padded 2 m mm) (hd : Padded 2 d dd) (hh : Padded 2 hour h) (hn : Padded 2 minute n)
    (hsec : Padded 2 second sec) (hs : Column 3 p v s) :
    ReadsCivil (c :: (yy ++ (mm ++ (dd ++ 58 :: (h ++ (n ++ (sec ++ s))))))) d m (1700 + 100 * (c - 72) + y)
      ((hour : ℚ) / 24 + (minute : ℚ) / 1440 + ((second : ℚ) + (v : ℚ) / 10 ^ p) / 86400) (20 + p) := by
  obtain ⟨c1, -⟩ := column_digits hs [] rfl
  rw [List.append_nil] at c1
  have hat := atof_colon (rest := h ++ (n ++ (sec ++ s))) hd
  obtain ⟨y1, y2, rfl, hy1, hy2, ey⟩ := padded_two hy
  obtain ⟨m1, m2, rfl, hm1, hm2, em⟩ := padded_two hm
  obtain ⟨d1, d2, rfl, hd1, hd2, -⟩ := padded_two hd
  obtain ⟨h1, h2, rfl, hh1, hh2, eh⟩ := padded_two hh
  obtain ⟨n1, n2, rfl, hn1, hn2, en⟩ := padded_two hn
  obtain ⟨s1, s2, rfl, hs1, hs2, es⟩ := padded_two hsec
  have hc := mark_not_digit h72
  obtain ⟨f1, f2⟩ := not_missing (t := y1 :: y2 :: m1 :: m2 :: d1 :: d2 :: 58 :: h1 :: h2 :: n1 :: n2 :: s1 :: s2 :: s) hc
  have gy := twoDigits_at (t := c :: y1 :: y2 :: m1 :: m2 :: d1 :: d2 :: 58 :: h1 :: h2 :: n1 :: n2 :: s1 :: s2 :: s) (i := 1) (a := y1) (b := y2) rfl rfl hy1 hy2
  rw [← ey] at gy
  have gm := twoDigits_at (t := c :: y1 :: y2 :: m1 :: m2 :: d1 :: d2 :: 58 :: h1 :: h2 :: n1 :: n2 :: s1 :: s2 :: s) (i := 3) (a := m1) (b := m2) rfl rfl hm1 hm2
  rw [← em] at gm
  have gh := twoDigits_at (t := c :: y1 :: y2 :: m1 :: m2 :: d1 :: d2 :: 58 :: h1 :: h2 :: n1 :: n2 :: s1 :: s2 :: s) (i := 8) (a := h1) (b := h2) rfl rfl hh1 hh2
  rw [← eh] at gh
  have gn := twoDigits_at (t := c :: y1 :: y2 :: m1 :: m2 :: d1 :: d2 :: 58 :: h1 :: h2 :: n1 :: n2 :: s1 :: s2 :: s) (i := 10) (a := n1) (b := n2) rfl rfl hn1 hn2
  rw [← en] at gn
  have gs := twoDigits_at (t := c :: y1 :: y2 :: m1 :: m2 :: d1 :: d2 :: 58 :: h1 :: h2 :: n1 :: n2 :: s1 :: s2 :: s) (i := 12) (a := s1) (b := s2) rfl rfl hs1 hs2
  rw [← es] at gs
  have hmask : MpcLine.mask (digitsMask (c :: y1 :: y2 :: m1 :: m2 :: d1 :: d2 :: 58 :: h1 :: h2 :: n1 :: n2 :: s1 :: s2 :: s)) [1, 2, 3, 4, 5, 6, 8, 9] [0, 7] = true := by
    have h58 : isDigit 58 = false := rfl
    unfold MpcLine.mask
    simp [digitsMask, at?, hc, h58, digit_true hy1, digit_true hy2, digit_true hm1, digit_true hm2, digit_true hd1, digit_true hd2,
      digit_true hh1, digit_true hh2]
  show ReadsCivil (c :: y1 :: y2 :: m1 :: m2 :: d1 :: d2 :: 58 :: h1 :: h2 :: n1 :: n2 :: s1 :: s2 :: s) _ _ _ _ _
  have hrf : readField (fillZeroes (c :: y1 :: y2 :: m1 :: m2 :: d1 :: d2 :: 58 :: h1 :: h2 :: n1 :: n2 :: s1 :: s2 :: s))
      (fillMask (c :: y1 :: y2 :: m1 :: m2 :: d1 :: d2 :: 58 :: h1 :: h2 :: n1 :: n2 :: s1 :: s2 :: s)) =
      { rval := (d : ℚ) + ((hour : ℚ) / 24 + (minute : ℚ) / 1440) + (second : ℚ) / 86400 + (v : ℚ) / 10 ^ p / 86400
        year := ((1700 + 100 * (c - 72) + y : Nat) : Int)
        month := m
        format := 20
        decimals := 14
        tbuff := c :: y1 :: y2 :: m1 :: m2 :: d1 :: d2 :: 58 :: h1 :: h2 :: n1 :: n2 :: s1 :: 46 :: s } := by
    rw [f1, f2]
    unfold readField
    have h4 : at? (c :: y1 :: y2 :: m1 :: m2 :: d1 :: d2 :: 58 :: h1 :: h2 :: n1 :: n2 :: s1 :: s2 :: s) 4 = m2 := rfl
    have h0 : at? (c :: y1 :: y2 :: m1 :: m2 :: d1 :: d2 :: 58 :: h1 :: h2 :: n1 :: n2 :: s1 :: s2 :: s) 0 = c := rfl
    have h7 : at? (c :: y1 :: y2 :: m1 :: m2 :: d1 :: d2 :: 58 :: h1 :: h2 :: n1 :: n2 :: s1 :: s2 :: s) 7 = 58 := rfl
    have h12 : at? (c :: y1 :: y2 :: m1 :: m2 :: d1 :: d2 :: 58 :: h1 :: h2 :: n1 :: n2 :: s1 :: s2 :: s) 12 = s1 := rfl
    rw [if_neg (by rw [h4]; omega), if_pos (by rw [h0]; omega)]
    unfold century
    rw [hmask, h7, if_pos (by rfl)]
    simp only
    rw [if_pos trivial, h12, if_pos (by omega), h0, gy, gm, gh, gn, gs, century_year h72 h75]
    have : (c :: y1 :: y2 :: m1 :: m2 :: d1 :: d2 :: 58 :: h1 :: h2 :: n1 :: n2 :: s1 :: s2 :: s).drop 5 = [d1, d2] ++ 58 :: ([h1, h2] ++ ([n1, n2] ++ ([s1, s2] ++ s))) := rfl
    rw [this, hat]
    have hset : (c :: y1 :: y2 :: m1 :: m2 :: d1 :: d2 :: 58 :: h1 :: h2 :: n1 :: n2 :: s1 :: s2 :: s).set 13 46 = c :: y1 :: y2 :: m1 :: m2 :: d1 :: d2 :: 58 :: h1 :: h2 :: n1 :: n2 :: s1 :: 46 :: s := rfl
    rw [hset]
    have : (c :: y1 :: y2 :: m1 :: m2 :: d1 :: d2 :: 58 :: h1 :: h2 :: n1 :: n2 :: s1 :: 46 :: s).drop 13 = 46 :: s := rfl
    rw [this, atof_point hs]
    simp only [Int.cast_natCast]
    congr 1
    ring
  constructor
  · rw [hrf]; simp only; ring
  · rw [hrf]
  · rw [hrf]
  · rw [hrf]
    unfold Found.code
    simp only [ne_eq, OfNat.ofNat_ne_zero, not_false_eq_true, if_true]
    rw [← c1]
    rfl

theorem reads_minutes {c d m y hour minute : Nat} {yy mm dd h n : List Nat} (h72 : 72 ≤ c) (h75 : c ≤ 75)
    (hy : Padded 2 y yy) (hm : Padded 2 m mm) (hd : Padded 2 d dd) (hh : Padded 2 hour h) (hn : Padded 2 minute n) :
    ReadsCivil (c :: (yy ++ (mm ++ (dd ++ 58 :: (h ++ (n ++ List.replicate 5 32)))))) d m (1700 + 100 * (c - 72) + y)
      ((hour : ℚ) / 24 + (minute : ℚ) / 1440) 50 := by
  have hat := atof_colon (rest := h ++ (n ++ List.replicate 5 32)) hd
  obtain ⟨y1, y2, rfl, hy1, hy2, ey⟩ := padded_two hy
  obtain ⟨m1, m2, rfl, hm1, hm2, em⟩ := padded_two hm
  obtain ⟨d1, d2, rfl, hd1, hd2, -⟩ := padded_two hd
  obtain ⟨h1, h2, rfl, hh1, hh2, eh⟩ := padded_two hh
  obtain ⟨n1, n2, rfl, hn1, hn2, en⟩ := padded_two hn
  have hc := mark_not_digit h72
  obtain ⟨f1, f2⟩ := not_missing (t := y1 :: y2 :: m1 :: m2 :: d1 :: d2 :: 58 :: h1 :: h2 :: n1 :: n2 :: List.replicate 5 (32 : Nat)) hc
  have gy := twoDigits_at (t := c :: y1 :: y2 :: m1 :: m2 :: d1 :: d2 :: 58 :: h1 :: h2 :: n1 :: n2 :: List.replicate 5 (32 : Nat)) (i := 1) (a := y1) (b := y2) rfl rfl hy1 hy2
  rw [← ey] at gy
  have gm := twoDigits_at (t := c :: y1 :: y2 :: m1 :: m2 :: d1 :: d2 :: 58 :: h1 :: h2 :: n1 :: n2 :: List.replicate 5 (32 : Nat)) (i := 3) (a := m1) (b := m2) rfl rfl hm1 hm2
  rw [← em] at gm
  have gh := twoDigits_at (t := c :: y1 :: y2 :: m1 :: m2 :: d1 :: d2 :: 58 :: h1 :: h2 :: n1 :: n2 :: List.replicate 5 (32 : Nat)) (i := 8) (a := h1) (b := h2) rfl rfl hh1 hh2
  rw [← eh] at gh
  have gn := twoDigits_at (t := c :: y1 :: y2 :: m1 :: m2 :: d1 :: d2 :: 58 :: h1 :: h2 :: n1 :: n2 :: List.replicate 5 (32 : Nat)) (i := 10) (a := n1) (b := n2) rfl rfl hn1 hn2
  rw [← en] at gn
  have hmask : MpcLine.mask (digitsMask (c :: y1 :: y2 :: m1 :: m2 :: d1 :: d2 :: 58 :: h1 :: h2 :: n1 :: n2 :: List.replicate 5 (32 : Nat))) [1, 2, 3, 4, 5, 6, 8, 9] [0, 7] = true := by
    have h58 : isDigit 58 = false := rfl
    unfold MpcLine.mask
    simp [digitsMask, at?, hc, h58, digit_true hy1, digit_true hy2, digit_true hm1, digit_true hm2, digit_true hd1, digit_true hd2,
      digit_true hh1, digit_true hh2]
  show ReadsCivil (c :: y1 :: y2 :: m1 :: m2 :: d1 :: d2 :: 58 :: h1 :: h2 :: n1 :: n2 :: List.replicate 5 (32 : Nat)) _ _ _ _ _
  have hrf : readField (fillZeroes (c :: y1 :: y2 :: m1 :: m2 :: d1 :: d2 :: 58 :: h1 :: h2 :: n1 :: n2 :: List.replicate 5 (32 : Nat)))
      (fillMask (c :: y1 :: y2 :: m1 :: m2 :: d1 :: d2 :: 58 :: h1 :: h2 :: n1 :: n2 :: List.replicate 5 (32 : Nat))) =
      { rval := (d : ℚ) + ((hour : ℚ) / 24 + (minute : ℚ) / 1440)
        year := ((1700 + 100 * (c - 72) + y : Nat) : Int)
        month := m
        format := 50
        tbuff := c :: y1 :: y2 :: m1 :: m2 :: d1 :: d2 :: 58 :: h1 :: h2 :: n1 :: n2 :: List.replicate 5 (32 : Nat) } := by
    rw [f1, f2]
    unfold readField
    have h4 : at? (c :: y1 :: y2 :: m1 :: m2 :: d1 :: d2 :: 58 :: h1 :: h2 :: n1 :: n2 :: List.replicate 5 (32 : Nat)) 4 = m2 := rfl
    have h0 : at? (c :: y1 :: y2 :: m1 :: m2 :: d1 :: d2 :: 58 :: h1 :: h2 :: n1 :: n2 :: List.replicate 5 (32 : Nat)) 0 = c := rfl
    have h7 : at? (c :: y1 :: y2 :: m1 :: m2 :: d1 :: d2 :: 58 :: h1 :: h2 :: n1 :: n2 :: List.replicate 5 (32 : Nat)) 7 = 58 := rfl
    have h12 : at? (c :: y1 :: y2 :: m1 :: m2 :: d1 :: d2 :: 58 :: h1 :: h2 :: n1 :: n2 :: List.replicate 5 (32 : Nat)) 12 = 32 := rfl
    rw [if_neg (by rw [h4]; omega), if_pos (by rw [h0]; omega)]
    unfold century
    rw [hmask, h7, if_pos (by rfl)]
    simp only
    rw [if_pos trivial, h12, if_neg (by omega), h0, gy, gm, gh, gn, century_year h72 h75]
    have : (c :: y1 :: y2 :: m1 :: m2 :: d1 :: d2 :: 58 :: h1 :: h2 :: n1 :: n2 :: List.replicate 5 (32 : Nat)).drop 5 = [d1, d2] ++ 58 :: ([h1, h2] ++ ([n1, n2] ++ List.replicate 5 32)) := rfl
    rw [this, hat]
    simp only [Int.cast_natCast]
    congr 1
    ring
  constructor
  · rw [hrf]
  · rw [hrf]
  · rw [hrf]
  · rw [hrf]
    rfl

theorem reads_civil {t : List Nat} {d m y code : Nat} {frac : ℚ} (h : CivilField t d m y frac code) : ReadsCivil t d m y frac code := by
  cases h with
  | standard h1 h2 h3 h4 => exact reads_standard h1 h2 h3 h4
  | compact h1 h2 h3 h4 h5 h6 h7 => exact reads_compact h1 h2 h3 h4 h5 h6 h7
  | seconds h1 h2 h3 h4 h5 h6 h7 h8 h9 => exact reads_seconds h1 h2 h3 h4 h5 h6 h7 h8 h9
  | minutes h1 h2 h3 h4 h5 h6 h7 => exact reads_minutes h1 h2 h3 h4 h5 h6 h7

/-! ## Counts of days -/

theorem reads_count {t : List Nat} {jd : ℚ} {code : Nat} (h : CountField t jd code) :
    (readField (fillZeroes t) (fillMask t)).rval = jd ∧ (readField (fillZeroes t) (fillMask t)).month = 0 ∧
      (readField (fillZeroes t) (fillMask t)).code = code := by
  cases h with
  | @jd n p v a s ha hs hp =>
    obtain ⟨c1, -⟩ := column_digits hs [] rfl
    rw [List.append_nil] at c1
    have hat := atof_column ha.digits (by intro h; have := ha.width; rw [h] at this; simp at this) hs
    rw [ha.value] at hat
    obtain ⟨s1, s2, s', rfl, hs1, hs2⟩ := column_two hs hp
    have hw := ha.width
    match a, hw with
    | [a0, a1, a2, a3, a4, a5, a6], _ =>
    have d0 := ha.digits a0 (by simp)
    have d1 := ha.digits a1 (by simp)
    have d2 := ha.digits a2 (by simp)
    have d3 := ha.digits a3 (by simp)
    have d4 := ha.digits a4 (by simp)
    have d5 := ha.digits a5 (by simp)
    have d6 := ha.digits a6 (by simp)
    have h46 : isDigit 46 = false := rfl
    have hz : zeroMissing (a0 :: a1 :: a2 :: a3 :: a4 :: a5 :: a6 :: 46 :: s1 :: s2 :: s') = false := by
      unfold zeroMissing MpcLine.mask
      simp [digitsMask, at?, digit_true d4]
    have hmask : MpcLine.mask (digitsMask (a0 :: a1 :: a2 :: a3 :: a4 :: a5 :: a6 :: 46 :: s1 :: s2 :: s')) [1, 2, 3, 4, 5, 6, 8, 9] [7] = true := by
      unfold MpcLine.mask
      simp [digitsMask, at?, h46, digit_true d1, digit_true d2, digit_true d3, digit_true d4, digit_true d5, digit_true d6,
        digit_true hs1, digit_true hs2]
    have hrf : readField (fillZeroes ([a0, a1, a2, a3, a4, a5, a6] ++ 46 :: s1 :: s2 :: s'))
        (fillMask ([a0, a1, a2, a3, a4, a5, a6] ++ 46 :: s1 :: s2 :: s')) =
        { rval := (n : ℚ) + (v : ℚ) / 10 ^ p, format := 10, decimals := 8
          tbuff := a0 :: a1 :: a2 :: a3 :: a4 :: a5 :: a6 :: 46 :: s1 :: s2 :: s' } := by
      rw [← hat]
      show readField (fillZeroes (a0 :: a1 :: a2 :: a3 :: a4 :: a5 :: a6 :: 46 :: s1 :: s2 :: s'))
        (fillMask (a0 :: a1 :: a2 :: a3 :: a4 :: a5 :: a6 :: 46 :: s1 :: s2 :: s')) = _
      unfold fillZeroes fillMask
      rw [hz, if_neg (by simp), if_neg (by simp)]
      unfold readField
      have h4 : at? (a0 :: a1 :: a2 :: a3 :: a4 :: a5 :: a6 :: 46 :: s1 :: s2 :: s') 4 = a4 := rfl
      have h0 : at? (a0 :: a1 :: a2 :: a3 :: a4 :: a5 :: a6 :: 46 :: s1 :: s2 :: s') 0 = a0 := rfl
      rw [if_neg (by rw [h4]; omega), if_neg (by rw [h0]; omega), if_pos (by rfl)]
      unfold julianDate
      rw [hmask, if_pos rfl, if_neg (by rw [h0]; omega)]
      rfl
    rw [hrf]
    refine ⟨rfl, rfl, ?_⟩
    unfold Found.code
    simp only [ne_eq, OfNat.ofNat_ne_zero, not_false_eq_true, if_true]
    rw [← c1]
    rfl
  | @mjd n p v a s ha hs hp =>
    obtain ⟨c1, -⟩ := column_digits hs [] rfl
    rw [List.append_nil] at c1
    have hat := atof_column ha.digits (by intro h; have := ha.width; rw [h] at this; simp at this) hs
    rw [ha.value] at hat
    obtain ⟨s1, s2, s', rfl, hs1, hs2⟩ := column_two hs hp
    have hw := ha.width
    match a, hw with
    | [a1, a2, a3, a4, a5, a6], _ =>
    have d1 := ha.digits a1 (by simp)
    have d2 := ha.digits a2 (by simp)
    have d3 := ha.digits a3 (by simp)
    have d4 := ha.digits a4 (by simp)
    have d5 := ha.digits a5 (by simp)
    have d6 := ha.digits a6 (by simp)
    have h46 : isDigit 46 = false := rfl
    obtain ⟨f1, f2⟩ := not_missing (t := a1 :: a2 :: a3 :: a4 :: a5 :: a6 :: 46 :: s1 :: s2 :: s') (c := 77) rfl
    have hmask : MpcLine.mask (digitsMask (77 :: a1 :: a2 :: a3 :: a4 :: a5 :: a6 :: 46 :: s1 :: s2 :: s')) [1, 2, 3, 4, 5, 6, 8, 9] [7] = true := by
      unfold MpcLine.mask
      simp [digitsMask, at?, h46, digit_true d1, digit_true d2, digit_true d3, digit_true d4, digit_true d5, digit_true d6,
        digit_true hs1, digit_true hs2]
    have hrf : readField (fillZeroes (77 :: ([a1, a2, a3, a4, a5, a6] ++ 46 :: s1 :: s2 :: s')))
        (fillMask (77 :: ([a1, a2, a3, a4, a5, a6] ++ 46 :: s1 :: s2 :: s'))) =
        { rval := 4800001 / 2 + ((n : ℚ) + (v : ℚ) / 10 ^ p), format := 40, decimals := 8
          tbuff := 77 :: a1 :: a2 :: a3 :: a4 :: a5 :: a6 :: 46 :: s1 :: s2 :: s' } := by
      rw [← hat]
      show readField (fillZeroes (77 :: a1 :: a2 :: a3 :: a4 :: a5 :: a6 :: 46 :: s1 :: s2 :: s'))
        (fillMask (77 :: a1 :: a2 :: a3 :: a4 :: a5 :: a6 :: 46 :: s1 :: s2 :: s')) = _
      rw [f1, f2]
      unfold readField
      have h4 : at? (77 :: a1 :: a2 :: a3 :: a4 :: a5 :: a6 :: 46 :: s1 :: s2 :: s') 4 = a4 := rfl
      have h0 : at? (77 :: a1 :: a2 :: a3 :: a4 :: a5 :: a6 :: 46 :: s1 :: s2 :: s') 0 = 77 := rfl
      rw [if_neg (by rw [h4]; omega), if_neg (by rw [h0]; omega), if_pos (by rfl)]
      unfold julianDate
      rw [hmask, if_pos rfl, if_pos (by rw [h0])]
      rfl
    rw [hrf]
    refine ⟨by simp only; ring, rfl, ?_⟩
    unfold Found.code
    simp only [ne_eq, OfNat.ofNat_ne_zero, not_false_eq_true, if_true]
    rw [← c1]
    rfl

/-! ## Whole lines -/

theorem at_of_get {s : List Nat} {i c : Nat} (h : s[i]? = some c) : at? s i = c := by
  unfold at?
  rw [List.getD_eq_getElem?_getD, h, Option.getD_some]

theorem drop_at (s : List Nat) (i k : Nat) : at? (s.drop k) i = at? s (k + i) := by
  unfold at?
  rw [List.getD_eq_getElem?_getD, List.getElem?_drop, ← List.getD_eq_getElem?_getD]

/-- What a line is read as, apart from the rounding of radar times. -/
theorem extract_line {line t : List Nat} (h : ObsLine line t) :
    extractDate line =
      (if (readField (fillZeroes t) (fillMask t)).jd ≠ 0 ∧ (at? line 14 = 82 ∨ at? line 14 = 114) then
          radarRound (readField (fillZeroes t) (fillMask t)).jd
        else (readField (fillZeroes t) (fillMask t)).jd,
       some (readField (fillZeroes t) (fillMask t)).code) := by
  have h1 := h.long
  have h2 := h.short
  have hcode : isValidMpcCode (line.drop 77) = true := by
    unfold isValidMpcCode
    rw [List.all_eq_true]
    intro i hi
    rw [List.mem_range] at hi
    obtain ⟨c, hc, h3, h4⟩ := h.code (77 + i) (by omega) (by omega)
    rw [drop_at, at_of_get hc]
    simp
    omega
  unfold extractDate
  rw [if_neg (by omega), if_neg, hcode, if_neg (by simp), h.field]
  rcases h.mark with hm | hm | hm <;> rw [at_of_get hm] <;> omega

theorem roman_bounds {d m y : Int} : ∀ {leap : Prop} [Decidable leap] {c : Calendar}, c.months y = romanMonths leap →
    c.Exists d m y → d ≤ 31 ∧ m ≤ 12 := by
  intro leap _ c hc he
  obtain ⟨h1, h2, len, h3, h4⟩ := he
  rw [hc] at h3
  have h13 : (m - 1).toNat < 13 := (List.getElem?_eq_some_iff.1 h3).1
  have hx : ∀ i : Nat, i < 13 → (romanMonths leap)[i]? = some len → len ≤ 31 ∧ (i = 12 → len ≤ 0) := by
    intro i hi hg
    simp only [romanMonths] at hg
    interval_cases i <;> simp at hg <;> (try split_ifs at hg) <;> omega
  have := hx _ h13 h3
  omega

theorem not_radar {line : List Nat} (h : 80 ≤ line.length) (hr : line[14]? ≠ some 82 ∧ line[14]? ≠ some 114) :
    ¬ (at? line 14 = 82 ∨ at? line 14 = 114) := by
  unfold at?
  rw [List.getD_eq_getElem?_getD]
  rw [List.getElem?_eq_getElem (by omega)] at hr ⊢
  simpa using hr

theorem found_jd {f : Found} {d m y : Nat} {n : Int} {frac : ℚ} (hr : f.rval = d + frac) (hm : f.month = m) (hy : f.year = y)
    (h0 : 0 ≤ frac) (h1 : frac < 68) (hn : MixedDate d m y n) (hoct : ¬ (15 ≤ d ∧ m = 10 ∧ y = 1582)) :
    f.jd = (n : ℚ) - 1 / 2 + frac := by
  have key : ∀ c : Calendar, ∀ cal : Int, Refines cal c → c.Exists d m y → calendarForDate 0 m y JULIAN_GREGORIAN = cal →
      c.dayNumber d m y = n → d ≤ 31 → m ≤ 12 → f.jd = (n : ℚ) - 1 / 2 + frac := by
    intro c cal hc he hcal hn hd31 hm12
    obtain ⟨e1, e2, -⟩ := he
    have hd1 : (1 : ℚ) ≤ d := by exact_mod_cast e2
    have hd2 : (d : ℚ) ≤ 31 := by exact_mod_cast hd31
    unfold Found.jd
    rw [if_pos (by rw [hr, hm]; refine ⟨by omega, by omega, by linarith, by linarith⟩), hr, hm, hy,
      dmyToDay_of_calendarForDate hcal hc.notJG, hc.dmyToDay (by omega) (by omega), Option.getD_some, ← hn]
    have : c.dayNumber d m y = c.dayNumber 0 m y + d := by unfold Calendar.dayNumber; ring
    rw [this]
    push_cast
    ring
  rcases hn with ⟨he, hlt, hn⟩ | ⟨he, hlt, hn⟩
  · obtain ⟨h31, h12⟩ := roman_bounds rfl he
    refine key julian JULIAN julian_refines he ?_ hn (by omega) (by omega)
    unfold calendarForDate
    rw [if_pos rfl, if_neg]
    unfold DateLt at hlt
    omega
  · obtain ⟨h31, h12⟩ := roman_bounds rfl he
    refine key gregorian GREGORIAN gregorian_refines he ?_ hn (by omega) (by omega)
    unfold calendarForDate
    rw [if_pos rfl, if_pos]
    unfold DateLt at hlt
    omega

theorem padded_lt {w n : Nat} {s : List Nat} (h : Padded w n s) : n < 10 ^ w := by
  rw [← h.value, ← h.width]
  exact value_cons_lt h.digits

theorem civil_frac {t : List Nat} {d m y code : Nat} {frac : ℚ} (h : CivilField t d m y frac code) : 0 ≤ frac ∧ frac < 68 := by
  have hv : ∀ {w p v : Nat} {s : List Nat}, Column w p v s → (v : ℚ) / 10 ^ p < 1 := by
    intro w p v s hc
    obtain ⟨ds, hd, -, -⟩ := hc
    rw [div_lt_one (by positivity)]
    exact_mod_cast padded_lt hd
  have h99 : ∀ {n : Nat} {s : List Nat}, Padded 2 n s → (n : ℚ) < 100 := by
    intro n s hp
    exact_mod_cast padded_lt hp
  refine ⟨by cases h <;> positivity, ?_⟩
  cases h with
  | standard h1 h2 h3 h4 => have := hv h4; linarith
  | compact h1 h2 h3 h4 h5 h6 h7 => have := hv h6; linarith
  | seconds h1 h2 h3 h4 h5 h6 h7 h8 h9 =>
    have := hv h9
    have := h99 h6
    have := h99 h7
    have := h99 h8
    linarith
  | minutes h1 h2 h3 h4 h5 h6 h7 =>
    have := h99 h6
    have := h99 h7
    linarith

/-- C71: a date in any of the four civil formats is read as the Julian Date it stands for, and the number of the format
    is returned.  15 to 31 October 1582 are excluded (`C71_october`), and so are radar observations (`C71_radar`). -/
theorem C71_date {line t : List Nat} {d m y code : Nat} {frac : ℚ} {n : Int} (h : ObsLine line t)
    (ht : CivilField t d m y frac code) (hn : MixedDate d m y n) (hoct : ¬ (15 ≤ d ∧ m = 10 ∧ y = 1582))
    (hr : line[14]? ≠ some 82 ∧ line[14]? ≠ some 114) :
    extractDate line = ((n : ℚ) - 1 / 2 + frac, some code) := by
  have hr' := not_radar h.long hr
  obtain ⟨h0, h1⟩ := civil_frac ht
  have c := reads_civil ht
  rw [extract_line h, if_neg (fun hh => hr' hh.2), c.code, found_jd c.rval c.month c.year h0 h1 hn hoct]

/-- C71: a Julian Date or Modified Julian Date is read as such. -/
theorem C71_count {line t : List Nat} {jd : ℚ} {code : Nat} (h : ObsLine line t) (ht : CountField t jd code)
    (hr : line[14]? ≠ some 82 ∧ line[14]? ≠ some 114) : extractDate line = (jd, some code) := by
  have hr' := not_radar h.long hr
  obtain ⟨h1, h2, h3⟩ := reads_count ht
  have : (readField (fillZeroes t) (fillMask t)).jd = jd := by
    unfold Found.jd
    rw [if_neg (by rw [h2]; omega), h1]
  rw [extract_line h, if_neg (fun hh => hr' hh.2), h3, this]

/-- **Finding** (C71): 15 to 31 October 1582 come out ten days late, because the calendar is chosen for day 0 of the
    month. -/
theorem C71_october {line t : List Nat} {d code : Nat} {frac : ℚ} (h : ObsLine line t) (ht : CivilField t d 10 1582 frac code)
    (h15 : 15 ≤ d) (h31 : d ≤ 31) (hr : line[14]? ≠ some 82 ∧ line[14]? ≠ some 114) :
    extractDate line = ((gregorian.dayNumber d 10 1582 : ℚ) + 10 - 1 / 2 + frac, some code) := by
  have hr' := not_radar h.long hr
  obtain ⟨h0, h1⟩ := civil_frac ht
  have c := reads_civil ht
  have hd1 : (15 : ℚ) ≤ d := by exact_mod_cast h15
  have hd2 : (d : ℚ) ≤ 31 := by exact_mod_cast h31
  have hj : dmyToDay 0 10 1582 JULIAN_GREGORIAN = some 2299156 := by decide +kernel
  have hg : gregorian.dayNumber 0 10 1582 = 2299146 := by
    have h1 := gregorian_refines.dmyToDay (d := 0) (m := 10) (y := 1582) (by omega) (by omega)
    have h2 : dmyToDay 0 10 1582 GREGORIAN = some 2299146 := by decide +kernel
    rw [h2] at h1
    exact (Option.some.inj h1).symm
  have hd : gregorian.dayNumber d 10 1582 = gregorian.dayNumber 0 10 1582 + d := by unfold Calendar.dayNumber; ring
  have : (readField (fillZeroes t) (fillMask t)).jd = (gregorian.dayNumber d 10 1582 : ℚ) + 10 - 1 / 2 + frac := by
    unfold Found.jd
    have hm : (readField (fillZeroes t) (fillMask t)).month = 10 := c.month
    have hy : (readField (fillZeroes t) (fillMask t)).year = 1582 := c.year
    rw [if_pos (by rw [c.rval, hm]; refine ⟨by omega, by omega, by linarith, by linarith⟩), c.rval, hm, hy, hj, hd, hg,
      Option.getD_some]
    push_cast
    ring
  rw [extract_line h, if_neg (fun hh => hr' hh.2), c.code, this]

theorem radarRound_eq (x : ℚ) : radarRound x = (⌊x * 86400 + 1 / 2⌋ : ℚ) / 86400 := by
  unfold radarRound fmod
  simp only
  have : (x - (⌊x⌋ : ℚ) + 1 / 2 / 86400) / (1 / 86400) = (x * 86400 + 1 / 2) - ((86400 * ⌊x⌋ : Int) : ℚ) := by
    push_cast
    field_simp
    ring
  rw [this, Int.floor_sub_intCast]
  push_cast
  field_simp
  ring

/-- C71: the time of a radar observation is rounded to a whole second. -/
theorem C71_radar {line t : List Nat} {d m y code : Nat} {frac : ℚ} {n : Int} (h : ObsLine line t)
    (ht : CivilField t d m y frac code) (hn : MixedDate d m y n) (hoct : ¬ (15 ≤ d ∧ m = 10 ∧ y = 1582))
    (hr : line[14]? = some 82 ∨ line[14]? = some 114) (h0 : (n : ℚ) - 1 / 2 + frac ≠ 0) :
    extractDate line = ((⌊((n : ℚ) - 1 / 2 + frac) * 86400 + 1 / 2⌋ : ℚ) / 86400, some code) := by
  have hr' : at? line 14 = 82 ∨ at? line 14 = 114 := hr.imp at_of_get at_of_get
  obtain ⟨f0, f1⟩ := civil_frac ht
  have c := reads_civil ht
  have hjd := found_jd c.rval c.month c.year f0 f1 hn hoct
  rw [extract_line h, if_pos ⟨by rw [hjd]; exact h0, hr'⟩, c.code, hjd, radarRound_eq]

/-- C71: a line of another length is not taken for an observation. -/
theorem C71_length {line : List Nat} (h : line.length < 80 ∨ 82 < line.length) : extractDate line = (0, none) := by
  unfold extractDate
  rw [if_pos (by omega)]

/-- C71: nor is one with another byte in column 13. -/
theorem C71_mark {line : List Nat} {c : Nat} (h : line[12]? = some c) (h1 : c ≠ 32) (h2 : c ≠ 42) (h3 : c ≠ 45) :
    extractDate line = (0, none) := by
  unfold extractDate
  rw [at_of_get h]
  split
  · rfl
  · rw [if_pos ⟨h1, h2, h3⟩]

/-- C71: nor is one without a station code in columns 78-80. -/
theorem C71_code {line : List Nat} {i c : Nat} (h : line[i]? = some c) (h1 : 77 ≤ i) (h2 : i < 80) (hc : c ≤ 32 ∨ 122 < c) :
    extractDate line = (0, none) := by
  have : isValidMpcCode (line.drop 77) = false := by
    cases hv : isValidMpcCode (line.drop 77) with
    | false => rfl
    | true =>
      unfold isValidMpcCode at hv
      rw [List.all_eq_true] at hv
      have := hv (i - 77) (by rw [List.mem_range]; omega)
      rw [drop_at, show 77 + (i - 77) = i by omega, at_of_get h] at this
      simp at this
      omega
  unfold extractDate
  rw [this]
  split
  · rfl
  · split
    · rfl
    · rfl

/-- **Finding** (C71): a date without a month is not rejected: the day of the month is returned as if it were a Julian
    Date. -/
theorem C71_no_month {line t : List Nat} {d m y code : Nat} {frac : ℚ} (h : ObsLine line t) (ht : CivilField t d m y frac code)
    (hm : m = 0 ∨ 12 < m) (hr : line[14]? ≠ some 82 ∧ line[14]? ≠ some 114) : extractDate line = ((d : ℚ) + frac, some code) := by
  have hr' := not_radar h.long hr
  have c := reads_civil ht
  have : (readField (fillZeroes t) (fillMask t)).jd = (d : ℚ) + frac := by
    unfold Found.jd
    rw [if_neg (by rw [c.month]; omega), c.rval]
  rw [extract_line h, if_neg (fun hh => hr' hh.2), c.code, this]

/-- A line with a date. -/
def sampleLine : List Nat := bytes "     K13C01A  C2013 02 13.14159 10 20 30.45 +11 22 33.4          19.5 V      703"

theorem sampleLine_obs : ObsLine sampleLine (bytes "2013 02 13.14159 ") where
  long := by decide +kernel
  short := by decide +kernel
  mark := by decide +kernel
  code := by
    intro i h1 h2
    interval_cases i
    · exact ⟨55, by decide +kernel, by omega, by omega⟩
    · exact ⟨48, by decide +kernel, by omega, by omega⟩
    · exact ⟨51, by decide +kernel, by omega, by omega⟩
  field := by decide +kernel

theorem padded_of {w n : Nat} {s : List Nat} (h1 : s.length = w) (h2 : ∀ c ∈ s, 48 ≤ c ∧ c ≤ 57) (h3 : value s = n) : Padded w n s := by
  exact ⟨h2, h3, h1⟩

theorem sampleLine_field : CivilField (bytes "2013 02 13.14159 ") 13 2 2013 ((14159 : Nat) / 10 ^ 5 : ℚ) 5 :=
  .standard (z := true) (z' := true) (yyyy := bytes "2013") (mm := bytes "02") (dd := bytes "13") (s := bytes "14159 ")
    (padded_of (by decide +kernel) (by decide +kernel) (by decide +kernel))
    (padded_of (by decide +kernel) (by decide +kernel) (by decide +kernel))
    (padded_of (by decide +kernel) (by decide +kernel) (by decide +kernel))
    ⟨bytes "14159", padded_of (by decide +kernel) (by decide +kernel) (by decide +kernel), by omega, by decide +kernel⟩

example : ∃ jd, extractDate sampleLine = (jd, some 5) :=
  ⟨_, C71_date (n := gregorian.dayNumber 13 2 2013) sampleLine_obs sampleLine_field
    (Or.inr ⟨⟨by decide, by decide, 28, by decide +kernel, by decide⟩, by unfold DateLt; omega, rfl⟩) (by omega) (by decide +kernel)⟩

example : CountField (bytes "2456336.641592653") ((2456336 : Nat) + (641592653 : Nat) / 10 ^ 9 : ℚ) 19 :=
  .jd (a := bytes "2456336") (s := bytes "641592653")
    (padded_of (by decide +kernel) (by decide +kernel) (by decide +kernel))
    ⟨bytes "641592653", padded_of (by decide +kernel) (by decide +kernel) (by decide +kernel), by omega, by decide +kernel⟩ (by omega)

end Verif.Props
