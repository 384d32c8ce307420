import Verif.Props.CtimeLayout
import Verif.Props.TimeKeys

/-!
# Property theorems: times printed as Julian Dates and years (C70)
-/

namespace Verif.Props

open Verif Verif.Date Verif.Spec Verif.Time Verif.GetTime

variable {K : Type} [Field K] [LinearOrder K] [IsStrictOrderedRing K] [FloorRing K]

/-- `s` is the number `N` in units of `10^-p`, with a minus sign or not. -/
def Written (p : Nat) (neg : Bool) (N : Nat) (s : List Nat) : Prop :=
  ∃ whole frac, Numeral (N / 10 ^ p) whole ∧ Decimals p (N % 10 ^ p) frac ∧ s = (if neg then [45] else []) ++ whole ++ frac

theorem roundEven_near (x : K) : |(roundEven x : K) - x| ≤ 1 / 2 := by
  have a := Int.floor_le x
  have b := Int.lt_floor_add_one x
  unfold roundEven
  rw [abs_le]
  split_ifs <;> push_cast <;> constructor <;> linarith

omit [IsStrictOrderedRing K] in
theorem roundEven_nonneg {x : K} (h : 0 ≤ x) : 0 ≤ roundEven x := by
  have : 0 ≤ ⌊x⌋ := Int.floor_nonneg.2 h
  unfold roundEven
  split_ifs <;> omega

theorem roundEven_half (n : Int) : roundEven ((n : K) + 1 / 2) = if n % 2 = 0 then n else n + 1 := by
  have hf : ⌊(n : K) + 1 / 2⌋ = n := by
    rw [Int.floor_eq_iff]
    constructor <;> linarith
  unfold roundEven
  rw [hf]
  have e : (n : K) + 1 / 2 - n = 1 / 2 := by ring
  rw [e]
  simp

theorem decimals_pad (p v : Nat) (h : v < 10 ^ p) : Decimals p v (if p = 0 then [] else 46 :: pad p v) := by
  by_cases hp : p = 0
  · subst hp
    exact Or.inl ⟨rfl, by simpa using h, by simp⟩
  · rw [if_neg hp]
    exact Or.inr ⟨by omega, _, padded_pad h (by omega), rfl⟩

/-- `%.pLf` writes a number of units that is nearest. -/
theorem fmtFixed_written (p : Nat) (x : K) :
    ∃ N, N = (roundEven (|x| * 10 ^ p)).toNat ∧ Written p (decide (x < 0)) N (fmtFixed p x) ∧ |(N : K) - |x| * 10 ^ p| ≤ 1 / 2 := by
  have hx : (0 : K) ≤ |x| * 10 ^ p := by positivity
  have hr := roundEven_nonneg hx
  refine ⟨(roundEven (|x| * 10 ^ p)).toNat, rfl, ⟨_, _, numeral_dec _, decimals_pad p _ (Nat.mod_lt _ (by positivity)), ?_⟩, ?_⟩
  · unfold fmtFixed
    by_cases h : x < 0 <;> simp [h]
  · have : (((roundEven (|x| * 10 ^ p)).toNat : Nat) : K) = (roundEven (|x| * 10 ^ p) : K) := by
      have : (((roundEven (|x| * 10 ^ p)).toNat : Nat) : Int) = roundEven (|x| * 10 ^ p) := Int.toNat_of_nonneg hr
      exact_mod_cast this
    rw [this]
    exact roundEven_near _

theorem decimals_length_eq {p v : Nat} {s : List Nat} (h : Decimals p v s) : s.length = if p = 0 then 0 else p + 1 := by
  rcases h with ⟨rfl, _, rfl⟩ | ⟨hp, ds, hd, rfl⟩
  · rfl
  · rw [if_neg (by omega), List.length_cons, hd.width]

theorem Written.length_le {p N k : Nat} {neg : Bool} {s : List Nat} (h : Written p neg N s) (hN : N < 10 ^ (k + 1) * 10 ^ p) :
    s.length ≤ k + p + 3 := by
  obtain ⟨w, f, hw, hf, rfl⟩ := h
  have h1 : N / 10 ^ p < 10 ^ (k + 1) := Nat.div_lt_of_lt_mul (by rw [Nat.mul_comm]; exact hN)
  have h2 := dec_length_le h1
  rw [← hw.eq_dec] at h2
  have h3 := decimals_length_eq hf
  have h4 : (if neg = true then [45] else ([] : List Nat)).length ≤ 1 := by cases neg <;> simp
  rw [List.length_append, List.length_append]
  split_ifs at h3 <;> omega

/-- The number of units with its sign. -/
def withSign (neg : Bool) (N : Nat) : Int := if neg then -(N : Int) else N

/-- The count of days that is printed: the Julian Date, or the modified one. -/
def dayCount (mjd : Bool) (t : K) : K := t + 2451545 - (if mjd then 2400000 + 1 / 2 else 0)

omit [IsStrictOrderedRing K] in
theorem addOnDay_scaled (p : Nat) (rnd : Bool) : (addOnDay p rnd : K) * 10 ^ p = if rnd then 1 / 2 else 1 / 1728000 := by
  unfold addOnDay
  have h : ((1 : K) / 10) ^ p * 10 ^ p = 1 := by rw [← mul_pow]; norm_num
  calc ((1 : K) / 10) ^ p * (if rnd = true then 1 / 2 else 1 / 20 / 86400) * 10 ^ p
      = ((1 : K) / 10) ^ p * 10 ^ p * (if rnd = true then 1 / 2 else 1 / 20 / 86400) := by ring
    _ = _ := by rw [h, one_mul]; cases rnd <;> norm_num

/-- What is printed as JD or MJD, in terms of the number handed to `%.pLf`. -/
theorem ctimeJd_text (mjd : Bool) (p : Nat) (hp : p ≤ 15) (rnd : Bool) (t y : K) (hy : y = dayCount mjd t + addOnDay p rnd) (hr : |y| < 10 ^ 40) :
    ∃ N s, N = (roundEven (|y| * 10 ^ p)).toNat ∧ ctimeJd mjd p rnd t = .ok ((if mjd then bytes "MJD " else bytes "JD ") ++ s) ∧
      Written p (decide (y < 0)) N s ∧ |(N : K) - |y| * 10 ^ p| ≤ 1 / 2 := by
  obtain ⟨N, hN, hw, hn⟩ := fmtFixed_written p y
  refine ⟨N, _, hN, ?_, hw, hn⟩
  have hx : t + addOnDay p rnd + (if mjd = true then 2451545 - 4800001 / 2 else 2451545) = y := by
    rw [hy]
    unfold dayCount
    cases mjd <;> norm_num <;> ring
  have hlt : N < 10 ^ 41 * 10 ^ p := by
    have h1 := (abs_le.1 hn).2
    have h2 : |y| * 10 ^ p ≤ 10 ^ 40 * 10 ^ p := by
      apply mul_le_mul_of_nonneg_right hr.le
      positivity
    have h3 : (1 : K) ≤ 10 ^ p := one_le_pow₀ (by norm_num)
    have h4 : (N : K) < 10 ^ 41 * 10 ^ p := by
      have e : (10 : K) ^ 41 = 10 * 10 ^ 40 := by norm_num
      have : (0 : K) < 10 ^ 40 := by positivity
      rw [e]
      generalize (10 : K) ^ 40 = a at *
      nlinarith
    exact_mod_cast h4
  have hl := hw.length_le hlt
  unfold ctimeJd
  simp only [hx]
  rw [if_neg (by rw [List.length_append, show (bytes "JD ").length = 3 by decide]; omega)]
  cases mjd
  · simp
  · simp [bytes]

/-- **C70**: with the Julian Date formats, what is printed is a number of units with its sign (the sign of the number after
    the allowance), and without rounding it is the nearest one, up to an allowance of 1/1728000 of a unit. -/
theorem C70_jd (mjd : Bool) (p : Nat) (hp : p ≤ 15) (t : K) (hr : |dayCount mjd t| + 1 < 10 ^ 40) :
    ∃ neg N s, ctimeJd mjd p false t = .ok ((if mjd then bytes "MJD " else bytes "JD ") ++ s) ∧ Written p neg N s ∧
      (0 ≤ dayCount mjd t → neg = false) ∧
      |(withSign neg N : K) - dayCount mjd t * 10 ^ p| ≤ 1 / 2 + 1 / 1728000 := by
  have ha := addOnDay_scaled (K := K) p false
  rw [if_neg (by decide)] at ha
  have hp1 : (1 : K) ≤ 10 ^ p := one_le_pow₀ (by norm_num)
  have ha0 : (0 : K) < addOnDay p false := by unfold addOnDay; positivity
  have ha1 : (addOnDay p false : K) ≤ 1 := by nlinarith
  obtain ⟨N, s, -, h1, h2, h3⟩ := ctimeJd_text mjd p hp false t _ rfl (by
    refine lt_of_le_of_lt (abs_add_le _ _) ?_
    rw [abs_of_pos ha0]
    linarith)
  refine ⟨_, N, s, h1, h2, fun h0 => by rw [decide_eq_false_iff_not]; linarith, ?_⟩
  have ey : (dayCount mjd t + addOnDay p false) * 10 ^ p = dayCount mjd t * 10 ^ p + 1 / 1728000 := by rw [add_mul, ha]
  rw [abs_le] at h3 ⊢
  unfold withSign
  by_cases hneg : dayCount mjd t + addOnDay p false < 0
  · rw [abs_of_neg hneg, neg_mul, ey] at h3
    simp only [hneg, decide_true, if_true]
    push_cast
    constructor <;> linarith [h3.1, h3.2]
  · rw [abs_of_nonneg (not_lt.1 hneg), ey] at h3
    simp only [hneg, decide_false]
    push_cast
    constructor <;> norm_num <;> linarith [h3.1, h3.2]

/-- **C70**: a count that is a whole number of units is printed exactly. -/
theorem C70_jd_exact (mjd : Bool) (p : Nat) (hp : p ≤ 15) (t : K) (M : Nat) (hM : dayCount mjd t * 10 ^ p = M) (hr : |dayCount mjd t| + 1 < 10 ^ 40) :
    ∃ s, ctimeJd mjd p false t = .ok ((if mjd then bytes "MJD " else bytes "JD ") ++ s) ∧ Written p false M s := by
  obtain ⟨neg, N, s, h1, h2, h0, h3⟩ := C70_jd mjd p hp t hr
  have hd : 0 ≤ dayCount mjd t := by
    by_contra h
    have : dayCount mjd t * 10 ^ p < 0 := mul_neg_of_neg_of_pos (not_le.1 h) (by positivity)
    rw [hM] at this
    exact absurd this (not_lt.2 (Nat.cast_nonneg M))
  have hf := h0 hd
  subst hf
  refine ⟨s, h1, ?_⟩
  rw [hM, abs_le] at h3
  unfold withSign at h3
  simp only [Bool.false_eq_true, if_false] at h3
  have a : N < M + 1 := by
    have : (N : K) < M + 1 := by have := h3.2; push_cast at this; linarith
    exact_mod_cast this
  have b : M < N + 1 := by
    have : (M : K) < N + 1 := by have := h3.1; push_cast at this; linarith
    exact_mod_cast this
  rwa [show M = N by omega]

/-- **C70**, finding: with the rounding flag half a unit is added, and `%.pLf` then rounds once more: what is printed is
    never below the count and up to a unit above it. -/
theorem C70_jd_rounding (mjd : Bool) (p : Nat) (hp : p ≤ 15) (t : K) (h0 : 0 ≤ dayCount mjd t) (hr : dayCount mjd t + 1 < 10 ^ 40) :
    ∃ N s, ctimeJd mjd p true t = .ok ((if mjd then bytes "MJD " else bytes "JD ") ++ s) ∧ Written p false N s ∧
      dayCount mjd t * 10 ^ p ≤ N ∧ (N : K) ≤ dayCount mjd t * 10 ^ p + 1 := by
  have ha := addOnDay_scaled (K := K) p true
  rw [if_pos rfl] at ha
  have hp1 : (1 : K) ≤ 10 ^ p := one_le_pow₀ (by norm_num)
  have ha0 : (0 : K) < addOnDay p true := by unfold addOnDay; positivity
  have ha1 : (addOnDay p true : K) ≤ 1 := by nlinarith
  obtain ⟨N, s, -, h1, h2, h3⟩ := ctimeJd_text mjd p hp true t _ rfl (by
    rw [abs_of_nonneg (by linarith)]
    linarith)
  have hneg : ¬ dayCount mjd t + addOnDay p true < 0 := by rw [not_lt]; linarith
  rw [decide_eq_false hneg] at h2
  refine ⟨N, s, h1, h2, ?_⟩
  rw [abs_of_nonneg (not_lt.1 hneg), add_mul, ha, abs_le] at h3
  constructor <;> linarith [h3.1, h3.2]

/-- **C70**, finding: with the rounding flag a count that is an odd whole number of units is printed one unit too high. -/
theorem C70_jd_rounding_exact (mjd : Bool) (p : Nat) (hp : p ≤ 15) (t : K) (M : Nat) (hM : dayCount mjd t * 10 ^ p = M) (hr : dayCount mjd t + 1 < 10 ^ 40) :
    ∃ s, ctimeJd mjd p true t = .ok ((if mjd then bytes "MJD " else bytes "JD ") ++ s) ∧ Written p false (if M % 2 = 0 then M else M + 1) s := by
  have ha := addOnDay_scaled (K := K) p true
  rw [if_pos rfl] at ha
  have hp1 : (1 : K) ≤ 10 ^ p := one_le_pow₀ (by norm_num)
  have ha0 : (0 : K) < addOnDay p true := by unfold addOnDay; positivity
  have ha1 : (addOnDay p true : K) ≤ 1 := by nlinarith
  have h0 : 0 ≤ dayCount mjd t := by
    by_contra h
    have : dayCount mjd t * 10 ^ p < 0 := mul_neg_of_neg_of_pos (not_le.1 h) (by positivity)
    rw [hM] at this
    exact absurd this (not_lt.2 (Nat.cast_nonneg M))
  obtain ⟨N, s, hN, h1, h2, -⟩ := ctimeJd_text mjd p hp true t _ rfl (by
    rw [abs_of_nonneg (by linarith)]
    linarith)
  have hneg : ¬ dayCount mjd t + addOnDay p true < 0 := by rw [not_lt]; linarith
  rw [decide_eq_false hneg] at h2
  refine ⟨s, h1, ?_⟩
  rw [abs_of_nonneg (not_lt.1 hneg), add_mul, ha, hM] at hN
  have hh := roundEven_half (K := K) (M : Int)
  rw [Int.cast_natCast] at hh
  rw [hh] at hN
  have : N = if M % 2 = 0 then M else M + 1 := by
    rw [hN]
    split_ifs <;> omega
  rwa [← this]

omit [FloorRing K] in
theorem Written.decimal {p N : Nat} {s : List Nat} (h : Written p false N s) : Decimal ((N : K) / 10 ^ p) (decide (0 < p)) s := by
  obtain ⟨w, f, hw, hf, rfl⟩ := h
  have e : (N : K) / 10 ^ p = ((N / 10 ^ p : Nat) : K) + ((N % 10 ^ p : Nat) : K) / 10 ^ p := by
    have h0 : (10 : K) ^ p ≠ 0 := by positivity
    have := Nat.div_add_mod N (10 ^ p)
    have h1 : ((10 ^ p * (N / 10 ^ p) + N % 10 ^ p : Nat) : K) = (N : K) := by rw [this]
    push_cast at h1
    rw [← h1]
    field_simp
  rcases hf with ⟨rfl, h0, rfl⟩ | ⟨hp, ds, hd, rfl⟩
  · refine ⟨N, ⟨?_, ?_, ?_⟩, by simp⟩
    · simpa using hw.digits
    · simpa using hw.nonempty
    · simpa using hw.value
  · rw [decide_eq_true hp]
    refine ⟨N / 10 ^ p, N % 10 ^ p, w, ds, ⟨hw.digits, hw.nonempty, hw.value⟩, ⟨hd.digits, ?_, hd.value⟩, by simp, ?_⟩
    · intro h
      have := hd.width
      rw [h, List.length_nil] at this
      omega
    · rw [hd.width]
      exact e

theorem spacedOut_key (a b : Nat) (s : List Nat) (h : ¬ Boundary a b) : spacedOut (a :: b :: s) = lower a :: spacedOut (b :: s) := by
  rw [spacedOut, if_neg h]

theorem spacedOut_figures : ∀ (s : List Nat), (∀ c ∈ s, c = 46 ∨ (48 ≤ c ∧ c ≤ 57)) → spacedOut s = s
  | [], _ => rfl
  | [a], h => by
    have := h a (by simp)
    simp only [spacedOut, lower]
    rw [if_neg (by omega)]
  | a :: b :: s, h => by
    have ha := h a (by simp)
    have hb := h b (by simp)
    rw [spacedOut_key a b s (by unfold Boundary Letter Figure; omega), spacedOut_figures (b :: s) (fun c hc => h c (by simp [hc]))]
    unfold lower
    rw [if_neg (by omega)]

theorem Written.figures {p N : Nat} {s : List Nat} (h : Written p false N s) : (∀ c ∈ s, c = 46 ∨ (48 ≤ c ∧ c ≤ 57)) ∧ s ≠ [] := by
  obtain ⟨w, f, hw, hf, rfl⟩ := h
  constructor
  · intro c hc
    rw [if_neg (by decide), List.nil_append, List.mem_append] at hc
    rcases hc with hc | hc
    · exact Or.inr (hw.digits c hc)
    · rcases hf with ⟨rfl, h0, rfl⟩ | ⟨hp, ds, hd, rfl⟩
      · simp at hc
      · rcases List.mem_cons.1 hc with rfl | hc
        · exact Or.inl rfl
        · exact Or.inr (hd.digits c hc)
  · have := hw.nonempty
    simp [this]

theorem spacedOut_jd {p N : Nat} {s : List Nat} (h : Written p false N s) :
    spacedOut (bytes "JD " ++ s) = bytes "jd " ++ s ∧ spacedOut (bytes "MJD " ++ s) = bytes "mjd " ++ s := by
  obtain ⟨hf, hn⟩ := h.figures
  have hs := spacedOut_figures s hf
  have e : spacedOut (32 :: s) = 32 :: s := by
    cases s with
    | nil => exact absurd rfl hn
    | cons b s =>
      rw [spacedOut_key 32 b s (by unfold Boundary Letter Figure; omega), hs]
      rfl
  constructor
  · show spacedOut (74 :: 68 :: 32 :: s) = _
    rw [spacedOut_key _ _ _ (by unfold Boundary Letter Figure; omega), spacedOut_key _ _ _ (by unfold Boundary Letter Figure; omega), e]
    rfl
  · show spacedOut (77 :: 74 :: 68 :: 32 :: s) = _
    rw [spacedOut_key _ _ _ (by unfold Boundary Letter Figure; omega), spacedOut_key _ _ _ (by unfold Boundary Letter Figure; omega),
      spacedOut_key _ _ _ (by unfold Boundary Letter Figure; omega), e]
    rfl

/-- **C70**: a time printed as a Julian Date is read back as that Julian Date: to the nearest unit, up to the allowance. -/
theorem C70_jd_back (env : Env K) (f : Fmt) (init : K) (mjd : Bool) (p : Nat) (hp : p ≤ 15) (t : K) (h0 : 1 ≤ dayCount mjd t)
    (hr : dayCount mjd t + 1 < 10 ^ 40) :
    ∃ text t', ctimeJd mjd p false t = .ok text ∧ getTimeFromString env f init text = .ok (t', 1) ∧ |t' - t| * 10 ^ p ≤ 1 / 2 + 1 / 1728000 := by
  obtain ⟨neg, N, s, h1, h2, hf, h3⟩ := C70_jd mjd p hp t (by rw [abs_of_nonneg (by linarith)]; exact hr)
  have := hf (by linarith)
  subst this
  have hpos : (0 : K) < 10 ^ p := by positivity
  have hp1 : (1 : K) ≤ 10 ^ p := one_le_pow₀ (by norm_num)
  unfold withSign at h3
  simp only [Bool.false_eq_true, if_false, Int.cast_natCast] at h3
  have hN0 : (N : K) ≠ 0 := by
    intro h
    rw [h, abs_le] at h3
    nlinarith [h3.1]
  have hlt : N < 10 ^ 41 * 10 ^ p := by
    have h1 := (abs_le.1 h3).2
    have h4 : (N : K) < 10 ^ 41 * 10 ^ p := by
      have e : (10 : K) ^ 41 = 10 * 10 ^ 40 := by norm_num
      have : (1 : K) ≤ 10 ^ 40 := by norm_num
      rw [e]
      generalize (10 : K) ^ 40 = a at *
      nlinarith
    exact_mod_cast h4
  have hl := h2.length_le hlt
  have key : |(N : K) / 10 ^ p - dayCount mjd t| * 10 ^ p ≤ 1 / 2 + 1 / 1728000 := by
    rw [show (N : K) / 10 ^ p - dayCount mjd t = ((N : K) - dayCount mjd t * 10 ^ p) / 10 ^ p by field_simp, abs_div, abs_of_pos hpos,
      div_mul_cancel₀ _ hpos.ne']
    exact h3
  obtain ⟨e1, e2⟩ := spacedOut_jd h2
  cases mjd
  · refine ⟨_, _, h1, C68_jd env f init _ _ (bytes "jd ") s _ (Or.inl rfl) (h2.decimal (K := K)) (div_ne_zero hN0 hpos.ne') (by simp [bytes, at?]) e1 ?_, ?_⟩
    · rw [List.length_append, show (bytes "jd ").length = 3 by decide]; omega
    · rw [show (N : K) / 10 ^ p - 2451545 - t = (N : K) / 10 ^ p - dayCount false t by unfold dayCount; simp; ring]
      exact key
  · refine ⟨_, _, h1, C68_mjd env f init _ _ s _ (h2.decimal (K := K)) (by simp [bytes, at?]) e2 ?_, ?_⟩
    · rw [List.length_append, show (bytes "mjd ").length = 4 by decide]; omega
    · rw [show (N : K) / 10 ^ p + (2400000 + 1 / 2) - 2451545 - t = (N : K) / 10 ^ p - dayCount true t by unfold dayCount; simp; ring]
      exact key

/-! ## Years -/

/-- The year with decimals, in Julian years of 365.25 days from 2000. -/
def julianYear (t : K) : K := t / (365 + 1 / 4) + 2000

theorem zeroLead_blanks (k : Nat) (s : List Nat) (h : ∀ c ∈ s.head?, c ≠ 32) : zeroLead (List.replicate k 32 ++ s) = List.replicate k 48 ++ s := by
  induction k with
  | zero =>
    cases s with
    | nil => rfl
    | cons a s =>
      have : a ≠ 32 := h a (by simp)
      simp [zeroLead, this]
  | succ k ih =>
    rw [List.replicate_succ, List.cons_append, zeroLead, ih, List.replicate_succ, List.cons_append]

/-- Cutting off digits divides by a power of ten. -/
theorem padded_take {q n p : Nat} {ds : List Nat} (hp : p ≤ q) (h : Padded q (n % 10 ^ q) ds) : Padded p (n / 10 ^ (q - p) % 10 ^ p) (ds.take p) := by
  have hl : (ds.take p).length = p := by rw [List.length_take, h.width]; omega
  refine ⟨fun c hc => h.digits c (List.mem_of_mem_take hc), ?_, hl⟩
  have hv := value_append (ds.take p) (ds.drop p)
  rw [List.take_append_drop, h.value, List.length_drop, h.width] at hv
  have hd : value (ds.drop p) < 10 ^ (q - p) := by
    have := value_cons_lt (s := ds.drop p) (fun c hc => h.digits c (List.mem_of_mem_drop hc))
    rwa [List.length_drop, h.width] at this
  have e : 10 ^ q = 10 ^ (q - p) * 10 ^ p := by rw [← pow_add]; congr 1; omega
  rw [← Nat.mod_mul_right_div_self, ← e, hv, Nat.mul_comm, Nat.mul_add_div (by positivity), Nat.div_eq_of_lt hd, Nat.add_zero]

/-- The text of the year, from its 16 decimals. -/
theorem ctimeYear_text (p : Nat) (hp : p ≤ 15) (lz rnd : Bool) (t y : K) (hy : y = julianYear t + addOnDay p rnd / (365 + 1 / 4)) (h0 : 0 ≤ y)
    (N : Nat) (hN : N = (roundEven (|y| * 10 ^ 16)).toNat) (h4 : N < 10 ^ 20) :
    ∃ whole frac, ctimeYear p lz rnd t = .ok (whole ++ frac) ∧ Justified lz 4 ((N / 10 ^ (16 - p) / 10 ^ p : Nat) : Int) whole ∧
      Decimals p (N / 10 ^ (16 - p) % 10 ^ p) frac := by
  obtain ⟨M, hM, hw, -⟩ := fmtFixed_written 16 y
  obtain rfl : M = N := by rw [hM, hN]
  rw [decide_eq_false (not_lt.2 h0)] at hw
  obtain ⟨w, f, hw, hf, hs⟩ := hw
  rw [if_neg (by decide), List.nil_append] at hs
  have e : (10 : Nat) ^ 16 = 10 ^ (16 - p) * 10 ^ p := by rw [← pow_add]; congr 1; omega
  have hdiv : M / 10 ^ (16 - p) / 10 ^ p = M / 10 ^ 16 := by rw [Nat.div_div_eq_div_mul, ← e]
  have hwl : w.length ≤ 4 := by
    have h1 : M / 10 ^ 16 < 10 ^ (3 + 1) := Nat.div_lt_of_lt_mul (by norm_num; omega)
    have := dec_length_le h1
    rwa [← hw.eq_dec] at this
  have hfl := decimals_length_eq hf
  rw [if_neg (by decide)] at hfl
  have hx : (t + addOnDay p rnd) / (1461 / 4) + 2000 = y := by
    rw [hy]
    unfold julianYear
    ring
  have hw0 : ∀ c ∈ w.head?, c ≠ 32 := by
    intro c hc
    have := hw.digits c (List.mem_of_mem_head? hc)
    omega
  obtain ⟨g, hg, htake⟩ : ∃ g, Decimals p (M / 10 ^ (16 - p) % 10 ^ p) g ∧
      (List.replicate (4 - w.length) 32 ++ (w ++ f)).take (if p = 0 then 4 else p + 5) = List.replicate (4 - w.length) 32 ++ (w ++ g) := by
    rw [← List.append_assoc]
    by_cases hp0 : p = 0
    · subst hp0
      refine ⟨[], Or.inl ⟨rfl, by simp [Nat.mod_one], rfl⟩, ?_⟩
      rw [if_pos rfl, List.append_nil, List.take_append, List.take_of_length_le (by simp; omega)]
      rw [show 4 - (List.replicate (4 - w.length) (32 : Nat) ++ w).length = 0 by rw [List.length_append, List.length_replicate]; omega]
      simp
    · rcases hf with ⟨h, _⟩ | ⟨-, ds, hd, rfl⟩
      · omega
      · refine ⟨46 :: ds.take p, Or.inr ⟨by omega, _, padded_take (by omega) hd, rfl⟩, ?_⟩
        rw [if_neg hp0, List.take_append, List.take_of_length_le (by simp; omega)]
        rw [show p + 5 - (List.replicate (4 - w.length) (32 : Nat) ++ w).length = p + 1 by rw [List.length_append, List.length_replicate]; omega,
          List.take_succ_cons, List.append_assoc]
  have hout : ctimeYear p lz rnd t = .ok (if lz = true then zeroLead (List.replicate (4 - w.length) 32 ++ (w ++ g)) else List.replicate (4 - w.length) 32 ++ (w ++ g)) := by
    unfold ctimeYear
    simp only [hx, hs]
    rw [show 21 - (w ++ f).length = 4 - w.length by rw [List.length_append]; omega, if_neg (by simp only [List.length_append, List.length_replicate]; omega), htake]
  have hw' : Numeral ((M / 10 ^ (16 - p) / 10 ^ p : Nat) : Int).natAbs w := by
    rw [Int.natAbs_natCast, hdiv]
    exact hw
  have hz : ¬ ((M / 10 ^ (16 - p) / 10 ^ p : Nat) : Int) < 0 := by omega
  cases lz
  · refine ⟨List.replicate (4 - w.length) 32 ++ w, g, ?_, ⟨w, hw', ?_⟩, hg⟩
    · rw [hout]; simp
    · simp only [if_neg hz, Bool.false_eq_true, if_false, Nat.sub_zero, List.append_nil, List.nil_append]
  · refine ⟨List.replicate (4 - w.length) 48 ++ w, g, ?_, ⟨w, hw', ?_⟩, hg⟩
    · rw [hout, if_pos rfl, zeroLead_blanks]
      · simp
      · intro c hc
        apply hw0 c
        rw [List.head?_append] at hc
        cases w with
        | nil => exact absurd rfl hw.nonempty
        | cons a w => simpa using hc
    · simp only [if_neg hz, if_true, Nat.sub_zero, List.append_nil, List.nil_append]

/-- What the year is, in units of the last decimal. -/
theorem year_bounds (p : Nat) (hp : p ≤ 15) (rnd : Bool) (Y : K) (h0 : 0 ≤ Y) (L : Nat) (h1 : Y + 1 / 500 ≤ L) (y : K) (hy : y = Y + addOnDay p rnd / (365 + 1 / 4))
    (N : Nat) (hN : N = (roundEven (|y| * 10 ^ 16)).toNat) :
    0 ≤ y ∧ N < L * 10 ^ 16 ∧ Y * 10 ^ p - 1 - (1 / 10) ^ (16 - p) / 2 < ((N / 10 ^ (16 - p) : Nat) : K) ∧
      ((N / 10 ^ (16 - p) : Nat) : K) ≤ Y * 10 ^ p + 2 / 1461 + (1 / 10) ^ (16 - p) / 2 ∧ (∀ M : Nat, Y * 10 ^ p = M → N / 10 ^ (16 - p) = M) ∧
      (∀ M : Nat, M ≤ Y * 10 ^ p → M ≤ N / 10 ^ (16 - p)) := by
  have ha := addOnDay_scaled (K := K) p rnd
  have hp1 : (1 : K) ≤ 10 ^ p := one_le_pow₀ (by norm_num)
  have ha0 : (0 : K) < addOnDay p rnd := by unfold addOnDay; cases rnd <;> positivity
  have ha2 : (addOnDay p rnd : K) * 10 ^ p ≤ 1 / 2 := by rw [ha]; cases rnd <;> norm_num
  have ha1 : (addOnDay p rnd : K) ≤ 1 / 2 := by nlinarith
  have hy0 : 0 ≤ y := by rw [hy]; positivity
  have hyY : Y < y := by
    rw [hy]
    have : (0 : K) < addOnDay p rnd / (365 + 1 / 4) := by positivity
    linarith
  have hyp : y * 10 ^ p ≤ Y * 10 ^ p + 2 / 1461 := by
    rw [hy, add_mul, div_mul_eq_mul_div]
    have : (addOnDay p rnd : K) * 10 ^ p / (365 + 1 / 4) ≤ 1 / 2 / (365 + 1 / 4) := by
      apply div_le_div_of_nonneg_right ha2
      norm_num
    have e : (1 : K) / 2 / (365 + 1 / 4) = 2 / 1461 := by norm_num
    linarith
  obtain ⟨M, hM, -, hn⟩ := fmtFixed_written 16 y
  obtain rfl : M = N := by rw [hM, hN]
  rw [abs_of_nonneg hy0, abs_le] at hn
  have hM : M < L * 10 ^ 16 := by
    have hy1 : y ≤ Y + 2 / 1461 := by
      have : y = Y + addOnDay p rnd * (4 / 1461) := by rw [hy]; ring
      rw [this]
      linarith
    have : (M : K) < L * 10 ^ 16 := by
      have e2 : (2 : K) < 10 ^ 16 / 10000 := by norm_num
      have := hn.2
      generalize (10 : K) ^ 16 = u at *
      nlinarith
    exact_mod_cast this
  have hu : (0 : K) < 10 ^ (16 - p) := by positivity
  have hinv : ((1 : K) / 10) ^ (16 - p) * 10 ^ (16 - p) = 1 := by rw [← mul_pow]; norm_num
  have e16 : (10 : K) ^ 16 = 10 ^ p * 10 ^ (16 - p) := by rw [← pow_add]; congr 1; omega
  rw [e16] at hn
  have hq1 : ((M / 10 ^ (16 - p) : Nat) : K) * 10 ^ (16 - p) ≤ M := by
    have := Nat.div_mul_le_self M (10 ^ (16 - p))
    exact_mod_cast this
  have hq2 : (M : K) + 1 ≤ (((M / 10 ^ (16 - p) : Nat) : K) + 1) * 10 ^ (16 - p) := by
    have := Nat.lt_mul_div_succ M (show 0 < 10 ^ (16 - p) by positivity)
    rw [Nat.mul_comm] at this
    have : M + 1 ≤ (M / 10 ^ (16 - p) + 1) * 10 ^ (16 - p) := this
    exact_mod_cast this
  have lower : Y * 10 ^ p - 1 - (1 / 10) ^ (16 - p) / 2 < ((M / 10 ^ (16 - p) : Nat) : K) := by
    have hYp : Y * 10 ^ p < y * 10 ^ p := by apply mul_lt_mul_of_pos_right hyY; positivity
    refine lt_of_mul_lt_mul_right ?_ hu.le
    rw [sub_mul, sub_mul, div_mul_eq_mul_div, hinv]
    have hYq : Y * 10 ^ p * 10 ^ (16 - p) < y * 10 ^ p * 10 ^ (16 - p) := mul_lt_mul_of_pos_right hYp hu
    have := hn.1
    have e : y * (10 ^ p * 10 ^ (16 - p)) = y * 10 ^ p * 10 ^ (16 - p) := by ring
    rw [e] at this
    linarith
  have upper : ((M / 10 ^ (16 - p) : Nat) : K) ≤ Y * 10 ^ p + 2 / 1461 + (1 / 10) ^ (16 - p) / 2 := by
    refine le_of_mul_le_mul_right ?_ hu
    rw [add_mul, div_mul_eq_mul_div ((1 / 10 : K) ^ (16 - p)), hinv]
    have := mul_le_mul_of_nonneg_right hyp hu.le
    have h2 := hn.2
    have e : y * (10 ^ p * 10 ^ (16 - p)) = y * 10 ^ p * 10 ^ (16 - p) := by ring
    rw [e] at h2
    linarith
  have least : ∀ Q : Nat, Q ≤ Y * 10 ^ p → Q ≤ M / 10 ^ (16 - p) := by
    intro Q hQ
    rw [Nat.le_div_iff_mul_le (by positivity)]
    have hYp : Y * 10 ^ p < y * 10 ^ p := by apply mul_lt_mul_of_pos_right hyY; positivity
    have hYq : Y * 10 ^ p * 10 ^ (16 - p) < y * 10 ^ p * 10 ^ (16 - p) := mul_lt_mul_of_pos_right hYp hu
    have hQq := mul_le_mul_of_nonneg_right hQ hu.le
    have h6 := hn.1
    have e : y * (10 ^ p * 10 ^ (16 - p)) = y * 10 ^ p * 10 ^ (16 - p) := by ring
    rw [e] at h6
    have : (Q : K) * 10 ^ (16 - p) < M + 1 := by linarith
    have : Q * 10 ^ (16 - p) < M + 1 := by exact_mod_cast this
    omega
  refine ⟨hy0, hM, lower, upper, fun Q hQ => ?_, least⟩
  have hten : ((1 : K) / 10) ^ (16 - p) ≤ 1 / 10 := by
    have : ((1 : K) / 10) ^ (16 - p) ≤ (1 / 10) ^ 1 := pow_le_pow_of_le_one (by norm_num) (by norm_num) (by omega)
    simpa using this
  have h3 : M / 10 ^ (16 - p) < Q + 1 := by
    have : ((M / 10 ^ (16 - p) : Nat) : K) < Q + 1 := by rw [hQ] at upper; linarith
    exact_mod_cast this
  have h5 := least Q hQ.ge
  omega

/-- **C70**: with the year format, the year (0 to 9999) is printed in four bytes with the decimals cut off, whether the
    rounding flag is given or not; a year that is a whole number of units is printed exactly. -/
theorem C70_year (p : Nat) (hp : p ≤ 15) (lz rnd : Bool) (t : K) (h0 : 0 ≤ julianYear t) (h1 : julianYear t + 1 / 500 ≤ 10000) :
    ∃ (N : Nat) (whole frac : List Nat), ctimeYear p lz rnd t = .ok (whole ++ frac) ∧ Justified lz 4 ((N / 10 ^ p : Nat) : Int) whole ∧ Decimals p (N % 10 ^ p) frac ∧
      julianYear t * 10 ^ p - 1 - (1 / 10) ^ (16 - p) / 2 < N ∧ (N : K) ≤ julianYear t * 10 ^ p + 2 / 1461 + (1 / 10) ^ (16 - p) / 2 ∧
      (∀ M : Nat, julianYear t * 10 ^ p = M → N = M) := by
  obtain ⟨b0, b1, b2, b3, b4, -⟩ := year_bounds p hp rnd (julianYear t) h0 10000 (by exact_mod_cast h1) _ rfl _ rfl
  obtain ⟨w, f, c1, c2, c3⟩ := ctimeYear_text p hp lz rnd t _ rfl b0 _ rfl (by omega)
  exact ⟨_, w, f, c1, c2, c3, b2, b3, b4⟩

/-- **C70**, finding: the year is read back half a day early: `get_time_from_string` has the year begin at midnight,
    `full_ctime` at noon. -/
theorem C70_year_back (env : Env K) (f : Fmt) (init : K) (p : Nat) (hp : p ≤ 15) (lz rnd : Bool) (t : K) (M : Nat) (hM : julianYear t * 10 ^ p = M)
    (h0 : 1000 ≤ julianYear t) (h1 : julianYear t + 1 / 500 ≤ 10000) :
    ∃ text, ctimeYear p lz rnd t = .ok text ∧ getTimeFromString env f init (bytes "y " ++ text) = .ok (t - 1 / 2, 0) := by
  obtain ⟨N, w, g, c1, c2, c3, -, -, c4⟩ := C70_year p hp lz rnd t (by linarith) h1
  have hN := c4 M hM
  subst hN
  have hpos : (0 : K) < 10 ^ p := by positivity
  obtain ⟨ds, hds, hw⟩ := c2
  rw [Int.natAbs_natCast] at hds
  have hz : ¬ ((N / 10 ^ p : Nat) : Int) < 0 := not_lt.2 (Int.natCast_nonneg _)
  have hq : 1000 ≤ N / 10 ^ p := by
    rw [Nat.le_div_iff_mul_le (by positivity)]
    have : (1000 : K) * 10 ^ p ≤ N := by rw [← hM]; exact mul_le_mul_of_nonneg_right h0 hpos.le
    exact_mod_cast this
  have hl : 4 ≤ ds.length := by
    have h2 := value_cons_lt hds.digits
    rw [hds.value] at h2
    by_contra h
    have : 10 ^ ds.length ≤ 10 ^ 3 := Nat.pow_le_pow_right (by norm_num) (by omega)
    omega
  have hl' : ds.length ≤ 4 := by
    have h2 : N / 10 ^ p < 10 ^ (3 + 1) := by
      apply Nat.div_lt_of_lt_mul
      have : (N : K) < 10 ^ p * 10 ^ 4 := by rw [← hM]; nlinarith
      exact_mod_cast this
    have := dec_length_le h2
    rwa [← hds.eq_dec] at this
  have hw' : w = ds := by
    rw [hw, if_neg hz, if_neg hz, show 4 - ds.length - 0 = 0 by omega]
    cases lz <;> simp
  subst hw'
  have hwr : Written p false N (w ++ g) := ⟨w, g, hds, c3, by simp⟩
  refine ⟨_, c1, ?_⟩
  obtain ⟨hf, hn⟩ := hwr.figures
  have hs := spacedOut_figures _ hf
  have hsp : spacedOut (bytes "y " ++ (w ++ g)) = bytes "y " ++ (w ++ g) := by
    show spacedOut (121 :: 32 :: (w ++ g)) = _
    rw [spacedOut_key _ _ _ (by unfold Boundary Letter Figure; omega)]
    generalize w ++ g = s at hs hn ⊢
    cases s with
    | nil => exact absurd rfl hn
    | cons b s =>
      rw [spacedOut_key 32 b s (by unfold Boundary Letter Figure; omega), hs]
      rfl
  have hgl := decimals_length_eq c3
  rw [C68_year env f init _ _ (w ++ g) _ (hwr.decimal (K := K)) (by simp [bytes, at?]) hsp
    (by rw [List.length_append, List.length_append, show (bytes "y ").length = 2 by decide, hgl]; split_ifs <;> omega)]
  refine congrArg (fun z => Run.ok (z, (0 : Int))) ?_
  rw [← hM, mul_div_assoc, div_self hpos.ne']
  unfold julianYear
  ring

/-- **C70**, finding: a year of five digits without decimals is printed without its last digit. -/
theorem C70_year_five (lz rnd : Bool) (t : K) (h0 : 10000 ≤ julianYear t) (h1 : julianYear t + 1 / 500 ≤ 100000) :
    ∃ (N : Nat) (text : List Nat), ctimeYear 0 lz rnd t = .ok text ∧ Padded 4 (N / 10) text ∧ julianYear t - 1 - (1 / 10) ^ 16 / 2 < N ∧
      (N : K) ≤ julianYear t + 2 / 1461 + (1 / 10) ^ 16 / 2 ∧ (∀ M : Nat, julianYear t = M → N = M) := by
  obtain ⟨b0, b1, b2, b3, b4, b5⟩ := year_bounds 0 (by omega) rnd (julianYear t) (by linarith) 100000 (by exact_mod_cast h1) _ rfl _ rfl
  simp only [pow_zero, mul_one, Nat.sub_zero] at b2 b3 b4 b5
  have b6 := b5 10000 (by exact_mod_cast h0)
  generalize hy : julianYear t + addOnDay 0 rnd / (365 + 1 / 4) = y at *
  obtain ⟨N, hN, hw, -⟩ := fmtFixed_written 16 y
  rw [← hN] at b1 b2 b3 b4 b5 b6
  rw [decide_eq_false (not_lt.2 b0)] at hw
  obtain ⟨w, f, hw, hf, hs⟩ := hw
  rw [if_neg (by decide), List.nil_append] at hs
  have hx : (t + addOnDay 0 rnd) / (1461 / 4) + 2000 = y := by
    rw [← hy]
    unfold julianYear
    ring
  have h5 : N / 10 ^ 16 < 10 ^ 5 := Nat.div_lt_of_lt_mul (by norm_num at b1 ⊢; omega)
  have hl : w.length = 5 := by
    have h2 := value_cons_lt hw.digits
    rw [hw.value] at h2
    have h3 := dec_length_le (k := 4) h5
    rw [← hw.eq_dec] at h3
    by_contra h
    have : 10 ^ w.length ≤ 10 ^ 4 := Nat.pow_le_pow_right (by norm_num) (by omega)
    omega
  have hpad : Padded 5 (N / 10 ^ 16 % 10 ^ 5) w := ⟨hw.digits, by rw [Nat.mod_eq_of_lt h5]; exact hw.value, hl⟩
  have h4 := padded_take (p := 4) (by omega) hpad
  have hfl := decimals_length_eq hf
  rw [if_neg (by decide)] at hfl
  refine ⟨N / 10 ^ 16, w.take 4, ?_, ?_, b2, b3, b4⟩
  · have hz : zeroLead (w.take 4) = w.take 4 := by
      have := zeroLead_blanks 0 (w.take 4) (by
        intro c hc
        have := h4.digits c (List.mem_of_mem_head? hc)
        omega)
      simpa using this
    unfold ctimeYear
    simp only [hx, hs]
    rw [show 21 - (w ++ f).length = 0 by rw [List.length_append]; omega, List.replicate_zero, List.nil_append,
      if_neg (by rw [List.length_append]; omega), if_pos trivial, List.take_append, show 4 - w.length = 0 by omega, List.take_zero, List.append_nil, hz]
    cases lz <;> rfl
  · rw [show N / 10 ^ 16 / 10 = N / 10 ^ 16 / 10 ^ (5 - 4) % 10 ^ 4 by omega]
    exact h4

/-! ## Examples -/

example : dayCount false (1 / 4 : ℚ) * 10 ^ 2 = (245154525 : ℕ) ∧ |dayCount false (1 / 4 : ℚ)| + 1 < 10 ^ 40 := by
  unfold dayCount
  constructor
  · norm_num
  · rw [abs_of_nonneg (by norm_num)]; norm_num

/-- The Julian Date 2451545 is printed as it is without, and as 2451546 with the rounding flag. -/
example : (∃ s, ctimeJd false 0 false (0 : ℚ) = .ok (bytes "JD " ++ s) ∧ Written 0 false 2451545 s) ∧
    (∃ s, ctimeJd false 0 true (0 : ℚ) = .ok (bytes "JD " ++ s) ∧ Written 0 false 2451546 s) :=
  ⟨C70_jd_exact false 0 (by omega) 0 2451545 (by norm_num [dayCount]) (by rw [abs_of_nonneg (by norm_num [dayCount])]; norm_num [dayCount]),
    C70_jd_rounding_exact false 0 (by omega) 0 2451545 (by norm_num [dayCount]) (by norm_num [dayCount])⟩

/-- The middle of 2009 and the year 12345. -/
example : ∃ text, ctimeYear 1 false true ((19 / 2 : ℚ) * (1461 / 4)) = .ok text ∧
    getTimeFromString exampleEnv exampleFmt 0 (bytes "y " ++ text) = .ok ((19 / 2 : ℚ) * (1461 / 4) - 1 / 2, 0) :=
  C70_year_back exampleEnv exampleFmt 0 1 (by omega) false true _ 20095 (by norm_num [julianYear]) (by norm_num [julianYear]) (by norm_num [julianYear])

example : (10000 : ℚ) ≤ julianYear ((10345 : ℚ) * (1461 / 4)) ∧ julianYear ((10345 : ℚ) * (1461 / 4)) + 1 / 500 ≤ 100000 := by
  unfold julianYear
  constructor <;> norm_num

end Verif.Props
