import Mathlib.Tactic.Linarith
import Mathlib.Tactic.SplitIfs
import Verif.Lemmas.Scan
import Verif.Model.Station
import Verif.Props.MpcAngle
import Verif.Spec.Station

/-!
# Property theorems: lines about observing stations (C76)
-/

namespace Verif.Props

open Verif Verif.Spec Verif.MpcLine Verif.Station Verif.Scan

theorem codeByte_iff (c : Nat) : codeByte c = true ↔ CodeByte c := by
  unfold codeByte CodeByte
  simp only [Bool.and_eq_true, decide_eq_true_eq, bne_iff_ne, ne_eq]
  omega

theorem at_mid {a : List Nat} {c n : Nat} {s : List Nat} (h : a.length = n) : at? (a ++ c :: s) n = c := by
  subst h
  simp [at?]

theorem drop_mid {a s : List Nat} {n : Nat} (h : a.length = n) : (a ++ s).drop n = s := List.drop_left' h

theorem column_count {k p v : Nat} {f r : List Nat} (h : Column k p v f) : min k (digitCount (f ++ r)) = p := by
  obtain ⟨ds, hd, hp, rfl⟩ := h
  rw [List.append_assoc, digitCount_append _ _ hd.digits, hd.width]
  by_cases hk : p = k
  · omega
  · have : isDigit (at? (List.replicate (k - p) 32 ++ r) 0) = false := by
      obtain ⟨m, hm⟩ : ∃ m, k - p = m + 1 := ⟨k - p - 1, by omega⟩
      rw [hm, List.replicate_succ]
      rfl
    rw [digitCount_stop _ this]
    omega

theorem quick_lead {l ds f : List Nat} {neg : Bool} {k p v : Nat} (hl : Lead l neg) (hd : AllDigits ds) (hne : ds ≠ []) (h9 : ds.length ≤ 9)
    (hf : Column k p v f) (hk : k ≤ 9) : quickAtof (l ++ (ds ++ 46 :: f)) = .ok (signed neg (value ds + (v : ℚ) / 10 ^ p)) := by
  have hlt : 10 ^ ds.length ≤ 10 ^ 9 := Nat.pow_le_pow_right (by omega) h9
  have := value_cons_lt hd
  obtain ⟨fs, hfs, hp, rfl⟩ := hf
  have hq := C73_decimal hl hd hfs.digits (Or.inl hne) (column_stops k p).1 (by unfold INT_MAX; omega) (by rw [hfs.width]; omega)
  unfold quickAtof
  rw [hq, hfs.value, hfs.width]
  rfl

/-- C76: a line of the list of stations is read in full. -/
theorem C76_standard {line code : List Nat} {lon rc rs : ℚ} {p q : Nat} (h : StationLine line code lon rc rs p q) :
    getMpcCodeInfo line = .ok ⟨3, code, 3, some 30, .parallaxes lon rc rs p q⟩ := by
  cases h with
  | @mk c0 c1 c2 k p v d q w e q' w' sgn ds f g h name h0 h1 h2 hds hne hk hf hd1 hd2 hg hs he1 he2 hh =>
    have lf := column_length hf
    have lg := column_length hg
    have lh := column_length hh
    have lB : (List.replicate k 32 ++ (ds ++ 46 :: f)).length = 9 := by simp; omega
    have e4 : at? ([c0, c1, c2, 32] ++ ((List.replicate k 32 ++ (ds ++ 46 :: f)) ++ ((d :: 46 :: g) ++ ((sgn :: e :: 46 :: h) ++ name)))) 4 ≠ 33 := by
      have hh := digits_head (rest := 46 :: f ++ ((d :: 46 :: g) ++ ((sgn :: e :: 46 :: h) ++ name))) hds hne
      have : at? ([c0, c1, c2, 32] ++ ((List.replicate k 32 ++ (ds ++ 46 :: f)) ++ ((d :: 46 :: g) ++ ((sgn :: e :: 46 :: h) ++ name)))) 4 =
          at? (List.replicate k 32 ++ (ds ++ (46 :: f ++ ((d :: 46 :: g) ++ ((sgn :: e :: 46 :: h) ++ name))))) 0 := by
        simp [at?]
      rw [this]
      cases k with
      | zero => rw [List.replicate_zero, List.nil_append]; omega
      | succ k => simp [List.replicate_succ, at?]
    have e7 : at? ([c0, c1, c2, 32] ++ ((List.replicate k 32 ++ (ds ++ 46 :: f)) ++ ((d :: 46 :: g) ++ ((sgn :: e :: 46 :: h) ++ name)))) 7 = 46 := by
      have : [c0, c1, c2, 32] ++ ((List.replicate k 32 ++ (ds ++ 46 :: f)) ++ ((d :: 46 :: g) ++ ((sgn :: e :: 46 :: h) ++ name))) =
          ([c0, c1, c2, 32] ++ (List.replicate k 32 ++ ds)) ++ 46 :: (f ++ ((d :: 46 :: g) ++ ((sgn :: e :: 46 :: h) ++ name))) := by simp
      rw [this]
      exact at_mid (by simp; omega)
    have d8 : ([c0, c1, c2, 32] ++ ((List.replicate k 32 ++ (ds ++ 46 :: f)) ++ ((d :: 46 :: g) ++ ((sgn :: e :: 46 :: h) ++ name)))).drop 8 =
        f ++ ((d :: 46 :: g) ++ ((sgn :: e :: 46 :: h) ++ name)) := by
      have : [c0, c1, c2, 32] ++ ((List.replicate k 32 ++ (ds ++ 46 :: f)) ++ ((d :: 46 :: g) ++ ((sgn :: e :: 46 :: h) ++ name))) =
          ([c0, c1, c2, 32] ++ (List.replicate k 32 ++ (ds ++ [46]))) ++ (f ++ ((d :: 46 :: g) ++ ((sgn :: e :: 46 :: h) ++ name))) := by simp
      rw [this]
      exact drop_mid (by simp; omega)
    generalize hB : List.replicate k 32 ++ (ds ++ 46 :: f) = B at *
    have e14 : at? ([c0, c1, c2, 32] ++ (B ++ ((d :: 46 :: g) ++ ((sgn :: e :: 46 :: h) ++ name)))) 14 = 46 := by
      have : [c0, c1, c2, 32] ++ (B ++ ((d :: 46 :: g) ++ ((sgn :: e :: 46 :: h) ++ name))) =
          ([c0, c1, c2, 32] ++ (B ++ [d])) ++ 46 :: (g ++ ((sgn :: e :: 46 :: h) ++ name)) := by simp
      rw [this]
      exact at_mid (by simp; omega)
    have e21 : at? ([c0, c1, c2, 32] ++ (B ++ ((d :: 46 :: g) ++ ((sgn :: e :: 46 :: h) ++ name)))) 21 = sgn := by
      have : [c0, c1, c2, 32] ++ (B ++ ((d :: 46 :: g) ++ ((sgn :: e :: 46 :: h) ++ name))) =
          ([c0, c1, c2, 32] ++ (B ++ (d :: 46 :: g))) ++ sgn :: (e :: 46 :: h ++ name) := by simp
      rw [this]
      exact at_mid (by simp; omega)
    have e23 : at? ([c0, c1, c2, 32] ++ (B ++ ((d :: 46 :: g) ++ ((sgn :: e :: 46 :: h) ++ name)))) 23 = 46 := by
      have : [c0, c1, c2, 32] ++ (B ++ ((d :: 46 :: g) ++ ((sgn :: e :: 46 :: h) ++ name))) =
          ([c0, c1, c2, 32] ++ (B ++ ((d :: 46 :: g) ++ [sgn, e]))) ++ 46 :: (h ++ name) := by simp
      rw [this]
      exact at_mid (by simp; omega)
    have e3 : at? ([c0, c1, c2, 32] ++ (B ++ ((d :: 46 :: g) ++ ((sgn :: e :: 46 :: h) ++ name)))) 3 = 32 := rfl
    have d4 : ([c0, c1, c2, 32] ++ (B ++ ((d :: 46 :: g) ++ ((sgn :: e :: 46 :: h) ++ name)))).drop 4 =
        B ++ ((d :: 46 :: g) ++ ((sgn :: e :: 46 :: h) ++ name)) := rfl
    have d13 : ([c0, c1, c2, 32] ++ (B ++ ((d :: 46 :: g) ++ ((sgn :: e :: 46 :: h) ++ name)))).drop 13 =
        (d :: 46 :: g) ++ ((sgn :: e :: 46 :: h) ++ name) := by
      rw [← List.append_assoc]
      exact drop_mid (by simp; omega)
    have d15 : ([c0, c1, c2, 32] ++ (B ++ ((d :: 46 :: g) ++ ((sgn :: e :: 46 :: h) ++ name)))).drop 15 =
        g ++ ((sgn :: e :: 46 :: h) ++ name) := by
      have : [c0, c1, c2, 32] ++ (B ++ ((d :: 46 :: g) ++ ((sgn :: e :: 46 :: h) ++ name))) =
          ([c0, c1, c2, 32] ++ (B ++ [d, 46])) ++ (g ++ ((sgn :: e :: 46 :: h) ++ name)) := by simp
      rw [this]
      exact drop_mid (by simp; omega)
    have d21 : ([c0, c1, c2, 32] ++ (B ++ ((d :: 46 :: g) ++ ((sgn :: e :: 46 :: h) ++ name)))).drop 21 =
        (sgn :: e :: 46 :: h) ++ name := by
      have : [c0, c1, c2, 32] ++ (B ++ ((d :: 46 :: g) ++ ((sgn :: e :: 46 :: h) ++ name))) =
          ([c0, c1, c2, 32] ++ (B ++ (d :: 46 :: g))) ++ ((sgn :: e :: 46 :: h) ++ name) := by simp
      rw [this]
      exact drop_mid (by simp; omega)
    have hw : countWhile codeByte ([c0, c1, c2, 32] ++ (B ++ ((d :: 46 :: g) ++ ((sgn :: e :: 46 :: h) ++ name)))) = 3 := by
      have h32 : codeByte 32 = false := rfl
      simp [countWhile, (codeByte_iff _).mpr h0, (codeByte_iff _).mpr h1, (codeByte_iff _).mpr h2, h32]
    have hl : 30 ≤ ([c0, c1, c2, 32] ++ (B ++ ((d :: 46 :: g) ++ ((sgn :: e :: 46 :: h) ++ name)))).length := by
      simp; omega
    have htake : ([c0, c1, c2, 32] ++ (B ++ ((d :: 46 :: g) ++ ((sgn :: e :: 46 :: h) ++ name)))).take 3 = [c0, c1, c2] := rfl
    have q1 : limitedAtof (B ++ ((d :: 46 :: g) ++ ((sgn :: e :: 46 :: h) ++ name))) 9 = .ok (value ds + (v : ℚ) / 10 ^ p) := by
      unfold limitedAtof
      rw [← lB, List.take_left, ← hB, quick_lead (.none k) hds hne (by omega) hf (by omega)]
      rfl
    have vd : ∀ c, 48 ≤ c → c ≤ 57 → AllDigits [c] ∧ value [c] = c - 48 := by
      intro c h1 h2
      exact ⟨by intro x hx; simp only [List.mem_singleton] at hx; omega, by simp [value]⟩
    have q2 : limitedAtof ((d :: 46 :: g) ++ ((sgn :: e :: 46 :: h) ++ name)) 8 = .ok (((d - 48 : Nat) : ℚ) + (w : ℚ) / 10 ^ q) := by
      unfold limitedAtof
      rw [List.take_left' (by simp; omega)]
      have := quick_lead (l := []) (.none 0) (vd d hd1 hd2).1 (by simp) (by simp) hg (by omega)
      rw [(vd d hd1 hd2).2] at this
      exact this
    have q3 : limitedAtof ((sgn :: e :: 46 :: h) ++ name) 9 = .ok (signed (sgn == 45) (((e - 48 : Nat) : ℚ) + (w' : ℚ) / 10 ^ q')) := by
      unfold limitedAtof
      rw [List.take_left' (by simp; omega)]
      have hlead : Lead [sgn] (sgn == 45) := by
        rcases hs with rfl | rfl | rfl
        · exact .plus 0
        · exact .minus 0
        · exact .none 1
      have := quick_lead hlead (vd e he1 he2).1 (by simp) (by simp) hh (by omega)
      rw [(vd e he1 he2).2] at this
      exact this
    unfold getMpcCodeInfo
    simp only [hw, if_pos (show 3 ≤ 3 ∧ 3 ≤ 4 ∧ 30 ≤ ([c0, c1, c2, 32] ++ (B ++ ((d :: 46 :: g) ++ ((sgn :: e :: 46 :: h) ++ name)))).length from
      ⟨by omega, by omega, hl⟩)]
    simp only [if_neg e4, e7, e14, e21, e23, e3, htake]
    have hsg : sgn ∈ bytes "+- " := by
      rcases hs with rfl | rfl | rfl <;> decide
    simp only [hsg, and_self, if_true]
    have hst : Station.standard ([c0, c1, c2, 32] ++ (B ++ ((d :: 46 :: g) ++ ((sgn :: e :: 46 :: h) ++ name)))) =
        .ok (3, some 30, .parallaxes (value ds + (v : ℚ) / 10 ^ p) (((d - 48 : Nat) : ℚ) + (w : ℚ) / 10 ^ q)
          (signed (sgn == 45) (((e - 48 : Nat) : ℚ) + (w' : ℚ) / 10 ^ q')) p q) := by
      unfold Station.standard
      rw [d4, d13, d21, q1, q2, q3, d8, d15, column_count hf, column_count hg]
      rfl
    rw [hst]
    simp only [Outcome.bind]
    rw [if_neg (by omega), if_neg (by decide)]
    have ht : Station.turn ((value ds : ℚ) + (v : ℚ) / 10 ^ p) = (value ds : ℚ) + (v : ℚ) / 10 ^ p := by
      unfold Station.turn
      rw [if_neg]
      have : (0 : ℚ) ≤ (value ds : ℚ) + (v : ℚ) / 10 ^ p := by positivity
      linarith
    rw [ht]

/-- C76: degrees, minutes and seconds run together. -/
theorem C76_base60 {d m s : Nat} {f : ℚ} (hm : m < 100) (hs : s < 100) (h0 : 0 ≤ f) (h1 : f < 1) (neg : Bool) :
    base60 (signed neg (((d * 10000 + m * 100 + s : Nat) : ℚ) + f)) = signed neg ((d : ℚ) + (m : ℚ) / 60 + ((s : ℚ) + f) / 3600) := by
  have hfl : ⌊((d * 10000 + m * 100 + s : Nat) : ℚ) + f⌋ = ((d * 10000 + m * 100 + s : Nat) : Int) := by
    rw [Int.floor_eq_iff]
    push_cast
    constructor <;> linarith
  have hp : (0 : ℚ) ≤ ((d * 10000 + m * 100 + s : Nat) : ℚ) := by positivity
  have t1 : (((d * 10000 + m * 100 + s : Nat) : Int)).tdiv 10000 = d := by
    rw [Int.tdiv_eq_ediv_of_nonneg (by omega)]; omega
  have t2 : ((((d * 10000 + m * 100 + s : Nat) : Int)).tdiv 100).tmod 100 = m := by
    rw [Int.tdiv_eq_ediv_of_nonneg (by omega), Int.tmod_eq_emod_of_nonneg (by omega)]; omega
  have t3 : (((d * 10000 + m * 100 + s : Nat) : Int)).tmod 100 = s := by
    rw [Int.tmod_eq_emod_of_nonneg (by omega)]; omega
  have hpos : base60 (((d * 10000 + m * 100 + s : Nat) : ℚ) + f) = (d : ℚ) + (m : ℚ) / 60 + ((s : ℚ) + f) / 3600 := by
    unfold base60
    rw [if_neg (by linarith)]
    simp only [hfl, t1, t2, t3]
    push_cast
    ring
  cases neg
  · simpa [signed] using hpos
  · by_cases hz : ((d * 10000 + m * 100 + s : Nat) : ℚ) + f = 0
    · have e := hpos
      rw [hz] at e
      simp only [signed, if_true, hz, neg_zero]
      have : base60 0 = 0 := by
        unfold base60
        simp
      rw [this] at e ⊢
      linarith
    · have hcl : ⌈-(((d * 10000 + m * 100 + s : Nat) : ℚ) + f)⌉ = -((d * 10000 + m * 100 + s : Nat) : Int) := by
        rw [Int.ceil_neg, hfl]
      simp only [signed, if_true]
      unfold base60
      rw [if_pos (by
        have : 0 < ((d * 10000 + m * 100 + s : Nat) : ℚ) + f := lt_of_le_of_ne (by linarith) (Ne.symm hz)
        linarith)]
      simp only [hcl, Int.neg_tdiv, Int.neg_tmod, t1, t2, t3]
      push_cast
      ring

theorem lead_start {l ds : List Nat} {neg : Bool} (h : Lead l neg) (hd : 48 ≤ at? ds 0 ∧ at? ds 0 ≤ 57) :
    sign (skipSpace (l ++ ds)) = (neg, ds) := by
  have blanks : ∀ (k : Nat) (t : List Nat), skipSpace (List.replicate k 32 ++ t) = skipSpace t := by
    intro k t
    induction k with
    | zero => rfl
    | succ k ih => rw [List.replicate_succ, List.cons_append, skipSpace, if_pos (by rfl), ih]
  cases h with
  | none k => rw [blanks, skipSpace_of (by simp [isSpace]; omega), sign_of (by omega) (by omega)]
  | plus k =>
    rw [List.append_assoc, blanks, List.cons_append, List.nil_append, skipSpace, if_neg (by decide)]
    rfl
  | minus k =>
    rw [List.append_assoc, blanks, List.cons_append, List.nil_append, skipSpace, if_neg (by decide)]
    rfl

theorem written_scan {t : List Nat} {x : ℚ} (h : Written t x) {r : List Nat} (hr : Stops r) :
    scanReal (K := ℚ) (t ++ r) = some (x, r) := by
  cases h with
  | @whole l ds neg hl hd hne =>
    unfold scanReal
    rw [List.append_assoc, lead_start hl (digits_head hd hne)]
    simp only [mantissa_digits hd hne hr.1 hr.2.1, exponent_none hr.2.2.1 hr.2.2.2, real_zero]
    rw [if_neg (by rintro (h1 | h1); exacts [hr.2.2.1 h1, hr.2.2.2 h1])]
    simp [signed]
  | @decimal l ds fs neg hl hd hne hf =>
    unfold scanReal
    rw [List.append_assoc, lead_start hl (by rw [List.append_assoc]; exact digits_head hd hne)]
    simp only [mantissa_decimal hd hf (Or.inl hne) hr.1, exponent_none hr.2.2.1 hr.2.2.2, real_zero]
    rw [if_neg (by rintro (h1 | h1); exacts [hr.2.2.1 h1, hr.2.2.2 h1])]
    have : (10 : ℚ) ^ fs.length ≠ 0 := pow_ne_zero _ (by norm_num)
    have e : ((value ds * 10 ^ fs.length + value fs : Nat) : ℚ) / 10 ^ fs.length = value ds + (value fs : ℚ) / 10 ^ fs.length := by
      push_cast
      field_simp
    rw [e]
    rfl

theorem written_no_at {t : List Nat} {x : ℚ} (h : Written t x) : ∀ c ∈ t, c ≠ 64 := by
  have lead : ∀ {l : List Nat} {neg : Bool}, Lead l neg → ∀ c ∈ l, c ≠ 64 := by
    intro l neg hl c hc
    cases hl <;> simp at hc <;> omega
  cases h with
  | whole hl hd hne =>
    intro c hc
    rcases List.mem_append.mp hc with hc | hc
    · exact lead hl c hc
    · have := hd c hc; omega
  | decimal hl hd hne hf =>
    intro c hc
    rcases List.mem_append.mp hc with hc | hc
    · exact lead hl c hc
    · rcases List.mem_append.mp hc with hc | hc
      · have := hd c hc; omega
      · rcases List.mem_cons.mp hc with hc | hc
        · omega
        · have := hf c hc; omega

theorem planet_tail {r : List Nat} {p : Int} (h : Planet r p) :
    (if r.dropWhile (· ≠ 64) = [] then 3 else Station.atoi ((r.dropWhile (· ≠ 64)).drop 1)) = p ∧
      (r.dropWhile (· ≠ 64) = [] → ¬ p > 9000) := by
  cases h with
  | earth hr =>
    have : r.dropWhile (· ≠ 64) = [] := by
      have := List.dropWhile_append_of_pos (p := fun x => decide (x ≠ 64)) (l₁ := r) (l₂ := []) (by intro c hc; simpa using hr c hc)
      simpa using this
    rw [this]
    exact ⟨rfl, fun _ => by omega⟩
  | @other a l ds b neg ha hl hd hne hb =>
    have : (a ++ 64 :: (l ++ (ds ++ b))).dropWhile (· ≠ 64) = 64 :: (l ++ (ds ++ b)) := by
      rw [List.dropWhile_append_of_pos (by intro c hc; simpa using ha c hc), List.dropWhile_cons_of_neg (by simp)]
    rw [this]
    refine ⟨?_, by simp⟩
    rw [if_neg (by simp), List.drop_succ_cons, List.drop_zero]
    have hst : isDigit (at? b 0) = false := by
      rw [isDigit_false]
      cases b with
      | nil => left; decide
      | cons c b => exact hb c rfl
    obtain ⟨h1, h2⟩ := digits_span hd hst 0
    have hl' : ds.length ≠ 0 := by simpa using hne
    unfold Station.atoi scanInt
    rw [lead_start hl (digits_head hd hne)]
    simp only [h1, h2, readDigits_eq ds hd, if_neg hl']
    rfl

/-- What is stored for a line of rovers.txt. -/
def rovered (p : Int) (lon lat alt : ℚ) : Outcome (Int × Option Nat × Fix) :=
  if p > 9000 then .ok (p, some 47, .place 0 0 0 false)
  else if lat ≠ 0 ∧ lon ≠ 0 ∧ p < 0 then .ub
  else .ok (p, some 47, .place lon lat alt (lat ≠ 0 ∧ lon ≠ 0))

theorem rover_core {pre a b c r : List Nat} {x y z : ℚ} {p : Int} (hp : pre.length = 4) (ha : Written a x) (hb : Written b y)
    (hc : Written c z) (sb : ∀ s, Stops (b ++ s)) (sc : ∀ s, Stops (c ++ s)) (hr : Stops r) (h : Planet r p) :
    rover (pre ++ 33 :: (a ++ (b ++ (c ++ r)))) =
      if |x| > 361 ∨ |y| > 91 then rovered p (base60 x) (base60 y) z else rovered p x y z := by
  have d5 : (pre ++ 33 :: (a ++ (b ++ (c ++ r)))).drop 5 = a ++ (b ++ (c ++ r)) := by
    have : pre ++ 33 :: (a ++ (b ++ (c ++ r))) = (pre ++ [33]) ++ (a ++ (b ++ (c ++ r))) := by simp
    rw [this]
    exact drop_mid (by simp; omega)
  have d4 : (pre ++ 33 :: (a ++ (b ++ (c ++ r)))).drop 4 = 33 :: (a ++ (b ++ (c ++ r))) := drop_mid hp
  have hw : (33 :: (a ++ (b ++ (c ++ r)))).dropWhile (fun x => decide (x ≠ 64)) = r.dropWhile (fun x => decide (x ≠ 64)) := by
    have e : 33 :: (a ++ (b ++ (c ++ r))) = (33 :: (a ++ (b ++ c))) ++ r := by simp
    rw [e, List.dropWhile_append_of_pos]
    intro q hq
    simp only [decide_eq_true_eq]
    rcases List.mem_cons.mp hq with hq | hq
    · omega
    · rcases List.mem_append.mp hq with hq | hq
      · exact written_no_at ha q hq
      · rcases List.mem_append.mp hq with hq | hq
        · exact written_no_at hb q hq
        · exact written_no_at hc q hq
  obtain ⟨h1, h2⟩ := planet_tail h
  unfold rover
  rw [d5, d4]
  simp only [written_scan ha (sb _), written_scan hb (sc _), written_scan hc hr, hw, h1]
  generalize r.dropWhile (fun x => decide (x ≠ 64)) = u at h2
  unfold rovered
  have hpt : decide (u ≠ [] ∧ p > 9000) = decide (p > 9000) := by
    rw [decide_eq_decide]
    exact ⟨fun h => h.2, fun h => ⟨fun e => h2 e h, h⟩⟩
  simp only [hpt]
  by_cases h9 : p > 9000
  · simp [h9]
  · by_cases hf : |x| > 361 ∨ |y| > 91
    · simp [h9, hf, and_assoc]
    · simp [h9, hf, and_assoc]

/-- What `getMpcCodeInfo` does with what `rover` found. -/
def finished (code : List Nat) (b : Int × Option Nat × Fix) : Outcome Info :=
  if b.1 = -1 then .ok ⟨-1, code, 3, none, b.2.2⟩
  else .ok ⟨b.1, code, b.1, b.2.1, match b.2.2 with
    | .place lon lat alt c => .place (Station.turn lon) lat alt c
    | .parallaxes lon rc rs p q => .parallaxes (Station.turn lon) rc rs p q
    | f => f⟩

theorem stops_blank (s : List Nat) : Stops (32 :: s) := ⟨rfl, by simp [at?], by simp [at?], by simp [at?]⟩

theorem rover_line {line code r : List Nat} {x y z : ℚ} {p : Int} (h : RoverHead line code x y z) (hr : Stops r)
    (hl : 30 ≤ (line ++ r).length) (hp : Planet r p) :
    getMpcCodeInfo (line ++ r) =
      (if |x| > 361 ∨ |y| > 91 then rovered p (base60 x) (base60 y) z else rovered p x y z).bind (finished code) := by
  have hcb : ∀ c, CodeByte c → codeByte c = true := fun c h => (codeByte_iff c).mpr h
  have n32 : codeByte 32 = false := by decide
  have n33 : codeByte 33 = false := by decide
  cases h with
  | @three c0 c1 c2 a b c x y z h0 h1 h2 ha hb hc =>
    have hcore := rover_core (pre := [c0, c1, c2, 32]) rfl ha hb hc (fun s => stops_blank _) (fun s => stops_blank _) hr hp
    have e : [c0, c1, c2, 32, 33] ++ (a ++ (32 :: b ++ 32 :: c)) ++ r = [c0, c1, c2, 32] ++ 33 :: (a ++ (32 :: b ++ (32 :: c ++ r))) := by simp
    rw [e] at hl ⊢
    unfold getMpcCodeInfo
    have hi : countWhile codeByte ([c0, c1, c2, 32] ++ 33 :: (a ++ (32 :: b ++ (32 :: c ++ r)))) = 3 := by
      simp [countWhile, hcb _ h0, hcb _ h1, hcb _ h2, n32]
    have e4 : at? ([c0, c1, c2, 32] ++ 33 :: (a ++ (32 :: b ++ (32 :: c ++ r)))) 4 = 33 := at_mid rfl
    have e3 : at? ([c0, c1, c2, 32] ++ 33 :: (a ++ (32 :: b ++ (32 :: c ++ r)))) 3 = 32 := rfl
    simp only [hi, e4, e3, hcore, if_true]
    rw [if_pos ⟨by omega, by omega, hl⟩]
    congr 1
  | @four c0 c1 c2 c3 a b c x y z h0 h1 h2 h3 ha hb hc =>
    have hcore := rover_core (pre := [c0, c1, c2, c3]) rfl ha hb hc (fun s => stops_blank _) (fun s => stops_blank _) hr hp
    have e : [c0, c1, c2, c3, 33] ++ (a ++ (32 :: b ++ 32 :: c)) ++ r = [c0, c1, c2, c3] ++ 33 :: (a ++ (32 :: b ++ (32 :: c ++ r))) := by simp
    rw [e] at hl ⊢
    unfold getMpcCodeInfo
    have hi : countWhile codeByte ([c0, c1, c2, c3] ++ 33 :: (a ++ (32 :: b ++ (32 :: c ++ r)))) = 4 := by
      simp [countWhile, hcb _ h0, hcb _ h1, hcb _ h2, hcb _ h3, n33]
    have e4 : at? ([c0, c1, c2, c3] ++ 33 :: (a ++ (32 :: b ++ (32 :: c ++ r)))) 4 = 33 := at_mid rfl
    have e3 : at? ([c0, c1, c2, c3] ++ 33 :: (a ++ (32 :: b ++ (32 :: c ++ r)))) 3 = c3 := rfl
    have h32 : ¬ c3 = 32 := by unfold CodeByte at h3; omega
    simp only [hi, e4, e3, hcore, if_true, if_neg h32]
    rw [if_pos ⟨by omega, by omega, hl⟩]
    congr 1

/-- C76: a line of rovers.txt in decimal degrees gives the code, the planet, the longitude (east, not negative), latitude and height. -/
theorem C76_rover {line code r : List Nat} {x y z : ℚ} {p : Int} (h : RoverHead line code x y z) (hr : Stops r)
    (hl : 30 ≤ (line ++ r).length) (hp : Planet r p) (h0 : 0 ≤ p) (h9 : p ≤ 9000) (hx : |x| ≤ 361) (hy : |y| ≤ 91) :
    getMpcCodeInfo (line ++ r) = .ok ⟨p, code, p, some 47, .place (if x < 0 then x + 360 else x) y z (y ≠ 0 ∧ x ≠ 0)⟩ := by
  rw [rover_line h hr hl hp, if_neg (by simp only [gt_iff_lt, not_or, not_lt]; exact ⟨hx, hy⟩)]
  unfold rovered
  rw [if_neg (by omega), if_neg (by omega)]
  simp [Outcome.bind, finished, Station.turn, show ¬ p = -1 by omega]

/-- C76: if the longitude or the latitude is beyond its range, both are degrees, minutes and seconds run together. -/
theorem C76_rover_base60 {line code r : List Nat} {x y z : ℚ} {p : Int} (h : RoverHead line code x y z) (hr : Stops r)
    (hl : 30 ≤ (line ++ r).length) (hp : Planet r p) (h0 : 0 ≤ p) (h9 : p ≤ 9000) (hxy : 361 < |x| ∨ 91 < |y|) :
    getMpcCodeInfo (line ++ r) = .ok ⟨p, code, p, some 47,
      .place (if base60 x < 0 then base60 x + 360 else base60 x) (base60 y) z (base60 y ≠ 0 ∧ base60 x ≠ 0)⟩ := by
  rw [rover_line h hr hl hp, if_pos (by simpa only [gt_iff_lt] using hxy)]
  unfold rovered
  rw [if_neg (by omega), if_neg (by omega)]
  simp [Outcome.bind, finished, Station.turn, show ¬ p = -1 by omega]

/-- C76: a dynamical point has no place. -/
theorem C76_point {line code r : List Nat} {x y z : ℚ} {p : Int} (h : RoverHead line code x y z) (hr : Stops r)
    (hl : 30 ≤ (line ++ r).length) (hp : Planet r p) (h9 : 9000 < p) :
    getMpcCodeInfo (line ++ r) = .ok ⟨p, code, p, some 47, .place 0 0 0 false⟩ := by
  rw [rover_line h hr hl hp]
  unfold rovered
  rw [if_pos (show p > 9000 from h9), if_pos (show p > 9000 from h9), ite_self]
  simp [Outcome.bind, finished, Station.turn, show ¬ p = -1 by omega]

/-- Finding: a negative planet makes the program read before the beginning of its table of radii, wherever the place is off the equator
    and the prime meridian. -/
theorem C76_negative_planet {line code r : List Nat} {x y z : ℚ} {p : Int} (h : RoverHead line code x y z) (hr : Stops r)
    (hl : 30 ≤ (line ++ r).length) (hp : Planet r p) (h0 : p < 0) (hx : |x| ≤ 361) (hy : |y| ≤ 91) (hx0 : x ≠ 0) (hy0 : y ≠ 0) :
    getMpcCodeInfo (line ++ r) = .ub := by
  rw [rover_line h hr hl hp, if_neg (by simp only [gt_iff_lt, not_or, not_lt]; exact ⟨hx, hy⟩)]
  unfold rovered
  rw [if_neg (by omega), if_pos ⟨hy0, hx0, h0⟩]
  rfl

/-- Finding: with fewer than three bytes, the copying of the code goes past the end. -/
theorem C76_short {line : List Nat} (h : line.length < 3) : getMpcCodeInfo line = .ub := by
  unfold getMpcCodeInfo
  simp only [if_neg (show ¬ (3 ≤ countWhile codeByte line ∧ countWhile codeByte line ≤ 4 ∧ 30 ≤ line.length) by omega)]
  simp [Outcome.bind, h]

theorem count_run {p : Nat → Bool} {a b : List Nat} (ha : ∀ c ∈ a, p c = true) (hb : ∀ c, b.head? = some c → p c = false) :
    countWhile p (a ++ b) = a.length := by
  induction a with
  | nil =>
    cases b with
    | nil => rfl
    | cons c b => simp [countWhile, hb c rfl]
  | cons c a ih =>
    simp [countWhile, ha c (by simp)]
    exact ih (fun c hc => ha c (by simp [hc]))

/-- C76: a spacecraft: the code, and blanks up to the name. -/
theorem C76_satellite {code name : List Nat} {k : Nat} (hc : ∀ c ∈ code, CodeByte c) (h3 : 3 ≤ code.length) (h4 : code.length ≤ 4)
    (hk : code.length + k = 30) (hn : ∀ c, name.head? = some c → c ≠ 32) :
    getMpcCodeInfo (code ++ (List.replicate k 32 ++ name)) = .ok ⟨-2, code, -2, some 30, .satellite⟩ := by
  have hi : countWhile codeByte (code ++ (List.replicate k 32 ++ name)) = code.length := by
    refine count_run (fun c h => (codeByte_iff c).mpr (hc c h)) ?_
    intro c h
    obtain ⟨m, rfl⟩ : ∃ m, k = m + 1 := ⟨k - 1, by omega⟩
    rw [List.replicate_succ, List.cons_append, List.head?_cons, Option.some.injEq] at h
    subst h
    decide
  have hj : countWhile (· == 32) (List.replicate k 32 ++ name) = k := by
    have := count_run (p := (· == 32)) (a := List.replicate k 32) (b := name) (by intro c h; simpa using (List.eq_of_mem_replicate h)) (by
      intro c h; simpa using hn c h)
    simpa using this
  have hlen : (code ++ (List.replicate k 32 ++ name)).length = 30 + name.length := by simp; omega
  have hblank : ∀ i, code.length ≤ i → i < 30 → at? (code ++ (List.replicate k 32 ++ name)) i = 32 := by
    intro i h1 h2
    unfold at?
    rw [List.getD_eq_getElem?_getD, List.getElem?_append_right h1, List.getElem?_append_left (by simp; omega), List.getElem?_replicate,
      if_pos (by omega)]
    rfl
  have e4 := hblank 4 (by omega) (by omega)
  have e7 := hblank 7 (by omega) (by omega)
  unfold getMpcCodeInfo
  simp only [hi, drop_mid rfl, hj, e4, e7, hk, hlen]
  rw [if_pos ⟨h3, h4, by omega⟩, if_neg (by omega), if_neg (by omega), if_pos True.intro]
  simp only [Outcome.bind]
  rw [if_neg (by omega), if_neg (by omega)]
  have hcode : (if at? (code ++ (List.replicate k 32 ++ name)) 3 = 32 then (code ++ (List.replicate k 32 ++ name)).take 3
      else (code ++ (List.replicate k 32 ++ name)).take 4) = code := by
    by_cases hl : code.length = 3
    · rw [if_pos (hblank 3 (by omega) (by omega)), ← hl, List.take_left]
    · have hl4 : code.length = 4 := by omega
      have : at? (code ++ (List.replicate k 32 ++ name)) 3 ≠ 32 := by
        unfold at?
        rw [List.getD_eq_getElem?_getD, List.getElem?_append_left (by omega), List.getElem?_eq_getElem (by omega)]
        have := hc _ (List.getElem_mem (l := code) (n := 3) (by omega))
        unfold CodeByte at this
        simp only [Option.getD_some]
        omega
      rw [if_neg this, ← hl4, List.take_left]
  rw [hcode]

/-- C76: a line shorter than 30 bytes, or with a code not of three or four bytes, is refused, and the Earth is assumed. -/
theorem C76_unknown {code rest : List Nat} (hc : ∀ c ∈ code, CodeByte c) (hr : ∀ c, rest.head? = some c → ¬ CodeByte c)
    (h : (code ++ rest).length < 30 ∨ code.length < 3 ∨ 4 < code.length) (h3 : 3 ≤ (code ++ rest).length) :
    getMpcCodeInfo (code ++ rest) = .ok ⟨-1, (code ++ rest).take (if (code ++ rest)[3]? = some 32 then 3 else 4), 3, none, .nothing⟩ := by
  have hi : countWhile codeByte (code ++ rest) = code.length := count_run (fun c h => (codeByte_iff c).mpr (hc c h)) (by
    intro c h
    have := hr c h
    rw [← codeByte_iff] at this
    simpa using this)
  unfold getMpcCodeInfo
  generalize code ++ rest = line at *
  simp only [hi, if_neg (show ¬ (3 ≤ code.length ∧ code.length ≤ 4 ∧ 30 ≤ line.length) by omega)]
  simp only [Outcome.bind]
  rw [if_neg (by omega), if_pos True.intro]
  have : (at? line 3 = 32) = (line[3]? = some 32) := by
    unfold at?
    rw [List.getD_eq_getElem?_getD]
    cases line[3]? <;> simp
  simp only [this]
  split_ifs <;> rfl

instance (c : Nat) : Decidable (CodeByte c) := by unfold CodeByte; infer_instance
instance (c : Nat) : Decidable (SignByte c) := by unfold SignByte; infer_instance
instance (s : List Nat) : Decidable (AllDigits s) := by unfold AllDigits; infer_instance

/-- Greenwich, as in the list of stations. -/
example : getMpcCodeInfo (bytes "000   0.0000 0.62411 +0.77873 Greenwich") =
    .ok ⟨3, bytes "000", 3, some 30, .parallaxes 0 (62411 / 100000) (77873 / 100000) 4 5⟩ := by
  have h : StationLine (bytes "000   0.0000 0.62411 +0.77873 Greenwich") (bytes "000") _ _ _ 4 5 :=
    StationLine.mk (c0 := 48) (c1 := 48) (c2 := 48) (k := 2) (p := 4) (v := 0) (d := 48) (q := 5) (w := 62411) (e := 48) (q' := 5) (w' := 77873)
      (sgn := 43) (ds := bytes "0") (f := bytes "0000 ") (g := bytes "62411 ") (h := bytes "77873 ") (name := bytes "Greenwich")
      (by decide) (by decide) (by decide) (by decide) (by decide) rfl ⟨bytes "0000", ⟨by decide, by decide, by decide⟩, by decide, by decide⟩
      (by decide) (by decide) ⟨bytes "62411", ⟨by decide, by decide, by decide⟩, by decide, by decide⟩ (by decide) (by decide) (by decide)
      ⟨bytes "77873", ⟨by decide, by decide, by decide⟩, by decide, by decide⟩
  rw [C76_standard h]
  have h1 : signed (43 == 45) (((48 - 48 : Nat) : ℚ) + ((77873 : Nat) : ℚ) / 10 ^ 5) = 77873 / 100000 := by norm_num [signed]
  have h2 : (((48 - 48 : Nat) : ℚ) + ((62411 : Nat) : ℚ) / 10 ^ 5) = 62411 / 100000 := by norm_num
  have h3 : ((value (bytes "0") : ℚ) + ((0 : Nat) : ℚ) / 10 ^ 4) = 0 := by
    rw [show value (bytes "0") = 0 by decide]; norm_num
  rw [h1, h2, h3]

/-- A rover with its longitude to the west. -/
example : getMpcCodeInfo (bytes "Rov !-69.9123      44.0123    1700.0          Bowdoin") =
    .ok ⟨3, bytes "Rov", 3, some 47, .place (-699123 / 10000 + 360) (440123 / 10000) 1700 true⟩ := by
  have ha : Written (bytes "-69.9123") (signed true ((69 : Nat) + ((9123 : Nat) : ℚ) / 10 ^ 4)) :=
    Written.decimal (l := bytes "-") (ds := bytes "69") (fs := bytes "9123") (.minus 0) (by decide) (by decide) (by decide)
  have hb : Written (32 :: bytes "     44.0123") (signed false ((44 : Nat) + ((123 : Nat) : ℚ) / 10 ^ 4)) :=
    Written.decimal (l := List.replicate 6 32) (ds := bytes "44") (fs := bytes "0123") (.none 6) (by decide) (by decide) (by decide)
  have hc : Written (32 :: bytes "   1700.0") (signed false ((1700 : Nat) + ((0 : Nat) : ℚ) / 10 ^ 1)) :=
    Written.decimal (l := List.replicate 4 32) (ds := bytes "1700") (fs := bytes "0") (.none 4) (by decide) (by decide) (by decide)
  have h := RoverHead.three (c0 := 82) (c1 := 111) (c2 := 118) (by decide) (by decide) (by decide) ha hb hc
  have ex : signed true ((69 : Nat) + ((9123 : Nat) : ℚ) / 10 ^ 4) = -699123 / 10000 := by norm_num [signed]
  have ey : signed false ((44 : Nat) + ((123 : Nat) : ℚ) / 10 ^ 4) = 440123 / 10000 := by norm_num [signed]
  have ez : signed false ((1700 : Nat) + ((0 : Nat) : ℚ) / 10 ^ 1) = 1700 := by norm_num [signed]
  rw [ex, ey, ez] at h
  have := C76_rover h (r := bytes "          Bowdoin") (stops_blank _) (by decide) (.earth (by decide)) (by decide) (by decide)
    (by norm_num [abs_div]) (by norm_num [abs_div])
  have e : (if (-699123 / 10000 : ℚ) < 0 then (-699123 / 10000 : ℚ) + 360 else -699123 / 10000) = -699123 / 10000 + 360 := by norm_num
  have e2 : decide ((440123 / 10000 : ℚ) ≠ 0 ∧ (-699123 / 10000 : ℚ) ≠ 0) = true := by norm_num
  rw [e, e2] at this
  exact this

/-- A planet after the at sign. -/
example : Planet (bytes " Jezero crater @4") 4 :=
  .other (a := bytes " Jezero crater ") (l := []) (ds := bytes "4") (b := []) (neg := false) (by decide) (.none 0) (by decide) (by decide) (by simp)

/-- A spacecraft. -/
example : getMpcCodeInfo (bytes "250" ++ (List.replicate 27 32 ++ bytes "Hubble Space Telescope")) = .ok ⟨-2, bytes "250", -2, some 30, .satellite⟩ :=
  C76_satellite (by decide) (by decide) (by decide) (by decide) (by decide)

end Verif.Props
