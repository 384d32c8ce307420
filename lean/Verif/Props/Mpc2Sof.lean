import Mathlib.Tactic.Linarith
import Mathlib.Tactic.NormNum
import Mathlib.Tactic.FieldSimp
import Verif.Model.Mpc2Sof
import Verif.Props.Ctime
import Verif.Props.Sof
import Verif.Props.SofDate
import Verif.Props.MpcOrb
import Verif.Props.ShowElem

/-!
# Property theorems: a file in the Standard Orbit Format from other catalogues (C102)
-/

namespace Verif.Props

open Verif Verif.Spec Verif.Spec.Sof Verif.Date Verif.Time Verif.Mpc2Sof
open Verif.Orbit (Elements)

/-! ## The buffer -/

theorem power_of_two {n : Nat} (h : 0 < n) : (n &&& (n - 1) = 0) ↔ ∃ k, n = 2 ^ k :=
  Nat.and_sub_one_eq_zero_iff_isPowerOfTwo (by omega)

/-- Room for records after some asteroids: the power of two above their number. -/
def RoomFor (n : Nat) (room : Option Nat) : Prop := (n = 0 ∧ room = none) ∨ ∃ k, 2 ^ k ≤ n ∧ n < 2 ^ (k + 1) ∧ room = some (2 ^ (k + 1))

theorem addAsteroid_ok (b : Buffer) (r : List Nat) (h : RoomFor b.records.length b.room) :
    ∃ b', addAsteroid b r = .ok b' ∧ b'.records = b.records ++ [r] ∧ RoomFor (b.records.length + 1) b'.room := by
  unfold addAsteroid
  simp only
  by_cases hp : (b.records.length + 1) &&& (b.records.length + 1 - 1) = 0
  · obtain ⟨k, hk⟩ := (power_of_two (by omega)).1 hp
    rw [if_pos hp]
    unfold Buffer.add
    simp only
    rw [if_pos (by omega)]
    refine ⟨_, rfl, rfl, Or.inr ⟨k, by omega, ?_, ?_⟩⟩
    · have : 0 < 2 ^ k := by positivity
      rw [pow_succ]; omega
    · simp only [hk, pow_succ]
  · rw [if_neg hp]
    rcases h with ⟨h0, -⟩ | ⟨k, h1, h2, h3⟩
    · exact absurd ((power_of_two (by omega)).2 ⟨0, by omega⟩) hp
    · have h4 : b.records.length + 1 ≠ 2 ^ (k + 1) := fun e => hp ((power_of_two (by omega)).2 ⟨k + 1, e⟩)
      unfold Buffer.add
      rw [h3]
      simp only
      rw [if_pos (by omega)]
      exact ⟨_, rfl, rfl, Or.inr ⟨k, by omega, by omega, rfl⟩⟩

/-- The records of some lines, if all of them can be done. -/
def recordsOf (ls : List (Option (List Nat))) : List (List Nat) := ls.filterMap id

theorem readAsteroids (ls : List (Option (List Nat))) (b : Buffer) (h : RoomFor b.records.length b.room) :
    ∃ b', readAll addAsteroid (ls.map .ok) b = .ok b' ∧ b'.records = b.records ++ recordsOf ls ∧ RoomFor b'.records.length b'.room := by
  induction ls generalizing b with
  | nil => exact ⟨b, rfl, by simp [recordsOf], h⟩
  | cons l ls ih =>
    cases l with
    | none =>
      obtain ⟨b', h1, h2, h3⟩ := ih b h
      exact ⟨b', h1, by rw [h2]; simp [recordsOf], h3⟩
    | some r =>
      obtain ⟨b1, g1, g2, g3⟩ := addAsteroid_ok b r h
      obtain ⟨b', h1, h2, h3⟩ := ih b1 (by rw [g2]; simpa using g3)
      refine ⟨b', ?_, by rw [h2, g2]; simp [recordsOf], h3⟩
      simp only [List.map_cons, readAll, Outcome.bind, g1]
      exact h1

theorem readComets (ls : List (Option (List Nat))) (b : Buffer) :
    readAll addComet (ls.map .ok) b =
      if recordsOf ls = [] ∨ ∃ k, b.room = some k ∧ b.records.length + (recordsOf ls).length ≤ k
      then .ok { b with records := b.records ++ recordsOf ls } else .ub := by
  induction ls generalizing b with
  | nil => simp [readAll, recordsOf]
  | cons l ls ih =>
    cases l with
    | none =>
      have : recordsOf (none :: ls) = recordsOf ls := by simp [recordsOf]
      rw [this, ← ih b]
      rfl
    | some r =>
      have e : recordsOf (some r :: ls) = r :: recordsOf ls := by simp [recordsOf]
      simp only [List.map_cons, readAll, Outcome.bind]
      rw [e]
      rw [show addComet b r = b.add r from rfl]
      unfold Buffer.add
      cases hr : b.room with
      | none => simp
      | some k =>
        simp only [reduceCtorEq, false_or, Option.some.injEq, exists_eq_left', List.length_cons]
        by_cases hk : b.records.length < k
        · rw [if_pos hk]
          simp only
          have := ih { b with records := b.records ++ [r] }
          rw [hr] at this
          simp only [Option.some.injEq, exists_eq_left', List.length_append, List.length_cons, List.length_nil] at this
          rw [this]
          by_cases hn : recordsOf ls = []
          · rw [if_pos (Or.inl hn), if_pos (by rw [hn]; simp; omega), hn, List.append_nil]
          · by_cases hl : b.records.length + ((recordsOf ls).length + 1) ≤ k
            · rw [if_pos (Or.inr (by omega)), if_pos hl]; simp
            · rw [if_neg (by rw [not_or]; exact ⟨hn, by omega⟩), if_neg hl]
        · rw [if_neg hk, if_neg (by omega)]

/-- **C102.** With asteroids only, the file is the header and the records, in the order of the lines, whatever their number. -/
theorem C102_asteroids (as : List (Option (List Nat))) : program (as.map .ok) none = .ok (sofHeader ++ (recordsOf as).flatten) := by
  obtain ⟨b, h1, h2, -⟩ := readAsteroids as { room := none, records := [] } (Or.inl ⟨rfl, rfl⟩)
  unfold program
  rw [h1]
  simp only [Outcome.bind, h2, List.nil_append]

/-- **C102.** With comets as well the file is the header, the records of the asteroids, and those of the comets, as long as all the
    records together are no more than the power of two above the number of asteroids. -/
theorem C102_with_comets (as cs : List (Option (List Nat))) (k : Nat) (h1 : 2 ^ k ≤ (recordsOf as).length) (h2 : (recordsOf as).length < 2 ^ (k + 1))
    (h : (recordsOf as).length + (recordsOf cs).length ≤ 2 ^ (k + 1)) :
    program (as.map .ok) (some (cs.map .ok)) = .ok (sofHeader ++ (recordsOf as).flatten ++ (recordsOf cs).flatten) := by
  obtain ⟨b, g1, g2, g3⟩ := readAsteroids as { room := none, records := [] } (Or.inl ⟨rfl, rfl⟩)
  rw [List.nil_append] at g2
  unfold program
  rw [g1]
  simp only [Outcome.bind]
  rw [readComets]
  rcases g3 with ⟨g3, -⟩ | ⟨j, j1, j2, j3⟩
  · rw [g2] at g3
    have : 0 < 2 ^ k := by positivity
    omega
  · have hj : j = k := by
      rw [g2] at j1 j2
      have a := (Nat.pow_lt_pow_iff_right (a := 2) (by omega)).1 (lt_of_le_of_lt j1 h2)
      have b := (Nat.pow_lt_pow_iff_right (a := 2) (by omega)).1 (lt_of_le_of_lt h1 j2)
      omega
    subst hj
    rw [if_pos (Or.inr ⟨_, j3, by rw [g2]; exact h⟩)]
    simp [g2]

/-- **C102.** Finding: with more records than that, the comets are written past the end of the buffer. -/
theorem C102_overflow (as cs : List (Option (List Nat))) (k : Nat) (h1 : 2 ^ k ≤ (recordsOf as).length) (h2 : (recordsOf as).length < 2 ^ (k + 1))
    (h : 2 ^ (k + 1) < (recordsOf as).length + (recordsOf cs).length) :
    program (as.map .ok) (some (cs.map .ok)) = .ub := by
  obtain ⟨b, g1, g2, g3⟩ := readAsteroids as { room := none, records := [] } (Or.inl ⟨rfl, rfl⟩)
  rw [List.nil_append] at g2
  unfold program
  rw [g1]
  simp only [Outcome.bind]
  rw [readComets]
  rcases g3 with ⟨g3, -⟩ | ⟨j, j1, j2, j3⟩
  · rw [g2] at g3
    have : 0 < 2 ^ k := by positivity
    omega
  · have hj : j = k := by
      rw [g2] at j1 j2
      have a := (Nat.pow_lt_pow_iff_right (a := 2) (by omega)).1 (lt_of_le_of_lt j1 h2)
      have b := (Nat.pow_lt_pow_iff_right (a := 2) (by omega)).1 (lt_of_le_of_lt h1 j2)
      omega
    subst hj
    rw [if_neg]
    rintro (hn | ⟨k', e, hk⟩)
    · rw [hn, List.length_nil] at h
      omega
    · rw [j3] at e
      cases e
      rw [g2] at hk
      omega

/-- **C102.** Finding: without an asteroid, the first comet is written through a NULL pointer. -/
theorem C102_comets_alone (as cs : List (Option (List Nat))) (ha : recordsOf as = []) (hc : recordsOf cs ≠ []) :
    program (as.map .ok) (some (cs.map .ok)) = .ub := by
  obtain ⟨b, g1, g2, g3⟩ := readAsteroids as { room := none, records := [] } (Or.inl ⟨rfl, rfl⟩)
  rw [List.nil_append, ha] at g2
  unfold program
  rw [g1]
  simp only [Outcome.bind]
  rw [readComets]
  rcases g3 with ⟨-, g3⟩ | ⟨j, j1, j2, j3⟩
  · rw [if_neg]
    rintro (hn | ⟨k', e, -⟩)
    · exact hc hn
    · rw [g3] at e
      cases e
  · rw [g2] at j1
    have : 0 < 2 ^ j := by positivity
    simp at j1

/-- The hypotheses of `C102_with_comets` and `C102_overflow`. -/
example (r c : List Nat) : program ([some r, none, some r, some r].map .ok) (some ([some c].map .ok)) = .ok (sofHeader ++ [r, r, r].flatten ++ [c].flatten) :=
  C102_with_comets [some r, none, some r, some r] [some c] 1 (by simp [recordsOf]) (by simp [recordsOf]) (by simp [recordsOf])

example (r c : List Nat) : program ([some r].map .ok) (some ([some c, some c].map .ok)) = .ub :=
  C102_overflow [some r] [some c, some c] 0 (by simp [recordsOf]) (by simp [recordsOf]) (by simp [recordsOf])

example (c : List Nat) : program ([].map .ok) (some ([some c].map .ok)) = .ub := C102_comets_alone [] [some c] rfl (by simp [recordsOf])

/-! ## Dates -/

/-- A day of the years 0 to 9999 as eight digits, and `p` decimals of the day. -/
def DayDigits (p : Nat) (jd : ℝ) (s : List Nat) : Prop :=
  ∃ (d m y v : Nat) (yyyy mm dd tail : List Nat), gregorian.Exists d m y ∧ Padded 4 y yyyy ∧ Padded 2 m mm ∧ Padded 2 d dd ∧ Decimals p v tail ∧
    s = yyyy ++ mm ++ dd ++ tail ∧
    (gregorian.dayNumber d m y : ℝ) - 1 / 2 + v / 10 ^ p ≤ jd + 1 / (1728000 * 10 ^ p) ∧
    jd + 1 / (1728000 * 10 ^ p) < gregorian.dayNumber d m y - 1 / 2 + (v + 1) / 10 ^ p

theorem filter_digits {s : List Nat} (h : AllDigits s) : s.filter (· ≠ 32) = s := by
  rw [List.filter_eq_self]
  intro c hc
  have := h c hc
  simp
  omega

/-- The date is in a year from 0 to 9999, as far as the allowance of `full_ctime` goes. -/
def FourDigitYear (p : Nat) (jd : ℝ) : Prop :=
  ∃ d m y : Nat, gregorian.Exists d m y ∧ y ≤ 9999 ∧ gregorian.dayNumber d m y = ⌊jd + 1 / 2 + 1 / (1728000 * 10 ^ p)⌋

theorem dateIn20_digits (p : Nat) (hp : p ≤ 8) (jd : ℝ) (h : FourDigitYear p jd) : ∃ s, DateIn20 p jd (.ok s) ∧ DayDigits p jd s := by
  obtain ⟨d, m, y, e, hy, hd⟩ := h
  obtain ⟨hd62, hm62⟩ := exists_small e
  have hadd : addOn (K := ℝ) (dateFmt p) = 1 / (1728000 * 10 ^ p) := by
    unfold addOn dateFmt
    simp only [Bool.false_eq_true, if_false, one_div, inv_pow]
    field_simp
    norm_num
  have hsh : shifted (dateFmt p) (jd - 2451545) = jd + 1 / 2 + 1 / (1728000 * 10 ^ p) - 2451545 := by
    unfold shifted
    rw [hadd]
    ring
  have hfl : ⌊shifted (dateFmt p) (jd - 2451545)⌋ = gregorian.dayNumber d m y - 2451545 := by
    rw [hsh, hd]
    have := Int.floor_sub_natCast (jd + 1 / 2 + 1 / (1728000 * 10 ^ p)) 2451545
    push_cast at this
    exact this
  have hday : ctimeDay (dateFmt p) (jd - 2451545) = gregorian.dayNumber d m y := by
    unfold ctimeDay
    rw [hfl]
    ring
  obtain ⟨r0, r1⟩ := frac_range (shifted (dateFmt p) (jd - 2451545))
  have py := fmtZero_padded (w := 4) (n := y) (by omega) (by omega)
  have pm := fmtZero_padded (w := 2) (n := m) (by omega) (by omega)
  have pd := fmtZero_padded (w := 2) (n := d) (by omega) (by omega)
  have ly := py.width
  have lm := pm.width
  have ld := pd.width
  -- the day with its decimals
  have hdt : ∃ v tail, dayText (dateFmt p) (d : Int) (shifted (dateFmt p) (jd - 2451545) - ⌊shifted (dateFmt p) (jd - 2451545)⌋) = .ok (fmtZero 2 (d : Int) ++ tail) ∧
      Decimals p v tail ∧ tail.length ≤ p + 1 ∧ (v : ℝ) / 10 ^ p ≤ shifted (dateFmt p) (jd - 2451545) - ⌊shifted (dateFmt p) (jd - 2451545)⌋ ∧
      shifted (dateFmt p) (jd - 2451545) - ⌊shifted (dateFmt p) (jd - 2451545)⌋ < (v + 1) / 10 ^ p := by
    by_cases h0 : p = 0
    · subst h0
      refine ⟨0, [], ?_, Or.inl ⟨rfl, rfl, rfl⟩, by simp, by simp, by simpa using r1⟩
      unfold dayText fmtLz
      simp only [dateFmt, if_true]
      rw [if_neg (by simp), if_neg (by omega), List.append_nil]
    · obtain ⟨ds, v, e1, e2, e3, e4⟩ := C60_remainder p _ r0 r1
      have hw := e2.width
      refine ⟨v, 46 :: ds, ?_, Or.inr ⟨by omega, ds, e2, rfl⟩, by simp; omega, e3, e4⟩
      unfold dayText fmtLz
      simp only [dateFmt, if_true, true_and]
      rw [if_pos (by simpa using h0)]
      rw [show ({ out := Out.day, precision := p, yearFirst := true, monthDay := true, monthsAsDigits := true, leadingZeroes := true } : Fmt) = dateFmt p from rfl, e1]
      simp only [Outcome.bind, List.length_cons]
      rw [if_neg (by omega), List.take_of_length_le (by omega)]
  obtain ⟨v, tail, t1, t2, t3, t4, t5⟩ := hdt
  generalize hyyyy : fmtZero 4 (y : Int) = yyyy at *
  generalize hmm : fmtZero 2 (m : Int) = mm at *
  generalize hdd : fmtZero 2 (d : Int) = dd at *
  refine ⟨yyyy ++ mm ++ dd ++ tail, ⟨.ok (yyyy ++ 32 :: mm ++ 32 :: (dd ++ tail)), ?_, ?_⟩, d, m, y, v, yyyy, mm, dd, tail, e, py, pm, pd, t2, rfl, ?_, ?_⟩
  · have hret := gregorian_refines.dateRoundtrip e
    rw [← hday] at hret
    refine ⟨d, m, y, gregorian.newYear y - 1, hret, ?_, ?_⟩
    · rw [show (dateFmt p).calendar = GREGORIAN from rfl, gregorian_refines.dmyToDay (by omega) (by omega)]
      simp [Calendar.dayNumber]
      omega
    · have hmonth : monthText (fun _ => none) (dateFmt p) (m : Int) = .ok mm := by
        unfold monthText fmtLz; simp only [dateFmt, if_true, hmm]
      have hyear : yearText (dateFmt p) (y : Int) = .ok yyyy := by
        unfold yearText fmtLz
        simp only [dateFmt, if_true, Bool.false_eq_true, if_false, hyyyy]
        rw [if_neg (by omega)]
      have hdate : dateText (fun _ => none) (dateFmt p) [] (d : Int) m y (⌊shifted (dateFmt p) (jd - 2451545)⌋ + 2451545 - (gregorian.newYear y - 1))
          (shifted (dateFmt p) (jd - 2451545) - ⌊shifted (dateFmt p) (jd - 2451545)⌋) = .ok (yyyy ++ 32 :: mm ++ 32 :: (dd ++ tail)) := by
        unfold dateText
        rw [hmonth, hyear, t1]
        simp only [Outcome.bind, dateFmt, Bool.not_false, and_self, if_true, Bool.false_eq_true, if_false, Bool.not_true, false_and, ne_eq, not_true_eq_false]
        unfold app
        rw [if_neg (by simp only [List.length_append, List.length_cons, List.length_nil]; omega)]
        simp only
        rw [if_neg (by simp only [List.length_append, List.length_cons, List.length_nil]; omega)]
        simp
      have htime : timeText (dateFmt p) (yyyy ++ 32 :: mm ++ 32 :: (dd ++ tail)) (shifted (dateFmt p) (jd - 2451545) - ⌊shifted (dateFmt p) (jd - 2451545)⌋)
          = .ok (yyyy ++ 32 :: mm ++ 32 :: (dd ++ tail)) := by
        unfold timeText
        simp only [dateFmt, hmsText, if_true, List.append_nil]
        unfold app
        rw [if_neg (by simp only [List.length_append, List.length_cons, List.length_nil]; omega)]
        rfl
      unfold ctime
      simp only
      rw [if_neg (by simp [dateFmt])]
      simp only [Outcome.bind]
      rw [if_neg (by simp [dateFmt]), hdate]
      simp only [htime]
      rw [if_neg (by simp [dateFmt])]
      simp [dateFmt]
  · have hl : ¬ (yyyy ++ 32 :: mm ++ 32 :: (dd ++ tail)).length ≥ 20 := by
      simp only [List.length_append, List.length_cons]
      omega
    simp only [Outcome.bind]
    rw [if_neg hl]
    have ht : tail.filter (· ≠ 32) = tail := by
      rcases t2 with ⟨-, -, rfl⟩ | ⟨-, ds, hds, rfl⟩
      · rfl
      · have := filter_digits hds.digits
        simp only [ne_eq, decide_not] at this ⊢
        rw [List.filter_cons_of_pos (by decide), this]
    have a1 := filter_digits py.digits
    have a2 := filter_digits pm.digits
    have a3 := filter_digits pd.digits
    simp only [List.filter_append, List.filter_cons, a1, a2, a3, ht]
    simp
  · rw [hfl, hsh] at t4
    push_cast at t4
    linarith
  · rw [hfl, hsh] at t5
    push_cast at t5
    linarith

/-- The digits of a day read back as the time they were written for. -/
theorem dayDigits_read {p : Nat} {jd : ℝ} {s : List Nat} (h : DayDigits p jd s) :
    ∃ x : ℚ, Sof.extractYyyymmddToJd s = some x ∧ (x : ℝ) ≤ jd + 1 / (1728000 * 10 ^ p) ∧ jd + 1 / (1728000 * 10 ^ p) < x + 1 / 10 ^ p := by
  obtain ⟨d, m, y, v, yyyy, mm, dd, tail, e, py, pm, pd, ht, rfl, h1, h2⟩ := h
  have hf : Fraction tail ((v : ℚ) / 10 ^ p) := by
    rcases ht with ⟨rfl, rfl, rfl⟩ | ⟨-, ds, hds, rfl⟩
    · have := Fraction.none (s := []) (by intro c hc; simp at hc) (by simp)
      simpa using this
    · have := Fraction.point (ds := ds) (s := []) hds.digits (by intro c hc; simp at hc) (by simp) (by simp)
      rw [hds.value, hds.width, List.append_nil] at this
      exact this
  refine ⟨_, C47_date d m y yyyy mm dd tail _ py pm pd hf e, ?_, ?_⟩
  · push_cast
    exact h1
  · push_cast
    rw [add_div] at h2
    linarith

/-- Eight bytes and the decimals. -/
theorem dayDigits_length {p : Nat} {jd : ℝ} {s : List Nat} (h : DayDigits p jd s) : s.length = if p = 0 then 8 else p + 9 := by
  obtain ⟨d, m, y, v, yyyy, mm, dd, tail, e, py, pm, pd, ht, rfl, h1, h2⟩ := h
  have ly := py.width
  have lm := pm.width
  have ld := pd.width
  rcases ht with ⟨rfl, rfl, rfl⟩ | ⟨hp, ds, hds, rfl⟩
  · simp; omega
  · have := hds.width
    simp
    rw [if_neg (by omega)]
    omega

theorem newYear_zero : gregorian.newYear 0 = 1721060 := by decide

theorem newYear_10000 : gregorian.newYear 10000 = 5373485 := by
  have e : gregorian.Exists 1 1 10000 := ⟨by decide, by decide, 31, by decide, by decide⟩
  have h := C02_gregorian_daycount e
  have h' : dmyToDay 1 1 10000 GREGORIAN = some 5373485 := by decide +kernel
  rw [h] at h'
  have := Option.some.inj h'
  simp [Calendar.dayNumber] at this
  exact this

/-- The years 0 to 9999. -/
def InYears (jd : ℝ) : Prop := 1721059.5 ≤ jd ∧ jd + 1 / 1728000 < 5373484.5

theorem fourDigitYear_of (p : Nat) {jd : ℝ} (h : InYears jd) : FourDigitYear p jd := by
  obtain ⟨h1, h2⟩ := h
  have hp : (1 : ℝ) ≤ 10 ^ p := one_le_pow₀ (by norm_num)
  have hs : (0 : ℝ) < 1 / (1728000 * 10 ^ p) ∧ (1 : ℝ) / (1728000 * 10 ^ p) ≤ 1 / 1728000 :=
    ⟨by positivity, one_div_le_one_div_of_le (by norm_num) (by linarith)⟩
  obtain ⟨d, m, y, -, e, hd⟩ := gregorian_refines.roundtrip ⌊jd + 1 / 2 + 1 / (1728000 * 10 ^ p)⌋
  have hr := gregorian_wf.dayNumber_range e
  have lo : 1721060 ≤ ⌊jd + 1 / 2 + 1 / (1728000 * 10 ^ p)⌋ := by
    rw [Int.le_floor]
    push_cast
    norm_num at h1
    linarith [hs.1]
  have hi : ⌊jd + 1 / 2 + 1 / (1728000 * 10 ^ p)⌋ < 5373485 := by
    rw [Int.floor_lt]
    push_cast
    norm_num at h2
    linarith [hs.2]
  rw [hd] at hr
  have y0 : 0 ≤ y := by
    by_contra hn
    have := gregorian_wf.newYear_le (show y + 1 ≤ 0 by omega)
    rw [newYear_zero] at this
    omega
  have y1 : y ≤ 9999 := by
    by_contra hn
    have := gregorian_wf.newYear_le (show 10000 ≤ y by omega)
    rw [newYear_10000] at this
    omega
  obtain ⟨hm, hd1, -⟩ := id e
  refine ⟨d.toNat, m.toNat, y.toNat, ?_, by omega, ?_⟩
  · rw [Int.toNat_of_nonneg (by omega), Int.toNat_of_nonneg (by omega), Int.toNat_of_nonneg y0]
    assumption
  · rw [Int.toNat_of_nonneg (by omega), Int.toNat_of_nonneg (by omega), Int.toNat_of_nonneg y0]
    exact hd

/-! ## Numbers -/

/-- A text is read as a number within half a unit of the `p`th decimal. -/
def ReadsNear (p : Nat) (s : List Nat) (x : ℝ) : Prop := |((MpcLine.atof s : ℚ) : ℝ) - x| ≤ 1 / 2 / 10 ^ p

theorem fmtW_reads {w p m : Nat} {x : ℝ} (hp : 1 ≤ p) (hw : m + 1 + 1 + p ≤ w) (h0 : 0 ≤ x) (h : x ≤ 10 ^ (m + 1) - 1 / 10 ^ p) :
    (ShowElem.fmtW w p x).length = w ∧ ReadsNear p (ShowElem.fmtW w p x) x := by
  have hneg : ¬ x < 0 := not_lt.2 h0
  obtain ⟨a, n, t, e, hl, ⟨ds, fs, rfl, hd, hne, hf, hfl, hn⟩, hx⟩ := fmtW_real (w := w) (p := p) (m := m) (x := x) hp (by rw [if_neg hneg]; omega) (by rwa [abs_of_nonneg h0])
  refine ⟨hl, ?_⟩
  rw [if_neg hneg, List.nil_append] at e
  have hdec : Verif.Spec.Decimal (ShowElem.fmtW w p x) ((value ds : ℚ) + (value fs : ℚ) / 10 ^ fs.length) :=
    ⟨a, false, ds, fs, by rw [e]; simp, hd, hf, Or.inl hne, by simp⟩
  have hr := strtold_signed hdec (r := []) ⟨rfl, by decide, by decide, by decide⟩
  rw [List.append_nil] at hr
  unfold ReadsNear MpcLine.atof
  rw [hr, hfl]
  rw [abs_of_nonneg h0] at hx
  have pp : (0 : ℝ) < 10 ^ p := by positivity
  have e2 : (((value ds : ℚ) + (value fs : ℚ) / 10 ^ p : ℚ) : ℝ) - x = ((n : ℝ) - x * 10 ^ p) / 10 ^ p := by
    rw [← hn]
    push_cast
    field_simp
  rw [e2, abs_div, abs_of_pos pp]
  exact div_le_div_of_nonneg_right hx pp.le

/-! ## Records -/

/-- The columns of the header. -/
def sofColumns : List (List Nat) :=
  [bytes "Name        ", bytes "Tp      .       ", bytes "Te      ", bytes "q          ", bytes "i  .      ", bytes "Om .      ", bytes "om .      ",
   bytes "e         ", bytes "rms ", bytes "n_o  ", bytes "Tfirst  ", bytes "Tlast   ", bytes "Perts  ", bytes "H .  ", bytes "G . ^"]

theorem sofHeader_columns : Columns sofColumns sofHeader := by
  have key : ∀ c : List Nat, (∀ b ∈ c, 32 ≤ b ∧ b < 128 ∧ b ≠ 124) → ∀ b ∈ c, ColumnByte b := fun c h b hb => h b hb
  refine .more (c := bytes "Name        ") (key _ (by decide)) (.more (c := bytes "Tp      .       ") (key _ (by decide)) (.more (c := bytes "Te      ") (key _ (by decide))
    (.more (c := bytes "q          ") (key _ (by decide)) (.more (c := bytes "i  .      ") (key _ (by decide)) (.more (c := bytes "Om .      ") (key _ (by decide))
    (.more (c := bytes "om .      ") (key _ (by decide)) (.more (c := bytes "e         ") (key _ (by decide)) (.more (c := bytes "rms ") (key _ (by decide))
    (.more (c := bytes "n_o  ") (key _ (by decide)) (.more (c := bytes "Tfirst  ") (key _ (by decide)) (.more (c := bytes "Tlast   ") (key _ (by decide))
    (.more (c := bytes "Perts  ") (key _ (by decide)) (.more (c := bytes "H .  ") (key _ (by decide))
    (.last (c := bytes "G . ^") (h := [10]) (by decide) (key _ (by decide)) ?_))))))))))))))
  intro c hc
  simp at hc
  omega

/-- A record with its texts under the columns. -/
inductive Aligned : List (List Nat) → List (List Nat) → List Nat → Prop
  | last {c t r} : t.length = c.length → Aligned [c] [t] (t ++ r)
  | more {c t cs ts b r} : t.length = c.length → Aligned cs ts r → Aligned (c :: cs) (t :: ts) (t ++ b :: r)

/-- The text for the last column with a property. -/
def lastOfColumns (named : List Nat → Prop) [DecidablePred named] : List (List Nat) → List (List Nat) → Option (List Nat)
  | c :: cs, t :: ts => match lastOfColumns named cs ts with
    | some u => some u
    | none => if named c then some t else none
  | _, _ => none

theorem lastText_aligned (named : List Nat → Prop) [DecidablePred named] {cs ts : List (List Nat)} {r : List Nat} (h : Aligned cs ts r) :
    lastText named cs r = lastOfColumns named cs ts := by
  induction h with
  | @last c t r hl => simp only [lastText, lastOfColumns, ← hl, List.take_left]
  | @more c t cs ts b r hl _ ih =>
    rw [lastText, lastOfColumns]
    have e : (t ++ b :: r).drop (c.length + 1) = r := by
      rw [← hl, List.drop_append]
      simp
    rw [e, ih, ← hl, List.take_left]
    cases lastOfColumns named cs ts <;> rfl

theorem span_aligned {cs ts : List (List Nat)} {r : List Nat} (h : Aligned cs ts r) : span cs ≤ r.length := by
  induction h with
  | @last c t r hl => simp [span]; omega
  | @more c t cs ts b r hl _ ih =>
    cases cs with
    | nil => simp [span]; omega
    | cons d ds => simp only [span, List.length_append, List.length_cons] at ih ⊢; omega

/-- A record under the header is read without error, and each item is the text in its column. -/
theorem read_aligned {name tp te q i om w e rms no tf tl pe h g r : List Nat} (extra : Bool)
    (ha : Aligned sofColumns [name, tp, te, q, i, om, w, e, rms, no, tf, tl, pe, h, g] r) :
    ∃ items, Sof.extractSofData extra 20 r sofHeader = some (.ok (0, items)) ∧ items .tPerih = some tp ∧ items .tEpoch = some te ∧ items .q = some q ∧
      items .incl = some i ∧ items .node = some om ∧ items .argPer = some w ∧ items .ecc = some e ∧ items .absMag = some h ∧ items .slope = some g ∧
      (extra = true → items .tFirst = some tf ∧ items .tLast = some tl ∧ items .rms = some rms) := by
  obtain ⟨code, items, h1, h2, -, h4⟩ := C46_result extra sofColumns sofHeader r 20 sofHeader_columns (by decide) (by decide) (span_aligned ha)
  have hcode : code = 0 := by
    rw [h4]
    cases extra <;> decide
  subst hcode
  refine ⟨items, h1, ?_⟩
  simp only [h2, lastText_aligned _ ha]
  refine ⟨?_, ?_, ?_, ?_, ?_, ?_, ?_, ?_, ?_, ?_⟩
  · cases extra <;> rfl
  · cases extra <;> rfl
  · cases extra <;> rfl
  · cases extra <;> rfl
  · cases extra <;> rfl
  · cases extra <;> rfl
  · cases extra <;> rfl
  · cases extra <;> rfl
  · cases extra <;> rfl
  · rintro rfl
    exact ⟨rfl, rfl, rfl⟩

set_option maxRecDepth 4000 in
theorem reclen_eq : reclen = 144 := by decide

theorem part_length {line : List Nat} (i n : Nat) (h : i + n ≤ line.length) : (part line i n).length = n := by
  unfold part
  rw [List.length_take, List.length_drop]
  omega

theorem extractName_length {line : List Nat} (h : line.length = 203) : (extractName line).length = 12 := by
  unfold extractName
  simp only
  split_ifs <;> simp <;> omega

theorem outputSof_ok {perih epoch : List Nat} {e : Elements} (hp : perih.length = 16) (he : epoch.length = 8)
    (h1 : (ShowElem.fmtW 11 8 e.q).length = 11) (h2 : (ShowElem.fmtW 10 6 (e.incl * 180 / Real.pi)).length = 10)
    (h3 : (ShowElem.fmtW 10 6 (e.ascNode * 180 / Real.pi)).length = 10) (h4 : (ShowElem.fmtW 10 6 (e.argPer * 180 / Real.pi)).length = 10)
    (h5 : (ShowElem.fmtW 10 8 e.ecc).length = 10) :
    outputSof perih epoch e = .ok (perih ++ 32 :: (epoch ++ 32 :: (ShowElem.fmtW 11 8 e.q ++ 32 :: (ShowElem.fmtW 10 6 (e.incl * 180 / Real.pi) ++ 32 ::
      (ShowElem.fmtW 10 6 (e.ascNode * 180 / Real.pi) ++ 32 :: (ShowElem.fmtW 10 6 (e.argPer * 180 / Real.pi) ++ 32 :: (ShowElem.fmtW 10 8 e.ecc ++ [32]))))))) := by
  unfold outputSof ShowElem.put ShowElem.cat
  rw [if_pos (by simp only [List.length_append, List.length_cons, List.length_nil]; omega)]
  simp only [Outcome.bind]
  rw [if_pos (by simp only [List.length_append, List.length_cons, List.length_nil]; omega)]
  simp

/-- The numbers of an orbit fit into the columns. -/
structure FitsColumns (e : Elements) : Prop where
  q : 0 ≤ e.q ∧ e.q ≤ 100 - 1 / 10 ^ 8
  incl : 0 ≤ e.incl ∧ e.incl * 180 / Real.pi ≤ 1000 - 1 / 10 ^ 6
  node : 0 ≤ e.ascNode ∧ e.ascNode * 180 / Real.pi ≤ 1000 - 1 / 10 ^ 6
  argPer : 0 ≤ e.argPer ∧ e.argPer * 180 / Real.pi ≤ 1000 - 1 / 10 ^ 6
  ecc : 0 ≤ e.ecc ∧ e.ecc ≤ 10 - 1 / 10 ^ 8

/-- A line in the Standard Orbit Format says this orbit: it is read without error, the time of perihelion within a unit of its seventh decimal, the epoch as a
    day, and the other numbers within half a unit of their last decimal. -/
def SofSays (r : List Nat) (e : Elements) (epoch : ℝ) : Prop :=
  ∃ items tp te q i om w ec, Sof.extractSofData false 20 r sofHeader = some (.ok (0, items)) ∧ items .tPerih = some tp ∧ items .tEpoch = some te ∧ items .q = some q ∧
    items .incl = some i ∧ items .node = some om ∧ items .argPer = some w ∧ items .ecc = some ec ∧
    (∃ x, Sof.extractYyyymmddToJd tp = some x ∧ (x : ℝ) ≤ e.perihTime + 1 / (1728000 * 10 ^ 7) ∧ e.perihTime + 1 / (1728000 * 10 ^ 7) < x + 1 / 10 ^ 7) ∧
    (∃ x, Sof.extractYyyymmddToJd te = some x ∧ (x : ℝ) ≤ epoch + 1 / 1728000 ∧ epoch + 1 / 1728000 < x + 1) ∧
    ReadsNear 8 q e.q ∧ ReadsNear 6 i (e.incl * 180 / Real.pi) ∧ ReadsNear 6 om (e.ascNode * 180 / Real.pi) ∧ ReadsNear 6 w (e.argPer * 180 / Real.pi) ∧ ReadsNear 8 ec e.ecc

theorem sofSays_of {name perih epoch rms no tf tl pe h g r : List Nat} {e : Elements} {ep : ℝ} (hf : FitsColumns e) (hp : DayDigits 7 e.perihTime perih) (he : DayDigits 0 ep epoch)
    (hr : Aligned sofColumns [name, perih, epoch, ShowElem.fmtW 11 8 e.q, ShowElem.fmtW 10 6 (e.incl * 180 / Real.pi), ShowElem.fmtW 10 6 (e.ascNode * 180 / Real.pi),
      ShowElem.fmtW 10 6 (e.argPer * 180 / Real.pi), ShowElem.fmtW 10 8 e.ecc, rms, no, tf, tl, pe, h, g] r) : SofSays r e ep := by
  have pp : (0 : ℝ) ≤ 180 / Real.pi := div_nonneg (by norm_num) Real.pi_pos.le
  have deg : ∀ a : ℝ, 0 ≤ a → 0 ≤ a * 180 / Real.pi := fun a ha => by rw [mul_div_assoc]; exact mul_nonneg ha pp
  obtain ⟨items, g1, g2, g3, g4, g5, g6, g7, g8, -⟩ := read_aligned false hr
  obtain ⟨x, x1, x2, x3⟩ := dayDigits_read hp
  obtain ⟨y, y1, y2, y3⟩ := dayDigits_read he
  refine ⟨items, _, _, _, _, _, _, _, g1, g2, g3, g4, g5, g6, g7, g8, ⟨x, x1, x2, x3⟩, ⟨y, y1, by simpa using y2, by simpa using y3⟩, ?_, ?_, ?_, ?_, ?_⟩
  · exact (fmtW_reads (m := 1) (by omega) (by omega) hf.q.1 (by have := hf.q.2; norm_num at this ⊢; exact this)).2
  · exact (fmtW_reads (m := 2) (by omega) (by omega) (deg _ hf.incl.1) (by have := hf.incl.2; norm_num at this ⊢; exact this)).2
  · exact (fmtW_reads (m := 2) (by omega) (by omega) (deg _ hf.node.1) (by have := hf.node.2; norm_num at this ⊢; exact this)).2
  · exact (fmtW_reads (m := 2) (by omega) (by omega) (deg _ hf.argPer.1) (by have := hf.argPer.2; norm_num at this ⊢; exact this)).2
  · exact (fmtW_reads (m := 0) (by omega) (by omega) hf.ecc.1 (by have := hf.ecc.2; norm_num at this ⊢; exact this)).2

theorem fits_lengths {e : Elements} (hf : FitsColumns e) :
    (ShowElem.fmtW 11 8 e.q).length = 11 ∧ (ShowElem.fmtW 10 6 (e.incl * 180 / Real.pi)).length = 10 ∧ (ShowElem.fmtW 10 6 (e.ascNode * 180 / Real.pi)).length = 10 ∧
    (ShowElem.fmtW 10 6 (e.argPer * 180 / Real.pi)).length = 10 ∧ (ShowElem.fmtW 10 8 e.ecc).length = 10 := by
  have pp : (0 : ℝ) ≤ 180 / Real.pi := div_nonneg (by norm_num) Real.pi_pos.le
  have deg : ∀ a : ℝ, 0 ≤ a → 0 ≤ a * 180 / Real.pi := fun a ha => by rw [mul_div_assoc]; exact mul_nonneg ha pp
  refine ⟨?_, ?_, ?_, ?_, ?_⟩
  · exact (fmtW_reads (m := 1) (by omega) (by omega) hf.q.1 (by have := hf.q.2; norm_num at this ⊢; exact this)).1
  · exact (fmtW_reads (m := 2) (by omega) (by omega) (deg _ hf.incl.1) (by have := hf.incl.2; norm_num at this ⊢; exact this)).1
  · exact (fmtW_reads (m := 2) (by omega) (by omega) (deg _ hf.node.1) (by have := hf.node.2; norm_num at this ⊢; exact this)).1
  · exact (fmtW_reads (m := 2) (by omega) (by omega) (deg _ hf.argPer.1) (by have := hf.argPer.2; norm_num at this ⊢; exact this)).1
  · exact (fmtW_reads (m := 0) (by omega) (by omega) hf.ecc.1 (by have := hf.ecc.2; norm_num at this ⊢; exact this)).1

theorem asteroidText_ok {perih epoch first line : List Nat} {e : Elements} {ep : ℝ} (hl : line.length = 203) (hf : FitsColumns e)
    (hp : DayDigits 7 e.perihTime perih) (he : DayDigits 0 ep epoch) (h8 : first.length = 8) :
    ∃ r, asteroidText perih epoch first line e = .ok r ∧ r.length = 144 ∧ SofSays r e ep ∧ r.take 12 = extractName line ∧ r.drop 132 = part line 8 5 ++ 32 :: (part line 14 5 ++ [10]) := by
  obtain ⟨l1, l2, l3, l4, l5⟩ := fits_lengths hf
  have lp := dayDigits_length hp
  have le := dayDigits_length he
  rw [if_neg (by omega)] at lp
  rw [if_pos rfl] at le
  have ln := extractName_length hl
  have p1 := part_length (line := line) 137 4 (by omega)
  have p2 := part_length (line := line) 117 5 (by omega)
  have p3 := part_length (line := line) 194 8 (by omega)
  have p4 := part_length (line := line) 142 7 (by omega)
  have p5 := part_length (line := line) 8 5 (by omega)
  have p6 := part_length (line := line) 14 5 (by omega)
  have hrec := reclen_eq
  have hout := outputSof_ok lp le l1 l2 l3 l4 l5
  have hal := sofSays_of (name := extractName line) (rms := part line 137 4) (no := part line 117 5) (tf := first) (tl := part line 194 8) (pe := part line 142 7)
    (h := part line 8 5) (g := part line 14 5) hf hp he
    (.more (b := 32) ln (.more (b := 32) lp (.more (b := 32) le (.more (b := 32) l1 (.more (b := 32) l2 (.more (b := 32) l3 (.more (b := 32) l4 (.more (b := 32) l5
      (.more (b := 32) p1 (.more (b := 32) p2 (.more (b := 32) h8 (.more (b := 32) p3 (.more (b := 32) p4 (.more (b := 32) p5 (.last (r := [10]) p6)))))))))))))))
  generalize hq : ShowElem.fmtW 11 8 e.q = q at *
  generalize hi : ShowElem.fmtW 10 6 (e.incl * 180 / Real.pi) = i at *
  generalize ho : ShowElem.fmtW 10 6 (e.ascNode * 180 / Real.pi) = om at *
  generalize hw : ShowElem.fmtW 10 6 (e.argPer * 180 / Real.pi) = w at *
  generalize hec : ShowElem.fmtW 10 8 e.ecc = ec at *
  generalize hn : extractName line = name at *
  refine ⟨_, ?_, ?_, hal, ?_, ?_⟩
  · unfold asteroidText
    rw [hout, hn]
    unfold ShowElem.put ShowElem.cat
    rw [if_pos (by simp only [List.length_append, List.length_cons, List.length_nil]; omega)]
    simp only [Outcome.bind]
    rw [if_pos (by simp only [List.length_append, List.length_cons, List.length_nil]; omega)]
    simp only
    rw [if_pos (by simp only [List.length_append, List.length_cons, List.length_nil, List.length_take]; omega)]
    simp only
    rw [if_pos (by simp only [List.length_append, List.length_cons, List.length_nil, List.length_take]; omega), List.take_of_length_le (by omega)]
    simp
  · simp only [List.length_append, List.length_cons, List.length_nil]
    omega
  · rw [← ln, List.take_left]
  · have key : ∀ (t r : List Nat) (b n m : Nat), t.length = m → n = m + 1 → ∀ k, (t ++ b :: r).drop (k + n) = r.drop k := by
      intro t r b n m h1 h2 k
      rw [h2, ← h1, show k + (t.length + 1) = t.length + (k + 1) by omega, ← List.drop_drop, List.drop_left, List.drop_succ_cons]
    rw [key _ _ _ 13 12 ln rfl 119, key _ _ _ 17 16 lp rfl 102, key _ _ _ 9 8 le rfl 93, key _ _ _ 12 11 l1 rfl 81, key _ _ _ 11 10 l2 rfl 70, key _ _ _ 11 10 l3 rfl 59,
      key _ _ _ 11 10 l4 rfl 48, key _ _ _ 11 10 l5 rfl 37, key _ _ _ 5 4 p1 rfl 32, key _ _ _ 6 5 p2 rfl 26, key _ _ _ 9 8 h8 rfl 17, key _ _ _ 9 8 p3 rfl 8, key _ _ _ 8 7 p4 rfl 0]
    rfl

theorem dateIn20_inYears (p : Nat) (hp : p ≤ 8) {jd : ℝ} (h : InYears jd) : ∃ s, DateIn20 p jd (.ok s) ∧ DayDigits p jd s :=
  dateIn20_digits p hp jd (fourDigitYear_of p h)

/-- **C102.** A line of `mpcorb.dat` becomes a record of 144 bytes from which the reader of the Standard Orbit Format gets the same orbit back: perihelion distance
    and eccentricity to eight decimals, the angles to six, the time of perihelion to seven decimals of a day, the epoch to the day; the name, the magnitude
    and the slope parameter are copied. -/
theorem C102_asteroid {line : List Nat} {d : OrbitData} (h : MpcorbLine line d) (hl : line.length = 203) (e : gregorian.Exists d.day d.month d.year) (hy : d.year < 6200)
    (hq : 0 ≤ d.axis ∧ d.axis * (1 - d.ecc) ≤ 100 - 1 / 10 ^ 8) (he : 0 ≤ d.ecc ∧ d.ecc < 1) (hi : 0 ≤ d.incl ∧ d.incl ≤ 180) (hn : 0 ≤ d.node ∧ d.node ≤ 360)
    (hw : 0 ≤ d.argPer ∧ d.argPer ≤ 360) (old : Elements) (getTime : List Nat → ℝ) {t : ℝ} (ht : firstObserved getTime line = .ok t) (hty : InYears t)
    (hper : ∀ a, OrbitStored a d (gregorian.dayNumber d.day d.month d.year) → InYears a.el.perihTime) :
    ∃ a r, OrbitStored a d (gregorian.dayNumber d.day d.month d.year) ∧ AsteroidRecord getTime old line (.ok (some r)) ∧ r.length = 144 ∧
      SofSays r a.el a.epoch ∧ r.take 12 = extractName line ∧ r.drop 132 = part line 8 5 ++ 32 :: (part line 14 5 ++ [10]) := by
  obtain ⟨a, h1, h2⟩ := C101_mpcorb h e hy he.2 old
  have hr := gregorian_wf.dayNumber_range e
  have hlo := gregorian_wf.newYear_le (show (0 : Int) ≤ d.year by omega)
  have hhi := gregorian_wf.newYear_le (show (d.year : Int) + 1 ≤ 10000 by omega)
  rw [newYear_zero] at hlo
  rw [newYear_10000] at hhi
  have hep : InYears a.epoch := by
    rw [h2.epoch]
    have c1 : (1721060 : ℝ) ≤ (gregorian.dayNumber d.day d.month d.year : ℝ) := by exact_mod_cast (show (1721060 : Int) ≤ _ by omega)
    have c2 : (gregorian.dayNumber d.day d.month d.year : ℝ) ≤ 5373484 := by exact_mod_cast (show _ ≤ (5373484 : Int) by omega)
    constructor <;> norm_num <;> linarith
  have deg : ∀ x : ℝ, x * (Real.pi / 180) * 180 / Real.pi = x := by
    intro x
    have := Real.pi_ne_zero
    field_simp
  have rad : ∀ x : ℝ, 0 ≤ x → 0 ≤ x * (Real.pi / 180) := fun x hx => mul_nonneg hx (div_nonneg Real.pi_pos.le (by norm_num))
  have r0 : ∀ x : ℚ, 0 ≤ x → (0 : ℝ) ≤ x := fun x hx => by exact_mod_cast hx
  have r360 : ∀ x : ℚ, x ≤ 360 → (x : ℝ) ≤ 360 := fun x hx => by exact_mod_cast hx
  have hf : FitsColumns a.el := by
    refine ⟨⟨?_, ?_⟩, ⟨?_, ?_⟩, ⟨?_, ?_⟩, ⟨?_, ?_⟩, ⟨?_, ?_⟩⟩
    · rw [h2.q]
      have : (0 : ℚ) ≤ d.axis * (1 - d.ecc) := mul_nonneg hq.1 (by linarith [he.2])
      have := r0 _ this
      push_cast at this
      exact this
    · rw [h2.q]
      have : ((d.axis * (1 - d.ecc) : ℚ) : ℝ) ≤ ((100 - 1 / 10 ^ 8 : ℚ) : ℝ) := by exact_mod_cast hq.2
      push_cast at this
      exact this
    · rw [h2.incl]; exact rad _ (r0 _ hi.1)
    · rw [h2.incl, deg]
      have := r360 _ (le_trans hi.2 (by norm_num))
      norm_num
      linarith
    · rw [h2.node]; exact rad _ (r0 _ hn.1)
    · rw [h2.node, deg]
      have := r360 _ hn.2
      norm_num
      linarith
    · rw [h2.argPer]; exact rad _ (r0 _ hw.1)
    · rw [h2.argPer, deg]
      have := r360 _ hw.2
      norm_num
      linarith
    · rw [h2.ecc]; exact r0 _ he.1
    · rw [h2.ecc]
      have : (d.ecc : ℝ) < 1 := by exact_mod_cast he.2
      norm_num
      linarith
  obtain ⟨tp, g1, g2⟩ := dateIn20_inYears 7 (by omega) (hper a h2)
  obtain ⟨te, g3, g4⟩ := dateIn20_inYears 0 (by omega) hep
  obtain ⟨tf, g5, g6⟩ := dateIn20_inYears 0 (by omega) hty
  obtain ⟨r, k1, k2, k3, k4, k5⟩ := asteroidText_ok (first := tf) hl hf g2 g4 (by have := dayDigits_length g6; rwa [if_pos rfl] at this)
  refine ⟨a, r, h2, ?_, k2, k3, k4, k5⟩
  unfold AsteroidRecord
  rw [if_pos hl, h1]
  simp only
  rw [if_pos (by omega)]
  refine ⟨_, _, g1, g3, Or.inl ⟨t, _, ht, g5, ?_⟩⟩
  simp only [Outcome.bind, k1]

theorem beforeBracket_length (s : List Nat) : (beforeBracket s).length ≤ s.length := by
  induction s using beforeBracket.induct with
  | case1 r => simp [beforeBracket]
  | case2 c s h ih =>
    rw [beforeBracket]
    · simp only [List.length_cons]; omega
    · exact h
  | case3 => simp [beforeBracket]

theorem cometName_length {line : List Nat} : (cometName line).length ≤ 12 := by
  unfold cometName part
  simp only
  split_ifs
  · refine le_trans (beforeBracket_length _) ?_
    simp
  all_goals
    simp only [List.length_append, List.length_take, List.length_drop]
    omega

/-- **C102.** A line of `ELEMENTS.COMET` becomes a record in the same way. -/
theorem C102_comet {line : List Nat} {e : Elements} {epoch : ℝ} (getTime : List Nat → ℝ) (hc : parseComet getTime line = some (e, epoch))
    (hf : FitsColumns e) (hp : InYears e.perihTime) (he : InYears epoch) :
    ∃ r, CometRecord getTime line (.ok (some r)) ∧ r.length = 144 ∧ SofSays r e epoch ∧
      r.take 12 = cometName line ++ List.replicate (12 - (cometName line).length) 32 := by
  obtain ⟨tp, g1, g2⟩ := dateIn20_inYears 7 (by omega) hp
  obtain ⟨te, g3, g4⟩ := dateIn20_inYears 0 (by omega) he
  obtain ⟨l1, l2, l3, l4, l5⟩ := fits_lengths hf
  have lp := dayDigits_length g2
  have le := dayDigits_length g4
  rw [if_neg (by omega)] at lp
  rw [if_pos rfl] at le
  have hout := outputSof_ok lp le l1 l2 l3 l4 l5
  have lc := cometName_length (line := line)
  have ln : (cometName line ++ List.replicate (12 - (cometName line).length) 32).length = 12 := by simp; omega
  have hrec := reclen_eq
  have hal := sofSays_of (name := cometName line ++ List.replicate (12 - (cometName line).length) 32) (rms := List.replicate 4 32) (no := List.replicate 5 32)
    (tf := List.replicate 8 32) (tl := List.replicate 8 32) (pe := List.replicate 7 32) (h := List.replicate 5 32) (g := List.replicate 5 32) hf g2 g4
    (.more (b := 32) ln (.more (b := 32) lp (.more (b := 32) le (.more (b := 32) l1 (.more (b := 32) l2 (.more (b := 32) l3 (.more (b := 32) l4 (.more (b := 32) l5
      (.more (b := 32) rfl (.more (b := 32) rfl (.more (b := 32) rfl (.more (b := 32) rfl (.more (b := 32) rfl (.more (b := 32) rfl (.last (r := [10]) rfl)))))))))))))))
  generalize hq : ShowElem.fmtW 11 8 e.q = q at *
  generalize hi : ShowElem.fmtW 10 6 (e.incl * 180 / Real.pi) = i at *
  generalize ho : ShowElem.fmtW 10 6 (e.ascNode * 180 / Real.pi) = om at *
  generalize hw : ShowElem.fmtW 10 6 (e.argPer * 180 / Real.pi) = w at *
  generalize hec : ShowElem.fmtW 10 8 e.ecc = ec at *
  refine ⟨_, ?_, ?_, hal, List.take_left' ln⟩
  · unfold CometRecord
    rw [hc]
    simp only
    rw [if_pos (by have := he.1; norm_num at this ⊢; linarith)]
    refine ⟨_, _, g1, g3, ?_⟩
    have ht : cometText tp te line e = .ok ((cometName line ++ List.replicate (12 - (cometName line).length) 32) ++ [32] ++
        (tp ++ 32 :: (te ++ 32 :: (q ++ 32 :: (i ++ 32 :: (om ++ 32 :: (w ++ 32 :: (ec ++ [32]))))))) ++ List.replicate 11 32 ++ List.replicate 37 32 ++ [10]) := by
      unfold cometText
      simp only
      rw [hout]
      simp only [Outcome.bind]
      rw [if_pos]
      rw [hrec]
      rw [List.length_append, List.length_append, List.length_append, List.length_append, List.length_append, ln]
      simp only [List.length_append, List.length_cons, List.length_nil, List.length_replicate]
      omega
    simp only [Outcome.bind, ht]
    rw [show List.replicate 11 (32 : Nat) = List.replicate 4 32 ++ 32 :: (List.replicate 5 32 ++ [32]) from rfl,
      show List.replicate 37 (32 : Nat) = List.replicate 8 32 ++ 32 :: (List.replicate 8 32 ++ 32 :: (List.replicate 7 32 ++ 32 :: (List.replicate 5 32 ++ 32 :: List.replicate 5 32))) from rfl]
    simp only [List.append_assoc, List.cons_append, List.nil_append]
  · rw [List.length_append, ln]
    simp only [List.length_append, List.length_cons, List.length_nil, List.length_replicate]
    omega

/-- **C102.** Finding: an orbit whose numbers do not take 82 bytes, as with a perihelion in the year 10000 or farther than 100 au, ends the program by an assertion. -/
theorem C102_aborts {perih epoch first line s : List Nat} {e : Elements} (hl : line.length = 203) (h8 : first.length = 8) (hs : outputSof perih epoch e = .ok s)
    (h : s.length ≠ 82) : asteroidText perih epoch first line e = .abort := by
  have ln := extractName_length hl
  have p1 := part_length (line := line) 137 4 (by omega)
  have p2 := part_length (line := line) 117 5 (by omega)
  have p3 := part_length (line := line) 194 8 (by omega)
  have p4 := part_length (line := line) 142 7 (by omega)
  have p5 := part_length (line := line) 8 5 (by omega)
  have p6 := part_length (line := line) 14 5 (by omega)
  have hrec := reclen_eq
  unfold asteroidText
  rw [hs]
  unfold ShowElem.put ShowElem.cat
  rw [if_pos (by simp only [List.length_append, List.length_cons, List.length_nil]; omega)]
  simp only [Outcome.bind]
  by_cases h1 : (extractName line ++ [32] ++ s).length + (part line 137 4 ++ [32] ++ part line 117 5 ++ [32]).length < 200
  · rw [if_pos h1]
    simp only
    split_ifs with h2
    · simp only
      rw [if_neg]
      simp only [List.length_append, List.length_cons, List.length_nil, List.length_take]
      omega
    · rfl
  · rw [if_neg h1]

/-- **C102.** The name of a numbered asteroid is its number, to the right of twelve columns; else it is the designation of twelve bytes. -/
theorem C102_number {line ds rest : List Nat} {k : Nat} (h : line.drop 166 = List.replicate k 32 ++ 40 :: (ds ++ 41 :: rest)) (hk : k + ds.length = 6)
    (hd : AllDigits ds) (h0 : ds ≠ []) : extractName line = List.replicate (12 - ds.length) 32 ++ ds := by
  have hb : MpcOrb.byte line 173 = 41 := by
    have : MpcOrb.byte line 173 = (line.drop 166).getD 7 0 := by
      unfold MpcOrb.byte
      rw [List.getD_eq_getElem?_getD, List.getD_eq_getElem?_getD, List.getElem?_drop]
    rw [this, h, List.getD_eq_getElem?_getD, List.getElem?_append_right (by simp; omega), List.length_replicate, show 7 - k = (6 - k) + 1 by omega,
      List.getElem?_cons_succ, List.getElem?_append_right (by omega), show 6 - k - ds.length = 0 by omega]
    rfl
  have ht : (line.drop 166).take 7 = List.replicate k 32 ++ 40 :: ds := by
    rw [h, show List.replicate k 32 ++ 40 :: (ds ++ 41 :: rest) = (List.replicate k 32 ++ 40 :: ds) ++ 41 :: rest by simp]
    rw [show 7 = (List.replicate k 32 ++ 40 :: ds).length by simp; omega, List.take_left]
  have hmap : ds.map (fun c => if c = 40 then 32 else c) = ds := by
    conv => rhs; rw [← List.map_id ds]
    apply List.map_congr_left
    intro c hc
    have := hd c hc
    simp
    omega
  unfold extractName
  simp only
  rw [if_pos hb, ht]
  have e : (List.replicate 5 32 ++ (List.replicate k 32 ++ 40 :: ds)).map (fun c => if c = 40 then 32 else c) = List.replicate (12 - ds.length) 32 ++ ds := by
    rw [List.map_append, List.map_append, List.map_cons, hmap]
    simp only [List.map_replicate, show ¬ ((32 : Nat) = 40) by omega, if_false, if_true]
    rw [show 12 - ds.length = 5 + (k + 1) by omega, List.replicate_add, List.replicate_add]
    simp
  rw [e, if_neg]
  intro hn
  cases hds : ds with
  | nil => exact h0 hds
  | cons c s =>
    have hc := hd c (by rw [hds]; simp)
    have : c ∈ List.replicate 12 32 := by rw [← hn, hds]; simp
    rw [List.mem_replicate] at this
    omega

theorem C102_designation {line : List Nat} (h : (line)[173]? ≠ some 41) (hn : part line 175 12 ≠ List.replicate 12 32) : extractName line = part line 175 12 := by
  have hb : MpcOrb.byte line 173 ≠ 41 := by
    unfold MpcOrb.byte
    rw [List.getD_eq_getElem?_getD]
    cases hc : (line)[173]? with
    | none => simp
    | some c => rw [hc] at h; simpa using h
  unfold extractName
  simp only
  rw [if_neg hb]
  exact if_neg hn

/-- **C102.** With no name in those columns the record has the twelve bytes before them. -/
theorem C102_unnamed {line : List Nat} (h : (line)[173]? ≠ some 41) (hn : part line 175 12 = List.replicate 12 32) : extractName line = part line 166 12 := by
  have hb : MpcOrb.byte line 173 ≠ 41 := by
    unfold MpcOrb.byte
    rw [List.getD_eq_getElem?_getD]
    cases hc : (line)[173]? with
    | none => simp
    | some c => rw [hc] at h; simpa using h
  unfold extractName
  simp only
  rw [if_neg hb]
  exact if_pos hn

/-- **C102.** The day of the first observation is not in the line: it is estimated from the length of the arc in days, or from the years of
    the first and last opposition. -/
theorem C102_first_observed {getTime : List Nat → ℝ} {line : List Nat} :
    (∀ {b c : List Nat} {k : Nat}, line.drop 128 = List.replicate k 32 ++ (b ++ 32 :: c) → k + b.length = 3 → AllDigits b → b ≠ [] → part line 132 4 = bytes "days" →
      firstObserved getTime line = .ok (getTime (line.drop 194) - (value b : ℝ))) ∧
    (∀ {a b c : List Nat}, line.drop 127 = a ++ 45 :: (b ++ 32 :: c) → a.length = 4 → b.length = 4 → AllDigits a → AllDigits b →
      1700 < value a → value a ≤ value b → value b < 2100 →
      firstObserved getTime line = .ok (getTime (line.drop 194) - 365 * ((value b : ℝ) - value a + 1))) := by
  refine ⟨?_, ?_⟩
  · intro b c k h hk hb h0 hd
    unfold firstObserved
    simp only
    rw [if_pos (show (line.drop 132).take 4 = bytes "days" from hd)]
    have : MpcOrb.number (line.drop 128) = (value b : ℝ) := by
      have hs : Scan.strtold (K := ℚ) (List.replicate k 32 ++ (b ++ 32 :: c)) = ((value b : ℚ), 32 :: c) := by
        have e := Scan.strtold_digits (K := ℚ) hb h0 (stops_at_blank c)
        unfold Scan.strtold at e ⊢
        rw [Scan.skipSpace_blanks]
        rw [Scan.start_digits hb h0] at e ⊢
        simp only at e ⊢
        rw [Scan.mantissa_digits hb h0 (stops_at_blank c).1 (stops_at_blank c).2.1] at e ⊢
        exact e
      unfold MpcOrb.number MpcLine.atof
      rw [h, hs]
      simp
    rw [this]
  · intro a b c h la lb ha hb h1 h2 h3
    have hz : part line 132 4 ≠ bytes "days" := by
      have : part line 132 4 = b := by
        unfold part
        rw [show 132 = 127 + 5 from rfl, ← List.drop_drop, h, show a ++ 45 :: (b ++ 32 :: c) = (a ++ [45]) ++ (b ++ 32 :: c) by simp,
          List.drop_left' (by simp [la]), List.take_left' lb]
      rw [this]
      intro e
      have := hb 100 (by rw [e]; decide)
      exact absurd this (by decide)
    unfold firstObserved
    simp only
    rw [if_neg (show ¬ (line.drop 132).take 4 = bytes "days" from hz), h, Scan.scanInt_digits ha (by intro e; rw [e] at la; cases la) (by rfl)]
    simp only
    rw [Scan.scanInt_digits hb (by intro e; rw [e] at lb; cases lb) (by rfl)]
    simp only
    rw [if_pos (by omega)]
    simp

/-! The name of a comet -/

theorem before_bracket {name rest : List Nat} (h : 40 ∉ name) : beforeBracket (name ++ 32 :: 40 :: rest) = name := by
  induction name with
  | nil => rfl
  | cons c s ih =>
    have h' : 40 ∉ s := fun e => h (List.mem_cons_of_mem _ e)
    rw [List.cons_append, beforeBracket, ih h']
    intro x e1 e2
    cases s with
    | nil => simp at e2
    | cons d s => simp at e2; exact h' (by rw [e2.1]; exact List.mem_cons_self ..)

theorem before_bracket_none {name : List Nat} (h : 40 ∉ name) : beforeBracket name = name := by
  induction name with
  | nil => rfl
  | cons c s ih =>
    have h' : 40 ∉ s := fun e => h (List.mem_cons_of_mem _ e)
    rw [beforeBracket, ih h']
    intro x _ e2
    rw [e2] at h'
    exact h' (List.mem_cons_self ..)

/-- **C102.** A comet without a number has the designation that is before the bracket with the name of its discoverer. -/
theorem C102_provisional {line name rest : List Nat} (hb : (line)[2]? = some 32) (h : line.drop 3 = name ++ 32 :: 40 :: rest) (hl : name.length ≤ 10)
    (hn : 40 ∉ name) : cometName line = name := by
  unfold cometName
  rw [if_pos (by unfold MpcOrb.byte; rw [List.getD_eq_getElem?_getD, hb]; rfl), h, List.take_append, List.take_of_length_le (by omega),
    show 12 - name.length = (10 - name.length) + 1 + 1 by omega, List.take_succ_cons, List.take_succ_cons, before_bracket hn]

theorem byte_left {t : List Nat} (r : List Nat) {i : Nat} (h : i < t.length) : MpcOrb.byte (t ++ r) i = t[i] := by
  unfold MpcOrb.byte
  rw [List.getD_eq_getElem?_getD, List.getElem?_append_left h, List.getElem?_eq_getElem h]
  rfl

theorem last_of {line t rest : List Nat} {c : Nat} : ∀ k, line = t ++ c :: (List.replicate k 32 ++ rest) → c ≠ 32 → 0 < t.length →
    lastOf line (t.length + k) = t.length
  | 0, h, hc, h0 => by
    obtain ⟨n, hn⟩ : ∃ n, t.length = n + 1 := ⟨t.length - 1, by omega⟩
    have : MpcOrb.byte line t.length = c := by
      subst h
      unfold MpcOrb.byte
      rw [List.getD_eq_getElem?_getD, List.getElem?_append_right (le_refl _), Nat.sub_self]
      rfl
    rw [Nat.add_zero]
    rw [hn] at this ⊢
    rw [lastOf, this, if_neg hc]
  | k + 1, h, hc, h0 => by
    have : MpcOrb.byte line (t.length + k + 1) = 32 := by
      subst h
      unfold MpcOrb.byte
      rw [List.getD_eq_getElem?_getD, List.getElem?_append_right (by omega), show t.length + k + 1 - t.length = k + 1 by omega, List.getElem?_cons_succ,
        List.getElem?_append_left (by simp), List.getElem?_replicate, if_pos (by omega)]
      rfl
    rw [← Nat.add_assoc, lastOf, this, if_pos rfl]
    refine last_of (rest := 32 :: rest) k ?_ hc h0
    rw [h, List.replicate_succ', List.append_assoc]
    rfl

/-- **C102.** A comet with a number has its first four bytes, and the letters of a fragment: one or two after a hyphen at the end of the name. -/
theorem C102_permanent {line pre rest : List Nat} (hb : (line)[2]? ≠ some 32) :
    (∀ {x c d : Nat} {k : Nat}, line = pre ++ x :: c :: d :: (List.replicate k 32 ++ rest) → pre.length + k = 41 → 4 ≤ pre.length → d ≠ 32 → x ≠ 45 → c ≠ 45 →
      cometName line = line.take 4) ∧
    (∀ {x d : Nat} {k : Nat}, line = pre ++ x :: 45 :: d :: (List.replicate k 32 ++ rest) → pre.length + k = 41 → 4 ≤ pre.length → d ≠ 32 → x ≠ 45 →
      cometName line = line.take 4 ++ [45, d]) ∧
    (∀ {c d : Nat} {k : Nat}, line = pre ++ 45 :: c :: d :: (List.replicate k 32 ++ rest) → pre.length + k = 41 → 4 ≤ pre.length → d ≠ 32 →
      cometName line = line.take 4 ++ [45, c, d]) := by
  have hb' : ¬ MpcOrb.byte line 2 = 32 := by
    unfold MpcOrb.byte
    rw [List.getD_eq_getElem?_getD]
    cases hc : (line)[2]? with
    | none => simp
    | some c => rw [hc] at hb; simpa using hb
  have key : ∀ {x c d k : Nat}, line = pre ++ x :: c :: d :: (List.replicate k 32 ++ rest) → pre.length + k = 41 → d ≠ 32 →
      lastOf line 43 = pre.length + 2 ∧ MpcOrb.byte line (pre.length + 1) = c ∧ MpcOrb.byte line pre.length = x ∧
      part line (pre.length + 1) 2 = [c, d] ∧ part line pre.length 3 = [x, c, d] := by
    intro x c d k h hk hd
    have h' : line = (pre ++ [x, c]) ++ d :: (List.replicate k 32 ++ rest) := by rw [h]; simp
    have l2 : (pre ++ [x, c]).length = pre.length + 2 := by simp
    refine ⟨?_, ?_, ?_, ?_, ?_⟩
    · have := last_of k h' hd (by omega)
      rw [l2, show pre.length + 2 + k = 43 by omega] at this
      exact this
    · unfold MpcOrb.byte
      rw [h, List.getD_eq_getElem?_getD, List.getElem?_append_right (by omega), show pre.length + 1 - pre.length = 1 by omega]
      rfl
    · unfold MpcOrb.byte
      rw [h, List.getD_eq_getElem?_getD, List.getElem?_append_right (by omega), Nat.sub_self]
      rfl
    · unfold part
      rw [h, ← List.drop_drop, List.drop_left' rfl]
      rfl
    · unfold part
      rw [h, List.drop_left' rfl]
      rfl
  refine ⟨?_, ?_, ?_⟩
  · intro x c d k h hk h4 hd hx hc
    obtain ⟨e1, e2, e3, e4, e5⟩ := key h hk hd
    unfold cometName
    rw [if_neg hb', e1]
    simp only [show pre.length + 2 - 1 = pre.length + 1 by omega, Nat.add_sub_cancel, e2, e3, hx, hc, if_false]
  · intro x d k h hk h4 hd hx
    obtain ⟨e1, e2, e3, e4, e5⟩ := key h hk hd
    unfold cometName
    rw [if_neg hb', e1]
    simp only [show pre.length + 2 - 1 = pre.length + 1 by omega, Nat.add_sub_cancel, e2, e3, e4, hx, if_false, if_true]
  · intro c d k h hk h4 hd
    obtain ⟨e1, e2, e3, e4, e5⟩ := key h hk hd
    have lt : (line.take 4).length = 4 := by rw [List.length_take, h]; simp; omega
    unfold cometName
    rw [if_neg hb', e1]
    simp only [show pre.length + 2 - 1 = pre.length + 1 by omega, Nat.add_sub_cancel, e2, e3, e4, e5, if_true]
    split_ifs
    · rw [List.take_left' lt]
    · rw [List.take_of_length_le (by omega)]

/-- **C102.** The elements and the epoch of a line of `ELEMENTS.COMET`; the time of perihelion is what the reader of times makes of fourteen
    columns. -/
theorem C102_comet_line {getTime : List Nat → ℝ} {line tq te ti tw tn ep : List Nat} {q ecc incl argPer node : ℚ} (hl : 116 < line.length)
    (hb : (line)[113]? = some 46) (fq : FieldAt line 51 tq) (dq : Verif.Spec.Decimal tq q) (fe : FieldAt line 64 te) (de : Verif.Spec.Decimal te ecc)
    (fi : FieldAt line 75 ti) (di : Verif.Spec.Decimal ti incl) (fw : FieldAt line 85 tw) (dw : Verif.Spec.Decimal tw argPer)
    (fo : FieldAt line 95 tn) (dn : Verif.Spec.Decimal tn node) (fep : FieldAt line 44 ep) (hd : AllDigits ep) (h0 : ep ≠ []) :
    ∃ e epoch, parseComet getTime line = some (e, epoch) ∧ e.q = q ∧ e.ecc = ecc ∧ e.incl = incl * Real.pi / 180 ∧ e.argPer = argPer * Real.pi / 180 ∧
      e.ascNode = node * Real.pi / 180 ∧ e.perihTime = getTime (part line 105 14) ∧ epoch = (value ep : ℝ) + 2400000.5 := by
  have nf : ∀ {c : Nat} {t : List Nat} {x : ℚ}, FieldAt line c t → Verif.Spec.Decimal t x → MpcOrb.number (line.drop c) = (x : ℝ) := fun hf hx => number_field hf hx
  have hep : MpcOrb.number (line.drop 44) = (value ep : ℝ) := by
    obtain ⟨pre, r, e, hp⟩ := fep
    unfold MpcOrb.number MpcLine.atof
    rw [e, List.drop_left' hp, Scan.strtold_digits hd h0 (stops_at_blank _)]
    simp
  unfold parseComet
  rw [if_pos ⟨hl, by unfold MpcOrb.byte; rw [List.getD_eq_getElem?_getD, hb]; rfl⟩, nf fq dq, nf fe de, nf fi di, nf fw dw, nf fo dn, hep]
  refine ⟨_, _, rfl, ?_, ?_, ?_, ?_, ?_, ?_, rfl⟩ <;>
  · unfold Orbit.derive Orbit.orbitVectors
    simp only
    split_ifs <;> rfl

/-! ## Examples -/

theorem ceres_day : gregorian.dayNumber exampleOrbit.day exampleOrbit.month exampleOrbit.year = 2458601 := by
  have h := C02_gregorian_daycount exampleOrbit_date
  have h' : dmyToDay exampleOrbit.day exampleOrbit.month exampleOrbit.year GREGORIAN = some 2458601 := by decide +kernel
  rw [h] at h'
  exact Option.some.inj h'

theorem ceres_first : firstObserved (fun _ => 2458741.5) exampleMpcorb = .ok (2458741.5 - 365 * ((2019 : ℝ) - 1801 + 1)) := by
  have h1 : (exampleMpcorb.drop 132).take 4 ≠ bytes "days" := by decide
  have h2 : Scan.scanInt (exampleMpcorb.drop 127) = some (1801, 45 :: exampleMpcorb.drop 132) := by rfl
  have h3 : Scan.scanInt (exampleMpcorb.drop 132) = some (2019, exampleMpcorb.drop 136) := by rfl
  unfold firstObserved
  simp only
  rw [if_neg h1, h2]
  simp only
  rw [h3]
  simp only
  rw [if_pos (by decide)]
  norm_num

/-- The hypotheses of `C102_asteroid`. -/
example (old : Elements) : ∃ a r, OrbitStored a exampleOrbit (gregorian.dayNumber exampleOrbit.day exampleOrbit.month exampleOrbit.year) ∧
    AsteroidRecord (fun _ => 2458741.5) old exampleMpcorb (.ok (some r)) ∧ r.length = 144 ∧
      SofSays r a.el a.epoch ∧ r.take 12 = extractName exampleMpcorb ∧ r.drop 132 = part exampleMpcorb 8 5 ++ 32 :: (part exampleMpcorb 14 5 ++ [10]) := by
  refine C102_asteroid mpcorb_example exampleMpcorb_length exampleOrbit_date (by decide) (by norm_num [exampleOrbit]) (by norm_num [exampleOrbit]) (by norm_num [exampleOrbit])
    (by norm_num [exampleOrbit]) (by norm_num [exampleOrbit]) old _ ceres_first (by unfold InYears; norm_num) ?_
  intro a ha
  have h1 := ha.nearest (by norm_num [exampleOrbit]) (by norm_num [exampleOrbit]) (by norm_num [exampleOrbit])
  rw [ha.epoch, ceres_day, ha.time] at h1
  have hs : √(((exampleOrbit.axis : ℚ) : ℝ) / 0.01720209895 ^ 2) ≤ 100 := by
    rw [Real.sqrt_le_left (by norm_num)]
    norm_num [exampleOrbit]
  have hs0 := Real.sqrt_nonneg (((exampleOrbit.axis : ℚ) : ℝ) / 0.01720209895 ^ 2)
  generalize √(((exampleOrbit.axis : ℚ) : ℝ) / 0.01720209895 ^ 2) = x at *
  have ha3 : ((exampleOrbit.axis : ℚ) : ℝ) ≤ 3 ∧ (0 : ℝ) ≤ ((exampleOrbit.axis : ℚ) : ℝ) := by norm_num [exampleOrbit]
  generalize ((exampleOrbit.axis : ℚ) : ℝ) = y at *
  have hp := Real.pi_le_four
  have hp0 := Real.pi_pos
  have k1 : y * x ≤ 300 := by nlinarith
  have k2 : Real.pi * (y * x) ≤ 1200 := by nlinarith [mul_nonneg ha3.2 hs0]
  have h2 := abs_le.1 (le_trans h1 k2)
  push_cast at h2
  unfold InYears
  norm_num at h2 ⊢
  constructor <;> linarith

/-- Comet Halley in the format of `ELEMENTS.COMET`. -/
def exampleComet : List Nat :=
  [32, 32, 49, 80, 47, 72, 97, 108, 108, 101, 121, 32, 32, 32, 32, 32, 32, 32, 32, 32, 32, 32, 32, 32,
   32, 32, 32, 32, 32, 32, 32, 32, 32, 32, 32, 32, 32, 32, 32, 32, 32, 32, 32, 32, 52, 57, 52, 48,
   48, 32, 32, 32, 48, 46, 53, 56, 53, 57, 55, 56, 49, 49, 32, 32, 48, 46, 57, 54, 55, 49, 52, 50,
   57, 49, 32, 49, 54, 50, 46, 50, 54, 50, 54, 57, 32, 49, 49, 49, 46, 51, 51, 50, 52, 57, 32, 32,
   53, 56, 46, 52, 50, 48, 48, 56, 32, 49, 57, 56, 54, 48, 50, 48, 53, 46, 56, 57, 53, 51, 50]

/-- A time of perihelion. -/
noncomputable def halleyTime : List Nat → ℝ := fun _ => 2446467.4

/-- The hypotheses of `C102_comet_line` and `C102_comet`. -/
example : ∃ e epoch r, parseComet halleyTime exampleComet = some (e, epoch) ∧ CometRecord halleyTime exampleComet (.ok (some r)) ∧ r.length = 144 ∧
    SofSays r e epoch ∧ r.take 12 = bytes "  1P        " := by
  have q : ∃ t, FieldAt exampleComet 51 t ∧ Verif.Spec.Decimal t (58597811 / 100000000) := ⟨_, field_of (c := 51) (n := 11) rfl (by decide), 1, false, [48], [53, 56, 53, 57, 55, 56, 49, 49], rfl, by unfold AllDigits; decide, by unfold AllDigits; decide, Or.inl (by simp), by norm_num [value]⟩
  have ec : ∃ t, FieldAt exampleComet 64 t ∧ Verif.Spec.Decimal t (96714291 / 100000000) := ⟨_, field_of (c := 64) (n := 10) rfl (by decide), 0, false, [48], [57, 54, 55, 49, 52, 50, 57, 49], rfl, by unfold AllDigits; decide, by unfold AllDigits; decide, Or.inl (by simp), by norm_num [value]⟩
  have i : ∃ t, FieldAt exampleComet 75 t ∧ Verif.Spec.Decimal t (16226269 / 100000) := ⟨_, field_of (c := 75) (n := 9) rfl (by decide), 0, false, [49, 54, 50], [50, 54, 50, 54, 57], rfl, by unfold AllDigits; decide, by unfold AllDigits; decide, Or.inl (by simp), by norm_num [value]⟩
  have w : ∃ t, FieldAt exampleComet 85 t ∧ Verif.Spec.Decimal t (11133249 / 100000) := ⟨_, field_of (c := 85) (n := 9) rfl (by decide), 0, false, [49, 49, 49], [51, 51, 50, 52, 57], rfl, by unfold AllDigits; decide, by unfold AllDigits; decide, Or.inl (by simp), by norm_num [value]⟩
  have om : ∃ t, FieldAt exampleComet 95 t ∧ Verif.Spec.Decimal t (5842008 / 100000) := ⟨_, field_of (c := 95) (n := 9) rfl (by decide), 1, false, [53, 56], [52, 50, 48, 48, 56], rfl, by unfold AllDigits; decide, by unfold AllDigits; decide, Or.inl (by simp), by norm_num [value]⟩
  obtain ⟨tq, fq, dq⟩ := q
  obtain ⟨te, fe, de⟩ := ec
  obtain ⟨ti, fi, di⟩ := i
  obtain ⟨tw, fw, dw⟩ := w
  obtain ⟨tn, fo, dn⟩ := om
  have hp := Real.pi_pos
  obtain ⟨e, epoch, hc, h1, h2, h3, h4, h5, h6, h7⟩ := C102_comet_line (getTime := halleyTime) (ep := [52, 57, 52, 48, 48]) (by decide) (by decide)
    fq dq fe de fi di fw dw fo dn (field_of (c := 44) (n := 5) rfl (by decide)) (by unfold AllDigits; decide) (by simp)
  push_cast at h1 h2 h3 h4 h5
  unfold halleyTime at h6
  rw [show value [52, 57, 52, 48, 48] = 49400 by decide] at h7
  have deg : ∀ x : ℝ, x * Real.pi / 180 * 180 / Real.pi = x := by
    intro x
    have := Real.pi_ne_zero
    field_simp
  obtain ⟨r, k1, k2, k3, k4⟩ := C102_comet halleyTime hc
    ⟨by rw [h1]; norm_num, ⟨by rw [h3]; positivity, by rw [h3, deg]; norm_num⟩, ⟨by rw [h5]; positivity, by rw [h5, deg]; norm_num⟩,
      ⟨by rw [h4]; positivity, by rw [h4, deg]; norm_num⟩, by rw [h2]; norm_num⟩ (by rw [h6]; unfold InYears; norm_num) (by rw [h7]; unfold InYears; norm_num)
  have hn : cometName exampleComet = bytes "  1P" := by decide +kernel
  rw [hn] at k4
  have k5 : r.take 12 = bytes "  1P        " := by rw [k4]; decide
  refine ⟨e, epoch, r, hc, ?_, k2, k3, k5⟩
  exact k1

/-- The hypotheses of `C102_number` and `C102_designation`. -/
example : extractName exampleMpcorb = List.replicate 11 32 ++ [49] :=
  C102_number (ds := [49]) (k := 5) (rest := exampleMpcorb.drop 174) rfl rfl (by unfold AllDigits; decide) (by simp)

example : extractName (exampleMpcorb.set 173 32) = part (exampleMpcorb.set 173 32) 175 12 := C102_designation (by decide) (by decide)

/-- The hypotheses of `C102_unnamed`. -/
example : extractName (List.replicate 166 32 ++ bytes "K20A00A     " ++ List.replicate 24 32) = bytes "K20A00A     " :=
  (C102_unnamed (by decide) (by decide)).trans (by decide)

/-- The hypotheses of `C102_first_observed`: an arc of twelve days, and of one opposition. -/
example (getTime : List Nat → ℝ) : firstObserved getTime (List.replicate 129 32 ++ bytes "12 days") = .ok (getTime [] - 12) := by
  have h := (C102_first_observed (getTime := getTime) (line := List.replicate 129 32 ++ bytes "12 days")).1 (show _ = List.replicate 1 32 ++ (bytes "12" ++ 32 :: bytes "days") by decide)
    (by decide) (by unfold AllDigits; decide) (by decide) (by decide)
  rw [h, show value (bytes "12") = 12 by decide]
  norm_num
  exact congrArg getTime (by decide)

example (getTime : List Nat → ℝ) : firstObserved getTime (List.replicate 127 32 ++ bytes "2004-2004 x") = .ok (getTime [] - 365) := by
  have h := (C102_first_observed (getTime := getTime) (line := List.replicate 127 32 ++ bytes "2004-2004 x")).2 (show _ = bytes "2004" ++ 45 :: (bytes "2004" ++ 32 :: bytes "x") by decide)
    (by decide) (by decide) (by unfold AllDigits; decide) (by unfold AllDigits; decide) (by decide) (by decide) (by decide)
  rw [h, show value (bytes "2004") = 2004 by decide]
  norm_num
  exact congrArg getTime (by decide)

/-- The hypotheses of `C102_provisional` and `C102_permanent`. -/
example : cometName (bytes "   C/1995 O1 (Hale-Bopp)") = bytes "C/1995 O1" :=
  C102_provisional (name := bytes "C/1995 O1") (rest := bytes "Hale-Bopp)") (by decide) (by decide) (by decide) (by decide)

example : cometName exampleComet = bytes "  1P" :=
  ((C102_permanent (pre := exampleComet.take 8) (rest := exampleComet.drop 44) (by decide)).1 (x := 108) (c := 101) (d := 121) (k := 33)
    (by decide) (by decide) (by decide) (by decide) (by decide) (by decide)).trans (by decide)

example : cometName (bytes " 73P/Schwassmann-Wachmann 3-B" ++ List.replicate 15 32) = bytes " 73P-B" :=
  ((C102_permanent (pre := bytes " 73P/Schwassmann-Wachmann ") (rest := []) (by decide)).2.1 (x := 51) (d := 66) (k := 15)
    (by decide) (by decide) (by decide) (by decide) (by decide)).trans (by decide)

example : cometName (bytes " 73P/Schwassmann-Wachmann 3-BT" ++ List.replicate 14 32) = bytes " 73P-BT" :=
  ((C102_permanent (pre := bytes " 73P/Schwassmann-Wachmann 3") (rest := []) (by decide)).2.2 (c := 66) (d := 84) (k := 14)
    (by decide) (by decide) (by decide) (by decide)).trans (by decide)

/-- The hypotheses of `C102_aborts`: a perihelion in the year 10000. -/
example (e : Elements) (hf : FitsColumns e) : asteroidText (bytes "100000101.0000000") (bytes "20190427") (bytes "18010101") exampleMpcorb e = .abort := by
  obtain ⟨l1, l2, l3, l4, l5⟩ := fits_lengths hf
  have hp : (bytes "100000101.0000000").length = 17 := by decide
  have he : (bytes "20190427").length = 8 := by decide
  have hs : ∃ s, outputSof (bytes "100000101.0000000") (bytes "20190427") e = .ok s ∧ s.length = 83 := by
    unfold outputSof ShowElem.put ShowElem.cat
    rw [if_pos (by simp only [List.length_append, List.length_cons, List.length_nil]; omega)]
    simp only [Outcome.bind]
    rw [if_pos (by simp only [List.length_append, List.length_cons, List.length_nil]; omega)]
    exact ⟨_, rfl, by simp only [List.length_append, List.length_cons, List.length_nil]; omega⟩
  obtain ⟨s, h1, h2⟩ := hs
  exact C102_aborts exampleMpcorb_length (by decide) h1 (by omega)

end Verif.Props
