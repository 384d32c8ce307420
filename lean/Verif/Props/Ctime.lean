import Mathlib.Tactic.FieldSimp
import Mathlib.Tactic.Linarith
import Mathlib.Tactic.NormNum
import Mathlib.Tactic.Positivity
import Mathlib.Data.Rat.Floor
import Verif.Model.Ctime
import Verif.Lemmas.Order
import Verif.Props.TimeSplit

/-!
# Property theorems: printed times (C60)
-/

namespace Verif.Props

open Verif Verif.Date Verif.Spec Verif.Time

variable {K : Type} [Field K] [LinearOrder K] [IsStrictOrderedRing K] [FloorRing K]

omit [IsStrictOrderedRing K] in
theorem trunc_spec {x : K} (h : 0 ≤ x) : ∃ n : Nat, trunc x = n ∧ (n : K) ≤ x ∧ x < n + 1 := by
  have h0 : 0 ≤ ⌊x⌋ := Int.floor_nonneg.2 h
  obtain ⟨n, hn⟩ := Int.eq_ofNat_of_zero_le h0
  refine ⟨n, by unfold trunc; rw [if_pos h, hn], ?_, ?_⟩
  · have := Int.floor_le x; rw [hn] at this; exact_mod_cast this
  · have := Int.lt_floor_add_one x; rw [hn] at this; exact_mod_cast this

theorem remainderDigits_spec (p : Nat) (r : K) (h0 : 0 ≤ r) (h1 : r < 1) :
    ∃ ds, remainderDigits p r = some ds ∧ AllDigits ds ∧ ds.length = p ∧
      (value ds : K) ≤ r * 10 ^ p ∧ r * 10 ^ p < value ds + 1 := by
  induction p generalizing r with
  | zero => exact ⟨[], rfl, by simp [AllDigits], rfl, by simpa [value] using h0, by simpa [value] using h1⟩
  | succ p ih =>
    obtain ⟨n, hn, n0, n1⟩ := trunc_spec (x := r * 10) (by linarith)
    have hn9 : n ≤ 9 := by
      have : (n : K) < 10 := by linarith
      have : n < 10 := by exact_mod_cast this
      omega
    obtain ⟨ds, h2, h3, h4, h5, h6⟩ := ih (r * 10 - n) (by linarith) (by linarith)
    refine ⟨(48 + n) :: ds, ?_, ?_, by simp [h4], ?_, ?_⟩
    · unfold remainderDigits
      simp only [hn]
      rw [if_pos (by omega)]
      have : ((n : Int) : K) = n := by push_cast; rfl
      rw [this, h2]
      rfl
    · intro c hc
      rcases List.mem_cons.1 hc with rfl | hc
      · omega
      · exact h3 c hc
    · rw [value_cons, h4, Nat.add_sub_cancel_left]
      push_cast
      rw [pow_succ]
      have : (0 : K) < 10 ^ p := by positivity
      nlinarith
    · rw [value_cons, h4, Nat.add_sub_cancel_left]
      push_cast
      rw [pow_succ]
      have : (0 : K) < 10 ^ p := by positivity
      nlinarith

/-- **C60.** `show_remainder` prints the decimals of any fraction from 0 (inclusive) to 1 (exclusive), cut off
    (never rounded up), and no assertion fails. -/
theorem C60_remainder (p : Nat) (r : K) (h0 : 0 ≤ r) (h1 : r < 1) :
    ∃ ds v, showRemainder r p = .ok (46 :: ds) ∧ Padded p v ds ∧ (v : K) / 10 ^ p ≤ r ∧ r < ((v : K) + 1) / 10 ^ p := by
  obtain ⟨ds, h2, h3, h4, h5, h6⟩ := remainderDigits_spec p r h0 h1
  have hp : (0 : K) < 10 ^ p := by positivity
  refine ⟨ds, value ds, ?_, ⟨h3, rfl, h4⟩, ?_, ?_⟩
  · unfold showRemainder; rw [if_pos ⟨h0, h1⟩, h2]
  · rw [div_le_iff₀ hp]; exact h5
  · rw [lt_div_iff₀ hp]; exact h6

/-- **C60.** `show_remainder` stops the program for anything outside that range. -/
theorem C60_remainder_abort (p : Nat) (r : K) (h : r < 0 ∨ 1 ≤ r) : showRemainder r p = .abort := by
  unfold showRemainder
  rw [if_neg]
  rintro ⟨h0, h1⟩
  rcases h with h | h
  · linarith
  · linarith

theorem fmtZero_padded {w : Nat} {n : Nat} (h : n < 10 ^ w) (hw : 0 < w) : Padded w n (fmtZero w (n : Int)) := by
  unfold fmtZero
  rw [if_neg (by omega), Int.toNat_natCast]
  exact padded_pad h hw

theorem fmtBlank_two {n : Nat} (h : n < 100) : fmtBlank 2 (n : Int) = if n < 10 then [32, 48 + n] else pad 2 n := by
  unfold fmtBlank decInt
  rw [if_neg (by omega), Int.toNat_natCast]
  by_cases c : n < 10
  · rw [if_pos c, dec1 c]; rfl
  · have hd := dec2 (n := n) (by omega) h
    rw [if_neg c, pad, hd]; rfl

theorem fix_twoBytes (lz : Bool) {n : Nat} (h : n < 100) (t : List Nat) :
    ∃ hh, TwoBytes lz n hh ∧ fixLead lz (fmtBlank 2 (n : Int) ++ t) = hh ++ t := by
  rw [fmtBlank_two h]
  by_cases c : n < 10
  · rw [if_pos c]
    cases lz with
    | true =>
      refine ⟨[48, 48 + n], ?_, rfl⟩
      unfold TwoBytes
      rw [if_pos (Or.inl rfl)]
      exact ⟨by intro c hc; simp at hc; omega, by simp [value], rfl⟩
    | false =>
      refine ⟨[32, 48 + n], ?_, rfl⟩
      unfold TwoBytes
      rw [if_neg (by simp; omega)]
  · rw [if_neg c]
    have hp := padded_pad (w := 2) (n := n) (by omega) (by omega)
    refine ⟨pad 2 n, ?_, ?_⟩
    · unfold TwoBytes; rw [if_pos (Or.inr (by omega))]; exact hp
    · match hs : pad 2 n, hp with
      | [], hp => have := hp.width; simp at this
      | a :: s, hp =>
        have := hp.digits a (by simp)
        unfold fixLead
        split
        · rename_i heq; simp at heq; omega
        · rfl

/-- The clock of a format. -/
def clockOf : Out → Option Clock
  | .seconds => some .seconds
  | .hhmm => some .minutes
  | .hh => some .hours
  | _ => none

theorem units_eq {o : Out} {c : Clock} (h : clockOf o = some c) : o.units = c.perDay := by
  cases o <;> simp [clockOf] at h <;> subst h <;> rfl

/-- The whole part of the time of day. -/
theorem hms_spec (lz : Bool) {o : Out} {c : Clock} (h : clockOf o = some c) (i : Nat) (hi : i < c.perDay) :
    ∃ s, fixLead lz (hmsText o i) = s ∧ (hmsText o i).length = s.length ∧ s.length ≤ 8 ∧
      ∀ p v frac, Decimals p v frac → TimeOfDay lz c p (i * 10 ^ p + v) (s ++ frac) := by
  have len : ∀ n : Nat, n < 100 → (fmtBlank 2 (n : Int)).length = 2 := by
    intro n hn
    rw [fmtBlank_two hn]
    split
    · rfl
    · exact (padded_pad (w := 2) (n := n) (by omega) (by omega)).width
  cases o <;> simp [clockOf] at h <;> subst h <;> simp only [Clock.perDay] at hi
  · -- seconds
    have a1 : (i : Int).tdiv 3600 = (i / 3600 : Nat) := by rw [Int.tdiv_eq_ediv_of_nonneg (by omega)]; omega
    have a2 : ((i : Int).tdiv 60).tmod 60 = (i / 60 % 60 : Nat) := by
      rw [Int.tdiv_eq_ediv_of_nonneg (by omega), Int.tmod_eq_emod_of_nonneg (by omega)]; omega
    have a3 : (i : Int).tmod 60 = (i % 60 : Nat) := by rw [Int.tmod_eq_emod_of_nonneg (by omega)]; omega
    have p2 := fmtZero_padded (w := 2) (n := i / 60 % 60) (by omega) (by omega)
    have p3 := fmtZero_padded (w := 2) (n := i % 60) (by omega) (by omega)
    simp only [hmsText, a1, a2, a3, List.append_assoc]
    obtain ⟨hh, h1, h2⟩ := fix_twoBytes lz (n := i / 3600) (by omega)
      ([58] ++ (fmtZero 2 ((i / 60 % 60 : Nat) : Int) ++ ([58] ++ fmtZero 2 ((i % 60 : Nat) : Int))))
    refine ⟨_, h2, ?_, ?_, ?_⟩
    · simp only [List.length_append, len (i / 3600) (by omega), twoBytes_length h1]
    · have := p2.width; have := p3.width; simp only [List.length_append, twoBytes_length h1, List.length_singleton]; omega
    · intro p v frac hf
      refine ⟨v, frac, hf, i / 3600, i / 60 % 60, i % 60, hh, _, _, h1, p2, p3, by omega, by omega, by omega, ?_, ?_⟩
      · congr 2; omega
      · simp
  · -- minutes
    have a1 : (i : Int).tdiv 60 = (i / 60 : Nat) := by rw [Int.tdiv_eq_ediv_of_nonneg (by omega)]; omega
    have a3 : (i : Int).tmod 60 = (i % 60 : Nat) := by rw [Int.tmod_eq_emod_of_nonneg (by omega)]; omega
    have p3 := fmtZero_padded (w := 2) (n := i % 60) (by omega) (by omega)
    simp only [hmsText, a1, a3, List.append_assoc]
    obtain ⟨hh, h1, h2⟩ := fix_twoBytes lz (n := i / 60) (by omega) ([58] ++ fmtZero 2 ((i % 60 : Nat) : Int))
    refine ⟨_, h2, ?_, ?_, ?_⟩
    · simp only [List.length_append, len (i / 60) (by omega), twoBytes_length h1]
    · have := p3.width; simp only [List.length_append, twoBytes_length h1, List.length_singleton]; omega
    · intro p v frac hf
      refine ⟨v, frac, hf, i / 60, i % 60, hh, _, h1, p3, by omega, by omega, ?_, ?_⟩
      · congr 2; omega
      · simp
  · -- hours
    simp only [hmsText]
    obtain ⟨hh, h1, h2⟩ := fix_twoBytes lz (n := i) (by omega) []
    simp only [List.append_nil] at h2
    refine ⟨_, h2, ?_, ?_, ?_⟩
    · simp [len i (by omega), twoBytes_length h1]
    · simp [twoBytes_length h1]
    · intro p v frac hf
      exact ⟨v, frac, hf, i, hh, h1, by omega, rfl, rfl⟩

/-- The time of day as the code appends it. -/
theorem timeText_all (f : Fmt) (c : Clock) (hc : clockOf f.out = some c) (hp : f.precision ≤ 15)
    (r : K) (h0 : 0 ≤ r) (h1 : r < 1) :
    ∃ s n, (∀ buff : List Nat, buff.length ≤ 50 → timeText f buff r = .ok (buff ++ s)) ∧
      TimeOfDay f.leadingZeroes c f.precision n s ∧ s.length ≤ 24 ∧
      (n : K) ≤ r * (c.perDay * 10 ^ f.precision) ∧ r * (c.perDay * 10 ^ f.precision) < n + 1 := by
  have hu : (f.out.units : K) = c.perDay := by rw [units_eq hc]; push_cast; rfl
  have hpos : (0 : K) < c.perDay := by cases c <;> norm_num [Clock.perDay]
  obtain ⟨i, hi, i0, i1⟩ := trunc_spec (x := r * (c.perDay : K)) (by positivity)
  have hil : i < c.perDay := by
    have : (i : K) < c.perDay := by nlinarith
    exact_mod_cast this
  obtain ⟨s, hs, hsl, hs8, hst⟩ := hms_spec f.leadingZeroes hc i hil
  have hne : ¬ ((i : Int) = f.out.units) := by rw [units_eq hc]; omega
  have hday : ¬ f.out = .day := by intro h; rw [h] at hc; simp [clockOf] at hc
  have happ : ∀ buff : List Nat, buff.length ≤ 50 →
      app buff (hmsText f.out (i : Int)) = .ok (buff ++ hmsText f.out (i : Int)) := by
    intro buff hb
    unfold app; rw [if_neg (by omega)]
  unfold timeText
  simp only [hu, hi, if_neg hne, if_neg hday, hs]
  by_cases hz : f.precision = 0
  · simp only [if_pos hz]
    refine ⟨s, i * 10 ^ 0 + 0, ?_, ?_, by omega, ?_, ?_⟩
    · intro buff hb; rw [happ buff hb]; rfl
    · have := hst 0 0 [] (Or.inl ⟨rfl, rfl, rfl⟩)
      rw [List.append_nil] at this
      rw [hz]; exact this
    · rw [hz]; push_cast; linarith
    · rw [hz]; push_cast; linarith
  · simp only [if_neg hz]
    have hcast : (((i : Int)) : K) = (i : K) := by push_cast; rfl
    rw [hcast]
    obtain ⟨ds, v, e1, e2, e3, e4⟩ := C60_remainder f.precision (r * (c.perDay : K) - i) (by linarith) (by linarith)
    have hp10 : (0 : K) < 10 ^ f.precision := by positivity
    rw [div_le_iff₀ hp10] at e3
    rw [lt_div_iff₀ hp10] at e4
    have hw := e2.width
    rw [e1]
    refine ⟨s ++ 46 :: ds, i * 10 ^ f.precision + v, ?_, ?_, ?_, ?_, ?_⟩
    · intro buff hb
      rw [happ buff hb]
      simp only [Outcome.bind]
      rw [if_neg (by simp only [List.length_append, List.length_cons]; omega)]
      simp
    · exact hst _ _ _ (Or.inr ⟨by omega, ds, e2, rfl⟩)
    · simp only [List.length_append, List.length_cons]; omega
    · push_cast; nlinarith
    · push_cast; nlinarith

/-- The same for one buffer. -/
theorem timeText_spec (f : Fmt) (c : Clock) (hc : clockOf f.out = some c) (hp : f.precision ≤ 15) (buff : List Nat)
    (hb : buff.length ≤ 50) (r : K) (h0 : 0 ≤ r) (h1 : r < 1) :
    ∃ s n, timeText f buff r = .ok (buff ++ s) ∧ TimeOfDay f.leadingZeroes c f.precision n s ∧ s.length ≤ 24 ∧
      (n : K) ≤ r * (c.perDay * 10 ^ f.precision) ∧ r * (c.perDay * 10 ^ f.precision) < n + 1 := by
  obtain ⟨s, n, h, h'⟩ := timeText_all f c hc hp r h0 h1
  exact ⟨s, n, h buff hb, h'⟩

theorem frac_range (x : K) : 0 ≤ x - ⌊x⌋ ∧ x - ⌊x⌋ < 1 := by
  have a := Int.floor_le x
  have b := Int.lt_floor_add_one x
  constructor <;> linarith

/-- **C60.** The time of day printed by itself: for every time, what is printed stands for the part of the day
    gone by, cut off after the last place; the seconds never show as 60. -/
theorem C60_time_only (months days : Int → Option (List Nat)) (o : Out) (c : Clock) (hc : clockOf o = some c) (p : Nat) (hp : p ≤ 15)
    (lz rnd : Bool) (t : K) (d m y z : Int) :
    ∃ s n, ctime months days { out := o, precision := p, timeOnly := true, leadingZeroes := lz, rounding := rnd } t d m y z = .ok s ∧
      TimeOfDay lz c p n s ∧
      (n : K) ≤ (shifted { out := o, precision := p, timeOnly := true, leadingZeroes := lz, rounding := rnd } t
        - ⌊shifted { out := o, precision := p, timeOnly := true, leadingZeroes := lz, rounding := rnd } t⌋) * (c.perDay * 10 ^ p) ∧
      (shifted { out := o, precision := p, timeOnly := true, leadingZeroes := lz, rounding := rnd } t
        - ⌊shifted { out := o, precision := p, timeOnly := true, leadingZeroes := lz, rounding := rnd } t⌋) * (c.perDay * 10 ^ p) < n + 1 := by
  generalize hf : ({ out := o, precision := p, timeOnly := true, leadingZeroes := lz, rounding := rnd } : Fmt) = f
  obtain ⟨r0, r1⟩ := frac_range (shifted f t)
  obtain ⟨s, n, h1, h2, h3, h4, h5⟩ := timeText_spec f c (by rw [← hf]; exact hc) (by rw [← hf]; exact hp) [] (by simp) _ r0 r1
  refine ⟨s, n, ?_, by rw [← hf] at h2; exact h2, by rw [← hf] at h4 ⊢; exact h4, by rw [← hf] at h5 ⊢; exact h5⟩
  unfold ctime
  have e1 : f.dowFirst = false := by rw [← hf]
  have e2 : f.timeOnly = true := by rw [← hf]
  have e3 : f.dowLast = false := by rw [← hf]
  have e4 : f.noSpaces = false := by rw [← hf]
  have e5 : f.noColons = false := by rw [← hf]
  simp only [e1, e2, e3, e4, e5, Bool.false_eq_true, if_false, if_true, Outcome.bind]
  rw [h1]
  simp

/-- The format with year, month and day as digits with leading zeros. -/
def isoFmt (o : Out) (p : Nat) (rnd : Bool) : Fmt :=
  { out := o, precision := p, calendar := GREGORIAN, yearFirst := true, monthDay := true, monthsAsDigits := true,
    leadingZeroes := true, rounding := rnd }

/-- Count of the units of the last place since the start of day number 0. -/
def lastPlaces (c : Clock) (p : Nat) (t : K) : Int := ⌊(t + 2451545 + 1 / 2) * (c.perDay * 10 ^ p)⌋

/-- **C60.** Date and time as digits, for every time whose Gregorian year is 0 to 9999: the text is the date
    and the time of day of the count of last places in the shifted time. -/
theorem C60_iso (months days : Int → Option (List Nat)) (o : Out) (c : Clock) (hc : clockOf o = some c) (p : Nat) (hp : p ≤ 15)
    (rnd : Bool) (t : K) (d m y : Nat) (e : gregorian.Exists d m y) (hy : y ≤ 9999)
    (hd : gregorian.dayNumber d m y = ctimeDay (isoFmt o p rnd) t) :
    ∃ date n time, FullCtimel months days (isoFmt o p rnd) t (.ok (date ++ 32 :: time)) ∧
      IsoDate (ctimeDay (isoFmt o p rnd) t) date ∧ TimeOfDay true c p n time ∧
      lastPlaces c p (t + addOn (isoFmt o p rnd)) = ctimeDay (isoFmt o p rnd) t * (c.perDay * 10 ^ p : Nat) + n := by
  generalize hf : isoFmt o p rnd = f
  rw [hf] at hd
  obtain ⟨r0, r1⟩ := frac_range (shifted f t)
  have hm : m < 100 := by
    obtain ⟨-, -, len, h, -⟩ := e
    have : ((m : Int) - 1).toNat < 13 := by
      have := (List.getElem?_eq_some_iff.1 h).1
      have h13 : (gregorian.months (y : Int)).length = 13 := rfl
      omega
    omega
  have hd100 : d < 100 := by
    obtain ⟨-, -, len, h, hl⟩ := e
    have : len ≤ 31 := by
      have hmem := List.mem_of_getElem? h
      have : ∀ x ∈ gregorian.months (y : Int), x ≤ 31 := by
        intro x hx
        simp only [gregorian, romanMonths, List.mem_cons, List.not_mem_nil, or_false] at hx
        rcases hx with h | h | h | h | h | h | h | h | h | h | h | h | h <;> subst h <;> (try split) <;> omega
      exact this _ hmem
    omega
  have py := fmtZero_padded (w := 4) (n := y) (by omega) (by omega)
  have pm := fmtZero_padded (w := 2) (n := m) (by omega) (by omega)
  have pd := fmtZero_padded (w := 2) (n := d) (by omega) (by omega)
  have ly := py.width
  have lm := pm.width
  have ld := pd.width
  generalize hyyyy : fmtZero 4 (y : Int) = yyyy at *
  generalize hmm : fmtZero 2 (m : Int) = mm at *
  generalize hdd : fmtZero 2 (d : Int) = dd at *
  obtain ⟨s, n, h1, h2, h3, h4, h5⟩ := timeText_spec f c (by rw [← hf]; exact hc) (by rw [← hf]; exact hp)
    (yyyy ++ 32 :: mm ++ 32 :: dd ++ [32]) (by simp only [List.length_append, List.length_cons, List.length_nil]; omega) _ r0 r1
  refine ⟨yyyy ++ 32 :: mm ++ 32 :: dd, n, s, ?_, ⟨d, m, y, dd, mm, yyyy, e, hd, py, pm, pd, rfl⟩,
    by rw [← hf] at h2; exact h2, ?_⟩
  · have hret := gregorian_refines.dateRoundtrip e
    rw [hd] at hret
    refine ⟨d, m, y, gregorian.newYear y - 1, by rw [← hf] at hret ⊢; exact hret, ?_, ?_⟩
    · have : f.calendar = GREGORIAN := by rw [← hf]; rfl
      rw [this, gregorian_refines.dmyToDay (by omega) (by omega)]
      simp [Calendar.dayNumber]
      omega
    · have e1 : f.dowFirst = false := by rw [← hf]; rfl
      have e2 : f.timeOnly = false := by rw [← hf]; rfl
      have e3 : f.dowLast = false := by rw [← hf]; rfl
      have e4 : f.noSpaces = false := by rw [← hf]; rfl
      have e5 : f.noColons = false := by rw [← hf]; rfl
      have e6 : f.monthsAsDigits = true := by rw [← hf]; rfl
      have e7 : f.leadingZeroes = true := by rw [← hf]; rfl
      have e8 : f.twoDigitYear = false := by rw [← hf]; rfl
      have e9 : f.yearFirst = true := by rw [← hf]; rfl
      have e10 : f.noYear = false := by rw [← hf]; rfl
      have e11 : f.monthDay = true := by rw [← hf]; rfl
      have e12 : f.dayOfYear = false := by rw [← hf]; rfl
      have e13 : ¬ f.out = .day := by rw [← hf]; intro h; simp only [isoFmt] at h; rw [h] at hc; simp [clockOf] at hc
      have hmonth : monthText months f (m : Int) = .ok mm := by
        unfold monthText; rw [if_pos e6]; unfold fmtLz; rw [if_pos e7, hmm]
      have hyear : yearText f (y : Int) = .ok yyyy := by
        unfold yearText fmtLz
        simp only [e7, e8, if_true, Bool.false_eq_true, if_false, hyyyy]
        rw [if_neg (by omega)]
      have hday : dayText f (d : Int) (shifted f t - ⌊shifted f t⌋) = .ok dd := by
        unfold dayText fmtLz
        simp only [e7, if_true, hdd]
        rw [if_neg (by simp [e13]), if_neg (by omega)]
      have hdate : dateText months f [] (d : Int) m y (⌊shifted f t⌋ + 2451545 - (gregorian.newYear y - 1)) (shifted f t - ⌊shifted f t⌋)
          = .ok (yyyy ++ 32 :: mm ++ 32 :: dd ++ [32]) := by
        unfold dateText
        simp only [hmonth, hyear, hday, Outcome.bind, e9, e10, e11, e12, Bool.not_false, and_self, if_true, Bool.false_eq_true,
          if_false, Bool.not_true, false_and]
        unfold app
        rw [if_neg (by simp only [List.length_append, List.length_cons, List.length_nil]; omega)]
        simp only
        rw [if_neg (by simp only [List.length_append, List.length_cons, List.length_nil]; omega)]
        simp only
        rw [if_pos e13, if_neg (by simp only [List.length_append, List.length_cons, List.length_nil]; omega)]
        simp
      unfold ctime
      simp only [e1, e2, e3, e4, e5, Bool.false_eq_true, if_false, Outcome.bind]
      rw [hdate]
      simp only [h1]
      simp
  · have hsh : t + addOn f + 2451545 + 1 / 2 = ((ctimeDay f t : Int) : K) + (shifted f t - ⌊shifted f t⌋) := by
      unfold ctimeDay shifted; push_cast; ring
    unfold lastPlaces
    rw [Int.floor_eq_iff, hsh]
    have hpe : f.precision = p := by rw [← hf]; rfl
    rw [hpe] at h4 h5
    push_cast
    constructor <;> nlinarith

theorem isoDate_lt {j j' : Int} {s s' : List Nat} (h : IsoDate j s) (h' : IsoDate j' s') :
    (s < s' ↔ j < j') ∧ (s = s' ↔ j = j') ∧ s.length = s'.length := by
  obtain ⟨d, m, y, dd, mm, yyyy, e, hj, py, pm, pd, rfl⟩ := h
  obtain ⟨d', m', y', dd', mm', yyyy', e', hj', py', pm', pd', rfl⟩ := h'
  have hlt : yyyy ++ 32 :: mm ++ 32 :: dd < yyyy' ++ 32 :: mm' ++ 32 :: dd' ↔ DateLt d m y d' m' y' := by
    simp only [List.append_assoc, List.cons_append]
    rw [append_lt_append (by rw [py.width, py'.width]), padded_lt py py', padded_eq py py', cons_lt_same,
      append_lt_append (by rw [pm.width, pm'.width]), padded_lt pm pm', padded_eq pm pm', cons_lt_same, padded_lt pd pd']
    unfold DateLt
    omega
  have heq : yyyy ++ 32 :: mm ++ 32 :: dd = yyyy' ++ 32 :: mm' ++ 32 :: dd' ↔ j = j' := by
    constructor
    · intro h
      simp only [List.append_assoc, List.cons_append] at h
      obtain ⟨h1, h⟩ := List.append_inj h (by rw [py.width, py'.width])
      obtain ⟨h2, h⟩ := List.append_inj (List.cons.inj h).2 (by rw [pm.width, pm'.width])
      have h3 := (List.cons.inj h).2
      have a1 := (padded_eq py py').1 h1
      have a2 := (padded_eq pm pm').1 h2
      have a3 := (padded_eq pd pd').1 h3
      rw [← hj, ← hj', a1, a2, a3]
    · intro h
      rw [← hj, ← hj'] at h
      obtain ⟨g1, g2, g3⟩ := gregorian_wf.dayNumber_inj e e' h
      have g1 : d = d' := by exact_mod_cast g1
      have g2 : m = m' := by exact_mod_cast g2
      have g3 : y = y' := by exact_mod_cast g3
      rw [(padded_eq py py').2 g3, (padded_eq pm pm').2 g2, (padded_eq pd pd').2 g1]
  refine ⟨?_, heq, by simp [py.width, py'.width, pm.width, pm'.width, pd.width, pd'.width]⟩
  rw [hlt, ← hj, ← hj']
  constructor
  · exact gregorian_wf.dayNumber_lt e e'
  · intro h
    by_contra hn
    have : DateLt d' m' y' d m y ∨ (d = d' ∧ m = m' ∧ y = y') := by
      unfold DateLt at hn ⊢
      omega
    rcases this with h' | ⟨rfl, rfl, rfl⟩
    · have := gregorian_wf.dayNumber_lt e' e h'; omega
    · omega

/-- **C60.** Texts in the format with leading zeros are in dictionary order exactly as the counts of last places
    they were printed from: sorting the texts sorts the times. -/
theorem C60_sorted (c : Clock) (p : Nat) (j j' : Int) (n n' : Nat) (date date' time time' : List Nat)
    (h1 : IsoDate j date) (h2 : TimeOfDay true c p n time) (h1' : IsoDate j' date') (h2' : TimeOfDay true c p n' time') :
    date ++ 32 :: time < date' ++ 32 :: time' ↔
      j * (c.perDay * 10 ^ p : Nat) + n < j' * (c.perDay * 10 ^ p : Nat) + n' := by
  obtain ⟨a1, a2, a3⟩ := isoDate_lt h1 h1'
  have b := timeOfDay_bound h2
  have b' := timeOfDay_bound h2'
  rw [append_lt_append a3, a1, a2, cons_lt_same, timeOfDay_lt h2 h2']
  generalize hB : c.perDay * 10 ^ p = B at *
  constructor
  · rintro (h | ⟨rfl, h⟩)
    · have : j + 1 ≤ j' := h
      nlinarith
    · omega
  · intro h
    rcases lt_trichotomy j j' with hj | hj | hj
    · exact Or.inl hj
    · subst hj; exact Or.inr ⟨rfl, by omega⟩
    · exfalso
      have : j' + 1 ≤ j := hj
      nlinarith

/-- **C60.** A later time never gets a text that comes earlier in dictionary order. -/
theorem C60_monotone (months days : Int → Option (List Nat)) (o : Out) (c : Clock) (hc : clockOf o = some c) (p : Nat) (hp : p ≤ 15)
    (rnd : Bool) (t t' : K) (htt : t ≤ t') (d m y d' m' y' : Nat)
    (e : gregorian.Exists d m y) (hy : y ≤ 9999) (hd : gregorian.dayNumber d m y = ctimeDay (isoFmt o p rnd) t)
    (e' : gregorian.Exists d' m' y') (hy' : y' ≤ 9999) (hd' : gregorian.dayNumber d' m' y' = ctimeDay (isoFmt o p rnd) t') :
    ∃ s s', FullCtimel months days (isoFmt o p rnd) t (.ok s) ∧ FullCtimel months days (isoFmt o p rnd) t' (.ok s') ∧ ¬ s' < s := by
  obtain ⟨date, n, time, h1, h2, h3, h4⟩ := C60_iso months days o c hc p hp rnd t d m y e hy hd
  obtain ⟨date', n', time', h1', h2', h3', h4'⟩ := C60_iso months days o c hc p hp rnd t' d' m' y' e' hy' hd'
  refine ⟨_, _, h1, h1', ?_⟩
  rw [C60_sorted c p _ _ _ _ _ _ _ _ h2' h3' h2 h3, ← h4, ← h4', not_lt]
  unfold lastPlaces
  apply Int.floor_mono
  have : (0 : K) ≤ c.perDay * 10 ^ p := by positivity
  nlinarith

/-- **C60.** Without rounding, a civil time with no more decimals than are printed is printed exactly. -/
theorem C60_exact (o : Out) (c : Clock) (hc : clockOf o = some c) (p : Nat) (t : K) (N : Int)
    (h : (t + 2451545 + 1 / 2) * (c.perDay * 10 ^ p) = N) : lastPlaces c p (t + addOn (isoFmt o p false)) = N := by
  unfold lastPlaces
  rw [Int.floor_eq_iff]
  have e : (t + addOn (isoFmt o p false) + 2451545 + 1 / 2) * (c.perDay * 10 ^ p)
      = N + (c.perDay : K) * (1 / 20) / 86400 * ((1 / 10) ^ p * 10 ^ p) := by
    rw [← h]; unfold addOn isoFmt; simp only [Bool.false_eq_true, if_false]; ring
  have e2 : ((1 : K) / 10) ^ p * 10 ^ p = 1 := by rw [← mul_pow]; norm_num
  rw [e, e2]
  have : (0 : K) < c.perDay := by cases c <;> norm_num [Clock.perDay]
  have : (c.perDay : K) ≤ 86400 := by cases c <;> norm_num [Clock.perDay]
  constructor
  · have : 0 ≤ (c.perDay : K) * (1 / 20) / 86400 * 1 := by positivity
    linarith
  · have : (c.perDay : K) * (1 / 20) / 86400 * 1 < 1 := by linarith
    linarith

/-- **C60.** With rounding, the time printed is within half a unit of the last place. -/
theorem C60_rounds (o : Out) (c : Clock) (hc : clockOf o = some c) (p : Nat) (t : K) :
    |(lastPlaces c p (t + addOn (isoFmt o p true)) : K) - (t + 2451545 + 1 / 2) * (c.perDay * 10 ^ p)| ≤ 1 / 2 := by
  unfold lastPlaces
  have hpos : (0 : K) < c.perDay := by cases c <;> norm_num [Clock.perDay]
  have hu : ((isoFmt o p true).out.units : K) = c.perDay := by
    have := units_eq hc
    simp only [isoFmt]; rw [this]; push_cast; rfl
  have e2 : ((1 : K) / 10) ^ p * 10 ^ p = 1 := by rw [← mul_pow]; norm_num
  have e : (t + addOn (isoFmt o p true) + 2451545 + 1 / 2) * (c.perDay * 10 ^ p)
      = (t + 2451545 + 1 / 2) * (c.perDay * 10 ^ p) + 1 / 2 := by
    have : addOn (isoFmt o p true) * ((c.perDay : K) * 10 ^ p) = 1 / 2 := by
      unfold addOn
      rw [hu]
      have : (isoFmt o p true).rounding = true := rfl
      rw [if_pos this]
      have : (isoFmt o p true).precision = p := rfl
      rw [this]
      calc (1 / 10 : K) ^ p * (1 / 2 / (c.perDay : K)) * ((c.perDay : K) * 10 ^ p)
          = ((1 / 10) ^ p * 10 ^ p) * (1 / 2) * ((c.perDay : K) / c.perDay) := by ring
        _ = 1 / 2 := by rw [e2, div_self hpos.ne']; ring
    calc _ = (t + 2451545 + 1 / 2) * (c.perDay * 10 ^ p) + addOn (isoFmt o p true) * ((c.perDay : K) * 10 ^ p) := by ring
      _ = _ := by rw [this]
  rw [e]
  have a := Int.floor_le ((t + 2451545 + 1 / 2) * ((c.perDay : K) * 10 ^ p) + 1 / 2)
  have b := Int.lt_floor_add_one ((t + 2451545 + 1 / 2) * ((c.perDay : K) * 10 ^ p) + 1 / 2)
  rw [abs_le]
  constructor <;> linarith

/-- **C60.** Finding: a day with twelve or more decimals (`FULL_CTIME_PICODAYS`, `FULL_CTIME_FEMTODAYS`) is written
    past the end of the 15-byte `day_str`, whatever the time. -/
theorem C60_picodays (f : Fmt) (hf : f.out = .day) (hp : 12 ≤ f.precision) (day : Int) (r : K) (h0 : 0 ≤ r) (h1 : r < 1) :
    dayText f day r = .ub := by
  obtain ⟨ds, v, e1, e2, -, -⟩ := C60_remainder f.precision r h0 h1
  have := e2.width
  unfold dayText
  simp only [hf, true_and]
  rw [if_pos (by omega), e1]
  simp only [Outcome.bind, List.length_cons]
  rw [if_pos (by omega)]

/-- **C60.** Up to eleven decimals fit. -/
theorem C60_days_fit (f : Fmt) (hf : f.out = .day) (hp : f.precision ≤ 11) (h0p : 0 < f.precision) (hlz : f.leadingZeroes = true) (d : Nat) (hd : d < 100)
    (r : K) (h0 : 0 ≤ r) (h1 : r < 1) :
    ∃ dd ds v, dayText f d r = .ok (dd ++ 46 :: ds) ∧ Padded 2 d dd ∧ Padded f.precision v ds ∧
      (v : K) / 10 ^ f.precision ≤ r ∧ r < ((v : K) + 1) / 10 ^ f.precision := by
  obtain ⟨ds, v, e1, e2, e3, e4⟩ := C60_remainder f.precision r h0 h1
  have hw := e2.width
  have pd := fmtZero_padded (w := 2) (n := d) (by omega) (by omega)
  refine ⟨_, ds, v, ?_, pd, e2, e3, e4⟩
  unfold dayText fmtLz
  simp only [hf, true_and, hlz, if_true]
  rw [if_pos (by omega), e1]
  simp only [Outcome.bind, List.length_cons]
  rw [if_neg (by omega), List.take_of_length_le (by rw [pd.width])]

/-- **C60.** Finding: with the default names, a date in month 13 of the Hebrew calendar prints through a NULL
    pointer. -/
theorem C60_month13 (f : Fmt) (h : f.monthsAsDigits = false) : monthText (fun m => if m ≤ 12 then some (bytes "xxx") else none) f 13 = .ub := by
  unfold monthText
  simp [h]

example : ctime (fun _ => none) (fun _ => none) (isoFmt .seconds 3 false) (0 : ℚ) 1 1 2000 2451544 =
    .ok (bytes "2000 01 01 12:00:00.000") := by decide +kernel
example : gregorian.Exists 1 1 2000 ∧ gregorian.dayNumber 1 1 2000 = ctimeDay (isoFmt .seconds 3 false) (0 : ℚ) :=
  ⟨⟨by decide, by decide, 31, by decide, by decide⟩, by decide +kernel⟩

/-- Bytes of the hours, minutes and seconds. -/
def clockWidth : Clock → Nat
  | .seconds => 8
  | .minutes => 5
  | .hours => 2

theorem timeOfDay_width {z : Bool} {c : Clock} {p n : Nat} {s : List Nat} (h : TimeOfDay z c p n s) :
    s.length = clockWidth c + if p = 0 then 0 else p + 1 := by
  obtain ⟨v, frac, hf, h⟩ := h
  have hfl : frac.length = if p = 0 then 0 else p + 1 := by
    rcases hf with ⟨rfl, _, rfl⟩ | ⟨hp, ds, hd, rfl⟩
    · rfl
    · rw [if_neg (by omega), List.length_cons, hd.width]
  cases c with
  | seconds =>
    obtain ⟨_, _, _, hh, mm, ss, a, b, d, -, -, -, -, rfl⟩ := h
    simp only [List.length_append, List.length_cons, twoBytes_length a, b.width, d.width, hfl, clockWidth]
  | minutes =>
    obtain ⟨_, _, hh, mm, a, b, -, -, -, rfl⟩ := h
    simp only [List.length_append, List.length_cons, twoBytes_length a, b.width, hfl, clockWidth]
  | hours =>
    obtain ⟨_, hh, a, -, -, rfl⟩ := h
    simp only [List.length_append, twoBytes_length a, hfl, clockWidth]

/-- The time of day after any text. -/
theorem timeText_room (f : Fmt) (c : Clock) (hc : clockOf f.out = some c) (r : K) (h0 : 0 ≤ r) (h1 : r < 1) :
    ∃ s n, TimeOfDay f.leadingZeroes c f.precision n s ∧ ∀ buff : List Nat, timeText f buff r =
      if 80 ≤ buff.length + clockWidth c then .abort
      else if f.precision ≠ 0 ∧ 80 ≤ buff.length + s.length then .ub
      else .ok (buff ++ s) := by
  have hu : (f.out.units : K) = c.perDay := by rw [units_eq hc]; push_cast; rfl
  have hpos : (0 : K) < c.perDay := by cases c <;> norm_num [Clock.perDay]
  obtain ⟨i, hi, i0, i1⟩ := trunc_spec (x := r * (c.perDay : K)) (by positivity)
  have hil : i < c.perDay := by
    have : (i : K) < c.perDay := by nlinarith
    exact_mod_cast this
  obtain ⟨s, hs, hsl, hs8, hst⟩ := hms_spec f.leadingZeroes hc i hil
  have hne : ¬ ((i : Int) = f.out.units) := by rw [units_eq hc]; omega
  have hday : ¬ f.out = .day := by intro h; rw [h] at hc; simp [clockOf] at hc
  have hbare := hst 0 0 [] (Or.inl ⟨rfl, rfl, rfl⟩)
  have hw0 := timeOfDay_width hbare
  rw [if_pos rfl, List.append_nil, Nat.add_zero] at hw0
  have happ : ∀ buff : List Nat, app buff (hmsText f.out (i : Int)) =
      if 80 ≤ buff.length + clockWidth c then .abort else .ok (buff ++ hmsText f.out (i : Int)) := by
    intro buff
    unfold app
    rw [hsl, hw0]
  unfold timeText
  simp only [hu, hi, if_neg hne, if_neg hday, hs, happ]
  by_cases hz : f.precision = 0
  · simp only [if_pos hz]
    refine ⟨s, i * 10 ^ 0 + 0, ?_, ?_⟩
    · rw [List.append_nil] at hbare
      rw [hz]; exact hbare
    · intro buff
      rw [if_neg (show ¬ (f.precision ≠ 0 ∧ _) from fun h => h.1 hz)]
      split <;> rfl
  · simp only [if_neg hz]
    have hcast : (((i : Int)) : K) = (i : K) := by push_cast; rfl
    rw [hcast]
    obtain ⟨ds, v, e1, e2, e3, e4⟩ := C60_remainder f.precision (r * (c.perDay : K) - i) (by linarith) (by linarith)
    rw [e1]
    refine ⟨s ++ 46 :: ds, i * 10 ^ f.precision + v, hst _ _ _ (Or.inr ⟨by omega, ds, e2, rfl⟩), ?_⟩
    intro buff
    by_cases hb : 80 ≤ buff.length + clockWidth c
    · rw [if_pos hb, if_pos hb]; rfl
    · rw [if_neg hb, if_neg hb]
      simp only [Outcome.bind, List.length_append, List.length_cons]
      by_cases hb2 : 80 ≤ buff.length + (s.length + (ds.length + 1))
      · rw [if_pos (by omega), if_pos ⟨hz, hb2⟩]
      · rw [if_neg (by omega), if_neg (fun h => hb2 h.2)]
        simp

/-- **C60.** The 80-byte buffer: the name of the day and the time are printed in full when they take at most 79 bytes together; else
    the program stops, except that decimals which do not fit are written past the end of the buffer. -/
theorem C60_room (months days : Int → Option (List Nat)) (o : Out) (c : Clock) (hc : clockOf o = some c) (p : Nat)
    (lz rnd : Bool) (t : K) (d m y z : Int) (nm : List Nat) (hd : ∀ w, days w = some nm) :
    ∃ s n, TimeOfDay lz c p n s ∧
      ctime months days { out := o, precision := p, timeOnly := true, dowFirst := true, leadingZeroes := lz, rounding := rnd } t d m y z =
        (if 80 ≤ nm.length + 1 + clockWidth c then .abort
         else if p ≠ 0 ∧ 80 ≤ nm.length + 1 + s.length then .ub
         else .ok (nm ++ 32 :: s)) ∧
      (s.length < 80 →
        ctime months days { out := o, precision := p, timeOnly := true, dowLast := true, leadingZeroes := lz, rounding := rnd } t d m y z =
          if 80 ≤ s.length + 1 + nm.length then .abort else .ok (s ++ 32 :: nm)) := by
  have hsh : shifted ({ out := o, precision := p, timeOnly := true, dowLast := true, leadingZeroes := lz, rounding := rnd } : Fmt) t =
      shifted ({ out := o, precision := p, timeOnly := true, dowFirst := true, leadingZeroes := lz, rounding := rnd } : Fmt) t := rfl
  obtain ⟨r0, r1⟩ := frac_range (shifted ({ out := o, precision := p, timeOnly := true, dowFirst := true, leadingZeroes := lz, rounding := rnd } : Fmt) t)
  obtain ⟨s, n, h1, h2⟩ := timeText_room
    ({ out := o, precision := p, timeOnly := true, dowFirst := true, leadingZeroes := lz, rounding := rnd } : Fmt) c hc _ r0 r1
  have h2' : ∀ buff : List Nat, timeText ({ out := o, precision := p, timeOnly := true, dowLast := true, leadingZeroes := lz, rounding := rnd } : Fmt) buff
      (shifted ({ out := o, precision := p, timeOnly := true, dowFirst := true, leadingZeroes := lz, rounding := rnd } : Fmt) t -
        ⌊shifted ({ out := o, precision := p, timeOnly := true, dowFirst := true, leadingZeroes := lz, rounding := rnd } : Fmt) t⌋) = _ := h2
  refine ⟨s, n, h1, ?_, ?_⟩
  · unfold ctime
    simp only [if_true, Bool.false_eq_true, if_false, dowText, hd, Outcome.bind]
    by_cases hb : 80 ≤ nm.length + 1
    · have : app [] (nm ++ [32]) = .abort := by unfold app; rw [if_pos (by simp; omega)]
      rw [this, if_pos (by omega)]
    · have : app [] (nm ++ [32]) = .ok (nm ++ [32]) := by unfold app; rw [if_neg (by simp; omega)]; rfl
      rw [this]
      simp only [h2, List.length_append, List.length_singleton]
      by_cases c1 : 80 ≤ nm.length + 1 + clockWidth c
      · rw [if_pos c1, if_pos c1]
      · rw [if_neg c1, if_neg c1]
        by_cases c2 : p ≠ 0 ∧ 80 ≤ nm.length + 1 + s.length
        · rw [if_pos c2, if_pos c2]
        · rw [if_neg c2, if_neg c2]
          simp
  · intro hs
    unfold ctime
    have hw := timeOfDay_width h1
    simp only [if_true, Bool.false_eq_true, if_false, dowText, hd, Outcome.bind]
    rw [hsh, h2', if_neg (by simp; omega), if_neg (by simp; omega)]
    simp only [List.nil_append, app, List.length_cons]
    by_cases c1 : 80 ≤ s.length + 1 + nm.length
    · rw [if_pos c1, if_pos (by omega)]
    · rw [if_neg c1, if_neg (by omega)]

example : ∀ w : Int, (fun _ => some (bytes "Thursday")) w = some (bytes "Thursday") := fun _ => rfl

end Verif.Props
