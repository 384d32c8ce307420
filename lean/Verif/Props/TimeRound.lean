import Verif.Props.TimeRead
import Verif.Props.Calendars
import Mathlib.Tactic.IntervalCases

/-!
# Property theorems: printed times read back (C64)
-/

namespace Verif.Props
open Verif Verif.GetTime Verif.Spec Verif.Time Verif.Date

variable {K : Type} [Field K] [LinearOrder K] [IsStrictOrderedRing K] [FloorRing K]

theorem padded_whole {w n : Nat} {s : List Nat} (h : Padded w n s) (hw : 0 < w) : Whole n s := padded_field h hw

theorem isoDate_length {j : Int} {s : List Nat} (h : IsoDate j s) : s.length = 10 := by
  obtain ⟨d, m, y, dd, mm, yyyy, -, -, hy, hm, hd, rfl⟩ := h
  simp [hy.width, hm.width, hd.width]

theorem decimals_length {p v : Nat} {s : List Nat} (h : Decimals p v s) : s.length ≤ p + 1 := by
  rcases h with ⟨-, -, rfl⟩ | ⟨-, ds, hds, rfl⟩
  · simp
  · simp [hds.width]

theorem twoBytes_length {b : Bool} {n : Nat} {s : List Nat} (h : TwoBytes b n s) : s.length = 2 := by
  unfold TwoBytes at h
  split_ifs at h
  · exact h.width
  · rw [h]; rfl

theorem timeOfDay_length {b : Bool} {c : Clock} {p n : Nat} {s : List Nat} (h : TimeOfDay b c p n s) : s.length ≤ p + 9 := by
  obtain ⟨v, frac, hf, h⟩ := h
  have := decimals_length hf
  cases c with
  | seconds =>
    obtain ⟨h, m, sec, hh, mm, ss, h1, h2, h3, -, -, -, -, rfl⟩ := h
    simp [twoBytes_length h1, h2.width, h3.width]; omega
  | minutes =>
    obtain ⟨h, m, hh, mm, h1, h2, -, -, -, rfl⟩ := h
    simp [twoBytes_length h1, h2.width]; omega
  | hours =>
    obtain ⟨h, hh, h1, -, -, rfl⟩ := h
    simp [twoBytes_length h1]; omega

/-- What a Gregorian date can be. -/
theorem gregorian_bounds {d m y : Int} (e : gregorian.Exists d m y) : 1 ≤ d ∧ d ≤ 31 ∧ 1 ≤ m ∧ m ≤ 12 := by
  obtain ⟨h1, h2, len, h, hl⟩ := e
  have h13 : ((m : Int) - 1).toNat < 13 := (List.getElem?_eq_some_iff.1 h).1
  have hx : ∀ i : Nat, i < 13 → (gregorian.months y)[i]? = some len → len ≤ 31 ∧ (i = 12 → len ≤ 0) := by
    intro i hi hg
    simp only [gregorian, romanMonths] at hg
    interval_cases i <;> simp at hg <;> (try split_ifs at hg) <;> omega
  have := hx _ h13 h
  omega

/-- **C64.** Date and time written as digits, year first, are read as exactly that time, whatever the time the
    caller starts from. -/
theorem C64_iso (env : Env K) (hn : NoDigitNames env.months) (o : Out) (rnd : Bool) (p q : Nat) (hp : p ≤ 15) (init : K) (c : Clock) (hc : c ≠ .hours)
    (j : Int) (n : Nat) (date time : List Nat) (hd : IsoDate j date) (z : Bool) (ht : TimeOfDay z c p n time) :
    getTimeFromString env (isoFmt o q rnd) init (date ++ 32 :: time) =
      .ok ((j : K) - 2451545 - 1 / 2 + (n : K) / (c.perDay * 10 ^ p), 0) := by
  have hl1 := isoDate_length hd
  have hl2 := timeOfDay_length ht
  obtain ⟨d, m, y, dd, mm, yyyy, he, hj, hy, hm, hd, rfl⟩ := hd
  obtain ⟨b1, b2, b3, b4⟩ := gregorian_bounds he
  have e : yyyy ++ 32 :: mm ++ 32 :: dd = Order.ymd.text 32 yyyy mm dd := by simp [Order.text, Order.arrange]
  rw [e] at hl1 ⊢
  have hz : dmyToDay ⌊((d : Nat) : K)⌋ m y (isoFmt o q rnd).calendar = some j := by
    rw [Int.floor_natCast]
    show dmyToDay d m y GREGORIAN = some j
    rw [C02_gregorian_daycount he, hj]
  rw [C61_any_order env hn (isoFmt o q rnd) init .ymd 32 (by omega) y m (d : K) _ false yyyy mm dd (32 :: time)
    (padded_whole hy (by omega)) (padded_whole hm (by omega)) ⟨d, padded_whole hd (by omega), rfl⟩ (Tod.time hc ht) ?_ (by positivity) ?_ ?_
    (Or.inl rfl) j hz (by rw [List.length_append, List.length_cons, hl1]; omega)]
  · rw [Int.fract_natCast]
    congr 2
    ring
  · have : lastMonth (isoFmt o q rnd) = 12 := by simp [lastMonth, isoFmt, GREGORIAN, HEBREW, CHINESE]
    omega
  · exact_mod_cast (by omega : d < 32)
  · by_cases h32 : 32 < y
    · exact Or.inl ⟨h32, Or.inr (Or.inr rfl)⟩
    · exact Or.inr (Or.inl ⟨by omega, rfl, rfl⟩)

/-- **C64.** Print and read: what `full_ctimel` prints with these flags is read back as the time printed,
    a whole number of units of the last place. -/
theorem C64_roundtrip (env : Env K) (hn : NoDigitNames env.months) (o : Out) (c : Clock) (hc : clockOf o = some c) (hh : c ≠ .hours) (p : Nat)
    (hp : p ≤ 15) (rnd : Bool) (t init : K) (d m y : Nat) (e : gregorian.Exists d m y) (hy : y ≤ 9999)
    (hd : gregorian.dayNumber d m y = ctimeDay (isoFmt o p rnd) t) :
    ∃ s, FullCtimel env.months env.days (isoFmt o p rnd) t (.ok s) ∧
      getTimeFromString env (isoFmt o p rnd) init s =
        .ok ((lastPlaces c p (t + addOn (isoFmt o p rnd)) : K) / (c.perDay * 10 ^ p) - 2451545 - 1 / 2, 0) := by
  obtain ⟨date, n, time, h1, h2, h3, h4⟩ := C60_iso env.months env.days o c hc p hp rnd t d m y e hy hd
  refine ⟨_, h1, ?_⟩
  rw [C64_iso env hn o rnd p p hp init c hh _ n date time h2 true h3, h4]
  have hu : ((c.perDay * 10 ^ p : Nat) : K) ≠ 0 := by
    have : 0 < c.perDay := by cases c <;> decide
    have : 0 < c.perDay * 10 ^ p := Nat.mul_pos this (by positivity)
    exact_mod_cast this.ne'
  congr 2
  push_cast at hu ⊢
  generalize (c.perDay : K) * 10 ^ p = u at *
  field_simp
  ring

/-- **C64.** A civil time with no more decimals than are printed comes back unchanged. -/
theorem C64_exact (env : Env K) (hn : NoDigitNames env.months) (o : Out) (c : Clock) (hc : clockOf o = some c) (hh : c ≠ .hours) (p : Nat)
    (hp : p ≤ 15) (t init : K) (N : Int) (ht : (t + 2451545 + 1 / 2) * (c.perDay * 10 ^ p) = N) (d m y : Nat) (e : gregorian.Exists d m y)
    (hy : y ≤ 9999) (hd : gregorian.dayNumber d m y = ctimeDay (isoFmt o p false) t) :
    ∃ s, FullCtimel env.months env.days (isoFmt o p false) t (.ok s) ∧
      getTimeFromString env (isoFmt o p false) init s = .ok (t, 0) := by
  obtain ⟨s, h1, h2⟩ := C64_roundtrip env hn o c hc hh p hp false t init d m y e hy hd
  refine ⟨s, h1, ?_⟩
  rw [h2, C60_exact o c hc p t N ht]
  have hu : ((c.perDay : K) * 10 ^ p) ≠ 0 := by
    have : 0 < c.perDay := by cases c <;> decide
    have : 0 < c.perDay * 10 ^ p := Nat.mul_pos this (by positivity)
    exact_mod_cast this.ne'
  rw [← ht]
  congr 2
  generalize (c.perDay : K) * 10 ^ p = u at *
  field_simp
  ring

/-- **C64.** With rounding, what comes back is within half a unit of the last place. -/
theorem C64_rounds (env : Env K) (hn : NoDigitNames env.months) (o : Out) (c : Clock) (hc : clockOf o = some c) (hh : c ≠ .hours) (p : Nat)
    (hp : p ≤ 15) (t init : K) (d m y : Nat) (e : gregorian.Exists d m y)
    (hy : y ≤ 9999) (hd : gregorian.dayNumber d m y = ctimeDay (isoFmt o p true) t) :
    ∃ s t', FullCtimel env.months env.days (isoFmt o p true) t (.ok s) ∧
      getTimeFromString env (isoFmt o p true) init s = .ok (t', 0) ∧ |t' - t| ≤ 1 / 2 / (c.perDay * 10 ^ p) := by
  obtain ⟨s, h1, h2⟩ := C64_roundtrip env hn o c hc hh p hp true t init d m y e hy hd
  refine ⟨s, _, h1, h2, ?_⟩
  have h := C60_rounds o c hc p t
  have hu : (0 : K) < (c.perDay : K) * 10 ^ p := by
    have : 0 < c.perDay := by cases c <;> decide
    have : 0 < c.perDay * 10 ^ p := Nat.mul_pos this (by positivity)
    exact_mod_cast this
  generalize (lastPlaces c p (t + addOn (isoFmt o p true)) : K) = L at *
  rw [le_div_iff₀ hu]
  calc _ = |L / (c.perDay * 10 ^ p) - 2451545 - 1 / 2 - t| * |(c.perDay : K) * 10 ^ p| := by rw [abs_of_pos hu]
    _ = |L - (t + 2451545 + 1 / 2) * (c.perDay * 10 ^ p)| := by
        rw [← abs_mul]
        congr 1
        have hu' := hu.ne'
        generalize (c.perDay : K) * 10 ^ p = u at *
        field_simp
        ring
    _ ≤ 1 / 2 := h

theorem hours_plain {p n : Nat} {s : List Nat} (h : TimeOfDay true .hours p n s) :
    (∀ c ∈ s, 46 ≤ c ∧ c ≤ 57 ) ∧ s ≠ [] := by
  obtain ⟨v, frac, hf, h, hh, ph, h1, rfl, rfl⟩ := h
  have ph : Padded 2 h hh := by simpa [TwoBytes] using ph
  obtain ⟨dot, hnum⟩ := decimals_field (K := ℚ) ph hf
  exact ⟨fun c hc => by have := hnum.bytes c hc; omega, hnum.ne_nil⟩

/-- **C64.** Finding: a time printed with hours only (`FULL_CTIME_FORMAT_HH`, with any number of decimals) is read
    back as midnight. -/
theorem C64_hours_lost (env : Env K) (hn : NoDigitNames env.months) (o : Out) (rnd : Bool) (p q : Nat) (hp : p ≤ 15) (init : K)
    (j : Int) (n : Nat) (date time : List Nat) (hd : IsoDate j date) (ht : TimeOfDay true .hours p n time) :
    getTimeFromString env (isoFmt o q rnd) init (date ++ 32 :: time) = .ok ((j : K) - 2451545 - 1 / 2, 0) := by
  have hl1 := isoDate_length hd
  have hl2 := timeOfDay_length ht
  obtain ⟨hb, hne⟩ := hours_plain ht
  obtain ⟨d, m, y, dd, mm, yyyy, he, hj, hy, hm, hd, rfl⟩ := hd
  obtain ⟨b1, b2, b3, b4⟩ := gregorian_bounds he
  have hyf := (padded_whole hy (by omega)).numField (K := K)
  have hmf := (padded_whole hm (by omega)).numField (K := K)
  have hdf := (padded_whole hd (by omega)).numField (K := K)
  have e : yyyy ++ 32 :: mm ++ 32 :: dd ++ 32 :: time = joined 32 yyyy mm dd ++ 32 :: time ++ [] := by simp [joined]
  obtain ⟨cur, h, s, hx, hg⟩ := read_plain (rest := 32 :: time) (t := []) hn.letter (isoFmt o q rnd) init hyf (.text (.number hmf hn.letter)) hmf.plain hdf
    (sep := 32) (by omega) (Or.inr rfl) (by simp only [List.mem_cons, not_or]; exact ⟨by omega, fun h => by have := hb 58 h; omega⟩)
    (Plain.cons (by omega) fun c hc => by have := hb c hc; omega) .none
    (fun _ _ => by
      rw [show 32 :: time = [32] ++ time from rfl, last_append hne]
      have hm := last_at time hne
      have := hb _ (List.mem_of_getLast? hm)
      omega)
    (by rw [← e, List.length_append, List.length_cons, hl1]; omega)
  rw [e, hg]
  have hsep := separated_clear env (isoFmt o q rnd) .ymd y m (d : K) false cur (by
      have : lastMonth (isoFmt o q rnd) = 12 := by simp [lastMonth, isoFmt, GREGORIAN, HEBREW, CHINESE]
      omega) (by positivity) (by exact_mod_cast (by omega : d < 32)) (by
      by_cases h32 : 32 < y
      · exact Or.inl ⟨h32, Or.inr (Or.inr rfl)⟩
      · exact Or.inr (Or.inl ⟨by omega, rfl, rfl⟩)) (Or.inl rfl)
  simp only [Order.arrange, Order.dot, Bool.false_eq_true, if_false] at hsep ⊢
  have htr : trunc (d : K) = d := by rw [trunc, if_pos (by positivity), Int.floor_natCast]
  rw [hsep, Run.bind, finish_value _ _ h s 0 hx j (by
    rw [htr]
    show dmyToDay d m y GREGORIAN = some j
    rw [C02_gregorian_daycount he, hj]), Run.bind]
  rw [htr]
  congr 2
  push_cast
  ring

/-- **C64.** Finding: blanks instead of leading zeroes ("2009  3 12 …").  The second field is then empty, an
    empty field matches the first month, and the month is taken for the day. -/
theorem C64_blank_month (env : Env K) (hn : NoDigitNames env.months) (jan : List Nat) (hjan : env.months 1 = some jan) (f : Fmt) (init x : K)
    (y m : Nat) (yt mt rest t : List Nat) (hy : Whole y yt) (hy32 : 32 < y) (hy2 : f.twoDigitYear = false ∨ 100 ≤ y)
    (hm : Whole m mt) (hm32 : m < 32) (hr : ∀ c ∈ rest, 48 ≤ c ∧ c ≤ 57 ∨ c = 32) (hne : rest ≠ [] → at? rest 0 = 32) (ht : Tod t x) (htne : t ≠ [])
    (hl : (yt ++ [32, 32] ++ mt ++ rest ++ t).length < 80) (z : Int) (hz : dmyToDay m 1 y f.calendar = some z) :
    getTimeFromString env f init (yt ++ [32, 32] ++ mt ++ rest ++ t) = .ok ((z : K) - 2451545 - 1 / 2 + x, 0) := by
  obtain ⟨r, t', rfl, hrb, hat⟩ := ht.after
  have htne' : t' ≠ [] := by
    rcases hrb with rfl | ⟨-, h⟩
    · simpa using htne
    · exact h
  have e : yt ++ [32, 32] ++ mt ++ rest ++ (r ++ t') = joined 32 yt [] mt ++ (rest ++ r) ++ t' := by simp [joined]
  have hj : monthIndex env [] = some 1 := by
    unfold monthIndex
    rw [nameIndex, hjan]
    simp [nameMatches]
  rw [e] at hl ⊢
  have hr' : ∀ c ∈ rest ++ r, 48 ≤ c ∧ c ≤ 57 ∨ c = 32 := by
    intro c hc
    rcases List.mem_append.1 hc with h | h
    · exact hr c h
    · rcases hrb with rfl | ⟨rfl, -⟩
      · simp at h
      · simp at h; omega
  obtain ⟨cur, h, s, hx, hg⟩ := read_plain (rest := rest ++ r) (t := t') hn.letter f init (hy.numField (K := K)) (.empty hj) (by intro c hc; simp at hc)
    (hm.numField (K := K)) (sep := 32) (by omega) (by
      by_cases hrn : rest = []
      · subst hrn
        rcases hrb with rfl | ⟨rfl, -⟩
        · exact Or.inl rfl
        · exact Or.inr rfl
      · exact Or.inr (by rw [Scan.at_append_left hrn]; exact hne hrn)) (fun h => by have := hr' 58 h; omega)
    (fun c hc => by have := hr' c hc; omega) hat (fun h => absurd h htne') hl
  rw [hg]
  have fy := floor_nat_half (K := K) y
  have f1 := trunc_nat_half (K := K) 1
  have hy1 : (32 : K) < (y : K) := by exact_mod_cast hy32
  have y0 : ¬ (y : K) < 0 := not_lt.2 (by positivity)
  have m0 : ¬ (m : K) < 0 := not_lt.2 (by positivity)
  have m32 : (m : K) < 32 := by exact_mod_cast hm32
  have m32' : ¬ (32 : K) < (m : K) := not_lt.2 m32.le
  have hmx : ¬ (maxMonth f : K) + 1 / 10000 < 1 := by
    rw [maxMonth_eq, not_lt]
    have : (12 : K) ≤ (lastMonth f : K) := by
      have : 12 ≤ lastMonth f := by unfold lastMonth; split_ifs <;> omega
      exact_mod_cast this
    linarith
  have n1 : ¬ (32 : K) < 1 := by norm_num
  have n2 : ¬ (1 : K) < 0 := by norm_num
  have htwo : twoDigit env f false (y : Int) = (y : Int) := by
    unfold twoDigit
    rw [if_neg]
    rintro ⟨h1, h3, -, h4⟩
    rcases hy2 with h2 | h2
    · rw [h2] at h4; exact absurd h4 (by decide)
    · omega
  have hsep : separated env f false ⟨[(y : K), ((1 : Int) : K), (m : K)], 2, 0, 0⟩ cur = .ok ⟨y, 1, (m : K)⟩ := by
    simp only [Nat.cast_one] at f1
    have htr : trunc (m : K) = m := by rw [trunc, if_pos (by positivity), Int.floor_natCast]
    generalize (y : K) = vy at *
    generalize (m : K) = vm at *
    unfold separated
    by_cases hb : (maxMonth f : K) + 1 / 10000 < vm <;>
      simp [-one_div, findYear, findDay, threeFields, guess, fill, field, y0, m0, m32, m32', hy1, hmx, n1, n2, hb, Run.bind, fy, f1, htwo]
  simp only [if_true, Bool.false_eq_true, if_false]
  have htr : trunc (m : K) = m := by rw [trunc, if_pos (by positivity), Int.floor_natCast]
  rw [hsep, Run.bind, finish_value _ _ h s x hx z (by rw [htr]; exact hz), Run.bind, htr]
  congr 2
  push_cast
  ring

theorem exampleDate : IsoDate 2400001 (bytes "1858 11 17") :=
  ⟨17, 11, 1858, bytes "17", bytes "11", bytes "1858", ⟨by decide, by decide, 30, by decide, by decide⟩, by decide +kernel,
    ⟨by unfold AllDigits; decide, by decide, by decide⟩, ⟨by unfold AllDigits; decide, by decide, by decide⟩,
    ⟨by unfold AllDigits; decide, by decide, by decide⟩, by decide⟩

/-- "1858 11 17 06:30" -/
example : getTimeFromString exampleEnv (isoFmt .hhmm 0 false) 7 (bytes "1858 11 17" ++ 32 :: bytes "06:30") =
    .ok (((2400001 : ℤ) : ℚ) - 2451545 - 1 / 2 + (390 : ℕ) / ((Clock.minutes).perDay * 10 ^ 0), 0) :=
  C64_iso exampleEnv exampleEnv_names .hhmm false 0 0 (by decide) 7 .minutes (by decide) 2400001 390 _ _ exampleDate true
    ⟨0, [], Or.inl ⟨rfl, rfl, rfl⟩, 6, 30, bytes "06", bytes "30", ⟨by unfold AllDigits; decide, by decide, by decide⟩,
      ⟨by unfold AllDigits; decide, by decide, by decide⟩, by decide, by decide, by decide, by decide⟩

/-- 1858 November 17, midnight. -/
example : ∃ s, FullCtimel exampleEnv.months exampleEnv.days (isoFmt .seconds 0 false) (-51544 - 1 / 2 : ℚ) (.ok s) ∧
    getTimeFromString exampleEnv (isoFmt .seconds 0 false) 0 s = .ok (-51544 - 1 / 2, 0) :=
  C64_exact exampleEnv exampleEnv_names .seconds .seconds rfl (by decide) 0 (by decide) _ 0 (2400001 * 86400) (by norm_num [Clock.perDay]) 17 11 1858
    ⟨by decide, by decide, 30, by decide, by decide⟩ (by decide) (by decide +kernel)

/-- "1858 11 17 06" is read as midnight. -/
example : getTimeFromString exampleEnv (isoFmt .hh 0 false) 7 (bytes "1858 11 17" ++ 32 :: bytes "06") =
    .ok (((2400001 : ℤ) : ℚ) - 2451545 - 1 / 2, 0) :=
  C64_hours_lost exampleEnv exampleEnv_names .hh false 0 0 (by decide) 7 2400001 6 _ _ exampleDate
    ⟨0, [], Or.inl ⟨rfl, rfl, rfl⟩, 6, bytes "06", ⟨by unfold AllDigits; decide, by decide, by decide⟩, by decide, by decide, by decide⟩

/-- "2009  3 12 06:30:15" is read as January 3. -/
example : getTimeFromString exampleEnv exampleFmt 0 (bytes "2009" ++ [32, 32] ++ bytes "3" ++ bytes " 12" ++ 32 :: bytes "06:30:15") =
    .ok (((2454835 : ℤ) : ℚ) - 2451545 - 1 / 2 + (23415 : ℕ) / ((Clock.seconds).perDay * 10 ^ 0), 0) :=
  C64_blank_month exampleEnv exampleEnv_names (bytes "Jan") rfl exampleFmt 0 _ 2009 3 _ _ _ _ (by unfold Whole AllDigits value; decide)
    (by decide) (Or.inl rfl) (by unfold Whole AllDigits value; decide) (by decide) (by decide) (by decide) exampleTod (by decide) (by decide)
    2454835 (by decide +kernel)

end Verif.Props
