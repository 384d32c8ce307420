import Verif.Lemmas.GetTimePlain
import Verif.Props.Ctime
import Mathlib.Data.Rat.Floor

/-!
# Property theorems: reading dates and times (C61, C64)
-/

namespace Verif.Props
open Verif Verif.GetTime Verif.Spec Verif.Time Verif.Date

variable {K : Type} [Field K] [LinearOrder K] [IsStrictOrderedRing K] [FloorRing K]

/-! ## C61: which field is which -/

/-- An order of year, month and day. -/
inductive Order where
  | ymd | ydm | mdy | dmy | myd | dym
deriving DecidableEq, Repr

/-- The three things in this order. -/
def Order.arrange {α β : Type} (o : Order) (y m d : α) (f : α → α → α → β) : β :=
  match o with
  | .ymd => f y m d
  | .ydm => f y d m
  | .mdy => f m d y
  | .dmy => f d m y
  | .myd => f m y d
  | .dym => f d y m

/-- The month stands before the day. -/
def Order.monthFirst : Order → Bool
  | .ymd | .mdy | .myd => true
  | _ => false

/-- Text of a date in this order. -/
def Order.text (o : Order) (sep : Nat) (y m d : List Nat) : List Nat := o.arrange y m d fun a b c => a ++ sep :: (b ++ sep :: c)

/-- The order the format asks for. -/
def formatOrder (f : Fmt) : Order :=
  match f.yearFirst, f.monthDay with
  | true, true => .ymd
  | true, false => .ydm
  | false, true => .mdy
  | false, false => .dmy

/-- Months in a year. -/
def lastMonth (f : Fmt) : Nat := if f.calendar = HEBREW ∨ f.calendar = CHINESE then 13 else 12

/-- What tells the fields apart: a year above 32, and then a day with decimals or too large for a month, or
    the format; or the format alone; or, for a day with decimals at either end, the year at the other end. -/
def Order.Clear (o : Order) (f : Fmt) (y : Nat) (d : K) (decimals : Bool) : Prop :=
  (32 < y ∧ (decimals = true ∨ (lastMonth f : K) + 1 ≤ d ∨ o.monthFirst = f.monthDay)) ∨
  (y ≤ 32 ∧ decimals = false ∧ o = formatOrder f) ∨
  (y ≤ 32 ∧ decimals = true ∧ (o = .ymd ∨ o = .dmy ∨ (o = .ydm ∧ f.yearFirst = true) ∨ (o = .mdy ∧ f.yearFirst = false)))

theorem trunc_nat_half (n : Nat) : trunc ((n : K) + 1 / 2) = n := by
  have h : (0 : K) ≤ (n : K) + 1 / 2 := by positivity
  rw [trunc, if_pos h, Int.floor_eq_iff]
  constructor
  · push_cast; linarith
  · push_cast; linarith

theorem floor_nat_half (n : Nat) : ⌊(n : K) + 1 / 2⌋ = (n : Int) := by
  rw [Int.floor_eq_iff]
  constructor
  · push_cast; linarith
  · push_cast; linarith

theorem maxMonth_eq (f : Fmt) : (maxMonth f : K) = (lastMonth f : K) := by
  unfold maxMonth lastMonth
  split_ifs <;> norm_num

/-- Whether a field number is that of the day. -/
def Order.dot (o : Order) (dot : Bool) : Nat :=
  if dot then (match o with | .ymd | .myd => 3 | .ydm | .mdy => 2 | .dmy | .dym => 1) else 0

set_option maxHeartbeats 1000000 in
theorem separated_clear (env : Env K) (f : Fmt) (o : Order) (y m : Nat) (d : K) (dot : Bool) (cur : Ymd K)
    (hm : m ≤ lastMonth f) (hd1 : 0 ≤ d) (hd2 : d < 32) (ho : o.Clear f y d dot)
    (h2 : f.twoDigitYear = false ∨ 100 ≤ y) :
    separated env f false ⟨o.arrange (y : K) (m : K) d fun a b c => [a, b, c], 0, o.dot dot, 0⟩ cur =
      .ok ⟨y, m, d⟩ := by
  have hl : lastMonth f ≤ 13 := by unfold lastMonth; split_ifs <;> omega
  have hl' : 12 ≤ lastMonth f := by unfold lastMonth; split_ifs <;> omega
  have m0 : ¬ (m : K) < 0 := not_lt.2 (by positivity)
  have y0 : ¬ (y : K) < 0 := not_lt.2 (by positivity)
  have d0 : ¬ d < 0 := not_lt.2 hd1
  have m32' : ¬ (m : K) > 32 := by
    rw [gt_iff_lt, not_lt]
    exact_mod_cast (by omega : m ≤ 32)
  have d32 : ¬ d > 32 := by rw [gt_iff_lt, not_lt]; exact hd2.le
  have mm : ¬ (m : K) > (maxMonth f : K) + 1 / 10000 := by
    rw [maxMonth_eq, gt_iff_lt, not_lt]
    have : (m : K) ≤ (lastMonth f : K) := by exact_mod_cast hm
    linarith
  have htwo : twoDigit env f false (y : Int) = (y : Int) := by
    unfold twoDigit
    rw [if_neg]
    rintro ⟨h1, h3, -, h4⟩
    rcases h2 with h2 | h2
    · rw [h2] at h4; exact absurd h4 (by decide)
    · omega
  have fy := floor_nat_half (K := K) y
  have fm := trunc_nat_half (K := K) m
  have hy1 : 32 < y → (32 : K) < (y : K) := fun h => by exact_mod_cast h
  have hy2 : y ≤ 32 → ¬ (32 : K) < (y : K) := fun h => by rw [not_lt]; exact_mod_cast h
  have hbig : (lastMonth f : K) + 1 ≤ d → (maxMonth f : K) + 1 / 10000 < d := fun h => by rw [maxMonth_eq]; linarith
  have m32 : (m : K) < 32 := by exact_mod_cast (by omega : m < 32)
  rw [gt_iff_lt] at mm d32 m32'
  generalize hvy : (y : K) = vy at *
  generalize hvm : (m : K) = vm at *
  clear hvy hvm
  unfold separated
  rcases ho with ⟨hy, ho⟩ | ⟨hy, rfl, rfl⟩ | ⟨hy, rfl, ho⟩
  · have hy1 := hy1 hy
    have hy2 : ¬ vy < 32 := not_lt.2 hy1.le
    by_cases hb : (maxMonth f : K) + 1 / 10000 < d
    · clear ho
      cases o <;> cases dot <;>
        simp [-one_div, Order.arrange, Order.dot, findYear, findDay, threeFields, guess, fill, field, m0, y0, d0, m32', d32, mm, hy1, hy2, hb, hd2,
          Run.bind, fy, fm, htwo]
    · replace ho : dot = true ∨ o.monthFirst = f.monthDay := by
        rcases ho with h | h | h
        · exact Or.inl h
        · exact absurd (hbig h) hb
        · exact Or.inr h
      rcases ho with rfl | ho
      · cases o <;>
          simp [-one_div, Order.arrange, Order.dot, findYear, findDay, threeFields, guess, fill, field, m0, y0, d0, m32', d32, mm, hy1, hy2, hb, hd2,
            Run.bind, fy, fm, htwo]
      · cases o <;> cases dot <;> simp only [Order.monthFirst] at ho <;>
          simp [-one_div, Order.arrange, Order.dot, findYear, findDay, threeFields, guess, fill, field, m0, y0, d0, m32', d32, mm, hy1, hy2, hb, hd2,
            Run.bind, fy, fm, htwo, ho.symm]
  · have hy1 := hy2 hy
    unfold formatOrder
    cases h1 : f.yearFirst <;> cases h3 : f.monthDay <;>
      simp [-one_div, Order.arrange, Order.dot, findYear, findDay, threeFields, guess, fill, field, m0, y0, d0, m32', d32, mm, hy1, hd2,
          Run.bind, fy, fm, htwo, h1, h3]
  · have hy1 := hy2 hy
    rcases ho with rfl | rfl | ⟨rfl, h1⟩ | ⟨rfl, h1⟩ <;>
      simp [-one_div, Order.arrange, Order.dot, findYear, findDay, threeFields, guess, fill, field, m0, y0, d0, m32', d32, mm, hy1, hd2,
          Run.bind, fy, fm, htwo, *]

/-- A number without decimals. -/
def Whole (n : Nat) (s : List Nat) : Prop := AllDigits s ∧ s ≠ [] ∧ value s = n

/-- A number with decimals (at least one), or without. -/
def Decimal (v : K) (decimals : Bool) (s : List Nat) : Prop :=
  match decimals with
  | false => ∃ n, Whole n s ∧ v = (n : K)
  | true => ∃ n k a b, Whole n a ∧ Whole k b ∧ s = a ++ 46 :: b ∧ v = (n : K) + (k : K) / 10 ^ b.length

/-- After the date there may be a blank and a time of day, which is `x` days. -/
inductive Tod : List Nat → K → Prop where
  | midnight : Tod [] 0
  | time {zeroes : Bool} {c : Clock} {p n : Nat} {s : List Nat} (hc : c ≠ .hours) (h : TimeOfDay zeroes c p n s) :
      Tod (32 :: s) ((n : K) / (c.perDay * 10 ^ p))

theorem Whole.numField {n : Nat} {s : List Nat} (h : Whole n s) : NumField s (n : K) false :=
  Or.inl ⟨rfl, h.1, h.2.1, by rw [h.2.2]⟩

theorem Decimal.numField {v : K} {dec : Bool} {s : List Nat} (h : Decimal v dec s) : NumField s v dec := by
  cases dec with
  | false =>
    obtain ⟨n, h, rfl⟩ := h
    exact h.numField
  | true =>
    obtain ⟨n, k, a, b, ha, hb, rfl, rfl⟩ := h
    exact Or.inr ⟨rfl, a, b, ha.1, ha.2.1, hb.1, hb.2.1, rfl, by rw [ha.2.2, hb.2.2]⟩

theorem Tod.after {t : List Nat} {x : K} (h : Tod t x) :
    ∃ b t', t = b ++ t' ∧ (b = [] ∨ (b = [32] ∧ t' ≠ [])) ∧ After t' x := by
  cases h with
  | midnight => exact ⟨[], [], rfl, Or.inl rfl, .none⟩
  | time hc h =>
    obtain ⟨b, t, e, hb, hct⟩ := after_split (K := K) hc h
    exact ⟨b, 32 :: t, e, hb.imp id (fun h => ⟨h, by simp⟩), .time hct⟩

/-- No month name begins with a digit. -/
def NoDigitNames (names : Int → Option (List Nat)) : Prop :=
  ∀ i n, names i = some n → ∀ c, n.head? = some c → c < 48 ∨ 57 < c

theorem NoDigitNames.letter {names : Int → Option (List Nat)} (h : NoDigitNames names) : LetterNames names := by
  intro i n hi
  cases n with
  | nil => simp [at?]
  | cons c n =>
    have := h i (c :: n) hi c rfl
    simp only [at?, List.getD_cons_zero]
    omega

theorem plain3 (env : Env K) (hn : NoDigitNames env.months) (f : Fmt) (init : K) (sep : Nat)
    (hsep : sep = 45 ∨ sep = 32 ∨ sep = 47) {a b c t : List Nat} {va vb vc x : K} {da db dc : Bool}
    (ha : NumField a va da) (hb : NumField b vb db) (hc : NumField c vc dc) (ht : Tod t x)
    (hl : (a ++ sep :: (b ++ sep :: c) ++ t).length < 80) {k : Nat}
    (hk : (if dc then 3 else if db then 2 else if da then 1 else 0) = k) :
    ∃ (cur : Ymd K) (h : Int) (s : K), (h : K) * 60 / 1440 + s / 86400 = x ∧
      getTimeFromString env f init (a ++ sep :: (b ++ sep :: c) ++ t) =
        (separated env f false ⟨[va, vb, vc], 0, k, 0⟩ cur).bind fun d =>
        (finish f false d h 0 s 0).bind fun t => .ok (t, 0) := by
  obtain ⟨r, t', rfl, hr, ha'⟩ := ht.after
  have e : a ++ sep :: (b ++ sep :: c) ++ (r ++ t') = joined sep a b c ++ r ++ t' := by simp [joined]
  rw [e] at hl ⊢
  have := read_plain (rest := r) hn.letter f init ha (.text (.number hb hn.letter)) hb.plain hc hsep
    (hr.imp id (fun h => by rw [h.1]; rfl)) (by rcases hr with rfl | ⟨rfl, -⟩ <;> simp)
    (fun c hc => by rcases hr with rfl | ⟨rfl, -⟩ <;> simp at hc; omega) ha'
    (fun h1 h2 => by rcases hr with rfl | ⟨-, h⟩; exact absurd rfl h2; exact absurd h1 h) hl
  simp only [Bool.false_eq_true, if_false, hk] at this
  exact this

/-- **C61.** Whatever the order of the fields and the time the caller starts from: if the fields can be told
    apart, the text is read as that day and time of day. -/
theorem C61_any_order (env : Env K) (hn : NoDigitNames env.months) (f : Fmt) (init : K) (o : Order) (sep : Nat)
    (hsep : sep = 45 ∨ sep = 32 ∨ sep = 47) (y m : Nat) (d x : K) (dec : Bool) (yt mt dt t : List Nat)
    (hy : Whole y yt) (hm : Whole m mt) (hd : Decimal d dec dt) (ht : Tod t x)
    (hm' : m ≤ lastMonth f) (hd1 : 0 ≤ d) (hd2 : d < 32) (ho : o.Clear f y d dec) (h2 : f.twoDigitYear = false ∨ 100 ≤ y)
    (z : Int) (hz : dmyToDay ⌊d⌋ m y f.calendar = some z) (hl : (o.text sep yt mt dt ++ t).length < 80) :
    getTimeFromString env f init (o.text sep yt mt dt ++ t) = .ok ((z : K) + Int.fract d + x - 2451545 - 1 / 2, 0) := by
  have hyf := hy.numField (K := K)
  have hmf := hm.numField (K := K)
  have hdf := hd.numField
  have key : ∃ (cur : Ymd K) (h : Int) (s : K), (h : K) * 60 / 1440 + s / 86400 = x ∧
      getTimeFromString env f init (o.text sep yt mt dt ++ t) =
        (separated env f false ⟨o.arrange (y : K) (m : K) d fun a b c => [a, b, c], 0, o.dot dec, 0⟩ cur).bind fun d =>
        (finish f false d h 0 s 0).bind fun t => .ok (t, 0) := by
    cases o <;> simp only [Order.text, Order.arrange] at hl ⊢
    · exact plain3 env hn f init sep hsep hyf hmf hdf ht hl (by simp [Order.dot])
    · exact plain3 env hn f init sep hsep hyf hdf hmf ht hl (by simp [Order.dot])
    · exact plain3 env hn f init sep hsep hmf hdf hyf ht hl (by simp [Order.dot])
    · exact plain3 env hn f init sep hsep hdf hmf hyf ht hl (by simp [Order.dot])
    · exact plain3 env hn f init sep hsep hmf hyf hdf ht hl (by simp [Order.dot])
    · exact plain3 env hn f init sep hsep hdf hyf hmf ht hl (by simp [Order.dot])
  obtain ⟨cur, h, s, hx, he⟩ := key
  have htr : trunc d = ⌊d⌋ := by rw [trunc, if_pos hd1]
  rw [he, separated_clear env f o y m d dec cur hm' hd1 hd2 ho h2, Run.bind, finish_value f _ h s x hx z (by rw [htr]; exact hz), Run.bind]
  simp only [htr, Int.fract]
  congr 2
  ring

/-- An environment with the English names. -/
def exampleEnv : Env ℚ :=
  ⟨fun i => [bytes "Jan", bytes "Feb", bytes "Mar", bytes "Apr", bytes "May", bytes "Jun", bytes "Jul", bytes "Aug", bytes "Sep",
      bytes "Oct", bytes "Nov", bytes "Dec"][(i - 1).toNat]?,
    fun i => [bytes "Sun", bytes "Mon", bytes "Tue", bytes "Wed", bytes "Thu", bytes "Fri", bytes "Sat"][i.toNat]?,
    fun t => ⟨2000, 1, 1 + ⌊t + 1 / 2⌋, 12, 0, 0⟩, fun _ t => t, 0⟩

theorem exampleEnv_names : NoDigitNames exampleEnv.months := by
  intro i n h c hc
  have : ∀ m ∈ [bytes "Jan", bytes "Feb", bytes "Mar", bytes "Apr", bytes "May", bytes "Jun", bytes "Jul", bytes "Aug", bytes "Sep",
      bytes "Oct", bytes "Nov", bytes "Dec"], ∀ c, m.head? = some c → c < 48 ∨ 57 < c := by decide +kernel
  exact this n (List.mem_of_getElem? h) c hc

/-- Year, month and day in this order, Gregorian. -/
def exampleFmt : Fmt := isoFmt .seconds 0 false

theorem exampleTod : Tod (32 :: bytes "06:30:15") ((23415 : ℕ) / ((Clock.seconds).perDay * 10 ^ 0 : ℚ)) :=
  .time (zeroes := true) (c := .seconds) (p := 0) (n := 23415) (by decide)
    ⟨0, [], Or.inl ⟨rfl, rfl, rfl⟩, 6, 30, 15, bytes "06", bytes "30", bytes "15", ⟨by unfold AllDigits; decide, by decide, by decide⟩,
      ⟨by unfold AllDigits; decide, by decide, by decide⟩, ⟨by unfold AllDigits; decide, by decide, by decide⟩, by decide, by decide, by decide, by decide, by decide⟩

/-- "17/11/1858 06:30:15", though the format asks for the year first. -/
example : getTimeFromString exampleEnv exampleFmt 0 (Order.dmy.text 47 (bytes "1858") (bytes "11") (bytes "17") ++ 32 :: bytes "06:30:15") =
    .ok (((2400001 : ℤ) : ℚ) + Int.fract 17 + (23415 : ℕ) / ((Clock.seconds).perDay * 10 ^ 0) - 2451545 - 1 / 2, 0) :=
  C61_any_order exampleEnv exampleEnv_names exampleFmt 0 .dmy 47 (by decide) 1858 11 17 _ false (bytes "1858") (bytes "11") (bytes "17") _
    (by unfold Whole AllDigits value; decide) (by unfold Whole AllDigits value; decide) ⟨17, by unfold Whole AllDigits value; decide, by norm_num⟩
    exampleTod (by decide) (by norm_num) (by norm_num)
    (Or.inl ⟨by norm_num, Or.inr (Or.inl (by norm_num [lastMonth, exampleFmt, isoFmt, GREGORIAN, HEBREW, CHINESE]))⟩) (Or.inl rfl)
    2400001 (by rw [show ⌊(17 : ℚ)⌋ = 17 by norm_num]; decide +kernel) (by decide)

end Verif.Props
