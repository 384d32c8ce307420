import Verif.Props.Ctime

/-!
# Property theorems: every layout of a printed time (C60)
-/

namespace Verif.Props

open Verif Verif.Date Verif.Spec Verif.Time

variable {K : Type} [Field K] [LinearOrder K] [IsStrictOrderedRing K] [FloorRing K]

/-- A number right-justified in at least `w` bytes: filled up with zeroes after the sign, or with blanks before it. -/
def Justified (zeroes : Bool) (w : Nat) (z : Int) (s : List Nat) : Prop :=
  ∃ ds, Numeral z.natAbs ds ∧
    s = (if zeroes then (if z < 0 then [45] else []) ++ List.replicate (w - ds.length - (if z < 0 then 1 else 0)) 48 ++ ds
      else List.replicate (w - ds.length - (if z < 0 then 1 else 0)) 32 ++ (if z < 0 then [45] else []) ++ ds)

theorem fmtLz_justified (lz : Bool) (w : Nat) (z : Int) : Justified lz w z (fmtLz lz w z) := by
  refine ⟨dec z.natAbs, numeral_dec _, ?_⟩
  unfold fmtLz
  cases lz with
  | true =>
    simp only [if_true]
    unfold fmtZero
    by_cases h : z < 0
    · simp only [if_pos h]; unfold pad; rw [show w - 1 - (dec z.natAbs).length = w - (dec z.natAbs).length - 1 by omega]; rfl
    · simp only [if_neg h]; rw [show z.toNat = z.natAbs by omega]; unfold pad; simp
  | false =>
    simp only [Bool.false_eq_true, if_false]
    unfold fmtBlank decInt
    by_cases h : z < 0
    · simp only [if_pos h, List.length_cons]
      rw [show w - ((dec z.natAbs).length + 1) = w - (dec z.natAbs).length - 1 by omega]; simp
    · simp only [if_neg h]; rw [show z.toNat = z.natAbs by omega]; simp

theorem justified_length {lz : Bool} {w : Nat} {z : Int} {s : List Nat} (h : Justified lz w z s) {k : Nat}
    (hz : z.natAbs < 10 ^ (k + 1)) : s.length ≤ max w (k + 1 + (if z < 0 then 1 else 0)) ∧ w ≤ s.length := by
  obtain ⟨ds, hn, hs⟩ := h
  have hl := dec_length_le hz
  rw [← hn.eq_dec] at hl
  have : s.length = (w - ds.length - (if z < 0 then 1 else 0)) + (if z < 0 then 1 else 0) + ds.length := by
    rw [hs]
    cases lz <;> by_cases hz : z < 0 <;> simp [hz] <;> omega
  omega

theorem justified_two {lz : Bool} {z : Int} {s : List Nat} (h : Justified lz 2 z s) (h0 : 0 ≤ z) (h1 : z < 100) : s.length = 2 := by
  have := justified_length h (k := 1) (by omega)
  rw [if_neg (by omega)] at this
  omega

/-- The pieces of a printed time. -/
structure Pieces where
  dow : List Nat
  year : List Nat
  month : List Nat
  day : List Nat
  dayOfYear : List Nat
  time : List Nat

/-- Their order, as the flags of /repo/date.h ask for it. -/
def Pieces.words (q : Pieces) (f : Fmt) : List (List Nat) :=
  (if f.dowFirst then [q.dow] else []) ++
  (if f.timeOnly then [] else
    (if f.yearFirst ∧ !f.noYear then [q.year] else []) ++
    (if f.dayOfYear then [q.dayOfYear] else if f.monthDay then [q.month, q.day] else [q.day, q.month]) ++
    (if !f.yearFirst ∧ !f.noYear then [q.year] else [])) ++
  (if f.out = .day then [] else [q.time]) ++
  (if f.dowLast then [q.dow] else [])

/-- Words with one blank between them. -/
def spaced : List (List Nat) → List Nat
  | [] => []
  | [w] => w
  | w :: ws => w ++ 32 :: spaced ws

/-- Blanks or colons taken out if asked for. -/
def squeezed (f : Fmt) (s : List Nat) : List Nat :=
  s.filter fun c => !(f.noSpaces && c == 32) && !(f.noColons && c == 58)

/-- What the pieces say: date `d`/`m`/`y` with day number `j`, day `doy` of its year, `n` units of the last place
    since midnight. -/
structure PiecesOf (months days : Int → Option (List Nat)) (f : Fmt) (j d m y doy : Int) (n : Nat) (q : Pieces) : Prop where
  dow : f.dowFirst = true ∨ f.dowLast = true → days ((j + 1) % 7) = some q.dow
  year : if f.twoDigitYear then Padded 2 (y.natAbs % 100) q.year else Justified f.leadingZeroes 4 y q.year
  month : if f.monthsAsDigits then Justified f.leadingZeroes 2 m q.month else months m = some q.month
  day : ∃ dd frac, Justified f.leadingZeroes 2 d dd ∧ (if f.out = .day then Decimals f.precision n frac else frac = []) ∧
    q.day = dd ++ frac
  dayOfYear : ∃ ddd frac, Justified true 3 doy ddd ∧ (if f.out = .day then Decimals f.precision n frac else frac = []) ∧
    q.dayOfYear = ddd ++ frac
  time : ∀ c, clockOf f.out = some c → TimeOfDay f.leadingZeroes c f.precision n q.time

theorem spaced_cons {w : List Nat} {ws : List (List Nat)} (h : ws ≠ []) : spaced (w :: ws) = w ++ 32 :: spaced ws := by
  cases ws with
  | nil => exact absurd rfl h
  | cons a t => rfl

theorem spaced_append {a b : List (List Nat)} (ha : a ≠ []) (hb : b ≠ []) : spaced (a ++ b) = spaced a ++ 32 :: spaced b := by
  induction a with
  | nil => exact absurd rfl ha
  | cons w t ih =>
    by_cases ht : t = []
    · subst ht; simp only [List.cons_append, List.nil_append]; rw [spaced_cons hb]; rfl
    · rw [List.cons_append, spaced_cons (by simp [ht]), ih ht, spaced_cons ht]; simp

/-- The words of the date. -/
def Pieces.date (q : Pieces) (f : Fmt) : List (List Nat) :=
  (if f.yearFirst ∧ !f.noYear then [q.year] else []) ++
  (if f.dayOfYear then [q.dayOfYear] else if f.monthDay then [q.month, q.day] else [q.day, q.month]) ++
  (if !f.yearFirst ∧ !f.noYear then [q.year] else [])

theorem app_ok {b s : List Nat} (h : b.length + s.length < 80) : app b s = .ok (b ++ s) := by
  unfold app; rw [if_neg (by omega)]

omit [IsStrictOrderedRing K] in
/-- The date as the code appends it. -/
theorem dateText_spec (months : Int → Option (List Nat)) (f : Fmt) (buff : List Nat) (d m y doy : Int) (r : K) (q : Pieces)
    (hb : buff.length ≤ 13) (hm : monthText months f m = .ok q.month) (hy : yearText f y = .ok q.year)
    (hd : dayText f d r = .ok q.day) (hdoy : fmtZero 3 doy ++ q.day.drop 2 = q.dayOfYear)
    (lm : q.month.length ≤ 12) (ly : q.year.length ≤ 11) (ld : q.day.length ≤ 14) (ldoy : q.dayOfYear.length ≤ 15) :
    dateText months f buff d m y doy r = .ok (buff ++ spaced (q.date f) ++ (if f.out = .day then [] else [32])) ∧
      (spaced (q.date f)).length ≤ q.month.length + q.year.length + max q.day.length q.dayOfYear.length + 2 := by
  unfold dateText
  simp only [hm, hy, hd, Outcome.bind, hdoy]
  by_cases c1 : f.yearFirst = true <;> by_cases c2 : f.noYear = true <;> by_cases c3 : f.dayOfYear = true <;>
    by_cases c4 : f.monthDay = true <;> by_cases c5 : f.out = .day <;>
    simp only [c1, c2, c3, c4, c5, Bool.not_true, Bool.not_false, Bool.false_eq_true, and_false, and_true, if_true, if_false,
      not_true, not_false_eq_true, ne_eq, Pieces.date, spaced, List.nil_append, List.append_nil, List.cons_append,
      and_self] <;>
    (repeat rw [app_ok (by (try simp only [List.length_append, List.length_cons, List.length_nil]); omega)]; try simp only) <;>
    (refine ⟨?_, ?_⟩ <;> first | ((try simp only [List.length_append, List.length_cons]); omega) | simp)

/-- What names there are, and how long. -/
def ShortNames (months days : Int → Option (List Nat)) (f : Fmt) (m : Int) : Prop :=
  (f.monthsAsDigits = false → ∃ nm, months m = some nm ∧ nm.length ≤ 12) ∧
  (f.dowFirst = true ∨ f.dowLast = true → ∀ w, 0 ≤ w → w < 7 → ∃ nm, days w = some nm ∧ nm.length ≤ 12)

omit [IsStrictOrderedRing K] in
/-- The day of the week printed is that of the day number. -/
theorem dayOfWeek_eq (f : Fmt) (t : K) : dayOfWeek f t = (ctimeDay f t + 1) % 7 := by
  unfold dayOfWeek ctimeDay
  generalize ⌊shifted f t⌋ = i
  simp only
  by_cases h : 0 ≤ i + 6
  · rw [Int.tmod_eq_emod_of_nonneg h, if_neg (by omega)]; omega
  · have e : (i + 6).tmod 7 = -((-(i + 6)) % 7) := by
      rw [← Int.tmod_eq_emod_of_nonneg (by omega), Int.neg_tmod, neg_neg]
    rw [e]
    split <;> omega

omit [IsStrictOrderedRing K] in
theorem dowText_ok {months days : Int → Option (List Nat)} {f : Fmt} {m : Int} (h : ShortNames months days f m) (hf : f.dowFirst = true ∨ f.dowLast = true)
    (t : K) : ∃ nm, days ((ctimeDay f t + 1) % 7) = some nm ∧ nm.length ≤ 12 ∧ dowText days (dayOfWeek f t) = .ok nm := by
  rw [dayOfWeek_eq]
  obtain ⟨nm, h1, h2⟩ := h.2 hf ((ctimeDay f t + 1) % 7) (by omega) (by omega)
  exact ⟨nm, h1, h2, by unfold dowText; rw [h1]⟩

/-- The day of the month with its decimals. -/
theorem dayText_spec (f : Fmt) (hout : f.out = .day → f.precision ≤ 11) (d : Int) (hd : 0 ≤ d) (hd' : d < 100) (r : K) (h0 : 0 ≤ r) (h1 : r < 1) :
    ∃ s n, dayText f d r = .ok (fmtLz f.leadingZeroes 2 d ++ s) ∧ s.length ≤ 12 ∧
      (if f.out = .day then Decimals f.precision n s else s = []) ∧
      (f.out = .day → (n : K) ≤ r * 10 ^ f.precision ∧ r * 10 ^ f.precision < n + 1) := by
  have hl := justified_two (fmtLz_justified f.leadingZeroes 2 d) hd hd'
  unfold dayText
  by_cases c : f.out = .day
  · by_cases hp : f.precision = 0
    · refine ⟨[], 0, ?_, by simp, ?_, ?_⟩
      · simp only [hp, ne_eq, not_true, and_false, if_false]
        rw [if_neg (by omega), List.append_nil]
      · rw [if_pos c, hp]; exact Or.inl ⟨rfl, rfl, rfl⟩
      · intro _; rw [hp]; constructor <;> push_cast <;> linarith
    · obtain ⟨ds, v, e1, e2, e3, e4⟩ := C60_remainder f.precision r h0 h1
      have hp10 : (0 : K) < 10 ^ f.precision := by positivity
      rw [div_le_iff₀ hp10] at e3
      rw [lt_div_iff₀ hp10] at e4
      have hw := e2.width
      have := hout c
      refine ⟨46 :: ds, v, ?_, by simp only [List.length_cons]; omega, ?_, fun _ => ⟨e3, e4⟩⟩
      · simp only [c, ne_eq, hp, not_false_eq_true, and_self, if_true, e1, Outcome.bind, List.length_cons]
        rw [if_neg (by omega), List.take_of_length_le (by omega)]
      · rw [if_pos c]; exact Or.inr ⟨by omega, ds, e2, rfl⟩
  · refine ⟨[], 0, ?_, by simp, by rw [if_neg c], fun h => absurd h c⟩
    simp only [c, false_and, if_false]
    rw [if_neg (by omega), List.append_nil]

theorem yearText_spec (f : Fmt) (y : Int) (hy : y.natAbs < 10 ^ 9) :
    ∃ s, yearText f y = .ok s ∧ s.length ≤ 11 ∧
      (if f.twoDigitYear then Padded 2 (y.natAbs % 100) s else Justified f.leadingZeroes 4 y s) := by
  unfold yearText
  by_cases c : f.twoDigitYear = true
  · simp only [c, if_true]
    have e : (y.tmod 100).natAbs = y.natAbs % 100 := by rw [Int.natAbs_tmod]; rfl
    rw [e]
    have hp := fmtZero_padded (w := 2) (n := y.natAbs % 100) (by omega) (by omega)
    refine ⟨_, if_neg (by rw [hp.width]; omega), by rw [hp.width]; omega, hp⟩
  · simp only [c, Bool.false_eq_true, if_false]
    have hj := fmtLz_justified f.leadingZeroes 4 y
    have hl := justified_length hj (k := 8) (by omega)
    have : (if y < 0 then 1 else 0) ≤ 1 := by split <;> omega
    refine ⟨_, if_neg (by omega), by omega, hj⟩

theorem monthText_spec {months days : Int → Option (List Nat)} {f : Fmt} {m : Int} (h : ShortNames months days f m) (hm : m.natAbs < 100) :
    ∃ s, monthText months f m = .ok s ∧ s.length ≤ 12 ∧
      (if f.monthsAsDigits then Justified f.leadingZeroes 2 m s else months m = some s) := by
  unfold monthText
  by_cases c : f.monthsAsDigits = true
  · simp only [c, if_true]
    have hj := fmtLz_justified f.leadingZeroes 2 m
    have hl := justified_length hj (k := 1) (by omega)
    have : (if m < 0 then 1 else 0) ≤ 1 := by split <;> omega
    exact ⟨_, rfl, by omega, hj⟩
  · simp only [c, Bool.false_eq_true, if_false]
    obtain ⟨nm, h1, h2⟩ := h.1 (by simpa using c)
    refine ⟨nm, ?_, h2, h1⟩
    rw [h1]; exact if_neg (by omega)

theorem squeeze_eq (f : Fmt) (s : List Nat) :
    (if f.noColons then (if f.noSpaces then s.filter (· ≠ 32) else s).filter (· ≠ 58) else (if f.noSpaces then s.filter (· ≠ 32) else s))
      = squeezed f s := by
  unfold squeezed
  cases f.noColons <;> cases f.noSpaces <;> simp [List.filter_filter] <;> apply List.filter_congr <;> intro x _ <;> rw [Bool.eq_iff_iff] <;> simp [and_comm]

/-- **C60.** Every layout: for every combination of the flags, the text printed consists of exactly the words asked
    for, in that order and with one blank between them (none at all with `FULL_CTIME_NO_SPACES`), and they stand for
    the count of last places in the shifted time.  `d`, `m`, `y` is what `day_to_dmy` gives for the day. -/
theorem C60_layout (months days : Int → Option (List Nat)) (f : Fmt) (t : K) (d m y z : Int)
    (hout : (∃ c, clockOf f.out = some c) ∨ (f.out = .day ∧ f.timeOnly = false)) (hp : f.precision ≤ 15)
    (hp' : f.out = .day → f.precision ≤ 11)
    (hr : dayToDmyReturns (ctimeDay f t) f.calendar ⟨d, some m, y⟩) (hz : dmyToDay 0 1 y f.calendar = some z)
    (hd : 0 ≤ d) (hd' : d < 100) (hm : m.natAbs < 100) (hy : y.natAbs < 10 ^ 9)
    (hdoy : 0 ≤ ctimeDay f t - z) (hdoy' : ctimeDay f t - z < 1000) (hn : ShortNames months days f m) :
    ∃ q n, FullCtimel months days f t (.ok (squeezed f (spaced (q.words f)))) ∧
      PiecesOf months days f (ctimeDay f t) d m y (ctimeDay f t - z) n q ∧
      ⌊(t + addOn f + 2451545 + 1 / 2) * ((f.out.units : K) * 10 ^ f.precision)⌋
        = ctimeDay f t * (f.out.units * 10 ^ f.precision) + n := by
  obtain ⟨r0, r1⟩ := frac_range (shifted f t)
  generalize hrr : shifted f t - ⌊shifted f t⌋ = r at *
  have hdt : ⌊shifted f t⌋ + 2451545 - z = ctimeDay f t - z := rfl
  obtain ⟨ms, m1, m2, m3⟩ := monthText_spec hn hm
  obtain ⟨ys, y1, y2, y3⟩ := yearText_spec f y hy
  obtain ⟨frac, nd, d1, d2, d3, d4⟩ := dayText_spec f hp' d hd hd' r r0 r1
  have hjd := fmtLz_justified f.leadingZeroes 2 d
  have ld := justified_two hjd hd hd'
  have hj3 := fmtLz_justified true 3 (ctimeDay f t - z)
  have l3 := justified_length hj3 (k := 2) (by omega)
  rw [if_neg (by omega)] at l3
  have hsum : t + addOn f + 2451545 + 1 / 2 = ((ctimeDay f t : Int) : K) + r := by
    rw [← hrr]; unfold ctimeDay shifted; push_cast; ring
  -- the weekday
  have hdow : ∃ nm : List Nat, (f.dowFirst = true ∨ f.dowLast = true → days ((ctimeDay f t + 1) % 7) = some nm ∧
      dowText days (dayOfWeek f t) = .ok nm) ∧ nm.length ≤ 12 := by
    by_cases c : f.dowFirst = true ∨ f.dowLast = true
    · obtain ⟨nm, a, b, c'⟩ := dowText_ok hn c t
      exact ⟨nm, fun _ => ⟨a, c'⟩, b⟩
    · exact ⟨[], fun h => absurd h c, by simp⟩
  obtain ⟨nm, w1, w2⟩ := hdow
  -- the pieces, given the time of day
  have main : ∀ (time : List Nat) (n : Nat),
      (∀ buff : List Nat, buff.length ≤ 50 ∨ (f.out = .day ∧ buff.length ≤ 60) → timeText f buff r = .ok (buff ++ if f.out = .day then [] else time)) → time.length ≤ 24 →
      (∀ c, clockOf f.out = some c → TimeOfDay f.leadingZeroes c f.precision n time) →
      (f.out = .day → n = nd) →
      ((n : K) ≤ r * ((f.out.units : K) * 10 ^ f.precision) ∧ r * ((f.out.units : K) * 10 ^ f.precision) < n + 1) →
      ∃ q n, FullCtimel months days f t (.ok (squeezed f (spaced (q.words f)))) ∧
        PiecesOf months days f (ctimeDay f t) d m y (ctimeDay f t - z) n q ∧
        ⌊(t + addOn f + 2451545 + 1 / 2) * ((f.out.units : K) * 10 ^ f.precision)⌋
          = ctimeDay f t * (f.out.units * 10 ^ f.precision) + n := by
    intro time n t1 t2 t3 t4 t5
    refine ⟨⟨nm, ys, ms, fmtLz f.leadingZeroes 2 d ++ frac, fmtLz true 3 (ctimeDay f t - z) ++ frac, time⟩, n, ?_, ?_, ?_⟩
    · refine ⟨d, m, y, z, hr, hz, ?_⟩
      generalize hq : (⟨nm, ys, ms, fmtLz f.leadingZeroes 2 d ++ frac, fmtLz true 3 (ctimeDay f t - z) ++ frac, time⟩ : Pieces) = q
      have q1 : q.dow = nm := by rw [← hq]
      have q2 : q.time = time := by rw [← hq]
      have hdrop : fmtZero 3 (ctimeDay f t - z) ++ q.day.drop 2 = q.dayOfYear := by
        rw [← hq]
        simp only
        rw [List.drop_append, ld, List.drop_of_length_le (by omega)]
        rfl
      have dt : ∀ buff : List Nat, buff.length ≤ 13 → dateText months f buff d m y (ctimeDay f t - z) r
          = .ok (buff ++ spaced (q.date f) ++ (if f.out = .day then [] else [32])) ∧ (spaced (q.date f)).length ≤ 40 ∧
          (f.out ≠ .day → (spaced (q.date f)).length ≤ 28) := by
        intro buff hb
        have l1 : q.month.length ≤ 12 := by rw [← hq]; exact m2
        have l2 : q.year.length ≤ 11 := by rw [← hq]; exact y2
        have l3' : q.day.length ≤ 14 := by rw [← hq]; simp only [List.length_append]; omega
        have l4 : q.dayOfYear.length ≤ 15 := by rw [← hq]; simp only [List.length_append]; omega
        obtain ⟨a, b⟩ := dateText_spec months f buff d m y (ctimeDay f t - z) r q hb (by rw [← hq]; exact m1)
          (by rw [← hq]; exact y1) (by rw [← hq]; exact d1) hdrop l1 l2 l3' l4
        refine ⟨a, by omega, fun h => ?_⟩
        rw [if_neg h] at d3
        have l5 : q.day.length ≤ 2 := by rw [← hq]; simp only [List.length_append, d3, List.length_nil]; omega
        have l6 : q.dayOfYear.length ≤ 3 := by rw [← hq]; simp only [List.length_append, d3, List.length_nil]; omega
        omega
      have hdate : q.date f ≠ [] := by
        unfold Pieces.date
        by_cases c3 : f.dayOfYear = true <;> by_cases c4 : f.monthDay = true <;> simp [c3, c4]
      have hwords : q.words f = (if f.dowFirst then [nm] else []) ++ (if f.timeOnly then [] else q.date f) ++
          (if f.out = .day then [] else [time]) ++ (if f.dowLast then [nm] else []) := by
        unfold Pieces.words; rw [q1, q2]; rfl
      have lnm : q.dow.length ≤ 12 := by rw [q1]; exact w2
      unfold ctime
      simp only [hrr, hdt]
      rw [hwords]
      have lt : time.length ≤ 24 := t2
      have e1 : dowText days (dayOfWeek f t) = .ok nm ∨ (f.dowFirst = false ∧ f.dowLast = false) := by
        by_cases c : f.dowFirst = true ∨ f.dowLast = true
        · exact Or.inl (w1 c).2
        · right; simpa using c
      have ld40 : (spaced (q.date f)).length ≤ 40 := (dt [] (by simp)).2.1
      have ld28 : f.out ≠ .day → (spaced (q.date f)).length ≤ 28 := (dt [] (by simp)).2.2
      by_cases c1 : f.dowFirst = true <;> by_cases c2 : f.dowLast = true <;> by_cases c3 : f.timeOnly = true <;>
        by_cases c4 : f.out = .day <;>
        (first
          | (exfalso; rcases hout with ⟨c, hc⟩ | ⟨-, h⟩
             · rw [c4] at hc; simp [clockOf] at hc
             · rw [c3] at h; exact absurd h (by decide))
          | skip) <;>
        (first | rw [(w1 (Or.inl c1)).2] | rw [(w1 (Or.inr c2)).2] | skip) <;>
        simp only [c1, c2, c3, c4, if_true, if_false, Bool.false_eq_true, Outcome.bind] <;>
        (try rw [app_ok (b := []) (by simp only [List.length_append, List.length_cons, List.length_nil]; omega)]) <;>
        (try simp only) <;>
        (try rw [(dt _ (by (try simp only [List.length_append, List.length_cons, List.length_nil]); omega)).1]) <;>
        (try simp only [c4, if_true, if_false]) <;>
        rw [t1 _ (by first
          | (left; (try simp only [List.length_append, List.length_cons, List.length_nil]); have := ld28 c4; omega)
          | (left; (try simp only [List.length_append, List.length_cons, List.length_nil]); omega)
          | (right; exact ⟨c4, by (try simp only [List.length_append, List.length_cons, List.length_nil]); omega⟩))] <;>
        (try simp only [c4, if_true, if_false]) <;>
        (try rw [app_ok (by first
          | ((try simp only [List.length_append, List.length_cons, List.length_nil]); have := ld28 c4; omega)
          | ((try simp only [List.length_append, List.length_cons, List.length_nil]); omega))]) <;>
        (try simp only) <;>
        rw [squeeze_eq] <;>
        (refine congrArg (fun z => Outcome.ok (squeezed f z)) ?_) <;>
        simp [spaced_cons, spaced_append, hdate, spaced]
    · refine ⟨fun h => (w1 h).1, y3, m3, ⟨_, frac, hjd, ?_, rfl⟩, ⟨_, frac, hj3, ?_, rfl⟩, t3⟩
      all_goals
        by_cases c : f.out = .day
        · rw [if_pos c] at d3 ⊢; rw [t4 c]; exact d3
        · rw [if_neg c] at d3 ⊢; exact d3
    · rw [hsum, Int.floor_eq_iff]
      push_cast
      constructor <;> nlinarith [t5.1, t5.2]
  rcases hout with ⟨c, hc⟩ | ⟨hday, hto⟩
  · obtain ⟨s, n, s1, s2, s3, s4, s5⟩ := timeText_all f c hc hp r r0 r1
    have hnd : ¬ f.out = .day := by intro h; rw [h] at hc; simp [clockOf] at hc
    have hu : (f.out.units : K) = c.perDay := by rw [units_eq hc]; push_cast; rfl
    refine main s n ?_ s3 ?_ (fun h => absurd h hnd) (by rw [hu]; exact ⟨s4, s5⟩)
    · intro buff hb
      rw [if_neg hnd]
      rcases hb with hb | ⟨h, -⟩
      · exact s1 buff hb
      · exact absurd h hnd
    · intro c' hc'
      rw [hc] at hc'
      cases hc'
      exact s2
  · refine main [] nd ?_ (by simp) ?_ (fun _ => rfl) ?_
    · intro buff hb
      rw [if_pos hday, List.append_nil]
      obtain ⟨i, hi, i0, i1⟩ := trunc_spec (x := r) r0
      unfold timeText
      simp only [hday, if_true, hmsText, List.append_nil]
      rw [app_ok (by simp only [List.length_nil]; omega)]
      rfl
    · intro c hc; rw [hday] at hc; simp [clockOf] at hc
    · have := d4 hday
      rw [hday]
      simp only [Out.units]
      push_cast
      rw [one_mul]
      exact this

omit [FloorRing K] in
theorem units_range (o : Out) : (1 : K) ≤ (o.units : K) ∧ (o.units : K) ≤ 86400 := by
  cases o <;> simp only [Out.units] <;> constructor <;> norm_num

theorem addOn_scaled (f : Fmt) :
    addOn f * ((f.out.units : K) * 10 ^ f.precision) = if f.rounding then 1 / 2 else (f.out.units : K) / 1728000 := by
  have hu := (units_range (K := K) f.out).1
  have e2 : ((1 : K) / 10) ^ f.precision * 10 ^ f.precision = 1 := by rw [← mul_pow]; norm_num
  unfold addOn
  by_cases c : f.rounding = true
  · rw [if_pos c, if_pos c]
    calc (1 / 10 : K) ^ f.precision * (1 / 2 / (f.out.units : K)) * ((f.out.units : K) * 10 ^ f.precision)
        = ((1 / 10) ^ f.precision * 10 ^ f.precision) * (1 / 2) * ((f.out.units : K) / f.out.units) := by ring
      _ = 1 / 2 := by rw [e2, div_self (by linarith)]; ring
  · rw [if_neg c, if_neg c]
    calc (1 / 10 : K) ^ f.precision * (1 / 20 / 86400) * ((f.out.units : K) * 10 ^ f.precision)
        = ((1 / 10) ^ f.precision * 10 ^ f.precision) * ((f.out.units : K) * (1 / 20 / 86400)) := by ring
      _ = _ := by rw [e2]; ring

/-- **C60.** In every layout the rounding flag rounds to the nearest unit of the last place; without it the time is
    cut off, except that less than a twentieth of a unit is made up. -/
theorem C60_count (f : Fmt) (t : K) :
    (f.rounding = true →
      |(⌊(t + addOn f + 2451545 + 1 / 2) * ((f.out.units : K) * 10 ^ f.precision)⌋ : K)
        - (t + 2451545 + 1 / 2) * ((f.out.units : K) * 10 ^ f.precision)| ≤ 1 / 2) ∧
    (f.rounding = false →
      (⌊(t + addOn f + 2451545 + 1 / 2) * ((f.out.units : K) * 10 ^ f.precision)⌋ : K)
        - (t + 2451545 + 1 / 2) * ((f.out.units : K) * 10 ^ f.precision) ≤ 1 / 20 ∧
      -1 < (⌊(t + addOn f + 2451545 + 1 / 2) * ((f.out.units : K) * 10 ^ f.precision)⌋ : K)
        - (t + 2451545 + 1 / 2) * ((f.out.units : K) * 10 ^ f.precision)) ∧
    (∀ N : Int, f.rounding = false → (t + 2451545 + 1 / 2) * ((f.out.units : K) * 10 ^ f.precision) = N →
      ⌊(t + addOn f + 2451545 + 1 / 2) * ((f.out.units : K) * 10 ^ f.precision)⌋ = N) := by
  have hu := units_range (K := K) f.out
  have e : (t + addOn f + 2451545 + 1 / 2) * ((f.out.units : K) * 10 ^ f.precision)
      = (t + 2451545 + 1 / 2) * ((f.out.units : K) * 10 ^ f.precision) + if f.rounding then 1 / 2 else (f.out.units : K) / 1728000 := by
    rw [← addOn_scaled]; ring
  rw [e]
  generalize (t + 2451545 + 1 / 2) * ((f.out.units : K) * 10 ^ f.precision) = x
  refine ⟨fun h => ?_, fun h => ?_, fun N h hN => ?_⟩
  · rw [if_pos h, abs_le]
    have a := Int.floor_le (x + 1 / 2)
    have b := Int.lt_floor_add_one (x + 1 / 2)
    constructor <;> linarith
  · rw [if_neg (by simp [h])]
    have a := Int.floor_le (x + (f.out.units : K) / 1728000)
    have b := Int.lt_floor_add_one (x + (f.out.units : K) / 1728000)
    constructor <;> linarith [hu.1, hu.2]
  · rw [if_neg (by simp [h]), hN, Int.floor_eq_iff]
    constructor <;> linarith [hu.1, hu.2]

/-- **C60.** The date in the text is the date of the day, for every calendar that follows its rules with months of
    at most 31 days (Gregorian, Julian, Islamic, modern Persian, French Revolutionary; see C01 to C10). -/
theorem C60_calendar (months days : Int → Option (List Nat)) (f : Fmt) (cal : Calendar) (hR : Refines f.calendar cal)
    (h31 : ∀ y, ∀ l ∈ cal.months y, l ≤ 31) (t : K)
    (hout : (∃ c, clockOf f.out = some c) ∨ (f.out = .day ∧ f.timeOnly = false)) (hp : f.precision ≤ 15)
    (hp' : f.out = .day → f.precision ≤ 11) (d m y : Int) (e : cal.Exists d m y)
    (hj : cal.dayNumber d m y = ctimeDay f t) (hy : y.natAbs < 10 ^ 9) (hn : ShortNames months days f m) :
    ∃ q n, FullCtimel months days f t (.ok (squeezed f (spaced (q.words f)))) ∧
      PiecesOf months days f (ctimeDay f t) d m y (ctimeDay f t - cal.dayNumber 1 1 y + 1) n q ∧
      ⌊(t + addOn f + 2451545 + 1 / 2) * ((f.out.units : K) * 10 ^ f.precision)⌋
        = ctimeDay f t * (f.out.units * 10 ^ f.precision) + n := by
  have hm := Exists.month_le hR.toWF e
  obtain ⟨h1, h2, len, h3, h4⟩ := e
  have h5 := h31 y len (List.mem_of_getElem? h3)
  have hrange := hR.dayNumber_range ⟨h1, h2, len, h3, h4⟩
  have hny : cal.newYear (y + 1) ≤ cal.newYear y + 403 := by
    rw [cal.newYear_succ]
    have key : ∀ l : List Int, (∀ x ∈ l, x ≤ 31) → l.sum ≤ 31 * l.length := by
      intro l
      induction l with
      | nil => simp
      | cons a l ih =>
        intro h
        have := ih (fun x hx => h x (by simp [hx]))
        have := h a (by simp)
        simp only [List.sum_cons, List.length_cons]; push_cast; omega
    have := key _ (h31 y)
    rw [hR.len13] at this
    unfold Calendar.yearLength
    omega
  have hz : dmyToDay 0 1 y f.calendar = some (cal.dayNumber 1 1 y - 1) := by
    rw [hR.dmyToDay (by omega) (by omega)]
    simp [Calendar.dayNumber]
    omega
  have h11 : cal.dayNumber 1 1 y = cal.newYear y := by simp [Calendar.dayNumber]
  have hret := hR.dateRoundtrip ⟨h1, h2, len, h3, h4⟩
  rw [hj] at hret hrange
  obtain ⟨q, n, a, b, c⟩ := C60_layout months days f t d m y _ hout hp hp' hret hz (by omega) (by omega) (by omega) hy
    (by omega) (by omega) hn
  refine ⟨q, n, a, ?_, c⟩
  rw [show ctimeDay f t - cal.dayNumber 1 1 y + 1 = ctimeDay f t - (cal.dayNumber 1 1 y - 1) by omega]
  exact b

/-- The months of the five calendars. -/
theorem roman_months_le (y : Int) : (∀ l ∈ gregorian.months y, l ≤ 31) ∧ (∀ l ∈ julian.months y, l ≤ 31) ∧
    (∀ l ∈ islamic.months y, l ≤ 31) ∧ ∀ l ∈ persian.months y, l ≤ 31 := by
  refine ⟨?_, ?_, ?_, ?_⟩ <;> intro l hl <;>
    simp only [gregorian, julian, islamic, persian, romanMonths, List.mem_cons, List.not_mem_nil, or_false] at hl <;>
    rcases hl with h | h | h | h | h | h | h | h | h | h | h | h | h <;> subst h <;> (try split) <;> omega

/-- "Sat 1 Jan 2000 12:00:00.0" and the like. -/
def longFmt : Fmt := { out := .seconds, precision := 1, calendar := GREGORIAN, dowFirst := true }

example : ctime (fun m => if m = 1 then some (bytes "Jan") else none) (fun w => if w = 6 then some (bytes "Sat") else none) longFmt
    (0 : ℚ) 1 1 2000 2451544 = .ok (bytes "Sat  1 Jan 2000 12:00:00.0") := by decide +kernel
example : gregorian.Exists 1 1 2000 ∧ gregorian.dayNumber 1 1 2000 = ctimeDay longFmt (0 : ℚ) ∧
    ShortNames (fun _ => some (bytes "Jan")) (fun _ => some (bytes "Sat")) longFmt 1 :=
  ⟨⟨by decide, by decide, 31, by decide, by decide⟩, by decide +kernel,
    fun _ => ⟨_, rfl, by decide⟩, fun _ w _ _ => ⟨_, rfl, by decide⟩⟩
example : (⟨bytes "Sat", bytes "2000", bytes "Jan", bytes " 1", bytes "001", bytes "12:00:00.0"⟩ : Pieces).words longFmt =
    [bytes "Sat", bytes " 1", bytes "Jan", bytes "2000", bytes "12:00:00.0"] := by decide

end Verif.Props
