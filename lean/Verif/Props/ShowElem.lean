import Verif.Props.ShowElemRows
import Verif.Props.ShowElemEpoch

/-!
# Property theorems: listings of orbital elements (C99)
-/

namespace Verif.Props

open Verif Verif.Spec Verif.ShowElem

theorem fmtW_real {w p m : Nat} {x : ℝ} (hp : 1 ≤ p) (hw : m + 1 + 1 + p + (if x < 0 then 1 else 0) ≤ w) (h : |x| ≤ 10 ^ (m + 1) - 1 / 10 ^ p) :
    ShowsReal w p x (fmtW w p x) := by
  have hlt : realUnits p x < 10 ^ (m + 1 + p) := by
    have near := (abs_le.1 (realUnits_near p x)).2
    have : (realUnits p x : ℝ) < ((10 ^ (m + 1 + p) : Nat) : ℝ) := by
      push_cast
      rw [pow_add]
      have pp : (0 : ℝ) < 10 ^ p := by positivity
      have := mul_le_mul_of_nonneg_right h pp.le
      rw [sub_mul, div_mul_cancel₀ _ pp.ne'] at this
      linarith
    exact_mod_cast this
  have hs := whole_short hlt
  have hf := padded_pad (Nat.mod_lt (realUnits p x) (by positivity : 0 < 10 ^ p)) (by omega)
  have t := real_text hp x
  refine ⟨w - (Time.fmtFixed p x).length, realUnits p x, _, ?_, ?_, point_parts p _ hp, realUnits_near p x⟩
  · unfold fmtW
    rw [← t]
  · unfold fmtW
    rw [List.length_append, List.length_replicate, t, List.length_append, List.length_append, List.length_cons, hf.width]
    by_cases hx : x < 0
    · rw [if_pos hx] at hw ⊢
      simp only [List.length_cons, List.length_nil]
      omega
    · rw [if_neg hx] at hw ⊢
      simp only [List.length_nil]
      omega

theorem real_length {w k : Nat} {x : ℝ} {s : List Nat} (h : ShowsReal w k x s) : s.length = w := by
  obtain ⟨_, _, _, _, h, _⟩ := h
  exact h

theorem whole_text (z : Int) : WholeText z (decInt z) := by
  unfold decInt
  by_cases hneg : z < 0
  · rw [if_pos hneg]
    exact ⟨_, numeral_dec _, by rw [if_pos hneg]⟩
  · rw [if_neg hneg]
    exact ⟨_, numeral_dec _, by rw [if_neg hneg, show z.toNat = z.natAbs by omega]⟩

theorem whole_length {z : Int} {k : Nat} (h : |z| < 10 ^ (k + 1)) : (decInt z).length ≤ k + 2 := by
  have hn : z.natAbs < 10 ^ (k + 1) := by
    have : ((z.natAbs : Nat) : Int) < ((10 ^ (k + 1) : Nat) : Int) := by
      rw [Int.natCast_natAbs]
      exact_mod_cast h
    exact_mod_cast this
  have h1 := dec_length_le hn
  unfold decInt
  split_ifs with hneg
  · simp only [List.length_cons]
    omega
  · rw [show z.toNat = z.natAbs by omega]
    omega

/-- C99: the period. -/
theorem C99_period (central : Int) {t0 : ℝ} (h0 : 0 ≤ t0) : PeriodSays central t0 (periodText central t0) ∧ (periodText central t0).length ≤ 30 := by
  have neg : ∀ {x : ℝ}, 0 ≤ x → (if x < 0 then 1 else 0 : Nat) = 0 := fun h => if_neg (not_lt.2 h)
  have d0 : 0 ≤ t0 * 365.25 := by positivity
  unfold PeriodSays periodText
  simp only
  by_cases c : central ≤ 0 ∨ 1 < t0
  · rw [if_pos c, if_pos (show central ≤ 0 ∨ t0 > 1 from c)]
    by_cases c1 : 10 ^ 8 - 1 < t0
    · rw [if_pos c1, if_pos (show t0 > 10 ^ 8 - 1 from c1)]
      exact ⟨rfl, by decide +kernel⟩
    rw [if_neg c1, if_neg (show ¬ t0 > 10 ^ 8 - 1 from c1)]
    by_cases c2 : 9999 < t0
    · rw [if_pos c2, if_pos (show t0 > 9999 from c2)]
      refine ⟨⟨_, _, rfl, whole_text _⟩, ?_⟩
      have fl := Int.floor_le t0
      have fl0 : 0 ≤ ⌊t0⌋ := Int.floor_nonneg.2 h0
      have hlt : |⌊t0⌋| < 10 ^ (7 + 1) := by
        rw [abs_of_nonneg fl0]
        push Not at c1
        have : (⌊t0⌋ : ℝ) < ((10 ^ 8 : Int) : ℝ) := by push_cast; linarith
        exact_mod_cast this
      have := whole_length hlt
      unfold Time.fmtBlank
      simp only [List.length_cons, List.length_append, List.length_replicate, List.length_nil]
      omega
    rw [if_neg c2, if_neg (show ¬ t0 > 9999 from c2)]
    push Not at c2
    by_cases c3 : 999.9 < t0 * 365.25
    · rw [if_pos c3, if_pos (show t0 * 365.25 > 999.9 from c3)]
      have r := fmtW_real (w := 10) (p := 5) (m := 3) (x := t0) (by norm_num) (by rw [neg h0]) (by rw [abs_of_nonneg h0]; norm_num; linarith)
      refine ⟨⟨_, rfl, r⟩, ?_⟩
      have hb : (bytes "       ").length = 7 := by decide +kernel
      rw [List.cons_append, List.length_cons, List.length_append, real_length r, hb]
      norm_num
    · rw [if_neg c3, if_neg (show ¬ t0 * 365.25 > 999.9 from c3)]
      push Not at c3
      have r1 := fmtW_real (w := 8) (p := 3) (m := 3) (x := t0) (by norm_num) (by rw [neg h0]) (by rw [abs_of_nonneg h0]; norm_num; linarith)
      have r2 := fmtW_real (w := 7) (p := 3) (m := 2) (x := t0 * 365.25) (by norm_num) (by rw [neg d0])
        (by rw [abs_of_nonneg d0]; norm_num at c3 ⊢; linarith)
      refine ⟨⟨_, _, rfl, r1, r2⟩, ?_⟩
      simp only [List.length_cons, List.length_append, real_length r1, real_length r2, List.length_nil]
      norm_num
  · rw [if_neg c, if_neg (show ¬ (central ≤ 0 ∨ t0 > 1) from c)]
    push Not at c
    by_cases c4 : t0 * 365.25 * 1440 < 9999
    · rw [if_pos c4, if_pos c4]
      have m0 : 0 ≤ t0 * 365.25 * 1440 := by positivity
      have r1 := fmtW_real (w := 8) (p := 3) (m := 3) (x := t0 * 365.25 * 1440) (by norm_num) (by rw [neg m0])
        (by rw [abs_of_nonneg m0]; norm_num at c4 ⊢; linarith)
      have r2 := fmtW_real (w := 5) (p := 3) (m := 0) (x := t0 * 365.25) (by norm_num) (by rw [neg d0])
        (by rw [abs_of_nonneg d0]; norm_num at c4 ⊢; linarith)
      refine ⟨⟨_, _, rfl, r1, r2⟩, ?_⟩
      have hb1 : (bytes "m/").length = 2 := by decide +kernel
      have hb2 : (bytes "d ").length = 2 := by decide +kernel
      simp only [List.length_cons, List.length_append, real_length r1, real_length r2, hb1, hb2]
      norm_num
    · rw [if_neg c4, if_neg c4]
      have r := fmtW_real (w := 9) (p := 4) (m := 3) (x := t0 * 365.25) (by norm_num) (by rw [neg d0])
        (by rw [abs_of_nonneg d0]; norm_num; have := c.2; linarith)
      refine ⟨⟨_, rfl, r⟩, ?_⟩
      have hb : (bytes "d       ").length = 8 := by decide +kernel
      simp only [List.length_cons, List.length_append, real_length r, hb]
      norm_num

theorem kepler_period {e : Elements} (ha : 0 ≤ e.majorAxis) (hg : 0 < e.gm) : KeplerPeriod e.majorAxis e.gm (period e) := by
  refine ⟨by unfold period; positivity, ?_⟩
  unfold period
  rw [mul_pow, Real.sq_sqrt (by positivity)]
  field_simp

theorem mag_says {f : Form} {e : Elements} (hm : |e.absMag| ≤ 99) (hs : |e.slope| ≤ 99) (h : e.absMag ≠ 0) :
    MagSays e.isAsteroid f.nuclear e.absMag e.slope (lastMag f e) ∧ (lastMag f e).length ≤ 30 := by
  have one : ∀ x : ℝ, (if x < 0 then 1 else 0 : Nat) ≤ 1 := fun x => by split_ifs <;> omega
  have r1 := fmtW_real (w := 8) (p := 2) (m := 1) (x := e.absMag) (by norm_num) (by have := one e.absMag; omega) (by norm_num; linarith)
  have r2 := fmtW_real (w := 6) (p := 2) (m := 1) (x := e.slope) (by norm_num) (by have := one e.slope; omega) (by norm_num; linarith)
  have r3 := fmtW_real (w := 5) (p := 1) (m := 1) (x := e.absMag) (by norm_num) (by have := one e.absMag; omega) (by norm_num; linarith)
  have r4 := fmtW_real (w := 5) (p := 1) (m := 1) (x := e.slope) (by norm_num) (by have := one e.slope; omega) (by norm_num; linarith)
  have hb1 : (bytes " H").length = 2 := by decide +kernel
  have hb2 : (bytes "    G ").length = 6 := by decide +kernel
  have hb3 : (bytes "    K ").length = 6 := by decide +kernel
  have hb4 : ∀ b : Bool, ([32, 77, 40, if b then 78 else 84, 41] : List Nat) = bytes (if b then " M(N)" else " M(T)") := by decide +kernel
  unfold lastMag
  by_cases ha : e.isAsteroid = true
  · rw [if_pos ha]
    refine ⟨Or.inr ⟨h, fmtW 8 2 e.absMag, fmtW 6 2 e.slope, ?_⟩, ?_⟩
    · rw [if_pos ha]
      exact ⟨rfl, r1, r2⟩
    · simp only [List.length_append, real_length r1, real_length r2, hb1, hb2]
      norm_num
  · rw [if_neg ha]
    refine ⟨Or.inr ⟨h, fmtW 5 1 e.absMag, fmtW 5 1 e.slope, ?_⟩, ?_⟩
    · rw [if_neg ha, ← hb4]
      exact ⟨rfl, r3, r4⟩
    · simp only [List.length_append, real_length r3, real_length r4, hb3, List.length_cons, List.length_nil]
      norm_num

/-- The last line. -/
theorem last_row {room : Nat} {f : Form} {e : Elements} (hp : f.precision ≤ 15) (ha : 0 ≤ e.majorAxis) (hq : 0 ≤ e.q) (he : 0 ≤ e.ecc) (he' : e.ecc < 1)
    (hm : |e.absMag| ≤ 99) (hs : |e.slope| ≤ 99) (hr : 140 ≤ room) :
    ∃ t u d1 d2, periodLine room f e = .ok (t ++ u ++ bytes "   q " ++ d1 ++ bytes "  Q " ++ d2) ∧ PeriodSays e.centralObj (period e) t ∧
      MagSays e.isAsteroid f.nuclear e.absMag e.slope u ∧ BareDistance f.precision e.q d1 ∧ BareDistance f.precision (e.q * (1 + e.ecc) / (1 - e.ecc)) d2 := by
  have p0 : 0 ≤ period e := by unfold period; positivity
  obtain ⟨t1, t2⟩ := C99_period e.centralObj p0
  obtain ⟨d1, run1, b1, l1⟩ := bare_distance (x := e.q) hq hp
  obtain ⟨d2, run2, b2, l2⟩ := bare_distance (x := e.q * (1 + e.ecc) / (1 - e.ecc)) (div_nonneg (by positivity) (by linarith)) hp
  have hb1 : (bytes "   q ").length = 5 := by decide +kernel
  have hb2 : (bytes "  Q ").length = 4 := by decide +kernel
  obtain ⟨u, hu, hul, run3⟩ : ∃ u, MagSays e.isAsteroid f.nuclear e.absMag e.slope u ∧ u.length ≤ 30 ∧
      (if e.absMag ≠ 0 then cat room (periodText e.centralObj (period e)) (lastMag f e) else .ok (periodText e.centralObj (period e))) =
        .ok (periodText e.centralObj (period e) ++ u) := by
    by_cases h : e.absMag ≠ 0
    · obtain ⟨m1, m2⟩ := mag_says (f := f) hm hs h
      exact ⟨_, m1, m2, by rw [if_pos h, cat, if_pos (by omega)]⟩
    · exact ⟨[], Or.inl ⟨not_not.1 h, rfl⟩, by simp, by rw [if_neg h, List.append_nil]⟩
  refine ⟨_, u, d1, d2, ?_, t1, hu, b1, b2⟩
  unfold periodLine
  rw [put, if_pos (by omega)]
  simp only [Outcome.bind]
  rw [run3]
  simp only
  rw [cat, if_pos (by rw [List.length_append]; omega)]
  simp only
  rw [run1]
  simp only
  rw [cat, if_pos (by simp only [List.length_append]; omega)]
  simp only
  rw [cat, if_pos (by simp only [List.length_append]; omega)]
  simp only
  rw [run2]
  simp only
  rw [cat, if_pos (by simp only [List.length_append]; omega)]

/-- Vectors are turned to the equator and brought to length 1. -/
theorem normal_vect {v : ℝ × ℝ × ℝ} (h : v ≠ 0) : EquatorialUnit v (normalVect v) := by
  have pos : 0 < v.1 * v.1 + v.2.1 * v.2.1 + v.2.2 * v.2.2 := by
    by_contra hc
    push Not at hc
    have a := mul_self_nonneg v.1
    have b := mul_self_nonneg v.2.1
    have c := mul_self_nonneg v.2.2
    apply h
    have h1 : v.1 = 0 := mul_self_eq_zero.1 (by linarith)
    have h2 : v.2.1 = 0 := mul_self_eq_zero.1 (by linarith)
    have h3 : v.2.2 = 0 := mul_self_eq_zero.1 (by linarith)
    exact Prod.ext h1 (Prod.ext h2 h3)
  have rp := Real.sqrt_pos.2 pos
  refine ⟨_, rp, ?_, ?_, ?_, ?_⟩
  · rw [Real.sq_sqrt pos.le]
    ring
  all_goals
    unfold normalVect
    simp only
    rw [if_pos rp.ne', div_mul_cancel₀ _ rp.ne']
  ring

theorem equatorial_le {v u : ℝ × ℝ × ℝ} (h : EquatorialUnit v u) : |u.1| ≤ 9 ∧ |u.2.1| ≤ 9 ∧ |u.2.2| ≤ 9 := by
  obtain ⟨r, hr, e, h1, h2, h3⟩ := h
  have b1 : |v.1| ≤ r := abs_le_of_sq_le_sq (by nlinarith [sq_nonneg v.2.1, sq_nonneg v.2.2]) hr.le
  have b2 : |v.2.1| ≤ r := abs_le_of_sq_le_sq (by nlinarith [sq_nonneg v.1, sq_nonneg v.2.2]) hr.le
  have b3 : |v.2.2| ≤ r := abs_le_of_sq_le_sq (by nlinarith [sq_nonneg v.2.1, sq_nonneg v.1]) hr.le
  have key : ∀ {x y : ℝ}, x * r = y → |y| ≤ 9 * r → |x| ≤ 9 := by
    intro x y hxy hy
    rw [← hxy, abs_mul, abs_of_pos hr] at hy
    exact le_of_mul_le_mul_right hy hr
  obtain ⟨b1l, b1u⟩ := abs_le.1 b1
  obtain ⟨b2l, b2u⟩ := abs_le.1 b2
  obtain ⟨b3l, b3u⟩ := abs_le.1 b3
  refine ⟨key h1 (by rw [abs_le]; constructor <;> linarith), key h2 ?_, key h3 ?_⟩
  · rw [abs_le]; constructor <;> linarith
  · rw [abs_le]; constructor <;> linarith

theorem peri_name (c : Int) : periName c = bytes (pericentre c) ∧ (periName c).length ≤ 7 := by
  unfold periName
  by_cases h : -1 ≤ c ∧ c < 11
  · rw [if_pos h]
    obtain ⟨h1, h2⟩ := h
    interval_cases c <;> exact ⟨rfl, by decide +kernel⟩
  · rw [if_neg h]
    have : pericentre c = "----" := by
      unfold pericentre
      split <;> first | rfl | omega
    rw [this]
    exact ⟨rfl, by decide +kernel⟩

/-- A positive number, rounded. -/
theorem fixed_says {p k : Nat} {x : ℝ} (hp : 1 ≤ p) (hx : 0 ≤ x) (hu : x ≤ 10 ^ (k + 1) - 1) :
    ∃ n, PointText p n (Time.fmtFixed p x) ∧ |(n : ℝ) - x * 10 ^ p| ≤ 1 / 2 ∧ (Time.fmtFixed p x).length ≤ k + 2 + p := by
  have hs := whole_short (realUnits_lt (p := p) (m := k + 1) (x := x) (by rwa [abs_of_nonneg hx]))
  have hf := padded_pad (Nat.mod_lt (realUnits p x) (by positivity : 0 < 10 ^ p)) (by omega)
  have t := real_text hp x
  rw [if_neg (not_lt.2 hx), List.nil_append] at t
  refine ⟨realUnits p x, by rw [t]; exact point_parts p _ hp, ?_, ?_⟩
  · have := realUnits_near p x
    rwa [abs_of_nonneg hx] at this
  · rw [t, List.length_append, List.length_cons, hf.width]
    omega

/-- C99: the line about the perihelion. -/
theorem C99_perihelion {cal : Int → Cal} {clock : List Nat} {room : Nat} {f : Form} {e : Elements} (hp : 1 ≤ f.precision) (hp' : f.precision ≤ 15)
    (h0 : 2 < e.perihTime) (h1 : e.perihTime < 3000000) (hc : clock.length ≤ 19)
    (hd : 1 ≤ (cal ⌊e.perihTime + 1 / 2⌋).day) (hd' : (cal ⌊e.perihTime + 1 / 2⌋).day ≤ 31) (hl : (cal ⌊e.perihTime + 1 / 2⌋).month.length ≤ 20)
    (hy : |(cal ⌊e.perihTime + 1 / 2⌋).year| < 10 ^ 10) (hr : 140 ≤ room) :
    ∃ t, periLine cal clock room f e = .ok t ∧ t.length < 140 ∧ PeriSays e.centralObj f.precision f.perihTime clock e.perihTime ⌊e.perihTime + 1 / 2⌋
      (cal ⌊e.perihTime + 1 / 2⌋).day (cal ⌊e.perihTime + 1 / 2⌋).month (cal ⌊e.perihTime + 1 / 2⌋).year t := by
  obtain ⟨pn, pl⟩ := peri_name e.centralObj
  have hday : decimalDay cal e.perihTime = ((cal ⌊e.perihTime + 1 / 2⌋).day : ℝ) + (e.perihTime + 1 / 2) - ⌊e.perihTime + 1 / 2⌋ := rfl
  have fl1 := Int.floor_le (e.perihTime + 1 / 2)
  have fl2 := Int.lt_floor_add_one (e.perihTime + 1 / 2)
  generalize hj : ⌊e.perihTime + 1 / 2⌋ = j at *
  generalize hcj : cal j = c at *
  have dlo : (1 : ℝ) ≤ c.day := by exact_mod_cast hd
  have dhi : (c.day : ℝ) ≤ 31 := by exact_mod_cast hd'
  obtain ⟨m, m1, m2, m3⟩ := fixed_says (p := f.precision) (k := 1) (x := decimalDay cal e.perihTime) hp (by rw [hday]; linarith) (by rw [hday]; norm_num; linarith)
  obtain ⟨n, n1, n2, n3⟩ := fixed_says (p := f.precision) (k := 6) (x := e.perihTime) hp (by linarith) (by norm_num; linarith)
  have yl := whole_length (k := 9) hy
  have b1 : (bytes "   Peri").length = 7 := by decide +kernel
  have b2 : (bytes " TT").length = 3 := by decide +kernel
  have b3 : (bytes " = ").length = 3 := by decide +kernel
  have b4 : (bytes " (JD ").length = 5 := by decide +kernel
  have b5 : (bytes ")").length = 1 := by decide +kernel
  have len : (bytes "   Peri" ++ periName e.centralObj ++ 32 :: decInt c.year ++ 32 :: c.month ++ 32 ::
      Time.fmtFixed f.precision (decimalDay cal e.perihTime) ++ bytes " TT").length ≤ 69 := by
    simp only [List.length_append, List.length_cons, b1, b2]
    omega
  refine ⟨bytes "   Peri" ++ periName e.centralObj ++ 32 :: decInt c.year ++ 32 :: c.month ++ 32 :: Time.fmtFixed f.precision (decimalDay cal e.perihTime) ++
    bytes " TT" ++ (if f.perihTime then bytes " = " ++ clock ++ bytes " (JD " ++ Time.fmtFixed f.precision e.perihTime ++ bytes ")" else []), ?_, ?_,
    decInt c.year, _, _, m, n, by rw [pn], whole_text _, m1, by rw [← hday]; exact m2, n1, n2⟩
  · unfold periLine
    simp only [hj, hcj]
    rw [put, if_pos (by omega)]
    simp only [Outcome.bind]
    by_cases h : f.perihTime = true
    · rw [if_pos h, if_pos h, cat, if_pos (by
        have : (bytes " = " ++ clock ++ bytes " (JD " ++ Time.fmtFixed f.precision e.perihTime ++ bytes ")").length ≤ 53 := by
          simp only [List.length_append, b3, b4, b5]
          omega
        omega)]
    · rw [if_neg h, if_neg h, List.append_nil]
  · rw [List.length_append]
    by_cases h : f.perihTime = true
    · rw [if_pos h]
      have : (bytes " = " ++ clock ++ bytes " (JD " ++ Time.fmtFixed f.precision e.perihTime ++ bytes ")").length ≤ 53 := by
        simp only [List.length_append, b3, b4, b5]
        omega
      omega
    · rw [if_neg h, List.length_nil]
      omega

/-- What a day of the calendar must be like for the lines to fit. -/
structure DayFits (c : Cal) : Prop where
  first : 1 ≤ c.day
  last : c.day ≤ 31
  plain : 61 ∉ c.month
  short : c.month.length ≤ 20
  year : |c.year| < 10 ^ 10

/-- C99: all lines of a closed orbit. -/
theorem C99_ellipse {cal : Int → Cal} {clock id : List Nat} {size : Nat} {f : Form} {e : Elements} (hp : 1 ≤ f.precision) (hp' : f.precision ≤ 15)
    (hcal : ∀ j, DayFits (cal j)) (hclock : clock.length ≤ 19) (hsize : id.length + 800 ≤ size) (ep0 : 0 ≤ e.epoch) (ep1 : e.epoch ≤ 999999998)
    (he : 0 ≤ e.ecc) (he' : e.ecc < 1) (hq : 0 ≤ e.q) (ha : 0 ≤ e.majorAxis) (hg : 0 < e.gm) (ht : 0 < e.t0) (hn : 180 / Real.pi / e.t0 ≤ 9999)
    (hi : 0 ≤ e.incl) (hi' : e.incl ≤ Real.pi) (hP : e.perihVec ≠ 0) (hQ : e.sideways ≠ 0) (hm : |e.absMag| ≤ 99) (hs : |e.slope| ≤ 99) :
    ∃ peri epoch anomaly l1 l2 l3 last P Q argPer ascNode meanAnomaly,
      elements cal clock size e id false f = .ok (id :: peri ++ [epoch, anomaly, l1, l2, l3, last], peri.length + 7) ∧
      (if 2 < e.perihTime ∧ e.perihTime < 3000000 then ∃ t, peri = [t] ∧ PeriSays e.centralObj f.precision f.perihTime clock e.perihTime ⌊e.perihTime + 1 / 2⌋
        (cal ⌊e.perihTime + 1 / 2⌋).day (cal ⌊e.perihTime + 1 / 2⌋).month (cal ⌊e.perihTime + 1 / 2⌋).year t else peri = []) ∧
      EpochSays e.epoch ⌊e.epoch + 1 / 2⌋ (cal ⌊e.epoch + 1 / 2⌋).day (cal ⌊e.epoch + 1 / 2⌋).month (cal ⌊e.epoch + 1 / 2⌋).year epoch ∧
      EquatorialUnit e.perihVec P ∧ EquatorialUnit e.sideways Q ∧ TurnDegrees e.argPer argPer ∧ TurnDegrees e.ascNode ascNode ∧
      TurnDegrees e.meanAnomaly meanAnomaly ∧
      (∃ s, anomaly = 77 :: s ++ (if f.omitPq then [] else bytes " (2000.0)            P               Q") ∧ Shows 20 (min 15 (f.precision + 3)) meanAnomaly s) ∧
      (∃ s t, l1 = 110 :: s ++ t ∧ Shows (max 10 f.precision + 8) (f.precision + 3) (180 / Real.pi / e.t0) s ∧
        Row "Peri." (max 10 f.precision) f.precision f.omitPq argPer P.1 Q.1 t) ∧
      (∃ s b t, l2 = 97 :: s ++ List.replicate b 32 ++ t ∧ DistanceText f.precision e.majorAxis s ∧ b = max 10 f.precision + 8 - s.length ∧
        Row "Node " (max 10 f.precision) f.precision f.omitPq ascNode P.2.1 Q.2.1 t) ∧
      (∃ s t, l3 = 101 :: s ++ t ∧ Shows (max 10 f.precision + 8) (f.precision + 2) e.ecc s ∧
        Row "Incl." (max 10 f.precision) f.precision f.omitPq (e.incl * 180 / Real.pi) P.2.2 Q.2.2 t) ∧
      ∃ T t u d1 d2, last = t ++ u ++ bytes "   q " ++ d1 ++ bytes "  Q " ++ d2 ∧ KeplerPeriod e.majorAxis e.gm T ∧ PeriodSays e.centralObj T t ∧
        MagSays e.isAsteroid f.nuclear e.absMag e.slope u ∧ BareDistance f.precision e.q d1 ∧ BareDistance f.precision (e.q * (1 + e.ecc) / (1 - e.ecc)) d2 := by
  have hpi := Real.pi_pos
  have ho : ¬ Open false e := by
    rintro (h | h)
    · simp at h
    · linarith
  have uP := normal_vect hP
  have uQ := normal_vect hQ
  obtain ⟨p1, p2, p3⟩ := equatorial_le uP
  obtain ⟨q1, q2, q3⟩ := equatorial_le uQ
  have tA := turn_degrees e.argPer
  have tN := turn_degrees e.ascNode
  have nb1 : (bytes "Peri.").length = 5 := by decide +kernel
  have nb2 : (bytes "Node ").length = 5 := by decide +kernel
  have nb3 : (bytes "Incl.").length = 5 := by decide +kernel
  have nb4 : (bytes " (2000.0)            P               Q").length = 38 := by decide +kernel
  have i0 : 0 ≤ degrees e.incl := by unfold degrees; positivity
  have i1 : degrees e.incl ≤ 9999 := by
    unfold degrees
    rw [div_le_iff₀ hpi]
    nlinarith
  -- perihelion
  obtain ⟨peri, hperi, runPeri, roomPeri⟩ : ∃ peri : List (List Nat),
      (if 2 < e.perihTime ∧ e.perihTime < 3000000 then ∃ t, peri = [t] ∧ PeriSays e.centralObj f.precision f.perihTime clock e.perihTime ⌊e.perihTime + 1 / 2⌋
        (cal ⌊e.perihTime + 1 / 2⌋).day (cal ⌊e.perihTime + 1 / 2⌋).month (cal ⌊e.perihTime + 1 / 2⌋).year t else peri = []) ∧
      (if 2 < e.perihTime ∧ e.perihTime < 3000000 then (periLine cal clock (left size id) f e).bind fun t => .ok [t] else .ok []) = Outcome.ok peri ∧
      peri.foldl left (left size id) + id.length + 1 + 140 ≥ size := by
    by_cases h : 2 < e.perihTime ∧ e.perihTime < 3000000
    · have hc := hcal ⌊e.perihTime + 1 / 2⌋
      obtain ⟨t, run, tl, ts⟩ := C99_perihelion (cal := cal) (clock := clock) (room := left size id) hp hp' h.1 h.2 hclock hc.first hc.last hc.short hc.year
        (by unfold left; omega)
      refine ⟨[t], ?_, ?_, ?_⟩
      · rw [if_pos h]
        exact ⟨t, rfl, ts⟩
      · rw [if_pos h, run]
        rfl
      · unfold left
        simp only [List.foldl_cons, List.foldl_nil]
        omega
    · refine ⟨[], by rw [if_neg h], by rw [if_neg h], ?_⟩
      unfold left
      simp only [List.foldl_nil]
      omega
  generalize hroom0 : peri.foldl left (left size id) = room0 at roomPeri
  -- epoch
  have hc := hcal ⌊e.epoch + 1 / 2⌋
  obtain ⟨epoch, runE, lenE, hE⟩ := C98_epoch (cal := cal) (room := room0) ep0 ep1 hc.first hc.last hc.plain hc.short hc.year (by omega)
  obtain ⟨room1, hroom1⟩ : ∃ r, r = left room0 epoch := ⟨_, rfl⟩
  have room1' : room1 + id.length + 1 + 230 ≥ size := by rw [hroom1]; unfold left; omega
  -- anomaly
  obtain ⟨sM, runM, hM⟩ := anomaly_row (room := room1) (f := f) ho (by omega)
  have lenM := shown_length hM
  obtain ⟨anomaly, hanom⟩ : ∃ t, t = 77 :: sM ++ (if f.omitPq then [] else bytes " (2000.0)            P               Q") := ⟨_, rfl⟩
  have lenM' : anomaly.length ≤ 59 := by
    rw [hanom]
    split_ifs
    · simp only [List.length_append, List.length_cons, lenM, List.length_nil]
      omega
    · simp only [List.length_append, List.length_cons, lenM, nb4]
      omega
  rw [← hanom] at runM
  obtain ⟨room2, hroom2⟩ : ∃ r, r = left room1 anomaly := ⟨_, rfl⟩
  have room2' : room2 + id.length + 1 + 290 ≥ size := by rw [hroom2]; unfold left; omega
  -- motion
  obtain ⟨sn, runn, hsn⟩ := motion_row (room := room2) (f := f) ho hp' ht hn (by omega)
  have lenn := shown_length hsn
  obtain ⟨t1, runt1, ht1, lent1⟩ := right_row (room := room2 - (110 :: sn).length) (f := f) (name := "Peri.") nb1 hp' tA.1 (by linarith [tA.2.1]) p1 q1
    (by rw [List.length_cons]; omega)
  obtain ⟨l1, hl1⟩ : ∃ t, t = 110 :: sn ++ t1 := ⟨_, rfl⟩
  have len1 : l1.length ≤ 86 := by
    rw [hl1]
    simp only [List.length_append, List.length_cons, lenn]
    omega
  obtain ⟨room3, hroom3⟩ : ∃ r, r = left room2 l1 := ⟨_, rfl⟩
  have room3' : room3 + id.length + 1 + 380 ≥ size := by rw [hroom3]; unfold left; omega
  -- axis
  obtain ⟨sa, b, runa, hsa, lena, hb⟩ := axis_row (room := room3) (f := f) ho hp' ha (by omega)
  have lena' : (97 :: sa ++ List.replicate b 32).length ≤ 30 := by
    simp only [List.length_append, List.length_cons, List.length_replicate]
    omega
  obtain ⟨t2, runt2, ht2, lent2⟩ := right_row (room := room3 - (97 :: sa ++ List.replicate b 32).length) (f := f) (name := "Node ") nb2 hp' tN.1
    (by linarith [tN.2.1]) p2 q2 (by omega)
  obtain ⟨l2, hl2⟩ : ∃ t, t = 97 :: sa ++ List.replicate b 32 ++ t2 := ⟨_, rfl⟩
  have len2 : l2.length ≤ 92 := by
    rw [hl2, List.length_append]
    omega
  obtain ⟨room4, hroom4⟩ : ∃ r, r = left room3 l2 := ⟨_, rfl⟩
  have room4' : room4 + id.length + 1 + 480 ≥ size := by rw [hroom4]; unfold left; omega
  -- eccentricity
  obtain ⟨se, rune, hse⟩ := ecc_row (room := room4) (f := f) (e := e) hp' he (by linarith) (by omega)
  have lene := shown_length hse
  obtain ⟨t3, runt3, ht3, lent3⟩ := right_row (room := room4 - (101 :: se).length) (f := f) (name := "Incl.") nb3 hp' i0 i1 p3 q3
    (by rw [List.length_cons]; omega)
  obtain ⟨l3, hl3⟩ : ∃ t, t = 101 :: se ++ t3 := ⟨_, rfl⟩
  have len3 : l3.length ≤ 86 := by
    rw [hl3]
    simp only [List.length_append, List.length_cons, lene]
    omega
  obtain ⟨room5, hroom5⟩ : ∃ r, r = left room4 l3 := ⟨_, rfl⟩
  have room5' : room5 + id.length + 1 + 580 ≥ size := by rw [hroom5]; unfold left; omega
  -- period
  obtain ⟨t, u, d1, d2, runL, hT, hU, hd1, hd2⟩ := last_row (room := room5) (f := f) (e := e) hp' ha hq he he' hm hs (by omega)
  refine ⟨peri, epoch, anomaly, l1, l2, l3, _, normalVect e.perihVec, normalVect e.sideways, _, _, _, ?_, hperi, hE, uP, uQ, tA, tN,
    turn_degrees e.meanAnomaly, ⟨sM, hanom, hM⟩, ⟨sn, t1, hl1, hsn, ht1⟩, ⟨sa, b, t2, hl2, hsa, hb, ht2⟩, ⟨se, t3, hl3, hse, ht3⟩,
    period e, t, u, d1, d2, rfl, kepler_period ha hg, hT, hU, hd1, hd2⟩
  unfold elements
  simp only
  rw [put, if_pos (by omega)]
  have B : ∀ {α β : Type} (a : α) (g : α → Outcome β), (Outcome.ok a).bind g = g a := fun _ _ => rfl
  rw [B, runPeri, B, hroom0]
  rw [runE, B]
  rw [← hroom1, runM]
  rw [B, ← hroom2, show twoParts room2 (motionText room2 f false e) (fun r => rightText r f (bytes "Peri.") (degrees (zeroToTwoPi e.argPer)) (normalVect e.perihVec).1
    (normalVect e.sideways).1) = .ok l1 by rw [twoParts, runn]; simp only [Outcome.bind]; rw [runt1]; simp only; rw [hl1]]
  rw [B, ← hroom3, show twoParts room3 (axisText room3 f false e) (fun r => rightText r f (bytes "Node ") (degrees (zeroToTwoPi e.ascNode)) (normalVect e.perihVec).2.1
    (normalVect e.sideways).2.1) = .ok l2 by rw [twoParts, runa]; simp only [Outcome.bind]; rw [runt2]; simp only; rw [hl2]]
  rw [B, ← hroom4, show twoParts room4 (eccText room4 f false e) (fun r => rightText r f (bytes "Incl.") (degrees e.incl) (normalVect e.perihVec).2.2
    (normalVect e.sideways).2.2) = .ok l3 by rw [twoParts, rune]; simp only [Outcome.bind]; rw [runt3]; simp only; rw [hl3]]
  rw [B, ← hroom5, if_pos ho, runL, B, B]
  simp only [List.cons_append, List.append_assoc, List.nil_append, List.length_cons, List.length_nil]
  congr 2
  omega

/-- An orbit of a main belt asteroid fits. -/
example : ∃ (cal : Int → Cal) (e : Elements), (∀ j, DayFits (cal j)) ∧ 0 ≤ e.epoch ∧ e.epoch ≤ 999999998 ∧ 0 < e.ecc ∧ e.ecc < 1 ∧ 0 < e.q ∧ 0 < e.majorAxis ∧
    0 < e.gm ∧ 0 < e.t0 ∧ 180 / Real.pi / e.t0 ≤ 9999 ∧ 0 < e.incl ∧ e.incl ≤ Real.pi ∧ e.perihVec ≠ 0 ∧ e.sideways ≠ 0 ∧ |e.absMag| ≤ 99 ∧ e.absMag ≠ 0 ∧
    |e.slope| ≤ 99 ∧ 2 < e.perihTime ∧ e.perihTime < 3000000 := by
  have hpi := Real.two_le_pi
  refine ⟨fun _ => ⟨21, bytes "Nov", 2025⟩, ⟨2461600, 2.55, 2461000.5, 0.08, 0.18, 1.3, 1.4, 4, 2.77, 267, 3.34, 0.12, 0.0003, (1, 0, 0), (0, 1, 0), 0, true⟩,
    fun _ => ⟨by norm_num, by norm_num, show 61 ∉ bytes "Nov" by decide +kernel, show (bytes "Nov").length ≤ 20 by decide +kernel, by norm_num⟩, ?_⟩
  have h : 180 / Real.pi / 267 ≤ 9999 := by
    rw [div_div, div_le_iff₀ (by positivity)]
    linarith
  refine ⟨by norm_num, by norm_num, by norm_num, by norm_num, by norm_num, by norm_num, by norm_num, by norm_num, h, by norm_num, ?_, ?_, ?_, by norm_num, by norm_num,
    by norm_num, by norm_num, by norm_num⟩
  · show (0.18 : ℝ) ≤ Real.pi
    linarith
  · simp
  · simp

/-- The buffers hold a text and its zero, not more: the checked copies end the program for a text that leaves no room for the zero, and a zero
    put after blanks at an index that the buffer does not have is written beyond it. -/
theorem C98_room (room n : Nat) (cut : Bool) (s t : List Nat) :
    (put room t = .ok t ↔ t.length + 1 ≤ room) ∧ (put room t = .abort ↔ room < t.length + 1) ∧
    (cat room s t = .ok (s ++ t) ↔ (s ++ t).length + 1 ≤ room) ∧ (cat room s t = .abort ↔ room < (s ++ t).length + 1) ∧
    (padTo cut room n t = .ub ↔ room < n + 1) := by
  unfold put cat padTo
  rw [List.length_append]
  refine ⟨?_, ?_, ?_, ?_, ?_⟩ <;> split <;> simp <;> omega

end Verif.Props
