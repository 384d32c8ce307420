import Verif.Lemmas.Easter
import Verif.Lemmas.Api
import Mathlib.Data.Nat.Prime.Basic
import Mathlib.Tactic.Ring
import Mathlib.Tactic.NormNum.Prime

/-!
# Property theorems: Easter (C16, C17)
-/

namespace Verif.Props

open Verif.Date Verif.Spec Verif.Easter

/-- C16: for every year from 0 on, Gregorian Easter is a date from 22 March to 25 April and is the
    first Sunday after the ecclesiastical full moon of Clavius' computus. -/
theorem C16_easter (y : Int) (hy : 0 ≤ y) :
    ∃ m d j, easterDate y = (m, d) ∧ ((m = 3 ∧ 22 ≤ d ∧ d ≤ 31) ∨ (m = 4 ∧ 1 ≤ d ∧ d ≤ 25)) ∧
      dmyToDay d m y GREGORIAN = some j ∧
      FirstSundayAfter (gregorian.dayNumber (gregorianFullMoon y) 3 y) j := by
  obtain ⟨a, b, h, l, m, t, he, ha, hb, hh, hl, hm, ht⟩ := easterDate_eq hy
  have hm' := m_eq (a := a) (h := h) (l := l) (by omega) (by omega) (by omega)
  rw [← hm] at hm'
  have ht1 : 114 ≤ t ∧ t ≤ 148 := by
    by_cases hc : (h = 29 ∧ l = 6) ∨ (h = 28 ∧ l = 6 ∧ 10 < a)
    · rw [if_pos hc] at hm'; omega
    · rw [if_neg hc] at hm'; omega
  have hd := (dayNumber_tval hy ht1.1 ht1.2).1
  refine ⟨t / 31, t % 31 + 1, gregorian.dayNumber (t - 92) 3 y, he, by omega, ?_, ?_⟩
  · rw [gregorian_refines.dmyToDay (by omega) (by omega), hd]
  · have hf := fullMoon_eq y
    simp only at hf
    rw [← ha, ← hb, ← hh] at hf
    rw [hf, (marchG hy _).1, (marchG hy _).1]
    have hw := weekdayG y
    rw [← hb] at hw ⊢
    have hh' : 0 ≤ h ∧ h < 30 := by omega
    have hl' : 0 ≤ l ∧ l < 7 := by omega
    refine firstSunday hh' hl' hm' ht ?_
    clear hd he hf hm hm' ht ht1 ha hh
    have : (h + l - (32 + 2 * (b % 4) + 2 * (y % 100 / 4) - y % 100 % 4)) % 7 = 0 := by
      clear hw hb
      generalize b % 4 = e at *
      generalize y % 100 / 4 = i at *
      generalize y % 100 % 4 = k at *
      omega
    rw [show 1721119 + 365 * y + y / 4 - b + y / 400 + 22 + h + l =
      (365 * y + y / 4 - b + y / 400) + (1721119 + 22 + h + l) by omega]
    generalize 365 * y + y / 4 - b + y / 400 = J at *
    generalize b % 4 = e at *
    generalize y % 100 / 4 = i at *
    generalize y % 100 % 4 = k at *
    clear hl hb
    omega

/-- C16: Easter dates repeat after 5700000 years. -/
theorem C16_period (y : Int) (hy : 0 ≤ y) : easterDate (y + 5700000) = easterDate y := by
  obtain ⟨a, b, h, l, m, t, he, ha, hb, hh, hl, hm, ht⟩ := easterDate_eq hy
  obtain ⟨a', b', h', l', m', t', he', ha', hb', hh', hl', hm', ht'⟩ :=
    easterDate_eq (show 0 ≤ y + 5700000 by omega)
  have e1 : a' = a := by omega
  have e2 : b' = b + 57000 := by omega
  have e3 : h' = h := by
    rw [hh', hh, e1, e2, show (b + 57000 + 8) / 25 = (b + 8) / 25 + 2280 by omega,
      show (b + 57000) / 4 = b / 4 + 14250 by omega,
      show (b + 57000 - ((b + 8) / 25 + 2280) + 1) / 3 = (b - (b + 8) / 25 + 1) / 3 + 18240 by omega]
    generalize (b - (b + 8) / 25 + 1) / 3 = g
    generalize b / 4 = q
    omega
  have e4 : l' = l := by
    rw [hl', hl, e3, e2, show (b + 57000) % 4 = b % 4 by omega, show (y + 5700000) % 100 = y % 100 by omega]
  have e5 : t' = t := by rw [ht', ht, hm', hm, e1, e3, e4]
  rw [he, he', e5]

/-- A period of a function on the years from 0 on. -/
def IsPeriod {α : Type} (f : Int → α) (p : Nat) : Prop := ∀ y : Int, 0 ≤ y → f (y + p) = f y

theorem IsPeriod.mul {α : Type} {f : Int → α} {p : Nat} (h : IsPeriod f p) (k : Nat) : IsPeriod f (k * p) := by
  induction k with
  | zero => intro y _; simp
  | succ k ih =>
    intro y hy
    rw [show ((k + 1) * p : Nat) = k * p + p by rw [Nat.add_mul, Nat.one_mul]]
    rw [Int.natCast_add, ← Int.add_assoc, h _ (by have := Int.natCast_nonneg (k * p); omega), ih y hy]

theorem IsPeriod.gcd {α : Type} {f : Int → α} {p q : Nat} (hp : IsPeriod f p) (hq : IsPeriod f q)
    (hq0 : 0 < q) : IsPeriod f (Nat.gcd p q) := by
  induction p using Nat.strongRecOn generalizing q with
  | _ p ih =>
    by_cases h0 : p = 0
    · subst h0; simpa using hq
    · rw [Nat.gcd_rec]
      have hr : IsPeriod f (q % p) := by
        intro y hy
        have h1 := hp.mul (q / p) (y + (q % p : Nat)) (by have := Int.natCast_nonneg (q % p); omega)
        rw [← h1, Int.add_assoc, ← Int.natCast_add, Nat.mul_comm, Nat.mod_add_div]
        exact hq y hy
      exact ih (q % p) (Nat.mod_lt _ (by omega)) hr hp (by omega)

/-- C16: 5700000 is the least period: every period is a multiple of it. -/
theorem C16_least_period (p : Nat) (hp : IsPeriod easterDate p) : 5700000 ∣ p := by
  have hP : IsPeriod easterDate 5700000 := fun y hy => C16_period y hy
  have hg := hp.gcd hP (by decide)
  generalize hgd : Nat.gcd p 5700000 = g at hg
  have hd : g ∣ 5700000 := hgd ▸ Nat.gcd_dvd_right _ _
  suffices g = 5700000 by rw [← this, ← hgd]; exact Nat.gcd_dvd_left _ _
  obtain ⟨k, hk⟩ := hd
  by_cases hk1 : k = 1
  · subst hk1; omega
  exfalso
  -- k > 1 divides 5700000 = 2^5 * 3 * 5^5 * 19, so one of the primes divides k
  have hk0 : k ≠ 0 := by rintro rfl; simp at hk
  have hpr := Nat.minFac_prime hk1
  have hkd := Nat.minFac_dvd k
  generalize Nat.minFac k = r at hpr hkd
  obtain ⟨k', rfl⟩ := hkd
  have hr : r ∣ 2 ^ 5 * 3 * 5 ^ 5 * 19 := ⟨g * k', by rw [show 2 ^ 5 * 3 * 5 ^ 5 * 19 = 5700000 by decide, hk]; ring⟩
  have h4 : r = 2 ∨ r = 3 ∨ r = 5 ∨ r = 19 := by
    rcases (Nat.Prime.dvd_mul hpr).1 hr with h | h
    · rcases (Nat.Prime.dvd_mul hpr).1 h with h | h
      · rcases (Nat.Prime.dvd_mul hpr).1 h with h | h
        · exact Or.inl ((Nat.prime_dvd_prime_iff_eq hpr Nat.prime_two).1 (hpr.dvd_of_dvd_pow h))
        · exact Or.inr (Or.inl ((Nat.prime_dvd_prime_iff_eq hpr Nat.prime_three).1 h))
      · exact Or.inr (Or.inr (Or.inl ((Nat.prime_dvd_prime_iff_eq hpr Nat.prime_five).1 (hpr.dvd_of_dvd_pow h))))
    · exact Or.inr (Or.inr (Or.inr ((Nat.prime_dvd_prime_iff_eq hpr (by norm_num)).1 h)))
  have hkk : r * (k' * g) = 5700000 := by rw [hk]; ring
  have hm := hg.mul k'
  generalize k' * g = kg at hkk hm
  rcases h4 with rfl | rfl | rfl | rfl
  · rw [show kg = 2850000 by omega] at hm
    exact absurd (hm 0 (by decide)) (by decide +kernel)
  · rw [show kg = 1900000 by omega] at hm
    exact absurd (hm 0 (by decide)) (by decide +kernel)
  · rw [show kg = 1140000 by omega] at hm
    exact absurd (hm 0 (by decide)) (by decide +kernel)
  · rw [show kg = 300000 by omega] at hm
    exact absurd (hm 0 (by decide)) (by decide +kernel)

/-- C16 does not extend to negative years: the remainders become negative and the day is not a Sunday. -/
theorem C16_negative_fails : easterDate (-1) = (3, 20) ∧
    ∀ j, dmyToDay 20 3 (-1) GREGORIAN = some j → j % 7 ≠ 6 := by
  refine ⟨by decide +kernel, ?_⟩
  intro j h
  have : dmyToDay 20 3 (-1) GREGORIAN = some 1720773 := by decide +kernel
  rw [this] at h; cases h; decide

example : easterDate 2025 = (4, 20) := by decide +kernel
/-- A year where the exceptional epact rule matters. -/
example : easterDate 1981 = (4, 19) ∧ easterDate 1954 = (4, 18) := by decide +kernel

/-! ## C17 -/

theorem easterDateJulian_eq {y : Int} (hy : 0 ≤ y) :
    ∃ d e : Int, d = (19 * (y % 19) + 15) % 30 ∧ e = (2 * (y % 4) + 4 * (y % 7) + 34 - d) % 7 ∧
      easterDateJulian y = ((d + e + 114) / 31, (d + e + 114) % 31 + 1) := by
  refine ⟨_, _, rfl, rfl, ?_⟩
  unfold easterDateJulian
  simp only
  rw [tm hy, tm hy, tm hy, tm (show 0 ≤ 19 * (y % 19) + 15 by omega),
    tm (show 0 ≤ 2 * (y % 4) + 4 * (y % 7) + 34 - (19 * (y % 19) + 15) % 30 by omega),
    td (by omega), tm (by omega)]

/-- C17: for every year from 0 on, Julian Easter is a date from 22 March to 25 April of the Julian
    calendar, the first Sunday after the traditional paschal full moon. -/
theorem C17_easter (y : Int) (hy : 0 ≤ y) :
    ∃ m d j, easterDateJulian y = (m, d) ∧ ((m = 3 ∧ 22 ≤ d ∧ d ≤ 31) ∨ (m = 4 ∧ 1 ≤ d ∧ d ≤ 25)) ∧
      dmyToDay d m y JULIAN = some j ∧
      FirstSundayAfter (julian.dayNumber (julianFullMoon y) 3 y) j := by
  obtain ⟨d, e, hd, he, hr⟩ := easterDateJulian_eq hy
  have hf : julianFullMoon y = 21 + d := by
    have h : ∀ r : Fin 19, julianFullMoonTable.getD r.val 0 = 21 + (19 * (r.val : Int) + 15) % 30 := by decide
    have h1 := h ⟨(y % 19).toNat, by omega⟩
    unfold julianFullMoon
    rw [h1, hd]
    have : (((y % 19).toNat : Nat) : Int) = y % 19 := by omega
    simp only [this]
  have hd30 : 0 ≤ d ∧ d < 29 := by
    have h : ∀ r : Fin 19, (19 * (r.val : Int) + 15) % 30 < 29 := by decide
    have h1 := h ⟨(y % 19).toNat, by omega⟩
    rw [show (((y % 19).toNat : Nat) : Int) = y % 19 by omega] at h1
    omega
  have he7 : 0 ≤ e ∧ e < 7 := by omega
  have hn := (dayNumber_tval (t := d + e + 114) hy (by omega) (by omega)).2
  refine ⟨(d + e + 114) / 31, (d + e + 114) % 31 + 1, julian.dayNumber (d + e + 114 - 92) 3 y, hr, ?_, ?_, ?_⟩
  · clear hr hn he hd hf; omega
  · rw [julian_refines.dmyToDay (by omega) (by omega), hn]
  · rw [hf, (marchJ hy _).1, (marchJ hy _).1]
    have hw : (365 * y + y / 4 + 2 * (y % 4) + 4 * (y % 7)) % 7 = 0 := by
      obtain ⟨q, r, hq, h1, h2⟩ : ∃ q r : Int, y = 28 * q + r ∧ 0 ≤ r ∧ r < 28 := ⟨y / 28, y % 28, by omega, by omega, by omega⟩
      have h : ∀ r : Fin 28, (365 * (r.val : Int) + (r.val : Int) / 4 + 2 * ((r.val : Int) % 4) + 4 * ((r.val : Int) % 7)) % 7 = 0 := by
        decide
      have h3 := h ⟨r.toNat, by omega⟩
      rw [show ((r.toNat : Nat) : Int) = r by omega] at h3
      rw [show y / 4 = 7 * q + r / 4 by omega, show y % 4 = r % 4 by omega, show y % 7 = r % 7 by omega, hq]
      omega
    clear hn hr hf hd
    simp only [Int.add_assoc 1721117]
    generalize y % 4 = a at *
    generalize y % 7 = b at *
    generalize 365 * y + y / 4 = J at *
    refine ⟨by omega, ?_, ?_⟩
    · omega
    · intro j' h1 h2
      omega

/-- C17: Julian Easter repeats after 532 years. -/
theorem C17_period (y : Int) (hy : 0 ≤ y) : easterDateJulian (y + 532) = easterDateJulian y := by
  obtain ⟨d, e, hd, he, hr⟩ := easterDateJulian_eq hy
  obtain ⟨d', e', hd', he', hr'⟩ := easterDateJulian_eq (show 0 ≤ y + 532 by omega)
  rw [show (y + 532) % 19 = y % 19 by omega] at hd'
  rw [show (y + 532) % 4 = y % 4 by omega, show (y + 532) % 7 = y % 7 by omega] at he'
  rw [hr, hr', he', he, hd', hd]

/-- C17: 532 is the least period. -/
theorem C17_least_period (p : Nat) (hp : IsPeriod easterDateJulian p) : 532 ∣ p := by
  have hP : IsPeriod easterDateJulian 532 := fun y hy => C17_period y hy
  have hg := hp.gcd hP (by decide)
  generalize hgd : Nat.gcd p 532 = g at hg
  have hd : g ∣ 532 := hgd ▸ Nat.gcd_dvd_right _ _
  suffices g = 532 by rw [← this, ← hgd]; exact Nat.gcd_dvd_left _ _
  have hm := fun k => hg.mul k
  by_contra hne
  have hall : ∀ g : Fin 532, 532 % g.val = 0 → (266 % g.val = 0 ∨ 76 % g.val = 0 ∨ 28 % g.val = 0) := by decide +kernel
  have hle : g ≤ 532 := Nat.le_of_dvd (by decide) hd
  rcases hall ⟨g, by omega⟩ (Nat.mod_eq_zero_of_dvd hd) with h | h | h
  · have := hm (266 / g); rw [Nat.div_mul_cancel (Nat.dvd_of_mod_eq_zero h)] at this
    exact absurd (this 1 (by decide)) (by decide +kernel)
  · have := hm (76 / g); rw [Nat.div_mul_cancel (Nat.dvd_of_mod_eq_zero h)] at this
    exact absurd (this 1 (by decide)) (by decide +kernel)
  · have := hm (28 / g); rw [Nat.div_mul_cancel (Nat.dvd_of_mod_eq_zero h)] at this
    exact absurd (this 1 (by decide)) (by decide +kernel)

/-- Orthodox Easter 2025: 7 April Julian is 20 April Gregorian. -/
example : easterDateJulian 2025 = (4, 7) ∧ dmyToDay 7 4 2025 JULIAN = dmyToDay 20 4 2025 GREGORIAN := by
  decide +kernel

end Verif.Props
