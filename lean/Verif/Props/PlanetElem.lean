import Verif.Props.Moid
import Verif.Spec.PlanetElem

/-!
# Property theorems: mean elements of planets and minor planets (C95)
-/

namespace Verif.Props

open Verif Verif.Spec Verif.Orbit Verif.Moid Real

/-! ## Angles -/

theorem same_refl (a : ℝ) : SameAngle a a := ⟨0, by simp⟩

theorem same_trans {a b c : ℝ} (h : SameAngle a b) (h' : SameAngle b c) : SameAngle a c := by
  obtain ⟨k, hk⟩ := h
  obtain ⟨l, hl⟩ := h'
  exact ⟨l + k, by rw [hk, hl]; push_cast; ring⟩

theorem same_symm {a b : ℝ} (h : SameAngle a b) : SameAngle b a := by
  obtain ⟨k, hk⟩ := h
  exact ⟨-k, by rw [hk]; push_cast; ring⟩

theorem same_add {a b c d : ℝ} (h : SameAngle a b) (h' : SameAngle c d) : SameAngle (a + c) (b + d) := by
  obtain ⟨k, hk⟩ := h
  obtain ⟨l, hl⟩ := h'
  exact ⟨k + l, by rw [hk, hl]; push_cast; ring⟩

theorem same_sub {a b c d : ℝ} (h : SameAngle a b) (h' : SameAngle c d) : SameAngle (a - c) (b - d) := by
  obtain ⟨k, hk⟩ := h
  obtain ⟨l, hl⟩ := h'
  exact ⟨k - l, by rw [hk, hl]; push_cast; ring⟩

theorem same_cos {a b : ℝ} (h : SameAngle a b) : cos a = cos b := by
  obtain ⟨k, hk⟩ := h
  rw [hk, show 2 * π * (k : ℝ) = k * (2 * π) by ring, cos_add_int_mul_two_pi]

/-- `centralize_angle` gives the same angle between -π and π. -/
theorem C95_centralize (x : ℝ) : SameAngle (centralize x) x ∧ |centralize x| ≤ π := by
  have hp := pi_pos
  have key : SameAngle (AltAz.fmod x (π + π)) x ∧ -(2 * π) < AltAz.fmod x (π + π) ∧ AltAz.fmod x (π + π) < 2 * π := by
    unfold AltAz.fmod
    have h2 : 0 < π + π := by linarith
    split
    · rename_i h
      have hf := Int.floor_le (x / (π + π))
      have hl := Int.lt_floor_add_one (x / (π + π))
      rw [le_div_iff₀ h2] at hf
      rw [div_lt_iff₀ h2] at hl
      exact ⟨⟨-⌊x / (π + π)⌋, by push_cast; ring⟩, by linarith, by linarith⟩
    · have hf := Int.le_ceil (x / (π + π))
      have hl := Int.ceil_lt_add_one (x / (π + π))
      rw [div_le_iff₀ h2] at hf
      have hl' : (⌈x / (π + π)⌉ : ℝ) - 1 < x / (π + π) := by linarith
      rw [lt_div_iff₀ h2] at hl'
      exact ⟨⟨-⌈x / (π + π)⌉, by push_cast; ring⟩, by linarith, by linarith⟩
  obtain ⟨⟨k, hk⟩, h1, h2⟩ := key
  unfold centralize
  simp only
  generalize AltAz.fmod x (π + π) = a at *
  by_cases c1 : a < -π
  · rw [if_pos c1, abs_le]
    exact ⟨⟨k + 1, by rw [hk]; push_cast; ring⟩, by linarith, by linarith⟩
  · rw [if_neg c1]
    by_cases c2 : a > π
    · rw [if_pos c2, abs_le]
      exact ⟨⟨k - 1, by rw [hk]; push_cast; ring⟩, by linarith, by linarith⟩
    · rw [if_neg c2, abs_le]
      exact ⟨⟨k, hk⟩, by linarith, by linarith⟩

/-! ## The tables -/

/-- Table and specification agree. -/
theorem tables_agree : ∀ n < 15, ∀ i < 6, (planetElem.getD n []).getD i 0 = ((meanElements.getD n []).getD i 0 : ℚ) / 10 ^ 8 ∧
    (if n + 1 ≤ 9 then (planetRate.getD n []).getD i 0 else 0) = ((meanRates.getD n []).getD i 0 : ℚ) / 10 ^ 8 := by
  decide +kernel

theorem element_eq {n i : ℕ} (hn : n < 15) (hi : i < 6) (t : ℝ) : element (n + 1) t i = meanElement n t i := by
  obtain ⟨h1, h2⟩ := tables_agree n hn i hi
  unfold element meanElement
  simp only [Nat.add_sub_cancel]
  rw [h1]
  split_ifs at h2 ⊢ with h
  · rw [h2]
    push_cast
    ring
  · have : ((meanRates.getD n []).getD i 0 : ℚ) = 0 := by
      field_simp at h2
      linarith
    have : (meanRates.getD n []).getD i 0 = 0 := by exact_mod_cast this
    rw [this]
    push_cast
    ring

/-! ## The elements -/

/-- What holds for all fifteen bodies. -/
theorem setup_all {n : ℕ} (hn : n < 15) (t : ℝ) : ∃ e, setupPlanet (n + 1) t = some (e, 2451545 + t * 36525) ∧
    e.ecc = meanElement n t 1 ∧ e.q = (1 - meanElement n t 1) * meanElement n t 0 ∧
    SameAngle e.incl (radians (meanElement n t 2)) ∧ SameAngle e.ascNode (radians (meanElement n t 3)) ∧
    SameAngle e.argPer (radians (meanElement n t 4) - if n < 8 then radians (meanElement n t 3) else 0) ∧
    SameAngle e.meanAnomaly (radians (meanElement n t 5) - radians (meanElement n t 3) - (radians (meanElement n t 4) - if n < 8 then radians (meanElement n t 3) else 0)) ∧
    |e.incl| ≤ π ∧ |e.ascNode| ≤ π ∧ |e.meanAnomaly| ≤ π ∧
    e.perihTime = 2451545 + t * 36525 - e.meanAnomaly * e.t0 ∧
    (0 < e.q → 0 ≤ e.ecc → e.ecc < 1 → cos e.incl ≠ 0 → Suits e (Conic.ofElements e.q e.ecc e.ascNode e.incl e.argPer)) := by
  unfold setupPlanet
  rw [if_neg (by omega)]
  have hto : ((n : ℤ) + 1).toNat = n + 1 := by omega
  have hlt : (n + 1 < 9) = (n < 8) := by
    apply propext
    omega
  rw [hto]
  obtain ⟨x, hx⟩ : ∃ x, x = rawPlanet (n + 1) t := ⟨_, rfl⟩
  have hx' := hx
  unfold rawPlanet at hx
  simp only [hlt] at hx
  rw [element_eq hn (by norm_num), element_eq hn (by norm_num), element_eq hn (by norm_num), element_eq hn (by norm_num), element_eq hn (by norm_num),
    element_eq hn (by norm_num)] at hx
  rw [← hx']
  obtain ⟨a2, b2⟩ := C95_centralize (meanElement n t 2 * π / 180)
  obtain ⟨a3, b3⟩ := C95_centralize (meanElement n t 3 * π / 180)
  obtain ⟨a4, b4⟩ := C95_centralize (meanElement n t 4 * π / 180)
  obtain ⟨a5, b5⟩ := C95_centralize (meanElement n t 5 * π / 180)
  have hfields : ∀ (x : Elements) (gm : ℝ), (derive x gm).ecc = x.ecc ∧ (derive x gm).q = x.q ∧ (derive x gm).incl = x.incl ∧
      (derive x gm).ascNode = x.ascNode ∧ (derive x gm).argPer = x.argPer ∧ (derive x gm).meanAnomaly = x.meanAnomaly := by
    intro x gm
    unfold derive orbitVectors
    simp only
    split <;> exact ⟨rfl, rfl, rfl, rfl, rfl, rfl⟩
  have harg : SameAngle (if n < 8 then centralize (meanElement n t 4 * π / 180) - centralize (meanElement n t 3 * π / 180) else centralize (meanElement n t 4 * π / 180))
      (radians (meanElement n t 4) - if n < 8 then radians (meanElement n t 3) else 0) := by
    by_cases h : n < 8
    · rw [if_pos h, if_pos h]
      exact same_sub a4 a3
    · rw [if_neg h, if_neg h, sub_zero]
      exact a4
  obtain ⟨a6, b6⟩ := C95_centralize (centralize (meanElement n t 5 * π / 180) - centralize (meanElement n t 3 * π / 180) -
    if n < 8 then centralize (meanElement n t 4 * π / 180) - centralize (meanElement n t 3 * π / 180) else centralize (meanElement n t 4 * π / 180))
  obtain ⟨f1, f2, f3, f4, f5, f6⟩ := hfields x (gaussK * gaussK)
  refine ⟨_, rfl, ?_⟩
  simp only
  rw [f1, f2, f3, f4, f5, f6]
  refine ⟨by rw [hx], by rw [hx], by rw [hx]; exact a2, by rw [hx]; exact a3, by rw [hx]; exact harg, by rw [hx]; exact same_trans a6 (same_sub (same_sub a5 a3) harg),
    by rw [hx]; exact b2, by rw [hx]; exact b3, by rw [hx]; exact b6, trivial, ?_⟩
  intro hq he h1 hi
  have hs := derive_suits x (gaussK * gaussK) hq he h1 hi
  exact ⟨hs.closed, rfl, rfl, hs.peri, hs.side, hs.axis, hs.minor⟩

/-- For Mercury to Neptune the elements are the published ones: semimajor axis, eccentricity, inclination, longitudes of node and perihelion, mean
longitude; the time of perihelion is the one that gives the mean anomaly at the epoch. -/
theorem C95_planets {n : ℕ} (hn : n < 8) (t : ℝ) : ∃ e, setupPlanet (n + 1) t = some (e, 2451545 + t * 36525) ∧
    e.ecc = meanElement n t 1 ∧ e.q = (1 - e.ecc) * meanElement n t 0 ∧ SameAngle e.incl (radians (meanElement n t 2)) ∧
    SameAngle e.ascNode (radians (meanElement n t 3)) ∧ SameAngle (e.argPer + e.ascNode) (radians (meanElement n t 4)) ∧
    SameAngle (e.meanAnomaly + e.argPer + e.ascNode) (radians (meanElement n t 5)) ∧ |e.meanAnomaly| ≤ π ∧
    2451545 + t * 36525 - e.perihTime = e.meanAnomaly * e.t0 := by
  obtain ⟨e, h1, h2, h3, h4, h5, h6, h7, -, -, h8, h9, -⟩ := setup_all (by omega : n < 15) t
  rw [if_pos hn] at h6 h7
  refine ⟨e, h1, h2, by rw [h2]; exact h3, h4, h5, ?_, ?_, h8, by rw [h9]; ring⟩
  · have := same_add h6 h5
    rw [sub_add_cancel] at this
    exact this
  · have := same_add (same_add h7 h6) h5
    refine same_trans this ?_
    rw [show radians (meanElement n t 5) - radians (meanElement n t 3) - (radians (meanElement n t 4) - radians (meanElement n t 3)) +
      (radians (meanElement n t 4) - radians (meanElement n t 3)) + radians (meanElement n t 3) = radians (meanElement n t 5) by ring]
    exact same_refl _

/-- Pluto's longitude of perihelion is taken for the argument of perihelion: for a hundred thousand years around 2000 the direction of its perihelion is
wrong by the longitude of its node, more than 90 degrees. -/
theorem C95_pluto (t : ℝ) (h1 : -1000 ≤ t) (h2 : t ≤ 1000) : ∃ e, setupPlanet 9 t = some (e, 2451545 + t * 36525) ∧
    SameAngle e.argPer (radians (meanElement 8 t 4)) ∧ ¬ SameAngle (e.argPer + e.ascNode) (radians (meanElement 8 t 4)) ∧
    90 < meanElement 8 t 3 ∧ meanElement 8 t 3 < 130 := by
  obtain ⟨e, k1, -, -, -, k5, k6, -⟩ := setup_all (by norm_num : 8 < 15) t
  rw [if_neg (by norm_num), sub_zero] at k6
  have hnode : 90 < meanElement 8 t 3 ∧ meanElement 8 t 3 < 130 := by
    unfold meanElement meanElements meanRates
    simp only [List.getD_cons_zero, List.getD_cons_succ]
    push_cast
    constructor <;> linarith
  refine ⟨e, k1, k6, ?_, hnode⟩
  rintro hs
  obtain ⟨k, hk⟩ := same_sub hs (same_add k6 k5)
  have hp := pi_pos
  have : radians (meanElement 8 t 3) = 2 * π * k := by
    have : 0 = radians (meanElement 8 t 4) - (radians (meanElement 8 t 4) + radians (meanElement 8 t 3)) + 2 * π * k := by
      rw [← hk]
      ring
    linarith
  unfold radians at this
  have h3 : meanElement 8 t 3 / 360 = k := by
    field_simp at this ⊢
    linarith
  have a1 : (0 : ℝ) < k := by rw [← h3]; linarith
  have a2 : (k : ℝ) < 1 := by rw [← h3]; linarith
  have b1 : 0 < k := by exact_mod_cast a1
  have b2 : k < 1 := by exact_mod_cast a2
  omega

/-- For the minor planets the argument of the perihelion is right, but node and argument are taken off the mean anomaly once more. -/
theorem C95_minor {n : ℕ} (h9 : 9 ≤ n) (hn : n < 15) (t : ℝ) : ∃ e, setupPlanet (n + 1) t = some (e, 2451545 + t * 36525) ∧
    e.ecc = meanElement n 0 1 ∧ SameAngle e.ascNode (radians (meanElement n 0 3)) ∧ SameAngle e.argPer (radians (meanElement n 0 4)) ∧
    SameAngle e.meanAnomaly (radians (meanElement n 0 5) - e.ascNode - e.argPer) ∧ ¬ SameAngle e.meanAnomaly (radians (meanElement n 0 5)) := by
  obtain ⟨e, k1, k2, -, -, k5, k6, k7, -⟩ := setup_all hn t
  rw [if_neg (by omega), sub_zero] at k6 k7
  have hconst : ∀ i, meanElement n t i = meanElement n 0 i := by
    intro i
    have : meanRates.getD n [] = [] := by
      rw [List.getD_eq_getElem?_getD, List.getElem?_eq_none (by simp only [meanRates, List.length_cons, List.length_nil]; omega)]
      rfl
    unfold meanElement
    rw [this]
    simp
  simp only [hconst] at k2 k5 k6 k7
  refine ⟨e, k1, k2, k5, k6, same_trans k7 (same_sub (same_sub (same_refl _) (same_symm k5)) (same_symm k6)), ?_⟩
  intro hs
  obtain ⟨k, hk⟩ := same_trans (same_symm hs) k7
  have hp := pi_pos
  have h3 : meanElement n 0 3 + meanElement n 0 4 = 360 * k := by
    unfold radians at hk
    field_simp at hk
    linarith
  have h4 : (meanElements.getD n []).getD 3 0 + (meanElements.getD n []).getD 4 0 = 36000000000 * k := by
    have : (((meanElements.getD n []).getD 3 0 : ℤ) : ℝ) + (((meanElements.getD n []).getD 4 0 : ℤ) : ℝ) = 36000000000 * (k : ℝ) := by
      unfold meanElement at h3
      rw [mul_zero, mul_zero, add_zero, add_zero] at h3
      field_simp at h3
      linarith
    exact_mod_cast this
  have h5 : ∀ m < 15, 9 ≤ m → ((meanElements.getD m []).getD 3 0 + (meanElements.getD m []).getD 4 0) % 36000000000 ≠ 0 := by decide +kernel
  exact h5 n hn h9 (by rw [h4]; omega)

/-- Other numbers are refused. -/
theorem C95_range (i : ℤ) (t : ℝ) : setupPlanet i t = none ↔ i < 1 ∨ 15 < i := by
  unfold setupPlanet
  constructor
  · intro h
    by_contra hc
    rw [if_neg (by omega)] at h
    simp at h
  · intro h
    rw [if_pos (by omega)]

/-- For three thousand years before and after 2000 the orbits are ellipses, so that the search of C94 can use them. -/
theorem C95_closed {n : ℕ} (hn : n < 15) {t : ℝ} (h1 : -30 ≤ t) (h2 : t ≤ 30) : ∃ e, setupPlanet (n + 1) t = some (e, 2451545 + t * 36525) ∧
    Suits e (Conic.ofElements e.q e.ecc e.ascNode e.incl e.argPer) := by
  obtain ⟨e, k1, k2, k3, k4, -, -, -, -, -, -, -, k10⟩ := setup_all hn t
  have hb : 0 < meanElement n t 0 ∧ 0 < meanElement n t 1 ∧ meanElement n t 1 < 1 ∧ -90 < meanElement n t 2 ∧ meanElement n t 2 < 90 := by
    have ht : ∀ m < 15, 0 < (meanElements.getD m []).getD 0 0 - 30 * |(meanRates.getD m []).getD 0 0| ∧
        0 < (meanElements.getD m []).getD 1 0 - 30 * |(meanRates.getD m []).getD 1 0| ∧
        (meanElements.getD m []).getD 1 0 + 30 * |(meanRates.getD m []).getD 1 0| < 100000000 ∧
        -9000000000 < (meanElements.getD m []).getD 2 0 - 30 * |(meanRates.getD m []).getD 2 0| ∧
        (meanElements.getD m []).getD 2 0 + 30 * |(meanRates.getD m []).getD 2 0| < 9000000000 := by decide +kernel
    have hr : ∀ r : ℤ, -(30 * ((|r| : ℤ) : ℝ)) ≤ (r : ℝ) * t ∧ (r : ℝ) * t ≤ 30 * ((|r| : ℤ) : ℝ) := by
      intro r
      rw [Int.cast_abs, ← abs_le, abs_mul, mul_comm]
      exact mul_le_mul_of_nonneg_right (abs_le.mpr ⟨h1, h2⟩) (abs_nonneg _)
    obtain ⟨t1, t2, t3, t4, t5⟩ := ht n hn
    unfold meanElement
    have r0 := hr ((meanRates.getD n []).getD 0 0)
    have r1 := hr ((meanRates.getD n []).getD 1 0)
    have r2 := hr ((meanRates.getD n []).getD 2 0)
    generalize (meanRates.getD n []).getD 0 0 = a at *
    generalize (meanRates.getD n []).getD 1 0 = b at *
    generalize (meanRates.getD n []).getD 2 0 = c at *
    generalize (meanElements.getD n []).getD 0 0 = x at *
    generalize (meanElements.getD n []).getD 1 0 = y at *
    generalize (meanElements.getD n []).getD 2 0 = z at *
    have t1' : (0 : ℝ) < x - 30 * ((|a| : ℤ) : ℝ) := by exact_mod_cast t1
    have t2' : (0 : ℝ) < y - 30 * ((|b| : ℤ) : ℝ) := by exact_mod_cast t2
    have t3' : (y : ℝ) + 30 * ((|b| : ℤ) : ℝ) < 100000000 := by exact_mod_cast t3
    have t4' : (-9000000000 : ℝ) < z - 30 * ((|c| : ℤ) : ℝ) := by exact_mod_cast t4
    have t5' : (z : ℝ) + 30 * ((|c| : ℤ) : ℝ) < 9000000000 := by exact_mod_cast t5
    refine ⟨by apply div_pos <;> linarith, by apply div_pos <;> linarith, ?_, ?_, ?_⟩
    · rw [div_lt_iff₀ (by norm_num)]
      linarith
    · rw [lt_div_iff₀ (by norm_num)]
      linarith
    · rw [div_lt_iff₀ (by norm_num)]
      linarith
  obtain ⟨b0, b1, b1', b2, b2'⟩ := hb
  refine ⟨e, k1, k10 ?_ (by rw [k2]; exact b1.le) (by rw [k2]; exact b1') ?_⟩
  · rw [k3]
    exact mul_pos (by linarith) b0
  · rw [same_cos k4]
    have hp := pi_pos
    apply ne_of_gt
    apply cos_pos_of_mem_Ioo
    unfold radians
    constructor
    · nlinarith
    · nlinarith

example : ∃ e, setupPlanet 3 (-2) = some (e, 2378495) ∧ SameAngle (e.argPer + e.ascNode) (radians (meanElement 2 (-2) 4)) := by
  obtain ⟨e, h1, -, -, -, -, h2, -⟩ := C95_planets (n := 2) (by norm_num) (-2)
  norm_num at h1
  exact ⟨e, h1, h2⟩

example : ∃ e, setupPlanet 9 0 = some (e, 2451545) ∧ ¬ SameAngle (e.argPer + e.ascNode) (radians (meanElement 8 0 4)) := by
  obtain ⟨e, h1, -, h2, -⟩ := C95_pluto 0 (by norm_num) (by norm_num)
  norm_num at h1
  exact ⟨e, h1, h2⟩

example : ∃ e, setupPlanet 12 1 = some (e, 2488070) ∧ ¬ SameAngle e.meanAnomaly (radians (meanElement 11 0 5)) := by
  obtain ⟨e, h1, -, -, -, -, h2⟩ := C95_minor (n := 11) (by norm_num) (by norm_num) 1
  norm_num at h1
  exact ⟨e, h1, h2⟩

end Verif.Props
