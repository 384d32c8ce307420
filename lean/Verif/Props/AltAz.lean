import Mathlib.Tactic.FieldSimp
import Verif.Model.AltAz
import Verif.Props.Precess
import Verif.Spec.AltAz

/-!
# Property theorems: altitude and azimuth (C80), precession of a point (C81)
-/

namespace Verif.Props

open Verif Verif.Spec Verif.AltAz Real

/-- An arccosine with the sign of the sine gives the angle. -/
theorem arccos_dir {c s : ℝ} (h : c ^ 2 + s ^ 2 = 1) : cos (arccos c) = c ∧ sin (arccos c) = |s| := by
  refine ⟨cos_arccos (by nlinarith [sq_nonneg s]) (by nlinarith [sq_nonneg s]), ?_⟩
  rw [sin_arccos, show 1 - c ^ 2 = s ^ 2 by linarith, Real.sqrt_sq_eq_abs]

theorem cos_arcsin_pos {x : ℝ} : 0 ≤ cos (arcsin x) := by rw [cos_arcsin]; exact Real.sqrt_nonneg _

/-- The three components are those of a unit vector. -/
theorem horizon_unit (a b l : ℝ) :
    (sin l * sin b + cos l * cos b * cos a) ^ 2 + (cos l * sin b - sin l * cos b * cos a) ^ 2 + (cos b * sin a) ^ 2 = 1 := by
  linear_combination (sin b ^ 2 + cos b ^ 2 * cos a ^ 2) * sin_sq_add_cos_sq l + cos b ^ 2 * sin_sq_add_cos_sq a + sin_sq_add_cos_sq b

theorem horizon_bound (a b l : ℝ) :
    -1 ≤ sin l * sin b + cos l * cos b * cos a ∧ sin l * sin b + cos l * cos b * cos a ≤ 1 := by
  have := horizon_unit a b l
  constructor <;>
    nlinarith [sq_nonneg (cos l * sin b - sin l * cos b * cos a), sq_nonneg (cos b * sin a)]

/-- The direction seen at an altitude and azimuth: the other way round. -/
theorem seen_back {h dec lat alt az : ℝ} (k : SeenAt h dec lat alt az) : SeenAt az alt lat dec h := by
  obtain ⟨k1, k2, k3⟩ := k
  have hl := sin_sq_add_cos_sq lat
  refine ⟨?_, ?_, k3.symm⟩
  · rw [mul_assoc, k2, k1]; linear_combination -sin dec * hl
  · rw [mul_assoc, k2, k1]; linear_combination -(cos dec * cos h) * hl

/-- C80: away from the poles the altitude and azimuth are right, the azimuth being counted from south over west; there is an azimuth unless the
    direction is that of the zenith or the nadir. -/
theorem C80_alt_az {h dec lat : ℝ} (hl : 1 / 100000 ≤ cos lat) (hd : |dec| ≤ π / 2) :
    |(toAltAz h dec lat).1| ≤ π / 2 ∧
    ((∃ az, (toAltAz h dec lat).2 = some az ∧ |az| ≤ π ∧ SeenAt h dec lat (toAltAz h dec lat).1 (az + π)) ∨
      (toAltAz h dec lat).2 = none ∧ |sin (toAltAz h dec lat).1| = 1) := by
  have hcd : 0 ≤ cos dec := cos_nonneg_of_mem_Icc (abs_le.mp hd)
  have hl0 : 0 < cos lat := by linarith
  have hu := horizon_unit h dec lat
  obtain ⟨hb1, hb2⟩ := horizon_bound h dec lat
  have hsa := sin_arcsin hb1 hb2
  have hca := cos_arcsin_pos (x := sin lat * sin dec + cos lat * cos dec * cos h)
  have hll := sin_sq_add_cos_sq lat
  have hra : |arcsin (sin lat * sin dec + cos lat * cos dec * cos h)| ≤ π / 2 :=
    abs_le.mpr ⟨neg_pi_div_two_le_arcsin _, arcsin_le_pi_div_two _⟩
  unfold toAltAz
  simp only
  rw [if_neg (not_lt.mpr hl)]
  generalize arcsin (sin lat * sin dec + cos lat * cos dec * cos h) = alt at *
  have hsc := sin_sq_add_cos_sq alt
  by_cases h0 : cos alt * cos lat = 0
  · rw [if_pos h0]
    refine ⟨hra, Or.inr ⟨rfl, ?_⟩⟩
    have : cos alt = 0 := (mul_eq_zero.mp h0).resolve_right hl0.ne'
    rw [this] at hsc
    simp only
    exact (sq_eq_sq₀ (abs_nonneg _) zero_le_one).mp (by rw [sq_abs]; linarith)
  · rw [if_neg h0]
    have hc : 0 < cos alt := lt_of_le_of_ne hca (fun k => h0 (by rw [← k, zero_mul]))
    have hT : (sin dec - sin alt * sin lat) / (cos alt * cos lat) = (cos lat * sin dec - sin lat * cos dec * cos h) / cos alt := by
      rw [div_eq_div_iff h0 hc.ne', hsa]
      linear_combination -sin dec * cos alt * hll
    rw [hT]
    obtain ⟨hcos, hsin⟩ := arccos_dir (c := (cos lat * sin dec - sin lat * cos dec * cos h) / cos alt) (s := cos dec * sin h / cos alt) (by
      field_simp
      nlinarith)
    rw [abs_div, abs_mul, abs_of_nonneg hcd, abs_of_pos hc] at hsin
    have ha0 := arccos_nonneg ((cos lat * sin dec - sin lat * cos dec * cos h) / cos alt)
    have ha1 := arccos_le_pi ((cos lat * sin dec - sin lat * cos dec * cos h) / cos alt)
    generalize arccos ((cos lat * sin dec - sin lat * cos dec * cos h) / cos alt) = A at *
    refine ⟨hra, Or.inl ⟨_, rfl, ?_, hsa, ?_⟩⟩
    · split_ifs
      · rw [abs_le]; constructor <;> linarith
      · rw [abs_le]; constructor <;> linarith
    · simp only
      split_ifs with hs
      · rw [abs_of_neg hs] at hsin
        rw [show π - A + π = -A + 2 * π by ring, cos_add_two_pi, sin_add_two_pi, cos_neg, sin_neg, hcos, hsin]
        constructor <;> field_simp
      · rw [abs_of_nonneg (not_lt.mp hs)] at hsin
        rw [show -(π - A) + π = A by ring, hcos, hsin]
        constructor <;> field_simp

theorem over_top {alt az : ℝ} (h1 : -(3 * π / 2) ≤ alt) (h2 : alt ≤ 5 * π / 2) :
    |(overTop alt az).1| ≤ π / 2 ∧ sin (overTop alt az).1 = sin alt ∧ cos (overTop alt az).1 * cos (overTop alt az).2 = cos alt * cos az ∧
      cos (overTop alt az).1 * sin (overTop alt az).2 = cos alt * sin az := by
  have hp := pi_pos
  unfold overTop
  simp only
  split_ifs with a b c <;> simp only at *
  · refine ⟨abs_le.mpr ⟨by linarith, by linarith⟩, ?_, ?_, ?_⟩
    · rw [show -π - (π - alt) = alt - 2 * π by ring, sin_sub_two_pi]
    · rw [show -π - (π - alt) = alt - 2 * π by ring, cos_sub_two_pi, show az + π - π = az by ring]
    · rw [show -π - (π - alt) = alt - 2 * π by ring, cos_sub_two_pi, show az + π - π = az by ring]
  · refine ⟨abs_le.mpr ⟨by linarith, by linarith⟩, sin_pi_sub _, ?_, ?_⟩
    · rw [cos_pi_sub, cos_add_pi]; ring
    · rw [cos_pi_sub, sin_add_pi]; ring
  · have e : -π - alt = -(alt + π) := by ring
    refine ⟨abs_le.mpr ⟨by linarith, by linarith⟩, ?_, ?_, ?_⟩
    · rw [e, sin_neg, sin_add_pi, neg_neg]
    · rw [e, cos_neg, cos_add_pi, cos_sub_pi]; ring
    · rw [e, cos_neg, cos_add_pi, sin_sub_pi]; ring
  · exact ⟨abs_le.mpr ⟨by linarith, by linarith⟩, trivial, trivial, trivial⟩

/-- C80: away from the poles the hour angle and declination are right, the azimuth being counted from north over east; there is an hour angle
    unless the direction is that of a celestial pole.  Altitudes past the zenith or the nadir are understood. -/
theorem C80_ra_dec {alt az lat : ℝ} (hl : 1 / 100000 ≤ cos lat) (h1 : -(3 * π / 2) ≤ alt) (h2 : alt ≤ 5 * π / 2) :
    |(toRaDec alt az lat).2| ≤ π / 2 ∧
    ((∃ h, (toRaDec alt az lat).1 = some h ∧ 0 ≤ h ∧ h ≤ 2 * π ∧ SeenAt h (toRaDec alt az lat).2 lat alt az) ∨
      (toRaDec alt az lat).1 = none ∧ |sin (toRaDec alt az lat).2| = 1) := by
  obtain ⟨ha, hs, hc, hz⟩ := over_top (az := az) h1 h2
  unfold toRaDec
  simp only
  generalize (overTop alt az).1 = alt' at *
  generalize (overTop alt az).2 = az' at *
  have hl0 : 0 < cos lat := by linarith
  have hca' : 0 ≤ cos alt' := cos_nonneg_of_mem_Icc (abs_le.mp ha)
  have hu := horizon_unit az' alt' lat
  obtain ⟨hb1, hb2⟩ := horizon_bound az' alt' lat
  have hsa := sin_arcsin hb1 hb2
  have hca := cos_arcsin_pos (x := sin lat * sin alt' + cos lat * cos alt' * cos az')
  have hll := sin_sq_add_cos_sq lat
  have hra : |arcsin (sin lat * sin alt' + cos lat * cos alt' * cos az')| ≤ π / 2 :=
    abs_le.mpr ⟨neg_pi_div_two_le_arcsin _, arcsin_le_pi_div_two _⟩
  rw [if_neg (not_lt.mpr hl)]
  generalize arcsin (sin lat * sin alt' + cos lat * cos alt' * cos az') = dec at *
  have hsc := sin_sq_add_cos_sq dec
  by_cases h0 : cos lat * cos dec = 0
  · rw [if_pos h0]
    refine ⟨hra, Or.inr ⟨rfl, ?_⟩⟩
    have : cos dec = 0 := (mul_eq_zero.mp h0).resolve_left hl0.ne'
    rw [this] at hsc
    simp only
    exact (sq_eq_sq₀ (abs_nonneg _) zero_le_one).mp (by rw [sq_abs]; linarith)
  · rw [if_neg h0]
    have hcd : 0 < cos dec := lt_of_le_of_ne hca (fun k => h0 (by rw [← k, mul_zero]))
    have hT : (sin alt' - sin lat * (sin lat * sin alt' + cos lat * cos alt' * cos az')) / (cos lat * cos dec) =
        (cos lat * sin alt' - sin lat * cos alt' * cos az') / cos dec := by
      rw [div_eq_div_iff h0 hcd.ne']
      linear_combination -sin alt' * cos dec * hll
    rw [hT, arccos_neg]
    obtain ⟨hcos, hsin⟩ := arccos_dir (c := (cos lat * sin alt' - sin lat * cos alt' * cos az') / cos dec) (s := cos alt' * sin az' / cos dec) (by
      field_simp
      nlinarith)
    rw [abs_div, abs_mul, abs_of_nonneg hca', abs_of_pos hcd] at hsin
    have ha0 := arccos_nonneg ((cos lat * sin alt' - sin lat * cos alt' * cos az') / cos dec)
    have ha1 := arccos_le_pi ((cos lat * sin alt' - sin lat * cos alt' * cos az') / cos dec)
    generalize arccos ((cos lat * sin alt' - sin lat * cos alt' * cos az') / cos dec) = A at *
    refine ⟨hra, Or.inl ⟨_, rfl, ?_, ?_, ?_⟩⟩
    · split_ifs <;> linarith
    · split_ifs <;> linarith
    · have key : ∀ h, cos h = (cos lat * sin alt' - sin lat * cos alt' * cos az') / cos dec → sin h = cos alt' * sin az' / cos dec →
          SeenAt h dec lat alt az := by
        intro h e1 e2
        apply seen_back
        refine ⟨?_, ?_, ?_⟩
        · rw [hsa, ← hs, mul_assoc, mul_assoc, hc]
        · rw [e1, ← hs]
          field_simp
          rw [mul_assoc, hc, mul_assoc]
        · rw [e2, ← hz]
          field_simp
      simp only
      split_ifs with k
      · rw [abs_of_pos k] at hsin
        exact key _ (by rw [show π - (π - A) = A by ring, hcos]) (by rw [show π - (π - A) = A by ring, hsin])
      · rw [abs_of_nonpos (not_lt.mp k)] at hsin
        refine key _ ?_ ?_
        · rw [show π + (π - A) = -A + 2 * π by ring, cos_add_two_pi, cos_neg, hcos]
        · rw [show π + (π - A) = -A + 2 * π by ring, sin_add_two_pi, sin_neg, hsin]; ring

/-- Two directions seen at the same place are the same. -/
theorem seen_unique {h h' dec dec' lat alt az : ℝ} (k : SeenAt h dec lat alt az) (k' : SeenAt h' dec' lat alt az) (hd : |dec| ≤ π / 2)
    (hd' : |dec'| ≤ π / 2) (hc : cos dec ≠ 0) : dec' = dec ∧ cos h' = cos h ∧ sin h' = sin h := by
  obtain ⟨a1, a2, a3⟩ := seen_back k
  obtain ⟨b1, b2, b3⟩ := seen_back k'
  have e : dec' = dec := injOn_sin (abs_le.mp hd' |> fun x => ⟨by linarith [x.1], x.2⟩) (abs_le.mp hd |> fun x => ⟨by linarith [x.1], x.2⟩)
    (by rw [a1, b1])
  subst e
  exact ⟨rfl, mul_left_cancel₀ hc (by rw [a2, b2]), mul_left_cancel₀ hc (by rw [a3, b3])⟩

/-- C80: half a turn added to the azimuth found, the direction comes back. -/
theorem C80_back {h dec lat az : ℝ} (hl : 1 / 100000 ≤ cos lat) (hd : |dec| < π / 2) (hz : (toAltAz h dec lat).2 = some az) :
    ∃ h', toRaDec (toAltAz h dec lat).1 (az + π) lat = (some h', dec) ∧ cos h' = cos h ∧ sin h' = sin h := by
  have hp := pi_pos
  have hcd : 0 < cos dec := cos_pos_of_mem_Ioo (abs_lt.mp hd)
  obtain ⟨r1, ⟨az', e1, -, e3⟩ | ⟨e1, -⟩⟩ := C80_alt_az (h := h) hl hd.le
  · rw [hz, Option.some.injEq] at e1
    subst e1
    obtain ⟨r2, r3⟩ := abs_le.mp r1
    obtain ⟨q1, ⟨h', f1, -, -, f4⟩ | ⟨f1, f2⟩⟩ := C80_ra_dec (az := az + π) hl (show -(3 * π / 2) ≤ (toAltAz h dec lat).1 by linarith) (by linarith)
    · obtain ⟨g1, g2, g3⟩ := seen_unique e3 f4 hd.le q1 hcd.ne'
      exact ⟨h', Prod.ext f1 g1, g2, g3⟩
    · exfalso
      have hs : sin (toRaDec (toAltAz h dec lat).1 (az + π) lat).2 = sin dec := by
        obtain ⟨k1, k2, -⟩ := seen_back e3
        obtain ⟨o1, o2, o3, o4⟩ := over_top (az := az + π) (show -(3 * π / 2) ≤ (toAltAz h dec lat).1 by linarith) (by linarith)
        have hb := horizon_bound (overTop (toAltAz h dec lat).1 (az + π)).2 (overTop (toAltAz h dec lat).1 (az + π)).1 lat
        unfold toRaDec
        simp only
        rw [if_neg (not_lt.mpr hl), k1]
        split_ifs <;> simp only <;> rw [sin_arcsin hb.1 hb.2, o2, mul_assoc, o3, mul_assoc]
      rw [hs] at f2
      have f3 := sq_abs (sin dec)
      rw [f2] at f3
      nlinarith [sin_sq_add_cos_sq dec]
  · rw [hz] at e1
    cases e1

/-- C80 (finding): as the azimuth found is put back, the declination found differs, unless the direction is due east or west. -/
theorem C80_mismatch {h dec lat az : ℝ} (hl : 1 / 100000 ≤ cos lat) (hd : |dec| < π / 2) (hz : (toAltAz h dec lat).2 = some az)
    (hne : cos lat * sin dec ≠ sin lat * cos dec * cos h) : (toRaDec (toAltAz h dec lat).1 az lat).2 ≠ dec := by
  have hp := pi_pos
  obtain ⟨r1, ⟨az', e1, -, e3⟩ | ⟨e1, -⟩⟩ := C80_alt_az (h := h) hl hd.le
  · rw [hz, Option.some.injEq] at e1
    subst e1
    obtain ⟨r2, r3⟩ := abs_le.mp r1
    obtain ⟨o1, o2, o3, o4⟩ := over_top (az := az) (show -(3 * π / 2) ≤ (toAltAz h dec lat).1 by linarith) (by linarith)
    have hb := horizon_bound (overTop (toAltAz h dec lat).1 az).2 (overTop (toAltAz h dec lat).1 az).1 lat
    intro k
    have hs : sin (toRaDec (toAltAz h dec lat).1 az lat).2 =
        sin lat * sin (toAltAz h dec lat).1 + cos lat * (cos (toAltAz h dec lat).1 * cos az) := by
      unfold toRaDec
      simp only
      rw [if_neg (not_lt.mpr hl)]
      split_ifs <;> simp only <;> rw [sin_arcsin hb.1 hb.2, o2, mul_assoc, o3]
    obtain ⟨k1, k2, -⟩ := seen_back e3
    have hn := e3.2.1
    rw [k, k1, cos_add_pi] at hs
    rw [cos_add_pi] at hn
    have h0 : cos lat * (cos lat * sin dec - sin lat * cos dec * cos h) = 0 := by rw [← hn]; linear_combination hs / 2
    rcases mul_eq_zero.mp h0 with h0 | h0
    · linarith
    · exact hne (by linarith)
  · rw [hz] at e1
    cases e1

/-- C80 (finding): at the poles of the earth both directions are wrong: the azimuth goes round the wrong way at the north pole and is half a
    turn off at the south pole, and the hour angle likewise. -/
theorem C80_poles {h dec alt az : ℝ} (hd : |dec| < π / 2) (ha : |alt| < π / 2) :
    (sin h ≠ 0 → ∃ z, (toAltAz h dec (π / 2)).2 = some z ∧ ¬ SeenAt h dec (π / 2) (toAltAz h dec (π / 2)).1 (z + π)) ∧
    (∃ z, (toAltAz h dec (-(π / 2))).2 = some z ∧ ¬ SeenAt h dec (-(π / 2)) (toAltAz h dec (-(π / 2))).1 (z + π)) ∧
    (sin az ≠ 0 → ∃ g, (toRaDec alt az (π / 2)).1 = some g ∧ ¬ SeenAt g (toRaDec alt az (π / 2)).2 (π / 2) alt az) ∧
    (∃ g, (toRaDec alt az (-(π / 2))).1 = some g ∧ ¬ SeenAt g (toRaDec alt az (-(π / 2))).2 (-(π / 2)) alt az) := by
  have hcd : 0 < cos dec := cos_pos_of_mem_Ioo (abs_lt.mp hd)
  have hca : 0 < cos alt := cos_pos_of_mem_Ioo (abs_lt.mp ha)
  obtain ⟨d1, d2⟩ := abs_lt.mp hd
  obtain ⟨a1, a2⟩ := abs_lt.mp ha
  have ht : overTop alt az = (alt, az) := by
    unfold overTop
    rw [if_neg (not_lt.mpr a2.le)]
    simp only
    rw [if_neg (show ¬ alt < -π / 2 by linarith)]
  have hA : toAltAz h dec (π / 2) = (dec, some h) := by
    unfold toAltAz
    simp only [cos_pi_div_two, sin_pi_div_two, one_mul, zero_mul, add_zero]
    rw [if_pos (by norm_num), arcsin_sin d1.le d2.le]
  have hB : toAltAz h dec (-(π / 2)) = (-dec, some h) := by
    unfold toAltAz
    simp only [cos_neg, sin_neg, cos_pi_div_two, sin_pi_div_two, zero_mul, add_zero, neg_mul, one_mul]
    rw [if_pos (by norm_num), ← sin_neg, arcsin_sin (by linarith) (by linarith)]
  have hC : toRaDec alt az (π / 2) = (some (az + π), alt) := by
    unfold toRaDec
    simp only [ht, cos_pi_div_two, sin_pi_div_two, one_mul, zero_mul, add_zero]
    rw [if_pos (by norm_num), arcsin_sin a1.le a2.le]
  have hD : toRaDec alt az (-(π / 2)) = (some (az + π), -alt) := by
    unfold toRaDec
    simp only [ht, cos_neg, sin_neg, cos_pi_div_two, sin_pi_div_two, zero_mul, add_zero, neg_mul, one_mul]
    rw [if_pos (by norm_num), ← sin_neg, arcsin_sin (by linarith) (by linarith)]
  rw [hA, hB, hC, hD]
  have hz : ∀ x y : ℝ, 0 < x → x * y = 0 → y = 0 := fun x y hx hxy => (mul_eq_zero.mp hxy).resolve_left hx.ne'
  refine ⟨fun hs => ⟨h, rfl, fun k => ?_⟩, ⟨h, rfl, fun k => ?_⟩, fun hs => ⟨az + π, rfl, fun k => ?_⟩, ⟨az + π, rfl, fun k => ?_⟩⟩
  · have k3 := k.2.2
    simp only [sin_add_pi] at k3
    exact hs (hz _ _ hcd (by linarith))
  · obtain ⟨-, k2, k3⟩ := k
    simp only [cos_add_pi, sin_add_pi, cos_neg, sin_neg, cos_pi_div_two, sin_pi_div_two] at k2 k3
    have e1 := hz _ _ hcd (show cos dec * cos h = 0 by linarith)
    have e2 := hz _ _ hcd (show cos dec * sin h = 0 by linarith)
    have := sin_sq_add_cos_sq h
    rw [e1, e2] at this
    norm_num at this
  · have k3 := k.2.2
    simp only [sin_add_pi] at k3
    exact hs (hz _ _ hca (by linarith))
  · obtain ⟨-, k2, k3⟩ := k
    simp only [cos_add_pi, sin_add_pi, cos_neg, sin_neg, cos_pi_div_two, sin_pi_div_two] at k2 k3
    have e1 := hz _ _ hca (show cos alt * cos az = 0 by linarith)
    have e2 := hz _ _ hca (show cos alt * sin az = 0 by linarith)
    have := sin_sq_add_cos_sq az
    rw [e1, e2] at this
    norm_num at this

/-- C80: the hour angle is within half a turn and differs by whole turns from the right ascension less the sidereal time. -/
theorem C80_hour_angle (x sidereal lon nut : ℝ) :
    |hourAngle x sidereal lon nut| ≤ π ∧ ∃ n : ℤ, hourAngle x sidereal lon nut = -x - (sidereal + lon) - nut + n * (2 * π) := by
  have hp := pi_pos
  unfold hourAngle
  simp only
  generalize -x - (sidereal + lon) - nut = y
  have hf : |fmod y (2 * π)| < 2 * π ∧ ∃ n : ℤ, fmod y (2 * π) = y + n * (2 * π) := by
    unfold fmod
    have e : y = 2 * π * (y / (2 * π)) := by field_simp
    split_ifs with h
    · refine ⟨?_, -⌊y / (2 * π)⌋, by push_cast; ring⟩
      have h1 := Int.floor_le (y / (2 * π))
      have h2 := Int.lt_floor_add_one (y / (2 * π))
      generalize (⌊y / (2 * π)⌋ : ℝ) = k at *
      rw [abs_lt]
      constructor <;> nlinarith
    · refine ⟨?_, -⌈y / (2 * π)⌉, by push_cast; ring⟩
      have h1 := Int.le_ceil (y / (2 * π))
      have h2 := Int.ceil_lt_add_one (y / (2 * π))
      generalize (⌈y / (2 * π)⌉ : ℝ) = k at *
      rw [abs_lt]
      constructor <;> nlinarith
  obtain ⟨h1, n, hn⟩ := hf
  generalize fmod y (2 * π) = z at *
  obtain ⟨h2, h3⟩ := abs_lt.mp h1
  split_ifs with a b c
  · linarith
  · exact ⟨abs_le.mpr ⟨by linarith, by linarith⟩, n - 1, by rw [hn]; push_cast; ring⟩
  · exact ⟨abs_le.mpr ⟨by linarith, by linarith⟩, n + 1, by rw [hn]; push_cast; ring⟩
  · exact ⟨abs_le.mpr ⟨by linarith, by linarith⟩, n, hn⟩

open Verif.Precess Matrix in
/-- C81: a point is precessed by the rotation from the one year to the other; its first coordinate is the right ascension with the opposite sign. -/
theorem C81_pt {st : Cache} {ob : OblCache} (h : Reached st) (k : OblReached ob) (p : ℝ × ℝ) {a b : ℝ} (hg : ¬ Garbage a b) (hab : a ≠ b) :
    let q := (precessPt st ob p a b).1
    direction (-q.1) q.2 =
        image (spin 1 2 (obliquity ((b - 2000) / 100)) * (between a b * (spin 1 2 (obliquity ((a - 2000) / 100)))ᵀ)) (direction (-p.1) p.2) ∧
      |q.2| ≤ π / 2 ∧ |q.1 - p.1| ≤ π := by
  have hg' : ¬ Garbage b a := fun k => hg (k.symm.imp (fun x => ⟨x.2, x.1⟩) (fun x => ⟨x.2, x.1⟩))
  simp only
  unfold precessPt
  rw [if_neg hab]
  by_cases ha : a = 2000
  · rw [if_pos ha]
    simp only
    subst ha
    obtain ⟨s1, s2, -⟩ := C81_setup h h k k hg'
    obtain ⟨r1, r2, r3⟩ := C81_ra_dec s2.1 (-p.1, p.2) true
    refine ⟨?_, r2, ?_⟩
    · rw [neg_neg, r1, if_pos rfl, s1, between_back 2000 b]
      simp only [Matrix.transpose_mul, Matrix.transpose_transpose, Matrix.mul_assoc]
    · rw [abs_sub_comm] at r3
      convert r3 using 2
      ring
  · rw [if_neg ha]
    simp only
    obtain ⟨s1, s2, -⟩ := C81_setup h h k k hg
    obtain ⟨r1, r2, r3⟩ := C81_ra_dec s2.1 (-p.1, p.2) false
    refine ⟨?_, r2, ?_⟩
    · rw [neg_neg, r1, if_neg (by decide), s1]
    · rw [abs_sub_comm] at r3
      convert r3 using 2
      ring

/-- The hypotheses are met: a star on the equator, six hours east, seen from the equator, is due east on the horizon. -/
example : (1 : ℝ) / 100000 ≤ cos 0 ∧ |(0 : ℝ)| < π / 2 ∧ toAltAz (π / 2) 0 0 = (0, some (-(π / 2))) := by
  have hp := pi_pos
  refine ⟨by rw [cos_zero]; norm_num, by rw [abs_zero]; linarith, ?_⟩
  unfold toAltAz
  norm_num
  ring

/-- And those of the finding: a star on the meridian and the equator, seen from a latitude of 60 degrees. -/
example : (1 : ℝ) / 100000 ≤ cos (π / 3) ∧ cos (π / 3) * sin 0 ≠ sin (π / 3) * cos 0 * cos 0 := by
  refine ⟨by rw [cos_pi_div_three]; norm_num, ?_⟩
  rw [sin_zero, cos_zero, sin_pi_div_three]
  have : (0 : ℝ) < Real.sqrt 3 := by positivity
  intro h
  linarith

end Verif.Props
