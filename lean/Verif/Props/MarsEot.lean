import Verif.Model.MarsEot
import Verif.Props.Mars
import Mathlib.Analysis.SpecialFunctions.Trigonometric.Bounds
import Mathlib.Tactic.Positivity

/-!
# Property theorems: Martian true solar time with the code's own equation of time (C59)
-/

namespace Verif.Props

open Verif Verif.Mars

/-- `f` changes by at most `L` per day, for times within a million days of J2000. -/
def Lip (L : ℝ) (f : ℝ → ℝ) : Prop := ∀ a b, |a| ≤ 1000000 → |b| ≤ 1000000 → |f a - f b| ≤ L * |a - b|

theorem Lip.weaken {L M : ℝ} {f : ℝ → ℝ} (h : Lip L f) (hl : L ≤ M) : Lip M f := fun a b ha hb =>
  le_trans (h a b ha hb) (mul_le_mul_of_nonneg_right hl (abs_nonneg _))

theorem Lip.add {L M : ℝ} {f g : ℝ → ℝ} (hf : Lip L f) (hg : Lip M g) : Lip (L + M) fun t => f t + g t := by
  intro a b ha hb
  have h1 := hf a b ha hb
  have h2 := hg a b ha hb
  have e : f a + g a - (f b + g b) = (f a - f b) + (g a - g b) := by ring
  simp only [e]
  have := abs_add_le (f a - f b) (g a - g b)
  linarith

theorem Lip.sub {L M : ℝ} {f g : ℝ → ℝ} (hf : Lip L f) (hg : Lip M g) : Lip (L + M) fun t => f t - g t := by
  intro a b ha hb
  have h1 := hf a b ha hb
  have h2 := hg a b ha hb
  have e : f a - g a - (f b - g b) = (f a - f b) - (g a - g b) := by ring
  simp only [e]
  have := abs_sub (f a - f b) (g a - g b)
  linarith

theorem Lip.mul {L : ℝ} {f : ℝ → ℝ} (c : ℝ) (hc : 0 ≤ c) (hf : Lip L f) : Lip (c * L) fun t => c * f t := by
  intro a b ha hb
  have h1 := mul_le_mul_of_nonneg_left (hf a b ha hb) hc
  rw [← mul_sub, abs_mul, abs_of_nonneg hc]
  linarith

theorem Lip.sin {L : ℝ} {f : ℝ → ℝ} (hf : Lip L f) : Lip L fun t => Real.sin (f t) := fun a b ha hb =>
  le_trans (Real.abs_sin_sub_sin_le _ _) (hf a b ha hb)

theorem Lip.cos {L : ℝ} {f : ℝ → ℝ} (hf : Lip L f) : Lip L fun t => Real.cos (f t) := fun a b ha hb =>
  le_trans (Real.abs_cos_sub_cos_le _ _) (hf a b ha hb)

theorem Lip.linear (c k : ℝ) (hk : 0 ≤ k) : Lip k fun t => c + k * t := by
  intro a b _ _
  rw [show c + k * a - (c + k * b) = k * (a - b) by ring, abs_mul, abs_of_nonneg hk]

theorem Lip.linear' (c k : ℝ) (hk : 0 ≤ k) : Lip k fun t => k * t + c := by
  intro a b _ _
  rw [show k * a + c - (k * b + c) = k * (a - b) by ring, abs_mul, abs_of_nonneg hk]

/-- The only product: an amplitude drifting with time. -/
theorem Lip.drift {L : ℝ} {f : ℝ → ℝ} (c k : ℝ) (hc : 0 ≤ c) (hk : 0 ≤ k) (hf : Lip L f) (hL : 0 ≤ L) :
    Lip ((c + k * 1000000) * L + k) fun t => (c + k * t) * Real.sin (f t) := by
  intro a b ha hb
  have e : (c + k * a) * Real.sin (f a) - (c + k * b) * Real.sin (f b) =
      (c + k * a) * (Real.sin (f a) - Real.sin (f b)) + k * (a - b) * Real.sin (f b) := by ring
  have h1 : |c + k * a| ≤ c + k * 1000000 := by
    have := abs_add_le c (k * a)
    rw [abs_mul, abs_of_nonneg hc, abs_of_nonneg hk] at this
    nlinarith
  have h2 := hf.sin a b ha hb
  have h3 := Real.abs_sin_le_one (f b)
  simp only [e]
  refine le_trans (abs_add_le _ _) ?_
  rw [abs_mul, abs_mul, abs_mul, abs_of_nonneg hk]
  have h4 : |c + k * a| * |Real.sin (f a) - Real.sin (f b)| ≤ (c + k * 1000000) * (L * |a - b|) :=
    mul_le_mul h1 h2 (abs_nonneg _) (by positivity)
  have h5 : k * |a - b| * |Real.sin (f b)| ≤ k * |a - b| * 1 := mul_le_mul_of_nonneg_left h3 (by positivity)
  nlinarith

theorem d2r_bounds : (174532 / 10000000 : ℝ) ≤ D2R ∧ D2R ≤ 174533 / 10000000 := by
  unfold D2R piLit; constructor <;> norm_num

theorem pi_bounds : (31415 / 10000 : ℝ) ≤ piLit ∧ piLit ≤ 31416 / 10000 := by
  unfold piLit; constructor <;> norm_num

theorem meanAnom_lip : Lip (92 / 10000) meanAnom := by
  obtain ⟨d1, d2⟩ := d2r_bounds
  exact (Lip.linear (193871 / 10000 * D2R) (52402073 / 100000000 * D2R) (by linarith)).weaken (by linarith)

theorem aFms_lip : Lip (92 / 10000) aFms := by
  obtain ⟨d1, d2⟩ := d2r_bounds
  exact (Lip.linear (2703871 / 10000 * D2R) (524038496 / 1000000000 * D2R) (by linarith)).weaken (by linarith)

theorem pert_lip (a p ph : ℝ) (ha : 0 ≤ a) (ha' : a ≤ 71 / 10000) (hp : 1 ≤ p) :
    Lip (3 / 1000000) fun t => a * D2R * Real.cos (tconst / p * t + ph * D2R) := by
  obtain ⟨d1, d2⟩ := d2r_bounds
  obtain ⟨p1, p2⟩ := pi_bounds
  have ht : 0 ≤ tconst ∧ tconst ≤ 173 / 10000 := by unfold tconst; constructor <;> linarith
  have hq : 0 ≤ tconst / p := div_nonneg ht.1 (by linarith)
  have hq' : tconst / p ≤ 173 / 10000 := le_trans (div_le_self ht.1 hp) ht.2
  refine ((Lip.linear' (ph * D2R) (tconst / p) hq).cos.mul (a * D2R) (by positivity)).weaken ?_
  have h1 : a * D2R ≤ 71 / 10000 * (174533 / 10000000) := mul_le_mul ha' d2 (by linarith) (by norm_num)
  calc a * D2R * (tconst / p) ≤ 71 / 10000 * (174533 / 10000000) * (173 / 10000) :=
        mul_le_mul h1 hq' hq (by norm_num)
    _ ≤ _ := by norm_num

theorem pbs_lip : Lip (21 / 1000000) pbs := by
  have h : ∀ t, pbs t = 0
      + 71 / 10000 * D2R * Real.cos (tconst / (22353 / 10000) * t + 49409 / 1000 * D2R)
      + 57 / 10000 * D2R * Real.cos (tconst / (27543 / 10000) * t + 168173 / 1000 * D2R)
      + 39 / 10000 * D2R * Real.cos (tconst / (11177 / 10000) * t + 191837 / 1000 * D2R)
      + 37 / 10000 * D2R * Real.cos (tconst / (157866 / 10000) * t + 21736 / 1000 * D2R)
      + 21 / 10000 * D2R * Real.cos (tconst / (21354 / 10000) * t + 15704 / 1000 * D2R)
      + 20 / 10000 * D2R * Real.cos (tconst / (24694 / 10000) * t + 95528 / 1000 * D2R)
      + 18 / 10000 * D2R * Real.cos (tconst / (328493 / 10000) * t + 49095 / 1000 * D2R) := fun t => rfl
  rw [show pbs = _ from funext h]
  have h0 : Lip 0 fun _ => (0 : ℝ) := by intro a b _ _; simp
  refine ((((((((h0.add (pert_lip _ _ _ (by norm_num) (by norm_num) (by norm_num))).add
    (pert_lip _ _ _ (by norm_num) (by norm_num) (by norm_num))).add
    (pert_lip _ _ _ (by norm_num) (by norm_num) (by norm_num))).add
    (pert_lip _ _ _ (by norm_num) (by norm_num) (by norm_num))).add
    (pert_lip _ _ _ (by norm_num) (by norm_num) (by norm_num))).add
    (pert_lip _ _ _ (by norm_num) (by norm_num) (by norm_num))).add
    (pert_lip _ _ _ (by norm_num) (by norm_num) (by norm_num)))).weaken (by norm_num)

theorem vMinusM_lip : Lip (21 / 10000) vMinusM := by
  obtain ⟨d1, d2⟩ := d2r_bounds
  have hm := meanAnom_lip
  have hs : ∀ k c : ℝ, 0 ≤ k → 0 ≤ c → Lip (c * D2R * (k * (92 / 10000))) fun t => c * D2R * Real.sin (k * meanAnom t) :=
    fun k c hk hc => ((hm.mul k hk).sin).mul (c * D2R) (mul_nonneg hc (by linarith))
  refine ((((((Lip.drift (10691 / 1000 * D2R) (3 / 10000000 * D2R) (by linarith) (by linarith) hm (by norm_num)).add
    (hs 2 (623 / 1000) (by norm_num) (by norm_num))).add (hs 3 (50 / 1000) (by norm_num) (by norm_num))).add
    (hs 4 (5 / 1000) (by norm_num) (by norm_num))).add (hs 5 (5 / 10000) (by norm_num) (by norm_num))).add
    pbs_lip).weaken ?_
  linarith

theorem longitude_lip : Lip (113 / 10000) longitudeSun := (aFms_lip.add vMinusM_lip).weaken (by norm_num)

/-- **C59.** The equation of time changes by at most 0.00053 sols (46 seconds) per day. -/
theorem C59_rate (a b : ℝ) (ha : |a - 2451545| ≤ 1000000) (hb : |b - 2451545| ≤ 1000000) :
    |eqnOfTime a - eqnOfTime b| ≤ 53 / 100000 * |a - b| := by
  obtain ⟨p1, p2⟩ := pi_bounds
  have hl := longitude_lip
  have hs : ∀ k c : ℝ, 0 ≤ k → 0 ≤ c → Lip (c * (k * (113 / 10000))) fun t => c * Real.sin (k * longitudeSun t) :=
    fun k c hk hc => ((hl.mul k hk).sin).mul c hc
  have hv : Lip (1 / 6283 * 1000 * (21 / 10000)) fun t => vMinusM t / (2 * piLit) := by
    have := (vMinusM_lip.mul (1 / (2 * piLit)) (by positivity)).weaken (M := 1 / 6283 * 1000 * (21 / 10000)) (by
      refine mul_le_mul_of_nonneg_right ?_ (by norm_num)
      rw [div_le_iff₀ (by linarith)]; linarith)
    have e : (fun t => vMinusM t / (2 * piLit)) = fun t => 1 / (2 * piLit) * vMinusM t := by
      funext t; ring
    rw [e]; exact this
  have h := ((((hs 2 (2861 / 1000 / 360) (by norm_num) (by norm_num)).sub
    (hs 4 (71 / 1000 / 360) (by norm_num) (by norm_num))).add (hs 6 (2 / 1000 / 360) (by norm_num) (by norm_num))).sub hv)
  have h := (h.weaken (M := 53 / 100000) (by norm_num)) (a - 2451545) (b - 2451545) ha hb
  rw [show a - 2451545 - (b - 2451545) = a - b by ring] at h
  exact h

theorem abs_sin_mul (c x : ℝ) (hc : 0 ≤ c) : |c * Real.sin x| ≤ c := by
  rw [abs_mul, abs_of_nonneg hc]
  have := mul_le_mul_of_nonneg_left (Real.abs_sin_le_one x) hc
  linarith

theorem abs_cos_mul (c x : ℝ) (hc : 0 ≤ c) : |c * Real.cos x| ≤ c := by
  rw [abs_mul, abs_of_nonneg hc]
  have := mul_le_mul_of_nonneg_left (Real.abs_cos_le_one x) hc
  linarith

theorem pbs_bound (t : ℝ) : |pbs t| ≤ 263 / 10000 * D2R := by
  obtain ⟨d1, d2⟩ := d2r_bounds
  have h : pbs t = 0
      + 71 / 10000 * D2R * Real.cos (tconst / (22353 / 10000) * t + 49409 / 1000 * D2R)
      + 57 / 10000 * D2R * Real.cos (tconst / (27543 / 10000) * t + 168173 / 1000 * D2R)
      + 39 / 10000 * D2R * Real.cos (tconst / (11177 / 10000) * t + 191837 / 1000 * D2R)
      + 37 / 10000 * D2R * Real.cos (tconst / (157866 / 10000) * t + 21736 / 1000 * D2R)
      + 21 / 10000 * D2R * Real.cos (tconst / (21354 / 10000) * t + 15704 / 1000 * D2R)
      + 20 / 10000 * D2R * Real.cos (tconst / (24694 / 10000) * t + 95528 / 1000 * D2R)
      + 18 / 10000 * D2R * Real.cos (tconst / (328493 / 10000) * t + 49095 / 1000 * D2R) := rfl
  rw [h]
  have b : ∀ c x : ℝ, 0 ≤ c → -(c * D2R) ≤ c * D2R * Real.cos x ∧ c * D2R * Real.cos x ≤ c * D2R := fun c x hc =>
    abs_le.1 (abs_cos_mul (c * D2R) x (mul_nonneg hc (by linarith)))
  rw [abs_le]
  have b1 := b (71 / 10000) (tconst / (22353 / 10000) * t + 49409 / 1000 * D2R) (by norm_num)
  have b2 := b (57 / 10000) (tconst / (27543 / 10000) * t + 168173 / 1000 * D2R) (by norm_num)
  have b3 := b (39 / 10000) (tconst / (11177 / 10000) * t + 191837 / 1000 * D2R) (by norm_num)
  have b4 := b (37 / 10000) (tconst / (157866 / 10000) * t + 21736 / 1000 * D2R) (by norm_num)
  have b5 := b (21 / 10000) (tconst / (21354 / 10000) * t + 15704 / 1000 * D2R) (by norm_num)
  have b6 := b (20 / 10000) (tconst / (24694 / 10000) * t + 95528 / 1000 * D2R) (by norm_num)
  have b7 := b (18 / 10000) (tconst / (328493 / 10000) * t + 49095 / 1000 * D2R) (by norm_num)
  constructor <;> linarith [b1.1, b1.2, b2.1, b2.2, b3.1, b3.2, b4.1, b4.2, b5.1, b5.2, b6.1, b6.2, b7.1, b7.2]

theorem vMinusM_bound (t : ℝ) (ht : |t| ≤ 1000000) : |vMinusM t| ≤ 207 / 1000 := by
  obtain ⟨d1, d2⟩ := d2r_bounds
  have hp := abs_le.1 (pbs_bound t)
  have b : ∀ c x : ℝ, 0 ≤ c → -(c * D2R) ≤ c * D2R * Real.sin x ∧ c * D2R * Real.sin x ≤ c * D2R := fun c x hc =>
    abs_le.1 (abs_sin_mul (c * D2R) x (mul_nonneg hc (by linarith)))
  have b1 : |(10691 / 1000 * D2R + 3 / 10000000 * D2R * t) * Real.sin (meanAnom t)| ≤ 10991 / 1000 * D2R := by
    rw [abs_mul]
    have h1 : |10691 / 1000 * D2R + 3 / 10000000 * D2R * t| ≤ 10991 / 1000 * D2R := by
      have := abs_le.1 ht
      rw [abs_le]
      constructor <;> nlinarith
    have := mul_le_mul h1 (Real.abs_sin_le_one (meanAnom t)) (abs_nonneg _) (by linarith)
    linarith
  have b1 := abs_le.1 b1
  have b2 := b (623 / 1000) (2 * meanAnom t) (by norm_num)
  have b3 := b (50 / 1000) (3 * meanAnom t) (by norm_num)
  have b4 := b (5 / 1000) (4 * meanAnom t) (by norm_num)
  have b5 := b (5 / 10000) (5 * meanAnom t) (by norm_num)
  unfold vMinusM
  rw [abs_le]
  constructor <;> linarith [b1.1, b1.2, b2.1, b2.2, b3.1, b3.2, b4.1, b4.2, b5.1, b5.2, hp.1, hp.2]

/-- **C59.** The equation of time is less than 0.042 sols (just over an hour). -/
theorem C59_size (a : ℝ) (ha : |a - 2451545| ≤ 1000000) : |eqnOfTime a| ≤ 42 / 1000 := by
  obtain ⟨p1, p2⟩ := pi_bounds
  have hv := vMinusM_bound _ ha
  have hv : |vMinusM (a - 2451545) / (2 * piLit)| ≤ 33 / 1000 := by
    rw [abs_div, abs_of_nonneg (show (0 : ℝ) ≤ 2 * piLit by linarith), div_le_iff₀ (by linarith)]
    linarith
  have hv := abs_le.1 hv
  have b1 := abs_le.1 (abs_sin_mul (2861 / 1000 / 360) (2 * longitudeSun (a - 2451545)) (by norm_num))
  have b2 := abs_le.1 (abs_sin_mul (71 / 1000 / 360) (4 * longitudeSun (a - 2451545)) (by norm_num))
  have b3 := abs_le.1 (abs_sin_mul (2 / 1000 / 360) (6 * longitudeSun (a - 2451545)) (by norm_num))
  unfold eqnOfTime
  rw [abs_le]
  constructor <;> linarith [b1.1, b1.2, b2.1, b2.2, b3.1, b3.2, hv.1, hv.2]

/-- **C59.** Converting a Terrestrial Time to true solar time at Airy and back with `mtst_at_airy_to_tt` is off
    by less than 1.3e-8 days, 1.2 milliseconds, for every time within 999999 days of J2000. -/
theorem C59_airy (t : ℝ) (ht : |t - 2451545| ≤ 999999) :
    |mtstAtAiryToTt eqnOfTime (ttToMtc t + eqnOfTime t) - t| ≤ 13 / 1000000000 := by
  have hd : (daysPerSol : ℝ) ≤ 10275 / 10000 := by unfold daysPerSol; norm_num
  have hd0 := dps_pos (K := ℝ)
  have ht6 : |t - 2451545| ≤ 1000000 := by linarith
  have near : ∀ r : ℝ, |r - t| ≤ 1 → |r - 2451545| ≤ 1000000 := by
    intro r hr
    have := abs_le.1 hr
    have := abs_le.1 ht
    rw [abs_le]; constructor <;> linarith
  have he : mtcToTt (ttToMtc t + eqnOfTime t) = t + eqnOfTime t * daysPerSol := by
    have : mtcToTt (ttToMtc t + eqnOfTime t) = mtcToTt (ttToMtc t) + eqnOfTime t * daysPerSol := by unfold mtcToTt; ring
    rw [this, (C49_inverse t).1]
  have hs := C59_size t ht6
  have r0 : |t + eqnOfTime t * daysPerSol - t| ≤ 42 / 1000 * (10275 / 10000) := by
    rw [show t + eqnOfTime t * daysPerSol - t = eqnOfTime t * daysPerSol by ring, abs_mul, abs_of_pos hd0]
    exact mul_le_mul hs hd hd0.le (by norm_num)
  have step : ∀ r : ℝ, |r - t| ≤ 1 →
      |(mtcToTt (ttToMtc t + eqnOfTime t) - eqnOfTime r * daysPerSol) - t| ≤ 53 / 100000 * (10275 / 10000) * |r - t| := by
    intro r hr
    refine le_trans (C59_contracts eqnOfTime (fun a => |a - 2451545| ≤ 1000000) (53 / 100000) t ht6 C59_rate r (near r hr)) ?_
    exact mul_le_mul_of_nonneg_right (by linarith) (abs_nonneg _)
  unfold mtstAtAiryToTt
  simp only [airyLoop]
  rw [← he] at r0
  have s1 := step _ (by linarith : |mtcToTt (ttToMtc t + eqnOfTime t) - t| ≤ 1)
  have s2 := step _ (by linarith : |mtcToTt (ttToMtc t + eqnOfTime t) -
    eqnOfTime (mtcToTt (ttToMtc t + eqnOfTime t)) * daysPerSol - t| ≤ 1)
  linarith

end Verif.Props
