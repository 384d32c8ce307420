import Mathlib.Analysis.Calculus.Deriv.Inverse
import Mathlib.Analysis.SpecialFunctions.Trigonometric.ArctanDeriv
import Verif.Model.Orbit
import Verif.Props.Kepler
import Verif.Spec.Orbit

/-!
# Property theorems: orbits (C83, C84)
-/

namespace Verif.Props

open Verif Verif.Spec Verif.Orbit Verif.Kepler Real

/-! ## Motion in the plane of the orbit -/

/-- The elements are consistent. -/
structure Good (e : Elements) (gm : ℝ) : Prop where
  mass : 0 < gm
  q : 0 < e.q
  ecc : 0 ≤ e.ecc
  pp : e.perihVec.dot e.perihVec = 1
  ss : e.sideways.dot e.sideways = 1
  ps : e.perihVec.dot e.sideways = 0
  ell : e.ecc < 1 → e.minorToMajor = √(1 - e.ecc ^ 2) ∧ e.t0 = e.q / (1 - e.ecc) * √(e.q / (1 - e.ecc) / gm) ∧
    e.angularMomentum = √(gm * (e.q * (1 + e.ecc)))
  hyp : 1 < e.ecc → e.minorToMajor = √(e.ecc ^ 2 - 1) ∧ ∃ s : ℝ, (s = 1 ∨ s = -1) ∧
    e.t0 = s * (e.q / (e.ecc - 1) * √(e.q / (e.ecc - 1) / gm)) ∧ e.angularMomentum = s * √(gm * (e.q * (1 + e.ecc)))
  par : e.ecc = 1 → e.w0 = 3 / √2 / (e.q * √(e.q / gm)) ∧ e.angularMomentum = √(gm * (e.q * (1 + e.ecc)))

/-- `K` solves Kepler's equation. -/
def Solves (K : ℝ → ℝ → ℝ) : Prop := ∀ e m, 0 ≤ e → e ≠ 1 → Eccentric e m (K e m)

/-- The place for a true anomaly. -/
theorem place_form {e : Elements} {nu X Y d : ℝ} (hd : 0 < d) (hdd : d ^ 2 = X ^ 2 + Y ^ 2) (hc : cos nu = X / d) (hs : sin nu = Y / d)
    (hr : d + e.ecc * X = e.q * (1 + e.ecc)) (hr0 : 0 < e.q * (1 + e.ecc)) (ha : e.angularMomentum ≠ 0) :
    placeAt e nu =
      { loc := Vec.comb2 X e.perihVec Y e.sideways, dist := d,
        vel := some (Vec.comb2 (-(e.angularMomentum / (e.q * (1 + e.ecc))) * (Y / d)) e.perihVec
          (e.angularMomentum / (e.q * (1 + e.ecc)) * (e.ecc + X / d)) e.sideways) } := by
  unfold placeAt
  simp only
  rw [if_pos ha, hc, hs]
  generalize e.q * (1 + e.ecc) = p at *
  generalize e.angularMomentum = a at *
  generalize e.ecc = k at *
  have h1 : 1 + k * (X / d) = p / d := by rw [← hr]; field_simp
  have h2 : p / (p / d) = d := by field_simp
  have h3 : d * (X / d) = X := by field_simp
  have h4 : d * (Y / d) = Y := by field_simp
  rw [h1, h2, h3, h4]
  have h5 : X * (k * (Y / d) * a / (d * p)) - Y * (a / (d * d)) = -(a / p) * (Y / d) := by
    field_simp
    rw [← hr]
    ring
  have h6 : Y * (k * (Y / d) * a / (d * p)) + X * (a / (d * d)) = a / p * (k + X / d) := by
    field_simp
    rw [← hr]
    linear_combination (-k) * hdd
  rw [h5, h6]
  simp only [Vec.comb2, mul_comm]

theorem plane_norm {P S : Vec} {X Y d : ℝ} (pp : P.dot P = 1) (ss : S.dot S = 1) (ps : P.dot S = 0) (hd : 0 < d) (hdd : d ^ 2 = X ^ 2 + Y ^ 2) :
    (Vec.comb2 X P Y S).norm = d := by
  unfold Vec.norm
  rw [← sqrt_sq hd.le, hdd]
  congr 1
  unfold Vec.dot at *
  simp only [Vec.comb2]
  linear_combination X ^ 2 * pp + Y ^ 2 * ss + 2 * X * Y * ps

/-- Motion in the plane: if the velocity is right, so is the acceleration. -/
theorem plane_motion {P S : Vec} {X Y d : ℝ → ℝ} {a p k gm : ℝ} (hp : 0 < p) (hag : a ^ 2 = gm * p)
    (pp : P.dot P = 1) (ss : S.dot S = 1) (ps : P.dot S = 0)
    (hd : ∀ t, 0 < d t) (hdd : ∀ t, d t ^ 2 = X t ^ 2 + Y t ^ 2) (hr : ∀ t, d t + k * X t = p)
    (hX : ∀ t, HasDerivAt X (-(a / p) * (Y t / d t)) t) (hY : ∀ t, HasDerivAt Y (a / p * (k + X t / d t)) t) :
    Falls gm (fun t => Vec.comb2 (X t) P (Y t) S) (fun t => Vec.comb2 (-(a / p) * (Y t / d t)) P (a / p * (k + X t / d t)) S) := by
  intro t
  have hlin : ∀ {f g : ℝ → ℝ} {f' g' : ℝ}, HasDerivAt f f' t → HasDerivAt g g' t →
      Rate (fun t => Vec.comb2 (f t) P (g t) S) (Vec.comb2 f' P g' S) t := fun hf hg =>
    ⟨(hf.mul_const _).add (hg.mul_const _), (hf.mul_const _).add (hg.mul_const _), (hf.mul_const _).add (hg.mul_const _)⟩
  refine ⟨hlin (hX t) (hY t), ?_⟩
  have hde : d = fun t => p - k * X t := funext fun t => by linarith [hr t]
  have hd' : HasDerivAt d (k * (a / p) * (Y t / d t)) t := by
    have := ((hX t).const_mul k).const_sub p
    rw [← hde] at this
    refine this.congr_deriv ?_
    ring
  have hd0 := (hd t).ne'
  have hp0 := hp.ne'
  have hg : gm = a ^ 2 / p := by rw [hag]; field_simp
  have hn := plane_norm pp ss ps (hd t) (hdd t)
  have h1 : HasDerivAt (fun t => -(a / p) * (Y t / d t)) (-gm / d t ^ 3 * X t) t := by
    have := ((hY t).div hd' hd0).const_mul (-(a / p))
    refine this.congr_deriv ?_
    have e1 := hr t
    have e2 := hdd t
    generalize X t = x at *
    generalize Y t = y at *
    generalize d t = w at *
    rw [hg]
    field_simp
    linear_combination (-a ^ 2 * k) * e2 + (-a ^ 2 * x) * e1
  have h2 : HasDerivAt (fun t => a / p * (k + X t / d t)) (-gm / d t ^ 3 * Y t) t := by
    have := (((hX t).div hd' hd0).const_add k).const_mul (a / p)
    refine this.congr_deriv ?_
    have e1 := hr t
    have e2 := hdd t
    generalize X t = x at *
    generalize Y t = y at *
    generalize d t = w at *
    rw [hg]
    field_simp
    linear_combination (-a ^ 2 * y) * e1
  have h := hlin h1 h2
  convert h using 1
  rw [hn]
  simp only [Vec.comb2]
  ext <;> simp only <;> ring

/-- The places given are those of a body that moves as Newton says. -/
def Newtonian (K : ℝ → ℝ → ℝ) (e : Elements) (gm : ℝ) : Prop :=
  ∃ v : ℝ → Vec, (∀ t, (posnAndVel K e t).vel = some (v t) ∧ (posnAndVel K e t).dist = (posnAndVel K e t).loc.norm) ∧
    Falls gm (fun t => (posnAndVel K e t).loc) v

theorem newtonian_of {K : ℝ → ℝ → ℝ} {e : Elements} {gm : ℝ} (h : Good e gm) {X Y d : ℝ → ℝ} (hasq : e.angularMomentum ^ 2 = gm * (e.q * (1 + e.ecc)))
    (hd : ∀ t, 0 < d t) (hdd : ∀ t, d t ^ 2 = X t ^ 2 + Y t ^ 2) (hr : ∀ t, d t + e.ecc * X t = e.q * (1 + e.ecc))
    (hnu : ∀ t, ∃ (e' : Elements) (nu : ℝ), posnAndVel K e t = placeAt e' nu ∧ placeAt e' nu = placeAt e nu ∧ cos nu = X t / d t ∧ sin nu = Y t / d t)
    (hX : ∀ t, HasDerivAt X (-(e.angularMomentum / (e.q * (1 + e.ecc))) * (Y t / d t)) t)
    (hY : ∀ t, HasDerivAt Y (e.angularMomentum / (e.q * (1 + e.ecc)) * (e.ecc + X t / d t)) t) : Newtonian K e gm := by
  have hp : 0 < e.q * (1 + e.ecc) := mul_pos h.q (by linarith [h.ecc])
  have ha : e.angularMomentum ≠ 0 := by
    intro k
    rw [k] at hasq
    have := mul_pos h.mass hp
    linarith
  have hplace : ∀ t, posnAndVel K e t = _ := fun t => by
    obtain ⟨e', nu, h1, h2, h3, h4⟩ := hnu t
    rw [h1, h2]
    exact place_form (hd t) (hdd t) h3 h4 (hr t) hp ha
  refine ⟨_, fun t => ⟨by rw [hplace], ?_⟩, ?_⟩
  · rw [hplace]
    exact (plane_norm h.pp h.ss h.ps (hd t) (hdd t)).symm
  · simp only [hplace]
    exact plane_motion hp hasq h.pp h.ss h.ps hd hdd hr hX hY

/-! ## The three kinds of orbits -/

/-- The anomaly as a function of the time, elliptic. -/
theorem deriv_ell {K : ℝ → ℝ → ℝ} (hK : Solves K) {e : ℝ} (h0 : 0 ≤ e) (h1 : e < 1) (m : ℝ) :
    HasDerivAt (K e) (1 - e * cos (K e m))⁻¹ m := by
  have hk : ∀ m, K e m - e * sin (K e m) = m := fun m => (hK e m h0 h1.ne).1 h1
  have hpos : 0 < 1 - e := by linarith
  have hcont : Continuous (K e) := by
    refine LipschitzWith.continuous (K := (1 / (1 - e)).toNNReal) (LipschitzWith.of_dist_le_mul fun x y => ?_)
    rw [Real.coe_toNNReal _ (by positivity), Real.dist_eq, Real.dist_eq]
    have := kepler_mono h0 (K e x) (K e y)
    rw [hk, hk] at this
    rw [one_div, ← div_eq_inv_mul, le_div_iff₀ hpos]
    linarith
  have hf : HasDerivAt (fun x => x - e * sin x) (1 - e * cos (K e m)) (K e m) := (hasDerivAt_id _).sub ((hasDerivAt_sin _).const_mul e)
  exact HasDerivAt.of_local_left_inverse hcont.continuousAt hf (denom_pos h0 h1 _).ne' (Filter.Eventually.of_forall hk)

theorem kepler_mono_hyp {e : ℝ} (h1 : 1 < e) (x y : ℝ) : (e - 1) * |x - y| ≤ |(e * sinh x - x) - (e * sinh y - y)| := by
  have key : ∀ x y : ℝ, y ≤ x → (e - 1) * (x - y) ≤ (e * sinh x - x) - (e * sinh y - y) := fun x y h => by
    rcases h.eq_or_lt with rfl | hlt
    · simp
    · obtain ⟨z, -, hz⟩ := exists_hasDerivAt_eq_slope (fun x => e * sinh x - x) (fun x => e * cosh x - 1) hlt
        (by fun_prop) (fun x _ => ((hasDerivAt_sinh x).const_mul e).sub (hasDerivAt_id x))
      rw [eq_div_iff (by linarith)] at hz
      rw [← hz]
      exact mul_le_mul_of_nonneg_right (by nlinarith [one_le_cosh z]) (by linarith)
  rcases le_total y x with h | h
  · rw [abs_of_nonneg (sub_nonneg.mpr h)]
    exact le_trans (key x y h) (le_abs_self _)
  · rw [abs_sub_comm, abs_of_nonneg (sub_nonneg.mpr h), abs_sub_comm]
    exact le_trans (key y x h) (le_abs_self _)

/-- The anomaly as a function of the time, hyperbolic. -/
theorem deriv_hyp {K : ℝ → ℝ → ℝ} (hK : Solves K) {e : ℝ} (h1 : 1 < e) (m : ℝ) :
    HasDerivAt (K e) (e * cosh (K e m) - 1)⁻¹ m := by
  have hk : ∀ m, e * sinh (K e m) - K e m = m := fun m => (hK e m (by linarith) h1.ne').2 h1
  have hpos : 0 < e - 1 := by linarith
  have hcont : Continuous (K e) := by
    refine LipschitzWith.continuous (K := (1 / (e - 1)).toNNReal) (LipschitzWith.of_dist_le_mul fun x y => ?_)
    rw [Real.coe_toNNReal _ (by positivity), Real.dist_eq, Real.dist_eq]
    have := kepler_mono_hyp h1 (K e x) (K e y)
    rw [hk, hk] at this
    rw [one_div, ← div_eq_inv_mul, le_div_iff₀ hpos]
    linarith
  have hf : HasDerivAt (fun x => e * sinh x - x) (e * cosh (K e m) - 1) (K e m) := ((hasDerivAt_sinh _).const_mul e).sub (hasDerivAt_id _)
  have hne : e * cosh (K e m) - 1 ≠ 0 := by nlinarith [one_le_cosh (K e m)]
  exact HasDerivAt.of_local_left_inverse hcont.continuousAt hf hne (Filter.Eventually.of_forall hk)

theorem halfTurn_spec (t : ℝ) : |halfTurn t| ≤ π ∧ ∃ n : ℤ, halfTurn t = t + n * (2 * π) := by
  have hp := pi_pos
  obtain ⟨h1, -, n, hn⟩ := fmod_pi t
  rw [abs_lt] at h1
  unfold halfTurn
  simp only
  generalize AltAz.fmod t (π * 2) = u at *
  split_ifs with ha hb hb
  · linarith
  · exact ⟨abs_le.mpr ⟨by linarith, by linarith⟩, n + 1, by rw [hn]; push_cast; ring⟩
  · exact ⟨abs_le.mpr ⟨by linarith, by linarith⟩, n - 1, by rw [hn]; push_cast; ring⟩
  · exact ⟨abs_le.mpr ⟨by linarith, by linarith⟩, n, hn⟩

/-- Whole turns do not matter. -/
theorem anomaly_turns {K : ℝ → ℝ → ℝ} (hK : Solves K) {e : ℝ} (h0 : 0 ≤ e) (h1 : e < 1) (m : ℝ) (n : ℤ) :
    K e (m + n * (2 * π)) = K e m + n * (2 * π) := by
  have hk : ∀ m, K e m - e * sin (K e m) = m := fun m => (hK e m h0 h1.ne).1 h1
  have h := kepler_mono h0 (K e (m + n * (2 * π))) (K e m + n * (2 * π))
  rw [hk, sin_add_int_mul_two_pi, show m + n * (2 * π) - (K e m + n * (2 * π) - e * sin (K e m)) = 0 by linarith [hk m], abs_zero] at h
  have : |K e (m + n * (2 * π)) - (K e m + n * (2 * π))| ≤ 0 := by nlinarith [abs_nonneg (K e (m + n * (2 * π)) - (K e m + n * (2 * π)))]
  exact sub_eq_zero.mp (abs_nonpos_iff.mp this)

/-- The direction of a scaled vector. -/
theorem atan2_scaled {x y a d : ℝ} (ha : 0 < a) (hd : 0 < d) (h : (a * x) ^ 2 + (a * y) ^ 2 = d ^ 2) :
    cos (Ellipse.atan2 y x) = a * x / d ∧ sin (Ellipse.atan2 y x) = a * y / d := by
  have hpos : 0 < x ^ 2 + y ^ 2 := by
    by_contra hn
    have h1 : a ^ 2 * (x ^ 2 + y ^ 2) ≤ 0 := mul_nonpos_of_nonneg_of_nonpos (sq_nonneg a) (not_lt.mp hn)
    nlinarith
  obtain ⟨n, hn, hnn, hc, hs⟩ := atan2_dir hpos
  have : d = a * n := by
    have : d ^ 2 = (a * n) ^ 2 := by rw [mul_pow, hnn, ← h]; ring
    exact (sq_eq_sq₀ hd.le (by positivity)).mp this
  rw [hc, hs, this]
  constructor <;> field_simp

theorem roots {a gm : ℝ} (ha : 0 < a) (hg : 0 < gm) : √(gm * a) * √(a / gm) = a := by
  rw [← sqrt_mul (by positivity), show gm * a * (a / gm) = a ^ 2 by field_simp, sqrt_sq ha.le]

theorem rate_x {A m a t0 n s : ℝ} (hA : A ≠ 0) (hm : m ≠ 0) (ht : t0 ≠ 0) (hn : n ≠ 0) (hr : A ^ 2 * m = a * t0) :
    A * (-s * (n⁻¹ * (1 / t0))) = -(a / (A * m ^ 2)) * (A * (m * s) / (A * n)) := by
  field_simp
  linear_combination (-s) * hr

theorem rate_y {A m a t0 n c k x : ℝ} (hA : A ≠ 0) (hm : m ≠ 0) (ht : t0 ≠ 0) (hn : n ≠ 0) (hr : A ^ 2 * m = a * t0) (hx : k * n + x = m ^ 2 * c) :
    A * (m * (c * (n⁻¹ * (1 / t0)))) = a / (A * m ^ 2) * (k + A * x / (A * n)) := by
  have : k + A * x / (A * n) = m ^ 2 * c / n := by rw [← hx]; field_simp
  rw [this]
  field_simp
  linear_combination c * hr

/-- Elliptic orbits. -/
theorem ell_falls {K : ℝ → ℝ → ℝ} (hK : Solves K) {e : Elements} {gm : ℝ} (h : Good e gm) (h1 : e.ecc < 1) :
    Newtonian K e gm := by
  obtain ⟨hm, ht0, hang⟩ := h.ell h1
  have h0 := h.ecc
  have hq := h.q
  have hmass := h.mass
  have hA : 0 < e.q / (1 - e.ecc) := div_pos hq (by linarith)
  have hqA : e.q = e.q / (1 - e.ecc) * (1 - e.ecc) := by
    have : 1 - e.ecc ≠ 0 := by linarith
    field_simp
  set A := e.q / (1 - e.ecc) with hAdef
  have hm2 : 0 < 1 - e.ecc ^ 2 := by nlinarith
  have hmm : e.minorToMajor ^ 2 = 1 - e.ecc ^ 2 := by rw [hm, sq_sqrt hm2.le]
  have hmpos : 0 < e.minorToMajor := by rw [hm]; exact sqrt_pos.mpr hm2
  have hp : e.q * (1 + e.ecc) = A * e.minorToMajor ^ 2 := by rw [hqA, hmm]; ring
  have hppos : 0 < e.q * (1 + e.ecc) := by positivity
  have hapos : 0 < e.angularMomentum := by rw [hang]; positivity
  have hasq : e.angularMomentum ^ 2 = gm * (e.q * (1 + e.ecc)) := by rw [hang, sq_sqrt (by positivity)]
  have hr : A ^ 2 * e.minorToMajor = e.angularMomentum * e.t0 := by
    rw [hang, ht0, hp, show gm * (A * e.minorToMajor ^ 2) = e.minorToMajor ^ 2 * (gm * A) by ring, sqrt_mul (by positivity), sqrt_sq hmpos.le]
    linear_combination (-e.minorToMajor * A) * roots hA hmass
  have ht0pos : 0 < e.t0 := by rw [ht0]; positivity
  set E : ℝ → ℝ := fun t => K e.ecc ((t - e.perihTime) / e.t0) with hE
  have hn : ∀ t, 0 < 1 - e.ecc * cos (E t) := fun t => denom_pos h0 h1 _
  have hE' : ∀ t, HasDerivAt E ((1 - e.ecc * cos (E t))⁻¹ * (1 / e.t0)) t := fun t => by
    have h2 : HasDerivAt (fun t => (t - e.perihTime) / e.t0) (1 / e.t0) t := ((hasDerivAt_id t).sub_const _).div_const _
    exact (deriv_ell hK h0 h1 ((t - e.perihTime) / e.t0)).comp t h2
  have hdd : ∀ t, (A * (1 - e.ecc * cos (E t))) ^ 2 = (A * (cos (E t) - e.ecc)) ^ 2 + (A * (e.minorToMajor * sin (E t))) ^ 2 := fun t => by
    linear_combination (A ^ 2 - A ^ 2 * e.ecc ^ 2) * (sin_sq_add_cos_sq (E t)) * (-1) + (- A ^ 2 * sin (E t) ^ 2) * hmm
  refine newtonian_of h hasq (X := fun t => A * (cos (E t) - e.ecc)) (Y := fun t => A * (e.minorToMajor * sin (E t)))
    (d := fun t => A * (1 - e.ecc * cos (E t))) (fun t => mul_pos hA (hn t)) hdd (fun t => by rw [hp, hmm]; ring) (fun t => ?_) (fun t => ?_) (fun t => ?_)
  · obtain ⟨-, n, hn'⟩ := halfTurn_spec ((t - e.perihTime) / e.t0)
    obtain ⟨hc, hs⟩ := atan2_scaled hA (mul_pos hA (hn t)) (hdd t).symm
    refine ⟨{ e with meanAnomaly := halfTurn ((t - e.perihTime) / e.t0) }, _, by unfold posnAndVel; simp only; rw [if_pos h1.ne, if_pos h1], rfl, ?_⟩
    simp only [trueAnomaly, if_neg h1.ne, if_neg (not_lt.mpr h1.le : ¬ e.ecc > 1)]
    rw [hn', anomaly_turns hK h0 h1, cos_add_int_mul_two_pi, sin_add_int_mul_two_pi, mul_comm (sin _)]
    exact ⟨hc, hs⟩
  · refine (((hE' t).cos.sub_const e.ecc).const_mul A).congr_deriv ?_
    rw [hp]
    exact rate_x hA.ne' hmpos.ne' ht0pos.ne' (hn t).ne' hr
  · refine (((hE' t).sin.const_mul e.minorToMajor).const_mul A).congr_deriv ?_
    rw [hp]
    exact rate_y hA.ne' hmpos.ne' ht0pos.ne' (hn t).ne' hr (by rw [hmm]; ring)

/-- Hyperbolic orbits. -/
theorem hyp_falls {K : ℝ → ℝ → ℝ} (hK : Solves K) {e : Elements} {gm : ℝ} (h : Good e gm) (h1 : 1 < e.ecc) : Newtonian K e gm := by
  obtain ⟨hm, s, hs, ht0, hang⟩ := h.hyp h1
  have h0 := h.ecc
  have hq := h.q
  have hmass := h.mass
  have hss : s ^ 2 = 1 := by rcases hs with rfl | rfl <;> norm_num
  have hs0 : s ≠ 0 := by rcases hs with rfl | rfl <;> norm_num
  have hA : 0 < e.q / (e.ecc - 1) := div_pos hq (by linarith)
  have hqA : e.q = e.q / (e.ecc - 1) * (e.ecc - 1) := by
    have : e.ecc - 1 ≠ 0 := by linarith
    field_simp
  set A := e.q / (e.ecc - 1) with hAdef
  have hm2 : 0 < e.ecc ^ 2 - 1 := by nlinarith
  have hmm : e.minorToMajor ^ 2 = e.ecc ^ 2 - 1 := by rw [hm, sq_sqrt hm2.le]
  have hmpos : 0 < e.minorToMajor := by rw [hm]; exact sqrt_pos.mpr hm2
  have hp : e.q * (1 + e.ecc) = A * e.minorToMajor ^ 2 := by rw [hqA, hmm]; ring
  have hasq : e.angularMomentum ^ 2 = gm * (e.q * (1 + e.ecc)) := by rw [hang, mul_pow, hss, one_mul, sq_sqrt (by positivity)]
  have hr : A ^ 2 * e.minorToMajor = e.angularMomentum * e.t0 := by
    rw [hang, ht0, hp, show gm * (A * e.minorToMajor ^ 2) = e.minorToMajor ^ 2 * (gm * A) by ring, sqrt_mul (by positivity), sqrt_sq hmpos.le]
    linear_combination (-e.minorToMajor * A) * roots hA hmass - (e.minorToMajor * A * √(gm * A) * √(A / gm)) * hss
  have ht0ne : e.t0 ≠ 0 := by
    rw [ht0]
    have : 0 < A * √(A / gm) := by positivity
    exact mul_ne_zero hs0 this.ne'
  set E : ℝ → ℝ := fun t => K e.ecc ((t - e.perihTime) / e.t0) with hE
  have hn : ∀ t, 0 < e.ecc * cosh (E t) - 1 := fun t => by nlinarith [one_le_cosh (E t)]
  have hE' : ∀ t, HasDerivAt E ((e.ecc * cosh (E t) - 1)⁻¹ * (1 / e.t0)) t := fun t => by
    have h2 : HasDerivAt (fun t => (t - e.perihTime) / e.t0) (1 / e.t0) t := ((hasDerivAt_id t).sub_const _).div_const _
    exact (deriv_hyp hK h1 ((t - e.perihTime) / e.t0)).comp t h2
  have hdd : ∀ t, (A * (e.ecc * cosh (E t) - 1)) ^ 2 = (A * (e.ecc - cosh (E t))) ^ 2 + (A * (e.minorToMajor * sinh (E t))) ^ 2 := fun t => by
    linear_combination (A ^ 2 * e.ecc ^ 2 - A ^ 2) * (cosh_sq (E t)) + (- A ^ 2 * sinh (E t) ^ 2) * hmm
  refine newtonian_of h hasq (X := fun t => A * (e.ecc - cosh (E t))) (Y := fun t => A * (e.minorToMajor * sinh (E t)))
    (d := fun t => A * (e.ecc * cosh (E t) - 1)) (fun t => mul_pos hA (hn t)) hdd (fun t => by rw [hp, hmm]; ring) (fun t => ?_) (fun t => ?_) (fun t => ?_)
  · obtain ⟨hc, hs⟩ := atan2_scaled hA (mul_pos hA (hn t)) (hdd t).symm
    refine ⟨{ e with meanAnomaly := (t - e.perihTime) / e.t0 }, _,
      by unfold posnAndVel; simp only; rw [if_pos h1.ne', if_neg (not_lt.mpr h1.le)], rfl, ?_⟩
    simp only [trueAnomaly, if_neg h1.ne', if_pos (show e.ecc > 1 from h1)]
    rw [mul_comm (sinh _)]
    exact ⟨hc, hs⟩
  · refine (((hE' t).cosh.const_sub e.ecc).const_mul A).congr_deriv ?_
    rw [hp, ← rate_x hA.ne' hmpos.ne' ht0ne (hn t).ne' hr]
    ring
  · refine (((hE' t).sinh.const_mul e.minorToMajor).const_mul A).congr_deriv ?_
    rw [hp]
    exact rate_y hA.ne' hmpos.ne' ht0ne (hn t).ne' hr (by rw [hmm]; ring)

/-- The tangent of half the true anomaly of a parabola. -/
theorem tau_spec (g : ℝ) : cubeRoot (g + √(g * g + 1)) - 1 / cubeRoot (g + √(g * g + 1)) = 2 * sinh (arsinh g / 3) := by
  have : cubeRoot (g + √(g * g + 1)) = exp (arsinh g / 3) := by
    unfold cubeRoot arsinh
    rw [show g * g + 1 = 1 + g ^ 2 by ring]
  rw [this, sinh_eq, one_div, ← exp_neg]
  ring

theorem tau_cubic (g : ℝ) : (2 * sinh (arsinh g / 3)) ^ 3 + 3 * (2 * sinh (arsinh g / 3)) = 2 * g := by
  have h := sinh_three_mul (arsinh g / 3)
  rw [mul_div_cancel₀ _ (by norm_num), sinh_arsinh] at h
  linear_combination (-2) * h

theorem tau_deriv (g : ℝ) : HasDerivAt (fun g => 2 * sinh (arsinh g / 3)) (2 / (3 * (1 + (2 * sinh (arsinh g / 3)) ^ 2))) g := by
  have h := (((hasDerivAt_arsinh g).div_const 3).sinh).const_mul 2
  refine h.congr_deriv ?_
  have h3 := cosh_three_mul (arsinh g / 3)
  rw [mul_div_cancel₀ _ (by norm_num), cosh_arsinh] at h3
  have hc := cosh_pos (arsinh g / 3)
  have hcs := cosh_sq (arsinh g / 3)
  have h4 : √(1 + g ^ 2) = cosh (arsinh g / 3) * (1 + (2 * sinh (arsinh g / 3)) ^ 2) := by
    rw [h3]
    linear_combination (4 * cosh (arsinh g / 3)) * hcs
  rw [h4]
  have : 0 < 1 + (2 * sinh (arsinh g / 3)) ^ 2 := by positivity
  field_simp

/-- Sine and cosine of twice an arc tangent. -/
theorem twice_arctan (x : ℝ) : cos (2 * arctan x) = (1 - x ^ 2) / (1 + x ^ 2) ∧ sin (2 * arctan x) = 2 * x / (1 + x ^ 2) := by
  have h : 0 < 1 + x ^ 2 := by positivity
  have h1 := cos_sq_arctan x
  have h2 : sin (arctan x) = x * cos (arctan x) := by
    rw [← tan_mul_cos (cos_arctan_pos x).ne', tan_arctan]
  constructor
  · rw [cos_two_mul, h1]
    field_simp
    ring
  · rw [sin_two_mul, h2, show 2 * (x * cos (arctan x)) * cos (arctan x) = 2 * x * cos (arctan x) ^ 2 by ring, h1]
    field_simp

/-- Parabolic orbits. -/
theorem par_falls {K : ℝ → ℝ → ℝ} {e : Elements} {gm : ℝ} (h : Good e gm) (h1 : e.ecc = 1) : Newtonian K e gm := by
  obtain ⟨hw, hang⟩ := h.par h1
  have hq := h.q
  have hmass := h.mass
  have hasq : e.angularMomentum ^ 2 = gm * (e.q * (1 + e.ecc)) := by rw [hang, sq_sqrt (by rw [h1]; positivity)]
  have hr : 2 * e.q ^ 2 * e.w0 = 3 * e.angularMomentum := by
    have hx := roots hq hmass
    have h2 : √2 * √2 = 2 := mul_self_sqrt (by norm_num)
    have hs2 : 0 < √2 := by positivity
    have hsq : 0 < √(e.q / gm) := by positivity
    rw [hang, hw, h1, show gm * (e.q * (1 + 1)) = 2 * (gm * e.q) by ring, sqrt_mul (by norm_num)]
    generalize √(gm * e.q) = u at *
    field_simp
    linear_combination (-e.q) * h2 - √2 ^ 2 * hx
  set τ : ℝ → ℝ := fun t => 2 * sinh (arsinh (e.w0 * (t - e.perihTime) * (1 / 2)) / 3) with hτ
  have hτ' : ∀ t, HasDerivAt τ (e.w0 / (3 * (1 + τ t ^ 2))) t := fun t => by
    have h2 : HasDerivAt (fun t => e.w0 * (t - e.perihTime) * (1 / 2)) (e.w0 * 1 * (1 / 2)) t :=
      (((hasDerivAt_id t).sub_const _).const_mul _).mul_const _
    refine ((tau_deriv (e.w0 * (t - e.perihTime) * (1 / 2))).comp t h2).congr_deriv ?_
    have : 0 < 1 + τ t ^ 2 := by positivity
    change 2 / (3 * (1 + τ t ^ 2)) * _ = _
    field_simp
  have hpos : ∀ t, 0 < 1 + τ t ^ 2 := fun t => by positivity
  refine newtonian_of h hasq (X := fun t => e.q * (1 - τ t ^ 2)) (Y := fun t => e.q * (2 * τ t)) (d := fun t => e.q * (1 + τ t ^ 2))
    (fun t => mul_pos hq (hpos t)) (fun t => by ring) (fun t => by rw [h1]; ring) (fun t => ?_) (fun t => ?_) (fun t => ?_)
  · refine ⟨e, _, by unfold posnAndVel; simp only; rw [if_neg (not_not.mpr h1)], rfl, ?_⟩
    have hx := twice_arctan (τ t)
    simp only [trueAnomaly, if_pos h1]
    rw [tau_spec]
    rw [hτ] at hx ⊢
    simp only at hx ⊢
    rw [hx.1, hx.2]
    constructor <;> rw [mul_div_mul_left _ _ hq.ne']
  · refine ((((hτ' t).pow 2).const_sub 1).const_mul e.q).congr_deriv ?_
    have := (hpos t).ne'
    have := hq.ne'
    rw [h1]
    norm_num
    field_simp
    linear_combination (τ t) * hr
  · refine (((hτ' t).const_mul 2).const_mul e.q).congr_deriv ?_
    have := (hpos t).ne'
    have := hq.ne'
    rw [h1]
    norm_num
    field_simp
    linear_combination 2 * hr

/-! ## The plane of the orbit -/

theorem decompose {P h u : Vec} {h0 : ℝ} (hpp : P.dot P = 1) (hph : h.dot P = 0) (hhh : h.dot h = h0 ^ 2) (hne : h0 ≠ 0) (hu : u.dot h = 0) :
    u = Vec.comb2 (u.dot P) P (u.dot (over (vcross h P) h0)) (over (vcross h P) h0) := by
  have key : ∀ ux hx Px Wx : ℝ,
      Wx * (u.dot (vcross h P)) = (h.dot h * P.dot P - (h.dot P) ^ 2) * ux - P.dot P * hx * u.dot h - h.dot h * Px * u.dot P +
        h.dot P * (hx * u.dot P + Px * u.dot h) →
      ux = u.dot P * Px + u.dot (over (vcross h P) h0) * (Wx / h0) := fun ux hx Px Wx hk => by
    rw [hpp, hph, hhh, hu] at hk
    have : u.dot (over (vcross h P) h0) = u.dot (vcross h P) / h0 := by
      unfold Vec.dot over
      simp only
      ring
    rw [this]
    field_simp
    linear_combination (-1) * hk
  ext
  · refine key u.x h.x P.x _ ?_
    simp only [Vec.dot, vcross]
    ring
  · refine key u.y h.y P.y _ ?_
    simp only [Vec.dot, vcross]
    ring
  · refine key u.z h.z P.z _ ?_
    simp only [Vec.dot, vcross]
    ring

theorem frame_unit {P h : Vec} {h0 : ℝ} (hpp : P.dot P = 1) (hph : h.dot P = 0) (hhh : h.dot h = h0 ^ 2) (hne : h0 ≠ 0) :
    (over (vcross h P) h0).dot (over (vcross h P) h0) = 1 ∧ P.dot (over (vcross h P) h0) = 0 := by
  unfold Vec.dot at *
  simp only [over, vcross]
  constructor
  · field_simp
    linear_combination (h.x ^ 2 + h.y ^ 2 + h.z ^ 2) * hpp + hhh - (h.x * P.x + h.y * P.y + h.z * P.z) * hph
  · field_simp
    ring

/-- The velocity, from the vector of the eccentricity. -/
theorem frame_velocity {P h r v : Vec} {h0 gm d k : ℝ} (hpp : P.dot P = 1) (hph : h.dot P = 0) (hhh : h.dot h = h0 ^ 2) (hne : h0 ≠ 0) (hg : gm ≠ 0)
    (hd : d ≠ 0) (hv : v.dot h = 0)
    (hx : k * P.x = (vcross v h).x / gm - r.x / d) (hy : k * P.y = (vcross v h).y / gm - r.y / d) (hz : k * P.z = (vcross v h).z / gm - r.z / d) :
    v = Vec.comb2 (-(gm / h0) * (r.dot (over (vcross h P) h0) / d)) P (gm / h0 * (k + r.dot P / d)) (over (vcross h P) h0) := by
  have hdec := decompose hpp hph hhh hne hv
  have e1 : v.dot (over (vcross h P) h0) = gm / h0 * (k + r.dot P / d) := by
    have : v.dot (vcross h P) = gm * (k + r.dot P / d) := by
      unfold Vec.dot at *
      simp only [vcross] at *
      field_simp at hx hy hz ⊢
      linear_combination (-P.x) * hx - P.y * hy - P.z * hz + (gm * k * d) * hpp
    have h2 : v.dot (over (vcross h P) h0) = v.dot (vcross h P) / h0 := by
      unfold Vec.dot over
      simp only
      ring
    rw [h2, this]
    ring
  have e2 : v.dot P = -(gm / h0) * (r.dot (over (vcross h P) h0) / d) := by
    have h2 : r.dot (over (vcross h P) h0) = r.dot (vcross h P) / h0 := by
      unfold Vec.dot over
      simp only
      ring
    have : h0 ^ 2 * v.dot P = -gm * (r.dot (vcross h P) / d) := by
      unfold Vec.dot at *
      simp only [vcross] at *
      field_simp at hx hy hz ⊢
      linear_combination (h.y * P.z - h.z * P.y) * hx + (h.z * P.x - h.x * P.z) * hy + (h.x * P.y - h.y * P.x) * hz -
        d * (v.x * P.x + v.y * P.y + v.z * P.z) * hhh + d * (h.x * P.x + h.y * P.y + h.z * P.z) * hv
    rw [h2]
    field_simp
    field_simp at this
    linear_combination this
  rw [e1, e2] at hdec
  exact hdec

/-! ## Elements from a position and a velocity -/

/-- What is known of the state when the shape of the orbit has been found. -/
structure OrbitState (gm : ℝ) (r v h P : Vec) (d h0 inv k : ℝ) : Prop where
  mass : 0 < gm
  dpos : 0 < d
  hpos : 0 < h0
  kpos : 0 ≤ k
  pp : P.dot P = 1
  hp : h.dot P = 0
  hh : h.dot h = h0 ^ 2
  rh : r.dot h = 0
  rr : r.dot r = d ^ 2
  axis : inv * (h0 ^ 2 / gm) = 1 - k ^ 2
  conic : d + k * r.dot P = h0 ^ 2 / gm
  vel : v = Vec.comb2 (-(gm / h0) * (r.dot (over (vcross h P) h0) / d)) P (gm / h0 * (k + r.dot P / d)) (over (vcross h P) h0)

theorem state_polar {gm d h0 inv k : ℝ} {r v h P : Vec} (s : OrbitState gm r v h P d h0 inv k) :
    d ^ 2 = r.dot P ^ 2 + r.dot (over (vcross h P) h0) ^ 2 ∧ r = Vec.comb2 (r.dot P) P (r.dot (over (vcross h P) h0)) (over (vcross h P) h0) := by
  have hne := s.hpos.ne'
  have h1 := decompose s.pp s.hp s.hh hne s.rh
  obtain ⟨h2, h3⟩ := frame_unit s.pp s.hp s.hh hne
  refine ⟨?_, h1⟩
  have h4 := s.pp
  have h5 := s.rr
  generalize over (vcross h P) h0 = Q at *
  generalize r.dot P = x at *
  generalize r.dot Q = y at *
  rw [h1] at h5
  unfold Vec.dot at *
  simp only [Vec.comb2] at h5
  linear_combination (-1) * h5 + x ^ 2 * h4 + y ^ 2 * h2 + 2 * x * y * h3

theorem ecc_vector {gm d h0 : ℝ} {r v : Vec} (hg : gm ≠ 0) (hd : 0 < d) (hdd : d ^ 2 = r.dot r) :
    (eccVector gm d r v (vcross r v)).dot (vcross r v) = 0 ∧
    (eccVector gm d r v (vcross r v)).dot r = (r.cross v).dot (r.cross v) / gm - d ∧
    (eccVector gm d r v (vcross r v)).dot (eccVector gm d r v (vcross r v)) = 1 - (2 / d - v.dot v / gm) * ((r.cross v).dot (r.cross v) / gm) ∧
    flatten (vcross r v) h0 (eccVector gm d r v (vcross r v)) = eccVector gm d r v (vcross r v) := by
  have h1 : (eccVector gm d r v (vcross r v)).dot (vcross r v) = 0 := by
    simp only [eccVector, vcross, Vec.dot]
    field_simp
    ring
  refine ⟨h1, ?_, ?_, ?_⟩
  · simp only [eccVector, vcross, Vec.cross, Vec.dot] at *
    field_simp
    linear_combination gm * hdd
  · simp only [eccVector, vcross, Vec.cross, Vec.dot] at *
    field_simp
    linear_combination (-gm ^ 2) * hdd
  · change vdot _ _ = 0 at h1
    unfold flatten
    rw [h1]
    simp

theorem dot_zero {e : Vec} (h : e.dot e = 0) : e.x = 0 ∧ e.y = 0 ∧ e.z = 0 := by
  unfold Vec.dot at h
  refine ⟨?_, ?_, ?_⟩ <;> nlinarith [mul_self_nonneg e.x, mul_self_nonneg e.y, mul_self_nonneg e.z]

theorem unit_of {e r h : Vec} {k d : ℝ} (hk : k ^ 2 = e.dot e) (hd : 0 < d) (hdd : d ^ 2 = r.dot r) (hr : r.dot h = 0) (he : e.dot h = 0) :
    (if k = 0 then over r d else over e k).dot (if k = 0 then over r d else over e k) = 1 ∧ h.dot (if k = 0 then over r d else over e k) = 0 ∧
    k * (if k = 0 then over r d else over e k).x = e.x ∧ k * (if k = 0 then over r d else over e k).y = e.y ∧
    k * (if k = 0 then over r d else over e k).z = e.z := by
  have hsq : ∀ {u : Vec} {w : ℝ}, w ≠ 0 → w ^ 2 = u.dot u → (over u w).dot (over u w) = 1 := fun hw hu => by
    unfold Vec.dot over at *
    simp only
    field_simp
    linear_combination (-1) * hu
  have hperp : ∀ {u : Vec} {w : ℝ}, u.dot h = 0 → h.dot (over u w) = 0 := fun {u w} hu => by
    have : h.dot (over u w) = u.dot h / w := by
      unfold Vec.dot over
      simp only
      ring
    rw [this, hu, zero_div]
  by_cases h0 : k = 0
  · rw [if_pos h0]
    rw [h0, zero_pow two_ne_zero] at hk
    obtain ⟨h1, h2, h3⟩ := dot_zero hk.symm
    rw [h0, h1, h2, h3]
    exact ⟨hsq hd.ne' hdd, hperp hr, zero_mul _, zero_mul _, zero_mul _⟩
  · rw [if_neg h0]
    exact ⟨hsq h0 hk, hperp he, mul_div_cancel₀ _ h0, mul_div_cancel₀ _ h0, mul_div_cancel₀ _ h0⟩

theorem classical_state {old : Elements} (hg : 0 < old.gm) {r v : Vec} (t : ℝ) (hh : 0 < (r.cross v).dot (r.cross v))
    (hs : eccSq old.gm r v = 1 ∨ 1 / 10 ^ 14 ≤ |eccSq old.gm r v - 1|) :
    ∃ ev n0 h0 inv,
      classical old r v t = shape old r v t r.norm inv (vcross r v) ev n0 h0 (eccSq old.gm r v) ∧
      0 ≤ eccSq old.gm r v ∧ n0 = √((r.cross v).x ^ 2 + (r.cross v).y ^ 2) ∧
      h0 ^ 2 = (r.cross v).dot (r.cross v) ∧
      OrbitState old.gm r v (vcross r v) (if √(eccSq old.gm r v) = 0 then over r r.norm else over ev (√(eccSq old.gm r v))) r.norm h0 inv (√(eccSq old.gm r v)) := by
  have hlag : (r.cross v).dot (r.cross v) = r.dot r * v.dot v - r.dot v ^ 2 := by
    simp only [Vec.cross, Vec.dot]
    ring
  have hr0 : 0 ≤ r.dot r := by unfold Vec.dot; nlinarith [sq_nonneg r.x, sq_nonneg r.y, sq_nonneg r.z]
  have hv0 : 0 ≤ v.dot v := by unfold Vec.dot; nlinarith [sq_nonneg v.x, sq_nonneg v.y, sq_nonneg v.z]
  have hprod : 0 < r.dot r * v.dot v := by nlinarith [sq_nonneg (r.dot v)]
  have hr1 : 0 < r.dot r := by
    rcases hr0.eq_or_lt with k | k
    · rw [← k, zero_mul] at hprod; exact absurd hprod (lt_irrefl _)
    · exact k
  have hv1 : 0 < v.dot v := by
    rcases hv0.eq_or_lt with k | k
    · rw [← k, mul_zero] at hprod; exact absurd hprod (lt_irrefl _)
    · exact k
  have hd : 0 < r.norm := sqrt_pos.mpr hr1
  have hdd : r.norm ^ 2 = r.dot r := sq_sqrt hr0
  have hhx : (vcross r v).x * (vcross r v).x + (vcross r v).y * (vcross r v).y + (vcross r v).z * (vcross r v).z = (r.cross v).dot (r.cross v) := rfl
  have hrh : r.dot (vcross r v) = 0 := by simp only [vcross, Vec.dot]; ring
  have hvh : v.dot (vcross r v) = 0 := by simp only [vcross, Vec.dot]; ring
  obtain ⟨h1, h2, h3, h4⟩ := ecc_vector (h0 := √((r.cross v).dot (r.cross v))) (v := v) hg.ne' hd hdd
  set e := eccVector old.gm r.norm r v (vcross r v) with he
  have hee : e.dot e = eccSq old.gm r v := h3
  have hpos : 0 ≤ eccSq old.gm r v := by
    rw [← hee]; unfold Vec.dot; nlinarith [sq_nonneg e.x, sq_nonneg e.y, sq_nonneg e.z]
  have hsnap : snap (eccSq old.gm r v) = eccSq old.gm r v := by
    unfold snap
    split_ifs with k
    · rcases hs with hs | hs
      · exact hs.symm
      · linarith
    · rfl
  refine ⟨e, √((vcross r v).x * (vcross r v).x + (vcross r v).y * (vcross r v).y), √((r.cross v).dot (r.cross v)), 2 / r.norm - v.dot v / old.gm,
    ?_, hpos, ?_, sq_sqrt hh.le, ?_⟩
  · unfold classical
    simp only
    rw [if_neg, hhx]
    · change shape old r v t r.norm _ _ (flatten _ _ e) _ _ (snap ((flatten _ _ e).dot (flatten _ _ e))) = _
      rw [h4, hee, hsnap]
      rfl
    · push Not
      exact ⟨hg.ne', hd, hv1, hh⟩
  · rw [← sq, ← sq]
    rfl
  · have hksq : √(eccSq old.gm r v) ^ 2 = e.dot e := by rw [sq_sqrt hpos, hee]
    obtain ⟨g1, g2, g3, g4, g5⟩ := unit_of hksq hd hdd hrh h1
    generalize (if √(eccSq old.gm r v) = 0 then over r r.norm else over e (√(eccSq old.gm r v))) = P at *
    have hh0 : (vcross r v).dot (vcross r v) = √((r.cross v).dot (r.cross v)) ^ 2 := by rw [sq_sqrt hh.le]; rfl
    have hh1 : 0 < √((r.cross v).dot (r.cross v)) := sqrt_pos.mpr hh
    refine ⟨hg, hd, hh1, sqrt_nonneg _, g1, g2, hh0, hrh, hdd.symm, ?_, ?_, ?_⟩
    · rw [sq_sqrt hpos, sq_sqrt hh.le]
      unfold eccSq
      ring
    · rw [sq_sqrt hh.le]
      have : √(eccSq old.gm r v) * r.dot P = e.dot r := by
        unfold Vec.dot at *
        linear_combination r.x * g3 + r.y * g4 + r.z * g5
      rw [this, h2]
      ring
    · exact frame_velocity g1 g2 hh0 hh1.ne' hg.ne' hd.ne' hvh g3 g4 g5

/-- The elements of the shape and the orientation. -/
noncomputable def shaped (old : Elements) (h P : Vec) (n0 h0 inv k : ℝ) : Elements :=
  { old with
    ascNode := nodeOf h n0, incl := inclOf h n0 h0, argPer := argOf h P n0 h0, minorToMajor := √|1 - k ^ 2|, ecc := k,
    q := h0 ^ 2 / old.gm / (1 + k), majorAxis := if inv = 0 then old.majorAxis else 1 / inv,
    t0 := if inv = 0 then old.t0 else 1 / inv * √(|1 / inv| / old.gm) }

theorem shape_eq {old : Elements} {r v h ev : Vec} {d h0 inv ecc2 : ℝ} (t n0 : ℝ) (h2 : 0 ≤ ecc2)
    (s : OrbitState old.gm r v h (if √ecc2 = 0 then over r d else over ev (√ecc2)) d h0 inv (√ecc2)) :
    shape old r v t d inv h ev n0 h0 ecc2 =
      timing (shaped old h (if √ecc2 = 0 then over r d else over ev (√ecc2)) n0 h0 inv (√ecc2)) r v t d inv h
        (if √ecc2 = 0 then over r d else over ev (√ecc2)) h0 := by
  have hk := s.kpos
  have hg := s.mass
  have hh := s.hpos
  have hax := s.axis
  have hsq : √ecc2 ^ 2 = ecc2 := sq_sqrt h2
  have hroot : √(1 - inv * h0 * h0 / old.gm) = √ecc2 := by
    congr 1
    rw [← hsq]
    linear_combination (-1) * hax
  unfold shape
  simp only
  rw [hroot]
  have hsp : old.gm / h0 * (1 + √ecc2) ≠ 0 := by positivity
  have hq : (if √ecc2 < 9 / 10 then (1 - √ecc2) / inv else h0 / (old.gm / h0 * (1 + √ecc2))) = h0 ^ 2 / old.gm / (1 + √ecc2) := by
    split_ifs with hl
    · have hi : inv ≠ 0 := by
        intro h0
        rw [h0, zero_mul] at hax
        nlinarith
      have : 1 + √ecc2 ≠ 0 := by positivity
      rw [div_eq_div_iff hi this]
      linear_combination (-1) * hax
    · field_simp
  have hqpos : 0 < h0 ^ 2 / old.gm / (1 + √ecc2) := by positivity
  rw [hq]
  rw [if_neg (by push Not; exact ⟨fun _ => hsp, hqpos⟩)]
  have hinv : (if √ecc2 < 9 / 10 then inv else (1 - √ecc2) / (h0 ^ 2 / old.gm / (1 + √ecc2))) = inv := by
    split_ifs with hl
    · rfl
    · rw [div_eq_iff hqpos.ne']
      have : 1 + √ecc2 ≠ 0 := by positivity
      field_simp
      field_simp at hax
      linear_combination (-1) * hax
  rw [hinv]
  unfold shaped
  rw [hsq]
  by_cases hz : inv = 0 <;> simp [hz]

/-- The result of the function stands for the given position and velocity, at a time not far from the given one. -/
structure Result (K : ℝ → ℝ → ℝ) (old el : Elements) (r v h P : Vec) (t d n0 h0 k tol : ℝ) : Prop where
  good : Good el old.gm
  ecc : el.ecc = k
  size : el.q * (1 + k) = h0 ^ 2 / old.gm
  node : el.ascNode = nodeOf h n0
  incl : el.incl = inclOf h n0 h0
  arg : el.argPer = argOf h P n0 h0
  towards : el.perihVec = P
  side : el.sideways = if k ≤ 1 then over (vcross h P) h0 else over (vcross h P) (-h0)
  sign : 1 < k → el.angularMomentum < 0
  place : ∃ t', |t' - t| ≤ tol * |el.t0| ∧ posnAndVel K el t' = { loc := r, dist := d, vel := some v }

theorem series_close {a k c S : ℝ} {tol : ℝ} (ha : |a| ≤ 4) (hk0 : 0 ≤ k) (hk : k ≤ 2) (hc : |c| ≤ 10) (h : HasSum (fun n => a * coeff c n) S)
    (ht : tol = 1 / 10 ^ 29 := by rfl) : |(a * (1 - k) - k * a * Kepler.remainingTerms c) - (a - k * S)| ≤ tol := by
  by_cases h0 : a = 0
  · have : S = 0 := by
      rw [h0] at h
      simp only [zero_mul] at h
      exact h.unique hasSum_zero
    rw [h0, this, ht]
    simp only [zero_mul, mul_zero, sub_zero, abs_zero]
    positivity
  · have h1 : HasSum (coeff c) (S / a) := by
      have := h.div_const a
      simpa only [mul_div_cancel_left₀ _ h0] using this
    have h2 := remaining hc h1
    have e : (a * (1 - k) - k * a * Kepler.remainingTerms c) - (a - k * S) = -(k * a * (Kepler.remainingTerms c - (S / a - 1))) := by
      field_simp
      ring
    rw [e, abs_neg, abs_mul, abs_mul, abs_of_nonneg hk0, ht]
    have h3 : k * |a| ≤ 2 * 4 := mul_le_mul hk ha (abs_nonneg a) (by norm_num)
    have h4 : k * |a| * |Kepler.remainingTerms c - (S / a - 1)| ≤ 2 * 4 * (1 / 10 ^ 30) := mul_le_mul h3 h2 (abs_nonneg _) (by norm_num)
    have h5 : (2 : ℝ) * 4 * (1 / 10 ^ 30) ≤ 1 / 10 ^ 29 := by norm_num
    linarith

theorem nearly_ell {a k : ℝ} (ha : |a| ≤ π) (hk0 : 0 ≤ k) (hk : k ≤ 1) :
    |(a * (1 - k) - k * a * Kepler.remainingTerms (-a * a)) - (a - k * sin a)| ≤ 1 / 10 ^ 29 := by
  have hp := pi_lt_d2
  have h10 : |-a * a| ≤ 10 := by
    rw [abs_mul, abs_neg]
    nlinarith [abs_nonneg a]
  exact series_close (tol := 1 / 10 ^ 29) (by linarith) hk0 (by linarith) h10 (sin_series a)

theorem ell_one {u k m : ℝ} (hm : m ≠ 0) (h : m ^ 2 = 1 - k ^ 2) : (u + k) ^ 2 + ((m ^ 2 - k * u) ^ 2 - u ^ 2) / m ^ 2 = 1 := by
  have : (m ^ 2 - k * u) ^ 2 - u ^ 2 = (1 - (u + k) ^ 2) * m ^ 2 := by
    rw [h]
    ring
  rw [this, mul_div_cancel_right₀ _ (pow_ne_zero 2 hm)]
  ring

open Classical in
theorem timing_ell {K : ℝ → ℝ → ℝ} (hK : Solves K) {old : Elements} {r v h P : Vec} {d h0 inv k : ℝ} (t n0 : ℝ) (s : OrbitState old.gm r v h P d h0 inv k) (hk : k < 1) :
    ∃ el, timing (shaped old h P n0 h0 inv k) r v t d inv h P h0 = .ok el ∧ Result K old el r v h P t d n0 h0 k (if Nearly k then 1 / 10 ^ 29 else 0) := by
  have hk0 := s.kpos
  have hg := s.mass
  have hh := s.hpos
  have hd := s.dpos
  have hax := s.axis
  have hcon := s.conic
  obtain ⟨hdd, hr⟩ := state_polar s
  obtain ⟨hQQ, hPQ⟩ := frame_unit s.pp s.hp s.hh hh.ne'
  have hm2 : 0 < 1 - k ^ 2 := by nlinarith
  have hp : 0 < h0 ^ 2 / old.gm := by positivity
  have hinv : 0 < inv := by
    by_contra hn
    nlinarith
  have hv := s.vel
  have hside : vdot r (vcross h P) / h0 = r.dot (over (vcross h P) h0) := by
    unfold vdot Vec.dot over
    simp only
    ring
  have hp2 : old.gm / h0 = h0 / (h0 ^ 2 / old.gm) := by field_simp
  rw [hp2] at hv
  have hhp : h0 = √(old.gm * (h0 ^ 2 / old.gm)) := by
    rw [mul_div_cancel₀ _ hg.ne', sqrt_sq hh.le]
  set p := h0 ^ 2 / old.gm with hpdef
  set Q := over (vcross h P) h0 with hQ
  set X := r.dot P with hX
  set Y := r.dot Q with hY
  set m := √(1 - k ^ 2) with hm
  have hmm : m ^ 2 = 1 - k ^ 2 := sq_sqrt hm2.le
  have hm0 : 0 < m := sqrt_pos.mpr hm2
  have habs : √|1 - k ^ 2| = m := by rw [abs_of_pos hm2]
  have hA : 0 < 1 / inv := by positivity
  have hqA : p / (1 + k) / (1 - k) = 1 / inv := by
    have h1 : 1 + k ≠ 0 := by linarith
    have h2 : 1 - k ≠ 0 := by linarith
    field_simp
    linear_combination hax
  have hpA : p = 1 / inv * m ^ 2 := by
    rw [hmm]
    field_simp
    linear_combination hax
  -- the eccentric anomaly
  have hone : (X * inv + k) ^ 2 + (Y * inv / m) ^ 2 = 1 := by
    have hd2 : d = p - k * X := by linarith
    have hip : inv * p = m ^ 2 := by rw [hmm]; exact hax
    have hY2 : Y ^ 2 = (p - k * X) ^ 2 - X ^ 2 := by rw [← hd2]; linarith
    have h3 : (Y * inv / m) ^ 2 = ((inv * p - k * (X * inv)) ^ 2 - (X * inv) ^ 2) / m ^ 2 := by
      rw [div_pow, mul_pow Y, hY2]
      ring
    rw [h3, hip]
    exact ell_one hm0.ne' hmm
  set a := Ellipse.atan2 (Y * inv / m) (X * inv + k) with ha
  obtain ⟨hca, hsa⟩ : cos a = X * inv + k ∧ sin a = Y * inv / m := by
    have := atan2_scaled (x := X * inv + k) (y := Y * inv / m) one_pos one_pos (by rw [one_mul, one_mul, hone]; norm_num)
    rw [one_mul, one_mul, div_one, div_one] at this
    exact this
  set M := (if Nearly k then a * (1 - k) - k * a * Kepler.remainingTerms (-a * a) else a - k * (Y * inv / m)) with hM
  have hMdiff : |M - (a - k * sin a)| ≤ if Nearly k then 1 / 10 ^ 29 else 0 := by
    rw [hM]
    split_ifs
    · exact nearly_ell (Complex.abs_arg_le_pi _) hk0 hk.le
    · rw [hsa, sub_self, abs_zero]
  set t0 := 1 / inv * √(|1 / inv| / old.gm) with ht0
  have ht0pos : 0 < t0 := by
    have : 0 < |1 / inv| := abs_pos.mpr hA.ne'
    positivity
  refine ⟨{ shaped old h P n0 h0 inv k with meanAnomaly := M, perihTime := t - M * t0, sideways := Q, angularMomentum := h0, perihVec := P }, ?_, ?_⟩
  · unfold timing
    simp only
    have e1 : (shaped old h P n0 h0 inv k).minorToMajor = m := habs
    have e2 : (shaped old h P n0 h0 inv k).ecc = k := rfl
    have e3 : (shaped old h P n0 h0 inv k).t0 = t0 := by unfold shaped; simp only; rw [if_neg hinv.ne']
    rw [e1, e2, e3, if_pos ⟨hinv.ne', hm0.ne'⟩, if_pos hinv, hside]
    rfl
  · have hgood : Good { shaped old h P n0 h0 inv k with meanAnomaly := M, perihTime := t - M * t0, sideways := Q, angularMomentum := h0, perihVec := P } old.gm := by
      refine ⟨hg, ?_, hk0, s.pp, hQQ, hPQ, fun _ => ⟨habs, ?_, ?_⟩, fun h1 => ?_, fun h1 => ?_⟩
      · change 0 < p / (1 + k)
        positivity
      · change (if inv = 0 then old.t0 else _) = p / (1 + k) / (1 - k) * √(p / (1 + k) / (1 - k) / old.gm)
        rw [if_neg hinv.ne', hqA, abs_of_pos hA]
      · change h0 = √(old.gm * (p / (1 + k) * (1 + k)))
        rw [div_mul_cancel₀ _ (by linarith)]
        exact hhp
      · exact absurd hk (not_lt.mpr (le_of_lt h1))
      · exact absurd h1 hk.ne
    refine ⟨hgood, rfl, ?_, rfl, rfl, rfl, rfl, ?_, fun h => absurd h (not_lt.mpr hk.le), t + ((a - k * sin a) - M) * t0, ?_, ?_⟩
    · change p / (1 + k) * (1 + k) = p
      rw [div_mul_cancel₀ _ (by linarith)]
    · rw [if_pos hk.le]
    · change _ ≤ _ * |if inv = 0 then old.t0 else t0|
      rw [if_neg hinv.ne', add_sub_cancel_left, abs_mul, abs_sub_comm]
      exact mul_le_mul_of_nonneg_right hMdiff (abs_nonneg _)
    · have hmean : (t + ((a - k * sin a) - M) * t0 - (t - M * t0)) / t0 = a - k * sin a := by
        rw [show t + ((a - k * sin a) - M) * t0 - (t - M * t0) = (a - k * sin a) * t0 by ring, mul_div_cancel_right₀ _ ht0pos.ne']
      have hKa : K k (a - k * sin a) = a := by
        have h1 := (hK k (a - k * sin a) hk0 hk.ne).1 hk
        obtain ⟨E, -, hu⟩ := C82_unique hk0 hk.ne (a - k * sin a)
        rw [hu _ (hK k _ hk0 hk.ne), hu a ⟨fun _ => rfl, fun k' => absurd hk (not_lt.mpr k'.le)⟩]
      obtain ⟨-, n, hn⟩ := halfTurn_spec (a - k * sin a)
      have hX' : 1 / inv * (cos a - k) = X := by rw [hca]; field_simp; ring
      have hY' : 1 / inv * (sin a * m) = Y := by rw [hsa]; field_simp
      have hat := atan2_scaled (x := cos a - k) (y := sin a * m) hA hd (by rw [hX', hY', hdd])
      rw [hX', hY'] at hat
      unfold posnAndVel
      simp only
      have e2 : (shaped old h P n0 h0 inv k).ecc = k := rfl
      have e3 : (shaped old h P n0 h0 inv k).t0 = t0 := by unfold shaped; simp only; rw [if_neg hinv.ne']
      have e4 : (shaped old h P n0 h0 inv k).minorToMajor = m := habs
      rw [e2, e3, hmean, if_pos hk.ne, if_pos hk, hn]
      simp only [trueAnomaly]
      rw [if_neg hk.ne, if_neg (not_lt.mpr hk.le : ¬ k > 1), if_neg (not_lt.mpr hk.le : ¬ k > 1), anomaly_turns hK hk0 hk, hKa, cos_add_int_mul_two_pi,
        sin_add_int_mul_two_pi, e4]
      have hqp : p / (1 + k) * (1 + k) = p := div_mul_cancel₀ _ (by linarith)
      refine (place_form hd hdd hat.1 hat.2 ?_ ?_ hh.ne').trans ?_
      · change d + k * X = p / (1 + k) * (1 + k)
        rw [hqp, hcon]
      · change 0 < p / (1 + k) * (1 + k)
        rw [hqp]
        exact hp
      · change Place.mk (Vec.comb2 X P Y Q) d (some (Vec.comb2 (-(h0 / (p / (1 + k) * (1 + k))) * (Y / d)) P (h0 / (p / (1 + k) * (1 + k)) * (k + X / d)) Q)) = _
        rw [hqp, ← hv, ← hr]

theorem cosh_small {a : ℝ} (h : cosh a ≤ 10) : |a| ≤ 3 := by
  by_contra hn
  push Not at hn
  have h1 : cosh 3 < cosh a := by
    rw [← cosh_abs a]
    exact cosh_lt_cosh.mpr (by rw [abs_of_pos (by norm_num : (0 : ℝ) < 3), abs_abs]; exact hn)
  have h2 : exp 3 / 2 ≤ cosh 3 := by
    rw [cosh_eq]
    linarith [exp_pos (-3)]
  have h3 : exp 3 = exp 1 ^ 3 := by rw [← exp_nat_mul]; norm_num
  have h4 := exp_one_gt_d9
  have h5 : (2.7182818283 : ℝ) ^ 3 ≤ exp 1 ^ 3 := pow_le_pow_left₀ (by norm_num) h4.le 3
  have h6 : (20.08 : ℝ) ≤ 2.7182818283 ^ 3 := by norm_num
  linarith

theorem hyp_cosh {u k m : ℝ} (hk : k ≠ 0) (hm : m ≠ 0) (h : m ^ 2 = k ^ 2 - 1) :
    ((u + 1) / k) ^ 2 = 1 + (u ^ 2 - ((m ^ 2 - u) / k) ^ 2) / m ^ 2 := by
  field_simp
  rw [h]
  ring

open Classical in
theorem timing_hyp {K : ℝ → ℝ → ℝ} (hK : Solves K) {old : Elements} {r v h P : Vec} {d h0 inv k : ℝ} (t n0 : ℝ) (s : OrbitState old.gm r v h P d h0 inv k) (hk : 1 < k)
    (hfar : Nearly k → d * |inv| ≤ 9) :
    ∃ el, timing (shaped old h P n0 h0 inv k) r v t d inv h P h0 = .ok el ∧ Result K old el r v h P t d n0 h0 k (if Nearly k then 1 / 10 ^ 29 else 0) := by
  have hk0 := s.kpos
  have hg := s.mass
  have hh := s.hpos
  have hd := s.dpos
  have hax := s.axis
  have hcon := s.conic
  obtain ⟨hdd, hr⟩ := state_polar s
  obtain ⟨hQQ, hPQ⟩ := frame_unit s.pp s.hp s.hh hh.ne'
  have hm2 : 0 < k ^ 2 - 1 := by nlinarith
  have hp : 0 < h0 ^ 2 / old.gm := by positivity
  have hinv : inv < 0 := by
    by_contra hn
    nlinarith
  have hv := s.vel
  have hside : vdot r (vcross h P) / h0 = r.dot (over (vcross h P) h0) := by
    unfold vdot Vec.dot over
    simp only
    ring
  have hp2 : old.gm / h0 = h0 / (h0 ^ 2 / old.gm) := by field_simp
  rw [hp2] at hv
  have hhp : h0 = √(old.gm * (h0 ^ 2 / old.gm)) := by
    rw [mul_div_cancel₀ _ hg.ne', sqrt_sq hh.le]
  set p := h0 ^ 2 / old.gm with hpdef
  set Q := over (vcross h P) h0 with hQ
  have hnegQ : over (vcross h P) (-h0) = ⟨-Q.x, -Q.y, -Q.z⟩ := by
    rw [hQ]
    unfold over
    simp only [div_neg]
  set X := r.dot P with hX
  set Y := r.dot Q with hY
  set m := √(k ^ 2 - 1) with hm
  have hmm : m ^ 2 = k ^ 2 - 1 := sq_sqrt hm2.le
  have hm0 : 0 < m := sqrt_pos.mpr hm2
  have habs : √|1 - k ^ 2| = m := by rw [abs_sub_comm, abs_of_pos hm2]
  have hA : 0 < -(1 / inv) := by rw [← neg_div, neg_div, ← div_neg]; exact div_pos one_pos (by linarith)
  have hqA : p / (1 + k) / (k - 1) = -(1 / inv) := by
    have h1 : 1 + k ≠ 0 := by linarith
    have h2 : k - 1 ≠ 0 := by linarith
    have h3 := hinv.ne
    field_simp
    linear_combination hax
  set A := -(1 / inv) with hAdef
  have hiA : inv * A = -1 := by
    rw [hAdef]
    have := hinv.ne
    field_simp
  have hpA : p = A * m ^ 2 := by
    rw [hmm]
    have : A * (inv * p) = A * (1 - k ^ 2) := by rw [hax]
    linear_combination (-1) * this + p * hiA
  set a := arsinh (Y * inv / m) with ha
  have hsa : sinh a = Y * inv / m := sinh_arsinh _
  have hY' : A * (sinh a * m) = -Y := by
    rw [hsa, div_mul_cancel₀ _ hm0.ne']
    linear_combination Y * hiA
  have hXd : X = (p - d) / k := by
    rw [eq_div_iff (by linarith)]
    linarith
  have hcosh : cosh a = (d / A + 1) / k := by
    have h1 : cosh a ^ 2 = ((d / A + 1) / k) ^ 2 := by
      rw [hyp_cosh (by linarith) hm0.ne' hmm, cosh_sq' a]
      congr 1
      rw [eq_div_iff (by positivity), ← mul_pow]
      have h2 : (sinh a * m) ^ 2 = Y ^ 2 / A ^ 2 := by
        rw [eq_div_iff (by positivity)]
        linear_combination (A * (sinh a * m) - Y) * hY'
      have h3 : Y ^ 2 = d ^ 2 - ((p - d) / k) ^ 2 := by rw [← hXd]; linarith
      rw [h2, h3, hpA]
      have : k ≠ 0 := by linarith
      field_simp
    exact (sq_eq_sq₀ (cosh_pos a).le (by positivity)).mp h1
  have hX' : A * (k - cosh a) = X := by
    rw [hcosh, hXd, hpA, hmm]
    have : k ≠ 0 := by linarith
    field_simp
    ring
  set M := (if Nearly k then a * (1 - k) - k * a * Kepler.remainingTerms (a * a) else a - k * (Y * inv / m)) with hM
  have hMdiff : |M - (a - k * sinh a)| ≤ if Nearly k then 1 / 10 ^ 29 else 0 := by
    rw [hM]
    split_ifs with hn
    · have hf := hfar hn
      have ha3 : |a| ≤ 3 := by
        apply cosh_small
        rw [hcosh, div_le_iff₀ (by linarith)]
        have : d / A = d * |inv| := by
          rw [abs_of_neg hinv, div_eq_iff hA.ne']
          linear_combination d * hiA
        rw [this]
        linarith
      exact series_close (tol := 1 / 10 ^ 29) (by linarith) hk0 (by linarith [hn.2]) (by rw [abs_mul]; nlinarith [abs_nonneg a]) (sinh_series a)
    · rw [hsa, sub_self, abs_zero]
  set t0 := 1 / inv * √(|1 / inv| / old.gm) with ht0
  have ht0A : t0 = -1 * (A * √(A / old.gm)) := by
    rw [ht0, hAdef, abs_of_neg (by linarith)]
    ring
  have ht0neg : t0 < 0 := by
    rw [ht0A]
    have : 0 < A * √(A / old.gm) := by positivity
    linarith
  refine ⟨{ shaped old h P n0 h0 inv k with meanAnomaly := M, perihTime := t - M * |t0|, sideways := over (vcross h P) (-h0), angularMomentum := -h0, perihVec := P }, ?_, ?_⟩
  · unfold timing
    simp only
    have e1 : (shaped old h P n0 h0 inv k).minorToMajor = m := habs
    have e2 : (shaped old h P n0 h0 inv k).ecc = k := rfl
    have e3 : (shaped old h P n0 h0 inv k).t0 = t0 := by unfold shaped; simp only; rw [if_neg hinv.ne]
    rw [e1, e2, e3, if_pos ⟨hinv.ne, hm0.ne'⟩, if_neg (not_lt.mpr hinv.le), if_neg (not_not.mpr ht0neg.le), hside]
  · have hgood : Good { shaped old h P n0 h0 inv k with meanAnomaly := M, perihTime := t - M * |t0|, sideways := over (vcross h P) (-h0), angularMomentum := -h0, perihVec := P } old.gm := by
      refine ⟨hg, ?_, hk0, s.pp, ?_, ?_, fun h1 => ?_, fun _ => ⟨habs, -1, .inr rfl, ?_, ?_⟩, fun h1 => ?_⟩
      · change 0 < p / (1 + k)
        positivity
      · change (over (vcross h P) (-h0)).dot (over (vcross h P) (-h0)) = 1
        rw [hnegQ]
        unfold Vec.dot at hQQ ⊢
        linear_combination hQQ
      · change P.dot (over (vcross h P) (-h0)) = 0
        rw [hnegQ]
        unfold Vec.dot at hPQ ⊢
        linear_combination (-1) * hPQ
      · exact absurd hk (not_lt.mpr (le_of_lt h1))
      · change (if inv = 0 then old.t0 else t0) = -1 * (p / (1 + k) / (k - 1) * √(p / (1 + k) / (k - 1) / old.gm))
        rw [if_neg hinv.ne, hqA, ht0A]
      · change -h0 = -1 * √(old.gm * (p / (1 + k) * (1 + k)))
        rw [div_mul_cancel₀ _ (by linarith), ← hhp]
        ring
      · exact absurd h1 hk.ne'
    refine ⟨hgood, rfl, ?_, rfl, rfl, rfl, rfl, ?_, fun _ => neg_lt_zero.mpr hh, t + (M - (a - k * sinh a)) * t0, ?_, ?_⟩
    · change p / (1 + k) * (1 + k) = p
      rw [div_mul_cancel₀ _ (by linarith)]
    · rw [if_neg (not_le.mpr hk)]
    · change _ ≤ _ * |if inv = 0 then old.t0 else t0|
      rw [if_neg hinv.ne, add_sub_cancel_left, abs_mul]
      exact mul_le_mul_of_nonneg_right hMdiff (abs_nonneg _)
    · have hmean : (t + (M - (a - k * sinh a)) * t0 - (t - M * |t0|)) / t0 = k * sinh a - a := by
        rw [abs_of_neg ht0neg, show t + (M - (a - k * sinh a)) * t0 - (t - M * -t0) = (k * sinh a - a) * t0 by ring, mul_div_cancel_right₀ _ ht0neg.ne]
      have hKa : K k (k * sinh a - a) = a := by
        obtain ⟨E, -, hu⟩ := C82_unique hk0 hk.ne' (k * sinh a - a)
        rw [hu _ (hK k _ hk0 hk.ne'), hu a ⟨fun k' => absurd hk (not_lt.mpr k'.le), fun _ => rfl⟩]
      have hdd' : d ^ 2 = X ^ 2 + (-Y) ^ 2 := by rw [neg_sq]; exact hdd
      have hat := atan2_scaled (x := k - cosh a) (y := sinh a * m) hA hd (by rw [hX', hY', hdd'])
      rw [hX', hY'] at hat
      unfold posnAndVel
      simp only
      have e2 : (shaped old h P n0 h0 inv k).ecc = k := rfl
      have e3 : (shaped old h P n0 h0 inv k).t0 = t0 := by unfold shaped; simp only; rw [if_neg hinv.ne]
      have e4 : (shaped old h P n0 h0 inv k).minorToMajor = m := habs
      rw [e2, e3, hmean, if_pos hk.ne', if_neg (not_lt.mpr hk.le)]
      simp only [trueAnomaly]
      rw [if_neg hk.ne', if_pos (show k > 1 from hk), if_pos (show k > 1 from hk), hKa, e4]
      have hqp : p / (1 + k) * (1 + k) = p := div_mul_cancel₀ _ (by linarith)
      refine (place_form hd hdd' hat.1 hat.2 ?_ ?_ (neg_ne_zero.mpr hh.ne')).trans ?_
      · change d + k * X = p / (1 + k) * (1 + k)
        rw [hqp, hcon]
      · change 0 < p / (1 + k) * (1 + k)
        rw [hqp]
        exact hp
      · change Place.mk (Vec.comb2 X P (-Y) (over (vcross h P) (-h0))) d (some (Vec.comb2 (-(-h0 / (p / (1 + k) * (1 + k))) * (-Y / d)) P
          (-h0 / (p / (1 + k) * (1 + k)) * (k + X / d)) (over (vcross h P) (-h0)))) = _
        have f1 : Vec.comb2 X P (-Y) (over (vcross h P) (-h0)) = r := by
          rw [hnegQ]
          refine Eq.trans ?_ hr.symm
          unfold Vec.comb2
          ext <;> simp only <;> ring
        have f2 : Vec.comb2 (-(-h0 / p) * (-Y / d)) P (-h0 / p * (k + X / d)) (over (vcross h P) (-h0)) = v := by
          rw [hnegQ]
          refine Eq.trans ?_ hv.symm
          unfold Vec.comb2
          ext <;> simp only <;> ring
        rw [hqp, f1, f2]

theorem cubic_inj {x y : ℝ} (h : x ^ 3 + 3 * x = y ^ 3 + 3 * y) : x = y := by
  have h1 : (x - y) * (x ^ 2 + x * y + y ^ 2 + 3) = 0 := by linear_combination h
  have h2 : 0 < x ^ 2 + x * y + y ^ 2 + 3 := by nlinarith [sq_nonneg (x + y), sq_nonneg (x - y)]
  exact sub_eq_zero.mp ((mul_eq_zero.mp h1).resolve_right h2.ne')

theorem dot_comb2 {P Q : Vec} {a b c e : ℝ} (pp : P.dot P = 1) (qq : Q.dot Q = 1) (pq : P.dot Q = 0) :
    (Vec.comb2 a P b Q).dot (Vec.comb2 c P e Q) = a * c + b * e := by
  unfold Vec.dot at *
  simp only [Vec.comb2]
  linear_combination (a * c) * pp + (b * e) * qq + (a * e + b * c) * pq

theorem timing_par {K : ℝ → ℝ → ℝ} {old : Elements} {r v h P : Vec} {d h0 inv : ℝ} (t n0 : ℝ) (s : OrbitState old.gm r v h P d h0 inv 1) :
    ∃ el, timing (shaped old h P n0 h0 inv 1) r v t d inv h P h0 = .ok el ∧ Result K old el r v h P t d n0 h0 1 0 := by
  have hg := s.mass
  have hh := s.hpos
  have hd := s.dpos
  have hax := s.axis
  have hcon := s.conic
  obtain ⟨hdd, hr⟩ := state_polar s
  obtain ⟨hQQ, hPQ⟩ := frame_unit s.pp s.hp s.hh hh.ne'
  have hpp := s.pp
  have hp : 0 < h0 ^ 2 / old.gm := by positivity
  have hv := s.vel
  have hp2 : old.gm / h0 = h0 / (h0 ^ 2 / old.gm) := by field_simp
  have hhp : h0 = √(old.gm * (h0 ^ 2 / old.gm)) := by
    rw [mul_div_cancel₀ _ hg.ne', sqrt_sq hh.le]
  have hrv : vdot r v = old.gm / h0 * r.dot (over (vcross h P) h0) := by
    change r.dot v = _
    refine (congrArg₂ Vec.dot hr hv).trans ?_
    rw [dot_comb2 hpp hQQ hPQ]
    have hdne := hd.ne'
    field_simp
    ring
  rw [hp2] at hv
  set p := h0 ^ 2 / old.gm with hpdef
  set Q := over (vcross h P) h0 with hQ
  set X := r.dot P with hX
  set Y := r.dot Q with hY
  rw [one_mul] at hcon
  set q := p / (1 + 1) with hq
  have hqpos : 0 < q := by positivity
  have hpq : p = 2 * q := by rw [hq]; ring
  set tau := (if vdot r v < 0 then -√(d / q - 1) else √(d / q - 1)) with htau
  have hdq : 0 ≤ d / q - 1 := by
    rw [sub_nonneg, le_div_iff₀ hqpos]
    have hXd : X ≤ d := by nlinarith [sq_nonneg Y]
    linarith
  have htt : tau ^ 2 = d / q - 1 := by
    rw [htau]
    split_ifs
    · rw [neg_sq, sq_sqrt hdq]
    · rw [sq_sqrt hdq]
  have hdt : d = q * (1 + tau ^ 2) := by
    rw [htt]
    field_simp
    ring
  have hXt : X = q * (1 - tau ^ 2) := by linarith
  have hYt : Y = q * (2 * tau) := by
    have hYY : Y ^ 2 = (q * (2 * tau)) ^ 2 := by
      have : Y ^ 2 = d ^ 2 - X ^ 2 := by linarith
      rw [this, hdt, hXt]
      ring
    have hgh : 0 < old.gm / h0 := by positivity
    rcases sq_eq_sq_iff_eq_or_eq_neg.mp hYY with k | k
    · exact k
    · by_cases hneg : vdot r v < 0
      · have h1 : Y < 0 := by
          rw [hrv] at hneg
          by_contra hn
          nlinarith
        have h2 : tau ≤ 0 := by
          rw [htau, if_pos hneg]
          linarith [sqrt_nonneg (d / q - 1)]
        nlinarith
      · have h1 : 0 ≤ Y := by
          rw [hrv] at hneg
          by_contra hn
          nlinarith
        have h2 : 0 ≤ tau := by
          rw [htau, if_neg hneg]
          exact sqrt_nonneg _
        have : 0 ≤ q * (2 * tau) := by positivity
        linarith
  set w0 := 3 / √2 / (q * √(q / old.gm)) with hw0
  have hw0pos : 0 < w0 := by positivity
  refine ⟨{ shaped old h P n0 h0 inv 1 with w0 := w0, perihTime := t - tau * (tau * tau / 3 + 1) * 3 / w0, sideways := Q, angularMomentum := h0, perihVec := P }, ?_, ?_⟩
  · unfold timing
    simp only
    have e1 : (shaped old h P n0 h0 inv 1).minorToMajor = 0 := by unfold shaped; simp
    rw [e1, if_neg (by simp)]
    rfl
  · have hgood : Good { shaped old h P n0 h0 inv 1 with w0 := w0, perihTime := t - tau * (tau * tau / 3 + 1) * 3 / w0, sideways := Q, angularMomentum := h0, perihVec := P } old.gm := by
      refine ⟨hg, hqpos, zero_le_one, s.pp, hQQ, hPQ, fun h1 => ?_, fun h1 => ?_, fun _ => ⟨rfl, ?_⟩⟩
      · exact absurd h1 (lt_irrefl _)
      · exact absurd h1 (lt_irrefl _)
      · change h0 = √(old.gm * (p / (1 + 1) * (1 + 1)))
        rw [div_mul_cancel₀ _ (by norm_num)]
        exact hhp
    refine ⟨hgood, rfl, ?_, rfl, rfl, rfl, rfl, ?_, fun h => absurd h (lt_irrefl _), t, by simp, ?_⟩
    · change p / (1 + 1) * (1 + 1) = p
      rw [div_mul_cancel₀ _ (by norm_num)]
    · rw [if_pos le_rfl]
    · unfold posnAndVel
      simp only
      have e2 : (shaped old h P n0 h0 inv 1).ecc = 1 := rfl
      rw [e2, if_neg (not_not.mpr rfl)]
      simp only [trueAnomaly]
      rw [if_pos trivial, tau_spec]
      have hg2 : 2 * (w0 * (t - (t - tau * (tau * tau / 3 + 1) * 3 / w0)) * (1 / 2)) = tau ^ 3 + 3 * tau := by
        field_simp
        ring
      have hc := tau_cubic (w0 * (t - (t - tau * (tau * tau / 3 + 1) * 3 / w0)) * (1 / 2))
      rw [hg2] at hc
      rw [cubic_inj hc]
      have hat := twice_arctan tau
      have hpos : 0 < 1 + tau ^ 2 := by positivity
      have hqp : p / (1 + 1) * (1 + 1) = p := div_mul_cancel₀ _ (by norm_num)
      refine (place_form (X := X) (Y := Y) hd hdd ?_ ?_ ?_ ?_ hh.ne').trans ?_
      · rw [hat.1, hXt, hdt, mul_div_mul_left _ _ hqpos.ne']
      · rw [hat.2, hYt, hdt, mul_div_mul_left _ _ hqpos.ne']
      · change d + 1 * X = p / (1 + 1) * (1 + 1)
        rw [hqp, one_mul, hcon]
      · change 0 < p / (1 + 1) * (1 + 1)
        rw [hqp]
        exact hp
      · change Place.mk (Vec.comb2 X P Y Q) d (some (Vec.comb2 (-(h0 / (p / (1 + 1) * (1 + 1))) * (Y / d)) P (h0 / (p / (1 + 1) * (1 + 1)) * (1 + X / d)) Q)) = _
        rw [hqp, ← hv, ← hr]

/-! ## Angles -/

theorem incl_spec {h : Vec} {n0 h0 : ℝ} (hh : 0 < h0) (hn0 : 0 ≤ n0) (hz : h0 ^ 2 = n0 ^ 2 + h.z ^ 2) :
    cos (inclOf h n0 h0) = h.z / h0 ∧ sin (inclOf h n0 h0) = n0 / h0 ∧ 0 ≤ inclOf h n0 h0 ∧ inclOf h n0 h0 ≤ π := by
  have hx0 : 0 ≤ n0 / h0 := by positivity
  have hx1 : n0 / h0 ≤ 1 := by
    rw [div_le_one hh]
    nlinarith [sq_nonneg h.z]
  have hs := sin_arcsin (by linarith) hx1
  have hc : cos (arcsin (n0 / h0)) = |h.z| / h0 := by
    rw [cos_arcsin, show 1 - (n0 / h0) ^ 2 = (|h.z| / h0) ^ 2 by rw [div_pow, div_pow, sq_abs]; field_simp; linarith]
    exact sqrt_sq (by positivity)
  have h1 := arcsin_nonneg.mpr hx0
  have h2 := arcsin_le_pi_div_two (n0 / h0)
  have hp := pi_pos
  unfold inclOf
  simp only
  split_ifs with hneg
  · rw [cos_pi_sub, sin_pi_sub, hc, hs, abs_of_neg hneg]
    exact ⟨by ring, rfl, by linarith, by linarith⟩
  · rw [hc, hs, abs_of_nonneg (not_lt.mp hneg)]
    exact ⟨rfl, rfl, by linarith, by linarith⟩

theorem node_spec {h : Vec} {n0 : ℝ} (hn0 : 0 < n0) (hn : n0 ^ 2 = h.x ^ 2 + h.y ^ 2) :
    cos (nodeOf h n0) = -h.y / n0 ∧ sin (nodeOf h n0) = h.x / n0 := by
  unfold nodeOf
  rw [if_neg hn0.ne']
  have := atan2_scaled (x := -h.y) (y := h.x) one_pos hn0 (by rw [one_mul, one_mul, hn]; ring)
  rwa [one_mul, one_mul] at this

/-- The two ways to get an angle from its cosine `c` and the absolute value of its sine. -/
theorem arg_core {c s : ℝ} (h : c ^ 2 + s ^ 2 = 1) (neg : Prop) [Decidable neg] (a : ℝ)
    (ha : a = if c < 7 / 10 ∧ c > -(7 / 10) then arccos c else if c < 0 then π - |arcsin s| else |arcsin s|) :
    cos (if neg then π + π - a else a) = c ∧ sin (if neg then π + π - a else a) = (if neg then -|s| else |s|) ∧
    0 ≤ (if neg then π + π - a else a) ∧ (if neg then π + π - a else a) ≤ 2 * π := by
  have hp := pi_pos
  have hc : -1 ≤ c ∧ c ≤ 1 := abs_le.mp ((sq_le_one_iff_abs_le_one c).mp (by nlinarith [sq_nonneg s]))
  have hs : -1 ≤ s ∧ s ≤ 1 := abs_le.mp ((sq_le_one_iff_abs_le_one s).mp (by nlinarith [sq_nonneg c]))
  have key : cos a = c ∧ sin a = |s| ∧ 0 ≤ a ∧ a ≤ π := by
    have hcs : cos |arcsin s| = |c| := by
      rw [cos_abs, cos_arcsin, show 1 - s ^ 2 = c ^ 2 by linarith, sqrt_sq_eq_abs]
    have hss : sin |arcsin s| = |s| := by
      rcases le_total 0 s with k | k
      · rw [abs_of_nonneg (arcsin_nonneg.mpr k), sin_arcsin hs.1 hs.2, abs_of_nonneg k]
      · rw [abs_of_nonpos (arcsin_nonpos.mpr k), sin_neg, sin_arcsin hs.1 hs.2, abs_of_nonpos k]
    have hb : |arcsin s| ≤ π / 2 := abs_le.mpr ⟨neg_pi_div_two_le_arcsin s, arcsin_le_pi_div_two s⟩
    have hb0 := abs_nonneg (arcsin s)
    rw [ha]
    split_ifs with h1 h2
    · refine ⟨cos_arccos hc.1 hc.2, ?_, arccos_nonneg c, arccos_le_pi c⟩
      rw [sin_arccos, show 1 - c ^ 2 = s ^ 2 by linarith, sqrt_sq_eq_abs]
    · rw [cos_pi_sub, sin_pi_sub, hcs, hss, abs_of_neg h2]
      exact ⟨by ring, rfl, by linarith, by linarith⟩
    · rw [hcs, hss, abs_of_nonneg (not_lt.mp h2)]
      exact ⟨rfl, rfl, by linarith, by linarith⟩
  obtain ⟨k1, k2, k3, k4⟩ := key
  split_ifs with hneg
  · rw [show π + π - a = 2 * π - a by ring, cos_two_pi_sub, sin_two_pi_sub, k1, k2]
    exact ⟨rfl, rfl, by linarith, by linarith⟩
  · exact ⟨k1, k2, by linarith, by linarith⟩

theorem arg_spec {h P : Vec} {n0 h0 : ℝ} (hn0 : 0 < n0) (hn : n0 ^ 2 = h.x ^ 2 + h.y ^ 2) (hh : 0 < h0) (hz : h0 ^ 2 = n0 ^ 2 + h.z ^ 2)
    (hpp : P.dot P = 1) (hp : h.dot P = 0) :
    cos (argOf h P n0 h0) = (h.x * P.y - h.y * P.x) / n0 ∧ sin (argOf h P n0 h0) = P.z * h0 / n0 ∧
    0 ≤ argOf h P n0 h0 ∧ argOf h P n0 h0 ≤ 2 * π := by
  unfold Vec.dot at hpp hp
  have hs : (P.x * h.x * h.z + P.y * h.y * h.z - P.z * n0 * n0) / (n0 * h0) = -(P.z * h0 / n0) := by
    field_simp
    linear_combination h.z * hp + P.z * hz
  have hone : ((h.x * P.y - h.y * P.x) / n0) ^ 2 + (P.z * h0 / n0) ^ 2 = 1 := by
    rw [div_pow, div_pow, ← add_div, div_eq_one_iff_eq (by positivity), mul_pow, hz, hn]
    linear_combination (h.x ^ 2 + h.y ^ 2) * hpp - (h.x * P.x + h.y * P.y - h.z * P.z) * hp
  have := arg_core (c := (h.x * P.y - h.y * P.x) / n0) (s := -(P.z * h0 / n0)) (by rw [neg_sq]; exact hone) (P.z < 0) _ rfl
  unfold argOf
  simp only [ne_eq, hn0.ne', not_false_eq_true, if_true]
  rw [hs]
  obtain ⟨g1, g2, g3⟩ := this
  refine ⟨g1, ?_, g3⟩
  rw [g2, abs_neg]
  have hpos : 0 < h0 / n0 := by positivity
  split_ifs with hneg
  · rw [abs_of_neg (by rw [mul_div_assoc]; exact mul_neg_of_neg_of_pos hneg hpos), neg_neg]
  · rw [abs_of_nonneg (by rw [mul_div_assoc]; exact mul_nonneg (not_lt.mp hneg) hpos.le)]

theorem angles_spec {h P : Vec} {n0 h0 : ℝ} (hn0 : 0 < n0) (hn : n0 ^ 2 = h.x ^ 2 + h.y ^ 2) (hh : 0 < h0) (hz : h.dot h = h0 ^ 2)
    (hpp : P.dot P = 1) (hp : h.dot P = 0) :
    towardsPerihelion (nodeOf h n0) (inclOf h n0 h0) (argOf h P n0 h0) = P ∧
    ahead (nodeOf h n0) (inclOf h n0 h0) (argOf h P n0 h0) = over (vcross h P) h0 := by
  have hz' : h0 ^ 2 = n0 ^ 2 + h.z ^ 2 := by
    rw [hn, ← hz]
    unfold Vec.dot
    ring
  obtain ⟨a1, a2, -⟩ := arg_spec hn0 hn hh hz' hpp hp
  obtain ⟨i1, i2, -⟩ := incl_spec hh hn0.le hz'
  obtain ⟨o1, o2⟩ := node_spec hn0 hn
  unfold ahead towardsPerihelion
  rw [cos_add_pi_div_two, sin_add_pi_div_two, a1, a2, i1, i2, o1, o2]
  unfold Vec.dot at hpp hp
  constructor
  · ext <;> simp only
    · field_simp
      linear_combination (-h.x) * hp - P.x * hn
    · field_simp
      linear_combination (-h.y) * hp - P.y * hn
    · field_simp
  · ext <;> simp only [over, vcross]
    · field_simp
      linear_combination h.y * P.z * hz' + h.z * P.y * hn + h.z * h.y * hp
    · field_simp
      linear_combination (-h.x * P.z) * hz' - h.z * P.x * hn - h.z * h.x * hp
    · field_simp

/-! ## C84: from the elements -/

/-- Elements that fit together describe a motion as Newton says. -/
theorem falls {K : ℝ → ℝ → ℝ} (hK : Solves K) {e : Elements} {gm : ℝ} (h : Good e gm) : Newtonian K e gm := by
  rcases lt_trichotomy e.ecc 1 with h1 | h1 | h1
  · exact ell_falls hK h h1
  · exact par_falls h h1
  · exact hyp_falls hK h h1

/-- The vector towards the perihelion. -/
theorem perih_vec (e : Elements) (hi : cos e.incl ≠ 0) :
    over (perihRaw e) (perihLen e) = towardsPerihelion e.ascNode e.incl e.argPer := by
  have hone := sin_sq_add_cos_sq e.argPer
  have hinc := sin_sq_add_cos_sq e.incl
  have hpos : 0 < (cos e.argPer) ^ 2 + (sin e.argPer * cos e.incl) ^ 2 := by
    rcases eq_or_ne (cos e.argPer) 0 with h | h
    · rw [h] at hone ⊢
      have : sin e.argPer ≠ 0 := by
        intro h'
        rw [h'] at hone
        norm_num at hone
      positivity
    · positivity
  have hr := sqrt_pos.mpr hpos
  have hrr := sq_sqrt hpos.le
  set ρ := √((cos e.argPer) ^ 2 + (sin e.argPer * cos e.incl) ^ 2) with hρ
  obtain ⟨hc, hs⟩ := atan2_scaled (x := cos e.argPer) (y := sin e.argPer * cos e.incl) one_pos hr (by rw [hrr, one_mul, one_mul])
  rw [one_mul] at hc hs
  have hz : (perihRaw e).z = sin e.incl * (sin e.argPer * cos e.incl / ρ) := by
    unfold perihRaw perihLon
    simp only [add_sub_cancel_left]
    rw [hs]
  have hlen : perihLen e = cos e.incl / ρ := by
    unfold perihLen
    simp only
    rw [hz, show cos e.incl * cos e.incl + sin e.incl * (sin e.argPer * cos e.incl / ρ) * (sin e.incl * (sin e.argPer * cos e.incl / ρ)) = (cos e.incl / ρ) ^ 2 by
      field_simp
      rw [hrr]
      linear_combination (sin e.argPer ^ 2) * hinc + hone, sqrt_sq_eq_abs]
    split_ifs with hneg
    · rw [abs_of_neg (div_neg_of_neg_of_pos hneg hr)]
      ring
    · rw [abs_of_nonneg (div_nonneg (not_lt.mp hneg) hr.le)]
  rw [hlen]
  unfold towardsPerihelion over
  ext <;> simp only
  · unfold perihRaw perihLon
    simp only
    rw [cos_add, hc, hs]
    field_simp
  · unfold perihRaw perihLon
    simp only
    rw [sin_add, hc, hs]
    field_simp
  · rw [hz]
    field_simp

/-- The vector a quarter of a turn further on. -/
theorem perih_side (node incl arg : ℝ) :
    vcross ⟨sin node * sin incl, -cos node * sin incl, cos incl⟩ (towardsPerihelion node incl arg) = ahead node incl arg := by
  unfold ahead towardsPerihelion vcross
  have hn := sin_sq_add_cos_sq node
  have hi := sin_sq_add_cos_sq incl
  rw [cos_add_pi_div_two, sin_add_pi_div_two]
  ext <;> simp only
  · linear_combination (-cos node * sin arg) * hi
  · linear_combination (-sin node * sin arg) * hi
  · linear_combination (cos arg * sin incl) * hn

theorem towards_unit (node incl arg : ℝ) : (towardsPerihelion node incl arg).dot (towardsPerihelion node incl arg) = 1 := by
  unfold towardsPerihelion Vec.dot
  simp only
  linear_combination (cos arg ^ 2 + sin arg ^ 2 * cos incl ^ 2) * sin_sq_add_cos_sq node + sin arg ^ 2 * sin_sq_add_cos_sq incl + sin_sq_add_cos_sq arg

theorem towards_ahead (node incl arg : ℝ) : (towardsPerihelion node incl arg).dot (ahead node incl arg) = 0 := by
  unfold ahead towardsPerihelion Vec.dot
  rw [cos_add_pi_div_two, sin_add_pi_div_two]
  simp only
  linear_combination (-(cos arg * sin arg) + sin arg * cos arg * cos incl ^ 2) * sin_sq_add_cos_sq node + sin arg * cos arg * sin_sq_add_cos_sq incl

theorem derive_fields (e : Elements) (gm : ℝ) (hi : cos e.incl ≠ 0) :
    (derive e gm).perihVec = towardsPerihelion e.ascNode e.incl e.argPer ∧ (derive e gm).sideways = ahead e.ascNode e.incl e.argPer ∧
    (derive e gm).q = e.q ∧ (derive e gm).ecc = e.ecc ∧ (derive e gm).perihTime = e.perihTime ∧ (derive e gm).minorToMajor = √|1 - e.ecc * e.ecc| ∧
    (derive e gm).angularMomentum = √(gm * e.q * (1 + e.ecc)) := by
  have key : ∀ e' : Elements, e'.ascNode = e.ascNode → e'.incl = e.incl → e'.argPer = e.argPer →
      (orbitVectors e').perihVec = towardsPerihelion e.ascNode e.incl e.argPer ∧ (orbitVectors e').sideways = ahead e.ascNode e.incl e.argPer := by
    intro e' h1 h2 h3
    unfold orbitVectors
    simp only
    rw [perih_vec e' (by rw [h2]; exact hi), h1, h2, h3]
    exact ⟨rfl, perih_side _ _ _⟩
  unfold derive
  simp only
  by_cases h1 : e.ecc = 1
  · simp only [h1, ne_eq, not_true_eq_false, if_false]
    exact ⟨(key _ rfl rfl rfl).1, (key _ rfl rfl rfl).2, rfl, rfl, rfl, rfl, rfl⟩
  · simp only [h1, ne_eq, not_false_eq_true, if_true]
    exact ⟨(key _ rfl rfl rfl).1, (key _ rfl rfl rfl).2, rfl, rfl, rfl, rfl, rfl⟩

theorem derive_good {e : Elements} {gm : ℝ} (hg : 0 < gm) (hq : 0 < e.q) (hk : 0 ≤ e.ecc) (hi : cos e.incl ≠ 0) : Good (derive e gm) gm := by
  obtain ⟨h1, h2, h3, h4, h5, h6, h7⟩ := derive_fields e gm hi
  refine ⟨hg, by rw [h3]; exact hq, by rw [h4]; exact hk, by rw [h1]; exact towards_unit _ _ _, by rw [h2]; exact towards_unit _ _ _,
    by rw [h1, h2]; exact towards_ahead _ _ _, ?_, ?_, ?_⟩
  · rw [h3, h4, h6, h7]
    intro k
    refine ⟨by rw [abs_of_nonneg (by nlinarith), sq], ?_, by rw [mul_assoc]⟩
    unfold derive orbitVectors
    simp only [ne_eq, k.ne, not_false_eq_true, if_true]
    rw [abs_of_pos (by linarith)]
  · rw [h3, h4, h6, h7]
    intro k
    refine ⟨by rw [abs_of_nonpos (by nlinarith), sq, neg_sub], 1, Or.inl rfl, ?_, by rw [mul_assoc, one_mul]⟩
    unfold derive orbitVectors
    simp only [ne_eq, k.ne', not_false_eq_true, if_true]
    rw [abs_of_neg (by linarith), neg_sub, one_mul]
  · rw [h3, h4, h7]
    intro k
    refine ⟨?_, by rw [mul_assoc]⟩
    unfold derive orbitVectors
    simp only [ne_eq, k, not_true_eq_false, if_false]

theorem half_zero : halfTurn 0 = 0 := by
  obtain ⟨h, n, hn⟩ := halfTurn_spec 0
  rw [zero_add] at hn
  rw [hn, abs_mul, abs_of_pos (by positivity : 0 < 2 * π)] at h
  have hp := pi_pos
  have : |(n : ℝ)| < 1 := by nlinarith
  have hz : n = 0 := by
    have : |n| < 1 := by exact_mod_cast this
    exact Int.abs_lt_one_iff.mp this
  rw [hn, hz]
  norm_num

theorem atan2_zero {x : ℝ} (hx : 0 < x) : Ellipse.atan2 0 x = 0 := by
  unfold Ellipse.atan2
  exact Complex.arg_ofReal_of_nonneg hx.le

/-- At the time of the perihelion the true anomaly is 0. -/
theorem at_perihelion {K : ℝ → ℝ → ℝ} (hK : Solves K) {e : Elements} (hk : 0 ≤ e.ecc) :
    posnAndVel K e e.perihTime = placeAt e 0 := by
  unfold posnAndVel
  simp only [sub_self, zero_div]
  rw [half_zero, ite_self]
  by_cases h1 : e.ecc = 1
  · rw [if_neg (not_not.mpr h1)]
    congr 1
    unfold trueAnomaly
    simp only
    rw [if_pos h1]
    simp [cubeRoot]
  · rw [if_pos h1]
    have hz : K e.ecc 0 = 0 := (C82_unique hk h1 0).unique (hK e.ecc 0 hk h1) ⟨fun _ => by simp, fun _ => by simp⟩
    have : trueAnomaly K { e with meanAnomaly := 0 } 0 = 0 := by
      unfold trueAnomaly
      simp only
      rw [if_neg h1, hz]
      simp only [sinh_zero, sin_zero, ite_self, zero_mul, cosh_zero, cos_zero]
      refine atan2_zero ?_
      split_ifs with k
      · linarith
      · have : e.ecc < 1 := lt_of_le_of_ne (not_lt.mp k) h1
        linarith
    rw [this]
    rfl

theorem flip_nu {K : ℝ → ℝ → ℝ} (hK : Solves K) {e e' : Elements} (h1 : 1 < e.ecc) (hecc : e'.ecc = e.ecc)
    (hm : e'.minorToMajor = e.minorToMajor) (hma : e'.meanAnomaly = -e.meanAnomaly) (t t' : ℝ) :
    cos (trueAnomaly K e' t') = cos (trueAnomaly K e t) ∧ sin (trueAnomaly K e' t') = -sin (trueAnomaly K e t) := by
  have hodd : ∀ m, K e.ecc (-m) = -K e.ecc m := fun m => by
    have h2 := hK e.ecc m (by linarith) h1.ne'
    refine (C82_unique (by linarith) h1.ne' (-m)).unique (hK e.ecc (-m) (by linarith) h1.ne') ⟨fun h => absurd h (not_lt.mpr h1.le), fun _ => ?_⟩
    have := h2.2 h1
    rw [sinh_neg]
    linarith
  unfold trueAnomaly
  simp only
  rw [hecc, if_neg h1.ne', if_neg h1.ne', hma, hodd, if_pos (show e.ecc > 1 from h1), if_pos (show e.ecc > 1 from h1), if_pos (show e.ecc > 1 from h1),
    if_pos (show e.ecc > 1 from h1), cosh_neg, sinh_neg, hm, neg_mul]
  generalize sinh (K e.ecc e.meanAnomaly) * e.minorToMajor = y
  generalize e.ecc - cosh (K e.ecc e.meanAnomaly) = x
  unfold Ellipse.atan2
  have : (⟨x, -y⟩ : ℂ) = (starRingEnd ℂ) ⟨x, y⟩ := rfl
  rw [this, Complex.arg_conj]
  split_ifs with h
  · rw [h]; simp
  · exact ⟨cos_neg _, sin_neg _⟩

theorem flip_place {e e' : Elements} {nu nu' : ℝ} (hecc : e'.ecc = e.ecc) (hq : e'.q = e.q) (hp : e'.perihVec = e.perihVec)
    (hs : e'.sideways = ⟨-e.sideways.x, -e.sideways.y, -e.sideways.z⟩) (ha : e'.angularMomentum = -e.angularMomentum)
    (hnu : cos nu' = cos nu ∧ sin nu' = -sin nu) : placeAt e' nu' = placeAt e nu := by
  unfold placeAt
  simp only
  rw [hnu.1, hnu.2, hq, hecc, hp, hs, ha]
  simp only [ne_eq, neg_eq_zero]
  generalize cos nu = c
  generalize sin nu = n
  generalize e.q * (1 + e.ecc) = r0
  generalize r0 / (1 + e.ecc * c) = d
  generalize e.ecc = k
  generalize e.angularMomentum = a
  have h1 : k * -n * -a / (d * r0) = k * n * a / (d * r0) := by ring
  have h2 : d * c * (k * n * a / (d * r0)) - d * -n * (-a / (d * d)) = d * c * (k * n * a / (d * r0)) - d * n * (a / (d * d)) := by ring
  have h3 : d * -n * (k * n * a / (d * r0)) + d * c * (-a / (d * d)) = -(d * n * (k * n * a / (d * r0)) + d * c * (a / (d * d))) := by ring
  have h4 : d * -n = -(d * n) := by ring
  rw [h1, h2, h3, h4]
  simp only [neg_mul_neg]

theorem posn_hyp {K : ℝ → ℝ → ℝ} {e : Elements} (h1 : 1 < e.ecc) (t : ℝ) :
    posnAndVel K e t = placeAt e (trueAnomaly K { e with meanAnomaly := (t - e.perihTime) / e.t0 } ((t - e.perihTime) / e.t0)) := by
  unfold posnAndVel
  simp only
  rw [if_pos h1.ne', if_neg (not_lt.mpr h1.le)]
  rfl

/-- A hyperbolic orbit described with a negative angular momentum and a negative unit of time. -/
theorem hyp_flip {K : ℝ → ℝ → ℝ} (hK : Solves K) {e e' : Elements} (h1 : 1 < e.ecc) (hecc : e'.ecc = e.ecc) (hq : e'.q = e.q)
    (ht : e'.perihTime = e.perihTime) (hm : e'.minorToMajor = e.minorToMajor) (hp : e'.perihVec = e.perihVec)
    (hs : e'.sideways = ⟨-e.sideways.x, -e.sideways.y, -e.sideways.z⟩) (h0 : e'.t0 = -e.t0) (ha : e'.angularMomentum = -e.angularMomentum) (t : ℝ) :
    posnAndVel K e' t = posnAndVel K e t := by
  rw [posn_hyp h1, posn_hyp (e := e') (by rw [hecc]; exact h1)]
  refine flip_place hecc hq hp hs ha (flip_nu (e := { e with meanAnomaly := (t - e.perihTime) / e.t0 }) (e' := { e' with meanAnomaly := (t - e'.perihTime) / e'.t0 })
    hK h1 hecc hm ?_ _ _)
  show (t - e'.perihTime) / e'.t0 = -((t - e.perihTime) / e.t0)
  rw [ht, h0, div_neg]

/-! ## C83: from a position and a velocity -/

/-- What `calc_classical_elements` finds. -/
theorem found {K : ℝ → ℝ → ℝ} (hK : Solves K) {old : Elements} (hg : 0 < old.gm) {r v : Vec} (t : ℝ) (hh : 0 < (r.cross v).dot (r.cross v))
    (hs : eccSq old.gm r v = 1 ∨ 1 / 10 ^ 14 ≤ |eccSq old.gm r v - 1|)
    (hfar : 1 < eccSq old.gm r v → √(eccSq old.gm r v) < 100001 / 100000 → r.norm * |2 / r.norm - v.dot v / old.gm| ≤ 9) :
    ∃ el P n0 h0, classical old r v t = .ok el ∧
      Result K old el r v (r.cross v) P t r.norm n0 h0 (√(eccSq old.gm r v))
        (if eccSq old.gm r v ≠ 1 ∧ |√(eccSq old.gm r v) - 1| < 1 / 100000 then 1 / 10 ^ 29 else 0) ∧
      0 ≤ n0 ∧ n0 ^ 2 = (r.cross v).x ^ 2 + (r.cross v).y ^ 2 ∧ 0 < h0 ∧ (r.cross v).dot (r.cross v) = h0 ^ 2 ∧ P.dot P = 1 ∧ (r.cross v).dot P = 0 ∧
      r.norm + √(eccSq old.gm r v) * r.dot P = h0 ^ 2 / old.gm := by
  obtain ⟨ev, n0, h0, inv, h1, h2, h3, h4, h5⟩ := classical_state hg t hh hs
  have hshape := shape_eq t n0 h2 h5
  rw [hshape] at h1
  have hinv : inv = 2 / r.norm - v.dot v / old.gm := by
    have := h5.axis
    rw [sq_sqrt h2, h4] at this
    unfold eccSq at this
    have hx : (r.cross v).dot (r.cross v) / old.gm ≠ 0 := by positivity
    exact mul_right_cancel₀ hx (by linarith)
  have hk2 := sq_sqrt h2
  have hk0 := sqrt_nonneg (eccSq old.gm r v)
  set P := (if √(eccSq old.gm r v) = 0 then over r r.norm else over ev (√(eccSq old.gm r v)))
  have hrest : 0 ≤ n0 ∧ n0 ^ 2 = (r.cross v).x ^ 2 + (r.cross v).y ^ 2 ∧ 0 < h0 ∧ (r.cross v).dot (r.cross v) = h0 ^ 2 ∧ P.dot P = 1 ∧ (r.cross v).dot P = 0 ∧
      r.norm + √(eccSq old.gm r v) * r.dot P = h0 ^ 2 / old.gm :=
    ⟨by rw [h3]; positivity, by rw [h3, sq_sqrt (by positivity)], h5.hpos, h4.symm, h5.pp, h5.hp, h5.conic⟩
  have hnear : ∀ k : ℝ, Nearly k ↔ |k - 1| < 1 / 100000 := fun k => by
    unfold Nearly
    rw [abs_lt]
    constructor
    · rintro ⟨a, b⟩; constructor <;> linarith
    · rintro ⟨a, b⟩; constructor <;> linarith
  rcases lt_trichotomy (eccSq old.gm r v) 1 with hk | hk | hk
  · have hk1 : √(eccSq old.gm r v) < 1 := by nlinarith
    obtain ⟨el, g1, g2⟩ := timing_ell hK t n0 h5 hk1
    refine ⟨el, P, n0, h0, by rw [h1]; exact g1, ?_, hrest⟩
    simp only [hnear] at g2
    simp only [hk.ne, ne_eq, not_false_eq_true, true_and]
    exact g2
  · have hk1 : √(eccSq old.gm r v) = 1 := by rw [hk, sqrt_one]
    rw [hk1] at h1 h5 hrest ⊢
    obtain ⟨el, g1, g2⟩ := timing_par (K := K) t n0 h5
    refine ⟨el, P, n0, h0, by rw [h1]; exact g1, ?_, hrest⟩
    simp only [hk, ne_eq, not_true_eq_false, false_and, if_false]
    exact g2
  · have hk1 : 1 < √(eccSq old.gm r v) := by nlinarith
    obtain ⟨el, g1, g2⟩ := timing_hyp hK t n0 h5 hk1 (fun hn => by rw [hinv]; exact hfar hk hn.2)
    refine ⟨el, P, n0, h0, by rw [h1]; exact g1, ?_, hrest⟩
    simp only [hnear] at g2
    simp only [hk.ne', ne_eq, not_false_eq_true, true_and]
    exact g2

/-- The elements found from a position and a velocity: eccentricity and size are those of the orbit, the places given for them move as Newton says, and
they pass through the position with the velocity, at the time given; for nearly parabolic orbits at a time that differs by less than 10⁻²⁹ units of
time of the orbit. -/
theorem C83_elements {K : ℝ → ℝ → ℝ} (hK : Solves K) {old : Elements} (hg : 0 < old.gm) {r v : Vec} (t : ℝ) (hh : 0 < (r.cross v).dot (r.cross v))
    (hs : eccSq old.gm r v = 1 ∨ 1 / 10 ^ 14 ≤ |eccSq old.gm r v - 1|)
    (hfar : 1 < eccSq old.gm r v → √(eccSq old.gm r v) < 100001 / 100000 → r.norm * |2 / r.norm - v.dot v / old.gm| ≤ 9) :
    ∃ el, classical old r v t = .ok el ∧ el.ecc = √(eccSq old.gm r v) ∧ el.q * (1 + el.ecc) = (r.cross v).dot (r.cross v) / old.gm ∧
      Newtonian K el old.gm ∧
      ∃ t', |t' - t| ≤ (if eccSq old.gm r v ≠ 1 ∧ |√(eccSq old.gm r v) - 1| < 1 / 100000 then 1 / 10 ^ 29 else 0) * |el.t0| ∧
        posnAndVel K el t' = { loc := r, dist := r.norm, vel := some v } := by
  obtain ⟨el, P, n0, h0, h1, h2, -, -, -, h3, -⟩ := found hK hg t hh hs hfar
  exact ⟨el, h1, h2.ecc, by rw [h2.ecc, h2.size, h3], falls hK h2.good, h2.place⟩

/-- Away from the parabola, and on it, the position and the velocity come back at the very time. -/
theorem C83_back {K : ℝ → ℝ → ℝ} (hK : Solves K) {old : Elements} (hg : 0 < old.gm) {r v : Vec} (t : ℝ) (hh : 0 < (r.cross v).dot (r.cross v))
    (hs : eccSq old.gm r v = 1 ∨ 1 / 100000 ≤ |√(eccSq old.gm r v) - 1|) :
    ∃ el, classical old r v t = .ok el ∧ posnAndVel K el t = { loc := r, dist := r.norm, vel := some v } := by
  have hkk : 1 / 100000 ≤ |√(eccSq old.gm r v) - 1| → 1 / 100000 ≤ |eccSq old.gm r v - 1| ∧ ¬ (1 < eccSq old.gm r v ∧ √(eccSq old.gm r v) < 100001 / 100000) := by
    intro h
    have hk := sqrt_nonneg (eccSq old.gm r v)
    rcases le_or_gt (eccSq old.gm r v) 0 with h0 | h0
    · constructor
      · rw [abs_of_neg (by linarith)]
        linarith
      · rintro ⟨h2, -⟩
        linarith
    · have h2 := sq_sqrt h0.le
      constructor
      · rw [← h2, show √(eccSq old.gm r v) ^ 2 - 1 = (√(eccSq old.gm r v) - 1) * (√(eccSq old.gm r v) + 1) by ring, abs_mul, abs_of_pos (show 0 < √(eccSq old.gm r v) + 1 by linarith)]
        nlinarith [abs_nonneg (√(eccSq old.gm r v) - 1)]
      · rintro ⟨h3, h4⟩
        have : 1 < √(eccSq old.gm r v) := by nlinarith
        rw [abs_of_pos (by linarith)] at h
        linarith
  obtain ⟨el, h1, -, -, -, t', h2, h3⟩ := C83_elements hK hg t hh (hs.imp id fun h => by have := (hkk h).1; linarith [show (1 : ℝ) / 10 ^ 14 ≤ 1 / 100000 by norm_num])
    (fun ha hb => by
      rcases hs with h | h
      · linarith
      · exact absurd ⟨ha, hb⟩ (hkk h).2)
  rw [if_neg (by rintro ⟨ha, hb⟩; rcases hs with h | h; exact ha h; linarith), zero_mul] at h2
  have : t' = t := by
    have := abs_nonpos_iff.mp h2
    linarith
  rw [this] at h3
  exact ⟨el, h1, h3⟩

/-- Nothing is found for a body that is at the origin, at rest, or moves along the line to the origin: the program stops. -/
theorem C83_stops {old : Elements} {r v : Vec} (t : ℝ) (hh : (r.cross v).dot (r.cross v) = 0) : classical old r v t = .abort := by
  unfold classical
  simp only
  rw [if_pos]
  right; right; right
  unfold Vec.dot at hh
  change ¬ (r.cross v).x * (r.cross v).x + (r.cross v).y * (r.cross v).y + (r.cross v).z * (r.cross v).z > 0
  linarith

/-- The angles describe the orientation of the orbit, unless its plane is that of x and y. -/
theorem C83_angles {K : ℝ → ℝ → ℝ} (hK : Solves K) {old : Elements} (hg : 0 < old.gm) {r v : Vec} (t : ℝ) (hh : (r.cross v).x ≠ 0 ∨ (r.cross v).y ≠ 0)
    (hs : eccSq old.gm r v = 1 ∨ 1 / 10 ^ 14 ≤ |eccSq old.gm r v - 1|)
    (hfar : 1 < eccSq old.gm r v → √(eccSq old.gm r v) < 100001 / 100000 → r.norm * |2 / r.norm - v.dot v / old.gm| ≤ 9) :
    ∃ el, classical old r v t = .ok el ∧ el.perihVec = towardsPerihelion el.ascNode el.incl el.argPer ∧
      ahead el.ascNode el.incl el.argPer = over ((r.cross v).cross el.perihVec) (√((r.cross v).dot (r.cross v))) ∧
      0 ≤ el.incl ∧ el.incl ≤ π ∧ 0 ≤ el.argPer ∧ el.argPer ≤ 2 * π ∧ -π < el.ascNode ∧ el.ascNode ≤ π := by
  have hpos : 0 < (r.cross v).x ^ 2 + (r.cross v).y ^ 2 := by rcases hh with h | h <;> positivity
  have hd : 0 < (r.cross v).dot (r.cross v) := by
    unfold Vec.dot
    nlinarith [sq_nonneg (r.cross v).z]
  obtain ⟨el, P, n0, h0, h1, h2, g1, g2, g3, g4, g5, g6, -⟩ := found hK hg t hd hs hfar
  have hn : 0 < n0 := lt_of_le_of_ne g1 fun h => by rw [← h] at g2; norm_num at g2; linarith
  have hz : h0 ^ 2 = n0 ^ 2 + (r.cross v).z ^ 2 := by rw [← g4, g2]; unfold Vec.dot; ring
  obtain ⟨k1, k2⟩ := angles_spec hn g2 g3 g4 g5 g6
  obtain ⟨-, -, k3, k4⟩ := incl_spec g3 hn.le hz
  obtain ⟨-, -, k5, k6⟩ := arg_spec hn g2 g3 hz g5 g6
  refine ⟨el, h1, ?_⟩
  rw [h2.node, h2.incl, h2.arg, h2.towards, k1, k2, g4, sqrt_sq g3.le]
  refine ⟨rfl, rfl, k3, k4, k5, k6, ?_⟩
  unfold nodeOf
  rw [if_neg hn.ne']
  exact ⟨Complex.neg_pi_lt_arg _, Complex.arg_le_pi _⟩

theorem flat_spec {h P : Vec} {h0 : ℝ} (hx : h.x = 0) (hy : h.y = 0) (hh : 0 < h0) (hz : h.dot h = h0 ^ 2) (hpp : P.dot P = 1) (hp : h.dot P = 0) :
    towardsPerihelion (nodeOf h 0) (inclOf h 0 h0) (argOf h P 0 h0) = ⟨P.x, if 0 < h.z then |P.y| else -|P.y|, 0⟩ := by
  unfold Vec.dot at hz hpp hp
  rw [hx, hy] at hz hp
  have hz2 : h.z ^ 2 = h0 ^ 2 := by linarith
  have hz0 : h.z ≠ 0 := by
    intro h
    rw [h] at hz2
    nlinarith
  have hPz : P.z = 0 := by
    have : h.z * P.z = 0 := by linarith
    exact (mul_eq_zero.mp this).resolve_left hz0
  obtain ⟨i1, i2, -⟩ := incl_spec (h := h) hh le_rfl (by rw [hz2]; ring)
  have hone : P.x ^ 2 + (P.y * h.z / h0) ^ 2 = 1 := by
    rw [div_pow, mul_pow, hz2, mul_div_cancel_right₀ _ (by positivity)]
    rw [hPz] at hpp
    linarith
  obtain ⟨a1, a2, -⟩ := arg_core hone (P.z < 0) _ rfl
  have hnode : nodeOf h 0 = 0 := by unfold nodeOf; rw [if_pos rfl]
  have hca : cos (argOf h P 0 h0) = P.x := by
    rw [← a1]
    unfold argOf
    simp only [ne_eq, not_true_eq_false, if_false]
  have hsa : sin (argOf h P 0 h0) = |P.y| := by
    rw [if_neg (show ¬ P.z < 0 by rw [hPz]; exact lt_irrefl _)] at a2
    have : |P.y * h.z / h0| = |P.y| := by
      rw [abs_div, abs_mul, abs_of_pos hh, ← abs_of_pos hh, (sq_eq_sq_iff_abs_eq_abs _ _).mp hz2, mul_div_cancel_right₀]
      rw [abs_of_pos hh]
      exact hh.ne'
    rw [if_neg (show ¬ P.z < 0 by rw [hPz]; exact lt_irrefl _), this] at a2
    rw [← a2]
    unfold argOf
    simp only [ne_eq, not_true_eq_false, if_false]
    rw [if_neg (show ¬ P.z < 0 by rw [hPz]; exact lt_irrefl _)]
  unfold towardsPerihelion
  rw [hnode, hca, hsa, i1, i2, cos_zero, sin_zero]
  have hzz : h.z = h0 ∨ h.z = -h0 := sq_eq_sq_iff_eq_or_eq_neg.mp hz2
  ext <;> simp only
  · ring
  · rcases hzz with hz | hz <;> rw [hz]
    · rw [if_pos hh, div_self hh.ne']
      ring
    · rw [if_neg (by linarith), neg_div, div_self hh.ne']
      ring
  · ring

/-- In the plane of x and y the angles give the perihelion, or its mirror image: what they describe never lies below the x axis when the motion is
counterclockwise, nor above it when it is clockwise. -/
theorem C83_flat {K : ℝ → ℝ → ℝ} (hK : Solves K) {old : Elements} (hg : 0 < old.gm) {r v : Vec} (t : ℝ) (hx : (r.cross v).x = 0) (hy : (r.cross v).y = 0)
    (hz : (r.cross v).z ≠ 0) (hs : eccSq old.gm r v = 1 ∨ 1 / 10 ^ 14 ≤ |eccSq old.gm r v - 1|)
    (hfar : 1 < eccSq old.gm r v → √(eccSq old.gm r v) < 100001 / 100000 → r.norm * |2 / r.norm - v.dot v / old.gm| ≤ 9) :
    ∃ el, classical old r v t = .ok el ∧
      towardsPerihelion el.ascNode el.incl el.argPer = ⟨el.perihVec.x, if 0 < (r.cross v).z then |el.perihVec.y| else -|el.perihVec.y|, 0⟩ := by
  have hd : 0 < (r.cross v).dot (r.cross v) := by
    unfold Vec.dot
    rw [hx, hy]
    have : 0 < (r.cross v).z * (r.cross v).z := mul_self_pos.mpr hz
    linarith
  obtain ⟨el, P, n0, h0, h1, h2, g1, g2, g3, g4, g5, g6, -⟩ := found hK hg t hd hs hfar
  have hn : n0 = 0 := by
    rw [hx, hy] at g2
    exact pow_eq_zero_iff (two_ne_zero) |>.mp (by rw [g2]; norm_num)
  refine ⟨el, h1, ?_⟩
  rw [h2.node, h2.incl, h2.arg, h2.towards, hn]
  exact flat_spec hx hy g3 g4 g5 g6

/-- Finding: a body in the plane of x and y, at its perihelion at (0, −1, 0); the angles place the perihelion at (0, 1, 0). -/
theorem C83_flat_wrong {K : ℝ → ℝ → ℝ} (hK : Solves K) {old : Elements} (hg : old.gm = 1) (t : ℝ) :
    ∃ el, classical old ⟨0, -1, 0⟩ ⟨6 / 5, 0, 0⟩ t = .ok el ∧ el.perihVec = ⟨0, -1, 0⟩ ∧ towardsPerihelion el.ascNode el.incl el.argPer = ⟨0, 1, 0⟩ := by
  have hnorm : Vec.norm ⟨0, -1, 0⟩ = 1 := by simp [Vec.norm, Vec.dot]
  have hcr : Vec.cross ⟨0, -1, 0⟩ ⟨6 / 5, 0, 0⟩ = ⟨0, 0, 6 / 5⟩ := by unfold Vec.cross; ext <;> norm_num
  have hecc : eccSq old.gm ⟨0, -1, 0⟩ ⟨6 / 5, 0, 0⟩ = (11 / 25) ^ 2 := by
    unfold eccSq
    rw [hnorm, hcr, hg]
    simp only [Vec.dot]
    norm_num
  have hroot : √((11 / 25 : ℝ) ^ 2) = 11 / 25 := sqrt_sq (by norm_num)
  obtain ⟨el, P, n0, h0, h1, h2, g1, g2, g3, g4, g5, g6, g7⟩ := found hK (old := old) (r := ⟨0, -1, 0⟩) (v := ⟨6 / 5, 0, 0⟩) (by rw [hg]; norm_num) t
    (by rw [hcr]; simp only [Vec.dot]; norm_num) (Or.inr (by rw [hecc, abs_of_neg (by norm_num)]; norm_num)) (fun h => by rw [hecc] at h; norm_num at h)
  rw [hcr] at g2 g4 g6 h2
  rw [hecc, hroot] at g7
  rw [hnorm, ← g4, hg] at g7
  have hn : n0 = 0 := by
    exact pow_eq_zero_iff (two_ne_zero) |>.mp (by rw [g2]; norm_num)
  have hPy : P.y = -1 := by
    simp only [Vec.dot] at g7
    norm_num at g7
    linarith
  have hPz : P.z = 0 := by
    simp only [Vec.dot] at g6
    linarith
  have hPx : P.x = 0 := by
    simp only [Vec.dot, hPy, hPz] at g5
    nlinarith
  have hP : P = ⟨0, -1, 0⟩ := by ext <;> assumption
  refine ⟨el, h1, by rw [h2.towards, hP], ?_⟩
  rw [h2.node, h2.incl, h2.arg, hn, flat_spec rfl rfl g3 g4 g5 g6, hPx, hPy]
  norm_num

/-- Finding: the correction meant to take out of a vector its component along `h` leaves the part 1 − |h| of it, so it works only when `h` has length 1. -/
theorem C83_flatten {h : Vec} (hh : 0 < h.dot h) (e : Vec) : (flatten h h.norm e).dot h = (1 - h.norm) * e.dot h := by
  have h1 : h.norm ^ 2 = h.dot h := sq_sqrt hh.le
  have h2 : h.norm ≠ 0 := (sqrt_pos.mpr hh).ne'
  unfold flatten
  generalize h.norm = n at *
  unfold vdot
  unfold Vec.dot at *
  simp only
  field_simp
  linear_combination (e.x * h.x + e.y * h.y + e.z * h.z) * h1

/-! ## C84 -/

/-- From the elements: the places given move as Newton says. -/
theorem C84_motion {K : ℝ → ℝ → ℝ} (hK : Solves K) {e : Elements} {gm : ℝ} (hg : 0 < gm) (hq : 0 < e.q) (hk : 0 ≤ e.ecc) (hi : cos e.incl ≠ 0) :
    Newtonian K (derive e gm) gm :=
  falls hK (derive_good hg hq hk hi)

/-- At the time of the perihelion the body is there, at the distance `q`, and moves ahead at the speed √(gm (1 + e) / q). -/
theorem C84_perihelion {K : ℝ → ℝ → ℝ} (hK : Solves K) {e : Elements} {gm : ℝ} (hg : 0 < gm) (hq : 0 < e.q) (hk : 0 ≤ e.ecc) (hi : cos e.incl ≠ 0) :
    posnAndVel K (derive e gm) e.perihTime =
      { loc := Vec.comb2 e.q (towardsPerihelion e.ascNode e.incl e.argPer) 0 ⟨0, 0, 0⟩, dist := e.q,
        vel := some (Vec.comb2 (√(gm * (1 + e.ecc) / e.q)) (ahead e.ascNode e.incl e.argPer) 0 ⟨0, 0, 0⟩) } := by
  obtain ⟨h1, h2, h3, h4, h5, -, h7⟩ := derive_fields e gm hi
  have := at_perihelion hK (e := derive e gm) (by rw [h4]; exact hk)
  rw [h5] at this
  rw [this]
  have hk1 : 1 + e.ecc ≠ 0 := by linarith
  have hang : (derive e gm).angularMomentum = e.q * √(gm * (1 + e.ecc) / e.q) := by
    rw [h7, show gm * e.q * (1 + e.ecc) = e.q ^ 2 * (gm * (1 + e.ecc) / e.q) by field_simp, sqrt_mul (by positivity), sqrt_sq hq.le]
  have hpos : 0 < √(gm * (1 + e.ecc) / e.q) := sqrt_pos.mpr (div_pos (mul_pos hg (by linarith)) hq)
  unfold placeAt
  simp only [cos_zero, sin_zero, mul_one]
  rw [h1, h2, h3, h4, hang, mul_div_cancel_right₀ _ hk1, if_pos (mul_ne_zero hq.ne' hpos.ne')]
  unfold Vec.comb2
  generalize √(gm * (1 + e.ecc) / e.q) = w
  congr 1
  · ext <;> simp only <;> ring
  · congr 1
    ext <;> simp only <;> field_simp <;> ring

/-- Finding: for an inclination of 90° the function divides by 0. -/
theorem C84_polar (e : Elements) (hi : cos e.incl = 0) : perihLen e = 0 := by
  have hp := sin_sq_add_cos_sq e.argPer
  have hs : sin (Ellipse.atan2 0 (cos e.argPer)) = 0 := by
    unfold Ellipse.atan2
    rcases le_or_gt 0 (cos e.argPer) with h | h
    · rw [show (⟨cos e.argPer, 0⟩ : ℂ) = ((cos e.argPer : ℝ) : ℂ) from rfl, Complex.arg_ofReal_of_nonneg h, sin_zero]
    · rw [show (⟨cos e.argPer, 0⟩ : ℂ) = ((cos e.argPer : ℝ) : ℂ) from rfl, Complex.arg_ofReal_of_neg h, sin_pi]
  unfold perihLen perihRaw perihLon
  simp only [add_sub_cancel_left]
  rw [hi, mul_zero, mul_zero, hs]
  simp

theorem posn_ell {K : ℝ → ℝ → ℝ} {e : Elements} (h1 : e.ecc < 1) (t : ℝ) :
    posnAndVel K e t = placeAt e (Ellipse.atan2 (sin (K e.ecc (halfTurn ((t - e.perihTime) / e.t0))) * e.minorToMajor)
      (cos (K e.ecc (halfTurn ((t - e.perihTime) / e.t0))) - e.ecc)) := by
  unfold posnAndVel
  simp only
  rw [if_pos h1.ne, if_pos h1]
  unfold trueAnomaly
  simp only
  rw [if_neg h1.ne, if_neg (not_lt.mpr h1.le), if_neg (not_lt.mpr h1.le)]
  rfl

theorem posn_par {K : ℝ → ℝ → ℝ} {e : Elements} (h1 : e.ecc = 1) (t : ℝ) :
    posnAndVel K e t = placeAt e (2 * arctan (2 * sinh (arsinh (e.w0 * (t - e.perihTime) * (1 / 2)) / 3))) := by
  unfold posnAndVel
  simp only
  rw [if_neg (not_not.mpr h1)]
  unfold trueAnomaly
  simp only
  rw [if_pos h1, tau_spec]

theorem place_congr {e e' : Elements} {nu : ℝ} (hecc : e'.ecc = e.ecc) (hq : e'.q = e.q) (hp : e'.perihVec = e.perihVec)
    (hs : e'.sideways = e.sideways) (ha : e'.angularMomentum = e.angularMomentum) : placeAt e' nu = placeAt e nu := by
  unfold placeAt
  simp only
  rw [hecc, hq, hp, hs, ha]

theorem posn_congr {K : ℝ → ℝ → ℝ} {e e' : Elements} {gm : ℝ} (h : Good e gm) (h' : Good e' gm) (h1 : e.ecc ≤ 1) (hecc : e'.ecc = e.ecc) (hq : e'.q = e.q)
    (ht : e'.perihTime = e.perihTime) (hp : e'.perihVec = e.perihVec) (hs : e'.sideways = e.sideways) (t : ℝ) :
    posnAndVel K e' t = posnAndVel K e t := by
  rcases h1.lt_or_eq with k | k
  · obtain ⟨a1, a2, a3⟩ := h.ell k
    obtain ⟨b1, b2, b3⟩ := h'.ell (by rw [hecc]; exact k)
    rw [posn_ell k, posn_ell (e := e') (by rw [hecc]; exact k), place_congr hecc hq hp hs (by rw [a3, b3, hecc, hq])]
    rw [b1, b2, a1, a2, hecc, hq, ht]
  · obtain ⟨a1, a2⟩ := h.par k
    obtain ⟨b1, b2⟩ := h'.par (by rw [hecc]; exact k)
    rw [posn_par k, posn_par (e := e') (by rw [hecc]; exact k), place_congr hecc hq hp hs (by rw [a2, b2, hecc, hq])]
    rw [b1, a1, hq, ht]

/-- The elements found from a position and a velocity, when only their numbers (time of the perihelion, its distance, eccentricity and the three angles)
are kept, describe the same motion. -/
theorem C84_again {K : ℝ → ℝ → ℝ} (hK : Solves K) {old : Elements} (hg : 0 < old.gm) {r v : Vec} (t : ℝ) (hh : (r.cross v).x ≠ 0 ∨ (r.cross v).y ≠ 0)
    (hz : (r.cross v).z ≠ 0) (hs : eccSq old.gm r v = 1 ∨ 1 / 10 ^ 14 ≤ |eccSq old.gm r v - 1|)
    (hfar : 1 < eccSq old.gm r v → √(eccSq old.gm r v) < 100001 / 100000 → r.norm * |2 / r.norm - v.dot v / old.gm| ≤ 9) :
    ∃ el, classical old r v t = .ok el ∧ ∀ e : Elements, e.perihTime = el.perihTime → e.q = el.q → e.ecc = el.ecc → e.incl = el.incl → e.argPer = el.argPer →
      e.ascNode = el.ascNode → ∀ t', posnAndVel K (derive e old.gm) t' = posnAndVel K el t' := by
  have hpos : 0 < (r.cross v).x ^ 2 + (r.cross v).y ^ 2 := by rcases hh with h | h <;> positivity
  have hd : 0 < (r.cross v).dot (r.cross v) := by
    unfold Vec.dot
    nlinarith [sq_nonneg (r.cross v).z]
  obtain ⟨el, P, n0, h0, h1, h2, g1, g2, g3, g4, g5, g6, -⟩ := found hK hg t hd hs hfar
  have hn : 0 < n0 := lt_of_le_of_ne g1 fun h => by rw [← h] at g2; norm_num at g2; linarith
  have hz2 : h0 ^ 2 = n0 ^ 2 + (r.cross v).z ^ 2 := by rw [← g4, g2]; unfold Vec.dot; ring
  obtain ⟨k1, k2⟩ := angles_spec hn g2 g3 g4 g5 g6
  obtain ⟨k3, -⟩ := incl_spec g3 hn.le hz2
  have hgood := h2.good
  refine ⟨el, h1, fun e e1 e2 e3 e4 e5 e6 t' => ?_⟩
  have hi : cos e.incl ≠ 0 := by
    rw [e4, h2.incl, k3]
    exact div_ne_zero hz g3.ne'
  obtain ⟨f1, f2, f3, f4, f5, f6, f7⟩ := derive_fields e old.gm hi
  have hgd := derive_good hg (by rw [e2]; exact hgood.q) (by rw [e3]; exact hgood.ecc) hi
  rw [e4, e5, e6, h2.node, h2.incl, h2.arg] at f1 f2
  rw [k1] at f1
  rw [k2] at f2
  have hside := h2.side
  rcases le_or_gt el.ecc 1 with hk | hk
  · rw [← h2.ecc, if_pos hk] at hside
    exact posn_congr hgood hgd hk (by rw [f4, e3]) (by rw [f3, e2]) (by rw [f5, e1]) (by rw [f1, h2.towards]) (by rw [f2, hside]) t'
  · rw [← h2.ecc, if_neg (not_le.mpr hk)] at hside
    obtain ⟨a1, s, hs1, a2, a3⟩ := hgood.hyp hk
    obtain ⟨b1, s', hs2, b2, b3⟩ := hgd.hyp (by rw [f4, e3]; exact hk)
    have hneg := h2.sign (by rw [← h2.ecc]; exact hk)
    have hs' : s = -1 := by
      rcases hs1 with rfl | rfl
      · rw [a3, one_mul] at hneg
        exact absurd hneg (not_lt.mpr (sqrt_nonneg _))
      · rfl
    have hs'' : s' = 1 := by
      rcases hs2 with rfl | rfl
      · rfl
      · have hpos2 : 0 < √(old.gm * ((derive e old.gm).q * (1 + (derive e old.gm).ecc))) := by
          refine sqrt_pos.mpr (mul_pos hg (mul_pos hgd.q ?_))
          linarith [hgd.ecc]
        have h7 : 0 ≤ (derive e old.gm).angularMomentum := by rw [f7]; exact sqrt_nonneg _
        rw [b3] at h7
        linarith
    rw [hs'] at a2 a3
    rw [hs'', f3, f4, e2, e3] at b2 b3
    rw [f4, e3] at b1
    exact hyp_flip hK hk (by rw [f4, e3]) (by rw [f3, e2]) (by rw [f5, e1]) (by rw [b1, a1]) (by rw [f1, h2.towards])
      (by rw [f2, hside]; unfold over; ext <;> simp only <;> ring) (by rw [b2, a2]; ring) (by rw [b3, a3]; ring) t'

/-! ## The hypotheses can be met -/

/-- There is a function that solves Kepler's equation. -/
example : ∃ K, Solves K := by
  classical
  refine ⟨fun e m => if h : 0 ≤ e ∧ e ≠ 1 then (C82_unique h.1 h.2 m).choose else 0, fun e m h0 h1 => ?_⟩
  simp only [dif_pos (show 0 ≤ e ∧ e ≠ 1 from ⟨h0, h1⟩)]
  exact (C82_unique h0 h1 m).choose_spec.1

/-- An inclined circular orbit, and one that is an inclined hyperbola. -/
example : (Vec.cross ⟨1, 0, 0⟩ ⟨0, 3 / 5, 4 / 5⟩).y ≠ 0 ∧ (Vec.cross ⟨1, 0, 0⟩ ⟨0, 3 / 5, 4 / 5⟩).z ≠ 0 ∧ eccSq 1 ⟨1, 0, 0⟩ ⟨0, 3 / 5, 4 / 5⟩ = 0 ∧
    1 / 10 ^ 14 ≤ |eccSq 1 ⟨1, 0, 0⟩ ⟨0, 3 / 5, 4 / 5⟩ - 1| ∧ eccSq 1 ⟨1, 0, 0⟩ ⟨0, 6 / 5, 8 / 5⟩ = 9 ∧ ¬ √(eccSq 1 ⟨1, 0, 0⟩ ⟨0, 6 / 5, 8 / 5⟩) < 100001 / 100000 := by
  have h0 : Vec.norm ⟨1, 0, 0⟩ = 1 := by simp [Vec.norm, Vec.dot]
  have h1 : eccSq 1 ⟨1, 0, 0⟩ ⟨0, 3 / 5, 4 / 5⟩ = 0 := by unfold eccSq; rw [h0]; simp only [Vec.cross, Vec.dot]; norm_num
  have h2 : eccSq 1 ⟨1, 0, 0⟩ ⟨0, 6 / 5, 8 / 5⟩ = 9 := by unfold eccSq; rw [h0]; simp only [Vec.cross, Vec.dot]; norm_num
  refine ⟨by norm_num [Vec.cross], by norm_num [Vec.cross], h1, by rw [h1]; norm_num, h2, ?_⟩
  rw [h2, show (9 : ℝ) = 3 ^ 2 by norm_num, sqrt_sq (by norm_num)]
  norm_num

/-- A hyperbola close to a parabola, close enough to the origin. -/
example : 1 < eccSq 1 ⟨1, 0, 0⟩ ⟨0, 1415 / 1000, 0⟩ ∧ 1 / 10 ^ 14 ≤ |eccSq 1 ⟨1, 0, 0⟩ ⟨0, 1415 / 1000, 0⟩ - 1| ∧
    Vec.norm ⟨1, 0, 0⟩ * |2 / Vec.norm ⟨1, 0, 0⟩ - Vec.dot ⟨0, 1415 / 1000, 0⟩ ⟨0, 1415 / 1000, 0⟩ / 1| ≤ 9 := by
  have h0 : Vec.norm ⟨1, 0, 0⟩ = 1 := by simp [Vec.norm, Vec.dot]
  have h1 : eccSq 1 ⟨1, 0, 0⟩ ⟨0, 1415 / 1000, 0⟩ = 1 + (1415 ^ 2 / 1000 ^ 2 - 2) * (1415 ^ 2 / 1000 ^ 2) := by
    unfold eccSq; rw [h0]; simp only [Vec.cross, Vec.dot]; norm_num
  rw [h1, h0]
  simp only [Vec.dot]
  norm_num [abs_of_pos, abs_of_neg]

/-- An inclination for which the cosine is not 0. -/
example : cos (π / 3) ≠ 0 := by rw [cos_pi_div_three]; norm_num

end Verif.Props
