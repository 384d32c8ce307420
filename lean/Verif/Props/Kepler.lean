import Mathlib.Analysis.Complex.ExponentialBounds
import Mathlib.Analysis.Real.Pi.Bounds
import Mathlib.Analysis.SpecialFunctions.Trigonometric.Bounds
import Mathlib.Tactic.SplitIfs
import Verif.Lemmas.Series
import Verif.Props.AltAz
import Verif.Spec.Kepler

/-!
# Property theorems: Kepler's equation (C82)
-/

namespace Verif.Props

open Verif Verif.Spec Verif.Kepler Real

/-! ## The equation -/

theorem kepler_mono {e : ℝ} (h0 : 0 ≤ e) (x y : ℝ) : (1 - e) * |x - y| ≤ |(x - e * sin x) - (y - e * sin y)| := by
  have h := abs_sin_sub_sin_le x y
  have h2 : |x - y| ≤ |(x - e * sin x) - (y - e * sin y)| + |e * (sin x - sin y)| := by
    refine le_trans (le_of_eq ?_) (abs_add_le _ _)
    congr 1
    ring
  rw [abs_mul, abs_of_nonneg h0] at h2
  nlinarith

/-- C82: Kepler's equation has exactly one solution. -/
theorem C82_unique {e : ℝ} (h0 : 0 ≤ e) (h1 : e ≠ 1) (M : ℝ) : ∃! E, Eccentric e M E := by
  rcases lt_or_gt_of_ne h1 with h1 | h1
  · have hc : Continuous fun x : ℝ => x - e * sin x := by fun_prop
    obtain ⟨E, hE⟩ : ∃ E, E - e * sin E = M := by
      have hs := fun x => abs_le.mp (abs_sin_le_one x)
      have := intermediate_value_Icc (show M - 1 ≤ M + 1 by linarith) hc.continuousOn
      obtain ⟨E, -, hE⟩ := this (show M ∈ Set.Icc _ _ from ⟨by nlinarith [hs (M - 1)], by nlinarith [hs (M + 1)]⟩)
      exact ⟨E, hE⟩
    refine ⟨E, ⟨fun _ => hE, fun k => absurd k (not_lt.mpr h1.le)⟩, fun y hy => ?_⟩
    have := kepler_mono h0 y E
    rw [hy.1 h1, hE, sub_self, abs_zero] at this
    have h3 : |y - E| ≤ 0 := by nlinarith [abs_nonneg (y - E)]
    exact sub_eq_zero.mp (abs_nonpos_iff.mp h3)
  · have hc : Continuous fun x : ℝ => e * sinh x - x := by fun_prop
    have hd : StrictMono fun x : ℝ => e * sinh x - x := by
      apply strictMono_of_deriv_pos
      intro x
      have : HasDerivAt (fun x : ℝ => e * sinh x - x) (e * cosh x - 1) x := ((hasDerivAt_sinh x).const_mul e).sub (hasDerivAt_id x)
      rw [this.deriv]
      nlinarith [one_le_cosh x]
    obtain ⟨E, hE⟩ : ∃ E, e * sinh E - E = M := by
      have hp : ∀ x : ℝ, 0 ≤ x → (e - 1) * x ≤ e * sinh x - x := fun x hx => by nlinarith [self_le_sinh_iff.mpr hx]
      have he : 0 < e - 1 := by linarith
      have hB : 0 ≤ |M| / (e - 1) := by positivity
      have h2 := hp _ hB
      rw [mul_div_cancel₀ _ he.ne'] at h2
      have := intermediate_value_Icc (show -(|M| / (e - 1)) ≤ |M| / (e - 1) by linarith) hc.continuousOn
      obtain ⟨E, -, hE⟩ := this (show M ∈ Set.Icc _ _ from ⟨by simp only [sinh_neg]; nlinarith [neg_abs_le M], by linarith [le_abs_self M]⟩)
      exact ⟨E, hE⟩
    exact ⟨E, ⟨fun k => absurd k (not_lt.mpr h1.le), fun _ => hE⟩, fun y hy => hd.injective (by rw [hy.2 h1, hE])⟩

/-! ## One step of Newton -/

/-- The error of the linear approximation of the sine. -/
theorem sin_step (c : ℝ) {d : ℝ} (hd : |d| ≤ 1) : |sin (c + d) - sin c - d * cos c| ≤ d ^ 2 := by
  have h1 : |cos d - 1| ≤ d ^ 2 / 2 := by
    rw [abs_le]
    constructor
    · linarith [one_sub_sq_div_two_le_cos (x := d)]
    · nlinarith [cos_le_one d, sq_nonneg d]
  have h2 : |sin d - d| ≤ d ^ 2 / 2 := by
    have hb := sin_bound hd
    have h3 : |sin d - d| ≤ |sin d - (d - d ^ 3 / 6)| + |d ^ 3 / 6| := by
      refine le_trans (le_of_eq ?_) (abs_sub _ _)
      congr 1
      ring
    rw [abs_div, abs_pow, abs_of_pos (show (0 : ℝ) < 6 by norm_num)] at h3
    have h4 := sq_abs d
    have h5 := abs_nonneg d
    have h6 : |d| ^ 3 ≤ |d| ^ 2 := by nlinarith [sq_nonneg |d|]
    have h7 : |d| ^ 5 ≤ |d| ^ 2 := by
      have : |d| ^ 3 ≤ 1 := pow_le_one₀ h5 hd
      calc |d| ^ 5 = |d| ^ 3 * |d| ^ 2 := by ring
        _ ≤ 1 * |d| ^ 2 := mul_le_mul_of_nonneg_right this (sq_nonneg _)
        _ = |d| ^ 2 := one_mul _
    nlinarith
  have e : sin (c + d) - sin c - d * cos c = sin c * (cos d - 1) + cos c * (sin d - d) := by rw [sin_add]; ring
  rw [e]
  refine le_trans (abs_add_le _ _) ?_
  rw [abs_mul, abs_mul]
  nlinarith [abs_sin_le_one c, abs_cos_le_one c, abs_nonneg (sin c), abs_nonneg (cos c), abs_nonneg (cos d - 1), abs_nonneg (sin d - d)]

theorem denom_pos {e : ℝ} (h0 : 0 ≤ e) (h1 : e < 1) (c : ℝ) : 0 < 1 - e * cos c := by nlinarith [cos_le_one c]

/-- What is left in the equation after a step. -/
theorem low_residual {e m c r : ℝ} (h0 : 0 ≤ e) (h1 : e < 1) (h : LowLoop e m c r) : |r - e * sin r - m| ≤ e * thresh0 ^ 2 := by
  induction h with
  | more c r _ _ ih => exact ih
  | done c hc =>
    have hd := denom_pos h0 h1 c
    have hx : c - e * sin c - m = lowErr e m c * (1 - e * cos c) := by unfold lowErr; field_simp
    generalize lowErr e m c = x at *
    have ht : thresh0 ≤ 1 := by unfold thresh0; norm_num
    have hle := not_lt.mp hc
    have hs := sin_step c (d := -x) (by rw [abs_neg]; linarith)
    rw [← sub_eq_add_neg] at hs
    have key : c - x - e * sin (c - x) - m = -(e * (sin (c - x) - sin c - -x * cos c)) := by linear_combination hx
    rw [key, abs_neg, abs_mul, abs_of_nonneg h0]
    refine mul_le_mul_of_nonneg_left (le_trans hs ?_) h0
    rw [neg_sq, ← sq_abs]
    exact pow_le_pow_left₀ (abs_nonneg _) hle 2

theorem fmod_pi (y : ℝ) : |AltAz.fmod y (π * 2)| < 2 * π ∧ (0 ≤ y → 0 ≤ AltAz.fmod y (π * 2)) ∧ ∃ n : ℤ, AltAz.fmod y (π * 2) = y + n * (2 * π) := by
  have hp := pi_pos
  have hpos : 0 < π * 2 := by linarith
  have hx : π * 2 * (y / (π * 2)) = y := by field_simp
  unfold AltAz.fmod
  split_ifs with h
  · have h1 := Int.floor_le (y / (π * 2))
    have h2 := Int.lt_floor_add_one (y / (π * 2))
    have h3 : 0 ≤ y - π * 2 * ⌊y / (π * 2)⌋ := by nlinarith
    exact ⟨by rw [abs_of_nonneg h3]; nlinarith, fun _ => h3, -⌊y / (π * 2)⌋, by push_cast; ring⟩
  · have h1 := Int.le_ceil (y / (π * 2))
    have h2 := Int.ceil_lt_add_one (y / (π * 2))
    have h3 : y - π * 2 * ⌈y / (π * 2)⌉ ≤ 0 := by nlinarith
    exact ⟨by rw [abs_of_nonpos h3]; nlinarith, fun k => absurd (div_nonneg k hpos.le) h, -⌈y / (π * 2)⌉, by push_cast; ring⟩

/-- The mean anomaly is brought within half a turn by whole turns. -/
theorem reduced_spec (m : ℝ) : |reduced m| ≤ π ∧ (∃ n : ℤ, reduced m = m + n * (2 * π)) ∧ (0 ≤ m → reduced m ≠ -π) := by
  have hp := pi_pos
  obtain ⟨h1, h2, n, hn⟩ := fmod_pi m
  rw [abs_lt] at h1
  unfold reduced
  simp only
  generalize AltAz.fmod m (π * 2) = t at *
  split_ifs with h ha hb
  · exact ⟨abs_le.mpr ⟨by linarith, by linarith⟩, ⟨n - 1, by rw [hn]; push_cast; ring⟩, fun _ => by intro k; linarith⟩
  · exact ⟨abs_le.mpr ⟨by linarith, by linarith⟩, ⟨n + 1, by rw [hn]; push_cast; ring⟩, fun _ => by intro k; linarith⟩
  · exact ⟨abs_le.mpr ⟨by linarith, by linarith⟩, ⟨n, hn⟩, fun k => by intro k2; linarith [h2 k]⟩
  · push Not at h
    exact ⟨abs_le.mpr h, ⟨0, by push_cast; ring⟩, fun _ => by intro k; linarith⟩

/-- C82: what is found for an eccentricity below 0.9 is the eccentric anomaly, within 1e-23. -/
theorem C82_low {e m r : ℝ} (h0 : 0 ≤ e) (h9 : e < 9 / 10) (h : Returns e m (.ok r)) : ∃ E, Eccentric e m E ∧ |r - E| ≤ 1 / 10 ^ 23 := by
  have h1 : e < 1 := by linarith
  obtain ⟨E, hE, -⟩ := C82_unique h0 h1.ne m
  refine ⟨E, hE, ?_⟩
  have hk := hE.1 h1
  have key : |r - e * sin r - m| ≤ e * thresh0 ^ 2 := by
    generalize ho : Outcome.ok r = o at h
    cases h with
    | zero hm =>
      cases ho
      subst hm
      simp only [sin_zero, mul_zero, sub_zero, abs_zero]
      positivity
    | low r' _ _ hl =>
      cases ho
      have := low_residual h0 h1 hl
      obtain ⟨-, ⟨n, hn⟩, -⟩ := reduced_spec m
      have es : sin (r' + (m - reduced m)) = sin r' := by
        rw [show r' + (m - reduced m) = r' + ((-n : ℤ) : ℝ) * (2 * π) by rw [hn]; push_cast; ring, sin_add_int_mul_two_pi]
      rw [es]
      convert this using 2
      ring
    | high _ h' _ => linarith
    | hyperbolic _ h' => linarith
  have hm := kepler_mono h0 r E
  rw [hk] at hm
  have h2 : e * thresh0 ^ 2 ≤ 9 / 10 * (1 / 10 ^ 24) := by
    have : thresh0 ^ 2 = 1 / 10 ^ 24 := by unfold thresh0; norm_num
    rw [this]
    exact mul_le_mul_of_nonneg_right h9.le (by positivity)
  have h3 : 1 / 10 * |r - E| ≤ (1 - e) * |r - E| := mul_le_mul_of_nonneg_right (by linarith) (abs_nonneg _)
  have h4 : (9 : ℝ) / 10 * (1 / 10 ^ 24) ≤ 1 / 10 * (1 / 10 ^ 23) := by norm_num
  linarith

/-! ## The first loop ends -/

theorem sin_concave {x y : ℝ} (h0 : 0 ≤ x) (hxy : x ≤ y) (h1 : y ≤ π) : (y - x) * cos y ≤ sin y - sin x := by
  rcases hxy.eq_or_lt with rfl | hlt
  · simp
  · obtain ⟨z, ⟨hz1, hz2⟩, hz⟩ := exists_hasDerivAt_eq_slope sin cos hlt continuous_sin.continuousOn (fun x _ => hasDerivAt_sin x)
    have hc : cos y ≤ cos z := cos_le_cos_of_nonneg_of_le_pi (by linarith) h1 hz2.le
    rw [eq_div_iff (by linarith)] at hz
    nlinarith

theorem low_step {e m c : ℝ} (h0 : 0 ≤ e) (h1 : e < 1) (hm : 0 ≤ m) (hc0 : 0 ≤ c) (hc1 : c ≤ π) (hf : 0 ≤ c - e * sin c - m) :
    0 ≤ lowErr e m c ∧ lowErr e m c ≤ c ∧ 0 ≤ (c - lowErr e m c) - e * sin (c - lowErr e m c) - m := by
  have hd := denom_pos h0 h1 c
  have hx : c - e * sin c - m = lowErr e m c * (1 - e * cos c) := by unfold lowErr; field_simp
  have hp : 0 ≤ lowErr e m c := div_nonneg hf hd.le
  have hle : lowErr e m c ≤ c := by
    have := sin_concave le_rfl hc0 hc1
    rw [sin_zero] at this
    unfold lowErr
    rw [div_le_iff₀ hd]
    nlinarith
  generalize lowErr e m c = x at *
  have := sin_concave (x := c - x) (y := c) (by linarith) (by linarith) hc1
  exact ⟨hp, hle, by nlinarith⟩

theorem low_ends {e m : ℝ} (h0 : 0 ≤ e) (h1 : e < 1) (hm : 0 ≤ m) (n : ℕ) : ∀ c, 0 ≤ c → c ≤ π → 0 ≤ c - e * sin c - m → c ≤ n * thresh0 →
    ∃ r, LowLoop e m c r := by
  have ht : 0 < thresh0 := by unfold thresh0; norm_num
  induction n with
  | zero =>
    intro c hc0 hc1 hf hn
    obtain ⟨ha, hb, -⟩ := low_step h0 h1 hm hc0 hc1 hf
    refine ⟨_, LowLoop.done c ?_⟩
    rw [abs_of_nonneg ha]
    push_cast at hn
    linarith
  | succ n ih =>
    intro c hc0 hc1 hf hn
    obtain ⟨ha, hb, hg⟩ := low_step h0 h1 hm hc0 hc1 hf
    by_cases hs : |lowErr e m c| > thresh0
    · have hs' := hs
      rw [abs_of_nonneg ha] at hs'
      obtain ⟨r, hr⟩ := ih (c - lowErr e m c) (by linarith) (by linarith) hg (by push_cast at hn; linarith)
      exact ⟨r, LowLoop.more c r hs hr⟩
    · exact ⟨_, LowLoop.done c hs⟩

theorem low_neg {e m c r : ℝ} (h : LowLoop e m c r) : LowLoop e (-m) (-c) (-r) := by
  have hn : ∀ c, lowErr e (-m) (-c) = -lowErr e m c := fun c => by
    unfold lowErr
    rw [sin_neg, cos_neg, ← neg_div]
    congr 1
    ring
  induction h with
  | done c h =>
    have := LowLoop.done (e := e) (m := -m) (-c) (by rwa [hn, abs_neg])
    rwa [hn, show -c - -lowErr e m c = -(c - lowErr e m c) by ring] at this
  | more c r h _ ih =>
    refine LowLoop.more _ _ (by rwa [hn, abs_neg]) ?_
    rwa [hn, show -c - -lowErr e m c = -(c - lowErr e m c) by ring]

theorem low_first {e m : ℝ} (h0 : 0 ≤ e) (h1 : e < 1) (hm0 : 0 ≤ m) (hm1 : m ≤ π) :
    let c := Ellipse.atan2 (sin m) (cos m - e)
    0 ≤ c ∧ c ≤ π ∧ 0 ≤ c - e * sin c - m := by
  intro c
  have hp := pi_pos
  have hpos : 0 < (cos m - e) ^ 2 + sin m ^ 2 := by nlinarith [sin_sq_add_cos_sq m, cos_le_one m]
  obtain ⟨n, hn, -, hcos, hsin⟩ := atan2_dir hpos
  have hs : 0 ≤ sin m := sin_nonneg_of_nonneg_of_le_pi hm0 hm1
  have hc0 : 0 ≤ c := Complex.arg_nonneg_iff.mpr hs
  have hc1 : c ≤ π := Complex.arg_le_pi _
  change cos c = _ at hcos
  change sin c = _ at hsin
  have hd : sin (c - m) = e * sin c := by
    rw [sin_sub, hcos, hsin]
    field_simp
    ring
  have hsc : 0 ≤ sin c := by rw [hsin]; positivity
  have hge : 0 ≤ c - m := by
    by_contra hlt
    push Not at hlt
    rcases (show -π ≤ c - m by linarith).eq_or_lt with heq | hgt
    · have hc : c = 0 := by linarith
      have hmp : m = π := by linarith
      rw [hc, hmp, cos_zero, cos_pi, eq_div_iff hn.ne'] at hcos
      linarith
    · have := sin_neg_of_neg_of_neg_pi_lt hlt hgt
      nlinarith
  refine ⟨hc0, hc1, ?_⟩
  have := sin_le hge
  linarith

/-- C82: for an eccentricity below 0.9 an answer is found. -/
theorem C82_low_ends {e m : ℝ} (h0 : 0 ≤ e) (h9 : e < 9 / 10) (hm : 0 ≤ m ∨ cos m ≠ -1) : ∃ r, Returns e m (.ok r) := by
  have h1 : e < 1 := by linarith
  have ht : 0 < thresh0 := by unfold thresh0; norm_num
  by_cases hz : m = 0
  · exact ⟨0, .zero hz⟩
  obtain ⟨ha, ⟨n, hn⟩, hb⟩ := reduced_spec m
  have hne : reduced m ≠ -π := by
    rcases hm with hm | hm
    · exact hb hm
    · intro k
      apply hm
      have := cos_add_int_mul_two_pi m n
      rw [← hn, k, cos_neg, cos_pi] at this
      exact this.symm
  rw [abs_le] at ha
  have main : ∀ x, 0 ≤ x → x ≤ π → ∃ r, LowLoop e x (Ellipse.atan2 (sin x) (cos x - e)) r := fun x hx0 hx1 => by
    obtain ⟨k1, k2, k3⟩ := low_first h0 h1 hx0 hx1
    obtain ⟨N, hN⟩ := exists_nat_ge (Ellipse.atan2 (sin x) (cos x - e) / thresh0)
    exact low_ends h0 h1 hx0 N _ k1 k2 k3 ((div_le_iff₀ ht).mp hN)
  rcases le_or_gt 0 (reduced m) with hr | hr
  · obtain ⟨r, hr⟩ := main _ hr ha.2
    exact ⟨_, .low r hz h9 hr⟩
  · have hlt : -reduced m < π := by
      rcases ha.1.eq_or_lt with k | k
      · exact absurd k.symm hne
      · linarith
    obtain ⟨r, hl⟩ := main (-reduced m) (by linarith) hlt.le
    have hl := low_neg hl
    rw [neg_neg, sin_neg, cos_neg] at hl
    have hat : -Ellipse.atan2 (-sin (reduced m)) (cos (reduced m) - e) = Ellipse.atan2 (sin (reduced m)) (cos (reduced m) - e) := by
      have hs : sin (reduced m) < 0 := sin_neg_of_neg_of_neg_pi_lt hr (by linarith)
      have := Complex.arg_conj (⟨cos (reduced m) - e, -sin (reduced m)⟩ : ℂ)
      rw [if_neg (by rw [Complex.arg_eq_pi_iff]; rintro ⟨-, k⟩; simp only at k; linarith)] at this
      unfold Ellipse.atan2
      rw [← this]
      congr 1
      apply Complex.ext <;> simp
    rw [hat] at hl
    exact ⟨_, .low _ hz h9 hl⟩

theorem low_same {e m c r r' : ℝ} (h : LowLoop e m c r) (h' : LowLoop e m c r') : r = r' := by
  induction h with
  | done c hc =>
    cases h' with
    | done => rfl
    | more _ _ k => exact absurd k hc
  | more c r hc _ ih =>
    cases h' with
    | done _ k => exact absurd hc k
    | more _ _ _ k => exact ih k

/-- C82: there is one answer at most. -/
theorem C82_same {e m : ℝ} {o o' : Outcome ℝ} (h : Returns e m o) (h' : Returns e m o') : o = o' := by
  cases h with
  | zero k => cases h' <;> first | rfl | contradiction
  | low r _ _ k =>
    cases h' with
    | zero => contradiction
    | low r' _ _ k' => rw [low_same k k']
    | high => linarith
    | hyperbolic => linarith
  | high =>
    cases h' with
    | zero => contradiction
    | low => linarith
    | high => rfl
    | hyperbolic => linarith
  | hyperbolic =>
    cases h' with
    | zero => contradiction
    | low => linarith
    | high => linarith
    | hyperbolic => rfl

/-! ## Higher eccentricities -/

/-- What holds after every step that is small enough to be the last holds of the result. -/
theorem high_last {e m th : ℝ} {P : ℝ → Prop} (hP : ∀ c n, |highStep e m c n| ≤ th → P (c + highStep e m c n)) (fuel : ℕ) :
    ∀ (delta c : ℝ) (n : ℕ) {r : ℝ}, (|delta| ≤ th → P c) → highLoop e m th fuel delta c n = .ok r → P r := by
  induction fuel with
  | zero =>
    intro delta c n r h hr
    unfold highLoop at hr
    split_ifs at hr with k
    cases hr
    exact h (not_lt.mp k)
  | succ fuel ih =>
    intro delta c n r h hr
    unfold highLoop at hr
    split_ifs at hr with k
    · exact ih _ _ _ (hP c n) hr
    · cases hr
      exact h (not_lt.mp k)

theorem ell_step {e m c th : ℝ} {n : ℕ} (h9 : 9 / 10 ≤ e) (h1 : e < 1) (hth : th ≤ thresh0) (h : |highStep e m c n| ≤ th) :
    |(c + highStep e m c n) - e * sin (c + highStep e m c n) - m| ≤ 2 / 10 ^ 15 := by
  have hd := denom_pos (by linarith) h1 c
  obtain ⟨η, hη, hx⟩ : ∃ η, |η| ≤ 1 / 10 ^ 15 ∧ highStep e m c n * (1 - e * cos c) = -(c - e * sin c - m + η) := by
    unfold highStep
    rw [if_pos h1]
    simp only
    split_ifs with k
    · refine ⟨nearParabolic c e - (c - e * sin c), near_elliptic c h9 h1.le, ?_⟩
      field_simp
      ring
    · refine ⟨0, by simp, ?_⟩
      field_simp
      ring
  generalize highStep e m c n = d at *
  have ht : thresh0 = 1 / 10 ^ 12 := rfl
  have hd1 : |d| ≤ 1 / 10 ^ 12 := by linarith
  have hs := sin_step c (d := d) (le_trans hd1 (by norm_num))
  have hsq : d ^ 2 ≤ 1 / 10 ^ 24 := by
    rw [← sq_abs]
    calc |d| ^ 2 ≤ (1 / 10 ^ 12) ^ 2 := pow_le_pow_left₀ (abs_nonneg _) hd1 2
      _ = 1 / 10 ^ 24 := by norm_num
  have key : c + d - e * sin (c + d) - m = -(e * (sin (c + d) - sin c - d * cos c)) - η := by linear_combination hx
  rw [key]
  refine le_trans (abs_sub _ _) ?_
  rw [abs_neg, abs_mul, abs_of_pos (by linarith)]
  have : e * |sin (c + d) - sin c - d * cos c| ≤ 1 * (1 / 10 ^ 24) := mul_le_mul h1.le (le_trans hs hsq) (abs_nonneg _) zero_le_one
  have h3 : (1 : ℝ) * (1 / 10 ^ 24) ≤ 1 / 10 ^ 15 := by norm_num
  linarith

/-- The thresholds. -/
theorem high_thresh (e m : ℝ) : 0 < (highStart e m).2 ∧ (highStart e m).2 ≤ thresh0 * max 1 |1 - e| := by
  have h0 : 0 < thresh0 := by unfold thresh0; norm_num
  have h1 : minThresh ≤ thresh0 := by unfold thresh0 minThresh; norm_num
  have h2 : 0 < minThresh := by unfold minThresh; norm_num
  have h3 : thresh0 * 1 ≤ thresh0 * max 1 |1 - e| := mul_le_mul_of_nonneg_left (le_max_left _ _) h0.le
  have h4 : thresh0 * |1 - e| ≤ thresh0 * max 1 |1 - e| := mul_le_mul_of_nonneg_left (le_max_right _ _) h0.le
  unfold highStart
  simp only
  split_ifs <;> simp only <;> constructor <;> linarith

/-- C82: what is found for an eccentricity from 0.9 up to 1 meets Kepler's equation within 2e-15. -/
theorem C82_high {e m r : ℝ} (h9 : 9 / 10 ≤ e) (h1 : e < 1) (h : Returns e m (.ok r)) :
    |r - e * sin r - m| ≤ 2 / 10 ^ 15 ∧ ∃ E, Eccentric e m E ∧ (1 - e) * |r - E| ≤ 2 / 10 ^ 15 := by
  have key : |r - e * sin r - m| ≤ 2 / 10 ^ 15 := by
    generalize ho : Outcome.ok r = o at h
    cases h with
    | zero hm =>
      cases ho
      subst hm
      simp only [sin_zero, mul_zero, sub_zero, abs_zero]
      positivity
    | low _ _ k => linarith
    | hyperbolic _ k => linarith
    | high =>
      obtain ⟨-, ⟨n, hn⟩, -⟩ := reduced_spec m
      have es : ∀ x, sin ((m - reduced m) + x) = sin x := fun x => by
        rw [show (m - reduced m) + x = x + ((-n : ℤ) : ℝ) * (2 * π) by rw [hn]; push_cast; ring, sin_add_int_mul_two_pi]
      unfold Kepler.high at ho
      simp only at ho
      set a := if reduced m < 0 then -reduced m else reduced m with hadef
      cases hl : highLoop e a (highStart e a).2 19 1 (highStart e a).1 0 with
      | abort => rw [hl] at ho; cases ho
      | ub => rw [hl] at ho; cases ho
      | ok c =>
        rw [hl] at ho
        simp only [Outcome.bind, Outcome.ok.injEq] at ho
        have hth : (highStart e a).2 ≤ thresh0 := by
          have := (high_thresh e a).2
          rwa [max_eq_left (by rw [abs_of_pos (by linarith)]; linarith), mul_one] at this
        have ht1 : thresh0 < 1 := by unfold thresh0; norm_num
        have hc := high_last (P := fun c => |c - e * sin c - a| ≤ 2 / 10 ^ 15) (fun c n hs => ell_step h9 h1 hth hs) 19 1 _ 0
          (fun k => by rw [abs_one] at k; linarith) hl
        rw [ho]
        split_ifs with hneg
        · rw [if_pos hneg] at hadef
          rw [hadef] at hc
          rw [sub_eq_add_neg (m - reduced m) c, es, sin_neg, ← abs_neg]
          convert hc using 2
          ring
        · rw [if_neg hneg] at hadef
          rw [hadef] at hc
          rw [es]
          convert hc using 2
          ring
  refine ⟨key, ?_⟩
  obtain ⟨E, hE, -⟩ := C82_unique (by linarith) h1.ne m
  refine ⟨E, hE, ?_⟩
  have := kepler_mono (show 0 ≤ e by linarith) r E
  rw [hE.1 h1] at this
  linarith

/-! ## Hyperbolas -/

theorem sinh_step (c : ℝ) {d : ℝ} (hd : |d| ≤ 1) : |sinh (c + d) - sinh c - d * cosh c| ≤ cosh c * d ^ 2 := by
  have h1 := abs_exp_sub_one_sub_id_le hd
  have h2 := abs_exp_sub_one_sub_id_le (x := -d) (by rwa [abs_neg])
  rw [neg_sq] at h2
  rw [abs_le] at h1 h2
  have e1 := exp_pos c
  have e2 := exp_pos (-c)
  rw [sinh_eq, sinh_eq, cosh_eq, neg_add, exp_add, exp_add, abs_le]
  constructor <;> nlinarith

theorem cosh_near (r : ℝ) {d : ℝ} (hd : |d| ≤ 1) : cosh (r - d) ≤ 3 * cosh r := by
  have hb : ∀ x, x ≤ 1 → exp x ≤ 3 := fun x hx => by
    have := exp_le_exp.mpr hx
    have := exp_one_lt_three
    linarith
  obtain ⟨k1, k2⟩ := abs_le.mp hd
  have h1 := hb d k2
  have h2 := hb (-d) (by linarith)
  have e1 := exp_pos r
  have e2 := exp_pos (-r)
  rw [cosh_eq, cosh_eq, show r - d = r + -d by ring, neg_add, neg_neg, exp_add, exp_add]
  nlinarith

theorem hyp_step {e m c th : ℝ} {n : ℕ} (h1 : 1 < e) (hth : th ≤ 1 / 10) (h : |highStep e m c n| ≤ th)
    (hr : e < 101 / 100 → |c + highStep e m c n| ≤ 3) :
    |e * sinh (c + highStep e m c n) - (c + highStep e m c n) - m| ≤ 3 * e * cosh (c + highStep e m c n) * th ^ 2 + 1 / 10 ^ 15 := by
  have hd : 0 < e * cosh c - 1 := by nlinarith [one_le_cosh c]
  obtain ⟨η, hη, hx⟩ : ∃ η, |η| ≤ 1 / 10 ^ 15 ∧ highStep e m c n * (e * cosh c - 1) = -(e * sinh c - c - m + η) := by
    have hns : ¬ e < 1 := by linarith
    by_cases k : n > 7 ∧ e < 101 / 100
    · have hcc : c * c ≤ 10 := by
        obtain ⟨k1, k2⟩ := abs_le.mp (hr k.2)
        obtain ⟨k3, k4⟩ := abs_le.mp h
        have : |c| ≤ 31 / 10 := abs_le.mpr ⟨by linarith, by linarith⟩
        have h4 := abs_nonneg c
        rw [← abs_mul_abs_self]
        nlinarith
      refine ⟨-(nearParabolic c e - (c - e * sinh c)), by rw [abs_neg]; exact near_hyperbolic h1 hcc, ?_⟩
      unfold highStep
      rw [if_neg hns]
      simp only
      rw [if_pos k]
      field_simp
      ring
    · refine ⟨0, by simp, ?_⟩
      unfold highStep
      rw [if_neg hns]
      simp only
      rw [if_neg k]
      field_simp
      ring
  generalize highStep e m c n = d at *
  have hs := sinh_step c (d := d) (by linarith)
  have hn := cosh_near (c + d) (d := d) (by linarith)
  rw [add_sub_cancel_right] at hn
  have hsq : d ^ 2 ≤ th ^ 2 := by
    rw [← sq_abs]
    exact pow_le_pow_left₀ (abs_nonneg _) h 2
  have key : e * sinh (c + d) - (c + d) - m = e * (sinh (c + d) - sinh c - d * cosh c) - η := by linear_combination hx
  rw [key]
  refine le_trans (abs_sub _ _) ?_
  rw [abs_mul, abs_of_pos (show 0 < e by linarith)]
  have h2 : |sinh (c + d) - sinh c - d * cosh c| ≤ 3 * cosh (c + d) * th ^ 2 :=
    le_trans hs (mul_le_mul hn hsq (sq_nonneg _) (by linarith [one_le_cosh (c + d)]))
  have h3 := mul_le_mul_of_nonneg_left h2 (show 0 ≤ e by linarith)
  linarith

/-- C82: what is found for a hyperbola meets its equation, within the square of the threshold and 1e-15. -/
theorem C82_hyperbolic {e m r : ℝ} (h1 : 1 < e) (hbig : e ≤ 10 ^ 11) (hr : e < 101 / 100 → |r| ≤ 3) (h : Returns e m (.ok r)) :
    |e * sinh r - r - m| ≤ 3 * e * cosh r * (1 / 10 ^ 12 * max 1 (e - 1)) ^ 2 + 1 / 10 ^ 15 := by
  generalize ho : Outcome.ok r = o at h
  cases h with
  | zero hm =>
    cases ho
    subst hm
    simp only [sinh_zero, mul_zero, sub_zero, abs_zero, cosh_zero]
    positivity
  | low _ _ k => linarith
  | high _ _ k => linarith
  | hyperbolic =>
    unfold Kepler.high at ho
    simp only at ho
    set a := if m < 0 then -m else m with hadef
    cases hl : highLoop e a (highStart e a).2 19 1 (highStart e a).1 0 with
    | abort => rw [hl] at ho; cases ho
    | ub => rw [hl] at ho; cases ho
    | ok c =>
      rw [hl] at ho
      simp only [Outcome.bind, Outcome.ok.injEq, zero_sub, zero_add] at ho
      obtain ⟨hp, hth⟩ := high_thresh e a
      rw [abs_sub_comm, abs_of_pos (show 0 < e - 1 by linarith)] at hth
      have hcap : thresh0 * max 1 (e - 1) ≤ 1 / 10 := by
        have : max 1 (e - 1) ≤ 10 ^ 11 := max_le (by norm_num) (by linarith)
        unfold thresh0
        linarith
      have hrc : |r| = |c| := by rw [ho]; split_ifs <;> simp
      have hc := high_last (P := fun c => (e < 101 / 100 → |c| ≤ 3) → |e * sinh c - c - a| ≤ 3 * e * cosh c * (highStart e a).2 ^ 2 + 1 / 10 ^ 15)
        (fun c n hs hr => hyp_step h1 (by linarith) hs hr) 19 1 _ 0 (fun k => by rw [abs_one] at k; linarith) hl (fun k => by rw [← hrc]; exact hr k)
      have hsq : (highStart e a).2 ^ 2 ≤ (1 / 10 ^ 12 * max 1 (e - 1)) ^ 2 := pow_le_pow_left₀ hp.le hth 2
      have h3 : 3 * e * cosh c * (highStart e a).2 ^ 2 ≤ 3 * e * cosh c * (1 / 10 ^ 12 * max 1 (e - 1)) ^ 2 :=
        mul_le_mul_of_nonneg_left hsq (by nlinarith [one_le_cosh c])
      refine le_trans ?_ (show 3 * e * cosh c * (highStart e a).2 ^ 2 + 1 / 10 ^ 15 ≤ _ from ?_)
      · refine le_trans (le_of_eq ?_) hc
        rw [ho, hadef]
        split_ifs with hneg
        · rw [sinh_neg, ← abs_neg]
          congr 1
          ring
        · rfl
      · have : cosh r = cosh c := by rw [ho]; split_ifs <;> simp
        rw [this]
        linarith

/-! ## The series -/

/-- C82: the series for nearly parabolic orbits. -/
theorem C82_near {e : ℝ} (c : ℝ) :
    (9 / 10 ≤ e → e ≤ 1 → |nearParabolic c e - (c - e * sin c)| ≤ 1 / 10 ^ 15) ∧
    (1 < e → c * c ≤ 10 → |nearParabolic c e - (c - e * sinh c)| ≤ 1 / 10 ^ 15) :=
  ⟨fun h h' => near_elliptic c h h', fun h h' => near_hyperbolic h h'⟩

/-! ## Cases -/

/-- The hypotheses are met: with a circular orbit the answer is the mean anomaly. -/
example : Returns 0 1 (.ok 1) := by
  have hr : reduced 1 = 1 := by
    unfold reduced
    rw [if_neg (by push Not; constructor <;> linarith [pi_gt_three])]
  have ha : Ellipse.atan2 (sin 1) (cos 1 - 0) = 1 := by
    unfold Ellipse.atan2
    rw [sub_zero, show (⟨cos 1, sin 1⟩ : ℂ) = Complex.cos ((1 : ℝ) : ℂ) + Complex.sin ((1 : ℝ) : ℂ) * Complex.I from
      Complex.ext (by rw [← Complex.ofReal_cos, ← Complex.ofReal_sin]; simp [-Complex.ofReal_cos, -Complex.ofReal_sin]) (by rw [← Complex.ofReal_cos, ← Complex.ofReal_sin]; simp [-Complex.ofReal_cos, -Complex.ofReal_sin])]
    exact Complex.arg_cos_add_sin_mul_I ⟨by linarith [pi_gt_three], by linarith [pi_gt_three]⟩
  have h := LowLoop.done (e := 0) (m := 1) 1 (by unfold lowErr thresh0; norm_num)
  have := Returns.low (e := 0) (m := 1) (1 - lowErr 0 1 1) one_ne_zero (by norm_num) (by rw [hr, ha]; exact h)
  simpa [lowErr, hr] using this

example : (0 : ℝ) ≤ 1 / 2 ∧ (1 / 2 : ℝ) < 9 / 10 ∧ ((0 : ℝ) ≤ 3 ∨ cos 3 ≠ -1) := ⟨by norm_num, by norm_num, .inl (by norm_num)⟩

/-- A very eccentric orbit, at its far end. -/
example : Returns (95 / 100) π (.ok π) := by
  have hp := pi_gt_three
  have hr : reduced π = π := by
    unfold reduced
    rw [if_neg (by push Not; constructor <;> linarith)]
  have h := Returns.high (e := 95 / 100) (m := π) (by linarith) (by norm_num) (by norm_num)
  rw [hr, sub_self] at h
  have hs : highStep (95 / 100) π π 0 = 0 := by
    unfold highStep
    norm_num
  have hst : (highStart (95 / 100) π).1 = π := by
    unfold highStart
    simp only
    rw [if_neg (by norm_num), if_neg (by push Not; exact ⟨fun _ => by linarith, by norm_num⟩)]
  obtain ⟨ht0, ht⟩ := high_thresh (95 / 100) π
  have ht1 : (highStart (95 / 100) π).2 < 1 := by
    refine lt_of_le_of_lt ht ?_
    rw [max_eq_left (by rw [abs_of_pos] <;> norm_num)]
    unfold thresh0
    norm_num
  have : Kepler.high (95 / 100) π 0 = .ok π := by
    unfold Kepler.high
    simp only
    rw [if_neg (show ¬ π < 0 by linarith), hst]
    simp only [highLoop, abs_one, hs, add_zero, abs_zero]
    rw [if_pos ht1, if_neg (not_lt.mpr ht0.le)]
    simp only [Outcome.bind, zero_add]
    rw [if_neg (show ¬ π < 0 by linarith)]
  rwa [this] at h

/-- A hyperbola for which the first guess is right. -/
example : ∃ e m r : ℝ, 1 < e ∧ e ≤ 10 ^ 11 ∧ (e < 101 / 100 → |r| ≤ 3) ∧ m ≠ 0 ∧ Returns e m (.ok r) := by
  have hx : exp (85 / 100) < 2.7182818286 := lt_of_le_of_lt (exp_le_exp.mpr (by norm_num)) exp_one_lt_d9
  have hx2 := quadratic_le_exp_of_nonneg (show (0 : ℝ) ≤ 85 / 100 by norm_num)
  have hx3 : exp (-(85 / 100)) ≤ 1 := exp_le_one_iff.mpr (by norm_num)
  have hx4 := exp_pos (-(85 / 100))
  have hl : 1 ≤ log 4 := by
    rw [le_log_iff_exp_le (by norm_num)]
    linarith [exp_one_lt_three]
  have hl2 : log 4 ≤ 3 := by linarith [log_le_sub_one_of_pos (show (0 : ℝ) < 4 by norm_num)]
  set c := log 4 + 85 / 100 with hc
  have hs : sinh c = 2 * exp (85 / 100) - exp (-(85 / 100)) / 8 := by
    rw [sinh_eq, hc, neg_add, exp_add, exp_add, exp_log (by norm_num), exp_neg (log 4), exp_log (by norm_num)]
    ring
  have hc4 : c ≤ 4 := by linarith
  have hd : 2 / 10 ≤ sinh c - 4 := by rw [hs]; linarith
  have hd2 : sinh c - 4 < 15 / 10 := by rw [hs]; linarith
  have he : c / (sinh c - 4) * (sinh c - 4) = c := div_mul_cancel₀ _ (by linarith)
  set e := c / (sinh c - 4)
  have he1 : 1 < e := (one_lt_div (by linarith)).mpr (by linarith)
  have he2 : e ≤ 20 := (div_le_iff₀ (by linarith)).mpr (by linarith)
  have h101 : ¬ e < 101 / 100 := not_lt.mpr ((le_div_iff₀ (by linarith)).mpr (by linarith))
  refine ⟨e, 4 * e, c, he1, by linarith, fun k => absurd k h101, by linarith, ?_⟩
  have h := Returns.hyperbolic (e := e) (m := 4 * e) (by linarith) he1
  have hstep : highStep e (4 * e) c 0 = 0 := by
    unfold highStep
    rw [if_neg (by linarith)]
    simp only [show ¬ 0 > 7 by decide, false_and, if_false]
    rw [show e * sinh c - c - 4 * e = 0 by linear_combination he]
    simp
  have hst : (highStart e (4 * e)).1 = c := by
    unfold highStart
    simp only
    have h4 : 4 * e / e = 4 := by field_simp
    rw [if_pos ⟨he1, by rw [h4]; norm_num⟩, h4]
  obtain ⟨ht0, ht⟩ := high_thresh e (4 * e)
  have ht1 : (highStart e (4 * e)).2 < 1 := by
    have : max 1 |1 - e| ≤ 20 := max_le (by norm_num) (abs_le.mpr ⟨by linarith, by linarith⟩)
    unfold thresh0 at ht
    linarith
  have : Kepler.high e (4 * e) 0 = .ok c := by
    unfold Kepler.high
    simp only
    rw [if_neg (show ¬ 4 * e < 0 by linarith), hst]
    simp only [highLoop, abs_one, hstep, add_zero, abs_zero]
    rw [if_pos ht1, if_neg (not_lt.mpr ht0.le)]
    simp only [Outcome.bind, zero_add]
    rw [if_neg (show ¬ 4 * e < 0 by linarith)]
  rwa [this] at h

end Verif.Props
