import Mathlib.Analysis.InnerProductSpace.PiL2
import Verif.Model.Moid
import Verif.Props.Ellipse
import Verif.Props.Orbit
import Verif.Spec.Moid

/-!
# Property theorems: the least distance of two orbits (C94)
-/

namespace Verif.Props

open Verif Verif.Spec Verif.Orbit Verif.Ellipse Verif.Moid Real

/-! ## Distances -/

/-- The same vector in Mathlib's Euclidean space. -/
noncomputable def euclid (u : Vec) : EuclideanSpace ℝ (Fin 3) := !₂[u.x, u.y, u.z]

theorem apart_dist (u v : Vec) : apart u v = dist (euclid u) (euclid v) := by
  rw [EuclideanSpace.dist_eq, Fin.sum_univ_three]
  simp [apart, euclid, Real.dist_eq, sq_abs]

theorem apart_triangle (u v w : Vec) : apart u w ≤ apart u v + apart v w := by
  simp only [apart_dist]
  exact dist_triangle _ _ _

theorem apart_comm (u v : Vec) : apart u v = apart v u := by
  simp only [apart_dist]
  exact dist_comm _ _

theorem apart_nonneg (u v : Vec) : 0 ≤ apart u v := sqrt_nonneg _

theorem apart_sq (u v : Vec) : apart u v ^ 2 = (u.x - v.x) ^ 2 + (u.y - v.y) ^ 2 + (u.z - v.z) ^ 2 := by
  unfold apart
  rw [sq_sqrt (by positivity)]

/-! ## Conics -/

theorem conic_denom {c : Conic} (hc : c.Closed) (θ : ℝ) : 1 - c.ecc ≤ 1 + c.ecc * cos θ ∧ 1 + c.ecc * cos θ ≤ 1 + c.ecc ∧ 0 < 1 + c.ecc * cos θ := by
  have h1 := neg_one_le_cos θ
  have h2 := cos_le_one θ
  have h3 := hc.ecc
  have h4 := hc.one
  refine ⟨by nlinarith, by nlinarith, by nlinarith⟩

theorem radius_pos {c : Conic} (hc : c.Closed) (θ : ℝ) : 0 < c.radius θ := by
  have := hc.q
  have := hc.ecc
  have := (conic_denom hc θ).2.2
  unfold Conic.radius
  positivity

theorem radius_bounds {c : Conic} (hc : c.Closed) (θ : ℝ) : c.q ≤ c.radius θ ∧ c.radius θ ≤ c.far := by
  have h1 := hc.q
  have h2 := hc.ecc
  have h3 := hc.one
  obtain ⟨h4, h5, h6⟩ := conic_denom hc θ
  unfold Conic.radius Conic.far
  constructor
  · rw [le_div_iff₀ h6]
    exact mul_le_mul_of_nonneg_left h5 h1.le
  · exact div_le_div_of_nonneg_left (by positivity) (by linarith) h4

theorem place_norm {c : Conic} (hc : c.Closed) (θ : ℝ) : apart (c.place θ) ⟨0, 0, 0⟩ = c.radius θ := by
  have h := radius_pos hc θ
  rw [← sqrt_sq h.le]
  unfold apart
  congr 1
  have h1 := hc.pp
  have h2 := hc.ss
  have h3 := hc.ps
  unfold Vec.dot at h1 h2 h3
  unfold Conic.place Vec.comb2
  simp only
  linear_combination (c.radius θ * cos θ) ^ 2 * h1 + (c.radius θ * sin θ) ^ 2 * h2 + 2 * (c.radius θ * cos θ) * (c.radius θ * sin θ) * h3 +
    c.radius θ ^ 2 * sin_sq_add_cos_sq θ

/-- The two conics are at least as far apart as their distances from the focus differ. -/
theorem apart_radius {c d : Conic} (hc : c.Closed) (hd : d.Closed) (φ θ : ℝ) : |c.radius φ - d.radius θ| ≤ apart (c.place φ) (d.place θ) := by
  have h1 := apart_triangle (c.place φ) (d.place θ) ⟨0, 0, 0⟩
  have h2 := apart_triangle (d.place θ) (c.place φ) ⟨0, 0, 0⟩
  rw [place_norm hc, place_norm hd] at h1
  rw [place_norm hc, place_norm hd, apart_comm] at h2
  rw [abs_le]
  constructor <;> linarith

theorem chord_sq (θ φ : ℝ) : (cos θ - cos φ) ^ 2 + (sin θ - sin φ) ^ 2 ≤ (θ - φ) ^ 2 := by
  have h := one_sub_sq_div_two_le_cos (x := θ - φ)
  rw [cos_sub] at h
  nlinarith [sin_sq_add_cos_sq θ, sin_sq_add_cos_sq φ]

theorem cos_lipschitz (θ φ : ℝ) : |cos θ - cos φ| ≤ |θ - φ| := by
  apply sq_le_sq.mp
  nlinarith [chord_sq θ φ, sq_nonneg (sin θ - sin φ)]

/-- How far a point moves when its true anomaly changes. -/
theorem place_lipschitz {c : Conic} (hc : c.Closed) (θ φ : ℝ) : apart (c.place θ) (c.place φ) ≤ c.far / (1 - c.ecc) * |θ - φ| := by
  have hq := hc.q
  have he := hc.ecc
  have h1 := hc.one
  obtain ⟨-, hb1⟩ := radius_bounds hc θ
  obtain ⟨-, hb2⟩ := radius_bounds hc φ
  have hp1 := radius_pos hc θ
  have hp2 := radius_pos hc φ
  have hd1 := (conic_denom hc θ).2.2
  have hd2 := (conic_denom hc φ).2.2
  have hF : 0 < c.far := lt_of_lt_of_le hp1 hb1
  -- the point at the angle φ, moved out to the radius of the other
  set m : Vec := Vec.comb2 (c.radius φ * cos θ) c.peri (c.radius φ * sin θ) c.side with hm
  have pp := hc.pp
  have ss := hc.ss
  have ps := hc.ps
  unfold Vec.dot at pp ss ps
  have e1 : apart (c.place θ) m ≤ c.far * (c.ecc / (1 - c.ecc)) * |θ - φ| := by
    have hsq : apart (c.place θ) m ^ 2 = (c.radius θ - c.radius φ) ^ 2 := by
      rw [apart_sq, hm]
      unfold Conic.place Vec.comb2
      simp only
      linear_combination ((c.radius θ - c.radius φ) * cos θ) ^ 2 * pp + ((c.radius θ - c.radius φ) * sin θ) ^ 2 * ss +
        2 * ((c.radius θ - c.radius φ) * cos θ) * ((c.radius θ - c.radius φ) * sin θ) * ps + (c.radius θ - c.radius φ) ^ 2 * sin_sq_add_cos_sq θ
    have hab : apart (c.place θ) m = |c.radius θ - c.radius φ| := by
      rw [← abs_of_nonneg (apart_nonneg (c.place θ) m)]
      exact (sq_eq_sq_iff_abs_eq_abs _ _).mp hsq
    rw [hab]
    have hdiff : c.radius θ - c.radius φ = c.radius θ * (c.ecc * (cos φ - cos θ) / (1 + c.ecc * cos φ)) := by
      unfold Conic.radius
      field_simp
      ring
    rw [hdiff, abs_mul, abs_of_pos hp1, abs_div, abs_mul, abs_of_nonneg he, abs_of_pos hd2]
    have hcl := cos_lipschitz φ θ
    rw [abs_sub_comm φ θ] at hcl
    have : c.ecc * |cos φ - cos θ| / (1 + c.ecc * cos φ) ≤ c.ecc * |θ - φ| / (1 - c.ecc) := by
      apply div_le_div₀ (by positivity) (by gcongr) (by linarith) (conic_denom hc φ).1
    calc c.radius θ * (c.ecc * |cos φ - cos θ| / (1 + c.ecc * cos φ)) ≤ c.far * (c.ecc * |θ - φ| / (1 - c.ecc)) := by
          apply mul_le_mul hb1 this _ hF.le
          positivity
      _ = _ := by ring
  have e2 : apart m (c.place φ) ≤ c.far * |θ - φ| := by
    have hsq : apart m (c.place φ) ^ 2 = c.radius φ ^ 2 * ((cos θ - cos φ) ^ 2 + (sin θ - sin φ) ^ 2) := by
      rw [apart_sq, hm]
      unfold Conic.place Vec.comb2
      simp only
      linear_combination (c.radius φ * (cos θ - cos φ)) ^ 2 * pp + (c.radius φ * (sin θ - sin φ)) ^ 2 * ss +
        2 * (c.radius φ * (cos θ - cos φ)) * (c.radius φ * (sin θ - sin φ)) * ps
    have : apart m (c.place φ) ≤ c.radius φ * |θ - φ| := by
      apply le_of_sq_le_sq _ (by positivity)
      rw [hsq, mul_pow, sq_abs]
      exact mul_le_mul_of_nonneg_left (chord_sq θ φ) (sq_nonneg _)
    exact this.trans (mul_le_mul_of_nonneg_right hb2 (abs_nonneg _))
  have := apart_triangle (c.place θ) m (c.place φ)
  have hsum : c.far / (1 - c.ecc) * |θ - φ| = c.far * (c.ecc / (1 - c.ecc)) * |θ - φ| + c.far * |θ - φ| := by
    have : (1 - c.ecc) ≠ 0 := by linarith
    field_simp
    ring
  rw [hsum]
  linarith

/-- A point of the conic, seen from the centre of the ellipse. -/
theorem polar_on {c : Conic} (hc : c.Closed) (φ : ℝ) :
    OnEllipse (c.q / (1 - c.ecc)) (c.q / (1 - c.ecc) * √(1 - c.ecc ^ 2)) (c.radius φ * cos φ + c.q * c.ecc / (1 - c.ecc)) (c.radius φ * sin φ) := by
  have hq := hc.q
  have he := hc.ecc
  have h1 := hc.one
  have hd := (conic_denom hc φ).2.2
  have h2 : (1 - c.ecc) ≠ 0 := by linarith
  have h3 : 0 < 1 - c.ecc ^ 2 := by nlinarith
  unfold OnEllipse
  rw [div_pow, div_pow (c.radius φ * sin φ), mul_pow (c.q / (1 - c.ecc)) (√(1 - c.ecc ^ 2)), sq_sqrt h3.le]
  have h4 : 1 - c.ecc ^ 2 = (1 - c.ecc) * (1 + c.ecc) := by ring
  have h5 : 1 + c.ecc ≠ 0 := by linarith
  unfold Conic.radius
  rw [h4]
  field_simp
  have := sin_sq_add_cos_sq φ
  rw [show sin φ ^ 2 = 1 - cos φ ^ 2 by linarith]
  ring

theorem on_polar {c : Conic} (hc : c.Closed) {px py : ℝ} (h : OnEllipse (c.q / (1 - c.ecc)) (c.q / (1 - c.ecc) * √(1 - c.ecc ^ 2)) px py) :
    px - c.q * c.ecc / (1 - c.ecc) = c.radius (atan2 py (px - c.q * c.ecc / (1 - c.ecc))) * cos (atan2 py (px - c.q * c.ecc / (1 - c.ecc))) ∧
      py = c.radius (atan2 py (px - c.q * c.ecc / (1 - c.ecc))) * sin (atan2 py (px - c.q * c.ecc / (1 - c.ecc))) := by
  have hq := hc.q
  have he := hc.ecc
  have h1 := hc.one
  have h2 : 0 < 1 - c.ecc := by linarith
  have h3 : 0 < 1 - c.ecc ^ 2 := by nlinarith
  obtain ⟨a, ha⟩ : ∃ a, a = c.q / (1 - c.ecc) := ⟨_, rfl⟩
  have hap : 0 < a := by rw [ha]; positivity
  have hae : c.q * c.ecc / (1 - c.ecc) = a * c.ecc := by rw [ha]; ring
  have hqa : c.q = a * (1 - c.ecc) := by rw [ha]; field_simp
  rw [hae]
  rw [← ha] at h
  unfold OnEllipse at h
  rw [div_pow, div_pow, mul_pow, sq_sqrt h3.le] at h
  field_simp at h
  have hsq : (px - a * c.ecc) ^ 2 + py ^ 2 = (a - c.ecc * px) ^ 2 := by nlinarith
  have hpx : |px| ≤ a := by
    apply abs_le_of_sq_le_sq _ hap.le
    have : px ^ 2 * (1 - c.ecc ^ 2) ≤ a ^ 2 * (1 - c.ecc ^ 2) := by nlinarith [sq_nonneg py]
    exact le_of_mul_le_mul_right this h3
  have hr : 0 < a - c.ecc * px := by
    have := (abs_le.mp hpx).2
    nlinarith
  have hpos : 0 < (px - a * c.ecc) ^ 2 + py ^ 2 := by rw [hsq]; positivity
  obtain ⟨n, hn, hnn, hcos, hsin⟩ := atan2_dir hpos
  have hna : n = a - c.ecc * px := by
    rw [hsq] at hnn
    exact (sq_eq_sq₀ hn.le hr.le).mp hnn
  generalize atan2 py (px - a * c.ecc) = φ at *
  have hrad : c.radius φ = n := by
    unfold Conic.radius
    have hd := (conic_denom hc φ).2.2
    rw [div_eq_iff hd.ne', hcos, hqa]
    field_simp
    rw [hna]
    ring
  rw [hrad, hcos, hsin]
  constructor <;> field_simp

/-! ## One angle -/

/-- The elements `e` belong to the ellipse `c`. -/
structure Suits (e : Elements) (c : Conic) : Prop where
  closed : c.Closed
  q : e.q = c.q
  ecc : e.ecc = c.ecc
  peri : e.perihVec = c.peri
  side : e.sideways = c.side
  axis : e.majorAxis = c.q / (1 - c.ecc)
  minor : e.minorToMajor = √(1 - c.ecc ^ 2)

theorem derive_suits (e : Elements) (gm : ℝ) (hq : 0 < e.q) (he : 0 ≤ e.ecc) (h1 : e.ecc < 1) (hi : cos e.incl ≠ 0) :
    Suits (derive e gm) (Conic.ofElements e.q e.ecc e.ascNode e.incl e.argPer) := by
  obtain ⟨d1, d2, d3, d4, -, d6, -⟩ := derive_fields e gm hi
  refine ⟨⟨hq, he, h1, towards_unit _ _ _, towards_unit _ _ _, towards_ahead _ _ _⟩, d3, d4, d1, d2, ?_, ?_⟩
  · unfold derive orbitVectors
    simp only [ne_eq, h1.ne, not_false_eq_true, if_true]
    rw [abs_of_pos (by linarith)]
    rfl
  · rw [d6, abs_of_nonneg (by nlinarith), ← sq]
    rfl

/-- A vector in the directions of an orthonormal frame. -/
theorem frame_sq {p s w : Vec} (pp : p.dot p = 1) (ss : s.dot s = 1) (ps : p.dot s = 0) :
    w.x ^ 2 + w.y ^ 2 + w.z ^ 2 = vdot p w ^ 2 + vdot s w ^ 2 + vdot (vcross p s) w ^ 2 := by
  have gram : vdot (vcross p s) w ^ 2 = (w.x ^ 2 + w.y ^ 2 + w.z ^ 2) * (p.dot p * s.dot s - p.dot s ^ 2) -
      vdot p w * (vdot p w * s.dot s - p.dot s * vdot s w) + vdot s w * (vdot p w * p.dot s - p.dot p * vdot s w) := by
    unfold vdot vcross Vec.dot
    simp only
    ring
  rw [gram, pp, ss, ps]
  ring

theorem trueR_eq {e : Elements} {c : Conic} (hf : Suits e c) (hfar : c.far ≤ 1000) (θ : ℝ) : trueR e θ = c.radius θ := by
  have h1 := radius_pos hf.closed θ
  have h2 := (radius_bounds hf.closed θ).2
  unfold trueR
  simp only
  rw [hf.q, hf.ecc]
  unfold Conic.radius at h1 h2 ⊢
  rw [if_neg]
  push Not
  exact ⟨by linarith, h1.le⟩

/-- The position, in the frame of the first orbit. -/
theorem posn_eq {e1 e2 : Elements} {c1 c2 : Conic} (h1 : Suits e1 c1) (h2 : Suits e2 c2) (hfar : c2.far ≤ 1000) (θ : ℝ) :
    posn e2 θ (xform (fillMatrix e1) (fillMatrix e2)) =
      ⟨vdot c1.peri (c2.place θ), vdot c1.side (c2.place θ), vdot (vcross c1.peri c1.side) (c2.place θ)⟩ := by
  unfold posn xform fillMatrix
  simp only
  rw [trueR_eq h2 hfar, h1.peri, h1.side, h2.peri, h2.side]
  unfold Conic.place Vec.comb2 vdot
  ext <;> simp only <;> ring

/-- The distance of two points of the orbits, in the frame of the first. -/
theorem apart_frame {c1 c2 : Conic} (h1 : c1.Closed) (φ θ : ℝ) :
    apart (c1.place φ) (c2.place θ) ^ 2 = (vdot c1.peri (c2.place θ) - c1.radius φ * cos φ) ^ 2 +
      (vdot c1.side (c2.place θ) - c1.radius φ * sin φ) ^ 2 + vdot (vcross c1.peri c1.side) (c2.place θ) ^ 2 := by
  rw [apart_comm, apart_sq]
  have := frame_sq (w := minus (c2.place θ) (c1.place φ)) h1.pp h1.ss h1.ps
  have pp := h1.pp
  have ss := h1.ss
  have ps := h1.ps
  unfold minus at this
  simp only at this
  rw [this]
  generalize c2.place θ = w
  have i1 : vdot c1.peri ⟨w.x - (c1.place φ).x, w.y - (c1.place φ).y, w.z - (c1.place φ).z⟩ = vdot c1.peri w - c1.radius φ * cos φ := by
    unfold Conic.place Vec.comb2
    unfold Vec.dot at pp ps
    unfold vdot
    simp only
    linear_combination -(c1.radius φ * cos φ) * pp - c1.radius φ * sin φ * ps
  have i2 : vdot c1.side ⟨w.x - (c1.place φ).x, w.y - (c1.place φ).y, w.z - (c1.place φ).z⟩ = vdot c1.side w - c1.radius φ * sin φ := by
    unfold Conic.place Vec.comb2
    unfold Vec.dot at ss ps
    unfold vdot
    simp only
    linear_combination -(c1.radius φ * sin φ) * ss - c1.radius φ * cos φ * ps
  have i3 : vdot (vcross c1.peri c1.side) ⟨w.x - (c1.place φ).x, w.y - (c1.place φ).y, w.z - (c1.place φ).z⟩ = vdot (vcross c1.peri c1.side) w := by
    unfold Conic.place Vec.comb2 vdot vcross
    simp only
    ring
  rw [i1, i2, i3]

/-- `point_to_ellipse` can handle the point at the true anomaly `θ`: it does not lie exactly on the minor axis of the first orbit (C77_pole)
nor, if the first orbit is a circle, on its line of apsides (C77_circle). -/
def Clear (c1 c2 : Conic) (θ : ℝ) : Prop :=
  vdot c1.peri (c2.place θ) + c1.q * c1.ecc / (1 - c1.ecc) ≠ 0 ∧ (c1.ecc ≠ 0 ∨ vdot c1.side (c2.place θ) ≠ 0)

/-- For one point of the second orbit the code finds the nearest point of the first. -/
theorem C94_point {e1 e2 : Elements} {c1 c2 : Conic} (h1 : Suits e1 c1) (h2 : Suits e2 c2) (hfar : c2.far ≤ 1000) {θ : ℝ} (hc : Clear c1 c2 θ) :
    ∃ d φ, distSquared e1 e2 (xform (fillMatrix e1) (fillMatrix e2)) θ = some d ∧
      obj1TrueAnom e1 e2 (xform (fillMatrix e1) (fillMatrix e2)) θ = some φ ∧ d = apart (c1.place φ) (c2.place θ) ^ 2 ∧
      ∀ φ', apart (c1.place φ) (c2.place θ) ≤ apart (c1.place φ') (c2.place θ) := by
  have hq := h1.closed.q
  have he := h1.closed.ecc
  have ho := h1.closed.one
  have hpos : 0 < 1 - c1.ecc ^ 2 := by nlinarith
  have h1e : 0 < 1 - c1.ecc := by linarith
  have ha : 0 < c1.q / (1 - c1.ecc) := by positivity
  have hb : 0 < c1.q / (1 - c1.ecc) * √(1 - c1.ecc ^ 2) := mul_pos ha (sqrt_pos.mpr hpos)
  have hab : c1.q / (1 - c1.ecc) * √(1 - c1.ecc ^ 2) ≤ c1.q / (1 - c1.ecc) := by
    have : √(1 - c1.ecc ^ 2) ≤ 1 := by
      rw [sqrt_le_iff]
      constructor <;> nlinarith [sq_nonneg c1.ecc]
    nlinarith
  have hne : c1.q / (1 - c1.ecc) ≠ c1.q / (1 - c1.ecc) * √(1 - c1.ecc ^ 2) ∨ vdot c1.side (c2.place θ) ≠ 0 := by
    rcases hc.2 with h | h
    · left
      intro heq
      have h3 : √(1 - c1.ecc ^ 2) = 1 := by
        have := mul_left_cancel₀ ha.ne' (heq.symm.trans (mul_one _).symm)
        exact this
      rw [sqrt_eq_one] at h3
      exact h (by nlinarith [sq_nonneg c1.ecc, sq_pos_of_ne_zero h])
    · exact Or.inr h
  obtain ⟨lat, h, hpt, ⟨px, py, k, hon, -, -, -, hx, hy⟩, hnear, -⟩ := C77_nearest hb hab hc.1 hne
  have hpm : pointMoid e1 e2 (xform (fillMatrix e1) (fillMatrix e2)) θ = some (lat, h) := by
    unfold pointMoid
    simp only
    rw [posn_eq h1 h2 hfar, h1.axis, h1.minor, h1.q, h1.ecc]
    exact hpt
  obtain ⟨p1, p2⟩ := on_polar h1.closed hon
  refine ⟨h * h + vdot (vcross c1.peri c1.side) (c2.place θ) * vdot (vcross c1.peri c1.side) (c2.place θ),
    atan2 py (px - c1.q * c1.ecc / (1 - c1.ecc)), ?_, ?_, ?_, ?_⟩
  · unfold distSquared
    rw [hpm, posn_eq h1 h2 hfar]
    rfl
  · unfold obj1TrueAnom
    rw [hpm, posn_eq h1 h2 hfar]
    simp only [Option.map_some, Option.some.injEq]
    congr 1 <;> linarith
  · rw [apart_frame h1.closed, ← p1, ← p2]
    have e1 : vdot c1.peri (c2.place θ) = px + h * cos lat - c1.q * c1.ecc / (1 - c1.ecc) := by linarith
    rw [e1, hy]
    nlinarith [sin_sq_add_cos_sq lat]
  · intro φ'
    apply le_of_sq_le_sq _ (apart_nonneg _ _)
    rw [apart_frame h1.closed, apart_frame h1.closed, ← p1, ← p2]
    have e1 : vdot c1.peri (c2.place θ) = px + h * cos lat - c1.q * c1.ecc / (1 - c1.ecc) := by linarith
    have e2 : (vdot c1.peri (c2.place θ) - (px - c1.q * c1.ecc / (1 - c1.ecc))) ^ 2 + (vdot c1.side (c2.place θ) - py) ^ 2 = h ^ 2 := by
      rw [e1, hy]
      linear_combination h ^ 2 * sin_sq_add_cos_sq lat
    have := hnear _ _ (polar_on h1.closed φ')
    have e3 : vdot c1.peri (c2.place θ) - c1.radius φ' * cos φ' =
        vdot c1.peri (c2.place θ) + c1.q * c1.ecc / (1 - c1.ecc) - (c1.radius φ' * cos φ' + c1.q * c1.ecc / (1 - c1.ecc)) := by ring
    rw [e2, e3]
    linarith

/-! ## Lists of angles -/

theorem fold_visit (D : ℝ → Option ℝ) (l : List ℝ) : ∀ b : Best,
    (l.foldl (visit D) b).least ≤ b.least ∧ (∀ θ ∈ l, ∀ d, D θ = some d → (l.foldl (visit D) b).least ≤ d) ∧
      (l.foldl (visit D) b = b ∨ (l.foldl (visit D) b).at2 ∈ l ∧ D (l.foldl (visit D) b).at2 = some (l.foldl (visit D) b).least ∧
        (l.foldl (visit D) b).least < b.least) := by
  induction l with
  | nil => intro b; simp
  | cons θ l ih =>
    intro b
    rw [List.foldl_cons]
    obtain ⟨i1, i2, i3⟩ := ih (visit D b θ)
    have key : (visit D b θ).least ≤ b.least ∧ (∀ d, D θ = some d → (visit D b θ).least ≤ d) ∧
        (visit D b θ = b ∨ (visit D b θ).at2 = θ ∧ D θ = some (visit D b θ).least ∧ (visit D b θ).least < b.least) := by
      unfold visit
      cases hD : D θ with
      | none => simp
      | some d =>
        simp only
        by_cases h : b.least > d
        · rw [if_pos h]
          exact ⟨h.le, fun d' hd' => by simp only [Option.some.injEq] at hd'; exact hd'.le, Or.inr ⟨rfl, rfl, h⟩⟩
        · rw [if_neg h]
          exact ⟨le_rfl, fun d' hd' => by simp only [Option.some.injEq] at hd'; rw [← hd']; exact not_lt.mp h, Or.inl rfl⟩
    obtain ⟨k1, k2, k3⟩ := key
    refine ⟨i1.trans k1, ?_, ?_⟩
    · intro θ' hθ' d hd
      rcases List.mem_cons.mp hθ' with h | h
      · exact i1.trans (k2 d (h ▸ hd))
      · exact i2 θ' h d hd
    · rcases i3 with h | ⟨h, h', h''⟩
      · rw [h]
        rcases k3 with k | ⟨k, k', k''⟩
        · exact Or.inl k
        · exact Or.inr ⟨by rw [k]; exact List.mem_cons_self, by rw [k]; exact k', k''⟩
      · exact Or.inr ⟨List.mem_cons_of_mem _ h, h', h''.trans_le k1⟩

theorem fold_least (D : ℝ → Option ℝ) (l : List ℝ) : ∀ m : ℝ,
    l.foldl (visitLeast D) m ≤ m ∧ (∀ θ ∈ l, ∀ d, D θ = some d → l.foldl (visitLeast D) m ≤ d) ∧
      (l.foldl (visitLeast D) m = m ∨ ∃ θ ∈ l, D θ = some (l.foldl (visitLeast D) m)) := by
  induction l with
  | nil => intro b; simp
  | cons θ l ih =>
    intro b
    rw [List.foldl_cons]
    obtain ⟨i1, i2, i3⟩ := ih (visitLeast D b θ)
    have key : visitLeast D b θ ≤ b ∧ (∀ d, D θ = some d → visitLeast D b θ ≤ d) ∧
        (visitLeast D b θ = b ∨ D θ = some (visitLeast D b θ)) := by
      unfold visitLeast
      cases hD : D θ with
      | none => simp
      | some d =>
        simp only
        by_cases h : b > d
        · rw [if_pos h]
          exact ⟨h.le, fun d' hd' => by simp only [Option.some.injEq] at hd'; exact hd'.le, Or.inr rfl⟩
        · rw [if_neg h]
          exact ⟨le_rfl, fun d' hd' => by simp only [Option.some.injEq] at hd'; rw [← hd']; exact not_lt.mp h, Or.inl rfl⟩
    obtain ⟨k1, k2, k3⟩ := key
    refine ⟨i1.trans k1, ?_, ?_⟩
    · intro θ' hθ' d hd
      rcases List.mem_cons.mp hθ' with h | h
      · exact i1.trans (k2 d (h ▸ hd))
      · exact i2 θ' h d hd
    · rcases i3 with h | ⟨θ', h, h'⟩
      · rw [h]
        rcases k3 with k | k
        · exact Or.inl k
        · exact Or.inr ⟨θ, List.mem_cons_self, k⟩
      · exact Or.inr ⟨θ', List.mem_cons_of_mem _ h, h'⟩

/-! ## The grid -/

theorem step_pos : 0 < moidStep := by
  unfold moidStep
  positivity

theorem grid_cover {lo hi θ s : ℝ} (h1 : lo ≤ θ) (h2 : θ ≤ hi) (hs : s = 1 ∨ s = -1) :
    ∃ k < nSteps lo hi + 3, |s * θ - grid lo hi s k| ≤ moidStep / 2 := by
  have hst := step_pos
  obtain ⟨n, hn⟩ : ∃ n, n = nSteps lo hi := ⟨_, rfl⟩
  have hlt : (hi - lo) / moidStep < n := by
    rw [hn]
    unfold nSteps
    push_cast
    exact Nat.lt_floor_add_one _
  have hnp : (0 : ℝ) < n := by
    rw [hn]
    unfold nSteps
    positivity
  rw [div_lt_iff₀ hst] at hlt
  obtain ⟨w, hw⟩ : ∃ w, w = (hi - lo) / n := ⟨_, rfl⟩
  have hw1 : w ≤ moidStep := by
    rw [hw, div_le_iff₀ hnp]
    linarith
  have hw0 : 0 ≤ w := by
    rw [hw]
    apply div_nonneg <;> linarith
  have hwn : w * n = hi - lo := by
    rw [hw]
    field_simp
  have hg : ∀ j : ℕ, grid lo hi s (j + 1) = s * (w * j + lo) := by
    intro j
    unfold grid
    rw [← hn, hw]
    push_cast
    ring
  have hab : |s| = 1 := by rcases hs with h | h <;> rw [h] <;> norm_num
  rcases hw0.eq_or_lt with h0 | h0
  · refine ⟨0 + 1, by omega, ?_⟩
    rw [hg, ← mul_sub, abs_mul, hab, ← h0]
    rw [← h0] at hwn
    have : θ = lo := by linarith
    rw [this]
    simp
    linarith
  · have ht0 : 0 ≤ (θ - lo) / w := div_nonneg (by linarith) h0.le
    have htn : (θ - lo) / w ≤ n := by
      rw [div_le_iff₀ h0]
      linarith
    obtain ⟨t, ht⟩ : ∃ t, t = (θ - lo) / w := ⟨_, rfl⟩
    have htw : θ = w * t + lo := by
      rw [ht]
      field_simp
      ring
    rw [← ht] at ht0 htn
    have hf1 := Nat.floor_le (show 0 ≤ t + 1 / 2 by linarith)
    have hf2 := Nat.lt_floor_add_one (t + 1 / 2)
    have hle : ⌊t + 1 / 2⌋₊ ≤ n := by
      have : (⌊t + 1 / 2⌋₊ : ℝ) < n + 1 := by linarith
      exact_mod_cast Nat.lt_succ_iff.mp (by exact_mod_cast this)
    refine ⟨⌊t + 1 / 2⌋₊ + 1, by omega, ?_⟩
    rw [hg, ← mul_sub, abs_mul, hab, htw, one_mul, show w * t + lo - (w * ⌊t + 1 / 2⌋₊ + lo) = w * (t - ⌊t + 1 / 2⌋₊) by ring, abs_mul,
      abs_of_pos h0]
    have : |t - ⌊t + 1 / 2⌋₊| ≤ 1 / 2 := by
      rw [abs_le]
      constructor <;> linarith
    nlinarith [abs_nonneg (t - ⌊t + 1 / 2⌋₊)]

theorem grid_mem (D : ℝ → Option ℝ) (refine : ℝ → ℝ → ℝ → List ℝ) (lo hi s : ℝ) {k : ℕ} (hk : k < nSteps lo hi + 3) :
    grid lo hi s k ∈ passPoints D refine lo hi s := by
  unfold passPoints
  rw [List.mem_flatMap]
  exact ⟨k, List.mem_range.mpr hk, List.mem_cons_self⟩

/-! ## The range that is searched -/

theorem aphelion_eq {e : Elements} {c : Conic} (hf : Suits e c) : aphelion e = c.far := by
  have := hf.closed.one
  have h : 1 - c.ecc ≠ 0 := by linarith
  unfold aphelion Conic.far
  rw [hf.axis, hf.q]
  field_simp
  ring

theorem anom_upper {e : Elements} {c : Conic} (hf : Suits e c) {R θ : ℝ} (hR : 0 < R) (he : c.ecc ≠ 0) (h0 : 0 ≤ θ) (hp : θ ≤ π)
    (h : c.radius θ ≤ R) : θ ≤ trueAnomFromR e R := by
  have hpos : 0 < c.ecc := lt_of_le_of_ne hf.closed.ecc (Ne.symm he)
  have hd := (conic_denom hf.closed θ).2.2
  unfold Conic.radius at h
  rw [div_le_iff₀ hd] at h
  have hcos : (c.q * (1 + c.ecc) - R) / (R * c.ecc) ≤ cos θ := by
    rw [div_le_iff₀ (by positivity)]
    linarith
  unfold trueAnomFromR
  rw [if_pos (by rw [hf.ecc]; exact he), hf.q, hf.ecc]
  simp only
  generalize (c.q * (1 + c.ecc) - R) / (R * c.ecc) = v at hcos
  by_cases h1 : v ≥ 1
  · rw [if_pos h1]
    have : cos θ = 1 := le_antisymm (cos_le_one _) (h1.trans hcos)
    rw [← arccos_cos h0 hp, this, arccos_one]
  · rw [if_neg h1]
    by_cases h2 : v ≤ -1
    · rw [if_pos h2]
      exact hp
    · rw [if_neg h2, ← arccos_cos h0 hp]
      exact arccos_le_arccos hcos

theorem anom_lower {e : Elements} {c : Conic} (hf : Suits e c) {R θ : ℝ} (hR : 0 < R) (he : c.ecc ≠ 0) (h0 : 0 ≤ θ) (hp : θ ≤ π)
    (h : R ≤ c.radius θ) : trueAnomFromR e R ≤ θ := by
  have hpos : 0 < c.ecc := lt_of_le_of_ne hf.closed.ecc (Ne.symm he)
  have hd := (conic_denom hf.closed θ).2.2
  unfold Conic.radius at h
  rw [le_div_iff₀ hd] at h
  have hcos : cos θ ≤ (c.q * (1 + c.ecc) - R) / (R * c.ecc) := by
    rw [le_div_iff₀ (by positivity)]
    linarith
  unfold trueAnomFromR
  rw [if_pos (by rw [hf.ecc]; exact he), hf.q, hf.ecc]
  simp only
  generalize (c.q * (1 + c.ecc) - R) / (R * c.ecc) = v at hcos
  by_cases h1 : v ≥ 1
  · rw [if_pos h1]
    exact h0
  · rw [if_neg h1]
    by_cases h2 : v ≤ -1
    · rw [if_pos h2]
      have : cos θ = -1 := le_antisymm (hcos.trans h2) (neg_one_le_cos _)
      rw [← arccos_cos h0 hp, this, arccos_neg_one]
    · rw [if_neg h2, ← arccos_cos h0 hp]
      exact arccos_le_arccos hcos

/-- The range holds all angles between 0 and π at which the second orbit can come closer to the first than the best distance so far. -/
def Covers (c1 c2 : Conic) (s : State) : Prop :=
  ∀ θ, 0 ≤ θ → θ ≤ π → c2.radius θ ≤ c1.far + √s.best.least → c1.q - √s.best.least ≤ c2.radius θ → s.lo ≤ θ ∧ θ ≤ s.hi

theorem radius_circle {c : Conic} (h : c.ecc = 0) (θ : ℝ) : c.radius θ = c.q ∧ c.far = c.q := by
  unfold Conic.radius Conic.far
  rw [h]
  norm_num

theorem far_pos {c : Conic} (hc : c.Closed) : 0 < c.far := (radius_pos hc 0).trans_le (radius_bounds hc 0).2

theorem narrow_covers {e1 e2 : Elements} {c1 c2 : Conic} (h1 : Suits e1 c1) (h2 : Suits e2 c2) {s : State} (hs : Covers c1 c2 s) :
    Covers c1 c2 (narrow e1 e2 s) := by
  intro θ h0 hp hr1 hr2
  have hroot := sqrt_nonneg s.best.least
  have hF := far_pos h1.closed
  unfold narrow at hr1 hr2 ⊢
  simp only at hr1 hr2 ⊢
  rw [aphelion_eq h1, aphelion_eq h2, h2.q, h1.q, h2.ecc]
  obtain ⟨k1, k2⟩ := hs θ h0 hp hr1 hr2
  constructor
  · by_cases hc : c2.q < c1.q - √s.best.least
    · rw [if_pos hc]
      apply anom_lower h2 (h2.closed.q.trans hc) _ h0 hp hr2
      intro he
      rw [(radius_circle he θ).1] at hr2
      linarith
    · rw [if_neg hc]
      exact k1
  · by_cases hc : c2.ecc ≥ 1 ∨ c2.far > c1.far + √s.best.least
    · rw [if_pos hc]
      rcases hc with hc | hc
      · exact absurd h2.closed.one (not_lt.mpr hc)
      · apply anom_upper h2 (by linarith) _ h0 hp hr1
        intro he
        rw [(radius_circle he θ).1] at hr1
        rw [(radius_circle he θ).2] at hc
        linarith
    · rw [if_neg hc]
      exact k2

theorem covers_less {c1 c2 : Conic} {s : State} {b : Best} (hs : Covers c1 c2 s) (hb : b.least ≤ s.best.least) : Covers c1 c2 { s with best := b } := by
  intro θ h0 hp hr1 hr2
  simp only at hr1 hr2 ⊢
  have := sqrt_le_sqrt hb
  exact hs θ h0 hp (by linarith) (by linarith)

/-! ## The whole search -/

/-- The frame of the second orbit seen from the first. -/
noncomputable def moidRows (e1 e2 : Elements) : Rows := xform (fillMatrix e1) (fillMatrix e2)

/-- The state before the passes. -/
noncomputable def moidStart (e1 e2 : Elements) : State :=
  let D := distSquared e1 e2 (moidRows e1 e2)
  ⟨⟨(guesses e2 (moidRows e1 e2) (firstAngle e1 e2)).foldl (visitLeast D) ((D (firstAngle e1 e2)).getD 0), 0⟩, 0, π⟩

/-- The angles of a pass that begins in the state `s`. -/
noncomputable def moidPass (e1 e2 : Elements) (refine : ℝ → ℝ → ℝ → List ℝ) (sign : ℝ) (s : State) : List ℝ :=
  passPoints (distSquared e1 e2 (moidRows e1 e2)) refine (narrow e1 e2 s).lo (narrow e1 e2 s).hi sign

/-- The state between the passes. -/
noncomputable def moidMiddle (e1 e2 : Elements) (refine : ℝ → ℝ → ℝ → List ℝ) : State :=
  pass e1 e2 (distSquared e1 e2 (moidRows e1 e2)) refine 1 (moidStart e1 e2)

/-- All angles that the search looks at. -/
noncomputable def looked (e1 e2 : Elements) (refine : ℝ → ℝ → ℝ → List ℝ) : List ℝ :=
  firstAngle e1 e2 :: guesses e2 (moidRows e1 e2) (firstAngle e1 e2) ++ (moidPass e1 e2 refine 1 (moidStart e1 e2) ++
    moidPass e1 e2 refine (-1) (moidMiddle e1 e2 refine))

theorem pass_best (e1 e2 : Elements) (refine : ℝ → ℝ → ℝ → List ℝ) (sign : ℝ) (s : State) :
    (pass e1 e2 (distSquared e1 e2 (moidRows e1 e2)) refine sign s).best =
      (moidPass e1 e2 refine sign s).foldl (visit (distSquared e1 e2 (moidRows e1 e2))) s.best := rfl

/-- What one pass achieves. -/
theorem pass_reaches {e1 e2 : Elements} {c1 c2 : Conic} (h1 : Suits e1 c1) (h2 : Suits e2 c2) (hfar : c2.far ≤ 1000) (refine : ℝ → ℝ → ℝ → List ℝ)
    {sign : ℝ} (hsign : sign = 1 ∨ sign = -1) {s : State} (hs : Covers c1 c2 s) (hclear : ∀ θ ∈ moidPass e1 e2 refine sign s, Clear c1 c2 θ) :
    (∀ θ, 0 ≤ θ → θ ≤ π → ∀ φ, √(pass e1 e2 (distSquared e1 e2 (moidRows e1 e2)) refine sign s).best.least ≤
      apart (c1.place φ) (c2.place (sign * θ)) + c2.far / (1 - c2.ecc) * (moidStep / 2)) ∧
    Covers c1 c2 (pass e1 e2 (distSquared e1 e2 (moidRows e1 e2)) refine sign s) := by
  obtain ⟨f1, f2, -⟩ := fold_visit (distSquared e1 e2 (moidRows e1 e2)) (moidPass e1 e2 refine sign s) s.best
  have hn := narrow_covers h1 h2 hs
  have hL : 0 ≤ c2.far / (1 - c2.ecc) := by
    have := far_pos h2.closed
    have := h2.closed.one
    apply div_nonneg <;> linarith
  constructor
  · intro θ h0 hp φ
    rw [pass_best]
    have hsl := sqrt_le_sqrt f1
    have hrest : 0 ≤ c2.far / (1 - c2.ecc) * (moidStep / 2) := mul_nonneg hL (by linarith [step_pos])
    have hrad : c2.radius (sign * θ) = c2.radius θ := by
      rcases hsign with h | h <;> rw [h] <;> simp [Conic.radius]
    have hap := apart_radius h1.closed h2.closed φ (sign * θ)
    rw [hrad, abs_le] at hap
    obtain ⟨b1, b2⟩ := radius_bounds h1.closed φ
    by_cases hr1 : c2.radius θ ≤ c1.far + √s.best.least
    · by_cases hr2 : c1.q - √s.best.least ≤ c2.radius θ
      · obtain ⟨r1, r2⟩ := hn θ h0 hp hr1 hr2
        obtain ⟨k, hk, hg⟩ := grid_cover r1 r2 hsign
        have hmem := grid_mem (distSquared e1 e2 (moidRows e1 e2)) refine (narrow e1 e2 s).lo (narrow e1 e2 s).hi sign hk
        obtain ⟨d, φ', hd, -, hdd, hmin⟩ := C94_point h1 h2 hfar (hclear _ hmem)
        have hle := sqrt_le_sqrt (f2 _ hmem d hd)
        rw [hdd, sqrt_sq (apart_nonneg _ _)] at hle
        have t1 := hmin φ
        have t2 := apart_triangle (c1.place φ) (c2.place (sign * θ)) (c2.place (grid (narrow e1 e2 s).lo (narrow e1 e2 s).hi sign k))
        have t3 := place_lipschitz h2.closed (sign * θ) (grid (narrow e1 e2 s).lo (narrow e1 e2 s).hi sign k)
        have t4 := mul_le_mul_of_nonneg_left hg hL
        linarith
      · linarith
    · linarith
  · exact covers_less hn f1

theorem half_turn (θ : ℝ) : ∃ θ', 0 ≤ θ' ∧ θ' ≤ π ∧ ∃ s : ℝ, (s = 1 ∨ s = -1) ∧ cos (s * θ') = cos θ ∧ sin (s * θ') = sin θ := by
  have hpos : 0 < cos θ ^ 2 + sin θ ^ 2 := by
    rw [add_comm, sin_sq_add_cos_sq]
    norm_num
  obtain ⟨n, hn, hnn, hcos, hsin⟩ := atan2_dir hpos
  have h1 : n = 1 := by
    rw [add_comm, sin_sq_add_cos_sq] at hnn
    nlinarith
  rw [h1, div_one] at hcos hsin
  have hle : |atan2 (sin θ) (cos θ)| ≤ π := Complex.abs_arg_le_pi _
  refine ⟨|atan2 (sin θ) (cos θ)|, abs_nonneg _, hle, ?_⟩
  rcases abs_choice (atan2 (sin θ) (cos θ)) with h | h
  · exact ⟨1, Or.inl rfl, by rw [h, one_mul]; exact hcos, by rw [h, one_mul]; exact hsin⟩
  · exact ⟨-1, Or.inr rfl, by rw [h, neg_one_mul, neg_neg]; exact hcos, by rw [h, neg_one_mul, neg_neg]; exact hsin⟩

theorem findBest_eq {e1 e2 : Elements} {refine : ℝ → ℝ → ℝ → List ℝ} {d : ℝ} (h : distSquared e1 e2 (moidRows e1 e2) (firstAngle e1 e2) = some d) :
    findBest e1 e2 refine = some (pass e1 e2 (distSquared e1 e2 (moidRows e1 e2)) refine (-1) (moidMiddle e1 e2 refine)).best := by
  unfold findBest moidMiddle moidStart
  unfold moidRows at h ⊢
  simp only
  rw [h]
  rfl

/-- The result is the distance of two points of the orbits, and no two points are closer by more than what half a step along the second
orbit makes out. -/
theorem C94_moid {e1 e2 : Elements} {c1 c2 : Conic} (h1 : Suits e1 c1) (h2 : Suits e2 c2) (hfar : c2.far ≤ 1000) (refine : ℝ → ℝ → ℝ → List ℝ)
    (hclear : ∀ θ ∈ looked e1 e2 refine, Clear c1 c2 θ) :
    ∃ b, findBest e1 e2 refine = some b ∧ (∃ φ θ, √b.least = apart (c1.place φ) (c2.place θ)) ∧
      (∀ θ ∈ looked e1 e2 refine, ∀ φ, √b.least ≤ apart (c1.place φ) (c2.place θ)) ∧
      ∀ φ θ, √b.least ≤ apart (c1.place φ) (c2.place θ) + c2.far / (1 - c2.ecc) * (moidStep / 2) := by
  obtain ⟨d0, φ0, hd0, -, hdd0, hmin0⟩ := C94_point h1 h2 hfar (hclear _ (List.mem_cons_self))
  refine ⟨_, findBest_eq hd0, ?_⟩
  have hd0' : distSquared e1 e2 (moidRows e1 e2) (firstAngle e1 e2) = some d0 := hd0
  obtain ⟨g1, g2, g3⟩ := fold_least (distSquared e1 e2 (moidRows e1 e2)) (guesses e2 (moidRows e1 e2) (firstAngle e1 e2)) d0
  have hstart : (moidStart e1 e2).best.least = (guesses e2 (moidRows e1 e2) (firstAngle e1 e2)).foldl (visitLeast (distSquared e1 e2 (moidRows e1 e2))) d0 := by
    unfold moidStart
    simp only
    rw [hd0']
    rfl
  rw [← hstart] at g1 g2 g3
  have hcov : Covers c1 c2 (moidStart e1 e2) := fun θ k1 k2 _ _ => ⟨k1, k2⟩
  have m1 : ∀ θ ∈ moidPass e1 e2 refine 1 (moidStart e1 e2), θ ∈ looked e1 e2 refine := fun θ h =>
    List.mem_append_right _ (List.mem_append_left _ h)
  have m2 : ∀ θ ∈ moidPass e1 e2 refine (-1) (moidMiddle e1 e2 refine), θ ∈ looked e1 e2 refine := fun θ h =>
    List.mem_append_right _ (List.mem_append_right _ h)
  have m3 : ∀ θ ∈ guesses e2 (moidRows e1 e2) (firstAngle e1 e2), θ ∈ looked e1 e2 refine := fun θ h =>
    List.mem_append_left _ (List.mem_cons_of_mem _ h)
  obtain ⟨p1, c1'⟩ := pass_reaches h1 h2 hfar refine (Or.inl rfl) hcov fun θ h => hclear θ (m1 θ h)
  obtain ⟨p2, -⟩ := pass_reaches h1 h2 hfar refine (Or.inr rfl) c1' fun θ h => hclear θ (m2 θ h)
  obtain ⟨q1, q2, q3⟩ := fold_visit (distSquared e1 e2 (moidRows e1 e2)) (moidPass e1 e2 refine 1 (moidStart e1 e2)) (moidStart e1 e2).best
  obtain ⟨r1, r2, r3⟩ := fold_visit (distSquared e1 e2 (moidRows e1 e2)) (moidPass e1 e2 refine (-1) (moidMiddle e1 e2 refine)) (moidMiddle e1 e2 refine).best
  rw [← pass_best] at q1 q2 q3 r1 r2 r3
  change (moidMiddle e1 e2 refine).best.least ≤ _ at q1
  change ∀ θ ∈ _, ∀ d, _ → (moidMiddle e1 e2 refine).best.least ≤ d at q2
  refine ⟨?_, ?_, ?_⟩
  · -- attained
    have key : ∃ θ ∈ looked e1 e2 refine, distSquared e1 e2 (moidRows e1 e2) θ =
        some (pass e1 e2 (distSquared e1 e2 (moidRows e1 e2)) refine (-1) (moidMiddle e1 e2 refine)).best.least := by
      rcases r3 with h | ⟨h, h', -⟩
      · rw [h]
        rcases q3 with k | ⟨k, k', -⟩
        · change ∃ θ ∈ looked e1 e2 refine, _ = some (pass e1 e2 (distSquared e1 e2 (moidRows e1 e2)) refine 1 (moidStart e1 e2)).best.least
          rw [k]
          rcases g3 with g | ⟨θ, g, g'⟩
          · rw [g]
            exact ⟨_, List.mem_cons_self, hd0'⟩
          · exact ⟨θ, m3 θ g, g'⟩
        · exact ⟨_, m1 _ k, k'⟩
      · exact ⟨_, m2 _ h, h'⟩
    obtain ⟨θ, hθ, hD⟩ := key
    obtain ⟨d, φ, hd, -, hdd, -⟩ := C94_point h1 h2 hfar (hclear θ hθ)
    have : d = (pass e1 e2 (distSquared e1 e2 (moidRows e1 e2)) refine (-1) (moidMiddle e1 e2 refine)).best.least :=
      Option.some.inj (hd.symm.trans hD)
    exact ⟨φ, θ, by rw [← this, hdd, sqrt_sq (apart_nonneg _ _)]⟩
  · intro θ hθ φ
    obtain ⟨d, φ', hd, -, hdd, hmin⟩ := C94_point h1 h2 hfar (hclear θ hθ)
    have : (pass e1 e2 (distSquared e1 e2 (moidRows e1 e2)) refine (-1) (moidMiddle e1 e2 refine)).best.least ≤ d := by
      rcases List.mem_append.mp hθ with h | h
      · rcases List.mem_cons.mp h with h | h
        · subst h
          have : d = d0 := Option.some.inj (hd.symm.trans hd0)
          linarith
        · have := g2 θ h d hd
          linarith
      · rcases List.mem_append.mp h with h | h
        · have := q2 θ h d hd
          linarith
        · exact r2 θ h d hd
    have := sqrt_le_sqrt this
    rw [hdd, sqrt_sq (apart_nonneg _ _)] at this
    exact this.trans (hmin φ)
  · intro φ θ
    obtain ⟨θ', k1, k2, s, hs, hcos, hsin⟩ := half_turn θ
    have hpl : c2.place θ = c2.place (s * θ') := by
      unfold Conic.place Conic.radius
      rw [hcos, hsin]
    rw [hpl]
    rcases hs with h | h
    · have := p1 θ' k1 k2 φ
      have r1' := sqrt_le_sqrt r1
      rw [h]
      exact r1'.trans this
    · rw [h]
      exact p2 θ' k1 k2 φ

/-! ## What is reported besides the distance -/

/-- The eccentric anomaly belonging to a true anomaly. -/
theorem eccentric_eq {c : Conic} (hc : c.Closed) (θ : ℝ) :
    c.radius θ * cos θ = c.q / (1 - c.ecc) * (cos (toEccentric θ c.ecc) - c.ecc) ∧
      c.radius θ * sin θ = c.q / (1 - c.ecc) * √(1 - c.ecc ^ 2) * sin (toEccentric θ c.ecc) ∧
      0 ≤ toEccentric θ c.ecc ∧ toEccentric θ c.ecc ≤ 2 * π := by
  have hq := hc.q
  have he := hc.ecc
  have h1 := hc.one
  have hd := (conic_denom hc θ).2.2
  have h2 : 1 - c.ecc ≠ 0 := by linarith
  have h3 : 0 < 1 - c.ecc ^ 2 := by nlinarith
  have h4 : 0 < √(1 - c.ecc ^ 2) := sqrt_pos.mpr h3
  have h5 := sq_sqrt h3.le
  have hsc := sin_sq_add_cos_sq θ
  have hE : toEccentric θ c.ecc = π + atan2 (-((1 - c.ecc * c.ecc) / (1 + c.ecc * cos θ) * sin θ / √(1 - c.ecc * c.ecc)))
      (-((1 - c.ecc * c.ecc) / (1 + c.ecc * cos θ) * cos θ + c.ecc)) := rfl
  rw [← sq] at hE
  have hx : (1 - c.ecc ^ 2) / (1 + c.ecc * cos θ) * cos θ + c.ecc = (cos θ + c.ecc) / (1 + c.ecc * cos θ) := by
    field_simp
    ring
  have hy : (1 - c.ecc ^ 2) / (1 + c.ecc * cos θ) * sin θ / √(1 - c.ecc ^ 2) = √(1 - c.ecc ^ 2) * sin θ / (1 + c.ecc * cos θ) := by
    rw [div_eq_div_iff h4.ne' hd.ne']
    field_simp
    rw [h5]
    ring
  rw [hx, hy] at hE
  obtain ⟨x, hxd⟩ : ∃ x, x = (cos θ + c.ecc) / (1 + c.ecc * cos θ) := ⟨_, rfl⟩
  obtain ⟨y, hyd⟩ : ∃ y, y = √(1 - c.ecc ^ 2) * sin θ / (1 + c.ecc * cos θ) := ⟨_, rfl⟩
  have hone : (-x) ^ 2 + (-y) ^ 2 = 1 := by
    rw [hxd, hyd, neg_sq, neg_sq, div_pow, div_pow, mul_pow, h5, ← add_div, div_eq_one_iff_eq (by positivity)]
    rw [show sin θ ^ 2 = 1 - cos θ ^ 2 by linarith]
    ring
  rw [← hxd, ← hyd] at hE
  obtain ⟨n, hn, hnn, hcos, hsin⟩ := atan2_dir (show 0 < (-x) ^ 2 + (-y) ^ 2 by rw [hone]; norm_num)
  have hn1 : n = 1 := by
    rw [hone] at hnn
    nlinarith
  rw [hn1, div_one] at hcos hsin
  have hlo : -π < atan2 (-y) (-x) := Complex.neg_pi_lt_arg _
  have hhi : atan2 (-y) (-x) ≤ π := Complex.arg_le_pi _
  refine ⟨?_, ?_, by rw [hE]; linarith, by rw [hE]; linarith⟩
  · rw [hE, add_comm, cos_add_pi, hcos, hxd]
    unfold Conic.radius
    field_simp
    ring
  · rw [hE, add_comm, sin_add_pi, hsin, hyd]
    unfold Conic.radius
    have : √(1 - c.ecc ^ 2) * (√(1 - c.ecc ^ 2) * sin θ) = (1 - c.ecc) * (1 + c.ecc) * sin θ := by
      rw [← mul_assoc, ← sq, h5]
      ring
    rw [neg_neg, mul_assoc (c.q / (1 - c.ecc)), ← mul_div_assoc, this]
    field_simp

/-- The data in `*mdata`: the true anomaly of the point of the first orbit that is nearest to the point of the second orbit with the true anomaly
`at2`, and a time at which the first body is there by Kepler's equation. -/
theorem C94_data {e1 e2 : Elements} {c1 c2 : Conic} (h1 : Suits e1 c1) (h2 : Suits e2 c2) (hfar : c2.far ≤ 1000) {b : Best} (hc : Clear c1 c2 b.at2) :
    ∃ r E, report e1 e2 (fillMatrix e1) (fillMatrix e2) b = some r ∧ r.moid = √b.least ∧ r.at2 = b.at2 ∧
      (∀ φ, apart (c1.place r.obj1TrueAnom) (c2.place b.at2) ≤ apart (c1.place φ) (c2.place b.at2)) ∧
      r.jd1 = e1.perihTime + e1.t0 * (E - c1.ecc * sin E) ∧ 0 ≤ E ∧ E ≤ 2 * π ∧
      c1.radius r.obj1TrueAnom * cos r.obj1TrueAnom = c1.q / (1 - c1.ecc) * (cos E - c1.ecc) ∧
      c1.radius r.obj1TrueAnom * sin r.obj1TrueAnom = c1.q / (1 - c1.ecc) * √(1 - c1.ecc ^ 2) * sin E ∧
      r.barbeeSpeed = apart (vel e2 b.at2 (fillMatrix e2)) (vel e1 r.obj1TrueAnom (fillMatrix e1)) := by
  obtain ⟨d, φ, -, ho, -, hmin⟩ := C94_point h1 h2 hfar hc
  obtain ⟨k1, k2, k3, k4⟩ := eccentric_eq h1.closed φ
  unfold report
  rw [ho]
  refine ⟨_, toEccentric φ c1.ecc, rfl, rfl, rfl, hmin, ?_, k3, k4, k1, k2, ?_⟩
  · simp only
    rw [h1.ecc]
    ring
  · simp only [apart, vdot, minus]
    congr 1
    ring

/-- The velocity: a body on the conic whose true anomaly changes as Kepler's second law wants moves with `vel`. -/
theorem C94_speed {e : Elements} {c : Conic} (hf : Suits e c) (hfar : c.far ≤ 1000) {f : ℝ → ℝ} {t : ℝ}
    (hk : HasDerivAt f (gaussK * √(c.q * (1 + c.ecc)) / c.radius (f t) ^ 2) t) :
    Rate (fun s => c.place (f s)) (vel e (f t) (fillMatrix e)) t := by
  have hq := hf.closed.q
  have he := hf.closed.ecc
  have hd := (conic_denom hf.closed (f t)).2.2
  have hr := radius_pos hf.closed (f t)
  -- the two coordinates in the plane
  have hcos : HasDerivAt (fun s => cos (f s)) (-sin (f t) * (gaussK * √(c.q * (1 + c.ecc)) / c.radius (f t) ^ 2)) t := hk.cos
  have hsin : HasDerivAt (fun s => sin (f s)) (cos (f t) * (gaussK * √(c.q * (1 + c.ecc)) / c.radius (f t) ^ 2)) t := hk.sin
  have hroot : √((1 + c.ecc) / c.q) * c.q = √(c.q * (1 + c.ecc)) := by
    rw [← sqrt_sq hq.le, ← sqrt_mul (by positivity), sqrt_sq hq.le]
    congr 1
    field_simp
  have hK : gaussK * √((1 + c.ecc) / c.q) * c.q / (c.radius (f t) * c.radius (f t)) = gaussK * √(c.q * (1 + c.ecc)) / c.radius (f t) ^ 2 := by
    rw [mul_assoc, hroot, sq]
  generalize gaussK * √(c.q * (1 + c.ecc)) / c.radius (f t) ^ 2 = w at *
  have hx : HasDerivAt (fun s => c.radius (f s) * cos (f s)) (-(c.radius (f t) * sin (f t)) / (1 + c.ecc * cos (f t)) * w) t := by
    have h1 : HasDerivAt (fun s => c.q * (1 + c.ecc) / (1 + c.ecc * cos (f s)) * cos (f s)) _ t :=
      ((((hcos.const_mul c.ecc).const_add 1).fun_inv hd.ne').const_mul (c.q * (1 + c.ecc))).fun_mul hcos
    refine h1.congr_deriv ?_
    unfold Conic.radius
    field_simp
    ring
  have hy : HasDerivAt (fun s => c.radius (f s) * sin (f s)) ((c.radius (f t) * cos (f t) + c.ecc * c.radius (f t)) / (1 + c.ecc * cos (f t)) * w) t := by
    have h1 : HasDerivAt (fun s => c.q * (1 + c.ecc) / (1 + c.ecc * cos (f s)) * sin (f s)) _ t :=
      ((((hcos.const_mul c.ecc).const_add 1).fun_inv hd.ne').const_mul (c.q * (1 + c.ecc))).fun_mul hsin
    refine h1.congr_deriv ?_
    unfold Conic.radius
    have := sin_sq_add_cos_sq (f t)
    field_simp
    rw [show sin (f t) ^ 2 = 1 - cos (f t) ^ 2 by linarith]
    ring
  have hv : vel e (f t) (fillMatrix e) = Vec.comb2 (-(c.radius (f t) * sin (f t)) / (1 + c.ecc * cos (f t)) * w) c.peri
      ((c.radius (f t) * cos (f t) + c.ecc * c.radius (f t)) / (1 + c.ecc * cos (f t)) * w) c.side := by
    unfold vel fillMatrix
    simp only
    rw [trueR_eq hf hfar, hf.q, hf.ecc, hf.peri, hf.side, hK]
    rfl
  rw [hv]
  exact ⟨(hx.mul_const _).add (hy.mul_const _), (hx.mul_const _).add (hy.mul_const _), (hx.mul_const _).add (hy.mul_const _)⟩

/-! ## Where the result or the data are wrong -/

theorem dist_nonneg' {e1 e2 : Elements} {m : Rows} {θ d : ℝ} (h : distSquared e1 e2 m θ = some d) : 0 ≤ d := by
  unfold distSquared at h
  obtain ⟨p, -, hp⟩ := Option.map_eq_some_iff.mp h
  rw [← hp]
  nlinarith [mul_self_nonneg p.2, mul_self_nonneg (posn e2 θ m).z]

theorem least_zero (D : ℝ → Option ℝ) (hD : ∀ θ d, D θ = some d → 0 ≤ d) (l : List ℝ) : l.foldl (visit D) ⟨0, 0⟩ = ⟨0, 0⟩ := by
  obtain ⟨-, -, h⟩ := fold_visit D l ⟨0, 0⟩
  rcases h with h | ⟨-, h, h'⟩
  · exact h
  · have := hD _ _ h
    simp only at h'
    linarith

/-- If the search begins with a point where the orbits meet, the angle it keeps is 0, wherever they meet. -/
theorem C94_guess {e1 e2 : Elements} (refine : ℝ → ℝ → ℝ → List ℝ) {d θ : ℝ}
    (hd : distSquared e1 e2 (moidRows e1 e2) (firstAngle e1 e2) = some d)
    (hθ : θ ∈ firstAngle e1 e2 :: guesses e2 (moidRows e1 e2) (firstAngle e1 e2))
    (h0 : distSquared e1 e2 (moidRows e1 e2) θ = some 0) : findBest e1 e2 refine = some ⟨0, 0⟩ := by
  have hD : ∀ θ d, distSquared e1 e2 (moidRows e1 e2) θ = some d → 0 ≤ d := fun _ _ h => dist_nonneg' h
  obtain ⟨g1, g2, g3⟩ := fold_least (distSquared e1 e2 (moidRows e1 e2)) (guesses e2 (moidRows e1 e2) (firstAngle e1 e2)) d
  have hzero : (moidStart e1 e2).best = ⟨0, 0⟩ := by
    unfold moidStart
    simp only [hd, Option.getD_some, Best.mk.injEq, and_true]
    apply le_antisymm
    · rcases List.mem_cons.mp hθ with h | h
      · rw [h, hd] at h0
        rw [Option.some.inj h0] at g1
        rw [Option.some.inj h0]
        exact g1
      · exact g2 θ h 0 h0
    · rcases g3 with g | ⟨θ', -, g⟩
      · rw [g]
        exact hD _ _ hd
      · exact hD _ _ g
  have hmid : (moidMiddle e1 e2 refine).best = ⟨0, 0⟩ := by
    unfold moidMiddle
    rw [pass_best, hzero]
    exact least_zero _ hD _
  rw [findBest_eq hd, pass_best, hmid, least_zero _ hD]

/-- Elements of an orbit in the plane of the ecliptic with its perihelion at the longitude 0. -/
noncomputable def flatElements (q ecc : ℝ) : Elements := derive { blank with q := q, ecc := ecc } 1

/-- Its ellipse. -/
def flatConic (q ecc : ℝ) : Conic := ⟨q, ecc, ⟨1, 0, 0⟩, ⟨0, 1, 0⟩⟩

theorem flat_suits {q ecc : ℝ} (hq : 0 < q) (he : 0 ≤ ecc) (h1 : ecc < 1) : Suits (flatElements q ecc) (flatConic q ecc) := by
  have h := derive_suits { blank with q := q, ecc := ecc } 1 hq he h1 (by simp [blank])
  have hc : Conic.ofElements q ecc 0 0 0 = flatConic q ecc := by
    simp [Conic.ofElements, flatConic, towardsPerihelion, ahead]
  rw [← hc]
  exact h

theorem flat_place (q ecc θ : ℝ) : (flatConic q ecc).place θ = ⟨(flatConic q ecc).radius θ * cos θ, (flatConic q ecc).radius θ * sin θ, 0⟩ := by
  unfold Conic.place Vec.comb2
  simp [flatConic]

/-- Two orbits that touch where the second is farthest from the Sun: the result is 0, but the angle kept is 0, the perihelion of the second, which is
at least half a unit away from the first orbit; the other data are computed for that point. -/
theorem C94_lost (refine : ℝ → ℝ → ℝ → List ℝ) :
    findBest (flatElements 1 (1 / 3)) (flatElements (1 / 2) (3 / 5)) refine = some ⟨0, 0⟩ ∧
      (flatConic 1 (1 / 3)).place π = (flatConic (1 / 2) (3 / 5)).place π ∧
      ∀ φ, 1 / 2 ≤ apart ((flatConic 1 (1 / 3)).place φ) ((flatConic (1 / 2) (3 / 5)).place 0) := by
  have s1 : Suits (flatElements 1 (1 / 3)) (flatConic 1 (1 / 3)) := flat_suits (by norm_num) (by norm_num) (by norm_num)
  have s2 : Suits (flatElements (1 / 2) (3 / 5)) (flatConic (1 / 2) (3 / 5)) := flat_suits (by norm_num) (by norm_num) (by norm_num)
  have hfar : (flatConic (1 / 2) (3 / 5)).far ≤ 1000 := by
    unfold Conic.far flatConic
    norm_num
  have hmeet : (flatConic 1 (1 / 3)).place π = (flatConic (1 / 2) (3 / 5)).place π := by
    rw [flat_place, flat_place]
    unfold Conic.radius flatConic
    norm_num
  have hx : ∀ θ, vdot (flatConic 1 (1 / 3)).peri ((flatConic (1 / 2) (3 / 5)).place θ) = (flatConic (1 / 2) (3 / 5)).radius θ * cos θ := by
    intro θ
    rw [flat_place]
    simp [vdot, flatConic]
  have hclear : ∀ θ, (flatConic (1 / 2) (3 / 5)).radius θ * cos θ + 1 / 2 ≠ 0 → Clear (flatConic 1 (1 / 3)) (flatConic (1 / 2) (3 / 5)) θ := by
    intro θ h
    refine ⟨?_, Or.inl (by norm_num [flatConic])⟩
    rw [hx]
    have : (flatConic 1 (1 / 3)).q * (flatConic 1 (1 / 3)).ecc / (1 - (flatConic 1 (1 / 3)).ecc) = 1 / 2 := by norm_num [flatConic]
    rw [this]
    exact h
  -- the first angle
  have hfirst : cos (firstAngle (flatElements 1 (1 / 3)) (flatElements (1 / 2) (3 / 5))) = -7 / 9 := by
    unfold firstAngle trueAnomFromR
    rw [s1.axis, s2.ecc, s2.q]
    have e1 : (flatConic 1 (1 / 3)).q / (1 - (flatConic 1 (1 / 3)).ecc) = 3 / 2 := by norm_num [flatConic]
    rw [e1]
    have e2 : ((flatConic (1 / 2) (3 / 5)).q * (1 + (flatConic (1 / 2) (3 / 5)).ecc) - 3 / 2) / (3 / 2 * (flatConic (1 / 2) (3 / 5)).ecc) = -7 / 9 := by
      norm_num [flatConic]
    simp only [e2]
    rw [if_pos (by norm_num [flatConic]), if_neg (by norm_num), if_neg (by norm_num), cos_arccos (by norm_num) (by norm_num)]
  obtain ⟨d, -, hd, -⟩ := C94_point s1 s2 hfar (hclear _ (by
    unfold Conic.radius
    rw [hfirst]
    norm_num [flatConic]))
  obtain ⟨d', φ', hd', -, hdd, hmin⟩ := C94_point s1 s2 hfar (hclear π (by
    unfold Conic.radius
    rw [cos_pi]
    norm_num [flatConic]))
  have h0 : d' = 0 := by
    have := hmin π
    rw [hmeet] at this
    have h3 : apart ((flatConic (1 / 2) (3 / 5)).place π) ((flatConic (1 / 2) (3 / 5)).place π) = 0 := by simp [apart]
    rw [h3] at this
    rw [hdd, le_antisymm this (apart_nonneg _ _)]
    norm_num
  refine ⟨C94_guess refine hd (θ := π) ?_ (by rw [← h0]; exact hd'), hmeet, ?_⟩
  · apply List.mem_cons_of_mem
    unfold guesses
    apply List.mem_append_right
    rw [if_pos (by rw [s2.ecc]; norm_num [flatConic])]
    have hn : nodeArg (moidRows (flatElements 1 (1 / 3)) (flatElements (1 / 2) (3 / 5))) = 0 := by
      unfold nodeArg moidRows xform fillMatrix
      rw [s1.peri, s1.side, s2.peri, s2.side]
      simp [flatConic, vdot, vcross, atan2]
      exact Complex.arg_zero
    rw [hn]
    simp
  · intro φ
    have h1 := apart_radius s1.closed s2.closed φ 0
    have h2 := (radius_bounds s1.closed φ).1
    have h3 : (flatConic (1 / 2) (3 / 5)).radius 0 = 1 / 2 := by
      unfold Conic.radius
      norm_num [flatConic]
    have h4 : (flatConic 1 (1 / 3)).q = 1 := rfl
    rw [h3] at h1
    rw [h4] at h2
    have := (abs_le.mp h1).2
    have := le_abs_self ((flatConic 1 (1 / 3)).radius φ - 1 / 2)
    linarith

/-- A circle through a point straight above the centre of the ellipse, at the distance of the major semiaxis. -/
noncomputable def steepConic : Conic := ⟨√10 / 2, 0, ⟨-1 / √10, 3 / √10, 0⟩, ⟨0, 0, 1⟩⟩

/-- Its elements. -/
noncomputable def steepElements : Elements :=
  { blank with q := √10 / 2, perihVec := steepConic.peri, sideways := steepConic.side, majorAxis := √10 / 2, minorToMajor := 1 }

theorem steep_suits : Suits steepElements steepConic := by
  have h : (0 : ℝ) < √10 := by positivity
  have h2 : √(10 : ℝ) ^ 2 = 10 := sq_sqrt (by norm_num)
  refine ⟨⟨by unfold steepConic; positivity, le_refl _, by norm_num [steepConic], ?_, ?_, ?_⟩, rfl, rfl, rfl, rfl, ?_, ?_⟩
  · simp only [Vec.dot, steepConic]
    field_simp
    rw [h2]
    norm_num
  · simp [Vec.dot, steepConic]
  · simp [Vec.dot, steepConic]
  · simp [steepElements, steepConic]
  · simp [steepElements, steepConic]

/-- A point exactly on the minor axis: `point_to_ellipse` takes the wrong semiaxis there (C77_pole), and the result is 0 for two orbits that do not
meet. -/
theorem C94_pole (refine : ℝ → ℝ → ℝ → List ℝ) :
    findBest (flatElements 1 (1 / 3)) steepElements refine = some ⟨0, 0⟩ ∧
      ∀ φ θ, 0 < apart ((flatConic 1 (1 / 3)).place φ) (steepConic.place θ) := by
  have s1 : Suits (flatElements 1 (1 / 3)) (flatConic 1 (1 / 3)) := flat_suits (by norm_num) (by norm_num) (by norm_num)
  have h : (0 : ℝ) < √10 := by positivity
  have h2 : √(10 : ℝ) ^ 2 = 10 := sq_sqrt (by norm_num)
  have h4 : √(10 : ℝ) < 4 := by
    rw [sqrt_lt' (by norm_num)]
    norm_num
  have hfar : steepConic.far ≤ 1000 := by
    unfold Conic.far steepConic
    norm_num
    linarith
  have hplace : ∀ θ, steepConic.place θ = ⟨-(1 / 2) * cos θ, 3 / 2 * cos θ, √10 / 2 * sin θ⟩ := by
    intro θ
    unfold Conic.place Conic.radius Vec.comb2 steepConic
    ext
    · simp only
      field_simp
      ring
    · simp only
      field_simp
      ring
    · simp
  have hfirst : firstAngle (flatElements 1 (1 / 3)) steepElements = 0 := by
    unfold firstAngle trueAnomFromR
    rw [if_neg (by simp [steepElements, blank])]
  have hzero : distSquared (flatElements 1 (1 / 3)) steepElements (moidRows (flatElements 1 (1 / 3)) steepElements) 0 = some 0 := by
    have hp := posn_eq s1 steep_suits hfar 0
    rw [hplace] at hp
    have hp' : posn steepElements 0 (xform (fillMatrix (flatElements 1 (1 / 3))) (fillMatrix steepElements)) = ⟨-(1 / 2), 3 / 2, 0⟩ := by
      rw [hp]
      simp [vdot, flatConic, vcross]
    unfold distSquared pointMoid moidRows
    rw [hp']
    simp only
    rw [s1.axis, s1.minor, s1.q, s1.ecc]
    have ea : (flatConic 1 (1 / 3)).q / (1 - (flatConic 1 (1 / 3)).ecc) = 3 / 2 := by norm_num [flatConic]
    have eb : √(1 - (flatConic 1 (1 / 3)).ecc ^ 2) < 1 := by
      rw [sqrt_lt' (by norm_num)]
      norm_num [flatConic]
    have eb0 : 0 < √(1 - (flatConic 1 (1 / 3)).ecc ^ 2) := by
      apply sqrt_pos.mpr
      norm_num [flatConic]
    have ec : -(1 / 2) + (flatConic 1 (1 / 3)).q * (flatConic 1 (1 / 3)).ecc / (1 - (flatConic 1 (1 / 3)).ecc) = 0 := by norm_num [flatConic]
    rw [ea, ec, (C77_pole (b := 3 / 2 * √(1 - (flatConic 1 (1 / 3)).ecc ^ 2)) (by positivity) (by linarith) (by norm_num)).1]
    simp
  refine ⟨C94_guess refine (by rw [hfirst]; exact hzero) (θ := 0) (by rw [hfirst]; exact List.mem_cons_self) hzero, ?_⟩
  intro φ θ
  rcases (apart_nonneg ((flatConic 1 (1 / 3)).place φ) (steepConic.place θ)).lt_or_eq with hpos | heq
  · exact hpos
  exfalso
  have hsq := apart_sq ((flatConic 1 (1 / 3)).place φ) (steepConic.place θ)
  rw [← heq, flat_place, hplace] at hsq
  simp only at hsq
  have hon := polar_on s1.closed φ
  unfold OnEllipse at hon
  generalize (flatConic 1 (1 / 3)).radius φ * cos φ = x at hsq hon
  generalize (flatConic 1 (1 / 3)).radius φ * sin φ = y at hsq hon
  have k1 : x = -(1 / 2) * cos θ := by nlinarith [sq_nonneg (x - -(1 / 2) * cos θ), sq_nonneg (y - 3 / 2 * cos θ), sq_nonneg (0 - √10 / 2 * sin θ)]
  have k2 : y = 3 / 2 * cos θ := by nlinarith [sq_nonneg (x - -(1 / 2) * cos θ), sq_nonneg (y - 3 / 2 * cos θ), sq_nonneg (0 - √10 / 2 * sin θ)]
  have k3 : sin θ ^ 2 = 0 := by
    have : (0 - √10 / 2 * sin θ) ^ 2 = 0 := by nlinarith [sq_nonneg (x - -(1 / 2) * cos θ), sq_nonneg (y - 3 / 2 * cos θ), sq_nonneg (0 - √10 / 2 * sin θ)]
    have h3 : (0 - √10 / 2 * sin θ) ^ 2 = √10 ^ 2 / 4 * sin θ ^ 2 := by ring
    rw [h2] at h3
    linarith
  have k4 : cos θ ^ 2 = 1 := by linarith [sin_sq_add_cos_sq θ]
  have ea : (flatConic 1 (1 / 3)).q / (1 - (flatConic 1 (1 / 3)).ecc) = 3 / 2 := by norm_num [flatConic]
  have eb : 1 - (flatConic 1 (1 / 3)).ecc ^ 2 = 8 / 9 := by norm_num [flatConic]
  have ec : (flatConic 1 (1 / 3)).q * (flatConic 1 (1 / 3)).ecc / (1 - (flatConic 1 (1 / 3)).ecc) = 1 / 2 := by norm_num [flatConic]
  rw [ea, eb, ec, div_pow, div_pow y, mul_pow (3 / 2) (√(8 / 9)), sq_sqrt (by norm_num), k1, k2] at hon
  have hc : cos θ ≤ 1 := cos_le_one θ
  norm_num at hon
  nlinarith

/-! ## Examples -/

/-- An orbit in the plane through the Sun at right angles to the line of apsides of `flatConic`. -/
noncomputable def crossConic : Conic := ⟨1, 1 / 5, ⟨0, 1, 0⟩, ⟨0, 0, 1⟩⟩

/-- Its elements. -/
noncomputable def crossElements : Elements :=
  { blank with q := 1, ecc := 1 / 5, perihVec := ⟨0, 1, 0⟩, sideways := ⟨0, 0, 1⟩, majorAxis := 5 / 4, minorToMajor := √(24 / 25) }

theorem cross_suits : Suits crossElements crossConic := by
  refine ⟨⟨by norm_num [crossConic], by norm_num [crossConic], by norm_num [crossConic], ?_, ?_, ?_⟩, rfl, rfl, rfl, rfl, ?_, ?_⟩
  · simp [Vec.dot, crossConic]
  · simp [Vec.dot, crossConic]
  · simp [Vec.dot, crossConic]
  · norm_num [crossElements, crossConic]
  · simp only [crossElements, crossConic]
    norm_num

theorem cross_clear (θ : ℝ) : Clear (flatConic 1 (1 / 3)) crossConic θ := by
  refine ⟨?_, Or.inl (by norm_num [flatConic])⟩
  have : vdot (flatConic 1 (1 / 3)).peri (crossConic.place θ) = 0 := by simp [vdot, flatConic, Conic.place, Vec.comb2, crossConic]
  rw [this]
  norm_num [flatConic]

example (refine : ℝ → ℝ → ℝ → List ℝ) : ∃ b, findBest (flatElements 1 (1 / 3)) crossElements refine = some b ∧
    ∀ φ θ, √b.least ≤ apart ((flatConic 1 (1 / 3)).place φ) (crossConic.place θ) + 15 / 8 * (moidStep / 2) := by
  have hfar : crossConic.far = 3 / 2 := by
    unfold Conic.far crossConic
    norm_num
  obtain ⟨b, hb, -, -, h⟩ := C94_moid (flat_suits (by norm_num) (by norm_num) (by norm_num)) cross_suits (by rw [hfar]; norm_num) refine fun θ _ => cross_clear θ
  refine ⟨b, hb, fun φ θ => ?_⟩
  have := h φ θ
  rw [hfar] at this
  have he : (3 : ℝ) / 2 / (1 - crossConic.ecc) = 15 / 8 := by norm_num [crossConic]
  rw [he] at this
  exact this

example : ∃ d φ, distSquared (flatElements 1 (1 / 3)) crossElements (xform (fillMatrix (flatElements 1 (1 / 3))) (fillMatrix crossElements)) 1 = some d ∧
    d = apart ((flatConic 1 (1 / 3)).place φ) (crossConic.place 1) ^ 2 := by
  have hfar : crossConic.far ≤ 1000 := by
    unfold Conic.far crossConic
    norm_num
  obtain ⟨d, φ, h1, -, h2, -⟩ := C94_point (flat_suits (by norm_num) (by norm_num) (by norm_num)) cross_suits hfar (cross_clear 1)
  exact ⟨d, φ, h1, h2⟩

example : ∃ r, report (flatElements 1 (1 / 3)) crossElements (fillMatrix (flatElements 1 (1 / 3))) (fillMatrix crossElements) ⟨1, 2⟩ = some r ∧ r.moid = 1 := by
  have hfar : crossConic.far ≤ 1000 := by
    unfold Conic.far crossConic
    norm_num
  obtain ⟨r, E, h1, h2, -⟩ := C94_data (flat_suits (by norm_num) (by norm_num) (by norm_num)) cross_suits hfar (b := ⟨1, 2⟩) (cross_clear 2)
  exact ⟨r, h1, by rw [h2]; simp⟩

example : Rate (fun s => crossConic.place ((gaussK * √(6 / 5)) * s)) (vel crossElements 0 (fillMatrix crossElements)) 0 := by
  have hfar : crossConic.far ≤ 1000 := by
    unfold Conic.far crossConic
    norm_num
  have := C94_speed cross_suits hfar (f := fun s => (gaussK * √(6 / 5)) * s) (t := 0) (by
    have hr : crossConic.radius 0 = 1 := by
      unfold Conic.radius crossConic
      norm_num
    have hq : crossConic.q * (1 + crossConic.ecc) = 6 / 5 := by norm_num [crossConic]
    simp only [mul_zero]
    rw [hr, hq]
    simpa using (hasDerivAt_id (0 : ℝ)).const_mul (gaussK * √(6 / 5)))
  simpa using this

end Verif.Props
