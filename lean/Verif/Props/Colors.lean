import Verif.Model.Colors
import Verif.Spec.Colors
import Mathlib.Topology.Order.IntermediateValue
import Mathlib.Topology.Algebra.Polynomial
import Mathlib.Topology.Instances.Real.Lemmas
import Mathlib.Tactic.Linarith
import Mathlib.Tactic.Ring
import Mathlib.Tactic.FieldSimp

/-!
# Conversions of colours (C91)
-/

namespace Verif.Props

open Verif.Colors
open Verif.Spec.Colors (eval Colour joined)

theorem eval_cons (c : ℝ) (cs : List ℝ) (y : ℝ) : eval (c :: cs) y = c + y * eval cs y := by
  unfold eval
  have h := List.sum_map_mul_left (cs.mapIdx fun i c => c * y ^ i) (fun z => z) y
  rw [List.map_id'] at h
  rw [List.mapIdx_cons, List.sum_cons, pow_zero, mul_one, ← h]
  congr 2
  apply List.ext_getElem (by simp)
  intro i h1 h2
  simp only [List.getElem_mapIdx, List.getElem_map]
  ring

theorem sumLoop_eq (x : ℝ) : ∀ (cs : List ℝ) (r p : ℝ), sumLoop x cs r p = r + p * eval cs (x - 1)
  | [], r, p => by simp [sumLoop, eval]
  | c :: cs, r, p => by rw [sumLoop, sumLoop_eq x cs, eval_cons]; ring

theorem continuous_eval (cs : List ℝ) : Continuous (eval cs) := by
  induction cs with
  | nil => exact continuous_const
  | cons c cs ih =>
    rw [show eval (c :: cs) = fun y => c + y * eval cs y from funext (eval_cons c cs)]
    fun_prop

/-- **C91.** The value of the polynomial for a colour in the range, 100 for any other one. -/
theorem C91_polynomial (x : ℝ) (cs : List ℝ) (low high : ℝ) :
    (low ≤ x ∧ x ≤ high → polynomial x cs low high = 1 + eval cs (x - 1)) ∧ (x < low ∨ high < x → polynomial x cs low high = 100) := by
  unfold polynomial
  constructor
  · rintro ⟨h1, h2⟩
    rw [if_neg (by push Not; exact ⟨h1, h2⟩), sumLoop_eq]
    ring
  · intro h
    rw [if_pos h]
    norm_num

/-- What holds whenever the loop of the search begins. -/
structure Holds (f : ℝ → ℝ) (v : ℝ) (s : Search) : Prop where
  le : s.low ≤ s.high
  low : s.colorLow = f s.low
  high : s.colorHigh = f s.high
  below : s.colorLow ≤ v
  above : v ≤ s.colorHigh
  lt : s.colorLow < s.colorHigh

theorem weight {t : ℝ} (h0 : 0 ≤ t) (h1 : t ≤ 1) : 0 ≤ t + t * (t - 1 / 2) * (t - 1) ∧ t + t * (t - 1 / 2) * (t - 1) ≤ 1 := by
  constructor
  · have : t + t * (t - 1 / 2) * (t - 1) = t * ((t - 3 / 4) ^ 2 + 15 / 16) := by ring
    rw [this]
    positivity
  · have : 1 - (t + t * (t - 1 / 2) * (t - 1)) = (1 - t) * ((t - 1 / 4) ^ 2 + 15 / 16) := by ring
    have h := mul_nonneg (sub_nonneg.2 h1) (show (0 : ℝ) ≤ (t - 1 / 4) ^ 2 + 15 / 16 by positivity)
    linarith

theorem guess_mem {f : ℝ → ℝ} {v : ℝ} {s : Search} (h : Holds f v s) : s.low ≤ guess v s ∧ guess v s ≤ s.high := by
  obtain ⟨hw0, hw1⟩ := weight (t := (v - s.colorLow) / (s.colorHigh - s.colorLow))
    (div_nonneg (by linarith [h.below]) (by linarith [h.lt])) (by rw [div_le_one (by linarith [h.lt])]; linarith [h.above])
  unfold guess
  simp only
  have hd := sub_nonneg.2 h.le
  constructor
  · have := mul_nonneg hd hw0
    linarith
  · have := mul_le_mul_of_nonneg_left hw1 hd
    linarith

theorem guess_low {f : ℝ → ℝ} {v : ℝ} {s : Search} (_ : Holds f v s) (hv : s.colorLow = v) : guess v s = s.low := by
  unfold guess
  simp [hv]

theorem guess_high {f : ℝ → ℝ} {v : ℝ} {s : Search} (h : Holds f v s) (hv : s.colorHigh = v) : guess v s = s.high := by
  unfold guess
  have : s.colorHigh - s.colorLow ≠ 0 := by have := h.lt; intro h; linarith
  simp only
  rw [← hv, div_self this]
  ring

theorem narrow_low {f : ℝ → ℝ} {v : ℝ} {s : Search} (h : f (guess v s) < v) : narrow f v s = ⟨guess v s, s.high, f (guess v s), s.colorHigh⟩ := by
  unfold narrow
  simp only
  rw [if_pos h]

theorem narrow_high {f : ℝ → ℝ} {v : ℝ} {s : Search} (h : v ≤ f (guess v s)) : narrow f v s = ⟨s.low, guess v s, s.colorLow, f (guess v s)⟩ := by
  unfold narrow
  simp only
  rw [if_neg (not_lt.2 h)]

/-- The bracket after a turn: it lies in the one before, holds the value asked for, and the guess is one of its ends. -/
theorem narrow_spec {f : ℝ → ℝ} {v : ℝ} {s : Search} (h : Holds f v s) : (narrow f v s).low ≤ (narrow f v s).high ∧ s.low ≤ (narrow f v s).low ∧
    (narrow f v s).high ≤ s.high ∧ f (narrow f v s).low ≤ v ∧ v ≤ f (narrow f v s).high ∧
      (guess v s = (narrow f v s).low ∨ guess v s = (narrow f v s).high) := by
  obtain ⟨h1, h2⟩ := guess_mem h
  by_cases hc : f (guess v s) < v
  · rw [narrow_low hc]
    exact ⟨h2, h1, le_refl _, hc.le, h.high ▸ h.above, .inl rfl⟩
  · rw [narrow_high (not_lt.1 hc)]
    exact ⟨h1, le_refl _, h2, h.low ▸ h.below, not_lt.1 hc, .inr rfl⟩

theorem narrow_holds {f : ℝ → ℝ} {v : ℝ} {s : Search} (h : Holds f v s) (hw : (narrow f v s).high - (narrow f v s).low > 1 / 1000000) :
    Holds f v (narrow f v s) := by
  obtain ⟨h1, h2⟩ := guess_mem h
  by_cases hc : f (guess v s) < v
  · rw [narrow_low hc]
    exact ⟨h2, rfl, h.high, hc.le, h.above, lt_of_lt_of_le hc h.above⟩
  · rw [narrow_high (not_lt.1 hc)] at hw ⊢
    refine ⟨h1, h.low, rfl, h.below, not_lt.1 hc, lt_of_le_of_ne (le_trans h.below (not_lt.1 hc)) ?_⟩
    simp only at hw
    intro he
    have hv : s.colorLow = v := le_antisymm h.below (he ▸ not_lt.1 hc)
    rw [guess_low h hv] at hw
    linarith

theorem search_finds {f : ℝ → ℝ} {v : ℝ} : ∀ (n : Nat) {s : Search}, Holds f v s → ContinuousOn f (Set.Icc s.low s.high) →
    search f v n s = some 99 ∨ ∃ r, search f v n s = some r ∧ s.low ≤ r ∧ r ≤ s.high ∧ ∃ x, s.low ≤ x ∧ x ≤ s.high ∧ f x = v ∧ |r - x| ≤ 1 / 1000000
  | 0, s, _, _ => .inl rfl
  | n + 1, s, h, hf => by
    have hne : s.colorHigh - s.colorLow ≠ 0 := by have := h.lt; intro h; linarith
    obtain ⟨h1, h2, h3, h4, h5, h6⟩ := narrow_spec h
    by_cases hw : (narrow f v s).high - (narrow f v s).low > 1 / 1000000
    · rw [search, if_neg hne, if_pos hw]
      rcases search_finds n (narrow_holds h hw) (hf.mono (Set.Icc_subset_Icc h2 h3)) with h' | ⟨r, hr, h7, h8, x, h9, h10, h11⟩
      · exact .inl h'
      · exact .inr ⟨r, hr, by linarith, by linarith, x, by linarith, by linarith, h11⟩
    · rw [search, if_neg hne, if_neg hw]
      by_cases hn : n = 0
      · rw [if_pos hn]
        exact .inl rfl
      · rw [if_neg hn]
        obtain ⟨x, ⟨hx1, hx2⟩, hx⟩ := intermediate_value_Icc h1 (hf.mono (Set.Icc_subset_Icc h2 h3)) ⟨h4, h5⟩
        refine .inr ⟨_, rfl, (guess_mem h).1, (guess_mem h).2, x, by linarith, by linarith, hx, ?_⟩
        rw [abs_le]
        rcases h6 with h6 | h6 <;> constructor <;> linarith

theorem start_holds {cs : List ℝ} {low high v : ℝ} (hl : low ≤ high) (hlt : polynomial low cs low high < polynomial high cs low high)
    (h1 : polynomial low cs low high ≤ v) (h2 : v ≤ polynomial high cs low high) :
    Holds (fun x => polynomial x cs low high) v ⟨low, high, polynomial low cs low high, polynomial high cs low high⟩ :=
  ⟨hl, rfl, rfl, h1, h2, hlt⟩

/-- **C91.** The inverse never divides by zero, and gives 99 or a colour in the range, within a millionth of one for which the polynomial
    has exactly the value given. -/
theorem C91_inverse (v : ℝ) (cs : List ℝ) {low high : ℝ} (hl : low ≤ high) (hlt : polynomial low cs low high < polynomial high cs low high) :
    inverse v cs low high = some 99 ∨
      ∃ r, inverse v cs low high = some r ∧ low ≤ r ∧ r ≤ high ∧ ∃ x, Colour cs low high v x ∧ |r - x| ≤ 1 / 1000000 := by
  unfold inverse
  simp only
  by_cases h : v < polynomial low cs low high ∨ v > polynomial high cs low high
  · rw [if_pos h]
    exact .inl rfl
  · rw [if_neg h]
    push Not at h
    rcases search_finds 100 (start_holds hl hlt h.1 h.2) (by
      refine ContinuousOn.congr (f := fun x => 1 + eval cs (x - 1)) ?_ (fun x hx => (C91_polynomial x cs low high).1 hx)
      exact (continuous_const.add ((continuous_eval cs).comp (continuous_id.sub continuous_const))).continuousOn) with h' | ⟨r, h1, h2, h3, x, h4, h5, h6, h7⟩
    · exact .inl h'
    · exact .inr ⟨r, h1, h2, h3, x, ⟨h4, h5, ((C91_polynomial x cs low high).1 ⟨h4, h5⟩) ▸ h6⟩, h7⟩

/-- **C91.** A value outside those at the ends of the range gives 99. -/
theorem C91_outside {v : ℝ} {cs : List ℝ} {low high : ℝ} (h : v < polynomial low cs low high ∨ polynomial high cs low high < v) :
    inverse v cs low high = some 99 := by
  unfold inverse
  simp only
  rw [if_pos h]

/-- **C91.** The value at the lower end gives the lower end. -/
theorem C91_lower_end {cs : List ℝ} {low high : ℝ} (hl : low ≤ high) (hlt : polynomial low cs low high < polynomial high cs low high) :
    inverse (polynomial low cs low high) cs low high = some low := by
  unfold inverse
  simp only
  rw [if_neg (by push Not; exact ⟨le_refl _, hlt.le⟩)]
  have h := start_holds hl hlt (le_refl _) hlt.le
  have hg := guess_low h rfl
  rw [search, if_neg (by simp only; intro h; linarith), narrow_high (by simp [hg]), hg, if_neg (by norm_num), if_neg (by norm_num)]

/-- When the upper end of the bracket has exactly the value asked for, nothing changes any more. -/
theorem search_stuck {f : ℝ → ℝ} {v : ℝ} {s : Search} (h : Holds f v s) (hv : s.colorHigh = v) (hw : s.high - s.low > 1 / 1000000) :
    ∀ n, search f v n s = some 99
  | 0 => rfl
  | n + 1 => by
    have hg := guess_high h hv
    have hf : f s.high = v := h.high ▸ hv
    have hn : narrow f v s = s := by
      rw [narrow_high (by rw [hg, hf]), hg, hf]
      cases s
      simp_all
    rw [search, if_neg (by have := h.lt; intro h; linarith), hn, if_pos hw]
    exact search_stuck h hv hw n

/-- **Finding** (C91): a guess with exactly the value asked for is never taken; unless it is within a millionth of the lower limit the result
    is 99. -/
theorem C91_exact_lost {f : ℝ → ℝ} {v : ℝ} {s : Search} (h : Holds f v s) (hg : f (guess v s) = v) (hw : guess v s - s.low > 1 / 1000000) (n : Nat) :
    search f v n s = some 99 := by
  cases n with
  | zero => rfl
  | succ n =>
    have hn := narrow_high (f := f) (v := v) (s := s) hg.ge
    have hw' : (narrow f v s).high - (narrow f v s).low > 1 / 1000000 := by rw [hn]; exact hw
    rw [search, if_neg (by have := h.lt; intro h; linarith), if_pos hw']
    exact search_stuck (narrow_holds h hw') (by rw [hn]; exact hg) hw' n

/-- **Finding** (C91): the value at the upper end of the range gives 99. -/
theorem C91_upper_end {cs : List ℝ} {low high : ℝ} (hl : high - low > 1 / 1000000) (hlt : polynomial low cs low high < polynomial high cs low high) :
    inverse (polynomial high cs low high) cs low high = some 99 := by
  unfold inverse
  simp only
  rw [if_neg (by push Not; exact ⟨hlt.le, le_refl _⟩)]
  exact search_stuck (start_holds (by linarith) hlt hlt.le (le_refl _)) rfl hl 100

theorem bv_ends : polynomial (-0.23) viToBv (-0.23) 3.70 < polynomial 3.70 viToBv (-0.23) 3.70 := by
  rw [(C91_polynomial _ _ _ _).1 (by norm_num), (C91_polynomial _ _ _ _).1 (by norm_num)]
  simp only [viToBv, eval_cons]
  norm_num [eval]

theorem vr_ends : polynomial (-0.30) viToVr (-0.30) 4 < polynomial 4 viToVr (-0.30) 4 := by
  rw [(C91_polynomial _ _ _ _).1 (by norm_num), (C91_polynomial _ _ _ _).1 (by norm_num)]
  simp only [viToVr, eval_cons]
  norm_num [eval]

/-- **C91.** B-V to V-I is the inverse of V-I to B-V to a millionth. -/
theorem C91_b_v (v : ℝ) : bMinusVToVMinusI v = some 99 ∨
    ∃ r, bMinusVToVMinusI v = some r ∧ -0.23 ≤ r ∧ r ≤ 3.70 ∧ ∃ x, -0.23 ≤ x ∧ x ≤ 3.70 ∧ vMinusIToBMinusV x = v ∧ |r - x| ≤ 1 / 1000000 := by
  rcases C91_inverse v viToBv (by norm_num) bv_ends with h | ⟨r, h1, h2, h3, x, ⟨h4, h5, h6⟩, h7⟩
  · exact .inl h
  · exact .inr ⟨r, h1, h2, h3, x, h4, h5, ((C91_polynomial x _ _ _).1 ⟨h4, h5⟩).trans h6, h7⟩

/-- **C91.** V-R to V-I is the inverse of V-I to V-R to a millionth. -/
theorem C91_v_r (v : ℝ) : vMinusRToVMinusI v = some 99 ∨
    ∃ r, vMinusRToVMinusI v = some r ∧ -0.30 ≤ r ∧ r ≤ 4 ∧ ∃ x, -0.30 ≤ x ∧ x ≤ 4 ∧ vMinusIToVMinusR x = v ∧ |r - x| ≤ 1 / 1000000 := by
  rcases C91_inverse v viToVr (by norm_num) vr_ends with h | ⟨r, h1, h2, h3, x, ⟨h4, h5, h6⟩, h7⟩
  · exact .inl h
  · exact .inr ⟨r, h1, h2, h3, x, h4, h5, ((C91_polynomial x _ _ _).1 ⟨h4, h5⟩).trans h6, h7⟩

/-- The points of the conversion from Tycho colours, without the part in proportion to the colour. -/
noncomputable def bvPoints : List (ℝ × ℝ) := [(-0.2, -0.006), (0.1, 0), (0.5, 0.046), (1.4, -0.008), (1.8, -0.032)]

/-- The same for the magnitude. -/
noncomputable def vPoints : List (ℝ × ℝ) := [(-0.2, 0.014), (0.1, 0), (0.5, -0.005), (1.4, -0.005), (1.8, -0.015)]

/-- **C91.** From Tycho's to Johnson's colours: straight lines between the points given, below 1.8. -/
theorem C91_tycho {b : ℝ} (h0 : -0.2 ≤ b) (h1 : b < 1.8) (v : ℝ) :
    johnsonBv b = 0.85 * b + joined bvPoints b ∧ johnsonV b v = v - 0.09 * b + joined vPoints b := by
  have h : ¬ (b < -0.2 ∨ b > 1.8) := by push Not; exact ⟨h0, h1.le⟩
  unfold johnsonBv johnsonV bvPoints vPoints
  rw [if_neg h, if_neg h]
  simp only [joined, reduceCtorEq, or_false, or_true, if_true]
  by_cases h2 : b < 0.1
  · rw [if_pos h2, if_pos h2, if_pos h2, if_pos h2]
    constructor <;> norm_num <;> ring
  · by_cases h3 : b < 0.5
    · rw [if_neg h2, if_neg h2, if_neg h2, if_neg h2, if_pos h3, if_pos h3, if_pos h3, if_pos h3]
      constructor <;> norm_num <;> ring
    · by_cases h4 : b < 1.4
      · rw [if_neg h2, if_neg h2, if_neg h2, if_neg h2, if_neg h3, if_neg h3, if_neg h3, if_neg h3, if_pos h4, if_pos h4, if_pos h4, if_pos h4]
        constructor <;> norm_num
        ring
      · rw [if_neg h2, if_neg h2, if_neg h2, if_neg h2, if_neg h3, if_neg h3, if_neg h3, if_neg h3, if_neg h4, if_neg h4, if_neg h4, if_neg h4,
          if_pos h1, if_pos h1]
        constructor <;> norm_num <;> ring

/-- **Finding** (C91): at the last point, 1.8, nothing is added. -/
theorem C91_tycho_end (v : ℝ) : johnsonBv 1.8 = 0.85 * 1.8 + joined bvPoints 1.8 + 0.032 ∧ johnsonV 1.8 v = v - 0.09 * 1.8 + joined vPoints 1.8 + 0.015 := by
  unfold johnsonBv johnsonV bvPoints vPoints
  simp only [joined, reduceCtorEq, or_false, or_true, if_true]
  norm_num

/-! ### The hypotheses can be met -/

/-- A colour found in the first turn, inside the range. -/
example : ∃ r, inverse (7 / 10000000) [-1, 1] 1 (1 + 15 / 10000000) = some r ∧ 1 < r ∧ r < 1 + 15 / 10000000 := by
  have hp : ∀ x : ℝ, 1 ≤ x → x ≤ 1 + 15 / 10000000 → polynomial x [-1, 1] 1 (1 + 15 / 10000000) = x - 1 := by
    intro x h1 h2
    rw [(C91_polynomial _ _ _ _).1 ⟨h1, h2⟩]
    rw [eval_cons, eval_cons, eval, List.mapIdx_nil, List.sum_nil]
    ring
  have h1 := hp 1 (by norm_num) (by norm_num)
  have h2 := hp (1 + 15 / 10000000) (by norm_num) (by norm_num)
  unfold inverse
  simp only
  rw [h1, h2, if_neg (by norm_num), search, if_neg (by norm_num)]
  have hg : guess (7 / 10000000) ⟨1, 1 + 15 / 10000000, 1 - 1, 1 + 15 / 10000000 - 1⟩ = 1 + 15 / 10000000 * (1603 / 3375) := by
    unfold guess
    norm_num
  rw [narrow_high (by rw [hg, hp _ (by norm_num) (by norm_num)]; norm_num), hg, if_neg (by norm_num), if_neg (by norm_num)]
  exact ⟨_, rfl, by norm_num, by norm_num⟩

example : bMinusVToVMinusI (vMinusIToBMinusV (-0.23)) = some (-0.23) := C91_lower_end (by norm_num) bv_ends

example : bMinusVToVMinusI (vMinusIToBMinusV 3.70) = some 99 := C91_upper_end (by norm_num) bv_ends

example : vMinusRToVMinusI (vMinusIToVMinusR 4) = some 99 := C91_upper_end (by norm_num) vr_ends

end Verif.Props
