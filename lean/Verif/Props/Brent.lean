import Verif.Model.Brent
import Mathlib.Tactic.Linarith
import Mathlib.Tactic.NormNum
import Mathlib.Tactic.Ring
import Mathlib.Tactic.FieldSimp
import Mathlib.Tactic.LinearCombination
import Mathlib.Algebra.Order.Ring.Rat

/-!
# Property theorems: the bracketed minimiser (C35) and fits through points (C36)
-/

set_option linter.unusedSectionVars false

namespace Verif.Props

open Verif Verif.Brent

variable {K : Type} [Field K] [LinearOrder K] [IsStrictOrderedRing K]

/-! ## Fits -/

/-- **C36.** For distinct abscissae the parabola passes through the three points. -/
theorem C36_parabola (x y : Nat → K) (h01 : x 0 ≠ x 1) (h12 : x 1 ≠ x 2) (h02 : x 0 ≠ x 2) :
    ∃ a b c, fitParabola x y = some (a, b, c) ∧ ∀ i < 3, a * x i ^ 2 + b * x i + c = y i := by
  have e1 : x 2 - x 1 ≠ 0 := sub_ne_zero.2 (Ne.symm h12)
  have e2 : x 2 - x 0 ≠ 0 := sub_ne_zero.2 (Ne.symm h02)
  have e3 : x 0 - x 1 ≠ 0 := sub_ne_zero.2 h01
  unfold fitParabola
  simp only []
  rw [if_pos ⟨e1, e2, e3⟩]
  refine ⟨_, _, _, rfl, ?_⟩
  intro i hi
  have : i = 0 ∨ i = 1 ∨ i = 2 := by omega
  rcases this with rfl | rfl | rfl
  · ring
  · field_simp; ring
  · field_simp; ring

/-- **C36.** It is the only parabola through them. -/
theorem C36_unique (x y : Nat → K) (h01 : x 0 ≠ x 1) (h12 : x 1 ≠ x 2) (h02 : x 0 ≠ x 2) (a b c : K)
    (h : ∀ i < 3, a * x i ^ 2 + b * x i + c = y i) : fitParabola x y = some (a, b, c) := by
  have e1 : x 2 - x 1 ≠ 0 := sub_ne_zero.2 (Ne.symm h12)
  have e2 : x 2 - x 0 ≠ 0 := sub_ne_zero.2 (Ne.symm h02)
  have e3 : x 0 - x 1 ≠ 0 := sub_ne_zero.2 h01
  have y0 := h 0 (by omega)
  have y1 := h 1 (by omega)
  have y2 := h 2 (by omega)
  unfold fitParabola
  simp only []
  rw [if_pos ⟨e1, e2, e3⟩, ← y0, ← y1, ← y2]
  have ha : ((a * x 2 ^ 2 + b * x 2 + c - (a * x 1 ^ 2 + b * x 1 + c)) / (x 2 - x 1) -
      (a * x 0 ^ 2 + b * x 0 + c - (a * x 1 ^ 2 + b * x 1 + c)) / (x 0 - x 1)) / (x 2 - x 0) = a := by
    field_simp; ring
  have hb : (a * x 0 ^ 2 + b * x 0 + c - (a * x 1 ^ 2 + b * x 1 + c)) / (x 0 - x 1) - a * (x 1 + x 0) = b := by
    field_simp; ring
  rw [ha, hb]
  congr 3
  ring

theorem cubic_through (u v a b y1 y2 : K) (hu : u ≠ 0) (hv : v ≠ 0) (huv : u - v ≠ 0)
    (h : a * (u + v) + b = (y1 * v - y2 * u) / (u * v * (u - v))) :
    a * v ^ 3 + b * v ^ 2 + (y1 / u - u * (a * u + b)) * v = y2 := by
  have e : a * v ^ 3 + b * v ^ 2 + (y1 / u - u * (a * u + b)) * v = v * (v - u) * (a * (u + v) + b) + y1 / u * v := by ring
  rw [e, h]
  field_simp
  ring

/-- **C36.** The cubic used for later steps passes through the four points. -/
theorem C36_cubic (x y : Nat → K) (h : ∀ i < 4, ∀ j < 4, i ≠ j → x i ≠ x j) :
    ∃ a b c, cubicCoeffs x y = some (a, b, c) ∧
      ∀ i < 4, a * (x i - x 0) ^ 3 + b * (x i - x 0) ^ 2 + c * (x i - x 0) + y 0 = y i := by
  have n : ∀ i < 4, ∀ j < 4, i ≠ j → x i - x j ≠ 0 := fun i hi j hj hij => sub_ne_zero.2 (h i hi j hj hij)
  have n1 := n 1 (by omega) 0 (by omega) (by omega)
  have n2 := n 2 (by omega) 0 (by omega) (by omega)
  have n3 := n 3 (by omega) 0 (by omega) (by omega)
  have n12 := n 1 (by omega) 2 (by omega) (by omega)
  have n13 := n 1 (by omega) 3 (by omega) (by omega)
  have n23 := n 2 (by omega) 3 (by omega) (by omega)
  have c12 : (x 1 - x 0) - (x 2 - x 0) ≠ 0 := by rw [sub_sub_sub_cancel_right]; exact n12
  have c13 : (x 1 - x 0) - (x 3 - x 0) ≠ 0 := by rw [sub_sub_sub_cancel_right]; exact n13
  have c23 : (x 2 - x 0) - (x 3 - x 0) ≠ 0 := by rw [sub_sub_sub_cancel_right]; exact n23
  unfold cubicCoeffs
  extract_lets u v w y1 y2 y3 d12 d13 k12 k13 a b c
  rw [if_pos ⟨mul_ne_zero (mul_ne_zero n1 n2) c12, mul_ne_zero (mul_ne_zero n1 n3) c13, sub_ne_zero.1 c23⟩]
  refine ⟨_, _, _, rfl, ?_⟩
  have e12 : a * (u + v) + b = (y1 * v - y2 * u) / (u * v * (u - v)) := add_sub_cancel _ _
  have e13 : a * (u + w) + b = (y1 * w - y3 * u) / (u * w * (u - w)) := by
    have hav : a * (v - w) = k12 - k13 := div_mul_cancel₀ _ c23
    have hb : b = k12 - a * (u + v) := rfl
    show _ = k13
    rw [hb]
    linear_combination -hav
  intro i hi
  have hi' : i = 0 ∨ i = 1 ∨ i = 2 ∨ i = 3 := by omega
  rcases hi' with rfl | rfl | rfl | rfl
  · ring
  · show a * u ^ 3 + b * u ^ 2 + (y1 / u - u * (a * u + b)) * u + y 0 = y 1
    have : y1 / u * u = y1 := div_mul_cancel₀ _ n1
    have hy : y1 = y 1 - y 0 := rfl
    rw [hy] at this
    linear_combination this
  · have := cubic_through u v a b y1 y2 n1 n2 c12 e12
    show a * v ^ 3 + b * v ^ 2 + (y1 / u - u * (a * u + b)) * v + y 0 = y 2
    rw [this]; exact sub_add_cancel _ _
  · have := cubic_through u w a b y1 y3 n1 n3 c13 e13
    show a * w ^ 3 + b * w ^ 2 + (y1 / u - u * (a * u + b)) * w + y 0 = y 3
    rw [this]; exact sub_add_cancel _ _

/-- **C36.** The point suggested by `cubic_min`, when finite, is a stationary point of that cubic, given a
    square root. -/
theorem C36_stationary (sqrt : K → K) (hs : ∀ d, 0 ≤ d → sqrt d * sqrt d = d) (x y : Nat → K) (a b c r : K)
    (h : cubicCoeffs x y = some (a, b, c)) (hr : cubicMin sqrt x y = some (some (.fin r))) :
    3 * a * (r - x 0) ^ 2 + 2 * b * (r - x 0) + c = 0 := by
  unfold cubicMin at hr
  rw [h] at hr
  simp only [Option.map_some, Option.some.injEq] at hr
  by_cases hd : (b + b) * (b + b) - 4 * (a * 3) * c < 0
  · rw [if_pos hd] at hr; cases hr
  rw [if_neg hd] at hr
  have hq := hs _ (not_lt.1 hd)
  generalize sqrt ((b + b) * (b + b) - 4 * (a * 3) * c) = s at *
  have key : ∀ v : K, v ≠ 0 → (v = -(b + b) + s ∨ v = -(b + b) - s) →
      3 * a * (2 * c / v) ^ 2 + 2 * b * (2 * c / v) + c = 0 := by
    intro v hv hor
    have e : v ^ 2 + 4 * b * v + 12 * a * c = 0 := by
      rcases hor with rfl | rfl <;> linear_combination hq
    have : 3 * a * (2 * c / v) ^ 2 + 2 * b * (2 * c / v) + c = c * (v ^ 2 + 4 * b * v + 12 * a * c) / v ^ 2 := by
      field_simp; ring
    rw [this, e]; simp
  have hv : ∀ v : K, (match Dbl.div (2 * c) v with | .fin q => some (Dbl.fin (x 0 + q)) | d => some d) = some (Dbl.fin r) →
      v ≠ 0 ∧ r - x 0 = 2 * c / v := by
    intro v hv
    unfold Dbl.div at hv
    by_cases h0 : v ≠ 0
    · rw [if_pos h0] at hv
      simp only [Option.some.injEq, Dbl.fin.injEq] at hv
      exact ⟨h0, by rw [← hv]; ring⟩
    · rw [if_neg h0] at hv
      split at hv <;> rename_i hh <;> split_ifs at hh
      all_goals simp_all
  obtain ⟨h0, he⟩ := hv _ hr
  rw [he]
  apply key _ h0
  split
  · exact Or.inl rfl
  · exact Or.inr rfl

example : fitParabola (fun i => ((i : ℕ) : ℚ)) (fun i => ((i : ℕ) : ℚ) ^ 2) = some (1, 0, 0) := by
  apply C36_unique <;> norm_num

/-! ## The minimiser -/

/-- Number of stored points. -/
def stored (b : State K) : Nat := if b.nIterations ≠ 0 then 4 else 3

/-- What holds between calls, for a function `f`. -/
structure BrentInv (f : K → K) (b : State K) : Prop where
  sorted : ∀ i j, i ≤ j → j < stored b → b.y i ≤ b.y j
  values : ∀ i < stored b, b.y i = f (b.x i)
  low : b.xmin < b.x 0
  high : b.x 0 < b.xmax
  outside : ∀ i < stored b, i ≠ 0 → b.x i ≤ b.xmin ∨ b.xmax ≤ b.x i
  distinct : ∀ i < stored b, ∀ j < stored b, i ≠ j → b.x i ≠ b.x j
  bracketLow : b.y 0 ≤ f b.xmin
  bracketHigh : b.y 0 ≤ f b.xmax
  gold0 : 0 < b.goldRatio
  gold1 : b.goldRatio < 1

theorem phi_range : 0 < (PHI : K) ∧ (PHI : K) < 1 := by
  unfold PHI; constructor <;> norm_num

theorem insertLoop_spec (nx ny : K) (idx : Nat) (x y : Nat → K) :
    ∃ k ≤ idx, (∀ i, k ≤ i → i < idx → ny ≤ y i) ∧ (k = 0 ∨ y (k - 1) < ny) ∧
      (∀ i, (insertLoop nx ny x y idx).1 i = if i < k then x i else if i = k then nx else if i ≤ idx then x (i - 1) else x i) ∧
      (∀ i, (insertLoop nx ny x y idx).2 i = if i < k then y i else if i = k then ny else if i ≤ idx then y (i - 1) else y i) := by
  induction idx generalizing x y with
  | zero =>
    refine ⟨0, le_refl _, fun i h1 h2 => absurd h2 (by omega), Or.inl rfl, ?_, ?_⟩ <;>
    · intro i
      simp only [insertLoop, store]
      split_ifs <;> first | rfl | omega
  | succ n ih =>
    unfold insertLoop
    by_cases h : ny ≤ y n
    · rw [if_pos h]
      obtain ⟨k, hk, h1, h2, h3, h4⟩ := ih (store x (n + 1) (x n)) (store y (n + 1) (y n))
      refine ⟨k, by omega, ?_, ?_, ?_, ?_⟩
      · intro i hi1 hi2
        by_cases he : i = n
        · subst he; exact h
        · have := h1 i hi1 (by omega)
          simp only [store] at this
          rwa [if_neg (by omega)] at this
      · rcases h2 with h2 | h2
        · exact Or.inl h2
        · right
          simp only [store] at h2
          rwa [if_neg (by omega)] at h2
      · intro i
        rw [h3]
        simp only [store]
        split_ifs <;> first | rfl | omega | (congr 1; omega)
      · intro i
        rw [h4]
        simp only [store]
        split_ifs <;> first | rfl | omega | (congr 1; omega)
    · rw [if_neg h]
      refine ⟨n + 1, le_refl _, fun i h1 h2 => absurd h2 (by omega), Or.inr ?_, ?_, ?_⟩
      · rw [show n + 1 - 1 = n by omega]; exact not_le.1 h
      all_goals
        intro i
        simp only [store]
        split_ifs <;> first | rfl | omega

/-- Where a point may be proposed: strictly inside the bracket, away from the best point. -/
def Proposed (b : State K) : Prop := b.xmin < b.nextX ∧ b.nextX < b.xmax ∧ b.nextX ≠ b.x 0

/-- **C35.** Adding the value at a proposed point never fails an assertion and keeps everything. -/
theorem C35_add (f : K → K) (b : State K) (hi : BrentInv f b) (hp : Proposed b) :
    ∃ b' d, add b (f b.nextX) = some (b', d) ∧ BrentInv f b' ∧
      b.xmin ≤ b'.xmin ∧ b'.xmax ≤ b.xmax ∧ b'.xmax - b'.xmin < b.xmax - b.xmin ∧
      b'.y 0 ≤ b.y 0 ∧ b'.y 0 ≤ f b.nextX ∧ b'.tolerance = b.tolerance ∧ b'.ytolerance = b.ytolerance := by
  obtain ⟨p1, p2, p3⟩ := hp
  obtain ⟨f0, f1⟩ := phi_range (K := K)
  have hm3 : 3 ≤ stored b := by unfold stored; split <;> omega
  have hm4 : stored b ≤ 4 := by unfold stored; split <;> omega
  obtain ⟨k, hk, h1, h2, h3, h4⟩ := insertLoop_spec b.nextX (f b.nextX) (stored b) b.x b.y
  -- the new bracket
  have hbr : ∃ lo hi g, (if f b.nextX ≤ b.y 0 then
      let b := if b.nextX < b.x 0 then { b with xmax := b.x 0 } else { b with xmin := b.x 0 }
      if b.stepType = .golden then { b with goldRatio := (1 + b.goldRatio) / 2 } else b
    else
      let b := if b.nextX < b.x 0 then { b with xmin := b.nextX } else { b with xmax := b.nextX }
      if b.stepType = .golden then { b with goldRatio := (PHI + b.goldRatio) / 2 } else b) =
      { b with xmin := lo, xmax := hi, goldRatio := g } ∧ 0 < g ∧ g < 1 ∧
      ((f b.nextX ≤ b.y 0 ∧ b.nextX < b.x 0 ∧ lo = b.xmin ∧ hi = b.x 0) ∨
       (f b.nextX ≤ b.y 0 ∧ b.x 0 < b.nextX ∧ lo = b.x 0 ∧ hi = b.xmax) ∨
       (b.y 0 < f b.nextX ∧ b.nextX < b.x 0 ∧ lo = b.nextX ∧ hi = b.xmax) ∨
       (b.y 0 < f b.nextX ∧ b.x 0 < b.nextX ∧ lo = b.xmin ∧ hi = b.nextX)) := by
    have g0 := hi.gold0
    have g1 := hi.gold1
    by_cases c1 : f b.nextX ≤ b.y 0
    · by_cases c2 : b.nextX < b.x 0
      · by_cases c3 : b.stepType = .golden
        · refine ⟨b.xmin, b.x 0, (1 + b.goldRatio) / 2, ?_, by linarith, by linarith, Or.inl ⟨c1, c2, rfl, rfl⟩⟩
          simp only [if_pos c1, if_pos c2, c3, if_true]
        · refine ⟨b.xmin, b.x 0, b.goldRatio, ?_, g0, g1, Or.inl ⟨c1, c2, rfl, rfl⟩⟩
          simp only [if_pos c1, if_pos c2, c3, if_false]
      · have c2' := lt_of_le_of_ne (not_lt.1 c2) (Ne.symm p3)
        by_cases c3 : b.stepType = .golden
        · refine ⟨b.x 0, b.xmax, (1 + b.goldRatio) / 2, ?_, by linarith, by linarith, Or.inr (Or.inl ⟨c1, c2', rfl, rfl⟩)⟩
          simp only [if_pos c1, if_neg c2, c3, if_true]
        · refine ⟨b.x 0, b.xmax, b.goldRatio, ?_, g0, g1, Or.inr (Or.inl ⟨c1, c2', rfl, rfl⟩)⟩
          simp only [if_pos c1, if_neg c2, c3, if_false]
    · by_cases c2 : b.nextX < b.x 0
      · by_cases c3 : b.stepType = .golden
        · refine ⟨b.nextX, b.xmax, (PHI + b.goldRatio) / 2, ?_, by linarith, by linarith, Or.inr (Or.inr (Or.inl ⟨not_le.1 c1, c2, rfl, rfl⟩))⟩
          simp only [if_neg c1, if_pos c2, c3, if_true]
        · refine ⟨b.nextX, b.xmax, b.goldRatio, ?_, g0, g1, Or.inr (Or.inr (Or.inl ⟨not_le.1 c1, c2, rfl, rfl⟩))⟩
          simp only [if_neg c1, if_pos c2, c3, if_false]
      · have c2' := lt_of_le_of_ne (not_lt.1 c2) (Ne.symm p3)
        by_cases c3 : b.stepType = .golden
        · refine ⟨b.xmin, b.nextX, (PHI + b.goldRatio) / 2, ?_, by linarith, by linarith, Or.inr (Or.inr (Or.inr ⟨not_le.1 c1, c2', rfl, rfl⟩))⟩
          simp only [if_neg c1, if_neg c2, c3, if_true]
        · refine ⟨b.xmin, b.nextX, b.goldRatio, ?_, g0, g1, Or.inr (Or.inr (Or.inr ⟨not_le.1 c1, c2', rfl, rfl⟩))⟩
          simp only [if_neg c1, if_neg c2, c3, if_false]
  obtain ⟨lo, hi', g, heq, g0, g1, hcase⟩ := hbr
  have hk0 : f b.nextX ≤ b.y 0 ↔ k = 0 := by
    constructor
    · intro h
      rcases h2 with h2 | h2
      · exact h2
      · exact absurd (lt_of_le_of_lt (hi.sorted 0 (k - 1) (by omega) (by omega)) h2) (not_lt.2 h)
    · intro h; exact h1 0 (by omega) (by omega)
  -- the new arrays
  generalize hX : (insertLoop b.nextX (f b.nextX) b.x b.y (stored b)).1 = X at *
  generalize hY : (insertLoop b.nextX (f b.nextX) b.x b.y (stored b)).2 = Y at *
  have hsort : ∀ i j, i ≤ j → j ≤ stored b → Y i ≤ Y j := by
    intro i j hij hj
    rw [h4 i, h4 j]
    have hlt : ∀ i, i < k → b.y i ≤ f b.nextX := by
      intro i hik
      rcases h2 with h2 | h2
      · omega
      · exact (lt_of_le_of_lt (hi.sorted i (k - 1) (by omega) (by omega)) h2).le
    split_ifs
    all_goals first
      | exact hi.sorted _ _ (by omega) (by omega)
      | exact le_refl _
      | exact hlt _ (by omega)
      | exact h1 _ (by omega) (by omega)
  have hpts : ∀ i, i ≤ stored b → (X i = b.nextX ∧ Y i = f b.nextX) ∨ ∃ j < stored b, X i = b.x j ∧ Y i = b.y j := by
    intro i hi
    rw [h3 i, h4 i]
    split_ifs
    · exact Or.inr ⟨i, by omega, rfl, rfl⟩
    · exact Or.inl ⟨rfl, rfl⟩
    · exact Or.inr ⟨i - 1, by omega, rfl, rfl⟩
  have hX0 : (k = 0 → X 0 = b.nextX ∧ Y 0 = f b.nextX) ∧ (k ≠ 0 → X 0 = b.x 0 ∧ Y 0 = b.y 0) := by
    constructor
    · intro h; rw [h3, h4, h]; simp
    · intro h; rw [h3, h4, if_pos (by omega), if_pos (by omega)]; exact ⟨rfl, rfl⟩
  have hX0b : lo < X 0 ∧ X 0 < hi' ∧ Y 0 ≤ f lo ∧ Y 0 ≤ f hi' ∧ Y 0 ≤ b.y 0 ∧ Y 0 ≤ f b.nextX := by
    have v0 := hi.values 0 (by omega)
    have b0 := hi.bracketLow
    have b1 := hi.bracketHigh
    have l0 := hi.low
    have l1 := hi.high
    rcases hcase with ⟨c1, c2, rfl, rfl⟩ | ⟨c1, c2, rfl, rfl⟩ | ⟨c1, c2, rfl, rfl⟩ | ⟨c1, c2, rfl, rfl⟩
    · obtain ⟨e1, e2⟩ := hX0.1 (hk0.1 c1)
      rw [e1, e2, ← v0]
      exact ⟨p1, c2, by linarith, by linarith, by linarith, le_refl _⟩
    · obtain ⟨e1, e2⟩ := hX0.1 (hk0.1 c1)
      rw [e1, e2, ← v0]
      exact ⟨c2, p2, by linarith, by linarith, by linarith, le_refl _⟩
    · obtain ⟨e1, e2⟩ := hX0.2 (fun h => absurd (hk0.2 h) (not_le.2 c1))
      rw [e1, e2]
      exact ⟨c2, l1, by linarith, by linarith, by linarith, by linarith⟩
    · obtain ⟨e1, e2⟩ := hX0.2 (fun h => absurd (hk0.2 h) (not_le.2 c1))
      rw [e1, e2]
      exact ⟨l0, c2, by linarith, by linarith, by linarith, by linarith⟩
  obtain ⟨q1, q2, q3, q4, q5, q6⟩ := hX0b
  have hnot : ∀ j < stored b, b.nextX ≠ b.x j := by
    intro j hj he
    by_cases hj0 : j = 0
    · subst hj0; exact p3 he
    · rcases hi.outside j hj hj0 with h | h <;> linarith
  have hinj : ∀ i ≤ stored b, ∀ j ≤ stored b, i ≠ j → X i ≠ X j := by
    intro i hi1 j hj1 hij
    rw [h3 i, h3 j]
    split_ifs
    all_goals first
      | exact hi.distinct _ (by omega) _ (by omega) (by omega)
      | exact hnot _ (by omega)
      | exact (hnot _ (by omega)).symm
      | (exfalso; omega)
  have hbnd : b.xmin ≤ lo ∧ hi' ≤ b.xmax ∧ hi' - lo < b.xmax - b.xmin := by
    have l0 := hi.low
    have l1 := hi.high
    rcases hcase with ⟨c1, c2, rfl, rfl⟩ | ⟨c1, c2, rfl, rfl⟩ | ⟨c1, c2, rfl, rfl⟩ | ⟨c1, c2, rfl, rfl⟩ <;>
      refine ⟨by linarith, by linarith, by linarith⟩
  have hout : ∀ i ≤ stored b, i ≠ 0 → X i ≤ lo ∨ hi' ≤ X i := by
    intro i hi1 hi0
    have hne : X i ≠ X 0 := hinj i hi1 0 (by omega) hi0
    have houts : ∀ j < stored b, b.x j ≠ X 0 → b.x j ≤ lo ∨ hi' ≤ b.x j := by
      intro j hj hne
      by_cases hj0 : j = 0
      · subst hj0
        rcases hcase with ⟨c1, c2, rfl, rfl⟩ | ⟨c1, c2, rfl, rfl⟩ | ⟨c1, c2, rfl, rfl⟩ | ⟨c1, c2, rfl, rfl⟩
        · exact Or.inr (le_refl _)
        · exact Or.inl (le_refl _)
        · exact absurd (hX0.2 (fun h => absurd (hk0.2 h) (not_le.2 c1))).1.symm hne
        · exact absurd (hX0.2 (fun h => absurd (hk0.2 h) (not_le.2 c1))).1.symm hne
      · rcases hi.outside j hj hj0 with h | h
        · left; linarith [hbnd.1]
        · right; linarith [hbnd.2.1]
    rcases hpts i hi1 with ⟨e, -⟩ | ⟨j, hj, e, -⟩
    · rw [e] at hne ⊢
      have hk' : k ≠ 0 := fun h => hne (hX0.1 h).1.symm
      rcases hcase with ⟨c1, c2, rfl, rfl⟩ | ⟨c1, c2, rfl, rfl⟩ | ⟨c1, c2, rfl, rfl⟩ | ⟨c1, c2, rfl, rfl⟩
      · exact absurd (hk0.1 c1) hk'
      · exact absurd (hk0.1 c1) hk'
      · exact Or.inl (le_refl _)
      · exact Or.inr (le_refl _)
    · rw [e] at hne ⊢
      exact houts j hj hne
  have hadd : add b (f b.nextX) = some ({ b with xmin := lo, xmax := hi', goldRatio := g, x := X, y := Y, nIterations := b.nIterations + 1 },
      isDone ({ b with xmin := lo, xmax := hi', goldRatio := g, x := X, y := Y, nIterations := b.nIterations + 1 } : State K)) := by
    unfold add
    simp only []
    rw [heq]
    have hs : (if b.nIterations ≠ 0 then 4 else 3) = stored b := rfl
    rw [hs, hX, hY]
    rw [if_pos ⟨hsort 0 1 (by omega) (by omega), hsort 1 2 (by omega) (by omega), hsort 2 3 (by omega) (by omega), q1, q2⟩]
  refine ⟨_, _, hadd, ?_, hbnd.1, hbnd.2.1, hbnd.2.2, q5, q6, rfl, rfl⟩
  have hst : stored ({ b with xmin := lo, xmax := hi', goldRatio := g, x := X, y := Y, nIterations := b.nIterations + 1 } : State K) = 4 := by
    unfold stored; simp
  constructor
  · rw [hst]; intro i j h1 h2; exact hsort i j h1 (by omega)
  · rw [hst]; intro i hi1
    show Y i = f (X i)
    rcases hpts i (by omega) with ⟨e1, e2⟩ | ⟨j, hj, e1, e2⟩
    · rw [e1, e2]
    · rw [e1, e2]; exact hi.values j hj
  · exact q1
  · exact q2
  · rw [hst]; intro i hi1 h0; exact hout i (by omega) h0
  · rw [hst]; intro i hi1 j hj1 hij; exact hinj i (by omega) j (by omega) hij
  · exact q3
  · exact q4
  · exact g0
  · exact g1

theorem pick_cases (b : State K) (kind : Step) (cand : Dbl K) :
    pick b kind cand = (.fin (goldenStep b), .golden) ∨
      ∃ w, adjust b cand = some w ∧ pick b kind cand = (w, kind) ∧ kind ≠ .golden := by
  unfold pick
  by_cases h : kind = .golden
  · rw [if_pos h]; exact Or.inl rfl
  · rw [if_neg h]
    cases ha : adjust b cand with
    | none => exact Or.inl rfl
    | some w =>
      simp only []
      split
      · exact Or.inl rfl
      · exact Or.inr ⟨w, rfl, rfl, h⟩

/-- Whatever is suggested, a point proposed is strictly inside the bracket. -/
theorem finish_proposed (f : K → K) (b b' : State K) (hi : BrentInv f b) (ht : 0 < b.tolerance) (hd : isDone b = false)
    (kind : Step) (cand : Dbl K) (h : finish b kind cand = some b') :
    ∃ v k, b' = { b with nextX := v, stepType := k } ∧ Proposed b' ∧ (k = .golden ∨ k = kind) := by
  have l0 := hi.low
  have l1 := hi.high
  have g0 := hi.gold0
  have g1 := hi.gold1
  have htol : 0 < b.tolerance * (9 / 10) := by linarith
  have htol' : b.tolerance * (9 / 10) < b.tolerance := by linarith
  have hwide : b.tolerance ≤ b.xmax - b.x 0 ∨ b.tolerance ≤ b.x 0 - b.xmin := by
    unfold isDone at hd
    split at hd
    · cases hd
    · simp only [decide_eq_false_iff_not, not_and_or, not_lt] at hd
      exact hd
  have hgold : b.xmin < goldenStep b ∧ goldenStep b < b.xmax := by
    unfold goldenStep
    simp only []
    have hr : 0 < 1 - b.goldRatio := by linarith
    have hr1 : 1 - b.goldRatio < 1 := by linarith
    split
    · have : (b.xmax - b.x 0) * (1 - b.goldRatio) < (b.xmax - b.x 0) * 1 := mul_lt_mul_of_pos_left hr1 (by linarith)
      have : 0 < (b.xmax - b.x 0) * (1 - b.goldRatio) := mul_pos (by linarith) hr
      constructor <;> linarith
    · have : (b.x 0 - b.xmin) * (1 - b.goldRatio) < (b.x 0 - b.xmin) * 1 := mul_lt_mul_of_pos_left hr1 (by linarith)
      have : 0 < (b.x 0 - b.xmin) * (1 - b.goldRatio) := mul_pos (by linarith) hr
      constructor <;> linarith
  have hadj : ∀ v, adjust b cand = some (.fin v) → b.xmin < v ∧ v < b.xmax ∨ v = b.x 0 := by
    intro v hv
    unfold adjust at hv
    cases cand with
    | nan => simp only [Option.some.injEq, reduceCtorEq] at hv
    | inf => simp only [reduceCtorEq] at hv
    | fin r =>
      simp only [] at hv
      split_ifs at hv with c1 c2 c3 c4 c5 c6 c7
      all_goals simp only [Option.some.injEq, Dbl.fin.injEq, reduceCtorEq] at hv
      · subst hv; left; constructor
        · linarith
        · rcases hwide with h | h <;> linarith
      · subst hv; left; constructor
        · rcases hwide with h | h <;> linarith
        · linarith
      · subst hv
        rw [not_and_or, not_lt, not_lt] at c1
        rcases c1 with c1 | c1
        · left; constructor <;> linarith
        · exfalso; linarith
      · subst hv; left; constructor <;> linarith
      · subst hv
        rw [not_and_or, not_lt, not_lt] at c1
        rcases c1 with c1 | c1
        · right; linarith
        · left; constructor <;> linarith
      · subst hv; left; constructor <;> linarith
  unfold finish at h
  rcases pick_cases b kind cand with hp | ⟨w, hw, hp, -⟩
  · rw [hp] at h
    simp only [] at h
    split at h
    · rename_i hc
      obtain rfl := Option.some.inj h
      exact ⟨_, _, rfl, ⟨hgold.1, hgold.2, hc.2.2⟩, Or.inl rfl⟩
    · cases h
  · rw [hp] at h
    cases w with
    | inf => cases h
    | nan => cases h
    | fin v =>
      simp only [] at h
      split at h
      · rename_i hc
        obtain rfl := Option.some.inj h
        refine ⟨_, _, rfl, ?_, Or.inr rfl⟩
        rcases hadj v hw with h | h
        · exact ⟨h.1, h.2, hc.2.2⟩
        · exact absurd h hc.2.2
      · cases h

/-- **C35.** A point proposed by `brent_min_next` is strictly inside the bracket and away from the best
    point, when the tolerance is positive. -/
theorem C35_next (f : K → K) (sqrt : K → K) (b b' : State K) (hi : BrentInv f b) (ht : 0 < b.tolerance)
    (h : next sqrt b = some b') :
    (b' = { b with stepType := .done } ∧ isDone b = true) ∨
    (∃ v k, b' = { b with nextX := v, stepType := k } ∧ Proposed b' ∧ k ≠ .done) := by
  unfold next at h
  split at h
  · split at h
    · rename_i hd
      exact Or.inl ⟨(Option.some.inj h).symm, hd⟩
    · rename_i hd
      right
      rw [Option.bind_eq_some_iff] at h
      obtain ⟨⟨kind, cand⟩, hs, hf⟩ := h
      obtain ⟨v, k, e, hp, hk⟩ := finish_proposed f b b' hi ht (by simpa using hd) kind cand hf
      refine ⟨v, k, e, hp, ?_⟩
      rcases hk with rfl | rfl
      · simp
      · unfold suggest at hs
        split at hs
        · rw [Option.map_eq_some_iff] at hs
          obtain ⟨r, -, hr⟩ := hs
          split at hr <;> (cases hr; simp)
        · rw [Option.map_eq_some_iff] at hs
          obtain ⟨r, -, hr⟩ := hs
          cases hr; simp
  · cases h

/-- **C35.** The assertions that the stored points are distinct never fail. -/
theorem C35_suggest (f : K → K) (sqrt : K → K) (b : State K) (hi : BrentInv f b) : ∃ s, suggest sqrt b = some s := by
  unfold suggest
  split
  · rename_i h
    have hst : stored b = 4 := by unfold stored; rw [if_pos h]
    have hd := hi.distinct
    rw [hst] at hd
    obtain ⟨a, p, q, he, -⟩ := C36_cubic b.x b.y hd
    unfold cubicMin
    rw [he]
    exact ⟨_, rfl⟩
  · have hd := hi.distinct
    have hm3 : 3 ≤ stored b := by unfold stored; split <;> omega
    obtain ⟨a, p, q, he, -⟩ := C36_parabola b.x b.y (hd 0 (by omega) 1 (by omega) (by omega))
      (hd 1 (by omega) 2 (by omega) (by omega)) (hd 0 (by omega) 2 (by omega) (by omega))
    rw [he]
    exact ⟨_, rfl⟩

/-- **C35.** When `brent_min_next` fails an assertion, the fit had no minimum (a division of zero by zero),
    or it suggested exactly an end of the bracket lying exactly 0.9 tolerances from the best point. -/
theorem C35_next_fails (f : K → K) (sqrt : K → K) (b : State K) (hi : BrentInv f b) (ht : 0 < b.tolerance)
    (h : next sqrt b = none) :
    ∃ kind cand, suggest sqrt b = some (kind, cand) ∧
      (cand = .nan ∨ (cand = .fin b.xmin ∧ b.x 0 - b.xmin = b.tolerance * (9 / 10)) ∨
        (cand = .fin b.xmax ∧ b.xmax - b.x 0 = b.tolerance * (9 / 10))) := by
  have l0 := hi.low
  have l1 := hi.high
  obtain ⟨⟨kind, cand⟩, hs⟩ := C35_suggest f sqrt b hi
  refine ⟨kind, cand, hs, ?_⟩
  unfold next at h
  rw [if_pos ⟨ne_of_gt (by linarith), ne_of_gt (by linarith)⟩] at h
  by_cases hd : isDone b = true
  · rw [if_pos hd] at h; cases h
  rw [if_neg hd, hs] at h
  simp only [Option.bind_some] at h
  have g0 := hi.gold0
  have g1 := hi.gold1
  have htol : 0 < b.tolerance * (9 / 10) := by linarith
  have hwide : b.tolerance ≤ b.xmax - b.x 0 ∨ b.tolerance ≤ b.x 0 - b.xmin := by
    unfold isDone at hd
    split at hd
    · exact absurd rfl hd
    · simp only [decide_eq_true_eq, not_and_or, not_lt] at hd
      exact hd
  have hgold : goldenStep b ≥ b.xmin ∧ goldenStep b ≤ b.xmax ∧ goldenStep b ≠ b.x 0 := by
    unfold goldenStep
    simp only []
    have hr : 0 < 1 - b.goldRatio := by linarith
    have hr1 : 1 - b.goldRatio < 1 := by linarith
    split
    · have : (b.xmax - b.x 0) * (1 - b.goldRatio) < (b.xmax - b.x 0) * 1 := mul_lt_mul_of_pos_left hr1 (by linarith)
      have : 0 < (b.xmax - b.x 0) * (1 - b.goldRatio) := mul_pos (by linarith) hr
      refine ⟨by linarith, by linarith, ?_⟩
      intro h; linarith
    · have : (b.x 0 - b.xmin) * (1 - b.goldRatio) < (b.x 0 - b.xmin) * 1 := mul_lt_mul_of_pos_left hr1 (by linarith)
      have : 0 < (b.x 0 - b.xmin) * (1 - b.goldRatio) := mul_pos (by linarith) hr
      refine ⟨by linarith, by linarith, ?_⟩
      intro h; linarith
  unfold finish at h
  rcases pick_cases b kind cand with hp | ⟨v, ha, hp, -⟩
  · rw [hp] at h
    simp only [] at h
    rw [if_pos hgold] at h; cases h
  · rw [hp] at h
    cases cand with
    | nan => exact Or.inl rfl
    | inf => cases ha
    | fin r =>
          right
          unfold adjust at ha
          simp only [] at ha
          split_ifs at ha with c1 c2 c3 c4 c5 c6 c7
          all_goals simp only [Option.some.injEq, reduceCtorEq] at ha
          all_goals subst ha
          all_goals simp only [] at h
          all_goals split_ifs at h with hc
          all_goals rw [not_and_or, not_and_or, not_le, not_le, not_not] at hc
          · rcases hwide with h | h <;> rcases hc with hc | hc | hc <;> exfalso <;> linarith
          · rcases hwide with h | h <;> rcases hc with hc | hc | hc <;> exfalso <;> linarith
          · rw [not_and_or, not_lt, not_lt] at c1
            rcases c1 with c1 | c1
            · rcases hc with hc | hc | hc
              · exfalso; linarith
              · exfalso; linarith
              · left
                have : r = b.xmin := le_antisymm (by linarith) (by linarith)
                exact ⟨by rw [this], by linarith⟩
            · exfalso; linarith
          · rcases hc with hc | hc | hc <;> exfalso <;> linarith
          · rw [not_and_or, not_lt, not_lt] at c1
            rcases c1 with c1 | c1
            · exfalso; linarith
            · rcases hc with hc | hc | hc
              · exfalso; linarith
              · exfalso; linarith
              · right
                have : r = b.xmax := le_antisymm (by linarith) (by linarith)
                exact ⟨by rw [this], by linarith⟩
          · rw [not_and_or, not_lt, not_lt] at c1
            rcases c1 with c1 | c1 <;> rcases hc with hc | hc | hc <;> exfalso <;> linarith

/-- **C35.** Any number of rounds, with any function, keeps the points sorted and the best point strictly
    inside the bracket, never widens the bracket, and never raises the best value. -/
theorem C35_run (f : K → K) (sqrt : K → K) (n : Nat) (b b' : State K) (hi : BrentInv f b) (ht : 0 < b.tolerance)
    (h : run sqrt f n b = some b') :
    BrentInv f b' ∧ b.xmin ≤ b'.xmin ∧ b'.xmax ≤ b.xmax ∧ b'.y 0 ≤ b.y 0 := by
  induction n generalizing b with
  | zero =>
    obtain rfl := Option.some.inj h
    exact ⟨hi, le_refl _, le_refl _, le_refl _⟩
  | succ n ih =>
    unfold run at h
    rw [Option.bind_eq_some_iff] at h
    obtain ⟨b1, h1, h2⟩ := h
    rcases C35_next f sqrt b b1 hi ht h1 with ⟨rfl, -⟩ | ⟨v, k, rfl, hp, hk⟩
    · rw [if_pos rfl] at h2
      obtain rfl := Option.some.inj h2
      exact ⟨⟨hi.1, hi.2, hi.3, hi.4, hi.5, hi.6, hi.7, hi.8, hi.9, hi.10⟩, le_refl _, le_refl _, le_refl _⟩
    · rw [if_neg hk] at h2
      have hi1 : BrentInv f ({ b with nextX := v, stepType := k } : State K) :=
        ⟨hi.1, hi.2, hi.3, hi.4, hi.5, hi.6, hi.7, hi.8, hi.9, hi.10⟩
      obtain ⟨b2, d, e, i2, j1, j2, -, j4, -, j6, -⟩ := C35_add f _ hi1 hp
      rw [e] at h2
      simp only [Option.bind_some] at h2
      obtain ⟨r1, r2, r3, r4⟩ := ih b2 i2 (by rw [j6]; exact ht) h2
      exact ⟨r1, le_trans j1 r2, le_trans r3 j2, le_trans r4 j4⟩

/-- Sorting three points. -/
theorem bubble_sorts (x y : Nat → K) :
    ∃ i j k : Nat, [(i, j, k)] ⊆ [(0, 1, 2), (0, 2, 1), (1, 0, 2), (1, 2, 0), (2, 0, 1), (2, 1, 0)] ∧ y i ≤ y j ∧ y j ≤ y k ∧
      let p := bubbleDown x y 2
      let q := bubbleDown p.1 p.2 2
      q.1 0 = x i ∧ q.1 1 = x j ∧ q.1 2 = x k ∧ q.2 0 = y i ∧ q.2 1 = y j ∧ q.2 2 = y k := by
  have b1 : ∀ x y : Nat → K, (bubbleDown x y 2).1 0 = (if y 2 < y 1 then (if y 2 < y 0 then x 2 else x 0) else if y 1 < y 0 then x 1 else x 0) ∧
      (bubbleDown x y 2).1 1 = (if y 2 < y 1 then (if y 2 < y 0 then x 0 else x 2) else if y 1 < y 0 then x 0 else x 1) ∧
      (bubbleDown x y 2).1 2 = (if y 2 < y 1 then x 1 else x 2) ∧
      (bubbleDown x y 2).2 0 = (if y 2 < y 1 then (if y 2 < y 0 then y 2 else y 0) else if y 1 < y 0 then y 1 else y 0) ∧
      (bubbleDown x y 2).2 1 = (if y 2 < y 1 then (if y 2 < y 0 then y 0 else y 2) else if y 1 < y 0 then y 0 else y 1) ∧
      (bubbleDown x y 2).2 2 = (if y 2 < y 1 then y 1 else y 2) := by
    intro x y
    by_cases c1 : y 2 < y 1
    · by_cases c2 : y 2 < y 0
      · simp [bubbleDown, store, c1, c2]
      · simp [bubbleDown, store, c1, c2]
    · by_cases c2 : y 1 < y 0
      · simp [bubbleDown, store, c1, c2]
      · simp [bubbleDown, store, c1, c2]
  obtain ⟨a0, a1, a2, d0, d1, d2⟩ := b1 x y
  obtain ⟨e0, e1, e2, g0, g1, g2⟩ := b1 (bubbleDown x y 2).1 (bubbleDown x y 2).2
  simp only []
  rw [e0, e1, e2, g0, g1, g2, a0, a1, a2, d0, d1, d2]
  clear e0 e1 e2 g0 g1 g2 a0 a1 a2 d0 d1 d2 b1
  by_cases c1 : y 2 < y 1 <;> by_cases c2 : y 2 < y 0 <;> by_cases c3 : y 1 < y 0
  · refine ⟨2, 1, 0, by simp, by linarith, by linarith, ?_⟩; simp [c1, c2, c3, not_lt.2 c1.le]
  · refine ⟨2, 0, 1, by simp, by linarith, by linarith, ?_⟩; simp [c1, c2, c3, not_lt.2 c2.le]
  · exfalso; linarith
  · refine ⟨0, 2, 1, by simp, by linarith, by linarith, ?_⟩
    have : ¬ y 1 < y 2 := by linarith
    simp [c1, c2, this]
  · refine ⟨1, 2, 0, by simp, by linarith, by linarith, ?_⟩
    simp [c1, c2, c3]
  · exfalso; linarith
  · refine ⟨1, 0, 2, by simp, by linarith, by linarith, ?_⟩
    have : ¬ y 0 < y 1 := by linarith
    simp [c1, c2, c3, this]
  · refine ⟨0, 1, 2, by simp, by linarith, by linarith, ?_⟩
    simp [c1, c2, c3]

/-- **C35.** When `brent_min_init` accepts three points it has set up a bracket around the best of them. -/
theorem C35_init (f : K → K) (x1 x2 x3 tol ytol : K) (b : State K)
    (h : init x1 (f x1) x2 (f x2) x3 (f x3) tol ytol = some b) :
    BrentInv f b ∧ b.tolerance = tol ∧ b.nIterations = 0 ∧ (∀ v ∈ [x1, x2, x3], b.xmin ≤ v ∧ v ≤ b.xmax ∧ b.y 0 ≤ f v) := by
  obtain ⟨f0, f1⟩ := phi_range (K := K)
  unfold init at h
  extract_lets x y lo0 lo1 lo hi1 hi p q at h
  have hlo : lo ≤ x1 ∧ lo ≤ x2 ∧ lo ≤ x3 ∧ (lo = x1 ∨ lo = x2 ∨ lo = x3) := by
    simp only [lo, lo1, lo0]
    split_ifs <;> refine ⟨by linarith, by linarith, by linarith, by simp⟩
  have hhi : x1 ≤ hi ∧ x2 ≤ hi ∧ x3 ≤ hi ∧ (hi = x1 ∨ hi = x2 ∨ hi = x3) := by
    simp only [hi, hi1, lo0]
    split_ifs <;> refine ⟨by linarith, by linarith, by linarith, by simp⟩
  clear_value lo hi
  split at h
  · rename_i hc
    obtain rfl := Option.some.inj h
    obtain ⟨i, j, k, hperm, hij, hjk, q0, q1, q2, r0, r1, r2⟩ := bubble_sorts x y
    change q.1 0 = _ at q0
    change q.1 1 = _ at q1
    change q.1 2 = _ at q2
    change q.2 0 = _ at r0
    change q.2 1 = _ at r1
    change q.2 2 = _ at r2
    have hx : x 0 = x1 ∧ x 1 = x2 ∧ x 2 = x3 ∧ y 0 = f x1 ∧ y 1 = f x2 ∧ y 2 = f x3 := by
      simp [x, y]
    obtain ⟨g1, g2, g3, g4, g5, g6⟩ := hx
    have key : ∀ a b c : K, q.1 0 = a → q.1 1 = b → q.1 2 = c → q.2 0 = f a → q.2 1 = f b → q.2 2 = f c → f a ≤ f b → f b ≤ f c →
        (lo = a ∨ lo = b ∨ lo = c) → (hi = a ∨ hi = b ∨ hi = c) →
        BrentInv f (⟨q.1, q.2, lo, hi, 0, PHI, tol, ytol, .initialized, 0⟩ : State K) := by
      intro a b c s0 s1 s2 t0 t1 t2 hab hbc ml mh
      have hlh : (lo = b ∧ hi = c) ∨ (lo = c ∧ hi = b) := by
        rw [s0] at hc
        rcases ml with rfl | rfl | rfl
        · exfalso; linarith [hc.1]
        · rcases mh with rfl | rfl | rfl
          · exfalso; linarith [hc.2]
          · exfalso; linarith [hc.1, hc.2]
          · exact Or.inl ⟨rfl, rfl⟩
        · rcases mh with rfl | rfl | rfl
          · exfalso; linarith [hc.2]
          · exact Or.inr ⟨rfl, rfl⟩
          · exfalso; linarith [hc.1, hc.2]
      have hst : stored (⟨q.1, q.2, lo, hi, 0, PHI, tol, ytol, .initialized, 0⟩ : State K) = 3 := by unfold stored; simp
      constructor
      · rw [hst]
        intro i j h1 h2
        show q.2 i ≤ q.2 j
        have : (i = 0 ∧ j = 0) ∨ (i = 0 ∧ j = 1) ∨ (i = 0 ∧ j = 2) ∨ (i = 1 ∧ j = 1) ∨ (i = 1 ∧ j = 2) ∨ (i = 2 ∧ j = 2) := by omega
        rcases this with ⟨rfl, rfl⟩ | ⟨rfl, rfl⟩ | ⟨rfl, rfl⟩ | ⟨rfl, rfl⟩ | ⟨rfl, rfl⟩ | ⟨rfl, rfl⟩ <;> linarith
      · rw [hst]
        intro i hi
        show q.2 i = f (q.1 i)
        have : i = 0 ∨ i = 1 ∨ i = 2 := by omega
        rcases this with rfl | rfl | rfl
        · rw [s0, t0]
        · rw [s1, t1]
        · rw [s2, t2]
      · exact hc.1
      · exact hc.2
      · rw [hst]
        intro i hi h0
        show q.1 i ≤ lo ∨ _ ≤ q.1 i
        have : i = 1 ∨ i = 2 := by omega
        rcases hlh with ⟨rfl, rfl⟩ | ⟨rfl, rfl⟩ <;> rcases this with rfl | rfl <;> simp only [s1, s2, le_refl, true_or, or_true]
      · rw [hst]
        have h01 : q.1 0 ≠ q.1 1 := by
          rw [s1]; rcases hlh with ⟨e1, e2⟩ | ⟨e1, e2⟩ <;> intro h <;> rw [h] at hc <;> first | linarith [hc.1] | linarith [hc.2]
        have h02 : q.1 0 ≠ q.1 2 := by
          rw [s2]; rcases hlh with ⟨e1, e2⟩ | ⟨e1, e2⟩ <;> intro h <;> rw [h] at hc <;> first | linarith [hc.1] | linarith [hc.2]
        have h12 : q.1 1 ≠ q.1 2 := by
          rw [s1, s2]; rcases hlh with ⟨e1, e2⟩ | ⟨e1, e2⟩ <;> intro h <;> linarith [hc.1, hc.2]
        intro i hi j hj hij
        show q.1 i ≠ q.1 j
        have : (i = 0 ∧ j = 1) ∨ (i = 0 ∧ j = 2) ∨ (i = 1 ∧ j = 0) ∨ (i = 1 ∧ j = 2) ∨ (i = 2 ∧ j = 0) ∨ (i = 2 ∧ j = 1) := by omega
        rcases this with ⟨rfl, rfl⟩ | ⟨rfl, rfl⟩ | ⟨rfl, rfl⟩ | ⟨rfl, rfl⟩ | ⟨rfl, rfl⟩ | ⟨rfl, rfl⟩
        · exact h01
        · exact h02
        · exact h01.symm
        · exact h12
        · exact h02.symm
        · exact h12.symm
      · show q.2 0 ≤ f lo
        rcases hlh with ⟨e1, e2⟩ | ⟨e1, e2⟩ <;> rw [e1] <;> linarith
      · show q.2 0 ≤ f hi
        rcases hlh with ⟨e1, e2⟩ | ⟨e1, e2⟩ <;> rw [e2] <;> linarith
      · exact f0
      · exact f1
    clear_value q p x y
    simp only [List.cons_subset, List.mem_cons, Prod.mk.injEq, List.not_mem_nil, or_false, List.nil_subset, and_true] at hperm
    refine ⟨?_, rfl, rfl, ?_⟩
    · rcases hperm with ⟨rfl, rfl, rfl⟩ | ⟨rfl, rfl, rfl⟩ | ⟨rfl, rfl, rfl⟩ | ⟨rfl, rfl, rfl⟩ | ⟨rfl, rfl, rfl⟩ | ⟨rfl, rfl, rfl⟩ <;>
        simp only [g1, g2, g3, g4, g5, g6] at q0 q1 q2 r0 r1 r2 hij hjk <;>
        exact key _ _ _ q0 q1 q2 r0 r1 r2 hij hjk (by tauto) (by tauto)
    · have hmin : q.2 0 ≤ f x1 ∧ q.2 0 ≤ f x2 ∧ q.2 0 ≤ f x3 := by
        rcases hperm with ⟨rfl, rfl, rfl⟩ | ⟨rfl, rfl, rfl⟩ | ⟨rfl, rfl, rfl⟩ | ⟨rfl, rfl, rfl⟩ | ⟨rfl, rfl, rfl⟩ | ⟨rfl, rfl, rfl⟩ <;>
          refine ⟨by linarith, by linarith, by linarith⟩
      intro v hv
      simp only [List.mem_cons, List.not_mem_nil, or_false] at hv
      rcases hv with rfl | rfl | rfl
      · exact ⟨hlo.1, hhi.1, hmin.1⟩
      · exact ⟨hlo.2.1, hhi.2.1, hmin.2.1⟩
      · exact ⟨hlo.2.2.1, hhi.2.2.1, hmin.2.2⟩
  · cases h

theorem init_form (x1 y1 x2 y2 x3 y3 tol ytol : K) : ∃ p : (Nat → K) × (Nat → K),
    init x1 y1 x2 y2 x3 y3 tol ytol =
      (let lo := if (if x1 > x2 then x2 else x1) > x3 then x3 else if x1 > x2 then x2 else x1
       let hi := if (if x1 < x2 then x2 else x1) < x3 then x3 else if x1 < x2 then x2 else x1
       if p.1 0 > lo ∧ p.1 0 < hi then some ⟨p.1, p.2, lo, hi, 0, PHI, tol, ytol, .initialized, 0⟩ else none) ∧
    ((p.1 0 = x1 ∧ p.2 0 = y1) ∨ (p.1 0 = x2 ∧ p.2 0 = y2) ∨ (p.1 0 = x3 ∧ p.2 0 = y3)) ∧
    p.2 0 ≤ y1 ∧ p.2 0 ≤ y2 ∧ p.2 0 ≤ y3 := by
  refine ⟨_, rfl, ?_⟩
  obtain ⟨i, j, k, hperm, hij, hjk, q0, q1, q2, r0, r1, r2⟩ :=
    bubble_sorts (fun i => if i = 0 then x1 else if i = 1 then x2 else x3) (fun i => if i = 0 then y1 else if i = 1 then y2 else y3)
  rw [q0, r0]
  clear q0 q1 q2 r0 r1 r2
  simp only [List.cons_subset, List.mem_cons, Prod.mk.injEq, List.not_mem_nil, or_false, List.nil_subset, and_true] at hperm
  rcases hperm with ⟨rfl, rfl, rfl⟩ | ⟨rfl, rfl, rfl⟩ | ⟨rfl, rfl, rfl⟩ | ⟨rfl, rfl, rfl⟩ | ⟨rfl, rfl, rfl⟩ | ⟨rfl, rfl, rfl⟩ <;>
    simp at hij hjk ⊢ <;> refine ⟨?_, ?_⟩ <;> linarith

/-- **C35.** Every strict bracket, given in any order, is accepted. -/
theorem C35_init_accepts (a m c ya ym yc tol ytol : K) (h1 : a < m) (h2 : m < c) (h3 : ym < ya) (h4 : ym < yc) :
    (∃ b, init a ya m ym c yc tol ytol = some b ∧ b.x 0 = m ∧ b.xmin = a ∧ b.xmax = c) ∧
    (∃ b, init a ya c yc m ym tol ytol = some b ∧ b.x 0 = m ∧ b.xmin = a ∧ b.xmax = c) ∧
    (∃ b, init m ym a ya c yc tol ytol = some b ∧ b.x 0 = m ∧ b.xmin = a ∧ b.xmax = c) ∧
    (∃ b, init m ym c yc a ya tol ytol = some b ∧ b.x 0 = m ∧ b.xmin = a ∧ b.xmax = c) ∧
    (∃ b, init c yc a ya m ym tol ytol = some b ∧ b.x 0 = m ∧ b.xmin = a ∧ b.xmax = c) ∧
    (∃ b, init c yc m ym a ya tol ytol = some b ∧ b.x 0 = m ∧ b.xmin = a ∧ b.xmax = c) := by
  have n1 : ¬ c < a := by linarith
  have n2 : ¬ m < a := by linarith
  have n3 : ¬ c < m := by linarith
  have n4 : ¬ ya < ym := by linarith
  have n5 : ¬ yc < ym := by linarith
  have n6 : a < c := by linarith
  refine ⟨?_, ?_, ?_, ?_, ?_, ?_⟩
  all_goals
    obtain ⟨p, he, hor, l1, l2, l3⟩ := init_form (K := K) _ _ _ _ _ _ tol ytol
    rw [he]
    have hp : p.1 0 = m := by
      rcases hor with ⟨e1, e2⟩ | ⟨e1, e2⟩ | ⟨e1, e2⟩ <;> first | exact e1 | (exfalso; linarith)
    simp only [hp, gt_iff_lt, n1, n2, n3, n6, h1, h2, if_true, if_false]
    exact ⟨_, rfl, hp, rfl, rfl⟩

/-! ## Findings -/

theorem aborts_of (x1 y1 x2 y2 x3 y3 tol ytol : ℚ) (sqrt : ℚ → ℚ)
    (h : (match init x1 y1 x2 y2 x3 y3 tol ytol with
      | some b => b.nIterations == 0 && (next id b).isNone
      | none => false) = true) :
    ∃ b, init x1 y1 x2 y2 x3 y3 tol ytol = some b ∧ next sqrt b = none := by
  cases hb : init x1 y1 x2 y2 x3 y3 tol ytol with
  | none => rw [hb] at h; cases h
  | some b =>
    rw [hb] at h
    simp only [Bool.and_eq_true, beq_iff_eq, Option.isNone_iff_eq_none] at h
    refine ⟨b, rfl, ?_⟩
    rw [← h.2]
    simp only [next, suggest, h.1, ne_eq, not_true_eq_false, if_false]

/-- **C35.** Finding: with the tolerance left at zero, as `brent_min_init` sets it, the symmetric bracket
    (-1, 1), (0, 0), (1, 1) fails an assertion at the first step: the parabola's minimum is the best
    point itself. -/
theorem C35_symmetric_aborts (sqrt : ℚ → ℚ) :
    ∃ b, init (-1) 1 0 0 1 1 0 0 = some b ∧ next sqrt b = none :=
  aborts_of _ _ _ _ _ _ _ _ sqrt (by decide +kernel)

/-- **C35.** Finding: three equal values are accepted as a bracket if the first point is in the middle, and
    the first step is then not a number, whatever the tolerance asked for (here 1/1000). -/
theorem C35_equal_aborts (sqrt : ℚ → ℚ) :
    ∃ b, init 0 5 (-1) 5 1 5 (1 / 1000) 0 = some b ∧ next sqrt b = none :=
  aborts_of _ _ _ _ _ _ _ _ sqrt (by decide +kernel)

/-- The hypotheses of `C35_init`, `C35_next` and `C35_run` can be met: (x - 1/3)² bracketed by -1, 0 and 2. -/
example : ((init (-1 : ℚ) (16 / 9) 0 (1 / 9) 2 (25 / 9) (1 / 1000) 0).bind (next id)).isSome = true := by
  decide +kernel

theorem goldenStep_ok (f : K → K) (b : State K) (hi : BrentInv f b) :
    goldenStep b ≥ b.xmin ∧ goldenStep b ≤ b.xmax ∧ goldenStep b ≠ b.x 0 := by
  have l0 := hi.low
  have l1 := hi.high
  have g0 := hi.gold0
  have g1 := hi.gold1
  unfold goldenStep
  simp only []
  have hr : 0 < 1 - b.goldRatio := by linarith
  have hr1 : 1 - b.goldRatio < 1 := by linarith
  split
  · have : (b.xmax - b.x 0) * (1 - b.goldRatio) < (b.xmax - b.x 0) * 1 := mul_lt_mul_of_pos_left hr1 (by linarith)
    have : 0 < (b.xmax - b.x 0) * (1 - b.goldRatio) := mul_pos (by linarith) hr
    refine ⟨by linarith, by linarith, ?_⟩
    intro h; linarith
  · have : (b.x 0 - b.xmin) * (1 - b.goldRatio) < (b.x 0 - b.xmin) * 1 := mul_lt_mul_of_pos_left hr1 (by linarith)
    have : 0 < (b.x 0 - b.xmin) * (1 - b.goldRatio) := mul_pos (by linarith) hr
    refine ⟨by linarith, by linarith, ?_⟩
    intro h; linarith

/-- **C35.** The search stops exactly when the four best values differ by no more than the tolerance for values
    (after more than three steps), or both ends of the bracket are nearer to the best point than the tolerance. -/
theorem C35_done (f : K → K) (sqrt : K → K) (b : State K) (hi : BrentInv f b) (ht : 0 < b.tolerance) :
    (∃ b', next sqrt b = some b' ∧ b'.stepType = .done) ↔
      (3 < b.nIterations ∧ b.y 3 - b.y 0 ≤ b.ytolerance) ∨
      (b.xmax - b.x 0 < b.tolerance ∧ b.x 0 - b.xmin < b.tolerance) := by
  have l0 := hi.low
  have l1 := hi.high
  have hd : isDone b = true ↔ (3 < b.nIterations ∧ b.y 3 - b.y 0 ≤ b.ytolerance) ∨
      (b.xmax - b.x 0 < b.tolerance ∧ b.x 0 - b.xmin < b.tolerance) := by
    unfold isDone
    by_cases h : b.nIterations > 3 ∧ b.y 3 - b.y 0 ≤ b.ytolerance
    · rw [if_pos h]; exact ⟨fun _ => Or.inl h, fun _ => rfl⟩
    · rw [if_neg h, decide_eq_true_eq]
      exact ⟨Or.inr, fun g => g.resolve_left h⟩
  rw [← hd]
  constructor
  · rintro ⟨b', h1, h2⟩
    rcases C35_next f sqrt b b' hi ht h1 with ⟨-, h⟩ | ⟨v, k, rfl, -, h⟩
    · exact h
    · exact absurd h2 h
  · intro h
    refine ⟨{ b with stepType := .done }, ?_, rfl⟩
    unfold next
    rw [if_pos ⟨ne_of_gt (by linarith), ne_of_gt (by linarith)⟩, if_pos h]

/-- **C35.** The first point suggested is the vertex of the parabola through the three starting points. -/
theorem C35_vertex (sqrt : K → K) (b : State K) (h0 : b.nIterations = 0)
    (h01 : b.x 0 ≠ b.x 1) (h12 : b.x 1 ≠ b.x 2) (h02 : b.x 0 ≠ b.x 2) (p q c : K)
    (h : ∀ i < 3, p * b.x i ^ 2 + q * b.x i + c = b.y i) :
    (p ≠ 0 → ∃ r, suggest sqrt b = some (.quadratic, .fin r) ∧ 2 * p * r + q = 0) ∧
    (p = 0 → q ≠ 0 → suggest sqrt b = some (.quadratic, .inf)) ∧
    (p = 0 → q = 0 → suggest sqrt b = some (.quadratic, .nan)) := by
  unfold suggest
  rw [if_neg (by simp [h0]), C36_unique b.x b.y h01 h12 h02 p q c h]
  simp only [Option.map_some, Dbl.div]
  refine ⟨fun hp => ⟨-q * (1 / 2) / p, ?_, ?_⟩, fun hp hq => ?_, fun hp hq => ?_⟩
  · rw [if_pos hp]
  · field_simp; ring
  · rw [if_neg (by simp [hp]), if_neg (by simpa using hq)]
  · rw [if_neg (by simp [hp]), if_pos (by simp [hq])]

theorem next_golden (f : K → K) (sqrt : K → K) (b : State K) (hi : BrentInv f b)
    (hd : isDone b = false) (kind : Step) (cand : Dbl K) (hs : suggest sqrt b = some (kind, cand))
    (hp : pick b kind cand = (.fin (goldenStep b), .golden)) :
    next sqrt b = some { b with nextX := goldenStep b, stepType := .golden } := by
  have l0 := hi.low
  have l1 := hi.high
  unfold next
  rw [if_pos ⟨ne_of_gt (by linarith), ne_of_gt (by linarith)⟩, if_neg (by simp [hd]), hs, Option.bind_some]
  unfold finish
  rw [hp]
  simp only []
  rw [if_pos (goldenStep_ok f b hi)]

/-- **C35.** From the 31st step on, every odd one is a golden section of the longer side of the bracket. -/
theorem C35_golden (f : K → K) (sqrt : K → K) (b : State K) (hi : BrentInv f b)
    (hd : isDone b = false) (hn : 30 < b.nIterations) (hodd : b.nIterations % 2 = 1) :
    next sqrt b = some { b with
      nextX := if b.x 0 - b.xmin < b.xmax - b.x 0 then b.x 0 + (b.xmax - b.x 0) * (1 - b.goldRatio)
        else b.x 0 - (b.x 0 - b.xmin) * (1 - b.goldRatio)
      stepType := .golden } := by
  obtain ⟨⟨kind, cand⟩, hs⟩ := C35_suggest f sqrt b hi
  rw [next_golden f sqrt b hi hd kind cand hs]
  · unfold goldenStep
    simp only [gt_iff_lt]
    split
    · rfl
    · rw [neg_mul, ← sub_eq_add_neg]
  · unfold pick
    split
    · rfl
    · split
      · rfl
      · rw [if_pos ⟨hn, hodd⟩]

/-- **C35.** When the cubic through the four points has no stationary point (its derivative 3au² + 2bu + c has a
    negative discriminant), the next point is a golden section. -/
theorem C35_no_minimum (f : K → K) (sqrt : K → K) (b : State K) (hi : BrentInv f b)
    (hd : isDone b = false) (hn : b.nIterations ≠ 0) (p q c : K) (h : cubicCoeffs b.x b.y = some (p, q, c))
    (hneg : (2 * q) ^ 2 - 4 * (3 * p) * c < 0) :
    next sqrt b = some { b with
      nextX := if b.x 0 - b.xmin < b.xmax - b.x 0 then b.x 0 + (b.xmax - b.x 0) * (1 - b.goldRatio)
        else b.x 0 - (b.x 0 - b.xmin) * (1 - b.goldRatio)
      stepType := .golden } := by
  have hs : suggest sqrt b = some (.golden, .nan) := by
    unfold suggest cubicMin
    rw [if_pos hn, h]
    simp only [Option.map_some]
    rw [if_pos (by linarith)]
  rw [next_golden f sqrt b hi hd _ _ hs]
  · unfold goldenStep
    simp only [gt_iff_lt]
    split
    · rfl
    · rw [neg_mul, ← sub_eq_add_neg]
  · unfold pick; rw [if_pos rfl]

/-- A state as after one step, for a function with the values 0, 1, 10, 11 at 0, 1, -2, 3. -/
def someState : State ℚ where
  x := fun i => if i = 0 then 0 else if i = 1 then 1 else if i = 2 then -2 else 3
  y := fun i => if i = 0 then 0 else if i = 1 then 1 else if i = 2 then 10 else 11
  xmin := -2
  xmax := 1
  nextX := 0
  goldRatio := PHI
  tolerance := 1 / 100
  ytolerance := 0
  stepType := .cubic
  nIterations := 31

example : ∃ f, BrentInv f someState ∧ isDone someState = false ∧ 30 < someState.nIterations ∧ someState.nIterations % 2 = 1 := by
  refine ⟨fun x => if x = 0 then 0 else if x = 1 then 1 else if x = -2 then 10 else 11, ⟨?_, ?_, ?_, ?_, ?_, ?_, ?_, ?_, ?_, ?_⟩,
    by decide +kernel, by decide, by decide⟩
  · intro i j h1 h2
    have : j < 4 := h2
    have hj : j = 0 ∨ j = 1 ∨ j = 2 ∨ j = 3 := by omega
    have hi : i = 0 ∨ i = 1 ∨ i = 2 ∨ i = 3 := by omega
    rcases hj with rfl | rfl | rfl | rfl <;> rcases hi with rfl | rfl | rfl | rfl <;> first | omega | decide +kernel
  all_goals decide +kernel

end Verif.Props
